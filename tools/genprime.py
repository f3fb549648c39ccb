exec(open('/verif/tools/pratt.py').read().replace("for n in sorted(done): print(n,done[n])",""))
out='''import Mathlib.NumberTheory.LucasPrimality
import Mathlib.Tactic.NormNum.Prime
import Mathlib.Data.ZMod.Basic

/-!
# Primality of the field size p and of the group order L

Pratt certificates, checked by kernel evaluation of `powMod` (generated by tools/genprime.py).
-/

namespace Ed

/-- `powMod n fuel b e acc = acc * b^e mod n` if `e < 2^fuel` (binary exponentiation). -/
def powMod (n : Nat) : Nat → Nat → Nat → Nat → Nat
  | 0, _, _, acc => acc
  | k + 1, b, e, acc => powMod n k (b * b % n) (e / 2) (if e % 2 = 1 then acc * b % n else acc)

theorem powMod_spec (n : Nat) : ∀ (k b e acc : Nat), e < 2 ^ k →
    ((powMod n k b e acc : Nat) : ZMod n) = (acc : ZMod n) * (b : ZMod n) ^ e
  | 0, b, e, acc, h => by
      have : e = 0 := by simpa using h
      subst this; simp [powMod]
  | k + 1, b, e, acc, h => by
      rw [powMod, powMod_spec n k _ _ _ (by rw [pow_succ] at h; omega)]
      have he : e = 2 * (e / 2) + e % 2 := by omega
      have key : (b : ZMod n) ^ e = ((b : ZMod n) * b) ^ (e / 2) * (b : ZMod n) ^ (e % 2) := by
        conv_lhs => rw [he, pow_add, pow_mul, sq]
      rw [key, ZMod.natCast_mod, Nat.cast_mul]
      split
      · rename_i h1
        rw [ZMod.natCast_mod, Nat.cast_mul, h1]; ring
      · rename_i h1
        have : e % 2 = 0 := by omega
        rw [this]; ring

/-- One step of a Pratt certificate: `a` is a witness, `fs` the prime factors of `n - 1` (with multiplicity). -/
def prattCheck (n a k : Nat) (fs : List Nat) : Bool :=
  fs.prod == n - 1 && decide (n - 1 < 2 ^ k) && decide (2 < n) && powMod n k a (n - 1) 1 == 1 &&
    fs.all fun q => powMod n k a ((n - 1) / q) 1 != 1

theorem pratt (n a k : Nat) (fs : List Nat) (h : prattCheck n a k fs = true)
    (hp : ∀ q ∈ fs, q.Prime) : n.Prime := by
  simp only [prattCheck, Bool.and_eq_true, beq_iff_eq, decide_eq_true_eq, List.all_eq_true,
    bne_iff_ne, ne_eq] at h
  obtain ⟨⟨⟨⟨h1, h2⟩, h3⟩, h4⟩, h5⟩ := h
  have lt : ∀ k b e acc, acc < n → powMod n k b e acc < n := by
    intro k
    induction k with
    | zero => intro b e acc h; simpa [powMod]
    | succ k ih =>
      intro b e acc h
      rw [powMod]; apply ih; split
      · exact Nat.mod_lt _ (by omega)
      · exact h
  have one : ∀ e, e < 2 ^ k → ((powMod n k a e 1 = 1) ↔ ((a : ZMod n) ^ e = 1)) := by
    intro e he
    have hs := powMod_spec n k a e 1 he
    rw [Nat.cast_one, one_mul] at hs
    rw [← hs, ← Nat.cast_one (R := ZMod n), ZMod.natCast_eq_natCast_iff']
    rw [Nat.mod_eq_of_lt (lt k a e 1 (by omega)), Nat.mod_eq_of_lt (by omega : 1 < n)]
  refine lucas_primality n (a : ZMod n) ((one _ h2).1 h4) ?_
  intro q hq hdvd
  have hmem : q ∈ fs := by
    rw [← h1] at hdvd
    obtain ⟨r, hr, hqr⟩ := (Prime.dvd_prod_iff hq.prime).1 hdvd
    rwa [(Nat.prime_dvd_prime_iff_eq hq (hp r hr)).1 hqr]
  intro hc
  exact h5 q hmem ((one _ (lt_of_le_of_lt (Nat.div_le_self _ _) h2)).2 hc)

'''
names={}
for n in sorted(done):
    a,fs=done[n]
    nm={p:'prime_p',L:'prime_L'}.get(n,f'prime_{n}')
    names[n]=nm
    stm={p:'(2 ^ 255 - 19)',L:'(2 ^ 252 + 27742317777372353535851937790883648493)'}.get(n,str(n))
    if n<10**6:
        if any(n in v[1] and m>=10**6 for m,v in done.items()):
            out+=f"private theorem {nm} : Nat.Prime {n} := by norm_num\n"
        continue
    out+=f"""{'' if n in(p,L) else 'private '}theorem {nm} : Nat.Prime {stm} := by
  refine pratt _ {a} {n.bit_length()} {fs} (by decide +kernel) ?_
  simp only [List.mem_cons, List.not_mem_nil, or_false]
  rintro q ({' | '.join(['rfl']*len(fs))})
"""
    for q in fs:
        out+= f"  · exact {names[q]}\n" if q>=1000 else "  · norm_num\n"
out+="\nend Ed\n"
open('/verif/lean/Verif/Spec/Prime.lean','w').write(out)

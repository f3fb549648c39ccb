#!/usr/bin/env python3
# Generates lean/Verif/Proofs/ScalarIO.lean: loading the limbs, products, result bytes.
import sys; sys.argv=['x']
import re
exec(open('/verif/tools/gen_scalar_model.py').read())
o=[]
o.append('''import Verif.Proofs.Scalar

/-!
# Arithmetic modulo the group order: loads, products, result bytes (generated by tools/gen_scalar_proofs.py)
-/

set_option exponentiation.threshold 600
set_option maxRecDepth 4000

namespace Ed

theorem leVal_drop (b : Bytes) (o : ℕ) : leVal b / 256 ^ o = leVal (b.drop o) := by
  by_cases h : o ≤ b.length
  · have e := leVal_append (b.take o) (b.drop o)
    rw [List.take_append_drop, List.length_take, Nat.min_eq_left h] at e
    have hl := leVal_lt (b.take o)
    rw [List.length_take, Nat.min_eq_left h] at hl
    rw [e, Nat.add_mul_div_left _ _ (by positivity), Nat.div_eq_of_lt hl, Nat.zero_add]
  · rw [List.drop_of_length_le (by omega)]
    apply Nat.div_eq_of_lt
    exact (leVal_lt b).trans_le (Nat.pow_le_pow_right (by norm_num) (by omega))

theorem leVal_take (b : Bytes) (n : ℕ) : leVal b % 256 ^ n = leVal (b.take n) := by
  by_cases h : n ≤ b.length
  · have e := leVal_append (b.take n) (b.drop n)
    rw [List.take_append_drop, List.length_take, Nat.min_eq_left h] at e
    have hl := leVal_lt (b.take n)
    rw [List.length_take, Nat.min_eq_left h] at hl
    rw [e, Nat.add_mul_mod_self_left, Nat.mod_eq_of_lt hl]
  · rw [List.take_of_length_le (by omega)]
    apply Nat.mod_eq_of_lt
    exact (leVal_lt b).trans_le (Nat.pow_le_pow_right (by norm_num) (by omega))

theorem byteN_drop (b : Bytes) (o i : ℕ) : byteN (b.drop o) i = byteN b (o + i) := by
  simp [byteN, List.getD_eq_getElem?_getD, List.getElem?_drop]

theorem threeBytes_val (b : Bytes) (o : ℕ) :
    (threeBytesToLong b o).toInt = ((leVal b / 256 ^ o % 256 ^ 3 : ℕ) : ℤ) := by
  rw [threeBytes_spec, leVal_drop, leVal_take, leVal_take_succ, leVal_take_succ, leVal_take_succ]
  simp only [byteN_drop, List.take_zero, leVal, Nat.add_zero]
  norm_num

theorem fourBytes_val (b : Bytes) (o : ℕ) :
    (fourBytesToLong b o).toInt = ((leVal b / 256 ^ o % 256 ^ 4 : ℕ) : ℤ) := by
  rw [fourBytes_spec, leVal_drop, leVal_take, leVal_take_succ, leVal_take_succ, leVal_take_succ, leVal_take_succ]
  simp only [byteN_drop, List.take_zero, leVal, Nat.add_zero]
  norm_num

/-- `n` bits at position `k` of a window of `w` bits at position `o`. -/
theorem window (N o w k n : ℕ) (h : k + n ≤ w) : N / 2 ^ o % 2 ^ w / 2 ^ k % 2 ^ n = N / 2 ^ (o + k) % 2 ^ n := by
  obtain ⟨m, rfl⟩ : ∃ m, w = k + m := ⟨w - k, by omega⟩
  rw [pow_add, Nat.mod_mul_right_div_self, Nat.mod_mod_of_dvd _ (pow_dvd_pow 2 (by omega)),
    Nat.div_div_eq_div_mul, pow_add]

theorem load_masked {x : Int64} {N o w : ℕ} (k : ℕ) (h : x.toInt = ((N / 2 ^ o % 2 ^ w : ℕ) : ℤ)) (hk : k + 21 ≤ w) :
    (0x1FFFFF &&& sar x k).toInt = ((N / 2 ^ (o + k) % 2 ^ 21 : ℕ) : ℤ) := by
  rw [← window N o w k 21 hk]
  exact (toInt_and_mask 21 _ (by norm_num) 0x1FFFFF rfl (sar_nat h k)).1

theorem load_masked0 {x : Int64} {N o w : ℕ} (h : x.toInt = ((N / 2 ^ o % 2 ^ w : ℕ) : ℤ)) (hk : 21 ≤ w) :
    (0x1FFFFF &&& x).toInt = ((N / 2 ^ o % 2 ^ 21 : ℕ) : ℤ) := by
  have := (toInt_and_mask 21 _ (by norm_num) 0x1FFFFF rfl h).1
  rw [this, Nat.mod_mod_of_dvd _ (pow_dvd_pow 2 hk)]

theorem three' (b : Bytes) (o : ℕ) : (threeBytesToLong b o).toInt = ((leVal b / 2 ^ (8 * o) % 2 ^ 24 : ℕ) : ℤ) := by
  rw [threeBytes_val, pow_mul]; norm_num

theorem four' (b : Bytes) (o : ℕ) : (fourBytesToLong b o).toInt = ((leVal b / 2 ^ (8 * o) % 2 ^ 32 : ℕ) : ℤ) := by
  rw [fourBytes_val, pow_mul]; norm_num

/-- Limbs that are consecutive 21-bit digits of `N`. -/
theorem V_digits {s : Limbs} {N : ℕ} : ∀ n, (∀ i < n, (s i).toInt = ((N / 2 ^ (21 * i) % 2 ^ 21 : ℕ) : ℤ)) →
    V pos21 s n = ((N % 2 ^ (21 * n) : ℕ) : ℤ)
  | 0, _ => by simp [V, Nat.mod_one]
  | n + 1, h => by
      rw [V, V_digits n (fun i hi => h i (by omega)), h n (by omega), pos21, Nat.mul_succ, pow_add, Nat.mod_mul]
      push_cast; ring
''')
def ld(e):
    m=re.search(r'(three|four)BytesToLong b (\d+)',e); k=re.search(r'\) (\d+)$',e)
    base=f"{m.group(1)}' b {m.group(2)}"
    if '&&&' in e:
        return f'load_masked {k.group(1)} ({base}) (by norm_num)' if k else f'load_masked0 ({base}) (by norm_num)'
    return None
for name,L,n,top,bits in (('load24',L24,23,29,512),('load12',L12['a'],11,25,256)):
    o.append(f'theorem {name}_digit (b : Bytes) (i : ℕ) (h : i < {n}) :\n    ({name} b i).toInt = ((leVal b / 2 ^ (21 * i) % 2 ^ 21 : ℕ) : ℤ) := by\n  match i, h with')
    for i in range(n): o.append(f'  | {i}, _ => exact {ld(L[i])}')
    o.append(f'  | k + {n}, h => omega')
    m=re.search(r'fourBytesToLong b (\d+)\) (\d+)$',L[n])
    o.append(f'''
theorem {name}_top (b : Bytes) : ({name} b {n}).toInt = ((leVal b / 2 ^ {21*n} % 2 ^ {top} : ℕ) : ℤ) := by
  have h := sar_nat (four' b {m.group(1)}) {m.group(2)}
  have e : (leVal b / 2 ^ (8 * {m.group(1)}) % 2 ^ 32 / 2 ^ {m.group(2)}) = leVal b / 2 ^ {21*n} % 2 ^ {top} := by
    rw [← window (leVal b) (8 * {m.group(1)}) 32 {m.group(2)} {top} (by norm_num), Nat.mod_eq_of_lt (b := 2 ^ {top})]
    exact Nat.div_lt_of_lt_mul (by rw [← pow_add]; exact Nat.mod_lt _ (by positivity))
  rw [e] at h
  exact h

theorem {name}_value (b : Bytes) : V pos21 ({name} b) {n+1} = ((leVal b % 2 ^ {bits} : ℕ) : ℤ) := by
  rw [V, V_digits {n} (fun i hi => {name}_digit b i hi), {name}_top, pos21]
  have e : leVal b % 2 ^ {bits} = leVal b % 2 ^ {21*n} + 2 ^ {21*n} * (leVal b / 2 ^ {21*n} % 2 ^ {top}) := by
    rw [← Nat.mod_mul, ← pow_add]
  rw [e]; push_cast; ring
''')
o.append('''theorem InB_of {s : Limbs} {b : Bnds} {lo hi : ℤ} (hb : ∀ q ∈ b, q.1 ≤ lo ∧ hi ≤ q.2)
    (h : ∀ i < b.length, lo ≤ (s i).toInt ∧ (s i).toInt ≤ hi) : InB s b := by
  intro i l u hi'
  obtain ⟨hlt, he⟩ := List.getElem?_eq_some_iff.1 hi'
  have h1 := hb (l, u) (he ▸ List.getElem_mem hlt)
  have h2 := h i hlt
  exact ⟨h1.1.trans h2.1, h2.2.trans h1.2⟩

theorem load24_inB (b : Bytes) : InB (load24 b) redIn := by
  apply InB_of (lo := 0) (hi := 2 ^ 30)
  · decide
  · intro i hi
    have hl : redIn.length = 24 := rfl
    rw [hl] at hi
    by_cases h : i = 23
    · subst h
      rw [load24_top]
      have := Nat.mod_lt (leVal b / 2 ^ 483) (show 0 < 2 ^ 29 by norm_num)
      constructor <;> omega
    · rw [load24_digit b i (by omega)]
      have := Nat.mod_lt (leVal b / 2 ^ (21 * i)) (show 0 < 2 ^ 21 by norm_num)
      constructor <;> omega
''')
# products
def tonat(e):
    return re.sub(r'\b([abc]) (\d+)',lambda m:m.group(1).upper()+' '+m.group(2),e)
o.append('''theorem of_ofNat {x : Int64} {n : ℕ} (h : x = Int64.ofInt (n : ℤ)) (hn : n ≤ 2 ^ 51) : x.toInt = (n : ℤ) := by
  rw [h]; exact toInt_ofInt_of_fits ⟨by omega, by omega⟩

set_option maxHeartbeats 4000000 in
/-- Products of the loaded limbs: no wrap-around, exact value. -/
theorem mulAddProducts_spec {a b c : Limbs} {A B C : ℕ → ℕ}
    (ha : ∀ i, i < 12 → a i = Int64.ofInt (A i : ℤ)) (hb : ∀ i, i < 12 → b i = Int64.ofInt (B i : ℤ))
    (hc : ∀ i, i < 12 → c i = Int64.ofInt (C i : ℤ))
    (bA : ∀ i, i < 11 → A i ≤ 2 ^ 21) (bB : ∀ i, i < 11 → B i ≤ 2 ^ 21) (bC : ∀ i, i < 12 → C i ≤ 2 ^ 25)
    (tA : A 11 ≤ 2 ^ 25) (tB : B 11 ≤ 2 ^ 25) :''')
sts=[]
for i,e in enumerate(prod):
    sts.append(f'((mulAddProducts a b c {i}).toInt = (({tonat(e)} : ℕ) : ℤ) ∧ {tonat(e)} ≤ 2 ^ 50)')
o.append('    '+' ∧\n    '.join(sts)+' := by')
for v in 'AB':
    for i in range(11): o.append(f'  have b{v}{i} := b{v} {i} (by norm_num)')
for i in range(12): o.append(f'  have bC{i} := bC {i} (by norm_num)')
o.append('  clear bA bB bC')
for v in 'abc':
    o.append('  '+'; '.join(f'have h{v}{i} := h{v} {i} (by norm_num)' for i in range(12)))
o.append('  clear ha hb hc')
o.append('  refine ⟨'+', '.join('?_' for _ in prod)+'⟩')
for i,e in enumerate(prod):
    if i==23:
        o.append('  · exact ⟨rfl, by norm_num⟩'); continue
    bound=re.sub(r'[ab] (\d+)',lambda m:'2 ^ 25' if m.group(1)=='11' else '2 ^ 21',e); bound=re.sub(r'c (\d+)','2 ^ 25',bound)
    hs=[f'h{v}{k}' for v,k in re.findall(r'([abc]) (\d+)',e)]
    hs=list(dict.fromkeys(hs))
    gc=f'(calc {tonat(e)} ≤ {bound} := by gcongr\n        _ ≤ 2 ^ 50 := by norm_num)'
    o.append(f'''  · have hle : {tonat(e)} ≤ 2 ^ 50 := {gc}
    refine ⟨of_ofNat ?_ (hle.trans (by norm_num)), hle⟩
    simp only [mulAddProducts, {', '.join(hs)}]
    push_cast
    simp only [Int64.ofInt_add, Int64.ofInt_mul]''')
o.append('')
# value
o.append('''set_option maxHeartbeats 4000000 in
/-- Value of the products. -/
theorem mulAddProducts_value {a b c : Limbs} {A B C : ℕ → ℕ}
    (ha : ∀ i, i < 12 → a i = Int64.ofInt (A i : ℤ)) (hb : ∀ i, i < 12 → b i = Int64.ofInt (B i : ℤ))
    (hc : ∀ i, i < 12 → c i = Int64.ofInt (C i : ℤ))
    (bA : ∀ i, i < 11 → A i ≤ 2 ^ 21) (bB : ∀ i, i < 11 → B i ≤ 2 ^ 21) (bC : ∀ i, i < 12 → C i ≤ 2 ^ 25)
    (tA : A 11 ≤ 2 ^ 25) (tB : B 11 ≤ 2 ^ 25) :
    V pos21 (mulAddProducts a b c) 24 = V pos21 a 12 * V pos21 b 12 + V pos21 c 12 := by
  have hsp := mulAddProducts_spec ha hb hc bA bB bC tA tB
  obtain ⟨'''+', '.join(f'⟨p{i}, -⟩' for i in range(24))+'''⟩ := hsp
  have cv : ∀ {x : Int64} {n : ℕ}, x = Int64.ofInt (n : ℤ) → n ≤ 2 ^ 25 → x.toInt = (n : ℤ) := fun h1 h2 =>
    of_ofNat h1 (h2.trans (by norm_num))
  have aI : ∀ i, i < 12 → (a i).toInt = (A i : ℤ) := fun i hi => cv (ha i hi) (by
    by_cases h : i = 11
    · subst h; exact tA
    · exact (bA i (by omega)).trans (by norm_num))
  have bI : ∀ i, i < 12 → (b i).toInt = (B i : ℤ) := fun i hi => cv (hb i hi) (by
    by_cases h : i = 11
    · subst h; exact tB
    · exact (bB i (by omega)).trans (by norm_num))
  have cI : ∀ i, i < 12 → (c i).toInt = (C i : ℤ) := fun i hi => cv (hc i hi) (bC i hi)
  obtain ⟨X, hX⟩ : ∃ X : ℤ, ∀ i, (2 : ℤ) ^ pos21 i = X ^ i := ⟨2 ^ 21, fun i => by rw [pos21, pow_mul]⟩
  simp only [V, hX, '''+', '.join(f'p{i}' for i in range(24))+']')
for v in 'abc':
    o.append('  rw ['+', '.join(f'{v}I {i} (by norm_num)' for i in range(12))+']')
o.append('''  push_cast
  ring
''')
# bytes
nm=[f'a{i}' for i in range(12)]
val=' + '.join(f'2 ^ {21*i} * a{i}' if i else 'a0' for i in range(12))
o.append('set_option maxHeartbeats 4000000 in\n/-- The result bytes are the little-endian encoding. -/\ntheorem scalarBytes_spec {s : Limbs} {'+' '.join(nm)+' : ℕ}')
for i in range(12):
    o.append(f'    (h{i} : (s {i}).toInt = (a{i} : ℤ)) (b{i} : a{i} < 2 ^ {21 if i<11 else 22})')
o.append(f'    : scalarBytes s = leBytes 32 ({val}) := by\n  rw [leBytes32]\n  unfold scalarBytes')
for i,e in enumerate(QB):
    rhs=f'_ = UInt8.ofNat (({val}) / 2 ^ {8*i} % 256)'
    m=re.fullmatch(r'toByte \(s (\d+)\)',e)
    m1=re.fullmatch(r'toByte \(sar \(s (\d+)\) (\d+)\)',e)
    m2=re.fullmatch(r'toByte \(\(sar \(s (\d+)\) (\d+)\) \|\|\| \(shl \(s (\d+)\) (\d+)\)\)',e)
    if m: pr=f'byte_plain h{m.group(1)} (by omega)'
    elif m1: pr=f'byte_sar {m1.group(2)} h{m1.group(1)} (by omega)'
    else: pr=f'byte_or {m2.group(2)} {m2.group(4)} h{m2.group(1)} h{m2.group(3)} b{m2.group(1)} (by omega) (by omega)'
    o.append(f'  have e{i} : {rhs} := {pr}')
o.append('  rw ['+', '.join(f'e{i}' for i in range(32))+']\n')
o.append('''set_option maxHeartbeats 4000000 in
theorem scalarBytes_of_reduced {s : Limbs} (h : InB s redOut) {n : ℕ} (hv : V pos21 s 12 = (n : ℤ)) (hn : n < L) :
    scalarBytes s = leBytes 32 n := by
  simp only [redOut, InB_cons, InB_nil, and_true, Nat.reduceAdd, Nat.zero_add] at h
  obtain ⟨'''+', '.join(f'h{i}' for i in range(12))+'''⟩ := h
  simp only [V, pos21] at hv
  rw [L_eq] at hn
  have h11' : 0 ≤ (s 11).toInt ∧ (s 11).toInt < 2 ^ 22 := by constructor <;> omega
'''+'\n'.join(f"  obtain ⟨x{i}, e{i}⟩ := Int.eq_ofNat_of_zero_le h{i}{chr(39) if i==11 else ''}.1" for i in range(12))+'''
  rw ['''+', '.join(f'e{i}' for i in range(12))+'''] at hv
'''+'\n'.join(f"  rw [e{i}] at h{i}{chr(39) if i==11 else ''}" for i in range(12))+'''
  have hsum : n = '''+' + '.join(f'2 ^ {21*i} * x{i}' if i else 'x0' for i in range(12))+''' := by
    clear * - hv
    omega
  rw [hsum]
  exact scalarBytes_spec '''+' '.join(f"e{i} (by clear hv hn hsum; omega)" for i in range(12))+'''

/-- `modQ` computes the canonical residue. -/
theorem modQ_spec (b : Bytes) : modQ b = leBytes 32 (leVal b % 2 ^ 512 % L) := by
  obtain ⟨h1, h2⟩ := reduceOps_spec (load24_inB b)
  unfold modQ
  apply scalarBytes_of_reduced h1 _ (Nat.mod_lt _ (by rw [L_eq]; norm_num))
  rw [h2, load24_value]; push_cast; rfl

/-- Range check for the first carries of `multiplyAndAddModQ`. -/
def prodIn : Bnds := List.replicate 23 (0, 2 ^ 50) ++ [(0, 0)]

theorem mulAddCarries_check : checkRun pos21 LI mulAddCarries (24, prodIn) 24 redIn = true := by decide +kernel

theorem load12_ofNat (b : Bytes) (i : ℕ) (h : i < 12) : load12 b i = Int64.ofInt ((load12 b i).toInt.toNat : ℤ) := by
  have : 0 ≤ (load12 b i).toInt := by
    by_cases h' : i = 11
    · subst h'; rw [load12_top]; exact Int.natCast_nonneg _
    · rw [load12_digit b i (by omega)]; exact Int.natCast_nonneg _
  rw [Int.toNat_of_nonneg this, Int64.ofInt_toInt]

theorem load12_bound (b : Bytes) (i : ℕ) (h : i < 11) : (load12 b i).toInt.toNat ≤ 2 ^ 21 := by
  rw [load12_digit b i h, Int.toNat_natCast]
  exact (Nat.mod_lt _ (by norm_num)).le

theorem load12_bound_top (b : Bytes) : (load12 b 11).toInt.toNat ≤ 2 ^ 25 := by
  rw [load12_top, Int.toNat_natCast]
  exact (Nat.mod_lt _ (by norm_num)).le

theorem load12_bound' (b : Bytes) (i : ℕ) (h : i < 12) : (load12 b i).toInt.toNat ≤ 2 ^ 25 := by
  by_cases h' : i = 11
  · subst h'; exact load12_bound_top b
  · exact (load12_bound b i (by omega)).trans (by norm_num)

/-- `multiplyAndAddModQ` computes the canonical residue of `a*b+c`. -/
theorem multiplyAndAddModQ_spec (a b c : Bytes) : multiplyAndAddModQ a b c =
    leBytes 32 ((leVal a % 2 ^ 256 * (leVal b % 2 ^ 256) + leVal c % 2 ^ 256) % L) := by
  have hsp := mulAddProducts_spec (load12_ofNat a) (load12_ofNat b) (load12_ofNat c) (load12_bound a) (load12_bound b)
    (load12_bound' c) (load12_bound_top a) (load12_bound_top b)
  have hval := mulAddProducts_value (load12_ofNat a) (load12_ofNat b) (load12_ofNat c) (load12_bound a) (load12_bound b)
    (load12_bound' c) (load12_bound_top a) (load12_bound_top b)
  have hin : InB (mulAddProducts (load12 a) (load12 b) (load12 c)) prodIn := by
    simp only [prodIn, List.replicate, List.cons_append, List.nil_append, InB_cons, InB_nil, and_true, Nat.reduceAdd, Nat.zero_add]
    obtain ⟨'''+', '.join(f'⟨p{i}, q{i}⟩' for i in range(24))+'''⟩ := hsp
    have k : ∀ {x : Int64} {n : ℕ}, x.toInt = (n : ℤ) → n ≤ 2 ^ 50 → 0 ≤ x.toInt ∧ x.toInt ≤ 2 ^ 50 := by
      intro x n h1 h2; rw [h1]; constructor <;> omega
    exact ⟨'''+', '.join(f'k p{i} q{i}' for i in range(23))+''', by rw [p23]; simp⟩
  obtain ⟨h1, v1⟩ := checkRun_sound mulAddCarries_check hin
  obtain ⟨h2, v2⟩ := reduceOps_spec h1
  unfold multiplyAndAddModQ
  apply scalarBytes_of_reduced h2 _ (Nat.mod_lt _ (by rw [L_eq]; norm_num))
  rw [v2]
  rw [LI_eq, hval, load12_value, load12_value, load12_value] at v1
  rw [← Nat.cast_mul, ← Nat.cast_add] at v1
  rw [Int.natCast_mod]
  exact Int.ModEq.symm ((Int.modEq_iff_dvd).2 v1)

end Ed''')
open('/verif/lean/Verif/Proofs/ScalarIO.lean','w').write('\n'.join(o)+'\n')

import Verif.Spec.Scheme
import Verif.Model.Dsa
import Verif.Proofs.Tables
import Verif.Proofs.ScalarMul
import Verif.Proofs.ScalarIO
import Verif.Proofs.Compare

/-!
# Keys, hashing and clamping
-/

set_option exponentiation.threshold 600

namespace Ed

variable (E : Env)

/-- `Out.ok_bind` as a propositional rewrite rule (simp must not treat it as a definitional one: the kernel
would start to evaluate the arithmetic). -/
theorem Out.bind_ok {α β : Type} (a : α) (f : α → Out β) : ((Out.ok a : Out α) >>= f) = f a := by
  have : ∀ x, x = Out.ok a → (x >>= f) = f a := by intro x hx; rw [hx]; rfl
  exact this _ rfl

theorem foldl_write (H : Hasher) : ∀ (l : List Bytes) (s : H.σ), l.foldl H.write s = H.write s l.flatten
  | [], s => by simp [H.write_nil]
  | b :: l, s => by rw [List.foldl_cons, foldl_write H l, H.write_append]; rfl

theorem hashes_flatten (l : List Bytes) : hashesSha3_512 E l = Hash E l.flatten := by
  unfold hashesSha3_512 Hash; rw [foldl_write]

theorem Hash_length (m : Bytes) : (Hash E m).length = 64 := E.sha512_length _

theorem clamp_low : ∀ n < 256, (UInt8.ofNat n &&& 0xF8).toNat = 8 * (n / 8) := by decide +kernel
theorem clamp_high : ∀ n < 256, ((UInt8.ofNat n &&& 0x7F) ||| 0x40).toNat = 64 + n % 64 := by decide +kernel

theorem and_F8 (b : UInt8) : (b &&& 0xF8).toNat = 8 * (b.toNat / 8) := by
  simpa using clamp_low b.toNat b.toNat_lt
theorem and_or_top (b : UInt8) : ((b &&& 0x7F) ||| 0x40).toNat = 64 + b.toNat % 64 := by
  simpa using clamp_high b.toNat b.toNat_lt

/-- A 32-byte string is a first byte, 30 bytes, and a last byte. -/
theorem split32 {a : Bytes} (h : a.length = 32) : ∃ (x : UInt8) (m : Bytes) (y : UInt8), m.length = 30 ∧ a = x :: (m ++ [y]) := by
  match a, h with
  | x :: t, h =>
    have ht : t.length = 31 := by simpa using h
    have hn : t ≠ [] := by intro e; rw [e] at ht; cases ht
    refine ⟨x, t.dropLast, t.getLast hn, by simp [ht], ?_⟩
    rw [List.dropLast_concat_getLast]

theorem clamp_eq {x y : UInt8} {m : Bytes} (h : m.length = 30) :
    clamp (x :: (m ++ [y])) = (x &&& 0xF8) :: (m ++ [(y &&& 0x7F) ||| 0x40]) := by
  unfold clamp
  simp [List.set_append, h, List.getElem?_append]

theorem clamp_spec {a : Bytes} (h : a.length = 32) :
    (clamp a).length = 32 ∧ leVal (clamp a) = 2 ^ 254 + 8 * (leVal a / 8 % 2 ^ 251) := by
  obtain ⟨x, m, y, hm, rfl⟩ := split32 h
  rw [clamp_eq hm]
  refine ⟨by simp [hm], ?_⟩
  have hx := x.toNat_lt
  have hy := y.toNat_lt
  have hM := leVal_lt m
  simp only [leVal, leVal_append, and_F8, and_or_top, hm] at *
  generalize leVal m = M at *
  generalize x.toNat = X at *
  generalize y.toNat = Y at *
  omega

theorem prepare_spec (k : PrivateKey) :
    ∃ a, prepareForScalarMultiply E (some k) = .ok a ∧ a.length = 32 ∧ leVal a = secretScalar E k.raw := by
  have h : ((Hash E k.raw).take 32).length = 32 := by simp [Hash_length]
  obtain ⟨h1, h2⟩ := clamp_spec h
  refine ⟨_, rfl, ?_, ?_⟩
  · rw [hashes_flatten]; simpa using h1
  · rw [hashes_flatten]; simpa [secretScalar] using h2

theorem secretScalar_bounds (sk : Bytes) : 2 ^ 254 ≤ secretScalar E sk ∧ secretScalar E sk < 2 ^ 255 ∧
    8 ∣ secretScalar E sk := by
  unfold secretScalar
  have := Nat.mod_lt (leVal ((Hash E sk).take 32) / 8) (by norm_num : 0 < 2 ^ 251)
  generalize leVal ((Hash E sk).take 32) / 8 % 2 ^ 251 = t at *
  refine ⟨by omega, by omega, ?_⟩
  rw [show (2 : ℕ) ^ 254 = 8 * 2 ^ 251 by norm_num, ← Nat.mul_add]
  exact Dvd.intro _ rfl

theorem L_lt : L < 2 ^ 253 := by rw [L_eq]; norm_num
theorem L_gt : 2 ^ 252 < L := by rw [L_eq]; norm_num

/-- The secret scalar is not a multiple of the group order. -/
theorem secretScalar_mod (sk : Bytes) : ¬ L ∣ secretScalar E sk := by
  obtain ⟨h1, h2, c, hc⟩ := secretScalar_bounds E sk
  intro hd
  rw [hc] at hd
  have hcop : Nat.Coprime L 8 := by
    rw [Nat.Prime.coprime_iff_not_dvd L_prime]
    intro h8; have := Nat.le_of_dvd (by norm_num) h8
    have := L_gt; omega
  have hd2 : L ∣ c := hcop.dvd_of_dvd_mul_left hd
  have hLg := L_gt
  have hcpos : 0 < c := by omega
  have := Nat.le_of_dvd hcpos hd2
  omega

theorem copy_tables {g : GE} {q : Pt} (h : g.SingleTable q) : g.copy.SingleTable q := by
  obtain ⟨t, h1, h2⟩ := h
  exact ⟨t, by simp [GE.copy, h1], h2⟩

theorem copy_double {g : GE} {q : Pt} (h : g.DoubleTable q) : g.copy.DoubleTable q := by
  obtain ⟨t, h1, h2⟩ := h
  exact ⟨t, by simp [GE.copy, h1], h2⟩

theorem basePoint_spec : ∃ g, basePoint = .ok g ∧ g.sys = .p3 ∧ g.toGC.Repr B ∧ g.SingleTable B ∧ g.DoubleTable B := by
  obtain ⟨g, h1, h2, h3, _, h5, h6⟩ := getBasePoint_spec
  refine ⟨g.copy, by unfold basePoint; rw [h1]; rfl, h2, h3, copy_tables h5, copy_double h6⟩

theorem derive_spec (k : PrivateKey) : derivePublicKey E (some k) = .ok ⟨publicKeyOf E k.raw⟩ := by
  obtain ⟨a, a1, a2, a3⟩ := prepare_spec E k
  obtain ⟨g, g1, g2, g3, g4, g5⟩ := basePoint_spec
  obtain ⟨h, h1, h2, h3⟩ := GE.scalarMultiply_spec g4 a (by rw [a3]; exact (secretScalar_bounds E _).2.1)
  unfold derivePublicKey
  rw [a1, Out.ok_bind, g1, Out.ok_bind, h1]
  simp only [Out.orPanic, Out.ok_bind]
  rw [GC.encode_repr (Or.inr (Or.inl h2)) h3]
  simp only [Out.orPanic, Out.ok_bind, newPublicKey, a3]
  rfl

theorem publicKeyOf_length (sk : Bytes) : (publicKeyOf E sk).length = 32 := encodePoint_length _

end Ed

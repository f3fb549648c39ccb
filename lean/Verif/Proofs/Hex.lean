import Verif.Model.Hex
import Verif.Spec.Text
import Mathlib.Tactic

/-!
# Lemmas on hexadecimal text and minimal big-endian byte strings
-/

namespace Ed

theorem beVal_nil : beVal [] = 0 := rfl
theorem beVal_cons (b : UInt8) (bs : Bytes) : beVal (b :: bs) = 256 ^ bs.length * b.toNat + beVal bs := by
  unfold beVal
  rw [List.reverse_cons, leVal_append, List.length_reverse]
  simp [leVal]; ring
theorem beVal_snoc (b : UInt8) (bs : Bytes) : beVal (bs ++ [b]) = 256 * beVal bs + b.toNat := by
  unfold beVal
  rw [List.reverse_append]; simp [leVal]; ring
theorem beVal_lt (b : Bytes) : beVal b < 256 ^ b.length := by
  have := leVal_lt b.reverse
  rwa [List.length_reverse] at this
theorem beVal_inj {a b : Bytes} (hl : a.length = b.length) (h : beVal a = beVal b) : a = b := by
  have := leVal_inj (l := a.reverse) (m := b.reverse) (by simpa using hl) h
  exact List.reverse_injective this

theorem digitsNum_acc (ds : List Nat) (a : Nat) : ds.foldl (fun a d => 16 * a + d) a = 16 ^ ds.length * a + digitsNum ds := by
  unfold digitsNum
  induction ds generalizing a with
  | nil => simp
  | cons d ds ih =>
    rw [List.foldl_cons, ih, List.foldl_cons, ih (16 * 0 + d), List.length_cons]; ring

theorem digitsNum_cons (d : Nat) (ds : List Nat) : digitsNum (d :: ds) = 16 ^ ds.length * d + digitsNum ds := by
  conv_lhs => unfold digitsNum
  rw [List.foldl_cons, digitsNum_acc]; ring_nf

theorem digitChar_iff_fin : ∀ n < 256, ∀ v < 17, (DigitChar (UInt8.ofNat n) v ↔ fromHexChar (UInt8.ofNat n) = some v) := by
  decide +kernel

theorem fromHexChar_lt {c : UInt8} {v : Nat} (h : fromHexChar c = some v) : v < 16 := by
  unfold fromHexChar at h
  dsimp only at h
  split at h
  · injection h; omega
  · split at h
    · injection h; omega
    · split at h
      · injection h; omega
      · cases h

theorem digitChar_lt {c : UInt8} {v : Nat} (h : DigitChar c v) : v < 16 := by
  rcases h with h | h
  · have := (List.getElem?_eq_some_iff.mp h).1
    exact lt_of_lt_of_eq this rfl
  · have := (List.getElem?_eq_some_iff.mp h).1
    exact lt_of_lt_of_eq this rfl

theorem digitChar_iff (c : UInt8) (v : Nat) : DigitChar c v ↔ fromHexChar c = some v := by
  have hc : c = UInt8.ofNat c.toNat := by simp
  constructor
  · intro h
    have hv := digitChar_lt h
    rw [hc] at h ⊢
    exact (digitChar_iff_fin _ c.toNat_lt v (by omega)).mp h
  · intro h
    have hv := fromHexChar_lt h
    rw [hc] at h ⊢
    exact (digitChar_iff_fin _ c.toNat_lt v (by omega)).mpr h

theorem forall₂_digit_unique : ∀ {s : Bytes} {ds es : List Nat}, List.Forall₂ DigitChar s ds → List.Forall₂ DigitChar s es → ds = es
  | _, _, _, .nil, .nil => rfl
  | _, _, _, .cons h1 t1, .cons h2 t2 => by
    rw [digitChar_iff] at h1 h2
    rw [h1] at h2; injection h2 with h2
    rw [h2, forall₂_digit_unique t1 t2]

theorem HexOf.unique {s : Bytes} {m n : Nat} (h : HexOf s m) (h' : HexOf s n) : m = n := by
  obtain ⟨ds, h1, rfl⟩ := h
  obtain ⟨es, h2, rfl⟩ := h'
  rw [forall₂_digit_unique h1 h2]

/-- What `hex.DecodeString` accepts and returns. -/
theorem hexDecode_ok : ∀ {s raw : Bytes}, hexDecode s = .ok raw → s.length = 2 * raw.length ∧ HexOf s (beVal raw)
  | [], raw, h => by
    simp only [hexDecode, Out.ok.injEq] at h
    subst h; exact ⟨rfl, [], .nil, rfl⟩
  | [_], raw, h => by simp [hexDecode] at h
  | a :: b :: s, raw, h => by
    rw [hexDecode] at h
    cases hx : fromHexChar a with
    | none => rw [hx] at h; cases h
    | some x =>
      cases hy : fromHexChar b with
      | none => rw [hx, hy] at h; cases h
      | some y =>
        rw [hx, hy] at h
        dsimp only at h
        cases ht : hexDecode s with
        | err m => rw [ht] at h; cases h
        | panic => rw [ht] at h; cases h
        | ok t =>
          rw [ht, Out.ok_bind] at h
          injection h with h
          subst h
          obtain ⟨l, ds, h1, h2⟩ := hexDecode_ok ht
          refine ⟨by simp [l]; omega, x :: y :: ds, .cons ((digitChar_iff _ _).mpr hx) (.cons ((digitChar_iff _ _).mpr hy) h1), ?_⟩
          have hl := h1.length_eq
          have := fromHexChar_lt hx
          have := fromHexChar_lt hy
          have e : (UInt8.ofNat (16 * x + y)).toNat = 16 * x + y := by
            rw [UInt8.toNat_ofNat']; omega
          rw [digitsNum_cons, digitsNum_cons, beVal_cons, e, h2, List.length_cons, ← hl, l]
          have : (256 : ℕ) ^ t.length = 16 ^ (2 * t.length) := by rw [pow_mul]; norm_num
          rw [this]; ring

theorem hexDecode_digits : ∀ {s : Bytes} {ds : List Nat}, List.Forall₂ DigitChar s ds → s.length % 2 = 0 → ∃ raw, hexDecode s = .ok raw
  | _, _, .nil, _ => ⟨[], rfl⟩
  | _, _, .cons _ .nil, h => by simp at h
  | _, _, .cons (a := a) (l₁ := b :: s) h1 (.cons h2 t), h => by
    rw [digitChar_iff] at h1 h2
    obtain ⟨raw, hr⟩ := hexDecode_digits t (by simp at h; omega)
    rw [hexDecode, h1, h2]
    dsimp only
    rw [hr]; exact ⟨_, rfl⟩

theorem hexDecode_total : ∀ s : Bytes, (∃ raw, hexDecode s = .ok raw) ∨ ∃ e, hexDecode s = .err e
  | [] => .inl ⟨[], rfl⟩
  | [_] => .inr ⟨_, rfl⟩
  | a :: b :: s => by
    rw [hexDecode]
    cases fromHexChar a <;> cases fromHexChar b <;> try exact .inr ⟨_, rfl⟩
    dsimp only
    rcases hexDecode_total s with ⟨r, hr⟩ | ⟨e, he⟩
    · rw [hr]; exact .inl ⟨_, rfl⟩
    · rw [he]; exact .inr ⟨_, rfl⟩

theorem hexOf_zero_cons (s : Bytes) (n : Nat) : HexOf (48 :: s) n ↔ HexOf s n := by
  constructor
  · rintro ⟨es, he, rfl⟩
    obtain ⟨v, ds, h, t, rfl⟩ := List.forall₂_cons_left_iff.mp he
    rw [digitChar_iff] at h
    have : v = 0 := by
      have h0 : fromHexChar 48 = some 0 := by decide
      rw [h0] at h; injection h with h; exact h.symm
    subst this
    exact ⟨ds, t, by rw [digitsNum_cons]; simp⟩
  · rintro ⟨ds, t, rfl⟩
    exact ⟨0 :: ds, .cons (by rw [digitChar_iff]; decide) t, by rw [digitsNum_cons]; simp⟩

/-- `utils.HexDecodeStringOdd` for results of n bytes. -/
theorem hexDecodeStringOdd_iff (s raw : Bytes) :
    hexDecodeStringOdd s = .ok raw ↔ raw.length = (s.length + 1) / 2 ∧ HexOf s (beVal raw) := by
  unfold hexDecodeStringOdd
  have key : ∀ t : Bytes, t.length % 2 = 0 → (hexDecode t = .ok raw ↔ t.length = 2 * raw.length ∧ HexOf t (beVal raw)) := by
    intro t ht
    refine ⟨hexDecode_ok, fun ⟨hl, hx⟩ => ?_⟩
    obtain ⟨ds, h1, h2⟩ := hx
    obtain ⟨r, hr⟩ := hexDecode_digits h1 ht
    obtain ⟨l, hx'⟩ := hexDecode_ok hr
    rw [hr, beVal_inj (by omega) (hx'.unique ⟨ds, h1, h2⟩)]
  by_cases h : s.length % 2 = 1
  · rw [if_pos h, key _ (by simp; omega), hexOf_zero_cons, List.length_cons]
    constructor <;> rintro ⟨a, b⟩ <;> exact ⟨by omega, b⟩
  · rw [if_neg h, key _ (by omega)]
    constructor <;> rintro ⟨a, b⟩ <;> exact ⟨by omega, b⟩

theorem hexDecodeStringOdd_total (s : Bytes) : (∃ raw, hexDecodeStringOdd s = .ok raw) ∨ ∃ e, hexDecodeStringOdd s = .err e := by
  unfold hexDecodeStringOdd; split <;> exact hexDecode_total _

theorem lowerChar_hexDigit : ∀ n < 16, LowerChar (hexDigit n) n := by decide +kernel
theorem upperChar_hexDigit : ∀ n < 16, UpperChar ((fun c : UInt8 => if 97 ≤ c.toNat ∧ c.toNat ≤ 122 then c - 32 else c) (hexDigit n)) n := by
  decide +kernel

theorem nibbles_num (b : UInt8) (bs : Bytes) (ds : List Nat) (h : digitsNum ds = beVal bs) (hl : ds.length = 2 * bs.length) :
    digitsNum (b.toNat / 16 :: b.toNat % 16 :: ds) = beVal (b :: bs) := by
  rw [digitsNum_cons, digitsNum_cons, beVal_cons, h, List.length_cons, hl]
  have : (256 : ℕ) ^ bs.length = 16 ^ (2 * bs.length) := by rw [pow_mul]; norm_num
  rw [this]
  have e : b.toNat = 16 * (b.toNat / 16) + b.toNat % 16 := by omega
  conv_rhs => rw [e]
  ring

theorem hexEncode_spec : ∀ b : Bytes, ∃ ds : List Nat, ds.length = 2 * b.length ∧ digitsNum ds = beVal b ∧
    List.Forall₂ LowerChar (hexEncode b) ds ∧ List.Forall₂ UpperChar (toUpper (hexEncode b)) ds
  | [] => ⟨[], rfl, rfl, .nil, .nil⟩
  | b :: bs => by
    obtain ⟨ds, h1, h2, h3, h4⟩ := hexEncode_spec bs
    have hb := b.toNat_lt
    have a1 : b.toNat / 16 < 16 := by omega
    have a2 : b.toNat % 16 < 16 := by omega
    refine ⟨b.toNat / 16 :: b.toNat % 16 :: ds, by simp [h1]; omega, nibbles_num b bs ds h2 h1, ?_, ?_⟩
    · exact .cons (lowerChar_hexDigit _ a1) (.cons (lowerChar_hexDigit _ a2) h3)
    · exact .cons (upperChar_hexDigit _ a1) (.cons (upperChar_hexDigit _ a2) h4)

theorem hexEncode_length (b : Bytes) : (hexEncode b).length = 2 * b.length := by
  obtain ⟨ds, h1, _, h3, _⟩ := hexEncode_spec b
  rw [h3.length_eq, h1]

theorem LowerHexOf.hex {s : Bytes} {n : Nat} (h : LowerHexOf s n) : HexOf s n := by
  obtain ⟨ds, h1, h2⟩ := h
  exact ⟨ds, h1.imp fun _ _ h => Or.inl h, h2⟩
theorem UpperHexOf.hex {s : Bytes} {n : Nat} (h : UpperHexOf s n) : HexOf s n := by
  obtain ⟨ds, h1, h2⟩ := h
  exact ⟨ds, h1.imp fun _ _ h => Or.inr h, h2⟩

/-! ## Minimal big-endian byte strings -/

theorem bigBytes_zero : bigBytes 0 = [] := by unfold bigBytes; simp

theorem bigBytes_pos {n : Nat} (h : n ≠ 0) : bigBytes n = bigBytes (n / 256) ++ [UInt8.ofNat (n % 256)] := by
  rw [bigBytes, dif_neg h]

theorem beVal_bigBytes (n : Nat) : beVal (bigBytes n) = n := by
  induction n using Nat.strong_induction_on with
  | _ n ih =>
    by_cases h : n = 0
    · subst h; rw [bigBytes_zero]; rfl
    · rw [bigBytes_pos h, beVal_snoc, ih (n / 256) (by omega), UInt8.toNat_ofNat']; omega

/-- `bigBytes` returns its argument iff there is no leading zero byte. -/
theorem bigBytes_beVal (b : Bytes) : bigBytes (beVal b) = b ↔ b.head? ≠ some 0 := by
  induction b using List.reverseRecOn with
  | nil => simp [beVal_nil, bigBytes_zero]
  | append_singleton l x ih =>
    rw [beVal_snoc]
    have hx := x.toNat_lt
    by_cases h0 : 256 * beVal l + x.toNat = 0
    · have hx0 : x = 0 := by apply UInt8.toNat_inj.mp; show x.toNat = 0; omega
      rw [h0, bigBytes_zero]
      constructor
      · intro h; simp at h
      · intro h
        exfalso
        have hl : beVal l = 0 := by omega
        rw [hl] at ih
        cases l with
        | nil => simp [hx0] at h
        | cons a l =>
          rw [bigBytes_zero] at ih
          simp only [List.cons_append, List.head?_cons] at h ih
          have := ih.mpr h
          simp at this
    · rw [bigBytes_pos h0]
      have e1 : (256 * beVal l + x.toNat) / 256 = beVal l := by omega
      have e2 : (256 * beVal l + x.toNat) % 256 = x.toNat := by omega
      rw [e1, e2, UInt8.ofNat_toNat]
      cases l with
      | nil =>
        rw [beVal_nil, bigBytes_zero]
        simp only [List.nil_append, List.head?_cons, ne_eq, Option.some.injEq, true_iff]
        intro hx0; rw [hx0, beVal_nil] at h0; exact h0 rfl
      | cons a l =>
        rw [List.append_left_inj, ih]; simp

end Ed

import Verif.Props.Scalar
import Verif.Props.Order
import Verif.Props.Repeat
import Mathlib.Data.Int.CardIntervalMod
import Mathlib.Data.Set.Card

/-!
# How evenly digests and random bytes are used (C89), and what signatures reveal (C90)

`Set.ncard` is the number of elements of a finite set (0 for an infinite one; all sets here are finite: they are sets of byte strings of a
fixed length or of numbers below a bound).
-/

set_option autoImplicit false

namespace Ed

/-- Byte strings of length `k` and numbers below `256 ^ k`. -/
theorem ncard_bytes (k : ℕ) (p : ℕ → Prop) [DecidablePred p] :
    {d : Bytes | d.length = k ∧ p (leVal d)}.ncard = (256 ^ k).count p := by
  rw [Nat.count_eq_card_filter_range, ← Set.ncard_coe_finset]
  refine Set.ncard_congr (fun d _ => leVal d) ?_ ?_ ?_
  · rintro d ⟨hd, hp⟩
    have := leVal_lt d
    rw [hd] at this
    simp [hp, this]
  · rintro d d' ⟨hd, -⟩ ⟨hd', -⟩ e
    exact leVal_inj (by rw [hd, hd']) e
  · intro n hn
    simp only [Finset.coe_filter, Finset.mem_range, Set.mem_ofPred_eq] at hn
    have e : leVal (leBytes k n) = n := leVal_leBytes_of_lt hn.1
    exact ⟨leBytes k n, ⟨leBytes_length _ _, by rw [e]; exact hn.2⟩, e⟩

/-- C89: of the 2^512 digests, every nonce below L arises from the same number, up to one. -/
theorem C89_nonce (c : ℕ) (hc : c < L) :
    {d : Bytes | d.length = 64 ∧ modQ d = leBytes 32 c}.ncard = 2 ^ 512 / L + if c < 2 ^ 512 % L then 1 else 0 := by
  have e : {d : Bytes | d.length = 64 ∧ modQ d = leBytes 32 c} = {d : Bytes | d.length = 64 ∧ leVal d ≡ c [MOD L]} := by
    ext d
    simp only [Set.mem_ofPred_eq]
    refine and_congr_right fun hd => ?_
    obtain ⟨h1, -, -⟩ := C08_modQ d hd
    rw [← L_eq] at h1
    have hb : c < 256 ^ 32 := hc.trans (by rw [L_eq]; norm_num)
    have hb' : leVal d % L < 256 ^ 32 := (Nat.mod_lt _ L_pos).trans (by rw [L_eq]; norm_num)
    rw [h1]
    constructor
    · intro h
      have := congrArg leVal h
      rw [leVal_leBytes_of_lt hb', leVal_leBytes_of_lt hb] at this
      show leVal d % L = c % L
      rw [this, Nat.mod_eq_of_lt hc]
    · intro h
      have h' : leVal d % L = c % L := h
      rw [h', Nat.mod_eq_of_lt hc]
  rw [e]
  refine (ncard_bytes 64 fun n => n ≡ c [MOD L]).trans ?_
  rw [Nat.count_modEq_card _ L_pos, Nat.mod_eq_of_lt hc]
  have : (256 : ℕ) ^ 64 = 2 ^ 512 := by decide +kernel
  rw [this]

/-- C89: so each nonce has at least 2^259 digests, and no nonce has more than one digest more than another. -/
theorem C89_nonce_even (c c' : ℕ) (hc : c < L) (hc' : c' < L) :
    2 ^ 259 ≤ {d : Bytes | d.length = 64 ∧ modQ d = leBytes 32 c}.ncard ∧
    {d : Bytes | d.length = 64 ∧ modQ d = leBytes 32 c}.ncard ≤ {d : Bytes | d.length = 64 ∧ modQ d = leBytes 32 c'}.ncard + 1 := by
  rw [C89_nonce c hc, C89_nonce c' hc']
  constructor
  · have : 2 ^ 259 ≤ 2 ^ 512 / L := by rw [L_eq]; decide +kernel
    omega
  · split <;> split <;> omega

/-- C89: every secret scalar (a multiple of 8 between 2^254 and 2^255) comes from exactly 32 of the 2^256 first halves of the digest of a
private key. -/
theorem C89_scalar (n : ℕ) (hn : n < 2 ^ 251) :
    {d : Bytes | d.length = 32 ∧ clamp d = leBytes 32 (2 ^ 254 + 8 * n)}.ncard = 32 := by
  have e : {d : Bytes | d.length = 32 ∧ clamp d = leBytes 32 (2 ^ 254 + 8 * n)} = {d : Bytes | d.length = 32 ∧ leVal d / 8 % 2 ^ 251 = n} := by
    ext d
    simp only [Set.mem_ofPred_eq]
    refine and_congr_right fun hd => ?_
    obtain ⟨h1, h2⟩ := clamp_spec hd
    have hb : 2 ^ 254 + 8 * n < 256 ^ 32 := by
      have : (256 : ℕ) ^ 32 = 2 ^ 256 := by norm_num
      omega
    constructor
    · intro h
      rw [h, leVal_leBytes_of_lt hb] at h2
      omega
    · intro h
      rw [← h, ← h2]
      conv_rhs => rw [← h1]
      rw [leBytes_leVal]
  rw [e]
  refine (ncard_bytes 32 fun v => v / 8 % 2 ^ 251 = n).trans ?_
  rw [Nat.count_eq_card_filter_range]
  have hb : (256 : ℕ) ^ 32 = 2 ^ 256 := by norm_num
  rw [hb]
  have key : (Finset.range (2 ^ 256)).filter (fun v => v / 8 % 2 ^ 251 = n) =
      ((Finset.range 8) ×ˢ (Finset.range 4)).image fun x => x.1 + 8 * (n + 2 ^ 251 * x.2) := by
    ext v
    simp only [Finset.mem_filter, Finset.mem_range, Finset.mem_image, Finset.mem_product, Prod.exists]
    constructor
    · rintro ⟨h1, h2⟩
      exact ⟨v % 8, v / 8 / 2 ^ 251, by omega, by omega⟩
    · rintro ⟨a, b, ⟨h1, h2⟩, rfl⟩
      omega
  rw [key, Finset.card_image_of_injOn, Finset.card_product, Finset.card_range, Finset.card_range]
  rintro ⟨a, b⟩ h ⟨a', b'⟩ h' heq
  simp only [Finset.coe_product, Finset.coe_range, Set.mem_prod, Set.mem_Iio] at h h'
  dsimp only at heq
  have h1 : a = a' := by omega
  have h2 : b = b' := by omega
  rw [h1, h2]

/-- C89: for given keys the salts of 32 bytes and the inputs of the hash that makes the shared key correspond one to one. -/
theorem C89_salt (E : Env) (k : PrivateKey) (pub : PublicKey) (q : Pt) (hl : pub.raw.length = 32) (hq : Decodes pub.raw q) :
    ∃ f : Bytes → Bytes, (∀ salt : Bytes, salt.length = 32 → getSharedKey E 32 (some k) pub salt = .ok (hashesSha3_256 E (f salt))) ∧
      Set.BijOn f {salt | salt.length = 32} {x | x.length = 32} := by
  obtain ⟨e, he, hf⟩ := C83_form E k pub q hl hq
  have inv : ∀ (e x : Bytes), x.length = e.length → List.zipWith (· ^^^ ·) e (List.zipWith (· ^^^ ·) e x) = x := by
    intro e
    induction e with
    | nil => intro x h; simp only [List.length_nil, List.length_eq_zero_iff] at h; rw [h]; rfl
    | cons a e ih =>
      intro x h
      cases x with
      | nil => simp at h
      | cons b x =>
        simp only [List.zipWith_cons_cons]
        rw [ih x (by simpa using h), ← UInt8.xor_assoc, UInt8.xor_self, UInt8.zero_xor]
  refine ⟨fun s => List.zipWith (· ^^^ ·) e s, fun s hs => ?_, fun s hs => ?_, fun s hs s' hs' h => ?_, fun x hx => ?_⟩
  · rw [hf s (by omega), List.take_of_length_le (by omega)]
  · simp only [Set.mem_ofPred_eq] at hs ⊢
    rw [List.length_zipWith, he, hs, Nat.min_self]
  · simp only [Set.mem_ofPred_eq] at hs hs'
    dsimp only at h
    rw [← inv e s (by omega), h, inv e s' (by omega)]
  · simp only [Set.mem_ofPred_eq] at hx
    refine ⟨List.zipWith (· ^^^ ·) e x, ?_, inv e x (by omega)⟩
    show (List.zipWith _ e x).length = 32
    rw [List.length_zipWith, he, hx, Nat.min_self]

/-! ## Signatures -/

theorem exists_unique_nonce (x s : ℕ) (hs : s < L) : ∃ r < L, (r + x) % L = s := by
  refine ⟨(s + (L - x % L)) % L, Nat.mod_lt _ L_pos, ?_⟩
  have hx := Nat.mod_lt x L_pos
  rw [Nat.add_mod, Nat.mod_mod, ← Nat.add_mod]
  have : s + (L - x % L) + x = s + L + L * (x / L) := by
    have := Nat.div_add_mod x L
    omega
  rw [this, Nat.add_mul_mod_self_left, Nat.add_mod_right, Nat.mod_eq_of_lt hs]

theorem nonce_unique {x r r' : ℕ} (h : r < L) (h' : r' < L) (e : (r + x) % L = (r' + x) % L) : r = r' := by
  have e' : r + x ≡ r' + x [MOD L] := e
  have := Nat.ModEq.add_right_cancel' x e'
  have e2 : r % L = r' % L := this
  rwa [Nat.mod_eq_of_lt h, Nat.mod_eq_of_lt h'] at e2

/-- C90: whatever the private key and the challenge `h` are: the number of nonces for which the signature is (R, S) is 1 if S is below L and
satisfies the equation that everybody can check with the public key, and otherwise 0.  So if the nonce is drawn at random, S is a random number below
L, and R is computed from it and the public key. -/
theorem C90_transcripts (E : Env) (sk : Bytes) (q : Pt) (hq : publicKeyOf E sk = encodePoint q) (h : ℕ) (R : Bytes) (S : ℕ) :
    {r : ℕ | r < L ∧ R = encodePoint (r • B) ∧ S = (r + h * secretScalar E sk) % L}.ncard =
      if S < L ∧ R = encodePoint (S • B - h • q) then 1 else 0 := by
  have hq' : q = secretScalar E sk • B := (encodePoint_inj (by rw [← hq]; rfl))
  have hR : ∀ r : ℕ, S = (r + h * secretScalar E sk) % L → S • B - h • q = r • B := by
    intro r e
    rw [e, smul_B_mod, hq', add_smul, mul_smul, add_sub_cancel_right]
  split
  · rename_i hc
    obtain ⟨r, hr, e⟩ := exists_unique_nonce (h * secretScalar E sk) S hc.1
    rw [Set.ncard_eq_one]
    refine ⟨r, Set.ext fun r' => ⟨?_, ?_⟩⟩
    · rintro ⟨h1, -, h3⟩
      exact nonce_unique h1 hr (by rw [e, ← h3])
    · intro h'
      rw [Set.mem_singleton_iff] at h'
      subst h'
      exact ⟨hr, by rw [hc.2, hR r' e.symm], e.symm⟩
  · rename_i hc
    rw [Set.ncard_eq_zero (Set.Finite.subset (Set.finite_lt_nat L) fun r hr => hr.1), Set.eq_empty_iff_forall_notMem]
    rintro r ⟨h1, h2, h3⟩
    exact hc ⟨by rw [h3]; exact Nat.mod_lt _ L_pos, by rw [h2, hR r h3]⟩

/-- C90: and those are the signatures that `Sign` makes. -/
theorem C90_sign (E : Env) (k : PrivateKey) (pub : PublicKey) (m : Bytes) (sig : Signature) (hs : sign E ⟨some k, pub⟩ m = .ok sig) :
    nonce E k.raw m ∈ {r : ℕ | r < L ∧ sig.R = encodePoint (r • B) ∧ leVal sig.S = (r + challenge E sig.R pub.raw m * secretScalar E k.raw) % L} := by
  rw [C19_sign] at hs
  split at hs
  · cases hs
    refine ⟨Nat.mod_lt _ L_pos, rfl, ?_⟩
    have hb : sigS E k.raw pub.raw m < 256 ^ 32 := (Nat.mod_lt _ L_pos).trans (by rw [L_eq]; norm_num)
    rw [leVal_leBytes_of_lt hb]
    rfl
  · cases hs

/-- C90: `Sign` refuses ("not canonical") for the same number of nonces with every key and challenge: about 2^189 of the 2^252. -/
theorem C90_refusals (x : ℕ) :
    {r : ℕ | r < L ∧ ¬ LowBitsOk ((r + x) % L)}.ncard = 2 * (L / 2 ^ 64) + 1 := by
  have e1 : {r : ℕ | r < L ∧ ¬ LowBitsOk ((r + x) % L)}.ncard = {s : ℕ | s < L ∧ ¬ LowBitsOk s}.ncard := by
    refine Set.ncard_congr (fun r _ => (r + x) % L) ?_ ?_ ?_
    · rintro r ⟨-, h⟩
      exact ⟨Nat.mod_lt _ L_pos, h⟩
    · rintro r r' ⟨h, -⟩ ⟨h', -⟩ e
      exact nonce_unique h h' e
    · rintro s ⟨h1, h2⟩
      obtain ⟨r, hr, e⟩ := exists_unique_nonce x s h1
      exact ⟨r, ⟨hr, by rw [e]; exact h2⟩, e⟩
  have hL0 : 0 < L % 2 ^ 64 := by rw [L_eq]; norm_num
  have e2 : {s : ℕ | s < L ∧ ¬ LowBitsOk s} = ↑((Finset.range L).filter (fun s => s ≡ 0 [MOD 2 ^ 64]) ∪ (Finset.range L).filter (fun s => s ≡ L [MOD 2 ^ 64])) := by
    ext s
    simp only [LowBitsOk, Set.mem_ofPred_eq, Finset.mem_coe, Finset.mem_union, Finset.mem_filter, Finset.mem_range]
    constructor
    · rintro ⟨h1, h2⟩
      by_cases h : s % 2 ^ 64 = 0
      · exact .inl ⟨h1, h⟩
      · exact .inr ⟨h1, by_contra fun h' => h2 ⟨h, h'⟩⟩
    · rintro (⟨h1, h2⟩ | ⟨h1, h2⟩)
      · exact ⟨h1, fun h => h.1 h2⟩
      · exact ⟨h1, fun h => h.2 h2⟩
  rw [e1, e2, Set.ncard_coe_finset, Finset.card_union_of_disjoint, ← Nat.count_eq_card_filter_range, ← Nat.count_eq_card_filter_range,
    Nat.count_modEq_card _ (by norm_num), Nat.count_modEq_card _ (by norm_num), if_pos (by simpa using hL0), if_neg (Nat.lt_irrefl _)]
  · omega
  · rw [Finset.disjoint_left]
    intro s h1 h2
    rw [Finset.mem_filter] at h1 h2
    have h : 0 % 2 ^ 64 = L % 2 ^ 64 := h1.2.symm.trans h2.2
    rw [Nat.zero_mod] at h
    omega

/-! ## Non-vacuity -/

/-- The nonce 1 has one digest more than the nonce L - 1. -/
example : 1 < 2 ^ 512 % L ∧ ¬ L - 1 < 2 ^ 512 % L ∧ L - 1 < L := by
  rw [L_eq]; decide +kernel

/-- A signature with S = 5 for the challenge 3 exists for every key, with the commitment that follows from the public key. -/
example (E : Env) (sk : Bytes) : ∃ r < L, encodePoint (5 • B - 3 • (secretScalar E sk • B)) = encodePoint (r • B) ∧ 5 = (r + 3 * secretScalar E sk) % L := by
  have h := C90_transcripts E sk (secretScalar E sk • B) rfl 3 (encodePoint (5 • B - 3 • (secretScalar E sk • B))) 5
  rw [if_pos ⟨by have := L_gt; omega, rfl⟩] at h
  obtain ⟨r, hr⟩ := Set.ncard_eq_one.1 h
  have : r ∈ ({r} : Set ℕ) := rfl
  rw [← hr] at this
  exact ⟨r, this⟩

end Ed

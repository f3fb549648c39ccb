import Verif.Props.Seed
import Verif.Props.WeakKeys

/-!
# Property C105: a signature is for one public key and one message, if SHA3-512 is like a random function
-/

set_option autoImplicit false

namespace Ed

open Finset

/-- What a cheater produces: one signature, and two public keys with a message each. -/
structure Claim where
  R : Bytes
  S : Bytes
  pub : PublicKey
  m : Bytes
  pub' : PublicKey
  m' : Bytes

/-- A public key of 32 bytes that decodes to a point that is not of small order. -/
def SoundKey (pub : PublicKey) : Prop := pub.raw.length = 32 ∧ ∃ A, Decodes pub.raw A ∧ 8 • A ≠ 0

/-- Public keys derived from private keys are such keys. -/
theorem soundKey_derived (E : Env) (k : PrivateKey) (pub : PublicKey) (h : derivePublicKey E (some k) = .ok pub) : SoundKey pub := by
  rw [derive_spec] at h
  rw [← Out.ok.inj h]
  refine ⟨publicKeyOf_length E _, _, decodes_encodePoint _, ?_⟩
  intro h8
  rw [smul_smul, ← addOrderOf_dvd_iff_nsmul_eq_zero, addOrderOf_B] at h8
  rcases (Nat.Prime.dvd_mul L_prime).1 h8 with h1 | h1
  · have := Nat.le_of_dvd (by norm_num) h1
    have := L_gt
    omega
  · refine scalar_smul_ne_zero E k.raw ?_
    rw [← addOrderOf_dvd_iff_nsmul_eq_zero, addOrderOf_B]
    exact h1

theorem order_of_sound {A : Pt} (h : 8 • A ≠ 0) : L ∣ addOrderOf A := by
  by_contra hn
  have hc : Nat.Coprime (addOrderOf A) L := ((Nat.Prime.coprime_iff_not_dvd L_prime).2 hn).symm
  have h1 : addOrderOf A ∣ 8 * L := addOrderOf_dvd_of_nsmul_eq_zero (order_smul A)
  exact h (addOrderOf_dvd_iff_nsmul_eq_zero.1 (hc.dvd_of_dvd_mul_right h1))

open Classical in
/-- The product of challenge and public key, from a hash input and its digest. -/
noncomputable def product (x : Bytes) (d : Digest) : Pt ⊕ ℕ :=
  if h : ∃ A, Decodes ((x.drop 32).take 32) A ∧ 8 • A ≠ 0 then .inl ((d.val % L) • h.choose) else .inr (d.val % L)

theorem product_eq {x : Bytes} {A : Pt} (hA : Decodes ((x.drop 32).take 32) A) (h8 : 8 • A ≠ 0) (d : Digest) : product x d = .inl ((d.val % L) • A) := by
  have h : ∃ A, Decodes ((x.drop 32).take 32) A ∧ 8 • A ≠ 0 := ⟨A, hA, h8⟩
  unfold product
  rw [dif_pos h, GC.decodes_unique h.choose_spec.1 hA]

theorem product_even (x : Bytes) (t : Pt ⊕ ℕ) : (avg fun d : Digest => ind (product x d = t)) ≤ 1 / 2 ^ 252 := by
  by_cases h0 : ∃ d, product x d = t
  · obtain ⟨d0, rfl⟩ := h0
    refine le_trans (avg_mono fun d => ind_mono ?_) (avg_class (d0.val % L))
    intro h
    by_cases hA : ∃ A, Decodes ((x.drop 32).take 32) A ∧ 8 • A ≠ 0
    · obtain ⟨A, hA, h8⟩ := hA
      rw [product_eq hA h8, product_eq hA h8] at h
      have h1 := (nsmul_eq_nsmul_iff_modEq.1 (Sum.inl_injective h)).of_dvd (order_of_sound h8)
      have h2 : d.val % L % L = d0.val % L % L := h1
      rwa [Nat.mod_mod, Nat.mod_mod] at h2
    · unfold product at h
      rw [dif_neg hA, dif_neg hA] at h
      exact Sum.inr_injective h
  · have : ∀ d : Digest, ind (product x d = t) = 0 := fun d => ind_false fun e => h0 ⟨d, e⟩
    rw [avg_congr this, avg_const]
    exact div_nonneg zero_le_one (pow_nonneg two_pos.le _)

/-- C105: whoever asks for q hash values and then chooses a signature and two different pairs of a public key, not of small order, and a message, has made
`Verify` accept the signature for both with a probability of at most (q + 1) (q + 2) / 2^253. -/
theorem C105_one_claim (E : Env) {Ω : Type} [Fintype Ω] [Nonempty Ω] (X : Finset Bytes) (adv : Ω → HashProg Claim) (q : ℕ)
    (hq : ∀ ω, (adv ω).AtMost q)
    (hX : ∀ ω, ((adv ω).thenAskTwo (fun r => r.R ++ r.pub.raw ++ r.m) (fun r => r.R ++ r.pub'.raw ++ r.m')).AsksIn X) :
    (prob fun x : Ω × (X → Digest) => let r := (adv x.1).run (onAll x.2)
      (r.pub, r.m) ≠ (r.pub', r.m') ∧ SoundKey r.pub ∧ SoundKey r.pub' ∧ ∃ sig, newSignature r.R r.S = .ok sig ∧
        verify (E.withHash (onAll x.2)) r.pub r.m sig = .ok true ∧ verify (E.withHash (onAll x.2)) r.pub' r.m' sig = .ok true) ≤
      (q + 1) * (q + 2) / 2 ^ 253 := by
  have c0 : (0 : ℝ) ≤ (q + 1) * (q + 2) / 2 ^ 253 := div_nonneg (by positivity) (pow_nonneg two_pos.le _)
  rw [prob_eq_avg, avg_prod]
  refine le_trans (avg_mono fun ω => ?_) (avg_const_le (α := Ω) c0)
  dsimp only
  have hp : ((adv ω).thenAskTwo (fun r => r.R ++ r.pub.raw ++ r.m) (fun r => r.R ++ r.pub'.raw ++ r.m')).AtMost (q + 2) := by
    unfold HashProg.thenAskTwo
    exact HashProg.bind_atMost (m := 2) (g := fun r : Claim => .ask (r.R ++ r.pub.raw ++ r.m) fun _ => .ask (r.R ++ r.pub'.raw ++ r.m') fun _ => .done r)
      (fun x _ _ => trivial) (hq ω)
  have h := birthday product _ product_even _ _ hp (hX ω)
  refine le_trans (avg_mono fun f => ind_mono ?_) (h.trans (le_of_eq ?_))
  · have a := HashProg.thenAskTwo_asked (fun r : Claim => r.R ++ r.pub.raw ++ r.m) (fun r : Claim => r.R ++ r.pub'.raw ++ r.m') (onAll f) (adv ω)
    generalize (adv ω).run (onAll f) = r at a
    obtain ⟨R, S, ⟨pub⟩, m, ⟨pub'⟩, m'⟩ := r
    rintro ⟨hne, ⟨l, A, hA, h8⟩, ⟨l', A', hA', h8'⟩, sig, hs, hv, hv'⟩
    dsimp only at *
    unfold newSignature at hs
    by_cases hl : R.length ≠ 32 ∨ S.length ≠ 32
    · rw [if_pos hl] at hs
      exact nomatch hs
    · rw [if_neg hl] at hs
      rw [← Out.ok.inj hs] at hv hv'
      push Not at hl
      have part : ∀ p m : Bytes, p.length = 32 → ((R ++ p ++ m).drop 32).take 32 = p := by
        intro p m hp
        rw [List.append_assoc, List.drop_left' hl.1, List.take_left' hp]
      have key := C85_points (E.withHash (onAll f)) ⟨pub⟩ ⟨pub'⟩ A A' (by rw [List.take_of_length_le (le_of_eq l)]; exact hA)
        (by rw [List.take_of_length_le (le_of_eq l')]; exact hA') m m' R S hl.2 hv hv'
      rw [challenge_withHash, challenge_withHash] at key
      refine ⟨R ++ pub ++ m, R ++ pub' ++ m', ?_, a.1, a.2, ?_⟩
      · intro e
        rw [List.append_assoc, List.append_assoc] at e
        have e := List.append_inj (List.append_cancel_left e) (l.trans l'.symm)
        exact hne (by rw [e.1, e.2])
      · rw [product_eq (by rw [part _ _ l]; exact hA) h8, product_eq (by rw [part _ _ l']; exact hA') h8', key]
  · have h4 : (2 : ℝ) ^ 253 = 2 ^ 252 * 2 := pow_succ 2 252
    rw [h4]
    push_cast
    generalize (2 : ℝ) ^ 252 = y
    rw [← div_div, div_mul_div_comm, div_div]
    ring

/-- C105: public keys of 64 bytes have to be left out: what is accepted for a key of 32 bytes and a message of 32 or more is accepted for the key with the first
32 bytes of the message behind it, and the rest of the message. -/
theorem C105_long_key (E : Env) (pub : PublicKey) (m R S : Bytes) (hl : S.length = 32) (hp : pub.raw.length = 32) (hm : 32 ≤ m.length)
    (h : verify E pub m ⟨R, S⟩ = .ok true) : verify E ⟨pub.raw ++ m.take 32⟩ (m.drop 32) ⟨R, S⟩ = .ok true := by
  rw [C20_accepts_iff_any E S hl] at h ⊢
  obtain ⟨h1, -, -, A, hA, hR⟩ := h
  have l : (pub.raw ++ m.take 32).length = 64 := by rw [List.length_append, List.length_take]; omega
  refine ⟨h1, fun e => ?_, Or.inr l, A, ?_, ?_⟩
  · have e : pub.raw ++ m.take 32 = List.replicate 32 0 := e
    rw [e, List.length_replicate] at l
    omega
  · show Decodes ((pub.raw ++ m.take 32).take 32) A
    rw [List.take_left' hp]
    rwa [List.take_of_length_le (le_of_eq hp)] at hA
  · have e : challenge E R (pub.raw ++ m.take 32) (m.drop 32) = challenge E R pub.raw m := by
      unfold challenge
      rw [List.append_assoc R, List.append_assoc pub.raw, List.take_append_drop, ← List.append_assoc]
    show R = encodePoint (nafVal (leVal S) • B - challenge E R (pub.raw ++ m.take 32) (m.drop 32) • A)
    rw [e]
    exact hR

/-! ## Cases -/

/-- A cheater that takes the message from an answer. -/
noncomputable def cheater (r : Fin 1000) : HashProg Claim :=
  .ask [7] fun d => .done ⟨encodePoint (r.val • B), leBytes 32 r.val, ⟨encodePoint B⟩, [1], ⟨encodePoint (2 • B)⟩, d.bytes⟩

/-- The hypotheses of C105. -/
example : ∃ X : Finset Bytes, (∀ r, (cheater r).AtMost 1) ∧
    ∀ ω, ((cheater ω).thenAskTwo (fun r => r.R ++ r.pub.raw ++ r.m) (fun r => r.R ++ r.pub'.raw ++ r.m')).AsksIn X := by
  obtain ⟨X, hX⟩ := exists_short 200
  have l64 : ∀ e : Digest, e.bytes.length = 64 := fun e => leBytes_length _ _
  refine ⟨X, fun r _ => trivial, fun r => ⟨hX _ (by simp), fun d => ⟨hX _ ?_, fun _ => ⟨hX _ ?_, fun _ => trivial⟩⟩⟩⟩
  · simp only [List.length_append, encodePoint_length, List.length_cons, List.length_nil]; omega
  · simp only [List.length_append, encodePoint_length, l64]; omega

/-- The hypotheses of `C105_long_key`, with the neutral element as public key. -/
example (E : Env) : ∃ (pub : PublicKey) (m R S : Bytes), S.length = 32 ∧ pub.raw.length = 32 ∧ 32 ≤ m.length ∧ verify E pub m ⟨R, S⟩ = .ok true := by
  obtain ⟨pub, ⟨R, S⟩, -, h2, -, h4⟩ := C37_one_signature_for_all_messages
  refine ⟨pub, List.replicate 40 3, R, S, h2, ?_, by simp, (h4 E).2 _⟩
  exact ((C30_given E none pub _).1 (h4 E).1).1

end Ed

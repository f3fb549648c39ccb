import Verif.Props.Refuse
import Verif.Props.Leak
import Verif.Props.WrongKey

/-!
# Property C112: how surely the private key is given away
-/

set_option autoImplicit false

namespace Ed

open Finset

section
variable {X : Finset Bytes}

/-- An average over hash functions is small if it is small whatever the values at `k` and at the place that the value at `k` leads to. -/
theorem avg_key_nonce (k : X) (N : Digest → X) (H : Digest → Digest → (X → Digest) → ℝ) (b : ℝ)
    (h : ∀ d r, (avg fun g : X → Digest => H d r (Function.update (Function.update g k d) (N d) r)) ≤ b) :
    (avg fun f : X → Digest => H (f k) (f (N (f k))) f) ≤ b := by
  classical
  rw [avg_entry k fun d f => H d (f (N d)) f]
  refine le_trans (avg_mono (G := fun _ => b) fun d => ?_) (le_of_eq (avg_const b))
  by_cases hN : N d = k
  · refine le_trans (le_of_eq (avg_congr fun g => ?_)) (h d d)
    rw [hN, Function.update_self, Function.update_idem]
  · have e : ∀ g : X → Digest, H d (Function.update g k d (N d)) (Function.update g k d) = H d (g (N d)) (Function.update g k d) := fun g => by
      rw [Function.update_of_ne hN]
    rw [avg_congr e, avg_entry (N d) fun r g => H d r (Function.update g k d)]
    refine le_trans (avg_mono (G := fun _ => b) fun r => ?_) (le_of_eq (avg_const b))
    refine le_trans (le_of_eq (avg_congr fun g => ?_)) (h d r)
    rw [Function.update_comm hN]

theorem refused_avg (d : Digest) (r : ℕ) : (avg fun c : Digest => ind (¬ LowBitsOk ((r + c.val % L * scalarOf d) % L))) ≤ 1 / 2 ^ 63 + 1 / 2 ^ 250 := by
  have h := (abs_le.1 (refused_prob r (scalarOf d) (scalarOf_coprime d))).2
  rw [prob_eq_avg] at h
  linarith

/-- Two challenges for one nonce: that one of the responses is refused or that the challenges agree is unlikely. -/
theorem two_challenges (k : X) (N : Digest → X) (U V : Digest → Digest → X) (hU : ∀ d r, U d r ≠ k ∧ U d r ≠ N d) (hV : ∀ d r, V d r ≠ k ∧ V d r ≠ N d)
    (hne : ∀ d r, U d r ≠ V d r) :
    (avg fun f : X → Digest => ind (¬ LowBitsOk (((f (N (f k))).val % L + (f (U (f k) (f (N (f k))))).val % L * scalarOf (f k)) % L)) +
      ind (¬ LowBitsOk (((f (N (f k))).val % L + (f (V (f k) (f (N (f k))))).val % L * scalarOf (f k)) % L)) +
      ind ((f (U (f k) (f (N (f k))))).val % L = (f (V (f k) (f (N (f k))))).val % L)) ≤ 1 / 2 ^ 62 + 1 / 2 ^ 249 + 1 / 2 ^ 252 := by
  refine avg_key_nonce k N (fun d r f => ind (¬ LowBitsOk ((r.val % L + (f (U d r)).val % L * scalarOf d) % L)) +
      ind (¬ LowBitsOk ((r.val % L + (f (V d r)).val % L * scalarOf d) % L)) + ind ((f (U d r)).val % L = (f (V d r)).val % L)) _ fun d r => ?_
  have eU : ∀ g : X → Digest, Function.update (Function.update g k d) (N d) r (U d r) = g (U d r) := fun g => by
    rw [Function.update_of_ne (hU d r).2, Function.update_of_ne (hU d r).1]
  have eV : ∀ g : X → Digest, Function.update (Function.update g k d) (N d) r (V d r) = g (V d r) := fun g => by
    rw [Function.update_of_ne (hV d r).2, Function.update_of_ne (hV d r).1]
  have e : ∀ g : X → Digest, ind (¬ LowBitsOk ((r.val % L + (Function.update (Function.update g k d) (N d) r (U d r)).val % L * scalarOf d) % L)) +
      ind (¬ LowBitsOk ((r.val % L + (Function.update (Function.update g k d) (N d) r (V d r)).val % L * scalarOf d) % L)) +
      ind ((Function.update (Function.update g k d) (N d) r (U d r)).val % L = (Function.update (Function.update g k d) (N d) r (V d r)).val % L) =
      ind (¬ LowBitsOk ((r.val % L + (g (U d r)).val % L * scalarOf d) % L)) + ind (¬ LowBitsOk ((r.val % L + (g (V d r)).val % L * scalarOf d) % L)) +
      ind ((g (U d r)).val % L = (g (V d r)).val % L) := fun g => by rw [eU, eV]
  rw [avg_congr e, avg_add, avg_add]
  have h1 := refused_avg d (r.val % L)
  have a1 := avg_one (U d r) fun c : Digest => ind (¬ LowBitsOk ((r.val % L + c.val % L * scalarOf d) % L))
  have a2 := avg_one (V d r) fun c : Digest => ind (¬ LowBitsOk ((r.val % L + c.val % L * scalarOf d) % L))
  have a3 := avg_two (hne d r) fun c c' : Digest => ind (c.val % L = c'.val % L)
  have h3 : (avg fun c : Digest => avg fun c' : Digest => ind (c.val % L = c'.val % L)) ≤ 1 / 2 ^ 252 := by
    refine le_trans (avg_mono (G := fun _ => 1 / 2 ^ 252) fun c => ?_) (le_of_eq (avg_const _))
    exact le_trans (le_of_eq (avg_congr fun c' => ind_congr eq_comm)) (avg_class (c.val % L))
  rw [a1, a2, a3]
  have e1 : (1 : ℝ) / 2 ^ 62 = 1 / 2 ^ 63 + 1 / 2 ^ 63 := by norm_num
  have e2 : (1 : ℝ) / 2 ^ 249 = 1 / 2 ^ 250 + 1 / 2 ^ 250 := by norm_num
  linarith

/-- The probability of a property of the value at a place that the values at two keys and at a nonce place lead to. -/
theorem avg_last (k k' : X) (N : Digest → X) (U : Digest → Digest → Digest → X) (hU : ∀ d r d', U d r d' ≠ k ∧ U d r d' ≠ k' ∧ U d r d' ≠ N d)
    (p : Digest → Prop) (b : ℝ) (hp : (avg fun c => ind (p c)) ≤ b) :
    (avg fun f : X → Digest => ind (p (f (U (f k) (f (N (f k))) (f k'))))) ≤ b := by
  classical
  refine avg_key_nonce k N (fun d r f => ind (p (f (U d r (f k'))))) b fun d r => ?_
  have hfix : ∀ d' : Digest, (avg fun g : X → Digest => ind (p (g (U d r d')))) ≤ b := fun d' => by
    rw [avg_one (U d r d') fun c => ind (p c)]
    exact hp
  have e : ∀ (g : X → Digest) (d' : Digest), Function.update (Function.update g k d) (N d) r (U d r d') = g (U d r d') := fun g d' => by
    rw [Function.update_of_ne (hU d r d').2.2, Function.update_of_ne (hU d r d').1]
  by_cases h1 : k' = N d
  · refine le_trans (le_of_eq (avg_congr fun g => ?_)) (hfix r)
    have : Function.update (Function.update g k d) (N d) r k' = r := by rw [h1, Function.update_self]
    rw [this, e]
  · by_cases h2 : k' = k
    · refine le_trans (le_of_eq (avg_congr fun g => ?_)) (hfix d)
      have : Function.update (Function.update g k d) (N d) r k' = d := by rw [Function.update_of_ne h1, h2, Function.update_self]
      rw [this, e]
    · have e2 : ∀ g : X → Digest, Function.update (Function.update g k d) (N d) r k' = g k' := fun g => by
        rw [Function.update_of_ne h1, Function.update_of_ne h2]
      rw [avg_congr fun g => by rw [e2 g, e g (g k')], avg_entry k' fun d' g => ind (p (g (U d r d')))]
      refine le_trans (avg_mono (G := fun _ => b) fun d' => ?_) (le_of_eq (avg_const b))
      refine le_trans (le_of_eq (avg_congr fun g => ?_)) (hfix d')
      rw [Function.update_of_ne (hU d r d').2.1]

end

theorem one_sub_le_prob {α : Type} [Fintype α] [Nonempty α] {p q : α → Prop} {F : α → ℝ} {b : ℝ} (hF : avg F ≤ b) (h : ∀ x, 1 - F x ≤ ind (p x)) (hq : ∀ x, p x → q x) :
    1 - b ≤ prob q := by
  have h1 := avg_sub_one F
  have h2 : (avg fun x => 1 - F x) ≤ prob q := by
    rw [prob_eq_avg]
    exact avg_mono fun x => (h x).trans (ind_mono (hq x))
  linarith

theorem three_of (a b c : Prop) : 1 - (ind (¬ a) + ind (¬ b) + ind c) ≤ ind (a ∧ b ∧ ¬ c) := by
  by_cases ha : a
  · by_cases hb : b
    · by_cases hc : c
      · have := ind_nonneg (a ∧ b ∧ ¬ c)
        have h1 := ind_nonneg (¬ a)
        have h2 := ind_nonneg (¬ b)
        rw [ind_true hc]
        linarith
      · rw [ind_true (show a ∧ b ∧ ¬ c from ⟨ha, hb, hc⟩)]
        have h1 := ind_nonneg (¬ a)
        have h2 := ind_nonneg (¬ b)
        have h3 := ind_nonneg c
        linarith
    · have := ind_nonneg (a ∧ b ∧ ¬ c)
      have h1 := ind_nonneg (¬ a)
      have h3 := ind_nonneg c
      rw [ind_true hb]
      linarith
  · have := ind_nonneg (a ∧ b ∧ ¬ c)
    have h2 := ind_nonneg (¬ b)
    have h3 := ind_nonneg c
    rw [ind_true ha]
    linarith

theorem ind_or_sum (a b : Prop) : ind (a ∨ b) ≤ ind a + ind b := by
  have h1 := ind_nonneg a
  have h2 := ind_nonneg b
  by_cases ha : a
  · have := ind_le_one (a ∨ b)
    rw [ind_true ha]
    linarith
  · by_cases hb : b
    · have := ind_le_one (a ∨ b)
      rw [ind_true hb]
      linarith
    · rw [ind_false (show ¬ (a ∨ b) from fun h => h.elim ha hb)]
      linarith

theorem nonce_withHash (E : Env) (F : Bytes → Digest) (sk m : Bytes) : nonce (E.withHash F) sk m = (F (prefixOf (F sk) ++ m)).val % L := by
  unfold nonce
  rw [Hash_withHash, Digest.leVal_bytes]
  rfl

/-- C112: with a random hash function, whoever gets one message signed by one private key under two different public keys (each may depend on the digest
of the private key; one may be the genuine one) computes from the two signatures the private scalar modulo `L`, and so a number with the genuine public
key, except with probability 2^-62 + 2^-249 + 2^-252. -/
theorem C112_two_public_keys (E : Env) (X : Finset Bytes) (sk m : Bytes) (P Q : Digest → PublicKey) (hs : sk.length = 32)
    (hP : ∀ d, (P d).raw.length = 32) (hQ : ∀ d, (Q d).raw.length = 32) (hne : ∀ d, P d ≠ Q d) (hX : ∀ x : Bytes, x.length ≤ m.length + 64 → x ∈ X) :
    1 - (1 / 2 ^ 62 + 1 / 2 ^ 249 + 1 / 2 ^ 252) ≤ prob fun f : X → Digest => ∃ kp kp' : KeyPair, ∃ s s' : Signature,
      newKeyPair (E.withHash (onAll f)) (some (newPrivateKey sk)) (some (P (onAll f sk))) = .ok kp ∧
      newKeyPair (E.withHash (onAll f)) (some (newPrivateKey sk)) (some (Q (onAll f sk))) = .ok kp' ∧
      sign (E.withHash (onAll f)) kp m = .ok s ∧ sign (E.withHash (onAll f)) kp' m = .ok s' ∧
      recover (challenge (E.withHash (onAll f)) s.R kp.pub.raw m) (challenge (E.withHash (onAll f)) s'.R kp'.pub.raw m) (leVal s.S) (leVal s'.S) =
        secretScalar (E.withHash (onAll f)) sk % L ∧
      encodePoint (recover (challenge (E.withHash (onAll f)) s.R kp.pub.raw m) (challenge (E.withHash (onAll f)) s'.R kp'.pub.raw m) (leVal s.S) (leVal s'.S) • B) =
        publicKeyOf (E.withHash (onAll f)) sk := by
  classical
  have hsk : sk ∈ X := hX _ (by omega)
  have hp : ∀ d : Digest, prefixOf d ++ m ∈ X := fun d => hX _ (by rw [List.length_append, prefixOf_length]; omega)
  have hl : ∀ (A : PublicKey) (r : Digest), A.raw.length = 32 → (encodePoint ((r.val % L) • B) ++ A.raw ++ m).length = m.length + 64 := fun A r hA => by
    rw [List.length_append, List.length_append, encodePoint_length, hA]; omega
  have hc : ∀ (A : PublicKey) (r : Digest), A.raw.length = 32 → encodePoint ((r.val % L) • B) ++ A.raw ++ m ∈ X := fun A r hA => hX _ (hl A r hA).le
  have ne1 : ∀ (A : PublicKey) (r : Digest) (hA : A.raw.length = 32), (⟨_, hc A r hA⟩ : X) ≠ ⟨sk, hsk⟩ := fun A r hA e => by
    have := congrArg List.length (congrArg Subtype.val e)
    dsimp only at this
    rw [hl A r hA] at this
    omega
  have ne2 : ∀ (A : PublicKey) (r d : Digest) (hA : A.raw.length = 32), (⟨_, hc A r hA⟩ : X) ≠ ⟨_, hp d⟩ := fun A r d hA e => by
    have := congrArg List.length (congrArg Subtype.val e)
    dsimp only at this
    rw [hl A r hA, List.length_append, prefixOf_length] at this
    omega
  refine one_sub_le_prob (two_challenges (⟨sk, hsk⟩ : X) (fun d => ⟨_, hp d⟩) (fun d r => ⟨_, hc (P d) r (hP d)⟩) (fun d r => ⟨_, hc (Q d) r (hQ d)⟩)
    (fun d r => ⟨ne1 _ _ (hP d), ne2 _ _ _ (hP d)⟩) (fun d r => ⟨ne1 _ _ (hQ d), ne2 _ _ _ (hQ d)⟩) fun d r e => hne d ?_) (fun f => three_of _ _ _) ?_
  · have e := congrArg Subtype.val e
    dsimp only at e
    rw [List.append_assoc, List.append_assoc] at e
    have e := List.append_cancel_left e
    have e := List.append_cancel_right e
    cases hPd : P d
    cases hQd : Q d
    rw [hPd, hQd] at e
    exact congrArg PublicKey.mk e
  · rintro f ⟨h1, h2, h3⟩
    have hn : nonce (E.withHash (onAll f)) sk m = (f ⟨_, hp (f ⟨sk, hsk⟩)⟩).val % L := by
      rw [nonce_withHash, onAll_mem f hsk, onAll_mem f (hp _)]
    have hR : sigR (E.withHash (onAll f)) sk m = encodePoint (((f ⟨_, hp (f ⟨sk, hsk⟩)⟩).val % L) • B) := by
      unfold sigR
      rw [hn]
    have hch : ∀ (A : PublicKey) (hA : A.raw.length = 32), challenge (E.withHash (onAll f)) (sigR (E.withHash (onAll f)) sk m) A.raw m =
        (f ⟨_, hc A (f ⟨_, hp (f ⟨sk, hsk⟩)⟩) hA⟩).val % L := by
      intro A hA
      rw [hR, challenge_withHash, onAll_mem f (hc A _ hA)]
    have hsc : secretScalar (E.withHash (onAll f)) sk = scalarOf (f ⟨sk, hsk⟩) := by
      rw [← onAll_mem f hsk]
      rfl
    have hS : ∀ (A : PublicKey) (hA : A.raw.length = 32), sigS (E.withHash (onAll f)) sk A.raw m = ((f ⟨_, hp (f ⟨sk, hsk⟩)⟩).val % L +
        (f ⟨_, hc A (f ⟨_, hp (f ⟨sk, hsk⟩)⟩) hA⟩).val % L * scalarOf (f ⟨sk, hsk⟩)) % L := by
      intro A hA
      unfold sigS
      rw [hn, hch A hA, hsc]
    have hd : onAll f sk = f ⟨sk, hsk⟩ := onAll_mem f hsk
    have raw : (newPrivateKey sk).raw = sk := rfl
    have g1 := C19_sign (E.withHash (onAll f)) (newPrivateKey sk) (P (f ⟨sk, hsk⟩)) m
    have g2 := C19_sign (E.withHash (onAll f)) (newPrivateKey sk) (Q (f ⟨sk, hsk⟩)) m
    rw [raw, hS _ (hP _), if_pos h1] at g1
    rw [raw, hS _ (hQ _), if_pos h2] at g2
    have hfin := C58_two_public_keys (E.withHash (onAll f)) (newPrivateKey sk) _ _ m _ _ g1 g2 (by
      show challenge _ (sigR (E.withHash (onAll f)) sk m) _ m ≠ challenge _ (sigR (E.withHash (onAll f)) sk m) _ m
      rw [hch _ (hP _), hch _ (hQ _)]
      exact h3)
    refine ⟨_, _, _, _, ?_, ?_, g1, g2, hfin.2.1, hfin.2.2⟩
    · rw [hd]
      exact C58_pairs_accepted _ _ _ (hP _)
    · rw [hd]
      exact C58_pairs_accepted _ _ _ (hQ _)

/-- C112: the same for a message that is overwritten by another one of the same length while it is signed (C59): the response for the new message is
one that `Sign` returns, the genuine signature is one too, and the two give the private scalar modulo `L`, except with that probability. -/
theorem C112_overwritten (E : Env) (X : Finset Bytes) (sk m m' : Bytes) (P : Digest → PublicKey) (hs : sk.length = 32)
    (hP : ∀ d, (P d).raw.length = 32) (hl' : m'.length = m.length) (hne : m ≠ m') (hX : ∀ x : Bytes, x.length ≤ m.length + 64 → x ∈ X) :
    1 - (1 / 2 ^ 62 + 1 / 2 ^ 249 + 1 / 2 ^ 252) ≤ prob fun f : X → Digest => ∃ kp : KeyPair, ∃ s s' : Signature,
      newKeyPair (E.withHash (onAll f)) (some (newPrivateKey sk)) (some (P (onAll f sk))) = .ok kp ∧
      sign (E.withHash (onAll f)) kp m = .ok s ∧
      LowBitsOk (tornS (E.withHash (onAll f)) sk kp.pub.raw m m') ∧
      s' = ⟨sigR (E.withHash (onAll f)) sk m, leBytes 32 (tornS (E.withHash (onAll f)) sk kp.pub.raw m m')⟩ ∧
      recover (challenge (E.withHash (onAll f)) s.R kp.pub.raw m) (challenge (E.withHash (onAll f)) s'.R kp.pub.raw m') (leVal s.S) (leVal s'.S) =
        secretScalar (E.withHash (onAll f)) sk % L ∧
      encodePoint (recover (challenge (E.withHash (onAll f)) s.R kp.pub.raw m) (challenge (E.withHash (onAll f)) s'.R kp.pub.raw m') (leVal s.S) (leVal s'.S) • B) =
        publicKeyOf (E.withHash (onAll f)) sk := by
  classical
  have hsk : sk ∈ X := hX _ (by omega)
  have hp : ∀ d : Digest, prefixOf d ++ m ∈ X := fun d => hX _ (by rw [List.length_append, prefixOf_length]; omega)
  have hl : ∀ (n : Bytes) (d r : Digest), n.length = m.length → (encodePoint ((r.val % L) • B) ++ (P d).raw ++ n).length = m.length + 64 := fun n d r hn => by
    rw [List.length_append, List.length_append, encodePoint_length, hP]; omega
  have hc : ∀ (n : Bytes) (d r : Digest), n.length = m.length → encodePoint ((r.val % L) • B) ++ (P d).raw ++ n ∈ X := fun n d r hn => hX _ (hl n d r hn).le
  have ne1 : ∀ (n : Bytes) (d r : Digest) (hn : n.length = m.length), (⟨_, hc n d r hn⟩ : X) ≠ ⟨sk, hsk⟩ := fun n d r hn e => by
    have := congrArg List.length (congrArg Subtype.val e)
    dsimp only at this
    rw [hl n d r hn] at this
    omega
  have ne2 : ∀ (n : Bytes) (d r : Digest) (hn : n.length = m.length), (⟨_, hc n d r hn⟩ : X) ≠ ⟨_, hp d⟩ := fun n d r hn e => by
    have := congrArg List.length (congrArg Subtype.val e)
    dsimp only at this
    rw [hl n d r hn, List.length_append, prefixOf_length] at this
    omega
  refine one_sub_le_prob (two_challenges (⟨sk, hsk⟩ : X) (fun d => ⟨_, hp d⟩) (fun d r => ⟨_, hc m d r rfl⟩) (fun d r => ⟨_, hc m' d r hl'⟩)
    (fun d r => ⟨ne1 _ _ _ rfl, ne2 _ _ _ rfl⟩) (fun d r => ⟨ne1 _ _ _ hl', ne2 _ _ _ hl'⟩) fun d r e => hne ?_) (fun f => three_of _ _ _) ?_
  · exact List.append_cancel_left (congrArg Subtype.val e)
  · rintro f ⟨h1, h2, h3⟩
    have hn : nonce (E.withHash (onAll f)) sk m = (f ⟨_, hp (f ⟨sk, hsk⟩)⟩).val % L := by
      rw [nonce_withHash, onAll_mem f hsk, onAll_mem f (hp _)]
    have hR : sigR (E.withHash (onAll f)) sk m = encodePoint (((f ⟨_, hp (f ⟨sk, hsk⟩)⟩).val % L) • B) := by
      unfold sigR
      rw [hn]
    have hch : ∀ (n : Bytes) (hn : n.length = m.length), challenge (E.withHash (onAll f)) (sigR (E.withHash (onAll f)) sk m) (P (f ⟨sk, hsk⟩)).raw n =
        (f ⟨_, hc n (f ⟨sk, hsk⟩) (f ⟨_, hp (f ⟨sk, hsk⟩)⟩) hn⟩).val % L := by
      intro n hn
      rw [hR, challenge_withHash, onAll_mem f (hc n _ _ hn)]
    have hsc : secretScalar (E.withHash (onAll f)) sk = scalarOf (f ⟨sk, hsk⟩) := by
      rw [← onAll_mem f hsk]
      rfl
    have hS : ∀ (n : Bytes) (hn : n.length = m.length), tornS (E.withHash (onAll f)) sk (P (f ⟨sk, hsk⟩)).raw m n = ((f ⟨_, hp (f ⟨sk, hsk⟩)⟩).val % L +
        (f ⟨_, hc n (f ⟨sk, hsk⟩) (f ⟨_, hp (f ⟨sk, hsk⟩)⟩) hn⟩).val % L * scalarOf (f ⟨sk, hsk⟩)) % L := by
      intro n hn'
      unfold tornS
      rw [hn, hch n hn', hsc]
    have hd : onAll f sk = f ⟨sk, hsk⟩ := onAll_mem f hsk
    have raw : (newPrivateKey sk).raw = sk := rfl
    have g1 := C19_sign (E.withHash (onAll f)) (newPrivateKey sk) (P (f ⟨sk, hsk⟩)) m
    have torn : sigS (E.withHash (onAll f)) sk (P (f ⟨sk, hsk⟩)).raw m = tornS (E.withHash (onAll f)) sk (P (f ⟨sk, hsk⟩)).raw m m := rfl
    rw [raw, torn, hS m rfl, if_pos h1] at g1
    have hfin := C59_leak (E.withHash (onAll f)) (newPrivateKey sk) _ m m' _ _ g1 rfl (by
      show challenge _ (sigR (E.withHash (onAll f)) sk m) _ m ≠ challenge _ (sigR (E.withHash (onAll f)) sk m) _ m'
      rw [hch _ rfl, hch _ hl']
      exact h3)
    refine ⟨⟨some (newPrivateKey sk), P (f ⟨sk, hsk⟩)⟩, _, _, ?_, g1, ?_, rfl, hfin.2.1, hfin.2.2⟩
    · rw [hd]
      exact C58_pairs_accepted _ _ _ (hP _)
    · rw [hS m' hl']
      exact h2

/-- C110 for all key pairs: also with a public key that does not belong to the private key (it may depend on the digest of the private key) `Sign` returns
an error for a given message with probability 2^-63, up to 2^-250. -/
theorem C110_any_public_key (E : Env) (X : Finset Bytes) (sk m : Bytes) (P : Digest → PublicKey) (hs : sk.length = 32) (hP : ∀ d, (P d).raw.length = 32)
    (hX : ∀ x : Bytes, x.length ≤ m.length + 64 → x ∈ X) :
    |(prob fun f : X → Digest => ∃ kp, newKeyPair (E.withHash (onAll f)) (some (newPrivateKey sk)) (some (P (onAll f sk))) = .ok kp ∧
      ∃ e, sign (E.withHash (onAll f)) kp m = .err e) - 1 / 2 ^ 63| ≤ 1 / 2 ^ 250 := by
  classical
  have hsk : sk ∈ X := hX _ (by omega)
  have hp : ∀ d : Digest, prefixOf d ++ m ∈ X := fun d => hX _ (by rw [List.length_append, prefixOf_length]; omega)
  have hl : ∀ d r : Digest, (encodePoint ((r.val % L) • B) ++ (P d).raw ++ m).length = m.length + 64 := fun d r => by
    rw [List.length_append, List.length_append, encodePoint_length, hP]; omega
  have hc : ∀ d r : Digest, encodePoint ((r.val % L) • B) ++ (P d).raw ++ m ∈ X := fun d r => hX _ (hl d r).le
  have ne1 : ∀ d r : Digest, (⟨_, hc d r⟩ : X) ≠ ⟨sk, hsk⟩ := fun d r e => by
    have := congrArg List.length (congrArg Subtype.val e)
    dsimp only at this
    rw [hl d r] at this
    omega
  have ne2 : ∀ d r : Digest, (⟨_, hc d r⟩ : X) ≠ ⟨_, hp d⟩ := fun d r e => by
    have := congrArg List.length (congrArg Subtype.val e)
    dsimp only at this
    rw [hl d r, List.length_append, prefixOf_length] at this
    omega
  let G : Digest → Digest → Digest → ℝ := fun d r c => ind (¬ LowBitsOk ((r.val % L + c.val % L * scalarOf d) % L))
  have e1 : (prob fun f : X → Digest => ∃ kp, newKeyPair (E.withHash (onAll f)) (some (newPrivateKey sk)) (some (P (onAll f sk))) = .ok kp ∧
      ∃ e, sign (E.withHash (onAll f)) kp m = .err e) =
      avg fun f : X → Digest => G (f ⟨sk, hsk⟩) (f ⟨_, hp (f ⟨sk, hsk⟩)⟩) (f ⟨_, hc (f ⟨sk, hsk⟩) (f ⟨_, hp (f ⟨sk, hsk⟩)⟩)⟩) := by
    rw [prob_eq_avg]
    refine avg_congr fun f => ind_congr ?_
    have hd : onAll f sk = f ⟨sk, hsk⟩ := onAll_mem f hsk
    have hn : nonce (E.withHash (onAll f)) sk m = (f ⟨_, hp (f ⟨sk, hsk⟩)⟩).val % L := by
      rw [nonce_withHash, onAll_mem f hsk, onAll_mem f (hp _)]
    have hS : sigS (E.withHash (onAll f)) sk (P (f ⟨sk, hsk⟩)).raw m = ((f ⟨_, hp (f ⟨sk, hsk⟩)⟩).val % L +
        (f ⟨_, hc (f ⟨sk, hsk⟩) (f ⟨_, hp (f ⟨sk, hsk⟩)⟩)⟩).val % L * scalarOf (f ⟨sk, hsk⟩)) % L := by
      have hsc : secretScalar (E.withHash (onAll f)) sk = scalarOf (f ⟨sk, hsk⟩) := by
        rw [← onAll_mem f hsk]
        rfl
      unfold sigS sigR
      rw [hn, challenge_withHash, onAll_mem f (hc _ _), hsc]
    have raw : (newPrivateKey sk).raw = sk := rfl
    have g := C19_sign (E.withHash (onAll f)) (newPrivateKey sk) (P (f ⟨sk, hsk⟩)) m
    rw [raw, hS] at g
    rw [hd, C58_pairs_accepted _ _ _ (hP _)]
    constructor
    · rintro ⟨kp, h, e, he⟩
      have h := Out.ok.inj h
      subst h
      rw [g] at he
      split at he
      · exact nomatch he
      · assumption
    · intro h
      exact ⟨_, rfl, _, by rw [g, if_neg h]⟩
  have key : ∀ d r : Digest, (avg fun g : X → Digest => G d r (Function.update (Function.update g ⟨sk, hsk⟩ d) ⟨_, hp d⟩ r ⟨_, hc d r⟩)) = avg fun c => G d r c := by
    intro d r
    rw [← avg_one (⟨_, hc d r⟩ : X) (G d r)]
    refine avg_congr fun g => ?_
    rw [Function.update_of_ne (ne2 d r), Function.update_of_ne (ne1 d r)]
  have near : ∀ d r : Digest, |(avg fun c => G d r c) - 1 / 2 ^ 63| ≤ 1 / 2 ^ 250 := by
    intro d r
    have h := refused_prob (r.val % L) (scalarOf d) (scalarOf_coprime d)
    rwa [prob_eq_avg] at h
  have up := avg_key_nonce (⟨sk, hsk⟩ : X) (fun d => ⟨_, hp d⟩) (fun d r f => G d r (f ⟨_, hc d r⟩)) (1 / 2 ^ 63 + 1 / 2 ^ 250) fun d r => by
    have := (abs_le.1 (near d r)).2
    rw [key d r]
    linarith
  have down := avg_key_nonce (⟨sk, hsk⟩ : X) (fun d => ⟨_, hp d⟩) (fun d r f => 1 - G d r (f ⟨_, hc d r⟩)) (1 - (1 / 2 ^ 63 - 1 / 2 ^ 250)) fun d r => by
    have := (abs_le.1 (near d r)).1
    rw [avg_sub_one, key d r]
    linarith
  rw [avg_sub_one] at down
  rw [e1, abs_le]
  constructor <;> linarith

/-- C68: with a random hash function, a key pair of a private key and the public key of another private key makes a signature that `Verify` accepts under this
public key with probability at most 2^-251 + 2^-252. -/
theorem C68_useless (E : Env) (X : Finset Bytes) (sk sk' m : Bytes) (hs : sk.length = 32) (hs' : sk'.length = 32) (hne : sk ≠ sk')
    (hX : ∀ x : Bytes, x.length ≤ m.length + 64 → x ∈ X) :
    (prob fun f : X → Digest => ∃ pub : PublicKey, ∃ kp : KeyPair, ∃ s : Signature, derivePublicKey (E.withHash (onAll f)) (some (newPrivateKey sk')) = .ok pub ∧
      newKeyPair (E.withHash (onAll f)) (some (newPrivateKey sk)) (some pub) = .ok kp ∧ sign (E.withHash (onAll f)) kp m = .ok s ∧
      verify (E.withHash (onAll f)) pub m s = .ok true) ≤ 1 / 2 ^ 251 + 1 / 2 ^ 252 := by
  classical
  have hsk : sk ∈ X := hX _ (by omega)
  have hsk' : sk' ∈ X := hX _ (by omega)
  have hp : ∀ d : Digest, prefixOf d ++ m ∈ X := fun d => hX _ (by rw [List.length_append, prefixOf_length]; omega)
  have hl : ∀ r d' : Digest, (encodePoint ((r.val % L) • B) ++ encodePoint (scalarOf d' • B) ++ m).length = m.length + 64 := fun r d' => by
    rw [List.length_append, List.length_append, encodePoint_length, encodePoint_length]; omega
  have hc : ∀ r d' : Digest, encodePoint ((r.val % L) • B) ++ encodePoint (scalarOf d' • B) ++ m ∈ X := fun r d' => hX _ (hl r d').le
  have two := C103_two_keys E X sk sk' hsk hsk' hne
  have zero := avg_last (⟨sk, hsk⟩ : X) ⟨sk', hsk'⟩ (fun d => ⟨_, hp d⟩) (fun _ r d' => ⟨_, hc r d'⟩) (fun d r d' => by
    refine ⟨fun e => ?_, fun e => ?_, fun e => ?_⟩ <;> have := congrArg List.length (congrArg Subtype.val e) <;> dsimp only at this <;> rw [hl r d'] at this
    · omega
    · omega
    · rw [List.length_append, prefixOf_length] at this
      omega) (fun c => c.val % L = 0) _ (avg_class 0)
  rw [← two, prob_eq_avg, prob_eq_avg]
  refine le_trans ?_ (add_le_add_right zero _)
  rw [← avg_add]
  refine avg_mono fun f => ?_
  refine le_trans (ind_mono (q := (derivePublicKey (E.withHash (onAll f)) (some (newPrivateKey sk)) = derivePublicKey (E.withHash (onAll f)) (some (newPrivateKey sk'))) ∨
    (f ⟨_, hc (f ⟨_, hp (f ⟨sk, hsk⟩)⟩) (f ⟨sk', hsk'⟩)⟩).val % L = 0) ?_) (ind_or_sum _ _)
  rintro ⟨pub, kp, s, hpub, hkp, hsig, hv⟩
  have hraw : pub = ⟨encodePoint (scalarOf (f ⟨sk', hsk'⟩) • B)⟩ := by
    rw [derive_spec] at hpub
    rw [← Out.ok.inj hpub, ← onAll_mem f hsk']
    rfl
  have hk := Out.ok.inj ((C58_pairs_accepted (E.withHash (onAll f)) (newPrivateKey sk) pub (by rw [hraw]; exact encodePoint_length _)).symm.trans hkp)
  subst hk
  rcases (C68_other_key (E.withHash (onAll f)) (newPrivateKey sk) (newPrivateKey sk') pub hpub m s hsig).1 hv with h | h
  · right
    have raw : (newPrivateKey sk).raw = sk := rfl
    have hR : s.R = encodePoint (((f ⟨_, hp (f ⟨sk, hsk⟩)⟩).val % L) • B) := by
      rw [C19_sign, raw] at hsig
      split at hsig
      · rw [← Out.ok.inj hsig]
        show encodePoint (nonce (E.withHash (onAll f)) sk m • B) = _
        rw [nonce_withHash, onAll_mem f hsk, onAll_mem f (hp _)]
      · exact nomatch hsig
    rw [challenge_withHash, hR, hraw, onAll_mem f (hc _ _)] at h
    exact h
  · left
    rw [derive_spec, derive_spec]
    unfold publicKeyOf
    rw [← smul_B_mod (secretScalar _ (newPrivateKey sk).raw), h, smul_B_mod]

/-! ## Cases -/

/-- The hypotheses of `C112_two_public_keys`, for the message [1, 2, 3], the genuine public key and the same with another first byte. -/
example : ∃ (X : Finset Bytes) (P Q : Digest → PublicKey), (∀ d, (P d).raw.length = 32) ∧ (∀ d, (Q d).raw.length = 32) ∧ (∀ d, P d ≠ Q d) ∧
    (∀ d, (P d).raw = encodePoint (scalarOf d • B)) ∧ ∀ x : Bytes, x.length ≤ ([1, 2, 3] : Bytes).length + 64 → x ∈ X := by
  obtain ⟨X, hX⟩ := exists_short 67
  refine ⟨X, fun d => ⟨encodePoint (scalarOf d • B)⟩, fun d => ⟨((encodePoint (scalarOf d • B)).headD 0 + 1) :: (encodePoint (scalarOf d • B)).tail⟩,
    fun d => encodePoint_length _, fun d => ?_, fun d e => ?_, fun d => rfl, fun x hx => hX x hx⟩
  · have := encodePoint_length (scalarOf d • B)
    show ((_ :: _ : Bytes)).length = 32
    rw [List.length_cons, List.length_tail]
    omega
  · have e := congrArg PublicKey.raw e
    have hl := encodePoint_length (scalarOf d • B)
    dsimp only at e
    generalize encodePoint (scalarOf d • B) = l at e hl
    cases l with
    | nil => exact nomatch hl
    | cons b t =>
      have h1 : b = b + 1 := (List.cons.inj e).1
      have h2 := congrArg UInt8.toNat h1
      rw [UInt8.toNat_add] at h2
      have h3 := b.toNat_lt
      have h4 : (1 : UInt8).toNat = 1 := rfl
      omega

/-- The hypotheses of `C68_useless`. -/
example : ∃ X : Finset Bytes, (List.replicate 32 7 : Bytes).length = 32 ∧ (List.replicate 32 8 : Bytes).length = 32 ∧
    (List.replicate 32 7 : Bytes) ≠ List.replicate 32 8 ∧ ∀ x : Bytes, x.length ≤ ([1, 2, 3] : Bytes).length + 64 → x ∈ X := by
  obtain ⟨X, hX⟩ := exists_short 67
  exact ⟨X, rfl, rfl, by decide, fun x hx => hX x hx⟩

/-- The hypotheses of `C112_overwritten`, for two messages of three bytes. -/
example : ∃ X : Finset Bytes, ([4, 5, 6] : Bytes).length = ([1, 2, 3] : Bytes).length ∧ ([1, 2, 3] : Bytes) ≠ [4, 5, 6] ∧
    ∀ x : Bytes, x.length ≤ ([1, 2, 3] : Bytes).length + 64 → x ∈ X := by
  obtain ⟨X, hX⟩ := exists_short 67
  exact ⟨X, rfl, by decide, fun x hx => hX x hx⟩

end Ed

import Verif.Proofs.RandomOracle
import Verif.Props.Order
import Mathlib.Analysis.Real.Sqrt

/-!
# Forging a signature means knowing the key (C96, C97)
-/

set_option autoImplicit false

namespace Ed

open Finset

/-- The hash function of an environment made by `withHash`. -/
theorem Hash_withHash (E : Env) (f : Bytes → Digest) (x : Bytes) : Hash (E.withHash f) x = (f x).bytes := rfl

theorem Digest.val_lt (d : Digest) : d.val < 2 ^ 512 := Fin.isLt d

theorem Digest.leVal_bytes (d : Digest) : leVal d.bytes = d.val :=
  leVal_leBytes_of_lt (lt_of_lt_of_eq d.val_lt (by decide +kernel))

theorem challenge_withHash (E : Env) (f : Bytes → Digest) (R A m : Bytes) : challenge (E.withHash f) R A m = (f (R ++ A ++ m)).val % L := by
  unfold challenge
  rw [Hash_withHash, Digest.leVal_bytes]

/-! ## C96: two digests to one commitment give the key, one answer gives nothing -/

/-- Two responses to one commitment. -/
theorem two_responses {A : Pt} {s s' : ℤ} {c c' : ℕ} (hlt : c < L) (hlt' : c' < L) (hc : c ≠ c') (e : s • B - c • A = s' • B - c' • A) :
    8 • A = 8 • recover c c' (s % L).toNat (s' % L).toNat • B := by
  obtain ⟨n, t, hn, ht, rfl⟩ := exists_parts A
  -- multiply by 8: the small part vanishes; then divide by 8 modulo L
  have e8 : ((8 : ℕ) • (s • B - c • n • B) : Pt) = (8 : ℕ) • (s' • B - c' • n • B) := by
    have := congrArg (fun q => (8 : ℕ) • q) e
    simp only [smul_sub, smul_add, smul_comm (8 : ℕ) c, smul_comm (8 : ℕ) c', smul_comm (8 : ℕ) t, eight_smul_T, smul_zero, add_zero] at this
    simp only [smul_sub, smul_comm (8 : ℕ) c, smul_comm (8 : ℕ) c']
    exact this
  have e0 : (s • B - c • n • B : Pt) = s' • B - c' • n • B := by
    have hz : ∀ (s : ℤ) (c : ℕ), (s • B - c • n • B : Pt) = (s - c * n : ℤ) • B := by
      intro s c
      rw [sub_smul, mul_smul, natCast_zsmul, natCast_zsmul]
    rw [hz, hz, ← natCast_zsmul _ 8, ← natCast_zsmul _ 8, ← mul_smul, ← mul_smul, zsmul_B_eq_iff] at e8
    rw [hz, hz, zsmul_B_eq_iff]
    have hg : Int.gcd (L : ℤ) ((8 : ℕ) : ℤ) = 1 := by
      rw [Int.gcd_natCast_natCast]
      exact L_coprime_8
    have key := Int.ModEq.cancel_left_div_gcd (by have := L_prime.pos; omega) e8
    rw [hg] at key
    simpa using key
  rw [recover_eq hlt hlt' hc e0, Nat.mod_eq_of_lt hn, smul_add, smul_comm 8 t, eight_smul_T, smul_zero, add_zero]

/-- C96: for every public key, whoever made it.  If one R is accepted with two different challenges, under two hash functions or for two messages,
then the number computed from the challenges and responses is the discrete logarithm of the public point, up to a point of order dividing 8. -/
theorem C96_soundness (E E' : Env) (pub : PublicKey) (A : Pt) (hA : Decodes (pub.raw.take 32) A) (m m' R S S' : Bytes)
    (hl : S.length = 32) (hl' : S'.length = 32)
    (h : verify E pub m ⟨R, S⟩ = .ok true) (h' : verify E' pub m' ⟨R, S'⟩ = .ok true)
    (hc : challenge E R pub.raw m ≠ challenge E' R pub.raw m') :
    8 • A = 8 • recover (challenge E R pub.raw m) (challenge E' R pub.raw m') (nafVal (leVal S) % L).toNat (nafVal (leVal S') % L).toNat • B := by
  rw [C20_accepts_iff_any E _ hl] at h
  rw [C20_accepts_iff_any E' _ hl'] at h'
  obtain ⟨-, -, -, A1, a1, e1⟩ := h
  obtain ⟨-, -, -, A2, a2, e2⟩ := h'
  rw [GC.decodes_unique a1 hA] at e1
  rw [GC.decodes_unique a2 hA] at e2
  exact two_responses (Nat.mod_lt _ L_prime.pos) (Nat.mod_lt _ L_prime.pos) hc (encodePoint_inj (e1.symm.trans e2))

theorem eight_cancel {A : Pt} {x : ℕ} (hL : L • A = 0) (h : 8 • A = 8 • x • B) : A = x • B := by
  obtain ⟨n, -, rfl⟩ := (L_smul_eq_zero_iff A).1 hL
  rw [← mul_smul, ← mul_smul, smul_B_eq_iff] at h
  rw [smul_B_eq_iff]
  exact Nat.ModEq.cancel_left_of_coprime (c := 8) L_coprime_8 h

/-- C96: for a public point in the subgroup of the base point (every derived key) it is the discrete logarithm. -/
theorem C96_soundness_subgroup (E E' : Env) (pub : PublicKey) (A : Pt) (hA : Decodes (pub.raw.take 32) A) (hL : L • A = 0)
    (m m' R S S' : Bytes) (hl : S.length = 32) (hl' : S'.length = 32)
    (h : verify E pub m ⟨R, S⟩ = .ok true) (h' : verify E' pub m' ⟨R, S'⟩ = .ok true)
    (hc : challenge E R pub.raw m ≠ challenge E' R pub.raw m') :
    A = recover (challenge E R pub.raw m) (challenge E' R pub.raw m') (nafVal (leVal S) % L).toNat (nafVal (leVal S') % L).toNat • B := by
  exact eight_cancel hL (C96_soundness E E' pub A hA m m' R S S' hl hl' h h' hc)

/-- C96: but whoever may choose one hash value makes accepted signatures for every message and every usable public key without any private key: with
the challenge `d` and the response S fixed first, the commitment follows.  The hash function differs from the given one in one place only. -/
theorem C96_simulation (E : Env) (f : Bytes → Digest) (pub : PublicKey) (A : Pt) (hA : Decodes (pub.raw.take 32) A)
    (hz : pub.raw ≠ List.replicate 32 0) (hl : pub.raw.length = 32 ∨ pub.raw.length = 64) (m : Bytes) (d : Digest) (S : Bytes) (hS : S.length = 32)
    (hc : LowBitsOk (leVal S)) :
    ∃ (R : Bytes) (g : Bytes → Digest), (∀ x, x ≠ R ++ pub.raw ++ m → g x = f x) ∧ g (R ++ pub.raw ++ m) = d ∧
      verify (E.withHash g) pub m ⟨R, S⟩ = .ok true := by
  refine ⟨encodePoint (nafVal (leVal S) • B - (d.val % L) • A),
    Function.update f (encodePoint (nafVal (leVal S) • B - (d.val % L) • A) ++ pub.raw ++ m) d, ?_, ?_, ?_⟩
  · intro x hx
    rw [Function.update_of_ne hx]
  · rw [Function.update_self]
  · rw [C20_accepts_iff_any _ S hS]
    refine ⟨hc, hz, hl, A, hA, ?_⟩
    rw [challenge_withHash, Function.update_self]

/-! ## C97: forging is as hard as finding the discrete logarithm -/

/-- The pair of a forgery and the digest for its challenge is a success. -/
def Wins (pub : PublicKey) (A : Pt) (r : Forgery × Digest) : Prop :=
  r.1.R.length = 32 ∧ r.1.S.length = 32 ∧ LowBitsOk (leVal r.1.S) ∧ pub.raw ≠ List.replicate 32 0 ∧ (pub.raw.length = 32 ∨ pub.raw.length = 64) ∧
    r.1.R = encodePoint (nafVal (leVal r.1.S) • B - (r.2.val % L) • A)

theorem forges_iff (E : Env) (pub : PublicKey) (A : Pt) (hA : Decodes (pub.raw.take 32) A) (adv : HashProg Forgery) (f : Bytes → Digest) :
    Forges E pub adv f ↔ Wins pub A ((withCheck pub adv).run f) := by
  have hr : (withCheck pub adv).run f = (adv.run f, f ((adv.run f).input pub)) := by
    unfold withCheck
    rw [HashProg.run_bind]
    rfl
  rw [hr]
  unfold Forges
  generalize adv.run f = F
  unfold Wins newSignature
  dsimp only
  have key : ∀ (hS : F.S.length = 32), verify (E.withHash f) pub F.m ⟨F.R, F.S⟩ = .ok true ↔
      LowBitsOk (leVal F.S) ∧ pub.raw ≠ List.replicate 32 0 ∧ (pub.raw.length = 32 ∨ pub.raw.length = 64) ∧
        F.R = encodePoint (nafVal (leVal F.S) • B - ((f (F.input pub)).val % L) • A) := by
    intro hS
    rw [C20_accepts_iff_any _ F.S hS, challenge_withHash]
    refine and_congr_right fun _ => and_congr_right fun _ => and_congr_right fun _ => ?_
    constructor
    · rintro ⟨A', hA', e⟩
      rw [GC.decodes_unique hA' hA] at e
      exact e
    · exact fun e => ⟨A, hA, e⟩
  constructor
  · rintro ⟨sig, h1, h2⟩
    split at h1
    · exact nomatch h1
    · rename_i hn
      have hn := not_or.1 hn
      have e := Out.ok.inj h1
      subst e
      exact ⟨not_not.1 hn.1, not_not.1 hn.2, (key (not_not.1 hn.2)).1 h2⟩
  · rintro ⟨h1, h2, h3⟩
    rw [if_neg (by simp [h1, h2])]
    exact ⟨_, rfl, (key h2).2 h3⟩

theorem withCheck_lookup (pub : PublicKey) (adv : HashProg Forgery) (h : ℕ → Digest) :
    ((withCheck pub adv).play h []).2.lookup (((withCheck pub adv).play h []).1.1.input pub) = some ((withCheck pub adv).play h []).1.2 := by
  unfold withCheck
  rw [HashProg.play_bind]
  generalize adv.play h [] = r
  obtain ⟨F, T⟩ := r
  dsimp only
  cases hx : T.lookup (F.input pub) with
  | some d => rw [HashProg.play_some _ hx]; exact hx
  | none =>
    rw [HashProg.play_none _ hx]
    show List.lookup (F.input pub) (T ++ [(F.input pub, h T.length)]) = some (h T.length)
    rw [List.lookup_append, hx]
    simp

theorem withCheck_pos {pub : PublicKey} {adv : HashProg Forgery} {q : ℕ} (hq : adv.AtMost q) (h : ℕ → Digest) :
    (((withCheck pub adv).play h []).2.map Prod.fst).idxOf (((withCheck pub adv).play h []).1.1.input pub) < q + 1 := by
  obtain ⟨h1, -, -⟩ := lookup_idxOf (withCheck_lookup pub adv h)
  have h2 : (withCheck pub adv).AtMost (q + 1) := HashProg.bind_atMost (fun F => by intro d; trivial) hq
  have := HashProg.play_length (h := h) h2 []
  simp only [List.length_nil, Nat.zero_add] at this
  omega

open Classical in
/-- The position of the decisive question of a successful run. -/
noncomputable def position (pub : PublicKey) (A : Pt) {q : ℕ} (adv : HashProg Forgery) (hq : adv.AtMost q) (d : Fin (q + 1) → Digest) : Option (Fin (q + 1)) :=
  if Wins pub A ((withCheck pub adv).play (digests d) []).1 then some ⟨_, withCheck_pos (pub := pub) hq (digests d)⟩ else none

theorem position_some {pub : PublicKey} {A : Pt} {q : ℕ} {adv : HashProg Forgery} {hq : adv.AtMost q} {d : Fin (q + 1) → Digest}
    {j : Fin (q + 1)} (h : position pub A adv hq d = some j) :
    Wins pub A ((withCheck pub adv).play (digests d) []).1 ∧
    (((withCheck pub adv).play (digests d) []).2.map Prod.fst).idxOf (((withCheck pub adv).play (digests d) []).1.1.input pub) = j.val ∧
    ((withCheck pub adv).play (digests d) []).1.2 = d j ∧
    (((withCheck pub adv).play (digests d) []).2.map Prod.fst)[j.val]? = some (((withCheck pub adv).play (digests d) []).1.1.input pub) := by
  unfold position at h
  split at h
  · rename_i hw
    have e := Option.some.inj h
    subst e
    refine ⟨hw, rfl, ?_, ?_⟩
    · obtain ⟨h1, h2, h3⟩ := lookup_idxOf (withCheck_lookup pub adv (digests d))
      have := HashProg.play_answers (digests d) (withCheck pub adv) [] (fun i hi => absurd hi (Nat.not_lt_zero _)) _ h1
      rw [h2] at this
      rw [this]
      unfold digests
      rw [dif_pos (withCheck_pos hq _)]
    · obtain ⟨h1, h2, h3⟩ := lookup_idxOf (withCheck_lookup pub adv (digests d))
      rw [List.getElem?_map, List.getElem?_eq_getElem h1, Option.map_some, h3]
  · exact nomatch h

theorem extract_of_positions {pub : PublicKey} {A : Pt} {q : ℕ} {adv : HashProg Forgery} {hq : adv.AtMost q} {d d' : Fin (q + 1) → Digest}
    {j : Fin (q + 1)} (h : position pub A adv hq d = some j) (h' : position pub A adv hq (Forking.rewind j d d') = some j)
    (hc : (d j).val % L ≠ (d' j).val % L) : 8 • A = 8 • extract pub adv d d' • B := by
  obtain ⟨w, p1, c1, q1⟩ := position_some h
  obtain ⟨w', p2, c2, q2⟩ := position_some h'
  have hr : (Forking.rewind j d d') = fun i => if i.val < j.val then d i else d' i := by
    funext i
    unfold Forking.rewind Forking.splice
    simp only [Fin.lt_def]
  have hrj : Forking.rewind j d d' j = d' j := by
    rw [hr]; simp
  rw [hrj] at c2
  have hlock := HashProg.play_lockstep (h := digests d) (g := digests (Forking.rewind j d d')) (j := j.val) (fun i hi => by
    unfold digests
    have hj := j.isLt
    rw [dif_pos (by omega), dif_pos (by omega), hr]
    simp [hi]) (withCheck pub adv) [] (Nat.zero_le _)
  have hin : ((withCheck pub adv).play (digests d) []).1.1.input pub = ((withCheck pub adv).play (digests (Forking.rewind j d d')) []).1.1.input pub := by
    have := congrArg (fun l => l[j.val]?) hlock
    simp only [List.getElem?_take, Nat.lt_succ_self, if_true] at this
    rw [q1, q2] at this
    exact Option.some.inj this
  unfold extract
  dsimp only
  rw [p1, ← hr]
  obtain ⟨l1, l2, l3, l4, l5, l6⟩ := w
  obtain ⟨m1, m2, m3, m4, m5, m6⟩ := w'
  rw [c1] at l6 ⊢
  rw [c2] at m6 ⊢
  generalize ((withCheck pub adv).play (digests d) []).1.1 = F at *
  generalize ((withCheck pub adv).play (digests (Forking.rewind j d d')) []).1.1 = F' at *
  have hR : F.R = F'.R := by
    unfold Forgery.input at hin
    rw [List.append_assoc, List.append_assoc] at hin
    exact (List.append_inj hin (by rw [l1, m1])).1
  refine two_responses (Nat.mod_lt _ L_prime.pos) (Nat.mod_lt _ L_prime.pos) hc ?_
  exact encodePoint_inj (l6.symm.trans (hR.trans m6))

/-- The digests with a given challenge. -/
theorem digest_class (x : ℕ) [DecidablePred fun d : Digest => d.val % L = x] : (univ.filter fun d : Digest => d.val % L = x).card ≤ 2 ^ 512 / L + 1 := by
  have h1 : (univ.filter fun d : Digest => d.val % L = x).card ≤ ((range (2 ^ 512)).filter fun n => n ≡ x [MOD L]).card := by
    refine card_le_card_of_injOn Digest.val ?_ ?_
    · intro d hd
      have hd : d ∈ univ.filter fun d : Digest => d.val % L = x := hd
      rw [mem_filter] at hd
      rw [mem_coe, mem_filter, mem_range]
      refine ⟨d.val_lt, ?_⟩
      show d.val % L = x % L
      rw [← hd.2, Nat.mod_mod]
    · intro d _ d' _ e
      exact Fin.ext e
  refine h1.trans ?_
  rw [← Nat.count_eq_card_filter_range, Nat.count_modEq_card _ L_pos]
  split <;> omega

theorem card_Digest : Fintype.card Digest = 2 ^ 512 := Fintype.card_fin _

theorem digest_classes : ∃ K : ℕ, K * 2 ^ 251 ≤ Fintype.card Digest ∧
    ∀ (x : ℕ) (_ : DecidablePred fun d : Digest => d.val % L = x), (univ.filter fun d : Digest => d.val % L = x).card ≤ K :=
  ⟨2 ^ 512 / L + 1, by rw [card_Digest, L_eq]; decide +kernel, fun x _ => digest_class x⟩

theorem forking_arith {acc good N q W K M : ℕ} (hM : 0 < W) (hK : K * M * 2 ^ 251 ≤ W)
    (h : acc ^ 2 ≤ (N * (q + 1)) * (good + acc * (K * M))) :
    (acc : ℝ) / (N * W : ℕ) * ((acc : ℝ) / (N * W : ℕ) / (q + 1) - 1 / 2 ^ 251) ≤ (good : ℝ) / (N * (W * W) : ℕ) := by
  rcases Nat.eq_zero_or_pos N with h0 | h0
  · simp [h0]
  have h' : (acc : ℝ) ^ 2 ≤ (N * (q + 1)) * (good + acc * (K * M)) := by exact_mod_cast h
  have hK' : (K * M : ℝ) * 2 ^ 251 ≤ W := by exact_mod_cast hK
  have hW : (0 : ℝ) < W := by positivity
  have hN : (0 : ℝ) < N := by positivity
  have hq : (0 : ℝ) < q + 1 := by positivity
  have hz : (0 : ℝ) < 2 ^ 251 := by positivity
  generalize (K * M : ℝ) = k at *
  generalize (2 : ℝ) ^ 251 = z at *
  push_cast
  rw [le_div_iff₀ (by positivity)]
  have h1 : (acc : ℝ) ^ 2 / (N * (q + 1)) ≤ good + acc * k := by
    rw [div_le_iff₀ (by positivity)]; linarith
  have h2 : k ≤ W / z := by rw [le_div_iff₀ hz]; exact hK'
  have h3 : (acc : ℝ) * k ≤ acc * (W / z) := mul_le_mul_of_nonneg_left h2 (by positivity)
  have e : (acc : ℝ) / (N * W) * ((acc : ℝ) / (N * W) / (q + 1) - 1 / z) * (N * (W * W)) = (acc : ℝ) ^ 2 / (N * (q + 1)) - acc * (W / z) := by
    field_simp
  rw [e]
  linarith

open Classical in
theorem card_filter_prod {α β : Type} [Fintype α] [Fintype β] (p : α → β → Prop) :
    (univ.filter fun x : α × β => p x.1 x.2).card = ∑ a, ∑ b, if p a b then 1 else 0 := by
  rw [card_filter, Fintype.sum_prod_type]

theorem prob_lazy {α Ω : Type} [Fintype Ω] (X : Finset Bytes) (n : ℕ) (p : Ω → HashProg α) (hn : ∀ ω, (p ω).AtMost n) (hX : ∀ ω, (p ω).AsksIn X)
    (Q : Ω → α → Prop) :
    prob (fun x : Ω × (X → Digest) => Q x.1 ((p x.1).run (onAll x.2))) =
      prob (fun x : Ω × (Fin n → Digest) => Q x.1 ((p x.1).play (digests x.2) []).1) := by
  classical
  unfold prob
  have e1 := card_filter_prod (fun (ω : Ω) (f : X → Digest) => Q ω ((p ω).run (onAll f)))
  have e2 := card_filter_prod (fun (ω : Ω) (h : Fin n → Digest) => Q ω ((p ω).play (digests h) []).1)
  have key : Fintype.card (Fin n → Digest) * (univ.filter fun x : Ω × (X → Digest) => Q x.1 ((p x.1).run (onAll x.2))).card =
      Fintype.card (X → Digest) * (univ.filter fun x : Ω × (Fin n → Digest) => Q x.1 ((p x.1).play (digests x.2) []).1).card := by
    rw [e1, e2, mul_sum, mul_sum]
    refine sum_congr rfl fun ω _ => ?_
    exact lazy_sum X n (fun a => if Q ω a then 1 else 0) (p ω) n [] (hn ω) (hX ω) (by simp)
  have h1 : 0 < Fintype.card (Fin n → Digest) := Fintype.card_pos
  have h2 : 0 < Fintype.card (X → Digest) := Fintype.card_pos
  rw [Fintype.card_prod, Fintype.card_prod]
  generalize Fintype.card (Fin n → Digest) = a at *
  generalize Fintype.card (X → Digest) = b at *
  generalize Fintype.card Ω = c at *
  have h1' : (a : ℝ) ≠ 0 := by positivity
  have h2' : (b : ℝ) ≠ 0 := by positivity
  rcases Nat.eq_zero_or_pos c with h0 | h0
  · simp [h0]
  · have h0' : (c : ℝ) ≠ 0 := by positivity
    have key' := congrArg (Nat.cast (R := ℝ)) key
    push_cast at key' ⊢
    rw [div_eq_div_iff (by positivity) (by positivity)]
    linear_combination (c : ℝ) * key'

theorem prob_nonneg {α : Type} [Fintype α] (p : α → Prop) : 0 ≤ prob p := by unfold prob; positivity

theorem prob_pos {α : Type} [Fintype α] {p : α → Prop} (x : α) (h : p x) : 0 < prob p := by
  classical
  unfold prob
  have h1 : 0 < Fintype.card α := Fintype.card_pos_iff.2 ⟨x⟩
  have h2 : 0 < (univ.filter p).card := card_pos.2 ⟨x, mem_filter.2 ⟨mem_univ _, h⟩⟩
  exact div_pos (by exact_mod_cast h2) (by exact_mod_cast h1)

theorem prob_mono {α : Type} [Fintype α] {p q : α → Prop} (h : ∀ x, p x → q x) : prob p ≤ prob q := by
  classical
  unfold prob
  refine div_le_div_of_nonneg_right ?_ (by positivity)
  exact_mod_cast card_le_card fun x hx => by
    rw [mem_filter] at hx ⊢
    exact ⟨hx.1, h x hx.2⟩

theorem prob_congr {α : Type} [Fintype α] {p q : α → Prop} (h : ∀ x, p x ↔ q x) : prob p = prob q :=
  le_antisymm (prob_mono fun x => (h x).1) (prob_mono fun x => (h x).2)

/-- C97: let the hash be a random function.  If an attacker who only has the public key asks at most q questions and forges a signature with
probability ε, then running it twice, without any private key and with random answers, gives the discrete logarithm of the public point (up to a
point of order dividing 8) with probability at least ε (ε / (q + 1) - 2^-251). -/
theorem C97_forking (E : Env) (pub : PublicKey) (A : Pt) (hA : Decodes (pub.raw.take 32) A)
    {Ω : Type} [Fintype Ω] (adv : Ω → HashProg Forgery) (q : ℕ) (hq : ∀ ω, (adv ω).AtMost q)
    (X : Finset Bytes) (hX : ∀ ω, (withCheck pub (adv ω)).AsksIn X) (ε : ℝ)
    (hε : ε = prob fun x : Ω × (X → Digest) => Forges E pub (adv x.1) (onAll x.2)) :
    ε * (ε / (q + 1) - 1 / 2 ^ 251) ≤
      prob fun x : Ω × (Fin (q + 1) → Digest) × (Fin (q + 1) → Digest) => 8 • extract pub (adv x.1) x.2.1 x.2.2 • B = 8 • A := by
  classical
  have hq1 : ∀ ω, (withCheck pub (adv ω)).AtMost (q + 1) := fun ω => HashProg.bind_atMost (fun F => by intro d; trivial) (hq ω)
  have e1 : ε = prob fun x : Ω × (Fin (q + 1) → Digest) => (position pub A (adv x.1) (hq x.1) x.2).isSome := by
    have e0 : (prob fun x : Ω × (X → Digest) => Forges E pub (adv x.1) (onAll x.2)) =
        prob fun x : Ω × (X → Digest) => Wins pub A ((withCheck pub (adv x.1)).run (onAll x.2)) :=
      prob_congr fun x => forges_iff E pub A hA (adv x.1) (onAll x.2)
    rw [hε, e0, prob_lazy X (q + 1) (fun ω => withCheck pub (adv ω)) hq1 hX (fun _ r => Wins pub A r)]
    refine prob_congr fun x => ?_
    unfold position
    split
    · rename_i h; simp [h]
    · rename_i h; simp [h]
  obtain ⟨K, hK, hKc⟩ := digest_classes
  have hf := Forking.forking_count (fun ω d => position pub A (adv ω) (hq ω) d) (fun d : Digest => d.val % L) K (fun x => hKc x _)
  have hgood : prob (fun x : Ω × (Fin (q + 1) → Digest) × (Fin (q + 1) → Digest) =>
      ∃ j, position pub A (adv x.1) (hq x.1) x.2.1 = some j ∧ position pub A (adv x.1) (hq x.1) (Forking.rewind j x.2.1 x.2.2) = some j ∧
        (x.2.1 j).val % L ≠ (x.2.2 j).val % L) ≤
      prob fun x : Ω × (Fin (q + 1) → Digest) × (Fin (q + 1) → Digest) => 8 • extract pub (adv x.1) x.2.1 x.2.2 • B = 8 • A := by
    refine prob_mono fun x => ?_
    rintro ⟨j, h1, h2, h3⟩
    exact (extract_of_positions h1 h2 h3).symm
  refine le_trans ?_ hgood
  rw [e1]
  unfold prob
  rw [Fintype.card_prod, Fintype.card_prod, Fintype.card_prod]
  rw [Nat.add_sub_cancel] at hf
  refine forking_arith (K := K) (M := Fintype.card Digest ^ q) Fintype.card_pos ?_ (by convert hf)
  rw [Fintype.card_fun, Fintype.card_fin, pow_succ (Fintype.card Digest)]
  generalize Fintype.card Digest = D at *
  generalize 2 ^ 251 = z at *
  calc K * D ^ q * z = D ^ q * (K * z) := by ring
    _ ≤ D ^ q * D := Nat.mul_le_mul_left _ hK

theorem extract_lt (pub : PublicKey) (adv : HashProg Forgery) {n : ℕ} (d d' : Fin n → Digest) : extract pub adv d d' < L := by
  have : NeZero L := ⟨L_prime.ne_zero⟩
  exact ZMod.val_lt _

/-- C97: for the public key a•B it is the scalar a (modulo the group order) that comes out. -/
theorem C97_key (E : Env) (pub : PublicKey) (a : ℕ) (hpub : pub.raw = encodePoint (a • B))
    {Ω : Type} [Fintype Ω] (adv : Ω → HashProg Forgery) (q : ℕ) (hq : ∀ ω, (adv ω).AtMost q)
    (X : Finset Bytes) (hX : ∀ ω, (withCheck pub (adv ω)).AsksIn X) (ε : ℝ)
    (hε : ε = prob fun x : Ω × (X → Digest) => Forges E pub (adv x.1) (onAll x.2)) :
    ε * (ε / (q + 1) - 1 / 2 ^ 251) ≤
      prob fun x : Ω × (Fin (q + 1) → Digest) × (Fin (q + 1) → Digest) => extract pub (adv x.1) x.2.1 x.2.2 = a % L := by
  have hA : Decodes (pub.raw.take 32) (a • B) := by
    rw [hpub, List.take_of_length_le (by rw [encodePoint_length])]
    exact decodes_encodePoint _
  refine (C97_forking E pub (a • B) hA adv q hq X hX ε hε).trans (prob_mono fun x hx => ?_)
  have hL : L • a • B = 0 := by rw [smul_comm, L_smul_B, smul_zero]
  have e := eight_cancel hL hx.symm
  rw [smul_B_eq_iff, Nat.mod_eq_of_lt (extract_lt _ _ _ _)] at e
  exact e.symm

/-- C97, read the other way: if finding the key by running the attacker twice has a probability of at most δ, then the attacker forges with a
probability of at most sqrt((q + 1) δ) + (q + 1) / 2^251. -/
theorem C97_bound (E : Env) (pub : PublicKey) (a : ℕ) (hpub : pub.raw = encodePoint (a • B))
    {Ω : Type} [Fintype Ω] (adv : Ω → HashProg Forgery) (q : ℕ) (hq : ∀ ω, (adv ω).AtMost q)
    (X : Finset Bytes) (hX : ∀ ω, (withCheck pub (adv ω)).AsksIn X) (δ : ℝ)
    (hδ : (prob fun x : Ω × (Fin (q + 1) → Digest) × (Fin (q + 1) → Digest) => extract pub (adv x.1) x.2.1 x.2.2 = a % L) ≤ δ) :
    (prob fun x : Ω × (X → Digest) => Forges E pub (adv x.1) (onAll x.2)) ≤ Real.sqrt ((q + 1) * δ) + (q + 1) / 2 ^ 251 := by
  have key := (C97_key E pub a hpub adv q hq X hX _ rfl).trans hδ
  have h0 : 0 ≤ δ := (prob_nonneg _).trans hδ
  have hε := prob_nonneg fun x : Ω × (X → Digest) => Forges E pub (adv x.1) (onAll x.2)
  generalize (prob fun x : Ω × (X → Digest) => Forges E pub (adv x.1) (onAll x.2)) = ε at *
  have hn : (0 : ℝ) < q + 1 := by positivity
  have hs := Real.sq_sqrt (mul_nonneg hn.le h0)
  have hs0 := Real.sqrt_nonneg ((q + 1) * δ)
  have hz : (0 : ℝ) < 1 / 2 ^ 251 := by positivity
  rw [show ((q : ℝ) + 1) / 2 ^ 251 = (q + 1) * (1 / 2 ^ 251) by ring]
  generalize (1 : ℝ) / 2 ^ 251 = z at *
  generalize Real.sqrt ((q + 1) * δ) = t at *
  generalize ((q : ℝ) + 1) = n at *
  by_contra hlt
  push Not at hlt
  have h1 : ε * (ε - n * z) ≤ t ^ 2 := by
    rw [hs]
    have : ε * (ε - n * z) = n * (ε * (ε / n - z)) := by field_simp
    rw [this]
    exact mul_le_mul_of_nonneg_left key hn.le
  have h2 : t < ε - n * z := by linarith
  have h3 : t < ε := by nlinarith
  nlinarith

/-- A finite set with all questions exists for every attacker. -/
theorem HashProg.exists_domain {α : Type} (p : HashProg α) : ∃ X : Finset Bytes, p.AsksIn X := by
  classical
  have mono : ∀ (p : HashProg α) {X Y : Finset Bytes}, X ⊆ Y → p.AsksIn X → p.AsksIn Y := by
    intro p
    induction p with
    | done a => intro X Y _ _; trivial
    | ask x k ih => intro X Y h hp; exact ⟨h hp.1, fun d => ih d h (hp.2 d)⟩
  induction p with
  | done a => exact ⟨∅, trivial⟩
  | ask x k ih =>
    choose X hX using ih
    refine ⟨insert x (univ.biUnion X), mem_insert_self _ _, fun d => mono _ ?_ (hX d)⟩
    exact (subset_biUnion_of_mem X (mem_univ d)).trans (subset_insert _ _)

theorem exists_domain_all {Ω α : Type} [Fintype Ω] (p : Ω → HashProg α) : ∃ X : Finset Bytes, ∀ ω, (p ω).AsksIn X := by
  classical
  have mono : ∀ (p : HashProg α) {X Y : Finset Bytes}, X ⊆ Y → p.AsksIn X → p.AsksIn Y := by
    intro p
    induction p with
    | done a => intro X Y _ _; trivial
    | ask x k ih => intro X Y h hp; exact ⟨h hp.1, fun d => ih d h (hp.2 d)⟩
  choose X hX using fun ω => (p ω).exists_domain
  exact ⟨univ.biUnion X, fun ω => mono _ (subset_biUnion_of_mem X (mem_univ ω)) (hX ω)⟩

/-! ## Cases -/

/-- An attacker who knows the key and signs the message [1, 2, 3] with a random nonce. -/
def signer (a : ℕ) (r : Fin 1000) : HashProg Forgery :=
  .ask (encodePoint ((r.val + 1) • B) ++ encodePoint (a • B) ++ [1, 2, 3]) fun d =>
    .done ⟨[1, 2, 3], encodePoint ((r.val + 1) • B), leBytes 32 ((r.val + 1 + d.val % L * a) % L)⟩

/-- The hypotheses of C97, for an attacker that asks one question, forges with positive probability, and whose set of questions is finite. -/
example (E : Env) (a : ℕ) (ha : a % L ≠ 0) : (∀ r, (signer a r).AtMost 1) ∧ ∃ X : Finset Bytes, (∀ r, (withCheck ⟨encodePoint (a • B)⟩ (signer a r)).AsksIn X) ∧
    0 < prob fun x : Fin 1000 × (X → Digest) => Forges E ⟨encodePoint (a • B)⟩ (signer a x.1) (onAll x.2) := by
  classical
  refine ⟨fun r d => trivial, ?_⟩
  obtain ⟨X, hX⟩ := exists_domain_all fun r => withCheck ⟨encodePoint (a • B)⟩ (signer a r)
  refine ⟨X, hX, ?_⟩
  refine prob_pos ((0 : Fin 1000), fun _ => Digest.zero) ?_
  have hd : ∀ x, onAll (X := X) (fun _ => Digest.zero) x = Digest.zero := by
    intro x; unfold onAll; split <;> rfl
  have hA : Decodes ((⟨encodePoint (a • B)⟩ : PublicKey).raw.take 32) (a • B) := by
    dsimp only
    rw [List.take_of_length_le (by rw [encodePoint_length])]
    exact decodes_encodePoint _
  rw [forges_iff E _ _ hA]
  have hv : (Digest.zero).val = 0 := rfl
  have hrun : (withCheck ⟨encodePoint (a • B)⟩ (signer a 0)).run (onAll (X := X) fun _ => Digest.zero) =
      (⟨[1, 2, 3], encodePoint (1 • B), leBytes 32 1⟩, Digest.zero) := by
    unfold withCheck signer HashProg.bind HashProg.run
    rw [hd]
    unfold HashProg.bind HashProg.run HashProg.run
    rw [hd, hv]
    have : (((0 : Fin 1000).val + 1 + 0 % L * a) % L) = 1 := by
      rw [Nat.zero_mod, Nat.zero_mul]; exact Nat.mod_eq_of_lt L_prime.one_lt
    rw [this]
    rfl
  rw [hrun]
  have h1 : leVal (leBytes 32 1) = 1 := leVal_leBytes_of_lt (by norm_num)
  refine ⟨encodePoint_length _, leBytes_length _ _, ?_, ?_, Or.inl (encodePoint_length _), ?_⟩
  · dsimp only; rw [h1]; exact low_one
  · dsimp only
    intro h
    have hne : a • B ≠ 0 := by
      intro h0
      have := addOrderOf_dvd_of_nsmul_eq_zero h0
      rw [addOrderOf_B] at this
      exact ha (Nat.mod_eq_zero_of_dvd this)
    have hy := y_ne_zero_of_order (L_smul_smul_B a) hne
    have hv := encodePoint_val (a • B)
    rw [h, leVal_replicate_zero] at hv
    apply hy
    have : (a • B).y.val = 0 := by omega
    exact (ZMod.val_eq_zero _).mp this
  · dsimp only
    rw [h1, nafVal_small (by norm_num), hv, Nat.zero_mod, zero_smul, sub_zero]
    rfl

theorem encode_B_ne_zeros : encodePoint B ≠ List.replicate 32 0 := by
  intro h
  have hne : B ≠ 0 := by
    intro h0
    have := addOrderOf_B
    rw [h0, addOrderOf_zero] at this
    have := L_prime.one_lt
    omega
  have hy := y_ne_zero_of_order L_smul_B hne
  have hv := encodePoint_val B
  rw [h, leVal_replicate_zero] at hv
  apply hy
  have : B.y.val = 0 := by omega
  exact (ZMod.val_eq_zero _).mp this

/-- The digest 1. -/
def digestOne : Digest := ⟨1, by norm_num⟩

theorem low_two : LowBitsOk 2 := by unfold LowBitsOk; rw [L_eq]; decide +kernel

/-- The hypotheses of C96 (soundness): the commitment B under the public key B, with the challenges 0 and 1 and the responses 1 and 2. -/
example (E : Env) : ∃ (E' E'' : Env) (pub : PublicKey) (R S S' : Bytes), Decodes (pub.raw.take 32) B ∧ L • B = 0 ∧ S.length = 32 ∧ S'.length = 32 ∧
    verify E' pub [] ⟨R, S⟩ = .ok true ∧ verify E'' pub [] ⟨R, S'⟩ = .ok true ∧ challenge E' R pub.raw [] ≠ challenge E'' R pub.raw [] := by
  have hA : Decodes ((⟨encodePoint B⟩ : PublicKey).raw.take 32) B := by
    dsimp only
    rw [List.take_of_length_le (by rw [encodePoint_length])]
    exact decodes_encodePoint _
  have h1 : leVal (leBytes 32 1) = 1 := leVal_leBytes_of_lt (by norm_num)
  have h2 : leVal (leBytes 32 2) = 2 := leVal_leBytes_of_lt (by norm_num)
  refine ⟨E.withHash fun _ => .zero, E.withHash fun _ => digestOne, ⟨encodePoint B⟩, encodePoint B, leBytes 32 1, leBytes 32 2, hA, L_smul_B,
    leBytes_length _ _, leBytes_length _ _, ?_, ?_, ?_⟩
  · rw [C20_accepts_iff_any _ _ (leBytes_length _ _)]
    refine ⟨by rw [h1]; exact low_one, encode_B_ne_zeros, Or.inl (encodePoint_length _), B, hA, ?_⟩
    rw [challenge_withHash, h1, nafVal_small (by norm_num), show Digest.zero.val = 0 from rfl, Nat.zero_mod, zero_smul, sub_zero]
    simp
  · rw [C20_accepts_iff_any _ _ (leBytes_length _ _)]
    refine ⟨by rw [h2]; exact low_two, encode_B_ne_zeros, Or.inl (encodePoint_length _), B, hA, ?_⟩
    rw [challenge_withHash, h2, nafVal_small (by norm_num), show digestOne.val = 1 from rfl,
      Nat.mod_eq_of_lt L_prime.one_lt]
    congr 1
    rw [natCast_zsmul, two_nsmul, one_smul, add_sub_cancel_right]
  · rw [challenge_withHash, challenge_withHash, show Digest.zero.val = 0 from rfl, show digestOne.val = 1 from rfl,
      Nat.zero_mod, Nat.mod_eq_of_lt L_prime.one_lt]
    exact Nat.zero_ne_one

/-- The hypotheses of C96 (simulation). -/
example : ∃ (pub : PublicKey) (S : Bytes), Decodes (pub.raw.take 32) B ∧ pub.raw ≠ List.replicate 32 0 ∧
    (pub.raw.length = 32 ∨ pub.raw.length = 64) ∧ S.length = 32 ∧ LowBitsOk (leVal S) := by
  refine ⟨⟨encodePoint B⟩, leBytes 32 2, ?_, encode_B_ne_zeros, Or.inl (encodePoint_length _), leBytes_length _ _, ?_⟩
  · dsimp only
    rw [List.take_of_length_le (by rw [encodePoint_length])]
    exact decodes_encodePoint _
  · rw [leVal_leBytes_of_lt (by norm_num)]; exact low_two

end Ed

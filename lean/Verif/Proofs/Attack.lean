import Verif.Spec.Attack
import Verif.Proofs.Avg
import Verif.Props.Forgery
import Verif.Props.Distribution

/-! # Simulating signatures -/

set_option autoImplicit false

namespace Ed

open Finset

/-- The nonce of a simulated signature. -/
def Made.nonce (a : ℕ) (e : Made) : ℕ := (e.S + (L - e.d.val % L * a % L)) % L

/-- A simulated signature with the nonce `r`. -/
noncomputable def madeOf (a : ℕ) (m : Bytes) (r : ℕ) (d : Digest) : Made := ⟨m, encodePoint (r • B), (r + d.val % L * a) % L, d⟩

theorem madeOf_nonce {a r : ℕ} {m : Bytes} {d : Digest} (hr : r < L) : (madeOf a m r d).nonce a = r := by
  unfold Made.nonce madeOf
  dsimp only
  have hL := L_pos
  generalize d.val % L * a = t
  have ht : t % L < L := Nat.mod_lt _ hL
  have h1 : ((r + t) % L + (L - t % L)) % L = (r + L) % L := by
    have e : (r + t) % L ≡ r + t % L [MOD L] := (Nat.mod_modEq _ _).trans (Nat.ModEq.add_left _ (Nat.mod_modEq _ _).symm)
    have := e.add_right (L - t % L)
    have h2 : r + t % L + (L - t % L) = r + L := by omega
    rw [h2] at this
    exact this
  rw [h1, Nat.add_mod_right, Nat.mod_eq_of_lt hr]

/-- The simulator computes the commitment without the nonce. -/
theorem sim_R (a r c : ℕ) : ((r + c * a) % L) • B - c • a • B = r • B := by
  rw [smul_B_mod, add_smul, mul_smul, add_sub_cancel_right]

/-- Signing with the nonces `ν` and the hash function `h`. -/
noncomputable def idealSign (a : ℕ) (pk : Bytes) (h : Bytes → Digest) (ν : Bytes → ℕ) (m : Bytes) : Out Signature :=
  signReply (encodePoint (ν m • B)) ((ν m + (h (encodePoint (ν m • B) ++ pk ++ m)).val % L * a) % L)

/-- Success against ideal signatures. -/
def WinsIdeal (a : ℕ) (pk : Bytes) (h : Bytes → Digest) (ν : Bytes → ℕ) (ms : List (Bytes × Out Signature)) (p : SignProg) : Prop :=
  (p.run h (idealSign a pk h ν) ms).1.Fresh (p.run h (idealSign a pk h ν) ms).2 ∧
    Wins ⟨pk⟩ (a • B) ((p.run h (idealSign a pk h ν) ms).1, h ((p.run h (idealSign a pk h ν) ms).1.input ⟨pk⟩))

/-- Success against the simulator. -/
def WinsSim (a : ℕ) (pk : Bytes) (coins : ℕ → ℕ × Digest) (f : Bytes → Digest) (asked : List Bytes) (made : List Made) (p : SignProg) : Prop :=
  Wins ⟨pk⟩ (a • B) ((simulate pk (a • B) coins asked made p).run f, f (((simulate pk (a • B) coins asked made p).run f).input ⟨pk⟩))

/-- The message and the answer. -/
def Made.reply (e : Made) : Bytes × Out Signature := (e.m, signReply e.R e.S)

theorem reply_fresh {e : Made} {R : Bytes} (h : ∃ sig, e.reply.2 = .ok sig ∧ sig.R ≠ R) : LowBitsOk e.S ∧ e.R ≠ R := by
  obtain ⟨sig, h1, h2⟩ := h
  change signReply e.R e.S = .ok sig at h1
  unfold signReply at h1
  split at h1
  · rename_i hl
    have := Out.ok.inj h1
    subst this
    exact ⟨hl, h2⟩
  · exact nomatch h1

/-- The hash function with the programmed values. -/
def progHash (pk : Bytes) (made : List Made) (f : Bytes → Digest) (x : Bytes) : Digest :=
  match made.find? fun e => e.R ++ pk ++ e.m == x with
  | some e => e.d
  | none => f x

/-- The nonces with those of the simulated signatures. -/
def progNonce (a : ℕ) (made : List Made) (g : Bytes → Digest) (m : Bytes) : ℕ :=
  match made.find? fun e => e.m == m with
  | some e => e.nonce a
  | none => (g m).val % L

/-- What holds of the simulated signatures. -/
structure SimInv (a : ℕ) (pk : Bytes) (asked : List Bytes) (made : List Made) : Prop where
  eqR : ∀ e ∈ made, e.R = encodePoint (e.nonce a • B)
  eqS : ∀ e ∈ made, e.S = (e.nonce a + e.d.val % L * a) % L
  new : ∀ e ∈ made, e.R ++ pk ++ e.m ∉ asked
  uniq : ∀ e ∈ made, ∀ e' ∈ made, e.m = e'.m → e = e'

theorem wins_length {pub : PublicKey} {A : Pt} {r : Forgery × Digest} (h : Wins pub A r) : r.1.R.length = 32 := h.1

theorem not_wins_dummy {pub : PublicKey} {A : Pt} {d : Digest} : ¬ Wins pub A (⟨[], [], []⟩, d) := by
  intro h
  have := h.1
  simp at this

theorem input_inj {R R' pk m m' : Bytes} (hR : R.length = R'.length) (h : R ++ pk ++ m = R' ++ pk ++ m') : R = R' ∧ m = m' := by
  rw [List.append_assoc, List.append_assoc] at h
  obtain ⟨h1, h2⟩ := List.append_inj h hR
  exact ⟨h1, List.append_cancel_left h2⟩

section Found

variable {a : ℕ} {pk : Bytes} {asked : List Bytes} {made : List Made} (inv : SimInv a pk asked made)

include inv

theorem SimInv.lengthR {e : Made} (he : e ∈ made) : e.R.length = 32 := by rw [inv.eqR e he]; exact encodePoint_length _

theorem SimInv.progHash_found {e : Made} (he : e ∈ made) (f : Bytes → Digest) : progHash pk made f (e.R ++ pk ++ e.m) = e.d := by
  unfold progHash
  cases hf : made.find? fun e' => e'.R ++ pk ++ e'.m == e.R ++ pk ++ e.m with
  | none =>
    have := List.find?_eq_none.1 hf e he
    simp at this
  | some e' =>
    have h1 := List.find?_some hf
    have h2 := List.mem_of_find?_eq_some hf
    have h3 := input_inj ((inv.lengthR h2).trans (inv.lengthR he).symm) (eq_of_beq h1)
    dsimp only
    rw [inv.uniq e' h2 e he h3.2]

theorem SimInv.idealSign_found {m : Bytes} {e : Made} (hf : (made.find? fun e => e.m == m) = some e) (f g : Bytes → Digest) :
    idealSign a pk (progHash pk made f) (progNonce a made g) m = signReply e.R e.S := by
  have hm : e.m = m := by simpa using List.find?_some hf
  have he := List.mem_of_find?_eq_some hf
  have hν : progNonce a made g m = e.nonce a := by unfold progNonce; rw [hf]
  unfold idealSign
  rw [hν, ← inv.eqR e he, ← hm, inv.progHash_found he f, ← inv.eqS e he]

/-- A hash input with a new message, or a new commitment for a message, is not programmed. -/
theorem SimInv.progHash_new {R m : Bytes} (hR : R.length = 32) (hm : ∀ e ∈ made, e.m = m → e.R ≠ R) (f : Bytes → Digest) :
    progHash pk made f (R ++ pk ++ m) = f (R ++ pk ++ m) := by
  unfold progHash
  cases hf : made.find? fun e => e.R ++ pk ++ e.m == R ++ pk ++ m with
  | none => rfl
  | some e =>
    have he := List.mem_of_find?_eq_some hf
    have h1 := List.find?_some hf
    have h3 := input_inj ((inv.lengthR he).trans hR.symm) (eq_of_beq h1)
    exact absurd h3.1 (hm e he h3.2)

theorem SimInv.add {m : Bytes} {r : ℕ} {d : Digest} (hr : r < L) (hm : m ∉ made.map Made.m) (hq : encodePoint (r • B) ++ pk ++ m ∉ asked) :
    SimInv a pk asked (made ++ [madeOf a m r d]) := by
  have hmem : ∀ e, e ∈ made ++ [madeOf a m r d] → e ∈ made ∨ e = madeOf a m r d := by
    intro e he
    rcases List.mem_append.1 he with h | h
    · exact Or.inl h
    · exact Or.inr (List.mem_singleton.1 h)
  refine ⟨?_, ?_, ?_, ?_⟩
  · intro e he
    rcases hmem e he with h | rfl
    · exact inv.eqR e h
    · rw [madeOf_nonce hr]; rfl
  · intro e he
    rcases hmem e he with h | rfl
    · exact inv.eqS e h
    · rw [madeOf_nonce hr]; rfl
  · intro e he
    rcases hmem e he with h | rfl
    · exact inv.new e h
    · exact hq
  · intro e he e' he' h
    rcases hmem e he with h1 | rfl
    · rcases hmem e' he' with h2 | rfl
      · exact inv.uniq e h1 e' h2 h
      · exact absurd (List.mem_map.2 ⟨e, h1, h⟩) hm
    · rcases hmem e' he' with h2 | rfl
      · exact absurd (List.mem_map.2 ⟨e', h2, h.symm⟩) hm
      · rfl

theorem SimInv.ask {x : Bytes} (hx : (made.find? fun e => e.R ++ pk ++ e.m == x) = none) {asked' : List Bytes}
    (h : ∀ y ∈ asked', y ∈ asked ∨ y = x) : SimInv a pk asked' made := by
  refine ⟨inv.eqR, inv.eqS, ?_, inv.uniq⟩
  intro e he hmem
  rcases h _ hmem with h1 | h1
  · exact inv.new e he h1
  · have := List.find?_eq_none.1 hx e he
    simp [h1] at this

end Found

/-- Later coins do not matter for what was made before. -/
theorem simulate_congr {pk : Bytes} {A : Pt} {c c' : ℕ → ℕ × Digest} : ∀ (p : SignProg) (asked : List Bytes) (made : List Made),
    (∀ i, made.length ≤ i → c i = c' i) → simulate pk A c asked made p = simulate pk A c' asked made p := by
  intro p
  induction p with
  | done F => intro asked made _; unfold simulate; rfl
  | ask x k ih =>
    intro asked made h
    unfold simulate
    cases made.find? fun e => e.R ++ pk ++ e.m == x with
    | some e => exact ih _ _ _ h
    | none =>
      dsimp only
      congr 1
      funext d
      exact ih _ _ _ h
  | sign m k ih =>
    intro asked made h
    unfold simulate
    cases made.find? fun e => e.m == m with
    | some e => exact ih _ _ _ h
    | none =>
      dsimp only
      rw [h _ le_rfl]
      split
      · rfl
      · refine ih _ _ _ fun i hi => h i ?_
        rw [List.length_append, List.length_singleton] at hi
        omega

/-- Only which questions were asked matters. -/
theorem simulate_asked {pk : Bytes} {A : Pt} {c : ℕ → ℕ × Digest} : ∀ (p : SignProg) (asked asked' : List Bytes) (made : List Made),
    (∀ x, x ∈ asked ↔ x ∈ asked') → simulate pk A c asked made p = simulate pk A c asked' made p := by
  intro p
  induction p with
  | done F => intro asked asked' made _; unfold simulate; rfl
  | ask x k ih =>
    intro asked asked' made h
    unfold simulate
    cases made.find? fun e => e.R ++ pk ++ e.m == x with
    | some e => exact ih _ _ _ _ h
    | none =>
      dsimp only
      congr 1
      funext d
      refine ih _ _ _ _ fun y => ?_
      rw [List.mem_append, List.mem_append, h y]
  | sign m k ih =>
    intro asked asked' made h
    unfold simulate
    cases made.find? fun e => e.m == m with
    | some e => exact ih _ _ _ _ h
    | none =>
      dsimp only
      by_cases hq : encodePoint ((c made.length).1 • B - ((c made.length).2.val % L) • A) ++ pk ++ m ∈ asked
      · rw [if_pos hq, if_pos ((h _).1 hq)]
      · rw [if_neg hq, if_neg (fun h' => hq ((h _).2 h'))]
        exact ih _ _ _ _ h

/-- A recorded answer instead of a random one. -/
theorem overlay_update {X : Finset Bytes} {T : List (Bytes × Digest)} {x : Bytes} (hx : x ∈ X) (hT : T.lookup x = none) (f : X → Digest) (d : Digest)
    [DecidableEq X] : overlay T (onAll (Function.update f ⟨x, hx⟩ d)) = overlay (T ++ [(x, d)]) (onAll f) := by
  funext y
  unfold overlay
  rw [List.lookup_append]
  cases hy : T.lookup y with
  | some e => rfl
  | none =>
    show onAll _ y = (List.lookup y [(x, d)]).getD (onAll f y)
    rw [List.lookup_cons]
    by_cases hxy : y = x
    · subst hxy
      unfold onAll
      rw [dif_pos hx, Function.update_self]
      simp
    · have hb : (y == x) = false := by simpa using hxy
      rw [hb]
      show _ = onAll f y
      unfold onAll
      by_cases hyX : y ∈ X
      · rw [dif_pos hyX, dif_pos hyX, Function.update_of_ne]
        intro h
        exact hxy (congrArg Subtype.val h)
      · rw [dif_neg hyX, dif_neg hyX]

theorem lookup_none_iff {T : List (Bytes × Digest)} {x : Bytes} : T.lookup x = none ↔ x ∉ T.map Prod.fst := by
  induction T with
  | nil => simp
  | cons y T ih =>
    obtain ⟨y, d⟩ := y
    rw [List.lookup_cons]
    by_cases h : x = y
    · subst h; simp
    · have hb : (x == y) = false := by simpa using h
      rw [hb, List.map_cons, List.mem_cons, not_or]
      exact ⟨fun h' => ⟨h, ih.1 h'⟩, fun h' => ih.2 h'.2⟩

/-- A digest modulo L is a number below L, and none is much more likely than the others. -/
theorem avg_nonce (Θ : ℕ → ℝ) (h : ∀ r, 0 ≤ Θ r) : (avg fun e : Digest => Θ (e.val % L)) ≤ (1 + 1 / 2 ^ 259) * avg fun r : Fin L => Θ r.val := by
  classical
  unfold avg
  have hLpos := L_pos
  have h1 : ∑ e : Digest, Θ (e.val % L) = ∑ r : Fin L, ∑ e ∈ univ.filter (fun e : Digest => (⟨e.val % L, Nat.mod_lt _ hLpos⟩ : Fin L) = r), Θ (e.val % L) :=
    (sum_fiberwise univ (fun e : Digest => (⟨e.val % L, Nat.mod_lt _ hLpos⟩ : Fin L)) (fun e => Θ (e.val % L))).symm
  have h2 : ∑ e : Digest, Θ (e.val % L) ≤ ∑ r : Fin L, ((2 ^ 512 / L + 1 : ℕ) : ℝ) * Θ r.val := by
    rw [h1]
    refine sum_le_sum fun r _ => ?_
    have h3 : ∀ e ∈ univ.filter (fun e : Digest => (⟨e.val % L, Nat.mod_lt _ hLpos⟩ : Fin L) = r), Θ (e.val % L) = Θ r.val := by
      intro e he
      rw [mem_filter] at he
      rw [← he.2]
    rw [sum_congr rfl h3, sum_const, nsmul_eq_mul]
    refine mul_le_mul_of_nonneg_right ?_ (h _)
    have h4 : (univ.filter (fun e : Digest => (⟨e.val % L, Nat.mod_lt _ hLpos⟩ : Fin L) = r)) = univ.filter (fun e : Digest => e.val % L = r.val) := by
      ext e
      rw [mem_filter, mem_filter, Fin.ext_iff]
    rw [h4]
    exact_mod_cast digest_class r.val
  rw [← mul_sum] at h2
  have hK : (2 ^ 512 / L + 1) * L * 2 ^ 259 ≤ 2 ^ 512 * (2 ^ 259 + 1) := by rw [L_eq]; decide +kernel
  rw [card_Digest, Fintype.card_fin]
  have hs : 0 ≤ ∑ r : Fin L, Θ r.val := sum_nonneg fun r _ => h _
  generalize (∑ e : Digest, Θ (e.val % L)) = s at *
  generalize (∑ r : Fin L, Θ r.val) = t at *
  generalize 2 ^ 512 / L + 1 = K at *
  have hL' : (0 : ℝ) < (L : ℝ) := by exact_mod_cast hLpos
  have hK' : (K : ℝ) * L * 2 ^ 259 ≤ 2 ^ 512 * (2 ^ 259 + 1) := by exact_mod_cast hK
  push_cast
  have hz : (0 : ℝ) < 2 ^ 512 := by positivity
  have hy : (0 : ℝ) < 2 ^ 259 := by positivity
  generalize (2 : ℝ) ^ 512 = z at *
  generalize (2 : ℝ) ^ 259 = y at *
  rw [div_le_iff₀ hz]
  have h5 : (K : ℝ) ≤ (1 + 1 / y) * z / L := by
    rw [le_div_iff₀ hL']
    have : (1 + 1 / y) * z = z * (y + 1) / y := by field_simp
    rw [this, le_div_iff₀ hy]
    exact hK'
  calc s ≤ K * t := h2
    _ ≤ (1 + 1 / y) * z / L * t := mul_le_mul_of_nonneg_right h5 hs
    _ = (1 + 1 / y) * (t / L) * z := by ring

/-- At most one nonce leads to each of the questions. -/
theorem avg_bad (T : List (Bytes × Digest)) (pk m : Bytes) :
    (avg fun r : Fin L => ind (encodePoint (r.val • B) ++ pk ++ m ∈ T.map Prod.fst)) ≤ T.length / L := by
  rw [← prob_eq_avg fun r : Fin L => encodePoint (r.val • B) ++ pk ++ m ∈ T.map Prod.fst]
  refine (prob_le_card (T.map Prod.fst).toFinset (fun r : Fin L => encodePoint (r.val • B) ++ pk ++ m) ?_ ?_).trans ?_
  · intro r hr
    exact List.mem_toFinset.2 hr
  · intro r r' _ _ h
    have h3 := (input_inj (by rw [encodePoint_length, encodePoint_length]) h).1
    have h4 := encodePoint_inj h3
    rw [smul_B_eq_iff, Nat.mod_eq_of_lt r.isLt, Nat.mod_eq_of_lt r'.isLt] at h4
    exact Fin.ext h4
  · rw [Fintype.card_fin]
    refine div_le_div_of_nonneg_right ?_ (by positivity)
    have h2 := (T.map Prod.fst).toFinset_card_le
    rw [List.length_map] at h2
    exact_mod_cast h2

/-- The responses to one challenge correspond to the nonces. -/
theorem avg_shift (t : ℕ) (F : ℕ → ℝ) : (avg fun r : Fin L => F ((r.val + t) % L)) = avg fun S : Fin L => F S.val := by
  have hL := L_pos
  have hbij : Function.Bijective fun r : Fin L => (⟨(r.val + t) % L, Nat.mod_lt _ hL⟩ : Fin L) := by
    rw [← Finite.injective_iff_bijective]
    intro r r' h
    exact Fin.ext (nonce_unique r.isLt r'.isLt (congrArg Fin.val h))
  exact avg_equiv (Equiv.ofBijective _ hbij) (fun S : Fin L => F S.val)


/-! ## The simulation -/

section Simulation

variable {a N : ℕ} {pk : Bytes} (hpk : pk.length = 32) {X Y : Finset Bytes} (hX : ∀ x : Bytes, x.length ≤ N + 64 → x ∈ X)
  (hY : ∀ m : Bytes, m.length ≤ N → m ∈ Y)

/-- The probability of success against ideal signatures, with what is already fixed. -/
noncomputable def idealValue (a : ℕ) (pk : Bytes) (X Y : Finset Bytes) (T : List (Bytes × Digest)) (made : List Made) (ms : List (Bytes × Out Signature))
    (p : SignProg) : ℝ :=
  avg fun f : X → Digest => avg fun g : Y → Digest =>
    ind (WinsIdeal a pk (progHash pk made (overlay T (onAll f))) (progNonce a made (onAll g)) ms p)

/-- The probability of success against the simulator. -/
noncomputable def simValue (a : ℕ) (pk : Bytes) (X : Finset Bytes) (n : ℕ) (T : List (Bytes × Digest)) (made : List Made) (p : SignProg) : ℝ :=
  avg fun w : Coins n => avg fun f : X → Digest => ind (WinsSim a pk (coinsOf w) (overlay T (onAll f)) (T.map Prod.fst) made p)

theorem idealValue_nonneg (T : List (Bytes × Digest)) (made : List Made) (ms : List (Bytes × Out Signature)) (p : SignProg) : 0 ≤ idealValue a pk X Y T made ms p :=
  avg_nonneg fun _ => avg_nonneg fun _ => ind_nonneg _

theorem simValue_nonneg (n : ℕ) (T : List (Bytes × Digest)) (made : List Made) (p : SignProg) : 0 ≤ simValue a pk X n T made p :=
  avg_nonneg fun _ => avg_nonneg fun _ => ind_nonneg _

instance : Nonempty (Fin L) := ⟨⟨0, L_pos⟩⟩

theorem ideal_done {T : List (Bytes × Digest)} {made : List Made} {ms : List (Bytes × Out Signature)} {F : Forgery} (n : ℕ)
    (inv : SimInv a pk (T.map Prod.fst) made) (hms : ∀ x, x ∈ ms ↔ ∃ e ∈ made, x = e.reply) :
    idealValue a pk X Y T made ms (.done F) ≤ simValue a pk X n T made (.done F) := by
  unfold idealValue simValue
  have key : ∀ (w : Coins n) (f : X → Digest) (g : Y → Digest),
      WinsIdeal a pk (progHash pk made (overlay T (onAll f))) (progNonce a made (onAll g)) ms (.done F) →
      WinsSim a pk (coinsOf w) (overlay T (onAll f)) (T.map Prod.fst) made (.done F) := by
    rintro w f g ⟨h1, h2⟩
    change F.Fresh ms at h1
    have h1 : ∀ e ∈ made, e.m = F.m → LowBitsOk e.S ∧ e.R ≠ F.R := fun e he hm => reply_fresh (h1 _ ((hms _).2 ⟨e, he, rfl⟩) hm)
    change Wins _ _ (F, progHash pk made _ (F.R ++ pk ++ F.m)) at h2
    rw [inv.progHash_new h2.1 fun e he hm => (h1 e he hm).2] at h2
    unfold WinsSim
    unfold simulate
    rw [if_neg (not_or.2 ⟨fun ⟨e, he, hm, h⟩ => h.elim (fun h => h (h1 e he hm).1) (h1 e he hm).2, not_not.2 h2.1⟩)]
    exact h2
  have h1 : ∀ w : Coins n, (avg fun f : X → Digest => avg fun g : Y → Digest =>
      ind (WinsIdeal a pk (progHash pk made (overlay T (onAll f))) (progNonce a made (onAll g)) ms (.done F))) ≤
      avg fun f : X → Digest => ind (WinsSim a pk (coinsOf w) (overlay T (onAll f)) (T.map Prod.fst) made (.done F)) := by
    intro w
    refine avg_mono fun f => ?_
    refine (avg_mono fun g => ind_mono (key w f g)).trans ?_
    rw [avg_const]
  have h2 := avg_mono h1
  rwa [avg_const] at h2

theorem ideal_ask_none {T : List (Bytes × Digest)} {made : List Made} {ms : List (Bytes × Out Signature)} {x : Bytes} {k : Digest → SignProg} (hx : x ∈ X)
    (hp : (made.find? fun e => e.R ++ pk ++ e.m == x) = none) (hT : T.lookup x = none) :
    idealValue a pk X Y T made ms (.ask x k) = avg fun d => idealValue a pk X Y (T ++ [(x, d)]) made ms (k d) := by
  classical
  unfold idealValue
  have h1 : ∀ (f : X → Digest) (g : Y → Digest),
      WinsIdeal a pk (progHash pk made (overlay T (onAll f))) (progNonce a made (onAll g)) ms (.ask x k) =
      WinsIdeal a pk (progHash pk made (overlay T (onAll f))) (progNonce a made (onAll g)) ms (k (f ⟨x, hx⟩)) := by
    intro f g
    have e : progHash pk made (overlay T (onAll f)) x = f ⟨x, hx⟩ := by
      unfold progHash
      rw [hp]
      show overlay T (onAll f) x = _
      unfold overlay onAll
      rw [hT, dif_pos hx]; rfl
    have h0 : WinsIdeal a pk (progHash pk made (overlay T (onAll f))) (progNonce a made (onAll g)) ms (.ask x k) =
      WinsIdeal a pk (progHash pk made (overlay T (onAll f))) (progNonce a made (onAll g)) ms (k (progHash pk made (overlay T (onAll f)) x)) := rfl
    rw [h0, e]
  simp only [h1]
  rw [avg_entry (⟨x, hx⟩ : X) (fun d f => avg fun g : Y → Digest =>
    ind (WinsIdeal a pk (progHash pk made (overlay T (onAll f))) (progNonce a made (onAll g)) ms (k d)))]
  refine avg_congr fun d => avg_congr fun f => avg_congr fun g => ?_
  rw [overlay_update hx hT]

theorem sim_ask_none {T : List (Bytes × Digest)} {made : List Made} {x : Bytes} {k : Digest → SignProg} {n : ℕ} (hx : x ∈ X)
    (hp : (made.find? fun e => e.R ++ pk ++ e.m == x) = none) (hT : T.lookup x = none) :
    simValue a pk X n T made (.ask x k) = avg fun d => simValue a pk X n (T ++ [(x, d)]) made (k d) := by
  classical
  unfold simValue
  rw [avg_comm (α := Digest)]
  refine avg_congr fun w => ?_
  have h1 : ∀ f : X → Digest, WinsSim a pk (coinsOf w) (overlay T (onAll f)) (T.map Prod.fst) made (.ask x k) =
      WinsSim a pk (coinsOf w) (overlay T (onAll f)) (T.map Prod.fst ++ [x]) made (k (f ⟨x, hx⟩)) := by
    intro f
    have e : overlay T (onAll f) x = f ⟨x, hx⟩ := by
      unfold overlay onAll
      rw [hT, dif_pos hx]; rfl
    have hs : simulate pk (a • B) (coinsOf w) (T.map Prod.fst) made (.ask x k) =
        .ask x fun d => simulate pk (a • B) (coinsOf w) (T.map Prod.fst ++ [x]) made (k d) := by rw [simulate, hp]
    have h0 : WinsSim a pk (coinsOf w) (overlay T (onAll f)) (T.map Prod.fst) made (.ask x k) =
        WinsSim a pk (coinsOf w) (overlay T (onAll f)) (T.map Prod.fst ++ [x]) made (k (overlay T (onAll f) x)) := by
      unfold WinsSim
      rw [hs]
      rfl
    rw [h0, e]
  simp only [h1]
  rw [avg_entry (⟨x, hx⟩ : X) (fun d f => ind (WinsSim a pk (coinsOf w) (overlay T (onAll f)) (T.map Prod.fst ++ [x]) made (k d)))]
  refine avg_congr fun d => avg_congr fun f => ?_
  rw [overlay_update hx hT, List.map_append]
  rfl

theorem ideal_ask_prog {T : List (Bytes × Digest)} {made : List Made} {ms : List (Bytes × Out Signature)} {x : Bytes} {k : Digest → SignProg} {e : Made}
    (hp : (made.find? fun e => e.R ++ pk ++ e.m == x) = some e) :
    idealValue a pk X Y T made ms (.ask x k) = idealValue a pk X Y T made ms (k e.d) := by
  unfold idealValue
  refine avg_congr fun f => avg_congr fun g => ?_
  have h0 : WinsIdeal a pk (progHash pk made (overlay T (onAll f))) (progNonce a made (onAll g)) ms (.ask x k) =
    WinsIdeal a pk (progHash pk made (overlay T (onAll f))) (progNonce a made (onAll g)) ms (k (progHash pk made (overlay T (onAll f)) x)) := rfl
  have e : progHash pk made (overlay T (onAll f)) x = e.d := by
    unfold progHash
    rw [hp]
  rw [h0, e]

theorem sim_ask_prog {T : List (Bytes × Digest)} {made : List Made} {x : Bytes} {k : Digest → SignProg} {e : Made} {n : ℕ}
    (hp : (made.find? fun e => e.R ++ pk ++ e.m == x) = some e) :
    simValue a pk X n T made (.ask x k) = simValue a pk X n T made (k e.d) := by
  unfold simValue
  refine avg_congr fun w => avg_congr fun f => ?_
  unfold WinsSim
  rw [simulate, hp]

theorem ideal_ask_seen {T : List (Bytes × Digest)} {made : List Made} {ms : List (Bytes × Out Signature)} {x : Bytes} {k : Digest → SignProg} {d : Digest}
    (hp : (made.find? fun e => e.R ++ pk ++ e.m == x) = none) (hT : T.lookup x = some d) :
    idealValue a pk X Y T made ms (.ask x k) = idealValue a pk X Y T made ms (k d) := by
  unfold idealValue
  refine avg_congr fun f => avg_congr fun g => ?_
  have h0 : WinsIdeal a pk (progHash pk made (overlay T (onAll f))) (progNonce a made (onAll g)) ms (.ask x k) =
    WinsIdeal a pk (progHash pk made (overlay T (onAll f))) (progNonce a made (onAll g)) ms (k (progHash pk made (overlay T (onAll f)) x)) := rfl
  have e : progHash pk made (overlay T (onAll f)) x = d := by
    unfold progHash
    rw [hp]
    show overlay T (onAll f) x = _
    unfold overlay
    rw [hT]; rfl
  rw [h0, e]

theorem mem_of_lookup {T : List (Bytes × Digest)} {x : Bytes} {d : Digest} (hT : T.lookup x = some d) : x ∈ T.map Prod.fst := by
  by_contra h
  rw [lookup_none_iff.2 h] at hT
  exact nomatch hT

theorem sim_ask_seen {T : List (Bytes × Digest)} {made : List Made} {x : Bytes} {k : Digest → SignProg} {d : Digest} {n : ℕ}
    (hp : (made.find? fun e => e.R ++ pk ++ e.m == x) = none) (hT : T.lookup x = some d) :
    simValue a pk X n T made (.ask x k) = simValue a pk X n T made (k d) := by
  unfold simValue
  refine avg_congr fun w => avg_congr fun f => ?_
  have hs : simulate pk (a • B) (coinsOf w) (T.map Prod.fst) made (.ask x k) =
      .ask x fun d => simulate pk (a • B) (coinsOf w) (T.map Prod.fst) made (k d) := by
    rw [simulate, hp]
    dsimp only
    congr 1
    funext d
    refine simulate_asked _ _ _ _ fun y => ?_
    rw [List.mem_append, List.mem_singleton]
    exact ⟨fun h => h.elim id fun h => h ▸ mem_of_lookup hT, Or.inl⟩
  have e : overlay T (onAll f) x = d := by
    unfold overlay
    rw [hT]; rfl
  have h0 : WinsSim a pk (coinsOf w) (overlay T (onAll f)) (T.map Prod.fst) made (.ask x k) =
      WinsSim a pk (coinsOf w) (overlay T (onAll f)) (T.map Prod.fst) made (k (overlay T (onAll f) x)) := by
    unfold WinsSim
    rw [hs]
    rfl
  rw [h0, e]

theorem ideal_sign_found {T : List (Bytes × Digest)} {made : List Made} {ms : List (Bytes × Out Signature)} {m : Bytes} {k : Out Signature → SignProg} {e : Made}
    (inv : SimInv a pk (T.map Prod.fst) made) (hf : (made.find? fun e => e.m == m) = some e) :
    idealValue a pk X Y T made ms (.sign m k) = idealValue a pk X Y T made (ms ++ [(m, signReply e.R e.S)]) (k (signReply e.R e.S)) := by
  unfold idealValue
  refine avg_congr fun f => avg_congr fun g => ?_
  have h0 : WinsIdeal a pk (progHash pk made (overlay T (onAll f))) (progNonce a made (onAll g)) ms (.sign m k) =
    WinsIdeal a pk (progHash pk made (overlay T (onAll f))) (progNonce a made (onAll g))
      (ms ++ [(m, idealSign a pk (progHash pk made (overlay T (onAll f))) (progNonce a made (onAll g)) m)])
      (k (idealSign a pk (progHash pk made (overlay T (onAll f))) (progNonce a made (onAll g)) m)) := rfl
  rw [h0, inv.idealSign_found hf]

theorem sim_sign_found {T : List (Bytes × Digest)} {made : List Made} {m : Bytes} {k : Out Signature → SignProg} {e : Made} {n : ℕ}
    (hf : (made.find? fun e => e.m == m) = some e) :
    simValue a pk X n T made (.sign m k) = simValue a pk X n T made (k (signReply e.R e.S)) := by
  unfold simValue
  refine avg_congr fun w => avg_congr fun f => ?_
  unfold WinsSim
  rw [simulate, hf]

theorem not_mem_of_find {made : List Made} {m : Bytes} (hf : (made.find? fun e => e.m == m) = none) : m ∉ made.map Made.m := by
  intro h
  obtain ⟨e, he, hm⟩ := List.mem_map.1 h
  have := List.find?_eq_none.1 hf e he
  simp [hm] at this

/-- The value when the nonce of the next message is `r`. -/
noncomputable def nonceValue (a : ℕ) (pk : Bytes) (X Y : Finset Bytes) (T : List (Bytes × Digest)) (made : List Made) (ms : List (Bytes × Out Signature))
    (m : Bytes) (p : SignProg) (r : ℕ) : ℝ :=
  avg fun f : X → Digest => avg fun g : Y → Digest =>
    ind (WinsIdeal a pk (progHash pk made (overlay T (onAll f))) (Function.update (progNonce a made (onAll g)) m r) ms p)

theorem ideal_sign_nonce {T : List (Bytes × Digest)} {made : List Made} {ms : List (Bytes × Out Signature)} {m : Bytes} {p : SignProg}
    (hm : m ∈ Y) (hf : (made.find? fun e => e.m == m) = none) :
    idealValue a pk X Y T made ms p = avg fun e : Digest => nonceValue a pk X Y T made ms m p (e.val % L) := by
  classical
  unfold idealValue nonceValue
  rw [avg_comm (α := Digest)]
  refine avg_congr fun f => ?_
  rw [← avg_update (⟨m, hm⟩ : Y)]
  refine avg_congr fun e => avg_congr fun g => ?_
  congr 2
  funext m'
  by_cases h : m' = m
  · subst h
    rw [Function.update_self]
    unfold progNonce
    rw [hf]
    show (onAll _ m').val % L = _
    unfold onAll
    rw [dif_pos hm, Function.update_self]
  · rw [Function.update_of_ne h]
    unfold progNonce
    cases made.find? fun e => e.m == m' with
    | some e => rfl
    | none =>
      show (onAll _ m').val % L = (onAll g m').val % L
      unfold onAll
      by_cases hm' : m' ∈ Y
      · rw [dif_pos hm', dif_pos hm', Function.update_of_ne]
        intro h'
        exact h (congrArg Subtype.val h')
      · rw [dif_neg hm', dif_neg hm']

theorem find_append {made : List Made} {P : Made → Bool} {e : Made} : (made ++ [e]).find? P = (made.find? P).or (if P e then some e else none) := by
  rw [List.find?_append]
  cases h : P e <;> simp [List.find?_cons, h]

theorem progNonce_add {made : List Made} {m : Bytes} {r : ℕ} {d : Digest} (hr : r < L) (hf : (made.find? fun e => e.m == m) = none)
    (g : Bytes → Digest) : Function.update (progNonce a made g) m r = progNonce a (made ++ [madeOf a m r d]) g := by
  funext m'
  unfold progNonce
  rw [find_append]
  by_cases h : m' = m
  · subst h
    rw [Function.update_self, hf]
    have : ((madeOf a m' r d).m == m') = true := beq_self_eq_true _
    rw [this]
    exact (madeOf_nonce hr).symm
  · rw [Function.update_of_ne h]
    have : ((madeOf a m r d).m == m') = false := beq_eq_false_iff_ne.2 fun h' => h h'.symm
    rw [this]
    cases made.find? fun e => e.m == m' <;> rfl

theorem progHash_add {T : List (Bytes × Digest)} {made : List Made} {m : Bytes} {r : ℕ} {d : Digest} [DecidableEq X]
    (inv : SimInv a pk (T.map Prod.fst) made) (hf : (made.find? fun e => e.m == m) = none)
    (hq : encodePoint (r • B) ++ pk ++ m ∈ X) (hT : encodePoint (r • B) ++ pk ++ m ∉ T.map Prod.fst) (f : X → Digest) :
    progHash pk made (overlay T (onAll (Function.update f ⟨_, hq⟩ d))) = progHash pk (made ++ [madeOf a m r d]) (overlay T (onAll f)) := by
  funext x
  have hnew := inv.progHash_new (R := encodePoint (r • B)) (encodePoint_length _) fun e he hm => absurd (List.mem_map.2 ⟨e, he, hm⟩) (not_mem_of_find hf)
  by_cases h : x = encodePoint (r • B) ++ pk ++ m
  · subst h
    rw [hnew]
    have h1 : overlay T (onAll (Function.update f ⟨_, hq⟩ d)) (encodePoint (r • B) ++ pk ++ m) = d := by
      unfold overlay onAll
      rw [lookup_none_iff.2 hT, dif_pos hq, Function.update_self]; rfl
    rw [h1]
    have := hnew (fun _ => d)
    unfold progHash
    rw [find_append]
    cases hfx : made.find? fun e => e.R ++ pk ++ e.m == encodePoint (r • B) ++ pk ++ m with
    | some e =>
      have he := List.mem_of_find?_eq_some hfx
      have h2 := List.find?_some hfx
      have h3 := input_inj ((inv.lengthR he).trans (encodePoint_length _).symm) (eq_of_beq h2)
      exact absurd (List.mem_map.2 ⟨e, he, h3.2⟩) (not_mem_of_find hf)
    | none =>
      have : ((madeOf a m r d).R ++ pk ++ (madeOf a m r d).m == encodePoint (r • B) ++ pk ++ m) = true := beq_self_eq_true _
      rw [this]
      rfl
  · unfold progHash
    rw [find_append]
    have : ((madeOf a m r d).R ++ pk ++ (madeOf a m r d).m == x) = false := beq_eq_false_iff_ne.2 fun h' => h h'.symm
    rw [this]
    cases made.find? fun e => e.R ++ pk ++ e.m == x with
    | some e => rfl
    | none =>
      show overlay T _ x = overlay T _ x
      unfold overlay
      congr 1
      unfold onAll
      by_cases hx : x ∈ X
      · rw [dif_pos hx, dif_pos hx, Function.update_of_ne]
        intro h'
        exact h (congrArg Subtype.val h')
      · rw [dif_neg hx, dif_neg hx]

/-- If the challenge for the nonce `r` was not asked for yet, it is a random digest. -/
theorem nonceValue_good {T : List (Bytes × Digest)} {made : List Made} {ms : List (Bytes × Out Signature)} {m : Bytes} {k : Out Signature → SignProg} {r : ℕ}
    (inv : SimInv a pk (T.map Prod.fst) made) (hr : r < L) (hf : (made.find? fun e => e.m == m) = none)
    (hq : encodePoint (r • B) ++ pk ++ m ∈ X) (hT : encodePoint (r • B) ++ pk ++ m ∉ T.map Prod.fst) :
    nonceValue a pk X Y T made ms m (.sign m k) r =
      avg fun d => idealValue a pk X Y T (made ++ [madeOf a m r d]) (ms ++ [(madeOf a m r d).reply]) (k (signReply (madeOf a m r d).R (madeOf a m r d).S)) := by
  classical
  unfold nonceValue idealValue
  rw [← avg_update (⟨_, hq⟩ : X)]
  refine avg_congr fun d => avg_congr fun f => avg_congr fun g => ?_
  rw [progHash_add inv hf hq hT (d := d), progNonce_add hr hf (d := d)]
  have inv' := inv.add (d := d) hr (not_mem_of_find hf) hT
  have hf' : ((made ++ [madeOf a m r d]).find? fun e => e.m == m) = some (madeOf a m r d) := by
    rw [find_append, hf]
    have : ((madeOf a m r d).m == m) = true := beq_self_eq_true _
    rw [this]
    rfl
  generalize made ++ [madeOf a m r d] = made' at *
  have h0 : WinsIdeal a pk (progHash pk made' (overlay T (onAll f))) (progNonce a made' (onAll g)) ms (.sign m k) =
    WinsIdeal a pk (progHash pk made' (overlay T (onAll f))) (progNonce a made' (onAll g))
      (ms ++ [(m, idealSign a pk (progHash pk made' (overlay T (onAll f))) (progNonce a made' (onAll g)) m)])
      (k (idealSign a pk (progHash pk made' (overlay T (onAll f))) (progNonce a made' (onAll g)) m)) := rfl
  rw [h0, inv'.idealSign_found hf']
  rfl

theorem sim_sign_new {T : List (Bytes × Digest)} {made : List Made} {m : Bytes} {k : Out Signature → SignProg} {n : ℕ} (hn : made.length < n)
    (hf : (made.find? fun e => e.m == m) = none) :
    simValue a pk X n T made (.sign m k) = avg fun d : Digest => avg fun r : Fin L =>
      ind (encodePoint (r.val • B) ++ pk ++ m ∉ T.map Prod.fst) *
        simValue a pk X n T (made ++ [madeOf a m r.val d]) (k (signReply (madeOf a m r.val d).R (madeOf a m r.val d).S)) := by
  classical
  -- one pair of coins
  have h1 : simValue a pk X n T made (.sign m k) = avg fun c : Fin L × Digest => avg fun w : Coins n => avg fun f : X → Digest =>
      ind (WinsSim a pk (coinsOf (Function.update w ⟨made.length, hn⟩ c)) (overlay T (onAll f)) (T.map Prod.fst) made (.sign m k)) := by
    unfold simValue
    rw [avg_update (⟨made.length, hn⟩ : Fin n) (fun w : Coins n => avg fun f : X → Digest =>
      ind (WinsSim a pk (coinsOf w) (overlay T (onAll f)) (T.map Prod.fst) made (.sign m k)))]
  rw [h1, avg_prod, avg_comm]
  refine avg_congr fun d => ?_
  let H : ℕ → ℝ := fun S =>
    ind (encodePoint (S • B - (d.val % L) • a • B) ++ pk ++ m ∉ T.map Prod.fst) *
      simValue a pk X n T (made ++ [⟨m, encodePoint (S • B - (d.val % L) • a • B), S, d⟩])
        (k (signReply (encodePoint (S • B - (d.val % L) • a • B)) S))
  have h2 : ∀ S : Fin L, (avg fun w : Coins n => avg fun f : X → Digest =>
      ind (WinsSim a pk (coinsOf (Function.update w ⟨made.length, hn⟩ (S, d))) (overlay T (onAll f)) (T.map Prod.fst) made (.sign m k))) = H S.val := by
    intro S
    have hc : ∀ w : Coins n, coinsOf (Function.update w ⟨made.length, hn⟩ (S, d)) made.length = (S.val, d) := by
      intro w
      unfold coinsOf
      rw [dif_pos hn, Function.update_self]
    have hsim : ∀ w : Coins n, simulate pk (a • B) (coinsOf (Function.update w ⟨made.length, hn⟩ (S, d))) (T.map Prod.fst) made (.sign m k) =
        if encodePoint (S.val • B - (d.val % L) • a • B) ++ pk ++ m ∈ T.map Prod.fst then .done ⟨[], [], []⟩
        else simulate pk (a • B) (coinsOf w) (T.map Prod.fst) (made ++ [⟨m, encodePoint (S.val • B - (d.val % L) • a • B), S.val, d⟩])
          (k (signReply (encodePoint (S.val • B - (d.val % L) • a • B)) S.val)) := by
      intro w
      rw [simulate, hf]
      dsimp only
      rw [hc w]
      dsimp only
      split
      · rfl
      · refine simulate_congr _ _ _ fun i hi => ?_
        rw [List.length_append, List.length_singleton] at hi
        unfold coinsOf
        split
        · rw [Function.update_of_ne]
          intro h
          have := congrArg Fin.val h
          dsimp only at this
          omega
        · rfl
    simp only [H]
    by_cases hq : encodePoint (S.val • B - (d.val % L) • a • B) ++ pk ++ m ∈ T.map Prod.fst
    · rw [ind_false (fun h => h hq), zero_mul]
      have : ∀ (w : Coins n) (f : X → Digest),
          ind (WinsSim a pk (coinsOf (Function.update w ⟨made.length, hn⟩ (S, d))) (overlay T (onAll f)) (T.map Prod.fst) made (.sign m k)) = 0 := by
        intro w f
        refine ind_false ?_
        unfold WinsSim
        rw [hsim w, if_pos hq]
        exact not_wins_dummy
      rw [avg_congr fun w => (avg_congr fun f => this w f).trans (avg_const 0), avg_const]
    · rw [ind_true hq, one_mul]
      unfold simValue
      refine avg_congr fun w => avg_congr fun f => ?_
      unfold WinsSim
      rw [hsim w, if_neg hq]
  rw [avg_congr h2, ← avg_shift (d.val % L * a) H]
  refine avg_congr fun r => ?_
  simp only [H]
  rw [sim_R]
  rfl

/-- The heart of the matter: the simulator is as good as ideal signatures, up to a small factor and a small term. -/
theorem ideal_le_sim (hpk : pk.length = 32) (hX : ∀ x : Bytes, x.length ≤ N + 64 → x ∈ X) (hY : ∀ m : Bytes, m.length ≤ N → m ∈ Y) (Q n : ℕ) :
    ∀ (p : SignProg) (q s : ℕ) (T : List (Bytes × Digest)) (made : List Made) (ms : List (Bytes × Out Signature)), p.AtMost q s → p.Short N →
    SimInv a pk (T.map Prod.fst) made → (∀ x, x ∈ ms ↔ ∃ e ∈ made, x = e.reply) → T.length + q ≤ Q → made.length + s ≤ n →
    idealValue a pk X Y T made ms p ≤ (1 + 1 / 2 ^ 259) ^ s * (simValue a pk X n T made p + s * (Q / L)) := by
  have hη : (1 : ℝ) ≤ 1 + 1 / 2 ^ 259 := by
    have : (0 : ℝ) < 1 / 2 ^ 259 := by positivity
    linarith
  have hnonce := avg_nonce
  generalize (1 + 1 / 2 ^ 259 : ℝ) = η at *
  have hη0 : (0 : ℝ) ≤ η := by linarith
  have hb : (0 : ℝ) ≤ Q / L := by positivity
  generalize hβ : (Q / L : ℝ) = β at *
  have grow : ∀ (s : ℕ) (v : ℝ), 0 ≤ v → v ≤ η ^ s * (v + s * β) := by
    intro s v hv
    have h1 : (1 : ℝ) ≤ η ^ s := one_le_pow₀ hη
    have h2 : (0 : ℝ) ≤ s * β := by positivity
    nlinarith
  intro p
  induction p with
  | done F =>
    intro q s T made ms _ _ inv hms _ _
    exact (ideal_done n inv hms).trans (grow s _ (simValue_nonneg _ _ _ _))
  | ask x k ih =>
    intro q s T made ms hq hS inv hms hQ hn
    cases q with
    | zero => exact hq.elim
    | succ q =>
      obtain ⟨hx, hk⟩ := hS
      cases hp : made.find? fun e => e.R ++ pk ++ e.m == x with
      | some e =>
        rw [ideal_ask_prog hp, sim_ask_prog hp]
        exact ih e.d q s T made ms (hq e.d) (hk e.d) inv hms (by omega) hn
      | none =>
        cases hT : T.lookup x with
        | some d =>
          rw [ideal_ask_seen hp hT, sim_ask_seen hp hT]
          exact ih d q s T made ms (hq d) (hk d) inv hms (by omega) hn
        | none =>
          rw [ideal_ask_none (hX x hx) hp hT, sim_ask_none (hX x hx) hp hT]
          have h1 : ∀ d : Digest, idealValue a pk X Y (T ++ [(x, d)]) made ms (k d) ≤
              η ^ s * (simValue a pk X n (T ++ [(x, d)]) made (k d) + s * β) := by
            intro d
            refine ih d q s (T ++ [(x, d)]) made ms (hq d) (hk d) ?_ hms ?_ hn
            · refine inv.ask hp fun y hy => ?_
              rw [List.map_append, List.mem_append] at hy
              exact hy.imp_right fun h => by simpa using h
            · rw [List.length_append, List.length_singleton]; omega
          refine (avg_mono h1).trans (le_of_eq ?_)
          rw [avg_mul_left, avg_add, avg_const]
  | sign m k ih =>
    intro q s T made ms hq hS inv hms hQ hn
    cases s with
    | zero => cases q <;> exact hq.elim
    | succ s =>
      have hq : ∀ r, (k r).AtMost q s := by cases q <;> exact hq
      obtain ⟨hm, hk⟩ := hS
      have hstep : η ^ (s + 1) = η * η ^ s := pow_succ' _ _
      have hpow : 0 ≤ η ^ s := by positivity
      cases hf : made.find? fun e => e.m == m with
      | some e =>
        rw [ideal_sign_found inv hf, sim_sign_found hf]
        have hme : (m, signReply e.R e.S) = e.reply := by
          have : e.m = m := by simpa using List.find?_some hf
          rw [← this]; rfl
        have h1 := ih (signReply e.R e.S) q s T made (ms ++ [(m, signReply e.R e.S)]) (hq _) (hk _) inv (fun x => by
          rw [List.mem_append, List.mem_singleton, hms x]
          exact ⟨fun h => h.elim id fun h => ⟨e, List.mem_of_find?_eq_some hf, h.trans hme⟩, Or.inl⟩) hQ (by omega)
        refine h1.trans ?_
        have hv := simValue_nonneg (a := a) (pk := pk) (X := X) n T made (k (signReply e.R e.S))
        generalize simValue a pk X n T made (k (signReply e.R e.S)) = v at *
        rw [hstep]
        push_cast
        have h2 : 0 ≤ v + s * β := by positivity
        have h3 : η ^ s * (v + s * β) ≤ η * (η ^ s * (v + s * β)) := le_mul_of_one_le_left (by positivity) hη
        have h4 : η ^ s * (v + s * β) ≤ η ^ s * (v + (s + 1) * β) := mul_le_mul_of_nonneg_left (by linarith) hpow
        calc η ^ s * (v + s * β) ≤ η * (η ^ s * (v + s * β)) := h3
          _ ≤ η * (η ^ s * (v + (s + 1) * β)) := mul_le_mul_of_nonneg_left h4 hη0
          _ = _ := by ring
      | none =>
        have hnm := not_mem_of_find hf
        rw [ideal_sign_nonce (hY m hm) hf]
        refine (hnonce (nonceValue a pk X Y T made ms m (.sign m k)) fun r =>
          avg_nonneg fun _ => avg_nonneg fun _ => ind_nonneg _).trans ?_
        rw [hstep, mul_assoc]
        refine mul_le_mul_of_nonneg_left ?_ hη0
        -- one nonce
        let V : Fin L → Digest → ℝ := fun r d => ind (encodePoint (r.val • B) ++ pk ++ m ∉ T.map Prod.fst) *
          simValue a pk X n T (made ++ [madeOf a m r.val d]) (k (signReply (madeOf a m r.val d).R (madeOf a m r.val d).S))
        have h1 : ∀ r : Fin L, nonceValue a pk X Y T made ms m (.sign m k) r.val ≤
            ind (encodePoint (r.val • B) ++ pk ++ m ∈ T.map Prod.fst) + avg fun d => η ^ s * (V r d + s * β) := by
          intro r
          have hpos : 0 ≤ avg fun d => η ^ s * (V r d + s * β) := by
            refine avg_nonneg fun d => ?_
            have : 0 ≤ V r d := mul_nonneg (ind_nonneg _) (simValue_nonneg _ _ _ _)
            positivity
          by_cases hbad : encodePoint (r.val • B) ++ pk ++ m ∈ T.map Prod.fst
          · rw [ind_true hbad]
            have : nonceValue a pk X Y T made ms m (.sign m k) r.val ≤ 1 := by
              unfold nonceValue
              refine (avg_mono fun f => (avg_mono fun g => ind_le_one _).trans (avg_const_le zero_le_one)).trans (avg_const_le zero_le_one)
            linarith
          · rw [ind_false hbad, zero_add]
            have hqX : encodePoint (r.val • B) ++ pk ++ m ∈ X := hX _ (by
              rw [List.length_append, List.length_append, encodePoint_length, hpk]; omega)
            rw [nonceValue_good inv r.isLt hf hqX hbad]
            refine avg_mono fun d => ?_
            simp only [V]
            rw [ind_true hbad, one_mul]
            refine ih _ q s T _ (ms ++ [_]) (hq _) (hk _) (inv.add r.isLt hnm hbad) (fun x => ?_) hQ ?_
            · rw [List.mem_append, List.mem_singleton, hms x]
              constructor
              · rintro (⟨e, he, h⟩ | h)
                · exact ⟨e, List.mem_append_left _ he, h⟩
                · exact ⟨_, List.mem_append_right _ (List.mem_singleton.2 rfl), h⟩
              · rintro ⟨e, he, h⟩
                rcases List.mem_append.1 he with he | he
                · exact Or.inl ⟨e, he, h⟩
                · rw [List.mem_singleton.1 he] at h
                  exact Or.inr h
            · rw [List.length_append, List.length_singleton]; omega
        refine (avg_mono h1).trans ?_
        rw [avg_add, sim_sign_new (by omega) hf]
        have h2 := avg_bad T pk m
        have h3 : (T.length / L : ℝ) ≤ β := by
          rw [← hβ]
          refine div_le_div_of_nonneg_right ?_ (by positivity)
          exact_mod_cast (by omega : T.length ≤ Q)
        have h4 : (avg fun r : Fin L => avg fun d => η ^ s * (V r d + s * β)) = η ^ s * ((avg fun d => avg fun r : Fin L => V r d) + s * β) := by
          rw [avg_comm]
          have : ∀ d : Digest, (avg fun r : Fin L => η ^ s * (V r d + s * β)) = η ^ s * ((avg fun r : Fin L => V r d) + s * β) := by
            intro d
            rw [avg_mul_left, avg_add, avg_const]
          rw [avg_congr this, avg_mul_left, avg_add, avg_const]
        rw [h4]
        have h5 : (1 : ℝ) ≤ η ^ s := one_le_pow₀ hη
        have h6 : β ≤ η ^ s * β := le_mul_of_one_le_left hb h5
        push_cast
        have : η ^ s * ((avg fun d => avg fun r : Fin L => V r d) + (s + 1) * β) =
            η ^ s * ((avg fun d => avg fun r : Fin L => V r d) + s * β) + η ^ s * β := by ring
        have goal : (avg fun r : Fin L => ind (encodePoint (r.val • B) ++ pk ++ m ∈ T.map Prod.fst)) +
            η ^ s * ((avg fun d => avg fun r : Fin L => V r d) + s * β) ≤ η ^ s * ((avg fun d => avg fun r : Fin L => V r d) + (s + 1) * β) := by
          rw [this]; linarith
        exact goal

end Simulation

end Ed

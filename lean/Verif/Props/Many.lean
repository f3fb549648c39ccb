import Verif.Spec.Many
import Verif.Props.Attack
import Verif.Props.Unique

/-!
# Property C109: many users
-/

set_option autoImplicit false

namespace Ed

open Finset

variable {n : ℕ}

theorem SignProg.atMost_mono : ∀ {p : SignProg} {q q' s s' : ℕ}, q ≤ q' → s ≤ s' → p.AtMost q s → p.AtMost q' s' := by
  intro p
  induction p with
  | done F => intro q q' s s' _ _ _; exact trivial
  | ask x k ih =>
    intro q q' s s' hq hs h
    cases q with
    | zero => exact h.elim
    | succ q =>
      cases q' with
      | zero => omega
      | succ q' => exact fun d => ih d (by omega) hs (h d)
  | sign m k ih =>
    intro q q' s s' hq hs h
    cases s with
    | zero => cases q <;> exact h.elim
    | succ s =>
      cases s' with
      | zero => omega
      | succ s' =>
        have h' : ∀ r, SignProg.AtMost q s (k r) := by cases q <;> exact h
        have : ∀ r, SignProg.AtMost q' s' (k r) := fun r => ih r hq (by omega) (h' r)
        cases q' <;> exact this

theorem atMost_sign {q s : ℕ} {m : Bytes} {k : Out Signature → SignProg} (h : ∀ r, (k r).AtMost q s) : (SignProg.sign m k).AtMost q (s + 1) := by
  cases q <;> exact h

theorem many_atMost_sign {q s : ℕ} {i : Fin n} {m : Bytes} {k : Out Signature → ManyProg n} (h : (ManyProg.sign i m k).AtMost q s) :
    ∃ s', s = s' + 1 ∧ ∀ r, (k r).AtMost q s' := by
  cases s with
  | zero => cases q <;> exact h.elim
  | succ s => exact ⟨s, rfl, by cases q <;> exact h⟩

theorem playOthers_atMost (i : Fin n) (pks : Fin n → Bytes) (ds : Fin n → Digest) : ∀ {p : ManyProg n} {q s : ℕ}, p.AtMost q s →
    (playOthers i pks ds p).AtMost (q + 2 * s) s := by
  intro p
  induction p with
  | done j F => intro q s _; exact trivial
  | ask x k ih =>
    intro q s h
    cases q with
    | zero => exact h.elim
    | succ q =>
      rw [show q + 1 + 2 * s = (q + 2 * s) + 1 by omega]
      exact fun d => ih d (h d)
  | sign j m k ih =>
    intro q s h
    obtain ⟨s, rfl, h⟩ := many_atMost_sign h
    unfold playOthers
    split
    · exact atMost_sign fun r => SignProg.atMost_mono (by omega) le_rfl (ih r (h r))
    · rw [show q + 2 * (s + 1) = (q + 2 * s) + 1 + 1 by omega]
      exact fun r c => SignProg.atMost_mono le_rfl (by omega) (ih _ (h _))

theorem playOthers_short (i : Fin n) (pks : Fin n → Bytes) (hp : ∀ j, (pks j).length ≤ 32) (ds : Fin n → Digest) (N : ℕ) :
    ∀ {p : ManyProg n}, p.Short N → (playOthers i pks ds p).Short N := by
  intro p
  induction p with
  | done j F =>
    intro h
    unfold playOthers
    split
    · exact h
    · exact Nat.zero_le _
  | ask x k ih => exact fun h => ⟨h.1, fun d => ih d (h.2 d)⟩
  | sign j m k ih =>
    intro h
    have h1 := h.1
    unfold playOthers
    split
    · exact ⟨h.1, fun r => ih r (h.2 r)⟩
    · refine ⟨?_, fun r => ⟨?_, fun c => ih _ (h.2 _)⟩⟩
      · have : ((ds j).bytes.drop 32).length = 32 := by unfold Digest.bytes; rw [List.length_drop, leBytes_length]
        rw [List.length_append]
        omega
      · have := hp j
        rw [List.length_append, List.length_append, encodePoint_length]
        omega

theorem askKeys_atMost (i : Fin n) (sks : Fin n → Bytes) (k : (Fin n → Digest) → SignProg) {q s : ℕ} (hk : ∀ ds, (k ds).AtMost q s) :
    ∀ (l : List (Fin n)) (ds : Fin n → Digest), (askKeys i sks k l ds).AtMost (q + l.length) s
  | [], ds => hk ds
  | j :: js, ds => by
    unfold askKeys
    split
    · exact SignProg.atMost_mono (by rw [List.length_cons]; omega) le_rfl (askKeys_atMost i sks k hk js ds)
    · exact fun d => askKeys_atMost i sks k hk js _

theorem askKeys_short (i : Fin n) (sks : Fin n → Bytes) (hs : ∀ j, (sks j).length = 32) (k : (Fin n → Digest) → SignProg) {N : ℕ} (hk : ∀ ds, (k ds).Short N) :
    ∀ (l : List (Fin n)) (ds : Fin n → Digest), (askKeys i sks k l ds).Short N
  | [], ds => hk ds
  | j :: js, ds => by
    unfold askKeys
    split
    · exact askKeys_short i sks hs k hk js ds
    · exact ⟨by rw [hs]; omega, fun d => askKeys_short i sks hs k hk js _⟩

theorem pksOf_length (i : Fin n) (pk : Bytes) (ds : Fin n → Digest) (j : Fin n) : (pksOf i pk ds j).length ≤ 32 := by
  unfold pksOf
  split
  · exact List.length_take_le _ _
  · exact le_of_eq (encodePoint_length _)

theorem single_atMost (i : Fin n) (adv : (Fin n → Bytes) → ManyProg n) (sks : Fin n → Bytes) {q s : ℕ} (hq : ∀ pks, (adv pks).AtMost q s) (pk : Bytes) :
    (single i adv sks pk).AtMost (q + 2 * s + n) s := by
  have h := askKeys_atMost i sks _ (fun ds => playOthers_atMost i (pksOf i pk ds) ds (hq (pksOf i pk ds))) (List.finRange n) fun _ => .zero
  rwa [List.length_finRange] at h

theorem single_short (i : Fin n) (adv : (Fin n → Bytes) → ManyProg n) (sks : Fin n → Bytes) (hs : ∀ j, (sks j).length = 32) {N : ℕ}
    (hN : ∀ pks, (adv pks).Short N) (pk : Bytes) : (single i adv sks pk).Short N :=
  askKeys_short i sks hs _ (fun ds => playOthers_short i _ (pksOf_length i pk ds) ds N (hN _)) _ _

/-- The private key of user `i` itself is not used. -/
theorem askKeys_update (i : Fin n) (sks : Fin n → Bytes) (b : Bytes) (k : (Fin n → Digest) → SignProg) :
    ∀ (l : List (Fin n)) (ds : Fin n → Digest), askKeys i (Function.update sks i b) k l ds = askKeys i sks k l ds
  | [], ds => rfl
  | j :: js, ds => by
    unfold askKeys
    by_cases h : j = i
    · rw [if_pos h, if_pos h, askKeys_update i sks b k js ds]
    · rw [if_neg h, if_neg h, Function.update_of_ne h]
      exact congrArg _ (funext fun d => askKeys_update i sks b k js _)

theorem askKeys_run (i : Fin n) (sks : Fin n → Bytes) (k : (Fin n → Digest) → SignProg) (f : Bytes → Digest) (sg : Bytes → Out Signature)
    (ms : List (Bytes × Out Signature)) : ∀ (l : List (Fin n)) (ds : Fin n → Digest), ∃ ds' : Fin n → Digest,
      (∀ j ∈ l, j ≠ i → ds' j = f (sks j)) ∧ (∀ j, ds j = f (sks j) → ds' j = f (sks j)) ∧
        (askKeys i sks k l ds).run f sg ms = (k ds').run f sg ms
  | [], ds => ⟨ds, fun _ h => absurd h List.not_mem_nil, fun _ h => h, rfl⟩
  | j :: js, ds => by
    unfold askKeys
    by_cases h : j = i
    · rw [if_pos h]
      obtain ⟨ds', h1, h2, h3⟩ := askKeys_run i sks k f sg ms js ds
      refine ⟨ds', fun x hx hi => ?_, h2, h3⟩
      rcases List.mem_cons.1 hx with e | hx
      · exact absurd (e.trans h) hi
      · exact h1 x hx hi
    · rw [if_neg h]
      obtain ⟨ds', h1, h2, h3⟩ := askKeys_run i sks k f sg ms js (Function.update ds j (f (sks j)))
      have hj : ds' j = f (sks j) := h2 j (Function.update_self ..)
      refine ⟨ds', fun x hx hi => ?_, fun x hx => ?_, h3⟩
      · rcases List.mem_cons.1 hx with e | hx
        · rw [e, hj]
        · exact h1 x hx hi
      · by_cases e : x = j
        · rw [e, hj]
        · exact h2 x (by rw [Function.update_of_ne e]; exact hx)

/-- What `Sign` returns with a random hash function. -/
theorem sign_withHash (E : Env) (sk : Bytes) (F : Bytes → Digest) :
    sign (E.withHash F) ⟨some (newPrivateKey sk), ⟨encodePoint (scalarOf (F sk) • B)⟩⟩ =
      idealSign (scalarOf (F sk)) (encodePoint (scalarOf (F sk) • B)) F (fun m => (F (prefixOf (F sk) ++ m)).val % L) := by
  have hs : secretScalar (E.withHash F) sk = scalarOf (F sk) := rfl
  have hraw : (newPrivateKey sk).raw = sk := rfl
  funext m
  rw [C19_sign, hraw]
  have hn : nonce (E.withHash F) sk m = (F (prefixOf (F sk) ++ m)).val % L := by
    unfold nonce
    rw [Hash_withHash, Digest.leVal_bytes]
    rfl
  have hS : sigS (E.withHash F) sk (encodePoint (scalarOf (F sk) • B)) m =
      ((F (prefixOf (F sk) ++ m)).val % L +
        (F (encodePoint (((F (prefixOf (F sk) ++ m)).val % L) • B) ++ encodePoint (scalarOf (F sk) • B) ++ m)).val % L * scalarOf (F sk)) % L := by
    unfold sigS sigR
    rw [challenge_withHash, hn, hs]
  rw [hn, hS]
  rfl

/-- The questions to user `i`. -/
def ownQuestions (i : Fin n) (ms : List (Fin n × Bytes × Out Signature)) : List (Bytes × Out Signature) :=
  ms.filterMap fun e => if e.1 = i then some e.2 else none

theorem playOthers_run (i : Fin n) (pks : Fin n → Bytes) (ds : Fin n → Digest) (f : Bytes → Digest) (sg : Fin n → Bytes → Out Signature)
    (hsg : ∀ j, j ≠ i → sg j = idealSign (scalarOf (ds j)) (pks j) f (fun m => (f (prefixOf (ds j) ++ m)).val % L)) :
    ∀ (p : ManyProg n) (ms : List (Fin n × Bytes × Out Signature)), (p.run f sg ms).1.1 = i →
      (playOthers i pks ds p).run f (sg i) (ownQuestions i ms) = ((p.run f sg ms).1.2, ownQuestions i (p.run f sg ms).2) := by
  intro p
  induction p with
  | done j F =>
    intro ms h
    have h : j = i := h
    unfold playOthers
    rw [if_pos h]
    rfl
  | ask x k ih => exact fun ms h => ih (f x) ms h
  | sign j m k ih =>
    intro ms h
    have h2 := ih (sg j m) (ms ++ [(j, m, sg j m)]) h
    unfold playOthers
    by_cases hj : j = i
    · subst hj
      rw [if_pos rfl]
      have : ownQuestions j (ms ++ [(j, m, sg j m)]) = ownQuestions j ms ++ [(m, sg j m)] := by
        unfold ownQuestions
        rw [List.filterMap_append]
        simp
      rw [this] at h2
      exact h2
    · rw [if_neg hj]
      have : ownQuestions i (ms ++ [(j, m, sg j m)]) = ownQuestions i ms := by
        unfold ownQuestions
        rw [List.filterMap_append]
        simp [hj]
      rw [this] at h2
      refine Eq.trans ?_ h2
      have e : sg j m = signReply (encodePoint (((f ((ds j).bytes.drop 32 ++ m)).val % L) • B))
          (((f ((ds j).bytes.drop 32 ++ m)).val % L + (f (encodePoint (((f ((ds j).bytes.drop 32 ++ m)).val % L) • B) ++ pks j ++ m)).val % L * scalarOf (ds j)) % L) := by
        rw [hsg j hj]; rfl
      rw [e]
      rfl

/-- Who forges a signature of user `i` with all the others around forges it also alone. -/
theorem forgesMany_single (E : Env) (adv : (Fin n → Bytes) → ManyProg n) (sks : Fin n → Bytes) (f : Bytes → Digest) (h : ForgesMany E adv sks f) :
    ∃ i, ForgesCma E (single i adv sks) (sks i) f := by
  obtain ⟨kps, hk, hf, sig, hs, hv⟩ := h
  have hkp : ∀ j, kps j = ⟨some (newPrivateKey (sks j)), ⟨encodePoint (scalarOf (f (sks j)) • B)⟩⟩ := by
    intro j
    have h1 := C30_derive (E.withHash f) (newPrivateKey (sks j))
    rw [hk j] at h1
    exact Out.ok.inj h1
  obtain ⟨i, hi⟩ : ∃ i, i = ((adv fun j => (kps j).pub.raw).run f (fun j => sign (E.withHash f) (kps j)) []).1.1 := ⟨_, rfl⟩
  rw [← hi] at hv hf
  refine ⟨i, kps i, hk i, ?_⟩
  obtain ⟨ds, h1, -, h3⟩ := askKeys_run i sks (fun ds => playOthers i (pksOf i (kps i).pub.raw ds) ds (adv (pksOf i (kps i).pub.raw ds))) f
    (sign (E.withHash f) (kps i)) [] (List.finRange n) fun _ => .zero
  have h1 : ∀ j, j ≠ i → ds j = f (sks j) := fun j hj => h1 j (List.mem_finRange j) hj
  have hpk : pksOf i (kps i).pub.raw ds = fun j => (kps j).pub.raw := by
    funext j
    unfold pksOf
    by_cases hj : j = i
    · rw [if_pos hj, hj, hkp i]
      exact List.take_of_length_le (le_of_eq (encodePoint_length _))
    · rw [if_neg hj, h1 j hj, hkp j]
  have h4 := playOthers_run i (fun j => (kps j).pub.raw) ds f (fun j => sign (E.withHash f) (kps j)) (fun j hj => by
    rw [hkp j, sign_withHash, h1 j hj]) (adv fun j => (kps j).pub.raw) [] hi.symm
  rw [hpk] at h3
  have h5 : (single i adv sks (kps i).pub.raw).run f (sign (E.withHash f) (kps i)) [] = _ := h3.trans h4
  dsimp only
  rw [h5]
  refine ⟨?_, sig, hs, hv⟩
  rintro ⟨m, r⟩ he hm
  unfold ownQuestions at he
  obtain ⟨⟨j, m', r'⟩, hmem, hj⟩ := List.mem_filterMap.1 he
  dsimp only at hj
  split at hj
  · rename_i hji
    have hj := Option.some.inj hj
    have e1 : m' = m := congrArg Prod.fst hj
    have e2 : r' = r := congrArg Prod.snd hj
    subst e1 e2
    exact hf (j, m', r') hmem hji hm
  · exact nomatch hj

theorem single_update (i : Fin n) (adv : (Fin n → Bytes) → ManyProg n) (ks : Fin n → Key) (k : Key) :
    single i adv (fun j => (Function.update ks i k j).bytes) = single i adv fun j => (ks j).bytes := by
  have e : (fun j => (Function.update ks i k j).bytes) = Function.update (fun j => (ks j).bytes) i k.bytes := by
    funext j
    by_cases h : j = i
    · subst h; rw [Function.update_self, Function.update_self]
    · rw [Function.update_of_ne h, Function.update_of_ne h]
  rw [e]
  funext pk
  exact askKeys_update _ _ _ _ _ _

/-- C109: an attacker that gets the public keys of `n` users, at most `q` hash values and at most `s` signatures, by any of the users for any messages, and
then produces an accepted signature by any of the users for a message that this user did not sign, or with another R, succeeds with at most `n` times
the probability that C98 gives for one user and q + 2s + n hash values, where δ bounds the probability that rewinding the attacker, with all other users
played, gives the discrete logarithm of the key of one user. -/
theorem C109_many (E : Env) {Ω : Type} [Fintype Ω] [Nonempty Ω] (adv : Ω → (Fin n → Bytes) → ManyProg n) (q s N : ℕ) (hq : ∀ ω pks, (adv ω pks).AtMost q s)
    (hN : ∀ ω pks, (adv ω pks).Short N) (X : Finset Bytes) (hX : ∀ x : Bytes, x.length ≤ N + 64 → x ∈ X) (δ : ℝ)
    (hδ : ∀ i : Fin n, (prob fun x : Digest × (Ω × (Fin n → Key)) × Coins s × (Fin (q + 2 * s + n + 1) → Digest) × (Fin (q + 2 * s + n + 1) → Digest) =>
      findScalar (single i (adv x.2.1.1) fun j => (x.2.1.2 j).bytes) (scalarOf x.1 • B) x.2.2.1 x.2.2.2.1 x.2.2.2.2 = scalarOf x.1 % L) ≤ δ) :
    (prob fun x : Ω × (Fin n → Key) × (X → Digest) => ForgesMany E (adv x.1) (fun j => (x.2.1 j).bytes) (onAll x.2.2)) ≤
      n * ((1 + 1 / 2 ^ 259) ^ s * (Real.sqrt ((q + 2 * s + n + 1) * δ) + (q + 2 * s + n + 1) / 2 ^ 251 + s * ((q + 2 * s + n) / L)) +
        (2 * (q + 3 * s + n) + 3) / 2 ^ 256) := by
  have h1 : ∀ i : Fin n, (prob fun x : Ω × (Fin n → Key) × (X → Digest) =>
      ForgesCma E (single i (adv x.1) fun j => (x.2.1 j).bytes) (x.2.1 i).bytes (onAll x.2.2)) ≤
      (1 + 1 / 2 ^ 259) ^ s * (Real.sqrt ((q + 2 * s + n + 1) * δ) + (q + 2 * s + n + 1) / 2 ^ 251 + s * ((q + 2 * s + n) / L)) +
        (2 * (q + 3 * s + n) + 3) / 2 ^ 256 := by
    intro i
    have h := C98_unforgeable E (fun (ω : Ω × (Fin n → Key)) => single i (adv ω.1) fun j => (ω.2 j).bytes) (q + 2 * s + n) s N
      (fun ω pk => single_atMost i _ _ (hq ω.1) pk) (fun ω pk => single_short i _ _ (fun j => Key.bytes_length _) (hN ω.1) pk) X hX δ (hδ i)
    have e1 : ((q + 2 * s + n : ℕ) : ℝ) = q + 2 * s + n := by push_cast; ring
    rw [e1] at h
    have e2 : (2 * ((q : ℝ) + 2 * s + n + s) + 3) = 2 * (q + 3 * s + n) + 3 := by ring
    rw [e2] at h
    refine le_trans (le_of_eq ?_) h
    rw [prob_eq_avg, prob_eq_avg, avg_prod, avg_prod, avg_prod]
    refine avg_congr fun ω => ?_
    rw [avg_prod]
    dsimp only
    refine (avg_entry i fun (d : Key) (g : Fin n → Key) => avg fun f : X → Digest =>
      ind (ForgesCma E (single i (adv ω) fun j => (g j).bytes) d.bytes (onAll f))).trans ?_
    rw [avg_comm]
    refine avg_congr fun g => ?_
    rw [avg_prod]
    refine avg_congr fun d => avg_congr fun f => ?_
    rw [single_update]
  classical
  refine le_trans (prob_mono (q := fun x : Ω × (Fin n → Key) × (X → Digest) => ∃ i < n, ∃ h : i < n,
    ForgesCma E (single ⟨i, h⟩ (adv x.1) fun j => (x.2.1 j).bytes) (x.2.1 ⟨i, h⟩).bytes (onAll x.2.2)) fun x h => ?_) ?_
  · obtain ⟨i, hi⟩ := forgesMany_single E _ _ _ h
    exact ⟨i.val, i.isLt, i.isLt, hi⟩
  · refine prob_exists_lt _ _ n fun i hi => ?_
    refine le_trans (prob_mono fun x h => ?_) (h1 ⟨i, hi⟩)
    exact h.2

/-- C109: the same for key pairs made by `GenerateKeyPair` from readers that deliver random bytes, in pieces of any sizes (one reader for all users, one after the
other, or several). -/
theorem C109_generated (E : Env) {Ω : Type} [Fintype Ω] [Nonempty Ω] (adv : Ω → (Fin n → Bytes) → ManyProg n) (q s N : ℕ)
    (hq : ∀ ω pks, (adv ω pks).AtMost q s)
    (hN : ∀ ω pks, (adv ω pks).Short N) (X : Finset Bytes) (hX : ∀ x : Bytes, x.length ≤ N + 64 → x ∈ X) (δ : ℝ)
    (hδ : ∀ i : Fin n, (prob fun x : Digest × (Ω × (Fin n → Key)) × Coins s × (Fin (q + 2 * s + n + 1) → Digest) × (Fin (q + 2 * s + n + 1) → Digest) =>
      findScalar (single i (adv x.2.1.1) fun j => (x.2.1.2 j).bytes) (scalarOf x.1 • B) x.2.2.1 x.2.2.2.1 x.2.2.2.2 = scalarOf x.1 % L) ≤ δ)
    (seed : Fin n → ℕ) (w : Ω → (Fin n → Key) → Fin n → World) (hw : ∀ ω ks j, (avail (w ω ks j (seed j))).take 32 = (ks j).bytes) :
    (prob fun x : Ω × (Fin n → Key) × (X → Digest) => ForgesManyGenerated E (adv x.1) seed (w x.1 x.2.1) (onAll x.2.2)) ≤
      n * ((1 + 1 / 2 ^ 259) ^ s * (Real.sqrt ((q + 2 * s + n + 1) * δ) + (q + 2 * s + n + 1) / 2 ^ 251 + s * ((q + 2 * s + n) / L)) +
        (2 * (q + 3 * s + n) + 3) / 2 ^ 256) := by
  refine le_trans (le_of_eq ?_) (C109_many E adv q s N hq hN X hX δ hδ)
  refine prob_congr fun x => ?_
  obtain ⟨ω, ks, f⟩ := x
  dsimp only
  have h1 : ∀ j, (generateKeyPair (E.withHash (onAll f)) (seed j) (w ω ks j)).1 = newKeyPair (E.withHash (onAll f)) (some (newPrivateKey (ks j).bytes)) none := by
    intro j
    have hl : 32 ≤ (avail (w ω ks j (seed j))).length := by
      have h := congrArg List.length (hw ω ks j)
      rw [List.length_take, Key.bytes_length] at h
      omega
    have hc : (content (w ω ks j (seed j))).take 32 = (ks j).bytes := by
      obtain ⟨t, ht⟩ := avail_prefix (w ω ks j (seed j))
      rw [ht, List.take_append_of_le_length hl, hw ω ks j]
    have h1 := (C28_generate (E.withHash (onAll f)) (seed j) (w ω ks j) hl).1
    rw [hc] at h1
    rw [h1, C30_derive]
    rfl
  unfold ForgesManyGenerated ForgesMany
  refine exists_congr fun kps => and_congr (forall_congr' fun j => ?_) Iff.rfl
  rw [h1 j]

/-! ## Cases -/

/-- Readers that deliver the private keys byte by byte. -/
example {n : ℕ} (ks : Fin n → Key) (j : Fin n) : (avail ((ks j).bytes.map fun b => (⟨[b], none⟩ : Ev))).take 32 = (ks j).bytes := by
  have h : ∀ l : Bytes, avail (l.map fun b => (⟨[b], none⟩ : Ev)) = l := by
    intro l
    induction l with
    | nil => rfl
    | cons b l ih => show [b] ++ avail _ = _; rw [ih]; rfl
  rw [h]
  exact List.take_of_length_le (le_of_eq (Key.bytes_length (ks j)))

/-- An attacker on two users that has the message [1] signed by user 0, asks for the hash of [2], and tries its luck with the message [1] and user 1. -/
noncomputable def gamblerMany (r : Fin 1000) (_ : Fin 2 → Bytes) : ManyProg 2 :=
  .sign 0 [1] fun _ => .ask [2] fun _ => .done 1 ⟨[1], encodePoint ((r.val + 1) • B), leBytes 32 (r.val + 1)⟩

/-- The hypotheses of C109, for an attacker that wins with positive probability. -/
example (E : Env) : (∀ r pks, (gamblerMany r pks).AtMost 1 1) ∧ (∀ r pks, (gamblerMany r pks).Short 1) ∧
    ∃ X : Finset Bytes, (∀ x : Bytes, x.length ≤ 1 + 64 → x ∈ X) ∧
      0 < prob fun x : Fin 1000 × (Fin 2 → Key) × (X → Digest) => ForgesMany E (gamblerMany x.1) (fun j => (x.2.1 j).bytes) (onAll x.2.2) := by
  refine ⟨fun r pk _ _ => trivial, fun r pk => ⟨by simp, fun _ => ⟨by simp, fun _ => by simp [ManyProg.Short]⟩⟩, ?_⟩
  obtain ⟨X, hX⟩ := exists_short (1 + 64)
  refine ⟨X, hX, ?_⟩
  refine prob_pos ((0 : Fin 1000), (fun _ => Classical.arbitrary Key), fun _ => Digest.zero) ?_
  have hd : ∀ x, onAll (X := X) (fun _ => Digest.zero) x = Digest.zero := by
    intro x; unfold onAll; split <;> rfl
  have hc : ForgesCma E (fun _ => .done ⟨[1], encodePoint (1 • B), leBytes 32 1⟩) (Classical.arbitrary Key).bytes (onAll (X := X) fun _ => Digest.zero) := by
    rw [forgesCma_iff]
    rw [hd]
    have hv : (Digest.zero).val = 0 := rfl
    have h1 : leVal (leBytes 32 1) = 1 := leVal_leBytes_of_lt (by norm_num)
    have hs : scalarOf Digest.zero % L ≠ 0 := by
      have h0 : leVal (Digest.zero.bytes.take 32) = 0 := by decide +kernel
      unfold scalarOf
      rw [h0, L_eq]
      decide +kernel
    generalize scalarOf Digest.zero = a at *
    refine ⟨fun e he => absurd he List.not_mem_nil, encodePoint_length _, leBytes_length _ _, ?_, ?_, Or.inl (encodePoint_length _), ?_⟩
    · show LowBitsOk (leVal (leBytes 32 1)); rw [h1]; exact low_one
    · show encodePoint (a • B) ≠ _
      intro h
      have hne : a • B ≠ 0 := by
        intro h0
        have := addOrderOf_dvd_of_nsmul_eq_zero h0
        rw [addOrderOf_B] at this
        exact hs (Nat.mod_eq_zero_of_dvd this)
      have hy := y_ne_zero_of_order (L_smul_smul_B a) hne
      have hv := encodePoint_val (a • B)
      rw [h, leVal_replicate_zero] at hv
      apply hy
      have : (a • B).y.val = 0 := by omega
      exact (ZMod.val_eq_zero _).mp this
    · show encodePoint (1 • B) = encodePoint (nafVal (leVal (leBytes 32 1)) • B - ((onAll (X := X) (fun _ => Digest.zero) _).val % L) • _)
      rw [h1, nafVal_small (by norm_num), hd, hv, Nat.zero_mod, zero_smul, sub_zero]
      rfl
  obtain ⟨kp, hk, -, sig, hs, hv⟩ := hc
  refine ⟨fun _ => kp, fun _ => hk, ?_, sig, hs, hv⟩
  intro e he h
  simp only [gamblerMany, ManyProg.run, List.nil_append, List.mem_singleton] at he
  subst he
  exact absurd (show (0 : Fin 2) = 1 from h) (by decide)

end Ed

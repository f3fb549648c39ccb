import Verif.Props.Many
import Verif.Props.Seed

/-!
# Property C109: the private keys of many users
-/

set_option autoImplicit false

namespace Ed

open Finset

variable {n : ℕ}

/-- Asking for the hash values of the private keys of the users in the list, except user `i`. -/
def askSeeds (i : Fin n) (sks : Fin n → Bytes) (k : (Fin n → Digest) → HashProg Bytes) : List (Fin n) → (Fin n → Digest) → HashProg Bytes
  | [], ds => k ds
  | j :: js, ds => if j = i then askSeeds i sks k js ds else .ask (sks j) fun d => askSeeds i sks k js (Function.update ds j d)

theorem askSeeds_atMost (i : Fin n) (sks : Fin n → Bytes) (k : (Fin n → Digest) → HashProg Bytes) {q : ℕ} (hk : ∀ ds, (k ds).AtMost q) :
    ∀ (l : List (Fin n)) (ds : Fin n → Digest), (askSeeds i sks k l ds).AtMost (q + l.length)
  | [], ds => hk ds
  | j :: js, ds => by
    unfold askSeeds
    split
    · exact HashProg.atMost_mono (by rw [List.length_cons]; omega) (askSeeds_atMost i sks k hk js ds)
    · exact fun d => askSeeds_atMost i sks k hk js _

theorem askSeeds_update (i : Fin n) (sks : Fin n → Bytes) (b : Bytes) (k : (Fin n → Digest) → HashProg Bytes) :
    ∀ (l : List (Fin n)) (ds : Fin n → Digest), askSeeds i (Function.update sks i b) k l ds = askSeeds i sks k l ds
  | [], ds => rfl
  | j :: js, ds => by
    unfold askSeeds
    by_cases h : j = i
    · rw [if_pos h, if_pos h, askSeeds_update i sks b k js ds]
    · rw [if_neg h, if_neg h, Function.update_of_ne h]
      exact congrArg _ (funext fun d => askSeeds_update i sks b k js _)

theorem askSeeds_run (i : Fin n) (sks : Fin n → Bytes) (k : (Fin n → Digest) → HashProg Bytes) (f : Bytes → Digest) :
    ∀ (l : List (Fin n)) (ds : Fin n → Digest), ∃ ds' : Fin n → Digest,
      (∀ j ∈ l, j ≠ i → ds' j = f (sks j)) ∧ (∀ j, ds j = f (sks j) → ds' j = f (sks j)) ∧ (askSeeds i sks k l ds).run f = (k ds').run f
  | [], ds => ⟨ds, fun _ h => absurd h List.not_mem_nil, fun _ h => h, rfl⟩
  | j :: js, ds => by
    unfold askSeeds
    by_cases h : j = i
    · rw [if_pos h]
      obtain ⟨ds', h1, h2, h3⟩ := askSeeds_run i sks k f js ds
      refine ⟨ds', fun x hx hi => ?_, h2, h3⟩
      rcases List.mem_cons.1 hx with e | hx
      · exact absurd (e.trans h) hi
      · exact h1 x hx hi
    · rw [if_neg h]
      obtain ⟨ds', h1, h2, h3⟩ := askSeeds_run i sks k f js (Function.update ds j (f (sks j)))
      have hj : ds' j = f (sks j) := h2 j (Function.update_self ..)
      refine ⟨ds', fun x hx hi => ?_, fun x hx => ?_, h3⟩
      · rcases List.mem_cons.1 hx with e | hx
        · rw [e, hj]
        · exact h1 x hx hi
      · by_cases e : x = j
        · rw [e, hj]
        · exact h2 x (by rw [Function.update_of_ne e]; exact hx)

/-- The search for the private key of user `i` with the private keys of the others. -/
def searchOne (i : Fin n) (adv : (Fin n → Digest) → HashProg Bytes) (sks : Fin n → Bytes) (d : Digest) : HashProg Bytes :=
  askSeeds i sks (fun ds => adv (Function.update ds i d)) (List.finRange n) fun _ => .zero

theorem searchOne_run (i : Fin n) (adv : (Fin n → Digest) → HashProg Bytes) (sks : Fin n → Bytes) (f : Bytes → Digest) :
    (searchOne i adv sks (f (sks i))).run f = (adv fun j => f (sks j)).run f := by
  obtain ⟨ds, h1, -, h3⟩ := askSeeds_run i sks (fun ds => adv (Function.update ds i (f (sks i)))) f (List.finRange n) fun _ => .zero
  refine h3.trans ?_
  have : Function.update ds i (f (sks i)) = fun j => f (sks j) := by
    funext j
    by_cases h : j = i
    · rw [h, Function.update_self]
    · rw [Function.update_of_ne h, h1 j (List.mem_finRange j) h]
  rw [this]

/-- C109: whoever is given the whole digests of the random private keys of `n` users, and so their scalars, the second halves of the digests, the public keys,
and all signatures and shared keys, and asks for q hash values, finds a private key of one of the users with a probability of at most n (q + n + 1) / 2^256. -/
theorem C109_seeds {Ω : Type} [Fintype Ω] [Nonempty Ω] (X : Finset Bytes) (hX : ∀ x : Bytes, x.length = 32 → x ∈ X)
    (adv : Ω → (Fin n → Digest) → HashProg Bytes) (q : ℕ) (hq : ∀ ω ds, (adv ω ds).AtMost q) :
    (prob fun x : Ω × (Fin n → Key) × (X → Digest) =>
      ∃ i, (adv x.1 fun j => onAll x.2.2 (x.2.1 j).bytes).run (onAll x.2.2) = (x.2.1 i).bytes) ≤ n * ((q + n + 1) / 2 ^ 256) := by
  have h1 : ∀ i : Fin n, (prob fun x : Ω × (Fin n → Key) × (X → Digest) =>
      (adv x.1 fun j => onAll x.2.2 (x.2.1 j).bytes).run (onAll x.2.2) = (x.2.1 i).bytes) ≤ (q + n + 1) / 2 ^ 256 := by
    intro i
    have h := C104_seed X hX (fun (ω : Ω × (Fin n → Key)) => searchOne i (adv ω.1) fun j => (ω.2 j).bytes) (q + n) (fun ω d => by
      have := askSeeds_atMost i (fun j => (ω.2 j).bytes) _ (fun ds => hq ω.1 (Function.update ds i d)) (List.finRange n) fun _ => .zero
      rwa [List.length_finRange] at this)
    have e1 : ((q + n : ℕ) : ℝ) = q + n := by push_cast; ring
    rw [e1] at h
    refine le_trans (le_of_eq ?_) h
    rw [prob_eq_avg, prob_eq_avg, avg_prod, avg_prod, avg_prod]
    refine avg_congr fun ω => ?_
    rw [avg_prod]
    dsimp only
    have e2 : ∀ (ks : Fin n → Key) (f : X → Digest), ind ((adv ω fun j => onAll f (ks j).bytes).run (onAll f) = (ks i).bytes) =
        ind ((searchOne i (adv ω) (fun j => (ks j).bytes) (onAll f (ks i).bytes)).run (onAll f) = (ks i).bytes) := fun ks f => by
      rw [searchOne_run i (adv ω) (fun j => (ks j).bytes) (onAll f)]
    rw [avg_congr fun ks => avg_congr fun f => e2 ks f]
    refine (avg_entry i fun (d : Key) (g : Fin n → Key) => avg fun f : X → Digest =>
      ind ((searchOne i (adv ω) (fun j => (g j).bytes) (onAll f d.bytes)).run (onAll f) = d.bytes)).trans ?_
    rw [avg_comm]
    refine avg_congr fun g => ?_
    rw [avg_prod]
    refine avg_congr fun d => avg_congr fun f => ?_
    have e : (fun j => (Function.update g i d j).bytes) = Function.update (fun j => (g j).bytes) i d.bytes := by
      funext j
      by_cases h : j = i
      · subst h; rw [Function.update_self, Function.update_self]
      · rw [Function.update_of_ne h, Function.update_of_ne h]
    rw [e]
    unfold searchOne
    rw [askSeeds_update]
  refine le_trans (prob_mono (q := fun x : Ω × (Fin n → Key) × (X → Digest) => ∃ i < n, ∃ h : i < n,
    (adv x.1 fun j => onAll x.2.2 (x.2.1 j).bytes).run (onAll x.2.2) = (x.2.1 ⟨i, h⟩).bytes) fun x h => ?_) ?_
  · obtain ⟨i, hi⟩ := h
    exact ⟨i.val, i.isLt, i.isLt, hi⟩
  · refine prob_exists_lt _ _ n fun i hi => le_trans (prob_mono fun x h => ?_) (h1 ⟨i, hi⟩)
    exact h.2

/-- The hypotheses of `C109_seeds`, for two users and a searcher that tries one key: it wins with positive probability. -/
example : ∃ X : Finset Bytes, (∀ x : Bytes, x.length = 32 → x ∈ X) ∧
    (∀ (r : Fin 1000) (_ : Fin 2 → Digest), (HashProg.ask (leBytes 32 r.val) fun _ => .done (leBytes 32 r.val) : HashProg Bytes).AtMost 1) ∧
    0 < prob fun x : Fin 1000 × (Fin 2 → Key) × (X → Digest) =>
      ∃ i, (HashProg.ask (leBytes 32 x.1.val) fun _ => .done (leBytes 32 x.1.val) : HashProg Bytes).run (onAll x.2.2) = (x.2.1 i).bytes := by
  obtain ⟨X, hX⟩ := exists_short 32
  refine ⟨X, fun x hx => hX x (le_of_eq hx), fun r ds _ => trivial, ?_⟩
  exact prob_pos ((5 : Fin 1000), (fun _ => (⟨5, by decide +kernel⟩ : Fin (2 ^ 256))), fun _ => Digest.zero) ⟨0, rfl⟩

end Ed

import Verif.Props.Unique

/-!
# Properties C103 and C104: searching for collisions and for private keys, if SHA3-512 is like a random function
-/

set_option autoImplicit false

namespace Ed

open Finset

namespace HashProg

variable {α : Type}

/-- The questions of a run. -/
def asked (f : Bytes → Digest) : HashProg α → List Bytes
  | .done _ => []
  | .ask x k => x :: asked f (k (f x))

theorem asked_length {f : Bytes → Digest} : ∀ {p : HashProg α} {q : ℕ}, p.AtMost q → (p.asked f).length ≤ q
  | .done _, _, _ => Nat.zero_le _
  | .ask _ _, 0, h => h.elim
  | .ask x k, q + 1, h => Nat.succ_le_succ (asked_length (h (f x)))

/-- The program, followed by the question for the hash value of its result. -/
def thenAsk (p : HashProg Bytes) : HashProg Bytes := p.bind fun x => .ask x fun _ => .done x

theorem thenAsk_asked (f : Bytes → Digest) : ∀ p : HashProg Bytes, p.run f ∈ p.thenAsk.asked f
  | .done _ => List.mem_cons_self
  | .ask x k => List.mem_cons_of_mem _ (thenAsk_asked f (k (f x)))

theorem thenAsk_result {X : Finset Bytes} (f : Bytes → Digest) : ∀ {p : HashProg Bytes}, p.thenAsk.AsksIn X → p.run f ∈ X
  | .done _, h => h.1
  | .ask x k, h => thenAsk_result (p := k (f x)) f (h.2 (f x))

/-- A place that is not asked for does not matter. -/
theorem run_update {f : Bytes → Digest} {y : Bytes} {d : Digest} : ∀ {p : HashProg α}, y ∉ p.asked f → p.run (Function.update f y d) = p.run f
  | .done _, _ => rfl
  | .ask x k, h => by
    have hx : x ≠ y := fun e => h (e ▸ List.mem_cons_self)
    show (k (Function.update f y d x)).run (Function.update f y d) = (k (f x)).run f
    rw [Function.update_of_ne hx]
    exact run_update fun hy => h (List.mem_cons_of_mem _ hy)

end HashProg

theorem avg_comm' {α β γ : Type} [Fintype α] [Fintype β] [Fintype γ] (F : α → β → γ → ℝ) :
    (avg fun x => avg fun yz : β × γ => F x yz.1 yz.2) = avg fun y => avg fun x => avg fun z => F x y z := by
  rw [avg_comm]
  rw [avg_prod]
  refine avg_congr fun y => ?_
  rw [avg_comm]

section
variable {X : Finset Bytes}

theorem onAll_update (f : X → Digest) (y : X) (d : Digest) : onAll (Function.update f y d) = Function.update (onAll f) y.1 d := by
  funext x
  by_cases hx : x = y.1
  · subst hx
    rw [onAll_mem _ y.2, Function.update_self, Function.update_self]
  · rw [Function.update_of_ne hx]
    by_cases hX : x ∈ X
    · rw [onAll_mem _ hX, onAll_mem _ hX, Function.update_of_ne fun e => hx (congrArg Subtype.val e)]
    · unfold onAll
      rw [dif_neg hX, dif_neg hX]

open Classical in
/-- The values of `h` on `S`, of `g` elsewhere. -/
noncomputable def blend (S : Finset X) (h g : X → Digest) : X → Digest := fun x => if x ∈ S then h x else g x

theorem blend_mem {S : Finset X} {h g : X → Digest} {x : X} (hx : x ∈ S) : blend S h g x = h x := by unfold blend; rw [if_pos hx]

theorem blend_not {S : Finset X} {h g : X → Digest} {x : X} (hx : x ∉ S) : blend S h g x = g x := by unfold blend; rw [if_neg hx]

open Classical in
theorem blend_update {S : Finset X} {h g : X → Digest} {x : X} {d : Digest} (hx : x ∉ S) :
    blend S h (Function.update g x d) = blend (insert x S) (Function.update h x d) g := by
  funext y
  by_cases hy : y = x
  · subst hy
    rw [blend_not hx, blend_mem (mem_insert_self _ _), Function.update_self, Function.update_self]
  · by_cases hS : y ∈ S
    · rw [blend_mem hS, blend_mem (mem_insert_of_mem hS), Function.update_of_ne hy]
    · rw [blend_not hS, blend_not (fun e => (mem_insert.1 e).elim hy hS), Function.update_of_ne hy]

/-- At most `q` questions at new places meet a set of digests with a probability of at most `q` times that of the set. -/
theorem hits (P : Digest → Prop) (c : ℝ) (hc : (avg fun d : Digest => ind (P d)) ≤ c) {α : Type} :
    ∀ (p : HashProg α) (q : ℕ) (S : Finset X) (h : X → Digest), p.AtMost q → p.AsksIn X →
      (avg fun g : X → Digest => ind (∃ x : X, x.1 ∈ p.asked (onAll (blend S h g)) ∧ x ∉ S ∧ P (blend S h g x))) ≤ q * c
  | .done a, q, S, h, _, _ => by
    have c0 : 0 ≤ c := le_trans (avg_nonneg fun _ => ind_nonneg _) hc
    have e : ∀ g : X → Digest, ind (∃ x : X, x.1 ∈ (HashProg.done a : HashProg α).asked (onAll (blend S h g)) ∧ x ∉ S ∧ P (blend S h g x)) = 0 :=
      fun g => ind_false (by rintro ⟨x, hx, -⟩; exact nomatch hx)
    rw [avg_congr e, avg_const]
    positivity
  | .ask x k, 0, _, _, h, _ => h.elim
  | .ask x k, q + 1, S, h, hq, hX => by
    classical
    have c0 : 0 ≤ c := le_trans (avg_nonneg fun _ => ind_nonneg _) hc
    have hx := hX.1
    by_cases hS : (⟨x, hx⟩ : X) ∈ S
    · have ih := hits P c hc (k (h ⟨x, hx⟩)) q S h (hq _) (hX.2 _)
      refine le_trans (avg_mono fun g => ind_mono ?_) (ih.trans ?_)
      · rintro ⟨y, hy, hyS, hP⟩
        have e : onAll (blend S h g) x = h ⟨x, hx⟩ := by rw [onAll_mem _ hx, blend_mem hS]
        refine ⟨y, ?_, hyS, hP⟩
        have hy' : y.1 ∈ x :: (k (onAll (blend S h g) x)).asked (onAll (blend S h g)) := hy
        rw [e] at hy'
        rcases List.mem_cons.1 hy' with h1 | h1
        · exact absurd (show y ∈ S by rwa [show y = ⟨x, hx⟩ from Subtype.ext h1]) hyS
        · exact h1
      · push_cast
        linarith
    · rw [← avg_update (⟨x, hx⟩ : X)]
      have step : ∀ d : Digest, (avg fun g : X → Digest => ind (∃ y : X,
          y.1 ∈ (HashProg.ask x k).asked (onAll (blend S h (Function.update g ⟨x, hx⟩ d))) ∧ y ∉ S ∧ P (blend S h (Function.update g ⟨x, hx⟩ d) y))) ≤
          ind (P d) + q * c := by
        intro d
        have ih := hits P c hc (k d) q (insert ⟨x, hx⟩ S) (Function.update h ⟨x, hx⟩ d) (hq _) (hX.2 _)
        refine le_trans (avg_mono (G := fun g => ind (P d) + ind (∃ y : X,
          y.1 ∈ (k d).asked (onAll (blend (insert ⟨x, hx⟩ S) (Function.update h ⟨x, hx⟩ d) g)) ∧ y ∉ insert (⟨x, hx⟩ : X) S ∧
            P (blend (insert ⟨x, hx⟩ S) (Function.update h ⟨x, hx⟩ d) g y))) fun g => ?_) ?_
        · rw [blend_update hS]
          generalize hm : blend (insert ⟨x, hx⟩ S) (Function.update h ⟨x, hx⟩ d) g = μ
          have e : onAll μ x = d := by rw [onAll_mem _ hx, ← hm, blend_mem (mem_insert_self _ _), Function.update_self]
          by_cases hP : P d
          · rw [ind_true hP]
            have := ind_le_one (∃ y : X, y.1 ∈ (HashProg.ask x k).asked (onAll μ) ∧ y ∉ S ∧ P (μ y))
            have := ind_nonneg (∃ y : X, y.1 ∈ (k d).asked (onAll μ) ∧ y ∉ insert (⟨x, hx⟩ : X) S ∧ P (μ y))
            linarith
          · rw [ind_false hP, zero_add]
            refine ind_mono ?_
            rintro ⟨y, hy, hyS, hPy⟩
            have hne : y ≠ ⟨x, hx⟩ := by
              rintro rfl
              rw [← onAll_mem μ hx, e] at hPy
              exact hP hPy
            have hy' : y.1 ∈ x :: (k (onAll μ x)).asked (onAll μ) := hy
            rw [e] at hy'
            rcases List.mem_cons.1 hy' with h1 | h1
            · exact absurd (Subtype.ext h1) hne
            · exact ⟨y, h1, fun e => (mem_insert.1 e).elim hne hyS, hPy⟩
        · rw [avg_add, avg_const]
          linarith
      refine (avg_mono step).trans ?_
      rw [avg_add, avg_const (α := Digest) ((q : ℝ) * c)]
      push_cast
      linarith

end

/-! ## C104 -/

/-- C104: whoever is given the whole digest of a random private key of 32 bytes, and so the scalar, the second half of the digest, the public key, and
all signatures and shared keys, and asks for q hash values, finds the private key with a probability of at most (q + 1) / 2^256. -/
theorem C104_seed {Ω : Type} [Fintype Ω] [Nonempty Ω] (X : Finset Bytes) (hX : ∀ x : Bytes, x.length = 32 → x ∈ X)
    (adv : Ω → Digest → HashProg Bytes) (q : ℕ) (hq : ∀ ω d, (adv ω d).AtMost q) :
    (prob fun x : Ω × Key × (X → Digest) => (adv x.1 (onAll x.2.2 x.2.1.bytes)).run (onAll x.2.2) = x.2.1.bytes) ≤ (q + 1) / 2 ^ 256 := by
  classical
  have c0 : (0 : ℝ) ≤ (q + 1) / 2 ^ 256 := div_nonneg (by positivity) (pow_nonneg two_pos.le _)
  rw [prob_eq_avg, avg_prod]
  refine le_trans (avg_mono fun ω => ?_) (avg_const_le (α := Ω) c0)
  rw [avg_prod]
  dsimp only
  have e1 : ∀ k : Key, (avg fun f : X → Digest => ind ((adv ω (onAll f k.bytes)).run (onAll f) = k.bytes)) ≤
      avg fun d : Digest => avg fun g : X → Digest => ind (k.bytes ∈ (adv ω d).run (onAll g) :: (adv ω d).asked (onAll g)) := by
    intro k
    have hk : k.bytes ∈ X := hX _ k.bytes_length
    have e2 : ∀ f : X → Digest, ind ((adv ω (onAll f k.bytes)).run (onAll f) = k.bytes) =
        ind ((adv ω (f ⟨k.bytes, hk⟩)).run (onAll f) = k.bytes) := fun f => by rw [onAll_mem f hk]
    rw [avg_congr e2, avg_entry (⟨k.bytes, hk⟩ : X) fun d f => ind ((adv ω d).run (onAll f) = k.bytes)]
    refine avg_mono fun d => avg_mono fun g => ind_mono fun h => ?_
    by_cases ha : k.bytes ∈ (adv ω d).asked (onAll g)
    · exact List.mem_cons_of_mem _ ha
    · rw [onAll_update, HashProg.run_update ha] at h
      rw [h]
      exact List.mem_cons_self
  refine (avg_mono e1).trans ?_
  rw [avg_comm]
  refine le_trans (avg_mono fun d => ?_) (avg_const_le (α := Digest) c0)
  rw [avg_comm]
  refine le_trans (avg_mono fun g => ?_) (avg_const_le (α := X → Digest) c0)
  refine (avg_key_mem _).trans (div_le_div_of_nonneg_right ?_ (pow_nonneg two_pos.le _))
  have := HashProg.asked_length (f := onAll g) (hq ω d)
  rw [List.length_cons]
  exact_mod_cast Nat.succ_le_succ this

/-- C104: whoever knows a private key and asks for q hash values finds another private key with the same public key with a probability of at most
(q + 1) / 2^251. -/
theorem C104_second (E : Env) {Ω : Type} [Fintype Ω] [Nonempty Ω] (X : Finset Bytes) (k : Bytes) (hk : k ∈ X)
    (adv : Ω → Digest → HashProg Bytes) (q : ℕ) (hq : ∀ ω d, (adv ω d).AtMost q) (hX : ∀ ω d, (adv ω d).thenAsk.AsksIn X) :
    (prob fun x : Ω × (X → Digest) => (adv x.1 (onAll x.2 k)).run (onAll x.2) ≠ k ∧
      derivePublicKey (E.withHash (onAll x.2)) (some (newPrivateKey ((adv x.1 (onAll x.2 k)).run (onAll x.2)))) =
        derivePublicKey (E.withHash (onAll x.2)) (some (newPrivateKey k))) ≤ (q + 1) / 2 ^ 251 := by
  classical
  have c0 : (0 : ℝ) ≤ (q + 1) / 2 ^ 251 := div_nonneg (by positivity) (pow_nonneg two_pos.le _)
  rw [prob_eq_avg, avg_prod]
  refine le_trans (avg_mono fun ω => ?_) (avg_const_le (α := Ω) c0)
  dsimp only
  have e1 : ∀ f : X → Digest, ind ((adv ω (onAll f k)).run (onAll f) ≠ k ∧
      derivePublicKey (E.withHash (onAll f)) (some (newPrivateKey ((adv ω (onAll f k)).run (onAll f)))) =
        derivePublicKey (E.withHash (onAll f)) (some (newPrivateKey k))) =
      ind ((adv ω (f ⟨k, hk⟩)).run (onAll f) ≠ k ∧ scalarOf (onAll f ((adv ω (f ⟨k, hk⟩)).run (onAll f))) = scalarOf (f ⟨k, hk⟩)) := by
    intro f
    rw [derive_withHash, onAll_mem f hk]
  rw [avg_congr e1, avg_entry (⟨k, hk⟩ : X) fun d f => ind ((adv ω d).run (onAll f) ≠ k ∧ scalarOf (onAll f ((adv ω d).run (onAll f))) = scalarOf d)]
  refine le_trans (avg_mono fun d => ?_) (avg_const_le (α := Digest) c0)
  -- the result counts as one more question
  have hp : (adv ω d).thenAsk.AtMost (q + 1) := by unfold HashProg.thenAsk; exact HashProg.bind_atMost (m := 1) (g := fun x => .ask x fun _ => .done x) (fun x => fun _ => trivial) (hq ω d)
  have h := hits (fun e => scalarOf e = scalarOf d) (1 / 2 ^ 251) (le_of_eq (avg_scalar d)) (adv ω d).thenAsk (q + 1) {⟨k, hk⟩} (fun _ => d) hp (hX ω d)
  refine le_trans (avg_mono fun g => ind_mono ?_) (h.trans (le_of_eq ?_))
  · have e : Function.update g ⟨k, hk⟩ d = blend {⟨k, hk⟩} (fun _ => d) g := by
      funext y
      by_cases hy : y = ⟨k, hk⟩
      · rw [blend_mem (mem_singleton.2 hy), hy, Function.update_self]
      · rw [blend_not fun h => hy (mem_singleton.1 h), Function.update_of_ne hy]
    rw [e]
    generalize blend {⟨k, hk⟩} (fun _ => d) g = μ
    rintro ⟨h1, h2⟩
    have hr := HashProg.thenAsk_result (onAll μ) (hX ω d)
    rw [onAll_mem _ hr] at h2
    exact ⟨⟨_, hr⟩, HashProg.thenAsk_asked _ _, fun h => h1 (congrArg Subtype.val (mem_singleton.1 h)), h2⟩
  · push_cast
    rw [mul_one_div]

/-- C104: so whoever is given the whole digest of a random private key of 32 bytes and asks for q hash values finds any private key with the same public
key with a probability of at most (q + 1) (2^-251 + 2^-256). -/
theorem C104_any (E : Env) {Ω : Type} [Fintype Ω] [Nonempty Ω] (X : Finset Bytes) (hk : ∀ x : Bytes, x.length = 32 → x ∈ X)
    (adv : Ω → Digest → HashProg Bytes) (q : ℕ) (hq : ∀ ω d, (adv ω d).AtMost q) (hX : ∀ ω d, (adv ω d).thenAsk.AsksIn X) :
    (prob fun x : Ω × Key × (X → Digest) =>
      derivePublicKey (E.withHash (onAll x.2.2)) (some (newPrivateKey ((adv x.1 (onAll x.2.2 x.2.1.bytes)).run (onAll x.2.2)))) =
        derivePublicKey (E.withHash (onAll x.2.2)) (some (newPrivateKey x.2.1.bytes))) ≤ (q + 1) * (1 / 2 ^ 251 + 1 / 2 ^ 256) := by
  have h1 := C104_seed X hk adv q hq
  have h2 := fun k : Key => C104_second E X k.bytes (hk _ k.bytes_length) adv q hq hX
  have c0 : (0 : ℝ) ≤ (q + 1) / 2 ^ 251 := div_nonneg (by positivity) (pow_nonneg two_pos.le _)
  let Q : Ω × Key × (X → Digest) → Prop := fun x => (adv x.1 (onAll x.2.2 x.2.1.bytes)).run (onAll x.2.2) = x.2.1.bytes
  let R : Ω × Key × (X → Digest) → Prop := fun x => (adv x.1 (onAll x.2.2 x.2.1.bytes)).run (onAll x.2.2) ≠ x.2.1.bytes ∧
    derivePublicKey (E.withHash (onAll x.2.2)) (some (newPrivateKey ((adv x.1 (onAll x.2.2 x.2.1.bytes)).run (onAll x.2.2)))) =
      derivePublicKey (E.withHash (onAll x.2.2)) (some (newPrivateKey x.2.1.bytes))
  have hR : (avg fun x => ind (R x)) ≤ (q + 1) / 2 ^ 251 := by
    have e : (avg fun x => ind (R x)) = avg fun k : Key => avg fun ω : Ω => avg fun f : X → Digest => ind (R (ω, k, f)) := by
      rw [avg_prod, avg_comm' fun ω k f => ind (R (ω, k, f))]
    rw [e]
    refine le_trans (avg_mono fun k => ?_) (avg_const_le (α := Key) c0)
    have := h2 k
    rw [prob_eq_avg, avg_prod] at this
    exact this
  rw [prob_eq_avg] at h1 ⊢
  refine le_trans (avg_mono (G := fun x => ind (Q x) + ind (R x)) fun x => ?_) ?_
  · by_cases hQ : Q x
    · rw [ind_true hQ]
      have := ind_nonneg (R x)
      exact (ind_le_one _).trans (by linarith)
    · rw [ind_false hQ, zero_add]
      exact ind_mono fun h => ⟨hQ, h⟩
  · rw [avg_add]
    have e : ((q : ℝ) + 1) * (1 / 2 ^ 251 + 1 / 2 ^ 256) = (q + 1) / 2 ^ 256 + (q + 1) / 2 ^ 251 := by
      rw [mul_add, mul_one_div, mul_one_div, add_comm]
    rw [e]
    exact add_le_add h1 hR

/-! ## Collisions -/

namespace HashProg

variable {X : Finset Bytes}

/-- The program, followed by the questions for two hash values that belong to its result. -/
def thenAskTwo {α : Type} (u v : α → Bytes) (p : HashProg α) : HashProg α := p.bind fun x => .ask (u x) fun _ => .ask (v x) fun _ => .done x

theorem thenAskTwo_asked {α : Type} (u v : α → Bytes) (f : Bytes → Digest) : ∀ p : HashProg α,
    u (p.run f) ∈ (p.thenAskTwo u v).asked f ∧ v (p.run f) ∈ (p.thenAskTwo u v).asked f
  | .done _ => ⟨List.mem_cons_self, List.mem_cons_of_mem _ List.mem_cons_self⟩
  | .ask x k => ⟨List.mem_cons_of_mem _ (thenAskTwo_asked u v f (k (f x))).1, List.mem_cons_of_mem _ (thenAskTwo_asked u v f (k (f x))).2⟩

theorem asked_mem {α : Type} {f : Bytes → Digest} {x : Bytes} : ∀ {p : HashProg α}, p.AsksIn X → x ∈ p.asked f → x ∈ X
  | .done _, _, h => nomatch h
  | .ask y k, h, hx => by
    rcases List.mem_cons.1 hx with h1 | h1
    · rw [h1]; exact h.1
    · exact asked_mem (h.2 (f y)) h1

end HashProg

section
variable {X : Finset Bytes}

/-- Values at `q` places asked for and at the places of `S` that are equal. -/
theorem collisions {β : Type} [Nonempty β] (φ : Bytes → Digest → β) (c : ℝ) (hc : ∀ x t, (avg fun d : Digest => ind (φ x d = t)) ≤ c) {α : Type} :
    ∀ (p : HashProg α) (q : ℕ) (S : Finset X) (h : X → Digest), p.AtMost q → p.AsksIn X →
      (avg fun g : X → Digest => ind (∃ x y : X, x ≠ y ∧ y.1 ∈ p.asked (onAll (blend S h g)) ∧ y ∉ S ∧
        (x ∈ S ∨ x.1 ∈ p.asked (onAll (blend S h g))) ∧ φ x.1 (blend S h g x) = φ y.1 (blend S h g y))) ≤ (q * S.card + q * (q - 1) / 2) * c
  | .done a, q, S, h, _, _ => by
    have c0 : 0 ≤ c := le_trans (avg_nonneg fun _ => ind_nonneg _) (hc [] (Classical.arbitrary β))
    have e : ∀ g : X → Digest, ind (∃ x y : X, x ≠ y ∧ y.1 ∈ (HashProg.done a : HashProg α).asked (onAll (blend S h g)) ∧ y ∉ S ∧
        (x ∈ S ∨ x.1 ∈ (HashProg.done a : HashProg α).asked (onAll (blend S h g))) ∧ φ x.1 (blend S h g x) = φ y.1 (blend S h g y)) = 0 :=
      fun g => ind_false (by rintro ⟨x, y, -, hy, -⟩; exact nomatch hy)
    rw [avg_congr e, avg_const]
    refine mul_nonneg (add_nonneg (by positivity) ?_) c0
    rcases Nat.eq_zero_or_pos q with h0 | h0
    · rw [h0]; simp
    · have : (1 : ℝ) ≤ q := by exact_mod_cast h0
      exact div_nonneg (mul_nonneg (by positivity) (by linarith)) (by norm_num)
  | .ask x k, 0, _, _, h, _ => h.elim
  | .ask x k, q + 1, S, h, hq, hX => by
    classical
    have c0 : 0 ≤ c := le_trans (avg_nonneg fun _ => ind_nonneg _) (hc [] (Classical.arbitrary β))
    have hx := hX.1
    by_cases hS : (⟨x, hx⟩ : X) ∈ S
    · have ih := collisions φ c hc (k (h ⟨x, hx⟩)) q S h (hq _) (hX.2 _)
      refine le_trans (avg_mono fun g => ind_mono ?_) (ih.trans ?_)
      · rintro ⟨z, y, hzy, hy, hyS, hz, hP⟩
        have e : onAll (blend S h g) x = h ⟨x, hx⟩ := by rw [onAll_mem _ hx, blend_mem hS]
        have hc : ∀ y : X, y.1 ∈ (HashProg.ask x k).asked (onAll (blend S h g)) → y ∈ S ∨ y.1 ∈ (k (h ⟨x, hx⟩)).asked (onAll (blend S h g)) := by
          intro y hy
          have hy' : y.1 ∈ x :: (k (onAll (blend S h g) x)).asked (onAll (blend S h g)) := hy
          rw [e] at hy'
          rcases List.mem_cons.1 hy' with h1 | h1
          · exact Or.inl (by rwa [show y = ⟨x, hx⟩ from Subtype.ext h1])
          · exact Or.inr h1
        exact ⟨z, y, hzy, (hc y hy).resolve_left hyS, hyS, hz.elim Or.inl (hc z), hP⟩
      · refine mul_le_mul_of_nonneg_right ?_ c0
        push_cast
        have h1 : (0 : ℝ) ≤ S.card := by positivity
        have h2 : (0 : ℝ) ≤ q := by positivity
        nlinarith
    · rw [← avg_update (⟨x, hx⟩ : X)]
      have step : ∀ d : Digest, (avg fun g : X → Digest => ind (∃ z y : X, z ≠ y ∧
          y.1 ∈ (HashProg.ask x k).asked (onAll (blend S h (Function.update g ⟨x, hx⟩ d))) ∧ y ∉ S ∧
          (z ∈ S ∨ z.1 ∈ (HashProg.ask x k).asked (onAll (blend S h (Function.update g ⟨x, hx⟩ d)))) ∧
          φ z.1 (blend S h (Function.update g ⟨x, hx⟩ d) z) = φ y.1 (blend S h (Function.update g ⟨x, hx⟩ d) y))) ≤
          ind (∃ s ∈ S, φ x d = φ s.1 (h s)) + (q * (S.card + 1) + q * (q - 1) / 2) * c := by
        intro d
        have ih := collisions φ c hc (k d) q (insert ⟨x, hx⟩ S) (Function.update h ⟨x, hx⟩ d) (hq _) (hX.2 _)
        rw [card_insert_of_notMem hS] at ih
        push_cast at ih
        refine le_trans (avg_mono (G := fun g => ind (∃ s ∈ S, φ x d = φ s.1 (h s)) + ind (∃ z y : X, z ≠ y ∧
          y.1 ∈ (k d).asked (onAll (blend (insert ⟨x, hx⟩ S) (Function.update h ⟨x, hx⟩ d) g)) ∧ y ∉ insert (⟨x, hx⟩ : X) S ∧
          (z ∈ insert (⟨x, hx⟩ : X) S ∨ z.1 ∈ (k d).asked (onAll (blend (insert ⟨x, hx⟩ S) (Function.update h ⟨x, hx⟩ d) g))) ∧
          φ z.1 (blend (insert ⟨x, hx⟩ S) (Function.update h ⟨x, hx⟩ d) g z) =
            φ y.1 (blend (insert ⟨x, hx⟩ S) (Function.update h ⟨x, hx⟩ d) g y))) fun g => ?_) ?_
        · rw [blend_update hS]
          have hv : ∀ s ∈ S, blend (insert ⟨x, hx⟩ S) (Function.update h ⟨x, hx⟩ d) g s = h s := by
            intro s hs
            rw [blend_mem (mem_insert_of_mem hs), Function.update_of_ne (show s ≠ ⟨x, hx⟩ from fun e => hS (by rw [← e]; exact hs))]
          have e0 : blend (insert ⟨x, hx⟩ S) (Function.update h ⟨x, hx⟩ d) g ⟨x, hx⟩ = d := by
            rw [blend_mem (mem_insert_self _ _), Function.update_self]
          generalize blend (insert ⟨x, hx⟩ S) (Function.update h ⟨x, hx⟩ d) g = μ at hv e0
          have e : onAll μ x = d := by rw [onAll_mem _ hx, e0]
          by_cases hP : ∃ s ∈ S, φ x d = φ s.1 (h s)
          · rw [ind_true hP]
            exact (ind_le_one _).trans (le_add_of_nonneg_right (ind_nonneg _))
          · rw [ind_false hP, zero_add]
            refine ind_mono ?_
            have hm : ∀ y : X, y.1 ∈ (HashProg.ask x k).asked (onAll μ) → y = ⟨x, hx⟩ ∨ y.1 ∈ (k d).asked (onAll μ) := by
              intro y hy
              have hy' : y.1 ∈ x :: (k (onAll μ x)).asked (onAll μ) := hy
              rw [e] at hy'
              exact (List.mem_cons.1 hy').imp (fun h1 => Subtype.ext h1) id
            -- two new places with equal values, one of them not x
            have main : ∀ z y : X, z ≠ y → y ∉ S → y ≠ ⟨x, hx⟩ → y.1 ∈ (k d).asked (onAll μ) →
                (z ∈ S ∨ z.1 ∈ (HashProg.ask x k).asked (onAll μ)) → φ z.1 (μ z) = φ y.1 (μ y) →
                ∃ z y : X, z ≠ y ∧ y.1 ∈ (k d).asked (onAll μ) ∧ y ∉ insert (⟨x, hx⟩ : X) S ∧
                  (z ∈ insert (⟨x, hx⟩ : X) S ∨ z.1 ∈ (k d).asked (onAll μ)) ∧ φ z.1 (μ z) = φ y.1 (μ y) := by
              intro z y hzy hyS hyx hy hz hφ
              refine ⟨z, y, hzy, hy, fun e => (mem_insert.1 e).elim hyx hyS, ?_, hφ⟩
              rcases hz with hz | hz
              · exact Or.inl (mem_insert_of_mem hz)
              · exact (hm z hz).imp (fun e => mem_insert.2 (Or.inl e)) id
            rintro ⟨z, y, hzy, hy, hyS, hz, hφ⟩
            rcases hm y hy with h1 | h1
            · subst h1
              rw [e0] at hφ
              rcases hz with hz | hz
              · exact absurd ⟨z, hz, by rw [← hφ, hv z hz]⟩ hP
              · have hz' := (hm z hz).resolve_left hzy
                by_cases hzS : z ∈ S
                · exact absurd ⟨z, hzS, by rw [← hφ, hv z hzS]⟩ hP
                · exact main ⟨x, hx⟩ z hzy.symm hzS hzy hz' (Or.inr hy) (by rw [e0, hφ])
            · by_cases hyx : y = ⟨x, hx⟩
              · subst hyx
                rw [e0] at hφ
                rcases hz with hz | hz
                · exact absurd ⟨z, hz, by rw [← hφ, hv z hz]⟩ hP
                · have hz' := (hm z hz).resolve_left hzy
                  by_cases hzS : z ∈ S
                  · exact absurd ⟨z, hzS, by rw [← hφ, hv z hzS]⟩ hP
                  · exact main ⟨x, hx⟩ z hzy.symm hzS hzy hz' (Or.inr hy) (by rw [e0, hφ])
              · exact main z y hzy hyS hyx h1 hz hφ
        · rw [avg_add, avg_const]
          linarith
      refine (avg_mono step).trans ?_
      have hs : ∀ S' : Finset X, (avg fun d : Digest => ind (∃ s ∈ S', φ x d = φ s.1 (h s))) ≤ S'.card * c := by
        intro S'
        induction S' using Finset.induction_on with
        | empty =>
          have : ∀ d : Digest, ind (∃ s ∈ (∅ : Finset X), φ x d = φ s.1 (h s)) = 0 := fun d => ind_false (by rintro ⟨s, hs, -⟩; exact absurd hs (notMem_empty s))
          rw [avg_congr this, avg_const]
          simp
        | insert s S' hsS ih =>
          have : ∀ d : Digest, ind (∃ u ∈ insert s S', φ x d = φ u.1 (h u)) ≤ ind (φ x d = φ s.1 (h s)) + ind (∃ u ∈ S', φ x d = φ u.1 (h u)) := by
            intro d
            by_cases h1 : φ x d = φ s.1 (h s)
            · rw [ind_true h1]
              exact (ind_le_one _).trans (le_add_of_nonneg_right (ind_nonneg _))
            · rw [ind_false h1, zero_add]
              refine ind_mono ?_
              rintro ⟨u, hu, he⟩
              rcases mem_insert.1 hu with h2 | h2
              · subst h2; exact absurd he h1
              · exact ⟨u, h2, he⟩
          refine (avg_mono this).trans ?_
          rw [avg_add, card_insert_of_notMem hsS]
          push_cast
          have := hc x (φ s.1 (h s))
          linarith
      rw [avg_add, avg_const (α := Digest)]
      have := hs S
      push_cast
      nlinarith

/-- Two different places with equal values. -/
theorem birthday {β : Type} [Nonempty β] (φ : Bytes → Digest → β) (c : ℝ) (hc : ∀ x t, (avg fun d : Digest => ind (φ x d = t)) ≤ c) {α : Type} (p : HashProg α) (q : ℕ)
    (hq : p.AtMost q) (hX : p.AsksIn X) :
    (avg fun f : X → Digest => ind (∃ x y : Bytes, x ≠ y ∧ x ∈ p.asked (onAll f) ∧ y ∈ p.asked (onAll f) ∧ φ x (onAll f x) = φ y (onAll f y))) ≤
      q * (q - 1) / 2 * c := by
  have h := collisions φ c hc p q ∅ (fun _ => .zero) hq hX
  rw [card_empty, Nat.cast_zero, mul_zero, zero_add] at h
  refine le_trans (avg_mono fun f => ind_mono ?_) h
  have e : blend ∅ (fun _ => Digest.zero) f = f := funext fun x => blend_not (notMem_empty x)
  rw [e]
  rintro ⟨x, y, hxy, hx, hy, hφ⟩
  have mx := HashProg.asked_mem hX hx
  have my := HashProg.asked_mem hX hy
  rw [onAll_mem f mx, onAll_mem f my] at hφ
  exact ⟨⟨x, mx⟩, ⟨y, my⟩, fun h => hxy (congrArg Subtype.val h), hy, notMem_empty _, Or.inr hx, hφ⟩

end

/-- C103: whoever asks for q hash values finds two private keys with one public key with a probability of at most (q + 1) (q + 2) / 2^252. -/
theorem C103_find_keys (E : Env) {Ω : Type} [Fintype Ω] [Nonempty Ω] (X : Finset Bytes) (adv : Ω → HashProg (Bytes × Bytes)) (q : ℕ)
    (hq : ∀ ω, (adv ω).AtMost q) (hX : ∀ ω, ((adv ω).thenAskTwo Prod.fst Prod.snd).AsksIn X) :
    (prob fun x : Ω × (X → Digest) => let r := (adv x.1).run (onAll x.2)
      r.1 ≠ r.2 ∧ derivePublicKey (E.withHash (onAll x.2)) (some (newPrivateKey r.1)) =
        derivePublicKey (E.withHash (onAll x.2)) (some (newPrivateKey r.2))) ≤ (q + 1) * (q + 2) / 2 ^ 252 := by
  have c0 : (0 : ℝ) ≤ (q + 1) * (q + 2) / 2 ^ 252 := div_nonneg (by positivity) (pow_nonneg two_pos.le _)
  rw [prob_eq_avg, avg_prod]
  refine le_trans (avg_mono fun ω => ?_) (avg_const_le (α := Ω) c0)
  dsimp only
  have hs : ∀ t : ℕ, (avg fun d : Digest => ind (scalarOf d = t)) ≤ 1 / 2 ^ 251 := by
    intro t
    by_cases h : ∃ e : Digest, scalarOf e = t
    · obtain ⟨e, rfl⟩ := h
      exact le_of_eq (avg_scalar e)
    · have : ∀ d : Digest, ind (scalarOf d = t) = 0 := fun d => ind_false fun e => h ⟨d, e⟩
      rw [avg_congr this, avg_const]
      exact div_nonneg zero_le_one (pow_nonneg two_pos.le _)
  have hp : ((adv ω).thenAskTwo Prod.fst Prod.snd).AtMost (q + 2) := by
    unfold HashProg.thenAskTwo
    exact HashProg.bind_atMost (m := 2) (g := fun x : Bytes × Bytes => .ask x.1 fun _ => .ask x.2 fun _ => .done x) (fun x _ _ => trivial) (hq ω)
  have h := birthday (fun _ d => scalarOf d) _ (fun _ => hs) _ _ hp (hX ω)
  refine le_trans (avg_mono fun f => ind_mono ?_) (h.trans (le_of_eq ?_))
  · rintro ⟨h1, h2⟩
    have a := HashProg.thenAskTwo_asked Prod.fst Prod.snd (onAll f) (adv ω)
    exact ⟨_, _, h1, a.1, a.2, (derive_withHash E (onAll f) _ _).1 h2⟩
  · have h4 : (2 : ℝ) ^ 252 = 2 ^ 251 * 2 := pow_succ 2 251
    rw [h4]
    push_cast
    generalize (2 : ℝ) ^ 251 = y
    rw [← div_div, div_mul_div_comm, div_div]
    ring

/-- C103: whoever has the private key and asks for q hash values finds two messages for which `Sign` makes the same R with a probability of at most
(q + 2) (q + 3) / 2^253. -/
theorem C103_find_messages (E : Env) {Ω : Type} [Fintype Ω] [Nonempty Ω] (X : Finset Bytes) (k : Bytes) (pub : Ω → (X → Digest) → PublicKey)
    (adv : Ω → Digest → HashProg (Bytes × Bytes)) (q : ℕ) (hq : ∀ ω d, (adv ω d).AtMost q)
    (hX : ∀ ω, (HashProg.ask k fun d => (adv ω d).thenAskTwo (fun r => d.bytes.drop 32 ++ r.1) (fun r => d.bytes.drop 32 ++ r.2)).AsksIn X) :
    (prob fun x : Ω × (X → Digest) => let r := (adv x.1 (onAll x.2 k)).run (onAll x.2)
      r.1 ≠ r.2 ∧ ∃ s s' : Signature, sign (E.withHash (onAll x.2)) ⟨some (newPrivateKey k), pub x.1 x.2⟩ r.1 = .ok s ∧
        sign (E.withHash (onAll x.2)) ⟨some (newPrivateKey k), pub x.1 x.2⟩ r.2 = .ok s' ∧ s.R = s'.R) ≤ (q + 2) * (q + 3) / 2 ^ 253 := by
  have c0 : (0 : ℝ) ≤ (q + 2) * (q + 3) / 2 ^ 253 := div_nonneg (by positivity) (pow_nonneg two_pos.le _)
  rw [prob_eq_avg, avg_prod]
  refine le_trans (avg_mono fun ω => ?_) (avg_const_le (α := Ω) c0)
  dsimp only
  have hp : (HashProg.ask k fun d => (adv ω d).thenAskTwo (fun r => d.bytes.drop 32 ++ r.1) (fun r => d.bytes.drop 32 ++ r.2)).AtMost (q + 3) := by
    intro d
    unfold HashProg.thenAskTwo
    exact HashProg.bind_atMost (m := 2) (g := fun r : Bytes × Bytes => .ask (d.bytes.drop 32 ++ r.1) fun _ => .ask (d.bytes.drop 32 ++ r.2) fun _ => .done r)
      (fun x _ _ => trivial) (hq ω d)
  have h := birthday (fun _ d => d.val % L) _ (fun _ => avg_class) _ _ hp (hX ω)
  refine le_trans (avg_mono fun f => ind_mono ?_) (h.trans (le_of_eq ?_))
  · rintro ⟨h1, s, s', hs, hs', hR⟩
    have a := HashProg.thenAskTwo_asked (fun r : Bytes × Bytes => (onAll f k).bytes.drop 32 ++ r.1) (fun r => (onAll f k).bytes.drop 32 ++ r.2) (onAll f) (adv ω (onAll f k))
    refine ⟨(onAll f k).bytes.drop 32 ++ _, (onAll f k).bytes.drop 32 ++ _, fun e => h1 (List.append_cancel_left e), List.mem_cons_of_mem _ a.1, List.mem_cons_of_mem _ a.2, ?_⟩
    have e : ∀ (m : Bytes) (s : Signature), sign (E.withHash (onAll f)) ⟨some (newPrivateKey k), pub ω f⟩ m = .ok s →
        s.R = encodePoint (((onAll f ((onAll f k).bytes.drop 32 ++ m)).val % L) • B) := by
      intro m s hs
      rw [C19_sign] at hs
      split at hs
      · rw [← Out.ok.inj hs]
        show encodePoint ((leVal (onAll f ((onAll f k).bytes.drop 32 ++ m)).bytes % L) • B) = _
        rw [Digest.leVal_bytes]
      · exact nomatch hs
    rw [e _ s hs, e _ s' hs'] at hR
    have := (smul_B_eq_iff _ _).1 (encodePoint_inj hR)
    rwa [Nat.mod_mod, Nat.mod_mod] at this
  · have h4 : (2 : ℝ) ^ 253 = 2 ^ 252 * 2 := pow_succ 2 252
    rw [h4]
    push_cast
    generalize (2 : ℝ) ^ 252 = y
    rw [← div_div, div_mul_div_comm, div_div]
    ring

/-! ## Cases -/

/-- An attacker with 1000 random choices that asks for two hash values, the second question depending on the answer, and then guesses. -/
def guesser (r : Fin 1000) (d : Digest) : HashProg Bytes :=
  .ask (leBytes 32 r.val) fun e => if e = d then .done (leBytes 32 r.val) else .ask e.bytes fun e' => .done (e'.bytes.take 32)

/-- The hypotheses of C104. -/
example : ∃ X : Finset Bytes, (∀ x : Bytes, x.length = 32 → x ∈ X) ∧ (∀ r d, (guesser r d).AtMost 2) ∧ ∀ r d, (guesser r d).thenAsk.AsksIn X := by
  obtain ⟨X, hX⟩ := exists_short 100
  have l64 : ∀ e : Digest, e.bytes.length = 64 := fun e => leBytes_length _ _
  have l32 : ∀ n, (leBytes 32 n).length = 32 := fun n => leBytes_length _ _
  refine ⟨X, fun x hx => hX x (by omega), fun r d e => ?_, fun r d => ⟨hX _ (by rw [l32]; omega), fun e => ?_⟩⟩
  · dsimp only
    split
    · trivial
    · exact fun _ => trivial
  · dsimp only
    split
    · exact ⟨hX _ (by rw [l32]; omega), fun _ => trivial⟩
    · exact ⟨hX _ (by rw [l64]; omega), fun e' => ⟨hX _ (by rw [List.length_take, l64]; omega), fun _ => trivial⟩⟩

/-- A pair of messages that depends on two answers. -/
def pairFinder (r : Fin 1000) : HashProg (Bytes × Bytes) :=
  .ask (leBytes 32 r.val) fun e => .ask e.bytes fun e' => .done (e.bytes, e'.bytes)

/-- The hypotheses of the statements about searching. -/
example : ∃ X : Finset Bytes, (∀ r, (pairFinder r).AtMost 2) ∧ (∀ r, ((pairFinder r).thenAskTwo Prod.fst Prod.snd).AsksIn X) ∧
    ∀ r, (HashProg.ask (List.replicate 32 7) fun d =>
      (pairFinder r).thenAskTwo (fun r => d.bytes.drop 32 ++ r.1) (fun r => d.bytes.drop 32 ++ r.2)).AsksIn X := by
  obtain ⟨X, hX⟩ := exists_short 100
  have l64 : ∀ e : Digest, e.bytes.length = 64 := fun e => leBytes_length _ _
  have l32 : ∀ n, (leBytes 32 n).length = 32 := fun n => leBytes_length _ _
  have a1 : ∀ n, leBytes 32 n ∈ X := fun n => hX _ (by rw [l32]; omega)
  have a2 : ∀ e : Digest, e.bytes ∈ X := fun e => hX _ (by rw [l64]; omega)
  have a3 : ∀ d e : Digest, d.bytes.drop 32 ++ e.bytes ∈ X := fun d e => hX _ (by rw [List.length_append, List.length_drop, l64, l64]; omega)
  exact ⟨X, fun r _ _ => trivial, fun r => ⟨a1 _, fun e => ⟨a2 _, fun e' => ⟨a2 _, fun _ => ⟨a2 _, fun _ => trivial⟩⟩⟩⟩,
    fun r => ⟨hX _ (by simp), fun d => ⟨a1 _, fun e => ⟨a2 _, fun e' => ⟨a3 _ _, fun _ => ⟨a3 _ _, fun _ => trivial⟩⟩⟩⟩⟩⟩

end Ed

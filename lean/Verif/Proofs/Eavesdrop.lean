import Verif.Proofs.Avg
import Mathlib.Data.List.Basic
import Mathlib.Data.Set.Function

/-! # Programs that ask questions: identical questions with different names -/

set_option autoImplicit false

namespace Ed

/-- A program that asks questions `Q` and gets answers `D`. -/
inductive QProg (Q D : Type) where
  | done (b : Bool)
  | ask (q : Q) (k : D → QProg Q D)

namespace QProg

variable {Q Y D : Type}

/-- The result and the questions. -/
def run (f : Q → D) : QProg Q D → Bool × List Q
  | .done b => (b, [])
  | .ask q k => ((run f (k (f q))).1, q :: (run f (k (f q))).2)

/-- Other names for the questions. -/
def rename (π : Q → Y) : QProg Q D → QProg Y D
  | .done b => .done b
  | .ask q k => .ask (π q) fun d => rename π (k d)

theorem run_rename (π : Q → Y) (f : Y → D) : ∀ p : QProg Q D, ((p.rename π).run f).1 = (p.run (f ∘ π)).1
  | .done _ => rfl
  | .ask q k => run_rename π f (k (f (π q)))

/-- Answers from a table, and from `F` otherwise. -/
def over [DecidableEq Q] (T : List (Q × D)) (F : Q → D) (q : Q) : D := (T.lookup q).getD (F q)

theorem over_nil [DecidableEq Q] (F : Q → D) : over [] F = F := rfl

theorem over_update [DecidableEq Q] {T : List (Q × D)} {q : Q} (hT : T.lookup q = none) (F : Q → D) (d : D) :
    over T (Function.update F q d) = over (T ++ [(q, d)]) F := by
  funext y
  unfold over
  rw [List.lookup_append]
  cases hy : T.lookup y with
  | some e => rfl
  | none =>
    show Function.update F q d y = (List.lookup y [(q, d)]).getD (F y)
    rw [List.lookup_cons]
    by_cases h : y = q
    · subst h
      rw [Function.update_self, beq_self_eq_true]
      rfl
    · rw [Function.update_of_ne h, beq_eq_false_iff_ne.2 h]
      rfl

theorem lookup_none [DecidableEq Q] {T : List (Q × D)} {q : Q} : T.lookup q = none ↔ q ∉ T.map Prod.fst := by
  induction T with
  | nil => simp
  | cons e T ih =>
    obtain ⟨y, d⟩ := e
    rw [List.lookup_cons]
    by_cases h : q = y
    · subst h; simp
    · rw [beq_eq_false_iff_ne.2 h, List.map_cons, List.mem_cons, not_or]
      exact ⟨fun h' => ⟨h, ih.1 h'⟩, fun h' => ih.2 h'.2⟩

section Lazy

variable [Fintype D]

/-- The probability of the result true if new questions are answered at random. -/
noncomputable def lazy [DecidableEq Q] : List (Q × D) → QProg Q D → ℝ
  | _, .done b => ind (b = true)
  | T, .ask q k =>
    match T.lookup q with
    | some d => lazy T (k d)
    | none => avg fun d => lazy (T ++ [(q, d)]) (k d)

theorem lazy_nonneg [DecidableEq Q] : ∀ (p : QProg Q D) (T : List (Q × D)), 0 ≤ p.lazy T := by
  intro p
  induction p with
  | done b => intro T; exact ind_nonneg _
  | ask q k ih =>
    intro T
    unfold lazy
    cases T.lookup q with
    | some d => exact ih _ _
    | none => exact avg_nonneg fun d => ih d _

theorem lazy_le_one [DecidableEq Q] : ∀ (p : QProg Q D) (T : List (Q × D)), p.lazy T ≤ 1 := by
  intro p
  induction p with
  | done b => intro T; exact ind_le_one _
  | ask q k ih =>
    intro T
    unfold lazy
    cases T.lookup q with
    | some d => exact ih _ _
    | none => exact (avg_mono fun d => ih d _).trans (avg_const_le zero_le_one)

variable [Nonempty D]

/-- Random functions answer like this. -/
theorem avg_run [Fintype Q] [DecidableEq Q] : ∀ (p : QProg Q D) (T : List (Q × D)),
    (avg fun F : Q → D => ind ((p.run (over T F)).1 = true)) = p.lazy T := by
  intro p
  induction p with
  | done b => intro T; exact avg_const (α := Q → D) (ind (b = true))
  | ask q k ih =>
    intro T
    unfold lazy
    cases hT : T.lookup q with
    | some d =>
      dsimp only
      rw [← ih d T]
      refine avg_congr fun F => ?_
      have e : over T F q = d := by unfold over; rw [hT]; rfl
      show ind (((k (over T F q)).run (over T F)).1 = true) = _
      rw [e]
    | none =>
      dsimp only
      have e : ∀ F : Q → D, over T F q = F q := fun F => by unfold over; rw [hT]; rfl
      have h1 : (avg fun F : Q → D => ind (((QProg.ask q k).run (over T F)).1 = true)) = avg fun F : Q → D => ind (((k (F q)).run (over T F)).1 = true) := by
        refine avg_congr fun F => ?_
        show ind (((k (over T F q)).run (over T F)).1 = true) = _
        rw [e F]
      rw [h1, avg_entry q fun d F => ind (((k d).run (over T F)).1 = true)]
      refine avg_congr fun d => ?_
      rw [← ih d (T ++ [(q, d)])]
      refine avg_congr fun F => ?_
      rw [over_update hT]

/-- Two different questions with the same name. -/
def Clash (π : Q → Y) (l : List Q) : Prop := ∃ a ∈ l, ∃ b ∈ l, a ≠ b ∧ π a = π b

/-- If the questions are answered by a random function of their names instead of a random function of the questions, the result changes only if two different
questions with the same name are asked. -/
theorem rename_close [Fintype Q] [DecidableEq Q] [DecidableEq Y] (π : Q → Y) : ∀ (p : QProg Q D) (T : List (Q × D)), ¬ Clash π (T.map Prod.fst) →
    |(p.rename π).lazy (T.map fun e => (π e.1, e.2)) - p.lazy T| ≤ avg fun F : Q → D => ind (Clash π (T.map Prod.fst ++ (p.run (over T F)).2)) := by
  intro p
  induction p with
  | done b =>
    intro T _
    show |ind (b = true) - ind (b = true)| ≤ _
    rw [sub_self, abs_zero]
    exact avg_nonneg fun _ => ind_nonneg _
  | ask q k ih =>
    intro T hinj
    have hmap : (T.map fun e => (π e.1, e.2)).map Prod.fst = (T.map Prod.fst).map π := by
      rw [List.map_map, List.map_map]; rfl
    -- the questions of the run
    have hlog : ∀ F : Q → D, ((QProg.ask q k).run (over T F)).2 = q :: ((k (over T F q)).run (over T F)).2 := fun F => rfl
    unfold rename lazy
    cases hT : T.lookup q with
    | some d =>
      have hmem : (q, d) ∈ T := by
        clear ih hinj hmap hlog
        induction T with
        | nil => exact nomatch hT
        | cons e T ih =>
          obtain ⟨y, d'⟩ := e
          rw [List.lookup_cons] at hT
          by_cases h : q = y
          · subst h
            rw [beq_self_eq_true] at hT
            have := Option.some.inj hT
            subst this
            exact List.mem_cons_self ..
          · rw [beq_eq_false_iff_ne.2 h] at hT
            exact List.mem_cons_of_mem _ (ih hT)
      have h2 : (T.map fun e => (π e.1, e.2)).lookup (π q) = some d := by
        clear ih hmap hlog
        induction T with
        | nil => exact nomatch hT
        | cons e T ih =>
          obtain ⟨y, d'⟩ := e
          rw [List.lookup_cons] at hT
          rw [List.map_cons, List.lookup_cons]
          by_cases h : q = y
          · subst h
            rw [beq_self_eq_true] at hT ⊢
            exact hT
          · rw [beq_eq_false_iff_ne.2 h] at hT
            have hne : π q ≠ π y := by
              intro e
              refine hinj ⟨q, List.mem_map.2 ⟨_, hmem, rfl⟩, y, List.mem_cons_self .., h, e⟩
            rw [beq_eq_false_iff_ne.2 hne]
            have hmem' : (q, d) ∈ T := by
              rcases List.mem_cons.1 hmem with h' | h'
              · exact absurd (congrArg Prod.fst h') h
              · exact h'
            refine ih ?_ hT hmem'
            rintro ⟨a, ha, b, hb, hab⟩
            exact hinj ⟨a, List.mem_cons_of_mem _ ha, b, List.mem_cons_of_mem _ hb, hab⟩
      rw [h2]
      dsimp only
      refine (ih d T hinj).trans (avg_mono fun F => ind_mono ?_)
      rw [hlog F]
      have e : over T F q = d := by unfold over; rw [hT]; rfl
      rw [e]
      rintro ⟨a, ha, b, hb, hab⟩
      have sub : ∀ x, x ∈ T.map Prod.fst ++ ((k d).run (over T F)).2 → x ∈ T.map Prod.fst ++ q :: ((k d).run (over T F)).2 := by
        intro x hx
        rcases List.mem_append.1 hx with h | h
        · exact List.mem_append_left _ h
        · exact List.mem_append_right _ (List.mem_cons_of_mem _ h)
      exact ⟨a, sub a ha, b, sub b hb, hab⟩
    | none =>
      have hq := lookup_none.1 hT
      by_cases hc : π q ∈ (T.map Prod.fst).map π
      · -- a clash
        have h1 : (avg fun F : Q → D => ind (Clash π (T.map Prod.fst ++ ((QProg.ask q k).run (over T F)).2))) = 1 := by
          rw [← avg_const (α := Q → D) 1]
          refine avg_congr fun F => ind_true ?_
          obtain ⟨a, ha, e⟩ := List.mem_map.1 hc
          refine ⟨a, List.mem_append_left _ ha, q, List.mem_append_right _ ?_, ?_, e⟩
          · rw [hlog F]; exact List.mem_cons_self ..
          · rintro rfl; exact hq ha
        rw [h1, abs_le]
        have a1 : 0 ≤ (QProg.ask q k).lazy T := lazy_nonneg _ _
        have a2 : (QProg.ask q k).lazy T ≤ 1 := lazy_le_one _ _
        have b1 : 0 ≤ ((QProg.ask q k).rename π).lazy (T.map fun e => (π e.1, e.2)) := lazy_nonneg _ _
        have b2 : ((QProg.ask q k).rename π).lazy (T.map fun e => (π e.1, e.2)) ≤ 1 := lazy_le_one _ _
        unfold lazy at a1 a2
        unfold rename lazy at b1 b2
        rw [hT] at a1 a2
        constructor <;> linarith
      · have h2 : (T.map fun e => (π e.1, e.2)).lookup (π q) = none := lookup_none.2 (by rw [hmap]; exact hc)
        rw [h2]
        dsimp only
        have h3 : ∀ d : D, |((k d).rename π).lazy ((T.map fun e => (π e.1, e.2)) ++ [(π q, d)]) - (k d).lazy (T ++ [(q, d)])| ≤
            avg fun F : Q → D => ind (Clash π ((T ++ [(q, d)]).map Prod.fst ++ ((k d).run (over (T ++ [(q, d)]) F)).2)) := by
          intro d
          have h4 := ih d (T ++ [(q, d)]) ?_
          · rw [List.map_append] at h4
            exact h4
          · rintro ⟨a, ha, b, hb, hne, he⟩
            rw [List.map_append, List.mem_append] at ha hb
            rcases ha with ha | ha <;> rcases hb with hb | hb
            · exact hinj ⟨a, ha, b, hb, hne, he⟩
            · have hb : b = q := List.mem_singleton.1 hb
              subst hb
              exact hc (List.mem_map.2 ⟨a, ha, he⟩)
            · have ha : a = q := List.mem_singleton.1 ha
              subst ha
              exact hc (List.mem_map.2 ⟨b, hb, he.symm⟩)
            · exact hne ((List.mem_singleton.1 ha).trans (List.mem_singleton.1 hb).symm)
        have h5 : (avg fun F : Q → D => ind (Clash π (T.map Prod.fst ++ ((QProg.ask q k).run (over T F)).2))) =
            avg fun d => avg fun F : Q → D => ind (Clash π ((T ++ [(q, d)]).map Prod.fst ++ ((k d).run (over (T ++ [(q, d)]) F)).2)) := by
          have e : ∀ F : Q → D, over T F q = F q := fun F => by unfold over; rw [hT]; rfl
          have h6 : (avg fun F : Q → D => ind (Clash π (T.map Prod.fst ++ ((QProg.ask q k).run (over T F)).2))) =
              avg fun F : Q → D => ind (Clash π (T.map Prod.fst ++ q :: ((k (F q)).run (over T F)).2)) := by
            refine avg_congr fun F => ?_
            rw [hlog F, e F]
          rw [h6, avg_entry q fun d F => ind (Clash π (T.map Prod.fst ++ q :: ((k d).run (over T F)).2))]
          refine avg_congr fun d => avg_congr fun F => ?_
          rw [over_update hT, List.map_append, List.append_assoc]
          rfl
        rw [h5]
        refine le_trans ?_ (avg_mono h3)
        have h7 : (avg fun d => ((k d).rename π).lazy ((T.map fun e => (π e.1, e.2)) ++ [(π q, d)])) - (avg fun d => (k d).lazy (T ++ [(q, d)])) =
            avg fun d => (((k d).rename π).lazy ((T.map fun e => (π e.1, e.2)) ++ [(π q, d)]) - (k d).lazy (T ++ [(q, d)])) := by
          unfold avg
          rw [Finset.sum_sub_distrib, sub_div]
        rw [h7]
        unfold avg
        rw [abs_div, abs_of_nonneg (Nat.cast_nonneg (α := ℝ) (Fintype.card D))]
        exact div_le_div_of_nonneg_right (Finset.abs_sum_le_sum_abs _ _) (Nat.cast_nonneg _)

/-- The same for random functions. -/
theorem rename_close' [Fintype Q] [DecidableEq Q] [Fintype Y] [DecidableEq Y] (π : Q → Y) (p : QProg Q D) :
    |(avg fun f : Y → D => ind ((p.run (f ∘ π)).1 = true)) - avg fun F : Q → D => ind ((p.run F).1 = true)| ≤ avg fun F : Q → D => ind (Clash π (p.run F).2) := by
  have h := rename_close π p [] (by rintro ⟨a, ha, _⟩; exact nomatch ha)
  have h1 := avg_run (p.rename π) []
  have h2 := avg_run p []
  simp only [over_nil] at h h1 h2
  rw [List.map_nil, List.map_nil, ← h1, ← h2] at h
  simp only [run_rename] at h
  exact h

end Lazy

end QProg

end Ed

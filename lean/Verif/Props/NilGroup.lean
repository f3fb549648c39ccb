import Verif.Model.NilGroup
import Verif.Props.GroupApi

/-!
# Properties C86 and C87: elements with nil coordinates or an unknown coordinate system

C86: which calls panic, and that without nil the functions are those of the other properties.  C87: what a precomputation that panics leaves
in its receiver.
-/

set_option autoImplicit false

namespace Ed

namespace GCN

/-- No nil among X, Y, Z. -/
def Has3 (g : GCN) : Prop := g.X.isSome ∧ g.Y.isSome ∧ g.Z.isSome
/-- No nil among X, Y, Z, T. -/
def Has4 (g : GCN) : Prop := g.Has3 ∧ g.T.isSome

/-- Two non-nil field elements with the same encoding. -/
def Same (x y : Option FE) : Prop := ∃ a b : FE, x = some a ∧ y = some b ∧ a.encode = b.encode

/-- Numbers of the six coordinate systems: AFFINE, P2, P3, P1xP1, PRECOMPUTED, CACHED. -/
def Known (n : Int) : Prop := n = 0 ∨ n = 1 ∨ n = 2 ∨ n = 3 ∨ n = 4 ∨ n = 5

end GCN

theorem Sys.num_inj : ∀ {a b : Sys}, a.num = b.num → a = b := by intro a b; cases a <;> cases b <;> simp [Sys.num]

/-- Elements without nil X, Y, Z in a known system are those of the other properties. -/
theorem C86_complete (g : GCN) : (g.Has3 ∧ GCN.Known g.sys) ↔ ∃ h : GC, g = h.toN := by
  constructor
  · rintro ⟨⟨hx, hy, hz⟩, hs⟩
    obtain ⟨s, x, y, z, t⟩ := g
    obtain ⟨x, rfl⟩ := Option.isSome_iff_exists.1 hx
    obtain ⟨y, rfl⟩ := Option.isSome_iff_exists.1 hy
    obtain ⟨z, rfl⟩ := Option.isSome_iff_exists.1 hz
    rcases hs with h | h | h | h | h | h <;> simp only at h <;> subst h
    · exact ⟨⟨.affine, x, y, z, t⟩, rfl⟩
    · exact ⟨⟨.p2, x, y, z, t⟩, rfl⟩
    · exact ⟨⟨.p3, x, y, z, t⟩, rfl⟩
    · exact ⟨⟨.p1xp1, x, y, z, t⟩, rfl⟩
    · exact ⟨⟨.precomputed, x, y, z, t⟩, rfl⟩
    · exact ⟨⟨.cached, x, y, z, t⟩, rfl⟩
  · rintro ⟨h, rfl⟩
    refine ⟨⟨rfl, rfl, rfl⟩, ?_⟩
    obtain ⟨s, x, y, z, t⟩ := h
    cases s <;> simp [GC.toN, Sys.num, GCN.Known]

/-! ## Without nil -/

/-- `Out` values mapped (the pointers of the result are not nil). -/
def Out.map {α β : Type} (f : α → β) : Out α → Out β
  | .ok a => .ok (f a)
  | .err m => .err m
  | .panic => .panic

@[simp] theorem GCN.op_some (f : FE → FE → FE) (a b : FE) : GCN.op f (some a) (some b) = .ok (f a b) := rfl
@[simp] theorem GCN.op_none_left (f : FE → FE → FE) (b : Option FE) : GCN.op f none b = .panic := rfl
@[simp] theorem GCN.op_none_right (f : FE → FE → FE) (a : Option FE) : GCN.op f a none = .panic := by cases a <;> rfl
@[simp] theorem GCN.eq_some (a b : FE) : GCN.eq (some a) (some b) = .ok (a.equals b) := rfl
@[simp] theorem GCN.eq_none_left (b : Option FE) : GCN.eq none b = .panic := rfl
@[simp] theorem GCN.eq_none_right (a : Option FE) : GCN.eq a none = .panic := by cases a <;> rfl
@[simp] theorem Out.deref_some {α : Type} (a : α) : Out.deref (some a) = .ok a := rfl
@[simp] theorem Out.deref_none {α : Type} : Out.deref (none : Option α) = .panic := rfl
@[simp] theorem GCN.andThen_panic (y : Out Bool) : GCN.andThen .panic y = .panic := rfl
@[simp] theorem GCN.andThen_ok (b : Bool) (y : Out Bool) : GCN.andThen (.ok b) y = if b then y else .ok false := rfl

theorem GCN.toCoordinateSystem_toN (g : GC) (n : Sys) : g.toN.toCoordinateSystem n.num = (g.toCoordinateSystem n).map GC.toN := by
  obtain ⟨s, x, y, z, t⟩ := g
  unfold GCN.toCoordinateSystem GC.toCoordinateSystem
  generalize FE.multiply = mul, FE.subtract = sub, FE.add = ad, d2FE = d
  as_aux_lemma =>
    cases s <;> cases n <;> cases t <;>
    simp [GC.toN, Sys.num, Out.map, GCN.newP2, GCN.newP3, GCN.newP1xP1, GCN.newCached,
      GCN.newPrecomputed, GC.newP2, GC.newP3, GC.newP1xP1, GC.newCached, GC.newPrecomputed]

theorem GCN.encodeP_toN (g : GC) : g.toN.encodeP = .ok g.encodeP := by
  unfold GCN.encodeP GC.encodeP
  generalize FE.multiply = mul, FE.invert = inv, FE.encode = enc, FE.isNegative = neg, GC.setTopBit = top
  as_aux_lemma =>
    show (if _ then _ else _) = Out.ok (if _ then _ else _)
    split <;> rfl

theorem GCN.satisfiesP_toN (g : GC) : g.toN.satisfiesP = .ok g.satisfiesP := by
  unfold GCN.satisfiesP GC.satisfiesP
  generalize FE.multiply = mul, FE.invert = inv, FE.encode = enc, FE.square = sq, FE.add = ad, dFE = d, FE.one = o
  as_aux_lemma =>
    rfl

theorem GCN.toP2_toN (g : GC) : g.toN.toCoordinateSystem 1 = g.toP2.map GC.toN := GCN.toCoordinateSystem_toN g .p2

theorem GCN.encode_toN (g : GC) : g.toN.encode = g.encode := by
  have key := GCN.encodeP_toN
  have k2 := GCN.toP2_toN g
  unfold GCN.encode GC.encode
  obtain ⟨s, x, y, z, t⟩ := g
  generalize GCN.encodeP = e, GC.encodeP = f, GCN.toCoordinateSystem = tc at key k2 ⊢
  rw [k2, key]
  generalize GC.toP2 _ = o
  as_aux_lemma =>
    cases s <;> cases o <;> first | rfl | exact key _

theorem GCN.satisfies_toN (g : GC) : g.toN.satisfiesCurveEquation = g.satisfiesCurveEquation := by
  have key := GCN.satisfiesP_toN
  have k2 := GCN.toP2_toN g
  unfold GCN.satisfiesCurveEquation GC.satisfiesCurveEquation
  obtain ⟨s, x, y, z, t⟩ := g
  generalize GCN.satisfiesP = e, GC.satisfiesP = f, GCN.toCoordinateSystem = tc at key k2 ⊢
  rw [k2, key]
  generalize GC.toP2 _ = o
  as_aux_lemma =>
    cases s <;> cases o <;> first | rfl | exact key _

theorem GCN.equalsP_toN (r g : GC) : r.toN.equalsP g.toN = .ok (r.equalsP g) := by
  unfold GCN.equalsP GC.equalsP GCN.eq
  generalize FE.multiply = mul, FE.equals = eq
  as_aux_lemma =>
    show (if _ then (if _ then Out.ok _ else _) else _) = Out.ok (if _ then _ else _)
    split
    · cases eq r.X g.X <;> rfl
    · rfl

theorem GC.toCS_noErr (g : GC) (n : Sys) (m : String) : g.toCoordinateSystem n ≠ .err m := by
  unfold GC.toCoordinateSystem
  generalize FE.multiply = mul, FE.subtract = sub, FE.add = ad, d2FE = d
  as_aux_lemma =>
    obtain ⟨s, x, y, z, t⟩ := g
    cases s <;> cases n <;> cases t <;> exact nofun

theorem GCN.equalsToP2_toN (r g : GC) : r.toN.equalsToP2 g.toN = r.equalsToP2 g := by
  have key := GCN.equalsP_toN r
  have k2 := GCN.toP2_toN g
  have k3 := GC.toCS_noErr g .p2
  change ∀ m, g.toP2 ≠ .err m at k3
  unfold GCN.equalsToP2 GC.equalsToP2
  obtain ⟨s, x, y, z, t⟩ := g
  generalize GCN.equalsP = e, GC.equalsP = f, GCN.toCoordinateSystem = tc at key k2 ⊢
  rw [k2, key]
  generalize GC.toP2 _ = o at k3 ⊢
  as_aux_lemma =>
    cases o with
    | err m => exact absurd rfl (k3 m)
    | panic => cases s <;> rfl
    | ok g' => cases s <;> first | rfl | exact congrArg GCN.recoverFalse (key _)

theorem GCN.equalsSame_toN (r g : GC) : r.toN.equalsSame g.toN = r.equalsSame g := by
  have key := GCN.equalsToP2_toN
  have k1 := GCN.equalsP_toN r g
  have k2 := GCN.toP2_toN r
  unfold GCN.equalsSame GC.equalsSame GCN.eq
  generalize GCN.equalsP = e, GC.equalsP = f, GCN.equalsToP2 = e2, GC.equalsToP2 = f2, GCN.toCoordinateSystem = tc at key k1 k2 ⊢
  rw [k2, k1]
  generalize GC.toP2 _ = o
  generalize FE.multiply = mul, FE.equals = eq
  as_aux_lemma =>
    obtain ⟨s, x, y, z, t⟩ := r
    obtain ⟨s', x', y', z', t'⟩ := g
    cases s
    · rfl
    · rfl
    · rfl
    · cases o <;> first | rfl | exact key _ _
    · show GCN.andThen (GCN.andThen (.ok (eq x x')) (.ok (eq y y'))) (.ok (eq z z')) = .ok (eq x x' && eq y y' && eq z z')
      cases eq x x' <;> cases eq y y' <;> rfl
    · show (if eq z z' then GCN.andThen (GCN.andThen (.ok (eq x x')) (.ok (eq y y'))) _ else _) = if eq z z' then (if eq x x' && eq y y' then _ else _) else _
      cases eq z z' <;> cases t <;> cases t' <;> cases eq x x' <;> cases eq y y' <;> rfl

theorem GCN.equals_toN (r g : GC) : r.toN.equals g.toN = r.equals g := by
  have key := GCN.equalsSame_toN r
  have k2 := GCN.toCoordinateSystem_toN g r.sys
  have hs : r.toN.sys ≠ g.toN.sys ↔ r.sys ≠ g.sys := not_congr ⟨fun h => Sys.num_inj h, fun h => congrArg Sys.num h⟩
  unfold GCN.equals GC.equals
  rw [show r.toN.sys = r.sys.num from rfl] at hs ⊢
  rw [k2, key]
  by_cases h : r.sys ≠ g.sys
  · rw [if_pos (hs.2 h), if_pos h]
    generalize GCN.equalsSame = e, GC.equalsSame = f at key ⊢
    have k3 := GC.toCS_noErr g r.sys
    generalize GC.toCoordinateSystem g r.sys = o at k3 ⊢
    cases o with
    | ok g' => 
      show GCN.recoverFalse (e r.toN g'.toN) = _
      rw [key]
      dsimp only
      cases f r g' <;> rfl
    | err m => exact absurd rfl (k3 m)
    | panic => rfl
  · rw [if_neg (fun h' => h (hs.1 h')), if_neg h]

theorem GCN.add_toN (r g : GC) : r.toN.add g.toN = (r.add g).map GC.toN := by
  unfold GCN.add GC.add
  generalize FE.multiply = mul, FE.subtract = sub, FE.add = ad
  as_aux_lemma =>
    obtain ⟨s, x, y, z, t⟩ := r
    obtain ⟨s', x', y', z', t'⟩ := g
    cases s <;> cases s' <;> cases t <;> cases t' <;> rfl

theorem GCN.string_toN (g : GC) : g.toN.string = g.string := by
  unfold GCN.string GC.string
  generalize FE.string = st
  as_aux_lemma =>
    obtain ⟨s, x, y, z, t⟩ := g
    cases t <;> rfl

/-- Without nil, in the six systems, the functions with optional pointers are those of the other properties. -/
theorem C86_no_nil (g h : GC) :
    h.toN.encode = h.encode ∧ h.toN.satisfiesCurveEquation = h.satisfiesCurveEquation ∧ h.toN.string = h.string ∧
    GCN.equalsPtr (some g.toN) (some h.toN) = g.equals h :=
  ⟨GCN.encode_toN h, GCN.satisfies_toN h, GCN.string_toN h, GCN.equals_toN g h⟩

/-! ## Encode, SatisfiesCurveEquation, String -/

theorem GCN.encodeP_panic (g : GCN) : (g.encodeP = .panic ↔ ¬ g.Has3) ∧ ∀ m, g.encodeP ≠ .err m := by
  unfold GCN.encodeP GCN.Has3
  generalize FE.multiply = mul, FE.invert = inv, FE.encode = enc, FE.isNegative = neg, GC.setTopBit = top
  as_aux_lemma =>
    obtain ⟨s, x, y, z, t⟩ := g
    cases x <;> cases y <;> cases z <;> simp
    split <;> simp

theorem GCN.satisfiesP_panic (g : GCN) : (g.satisfiesP = .panic ↔ ¬ g.Has3) ∧ ∀ m, g.satisfiesP ≠ .err m := by
  unfold GCN.satisfiesP GCN.Has3
  generalize FE.multiply = mul, FE.invert = inv, FE.encode = enc, FE.square = sq, FE.add = ad, dFE = d, FE.one = o
  as_aux_lemma =>
    obtain ⟨s, x, y, z, t⟩ := g
    cases x <;> cases y <;> cases z <;> simp

/-- Conversion to P2 of an element that is in neither P2 nor P3. -/
theorem GCN.toP2_other (g : GCN) (h1 : g.sys ≠ 1) (h2 : g.sys ≠ 2) :
    (g.toCoordinateSystem 1 = .panic ∧ ¬ (g.sys = 3 ∧ g.Has4)) ∨ ((g.sys = 3 ∧ g.Has4) ∧ ∃ h, g.toCoordinateSystem 1 = .ok h ∧ h.Has3) := by
  unfold GCN.toCoordinateSystem GCN.Has4 GCN.Has3
  generalize FE.multiply = mul, FE.subtract = sub, FE.add = ad, d2FE = d
  as_aux_lemma =>
    rw [if_neg h1, if_neg h2]
    obtain ⟨s, x, y, z, t⟩ := g
    by_cases h3 : s = 3
    · subst h3
      cases x <;> cases y <;> cases z <;> cases t <;> simp [GCN.newP2]
    · left
      simp only [h3, if_false, false_and, not_false_eq_true, and_true]
      split
      · rfl
      · split <;> rfl

/-- `Encode` panics exactly unless the element is in P2 or P3 with X, Y and Z or in P1xP1 with all four coordinates; it never has an error. -/
theorem C86_encode (g : GCN) :
    (g.encode = .panic ↔ ¬ ((g.sys = 1 ∨ g.sys = 2) ∧ g.Has3 ∨ g.sys = 3 ∧ g.Has4)) ∧ ∀ m, g.encode ≠ .err m := by
  unfold GCN.encode
  have k := GCN.encodeP_panic
  have k2 := GCN.toP2_other g
  generalize GCN.encodeP = e, GCN.toCoordinateSystem = tc at k k2 ⊢
  as_aux_lemma =>
    by_cases h : g.sys = 1 ∨ g.sys = 2
    · rw [if_pos h, (k g).1]
      refine ⟨?_, (k g).2⟩
      have : g.sys ≠ 3 := by omega
      tauto
    · rw [if_neg h]
      rcases k2 (by omega) (by omega) with ⟨h2, h3⟩ | ⟨h3, p, h2, h4⟩
      · rw [h2]
        exact ⟨⟨fun _ => by tauto, fun _ => rfl⟩, nofun⟩
      · rw [h2]
        refine ⟨⟨fun hp => absurd h4 ((k p).1.1 hp), fun hp => absurd (Or.inr h3) hp⟩, (k p).2⟩

/-- `SatisfiesCurveEquation` panics in the same cases as `Encode`. -/
theorem C86_satisfies (g : GCN) :
    (g.satisfiesCurveEquation = .panic ↔ ¬ ((g.sys = 1 ∨ g.sys = 2) ∧ g.Has3 ∨ g.sys = 3 ∧ g.Has4)) ∧
    ∀ m, g.satisfiesCurveEquation ≠ .err m := by
  unfold GCN.satisfiesCurveEquation
  have k := GCN.satisfiesP_panic
  have k2 := GCN.toP2_other g
  generalize GCN.satisfiesP = e, GCN.toCoordinateSystem = tc at k k2 ⊢
  as_aux_lemma =>
    by_cases h : g.sys = 1 ∨ g.sys = 2
    · rw [if_pos h, (k g).1]
      refine ⟨?_, (k g).2⟩
      have : g.sys ≠ 3 := by omega
      tauto
    · rw [if_neg h]
      rcases k2 (by omega) (by omega) with ⟨h2, h3⟩ | ⟨h3, p, h2, h4⟩
      · rw [h2]
        exact ⟨⟨fun _ => by tauto, fun _ => rfl⟩, nofun⟩
      · rw [h2]
        refine ⟨⟨fun hp => absurd h4 ((k p).1.1 hp), fun hp => absurd (Or.inr h3) hp⟩, (k p).2⟩

/-- `String` panics exactly if one of the four coordinates is nil, whatever the system; so it panics for every P2, AFFINE and PRECOMPUTED
element the constructors make.  Otherwise it does not depend on the system. -/
theorem C86_string (g : GCN) :
    (g.string = .panic ↔ ¬ g.Has4) ∧ (∀ m, g.string ≠ .err m) ∧ ∀ s, GCN.string { g with sys := s } = g.string := by
  unfold GCN.string GCN.Has4 GCN.Has3
  generalize FE.string = st
  as_aux_lemma =>
    obtain ⟨s, x, y, z, t⟩ := g
    cases x <;> cases y <;> cases z <;> cases t <;> simp

/-! ## Equals -/

/-- A nil receiver or argument of `Equals` panics; nothing recovers it. -/
theorem C86_equals_nil (g : Option GCN) : GCN.equalsPtr none g = .panic ∧ GCN.equalsPtr g none = .panic := by
  cases g <;> exact ⟨rfl, rfl⟩

theorem GCN.same_iff (a b : Option FE) : GCN.eq a b = .ok true ↔ GCN.Same a b := by
  unfold GCN.Same
  cases a with
  | none => simp
  | some a =>
    cases b with
    | none => simp
    | some b => simp [FE.equals, isEqualConstantTime_iff]

/-- One of two pointers is nil. -/
def GCN.Nil2 (a b : Option FE) : Prop := a = none ∨ b = none

/-- When `Equals` panics: only for elements of the same system, if this is none of P2, P3, P1xP1, PRECOMPUTED, CACHED, or if a nil coordinate is
looked at.  Coordinates are compared in the order Z, X, Y, T (X, Y, Z for PRECOMPUTED) up to the first difference, except that different Z make the
code multiply all the others; for P1xP1 only the coordinates of the receiver count. -/
def GCN.EqualsPanics (r g : GCN) : Prop :=
  r.sys = g.sys ∧
   (¬ (1 ≤ r.sys ∧ r.sys ≤ 5) ∨
    (r.sys = 1 ∨ r.sys = 2) ∧
      (Nil2 r.Z g.Z ∨ Nil2 r.X g.X ∨ (Same r.Z g.Z → Same r.X g.X) ∧ Nil2 r.Y g.Y) ∨
    r.sys = 3 ∧ ¬ r.Has4 ∨
    r.sys = 4 ∧
      (Nil2 r.X g.X ∨ Same r.X g.X ∧ (Nil2 r.Y g.Y ∨ Same r.Y g.Y ∧ Nil2 r.Z g.Z)) ∨
    r.sys = 5 ∧
      (Nil2 r.Z g.Z ∨ Nil2 r.X g.X ∨ (Same r.Z g.Z → Same r.X g.X) ∧ Nil2 r.Y g.Y ∨
        (Same r.Z g.Z → Same r.X g.X ∧ Same r.Y g.Y) ∧ Nil2 r.T g.T))

/-- The three results of comparing two pointers. -/
theorem GCN.eq_cases (a b : Option FE) :
    (GCN.eq a b = .panic ∧ GCN.Nil2 a b ∧ ¬ GCN.Same a b) ∨ (GCN.eq a b = .ok true ∧ ¬ GCN.Nil2 a b ∧ GCN.Same a b) ∨
    (GCN.eq a b = .ok false ∧ ¬ GCN.Nil2 a b ∧ ¬ GCN.Same a b) := by
  have h := GCN.same_iff a b
  cases a with
  | none => left; exact ⟨rfl, Or.inl rfl, fun hs => nomatch (h.2 hs)⟩
  | some a =>
    cases b with
    | none => left; exact ⟨rfl, Or.inr rfl, fun hs => nomatch (h.2 hs)⟩
    | some b =>
      right
      have hn : ¬ GCN.Nil2 (some a) (some b) := by rintro (h | h) <;> exact nomatch h
      cases he : a.equals b with
      | true => left; exact ⟨congrArg Out.ok he, hn, h.1 (congrArg Out.ok he)⟩
      | false => 
        right
        refine ⟨congrArg Out.ok he, hn, fun hs => ?_⟩
        have h2 : a.equals b = true := Out.ok.inj (h.2 hs)
        rw [he] at h2
        exact nomatch h2

theorem GCN.equalsP_panic (r g : GCN) :
    (r.equalsP g = .panic ↔ (Nil2 r.Z g.Z ∨ Nil2 r.X g.X ∨ (Same r.Z g.Z → Same r.X g.X) ∧ Nil2 r.Y g.Y)) ∧
    (∀ m, r.equalsP g ≠ .err m) ∧ (r.equalsP g = .ok true → r.Has3 ∧ g.Has3) := by
  have hx := GCN.eq_cases r.X g.X
  have hy := GCN.eq_cases r.Y g.Y
  have hz := GCN.eq_cases r.Z g.Z
  unfold GCN.equalsP GCN.Has3
  unfold GCN.Nil2 at hx hy hz ⊢
  generalize GCN.eq = q, GCN.Same = S, FE.multiply = mul, FE.equals = eq at hx hy hz ⊢
  as_aux_lemma =>
    obtain ⟨s, x, y, z, t⟩ := r
    obtain ⟨s', x', y', z', t'⟩ := g
    dsimp only at hx hy hz ⊢
    rcases hz with ⟨z1, z2, z3⟩ | ⟨z1, z2, z3⟩ | ⟨z1, z2, z3⟩
    · rw [z1]; simp [z2]
    · rw [z1]
      simp only [not_or, ← Option.isSome_iff_ne_none] at z2
      rcases hx with ⟨x1, x2, x3⟩ | ⟨x1, x2, x3⟩ | ⟨x1, x2, x3⟩
      · rw [x1]; simp [x2]
      · rw [x1]
        simp only [not_or, ← Option.isSome_iff_ne_none] at x2
        rcases hy with ⟨y1, y2, y3⟩ | ⟨y1, y2, y3⟩ | ⟨y1, y2, y3⟩
        · rw [y1]; simp [y2, x3]
        · rw [y1]; 
          simp only [not_or, ← Option.isSome_iff_ne_none] at y2
          simp [*, Option.isSome_iff_ne_none.1]
        · rw [y1]
          simp only [not_or, ← Option.isSome_iff_ne_none] at y2
          simp [*, Option.isSome_iff_ne_none.1]
      · rw [x1]
        simp only [not_or, ← Option.isSome_iff_ne_none] at x2
        simp [*, Option.isSome_iff_ne_none.1]
    · rw [z1]
      cases z <;> cases z' <;> cases x <;> cases x' <;> cases y <;> cases y' <;> simp_all

theorem GCN.recoverFalse_total (o : Out Bool) (h : ∀ m, o ≠ .err m) :
    (∃ b, GCN.recoverFalse o = .ok b) ∧ (GCN.recoverFalse o = .ok true → o = .ok true) := by
  cases o with
  | ok b => exact ⟨⟨b, rfl⟩, fun h => h⟩
  | err m => exact absurd rfl (h m)
  | panic => exact ⟨⟨false, rfl⟩, fun h => nomatch h⟩

theorem GCN.bind_noErr {α β : Type} {o : Out α} {f : α → Out β} (h : ∀ m, o ≠ .err m) (hf : ∀ a m, f a ≠ .err m) (m : String) : (o >>= f) ≠ .err m := by
  cases o with
  | ok a => exact hf a m
  | err m => exact absurd rfl (h m)
  | panic => exact nofun

/-- What a conversion that succeeds says about its argument. -/
theorem GCN.toCS_parts (g : GCN) (n : Int) : (∀ m, g.toCoordinateSystem n ≠ .err m) ∧
    ∀ h, g.toCoordinateSystem n = .ok h → h.sys = n ∧ 1 ≤ g.sys ∧ g.sys ≤ 5 ∧ (h.Has3 → g.Has3) ∧ (n = 3 → g.sys = 3) ∧ (n = 4 → g.sys = 4) := by
  unfold GCN.toCoordinateSystem GCN.Has3
  generalize FE.multiply = mul, FE.subtract = sub, FE.add = ad, d2FE = d
  as_aux_lemma =>
    obtain ⟨s, x, y, z, t⟩ := g
    dsimp only
    by_cases h1 : s = 1
    · subst h1
      by_cases n1 : n = 1 <;> simp +contextual [n1, GCN.newP2]
    by_cases h2 : s = 2
    · subst h2
      by_cases n1 : n = 1
      · simp +contextual [n1, GCN.newP2]
      by_cases n2 : n = 2
      · simp +contextual [n2, GCN.newP3]
      by_cases n5 : n = 5
      · cases x <;> cases y <;> cases t <;> simp +contextual [n5, GCN.newCached]
      · simp +contextual [n1, n2, n5]
    by_cases h3 : s = 3
    · subst h3
      by_cases n1 : n = 1
      · cases x <;> cases y <;> cases z <;> cases t <;> simp +contextual [n1, GCN.newP2]
      by_cases n2 : n = 2
      · cases x <;> cases y <;> cases z <;> cases t <;> simp +contextual [n2, GCN.newP3]
      by_cases n5 : n = 3
      · simp +contextual [n5, GCN.newP1xP1]
      · simp +contextual [n1, n2, n5]
    by_cases h4 : s = 4
    · subst h4
      by_cases n1 : n = 4 <;> simp +contextual [n1, GCN.newPrecomputed]
    by_cases h5 : s = 5
    · subst h5
      by_cases n1 : n = 5 <;> simp +contextual [n1, GCN.newCached]
    · simp +contextual [h1, h2, h3, h4, h5]

theorem GCN.equalsToP2_total (r g : GCN) (hg : g.sys ≠ 1) :
    (∃ b, r.equalsToP2 g = .ok b) ∧ (r.equalsToP2 g = .ok true → r.Has3 ∧ g.Has3) := by
  unfold GCN.equalsToP2
  have k := GCN.equalsP_panic r
  have k2 := GCN.toCS_parts g 1
  generalize GCN.equalsP = e, GCN.toCoordinateSystem = tc at k k2 ⊢
  as_aux_lemma =>
    rw [if_pos hg]
    obtain ⟨h1, h2⟩ := GCN.recoverFalse_total (do let g' ← tc g 1; e r g') (GCN.bind_noErr k2.1 fun a => (k a).2.1)
    refine ⟨h1, fun h => ?_⟩
    have h3 := h2 h
    cases ht : tc g 1 with
    | ok g' =>
      rw [ht] at h3
      obtain ⟨a, b⟩ := (k g').2.2 h3
      exact ⟨a, (k2.2 g' ht).2.2.2.1 b⟩
    | err m => exact absurd ht (k2.1 m)
    | panic => rw [ht] at h3; exact nomatch h3

/-- The comparison after the conversion. -/
theorem GCN.equalsSame_panic (r g : GCN) (hs : r.sys = g.sys) :
    (r.equalsSame g = .panic ↔ GCN.EqualsPanics r g) ∧ (∀ m, r.equalsSame g ≠ .err m) ∧
    (r.equalsSame g = .ok true → 1 ≤ r.sys ∧ r.sys ≤ 5 ∧ r.Has3 ∧ g.Has3) := by
  have kp := GCN.equalsP_panic r g
  have k2 := fun r' => GCN.equalsToP2_total r' g
  have k3 := GCN.toP2_other r
  have k4 := GCN.toCS_parts r 1
  have hx := GCN.eq_cases r.X g.X
  have hy := GCN.eq_cases r.Y g.Y
  have hz := GCN.eq_cases r.Z g.Z
  have ht := GCN.eq_cases r.T g.T
  unfold GCN.equalsSame GCN.EqualsPanics
  rw [← hs] at k2
  generalize GCN.equalsP = e, GCN.equalsToP2 = e2, GCN.toCoordinateSystem = tc, GCN.eq = q, GCN.Same = S, FE.multiply = mul, FE.equals = eq 
    at kp k2 k3 k4 hx hy hz ht ⊢
  as_aux_lemma =>
    by_cases h12 : r.sys = 1 ∨ r.sys = 2
    · rw [if_pos h12]
      obtain ⟨k1, k2, k3⟩ := kp
      refine ⟨?_, k2, fun h => ⟨by omega, by omega, k3 h⟩⟩
      rw [k1]
      have a1 : ¬ ¬ (1 ≤ r.sys ∧ r.sys ≤ 5) := by omega
      have a2 : ¬ r.sys = 3 := by omega
      have a3 : ¬ r.sys = 4 := by omega
      have a4 : ¬ r.sys = 5 := by omega
      simp only [hs] at h12 a1 a2 a3 a4
      simp [hs, h12, a1, a2, a3, a4]
    rw [if_neg h12]
    by_cases h3 : r.sys = 3
    · rw [if_pos h3]
      rcases k3 (by omega) (by omega) with ⟨c1, c2⟩ | ⟨c1, p, c2, c3⟩
      · rw [c1]
        refine ⟨⟨fun _ => ?_, fun _ => rfl⟩, nofun, nofun⟩
        exact ⟨hs, Or.inr (Or.inr (Or.inl ⟨h3, fun h => c2 ⟨h3, h⟩⟩))⟩
      · rw [c2]
        obtain ⟨⟨b, hb⟩, k5⟩ := k2 p (by omega)
        refine ⟨⟨fun h => ?_, fun h => ?_⟩, fun m h => ?_, fun h => ⟨by omega, by omega, c1.2.1, (k5 h).2⟩⟩
        · rw [Out.ok_bind, hb] at h; exact nomatch h
        · exfalso
          rcases h with ⟨_, h | h | h | h | h⟩
          · omega
          · exact h12 h.1
          · exact h.2 c1.2
          · omega
          · omega
        · rw [Out.ok_bind, hb] at h; exact nomatch h
    rw [if_neg h3]
    by_cases h4 : r.sys = 4
    · rw [if_pos h4]
      have e1 : g.sys = 4 := by omega
      unfold GCN.Nil2 at hx hy hz ht ⊢
      unfold GCN.Has3
      simp only [h4, e1]
      obtain ⟨s, x, y, z, t⟩ := r
      obtain ⟨s', x', y', z', t'⟩ := g
      dsimp only at hx hy hz ⊢
      rcases hx with ⟨x1, x2, x3⟩ | ⟨x1, x2, x3⟩ | ⟨x1, x2, x3⟩
      · rw [x1]; simp [x2]
      · rw [x1]
        simp only [not_or, ← Option.isSome_iff_ne_none] at x2
        rcases hy with ⟨y1, y2, y3⟩ | ⟨y1, y2, y3⟩ | ⟨y1, y2, y3⟩
        · rw [y1]; simp [y2, x3]
        · rw [y1]
          simp only [not_or, ← Option.isSome_iff_ne_none] at y2
          rcases hz with ⟨z1, z2, z3⟩ | ⟨z1, z2, z3⟩ | ⟨z1, z2, z3⟩
          · rw [z1]; simp [y3, z2, x3]
          · rw [z1]; 
            simp only [not_or, ← Option.isSome_iff_ne_none] at z2
            simp [*, Option.isSome_iff_ne_none.1]
          · rw [z1]
            simp only [not_or, ← Option.isSome_iff_ne_none] at z2
            simp [*, Option.isSome_iff_ne_none.1]
        · rw [y1]
          simp only [not_or, ← Option.isSome_iff_ne_none] at y2
          simp [*, Option.isSome_iff_ne_none.1]
      · rw [x1]
        simp only [not_or, ← Option.isSome_iff_ne_none] at x2
        simp [*, Option.isSome_iff_ne_none.1]
    rw [if_neg h4]
    by_cases h5 : r.sys = 5
    · rw [if_pos h5]
      have e1 : g.sys = 5 := by omega
      unfold GCN.Nil2 at hx hy hz ht ⊢
      unfold GCN.Has3
      simp only [h5, e1]
      obtain ⟨s, x, y, z, t⟩ := r
      obtain ⟨s', x', y', z', t'⟩ := g
      dsimp only at hx hy hz ht ⊢
      rcases hz with ⟨z1, z2, z3⟩ | ⟨z1, z2, z3⟩ | ⟨z1, z2, z3⟩
      · rw [z1]; simp [z2]
      · rw [z1]
        simp only [not_or, ← Option.isSome_iff_ne_none] at z2
        rcases hx with ⟨x1, x2, x3⟩ | ⟨x1, x2, x3⟩ | ⟨x1, x2, x3⟩
        · rw [x1]; simp [x2]
        · rw [x1]
          simp only [not_or, ← Option.isSome_iff_ne_none] at x2
          rcases hy with ⟨y1, y2, y3⟩ | ⟨y1, y2, y3⟩ | ⟨y1, y2, y3⟩
          · rw [y1]; simp [y2, x3]
          · rw [y1]
            simp only [not_or, ← Option.isSome_iff_ne_none] at y2
            rcases ht with ⟨t1, t2, t3⟩ | ⟨t1, t2, t3⟩ | ⟨t1, t2, t3⟩
            · rw [t1]; simp [y3, t2, x3]
            · rw [t1]
              simp only [not_or, ← Option.isSome_iff_ne_none] at t2
              simp [*, Option.isSome_iff_ne_none.1]
            · rw [t1]
              simp only [not_or, ← Option.isSome_iff_ne_none] at t2
              simp [*, Option.isSome_iff_ne_none.1]
          · rw [y1]
            simp only [not_or, ← Option.isSome_iff_ne_none] at y2
            simp [*, Option.isSome_iff_ne_none.1]
        · rw [x1]
          simp only [not_or, ← Option.isSome_iff_ne_none] at x2
          simp [*, Option.isSome_iff_ne_none.1]
      · rw [z1]
        have z4 : z.isSome ∧ z'.isSome := by simpa only [not_or, ← Option.isSome_iff_ne_none] using z2
        obtain ⟨a, rfl⟩ := Option.isSome_iff_exists.1 z4.1
        obtain ⟨a', rfl⟩ := Option.isSome_iff_exists.1 z4.2
        clear hx hy ht kp k2 k3 k4 z4 z2
        cases x <;> cases x' <;> cases y <;> cases y' <;> cases t <;> cases t' <;> simp [z3]
    · rw [if_neg h5]
      refine ⟨⟨fun _ => ⟨hs, Or.inl (by omega)⟩, fun _ => rfl⟩, nofun, nofun⟩

/-- `Equals` of two non-nil elements panics exactly in the cases of `EqualsPanics`, and has no other abnormal end; for different systems it
always returns a result. -/
theorem C86_equals_panics_iff (r g : GCN) :
    (GCN.equalsPtr (some r) (some g) = .panic ↔ GCN.EqualsPanics r g) ∧ (∀ m, GCN.equalsPtr (some r) (some g) ≠ .err m) ∧
    (r.sys ≠ g.sys → ∃ b, GCN.equalsPtr (some r) (some g) = .ok b) := by
  have k := GCN.equalsSame_panic r
  have k2 := GCN.toCS_parts g r.sys
  have hE : GCN.EqualsPanics r g → r.sys = g.sys := fun h => h.1
  show (GCN.equals r g = .panic ↔ _) ∧ (∀ m, GCN.equals r g ≠ .err m) ∧ (r.sys ≠ g.sys → ∃ b, GCN.equals r g = .ok b)
  unfold GCN.equals
  generalize GCN.equalsSame = e, GCN.toCoordinateSystem = tc, GCN.EqualsPanics = Q at k k2 hE ⊢
  as_aux_lemma =>
    by_cases hs : r.sys ≠ g.sys
    · rw [if_pos hs]
      have hne : ∀ m, (do let g' ← tc g r.sys; e r g') ≠ Out.err m := by
        intro m
        cases ht : tc g r.sys with
        | ok g' => exact (k g' (k2.2 g' ht).1.symm).2.1 m
        | err m => exact absurd ht (k2.1 m)
        | panic => exact nofun
      obtain ⟨⟨b, hb⟩, _⟩ := GCN.recoverFalse_total _ hne
      rw [hb]
      exact ⟨⟨nofun, fun h => absurd (hE h) hs⟩, nofun, fun _ => ⟨b, rfl⟩⟩
    · rw [if_neg hs]
      have h := k g (not_not.1 hs)
      exact ⟨h.1, h.2.1, fun h => absurd h hs⟩

/-- `Equals` says true only of two elements without nil X, Y, Z in known systems; then its answer is that of C38. -/
theorem C86_equals_true (r g : GCN) (h : GCN.equalsPtr (some r) (some g) = .ok true) :
    ∃ r' g' : GC, r = r'.toN ∧ g = g'.toN ∧ r'.equals g' = .ok true := by
  have hp : (1 ≤ r.sys ∧ r.sys ≤ 5 ∧ r.Has3) ∧ (1 ≤ g.sys ∧ g.sys ≤ 5 ∧ g.Has3) := by
    have k := GCN.equalsSame_panic r
    have k2 := GCN.toCS_parts g r.sys
    change GCN.equals r g = .ok true at h
    unfold GCN.equals at h
    generalize GCN.equalsSame = e, GCN.toCoordinateSystem = tc at k k2 h
    as_aux_lemma =>
      by_cases hs : r.sys ≠ g.sys
      · rw [if_pos hs] at h
        cases ht : tc g r.sys with
        | ok g' =>
          rw [ht, Out.ok_bind] at h
          have hk := k g' (k2.2 g' ht).1.symm
          have h' := (GCN.recoverFalse_total _ hk.2.1).2 h
          obtain ⟨a, b, c, d⟩ := hk.2.2 h'
          obtain ⟨p1, p2, p3, p4, p5⟩ := k2.2 g' ht
          exact ⟨⟨a, b, c⟩, p2, p3, p4 d⟩
        | err m => exact absurd ht (k2.1 m)
        | panic => rw [ht] at h; exact nomatch h
      · rw [if_neg hs] at h
        have hs' := not_not.1 hs
        obtain ⟨a, b, c, d⟩ := (k g hs').2.2 h
        exact ⟨⟨a, b, c⟩, by omega, by omega, d⟩
  obtain ⟨⟨a1, a2, a3⟩, b1, b2, b3⟩ := hp
  have ha : GCN.Known r.sys := by unfold GCN.Known; omega
  have hb : GCN.Known g.sys := by unfold GCN.Known; omega
  obtain ⟨r', hr⟩ := (C86_complete r).1 ⟨a3, ha⟩
  obtain ⟨g', hg⟩ := (C86_complete g).1 ⟨b3, hb⟩
  refine ⟨r', g', hr, hg, ?_⟩
  rw [hr, hg] at h
  exact (GCN.equals_toN r' g').symm.trans h

/-! ## C87: what a precomputation leaves behind -/

/-- In P3 with all four coordinates. -/
def GCN.Full (g : GCN) : Prop := g.sys = 2 ∧ g.Has4

/-- The element of the other properties behind a full one. -/
theorem GCN.Full.gc {g : GCN} (h : g.Full) : ∃ (v : GC) (t : FE), g = v.toN ∧ v.sys = .p3 ∧ v.T = some t := by
  obtain ⟨s, x, y, z, t⟩ := g
  obtain ⟨hs, ⟨hx, hy, hz⟩, ht⟩ := h
  obtain ⟨x, rfl⟩ := Option.isSome_iff_exists.1 hx
  obtain ⟨y, rfl⟩ := Option.isSome_iff_exists.1 hy
  obtain ⟨z, rfl⟩ := Option.isSome_iff_exists.1 hz
  obtain ⟨t, rfl⟩ := Option.isSome_iff_exists.1 ht
  simp only at hs; subst hs
  exact ⟨⟨.p3, x, y, z, some t⟩, t, rfl, rfl, rfl⟩

theorem GCN.precEntry_toN (g : GC) : g.toN.precEntry = .ok g.precEntry := by
  unfold GCN.precEntry GC.precEntry
  generalize FE.multiply = mul, FE.invert = inv, FE.subtract = sub, FE.add = ad, d2FE = d
  as_aux_lemma =>
    rfl

theorem GCN.precEntry_panic (g : GCN) (h : ¬ g.Has3) : g.precEntry = .panic := by
  unfold GCN.Has3 at h
  unfold GCN.precEntry
  generalize FE.multiply = mul, FE.invert = inv, FE.subtract = sub, FE.add = ad, d2FE = d
  as_aux_lemma =>
    obtain ⟨s, x, y, z, t⟩ := g
    cases x <;> cases y <;> cases z <;> first | rfl | exact absurd ⟨rfl, rfl, rfl⟩ h

/-- Adding two full elements. -/
theorem GC.addP3_full {a b : GC} {ta tb : FE} (ha : a.sys = .p3) (hat : a.T = some ta) (hb : b.sys = .p3) (hbt : b.T = some tb) :
    ∃ (c : GC) (t : FE), a.addP3 b = .ok c ∧ a.toN.addP3 b.toN = .ok c.toN ∧ c.sys = .p3 ∧ c.T = some t := by
  obtain ⟨s, x, y, z, t⟩ := a
  obtain ⟨s', x', y', z', t'⟩ := b
  simp only at ha hat hb hbt
  subst ha hat hb hbt
  unfold GC.addP3 GCN.addP3 GC.toCached GC.toP3 GC.toCoordinateSystem GCN.toCoordinateSystem GC.add GCN.add
  generalize FE.multiply = mul, FE.subtract = sub, FE.add = ad, d2FE = d
  as_aux_lemma =>
    exact ⟨_, _, rfl, rfl, rfl, rfl⟩

/-- Adding an element to itself is not possible unless it is full. -/
theorem GCN.addP3_panic (g : GCN) (h : ¬ g.Full) (r : GCN) (hr : r = g) : r.addP3 g = .panic := by
  subst hr
  unfold GCN.Full GCN.Has4 GCN.Has3 at h
  unfold GCN.addP3 GCN.toCoordinateSystem GCN.add
  generalize FE.multiply = mul, FE.subtract = sub, FE.add = ad, d2FE = d
  as_aux_lemma =>
    obtain ⟨s, x, y, z, t⟩ := r
    by_cases h1 : s = 1
    · subst h1; rfl
    by_cases h2 : s = 2
    · subst h2
      cases x <;> cases y <;> cases z <;> cases t <;> first | rfl | exact absurd ⟨rfl, ⟨rfl, rfl, rfl⟩, rfl⟩ h
    by_cases h3 : s = 3
    · subst h3; rfl
    by_cases h4 : s = 4
    · subst h4; rfl
    by_cases h5 : s = 5
    · subst h5; rfl
    · simp [h1, h2, h3, h4, h5]

theorem GCN.fillRow_full {bi : GC} {ti : FE} (hs : bi.sys = .p3) (ht : bi.T = some ti) :
    ∀ (n : ℕ) (b : GC) (t : FE), b.sys = .p3 → b.T = some t →
      ∃ row, GC.precRow bi n b = .ok row ∧ GCN.fillRow bi.toN n b.toN = (row.map some, .ok ())
  | 0, _, _, _, _ => ⟨[], rfl, rfl⟩
  | n + 1, b, t, hb, hbt => by
      obtain ⟨c, tc, c1, c2, c3, c4⟩ := GC.addP3_full hb hbt hs ht
      obtain ⟨row, r1, r2⟩ := GCN.fillRow_full hs ht n c tc c3 c4
      refine ⟨b.precEntry :: row, ?_, ?_⟩
      · rw [GC.precRow, c1, Out.ok_bind, r1, Out.ok_bind]
      · rw [GCN.fillRow, GCN.precEntry_toN, c2]
        dsimp only
        rw [r2]
        rfl

theorem GCN.doubleN_full : ∀ (n : ℕ) (b : GC) (t : FE), b.sys = .p3 → b.T = some t →
      ∃ (c : GC) (t : FE), GC.doubleN n b = .ok c ∧ GCN.doubleN n b.toN = .ok c.toN ∧ c.sys = .p3 ∧ c.T = some t
  | 0, b, t, hb, hbt => ⟨b, t, rfl, rfl, hb, hbt⟩
  | n + 1, b, t, hb, hbt => by
      obtain ⟨c, tc, c1, c2, c3, c4⟩ := GC.addP3_full hb hbt hb hbt
      obtain ⟨e, te, e1, e2, e3, e4⟩ := GCN.doubleN_full n c tc c3 c4
      exact ⟨e, te, by rw [GC.doubleN, c1, Out.ok_bind, e1], by rw [GCN.doubleN, c2, Out.ok_bind, e2], e3, e4⟩

theorem GCN.fillRows_full : ∀ (n : ℕ) (b : GC) (t : FE), b.sys = .p3 → b.T = some t →
      ∃ rows, GC.precRows n b = .ok rows ∧ GCN.fillRows n b.toN = (rows.map (List.map some), .ok ())
  | 0, _, _, _, _ => ⟨[], rfl, rfl⟩
  | n + 1, b, t, hb, hbt => by
      obtain ⟨row, r1, r2⟩ := GCN.fillRow_full hb hbt 8 b t hb hbt
      obtain ⟨c, tc, c1, c2, c3, c4⟩ := GCN.doubleN_full 8 b t hb hbt
      obtain ⟨rows, s1, s2⟩ := GCN.fillRows_full n c tc c3 c4
      refine ⟨row :: rows, ?_, ?_⟩
      · rw [GC.precRows, r1, Out.ok_bind, c1, Out.ok_bind, s1, Out.ok_bind]
      · rw [GCN.fillRows, r2, c2]
        dsimp only
        rw [s2]
        rfl

theorem GCN.fillOdd_full {r : GC} {tr : FE} (hs : r.sys = .p3) (ht : r.T = some tr) :
    ∀ (n : ℕ) (b : GC) (t : FE), b.sys = .p3 → b.T = some t →
      ∃ row, GC.precOdd r n b = .ok row ∧ GCN.fillOdd r.toN n b.toN = (row.map some, .ok ())
  | 0, _, _, _, _ => ⟨[], rfl, rfl⟩
  | n + 1, b, t, hb, hbt => by
      obtain ⟨c, tc, c1, c2, c3, c4⟩ := GC.addP3_full hs ht hb hbt
      obtain ⟨d, td, d1, d2, d3, d4⟩ := GC.addP3_full hs ht c3 c4
      obtain ⟨row, r1, r2⟩ := GCN.fillOdd_full hs ht n d td d3 d4
      refine ⟨b.precEntry :: row, ?_, ?_⟩
      · rw [GC.precOdd, c1, Out.ok_bind, d1, Out.ok_bind, r1, Out.ok_bind]
      · rw [GCN.fillOdd, GCN.precEntry_toN, c2, Out.ok_bind, d2]
        dsimp only
        rw [r2]
        rfl

/-- Full elements: both precomputations return and leave the tables of C41 and C42, without nil, and nothing else changes; `Select` reads them as in C41. -/
theorem C87_full (g : GEN) (hg : g.sys = 2 ∧ g.toGCN.Has4) :
    ∃ v : GC, g.toGCN = v.toN ∧
      (g.single = none → ∃ t, GC.precRows 32 v = .ok t ∧
        g.precomputeForScalarMultiplication = ({ g with single := some (t.map (List.map some)) }, .ok ())) ∧
      (g.double = none ∨ g.double = some [] → ∃ t, GC.precOdd v 8 v = .ok t ∧
        g.precomputeForDoubleScalarMultiplication = ({ g with double := some (t.map some) }, .ok ())) := by
  obtain ⟨v, t, h1, h2, h3⟩ := GCN.Full.gc hg
  refine ⟨v, h1, fun h => ?_, fun h => ?_⟩
  · obtain ⟨rows, r1, r2⟩ := GCN.fillRows_full 32 v t h2 h3
    refine ⟨rows, r1, ?_⟩
    unfold GEN.precomputeForScalarMultiplication
    rw [h, h1, r2]
  · obtain ⟨row, r1, r2⟩ := GCN.fillOdd_full h2 h3 8 v t h2 h3
    refine ⟨row, r1, ?_⟩
    unfold GEN.precomputeForDoubleScalarMultiplication
    rw [if_neg (by rcases h with h | h <;> rw [h] <;> simp), h1, r2]

/-- The first cell of a broken table: the entry for the element itself if it has X, Y and Z, else nil. -/
def GCN.FirstCell (g : GCN) (c : Option GC) : Prop :=
  (∃ x y z, g.X = some x ∧ g.Y = some y ∧ g.Z = some z ∧ c = some (GC.precEntry ⟨.p2, x, y, z, none⟩)) ∨ (¬ g.Has3 ∧ c = none)

theorem GCN.firstCell_cases (g : GCN) : ∃ c, g.FirstCell c ∧ ((g.precEntry = .panic ∧ c = none) ∨ ∃ e, g.precEntry = .ok e ∧ c = some e) := by
  by_cases h : g.Has3
  · have h0 := h
    obtain ⟨hx, hy, hz⟩ := h
    obtain ⟨x, hx⟩ := Option.isSome_iff_exists.1 hx
    obtain ⟨y, hy⟩ := Option.isSome_iff_exists.1 hy
    obtain ⟨z, hz⟩ := Option.isSome_iff_exists.1 hz
    refine ⟨_, Or.inl ⟨x, y, z, hx, hy, hz, rfl⟩, Or.inr ⟨_, ?_, rfl⟩⟩
    have e := GCN.precEntry_toN ⟨.p2, x, y, z, none⟩
    unfold GC.toN at e
    rw [← e]
    unfold GCN.precEntry
    rw [hx, hy, hz]
  · exact ⟨none, Or.inr ⟨h, rfl⟩, Or.inl ⟨GCN.precEntry_panic g h, rfl⟩⟩

/-- Any other element without the table: `PrecomputeForScalarMultiplication` panics and leaves a table of 32 rows, of which only the first exists, and in it
at most the first cell. -/
theorem C87_scalar_panics (g : GEN) (h : g.single = none) (hg : ¬ (g.sys = 2 ∧ g.toGCN.Has4)) :
    ∃ c, g.toGCN.FirstCell c ∧ g.precomputeForScalarMultiplication =
      ({ g with single := some ((c :: List.replicate 7 none) :: List.replicate 31 []) }, .panic) := by
  obtain ⟨c, hc, hp⟩ := GCN.firstCell_cases g.toGCN
  refine ⟨c, hc, ?_⟩
  have ha := GCN.addP3_panic g.toGCN hg g.toGCN rfl
  have hr : GCN.fillRow g.toGCN 8 g.toGCN = (c :: List.replicate 7 none, .panic) := by
    rw [GCN.fillRow]
    rcases hp with ⟨p, rfl⟩ | ⟨e, p, rfl⟩
    · rw [p]; rfl
    · rw [p, ha]
  have hrs : GCN.fillRows 32 g.toGCN = ((c :: List.replicate 7 none) :: List.replicate 31 [], .panic) := by
    rw [GCN.fillRows, hr]
  unfold GEN.precomputeForScalarMultiplication
  rw [h, hrs]

/-- The same for `PrecomputeForDoubleScalarMultiplication`: a table of 8 cells, at most the first not nil. -/
theorem C87_double_panics (g : GEN) (h : g.double = none ∨ g.double = some []) (hg : ¬ (g.sys = 2 ∧ g.toGCN.Has4)) :
    ∃ c, g.toGCN.FirstCell c ∧ g.precomputeForDoubleScalarMultiplication =
      ({ g with double := some (c :: List.replicate 7 none) }, .panic) := by
  obtain ⟨c, hc, hp⟩ := GCN.firstCell_cases g.toGCN
  refine ⟨c, hc, ?_⟩
  have ha := GCN.addP3_panic g.toGCN hg g.toGCN rfl
  have hr : GCN.fillOdd g.toGCN 8 g.toGCN = (c :: List.replicate 7 none, .panic) := by
    rw [GCN.fillOdd]
    rcases hp with ⟨p, rfl⟩ | ⟨e, p, rfl⟩
    · rw [p]; rfl
    · rw [p, ha]; rfl
  unfold GEN.precomputeForDoubleScalarMultiplication
  rw [if_neg (by rcases h with h | h <;> rw [h] <;> simp), hr]

/-- After a call, whether it returned or panicked, the element counts as precomputed and calling again returns and changes nothing: a broken table is
never repaired. -/
theorem C87_never_repaired (g : GEN) :
    g.precomputeForScalarMultiplication.1.precomputeForScalarMultiplication = (g.precomputeForScalarMultiplication.1, .ok ()) ∧
    g.precomputeForDoubleScalarMultiplication.1.precomputeForDoubleScalarMultiplication = (g.precomputeForDoubleScalarMultiplication.1, .ok ()) ∧
    g.precomputeForDoubleScalarMultiplication.1.isPrecomputedForDouble = true := by
  have k : ∀ (r b : GCN), 0 < (GCN.fillOdd r 8 b).1.length := by
    intro r b
    rw [GCN.fillOdd]
    split
    · split <;> simp
    · simp
  refine ⟨?_, ?_, ?_⟩
  · unfold GEN.precomputeForScalarMultiplication
    cases hs : g.single with
    | some t => simp only [hs]
    | none => rfl
  · unfold GEN.precomputeForDoubleScalarMultiplication
    by_cases hd : (g.double.getD []).length > 0
    · simp only [if_pos hd]
    · simp only [if_neg hd]
      rw [if_pos]
      exact k g.toGCN g.toGCN
  · unfold GEN.precomputeForDoubleScalarMultiplication GEN.isPrecomputedForDouble
    by_cases hd : (g.double.getD []).length > 0
    · rw [if_pos hd]
      cases h : g.double with
      | none => rw [h] at hd; simp at hd
      | some t => rfl
    · rw [if_neg hd]; rfl

/-! ## Select on the tables -/

theorem GEN.cmovN_one (t : GC) (u : GC) : GEN.cmovN t (some u) 1 = .ok u := by unfold GEN.cmovN; rw [if_pos rfl]
theorem GEN.cmovN_nil (t : GC) : GEN.cmovN t none 1 = .err "get nil object - don't work " := by unfold GEN.cmovN; rw [if_pos rfl]
theorem GEN.cmovN_zero (t : GC) (el : Option GC) : GEN.cmovN t el 0 = .ok t := by unfold GEN.cmovN; rw [if_neg (by decide), if_pos rfl]

theorem GEN.selectLoop_map (bAbs : Int64) : ∀ (row : List GC) (i : ℕ) (t : GC), GEN.selectLoop bAbs (row.map some) i t = GE.selectLoop bAbs row i t
  | [], _, _ => rfl
  | el :: row, i, t => by
      rw [List.map_cons, GEN.selectLoop, GE.selectLoop, isConstantTimeByteEq_eq]
      split
      · rw [GEN.cmovN_one, GC.cmov_one]; exact GEN.selectLoop_map bAbs row (i + 1) el
      · rw [GEN.cmovN_zero, GC.cmov_zero]; exact GEN.selectLoop_map bAbs row (i + 1) t

/-- On a table without nil cells `Select` is that of C41. -/
theorem C87_select_full (g : GEN) (h : GE) (t : List (List GC)) (hg : g.single = some (t.map (List.map some))) (hh : h.single = some t)
    (pos : ℕ) (b : Int64) : g.select pos b = h.select pos b := by
  unfold GEN.select GE.select
  rw [hg, hh]
  dsimp only [Option.getD]
  have hi : Out.index (t.map (List.map some)) pos = (Out.index t pos).map (List.map some) := by
    unfold Out.index
    rw [List.getElem?_map]
    cases t[pos]? <;> rfl
  rw [hi]
  cases Out.index t pos with
  | ok row => show (GEN.selectLoop _ (row.map some) _ _ >>= _) = _; rw [GEN.selectLoop_map]; rfl
  | err m => rfl
  | panic => rfl

theorem GEN.selectLoop_broken (bAbs : Int64) (m : ℕ) (hm : m ≤ 128) (hb : bAbs.toInt = (m : ℤ)) :
    ∀ (n i : ℕ) (t : GC), i + n < 256 → GEN.selectLoop bAbs (List.replicate n none) i t =
      if i + 1 ≤ m ∧ m ≤ i + n then .err "get nil object - don't work " else .ok t
  | 0, i, t, _ => by rw [if_neg (by omega)]; rfl
  | n + 1, i, t, hi => by
      rw [List.replicate_succ, GEN.selectLoop, isConstantTimeByteEq_eq, hb]
      have hf : (Int64.ofInt ((i : ℤ) + 1)).toInt = (i : ℤ) + 1 := toInt_ofInt_of_fits ⟨by omega, by omega⟩
      rw [hf]
      by_cases h : m = i + 1
      · rw [if_pos (by omega), GEN.cmovN_nil, if_pos (by omega)]; rfl
      · rw [if_neg (by omega), GEN.cmovN_zero, Out.ok_bind, GEN.selectLoop_broken bAbs m hm hb n (i + 1) t (by omega)]
        by_cases h2 : i + 1 + 1 ≤ m ∧ m ≤ i + 1 + n
        · rw [if_pos h2, if_pos (by omega)]
        · rw [if_neg h2, if_neg (by omega)]

/-- `Select` on the table that a panic left: without error it gives the neutral element in every row but the first, for every digit; in the first row the digits
2, ..., 8 and their negatives give an error, as do 1 and -1 if the first cell is nil; otherwise 1 gives the first cell. -/
theorem C87_select_broken (g : GEN) (c : Option GC) (hg : g.single = some ((c :: List.replicate 7 none) :: List.replicate 31 []))
    (b : Int64) (hb : -128 ≤ b.toInt ∧ b.toInt < 128) :
    (∀ pos, 1 ≤ pos → pos < 32 → ∃ r, g.select pos b = .ok r ∧ r.sys = .precomputed ∧ r.Repr 0) ∧
    (2 ≤ |b.toInt| → |b.toInt| ≤ 8 → g.select 0 b = .err "get nil object - don't work ") ∧
    (|b.toInt| = 1 → c = none → g.select 0 b = .err "get nil object - don't work ") ∧
    (∀ e, b.toInt = 1 → c = some e → g.select 0 b = .ok e) ∧
    (∀ e, b.toInt = -1 → c = some e → g.select 0 b = .ok (GC.newPrecomputed e.Y e.X e.Z.negate)) ∧
    (b.toInt = 0 ∨ 8 < |b.toInt| → ∃ r, g.select 0 b = .ok r ∧ r.sys = .precomputed ∧ r.Repr 0) := by
  obtain ⟨m, hm⟩ := Int.eq_ofNat_of_zero_le (abs_nonneg b.toInt)
  have hm128 : m ≤ 128 := by
    have : |b.toInt| ≤ 128 := abs_le.2 ⟨by omega, by omega⟩
    omega
  have habs : (b - shl ((-(isNegativeConstantTime b)) &&& b) 1).toInt = (m : ℤ) := by
    rw [isNegativeConstantTime_eq, GE.abs_digit b hb, hm]
  have hneg := isNegativeConstantTime_eq b
  have hzero : ∃ r, GC.cmov .zeroPrecomputed (GC.newPrecomputed GC.zeroPrecomputed.Y GC.zeroPrecomputed.X GC.zeroPrecomputed.Z.negate)
      (isNegativeConstantTime b) = .ok r ∧ r.sys = .precomputed ∧ r.Repr 0 := by
    rw [hneg]
    split
    · rw [GC.cmov_one]
      refine ⟨_, rfl, rfl, ?_⟩
      have := GC.neg_precomputed (g := .zeroPrecomputed) rfl GC.zeroPrecomputed_repr
      rwa [neg_zero] at this
    · rw [GC.cmov_zero]
      exact ⟨_, rfl, rfl, GC.zeroPrecomputed_repr⟩
  have hsel : ∀ pos row, ((c :: List.replicate 7 none) :: List.replicate 31 [])[pos]? = some row →
      g.select pos b = (GEN.selectLoop (b - shl ((-(isNegativeConstantTime b)) &&& b) 1) row 0 .zeroPrecomputed >>= fun t =>
        t.cmov (GC.newPrecomputed t.Y t.X t.Z.negate) (isNegativeConstantTime b)) := by
    intro pos row hr
    unfold GEN.select
    rw [hg]
    dsimp only [Option.getD]
    have hi : Out.index ((c :: List.replicate 7 none) :: List.replicate 31 []) pos = .ok row := by unfold Out.index; rw [hr]; rfl
    rw [hi, Out.ok_bind]
  have hrow : ∀ t, GEN.selectLoop (b - shl ((-(isNegativeConstantTime b)) &&& b) 1) (List.replicate 7 none) 1 t =
      if 2 ≤ m ∧ m ≤ 8 then .err "get nil object - don't work " else .ok t := fun t => GEN.selectLoop_broken _ m hm128 habs 7 1 t (by omega)
  have h1 : (Int64.ofInt (((0 : ℕ) : ℤ) + 1)).toInt = 1 := by decide
  have h0 : g.select 0 b = _ := hsel 0 _ rfl
  rw [GEN.selectLoop, isConstantTimeByteEq_eq, habs, h1] at h0
  refine ⟨fun pos p1 p2 => ?_, fun a1 a2 => ?_, fun a1 a2 => ?_, fun e a1 a2 => ?_, fun e a1 a2 => ?_, fun a1 => ?_⟩
  · have hr : ((c :: List.replicate 7 none) :: List.replicate 31 ([] : List (Option GC)))[pos]? = some [] := by
      obtain ⟨k, rfl⟩ : ∃ k, pos = k + 1 := ⟨pos - 1, by omega⟩
      rw [List.getElem?_cons_succ, List.getElem?_replicate, if_pos (by omega)]
    rw [hsel pos _ hr]
    exact hzero
  · rw [h0, if_neg (by omega), GEN.cmovN_zero, Out.ok_bind, hrow, if_pos (by omega)]; rfl
  · rw [h0, if_pos (by omega), a2, GEN.cmovN_nil]; rfl
  · rw [a1] at hm
    have : m = 1 := by rw [abs_one] at hm; omega
    rw [h0, if_pos (by omega), a2, GEN.cmovN_one, Out.ok_bind, hrow, if_neg (by omega), Out.ok_bind, hneg, if_neg (by omega), GC.cmov_zero]
  · rw [a1] at hm
    have : m = 1 := by rw [abs_neg, abs_one] at hm; omega
    rw [h0, if_pos (by omega), a2, GEN.cmovN_one, Out.ok_bind, hrow, if_neg (by omega), Out.ok_bind, hneg, if_pos (by omega), GC.cmov_one]
  · have hm' : m = 0 ∨ 8 < m := by
      rcases a1 with a | a
      · left; rw [a, abs_zero] at hm; omega
      · right; omega
    rw [h0, if_neg (by omega), GEN.cmovN_zero, Out.ok_bind, hrow, if_neg (by omega), Out.ok_bind]
    exact hzero

/-- If the element is in P2 and represents q, the first cell is the table entry for q; so with the broken table `Select(0, 1)` is still right, and every other row
silently counts as zero. -/
theorem C87_first_cell (g : GCN) (v : GC) (q : Pt) (hg : g = v.toN) (hs : v.sys = .p2) (hv : v.Repr q) (c : Option GC) (hc : g.FirstCell c) :
    ∃ e, c = some e ∧ e.sys = .precomputed ∧ e.Repr q := by
  subst hg
  rcases hc with ⟨x, y, z, hx, hy, hz, rfl⟩ | ⟨h, -⟩
  · cases hx; cases hy; cases hz
    refine ⟨_, rfl, rfl, ?_⟩
    have h2 : GC.Repr (GC.mk .p2 v.X v.Y v.Z none) q := by
      unfold GC.Repr at hv ⊢
      rw [hs] at hv
      exact hv
    exact (GC.precEntry_repr2 (Or.inl rfl) h2).2
  · exact absurd ⟨rfl, rfl, rfl⟩ h

/-! ## Cases that meet the hypotheses -/

/-- C86: a P3 element without T is encoded but not printed; a P1xP1 element without T and one in system 7 are not encoded; comparing P3 with system 7 is false,
system 7 with itself panics; P1xP1 elements: nil in the receiver panics, nil in the argument is false. -/
example (x y z t : FE) :
    (GCN.newP3 (some x) (some y) (some z) none).encode ≠ .panic ∧ (GCN.newP3 (some x) (some y) (some z) none).string = .panic ∧
    (GCN.newP1xP1 (some x) (some y) (some z) none).encode = .panic ∧ (GCN.mk 7 (some x) (some y) (some z) (some t)).encode = .panic ∧
    GCN.equalsPtr (some (GCN.newP3 (some x) (some y) (some z) (some t))) (some ⟨7, none, none, none, none⟩) = .ok false ∧
    GCN.equalsPtr (some ⟨7, some x, some y, some z, some t⟩) (some ⟨7, some x, some y, some z, some t⟩) = .panic ∧
    GCN.equalsPtr (some (GCN.newP1xP1 none (some y) (some z) (some t))) (some (GCN.newP1xP1 (some x) (some y) (some z) (some t))) = .panic ∧
    ∃ b, GCN.equalsPtr (some (GCN.newP1xP1 (some x) (some y) (some z) (some t))) (some (GCN.newP1xP1 none (some y) (some z) (some t))) = .ok b := by
  refine ⟨fun h => (C86_encode _).1.1 h ?_, ?_, ?_, ?_, rfl, ?_, ?_, ?_⟩
  · exact Or.inl ⟨Or.inr rfl, rfl, rfl, rfl⟩
  · exact (C86_string _).1.2 fun h => nomatch h.2
  · refine (C86_encode _).1.2 ?_
    rintro (⟨h | h, -⟩ | ⟨-, h⟩)
    · exact absurd h (by simp [GCN.newP1xP1, GEN.new])
    · exact absurd h (by simp [GCN.newP1xP1, GEN.new])
    · exact nomatch h.2
  · refine (C86_encode _).1.2 ?_
    rintro (⟨h | h, -⟩ | ⟨h, -⟩) <;> exact absurd h (by simp [GCN.newP1xP1, GEN.new])
  · exact (C86_equals_panics_iff _ _).1.2 ⟨rfl, Or.inl (by simp [GCN.newP1xP1, GEN.new])⟩
  · exact (C86_equals_panics_iff _ _).1.2 ⟨rfl, Or.inr (Or.inr (Or.inl ⟨rfl, fun h => nomatch h.1.1⟩))⟩
  · have h1 := (C86_equals_panics_iff (GCN.newP1xP1 (some x) (some y) (some z) (some t)) (GCN.newP1xP1 none (some y) (some z) (some t)))
    cases h : GCN.equalsPtr (some (GCN.newP1xP1 (some x) (some y) (some z) (some t))) (some (GCN.newP1xP1 none (some y) (some z) (some t))) with
    | ok b => exact ⟨b, rfl⟩
    | err m => exact absurd h (h1.2.1 m)
    | panic =>
      exfalso
      obtain ⟨-, h | h | h | h | h⟩ := h1.1.1 h
      · exact h (by simp [GCN.newP1xP1, GEN.new])
      · rcases h.1 with h | h <;> exact absurd h (by simp [GCN.newP1xP1, GEN.new])
      · exact h.2 ⟨⟨rfl, rfl, rfl⟩, rfl⟩
      · exact absurd h.1 (by simp [GCN.newP1xP1, GEN.new])
      · exact absurd h.1 (by simp [GCN.newP1xP1, GEN.new])

/-- C87: the neutral element in P2 meets the hypotheses of the panic theorems and of `C87_first_cell`, in P3 those of `C87_full`. -/
example : let g := GEN.new 1 (some .zero) (some .one) (some .one) none
    g.single = none ∧ g.double = none ∧ ¬ (g.sys = 2 ∧ g.toGCN.Has4) ∧ g.toGCN = GC.zeroP2.toN ∧ GC.zeroP2.Repr 0 ∧
    let h := GEN.new 2 (some .zero) (some .one) (some .one) (some .zero)
    h.sys = 2 ∧ h.toGCN.Has4 :=
  ⟨rfl, rfl, fun h => absurd h.1 (by simp [GCN.newP1xP1, GEN.new]), rfl, GC.zeroP2_repr, rfl, ⟨rfl, rfl, rfl⟩, rfl⟩

/-- The hypothesis of C86_equals_true: every point in P3. -/
example (q : Pt) : ∃ g : GC, g.sys = .p3 ∧ g.Repr q ∧ GCN.equalsPtr (some g.toN) (some g.toN) = .ok true := by
  obtain ⟨g, g1, g2, -⟩ := exists_repr q
  obtain ⟨b, h1, h2⟩ := C38_equals_same g.toGC g.toGC q q g2 g2 rfl
  refine ⟨g.toGC, g1, g2, ?_⟩
  have h := GCN.equals_toN g.toGC g.toGC
  rw [h1, h2.mpr rfl] at h
  exact h

end Ed

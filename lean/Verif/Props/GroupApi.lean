import Verif.Props.Group
import Verif.Proofs.CT

/-!
# Properties C38-C41 and C47: group element API, constant-time helpers
-/

set_option autoImplicit false

namespace Ed
open FE

/-! ## C38 Equality -/

/-- Comparison of two projective elements. -/
theorem GC.equalsP_spec {g h : GC} {q r : Pt} (hg : g.sys = .p2 ∨ g.sys = .p3) (hgr : g.Repr q)
    (hh : h.sys = .p2 ∨ h.sys = .p3) (hhr : h.Repr r) : g.equalsP h = true ↔ q = r := by
  obtain ⟨a1, a2, a3, a4, a5, a6⟩ := hgr.proj hg
  obtain ⟨b1, b2, b3, b4, b5, b6⟩ := hhr.proj hh
  unfold equalsP
  have hz := equals_spec a3.loose.encodable b3.loose.encodable
  by_cases e : g.Z.equals h.Z = true
  · rw [if_pos e, Bool.and_eq_true, equals_spec a1.loose.encodable b1.loose.encodable,
      equals_spec a2.loose.encodable b2.loose.encodable, a5, a6, b5, b6, hz.1 e]
    constructor
    · rintro ⟨h1, h2⟩
      ext
      · exact mul_right_cancel₀ b4 h1
      · exact mul_right_cancel₀ b4 h2
    · rintro rfl; exact ⟨rfl, rfl⟩
  · rw [if_neg e]
    dsimp only
    obtain ⟨m1, n1⟩ := multiply_spec a1.loose b3.loose
    obtain ⟨m2, n2⟩ := multiply_spec a2.loose b3.loose
    obtain ⟨m3, n3⟩ := multiply_spec b1.loose a3.loose
    obtain ⟨m4, n4⟩ := multiply_spec b2.loose a3.loose
    rw [Bool.and_eq_true, equals_spec m1.encodable m3.encodable, equals_spec m2.encodable m4.encodable,
      n1, n2, n3, n4, a5, a6, b5, b6]
    have h0 : g.Z.toF * h.Z.toF ≠ 0 := mul_ne_zero a4 b4
    constructor
    · rintro ⟨h1, h2⟩
      ext
      · apply mul_right_cancel₀ h0; linear_combination h1
      · apply mul_right_cancel₀ h0; linear_combination h2
    · rintro rfl; constructor <;> ring

/-- **C38.** `Equals` of elements in the same system P2, P3, P1xP1, PRECOMPUTED or CACHED decides equality of the
points, whatever the projective representation. -/
theorem C38_equals_same (g h : GC) (q r : Pt) (hgr : g.Repr q) (hhr : h.Repr r) (hs : g.sys = h.sys) :
    ∃ b, g.equals h = .ok b ∧ (b = true ↔ q = r) := by
  unfold GC.equals
  rw [if_neg (by simpa using hs)]
  unfold GC.equalsSame
  cases e : g.sys with
  | affine => unfold GC.Repr at hgr; rw [e] at hgr; exact hgr.elim
  | p2 => exact ⟨_, rfl, GC.equalsP_spec (Or.inl e) hgr (Or.inl (hs ▸ e)) hhr⟩
  | p3 => exact ⟨_, rfl, GC.equalsP_spec (Or.inr e) hgr (Or.inr (hs ▸ e)) hhr⟩
  | p1xp1 =>
    obtain ⟨g', g1, g2, g3⟩ := GC.toP2_of_p1xp1 e hgr
    obtain ⟨h', h1, h2, h3⟩ := GC.toP2_of_p1xp1 (hs ▸ e) hhr
    dsimp only
    rw [g1, Out.ok_bind]
    unfold GC.equalsToP2
    rw [← hs, e, if_neg (by decide), h1]
    exact ⟨_, rfl, GC.equalsP_spec (Or.inl g2) g3 (Or.inl h2) h3⟩
  | precomputed =>
    refine ⟨_, rfl, ?_⟩
    rw [hs] at e
    unfold GC.Repr at hgr hhr
    rw [hs, e] at hgr
    rw [e] at hhr
    obtain ⟨a1, a2, a3, a4, a5, a6⟩ := hgr
    obtain ⟨b1, b2, b3, b4, b5, b6⟩ := hhr
    rw [Bool.and_eq_true, Bool.and_eq_true, equals_spec a1.encodable b1.encodable,
      equals_spec a2.encodable b2.encodable, equals_spec a3.encodable b3.encodable, a4, a5, a6, b4, b5, b6]
    constructor
    · rintro ⟨⟨h1, h2⟩, -⟩
      ext
      · apply mul_left_cancel₀ two_ne_zero_F; linear_combination h1 - h2
      · apply mul_left_cancel₀ two_ne_zero_F; linear_combination h1 + h2
    · rintro rfl; exact ⟨⟨rfl, rfl⟩, rfl⟩
  | cached =>
    rw [hs] at e
    unfold GC.Repr at hgr hhr
    rw [hs, e] at hgr
    rw [e] at hhr
    obtain ⟨a1, a2, a3, a4, a5, a6, t, at1, at2, at3⟩ := hgr
    obtain ⟨b1, b2, b3, b4, b5, b6, u, bt1, bt2, bt3⟩ := hhr
    have hz := equals_spec a3.encodable b3.encodable
    have fin : ∀ {z : F}, z ≠ 0 → ((q.y + q.x) * z = (r.y + r.x) * z ∧ (q.y - q.x) * z = (r.y - r.x) * z ↔ q = r) := by
      intro z hz
      constructor
      · rintro ⟨h1, h2⟩
        have h1 := mul_right_cancel₀ hz h1
        have h2 := mul_right_cancel₀ hz h2
        ext
        · apply mul_left_cancel₀ two_ne_zero_F; linear_combination h1 - h2
        · apply mul_left_cancel₀ two_ne_zero_F; linear_combination h1 + h2
      · rintro rfl; exact ⟨rfl, rfl⟩
    dsimp only
    by_cases c : g.Z.equals h.Z = true
    · rw [if_pos c]
      have hzz := hz.1 c
      have k : (g.X.equals h.X && g.Y.equals h.Y) = true ↔ q = r := by
        rw [Bool.and_eq_true, equals_spec a1.encodable b1.encodable, equals_spec a2.encodable b2.encodable,
          a5, a6, b5, b6, hzz]
        exact fin b4
      by_cases k2 : (g.X.equals h.X && g.Y.equals h.Y) = true
      · rw [if_pos k2, at1, bt1]
        refine ⟨_, rfl, ?_⟩
        rw [equals_spec at2.encodable bt2.encodable, at3, bt3]
        have := k.1 k2
        subst this
        rw [hzz]; simp
      · rw [if_neg k2]
        exact ⟨false, rfl, by rw [← k]; simpa using k2⟩
    · rw [if_neg c, at1, bt1]
      refine ⟨_, rfl, ?_⟩
      obtain ⟨m1, n1⟩ := multiply_spec a1 b3
      obtain ⟨m2, n2⟩ := multiply_spec a2 b3
      obtain ⟨m3, n3⟩ := multiply_spec b1 a3
      obtain ⟨m4, n4⟩ := multiply_spec b2 a3
      obtain ⟨m5, n5⟩ := multiply_spec at2 b3
      obtain ⟨m6, n6⟩ := multiply_spec bt2 a3
      rw [Bool.and_eq_true, Bool.and_eq_true, equals_spec m1.encodable m3.encodable,
        equals_spec m2.encodable m4.encodable, equals_spec m5.encodable m6.encodable, n1, n2, n3, n4, n5, n6,
        a5, a6, b5, b6, at3, bt3]
      have h0 : g.Z.toF * h.Z.toF ≠ 0 := mul_ne_zero a4 b4
      have f := fin h0
      constructor
      · rintro ⟨⟨h1, h2⟩, -⟩
        apply f.1
        constructor
        · linear_combination h1
        · linear_combination h2
      · rintro rfl
        exact ⟨⟨by ring, by ring⟩, by ring⟩

/-- With a receiver in P2 any P3 or P1xP1 argument is compared correctly, with a receiver in P3 any
P1xP1 argument. -/
theorem C38_equals_mixed (g h : GC) (q r : Pt) (hgr : g.Repr q) (hhr : h.Repr r)
    (hs : g.sys = .p2 ∧ (h.sys = .p3 ∨ h.sys = .p1xp1) ∨ g.sys = .p3 ∧ h.sys = .p1xp1) :
    ∃ b, g.equals h = .ok b ∧ (b = true ↔ q = r) := by
  unfold GC.equals
  rcases hs with ⟨g2, h3 | h3⟩ | ⟨g3, h3⟩
  · rw [if_pos (by rw [g2, h3]; decide), g2]
    obtain ⟨h', e1, e2, e3⟩ := GC.toP2_of_p3 h3 hhr
    unfold GC.toP2 at e1
    rw [e1]
    dsimp only
    have : g.equalsSame h' = .ok (g.equalsP h') := by unfold GC.equalsSame; rw [g2]
    rw [this]
    exact ⟨_, rfl, GC.equalsP_spec (Or.inl g2) hgr (Or.inl e2) e3⟩
  · rw [if_pos (by rw [g2, h3]; decide), g2]
    obtain ⟨h', e1, e2, e3⟩ := GC.toP2_of_p1xp1 h3 hhr
    unfold GC.toP2 at e1
    rw [e1]
    dsimp only
    have : g.equalsSame h' = .ok (g.equalsP h') := by unfold GC.equalsSame; rw [g2]
    rw [this]
    exact ⟨_, rfl, GC.equalsP_spec (Or.inl g2) hgr (Or.inl e2) e3⟩
  · rw [if_pos (by rw [g3, h3]; decide), g3]
    obtain ⟨h', e1, e2, e3⟩ := GC.toP3_of_p1xp1 h3 hhr
    unfold GC.toP3 at e1
    rw [e1]
    dsimp only
    have : g.equalsSame h' = .ok (g.equalsP h') := by unfold GC.equalsSame; rw [g3]
    rw [this]
    exact ⟨_, rfl, GC.equalsP_spec (Or.inr g3) hgr (Or.inr e2) e3⟩

/-- `Equals` is not symmetric: for every point, an element in P2 equals one in P3, but not conversely. -/
theorem C38_not_symmetric (q : Pt) : ∃ g h : GC, g.Repr q ∧ h.Repr q ∧ g.sys = .p2 ∧ h.sys = .p3 ∧
    g.equals h = .ok true ∧ h.equals g = .ok false := by
  obtain ⟨k, k1, k2, -⟩ := exists_repr q
  obtain ⟨g, g1, g2, g3⟩ := GC.toP2_of_p3 k1 k2
  refine ⟨g, k.toGC, g3, k2, g2, k1, ?_, ?_⟩
  · obtain ⟨b, b1, b2⟩ := C38_equals_mixed g k.toGC q q g3 k2 (Or.inl ⟨g2, Or.inl k1⟩)
    rw [b1, b2.2 rfl]
  · unfold GC.equals
    rw [if_pos (by rw [g2, k1]; decide), k1]
    have : g.toCoordinateSystem .p3 = .panic := by unfold GC.toCoordinateSystem; rw [g2]
    rw [this]

/-- Whenever the argument cannot be converted to the system of the receiver, the answer is `false`, even
for the same point; and two AFFINE elements make `Equals` panic. -/
theorem C38_equals_unconvertible (g h : GC) (hs : g.sys ≠ h.sys) (hc : h.toCoordinateSystem g.sys = .panic) :
    g.equals h = .ok false := by
  unfold GC.equals
  rw [if_pos hs, hc]

theorem C38_equals_affine_panics (x y z x' y' z' : FE) :
    (GC.newAffine x y z).equals (GC.newAffine x' y' z') = .panic := rfl

/-- Two elements in different coordinate systems never make `Equals` panic, whatever their coordinates and
even with a nil `T`: every panic of the conversion and of the comparison is recovered. -/
theorem C38_equals_mixed_total (g h : GC) (hs : g.sys ≠ h.sys) : ∃ b, g.equals h = .ok b := by
  unfold GC.equals
  rw [if_pos hs]
  cases h.toCoordinateSystem g.sys with
  | err m => exact ⟨_, rfl⟩
  | panic => exact ⟨_, rfl⟩
  | ok h' =>
    dsimp only
    have hne : ∀ m, g.equalsSame h' ≠ .err m := by
      intro m
      unfold GC.equalsSame
      have hd : ∀ (o : Option FE) (f : FE → Out Bool), (∀ x, f x ≠ .err m) → (Out.deref o >>= f) ≠ .err m := by
        intro o f hf
        cases o with
        | none => exact fun e => by cases e
        | some a => exact hf a
      cases g.sys with
      | p2 => exact fun e => by cases e
      | p3 => exact fun e => by cases e
      | affine => exact fun e => by cases e
      | precomputed => exact fun e => by cases e
      | cached =>
        dsimp only
        split
        · split
          · exact hd _ _ fun _ => hd _ _ fun _ e => by cases e
          · exact fun e => by cases e
        · exact hd _ _ fun _ => hd _ _ fun _ e => by cases e
      | p1xp1 =>
        dsimp only
        have h2 : ∀ k m, GC.toP2 k ≠ .err m := by
          intro k m
          unfold GC.toP2 GC.toCoordinateSystem
          cases k.sys <;> dsimp only <;> first
            | exact fun e => by cases e
            | (cases k.T <;> exact fun e => by cases e)
        cases e2 : g.toP2 with
        | panic => exact fun e => by cases e
        | err m' => exact absurd e2 (h2 _ _)
        | ok g' =>
          rw [Out.ok_bind]
          unfold GC.equalsToP2
          split
          · exact fun e => by cases e
          · split <;> exact fun e => by cases e
    cases e : g.equalsSame h' with
    | ok b => exact ⟨_, rfl⟩
    | panic => exact ⟨_, rfl⟩
    | err m => exact absurd e (hne m)

theorem FE.equals_self (a : FE) : a.equals a = true := by
  unfold FE.equals
  exact (isEqualConstantTime_iff _ _).2 rfl

theorem GC.toCached_sys (h h' : GC) (hs : h.sys = .p3) (hc : h.toCoordinateSystem .cached = .ok h') : h'.sys = .cached := by
    unfold GC.toCoordinateSystem at hc
    rw [hs] at hc
    dsimp only at hc
    cases hT : h.T with
    | none => rw [hT] at hc; cases hc
    | some t => rw [hT] at hc; cases hc; rfl

theorem GC.equalsSame_nilT (h' : GC) : (GC.newCached h'.X h'.Y h'.Z none).equalsSame h' = .panic := by
    unfold GC.equalsSame GC.newCached
    simp only [FE.equals_self, Bool.and_self, if_true]
    exact Out.panic_bind _

theorem GC.equals_of_panic (g h h' : GC) (hg : g.sys = .cached) (hs : h.sys = .p3) (hc : h.toCoordinateSystem .cached = .ok h')
   (hp : g.equalsSame h' = .panic) : g.equals h = .ok false := by
  unfold GC.equals
  rw [hg, hs, if_pos (by decide), hc]
  dsimp only
  rw [hp]

theorem GC.equals_panics (g h' : GC) (hg : g.sys = .cached) (hs : h'.sys = .cached) 
   (hp : g.equalsSame h' = .panic) : g.equals h' = .panic := by
  unfold GC.equals
  rw [hg, hs, if_neg (by decide), hp]

/-- A case in which it is the comparison that panics: a CACHED receiver without `T`, compared with the
CACHED form of the argument, dereferences nil, and `Equals` answers `false`; the same two elements in the
same system panic. -/
theorem C38_equals_recovers (h h' : GC) (hs : h.sys = .p3) (hc : h.toCoordinateSystem .cached = .ok h') :
    (GC.newCached h'.X h'.Y h'.Z none).equals h = .ok false ∧
    (GC.newCached h'.X h'.Y h'.Z none).equals h' = .panic :=
  ⟨GC.equals_of_panic _ _ _ rfl hs hc (GC.equalsSame_nilT h'),
   GC.equals_panics _ _ rfl (GC.toCached_sys h h' hs hc) (GC.equalsSame_nilT h')⟩

example : ∃ h h' : GC, h.sys = .p3 ∧ h.toCoordinateSystem .cached = .ok h' :=
  ⟨GC.newP3 FE.zero FE.one FE.one (some FE.zero), _, rfl, rfl⟩

/-- **C38.** Exactly when `Equals` panics: two elements in the same system, AFFINE, or P1xP1 with a receiver without `T`, or CACHED with one `T`
missing that is looked at; otherwise it answers.  It never returns an error. -/
theorem C38_equals_panics_iff (g h : GC) :
    (g.equals h = .panic ↔ g.sys = h.sys ∧ (g.sys = .affine ∨ (g.sys = .p1xp1 ∧ g.T = none) ∨
      (g.sys = .cached ∧ (g.T = none ∨ h.T = none) ∧ (g.Z.equals h.Z = true → g.X.equals h.X = true ∧ g.Y.equals h.Y = true)))) ∧
    (g.equals h = .panic ∨ ∃ b, g.equals h = .ok b) := by
  by_cases hs : g.sys = h.sys
  swap
  · obtain ⟨b, hb⟩ := C38_equals_mixed_total g h hs
    exact ⟨⟨(fun e => by rw [hb] at e; cases e), fun e => absurd e.1 hs⟩, .inr ⟨b, hb⟩⟩
  have e : g.equals h = g.equalsSame h := by unfold GC.equals; rw [if_neg (by simpa using hs)]
  rw [e]
  have dec : ∀ r : Out Bool, (∃ b, r = .ok b) → r ≠ .panic := by rintro _ ⟨b, rfl⟩; simp
  cases hg : g.sys with
  | affine =>
    have : g.equalsSame h = .panic := by unfold GC.equalsSame; rw [hg]
    rw [this]
    exact ⟨⟨fun _ => ⟨by rw [← hs, hg], .inl rfl⟩, fun _ => rfl⟩, .inl rfl⟩
  | p2 =>
    have : ∃ b, g.equalsSame h = .ok b := by unfold GC.equalsSame; rw [hg]; exact ⟨_, rfl⟩
    exact ⟨⟨fun e => absurd e (dec _ this), fun e => by simp at e⟩, .inr this⟩
  | p3 =>
    have : ∃ b, g.equalsSame h = .ok b := by unfold GC.equalsSame; rw [hg]; exact ⟨_, rfl⟩
    exact ⟨⟨fun e => absurd e (dec _ this), fun e => by simp at e⟩, .inr this⟩
  | precomputed =>
    have : ∃ b, g.equalsSame h = .ok b := by unfold GC.equalsSame; rw [hg]; exact ⟨_, rfl⟩
    exact ⟨⟨fun e => absurd e (dec _ this), fun e => by simp at e⟩, .inr this⟩
  | p1xp1 =>
    cases ht : g.T with
    | none =>
      have : g.equalsSame h = .panic := by unfold GC.equalsSame GC.toP2 GC.toCoordinateSystem; rw [hg, ht]; rfl
      rw [this]
      exact ⟨⟨fun _ => ⟨by rw [← hs, hg], .inr (.inl ⟨rfl, rfl⟩)⟩, fun _ => rfl⟩, .inl rfl⟩
    | some t =>
      have : ∃ b, g.equalsSame h = .ok b := by
        unfold GC.equalsSame GC.toP2 GC.toCoordinateSystem
        rw [hg, ht]
        show ∃ b, GC.equalsToP2 _ _ = _
        unfold GC.equalsToP2
        split
        · exact ⟨_, rfl⟩
        · split <;> exact ⟨_, rfl⟩
      exact ⟨⟨fun e => absurd e (dec _ this), fun e => by simp at e⟩, .inr this⟩
  | cached =>
    have hval : g.equalsSame h = if g.Z.equals h.Z then
        (if g.X.equals h.X && g.Y.equals h.Y then (Out.deref g.T >>= fun rT => Out.deref h.T >>= fun gT => .ok (rT.equals gT)) else .ok false)
        else (Out.deref g.T >>= fun rT => Out.deref h.T >>= fun gT =>
          .ok ((g.X.multiply h.Z).equals (h.X.multiply g.Z) && (g.Y.multiply h.Z).equals (h.Y.multiply g.Z) &&
            (rT.multiply h.Z).equals (gT.multiply g.Z))) := by
      unfold GC.equalsSame; rw [hg]
    rw [hval]
    have hsys : Sys.cached = h.sys := by rw [← hs, hg]
    by_cases hz : g.Z.equals h.Z = true
    · rw [if_pos hz]
      by_cases hxy : g.X.equals h.X = true ∧ g.Y.equals h.Y = true
      · rw [if_pos (by rw [hxy.1, hxy.2]; rfl)]
        cases h1 : g.T <;> cases h2 : h.T <;> simp [Out.deref, hsys.symm, hxy.1, hxy.2, bind, Out.bind]
      · rw [if_neg (by simpa using hxy)]
        refine ⟨⟨fun e => by simp at e, fun e => ?_⟩, .inr ⟨_, rfl⟩⟩
        simp only [reduceCtorEq, false_and, true_and, false_or] at e
        exact absurd (e.2.2 hz) hxy
    · rw [if_neg hz]
      cases h1 : g.T <;> cases h2 : h.T <;> simp [Out.deref, hsys.symm, hz, bind, Out.bind]

/-- **C38.** Of two P1xP1 elements only the receiver needs a `T`: an argument without `T` is unequal, as receiver it makes `Equals` panic. -/
theorem C38_equals_nilT (g h : GC) (t : FE) (hg : g.sys = .p1xp1) (hh : h.sys = .p1xp1) (hgt : g.T = some t) (hht : h.T = none) :
    g.equals h = .ok false ∧ h.equals g = .panic := by
  constructor
  · unfold GC.equals GC.equalsSame GC.toP2
    rw [if_neg (by simp [hg, hh])]
    unfold GC.toCoordinateSystem
    rw [hg, hgt]
    show GC.equalsToP2 _ _ = _
    unfold GC.equalsToP2 GC.toP2 GC.toCoordinateSystem
    rw [hh, hht]
    rfl
  · exact (C38_equals_panics_iff h g).1.2 ⟨by rw [hg, hh], .inr (.inl ⟨hh, hht⟩)⟩

example : ∃ g h : GC, ∃ t, g.sys = .p1xp1 ∧ h.sys = .p1xp1 ∧ g.T = some t ∧ h.T = none :=
  ⟨GC.newP1xP1 .one .one .one (some .one), GC.newP1xP1 .one .one .one none, .one, rfl, rfl, rfl, rfl⟩

/-! ## C39 Conversions -/

/-- The conversions the code supports. -/
def Supported : Sys → Sys → Prop
  | .p2, .p2 | .p3, .p2 | .p3, .p3 | .p3, .cached | .p1xp1, .p2 | .p1xp1, .p3 | .p1xp1, .p1xp1
  | .precomputed, .precomputed | .cached, .cached => True
  | _, _ => False

/-- Coordinates determine the point: the relation `Repr`, in which the other theorems are stated, relates every Go object
to at most one curve point. -/
theorem C39_point_unique {g : GC} {p q : Pt} (hp : g.Repr p) (hq : g.Repr q) : p = q := by
  have two : (2 : F) ≠ 0 := two_ne_zero_F
  unfold GC.Repr at hp hq
  generalize g.sys = sy at hp hq
  cases sy <;> simp only at hp hq
  · obtain ⟨-, -, -, hz, a, b⟩ := hp
    obtain ⟨-, -, -, -, a', b'⟩ := hq
    exact Pt.ext (mul_right_cancel₀ hz (a.symm.trans a')) (mul_right_cancel₀ hz (b.symm.trans b'))
  · obtain ⟨-, -, -, hz, a, b, -⟩ := hp
    obtain ⟨-, -, -, -, a', b', -⟩ := hq
    exact Pt.ext (mul_right_cancel₀ hz (a.symm.trans a')) (mul_right_cancel₀ hz (b.symm.trans b'))
  · obtain ⟨-, -, -, hz, t, ht, -, htz, a, b⟩ := hp
    obtain ⟨-, -, -, -, t', ht', -, -, a', b'⟩ := hq
    rw [ht] at ht'
    cases ht'
    exact Pt.ext (mul_right_cancel₀ hz (a.symm.trans a')) (mul_right_cancel₀ htz (b.symm.trans b'))
  · obtain ⟨-, -, -, a, b, -⟩ := hp
    obtain ⟨-, -, -, a', b', -⟩ := hq
    rw [a] at a'
    rw [b] at b'
    refine Pt.ext (mul_left_cancel₀ two ?_) (mul_left_cancel₀ two ?_)
    · linear_combination a' - b'
    · linear_combination a' + b'
  · obtain ⟨-, -, -, hz, a, b, -⟩ := hp
    obtain ⟨-, -, -, -, a', b', -⟩ := hq
    have a' := mul_right_cancel₀ hz (a.symm.trans a')
    have b' := mul_right_cancel₀ hz (b.symm.trans b')
    refine Pt.ext (mul_left_cancel₀ two ?_) (mul_left_cancel₀ two ?_)
    · linear_combination a' - b'
    · linear_combination a' + b'

/-- **C39.** Every supported conversion yields the same point in the requested system; every other one
panics. -/
theorem C39_convert (g : GC) (q : Pt) (h : g.Repr q) (n : Sys) :
    (Supported g.sys n → ∃ r, g.toCoordinateSystem n = .ok r ∧ r.sys = n ∧ r.Repr q) ∧
    (¬ Supported g.sys n → g.toCoordinateSystem n = .panic) := by
  obtain ⟨s, X, Y, Z, T⟩ := g
  constructor
  · intro hs
    cases s <;> cases n <;> first | exact hs.elim | skip
    · exact GC.toP2_of_p2 (g := ⟨.p2, X, Y, Z, T⟩) rfl h
    · exact GC.toP2_of_p3 (g := ⟨.p3, X, Y, Z, T⟩) rfl h
    · exact GC.toP3_of_p3 (g := ⟨.p3, X, Y, Z, T⟩) rfl h
    · exact GC.toCached_of_p3 (g := ⟨.p3, X, Y, Z, T⟩) rfl h
    · exact GC.toP2_of_p1xp1 (g := ⟨.p1xp1, X, Y, Z, T⟩) rfl h
    · exact GC.toP3_of_p1xp1 (g := ⟨.p1xp1, X, Y, Z, T⟩) rfl h
    · exact ⟨_, rfl, rfl, h⟩
    · exact ⟨_, rfl, rfl, h⟩
    · exact ⟨_, rfl, rfl, h⟩
  · intro hs
    cases s <;> cases n <;> first | exact (hs trivial).elim | rfl

/-- Without any assumption on the coordinates: an unsupported conversion always panics, a supported one
panics only for a missing T. -/
theorem C39_unsupported_panics (g : GC) (n : Sys) (h : ¬ Supported g.sys n) : g.toCoordinateSystem n = .panic := by
  obtain ⟨s, X, Y, Z, T⟩ := g
  cases s <;> cases n <;> first | exact (h trivial).elim | rfl

/-- Encoding does not depend on the representation, and is not available for PRECOMPUTED and CACHED. -/
theorem C39_encode (g h : GC) (q : Pt) (hgr : g.Repr q) (hhr : h.Repr q)
    (hg : g.sys = .p2 ∨ g.sys = .p3 ∨ g.sys = .p1xp1) (hh : h.sys = .p2 ∨ h.sys = .p3 ∨ h.sys = .p1xp1) :
    g.encode = h.encode ∧ ∃ b, g.encode = .ok b := by
  rw [GC.encode_repr hg hgr, GC.encode_repr hh hhr]; exact ⟨rfl, _, rfl⟩

theorem C39_encode_panics (g : GC) (hg : g.sys = .precomputed ∨ g.sys = .cached ∨ g.sys = .affine) :
    g.encode = .panic := by
  obtain ⟨s, X, Y, Z, T⟩ := g
  rcases hg with h | h | h <;> cases h <;> rfl

/-- Every coordinate system except AFFINE occurs for every point. -/
theorem exists_repr_sys (q : Pt) (s : Sys) (hs : s ≠ .affine) : ∃ g : GC, g.sys = s ∧ g.Repr q := by
  obtain ⟨g, g1, g2, -⟩ := exists_repr q
  cases s with
  | affine => exact absurd rfl hs
  | p2 => obtain ⟨r, -, h⟩ := GC.toP2_of_p3 g1 g2; exact ⟨r, h⟩
  | p3 => exact ⟨_, g1, g2⟩
  | cached => obtain ⟨r, -, h⟩ := GC.toCached_of_p3 g1 g2; exact ⟨r, h⟩
  | precomputed => exact ⟨_, GC.precEntry_repr g1 g2⟩
  | p1xp1 =>
    obtain ⟨r, -, h1, h2⟩ := GC.precomputedAdd_repr g1 g2 (h := GC.zeroPrecomputed) rfl GC.zeroPrecomputed_repr
    rw [add_zero] at h2
    exact ⟨r, h1, h2⟩

example : ∃ g : GC, g.sys = .p1xp1 ∧ g.Repr B := exists_repr_sys B _ (by decide)

/-! ## C40 SatisfiesCurveEquation -/

/-- For P2 and P3 elements with arbitrary coordinates within the limb bounds, where x / 0 = 0. -/
theorem C40_satisfies_any (g : GC) (hs : g.sys = .p2 ∨ g.sys = .p3) (hX : Loose g.X) (hY : Loose g.Y)
    (hZ : Loose g.Z) :
    ∃ b, g.satisfiesCurveEquation = .ok b ∧ (b = true ↔ OnCurve (g.X.toF / g.Z.toF) (g.Y.toF / g.Z.toF)) := by
  refine ⟨g.satisfiesP, ?_, ?_⟩
  · unfold GC.satisfiesCurveEquation
    rcases hs with h | h <;> rw [h]
  · unfold GC.satisfiesP
    dsimp only
    obtain ⟨i1, i2⟩ := invert_spec hZ
    obtain ⟨x1, x2⟩ := multiply_spec hX i1.loose
    obtain ⟨y1, y2⟩ := multiply_spec hY i1.loose
    obtain ⟨xx1, xx2⟩ := square_spec x1.loose
    obtain ⟨yy1, yy2⟩ := square_spec y1.loose
    obtain ⟨d1, d2⟩ := multiply_spec dFE_spec.1.loose xx1.loose
    obtain ⟨e1, e2⟩ := multiply_spec d1.loose yy1.loose
    obtain ⟨s1, s2⟩ := add_val one_red e1 (by norm_num) (by norm_num)
    have s3 := add_toF one_red e1 (by norm_num) (by norm_num)
    obtain ⟨t1, t2⟩ := add_val s1 xx1 (by norm_num) (by norm_num)
    have t3 := add_toF s1 xx1 (by norm_num) (by norm_num)
    have tE : Encodable ((FE.one.add ((dFE.multiply ((g.X.multiply g.Z.invert).square)).multiply
      ((g.Y.multiply g.Z.invert).square))).add ((g.X.multiply g.Z.invert).square)) :=
      Bd.mono t1 (by norm_num) (by norm_num)
    rw [beq_iff_eq, encode_spec tE, encode_spec yy1.encodable, leBytes32_val_inj, t3, s3, e2, d2, xx2, yy2, x2, y2,
      i2, one_toF, dFE_spec.2]
    unfold OnCurve
    rw [div_eq_mul_inv, div_eq_mul_inv]
    constructor <;> intro h <;> linear_combination -h

/-- **C40.** For P2 and P3 elements with arbitrary coordinates within the limb bounds and Z not 0. -/
theorem C40_satisfies (g : GC) (hs : g.sys = .p2 ∨ g.sys = .p3) (hX : Loose g.X) (hY : Loose g.Y)
    (hZ : Loose g.Z) (_hz : g.Z.toF ≠ 0) :
    ∃ b, g.satisfiesCurveEquation = .ok b ∧ (b = true ↔ OnCurve (g.X.toF / g.Z.toF) (g.Y.toF / g.Z.toF)) :=
  C40_satisfies_any g hs hX hY hZ

/-- P1xP1 elements are judged by the point (X/Z, Y/T). -/
theorem C40_satisfies_p1xp1 (g : GC) (t : FE) (hs : g.sys = .p1xp1) (hX : Loose g.X) (hY : Loose g.Y)
    (hZ : Loose g.Z) (hT : g.T = some t) (ht : Loose t) (hz : g.Z.toF ≠ 0) (htz : t.toF ≠ 0) :
    ∃ b, g.satisfiesCurveEquation = .ok b ∧ (b = true ↔ OnCurve (g.X.toF / g.Z.toF) (g.Y.toF / t.toF)) := by
  obtain ⟨x1, x2⟩ := multiply_spec hX ht
  obtain ⟨y1, y2⟩ := multiply_spec hY hZ
  obtain ⟨z1, z2⟩ := multiply_spec hZ ht
  have hz0 : (g.Z.multiply t).toF ≠ 0 := by rw [z2]; exact mul_ne_zero hz htz
  obtain ⟨b, b1, b2⟩ := C40_satisfies (GC.newP2 (g.X.multiply t) (g.Y.multiply g.Z) (g.Z.multiply t)) (Or.inl rfl)
    x1.loose y1.loose z1.loose hz0
  refine ⟨b, ?_, ?_⟩
  · rw [← b1]
    unfold GC.satisfiesCurveEquation GC.toP2 GC.toCoordinateSystem
    rw [hs, hT]; rfl
  · rw [b2]
    show OnCurve ((g.X.multiply t).toF / (g.Z.multiply t).toF) ((g.Y.multiply g.Z).toF / (g.Z.multiply t).toF) ↔ _
    rw [x2, y2, z2, mul_div_mul_right _ _ htz, mul_comm g.Z.toF, mul_div_mul_right _ _ hz]

/-- Every represented, in particular every decoded, point satisfies the equation. -/
theorem C40_decoded (raw : Bytes) (hl : raw.length = 32) (g : GC) (hg : GC.decode raw = .ok g) :
    g.satisfiesCurveEquation = .ok true := by
  obtain ⟨hs, q, hr, -, -⟩ := (C12_decode raw hl).2.1 g hg
  obtain ⟨h1, h2, h3, h4, h5, h6⟩ := hr.proj (Or.inr hs)
  obtain ⟨b, b1, b2⟩ := C40_satisfies g (Or.inr hs) h1.loose h2.loose h3.loose h4
  rw [b1, b2.2]
  rw [h5, h6, mul_div_cancel_right₀ _ h4, mul_div_cancel_right₀ _ h4]
  exact q.on

/-- The test is not trivial: (2 : 1 : 1) is refused. -/
example : (GC.newP2 .two .one .one).satisfiesCurveEquation = .ok false := by
  have h2 : Loose FE.two := by unfold Loose Bd; decide
  have e2 : FE.two.toF = 2 := by
    have : FE.two.val = 2 := by decide
    unfold toF; rw [this]; norm_num
  obtain ⟨b, b1, b3⟩ := C40_satisfies (GC.newP2 .two .one .one) (Or.inl rfl) h2 one_red.loose one_red.loose
    (by show FE.one.toF ≠ 0; rw [one_toF]; exact one_ne_zero)
  rw [b1]
  congr 1
  by_contra hb
  have hb : b = true := by simpa using hb
  have := b3.1 hb
  have : OnCurve (FE.two.toF / FE.one.toF) (FE.one.toF / FE.one.toF) := this
  rw [e2, one_toF] at this
  unfold OnCurve at this
  have h4 : (4 : F) * (1 + d) = 0 := by linear_combination -this
  have h4' : ((4 * (1 + dN) : ℕ) : F) = 0 := by rw [d_eq] at h4; push_cast; exact h4
  rw [F_natCast_eq_zero] at h4'
  revert h4'; decide +kernel

/-! ## C41 Precomputation -/

/-- The two precomputation methods. -/
inductive PreOp | single | double
deriving DecidableEq

/-- One call on an element. -/
def PreOp.run (g : GE) : PreOp → Out GE
  | .single => g.precomputeForScalarMultiplication
  | .double => g.precomputeForDoubleScalarMultiplication

theorem GE.preop_step {g : GE} {q : Pt} (hs : g.sys = .p3) (hr : g.toGC.Repr q)
    (h1 : g.single = none ∨ g.SingleTable q) (h2 : g.double = none ∨ g.DoubleTable q) (o : PreOp) :
    ∃ g', o.run g = .ok g' ∧ g'.toGC = g.toGC ∧ (g'.single = none ∨ g'.SingleTable q) ∧
      (g'.double = none ∨ g'.DoubleTable q) ∧
      (o = .single → g'.SingleTable q ∧ g'.double = g.double ∧ (g.single ≠ none → g' = g)) ∧
      (o = .double → g'.DoubleTable q ∧ g'.single = g.single ∧ (g.double ≠ none → g' = g)) := by
  cases o with
  | single =>
    rcases h1 with h1 | h1
    · obtain ⟨g', e1, e2, e3, e4⟩ := GE.precomputeSingle_spec hs hr h1
      refine ⟨g', e1, e2, Or.inr e4, ?_, fun _ => ⟨e4, e3, fun h => absurd h1 h⟩, fun h => by cases h⟩
      rcases h2 with h2 | ⟨t, h2⟩
      · exact Or.inl (by rw [e3, h2])
      · exact Or.inr ⟨t, by rw [e3]; exact h2⟩
    · have hsome : g.single.isSome = true := by obtain ⟨t, ht, -⟩ := h1; rw [ht]; rfl
      refine ⟨g, ?_, rfl, Or.inr h1, h2, fun _ => ⟨h1, rfl, fun _ => rfl⟩, fun h => by cases h⟩
      show g.precomputeForScalarMultiplication = _
      unfold GE.precomputeForScalarMultiplication
      rw [if_pos hsome]
  | double =>
    rcases h2 with h2 | h2
    · obtain ⟨g', e1, e2, e3, e4⟩ := GE.precomputeDouble_spec hs hr (by rw [h2]; rfl)
      refine ⟨g', e1, e2, ?_, Or.inr e4, fun h => (nomatch h), fun _ => ⟨e4, e3, fun h => absurd h2 h⟩⟩
      rcases h1 with h1 | ⟨t, h1⟩
      · exact Or.inl (by rw [e3, h1])
      · exact Or.inr ⟨t, by rw [e3]; exact h1⟩
    · have hsome : (g.double.getD []).length > 0 := by
        obtain ⟨t, ht, hl, -⟩ := h2; rw [ht]; show t.length > 0; omega
      refine ⟨g, ?_, rfl, h1, Or.inr h2, fun h => (nomatch h), fun _ => ⟨h2, rfl, fun _ => rfl⟩⟩
      show g.precomputeForDoubleScalarMultiplication = _
      unfold GE.precomputeForDoubleScalarMultiplication
      rw [if_pos hsome]

/-- **C41.** Any sequence of precomputation calls on a fresh element: never fails, never changes the point, and
afterwards exactly the requested tables are present and hold the documented multiples. -/
theorem C41_precompute_history (g : GE) (q : Pt) (hs : g.sys = .p3) (hr : g.toGC.Repr q)
    (h1 : g.single = none) (h2 : g.double = none) (ops : List PreOp) :
    ∃ g', ops.foldlM PreOp.run g = .ok g' ∧ g'.toGC = g.toGC ∧
      (PreOp.single ∈ ops → g'.SingleTable q) ∧ (PreOp.double ∈ ops → g'.DoubleTable q) ∧
      (PreOp.single ∉ ops → g'.single = none) ∧ (PreOp.double ∉ ops → g'.double = none) := by
  have key : ∀ (ops : List PreOp) (g : GE), g.sys = .p3 → g.toGC.Repr q → (g.single = none ∨ g.SingleTable q) →
      (g.double = none ∨ g.DoubleTable q) → ∃ g', ops.foldlM PreOp.run g = .ok g' ∧ g'.toGC = g.toGC ∧
      (PreOp.single ∈ ops ∨ g.SingleTable q → g'.SingleTable q) ∧
      (PreOp.double ∈ ops ∨ g.DoubleTable q → g'.DoubleTable q) ∧
      (PreOp.single ∉ ops → g'.single = g.single) ∧ (PreOp.double ∉ ops → g'.double = g.double) := by
    intro ops
    induction ops with
    | nil =>
      intro g hs hr h1 h2
      exact ⟨g, rfl, rfl, by simp, by simp, by simp, by simp⟩
    | cons o ops ih =>
      intro g hs hr h1 h2
      obtain ⟨g1, a1, a2, a3, a4, a5, a6⟩ := GE.preop_step hs hr h1 h2 o
      obtain ⟨g2, b1, b2, b3, b4, b5, b6⟩ := ih g1 (by rw [a2]; exact hs) (by rw [a2]; exact hr) a3 a4
      refine ⟨g2, ?_, b2.trans a2, ?_, ?_, ?_, ?_⟩
      · rw [List.foldlM_cons, a1, Out.ok_bind, b1]
      · intro h
        apply b3
        cases o with
        | single => exact Or.inr (a5 rfl).1
        | double =>
          rcases h with h | ⟨t, h⟩
          · simp at h; exact Or.inl h
          · right; exact ⟨t, by rw [(a6 rfl).2.1]; exact h⟩
      · intro h
        apply b4
        cases o with
        | double => exact Or.inr (a6 rfl).1
        | single =>
          rcases h with h | ⟨t, h⟩
          · simp at h; exact Or.inl h
          · right; exact ⟨t, by rw [(a5 rfl).2.1]; exact h⟩
      · intro h
        simp only [List.mem_cons, not_or] at h
        rw [b5 h.2]
        cases o with
        | single => exact absurd rfl h.1
        | double => exact (a6 rfl).2.1
      · intro h
        simp only [List.mem_cons, not_or] at h
        rw [b6 h.2]
        cases o with
        | double => exact absurd rfl h.1
        | single => exact (a5 rfl).2.1
  obtain ⟨g', e1, e2, e3, e4, e5, e6⟩ := key ops g hs hr (Or.inl h1) (Or.inl h2)
  exact ⟨g', e1, e2, fun h => e3 (Or.inl h), fun h => e4 (Or.inl h), fun h => (e5 h).trans h1,
    fun h => (e6 h).trans h2⟩

/-- Calling either method again changes nothing at all. -/
theorem C41_idempotent (g g' : GE) (q : Pt) (hs : g.sys = .p3) (hr : g.toGC.Repr q)
    (h1 : g.single = none) (h2 : g.double = none) (o : PreOp) (h : o.run g = .ok g') : o.run g' = .ok g' := by
  obtain ⟨k, a1, a2, a3, a4, a5, a6⟩ := GE.preop_step hs hr (Or.inl h1) (Or.inl h2) o
  rw [h] at a1; cases a1
  obtain ⟨m, b1, b2, b3, b4, b5, b6⟩ := GE.preop_step (g := g') (by rw [a2]; exact hs) (by rw [a2]; exact hr) a3 a4 o
  rw [b1]
  congr 1
  cases o with
  | single =>
    obtain ⟨t, ht, -⟩ := (a5 rfl).1
    exact (b5 rfl).2.2 (by rw [ht]; simp)
  | double =>
    obtain ⟨t, ht, -⟩ := (a6 rfl).1
    exact (b6 rfl).2.2 (by rw [ht]; simp)

/-- `Select(pos, b)` on a precomputed element is b * 256^pos * P for -8 <= b <= 8 and the neutral element
for all other int8 digits. -/
theorem C41_select (g g' : GE) (q : Pt) (hs : g.sys = .p3) (hr : g.toGC.Repr q) (h1 : g.single = none)
    (hp : g.precomputeForScalarMultiplication = .ok g') (pos : ℕ) (hpos : pos < 32) (b : Int64)
    (hb : -128 ≤ b.toInt ∧ b.toInt < 128) :
    ∃ r, g'.select pos b = .ok r ∧ r.sys = .precomputed ∧
      r.Repr (if |b.toInt| ≤ 8 then (b.toInt * 256 ^ pos) • q else 0) := by
  obtain ⟨k, e1, -, -, e4⟩ := GE.precomputeSingle_spec hs hr h1
  rw [hp] at e1; cases e1
  exact GE.select_spec e4 pos hpos b hb

/-- Without the table `Select` and with it `scalarMultiply` panic (the documentation promises that the
table is computed on demand); a copy of such an element cannot be repaired by precomputing. -/
theorem C41_no_table_panics (g : GE) (h1 : g.single = none) (pos : ℕ) (b : Int64) (a : Bytes) :
    g.select pos b = .panic ∧ g.scalarMultiply a = .panic := by
  have hsel : ∀ pos b, g.select pos b = .panic := by
    intro pos b
    unfold GE.select
    rw [h1]; rfl
  refine ⟨hsel pos b, ?_⟩
  have hst : ∀ e h i, GE.scalarStep g e h i = .panic := by
    intro e h i
    unfold GE.scalarStep; rw [hsel]; rfl
  unfold GE.scalarMultiply
  have : ((List.range 32).map fun k => 2 * k + 1) = 1 :: ((List.range 31).map fun k => 2 * (k + 1) + 1) := by decide
  rw [this]
  dsimp only
  rw [List.foldlM_cons, hst]; rfl

theorem C41_copy_breaks_precompute (g : GE) (h1 : g.single = none) (a : Bytes) :
    g.copy.precomputeForScalarMultiplication = .ok g.copy ∧ g.copy.scalarMultiply a = .panic := by
  have hc : g.copy.single = some [] := by unfold GE.copy; rw [h1]; rfl
  refine ⟨by unfold GE.precomputeForScalarMultiplication; rw [hc]; rfl, ?_⟩
  have hst : ∀ e h i, GE.scalarStep g.copy e h i = .panic := by
    intro e h i
    unfold GE.scalarStep GE.select; rw [hc]; rfl
  unfold GE.scalarMultiply
  have : ((List.range 32).map fun k => 2 * k + 1) = 1 :: ((List.range 31).map fun k => 2 * (k + 1) + 1) := by decide
  rw [this]
  dsimp only
  rw [List.foldlM_cons, hst]; rfl

/-- The conditional move: 1 takes the argument, 0 keeps the receiver, any other selector is refused. -/
theorem C41_cmov (r u : GC) (b : Int64) :
    (b.toInt = 1 → r.cmov u b = .ok u) ∧ (b.toInt = 0 → r.cmov u b = .ok r) ∧
    (b.toInt ≠ 0 → b.toInt ≠ 1 → ∃ m, r.cmov u b = .err m) := by
  have h1 : b.toInt = 1 ↔ b = 1 := by
    rw [show (1 : ℤ) = (1 : Int64).toInt from rfl, Int64.toInt_inj]
  have h0 : b.toInt = 0 ↔ b = 0 := by
    rw [show (0 : ℤ) = (0 : Int64).toInt from rfl, Int64.toInt_inj]
  unfold GC.cmov
  refine ⟨fun h => if_pos (h1.1 h), fun h => ?_, fun h h' => ?_⟩
  · rw [if_neg (fun e => by rw [h1.2 e] at h; exact absurd h (by decide)), if_pos (h0.1 h)]
  · rw [if_neg (fun e => h' (h1.2 e)), if_neg (fun e => h (h0.2 e))]
    exact ⟨_, rfl⟩

example : ∃ g : GE, g.sys = .p3 ∧ g.toGC.Repr B ∧ g.single = none ∧ g.double = none := exists_repr B

/-! ## C47 Constant-time helpers -/

/-- **C47.** -/
theorem C47_byteEq (b c : Int64) :
    (b.toInt % 256 = c.toInt % 256 → isConstantTimeByteEq b c = 1) ∧
    (b.toInt % 256 ≠ c.toInt % 256 → isConstantTimeByteEq b c = 0) := by
  rw [isConstantTimeByteEq_eq]
  exact ⟨fun h => if_pos h, fun h => if_neg h⟩

theorem C47_negative (b : Int64) :
    (-256 ≤ b.toInt → b.toInt < 0 → isNegativeConstantTime b = 1) ∧
    (0 ≤ b.toInt → b.toInt < 256 → isNegativeConstantTime b = 0) := by
  rw [isNegativeConstantTime_eq]
  constructor
  · intro h1 h2; rw [if_pos (by omega)]
  · intro h1 h2; rw [if_neg (by omega)]

/-- Outside the documented range the sign is not what is computed: 256 counts as negative. -/
theorem C47_negative_limit : isNegativeConstantTime 256 = 1 ∧ isNegativeConstantTime (-257) = 0 := by
  decide

theorem C47_isEqualConstantTime (a b : Bytes) : isEqualConstantTime a b = true ↔ a = b := isEqualConstantTime_iff a b

/-- **C41.** What `IsPrecomputedForDoubleScalarMultiplication` reports: false for new elements, true after
`PrecomputeForDoubleScalarMultiplication`, unchanged by `PrecomputeForScalarMultiplication`. -/
theorem C41_reports (g g' : GE) : (∀ c : GC, (GE.ofGC c).isPrecomputedForDouble = false) ∧
    (g.precomputeForDoubleScalarMultiplication = .ok g' → g'.isPrecomputedForDouble = true) ∧
    (g.precomputeForScalarMultiplication = .ok g' → g'.isPrecomputedForDouble = g.isPrecomputedForDouble) := by
  refine ⟨fun _ => rfl, fun h => ?_, fun h => ?_⟩
  · unfold GE.precomputeForDoubleScalarMultiplication at h
    split at h
    · rename_i hl
      cases h
      unfold GE.isPrecomputedForDouble
      cases hd : g.double with
      | none => rw [hd] at hl; exact absurd hl (by simp)
      | some t => rfl
    · cases hp : GC.precOdd g.toGC 8 g.toGC with
      | ok t => rw [hp] at h; cases h; rfl
      | err m => rw [hp] at h; cases h
      | panic => rw [hp] at h; cases h
  · unfold GE.precomputeForScalarMultiplication at h
    split at h
    · cases h; rfl
    · cases hp : GC.precRows 32 g.toGC with
      | ok t => rw [hp] at h; cases h; rfl
      | err m => rw [hp] at h; cases h
      | panic => rw [hp] at h; cases h

/-- **C41.** A copy reports a table for double scalar multiplication even if it has none, as copies get empty tables. -/
theorem C41_copy_reports (g : GE) : g.copy.isPrecomputedForDouble = true ∧ (g.double = none → g.copy.double = some []) :=
  ⟨rfl, fun h => by unfold GE.copy; rw [h]; rfl⟩
end Ed

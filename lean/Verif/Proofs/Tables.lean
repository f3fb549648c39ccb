import Verif.Model.Tables
import Verif.Spec.TableRep
import Verif.Proofs.PointCodec
import Mathlib.Tactic.LinearCombination

/-!
# The base point tables hold the documented multiples of the base point

Every entry of the two tables is checked by the kernel (`decide +kernel` over the complete, finite
tables): limb bounds, and equality with the multiple computed by addition in projective coordinates
over natural numbers (`NP`, Spec/Base.lean).
-/

namespace Ed
open FE

/-- Limbs within the bounds of `Loose`, ten of them. -/
def limbOk (l : List Int) : Bool :=
  decide (|l.getD 0 0| ≤ 110729625) && decide (|l.getD 1 0| ≤ 55364812) && decide (|l.getD 2 0| ≤ 110729625) &&
  decide (|l.getD 3 0| ≤ 55364812) && decide (|l.getD 4 0| ≤ 110729625) && decide (|l.getD 5 0| ≤ 55364812) &&
  decide (|l.getD 6 0| ≤ 110729625) && decide (|l.getD 7 0| ≤ 55364812) && decide (|l.getD 8 0| ≤ 110729625) &&
  decide (|l.getD 9 0| ≤ 55364812)

/-- Value of a list of ten limbs. -/
def listVal (l : List Int) : Int :=
  l.getD 0 0 + 2 ^ 26 * l.getD 1 0 + 2 ^ 51 * l.getD 2 0 + 2 ^ 77 * l.getD 3 0 + 2 ^ 102 * l.getD 4 0 +
  2 ^ 128 * l.getD 5 0 + 2 ^ 153 * l.getD 6 0 + 2 ^ 179 * l.getD 7 0 + 2 ^ 204 * l.getD 8 0 +
  2 ^ 230 * l.getD 9 0

theorem feOfList_spec {l : List Int} (h : limbOk l = true) :
    Loose (feOfList l) ∧ (feOfList l).toF = ((listVal l : ℤ) : F) := by
  simp only [limbOk, Bool.and_eq_true, decide_eq_true_eq] at h
  obtain ⟨⟨⟨⟨⟨⟨⟨⟨⟨h0, h1⟩, h2⟩, h3⟩, h4⟩, h5⟩, h6⟩, h7⟩, h8⟩, h9⟩ := h
  have key : ∀ {a B : ℤ}, |a| ≤ B → B ≤ 110729625 → (Int64.ofInt a).toInt = a := by
    intro a B ha hB
    obtain ⟨u, v⟩ := abs_le.1 ha
    exact toInt_ofInt_of_fits ⟨by omega, by omega⟩
  have e0 := key h0 (by decide); have e1 := key h1 (by decide); have e2 := key h2 (by decide)
  have e3 := key h3 (by decide); have e4 := key h4 (by decide); have e5 := key h5 (by decide)
  have e6 := key h6 (by decide); have e7 := key h7 (by decide); have e8 := key h8 (by decide)
  have e9 := key h9 (by decide)
  constructor
  · unfold Loose Bd feOfList FE.ofInts
    dsimp only
    rw [e0, e1, e2, e3, e4, e5, e6, e7, e8, e9]
    exact ⟨h0, h1, h2, h3, h4, h5, h6, h7, h8, h9⟩
  · unfold toF FE.val feOfList FE.ofInts listVal
    dsimp only
    rw [e0, e1, e2, e3, e4, e5, e6, e7, e8, e9]

/-- The projective point `(a-b : a+b : 2)` of an entry `(y+x, y-x, _)`. -/
def entryNP (e : RawEntry) : NP :=
  { X := ((listVal e.x - listVal e.y) % (2 ^ 255 - 19)).toNat
    Y := ((listVal e.x + listVal e.y) % (2 ^ 255 - 19)).toNat
    Z := 2 }

/-- The entry holds the point given projectively by `n`. -/
def entryOk (n : NP) (e : RawEntry) : Bool :=
  limbOk e.x && limbOk e.y && limbOk e.z &&
  decide ((listVal e.x * n.Z - (n.Y + n.X)) % (2 ^ 255 - 19) = 0) &&
  decide ((listVal e.y * n.Z - (n.Y - n.X)) % (2 ^ 255 - 19) = 0) &&
  decide ((listVal e.z * (n.Z * n.Z) - 2 * dN * n.X * n.Y) % (2 ^ 255 - 19) = 0)

theorem F_int_zero {a : ℤ} (h : a % (2 ^ 255 - 19) = 0) : ((a : ℤ) : F) = 0 := by
  have := F_intCast_eq (a := a) (b := 0) (by rw [sub_zero]; exact Int.dvd_of_emod_eq_zero h)
  rw [this]; simp

theorem entryOk_repr {n : NP} {e : RawEntry} {q : Pt} (hn : n.Rep q) (h : entryOk n e = true) :
    e.toGC.sys = .precomputed ∧ e.toGC.Repr q := by
  simp only [entryOk, Bool.and_eq_true, decide_eq_true_eq] at h
  obtain ⟨⟨⟨⟨⟨hx, hy⟩, hz⟩, h1⟩, h2⟩, h3⟩ := h
  obtain ⟨x1, x2⟩ := feOfList_spec hx
  obtain ⟨y1, y2⟩ := feOfList_spec hy
  obtain ⟨z1, z2⟩ := feOfList_spec hz
  obtain ⟨n0, nx, ny⟩ := hn
  have g1 := F_int_zero h1
  have g2 := F_int_zero h2
  have g3 := F_int_zero h3
  push_cast at g1 g2 g3
  rw [← d_eq] at g3
  rw [nx, ny] at g1 g2 g3
  refine ⟨rfl, x1, y1, z1, ?_, ?_, ?_⟩
  · show (feOfList e.x).toF = _
    rw [x2]; apply mul_right_cancel₀ n0; linear_combination g1
  · show (feOfList e.y).toF = _
    rw [y2]; apply mul_right_cancel₀ n0; linear_combination g2
  · show (feOfList e.z).toF = _
    rw [z2]; apply mul_right_cancel₀ (mul_ne_zero n0 n0); linear_combination g3

theorem NP.Rep.of_cross {a b : NP} {q : Pt} (ha : a.Rep q) (hb : (b.Z : F) ≠ 0)
    (hx : a.X * b.Z % (2 ^ 255 - 19) = b.X * a.Z % (2 ^ 255 - 19))
    (hy : a.Y * b.Z % (2 ^ 255 - 19) = b.Y * a.Z % (2 ^ 255 - 19)) : b.Rep q := by
  obtain ⟨ha0, hax, hay⟩ := ha
  rw [← F_natCast_eq] at hx hy
  push_cast at hx hy
  rw [hax] at hx
  rw [hay] at hy
  refine ⟨hb, ?_, ?_⟩
  · apply mul_right_cancel₀ ha0; linear_combination -hx
  · apply mul_right_cancel₀ ha0; linear_combination -hy

/-- `n'` is the same point as `n`. -/
def sameOk (n n' : NP) : Bool :=
  (n.X * n'.Z % (2 ^ 255 - 19) == n'.X * n.Z % (2 ^ 255 - 19)) &&
  (n.Y * n'.Z % (2 ^ 255 - 19) == n'.Y * n.Z % (2 ^ 255 - 19))

theorem entryNP_rep {n : NP} {e : RawEntry} {q : Pt} (hn : n.Rep q) (h : sameOk n (entryNP e) = true) :
    (entryNP e).Rep q := by
  simp only [sameOk, Bool.and_eq_true, beq_iff_eq] at h
  refine hn.of_cross ?_ h.1 h.2
  show ((2 : ℕ) : F) ≠ 0
  rw [Nat.cast_ofNat]; exact two_ne_zero_F

/-- Blank entry, for out-of-range look-ups. -/
def noEntry : RawEntry := ⟨[], [], []⟩

/-- All eight entries of a row are the multiples of the point of its first entry. -/
def rowOk (row : List RawEntry) : Bool :=
  row.length == 8 &&
  (List.range 8).all fun j =>
    entryOk (NP.mul (2 ^ 255 - 19) 4 (entryNP (row.getD 0 noEntry)) (j + 1) ⟨0, 1, 1⟩) (row.getD j noEntry)

/-- The point of the first entry of `row'` is 256 times that of `row`. -/
def stepOk (row row' : List RawEntry) : Bool :=
  sameOk (NP.mul (2 ^ 255 - 19) 9 (entryNP (row.getD 0 noEntry)) 256 ⟨0, 1, 1⟩) (entryNP (row'.getD 0 noEntry))

theorem rowOk_spec {row : List RawEntry} {q : Pt} (h : rowOk row = true)
    (h0 : (entryNP (row.getD 0 noEntry)).Rep q) :
    row.length = 8 ∧ ∀ j < 8, ∃ e, row[j]? = some e ∧ e.toGC.sys = .precomputed ∧ e.toGC.Repr ((j + 1) • q) := by
  simp only [rowOk, Bool.and_eq_true, beq_iff_eq, List.all_eq_true, List.mem_range] at h
  refine ⟨h.1, fun j hj => ⟨row.getD j noEntry, ?_, ?_⟩⟩
  · have : j < row.length := by omega
    rw [List.getD_eq_getElem?_getD, List.getElem?_eq_getElem this]; rfl
  · have := NP.mul_rep 4 _ _ (j + 1) q 0 (by omega) h0 NP.zero_rep
    rw [zero_add] at this
    exact entryOk_repr this (h.2 j hj)

/-- Every row and every step of the table is right, from row `rows.head` on. -/
def rowsOk : List (List RawEntry) → Bool
  | [] => true
  | [r] => rowOk r
  | r :: r' :: rs => rowOk r && stepOk r r' && rowsOk (r' :: rs)

theorem rowsOk_spec : ∀ (rows : List (List RawEntry)) (q : Pt), rowsOk rows = true →
    (∀ r, rows.head? = some r → (entryNP (r.getD 0 noEntry)).Rep q) →
    ∀ i < rows.length, ∃ row, rows[i]? = some row ∧ row.length = 8 ∧
      ∀ j < 8, ∃ e, row[j]? = some e ∧ e.toGC.sys = .precomputed ∧ e.toGC.Repr (((j + 1) * 256 ^ i) • q)
  | [], _, _, _, i, hi => absurd hi (by simp)
  | [r], q, h, h0, i, hi => by
      have : i = 0 := by simpa using hi
      subst this
      obtain ⟨a, b⟩ := rowOk_spec h (h0 r rfl)
      exact ⟨r, rfl, a, by simpa using b⟩
  | r :: r' :: rs, q, h, h0, i, hi => by
      simp only [rowsOk, Bool.and_eq_true] at h
      obtain ⟨⟨h1, h2⟩, h3⟩ := h
      have hr := h0 r rfl
      cases i with
      | zero =>
        obtain ⟨a, b⟩ := rowOk_spec h1 hr
        exact ⟨r, rfl, a, by simpa using b⟩
      | succ i =>
        have hm := NP.mul_rep 9 _ _ 256 q 0 (by decide) hr NP.zero_rep
        rw [zero_add] at hm
        have h0' : (entryNP (r'.getD 0 noEntry)).Rep (256 • q) := entryNP_rep hm h2
        obtain ⟨row, e1, e2, e3⟩ := rowsOk_spec (r' :: rs) (256 • q) h3
          (fun s hs => by cases hs; exact h0') i (by simpa using hi)
        refine ⟨row, by simpa using e1, e2, fun j hj => ?_⟩
        obtain ⟨e, f1, f2, f3⟩ := e3 j hj
        refine ⟨e, f1, f2, ?_⟩
        rw [← mul_smul] at f3
        have : (j + 1) * 256 ^ (i + 1) = (j + 1) * 256 ^ i * 256 := by ring
        rw [this]; exact f3

theorem rawPrecSingle_ok : rowsOk rawPrecSingle = true := by decide +kernel

theorem rawPrecSingle_first :
    sameOk ⟨BxN, ByN, 1⟩ (entryNP ((rawPrecSingle.getD 0 []).getD 0 noEntry)) = true := by decide +kernel

/-- All eight entries of the other table. -/
def doubleOk (row : List RawEntry) : Bool :=
  row.length == 8 &&
  (List.range 8).all fun i =>
    entryOk (NP.mul (2 ^ 255 - 19) 4 ⟨BxN, ByN, 1⟩ (2 * i + 1) ⟨0, 1, 1⟩) (row.getD i noEntry)

theorem rawPrecDouble_ok : doubleOk rawPrecDouble = true := by decide +kernel

theorem basePrecSingle_spec : basePrecSingle.length = 32 ∧ ∀ i < 32, ∃ row, basePrecSingle[i]? = some row ∧
    row.length = 8 ∧ ∀ j < 8, ∃ e, row[j]? = some e ∧ e.sys = .precomputed ∧ e.Repr (((j + 1) * 256 ^ i) • B) := by
  refine ⟨rfl, fun i hi => ?_⟩
  obtain ⟨row, e1, e2, e3⟩ := rowsOk_spec rawPrecSingle B rawPrecSingle_ok
    (fun r hr => by
      have : r = rawPrecSingle.getD 0 [] := by cases hr; rfl
      rw [this]; exact entryNP_rep B_rep rawPrecSingle_first) i hi
  refine ⟨row.map RawEntry.toGC, ?_, by simpa using e2, fun j hj => ?_⟩
  · unfold basePrecSingle; rw [List.getElem?_map, e1]; rfl
  · obtain ⟨e, f1, f2, f3⟩ := e3 j hj
    exact ⟨e.toGC, by rw [List.getElem?_map, f1]; rfl, f2, f3⟩

theorem basePrecDouble_spec : basePrecDouble.length = 8 ∧
    ∀ i < 8, ∃ e, basePrecDouble[i]? = some e ∧ e.sys = .precomputed ∧ e.Repr ((2 * i + 1) • B) := by
  refine ⟨rfl, fun i hi => ?_⟩
  have h := rawPrecDouble_ok
  simp only [doubleOk, Bool.and_eq_true, beq_iff_eq, List.all_eq_true, List.mem_range] at h
  refine ⟨(rawPrecDouble.getD i noEntry).toGC, ?_, ?_⟩
  · have : i < rawPrecDouble.length := hi
    unfold basePrecDouble
    rw [List.getElem?_map, List.getD_eq_getElem?_getD, List.getElem?_eq_getElem this]; rfl
  · have := NP.mul_rep 4 _ _ (2 * i + 1) B 0 (by omega) B_rep NP.zero_rep
    rw [zero_add] at this
    exact entryOk_repr this (h.2 i hi)

theorem basePoint_decodes : Decodes basePointBytes B := by
  refine ⟨?_, Or.inr ?_⟩
  · show ((ByN : ℕ) : F) = _
    congr 1
  · rw [B_x_even]; decide +kernel

/-- The base point object: the point `B` with its two tables. -/
theorem getBasePoint_spec : ∃ g, getBasePoint = .ok g ∧ g.sys = .p3 ∧ g.toGC.Repr B ∧ g.Z = .one ∧
    g.SingleTable B ∧ g.DoubleTable B := by
  obtain ⟨g, h1, h2, h3, h4⟩ := GC.decode_ok (raw := basePointBytes) (Or.inl rfl) (q := B) basePoint_decodes
  refine ⟨{ g with single := some basePrecSingle, double := some basePrecDouble }, ?_, h2, h3, h4, ?_, ?_⟩
  · unfold getBasePoint; rw [h1]; rfl
  · exact ⟨_, rfl, basePrecSingle_spec⟩
  · exact ⟨_, rfl, basePrecDouble_spec⟩

end Ed

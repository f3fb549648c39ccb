import Verif.Spec.FieldRep
import Verif.Spec.Curve
import Verif.Model.Group

/-!
# When a group element represents a curve point

The relation follows the documentation of the coordinate systems (ed25519_encode.go:1914-1926):
P2 (X:Y:Z) with x=X/Z, y=Y/Z; P3 additionally XY=ZT; P1xP1 x=X/Z, y=Y/T; PRECOMPUTED (y+x, y-x, 2dxy);
CACHED (Y+X, Y-X, Z, 2dT).  The limb bounds are part of the relation.
-/

set_option autoImplicit false

namespace Ed

/-- Documented bound of the arguments of `add`/`subtract`: 1.1*2^25 = 36909875.2, 1.1*2^24 = 18454937.6. -/
def FE.Small (f : FE) : Prop := FE.Bd 36909875 18454937 f

namespace GC
open FE

/-- The group element `g` represents the curve point `q`. -/
def Repr (g : GC) (q : Pt) : Prop :=
  match g.sys with
  | .p2 => Small g.X ∧ Small g.Y ∧ Small g.Z ∧ g.Z.toF ≠ 0 ∧
      g.X.toF = q.x * g.Z.toF ∧ g.Y.toF = q.y * g.Z.toF
  | .p3 => Small g.X ∧ Small g.Y ∧ Small g.Z ∧ g.Z.toF ≠ 0 ∧
      g.X.toF = q.x * g.Z.toF ∧ g.Y.toF = q.y * g.Z.toF ∧
      ∃ t, g.T = some t ∧ Small t ∧ t.toF = q.x * q.y * g.Z.toF
  | .p1xp1 => Loose g.X ∧ Loose g.Y ∧ Loose g.Z ∧ g.Z.toF ≠ 0 ∧
      ∃ t, g.T = some t ∧ Loose t ∧ t.toF ≠ 0 ∧ g.X.toF = q.x * g.Z.toF ∧ g.Y.toF = q.y * t.toF
  | .precomputed => Loose g.X ∧ Loose g.Y ∧ Loose g.Z ∧
      g.X.toF = q.y + q.x ∧ g.Y.toF = q.y - q.x ∧ g.Z.toF = 2 * d * q.x * q.y
  | .cached => Loose g.X ∧ Loose g.Y ∧ Loose g.Z ∧ g.Z.toF ≠ 0 ∧
      g.X.toF = (q.y + q.x) * g.Z.toF ∧ g.Y.toF = (q.y - q.x) * g.Z.toF ∧
      ∃ t, g.T = some t ∧ Loose t ∧ t.toF = 2 * d * q.x * q.y * g.Z.toF
  | .affine => False

/-- `Repr`, with AFFINE (x, y) as well. -/
def ReprA (g : GC) (q : Pt) : Prop :=
  if g.sys = .affine then Small g.X ∧ Small g.Y ∧ g.X.toF = q.x ∧ g.Y.toF = q.y else g.Repr q

end GC
end Ed

import Verif.Model.RTree

/-
Specification of the content of a mesh.
-/
namespace Pyinterp.Spec
open Pyinterp.RTree

/-- The position of an observation given by a row of the matrix of coordinates (documentation of `RTree.packing` in rtree.py):
the columns are x, y, z (Cartesian) or longitude, latitude, altitude (geodetic); without a third column it is zero. `toEcef`
converts geodetic coordinates. -/
noncomputable def rowPosition (toEcef : ℝ → ℝ → ℝ → Point) (ecef : Bool) (row : List ℝ) : Option Point :=
  match row with
  | [x, y] => some (if ecef then ⟨x, y, 0⟩ else toEcef x y 0)
  | [x, y, z] => some (if ecef then ⟨x, y, z⟩ else toEcef x y z)
  | _ => none

/-- `items` are the observations given by the rows and the values. -/
def Observations (toEcef : ℝ → ℝ → ℝ → Point) (ecef : Bool) (rows : List (List ℝ)) (values : List ℝ) (items : List Item) : Prop :=
  items.length = rows.length ∧ items.length = values.length ∧
  ∀ (i : Nat) (item : Item) (row : List ℝ) (v : ℝ), items[i]? = some item → rows[i]? = some row → values[i]? = some v →
    rowPosition toEcef ecef row = some item.pt ∧ item.val = v

/-- The box `lo, hi` contains the point. -/
def InBounds (b : Point × Point) (p : Point) : Prop :=
  (b.1.x ≤ p.x ∧ p.x ≤ b.2.x) ∧ (b.1.y ≤ p.y ∧ p.y ≤ b.2.y) ∧ b.1.z ≤ p.z ∧ p.z ≤ b.2.z

end Pyinterp.Spec

import Verif.Model.RTree

/-
Specification for the spatial index.
-/
namespace Pyinterp.Spec
open Pyinterp.RTree

/-- `l` is an answer to "the `k` points of `all` that are nearest to `p`": as many points as possible up to `k`, sorted
from the nearest to the farthest; the points that are left out are not nearer (which one of several equidistant points is
taken is free). This is the contract of `boost::geometry::index::nearest` with `qbegin` (Boost documentation). -/
structure KNearest (all : List Item) (p : Point) (k : Nat) (l : List Item) : Prop where
  count : l.length = min k all.length
  sorted : l.Pairwise fun a b => distance p a.pt ≤ distance p b.pt
  nearest : ∃ rest, (l ++ rest).Perm all ∧ ∀ a ∈ l, ∀ b ∈ rest, distance p a.pt ≤ distance p b.pt

/-- The point is in the smallest box, in Cartesian coordinates, that contains the points of the list. -/
def InBox (p : Point) (l : List Point) : Prop :=
  (∃ a ∈ l, a.x ≤ p.x) ∧ (∃ a ∈ l, p.x ≤ a.x) ∧ (∃ a ∈ l, a.y ≤ p.y) ∧ (∃ a ∈ l, p.y ≤ a.y) ∧
  (∃ a ∈ l, a.z ≤ p.z) ∧ ∃ a ∈ l, p.z ≤ a.z

noncomputable instance (p : Point) (l : List Point) : Decidable (InBox p l) := Classical.dec _

/-- The distance is in the radius of the search (no radius: always). -/
def InRadius (radius : Option ℝ) (d : ℝ) : Prop := match radius with
  | some r => d ≤ r
  | none => True

noncomputable instance (radius : Option ℝ) (d : ℝ) : Decidable (InRadius radius d) := Classical.dec _

/-- The weighted mean of the values of the items, with the weight `w i` for the item `i`. -/
def IsItemMean (l : List Item) (w : Item → ℝ) (r : ℝ) : Prop :=
  (l.map w).sum ≠ 0 ∧ r * (l.map w).sum = (l.map fun i => w i * i.val).sum

end Pyinterp.Spec

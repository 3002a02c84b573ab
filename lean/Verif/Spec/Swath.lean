import Verif.Model.RTree

/-
Specification of the pixels of a swath: rotations of the nadir point around the direction of flight.
-/
namespace Pyinterp
open Pyinterp.RTree Real

/-- Scalar product. -/
def dot3 (p q : Point) : ℝ := p.x * q.x + p.y * q.y + p.z * q.z

/-- Vector product. -/
def cross3 (p q : Point) : Point := ⟨p.y * q.z - p.z * q.y, p.z * q.x - p.x * q.z, p.x * q.y - p.y * q.x⟩

/-- Difference of two positions. -/
def sub3 (p q : Point) : Point := ⟨p.x - q.x, p.y - q.y, p.z - q.z⟩

/-- The length of a vector. -/
noncomputable def len3 (p : Point) : ℝ := √(dot3 p p)

/-- `q` is the point `loc` turned by the angle `theta` to the right of an observer that flies in the direction `dir` above `loc`
(negative angles: to the left): it stays in the plane across the direction, at the same distance of the axis; the third vector
`dir × loc` points to the right of the observer. -/
structure TurnedRight (loc dir : Point) (theta : ℝ) (q : Point) : Prop where
  radius : dot3 q q = dot3 loc loc
  plane : dot3 q dir = dot3 loc dir
  ahead : dot3 q loc * dot3 dir dir = cos theta * (dot3 loc loc * dot3 dir dir) + (1 - cos theta) * dot3 loc dir ^ 2
  side : dot3 q (cross3 dir loc) * len3 dir = sin theta * dot3 (cross3 dir loc) (cross3 dir loc)

/-- The direction of flight at the sample `i` of a track: from the previous sample to the next one; at the two ends, that of the
neighbour. -/
def flight (track : Nat → Point) (n i : Nat) : Point :=
  let k := max 1 (min i (n - 2))
  sub3 (track (k + 1)) (track (k - 1))

end Pyinterp

import Verif.Model.Geohash

/-
Vocabulary of the geohash properties.
-/
namespace Pyinterp.Spec

open Pyinterp.Geohash

variable {K : Type} [Field K] [LinearOrder K]

/-- The point is in the cell covered by the box: western and southern edges
belong to the cell, eastern and northern ones do not, except at longitude 180 and
at the north pole. -/
def InCell (b : Box K) (p : Point K) : Prop :=
  b.minCorner.lon ≤ p.lon ∧ (p.lon < b.maxCorner.lon ∨ (p.lon = 180 ∧ b.maxCorner.lon = 180)) ∧
  b.minCorner.lat ≤ p.lat ∧ (p.lat < b.maxCorner.lat ∨ (p.lat = 90 ∧ b.maxCorner.lat = 90))

/-- The box `a` is included in the box `b`. -/
def BoxSubset (a b : Box K) : Prop :=
  b.minCorner.lon ≤ a.minCorner.lon ∧ a.maxCorner.lon ≤ b.maxCorner.lon ∧
  b.minCorner.lat ≤ a.minCorner.lat ∧ a.maxCorner.lat ≤ b.maxCorner.lat

/-- A point with a longitude of [-180, 180] and a latitude of [-90, 90]. -/
def OnEarth (p : Point K) : Prop :=
  -180 ≤ p.lon ∧ p.lon ≤ 180 ∧ -90 ≤ p.lat ∧ p.lat ≤ 90

/-- North, north-east, east, south-east, south, south-west, west, north-west, as
steps in longitude and latitude. -/
def compass : List (ℤ × ℤ) :=
  [(0, 1), (1, 1), (1, 0), (1, -1), (0, -1), (-1, -1), (-1, 0), (-1, 1)]

/-- The cell `n` is the cell `b` moved by `dx` widths and `dy` heights; longitudes
are taken modulo 360 degrees. -/
def Adjacent (b n : Box K) (dx dy : ℤ) : Prop :=
  (∃ k : ℤ, n.minCorner.lon = b.minCorner.lon + (dx : K) * (b.maxCorner.lon - b.minCorner.lon) +
    (k : K) * 360) ∧
  n.minCorner.lat = b.minCorner.lat + (dy : K) * (b.maxCorner.lat - b.minCorner.lat) ∧
  n.maxCorner.lon - n.minCorner.lon = b.maxCorner.lon - b.minCorner.lon ∧
  n.maxCorner.lat - n.minCorner.lat = b.maxCorner.lat - b.minCorner.lat

end Pyinterp.Spec

import Verif.Model.GeoTree

/-
Vocabulary of the statements about `core.geodetic.RTree` (C100).
-/
namespace Pyinterp.Spec.GeoTree
open Pyinterp.GeoTree

/-- `l` is an answer to "the `k` elements of `all` with the smallest distances": as many as possible up to `k`, from the nearest
to the farthest, and those left out are not nearer. -/
structure KNear {α : Type} (d : α → ℝ) (all : List α) (k : Nat) (l : List α) : Prop where
  count : l.length = min k all.length
  sorted : l.Pairwise fun a b => d a ≤ d b
  nearest : ∃ rest, (l ++ rest).Perm all ∧ ∀ a ∈ l, ∀ b ∈ rest, d a ≤ d b

/-- What is assumed of the index of Boost: it finds the nearest points, for a distance `d0` that is its own (it does not know the
strategy of the tree: detail/geometry/rtree.hpp:121), from any content. -/
def IndexOk (b : Boost) (d0 : Pos → Pos → ℝ) : Prop := ∀ all q k, KNear (fun i : Item => d0 q i.pos) all k (b.near all q k)

/-- The index of Boost and the tree agree on the distances (which are not negative): this is so for a tree made without a
spheroid, the index using the distances of WGS84. -/
def Agree (b : Boost) (t : Tree) : Prop := IndexOk b (b.distance t.axes) ∧ ∀ p q, 0 ≤ b.distance t.axes p q

/-- The same place: longitudes that differ by a number of turns, same latitude. -/
def SamePlace (p q : ℝ × ℝ) : Prop := (∃ n : ℤ, q.1 = p.1 + n * 360) ∧ q.2 = p.2

/-- The place of a query: longitude in [-180, 180). -/
def Place (lon lat : ℝ) (q : Pos) : Prop := SamePlace (lon, lat) (q.lon, q.lat) ∧ -180 ≤ q.lon ∧ q.lon < 180

/-- The item stored for an observation: its value, at its place, with the longitude in [-180, 180). -/
def StoredAs (o : (ℝ × ℝ) × ℝ) (i : Item) : Prop :=
  i.val = o.2 ∧ SamePlace o.1 (i.pos.lon, i.pos.lat) ∧ -180 ≤ i.pos.lon ∧ i.pos.lon < 180

/-- The weighted mean. -/
def IsMean {α : Type} (l : List α) (w v : α → ℝ) (r : ℝ) : Prop :=
  (l.map w).sum ≠ 0 ∧ r * (l.map w).sum = (l.map fun i => w i * v i).sum

/-- The items within the radius. -/
noncomputable def inRadius (d : Item → ℝ) (radius : Option ℝ) (l : List Item) : List Item :=
  l.filter fun i => match radius with
    | some r => @decide (d i ≤ r) (Classical.dec _)
    | none => true

end Pyinterp.Spec.GeoTree

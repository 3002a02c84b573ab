import Mathlib.Algebra.Order.Field.Basic
import Mathlib.Data.List.Pairwise
import Mathlib.Data.List.Zip

/-
Specification used by C90-C92: what it means for recorded longitudes to come from
the ground track of a satellite.
-/
namespace Pyinterp.Crossover.Spec

variable {K : Type} [Field K] [LinearOrder K]

/-- Two longitudes, in degrees, that designate the same meridian. -/
def SameMeridian (x y : K) : Prop := ∃ k : ℤ, y = x + (k : K) * 360

/-- `track` gives the true, continuous, longitudes of a half-orbit (they may leave [w, w + 360)):
the satellite always goes east, or always goes west, by less than 180° between two measurements. -/
def Track (track : List K) : Prop :=
  (track.Pairwise (· < ·) ∨ track.Pairwise (· > ·)) ∧ track.IsChain (fun a b => |b - a| < 180)

/-- All the longitudes of the track lie in an interval of length `span`. -/
def Spans (track : List K) (span : K) : Prop := ∀ x ∈ track, ∀ y ∈ track, x - y ≤ span

/-- `lon` is the track as the file of the satellite gives it: each longitude brought back to
[w, w + 360), for instance w = -180 or w = 0. -/
def Recorded (w : K) (track lon : List K) : Prop :=
  List.Forall₂ (fun t x => SameMeridian t x ∧ w ≤ x ∧ x < w + 360) track lon

/-- Square of the distance of two points of the plane. -/
def d2 (p q : K × K) : K := (p.1 - q.1) ^ 2 + (p.2 - q.2) ^ 2

/-- `i` is the index of a point of the line nearest to `q`, and the first one. -/
def FirstNearest (l : List (K × K)) (q : K × K) (i : Nat) : Prop :=
  ∃ p, l[i]? = some p ∧ (∀ r ∈ l, d2 p q ≤ d2 r q) ∧ (∀ j r, j < i → l[j]? = some r → d2 p q < d2 r q)

/-- The same place with the longitude in [-180, 180). -/
def Normalized (q p : K × K) : Prop := SameMeridian q.1 p.1 ∧ -180 ≤ p.1 ∧ p.1 < 180 ∧ p.2 = q.2

/-- The distance is known to exceed the limit (a NaN, `none`, does not). -/
def TooFar (d : Option K) (limit : K) : Prop := ∃ x, d = some x ∧ limit < x

/-- What becomes of the crossing point `q` of the unrolled lines `L1`, `L2` of two half-orbits given by
`(lon1, lat1)`, `(lon2, lat2)`: `none` if a nearest measurement is too far, otherwise the point and the
indices of the nearest measurements. -/
def PlaneOutcome (dist : K × K → K × K → Option K) (lon1 lat1 lon2 lat2 : List K) (limit : K)
    (L1 L2 : List (K × K)) (q : K × K) (r : Option ((K × K) × Nat × Nat)) : Prop :=
  ∃ p i j x1 y1 x2 y2, Normalized q p ∧ FirstNearest L1 q i ∧ FirstNearest L2 q j ∧
    lon1[i]? = some x1 ∧ lat1[i]? = some y1 ∧ lon2[j]? = some x2 ∧ lat2[j]? = some y2 ∧
    ((TooFar (dist p (x1, y1)) limit ∨ TooFar (dist p (x2, y2)) limit) → r = none) ∧
    (¬ TooFar (dist p (x1, y1)) limit → ¬ TooFar (dist p (x2, y2)) limit → r = some (p, i, j))

end Pyinterp.Crossover.Spec

import Mathlib.Algebra.Order.Field.Basic
import Mathlib.Algebra.Order.Floor.Ring

/-
Specification vocabulary for the filling of grids; `none` is an undefined value, the grid has
`rows` x `cols` cells.
-/
namespace Pyinterp.Spec

variable {K : Type} [Field K] [LinearOrder K]

/-- The four neighbours of the cell `(x, y)`: at the border the cell on the other side (mirror), or
the opposite border in the first direction when it is a circle. -/
def Neighbour (rows cols : Nat) (circle : Bool) (x y x' y' : Nat) (dx dy : Int) : Prop :=
  (dy = 0 ∧ y' = y ∧ ((0 ≤ (x : Int) + dx ∧ (x : Int) + dx < rows ∧ (x' : Int) = x + dx) ∨
      (circle = true ∧ (x : Int) + dx < 0 ∧ x' + 1 = rows) ∨
      (circle = true ∧ (x : Int) + dx = rows ∧ x' = 0) ∨
      (circle = false ∧ ((x : Int) + dx < 0 ∨ (x : Int) + dx = rows) ∧ (x' : Int) = x - dx))) ∨
  (dx = 0 ∧ x' = x ∧ ((0 ≤ (y : Int) + dy ∧ (y : Int) + dy < cols ∧ (y' : Int) = y + dy) ∨
      (((y : Int) + dy < 0 ∨ (y : Int) + dy = cols) ∧ (y' : Int) = y - dy)))

/-- The value of the cell `(x, y)` is the mean of its four neighbours. -/
def MeanOfNeighbours (rows cols : Nat) (circle : Bool) (g : Nat → Nat → Option K) (x y : Nat) : Prop :=
  ∃ w e s n x1 x2 y1 y2, Neighbour rows cols circle x y x1 y (-1) 0 ∧
    Neighbour rows cols circle x y x2 y 1 0 ∧ Neighbour rows cols circle x y x y1 0 (-1) ∧
    Neighbour rows cols circle x y x y2 0 1 ∧
    g x1 y = some w ∧ g x2 y = some e ∧ g x y1 = some s ∧ g x y2 = some n ∧
    g x y = some ((w + e + s + n) / 4)

/-- The value of the cell `(x, y)` is at a distance of at most `tol` of the mean of its four neighbours. -/
def NearMeanOfNeighbours (rows cols : Nat) (circle : Bool) (g : Nat → Nat → Option K) (x y : Nat) (tol : K) : Prop :=
  ∃ w e s n v x1 x2 y1 y2, Neighbour rows cols circle x y x1 y (-1) 0 ∧
    Neighbour rows cols circle x y x2 y 1 0 ∧ Neighbour rows cols circle x y x y1 0 (-1) ∧
    Neighbour rows cols circle x y x y2 0 1 ∧
    g x1 y = some w ∧ g x2 y = some e ∧ g x y1 = some s ∧ g x y2 = some n ∧ g x y = some v ∧
    |(w + e + s + n) / 4 - v| ≤ tol

/-- The position of the integer `i` on an axis of `n` cells: round the circle, or going back and
forth between the first and the last cell (mirror at both ends). -/
def cellAt (circle : Bool) (n : Nat) (i : Int) : Nat :=
  if circle then (i % (n : Int)).toNat
  else ((i + ((n : Int) - 1)) % (2 * ((n : Int) - 1)) - ((n : Int) - 1)).natAbs

/-- The cells from `half` cells before the cell `i` to `half` cells after. -/
def windowCells (circle : Bool) (n half i : Nat) : List Nat :=
  (List.range (2 * half + 1)).map fun (k : Nat) => cellAt circle n ((i : Int) - (half : Int) + (k : Int))

/-- The tri-cube function. -/
def tricube (d : K) : K := if d ≤ 1 then (1 - d ^ 3) ^ 3 else 0

/-- The angle `x` in degrees brought into `[base, base + 360)`. -/
def onTurn [FloorRing K] (base x : K) : K := x - 360 * (⌊(x - base) / 360⌋ : K)

/-- The position along x of the cell `k` of a window that begins at the cell `first`. -/
def xPos [FloorRing K] (angle : Bool) (lx : List K) (first k : Nat) : K :=
  if angle then onTurn (lx.getD first 0) (lx.getD k 0) else lx.getD k 0

/-- The defined values of the window of `2 nx + 1` x `2 ny + 1` cells round the cell `(i, j)` of the
grid `z` with the coordinates `lx` (`angle`: a longitude) and `ly`, with their tri-cube weights:
the distances are measured in units of `nx` along x and `ny` along y. -/
def loessSamples [FloorRing K] (sqrt : K → K) (nx ny : Nat) (angle : Bool) (lx ly : List K)
    (z : Nat → Nat → Option K) (i j : Nat) : List (K × K) :=
  let wx := windowCells angle lx.length nx i
  let wy := windowCells false ly.length ny j
  let first := wx.getD 0 0
  (wx.product wy).filterMap fun c => (z c.1 c.2).map fun v =>
    (tricube (sqrt (((xPos angle lx first c.1 - xPos angle lx first i) / (nx : K)) ^ 2 +
      ((ly.getD c.2 0 - ly.getD j 0) / (ny : K)) ^ 2)), v)

/-- `r` is the mean of the values of `l` weighted by the first components. -/
def WeightedMean (l : List (K × K)) (r : K) : Prop :=
  (l.map Prod.fst).sum ≠ 0 ∧ r * (l.map Prod.fst).sum = (l.map fun p => p.1 * p.2).sum

/-- The value marks a gap: NaN when NaN is the filling value (`none`), otherwise the filling value. -/
def undefinedBy {V : Type} [DecidableEq V] : Option V → Option V → Bool
  | none, none => true
  | none, some _ => false
  | some _, none => false
  | some f, some v => if v = f then true else false

/-- `a < b` are two defined positions of the line with nothing defined in between. -/
def Consecutive (undef : Nat → Bool) (a b : Nat) : Prop :=
  a < b ∧ undef a = false ∧ undef b = false ∧ ∀ m, a < m → m < b → undef m = true

/-- `f` is the first defined position of the line. -/
def FirstDefined (size : Nat) (undef : Nat → Bool) (f : Nat) : Prop :=
  f < size ∧ undef f = false ∧ ∀ m, m < f → undef m = true

/-- `l` is the last defined position of the line. -/
def LastDefined (size : Nat) (undef : Nat → Bool) (l : Nat) : Prop :=
  l < size ∧ undef l = false ∧ ∀ m, l < m → m < size → undef m = true

/-- The ordinate at `i` of the straight line through `(a, va)` and `(b, vb)`. -/
def onLine (a b : Nat) (va vb : K) (i : Nat) : K :=
  va + ((i : K) - (a : K)) * (vb - va) / ((b : K) - (a : K))

end Pyinterp.Spec

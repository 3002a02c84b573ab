import Verif.Model.Delayed

/-
Model of the copies and of the pickling of the C++ class `Binning1D`
(src/pyinterp/core/include/pyinterp/binning.hpp, src/pyinterp/core/module/binning.cpp).
-/
namespace Pyinterp.Delayed

section
variable {K : Type} [Field K] [LinearOrder K] [FloorRing K]

/-- The tuple of `Binning1D::getstate` (binning.hpp:426-429): the state of the X axis, the
accumulators, as a matrix with its numbers of rows and columns, and the range. -/
structure State1 (K : Type) where
  x : AxisState K
  rows : Int
  cols : Int
  acc : List (Stats.Acc K)
  range : K × K

/-- `Binning1D::getstate` (binning.hpp:426-429); the matrix has the sizes of the two axes
(binning.hpp:44-49). -/
def getstate1D (b : Binning1 K) : Out (State1 K) := do
  let x ← b.bins.x.getstate
  .ok ⟨x, b.bins.x.size, b.bins.y.size, b.bins.acc, (b.lo, b.hi)⟩

/-- `Binning1D::setstate` (binning.hpp:432-457), for a tuple of three elements. -/
def setstate1D (s : State1 K) : Out (Binning1 K) := do
  let x ← Axis.setstate s.x
  if s.rows ≠ x.size ∨ s.cols ≠ 1 then .error .exn
  else do
    let b ← make1D x (some s.range)
    .ok { b with bins := { b.bins with acc := s.acc } }

/-- The objects of the module `core`: the class `Binning1D` is bound as a class derived from
`Binning2D` (module/binning.cpp:165-166). -/
inductive CoreObject (K : Type) where
  | binning2D (b : Bin2D.Binning K)
  | binning1D (b : Binning1 K)

/-- `copy.copy` (module/binning.cpp:152-158): the only method `__copy__` is that of
`Binning2D`, which `Binning1D` inherits: it builds a `Binning2D` from the base part of the
object. -/
def coreCopy : CoreObject K → CoreObject K
  | .binning2D b => .binning2D b
  | .binning1D b => .binning2D b.bins

end

end Pyinterp.Delayed

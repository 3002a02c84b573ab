import Verif.Model.Binning

/-
Model of `Binning2D.variable` and `Binning1D.variable` (src/pyinterp/binning.py) through the
bindings of src/pyinterp/core/module/binning.cpp.
-/
namespace Pyinterp.Variable

/-- What `variable` returns: an array of shape (nx, ny) in row-major order (`none` is NaN), or
`None`. -/
inductive Result (K : Type) where
  | array (nx ny : Int) (cells : List (Option K))
  | nothing
  deriving DecidableEq

section
variable {K : Type} [Field K] [LinearOrder K] [FloorRing K]

/-- `calculate_statistics` (binning.hpp:264-279). -/
def calculate (b : Bin2D.Binning K) (f : Stats.Acc K → Option K) : Result K :=
  .array b.x.size b.y.size (b.acc.map f)

/-- `getattr(self._instance, statistics)()` (binning.py:230-234, 364-368,
module/binning.cpp:41-150): the result, and the C++ object afterwards. `skew` is the function
`skewness` (it needs the function `pow`). A property (`x`, `y`, `wgs`) cannot be called and
`push` needs arguments: TypeError. An unknown name gives ValueError. Not modelled: the names
that start with an underscore, and `range` of Binning1D. -/
def variable' (skew : Stats.Acc K → Option K) (b : Bin2D.Binning K) (statistics : String) :
    Out (Result K × Bin2D.Binning K) :=
  if statistics = "count" then .ok (calculate b fun a => some (a.count : K), b)
  else if statistics = "kurtosis" then .ok (calculate b Stats.kurtosis, b)
  else if statistics = "max" then .ok (calculate b Stats.getMax, b)
  else if statistics = "mean" then .ok (calculate b Stats.getMean, b)
  else if statistics = "min" then .ok (calculate b Stats.getMin, b)
  else if statistics = "sum" then .ok (calculate b fun a => some a.sum, b)
  else if statistics = "sum_of_weights" then .ok (calculate b fun a => some a.sumOfWeights, b)
  else if statistics = "skewness" then .ok (calculate b skew, b)
  else if statistics = "variance" then .ok (calculate b fun a => Stats.variance a 0, b)
  else if statistics = "clear" then .ok (.nothing, Bin2D.make b.x b.y b.wgs)
  else .error .exn

end

end Pyinterp.Variable

import Verif.Model.Axis

/-
Specification of the boundary handling of windows of indexes
(documentation of `Axis.find_indexes` / `axis::Boundary`): what the index `j`,
possibly outside `[0, len)`, designates.
-/
namespace Pyinterp.Spec

/-- circular axis: modulo; expand: nearest edge; wrap: modulo; sym: mirror image
around the edge element; undef: nothing. -/
def windowIndex (circle : Bool) (b : Boundary) (len j : Int) : Option Int :=
  if 0 ≤ j ∧ j < len then some j
  else if circle then some (j % len)
  else match b with
    | .expand => some (if j < 0 then 0 else len - 1)
    | .wrap => some (j % len)
    | .sym => some (if j < 0 then -j else 2 * (len - 1) - j)
    | .undef => none

end Pyinterp.Spec

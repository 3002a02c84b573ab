import Verif.Model.Axis

/-
Model of the methods `flip`, `__copy__`, `increment` and `is_regular` of the Python axes
(src/pyinterp/core/module/axis.cpp:17-139, 157-203).
-/
namespace Pyinterp

section
variable {T : Type} [LinearOrder T] [AddCommGroup T] [AxisNum T]

/-- `axis.flip(inplace)` (module/axis.cpp:50-62): the axis after the call, and the axis returned. With `inplace` the axis
returned is the axis itself. -/
def Axis.pyFlip (a : Axis T) (inplace : Bool) : Out (Axis T × Axis T) := do
  if inplace then
    return (a.flip, a.flip)
  else
    let s ← a.getstate
    let b ← Axis.setstate s
    return (a, b.flip)

/-- `copy.copy(axis)` (module/axis.cpp:27-30; detail/axis.hpp:94-98, 484-495): the container is cloned; an undefined axis is
refused. -/
def Axis.pyCopy (a : Axis T) : Out (Axis T) :=
  match a.cont with
  | .regular r => .ok { isCircle := a.isCircle, circle := a.circle, cont := .regular r }
  | .irregular p asc => .ok { isCircle := a.isCircle, circle := a.circle, cont := .irregular p asc }
  | .undefined => .error .exn

/-- `axis.increment()` (detail/axis.hpp:217-223; module/axis.cpp:184-191). -/
def Axis.increment (a : Axis T) : Out T :=
  match a.cont with
  | .regular r => .ok r.step
  | _ => .error .exn

end
end Pyinterp

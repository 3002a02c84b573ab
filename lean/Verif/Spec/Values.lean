import Verif.Model.PyObjects

/-
The behaviour a user expects from objects that are independent values: each object has its own
value, a copy is a new value, `+` makes a new value from two values and modifies none, and the
operations that modify an object modify no other one.
-/
namespace Pyinterp.Spec

variable {O Call : Type}

open PyObjects

/-- One operation on independent values. -/
def valueStep (iadd : O → O → Out O) (run : Call → O → Out O) (vals : List O) :
    Op O Call → Out (List O)
  | .new o => .ok (vals ++ [o])
  | .copyMethod a | .copyCopy a =>
    match vals[a]? with
    | none => .error .exn
    | some u => .ok (vals ++ [u])
  | .iadd a b =>
    match vals[a]?, vals[b]? with
    | some u, some v => do
      let r ← iadd u v
      .ok (vals.set a r)
    | _, _ => .error .exn
  | .add a b =>
    match vals[a]?, vals[b]? with
    | some u, some v => do
      let r ← iadd u v
      .ok (vals ++ [r])
    | _, _ => .error .exn
  | .call a c =>
    match vals[a]? with
    | some u => do
      let r ← run c u
      .ok (vals.set a r)
    | _ => .error .exn

/-- A program on independent values. -/
def valueExec (iadd : O → O → Out O) (run : Call → O → Out O) (vals : List O) :
    List (Op O Call) → List O
  | [] => vals
  | op :: ops =>
    match valueStep iadd run vals op with
    | .ok vals' => valueExec iadd run vals' ops
    | .error _ => valueExec iadd run vals ops

/-- The program uses neither `copy.copy` nor `+`. -/
def NoSharing : Op O Call → Prop
  | .copyCopy _ | .add _ _ => False
  | _ => True

/-- The operation neither modifies the object `c` nor shares its C++ object: `c` is at most the
right operand of `+=` and `+`, or the object on which `copy()` is called. -/
def Leaves (c : Nat) : Op O Call → Prop
  | .new _ | .copyMethod _ => True
  | .copyCopy a => a ≠ c
  | .iadd a _ => a ≠ c
  | .add a _ => a ≠ c
  | .call a _ => a ≠ c

end Pyinterp.Spec

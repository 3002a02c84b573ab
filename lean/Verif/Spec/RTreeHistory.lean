import Verif.Model.RTreePy

/-
Specification of the number of observations of a mesh after a history of calls.
-/
namespace Pyinterp.Spec
open Pyinterp.RTree

/-- The call is accepted: a matrix of two or three columns, with a row for each value. -/
def Accepted (cols : Nat) (rows : List (List ℝ)) (values : List ℝ) : Prop :=
  (cols = 2 ∨ cols = 3) ∧ rows.length = values.length

/-- `Count history n`: `n` observations are stored in a mesh that was created empty and then received the calls of the
history (the last call is the head of the list). -/
inductive Count : List Change → Nat → Prop
  | created : Count [] 0
  | clear {l n} : Count l n → Count (.clear :: l) 0
  | packing {l n cols rows values} : Count l n → Accepted cols rows values →
      Count (.packing cols rows values :: l) values.length
  | insert {l n cols rows values} : Count l n → Accepted cols rows values →
      Count (.insert cols rows values :: l) (n + values.length)
  | packingRefused {l n cols rows values} : Count l n → ¬ Accepted cols rows values →
      Count (.packing cols rows values :: l) n
  | insertRefused {l n cols rows values} : Count l n → ¬ Accepted cols rows values →
      Count (.insert cols rows values :: l) n

end Pyinterp.Spec

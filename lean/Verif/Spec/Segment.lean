/-
The part of a list around one of its elements.
-/
namespace Pyinterp.Spec

/-- The elements of `l` whose index differs from `i` by at most `h`. -/
def around {T : Type} (l : List T) (i h : Nat) : List T := (l.take (i + h + 1)).drop (i - h)

end Pyinterp.Spec

import Verif.Model.PeriodPy

/-
What the dates, the periods and the lists of periods of Python stand for: instants, in
attoseconds since 1970-01-01.
-/
namespace Pyinterp.Spec.PeriodPy
open Pyinterp.PeriodPy Dateutils

/-- The instant of a date: the beginning of its unit. -/
def instant (d : Date64) : Int := start d.unit d.value

/-- The instants of a period: from the beginning of its first unit of time to the end of its
last one. -/
def Mem (p : PyPeriod) (t : Int) : Prop :=
  start p.resolution p.base.begin_ ≤ t ∧ t < start p.resolution (p.base.last + 1)

/-- A period that is not empty. -/
def Valid (p : PyPeriod) : Prop := p.base.begin_ ≤ p.base.last

/-- The units `v` subdivide the units `u`: each beginning of a unit `u` is that of a unit `v`. -/
def Refines (u v : Resolution) : Prop := ∀ n, ∃ m, start v m = start u n

/-- The instants of a list of periods. -/
def Covered (l : PyList) (t : Int) : Prop :=
  ∃ p ∈ l.base, Mem ⟨l.unit, p⟩ t

/-- Dates in chronological order. -/
def InOrder (dates : List Date64) : Prop := dates.Pairwise fun a b => instant a ≤ instant b

instance (p : PyPeriod) (t : Int) : Decidable (Mem p t) := inferInstanceAs (Decidable (_ ∧ _))
instance (p : PyPeriod) : Decidable (Valid p) := inferInstanceAs (Decidable (_ ≤ _))

end Pyinterp.Spec.PeriodPy

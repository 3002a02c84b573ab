import Verif.Model.Period

/-!
Specification of periods as sets of integer instants.
-/
namespace Pyinterp

/-- The instant `t` lies in the period: a period is the closed interval
`[begin, last]`. -/
def Period.Mem (p : Period) (t : Int) : Prop := p.begin_ ≤ t ∧ t ≤ p.last

/-- A period that contains at least one instant. -/
def Period.Valid (p : Period) : Prop := p.begin_ ≤ p.last

/-- The instant is covered by a period of the list. -/
def Covers (l : List Period) (t : Int) : Prop := ∃ p ∈ l, p.Mem t

/-- All the periods are valid and each period ends before the next ones begin. -/
def SortedDisjoint (l : List Period) : Prop :=
  (∀ p ∈ l, p.Valid) ∧ l.Pairwise (fun p q => p.last < q.begin_)

/-- Dates in chronological order. -/
def Chronological (dates : List Int) : Prop := dates.Pairwise (· ≤ ·)

instance (p : Period) : Decidable p.Valid := inferInstanceAs (Decidable (_ ≤ _))
instance (p : Period) (t : Int) : Decidable (p.Mem t) := inferInstanceAs (Decidable (_ ∧ _))
instance (l : List Period) : Decidable (SortedDisjoint l) := inferInstanceAs (Decidable (_ ∧ _))
instance (d : List Int) : Decidable (Chronological d) := inferInstanceAs (Decidable (d.Pairwise _))

end Pyinterp

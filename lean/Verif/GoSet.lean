/- Model of `parser/set.go`. -/
import Verif.Keyword

namespace Verif

/-- `Set[T]`, parser/set.go:3-5.  The Go map with empty-struct values is the list of its keys;
a key occurs at most once.  Go's unspecified map order is not modelled: the list order is the
insertion order, and `members` is only ever used up to permutation. -/
structure GoSet (α : Type) where
  m : List α

namespace GoSet
variable {α : Type} [DecidableEq α]

/-- `m[member] = struct{}{}` on a Go map (parser/set.go:10, 16): overwriting an existing key
leaves the key set as it is. -/
def mapInsert (m : List α) (a : α) : List α := if a ∈ m then m else m ++ [a]

/-- `NewSet`, parser/set.go:7-13. -/
def new (members : List α) : GoSet α := ⟨members.foldl mapInsert []⟩

/-- `Add`, parser/set.go:15-17. -/
def add (s : GoSet α) (a : α) : GoSet α := ⟨mapInsert s.m a⟩

/-- `Remove`, parser/set.go:19-21 (`delete` on a Go map). -/
def remove (s : GoSet α) (a : α) : GoSet α := ⟨s.m.filter (fun b => decide (b ≠ a))⟩

/-- `Contains`, parser/set.go:23-26. -/
def contains (s : GoSet α) (a : α) : Bool := decide (a ∈ s.m)

/-- `Members`, parser/set.go:28-34. -/
def members (s : GoSet α) : List α := s.m

end GoSet

/-- The Go variable `keywords`, parser/keyword.go:331. -/
def keywordSet : GoSet Str := GoSet.new keywordList
/-- The Go variable `reservedKeywords`, parser/keyword.go:279. -/
def reservedSet : GoSet Str := GoSet.new reservedList
/-- The Go variable `intervalUnits`, parser/type.go:3. -/
def intervalUnitSet : GoSet Str := GoSet.new intervalUnitList

end Verif

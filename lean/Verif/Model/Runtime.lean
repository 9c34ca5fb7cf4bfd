import Verif.Model.Exec
import Verif.Model.Text
/-!
# What the platform leaves unspecified, and observable output

Not a model of a file in `/repo`: `HashSet`/`HashMap` iteration order, `sort_unstable*`, the overflow-check setting and
whether the terminal has colours enter as a parameter `Runtime`.
-/
namespace Ripcalc

/-- One platform. Theorems quantify over all of them. -/
structure Runtime where
  /-- are integer overflows checked? -/
  profile : Profile
  /-- `console::colors_enabled()` -/
  colorsEnabled : Bool
  /-- `iter()` on a `HashSet`/`HashMap` with these entries.  The number distinguishes calls, so that equal sets may be
  visited in different orders at different times. -/
  hashIter : {α : Type} → Nat → List α → List α
  hashIter_perm : ∀ {α : Type} (t : Nat) (l : List α), (hashIter t l).Perm l
  /-- `sort_unstable_by`/`sort_unstable_by_key`, given the "less or equal" test. -/
  sortUnstable : {α : Type} → (α → α → Bool) → List α → List α
  sortUnstable_perm : ∀ {α : Type} (le : α → α → Bool) (l : List α), (sortUnstable le l).Perm l
  sortUnstable_sorted : ∀ {α : Type} (le : α → α → Bool) (l : List α),
    (∀ a b c, le a b → le b c → le a c) → (∀ a b, le a b || le b a) → (sortUnstable le l).Pairwise (fun a b => le a b)

/-- A platform that satisfies the laws: insertion-order iteration and merge sort. -/
def Runtime.reference (pr : Profile) (colors : Bool) : Runtime where
  profile := pr
  colorsEnabled := colors
  hashIter := fun _ l => l
  hashIter_perm := fun _ _ => .refl _
  sortUnstable := fun le l => l.mergeSort le
  sortUnstable_perm := fun le l => List.mergeSort_perm l le
  sortUnstable_sorted := fun _ l ht hT => List.pairwise_mergeSort ht hT l

/-- `HashSet::insert` (a set is a list without repetitions). -/
def setInsert [DecidableEq α] (x : α) (s : List α) : List α := if x ∈ s then s else s ++ [x]

/-- `HashSet::remove`. -/
def setRemove [DecidableEq α] (x : α) (s : List α) : List α := s.filter (fun y => decide (y ≠ x))

/-- `HashSet::extend` on an empty set. -/
def setOf [DecidableEq α] (l : List α) : List α := l.foldl (fun s x => setInsert x s) []

/-- `HashMap::insert` (a map is an association list without repeated keys). -/
def mapInsert [DecidableEq κ] (k : κ) (v : β) (m : List (κ × β)) : List (κ × β) :=
  m.filter (fun e => decide (e.1 ≠ k)) ++ [(k, v)]

/-- `enum Color`, `src/console.rs:8-25`. -/
inductive Color where
  | black | darkBlue | darkGreen | darkCyan | darkRed | darkMagenta | darkYellow | gray
  | darkGray | blue | green | cyan | red | magenta | yellow | white
  deriving DecidableEq, Repr

end Ripcalc

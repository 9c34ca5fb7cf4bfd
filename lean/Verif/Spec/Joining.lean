import Verif.Spec.Listing
/-!
# Vocabulary for statements about joining networks
-/
namespace Ripcalc
open AddrSpec
variable {A : Type} [AddrSpec A]

/-- The networks have the same mask, and their base addresses differ in the lowest network bit and nowhere else. -/
def Twins (n o : Net A) : Prop :=
  n.subnetMask = o.subnetMask ∧ ∃ i, i < width A ∧ (val n.subnetMask).testBit i = true ∧
    (∀ t, t < i → (val n.subnetMask).testBit t = false) ∧
    ∀ t, t < width A → ((val n.baseAddr).testBit t = (val o.baseAddr).testBit t ↔ t ≠ i)

/-- `n` consists of the addresses of the twins `a` and `b`. -/
def Joins (a b n : Net A) : Prop := Twins a b ∧ WF n ∧ ∀ x, Member n x ↔ Member a x ∨ Member b x

/-- The networks that arise from a list: those that are inside no other network of the list, and two twins that arise joined. -/
inductive Arises (l : List (Net A)) : Net A → Prop
  | given {n : Net A} : n ∈ l → (∀ o ∈ l, Includes o n → o = n) → Arises l n
  | join {a b n : Net A} : Arises l a → Arises l b → Joins a b n → Arises l n

/-- `m` arises from `n` by joining it and the results with twins that arise, once or more. -/
inductive PartOf (l : List (Net A)) : Net A → Net A → Prop
  | one {n t m : Net A} : Arises l t → Joins n t m → PartOf l n m
  | more {n t p m : Net A} : Arises l t → Joins n t p → PartOf l p m → PartOf l n m

/-- `l'` is the sorted list of the networks of `l`, with the first network that has its twin behind it replaced, together with
this twin, by their join. -/
def JoinFirst (l l' : List (Net A)) : Prop :=
  ∃ a ∈ l, ∃ b ∈ l, KeyLt a b ∧ (∀ c ∈ l, ∀ d ∈ l, KeyLt c d → Twins c d → c = a ∨ KeyLt a c) ∧
    ∃ n, Joins a b n ∧ l'.Pairwise KeyLt ∧ ∀ x, x ∈ l' ↔ x = n ∨ (x ∈ l ∧ x ≠ a ∧ x ≠ b)

/-- `out` is obtained from `l` by joining the first twins until there are none. -/
inductive JoinAll : List (Net A) → List (Net A) → Prop
  | done {l : List (Net A)} : (∀ a ∈ l, ∀ b ∈ l, ¬ Twins a b) → JoinAll l l
  | step {l l' out : List (Net A)} : JoinFirst l l' → JoinAll l' out → JoinAll l out

/-- `out` is obtained from the sorted list of those networks of `l` that are inside no other network of `l`, by joining the first
twins until there are none. -/
def Minimized (l out : List (Net A)) : Prop :=
  ∃ l0 : List (Net A), l0.Pairwise KeyLt ∧ (∀ n, n ∈ l0 ↔ n ∈ l ∧ ∀ o ∈ l, Includes o n → o = n) ∧ JoinAll l0 out

end Ripcalc

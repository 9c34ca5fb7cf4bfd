import Verif.Spec.Program
/-!
# Arguments that say the same
-/
namespace Ripcalc
open AddrSpec

/-- Two texts that are the same or give the same network with the same address in it. -/
def SameSpec (s s' : Str) : Prop :=
  s = s' ∨ (∃ a n, V4Network s a n ∧ V4Network s' a n) ∨ (∃ a n, V6Network s a n ∧ V6Network s' a n)

/-- Two texts that are the same or give the same network; the address may be another one in it. -/
def SameNetwork (s s' : Str) : Prop :=
  s = s' ∨ (∃ a a' n, V4Network s a n ∧ V4Network s' a' n) ∨ (∃ a a' n, V6Network s a n ∧ V6Network s' a' n)

/-- Two texts that are the same or give the same address. -/
def SameAddress (s s' : Str) : Prop :=
  s = s' ∨ (∃ a, ('.' ∈ s ∧ ':' ∉ s ∧ V4Reading s a) ∧ ('.' ∈ s' ∧ ':' ∉ s' ∧ V4Reading s' a)) ∨
    (∃ a, (':' ∈ s ∧ '.' ∉ s ∧ V6Reading s a) ∧ (':' ∈ s' ∧ '.' ∉ s' ∧ V6Reading s' a))

/-- Two texts that are the same or give the same number of hosts. -/
def SameCount (s s' : Str) : Prop := s = s' ∨ ∃ c, CountText s c ∧ CountText s' c

/-- The text of an IPv4 mask: four numbers, or the number of ones. -/
def V4MaskText (s : Str) (m : V4) : Prop :=
  ':' ∉ s ∧ (('.' ∈ s ∧ V4Reading s m) ∨ ('.' ∉ s ∧ ∃ p, PlusNumeral 10 s p ∧ p ≤ 32 ∧ IsPrefixMask 32 p (val m)))

/-- The text of an IPv6 mask. -/
def V6MaskText (s : Str) (m : V6) : Prop :=
  (':' ∈ s ∧ V6Reading s m) ∨ (':' ∉ s ∧ '.' ∉ s ∧ ∃ p, PlusNumeral 10 s p ∧ p ≤ 128 ∧ IsPrefixMask 128 p (val m))

/-- For the network `s`, two texts that are the same or give the same mask. -/
def SameMask (s k k' : Str) : Prop :=
  k = k' ∨ (IsV4Network s ∧ ∃ m, V4MaskText k m ∧ V4MaskText k' m) ∨ (IsV6Network s ∧ ∃ m, V6MaskText k m ∧ V6MaskText k' m)

end Ripcalc

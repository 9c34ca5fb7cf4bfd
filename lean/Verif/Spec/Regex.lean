import Verif.Spec.Text
/-!
# Regular expressions with named groups

Just enough syntax for the four patterns of `/repo/src/cmds/mod.rs:21-32`, with the usual meaning.  A match is a whole-string
match (the patterns are anchored with `^` and `$`) together with the list of named groups that took part.
-/
namespace Ripcalc

inductive Re where
  /-- `[...]`: a class given by its ranges -/
  | cls (ranges : List (Char × Char))
  | seq (a b : Re)
  | star (a : Re)
  | opt (a : Re)
  | group (name : String) (a : Re)

namespace Re

/-- `a+` -/
def plus (a : Re) : Re := .seq a (.star a)
/-- `a{3}` -/
def three (a : Re) : Re := .seq a (.seq a a)
/-- a literal character -/
def lit (c : Char) : Re := .cls [(c, c)]

inductive Matches : Re → Str → List (String × Str) → Prop
  | cls {rs c lo hi} : (lo, hi) ∈ rs → lo.toNat ≤ c.toNat → c.toNat ≤ hi.toNat → Matches (.cls rs) [c] []
  | seq {a b s t x y} : Matches a s x → Matches b t y → Matches (.seq a b) (s ++ t) (x ++ y)
  | starNil {a} : Matches (.star a) [] []
  | starCons {a s t x y} : Matches a s x → Matches (.star a) t y → Matches (.star a) (s ++ t) (x ++ y)
  | optNone {a} : Matches (.opt a) [] []
  | optSome {a s x} : Matches a s x → Matches (.opt a) s x
  | group {n a s x} : Matches a s x → Matches (.group n a) s ((n, s) :: x)

/-- `[0-9]` -/
def digit : Re := .cls [('0', '9')]
/-- `[0-9a-f:]` -/
def hexColon : Re := .cls [('0', '9'), ('a', 'f'), (':', ':')]
/-- `[0-9]+(?:[.][0-9]+){3}` -/
def quad : Re := .seq (.plus digit) (.three (.seq (.cls [('.', '.')]) (.plus digit)))

/-- `^(?P<addr>addr)/(?P<wildcard>-)?(?P<last>last)$` -/
def netspec (addr : Re) (lastName : String) (last : Re) : Re :=
  .seq (.group "addr" addr) (.seq (.lit '/') (.seq (.opt (.group "wildcard" (.lit '-'))) (.group lastName last)))

/-- `src/cmds/mod.rs:22`: `^(?P<addr>[0-9]+(?:[.][0-9]+){3})/(?P<wildcard>-)?(?P<mask>[0-9]+(?:[.][0-9]+){3})$` -/
def ipv4WithSubnet : Re := netspec quad "mask" quad
/-- `src/cmds/mod.rs:25`: `^(?P<addr>[0-9]+(?:[.][0-9]+){3})/(?P<wildcard>-)?(?P<cidr>[0-9]+)$` -/
def ipv4WithCidr : Re := netspec quad "cidr" (.plus digit)
/-- `src/cmds/mod.rs:28`: `^(?P<addr>[0-9a-f:]+)/(?P<wildcard>-)?(?P<mask>[0-9a-f:]*:[0-9a-f:]*)$` -/
def ipv6WithSubnet : Re := netspec (.plus hexColon) "mask" (.seq (.star hexColon) (.seq (.lit ':') (.star hexColon)))
/-- `src/cmds/mod.rs:31`: `^(?P<addr>[0-9a-f:]+)/(?P<wildcard>-)?(?P<cidr>[0-9]+)$` -/
def ipv6WithCidr : Re := netspec (.plus hexColon) "cidr" (.plus digit)

end Re

/-- The groups of a match of one of the four patterns. -/
def netspecCaps (lastName : String) (addr : Str) (wildcard : Bool) (last : Str) : List (String × Str) :=
  ("addr", addr) :: ((if wildcard then [("wildcard", ['-'])] else []) ++ [(lastName, last)])

/-! The same languages, described directly. -/

/-- A non-empty string of decimal digits. -/
def DigitText (s : Str) : Prop := s ≠ [] ∧ ∀ c ∈ s, c ∈ ['0', '1', '2', '3', '4', '5', '6', '7', '8', '9']

/-- Four digit strings separated by dots. -/
def QuadText (s : Str) : Prop :=
  ∃ t0 t1 t2 t3, s = t0 ++ '.' :: t1 ++ '.' :: t2 ++ '.' :: t3 ∧ DigitText t0 ∧ DigitText t1 ∧ DigitText t2 ∧ DigitText t3

/-- A non-empty string of lower-case hexadecimal digits and colons. -/
def HexColonText (s : Str) : Prop := s ≠ [] ∧ ∀ c ∈ s, c ∈ ':' :: lowerDigits

/-- The text of `addr`, a slash and `last`; in wildcard form with a minus sign directly after the slash. -/
def specText (addr : Str) (wildcard : Bool) (last : Str) : Str :=
  addr ++ '/' :: ((if wildcard then ['-'] else []) ++ last)

/-! What the address texts mean (the right-hand sides of C09 and C11). -/

open AddrSpec in
/-- `s` is a dotted quad of numbers up to 255, `a` the address with these bytes. -/
def V4Reading (s : Str) (a : V4) : Prop :=
  ∃ t0 t1 t2 t3 v0 v1 v2 v3, s = t0 ++ '.' :: t1 ++ '.' :: t2 ++ '.' :: t3 ∧
    (PlusNumeral 10 t0 v0 ∧ v0 ≤ 255) ∧ (PlusNumeral 10 t1 v1 ∧ v1 ≤ 255) ∧
    (PlusNumeral 10 t2 v2 ∧ v2 ≤ 255) ∧ (PlusNumeral 10 t3 v3 ∧ v3 ≤ 255) ∧ val a = bigEndian 256 [v0, v1, v2, v3]

/-- `s` consists of eight groups, or fewer groups and one place (an empty group) where zeros are to be filled in; `a` is the
address with these chunks. -/
def V6Reading (s : Str) (a : V6) : Prop :=
  (∃ gs, completeColons s = List.intercalate [':'] gs ∧ gs.length = 8 ∧ Pointwise Group gs (chunkVals a)) ∨
  (∃ pre post vs ws, completeColons s = List.intercalate [':'] (pre ++ [[]] ++ post) ∧ pre.length + post.length < 8 ∧
    Pointwise Group pre vs ∧ Pointwise Group post ws ∧
    chunkVals a = vs ++ List.replicate (8 - (pre.length + post.length)) 0 ++ ws)

open AddrSpec in
/-- `n` is the network of the address `a` with mask `m`. -/
def NetOfMask [AddrSpec A] (n : Net A) (a : A) (m : Nat) : Prop := WF n ∧ Member n a ∧ val n.subnetMask = m

/-- `n` is the network of the address `a` with prefix `p`. -/
def NetOfPrefix [AddrSpec A] (n : Net A) (a : A) (p : Nat) : Prop := IsCidr p n ∧ Member n a

end Ripcalc

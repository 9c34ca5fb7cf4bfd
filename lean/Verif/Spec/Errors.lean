import Verif.Spec.Regex
import Verif.Model.Parse
/-!
# Vocabulary for statements about reported errors

Which error a malformed text has, described by the first offending place in it.
-/
namespace Ripcalc

/-- The part of a number text that must consist of digits: without a plus sign, if something follows it. -/
def NumberBody (s body : Str) : Prop :=
  (body ≠ [] ∧ s = '+' :: body) ∨ (body = s ∧ ∀ t, t ≠ [] → s ≠ '+' :: t)

/-- What is wrong with a number text: there is nothing, or at the first offending character (everything before it being
digits of a number that is not too large) there is no digit, or a digit that makes the number too large. -/
def NumberFault (radix max : Nat) (s : Str) : IntErr → Prop
  | .empty => s = []
  | .invalidDigit => ∃ pre c post ds, NumberBody s (pre ++ c :: post) ∧ Digits radix pre ds ∧ bigEndian radix ds ≤ max ∧
      ∀ d, DigitIs c d → radix ≤ d
  | .posOverflow => ∃ pre c post ds d, NumberBody s (pre ++ c :: post) ∧ Digits radix pre ds ∧ bigEndian radix ds ≤ max ∧
      DigitIs c d ∧ d < radix ∧ max < bigEndian radix (ds ++ [d])

/-- The pieces of `s` between separators. -/
def Pieces (sep : Char) (s : Str) (ps : List Str) : Prop :=
  ps ≠ [] ∧ (∀ p ∈ ps, sep ∉ p) ∧ s = List.intercalate [sep] ps

/-- `x` is the first piece that is not good, at index `i`. -/
def FirstBad (good : Str → Prop) (ps : List Str) (i : Nat) (x : Str) : Prop :=
  ∃ pre post, ps = pre ++ x :: post ∧ pre.length = i ∧ (∀ p ∈ pre, good p) ∧ ¬ good x

/-- A byte of a dotted quad. -/
def ByteText (t : Str) : Prop := ∃ v, PlusNumeral 10 t v ∧ v ≤ 255

/-- A group of an IPv6 text. -/
def GroupText (t : Str) : Prop := ∃ v, Group t v

/-- What is wrong with an IPv4 address text: the number of pieces, or the first piece that is not a byte. -/
def V4Fault (s : Str) (e : AddrErr) : Prop :=
  ∃ ps, Pieces '.' s ps ∧
    ((ps.length ≠ 4 ∧ e = .incorrectChunkCount ps.length 4) ∨
     (ps.length = 4 ∧ ∃ i t, FirstBad ByteText ps i t ∧
      ((t = [] ∧ e = .emptyChunk i) ∨
       (t ≠ [] ∧ ∃ f, NumberFault 10 (2 ^ 32 - 1) t f ∧ e = .chunkParseError i t f) ∨
       (∃ v, PlusNumeral 10 t v ∧ 255 < v ∧ v < 2 ^ 32 ∧ e = .chunkOutOfRange i v 0 255))))

/-- The eight groups that the pieces stand for: all pieces, or the pieces with zeros in place of the empty one. -/
def FilledGroups (ps gs : List Str) : Prop :=
  (gs = ps ∧ ps.length = 8 ∧ [] ∉ ps) ∨
  (∃ pre post, ps = pre ++ [] :: post ∧ [] ∉ pre ∧ [] ∉ post ∧ ps.length ≤ 8 ∧
    gs = pre ++ List.replicate (8 - (pre.length + post.length)) ['0'] ++ post)

/-- What is wrong with an IPv6 address text: the number of pieces, more than one empty piece, or the first of the eight groups
that is not a group. -/
def V6Fault (s : Str) (e : AddrErr) : Prop :=
  ∃ ps, Pieces ':' (completeColons s) ps ∧
    ((8 < ps.length ∧ e = .incorrectChunkCount ps.length 8) ∨
     (ps.length ≤ 8 ∧ 1 < ps.count [] ∧ e = .tooManyShorteningElements (ps.count []) 1) ∨
     (ps.length < 8 ∧ [] ∉ ps ∧ e = .incorrectChunkCount ps.length 8) ∨
     (∃ gs i t f, FilledGroups ps gs ∧ FirstBad GroupText gs i t ∧ NumberFault 16 65535 t f ∧ e = .chunkParseError i t f))

/-- The shape of the strings that one of the four regular expressions recognises. -/
def SpecShape (t l : Str) : Prop :=
  (QuadText t ∧ (QuadText l ∨ DigitText l)) ∨ (HexColonText t ∧ ((HexColonText l ∧ ':' ∈ l) ∨ DigitText l))

/-- What is wrong with a network text whose address text is `t` and whose mask or prefix text is `l`: `addr` says which
addresses and `fault` which errors the address texts of the family have. -/
def PartsFault (addr : Str → Prop) (fault : Str → AddrErr → Prop) (isMask : Str → Prop) (max : Nat) (t l : Str) :
    NetspecErr → Prop
  | .unrecognized _ => False
  | .address e => fault t e
  | .mask e => addr t ∧ isMask l ∧ fault l e
  | .cidrParse f => addr t ∧ DigitText l ∧ NumberFault 10 (2 ^ 64 - 1) l f
  | .cidrRange p m => addr t ∧ Numeral 10 l p ∧ max < p ∧ p < 2 ^ 64 ∧ m = max

/-- What is wrong with a network text: its shape, then the address, then the mask or prefix. -/
def NetspecFault (s : Str) (e : NetspecErr) : Prop :=
  (e = .unrecognized s ∧ ¬ ∃ t w l, s = specText t w l ∧ SpecShape t l) ∨
  (∃ t w l, s = specText t w l ∧ QuadText t ∧ (QuadText l ∨ DigitText l) ∧
    PartsFault (fun t => ∃ a, V4Reading t a) V4Fault QuadText 32 t l e) ∨
  (∃ t w l, s = specText t w l ∧ HexColonText t ∧ ((HexColonText l ∧ ':' ∈ l) ∨ DigitText l) ∧
    PartsFault (fun t => ∃ a, V6Reading t a) V6Fault (fun l => HexColonText l ∧ ':' ∈ l) 128 t l e)

end Ripcalc

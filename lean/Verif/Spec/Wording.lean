import Verif.Spec.Complaints
import Verif.Spec.Messages
import Verif.Model.Messages
/-!
# What the messages say about the arguments

The phrases are written out with the text of the numbers in them, and the numbers are tied to the arguments.  `debug` selects
between the two ways in which an address error is put into words.  Of the model, only the notation `chars!` and the names of
the errors (in the descriptions of the faults) are used.
-/
namespace Ripcalc

/-- The text of a number. -/
def NumberText (d : Str) (v : Nat) : Prop := CanonicalNumeral 10 d v

/-- A text in double quotes on one line. -/
def QuotedText (q s : Str) : Prop := readQuoted q = some (s, []) ∧ ∀ c ∈ q, Visible c

/-- What is said about a text that is not a number of this size: there is nothing, a character that is no digit comes first, or
the number becomes too large first. -/
def NumberSays (debug : Bool) (radix max : Nat) (s w : Str) : Prop :=
  (NumberFault radix max s .empty ∧
    w = if debug then chars! "ParseIntError { kind: Empty }" else chars! "cannot parse integer from empty string") ∨
  (NumberFault radix max s .invalidDigit ∧
    w = if debug then chars! "ParseIntError { kind: InvalidDigit }" else chars! "invalid digit found in string") ∨
  (NumberFault radix max s .posOverflow ∧
    w = if debug then chars! "ParseIntError { kind: PosOverflow }" else chars! "number too large to fit in target type")

/-- The piece `t` with index `i` is not a number. -/
def ChunkSays (debug : Bool) (radix max i : Nat) (t w : Str) : Prop :=
  ∃ d q f, NumberText d i ∧ QuotedText q t ∧ NumberSays debug radix max t f ∧
    w = if debug then chars! "ChunkParseError(" ++ d ++ chars! ", " ++ q ++ chars! ", " ++ f ++ chars! ")"
      else chars! "failed to parse IP address chunk with index " ++ d ++ chars! " (" ++ q ++ chars! "): " ++ f

/-- What is said about a text that is not an IPv4 address. -/
def V4Says (debug : Bool) (s w : Str) : Prop :=
  ∃ ps, Pieces '.' s ps ∧
    ((ps.length ≠ 4 ∧ ∃ d, NumberText d ps.length ∧
        w = if debug then chars! "IncorrectChunkCount(" ++ d ++ chars! ", 4)"
          else chars! "IP address has " ++ d ++ chars! " chunk(s); expected 4") ∨
     (ps.length = 4 ∧ ∃ i t, FirstBad ByteText ps i t ∧
      ((t = [] ∧ ∃ d, NumberText d i ∧
          w = if debug then chars! "EmptyChunk(" ++ d ++ chars! ")"
            else chars! "IP address chunk with index " ++ d ++ chars! " is empty") ∨
       (t ≠ [] ∧ ChunkSays debug 10 (2 ^ 32 - 1) i t w) ∨
       (∃ v d g, PlusNumeral 10 t v ∧ 255 < v ∧ v < 2 ^ 32 ∧ NumberText d i ∧ NumberText g v ∧
          w = if debug then chars! "ChunkOutOfRange(" ++ d ++ chars! ", " ++ g ++ chars! ", 0, 255)"
            else chars! "IP address chunk with index " ++ d ++ chars! " (" ++ g ++ chars! ") is out of range 0 <= n <= 255 chunk"))))

/-- What is said about a text that is not an IPv6 address. -/
def V6Says (debug : Bool) (s w : Str) : Prop :=
  ∃ ps, Pieces ':' (completeColons s) ps ∧
    (((8 < ps.length ∨ (ps.length < 8 ∧ [] ∉ ps)) ∧ ∃ d, NumberText d ps.length ∧
        w = if debug then chars! "IncorrectChunkCount(" ++ d ++ chars! ", 8)"
          else chars! "IP address has " ++ d ++ chars! " chunk(s); expected 8") ∨
     (ps.length ≤ 8 ∧ 1 < ps.count [] ∧ ∃ d, NumberText d (ps.count []) ∧
        w = if debug then chars! "TooManyShorteningElements(" ++ d ++ chars! ", 1)"
          else chars! "IP address has " ++ d ++ chars! " shortening elements; expected maximum 1") ∨
     (∃ gs i t, FilledGroups ps gs ∧ FirstBad GroupText gs i t ∧ ChunkSays debug 16 65535 i t w))

/-- What is said about a text that is not an address on its own. -/
def AddressSays (s w : Str) : Prop :=
  (('.' ∈ s ↔ ':' ∈ s) ∧ w = chars! "unknown IP address type") ∨
  ('.' ∈ s ∧ ':' ∉ s ∧ V4Says false s w) ∨ (':' ∈ s ∧ '.' ∉ s ∧ V6Says false s w)

/-- What is said about a network text of the right shape with the address text `t` and the mask or prefix text `l`. -/
def PartsSay (addr : Str → Prop) (says : Bool → Str → Str → Prop) (isMask : Str → Prop) (max : Nat) (maxText t l w : Str) : Prop :=
  (∃ f, says true t f ∧ w = chars! "failed to parse address: " ++ f) ∨
  (addr t ∧ isMask l ∧ ∃ f, says true l f ∧ w = chars! "failed to parse mask: " ++ f) ∨
  (addr t ∧ DigitText l ∧ ∃ f, NumberSays true 10 (2 ^ 64 - 1) l f ∧ w = chars! "failed to parse CIDR prefix: " ++ f) ∨
  (addr t ∧ ∃ p d, Numeral 10 l p ∧ max < p ∧ NumberText d p ∧
    w = chars! "CIDR prefix " ++ d ++ chars! " is greater than the maximum (" ++ maxText ++ chars! ")")

/-- What is said about a text that is not a network. -/
def NetworkSays (s w : Str) : Prop :=
  ((¬ ∃ t b l, s = specText t b l ∧ SpecShape t l) ∧ ∃ q, QuotedText q s ∧ w = chars! "unrecognized network specification: " ++ q) ∨
  (∃ t b l, s = specText t b l ∧ QuadText t ∧ (QuadText l ∨ DigitText l) ∧
    PartsSay (fun t => ∃ a, V4Reading t a) V4Says QuadText 32 (chars! "32") t l w) ∨
  (∃ t b l, s = specText t b l ∧ HexColonText t ∧ ((HexColonText l ∧ ':' ∈ l) ∨ DigitText l) ∧
    PartsSay (fun t => ∃ a, V6Reading t a) V6Says (fun l => HexColonText l ∧ ':' ∈ l) 128 (chars! "128") t l w)

/-- What is said about a text that is not a mask or prefix length on its own. -/
def SubnetSays (s w : Str) : Prop :=
  (∃ f, ((':' ∈ s ∧ V6Says true s f) ∨ (':' ∉ s ∧ '.' ∈ s ∧ V4Says true s f)) ∧ w = chars! "failed to parse mask: " ++ f) ∨
  (∃ f, ':' ∉ s ∧ '.' ∉ s ∧ NumberSays true 10 (2 ^ 64 - 1) s f ∧ w = chars! "failed to parse CIDR prefix: " ++ f)

/-- A line about the arguments of a run without a mode. -/
def ShowLine (ss : List Str) (line : Str) : Prop :=
  ∃ pre x post, ss = pre ++ x :: post ∧ (∀ y ∈ pre, IsV4Network y ∨ IsV6Network y) ∧ NetworkSays x line

/-- A line about the arguments of the minimize mode. -/
def MinimizeLine (ss : List Str) (line : Str) : Prop :=
  ∃ pre x post, ss = pre ++ x :: post ∧
    ((((∀ y ∈ pre, IsV4Network y) ∨ (∀ y ∈ pre, IsV6Network y)) ∧ ∃ w, NetworkSays x w ∧ line = chars! "parsing error: " ++ w) ∨
     (pre ≠ [] ∧ (((∀ y ∈ pre, IsV4Network y) ∧ IsV6Network x) ∨ ((∀ y ∈ pre, IsV6Network y) ∧ IsV4Network x)) ∧
      line = chars! "mixing IPv4 and IPv6 is not supported"))

/-- A line about the arguments of the derange mode. -/
def DerangeLine (ss : List Str) (line : Str) : Prop :=
  ∃ u v, ss = [u, v] ∧
    ((∃ w, AddressSays u w ∧ line = chars! "failed to parse first address: " ++ w) ∨
     (∃ w, (IsV4Address u ∨ IsV6Address u) ∧ AddressSays v w ∧ line = chars! "failed to parse second address: " ++ w) ∨
     (((IsV4Address u ∧ IsV6Address v) ∨ (IsV6Address u ∧ IsV4Address v)) ∧ line = chars! "both addresses must be the same version"))

/-- A line about the arguments of the resize mode. -/
def ResizeLine (ss : List Str) (line : Str) : Prop :=
  ∃ s k, ss = [s, k] ∧
    ((∃ q w, QuotedText q s ∧ NetworkSays s w ∧ line = chars! "failed to parse network spec " ++ q ++ chars! ": " ++ w) ∨
     (∃ q w, (IsV4Network s ∨ IsV6Network s) ∧ QuotedText q k ∧ SubnetSays k w ∧
       line = chars! "failed to parse subnet " ++ q ++ chars! ": " ++ w) ∨
     (∃ p d, IsV4Network s ∧ PrefixText k p ∧ 32 < p ∧ NumberText d p ∧
       line = chars! "CIDR value " ++ d ++ chars! " is greater than maximum for IPv4 (32)") ∨
     (∃ p d, IsV6Network s ∧ PrefixText k p ∧ 128 < p ∧ NumberText d p ∧
       line = chars! "CIDR value " ++ d ++ chars! " is greater than maximum for IPv6 (128)") ∨
     (∃ a, IsV4Network s ∧ ':' ∈ k ∧ V6Reading k a ∧ line = chars! "cannot resize an IPv4 subnet to an IPv6 mask") ∨
     (∃ a, IsV6Network s ∧ ':' ∉ k ∧ '.' ∈ k ∧ V4Reading k a ∧ line = chars! "cannot resize an IPv6 subnet to an IPv4 mask"))

/-- What is said about a text that is not a host count. -/
def CountSays (s w : Str) : Prop :=
  (∀ c, ¬ CountText s c) ∧
    ((s ∈ [[], ['+'], ['-']] ∧ w = chars! "cannot parse integer from empty string") ∨
     (s ∉ [[], ['+'], ['-']] ∧ w = chars! "invalid digit found in string"))

/-- A line about the arguments of the split mode. -/
def SplitLine (ss : List Str) (line : Str) : Prop :=
  ∃ s counts, ss = s :: counts ∧
    ((∃ pre x post q w, counts = pre ++ x :: post ∧ (∀ y ∈ pre, GoodCount y) ∧ QuotedText q x ∧ CountSays x w ∧
       line = chars! "failed to parse host count " ++ q ++ chars! ": " ++ w) ∨
     (∃ pre x post c, counts = pre ++ x :: post ∧ (∀ y ∈ pre, GoodCount y) ∧ CountText x c ∧ c < 0 ∧
       line = chars! "host counts must be zero or greater") ∨
     (∃ q w, (∀ y ∈ counts, GoodCount y) ∧ QuotedText q s ∧ NetworkSays s w ∧
       line = chars! "failed to parse network specification " ++ q ++ chars! ": " ++ w))

/-- The lines about the arguments of the enumerate mode: one for each that is malformed, in order. -/
inductive EnumerateLines : List Str → List Str → Prop
  | nil : EnumerateLines [] []
  | good {s ss ls} : IsV4Network s ∨ IsV6Network s → EnumerateLines ss ls → EnumerateLines (s :: ss) ls
  | bad {s ss ls q w} : QuotedText q s → NetworkSays s w → EnumerateLines ss ls →
      EnumerateLines (s :: ss) ((chars! "failed to parse network " ++ q ++ chars! ": " ++ w) :: ls)

end Ripcalc

/-!
# Rust standard library text primitives used by ripcalc

Strings are `List Char`.  These definitions model the documented behaviour of `core`, not code in `/repo`;
each names its call sites.
-/
namespace Ripcalc

/-- Rust `&str`/`String`. -/
abbrev Str := List Char

/-- `core::num::IntErrorKind` as far as unsigned parsing can produce it. -/
inductive IntErr where
  | empty
  | invalidDigit
  | posOverflow
  deriving DecidableEq, Repr

/-- Results can be compared (for evaluating concrete cases). -/
instance [DecidableEq ε] [DecidableEq α] : DecidableEq (Except ε α)
  | .ok a, .ok b => if h : a = b then .isTrue (h ▸ rfl) else .isFalse (fun e => h (Except.ok.inj e))
  | .error a, .error b => if h : a = b then .isTrue (h ▸ rfl) else .isFalse (fun e => h (Except.error.inj e))
  | .ok _, .error _ => .isFalse nofun
  | .error _, .ok _ => .isFalse nofun

/-- `char::to_digit(radix)` for radix up to 36. -/
def toDigit (radix : Nat) (c : Char) : Option Nat :=
  let v : Option Nat :=
    if '0'.toNat ≤ c.toNat ∧ c.toNat ≤ '9'.toNat then some (c.toNat - '0'.toNat)
    else if 'a'.toNat ≤ c.toNat ∧ c.toNat ≤ 'z'.toNat then some (c.toNat - 'a'.toNat + 10)
    else if 'A'.toNat ≤ c.toNat ∧ c.toNat ≤ 'Z'.toNat then some (c.toNat - 'A'.toNat + 10)
    else none
  match v with
  | some d => if d < radix then some d else none
  | none => none

/-- The digit loop of `from_str_radix` on an unsigned type with maximum `max`: at each character an invalid
digit is reported before an overflow. -/
def parseDigits (radix max : Nat) : Nat → Str → Except IntErr Nat
  | acc, [] => .ok acc
  | acc, c :: cs =>
    match toDigit radix c with
    | none => .error .invalidDigit
    | some d =>
      if acc * radix + d ≤ max then parseDigits radix max (acc * radix + d) cs
      else .error .posOverflow

/-- `str::parse::<uN>()` and `uN::from_str_radix` (call sites: `src/addr.rs:150,463`, `src/cmds/mod.rs:161,194,274`):
the empty string and a lone sign are errors, one leading `+` is skipped, then only digits are accepted. -/
def parseUnsigned (radix max : Nat) (s : Str) : Except IntErr Nat :=
  match s with
  | [] => .error .empty
  | ['+'] => .error .invalidDigit
  | '+' :: rest => parseDigits radix max 0 rest
  | _ => parseDigits radix max 0 s

/-- `format!("{}", n)` (radix 10) and `format!("{:x}", n)` (radix 16) for non-negative numbers. -/
def showNat (radix n : Nat) : Str := Nat.toDigits radix n

/-- `format!("{:04x}", n)` (call site `src/addr.rs:224`). -/
def showHex4 (n : Nat) : Str :=
  let d := showNat 16 n
  List.replicate (4 - d.length) '0' ++ d

/-- `format!("{}", n)` for a `BigInt`. -/
def showInt : Int → Str
  | .ofNat n => showNat 10 n
  | .negSucc n => '-' :: showNat 10 (n + 1)

/-- `s.split(sep)` collected (call sites `src/addr.rs:137,405`): always at least one chunk. -/
def splitChar (sep : Char) : Str → List Str
  | [] => [[]]
  | c :: cs =>
    if c = sep then [] :: splitChar sep cs
    else match splitChar sep cs with
      | [] => [[c]]
      | x :: xs => (c :: x) :: xs

/-- `v.join(sep)` (call sites `src/addr.rs:226,542`). -/
def joinWith (sep : Str) : List Str → Str
  | [] => []
  | [x] => x
  | x :: y :: r => x ++ sep ++ joinWith sep (y :: r)

/-- `s.contains(c)` for a character. -/
def hasChar (c : Char) (s : Str) : Bool := s.contains c

end Ripcalc

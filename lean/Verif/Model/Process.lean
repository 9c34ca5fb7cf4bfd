import Verif.Model.Main
import Verif.Model.Terminal
/-!
# The process

`/repo/src/main.rs:48,76-78` with the parts of std that it rests on, on Unix: the arguments are byte strings, which
`std::env::args` requires to be UTF-8; what is written are the bytes of UTF-8; `std::process::exit` ends the process, and so
does a panic of the main thread.
-/
namespace Ripcalc

/-- A continuation byte of UTF-8. -/
def isCont (b : Byte) : Bool := 0x80 ≤ b.toNat && b.toNat ≤ 0xBF

/-- Whether the second byte of a sequence of three is right for the first. -/
def secondOfThree (b0 b1 : Byte) : Bool :=
  if b0.toNat = 0xE0 then 0xA0 ≤ b1.toNat && b1.toNat ≤ 0xBF
  else if b0.toNat = 0xED then 0x80 ≤ b1.toNat && b1.toNat ≤ 0x9F
  else isCont b1

/-- Whether the second byte of a sequence of four is right for the first. -/
def secondOfFour (b0 b1 : Byte) : Bool :=
  if b0.toNat = 0xF0 then 0x90 ≤ b1.toNat && b1.toNat ≤ 0xBF
  else if b0.toNat = 0xF4 then 0x80 ≤ b1.toNat && b1.toNat ≤ 0x8F
  else isCont b1

/-- `str::from_utf8`: the table of well-formed byte sequences (Unicode standard, table 3-7), as in
`core::str::validations::run_utf8_validation`, and the characters they stand for. -/
def utf8Decode : List Byte → Option Str
  | [] => some []
  | b0 :: bs0 =>
    if b0.toNat < 0x80 then (utf8Decode bs0).map (Char.ofNat b0.toNat :: ·)
    else match bs0 with
      | [] => none
      | b1 :: bs1 =>
        if 0xC2 ≤ b0.toNat ∧ b0.toNat ≤ 0xDF then
          if isCont b1 then (utf8Decode bs1).map (Char.ofNat (b0.toNat % 32 * 64 + b1.toNat % 64) :: ·) else none
        else match bs1 with
          | [] => none
          | b2 :: bs2 =>
            if 0xE0 ≤ b0.toNat ∧ b0.toNat ≤ 0xEF then
              if secondOfThree b0 b1 && isCont b2 then
                (utf8Decode bs2).map (Char.ofNat (b0.toNat % 16 * 4096 + b1.toNat % 64 * 64 + b2.toNat % 64) :: ·)
              else none
            else match bs2 with
              | [] => none
              | b3 :: bs3 =>
                if 0xF0 ≤ b0.toNat ∧ b0.toNat ≤ 0xF4 then
                  if secondOfFour b0 b1 && isCont b2 && isCont b3 then
                    (utf8Decode bs3).map
                      (Char.ofNat (b0.toNat % 8 * 262144 + b1.toNat % 64 * 4096 + b2.toNat % 64 * 64 + b3.toNat % 64) :: ·)
                  else none
                else none

/-- `char::encode_utf8`. -/
def utf8EncodeChar (c : Char) : List Byte :=
  let n := c.toNat
  if n < 0x80 then [BitVec.ofNat 8 n]
  else if n < 0x800 then [BitVec.ofNat 8 (n / 64 % 32 + 0xC0), BitVec.ofNat 8 (n % 64 + 0x80)]
  else if n < 0x10000 then
    [BitVec.ofNat 8 (n / 4096 % 16 + 0xE0), BitVec.ofNat 8 (n / 64 % 64 + 0x80), BitVec.ofNat 8 (n % 64 + 0x80)]
  else
    [BitVec.ofNat 8 (n / 262144 % 8 + 0xF0), BitVec.ofNat 8 (n / 4096 % 64 + 0x80), BitVec.ofNat 8 (n / 64 % 64 + 0x80),
     BitVec.ofNat 8 (n % 64 + 0x80)]

/-- The bytes of a text. -/
def utf8Encode (s : Str) : List Byte := s.flatMap utf8EncodeChar

/-- How a process ends: with a status, or never. -/
inductive Ending where
  | status (code : Nat)
  | never
  deriving DecidableEq, Repr

/-- What the process does.  The message of a panic, which goes to standard error after all the rest, is not part of the
model. -/
structure Process where
  stdout : List Byte
  stderr : List Byte
  ending : Ending
  deriving DecidableEq, Repr

/-- `std::env::args().collect()`, `src/main.rs:48`: `none` for the panic at an argument that is not UTF-8. -/
def envArgs : List (List Byte) → Option (List Str)
  | [] => some []
  | a :: as =>
    match utf8Decode a with
    | none => none
    | some s => (envArgs as).map (s :: ·)

/-- `main`, `src/main.rs:76-78`: the process for the arguments (program name included).  The status after a panic of the main
thread is 101. -/
def process (rt : Runtime) (u : CharTable) (argv : List (List Byte)) : Process :=
  match envArgs argv with
  | none => ⟨[], [], .status 101⟩
  | some args =>
    let r := doMain rt args
    ⟨utf8Encode (stdoutText r.out), utf8Encode (stderrText u r.out),
      match r.res with
      | .ok code => .status code
      | .panic _ => .status 101
      | .diverge => .never⟩

end Ripcalc

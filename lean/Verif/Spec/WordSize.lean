import Verif.Model.Output
/-!
# How the messages depend on the word size

A number that does not fit the machine word cannot be reported as too large for a prefix; it is reported as unreadable.
-/
namespace Ripcalc

/-- The number that the decimal digits at the beginning of a text add to the digits read before. -/
def digitsWorth : Nat → Str → Nat
  | v, [] => v
  | v, c :: cs => if 48 ≤ c.toNat ∧ c.toNat ≤ 57 then digitsWorth (10 * v + (c.toNat - 48)) cs else v

/-- The number at the beginning of a text, after one plus sign if there is one (0 if there are no digits). -/
def leadingNumber (s : Str) : Nat := digitsWorth 0 (if s.head? = some '+' then s.drop 1 else s)

/-- A complaint about a network on a machine with words of `bits` bits, from that on a machine with longer words. -/
def rewordNet (bits : Nat) : NetspecErr → NetspecErr
  | .cidrRange p m => if 2 ^ bits ≤ p then .cidrParse .posOverflow else .cidrRange p m
  | e => e

/-- A message on a machine with words of `bits` bits, from that on a machine with longer words. -/
def reword (bits : Nat) (args : List Str) : ErrMsg → ErrMsg
  | .showParse e => .showParse (rewordNet bits e)
  | .minimizeParse e => .minimizeParse (rewordNet bits e)
  | .resizeNet s e => .resizeNet s (rewordNet bits e)
  | .splitNet s e => .splitNet s (rewordNet bits e)
  | .enumerateNet s e => .enumerateNet s (rewordNet bits e)
  | .resizeRangeV4 p => if 2 ^ bits ≤ p then .resizeSubnet (args.getD 3 []) (.cidrParse .posOverflow) else .resizeRangeV4 p
  | .resizeRangeV6 p => if 2 ^ bits ≤ p then .resizeSubnet (args.getD 3 []) (.cidrParse .posOverflow) else .resizeRangeV6 p
  | .resizeSubnet s (.cidrParse .invalidDigit) =>
    .resizeSubnet s (.cidrParse (if 2 ^ bits ≤ leadingNumber s then .posOverflow else .invalidDigit))
  | m => m

/-- The same for everything that is written. -/
def rewordEvent (bits : Nat) (args : List Str) : OutEv → OutEv
  | .err m => .err (reword bits args m)
  | e => e

end Ripcalc

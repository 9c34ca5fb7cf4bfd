import Verif.Model.Net
/-!
# The texts of the regular expressions

The four pattern texts of `/repo/src/cmds/mod.rs:21-32`, and the part of the syntax of the `regex` crate that they use.
-/
namespace Ripcalc

/-- The text in `src/cmds/mod.rs:22`. -/
def ipv4SubnetPattern : Str := "^(?P<addr>[0-9]+(?:[.][0-9]+){3})/(?P<wildcard>-)?(?P<mask>[0-9]+(?:[.][0-9]+){3})$".toList
/-- The text in `src/cmds/mod.rs:25`. -/
def ipv4CidrPattern : Str := "^(?P<addr>[0-9]+(?:[.][0-9]+){3})/(?P<wildcard>-)?(?P<cidr>[0-9]+)$".toList
/-- The text in `src/cmds/mod.rs:28`. -/
def ipv6SubnetPattern : Str := "^(?P<addr>[0-9a-f:]+)/(?P<wildcard>-)?(?P<mask>[0-9a-f:]*:[0-9a-f:]*)$".toList
/-- The text in `src/cmds/mod.rs:31`. -/
def ipv6CidrPattern : Str := "^(?P<addr>[0-9a-f:]+)/(?P<wildcard>-)?(?P<cidr>[0-9]+)$".toList

/-- The syntax tree of a pattern. -/
inductive Pat where
  | empty
  /-- `^` -/
  | start
  /-- `$` -/
  | finish
  /-- `[...]` by its ranges, or a literal character -/
  | cls (ranges : List (Char × Char))
  | seq (a b : Pat)
  /-- `a*` -/
  | star (a : Pat)
  /-- `a+` -/
  | plus (a : Pat)
  /-- `a?` -/
  | opt (a : Pat)
  /-- `a{n}` -/
  | times (n : Nat) (a : Pat)
  /-- `(?P<name>a)` -/
  | group (name : Str) (a : Pat)
  deriving DecidableEq, Repr

namespace Pat

/-- Items one after the other. -/
def seqs : List Pat → Pat
  | [] => .empty
  | [p] => p
  | p :: ps => .seq p (seqs ps)

/-- A class (`src/cmds/mod.rs:22,25,28,31`) after its `[`: the ranges, and the text after the `]`. `none` for what is not supported here: negation, escapes and
nested classes. -/
def parseClass : Str → Option (List (Char × Char) × Str)
  | [] => none
  | ']' :: r => some ([], r)
  | '^' :: _ => none
  | '[' :: _ => none
  | '\\' :: _ => none
  | '-' :: _ => none
  | '&' :: _ => none
  | '~' :: _ => none
  | lo :: '-' :: hi :: r =>
    if hi ∈ ['[', ']', '\\', '-'] ∨ hi.toNat < lo.toNat then none else (parseClass r).map fun (cs, r) => ((lo, hi) :: cs, r)
  | c :: r => (parseClass r).map fun (cs, r) => ((c, c) :: cs, r)

/-- A name up to `>`, and the text after it. -/
def parseName : Str → Option (Str × Str)
  | [] => none
  | '>' :: r => some ([], r)
  | c :: r => if c.isAlpha then (parseName r).map fun (n, r) => (c :: n, r) else none

/-- A repetition sign after an item. -/
def parseRepeat (p : Pat) : Str → Option (Pat × Str)
  | '*' :: r => some (.star p, r)
  | '+' :: r => some (.plus p, r)
  | '?' :: r => some (.opt p, r)
  | '{' :: d :: '}' :: r => if d.isDigit then some (.times (d.toNat - '0'.toNat) p, r) else none
  | '{' :: _ => none
  | r => some (p, r)

/-- A repetition sign directly after another (lazy matching and nested repetition) is not supported here. -/
def noRepeat : Str → Bool
  | c :: _ => c ∉ ['*', '+', '?', '{']
  | [] => true

/-- The rest of a group: items and a `)`. -/
def parseGroup (inner : Str → Option (List Pat × Str)) (s : Str) : Option (Pat × Str) :=
  match inner s with
  | some (ps, ')' :: r) => some (seqs ps, r)
  | _ => none

/-- One thing without a repetition sign; `none` for what is not supported here (alternatives, `.`, escapes, flags). `inner` reads
the items of a group. -/
def parseAtom (inner : Str → Option (List Pat × Str)) : Str → Option (Pat × Str)
  | [] => none
  | '^' :: r => some (.start, r)
  | '$' :: r => some (.finish, r)
  | '[' :: r =>
    match parseClass r with
    | some (c :: cs, r) => some (.cls (c :: cs), r)
    | _ => none
  | '(' :: '?' :: ':' :: r => parseGroup inner r
  | '(' :: '?' :: 'P' :: '<' :: r =>
    match parseName r with
    | none => none
    | some ([], _) => none
    | some (name, r) => (parseGroup inner r).map fun (p, r) => (.group name p, r)
  | c :: r => if c ∈ ['(', ')', '|', '.', '\\', '*', '+', '?', '{', '}', ']'] then none else some (.cls [(c, c)], r)

/-- Items up to a `)` or the end.  The first argument bounds the number of steps. -/
def parseItems : Nat → Str → Option (List Pat × Str)
  | 0, _ => none
  | _ + 1, [] => some ([], [])
  | _ + 1, ')' :: r => some ([], ')' :: r)
  | fuel + 1, s =>
    match parseAtom (parseItems fuel) s with
    | none => none
    | some (p, r) =>
      match parseRepeat p r with
      | none => none
      | some (p, r) => if noRepeat r then (parseItems fuel r).map fun (ps, r) => (p :: ps, r) else none

/-- The names of the groups. -/
def groupNames : Pat → List Str
  | .empty => []
  | .start => []
  | .finish => []
  | .cls _ => []
  | .seq a b => groupNames a ++ groupNames b
  | .star a => groupNames a
  | .plus a => groupNames a
  | .opt a => groupNames a
  | .times _ a => groupNames a
  | .group n a => n :: groupNames a

/-- `Regex::new`, used at `src/cmds/mod.rs:21-32`.  A name must not be used twice. -/
def parse (s : Str) : Option Pat :=
  match parseItems (s.length + 1) s with
  | some (ps, []) => if (groupNames (seqs ps)).Nodup then some (seqs ps) else none
  | _ => none

end Pat

end Ripcalc

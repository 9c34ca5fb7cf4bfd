import Verif.Model.Pattern
/-!
# What the pattern texts mean

The grammar of the patterns as far as it is used, and where and how a pattern matches in a text, with `^` and `$` as conditions
on the place.  The names of the groups are texts.
-/
namespace Ripcalc
namespace Pat

/-- Characters that stand for themselves in a class. -/
def ClassLiteral (c : Char) : Prop := c ∉ ['[', ']', '\\', '-', '^', '&', '~']

/-- What is between `[` and `]`. -/
inductive ClassText : Str → List (Char × Char) → Prop
  | nil : ClassText [] []
  | one {c s rs} : ClassLiteral c → ClassText s rs → ClassText (c :: s) ((c, c) :: rs)
  | range {lo hi s rs} : ClassLiteral lo → hi ∉ ['[', ']', '\\', '-'] → lo.toNat ≤ hi.toNat → ClassText s rs → ClassText (lo :: '-' :: hi :: s) ((lo, hi) :: rs)

/-- Characters that stand for themselves outside classes. -/
def Literal (c : Char) : Prop := c ∉ ['(', ')', '[', ']', '{', '}', '*', '+', '?', '|', '.', '\\', '^', '$']

mutual
/-- One thing without a repetition sign. -/
inductive AtomText : Str → Pat → Prop
  | start : AtomText ['^'] .start
  | finish : AtomText ['$'] .finish
  | literal {c} : Literal c → AtomText [c] (.cls [(c, c)])
  | cls {s rs} : s ≠ [] → ClassText s rs → AtomText ('[' :: s ++ [']']) (.cls rs)
  | plain {s ps} : ItemsText s ps → AtomText ("(?:".toList ++ s ++ [')']) (seqs ps)
  | group {name s ps} : name ≠ [] → (∀ c ∈ name, c.isAlpha = true) → ItemsText s ps →
      AtomText ("(?P<".toList ++ name ++ '>' :: s ++ [')']) (.group name (seqs ps))
/-- One thing with or without a repetition sign. -/
inductive ItemText : Str → Pat → Prop
  | once {s p} : AtomText s p → ItemText s p
  | star {s p} : AtomText s p → ItemText (s ++ ['*']) (.star p)
  | plus {s p} : AtomText s p → ItemText (s ++ ['+']) (.plus p)
  | opt {s p} : AtomText s p → ItemText (s ++ ['?']) (.opt p)
  | times {s p} (n : Nat) : n < 10 → AtomText s p → ItemText (s ++ ['{', Char.ofNat (48 + n), '}']) (.times n p)
/-- Things one after the other. -/
inductive ItemsText : Str → List Pat → Prop
  | nil : ItemsText [] []
  | cons {s p t ps} : ItemText s p → ItemsText t ps → ItemsText (s ++ t) (p :: ps)
end

/-- The names of the groups of a pattern, from left to right. -/
inductive Named : Pat → List Str → Prop
  | empty : Named .empty []
  | start : Named .start []
  | finish : Named .finish []
  | cls {rs} : Named (.cls rs) []
  | seq {p q x y} : Named p x → Named q y → Named (.seq p q) (x ++ y)
  | star {p x} : Named p x → Named (.star p) x
  | plus {p x} : Named p x → Named (.plus p) x
  | opt {p x} : Named p x → Named (.opt p) x
  | times {n p x} : Named p x → Named (.times n p) x
  | group {n p x} : Named p x → Named (.group n p) (n :: x)

/-- `Matches p before s after groups`: in the text `before ++ s ++ after`, the pattern matches `s`, and these groups took part with
these contents, from left to right. -/
inductive Matches : Pat → Str → Str → Str → List (Str × Str) → Prop
  | empty {b a} : Matches .empty b [] a []
  | start {a} : Matches .start [] [] a []
  | finish {b} : Matches .finish b [] [] []
  | cls {rs c lo hi b a} : (lo, hi) ∈ rs → lo.toNat ≤ c.toNat → c.toNat ≤ hi.toNat → Matches (.cls rs) b [c] a []
  | seq {p q b s t a x y} : Matches p b s (t ++ a) x → Matches q (b ++ s) t a y → Matches (.seq p q) b (s ++ t) a (x ++ y)
  | starNil {p b a} : Matches (.star p) b [] a []
  | starCons {p b s t a x y} : Matches p b s (t ++ a) x → Matches (.star p) (b ++ s) t a y → Matches (.star p) b (s ++ t) a (x ++ y)
  | plus {p b s t a x y} : Matches p b s (t ++ a) x → Matches (.star p) (b ++ s) t a y → Matches (.plus p) b (s ++ t) a (x ++ y)
  | optNone {p b a} : Matches (.opt p) b [] a []
  | optSome {p b s a x} : Matches p b s a x → Matches (.opt p) b s a x
  | timesNil {p b a} : Matches (.times 0 p) b [] a []
  | timesCons {n p b s t a x y} : Matches p b s (t ++ a) x → Matches (.times n p) (b ++ s) t a y →
      Matches (.times (n + 1) p) b (s ++ t) a (x ++ y)
  | group {n p b s a x} : Matches p b s a x → Matches (.group n p) b s a ((n, s) :: x)

/-- The pattern matches somewhere in the text, with these groups. -/
def Found (p : Pat) (s : Str) (groups : List (Str × Str)) : Prop := ∃ b m a, s = b ++ m ++ a ∧ Matches p b m a groups

end Pat
end Ripcalc

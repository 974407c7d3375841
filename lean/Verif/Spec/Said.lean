import Verif.Spec.Outline
import Verif.Model.Print

/-!
# What can be learnt from the printed text
-/

namespace Sneturfahi.Spec

open Sneturfahi

/-- What an error of the parser says when printed. -/
inductive ErrorSays where
  | expectedGot (expected : List Selmaho) (got : Option Token)
  | postConditionFailed
  | nom (kind : NomKind)
  | empty (name : List Char)
deriving DecidableEq

/-- What an error of the parser says when printed: everything, but a type appears as the compiler writes its name. -/
def errorSays (s : Surroundings) : CstError → ErrorSays
  | .expectedGot e g => .expectedGot e g
  | .postConditionFailed => .postConditionFailed
  | .nom k => .nom k
  | .empty n => .empty (s.emptied n)

/-- What a line of the tree says: how far in it is, the name of the node, whether there is a star, and the range and the
text of the node if it has any. -/
def lineSays (l : Line) : Nat × List Char × Bool × Option (Span × List Char) :=
  (l.level, l.label.text, l.experimental, l.place)

/-- What an output says. -/
inductive Said where
  | words (words : List (List Char × Span))
  | lexingError (error : LexError)
  | tokens (tokens : List (Token × List Char))
  | tree (lines : List (Nat × List Char × Bool × Option (Span × List Char)))
  | notLexable (token : Token) (content : List Char)
  | parseError (location : List Token) (error : ErrorSays)

/-- What an output says: everything, except where the tokens are in memory and how a type is called in the program. -/
def says (s : Surroundings) : Output → Said
  | .decomposed ws => .words ws
  | .lexingError e => .lexingError e
  | .lexed ts => .tokens ts
  | .tree ls => .tree (ls.map lineSays)
  | .notLexable t c => .notLexable t c
  | .parseError e => .parseError e.location.list (errorSays s e.error)

mutual
/-- Two trees, of the texts `i` and `j`, look alike: the nodes have the same names, stars, ranges and texts, and as many
children, which look alike; if trees are collapsed, a node with exactly one child is passed over. -/
inductive LookAlike (collapse : Bool) (i j : Str) : Val → Val → Prop
  | left {v w child : Val} : collapse = true → v.children = [child] → LookAlike collapse i j child w → LookAlike collapse i j v w
  | right {v w child : Val} : collapse = true → w.children = [child] → LookAlike collapse i j v child → LookAlike collapse i j v w
  | node {v w : Val} (l l' : Line) (level : Nat) : Describes i l level v → Describes j l' level w → lineSays l = lineSays l' →
      (collapse = true → v.children.length ≠ 1 ∧ w.children.length ≠ 1) → LookAlikes collapse i j v.children w.children →
      LookAlike collapse i j v w
/-- The same, one by one. -/
inductive LookAlikes (collapse : Bool) (i j : Str) : List Val → List Val → Prop
  | nil : LookAlikes collapse i j [] []
  | cons {v w : Val} {vs ws : List Val} : LookAlike collapse i j v w → LookAlikes collapse i j vs ws →
      LookAlikes collapse i j (v :: vs) (w :: ws)
end

end Sneturfahi.Spec

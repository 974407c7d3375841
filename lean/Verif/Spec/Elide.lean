import Verif.Spec.Decor

/-!
# Leaving out the last word
-/

namespace Sneturfahi.Spec

/-- The words that close a construct and can be left out before the end (and `ra'o`, which is only added to `go'i`). -/
def closing : List Selmaho :=
  [.Kei, .Kuho, .Gehu, .Vau, .Tuhu, .Nuhu, .Beho, .Mehu, .Raho, .Fehu, .Veho, .Boi, .Loho, .Lihu, .Luhu, .Sehu, .Toi, .Dohu, .Tehu, .Kuhe]

/-- The words that quote words, or that make something else of the word before them: `zo`, `zoi`, `lo'u`, `zei`. -/
def quotingWords : List Selmaho := [.Zo, .Zoi, .Lohu, .Zei]

/-- Tokens without these words that do not end with `ba'e`. -/
structure Unquoted (toks : List Token) : Prop where
  plain : ∀ t ∈ toks, t.selmaho ∉ quotingWords
  last : ∀ t, toks.getLast? = some t → t.selmaho ≠ .Bahe

/-- The last word is `na` (with any indicators on it). -/
def EndsWithNa (toks : List Token) : Prop :=
  ∃ before n us, toks = before ++ n :: us ∧ n.selmaho = .Na ∧ ∀ u ∈ us, u.selmaho ∈ Selmaho.Fuhe :: decorating

mutual
/-- The second value is the first without the token `t`: an optional part that consists of nothing but `t` is missing, everything
else is the same. -/
inductive Dropped (t : Token) : Val → Val → Prop
  | part {xs} : tokensL xs = [t] → Dropped t (.many xs) (.many [])
  | many {fs fs'} : DroppedL t fs fs' → Dropped t (.many fs) (.many fs')
  | node {n fs fs'} : DroppedL t fs fs' → Dropped t (.node n fs) (.node n fs')
  | tuple {fs fs'} : DroppedL t fs fs' → Dropped t (.tuple fs) (.tuple fs')
  | sepFirst {v v' rest} : Dropped t v v' → Dropped t (.sep v rest) (.sep v' rest)
  | sepRest {v rest rest'} : Dropped t (.many rest) (.many rest') → Dropped t (.sep v rest) (.sep v rest')
/-- The same in one of several values. -/
inductive DroppedL (t : Token) : List Val → List Val → Prop
  | head {v v' vs} : Dropped t v v' → DroppedL t (v :: vs) (v' :: vs)
  | tail {v vs vs'} : DroppedL t vs vs' → DroppedL t (v :: vs) (v :: vs')
end

end Sneturfahi.Spec

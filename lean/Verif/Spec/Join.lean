import Verif.Spec.Tree

/-!
# Texts made of texts

Specification side.
-/

namespace Sneturfahi.Spec

open Sneturfahi

/-- `toks` are a text: parsing them gives a tree (with any build profile, wherever the tokens are in memory). -/
def IsText (toks : List Token) : Prop := ∀ p ptr, ∃ root, parseCst p ⟨ptr, toks⟩ = .val (.ok root)

/-- The words that quote, that make something else of the word before them, or that may contain several paragraphs or
sentences: `zo`, `zoi`, `lo'u`, `zei`, `bu`, `to`, `lu`, `tu'e`. -/
def wrapping : List Selmaho := [.Zo, .Zoi, .Lohu, .Zei, .Bu, .To, .Lu, .Tuhe]

/-- Tokens that have nothing to do with what follows them: without wrapping words, `fa'o` and `ni'o`, and not ending with
`ba'e`. -/
structure Piece (toks : List Token) : Prop where
  plain : ∀ t ∈ toks, t.selmaho ∉ wrapping
  open_ : ∀ t ∈ toks, t.selmaho ≠ .Faho
  one : ∀ t ∈ toks, t.selmaho ≠ .Niho
  last : ∀ t, toks.getLast? = some t → t.selmaho ≠ .Bahe

/-- Indicators: `ui`, `cai`, `nai`, `da'o`, `fu'o`, `y` (as selma'o). -/
def indicating : List Selmaho := [.Ui, .Cai, .Nai, .Daho, .Fuho, .Y]

/-- The words that have to do with an `.i` before them: connectives, tags and numbers (which may be part of a tag), `bo`;
those that begin a free modifier or an indicator; `ba'e`, `bu`, `zei`; `.i` and `ni'o`. -/
def linking : List Selmaho := [.Se, .Joi, .Bihi, .Gaho, .Na, .Ja, .Nahe, .Bai, .Zi, .Pu, .Zeha, .Pa, .Tahe, .Zaho, .Va, .Faha,
  .Viha, .Veha, .Fehe, .Mohi, .Caha, .Ki, .Cuhe, .Fiho, .Bo, .Sei, .Soi, .Coi, .Doi, .Bahe, .By, .Lau, .Tei, .To, .Xi,
  .Fuhe, .Ui, .Cai, .Nai, .Daho, .Fuho, .Y, .Bu, .Zei, .I, .Niho]

/-- Tokens that begin, after any indicators, with a word that has nothing to do with an `.i` before it (and is not made
something else by a following `bu` or `zei`). -/
def Starts (toks : List Token) : Prop := ∃ us b, toks = us ++ b ∧ (∀ u ∈ us, u.selmaho ∈ indicating) ∧
  (b = [] ∨ ∃ t q, b = t :: q ∧ t.selmaho ∉ linking ∧ NotBound q)

end Sneturfahi.Spec

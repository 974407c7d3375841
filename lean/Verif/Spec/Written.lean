import Verif.Spec.Join
import Verif.Spec.Decor
import Verif.Spec.Elide

/-!
# Texts as they are written

Specification side: what it means that a text, as a string, is read as certain words and that it is grammatical.
-/

namespace Sneturfahi.Spec

open Sneturfahi

/-- The text is read, without errors, as these tokens (with any build profile, wherever it is in memory). -/
def ReadAs (text : List Char) (toks : List Token) : Prop := ∀ p ptr, lexAll p ⟨ptr, text⟩ = .val (toks.map .ok)

/-- The text is read without errors and parsing what is read gives a tree. -/
def Grammatical (text : List Char) : Prop :=
  ∀ p ptr ptr', ∃ (toks : List Token) (root : Val), lexAll p ⟨ptr, text⟩ = .val (toks.map .ok) ∧ parseCst p ⟨ptr', toks⟩ = .val (.ok root)

/-- No `fa'o` and no `fa'o'o`: the reading does not end early. -/
def GoesOn (toks : List Token) : Prop := ∀ t ∈ toks, t.selmaho ≠ .Faho ∧ t.selmaho ≠ .Fahoho

end Sneturfahi.Spec

import Verif.Spec.Text
import Verif.Spec.Phonology

/-!
# The form of cmavo

Specification side: which words have the form of a cmavo, letter by letter.
-/

namespace Sneturfahi.Spec

/-- A vowel, y, or one of the diphthongs ai ei oi au; capitals or not. -/
def VowelGroup (g : List Char) : Prop :=
  (∃ v ∈ c!"aeiouyAEIOUY", g = [v]) ∨
  (∃ v ∈ c!"aA", ∃ w ∈ c!"iuIU", g = [v, w]) ∨
  (∃ v ∈ c!"eoEO", ∃ w ∈ c!"iI", g = [v, w])

/-- Such groups with an apostrophe (or h) between each two. -/
inductive CmavoVowels : List Char → Prop
  | one {g} : VowelGroup g → CmavoVowels g
  | more {g q t} : VowelGroup g → q ∈ c!"'h" → CmavoVowels t → CmavoVowels (g ++ q :: t)

/-- The form of a cmavo: a digit; or some y; or vowels, with at most one consonant, or i or u, before them. -/
def CmavoForm (w : List Char) : Prop :=
  (∃ d ∈ c!"0123456789", w = [d]) ∨ (w ≠ [] ∧ ∀ c ∈ w, c ∈ c!"yY") ∨ CmavoVowels w ∨
  ∃ c t, w = c :: t ∧ (IsConsonantLetter c ∨ c ∈ c!"iuIU") ∧ CmavoVowels t

end Sneturfahi.Spec

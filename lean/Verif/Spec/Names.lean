import Verif.Spec.CmavoForm

/-!
# The form of names

Specification side: which words have the form of a name (cmevla), sound by sound.
-/

namespace Sneturfahi.Spec

/-- The sounds a name is made of. -/
inductive Sound where
  /-- a vowel, y or diphthong -/
  | vowels (group : List Char)
  /-- i or u before a vowel -/
  | glide (letter : Char)
  /-- an apostrophe or h -/
  | apostrophe (letter : Char)
  | consonant (letter : Char)
  | digit (letter : Char)

/-- How the sound is written. -/
def Sound.letters : Sound → List Char
  | .vowels g => g
  | .glide c => [c]
  | .apostrophe c => [c]
  | .consonant c => [c]
  | .digit c => [c]

/-- The letters are what they are said to be. -/
def Sound.WellFormed : Sound → Prop
  | .vowels g => VowelGroup g
  | .glide c => c ∈ c!"iuIU"
  | .apostrophe c => c ∈ c!"'h"
  | .consonant c => IsConsonantLetter c
  | .digit c => c ∈ c!"0123456789"

/-- Which sound may come right after which. -/
def Sound.MayPrecede : Sound → Sound → Prop
  -- vowels do not meet
  | .vowels _, .vowels _ => False
  | .vowels _, _ => True
  -- a glide and an apostrophe are followed by a vowel
  | .glide _, .vowels _ => True
  | .glide _, _ => False
  | .apostrophe _, .vowels _ => True
  | .apostrophe _, _ => False
  -- two consonants make a permissible pair; no apostrophe and no glide comes after a consonant
  | .consonant c, .consonant d => PermissiblePair (lower c) (lower d)
  | .consonant _, .apostrophe _ => False
  | .consonant _, .glide _ => False
  | .consonant _, _ => True
  -- neither an apostrophe nor a vowel comes after a digit
  | .digit _, .apostrophe _ => False
  | .digit _, .vowels _ => False
  | .digit _, _ => True

/-- The sounds of a name: neighbours go together, none of ndj ndz ntc nts, no apostrophe at the start, a consonant at the
end. -/
def NameSounds (s : List Sound) : Prop :=
  (∀ x ∈ s, x.WellFormed) ∧
  (∀ a x y b, s = a ++ x :: y :: b → x.MayPrecede y) ∧
  (∀ a x y z b, s = a ++ .consonant x :: .consonant y :: .consonant z :: b → [lower x, lower y, lower z] ∉ forbiddenTriples) ∧
  (∀ c, s.head? ≠ some (.apostrophe c)) ∧
  (∃ c, s.getLast? = some (.consonant c))

/-- The form of a name. -/
def NameForm (w : List Char) : Prop := ∃ s, NameSounds s ∧ w = s.flatMap Sound.letters

end Sneturfahi.Spec

import Verif.Spec.Names
import Verif.Spec.Lujvo

/-!
# The form of fu'ivla

Specification side: which words have the form of a fu'ivla (a loan word), sound by sound.
-/

namespace Sneturfahi.Spec

/-- Consonants a syllable with a vowel may begin with: at most one, one of the initial pairs, or s, c, j or z with an initial pair
that ends in l or r. -/
def InitialConsonants : List Char → Prop
  | [] => True
  | [_] => True
  | [c, d] => [lower c, lower d] ∈ initialPairs
  | [c, d, e] => lower c ∈ c!"csjz" ∧ [lower c, lower d] ∈ initialPairs ∧ [lower d, lower e] ∈ initialPairs ∧ lower e ∈ c!"lr"
  | _ => False

/-- Consonants before a vowel that begin with a new syllable: initial consonants, or, before more of the same, a consonantal syllable:
a consonant and then one of l m n r, which does not begin a syllable itself. -/
def BeginsSyllable : List Char → Prop
  | [] => True
  | [_] => True
  | c :: d :: rest => InitialConsonants (c :: d :: rest) ∨ (lower d ∈ c!"lmnr" ∧ ¬ BeginsSyllable (d :: rest) ∧ BeginsSyllable rest)

/-- Consonants between two vowels: new syllables begin with the first or with the second of them. -/
def MedialConsonants (cs : List Char) : Prop := BeginsSyllable cs ∨ BeginsSyllable cs.tail

/-- The sounds of a fu'ivla: neighbours go together, none of ndj ndz ntc nts, no apostrophe at the start, a vowel at the end and
another one before, and consonants that belong to syllables. -/
structure FuhivlaSounds (s : List Sound) : Prop where
  wellFormed : ∀ x ∈ s, x.WellFormed
  neighbours : ∀ a x y b, s = a ++ x :: y :: b → x.MayPrecede y
  triples : ∀ a x y z b, s = a ++ .consonant x :: .consonant y :: .consonant z :: b → [lower x, lower y, lower z] ∉ forbiddenTriples
  digits : ∀ c, Sound.digit c ∉ s
  start : ∀ c, s.head? ≠ some (.apostrophe c)
  vowels : ∃ a g b h, s = a ++ .vowels g :: (b ++ [.vowels h])
  initial : ∀ cs g t, s = cs.map .consonant ++ .vowels g :: t → InitialConsonants cs
  medial : ∀ a g cs h b, s = a ++ .vowels g :: (cs.map .consonant ++ .vowels h :: b) → MedialConsonants cs

/-- Rafsi only: a lujvo, one rafsi with an apostrophe, or a gismu. -/
def Rafsis (w : List Char) : Prop := RafsiWord w ∨ (LastRafsi w ∧ ¬ ShortRafsi w)

/-- The sounds of a particle: at most one consonant or glide, and vowels with apostrophes between them. -/
inductive ParticleSounds : List Sound → Prop
  | vowels {g} : ParticleSounds [.vowels g]
  | glide {c g} : ParticleSounds [.glide c, .vowels g]
  | consonant {c g} : ParticleSounds [.consonant c, .vowels g]
  | more {s q g} : ParticleSounds s → ParticleSounds (s ++ [.apostrophe q, .vowels g])

/-- The sounds fall apart into particles, the last of which may be followed by a word with content. -/
inductive FallsApart (content : List Char → Prop) : List Sound → Prop
  | one {s} : ParticleSounds s → FallsApart content s
  | word {s t} : ParticleSounds s → (∀ c u, t ≠ .apostrophe c :: u) → content (t.flatMap Sound.letters) → FallsApart content (s ++ t)
  | more {s t} : ParticleSounds s → FallsApart content t → FallsApart content (s ++ t)

/-- The form of a fu'ivla, where it is known which shorter words are words with content: the sounds make syllables, the word is not
made of rafsi, not even without its first consonant, and it does not fall apart. -/
def FuhivlaForm (content : List Char → Prop) (w : List Char) : Prop :=
  ∃ s, FuhivlaSounds s ∧ w = s.flatMap Sound.letters ∧ ¬ Rafsis w ∧ (∀ c t, w = c :: t → IsConsonantLetter c → ¬ Rafsis t) ∧
    ¬ FallsApart content s

end Sneturfahi.Spec

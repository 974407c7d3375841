import Verif.Spec.Fuhivla

/-!
# How any chunk is divided into words

Specification side: the words of a chunk, sound by sound.
-/

namespace Sneturfahi.Spec

/-- Sounds that go together, from anything but an apostrophe to a vowel. -/
structure SoundsWell (s : List Sound) : Prop where
  wellFormed : ∀ x ∈ s, x.WellFormed
  neighbours : ∀ a x y b, s = a ++ x :: y :: b → x.MayPrecede y
  triples : ∀ a x y z b, s = a ++ .consonant x :: .consonant y :: .consonant z :: b → [lower x, lower y, lower z] ∉ forbiddenTriples
  digits : ∀ c, Sound.digit c ∉ s
  start : ∀ c, s.head? ≠ some (.apostrophe c)
  ending : ∃ a g, s = a ++ [.vowels g]

/-- How sounds are to be divided, where it is known which words are words with content: particles as long as there are any, and what
begins with two consonants. This is a word if it has content; otherwise it belongs together with the particle before it. -/
inductive DividesSounds (content : List Char → Prop) : List Sound → List (List Char) → Prop
  | particles {ps : List (List Sound)} : (∀ p ∈ ps, ParticleSounds p) → DividesSounds content ps.flatten (ps.map (·.flatMap Sound.letters))
  | content {ps : List (List Sound)} {c d u w} : (∀ p ∈ ps, ParticleSounds p) → w = (Sound.consonant c :: .consonant d :: u).flatMap Sound.letters → content w →
      DividesSounds content (ps.flatten ++ .consonant c :: .consonant d :: u) (ps.map (·.flatMap Sound.letters) ++ [w])
  | joined {ps : List (List Sound)} {p c d u w} : (∀ p ∈ ps, ParticleSounds p) → ParticleSounds p →
      w = (Sound.consonant c :: .consonant d :: u).flatMap Sound.letters → ¬ content w →
      DividesSounds content (ps.flatten ++ (p ++ .consonant c :: .consonant d :: u))
        (ps.map (·.flatMap Sound.letters) ++ [p.flatMap Sound.letters ++ w])
  | alone {c d u} : DividesSounds content (.consonant c :: .consonant d :: u)
      [(Sound.consonant c :: .consonant d :: u).flatMap Sound.letters]

/-- How one chunk is to be divided into words. -/
inductive DividesChunk (content : List Char → Prop) : List Char → List (List Char) → Prop
  | empty : DividesChunk content [] []
  | name {c l} : LastLetter c l → IsConsonantLetter l → DividesChunk content c [c]
  | words {s ws} : SoundsWell s → (∀ c ∈ s.flatMap Sound.letters, c ∉ c!"yYAEIOU") → DividesSounds content s ws →
      DividesChunk content (s.flatMap Sound.letters) ws

/-- How chunks are to be divided, one after the other. -/
inductive DividesChunks (content : List Char → Prop) : List (List Char) → List (List Char) → Prop
  | nil : DividesChunks content [] []
  | cons {c cs ws wss} : DividesChunk content c ws → DividesChunks content cs wss → DividesChunks content (c :: cs) (ws ++ wss)

end Sneturfahi.Spec

import Verif.Spec.Text
import Verif.Spec.Phonology

/-!
# Words written together

Which chunks are ordinary cmavo written together, possibly followed by a gismu.
-/

namespace Sneturfahi.Spec

/-- The vowels and diphthongs. -/
def vowelGroups : List (List Char) := [c!"a", c!"e", c!"i", c!"o", c!"u", c!"ai", c!"ei", c!"oi", c!"au"]

/-- Vowels and diphthongs with an apostrophe (or h) between each two. -/
inductive Groups : List Char → Prop
  | one {g} : g ∈ vowelGroups → Groups g
  | more {g q t} : g ∈ vowelGroups → q ∈ c!"'h" → Groups t → Groups (g ++ q :: t)

/-- The usual form of a cmavo: a consonant and vowels, like mi, lo'u, ke'e'u. -/
def SimpleCmavo (w : List Char) : Prop := ∃ c t, w = c :: t ∧ IsConsonantLetter c ∧ Groups t

/-- Forms that may begin a chunk: also those beginning with a vowel or with i, u before a vowel, like o'a, ui, ia'u. -/
def InitialCmavo (w : List Char) : Prop := SimpleCmavo w ∨ Groups w ∨ ∃ c t, w = c :: t ∧ c ∈ c!"iu" ∧ Groups t

/-- A gismu whose vowels are a e i o u in lower case. -/
def PlainGismu (w : List Char) : Prop :=
  ∃ a b c d e, w = [a, b, c, d, e] ∧ e ∈ c!"aeiou" ∧
    ((IsConsonantLetter a ∧ b ∈ c!"aeiou" ∧ IsConsonantLetter c ∧ IsConsonantLetter d ∧ PermissiblePair (lower c) (lower d)) ∨
     (IsConsonantLetter a ∧ IsConsonantLetter b ∧ c ∈ c!"aeiou" ∧ IsConsonantLetter d ∧ [lower a, lower b] ∈ initialPairs))

/-- Words that can be written together: cmavo, all but the first beginning with a consonant, and possibly a gismu at the end. -/
def RunTogether (ws : List (List Char)) : Prop :=
  ∃ cmavo last, ws = cmavo ++ last ∧ (∀ w, cmavo.head? = some w → InitialCmavo w) ∧ (∀ w ∈ cmavo.tail, SimpleCmavo w) ∧
    (last = [] ∨ ∃ g, last = [g] ∧ PlainGismu g)

/-- How one chunk is to be divided into words. -/
inductive Divides : List Char → List (List Char) → Prop
  | empty : Divides [] []
  | name {c l} : LastLetter c l → IsConsonantLetter l → Divides c [c]
  | words {ws} : RunTogether ws → Divides ws.flatten ws

/-- How chunks are to be divided, one after the other. -/
inductive DividesAll : List (List Char) → List (List Char) → Prop
  | nil : DividesAll [] []
  | cons {c cs ws wss} : Divides c ws → DividesAll cs wss → DividesAll (c :: cs) (ws ++ wss)

end Sneturfahi.Spec

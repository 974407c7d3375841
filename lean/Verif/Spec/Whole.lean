import Verif.Spec.Compound
import Verif.Spec.Lujvo

/-!
# Lujvo with cmavo written before them
-/

namespace Sneturfahi.Spec

/-- How lujvo begin that stay whole. -/
inductive Held : List Char → Prop
  -- jbobau, brivla: with two consonants
  | cluster {c d t} : IsConsonantLetter c → IsConsonantLetter d → Held (c :: d :: t)
  -- tobybau: with a rafsi hyphened by y
  | y {c v d t} : IsConsonantLetter c → IsVowelLetter v → IsConsonantLetter d → Held (c :: v :: d :: 'y' :: t)
  -- selgri, soirsai, to'ersance: the consonants after the first vowels cannot begin a word
  | pair {c g d e t} : IsConsonantLetter c → Groups g → IsConsonantLetter d → IsConsonantLetter e → [lower d, lower e] ∉ initialPairs →
      Held (c :: (g ++ d :: e :: t))
  -- lojbau, baugri: only one syllable comes after the first vowels
  | one {c g d e h} : IsConsonantLetter c → Groups g → IsConsonantLetter d → IsConsonantLetter e → h ∈ vowelGroups → Held (c :: (g ++ d :: e :: h))

/-- A lujvo without capital vowels that stays whole. -/
def HeldLujvo (w : List Char) : Prop := LujvoForm w ∧ (∀ c ∈ w, c ∉ c!"AEIOUY") ∧ Held w

/-- How one chunk is to be divided into words: as before, or with a lujvo at the end. -/
inductive DividesMore : List Char → List (List Char) → Prop
  | plain {c ws} : Divides c ws → DividesMore c ws
  | lujvo {cmavo l} : (∀ w, cmavo.head? = some w → InitialCmavo w) → (∀ w ∈ cmavo.tail, SimpleCmavo w) → HeldLujvo l →
      DividesMore (cmavo.flatten ++ l) (cmavo ++ [l])

/-- How chunks are to be divided, one after the other. -/
inductive DividesMoreAll : List (List Char) → List (List Char) → Prop
  | nil : DividesMoreAll [] []
  | cons {c cs ws wss} : DividesMore c ws → DividesMoreAll cs wss → DividesMoreAll (c :: cs) (ws ++ wss)

end Sneturfahi.Spec

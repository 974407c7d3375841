import Verif.Spec.Phonology
import Verif.Spec.Text

/-!
# The form of lujvo

Specification side: words put together from rafsi, letter by letter, as in CLL 4.5-4.6. Any letter may be a capital.
-/

namespace Sneturfahi.Spec

/-- A vowel. -/
def IsVowelLetter (c : Char) : Prop := c ∈ c!"aeiouAEIOU"

/-- A diphthong: ai au ei oi. -/
def IsDiphthong (v w : Char) : Prop := (v ∈ c!"aA" ∧ w ∈ c!"iuIU") ∨ (v ∈ c!"eoEO" ∧ w ∈ c!"iI")

/-- Two consonants a word may begin with. -/
def IsInitialPair (c d : Char) : Prop := IsConsonantLetter c ∧ IsConsonantLetter d ∧ [lower c, lower d] ∈ initialPairs

/-- The hyphen after a rafsi that ends in two vowels: r, or n if an r follows. -/
def IsHyphen (h : Char) (rest : List Char) : Prop := h ∈ c!"rR" ∨ h ∈ c!"nN" ∧ ∃ r t, rest = r :: t ∧ r ∈ c!"rR"

/-- A rafsi that is not the last one of the word, with the rest of the word. -/
inductive RafsiBefore : List Char → List Char → Prop
  -- lob-
  | cvc {c v d rest} : IsConsonantLetter c → IsVowelLetter v → IsConsonantLetter d → RafsiBefore [c, v, d] rest
  -- jbo-
  | ccv {c d v rest} : IsInitialPair c d → IsVowelLetter v → RafsiBefore [c, d, v] rest
  -- baur-
  | cvv {c v w h rest} : IsConsonantLetter c → IsDiphthong v w → IsHyphen h rest → RafsiBefore [c, v, w, h] rest
  -- bi'ur-
  | cvhv {c v q w h rest} : IsConsonantLetter c → IsVowelLetter v → q ∈ c!"'h" → IsVowelLetter w → IsHyphen h rest →
      RafsiBefore [c, v, q, w, h] rest
  -- toby-
  | cvcy {c v d y rest} : IsConsonantLetter c → IsVowelLetter v → IsConsonantLetter d → y ∈ c!"yY" → RafsiBefore [c, v, d, y] rest
  -- lojby-
  | cvccy {c v d e y rest} : IsConsonantLetter c → IsVowelLetter v → IsConsonantLetter d → IsConsonantLetter e → y ∈ c!"yY" →
      RafsiBefore [c, v, d, e, y] rest
  -- bridy-
  | ccvcy {c d v e y rest} : IsInitialPair c d → IsVowelLetter v → IsConsonantLetter e → y ∈ c!"yY" →
      RafsiBefore [c, d, v, e, y] rest

/-- The short last rafsi. -/
inductive ShortRafsi : List Char → Prop
  -- -bau
  | cvv {c v w} : IsConsonantLetter c → IsDiphthong v w → ShortRafsi [c, v, w]
  -- -jbo
  | ccv {c d v} : IsInitialPair c d → IsVowelLetter v → ShortRafsi [c, d, v]

/-- A rafsi that may be the last one. -/
inductive LastRafsi : List Char → Prop
  | short {f} : ShortRafsi f → LastRafsi f
  -- -bi'u
  | cvhv {c v q w} : IsConsonantLetter c → IsVowelLetter v → q ∈ c!"'h" → IsVowelLetter w → LastRafsi [c, v, q, w]
  -- -bangu
  | cvccv {c v d e w} : IsConsonantLetter c → IsVowelLetter v → IsConsonantLetter d → IsConsonantLetter e → IsVowelLetter w →
      LastRafsi [c, v, d, e, w]
  -- -bridi
  | ccvcv {c d v e w} : IsInitialPair c d → IsVowelLetter v → IsConsonantLetter e → IsVowelLetter w → LastRafsi [c, d, v, e, w]

/-- A rafsi that ends in two vowels, without the hyphen. -/
inductive VowelRafsi : List Char → Prop
  | cvv {c v w} : IsConsonantLetter c → IsDiphthong v w → VowelRafsi [c, v, w]
  | cvhv {c v q w} : IsConsonantLetter c → IsVowelLetter v → q ∈ c!"'h" → IsVowelLetter w → VowelRafsi [c, v, q, w]

/-- Two or more rafsi. -/
inductive RafsiWord : List Char → Prop
  | two {a f} : RafsiBefore a f → LastRafsi f → RafsiWord (a ++ f)
  -- no hyphen is needed before a short last rafsi
  | bare {a f} : VowelRafsi a → ShortRafsi f → RafsiWord (a ++ f)
  | more {a w} : RafsiBefore a w → RafsiWord w → RafsiWord (a ++ w)

/-- A lujvo: rafsi, with only permissible consonants next to each other. -/
def LujvoForm (w : List Char) : Prop :=
  RafsiWord w ∧
  (∀ p c d r, w = p ++ c :: d :: r → IsConsonantLetter c → IsConsonantLetter d → PermissiblePair (lower c) (lower d)) ∧
  (∀ p c d e r, w = p ++ c :: d :: e :: r → IsConsonantLetter c → IsConsonantLetter d → IsConsonantLetter e →
    [lower c, lower d, lower e] ∉ forbiddenTriples)

end Sneturfahi.Spec

import Verif.Spec.Tree

/-!
# Quoting words

Specification side: how the words that quote divide a token sequence.
-/

namespace Sneturfahi.Spec

open Sneturfahi

/-- Usable words and quotes: `zo` with one token, `zoi` with three, `lo'u` with all up to a `le'u`. -/
inductive WordsAndQuotes : List Token → Prop
  | nil : WordsAndQuotes []
  | word {t : Token} {l : List Token} : ¬ Unused t.selmaho → t.selmaho ∉ [Selmaho.Zo, .Zoi, .Lohu] → WordsAndQuotes l →
      WordsAndQuotes (t :: l)
  | zo {z x : Token} {l : List Token} : z.selmaho = .Zo → WordsAndQuotes l → WordsAndQuotes (z :: x :: l)
  | zoi {z a b c : Token} {l : List Token} : z.selmaho = .Zoi → WordsAndQuotes l → WordsAndQuotes (z :: a :: b :: c :: l)
  | lohu {o c : Token} {q l : List Token} : o.selmaho = .Lohu → c.selmaho = .Lehu → WordsAndQuotes l →
      WordsAndQuotes (o :: (q ++ c :: l))

/-- The words that make no letter with `bu` after them. -/
def NoLetter (s : Selmaho) : Prop := s ∈ [Selmaho.Bu, .Zei, .Si, .Su, .Sa, .Faho]

instance (s : Selmaho) : Decidable (NoLetter s) := inferInstanceAs (Decidable (_ ∈ _))

end Sneturfahi.Spec

import Verif.Model.Prim
import Verif.Model.Span

/-!
# Vocabulary of the property statements

Nothing here is used by the model; the definitions say in elementary terms what the English
statements mean by separator, letter, slice, shift, "runs to the end".
-/

namespace Sneturfahi.Spec

/-- The separator characters: full stop, tab, line feed, carriage return, `?`, `!`, space. -/
def IsSeparator (c : Char) : Prop :=
  c = '.' ∨ c = '\t' ∨ c = '\n' ∨ c = '\r' ∨ c = '?' ∨ c = '!' ∨ c = ' '

instance (c : Char) : Decidable (IsSeparator c) := by unfold IsSeparator; infer_instance

/-- The text has no separator in it. -/
def NoSeparator (cs : List Char) : Prop := ∀ c ∈ cs, ¬ IsSeparator c

instance (cs : List Char) : Decidable (NoSeparator cs) := by unfold NoSeparator; infer_instance

/-- `SplitsInto cs ws`: `ws` are the pieces of `cs` between its separators, empty ones included. -/
inductive SplitsInto : List Char → List (List Char) → Prop
  | last {w : List Char} : NoSeparator w → SplitsInto w [w]
  | cons {w : List Char} {s : Char} {rest : List Char} {ws : List (List Char)} :
      NoSeparator w → IsSeparator s → SplitsInto rest ws → SplitsInto (w ++ s :: rest) (w :: ws)

/-- Lojban consonant letters, both cases. -/
def IsConsonantLetter (c : Char) : Prop := c ∈ c!"bcdfgjklmnprstvxzBCDFGJKLMNPRSTVXZ"

instance (c : Char) : Decidable (IsConsonantLetter c) := by unfold IsConsonantLetter; infer_instance

/-- The last character that is not a comma is `c`. -/
def LastLetter (cs : List Char) (c : Char) : Prop :=
  ∃ front commas : List Char, cs = front ++ c :: commas ∧ c ≠ ',' ∧ ∀ x ∈ commas, x = ','

/-- The spans slice to these texts out of `input`. -/
def TextsOf (input : Str) (spans : List Span) (texts : List (List Char)) : Prop :=
  spans.map (fun s => (s.slice input).map Str.chars) = texts.map some

/-- A span moved `n` bytes to the right. -/
def shift (n : Nat) (s : Span) : Span := ⟨s.start + n, s.stop + n⟩

/-- Calling an iterator's `next` from state `s` on yields the items `as`, then `None`, which leaves
it in state `s'`; no call panics or hangs. -/
inductive Yields {S α : Type} (next : S → Exec (Option α × S)) : S → List α → S → Prop
  | done {s s' : S} : next s = .val (none, s') → Yields next s [] s'
  | more {s s1 s' : S} {a : α} {as : List α} :
      next s = .val (some a, s1) → Yields next s1 as s' → Yields next s (a :: as) s'

/-- From state `s` on every call answers `None`, for ever. -/
def Fused {S α : Type} (next : S → Exec (Option α × S)) (s : S) : Prop :=
  ∃ P : S → Prop, P s ∧ ∀ x, P x → ∃ x', next x = .val (none, x') ∧ P x'

end Sneturfahi.Spec

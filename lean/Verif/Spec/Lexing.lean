import Verif.Model.Lex
import Verif.Spec.Text

/-!
# What the tokens of a text are

A declarative account of lexing, used in the statements of C33-C43: it speaks about the text still to
be read, the words `decompose` finds in it and the pieces between separators, not about the states of
the lexer.
-/

namespace Sneturfahi.Spec

/-- The text ends here or goes on with a separator. -/
def EndsPiece (t : List Char) : Prop := t = [] ∨ ∃ s r, IsSeparator s ∧ t = s :: r

/-- Only commas. -/
def OnlyCommas (t : List Char) : Prop := ∀ x ∈ t, x = ','

instance (t : List Char) : Decidable (OnlyCommas t) := by unfold OnlyCommas; infer_instance

/-- Equal up to commas. -/
def SameUpToCommas (a b : List Char) : Prop := a.filter (fun c => c != ',') = b.filter (fun c => c != ',')

instance (a b : List Char) : Decidable (SameUpToCommas a b) := by unfold SameUpToCommas; infer_instance

/-- The first word `decompose` finds in `text` is `word`; `gap` comes before it, `after` after it. -/
def FirstWord (text gap word after : List Char) : Prop :=
  text = gap ++ word ++ after ∧
    ∃ more, decomposeAll .release ⟨0, text⟩ = .val (⟨byteLen gap, byteLen gap + byteLen word⟩ :: more)

/-- `decompose` finds no word in `text`. -/
def NoWord (text : List Char) : Prop := decomposeAll .release ⟨0, text⟩ = .val []

/-- Right after a word the rest of the text is `text`.  Undecomposed reading resumes with the pieces of
`body`: behind the next separator if only commas come before it, and at once otherwise. -/
inductive Resumes : (text gap body : List Char) → Prop
  | behind {k u : List Char} {s : Char} : OnlyCommas k → IsSeparator s → Resumes (k ++ s :: u) (k ++ [s]) u
  | here {p tail : List Char} : NoSeparator p → ¬ OnlyCommas p → EndsPiece tail → Resumes (p ++ tail) [] (p ++ tail)

/-- `piece` is the first piece of `body`, `after` what follows it. -/
def FirstPiece (body piece after : List Char) : Prop := body = piece ++ after ∧ NoSeparator piece ∧ EndsPiece after

/-- In `body` a quote with starting delimiter `delim` is closed by the piece `close`, the first one equal
to `delim` up to commas.  `quoted` is the text before it, without the separator in between; it is absent
if `close` is the first piece. -/
inductive Closes (delim : List Char) : (body : List Char) → (quoted : Option (List Char)) → (close after : List Char) → Prop
  | first {close after : List Char} : FirstPiece (close ++ after) close after → SameUpToCommas delim close →
      Closes delim (close ++ after) none close after
  | later {quoted close after : List Char} {s : Char} {qs : List (List Char)} : SplitsInto quoted qs →
      (∀ q ∈ qs, ¬ SameUpToCommas delim q) → IsSeparator s → FirstPiece (close ++ after) close after →
      SameUpToCommas delim close → Closes delim (quoted ++ s :: (close ++ after)) (some quoted) close after

/-- No piece of `body` closes a quote with starting delimiter `delim`. -/
def NeverCloses (delim body : List Char) : Prop := ∀ qs, SplitsInto body qs → ∀ q ∈ qs, ¬ SameUpToCommas delim q

/-- The span of `word` at byte `pos`. -/
def spanAt (pos : Nat) (word : List Char) : Span := ⟨pos, pos + byteLen word⟩

/-- The tokens of quoted text, at byte `pos`: none, or one of selmaho `AnyText`. -/
def quotedTokens (pos : Nat) : Option (List Char) → List LexItem
  | none => []
  | some q => [.ok ⟨false, .AnyText, spanAt pos q⟩]

/-- The bytes taken by quoted text and the separator after it. -/
def quotedLen : Option (List Char) → Nat
  | none => 0
  | some q => byteLen q + 1

/-- A delimiter token. -/
def delimiterToken (pos : Nat) (d : List Char) : LexItem := .ok ⟨false, .ZoiDelimiter, spanAt pos d⟩

/-- The part of a text between a delimiter and the quoted text: nothing, or commas and a separator. -/
def DelimiterGap (gap : List Char) : Prop := gap = [] ∨ ∃ k s, OnlyCommas k ∧ IsSeparator s ∧ gap = k ++ [s]

/-- In `text`, which starts at byte `pos`, there is quoted text `T` (span `tsp`) between the starting
delimiter `d` (span `dsp`) and the ending delimiter `close` (span `csp`).  A separator comes right
before `close`, which is a whole piece; `close` is `d` up to commas, and no piece of `T` is. -/
def TextQuote (pos : Nat) (text : List Char) (dsp tsp csp : Span) : Prop :=
  ∃ before d gap T s close after, text = before ++ d ++ gap ++ T ++ s :: (close ++ after) ∧
    dsp = spanAt (pos + byteLen before) d ∧ tsp = spanAt (pos + byteLen (before ++ d ++ gap)) T ∧
    csp = spanAt (pos + byteLen (before ++ d ++ gap ++ T) + 1) close ∧
    d ≠ [] ∧ NoSeparator d ∧ DelimiterGap gap ∧ IsSeparator s ∧ NoSeparator close ∧ EndsPiece after ∧
    SameUpToCommas d close ∧ ∀ qs, SplitsInto T qs → ∀ q ∈ qs, ¬ SameUpToCommas d q

/-- In `text`, which starts at byte `pos`, the starting delimiter `d` (span `dsp`) is followed at once by
the ending delimiter `close` (span `csp`). -/
def EmptyQuote (pos : Nat) (text : List Char) (dsp csp : Span) : Prop :=
  ∃ before d gap close after, text = before ++ d ++ gap ++ close ++ after ∧
    dsp = spanAt (pos + byteLen before) d ∧ csp = spanAt (pos + byteLen (before ++ d ++ gap)) close ∧
    d ≠ [] ∧ NoSeparator d ∧ DelimiterGap gap ∧ NoSeparator close ∧ EndsPiece after ∧ SameUpToCommas d close

/-- The selmaho with a meaning for the lexer. -/
def opensDelimited (s : Selmaho) : Prop := s = .Zoi ∨ s = .Muhoi ∨ s = .Sohehai
@[inherit_doc opensDelimited]
def opensPause (s : Selmaho) : Prop := s = .Mehoi ∨ s = .Zohoi ∨ s = .Dohoi
@[inherit_doc opensDelimited]
def endsText (s : Selmaho) : Prop := s = .Faho ∨ s = .Fahoho

instance (s : Selmaho) : Decidable (opensDelimited s) := by unfold opensDelimited; infer_instance
instance (s : Selmaho) : Decidable (opensPause s) := by unfold opensPause; infer_instance
instance (s : Selmaho) : Decidable (endsText s) := by unfold endsText; infer_instance

/-- `word` is classified as `s` with experimental flag `x`. -/
def Classified (word : List Char) (s : Selmaho) (x : Bool) : Prop := classify ⟨0, word⟩ = .val (s, x)

mutual

/-- `Lexing pos text items`: the items of the text `text`, which starts at byte `pos`. -/
inductive Lexing : Nat → List Char → List LexItem → Prop
  /-- No word is left. -/
  | stop {pos : Nat} {text : List Char} : NoWord text → Lexing pos text []
  /-- An ordinary word. -/
  | word {pos : Nat} {text gap w after : List Char} {s : Selmaho} {x : Bool} {items : List LexItem} :
      FirstWord text gap w after → Classified w s x → ¬ opensDelimited s → ¬ opensPause s → ¬ endsText s →
      Lexing (pos + byteLen gap + byteLen w) after items →
      Lexing pos text (.ok ⟨x, s, spanAt (pos + byteLen gap) w⟩ :: items)
  /-- `fa'o`. -/
  | faho {pos : Nat} {text gap w after : List Char} {s : Selmaho} {x : Bool} :
      FirstWord text gap w after → Classified w s x → endsText s →
      Lexing pos text [.ok ⟨x, s, spanAt (pos + byteLen gap) w⟩]
  /-- A pause-delimited quote with nothing after it. -/
  | pauseEof {pos : Nat} {text gap w after : List Char} {s : Selmaho} {x : Bool} :
      FirstWord text gap w after → Classified w s x → opensPause s → OnlyCommas after →
      Lexing pos text [.ok ⟨x, s, spanAt (pos + byteLen gap) w⟩,
        .error (.pauseDelimitedQuoteEof (spanAt (pos + byteLen gap) w))]
  /-- A pause-delimited quote. -/
  | pause {pos : Nat} {text gap w after g body q after' : List Char} {s : Selmaho} {x : Bool} {items : List LexItem} :
      FirstWord text gap w after → Classified w s x → opensPause s →
      Resumes after g body → FirstPiece body q after' →
      Lexing (pos + byteLen gap + byteLen w + byteLen g + byteLen q) after' items →
      Lexing pos text (.ok ⟨x, s, spanAt (pos + byteLen gap) w⟩ ::
        .ok ⟨false, .AnyText, spanAt (pos + byteLen gap + byteLen w + byteLen g) q⟩ :: items)
  /-- A delimited quote without a starting delimiter. -/
  | missing {pos : Nat} {text gap w after : List Char} {s : Selmaho} {x : Bool} :
      FirstWord text gap w after → Classified w s x → opensDelimited s → NoWord after →
      Lexing pos text [.error (.delimitedQuoteMissingSeparator (spanAt (pos + byteLen gap) w))]
  /-- A delimited quote with a starting delimiter at byte `dpos` and what follows it. -/
  | quote {pos dpos : Nat} {text gap w after g d after' : List Char} {s : Selmaho} {x : Bool} {items : List LexItem} :
      FirstWord text gap w after → Classified w s x → opensDelimited s → FirstWord after g d after' →
      dpos = pos + byteLen gap + byteLen w + byteLen g →
      LexingQuote (spanAt (pos + byteLen gap) w) true (if s = .Sohehai then 2 else 1) dpos d after' items →
      Lexing pos text (.ok ⟨x, s, spanAt (pos + byteLen gap) w⟩ :: items)

/-- `LexingQuote initiator isFirst n dpos d after items`: `items` come from `n` quotes in `after` and the
text behind them; the starting delimiter `d` of the first of them is at byte `dpos`, right before
`after`, and is itself among the items exactly if `isFirst`. -/
inductive LexingQuote : Span → Bool → Nat → Nat → List Char → List Char → List LexItem → Prop
  /-- Nothing follows the delimiter: unclosed. -/
  | eof {ini : Span} {isFirst : Bool} {n dpos : Nat} {d after : List Char} : OnlyCommas after →
      LexingQuote ini isFirst n dpos d after [.error (.delimitedQuoteUnclosed ini (spanAt dpos d))]
  /-- The delimiter never comes again: unclosed. -/
  | unclosed {ini : Span} {isFirst : Bool} {n dpos : Nat} {d after g body : List Char} :
      Resumes after g body → NeverCloses d body →
      LexingQuote ini isFirst n dpos d after [.error (.delimitedQuoteUnclosed ini (spanAt dpos d))]
  /-- The last quote is closed. -/
  | last {ini : Span} {isFirst : Bool} {dpos cpos : Nat} {d after g body close after' : List Char}
      {quoted : Option (List Char)} {items : List LexItem} :
      Resumes after g body → Closes d body quoted close after' →
      cpos = dpos + byteLen d + byteLen g + quotedLen quoted →
      Lexing (cpos + byteLen close) after' items →
      LexingQuote ini isFirst 1 dpos d after
        ((if isFirst then [delimiterToken dpos d] else []) ++
          quotedTokens (dpos + byteLen d + byteLen g) quoted ++ delimiterToken cpos close :: items)
  /-- A quote is closed and its closing delimiter opens the next one. -/
  | more {ini : Span} {isFirst : Bool} {n dpos cpos : Nat} {d after g body close after' : List Char}
      {quoted : Option (List Char)} {items : List LexItem} :
      Resumes after g body → Closes d body quoted close after' →
      cpos = dpos + byteLen d + byteLen g + quotedLen quoted →
      LexingQuote ini false (n + 1) cpos close after' items →
      LexingQuote ini isFirst (n + 2) dpos d after
        ((if isFirst then [delimiterToken dpos d] else []) ++
          quotedTokens (dpos + byteLen d + byteLen g) quoted ++ delimiterToken cpos close :: items)

end

end Sneturfahi.Spec

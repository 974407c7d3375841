import Verif.Model.Classify

/-!
# `src/lex/mod.rs` and `src/lex/token.rs`
-/

namespace Sneturfahi

/-- `Token`, `src/lex/token.rs:15-22`. -/
structure Token where
  experimental : Bool
  selmaho : Selmaho
  span : Span
deriving DecidableEq, Repr

/-- `lex::Error`, `src/lex/mod.rs:19-120`. -/
inductive LexError where
  | delimitedQuoteMissingSeparator (initiatorSpan : Span)
  | delimitedQuoteUnclosed (initiatorSpan startingDelimiterSpan : Span)
  | pauseDelimitedQuoteEof (initiatorSpan : Span)
deriving DecidableEq, Repr

/-- An item of the lexer: `Result<Token, Error>`.  `src/lex/mod.rs:122-125, 292`. -/
abbrev LexItem := Except LexError Token

instance : DecidableEq LexItem := fun a b =>
  match a, b with
  | .ok x, .ok y => if h : x = y then isTrue (by rw [h]) else isFalse (by intro e; injection e; contradiction)
  | .error x, .error y =>
    if h : x = y then isTrue (by rw [h]) else isFalse (by intro e; injection e; contradiction)
  | .ok _, .error _ => isFalse nofun
  | .error _, .ok _ => isFalse nofun

/-- `DelimitedQuoteState`, `src/lex/mod.rs:127-133`.  `how_many : NonZeroU8` is a natural number. -/
structure QuoteState where
  howMany : Nat
  initiatorSpan : Span
  isFirst : Bool
  startingDelimiterSpan : Span
deriving DecidableEq, Repr

/-- `DelimitedQuoteState::next`, `src/lex/mod.rs:136-148`: `None` once `how_many - 1` is zero. -/
def QuoteState.next (q : QuoteState) (endingDelimiterSpan : Span) : Option QuoteState :=
  if q.howMany - 1 = 0 then none
  else some
    { howMany := q.howMany - 1
      initiatorSpan := q.initiatorSpan
      isFirst := false
      startingDelimiterSpan := endingDelimiterSpan }

/-- `State`, `src/lex/mod.rs:151-159`. -/
inductive LexState where
  | normal
  | delimitedQuote (q : QuoteState)
  | twoMoreTokensThen (text stop : Token) (then_ : Option QuoteState)
  | oneMoreTokenThen (stop : Token) (then_ : Option QuoteState)
  | pauseDelimitedQuote (initiatorSpan : Span)
  | done
deriving DecidableEq, Repr

/-- `Lexer`, `src/lex/mod.rs:161-166`. -/
structure Lexer where
  words : Decomposer
  input : Str
  state : LexState
deriving DecidableEq, Repr

/-- `then.map_or(State::Normal, State::DelimitedQuote)`, `src/lex/mod.rs:257`, `:303`. -/
def LexState.afterQuote : Option QuoteState → LexState
  | none => .normal
  | some q => .delimitedQuote q

namespace Lexer

/-- What a step of the lexer yields: the item, if any, and the new state.  `Iterator::next`, `src/lex/mod.rs:294`. -/
abbrev Step := Exec (Option LexItem × Lexer)

/-- `Lexer::next_normal`, `src/lex/mod.rs:170-206`. -/
def nextNormal (p : Profile) (l : Lexer) : Step := do
  match ← l.words.next p with
  | (none, ws) => pure (none, { l with words := ws })
  | (some span, ws) => do
    let l := { l with words := ws }
    let word ← span.sliceUnwrap l.input
    let (selmaho, experimental) ← classify word
    let token : Token := { experimental, selmaho, span }
    if selmaho = .Zoi ∨ selmaho = .Muhoi ∨ selmaho = .Sohehai then do
      let howMany := if selmaho = .Sohehai then 2 else 1
      match ← l.words.next p with
      | (some delim, ws) =>
        pure (some (.ok token),
          { l with
            words := ws
            state := .delimitedQuote
              { howMany, initiatorSpan := span, isFirst := true, startingDelimiterSpan := delim } })
      | (none, ws) =>
        pure (some (.error (.delimitedQuoteMissingSeparator span)), { l with words := ws, state := .done })
    else if selmaho = .Mehoi ∨ selmaho = .Zohoi ∨ selmaho = .Dohoi then
      pure (some (.ok token), { l with state := .pauseDelimitedQuote span })
    else if selmaho = .Faho ∨ selmaho = .Fahoho then
      pure (some (.ok token), { l with state := .done })
    else pure (some (.ok token), l)

/-- The `loop` of `Lexer::next_delimited_quote`, `src/lex/mod.rs:219-272`.  `text` holds
`start_of_quote` and `end_of_quote`, which are always set together.  Every turn takes an item off the
decomposer, which the fuel reflects. -/
def quoteLoop (p : Profile) (q : QuoteState) : Nat → Lexer → Option (Nat × Nat) → Step
  | 0, _, _ => .diverge
  | fuel + 1, l, text => do
    match ← l.words.nextNoDecomposition p with
    | (none, ws) =>
      pure (some (.error (.delimitedQuoteUnclosed q.initiatorSpan q.startingDelimiterSpan)),
        { l with words := ws, state := .done })
    | (some wordSpan, ws) => do
      let l := { l with words := ws }
      let possible ← wordSpan.sliceUnwrap l.input
      let starting ← q.startingDelimiterSpan.sliceUnwrap l.input
      if noCommas starting.chars = noCommas possible.chars then do
        let startToken : Token :=
          { experimental := false, span := q.startingDelimiterSpan, selmaho := .ZoiDelimiter }
        let textToken : Option Token ←
          match text with
          | none => pure none
          | some (a, b) => do
            let sp ← Span.new a b
            pure (some { experimental := false, span := sp, selmaho := .AnyText })
        let endToken : Token := { experimental := false, span := wordSpan, selmaho := .ZoiDelimiter }
        let nextQuote := q.next wordSpan
        if q.isFirst then
          let state := match textToken with
            | none => LexState.oneMoreTokenThen endToken nextQuote
            | some t => LexState.twoMoreTokensThen t endToken nextQuote
          pure (some (.ok startToken), { l with state })
        else
          match textToken with
          | some t => pure (some (.ok t), { l with state := .oneMoreTokenThen endToken nextQuote })
          | none => pure (some (.ok endToken), { l with state := LexState.afterQuote nextQuote })
      else
        quoteLoop p q fuel l
          (match text with
            | none => some (wordSpan.start, wordSpan.stop)
            | some (a, _) => some (a, wordSpan.stop))

/-- `Lexer::next_delimited_quote`, `src/lex/mod.rs:208-273`. -/
def nextDelimitedQuote (p : Profile) (q : QuoteState) (l : Lexer) : Step :=
  quoteLoop p q (l.words.split.length + 3) l none

/-- `Lexer::next_pause_delimited_quote`, `src/lex/mod.rs:275-289`. -/
def nextPauseDelimitedQuote (p : Profile) (initiatorSpan : Span) (l : Lexer) : Step := do
  match ← l.words.nextNoDecomposition p with
  | (none, ws) =>
    pure (some (.error (.pauseDelimitedQuoteEof initiatorSpan)), { l with words := ws, state := .done })
  | (some word, ws) =>
    pure (some (.ok { experimental := false, selmaho := .AnyText, span := word }),
      { l with words := ws, state := .normal })

/-- `<Lexer as Iterator>::next`, `src/lex/mod.rs:294-312`. -/
def next (p : Profile) (l : Lexer) : Step :=
  match l.state with
  | .normal => l.nextNormal p
  | .delimitedQuote q => l.nextDelimitedQuote p q
  | .twoMoreTokensThen text stop then_ =>
    pure (some (.ok text), { l with state := .oneMoreTokenThen stop then_ })
  | .oneMoreTokenThen stop then_ =>
    pure (some (.ok stop), { l with state := LexState.afterQuote then_ })
  | .pauseDelimitedQuote initiatorSpan => l.nextPauseDelimitedQuote p initiatorSpan
  | .done => pure (none, l)

end Lexer

/-- `lex`, `src/lex/mod.rs:433-439`. -/
def lex (input : Str) : Lexer := { words := decompose input, input, state := .normal }

/-- Iterate `next` until it answers `None`.
The consumers of `src/lex/mod.rs:291-312`, for example `examples/main.rs:63`. -/
def collectItems (p : Profile) : Nat → Lexer → Exec (List LexItem)
  | 0, _ => .diverge
  | fuel + 1, l => do
    match ← l.next p with
    | (none, _) => pure []
    | (some it, l') => do
      let its ← collectItems p fuel l'
      pure (it :: its)

/-- The list of all items of `lex(input)`.  `src/lex/mod.rs:433-439` and a loop over its result. -/
def lexAll (p : Profile) (input : Str) : Exec (List LexItem) :=
  collectItems p (2 * input.chars.length + 3) (lex input)

/-- `Iterator::collect::<Result<Vec<_>, _>>` on the items already produced: the first error wins.
From `core`; used in `examples/main.rs:63`. -/
def collectResult : List LexItem → Except LexError (List Token)
  | [] => .ok []
  | .error e :: _ => .error e
  | .ok t :: its =>
    match collectResult its with
    | .ok ts => .ok (t :: ts)
    | .error e => .error e

end Sneturfahi

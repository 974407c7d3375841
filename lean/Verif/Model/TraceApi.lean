import Verif.Model.Trace
import Verif.Model.Lex

/-!
# Decomposing, classifying and lexing with tracing

The functions of `Verif.Model.Decompose`, `Classify` and `Lex` that call rules, once more, with the rules that trace
(`Verif.Model.Trace`).
-/

namespace Sneturfahi

/-- `post_word`, `src/decompose/mod.rs:56-62`. -/
def postWordT (input : Str) : Traced Bool := do
  if (← runRuleT .nucleus input).isSome then pure false
  else if (← runRuleT .gismu input).isSome then pure true
  else if (← runRuleT .fuhivla input).isSome then pure true
  else if (← runRuleT .lujvo_minimal input).isSome then pure true
  else pure (← runRuleT .cmavo_minimal input).isSome

/-- The condition of the `while let` of `decompose_single`, `src/decompose/mod.rs:77-79`. -/
def fallOffT (rest : Str) : Traced ParseRes := do
  match ← runRuleT .cmavo_minimal rest with
  | some r => pure (some r)
  | none => runRuleT .explicitly_stressed_brivla_minimal rest

/-- The `while let` loop of `decompose_single`, `src/decompose/mod.rs:77-84`, see `fallLoop`. -/
def fallLoopT (p : Profile) (base : Nat) :
    Nat → Str → Option (Str × Str) → List Span → Traced (Str × Option (Str × Str) × List Span)
  | 0, _, _, _ => .diverge
  | fuel + 1, rest, saved, chunks => do
    match ← fallOffT rest with
    | none => pure (rest, saved, chunks)
    | some (fallenOff, newRest) =>
      match saved with
      | some (w, _) => do
        let sp ← .lift (Span.fromEmbeddedSlice p base w)
        fallLoopT p base fuel newRest (some (fallenOff, rest)) (sp :: chunks)
      | none => fallLoopT p base fuel newRest (some (fallenOff, rest)) chunks

/-- `decompose_single`, `src/decompose/mod.rs:64-101`. -/
def decomposeSingleT (p : Profile) (input : Str) : Traced (List Span) := do
  if simpleCmevlaCheck input then do
    let sp ← .lift (Span.fromEmbeddedSlice p input.ptr input)
    pure [sp]
  else do
    let (rest, saved, chunks) ← fallLoopT p input.ptr (input.chars.length + 1) input none []
    match saved with
    | none => .lift (finishSingle p input.ptr rest chunks)
    | some (w, oldRest) =>
      if ← postWordT rest then do
        let sp ← .lift (Span.fromEmbeddedSlice p input.ptr w)
        .lift (finishSingle p input.ptr rest (sp :: chunks))
      else .lift (finishSingle p input.ptr oldRest chunks)

namespace Decomposer

/-- The `loop` of `<Decomposer as Iterator>::next`, `src/decompose/mod.rs:118-140`, see `nextLoop`. -/
def nextLoopT (p : Profile) : Nat → Decomposer → Traced (Option Span × Decomposer)
  | 0, _ => .diverge
  | fuel + 1, d =>
    match d.current with
    | w :: ws => pure (some w, { d with current := ws })
    | [] =>
      match chunksFind d with
      | (none, d') => pure (none, d')
      | (some chunk, d') => do
        let off ← .lift (subPtr chunk.ptr d.input.ptr)
        let offset ← .lift (tryU32 off)
        let words ← decomposeSingleT p chunk
        let shifted ← .lift (shiftAll p offset words)
        nextLoopT p fuel { d' with current := shifted }

/-- `<Decomposer as Iterator>::next`, `src/decompose/mod.rs:118-140`. -/
def nextT (p : Profile) (d : Decomposer) : Traced (Option Span × Decomposer) :=
  nextLoopT p (d.split.length + 3) d

end Decomposer

/-- Iterate `next` until it answers `None`, see `collectWords`.  The consumers of `src/decompose/mod.rs:115-150`. -/
def collectWordsT (p : Profile) : Nat → Decomposer → Traced (List Span)
  | 0, _ => .diverge
  | fuel + 1, d => do
    match ← d.nextT p with
    | (none, _) => pure []
    | (some w, d') => do
      let ws ← collectWordsT p fuel d'
      pure (w :: ws)

/-- The list of words of `decompose(input)`.  `src/decompose/mod.rs:307-310` and a loop over its result. -/
def decomposeAllT (p : Profile) (input : Str) : Traced (List Span) :=
  collectWordsT p (input.chars.length + 1) (decompose input)

/-- `Selmaho::classify_generally`, `src/lex/selmaho/classify.rs:34-46`. -/
def classifyGenerallyT (other : Str) : Traced Selmaho := do
  if succeededAndConsumedAll (← runRuleT .cmevla other) then pure .Cmevla
  else if succeededAndConsumedAll (← runRuleT .cmavo_minimal other) then pure .UnknownCmavo
  else if succeededAndConsumedAll (← runRuleT .gismu other) then pure .Gismu
  else if succeededAndConsumedAll (← runRuleT .fuhivla other) then pure .Fuhivla
  else if succeededAndConsumedAll (← runRuleT .lujvo_minimal other) then pure .Lujvo
  else pure .AnyText

/-- `Selmaho::classify`, `src/lex/selmaho/classify.rs:57-485`. -/
def classifyT (word : Str) : Traced (Selmaho × Bool) := do
  let direct ← .lift (transformForDirectCmavoCheck word.chars (List.replicate 16 0))
  let (selmaho, isExperimental) ←
    match direct with
    | some w =>
      match lookupDirect w with
      | some r => pure r
      | none => do pure (← classifyGenerallyT word, false)
    | none => do pure (← classifyGenerallyT word, false)
  pure (selmaho, selmaho.isFundamentallyExperimental || isExperimental)

namespace Lexer

/-- What a step of the lexer yields.  `Iterator::next`, `src/lex/mod.rs:294`. -/
abbrev StepT := Traced (Option LexItem × Lexer)

/-- `Lexer::next_normal`, `src/lex/mod.rs:170-206`. -/
def nextNormalT (p : Profile) (l : Lexer) : StepT := do
  match ← l.words.nextT p with
  | (none, ws) => pure (none, { l with words := ws })
  | (some span, ws) => do
    let l := { l with words := ws }
    let word ← .lift (span.sliceUnwrap l.input)
    let (selmaho, experimental) ← classifyT word
    let token : Token := { experimental, selmaho, span }
    if selmaho = .Zoi ∨ selmaho = .Muhoi ∨ selmaho = .Sohehai then do
      let howMany := if selmaho = .Sohehai then 2 else 1
      match ← l.words.nextT p with
      | (some delim, ws) =>
        pure (some (.ok token),
          { l with
            words := ws
            state := .delimitedQuote
              { howMany, initiatorSpan := span, isFirst := true, startingDelimiterSpan := delim } })
      | (none, ws) =>
        pure (some (.error (.delimitedQuoteMissingSeparator span)), { l with words := ws, state := .done })
    else if selmaho = .Mehoi ∨ selmaho = .Zohoi ∨ selmaho = .Dohoi then
      pure (some (.ok token), { l with state := .pauseDelimitedQuote span })
    else if selmaho = .Faho ∨ selmaho = .Fahoho then
      pure (some (.ok token), { l with state := .done })
    else pure (some (.ok token), l)

/-- `<Lexer as Iterator>::next`, `src/lex/mod.rs:294-312`: in the other states no rule is called. -/
def nextT (p : Profile) (l : Lexer) : StepT :=
  match l.state with
  | .normal => l.nextNormalT p
  | _ => .lift (l.next p)

end Lexer

/-- Iterate `next` until it answers `None`, see `collectItems`.  The consumers of `src/lex/mod.rs:291-312`. -/
def collectItemsT (p : Profile) : Nat → Lexer → Traced (List LexItem)
  | 0, _ => .diverge
  | fuel + 1, l => do
    match ← l.nextT p with
    | (none, _) => pure []
    | (some it, l') => do
      let its ← collectItemsT p fuel l'
      pure (it :: its)

/-- The list of all items of `lex(input)`.  `src/lex/mod.rs:433-439` and a loop over its result. -/
def lexAllT (p : Profile) (input : Str) : Traced (List LexItem) :=
  collectItemsT p (2 * input.chars.length + 3) (lex input)

end Sneturfahi

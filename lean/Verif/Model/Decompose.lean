import Verif.Model.Rules
import Verif.Model.Span

/-!
# `src/decompose/mod.rs`
-/

namespace Sneturfahi

/-- How many nested rule calls a run on `s` is given before it is declared divergent.  It is proved
(`Verif.Proof.PegTotal`) that this is never reached, so the number has no influence on any result.
No counterpart in `/repo`: the recursion of the rules (`src/rules.rs`) has no bound but the stack. -/
def ruleFuel (s : Str) : Nat := 128 * (s.chars.length + 1)

/-- Call the rule function `rule` of `src/rules.rs` on `s`. -/
def runRule (rule : Rule) (s : Str) : Exec ParseRes := evalRule grammar (ruleFuel s) rule s

/-- `split_or_trim_condition`, `src/decompose/mod.rs:35-37`. -/
def isSep (c : Char) : Bool := c!".\t\n\r?! ".contains c

/-- `char::to_ascii_lowercase`.  Used in `src/decompose/mod.rs:41`. -/
def asciiLower (c : Char) : Char :=
  if 'A' ≤ c ∧ c ≤ 'Z' then Char.ofNat (c.toNat + 32) else c

/-- `is_consonant`, `src/decompose/mod.rs:40-42`. -/
def isConsonant (c : Char) : Bool := c!"bcdfgjklmnprstvxz".contains (asciiLower c)

/-- `simple_cmevla_check`, `src/decompose/mod.rs:47-53`. -/
def simpleCmevlaCheck (input : Str) : Bool :=
  match input.chars.reverse.find? (fun c => c != ',') with
  | some c => isConsonant c
  | none => false

/-- `post_word`, `src/decompose/mod.rs:56-62`, with the short-circuiting of `&&` and `||`. -/
def postWord (input : Str) : Exec Bool := do
  if (← runRule .nucleus input).isSome then pure false
  else if (← runRule .gismu input).isSome then pure true
  else if (← runRule .fuhivla input).isSome then pure true
  else if (← runRule .lujvo_minimal input).isSome then pure true
  else pure (← runRule .cmavo_minimal input).isSome

/-- One evaluation of the condition of the `while let` of `decompose_single`,
`src/decompose/mod.rs:77-79`. -/
def fallOff (rest : Str) : Exec ParseRes := do
  match ← runRule .cmavo_minimal rest with
  | some r => pure (some r)
  | none => runRule .explicitly_stressed_brivla_minimal rest

/-- The `while let` loop of `decompose_single`, `src/decompose/mod.rs:77-84`.  `saved` is
`saved_decomposed`, `chunks` the words pushed so far in reverse order.  The fuel only serves to make
a word that falls off without consuming anything (an endless loop) visible as `diverge`. -/
def fallLoop (p : Profile) (base : Nat) :
    Nat → Str → Option (Str × Str) → List Span → Exec (Str × Option (Str × Str) × List Span)
  | 0, _, _, _ => .diverge
  | fuel + 1, rest, saved, chunks => do
    match ← fallOff rest with
    | none => pure (rest, saved, chunks)
    | some (fallenOff, newRest) =>
      match saved with
      | some (w, _) => do
        let sp ← Span.fromEmbeddedSlice p base w
        fallLoop p base fuel newRest (some (fallenOff, rest)) (sp :: chunks)
      | none => fallLoop p base fuel newRest (some (fallenOff, rest)) chunks

/-- `str::trim_end_matches(',')`.  Used in `src/decompose/mod.rs:95`. -/
def trimEndCommas (s : Str) : Str :=
  ⟨s.ptr, (s.chars.reverse.dropWhile (fun c => c == ',')).reverse⟩

/-- The last part of `decompose_single`, `src/decompose/mod.rs:95-98`. -/
def finishSingle (p : Profile) (base : Nat) (rest : Str) (chunks : List Span) : Exec (List Span) := do
  let rest := trimEndCommas rest
  if rest.isEmpty then pure chunks.reverse
  else do
    let sp ← Span.fromEmbeddedSlice p base rest
    pure (sp :: chunks).reverse

/-- `decompose_single`, `src/decompose/mod.rs:64-101`. -/
def decomposeSingle (p : Profile) (input : Str) : Exec (List Span) := do
  if simpleCmevlaCheck input then do
    let sp ← Span.fromEmbeddedSlice p input.ptr input
    pure [sp]
  else do
    let (rest, saved, chunks) ← fallLoop p input.ptr (input.chars.length + 1) input none []
    match saved with
    | none => finishSingle p input.ptr rest chunks
    | some (w, oldRest) =>
      if ← postWord rest then do
        let sp ← Span.fromEmbeddedSlice p input.ptr w
        finishSingle p input.ptr rest (sp :: chunks)
      else finishSingle p input.ptr oldRest chunks

/-- All the items of `input.split(split_or_trim_condition)`, in order; `ptr` is the address of the
first character of the list.  `src/decompose/mod.rs:155-156`. -/
def pieces (ptr : Nat) : List Char → List Str
  | [] => [⟨ptr, []⟩]
  | c :: cs =>
    if isSep c then ⟨ptr, []⟩ :: pieces (ptr + c.utf8Size) cs
    else
      match pieces (ptr + c.utf8Size) cs with
      | s :: ss => ⟨ptr, c :: s.chars⟩ :: ss
      | [] => [⟨ptr, [c]⟩]

/-- `Decomposer`, `src/decompose/mod.rs:109-113`.  `peeked` and `split` are the two fields of
`Peekable<Split>`: an element already taken out of the splitter, and the splitter itself, represented
by the list of the items it is still going to produce (the library computes them lazily). -/
structure Decomposer where
  peeked : Option (Option Str)
  split : List Str
  current : List Span
  input : Str
deriving DecidableEq, Repr

namespace Decomposer

/-- `Decomposer::new`, `src/decompose/mod.rs:153-161`. -/
def new (input : Str) : Decomposer :=
  { peeked := none, split := pieces input.ptr input.chars, current := [], input := input }

/-- `Peekable::next` on the chunks.
Used by `self.chunks.find`, `src/decompose/mod.rs:126-128`, and in `src/decompose/mod.rs:214-226`. -/
def chunksNext (d : Decomposer) : Option Str × Decomposer :=
  match d.peeked with
  | some v => (v, { d with peeked := none })
  | none =>
    match d.split with
    | [] => (none, d)
    | s :: ss => (some s, { d with split := ss })

/-- `Peekable::peek` on the chunks.  Used in `src/decompose/mod.rs:217`. -/
def chunksPeek (d : Decomposer) : Option Str × Decomposer :=
  match d.peeked with
  | some v => (v, d)
  | none =>
    match d.split with
    | [] => (none, { d with peeked := some none })
    | s :: ss => (some s, { d with peeked := some (some s), split := ss })

/-- The predicate given to `find`, `src/decompose/mod.rs:128`. -/
def wantedChunk (s : Str) : Bool := !s.isEmpty && !s.chars.all (fun c => c == ',')

/-- `Iterator::find` on the splitter.  Used in `src/decompose/mod.rs:126-128`. -/
def findSplit (d : Decomposer) : List Str → Option Str × Decomposer
  | [] => (none, { d with peeked := none, split := [] })
  | s :: ss => if wantedChunk s then (some s, { d with peeked := none, split := ss }) else findSplit d ss

/-- `self.chunks.find(..)`, `src/decompose/mod.rs:126-128`: `Peekable::try_fold` first deals with the
peeked element. -/
def chunksFind (d : Decomposer) : Option Str × Decomposer :=
  match d.peeked with
  | some none => (none, { d with peeked := none })
  | some (some s) => if wantedChunk s then (some s, { d with peeked := none }) else findSplit d d.split
  | none => findSplit d d.split

/-- The `for word in &mut chunk_words` loop, `src/decompose/mod.rs:133-136`. -/
def shiftAll (p : Profile) (offset : Nat) : List Span → Exec (List Span)
  | [] => pure []
  | w :: ws => do
    let a ← addU32 p w.start offset
    let b ← addU32 p w.stop offset
    let r ← shiftAll p offset ws
    pure (⟨a, b⟩ :: r)

/-- The `loop` of `<Decomposer as Iterator>::next`, `src/decompose/mod.rs:118-140`; every turn that
does not return takes at least one chunk off the splitter, which the fuel reflects. -/
def nextLoop (p : Profile) : Nat → Decomposer → Exec (Option Span × Decomposer)
  | 0, _ => .diverge
  | fuel + 1, d =>
    match d.current with
    | w :: ws => pure (some w, { d with current := ws })
    | [] =>
      match chunksFind d with
      | (none, d') => pure (none, d')
      | (some chunk, d') => do
        let off ← subPtr chunk.ptr d.input.ptr
        let offset ← tryU32 off
        let words ← decomposeSingle p chunk
        let shifted ← shiftAll p offset words
        nextLoop p fuel { d' with current := shifted }

/-- `<Decomposer as Iterator>::next`, `src/decompose/mod.rs:118-140`. -/
def next (p : Profile) (d : Decomposer) : Exec (Option Span × Decomposer) :=
  nextLoop p (d.split.length + 3) d

/-- `Decomposer::next_no_decomposition`, `src/decompose/mod.rs:214-226`. -/
def nextNoDecomposition (p : Profile) (d : Decomposer) : Exec (Option Span × Decomposer) :=
  match d.current with
  | w :: _ =>
    match chunksPeek d with
    | (none, d') => do
      let stop ← tryU32 d.input.len
      pure (some ⟨w.start, stop⟩, { d' with current := [] })
    | (some chunk, d') => do
      let sp ← Span.fromEmbeddedSlice p d.input.ptr chunk
      let stop ← subU32 p sp.start 1
      pure (some ⟨w.start, stop⟩, { d' with current := [] })
  | [] =>
    match chunksNext d with
    | (none, d') => pure (none, d')
    | (some chunk, d') => do
      let sp ← Span.fromEmbeddedSlice p d.input.ptr chunk
      pure (some sp, d')

/-- The lower bound of `size_hint`, `src/decompose/mod.rs:142-149`: `Split::size_hint` is the default
`(0, None)`, to which `Peekable` adds one for a peeked item and answers `(0, Some(0))` for a peeked
end.  (`saturating_add` on `usize` cannot saturate: the counts are bounded by the input length.) -/
def sizeHintLower (d : Decomposer) : Nat :=
  d.current.length + (match d.peeked with | some (some _) => 1 | _ => 0)

end Decomposer

/-- `decompose`, `src/decompose/mod.rs:307-310`. -/
def decompose (input : Str) : Decomposer := Decomposer.new input

/-- Iterate `next` until it answers `None`: `decompose(input).collect::<Vec<_>>()` and every `for`
loop over a decomposer.  A fuel of one more than the number of words never runs out (proved).
The consumers of `src/decompose/mod.rs:115-150`, for example `examples/main.rs:176`. -/
def collectWords (p : Profile) : Nat → Decomposer → Exec (List Span)
  | 0, _ => .diverge
  | fuel + 1, d => do
    match ← d.next p with
    | (none, _) => pure []
    | (some w, d') => do
      let ws ← collectWords p fuel d'
      pure (w :: ws)

/-- The list of words of `decompose(input)`.  `src/decompose/mod.rs:307-310` and a loop over its result. -/
def decomposeAll (p : Profile) (input : Str) : Exec (List Span) :=
  collectWords p (input.chars.length + 1) (decompose input)

end Sneturfahi

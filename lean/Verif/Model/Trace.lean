import Verif.Model.Decompose

/-!
# Tracing of rules: `#[debug_rule]`

`src/rules.rs:8-39` and `macros/src/lib.rs:80-102`.  The rule functions once more, now with the thread-local nesting
level and the messages given to `log::trace!`.  (`usize` overflow of the level and the formatting of the messages are
not modelled; whether messages are written anywhere depends on the logger.)
-/

namespace Sneturfahi

/-- A message of `log::trace!`: the width of the indentation, the name of the rule and, on exit, whether it succeeded.
`src/rules.rs:17, 32-36`. -/
inductive TraceMsg where
  /-- `src/rules.rs:17` -/
  | entering (width : Nat) (rule : Rule)
  /-- `src/rules.rs:32-36` -/
  | exiting (width : Nat) (rule : Rule) (succeeded : Bool)
deriving DecidableEq, Repr

/-- The width of the indentation of a message.  `src/rules.rs:17, 33`. -/
def TraceMsg.width : TraceMsg → Nat
  | .entering w _ => w
  | .exiting w _ _ => w

/-- `PARSER_LEVEL`, `src/rules.rs:8-10`, and the messages so far. -/
structure TraceState where
  level : Nat
  log : List TraceMsg
deriving DecidableEq, Repr

/-- Code that may read and change the level and write messages.
Code that uses `PARSER_LEVEL`, `src/rules.rs:8-10`, or `log::trace!`. -/
def Traced (α : Type) : Type := TraceState → Exec (α × TraceState)

namespace Traced

/-- Sequencing: the second part starts in the state the first one leaves.
No counterpart in `/repo`: the semantics of Rust. -/
def bind {α β : Type} (x : Traced α) (f : α → Traced β) : Traced β := fun st =>
  match x st with
  | .val (a, st') => f a st'
  | .panic => .panic
  | .diverge => .diverge

instance : Monad Traced where
  pure a := fun st => .val (a, st)
  bind := Traced.bind

/-- Code that does not trace.  No counterpart in `/repo`: the semantics of Rust. -/
def lift {α : Type} (x : Exec α) : Traced α := fun st => x.map (fun a => (a, st))

/-- Endless recursion.  No counterpart in `/repo`: the semantics of Rust. -/
def diverge {α : Type} : Traced α := fun _ => .diverge

end Traced

/-- A rule function with tracing.  `impl_parse!`, `src/rules.rs:41-45`. -/
abbrev TParser := Str → Traced ParseRes

/-- `not(parser)`, `src/rules.rs:59-67`. -/
def notT (p : TParser) : TParser := fun input => do
  match ← p input with
  | some _ => pure none
  | none => .lift (nullP input)

/-- `peek(parser)`, `src/rules.rs:77-79`. -/
def peekT (p : TParser) : TParser := fun input => do
  match ← p input with
  | some _ => .lift (nullP input)
  | none => pure none

/-- `or![a, b]`, `src/rules.rs:82-87`. -/
def altT (a b : TParser) : TParser := fun input => do
  match ← a input with
  | some r => pure (some r)
  | none => b input

/-- `or![longest=> a, b]`, `src/rules.rs:88-93`. -/
def longestT (a b : TParser) : TParser := fun input => do
  let ra ← a input
  let rb ← b input
  match ra, rb with
  | some (ma, resta), some (mb, restb) =>
    pure (some (if resta.len ≤ restb.len then (ma, resta) else (mb, restb)))
  | some x, none => pure (some x)
  | none, rb => pure rb

/-- `seq![a, b]`, `src/rules.rs:100-117`. -/
def seqT (a b : TParser) : TParser := fun input => do
  match ← a input with
  | none => pure none
  | some (firstMatched, rest) =>
    match ← b rest with
    | none => pure none
    | some (matched, newRest) => .lift (do
      let lo ← subPtr firstMatched.ptr input.ptr
      let hi ← subPtr matched.endPtr input.ptr
      let m ← input.index lo hi
      pure (some (m, newRest)))

/-- The loop of `repeat`, `src/rules.rs:182-187`, see `repLoop`. -/
def repLoopT (p : TParser) : Nat → Str → Option Nat → Nat → Nat → Traced (Str × Option Nat × Nat × Nat)
  | 0, _, _, _, _ => .diverge
  | fuel + 1, rest, first, last, num => do
    match ← p rest with
    | some (chunk, newRest) =>
      repLoopT p fuel newRest (some (first.getD chunk.ptr)) chunk.endPtr (num + 1)
    | none => pure (rest, first, last, num)

/-- `repeat(min, parser)`, `src/rules.rs:176-200`. -/
def repT (min : Nat) (p : TParser) : TParser := fun input => do
  let (rest, first, last, num) ← repLoopT p (input.chars.length + 1) input none input.ptr 0
  if num < min then pure none
  else .lift (do
    let firstOffset ← subPtr (first.getD input.ptr) input.ptr
    let lastOffset ← subPtr last input.ptr
    let m ← input.index firstOffset lastOffset
    pure (some (m, rest)))

/-- `and_peek`, `src/rules.rs:136-138`. -/
def andPeekT (e p : TParser) : TParser := fun input => do
  match ← e input with
  | none => pure none
  | some (m, rest) =>
    match ← p rest with
    | some _ => pure (some (m, rest))
    | none => pure none

/-- `and_not`, `src/rules.rs:140-142`. -/
def andNotT (e p : TParser) : TParser := fun input => do
  match ← e input with
  | none => pure none
  | some (m, rest) =>
    match ← p rest with
    | some _ => pure none
    | none => pure (some (m, rest))

/-- `not!(p(input)); e(input)`, `src/rules.rs:47-53`.  The `return` of the macro leaves only the closure that
`#[debug_rule]` puts around the body (`macros/src/lib.rs:96`). -/
def guardNotT (p e : TParser) : TParser := fun input => do
  match ← p input with
  | some _ => pure none
  | none => e input

/-- Run a rule body, given the meaning of calls.  The meaning of the macros and functions of `src/rules.rs:41-200`. -/
def evalExpT (call : Rule → TParser) : Exp Rule → TParser
  | .null => fun input => .lift (nullP input)
  | .eof => fun input => .lift (eofP input)
  | .oneOf chs => fun input => .lift (oneOfP chs input)
  | .call rule => call rule
  | .not e => notT (evalExpT call e)
  | .peek e => peekT (evalExpT call e)
  | .alt a b => altT (evalExpT call a) (evalExpT call b)
  | .longest a b => longestT (evalExpT call a) (evalExpT call b)
  | .seq a b => seqT (evalExpT call a) (evalExpT call b)
  | .rep min e => repT min (evalExpT call e)
  | .andPeek e p => andPeekT (evalExpT call e) (evalExpT call p)
  | .andNot e p => andNotT (evalExpT call e) (evalExpT call p)
  | .guardNot p e => guardNotT (evalExpT call p) (evalExpT call e)

/-- The rule functions marked `#[debug_rule]` in `src/rules.rs`. -/
def Rule.traced : Rule → Bool
  | .vowel | .diphthong | .nucleus | .cmevla | .cvcy_lujvo | .cmavo_form | .gismu | .fuhivla
  | .explicitly_stressed_gismu_minimal | .explicitly_stressed_fuhivla_minimal
  | .lujvo | .lujvo_minimal | .brivla | .brivla_minimal | .lojban_word | .cmavo => true
  | _ => false

/-- `debug_rule_start!`, `src/rules.rs:12-20`: `replace` answers the old level, which is the one used for the message. -/
def debugRuleStart (name : Rule) : Traced Unit := fun st =>
  .val ((), ⟨st.level + 1, st.log ++ [.entering (st.level * 2) name]⟩)

/-- `debug_rule_end!`, `src/rules.rs:22-39`: `stack.replace(stack.get().checked_sub(1).unwrap()) - 1`; both the `unwrap`
and (in debug builds) the subtraction panic at level zero. -/
def debugRuleEnd (name : Rule) (result : ParseRes) : Traced Unit := fun st =>
  match st.level with
  | 0 => .panic
  | level + 1 => .val ((), ⟨level, st.log ++ [.exiting (level * 2) name result.isSome]⟩)

/-- What `#[debug_rule]` makes of a rule function, `macros/src/lib.rs:80-102`. -/
def debugRule (name : Rule) (body : TParser) : TParser := fun input => do
  debugRuleStart name
  let result ← body input
  debugRuleEnd name result
  pure result

/-- Run `rule` with at most `fuel` nested calls.
The calls of the rule functions of `src/rules.rs:209-898`; the fuel has no counterpart in `/repo`. -/
def evalRuleT : Nat → Rule → TParser
  | 0, _ => fun _ => .diverge
  | fuel + 1, rule =>
    if rule.traced then debugRule rule (evalExpT (evalRuleT fuel) (grammar rule))
    else evalExpT (evalRuleT fuel) (grammar rule)

/-- Call the rule function `rule` of `src/rules.rs` on `s`, with tracing. -/
def runRuleT (rule : Rule) (s : Str) : Traced ParseRes := evalRuleT (ruleFuel s) rule s

end Sneturfahi

import Verif.Model.Decompose
import Verif.Model.CstWork

/-!
# The rules of words, with their calls counted

The rule functions of `src/rules.rs` once more (`Model/Peg.lean`); every computation now also says how many calls of rule functions
it made and how deeply they were nested.  (`not`, `peek`, `repeat`, `one_of` and the other combinators are part of the rule that uses them.)
-/

namespace Sneturfahi

/-- A rule function whose calls are counted.  `impl_parse!`, `src/rules.rs:41-45`. -/
abbrev KParser := Str → Counted ParseRes

/-- `not(parser)`, `src/rules.rs:59-67`. -/
def notK (p : KParser) : KParser := fun input => do
  match ← p input with
  | some _ => pure none
  | none => .lift (nullP input)

/-- `peek(parser)`, `src/rules.rs:77-79`. -/
def peekK (p : KParser) : KParser := fun input => do
  match ← p input with
  | some _ => .lift (nullP input)
  | none => pure none

/-- `or![a, b]`, `src/rules.rs:82-87`. -/
def altK (a b : KParser) : KParser := fun input => do
  match ← a input with
  | some r => pure (some r)
  | none => b input

/-- `or![longest=> a, b]`, `src/rules.rs:88-93`. -/
def longestK (a b : KParser) : KParser := fun input => do
  let ra ← a input
  let rb ← b input
  match ra, rb with
  | some (ma, resta), some (mb, restb) =>
    pure (some (if resta.len ≤ restb.len then (ma, resta) else (mb, restb)))
  | some x, none => pure (some x)
  | none, rb => pure rb

/-- `seq![a, b]`, `src/rules.rs:100-117`. -/
def seqK (a b : KParser) : KParser := fun input => do
  match ← a input with
  | none => pure none
  | some (firstMatched, rest) =>
    match ← b rest with
    | none => pure none
    | some (matched, newRest) => .lift (do
      let lo ← subPtr firstMatched.ptr input.ptr
      let hi ← subPtr matched.endPtr input.ptr
      let m ← input.index lo hi
      pure (some (m, newRest)))

/-- The loop of `repeat`, `src/rules.rs:182-187`, see `repLoop`. -/
def repLoopK (p : KParser) : Nat → Str → Option Nat → Nat → Nat → Counted (Str × Option Nat × Nat × Nat)
  | 0, _, _, _, _ => .diverge
  | fuel + 1, rest, first, last, num => do
    match ← p rest with
    | some (chunk, newRest) =>
      repLoopK p fuel newRest (some (first.getD chunk.ptr)) chunk.endPtr (num + 1)
    | none => pure (rest, first, last, num)

/-- `repeat(min, parser)`, `src/rules.rs:176-200`. -/
def repK (min : Nat) (p : KParser) : KParser := fun input => do
  let (rest, first, last, num) ← repLoopK p (input.chars.length + 1) input none input.ptr 0
  if num < min then pure none
  else .lift (do
    let firstOffset ← subPtr (first.getD input.ptr) input.ptr
    let lastOffset ← subPtr last input.ptr
    let m ← input.index firstOffset lastOffset
    pure (some (m, rest)))

/-- `and_peek`, `src/rules.rs:136-138`. -/
def andPeekK (e p : KParser) : KParser := fun input => do
  match ← e input with
  | none => pure none
  | some (m, rest) =>
    match ← p rest with
    | some _ => pure (some (m, rest))
    | none => pure none

/-- `and_not`, `src/rules.rs:140-142`. -/
def andNotK (e p : KParser) : KParser := fun input => do
  match ← e input with
  | none => pure none
  | some (m, rest) =>
    match ← p rest with
    | some _ => pure none
    | none => pure (some (m, rest))

/-- `not!(p(input)); e(input)`, `src/rules.rs:47-53`. -/
def guardNotK (p e : KParser) : KParser := fun input => do
  match ← p input with
  | some _ => pure none
  | none => e input

/-- Run a rule body, given the meaning of calls.  The meaning of the macros and functions of `src/rules.rs:41-200`. -/
def evalExpK (call : Rule → KParser) : Exp Rule → KParser
  | .null => fun input => .lift (nullP input)
  | .eof => fun input => .lift (eofP input)
  | .oneOf chs => fun input => .lift (oneOfP chs input)
  | .call rule => call rule
  | .not e => notK (evalExpK call e)
  | .peek e => peekK (evalExpK call e)
  | .alt a b => altK (evalExpK call a) (evalExpK call b)
  | .longest a b => longestK (evalExpK call a) (evalExpK call b)
  | .seq a b => seqK (evalExpK call a) (evalExpK call b)
  | .rep min e => repK min (evalExpK call e)
  | .andPeek e p => andPeekK (evalExpK call e) (evalExpK call p)
  | .andNot e p => andNotK (evalExpK call e) (evalExpK call p)
  | .guardNot p e => guardNotK (evalExpK call p) (evalExpK call e)

/-- Run `rule` with at most `fuel` nested calls.
The calls of the rule functions of `src/rules.rs:209-898`; the fuel has no counterpart in `/repo`. -/
def evalRuleK : Nat → Rule → KParser
  | 0, _ => fun _ => .diverge
  | fuel + 1, rule => fun input => .inside (evalExpK (evalRuleK fuel) (grammar rule) input)

/-- Call the rule function `rule` of `src/rules.rs` on `s`, counting. -/
def runRuleK (rule : Rule) (s : Str) : Counted ParseRes := evalRuleK (ruleFuel s) rule s

end Sneturfahi

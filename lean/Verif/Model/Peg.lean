import Verif.Model.Prim

/-!
# The parser combinators of `src/rules.rs`

`Exp` is the syntax of a rule body written with the macros and functions of `src/rules.rs:41-200`;
`evalExp` gives each combinator the operational meaning of its Rust implementation, including the
pointer arithmetic used to rebuild the matched slice and every place where that code could panic or
loop for ever.
-/

namespace Sneturfahi

/-- Rule bodies.  `R` is the type of rule names.  The n-ary macros `or![..]` and `seq![..]`
(`src/rules.rs:81-117`) are written with right-nested binary constructors. -/
inductive Exp (R : Type) where
  /-- `null`, `src/rules.rs:55-57` -/
  | null
  /-- `eof`, `src/rules.rs:149-156` -/
  | eof
  /-- `one_of(chs)`, `src/rules.rs:158-169` -/
  | oneOf (chs : List Char)
  /-- a call of another rule -/
  | call (r : R)
  /-- the function `not(parser)`, `src/rules.rs:59-67` -/
  | not (e : Exp R)
  /-- the function `peek(parser)`, `src/rules.rs:77-79` -/
  | peek (e : Exp R)
  /-- `or![a, b]`, `src/rules.rs:82-87` -/
  | alt (a b : Exp R)
  /-- `or![longest=> a, b]`, `src/rules.rs:88-93` -/
  | longest (a b : Exp R)
  /-- `seq![a, b]`, `src/rules.rs:100-117` -/
  | seq (a b : Exp R)
  /-- `repeat(min, parser)`, `src/rules.rs:176-200` -/
  | rep (min : Nat) (e : Exp R)
  /-- `e(input).and_peek(p)`, `src/rules.rs:136-138` -/
  | andPeek (e p : Exp R)
  /-- `e(input).and_not(p)`, `src/rules.rs:140-142` -/
  | andNot (e p : Exp R)
  /-- the statement macro `not!(p(input));` followed by `e(input)`, `src/rules.rs:47-53` -/
  | guardNot (p e : Exp R)
deriving DecidableEq, Repr

/-- `ParseResult`, `src/rules.rs:127`: `Option<(matched, rest)>`. -/
abbrev ParseRes := Option (Str × Str)

/-- A parsing function `Fn(&str) -> ParseResult`.  `impl_parse!`, `src/rules.rs:41-45`. -/
abbrev Parser := Str → Exec ParseRes

/-- `input.chars().find(|&ch| ch != ',')` together with what remains of the iterator
(`src/rules.rs:161`).  `ptr` is the address of the first character of the list. -/
def findNonComma (ptr : Nat) : List Char → Option (Char × Str)
  | [] => none
  | c :: cs =>
    if c = ',' then findNonComma (ptr + c.utf8Size) cs
    else some (c, ⟨ptr + c.utf8Size, cs⟩)

/-- `null`, `src/rules.rs:55-57`: `Some(input.split_at(0))`. -/
def nullP : Parser := fun input => do
  let r ← input.splitAt 0
  pure (some r)

/-- `eof`, `src/rules.rs:149-156`. -/
def eofP : Parser := fun input =>
  if input.isEmpty then nullP input else pure none

/-- `one_of(chs)`, `src/rules.rs:158-169`. -/
def oneOfP (chs : List Char) : Parser := fun input =>
  match findNonComma input.ptr input.chars with
  | none => pure none
  | some (first, remaining) => do
    let remainingOffset ← subPtr remaining.ptr input.ptr
    if chs.contains first then do
      let r ← input.splitAt remainingOffset
      pure (some r)
    else pure none

/-- `not(parser)`, `src/rules.rs:59-67`. -/
def notP (p : Parser) : Parser := fun input => do
  match ← p input with
  | some _ => pure none
  | none => nullP input

/-- `peek(parser)`, `src/rules.rs:77-79`: `parser(input).and(null(input))`. -/
def peekP (p : Parser) : Parser := fun input => do
  match ← p input with
  | some _ => nullP input
  | none => pure none

/-- `or![a, b]`, `src/rules.rs:82-87`. -/
def altP (a b : Parser) : Parser := fun input => do
  match ← a input with
  | some r => pure (some r)
  | none => b input

/-- `or![longest=> a, b]`, `src/rules.rs:88-93`: both are run; of the successes the one with the
fewest remaining bytes is taken, the first one on a tie (`Iterator::min_by_key`). -/
def longestP (a b : Parser) : Parser := fun input => do
  let ra ← a input
  let rb ← b input
  match ra, rb with
  | some (ma, resta), some (mb, restb) =>
    pure (some (if resta.len ≤ restb.len then (ma, resta) else (mb, restb)))
  | some x, none => pure (some x)
  | none, rb => pure rb

/-- `seq![a, b]`, `src/rules.rs:100-117`: the matched text is re-sliced out of `input`, from the
address where the first match starts to the address where the last one ends. -/
def seqP (a b : Parser) : Parser := fun input => do
  match ← a input with
  | none => pure none
  | some (firstMatched, rest) =>
    match ← b rest with
    | none => pure none
    | some (matched, newRest) => do
      let lo ← subPtr firstMatched.ptr input.ptr
      let hi ← subPtr matched.endPtr input.ptr
      let m ← input.index lo hi
      pure (some (m, newRest))

/-- The `while let` loop of `repeat`, `src/rules.rs:182-187`.  State: remaining input, address of the
first match if any, end address of the last match, number of matches.  A body that succeeds without
consuming would be run on the same input for ever; since every success that consumes removes at least
one character, more iterations than there are characters means exactly that, and the fuel (number of
characters plus one) turns it into `diverge`. -/
def repLoop (p : Parser) : Nat → Str → Option Nat → Nat → Nat → Exec (Str × Option Nat × Nat × Nat)
  | 0, _, _, _, _ => .diverge
  | fuel + 1, rest, first, last, num => do
    match ← p rest with
    | some (chunk, newRest) =>
      repLoop p fuel newRest (some (first.getD chunk.ptr)) chunk.endPtr (num + 1)
    | none => pure (rest, first, last, num)

/-- `repeat(min, parser)`, `src/rules.rs:176-200`. -/
def repP (min : Nat) (p : Parser) : Parser := fun input => do
  let (rest, first, last, num) ← repLoop p (input.chars.length + 1) input none input.ptr 0
  if num < min then pure none
  else do
    let firstOffset ← subPtr (first.getD input.ptr) input.ptr
    let lastOffset ← subPtr last input.ptr
    let m ← input.index firstOffset lastOffset
    pure (some (m, rest))

/-- `self.filter(|(_ret, rest)| peeker(rest).is_some())`, `src/rules.rs:136-138`. -/
def andPeekP (e p : Parser) : Parser := fun input => do
  match ← e input with
  | none => pure none
  | some (m, rest) =>
    match ← p rest with
    | some _ => pure (some (m, rest))
    | none => pure none

/-- `self.filter(|(_ret, rest)| peeker(rest).is_none())`, `src/rules.rs:140-142`. -/
def andNotP (e p : Parser) : Parser := fun input => do
  match ← e input with
  | none => pure none
  | some (m, rest) =>
    match ← p rest with
    | some _ => pure none
    | none => pure (some (m, rest))

/-- `not!(p(input)); e(input)`, `src/rules.rs:47-53`. -/
def guardNotP (p e : Parser) : Parser := fun input => do
  match ← p input with
  | some _ => pure none
  | none => e input

/-- Run a rule body, given the meaning of calls.  The meaning of the macros and functions of `src/rules.rs:41-200`. -/
def evalExp {R : Type} (call : R → Parser) : Exp R → Parser
  | .null => nullP
  | .eof => eofP
  | .oneOf chs => oneOfP chs
  | .call r => call r
  | .not e => notP (evalExp call e)
  | .peek e => peekP (evalExp call e)
  | .alt a b => altP (evalExp call a) (evalExp call b)
  | .longest a b => longestP (evalExp call a) (evalExp call b)
  | .seq a b => seqP (evalExp call a) (evalExp call b)
  | .rep min e => repP min (evalExp call e)
  | .andPeek e p => andPeekP (evalExp call e) (evalExp call p)
  | .andNot e p => andNotP (evalExp call e) (evalExp call p)
  | .guardNot p e => guardNotP (evalExp call p) (evalExp call e)

/-- Run rule `r` of grammar `g` with at most `fuel` nested calls.
The calls of the rule functions of `src/rules.rs:209-898`; the fuel has no counterpart in `/repo`. -/
def evalRule {R : Type} (g : R → Exp R) : Nat → R → Parser
  | 0, _ => fun _ => .diverge
  | fuel + 1, r => evalExp (evalRule g fuel) (g r)

/-- `opt(parser)`, `src/rules.rs:96-98`: `or![parser, null]`. -/
abbrev Exp.opt {R : Type} (e : Exp R) : Exp R := .alt e .null

end Sneturfahi

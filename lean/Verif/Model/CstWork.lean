import Verif.Model.Cst

/-!
# The parser, with the calls of productions counted

The parser of `Model/CstPeg.lean` and `Model/Cst.lean` once more: every computation now also says how many calls of
`Parse::parse` it made and how deeply they were nested.  Counted are the calls for the types of the grammar, not those for
`Option`, tuples, slices, `Separated`, `WithFree` and the like, which are part of the body of the type that contains them.
(Time and stack in the sense of the machine are not modelled; both are at least in proportion to these numbers.)
-/

namespace Sneturfahi

/-- What a computation has used: the number of calls of `Parse::parse` and the greatest number of them that were active at the
same time.  No counterpart in `/repo`: work and stack of the Rust code. -/
structure Used where
  calls : Nat
  depth : Nat
deriving DecidableEq, Repr

/-- One after the other.  No counterpart in `/repo`: the semantics of Rust. -/
def Used.andThen (a b : Used) : Used := ⟨a.calls + b.calls, max a.depth b.depth⟩

/-- One more call around it.  No counterpart in `/repo`: the semantics of Rust. -/
def Used.inside (a : Used) : Used := ⟨a.calls + 1, a.depth + 1⟩

/-- Code whose calls are counted.  No counterpart in `/repo`: the semantics of Rust. -/
def Counted (α : Type) : Type := Exec (α × Used)

namespace Counted

/-- Sequencing.  No counterpart in `/repo`: the semantics of Rust. -/
def bind {α β : Type} (x : Counted α) (f : α → Counted β) : Counted β :=
  match x with
  | .val (a, u) => Exec.map (fun p => (p.1, u.andThen p.2)) (f a)
  | .panic => .panic
  | .diverge => .diverge

instance : Monad Counted where
  pure a := .val (a, ⟨0, 0⟩)
  bind := Counted.bind

/-- A call of `Parse::parse`, given what its body does.  `src/parse/cst/parse_trait.rs:9`. -/
def inside {α : Type} (x : Counted α) : Counted α := Exec.map (fun p => (p.1, p.2.inside)) x

/-- Endless recursion.  No counterpart in `/repo`: the semantics of Rust. -/
def diverge {α : Type} : Counted α := Exec.diverge

/-- A panic.  No counterpart in `/repo`: the semantics of Rust. -/
def panic {α : Type} : Counted α := Exec.panic

/-- Code that calls no production.  No counterpart in `/repo`: the semantics of Rust. -/
def lift {α : Type} (x : Exec α) : Counted α := Exec.map (fun a => (a, ⟨0, 0⟩)) x

end Counted

/-- A parser whose calls are counted.  `src/parse/cst/parse_trait.rs:9`. -/
abbrev WParser := Toks → Counted CRes

/-- Two consecutive elements of `nom::sequence::tuple`; used in `macros/src/derive_parse.rs:294` and
`src/parse/cst/parse_trait.rs:52`. -/
def seqW (a b : WParser) : WParser := fun input => do
  match ← a input with
  | .ok rest vs =>
    match ← b rest with
    | .ok rest' ws => pure (.ok rest' (vs ++ ws))
    | r => pure r
  | r => pure r

/-- `nom::branch::alt`; used in `macros/src/derive_parse.rs:174`. -/
def altW (a b : WParser) : WParser := fun input => do
  match ← a input with
  | .error e =>
    match ← b input with
    | .error e' => pure (.error (e.or e'))
    | r => pure r
  | r => pure r

/-- `nom::combinator::opt`; used in `src/parse/cst/parse_trait.rs:14`. -/
def optW (a : WParser) : WParser := fun input => do
  match ← a input with
  | .ok rest vs => pure (.ok rest [.many vs])
  | .error _ => pure (.ok input [.many []])
  | .failure e => pure (.failure e)

/-- The loop of `nom::multi::many0` and `many1`; used in `src/parse/cst/rules/helpers.rs:12, 21`. -/
def manyLoopW (a : WParser) (k : NomKind) : Nat → Toks → List Val → Counted CRes
  | 0, _, _ => .diverge
  | fuel + 1, input, acc => do
    match ← a input with
    | .error _ => pure (.ok input [.many acc])
    | .failure e => pure (.failure e)
    | .ok rest vs =>
      if rest.list.length = input.list.length then pure (.error (.ofKind input k))
      else manyLoopW a k fuel rest (acc ++ vs)

/-- `nom::multi::many0`; used in `src/parse/cst/rules/helpers.rs:12`. -/
def many0W (a : WParser) : WParser := fun input => manyLoopW a .many0 (input.list.length + 1) input []

/-- `nom::multi::many1`; used in `src/parse/cst/rules/helpers.rs:21`. -/
def many1W (a : WParser) : WParser := fun input => do
  match ← a input with
  | .ok rest vs => manyLoopW a .many1 (rest.list.length + 1) rest vs
  | r => pure r

/-- The loop of `nom::multi::many_till`; used in `src/parse/cst/rules/mod.rs:781`. -/
def tillLoopW (a stop : WParser) : Nat → Toks → List Val → Counted CRes
  | 0, _, _ => .diverge
  | fuel + 1, input, acc => do
    match ← stop input with
    | .ok rest ws => pure (.ok rest (.many acc :: ws))
    | .failure e => pure (.failure e)
    | .error _ =>
      match ← a input with
      | .ok rest vs =>
        if rest.list.length = input.list.length then pure (.error (.ofKind input .manyTill))
        else tillLoopW a stop fuel rest (acc ++ vs)
      | r => pure r

/-- `nom::multi::many_till`; used in `src/parse/cst/rules/mod.rs:781`. -/
def manyTillW (a stop : WParser) : WParser := fun input => tillLoopW a stop (input.list.length + 1) input []

/-- `nom::combinator::not`; used in `macros/src/derive_parse.rs:233, 347`, `src/parse/cst/rules/selmaho.rs:102-103`. -/
def notW (a : WParser) : WParser := fun input => do
  match ← a input with
  | .ok _ _ => pure (.error (.ofKind input .not))
  | .error _ => pure (.ok input [])
  | .failure e => pure (.failure e)

/-- `nom::combinator::cut`; used in `macros/src/derive_parse.rs:336`, `src/parse/cst/rules/mod.rs:781`. -/
def cutW (a : WParser) : WParser := fun input => do
  match ← a input with
  | .error e => pure (.failure e)
  | r => pure r

/-- `wrap_must_consume`, `macros/src/derive_parse.rs:307-320`. -/
def mustConsumeW (n : NodeName) (a : WParser) : WParser := fun input => do
  match ← a input with
  | .ok rest vs =>
    if rest.list.length = input.list.length then pure (.error ⟨input, .empty n⟩) else pure (.ok rest vs)
  | r => pure r

/-- Post-conditions, `macros/src/derive_parse.rs:193-225`. -/
def postCondW (c : PostCond) (a : WParser) : WParser := fun input => do
  match ← a input with
  | .ok rest vs => if c.holds vs then pure (.ok rest vs) else pure (.error ⟨input, .postConditionFailed⟩)
  | r => pure r

/-- `nom::combinator::map` with a constructor; used in `macros/src/derive_parse.rs:294-296`. -/
def wrapW (sh : CShape) (a : WParser) : WParser := fun input => do
  match ← a input with
  | .ok rest vs => pure (.ok rest [sh.build vs])
  | r => pure r

/-- Run generated code, given the meaning of calls.  `macros/src/derive_parse.rs:117-365`. -/
def evalGrW (call : CRule → WParser) : Gr → WParser
  | .eps => fun input => pure (.ok input [])
  | .raw s => fun input => .lift (rawC s input)
  | .any k => fun input => .lift (anyC k input)
  | .call r => call r
  | .seq a b => seqW (evalGrW call a) (evalGrW call b)
  | .alt a b => altW (evalGrW call a) (evalGrW call b)
  | .opt a => optW (evalGrW call a)
  | .many0 a => many0W (evalGrW call a)
  | .many1 a => many1W (evalGrW call a)
  | .manyTill a stop => manyTillW (evalGrW call a) (evalGrW call stop)
  | .not a => notW (evalGrW call a)
  | .cut a => cutW (evalGrW call a)
  | .mustConsume n a => mustConsumeW n (evalGrW call a)
  | .postCond c a => postCondW c (evalGrW call a)
  | .wrap sh a => wrapW sh (evalGrW call a)

/-- Run production `r` with at most `fuel` nested calls.  `src/parse/cst/parse_trait.rs:9`. -/
def evalCstW (g : CRule → Gr) : Nat → CRule → WParser
  | 0, _ => fun _ => .diverge
  | fuel + 1, r => fun input => .inside (evalGrW (evalCstW g fuel) (g r) input)

/-- `nom::combinator::all_consuming`; used in `src/parse/cst/mod.rs:25`. -/
def allConsumingW (a : WParser) : WParser := fun input => do
  match ← a input with
  | .ok rest vs =>
    if rest.list.length = 0 then pure (.ok rest vs) else pure (.error (.ofKind rest .eof))
  | r => pure r

/-- `Cst::parse`, `src/parse/cst/mod.rs:21-35`, with the calls it makes.  As `parseCst`. -/
def parseCstW (p : Profile) (input : Toks) : Counted (Except Located Val) := do
  match ← allConsumingW (evalCstW cst (cstFuel input) .Text) input with
  | .ok rest vs =>
    if p = .debug ∧ rest.list ≠ [] then .panic
    else match vs with
      | [root] => pure (.ok root)
      | _ => .panic
  | .error e => pure (.error e)
  | .failure e => pure (.error e)

end Sneturfahi

import Verif.Model.CstNames
import Verif.Model.Lex

/-!
# The parser combinators behind `#[derive(Parse)]`

`Gr` is the syntax of what `macros/src/derive_parse.rs` generates from a struct or enum; `evalGr` gives each
construct the meaning of the generated code and of the combinators of nom 7.1.1 it calls
(`nom::sequence::tuple`, `nom::branch::alt`, `nom::combinator::{opt, not, cut, map}`,
`nom::multi::{many0, many1, many_till}`), including errors and their locations.  nom is not part of `/repo`: its
combinators are modelled from their published source.
-/

namespace Sneturfahi

/-- A slice of tokens `&[Token]`: its address (in units of one token) and its elements.
The input of `Parse::parse`, `src/parse/cst/parse_trait.rs:9`. -/
structure Toks where
  ptr : Nat
  list : List Token
deriving DecidableEq, Repr

/-- Which `Parse` implementation made a leaf: `Token` and the structs of `token_types!`
(`src/parse/cst/parse_trait.rs:27-38`, `src/parse/cst/rules/selmaho.rs`), or one of the two structs that
keep only the span (`src/parse/cst/rules/mod.rs:877-922`). -/
inductive LeafKind where
  | token | zoiDelimiter | zoiText
deriving DecidableEq, Repr

/-- Values of the types of the tree.  References into the arena (`&'arena T`, `&'arena [T]`) are the values
they refer to.
The types of `src/parse/cst/rules/*.rs`, with `Option`, slices, references and tuples as in `src/parse/cst/parse_trait.rs:12-62`. -/
inductive Val where
  /-- a type that holds one token -/
  | leaf (kind : LeafKind) (token : Token)
  /-- a struct or enum variant with its fields in order -/
  | node (name : NodeName) (fields : List Val)
  /-- a tuple -/
  | tuple (fields : List Val)
  /-- `Option<T>` or a slice -/
  | many (items : List Val)
  /-- `Separated`, `src/parse/cst/rules/helpers.rs:42-47`; the elements of `rest` are pairs -/
  | sep (first : Val) (rest : List Val)
deriving Repr

/-- `nom::error::ErrorKind`, the kinds that occur.
From `nom`; carried by `Error::Nom`, `src/parse/cst/error.rs:26`. -/
inductive NomKind where
  | eof | not | many0 | many1 | manyTill
deriving DecidableEq, Repr

/-- `Error`, `src/parse/cst/error.rs:12-35`.  (`ZoQuoteEof` is never constructed.  The texts carried by
`PostConditionFailed` and `Empty` are replaced by the name of the node type.) -/
inductive CstError where
  | expectedGot (expected : List Selmaho) (got : Option Token)
  | postConditionFailed
  | nom (kind : NomKind)
  | empty (name : NodeName)
deriving DecidableEq, Repr

/-- `WithLocation`, `src/parse/cst/error.rs:50-55`. -/
structure Located where
  location : Toks
  error : CstError
deriving DecidableEq, Repr

/-- `IResult`, `src/parse/cst/parse_trait.rs:6`: success with the rest of the input, `nom::Err::Error` or
`nom::Err::Failure`.  The value of a sequence of fields is the list of the values of the fields. -/
inductive CRes where
  | ok (rest : Toks) (vals : List Val)
  | error (e : Located)
  | failure (e : Located)
deriving Repr

/-- `fn(&[Token]) -> Result`.  `src/parse/cst/parse_trait.rs:6-10`. -/
abbrev CParser := Toks → Exec CRes

/-- What a struct literal, a tuple or a `Separated` makes of the values of its fields.
`macros/src/derive_parse.rs:286-297`, `src/parse/cst/rules/helpers.rs:42-47`, `src/parse/cst/parse_trait.rs:46-62`. -/
inductive CShape where
  | node (name : NodeName)
  | tuple
  | sep
deriving DecidableEq, Repr

/-- Build a value out of fields.  (`Separated` always has two fields, the second one a slice.)
`macros/src/derive_parse.rs:286-297`, `src/parse/cst/rules/helpers.rs:42-47`, `src/parse/cst/parse_trait.rs:46-62`. -/
def CShape.build : CShape → List Val → Val
  | .node n, vs => .node n vs
  | .tuple, vs => .tuple vs
  | .sep, [first, .many rest] => .sep first rest
  | .sep, vs => .tuple vs

/-- The conditions given as `#[parse(postcond(..))]`.
`macros/src/derive_parse.rs:193-225`; the conditions are in `src/parse/cst/rules/mod.rs:514, 548, 741-743`. -/
inductive PostCond where
  /-- `src/parse/cst/rules/mod.rs:514, 548`: one of the fields, each an `Option` or a slice, is not empty -/
  | anyFieldPresent
  /-- `src/parse/cst/rules/mod.rs:741-743` -/
  | selmahoNotIn (l : List Selmaho)
deriving DecidableEq, Repr

/-- Is this field present (`is_some`, `!is_empty`)?
Used in the conditions of `src/parse/cst/rules/mod.rs:514, 548`. -/
def Val.present : Val → Bool
  | .many (_ :: _) => true
  | _ => false

/-- Check a post-condition on the value of the struct.  `macros/src/derive_parse.rs:207-215`. -/
def PostCond.holds : PostCond → List Val → Bool
  | .anyFieldPresent, [.node _ fields] => fields.any Val.present
  | .selmahoNotIn l, [.node _ [.leaf _ t]] => !l.contains t.selmaho
  | _, _ => false

/-- The code `macros/src/derive_parse.rs` generates, and the primitive parsers. -/
inductive Gr where
  /-- a struct or variant without fields, `macros/src/derive_parse.rs:280-285` -/
  | eps
  /-- `selmaho_raw`, `src/parse/cst/rules/selmaho.rs:17-29` -/
  | raw (s : Selmaho)
  /-- `Token::parse` and `Span::parse`, `src/parse/cst/parse_trait.rs:27-44` -/
  | any (kind : LeafKind)
  /-- `<T as Parse>::parse` for a non-generic type -/
  | call (r : CRule)
  /-- consecutive elements of `nom::sequence::tuple` -/
  | seq (a b : Gr)
  /-- `nom::branch::alt`; the n-ary one is nested to the left, `alt((a, b, c)) = alt((alt((a, b)), c))` -/
  | alt (a b : Gr)
  /-- `nom::combinator::opt`, `src/parse/cst/parse_trait.rs:12-16` -/
  | opt (a : Gr)
  /-- `many0`, `src/parse/cst/rules/helpers.rs:8-15` -/
  | many0 (a : Gr)
  /-- `many1`, `src/parse/cst/rules/helpers.rs:17-24` -/
  | many1 (a : Gr)
  /-- `nom::multi::many_till`, used in `src/parse/cst/rules/mod.rs:776-793` -/
  | manyTill (a stop : Gr)
  /-- `nom::combinator::not`, `macros/src/derive_parse.rs:341-360` -/
  | not (a : Gr)
  /-- `nom::combinator::cut`, `macros/src/derive_parse.rs:335-339` -/
  | cut (a : Gr)
  /-- `wrap_must_consume`, `macros/src/derive_parse.rs:307-320` -/
  | mustConsume (name : NodeName) (a : Gr)
  /-- post-conditions, `macros/src/derive_parse.rs:193-225` -/
  | postCond (c : PostCond) (a : Gr)
  /-- `nom::combinator::map` with a constructor, `macros/src/derive_parse.rs:286-297` -/
  | wrap (shape : CShape) (a : Gr)
deriving DecidableEq, Repr

/-- `ParseError::from_error_kind`, `src/parse/cst/error.rs:58-63`. -/
def Located.ofKind (input : Toks) (k : NomKind) : Located := ⟨input, .nom k⟩

/-- `ParseError::or`, `src/parse/cst/error.rs:73-93`: of two errors at different addresses the one further on,
else the lists of expected selmaho are joined if both found the same token. -/
def Located.or (self other : Located) : Located :=
  if self.location.ptr ≠ other.location.ptr then
    if self.location.ptr ≤ other.location.ptr then other else self
  else
    match self.error, other.error with
    | .expectedGot e g, .expectedGot e' g' =>
      if g = g' then ⟨self.location, .expectedGot (e ++ e') g⟩ else other
    | _, _ => other

/-- `selmaho_raw`, `src/parse/cst/rules/selmaho.rs:17-29`.  The location of the error is what the iterator has
left *after* `next`. -/
def rawC (s : Selmaho) : CParser := fun input =>
  match input.list with
  | [] => pure (.error ⟨input, .expectedGot [s] none⟩)
  | t :: ts =>
    if t.selmaho = s then pure (.ok ⟨input.ptr + 1, ts⟩ [.leaf .token t])
    else pure (.error ⟨⟨input.ptr + 1, ts⟩, .expectedGot [s] (some t)⟩)

/-- `Token::parse`, `src/parse/cst/parse_trait.rs:27-38`, and `Span::parse`, 40-44. -/
def anyC (k : LeafKind) : CParser := fun input =>
  match input.list with
  | [] => pure (.error ⟨input, .nom .eof⟩)
  | t :: ts => pure (.ok ⟨input.ptr + 1, ts⟩ [.leaf k t])

/-- Two consecutive elements of `nom::sequence::tuple`.
From `nom`; used in `macros/src/derive_parse.rs:294` and `src/parse/cst/parse_trait.rs:52`. -/
def seqC (a b : CParser) : CParser := fun input => do
  match ← a input with
  | .ok rest vs =>
    match ← b rest with
    | .ok rest' ws => pure (.ok rest' (vs ++ ws))
    | r => pure r
  | r => pure r

/-- `nom::branch::alt` of two parsers.  From `nom`; used in `macros/src/derive_parse.rs:174`. -/
def altC (a b : CParser) : CParser := fun input => do
  match ← a input with
  | .error e =>
    match ← b input with
    | .error e' => pure (.error (e.or e'))
    | r => pure r
  | r => pure r

/-- `nom::combinator::opt`.  From `nom`; used in `src/parse/cst/parse_trait.rs:14`. -/
def optC (a : CParser) : CParser := fun input => do
  match ← a input with
  | .ok rest vs => pure (.ok rest [.many vs])
  | .error _ => pure (.ok input [.many []])
  | .failure e => pure (.failure e)

/-- The loop of `nom::multi::many0` and `many1`: an element that consumes nothing is an error.  The fuel is one
more than the number of tokens, and every round but the last consumes one.
From `nom`; used in `src/parse/cst/rules/helpers.rs:12, 21`. -/
def manyLoop (a : CParser) (k : NomKind) : Nat → Toks → List Val → Exec CRes
  | 0, _, _ => .diverge
  | fuel + 1, input, acc => do
    match ← a input with
    | .error _ => pure (.ok input [.many acc])
    | .failure e => pure (.failure e)
    | .ok rest vs =>
      if rest.list.length = input.list.length then pure (.error (.ofKind input k))
      else manyLoop a k fuel rest (acc ++ vs)

/-- `nom::multi::many0`.  From `nom`; used in `src/parse/cst/rules/helpers.rs:12`. -/
def many0C (a : CParser) : CParser := fun input => manyLoop a .many0 (input.list.length + 1) input []

/-- `nom::multi::many1`: the first element is not checked for progress.
From `nom`; used in `src/parse/cst/rules/helpers.rs:21`. -/
def many1C (a : CParser) : CParser := fun input => do
  match ← a input with
  | .ok rest vs => manyLoop a .many1 (rest.list.length + 1) rest vs
  | r => pure r

/-- The loop of `nom::multi::many_till`.  From `nom`; used in `src/parse/cst/rules/mod.rs:781`. -/
def tillLoop (a stop : CParser) : Nat → Toks → List Val → Exec CRes
  | 0, _, _ => .diverge
  | fuel + 1, input, acc => do
    match ← stop input with
    | .ok rest ws => pure (.ok rest (.many acc :: ws))
    | .failure e => pure (.failure e)
    | .error _ =>
      match ← a input with
      | .ok rest vs =>
        if rest.list.length = input.list.length then pure (.error (.ofKind input .manyTill))
        else tillLoop a stop fuel rest (acc ++ vs)
      | r => pure r

/-- `nom::multi::many_till`.  From `nom`; used in `src/parse/cst/rules/mod.rs:781`. -/
def manyTillC (a stop : CParser) : CParser := fun input => tillLoop a stop (input.list.length + 1) input []

/-- `nom::combinator::not`.
From `nom`; used in `macros/src/derive_parse.rs:233, 347`, `src/parse/cst/rules/selmaho.rs:102-103`. -/
def notC (a : CParser) : CParser := fun input => do
  match ← a input with
  | .ok _ _ => pure (.error (.ofKind input .not))
  | .error _ => pure (.ok input [])
  | .failure e => pure (.failure e)

/-- `nom::combinator::cut`.
From `nom`; used in `macros/src/derive_parse.rs:336`, `src/parse/cst/rules/mod.rs:781`. -/
def cutC (a : CParser) : CParser := fun input => do
  match ← a input with
  | .error e => pure (.failure e)
  | r => pure r

/-- `wrap_must_consume`, `macros/src/derive_parse.rs:307-320`. -/
def mustConsumeC (n : NodeName) (a : CParser) : CParser := fun input => do
  match ← a input with
  | .ok rest vs =>
    if rest.list.length = input.list.length then pure (.error ⟨input, .empty n⟩) else pure (.ok rest vs)
  | r => pure r

/-- Post-conditions, `macros/src/derive_parse.rs:193-225`. -/
def postCondC (c : PostCond) (a : CParser) : CParser := fun input => do
  match ← a input with
  | .ok rest vs => if c.holds vs then pure (.ok rest vs) else pure (.error ⟨input, .postConditionFailed⟩)
  | r => pure r

/-- `nom::combinator::map` with a constructor.  From `nom`; used in `macros/src/derive_parse.rs:294-296`. -/
def wrapC (sh : CShape) (a : CParser) : CParser := fun input => do
  match ← a input with
  | .ok rest vs => pure (.ok rest [sh.build vs])
  | r => pure r

/-- Run generated code, given the meaning of calls.
What the code generated by `macros/src/derive_parse.rs:117-365` does. -/
def evalGr (call : CRule → CParser) : Gr → CParser
  | .eps => fun input => pure (.ok input [])
  | .raw s => rawC s
  | .any k => anyC k
  | .call r => call r
  | .seq a b => seqC (evalGr call a) (evalGr call b)
  | .alt a b => altC (evalGr call a) (evalGr call b)
  | .opt a => optC (evalGr call a)
  | .many0 a => many0C (evalGr call a)
  | .many1 a => many1C (evalGr call a)
  | .manyTill a stop => manyTillC (evalGr call a) (evalGr call stop)
  | .not a => notC (evalGr call a)
  | .cut a => cutC (evalGr call a)
  | .mustConsume n a => mustConsumeC n (evalGr call a)
  | .postCond c a => postCondC c (evalGr call a)
  | .wrap sh a => wrapC sh (evalGr call a)

/-- Run production `r` of grammar `g` with at most `fuel` nested calls.
The calls of `Parse::parse`, `src/parse/cst/parse_trait.rs:9`; the fuel has no counterpart in `/repo`. -/
def evalCst (g : CRule → Gr) : Nat → CRule → CParser
  | 0, _ => fun _ => .diverge
  | fuel + 1, r => evalGr (evalCst g fuel) (g r)

end Sneturfahi

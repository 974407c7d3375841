import Verif.Model.Lex
import Verif.Model.Cst

/-!
# The command line program

`examples/main.rs`: what is done with one text.  What is printed is data here; the
characters printed, and reading the text (`repl`, lines 181-199), are in `Model/Print.lean`.
-/

namespace Sneturfahi

/-- `TreeNode::name`: derived types `macros/src/derive_tree_node.rs:227-248` (the texts are `NodeName.text`),
`Separated` `src/parse/cst/rules/helpers.rs:50-52`, tokens `src/parse/tree_node.rs:30-32` and
`src/parse/cst/rules/selmaho.rs:40-42` (the text is `Selmaho.asRepr`), `src/parse/cst/rules/mod.rs:882-884, 905-907`. -/
inductive Label where
  | node (name : NodeName)
  | separated
  | token (selmaho : Selmaho)
  | zoiDelimiter
  | zoiText
  /-- not a tree node -/
  | other
deriving DecidableEq, Repr

/-- See `Label`.
`macros/src/derive_tree_node.rs:227-248`, `src/parse/cst/rules/helpers.rs:50-52`, `src/parse/tree_node.rs:30-32`. -/
def Val.label : Val → Label
  | .leaf .token t => .token t.selmaho
  | .leaf .zoiDelimiter _ => .zoiDelimiter
  | .leaf .zoiText _ => .zoiText
  | .node n _ => .node n
  | .tuple _ => .other
  | .many _ => .other
  | .sep _ _ => .separated

/-- A line of the printed tree, `examples/main.rs:120-132`: indentation, name, `*`, range and text. -/
structure Line where
  level : Nat
  label : Label
  experimental : Bool
  place : Option (Span × List Char)
deriving DecidableEq, Repr

/-- The `while` of `print_tree_node`, `examples/main.rs:106-118`: go down as long as there is exactly one child. -/
def collapseNode : Nat → Val → Exec Val
  | 0, _ => .diverge
  | fuel + 1, node =>
    match node.children with
    | [child] => collapseNode fuel child
    | _ => pure node

/-- Range and text of a node, `examples/main.rs:126-131`, with both `unwrap`s and the `assert` of `Span::new`. -/
def nodePlace (input : Str) (node : Val) : Exec (Option (Span × List Char)) :=
  match node.startLocation with
  | none => pure none
  | some start =>
    match node.endLocation with
    | none => .panic
    | some stop => do
      let span ← Span.new start stop
      let text ← span.sliceUnwrap input
      pure (some (span, text.chars))

/-- Call `f` for each of several nodes.  `examples/main.rs:134`. -/
def printEach (f : Val → Exec (List Line)) : List Val → Exec (List Line)
  | [] => pure []
  | v :: vs => do
    let a ← f v
    let b ← printEach f vs
    pure (a ++ b)

/-- `inner` of `print_tree_node`, `examples/main.rs:105-135`.  The fuel bounds the depth of the recursion. -/
def printNode (input : Str) (collapse : Bool) : Nat → Val → Nat → Exec (List Line)
  | 0, _, _ => .diverge
  | fuel + 1, node, level => do
    let node ← if collapse then collapseNode (fuel + 1) node else pure node
    let place ← nodePlace input node
    let rest ← printEach (fun child => printNode input collapse fuel child (level + 2)) node.children
    pure (⟨level, node.label, node.experimental, place⟩ :: rest)

mutual
/-- The number of constructors of a value.
A bound for the recursion of `examples/main.rs:105-135`; no counterpart in `/repo`. -/
def Val.size : Val → Nat
  | .leaf _ _ => 1
  | .node _ fs => Val.sizes fs + 1
  | .tuple fs => Val.sizes fs + 1
  | .many vs => Val.sizes vs + 1
  | .sep first rest => first.size + Val.sizes rest + 1
/-- The same for several values.
A bound for the recursion of `examples/main.rs:105-135`; no counterpart in `/repo`. -/
def Val.sizes : List Val → Nat
  | [] => 0
  | v :: vs => v.size + Val.sizes vs
end

/-- `print_tree_node`, `examples/main.rs:104-138`. -/
def printTree (input : Str) (collapse : Bool) (root : Val) : Exec (List Line) :=
  printNode input collapse (root.size + 1) root 0

/-- `lex(input).collect::<Result<Vec<_>, _>>()`, `examples/main.rs:63-71`: iteration stops at the first error. -/
def collectTokens (p : Profile) : Nat → Lexer → Exec (Except LexError (List Token))
  | 0, _ => .diverge
  | fuel + 1, l => do
    match ← l.next p with
    | (none, _) => pure (.ok [])
    | (some (.error e), _) => pure (.error e)
    | (some (.ok t), l') => do
      match ← collectTokens p fuel l' with
      | .ok ts => pure (.ok (t :: ts))
      | .error e => pure (.error e)

/-- The command line switches, `examples/main.rs:27-43`; `--verbose` only sets up logging. -/
structure Args where
  decompose : Bool
  lex : Bool
  cst : Bool
  collapseCst : Bool
deriving DecidableEq, Repr

/-- What is printed, `examples/main.rs:58-100`. -/
inductive Output where
  | decomposed (words : List (List Char × Span))
  | lexingError (error : LexError)
  | lexed (tokens : List (Token × List Char))
  | tree (lines : List Line)
  | notLexable (token : Token) (content : List Char)
  | parseError (error : Located)
deriving DecidableEq, Repr

/-- `WithInput` of a span, `examples/main.rs:140-152`. -/
def showSpan (input : Str) (s : Span) : Exec (List Char × Span) := do
  let t ← s.sliceUnwrap input
  pure (t.chars, s)

/-- `WithInput` of a token, `examples/main.rs:154-164`. -/
def showToken (input : Str) (t : Token) : Exec (Token × List Char) := do
  let s ← t.span.sliceUnwrap input
  pure (t, s.chars)

/-- `DebugWithIterator`, `examples/main.rs:166-179`. -/
def showAll {α β : Type} (f : α → Exec β) : List α → Exec (List β)
  | [] => pure []
  | x :: xs => do
    let y ← f x
    let ys ← showAll f xs
    pure (y :: ys)

/-- Parsing and printing the tree or the error, `examples/main.rs:80-100`.  (`ptr` is the address of the vector of tokens;
the size of the arena is not modelled.) -/
def showCst (p : Profile) (collapse : Bool) (input : Str) (ptr : Nat) (tokens : List Token) : Exec Output := do
  match ← parseCst p ⟨ptr, tokens⟩ with
  | .ok root => do
    let lines ← printTree input collapse root
    pure (.tree lines)
  | .error e =>
    match e.location.list.head?.filter (fun t => t.selmaho == .AnyText) with
    | some t => do
      let s ← t.span.sliceUnwrap input
      pure (.notLexable t s.chars)
    | none => pure (.parseError e)

/-- `if args.decompose`, `examples/main.rs:58-61`. -/
def showWords (p : Profile) (args : Args) (input : Str) : Exec (List Output) :=
  if args.decompose then
    decomposeAll p input >>= fun words => showAll (showSpan input) words >>= fun shown => pure [.decomposed shown]
  else pure []

/-- `if args.lex`, `examples/main.rs:73-78`. -/
def showLexed (args : Args) (input : Str) (tokens : List Token) : Exec (List Output) :=
  if args.lex then showAll (showToken input) tokens >>= fun shown => pure [.lexed shown] else pure []

/-- `if args.cst`, `examples/main.rs:80-100`. -/
def showTree (p : Profile) (args : Args) (input : Str) (ptr : Nat) (tokens : List Token) : Exec (List Output) :=
  if args.cst then showCst p args.collapseCst input ptr tokens >>= fun out => pure [out] else pure []

/-- The closure given to `repl`, `examples/main.rs:57-101`. -/
def mainCallback (p : Profile) (args : Args) (ptr : Nat) (input : Str) : Exec (List Output) := do
  let words ← showWords p args input
  match ← collectTokens p (2 * input.chars.length + 3) (lex input) with
  | .error e => pure (words ++ [.lexingError e])
  | .ok tokens => do
    let lexed ← showLexed args input tokens
    let tree ← showTree p args input ptr tokens
    pure (words ++ lexed ++ tree)

end Sneturfahi

import Verif.Model.CstRules

/-!
# `Cst::parse` and the `TreeNode` trait

`src/parse/cst/mod.rs` and `src/parse/tree_node.rs`.
-/

namespace Sneturfahi

/-- Nested calls allowed on an input: there are at most 27 calls in a row without a token consumed
(`cstWF`), so this never runs out.  No counterpart in `/repo`: the Rust recursion has no bound but the stack. -/
def cstFuel (input : Toks) : Nat := 32 * (input.list.length + 1)

/-- `<T as Parse>::parse(input, arena)` for the type of production `r`.
`src/parse/cst/parse_trait.rs:8-10`, and the calls `assert_parse` generated by `macros/src/derive_parse.rs:331`. -/
def runCst (r : CRule) : CParser := fun input => evalCst cst (cstFuel input) r input

/-- `nom::combinator::all_consuming` around a parser.  From `nom`; used in `src/parse/cst/mod.rs:25`. -/
def allConsumingC (a : CParser) : CParser := fun input => do
  match ← a input with
  | .ok rest vs =>
    if rest.list.length = 0 then pure (.ok rest vs) else pure (.error (.ofKind rest .eof))
  | r => pure r

/-- `Cst::parse`, `src/parse/cst/mod.rs:21-35`.  `nom::Finish::finish` turns both kinds of error into `Err`;
the `debug_assert!` of line 28 is a panic in debug builds.  Bump allocation is not modelled. -/
def parseCst (p : Profile) (input : Toks) : Exec (Except Located Val) := do
  match ← allConsumingC (runCst .Text) input with
  | .ok rest vs =>
    if p = .debug ∧ rest.list ≠ [] then .panic
    else match vs with
      | [root] => pure (.ok root)
      | _ => .panic
  | .error e => pure (.error e)
  | .failure e => pure (.error e)

/-! ### `TreeNode` and `TreeNodeChild` -/

/-- `experimental` of a leaf: `src/parse/tree_node.rs:34-36`, `src/parse/cst/rules/selmaho.rs:44-46`, and
`false` for the two types that keep only a span, `src/parse/cst/rules/mod.rs:886-888, 909-911`. -/
def leafExperimental : LeafKind → Token → Bool
  | .token, t => t.experimental
  | .zoiDelimiter, _ => false
  | .zoiText, _ => false

mutual
/-- `experimental`: derived types `macros/src/derive_tree_node.rs:125-130`, tuples
`src/parse/tree_node.rs:186-189`, options and slices 154-156, `Separated`
`src/parse/cst/rules/helpers.rs:54-60`. -/
def Val.experimental : Val → Bool
  | .leaf k t => leafExperimental k t
  | .node _ fs => Val.anyExperimental fs
  | .tuple fs => Val.anyExperimental fs
  | .many vs => Val.anyExperimental vs
  | .sep first rest => first.experimental || Val.anyExperimental rest
/-- `iter().any(|item| item.experimental())`, or `false || a.experimental() || ..`.
`src/parse/tree_node.rs:154-156, 186-189`, `macros/src/derive_tree_node.rs:125-130`. -/
def Val.anyExperimental : List Val → Bool
  | [] => false
  | v :: vs => v.experimental || Val.anyExperimental vs
end

mutual
/-- `start_location`: derived types `macros/src/derive_tree_node.rs:132-142`, tuples
`src/parse/tree_node.rs:191-199`, options and slices 158-160, `Separated`
`src/parse/cst/rules/helpers.rs:62-69`. -/
def Val.startLocation : Val → Option Nat
  | .leaf _ t => some t.span.start
  | .node _ fs => Val.firstStart fs
  | .tuple fs => Val.firstStart fs
  | .many vs => Val.firstStart vs
  | .sep first rest => match first.startLocation with
    | some l => some l
    | none => Val.firstStart rest
/-- `iter().find_map(|child| child.start_location())`.
`src/parse/tree_node.rs:158-160, 191-199`, `macros/src/derive_tree_node.rs:132-142`. -/
def Val.firstStart : List Val → Option Nat
  | [] => none
  | v :: vs => match v.startLocation with
    | some l => some l
    | none => Val.firstStart vs
end

mutual
/-- `end_location`: derived types `macros/src/derive_tree_node.rs:144-155`, tuples
`src/parse/tree_node.rs:201-205`, options and slices 162-164, `Separated`
`src/parse/cst/rules/helpers.rs:71-78`. -/
def Val.endLocation : Val → Option Nat
  | .leaf _ t => some t.span.stop
  | .node _ fs => Val.lastEnd fs
  | .tuple fs => Val.lastEnd fs
  | .many vs => Val.lastEnd vs
  | .sep first rest => match Val.lastEnd rest with
    | some l => some l
    | none => first.endLocation
/-- `iter().rev().find_map(|child| child.end_location())`.
`src/parse/tree_node.rs:162-164, 201-205`, `macros/src/derive_tree_node.rs:144-155`. -/
def Val.lastEnd : List Val → Option Nat
  | [] => none
  | v :: vs => match Val.lastEnd vs with
    | some l => some l
    | none => v.endLocation
end

mutual
/-- `TreeNodeChild::invoke_with_self`: the tree nodes a field contributes to the children of the node it is
part of.  A node contributes itself (`src/parse/tree_node.rs:101-103`), everything else its parts (148-152,
181-184, `macros/src/derive_tree_node.rs:170-172` for `passthrough_child`). -/
def Val.selves : Val → List Val
  | .leaf k t => [.leaf k t]
  | .node n fs => if n.passthrough then Val.allSelves fs else [.node n fs]
  | .tuple fs => Val.allSelves fs
  | .many vs => Val.allSelves vs
  | .sep first rest => [.sep first rest]
/-- The same for a sequence of fields.
`src/parse/tree_node.rs:148-152, 181-184`, `macros/src/derive_tree_node.rs:157-164`. -/
def Val.allSelves : List Val → List Val
  | [] => []
  | v :: vs => v.selves ++ Val.allSelves vs
end

/-- `TreeNode::for_each_child`: the children passed to the closure, in order
(`macros/src/derive_tree_node.rs:157-164`, `src/parse/cst/rules/helpers.rs:80-86`). -/
def Val.children : Val → List Val
  | .leaf _ _ => []
  | .node _ fs => Val.allSelves fs
  | .tuple fs => Val.allSelves fs
  | .many vs => Val.allSelves vs
  | .sep first rest => first.selves ++ Val.allSelves rest

end Sneturfahi

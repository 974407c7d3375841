import Verif.Spec.Tree
import Verif.Model.Main

/-!
# What the outline of a tree is
-/

namespace Sneturfahi.Spec

open Sneturfahi

mutual
/-- The nodes of a tree in the order in which an outline lists them, each with its indentation: a node, then its
children two columns further in.  In a collapsed outline a node with exactly one child is not listed; its child takes
its place. -/
inductive Outline (collapse : Bool) : Nat → Val → List (Nat × Val) → Prop
  | skip {level : Nat} {v child : Val} {nodes : List (Nat × Val)} : collapse = true → v.children = [child] →
      Outline collapse level child nodes → Outline collapse level v nodes
  | node {level : Nat} {v : Val} {nodes : List (Nat × Val)} : (collapse = true → v.children.length ≠ 1) →
      Outlines collapse (level + 2) v.children nodes → Outline collapse level v ((level, v) :: nodes)
/-- The outlines of several trees, one after another. -/
inductive Outlines (collapse : Bool) : Nat → List Val → List (Nat × Val) → Prop
  | nil {level : Nat} : Outlines collapse level [] []
  | cons {level : Nat} {v : Val} {vs : List Val} {a b : List (Nat × Val)} : Outline collapse level v a →
      Outlines collapse level vs b → Outlines collapse level (v :: vs) (a ++ b)
end

/-- What a line says about a node of the tree of the text `input`: its name, whether it contains experimental words, and,
if it has tokens, the range from the start of the first to the end of the last one and the text there. -/
def Describes (input : Str) (line : Line) (level : Nat) (v : Val) : Prop :=
  line.level = level ∧ line.label = v.label ∧ line.experimental = v.experimental ∧
  (tokens v = [] → line.place = none) ∧
  (∀ first last, (tokens v).head? = some first → (tokens v).getLast? = some last →
    ∃ text, (Span.mk first.span.start last.span.stop).slice input = some text ∧
      line.place = some (⟨first.span.start, last.span.stop⟩, text.chars))

/-- The lines describe the nodes, one each, in order. -/
def DescribeAll (input : Str) : List Line → List (Nat × Val) → Prop
  | [], [] => True
  | line :: lines, (level, v) :: nodes => Describes input line level v ∧ DescribeAll input lines nodes
  | _, _ => False

/-- The tokens among some nodes. -/
def leaves : List (Nat × Val) → List Token
  | [] => []
  | (_, .leaf _ t) :: nodes => t :: leaves nodes
  | _ :: nodes => leaves nodes

/-- The spans `xs`, each shown with the text there. -/
def Shown (input : Str) (xs : List Span) (shown : List (List Char × Span)) : Prop :=
  shown.map Prod.snd = xs ∧ ∀ x ∈ shown, ∃ t, x.2.slice input = some t ∧ x.1 = t.chars

/-- The tokens `xs`, each shown with its text. -/
def ShownTokens (input : Str) (xs : List Token) (shown : List (Token × List Char)) : Prop :=
  shown.map Prod.fst = xs ∧ ∀ x ∈ shown, ∃ t, x.1.span.slice input = some t ∧ x.2 = t.chars

/-- What is to be printed for a text whose tokens are `toks`, when `--cst` is given. -/
def PrintsTree (collapse : Bool) (input : Str) (ptr : Nat) (toks : List Token) (out : List Output) : Prop :=
  (∀ p root, parseCst p ⟨ptr, toks⟩ = .val (.ok root) →
    ∃ lines nodes, out = [.tree lines] ∧ Outline collapse 0 root nodes ∧ DescribeAll input lines nodes) ∧
  (∀ p e, parseCst p ⟨ptr, toks⟩ = .val (.error e) →
    (∀ t rest, e.location.list = t :: rest → t.selmaho = .AnyText →
      ∃ s, t.span.slice input = some s ∧ out = [.notLexable t s.chars]) ∧
    ((∀ t rest, e.location.list = t :: rest → t.selmaho ≠ .AnyText) → out = [.parseError e]))

/-- What is to be printed for a text. -/
def Prints (args : Args) (input : Str) (ptr : Nat) (out : List Output) : Prop :=
  ∃ words lexed tree, out = words ++ lexed ++ tree ∧
    (args.decompose = false → words = []) ∧
    (args.decompose = true → ∃ spans shown, (∀ p, decomposeAll p input = .val spans) ∧
      words = [.decomposed shown] ∧ Shown input spans shown) ∧
    (∀ p pre e, lexAll p input = .val (pre ++ [.error e]) → lexed = [.lexingError e] ∧ tree = []) ∧
    (∀ p toks, lexAll p input = .val (toks.map .ok) →
      (args.lex = false → lexed = []) ∧
      (args.lex = true → ∃ shown, lexed = [.lexed shown] ∧ ShownTokens input toks shown) ∧
      (args.cst = false → tree = []) ∧
      (args.cst = true → PrintsTree args.collapseCst input ptr toks tree))

end Sneturfahi.Spec

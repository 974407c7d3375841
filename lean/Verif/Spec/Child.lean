import Verif.Spec.Tree

/-!
# Direct parts of a tree
-/

namespace Sneturfahi.Spec

open Sneturfahi

/-- What a value directly consists of: the fields of a struct or variant, the elements of a tuple or slice, the content of an
optional field (a slice with at most one element), the items and separators of a separated list. -/
def children : Val → List Val
  | .leaf _ _ => []
  | .node _ fs => fs
  | .tuple fs => fs
  | .many vs => vs
  | .sep first rest => first :: rest

/-- The fields of a struct or variant, from its production: what must not follow is no field. -/
def fieldsOf : Gr → List Gr
  | .seq a b => fieldsOf a ++ fieldsOf b
  | .not _ => []
  | .eps => []
  | .cut a => fieldsOf a
  | .manyTill a b => .many0 a :: fieldsOf b
  | e => [e]

/-- The structs and variants made in a production, each with what it is made of. -/
def nodesIn : Gr → List (NodeName × Gr)
  | .wrap (.node m) a => (m, a) :: nodesIn a
  | .wrap _ a => nodesIn a
  | .seq a b => nodesIn a ++ nodesIn b
  | .alt a b => nodesIn a ++ nodesIn b
  | .opt a => nodesIn a
  | .many0 a => nodesIn a
  | .many1 a => nodesIn a
  | .manyTill a b => nodesIn a ++ nodesIn b
  | .cut a => nodesIn a
  | .mustConsume _ a => nodesIn a
  | .postCond _ a => nodesIn a
  | _ => []

/-- A field that may be empty, other than an optional `nai`. -/
def mayBeEmpty : Gr → Bool
  | .opt a => a != .call (.word .Nai)
  | .many0 _ => true
  | _ => false

end Sneturfahi.Spec

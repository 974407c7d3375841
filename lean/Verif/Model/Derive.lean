import Verif.Model.CstPeg
import Verif.Model.Idents
import Verif.Model.Rust

/-!
# The macro `#[derive(Parse)]`

`macros/src/derive_parse.rs`, as a function from a declaration (`Model/Rust.lean`) to the combinators it
generates (`Gr`).  `none` stands for what does not compile, and for the parts of the macro no declaration in
`src/parse/cst/rules` uses: `longest`, `with` and `must_consume` on a type, and a condition of a form other than
the two of `PostCond`.
-/

namespace Sneturfahi.Derive

open Rust

/-- `ParseAttribute`, `macros/src/derive_parse.rs:467-475`. -/
inductive PAttr where
  | cut
  | with_ (fn : List Char)
  | not (ty : RTy)
  | notAfter (ty : RTy)
  | postCond (cond : List Char)
  | longest
  | nonEmpty
deriving DecidableEq, Repr

/-- `lit.parse()`: the type in a string literal.  In `macros/src/derive_parse.rs:519-648`. -/
def tyOfStr (s : List Char) : Option RTy :=
  match lexParts [[s]] with
  | none => none
  | some ts =>
    match parseTy 99 none ts with
    | some (t, []) => some t
    | _ => none

/-- `parse_meta`, `macros/src/derive_parse.rs:519-648`, for each of the arguments separated by commas, 487-503.
Of the arguments of `postcond` only the condition itself is supported. -/
def parseMetas : Nat → List RTok → Option (List PAttr)
  | 0, _ => none
  | _ + 1, [] => some []
  | fuel + 1, .id k :: ts =>
    if k == c!"with" then
      match ts with
      | .punct '=' :: .str s :: ts => (parseMetas fuel (dropComma ts)).map (.with_ s :: ·)
      | _ => none
    else if k == c!"not" then
      match ts with
      | .punct '=' :: .str s :: ts =>
        match tyOfStr s with
        | none => none
        | some t => (parseMetas fuel (dropComma ts)).map (.not t :: ·)
      | _ => none
    else if k == c!"not_after" then
      match ts with
      | .punct '=' :: .str s :: ts =>
        match tyOfStr s with
        | none => none
        | some t => (parseMetas fuel (dropComma ts)).map (.notAfter t :: ·)
      | _ => none
    else if k == c!"postcond" then
      match ts with
      | .punct '(' :: .str s :: .punct ')' :: ts => (parseMetas fuel (dropComma ts)).map (.postCond s :: ·)
      | .punct '=' :: .str s :: ts => (parseMetas fuel (dropComma ts)).map (.postCond s :: ·)
      | _ => none
    else if k == c!"longest" then (parseMetas fuel (dropComma ts)).map (.longest :: ·)
    else if k == c!"must_consume" then (parseMetas fuel (dropComma ts)).map (.nonEmpty :: ·)
    else none
  | _ + 1, _ => none

/-- `get_parse_attributes`, `macros/src/derive_parse.rs:477-517`. -/
def parseAttributes : List RAttr → Option (List PAttr)
  | [] => some []
  | a :: as =>
    match parseAttributes as with
    | none => none
    | some rest =>
      if a.name == c!"parse" then
        match a.args with
        | .punct '(' :: ts =>
          match takeGroup '(' ')' 0 ts with
          | some (ts, []) => (parseMetas 9 ts).map (· ++ rest)
          | _ => none
        | _ => none
      else if a.name == c!"cut" then
        match a.args with
        | [] => some (.cut :: rest)
        | _ => none
      else some rest

/-- `FieldAttributes`, `macros/src/derive_parse.rs:398-404`.  `not_after` on a field is accepted by the macro, but
the code it makes does not compile (`nom::combinator:not`, 336). -/
structure FieldAttrs where
  cut : Bool := false
  nots : List RTy := []
  with_ : Option (List Char) := none

/-- `FieldAttributes::get`, `macros/src/derive_parse.rs:406-437`. -/
def fieldAttrs : List PAttr → Option FieldAttrs
  | [] => some {}
  | a :: as =>
    match fieldAttrs as with
    | none => none
    | some r =>
      match a with
      | .cut => some { r with cut := true }
      | .not t => some { r with nots := t :: r.nots }
      | .with_ f => if r.with_.isSome then none else some { r with with_ := some f }
      | _ => none

/-- `VariantAttributes::get`, `macros/src/derive_parse.rs:449-465`. -/
def variantAttrs : List PAttr → Option Bool
  | [] => some false
  | .nonEmpty :: as => (variantAttrs as).map fun _ => true
  | _ :: _ => none

/-- `ContainerAttributes`, `macros/src/derive_parse.rs:367-374`. -/
structure ContainerAttrs where
  afterNots : List RTy := []
  postConds : List (List Char) := []

/-- `ContainerAttributes::get`, `macros/src/derive_parse.rs:376-396`. -/
def containerAttrs : List PAttr → Option ContainerAttrs
  | [] => some {}
  | a :: as =>
    match containerAttrs as with
    | none => none
    | some r =>
      match a with
      | .notAfter t => some { r with afterNots := t :: r.afterNots }
      | .postCond c => some { r with postConds := c :: r.postConds }
      | _ => none

/-- `nom::sequence::tuple` of some elements.  `macros/src/derive_parse.rs:294`. -/
def seqs : List Gr → Gr
  | [] => .eps
  | [a] => a
  | a :: b :: l => .seq a (seqs (b :: l))

/-- `nom::branch::alt` of some branches (`Gr.alt`).  `macros/src/derive_parse.rs:173-177`. -/
def alts : Gr → List Gr → Gr
  | a, [] => a
  | a, b :: l => alts (.alt a b) l

/-- All of some options.
No counterpart in `/repo`: an `abort!` (for example `macros/src/derive_parse.rs:137`) for one element is one for all. -/
def allSome {α β : Type} (f : α → Option β) : List α → Option (List β)
  | [] => some []
  | a :: as =>
    match f a with
    | none => none
    | some b =>
      match allSome f as with
      | none => none
      | some bs => some (b :: bs)

/-- The parser `inner` of a field, `macros/src/derive_parse.rs:330-333`: that of its type, or `with` applied to one.
`with` takes one of the two functions of `src/parse/cst/rules/helpers.rs:8-24`, and the type of the elements of the
slice gives their parser. -/
def content (ty : RTy → Option Gr) : (with_ : Option (List Char)) → RTy → Option Gr
  | none, t => ty t
  | some w, .slice t =>
    if w == c!"many0" then (ty t).map .many0
    else if w == c!"many1" then (ty t).map .many1
    else none
  | some _, _ => none

/-- One element of `make_elements`, `macros/src/derive_parse.rs:322-365`: `actual`, after the lookaheads.  (The
tuple of the lookaheads and `actual` is part of the tuple of all the fields here: `nom::combinator::not` has no
value.)  `ty` is the parser of a type. -/
def element (ty : RTy → Option Gr) (f : RField) : Option (List Gr) :=
  match parseAttributes f.attrs with
  | none => none
  | some as =>
    match fieldAttrs as with
    | none => none
    | some r =>
      match content ty r.with_ f.ty, allSome ty r.nots with
      | some inner, some nots => some (nots.map .not ++ [if r.cut then .cut inner else inner])
      | _, _ => none

/-- `make_elements`, `macros/src/derive_parse.rs:322-365`, for all the fields. -/
def elements (ty : RTy → Option Gr) (fs : List RField) : Option (List Gr) :=
  (allSome (element ty) fs).map List.flatten

/-- The node with this name.  The `#constructor` of `macros/src/derive_parse.rs:296`. -/
def nodeOf (text : List Char) : Option NodeName :=
  NodeName.types.find? fun n => n.text Selmaho.ident == text

/-- The type with this identifier.
Name resolution, for the types called in `macros/src/derive_parse.rs:331`; no counterpart in `/repo`. -/
def ruleOf (n : List Char) : Option CRule :=
  CRule.types.find? fun r => r.ident == n

/-- The selmaho with this identifier.
Name resolution, for the condition of `src/parse/cst/rules/mod.rs:741-743`; no counterpart in `/repo`. -/
def selmahoOf (n : List Char) : Option Selmaho :=
  Selmaho.all.find? fun s => s.ident == n

/-- The constructor of a struct or variant.  `Separated` has a form of its own in `Val`.
The `#constructor` of `macros/src/derive_parse.rs:286-297`. -/
def shapeOf (text : List Char) : Option CShape :=
  if text == c!"Separated" then some .sep else (nodeOf text).map .node

/-- `implement_struct`, `macros/src/derive_parse.rs:246-305`.  The error of `must_consume` carries the name of the
variant.  The two structs of one `Span` are leaves in `Val` (`src/parse/cst/rules/mod.rs:877-902`,
`src/parse/cst/parse_trait.rs:40-44`). -/
def implementStruct (ty : RTy → Option Gr) (fs : List RField) (mustConsume : Bool) (constructor : List Char) :
    Option Gr :=
  if fs = [⟨[], [], .name c!"Span" .nil⟩] then
    if constructor == c!"ZoiDelimiter" then some (.any .zoiDelimiter)
    else if constructor == c!"ZoiText" then some (.any .zoiText)
    else none
  else
    match elements ty fs, shapeOf constructor with
    | some es, some shape =>
      if mustConsume then
        match es, nodeOf constructor with
        | _ :: _, some n => some (.mustConsume n (.wrap shape (seqs es)))
        | _, _ => none
      else some (.wrap shape (seqs es))
    | _, _ => none

/-- Conditions of the form `x.a.is_some() || !x.b.is_empty() || ..`, with exactly the fields in their order.
The conditions of `src/parse/cst/rules/mod.rs:514, 548`. -/
def anyField (x : List Char) : List RField → List RTok → Bool
  | [], [] => true
  | f :: fs, .id y :: .punct '.' :: .id a :: .punct '.' :: .id m :: .punct '(' :: .punct ')' :: ts =>
    y == x && a == f.name && m == c!"is_some" &&
      match fs, ts with
      | [], [] => true
      | _ :: _, .punct '|' :: .punct '|' :: ts => anyField x fs ts
      | _, _ => false
  | f :: fs, .punct '!' :: .id y :: .punct '.' :: .id a :: .punct '.' :: .id m :: .punct '(' :: .punct ')' :: ts =>
    y == x && a == f.name && m == c!"is_empty" &&
      match fs, ts with
      | [], [] => true
      | _ :: _, .punct '|' :: .punct '|' :: ts => anyField x fs ts
      | _, _ => false
  | _, _ => false

/-- The names in `Selmaho::a | Selmaho::b | ..)`.  In the condition of `src/parse/cst/rules/mod.rs:741-743`. -/
def selmahoList : List RTok → Option (List Selmaho)
  | .id p :: .punct ':' :: .punct ':' :: .id a :: .punct '|' :: ts =>
    if p == c!"Selmaho" then
      match selmahoOf a, selmahoList ts with
      | some s, some l => some (s :: l)
      | _, _ => none
    else none
  | [.id p, .punct ':', .punct ':', .id a, .punct ')'] =>
    if p == c!"Selmaho" then (selmahoOf a).map ([·]) else none
  | _ => none

/-- A condition given as `postcond`: a function from the value to `bool`.
`macros/src/derive_parse.rs:207-208`; the conditions are in `src/parse/cst/rules/mod.rs:514, 548, 741-743`. -/
def condOf (data : RData) (text : List Char) : Option PostCond :=
  match lexParts [[text]], data with
  | some (.punct '|' :: .id x :: .punct '|' :: ts), .struct fs =>
    if !fs.isEmpty && anyField x fs ts then some .anyFieldPresent else none
  | some (.punct '|' :: .id self :: .punct '(' :: .id x :: .punct ')' :: .punct '|' :: .punct '!' :: .id m ::
      .punct '!' :: .punct '(' :: .id y :: .punct '.' :: .id a :: .punct ',' :: ts), .struct [_] =>
    if self == c!"Self" && m == c!"matches" && y == x && a == c!"selmaho" then (selmahoList ts).map .selmahoNotIn
    else none
  | _, _ => none

/-- The post-conditions, `macros/src/derive_parse.rs:193-225`. -/
def checkAll : List PostCond → Gr → Gr
  | [], e => e
  | c :: cs, e => checkAll cs (.postCond c e)

/-- A variant of an enum, `macros/src/derive_parse.rs:134-149`. -/
def branch (ty : RTy → Option Gr) (name : List Char) (v : RVariant) : Option Gr :=
  match parseAttributes v.attrs with
  | none => none
  | some as =>
    match variantAttrs as with
    | none => none
    | some must => implementStruct ty v.fields must (name ++ c!"::" ++ v.name)

/-- The parser of a struct or enum without its conditions and lookaheads, `macros/src/derive_parse.rs:118-191`. -/
def implementData (ty : RTy → Option Gr) (name : List Char) : RData → Option Gr
  | .alias _ => none
  | .struct fs => implementStruct ty fs false name
  | .enum vs =>
    match allSome (branch ty name) vs with
    | some (b :: bs) => some (alts b bs)
    | _ => none

/-- `implement_parse`, `macros/src/derive_parse.rs:117-244`. -/
def implementParse (ty : RTy → Option Gr) (item : RItem) : Option Gr :=
  match parseAttributes item.attrs with
  | none => none
  | some as =>
    match containerAttrs as with
    | none => none
    | some r =>
      match implementData ty item.name item.data, allSome (condOf item.data) r.postConds, allSome ty r.afterNots with
      | some inner, some conds, some nots => some (seqs (checkAll conds inner :: nots.map .not))
      | _, _, _ => none

/-- What the names in the types stand for: the items of all the files together, and the types of
`token_types!` with `Bu`.  (The files use each other's names; no two items have the same name.)
Name resolution for `src/parse/cst/rules/*.rs`; no counterpart in `/repo`. -/
structure Names where
  items : List RItem
  words : List (List Char)

/-- Chains of arguments.  Generic arguments in `src/parse/cst/rules/*.rs`; no counterpart in `/repo`. -/
def argList : RTy → List RTy
  | .cons t l => t :: argList l
  | _ => []

/-- `<T as Parse>::parse`, as `Gr`: `src/parse/cst/parse_trait.rs:12-62` for `Option`, references, `Token` and
tuples, a call for the types without parameters, and the body of the type with its parameters replaced for the
others.  `env` are the parsers of the type parameters in scope, `self` is the one of `Self`. -/
def tyGr (names : Names) : Nat → (env : List (List Char × Gr)) → (self : Option Gr) → RTy → Option Gr
  | 0, _, _, _ => none
  | fuel + 1, env, self, t =>
    match t with
    | .tuple l =>
      (allSome (tyGr names fuel env self) (argList l)).map fun es => .wrap .tuple (seqs es)
    | .name n args =>
      if n == c!"Self" then self else
      match env.find? (·.1 == n) with
      | some (_, g) => some g
      | none =>
        if n == c!"Option" then
          match args with
          | .cons a .nil => (tyGr names fuel env self a).map .opt
          | _ => none
        else if n == c!"Token" then some (.any .token)
        else if names.words.contains n then (selmahoOf n).map fun s => .call (.word s)
        else
          match names.items.find? (·.name == n) with
          | none => none
          | some item =>
            match item.data with
            | .alias t => tyGr names fuel [] none t
            | _ =>
              match item.params with
              | [] => (ruleOf n).map .call
              | ps =>
                match allSome (tyGr names fuel env self) (argList args) with
                | none => none
                | some gs =>
                  if gs.length = ps.length && derives c!"Parse" item.attrs then
                    implementParse (tyGr names fuel (ps.zip gs) none) item
                  else none
    | _ => none

/-- What `#[derive(Parse)]` makes of the type with this identifier, if it has that attribute and no type
parameters.  `macros/src/derive_parse.rs:34-106`. -/
def derive (names : Names) (n : List Char) : Option Gr :=
  match names.items.find? (·.name == n) with
  | some item =>
    if derives c!"Parse" item.attrs && item.params.isEmpty then
      implementParse (tyGr names 99 [] ((ruleOf n).map .call)) item
    else none
  | none => none

/-- How a type is declared in `token_types!`, `src/parse/cst/rules/selmaho.rs:234-246`; `Bu`, 374-437, is not
among its arguments. -/
def kindOf (list : List (List Char × Option (List Char))) (s : Selmaho) : Option WordKind :=
  if s.ident == c!"Bu" then some .bu else
  match list.find? (·.1 == s.ident) with
  | none => some .absent
  | some (_, none) => some .single
  | some (_, some a) =>
    if a == c!"no_indicators" then some .noIndicators
    else if a == c!"raw" then some .raw
    else none

/-- Is `#[tree_node(passthrough_child)]` among the attributes, `macros/src/derive_tree_node.rs:62-106`? -/
def passthrough (item : RItem) : Bool :=
  item.attrs.any fun a =>
    a.name == c!"tree_node" && a.args == [.punct '(', .id c!"passthrough_child", .punct ')']

/-- The names `#[derive(TreeNode)]` gives the nodes of a type, `macros/src/derive_tree_node.rs:227-248`, and
whether the type passes its children through. -/
def nodesOf (item : RItem) : List (List Char × Bool) :=
  if derives c!"TreeNode" item.attrs then
    match item.data with
    | .struct _ => [(item.name, passthrough item)]
    | .enum vs => vs.map fun v => (item.name ++ c!"::" ++ v.name, passthrough item)
    | .alias _ => []
  else []

end Sneturfahi.Derive

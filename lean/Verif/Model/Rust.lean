import Verif.Model.Prim

/-!
# Enough of Rust to read the declarations of `src/parse/cst/rules/*.rs`

What `rustc` and `syn` do before `macros/src/derive_parse.rs` sees a declaration: splitting the text into tokens,
attributes, `struct`, `enum` and `type` items, and the one `macro_rules!` macro of these files that declares
such items.  Neither `rustc` nor `syn` is part of `/repo`; this is a model of the part of the language the
files use.  Everything outside that part makes a function answer `none`, or is skipped where that is said.
-/

namespace Sneturfahi.Rust

/-- The tokens of Rust.  Punctuation is kept character by character.
Reader for `src/parse/cst/rules/*.rs`; no counterpart in `/repo` (this is `rustc` and `syn`). -/
inductive RTok where
  /-- an identifier, a keyword or a number -/
  | id (name : List Char)
  /-- `'name` -/
  | lifetime (name : List Char)
  /-- a string literal, without the quotes -/
  | str (text : List Char)
  | punct (c : Char)
  /-- a character literal; a byte literal is the identifier `b` and a character literal -/
  | chr (c : Char)
  /-- something the lexer does not support -/
  | bad
deriving DecidableEq, Repr

/-- The characters of identifiers and numbers.
Reader for `src/parse/cst/rules/*.rs`; no counterpart in `/repo` (this is `rustc` and `syn`). -/
def isWordChar (c : Char) : Bool :=
  (97 ≤ c.toNat && c.toNat ≤ 122) || (65 ≤ c.toNat && c.toNat ≤ 90) || (48 ≤ c.toNat && c.toNat ≤ 57) || c.toNat = 95

/-- Where the lexer is.
Reader for `src/parse/cst/rules/*.rs`; no counterpart in `/repo` (this is `rustc` and `syn`). -/
inductive LexMode where
  | start
  /-- inside an identifier; the characters so far, in reverse -/
  | word (acc : List Char)
  /-- inside a lifetime or a character literal -/
  | tick (acc : List Char)
  /-- inside a character literal, after the backslash -/
  | escape
  /-- inside a character literal, before the closing quote -/
  | character (c : Char)
  /-- inside a string -/
  | quote (acc : List Char)
  /-- after one `/` -/
  | slash
  /-- inside a comment that ends with the line -/
  | line
  /-- inside a comment between `/*` and `*/` -/
  | block
  /-- inside such a comment, after `*` -/
  | blockStar

/-- What the first character of a token does.
Reader for `src/parse/cst/rules/*.rs`; no counterpart in `/repo` (this is `rustc` and `syn`). -/
def LexMode.open (c : Char) : LexMode :=
  if c.toNat = 34 then .quote []
  else if c.toNat = 39 then .tick []
  else if c.toNat = 47 then .slash
  else if isWordChar c then .word [c]
  else .start

/-- A punctuation character is a token at once; white space is none.
Reader for `src/parse/cst/rules/*.rs`; no counterpart in `/repo` (this is `rustc` and `syn`). -/
def single (c : Char) : List RTok :=
  if c.toNat = 34 || c.toNat = 39 || c.toNat = 47 || isWordChar c || c.toNat = 32 || c.toNat = 9 || c.toNat = 10 then []
  else [.punct c]

/-- What a character does: the tokens it completes and the mode after it.  Not supported (and answered with the token
`bad`): escapes in strings, escapes other than `\'` and `\\` in character literals.  Nested comments and raw strings do
not occur and are read as something else.
Reader for `src/parse/cst/rules/*.rs`; no counterpart in `/repo` (this is `rustc` and `syn`). -/
def lexStep : LexMode → Char → List RTok × LexMode
  | .start, c => (single c, .open c)
  | .word acc, c => if isWordChar c then ([], .word (c :: acc)) else (.id acc.reverse :: single c, .open c)
  | .tick acc, c =>
    match acc with
    | [] =>
      if isWordChar c then ([], .tick [c])
      else if c.toNat = 92 then ([], .escape)
      else ([], .character c)
    | x :: xs =>
      if isWordChar c then ([], .tick (c :: x :: xs))
      else if c.toNat = 39 && xs.isEmpty then ([.chr x], .start)
      else (.lifetime (x :: xs).reverse :: single c, .open c)
  | .escape, c => if c.toNat = 39 || c.toNat = 92 then ([], .character c) else ([.bad], .start)
  | .character x, c => if c.toNat = 39 then ([.chr x], .start) else ([.bad], .start)
  | .quote acc, c =>
    if c.toNat = 34 then ([.str acc.reverse], .start)
    else if c.toNat = 92 then ([.bad], .start)
    else ([], .quote (c :: acc))
  | .slash, c =>
    if c.toNat = 47 then ([], .line)
    else if c.toNat = 42 then ([], .block)
    else (.punct '/' :: single c, .open c)
  | .line, c => ([], if c.toNat = 10 then .start else .line)
  | .block, c => ([], if c.toNat = 42 then .blockStar else .block)
  | .blockStar, c => ([], if c.toNat = 47 then .start else if c.toNat = 42 then .blockStar else .block)

/-- The tokens of a line (the character that ends it included) and the mode after it.
Reader for `src/parse/cst/rules/*.rs`; no counterpart in `/repo` (this is `rustc` and `syn`). -/
def lexLine : LexMode → List Char → List RTok × LexMode
  | m, [] => lexStep m (Char.ofNat 10)
  | m, c :: cs =>
    match lexStep m c with
    | (a, m) =>
      match lexLine m cs with
      | (b, m) => (a ++ b, m)

/-- The tokens of some lines and the mode after them.
Reader for `src/parse/cst/rules/*.rs`; no counterpart in `/repo` (this is `rustc` and `syn`). -/
def lexLines : LexMode → List (List Char) → List RTok × LexMode
  | m, [] => ([], m)
  | m, l :: ls =>
    match lexLine m l with
    | (a, m) =>
      match lexLines m ls with
      | (b, m) => (a ++ b, m)

/-- The tokens of the parts of a file.
Reader for `src/parse/cst/rules/*.rs`; no counterpart in `/repo` (this is `rustc` and `syn`). -/
def lexAll : LexMode → List (List (List Char)) → List RTok × LexMode
  | m, [] => ([], m)
  | m, p :: ps =>
    match lexLines m p with
    | (a, m) =>
      match lexAll m ps with
      | (b, m) => (a ++ b, m)

/-- The tokens of a file given in parts.
Reader for `src/parse/cst/rules/*.rs`; no counterpart in `/repo` (this is `rustc` and `syn`). -/
def lexParts (file : List (List (List Char))) : Option (List RTok) :=
  match lexAll .start file with
  | (ts, .start) => if ts.contains .bad then none else some ts
  | _ => none

/-- Types.  References and lifetimes are dropped: `&'arena T` is `T` (`src/parse/cst/parse_trait.rs:18-25`).
The arguments of a name and the members of a tuple are chains of `cons` ending in `nil`. -/
inductive RTy where
  | name (n : List Char) (args : RTy)
  | slice (t : RTy)
  | tuple (members : RTy)
  | cons (head tail : RTy)
  | nil
deriving DecidableEq, Repr

/-- Drop a comma.  Reader for `src/parse/cst/rules/*.rs`; no counterpart in `/repo` (this is `rustc` and `syn`). -/
def dropComma : List RTok → List RTok
  | .punct ',' :: ts => ts
  | ts => ts

/-- Read a type, or (`list = some close`) types separated by commas up to `close`.
Reader for `src/parse/cst/rules/*.rs`; no counterpart in `/repo` (this is `rustc` and `syn`). -/
def parseTy : Nat → (list : Option Char) → List RTok → Option (RTy × List RTok)
  | 0, _, _ => none
  | fuel + 1, none, ts =>
    match ts with
    | .punct '&' :: .lifetime _ :: ts => parseTy fuel none ts
    | .punct '&' :: ts => parseTy fuel none ts
    | .punct '[' :: ts =>
      match parseTy fuel none ts with
      | some (t, .punct ']' :: ts) => some (.slice t, ts)
      | _ => none
    | .punct '(' :: ts =>
      match parseTy fuel (some ')') ts with
      | some (l, ts) => some (.tuple l, ts)
      | none => none
    | .id n :: .punct '<' :: ts =>
      match parseTy fuel (some '>') ts with
      | some (l, ts) => some (.name n l, ts)
      | none => none
    | .id n :: ts => some (.name n .nil, ts)
    | _ => none
  | fuel + 1, some close, ts =>
    match ts with
    | .punct c :: rest =>
      if c = close then some (.nil, rest) else
      match parseTy fuel none ts with
      | none => none
      | some (t, ts) =>
        match parseTy fuel (some close) (dropComma ts) with
        | some (l, ts) => some (.cons t l, ts)
        | none => none
    | .lifetime _ :: ts => parseTy fuel (some close) (dropComma ts)
    | ts =>
      match parseTy fuel none ts with
      | none => none
      | some (t, ts) =>
        match parseTy fuel (some close) (dropComma ts) with
        | some (l, ts) => some (.cons t l, ts)
        | none => none

/-- The tokens up to the bracket that closes one opened before them, and the tokens after it.
Reader for `src/parse/cst/rules/*.rs`; no counterpart in `/repo` (this is `rustc` and `syn`). -/
def takeGroup (op cl : Char) : (depth : Nat) → List RTok → Option (List RTok × List RTok)
  | _, [] => none
  | d, t :: ts =>
    if t = .punct op then (takeGroup op cl (d + 1) ts).map fun (a, b) => (t :: a, b)
    else if t = .punct cl then
      match d with
      | 0 => some ([], ts)
      | d + 1 => (takeGroup op cl d ts).map fun (a, b) => (t :: a, b)
    else (takeGroup op cl d ts).map fun (a, b) => (t :: a, b)

/-- The tokens after the bracket that closes one opened before them.
Reader for `src/parse/cst/rules/*.rs`; no counterpart in `/repo` (this is `rustc` and `syn`). -/
def skipGroup (op cl : Char) : (depth : Nat) → List RTok → List RTok
  | _, [] => []
  | d, t :: ts =>
    if t = .punct op then skipGroup op cl (d + 1) ts
    else if t = .punct cl then
      match d with
      | 0 => ts
      | d + 1 => skipGroup op cl d ts
    else skipGroup op cl d ts

/-- An attribute `#[name ..]`: its name and the tokens after the name.
Reader for `src/parse/cst/rules/*.rs`; no counterpart in `/repo` (this is `rustc` and `syn`). -/
structure RAttr where
  name : List Char
  args : List RTok
deriving DecidableEq, Repr

/-- The attributes at the start of some tokens.
Reader for `src/parse/cst/rules/*.rs`; no counterpart in `/repo` (this is `rustc` and `syn`). -/
def parseAttrs : Nat → List RTok → Option (List RAttr × List RTok)
  | 0, _ => none
  | fuel + 1, ts =>
    match ts with
    | .punct '#' :: .punct '[' :: ts =>
      match takeGroup '[' ']' 0 ts with
      | some (.id n :: args, ts) => (parseAttrs fuel ts).map fun (l, ts) => (⟨n, args⟩ :: l, ts)
      | _ => none
    | ts => some ([], ts)

/-- A field; `name` is empty in tuple structs.
Reader for `src/parse/cst/rules/*.rs`; no counterpart in `/repo` (this is `rustc` and `syn`). -/
structure RField where
  attrs : List RAttr
  name : List Char
  ty : RTy
deriving DecidableEq, Repr

/-- Drop `pub`.  Reader for `src/parse/cst/rules/*.rs`; no counterpart in `/repo` (this is `rustc` and `syn`). -/
def dropPub : List RTok → List RTok
  | .id ['p', 'u', 'b'] :: ts => ts
  | ts => ts

/-- Fields up to the closing bracket.
Reader for `src/parse/cst/rules/*.rs`; no counterpart in `/repo` (this is `rustc` and `syn`). -/
def parseFields (named : Bool) : Nat → List RTok → Option (List RField × List RTok)
  | 0, _ => none
  | fuel + 1, ts =>
    if ts.head? = some (.punct (if named then '}' else ')')) then some ([], ts.tail) else
    match parseAttrs 9 ts with
    | none => none
    | some (attrs, ts) =>
      match named, dropPub ts with
      | true, .id n :: .punct ':' :: ts =>
        match parseTy 99 none ts with
        | none => none
        | some (t, ts) => (parseFields named fuel (dropComma ts)).map fun (l, ts) => (⟨attrs, n, t⟩ :: l, ts)
      | true, _ => none
      | false, ts =>
        match parseTy 99 none ts with
        | none => none
        | some (t, ts) => (parseFields named fuel (dropComma ts)).map fun (l, ts) => (⟨attrs, [], t⟩ :: l, ts)

/-- Fields with their opening bracket.
Reader for `src/parse/cst/rules/*.rs`; no counterpart in `/repo` (this is `rustc` and `syn`). -/
def parseBody : List RTok → Option (List RField × List RTok)
  | .punct '(' :: ts => parseFields false 99 ts
  | .punct '{' :: ts => parseFields true 99 ts
  | _ => none

/-- A variant of an enum.  Variants without brackets are not supported, as in
`macros/src/derive_parse.rs:136-138`. -/
structure RVariant where
  attrs : List RAttr
  name : List Char
  fields : List RField
deriving DecidableEq, Repr

/-- The variants of an enum up to the closing brace.
Reader for `src/parse/cst/rules/*.rs`; no counterpart in `/repo` (this is `rustc` and `syn`). -/
def parseVariants : Nat → List RTok → Option (List RVariant × List RTok)
  | 0, _ => none
  | fuel + 1, ts =>
    if ts.head? = some (.punct '}') then some ([], ts.tail) else
    match parseAttrs 9 ts with
    | some (attrs, .id n :: ts) =>
      match parseBody ts with
      | none => none
      | some (fs, ts) => (parseVariants fuel (dropComma ts)).map fun (l, ts) => (⟨attrs, n, fs⟩ :: l, ts)
    | _ => none

/-- What an item declares.
Reader for `src/parse/cst/rules/*.rs`; no counterpart in `/repo` (this is `rustc` and `syn`). -/
inductive RData where
  | struct (fields : List RField)
  | enum (variants : List RVariant)
  /-- `type .. = ..;` -/
  | alias (ty : RTy)
deriving DecidableEq, Repr

/-- An item: its attributes, name, type parameters (without lifetimes) and what it declares.
Reader for `src/parse/cst/rules/*.rs`; no counterpart in `/repo` (this is `rustc` and `syn`). -/
structure RItem where
  attrs : List RAttr
  name : List Char
  params : List (List Char)
  data : RData
deriving DecidableEq, Repr

/-- The type parameters between `<` and `>`.  Bounds are not supported.
Reader for `src/parse/cst/rules/*.rs`; no counterpart in `/repo` (this is `rustc` and `syn`). -/
def parseParams : Nat → List RTok → Option (List (List Char) × List RTok)
  | 0, _ => none
  | fuel + 1, ts =>
    match ts with
    | .punct '>' :: ts => some ([], ts)
    | .lifetime _ :: ts => parseParams fuel (dropComma ts)
    | .id n :: ts => (parseParams fuel (dropComma ts)).map fun (l, ts) => (n :: l, ts)
    | _ => none

/-- Optional type parameters.
Reader for `src/parse/cst/rules/*.rs`; no counterpart in `/repo` (this is `rustc` and `syn`). -/
def parseGenerics : List RTok → Option (List (List Char) × List RTok)
  | .punct '<' :: ts => parseParams 9 ts
  | ts => some ([], ts)

/-- Does `#[derive(..)]` list this trait?
Reader for `src/parse/cst/rules/*.rs`; no counterpart in `/repo` (this is `rustc` and `syn`). -/
def derives (trait : List Char) (attrs : List RAttr) : Bool :=
  attrs.any fun a => a.name == c!"derive" && a.args.contains (.id trait)

/-- The body `$( .. )*` of the transcriber of the macro `_ks!`, `src/parse/cst/rules/connectives.rs:13-21`. -/
def template : List RTok → List RTok
  | .punct '=' :: .punct '>' :: .punct '{' :: .punct '$' :: .punct '(' :: ts =>
    match takeGroup '(' ')' 0 ts with
    | some (a, _) => a
    | none => []
  | _ :: ts => template ts
  | [] => []

/-- Put `name` and `inner` in place of `$name` and `$inner`.
Reader for `src/parse/cst/rules/*.rs`; no counterpart in `/repo` (this is `rustc` and `syn`). -/
def instantiate (name inner : List Char) : List RTok → List RTok
  | .punct '$' :: .id v :: ts =>
    (if v == c!"name" then [.id name] else if v == c!"inner" then [.id inner] else [.punct '$', .id v])
      ++ instantiate name inner ts
  | t :: ts => t :: instantiate name inner ts
  | [] => []

/-- `_ks![name(inner), ..]`, the invocation: one copy of the template for each pair.
Reader for `src/parse/cst/rules/*.rs`; no counterpart in `/repo` (this is `rustc` and `syn`). -/
def expand (tmpl : List RTok) : List RTok → List RTok
  | .id name :: .punct '(' :: .id inner :: .punct ')' :: .punct ',' :: ts =>
    instantiate name inner tmpl ++ expand tmpl ts
  | .id name :: .punct '(' :: .id inner :: .punct ')' :: ts => instantiate name inner tmpl ++ expand tmpl ts
  | _ => []

/-- The renamings `a as b` of a `use` declaration, as type aliases, and the tokens after it.
Reader for `src/parse/cst/rules/*.rs`; no counterpart in `/repo` (this is `rustc` and `syn`). -/
def parseUse : List RTok → List RItem × List RTok
  | .punct ';' :: ts => ([], ts)
  | .id a :: .id ['a', 's'] :: .id b :: ts =>
    let (l, ts) := parseUse ts
    (⟨[], b, [], .alias (.name a .nil)⟩ :: l, ts)
  | _ :: ts => parseUse ts
  | [] => ([], [])

/-- The items of a file that matter to the derive macros: `struct` and `enum` items that derive `Parse` or
`TreeNode`, `type` items and renamings.  Everything else is skipped: modules, functions, traits, `impl` blocks,
structs that derive neither, the macro `token_types!` (see `tokenTypes`).  `attrs` are the attributes before the
tokens, `tmpl` is the body of the macro `_ks!`.  Visibility is ignored.
Reader for `src/parse/cst/rules/*.rs`; no counterpart in `/repo` (this is `rustc` and `syn`). -/
def parseItems : Nat → (attrs : List RAttr) → (tmpl : List RTok) → List RTok → Option (List RItem)
  | 0, _, _, _ => none
  | fuel + 1, attrs, tmpl, ts =>
    match ts with
    | [] => some []
    | .punct '#' :: .punct '!' :: .punct '[' :: ts => parseItems fuel [] tmpl (skipGroup '[' ']' 0 ts)
    | .punct '#' :: .punct '[' :: ts =>
      match takeGroup '[' ']' 0 ts with
      | some (.id n :: args, ts) => parseItems fuel (attrs ++ [⟨n, args⟩]) tmpl ts
      | _ => none
    | .punct '{' :: ts => parseItems fuel [] tmpl (skipGroup '{' '}' 0 ts)
    | .id kw :: ts =>
      if kw == c!"pub" then
        match ts with
        | .punct '(' :: ts => parseItems fuel attrs tmpl (skipGroup '(' ')' 0 ts)
        | ts => parseItems fuel attrs tmpl ts
      else if kw == c!"use" then
        let (l, ts) := parseUse ts
        (parseItems fuel [] tmpl ts).map (l ++ ·)
      else if kw == c!"macro_rules" then
        match ts with
        | .punct '!' :: .id n :: .punct '{' :: ts =>
          if n == c!"_ks" then
            match takeGroup '{' '}' 0 ts with
            | some (body, ts) => parseItems fuel [] (template body) ts
            | none => none
          else parseItems fuel [] tmpl (skipGroup '{' '}' 0 ts)
        | _ => none
      else if kw == c!"_ks" then
        match ts with
        | .punct '!' :: .punct '[' :: ts =>
          match takeGroup '[' ']' 0 ts with
          | some (args, ts) => parseItems fuel [] tmpl (expand tmpl args ++ ts)
          | none => none
        | _ => none
      else if kw == c!"type" then
        match ts with
        | .id n :: ts =>
          match parseGenerics ts with
          | some (params, .punct '=' :: ts) =>
            match parseTy 99 none ts with
            | some (t, .punct ';' :: ts) =>
              (parseItems fuel [] tmpl ts).map (⟨attrs, n, params, .alias t⟩ :: ·)
            | _ => none
          | _ => none
        | _ => none
      else if (kw == c!"struct" || kw == c!"enum") && (derives c!"Parse" attrs || derives c!"TreeNode" attrs) then
        match ts with
        | .id n :: ts =>
          match parseGenerics ts with
          | none => none
          | some (params, ts) =>
            if kw == c!"struct" then
              match parseBody ts with
              | none => none
              | some (fs, ts) => (parseItems fuel [] tmpl ts).map (⟨attrs, n, params, .struct fs⟩ :: ·)
            else
              match ts with
              | .punct '{' :: ts =>
                match parseVariants 99 ts with
                | none => none
                | some (vs, ts) => (parseItems fuel [] tmpl ts).map (⟨attrs, n, params, .enum vs⟩ :: ·)
              | _ => none
        | _ => none
      else parseItems fuel [] tmpl ts
    | _ :: ts => parseItems fuel [] tmpl ts

/-- The items of a file.
Reader for `src/parse/cst/rules/*.rs`; no counterpart in `/repo` (this is `rustc` and `syn`). -/
def fileItems (file : List (List (List Char))) : Option (List RItem) :=
  match lexParts file with
  | none => none
  | some ts => parseItems 9999 [] [] ts

/-- The arguments of the macro `token_types!`, `src/parse/cst/rules/selmaho.rs:234-247`: names, each perhaps
with an attribute. -/
def typeList : List RTok → List (List Char × Option (List Char))
  | .punct '#' :: .punct '[' :: .id a :: .punct ']' :: .id n :: .punct ',' :: ts => (n, some a) :: typeList ts
  | .id n :: .punct ',' :: ts => (n, none) :: typeList ts
  | _ => []

/-- The arguments of the first invocation of `token_types!` with braces, `src/parse/cst/rules/selmaho.rs:249-372`.
(Those inside the definition of the macro are in parentheses.) -/
def tokenTypes : List RTok → List (List Char × Option (List Char))
  | .id n :: .punct '!' :: .punct '{' :: ts =>
    if n == c!"token_types" then typeList ts else tokenTypes ts
  | _ :: ts => tokenTypes ts
  | [] => []

end Sneturfahi.Rust

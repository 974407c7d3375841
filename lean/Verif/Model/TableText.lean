import Verif.Model.Rust
import Verif.Model.SelmahoText

/-!
# The tables of `src/lex/selmaho/*.rs`, read from their text

The variants of an `enum`, the string constants, and the arms of a `match`.
-/

namespace Sneturfahi.Rust

/-- The variants of an enum without data, up to the closing brace.
Reader for `src/lex/selmaho/*.rs`; no counterpart in `/repo` (this is `rustc`). -/
def plainVariants : List RTok → Option (List (List Char))
  | .punct '}' :: _ => some []
  | .id n :: .punct ',' :: ts => (plainVariants ts).map (n :: ·)
  | _ => none

/-- The variants of `enum name { .. }`.
Reader for `src/lex/selmaho/*.rs`; no counterpart in `/repo` (this is `rustc`). -/
def enumVariants (name : List Char) : List RTok → Option (List (List Char))
  | .id e :: .id n :: .punct '{' :: ts =>
    if e = c!"enum" && n = name then plainVariants ts else enumVariants name ts
  | _ :: ts => enumVariants name ts
  | [] => none

/-- The constants `const NAME: &str = "..";`.
Reader for `src/lex/selmaho/*.rs`; no counterpart in `/repo` (this is `rustc`). -/
def strConstants : List RTok → List (List Char × List Char)
  | .id c :: .id n :: .punct ':' :: .punct '&' :: .id s :: .punct '=' :: .str v :: ts =>
    if c = c!"const" && s = c!"str" then (n, v) :: strConstants ts else strConstants ts
  | _ :: ts => strConstants ts
  | [] => []

/-- The arms of the first `match subject { .. }`, as tokens.
Reader for `src/lex/selmaho/*.rs`; no counterpart in `/repo` (this is `rustc`). -/
def matchBody (subject : List Char) : List RTok → Option (List RTok)
  | .id m :: .id n :: .punct '{' :: ts =>
    if m = c!"match" && n = subject then (takeGroup '{' '}' 0 ts).map (·.1) else matchBody subject ts
  | _ :: ts => matchBody subject ts
  | [] => none

/-- The tokens of the function `name`, from its name to the end of the file.
Reader for `src/lex/selmaho/*.rs`; no counterpart in `/repo` (this is `rustc`). -/
def fromFn (name : List Char) : List RTok → List RTok
  | .id f :: .id n :: ts => if f = c!"fn" && n = name then ts else fromFn name (.id n :: ts)
  | _ :: ts => fromFn name ts
  | [] => []

/-- The tokens before `=>` and those after it.
Reader for `src/lex/selmaho/*.rs`; no counterpart in `/repo` (this is `rustc`). -/
def splitArrow : List RTok → Option (List RTok × List RTok)
  | .punct '=' :: .punct '>' :: ts => some ([], ts)
  | t :: ts => (splitArrow ts).map fun (a, b) => (t :: a, b)
  | [] => none

/-- The tokens before a comma and those after it.  (No comma in brackets occurs in the arms of the files.)
Reader for `src/lex/selmaho/*.rs`; no counterpart in `/repo` (this is `rustc`). -/
def splitComma : List RTok → List RTok × List RTok
  | .punct ',' :: ts => ([], ts)
  | t :: ts => match splitComma ts with | (a, b) => (t :: a, b)
  | [] => ([], [])

/-- The right side of an arm: a block or an expression and a comma.
Reader for `src/lex/selmaho/*.rs`; no counterpart in `/repo` (this is `rustc`). -/
def armBody : List RTok → Option (List RTok × List RTok)
  | .punct '{' :: ts => (takeGroup '{' '}' 0 ts).map fun (a, b) => (a, dropComma b)
  | ts => some (splitComma ts)

/-- An arm `pattern => body`.  Reader for `src/lex/selmaho/*.rs`; no counterpart in `/repo` (this is `rustc`). -/
structure RArm where
  pat : List RTok
  body : List RTok
deriving DecidableEq, Repr

/-- The arms of a `match`.  Reader for `src/lex/selmaho/*.rs`; no counterpart in `/repo` (this is `rustc`). -/
def parseArms : Nat → List RTok → Option (List RArm)
  | 0, _ => none
  | _ + 1, [] => some []
  | fuel + 1, ts =>
    match splitArrow ts with
    | none => none
    | some (pat, ts) =>
      match armBody ts with
      | none => none
      | some (body, ts) => (parseArms fuel ts).map (⟨pat, body⟩ :: ·)

/-- The arms of the first `match subject { .. }` in some tokens.
Reader for `src/lex/selmaho/*.rs`; no counterpart in `/repo` (this is `rustc`). -/
def armsOf (subject : List Char) (ts : List RTok) : Option (List RArm) :=
  match matchBody subject ts with
  | some ts => parseArms 9999 ts
  | none => none

/-- A string literal or constant.  Reader for `src/lex/selmaho/*.rs`; no counterpart in `/repo` (this is `rustc`). -/
def literal (consts : List (List Char × List Char)) : RTok → Option (List Char)
  | .str s => some s
  | .id n => (consts.find? (·.1 == n)).map (·.2)
  | _ => none

/-- A pattern `"a" | "b" | ..`.  Reader for `src/lex/selmaho/*.rs`; no counterpart in `/repo` (this is `rustc`). -/
def literals (consts : List (List Char × List Char)) : List RTok → Option (List (List Char))
  | [t] => (literal consts t).map ([·])
  | t :: .punct '|' :: ts =>
    match literal consts t with
    | some w => (literals consts ts).map (w :: ·)
    | none => none
  | _ => none

/-- `Self::Name` or `Selmaho::Name`.
Reader for `src/lex/selmaho/*.rs`; no counterpart in `/repo` (this is `rustc`). -/
def variantName : List RTok → Option (List Char)
  | [.id s, .punct ':', .punct ':', .id n] => if s = c!"Self" || s = c!"Selmaho" then some n else none
  | _ => none

/-- A pattern `Self::A | Self::B | ..`.
Reader for `src/lex/selmaho/*.rs`; no counterpart in `/repo` (this is `rustc`). -/
def variantNames : List RTok → Option (List (List Char))
  | [.id s, .punct ':', .punct ':', .id n] => if s = c!"Self" then some [n] else none
  | .id s :: .punct ':' :: .punct ':' :: .id n :: .punct '|' :: ts =>
    if s = c!"Self" then (variantNames ts).map (n :: ·) else none
  | _ => none

/-- An arm of the table of cmavo: literals and what they are, with or without `experimental!(..)`; or another arm.
Reader for `src/lex/selmaho/*.rs`; no counterpart in `/repo` (this is `rustc`). -/
inductive TableArm where
  | words (words : List (List Char)) (selmaho : List Char) (experimental : Bool)
  | other (arm : RArm)
deriving DecidableEq, Repr

/-- What the body of an arm says: the macro `experimental!`, `src/lex/selmaho/classify.rs:63-68`, sets `is_experimental`. -/
def armResult (body : List RTok) : Option (List Char × Bool) :=
  match variantName body with
  | some n => some (n, false)
  | none =>
    match body with
    | .id e :: .punct '!' :: .punct '(' :: ts =>
      if e = c!"experimental" && ts.getLast? = some (.punct ')') then (variantName ts.dropLast).map (·, true) else none
    | _ => none

/-- An arm of the table.  Reader for `src/lex/selmaho/*.rs`; no counterpart in `/repo` (this is `rustc`). -/
def tableArm (consts : List (List Char × List Char)) (a : RArm) : TableArm :=
  match literals consts a.pat, armResult a.body with
  | some ws, some (n, e) => .words ws n e
  | _, _ => .other a

/-- The table of cmavo in the text of `src/lex/selmaho/classify.rs`. -/
def cmavoTable (file : List (List (List Char))) : Option (List TableArm) :=
  match lexParts file with
  | none => none
  | some ts => (armsOf c!"direct_cmavo_check" ts).map (List.map (tableArm (strConstants ts)))

/-- An arm `other if crate::rules::name(other).succeeded_and_consumed_all() => Selmaho::Name`: the rule and the variant.
Reader for `src/lex/selmaho/*.rs`; no counterpart in `/repo` (this is `rustc`). -/
def ruleArm (a : RArm) : Option (List Char × List Char) :=
  match a.pat with
  | .id o :: .id i :: .id c :: .punct ':' :: .punct ':' :: .id r :: .punct ':' :: .punct ':' :: .id n :: rest =>
    if o = c!"other" && i = c!"if" && c = c!"crate" && r = c!"rules" &&
        rest = [.punct '(', .id c!"other", .punct ')', .punct '.', .id c!"succeeded_and_consumed_all", .punct '(', .punct ')']
    then (variantName a.body).map (n, ·) else none
  | _ => none

/-- The arms of the function `classify_generally`.
Reader for `src/lex/selmaho/*.rs`; no counterpart in `/repo` (this is `rustc`). -/
def generalArms (file : List (List (List Char))) : Option (List RArm) :=
  match lexParts file with
  | none => none
  | some ts => armsOf c!"other" (fromFn c!"classify_generally" ts)

/-- The arms of `match self` in a function, each with the variants it names.
Reader for `src/lex/selmaho/*.rs`; no counterpart in `/repo` (this is `rustc`). -/
def selfArms (fn : List Char) (file : List (List (List Char))) : Option (List (Option (List (List Char)) × List RTok)) :=
  match lexParts file with
  | none => none
  | some ts => (armsOf c!"self" (fromFn fn ts)).map (List.map fun a => (variantNames a.pat, a.body))

end Sneturfahi.Rust

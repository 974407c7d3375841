import Verif.Model.Rust
import Verif.Model.Peg
import Verif.Model.RulesText

/-!
# The rule functions of `src/rules.rs`, read from their text

What `rustc` does with the items of `src/rules.rs`: it expands the macros that declare rule functions
(`consonant_rule!`, `vowel_rule!`, `group!`, all three defined in the file) and reads the bodies of the functions.
The macros and functions the bodies are made of (`or!`, `seq!`, `not!`, `repeat`, `one_of`, ..) become the constructors
of `Exp`, whose meaning is the business of `Model/Peg.lean`.
-/

namespace Sneturfahi.Rust

/-! ## `macro_rules!` -/

/-- The pattern of a macro.  Reader for `src/rules.rs`; no counterpart in `/repo` (this is `rustc`). -/
inductive MPat where
  | tok (t : RTok)
  /-- `$name:ident` or `$name:expr`; an expression is supported if it is a single token -/
  | var (name : List Char)
  /-- `$( .. ) sep op`: here `first`, separator and the variable to repeat.  Supported are a list of variables with
  a token before each one (`$(, $nots:ident)*`) or between them (`$($members:ident),+`) -/
  | before (t : RTok) (name : List Char)
  | between (t : RTok) (name : List Char)
  /-- `$(,)?` -/
  | maybe (t : RTok)
deriving DecidableEq, Repr

/-- Read a pattern.  Brackets are kept as tokens.
Reader for `src/rules.rs`; no counterpart in `/repo` (this is `rustc`). -/
def parsePat : Nat → List RTok → Option (List MPat)
  | 0, _ => none
  | fuel + 1, ts =>
    match ts with
    | [] => some []
    | .punct '$' :: .punct '(' :: .punct '$' :: .id n :: .punct ':' :: .id _ :: .punct ')' :: t :: .punct '+' :: ts =>
      (parsePat fuel ts).map (.between t n :: ·)
    | .punct '$' :: .punct '(' :: t :: .punct '$' :: .id n :: .punct ':' :: .id _ :: .punct ')' :: .punct '*' :: ts =>
      (parsePat fuel ts).map (.before t n :: ·)
    | .punct '$' :: .punct '(' :: t :: .punct ')' :: .punct '?' :: ts => (parsePat fuel ts).map (.maybe t :: ·)
    | .punct '$' :: .punct '(' :: _ => none
    | .punct '$' :: .id n :: .punct ':' :: .id _ :: ts => (parsePat fuel ts).map (.var n :: ·)
    | t :: ts => (parsePat fuel ts).map (.tok t :: ·)

/-- A rule `( pattern ) => { transcriber }`.
Reader for `src/rules.rs`; no counterpart in `/repo` (this is `rustc`). -/
structure MRule where
  pat : List MPat
  body : List RTok
deriving DecidableEq, Repr

/-- What the variables of a pattern stand for.
Reader for `src/rules.rs`; no counterpart in `/repo` (this is `rustc`). -/
abbrev Binding := List (List Char × List RTok)

/-- Is this a token a variable can stand for?
Reader for `src/rules.rs`; no counterpart in `/repo` (this is `rustc`). -/
def isAtom : RTok → Bool
  | .id _ => true
  | .str _ => true
  | _ => false

/-- `x, x, ..`: as many as there are.  Reader for `src/rules.rs`; no counterpart in `/repo` (this is `rustc`). -/
def takeBetween (sep : RTok) : List RTok → List RTok × List RTok
  | a :: b :: ts =>
    if isAtom a then
      if b = sep then
        match ts with
        | c :: _ => if isAtom c then (match takeBetween sep ts with | (l, r) => (a :: l, r)) else ([a], b :: ts)
        | [] => ([a], b :: ts)
      else ([a], b :: ts)
    else ([], a :: b :: ts)
  | [a] => if isAtom a then ([a], []) else ([], [a])
  | [] => ([], [])

/-- `, x, x ..`: as many as there are.  Reader for `src/rules.rs`; no counterpart in `/repo` (this is `rustc`). -/
def takeBefore (sep : RTok) : List RTok → List RTok × List RTok
  | b :: a :: ts =>
    if b = sep && isAtom a then
      match takeBefore sep ts with
      | (l, r) => (a :: l, r)
    else ([], b :: a :: ts)
  | ts => ([], ts)

/-- Match the arguments of an invocation.  Reader for `src/rules.rs`; no counterpart in `/repo` (this is `rustc`). -/
def matchPat : List MPat → List RTok → Option Binding
  | [], [] => some []
  | [], _ => none
  | .tok t :: ps, a :: ts => if a = t then matchPat ps ts else none
  | .tok _ :: _, [] => none
  | .var n :: ps, a :: ts => if isAtom a then (matchPat ps ts).map ((n, [a]) :: ·) else none
  | .var _ :: _, [] => none
  | .between t n :: ps, ts =>
    match takeBetween t ts with
    | ([], _) => none
    | (l, ts) => (matchPat ps ts).map ((n, l) :: ·)
  | .before t n :: ps, ts =>
    match takeBefore t ts with
    | (l, ts) => (matchPat ps ts).map ((n, l) :: ·)
  | .maybe t :: ps, ts =>
    match ts with
    | a :: rest => if a = t then matchPat ps rest else matchPat ps ts
    | [] => matchPat ps ts

/-- The tokens a variable stands for.  Reader for `src/rules.rs`; no counterpart in `/repo` (this is `rustc`). -/
def Binding.get (b : Binding) (n : List Char) : List RTok :=
  match b.find? (·.1 == n) with
  | some (_, l) => l
  | none => []

/-- The transcriber with the variables filled in.  Repetitions are supported if they repeat one variable with
a token after or before it: `$($x,)+`, `$(, $x)*`.
Reader for `src/rules.rs`; no counterpart in `/repo` (this is `rustc`). -/
def transcribe (b : Binding) : List RTok → List RTok
  | .punct '$' :: .punct '(' :: .punct '$' :: .id n :: t :: .punct ')' :: .punct '+' :: ts =>
    (b.get n).flatMap (fun a => [a, t]) ++ transcribe b ts
  | .punct '$' :: .punct '(' :: t :: .punct '$' :: .id n :: .punct ')' :: .punct '*' :: ts =>
    (b.get n).flatMap (fun a => [t, a]) ++ transcribe b ts
  | .punct '$' :: .id n :: ts => b.get n ++ transcribe b ts
  | t :: ts => t :: transcribe b ts
  | [] => []

/-- A macro with one rule.  Reader for `src/rules.rs`; no counterpart in `/repo` (this is `rustc`). -/
def parseMacro (ts : List RTok) : Option MRule :=
  match ts with
  | .punct '(' :: ts =>
    match takeGroup '(' ')' 0 ts with
    | some (pat, .punct '=' :: .punct '>' :: .punct '{' :: ts) =>
      match takeGroup '{' '}' 0 ts, parsePat 99 pat with
      | some (body, _), some p => some ⟨p, body⟩
      | _, _ => none
    | _ => none
  | _ => none

/-- The macros of this name: what follows `macro_rules! name {`.
Reader for `src/rules.rs`; no counterpart in `/repo` (this is `rustc`). -/
def findMacro (name : List Char) : List RTok → Option MRule
  | .id m :: .punct '!' :: .id n :: .punct '{' :: ts =>
    if m = c!"macro_rules" && n = name then parseMacro ts else findMacro name ts
  | _ :: ts => findMacro name ts
  | [] => none

/-! ## Bodies -/

/-- `or![a, ..]` of parsers already read.  Reader for `src/rules.rs`; no counterpart in `/repo` (this is `rustc`). -/
def alts : List (Exp (List Char)) → Option (Exp (List Char))
  | [] => none
  | [e] => some e
  | e :: es => (alts es).map (.alt e)

/-- `or![longest=> a, ..]`  Reader for `src/rules.rs`; no counterpart in `/repo` (this is `rustc`). -/
def longests : List (Exp (List Char)) → Option (Exp (List Char))
  | [] => none
  | [e] => some e
  | e :: es => (longests es).map (.longest e)

/-- `seq![a, ..]`  Reader for `src/rules.rs`; no counterpart in `/repo` (this is `rustc`). -/
def seqs : List (Exp (List Char)) → Option (Exp (List Char))
  | [] => none
  | [e] => some e
  | e :: es => (seqs es).map (.seq e)

/-- A number.  Reader for `src/rules.rs`; no counterpart in `/repo` (this is `rustc`). -/
def number (cs : List Char) : Nat := cs.foldl (fun n c => n * 10 + (c.toNat - 48)) 0

/-- A name used as a parser: `null`, `eof` or a rule.
Reader for `src/rules.rs`; no counterpart in `/repo` (this is `rustc`). -/
def named (n : List Char) : Exp (List Char) :=
  if n = c!"null" then .null else if n = c!"eof" then .eof else .call n

/-- What is being read.  Reader for `src/rules.rs`; no counterpart in `/repo` (this is `rustc`). -/
inductive Want where
  /-- a parser: an expression of a function type -/
  | parser
  /-- parsers separated by commas, up to `]` -/
  | list (acc : List (Exp (List Char)))
  /-- a parser applied to `input`, and the methods called on the result -/
  | applied
  /-- the methods called on a result -/
  | methods (e : Exp (List Char))

/-- The lists of parsers are answered as lists, everything else as a list with one element.
Reader for `src/rules.rs`; no counterpart in `/repo` (this is `rustc`). -/
def parseExp : Nat → Want → List RTok → Option (List (Exp (List Char)) × List RTok)
  | 0, _, _ => none
  | fuel + 1, .parser, ts =>
    match ts with
    | .id n :: .punct '!' :: .punct '[' :: .id l :: .punct '=' :: .punct '>' :: ts =>
      if n = c!"or" && l = c!"longest" then
        match parseExp fuel (.list []) ts with
        | some (es, ts) => (longests es).map fun e => ([e], ts)
        | none => none
      else none
    | .id n :: .punct '!' :: .punct '[' :: ts =>
      match parseExp fuel (.list []) ts with
      | some (es, ts) =>
        if n = c!"or" then (alts es).map fun e => ([e], ts)
        else if n = c!"seq" then (seqs es).map fun e => ([e], ts)
        else none
      | none => none
    | .id n :: .punct '(' :: .str s :: .punct ')' :: ts => if n = c!"one_of" then some ([.oneOf s], ts) else none
    | .id n :: .punct '(' :: .id k :: .punct ',' :: ts =>
      if n = c!"repeat" then
        match parseExp fuel .parser ts with
        | some ([e], ts) =>
          match dropComma ts with
          | .punct ')' :: ts => some ([.rep (number k) e], ts)
          | _ => none
        | _ => none
      else none
    | .punct '|' :: .id v :: .punct '|' :: ts => if v = c!"input" then parseExp fuel .applied ts else none
    | .id n :: ts =>
      if n = c!"not" || n = c!"peek" || n = c!"opt" then
        match ts with
        | .punct '(' :: ts =>
          match parseExp fuel .parser ts with
          | some ([e], .punct ')' :: ts) =>
            some ([if n = c!"not" then .not e else if n = c!"peek" then .peek e else .alt e .null], ts)
          | _ => none
        | _ => none
      else some ([named n], ts)
    | _ => none
  | fuel + 1, .list acc, ts =>
    match ts with
    | .punct ']' :: ts => some (acc.reverse, ts)
    | ts =>
      match parseExp fuel .parser ts with
      | some ([e], .punct ',' :: ts) => parseExp fuel (.list (e :: acc)) ts
      | some ([e], .punct ']' :: ts) => some ((e :: acc).reverse, ts)
      | _ => none
  | fuel + 1, .applied, ts =>
    match parseExp fuel .parser ts with
    | some ([e], .punct '(' :: .id v :: .punct ')' :: ts) =>
      if v = c!"input" then parseExp fuel (.methods e) ts else none
    | _ => none
  | fuel + 1, .methods e, ts =>
    match ts with
    | .punct '.' :: .id m :: .punct '(' :: ts =>
      match parseExp fuel .parser ts with
      | some ([p], .punct ')' :: ts) =>
        if m = c!"and_not" then parseExp fuel (.methods (.andNot e p)) ts
        else if m = c!"and_peek" then parseExp fuel (.methods (.andPeek e p)) ts
        else none
      | _ => none
    | ts => some ([e], ts)

/-- A body: `not!(rule(input));` any number of times, then a parser applied to `input`.
Reader for `src/rules.rs`; no counterpart in `/repo` (this is `rustc`). -/
def parseRuleBody : Nat → List RTok → Option (Exp (List Char))
  | 0, _ => none
  | fuel + 1, ts =>
    match ts with
    | .id n :: .punct '!' :: .punct '(' :: .id r :: .punct '(' :: .id v :: .punct ')' :: .punct ')' :: .punct ';' :: ts =>
      if n = c!"not" && v = c!"input" then (parseRuleBody fuel ts).map (.guardNot (named r)) else none
    | ts =>
      match parseExp 999 .applied ts with
      | some ([e], []) => some e
      | _ => none

/-! ## Functions -/

/-- A rule function: its name, whether it has the attribute `#[debug_rule]`, and its body; `none` if that is not made
of the combinators.  Reader for `src/rules.rs`; no counterpart in `/repo` (this is `rustc`). -/
structure RuleFn where
  name : List Char
  debug : Bool
  body : Option (Exp (List Char))
deriving DecidableEq

/-- The rule functions of a file: those with the signature `fn name(input: &str) -> ParseResult<'_>`, whether written or
made by one of the macros.  All other items are skipped.  `debug` says whether the attribute `#[debug_rule]` comes right
before the tokens.  Reader for `src/rules.rs`; no counterpart in `/repo` (this is `rustc`). -/
def ruleFns (ms : List (List Char × MRule)) : Nat → (debug : Bool) → List RTok → Option (List RuleFn)
  | 0, _, _ => none
  | fuel + 1, debug, ts =>
    match ts with
    | [] => some []
    | .id f :: .id n :: .punct '(' :: .id i :: .punct ':' :: .punct '&' :: .id s :: .punct ')' :: .punct '-' ::
        .punct '>' :: .id r :: .punct '<' :: .lifetime l :: .punct '>' :: .punct '{' :: ts =>
      if f = c!"fn" && i = c!"input" && s = c!"str" && r = c!"ParseResult" && l = c!"_" then
        match takeGroup '{' '}' 0 ts with
        | some (body, ts) => (ruleFns ms fuel false ts).map (⟨n, debug, parseRuleBody 9 body⟩ :: ·)
        | none => none
      else none
    | .id m :: .punct '!' :: .id _ :: .punct '{' :: ts =>
      if m = c!"macro_rules" then ruleFns ms fuel false (skipGroup '{' '}' 0 ts) else none
    | .id m :: .punct '!' :: .punct '(' :: ts =>
      match takeGroup '(' ')' 0 ts with
      | none => none
      | some (args, ts) =>
        match ms.find? (·.1 == m) with
        | none => ruleFns ms fuel false ts
        | some (_, rule) =>
          match matchPat rule.pat args with
          | none => none
          | some b => ruleFns ms fuel false (transcribe b rule.body ++ ts)
    | .punct '#' :: .punct '[' :: .id a :: .punct ']' :: ts => ruleFns ms fuel (a == c!"debug_rule") ts
    | .punct '{' :: ts => ruleFns ms fuel false (skipGroup '{' '}' 0 ts)
    | .id w :: ts => ruleFns ms fuel (debug && w == c!"pub") ts
    | _ :: ts => ruleFns ms fuel false ts

/-- The macros of `src/rules.rs` that declare rules. -/
def macroNames : List (List Char) := [c!"consonant_rule", c!"vowel_rule", c!"group"]

/-- The rule functions of a file.  Reader for `src/rules.rs`; no counterpart in `/repo` (this is `rustc`). -/
def fileRules (file : List (List (List Char))) : Option (List RuleFn) :=
  match lexParts file with
  | none => none
  | some ts => ruleFns (macroNames.filterMap fun n => (findMacro n ts).map fun r => (n, r)) 9999 false ts

end Sneturfahi.Rust

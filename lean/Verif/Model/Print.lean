import Verif.Model.Main
import Verif.Model.Idents

/-!
# The characters the command line program prints

`examples/main.rs`, from standard input to standard output and standard error.  What the program prints is determined
by `Output` (`Verif/Model/Main.lean`); here it is written out.
-/

namespace Sneturfahi

/-- What `/repo` does not determine about the characters printed; every theorem holds for any choice.
Used by the formatting of `examples/main.rs:57-199`. -/
structure Surroundings where
  /-- Which characters outside ASCII `core` prints as they are inside quotes (its tables of printable characters). -/
  plain : Char → Bool
  /-- The text of a failed post-condition, `macros/src/derive_parse.rs:202-205`. -/
  reason : List Char
  /-- The text of the error of `wrap_must_consume`, `macros/src/derive_parse.rs:300, 315`: how the compiler writes a path. -/
  emptied : NodeName → List Char
  /-- `arena.allocated_bytes()` after parsing a text, `examples/main.rs:99`. -/
  arena : List Char → Nat
  /-- The address of the vector of tokens of a text, `examples/main.rs:63`. -/
  tokensAt : List Char → Nat
  /-- The address of the buffer read into, `examples/main.rs:184`. -/
  bufferAt : List Char → Nat

/-! ## Formatting -/

/-- `{}` of an unsigned number.  From `core`; used in `src/span.rs:27`, `examples/main.rs:99`. -/
def decimal (n : Nat) : List Char := Nat.toDigits 10 n

/-- `\u{..}`, `char::escape_unicode`.  From `core`; used by `{:?}` of a `&str`, `examples/main.rs:130`. -/
def unicodeEscape (c : Char) : List Char := c!"\\u{" ++ Nat.toDigits 16 c.toNat ++ c!"}"

/-- One character within `{:?}` of a `&str`, `char::escape_debug_ext`.
From `core`; used in `examples/main.rs:91-92, 130, 147-149`. -/
def escape (plain : Char → Bool) (c : Char) : List Char :=
  if c = '\x00' then c!"\\0"
  else if c = '\t' then c!"\\t"
  else if c = '\r' then c!"\\r"
  else if c = '\n' then c!"\\n"
  else if c = '\\' then c!"\\\\"
  else if c = '"' then c!"\\\""
  else if c.toNat < 0x20 ∨ c.toNat = 0x7f then unicodeEscape c
  else if c.toNat < 0x7f ∨ plain c then [c]
  else unicodeEscape c

/-- `{:?}` of a `&str`.  From `core`; used in `examples/main.rs:91-92, 130, 147-149`. -/
def quoted (plain : Char → Bool) (text : List Char) : List Char :=
  c!"\"" ++ text.flatMap (escape plain) ++ c!"\""

/-- `Debug` of a `Span`, `src/span.rs:25-29`; `Debug` of a `Range` is the same, `examples/main.rs:149`. -/
def Span.debug (s : Span) : List Char := decimal s.start ++ c!".." ++ decimal s.stop

/-- `Debug` of a `bool`.  From `core`; used in `src/lex/token.rs:14-16`. -/
def debugBool : Bool → List Char
  | true => c!"true"
  | false => c!"false"

/-- The inside of `debug_list`: entries separated by a comma and a space.
From `core`; used in `examples/main.rs:174-177` and by the slices of `src/parse/cst/error.rs:17, 52`. -/
def commas : List (List Char) → List Char
  | [] => []
  | [x] => x
  | x :: xs => x ++ c!", " ++ commas xs

/-- `debug_list`.  From `core`; used in `examples/main.rs:174-177`. -/
def debugList (entries : List (List Char)) : List Char := c!"[" ++ commas entries ++ c!"]"

/-- Derived `Debug` of a token, `src/lex/token.rs:14-22`; that of its selmaho is the name of the variant,
`src/lex/selmaho/mod.rs`. -/
def Token.debug (t : Token) : List Char :=
  c!"Token { experimental: " ++ debugBool t.experimental ++ c!", selmaho: " ++ t.selmaho.ident ++ c!", span: " ++
    t.span.debug ++ c!" }"

/-- Derived `Debug` of the errors of the lexer, `src/lex/mod.rs:18-120`. -/
def LexError.debug : LexError → List Char
  | .delimitedQuoteMissingSeparator i => c!"DelimitedQuoteMissingSeparator { initiator_span: " ++ i.debug ++ c!" }"
  | .delimitedQuoteUnclosed i d =>
    c!"DelimitedQuoteUnclosed { initiator_span: " ++ i.debug ++ c!", starting_delimiter_span: " ++ d.debug ++ c!" }"
  | .pauseDelimitedQuoteEof i => c!"PauseDelimitedQuoteEof { initiator_span: " ++ i.debug ++ c!" }"

/-- Derived `Debug` of `nom::error::ErrorKind`.  From `nom`; used in `src/parse/cst/error.rs:26`. -/
def NomKind.debug : NomKind → List Char
  | .eof => c!"Eof"
  | .not => c!"Not"
  | .many0 => c!"Many0"
  | .many1 => c!"Many1"
  | .manyTill => c!"ManyTill"

/-- Derived `Debug` of an `Option<Token>`.  Used in `src/parse/cst/error.rs:19`. -/
def debugGot : Option Token → List Char
  | none => c!"None"
  | some t => c!"Some(" ++ t.debug ++ c!")"

/-- Derived `Debug` of the errors of the parser, `src/parse/cst/error.rs:10-35`. -/
def CstError.debug (s : Surroundings) : CstError → List Char
  | .expectedGot expected got =>
    c!"ExpectedGot { expected: " ++ debugList (expected.map Selmaho.ident) ++ c!", got: " ++ debugGot got ++ c!" }"
  | .postConditionFailed => c!"PostConditionFailed(" ++ quoted s.plain s.reason ++ c!")"
  | .nom k => c!"Nom(" ++ k.debug ++ c!")"
  | .empty n => c!"Empty(" ++ quoted s.plain (s.emptied n) ++ c!")"

/-- Derived `Debug` of `WithLocation`, `src/parse/cst/error.rs:49-55`. -/
def Located.debug (s : Surroundings) (e : Located) : List Char :=
  c!"WithLocation { location: " ++ debugList (e.location.list.map Token.debug) ++ c!", error: " ++ e.error.debug s ++ c!" }"

/-- `TreeNode::name`, see `Label`.
`macros/src/derive_tree_node.rs:227-248`, `src/parse/cst/rules/helpers.rs:50-52`, `src/parse/tree_node.rs:30-32`,
`src/parse/cst/rules/mod.rs:882-884, 905-907`. -/
def Label.text : Label → List Char
  | .node n => n.text Selmaho.ident
  | .separated => c!"Separated"
  | .token s => s.asRepr
  | .zoiDelimiter => c!"ZoiDelimiter"
  | .zoiText => c!"ZoiText"
  | .other => []

/-- `if experimental { "*" } else { "" }`, `examples/main.rs:123, 160`. -/
def star (experimental : Bool) : List Char := if experimental then c!"*" else []

/-- One line of the tree, `examples/main.rs:120-132`. -/
def Line.text (plain : Char → Bool) (l : Line) : List Char :=
  List.replicate l.level ' ' ++ l.label.text ++ star l.experimental ++
    (match l.place with
    | none => []
    | some (span, text) => c!" @ " ++ span.debug ++ c!" " ++ quoted plain text) ++ c!"\n"

/-- `WithInput` of a span, `examples/main.rs:143-152`. -/
def wordText (plain : Char → Bool) (w : List Char × Span) : List Char := quoted plain w.1 ++ c!" @ " ++ w.2.debug

/-- `WithInput` of a token, `examples/main.rs:154-164`. -/
def tokenText (plain : Char → Bool) (t : Token × List Char) : List Char :=
  t.1.selmaho.asRepr ++ star t.1.experimental ++ c!"(" ++ wordText plain (t.2, t.1.span) ++ c!")"

/-- The characters of one output, with the size of the arena after the tree or the error, `examples/main.rs:58-100`. -/
def Output.text (s : Surroundings) (arena : Nat) : Output → List Char
  | .decomposed words => c!"Decomposed: " ++ debugList (words.map (wordText s.plain)) ++ c!"\n"
  | .lexingError e => c!"Lexing error: " ++ e.debug ++ c!"\n"
  | .lexed tokens => c!"Lexed: " ++ debugList (tokens.map (tokenText s.plain)) ++ c!"\n"
  | .tree lines => lines.flatMap (Line.text s.plain) ++ c!"size of CST arena: " ++ decimal arena ++ c!"\n"
  | .notLexable t content =>
    c!"The token " ++ t.debug ++ c!" could not be lexed. The content of this token is " ++ quoted s.plain content ++ c!".\n" ++
      c!"size of CST arena: " ++ decimal arena ++ c!"\n"
  | .parseError e => c!"Parse error: " ++ e.debug s ++ c!"\n" ++ c!"size of CST arena: " ++ decimal arena ++ c!"\n"

/-! ## Reading -/

/-- `char::is_whitespace`, the Unicode property White_Space.  From `core`; used by `str::trim`, `examples/main.rs:193, 197`. -/
def isWhitespace (c : Char) : Bool :=
  (0x9 ≤ c.toNat && c.toNat ≤ 0xd) || c.toNat == 0x20 || c.toNat == 0x85 || c.toNat == 0xa0 || c.toNat == 0x1680 ||
  (0x2000 ≤ c.toNat && c.toNat ≤ 0x200a) || c.toNat == 0x2028 || c.toNat == 0x2029 || c.toNat == 0x202f ||
  c.toNat == 0x205f || c.toNat == 0x3000

/-- `str::trim`: the slice from the first to the last character that is not white space.
From `core`; used in `examples/main.rs:193, 197`. -/
def Str.trim (s : Str) : Str :=
  ⟨s.ptr + byteLen (s.chars.takeWhile isWhitespace),
    ((s.chars.dropWhile isWhitespace).reverse.dropWhile isWhitespace).reverse⟩

/-- `read_line`: up to and including the next newline, and what is left.
From `std`; used in `examples/main.rs:190`. -/
def readLine : List Char → List Char × List Char
  | [] => ([], [])
  | c :: cs => if c = '\n' then ([c], cs) else
    let (line, rest) := readLine cs
    (c :: line, rest)

/-! ## The program -/

/-- What is written to the two streams by `println!`, `print!`, `eprintln!`, `eprint!`, `examples/main.rs:45-199`. -/
structure Streams where
  stdout : List Char
  stderr : List Char
deriving DecidableEq, Repr

/-- The closure given to `repl`, `examples/main.rs:57-101`: what it prints for one text. -/
def handle (p : Profile) (args : Args) (s : Surroundings) (input : Str) : Exec (List Char) := do
  let outs ← mainCallback p args (s.tokensAt input.chars) input
  pure (outs.flatMap (Output.text s (s.arena input.chars)))

/-- The loop of `repl` at a terminal, `examples/main.rs:187-194`.  The fuel is one more than the number of characters
left to read, and every round but the last reads one. -/
def replLoop (p : Profile) (args : Args) (s : Surroundings) : Nat → List Char → Exec Streams
  | 0, _ => .diverge
  | fuel + 1, stdin =>
    let (line, rest) := readLine stdin
    if line.length = 0 then pure ⟨[], c!"> "⟩
    else do
      let out ← handle p args s (Str.trim ⟨s.bufferAt line, line⟩)
      let more ← replLoop p args s fuel rest
      pure ⟨out ++ more.stdout, c!"> " ++ more.stderr⟩

/-- `repl`, `examples/main.rs:181-199`.  Standard input is valid UTF-8; otherwise `unwrap` panics in lines 190 and 196. -/
def repl (p : Profile) (args : Args) (s : Surroundings) (terminal : Bool) (stdin : List Char) : Exec Streams :=
  if terminal then replLoop p args s (stdin.length + 1) stdin
  else do
    let out ← handle p args s (Str.trim ⟨s.bufferAt stdin, stdin⟩)
    pure ⟨out, []⟩

/-- `main`, `examples/main.rs:45-102`.  The switches are given (they are read by `argh`), and `--verbose` is not: its log
goes to the standard streams too. -/
def program (p : Profile) (args : Args) (s : Surroundings) (terminal : Bool) (stdin : List Char) : Exec Streams :=
  if !(args.decompose || args.lex || args.cst) then
    pure ⟨[], c!"At least one of `--decompose`, `--lex`, `--cst` is required.\n"⟩
  else repl p args s terminal stdin

end Sneturfahi

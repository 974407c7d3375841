import Verif.Model.Print

/-!
# The command line program on bytes

Standard input is a sequence of bytes; `Model/Print.lean` is about those that are valid UTF-8.
-/

namespace Sneturfahi

/-- The bytes `read_line` reads: up to and including the next newline byte; and what is left.
From `std`; used in `examples/main.rs:190`. -/
def readLineBytes : List UInt8 → List UInt8 × List UInt8
  | [] => ([], [])
  | c :: cs => if c = 10 then ([c], cs) else
    let (line, rest) := readLineBytes cs
    (c :: line, rest)

/-- What a run of the program writes until it ends, and whether it ends by the panic of an `unwrap` in
`examples/main.rs:190, 196`.  The message of that panic is not part of `streams`. -/
structure Ran where
  streams : Streams
  panicked : Bool
deriving DecidableEq, Repr

/-- The loop of `repl` at a terminal, `examples/main.rs:187-194`: `read_line` fails if the line is not UTF-8. -/
def replLoopBytes (p : Profile) (args : Args) (s : Surroundings) : Nat → List UInt8 → Exec Ran
  | 0, _ => .diverge
  | fuel + 1, stdin =>
    let (line, rest) := readLineBytes stdin
    match fromUtf8 line with
    | none => pure ⟨⟨[], c!"> "⟩, true⟩
    | some text =>
      if line.length = 0 then pure ⟨⟨[], c!"> "⟩, false⟩
      else do
        let out ← handle p args s (Str.trim ⟨s.bufferAt text, text⟩)
        let more ← replLoopBytes p args s fuel rest
        pure ⟨⟨out ++ more.streams.stdout, c!"> " ++ more.streams.stderr⟩, more.panicked⟩

/-- `repl`, `examples/main.rs:181-199`: `read_to_string` fails if standard input is not UTF-8. -/
def replBytes (p : Profile) (args : Args) (s : Surroundings) (terminal : Bool) (stdin : List UInt8) : Exec Ran :=
  if terminal then replLoopBytes p args s (stdin.length + 1) stdin
  else match fromUtf8 stdin with
    | none => pure ⟨⟨[], []⟩, true⟩
    | some text => do
      let out ← handle p args s (Str.trim ⟨s.bufferAt text, text⟩)
      pure ⟨⟨out, []⟩, false⟩

/-- `main`, `examples/main.rs:45-102`, without `--verbose`. -/
def programBytes (p : Profile) (args : Args) (s : Surroundings) (terminal : Bool) (stdin : List UInt8) : Exec Ran :=
  if !(args.decompose || args.lex || args.cst) then
    pure ⟨⟨[], c!"At least one of `--decompose`, `--lex`, `--cst` is required.\n"⟩, false⟩
  else replBytes p args s terminal stdin

end Sneturfahi

import Verif.Proof.Window
open Sneturfahi
/-! Prints `Verif/Proof/WinTable.lean`: run `lake env lean --run ../tools/gen_masks.lean.txt > Verif/Proof/WinTable.lean` in `lean/`. -/
def rn (r : Rule) : String := let s := (repr r).pretty; (s.splitOn ".").getLast!
def pr : MExp Rule → String
  | .null => ".null"
  | .eof => ".eof"
  | .oneOf m => s!"(.oneOf {m})"
  | .call r => s!"(.call .{rn r})"
  | .not e => s!"(.not {pr e})"
  | .peek e => s!"(.peek {pr e})"
  | .alt a b => s!"(.alt {pr a} {pr b})"
  | .longest a b => s!"(.longest {pr a} {pr b})"
  | .seq a b => s!"(.seq {pr a} {pr b})"
  | .rep n e => s!"(.rep {n} {pr e})"
  | .andPeek e p => s!"(.andPeek {pr e} {pr p})"
  | .andNot e p => s!"(.andNot {pr e} {pr p})"
  | .guardNot p e => s!"(.guardNot {pr p} {pr e})"
def main : IO Unit := do
  IO.println "import Verif.Proof.Window\n\n/-!\n# The rules with bit masks for their sets of letters\n\nGenerated by `tools/gen_masks.lean.txt` from `Verif.Model.Rules`; `grammarM_ok` is the check.\n-/\n\nnamespace Sneturfahi\n\n/-- `grammar`, with bit masks. -/\ndef grammarM : Rule → MExp Rule"
  for r in Rule.all do
    IO.println s!"  | .{rn r} => {pr (maskE (grammar r))}"
  IO.println "\ntheorem grammarM_ok (r : Rule) : grammarM r = maskE (grammar r) := by\n  cases r <;> decide +kernel\n\nend Sneturfahi"

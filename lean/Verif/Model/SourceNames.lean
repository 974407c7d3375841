import Verif.Model.Derive
import Verif.Model.Source

/-!
# The declarations of `src/parse/cst/rules/*.rs`, read from their text
-/

namespace Sneturfahi.Source

open Rust Derive

/-- The items of the five files, in the order `mod.rs`, `helpers.rs`, `connectives.rs`, `mekso.rs`, `selmaho.rs`. -/
def allItems : Option (List RItem) :=
  match fileItems modRs, fileItems helpersRs, fileItems connectivesRs, fileItems meksoRs, fileItems selmahoRs with
  | some a, some b, some c, some d, some e => some (a ++ (b ++ (c ++ (d ++ e))))
  | _, _, _, _, _ => none

/-- The arguments of `token_types!`, `src/parse/cst/rules/selmaho.rs:249-372`. -/
def words : List (List Char × Option (List Char)) :=
  match lexParts selmahoRs with
  | some ts => tokenTypes ts
  | none => []

/-- The names of the declarations.  Those of `src/parse/cst/rules/*.rs`, see `allItems`. -/
def names : Names where
  items := allItems.getD []
  words := c!"Bu" :: words.map (·.1)

end Sneturfahi.Source

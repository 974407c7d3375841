import Verif.Model.Print

/-!
# The messages of errors

What `Display` writes of the errors of the lexer and of the parser, as derived by `thiserror` from the `#[error(..)]`
attributes.
-/

namespace Sneturfahi

/-- Derived `Display` of the errors of the lexer, `src/lex/mod.rs:31, 57, 102`. -/
def LexError.display : LexError → List Char
  | .delimitedQuoteMissingSeparator _ => c!"expected a separator after a delimited quote initiator but found the end of input"
  | .delimitedQuoteUnclosed _ _ => c!"a delimited quote is unclosed"
  | .pauseDelimitedQuoteEof _ => c!"expected the content of a pause-delimited quote but found the end of input"

/-- Derived `Display` of the errors of the parser, `src/parse/cst/error.rs:14, 22, 25, 33`.  The message of `ZoQuoteEof`
(line 30) is left out because that error is never constructed. -/
def CstError.display (s : Surroundings) : CstError → List Char
  | .expectedGot expected got =>
    c!"expected token with one of the selmaho " ++ debugList (expected.map Selmaho.ident) ++ c!", got " ++ debugGot got
  | .postConditionFailed => c!"post-condition failed: " ++ quoted s.plain s.reason
  | .nom k => c!"nom error: " ++ k.debug
  | .empty n => s.emptied n ++ c!" consumed no input but was expected to"

end Sneturfahi

import Verif.Spec.Syntax
import Verif.Model.Error

/-!
Specification of the diagnostics: what the user sees for an error in a line. Uses only the error codes and the number
formatting of the model.
-/
namespace Gaia.Spec
open Gaia

/-- Display column after printing a text from column 0, with tab stops every 8 columns. -/
def column (s : Str) : Nat := s.foldl (fun col c => if c = 9 then (col / 8 + 1) * 8 else col + 1) 0

/-- A line as it is echoed: without the blanks, tabs, newline and 0xFF at its end. -/
def trimEnd (l : Str) : Str := (l.reverse.dropWhile fun c => c == 32 || c == 9 || c == 10 || c == 255).reverse

/-- The text of an error in a source line. -/
def message : Err → Str
  | .illegalChar => b! "ERROR: illegal character\n"
  | .tooBigLiteral => b! "ERROR: value of literal exceeds 2 bytes\n"
  | .tooLongLabel => b! "ERROR: label exceeds 63 characters\n"
  | .illegalSequence => b! "ERROR: illegal syntax\n"
  | .illegalBase => b! "ERROR: illegal base\n"
  | .illegalDirective => b! "ERROR: illegal assembler directive\n"
  | .labelRedefinition => b! "ERROR: no redefinition of labels\n"
  | .illegalForwardReference => b! "ERROR: illegal forward reference\n"
  | .illegalAddressingMode => b! "ERROR: illegal addressing mode\n"
  | .tooBigOffset => b! "ERROR: branch offset too far away\n"
  | .missingLabelDefinition => b! "ERROR: label definition was not found\n"
  | _ => []

/-- The diagnostic for an error in line number `n`, with text `l`, of the file `fn`: file, line number, message, the
line itself, and an arrow below the character at offset `pos` if there is one. -/
def diag (l : Str) (e : Err) (pos : Option Nat) (fn : Str) (n : Nat) : Str :=
  fn ++ b! ":" ++ decimal n ++ b! ": " ++ message e ++ trimEnd l ++ b! "\n" ++
    match pos with
    | none => b! "\n"
    | some p => List.replicate (column (l.take p)) 32 ++ b! "^~~~~~\n\n"

end Gaia.Spec

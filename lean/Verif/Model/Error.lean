import Verif.Model.Base

/-! Model of src/error.c: `print_error`, byte-exact. -/
namespace Gaia

/-- `printf("%d")` / `printf("%i")` of a non-negative number. (error.c:37, main.c:280-281) -/
def decimal (n : Nat) : Str := (Nat.toDigits 10 n).map fun c => UInt8.ofNat c.toNat

/-- `printf("0x%04x")` without the `0x`: at least four lower-case hexadecimal digits. (main.c:280) -/
def hex04 (n : Nat) : Str :=
  let d := (Nat.toDigits 16 n).map fun c => UInt8.ofNat c.toNat
  List.replicate (4 - d.length) 48 ++ d

/-- error.c:39-91: the message of an error code; `none` is the `default: return;`. -/
def errorMessage (fileName : Str) : Err → Option Str
  | .memoryAllocationFail => some (b! "ERROR: could not allocate enough memory during assembly\n")
  | .illegalChar => some (b! "ERROR: illegal character\n")
  | .tooBigLiteral => some (b! "ERROR: value of literal exceeds 2 bytes\n")
  | .tooLongLabel => some (b! "ERROR: label exceeds 63 characters\n")
  | .tooManyTokens => some (b! "ERROR: illegal sequence\n")
  | .unknown => some (b! "ERROR: unknown error while assembling\n")
  | .illegalSequence => some (b! "ERROR: illegal syntax\n")
  | .labelRedefinition => some (b! "ERROR: no redefinition of labels\n")
  | .illegalForwardReference => some (b! "ERROR: illegal forward reference\n")
  | .illegalAddressingMode => some (b! "ERROR: illegal addressing mode\n")
  | .tooBigOffset => some (b! "ERROR: branch offset too far away\n")
  | .fileOpenFail => some (b! "ERROR: " ++ fileName ++ b! " could not be opened\n")
  | .binaryFileCreationFail => some (b! "ERROR: assembled binary file could not be created\n")
  | .missingLabelDefinition => some (b! "ERROR: label definition was not found\n")
  | .illegalDirective => some (b! "ERROR: illegal assembler directive\n")
  | .illegalBase => some (b! "ERROR: illegal base\n")
  | .symbolNotFound | .instructionNotFound | .bitfieldNotFound | .illegalMnemonic => none

/-- error.c:100: the characters skipped at the end of the source line (`EOF` is `(char)0xFF`). -/
def isTrailing (c : Byte) : Bool := c == 32 || c == 9 || c == 10 || c == 255

/-- error.c:99-101: `end = line + strlen(line) - 1; while (trailing(*end)) end--;` on the reversed line.
Running below the start of the line is an underrun. -/
def trimRev : Str → Option Str
  | [] => none
  | c :: r => if isTrailing c then trimRev r else some (c :: r)

/-- error.c:111-125: the loop from `line` to `bad_char`, counting `num_spaces` with `tab_align`.
`n` is the number of characters between `tmp` and `bad_char`. `none`: `bad_char` lies beyond the NUL, so the
loop reads past the line. -/
def arrowLoop : (n : Nat) → Str → (numSpaces tabAlign : Nat) → Option Nat
  | 0, _, numSpaces, _ => some numSpaces
  | _ + 1, [], _, _ => none
  | n + 1, c :: s, numSpaces, tabAlign =>
    let tabAlign := if tabAlign == 8 then 0 else tabAlign
    if c == 9 then arrowLoop n s (numSpaces + (8 - tabAlign)) 0
    else arrowLoop n s (numSpaces + 1) (tabAlign + 1)

/-- error.c:33-130 `print_error`. `line` is the source line (`none` is NULL), `bad` the offset of `bad_char` in
`line` (`none` is NULL). Returns the bytes printed. -/
def printError (line : Option Str) (e : Err) (bad : Option Nat) (fileName : Str) (lineNum : Nat) :
    Res Str :=
  let hdr : Str := match line with
    | some _ => fileName ++ b! ":" ++ decimal lineNum ++ b! ": "
    | none => []
  match errorMessage fileName e with
  | none => .ok hdr
  | some msg =>
    match line with
    | none => .ok (hdr ++ msg ++ b! "\n")
    | some l =>
      match trimRev l.reverse with
      | none => .ub .underrun
      | some r =>
        let body := hdr ++ msg ++ r.reverse ++ b! "\n"
        match bad with
        | none => .ok (body ++ b! "\n")
        | some n =>
          match arrowLoop n l 0 0 with
          | none => .ub .overread
          | some k => .ok (body ++ List.replicate k 32 ++ b! "^~~~~~\n\n")

/-- The pattern `print_error(line, code, bad, file, num); return code;` used throughout. (e.g. parser.c:320-325,
generator.c:118-121; error.c:33) -/
def raise {α} (line : Option Str) (e : Err) (bad : Option Nat) (fileName : Str) (lineNum : Nat) : Res α :=
  printError line e bad fileName lineNum >>= fun out => .err ⟨e, out⟩

end Gaia

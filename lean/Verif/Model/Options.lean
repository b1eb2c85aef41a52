import Verif.Model.CommandLine

/-!
Model of the table of options (main.c:25-28) and of how argp finds its end. The manual of argp asks for a last entry that is all zero; glibc's argp-parse.c
goes through the table with `for (opt = real; !__option_is_end (opt); opt++)`, where an entry is the end if `key`, `name`, `doc` and `group` are zero.
-/
namespace Gaia.Options
open Gaia

/-- argp.h `struct argp_option`; `none` is NULL. (used in main.c:25) -/
structure Entry where
  name : Option Str
  key : Nat
  arg : Option Str
  flags : Nat
  doc : Option Str
  group : Int
  deriving DecidableEq

/-- main.c:25-28, the table: one entry, and no entry that ends the table (the second line is a comment). -/
def options : List Entry :=
  [⟨some (b! "output"), 111, some (b! "FILE"), 0, some (b! "Place assembled binary into <FILE>"), 0⟩]

/-- argp-parse.c, argp.h `__option_is_end` (glibc; called from main.c:150) -/
def Entry.isEnd (e : Entry) : Bool := e.key == 0 && e.name.isNone && e.doc.isNone && e.group == 0

/-- The loop over the options (glibc; called from main.c:150): the entries before the end. The list is the array; reading behind it is undefined. -/
def scan : List Entry → Res (List Entry)
  | [] => .ub .outOfBounds
  | e :: es => if e.isEnd then .ok [] else do
    let rest ← scan es
    pure (e :: rest)

end Gaia.Options

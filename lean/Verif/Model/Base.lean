/-!
Basic types shared by the model of gaia.

* A byte / C `char` is a `UInt8` (the model cares about signedness only where the C code does: the
  `EOF` comparisons, where `char` 0xFF is -1, and `djb2_hash`).
* A C string is a `List UInt8` without its terminating NUL.
* `int` values are `Nat`/`Int` with explicit overflow checks where they can grow with the input.
-/
namespace Gaia

/-- A C `char` (lexer.h:41, main.c:178 and every other `char` of src/). -/
abbrev Byte := UInt8
/-- Contents of a NUL-terminated C string, without the NUL. (`char *`, e.g. lexer.h:41, symbol_table.h:14; that the
lists which stand for strings hold no NUL is proved where it matters.) -/
abbrev Str := List Byte

/-- `b! "ABC"` is the list of the ASCII codes of a string literal. -/
macro "b!" s:str : term => do
  let elems ← (s.getString.toUTF8.toList).toArray.mapM fun b =>
    `(($(Lean.quote b.toNat) : UInt8))
  `(([$elems,*] : List UInt8))

/-- error.h:11-41 -/
inductive Err
  | memoryAllocationFail | symbolNotFound | illegalChar | tooBigLiteral | instructionNotFound
  | bitfieldNotFound | tooLongLabel | tooManyTokens | unknown | illegalSequence
  | labelRedefinition | illegalForwardReference | illegalAddressingMode | illegalMnemonic
  | tooBigOffset | fileOpenFail | binaryFileCreationFail | missingLabelDefinition
  | illegalDirective | illegalBase
  deriving DecidableEq, Repr

/-- error.h:11-41, the numeric codes. -/
def Err.code : Err → Int
  | .memoryAllocationFail => -1
  | .symbolNotFound => -2
  | .illegalChar => -3
  | .tooBigLiteral => -4
  | .instructionNotFound => -5
  | .bitfieldNotFound => -6
  | .tooLongLabel => -7
  | .tooManyTokens => -8
  | .unknown => -9
  | .illegalSequence => -10
  | .labelRedefinition => -11
  | .illegalForwardReference => -12
  | .illegalAddressingMode => -13
  | .illegalMnemonic => -14
  | .tooBigOffset => -15
  | .fileOpenFail => -16
  | .binaryFileCreationFail => -17
  | .missingLabelDefinition => -18
  | .illegalDirective => -19
  | .illegalBase => -20

/-- The kinds of undefined behaviour the model distinguishes (not a construct of the C code; it marks the
places where the C code would leave defined behaviour). -/
inductive UB
  | outOfBounds        -- array slot outside the array
  | textOverflow       -- write past the 64 bytes of a token's text
  | overread           -- read past the NUL of the line buffer
  | underrun           -- backwards scan running below the start of a buffer
  | nullDeref          -- use of a NULL pointer
  | signedOverflow     -- `int` overflow
  | infiniteLoop       -- a loop that does not terminate
  | internal           -- a branch the code itself marks as impossible
  deriving DecidableEq, Repr

/-- Result of a C function: a value, an error return, or undefined behaviour. (Error codes are negative `int`s,
error.h:10-41; not a construct of the C code: the third case.) -/
inductive C (ε : Type) (α : Type)
  | ok (a : α)
  | err (e : ε)
  | ub (u : UB)
  deriving DecidableEq, Repr

namespace C
/-- Not a construct of src/: sequencing; an error return makes the caller return (`if (IS_ERROR(…)) return …;`, main.c:104). -/
@[inline] def bind {ε α β} (x : C ε α) (f : α → C ε β) : C ε β :=
  match x with
  | .ok a => f a
  | .err e => .err e
  | .ub u => .ub u

/-- Not a construct of src/: `do` notation for `C.bind`. (not a construct of the C code) -/
instance {ε} : Monad (C ε) where
  pure := .ok
  bind := C.bind

@[simp] theorem ok_bind {ε α β} (a : α) (f : α → C ε β) : (C.ok a >>= f) = f a := rfl
@[simp] theorem err_bind {ε α β} (e : ε) (f : α → C ε β) : (C.err e >>= f) = C.err e := rfl
@[simp] theorem ub_bind {ε α β} (u : UB) (f : α → C ε β) : (C.ub u >>= f) = C.ub u := rfl
@[simp] theorem pure_eq {ε α} (a : α) : (pure a : C ε α) = C.ok a := rfl

/-- The computation does not run into undefined behaviour. (not a construct of the C code) -/
def safe {ε α} : C ε α → Prop
  | .ub _ => False
  | _ => True

@[simp] theorem safe_ok {ε α} (a : α) : (C.ok a : C ε α).safe := trivial
@[simp] theorem safe_err {ε α} (e : ε) : (C.err e : C ε α).safe := trivial
@[simp] theorem not_safe_ub {ε α} (u : UB) : ¬ (C.ub u : C ε α).safe := id

theorem safe_bind {ε α β} {x : C ε α} {f : α → C ε β} (hx : x.safe)
    (hf : ∀ a, x = .ok a → (f a).safe) : (x >>= f).safe := by
  cases x with
  | ok a => exact hf a rfl
  | err e => trivial
  | ub u => exact hx.elim

theorem bind_eq_ok {ε α β} {x : C ε α} {f : α → C ε β} {b : β} :
    (x >>= f) = .ok b ↔ ∃ a, x = .ok a ∧ f a = .ok b := by
  cases x <;> simp
end C

/-- A failure of gaia: the error code and the text printed on stdout for it. (error.c:33-130 prints, the caller
returns the code) -/
structure Fail where
  code : Err
  out : Str
  deriving DecidableEq, Repr

/-- The result of a function that prints its own error messages: an `int`, or an error code. (error.h:10-41) -/
abbrev Res (α : Type) := C Fail α

/-- `INT_MAX` of a 32-bit `int`. (`int` in main.c:179-187, symbol_table.h:20-21, forward_reference.h:28-29) -/
def INT_MAX : Nat := 2147483647

/-- The character at a `char *` into a NUL-terminated buffer: the NUL at the end of the list. (lexer.c:630-688,
`*buffer`) -/
def rd (s : Str) : Byte := s.headD 0

/-- A raw buffer seen as a C string: everything before the first NUL. (main.c:188: what the functions given `buffer`
see of the bytes `fgets` stored) -/
def cstr (raw : List Byte) : Str := raw.takeWhile (· != 0)

/-! ctype.h in glibc's C locale (trusted: bytes ≥ 0x80 are in no class). -/

/-- `isdigit`-like test written out in lexer.c:346, 585 -/
def isDigit (c : Byte) : Bool := decide (48 ≤ c.toNat) && decide (c.toNat ≤ 57)
/-- ctype.h `isupper`, C locale (part of `isalpha`, lexer.c:436, 583) -/
def isUpper (c : Byte) : Bool := decide (65 ≤ c.toNat) && decide (c.toNat ≤ 90)
/-- ctype.h `islower`, C locale (part of `isalpha` and `toupper`, lexer.c:204, 436, 583) -/
def isLower (c : Byte) : Bool := decide (97 ≤ c.toNat) && decide (c.toNat ≤ 122)
/-- ctype.h `isalpha`, C locale (called in lexer.c:436, 583) -/
def isAlpha (c : Byte) : Bool := isUpper c || isLower c
/-- ctype.h `isalnum`, C locale (called in lexer.c:477) -/
def isAlnum (c : Byte) : Bool := isAlpha c || isDigit c
/-- ctype.h `toupper`, C locale (called in lexer.c:204) -/
def toUpper (c : Byte) : Byte := if isLower c then c - 32 else c

/-- `" "` or `"\t"`: the blanks skipped by lexer.c:642, 678 -/
def isBlank (c : Byte) : Bool := c == 32 || c == 9

end Gaia

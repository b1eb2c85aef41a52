import Verif.Model.Memory

/-!
Model of gaia's data structures as they lie in memory: objects, and pointers to them.

The other models pass structures by value. Here a `struct Token *` is the number of a block, tokens, symbols, references and their
texts are objects in a store, functions read and write them through pointers (several of which may point to the same object), and
using a pointer to a freed block, to a block of another kind, or outside of an array is undefined behaviour (`badAccess`). Requests
for memory may be refused as in `Model/Memory.lean`, whose allocator is used here. Memory that `malloc` or `realloc` hands out holds
anything: the cells of a fresh array of pointers hold whatever `Store.cells` says.

Simplifications: sizes are counted in elements (characters, pointers), not bytes; a struct obtained from `malloc` is filled in by
one assignment (all fields but `line_num` of the lexer are assigned before the pointer to it leaves the function); string functions (`strlen`, `strcmp`, `djb2_hash`,
`str_to_mnemonic`, `print_error` and the character loops of the lexer) first look for the NUL of their arguments (undefined behaviour if there
is none in the array) and then work on the text before it, with the functions of the models by value.
-/
namespace Gaia.Low
open Gaia
open Gaia.Memory (Mem Result Misuse Heap Oracle lift getS modifyS outOfMemory)

/-- Where a `char *` points into: a block of the heap, main's `buffer` (main.c:178), or the name of the source (an argument of `main`,
main.c:150, 154). -/
inductive Base
  | heap (n : Nat)
  | buffer
  | name
  deriving DecidableEq, Repr

/-- A `char *` (lexer.h:43-44, 52, 54, forward_reference.h:23). -/
structure Loc where
  base : Base
  off : Nat
  deriving DecidableEq, Repr

/-- `p + n` for a `char *` (lexer.c:663, not a construct of its own) -/
def Loc.plus (l : Loc) (n : Nat) : Loc := { l with off := l.off + n }

/-- lexer.h:39-45 `struct Token`. `str` is the block with the text. -/
structure TokenO where
  type : TokenType
  str : Nat
  value : Nat
  errorChar : Option Loc
  bufferLocation : Option Loc
  deriving DecidableEq, Repr

/-- lexer.h:47-55 `struct Lexer`. `lineNum = none`: uninitialised (lexer.c:76-91) or -1 (lexer.c:117). -/
structure LexerO where
  sequence : Nat
  curr : Nat
  errorTk : Option Nat
  line : Option Loc
  lineNum : Option Nat
  fileName : Loc
  deriving DecidableEq, Repr

/-- symbol_table.h:13-17 `struct Symbol` -/
structure SymbolO where
  label : Nat
  value : Int
  deriving DecidableEq, Repr

/-- symbol_table.h:19-23 `struct SymbolTable` -/
structure TableO where
  symbols : Nat
  size : Nat
  count : Nat
  deriving DecidableEq, Repr

/-- forward_reference.h:16-25 `struct ForwardRef` -/
structure RefO where
  label : Nat
  sourceLine : Nat
  instr : Nat
  pc : Nat
  lineNum : Nat
  status : OpStatus
  operandLocation : Loc
  deriving DecidableEq, Repr

/-- forward_reference.h:27-31 `struct Unresolved` (`refs` may become NULL, forward_reference.c:169) -/
structure UnresO where
  refs : Option Nat
  curr : Nat
  size : Nat
  deriving DecidableEq, Repr

/-- What a block holds: the structs of src/*.h, character arrays and arrays of pointers (`none` is NULL). `raw`: not yet initialised.
(lexer.h:39-55, opcode.h, symbol_table.h:13-23, forward_reference.h:16-31) -/
inductive Obj
  | raw
  | chars (data : List Byte)
  | ptrs (cells : List (Option Nat))
  | token (t : TokenO)
  | lexer (x : LexerO)
  | instr (i : Instr)
  | symbol (y : SymbolO)
  | table (t : TableO)
  | ref (r : RefO)
  | unres (u : UnresO)
  deriving DecidableEq, Repr

/-- The memory: the allocator's books, the objects in the blocks, the two arrays that are not on the heap (main.c:178, 150), and what
cells contain that were not initialised. -/
structure Store where
  heap : Heap
  mem : Nat → Option Obj
  buffer : List Byte
  name : List Byte
  cells : Nat → Option Nat

/-- `n` cells of memory that was not initialised (`malloc`, lexer.c:56; the new part of `realloc`, forward_reference.c:169). -/
def Store.fresh (s : Store) (n : Nat) : List (Option Nat) := (List.range n).map s.cells

/-- Computations on the memory (not a construct of the code). -/
abbrev M (α : Type) := Mem Store α

/-- Undefined behaviour (not a construct of the code). -/
def bad {σ α : Type} (u : Misuse) : Mem σ α := fun _ s => (.ub u, s)

/-- A step of the allocator (not a construct of the code). -/
def onHeap {α : Type} (x : Mem Heap α) : M α := fun o s => ((x o s.heap).1, { s with heap := (x o s.heap).2 })

/-- `malloc` or `calloc` (called in lexer.c:33 and at the places listed at `Memory.malloc`): a new block that holds `x`. -/
def alloc (x : Obj) : M (Option Nat) := do
  match ← onHeap Memory.malloc with
  | none => pure none
  | some p => do
    modifyS fun s => { s with mem := fun n => if n = p then some x else s.mem n }
    pure (some p)

/-- `free` (called in lexer.c:126-153 and at the places listed at `Memory.free`): the object is gone. -/
def free (p : Nat) : M Unit := do
  onHeap (Memory.free p)
  modifyS fun s => { s with mem := fun n => if n = p then none else s.mem n }

/-- Read the object `p` points to (`*p`; not a construct of its own in the code). -/
def load (p : Nat) : M Obj := fun _ s =>
  match s.mem p with
  | none => (.ub .badAccess, s)
  | some x => (.ok x, s)

/-- Write the object `p` points to (`*p = …`; not a construct of its own in the code). -/
def store (p : Nat) (x : Obj) : M Unit := fun _ s =>
  match s.mem p with
  | none => (.ub .badAccess, s)
  | some _ => (.ok (), { s with mem := fun n => if n = p then some x else s.mem n })

/-- Read a `struct Token` (lexer.h:39). -/
def loadToken (p : Nat) : M TokenO := do
  match ← load p with
  | .token t => pure t
  | _ => bad .badAccess

/-- Read a `struct Lexer` (lexer.h:47). -/
def loadLexer (p : Nat) : M LexerO := do
  match ← load p with
  | .lexer x => pure x
  | _ => bad .badAccess

/-- Read a `struct Instruction` (opcode.h:25). -/
def loadInstr (p : Nat) : M Instr := do
  match ← load p with
  | .instr i => pure i
  | _ => bad .badAccess

/-- Read a `struct Symbol` (symbol_table.h:13). -/
def loadSymbol (p : Nat) : M SymbolO := do
  match ← load p with
  | .symbol y => pure y
  | _ => bad .badAccess

/-- Read a `struct SymbolTable` (symbol_table.h:19). -/
def loadTable (p : Nat) : M TableO := do
  match ← load p with
  | .table t => pure t
  | _ => bad .badAccess

/-- Read a `struct ForwardRef` (forward_reference.h:16). -/
def loadRef (p : Nat) : M RefO := do
  match ← load p with
  | .ref r => pure r
  | _ => bad .badAccess

/-- Read a `struct Unresolved` (forward_reference.h:27). -/
def loadUnres (p : Nat) : M UnresO := do
  match ← load p with
  | .unres u => pure u
  | _ => bad .badAccess

/-- `a[i]` for an array of pointers (lexer.c:114, symbol_table.c:60, forward_reference.c:74 and others). -/
def getCell (a i : Nat) : M (Option Nat) := do
  match ← load a with
  | .ptrs cells =>
    match cells[i]? with
    | some c => pure c
    | none => bad .badAccess
  | _ => bad .badAccess

/-- `a[i] = p` for an array of pointers (lexer.c:62, symbol_table.c:120, 188, forward_reference.c:197). -/
def setCell (a i : Nat) (p : Option Nat) : M Unit := do
  match ← load a with
  | .ptrs cells => if i < cells.length then store a (.ptrs (cells.set i p)) else bad .badAccess
  | _ => bad .badAccess

/-- The array a `char *` points into (not a construct of the code). -/
def charsOf (b : Base) : M (List Byte) := do
  match b with
  | .buffer => do let s ← getS; pure s.buffer
  | .name => do let s ← getS; pure s.name
  | .heap n =>
    match ← load n with
    | .chars data => pure data
    | _ => bad .badAccess

/-- The text at `l`, up to its NUL (`strlen` and the loops that end at the NUL: lexer.c:355, symbol_table.c:81, error.c:99 and others). -/
def readStr (l : Loc) : M Str := do
  let data ← charsOf l.base
  if (0 : Byte) ∈ data.drop l.off then pure (cstr (data.drop l.off)) else bad .badAccess

/-- `n` characters at `l` (the source of a `memcpy`: forward_reference.c:124, or lexer.c:202-205). -/
def readBytes (l : Loc) (n : Nat) : M (List Byte) := do
  let data ← charsOf l.base
  if l.off + n ≤ data.length then pure ((data.drop l.off).take n) else bad .badAccess

/-- Write `bs` at the beginning of the character array `p` (the target of a `memcpy`: lexer.c:177, symbol_table.c:149,
forward_reference.c:124, 131; or the loops lexer.c:99-100, 202-206). -/
def writeChars (p : Nat) (bs : List Byte) : M Unit := do
  match ← load p with
  | .chars data => if bs.length ≤ data.length then store p (.chars (bs ++ data.drop bs.length)) else bad .badAccess
  | _ => bad .badAccess

/-! ### error.c -/

/-- error.c:33-130 `print_error`: what it prints. `bad_char` must point into the array of `line` (line 113: `tmp != bad_char`). -/
def printError (line : Option Loc) (e : Err) (badChar : Option Loc) (fileName : Loc) (lineNum : Option Nat) : M Str := do
  let name ← readStr fileName
  match line with
  | none => lift (Gaia.printError none e none name 0)
  | some l => do
    let text ← readStr l
    match lineNum with
    | none => bad .badAccess
    | some n =>
      match badChar with
      | none => lift (Gaia.printError (some text) e none name n)
      | some b =>
        if b.base = l.base ∧ l.off ≤ b.off then lift (Gaia.printError (some text) e (some (b.off - l.off)) name n)
        else bad .badAccess

/-- `print_error(line, …); return code;` (see `Gaia.raise`; e.g. parser.c:320-325). -/
def raise {α : Type} (line : Option Loc) (e : Err) (badChar : Option Loc) (fileName : Loc) (lineNum : Option Nat) : M α := do
  let text ← printError line e badChar fileName lineNum
  lift (.err ⟨e, text⟩)

/-- `print_error(lexer->line, code, bad, lexer->file_name, lexer->line_num); return code;` (e.g. parser.c:77-80) -/
def raiseLine {α : Type} (lx : Nat) (e : Err) (badChar : Option Loc) : M α := do
  let x ← loadLexer lx
  raise x.line e badChar x.fileName x.lineNum

/-! ### Tokens, lexer, instruction: lexer.c, opcode.c -/

/-- lexer.c:31-45 `init_token` -/
def initToken : M (Option Nat) := do
  let some tk ← alloc .raw | pure none
  let some str ← alloc (.chars (List.replicate MAX_TOKEN_STR_LEN 0)) | pure none
  store tk (.token { type := .null, str := str, value := 0, errorChar := none, bufferLocation := none })
  pure (some tk)

/-- lexer.c:61-65: the loop of `init_sequence` from index `i` on; false if a token could not be made. -/
def initTokens (seq : Nat) : (n i : Nat) → M Bool
  | 0, _ => pure true
  | n + 1, i => do
    let t ← initToken
    setCell seq i t
    if t.isNone then pure false else initTokens seq n (i + 1)

/-- lexer.c:54-67 `init_sequence` -/
def initSequence : M (Option Nat) := do
  let m ← getS
  let some seq ← alloc (.ptrs (m.fresh MAX_TOKENS)) | pure none
  if ← initTokens seq MAX_TOKENS 0 then pure (some seq) else pure none

/-- lexer.c:76-91 `init_lexer`, with the source's name as argument -/
def initLexer : M (Option Nat) := do
  let some lx ← alloc .raw | pure none
  let some seq ← initSequence | pure none
  store lx (.lexer { sequence := seq, curr := 0, errorTk := none, line := none, lineNum := none, fileName := ⟨.name, 0⟩ })
  pure (some lx)

/-- opcode.c:23-34 `init_instruction` -/
def initInstruction : M (Option Nat) := alloc (.instr Gaia.initInstruction)

/-- `lexer->sequence[i]` (lexer.c:114 and throughout parser.c). -/
def seqPtr (lx i : Nat) : M Nat := do
  let x ← loadLexer lx
  match ← getCell x.sequence i with
  | some p => pure p
  | none => bad .badAccess

/-- `*lexer->sequence[i]` (parser.c:76 and throughout) -/
def seqTok (lx i : Nat) : M TokenO := do
  let p ← seqPtr lx i
  loadToken p

/-- lexer.c:93-101 `reset_token` -/
def resetToken (tk : Nat) : M Unit := do
  let t ← loadToken tk
  store tk (.token { t with type := .null, value := 0, errorChar := none, bufferLocation := none })
  writeChars t.str (List.replicate MAX_TOKEN_STR_LEN 0)

/-- lexer.c:111-113: the loop of `reset_lexer`. -/
def resetTokens (lx : Nat) : (n i : Nat) → M Unit
  | 0, _ => pure ()
  | n + 1, i => do
    let p ← seqPtr lx i
    resetToken p
    resetTokens lx n (i + 1)

/-- lexer.c:109-118 `reset_lexer` -/
def resetLexer (lx : Nat) : M Unit := do
  resetTokens lx MAX_TOKENS 0
  let x ← loadLexer lx
  store lx (.lexer { x with curr := 0, errorTk := none, line := none, lineNum := none })

/-- opcode.c:42-51 `reset_instruction` -/
def resetInstruction (p : Nat) : M Unit := do
  let i ← loadInstr p
  store p (.instr (Gaia.resetInstruction i))

/-- lexer.c:126-133 `destroy_token` -/
def destroyToken (tk : Nat) : M Unit := do
  let t ← loadToken tk
  free t.str
  free tk

/-- lexer.c:147-150: the loop of `destroy_lexer`. -/
def destroyTokens (lx : Nat) : (n i : Nat) → M Unit
  | 0, _ => pure ()
  | n + 1, i => do
    let p ← seqPtr lx i
    destroyToken p
    destroyTokens lx n (i + 1)

/-- lexer.c:141-153 `destroy_lexer` -/
def destroyLexer (lx : Nat) : M Unit := do
  destroyTokens lx MAX_TOKENS 0
  let x ← loadLexer lx
  free x.sequence
  free lx

/-- opcode.c:58-62 `destroy_instruction` -/
def destroyInstruction (p : Nat) : M Unit := free p

/-- lexer.c:170-180 `token_strcpy` -/
def tokenStrcpy (tk : Nat) (str : Loc) : M Unit := do
  let s ← readStr str
  if s = [] then pure ()
  else do
    let t ← loadToken tk
    writeChars t.str (s ++ [0])

/-- lexer.c:200-208 `token_strncpy` -/
def tokenStrncpy (tk : Nat) (buffer : Loc) (length : Nat) : M Unit := do
  let bytes ← readBytes buffer length
  let t ← loadToken tk
  writeChars t.str (bytes.map toUpper ++ [0])

/-- lexer.c:556-580: `token_strncpy(tk, "#", 1)` and the like: the text is a string literal of one character. -/
def tokenPunct (tk : Nat) (c : Byte) : M Unit := do
  let t ← loadToken tk
  writeChars t.str [toUpper c, 0]

/-- lexer.c:220-241 `add_token`; ERROR_TOO_MANY_TOKENS makes `lex_line` return without a message (lexer.c:657-661). As in
`Gaia.addToken`, the branch for a slot that is not a null token is undefined behaviour here. -/
def addToken (lx tk : Nat) : M Unit := do
  let x ← loadLexer lx
  if x.curr = MAX_TOKENS then lift (.err ⟨.tooManyTokens, []⟩)
  else do
    let p ← seqPtr lx x.curr
    let new ← loadToken p
    if new.type = .null then do
      let t ← loadToken tk
      store p (.token { new with type := t.type })
      tokenStrcpy p ⟨.heap t.str, 0⟩
      let new ← loadToken p
      let t ← loadToken tk
      store p (.token { new with value := t.value, bufferLocation := t.bufferLocation })
      store lx (.lexer { x with curr := x.curr + 1 })
    else bad (.other .internal)

/-- `tk->error_char = p; return code;` (e.g. lexer.c:349-350) -/
def failAt (tk : Nat) (p : Loc) (e : Err) : M (Except Err Nat) := do
  let t ← loadToken tk
  store tk (.token { t with errorChar := some p })
  pure (.error e)

/-- lexer.c:354-391: the rest of `lex_literal`; `s` is the text of the digits. -/
def lexLiteralBody (conv : Byte → Option Nat) (base : Nat) (l : Loc) (s : Str) (numChars : Nat) (tk : Nat) : M (Except Err Nat) :=
  match digitLoop conv base s 0 numChars with
  | .bad n => failAt tk (l.plus n) .illegalChar
  | .done total n =>
    if n = 0 then failAt tk (l.plus n) .illegalChar
    else if n = 1 ∧ (base = 2 ∨ base = 16) then failAt tk (l.plus n) .illegalChar
    else if total > 0xFFFF then failAt tk l .tooBigLiteral
    else do
      let t ← loadToken tk
      store tk (.token { t with type := .literal, value := total })
      pure (.ok n)

/-- lexer.c:325-392 `lex_literal` -/
def lexLiteral (l : Loc) (tk : Nat) : M (Except Err Nat) := do
  let s ← readStr l
  let c := rd s
  if c = 36 then lexLiteralBody hexDigitToInt 16 l s.tail 1 tk
  else if c = 37 then lexLiteralBody binDigitToInt 2 l s.tail 1 tk
  else if isDigit c then lexLiteralBody decDigitToInt 10 l s 0 tk
  else failAt tk l .illegalChar

/-- lexer.c:406-416 `lex_instruction`; false is ERROR_INSTRUCTION_NOT_FOUND. -/
def lexInstruction (tk ins : Nat) : M Bool := do
  let t ← loadToken tk
  let s ← readStr ⟨.heap t.str, 0⟩
  match strToMnemonic s with
  | some m => do
    store tk (.token { t with type := .instruction })
    let i ← loadInstr ins
    store ins (.instr { i with mnemonic := some m, addrBitfield := getAddrBitfield m })
    pure true
  | none => pure false

/-- `tk->type = t` (e.g. lexer.c:452, 524) -/
def setType (tk : Nat) (type : TokenType) : M Unit := do
  let t ← loadToken tk
  store tk (.token { t with type := type })

/-- lexer.c:427-463 `lex_directive` -/
def lexDirective (l : Loc) (tk : Nat) : M (Except Err Nat) := do
  let s ← readStr l
  match scanLoop isEndOfToken isAlpha (MAX_TOKEN_STR_LEN - 1) 1 s.tail with
  | .bad i => failAt tk (l.plus i) .illegalChar
  | .done n =>
    if n = MAX_TOKEN_STR_LEN then failAt tk l .illegalDirective
    else do
      tokenStrncpy tk l n
      let t ← loadToken tk
      let text ← readStr ⟨.heap t.str, 0⟩
      match directiveType text with
      | some ty => do
        setType tk ty
        pure (.ok n)
      | none => failAt tk l .illegalDirective

/-- lexer.c:495-539 `lex_text` -/
def lexText (l : Loc) (tk ins : Nat) : M (Except Err Nat) := do
  let s ← readStr l
  match scanLoop isTextStop isValidTokenChar MAX_TOKEN_STR_LEN 0 s with
  | .bad i => failAt tk (l.plus i) .illegalChar
  | .done n =>
    if n = MAX_TOKEN_STR_LEN then failAt tk l .tooLongLabel
    else do
      tokenStrncpy tk l n
      let t ← loadToken tk
      let text ← readStr ⟨.heap t.str, 0⟩
      if text = b! "X" then do
        setType tk .xRegister
        pure (.ok n)
      else if text = b! "Y" then do
        setType tk .yRegister
        pure (.ok n)
      else if text = b! "A" then do
        setType tk .accumulator
        pure (.ok n)
      else if ← lexInstruction tk ins then pure (.ok n)
      else do
        setType tk .label
        pure (.ok n)

/-- lexer.c:552-591 `lex` -/
def lex (l : Loc) (tk ins : Nat) : M (Except Err Nat) := do
  let s ← readStr l
  let c := rd s
  let t ← loadToken tk
  store tk (.token { t with bufferLocation := some l })
  match punctType c with
  | some ty => do
    setType tk ty
    tokenPunct tk c
    pure (.ok 1)
  | none =>
    if isAlpha c then lexText l tk ins
    else if c = 36 ∨ c = 37 ∨ isDigit c then lexLiteral l tk
    else if c = 46 then lexDirective l tk
    else failAt tk l .illegalChar

/-- lexer.c:642, 678: `while (*curr == ' ' || *curr == '\t') curr++;` -/
def skipBlanks (l : Loc) : M Loc := do
  let s ← readStr l
  pure { l with off := (Gaia.skipBlanks l.off s).1 }

/-- `*p` for a `char *` into a string (lexer.c:647, 666). -/
def readChar (l : Loc) : M Byte := do
  let s ← readStr l
  pure (rd s)

/-- lexer.c:647-680: the token loop of `lex_line`; `buffer` is the start of the line, `curr` the place reached. `fuel` as in `Gaia.lexLoop`. -/
def lexLoop (buffer : Loc) (lx tk ins : Nat) : (fuel : Nat) → (curr : Loc) → M Unit
  | 0, _ => bad (.other .infiniteLoop)
  | fuel + 1, curr => do
    let c ← readChar curr
    if endLineLexing c then pure ()
    else
      match ← lex curr tk ins with
      | .error e => do
        let t ← loadToken tk
        let x ← loadLexer lx
        raise (some buffer) e t.errorChar x.fileName x.lineNum
      | .ok n => do
        addToken lx tk
        let curr := curr.plus n
        let c ← readChar curr
        if c = 58 then do
          let t ← loadToken tk
          let x ← loadLexer lx
          if t.type = .label ∧ x.curr = 1 then do
            let curr ← skipBlanks (curr.plus 1)
            lexLoop buffer lx tk ins fuel curr
          else do
            store tk (.token { t with errorChar := some curr })
            raise (some buffer) .illegalChar (some curr) x.fileName x.lineNum
        else do
          let curr ← skipBlanks curr
          lexLoop buffer lx tk ins fuel curr

/-- lexer.c:683-687: fill the rest of the sequence with null tokens, from index `i` on. -/
def fillNull (lx : Nat) : (n i : Nat) → M Unit
  | 0, _ => pure ()
  | n + 1, i => do
    let p ← seqPtr lx i
    setType p .null
    fillNull lx n (i + 1)

/-- lexer.c:630-689 `lex_line` -/
def lexLine (buffer : Loc) (lx tk ins lineNum : Nat) : M Unit := do
  resetLexer lx
  resetInstruction ins
  resetToken tk
  let x ← loadLexer lx
  store lx (.lexer { x with line := some buffer, lineNum := some lineNum })
  let curr ← skipBlanks buffer
  let s ← readStr curr
  lexLoop buffer lx tk ins (s.length + 1) curr
  let x ← loadLexer lx
  fillNull lx (MAX_TOKENS - x.curr) x.curr

/-! ### symbol_table.c -/

/-- symbol_table.c:31-44 `init_symbol_table` -/
def initSymbolTable : M (Option Nat) := do
  let some tab ← alloc .raw | pure none
  let some arr ← alloc (.ptrs (List.replicate SYM_BASE_SIZE none)) | pure none
  store tab (.table { symbols := arr, size := SYM_BASE_SIZE, count := 0 })
  pure (some tab)

/-- symbol_table.c:59-66: the loop of `destroy_symbol_table`. -/
def destroySymbols (tab : Nat) : (n i : Nat) → M Unit
  | 0, _ => pure ()
  | n + 1, i => do
    let t ← loadTable tab
    match ← getCell t.symbols i with
    | none => destroySymbols tab n (i + 1)
    | some p => do
      let y ← loadSymbol p
      free y.label
      free p
      destroySymbols tab n (i + 1)

/-- symbol_table.c:51-69 `destroy_symbol_table` -/
def destroySymbolTable (tab : Nat) : M Unit := do
  let t ← loadTable tab
  destroySymbols tab t.size 0
  let t ← loadTable tab
  free t.symbols
  free tab

/-- symbol_table.c:114-119, 182-187: linear probing for an open slot in the array `arr` of `size` cells. `fuel` as in
`Gaia.probeFree`. -/
def probeFree (arr size : Nat) : (fuel h : Nat) → M Nat
  | 0, _ => bad (.other .infiniteLoop)
  | fuel + 1, h => do
    match ← getCell arr h with
    | none => pure h
    | some _ => probeFree arr size fuel ((h + 1) % size)

/-- symbol_table.c:109-122: the transfer loop of `resize_symbols` from index `i` on. -/
def rehash (tab new newSize : Nat) : (n i : Nat) → M Unit
  | 0, _ => pure ()
  | n + 1, i => do
    let t ← loadTable tab
    match ← getCell t.symbols i with
    | none => rehash tab new newSize n (i + 1)
    | some p => do
      let y ← loadSymbol p
      let s ← readStr ⟨.heap y.label, 0⟩
      let h ← probeFree new newSize newSize (djb2 s % newSize)
      setCell new h (some p)
      rehash tab new newSize n (i + 1)

/-- symbol_table.c:96-127 `resize_symbols` -/
def resizeSymbols (tab : Nat) : M Unit := do
  let t ← loadTable tab
  let newSize ← lift (if t.size * 2 > INT_MAX then .ub .signedOverflow else nextPrime (t.size * 2))
  let some new ← alloc (.ptrs (List.replicate newSize none)) | outOfMemory
  rehash tab new newSize t.size 0
  let t ← loadTable tab
  free t.symbols
  store tab (.table { t with symbols := new, size := newSize })

/-- symbol_table.c:139-152 `init_symbol` -/
def initSymbol (label : Loc) (value : Int) : M (Option Nat) := do
  let some p ← alloc .raw | pure none
  let s ← readStr label
  let some str ← alloc (.chars (List.replicate (s.length + 1) 0)) | pure none
  let s ← readStr label
  writeChars str s
  store p (.symbol { label := str, value := value })
  pure (some p)

/-- symbol_table.c:165-191 `insert_symbol` -/
def insertSymbol (tab : Nat) (label : Loc) (value : Int) : M Unit := do
  let t ← loadTable tab
  lift (if (t.count + 1) * 100 > INT_MAX then .ub .signedOverflow else .ok ())
  if (t.count + 1) * 100 / t.size > 50 then resizeSymbols tab else pure ()
  let some p ← initSymbol label value | outOfMemory
  let s ← readStr label
  let t ← loadTable tab
  let h ← probeFree t.symbols t.size t.size (djb2 s % t.size)
  setCell t.symbols h (some p)
  store tab (.table { t with count := t.count + 1 })

/-- symbol_table.c:205-210: probing for a label. `fuel` as in `Gaia.probeLabel`. -/
def probeLabel (arr size : Nat) (label : Loc) : (fuel h : Nat) → M Int
  | 0, _ => bad (.other .infiniteLoop)
  | fuel + 1, h => do
    match ← getCell arr h with
    | none => pure Err.symbolNotFound.code
    | some p => do
      let y ← loadSymbol p
      let s ← readStr label
      let s' ← readStr ⟨.heap y.label, 0⟩
      if s = s' then pure y.value else probeLabel arr size label fuel ((h + 1) % size)

/-- symbol_table.c:201-213 `search_symbol` -/
def searchSymbol (tab : Nat) (label : Loc) : M Int := do
  let s ← readStr label
  let t ← loadTable tab
  probeLabel t.symbols t.size label t.size (djb2 s % t.size)

/-! ### parser.c -/

/-- The common tail of the syntax functions (parser.c:76-80, 139-143, 178-182, 223-227, 255-259, 285-289). -/
def syntaxError {α : Type} (lx i : Nat) (e : Err) : M α := do
  let p ← seqPtr lx i
  let x ← loadLexer lx
  store lx (.lexer { x with errorTk := some p })
  let t ← loadToken p
  raiseLine lx e t.bufferLocation

/-- parser.c:40-81 `parse_indirect_operand_tree` -/
def parseIndirectOperandTree (lx index : Nat) : M Unit := do
  let i := index + 1
  let t ← seqTok lx i
  if t.type = .comma then
    let i := i + 1
    let t ← seqTok lx i
    if t.type = .xRegister then
      let i := i + 1
      let t ← seqTok lx i
      if t.type = .closeParenthesis then
        let i := i + 1
        let t ← seqTok lx i
        if t.type = .null then pure () else syntaxError lx i .illegalSequence
      else syntaxError lx i .illegalSequence
    else syntaxError lx i .illegalSequence
  else if t.type = .closeParenthesis then
    let i := i + 1
    let t ← seqTok lx i
    if t.type = .comma then
      let i := i + 1
      let t ← seqTok lx i
      if t.type = .yRegister then
        let i := i + 1
        let t ← seqTok lx i
        if t.type = .null then pure () else syntaxError lx i .illegalSequence
      else syntaxError lx i .illegalSequence
    else if t.type = .null then pure ()
    else syntaxError lx i .illegalSequence
  else syntaxError lx i .illegalSequence

/-- parser.c:91-144 `parse_instr_tree` -/
def parseInstrTree (lx index : Nat) : M Unit := do
  let i := index + 1
  let t ← seqTok lx i
  if t.type = .openParenthesis then
    let i := i + 1
    let t ← seqTok lx i
    if isOperandType t.type then parseIndirectOperandTree lx i
    else syntaxError lx i .illegalSequence
  else if isOperandType t.type then
    let i := i + 1
    let t ← seqTok lx i
    if t.type = .null then pure ()
    else if t.type = .comma then
      let i := i + 1
      let t ← seqTok lx i
      if t.type = .xRegister ∨ t.type = .yRegister then pure ()
      else syntaxError lx i .illegalSequence
    else syntaxError lx i .illegalSequence
  else if t.type = .immediate then
    let i := i + 1
    let t ← seqTok lx i
    if isOperandType t.type then
      let i := i + 1
      let t ← seqTok lx i
      if t.type = .null then pure () else syntaxError lx i .illegalSequence
    else syntaxError lx i .illegalSequence
  else if t.type = .accumulator then
    let i := i + 1
    let t ← seqTok lx i
    if t.type = .null then pure () else syntaxError lx i .illegalSequence
  else if t.type = .null then pure ()
  else syntaxError lx i .illegalSequence

/-- parser.c:154-183 `parse_label_tree` -/
def parseLabelTree (lx index : Nat) : M Unit := do
  let i := index + 1
  let t ← seqTok lx i
  if t.type = .equalSign ∨ t.type = .equDirective then
    let i := i + 1
    let t ← seqTok lx i
    if t.type = .literal then
      let i := i + 1
      let t ← seqTok lx i
      if t.type = .null then pure () else syntaxError lx i .illegalSequence
    else syntaxError lx i .illegalSequence
  else if t.type = .instruction then parseInstrTree lx i
  else if t.type = .null then pure ()
  else syntaxError lx i .illegalSequence

/-- `p->value = v` for a token (parser.c:213, 249, 325, 340, 354, 386, generator.c:123, 126) -/
def setTokValue (p : Nat) (v : Nat) : M Unit := do
  let t ← loadToken p
  store p (.token { t with value := v })

/-- `seq[i]->value = seq[j]->value` (parser.c:213, 249) -/
def copyValue (lx i j : Nat) : M Unit := do
  let t ← seqTok lx j
  let p ← seqPtr lx i
  setTokValue p t.value

/-- parser.c:193-228 `parse_directive_tree` -/
def parseDirectiveTree (lx index : Nat) : M Unit := do
  let t ← seqTok lx index
  if t.type = .defineDirective then
    let i := index + 1
    let t ← seqTok lx i
    if t.type = .label then
      let i := i + 1
      let t ← seqTok lx i
      if t.type = .literal then
        let i := i + 1
        let t ← seqTok lx i
        if t.type = .null then pure () else syntaxError lx i .illegalSequence
      else syntaxError lx i .illegalSequence
    else syntaxError lx i .illegalSequence
  else if t.type = .orgDirective then
    let i := index + 1
    let lit ← seqTok lx i
    if lit.type = .literal then
      let i := i + 1
      let t ← seqTok lx i
      if t.type = .null then copyValue lx (i - 2) (i - 1) else syntaxError lx i .illegalSequence
    else syntaxError lx i .illegalSequence
  else if t.type = .endDirective then
    let i := index + 1
    let t ← seqTok lx i
    if t.type = .null then pure () else syntaxError lx i .illegalSequence
  else syntaxError lx index .illegalSequence

/-- parser.c:238-260 `parse_base_tree` -/
def parseBaseTree (lx index : Nat) : M Unit := do
  let i := index + 1
  let t ← seqTok lx i
  if t.type = .equalSign then
    let i := i + 1
    let lit ← seqTok lx i
    if lit.type = .literal then
      let i := i + 1
      let t ← seqTok lx i
      if t.type = .null then copyValue lx (i - 3) (i - 1) else syntaxError lx i .illegalBase
    else syntaxError lx i .illegalBase
  else syntaxError lx i .illegalBase

/-- parser.c:269-290 `parse_line` -/
def parseLine (lx : Nat) : M Unit := do
  let t ← seqTok lx 0
  if t.type = .instruction then parseInstrTree lx 0
  else if t.type = .label then parseLabelTree lx 0
  else if isDirectiveType t.type then parseDirectiveTree lx 0
  else if t.type = .base then parseBaseTree lx 0
  else if t.type = .null then pure ()
  else syntaxError lx 0 .illegalSequence

/-- parser.c:319-323, 332-336, 348-352: a redefinition of the label in token `p`. -/
def redefinition (lx p : Nat) : M Unit := do
  let x ← loadLexer lx
  store lx (.lexer { x with errorTk := some p })
  let t ← loadToken p
  raiseLine lx .labelRedefinition t.bufferLocation

/-- parser.c:325-326, 340-341, 354-356: `p->value = v; return insert_symbol(symtab, p->str, p->value);` -/
def define (tab p v : Nat) : M Unit := do
  setTokValue p v
  let t ← loadToken p
  insertSymbol tab ⟨.heap t.str, 0⟩ (toInt32 t.value)

/-- parser.c:306-363 `parse_label_declaration` -/
def parseLabelDeclaration (lx tab pc : Nat) : M Unit := do
  let label ← seqPtr lx 0
  let defineLabel ← seqPtr lx 1
  let t0 ← loadToken label
  let found ← searchSymbol tab ⟨.heap t0.str, 0⟩
  let t1 ← loadToken defineLabel
  let foundDefine ← searchSymbol tab ⟨.heap t1.str, 0⟩
  if t1.type = .null ∨ t1.type = .instruction then
    if found ≠ Err.symbolNotFound.code then redefinition lx label else define tab label pc
  else if t1.type = .equalSign ∨ t1.type = .equDirective then
    if found ≠ Err.symbolNotFound.code then redefinition lx label
    else do
      let lit ← seqTok lx 2
      define tab label lit.value
  else if t0.type = .defineDirective then
    if foundDefine ≠ Err.symbolNotFound.code then redefinition lx defineLabel
    else do
      let lit ← seqTok lx 2
      define tab defineLabel lit.value
  else raiseLine lx .unknown none

/-- parser.c:377-417 `parse_label_operand`: the operand token in the sequence gets the label's value. -/
def parseLabelOperand (lx ins operand tab : Nat) : M OpStatus := do
  let t ← loadToken operand
  let labelValue ← searchSymbol tab ⟨.heap t.str, 0⟩
  let i ← loadInstr ins
  if labelValue ≠ Err.symbolNotFound.code then do
    setTokValue operand (toUInt32 labelValue)
    if i.isBranch then pure .branchOperand
    else if i.isJump then pure .jumpOperand
    else pure .parserSuccess
  else if i.isBranch then pure .branchForwardReference
  else if i.isJump then pure .jumpForwardReference
  else do
    let x ← loadLexer lx
    store lx (.lexer { x with errorTk := some operand })
    let t ← loadToken operand
    raiseLine lx .illegalForwardReference t.bufferLocation

/-- parser.c:438-456 `parse_operand` -/
def parseOperand (lx ins : Nat) (operand : Option Nat) (tab : Nat) : M OpStatus :=
  match operand with
  | none => pure .parserSuccess
  | some p => do
    let t ← loadToken p
    if t.type = .label then parseLabelOperand lx ins p tab
    else if t.type = .literal ∨ t.type = .accumulator then pure .parserSuccess
    else raiseLine lx .unknown none

/-- parser.c:474-480: the loop of `find_operand`; `curr` is a pointer to the token last looked at. -/
def findOperandLoop (lx : Nat) : (fuel i curr : Nat) → M (Option Nat)
  | 0, _, _ => bad (.other .infiniteLoop)
  | fuel + 1, i, curr => do
    let t ← loadToken curr
    if t.type = .null then pure none
    else do
      let curr ← seqPtr lx i
      let t ← loadToken curr
      if t.type = .label ∨ t.type = .literal ∨ t.type = .accumulator then pure (some curr)
      else findOperandLoop lx fuel (i + 1) curr

/-- parser.c:466-482 `find_operand`: a pointer to a token of the sequence, or NULL. -/
def findOperand (lx : Nat) : M (Option Nat) := do
  let curr ← seqPtr lx 1
  findOperandLoop lx 10 1 curr

/-- parser.c:505-517: the types of the tokens, looked at in order from index `i` on. -/
def types (lx : Nat) : (n i : Nat) → M (List TokenType)
  | 0, _ => pure []
  | n + 1, i => do
    let t ← seqTok lx i
    let ts ← types lx n (i + 1)
    pure (t.type :: ts)

/-- parser.c:496-541 `apply_masks` -/
def applyMasks (lx : Nat) (f : Flags) : M Flags := do
  let ts ← types lx MAX_TOKENS 0
  let f := if ts.contains .xRegister then f &&& X_REGISTER_FIELD
    else if ts.contains .yRegister then f &&& Y_REGISTER_FIELD
    else f &&& NOT_REGISTER_FIELD
  let f := if ts.contains .openParenthesis then f &&& INDIRECT_FIELD else f &&& NOT_INDIRECT_FIELD
  let f := if ts.contains .immediate then f &&& ADDR_MODE_IMMEDIATE else f &&& ~~~ADDR_MODE_IMMEDIATE
  let f := if ts.contains .accumulator then f &&& ADDR_MODE_ACCUMULATOR else f &&& ~~~ADDR_MODE_ACCUMULATOR
  pure f

/-- `instr->addr_bitflag = f; if (!instr->addr_bitflag) …` (parser.c:615-622, 658-664 and, with FORWARD_REFERENCE, 570-575) -/
def setFlag (lx ins : Nat) (f : Flags) (res : AddrRes) : M AddrRes := do
  let i ← loadInstr ins
  store ins (.instr { i with addrBitflag := f })
  if f = 0 then raiseLine lx .illegalAddressingMode none else pure res

/-- parser.c:555-576 `parse_forward_ref_addr_mode` -/
def parseForwardRefAddrMode (lx ins : Nat) : M AddrRes := do
  let addrMode ← applyMasks lx 0x1FFF
  let i ← loadInstr ins
  if i.isBranch then setFlag lx ins (addrMode &&& ADDR_MODE_RELATIVE) .forwardReference
  else if i.mnemonic = some .JMP then setFlag lx ins (addrMode &&& ABSOLUTE_FIELD) .forwardReference
  else if i.mnemonic = some .JSR then setFlag lx ins (addrMode &&& ADDR_MODE_ABSOLUTE) .forwardReference
  else setFlag lx ins i.addrBitflag .forwardReference

/-- parser.c:596-665 `parse_addr_mode` -/
def parseAddrMode (lx ins : Nat) (operand : Option Nat) (status : OpStatus) : M AddrRes :=
  if status = .branchForwardReference ∨ status = .jumpForwardReference then parseForwardRefAddrMode lx ins
  else
    match operand with
    | none => do
      let i ← loadInstr ins
      setFlag lx ins
        (if i.mnemonic = some .ASL ∨ i.mnemonic = some .LSR ∨ i.mnemonic = some .ROL ∨ i.mnemonic = some .ROR
          then i.addrBitfield &&& ADDR_MODE_ACCUMULATOR
          else i.addrBitfield &&& ADDR_MODE_IMPLIED) .flag
    | some p => do
      let op ← loadToken p
      let i ← loadInstr ins
      let addrMode : Flags :=
        if op.type = .accumulator then 0x1FFF &&& ADDR_MODE_ACCUMULATOR
        else if op.value > 0xFF then
          if !i.isBranch then ABSOLUTE_FIELD else ZERO_PAGE_FIELD
        else
          if !i.isJump then ZERO_PAGE_FIELD else ABSOLUTE_FIELD
      let addrMode := if i.isBranch then addrMode &&& ADDR_MODE_RELATIVE else addrMode &&& ~~~ADDR_MODE_RELATIVE
      let addrMode ← applyMasks lx addrMode
      setFlag lx ins (addrMode &&& i.addrBitfield) .flag

/-! ### generator.c -/

/-- `instr->opcode = get_opcode(instr)` (generator.c:37, 165, 178) -/
def setOpcode (ins : Nat) : M Int := do
  let i ← loadInstr ins
  store ins (.instr { i with opcode := getOpcode i })
  pure (getOpcode i)

/-- generator.c:34-59 `generate_code` -/
def generateCode (f : OutFile) (ins : Nat) (operand : Option Nat) (currPc : Nat) : M (OutFile × Nat) := do
  let opcode ← setOpcode ins
  let f := (f.seek currPc).fputc opcode
  match operand with
  | none => pure (f, 1)
  | some p => do
    let op ← loadToken p
    if op.type = .accumulator then pure (f, 1)
    else do
      let v := toInt32 op.value
      let f := f.fputc (v % 256)
      let i ← loadInstr ins
      if i.addrBitflag &&& ABSOLUTE_FIELD ≠ 0 then pure (f.fputc (v / 256), 3)
      else pure (f, 2)

/-- generator.c:102-132 `resolve_label_ref` -/
def resolveLabelRef (f : OutFile) (lx ins : Nat) (label : Option Nat) (status : OpStatus) (tab currPc : Nat) :
    M (OutFile × Nat) := do
  match label with
  | none => raiseLine lx .unknown none
  | some p => do
    let t ← loadToken p
    let destPc ← searchSymbol tab ⟨.heap t.str, 0⟩
    if status = .branchOperand then do
      match ← lift (calcBranchOffset currPc destPc) with
      | none => do
        let t ← loadToken p
        raiseLine lx .tooBigOffset t.bufferLocation
      | some offset => do
        setTokValue p offset
        generateCode f ins (some p) currPc
    else if status = .jumpOperand then do
      setTokValue p (toUInt32 destPc)
      generateCode f ins (some p) currPc
    else raiseLine lx .unknown none

/-! ### forward_reference.c -/

/-- forward_reference.c:28-43 `init_unresolved` -/
def initUnresolved : M (Option Nat) := do
  let some u ← alloc .raw | pure none
  let some arr ← alloc (.ptrs (List.replicate FWD_BASE_SIZE none)) | pure none
  store u (.unres { refs := some arr, curr := 0, size := FWD_BASE_SIZE })
  pure (some u)

/-- forward_reference.c:50-59 `destroy_forward_ref` -/
def destroyForwardRef (p : Nat) : M Unit := do
  let r ← loadRef p
  free r.label
  free r.sourceLine
  destroyInstruction r.instr
  free p

/-- forward_reference.c:74-75: the loop of `destroy_unresolved`, up to the first NULL. `fuel`: the size of the array suffices, and
leaving the array is undefined behaviour. -/
def destroyRefs (u : Nat) : (fuel i : Nat) → M Unit
  | 0, _ => bad (.other .infiniteLoop)
  | fuel + 1, i => do
    let x ← loadUnres u
    match x.refs with
    | none => bad .badAccess
    | some arr =>
      match ← getCell arr i with
      | none => pure ()
      | some p => do
        destroyForwardRef p
        destroyRefs u fuel (i + 1)

/-- forward_reference.c:66-78 `destroy_unresolved` -/
def destroyUnresolved (u : Nat) : M Unit := do
  let x ← loadUnres u
  match x.refs with
  | none => pure ()
  | some _ => do
    destroyRefs u (x.size + 1) 0
    let x ← loadUnres u
    match x.refs with
    | none => bad .badAccess
    | some arr => do
      free arr
      free u

/-- forward_reference.c:98-156 `create_forward_ref`; NULL makes main abort without a message (main.c:231). The difference of the
pointers `operand->buffer_location` and `buffer` makes sense only within one array, and `source_line + dist` only within the copy. -/
def createForwardRef (buffer : Loc) (ins : Nat) (operand : Option Nat) (status : OpStatus) (pc lineNum : Nat) : M Nat := do
  let some p ← alloc .raw | outOfMemory
  let text ← readStr buffer
  match savedLine text with
  | none => bad (.other .underrun)
  | some saved =>
    match operand with
    | none => bad .badAccess
    | some op => do
      let numChars := saved.length
      let some line ← alloc (.chars (List.replicate (numChars + 1) 0)) | outOfMemory
      let bytes ← readBytes buffer numChars
      writeChars line bytes
      let t ← loadToken op
      let s ← readStr ⟨.heap t.str, 0⟩
      let some label ← alloc (.chars (List.replicate (s.length + 1) 0)) | outOfMemory
      let s ← readStr ⟨.heap t.str, 0⟩
      writeChars label s
      let some newInstr ← initInstruction | outOfMemory
      let i ← loadInstr ins
      store newInstr (.instr i)
      let t ← loadToken op
      match t.bufferLocation with
      | none => bad .badAccess
      | some l =>
        if l.base = buffer.base ∧ buffer.off ≤ l.off ∧ l.off - buffer.off ≤ numChars then do
          store p (.ref { label := label, sourceLine := line, instr := newInstr, pc := pc, lineNum := lineNum, status := status,
                          operandLocation := ⟨.heap line, l.off - buffer.off⟩ })
          pure p
        else bad .badAccess

/-- Block `q` now holds `x`, block `p` is gone (not a construct of the code). -/
def Store.moved (s : Store) (p q : Nat) (x : Obj) : Store :=
  { s with mem := fun m => if m = q then some x else if m = p then none else s.mem m }

/-- `realloc` of an array of pointers to `n` cells (forward_reference.c:169): the cells are kept, the new ones hold anything, the old
block is gone. -/
def reallocPtrs (p n : Nat) : M (Option Nat) := do
  match ← load p with
  | .ptrs cells => do
    match ← onHeap (Memory.realloc p) with
    | none => pure none
    | some q => do
      modifyS fun s => s.moved p q (.ptrs (cells ++ s.fresh (n - cells.length)))
      pure (some q)
  | _ => bad .badAccess

/-- forward_reference.c:175-176: set the cells from `i` on to NULL. -/
def clearCells (arr : Nat) : (n i : Nat) → M Unit
  | 0, _ => pure ()
  | n + 1, i => do
    setCell arr i none
    clearCells arr n (i + 1)

/-- forward_reference.c:166-179 `resize_unresolved`. If `realloc` fails, `refs` is overwritten with NULL. -/
def resizeUnresolved (u : Nat) : M Unit := do
  let x ← loadUnres u
  match x.refs with
  | none => bad .badAccess
  | some old =>
    match ← reallocPtrs old (2 * x.size) with
    | none => do
      store u (.unres { x with refs := none })
      outOfMemory
    | some arr => do
      lift (if x.size * 2 > INT_MAX then .ub .signedOverflow else .ok ())
      store u (.unres { x with refs := some arr, size := x.size * 2 })
      clearCells arr x.size x.size

/-- forward_reference.c:190-200 `add_forward_ref` -/
def addForwardRef (u ref : Nat) : M Unit := do
  let x ← loadUnres u
  if x.curr + 1 = x.size then resizeUnresolved u else pure ()
  let x ← loadUnres u
  match x.refs with
  | none => bad .badAccess
  | some arr => do
    setCell arr x.curr (some ref)
    store u (.unres { x with curr := x.curr + 1 })

/-- generator.c:148-194 `resolve_forward_ref` -/
def resolveForwardRef (f : OutFile) (ref lx : Nat) (destPc : Int) : M OutFile := do
  let r ← loadRef ref
  if r.status = .branchForwardReference then do
    match ← lift (calcBranchOffset r.pc destPc) with
    | none => do
      let x ← loadLexer lx
      raise (some ⟨.heap r.sourceLine, 0⟩) .tooBigOffset (some r.operandLocation) x.fileName (some r.lineNum)
    | some offset => do
      let i ← loadInstr r.instr
      if i.addrBitflag ≠ 0 then do
        let opcode ← setOpcode r.instr
        pure (((f.seek r.pc).fputc opcode).fputc offset)
      else raiseLine lx .illegalAddressingMode none
  else if r.status = .jumpForwardReference then do
    let i ← loadInstr r.instr
    if i.addrBitflag ≠ 0 then do
      let opcode ← setOpcode r.instr
      pure ((((f.seek r.pc).fputc opcode).fputc (destPc % 256)).fputc (destPc / 256))
    else raiseLine lx .illegalAddressingMode none
  else raiseLine lx .unknown none

/-! ### main.c -/

/-- The variables of `main` (main.c:152-187): numbers, the output file, and pointers. -/
structure State where
  store : Store
  pc : Nat
  lineNum : Nat
  total : Nat
  out : OutFile
  lexer : Nat
  tk : Nat
  instr : Nat
  symtab : Nat
  unres : Nat

/-- A step on the memory (not a construct of the code). -/
def onStore {α : Type} (x : M α) : Mem State α := fun o s => ((x o s.store).1, { s with store := (x o s.store).2 })

/-- main.c:178 `buffer`, as a pointer -/
def theBuffer : Loc := ⟨.buffer, 0⟩

/-- main.c:188 `fgets(buffer, MAX_BUFFER_SIZE, inf)` when it delivers `line`: the line and a NUL, in front of what was there. -/
def fgetsInto (line : List Byte) : M Unit := fun _ s =>
  if line.length + 1 ≤ s.buffer.length then
    (.ok (), { s with buffer := line ++ 0 :: s.buffer.drop (line.length + 1) })
  else (.ub .badAccess, s)

/-- `line_num++` (main.c:211, 257) -/
def bumpLine : Mem State Unit := do
  let s ← getS
  lift (if s.lineNum + 1 > INT_MAX then .ub .signedOverflow else .ok ())
  modifyS fun s => { s with lineNum := s.lineNum + 1 }

/-- main.c:227-243 -/
def saveForwardRef (operand : Option Nat) (status : OpStatus) : Mem State Unit := do
  let s ← getS
  let ref ← onStore (createForwardRef theBuffer s.instr operand status s.pc s.lineNum)
  onStore (addForwardRef s.unres ref)
  modifyS fun s =>
    let out := (s.out.fputc 0).fputc 0
    { s with out := if status = .jumpForwardReference then out.fputc 0 else out }

/-- main.c:215-259 -/
def instructionStep : Mem State Unit := do
  let s ← getS
  let operand ← onStore (findOperand s.lexer)
  let status ← onStore (parseOperand s.lexer s.instr operand s.symtab)
  let res ← onStore (parseAddrMode s.lexer s.instr operand status)
  match res with
    | .forwardReference => saveForwardRef operand status
    | .flag => pure ()
  let s ← getS
  let (out, written) ←
    if status = .branchOperand ∨ status = .jumpOperand then
      onStore (resolveLabelRef s.out s.lexer s.instr operand status s.symtab s.pc)
    else onStore (generateCode s.out s.instr operand s.pc)
  modifyS fun s => { s with out := out }
  bumpLine
  let s ← getS
  lift (if s.pc + written > INT_MAX ∨ s.total + written > INT_MAX then .ub .signedOverflow else .ok ())
  modifyS fun s => { s with pc := s.pc + written, total := s.total + written }

/-- main.c:197-208; `first` is a pointer to the first token. -/
def declareStep (first : Nat) : Mem State Unit := do
  let s ← getS
  let t ← onStore (loadToken first)
  if t.type = .label ∨ t.type = .defineDirective then onStore (parseLabelDeclaration s.lexer s.symtab s.pc)
  else if t.type = .base ∨ t.type = .orgDirective then modifyS fun s => { s with pc := t.value }
  else pure ()

/-- main.c:188-259: one round of the main loop, in which `fgets` delivers `line`. The result tells whether the loop goes on. -/
def lineStep (line : List Byte) : Mem State Bool := do
  onStore (fgetsInto line)
  let s ← getS
  onStore (lexLine theBuffer s.lexer s.tk s.instr s.lineNum)
  onStore (parseLine s.lexer)
  let first ← onStore (seqPtr s.lexer 0)
  declareStep first
  let t ← onStore (loadToken first)
  if t.type = .endDirective then pure false
  else do
    let i ← onStore (loadInstr s.instr)
    if i.mnemonic = none then do
      bumpLine
      pure true
    else do
      instructionStep
      pure true

/-- main.c:188-260: the main loop. -/
def mainLoop : List (List Byte) → Mem State Unit
  | [] => pure ()
  | line :: rest => do
    if ← lineStep line then mainLoop rest else pure ()

/-- main.c:262-277: patch the forward references, `n` of them from index `i` on. -/
def resolveAll : (n i : Nat) → Mem State Unit
  | 0, _ => pure ()
  | n + 1, i => do
    let s ← getS
    let u ← onStore (loadUnres s.unres)
    match u.refs with
    | none => bad .badAccess
    | some arr =>
      match ← onStore (getCell arr i) with
      | none => bad .badAccess
      | some p => do
        let r ← onStore (loadRef p)
        let dest ← onStore (searchSymbol s.symtab ⟨.heap r.label, 0⟩)
        if dest < 0 then
          onStore (raise (some ⟨.heap r.sourceLine, 0⟩) .missingLabelDefinition (some r.operandLocation) ⟨.name, 0⟩ (some r.lineNum))
        else do
          let out ← onStore (resolveForwardRef s.out p s.lexer dest)
          modifyS fun s => { s with out := out }
          resolveAll n (i + 1)

/-- main.c:178-277 -/
def assembleBytes (src : List Byte) : Mem State Unit := do
  mainLoop (chunks src)
  let s ← getS
  let u ← onStore (loadUnres s.unres)
  resolveAll u.curr 0

/-- What `abort_gaia` is given (main.c:122-124); `none` is NULL. -/
structure Held where
  inf : Option Nat
  outf : Option Nat
  lexer : Option Nat
  tk : Option Nat
  instr : Option Nat
  symtab : Option Nat
  unres : Option Nat

/-- `if (p) f(p);` (main.c:125-140) -/
def ifHeld (p : Option Nat) (f : Nat → M Unit) : M Unit :=
  match p with
  | none => pure ()
  | some a => f a

/-- `fclose` (main.c:125-128, 283-284) -/
def fclose (n : Nat) : M Unit := onHeap (Memory.fclose n)

/-- main.c:122-141 `abort_gaia` -/
def abortGaia (h : Held) : M Unit := do
  ifHeld h.inf fclose
  ifHeld h.outf fclose
  ifHeld h.lexer destroyLexer
  ifHeld h.tk destroyToken
  ifHeld h.instr destroyInstruction
  ifHeld h.symtab destroySymbolTable
  ifHeld h.unres destroyUnresolved

/-- main.c:283-289: the clean-up after success. -/
def cleanUp (s : State) : M Unit := do
  fclose 0
  fclose 1
  destroyLexer s.lexer
  destroyToken s.tk
  destroyInstruction s.instr
  destroySymbolTable s.symtab
  destroyUnresolved s.unres

/-- Clean up and exit (main.c:141, 290). -/
def leave (o : Oracle) (m : Store) (clean : M Unit) (e : Exit) : Memory.Outcome :=
  match clean o m with
  | (.ok _, m) => .exited e m.heap
  | (.err _, _) => .undefined (.other .internal)
  | (.ub u, _) => .undefined u

/-- Print a message without a source line (main.c:160, 167, 173) and abort with status 1. -/
def refuse (o : Oracle) (m : Store) (held : Held) (e : Err) (w : World) : Memory.Outcome :=
  match printError none e none ⟨.name, 0⟩ none o m with
  | (.ok text, m) => leave o m (abortGaia held) ⟨1, text, w⟩
  | (.err _, _) => .undefined (.other .internal)
  | (.ub u, _) => .undefined u

/-- The number of symbols `printf` shows (main.c:281). -/
def symbolCount (s : State) : M Nat := do
  let t ← loadTable s.symtab
  pure t.count

/-- main.c:178-291: everything after both files have been opened. -/
def assemble (o : Oracle) (s : State) (outName : Str) (src : List Byte) (w : World) : Memory.Outcome :=
  match assembleBytes src o s with
  | (.ok _, s) =>
    match symbolCount s o s.store with
    | (.ok n, m) => leave o m (cleanUp s) ⟨0, report s.total n, w.write outName s.out.bytes⟩
    | (.err _, _) => .undefined (.other .internal)
    | (.ub u, _) => .undefined u
  | (.err f, s) =>
    leave o s.store (abortGaia ⟨some 0, some 1, some s.lexer, some s.tk, some s.instr, some s.symtab, some s.unres⟩)
      ⟨1, f.out, w.write outName s.out.bytes⟩
  | (.ub u, _) => .undefined u

/-- main.c:154-158: the five structures. -/
def initAll : M (Option Nat × Option Nat × Option Nat × Option Nat × Option Nat) := do
  let lexer ← initLexer
  let tk ← initToken
  let instr ← initInstruction
  let symtab ← initSymbolTable
  let unres ← initUnresolved
  pure (lexer, tk, instr, symtab, unres)

/-- The memory when `main` starts to work (main.c:150-178): no block in use, `buffer` and fresh memory holding
anything. -/
def Store.start (srcName : Str) (junk : List Byte) (cells : Nat → Option Nat) : Store :=
  { heap := Heap.start, mem := fun _ => none, buffer := junk, name := srcName ++ [0], cells }

/-- `fopen` of file `n` (main.c:164, 171) -/
def Store.fopen (m : Store) (o : Oracle) (n : Nat) : Store := { m with heap := (Memory.fopen n o m.heap).2 }

/-- main.c:152-291, with the memory `o` grants; `junk` is what `buffer` holds at first, `cells` what fresh
arrays hold. -/
def gaia (o : Oracle) (junk : List Byte) (cells : Nat → Option Nat) (srcName outName : Str) (w : World) : Memory.Outcome :=
  match initAll o (Store.start srcName junk cells) with
  | (.ok (some lexer, some tk, some instr, some symtab, some unres), m) =>
    let held : Held := ⟨none, none, some lexer, some tk, some instr, some symtab, some unres⟩
    match w.files srcName with
    | none => refuse o m held .fileOpenFail w
    | some content =>
      let m := m.fopen o 0
      if w.creatable outName = false then refuse o m { held with inf := some 0 } .binaryFileCreationFail w
      else
        let m := m.fopen o 1
        assemble o { store := m, pc := 0, lineNum := 1, total := 0, out := OutFile.empty, lexer, tk, instr, symtab, unres }
          outName (if srcName = outName then [] else content) w
  | (.ok (lexer, tk, instr, symtab, unres), m) => refuse o m ⟨none, none, lexer, tk, instr, symtab, unres⟩ .memoryAllocationFail w
  | (.err _, _) => .undefined (.other .internal)
  | (.ub u, _) => .undefined u

end Gaia.Low

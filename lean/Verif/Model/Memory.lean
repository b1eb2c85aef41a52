import Verif.Model.Main

/-!
Model of gaia's use of memory and files: every `malloc`, `calloc`, `realloc`, `free`, `fopen` and `fclose` of src/, with the
possibility that any allocation fails. The contents of the structures are those of the model without memory
(`Model/Lexer.lean`, `SymTab.lean`, `ForwardRef.lean`, `Main.lean`); this model adds the blocks they live in.
Blocks are numbered in the order in which they are handed out; their sizes are not modelled.
-/
namespace Gaia.Memory
open Gaia

/-- The environment's answers: is the n-th request for memory granted? (not a construct of the code: this is `malloc`) -/
abbrev Oracle := Nat → Bool

/-- The state of the allocator and of the open files (libc, not part of src/). (not a construct of the code) -/
structure Heap where
  /-- requests made so far -/
  asked : Nat
  /-- number of the next block -/
  next : Nat
  /-- the blocks in use -/
  live : List Nat
  /-- the open files: 0 is the source, 1 the output -/
  files : List Nat
  deriving DecidableEq, Repr

/-- The heap when `main` starts. (main.c:152) -/
def Heap.start : Heap := ⟨0, 0, [], []⟩

/-- Undefined behaviour: that of the model without memory, and misuse of blocks and files. (not a construct of the
code) -/
inductive Misuse
  | other (u : UB)
  | badFree      -- `free` or `realloc` of something that is no block in use
  | badClose     -- `fclose` of a file that is not open
  | badAccess    -- access through a pointer to no object in use, or outside the object (only in `Model/Pointers.lean`)
  deriving DecidableEq, Repr

/-- The result of a step: a value, an error (which makes main abort), or undefined behaviour. (error.h:10-41) -/
inductive Result (α : Type)
  | ok (a : α)
  | err (f : Fail)
  | ub (u : Misuse)
  deriving DecidableEq, Repr

/-- Computations with a state `σ` that is kept when an error is raised (in C the structures are modified in place).
(not a construct of the code) -/
def Mem (σ α : Type) := Oracle → σ → Result α × σ

/-- Sequencing; an error return makes the caller return (`if (IS_ERROR(…)) return …;`, main.c:104). -/
@[inline] def Mem.bind {σ α β : Type} (x : Mem σ α) (f : α → Mem σ β) : Mem σ β := fun o s =>
  match x o s with
  | (.ok a, s') => f a o s'
  | (.err e, s') => (.err e, s')
  | (.ub u, s') => (.ub u, s')

/-- `do` notation for `Mem.bind` (not a construct of the code). -/
instance {σ : Type} : Monad (Mem σ) where
  pure a := fun _ s => (.ok a, s)
  bind := Mem.bind

/-- A result of the model without memory. (not a construct of the code) -/
def lift {σ α : Type} (r : Res α) : Mem σ α := fun _ s =>
  (match r with
    | .ok a => .ok a
    | .err e => .err e
    | .ub u => .ub (.other u), s)

/-- The current state. (not a construct of the code) -/
def getS {σ : Type} : Mem σ σ := fun _ s => (.ok s, s)
/-- Change the state. (not a construct of the code) -/
def modifyS {σ : Type} (f : σ → σ) : Mem σ Unit := fun _ s => (.ok (), f s)

/-- An error code without a message: ERROR_MEMORY_ALLOCATION_FAIL (error.h:11), or NULL from `create_forward_ref`. main aborts
without printing anything (main.c:199, 231, 233). -/
def outOfMemory {σ α : Type} : Mem σ α := fun _ s => (.err ⟨.memoryAllocationFail, []⟩, s)

/-- `malloc` or `calloc`: `none` is NULL. (called in lexer.c:33, 38, 56, 78, opcode.c:25, symbol_table.c:33, 37, 100,
141, 145, forward_reference.c:30, 34, 103, 120, 128) -/
def malloc : Mem Heap (Option Nat) := fun o h =>
  if o h.asked then (.ok (some h.next), { h with asked := h.asked + 1, next := h.next + 1, live := h.next :: h.live })
  else (.ok none, { h with asked := h.asked + 1 })

/-- `free` of a pointer that is not NULL. (called in lexer.c:126-153, opcode.c:58-62, symbol_table.c:51-69, 123,
forward_reference.c:50-78) -/
def free (p : Nat) : Mem Heap Unit := fun _ h =>
  if p ∈ h.live then (.ok (), { h with live := h.live.erase p }) else (.ub .badFree, h)

/-- `realloc`: on success the old block is gone, on failure it stays. (called in forward_reference.c:169) -/
def realloc (p : Nat) : Mem Heap (Option Nat) := fun o h =>
  if p ∉ h.live then (.ub .badFree, h)
  else if o h.asked then
    (.ok (some h.next), { h with asked := h.asked + 1, next := h.next + 1, live := h.next :: h.live.erase p })
  else (.ok none, { h with asked := h.asked + 1 })

/-- A successful `fopen` of file `n`. (main.c:164, 171) -/
def fopen (n : Nat) : Mem Heap Unit := fun _ h => (.ok (), { h with files := n :: h.files })

/-- `fclose` of file `n`. (main.c:125-128, 283-284) -/
def fclose (n : Nat) : Mem Heap Unit := fun _ h =>
  if n ∈ h.files then (.ok (), { h with files := h.files.erase n }) else (.ub .badClose, h)

/-! ### Tokens, lexer, instruction -/

/-- The blocks of a `struct Token` (lexer.h:39-45): the struct and its text. -/
structure TokenB where
  blk : Nat
  str : Nat
  deriving DecidableEq, Repr

/-- lexer.c:31-45 `init_token`. If the text cannot be allocated, the struct is not freed. -/
def initToken : Mem Heap (Option TokenB) := do
  let some blk ← malloc | pure none
  let some str ← malloc | pure none
  pure (some ⟨blk, str⟩)

/-- lexer.c:61-65: the loop of `init_sequence`. On failure the tokens made so far are not freed. -/
def initTokens : Nat → Mem Heap (Option (List TokenB))
  | 0 => pure (some [])
  | n + 1 => do
    let some t ← initToken | pure none
    let some ts ← initTokens n | pure none
    pure (some (t :: ts))

/-- The blocks of a `struct Lexer` (lexer.h:47-55): the struct, the array and the tokens. -/
structure LexerB where
  blk : Nat
  arr : Nat
  toks : List TokenB
  deriving DecidableEq, Repr

/-- lexer.c:54-67, 76-91 `init_sequence`, `init_lexer`. On failure nothing is freed. -/
def initLexer : Mem Heap (Option LexerB) := do
  let some blk ← malloc | pure none
  let some arr ← malloc | pure none
  let some toks ← initTokens MAX_TOKENS | pure none
  pure (some ⟨blk, arr, toks⟩)

/-- lexer.c:126-133 `destroy_token` -/
def destroyToken (t : TokenB) : Mem Heap Unit := do
  free t.str
  free t.blk

/-- lexer.c:146-150: the loop of `destroy_lexer`. -/
def destroyTokens : List TokenB → Mem Heap Unit
  | [] => pure ()
  | t :: ts => do
    destroyToken t
    destroyTokens ts

/-- lexer.c:141-153 `destroy_lexer` -/
def destroyLexer (l : LexerB) : Mem Heap Unit := do
  destroyTokens l.toks
  free l.arr
  free l.blk

/-- opcode.c:23-34 `init_instruction` -/
def initInstruction : Mem Heap (Option Nat) := malloc

/-- opcode.c:58-62 `destroy_instruction` -/
def destroyInstruction (p : Nat) : Mem Heap Unit := free p

/-! ### Symbol table -/

/-- The blocks of a `struct Symbol` (symbol_table.h:13-17): the struct and its label. -/
structure SymbolB where
  blk : Nat
  label : Nat
  deriving DecidableEq, Repr

/-- symbol_table.h:19-23: the blocks of the table and its array, and the array itself; each symbol comes with its blocks. -/
structure SymTabB where
  blk : Nat
  arr : Nat
  slots : List (Option (Symbol × SymbolB))
  count : Nat
  deriving DecidableEq, Repr

/-- The array without the blocks. (not a construct of the code) -/
def bare {α β : Type} (slots : List (Option (α × β))) : List (Option α) := slots.map (Option.map Prod.fst)

/-- The table without the blocks. (not a construct of the code) -/
def SymTabB.bare (t : SymTabB) : SymTab := { symbols := Memory.bare t.slots, count := t.count }

/-- symbol_table.c:31-44 `init_symbol_table`. If the array cannot be allocated, the struct is not freed. -/
def initSymbolTable : Mem Heap (Option SymTabB) := do
  let some blk ← malloc | pure none
  let some arr ← malloc | pure none
  pure (some { blk, arr, slots := List.replicate SYM_BASE_SIZE none, count := 0 })

/-- symbol_table.c:58-66: the loop of `destroy_symbol_table`. -/
def destroySlots : List (Option (Symbol × SymbolB)) → Mem Heap Unit
  | [] => pure ()
  | none :: rest => destroySlots rest
  | some (_, b) :: rest => do
    free b.label
    free b.blk
    destroySlots rest

/-- symbol_table.c:51-69 `destroy_symbol_table` (the array is never NULL) -/
def destroySymbolTable (t : SymTabB) : Mem Heap Unit := do
  destroySlots t.slots
  free t.arr
  free t.blk

/-- symbol_table.c:139-152 `init_symbol`. If the label cannot be allocated, the struct is not freed. -/
def initSymbol : Mem Heap (Option SymbolB) := do
  let some blk ← malloc | pure none
  let some label ← malloc | pure none
  pure (some ⟨blk, label⟩)

/-- symbol_table.c:112-121: transfer one symbol. -/
def rehashOne (new : List (Option (Symbol × SymbolB))) (sym : Symbol × SymbolB) : Res (List (Option (Symbol × SymbolB))) := do
  let h ← probeFree (Memory.bare new) new.length (djb2 sym.1.label % new.length)
  pure (new.set h (some sym))

/-- symbol_table.c:109-122: the transfer loop. -/
def rehashAll : List (Option (Symbol × SymbolB)) → List (Option (Symbol × SymbolB)) → Res (List (Option (Symbol × SymbolB)))
  | [], new => .ok new
  | none :: old, new => rehashAll old new
  | some sym :: old, new => do
    let new ← rehashOne new sym
    rehashAll old new

/-! ### Forward references -/

/-- The blocks of a `struct ForwardRef` (forward_reference.h:16-25). -/
structure RefB where
  blk : Nat
  line : Nat
  label : Nat
  instr : Nat
  deriving DecidableEq, Repr

/-- forward_reference.h:27-31: the blocks of the struct and its array (`none`: NULL), and the array itself. -/
structure UnresB where
  blk : Nat
  arr : Option Nat
  refs : List (Option (ForwardRef × RefB))
  curr : Nat
  deriving DecidableEq, Repr

/-- The references without the blocks. (not a construct of the code) -/
def UnresB.bare (u : UnresB) : Unresolved := { refs := Memory.bare u.refs, curr := u.curr }

/-- forward_reference.c:28-43 `init_unresolved`. If the array cannot be allocated, the struct is not freed. -/
def initUnresolved : Mem Heap (Option UnresB) := do
  let some blk ← malloc | pure none
  let some arr ← malloc | pure none
  pure (some { blk, arr := some arr, refs := List.replicate FWD_BASE_SIZE none, curr := 0 })

/-- forward_reference.c:50-59 `destroy_forward_ref` -/
def destroyForwardRef (r : RefB) : Mem Heap Unit := do
  free r.label
  free r.line
  destroyInstruction r.instr
  free r.blk

/-- forward_reference.c:74-75: free references up to the first NULL slot. Leaving the array is undefined behaviour. -/
def destroyRefs : List (Option (ForwardRef × RefB)) → Mem Heap Unit
  | [] => lift (.ub .outOfBounds)
  | none :: _ => pure ()
  | some (_, r) :: rest => do
    destroyForwardRef r
    destroyRefs rest

/-- forward_reference.c:66-78 `destroy_unresolved`: nothing is freed if the array is NULL. -/
def destroyUnresolved (u : UnresB) : Mem Heap Unit :=
  match u.arr with
  | none => pure ()
  | some arr => do
    destroyRefs u.refs
    free arr
    free u.blk

/-! ### main -/

/-- The variables of `main` (main.c:152-187) and the blocks they point to. -/
structure State where
  heap : Heap
  pc : Nat
  lineNum : Nat
  total : Nat
  symtab : SymTabB
  unres : UnresB
  out : OutFile
  lexer : Lexer
  lexerB : LexerB
  tk : Token
  tkB : TokenB
  instr : Instr
  instrB : Nat
  deriving DecidableEq, Repr

/-- The state of the model without memory. (not a construct of the code) -/
def State.bare (s : State) : St :=
  { pc := s.pc, lineNum := s.lineNum, total := s.total, symtab := s.symtab.bare, unres := s.unres.bare, out := s.out,
    lexer := s.lexer, tk := s.tk, instr := s.instr }

/-- A step that uses the heap. (not a construct of the code) -/
def onHeap {α : Type} (x : Mem Heap α) : Mem State α := fun o s => ((x o s.heap).1, { s with heap := (x o s.heap).2 })

/-- symbol_table.c:96-127 `resize_symbols`. If the new array cannot be allocated, nothing is changed. -/
def resizeSymbols : Mem State Unit := do
  let t := (← getS).symtab
  let newSize ← lift (if t.slots.length * 2 > INT_MAX then .ub .signedOverflow else nextPrime (t.slots.length * 2))
  let some arr ← onHeap malloc | outOfMemory
  let slots ← lift (rehashAll t.slots (List.replicate newSize none))
  onHeap (free t.arr)
  modifyS fun s => { s with symtab := { t with arr := arr, slots := slots } }

/-- symbol_table.c:165-191 `insert_symbol` -/
def insertSymbol (label : Str) (value : Int) : Mem State Unit := do
  let t := (← getS).symtab
  lift (if (t.count + 1) * 100 > INT_MAX then .ub .signedOverflow else .ok ())
  if overLoaded t.bare then resizeSymbols else pure ()
  let some b ← onHeap initSymbol | outOfMemory
  let t := (← getS).symtab
  let h ← lift (probeFree (Memory.bare t.slots) t.slots.length (djb2 label % t.slots.length))
  modifyS fun s => { s with symtab := { t with slots := t.slots.set h (some (⟨label, value⟩, b)), count := t.count + 1 } }

/-- parser.c:306-363 `parse_label_declaration` -/
def parseLabelDeclaration (lx : Lexer) (pc : Nat) : Mem State Unit := do
  let label ← lift (slot lx 0)
  let defineLabel ← lift (slot lx 1)
  let t := (← getS).symtab
  let found ← lift (searchSymbol t.bare label.str)
  let foundDefine ← lift (searchSymbol t.bare defineLabel.str)
  if defineLabel.type = .null ∨ defineLabel.type = .instruction then
    if found ≠ Err.symbolNotFound.code then
      lift (raise lx.line .labelRedefinition label.bufferLocation lx.fileName lx.lineNum)
    else insertSymbol label.str (toInt32 pc)
  else if defineLabel.type = .equalSign ∨ defineLabel.type = .equDirective then
    if found ≠ Err.symbolNotFound.code then
      lift (raise lx.line .labelRedefinition label.bufferLocation lx.fileName lx.lineNum)
    else do
      let lit ← lift (slot lx 2)
      insertSymbol label.str (toInt32 lit.value)
  else if label.type = .defineDirective then
    if foundDefine ≠ Err.symbolNotFound.code then
      lift (raise lx.line .labelRedefinition defineLabel.bufferLocation lx.fileName lx.lineNum)
    else do
      let lit ← lift (slot lx 2)
      insertSymbol defineLabel.str (toInt32 lit.value)
  else lift (raise lx.line .unknown none lx.fileName lx.lineNum)

/-- forward_reference.c:98-156 `create_forward_ref`. On failure nothing is freed. -/
def createForwardRef (buffer : Str) (instr : Instr) (operand : Option Token) (status : OpStatus) (pc lineNum : Nat) :
    Mem State (ForwardRef × RefB) := do
  let some blk ← onHeap malloc | outOfMemory
  let ref ← lift (Gaia.createForwardRef buffer instr operand status pc lineNum)
  let some line ← onHeap malloc | outOfMemory
  let some label ← onHeap malloc | outOfMemory
  let some instrB ← onHeap initInstruction | outOfMemory
  pure (ref, ⟨blk, line, label, instrB⟩)

/-- forward_reference.c:166-179 `resize_unresolved`. If `realloc` fails, `refs` is overwritten with NULL. -/
def resizeUnresolved : Mem State Unit := do
  let u := (← getS).unres
  match u.arr with
  | none => lift (.ub .nullDeref)
  | some old =>
    match ← onHeap (realloc old) with
    | none => do
      modifyS fun s => { s with unres := { u with arr := none } }
      outOfMemory
    | some arr => do
      lift (if u.refs.length * 2 > INT_MAX then .ub .signedOverflow else .ok ())
      modifyS fun s => { s with unres := { u with arr := some arr, refs := u.refs ++ List.replicate u.refs.length none } }

/-- forward_reference.c:190-200 `add_forward_ref`. On failure the new reference is not freed. -/
def addForwardRef (ref : ForwardRef × RefB) : Mem State Unit := do
  let u := (← getS).unres
  if u.curr + 1 = u.refs.length then resizeUnresolved else pure ()
  let u := (← getS).unres
  lift (if u.curr < u.refs.length then .ok () else .ub .outOfBounds)
  modifyS fun s => { s with unres := { u with refs := u.refs.set u.curr (some ref), curr := u.curr + 1 } }

/-- `line_num++` (main.c:211, 257) -/
def bumpLine : Mem State Unit := do
  let s ← getS
  lift (if s.lineNum + 1 > INT_MAX then .ub .signedOverflow else .ok ())
  modifyS fun s => { s with lineNum := s.lineNum + 1 }

/-- main.c:227-243 -/
def saveForwardRef (buffer : Str) (instr : Instr) (operand : Option Token) (status : OpStatus) : Mem State Unit := do
  let s ← getS
  let ref ← createForwardRef buffer instr operand status s.pc s.lineNum
  addForwardRef ref
  modifyS fun s =>
    let out := (s.out.fputc 0).fputc 0
    { s with out := if status = .jumpForwardReference then out.fputc 0 else out }

/-- main.c:215-259 -/
def instructionStep (buffer : Str) : Mem State Unit := do
  let s ← getS
  let operand ← lift (findOperand s.lexer)
  let (status, operand) ← lift (parseOperand s.lexer s.instr operand s.symtab.bare)
  let (res, instr) ← lift (parseAddrMode s.lexer s.instr operand status)
  modifyS fun s => { s with instr := instr }
  match res with
    | .forwardReference => saveForwardRef buffer instr operand status
    | .flag => pure ()
  let s ← getS
  let (out, written) ←
    if status = .branchOperand ∨ status = .jumpOperand then
      lift (resolveLabelRef s.out s.lexer instr operand status s.symtab.bare s.pc)
    else pure (generateCode s.out instr operand s.pc)
  modifyS fun s => { s with out := out }
  bumpLine
  let s ← getS
  lift (if s.pc + written > INT_MAX ∨ s.total + written > INT_MAX then .ub .signedOverflow else .ok ())
  modifyS fun s => { s with pc := s.pc + written, total := s.total + written }

/-- main.c:197-208 -/
def declareStep (first : Token) : Mem State Unit := do
  let s ← getS
  if first.type = .label ∨ first.type = .defineDirective then parseLabelDeclaration s.lexer s.pc
  else if first.type = .base ∨ first.type = .orgDirective then modifyS fun s => { s with pc := first.value }
  else pure ()

/-- main.c:189-259: the body of the main loop. The result tells whether the loop goes on (`.END` stops it, main.c:207). -/
def lineStep (raw : List Byte) : Mem State Bool := do
  let s ← getS
  let (lexer, tk, instr) ← lift (lexLine raw s.lexer s.tk s.instr s.lineNum)
  let lexer ← lift (parseLine lexer)
  modifyS fun s => { s with lexer := lexer, tk := tk, instr := instr }
  let first ← lift (slot lexer 0)
  declareStep first
  if first.type = .endDirective then pure false
  else if instr.mnemonic = none then do
    bumpLine
    pure true
  else do
    instructionStep (cstr raw)
    pure true

/-- main.c:188-260: the main loop. -/
def mainLoop : List (List Byte) → Mem State Unit
  | [] => pure ()
  | raw :: rest => do
    if ← lineStep raw then mainLoop rest else pure ()

/-- main.c:262-277: patch the forward references (no allocation takes place). -/
def resolveAll : (n i : Nat) → Mem State Unit
  | 0, _ => pure ()
  | n + 1, i => do
    let s ← getS
    match s.unres.bare.refs[i]? with
    | none => lift (.ub .outOfBounds)
    | some none => lift (.ub .nullDeref)
    | some (some ref) => do
      let dest ← lift (searchSymbol s.symtab.bare ref.label)
      if dest < 0 then
        lift (raise (some ref.sourceLine) .missingLabelDefinition (some ref.operandLocation) s.lexer.fileName ref.lineNum)
      else do
        let out ← lift (resolveForwardRef s.out ref s.lexer dest)
        modifyS fun s => { s with out := out }
        resolveAll n (i + 1)

/-- main.c:178-277 -/
def assembleBytes (src : List Byte) : Mem State Unit := do
  mainLoop (chunks src)
  let s ← getS
  resolveAll s.unres.curr 0

/-- What `abort_gaia` is given (main.c:122-124); `none` is NULL. -/
structure Held where
  inf : Option Nat
  outf : Option Nat
  lexer : Option LexerB
  tk : Option TokenB
  instr : Option Nat
  symtab : Option SymTabB
  unres : Option UnresB

/-- `if (p) f(p);` (main.c:125-140) -/
def ifHeld {α : Type} (p : Option α) (f : α → Mem Heap Unit) : Mem Heap Unit :=
  match p with
  | none => pure ()
  | some a => f a

/-- main.c:122-141 `abort_gaia` -/
def abortGaia (h : Held) : Mem Heap Unit := do
  ifHeld h.inf fclose
  ifHeld h.outf fclose
  ifHeld h.lexer destroyLexer
  ifHeld h.tk destroyToken
  ifHeld h.instr destroyInstruction
  ifHeld h.symtab destroySymbolTable
  ifHeld h.unres destroyUnresolved

/-- main.c:283-289: the clean-up after success. -/
def cleanUp (s : State) : Mem Heap Unit := do
  fclose 0
  fclose 1
  destroyLexer s.lexerB
  destroyToken s.tkB
  destroyInstruction s.instrB
  destroySymbolTable s.symtab
  destroyUnresolved s.unres

/-- What running the program amounts to: how it ends, and the heap it leaves. (main.c:141, 290) -/
inductive Outcome
  | exited (e : Exit) (h : Heap)
  | undefined (u : Misuse)

/-- Clean up and exit. (main.c:141, 290) -/
def leave (o : Oracle) (h : Heap) (clean : Mem Heap Unit) (e : Exit) : Outcome :=
  match clean o h with
  | (.ok _, h) => .exited e h
  | (.err _, _) => .undefined (.other .internal)
  | (.ub u, _) => .undefined u

/-- Print a message without a source line (main.c:160, 167, 173) and abort with status 1. -/
def refuse (o : Oracle) (h : Heap) (held : Held) (e : Err) (srcName : Str) (w : World) : Outcome :=
  match printError none e none srcName 0 with
  | .ok text => leave o h (abortGaia held) ⟨1, text, w⟩
  | .err _ => .undefined (.other .internal)
  | .ub u => .undefined (.other u)

/-- main.c:178-291: everything after both files have been opened. -/
def assemble (o : Oracle) (s : State) (outName : Str) (src : List Byte) (w : World) : Outcome :=
  match assembleBytes src o s with
  | (.ok _, s) => leave o s.heap (cleanUp s) ⟨0, report s.total s.symtab.count, w.write outName s.out.bytes⟩
  | (.err f, s) =>
    leave o s.heap (abortGaia ⟨some 0, some 1, some s.lexerB, some s.tkB, some s.instrB, some s.symtab, some s.unres⟩)
      ⟨1, f.out, w.write outName s.out.bytes⟩
  | (.ub u, _) => .undefined u

/-- main.c:154-158: the five structures. All five are attempted, whatever fails. -/
def initAll : Mem Heap (Option LexerB × Option TokenB × Option Nat × Option SymTabB × Option UnresB) := do
  let lexer ← initLexer
  let tk ← initToken
  let instr ← initInstruction
  let symtab ← initSymbolTable
  let unres ← initUnresolved
  pure (lexer, tk, instr, symtab, unres)

/-- main.c:152-291, with the memory `o` grants. -/
def gaia (o : Oracle) (srcName outName : Str) (w : World) : Outcome :=
  match initAll o Heap.start with
  | (.ok (some lexer, some tk, some instr, some symtab, some unres), h) =>
    let held : Held := ⟨none, none, some lexer, some tk, some instr, some symtab, some unres⟩
    match w.files srcName with
    | none => refuse o h held .fileOpenFail srcName w
    | some content =>
      let h := ((fopen 0) o h).2
      if w.creatable outName = false then refuse o h { held with inf := some 0 } .binaryFileCreationFail srcName w
      else
        let h := ((fopen 1) o h).2
        assemble o
          { heap := h, pc := 0, lineNum := 1, total := 0, symtab, unres, out := OutFile.empty, lexer := Gaia.initLexer srcName,
            lexerB := lexer, tk := Gaia.initToken, tkB := tk, instr := Gaia.initInstruction, instrB := instr }
          outName (if srcName = outName then [] else content) w
  | (.ok (lexer, tk, instr, symtab, unres), h) =>
    refuse o h ⟨none, none, lexer, tk, instr, symtab, unres⟩ .memoryAllocationFail srcName w
  | (.err _, _) => .undefined (.other .internal)
  | (.ub u, _) => .undefined u

end Gaia.Memory

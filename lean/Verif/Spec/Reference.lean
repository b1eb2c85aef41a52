import Verif.Spec.Check
import Verif.Spec.Pieces
import Verif.Spec.SynFault
import Verif.Spec.Truncate
import Verif.Spec.Diagnostic

/-!
A reference assembler: for every source text whatsoever, what gaia prints, how it exits, and what it leaves in the output
file. It is written over the specification of the language (`Spec/Syntax.lean`), the opcode table of opcodes/6502ops.csv
and the diagnostics of `Spec/Diagnostic.lean`; it shares no function with the model of the C code. Everything gaia does
differently from its documentation is a visible clause here:

* lines are read in pieces of at most 127 bytes (`pieces`);
* literals are computed modulo 2^64 (`literal`);
* a ninth lexeme in a line ends the run without a message (`runPieces`);
* lexemes after an indexed operand are not refused; they can change the mnemonic and the addressing mode (`junk`);
* operand values are cut to the operand field (`encodeLow`);
* an indexed `JMP` to a label that is not known yet is assembled, to opcode 0xF3 (`forwardCode`);
* the zeros that keep the place of a forward reference go where the output file happens to stand (`instruction`).
-/
namespace Gaia.Spec.Reference
open Gaia

/-! ### Lexemes -/

/-- What may follow a word, literal or directive. -/
def delimited : Str → Bool
  | [] => true
  | c :: _ => c == 32 || c == 9 || c == 44 || c == 40 || c == 41

/-- A digit of base `b`. -/
def isDigitOf (b : Nat) (c : Byte) : Bool :=
  match digitValue c with
  | some v => decide (v < b)
  | none => false

/-- A literal of base `b`, after its prefix of `n` characters: the length and the lexeme, or the error and its offset. -/
def literal (b n : Nat) (s : Str) : Except (Err × Nat) (Nat × Lexeme) :=
  let ds := s.takeWhile (isDigitOf b)
  let v := positional b ds % 2 ^ 64
  if !delimited (s.drop ds.length) then .error (.illegalChar, n + ds.length)
  else if ds = [] then .error (.illegalChar, n)
  else if v > 0xFFFF then .error (.tooBigLiteral, 0)
  else .ok (n + ds.length, .lit v)

/-- A word: label, mnemonic or register. -/
def word (s : Str) : Except (Err × Nat) (Nat × Lexeme) :=
  let w := s.takeWhile wordChar
  let rest := s.drop w.length
  if w.length ≥ 64 then .error (.tooLongLabel, 0)
  else if delimited rest || rest.head? == some 58 then .ok (w.length, wordLexeme (w.map toUpper))
  else .error (.illegalChar, w.length)

/-- A directive, after its period. -/
def directive (s : Str) : Except (Err × Nat) (Nat × Lexeme) :=
  let w := s.takeWhile isAlpha
  if w.length ≥ 63 then .error (.illegalDirective, 0)
  else if !delimited (s.drop w.length) then .error (.illegalChar, 1 + w.length)
  else match directiveLexeme (46 :: w.map toUpper) with
    | some x => .ok (1 + w.length, x)
    | none => .error (.illegalDirective, 0)

/-- The lexeme at the start of a text. -/
def lexeme : Str → Except (Err × Nat) (Nat × Lexeme)
  | [] => .error (.illegalChar, 0)
  | c :: s =>
    match punctLexeme c with
    | some x => .ok (1, x)
    | none =>
      if isAlpha c then word (c :: s)
      else if c = 36 then literal 16 1 s
      else if c = 37 then literal 2 1 s
      else if isDigit c then literal 10 0 (c :: s)
      else if c = 46 then directive s
      else .error (.illegalChar, 0)

/-- Why a piece is no sequence of lexemes. -/
inductive Wrong
  | at (e : Err) (pos : Nat)
  | tooMany
  deriving DecidableEq, Repr

/-- A label. -/
def isName : Lexeme → Bool
  | .name _ => true
  | _ => false

/-- The lexemes of the text `s` at offset `off` of the line, after `count` others. Only a name at the start of the line may
be followed by a colon. `fuel`: more than the length of the text. -/
def lexemesFrom : (fuel count off : Nat) → Str → Except Wrong (List (Nat × Lexeme))
  | 0, _, _, _ => .ok []
  | fuel + 1, count, off, t =>
    let blanks := t.takeWhile fun c => c == 32 || c == 9
    let s := t.drop blanks.length
    let off := off + blanks.length
    if s = [] then .ok []
    else match lexeme s with
      | .error (e, k) => .error (.at e (off + k))
      | .ok (n, x) =>
        let rest := s.drop n
        if count = 8 then .error .tooMany
        else if rest.head? = some 58 then
          if isName x && count == 0 then (lexemesFrom fuel 1 (off + n + 1) rest.tail).map ((off, x) :: ·)
          else .error (.at .illegalChar (off + n))
        else (lexemesFrom fuel (count + 1) (off + n) rest).map ((off, x) :: ·)

/-- The lexemes of a piece. -/
def lexemesOf (piece : List Byte) : Except Wrong (List (Nat × Lexeme)) :=
  lexemesFrom ((code piece).length + 1) 0 0 (code piece)

/-! ### Statements -/

/-- Endings that complete the beginning of a statement, if anything does (`C57_viable`). -/
def endings : List (List Lexeme) :=
  [[], [.lit 0], [.eq, .lit 0], [.name [], .lit 0], [.lit 0, .rpar], [.rpar], [.regX, .rpar], [.regX], [.regY]]

/-- The lexemes are the beginning of a statement. -/
def viable (ls : List Lexeme) : Bool := endings.any fun e => (parse (ls ++ e)).isSome

/-- The index of the first lexeme with which the line stops being the beginning of a statement. -/
def faultIndex (ls : List Lexeme) : Nat := ((List.range ls.length).find? fun i => !viable (ls.take (i + 1))).getD ls.length

/-- The mnemonic a lexeme is. -/
def mnemonicOf : Lexeme → Option Mnemonic
  | .mnem m => some m
  | _ => none

/-- `m o,r more…`, where `r` is `X` or `Y`: gaia reads the last mnemonic of the line, `X` if there is one anywhere, indirect
addressing if there is an opening parenthesis, and no addressing mode at all (`true`) if there is a `#` or an `A`. -/
def junkArg (lab : Option Str) (m : Mnemonic) (o r : Lexeme) (more : List Lexeme) : Option (Stmt × Bool) :=
  match opd o with
  | none => none
  | some o =>
    if (r = .regX ∨ r = .regY) ∧ more ≠ [] then
      let mnem := (more.reverse.findSome? mnemonicOf).getD m
      let arg : Arg :=
        if r = .regX ∨ .regX ∈ more then if .lpar ∈ more then .indX o else .idxX o
        else if .lpar ∈ more then .indY o else .idxY o
      some (.instr lab mnem arg, decide (.hash ∈ more ∨ .regA ∈ more))
    else none

/-- Lines with lexemes after an indexed operand. -/
def junk : List Lexeme → Option (Stmt × Bool)
  | .mnem m :: o :: .comma :: r :: more => junkArg none m o r more
  | .name l :: .mnem m :: o :: .comma :: r :: more => junkArg (some l) m o r more
  | _ => none

/-- The statement of a line, and whether it has a contradictory addressing mode; or the error and the index of the lexeme it
is reported at. -/
def statement (ls : List Lexeme) : Except (Err × Nat) (Stmt × Bool) :=
  match parse ls with
  | some st => .ok (st, false)
  | none =>
    match junk ls with
    | some x => .ok x
    | none => .error (if ls.head? = some .star then .illegalBase else .illegalSequence, faultIndex ls)

/-! ### Assembling -/

/-- A reference to a label that was not known: the number and text of its line, the offset of the label in it, the label,
the address and mnemonic of the instruction and its opcode. -/
structure Pending where
  line : Nat
  text : Str
  pos : Nat
  label : Str
  addr : Nat
  mnemonic : Mnemonic
  opcode : Byte
  deriving DecidableEq, Repr

/-- The assembler's state: location counter, number of the line, symbols, bytes assembled, where the output file stands, what
was written to it so far, and the references that wait for their label. -/
structure State where
  pc : Nat
  line : Nat
  env : Env
  total : Nat
  filePos : Nat
  writes : List Chunk
  pending : List Pending
  deriving DecidableEq, Repr

def State.init : State := ⟨0, 1, [], 0, 0, [], []⟩

/-- Write an instruction at the location counter. -/
def State.write (s : State) (bs : List Byte) : State :=
  { s with pc := s.pc + bs.length, total := s.total + bs.length, filePos := s.pc + bs.length,
           writes := s.writes ++ [(s.pc, bs)] }

/-- An error, and the offset in the line it is reported at. -/
abbrev Fault := Err × Option Nat

/-- Define a label. -/
def defineLabel (ls : List (Nat × Lexeme)) (l : Str) (v : Nat) (s : State) : Except Fault State :=
  if (s.env.lookup l).isSome then .error (.labelRedefinition, (nameOffsets ls).head?)
  else .ok { s with env := (l, v) :: s.env }

/-- The label an operand refers to, if it is not known. -/
def unknown (env : Env) : Option Opd → Option Str
  | some (.sym l) => if (env.lookup l).isSome then none else some l
  | _ => none

/-- Opcode and length of a branch or jump to an unknown label. -/
def forwardCode (m : Mnemonic) (a : Arg) : Option (Byte × Nat) :=
  let coded := (modeFor m a 0).bind fun md => (opcode? m md).map fun op => (UInt8.ofNat op, md.bytes)
  match a with
  | .idxX _ | .idxY _ => if m = .JMP then some (0xF3, 3) else coded
  | _ => coded

/-- Assemble an instruction. `odd`: the addressing mode is contradictory. -/
def instruction (text : Str) (ls : List (Nat × Lexeme)) (m : Mnemonic) (a : Arg) (odd : Bool) (s : State) :
    Except Fault State :=
  let pos := (nameOffsets ls.tail).head?
  match sizingValue s.env m a.opd with
  | none => .error (.illegalForwardReference, pos)
  | some v =>
    match unknown s.env a.opd with
    | none =>
      match if odd then none else modeFor m a v with
      | none => .error (.illegalAddressingMode, none)
      | some md =>
        match encodeLow s.env ⟨s.pc, m, md, a.opd⟩ with
        | none => .error (.tooBigOffset, pos)
        | some bs => .ok (s.write bs)
    | some l =>
      match if odd then none else forwardCode m a with
      | none => .error (.illegalAddressingMode, none)
      | some (op, n) =>
        let zeros : Chunk := (s.filePos, List.replicate n 0)
        let r : Pending := ⟨s.line, text, pos.getD 0, l, s.pc, m, op⟩
        .ok ({ s with writes := s.writes ++ [zeros], pending := s.pending ++ [r] }.write (op :: List.replicate (n - 1) 0))

/-- Assemble a statement. -/
def execute (text : Str) (ls : List (Nat × Lexeme)) (odd : Bool) (s : State) : Stmt → Except Fault State
  | .empty | .stop => .ok s
  | .label l => defineLabel ls l s.pc s
  | .const l v => defineLabel ls l v s
  | .org v => .ok { s with pc := v }
  | .instr none m a => instruction text ls m a odd s
  | .instr (some l) m a =>
    match defineLabel ls l s.pc s with
    | .error f => .error f
    | .ok s => instruction text ls m a odd s

/-- A failed run: what is printed, and what was written to the output file. -/
abbrev Failure := Str × List Chunk

/-- Assemble all pieces, up to `.END`. `fn` is the name of the source file. -/
def runPieces (fn : Str) : List (List Byte) → State → Except Failure State
  | [], s => .ok s
  | piece :: rest, s =>
    let text := piece.takeWhile (· != 0)
    let fail (e : Err) (pos : Option Nat) : Except Failure State := .error (diag text e pos fn s.line, s.writes)
    match lexemesOf piece with
    | .error .tooMany => .error ([], s.writes)
    | .error (.at e pos) => fail e (some pos)
    | .ok ls =>
      match statement (ls.map (·.2)) with
      | .error (e, i) => fail e (ls[i]?.map (·.1))
      | .ok (st, odd) =>
        match execute text ls odd s st with
        | .error (e, pos) => fail e pos
        | .ok s => if st = .stop then .ok s else runPieces fn rest { s with line := s.line + 1 }

/-- Write the operands of the references, now that all labels are known. -/
def resolve (fn : Str) (env : Env) : List Pending → List Chunk → Except Failure (List Chunk)
  | [], W => .ok W
  | r :: rest, W =>
    let fail (e : Err) : Except Failure (List Chunk) := .error (diag r.text e (some r.pos) fn r.line, W)
    match env.lookup r.label with
    | none => fail .missingLabelDefinition
    | some v =>
      if isBranch r.mnemonic then
        match branchByte r.addr v with
        | none => fail .tooBigOffset
        | some b => resolve fn env rest (W ++ [(r.addr, [r.opcode, b])])
      else resolve fn env rest (W ++ [(r.addr, [r.opcode, UInt8.ofNat (v % 256), UInt8.ofNat (v / 256 % 256)])])

/-- The symbol a statement defines. -/
def defined : Stmt → Option Str
  | .label l | .const l _ | .instr (some l) _ _ => some l
  | _ => none

/-- Some piece that is reached defines a new symbol although there are `maxSymbols` already. -/
def overflows : List (List Byte) → State → Prop
  | [], _ => False
  | piece :: rest, s => ∃ ls st odd, lexemesOf piece = .ok ls ∧ statement (ls.map (·.2)) = .ok (st, odd) ∧
      ((maxSymbols ≤ s.env.length ∧ ∃ l, defined st = some l ∧ s.env.lookup l = none) ∨
       (st ≠ .stop ∧ ∃ s', execute (piece.takeWhile (· != 0)) ls odd s st = .ok s' ∧
          overflows rest { s' with line := s'.line + 1 }))

/-- The result of a run: exit status, text printed, content of the output file. -/
structure Result where
  status : Nat
  text : Str
  file : List Byte
  deriving DecidableEq, Repr

/-- The result of a failure. -/
def Failure.result (f : Failure) : Result := ⟨1, f.1, image f.2⟩

/-- The reference assembler. -/
def run (fn : Str) (src : List Byte) : Result :=
  match runPieces fn (pieces src) .init with
  | .error f => Failure.result f
  | .ok s =>
    match resolve fn s.env s.pending s.writes with
    | .error f => Failure.result f
    | .ok W => ⟨0, b! "Assembly successful.\n" ++ decimal s.total ++ b! " (0x" ++ hex04 s.total ++ b! ") bytes assembled.\n" ++
        decimal s.env.length ++ b! " symbols.\n", image W⟩

end Gaia.Spec.Reference

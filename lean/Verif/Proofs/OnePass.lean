import Verif.Model.Main
import Verif.Proofs.SynSpec
import Verif.Proofs.ForwardRef
import Verif.Proofs.SymTab
import Verif.Spec.Assembler

/-!
A pure version of the main loop, over lexemes: no scratch structures, no hash table, no undefined behaviour.
`Proofs/Step.lean` shows that the model of main.c computes the same thing.
-/
namespace Gaia
open Spec

/-- One byte written at the file position. -/
def OutFile.put (f : OutFile) (b : Byte) : OutFile :=
  { bytes := (f.bytes ++ List.replicate (f.pos - f.bytes.length) 0).take f.pos ++
      b :: (f.bytes ++ List.replicate (f.pos - f.bytes.length) 0).drop (f.pos + 1),
    pos := f.pos + 1, log := f.log ++ [(f.pos, b)] }

/-- Several bytes written at the file position. -/
def OutFile.puts (f : OutFile) (bs : List Byte) : OutFile := bs.foldl OutFile.put f

/-- Registers and punctuation on a line, as far as they select the addressing mode. -/
structure Shape where
  x : Bool
  y : Bool
  par : Bool
  imm : Bool
  acc : Bool
  deriving DecidableEq, Repr

def shape (ls : List Lexeme) : Shape :=
  ⟨ls.contains .regX, ls.contains .regY, ls.contains .lpar, ls.contains .hash, ls.contains .regA⟩

def masks (s : Shape) (f : Flags) : Flags :=
  let f := if s.x then f &&& X_REGISTER_FIELD else if s.y then f &&& Y_REGISTER_FIELD else f &&& NOT_REGISTER_FIELD
  let f := if s.par then f &&& INDIRECT_FIELD else f &&& NOT_INDIRECT_FIELD
  let f := if s.imm then f &&& ADDR_MODE_IMMEDIATE else f &&& ~~~ADDR_MODE_IMMEDIATE
  if s.acc then f &&& ADDR_MODE_ACCUMULATOR else f &&& ~~~ADDR_MODE_ACCUMULATOR

/-- Mode flag without an operand. -/
def noneFlag (m : Mnemonic) : Flags :=
  if m = .ASL ∨ m = .LSR ∨ m = .ROL ∨ m = .ROR then getAddrBitfield m &&& ADDR_MODE_ACCUMULATOR
  else getAddrBitfield m &&& ADDR_MODE_IMPLIED

/-- Mode flag with a known operand: the accumulator, or a value that is bigger than 0xFF or not. -/
def knownFlag (m : Mnemonic) (acc big : Bool) (s : Shape) : Flags :=
  let f : Flags :=
    if acc then 0x1FFF &&& ADDR_MODE_ACCUMULATOR
    else if big then if !Gaia.isBranch m then ABSOLUTE_FIELD else ZERO_PAGE_FIELD
    else if !Gaia.isJump m then ZERO_PAGE_FIELD else ABSOLUTE_FIELD
  masks s (if Gaia.isBranch m then f &&& ADDR_MODE_RELATIVE else f &&& ~~~ADDR_MODE_RELATIVE) &&& getAddrBitfield m

/-- Mode flag of a forward reference. -/
def fwdFlag (m : Mnemonic) (s : Shape) : Flags :=
  masks s 0x1FFF &&&
    (if Gaia.isBranch m then ADDR_MODE_RELATIVE else if m = .JMP then ABSOLUTE_FIELD else ADDR_MODE_ABSOLUTE)

/-- The byte written for the opcode. -/
def opByte (m : Mnemonic) (f : Flags) : Byte := UInt8.ofNat (assembleMnemonic m f % 256).toNat

/-- The operand bytes. -/
def argBytes (f : Flags) (v : Nat) : List Byte :=
  if f &&& ABSOLUTE_FIELD ≠ 0 then [UInt8.ofNat v, UInt8.ofNat (v / 256)] else [UInt8.ofNat v]

/-- State of the pure machine. -/
structure A where
  pc : Nat
  lineNum : Nat
  total : Nat
  env : Env
  refs : List ForwardRef
  out : OutFile
  deriving DecidableEq, Repr

def A.init : A := ⟨0, 1, 0, [], [], OutFile.empty⟩

/-- Write the bytes of an instruction at the location counter. -/
def A.emit (a : A) (bs : List Byte) : A :=
  { a with out := (a.out.seek a.pc).puts bs, lineNum := a.lineNum + 1, pc := a.pc + bs.length,
           total := a.total + bs.length }

/-- An error code and the offset it is reported at. -/
abbrev Fault := Err × Option Nat

/-- Can the lexeme be found by `find_operand`? -/
def operandLike : Lexeme → Bool
  | .name _ | .lit _ | .regA => true
  | _ => false

/-- The operand of a line: the first label, literal or `A` after the first lexeme. -/
def operandOf (ls : List (Nat × Lexeme)) : Option (Nat × Lexeme) := ls.tail.find? fun p => operandLike p.2

/-- The last mnemonic of a line. -/
def lastMnem : List Lexeme → Option Mnemonic
  | [] => none
  | .mnem m :: ls => some ((lastMnem ls).getD m)
  | _ :: ls => lastMnem ls

/-- The reference saved for a label that is not known yet. -/
def mkRef (buf l : Str) (m : Mnemonic) (f : Flags) (p : Nat) (a : A) : ForwardRef :=
  { label := l, sourceLine := (savedLine buf).getD [], instr := ⟨some m, getAddrBitfield m, f, 0⟩, pc := a.pc,
    lineNum := a.lineNum,
    status := if Gaia.isBranch m then .branchForwardReference else .jumpForwardReference, operandLocation := p }

/-- The dummy bytes of a forward reference, at the current file position. -/
def A.saveRef (a : A) (r : ForwardRef) (m : Mnemonic) : A :=
  { a with refs := a.refs ++ [r], out := a.out.puts (if Gaia.isBranch m then [0, 0] else [0, 0, 0]) }

/-- A line with an instruction. -/
def instrStep (buf : Str) (ls : List (Nat × Lexeme)) (m : Mnemonic) (a : A) : Except Fault A :=
  let s := shape (ls.map (·.2))
  match operandOf ls with
  | some (_, .regA) =>
    if knownFlag m true false s = 0 then .error (.illegalAddressingMode, none)
    else .ok (a.emit [opByte m (knownFlag m true false s)])
  | some (_, .lit v) =>
    if knownFlag m false (decide (v > 0xFF)) s = 0 then .error (.illegalAddressingMode, none)
    else .ok (a.emit (opByte m (knownFlag m false (decide (v > 0xFF)) s) ::
      argBytes (knownFlag m false (decide (v > 0xFF)) s) v))
  | some (p, .name l) =>
    match a.env.lookup l with
    | some v =>
      if knownFlag m false (decide (v > 0xFF)) s = 0 then .error (.illegalAddressingMode, none)
      else if Gaia.isBranch m then
        match branchByte a.pc v with
        | none => .error (.tooBigOffset, some p)
        | some b => .ok (a.emit [opByte m (knownFlag m false (decide (v > 0xFF)) s), b])
      else .ok (a.emit (opByte m (knownFlag m false (decide (v > 0xFF)) s) ::
        argBytes (knownFlag m false (decide (v > 0xFF)) s) v))
    | none =>
      if Gaia.isBranch m ∨ Gaia.isJump m then
        if fwdFlag m s = 0 then .error (.illegalAddressingMode, none)
        else .ok ((a.saveRef (mkRef buf l m (fwdFlag m s) p a) m).emit
          (opByte m (fwdFlag m s) :: argBytes (fwdFlag m s) 0))
      else .error (.illegalForwardReference, some p)
  | _ =>
    if noneFlag m = 0 then .error (.illegalAddressingMode, none) else .ok (a.emit [opByte m (noneFlag m)])

/-- The label a line declares: offset, name, value. -/
def declared (pc : Nat) : List (Nat × Lexeme) → Option (Nat × Str × Nat)
  | (p, .name l) :: (_, .eq) :: (_, .lit v) :: _ => some (p, l, v)
  | (p, .name l) :: (_, .equ) :: (_, .lit v) :: _ => some (p, l, v)
  | (_, .define) :: (p, .name l) :: (_, .lit v) :: _ => some (p, l, v)
  | (p, .name l) :: _ => some (p, l, pc)
  | _ => none

/-- The origin a line sets. -/
def originOf : List (Nat × Lexeme) → Option Nat
  | (_, .org) :: (_, .lit v) :: _ => some v
  | (_, .star) :: (_, .eq) :: (_, .lit v) :: _ => some v
  | _ => none

/-- The declaration or origin of a line. -/
def declare (ls : List (Nat × Lexeme)) (a : A) : Except Fault A :=
  match declared a.pc ls with
  | some (p, l, v) =>
    match a.env.lookup l with
    | some _ => .error (.labelRedefinition, some p)
    | none => .ok { a with env := (l, v) :: a.env }
  | none =>
    match originOf ls with
    | some v => .ok { a with pc := v }
    | none => .ok a

def isStop : List (Nat × Lexeme) → Bool
  | (_, .stop) :: _ => true
  | _ => false

/-- A line that passed the syntax check; the boolean says that `.END` was met. -/
def step (buf : Str) (ls : List (Nat × Lexeme)) (a : A) : Except Fault (Bool × A) :=
  match declare ls a with
  | .error f => .error f
  | .ok a =>
    if isStop ls then .ok (true, a)
    else match lastMnem (ls.map (·.2)) with
      | none => .ok (false, { a with lineNum := a.lineNum + 1 })
      | some m =>
        match instrStep buf ls m a with
        | .error f => .error f
        | .ok a => .ok (false, a)

/-- A fault in the current line, with its diagnostic. -/
def faultAt (fn : Str) (buf : Str) (a : A) (f : Fault) : Abort := ⟨⟨f.1, diag buf f.1 f.2 fn a.lineNum⟩, a.out⟩

/-- One line. -/
def line (fn : Str) (raw : List Byte) (a : A) : Except Abort (Bool × A) :=
  match lexemes raw with
  | .error (.at e pos) => .error (faultAt fn (cstr raw) a (e, some pos))
  | .error .tooMany => .error ⟨⟨.tooManyTokens, []⟩, a.out⟩
  | .ok ls =>
    match syn (typeAt (ls.map (·.2))) with
    | .error (i, e) => .error (faultAt fn (cstr raw) a (e, posAt ls i))
    | .ok _ =>
      match step (cstr raw) ls a with
      | .error f => .error (faultAt fn (cstr raw) a f)
      | .ok r => .ok r

/-- All lines. -/
def runLines (fn : Str) : List (List Byte) → A → Except Abort A
  | [], a => .ok a
  | raw :: rest, a =>
    match line fn raw a with
    | .error e => .error e
    | .ok (true, a) => .ok a
    | .ok (false, a) => runLines fn rest a

/-- Patch the references. -/
def patch (fn : Str) (env : Env) : List ForwardRef → OutFile → Except Abort OutFile
  | [], out => .ok out
  | r :: rs, out =>
    match env.lookup r.label with
    | none =>
      .error ⟨⟨.missingLabelDefinition, diag r.sourceLine .missingLabelDefinition (some r.operandLocation) fn r.lineNum⟩, out⟩
    | some v =>
      if r.status = .branchForwardReference then
        match branchByte r.pc v with
        | none => .error ⟨⟨.tooBigOffset, diag r.sourceLine .tooBigOffset (some r.operandLocation) fn r.lineNum⟩, out⟩
        | some b =>
          patch fn env rs ((out.seek r.pc).puts [UInt8.ofNat (getOpcode r.instr % 256).toNat, b])
      else
        patch fn env rs ((out.seek r.pc).puts [UInt8.ofNat (getOpcode r.instr % 256).toNat, UInt8.ofNat v, UInt8.ofNat (v / 256)])

/-- The whole assembly. -/
def assembleA (fn : Str) (src : List Byte) : Except Abort A :=
  match runLines fn (chunks src) A.init with
  | .error e => .error e
  | .ok a =>
    match patch fn a.env a.refs a.out with
    | .error e => .error e
    | .ok out => .ok { a with out := out }

end Gaia

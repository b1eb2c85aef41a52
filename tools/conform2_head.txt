import Verif.Model.Codes

/-!
The project's unit tests (/repo/tests), translated statement by statement by tools/gen_conform2.py into scripts run on the model with the
C return codes (Verif/Model/Codes.lean), and evaluated by the kernel. The expected values are those of the tests, the constants
those of the headers. These are tests of the model, not proofs of properties: they are evidence that the model is the code's.
-/
set_option maxRecDepth 1000000
namespace Gaia.Conformance2
open Gaia

instance : Inhabited Codes.ForwardRef := ⟨⟨[], [], initInstruction, 0, 0, 0, 0⟩⟩

/-- The variables of a test. -/
structure T where
  lx : Lexer := initLexer []
  r : Codes.Running := ⟨initToken, none⟩
  instr : Instr := initInstruction
  tab : SymTab := initSymbolTable
  operand : Option Token := none
  status : Int := 0
  mask : Int := 0
  ref : Option Codes.ForwardRef := none
  un : Codes.Unresolved := Codes.initUnresolved
  f : OutFile := .empty
  pc : Nat := 0
  written : Int := 0
  dest : Int := 0

/-- Calls with their expected result (`none`: any). -/
inductive Act
  | check (p : T → Bool)
  | update (f : T → T)
  | lexLine (n : Nat) (s : List Byte) (w : Option Int)
  | parseLine (w : Option Int)
  | instrTree (i : Nat) (w : Option Int)
  | labelTree (i : Nat) (w : Option Int)
  | directiveTree (i : Nat) (w : Option Int)
  | baseTree (i : Nat) (w : Option Int)
  | declare (pc : Option Nat) (w : Option Int)
  | findOperand
  | parseOperand (w : Option Int)
  | parseLabelOperand (w : Option Int)
  | parseAddrMode (st : Option Int) (w : Option Int)
  | parseForwardRefAddrMode (w : Option Int)
  | applyMasks (field : Nat) (w : Option Int)
  | search (l : Str) (w : Option Int)
  | searchToken (i : Nat) (w : Option Int)
  | searchRef
  | lexLiteral (s : Str) (off : Nat) (w : Option Int)
  | lexDirective (s : Str) (off : Nat) (w : Option Int)
  | lexText (s : Str) (off : Nat) (w : Option Int)
  | lex (s : Str) (off : Nat) (w : Option Int)
  | lexInstruction (w : Option Int)
  | tokenStrncpy (s : Str) (n : Nat)
  | tokenStrcpy (s : Str) (w : Option Int)
  | addToken (w : Option Int)
  | createRef (n : Nat) (s : Str)
  | insert (l : Str) (v : Int)
  | addRef (w : Option Int)
  | generate (w : Option Int)
  | resolveLabel (w : Option Int)
  | resolveRef (w : Option Int)
  | getOpcode (w : Option Int)
  | setPc (n : Nat)
  | addPc (n : Nat)
  | advance

def run {α} (m : Codes.M α) : Option α :=
  match m.run [] with
  | .ok (a, _) => some a
  | .error _ => none

def want (w : Option Int) (code : Int) (t : T) : Option T :=
  if w.all (· == code) then some t else none

def Act.exec (t : T) : Act → Option T
  | .check p => if p t then some t else none
  | .update f => some (f t)
  | .lexLine n s w => do
    let (c, lx, r, i) ← run (Codes.lexLine s t.lx t.r t.instr n)
    want w c { t with lx := lx, r := r, instr := i }
  | .parseLine w => do
    let (c, lx) ← run (Codes.parseLine t.lx)
    want w c { t with lx := lx }
  | .instrTree i w => do want w (← run (Codes.parseInstrTree t.lx i)) t
  | .labelTree i w => do want w (← run (Codes.parseLabelTree t.lx i)) t
  | .directiveTree i w => do
    let (c, lx) ← run (Codes.parseDirectiveTree t.lx i)
    want w c { t with lx := lx }
  | .baseTree i w => do
    let (c, lx) ← run (Codes.parseBaseTree t.lx i)
    want w c { t with lx := lx }
  | .declare pc w => do
    let (c, tab) ← run (Codes.parseLabelDeclaration t.lx t.tab (pc.getD t.pc))
    want w c { t with tab := tab }
  | .findOperand => do
    let op ← run (Codes.value (Gaia.findOperand t.lx))
    some { t with operand := op }
  | .parseOperand w => do
    let (c, op) ← run (Codes.parseOperand t.lx t.instr t.operand t.tab)
    want w c { t with operand := op, status := c }
  | .parseLabelOperand w => do
    let op ← t.operand
    let (c, op) ← run (Codes.parseLabelOperand t.lx t.instr op t.tab)
    want w c { t with operand := some op, status := c }
  | .parseAddrMode st w => do
    let (c, i) ← run (Codes.parseAddrMode t.lx t.instr t.operand (st.getD t.status))
    want w c { t with instr := i, mask := c }
  | .parseForwardRefAddrMode w => do
    let (c, i) ← run (Codes.parseForwardRefAddrMode t.lx t.instr)
    want w c { t with instr := i }
  | .applyMasks field w => want w (Gaia.applyMasks t.lx (BitVec.ofNat 32 field)).toInt t
  | .search l w => do want w (← run (Codes.searchSymbol t.tab l)) t
  | .searchToken i w => do
    let tk ← t.lx.seq[i]?
    want w (← run (Codes.searchSymbol t.tab tk.str)) t
  | .searchRef => do
    let ref ← t.ref
    some { t with dest := ← run (Codes.searchSymbol t.tab ref.label) }
  | .lexLiteral s off w =>
    let (c, r) := Codes.lexLiteral off (s.drop off) t.r
    want w c { t with r := r }
  | .lexDirective s off w => do
    let (c, r) ← run (Codes.lexDirective off (s.drop off) t.r)
    want w c { t with r := r }
  | .lexText s off w => do
    let (c, r, i) ← run (Codes.lexText off (s.drop off) t.r t.instr)
    want w c { t with r := r, instr := i }
  | .lex s off w => do
    let (c, r, i) ← run (Codes.lex off (s.drop off) t.r t.instr)
    want w c { t with r := r, instr := i }
  | .lexInstruction w =>
    let (c, tk, i) := Codes.lexInstruction t.r.tk t.instr
    want w c { t with r := { t.r with tk := tk }, instr := i }
  | .tokenStrncpy s n => do
    let tk ← run (Codes.value (Gaia.tokenStrncpy t.r.tk s n))
    some { t with r := { t.r with tk := tk } }
  | .tokenStrcpy s w => do
    let tk ← run (Codes.value (Gaia.tokenStrcpy t.r.tk s))
    want w s.length { t with r := { t.r with tk := tk } }
  | .addToken w => do
    let (c, lx) ← run (Codes.addToken t.lx t.r.tk)
    want w c { t with lx := lx }
  | .createRef n s => do
    let ref ← run (Codes.createForwardRef (cstr s) t.instr t.operand t.status t.pc n)
    some { t with ref := some ref }
  | .insert l v => do
    let (_, tab) ← run (Codes.insertSymbol t.tab l v)
    some { t with tab := tab }
  | .addRef w => do
    let ref ← t.ref
    let (c, un) ← run (Codes.addForwardRef t.un ref)
    want w c { t with un := un }
  | .generate w =>
    let (c, f) := Codes.generateCode t.f t.instr t.operand t.pc
    want w c { t with f := f, written := c }
  | .resolveLabel w => do
    let (c, f) ← run (Codes.resolveLabelRef t.f t.lx t.instr t.operand t.status t.tab t.pc)
    want w c { t with f := f, written := c }
  | .resolveRef w => do
    let ref ← t.ref
    let (c, f) ← run (Codes.resolveForwardRef t.f ref t.lx t.dest)
    want w c { t with f := f }
  | .getOpcode w => want w (Gaia.getOpcode t.instr) t
  | .setPc n => some { t with pc := n }
  | .addPc n => some { t with pc := t.pc + n }
  | .advance => some { t with pc := (t.pc + t.written).toNat }

/-- All calls of a script return what is expected. -/
def passes (l : List Act) : Bool := go l {}
where
  go : List Act → T → Bool
    | [], _ => true
    | a :: l, t =>
      match a.exec t with
      | some t => go l t
      | none => false


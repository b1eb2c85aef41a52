import Verif.Spec.Assembler

/-!
Specification: what can be wrong with a program, and which error has to be reported for which line. Errors of the
statements themselves come first, in program order; then come the references to labels that were not known when their
line was reached.
-/
namespace Gaia.Spec
open Gaia

/-- A label may be defined once. -/
def labelFault (env : Env) (l : Str) : Option Err :=
  if (env.lookup l).isSome then some .labelRedefinition else none

/-- What is wrong with an instruction at location `pc` when the symbols `env` are known. -/
def instrFault (pc : Nat) (env : Env) (m : Mnemonic) (a : Arg) : Option Err :=
  match sizingValue env m a.opd with
  | none => some .illegalForwardReference
  | some v =>
    match modeFor m a v with
    | none => some .illegalAddressingMode
    | some _ =>
      match a.opd with
      | some (.sym l) =>
        match env.lookup l with
        | some t => if isBranch m ∧ branchByte pc t = none then some .tooBigOffset else none
        | none => none
      | _ => none

/-- What is wrong with a statement. -/
def stmtFault (s : Pass1) : Stmt → Option Err
  | .empty | .stop | .org _ => none
  | .label l => labelFault s.env l
  | .const l _ => labelFault s.env l
  | .instr none m a => instrFault s.pc s.env m a
  | .instr (some l) m a =>
    match labelFault s.env l with
    | some e => some e
    | none => instrFault s.pc ((l, s.pc) :: s.env) m a

/-- The first statement (with its line number) with an error. -/
def firstFault : List Stmt → (n : Nat) → Pass1 → Option (Nat × Err)
  | [], _, _ => none
  | .stop :: _, _, _ => none
  | st :: rest, n, s =>
    match stmtFault s st with
    | some e => some (n, e)
    | none => firstFault rest (n + 1) ((pass1Stmt s st).getD s)

/-- An instruction, its line number and the symbols known when its line is reached. -/
structure Placed where
  line : Nat
  item : Item
  known : Env
  deriving DecidableEq, Repr

/-- All instructions of a program, in order. -/
def placed : List Stmt → (n : Nat) → Pass1 → List Placed
  | [], _, _ => []
  | .stop :: _, _, _ => []
  | st :: rest, n, s =>
    match pass1Stmt s st with
    | none => []
    | some s' => (s'.items.drop s.items.length).map (fun it => ⟨n, it, s'.env⟩) ++ placed rest (n + 1) s'

/-- The label an instruction refers to before it is known. -/
def Placed.forward (p : Placed) : Option Str :=
  match p.item.opd with
  | some (.sym l) => if (p.known.lookup l).isSome then none else some l
  | _ => none

/-- What is wrong with a forward reference, given all symbols. -/
def Placed.fault (env : Env) (p : Placed) : Option (Nat × Err) :=
  match p.forward with
  | none => none
  | some l =>
    match env.lookup l with
    | none => some (p.line, .missingLabelDefinition)
    | some t => if isBranch p.item.mnemonic ∧ branchByte p.item.addr t = none then some (p.line, .tooBigOffset) else none

/-- Initial state of the first pass. -/
def Pass1.init : Pass1 := ⟨0, [], []⟩

/-- The error to be reported for a program: line number and kind. -/
def check (p : List Stmt) : Option (Nat × Err) :=
  match firstFault p 1 .init with
  | some f => some f
  | none => (placed p 1 .init).findSome? (Placed.fault ((pass1 p .init).getD .init).env)

/-- The operand value fits the field it goes to: two bytes, or one byte for a literal branch offset. (Values in
zero-page and immediate fields fit by the choice of the mode.) -/
def Fits (env : Env) (it : Item) : Prop :=
  (∀ v, it.opd = some (.lit v) → (it.mode.bytes = 3 → v ≤ 0xFFFF) ∧ (it.mode = .rel → v ≤ 0xFF)) ∧
  ∀ l v, it.opd = some (.sym l) → env.lookup l = some v → it.mode.bytes = 3 → v ≤ 0xFFFF

/-- All operands of the program fit their fields. -/
def InRange (p : List Stmt) : Prop := ∀ s, pass1 p .init = some s → ∀ it ∈ s.items, Fits s.env it

/-! gaia writes the dummy bytes of a forward reference at the file position it happens to have, which is the end of the
instruction assembled before. If the origin was changed in between, they may destroy other code. The following says
when they do not. -/

/-- The file position after the instructions `es`. -/
def endFrom : Nat → List Placed → Nat
  | p, [] => p
  | _, e :: es => endFrom (e.item.addr + e.item.mode.bytes) es

/-- Address `i` belongs to the instruction. -/
def Covers (e : Placed) (i : Nat) : Prop := e.item.addr ≤ i ∧ i < e.item.addr + e.item.mode.bytes

instance (e : Placed) (i : Nat) : Decidable (Covers e i) := by unfold Covers; infer_instance

/-- The dummy bytes of a forward reference hit neither an earlier instruction nor the space behind the program, and
no later instruction overlaps the reference itself. -/
structure Harmless (es : List Placed) : Prop where
  before : ∀ pre e post, es = pre ++ e :: post → e.forward.isSome = true → ∀ d ∈ pre, ∀ i, Covers d i →
    ¬ (endFrom 0 pre ≤ i ∧ i < endFrom 0 pre + e.item.mode.bytes)
  inside : ∀ pre e post, es = pre ++ e :: post → e.forward.isSome = true →
    ∃ d ∈ es, endFrom 0 pre + e.item.mode.bytes ≤ d.item.addr + d.item.mode.bytes
  after : ∀ pre e post, es = pre ++ e :: post → e.forward.isSome = true → ∀ d ∈ post, ∀ i, Covers e i → ¬ Covers d i

/-- The offsets of the names of a line. -/
def nameOffsets (ls : List (Nat × Lexeme)) : List Nat :=
  ls.filterMap fun q => match q.2 with
    | .name _ => some q.1
    | _ => none

/-- The offset a message points at: the defined name for a redefinition, the operand for a reference, nothing for a
wrong addressing mode. -/
def faultPos (ls : List (Nat × Lexeme)) : Err → Option Nat
  | .labelRedefinition => (nameOffsets ls).head?
  | .tooBigOffset | .illegalForwardReference | .missingLabelDefinition => (nameOffsets ls).getLast?
  | _ => none

/-- `Reads ls p`: the lines `ls` are written statements `p` (nothing is asked of what follows `.END`). -/
inductive Reads : List (List Byte) → List Stmt → Prop
  | nil : Reads [] []
  | stop (l : List Byte) (rest : List (List Byte)) (x : List (Nat × Lexeme)) (h1 : Lexes l x)
      (h2 : parse (x.map (·.2)) = some .stop) : Reads (l :: rest) [.stop]
  | cons (l : List Byte) (rest : List (List Byte)) (x : List (Nat × Lexeme)) (st : Stmt) (p : List Stmt)
      (h1 : Lexes l x) (h2 : parse (x.map (·.2)) = some st) (h3 : st ≠ .stop) (hr : Reads rest p) :
      Reads (l :: rest) (st :: p)

end Gaia.Spec

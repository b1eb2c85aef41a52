import Verif.Spec.Syntax

/-!
Specification: a textbook two-pass 6502 assembler over the statements of `Spec/Syntax.lean`, and the memory image of
its output. It uses the opcode table of `Spec/OpTable.lean` (the CSV file), not the assembler's C tables.
-/
namespace Gaia.Spec
open Gaia

/-- A branch: a mnemonic with a relative mode. -/
def isBranch (m : Mnemonic) : Bool := (opcode? m .rel).isSome

/-- A jump. -/
def isJump (m : Mnemonic) : Bool := m == .JMP || m == .JSR

/-- The operand of an argument. -/
def Arg.opd : Arg → Option Opd
  | .none | .acc => Option.none
  | .imm o | .plain o | .idxX o | .idxY o | .ind o | .indX o | .indY o => some o

/-- The addressing mode asked for by the written form and the size of the operand value `v` (a value up to 0xFF asks
for the one-byte form; branches are relative, jumps absolute or indirect, whatever the value). -/
def wantedMode (m : Mnemonic) (a : Arg) (v : Nat) : Option Mode :=
  let small := decide (v ≤ 0xFF)
  match a with
  | .none => if (opcode? m .imp).isSome then some .imp else some .acc
  | .acc => some .acc
  | .imm _ => if small then some .imm else Option.none
  | .plain _ =>
    if isBranch m then some .rel
    else if isJump m then some .abs
    else if small then some .zp else some .abs
  | .idxX _ => if small && !isJump m then some .zpX else some .absX
  | .idxY _ => if small && !isJump m then some .zpY else some .absY
  | .ind _ => some .ind
  | .indX _ => if small then some .indX else Option.none
  | .indY _ => if small then some .indY else Option.none

/-- The mode an instruction is assembled in: the wanted mode, if the 6502 has it for this mnemonic. -/
def modeFor (m : Mnemonic) (a : Arg) (v : Nat) : Option Mode :=
  (wantedMode m a v).filter fun md => (opcode? m md).isSome

/-- Symbol environment, newest definition first. -/
abbrev Env := List (Str × Nat)

/-- An instruction placed at an address. -/
structure Item where
  addr : Nat
  mnemonic : Mnemonic
  mode : Mode
  opd : Option Opd
  deriving DecidableEq, Repr

/-- State of the first pass: location counter, symbols, instructions placed so far. -/
structure Pass1 where
  pc : Nat
  env : Env
  items : List Item
  deriving DecidableEq, Repr

/-- Define a label; a second definition is an error. -/
def define (s : Pass1) (l : Str) (v : Nat) : Option Pass1 :=
  match s.env.lookup l with
  | some _ => Option.none
  | Option.none => some { s with env := (l, v) :: s.env }

/-- The value used to choose the size of an instruction. A label that is not defined yet may only be used by branches
and jumps, whose size does not depend on it. -/
def sizingValue (env : Env) (m : Mnemonic) : Option Opd → Option Nat
  | Option.none => some 0
  | some (.lit v) => some v
  | some (.sym l) =>
    match env.lookup l with
    | some v => some v
    | Option.none => if isBranch m || isJump m then some 0 else Option.none

/-- First pass, one instruction: choose the mode and advance the location counter by the length. -/
def place (s : Pass1) (m : Mnemonic) (a : Arg) : Option Pass1 := do
  let v ← sizingValue s.env m a.opd
  let md ← modeFor m a v
  some { s with pc := s.pc + md.bytes, items := s.items ++ [⟨s.pc, m, md, a.opd⟩] }

/-- First pass, one statement (`.END` is handled by `pass1`). -/
def pass1Stmt (s : Pass1) : Stmt → Option Pass1
  | .empty | .stop => some s
  | .label l => define s l s.pc
  | .const l v => define s l v
  | .org v => some { s with pc := v }
  | .instr Option.none m a => place s m a
  | .instr (some l) m a => do place (← define s l s.pc) m a

/-- First pass: addresses and symbols, up to `.END`. -/
def pass1 : List Stmt → Pass1 → Option Pass1
  | [], s => some s
  | .stop :: _, s => some s
  | st :: rest, s => do pass1 rest (← pass1Stmt s st)

/-- The value of an operand in the complete symbol table. -/
def opdValue (env : Env) : Opd → Option Nat
  | .lit v => some v
  | .sym l => env.lookup l

/-- The signed distance from the instruction after a branch at `addr` to `target`, as a byte. -/
def branchByte (addr target : Nat) : Option Byte :=
  let d : Int := (target : Int) - (addr + 2)
  if -128 ≤ d ∧ d ≤ 127 then some (UInt8.ofNat (d % 256).toNat) else Option.none

/-- Second pass: the operand bytes of an item. The operand of a branch is a target label, or a literal offset byte. -/
def operandBytes (env : Env) (it : Item) : Option (List Byte) :=
  match it.mode.bytes, it.opd with
  | 1, _ => some []
  | _, Option.none => Option.none
  | n, some o => do
    let v ← opdValue env o
    if it.mode = .rel then
      match o with
      | .lit v => if v ≤ 0xFF then some [UInt8.ofNat v] else Option.none
      | .sym _ => (branchByte it.addr v).map fun b => [b]
    else if n = 2 then
      if v ≤ 0xFF then some [UInt8.ofNat v] else Option.none
    else
      if v ≤ 0xFFFF then some [UInt8.ofNat (v % 256), UInt8.ofNat (v / 256)] else Option.none

/-- Second pass: the bytes of an item. -/
def encode (env : Env) (it : Item) : Option (List Byte) := do
  let op ← opcode? it.mnemonic it.mode
  let bs ← operandBytes env it
  some (UInt8.ofNat op :: bs)

/-- A stretch of bytes at an address. -/
abbrev Chunk := Nat × List Byte

/-- The result of an assembly. -/
structure Result where
  chunks : List Chunk
  env : Env
  deriving DecidableEq, Repr

/-- Second pass over all items, in program order. -/
def pass2 (env : Env) : List Item → Option (List Chunk)
  | [] => some []
  | it :: rest => do
    let bs ← encode env it
    let cs ← pass2 env rest
    some ((it.addr, bs) :: cs)

/-- The two-pass assembler. -/
def assemble (stmts : List Stmt) : Option Result := do
  let s ← pass1 stmts ⟨0, [], []⟩
  let chunks ← pass2 s.env s.items
  some ⟨chunks, s.env⟩

/-- Number of bytes assembled. -/
def totalBytes (cs : List Chunk) : Nat := (cs.map fun c => c.2.length).sum

/-- The byte a chunk puts at an address, if it covers it. -/
def Chunk.at (c : Chunk) (a : Nat) : Option Byte := if c.1 ≤ a then c.2[a - c.1]? else Option.none

/-- The byte at an address after writing the chunks in order: the last chunk that covers it wins, 0 if there is none. -/
def byteAt (cs : List Chunk) (a : Nat) : Byte := (cs.reverse.findSome? (Chunk.at · a)).getD 0

/-- The first address after everything written. -/
def imageEnd (cs : List Chunk) : Nat := (cs.map fun c => c.1 + c.2.length).foldl max 0

/-- The memory image from address 0 up to the last byte written. -/
def image (cs : List Chunk) : List Byte := (List.range (imageEnd cs)).map (byteAt cs)

/-- Addresses ascend: each instruction starts at or after the end of all earlier ones. -/
def Ascending (items : List Item) : Prop := items.Pairwise fun a b => a.addr + a.mode.bytes ≤ b.addr

/-- The lines of a file: cut after each newline; the newline is not part of the line. -/
def lines : List Byte → List (List Byte)
  | [] => []
  | c :: s =>
    if c = 10 then [] :: lines s
    else match lines s with
      | [] => [[c]]
      | l :: ls => (c :: l) :: ls

end Gaia.Spec

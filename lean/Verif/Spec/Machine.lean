import Verif.Spec.Disassemble
import Verif.Spec.Program

/-!
Specification: a processor that executes a binary, and one that executes the source program directly. What an instruction does to
registers, flags and memory is left open (any `Processor`); what matters for an assembler is which instruction is executed, with
which operand, and where execution goes on.
-/
namespace Gaia.Spec
open Gaia

/-- A processor: any kind of state with a program counter and a memory, and any effect of executing an instruction, given the
mnemonic, the addressing mode, the number the operand stands for (for a branch: the address it leads to) and the address of the instruction
after it. -/
structure Processor (σ : Type) where
  pc : σ → Nat
  mem : σ → Nat → Byte
  exec : Mnemonic → Mode → Nat → Nat → σ → σ

/-- The instruction in memory at an address: opcode, then the operand, low byte first. (Addresses are 16 bits.) -/
def fetch (mem : Nat → Byte) (a : Nat) : Option Insn :=
  (decode? (mem a).toNat).map fun row =>
    ⟨row.mnemonic, row.mode,
      if row.bytes = 1 then 0
      else if row.bytes = 2 then (mem ((a + 1) % 65536)).toNat
      else (mem ((a + 1) % 65536)).toNat + 256 * (mem ((a + 2) % 65536)).toNat⟩

/-- Where a branch at `a` with the offset byte `off` leads: the byte counts, as a signed number, from the instruction after it. -/
def branchTarget (a off : Nat) : Nat := (((a : Int) + 2 + (if off < 128 then (off : Int) else off - 256)) % 65536).toNat

/-- What the operand of the instruction at `a` stands for. -/
def Insn.meant (i : Insn) (a : Nat) : Nat := if i.mode = .rel then branchTarget a i.operand else i.operand

/-- The processor executes the instruction its program counter points to, as found in memory. -/
def Processor.step {σ : Type} (P : Processor σ) (s : σ) : Option σ :=
  (fetch (P.mem s) (P.pc s)).map fun i => P.exec i.mnemonic i.mode (i.meant (P.pc s)) ((P.pc s + i.mode.bytes) % 65536) s

/-- What the operand written in the source stands for: the literal or the value of the name, as far as it fits the operand field;
the name in a branch stands for its address, a literal in a branch is the offset byte. -/
def Item.meant (env : Env) (it : Item) : Option Nat :=
  match it.opd with
  | none => some 0
  | some o =>
    if it.mode = .rel then
      match o with
      | .lit n => some (branchTarget it.addr (n % 256))
      | .sym l => (env.lookup l).map (· % 65536)
    else (opdValue env o).map (· % 256 ^ (it.mode.bytes - 1))

/-- The instruction of the program at the program counter is executed as it is written in the source: no bytes are involved. -/
def Processor.sourceStep {σ : Type} (P : Processor σ) (p : List Stmt) (s : σ) : Option σ := do
  let asm ← pass1 p .init
  let it ← asm.items.find? fun it => it.addr == P.pc s
  let v ← it.meant asm.env
  some (P.exec it.mnemonic it.mode v ((P.pc s + it.mode.bytes) % 65536) s)

/-- Several steps. -/
def iterate {σ : Type} (step : σ → Option σ) : Nat → σ → Option σ
  | 0, s => some s
  | n + 1, s => (step s).bind (iterate step n)

/-- The bytes of the program's instructions are in memory as they are in the binary (its offset 0 at address 0). -/
def Intact (p : List Stmt) (bin : List Byte) (mem : Nat → Byte) : Prop :=
  ∀ asm, pass1 p .init = some asm → ∀ it ∈ asm.items, ∀ i, it.addr ≤ i → i < it.addr + it.mode.bytes → bin[i]? = some (mem i)

/-- Memory after loading a binary: zeros behind it. -/
def loaded (bin : List Byte) (a : Nat) : Byte := bin.getD a 0

end Gaia.Spec

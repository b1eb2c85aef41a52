import Verif.Spec.Disassemble

/-! Specification: the machine code of a program, as a list of instructions. -/
namespace Gaia.Spec
open Gaia

/-- The number in the operand field of an instruction of the source: the operand, as far as it fits; for a branch to a label the distance to it from the end of the
branch, as a byte. -/
def Item.field (env : Env) (it : Item) : Nat :=
  match it.opd with
  | none => 0
  | some (.lit v) => v % 256 ^ (it.mode.bytes - 1)
  | some (.sym l) =>
    let v := (env.lookup l).getD 0
    if it.mode = .rel then (((v : Int) - (it.addr + 2)) % 256).toNat else v % 256 ^ (it.mode.bytes - 1)

/-- The machine instruction for an instruction of the source. -/
def Item.insn (env : Env) (it : Item) : Insn := ⟨it.mnemonic, it.mode, it.field env⟩

/-- The machine instructions a program asks for, in order: nothing but mnemonics, addressing modes and numbers. -/
def machineCode (p : List Stmt) : Option (List Insn) := (pass1 p .init).map fun s => s.items.map (Item.insn s.env)

end Gaia.Spec

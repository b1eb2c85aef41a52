import Verif.Spec.Check

/-!
Specification: machine instructions, what they look like as bytes and as source text, and a disassembler. It uses the opcode
table of `Spec/OpTable.lean` (the CSV file) only.
-/
namespace Gaia.Spec
open Gaia

/-- A machine instruction: mnemonic, addressing mode and the number in its operand field (0 if it has none). -/
structure Insn where
  mnemonic : Mnemonic
  mode : Mode
  operand : Nat
  deriving DecidableEq, Repr

/-- The 6502 has the instruction, and the operand fits its field. -/
def Insn.Valid (i : Insn) : Prop := (opcode? i.mnemonic i.mode).isSome = true ∧ i.operand < 256 ^ (i.mode.bytes - 1)

/-- The bytes of an instruction: opcode and operand, low byte first. -/
def Insn.bytes (i : Insn) : List Byte :=
  UInt8.ofNat ((opcode? i.mnemonic i.mode).getD 0) ::
    match i.mode.bytes with
    | 1 => []
    | 2 => [UInt8.ofNat i.operand]
    | _ => [UInt8.ofNat (i.operand % 256), UInt8.ofNat (i.operand / 256)]

/-- Disassembly from the first byte on. It fails at a byte that is no opcode, and if the last instruction is cut off. -/
def disassemble : List Byte → Option (List Insn)
  | [] => some []
  | b :: rest =>
    match decode? b.toNat with
    | none => none
    | some row =>
      if row.bytes = 1 then (disassemble rest).map (⟨row.mnemonic, row.mode, 0⟩ :: ·)
      else match rest with
        | [] => none
        | lo :: rest' =>
          if row.bytes = 2 then (disassemble rest').map (⟨row.mnemonic, row.mode, lo.toNat⟩ :: ·)
          else match rest' with
            | [] => none
            | hi :: rest'' => (disassemble rest'').map (⟨row.mnemonic, row.mode, lo.toNat + 256 * hi.toNat⟩ :: ·)

/-- The instruction can be asked for in gaia's source language: gaia uses the one-byte form of an operand up to 0xFF, so
the absolute forms need a bigger one (jumps are always absolute or indirect). -/
def Insn.Writable (i : Insn) : Prop :=
  i.Valid ∧ (i.mode.bytes = 3 → i.mode ≠ .ind → isJump i.mnemonic = false → 0xFF < i.operand)

/-- A hexadecimal digit. -/
def hexDigit (d : Nat) : Byte := UInt8.ofNat (if d < 10 then 48 + d else 55 + d)

/-- A number below 65536 as `$` and four digits. -/
def hexText (v : Nat) : Str := 36 :: [hexDigit (v / 4096), hexDigit (v / 256 % 16), hexDigit (v / 16 % 16), hexDigit (v % 16)]

/-- The written operand. -/
def Insn.operandText (i : Insn) : Str :=
  match i.mode with
  | .imp => []
  | .acc => b! " A"
  | .imm => b! " #" ++ hexText i.operand
  | .zp | .abs | .rel => b! " " ++ hexText i.operand
  | .zpX | .absX => b! " " ++ hexText i.operand ++ b! ",X"
  | .zpY | .absY => b! " " ++ hexText i.operand ++ b! ",Y"
  | .ind => b! " (" ++ hexText i.operand ++ b! ")"
  | .indX => b! " (" ++ hexText i.operand ++ b! ",X)"
  | .indY => b! " (" ++ hexText i.operand ++ b! "),Y"

/-- The instruction as a line of source, such as ` LDA $1234,X`. -/
def Insn.text (i : Insn) : Str := b! " " ++ mnemonicName i.mnemonic ++ i.operandText ++ b! "\n"

/-- `MachineForm env it i`: the machine instruction `i` is the one meant by the item `it` (an instruction of the source with its
address), where the symbols have the values `env`: the number in the operand field is the value of the operand (as far as
it fits), or, for a branch to a label, leads to the label from the end of the branch, as a signed byte. -/
structure MachineForm (env : Env) (it : Item) (i : Insn) : Prop where
  mnemonic : i.mnemonic = it.mnemonic
  mode : i.mode = it.mode
  nothing : it.opd = none → i.operand = 0
  value : ∀ o v, it.opd = some o → opdValue env o = some v → (it.mode = .rel → ∃ n, o = .lit n) →
    i.operand = v % 256 ^ (it.mode.bytes - 1)
  branch : ∀ l v, it.opd = some (.sym l) → env.lookup l = some v → it.mode = .rel →
    (it.addr : Int) + 2 + (if i.operand < 128 then (i.operand : Int) else i.operand - 256) = v

/-- The mnemonics of a program, up to `.END`. -/
def mnemonics (p : List Stmt) : List Mnemonic :=
  (p.takeWhile (· ≠ .stop)).filterMap fun st => match st with | .instr _ m _ => some m | _ => none

/-- The program does not set the origin. -/
def NoOrigin (p : List Stmt) : Prop := ∀ v, .org v ∉ p

end Gaia.Spec

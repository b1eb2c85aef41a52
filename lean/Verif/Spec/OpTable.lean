import Verif.Model.Opcode

/-!
Specification: the 6502 opcode table, transcribed from opcodes/6502ops.csv (not from the assembler's C code) by
tools/gen_opcode.py. Of the model it uses only the names of the 56 mnemonics.
-/
namespace Gaia.Spec
open Gaia

/-- The 13 addressing modes, named as in the third column of opcodes/6502ops.csv. -/
inductive Mode
  | imm | zp | zpX | zpY | abs | absX | absY | indX | indY | ind | acc | rel | imp
  deriving DecidableEq, Repr

def Mode.all : List Mode := [.imm, .zp, .zpX, .zpY, .abs, .absX, .absY, .indX, .indY, .ind, .acc, .rel, .imp]

/-- One row of opcodes/6502ops.csv: opcode, mnemonic, addressing mode, number of bytes. -/
structure OpRow where
  opcode : Nat
  mnemonic : Mnemonic
  mode : Mode
  bytes : Nat
  deriving DecidableEq, Repr

/-- opcodes/6502ops.csv, all 151 rows in file order. -/
def opTable : List OpRow := [
  ⟨0x69, .ADC, .imm, 2⟩,
  ⟨0x65, .ADC, .zp, 2⟩,
  ⟨0x75, .ADC, .zpX, 2⟩,
  ⟨0x6d, .ADC, .abs, 3⟩,
  ⟨0x7d, .ADC, .absX, 3⟩,
  ⟨0x79, .ADC, .absY, 3⟩,
  ⟨0x61, .ADC, .indX, 2⟩,
  ⟨0x71, .ADC, .indY, 2⟩,
  ⟨0x29, .AND, .imm, 2⟩,
  ⟨0x25, .AND, .zp, 2⟩,
  ⟨0x35, .AND, .zpX, 2⟩,
  ⟨0x2d, .AND, .abs, 3⟩,
  ⟨0x3d, .AND, .absX, 3⟩,
  ⟨0x39, .AND, .absY, 3⟩,
  ⟨0x21, .AND, .indX, 2⟩,
  ⟨0x31, .AND, .indY, 2⟩,
  ⟨0x0a, .ASL, .acc, 1⟩,
  ⟨0x06, .ASL, .zp, 2⟩,
  ⟨0x16, .ASL, .zpX, 2⟩,
  ⟨0x0e, .ASL, .abs, 3⟩,
  ⟨0x1e, .ASL, .absX, 3⟩,
  ⟨0x90, .BCC, .rel, 2⟩,
  ⟨0xb0, .BCS, .rel, 2⟩,
  ⟨0xf0, .BEQ, .rel, 2⟩,
  ⟨0x30, .BMI, .rel, 2⟩,
  ⟨0xd0, .BNE, .rel, 2⟩,
  ⟨0x10, .BPL, .rel, 2⟩,
  ⟨0x50, .BVC, .rel, 2⟩,
  ⟨0x70, .BVS, .rel, 2⟩,
  ⟨0x24, .BIT, .zp, 2⟩,
  ⟨0x2c, .BIT, .abs, 3⟩,
  ⟨0x00, .BRK, .imp, 1⟩,
  ⟨0x18, .CLC, .imp, 1⟩,
  ⟨0xd8, .CLD, .imp, 1⟩,
  ⟨0x58, .CLI, .imp, 1⟩,
  ⟨0xb8, .CLV, .imp, 1⟩,
  ⟨0xea, .NOP, .imp, 1⟩,
  ⟨0x48, .PHA, .imp, 1⟩,
  ⟨0x68, .PLA, .imp, 1⟩,
  ⟨0x08, .PHP, .imp, 1⟩,
  ⟨0x28, .PLP, .imp, 1⟩,
  ⟨0x40, .RTI, .imp, 1⟩,
  ⟨0x60, .RTS, .imp, 1⟩,
  ⟨0x38, .SEC, .imp, 1⟩,
  ⟨0xf8, .SED, .imp, 1⟩,
  ⟨0x78, .SEI, .imp, 1⟩,
  ⟨0xaa, .TAX, .imp, 1⟩,
  ⟨0x8a, .TXA, .imp, 1⟩,
  ⟨0xa8, .TAY, .imp, 1⟩,
  ⟨0x98, .TYA, .imp, 1⟩,
  ⟨0xba, .TSX, .imp, 1⟩,
  ⟨0x9a, .TXS, .imp, 1⟩,
  ⟨0xc9, .CMP, .imm, 2⟩,
  ⟨0xc5, .CMP, .zp, 2⟩,
  ⟨0xd5, .CMP, .zpX, 2⟩,
  ⟨0xcd, .CMP, .abs, 3⟩,
  ⟨0xdd, .CMP, .absX, 3⟩,
  ⟨0xd9, .CMP, .absY, 3⟩,
  ⟨0xc1, .CMP, .indX, 2⟩,
  ⟨0xd1, .CMP, .indY, 2⟩,
  ⟨0xe0, .CPX, .imm, 2⟩,
  ⟨0xe4, .CPX, .zp, 2⟩,
  ⟨0xec, .CPX, .abs, 3⟩,
  ⟨0xc0, .CPY, .imm, 2⟩,
  ⟨0xc4, .CPY, .zp, 2⟩,
  ⟨0xcc, .CPY, .abs, 3⟩,
  ⟨0xc6, .DEC, .zp, 2⟩,
  ⟨0xd6, .DEC, .zpX, 2⟩,
  ⟨0xce, .DEC, .abs, 3⟩,
  ⟨0xde, .DEC, .absX, 3⟩,
  ⟨0xca, .DEX, .imp, 1⟩,
  ⟨0x88, .DEY, .imp, 1⟩,
  ⟨0xe8, .INX, .imp, 1⟩,
  ⟨0xc8, .INY, .imp, 1⟩,
  ⟨0x49, .EOR, .imm, 2⟩,
  ⟨0x45, .EOR, .zp, 2⟩,
  ⟨0x55, .EOR, .zpX, 2⟩,
  ⟨0x4d, .EOR, .abs, 3⟩,
  ⟨0x5d, .EOR, .absX, 3⟩,
  ⟨0x59, .EOR, .absY, 3⟩,
  ⟨0x41, .EOR, .indX, 2⟩,
  ⟨0x51, .EOR, .indY, 2⟩,
  ⟨0xe6, .INC, .zp, 2⟩,
  ⟨0xf6, .INC, .zpX, 2⟩,
  ⟨0xee, .INC, .abs, 3⟩,
  ⟨0xfe, .INC, .absX, 3⟩,
  ⟨0x4c, .JMP, .abs, 3⟩,
  ⟨0x6c, .JMP, .ind, 3⟩,
  ⟨0x20, .JSR, .abs, 3⟩,
  ⟨0xa9, .LDA, .imm, 2⟩,
  ⟨0xa5, .LDA, .zp, 2⟩,
  ⟨0xb5, .LDA, .zpX, 2⟩,
  ⟨0xad, .LDA, .abs, 3⟩,
  ⟨0xbd, .LDA, .absX, 3⟩,
  ⟨0xb9, .LDA, .absY, 3⟩,
  ⟨0xa1, .LDA, .indX, 2⟩,
  ⟨0xb1, .LDA, .indY, 2⟩,
  ⟨0xa2, .LDX, .imm, 2⟩,
  ⟨0xa6, .LDX, .zp, 2⟩,
  ⟨0xb6, .LDX, .zpY, 2⟩,
  ⟨0xae, .LDX, .abs, 3⟩,
  ⟨0xbe, .LDX, .absY, 3⟩,
  ⟨0xa0, .LDY, .imm, 2⟩,
  ⟨0xa4, .LDY, .zp, 2⟩,
  ⟨0xb4, .LDY, .zpX, 2⟩,
  ⟨0xac, .LDY, .abs, 3⟩,
  ⟨0xbc, .LDY, .absX, 3⟩,
  ⟨0x4a, .LSR, .acc, 1⟩,
  ⟨0x46, .LSR, .zp, 2⟩,
  ⟨0x56, .LSR, .zpX, 2⟩,
  ⟨0x4e, .LSR, .abs, 3⟩,
  ⟨0x5e, .LSR, .absX, 3⟩,
  ⟨0x09, .ORA, .imm, 2⟩,
  ⟨0x05, .ORA, .zp, 2⟩,
  ⟨0x15, .ORA, .zpX, 2⟩,
  ⟨0x0d, .ORA, .abs, 3⟩,
  ⟨0x1d, .ORA, .absX, 3⟩,
  ⟨0x19, .ORA, .absY, 3⟩,
  ⟨0x01, .ORA, .indX, 2⟩,
  ⟨0x11, .ORA, .indY, 2⟩,
  ⟨0x2a, .ROL, .acc, 1⟩,
  ⟨0x26, .ROL, .zp, 2⟩,
  ⟨0x36, .ROL, .zpX, 2⟩,
  ⟨0x2e, .ROL, .abs, 3⟩,
  ⟨0x3e, .ROL, .absX, 3⟩,
  ⟨0x6a, .ROR, .acc, 1⟩,
  ⟨0x66, .ROR, .zp, 2⟩,
  ⟨0x76, .ROR, .zpX, 2⟩,
  ⟨0x6e, .ROR, .abs, 3⟩,
  ⟨0x7e, .ROR, .absX, 3⟩,
  ⟨0xe9, .SBC, .imm, 2⟩,
  ⟨0xe5, .SBC, .zp, 2⟩,
  ⟨0xf5, .SBC, .zpX, 2⟩,
  ⟨0xed, .SBC, .abs, 3⟩,
  ⟨0xfd, .SBC, .absX, 3⟩,
  ⟨0xf9, .SBC, .absY, 3⟩,
  ⟨0xe1, .SBC, .indX, 2⟩,
  ⟨0xf1, .SBC, .indY, 2⟩,
  ⟨0x85, .STA, .zp, 2⟩,
  ⟨0x95, .STA, .zpX, 2⟩,
  ⟨0x8d, .STA, .abs, 3⟩,
  ⟨0x9d, .STA, .absX, 3⟩,
  ⟨0x99, .STA, .absY, 3⟩,
  ⟨0x81, .STA, .indX, 2⟩,
  ⟨0x91, .STA, .indY, 2⟩,
  ⟨0x86, .STX, .zp, 2⟩,
  ⟨0x96, .STX, .zpY, 2⟩,
  ⟨0x8e, .STX, .abs, 3⟩,
  ⟨0x84, .STY, .zp, 2⟩,
  ⟨0x94, .STY, .zpX, 2⟩,
  ⟨0x8c, .STY, .abs, 3⟩]

/-- The opcode of a mnemonic in a mode, if the 6502 has one. -/
def opcode? (m : Mnemonic) (md : Mode) : Option Nat :=
  (opTable.find? fun r => r.mnemonic == m && r.mode == md).map (·.opcode)

/-- Decoding: the row of an opcode byte. -/
def decode? (op : Nat) : Option OpRow := opTable.find? fun r => r.opcode == op

/-- Total length in bytes of an instruction in a given mode (column "bytes"). -/
def Mode.bytes : Mode → Nat
  | .imp | .acc => 1
  | .imm | .zp | .zpX | .zpY | .indX | .indY | .rel => 2
  | .abs | .absX | .absY | .ind => 3

end Gaia.Spec

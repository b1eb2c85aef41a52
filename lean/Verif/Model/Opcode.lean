import Verif.Model.Base

/-! Model of src/opcode.h, src/opcode.c, src/assemble.c, src/bitfields.h, src/addressing_modes.h
(tables transcribed by tools/gen_opcode.py). A C `int` used as a bit field is a `BitVec 32`. -/
namespace Gaia

/-- opcode.h:12-23 `enum Mnemonic` without NUM_MNEMONICS; NULL_MNEMONIC and ILLEGAL_MNEMONIC are `none` of
`Option Mnemonic` in the places where they occur. -/
inductive Mnemonic
  | ADC | AND | ASL | BCC | BCS | BEQ | BIT | BMI
  | BNE | BPL | BRK | BVC | BVS | CLC | CLD | CLI
  | CLV | CMP | CPX | CPY | DEC | DEX | DEY | EOR
  | INC | INX | INY | JMP | JSR | LDA | LDX | LDY
  | LSR | NOP | ORA | PHA | PHP | PLA | PLP | ROL
  | ROR | RTI | RTS | SBC | SEC | SED | SEI | STA
  | STX | STY | TAX | TAY | TSX | TXA | TXS | TYA
  deriving DecidableEq, Repr

/-- All mnemonics, in the order of opcode.h:13-19. -/
def Mnemonic.all : List Mnemonic :=
  [.ADC, .AND, .ASL, .BCC, .BCS, .BEQ, .BIT, .BMI, .BNE, .BPL, .BRK, .BVC, .BVS, .CLC, .CLD, .CLI, .CLV, .CMP, .CPX, .CPY, .DEC, .DEX, .DEY, .EOR, .INC, .INX, .INY, .JMP, .JSR, .LDA, .LDX, .LDY, .LSR, .NOP, .ORA, .PHA, .PHP, .PLA, .PLP, .ROL, .ROR, .RTI, .RTS, .SBC, .SEC, .SED, .SEI, .STA, .STX, .STY, .TAX, .TAY, .TSX, .TXA, .TXS, .TYA]

/-- `int` used as a set of bits (addressing_modes.h:75-87, opcode.h:27-28). -/
abbrev Flags := BitVec 32

/-- addressing_modes.h:75 -/
def ADDR_MODE_ACCUMULATOR : Flags := 0b1000000000000
/-- addressing_modes.h:76 -/
def ADDR_MODE_IMPLIED : Flags := 0b0100000000000
/-- addressing_modes.h:77 -/
def ADDR_MODE_IMMEDIATE : Flags := 0b0010000000000
/-- addressing_modes.h:78 -/
def ADDR_MODE_RELATIVE : Flags := 0b0001000000000
/-- addressing_modes.h:79 -/
def ADDR_MODE_ABSOLUTE : Flags := 0b0000100000000
/-- addressing_modes.h:80 -/
def ADDR_MODE_ABSOLUTE_X : Flags := 0b0000010000000
/-- addressing_modes.h:81 -/
def ADDR_MODE_ABSOLUTE_Y : Flags := 0b0000001000000
/-- addressing_modes.h:82 -/
def ADDR_MODE_INDIRECT : Flags := 0b0000000100000
/-- addressing_modes.h:83 -/
def ADDR_MODE_X_INDEXED_INDIRECT : Flags := 0b0000000010000
/-- addressing_modes.h:84 -/
def ADDR_MODE_INDIRECT_Y_INDEXED : Flags := 0b0000000001000
/-- addressing_modes.h:85 -/
def ADDR_MODE_ZERO_PAGE : Flags := 0b0000000000100
/-- addressing_modes.h:86 -/
def ADDR_MODE_ZERO_PAGE_X : Flags := 0b0000000000010
/-- addressing_modes.h:87 -/
def ADDR_MODE_ZERO_PAGE_Y : Flags := 0b0000000000001
/-- addressing_modes.h:89 -/
def ABSOLUTE_FIELD : Flags := 0b0000111100000
/-- addressing_modes.h:90 -/
def INDIRECT_FIELD : Flags := 0b0000000111000
/-- addressing_modes.h:91 -/
def ZERO_PAGE_FIELD : Flags := 0b0011000011111
/-- addressing_modes.h:93 -/
def X_REGISTER_FIELD : Flags := 0b0000010010010
/-- addressing_modes.h:94 -/
def Y_REGISTER_FIELD : Flags := 0b0000001001001
/-- addressing_modes.h:95 -/
def NOT_REGISTER_FIELD : Flags := 0b1111100100100
/-- addressing_modes.h:96 -/
def NOT_INDIRECT_FIELD : Flags := 0b1111111000111

/-- bitfields.h:17-72 with opcode.c:184-245 `get_addr_bitfield` -/
def getAddrBitfield : Mnemonic → Flags
  | .ADC => 0b0010111011110
  | .AND => 0b0010111011110
  | .ASL => 0b1000110000110
  | .BCC => 0b0001000000000
  | .BCS => 0b0001000000000
  | .BEQ => 0b0001000000000
  | .BIT => 0b0000100000100
  | .BMI => 0b0001000000000
  | .BNE => 0b0001000000000
  | .BPL => 0b0001000000000
  | .BRK => 0b0100000000000
  | .BVC => 0b0001000000000
  | .BVS => 0b0001000000000
  | .CLC => 0b0100000000000
  | .CLD => 0b0100000000000
  | .CLI => 0b0100000000000
  | .CLV => 0b0100000000000
  | .CMP => 0b0010111011110
  | .CPX => 0b0010100000100
  | .CPY => 0b0010100000100
  | .DEC => 0b0000110000110
  | .DEX => 0b0100000000000
  | .DEY => 0b0100000000000
  | .EOR => 0b0010111011110
  | .INC => 0b0000110000110
  | .INX => 0b0100000000000
  | .INY => 0b0100000000000
  | .JMP => 0b0000100100000
  | .JSR => 0b0000100000000
  | .LDA => 0b0010111011110
  | .LDX => 0b0010101000101
  | .LDY => 0b0010110000110
  | .LSR => 0b1000110000110
  | .NOP => 0b0100000000000
  | .ORA => 0b0010111011110
  | .PHA => 0b0100000000000
  | .PHP => 0b0100000000000
  | .PLA => 0b0100000000000
  | .PLP => 0b0100000000000
  | .ROL => 0b1000110000110
  | .ROR => 0b1000110000110
  | .RTI => 0b0100000000000
  | .RTS => 0b0100000000000
  | .SBC => 0b0010111011110
  | .SEC => 0b0100000000000
  | .SED => 0b0100000000000
  | .SEI => 0b0100000000000
  | .STA => 0b0000111011110
  | .STX => 0b0000100000101
  | .STY => 0b0000100000110
  | .TAX => 0b0100000000000
  | .TAY => 0b0100000000000
  | .TSX => 0b0100000000000
  | .TXA => 0b0100000000000
  | .TXS => 0b0100000000000
  | .TYA => 0b0100000000000

/-- The names compared by `str_to_mnemonic`, opcode.c:117-172, in that order. -/
def mnemonicNames : List (Str × Mnemonic) := [
  (b! "ADC", .ADC),
  (b! "AND", .AND),
  (b! "ASL", .ASL),
  (b! "BCC", .BCC),
  (b! "BCS", .BCS),
  (b! "BEQ", .BEQ),
  (b! "BIT", .BIT),
  (b! "BMI", .BMI),
  (b! "BNE", .BNE),
  (b! "BPL", .BPL),
  (b! "BRK", .BRK),
  (b! "BVC", .BVC),
  (b! "BVS", .BVS),
  (b! "CLC", .CLC),
  (b! "CLD", .CLD),
  (b! "CLI", .CLI),
  (b! "CLV", .CLV),
  (b! "CMP", .CMP),
  (b! "CPX", .CPX),
  (b! "CPY", .CPY),
  (b! "DEC", .DEC),
  (b! "DEX", .DEX),
  (b! "DEY", .DEY),
  (b! "EOR", .EOR),
  (b! "INC", .INC),
  (b! "INX", .INX),
  (b! "INY", .INY),
  (b! "JMP", .JMP),
  (b! "JSR", .JSR),
  (b! "LDA", .LDA),
  (b! "LDX", .LDX),
  (b! "LDY", .LDY),
  (b! "LSR", .LSR),
  (b! "NOP", .NOP),
  (b! "ORA", .ORA),
  (b! "PHA", .PHA),
  (b! "PHP", .PHP),
  (b! "PLA", .PLA),
  (b! "PLP", .PLP),
  (b! "ROL", .ROL),
  (b! "ROR", .ROR),
  (b! "RTI", .RTI),
  (b! "RTS", .RTS),
  (b! "SBC", .SBC),
  (b! "SEC", .SEC),
  (b! "SED", .SED),
  (b! "SEI", .SEI),
  (b! "STA", .STA),
  (b! "STX", .STX),
  (b! "STY", .STY),
  (b! "TAX", .TAX),
  (b! "TAY", .TAY),
  (b! "TSX", .TSX),
  (b! "TXA", .TXA),
  (b! "TXS", .TXS),
  (b! "TYA", .TYA)]

/-- opcode.c:112-174 `str_to_mnemonic`: the first matching `strcmp`; `none` is ILLEGAL_MNEMONIC. -/
def strToMnemonic (s : Str) : Option Mnemonic := mnemonicNames.lookup s

/-- opcode.c:71-86 `is_branch` -/
def isBranch : Mnemonic → Bool
  | .BCC | .BCS | .BEQ | .BMI | .BNE | .BPL | .BVC | .BVS => true
  | _ => false

/-- opcode.c:95-98 `is_jump` -/
def isJump (m : Mnemonic) : Bool := m == .JMP || m == .JSR

/-- assemble.c:14-555: the `switch` cases of the function `assemble_<mnemonic>`. -/
def assembleCases : Mnemonic → List (Flags × Int)
  | .ADC => [(ADDR_MODE_IMMEDIATE, 0x69), (ADDR_MODE_ZERO_PAGE, 0x65), (ADDR_MODE_ZERO_PAGE_X, 0x75), (ADDR_MODE_ABSOLUTE, 0x6d), (ADDR_MODE_ABSOLUTE_X, 0x7d), (ADDR_MODE_ABSOLUTE_Y, 0x79), (ADDR_MODE_X_INDEXED_INDIRECT, 0x61), (ADDR_MODE_INDIRECT_Y_INDEXED, 0x71)] -- assemble.c:14
  | .AND => [(ADDR_MODE_IMMEDIATE, 0x29), (ADDR_MODE_ZERO_PAGE, 0x25), (ADDR_MODE_ZERO_PAGE_X, 0x35), (ADDR_MODE_ABSOLUTE, 0x2d), (ADDR_MODE_ABSOLUTE_X, 0x3d), (ADDR_MODE_ABSOLUTE_Y, 0x39), (ADDR_MODE_X_INDEXED_INDIRECT, 0x21), (ADDR_MODE_INDIRECT_Y_INDEXED, 0x31)] -- assemble.c:29
  | .ASL => [(ADDR_MODE_ACCUMULATOR, 0xa), (ADDR_MODE_ZERO_PAGE, 0x6), (ADDR_MODE_ZERO_PAGE_X, 0x16), (ADDR_MODE_ABSOLUTE, 0xe), (ADDR_MODE_ABSOLUTE_X, 0x1e)] -- assemble.c:44
  | .BCC => [(ADDR_MODE_RELATIVE, 0x90)] -- assemble.c:56
  | .BCS => [(ADDR_MODE_RELATIVE, 0xb0)] -- assemble.c:64
  | .BEQ => [(ADDR_MODE_RELATIVE, 0xf0)] -- assemble.c:72
  | .BIT => [(ADDR_MODE_ZERO_PAGE, 0x24), (ADDR_MODE_ABSOLUTE, 0x2c)] -- assemble.c:80
  | .BMI => [(ADDR_MODE_RELATIVE, 0x30)] -- assemble.c:89
  | .BNE => [(ADDR_MODE_RELATIVE, 0xd0)] -- assemble.c:97
  | .BPL => [(ADDR_MODE_RELATIVE, 0x10)] -- assemble.c:105
  | .BRK => [(ADDR_MODE_IMPLIED, 0x0)] -- assemble.c:113
  | .BVC => [(ADDR_MODE_RELATIVE, 0x50)] -- assemble.c:121
  | .BVS => [(ADDR_MODE_RELATIVE, 0x70)] -- assemble.c:129
  | .CLC => [(ADDR_MODE_IMPLIED, 0x18)] -- assemble.c:137
  | .CLD => [(ADDR_MODE_IMPLIED, 0xd8)] -- assemble.c:145
  | .CLI => [(ADDR_MODE_IMPLIED, 0x58)] -- assemble.c:153
  | .CLV => [(ADDR_MODE_IMPLIED, 0xb8)] -- assemble.c:161
  | .CMP => [(ADDR_MODE_IMMEDIATE, 0xc9), (ADDR_MODE_ZERO_PAGE, 0xc5), (ADDR_MODE_ZERO_PAGE_X, 0xd5), (ADDR_MODE_ABSOLUTE, 0xcd), (ADDR_MODE_ABSOLUTE_X, 0xdd), (ADDR_MODE_ABSOLUTE_Y, 0xd9), (ADDR_MODE_X_INDEXED_INDIRECT, 0xc1), (ADDR_MODE_INDIRECT_Y_INDEXED, 0xd1)] -- assemble.c:169
  | .CPX => [(ADDR_MODE_IMMEDIATE, 0xe0), (ADDR_MODE_ZERO_PAGE, 0xe4), (ADDR_MODE_ABSOLUTE, 0xec)] -- assemble.c:184
  | .CPY => [(ADDR_MODE_IMMEDIATE, 0xc0), (ADDR_MODE_ZERO_PAGE, 0xc4), (ADDR_MODE_ABSOLUTE, 0xcc)] -- assemble.c:194
  | .DEC => [(ADDR_MODE_ZERO_PAGE, 0xc6), (ADDR_MODE_ZERO_PAGE_X, 0xd6), (ADDR_MODE_ABSOLUTE, 0xce), (ADDR_MODE_ABSOLUTE_X, 0xde)] -- assemble.c:204
  | .DEX => [(ADDR_MODE_IMPLIED, 0xca)] -- assemble.c:215
  | .DEY => [(ADDR_MODE_IMPLIED, 0x88)] -- assemble.c:223
  | .EOR => [(ADDR_MODE_IMMEDIATE, 0x49), (ADDR_MODE_ZERO_PAGE, 0x45), (ADDR_MODE_ZERO_PAGE_X, 0x55), (ADDR_MODE_ABSOLUTE, 0x4d), (ADDR_MODE_ABSOLUTE_X, 0x5d), (ADDR_MODE_ABSOLUTE_Y, 0x59), (ADDR_MODE_X_INDEXED_INDIRECT, 0x41), (ADDR_MODE_INDIRECT_Y_INDEXED, 0x51)] -- assemble.c:231
  | .INC => [(ADDR_MODE_ZERO_PAGE, 0xe6), (ADDR_MODE_ZERO_PAGE_X, 0xf6), (ADDR_MODE_ABSOLUTE, 0xee), (ADDR_MODE_ABSOLUTE_X, 0xfe)] -- assemble.c:246
  | .INX => [(ADDR_MODE_IMPLIED, 0xe8)] -- assemble.c:257
  | .INY => [(ADDR_MODE_IMPLIED, 0xc8)] -- assemble.c:265
  | .JMP => [(ADDR_MODE_ABSOLUTE, 0x4c), (ADDR_MODE_INDIRECT, 0x6c)] -- assemble.c:273
  | .JSR => [(ADDR_MODE_ABSOLUTE, 0x20)] -- assemble.c:282
  | .LDA => [(ADDR_MODE_IMMEDIATE, 0xa9), (ADDR_MODE_ZERO_PAGE, 0xa5), (ADDR_MODE_ZERO_PAGE_X, 0xb5), (ADDR_MODE_ABSOLUTE, 0xad), (ADDR_MODE_ABSOLUTE_X, 0xbd), (ADDR_MODE_ABSOLUTE_Y, 0xb9), (ADDR_MODE_X_INDEXED_INDIRECT, 0xa1), (ADDR_MODE_INDIRECT_Y_INDEXED, 0xb1)] -- assemble.c:290
  | .LDX => [(ADDR_MODE_IMMEDIATE, 0xa2), (ADDR_MODE_ZERO_PAGE, 0xa6), (ADDR_MODE_ZERO_PAGE_Y, 0xb6), (ADDR_MODE_ABSOLUTE, 0xae), (ADDR_MODE_ABSOLUTE_Y, 0xbe)] -- assemble.c:305
  | .LDY => [(ADDR_MODE_IMMEDIATE, 0xa0), (ADDR_MODE_ZERO_PAGE, 0xa4), (ADDR_MODE_ZERO_PAGE_X, 0xb4), (ADDR_MODE_ABSOLUTE, 0xac), (ADDR_MODE_ABSOLUTE_X, 0xbc)] -- assemble.c:317
  | .LSR => [(ADDR_MODE_ACCUMULATOR, 0x4a), (ADDR_MODE_ZERO_PAGE, 0x46), (ADDR_MODE_ZERO_PAGE_X, 0x56), (ADDR_MODE_ABSOLUTE, 0x4e), (ADDR_MODE_ABSOLUTE_X, 0x5e)] -- assemble.c:329
  | .NOP => [(ADDR_MODE_IMPLIED, 0xea)] -- assemble.c:341
  | .ORA => [(ADDR_MODE_IMMEDIATE, 0x9), (ADDR_MODE_ZERO_PAGE, 0x5), (ADDR_MODE_ZERO_PAGE_X, 0x15), (ADDR_MODE_ABSOLUTE, 0xd), (ADDR_MODE_ABSOLUTE_X, 0x1d), (ADDR_MODE_ABSOLUTE_Y, 0x19), (ADDR_MODE_X_INDEXED_INDIRECT, 0x1), (ADDR_MODE_INDIRECT_Y_INDEXED, 0x11)] -- assemble.c:349
  | .PHA => [(ADDR_MODE_IMPLIED, 0x48)] -- assemble.c:364
  | .PHP => [(ADDR_MODE_IMPLIED, 0x8)] -- assemble.c:372
  | .PLA => [(ADDR_MODE_IMPLIED, 0x68)] -- assemble.c:380
  | .PLP => [(ADDR_MODE_IMPLIED, 0x28)] -- assemble.c:388
  | .ROL => [(ADDR_MODE_ACCUMULATOR, 0x2a), (ADDR_MODE_ZERO_PAGE, 0x26), (ADDR_MODE_ZERO_PAGE_X, 0x36), (ADDR_MODE_ABSOLUTE, 0x2e), (ADDR_MODE_ABSOLUTE_X, 0x3e)] -- assemble.c:396
  | .ROR => [(ADDR_MODE_ACCUMULATOR, 0x6a), (ADDR_MODE_ZERO_PAGE, 0x66), (ADDR_MODE_ZERO_PAGE_X, 0x76), (ADDR_MODE_ABSOLUTE, 0x6e), (ADDR_MODE_ABSOLUTE_X, 0x7e)] -- assemble.c:408
  | .RTI => [(ADDR_MODE_IMPLIED, 0x40)] -- assemble.c:420
  | .RTS => [(ADDR_MODE_IMPLIED, 0x60)] -- assemble.c:428
  | .SBC => [(ADDR_MODE_IMMEDIATE, 0xe9), (ADDR_MODE_ZERO_PAGE, 0xe5), (ADDR_MODE_ZERO_PAGE_X, 0xf5), (ADDR_MODE_ABSOLUTE, 0xed), (ADDR_MODE_ABSOLUTE_X, 0xfd), (ADDR_MODE_ABSOLUTE_Y, 0xf9), (ADDR_MODE_X_INDEXED_INDIRECT, 0xe1), (ADDR_MODE_INDIRECT_Y_INDEXED, 0xf1)] -- assemble.c:436
  | .SEC => [(ADDR_MODE_IMPLIED, 0x38)] -- assemble.c:451
  | .SED => [(ADDR_MODE_IMPLIED, 0xf8)] -- assemble.c:459
  | .SEI => [(ADDR_MODE_IMPLIED, 0x78)] -- assemble.c:467
  | .STA => [(ADDR_MODE_ZERO_PAGE, 0x85), (ADDR_MODE_ZERO_PAGE_X, 0x95), (ADDR_MODE_ABSOLUTE, 0x8d), (ADDR_MODE_ABSOLUTE_X, 0x9d), (ADDR_MODE_ABSOLUTE_Y, 0x99), (ADDR_MODE_X_INDEXED_INDIRECT, 0x81), (ADDR_MODE_INDIRECT_Y_INDEXED, 0x91)] -- assemble.c:475
  | .STX => [(ADDR_MODE_ZERO_PAGE, 0x86), (ADDR_MODE_ZERO_PAGE_Y, 0x96), (ADDR_MODE_ABSOLUTE, 0x8e)] -- assemble.c:489
  | .STY => [(ADDR_MODE_ZERO_PAGE, 0x84), (ADDR_MODE_ZERO_PAGE_X, 0x94), (ADDR_MODE_ABSOLUTE, 0x8c)] -- assemble.c:499
  | .TAX => [(ADDR_MODE_IMPLIED, 0xaa)] -- assemble.c:509
  | .TAY => [(ADDR_MODE_IMPLIED, 0xa8)] -- assemble.c:517
  | .TSX => [(ADDR_MODE_IMPLIED, 0xba)] -- assemble.c:525
  | .TXA => [(ADDR_MODE_IMPLIED, 0x8a)] -- assemble.c:533
  | .TXS => [(ADDR_MODE_IMPLIED, 0x9a)] -- assemble.c:541
  | .TYA => [(ADDR_MODE_IMPLIED, 0x98)] -- assemble.c:549

/-- assemble.c:14-555: the functions `assemble_<mnemonic>`; the `default:` case returns
ERROR_ILLEGAL_ADDRESSING_MODE (a negative number). -/
def assembleMnemonic (m : Mnemonic) (bitflag : Flags) : Int :=
  ((assembleCases m).lookup bitflag).getD Err.illegalAddressingMode.code

/-- opcode.h:25-30 `struct Instruction`; `mnemonic = none` is NULL_MNEMONIC. -/
structure Instr where
  mnemonic : Option Mnemonic := none
  addrBitfield : Flags := 0
  addrBitflag : Flags := 0
  opcode : Int := 0
  deriving DecidableEq, Repr

/-- opcode.c:23-34 `init_instruction` (allocation succeeds) -/
def initInstruction : Instr := {}

/-- opcode.c:42-51 `reset_instruction` -/
def resetInstruction (i : Instr) : Instr :=
  { i with mnemonic := none, addrBitfield := 0, addrBitflag := 0, opcode := 0 }

/-- opcode.c:256-317 `get_opcode`; NULL_MNEMONIC falls into `default:` and gives ERROR_ILLEGAL_MNEMONIC. -/
def getOpcode (i : Instr) : Int :=
  match i.mnemonic with
  | some m => assembleMnemonic m i.addrBitflag
  | none => Err.illegalMnemonic.code

end Gaia

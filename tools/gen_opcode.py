# Transcribes src/opcode.h, src/bitfields.h, src/assemble.c into Model/Opcode.lean and
# opcodes/6502ops.csv into Spec/OpTable.lean (two independent sources).
import re
R="/repo/"
names=re.findall(r'else if \(!strcmp\("(\w+)", str\)\) return (\w+);|if \(!strcmp\("(\w+)", str\)\) return (\w+);',open(R+"src/opcode.c").read())
names=[(a or c,b or d) for a,b,c,d in names]
assert len(names)==56 and all(a==b for a,b in names)
enum=re.search(r'enum Mnemonic \{(.*?)NUM_MNEMONICS',open(R+"src/opcode.h").read(),re.S).group(1)
enum=[x.strip() for x in enum.split(',') if x.strip()]
assert len(enum)==56 and [a for a,_ in names]==enum
bf_src=open(R+"src/bitfields.h").read().splitlines()
bf={}
for i,l in enumerate(bf_src,1):
    m=re.match(r'#define (\w+)_BITFIELD (0b[01]+)',l)
    if m: bf[m[1]]=(m[2],i)
am_src=open(R+"src/addressing_modes.h").read().splitlines()
am=[]
for i,l in enumerate(am_src,1):
    m=re.match(r'#define (\w+)\s+(0b[01]+)',l)
    if m: am.append((m[1],m[2],i))
asm=[]
cur=None
for i,l in enumerate(open(R+"src/assemble.c").read().splitlines(),1):
    m=re.match(r'int assemble_(\w+)\(',l)
    if m: cur=(m[1],i,[]); asm.append(cur)
    m=re.match(r'\tcase (\w+): return (0x[0-9a-f]+);',l)
    if m: cur[2].append((m[1],m[2]))
assert [a[0] for a in asm]==enum
# get_addr_bitfield / get_opcode map each mnemonic to its own table
op=open(R+"src/opcode.c").read()
assert re.findall(r'case (\w+): return (\w+)_BITFIELD',op)==[(e,e) for e in enum]
assert re.findall(r'case (\w+): return assemble_(\w+)\(instr->addr_bitflag\)',op)==[(e,e) for e in enum]
o=[]
o.append("""import Verif.Model.Base

/-! Model of src/opcode.h, src/opcode.c, src/assemble.c, src/bitfields.h, src/addressing_modes.h
(tables transcribed by tools/gen_opcode.py). A C `int` used as a bit field is a `BitVec 32`. -/
namespace Gaia

/-- opcode.h:12-23 `enum Mnemonic` without NUM_MNEMONICS; NULL_MNEMONIC and ILLEGAL_MNEMONIC are `none` of
`Option Mnemonic` in the places where they occur. -/
inductive Mnemonic""")
for i in range(0,56,8): o.append("  "+" ".join("| "+e for e in enum[i:i+8]))
o.append("""  deriving DecidableEq, Repr

/-- All mnemonics, in the order of opcode.h:13-19. -/
def Mnemonic.all : List Mnemonic :=
  ["""+", ".join("."+e for e in enum)+"""]

abbrev Flags := BitVec 32
""")
for n,v,i in am:
    o.append(f"/-- addressing_modes.h:{i} -/\ndef {n} : Flags := {v}")
o.append("""
/-- bitfields.h:17-72 with opcode.c:184-245 `get_addr_bitfield` -/
def getAddrBitfield : Mnemonic → Flags""")
for e in enum: o.append(f"  | .{e} => {bf[e][0]}")
o.append("""
/-- The names compared by `str_to_mnemonic`, opcode.c:117-172, in that order. -/
def mnemonicNames : List (Str × Mnemonic) := [""")
o.append(",\n".join(f'  (b! "{e}", .{e})' for e in enum)+"]")
o.append("""
/-- opcode.c:112-174 `str_to_mnemonic`: the first matching `strcmp`; `none` is ILLEGAL_MNEMONIC. -/
def strToMnemonic (s : Str) : Option Mnemonic := mnemonicNames.lookup s

/-- opcode.c:71-86 `is_branch` -/
def isBranch : Mnemonic → Bool
  | .BCC | .BCS | .BEQ | .BMI | .BNE | .BPL | .BVC | .BVS => true
  | _ => false

/-- opcode.c:95-98 `is_jump` -/
def isJump (m : Mnemonic) : Bool := m == .JMP || m == .JSR

/-- assemble.c:14-555: the `switch` cases of the function `assemble_<mnemonic>`. -/
def assembleCases : Mnemonic → List (Flags × Int)""")
for n,i,cs in asm:
    o.append(f"  | .{n} => [{', '.join(f'({a}, {b})' for a,b in cs)}] -- assemble.c:{i}")
o.append("""
/-- assemble.c: the functions `assemble_<mnemonic>`; the `default:` case returns
ERROR_ILLEGAL_ADDRESSING_MODE (a negative number). -/
def assembleMnemonic (m : Mnemonic) (bitflag : Flags) : Int :=
  ((assembleCases m).lookup bitflag).getD Err.illegalAddressingMode.code

/-- opcode.h:25-30 `struct Instruction`; `mnemonic = none` is NULL_MNEMONIC. -/
structure Instr where
  mnemonic : Option Mnemonic := none
  addrBitfield : Flags := 0
  addrBitflag : Flags := 0
  opcode : Int := 0
  deriving DecidableEq, Repr

/-- opcode.c:23-34 `init_instruction` (allocation succeeds) -/
def initInstruction : Instr := {}

/-- opcode.c:42-51 `reset_instruction` -/
def resetInstruction (i : Instr) : Instr :=
  { i with mnemonic := none, addrBitfield := 0, addrBitflag := 0, opcode := 0 }

/-- opcode.c:256-317 `get_opcode`; NULL_MNEMONIC falls into `default:` and gives ERROR_ILLEGAL_MNEMONIC. -/
def getOpcode (i : Instr) : Int :=
  match i.mnemonic with
  | some m => assembleMnemonic m i.addrBitflag
  | none => Err.illegalMnemonic.code

end Gaia
""")
open("/verif/lean/Verif/Model/Opcode.lean","w").write("\n".join(o))
# Spec table
modes={"IMM":"imm","ZP":"zp","ZPX":"zpX","ZPY":"zpY","ABS":"abs","ABSX":"absX","ABSY":"absY","INDX":"indX","INDY":"indY","IND":"ind","ACC":"acc","REL":"rel","IMP":"imp"}
rows=[]
for i,l in enumerate(open(R+"opcodes/6502ops.csv").read().splitlines(),1):
    f=l.strip().split(',')
    if i==1 or len(f)<4: continue
    rows.append((int(f[0],16),f[1],modes[f[2]],int(f[3])))
assert len(rows)==151
s=["""import Verif.Model.Opcode

/-!
Specification: the 6502 opcode table, transcribed from opcodes/6502ops.csv (not from the assembler's C code) by
tools/gen_opcode.py. Of the model it uses only the names of the 56 mnemonics.
-/
namespace Gaia.Spec
open Gaia

/-- The 13 addressing modes, named as in the third column of opcodes/6502ops.csv. -/
inductive Mode
  | imm | zp | zpX | zpY | abs | absX | absY | indX | indY | ind | acc | rel | imp
  deriving DecidableEq, Repr

def Mode.all : List Mode := [.imm, .zp, .zpX, .zpY, .abs, .absX, .absY, .indX, .indY, .ind, .acc, .rel, .imp]

/-- One row of opcodes/6502ops.csv: opcode, mnemonic, addressing mode, number of bytes. -/
structure OpRow where
  opcode : Nat
  mnemonic : Mnemonic
  mode : Mode
  bytes : Nat
  deriving DecidableEq, Repr

/-- opcodes/6502ops.csv, all 151 rows in file order. -/
def opTable : List OpRow := ["""]
s.append(",\n".join(f"  ⟨0x{a:02x}, .{b}, .{c}, {d}⟩" for a,b,c,d in rows)+"]")
s.append("""
/-- The opcode of a mnemonic in a mode, if the 6502 has one. -/
def opcode? (m : Mnemonic) (md : Mode) : Option Nat :=
  (opTable.find? fun r => r.mnemonic == m && r.mode == md).map (·.opcode)

/-- Decoding: the row of an opcode byte. -/
def decode? (op : Nat) : Option OpRow := opTable.find? fun r => r.opcode == op

/-- Total length in bytes of an instruction in a given mode (column "bytes"). -/
def Mode.bytes : Mode → Nat
  | .imp | .acc => 1
  | .imm | .zp | .zpX | .zpY | .indX | .indY | .rel => 2
  | .abs | .absX | .absY | .ind => 3

end Gaia.Spec
""")
open("/verif/lean/Verif/Spec/OpTable.lean","w").write("\n".join(s))

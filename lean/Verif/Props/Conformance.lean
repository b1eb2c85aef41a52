import Verif.Props.Example
import Verif.Model.Main

/-!
Conformance of the model with the project's unit tests: the expectations of /repo/tests, evaluated on the model by the kernel.
These are tests of the model, not proofs of properties. Generated by tools/gen_conform.py (lines and expected codes are
extracted from /repo/tests/parser, the rest is transcribed).
-/
set_option maxRecDepth 100000
namespace Gaia.Conformance
open Gaia

/-- The error code of `lex_line` on a fresh lexer, 0 for success. -/
def lexCode (l : List Byte) : Int :=
  match lexLine l (initLexer (b! "t.asm")) initToken initInstruction 1 with
  | .ok _ => 0
  | .err f => f.code.code
  | .ub _ => 1000

/-- The error code of `parse_line` after a successful `lex_line`, and the text printed. -/
def parseCode (l : List Byte) : Int × Str :=
  match lexLine l (initLexer (b! "t.asm")) initToken initInstruction 1 with
  | .ok (lx, _, _) =>
    match parseLine lx with
    | .ok _ => (0, [])
    | .err f => (f.code.code, f.out)
    | .ub _ => (1000, [])
  | .err _ => (2000, [])
  | .ub _ => (3000, [])

/-- A program's bytes from an address on, if it assembles. -/
def rom (start : Nat) (src : List Byte) : Option (List Byte) :=
  match assembleBytes (b! "t.asm") src with
  | .ok st => some (st.out.bytes.drop start)
  | _ => none

/-- The error code of a program. -/
def failCode (src : List Byte) : Option Int :=
  match assembleBytes (b! "t.asm") src with
  | .err a => some a.fail.code.code
  | _ => none

/-- A table filled with symbols. -/
def table (ls : List (Str × Int)) : Option SymTab :=
  match ls.foldlM (fun t (l, v) => insertSymbol t l v) initSymbolTable with
  | .ok t => some t
  | _ => none

def slotLabel (t : Option SymTab) (i : Nat) : Option Str := do
  let t ← t
  let s ← t.symbols[i]?
  let s ← s
  pure s.label

/-! tests/prime/test_prime.c -/

example : [1, 2, 3, 4, 5, 6, 7, 51, 10, 12, 223, 227, 17 * 2, 37 * 2, 79 * 2].map nextPrime = [2, 3, 5, 5, 7, 7, 11, 53, 11, 13, 227, 229, 37, 79, 163].map .ok := by decide +kernel

/-! tests/symbol_table/test_symbol_table.c -/

def eight : List (Str × Int) := [(b! "JANUS", 1), (b! "CHKEND", 2), (b! "SORT8", 3), (b! "NXTEL", 4), (b! "OPNING", 5), (b! "SWAP", 6),
  (b! "SORT16", 7), (b! "SETW", 8)]

/- insertion, with probing and wrap-around -/
example : (table (eight.take 6)).map (·.size) = some 17 ∧ (table (eight.take 6)).map (·.count) = some 6 ∧
    [8, 15, 16, 4, 0, 11].map (slotLabel (table (eight.take 6))) =
      [some (b! "JANUS"), some (b! "CHKEND"), some (b! "SORT8"), some (b! "NXTEL"), some (b! "OPNING"), some (b! "SWAP")] := by
  decide +kernel

example : [12, 1].map (slotLabel (table eight)) = [some (b! "SORT16"), some (b! "SETW")] := by decide +kernel

/- searching -/
example : (table (eight.take 6)).map (fun t => [b! "JANUS", b! "CHKEND", b! "SORT8", b! "NXTEL", b! "OPNING", b! "SWAP", b! "lol", b! "main",
    b! "SORT16", b! "!@#$%^&*()", b! "SETW"].map (searchSymbol t)) =
    some ([1, 2, 3, 4, 5, 6, -2, -2, -2, -2, -2].map .ok) := by decide +kernel

/- the ninth symbol makes the table grow -/
example : (table eight).map (·.size) = some 17 ∧ (table (eight ++ [(b! "REVERSE", 9)])).map (·.size) = some 37 ∧
    [20, 24, 26, 21, 19, 33, 15, 9, 2].map (slotLabel (table (eight ++ [(b! "REVERSE", 9)]))) =
      [some (b! "JANUS"), some (b! "CHKEND"), some (b! "SORT8"), some (b! "NXTEL"), some (b! "OPNING"), some (b! "SWAP"),
        some (b! "SORT16"), some (b! "SETW"), some (b! "REVERSE")] := by decide +kernel

/-! tests/parser/test_parser1.c, `test_parse_line` -/

example : [b! "ADDRESS\t\t=\t$ABCD\n",
    b! "CONSTANT8\t=\t$7F\n",
    b! "CONSTANT16\t=\t$1111\n",
    b! "DIRECTIVE1\t.EQU\t$4000\n",
    b! ".DEFINE\tDIRECTIVE2\t$8000\n",
    b! "\t\t.ORG\t$1000\n",
    b! "\t\t*=$800\n",
    b! "LABEL1:\n",
    b! "\t\tINX\n",
    b! "\t\tROL\tA\n",
    b! "\t\tORA\t$AA\n",
    b! "\t\tASL\tCONSTANT8\n",
    b! "\t\tLDA\t$1234\n",
    b! "\t\tCPY\tADDRESS\n",
    b! "\t\tSBC\t$BB,X\n",
    b! "\t\tROR\tCONSTANT8,X\n",
    b! "\t\tINC\t$1000,X\n",
    b! "\t\tCMP\tCONSTANT16,X\n",
    b! "\t\tSTX\t$CC,Y\n",
    b! "\t\tLDX\tCONSTANT8,Y\n",
    b! "\t\tSTA\t$DEAD,Y\n",
    b! "\t\tAND\tADDRESS,Y\n",
    b! "\t\tJMP\t($FACE)\n",
    b! "\t\tJMP\t(ADDRESS)\n",
    b! "\t\tEOR\t#$DD\n",
    b! "\t\tLDY\t#CONSTANT8\n",
    b! "\t\tADC\t($EE,X)\n",
    b! "\t\tLDA\t(CONSTANT8,X)\n",
    b! "\t\tSTA\t($FF),Y\n",
    b! "\t\tSBC\t(CONSTANT8),Y\n",
    b! "\t\tBMI\tLABEL1\n",
    b! "\t\tBVS\tL1\n",
    b! "\t\tJMP\tLABEL1\n",
    b! "\t\tJSR\tL3\n",
    b! "LABEL2\t\tBCC\tLABEL1\n",
    b! "FORREF1\t\tBVC\tL19\n",
    b! "LABEL3\t\tJSR\tLABEL2\n",
    b! "FORREF2\t\tJMP\tL21\n",
    b! "L1\t\tDEY\n",
    b! "L2\t\tASL\tA\n",
    b! "L3:\t\tSTY\t$AA\n",
    b! "L4\t\tROL\tCONSTANT8\n",
    b! "L5:\t\tLSR\t$1234\n",
    b! "L6\t\tROR\tADDRESS\n",
    b! "L7:\t\tLDY\t$BB,X\n",
    b! "L8\t\tDEC\tCONSTANT8,X\n",
    b! "L9:\t\tINC\t$1000,X\n",
    b! "L10\t\tCMP\tCONSTANT16,X\n",
    b! "L11:\t\tSTX\t$CC,Y\n",
    b! "L12\t\tLDX\tCONSTANT8,Y\n",
    b! "L13:\t\tSTA\t$B00B,Y\n",
    b! "L14\t\tAND\tADDRESS,Y\n",
    b! "L15:\t\tJMP\t($CAFE)\n",
    b! "L16\t\tJMP\t(CONSTANT16)\n",
    b! "L17:\t\tCPX\t#$DD\n",
    b! "L18\t\tLDY\t#CONSTANT8\n",
    b! "L19:\t\tADC\t($EE,X)\n",
    b! "L20\t\tLDA\t(CONSTANT8,X)\n",
    b! "L21:\t\tSTA\t($FF),Y\n",
    b! "L22\t\tSBC\t(CONSTANT8),Y\n",
    b! "\t\t.END\n",
    b! "\n",
    b! "\r\n",
    b! "   \t\t  \t  \n",
    b! ";lolololol\r\n"].map parseCode = List.replicate 65 (0, []) := by decide +kernel

example : [b! "LDA LDX LDY LOLOL\n",
    b! "LDX (),\tX LABEL\n",
    b! "LABEL1 LABEL2 STLOOP JANUS YOYOYOEOYEOYOEYO\n",
    b! "sexy === $ffff\n",
    b! "LDA X\n",
    b! "number .define $9999",
    b! ".equ wow $666",
    b! ".END ZP,X",
    b! ".ORG CONSTANT16",
    b! "LSR A,X\n"].map (fun l => (parseCode l).1) = List.replicate 10 (-10) := by decide +kernel

/-! tests/error/test_error.c -/

example : [b! "\tLDA\t$800!!!!!!SDJGHJSDHFSDKVNSFULM\n", b! "LDX\t%10021010\n", b! "TEST = $FFFF0001\n",
    b! "\t\tJMP\ta2345678b2345678c2345678d2345678e2345678f2345678g2345678h2345678\n", b! "LABEL:\t\tADC\t((PLACE,X),Y)\t;lolwtf\n"].map lexCode =
    [-3, -3, -4, -7, -8] := by decide +kernel

example : parseCode (b! "INC     (LOL,),\n") = (-10, b! "t.asm:1: ERROR: illegal syntax\nINC     (LOL,),\n             ^~~~~~\n\n") := by
  decide +kernel

example : failCode (b! "SYMBOL = $1234\nSYMBOL = $0\n") = some (-11) ∧
    failCode (b! "\t\tLOOP:\tADC\t$01\n\t\tLOOP:\tJMP\tBYE\n") = some (-11) ∧ failCode (b! "\t\tCPY\tADDRESS\n") = some (-12) ∧
    failCode (b! "SBC ($ABCD)\n") = some (-13) := by decide +kernel

/-! tests/generator/test_generator.c -/

/- test_generate_code -/
example : rom 0 (b! "INX\nROL A\nORA $AA\nLDA $1234\nSBC $BB,X\nINC $1000,X\nSTX $CC,Y\nSTA $DEAD,Y\nJMP ($FACE)\nEOR #$DD\nADC ($EE,X)\nCMP ($FF),Y\nASL\n") =
    some [0xE8, 0x2A, 0x05, 0xAA, 0xAD, 0x34, 0x12, 0xF5, 0xBB, 0xFE, 0x00, 0x10, 0x96, 0xCC, 0x99, 0xAD, 0xDE, 0x6C, 0xCE, 0xFA,
      0x49, 0xDD, 0x61, 0xEE, 0xD1, 0xFF, 0x0A] := by decide +kernel

/- test_resolve_label_ref, at 0x100 instead of 0x1000 -/
example : rom 0x100 (b! "*=$100\nADDRESS .EQU $1234\nLABEL1: INX\nBNE LABEL1\nJMP LABEL1\nSAME1: BEQ SAME1\nSAME2: JMP SAME2\nLABEL2: BPL SAME1\nJSR LABEL2\nJMP (ADDRESS)\n") =
    some [0xE8, 0xD0, 0xFD, 0x4C, 0x00, 0x01, 0xF0, 0xFE, 0x4C, 0x08, 0x01, 0x10, 0xF9, 0x20, 0x0B, 0x01, 0x6C, 0x34, 0x12] := by
  decide +kernel

example : failCode (b! "FARAWAY = $F000\n*=$100\n\t\tBMI\tFARAWAY\n") = some (-15) := by decide +kernel

/- test_too_big_offset_no_forward_ref -/
example : rom 0x7E (b! "BACK INX\n*=$7E\nBCC BACK\n") = some [0x90, 0x80] ∧
    failCode (b! "BACK INX\n*=$7F\nBCC\tBACK\n") = some (-15) ∧
    failCode (b! "BACK INX\n*=$ABC\n                BCC     BACK\n") = some (-15) := by decide +kernel

/- test_resolve_forward_ref -/
example : rom 0 (b! "BVS L1\nJMP L2\nJSR L3\nJMP (WHERE)\nL1 INX\nL2 INY\nL3 DEX\nWHERE = $ABCD\n") =
    some [0x70, 0x09, 0x4C, 0x0C, 0x00, 0x20, 0x0D, 0x00, 0x6C, 0xCD, 0xAB, 0xE8, 0xC8, 0xCA] := by decide +kernel

/- test_too_big_offset_with_forward_ref -/
example : (rom 0 (b! "BVC FARAWAY1\n*=$81\nFARAWAY1 INY\n")).map (fun r => (r.take 2, r.drop 0x81)) = some ([0x50, 0x7F], [0xC8]) ∧
    failCode (b! "*=$0000\n\t\tBCS\tFARAWAY2\n*=$0082\nFARAWAY2 INY\n") = some (-15) ∧
    failCode (b! "BVS FARAWAY3\n*=$200\nFARAWAY3 DEX\n") = some (-15) := by decide +kernel

end Gaia.Conformance

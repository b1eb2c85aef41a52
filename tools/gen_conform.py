#!/usr/bin/env python3
"""Writes lean/Verif/Props/Conformance.lean from /repo/tests: what the project's unit tests expect, checked on the model."""
import re, os
R = '/repo/tests/'
hdr = open(R + 'parser/exhaustive_lines.h').read()
lines = dict(re.findall(r'const char \*(\w+)\s*=\s*"((?:[^"\\]|\\.)*)";', hdr))
t1 = open(R + 'parser/test_parser1.c').read()
out = ['''import Verif.Props.Example
import Verif.Model.Main

/-!
Conformance of the model with the project's unit tests: the expectations of /repo/tests, evaluated on the model by the kernel.
These are tests of the model, not proofs of properties. Generated by tools/gen_conform.py (lines and expected codes are
extracted from /repo/tests/parser, the rest is transcribed).
-/
set_option maxRecDepth 100000
namespace Gaia.Conformance
open Gaia

/-- The error code of `lex_line` on a fresh lexer, 0 for success. -/
def lexCode (l : List Byte) : Int :=
  match lexLine l (initLexer (b! "t.asm")) initToken initInstruction 1 with
  | .ok _ => 0
  | .err f => f.code.code
  | .ub _ => 1000

/-- The error code of `parse_line` after a successful `lex_line`, and the text printed. -/
def parseCode (l : List Byte) : Int × Str :=
  match lexLine l (initLexer (b! "t.asm")) initToken initInstruction 1 with
  | .ok (lx, _, _) =>
    match parseLine lx with
    | .ok _ => (0, [])
    | .err f => (f.code.code, f.out)
    | .ub _ => (1000, [])
  | .err _ => (2000, [])
  | .ub _ => (3000, [])

/-- A program's bytes from an address on, if it assembles. -/
def rom (start : Nat) (src : List Byte) : Option (List Byte) :=
  match assembleBytes (b! "t.asm") src with
  | .ok st => some (st.out.bytes.drop start)
  | _ => none

/-- The error code of a program. -/
def failCode (src : List Byte) : Option Int :=
  match assembleBytes (b! "t.asm") src with
  | .err a => some a.fail.code.code
  | _ => none

/-- A table filled with symbols. -/
def table (ls : List (Str × Int)) : Option SymTab :=
  match ls.foldlM (fun t (l, v) => insertSymbol t l v) initSymbolTable with
  | .ok t => some t
  | _ => none

def slotLabel (t : Option SymTab) (i : Nat) : Option Str := do
  let t ← t
  let s ← t.symbols[i]?
  let s ← s
  pure s.label

/-! tests/prime/test_prime.c -/
''']
pr = re.findall(r'TEST_ASSERT_EQUAL_INT\((\d+), next_prime\(([\d *]+)\)\)', open(R + 'prime/test_prime.c').read())
out.append('example : [%s].map nextPrime = [%s].map .ok := by decide +kernel\n' % (', '.join(b for a, b in pr), ', '.join(a for a, b in pr)))
out.append('''/-! tests/symbol_table/test_symbol_table.c -/

def eight : List (Str × Int) := [(b! "JANUS", 1), (b! "CHKEND", 2), (b! "SORT8", 3), (b! "NXTEL", 4), (b! "OPNING", 5), (b! "SWAP", 6),
  (b! "SORT16", 7), (b! "SETW", 8)]

/- insertion, with probing and wrap-around -/
example : (table (eight.take 6)).map (·.size) = some 17 ∧ (table (eight.take 6)).map (·.count) = some 6 ∧
    [8, 15, 16, 4, 0, 11].map (slotLabel (table (eight.take 6))) =
      [some (b! "JANUS"), some (b! "CHKEND"), some (b! "SORT8"), some (b! "NXTEL"), some (b! "OPNING"), some (b! "SWAP")] := by
  decide +kernel

example : [12, 1].map (slotLabel (table eight)) = [some (b! "SORT16"), some (b! "SETW")] := by decide +kernel

/- searching -/
example : (table (eight.take 6)).map (fun t => [b! "JANUS", b! "CHKEND", b! "SORT8", b! "NXTEL", b! "OPNING", b! "SWAP", b! "lol", b! "main",
    b! "SORT16", b! "!@#$%^&*()", b! "SETW"].map (searchSymbol t)) =
    some ([1, 2, 3, 4, 5, 6, -2, -2, -2, -2, -2].map .ok) := by decide +kernel

/- the ninth symbol makes the table grow -/
example : (table eight).map (·.size) = some 17 ∧ (table (eight ++ [(b! "REVERSE", 9)])).map (·.size) = some 37 ∧
    [20, 24, 26, 21, 19, 33, 15, 9, 2].map (slotLabel (table (eight ++ [(b! "REVERSE", 9)]))) =
      [some (b! "JANUS"), some (b! "CHKEND"), some (b! "SORT8"), some (b! "NXTEL"), some (b! "OPNING"), some (b! "SWAP"),
        some (b! "SORT16"), some (b! "SETW"), some (b! "REVERSE")] := by decide +kernel

/-! tests/parser/test_parser1.c, `test_parse_line` -/
''')
body = t1[t1.index('void test_parse_line'):t1.index('#define PARSE_LABEL_DECL_TESTER')]
loc = dict(lines); loc.update(re.findall(r'const char \*(\w+) = "((?:[^"\\]|\\.)*)";', body))
ok = [loc[n] for c, n in re.findall(r'SETUP_TESTER\((\w+), (\w+),', body) if c == 'PARSER_SUCCESS']
bad = re.findall(r'SETUP_TESTER\((ERROR_\w+), (\w+),[^;]*;\s*TEST_ASSERT_EQUAL_PTR\(lexer->sequence\[(\d)\]', body)
def lit(s): return 'b! "%s"' % s
out.append('example : [%s].map parseCode = List.replicate %d (0, []) := by decide +kernel\n' % (',\n    '.join(lit(s) for s in ok), len(ok)))
assert all(c == 'ERROR_ILLEGAL_SEQUENCE' for c, _, _ in bad)
out.append('example : [%s].map (fun l => (parseCode l).1) = List.replicate %d (-10) := by decide +kernel\n' % (',\n    '.join(lit(loc[n]) for c, n, i in bad), len(bad)))
out.append('''/-! tests/error/test_error.c -/

example : [b! "\\tLDA\\t$800!!!!!!SDJGHJSDHFSDKVNSFULM\\n", b! "LDX\\t%10021010\\n", b! "TEST = $FFFF0001\\n",
    b! "\\t\\tJMP\\ta2345678b2345678c2345678d2345678e2345678f2345678g2345678h2345678\\n", b! "LABEL:\\t\\tADC\\t((PLACE,X),Y)\\t;lolwtf\\n"].map lexCode =
    [-3, -3, -4, -7, -8] := by decide +kernel

example : parseCode (b! "INC     (LOL,),\\n") = (-10, b! "t.asm:1: ERROR: illegal syntax\\nINC     (LOL,),\\n             ^~~~~~\\n\\n") := by
  decide +kernel

example : failCode (b! "SYMBOL = $1234\\nSYMBOL = $0\\n") = some (-11) ∧
    failCode (b! "\\t\\tLOOP:\\tADC\\t$01\\n\\t\\tLOOP:\\tJMP\\tBYE\\n") = some (-11) ∧ failCode (b! "\\t\\tCPY\\tADDRESS\\n") = some (-12) ∧
    failCode (b! "SBC ($ABCD)\\n") = some (-13) := by decide +kernel

/-! tests/generator/test_generator.c -/

/- test_generate_code -/
example : rom 0 (b! "INX\\nROL A\\nORA $AA\\nLDA $1234\\nSBC $BB,X\\nINC $1000,X\\nSTX $CC,Y\\nSTA $DEAD,Y\\nJMP ($FACE)\\nEOR #$DD\\nADC ($EE,X)\\nCMP ($FF),Y\\nASL\\n") =
    some [0xE8, 0x2A, 0x05, 0xAA, 0xAD, 0x34, 0x12, 0xF5, 0xBB, 0xFE, 0x00, 0x10, 0x96, 0xCC, 0x99, 0xAD, 0xDE, 0x6C, 0xCE, 0xFA,
      0x49, 0xDD, 0x61, 0xEE, 0xD1, 0xFF, 0x0A] := by decide +kernel

/- test_resolve_label_ref, at 0x100 instead of 0x1000 -/
example : rom 0x100 (b! "*=$100\\nADDRESS .EQU $1234\\nLABEL1: INX\\nBNE LABEL1\\nJMP LABEL1\\nSAME1: BEQ SAME1\\nSAME2: JMP SAME2\\nLABEL2: BPL SAME1\\nJSR LABEL2\\nJMP (ADDRESS)\\n") =
    some [0xE8, 0xD0, 0xFD, 0x4C, 0x00, 0x01, 0xF0, 0xFE, 0x4C, 0x08, 0x01, 0x10, 0xF9, 0x20, 0x0B, 0x01, 0x6C, 0x34, 0x12] := by
  decide +kernel

example : failCode (b! "FARAWAY = $F000\\n*=$100\\n\\t\\tBMI\\tFARAWAY\\n") = some (-15) := by decide +kernel

/- test_too_big_offset_no_forward_ref -/
example : rom 0x7E (b! "BACK INX\\n*=$7E\\nBCC BACK\\n") = some [0x90, 0x80] ∧
    failCode (b! "BACK INX\\n*=$7F\\nBCC\\tBACK\\n") = some (-15) ∧
    failCode (b! "BACK INX\\n*=$ABC\\n                BCC     BACK\\n") = some (-15) := by decide +kernel

/- test_resolve_forward_ref -/
example : rom 0 (b! "BVS L1\\nJMP L2\\nJSR L3\\nJMP (WHERE)\\nL1 INX\\nL2 INY\\nL3 DEX\\nWHERE = $ABCD\\n") =
    some [0x70, 0x09, 0x4C, 0x0C, 0x00, 0x20, 0x0D, 0x00, 0x6C, 0xCD, 0xAB, 0xE8, 0xC8, 0xCA] := by decide +kernel

/- test_too_big_offset_with_forward_ref -/
example : (rom 0 (b! "BVC FARAWAY1\\n*=$81\\nFARAWAY1 INY\\n")).map (fun r => (r.take 2, r.drop 0x81)) = some ([0x50, 0x7F], [0xC8]) ∧
    failCode (b! "*=$0000\\n\\t\\tBCS\\tFARAWAY2\\n*=$0082\\nFARAWAY2 INY\\n") = some (-15) ∧
    failCode (b! "BVS FARAWAY3\\n*=$200\\nFARAWAY3 DEX\\n") = some (-15) := by decide +kernel

end Gaia.Conformance
''')
open(os.path.join(os.path.dirname(__file__), '..', 'lean/Verif/Props/Conformance.lean'), 'w').write('\n'.join(out))
print(len(ok), len(bad))

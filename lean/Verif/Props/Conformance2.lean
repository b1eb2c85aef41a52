import Verif.Model.Codes

/-!
The project's unit tests (/repo/tests), translated statement by statement by tools/gen_conform2.py into scripts run on the model with the
C return codes (Verif/Model/Codes.lean), and evaluated by the kernel. The expected values are those of the tests, the constants
those of the headers. These are tests of the model, not proofs of properties: they are evidence that the model is the code's.
-/
set_option maxRecDepth 1000000
namespace Gaia.Conformance2
open Gaia

instance : Inhabited Codes.ForwardRef := ⟨⟨[], [], initInstruction, 0, 0, 0, 0⟩⟩

/-- The variables of a test. -/
structure T where
  lx : Lexer := initLexer []
  r : Codes.Running := ⟨initToken, none⟩
  instr : Instr := initInstruction
  tab : SymTab := initSymbolTable
  operand : Option Token := none
  status : Int := 0
  mask : Int := 0
  ref : Option Codes.ForwardRef := none
  un : Codes.Unresolved := Codes.initUnresolved
  f : OutFile := .empty
  pc : Nat := 0
  written : Int := 0
  dest : Int := 0

/-- Calls with their expected result (`none`: any). -/
inductive Act
  | check (p : T → Bool)
  | update (f : T → T)
  | lexLine (n : Nat) (s : List Byte) (w : Option Int)
  | parseLine (w : Option Int)
  | instrTree (i : Nat) (w : Option Int)
  | labelTree (i : Nat) (w : Option Int)
  | directiveTree (i : Nat) (w : Option Int)
  | baseTree (i : Nat) (w : Option Int)
  | declare (pc : Option Nat) (w : Option Int)
  | findOperand
  | parseOperand (w : Option Int)
  | parseLabelOperand (w : Option Int)
  | parseAddrMode (st : Option Int) (w : Option Int)
  | parseForwardRefAddrMode (w : Option Int)
  | applyMasks (field : Nat) (w : Option Int)
  | search (l : Str) (w : Option Int)
  | searchToken (i : Nat) (w : Option Int)
  | searchRef
  | lexLiteral (s : Str) (off : Nat) (w : Option Int)
  | lexDirective (s : Str) (off : Nat) (w : Option Int)
  | lexText (s : Str) (off : Nat) (w : Option Int)
  | lex (s : Str) (off : Nat) (w : Option Int)
  | lexInstruction (w : Option Int)
  | tokenStrncpy (s : Str) (n : Nat)
  | tokenStrcpy (s : Str) (w : Option Int)
  | addToken (w : Option Int)
  | createRef (n : Nat) (s : Str)
  | insert (l : Str) (v : Int)
  | addRef (w : Option Int)
  | generate (w : Option Int)
  | resolveLabel (w : Option Int)
  | resolveRef (w : Option Int)
  | getOpcode (w : Option Int)
  | setPc (n : Nat)
  | addPc (n : Nat)
  | advance

def run {α} (m : Codes.M α) : Option α :=
  match m.run [] with
  | .ok (a, _) => some a
  | .error _ => none

def want (w : Option Int) (code : Int) (t : T) : Option T :=
  if w.all (· == code) then some t else none

def Act.exec (t : T) : Act → Option T
  | .check p => if p t then some t else none
  | .update f => some (f t)
  | .lexLine n s w => do
    let (c, lx, r, i) ← run (Codes.lexLine s t.lx t.r t.instr n)
    want w c { t with lx := lx, r := r, instr := i }
  | .parseLine w => do
    let (c, lx) ← run (Codes.parseLine t.lx)
    want w c { t with lx := lx }
  | .instrTree i w => do want w (← run (Codes.parseInstrTree t.lx i)) t
  | .labelTree i w => do want w (← run (Codes.parseLabelTree t.lx i)) t
  | .directiveTree i w => do
    let (c, lx) ← run (Codes.parseDirectiveTree t.lx i)
    want w c { t with lx := lx }
  | .baseTree i w => do
    let (c, lx) ← run (Codes.parseBaseTree t.lx i)
    want w c { t with lx := lx }
  | .declare pc w => do
    let (c, tab) ← run (Codes.parseLabelDeclaration t.lx t.tab (pc.getD t.pc))
    want w c { t with tab := tab }
  | .findOperand => do
    let op ← run (Codes.value (Gaia.findOperand t.lx))
    some { t with operand := op }
  | .parseOperand w => do
    let (c, op) ← run (Codes.parseOperand t.lx t.instr t.operand t.tab)
    want w c { t with operand := op, status := c }
  | .parseLabelOperand w => do
    let op ← t.operand
    let (c, op) ← run (Codes.parseLabelOperand t.lx t.instr op t.tab)
    want w c { t with operand := some op, status := c }
  | .parseAddrMode st w => do
    let (c, i) ← run (Codes.parseAddrMode t.lx t.instr t.operand (st.getD t.status))
    want w c { t with instr := i, mask := c }
  | .parseForwardRefAddrMode w => do
    let (c, i) ← run (Codes.parseForwardRefAddrMode t.lx t.instr)
    want w c { t with instr := i }
  | .applyMasks field w => want w (Gaia.applyMasks t.lx (BitVec.ofNat 32 field)).toInt t
  | .search l w => do want w (← run (Codes.searchSymbol t.tab l)) t
  | .searchToken i w => do
    let tk ← t.lx.seq[i]?
    want w (← run (Codes.searchSymbol t.tab tk.str)) t
  | .searchRef => do
    let ref ← t.ref
    some { t with dest := ← run (Codes.searchSymbol t.tab ref.label) }
  | .lexLiteral s off w =>
    let (c, r) := Codes.lexLiteral off (s.drop off) t.r
    want w c { t with r := r }
  | .lexDirective s off w => do
    let (c, r) ← run (Codes.lexDirective off (s.drop off) t.r)
    want w c { t with r := r }
  | .lexText s off w => do
    let (c, r, i) ← run (Codes.lexText off (s.drop off) t.r t.instr)
    want w c { t with r := r, instr := i }
  | .lex s off w => do
    let (c, r, i) ← run (Codes.lex off (s.drop off) t.r t.instr)
    want w c { t with r := r, instr := i }
  | .lexInstruction w =>
    let (c, tk, i) := Codes.lexInstruction t.r.tk t.instr
    want w c { t with r := { t.r with tk := tk }, instr := i }
  | .tokenStrncpy s n => do
    let tk ← run (Codes.value (Gaia.tokenStrncpy t.r.tk s n))
    some { t with r := { t.r with tk := tk } }
  | .tokenStrcpy s w => do
    let tk ← run (Codes.value (Gaia.tokenStrcpy t.r.tk s))
    want w s.length { t with r := { t.r with tk := tk } }
  | .addToken w => do
    let (c, lx) ← run (Codes.addToken t.lx t.r.tk)
    want w c { t with lx := lx }
  | .createRef n s => do
    let ref ← run (Codes.createForwardRef (cstr s) t.instr t.operand t.status t.pc n)
    some { t with ref := some ref }
  | .insert l v => do
    let (_, tab) ← run (Codes.insertSymbol t.tab l v)
    some { t with tab := tab }
  | .addRef w => do
    let ref ← t.ref
    let (c, un) ← run (Codes.addForwardRef t.un ref)
    want w c { t with un := un }
  | .generate w =>
    let (c, f) := Codes.generateCode t.f t.instr t.operand t.pc
    want w c { t with f := f, written := c }
  | .resolveLabel w => do
    let (c, f) ← run (Codes.resolveLabelRef t.f t.lx t.instr t.operand t.status t.tab t.pc)
    want w c { t with f := f, written := c }
  | .resolveRef w => do
    let ref ← t.ref
    let (c, f) ← run (Codes.resolveForwardRef t.f ref t.lx t.dest)
    want w c { t with f := f }
  | .getOpcode w => want w (Gaia.getOpcode t.instr) t
  | .setPc n => some { t with pc := n }
  | .addPc n => some { t with pc := t.pc + n }
  | .advance => some { t with pc := (t.pc + t.written).toNat }

/-- All calls of a script return what is expected. -/
def passes (l : List Act) : Bool := go l {}
where
  go : List Act → T → Bool
    | [], _ => true
    | a :: l, t =>
      match a.exec t with
      | some t => go l t
      | none => false


/-! tests/lexer/test_lexer.c -/

/- test_init_destroy_lexer: 17 assertions -/
example : passes [
    .update fun t => { t with lx := initLexer (b! "test_init_destroy_lexer.asm") },
    .check fun t => t.lx.fileName == (b! "test_init_destroy_lexer.asm"),
    .check fun t => (t.lx.seq[0]?.getD initToken).type == .null,
    .check fun t => (t.lx.seq[0]?.getD initToken).value == 0,
    .check fun t => (t.lx.seq[1]?.getD initToken).type == .null,
    .check fun t => (t.lx.seq[1]?.getD initToken).value == 0,
    .check fun t => (t.lx.seq[2]?.getD initToken).type == .null,
    .check fun t => (t.lx.seq[2]?.getD initToken).value == 0,
    .check fun t => (t.lx.seq[3]?.getD initToken).type == .null,
    .check fun t => (t.lx.seq[3]?.getD initToken).value == 0,
    .check fun t => (t.lx.seq[4]?.getD initToken).type == .null,
    .check fun t => (t.lx.seq[4]?.getD initToken).value == 0,
    .check fun t => (t.lx.seq[5]?.getD initToken).type == .null,
    .check fun t => (t.lx.seq[5]?.getD initToken).value == 0,
    .check fun t => (t.lx.seq[6]?.getD initToken).type == .null,
    .check fun t => (t.lx.seq[6]?.getD initToken).value == 0,
    .check fun t => (t.lx.seq[7]?.getD initToken).type == .null,
    .check fun t => (t.lx.seq[7]?.getD initToken).value == 0] = true := by decide +kernel

/- test_token_strcpy: 13 assertions -/
example : passes [
    .update fun t => { t with r := ⟨initToken, none⟩ },
    .tokenStrcpy (b! "LABEL") none,
    .check fun t => decide (some ((t.r.tk.str.length : Nat) : Int) = (some (5))),
    .check fun t => t.r.tk.str == (b! "LABEL"),
    .tokenStrcpy (b! "SEARCH") none,
    .check fun t => decide (some ((t.r.tk.str.length : Nat) : Int) = (some (6))),
    .check fun t => t.r.tk.str == (b! "SEARCH"),
    .tokenStrcpy (b! "CALC") none,
    .check fun t => decide (some ((t.r.tk.str.length : Nat) : Int) = (some (4))),
    .check fun t => t.r.tk.str == (b! "CALC"),
    .tokenStrcpy (b! "TEST_TOKEN_STRCPY") none,
    .check fun t => decide (some ((t.r.tk.str.length : Nat) : Int) = (some (17))),
    .check fun t => t.r.tk.str == (b! "TEST_TOKEN_STRCPY"),
    .tokenStrcpy (b! "") (some (0)),
    .check fun t => t.r.tk.str == (b! "TEST_TOKEN_STRCPY"),
    .check fun t => decide (some ((t.r.tk.str.length : Nat) : Int) = (some (17))),
    .check fun t => t.r.tk.str == (b! "TEST_TOKEN_STRCPY"),
    .check fun t => decide (some ((t.r.tk.str.length : Nat) : Int) = (some (17)))] = true := by decide +kernel

/- test_token_strncpy: 13 assertions -/
example : passes [
    .update fun t => { t with r := ⟨initToken, none⟩ },
    .tokenStrncpy (b! "LABEL1 TXA\n") 6,
    .check fun t => t.r.tk.str == (b! "LABEL1"),
    .tokenStrncpy (b! "Loop\tCMP\t$01\n") 4,
    .check fun t => t.r.tk.str == (b! "LOOP"),
    .tokenStrncpy (b! "LoNeLaBeL\n") 9,
    .check fun t => t.r.tk.str == (b! "LONELABEL"),
    .tokenStrncpy (b! "label2,X)\n") 6,
    .check fun t => t.r.tk.str == (b! "LABEL2"),
    .tokenStrncpy (b! "ORA (SOMETHING),Y\n") 3,
    .check fun t => t.r.tk.str == (b! "ORA"),
    .tokenStrncpy (b! "INDIRECT)\n") 8,
    .check fun t => t.r.tk.str == (b! "INDIRECT"),
    .tokenStrncpy (b! "PLA ;hi") 3,
    .check fun t => t.r.tk.str == (b! "PLA"),
    .tokenStrncpy (b! "LDX\tNUM\n") 3,
    .check fun t => t.r.tk.str == (b! "LDX"),
    .tokenStrncpy (b! "X\n") 1,
    .check fun t => t.r.tk.str == (b! "X"),
    .tokenStrncpy (b! "Y\n") 1,
    .check fun t => t.r.tk.str == (b! "Y"),
    .tokenStrncpy (b! "A\n") 1,
    .check fun t => t.r.tk.str == (b! "A"),
    .tokenStrncpy (b! "XNOTREGISTER\t;comment\n") 12,
    .check fun t => t.r.tk.str == (b! "XNOTREGISTER"),
    .tokenStrncpy (b! "YNOTREGISTER    ; comment again\n") 12,
    .check fun t => t.r.tk.str == (b! "YNOTREGISTER")] = true := by decide +kernel

/- test_add_token: 47 assertions -/
example : passes [
    .update fun t => { t with lx := initLexer (b! "test_add_token.asm") },
    .check fun t => t.lx.curr == 0,
    .update fun t => { t with r := ⟨initToken, none⟩ },
    .update fun t => { t with r := { t.r with tk := { t.r.tk with type := .label } } },
    .tokenStrcpy (b! "CHKEND") (some (6)),
    .update fun t => { t with r := { t.r with tk := { t.r.tk with value := 4096 } } },
    .addToken (some (2)),
    .check fun t => (t.lx.seq[t.lx.curr - 1]?.getD initToken).type == .label,
    .check fun t => (t.lx.seq[t.lx.curr - 1]?.getD initToken).str == (b! "CHKEND"),
    .check fun t => (t.lx.seq[t.lx.curr - 1]?.getD initToken).value == 4096,
    .check fun t => t.lx.curr == 1,
    .addToken (some (2)),
    .check fun t => t.lx.curr == 2,
    .addToken (some (2)),
    .check fun t => t.lx.curr == 3,
    .addToken (some (2)),
    .check fun t => t.lx.curr == 4,
    .addToken (some (2)),
    .check fun t => t.lx.curr == 5,
    .addToken (some (2)),
    .check fun t => t.lx.curr == 6,
    .addToken (some (2)),
    .check fun t => t.lx.curr == 7,
    .addToken (some (2)),
    .check fun t => t.lx.curr == 8,
    .check fun t => (t.lx.seq[t.lx.curr - 1]?.getD initToken).type == .label,
    .check fun t => (t.lx.seq[t.lx.curr - 1]?.getD initToken).str == (b! "CHKEND"),
    .check fun t => (t.lx.seq[t.lx.curr - 1]?.getD initToken).value == 4096,
    .check fun t => (t.lx.seq[t.lx.curr - 1]?.getD initToken).type == .label,
    .check fun t => (t.lx.seq[t.lx.curr - 1]?.getD initToken).str == (b! "CHKEND"),
    .check fun t => (t.lx.seq[t.lx.curr - 1]?.getD initToken).value == 4096,
    .check fun t => (t.lx.seq[t.lx.curr - 1]?.getD initToken).type == .label,
    .check fun t => (t.lx.seq[t.lx.curr - 1]?.getD initToken).str == (b! "CHKEND"),
    .check fun t => (t.lx.seq[t.lx.curr - 1]?.getD initToken).value == 4096,
    .check fun t => (t.lx.seq[t.lx.curr - 1]?.getD initToken).type == .label,
    .check fun t => (t.lx.seq[t.lx.curr - 1]?.getD initToken).str == (b! "CHKEND"),
    .check fun t => (t.lx.seq[t.lx.curr - 1]?.getD initToken).value == 4096,
    .check fun t => (t.lx.seq[t.lx.curr - 1]?.getD initToken).type == .label,
    .check fun t => (t.lx.seq[t.lx.curr - 1]?.getD initToken).str == (b! "CHKEND"),
    .check fun t => (t.lx.seq[t.lx.curr - 1]?.getD initToken).value == 4096,
    .check fun t => (t.lx.seq[t.lx.curr - 1]?.getD initToken).type == .label,
    .check fun t => (t.lx.seq[t.lx.curr - 1]?.getD initToken).str == (b! "CHKEND"),
    .check fun t => (t.lx.seq[t.lx.curr - 1]?.getD initToken).value == 4096,
    .check fun t => (t.lx.seq[t.lx.curr - 1]?.getD initToken).type == .label,
    .check fun t => (t.lx.seq[t.lx.curr - 1]?.getD initToken).str == (b! "CHKEND"),
    .check fun t => (t.lx.seq[t.lx.curr - 1]?.getD initToken).value == 4096,
    .check fun t => (t.lx.seq[t.lx.curr - 1]?.getD initToken).type == .label,
    .check fun t => (t.lx.seq[t.lx.curr - 1]?.getD initToken).str == (b! "CHKEND"),
    .check fun t => (t.lx.seq[t.lx.curr - 1]?.getD initToken).value == 4096,
    .addToken (some (-8)),
    .check fun t => t.lx.curr == 8] = true := by decide +kernel

/- test_lex_literal: 176 assertions -/
example : passes [
    .update fun t => { t with r := ⟨initToken, none⟩ },
    .lexLiteral (b! "abc") 0 (some (-3)),
    .check fun t => t.r.errorChar == (some 0),
    .lexLiteral (b! "@!#$") 0 (some (-3)),
    .check fun t => t.r.errorChar == (some 0),
    .lexLiteral (b! ";") 0 (some (-3)),
    .check fun t => t.r.errorChar == (some 0),
    .lexLiteral (b! "") 0 (some (-3)),
    .check fun t => t.r.errorChar == (some 0),
    .lexLiteral (b! "\t\n") 0 (some (-3)),
    .check fun t => t.r.errorChar == (some 0),
    .lexLiteral (b! "$1234") 0 (some (5)),
    .check fun t => t.r.tk.type == .literal,
    .check fun t => t.r.tk.value == 4660,
    .lexLiteral (b! "$FACE\n") 0 (some (5)),
    .check fun t => t.r.tk.type == .literal,
    .check fun t => t.r.tk.value == 64206,
    .lexLiteral (b! "$DEAD\t") 0 (some (5)),
    .check fun t => t.r.tk.type == .literal,
    .check fun t => t.r.tk.value == 57005,
    .lexLiteral (b! "$A00B\t") 0 (some (5)),
    .check fun t => t.r.tk.type == .literal,
    .check fun t => t.r.tk.value == 40971,
    .lexLiteral (b! "$0BEE") 0 (some (5)),
    .check fun t => t.r.tk.type == .literal,
    .check fun t => t.r.tk.value == 3054,
    .lexLiteral (b! "$005A") 0 (some (5)),
    .check fun t => t.r.tk.type == .literal,
    .check fun t => t.r.tk.value == 90,
    .lexLiteral (b! "$0001") 0 (some (5)),
    .check fun t => t.r.tk.type == .literal,
    .check fun t => t.r.tk.value == 1,
    .lexLiteral (b! "$0A0 ; lol comment") 0 (some (4)),
    .check fun t => t.r.tk.type == .literal,
    .check fun t => t.r.tk.value == 160,
    .lexLiteral (b! "$face\n") 0 (some (5)),
    .check fun t => t.r.tk.type == .literal,
    .check fun t => t.r.tk.value == 64206,
    .lexLiteral (b! "$0000dead\t") 0 (some (9)),
    .check fun t => t.r.tk.type == .literal,
    .check fun t => t.r.tk.value == 57005,
    .lexLiteral (b! "$bee") 0 (some (4)),
    .check fun t => t.r.tk.type == .literal,
    .check fun t => t.r.tk.value == 3054,
    .lexLiteral (b! "$5a") 0 (some (3)),
    .check fun t => t.r.tk.type == .literal,
    .check fun t => t.r.tk.value == 90,
    .lexLiteral (b! "$ace\t\t\t") 0 (some (4)),
    .check fun t => t.r.tk.type == .literal,
    .check fun t => t.r.tk.value == 2766,
    .lexLiteral (b! "$ff") 0 (some (3)),
    .check fun t => t.r.tk.type == .literal,
    .check fun t => t.r.tk.value == 255,
    .lexLiteral (b! "$ab\t;AAAAAAAAAA\n") 0 (some (3)),
    .check fun t => t.r.tk.type == .literal,
    .check fun t => t.r.tk.value == 171,
    .lexLiteral (b! "$1") 0 (some (2)),
    .check fun t => t.r.tk.type == .literal,
    .check fun t => t.r.tk.value == 1,
    .lexLiteral (b! "$0c") 0 (some (3)),
    .check fun t => t.r.tk.type == .literal,
    .check fun t => t.r.tk.value == 12,
    .lexLiteral (b! "$000000000a") 0 (some (11)),
    .check fun t => t.r.tk.type == .literal,
    .check fun t => t.r.tk.value == 10,
    .lexLiteral (b! "$0000") 0 (some (5)),
    .check fun t => t.r.tk.type == .literal,
    .check fun t => t.r.tk.value == 0,
    .lexLiteral (b! "$00000000") 0 (some (9)),
    .check fun t => t.r.tk.type == .literal,
    .check fun t => t.r.tk.value == 0,
    .lexLiteral (b! "$0000000000000000") 0 (some (17)),
    .check fun t => t.r.tk.type == .literal,
    .check fun t => t.r.tk.value == 0,
    .lexLiteral (b! "$FFFFFFF") 0 (some (-4)),
    .check fun t => t.r.errorChar == (some 0),
    .lexLiteral (b! "$1234567890ABCDEF") 0 (some (-4)),
    .check fun t => t.r.errorChar == (some 0),
    .lexLiteral (b! "$10000") 0 (some (-4)),
    .check fun t => t.r.errorChar == (some 0),
    .lexLiteral (b! "$\n") 0 (some (-3)),
    .check fun t => t.r.errorChar == (some 1),
    .lexLiteral (b! "%11111111") 0 (some (9)),
    .check fun t => t.r.tk.type == .literal,
    .check fun t => t.r.tk.value == 255,
    .lexLiteral (b! "%01010001") 0 (some (9)),
    .check fun t => t.r.tk.type == .literal,
    .check fun t => t.r.tk.value == 81,
    .lexLiteral (b! "%00000000\n") 0 (some (9)),
    .check fun t => t.r.tk.type == .literal,
    .check fun t => t.r.tk.value == 0,
    .lexLiteral (b! "%10000001") 0 (some (9)),
    .check fun t => t.r.tk.type == .literal,
    .check fun t => t.r.tk.value == 129,
    .lexLiteral (b! "%1111111100001110") 0 (some (17)),
    .check fun t => t.r.tk.type == .literal,
    .check fun t => t.r.tk.value == 65294,
    .lexLiteral (b! "%10101010101\t\t") 0 (some (12)),
    .check fun t => t.r.tk.type == .literal,
    .check fun t => t.r.tk.value == 1365,
    .lexLiteral (b! "%0") 0 (some (2)),
    .check fun t => t.r.tk.type == .literal,
    .check fun t => t.r.tk.value == 0,
    .lexLiteral (b! "%00000") 0 (some (6)),
    .check fun t => t.r.tk.type == .literal,
    .check fun t => t.r.tk.value == 0,
    .lexLiteral (b! "%00001001\t\t") 0 (some (9)),
    .check fun t => t.r.tk.type == .literal,
    .check fun t => t.r.tk.value == 9,
    .lexLiteral (b! "%00001111111111111111") 0 (some (21)),
    .check fun t => t.r.tk.type == .literal,
    .check fun t => t.r.tk.value == 65535,
    .lexLiteral (b! "%10001111111111111111") 0 (some (-4)),
    .check fun t => t.r.errorChar == (some 0),
    .lexLiteral (b! "%111111111111111111111111111111") 0 (some (-4)),
    .check fun t => t.r.errorChar == (some 0),
    .lexLiteral (b! "%1010101010101010101010101010101010101010101010101010110101010101") 0 (some (-4)),
    .check fun t => t.r.errorChar == (some 0),
    .lexLiteral (b! "%\n") 0 (some (-3)),
    .check fun t => t.r.errorChar == (some 1),
    .lexLiteral (b! "%101002\n") 0 (some (-3)),
    .check fun t => t.r.errorChar == (some 6),
    .lexLiteral (b! "1234") 0 (some (4)),
    .check fun t => t.r.tk.type == .literal,
    .check fun t => t.r.tk.value == 1234,
    .lexLiteral (b! "65535") 0 (some (5)),
    .check fun t => t.r.tk.type == .literal,
    .check fun t => t.r.tk.value == 65535,
    .lexLiteral (b! "0") 0 (some (1)),
    .check fun t => t.r.tk.type == .literal,
    .check fun t => t.r.tk.value == 0,
    .lexLiteral (b! "25") 0 (some (2)),
    .check fun t => t.r.tk.type == .literal,
    .check fun t => t.r.tk.value == 25,
    .lexLiteral (b! "800") 0 (some (3)),
    .check fun t => t.r.tk.type == .literal,
    .check fun t => t.r.tk.value == 800,
    .lexLiteral (b! "000000000100") 0 (some (12)),
    .check fun t => t.r.tk.type == .literal,
    .check fun t => t.r.tk.value == 100,
    .lexLiteral (b! "123456789") 0 (some (-4)),
    .check fun t => t.r.errorChar == (some 0),
    .lexLiteral (b! "65536") 0 (some (-4)),
    .check fun t => t.r.errorChar == (some 0),
    .lexLiteral (b! "A") 0 (some (-3)),
    .check fun t => t.r.errorChar == (some 0),
    .lexLiteral (b! "ffff") 0 (some (-3)),
    .check fun t => t.r.errorChar == (some 0),
    .lexLiteral (b! "25             ") 0 (some (2)),
    .check fun t => t.r.tk.type == .literal,
    .check fun t => t.r.tk.value == 25,
    .lexLiteral (b! "128\t;hi\n") 0 (some (3)),
    .check fun t => t.r.tk.type == .literal,
    .check fun t => t.r.tk.value == 128,
    .lexLiteral (b! "800\n") 0 (some (3)),
    .check fun t => t.r.tk.type == .literal,
    .check fun t => t.r.tk.value == 800,
    .lexLiteral (b! "$ffff,X\n") 0 (some (5)),
    .check fun t => t.r.tk.type == .literal,
    .check fun t => t.r.tk.value == 65535,
    .lexLiteral (b! "%10101111),Y\t;comment\n") 0 (some (9)),
    .check fun t => t.r.tk.type == .literal,
    .check fun t => t.r.tk.value == 175,
    .lexLiteral (b! "64;comment\n") 0 (some (2)),
    .check fun t => t.r.tk.type == .literal,
    .check fun t => t.r.tk.value == 64,
    .lexLiteral (b! "5555(wtf),Y\n") 0 (some (4)),
    .check fun t => t.r.tk.type == .literal,
    .check fun t => t.r.tk.value == 5555,
    .lexLiteral (b! "800!!!!!!SDJGHJSDHFSDKVNSFULM") 0 (some (-3)),
    .check fun t => t.r.errorChar == (some 3),
    .lexLiteral (b! "$facq") 0 (some (-3)),
    .check fun t => t.r.errorChar == (some 4),
    .lexLiteral (b! "%10102") 0 (some (-3)),
    .check fun t => t.r.errorChar == (some 5),
    .lexLiteral (b! "%ABCD") 0 (some (-3)),
    .check fun t => t.r.errorChar == (some 1)] = true := by decide +kernel

/- test_lex_instruction: 20 assertions -/
example : passes [
    .update fun t => { t with r := ⟨initToken, none⟩ },
    .update fun t => { t with instr := initInstruction },
    .tokenStrncpy (b! "ADC") 3,
    .check fun t => t.r.tk.str == (b! "ADC"),
    .lexInstruction (some (3)),
    .check fun t => t.instr.mnemonic == some .ADC,
    .check fun t => t.instr.addrBitfield == 1502,
    .tokenStrncpy (b! "jsr") 3,
    .check fun t => t.r.tk.str == (b! "JSR"),
    .lexInstruction (some (3)),
    .check fun t => t.instr.mnemonic == some .JSR,
    .check fun t => t.instr.addrBitfield == 256,
    .tokenStrncpy (b! "bEq") 3,
    .check fun t => t.r.tk.str == (b! "BEQ"),
    .lexInstruction (some (3)),
    .check fun t => t.instr.mnemonic == some .BEQ,
    .check fun t => t.instr.addrBitfield == 512,
    .tokenStrncpy (b! "badinstruction") 14,
    .check fun t => t.r.tk.str == (b! "BADINSTRUCTION"),
    .lexInstruction (some (-5)),
    .check fun t => t.instr.mnemonic == some .BEQ,
    .check fun t => t.instr.addrBitfield == 512,
    .tokenStrncpy (b! "LdA") 3,
    .check fun t => t.r.tk.str == (b! "LDA"),
    .lexInstruction (some (3)),
    .check fun t => t.instr.mnemonic == some .LDA,
    .check fun t => t.instr.addrBitfield == 1502] = true := by decide +kernel

/- test_lex_directive: 30 assertions -/
example : passes [
    .update fun t => { t with r := ⟨initToken, none⟩ },
    .lexDirective (b! ".EQU") 0 (some (4)),
    .check fun t => t.r.tk.type == .equDirective,
    .check fun t => t.r.tk.str == (b! ".EQU"),
    .lexDirective (b! ".equ") 0 (some (4)),
    .check fun t => t.r.tk.type == .equDirective,
    .check fun t => t.r.tk.str == (b! ".EQU"),
    .lexDirective (b! ".ORG") 0 (some (4)),
    .check fun t => t.r.tk.type == .orgDirective,
    .check fun t => t.r.tk.str == (b! ".ORG"),
    .lexDirective (b! ".org") 0 (some (4)),
    .check fun t => t.r.tk.type == .orgDirective,
    .check fun t => t.r.tk.str == (b! ".ORG"),
    .lexDirective (b! ".DEFINE") 0 (some (7)),
    .check fun t => t.r.tk.type == .defineDirective,
    .check fun t => t.r.tk.str == (b! ".DEFINE"),
    .lexDirective (b! ".define") 0 (some (7)),
    .check fun t => t.r.tk.type == .defineDirective,
    .check fun t => t.r.tk.str == (b! ".DEFINE"),
    .lexDirective (b! ".END") 0 (some (4)),
    .check fun t => t.r.tk.type == .endDirective,
    .check fun t => t.r.tk.str == (b! ".END"),
    .lexDirective (b! ".end") 0 (some (4)),
    .check fun t => t.r.tk.type == .endDirective,
    .check fun t => t.r.tk.str == (b! ".END"),
    .lexDirective (b! ".BADDIRECTIVE") 0 (some (-19)),
    .check fun t => t.r.errorChar == (some 0),
    .lexDirective (b! ".WTF_CHAR") 0 (some (-3)),
    .check fun t => t.r.errorChar == (some 4),
    .lexDirective (b! ".TOOLONGWTFTOOLONGWTFTOOLONGWTFTOOLONGWTFTOOLONGWTFTOOLONGWTFABCD") 0 (some (-19)),
    .check fun t => t.r.errorChar == (some 0)] = true := by decide +kernel

/- test_lex_text: 89 assertions -/
example : passes [
    .update fun t => { t with r := ⟨initToken, none⟩ },
    .update fun t => { t with instr := initInstruction },
    .lexText (b! "LABEL1 TXA\n") 0 (some (6)),
    .check fun t => t.r.tk.type == .label,
    .check fun t => t.r.tk.str == (b! "LABEL1"),
    .lexText (b! "LABEL1: TXA\n") 0 (some (6)),
    .check fun t => t.r.tk.type == .label,
    .check fun t => t.r.tk.str == (b! "LABEL1"),
    .lexText (b! "Loop\tCMP\t$01\n") 0 (some (4)),
    .check fun t => t.r.tk.type == .label,
    .check fun t => t.r.tk.str == (b! "LOOP"),
    .lexText (b! "LoNeLaBeL\n") 0 (some (9)),
    .check fun t => t.r.tk.type == .label,
    .check fun t => t.r.tk.str == (b! "LONELABEL"),
    .lexText (b! "LoNeLaBeL:\n") 0 (some (9)),
    .check fun t => t.r.tk.type == .label,
    .check fun t => t.r.tk.str == (b! "LONELABEL"),
    .lexText (b! "label2,X)\n") 0 (some (6)),
    .check fun t => t.r.tk.type == .label,
    .check fun t => t.r.tk.str == (b! "LABEL2"),
    .lexText (b! "INDIRECT)\n") 0 (some (8)),
    .check fun t => t.r.tk.type == .label,
    .check fun t => t.r.tk.str == (b! "INDIRECT"),
    .lexText (b! "SORT;comment\n") 0 (some (4)),
    .check fun t => t.r.tk.type == .label,
    .check fun t => t.r.tk.str == (b! "SORT"),
    .lexText (b! "ORA (SOMETHING),Y\n") 0 (some (3)),
    .check fun t => t.r.tk.str == (b! "ORA"),
    .check fun t => t.r.tk.type == .instruction,
    .check fun t => t.instr.mnemonic == some .ORA,
    .check fun t => t.instr.addrBitfield == 1502,
    .lexText (b! "PLA ;hi") 0 (some (3)),
    .check fun t => t.r.tk.str == (b! "PLA"),
    .check fun t => t.r.tk.type == .instruction,
    .check fun t => t.instr.mnemonic == some .PLA,
    .check fun t => t.instr.addrBitfield == 2048,
    .lexText (b! "LDX\tNUM\n") 0 (some (3)),
    .check fun t => t.r.tk.str == (b! "LDX"),
    .check fun t => t.r.tk.type == .instruction,
    .check fun t => t.instr.mnemonic == some .LDX,
    .check fun t => t.instr.addrBitfield == 1349,
    .lexText (b! "X\n") 0 (some (1)),
    .check fun t => t.r.tk.str == (b! "X"),
    .check fun t => t.r.tk.type == .xRegister,
    .lexText (b! "Y\n") 0 (some (1)),
    .check fun t => t.r.tk.str == (b! "Y"),
    .check fun t => t.r.tk.type == .yRegister,
    .lexText (b! "A\n") 0 (some (1)),
    .check fun t => t.r.tk.str == (b! "A"),
    .check fun t => t.r.tk.type == .accumulator,
    .lexText (b! "XNOTREGISTER\t;comment\n") 0 (some (12)),
    .check fun t => t.r.tk.type == .label,
    .check fun t => t.r.tk.str == (b! "XNOTREGISTER"),
    .lexText (b! "YNOTREGISTER    ; comment again\n") 0 (some (12)),
    .check fun t => t.r.tk.type == .label,
    .check fun t => t.r.tk.str == (b! "YNOTREGISTER"),
    .lexText [69, 79, 70, 255] 0 (some (3)),
    .check fun t => t.r.tk.type == .label,
    .check fun t => t.r.tk.str == (b! "EOF"),
    .lexText (b! "LDA#$01\n") 0 (some (-3)),
    .check fun t => t.r.errorChar == (some 3),
    .update fun t => { t with instr := resetInstruction t.instr },
    .lexText (b! "LABEL\tJSR MORE_LabeL\n") 0 (some (5)),
    .check fun t => t.r.tk.type == .label,
    .check fun t => t.r.tk.str == (b! "LABEL"),
    .check fun t => t.instr.mnemonic == none,
    .check fun t => t.instr.addrBitfield == 0,
    .lexText (b! "LABEL\tJSR MORE_LabeL\n") 6 (some (3)),
    .check fun t => t.r.tk.type == .instruction,
    .check fun t => t.r.tk.str == (b! "JSR"),
    .check fun t => t.instr.mnemonic == some .JSR,
    .check fun t => t.instr.addrBitfield == 256,
    .lexText (b! "LABEL\tJSR MORE_LabeL\n") 10 (some (10)),
    .check fun t => t.r.tk.type == .label,
    .check fun t => t.r.tk.str == (b! "MORE_LABEL"),
    .check fun t => t.instr.mnemonic == some .JSR,
    .check fun t => t.instr.addrBitfield == 256,
    .update fun t => { t with instr := resetInstruction t.instr },
    .lexText (b! "bad&&#label      LDA #$01") 0 (some (-3)),
    .lexText (b! "bad&&#label      LDA #$01") 17 (some (3)),
    .check fun t => t.r.tk.type == .instruction,
    .check fun t => t.r.tk.str == (b! "LDA"),
    .check fun t => t.instr.mnemonic == some .LDA,
    .check fun t => t.instr.addrBitfield == 1502,
    .lexText (b! "abcdefgh2bcdefgh3bcdefgh4bcdefgh5bcdefgh6bcdefgh7bcdefgh8bcdefgh BEQ wtf") 0 (some (-7)),
    .check fun t => t.r.tk.str == (b! "LDA"),
    .check fun t => t.r.errorChar == (some 0),
    .lexText (b! "abcdefgh2bcdefgh3bcdefgh4bcdefgh5bcdefgh6bcdefgh7bcdefgh8bcdefg BEQ wtf") 0 (some (63)),
    .check fun t => t.r.tk.type == .label,
    .check fun t => t.r.tk.str == (b! "ABCDEFGH2BCDEFGH3BCDEFGH4BCDEFGH5BCDEFGH6BCDEFGH7BCDEFGH8BCDEFG"),
    .lexText (b! "abcdefgh2bcdefgh3bcdefgh4bcdefgh5bcdefgh6bcdefgh7bcdefgh8bcdefg: BEQ wtf") 0 (some (63)),
    .check fun t => t.r.tk.type == .label,
    .check fun t => t.r.tk.str == (b! "ABCDEFGH2BCDEFGH3BCDEFGH4BCDEFGH5BCDEFGH6BCDEFGH7BCDEFGH8BCDEFG")] = true := by decide +kernel

/- test_lex: 64 assertions -/
example : passes [
    .update fun t => { t with r := ⟨initToken, none⟩ },
    .update fun t => { t with instr := initInstruction },
    .lex (b! "#%10011001\n") 0 (some (1)),
    .check fun t => t.r.tk.type == .immediate,
    .check fun t => t.r.tk.str == (b! "#"),
    .lex (b! "#%10011001\n") 1 (some (9)),
    .check fun t => t.r.tk.type == .literal,
    .check fun t => t.r.tk.value == 153,
    .lex (b! "array\t\t=\t$30\n") 0 (some (5)),
    .check fun t => t.r.tk.type == .label,
    .lex (b! "array\t\t=\t$30\n") 7 (some (1)),
    .check fun t => t.r.tk.type == .equalSign,
    .check fun t => t.r.tk.str == (b! "="),
    .lex (b! "array\t\t=\t$30\n") 9 (some (3)),
    .check fun t => t.r.tk.type == .literal,
    .check fun t => t.r.tk.value == 48,
    .lex (b! "SORT8\t\tlda (array),Y\t\t; FETCH ELEMENT COUNT\n") 0 (some (5)),
    .check fun t => t.r.tk.type == .label,
    .check fun t => t.instr.mnemonic == none,
    .lex (b! "SORT8\t\tlda (array),Y\t\t; FETCH ELEMENT COUNT\n") 7 (some (3)),
    .check fun t => t.r.tk.type == .instruction,
    .check fun t => t.instr.mnemonic == some .LDA,
    .check fun t => t.instr.addrBitfield == 1502,
    .lex (b! "SORT8\t\tlda (array),Y\t\t; FETCH ELEMENT COUNT\n") 11 (some (1)),
    .check fun t => t.r.tk.type == .openParenthesis,
    .check fun t => t.r.tk.str == (b! "("),
    .check fun t => t.instr.mnemonic == some .LDA,
    .check fun t => t.instr.addrBitfield == 1502,
    .lex (b! "SORT8\t\tlda (array),Y\t\t; FETCH ELEMENT COUNT\n") 12 (some (5)),
    .check fun t => t.r.tk.type == .label,
    .check fun t => t.r.tk.str == (b! "ARRAY"),
    .lex (b! "SORT8\t\tlda (array),Y\t\t; FETCH ELEMENT COUNT\n") 17 (some (1)),
    .check fun t => t.r.tk.type == .closeParenthesis,
    .check fun t => t.r.tk.str == (b! ")"),
    .lex (b! "SORT8\t\tlda (array),Y\t\t; FETCH ELEMENT COUNT\n") 18 (some (1)),
    .check fun t => t.r.tk.type == .comma,
    .check fun t => t.r.tk.str == (b! ","),
    .lex (b! "SORT8\t\tlda (array),Y\t\t; FETCH ELEMENT COUNT\n") 19 (some (1)),
    .check fun t => t.r.tk.type == .yRegister,
    .check fun t => t.r.tk.str == (b! "Y"),
    .lex (b! "LDA 256,X\n") 8 (some (1)),
    .check fun t => t.r.tk.type == .xRegister,
    .check fun t => t.r.tk.str == (b! "X"),
    .lex (b! "\t\t*=$1000\n") 2 (some (1)),
    .check fun t => t.r.tk.type == .base,
    .check fun t => t.r.tk.str == (b! "*"),
    .lex (b! "\t\t*=$1000\n") 3 (some (1)),
    .check fun t => t.r.tk.type == .equalSign,
    .check fun t => t.r.tk.str == (b! "="),
    .lex (b! "\t\t*=$1000\n") 4 (some (5)),
    .check fun t => t.r.tk.type == .literal,
    .check fun t => t.r.tk.value == 4096,
    .lex (b! ".org $800\n") 0 (some (4)),
    .check fun t => t.r.tk.type == .orgDirective,
    .check fun t => t.r.tk.str == (b! ".ORG"),
    .lex (b! ".org $800\n") 5 (some (4)),
    .check fun t => t.r.tk.type == .literal,
    .check fun t => t.r.tk.value == 2048,
    .lex (b! "ARRAY .EQU $10\n") 0 (some (5)),
    .check fun t => t.r.tk.type == .label,
    .lex (b! "ARRAY .EQU $10\n") 6 (some (4)),
    .check fun t => t.r.tk.type == .equDirective,
    .check fun t => t.r.tk.str == (b! ".EQU"),
    .lex (b! "\t\tLSR A\t\t; comment\n") 6 (some (1)),
    .check fun t => t.r.tk.type == .accumulator,
    .check fun t => t.r.tk.str == (b! "A")] = true := by decide +kernel

/- test_lex_line: 272 assertions -/
example : passes [
    .update fun t => { t with lx := initLexer (b! "test_lex_line.asm") },
    .update fun t => { t with r := ⟨initToken, none⟩ },
    .update fun t => { t with instr := initInstruction },
    .lexLine 1 (b! "SEARCH\t\tLDA\tBOARD,X\n") (some (1)),
    .check fun t => t.lx.curr == 5,
    .check fun t => t.lx.line == some (b! "SEARCH\t\tLDA\tBOARD,X\n"),
    .check fun t => t.instr.mnemonic == some .LDA,
    .check fun t => t.instr.addrBitfield == 1502,
    .check fun t => (t.lx.seq[0]?.getD initToken).type == .label,
    .check fun t => (t.lx.seq[0]?.getD initToken).bufferLocation == (some 0),
    .check fun t => (t.lx.seq[1]?.getD initToken).type == .instruction,
    .check fun t => (t.lx.seq[1]?.getD initToken).bufferLocation == (some 8),
    .check fun t => (t.lx.seq[2]?.getD initToken).type == .label,
    .check fun t => (t.lx.seq[2]?.getD initToken).bufferLocation == (some 12),
    .check fun t => (t.lx.seq[3]?.getD initToken).type == .comma,
    .check fun t => (t.lx.seq[3]?.getD initToken).bufferLocation == (some 17),
    .check fun t => (t.lx.seq[4]?.getD initToken).type == .xRegister,
    .check fun t => (t.lx.seq[4]?.getD initToken).bufferLocation == (some 18),
    .check fun t => (t.lx.seq[5]?.getD initToken).type == .null,
    .check fun t => (t.lx.seq[5]?.getD initToken).bufferLocation == none,
    .check fun t => (t.lx.seq[6]?.getD initToken).type == .null,
    .check fun t => (t.lx.seq[6]?.getD initToken).bufferLocation == none,
    .check fun t => (t.lx.seq[7]?.getD initToken).type == .null,
    .check fun t => (t.lx.seq[7]?.getD initToken).bufferLocation == none,
    .check fun t => (t.lx.seq[0]?.getD initToken).str == (b! "SEARCH"),
    .check fun t => (t.lx.seq[2]?.getD initToken).str == (b! "BOARD"),
    .lexLine 2 (b! "\t\tADC\tBCC\t; lol\n") (some (1)),
    .check fun t => t.lx.curr == 2,
    .check fun t => t.lx.line == some (b! "\t\tADC\tBCC\t; lol\n"),
    .check fun t => t.instr.mnemonic == some .BCC,
    .check fun t => t.instr.addrBitfield == 512,
    .check fun t => (t.lx.seq[0]?.getD initToken).type == .instruction,
    .check fun t => (t.lx.seq[0]?.getD initToken).bufferLocation == (some 2),
    .check fun t => (t.lx.seq[1]?.getD initToken).type == .instruction,
    .check fun t => (t.lx.seq[1]?.getD initToken).bufferLocation == (some 6),
    .check fun t => (t.lx.seq[2]?.getD initToken).type == .null,
    .check fun t => (t.lx.seq[3]?.getD initToken).type == .null,
    .check fun t => (t.lx.seq[4]?.getD initToken).type == .null,
    .check fun t => (t.lx.seq[5]?.getD initToken).type == .null,
    .check fun t => (t.lx.seq[6]?.getD initToken).type == .null,
    .check fun t => (t.lx.seq[7]?.getD initToken).type == .null,
    .lexLine 3 (b! "LABEL LABEL2 JMP ADC (LMAO,X)\n") (some (-8)),
    .check fun t => t.lx.curr == 8,
    .check fun t => t.lx.line == some (b! "LABEL LABEL2 JMP ADC (LMAO,X)\n"),
    .check fun t => (t.lx.seq[7]?.getD initToken).type == .xRegister,
    .lexLine 4 (b! "ELOOP\t\tCMP\tBK,Y\n") (some (1)),
    .check fun t => t.lx.curr == 5,
    .check fun t => t.lx.line == some (b! "ELOOP\t\tCMP\tBK,Y\n"),
    .check fun t => t.instr.mnemonic == some .CMP,
    .check fun t => t.instr.addrBitfield == 1502,
    .check fun t => (t.lx.seq[0]?.getD initToken).type == .label,
    .check fun t => (t.lx.seq[0]?.getD initToken).bufferLocation == (some 0),
    .check fun t => (t.lx.seq[1]?.getD initToken).type == .instruction,
    .check fun t => (t.lx.seq[1]?.getD initToken).bufferLocation == (some 7),
    .check fun t => (t.lx.seq[2]?.getD initToken).type == .label,
    .check fun t => (t.lx.seq[2]?.getD initToken).bufferLocation == (some 11),
    .check fun t => (t.lx.seq[3]?.getD initToken).type == .comma,
    .check fun t => (t.lx.seq[3]?.getD initToken).bufferLocation == (some 13),
    .check fun t => (t.lx.seq[4]?.getD initToken).type == .yRegister,
    .check fun t => (t.lx.seq[4]?.getD initToken).bufferLocation == (some 14),
    .check fun t => (t.lx.seq[5]?.getD initToken).type == .null,
    .check fun t => (t.lx.seq[6]?.getD initToken).type == .null,
    .check fun t => (t.lx.seq[7]?.getD initToken).type == .null,
    .lexLine 5 (b! "address\t=\t$1234\n") (some (1)),
    .check fun t => t.lx.curr == 3,
    .check fun t => t.lx.line == some (b! "address\t=\t$1234\n"),
    .check fun t => t.instr.mnemonic == none,
    .check fun t => (t.lx.seq[0]?.getD initToken).type == .label,
    .check fun t => (t.lx.seq[0]?.getD initToken).bufferLocation == (some 0),
    .check fun t => (t.lx.seq[1]?.getD initToken).type == .equalSign,
    .check fun t => (t.lx.seq[1]?.getD initToken).bufferLocation == (some 8),
    .check fun t => (t.lx.seq[2]?.getD initToken).type == .literal,
    .check fun t => (t.lx.seq[2]?.getD initToken).bufferLocation == (some 10),
    .check fun t => (t.lx.seq[3]?.getD initToken).type == .null,
    .check fun t => (t.lx.seq[4]?.getD initToken).type == .null,
    .check fun t => (t.lx.seq[5]?.getD initToken).type == .null,
    .check fun t => (t.lx.seq[6]?.getD initToken).type == .null,
    .check fun t => (t.lx.seq[7]?.getD initToken).type == .null,
    .check fun t => (t.lx.seq[0]?.getD initToken).str == (b! "ADDRESS"),
    .check fun t => (t.lx.seq[2]?.getD initToken).value == 4660,
    .lexLine 6 (b! "L20\t\tSTA\t($FF),Y") (some (1)),
    .check fun t => t.lx.curr == 7,
    .check fun t => t.lx.line == some (b! "L20\t\tSTA\t($FF),Y"),
    .check fun t => t.instr.mnemonic == some .STA,
    .check fun t => t.instr.addrBitfield == 478,
    .check fun t => (t.lx.seq[0]?.getD initToken).type == .label,
    .check fun t => (t.lx.seq[0]?.getD initToken).bufferLocation == (some 0),
    .check fun t => (t.lx.seq[1]?.getD initToken).type == .instruction,
    .check fun t => (t.lx.seq[1]?.getD initToken).bufferLocation == (some 5),
    .check fun t => (t.lx.seq[2]?.getD initToken).type == .openParenthesis,
    .check fun t => (t.lx.seq[2]?.getD initToken).bufferLocation == (some 9),
    .check fun t => (t.lx.seq[3]?.getD initToken).type == .literal,
    .check fun t => (t.lx.seq[3]?.getD initToken).bufferLocation == (some 10),
    .check fun t => (t.lx.seq[4]?.getD initToken).type == .closeParenthesis,
    .check fun t => (t.lx.seq[4]?.getD initToken).bufferLocation == (some 13),
    .check fun t => (t.lx.seq[5]?.getD initToken).type == .comma,
    .check fun t => (t.lx.seq[5]?.getD initToken).bufferLocation == (some 14),
    .check fun t => (t.lx.seq[6]?.getD initToken).type == .yRegister,
    .check fun t => (t.lx.seq[6]?.getD initToken).bufferLocation == (some 15),
    .check fun t => (t.lx.seq[7]?.getD initToken).type == .null,
    .check fun t => (t.lx.seq[0]?.getD initToken).str == (b! "L20"),
    .check fun t => (t.lx.seq[3]?.getD initToken).value == 255,
    .lexLine 7 [69, 79, 70, 84, 69, 83, 84, 32, 76, 83, 82, 32, 36, 48, 65, 255] (some (1)),
    .check fun t => t.lx.curr == 3,
    .check fun t => t.lx.line == some [69, 79, 70, 84, 69, 83, 84, 32, 76, 83, 82, 32, 36, 48, 65, 255],
    .check fun t => t.instr.mnemonic == some .LSR,
    .check fun t => t.instr.addrBitfield == 4486,
    .check fun t => (t.lx.seq[0]?.getD initToken).type == .label,
    .check fun t => (t.lx.seq[0]?.getD initToken).bufferLocation == (some 0),
    .check fun t => (t.lx.seq[1]?.getD initToken).type == .instruction,
    .check fun t => (t.lx.seq[1]?.getD initToken).bufferLocation == (some 8),
    .check fun t => (t.lx.seq[2]?.getD initToken).type == .literal,
    .check fun t => (t.lx.seq[2]?.getD initToken).bufferLocation == (some 12),
    .check fun t => (t.lx.seq[3]?.getD initToken).type == .null,
    .check fun t => (t.lx.seq[4]?.getD initToken).type == .null,
    .check fun t => (t.lx.seq[5]?.getD initToken).type == .null,
    .check fun t => (t.lx.seq[6]?.getD initToken).type == .null,
    .check fun t => (t.lx.seq[7]?.getD initToken).type == .null,
    .check fun t => (t.lx.seq[0]?.getD initToken).str == (b! "EOFTEST"),
    .check fun t => (t.lx.seq[2]?.getD initToken).value == 10,
    .lexLine 8 (b! "PATTERN\t.EQU\t$2000\n") (some (1)),
    .check fun t => t.lx.curr == 3,
    .check fun t => t.lx.line == some (b! "PATTERN\t.EQU\t$2000\n"),
    .check fun t => t.instr.mnemonic == none,
    .check fun t => (t.lx.seq[0]?.getD initToken).type == .label,
    .check fun t => (t.lx.seq[0]?.getD initToken).bufferLocation == (some 0),
    .check fun t => (t.lx.seq[1]?.getD initToken).type == .equDirective,
    .check fun t => (t.lx.seq[1]?.getD initToken).bufferLocation == (some 8),
    .check fun t => (t.lx.seq[2]?.getD initToken).type == .literal,
    .check fun t => (t.lx.seq[2]?.getD initToken).bufferLocation == (some 13),
    .check fun t => (t.lx.seq[3]?.getD initToken).type == .null,
    .check fun t => (t.lx.seq[4]?.getD initToken).type == .null,
    .check fun t => (t.lx.seq[5]?.getD initToken).type == .null,
    .check fun t => (t.lx.seq[6]?.getD initToken).type == .null,
    .check fun t => (t.lx.seq[7]?.getD initToken).type == .null,
    .check fun t => (t.lx.seq[0]?.getD initToken).str == (b! "PATTERN"),
    .check fun t => (t.lx.seq[2]?.getD initToken).value == 8192,
    .lexLine 9 (b! "\t\t* = $1000\t; comment\n") (some (1)),
    .check fun t => t.lx.curr == 3,
    .check fun t => t.lx.line == some (b! "\t\t* = $1000\t; comment\n"),
    .check fun t => t.instr.mnemonic == none,
    .check fun t => (t.lx.seq[0]?.getD initToken).type == .base,
    .check fun t => (t.lx.seq[0]?.getD initToken).bufferLocation == (some 2),
    .check fun t => (t.lx.seq[1]?.getD initToken).type == .equalSign,
    .check fun t => (t.lx.seq[1]?.getD initToken).bufferLocation == (some 4),
    .check fun t => (t.lx.seq[2]?.getD initToken).type == .literal,
    .check fun t => (t.lx.seq[2]?.getD initToken).bufferLocation == (some 6),
    .check fun t => (t.lx.seq[3]?.getD initToken).type == .null,
    .check fun t => (t.lx.seq[4]?.getD initToken).type == .null,
    .check fun t => (t.lx.seq[5]?.getD initToken).type == .null,
    .check fun t => (t.lx.seq[6]?.getD initToken).type == .null,
    .check fun t => (t.lx.seq[7]?.getD initToken).type == .null,
    .check fun t => (t.lx.seq[2]?.getD initToken).value == 4096,
    .lexLine 10 (b! "\t\tlsr a\t\t\t; this routine calculates it as:\n") (some (1)),
    .check fun t => t.lx.curr == 2,
    .check fun t => t.lx.line == some (b! "\t\tlsr a\t\t\t; this routine calculates it as:\n"),
    .check fun t => t.instr.mnemonic == some .LSR,
    .check fun t => (t.lx.seq[0]?.getD initToken).type == .instruction,
    .check fun t => (t.lx.seq[0]?.getD initToken).bufferLocation == (some 2),
    .check fun t => (t.lx.seq[1]?.getD initToken).type == .accumulator,
    .check fun t => (t.lx.seq[1]?.getD initToken).bufferLocation == (some 6),
    .check fun t => (t.lx.seq[2]?.getD initToken).type == .null,
    .check fun t => (t.lx.seq[3]?.getD initToken).type == .null,
    .check fun t => (t.lx.seq[4]?.getD initToken).type == .null,
    .check fun t => (t.lx.seq[5]?.getD initToken).type == .null,
    .check fun t => (t.lx.seq[6]?.getD initToken).type == .null,
    .check fun t => (t.lx.seq[7]?.getD initToken).type == .null,
    .lexLine 11 (b! "STREQULP:\tLDA ($FC),Y\n") (some (1)),
    .check fun t => t.lx.curr == 7,
    .check fun t => t.lx.line == some (b! "STREQULP:\tLDA ($FC),Y\n"),
    .check fun t => t.instr.mnemonic == some .LDA,
    .check fun t => (t.lx.seq[0]?.getD initToken).type == .label,
    .check fun t => (t.lx.seq[0]?.getD initToken).bufferLocation == (some 0),
    .check fun t => (t.lx.seq[1]?.getD initToken).type == .instruction,
    .check fun t => (t.lx.seq[1]?.getD initToken).bufferLocation == (some 10),
    .check fun t => (t.lx.seq[2]?.getD initToken).type == .openParenthesis,
    .check fun t => (t.lx.seq[2]?.getD initToken).bufferLocation == (some 14),
    .check fun t => (t.lx.seq[3]?.getD initToken).type == .literal,
    .check fun t => (t.lx.seq[3]?.getD initToken).bufferLocation == (some 15),
    .check fun t => (t.lx.seq[4]?.getD initToken).type == .closeParenthesis,
    .check fun t => (t.lx.seq[4]?.getD initToken).bufferLocation == (some 18),
    .check fun t => (t.lx.seq[5]?.getD initToken).type == .comma,
    .check fun t => (t.lx.seq[5]?.getD initToken).bufferLocation == (some 19),
    .check fun t => (t.lx.seq[6]?.getD initToken).type == .yRegister,
    .check fun t => (t.lx.seq[6]?.getD initToken).bufferLocation == (some 20),
    .check fun t => (t.lx.seq[7]?.getD initToken).type == .null,
    .lexLine 12 (b! "INX $#100\n") (some (-3)),
    .check fun t => t.lx.line == some (b! "INX $#100\n"),
    .check fun t => t.r.errorChar == (some 5),
    .check fun t => t.r.tk.bufferLocation == (some 4),
    .lexLine 13 (b! "\t\tJMP\t$LABELLOL\t") (some (-3)),
    .check fun t => t.lx.line == some (b! "\t\tJMP\t$LABELLOL\t"),
    .check fun t => t.r.errorChar == (some 7),
    .check fun t => t.r.tk.bufferLocation == (some 6),
    .lexLine 14 [9, 76, 68, 89, 9, 37, 49, 48, 48, 49, 50, 48, 49, 48, 255] (some (-3)),
    .check fun t => t.lx.line == some [9, 76, 68, 89, 9, 37, 49, 48, 48, 49, 50, 48, 49, 48, 255],
    .check fun t => t.r.errorChar == (some 10),
    .check fun t => t.r.tk.bufferLocation == (some 5),
    .lexLine 15 (b! "        EOR     @WTF    ; comment       \n\n\n\n\n") (some (-3)),
    .check fun t => t.lx.line == some (b! "        EOR     @WTF    ; comment       \n\n\n\n\n"),
    .check fun t => t.r.errorChar == (some 16),
    .check fun t => t.r.tk.bufferLocation == (some 16),
    .lexLine 16 (b! "\t\tSOMETHING\t.WTF\t$1234\n") (some (-19)),
    .check fun t => t.lx.line == some (b! "\t\tSOMETHING\t.WTF\t$1234\n"),
    .check fun t => t.r.errorChar == (some 12),
    .check fun t => t.r.tk.bufferLocation == (some 12),
    .lexLine 17 (b! "VALUE .EQUBADCHAR%%% $800\n") (some (-3)),
    .check fun t => t.lx.line == some (b! "VALUE .EQUBADCHAR%%% $800\n"),
    .check fun t => t.r.errorChar == (some 17),
    .check fun t => t.r.tk.bufferLocation == (some 6),
    .lexLine 18 (b! "\t\tLDA\tSETW:,X\n") (some (-3)),
    .check fun t => t.lx.line == some (b! "\t\tLDA\tSETW:,X\n"),
    .check fun t => t.r.errorChar == (some 10),
    .check fun t => t.r.tk.bufferLocation == (some 6),
    .lexLine 19 (b! "\t   \t **=:=LDA\n") (some (-3)),
    .check fun t => t.lx.line == some (b! "\t   \t **=:=LDA\n"),
    .check fun t => t.r.errorChar == (some 9),
    .check fun t => t.r.tk.bufferLocation == (some 8),
    .lexLine 20 (b! ";THIS SUBROUTINE ARRANGES THE 8-BIT ELEMENTS OF A LIST IN ASCENDING\n") (some (1)),
    .check fun t => t.lx.line == some (b! ";THIS SUBROUTINE ARRANGES THE 8-BIT ELEMENTS OF A LIST IN ASCENDING\n"),
    .check fun t => t.r.errorChar == none,
    .check fun t => t.r.tk.bufferLocation == none,
    .check fun t => (t.lx.seq[0]?.getD initToken).type == .null,
    .check fun t => (t.lx.seq[1]?.getD initToken).type == .null,
    .check fun t => (t.lx.seq[2]?.getD initToken).type == .null,
    .check fun t => (t.lx.seq[3]?.getD initToken).type == .null,
    .check fun t => (t.lx.seq[4]?.getD initToken).type == .null,
    .check fun t => (t.lx.seq[5]?.getD initToken).type == .null,
    .check fun t => (t.lx.seq[6]?.getD initToken).type == .null,
    .check fun t => (t.lx.seq[7]?.getD initToken).type == .null,
    .lexLine 21 (b! "     \n") (some (1)),
    .check fun t => (t.lx.seq[0]?.getD initToken).type == .null,
    .check fun t => (t.lx.seq[1]?.getD initToken).type == .null,
    .check fun t => (t.lx.seq[2]?.getD initToken).type == .null,
    .check fun t => (t.lx.seq[3]?.getD initToken).type == .null,
    .check fun t => (t.lx.seq[4]?.getD initToken).type == .null,
    .check fun t => (t.lx.seq[5]?.getD initToken).type == .null,
    .check fun t => (t.lx.seq[6]?.getD initToken).type == .null,
    .check fun t => (t.lx.seq[7]?.getD initToken).type == .null,
    .lexLine 22 (b! "\t\t\n") (some (1)),
    .check fun t => (t.lx.seq[0]?.getD initToken).type == .null,
    .check fun t => (t.lx.seq[1]?.getD initToken).type == .null,
    .check fun t => (t.lx.seq[2]?.getD initToken).type == .null,
    .check fun t => (t.lx.seq[3]?.getD initToken).type == .null,
    .check fun t => (t.lx.seq[4]?.getD initToken).type == .null,
    .check fun t => (t.lx.seq[5]?.getD initToken).type == .null,
    .check fun t => (t.lx.seq[6]?.getD initToken).type == .null,
    .check fun t => (t.lx.seq[7]?.getD initToken).type == .null,
    .lexLine 23 (b! "\n") (some (1)),
    .check fun t => (t.lx.seq[0]?.getD initToken).type == .null,
    .check fun t => (t.lx.seq[1]?.getD initToken).type == .null,
    .check fun t => (t.lx.seq[2]?.getD initToken).type == .null,
    .check fun t => (t.lx.seq[3]?.getD initToken).type == .null,
    .check fun t => (t.lx.seq[4]?.getD initToken).type == .null,
    .check fun t => (t.lx.seq[5]?.getD initToken).type == .null,
    .check fun t => (t.lx.seq[6]?.getD initToken).type == .null,
    .check fun t => (t.lx.seq[7]?.getD initToken).type == .null,
    .lexLine 24 (b! "\r\n") (some (1)),
    .check fun t => (t.lx.seq[0]?.getD initToken).type == .null,
    .check fun t => (t.lx.seq[1]?.getD initToken).type == .null,
    .check fun t => (t.lx.seq[2]?.getD initToken).type == .null,
    .check fun t => (t.lx.seq[3]?.getD initToken).type == .null,
    .check fun t => (t.lx.seq[4]?.getD initToken).type == .null,
    .check fun t => (t.lx.seq[5]?.getD initToken).type == .null,
    .check fun t => (t.lx.seq[6]?.getD initToken).type == .null,
    .check fun t => (t.lx.seq[7]?.getD initToken).type == .null,
    .lexLine 25 (b! "") (some (1)),
    .check fun t => (t.lx.seq[0]?.getD initToken).type == .null,
    .check fun t => (t.lx.seq[1]?.getD initToken).type == .null,
    .check fun t => (t.lx.seq[2]?.getD initToken).type == .null,
    .check fun t => (t.lx.seq[3]?.getD initToken).type == .null,
    .check fun t => (t.lx.seq[4]?.getD initToken).type == .null,
    .check fun t => (t.lx.seq[5]?.getD initToken).type == .null,
    .check fun t => (t.lx.seq[6]?.getD initToken).type == .null,
    .check fun t => (t.lx.seq[7]?.getD initToken).type == .null] = true := by decide +kernel

/-! tests/opcode/test_opcode.c -/

/- test_init_destroy_instr: 3 assertions -/
example : passes [
    .update fun t => { t with instr := initInstruction },
    .check fun t => t.instr.mnemonic == none,
    .check fun t => t.instr.addrBitfield == 0,
    .check fun t => t.instr.addrBitflag == 0] = true := by decide +kernel

/- test_str_to_mnemonic: 63 assertions -/
example : passes [
    .check fun _ => strToMnemonic (b! "ADC") == (some .ADC),
    .check fun _ => strToMnemonic (b! "AND") == (some .AND),
    .check fun _ => strToMnemonic (b! "ASL") == (some .ASL),
    .check fun _ => strToMnemonic (b! "BCC") == (some .BCC),
    .check fun _ => strToMnemonic (b! "BCS") == (some .BCS),
    .check fun _ => strToMnemonic (b! "BEQ") == (some .BEQ),
    .check fun _ => strToMnemonic (b! "BIT") == (some .BIT),
    .check fun _ => strToMnemonic (b! "BMI") == (some .BMI),
    .check fun _ => strToMnemonic (b! "BNE") == (some .BNE),
    .check fun _ => strToMnemonic (b! "BPL") == (some .BPL),
    .check fun _ => strToMnemonic (b! "BRK") == (some .BRK),
    .check fun _ => strToMnemonic (b! "BVC") == (some .BVC),
    .check fun _ => strToMnemonic (b! "BVS") == (some .BVS),
    .check fun _ => strToMnemonic (b! "CLC") == (some .CLC),
    .check fun _ => strToMnemonic (b! "CLD") == (some .CLD),
    .check fun _ => strToMnemonic (b! "CLI") == (some .CLI),
    .check fun _ => strToMnemonic (b! "CLV") == (some .CLV),
    .check fun _ => strToMnemonic (b! "CMP") == (some .CMP),
    .check fun _ => strToMnemonic (b! "CPX") == (some .CPX),
    .check fun _ => strToMnemonic (b! "CPY") == (some .CPY),
    .check fun _ => strToMnemonic (b! "DEC") == (some .DEC),
    .check fun _ => strToMnemonic (b! "DEX") == (some .DEX),
    .check fun _ => strToMnemonic (b! "DEY") == (some .DEY),
    .check fun _ => strToMnemonic (b! "EOR") == (some .EOR),
    .check fun _ => strToMnemonic (b! "INC") == (some .INC),
    .check fun _ => strToMnemonic (b! "INX") == (some .INX),
    .check fun _ => strToMnemonic (b! "INY") == (some .INY),
    .check fun _ => strToMnemonic (b! "JMP") == (some .JMP),
    .check fun _ => strToMnemonic (b! "JSR") == (some .JSR),
    .check fun _ => strToMnemonic (b! "LDA") == (some .LDA),
    .check fun _ => strToMnemonic (b! "LDX") == (some .LDX),
    .check fun _ => strToMnemonic (b! "LDY") == (some .LDY),
    .check fun _ => strToMnemonic (b! "LSR") == (some .LSR),
    .check fun _ => strToMnemonic (b! "NOP") == (some .NOP),
    .check fun _ => strToMnemonic (b! "ORA") == (some .ORA),
    .check fun _ => strToMnemonic (b! "PHA") == (some .PHA),
    .check fun _ => strToMnemonic (b! "PHP") == (some .PHP),
    .check fun _ => strToMnemonic (b! "PLA") == (some .PLA),
    .check fun _ => strToMnemonic (b! "PLP") == (some .PLP),
    .check fun _ => strToMnemonic (b! "ROL") == (some .ROL),
    .check fun _ => strToMnemonic (b! "ROR") == (some .ROR),
    .check fun _ => strToMnemonic (b! "RTI") == (some .RTI),
    .check fun _ => strToMnemonic (b! "RTS") == (some .RTS),
    .check fun _ => strToMnemonic (b! "SBC") == (some .SBC),
    .check fun _ => strToMnemonic (b! "SEC") == (some .SEC),
    .check fun _ => strToMnemonic (b! "SED") == (some .SED),
    .check fun _ => strToMnemonic (b! "SEI") == (some .SEI),
    .check fun _ => strToMnemonic (b! "STA") == (some .STA),
    .check fun _ => strToMnemonic (b! "STX") == (some .STX),
    .check fun _ => strToMnemonic (b! "STY") == (some .STY),
    .check fun _ => strToMnemonic (b! "TAX") == (some .TAX),
    .check fun _ => strToMnemonic (b! "TAY") == (some .TAY),
    .check fun _ => strToMnemonic (b! "TSX") == (some .TSX),
    .check fun _ => strToMnemonic (b! "TXA") == (some .TXA),
    .check fun _ => strToMnemonic (b! "TXS") == (some .TXS),
    .check fun _ => strToMnemonic (b! "TYA") == (some .TYA),
    .check fun _ => strToMnemonic (b! "TXSABCDEFG") == none,
    .check fun _ => strToMnemonic (b! "ABC") == none,
    .check fun _ => strToMnemonic (b! "13245") == none,
    .check fun _ => strToMnemonic (b! "KDSJFLSFJSKFJKSLJ") == none,
    .check fun _ => strToMnemonic (b! "JANUS") == none,
    .check fun _ => strToMnemonic (b! "STLOOP") == none,
    .check fun _ => strToMnemonic (b! "") == none] = true := by decide +kernel

/- test_get_addr_bitfield: 56 assertions -/
example : passes [
    .check fun _ => getAddrBitfield .ADC == 1502,
    .check fun _ => getAddrBitfield .AND == 1502,
    .check fun _ => getAddrBitfield .ASL == 4486,
    .check fun _ => getAddrBitfield .BCC == 512,
    .check fun _ => getAddrBitfield .BCS == 512,
    .check fun _ => getAddrBitfield .BEQ == 512,
    .check fun _ => getAddrBitfield .BIT == 260,
    .check fun _ => getAddrBitfield .BMI == 512,
    .check fun _ => getAddrBitfield .BNE == 512,
    .check fun _ => getAddrBitfield .BPL == 512,
    .check fun _ => getAddrBitfield .BRK == 2048,
    .check fun _ => getAddrBitfield .BVC == 512,
    .check fun _ => getAddrBitfield .BVS == 512,
    .check fun _ => getAddrBitfield .CLC == 2048,
    .check fun _ => getAddrBitfield .CLD == 2048,
    .check fun _ => getAddrBitfield .CLI == 2048,
    .check fun _ => getAddrBitfield .CLV == 2048,
    .check fun _ => getAddrBitfield .CMP == 1502,
    .check fun _ => getAddrBitfield .CPX == 1284,
    .check fun _ => getAddrBitfield .CPY == 1284,
    .check fun _ => getAddrBitfield .DEC == 390,
    .check fun _ => getAddrBitfield .DEX == 2048,
    .check fun _ => getAddrBitfield .DEY == 2048,
    .check fun _ => getAddrBitfield .EOR == 1502,
    .check fun _ => getAddrBitfield .INC == 390,
    .check fun _ => getAddrBitfield .INX == 2048,
    .check fun _ => getAddrBitfield .INY == 2048,
    .check fun _ => getAddrBitfield .JMP == 288,
    .check fun _ => getAddrBitfield .JSR == 256,
    .check fun _ => getAddrBitfield .LDA == 1502,
    .check fun _ => getAddrBitfield .LDX == 1349,
    .check fun _ => getAddrBitfield .LDY == 1414,
    .check fun _ => getAddrBitfield .LSR == 4486,
    .check fun _ => getAddrBitfield .NOP == 2048,
    .check fun _ => getAddrBitfield .ORA == 1502,
    .check fun _ => getAddrBitfield .PHA == 2048,
    .check fun _ => getAddrBitfield .PHP == 2048,
    .check fun _ => getAddrBitfield .PLA == 2048,
    .check fun _ => getAddrBitfield .PLP == 2048,
    .check fun _ => getAddrBitfield .ROL == 4486,
    .check fun _ => getAddrBitfield .ROR == 4486,
    .check fun _ => getAddrBitfield .RTI == 2048,
    .check fun _ => getAddrBitfield .RTS == 2048,
    .check fun _ => getAddrBitfield .SBC == 1502,
    .check fun _ => getAddrBitfield .SEC == 2048,
    .check fun _ => getAddrBitfield .SED == 2048,
    .check fun _ => getAddrBitfield .SEI == 2048,
    .check fun _ => getAddrBitfield .STA == 478,
    .check fun _ => getAddrBitfield .STX == 261,
    .check fun _ => getAddrBitfield .STY == 262,
    .check fun _ => getAddrBitfield .TAX == 2048,
    .check fun _ => getAddrBitfield .TAY == 2048,
    .check fun _ => getAddrBitfield .TSX == 2048,
    .check fun _ => getAddrBitfield .TXA == 2048,
    .check fun _ => getAddrBitfield .TXS == 2048,
    .check fun _ => getAddrBitfield .TYA == 2048] = true := by decide +kernel

/- test_get_opcode: 59 assertions -/
example : passes [
    .update fun t => { t with instr := initInstruction },
    .update fun t => { t with instr := { t.instr with mnemonic := some .ADC } },
    .update fun t => { t with instr := { t.instr with addrBitfield := 1502 } },
    .update fun t => { t with instr := { t.instr with addrBitflag := 256 } },
    .getOpcode (some (109)),
    .update fun t => { t with instr := { t.instr with mnemonic := some .AND } },
    .update fun t => { t with instr := { t.instr with addrBitfield := 1502 } },
    .update fun t => { t with instr := { t.instr with addrBitflag := 256 } },
    .getOpcode (some (45)),
    .update fun t => { t with instr := { t.instr with mnemonic := some .ASL } },
    .update fun t => { t with instr := { t.instr with addrBitfield := 4486 } },
    .update fun t => { t with instr := { t.instr with addrBitflag := 256 } },
    .getOpcode (some (14)),
    .update fun t => { t with instr := { t.instr with mnemonic := some .BCC } },
    .update fun t => { t with instr := { t.instr with addrBitfield := 512 } },
    .update fun t => { t with instr := { t.instr with addrBitflag := 256 } },
    .getOpcode (some (-13)),
    .update fun t => { t with instr := { t.instr with mnemonic := some .BCS } },
    .update fun t => { t with instr := { t.instr with addrBitfield := 512 } },
    .update fun t => { t with instr := { t.instr with addrBitflag := 256 } },
    .getOpcode (some (-13)),
    .update fun t => { t with instr := { t.instr with mnemonic := some .BEQ } },
    .update fun t => { t with instr := { t.instr with addrBitfield := 512 } },
    .update fun t => { t with instr := { t.instr with addrBitflag := 256 } },
    .getOpcode (some (-13)),
    .update fun t => { t with instr := { t.instr with mnemonic := some .BIT } },
    .update fun t => { t with instr := { t.instr with addrBitfield := 260 } },
    .update fun t => { t with instr := { t.instr with addrBitflag := 256 } },
    .getOpcode (some (44)),
    .update fun t => { t with instr := { t.instr with mnemonic := some .BMI } },
    .update fun t => { t with instr := { t.instr with addrBitfield := 512 } },
    .update fun t => { t with instr := { t.instr with addrBitflag := 256 } },
    .getOpcode (some (-13)),
    .update fun t => { t with instr := { t.instr with mnemonic := some .BNE } },
    .update fun t => { t with instr := { t.instr with addrBitfield := 512 } },
    .update fun t => { t with instr := { t.instr with addrBitflag := 256 } },
    .getOpcode (some (-13)),
    .update fun t => { t with instr := { t.instr with mnemonic := some .BPL } },
    .update fun t => { t with instr := { t.instr with addrBitfield := 512 } },
    .update fun t => { t with instr := { t.instr with addrBitflag := 256 } },
    .getOpcode (some (-13)),
    .update fun t => { t with instr := { t.instr with mnemonic := some .BRK } },
    .update fun t => { t with instr := { t.instr with addrBitfield := 2048 } },
    .update fun t => { t with instr := { t.instr with addrBitflag := 256 } },
    .getOpcode (some (-13)),
    .update fun t => { t with instr := { t.instr with mnemonic := some .BVC } },
    .update fun t => { t with instr := { t.instr with addrBitfield := 512 } },
    .update fun t => { t with instr := { t.instr with addrBitflag := 256 } },
    .getOpcode (some (-13)),
    .update fun t => { t with instr := { t.instr with mnemonic := some .BVS } },
    .update fun t => { t with instr := { t.instr with addrBitfield := 512 } },
    .update fun t => { t with instr := { t.instr with addrBitflag := 256 } },
    .getOpcode (some (-13)),
    .update fun t => { t with instr := { t.instr with mnemonic := some .CLC } },
    .update fun t => { t with instr := { t.instr with addrBitfield := 2048 } },
    .update fun t => { t with instr := { t.instr with addrBitflag := 256 } },
    .getOpcode (some (-13)),
    .update fun t => { t with instr := { t.instr with mnemonic := some .CLD } },
    .update fun t => { t with instr := { t.instr with addrBitfield := 2048 } },
    .update fun t => { t with instr := { t.instr with addrBitflag := 256 } },
    .getOpcode (some (-13)),
    .update fun t => { t with instr := { t.instr with mnemonic := some .CLI } },
    .update fun t => { t with instr := { t.instr with addrBitfield := 2048 } },
    .update fun t => { t with instr := { t.instr with addrBitflag := 256 } },
    .getOpcode (some (-13)),
    .update fun t => { t with instr := { t.instr with mnemonic := some .CLV } },
    .update fun t => { t with instr := { t.instr with addrBitfield := 2048 } },
    .update fun t => { t with instr := { t.instr with addrBitflag := 256 } },
    .getOpcode (some (-13)),
    .update fun t => { t with instr := { t.instr with mnemonic := some .CMP } },
    .update fun t => { t with instr := { t.instr with addrBitfield := 1502 } },
    .update fun t => { t with instr := { t.instr with addrBitflag := 256 } },
    .getOpcode (some (205)),
    .update fun t => { t with instr := { t.instr with mnemonic := some .CPX } },
    .update fun t => { t with instr := { t.instr with addrBitfield := 1284 } },
    .update fun t => { t with instr := { t.instr with addrBitflag := 256 } },
    .getOpcode (some (236)),
    .update fun t => { t with instr := { t.instr with mnemonic := some .CPY } },
    .update fun t => { t with instr := { t.instr with addrBitfield := 1284 } },
    .update fun t => { t with instr := { t.instr with addrBitflag := 256 } },
    .getOpcode (some (204)),
    .update fun t => { t with instr := { t.instr with mnemonic := some .DEC } },
    .update fun t => { t with instr := { t.instr with addrBitfield := 390 } },
    .update fun t => { t with instr := { t.instr with addrBitflag := 256 } },
    .getOpcode (some (206)),
    .update fun t => { t with instr := { t.instr with mnemonic := some .DEX } },
    .update fun t => { t with instr := { t.instr with addrBitfield := 2048 } },
    .update fun t => { t with instr := { t.instr with addrBitflag := 256 } },
    .getOpcode (some (-13)),
    .update fun t => { t with instr := { t.instr with mnemonic := some .DEY } },
    .update fun t => { t with instr := { t.instr with addrBitfield := 2048 } },
    .update fun t => { t with instr := { t.instr with addrBitflag := 256 } },
    .getOpcode (some (-13)),
    .update fun t => { t with instr := { t.instr with mnemonic := some .EOR } },
    .update fun t => { t with instr := { t.instr with addrBitfield := 1502 } },
    .update fun t => { t with instr := { t.instr with addrBitflag := 256 } },
    .getOpcode (some (77)),
    .update fun t => { t with instr := { t.instr with mnemonic := some .INC } },
    .update fun t => { t with instr := { t.instr with addrBitfield := 390 } },
    .update fun t => { t with instr := { t.instr with addrBitflag := 256 } },
    .getOpcode (some (238)),
    .update fun t => { t with instr := { t.instr with mnemonic := some .INX } },
    .update fun t => { t with instr := { t.instr with addrBitfield := 2048 } },
    .update fun t => { t with instr := { t.instr with addrBitflag := 256 } },
    .getOpcode (some (-13)),
    .update fun t => { t with instr := { t.instr with mnemonic := some .INY } },
    .update fun t => { t with instr := { t.instr with addrBitfield := 2048 } },
    .update fun t => { t with instr := { t.instr with addrBitflag := 256 } },
    .getOpcode (some (-13)),
    .update fun t => { t with instr := { t.instr with mnemonic := some .JMP } },
    .update fun t => { t with instr := { t.instr with addrBitfield := 288 } },
    .update fun t => { t with instr := { t.instr with addrBitflag := 256 } },
    .getOpcode (some (76)),
    .update fun t => { t with instr := { t.instr with mnemonic := some .JSR } },
    .update fun t => { t with instr := { t.instr with addrBitfield := 256 } },
    .update fun t => { t with instr := { t.instr with addrBitflag := 256 } },
    .getOpcode (some (32)),
    .update fun t => { t with instr := { t.instr with mnemonic := some .LDA } },
    .update fun t => { t with instr := { t.instr with addrBitfield := 1502 } },
    .update fun t => { t with instr := { t.instr with addrBitflag := 256 } },
    .getOpcode (some (173)),
    .update fun t => { t with instr := { t.instr with mnemonic := some .LDX } },
    .update fun t => { t with instr := { t.instr with addrBitfield := 1349 } },
    .update fun t => { t with instr := { t.instr with addrBitflag := 256 } },
    .getOpcode (some (174)),
    .update fun t => { t with instr := { t.instr with mnemonic := some .LDY } },
    .update fun t => { t with instr := { t.instr with addrBitfield := 1414 } },
    .update fun t => { t with instr := { t.instr with addrBitflag := 256 } },
    .getOpcode (some (172)),
    .update fun t => { t with instr := { t.instr with mnemonic := some .LSR } },
    .update fun t => { t with instr := { t.instr with addrBitfield := 4486 } },
    .update fun t => { t with instr := { t.instr with addrBitflag := 256 } },
    .getOpcode (some (78)),
    .update fun t => { t with instr := { t.instr with mnemonic := some .NOP } },
    .update fun t => { t with instr := { t.instr with addrBitfield := 2048 } },
    .update fun t => { t with instr := { t.instr with addrBitflag := 256 } },
    .getOpcode (some (-13)),
    .update fun t => { t with instr := { t.instr with mnemonic := some .ORA } },
    .update fun t => { t with instr := { t.instr with addrBitfield := 1502 } },
    .update fun t => { t with instr := { t.instr with addrBitflag := 256 } },
    .getOpcode (some (13)),
    .update fun t => { t with instr := { t.instr with mnemonic := some .PHA } },
    .update fun t => { t with instr := { t.instr with addrBitfield := 2048 } },
    .update fun t => { t with instr := { t.instr with addrBitflag := 256 } },
    .getOpcode (some (-13)),
    .update fun t => { t with instr := { t.instr with mnemonic := some .PHP } },
    .update fun t => { t with instr := { t.instr with addrBitfield := 2048 } },
    .update fun t => { t with instr := { t.instr with addrBitflag := 256 } },
    .getOpcode (some (-13)),
    .update fun t => { t with instr := { t.instr with mnemonic := some .PLA } },
    .update fun t => { t with instr := { t.instr with addrBitfield := 2048 } },
    .update fun t => { t with instr := { t.instr with addrBitflag := 256 } },
    .getOpcode (some (-13)),
    .update fun t => { t with instr := { t.instr with mnemonic := some .PLP } },
    .update fun t => { t with instr := { t.instr with addrBitfield := 2048 } },
    .update fun t => { t with instr := { t.instr with addrBitflag := 256 } },
    .getOpcode (some (-13)),
    .update fun t => { t with instr := { t.instr with mnemonic := some .ROL } },
    .update fun t => { t with instr := { t.instr with addrBitfield := 4486 } },
    .update fun t => { t with instr := { t.instr with addrBitflag := 256 } },
    .getOpcode (some (46)),
    .update fun t => { t with instr := { t.instr with mnemonic := some .ROR } },
    .update fun t => { t with instr := { t.instr with addrBitfield := 4486 } },
    .update fun t => { t with instr := { t.instr with addrBitflag := 256 } },
    .getOpcode (some (110)),
    .update fun t => { t with instr := { t.instr with mnemonic := some .RTI } },
    .update fun t => { t with instr := { t.instr with addrBitfield := 2048 } },
    .update fun t => { t with instr := { t.instr with addrBitflag := 256 } },
    .getOpcode (some (-13)),
    .update fun t => { t with instr := { t.instr with mnemonic := some .RTS } },
    .update fun t => { t with instr := { t.instr with addrBitfield := 2048 } },
    .update fun t => { t with instr := { t.instr with addrBitflag := 256 } },
    .getOpcode (some (-13)),
    .update fun t => { t with instr := { t.instr with mnemonic := some .SBC } },
    .update fun t => { t with instr := { t.instr with addrBitfield := 1502 } },
    .update fun t => { t with instr := { t.instr with addrBitflag := 256 } },
    .getOpcode (some (237)),
    .update fun t => { t with instr := { t.instr with mnemonic := some .SEC } },
    .update fun t => { t with instr := { t.instr with addrBitfield := 2048 } },
    .update fun t => { t with instr := { t.instr with addrBitflag := 256 } },
    .getOpcode (some (-13)),
    .update fun t => { t with instr := { t.instr with mnemonic := some .SED } },
    .update fun t => { t with instr := { t.instr with addrBitfield := 2048 } },
    .update fun t => { t with instr := { t.instr with addrBitflag := 256 } },
    .getOpcode (some (-13)),
    .update fun t => { t with instr := { t.instr with mnemonic := some .SEI } },
    .update fun t => { t with instr := { t.instr with addrBitfield := 2048 } },
    .update fun t => { t with instr := { t.instr with addrBitflag := 256 } },
    .getOpcode (some (-13)),
    .update fun t => { t with instr := { t.instr with mnemonic := some .STA } },
    .update fun t => { t with instr := { t.instr with addrBitfield := 478 } },
    .update fun t => { t with instr := { t.instr with addrBitflag := 256 } },
    .getOpcode (some (141)),
    .update fun t => { t with instr := { t.instr with mnemonic := some .STX } },
    .update fun t => { t with instr := { t.instr with addrBitfield := 261 } },
    .update fun t => { t with instr := { t.instr with addrBitflag := 256 } },
    .getOpcode (some (142)),
    .update fun t => { t with instr := { t.instr with mnemonic := some .STY } },
    .update fun t => { t with instr := { t.instr with addrBitfield := 262 } },
    .update fun t => { t with instr := { t.instr with addrBitflag := 256 } },
    .getOpcode (some (140)),
    .update fun t => { t with instr := { t.instr with mnemonic := some .TAX } },
    .update fun t => { t with instr := { t.instr with addrBitfield := 2048 } },
    .update fun t => { t with instr := { t.instr with addrBitflag := 256 } },
    .getOpcode (some (-13)),
    .update fun t => { t with instr := { t.instr with mnemonic := some .TAY } },
    .update fun t => { t with instr := { t.instr with addrBitfield := 2048 } },
    .update fun t => { t with instr := { t.instr with addrBitflag := 256 } },
    .getOpcode (some (-13)),
    .update fun t => { t with instr := { t.instr with mnemonic := some .TSX } },
    .update fun t => { t with instr := { t.instr with addrBitfield := 2048 } },
    .update fun t => { t with instr := { t.instr with addrBitflag := 256 } },
    .getOpcode (some (-13)),
    .update fun t => { t with instr := { t.instr with mnemonic := some .TXA } },
    .update fun t => { t with instr := { t.instr with addrBitfield := 2048 } },
    .update fun t => { t with instr := { t.instr with addrBitflag := 256 } },
    .getOpcode (some (-13)),
    .update fun t => { t with instr := { t.instr with mnemonic := some .TXS } },
    .update fun t => { t with instr := { t.instr with addrBitfield := 2048 } },
    .update fun t => { t with instr := { t.instr with addrBitflag := 256 } },
    .getOpcode (some (-13)),
    .update fun t => { t with instr := { t.instr with mnemonic := some .TYA } },
    .update fun t => { t with instr := { t.instr with addrBitfield := 2048 } },
    .update fun t => { t with instr := { t.instr with addrBitflag := 256 } },
    .getOpcode (some (-13)),
    .update fun t => { t with instr := { t.instr with mnemonic := none } },
    .getOpcode (some (-14)),
    .update fun t => { t with instr := { t.instr with mnemonic := none } },
    .getOpcode (some (-14)),
    .update fun t => { t with instr := { t.instr with mnemonic := none } },
    .getOpcode (some (-14))] = true := by decide +kernel

/-! tests/assemble/test_assemble.c -/

/- test_assembly: 14 assertions -/
example : passes [
    .update fun t => { t with lx := initLexer (b! "test_assembly.asm") },
    .update fun t => { t with r := ⟨initToken, none⟩ },
    .update fun t => { t with instr := initInstruction },
    .update fun t => { t with tab := initSymbolTable },
    .lexLine 1 (b! "\t\tSBC\t($AA),Y\n") (some (1)),
    .parseLine (some (1)),
    .check fun t => t.instr.mnemonic == some .SBC,
    .check fun t => t.instr.addrBitfield == 1502,
    .findOperand,
    .parseOperand none,
    .check fun t => t.status == 1,
    .parseAddrMode none none,
    .check fun t => t.mask == 8,
    .update fun t => { t with instr := { t.instr with addrBitflag := BitVec.ofInt 32 t.mask &&& t.instr.addrBitfield } },
    .check fun t => t.instr.addrBitflag == 8,
    .check fun t => assembleMnemonic .SBC t.instr.addrBitflag == 241,
    .check fun t => assembleMnemonic .JSR 32 == -13,
    .check fun t => assembleMnemonic .TXA 2 == -13,
    .check fun t => assembleMnemonic .BEQ 1024 == -13,
    .check fun t => assembleMnemonic .EOR 4 == 69,
    .check fun t => assembleMnemonic .LDY 4 == 164,
    .check fun t => assembleMnemonic .STA 128 == 157] = true := by decide +kernel

/-! tests/parser/test_parser1.c -/

/- test_parse_instr_tree: 56 assertions -/
example : passes [
    .update fun t => { t with lx := initLexer (b! "test_parse_instr_tree.asm") },
    .update fun t => { t with r := ⟨initToken, none⟩ },
    .update fun t => { t with instr := initInstruction },
    .lexLine 1 (b! "\t\tINX\n") (some (1)),
    .instrTree 0 (some (1)),
    .lexLine 2 (b! "\t\tROL\tA\n") (some (1)),
    .instrTree 0 (some (1)),
    .lexLine 3 (b! "\t\tORA\t$AA\n") (some (1)),
    .instrTree 0 (some (1)),
    .lexLine 4 (b! "\t\tASL\tCONSTANT8\n") (some (1)),
    .instrTree 0 (some (1)),
    .lexLine 5 (b! "\t\tLDA\t$1234\n") (some (1)),
    .instrTree 0 (some (1)),
    .lexLine 6 (b! "\t\tCPY\tADDRESS\n") (some (1)),
    .instrTree 0 (some (1)),
    .lexLine 7 (b! "\t\tSBC\t$BB,X\n") (some (1)),
    .instrTree 0 (some (1)),
    .lexLine 8 (b! "\t\tROR\tCONSTANT8,X\n") (some (1)),
    .instrTree 0 (some (1)),
    .lexLine 9 (b! "\t\tINC\t$1000,X\n") (some (1)),
    .instrTree 0 (some (1)),
    .lexLine 10 (b! "\t\tCMP\tCONSTANT16,X\n") (some (1)),
    .instrTree 0 (some (1)),
    .lexLine 11 (b! "\t\tSTX\t$CC,Y\n") (some (1)),
    .instrTree 0 (some (1)),
    .lexLine 12 (b! "\t\tLDX\tCONSTANT8,Y\n") (some (1)),
    .instrTree 0 (some (1)),
    .lexLine 13 (b! "\t\tSTA\t$DEAD,Y\n") (some (1)),
    .instrTree 0 (some (1)),
    .lexLine 14 (b! "\t\tAND\tADDRESS,Y\n") (some (1)),
    .instrTree 0 (some (1)),
    .lexLine 15 (b! "\t\tJMP\t($FACE)\n") (some (1)),
    .instrTree 0 (some (1)),
    .lexLine 16 (b! "\t\tJMP\t(ADDRESS)\n") (some (1)),
    .instrTree 0 (some (1)),
    .lexLine 17 (b! "\t\tEOR\t#$DD\n") (some (1)),
    .instrTree 0 (some (1)),
    .lexLine 18 (b! "\t\tLDY\t#CONSTANT8\n") (some (1)),
    .instrTree 0 (some (1)),
    .lexLine 19 (b! "\t\tADC\t($EE,X)\n") (some (1)),
    .instrTree 0 (some (1)),
    .lexLine 20 (b! "\t\tLDA\t(CONSTANT8,X)\n") (some (1)),
    .instrTree 0 (some (1)),
    .lexLine 21 (b! "\t\tSTA\t($FF),Y\n") (some (1)),
    .instrTree 0 (some (1)),
    .lexLine 22 (b! "\t\tSBC\t(CONSTANT8),Y\n") (some (1)),
    .instrTree 0 (some (1)),
    .lexLine 23 (b! "\t\tBMI\tLABEL1\n") (some (1)),
    .instrTree 0 (some (1)),
    .lexLine 24 (b! "\t\tBVS\tL1\n") (some (1)),
    .instrTree 0 (some (1)),
    .lexLine 25 (b! "\t\tJMP\tLABEL1\n") (some (1)),
    .instrTree 0 (some (1)),
    .lexLine 26 (b! "\t\tJSR\tL3\n") (some (1)),
    .instrTree 0 (some (1)),
    .lexLine 27 (b! "LDA LDX LDY LOLOL\n") (some (1)),
    .instrTree 0 (some (-10)),
    .lexLine 28 (b! "LDX (),\tX LABEL\n") (some (1)),
    .instrTree 0 (some (-10))] = true := by decide +kernel

/- test_parse_label_tree: 66 assertions -/
example : passes [
    .update fun t => { t with lx := initLexer (b! "test_parse_label_tree.asm") },
    .update fun t => { t with r := ⟨initToken, none⟩ },
    .update fun t => { t with instr := initInstruction },
    .lexLine 1 (b! "ADDRESS\t\t=\t$ABCD\n") (some (1)),
    .labelTree 0 (some (1)),
    .lexLine 2 (b! "CONSTANT8\t=\t$7F\n") (some (1)),
    .labelTree 0 (some (1)),
    .lexLine 3 (b! "CONSTANT16\t=\t$1111\n") (some (1)),
    .labelTree 0 (some (1)),
    .lexLine 4 (b! "DIRECTIVE1\t.EQU\t$4000\n") (some (1)),
    .labelTree 0 (some (1)),
    .lexLine 5 (b! "LABEL1:\n") (some (1)),
    .labelTree 0 (some (1)),
    .lexLine 6 (b! "LABEL2\t\tBCC\tLABEL1\n") (some (1)),
    .labelTree 0 (some (1)),
    .lexLine 7 (b! "FORREF1\t\tBVC\tL19\n") (some (1)),
    .labelTree 0 (some (1)),
    .lexLine 8 (b! "LABEL3\t\tJSR\tLABEL2\n") (some (1)),
    .labelTree 0 (some (1)),
    .lexLine 9 (b! "FORREF2\t\tJMP\tL21\n") (some (1)),
    .labelTree 0 (some (1)),
    .lexLine 10 (b! "L1\t\tDEY\n") (some (1)),
    .labelTree 0 (some (1)),
    .lexLine 11 (b! "L2\t\tASL\tA\n") (some (1)),
    .labelTree 0 (some (1)),
    .lexLine 12 (b! "L3:\t\tSTY\t$AA\n") (some (1)),
    .labelTree 0 (some (1)),
    .lexLine 13 (b! "L4\t\tROL\tCONSTANT8\n") (some (1)),
    .labelTree 0 (some (1)),
    .lexLine 14 (b! "L5:\t\tLSR\t$1234\n") (some (1)),
    .labelTree 0 (some (1)),
    .lexLine 15 (b! "L6\t\tROR\tADDRESS\n") (some (1)),
    .labelTree 0 (some (1)),
    .lexLine 16 (b! "L7:\t\tLDY\t$BB,X\n") (some (1)),
    .labelTree 0 (some (1)),
    .lexLine 17 (b! "L8\t\tDEC\tCONSTANT8,X\n") (some (1)),
    .labelTree 0 (some (1)),
    .lexLine 18 (b! "L9:\t\tINC\t$1000,X\n") (some (1)),
    .labelTree 0 (some (1)),
    .lexLine 19 (b! "L10\t\tCMP\tCONSTANT16,X\n") (some (1)),
    .labelTree 0 (some (1)),
    .lexLine 20 (b! "L11:\t\tSTX\t$CC,Y\n") (some (1)),
    .labelTree 0 (some (1)),
    .lexLine 21 (b! "L12\t\tLDX\tCONSTANT8,Y\n") (some (1)),
    .labelTree 0 (some (1)),
    .lexLine 22 (b! "L13:\t\tSTA\t$B00B,Y\n") (some (1)),
    .labelTree 0 (some (1)),
    .lexLine 23 (b! "L14\t\tAND\tADDRESS,Y\n") (some (1)),
    .labelTree 0 (some (1)),
    .lexLine 24 (b! "L15:\t\tJMP\t($CAFE)\n") (some (1)),
    .labelTree 0 (some (1)),
    .lexLine 25 (b! "L16\t\tJMP\t(CONSTANT16)\n") (some (1)),
    .labelTree 0 (some (1)),
    .lexLine 26 (b! "L17:\t\tCPX\t#$DD\n") (some (1)),
    .labelTree 0 (some (1)),
    .lexLine 27 (b! "L18\t\tLDY\t#CONSTANT8\n") (some (1)),
    .labelTree 0 (some (1)),
    .lexLine 28 (b! "L19:\t\tADC\t($EE,X)\n") (some (1)),
    .labelTree 0 (some (1)),
    .lexLine 29 (b! "L20\t\tLDA\t(CONSTANT8,X)\n") (some (1)),
    .labelTree 0 (some (1)),
    .lexLine 30 (b! "L21:\t\tSTA\t($FF),Y\n") (some (1)),
    .labelTree 0 (some (1)),
    .lexLine 31 (b! "L22\t\tSBC\t(CONSTANT8),Y\n") (some (1)),
    .labelTree 0 (some (1)),
    .lexLine 32 (b! "LABEL1 LABEL2 STLOOP JANUS YOYOYOEOYEOYOEYO\n") (some (1)),
    .labelTree 0 (some (-10)),
    .lexLine 33 (b! "sexy === $ffff\n") (some (1)),
    .labelTree 0 (some (-10))] = true := by decide +kernel

/- test_parse_directive_tree: 9 assertions -/
example : passes [
    .update fun t => { t with lx := initLexer (b! "test_parse_directive_tree.asm") },
    .update fun t => { t with r := ⟨initToken, none⟩ },
    .update fun t => { t with instr := initInstruction },
    .lexLine 1 (b! ".DEFINE\tDIRECTIVE2\t$8000\n") (some (1)),
    .directiveTree 0 (some (1)),
    .lexLine 2 (b! "\t\t.ORG\t$1000\n") (some (1)),
    .directiveTree 0 (some (1)),
    .check fun t => (t.lx.seq[0]?.getD initToken).value == 4096,
    .lexLine 3 (b! "\t\t.END\n") (some (1)),
    .directiveTree 0 (some (1)),
    .lexLine 4 (b! ".DEFINE NUMBER CONSTANT8\n") (some (1)),
    .directiveTree 0 (some (-10))] = true := by decide +kernel

/- test_parse_base_tree: 5 assertions -/
example : passes [
    .update fun t => { t with lx := initLexer (b! "test_parse_base_tree.asm") },
    .update fun t => { t with r := ⟨initToken, none⟩ },
    .update fun t => { t with instr := initInstruction },
    .lexLine 1 (b! "\t\t*=$800\n") (some (1)),
    .baseTree 0 (some (1)),
    .check fun t => (t.lx.seq[0]?.getD initToken).value == 2048,
    .lexLine 2 (b! "\t\t*=bad") (some (1)),
    .baseTree 0 (some (-20))] = true := by decide +kernel

/- test_parse_line: 151 assertions -/
example : passes [
    .update fun t => { t with lx := initLexer (b! "test_parse_line.asm") },
    .update fun t => { t with r := ⟨initToken, none⟩ },
    .update fun t => { t with instr := initInstruction },
    .lexLine 1 (b! "ADDRESS\t\t=\t$ABCD\n") (some (1)),
    .parseLine (some (1)),
    .lexLine 2 (b! "CONSTANT8\t=\t$7F\n") (some (1)),
    .parseLine (some (1)),
    .lexLine 3 (b! "CONSTANT16\t=\t$1111\n") (some (1)),
    .parseLine (some (1)),
    .lexLine 4 (b! "DIRECTIVE1\t.EQU\t$4000\n") (some (1)),
    .parseLine (some (1)),
    .lexLine 5 (b! ".DEFINE\tDIRECTIVE2\t$8000\n") (some (1)),
    .parseLine (some (1)),
    .lexLine 6 (b! "\t\t.ORG\t$1000\n") (some (1)),
    .parseLine (some (1)),
    .check fun t => (t.lx.seq[0]?.getD initToken).value == 4096,
    .lexLine 7 (b! "\t\t*=$800\n") (some (1)),
    .parseLine (some (1)),
    .lexLine 8 (b! "LABEL1:\n") (some (1)),
    .parseLine (some (1)),
    .lexLine 9 (b! "\t\tINX\n") (some (1)),
    .parseLine (some (1)),
    .lexLine 10 (b! "\t\tROL\tA\n") (some (1)),
    .parseLine (some (1)),
    .lexLine 11 (b! "\t\tORA\t$AA\n") (some (1)),
    .parseLine (some (1)),
    .lexLine 12 (b! "\t\tASL\tCONSTANT8\n") (some (1)),
    .parseLine (some (1)),
    .lexLine 13 (b! "\t\tLDA\t$1234\n") (some (1)),
    .parseLine (some (1)),
    .lexLine 14 (b! "\t\tCPY\tADDRESS\n") (some (1)),
    .parseLine (some (1)),
    .lexLine 15 (b! "\t\tSBC\t$BB,X\n") (some (1)),
    .parseLine (some (1)),
    .lexLine 16 (b! "\t\tROR\tCONSTANT8,X\n") (some (1)),
    .parseLine (some (1)),
    .lexLine 17 (b! "\t\tINC\t$1000,X\n") (some (1)),
    .parseLine (some (1)),
    .lexLine 18 (b! "\t\tCMP\tCONSTANT16,X\n") (some (1)),
    .parseLine (some (1)),
    .lexLine 19 (b! "\t\tSTX\t$CC,Y\n") (some (1)),
    .parseLine (some (1)),
    .lexLine 20 (b! "\t\tLDX\tCONSTANT8,Y\n") (some (1)),
    .parseLine (some (1)),
    .lexLine 21 (b! "\t\tSTA\t$DEAD,Y\n") (some (1)),
    .parseLine (some (1)),
    .lexLine 22 (b! "\t\tAND\tADDRESS,Y\n") (some (1)),
    .parseLine (some (1)),
    .lexLine 23 (b! "\t\tJMP\t($FACE)\n") (some (1)),
    .parseLine (some (1)),
    .lexLine 24 (b! "\t\tJMP\t(ADDRESS)\n") (some (1)),
    .parseLine (some (1)),
    .lexLine 25 (b! "\t\tEOR\t#$DD\n") (some (1)),
    .parseLine (some (1)),
    .lexLine 26 (b! "\t\tLDY\t#CONSTANT8\n") (some (1)),
    .parseLine (some (1)),
    .lexLine 27 (b! "\t\tADC\t($EE,X)\n") (some (1)),
    .parseLine (some (1)),
    .lexLine 28 (b! "\t\tLDA\t(CONSTANT8,X)\n") (some (1)),
    .parseLine (some (1)),
    .lexLine 29 (b! "\t\tSTA\t($FF),Y\n") (some (1)),
    .parseLine (some (1)),
    .lexLine 30 (b! "\t\tSBC\t(CONSTANT8),Y\n") (some (1)),
    .parseLine (some (1)),
    .lexLine 31 (b! "\t\tBMI\tLABEL1\n") (some (1)),
    .parseLine (some (1)),
    .lexLine 32 (b! "\t\tBVS\tL1\n") (some (1)),
    .parseLine (some (1)),
    .lexLine 33 (b! "\t\tJMP\tLABEL1\n") (some (1)),
    .parseLine (some (1)),
    .lexLine 34 (b! "\t\tJSR\tL3\n") (some (1)),
    .parseLine (some (1)),
    .lexLine 35 (b! "LABEL2\t\tBCC\tLABEL1\n") (some (1)),
    .parseLine (some (1)),
    .lexLine 36 (b! "FORREF1\t\tBVC\tL19\n") (some (1)),
    .parseLine (some (1)),
    .lexLine 37 (b! "LABEL3\t\tJSR\tLABEL2\n") (some (1)),
    .parseLine (some (1)),
    .lexLine 38 (b! "FORREF2\t\tJMP\tL21\n") (some (1)),
    .parseLine (some (1)),
    .lexLine 39 (b! "L1\t\tDEY\n") (some (1)),
    .parseLine (some (1)),
    .lexLine 40 (b! "L2\t\tASL\tA\n") (some (1)),
    .parseLine (some (1)),
    .lexLine 41 (b! "L3:\t\tSTY\t$AA\n") (some (1)),
    .parseLine (some (1)),
    .lexLine 42 (b! "L4\t\tROL\tCONSTANT8\n") (some (1)),
    .parseLine (some (1)),
    .lexLine 43 (b! "L5:\t\tLSR\t$1234\n") (some (1)),
    .parseLine (some (1)),
    .lexLine 44 (b! "L6\t\tROR\tADDRESS\n") (some (1)),
    .parseLine (some (1)),
    .lexLine 45 (b! "L7:\t\tLDY\t$BB,X\n") (some (1)),
    .parseLine (some (1)),
    .lexLine 46 (b! "L8\t\tDEC\tCONSTANT8,X\n") (some (1)),
    .parseLine (some (1)),
    .lexLine 47 (b! "L9:\t\tINC\t$1000,X\n") (some (1)),
    .parseLine (some (1)),
    .lexLine 48 (b! "L10\t\tCMP\tCONSTANT16,X\n") (some (1)),
    .parseLine (some (1)),
    .lexLine 49 (b! "L11:\t\tSTX\t$CC,Y\n") (some (1)),
    .parseLine (some (1)),
    .lexLine 50 (b! "L12\t\tLDX\tCONSTANT8,Y\n") (some (1)),
    .parseLine (some (1)),
    .lexLine 51 (b! "L13:\t\tSTA\t$B00B,Y\n") (some (1)),
    .parseLine (some (1)),
    .lexLine 52 (b! "L14\t\tAND\tADDRESS,Y\n") (some (1)),
    .parseLine (some (1)),
    .lexLine 53 (b! "L15:\t\tJMP\t($CAFE)\n") (some (1)),
    .parseLine (some (1)),
    .lexLine 54 (b! "L16\t\tJMP\t(CONSTANT16)\n") (some (1)),
    .parseLine (some (1)),
    .lexLine 55 (b! "L17:\t\tCPX\t#$DD\n") (some (1)),
    .parseLine (some (1)),
    .lexLine 56 (b! "L18\t\tLDY\t#CONSTANT8\n") (some (1)),
    .parseLine (some (1)),
    .lexLine 57 (b! "L19:\t\tADC\t($EE,X)\n") (some (1)),
    .parseLine (some (1)),
    .lexLine 58 (b! "L20\t\tLDA\t(CONSTANT8,X)\n") (some (1)),
    .parseLine (some (1)),
    .lexLine 59 (b! "L21:\t\tSTA\t($FF),Y\n") (some (1)),
    .parseLine (some (1)),
    .lexLine 60 (b! "L22\t\tSBC\t(CONSTANT8),Y\n") (some (1)),
    .parseLine (some (1)),
    .lexLine 61 (b! "\t\t.END\n") (some (1)),
    .parseLine (some (1)),
    .lexLine 62 (b! "LDA LDX LDY LOLOL\n") (some (1)),
    .parseLine (some (-10)),
    .lexLine 63 (b! "LDX (),\tX LABEL\n") (some (1)),
    .parseLine (some (-10)),
    .lexLine 64 (b! "LABEL1 LABEL2 STLOOP JANUS YOYOYOEOYEOYOEYO\n") (some (1)),
    .parseLine (some (-10)),
    .lexLine 65 (b! "sexy === $ffff\n") (some (1)),
    .parseLine (some (-10)),
    .lexLine 66 (b! "LDA X\n") (some (1)),
    .parseLine (some (-10)),
    .lexLine 67 (b! "number .define $9999") (some (1)),
    .parseLine (some (-10)),
    .lexLine 68 (b! ".equ wow $666") (some (1)),
    .parseLine (some (-10)),
    .lexLine 69 (b! ".END ZP,X") (some (1)),
    .parseLine (some (-10)),
    .lexLine 70 (b! ".ORG CONSTANT16") (some (1)),
    .parseLine (some (-10)),
    .lexLine 71 (b! "LSR A,X\n") (some (1)),
    .parseLine (some (-10)),
    .lexLine 72 (b! "\n") (some (1)),
    .parseLine (some (1)),
    .lexLine 73 (b! "\r\n") (some (1)),
    .parseLine (some (1)),
    .lexLine 74 (b! "   \t\t  \t  \n") (some (1)),
    .parseLine (some (1)),
    .lexLine 75 (b! ";lolololol\r\n") (some (1)),
    .parseLine (some (1))] = true := by decide +kernel

/- test_parse_label_declaration: 90 assertions -/
example : passes [
    .update fun t => { t with lx := initLexer (b! "test_parse_label_declaration.asm") },
    .update fun t => { t with r := ⟨initToken, none⟩ },
    .update fun t => { t with instr := initInstruction },
    .update fun t => { t with tab := initSymbolTable },
    .lexLine 1 (b! "ADDRESS\t\t=\t$ABCD\n") (some (1)),
    .declare (some 0) (some (1)),
    .searchToken 0 (some (43981)),
    .lexLine 2 (b! "CONSTANT8\t=\t$7F\n") (some (1)),
    .declare (some 0) (some (1)),
    .searchToken 0 (some (127)),
    .lexLine 3 (b! "CONSTANT16\t=\t$1111\n") (some (1)),
    .declare (some 0) (some (1)),
    .searchToken 0 (some (4369)),
    .lexLine 4 (b! "LABEL1:\n") (some (1)),
    .declare (some 2) (some (1)),
    .searchToken 0 (some (2)),
    .lexLine 5 (b! "DIRECTIVE1\t.EQU\t$4000\n") (some (1)),
    .declare (some 2) (some (1)),
    .searchToken 0 (some (16384)),
    .lexLine 6 (b! ".DEFINE\tDIRECTIVE2\t$8000\n") (some (1)),
    .declare (some 2) (some (1)),
    .searchToken 1 (some (32768)),
    .lexLine 7 (b! "L1\t\tDEY\n") (some (1)),
    .declare (some 2) (some (1)),
    .searchToken 0 (some (2)),
    .lexLine 8 (b! "L2\t\tASL\tA\n") (some (1)),
    .declare (some 2) (some (1)),
    .searchToken 0 (some (2)),
    .lexLine 9 (b! "L3:\t\tSTY\t$AA\n") (some (1)),
    .declare (some 2) (some (1)),
    .searchToken 0 (some (2)),
    .lexLine 10 (b! "L4\t\tROL\tCONSTANT8\n") (some (1)),
    .declare (some 2) (some (1)),
    .searchToken 0 (some (2)),
    .lexLine 11 (b! "L5:\t\tLSR\t$1234\n") (some (1)),
    .declare (some 2) (some (1)),
    .searchToken 0 (some (2)),
    .lexLine 12 (b! "L6\t\tROR\tADDRESS\n") (some (1)),
    .declare (some 2) (some (1)),
    .searchToken 0 (some (2)),
    .lexLine 13 (b! "L7:\t\tLDY\t$BB,X\n") (some (1)),
    .declare (some 2) (some (1)),
    .searchToken 0 (some (2)),
    .lexLine 14 (b! "L8\t\tDEC\tCONSTANT8,X\n") (some (1)),
    .declare (some 2) (some (1)),
    .searchToken 0 (some (2)),
    .lexLine 15 (b! "L9:\t\tINC\t$1000,X\n") (some (1)),
    .declare (some 2) (some (1)),
    .searchToken 0 (some (2)),
    .lexLine 16 (b! "L10\t\tCMP\tCONSTANT16,X\n") (some (1)),
    .declare (some 2) (some (1)),
    .searchToken 0 (some (2)),
    .lexLine 17 (b! "L11:\t\tSTX\t$CC,Y\n") (some (1)),
    .declare (some 2) (some (1)),
    .searchToken 0 (some (2)),
    .lexLine 18 (b! "L12\t\tLDX\tCONSTANT8,Y\n") (some (1)),
    .declare (some 2) (some (1)),
    .searchToken 0 (some (2)),
    .lexLine 19 (b! "L13:\t\tSTA\t$B00B,Y\n") (some (1)),
    .declare (some 2) (some (1)),
    .searchToken 0 (some (2)),
    .lexLine 20 (b! "L14\t\tAND\tADDRESS,Y\n") (some (1)),
    .declare (some 2) (some (1)),
    .searchToken 0 (some (2)),
    .lexLine 21 (b! "L15:\t\tJMP\t($CAFE)\n") (some (1)),
    .declare (some 2) (some (1)),
    .searchToken 0 (some (2)),
    .lexLine 22 (b! "L16\t\tJMP\t(CONSTANT16)\n") (some (1)),
    .declare (some 2) (some (1)),
    .searchToken 0 (some (2)),
    .lexLine 23 (b! "L17:\t\tCPX\t#$DD\n") (some (1)),
    .declare (some 2) (some (1)),
    .searchToken 0 (some (2)),
    .lexLine 24 (b! "L18\t\tLDY\t#CONSTANT8\n") (some (1)),
    .declare (some 2) (some (1)),
    .searchToken 0 (some (2)),
    .lexLine 25 (b! "L19:\t\tADC\t($EE,X)\n") (some (1)),
    .declare (some 2) (some (1)),
    .searchToken 0 (some (2)),
    .lexLine 26 (b! "L20\t\tLDA\t(CONSTANT8,X)\n") (some (1)),
    .declare (some 2) (some (1)),
    .searchToken 0 (some (2)),
    .lexLine 27 (b! "L21:\t\tSTA\t($FF),Y\n") (some (1)),
    .declare (some 2) (some (1)),
    .searchToken 0 (some (2)),
    .lexLine 28 (b! "L22\t\tSBC\t(CONSTANT8),Y\n") (some (1)),
    .declare (some 2) (some (1)),
    .searchToken 0 (some (2)),
    .lexLine 29 (b! "CONSTANT16\t\t=\t$1234\n") (some (1)),
    .declare (some 2) (some (-11)),
    .searchToken 0 (some (4369)),
    .lexLine 30 (b! "LABEL1          TXA\n") (some (1)),
    .declare (some 2) (some (-11)),
    .searchToken 0 (some (2))] = true := by decide +kernel

/- test_find_operand: 88 assertions -/
example : passes [
    .update fun t => { t with lx := initLexer (b! "test_find_operand.asm") },
    .update fun t => { t with r := ⟨initToken, none⟩ },
    .update fun t => { t with instr := initInstruction },
    .lexLine 1 (b! "\t\tINX\n") (some (1)),
    .findOperand,
    .check fun t => t.operand == none,
    .lexLine 2 (b! "\t\tROL\tA\n") (some (1)),
    .findOperand,
    .check fun t => t.operand == t.lx.seq[1]?,
    .lexLine 3 (b! "\t\tORA\t$AA\n") (some (1)),
    .findOperand,
    .check fun t => t.operand == t.lx.seq[1]?,
    .lexLine 4 (b! "\t\tASL\tCONSTANT8\n") (some (1)),
    .findOperand,
    .check fun t => t.operand == t.lx.seq[1]?,
    .lexLine 5 (b! "\t\tLDA\t$1234\n") (some (1)),
    .findOperand,
    .check fun t => t.operand == t.lx.seq[1]?,
    .lexLine 6 (b! "\t\tCPY\tADDRESS\n") (some (1)),
    .findOperand,
    .check fun t => t.operand == t.lx.seq[1]?,
    .lexLine 7 (b! "\t\tSBC\t$BB,X\n") (some (1)),
    .findOperand,
    .check fun t => t.operand == t.lx.seq[1]?,
    .lexLine 8 (b! "\t\tROR\tCONSTANT8,X\n") (some (1)),
    .findOperand,
    .check fun t => t.operand == t.lx.seq[1]?,
    .lexLine 9 (b! "\t\tINC\t$1000,X\n") (some (1)),
    .findOperand,
    .check fun t => t.operand == t.lx.seq[1]?,
    .lexLine 10 (b! "\t\tCMP\tCONSTANT16,X\n") (some (1)),
    .findOperand,
    .check fun t => t.operand == t.lx.seq[1]?,
    .lexLine 11 (b! "\t\tSTX\t$CC,Y\n") (some (1)),
    .findOperand,
    .check fun t => t.operand == t.lx.seq[1]?,
    .lexLine 12 (b! "\t\tLDX\tCONSTANT8,Y\n") (some (1)),
    .findOperand,
    .check fun t => t.operand == t.lx.seq[1]?,
    .lexLine 13 (b! "\t\tSTA\t$DEAD,Y\n") (some (1)),
    .findOperand,
    .check fun t => t.operand == t.lx.seq[1]?,
    .lexLine 14 (b! "\t\tAND\tADDRESS,Y\n") (some (1)),
    .findOperand,
    .check fun t => t.operand == t.lx.seq[1]?,
    .lexLine 15 (b! "\t\tJMP\t($FACE)\n") (some (1)),
    .findOperand,
    .check fun t => t.operand == t.lx.seq[2]?,
    .lexLine 16 (b! "\t\tJMP\t(ADDRESS)\n") (some (1)),
    .findOperand,
    .check fun t => t.operand == t.lx.seq[2]?,
    .lexLine 17 (b! "\t\tEOR\t#$DD\n") (some (1)),
    .findOperand,
    .check fun t => t.operand == t.lx.seq[2]?,
    .lexLine 18 (b! "\t\tLDY\t#CONSTANT8\n") (some (1)),
    .findOperand,
    .check fun t => t.operand == t.lx.seq[2]?,
    .lexLine 19 (b! "\t\tADC\t($EE,X)\n") (some (1)),
    .findOperand,
    .check fun t => t.operand == t.lx.seq[2]?,
    .lexLine 20 (b! "\t\tLDA\t(CONSTANT8,X)\n") (some (1)),
    .findOperand,
    .check fun t => t.operand == t.lx.seq[2]?,
    .lexLine 21 (b! "\t\tSTA\t($FF),Y\n") (some (1)),
    .findOperand,
    .check fun t => t.operand == t.lx.seq[2]?,
    .lexLine 22 (b! "\t\tSBC\t(CONSTANT8),Y\n") (some (1)),
    .findOperand,
    .check fun t => t.operand == t.lx.seq[2]?,
    .lexLine 23 (b! "L1\t\tDEY\n") (some (1)),
    .findOperand,
    .check fun t => t.operand == none,
    .lexLine 24 (b! "L2\t\tASL\tA\n") (some (1)),
    .findOperand,
    .check fun t => t.operand == t.lx.seq[2]?,
    .lexLine 25 (b! "L3:\t\tSTY\t$AA\n") (some (1)),
    .findOperand,
    .check fun t => t.operand == t.lx.seq[2]?,
    .lexLine 26 (b! "L4\t\tROL\tCONSTANT8\n") (some (1)),
    .findOperand,
    .check fun t => t.operand == t.lx.seq[2]?,
    .lexLine 27 (b! "L5:\t\tLSR\t$1234\n") (some (1)),
    .findOperand,
    .check fun t => t.operand == t.lx.seq[2]?,
    .lexLine 28 (b! "L6\t\tROR\tADDRESS\n") (some (1)),
    .findOperand,
    .check fun t => t.operand == t.lx.seq[2]?,
    .lexLine 29 (b! "L7:\t\tLDY\t$BB,X\n") (some (1)),
    .findOperand,
    .check fun t => t.operand == t.lx.seq[2]?,
    .lexLine 30 (b! "L8\t\tDEC\tCONSTANT8,X\n") (some (1)),
    .findOperand,
    .check fun t => t.operand == t.lx.seq[2]?,
    .lexLine 31 (b! "L9:\t\tINC\t$1000,X\n") (some (1)),
    .findOperand,
    .check fun t => t.operand == t.lx.seq[2]?,
    .lexLine 32 (b! "L10\t\tCMP\tCONSTANT16,X\n") (some (1)),
    .findOperand,
    .check fun t => t.operand == t.lx.seq[2]?,
    .lexLine 33 (b! "L11:\t\tSTX\t$CC,Y\n") (some (1)),
    .findOperand,
    .check fun t => t.operand == t.lx.seq[2]?,
    .lexLine 34 (b! "L12\t\tLDX\tCONSTANT8,Y\n") (some (1)),
    .findOperand,
    .check fun t => t.operand == t.lx.seq[2]?,
    .lexLine 35 (b! "L13:\t\tSTA\t$B00B,Y\n") (some (1)),
    .findOperand,
    .check fun t => t.operand == t.lx.seq[2]?,
    .lexLine 36 (b! "L14\t\tAND\tADDRESS,Y\n") (some (1)),
    .findOperand,
    .check fun t => t.operand == t.lx.seq[2]?,
    .lexLine 37 (b! "L15:\t\tJMP\t($CAFE)\n") (some (1)),
    .findOperand,
    .check fun t => t.operand == t.lx.seq[3]?,
    .lexLine 38 (b! "L16\t\tJMP\t(CONSTANT16)\n") (some (1)),
    .findOperand,
    .check fun t => t.operand == t.lx.seq[3]?,
    .lexLine 39 (b! "L17:\t\tCPX\t#$DD\n") (some (1)),
    .findOperand,
    .check fun t => t.operand == t.lx.seq[3]?,
    .lexLine 40 (b! "L18\t\tLDY\t#CONSTANT8\n") (some (1)),
    .findOperand,
    .check fun t => t.operand == t.lx.seq[3]?,
    .lexLine 41 (b! "L19:\t\tADC\t($EE,X)\n") (some (1)),
    .findOperand,
    .check fun t => t.operand == t.lx.seq[3]?,
    .lexLine 42 (b! "L20\t\tLDA\t(CONSTANT8,X)\n") (some (1)),
    .findOperand,
    .check fun t => t.operand == t.lx.seq[3]?,
    .lexLine 43 (b! "L21:\t\tSTA\t($FF),Y\n") (some (1)),
    .findOperand,
    .check fun t => t.operand == t.lx.seq[3]?,
    .lexLine 44 (b! "L22\t\tSBC\t(CONSTANT8),Y\n") (some (1)),
    .findOperand,
    .check fun t => t.operand == t.lx.seq[3]?] = true := by decide +kernel

/- test_parse_label_operand: 102 assertions -/
example : passes [
    .update fun t => { t with lx := initLexer (b! "test_parse_label_operand.asm") },
    .update fun t => { t with r := ⟨initToken, none⟩ },
    .update fun t => { t with instr := initInstruction },
    .update fun t => { t with tab := initSymbolTable },
    .lexLine 1 (b! "ADDRESS\t\t=\t$ABCD\n") (some (1)),
    .parseLine (some (1)),
    .declare (some 0) (some (1)),
    .lexLine 2 (b! "CONSTANT8\t=\t$7F\n") (some (1)),
    .parseLine (some (1)),
    .declare (some 0) (some (1)),
    .lexLine 3 (b! "CONSTANT16\t=\t$1111\n") (some (1)),
    .parseLine (some (1)),
    .declare (some 0) (some (1)),
    .lexLine 4 (b! "\t\tASL\tCONSTANT8\n") (some (1)),
    .parseLine (some (1)),
    .findOperand,
    .parseLabelOperand (some (1)),
    .lexLine 5 (b! "\t\tCPY\tADDRESS\n") (some (1)),
    .parseLine (some (1)),
    .findOperand,
    .parseLabelOperand (some (1)),
    .lexLine 6 (b! "\t\tROR\tCONSTANT8,X\n") (some (1)),
    .parseLine (some (1)),
    .findOperand,
    .parseLabelOperand (some (1)),
    .lexLine 7 (b! "\t\tCMP\tCONSTANT16,X\n") (some (1)),
    .parseLine (some (1)),
    .findOperand,
    .parseLabelOperand (some (1)),
    .lexLine 8 (b! "\t\tLDX\tCONSTANT8,Y\n") (some (1)),
    .parseLine (some (1)),
    .findOperand,
    .parseLabelOperand (some (1)),
    .lexLine 9 (b! "\t\tAND\tADDRESS,Y\n") (some (1)),
    .parseLine (some (1)),
    .findOperand,
    .parseLabelOperand (some (1)),
    .lexLine 10 (b! "\t\tLDY\t#CONSTANT8\n") (some (1)),
    .parseLine (some (1)),
    .findOperand,
    .parseLabelOperand (some (1)),
    .lexLine 11 (b! "\t\tLDA\t(CONSTANT8,X)\n") (some (1)),
    .parseLine (some (1)),
    .findOperand,
    .parseLabelOperand (some (1)),
    .lexLine 12 (b! "\t\tSBC\t(CONSTANT8),Y\n") (some (1)),
    .parseLine (some (1)),
    .findOperand,
    .parseLabelOperand (some (1)),
    .lexLine 13 (b! "ADC constant8\n") (some (1)),
    .parseLine (some (1)),
    .findOperand,
    .parseLabelOperand (some (1)),
    .lexLine 14 (b! "STX constant16\n") (some (1)),
    .parseLine (some (1)),
    .findOperand,
    .parseLabelOperand (some (1)),
    .lexLine 15 (b! "\t\tSTY\taddress\n") (some (1)),
    .parseLine (some (1)),
    .findOperand,
    .parseLabelOperand (some (1)),
    .update fun t => { t with tab := initSymbolTable },
    .setPc 0,
    .lexLine 1 (b! "LABEL1:\n") (some (1)),
    .parseLine (some (1)),
    .declare none (some (1)),
    .search (b! "LABEL1") (some (0)),
    .lexLine 2 (b! "\t\tINX\n") (some (1)),
    .parseLine (some (1)),
    .addPc 1,
    .lexLine 3 (b! "\t\tCPY\tADDRESS\n") (some (1)),
    .parseLine (some (1)),
    .search (b! "ADDRESS") (some (-2)),
    .findOperand,
    .parseLabelOperand (some (-12)),
    .lexLine 4 (b! "RANDOM_LABEL\t\tDEY\n") (some (1)),
    .parseLine (some (1)),
    .declare none (some (1)),
    .addPc 1,
    .lexLine 5 (b! "\t\tBMI\tLABEL1\n") (some (1)),
    .parseLine (some (1)),
    .findOperand,
    .parseLabelOperand (some (2)),
    .addPc 2,
    .lexLine 6 (b! "\t\tBVS\tL1\n") (some (1)),
    .parseLine (some (1)),
    .findOperand,
    .parseLabelOperand (some (4)),
    .addPc 2,
    .lexLine 7 (b! "\t\tJMP\tLABEL1\n") (some (1)),
    .parseLine (some (1)),
    .findOperand,
    .parseLabelOperand (some (3)),
    .addPc 3,
    .lexLine 8 (b! "\t\tJSR\tL3\n") (some (1)),
    .parseLine (some (1)),
    .findOperand,
    .parseLabelOperand (some (5)),
    .addPc 3,
    .lexLine 9 (b! "LABEL2\t\tBCC\tLABEL1\n") (some (1)),
    .parseLine (some (1)),
    .declare none (some (1)),
    .searchToken 0 (some (12)),
    .findOperand,
    .parseLabelOperand (some (2)),
    .addPc 2,
    .lexLine 10 (b! "FORREF1\t\tBVC\tL19\n") (some (1)),
    .parseLine (some (1)),
    .declare none (some (1)),
    .searchToken 0 (some (14)),
    .findOperand,
    .parseLabelOperand (some (4)),
    .addPc 2,
    .lexLine 11 (b! "LABEL3\t\tJSR\tLABEL2\n") (some (1)),
    .parseLine (some (1)),
    .declare none (some (1)),
    .searchToken 0 (some (16)),
    .findOperand,
    .parseLabelOperand (some (3)),
    .addPc 3,
    .lexLine 12 (b! "FORREF2\t\tJMP\tL21\n") (some (1)),
    .parseLine (some (1)),
    .declare none (some (1)),
    .searchToken 0 (some (19)),
    .findOperand,
    .parseLabelOperand (some (5)),
    .addPc 3,
    .lexLine 13 (b! "L2 STY $AA\n") (some (1)),
    .parseLine (some (1)),
    .declare none (some (1)),
    .search (b! "L2") (some (22)),
    .addPc 2,
    .lexLine 14 (b! "\t\tJMP\t(WHERE)\n") (some (1)),
    .parseLine (some (1)),
    .findOperand,
    .parseLabelOperand (some (5)),
    .addPc 3,
    .lexLine 15 (b! "FORREF3\t\tJMP\t(THERE)\n") (some (1)),
    .parseLine (some (1)),
    .declare none (some (1)),
    .search (b! "FORREF3") (some (27)),
    .findOperand,
    .parseLabelOperand (some (5))] = true := by decide +kernel

/-! tests/parser/test_parser2.c -/

/- test_parse_operand: 180 assertions -/
example : passes [
    .update fun t => { t with lx := initLexer (b! "test_parse_operand.asm") },
    .update fun t => { t with r := ⟨initToken, none⟩ },
    .update fun t => { t with instr := initInstruction },
    .update fun t => { t with tab := initSymbolTable },
    .lexLine 1 (b! "ADDRESS\t\t=\t$ABCD\n") (some (1)),
    .parseLine (some (1)),
    .declare (some 0) (some (1)),
    .lexLine 2 (b! "CONSTANT8\t=\t$7F\n") (some (1)),
    .parseLine (some (1)),
    .declare (some 0) (some (1)),
    .lexLine 3 (b! "CONSTANT16\t=\t$1111\n") (some (1)),
    .parseLine (some (1)),
    .declare (some 0) (some (1)),
    .lexLine 4 (b! "\t\tINX\n") (some (1)),
    .parseLine (some (1)),
    .findOperand,
    .parseOperand (some (1)),
    .lexLine 5 (b! "\t\tROL\tA\n") (some (1)),
    .parseLine (some (1)),
    .findOperand,
    .parseOperand (some (1)),
    .lexLine 6 (b! "\t\tORA\t$AA\n") (some (1)),
    .parseLine (some (1)),
    .findOperand,
    .parseOperand (some (1)),
    .lexLine 7 (b! "\t\tASL\tCONSTANT8\n") (some (1)),
    .parseLine (some (1)),
    .findOperand,
    .parseOperand (some (1)),
    .lexLine 8 (b! "\t\tLDA\t$1234\n") (some (1)),
    .parseLine (some (1)),
    .findOperand,
    .parseOperand (some (1)),
    .lexLine 9 (b! "\t\tCPY\tADDRESS\n") (some (1)),
    .parseLine (some (1)),
    .findOperand,
    .parseOperand (some (1)),
    .lexLine 10 (b! "\t\tSBC\t$BB,X\n") (some (1)),
    .parseLine (some (1)),
    .findOperand,
    .parseOperand (some (1)),
    .lexLine 11 (b! "\t\tROR\tCONSTANT8,X\n") (some (1)),
    .parseLine (some (1)),
    .findOperand,
    .parseOperand (some (1)),
    .lexLine 12 (b! "\t\tINC\t$1000,X\n") (some (1)),
    .parseLine (some (1)),
    .findOperand,
    .parseOperand (some (1)),
    .lexLine 13 (b! "\t\tCMP\tCONSTANT16,X\n") (some (1)),
    .parseLine (some (1)),
    .findOperand,
    .parseOperand (some (1)),
    .lexLine 14 (b! "\t\tSTX\t$CC,Y\n") (some (1)),
    .parseLine (some (1)),
    .findOperand,
    .parseOperand (some (1)),
    .lexLine 15 (b! "\t\tLDX\tCONSTANT8,Y\n") (some (1)),
    .parseLine (some (1)),
    .findOperand,
    .parseOperand (some (1)),
    .lexLine 16 (b! "\t\tSTA\t$DEAD,Y\n") (some (1)),
    .parseLine (some (1)),
    .findOperand,
    .parseOperand (some (1)),
    .lexLine 17 (b! "\t\tAND\tADDRESS,Y\n") (some (1)),
    .parseLine (some (1)),
    .findOperand,
    .parseOperand (some (1)),
    .lexLine 18 (b! "\t\tJMP\t($FACE)\n") (some (1)),
    .parseLine (some (1)),
    .findOperand,
    .parseOperand (some (1)),
    .lexLine 19 (b! "\t\tJMP\t(ADDRESS)\n") (some (1)),
    .parseLine (some (1)),
    .findOperand,
    .parseOperand (some (3)),
    .lexLine 20 (b! "\t\tEOR\t#$DD\n") (some (1)),
    .parseLine (some (1)),
    .findOperand,
    .parseOperand (some (1)),
    .lexLine 21 (b! "\t\tLDY\t#CONSTANT8\n") (some (1)),
    .parseLine (some (1)),
    .findOperand,
    .parseOperand (some (1)),
    .lexLine 22 (b! "\t\tADC\t($EE,X)\n") (some (1)),
    .parseLine (some (1)),
    .findOperand,
    .parseOperand (some (1)),
    .lexLine 23 (b! "\t\tLDA\t(CONSTANT8,X)\n") (some (1)),
    .parseLine (some (1)),
    .findOperand,
    .parseOperand (some (1)),
    .lexLine 24 (b! "\t\tSTA\t($FF),Y\n") (some (1)),
    .parseLine (some (1)),
    .findOperand,
    .parseOperand (some (1)),
    .lexLine 25 (b! "\t\tSBC\t(CONSTANT8),Y\n") (some (1)),
    .parseLine (some (1)),
    .findOperand,
    .parseOperand (some (1)),
    .lexLine 26 (b! "L1\t\tDEY\n") (some (1)),
    .parseLine (some (1)),
    .findOperand,
    .parseOperand (some (1)),
    .lexLine 27 (b! "L2\t\tASL\tA\n") (some (1)),
    .parseLine (some (1)),
    .findOperand,
    .parseOperand (some (1)),
    .lexLine 28 (b! "L3:\t\tSTY\t$AA\n") (some (1)),
    .parseLine (some (1)),
    .findOperand,
    .parseOperand (some (1)),
    .lexLine 29 (b! "L4\t\tROL\tCONSTANT8\n") (some (1)),
    .parseLine (some (1)),
    .findOperand,
    .parseOperand (some (1)),
    .lexLine 30 (b! "L5:\t\tLSR\t$1234\n") (some (1)),
    .parseLine (some (1)),
    .findOperand,
    .parseOperand (some (1)),
    .lexLine 31 (b! "L6\t\tROR\tADDRESS\n") (some (1)),
    .parseLine (some (1)),
    .findOperand,
    .parseOperand (some (1)),
    .lexLine 32 (b! "L7:\t\tLDY\t$BB,X\n") (some (1)),
    .parseLine (some (1)),
    .findOperand,
    .parseOperand (some (1)),
    .lexLine 33 (b! "L8\t\tDEC\tCONSTANT8,X\n") (some (1)),
    .parseLine (some (1)),
    .findOperand,
    .parseOperand (some (1)),
    .lexLine 34 (b! "L9:\t\tINC\t$1000,X\n") (some (1)),
    .parseLine (some (1)),
    .findOperand,
    .parseOperand (some (1)),
    .lexLine 35 (b! "L10\t\tCMP\tCONSTANT16,X\n") (some (1)),
    .parseLine (some (1)),
    .findOperand,
    .parseOperand (some (1)),
    .lexLine 36 (b! "L11:\t\tSTX\t$CC,Y\n") (some (1)),
    .parseLine (some (1)),
    .findOperand,
    .parseOperand (some (1)),
    .lexLine 37 (b! "L12\t\tLDX\tCONSTANT8,Y\n") (some (1)),
    .parseLine (some (1)),
    .findOperand,
    .parseOperand (some (1)),
    .lexLine 38 (b! "L13:\t\tSTA\t$B00B,Y\n") (some (1)),
    .parseLine (some (1)),
    .findOperand,
    .parseOperand (some (1)),
    .lexLine 39 (b! "L14\t\tAND\tADDRESS,Y\n") (some (1)),
    .parseLine (some (1)),
    .findOperand,
    .parseOperand (some (1)),
    .lexLine 40 (b! "L15:\t\tJMP\t($CAFE)\n") (some (1)),
    .parseLine (some (1)),
    .findOperand,
    .parseOperand (some (1)),
    .lexLine 41 (b! "L16\t\tJMP\t(CONSTANT16)\n") (some (1)),
    .parseLine (some (1)),
    .findOperand,
    .parseOperand (some (3)),
    .lexLine 42 (b! "L17:\t\tCPX\t#$DD\n") (some (1)),
    .parseLine (some (1)),
    .findOperand,
    .parseOperand (some (1)),
    .lexLine 43 (b! "L18\t\tLDY\t#CONSTANT8\n") (some (1)),
    .parseLine (some (1)),
    .findOperand,
    .parseOperand (some (1)),
    .lexLine 44 (b! "L19:\t\tADC\t($EE,X)\n") (some (1)),
    .parseLine (some (1)),
    .findOperand,
    .parseOperand (some (1)),
    .lexLine 45 (b! "L20\t\tLDA\t(CONSTANT8,X)\n") (some (1)),
    .parseLine (some (1)),
    .findOperand,
    .parseOperand (some (1)),
    .lexLine 46 (b! "L21:\t\tSTA\t($FF),Y\n") (some (1)),
    .parseLine (some (1)),
    .findOperand,
    .parseOperand (some (1)),
    .lexLine 47 (b! "L22\t\tSBC\t(CONSTANT8),Y\n") (some (1)),
    .parseLine (some (1)),
    .findOperand,
    .parseOperand (some (1)),
    .update fun t => { t with tab := initSymbolTable },
    .lexLine 48 (b! "LABEL1:\n") (some (1)),
    .parseLine (some (1)),
    .findOperand,
    .parseOperand (some (1)),
    .declare (some 0) (some (1)),
    .check fun t => t.instr.mnemonic == none,
    .lexLine 49 (b! "\t\tINX\n") (some (1)),
    .parseLine (some (1)),
    .findOperand,
    .parseOperand (some (1)),
    .lexLine 50 (b! "RANDOM_LABEL\t\tDEY\n") (some (1)),
    .parseLine (some (1)),
    .findOperand,
    .parseOperand (some (1)),
    .lexLine 51 (b! "\t\tBMI\tLABEL1\n") (some (1)),
    .parseLine (some (1)),
    .findOperand,
    .parseOperand (some (2)),
    .lexLine 52 (b! "\t\tBVS\tL1\n") (some (1)),
    .parseLine (some (1)),
    .findOperand,
    .parseOperand (some (4)),
    .lexLine 53 (b! "\t\tJMP\tLABEL1\n") (some (1)),
    .parseLine (some (1)),
    .findOperand,
    .parseOperand (some (3)),
    .lexLine 54 (b! "\t\tJSR\tL3\n") (some (1)),
    .parseLine (some (1)),
    .findOperand,
    .parseOperand (some (5)),
    .lexLine 55 (b! "LABEL2\t\tBCC\tLABEL1\n") (some (1)),
    .parseLine (some (1)),
    .declare (some 0) (some (1)),
    .findOperand,
    .parseOperand (some (2)),
    .lexLine 56 (b! "FORREF1\t\tBVC\tL19\n") (some (1)),
    .parseLine (some (1)),
    .declare (some 0) (some (1)),
    .findOperand,
    .parseOperand (some (4)),
    .lexLine 57 (b! "LABEL3\t\tJSR\tLABEL2\n") (some (1)),
    .parseLine (some (1)),
    .declare (some 0) (some (1)),
    .findOperand,
    .parseOperand (some (3)),
    .lexLine 58 (b! "FORREF2\t\tJMP\tL21\n") (some (1)),
    .parseLine (some (1)),
    .declare (some 0) (some (1)),
    .findOperand,
    .parseOperand (some (5))] = true := by decide +kernel

/- test_apply_masks: 44 assertions -/
example : passes [
    .update fun t => { t with lx := initLexer (b! "test_apply_masks.asm") },
    .update fun t => { t with r := ⟨initToken, none⟩ },
    .update fun t => { t with instr := initInstruction },
    .lexLine 1 (b! "\t\tINX\n") (some (1)),
    .applyMasks 8191 (some (2820)),
    .lexLine 2 (b! "\t\tROL\tA\n") (some (1)),
    .applyMasks 8191 (some (4096)),
    .lexLine 3 (b! "\t\tORA\t$AA\n") (some (1)),
    .applyMasks 8191 (some (2820)),
    .lexLine 4 (b! "\t\tASL\tCONSTANT8\n") (some (1)),
    .applyMasks 8191 (some (2820)),
    .lexLine 5 (b! "\t\tLDA\t$1234\n") (some (1)),
    .applyMasks 8191 (some (2820)),
    .lexLine 6 (b! "\t\tCPY\tADDRESS\n") (some (1)),
    .applyMasks 8191 (some (2820)),
    .lexLine 7 (b! "\t\tSBC\t$BB,X\n") (some (1)),
    .applyMasks 8191 (some (130)),
    .lexLine 8 (b! "\t\tROR\tCONSTANT8,X\n") (some (1)),
    .applyMasks 8191 (some (130)),
    .lexLine 9 (b! "\t\tINC\t$1000,X\n") (some (1)),
    .applyMasks 8191 (some (130)),
    .lexLine 10 (b! "\t\tCMP\tCONSTANT16,X\n") (some (1)),
    .applyMasks 8191 (some (130)),
    .lexLine 11 (b! "\t\tSTX\t$CC,Y\n") (some (1)),
    .applyMasks 8191 (some (65)),
    .lexLine 12 (b! "\t\tLDX\tCONSTANT8,Y\n") (some (1)),
    .applyMasks 8191 (some (65)),
    .lexLine 13 (b! "\t\tSTA\t$DEAD,Y\n") (some (1)),
    .applyMasks 8191 (some (65)),
    .lexLine 14 (b! "\t\tAND\tADDRESS,Y\n") (some (1)),
    .applyMasks 8191 (some (65)),
    .lexLine 15 (b! "\t\tJMP\t($FACE)\n") (some (1)),
    .applyMasks 8191 (some (32)),
    .lexLine 16 (b! "\t\tJMP\t(ADDRESS)\n") (some (1)),
    .applyMasks 8191 (some (32)),
    .lexLine 17 (b! "\t\tEOR\t#$DD\n") (some (1)),
    .applyMasks 8191 (some (1024)),
    .lexLine 18 (b! "\t\tLDY\t#CONSTANT8\n") (some (1)),
    .applyMasks 8191 (some (1024)),
    .lexLine 19 (b! "\t\tADC\t($EE,X)\n") (some (1)),
    .applyMasks 8191 (some (16)),
    .lexLine 20 (b! "\t\tLDA\t(CONSTANT8,X)\n") (some (1)),
    .applyMasks 8191 (some (16)),
    .lexLine 21 (b! "\t\tSTA\t($FF),Y\n") (some (1)),
    .applyMasks 8191 (some (8)),
    .lexLine 22 (b! "\t\tSBC\t(CONSTANT8),Y\n") (some (1)),
    .applyMasks 8191 (some (8))] = true := by decide +kernel

/- test_parse_forward_ref_addr_mode: 28 assertions -/
example : passes [
    .update fun t => { t with lx := initLexer (b! "test_parse_forward_ref_addr_mode.asm") },
    .update fun t => { t with r := ⟨initToken, none⟩ },
    .update fun t => { t with instr := initInstruction },
    .lexLine 1 (b! "FORREF1\t\tBVC\tL19\n") (some (1)),
    .parseForwardRefAddrMode (some (65535)),
    .check fun t => t.instr.addrBitflag == 512,
    .check fun t => t.instr.addrBitflag == 512,
    .lexLine 2 (b! "FORREF2\t\tJMP\tL21\n") (some (1)),
    .parseForwardRefAddrMode (some (65535)),
    .check fun t => t.instr.addrBitflag == 256,
    .check fun t => t.instr.addrBitflag == 256,
    .lexLine 3 (b! "\t\tJMP\t(WHERE)\n") (some (1)),
    .parseForwardRefAddrMode (some (65535)),
    .check fun t => t.instr.addrBitflag == 32,
    .check fun t => t.instr.addrBitflag == 32,
    .lexLine 4 (b! "FORREF3\t\tJMP\t(THERE)\n") (some (1)),
    .parseForwardRefAddrMode (some (65535)),
    .check fun t => t.instr.addrBitflag == 32,
    .check fun t => t.instr.addrBitflag == 32,
    .lexLine 5 (b! "BCC (LABEL)\n") (some (1)),
    .parseForwardRefAddrMode (some (-13)),
    .check fun t => t.instr.addrBitflag == 0,
    .lexLine 6 (b! "BVS (LABEL),Y\n") (some (1)),
    .parseForwardRefAddrMode (some (-13)),
    .check fun t => t.instr.addrBitflag == 0,
    .lexLine 7 (b! "JMP #LABEL\n") (some (1)),
    .parseForwardRefAddrMode (some (-13)),
    .check fun t => t.instr.addrBitflag == 0,
    .lexLine 8 (b! "JSR (LABEL)\n") (some (1)),
    .parseForwardRefAddrMode (some (-13)),
    .check fun t => t.instr.addrBitflag == 0] = true := by decide +kernel

/- test_parse_addr_mode: 158 assertions -/
example : passes [
    .update fun t => { t with lx := initLexer (b! "test_parse_addr_mode.asm") },
    .update fun t => { t with r := ⟨initToken, none⟩ },
    .update fun t => { t with instr := initInstruction },
    .update fun t => { t with tab := initSymbolTable },
    .lexLine 1 (b! "ADDRESS\t\t=\t$ABCD\n") (some (1)),
    .parseLine (some (1)),
    .declare (some 0) (some (1)),
    .lexLine 2 (b! "CONSTANT8\t=\t$7F\n") (some (1)),
    .parseLine (some (1)),
    .declare (some 0) (some (1)),
    .lexLine 3 (b! "CONSTANT16\t=\t$1111\n") (some (1)),
    .parseLine (some (1)),
    .declare (some 0) (some (1)),
    .lexLine 4 (b! "LABEL1:\n") (some (1)),
    .parseLine (some (1)),
    .declare (some 0) (some (1)),
    .lexLine 5 (b! "\t\tINX\n") (some (1)),
    .parseLine (some (1)),
    .findOperand,
    .parseOperand none,
    .parseAddrMode none (some (2048)),
    .lexLine 6 (b! "\t\tROL\tA\n") (some (1)),
    .parseLine (some (1)),
    .findOperand,
    .parseOperand none,
    .parseAddrMode none (some (4096)),
    .lexLine 7 (b! "\t\tASL\n") (some (1)),
    .parseLine (some (1)),
    .findOperand,
    .parseOperand none,
    .parseAddrMode none (some (4096)),
    .lexLine 8 (b! "\t\tLSR\n") (some (1)),
    .parseLine (some (1)),
    .findOperand,
    .parseOperand none,
    .parseAddrMode none (some (4096)),
    .lexLine 9 (b! "\t\tROL\n") (some (1)),
    .parseLine (some (1)),
    .findOperand,
    .parseOperand none,
    .parseAddrMode none (some (4096)),
    .lexLine 10 (b! "\t\tROR\n") (some (1)),
    .parseLine (some (1)),
    .findOperand,
    .parseOperand none,
    .parseAddrMode none (some (4096)),
    .lexLine 11 (b! "\t\tORA\t$AA\n") (some (1)),
    .parseLine (some (1)),
    .findOperand,
    .parseOperand none,
    .parseAddrMode none (some (4)),
    .lexLine 12 (b! "\t\tASL\tCONSTANT8\n") (some (1)),
    .parseLine (some (1)),
    .findOperand,
    .parseOperand none,
    .parseAddrMode none (some (4)),
    .lexLine 13 (b! "\t\tLDA\t$1234\n") (some (1)),
    .parseLine (some (1)),
    .findOperand,
    .parseOperand none,
    .parseAddrMode none (some (256)),
    .lexLine 14 (b! "\t\tCPY\tADDRESS\n") (some (1)),
    .parseLine (some (1)),
    .findOperand,
    .parseOperand none,
    .parseAddrMode none (some (256)),
    .lexLine 15 (b! "\t\tSBC\t$BB,X\n") (some (1)),
    .parseLine (some (1)),
    .findOperand,
    .parseOperand none,
    .parseAddrMode none (some (2)),
    .lexLine 16 (b! "\t\tROR\tCONSTANT8,X\n") (some (1)),
    .parseLine (some (1)),
    .findOperand,
    .parseOperand none,
    .parseAddrMode none (some (2)),
    .lexLine 17 (b! "\t\tINC\t$1000,X\n") (some (1)),
    .parseLine (some (1)),
    .findOperand,
    .parseOperand none,
    .parseAddrMode none (some (128)),
    .lexLine 18 (b! "\t\tCMP\tCONSTANT16,X\n") (some (1)),
    .parseLine (some (1)),
    .findOperand,
    .parseOperand none,
    .parseAddrMode none (some (128)),
    .lexLine 19 (b! "\t\tSTX\t$CC,Y\n") (some (1)),
    .parseLine (some (1)),
    .findOperand,
    .parseOperand none,
    .parseAddrMode none (some (1)),
    .lexLine 20 (b! "\t\tLDX\tCONSTANT8,Y\n") (some (1)),
    .parseLine (some (1)),
    .findOperand,
    .parseOperand none,
    .parseAddrMode none (some (1)),
    .lexLine 21 (b! "\t\tSTA\t$DEAD,Y\n") (some (1)),
    .parseLine (some (1)),
    .findOperand,
    .parseOperand none,
    .parseAddrMode none (some (64)),
    .lexLine 22 (b! "\t\tAND\tADDRESS,Y\n") (some (1)),
    .parseLine (some (1)),
    .findOperand,
    .parseOperand none,
    .parseAddrMode none (some (64)),
    .lexLine 23 (b! "\t\tJMP\t($FACE)\n") (some (1)),
    .parseLine (some (1)),
    .findOperand,
    .parseOperand none,
    .parseAddrMode none (some (32)),
    .lexLine 24 (b! "\t\tJMP\t(ADDRESS)\n") (some (1)),
    .parseLine (some (1)),
    .findOperand,
    .parseOperand none,
    .parseAddrMode none (some (32)),
    .lexLine 25 (b! "\t\tEOR\t#$DD\n") (some (1)),
    .parseLine (some (1)),
    .findOperand,
    .parseOperand none,
    .parseAddrMode none (some (1024)),
    .lexLine 26 (b! "\t\tLDY\t#CONSTANT8\n") (some (1)),
    .parseLine (some (1)),
    .findOperand,
    .parseOperand none,
    .parseAddrMode none (some (1024)),
    .lexLine 27 (b! "\t\tADC\t($EE,X)\n") (some (1)),
    .parseLine (some (1)),
    .findOperand,
    .parseOperand none,
    .parseAddrMode none (some (16)),
    .lexLine 28 (b! "\t\tLDA\t(CONSTANT8,X)\n") (some (1)),
    .parseLine (some (1)),
    .findOperand,
    .parseOperand none,
    .parseAddrMode none (some (16)),
    .lexLine 29 (b! "\t\tSTA\t($FF),Y\n") (some (1)),
    .parseLine (some (1)),
    .findOperand,
    .parseOperand none,
    .parseAddrMode none (some (8)),
    .lexLine 30 (b! "\t\tSBC\t(CONSTANT8),Y\n") (some (1)),
    .parseLine (some (1)),
    .findOperand,
    .parseOperand none,
    .parseAddrMode none (some (8)),
    .lexLine 31 (b! "\t\tBMI\tLABEL1\n") (some (1)),
    .parseLine (some (1)),
    .findOperand,
    .parseOperand none,
    .parseAddrMode none (some (512)),
    .lexLine 32 (b! "\t\tBVS\tL1\n") (some (1)),
    .parseLine (some (1)),
    .findOperand,
    .parseOperand none,
    .parseAddrMode none (some (65535)),
    .lexLine 33 (b! "\t\tJMP\tLABEL1\n") (some (1)),
    .parseLine (some (1)),
    .findOperand,
    .parseOperand none,
    .parseAddrMode none (some (256)),
    .lexLine 34 (b! "\t\tJSR\tL3\n") (some (1)),
    .parseLine (some (1)),
    .findOperand,
    .parseOperand none,
    .parseAddrMode none (some (65535)),
    .lexLine 35 (b! "LABEL2\t\tBCC\tLABEL1\n") (some (1)),
    .parseLine (some (1)),
    .declare (some 0) (some (1)),
    .findOperand,
    .parseOperand none,
    .parseAddrMode none (some (512)),
    .lexLine 36 (b! "FORREF1\t\tBVC\tL19\n") (some (1)),
    .parseLine (some (1)),
    .declare (some 0) (some (1)),
    .findOperand,
    .parseOperand none,
    .parseAddrMode none (some (65535)),
    .lexLine 37 (b! "LABEL3\t\tJSR\tLABEL2\n") (some (1)),
    .parseLine (some (1)),
    .declare (some 0) (some (1)),
    .findOperand,
    .parseOperand none,
    .parseAddrMode none (some (256)),
    .lexLine 38 (b! "FORREF2\t\tJMP\tL21\n") (some (1)),
    .parseLine (some (1)),
    .declare (some 0) (some (1)),
    .findOperand,
    .parseOperand none,
    .parseAddrMode none (some (65535)),
    .lexLine 39 (b! "\t\tJMP\t(WHERE)\n") (some (1)),
    .parseLine (some (1)),
    .findOperand,
    .parseOperand none,
    .parseAddrMode none (some (65535)),
    .lexLine 40 (b! "FORREF3\t\tJMP\t(THERE)\n") (some (1)),
    .parseLine (some (1)),
    .declare (some 0) (some (1)),
    .findOperand,
    .parseOperand none,
    .parseAddrMode none (some (65535)),
    .lexLine 41 (b! "BCC (ADDRESS)\n") (some (1)),
    .parseLine (some (1)),
    .findOperand,
    .parseOperand none,
    .parseAddrMode none (some (-13)),
    .lexLine 42 (b! "BCS (CONSTANT8,X)\n") (some (1)),
    .parseLine (some (1)),
    .findOperand,
    .parseOperand none,
    .parseAddrMode none (some (-13)),
    .lexLine 43 (b! "BVS (CONSTANT16),Y\n") (some (1)),
    .parseLine (some (1)),
    .findOperand,
    .parseOperand none,
    .parseAddrMode none (some (-13)),
    .lexLine 44 (b! "BNE A\n") (some (1)),
    .parseLine (some (1)),
    .findOperand,
    .parseOperand none,
    .parseAddrMode none (some (-13)),
    .lexLine 45 (b! "ROL\t#000\n") (some (1)),
    .parseLine (some (1)),
    .findOperand,
    .parseOperand none,
    .parseAddrMode none (some (-13)),
    .lexLine 46 (b! "NOP #CONSTANT16\n") (some (1)),
    .parseLine (some (1)),
    .findOperand,
    .parseOperand none,
    .parseAddrMode none (some (-13)),
    .lexLine 47 (b! "\tJMP    (LABEL1),Y\n") (some (1)),
    .parseLine (some (1)),
    .findOperand,
    .parseOperand none,
    .parseAddrMode none (some (-13)),
    .lexLine 48 (b! "\t\tJSR\t(ADDRESS,X)\n") (some (1)),
    .parseLine (some (1)),
    .findOperand,
    .parseOperand none,
    .parseAddrMode none (some (-13)),
    .lexLine 49 (b! "JSR (ADDRESS)\n") (some (1)),
    .parseLine (some (1)),
    .findOperand,
    .parseOperand none,
    .parseAddrMode none (some (-13)),
    .lexLine 50 (b! "\t\tSTA\t;lol\n") (some (1)),
    .parseLine (some (1)),
    .findOperand,
    .parseOperand none,
    .parseAddrMode none (some (-13)),
    .lexLine 51 (b! "\tLDY\t($AB),Y\n") (some (1)),
    .parseLine (some (1)),
    .findOperand,
    .parseOperand none,
    .parseAddrMode none (some (-13))] = true := by decide +kernel

/-! tests/forward_reference/test_forward_reference.c -/

/- test_init_destroy_unresolved: 2 assertions -/
example : passes [
    .update fun t => { t with un := Codes.initUnresolved },
    .check fun t => t.un.curr == 0,
    .check fun t => t.un.refs.length == 8] = true := by decide +kernel

/- test_create_forward_ref: 28 assertions -/
example : passes [
    .update fun t => { t with lx := initLexer (b! "test_create_forward_ref.asm") },
    .update fun t => { t with r := ⟨initToken, none⟩ },
    .update fun t => { t with instr := initInstruction },
    .update fun t => { t with tab := initSymbolTable },
    .lexLine 1 (b! "\t\tJMP\tL21\t; comment\n") (some (1)),
    .parseLine (some (1)),
    .setPc 0,
    .findOperand,
    .parseOperand none,
    .check fun t => t.status == 5,
    .parseAddrMode none (some (65535)),
    .check fun t => t.instr.addrBitflag == 256,
    .createRef 1 (b! "\t\tJMP\tL21\t; comment\n"),
    .check fun t => (t.ref.getD default).label == (b! "L21"),
    .check fun t => (t.ref.getD default).sourceLine == (b! "\t\tJMP\tL21\t; comment"),
    .check fun t => (t.ref.getD default).instr.mnemonic == some .JMP,
    .check fun t => (t.ref.getD default).instr.addrBitfield == 288,
    .check fun t => (t.ref.getD default).instr.addrBitflag == 256,
    .check fun t => (t.ref.getD default).pc == 0,
    .check fun t => (t.ref.getD default).lineNum == 1,
    .check fun t => (t.ref.getD default).operandStatus == 5,
    .check fun t => (t.ref.getD default).operandLocation == 6,
    .lexLine 2 (b! "             BNE LABEL1 \t\t\n") (some (1)),
    .parseLine (some (1)),
    .setPc 3,
    .findOperand,
    .parseOperand none,
    .check fun t => t.status == 4,
    .parseAddrMode none (some (65535)),
    .check fun t => t.instr.addrBitflag == 512,
    .createRef 2 (b! "             BNE LABEL1 \t\t\n"),
    .check fun t => (t.ref.getD default).label == (b! "LABEL1"),
    .check fun t => (t.ref.getD default).sourceLine == (b! "             BNE LABEL1"),
    .check fun t => (t.ref.getD default).instr.mnemonic == some .BNE,
    .check fun t => (t.ref.getD default).instr.addrBitfield == 512,
    .check fun t => (t.ref.getD default).instr.addrBitflag == 512,
    .check fun t => (t.ref.getD default).pc == 3,
    .check fun t => (t.ref.getD default).lineNum == 2,
    .check fun t => (t.ref.getD default).operandStatus == 4,
    .check fun t => (t.ref.getD default).operandLocation == 17] = true := by decide +kernel

/- test_add_forward_ref: 22 assertions -/
example : passes [
    .update fun t => { t with lx := initLexer (b! "test_add_forward_ref.asm") },
    .update fun t => { t with r := ⟨initToken, none⟩ },
    .update fun t => { t with instr := initInstruction },
    .update fun t => { t with tab := initSymbolTable },
    .update fun t => { t with un := Codes.initUnresolved },
    .lexLine 1 (b! "\t\tJSR\tFORREF\n") (some (1)),
    .parseLine (some (1)),
    .setPc 0,
    .findOperand,
    .parseOperand none,
    .parseAddrMode none none,
    .createRef 1 (b! "\t\tJSR\tFORREF\n"),
    .addRef (some (1)),
    .update fun t => { t with ref := (t.un.refs[0]?).join },
    .check fun t => (t.ref.getD default).label == (b! "FORREF"),
    .check fun t => (t.ref.getD default).sourceLine == (b! "\t\tJSR\tFORREF"),
    .check fun t => (t.ref.getD default).instr.mnemonic == some .JSR,
    .check fun t => (t.ref.getD default).instr.addrBitflag == 256,
    .check fun t => (t.ref.getD default).pc == 0,
    .check fun t => (t.ref.getD default).lineNum == 1,
    .check fun t => (t.ref.getD default).operandStatus == 5,
    .check fun t => (t.ref.getD default).operandLocation == 6,
    .lexLine 2 (b! "             BMI        FORREF2\n") (some (1)),
    .parseLine (some (1)),
    .setPc 3,
    .findOperand,
    .parseOperand none,
    .parseAddrMode none none,
    .createRef 2 (b! "             BMI        FORREF2\n"),
    .addRef (some (1)),
    .update fun t => { t with ref := (t.un.refs[1]?).join },
    .check fun t => (t.ref.getD default).label == (b! "FORREF2"),
    .check fun t => (t.ref.getD default).sourceLine == (b! "             BMI        FORREF2"),
    .check fun t => (t.ref.getD default).instr.mnemonic == some .BMI,
    .check fun t => (t.ref.getD default).instr.addrBitflag == 512,
    .check fun t => (t.ref.getD default).pc == 3,
    .check fun t => (t.ref.getD default).lineNum == 2,
    .check fun t => (t.ref.getD default).operandStatus == 4,
    .check fun t => (t.ref.getD default).operandLocation == 24] = true := by decide +kernel

/- test_resize_unresolved: 14 assertions -/
example : passes [
    .update fun t => { t with lx := initLexer (b! "test_resize_unresolved.asm") },
    .update fun t => { t with r := ⟨initToken, none⟩ },
    .update fun t => { t with instr := initInstruction },
    .update fun t => { t with tab := initSymbolTable },
    .update fun t => { t with un := Codes.initUnresolved },
    .lexLine 1 (b! "\t\tJMP\t(FORREF)\t;hi\n") (some (1)),
    .parseLine (some (1)),
    .setPc 0,
    .findOperand,
    .parseOperand none,
    .parseAddrMode none none,
    .createRef 1 (b! "\t\tJMP\t(FORREF)\t;hi\n"),
    .addRef (some (1)),
    .createRef 1 (b! "\t\tJMP\t(FORREF)\t;hi\n"),
    .addRef (some (1)),
    .createRef 1 (b! "\t\tJMP\t(FORREF)\t;hi\n"),
    .addRef (some (1)),
    .createRef 1 (b! "\t\tJMP\t(FORREF)\t;hi\n"),
    .addRef (some (1)),
    .createRef 1 (b! "\t\tJMP\t(FORREF)\t;hi\n"),
    .addRef (some (1)),
    .createRef 1 (b! "\t\tJMP\t(FORREF)\t;hi\n"),
    .addRef (some (1)),
    .createRef 1 (b! "\t\tJMP\t(FORREF)\t;hi\n"),
    .addRef (some (1)),
    .check fun t => t.un.refs.length == 8,
    .check fun t => t.un.curr == 7,
    .createRef 1 (b! "\t\tJMP\t(FORREF)\t;hi\n"),
    .addRef (some (1)),
    .check fun t => t.un.refs.length == 16,
    .check fun t => t.un.curr == 8] = true := by decide +kernel

/-! tests/error/test_error.c -/

/- test_print_error: 27 assertions -/
example : passes [
    .update fun t => { t with lx := initLexer (b! "test_print_error.asm") },
    .update fun t => { t with r := ⟨initToken, none⟩ },
    .update fun t => { t with instr := initInstruction },
    .update fun t => { t with tab := initSymbolTable },
    .lexLine 1 (b! "\tLDA\t$800!!!!!!SDJGHJSDHFSDKVNSFULM\n") (some (-3)),
    .lexLine 2 (b! "LDX\t%10021010\n") (some (-3)),
    .lexLine 3 (b! "TEST = $FFFF0001\n") (some (-4)),
    .lexLine 4 (b! "\t\tJMP\ta2345678b2345678c2345678d2345678e2345678f2345678g2345678h2345678\n") (some (-7)),
    .lexLine 5 (b! "LABEL:\t\tADC\t((PLACE,X),Y)\t;lolwtf\n") (some (-8)),
    .parseLine (some (-10)),
    .lexLine 7 (b! "INC     (LOL,),\n") (some (1)),
    .parseLine (some (-10)),
    .lexLine 8 (b! "SYMBOL = $1234\n") (some (1)),
    .parseLine (some (1)),
    .declare (some 0) (some (1)),
    .lexLine 8 (b! "SYMBOL = $0\n") (some (1)),
    .parseLine (some (1)),
    .declare (some 0) (some (-11)),
    .lexLine 9 (b! "\t\tLOOP:\tADC\t$01\n") (some (1)),
    .parseLine (some (1)),
    .declare (some 0) (some (1)),
    .lexLine 9 (b! "\t\tLOOP:\tJMP\tBYE\n") (some (1)),
    .parseLine (some (1)),
    .declare (some 2) (some (-11)),
    .lexLine 10 (b! "\t\tCPY\tADDRESS\n") (some (1)),
    .parseLine (some (1)),
    .findOperand,
    .parseOperand (some (-12)),
    .lexLine 11 (b! "SBC ($ABCD)\n") (some (1)),
    .parseLine (some (1)),
    .findOperand,
    .parseOperand (some (1)),
    .findOperand,
    .parseAddrMode (some 1) none,
    .check fun t => t.instr.addrBitflag == 0] = true := by decide +kernel

/-! tests/generator/test_generator.c -/

/- test_generate_code: 14 assertions -/
example : passes [
    .update fun t => { t with lx := initLexer (b! "test_generate_code.asm") },
    .update fun t => { t with r := ⟨initToken, none⟩ },
    .update fun t => { t with instr := initInstruction },
    .update fun t => { t with f := .empty },
    .setPc 0,
    .lexLine 1 (b! "INX\n") none,
    .parseLine none,
    .findOperand,
    .parseOperand none,
    .parseAddrMode none none,
    .generate none,
    .check fun t => t.written == 1,
    .advance,
    .lexLine 2 (b! "ROL A\n") none,
    .parseLine none,
    .findOperand,
    .parseOperand none,
    .parseAddrMode none none,
    .generate none,
    .check fun t => t.written == 1,
    .advance,
    .lexLine 3 (b! "ORA $AA\n") none,
    .parseLine none,
    .findOperand,
    .parseOperand none,
    .parseAddrMode none none,
    .generate none,
    .check fun t => t.written == 2,
    .advance,
    .lexLine 4 (b! "LDA $1234\n") none,
    .parseLine none,
    .findOperand,
    .parseOperand none,
    .parseAddrMode none none,
    .generate none,
    .check fun t => t.written == 3,
    .advance,
    .lexLine 5 (b! "SBC $BB,X\n") none,
    .parseLine none,
    .findOperand,
    .parseOperand none,
    .parseAddrMode none none,
    .generate none,
    .check fun t => t.written == 2,
    .advance,
    .lexLine 6 (b! "INC $1000,X\n") none,
    .parseLine none,
    .findOperand,
    .parseOperand none,
    .parseAddrMode none none,
    .generate none,
    .check fun t => t.written == 3,
    .advance,
    .lexLine 7 (b! "STX $CC, Y\n") none,
    .parseLine none,
    .findOperand,
    .parseOperand none,
    .parseAddrMode none none,
    .generate none,
    .check fun t => t.written == 2,
    .advance,
    .lexLine 8 (b! "STA $DEAD,Y\n") none,
    .parseLine none,
    .findOperand,
    .parseOperand none,
    .parseAddrMode none none,
    .generate none,
    .check fun t => t.written == 3,
    .advance,
    .lexLine 9 (b! "JMP ($FACE)\n") none,
    .parseLine none,
    .findOperand,
    .parseOperand none,
    .parseAddrMode none none,
    .generate none,
    .check fun t => t.written == 3,
    .advance,
    .lexLine 10 (b! "EOR #$DD\n") none,
    .parseLine none,
    .findOperand,
    .parseOperand none,
    .parseAddrMode none none,
    .generate none,
    .check fun t => t.written == 2,
    .advance,
    .lexLine 11 (b! "ADC ($EE,X)\n") none,
    .parseLine none,
    .findOperand,
    .parseOperand none,
    .parseAddrMode none none,
    .generate none,
    .check fun t => t.written == 2,
    .advance,
    .lexLine 12 (b! "CMP ($FF),Y\n") none,
    .parseLine none,
    .findOperand,
    .parseOperand none,
    .parseAddrMode none none,
    .generate none,
    .check fun t => t.written == 2,
    .advance,
    .lexLine 13 (b! "ASL\n") none,
    .parseLine none,
    .findOperand,
    .parseOperand none,
    .parseAddrMode none none,
    .generate none,
    .check fun t => t.written == 1,
    .advance,
    .check fun t => (t.f.bytes.drop 0).take 24 == [232, 42, 5, 170, 173, 52, 18, 245, 187, 254, 0, 16, 150, 204, 153, 173, 222, 108, 206, 250, 73, 221, 97, 238]] = true := by decide +kernel

/- test_resolve_label_ref: 13 assertions -/
example : passes [
    .update fun t => { t with lx := initLexer (b! "test_resolve_label_ref.asm") },
    .update fun t => { t with r := ⟨initToken, none⟩ },
    .update fun t => { t with instr := initInstruction },
    .update fun t => { t with tab := initSymbolTable },
    .update fun t => { t with f := .empty },
    .setPc 4096,
    .lexLine 1 (b! "ADDRESS .EQU $1234\n") none,
    .parseLine none,
    .declare none none,
    .check fun t => t.instr.mnemonic == none,
    .search (b! "ADDRESS") (some (4660)),
    .lexLine 3 (b! "LABEL1: INX\n") none,
    .parseLine none,
    .declare none none,
    .findOperand,
    .parseOperand none,
    .parseAddrMode none none,
    .generate none,
    .check fun t => t.written == 1,
    .advance,
    .lexLine 4 (b! "BNE LABEL1\n") none,
    .parseLine none,
    .findOperand,
    .parseOperand none,
    .parseAddrMode none none,
    .check fun t => (t.operand.getD initToken).value == 4096,
    .resolveLabel none,
    .check fun t => t.written == 2,
    .advance,
    .lexLine 5 (b! "JMP LABEL1\n") none,
    .parseLine none,
    .findOperand,
    .parseOperand none,
    .parseAddrMode none none,
    .resolveLabel none,
    .check fun t => t.written == 3,
    .advance,
    .lexLine 6 (b! "SAME1: BEQ SAME1\n") none,
    .parseLine none,
    .declare none none,
    .findOperand,
    .parseOperand none,
    .parseAddrMode none none,
    .resolveLabel none,
    .check fun t => t.written == 2,
    .advance,
    .lexLine 7 (b! "SAME2: JMP SAME2\n") none,
    .parseLine none,
    .declare none none,
    .findOperand,
    .parseOperand none,
    .parseAddrMode none none,
    .resolveLabel none,
    .check fun t => t.written == 3,
    .advance,
    .lexLine 8 (b! "LABEL2: BPL SAME1\n") none,
    .parseLine none,
    .declare none none,
    .findOperand,
    .parseOperand none,
    .parseAddrMode none none,
    .resolveLabel none,
    .check fun t => t.written == 2,
    .advance,
    .lexLine 9 (b! "JSR LABEL2\n") none,
    .parseLine none,
    .findOperand,
    .parseOperand none,
    .parseAddrMode none none,
    .resolveLabel none,
    .check fun t => t.written == 3,
    .advance,
    .lexLine 10 (b! "JMP (ADDRESS)\n") none,
    .parseLine none,
    .findOperand,
    .parseOperand none,
    .parseAddrMode none none,
    .resolveLabel none,
    .check fun t => t.written == 3,
    .advance,
    .check fun t => (t.f.bytes.drop 4096).take 19 == [232, 208, 253, 76, 0, 16, 240, 254, 76, 8, 16, 16, 249, 32, 11, 16, 108, 52, 18],
    .insert (b! "FARAWAY") 61440,
    .lexLine 11 (b! "\t\tBMI\tFARAWAY\n") none,
    .parseLine none,
    .findOperand,
    .parseOperand none,
    .parseAddrMode none none,
    .resolveLabel none,
    .check fun t => t.written == -15] = true := by decide +kernel

/- test_too_big_offset_no_forward_ref: 4 assertions -/
example : passes [
    .update fun t => { t with lx := initLexer (b! "test_too_big_offset_no_forward_ref.asm") },
    .update fun t => { t with r := ⟨initToken, none⟩ },
    .update fun t => { t with instr := initInstruction },
    .update fun t => { t with tab := initSymbolTable },
    .update fun t => { t with f := .empty },
    .setPc 0,
    .lexLine 1 (b! "BACK INX\n") none,
    .parseLine none,
    .declare none none,
    .findOperand,
    .parseOperand none,
    .parseAddrMode none none,
    .generate none,
    .check fun t => t.written == 1,
    .setPc 126,
    .lexLine 2 (b! "BCC BACK\n") none,
    .parseLine none,
    .findOperand,
    .parseOperand none,
    .parseAddrMode none none,
    .resolveLabel none,
    .check fun t => t.written == 2,
    .setPc 127,
    .lexLine 2 (b! "BCC\tBACK\n") none,
    .parseLine none,
    .findOperand,
    .parseOperand none,
    .parseAddrMode none none,
    .resolveLabel none,
    .check fun t => t.written == -15,
    .setPc 2748,
    .lexLine 2 (b! "                BCC     BACK\n") none,
    .parseLine none,
    .findOperand,
    .parseOperand none,
    .parseAddrMode none none,
    .resolveLabel none,
    .check fun t => t.written == -15] = true := by decide +kernel

/- test_resolve_forward_ref: 14 assertions -/
example : passes [
    .update fun t => { t with lx := initLexer (b! "test_resolve_forward_ref.asm") },
    .update fun t => { t with r := ⟨initToken, none⟩ },
    .update fun t => { t with instr := initInstruction },
    .update fun t => { t with tab := initSymbolTable },
    .update fun t => { t with un := Codes.initUnresolved },
    .update fun t => { t with f := .empty },
    .setPc 0,
    .lexLine 1 (b! "BVS L1\n") none,
    .parseLine none,
    .findOperand,
    .parseOperand none,
    .parseAddrMode none (some (65535)),
    .update fun t => { t with f := t.f.fputc 0 },
    .update fun t => { t with f := t.f.fputc 0 },
    .createRef 2 (b! "BVS L1\n"),
    .addRef (some (1)),
    .addPc 2,
    .lexLine 2 (b! "JMP L2\n") none,
    .parseLine none,
    .findOperand,
    .parseOperand none,
    .parseAddrMode none (some (65535)),
    .update fun t => { t with f := t.f.fputc 0 },
    .update fun t => { t with f := t.f.fputc 0 },
    .update fun t => { t with f := t.f.fputc 0 },
    .createRef 3 (b! "JMP L2\n"),
    .addRef (some (1)),
    .addPc 3,
    .lexLine 3 (b! "JSR L3\n") none,
    .parseLine none,
    .findOperand,
    .parseOperand none,
    .parseAddrMode none (some (65535)),
    .update fun t => { t with f := t.f.fputc 0 },
    .update fun t => { t with f := t.f.fputc 0 },
    .update fun t => { t with f := t.f.fputc 0 },
    .createRef 4 (b! "JSR L3\n"),
    .addRef (some (1)),
    .addPc 3,
    .lexLine 4 (b! "JMP (WHERE)\n") none,
    .parseLine none,
    .findOperand,
    .parseOperand none,
    .parseAddrMode none (some (65535)),
    .update fun t => { t with f := t.f.fputc 0 },
    .update fun t => { t with f := t.f.fputc 0 },
    .update fun t => { t with f := t.f.fputc 0 },
    .createRef 5 (b! "JMP (WHERE)\n"),
    .addRef (some (1)),
    .check fun t => t.un.curr == 4,
    .addPc 3,
    .lexLine 5 (b! "L1 INX\n") none,
    .parseLine none,
    .declare none none,
    .findOperand,
    .parseOperand none,
    .parseAddrMode none none,
    .generate none,
    .check fun t => t.written == 1,
    .advance,
    .lexLine 6 (b! "L2 INY\n") none,
    .parseLine none,
    .declare none none,
    .findOperand,
    .parseOperand none,
    .parseAddrMode none none,
    .generate none,
    .check fun t => t.written == 1,
    .advance,
    .lexLine 7 (b! "L3 DEX\n") none,
    .parseLine none,
    .declare none none,
    .findOperand,
    .parseOperand none,
    .parseAddrMode none none,
    .generate none,
    .check fun t => t.written == 1,
    .advance,
    .lexLine 8 (b! "WHERE = $ABCD\n") none,
    .parseLine none,
    .declare none none,
    .check fun t => t.instr.mnemonic == none,
    .update fun t => { t with ref := (t.un.refs[0]?).join },
    .update fun t => { t with ref := (t.un.refs[0]?).join },
    .searchRef,
    .resolveRef none,
    .update fun t => { t with ref := (t.un.refs[1]?).join },
    .searchRef,
    .resolveRef none,
    .update fun t => { t with ref := (t.un.refs[2]?).join },
    .searchRef,
    .resolveRef none,
    .update fun t => { t with ref := (t.un.refs[3]?).join },
    .searchRef,
    .resolveRef none,
    .check fun t => (t.f.bytes.drop 0).take 14 == [112, 9, 76, 12, 0, 32, 13, 0, 108, 205, 171, 232, 200, 202]] = true := by decide +kernel

/- test_too_big_offset_with_forward_ref: 14 assertions -/
example : passes [
    .update fun t => { t with lx := initLexer (b! "test_too_big_offset_with_forward_ref.asm") },
    .update fun t => { t with r := ⟨initToken, none⟩ },
    .update fun t => { t with instr := initInstruction },
    .update fun t => { t with tab := initSymbolTable },
    .update fun t => { t with un := Codes.initUnresolved },
    .update fun t => { t with f := .empty },
    .setPc 0,
    .lexLine 1 (b! "BVC FARAWAY1\n") none,
    .parseLine none,
    .findOperand,
    .parseOperand none,
    .parseAddrMode none (some (65535)),
    .createRef 2 (b! "BVC FARAWAY1\n"),
    .addRef (some (1)),
    .update fun t => { t with f := t.f.fputc 0 },
    .update fun t => { t with f := t.f.fputc 0 },
    .setPc 129,
    .lexLine 2 (b! "FARAWAY1 INY\n") none,
    .parseLine none,
    .declare none none,
    .findOperand,
    .parseOperand none,
    .parseAddrMode none none,
    .generate none,
    .check fun t => t.written == 1,
    .update fun t => { t with ref := (t.un.refs[0]?).join },
    .searchRef,
    .resolveRef (some (2)),
    .lexLine 1 (b! "*=$0000") none,
    .parseLine none,
    .update fun t => { t with pc := (t.lx.seq[0]?.getD initToken).value },
    .check fun t => t.pc == 0,
    .lexLine 2 (b! "\t\tBCS\tFARAWAY2\n") none,
    .parseLine none,
    .findOperand,
    .parseOperand none,
    .parseAddrMode none (some (65535)),
    .createRef 3 (b! "\t\tBCS\tFARAWAY2\n"),
    .addRef (some (1)),
    .update fun t => { t with f := t.f.fputc 0 },
    .update fun t => { t with f := t.f.fputc 0 },
    .lexLine 3 (b! "*=$0082") none,
    .parseLine none,
    .update fun t => { t with pc := (t.lx.seq[0]?.getD initToken).value },
    .check fun t => t.pc == 130,
    .setPc 130,
    .lexLine 4 (b! "FARAWAY2 INY\n") none,
    .parseLine none,
    .declare none none,
    .findOperand,
    .parseOperand none,
    .parseAddrMode none none,
    .generate none,
    .check fun t => t.written == 1,
    .update fun t => { t with ref := (t.un.refs[1]?).join },
    .searchRef,
    .resolveRef (some (-15)),
    .setPc 0,
    .lexLine 1 (b! "BVS FARAWAY3\n") none,
    .parseLine none,
    .findOperand,
    .parseOperand none,
    .parseAddrMode none (some (65535)),
    .createRef 2 (b! "BVS FARAWAY3\n"),
    .addRef (some (1)),
    .update fun t => { t with f := t.f.fputc 0 },
    .update fun t => { t with f := t.f.fputc 0 },
    .setPc 4096,
    .lexLine 2 (b! "FARAWAY3 DEX\n") none,
    .parseLine none,
    .declare none none,
    .findOperand,
    .parseOperand none,
    .parseAddrMode none none,
    .generate none,
    .check fun t => t.written == 1,
    .update fun t => { t with ref := (t.un.refs[2]?).join },
    .searchRef,
    .resolveRef (some (-15))] = true := by decide +kernel

end Gaia.Conformance2

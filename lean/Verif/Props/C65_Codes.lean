import Verif.Proofs.Codes3
import Verif.Props.Example
import Verif.Props.C31_Exit

/-!
C65: the plain `int`s which gaia's functions return are never misread by their callers.

`Codes.gaia` is the program in which every function returns an `int`, as in C, and every caller applies the test the C code applies.
-/
namespace Gaia
open Spec

/-- A run of the program with plain `int` returns exits as the run of the main model does, in which successes and errors cannot be
mixed up: the same status, the same text on stdout, the same files. -/
theorem C65_same_run (srcName outName : Str) (w : World) (e : Exit) (h : gaia srcName outName w = .exited e) :
    Codes.gaia srcName outName w = .exited e := Codes.gaia_eq srcName outName w e h

/-- So it exits, with status 0 or 1, on every source that is not huge. -/
theorem C65_exits (srcName outName : Str) (w : World) (h : SmallSource w srcName) :
    ∃ e, Codes.gaia srcName outName w = .exited e ∧ gaia srcName outName w = .exited e ∧ (e.status = 0 ∨ e.status = 1) := by
  obtain ⟨st, text, w', h1, h2, _⟩ := C31_status w srcName outName h
  exact ⟨_, C65_same_run _ _ _ _ h1, h1, h2⟩

/-- Two different errors have different codes, and every code is negative (so `IS_ERROR` recognises it). -/
theorem C65_codes : Function.Injective Err.code ∧ ∀ e : Err, e.code < 0 := ⟨Codes.code_injective, Codes.code_neg⟩

/-! ### What each function can return, whatever it is given -/

/-- Every result of `y`, if it has one, satisfies `P`. -/
def Codes.Returns {ρ} (y : Codes.M ρ) (P : ρ → Prop) : Prop := ∀ o r o', y o = .ok (r, o') → P r

namespace Codes

theorem Returns.pure {ρ} {r : ρ} {P : ρ → Prop} (h : P r) : Returns (pure r) P := by
  intro o r' o' e; cases e; exact h

theorem Returns.throw {ρ} {u : UB} {P : ρ → Prop} : Returns (throw u : M ρ) P := by
  intro o r' o' e; cases e

theorem Returns.bind {ρ σ} {y : M ρ} {k : ρ → M σ} {Q : ρ → Prop} {P : σ → Prop} (hy : Returns y Q)
    (h : ∀ a, Q a → Returns (k a) P) : Returns (y >>= k) P := by
  intro o r' o' e
  have e' : (y o >>= fun p => k p.1 p.2) = .ok (r', o') := e
  cases hyo : y o with
  | error u => rw [hyo] at e'; cases e'
  | ok p => rw [hyo] at e'; exact h p.1 (hy o p.1 p.2 hyo) p.2 r' o' e'

theorem Returns.any {ρ} {y : M ρ} : Returns y fun _ => True := fun _ _ _ _ => trivial

theorem Returns.bind' {ρ σ} {y : M ρ} {k : ρ → M σ} {P : σ → Prop} (h : ∀ a, Returns (k a) P) : Returns (y >>= k) P :=
  Returns.bind Returns.any fun a _ => h a

theorem Returns.mono {ρ} {y : M ρ} {P Q : ρ → Prop} (h : Returns y P) (hq : ∀ r, P r → Q r) : Returns y Q :=
  fun o r o' e => hq r (h o r o' e)

end Codes
open Codes (Returns)

/-- The results of the syntax functions. -/
def Parsed (n : Int) : Prop := n = 1 ∨ n = -10 ∨ n = -20

section
open Codes

theorem syntaxError_returns {lx : Lexer} {i : Nat} {e : Int} (h : Parsed e) : Returns (Codes.syntaxError lx i e) Parsed := by
  unfold Codes.syntaxError
  exact Returns.bind' fun t => Returns.bind' fun _ => Returns.pure h

theorem syntaxError_returns2 {ρ} {lx : Lexer} {i : Nat} {e : Int} {b : ρ} (h : Parsed e) :
    Returns (Codes.syntaxError lx i e >>= fun n => pure (n, b)) fun r => Parsed r.1 :=
  Returns.bind (syntaxError_returns h) fun _ hn => Returns.pure hn

macro "walk" : tactic => `(tactic| (
  simp only [typeAt, bind_assoc, pure_bind]
  repeat' first
    | exact syntaxError_returns (by unfold Parsed; decide)
    | exact syntaxError_returns2 (by unfold Parsed; decide)
    | exact Returns.pure (.inl rfl)
    | exact Returns.throw
    | split
    | (refine Returns.bind' fun t => ?_)))

theorem indirect_returns (lx : Lexer) (i : Nat) : Returns (Codes.parseIndirectOperandTree lx i) Parsed := by
  unfold Codes.parseIndirectOperandTree; walk

theorem instrTree_returns (lx : Lexer) (i : Nat) : Returns (Codes.parseInstrTree lx i) Parsed := by
  unfold Codes.parseInstrTree; walk

theorem labelTree_returns (lx : Lexer) (i : Nat) : Returns (Codes.parseLabelTree lx i) Parsed := by
  unfold Codes.parseLabelTree; walk

theorem directiveTree_returns (lx : Lexer) (i : Nat) : Returns (Codes.parseDirectiveTree lx i) fun r => Parsed r.1 := by
  unfold Codes.parseDirectiveTree; walk

theorem baseTree_returns (lx : Lexer) (i : Nat) : Returns (Codes.parseBaseTree lx i) fun r => Parsed r.1 := by
  unfold Codes.parseBaseTree; walk
end

/-- `parse_line` returns 1, or ERROR_ILLEGAL_SEQUENCE or ERROR_ILLEGAL_BASE. -/
theorem C65_parse_line (lx : Lexer) : Returns (Codes.parseLine lx) fun r => r.1 = 1 ∨ r.1 = -10 ∨ r.1 = -20 := by
  show Returns (Codes.parseLine lx) fun r => Parsed r.1
  unfold Codes.parseLine
  simp only [Codes.typeAt, bind_assoc, pure_bind]
  refine Codes.Returns.bind' fun t => ?_
  split
  · exact Codes.Returns.bind (instrTree_returns _ _) fun n h => .pure h
  refine Codes.Returns.bind' fun t => ?_
  split
  · exact Codes.Returns.bind (labelTree_returns _ _) fun n h => .pure h
  refine Codes.Returns.bind' fun t => ?_
  split
  · exact directiveTree_returns _ _
  refine Codes.Returns.bind' fun t => ?_
  split
  · exact baseTree_returns _ _
  refine Codes.Returns.bind' fun t => ?_
  split
  · exact .pure (.inl rfl)
  · exact syntaxError_returns2 (by unfold Parsed; decide)

/-- `calc_branch_offset` returns a byte, or ERROR_TOO_BIG_OFFSET. -/
theorem C65_offset (a b : Int) : Returns (Codes.calcBranchOffset a b) fun r => (0 ≤ r ∧ r ≤ 255) ∨ r = -15 := by
  unfold Codes.calcBranchOffset
  dsimp only
  have h : ∀ z : Int, (0 ≤ z % 256 ∧ z % 256 ≤ 255) ∨ z % 256 = -15 := fun z => by omega
  repeat' first | exact .throw | exact .pure (.inr rfl) | exact .pure (h _) | split

/-- `parse_operand` returns one of the five statuses, ERROR_ILLEGAL_FORWARD_REFERENCE, or ERROR_UNKNOWN. -/
theorem C65_operand (lx : Lexer) (instr : Instr) (op : Option Token) (t : SymTab) :
    Returns (Codes.parseOperand lx instr op t) fun r => (1 ≤ r.1 ∧ r.1 ≤ 5) ∨ r.1 = -12 ∨ r.1 = -9 := by
  have five : ∀ n : Int, (1 ≤ n ∧ n ≤ 5) → (1 ≤ n ∧ n ≤ 5) ∨ n = -12 ∨ n = -9 := fun n h => .inl h
  have hl : ∀ tk, Returns (Codes.parseLabelOperand lx instr tk t) fun r => (1 ≤ r.1 ∧ r.1 ≤ 5) ∨ r.1 = -12 ∨ r.1 = -9 := by
    intro tk
    unfold Codes.parseLabelOperand
    refine Codes.Returns.bind' fun v => ?_
    repeat' first
      | exact Codes.Returns.pure (r := (Codes.BRANCH_OPERAND, _)) (five Codes.BRANCH_OPERAND (by decide))
      | exact Codes.Returns.pure (r := (Codes.JUMP_OPERAND, _)) (five Codes.JUMP_OPERAND (by decide))
      | exact Codes.Returns.pure (r := (Codes.PARSER_SUCCESS, _)) (five Codes.PARSER_SUCCESS (by decide))
      | exact Codes.Returns.pure (r := (Codes.BRANCH_FORWARD_REFERENCE, _)) (five Codes.BRANCH_FORWARD_REFERENCE (by decide))
      | exact Codes.Returns.pure (r := (Codes.JUMP_FORWARD_REFERENCE, _)) (five Codes.JUMP_FORWARD_REFERENCE (by decide))
      | exact Codes.Returns.bind' fun _ => Codes.Returns.pure (.inr (.inl rfl))
      | split
  unfold Codes.parseOperand
  split
  · exact .pure (five Codes.PARSER_SUCCESS (by decide))
  · split
    · exact Codes.Returns.bind (hl _) fun a h => .pure h
    · split
      · exact .pure (five Codes.PARSER_SUCCESS (by decide))
      · exact Codes.Returns.bind' fun _ => Codes.Returns.pure (.inr (.inr rfl))

/-- `parse_addr_mode` returns a non-empty set of the 13 flags, FORWARD_REFERENCE, or ERROR_ILLEGAL_ADDRESSING_MODE; the second only
for the two forward reference statuses. -/
theorem C65_addr_mode (lx : Lexer) (instr : Instr) (op : Option Token) (status : Int) :
    Returns (Codes.parseAddrMode lx instr op status) fun r =>
      (1 ≤ r.1 ∧ r.1 ≤ 0x1FFF) ∨ (r.1 = 0xFFFF ∧ (status = 4 ∨ status = 5)) ∨ r.1 = -13 := by
  have key : ∀ (i : Instr), i.addrBitflag.toNat ≤ 0x1FFF → Returns
      (if i.addrBitflag = 0 then (do
        Codes.printError lx.line Err.illegalAddressingMode.code none lx.fileName lx.lineNum
        return (Err.illegalAddressingMode.code, i)) else return (i.addrBitflag.toInt, i)) fun r =>
      (1 ≤ r.1 ∧ r.1 ≤ 0x1FFF) ∨ (r.1 = 0xFFFF ∧ (status = 4 ∨ status = 5)) ∨ r.1 = -13 := by
    intro i hi
    split
    · exact Codes.Returns.bind' fun _ => Codes.Returns.pure (.inr (.inr rfl))
    · rename_i hne
      refine Codes.Returns.pure (.inl ?_)
      have e : i.addrBitflag.toInt = (i.addrBitflag.toNat : Int) := BitVec.toInt_eq_toNat_of_lt (by omega)
      have h0 : i.addrBitflag.toNat ≠ 0 := fun h => hne (BitVec.eq_of_toNat_eq h)
      dsimp only
      rw [e]
      omega
  unfold Codes.parseAddrMode
  split
  · rename_i hst
    have hst : status = 4 ∨ status = 5 := hst
    unfold Codes.parseForwardRefAddrMode
    dsimp only
    repeat' first
      | exact Codes.Returns.pure (.inr (.inl ⟨rfl, hst⟩))
      | exact Codes.Returns.bind' fun _ => Codes.Returns.pure (.inr (.inr rfl))
      | split
  · cases op with
    | none =>
      dsimp only
      let F : Flags :=
        if instr.mnemonic = some .ASL ∨ instr.mnemonic = some .LSR ∨ instr.mnemonic = some .ROL ∨ instr.mnemonic = some .ROR
        then instr.addrBitfield &&& ADDR_MODE_ACCUMULATOR else instr.addrBitfield &&& ADDR_MODE_IMPLIED
      refine key { instr with addrBitflag := F } ?_
      dsimp only [F]
      split <;> exact Nat.le_trans (Codes.and_le' _ _) (by decide)
    | some op =>
      dsimp only
      have hm : ∀ f : Flags, (applyMasks lx f &&& instr.addrBitfield).toNat ≤ 0x1FFF := fun f =>
        Nat.le_trans (Codes.and_le _ _) (Codes.applyMasks_le lx f)
      repeat' first | exact key { instr with addrBitflag := applyMasks lx _ &&& instr.addrBitfield } (hm _) | split

/-- `generate_code` returns 1, 2 or 3. -/
theorem C65_bytes (f : OutFile) (instr : Instr) (op : Option Token) (pc : Nat) :
    (Codes.generateCode f instr op pc).1 = 1 ∨ (Codes.generateCode f instr op pc).1 = 2 ∨
      (Codes.generateCode f instr op pc).1 = 3 := by
  unfold Codes.generateCode generateCode
  dsimp only
  repeat' first | exact .inl rfl | exact .inr (.inl rfl) | exact .inr (.inr rfl) | split

/-- The digit converters return the value of a digit of their base, or ERROR_ILLEGAL_CHAR. -/
theorem C65_digit (c : Byte) :
    ((0 ≤ Codes.hexDigitToInt c ∧ Codes.hexDigitToInt c < 16) ∨ Codes.hexDigitToInt c = -3) ∧
    ((0 ≤ Codes.binDigitToInt c ∧ Codes.binDigitToInt c < 2) ∨ Codes.binDigitToInt c = -3) ∧
    ((0 ≤ Codes.decDigitToInt c ∧ Codes.decDigitToInt c < 10) ∨ Codes.decDigitToInt c = -3) := by
  refine ⟨?_, ?_, ?_⟩
  · unfold Codes.hexDigitToInt
    repeat' split
    all_goals first | exact .inr rfl | omega
  · unfold Codes.binDigitToInt
    repeat' split
    all_goals first | exact .inr rfl | omega
  · unfold Codes.decDigitToInt
    repeat' split
    all_goals first | exact .inr rfl | omega

/-! ### Cases -/

/-- A run with a forward branch, a jump, a label and a constant, with the plain `int`s. -/
example : ∃ e, Codes.gaia (b! "p.asm") (b! "p.bin") (demo (b! "K =$10
L BNE M
 JMP L
M LDA K
")) = .exited e ∧ e.status = 0 ∧
    e.world.files (b! "p.bin") = some [0xD0, 3, 0x4C, 0, 0, 0xA5, 0x10] := by
  have h : Succeeds (demo (b! "K =$10
L BNE M
 JMP L
M LDA K
")) (b! "p.asm") (b! "p.bin")
    [0xD0, 3, 0x4C, 0, 0, 0xA5, 0x10] 7 3 := demo_succeeds (by decide +kernel)
  exact ⟨_, C65_same_run _ _ _ _ h, rfl, by simp⟩

end Gaia

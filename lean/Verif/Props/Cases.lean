import Verif.Props.C01_Literals
import Verif.Props.C48_Messages
import Verif.Props.C03_Names
import Verif.Props.C05_Layout
import Verif.Props.C06_Lexing
import Verif.Props.C10_Syntax
import Verif.Props.C12_Modes
import Verif.Props.C13_Opcodes
import Verif.Props.C15_Encoding
import Verif.Props.C17_SymbolTable
import Verif.Props.C19_NextPrime
import Verif.Props.C20_Labels
import Verif.Props.C23_Forward
import Verif.Props.C24_Unresolved
import Verif.Props.C26_TwoPass
import Verif.Props.C27_Undamaged
import Verif.Props.C29_AnyText
import Verif.Props.C30_End
import Verif.Props.C31_Exit
import Verif.Props.C33_Diagnostics
import Verif.Props.C41_WriteLog

/-!
Applications: each theorem of C01 to C34 that has hypotheses and is not applied to a concrete case in its own file is applied
to one here. All hypotheses are discharged for a concrete source, line or state, so none of these theorems is vacuous.
-/
namespace Gaia
open Spec
namespace Cases

/-- There are a reached state and a line accepted in it with a property, by evaluation. -/
theorem reach_line {fn : Str} {raws : List (List Byte)} {raw : List Byte} (P : St → St → Prop) [∀ s s', Decidable (P s s')]
    (hf : raws.length < maxSymbols)
    (h : (stepsEval raws (initSt fn)).any (fun st => match lineStep raw st with
      | .ok (.continue st') => decide (P st st') | _ => false) = true) :
    ∃ st st', Reached fn raws st ∧ lineStep raw st = .ok (.continue st') ∧ P st st' := by
  obtain ⟨st, h1, h2⟩ := reach_eval (fn := fn) (raws := raws) (fun st => (match lineStep raw st with
      | .ok (.continue st') => decide (P st st') | _ => false) = true) hf (by simpa using h)
  split at h2
  · rename_i st' hs
    exact ⟨st, st', h1, hs, by simpa using h2⟩
  · cases h2

/-- There are a reached state and a line refused in it with a property, by evaluation. -/
theorem reach_error {fn : Str} {raws : List (List Byte)} {raw : List Byte} (P : St → Abort → Prop) [∀ s s', Decidable (P s s')]
    (hf : raws.length < maxSymbols)
    (h : (stepsEval raws (initSt fn)).any (fun st => match lineStep raw st with
      | .err ab => decide (P st ab) | _ => false) = true) :
    ∃ st ab, Reached fn raws st ∧ lineStep raw st = .err ab ∧ P st ab := by
  obtain ⟨st, h1, h2⟩ := reach_eval (fn := fn) (raws := raws) (fun st => (match lineStep raw st with
      | .err ab => decide (P st ab) | _ => false) = true) hf (by simpa using h)
  split at h2
  · rename_i ab hs
    exact ⟨st, ab, h1, hs, by simpa using h2⟩
  · cases h2

def isOk {ε α : Type} : C ε α → Bool
  | .ok _ => true
  | _ => false

theorem ok_eval {ε α : Type} {x : C ε α} (h : isOk x = true) : ∃ r, x = .ok r := by
  cases x with
  | ok r => exact ⟨r, rfl⟩
  | err e => cases h
  | ub u => cases h

theorem not_ok_eval {ε α : Type} {x : C ε α} (h : isOk x = false) : ¬ ∃ r, x = .ok r := by
  rintro ⟨r, rfl⟩; cases h

/-- C02: `LDA #$` and then `,Y`. -/
example : FailsAt (demo (b! "L: NOP\n LDA #$,Y\n")) (b! "p.asm") (b! "p.bin") (b! "L: NOP\n LDA #$,Y\n") 2 .illegalChar (some 7) := by
  have hl : LineBegins (b! " LDA #$,Y") [(1, .mnem .LDA), (5, .hash)] 6 (b! "$" ++ b! ",Y") :=
    lineBegins_eval 2 (by decide +kernel)
  exact C02_no_digits (p := [.instr (some (b! "L")) .NOP .none]) (rest := []) (demo_setup _)
    ⟨by decide, by decide +kernel, ⟨[b! "L: NOP"], by decide +kernel, reads_eval (by decide +kernel)⟩, by decide, noForward_of (by decide)⟩
    (by decide +kernel) hl (by decide) .hex (by decide) (by decide)

/-- C04. -/
example := C04_output (demo_setup (b! "nop\nlda #$1f\n")) (demo_setup (b! "NOP\nlda #$1F\n")) (by decide) (recased_of _ _ (by decide +kernel))

/-- C05. -/
example := C05_crlf (demo_setup (b! "L: NOP\n JMP L\n")) (demo_setup (toCRLF (b! "L: NOP\n JMP L\n"))) (by decide +kernel) (by decide +kernel)
example := C05_final_newline (demo_setup (b! "L: NOP\n JMP L")) (demo_setup (b! "L: NOP\n JMP L" ++ [10])) (by decide +kernel) (by decide +kernel)
  (by decide) (by decide)
example : LineAlike Eq (b! "LDA" ++ (b! " " ++ b! "#$10")) (b! "LDA" ++ (b! "\t  " ++ b! "#$10")) :=
  C05_blanks _ _ _ _ (by decide +kernel) (by decide +kernel) (by decide +kernel) (by decide +kernel) (by decide +kernel)
example : LineAlike Eq (b! "LDA #$10" ++ b! " \t") (b! "LDA #$10") := C05_trailing _ _ (by decide +kernel) (by decide +kernel)

/-- C06: a line that is accepted, and one that is not. -/
example : ∃ ls, Cuts (b! "L: LDA ($10),Y ; c\n") ls ∧ ls.length ≤ 8 :=
  (C06_accepted (b! "L: LDA ($10),Y ; c\n") (initLexer (b! "p.asm")) {} {} 1 (by decide)).1 (ok_eval (by decide +kernel))
example : ¬ ∃ ls, Cuts (b! "L: LDA ?\n") ls ∧ ls.length ≤ 8 := by
  rw [← C06_accepted (b! "L: LDA ?\n") (initLexer (b! "p.asm")) {} {} 1 (by decide)]
  exact not_ok_eval (by decide +kernel)
example : (Cuts (b! "L: LDA ($10),Y ; c\n") [(0, .name (b! "L")), (3, .mnem .LDA), (7, .lpar), (8, .lit 16), (11, .rpar), (12, .comma), (13, .regY)] ∧ 7 ≤ 8) :=
  (C06_documented (hugeFree_of_runs (by decide +kernel)) _).2 ⟨lexes_eval (by decide +kernel) (by decide +kernel), by decide⟩

/-- C07, C10, C11: a line in the initial state. -/
example := C07_lexer_safe (b! "L: LDA ($10),Y ; c\n") (initLexer (b! "p.asm")) {} {} 1 (by decide)
example : ∃ lx tk instr, lexLine (b! "L: LDA ($10),Y ; c\n") (initLexer (b! "p.asm")) {} {} 1 = .ok (lx, tk, instr) ∧ lx.seq.length = 8 ∧
    ((∃ lx', parseLine lx = .ok lx') ↔ True) ∧ parseLine lx ≠ .ub .outOfBounds ∧
    ∀ lx', parseLine lx = .ok lx' → ∃ r, findOperand lx' = .ok r := by
  obtain ⟨⟨lx, tk, instr⟩, h⟩ := ok_eval (x := lexLine (b! "L: LDA ($10),Y ; c\n") (initLexer (b! "p.asm")) {} {} 1) (by decide +kernel)
  have hc : Cuts (b! "L: LDA ($10),Y ; c\n") [(0, .name (b! "L")), (3, .mnem .LDA), (7, .lpar), (8, .lit 16), (11, .rpar), (12, .comma), (13, .regY)] :=
    ((C06_documented (hugeFree_of_runs (by decide +kernel)) _).2 ⟨lexes_eval (by decide +kernel) (by decide +kernel), by decide⟩).1
  have h8 := (C07_slots (by decide) h).1
  refine ⟨lx, tk, instr, h, h8, ?_, C11_parse_in_bounds lx h8, (C11_operand_in_bounds (by decide) h).2⟩
  rw [C10_grammar_partial (by decide) h hc ?_]
  · exact iff_true_intro (by decide +kernel)
  · rintro ⟨m, args, h | ⟨l, h⟩, o, r, more, rfl, hh⟩ <;> simp at h

/-- C08: another line was read before. -/
example : ∃ lx tk instr, lexLine (b! "L: LDA ($10),Y\n") (initLexer (b! "p.asm")) {} {} 1 = .ok (lx, tk, instr) ∧ lx.curr = 7 ∧
    lineStep (b! " JMP ($1234)\n") { initSt (b! "p.asm") with lexer := lx, tk := tk, instr := instr } =
      lineStep (b! " JMP ($1234)\n") (initSt (b! "p.asm")) := by
  obtain ⟨⟨lx, tk, instr⟩, h⟩ := ok_eval (x := lexLine (b! "L: LDA ($10),Y\n") (initLexer (b! "p.asm")) {} {} 1) (by decide +kernel)
  have h8 := C07_slots (by decide) h
  refine ⟨lx, tk, instr, h, ?_, C08_line_independent _ _ _ _ _ (by decide) h8.1 h8.2⟩
  have : (match lexLine (b! "L: LDA ($10),Y\n") (initLexer (b! "p.asm")) {} {} 1 with
    | .ok r => decide (r.1.curr = 7) | _ => false) = true := by decide +kernel
  rw [h] at this
  simpa using this

/-- C09. -/
example := C09_words (t := b! "ldas") (r := b! ": NOP") ⟨108, b! "das", rfl, by decide +kernel, by decide +kernel⟩ (by decide) (.inr ⟨b! " NOP", rfl⟩) 0 {} {}

theorem kSta : Lexes (b! "K STA BIG,X\n") [(0, .name (b! "K")), (2, .mnem .STA), (6, .name (b! "BIG")), (9, .comma), (10, .regX)] :=
  lexes_eval (by decide +kernel) (by decide +kernel)

/-- C12, C15 and C21: `BIG` is $200; `K STA BIG,X` is accepted (absolute,X) and defines `K`. -/
example : ∃ st st', Reached (b! "p.asm") [b! " *=$200\n", b! "BIG: NOP\n"] st ∧ lineStep (b! "K STA BIG,X\n") st = .ok (.continue st') ∧
    ((∃ st', lineStep (b! "K STA BIG,X\n") st = .ok (.continue st')) ↔
      ∃ md op, wantedMode .STA (.idxX (.sym (b! "BIG"))) 0x200 = some md ∧ opcode? .STA md = some op) ∧
    (∃ md op, wantedMode .STA (.idxX (.sym (b! "BIG"))) 0x200 = some md ∧ opcode? .STA md = some op ∧
      st'.out.bytes[st.pc]? = some (UInt8.ofNat op) ∧ st'.pc = st.pc + md.bytes) ∧
    (symbol st (b! "K") = none ∧ symbol st' (b! "K") = some 0x201 ∧ ∀ y, y ≠ b! "K" → symbol st' y = symbol st y) ∧
    symbol st' (b! "BIG") = some 0x200 := by
  obtain ⟨st, st', h, hs, h1, h2, h3⟩ := reach_line (fn := b! "p.asm") (raws := [b! " *=$200\n", b! "BIG: NOP\n"])
    (raw := b! "K STA BIG,X\n") (fun st _ => symbol st (b! "BIG") = some 0x200 ∧ symbol st (b! "K") = none ∧ st.pc = 0x201)
    (by decide) (by decide +kernel)
  have hp : parse ([(0, Lexeme.name (b! "K")), (2, .mnem .STA), (6, .name (b! "BIG")), (9, .comma), (10, .regX)].map (·.2)) =
    some (.instr (some (b! "K")) .STA (.idxX (.sym (b! "BIG")))) := by decide +kernel
  have hlab : ∀ l, some (b! "K") = some l → symbol st l = none := by rintro l hl; cases hl; exact h2
  have hv : OperandValue st (some (b! "K")) (Arg.opd (.idxX (.sym (b! "BIG")))) 0x200 := by
    show visible st _ _ = _
    unfold visible; rw [if_neg (by decide)]; exact h1
  exact ⟨st, st', h, hs, C12_accepted_iff h kSta hp hlab hv (by rintro ⟨hb, _⟩; revert hb; decide), C12_mode h kSta hp hlab hv hs,
    C21_defined h kSta hp (x := b! "K") (v := 0x201) ⟨rfl, h3.symm⟩ hs, C20_value_kept h h1 hs (.inl rfl)⟩

/-- C12: there is no absolute,Y for STX. -/
example : ∃ st, Reached (b! "p.asm") [b! " *=$200\n", b! "BIG: NOP\n"] st ∧ lineStep (b! " STX BIG,Y\n") st =
    .err ⟨⟨.illegalAddressingMode, diag (cstr (b! " STX BIG,Y\n")) .illegalAddressingMode none (b! "p.asm") 3⟩, st.out⟩ := by
  obtain ⟨st, h, h1⟩ := reach_eval (fn := b! "p.asm") (raws := [b! " *=$200\n", b! "BIG: NOP\n"])
    (fun st => symbol st (b! "BIG") = some 0x200) (by decide) (by decide +kernel)
  have hv : OperandValue st none (Arg.opd (.idxY (.sym (b! "BIG")))) 0x200 := by
    show visible st _ _ = _
    unfold visible; rw [if_neg (by decide)]; exact h1
  refine ⟨st, h, C12_refused h (ls := [(1, .mnem .STX), (5, .name (b! "BIG")), (8, .comma), (9, .regY)])
    (lexes_eval (by decide +kernel) (by decide +kernel)) (lab := none) (m := .STX) (arg := .idxY (.sym (b! "BIG"))) (by decide +kernel)
    (by simp) hv ?_⟩
  intro md op hm
  have : wantedMode .STX (.idxY (.sym (b! "BIG"))) 0x200 = some .absY := by decide +kernel
  rw [this] at hm
  cases hm
  have : opcode? .STX .absY = none := by decide +kernel
  rw [this]; simp

/-- C14 and C27: the indexed jump of a known label is no opcode; a store is. -/
example : ∃ st st', Reached (b! "p.asm") [b! " *=$200\n", b! "BIG: NOP\n"] st ∧ lineStep (b! "K STA BIG,X\n") st = .ok (.continue st') ∧
    (∃ m md op, LastMnemonic [.name (b! "K"), .mnem .STA, .name (b! "BIG"), .comma, .regX] (some m) ∧ opcode? m md = some op ∧
      st'.out.bytes[st'.pc - (st'.total - st.total)]? = some (UInt8.ofNat op)) ∧
    (∀ i, i < 0x201 → fileByte st' i = fileByte st i) ∧ (∀ i, 0x204 ≤ i → fileByte st' i = fileByte st i) ∧
    st'.out.pos = st'.pc := by
  obtain ⟨st, st', h, hs, h1, h2, h3, h4, h5⟩ := reach_line (fn := b! "p.asm") (raws := [b! " *=$200\n", b! "BIG: NOP\n"])
    (raw := b! "K STA BIG,X\n") (fun st st' => st.total = 1 ∧ st'.total = 4 ∧ st'.unres.curr = st.unres.curr ∧ st'.pc = 0x204 ∧ st.pc = 0x201)
    (by decide) (by decide +kernel)
  refine ⟨st, st', h, hs, C14_documented_partial h hs (by omega) (ls := [(0, .name (b! "K")), (2, .mnem .STA), (6, .name (b! "BIG")), (9, .comma), (10, .regX)])
    ((C06_documented (hugeFree_of_runs (by decide +kernel)) _).2 ⟨kSta, by decide⟩).1 (fun hj => absurd hj (by decide +kernel)),
    fun i hi => C27_undamaged_partial h hs h3 i (.inr (.inl (by omega))), fun i hi => C27_undamaged_partial h hs h3 i (.inr (.inr (by omega))), ?_⟩
  rcases C27_position h hs with h | h
  · omega
  · exact h.2

/-- C27: a forward reference in sequence, and one after another origin. -/
example : ∃ st st', Reached (b! "p.asm") [b! " NOP\n"] st ∧ lineStep (b! " JMP FWD\n") st = .ok (.continue st') ∧
    (∀ i, i < 1 ∨ 4 ≤ i → fileByte st' i = fileByte st i) := by
  obtain ⟨st, st', h, hs, h1, h2, h3⟩ := reach_line (fn := b! "p.asm") (raws := [b! " NOP\n"])
    (raw := b! " JMP FWD\n") (fun st st' => st.out.pos = st.pc ∧ st.pc = 1 ∧ st'.pc = 4) (by decide) (by decide +kernel)
  refine ⟨st, st', h, hs, fun i hi => C27_undamaged_in_sequence h hs h1 ?_ i (by omega)⟩
  intro ls hl
  obtain rfl : [(1, Lexeme.mnem .JMP), (5, .name (b! "FWD"))] = ls := by
    have : lexemes (b! " JMP FWD\n") = .ok [(1, Lexeme.mnem .JMP), (5, .name (b! "FWD"))] := by decide +kernel
    rw [this] at hl; simpa using hl
  decide +kernel
example : ∃ st st', Reached (b! "p.asm") [b! " NOP\n", b! " INX\n", b! "*=$10\n"] st ∧ lineStep (b! " JMP FWD\n") st = .ok (.continue st') ∧
    (∀ i, i < 2 ∨ 5 ≤ i ∧ i < 16 ∨ 19 ≤ i → fileByte st' i = fileByte st i) := by
  obtain ⟨st, st', h, hs, h1, h2, h3, h4⟩ := reach_line (fn := b! "p.asm") (raws := [b! " NOP\n", b! " INX\n", b! "*=$10\n"])
    (raw := b! " JMP FWD\n") (fun st st' => st.out.pos = 2 ∧ st'.pc = 19 ∧ st.total = 2 ∧ st'.total = 5) (by decide) (by decide +kernel)
  exact ⟨st, st', h, hs, fun i hi => C27_forward_damage h hs i (by omega) (by omega)⟩

/-- C16: `LDA $34` at address 0 and `LDA K` at address $200, with `K` $34, leave the same bytes. -/
example : ∃ st₁ st₁' st₂ st₂', Reached (b! "p.asm") [] st₁ ∧ Reached (b! "q.asm") [b! "K =$34\n", b! "*=$200\n"] st₂ ∧
    lineStep (b! " LDA $34\n") st₁ = .ok (.continue st₁') ∧ lineStep (b! " LDA K\n") st₂ = .ok (.continue st₂') ∧
    (∀ i, st₁.pc + i < st₁'.pc → fileByte st₁' (st₁.pc + i) = fileByte st₂' (st₂.pc + i)) ∧ (Mnemonic.LDA = .LDA ∧ 0x34 = 0x34) := by
  obtain ⟨st₁, st₁', h₁, hs₁, a1, a2, a3, a4⟩ := reach_line (fn := b! "p.asm") (raws := []) (raw := b! " LDA $34\n")
    (fun st st' => st.pc = 0 ∧ st'.pc = 2 ∧ fileByte st' 0 = 0xA5 ∧ fileByte st' 1 = 0x34) (by decide) (by decide +kernel)
  obtain ⟨st₂, st₂', h₂, hs₂, b1, b2, b3, b4⟩ := reach_line (fn := b! "q.asm") (raws := [b! "K =$34\n", b! "*=$200\n"]) (raw := b! " LDA K\n")
    (fun st st' => st.pc = 0x200 ∧ symbol st (b! "K") = some 0x34 ∧ fileByte st' 0x200 = 0xA5 ∧ fileByte st' 0x201 = 0x34) (by decide) (by decide +kernel)
  have same : ∀ i, st₁.pc + i < st₁'.pc → fileByte st₁' (st₁.pc + i) = fileByte st₂' (st₂.pc + i) := by
    rw [a1, a2, b1]
    intro i hi
    have : i = 0 ∨ i = 1 := by omega
    rcases this with rfl | rfl
    · rw [b3, a3]
    · rw [b4, a4]
  have hv : OperandValue st₂ none (Arg.opd (.plain (.sym (b! "K")))) 0x34 := by
    show visible st₂ _ _ = _
    unfold visible; rw [if_neg (by decide)]; exact b2
  exact ⟨st₁, st₁', st₂, st₂', h₁, h₂, hs₁, hs₂, same,
    C16_bytes_determine_partial h₁ h₂ (ls₁ := [(1, .mnem .LDA), (5, .lit 0x34)]) (ls₂ := [(1, .mnem .LDA), (5, .name (b! "K"))])
      (lexes_eval (by decide +kernel) (by decide +kernel)) (lexes_eval (by decide +kernel) (by decide +kernel))
      (lab₁ := none) (lab₂ := none) (arg₁ := .plain (.lit 0x34)) (arg₂ := .plain (.sym (b! "K"))) (by decide +kernel) (by decide +kernel) (by simp) (by simp)
      (by exact rfl) hv (by decide) (by decide) (by decide) (by decide) hs₁ hs₂ same⟩
/-- C16: two branches with the same distance. -/
example : ∃ st₁ st₁' st₂ st₂', Reached (b! "p.asm") [] st₁ ∧ Reached (b! "q.asm") [b! "*=$200\n"] st₂ ∧
    lineStep (b! "L BNE L\n") st₁ = .ok (.continue st₁') ∧ lineStep (b! "K BNE K\n") st₂ = .ok (.continue st₂') ∧
    ((0 : Nat) : Int) - st₁.pc = (0x200 : Nat) - st₂.pc := by
  obtain ⟨st₁, st₁', h₁, hs₁, a1, a2, a3, a4, a5⟩ := reach_line (fn := b! "p.asm") (raws := []) (raw := b! "L BNE L\n")
    (fun st st' => st.pc = 0 ∧ st'.pc = 2 ∧ fileByte st' 0 = 0xD0 ∧ fileByte st' 1 = 0xFE ∧ symbol st (b! "L") = none) (by decide) (by decide +kernel)
  obtain ⟨st₂, st₂', h₂, hs₂, b1, b3, b4, b5⟩ := reach_line (fn := b! "q.asm") (raws := [b! "*=$200\n"]) (raw := b! "K BNE K\n")
    (fun st st' => st.pc = 0x200 ∧ fileByte st' 0x200 = 0xD0 ∧ fileByte st' 0x201 = 0xFE ∧ symbol st (b! "K") = none) (by decide) (by decide +kernel)
  have same : ∀ i, st₁.pc + i < st₁'.pc → fileByte st₁' (st₁.pc + i) = fileByte st₂' (st₂.pc + i) := by
    rw [a1, a2, b1]
    intro i hi
    have : i = 0 ∨ i = 1 := by omega
    rcases this with rfl | rfl
    · rw [b3, a3]
    · rw [b4, a4]
  exact ⟨st₁, st₁', st₂, st₂', h₁, h₂, hs₁, hs₂,
    (C16_branch_determine_partial h₁ h₂ (ls₁ := [(0, .name (b! "L")), (2, .mnem .BNE), (6, .name (b! "L"))])
      (ls₂ := [(0, .name (b! "K")), (2, .mnem .BNE), (6, .name (b! "K"))])
      (lexes_eval (by decide +kernel) (by decide +kernel)) (lexes_eval (by decide +kernel) (by decide +kernel))
      (lab₁ := some (b! "L")) (lab₂ := some (b! "K")) (m₁ := .BNE) (m₂ := .BNE) (arg₁ := .plain (.sym (b! "L"))) (arg₂ := .plain (.sym (b! "K")))
      (by decide +kernel) (by decide +kernel) (by rintro l h; cases h; exact a5) (by rintro l h; cases h; exact b5)
      (v₁ := 0) (v₂ := 0x200) (by show visible _ _ _ = _; unfold visible; rw [if_pos rfl, a1])
      (by show visible _ _ _ = _; unfold visible; rw [if_pos rfl, b1]) (by decide) hs₁ hs₂ same).2.2 _ _ rfl rfl⟩
/-- C16: the label at $10000. -/
example : ∃ st st', Reached (b! "p.asm") [b! "*=$FFFF\n", b! " NOP\n"] st ∧ lineStep (b! "L JMP L\n") st = .ok (.continue st') ∧
    operandIn st' 0x10000 3 = 0 := by
  obtain ⟨st, h, h1, h2⟩ := reach_eval (fn := b! "p.asm") (raws := [b! "*=$FFFF\n", b! " NOP\n"])
    (fun st => st.pc = 0x10000 ∧ symbol st (b! "L") = none) (by decide) (by decide +kernel)
  obtain ⟨st', h3, _, _, h4⟩ := C16_label_cut h h1 h2
  exact ⟨st, st', h, h3, h4⟩

/-- C17, C18. -/
example := C17_searchSymbol_value sampleHistory (by unfold DistinctLabels; decide +kernel) (by decide +kernel)
example := C18_probing_terminates sampleHistory (by unfold DistinctLabels; decide +kernel) (by decide +kernel)
/-- C19: at the first growth. -/
example : ∃ q, nextPrime 34 = .ok q ∧ Nat.Prime q ∧ 34 < q ∧ (∀ r, 34 < r → Nat.Prime r → q ≤ r) := C19_nextPrime_least 34 (by decide)
example : 37 ≤ 2 * 34 := C19_nextPrime_le 34 37 (by decide) (by decide) (by decide +kernel)

/-- C20: `L` is defined again in line 3. -/
example : FailsPrinting (demo (b! "L NOP\n RTS\nL INX\n")) (b! "p.asm") (b! "p.bin")
    (diag (cstr (b! "L INX\n")) .labelRedefinition (some 0) (b! "p.asm") 3) := by
  obtain ⟨st, h, h1, h2⟩ := reach_eval (fn := b! "p.asm") (raws := [b! "L NOP\n", b! " RTS\n"])
    (fun st => symbol st (b! "L") = some 0 ∧ st.pc = 2) (by decide) (by decide +kernel)
  exact C20_run_fails (demo_setup (b! "L NOP\n RTS\nL INX\n")) (rest := []) (raw := b! "L INX\n") (by decide +kernel) h
    (ls := [(0, .name (b! "L")), (2, .mnem .INX)]) (lexes_eval (by decide +kernel) (by decide +kernel))
    (s := .instr (some (b! "L")) .INX .none) (by decide +kernel) (x := b! "L") (v := 2) ⟨rfl, h2.symm⟩ h1

/-- C25: `LDA N` with `N` defined later. -/
example : FailsPrinting (demo (b! "L NOP\n LDA N\nN RTS\n")) (b! "p.asm") (b! "p.bin")
    (diag (cstr (b! " LDA N\n")) .illegalForwardReference (some 5) (b! "p.asm") 2) := by
  obtain ⟨st, h, h1⟩ := reach_eval (fn := b! "p.asm") (raws := [b! "L NOP\n"])
    (fun st => symbol st (b! "N") = none) (by decide) (by decide +kernel)
  exact C25_run_fails (demo_setup (b! "L NOP\n LDA N\nN RTS\n")) (rest := [b! "N RTS\n"]) (raw := b! " LDA N\n") (by decide +kernel) h
    (ls := [(1, .mnem .LDA), (5, .name (b! "N"))]) (lexes_eval (by decide +kernel) (by decide +kernel))
    (lab := none) (m := .LDA) (arg := .plain (.sym (b! "N"))) (by decide +kernel) (by simp) rfl
    (by unfold visible; rw [if_neg (by decide)]; exact h1) (by decide) (by decide)

/-- C22: a branch that is accepted, one byte too far for one that is not. -/
example : ∃ st, Reached (b! "p.asm") [b! "L NOP\n", b! "*=$7E\n"] st ∧ ∃ st', lineStep (b! " BNE L\n") st = .ok (.continue st') := by
  obtain ⟨st, h, h1, h2⟩ := reach_eval (fn := b! "p.asm") (raws := [b! "L NOP\n", b! "*=$7E\n"])
    (fun st => symbol st (b! "L") = some 0 ∧ st.pc = 0x7E) (by decide) (by decide +kernel)
  exact ⟨st, h, ((C22_branch h (ls := [(1, .mnem .BNE), (5, .name (b! "L"))]) (lexes_eval (by decide +kernel) (by decide +kernel))
    (lab := none) (m := .BNE) (l := b! "L") (by decide +kernel) (by simp) (by decide) (t := 0)
    (by unfold visible; rw [if_neg (by decide)]; exact h1)).1).2 (by omega)⟩
example : ∃ st, Reached (b! "p.asm") [b! "L NOP\n", b! "*=$7F\n"] st ∧ lineStep (b! " BNE L\n") st =
    .err ⟨⟨.tooBigOffset, diag (cstr (b! " BNE L\n")) .tooBigOffset (some 5) (b! "p.asm") 3⟩, st.out⟩ := by
  obtain ⟨st, h, h1, h2⟩ := reach_eval (fn := b! "p.asm") (raws := [b! "L NOP\n", b! "*=$7F\n"])
    (fun st => symbol st (b! "L") = some 0 ∧ st.pc = 0x7F) (by decide) (by decide +kernel)
  exact ⟨st, h, (C22_branch h (ls := [(1, .mnem .BNE), (5, .name (b! "L"))]) (lexes_eval (by decide +kernel) (by decide +kernel))
    (lab := none) (m := .BNE) (l := b! "L") (by decide +kernel) (by simp) (by decide) (t := 0)
    (by unfold visible; rw [if_neg (by decide)]; exact h1)).2.2 (by omega)⟩

/-- C23, C26 and C31: jumps forward and back. -/
def jumps : List Byte := b! "*=$10\nL: JMP M\n NOP\nM: JMP L\n"
def jumpsProg : List Stmt := [.org 16, .instr (some (b! "L")) .JMP (.plain (.sym (b! "M"))), .instr none .NOP .none,
  .instr (some (b! "M")) .JMP (.plain (.sym (b! "L")))]
def jumpsBin : List Byte := List.replicate 16 0 ++ [0x4C, 0x14, 0, 0xEA, 0x4C, 0x10, 0]
theorem jumps_isProgram : IsProgram jumps jumpsProg := isProgram_eval (by decide) (by decide +kernel) (by decide +kernel) (by decide +kernel)
theorem jumps_succeeds : Succeeds (demo jumps) (b! "p.asm") (b! "p.bin") jumpsBin 7 2 := demo_succeeds (by decide +kernel)
theorem jumps_inRange : InRange jumpsProg :=
  assemble_inRange (r := ⟨[(0x10, [0x4C, 0x14, 0]), (0x13, [0xEA]), (0x14, [0x4C, 0x10, 0])], [(b! "M", 20), (b! "L", 16)]⟩) (by decide +kernel)
example := C23_jumps (demo_setup jumps) jumps_isProgram (ascendingProgram_eval (by decide +kernel)) jumps_succeeds
example := C24_references_kept (List.replicate 20 ⟨b! "L", b! "JMP L", {}, 0, 1, .jumpForwardReference, 4⟩) (by decide)
example := (C26_two_pass_partial (demo_setup jumps) jumps_isProgram (ascendingProgram_eval (by decide +kernel)) jumps_inRange).1
example : ∃ r, assembleLow [.org 16, .instr (some (b! "L")) .NOP .none, .instr none .JMP (.plain (.sym (b! "L")))] = some r ∧
    Succeeds (demo (b! "*=$10\nL: NOP\n JMP L\n")) (b! "p.asm") (b! "p.bin") (image r.chunks) (totalBytes r.chunks) r.env.length := by
  obtain ⟨r, hr⟩ := Option.isSome_iff_exists.1 (show (assembleLow [.org 16, .instr (some (b! "L")) .NOP .none, .instr none .JMP (.plain (.sym (b! "L")))]).isSome = true
    by decide +kernel)
  exact ⟨r, hr, C26_no_forward (demo_setup _) (isProgram_eval (by decide) (by decide +kernel) (by decide +kernel) (by decide +kernel)) (by decide +kernel) hr⟩

/-- C29. -/
example : jumpsBin.length = 0x10 + 7 := by
  have := C29_bytes_any (demo_setup jumps) (by decide) (by decide +kernel) jumps_succeeds
  rwa [if_neg (by decide), show originSet jumps = 0x10 by decide +kernel] at this

/-- C30. -/
example : SameRun (b! "p.asm") (b! "p.bin") (demo (b! "NOP\n" ++ b! " .end ; stop" ++ 10 :: b! "?!\n")) (demo (b! "NOP\n" ++ b! " .end ; stop")) :=
  C30_end_last (.inr ⟨b! "NOP", rfl⟩) (by decide +kernel) (by decide) (lexes_eval (by decide +kernel) (by decide +kernel) : Lexes _ [(1, .stop)])
    (demo_setup _) (demo_setup _) (by decide)

/-- C31: all lines are accepted, all references can be resolved. -/
example : ∃ st, AllAccepted (b! "p.asm") (chunks jumps) st ∧ ∀ r ∈ pending st, Resolvable st r :=
  (C31_success_iff (demo_setup jumps) (by decide)).1 ⟨_, _, _, jumps_succeeds⟩

/-- C32: a wrong line. -/
example := C32_one_diagnostic_partial (demo_setup (b! " NOP\n LDA #256\n")) (by decide) (by decide +kernel) (by
  intro l hl
  have e : lines (b! " NOP\n LDA #256\n") = [b! " NOP", b! " LDA #256"] := by decide +kernel
  rw [e] at hl
  simp only [List.mem_cons, List.not_mem_nil, or_false] at hl
  rcases hl with rfl | rfl
  · exact ⟨hugeFree_of_runs (by decide +kernel), fun h => absurd (tooMany_complete h) (by decide +kernel)⟩
  · exact ⟨hugeFree_of_runs (by decide +kernel), fun h => absurd (tooMany_complete h) (by decide +kernel)⟩)
theorem wrong_fails : ∃ text, FailsPrinting (demo (b! " NOP\n LDA #256\n")) (b! "p.asm") (b! "p.bin") text ∧ text ≠ [] := by
  obtain ⟨st, ab, h, he, h1⟩ := reach_error (fn := b! "p.asm") (raws := [b! " NOP\n"]) (raw := b! " LDA #256\n")
    (fun _ ab => ab.fail.out ≠ []) (by decide) (by decide +kernel)
  obtain ⟨e, pos, h2, h3⟩ := C33_line_number (demo_setup (b! " NOP\n LDA #256\n")) (rest := []) (by decide +kernel) h he h1
  refine ⟨_, h3, ?_⟩
  unfold diag
  cases pos <;> simp
example : ∃ k raw e pos, 1 ≤ k ∧ (chunks (b! " NOP\n LDA #256\n"))[k - 1]? = some raw ∧ message e ≠ [] ∧
    FailsPrinting (demo (b! " NOP\n LDA #256\n")) (b! "p.asm") (b! "p.bin") (diag (cstr raw) e pos (b! "p.asm") k) := by
  obtain ⟨text, h, hne⟩ := wrong_fails
  rcases C32_diagnostic_partial (demo_setup (b! " NOP\n LDA #256\n")) (by decide) h with ⟨k, raw, e, pos, h1, h2, h3, rfl⟩ | ⟨h0, _⟩
  · exact ⟨k, raw, e, pos, h1, h2, h3, h⟩
  · exact absurd h0 hne

/-- C33: a missing operand; a label that is not defined. -/
theorem lda_noTraps : NoTraps (b! "LDA #\n") := by
  have key : ∀ l ∈ lines (b! "LDA #\n"), ∀ x, Lexes l x →
      ¬ LineJunk (x.map (·.2)) ∧ ∀ st, parse (x.map (·.2)) = some st → ¬ IndexedJump st := ?_
  · exact ⟨fun l hl x hx => (key l hl x hx).1, fun pre rest p hl hr => noForward_of (Reads_noTraps hr
      fun l hm x hx st hst => (key l (by rw [hl]; simp [hm]) x hx).2 st hst)⟩
  intro l hl x hx
  obtain rfl : l = b! "LDA #" := by
    have : lines (b! "LDA #\n") = [b! "LDA #"] := by decide +kernel
    rw [this] at hl; simpa using hl
  obtain rfl := Lexes_unique hx (lexes_eval (ls := [(0, .mnem .LDA), (4, .hash)]) (by decide +kernel) (by decide +kernel))
  refine ⟨?_, fun st h => by simp [parse, parseArg, opd] at h⟩
  rintro ⟨m, args, h | ⟨l, h⟩, o, r, more, rfl, _⟩ <;> simp at h
example := C33_every_failure_partial (demo_setup (b! "LDA #\n")) (by decide) (by decide +kernel) (by
  intro l hl
  obtain rfl : l = b! "LDA #" := by
    have : lines (b! "LDA #\n") = [b! "LDA #"] := by decide +kernel
    rw [this] at hl; simpa using hl
  exact hugeFree_of_runs (by decide +kernel)) lda_noTraps
def missing : List Byte := b! "BNE L\nJMP Q\nL RTS\n"
example : ∃ raw ls p, (chunks missing)[1]? = some raw ∧ lexemes raw = .ok ls ∧ (p, Lexeme.name (b! "Q")) ∈ ls ∧
    FailsPrinting (demo missing) (b! "p.asm") (b! "p.bin") (diag (cstr raw) .missingLabelDefinition (some p) (b! "p.asm") 2) := by
  obtain ⟨st, h1, h3, h4, h5, h6, h7, h8⟩ := reach_eval (fn := b! "p.asm") (raws := chunks missing)
    (fun st => (pending st).length = 2 ∧ (pending st)[1]?.map (·.lineNum) = some 2 ∧ (pending st)[1]?.map (·.label) = some (b! "Q") ∧
      (pending st)[0]?.map (fun r => (r.label, r.pc)) = some (b! "L", 0) ∧
      symbol st (b! "Q") = none ∧ symbol st (b! "L") = some 5)
    (by decide +kernel) (by decide +kernel)
  match hp : pending st, h3 with
  | [a, b], _ =>
    rw [hp] at h4 h5 h6
    simp only [List.getElem?_cons_succ, List.getElem?_cons_zero, Option.map_some, Option.some.injEq, Prod.mk.injEq] at h4 h5 h6
    have := C33_forward (demo_setup missing) (by decide) (.all h1) (pre := [a]) (r := b) (post := []) hp (by
      intro x hx
      obtain rfl : x = a := by simpa using hx
      refine ⟨5, by rw [h6.1]; exact h8, fun _ => ?_⟩
      rw [h6.2]; decide +kernel) (by
      rintro ⟨t, ht, _⟩
      rw [h5, h7] at ht
      cases ht)
    rw [h5, h7, if_pos rfl, h4] at this
    exact this

/-- C34. -/
example := C34_whole_lines_partial missing (by decide +kernel)

end Cases
end Gaia

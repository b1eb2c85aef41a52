import Verif.Proofs.LexCut
import Verif.Props.Example

/-! C06, C07, C08: the lexer. -/
set_option maxRecDepth 10000
namespace Gaia
open Spec

/-- `Denotes tk x`: the recorded token `tk` stands for the lexeme `x`. -/
def Denotes (tk : Token) : Lexeme → Prop
  | .name l => tk.type = .label ∧ tk.str = l
  | .mnem m => tk.type = .instruction ∧ tk.str = mnemonicName m
  | .lit v => tk.type = .literal ∧ tk.value = v
  | .regX => tk.type = .xRegister
  | .regY => tk.type = .yRegister
  | .regA => tk.type = .accumulator
  | .define => tk.type = .defineDirective
  | .equ => tk.type = .equDirective
  | .org => tk.type = .orgDirective
  | .stop => tk.type = .endDirective
  | .hash => tk.type = .immediate
  | .lpar => tk.type = .openParenthesis
  | .rpar => tk.type = .closeParenthesis
  | .comma => tk.type = .comma
  | .eq => tk.type = .equalSign
  | .star => tk.type = .base

theorem denotes_upd (tk : Token) (o : Nat) (x : Lexeme) : Denotes (updTok tk o x) x := by
  cases x <;> simp [Denotes, updTok, lexType, lexStr, lexValue]

/-- The mnemonic of a line is the last one written. -/
def LastMnemonic (ls : List Lexeme) (m : Option Mnemonic) : Prop :=
  match m with
  | none => ∀ m', .mnem m' ∉ ls
  | some m => ∃ pre post, ls = pre ++ .mnem m :: post ∧ ∀ m', .mnem m' ∉ post

theorem lastMnem_last (ls : List Lexeme) : LastMnemonic ls (lastMnem ls) := by
  induction ls with
  | nil => simp [LastMnemonic, lastMnem]
  | cons x ls ih =>
    cases hl : lastMnem ls with
    | some m =>
      rw [hl] at ih
      obtain ⟨pre, post, rfl, hp⟩ := ih
      have : lastMnem (x :: (pre ++ .mnem m :: post)) = some m := by
        cases x <;> simp [lastMnem, hl]
      rw [this]
      exact ⟨x :: pre, post, rfl, hp⟩
    | none =>
      rw [hl] at ih
      by_cases hx : ∃ m, x = .mnem m
      · obtain ⟨m, rfl⟩ := hx
        have : lastMnem (.mnem m :: ls) = some m := by simp [lastMnem, hl]
        rw [this]
        exact ⟨[], ls, rfl, ih⟩
      · have : lastMnem (x :: ls) = none := by
          cases x <;> simp [lastMnem, hl] at hx ⊢
        rw [this]
        intro m' hm
        rcases List.mem_cons.1 hm with h | h
        · exact hx ⟨m', h.symm⟩
        · exact ih m' h

theorem cut_text {first : Bool} {off : Nat} {s : Str} {ls : List (Nat × Lexeme)} (h : CutTokens first off s ls) :
    ∀ q ∈ ls, ∃ k w rest, q.1 = off + k ∧ CutSpell w q.2 ∧ s.drop k = w ++ rest := by
  induction h with
  | done => simp
  | cons first off t bl s x ls ht hd hb hs hrest ih =>
    intro q hq
    rcases List.mem_cons.1 hq with rfl | hq
    · exact ⟨0, t, bl ++ s, rfl, ht, by simp⟩
    · obtain ⟨k, w, rest, h1, h2, h3⟩ := ih q hq
      refine ⟨t.length + bl.length + k, w, rest, by omega, h2, ?_⟩
      rw [← h3, ← List.length_append, List.drop_length_add_append]
  | colon off t bl s l ls ht hb hs hrest ih =>
    intro q hq
    rcases List.mem_cons.1 hq with rfl | hq
    · exact ⟨0, t, 58 :: bl ++ s, rfl, ht, by simp⟩
    · obtain ⟨k, w, rest, h1, h2, h3⟩ := ih q hq
      refine ⟨(t ++ 58 :: bl).length + k, w, rest, by simp only [List.length_append, List.length_cons]; omega, h2, ?_⟩
      rw [← h3, List.drop_length_add_append]

theorem cuts_text {line : List Byte} {ls : List (Nat × Lexeme)} (h : Cuts line ls) {o : Nat} {x : Lexeme} (hm : (o, x) ∈ ls) :
    ∃ w rest, CutSpell w x ∧ line.drop o = w ++ rest := by
  obtain ⟨bl, s, h1, h2, h3, h4⟩ := h
  obtain ⟨k, w, rest, e1, e2, e3⟩ := cut_text h4 _ hm
  obtain ⟨r, hr⟩ : ∃ r, line = code line ++ r := ⟨_, (List.takeWhile_append_dropWhile).symm⟩
  refine ⟨w, rest ++ r, e2, ?_⟩
  have hlen : bl.length + k ≤ (bl ++ s).length := by
    by_contra hc
    have : s.drop k = [] := List.drop_eq_nil_of_le (by rw [List.length_append] at hc; omega)
    rw [this] at e3
    obtain ⟨c, q, hw, _⟩ := cutSpell_head e2
    rw [hw] at e3; cases e3
  rw [hr, h1, show o = bl.length + k from e1, List.drop_append_of_le_length hlen, List.drop_length_add_append, e3,
    List.append_assoc]

/-- The two outcomes of scanning a line. -/
theorem lexLine_cases (raw : List Byte) (lx : Lexer) (tk : Token) (instr : Instr) (n : Nat) (h8 : lx.seq.length = 8) :
    (∃ ls, lexemes raw = .ok ls ∧ lexLine raw lx tk instr n =
      .ok (lexerOf (cstr raw) n lx.fileName ls, lastTok nullTok ls, lastInstr {} ls)) ∨
    (∃ f, lexemes raw = .error f) ∧ ∃ e, lexLine raw lx tk instr n = .err e := by
  rw [lexLine_eq raw lx tk instr n h8]
  cases hl : lexemes raw with
  | ok ls => exact .inl ⟨ls, rfl, rfl⟩
  | error f =>
    refine .inr ⟨⟨f, rfl⟩, ?_⟩
    cases f with
    | «at» e pos =>
      obtain ⟨hs, he⟩ := lexemes_error hl
      simp only
      rw [raise_eq lx.fileName n hs (by rcases he with rfl | rfl | rfl | rfl <;> rfl)]
      exact ⟨_, rfl⟩
    | tooMany => exact ⟨_, rfl⟩

/-- **C06, which lines are accepted.** The lexer accepts a line exactly if the line can be cut into at most eight tokens
(`Spec/Cut.lean`: leading blanks, then token texts separated by optional blanks, up to the end of the line, a comment or
another terminator). This holds whatever the reused structures contain. -/
theorem C06_accepted (raw : List Byte) (lx : Lexer) (tk : Token) (instr : Instr) (n : Nat) (h8 : lx.seq.length = 8) :
    (∃ r, lexLine raw lx tk instr n = .ok r) ↔ ∃ ls, Cuts raw ls ∧ ls.length ≤ 8 := by
  rcases lexLine_cases raw lx tk instr n h8 with ⟨ls, h1, h2⟩ | ⟨⟨f, h1⟩, e, h2⟩
  · exact ⟨fun _ => ⟨ls, (lexemes_cuts ls).1 h1⟩, fun _ => ⟨_, h2⟩⟩
  · rw [h2]
    refine ⟨?_, ?_⟩
    · rintro ⟨_, ⟨⟩⟩
    · rintro ⟨ls, hc⟩
      rw [(lexemes_cuts ls).2 hc] at h1
      cases h1

/-- **C06, what is recorded.** When the lexer accepts a line, the line is cut into lexemes, at most eight; the lexer has
recorded exactly these, in this order, each with its offset in the line; the text at that offset spells the lexeme; all
other slots are null; and the instruction is the last mnemonic of the line (none if there is none). -/
theorem C06_tokens {raw : List Byte} {lx lx' : Lexer} {tk tk' : Token} {instr instr' : Instr} {n : Nat} (h8 : lx.seq.length = 8)
    (h : lexLine raw lx tk instr n = .ok (lx', tk', instr')) :
    ∃ ls, Cuts raw ls ∧ ls.length ≤ 8 ∧ lx'.seq.length = 8 ∧ lx'.curr = ls.length ∧
      (∀ (i o : Nat) (x : Lexeme), ls[i]? = some (o, x) → ∃ t w rest, lx'.seq[i]? = some t ∧ t.bufferLocation = some o ∧ Denotes t x ∧
        CutSpell w x ∧ raw.drop o = w ++ rest) ∧
      (∀ i : Nat, ls.length ≤ i → i < 8 → ∃ t, lx'.seq[i]? = some t ∧ t.type = .null) ∧
      LastMnemonic (ls.map (·.2)) instr'.mnemonic := by
  rcases lexLine_cases raw lx tk instr n h8 with ⟨ls, hl, h2⟩ | ⟨⟨f, h1⟩, e, h2⟩
  swap
  · rw [h2] at h; cases h
  · rw [h2] at h
    simp only [C.ok.injEq, Prod.mk.injEq] at h
    obtain ⟨rfl, rfl, rfl⟩ := h
    obtain ⟨hc, h8'⟩ := (lexemes_cuts ls).1 hl
    have hlen := lexerOf_length (cstr raw) n lx.fileName ls h8'
    have hslot : ∀ i, i < 8 → (lexerOf (cstr raw) n lx.fileName ls).seq[i]? =
        some (tok (lexerOf (cstr raw) n lx.fileName ls) i) := by
      intro i hi
      have := slot_ok hlen hi
      unfold slot at this
      split at this
      · rename_i t ht
        rw [ht]
        cases this; rfl
      · cases this
    refine ⟨ls, hc, h8', hlen, rfl, ?_, ?_, ?_⟩
    · intro i o x hi
      have hlt : i < ls.length := (List.getElem?_eq_some_iff.1 hi).1
      obtain ⟨tk0, ht⟩ := lexerOf_some (buf := cstr raw) (n := n) (fn := lx.fileName) hi
      obtain ⟨w, rest, hw, hr⟩ := cuts_text hc (List.mem_of_getElem? hi)
      refine ⟨_, w, rest, hslot i (by omega), ?_, ?_, hw, hr⟩
      · rw [ht]; rfl
      · rw [ht]; exact denotes_upd _ _ _
    · intro i h1 h2
      refine ⟨_, hslot i h2, ?_⟩
      rw [lexerOf_none (List.getElem?_eq_none h1)]
    · rw [lastInstr_eq]
      have := lastMnem_last (ls.map (·.2))
      cases hm : lastMnem (ls.map (·.2)) with
      | none => rw [hm] at this; exact this
      | some m => rw [hm] at this; exact this

/-- The cut of a line is the documented one (`Lexes`), up to literals of 2^64 or more: a line without such literals is cut
into at most eight lexemes exactly if it consists of them. -/
theorem C06_documented {line : List Byte} (hh : HugeFree line) (ls : List (Nat × Lexeme)) :
    (Cuts line ls ∧ ls.length ≤ 8) ↔ (Lexes line ls ∧ ls.length ≤ 8) := by
  rw [← lexemes_cuts, lexemes_iff hh]

/-- A line can be cut in one way only. -/
theorem C06_unambiguous {line : List Byte} {ls ls' : List (Nat × Lexeme)} (h : Cuts line ls) (h' : Cuts line ls')
    (h8 : ls.length ≤ 8) : ls = ls' := by
  have e := (lexemes_cuts ls).2 ⟨h, h8⟩
  have e' := lexemes_cut_complete h'
  rw [e] at e'
  split_ifs at e' with h9
  exact Except.ok.inj e'

/-- Non-vacuity: `loop: lda ($10),y ; x` is cut into seven tokens at the expected offsets, and the lexer records them. -/
example : Cuts (b! "loop: lda ($10),y ; x\n")
    [(0, .name (b! "LOOP")), (6, .mnem .LDA), (10, .lpar), (11, .lit 16), (14, .rpar), (15, .comma), (16, .regY)] :=
  ((lexemes_cuts _).1 (by decide +kernel)).1
example : ∃ lx' tk' instr', lexLine (b! "loop: lda ($10),y ; x\n") (initLexer (b! "p.asm")) {} {} 1 = .ok (lx', tk', instr') ∧
    lx'.curr = 7 ∧ instr'.mnemonic = some .LDA := ⟨_, _, _, rfl, by decide +kernel, by decide +kernel⟩
/-- Non-vacuity: `lda 5?` is refused, and so is a line of nine tokens. -/
example : ¬ ∃ r, lexLine (b! "lda 5?") (initLexer (b! "p.asm")) {} {} 1 = .ok r := by
  rw [show lexLine (b! "lda 5?") (initLexer (b! "p.asm")) {} {} 1 = .err ⟨.illegalChar, b! "p.asm:1: ERROR: illegal character\nlda 5?\n     ^~~~~~\n\n"⟩ by decide +kernel]
  rintro ⟨_, ⟨⟩⟩
example : ¬ ∃ r, lexLine (b! "A A A A A A A A A") (initLexer (b! "p.asm")) {} {} 1 = .ok r := by
  rw [show lexLine (b! "A A A A A A A A A") (initLexer (b! "p.asm")) {} {} 1 = .err ⟨.tooManyTokens, []⟩ by decide +kernel]
  rintro ⟨_, ⟨⟩⟩

/-- **C07.** Scanning any line, of any length and with any bytes, terminates (with at most one token per character), never
reads past the end of the line, never writes past the 64 bytes of a token's text or the eight slots, and never uses an
error position outside the line. In the model each of these would be the result `.ub`. -/
theorem C07_lexer_safe (raw : List Byte) (lx : Lexer) (tk : Token) (instr : Instr) (n : Nat) (h8 : lx.seq.length = 8) :
    ∀ u, lexLine raw lx tk instr n ≠ .ub u := by
  intro u
  rcases lexLine_cases raw lx tk instr n h8 with ⟨ls, _, h⟩ | ⟨_, e, h⟩ <;> rw [h] <;> simp

/-- C07: and the eight slots stay eight slots, so this holds again for the next line. -/
theorem C07_slots {raw : List Byte} {lx lx' : Lexer} {tk tk' : Token} {instr instr' : Instr} {n : Nat} (h8 : lx.seq.length = 8)
    (h : lexLine raw lx tk instr n = .ok (lx', tk', instr')) : lx'.seq.length = 8 ∧ lx'.fileName = lx.fileName := by
  refine ⟨?_, ?_⟩
  · obtain ⟨ls, _, _, h, _⟩ := C06_tokens h8 h
    exact h
  · rcases lexLine_cases raw lx tk instr n h8 with ⟨ls, _, h2⟩ | ⟨_, e, h2⟩
    · rw [h2] at h
      simp only [C.ok.injEq, Prod.mk.injEq] at h
      obtain ⟨rfl, rfl, rfl⟩ := h
      rfl
    · rw [h2] at h; cases h

/-- Non-vacuity: the initial structures have eight slots. -/
example : (initLexer (b! "p.asm")).seq.length = 8 := by decide

/-- **C08.** What the lexer makes of a line does not depend on what the lexer, the running token and the instruction
contained before. -/
theorem C08_lexer_independent (raw : List Byte) (lx lx' : Lexer) (tk tk' : Token) (instr instr' : Instr) (n : Nat)
    (h8 : lx.seq.length = 8) (h8' : lx'.seq.length = 8) (hf : lx.fileName = lx'.fileName) :
    lexLine raw lx tk instr n = lexLine raw lx' tk' instr' n := by
  rw [lexLine_eq raw lx tk instr n h8, lexLine_eq raw lx' tk' instr' n h8', hf]

/-- C08 for the whole step of the main loop: assembling a line depends on the scratch structures in no way; its effects
depend only on the location counter, the line number, the totals, the symbols, the pending references and the output. -/
theorem C08_line_independent (raw : List Byte) (st : St) (lx : Lexer) (tk : Token) (instr : Instr)
    (h8 : st.lexer.seq.length = 8) (h8' : lx.seq.length = 8) (hf : lx.fileName = st.lexer.fileName) :
    lineStep raw { st with lexer := lx, tk := tk, instr := instr } = lineStep raw st := by
  unfold lineStep
  simp only [C08_lexer_independent raw lx st.lexer tk st.tk instr st.instr st.lineNum h8' h8 hf]

/-- Non-vacuity: after the line `LDA #1`, the scratch structures are full, and a following empty line is not affected. -/
example : ∃ lx tk instr, lexLine (b! "LDA #1") (initLexer (b! "p.asm")) {} {} 1 = .ok (lx, tk, instr) ∧
    lx.curr = 3 ∧ tk.value = 1 ∧ instr.mnemonic = some .LDA ∧
    lexLine (b! "") lx tk instr 2 = lexLine (b! "") (initLexer (b! "p.asm")) {} {} 2 :=
  ⟨_, _, _, rfl, by decide +kernel, by decide +kernel, by decide +kernel, by decide +kernel⟩

end Gaia

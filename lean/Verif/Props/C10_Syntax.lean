import Verif.Props.C06_Lexing

/-! C10, C11: syntax analysis. -/
set_option maxRecDepth 10000
namespace Gaia
open Spec

/-- **C10, the exact set of accepted lines**: of the lines the lexer accepts, syntax analysis accepts exactly those whose
lexemes are a statement of the grammar, or a statement of the form `[label] instruction operand ,X` (or `,Y`) followed by
anything. -/
theorem C10_accepted_exactly {raw : List Byte} {lx lx' : Lexer} {tk tk' : Token} {instr instr' : Instr} {n : Nat} {ls : List (Nat × Lexeme)}
    (h8 : lx.seq.length = 8) (h : lexLine raw lx tk instr n = .ok (lx', tk', instr')) (hc : Cuts raw ls) :
    (∃ lx'', parseLine lx' = .ok lx'') ↔ (parse (ls.map (·.2))).isSome = true ∨ LineJunk (ls.map (·.2)) := by
  rcases lexLine_cases raw lx tk instr n h8 with ⟨ls', hl, h2⟩ | ⟨⟨f, h1⟩, e, h2⟩
  swap
  · rw [h2] at h; cases h
  · rw [h2] at h
    simp only [C.ok.injEq, Prod.mk.injEq] at h
    obtain ⟨rfl, rfl, rfl⟩ := h
    obtain ⟨hc', h8'⟩ := (lexemes_cuts ls').1 hl
    obtain rfl := C06_unambiguous hc' hc h8'
    rw [parseLine_lexerOf hl, ← syn_ok_iff]
    cases hs : syn (typeAt (ls'.map (·.2))) with
    | ok u => simp
    | error q => simp

/-- **C10** (partial: for lines without anything after an indexed operand; `C10_junk_accepted` shows that the restriction is
needed). Syntax analysis accepts exactly the statements of the grammar. -/
theorem C10_grammar_partial {raw : List Byte} {lx lx' : Lexer} {tk tk' : Token} {instr instr' : Instr} {n : Nat} {ls : List (Nat × Lexeme)}
    (h8 : lx.seq.length = 8) (h : lexLine raw lx tk instr n = .ok (lx', tk', instr')) (hc : Cuts raw ls)
    (hj : ¬ LineJunk (ls.map (·.2))) :
    (∃ lx'', parseLine lx' = .ok lx'') ↔ (parse (ls.map (·.2))).isSome = true := by
  rw [C10_accepted_exactly h8 h hc]
  exact or_iff_left hj

/-- **C10, refusal**: a line that is no statement, after any faultless statements, makes gaia fail with a syntax error that
points at the first lexeme that cannot continue a statement (at nothing if something is missing at the end). -/
theorem C10_refused {w : World} {srcName outName : Str} {src : List Byte} {p : List Stmt} {l : List Byte} {rest : List (List Byte)}
    (hw : Setup w srcName outName src) (h : Continues src p l rest) (he : firstFault p 1 .init = none)
    {ls : List (Nat × Lexeme)} (hl : Lexes l ls) (h8 : ls.length ≤ 8) (hp : parse (ls.map (·.2)) = none)
    (hj : ¬ LineJunk (ls.map (·.2))) :
    ∃ i, SynFault (ls.map (·.2)) (if (ls.map (·.2)).head? = some .star then .illegalBase else .illegalSequence) i ∧
      FailsAt w srcName outName src (p.length + 1)
        (if (ls.map (·.2)).head? = some .star then .illegalBase else .illegalSequence) (ls[i]?.map (·.1)) := by
  cases hs : syn (typeAt (ls.map (·.2))) with
  | ok u =>
    rcases (syn_ok_iff _).1 hs with h | h
    · rw [hp] at h; cases h
    · exact absurd h hj
  | error q =>
    obtain ⟨i, e⟩ := q
    have hf := ((syn_error_iff _ e i).1 hs).1
    have := hf.error
    subst this
    exact ⟨i, hf, run_bad_line hw h he (by split_ifs <;> intro h <;> cases h) (.syntactic ls _ i hl h8 hf hj)⟩

/-- **C10 is false without the restriction**: `LDA $10,X ADC` is no statement, but gaia accepts it and assembles an ADC. -/
theorem C10_junk_accepted : ∃ (l : List Byte) (ls : List (Nat × Lexeme)), Lexes l ls ∧ parse (ls.map (·.2)) = none ∧
    Succeeds (demo l) (b! "p.asm") (b! "p.bin") [0x75, 0x10] 2 0 :=
  ⟨b! "LDA $10,X ADC", [(0, .mnem .LDA), (4, .lit 16), (7, .comma), (8, .regX), (10, .mnem .ADC)],
    lexes_eval (by decide +kernel) (by decide +kernel), rfl, demo_succeeds (by decide +kernel)⟩

/-- Non-vacuity: `L: STA ($10),Y` satisfies the hypotheses and is accepted. -/
example : ∃ lx' tk' instr' ls, lexLine (b! "L: STA ($10),Y") (initLexer (b! "p.asm")) {} {} 1 = .ok (lx', tk', instr') ∧
    Cuts (b! "L: STA ($10),Y") ls ∧ ¬ LineJunk (ls.map (·.2)) ∧ (parse (ls.map (·.2))).isSome = true := by
  refine ⟨_, _, _, [(0, .name (b! "L")), (3, .mnem .STA), (7, .lpar), (8, .lit 16), (11, .rpar), (12, .comma), (13, .regY)], rfl,
    ((lexemes_cuts _).1 (by decide +kernel)).1, ?_, by decide⟩
  rintro ⟨m, args, h | ⟨l, h⟩, o, r, more, rfl, h2, _⟩ <;> simp at h
/-- Non-vacuity: `LDA ($10,Y)` is refused at the `Y`. -/
example : FailsAt (demo (b! "LDA ($10,Y)")) (b! "p.asm") (b! "p.bin") (b! "LDA ($10,Y)") 1 .illegalSequence (some 9) := by
  have hl : Lexes (b! "LDA ($10,Y)") [(0, .mnem .LDA), (4, .lpar), (5, .lit 16), (8, .comma), (9, .regY), (10, .rpar)] :=
    lexes_eval (by decide +kernel) (by decide +kernel)
  have hj : ¬ LineJunk [.mnem .LDA, .lpar, .lit 16, .comma, .regY, .rpar] := by
    rintro ⟨m, args, h | ⟨l, h⟩, o, r, more, rfl, h2, _⟩ <;> simp at h
  obtain ⟨i, h1, h2⟩ := C10_refused (p := []) (rest := []) (demo_setup (b! "LDA ($10,Y)"))
    ⟨by decide, by decide +kernel, ⟨[], by decide +kernel, .nil⟩, by simp, noForward_of (by simp)⟩ (by decide) hl (by decide) (by decide) hj
  have h3 := (syn_error_iff _ _ _).2 ⟨h1, hj⟩
  have : i = 4 := by
    have : syn (typeAt [.mnem .LDA, .lpar, .lit 16, .comma, .regY, .rpar]) = .error (4, .illegalSequence) := by decide +kernel
    simp only [List.map_cons, List.map_nil] at h3
    rw [this] at h3
    injection h3 with h3
    injection h3 with h3
    exact h3.symm
  subst this
  exact h2
example : demoRun (b! "LDA ($10,Y)") =
    some (1, b! "p.asm:1: ERROR: illegal syntax\nLDA ($10,Y)\n         ^~~~~~\n\n", some []) := by decide +kernel

/-- **C11.** Syntax analysis never accesses a token slot beyond the eight slots, whatever the tokens in them are. -/
theorem C11_parse_in_bounds (lx : Lexer) (h8 : lx.seq.length = 8) : parseLine lx ≠ .ub .outOfBounds := by
  rw [parseLine_eq h8]
  cases hs : syn (types lx) with
  | ok u => simp [verdict]
  | error q =>
    obtain ⟨i, e⟩ := q
    obtain ⟨hi, he, _⟩ := syn_index_lt hs
    rw [verdict, syntaxError, slot_ok h8 hi]
    simp only [C.ok_bind]
    unfold raise
    intro h
    have key : ∀ {x : Res Str}, (x >>= fun out => (C.err ⟨e, out⟩ : Res Lexer)) = .ub .outOfBounds → x = .ub .outOfBounds := by
      intro x hx
      cases x with
      | ok a => simp at hx
      | err a => simp at hx
      | ub u => simpa using hx
    have := key h
    unfold printError at this
    simp only at this
    revert this
    cases errorMessage lx.fileName e with
    | none => simp
    | some msg =>
      cases lx.line with
      | none => simp
      | some l =>
        simp only
        cases trimRev l.reverse with
        | none => simp
        | some r =>
          cases (tok lx i).bufferLocation with
          | none => simp
          | some p =>
            simp only
            cases arrowLoop p l 0 0 <;> simp

/-- **C11.** For every line the lexer accepts, syntax analysis runs without undefined behaviour, and if it accepts the line,
so does the search for the operand: it stops at an operand or at a null token within the eight slots. -/
theorem C11_operand_in_bounds {raw : List Byte} {lx lx' : Lexer} {tk tk' : Token} {instr instr' : Instr} {n : Nat}
    (h8 : lx.seq.length = 8) (h : lexLine raw lx tk instr n = .ok (lx', tk', instr')) :
    (∀ u, parseLine lx' ≠ .ub u) ∧ ∀ lx'', parseLine lx' = .ok lx'' → ∃ r, findOperand lx'' = .ok r := by
  rcases lexLine_cases raw lx tk instr n h8 with ⟨ls, hl, h2⟩ | ⟨⟨f, h1⟩, e, h2⟩
  swap
  · rw [h2] at h; cases h
  · rw [h2] at h
    simp only [C.ok.injEq, Prod.mk.injEq] at h
    obtain ⟨rfl, rfl, rfl⟩ := h
    rw [parseLine_lexerOf hl]
    cases hs : syn (typeAt (ls.map (·.2))) with
    | error q => simp
    | ok u =>
      refine ⟨by simp, ?_⟩
      rintro lx'' ⟨⟩
      have hf := lexFacts (n := n) (fn := lx.fileName) hl hs
      cases ho : operandOf ls with
      | some q =>
        obtain ⟨i, _, _, _, _, hr⟩ := findOperand_some hf ((lexemes_cuts ls).1 hl).2 ho
        exact ⟨_, hr⟩
      | none => exact ⟨_, findOperand_none hf (operand_none_length hs ho) ho⟩

/-- Non-vacuity: a line that fills all eight slots. -/
example : ∃ lx' tk' instr', lexLine (b! "L LDA $10,X A A A") (initLexer (b! "p.asm")) {} {} 1 = .ok (lx', tk', instr') ∧
    lx'.curr = 8 ∧ (∃ lx'', parseLine lx' = .ok lx'') :=
  ⟨_, _, _, rfl, by decide +kernel, _, rfl⟩

end Gaia

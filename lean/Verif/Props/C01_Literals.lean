import Verif.Props.C40_LiteralNotation

/-! C01, C02: numeric literals. -/
set_option maxRecDepth 10000
namespace Gaia
open Spec

/-- What may follow a literal in the line buffer: the end of the string, a delimiter, or the start of a comment or line
ending (CR, LF, `;`, 0xFF). -/
def Ends (r : Str) : Prop := Delimited r ∨ ∃ c q, r = c :: q ∧ (c = 13 ∨ c = 10 ∨ c = 59 ∨ c = 0 ∨ c = 255)

theorem ends_eot {r : Str} (h : Ends r) : isEndOfToken (rd r) = true := by
  rcases h with (rfl | ⟨c, q, rfl, hc⟩) | ⟨c, q, rfl, hc⟩
  · decide
  all_goals
    show isEndOfToken c = true
    rcases hc with rfl | rfl | rfl | rfl | rfl <;> decide

/-- **C01, the exact behaviour of the scanner**, for every base, every number of digits and every value: gaia computes the
positional value modulo 2^64. It accepts the literal exactly if that number is at most 0xFFFF, and the token then carries
it. -/
theorem C01_scanned_value {pre ds r : Str} {b : Nat} (hp : LitStart pre b) (hne : ds ≠ []) (hd : ∀ x ∈ ds, IsDigitOf b x)
    (hr : Ends r) (off : Nat) (tk : Token) (instr : Instr) :
    lex off (pre ++ ds ++ r) tk instr =
      if positional b ds % 2 ^ 64 ≤ 0xFFFF then
        .ok (pre.length + ds.length,
          { tk with type := .literal, value := positional b ds % 2 ^ 64, bufferLocation := some off }, instr)
      else .err (.tooBigLiteral, off) := by
  obtain ⟨conv, hconv, h1, h2⟩ := litStart_conv hp
  have hend := ends_eot hr
  have hnd : ∀ c r', r = c :: r' → ¬ IsDigitOf b c := by
    rintro c r' rfl ⟨v, hv, _⟩
    have := byte_eot_digit c hend
    rw [this] at hv; cases hv
  have hne' : pre = [] → ∃ d r', ds ++ r = d :: r' ∧ isDig 10 d = true := by
    rintro rfl
    cases ds with
    | nil => exact absurd rfl hne
    | cons d ds =>
      refine ⟨d, ds ++ r, rfl, ?_⟩
      rcases h2 with ⟨_, rfl⟩ | ⟨h, _⟩
      · exact (isDig_iff 10 d).2 (hd d (by simp))
      · simp at h
  obtain ⟨d1, d2⟩ := digits_append hd hnd
  have hl : ds.length ≠ 0 := by simpa using hne
  have hlit : ¬ (pre.length + ds.length = 1 ∧ (b = 2 ∨ b = 16)) := by
    rcases h2 with ⟨_, rfl⟩ | ⟨h, _⟩
    · simp
    · omega
  rw [lex_eq _ _ _ _ (by simp [hne]), List.append_assoc, h1 _ hne', litBody_eq hconv, d1, d2, if_pos hend,
    if_neg (by omega), if_neg hlit]
  by_cases hv : positional b ds % 2 ^ 64 ≤ 0xFFFF
  · rw [if_neg (by omega), if_pos hv]
    rfl
  · rw [if_pos (by omega), if_neg hv]
    rfl

/-- **C01** (partial: for values below 2^64; `C01_wraps` shows that the restriction is needed). A literal is accepted
exactly when its positional value is at most 0xFFFF, and the token carries that value; a bigger value is refused at the
start of the literal. -/
theorem C01_literal_value_partial {pre ds r : Str} {b : Nat} (hp : LitStart pre b) (hne : ds ≠ []) (hd : ∀ x ∈ ds, IsDigitOf b x)
    (hr : Ends r) (hv : positional b ds < 2 ^ 64) (off : Nat) (tk : Token) (instr : Instr) :
    lex off (pre ++ ds ++ r) tk instr =
      if positional b ds ≤ 0xFFFF then
        .ok (pre.length + ds.length, { tk with type := .literal, value := positional b ds, bufferLocation := some off }, instr)
      else .err (.tooBigLiteral, off) := by
  rw [C01_scanned_value hp hne hd hr, Nat.mod_eq_of_lt hv]

/-- Non-vacuity: `$00ff` before a comma, at offset 4. -/
example : lex 4 (b! "$00ff,X\n") {} {} = .ok (5, { type := .literal, value := 255, bufferLocation := some 4 }, {}) :=
  C01_literal_value_partial (pre := b! "$") (ds := b! "00ff") (r := b! ",X\n") .hex (by decide)
    (by decide) (.inl (.inr ⟨44, b! "X\n", rfl, by decide⟩)) (by decide) 4 {} {}
/-- Non-vacuity: `65536` is refused. -/
example : lex 0 (b! "65536") {} {} = .err (.tooBigLiteral, 0) :=
  C01_literal_value_partial (pre := []) (ds := b! "65536") (r := []) .dec (by decide)
    (by decide) (.inl (.inl rfl)) (by decide) 0 {} {}

/-- The literal `$1000000000000004C` (2^64 + 0x4C) is accepted as 0x4C: **C01 is false without the bound**. -/
theorem C01_wraps : ∃ ds : Str, (∀ x ∈ ds, IsDigitOf 16 x) ∧ positional 16 ds > 0xFFFF ∧
    Succeeds (demo (b! "JMP $" ++ ds)) (b! "p.asm") (b! "p.bin") [0x4C, 0x4C, 0] 3 0 := by
  refine ⟨b! "1000000000000004C", by decide, by decide, ?_⟩
  exact demo_succeeds (by decide +kernel)

theorem litStart_noTerm {pre ds : Str} {b : Nat} (hp : LitStart pre b) (hd : ∀ x ∈ ds, IsDigitOf b x) : NoTerm (pre ++ ds) := by
  have hdig : ∀ x : Byte, isTerm x = true → digitValue x = none := by decide +kernel
  intro c hc
  rcases List.mem_append.1 hc with hc | hc
  · cases hp with
    | hex => obtain rfl : c = 36 := by simpa using hc
             decide
    | bin => obtain rfl : c = 37 := by simpa using hc
             decide
    | dec => simp at hc
  · obtain ⟨v, hv, _⟩ := hd c hc
    cases h : isTerm c with
    | false => rfl
    | true => rw [hdig c h] at hv; cases hv

theorem code_noTerm {s : Str} (h : NoTerm s) : code s = s := by
  induction s with
  | nil => rfl
  | cons c s ih =>
    rw [code_cons, if_neg (by rw [h c (by simp)]; simp), ih fun x hx => h x (by simp [hx])]

theorem lines_single {l : List Byte} (hne : l ≠ []) (h : ∀ c ∈ l, c ≠ 10) : lines l = [l] := by
  induction l with
  | nil => exact absurd rfl hne
  | cons c l ih =>
    rw [lines, if_neg (h c (by simp))]
    by_cases hl : l = []
    · subst hl; rfl
    · rw [ih hl fun x hx => h x (by simp [hx])]

/-! The same for complete programs. -/

/-- A line the scanner refuses, after faultless statements, is reported. -/
theorem run_lex_error {w : World} {srcName outName : Str} {src : List Byte} {p : List Stmt} {l : List Byte} {rest : List (List Byte)}
    (hw : Setup w srcName outName src) (h : Continues src p l rest) (he : firstFault p 1 .init = none)
    {e : Err} {pos : Nat} (hl : lexemes l = .error (.at e pos)) (hpos : pos ≤ (Spec.code l).length) :
    FailsAt w srcName outName src (p.length + 1) e (some pos) := by
  obtain ⟨raw, tail, s, a, h1, h2, h3, h4⟩ := (assembleA_continues h srcName).2 he
  have hA : assembleA srcName src = .error ⟨⟨e, diag (cstr l) e (some pos) srcName (p.length + 1)⟩, a.out⟩ := by
    unfold assembleA
    rw [h4, runLines]
    unfold line
    rw [lexemes_buffers h1, hl]
    simp only [faultAt, h3.line]
    rw [diag_buffers h1 e (some pos) srcName (p.length + 1) fun q hq => by
      obtain rfl : pos = q := by simpa using hq
      have := code_le_cstr l
      omega]
  have hs := assemble_sim srcName src h.size
  rw [hA] at hs
  obtain ⟨pre, hsp, hr⟩ := h.splits
  refine ⟨l, by omega, ?_, fails_of hw hs⟩
  rw [hsp, Nat.add_sub_cancel, ← Reads_length hr h.noStop]
  simp

/-- **C01, refusal in every context** (partial: value below 2^64, or at least not congruent to a small number modulo
2^64). If a line of the source, after any faultless lines `p` and after any lexemes `ls` of that line, has a literal whose
value exceeds 16 bits, gaia fails with "value of literal exceeds 2 bytes", pointing at the first character of the
literal. -/
theorem C01_too_big_partial {w : World} {srcName outName : Str} {src : List Byte} {p : List Stmt} {l : List Byte} {rest : List (List Byte)}
    {ls : List (Nat × Lexeme)} {off b : Nat} {pre ds r : Str} (hw : Setup w srcName outName src) (h : Continues src p l rest)
    (he : firstFault p 1 .init = none) (hb : LineBegins l ls off (pre ++ ds ++ r)) (h8 : ls.length ≤ 8) (hp : LitStart pre b)
    (hne : ds ≠ []) (hd : ∀ x ∈ ds, IsDigitOf b x) (hr : Delimited r) (hv : positional b ds % 2 ^ 64 > 0xFFFF) :
    FailsAt w srcName outName src (p.length + 1) .tooBigLiteral (some off) := by
  refine run_lex_error hw h he ?_ ?_
  · obtain ⟨fuel, e1, e2, e3⟩ := lexemes_begins hb h8
    have hne' : pre ++ ds ++ r ≠ [] := by simp [hne]
    have hlex := C01_scanned_value (r := r) hp hne hd (.inl hr) 0 {} {}
    rw [if_neg (by omega), lex_eq _ _ _ _ hne'] at hlex
    have hone : lexOne (pre ++ ds ++ r) = .error (.tooBigLiteral, 0) := by
      cases hx : lexOne (pre ++ ds ++ r) with
      | ok q => rw [hx] at hlex; cases hlex
      | error q =>
        obtain ⟨e, k⟩ := q
        rw [hx] at hlex
        simp only [applyOne, C.err.injEq, Prod.mk.injEq, Nat.zero_add] at hlex
        rw [hlex.1, hlex.2]
    rw [e3]
    cases fuel with
    | zero => omega
    | succ fuel =>
      rw [scan, noTerm_head e2 hne', hone]
      rfl
  · have := lineBegins_length hb
    omega

/-- **C01, end to end** (partial: value below 2^64, and at most 120 digits so that the line fits the buffer). The source
`JMP literal` is assembled to the opcode and the value, low byte first, if the value fits 16 bits, whatever the number of
digits and leading zeros; otherwise gaia fails with "value of literal exceeds 2 bytes", pointing at the literal. -/
theorem C01_jump_partial {w : World} {srcName outName : Str} {pre ds : Str} {b : Nat} (hp : LitStart pre b) (hne : ds ≠ [])
    (hd : ∀ x ∈ ds, IsDigitOf b x) (hlen : ds.length ≤ 120) (hw : Setup w srcName outName (b! "JMP " ++ (pre ++ ds)))
    (hv : positional b ds < 2 ^ 64) :
    (positional b ds ≤ 0xFFFF →
      Succeeds w srcName outName [0x4C, UInt8.ofNat (positional b ds % 256), UInt8.ofNat (positional b ds / 256)] 3 0) ∧
    (positional b ds > 0xFFFF → FailsAt w srcName outName (b! "JMP " ++ (pre ++ ds)) 1 .tooBigLiteral (some 4)) := by
  have hpre : pre.length ≤ 1 := by cases hp <;> decide
  have hnt : NoTerm (b! "JMP " ++ (pre ++ ds)) := by
    intro c hc
    rcases List.mem_append.1 hc with hc | hc
    · have : ∀ c ∈ b! "JMP ", isTerm c = false := by decide
      exact this c hc
    · exact litStart_noTerm hp hd c hc
  have hcode := code_noTerm hnt
  have hll : (b! "JMP " ++ (pre ++ ds)).length ≤ 126 := by simp; omega
  have hlines : lines (b! "JMP " ++ (pre ++ ds)) = [b! "JMP " ++ (pre ++ ds)] := by
    refine lines_single (by simp) fun c hc => ?_
    rintro rfl
    exact absurd (hnt 10 hc) (by decide)
  have hshort : ∀ l ∈ lines (b! "JMP " ++ (pre ++ ds)), l.length ≤ 126 := by
    rw [hlines]; simpa using hll
  have hsize : Sized (b! "JMP " ++ (pre ++ ds)) := sized_of_length (by have : maxSymbols = 21474836 := rfl; omega)
  have hjmp : Spell (b! "JMP") (.mnem .JMP) := .word 74 (b! "MP") (by decide) (by decide) (by decide)
  have hnlb : NoLeadingBlank (pre ++ ds) := by
    intro c r h
    cases hp with
    | hex => obtain ⟨rfl, _⟩ : 36 = c ∧ _ := by simpa using h
             decide
    | bin => obtain ⟨rfl, _⟩ : 37 = c ∧ _ := by simpa using h
             decide
    | dec =>
      obtain rfl : ds = c :: r := by simpa using h
      obtain ⟨v, hv, _⟩ := hd c (by simp)
      have : ∀ c : Byte, (c = 32 ∨ c = 9) → digitValue c = none := by decide +kernel
      constructor <;> rintro rfl <;> rw [this _ (by decide)] at hv <;> cases hv
  constructor
  · intro hs
    have hlit : Spell (pre ++ ds) (.lit (positional b ds)) := IsLiteral.spell ⟨pre, ds, b, hp, rfl, hne, hd, rfl, hs⟩
    have hlex : Lexes (b! "JMP " ++ (pre ++ ds)) [(0, .mnem .JMP), (4, .lit (positional b ds))] := by
      refine ⟨[], b! "JMP " ++ (pre ++ ds), by rw [hcode]; rfl, by simp [Blanks], ?_, ?_⟩
      · intro c r h
        obtain ⟨rfl, _⟩ : 74 = c ∧ _ := by simpa using h
        decide
      · have h1 : Tokens false 4 (pre ++ ds ++ [] ++ []) [(4, .lit (positional b ds))] :=
          .cons false 4 (pre ++ ds) [] [] _ [] hlit (.inr (.inl rfl)) (by simp [Blanks]) (by simp [NoLeadingBlank]) (.done _ _)
        rw [List.append_nil, List.append_nil] at h1
        exact .cons true 0 (b! "JMP") (b! " ") (pre ++ ds) _ _ hjmp (.inr (.inr ⟨32, pre ++ ds, rfl, by decide⟩))
          (by simp [Blanks]) hnlb h1
    have hprog : IsProgram (b! "JMP " ++ (pre ++ ds)) [.instr none .JMP (.plain (.lit (positional b ds)))] := by
      refine ⟨hsize, hshort, ?_, ?_⟩
      · rw [hlines]
        exact .cons _ _ _ _ _ hlex rfl (by simp) .nil
      · refine noForward_of fun st hst => ?_
        obtain rfl : st = _ := by simpa using hst
        simp [IndexedJump, Stmt.jumpsIndexed]
    have hasm : assemble [.instr none .JMP (.plain (.lit (positional b ds)))] =
        some ⟨[(0, [0x4C, UInt8.ofNat (positional b ds % 256), UInt8.ofNat (positional b ds / 256)])], []⟩ := by
      have hm : modeFor .JMP (.plain (.lit (positional b ds))) (positional b ds) = some .abs := rfl
      have he : encode [] ⟨0, .JMP, .abs, some (.lit (positional b ds))⟩ =
          some [0x4C, UInt8.ofNat (positional b ds % 256), UInt8.ofNat (positional b ds / 256)] := by
        show (do let bs ← (if positional b ds ≤ 0xFFFF then some [UInt8.ofNat (positional b ds % 256), UInt8.ofNat (positional b ds / 256)] else none); some (UInt8.ofNat 0x4C :: bs)) = _
        rw [if_pos hs]; rfl
      show (do let cs ← (do let bs ← encode [] ⟨0, .JMP, .abs, some (.lit (positional b ds))⟩; some [(0, bs)]); some (⟨cs, []⟩ : Result)) = _
      rw [he]; rfl
    obtain ⟨bin, k1, k2⟩ := run_assembled hw hprog hasm
    have hh : Harmless (placed [.instr none .JMP (.plain (.lit (positional b ds)))] 1 .init) := by
      have hp : placed [.instr none .JMP (.plain (.lit (positional b ds)))] 1 .init =
          [⟨1, ⟨0, .JMP, .abs, some (.lit (positional b ds))⟩, []⟩] := rfl
      have key : ∀ e : Placed, e ∈ placed [.instr none .JMP (.plain (.lit (positional b ds)))] 1 .init → e.forward.isSome ≠ true := by
        intro e he
        rw [hp] at he
        obtain rfl : e = _ := by simpa using he
        simp [Placed.forward]
      refine ⟨?_, ?_, ?_⟩ <;> intro pre e post he hf <;> exact absurd hf (key e (by rw [he]; simp))
    rw [k2 hh] at k1
    exact k1
  · intro hs
    have hbeg : LineBegins (b! "JMP " ++ (pre ++ ds)) [(0, .mnem .JMP)] 4 (pre ++ ds) := by
      refine ⟨[], b! "JMP " ++ (pre ++ ds), by rw [hcode]; rfl, by simp [Blanks], ?_, ?_⟩
      · intro c r h
        obtain ⟨rfl, _⟩ : 74 = c ∧ _ := by simpa using h
        decide
      · exact .cons true 0 (b! "JMP") (b! " ") (pre ++ ds) _ _ _ _ hjmp (.inr (.inr ⟨32, pre ++ ds, rfl, by decide⟩))
          (by simp [Blanks]) hnlb (.done _ _ _)
    have hcont : Continues (b! "JMP " ++ (pre ++ ds)) [] (b! "JMP " ++ (pre ++ ds)) [] :=
      ⟨hsize, hshort, ⟨[], by rw [hlines]; rfl, .nil⟩, by simp, noForward_of (by simp)⟩
    exact C01_too_big_partial (r := []) hw hcont rfl (by rw [List.append_nil]; exact hbeg) (by decide) hp hne hd (.inl rfl)
      (by rw [Nat.mod_eq_of_lt hv]; exact hs)

/-- Non-vacuity: more than a hundred leading zeros. -/
example : Succeeds (demo (b! "JMP $" ++ (List.replicate 100 48 ++ b! "1a2b"))) (b! "p.asm") (b! "p.bin") [0x4C, 0x2B, 0x1A] 3 0 :=
  (C01_jump_partial (pre := b! "$") (ds := List.replicate 100 48 ++ b! "1a2b") .hex (by decide)
    (by decide +kernel) (by decide) (demo_setup _) (by decide +kernel)).1 (by decide +kernel)

/-! ### C02 -/

/-- **C02.** If a line of the source, after any faultless lines `p` and after any lexemes `ls` of that line, has `$`, `%` or
nothing, digits of that base, and then a character that is neither a digit of the base nor a delimiter, gaia fails with
"illegal character", pointing at exactly that character. -/
theorem C02_illegal_digit {w : World} {srcName outName : Str} {src : List Byte} {p : List Stmt} {l : List Byte} {rest : List (List Byte)}
    {ls : List (Nat × Lexeme)} {off b : Nat} {pre ds r : Str} {c : Byte} (hw : Setup w srcName outName src) (h : Continues src p l rest)
    (he : firstFault p 1 .init = none) (hb : LineBegins l ls off (pre ++ ds ++ c :: r)) (h8 : ls.length ≤ 8) (hp : LitStart pre b)
    (hne : pre ++ ds ≠ []) (hd : ∀ x ∈ ds, IsDigitOf b x) (hc : ¬ IsDigitOf b c) (hr : ¬ Delimited (c :: r)) :
    FailsAt w srcName outName src (p.length + 1) .illegalChar (some (off + (pre.length + ds.length))) :=
  run_bad_line hw h he (fun h => by cases h) (.lexical _ _ (.token ls off _ _ _ hb h8 (.literalChar pre ds b c r hp hne hd hc hr)))

/-- **C02.** `$` and `%` without digits are refused; the arrow points at the character after them. -/
theorem C02_no_digits {w : World} {srcName outName : Str} {src : List Byte} {p : List Stmt} {l : List Byte} {rest : List (List Byte)}
    {ls : List (Nat × Lexeme)} {off b : Nat} {pre r : Str} (hw : Setup w srcName outName src) (h : Continues src p l rest)
    (he : firstFault p 1 .init = none) (hb : LineBegins l ls off (pre ++ r)) (h8 : ls.length ≤ 8) (hp : LitStart pre b)
    (hne : pre ≠ []) (hr : Delimited r) :
    FailsAt w srcName outName src (p.length + 1) .illegalChar (some (off + 1)) :=
  run_bad_line hw h he (fun h => by cases h) (.lexical _ _ (.token ls off _ _ _ hb h8 (.literalEmpty pre b r hp hne hr)))

/-- Non-vacuity: `LDA #$1G` in the second line. -/
example : FailsAt (demo (b! "L: NOP\n LDA #$1G,Y\n")) (b! "p.asm") (b! "p.bin") (b! "L: NOP\n LDA #$1G,Y\n") 2 .illegalChar (some 8) := by
  have hl : LineBegins (b! " LDA #$1G,Y") [(1, .mnem .LDA), (5, .hash)] 6 (b! "$" ++ b! "1" ++ 71 :: b! ",Y") :=
    lineBegins_eval 2 (by decide +kernel)
  exact C02_illegal_digit (p := [.instr (some (b! "L")) .NOP .none]) (rest := []) (demo_setup _)
    ⟨by decide, by decide +kernel, ⟨[b! "L: NOP"], by decide +kernel, reads_eval (by decide +kernel)⟩, by decide, noForward_of (by decide)⟩
    (by decide +kernel) hl (by decide) .hex (by decide) (by decide)
    (by decide) (by decide)
example : demoRun (b! "L: NOP\n LDA #$1G,Y\n") =
    some (1, b! "p.asm:2: ERROR: illegal character\n LDA #$1G,Y\n        ^~~~~~\n\n", some [0xEA]) := by decide +kernel
end Gaia

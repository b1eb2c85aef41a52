import Verif.Props.C50_Disassembly
import Verif.Props.C47_Renaming

/-! C51: which instructions can be written. -/
set_option maxRecDepth 10000
namespace Gaia
open Spec

/-! ### The printed text is read as meant -/

theorem hexDigit_facts : ∀ d < 16, digitValue (hexDigit d) = some d ∧ hexDigit d ≠ 10 ∧ hexDigit d ≠ 13 ∧ hexDigit d ≠ 59 ∧
    hexDigit d ≠ 0 ∧ hexDigit d ≠ 255 := by decide +kernel

theorem spell_hexText {v : Nat} (h : v < 65536) : Spell (hexText v) (.lit v) := by
  have hd : ∀ d, d < 16 → IsDigitOf 16 (hexDigit d) := fun d h => ⟨d, (hexDigit_facts d h).1, h⟩
  have e1 : v / 4096 < 16 := by omega
  have e2 : v / 256 % 16 < 16 := by omega
  have e3 : v / 16 % 16 < 16 := by omega
  have e4 : v % 16 < 16 := by omega
  have hp : positional 16 [hexDigit (v / 4096), hexDigit (v / 256 % 16), hexDigit (v / 16 % 16), hexDigit (v % 16)] = v := by
    simp only [positional, List.foldl_cons, List.foldl_nil, (hexDigit_facts _ e1).1, (hexDigit_facts _ e2).1,
      (hexDigit_facts _ e3).1, (hexDigit_facts _ e4).1, Option.getD_some]
    omega
  have := Spell.hex [hexDigit (v / 4096), hexDigit (v / 256 % 16), hexDigit (v / 16 % 16), hexDigit (v % 16)] (by simp)
    (by intro x hx
        simp only [List.mem_cons, List.not_mem_nil, or_false] at hx
        rcases hx with rfl | rfl | rfl | rfl
        exacts [hd _ e1, hd _ e2, hd _ e3, hd _ e4]) (by rw [hp]; omega)
  rw [hp] at this
  exact this

theorem blanks_nil : Blanks [] := by simp [Blanks]
theorem noLead_nil : NoLeadingBlank [] := by simp [NoLeadingBlank]
theorem noLead_cons {c : Byte} {s : Str} (h : c ≠ 32 ∧ c ≠ 9) : NoLeadingBlank (c :: s) := by
  intro d r he
  obtain ⟨rfl, rfl⟩ : c = d ∧ s = r := by simpa using he
  exact h

theorem tokens_num {off v : Nat} {rest : Str} {ls : List (Nat × Lexeme)} (hv : v < 65536)
    (hr : Tokens false (off + 5) rest ls) (hd : Delimited rest) (hn : NoLeadingBlank rest) :
    Tokens false off (hexText v ++ rest) ((off, .lit v) :: ls) := by
  have := Tokens.cons false off (hexText v) [] rest (.lit v) ls (spell_hexText hv) (.inr hd) blanks_nil hn hr
  simpa using this

theorem tokens_punct {off : Nat} {c : Byte} {x : Lexeme} {rest : Str} {ls : List (Nat × Lexeme)} (hc : punctLexeme c = some x)
    (hx : x.isPunct = true) (hr : Tokens false (off + 1) rest ls) (hn : NoLeadingBlank rest) :
    Tokens false off (c :: rest) ((off, x) :: ls) := by
  have := Tokens.cons false off [c] [] rest x ls (.punct c x hc) (.inl hx) blanks_nil hn hr
  simpa using this

theorem tokens_word {off : Nat} {c : Byte} {x : Lexeme} {rest : Str} {ls : List (Nat × Lexeme)} (hc : isAlpha c = true)
    (hx : wordLexeme [toUpper c] = x) (hr : Tokens false (off + 1) rest ls) (hd : Delimited rest) (hn : NoLeadingBlank rest) :
    Tokens false off (c :: rest) ((off, x) :: ls) := by
  have hs : Spell [c] x := by
    rw [← hx]
    exact Spell.word c [] hc (by simp) (by simp)
  have := Tokens.cons false off [c] [] rest x ls hs (.inr hd) blanks_nil hn hr
  simpa using this

theorem mnemonic_spell (m : Mnemonic) : Spell (mnemonicName m) (.mnem m) := by
  cases m <;> exact Spell.word _ _ (by decide) (by decide) (by decide)

theorem mnemonic_chars : ∀ m ∈ Mnemonic.all, NoLeadingBlank (mnemonicName m) ∧ (mnemonicName m).length = 3 ∧
    ∀ c ∈ mnemonicName m, c ≠ 10 ∧ c ≠ 13 ∧ c ≠ 59 ∧ c ≠ 0 ∧ c ≠ 255 := by
  intro m _
  cases m <;> exact ⟨noLead_cons (by decide), by decide, by decide⟩

theorem tokens_mnemonic {m : Mnemonic} {arg : Str} {ls : List (Nat × Lexeme)} (h : Tokens false 5 arg ls) (hn : NoLeadingBlank arg) :
    Tokens true 1 (mnemonicName m ++ 32 :: arg) ((1, .mnem m) :: ls) := by
  have h3 := (mnemonic_chars m m.mem_all).2.1
  have := Tokens.cons true 1 (mnemonicName m) [32] arg (.mnem m) ls (mnemonic_spell m)
    (.inr (.inr ⟨32, arg, rfl, .inl rfl⟩)) (by simp [Blanks]) hn (by rw [h3]; exact h)
  simpa using this

theorem tokens_bare (m : Mnemonic) : Tokens true 1 (mnemonicName m) [(1, .mnem m)] := by
  have := Tokens.cons true 1 (mnemonicName m) [] [] (.mnem m) [] (mnemonic_spell m) (.inr (.inl rfl)) blanks_nil noLead_nil
    (.done _ _)
  simpa using this

/-- The statement that asks for an instruction. -/
def argOf (i : Insn) : Arg :=
  match i.mode with
  | .imp => .none
  | .acc => .acc
  | .imm => .imm (.lit i.operand)
  | .zp | .abs | .rel => .plain (.lit i.operand)
  | .zpX | .absX => .idxX (.lit i.operand)
  | .zpY | .absY => .idxY (.lit i.operand)
  | .ind => .ind (.lit i.operand)
  | .indX => .indX (.lit i.operand)
  | .indY => .indY (.lit i.operand)

theorem hexText_chars {v : Nat} (hv : v < 65536) : ∀ c ∈ hexText v, c ≠ 10 ∧ c ≠ 13 ∧ c ≠ 59 ∧ c ≠ 0 ∧ c ≠ 255 := by
  intro c hc
  simp only [hexText, List.mem_cons, List.not_mem_nil, or_false] at hc
  have key : ∀ d, d < 16 → hexDigit d ≠ 10 ∧ hexDigit d ≠ 13 ∧ hexDigit d ≠ 59 ∧ hexDigit d ≠ 0 ∧ hexDigit d ≠ 255 :=
    fun d hd => (hexDigit_facts d hd).2
  rcases hc with rfl | rfl | rfl | rfl | rfl
  · decide
  all_goals exact key _ (by omega)

theorem operandText_chars {i : Insn} (hv : i.operand < 65536) :
    ∀ c ∈ i.operandText, c ≠ 10 ∧ c ≠ 13 ∧ c ≠ 59 ∧ c ≠ 0 ∧ c ≠ 255 := by
  intro c hc
  have hx := hexText_chars hv
  unfold Insn.operandText at hc
  cases hm : i.mode <;> rw [hm] at hc <;> simp only [List.mem_append, List.mem_cons, List.not_mem_nil, or_false] at hc <;>
    first
    | exact hx c (by tauto)
    | (rcases hc with hc | hc <;> first | exact hx c hc | (subst hc; decide) | (rcases hc with rfl | rfl <;> decide))
    | (rcases hc with (hc | hc) | hc <;> first | exact hx c hc | (subst hc; decide) | (rcases hc with rfl | rfl <;> decide) | (rcases hc with rfl | rfl | rfl <;> decide))
    | (rcases hc with rfl | rfl <;> decide)

/-- Lexemes of the written operand. -/
theorem operandText_tokens (i : Insn) (hv : i.operand < 65536) : ∃ ls, parseArg (ls.map (·.2)) = some (argOf i) ∧
    Tokens true 1 (mnemonicName i.mnemonic ++ i.operandText) ((1, .mnem i.mnemonic) :: ls) := by
  obtain ⟨m, md, v⟩ := i
  simp only at hv
  have dn : ∀ off, Tokens false off [] [] := fun off => .done false off
  have hx : ∀ s, NoLeadingBlank (hexText v ++ s) := fun s => noLead_cons (by decide)
  have d0 : Delimited [] := .inl rfl
  have dc : ∀ s, Delimited (44 :: s) := fun s => .inr ⟨44, s, rfl, by decide⟩
  have dr : ∀ s, Delimited (41 :: s) := fun s => .inr ⟨41, s, rfl, by decide⟩
  have nn : NoLeadingBlank [] := noLead_nil
  have plain : Tokens false 5 (hexText v ++ []) [(5, .lit v)] := tokens_num hv (dn _) d0 nn
  have idxX : Tokens false 5 (hexText v ++ [44, 88]) _ := tokens_num hv (tokens_punct (x := .comma) (by decide) rfl
    (tokens_word (c := 88) (x := .regX) (by decide) (by decide) (dn _) d0 nn) (noLead_cons (by decide))) (dc _) (noLead_cons (by decide))
  have idxY : Tokens false 5 (hexText v ++ [44, 89]) _ := tokens_num hv (tokens_punct (x := .comma) (by decide) rfl
    (tokens_word (c := 89) (x := .regY) (by decide) (by decide) (dn _) d0 nn) (noLead_cons (by decide))) (dc _) (noLead_cons (by decide))
  cases md with
  | imp => exact ⟨[], rfl, by simpa [Insn.operandText] using tokens_bare m⟩
  | acc => exact ⟨_, rfl, tokens_mnemonic (tokens_word (c := 65) (x := .regA) (by decide) (by decide) (dn _) d0 nn) (noLead_cons (by decide))⟩
  | imm =>
    refine ⟨_, ?_, tokens_mnemonic (arg := 35 :: (hexText v ++ [])) (tokens_punct (x := .hash) (by decide) rfl (tokens_num hv (dn _) d0 nn) (hx _)) (noLead_cons (by decide))⟩
    rfl
  | zp => exact ⟨_, rfl, tokens_mnemonic plain (hx _)⟩
  | abs => exact ⟨_, rfl, tokens_mnemonic plain (hx _)⟩
  | rel => exact ⟨_, rfl, tokens_mnemonic plain (hx _)⟩
  | zpX => exact ⟨_, rfl, tokens_mnemonic idxX (hx _)⟩
  | absX => exact ⟨_, rfl, tokens_mnemonic idxX (hx _)⟩
  | zpY => exact ⟨_, rfl, tokens_mnemonic idxY (hx _)⟩
  | absY => exact ⟨_, rfl, tokens_mnemonic idxY (hx _)⟩
  | ind =>
    refine ⟨_, ?_, tokens_mnemonic (arg := 40 :: (hexText v ++ [41])) (tokens_punct (x := .lpar) (by decide) rfl (tokens_num hv
      (tokens_punct (x := .rpar) (by decide) rfl (dn _) nn) (dr _) (noLead_cons (by decide))) (hx _)) (noLead_cons (by decide))⟩
    rfl
  | indX =>
    refine ⟨_, ?_, tokens_mnemonic (arg := 40 :: (hexText v ++ [44, 88, 41])) (tokens_punct (x := .lpar) (by decide) rfl (tokens_num hv
      (tokens_punct (x := .comma) (by decide) rfl (tokens_word (c := 88) (x := .regX) (by decide) (by decide)
        (tokens_punct (x := .rpar) (by decide) rfl (dn _) nn) (dr _) (noLead_cons (by decide))) (noLead_cons (by decide)))
      (dc _) (noLead_cons (by decide))) (hx _)) (noLead_cons (by decide))⟩
    rfl
  | indY =>
    refine ⟨_, ?_, tokens_mnemonic (arg := 40 :: (hexText v ++ [41, 44, 89])) (tokens_punct (x := .lpar) (by decide) rfl (tokens_num hv
      (tokens_punct (x := .rpar) (by decide) rfl (tokens_punct (x := .comma) (by decide) rfl
        (tokens_word (c := 89) (x := .regY) (by decide) (by decide) (dn _) d0 nn) (noLead_cons (by decide))) (noLead_cons (by decide)))
      (dr _) (noLead_cons (by decide))) (hx _)) (noLead_cons (by decide))⟩
    rfl

/-- The line without its newline. -/
def Spec.Insn.line (i : Insn) : Str := 32 :: (mnemonicName i.mnemonic ++ i.operandText)

theorem line_chars {i : Insn} (hv : i.operand < 65536) : ∀ c ∈ i.line, c ≠ 10 ∧ c ≠ 13 ∧ c ≠ 59 ∧ c ≠ 0 ∧ c ≠ 255 := by
  intro c hc
  rcases List.mem_cons.1 hc with rfl | hc
  · decide
  · rcases List.mem_append.1 hc with hc | hc
    · exact (mnemonic_chars _ i.mnemonic.mem_all).2.2 c hc
    · exact operandText_chars hv c hc

theorem line_lexes {i : Insn} (hv : i.operand < 65536) :
    ∃ x, Lexes i.line x ∧ parse (x.map (·.2)) = some (.instr none i.mnemonic (argOf i)) := by
  obtain ⟨ls, h1, h2⟩ := operandText_tokens i hv
  refine ⟨_, ⟨[32], mnemonicName i.mnemonic ++ i.operandText, ?_, by simp [Blanks], ?_, h2⟩, ?_⟩
  · unfold code
    have hall : ∀ c ∈ i.line, (fun c : Byte => !(c == 13 || c == 10 || c == 59 || c == 0 || c == 255)) c = true := by
      intro c hc
      obtain ⟨h1, h2, h3, h4, h5⟩ := line_chars hv c hc
      simp [h1, h2, h3, h4, h5]
    have := List.takeWhile_append_of_pos (l₂ := []) hall
    rw [List.append_nil] at this
    rw [this]
    simp [Spec.Insn.line]
  · have h3 := (mnemonic_chars _ i.mnemonic.mem_all)
    intro c r he
    cases hm : mnemonicName i.mnemonic with
    | nil => rw [hm] at h3; simp at h3
    | cons d ds =>
      rw [hm] at he
      exact h3.1 c ds (by rw [hm]; simp at he; rw [he.1])
  · simp [parse, h1]

theorem text_eq (i : Insn) : i.text = i.line ++ [10] := by simp [Insn.text, Spec.Insn.line]

theorem line_length (i : Insn) : i.line.length ≤ 14 := by
  have h3 := (mnemonic_chars _ i.mnemonic.mem_all).2.1
  have : i.operandText.length ≤ 10 := by
    unfold Insn.operandText
    cases i.mode <;> simp [hexText]
  simp [Spec.Insn.line, h3]; omega

theorem lines_texts : ∀ {is : List Insn}, (∀ i ∈ is, i.operand < 65536) → lines (is.flatMap Insn.text) = is.map Spec.Insn.line
  | [], _ => rfl
  | i :: is, h => by
    rw [List.flatMap_cons, text_eq, List.append_assoc, List.singleton_append,
      lines_line fun c hc => (line_chars (h i (by simp)) c hc).1, lines_texts fun j hj => h j (by simp [hj])]
    rfl

/-- The program made of the instructions. -/
def programOf (is : List Insn) : List Stmt := is.map fun i => .instr none i.mnemonic (argOf i)

theorem reads_texts : ∀ {is : List Insn}, (∀ i ∈ is, i.operand < 65536) → Reads (is.map Spec.Insn.line) (programOf is)
  | [], _ => .nil
  | i :: is, h => by
    obtain ⟨x, h1, h2⟩ := line_lexes (h i (by simp))
    exact .cons _ _ x _ _ h1 h2 (by simp) (reads_texts fun j hj => h j (by simp [hj]))

theorem valid_small {i : Insn} (h : i.Valid) : i.operand < 65536 := by
  have := h.2
  rcases mode_bytes_cases i.mode with hb | hb | hb <;> rw [hb] at this <;> omega

theorem programOf_isProgram {is : List Insn} (h : ∀ i ∈ is, i.Valid) (hs : Sized (is.flatMap Insn.text)) :
    IsProgram (is.flatMap Insn.text) (programOf is) where
  size := hs
  short := by
    intro l hl
    rw [lines_texts fun i hi => valid_small (h i hi)] at hl
    obtain ⟨i, _, rfl⟩ := List.mem_map.1 hl
    have := line_length i
    omega
  reads := by
    rw [lines_texts fun i hi => valid_small (h i hi)]
    exact reads_texts fun i hi => valid_small (h i hi)
  noForwardJump := by
    intro before st after l he hj
    have : st ∈ programOf is := by rw [he]; simp
    obtain ⟨i, _, rfl⟩ := List.mem_map.1 this
    exfalso
    revert hj
    generalize i.mnemonic = m
    unfold argOf
    cases i.mode <;> cases m <;> simp [Stmt.jumpsIndexed]

/-! ### The mode gaia chooses is the mode meant -/

theorem opcode_kinds : ∀ m ∈ Mnemonic.all,
    ((opcode? m .zp).isSome = true → Spec.isBranch m = false ∧ Spec.isJump m = false) ∧
    ((opcode? m .abs).isSome = true → Spec.isBranch m = false) ∧
    ((opcode? m .zpX).isSome = true → Spec.isJump m = false) ∧ ((opcode? m .zpY).isSome = true → Spec.isJump m = false) ∧
    ((opcode? m .absX).isSome = true → Spec.isJump m = false) ∧ ((opcode? m .absY).isSome = true → Spec.isJump m = false) := by
  decide +kernel

theorem writable_mode {i : Insn} (h : i.Writable) : modeFor i.mnemonic (argOf i) i.operand = some i.mode := by
  obtain ⟨m, md, v⟩ := i
  obtain ⟨⟨h1, h2⟩, h3⟩ := h
  simp only at h1 h2 h3
  obtain ⟨k1, k2, k3, k4, k5, k6⟩ := opcode_kinds m m.mem_all
  unfold modeFor
  rw [Option.filter_eq_some_iff]
  refine ⟨?_, h1⟩
  unfold argOf
  cases md <;> simp only [wantedMode, Mode.bytes] at h1 h2 h3 ⊢
  case imp => simp [h1]
  case imm => simp; omega
  case rel => simp [Spec.isBranch, h1]
  case zp => simp [k1 h1]; omega
  case abs =>
    simp only [k2 h1]
    by_cases hj : Spec.isJump m = true
    · simp [hj]
    · simp only [Bool.not_eq_true] at hj
      have := h3 trivial (by decide) hj
      simp [hj]; omega
  case zpX => simp [k3 h1]; omega
  case zpY => simp [k4 h1]; omega
  case absX => have := h3 trivial (by decide) (k5 h1); simp [k5 h1]; omega
  case absY => have := h3 trivial (by decide) (k6 h1); simp [k6 h1]; omega
  case indX => simp; omega
  case indY => simp; omega

theorem argOf_opd (i : Insn) : (argOf i).opd = if i.mode.bytes = 1 then none else some (.lit i.operand) := by
  unfold argOf
  cases hm : i.mode <;> simp [Arg.opd, Mode.bytes]

theorem argOf_sizing {i : Insn} (h : i.Valid) (env : Env) (m : Mnemonic) : sizingValue env m (argOf i).opd = some i.operand := by
  rw [argOf_opd]
  split_ifs with hb
  · have := h.2
    rw [hb] at this
    simp [sizingValue]; omega
  · rfl

/-- The item of an instruction at an address. -/
def itemOf (a : Nat) (i : Insn) : Item := ⟨a, i.mnemonic, i.mode, (argOf i).opd⟩

theorem itemOf_encode {i : Insn} (h : i.Valid) (a : Nat) : encode [] (itemOf a i) = some i.bytes := by
  obtain ⟨h1, h2⟩ := h
  obtain ⟨op, hop⟩ := Option.isSome_iff_exists.1 h1
  unfold encode itemOf Insn.bytes
  simp only [hop, Option.bind_eq_bind, Option.bind_some, Option.getD_some, argOf_opd]
  rcases mode_bytes_cases i.mode with hb | hb | hb <;> rw [hb] at h2 <;> simp only [operandBytes, hb]
  · rfl
  · simp [opdValue, show i.operand ≤ 255 by omega]
  · have hr : i.mode ≠ .rel := fun hr => by rw [hr] at hb; cases hb
    simp [opdValue, hr, show i.operand ≤ 65535 by omega]

theorem programOf_pass1 : ∀ {is : List Insn}, (∀ i ∈ is, i.Writable) → ∀ s : Pass1, s.env = [] →
    ∃ s', pass1 (programOf is) s = some s' ∧ s'.env = [] ∧ ∃ new, s'.items = s.items ++ new ∧
      List.Forall₂ (fun it i => ∃ a, it = itemOf a i) new is
  | [], _, s, hs => ⟨s, rfl, hs, [], by simp, .nil⟩
  | i :: is, h, s, hs => by
    have hp : place s i.mnemonic (argOf i) =
        some { s with pc := s.pc + i.mode.bytes, items := s.items ++ [itemOf s.pc i] } := by
      unfold place
      rw [argOf_sizing (h i (by simp)).1, Option.bind_eq_bind, Option.bind_some, writable_mode (h i (by simp))]
      rfl
    obtain ⟨s', g1, g2, new, g3, g4⟩ := programOf_pass1 (is := is) (fun j hj => h j (by simp [hj]))
      { s with pc := s.pc + i.mode.bytes, items := s.items ++ [itemOf s.pc i] } hs
    refine ⟨s', ?_, g2, itemOf s.pc i :: new, ?_, .cons ⟨_, rfl⟩ g4⟩
    · show pass1 (.instr none i.mnemonic (argOf i) :: programOf is) s = _
      rw [pass1]
      · simp only [pass1Stmt, hp, Option.bind_eq_bind, Option.bind_some]; exact g1
      · simp
    · rw [g3]; simp

/-- **C51.** Everything the machine can do that gaia's language can ask for, gaia assembles: take any list of 6502
instructions, each with any operand that fits (and not an absolute address in page zero, unless it is a jump). Written out
one per line, gaia succeeds, and the output is exactly the bytes of these instructions. -/
theorem C51_instructions {w : World} {srcName outName : Str} {is : List Insn}
    (hw : Setup w srcName outName (is.flatMap Insn.text)) (hi : ∀ i ∈ is, i.Writable)
    (hs : Sized (is.flatMap Insn.text)) :
    Succeeds w srcName outName (is.flatMap Insn.bytes) (is.flatMap Insn.bytes).length 0 := by
  have hp := programOf_isProgram (fun i h => (hi i h).1) hs
  have hno : NoOrigin (programOf is) := by
    intro v hv
    obtain ⟨i, _, h⟩ := List.mem_map.1 hv
    cases h
  obtain ⟨s, h1, h2, new, h3, h4⟩ := programOf_pass1 hi .init rfl
  have hnew : s.items = new := by rw [h3]; rfl
  have hall : ∀ it ∈ new, ∃ bs, encode [] it = some bs := by
    clear h3 hnew hp hno hs hw
    intro it hit
    obtain ⟨k, hk, rfl⟩ := List.getElem_of_mem hit
    obtain ⟨a, ha⟩ := (List.forall₂_iff_get.1 h4).2 k hk (by rw [← h4.length_eq]; exact hk)
    simp only [List.get_eq_getElem] at ha
    rw [ha]
    exact ⟨_, itemOf_encode (hi _ (List.getElem_mem _)).1 a⟩
  have h5 : assemble (programOf is) = some ⟨new.map fun it => (it.addr, (encode [] it).getD []), []⟩ := by
    unfold assemble
    have : pass1 (programOf is) ⟨0, [], []⟩ = some s := h1
    rw [this, Option.bind_eq_bind, Option.bind_some, h2, hnew,
      pass2_all (f := fun it => (encode [] it).getD []) fun it hit => by obtain ⟨bs, hb⟩ := hall it hit; rw [hb]; rfl]
    rfl
  have hsucc := C26_assembles hw hp (noOrigin_ascending hno) h5
  obtain ⟨s', is', g1, _, _, g4, _, g5⟩ := C50_disassembly hw hp hno hsucc
  rw [h1] at g1
  obtain rfl : s = s' := by simpa using g1
  rw [hnew, h2] at g4
  have hsame : ∀ {new : List Item} {is is' : List Insn}, (∀ i ∈ is, i.Valid) → List.Forall₂ (fun it i => ∃ a, it = itemOf a i) new is →
      List.Forall₂ (MachineForm []) new is' → is' = is := by
    intro new is is' hv h
    induction h generalizing is' with
    | nil => intro h; cases h; rfl
    | @cons it i new is ha _ ih =>
      rintro ⟨⟩
      rename_i j js hm hms
      rw [ih (fun k hk => hv k (by simp [hk])) hms]
      congr 1
      obtain ⟨a, rfl⟩ := ha
      have hvi := (hv i (by simp)).2
      have : j.operand = i.operand := by
        by_cases hb : i.mode.bytes = 1
        · rw [hm.nothing (by simp [itemOf, argOf_opd, hb])]
          rw [hb] at hvi; omega
        · rw [hm.value (.lit i.operand) i.operand (by simp [itemOf, argOf_opd, hb]) rfl fun _ => ⟨_, rfl⟩]
          exact Nat.mod_eq_of_lt hvi
      have h1 := hm.mnemonic
      have h2 := hm.mode
      cases i; cases j
      simp_all [itemOf]
  obtain rfl := hsame (fun i h => (hi i h).1) h4 g4
  obtain ⟨⟨s', k1, k2⟩, _⟩ := C29_totals hw hp hsucc
  rw [h1] at k1
  obtain rfl : s = s' := by simpa using k1
  have hlen : (is'.flatMap Insn.bytes).length = (s.items.map (·.mode.bytes)).sum := by
    rw [hnew]
    have : ∀ {new : List Item} {is : List Insn}, List.Forall₂ (fun it i => ∃ a, it = itemOf a i) new is →
        (is.flatMap Insn.bytes).length = (new.map (·.mode.bytes)).sum := by
      intro new is h
      induction h with
      | nil => rfl
      | @cons it i new is ha _ ih =>
      obtain ⟨a, rfl⟩ := ha
      rw [List.flatMap_cons, List.length_append, ih]
      simp only [List.map_cons, List.sum_cons, itemOf]
      congr 1
      unfold Insn.bytes
      rcases mode_bytes_cases i.mode with hb | hb | hb <;> simp [hb]
    exact this h4
  rw [hlen, ← k2, g5]
  exact hsucc

theorem modeFor_three {m : Mnemonic} {a : Arg} {v : Nat} {md : Mode} (h : modeFor m a v = some md) (h3 : md.bytes = 3)
    (hi : md ≠ .ind) (hj : Spec.isJump m = false) : 0xFF < v ∧ Spec.isBranch m = false ∧ a.opd ≠ none := by
  unfold modeFor at h
  obtain ⟨h1, h2⟩ := Option.filter_eq_some_iff.1 h
  by_contra hc
  have hbr : md.bytes = 3 → Spec.isBranch m = true → md ≠ .abs := by
    rintro _ hb rfl
    have := (opcode_kinds m m.mem_all).2.1 h2
    rw [this] at hb; cases hb
  unfold wantedMode at h1
  have hx : ∀ m ∈ Mnemonic.all, (opcode? m .absX).isSome = true ∨ (opcode? m .absY).isSome = true → Spec.isBranch m = false := by
    decide +kernel
  have hbm : Spec.isBranch m = false := by
    cases hb : Spec.isBranch m with
    | false => rfl
    | true =>
      exfalso
      cases md <;> simp [Mode.bytes] at h3
      · exact hbr rfl hb rfl
      · have := hx m m.mem_all (.inl h2); rw [hb] at this; cases this
      · have := hx m m.mem_all (.inr h2); rw [hb] at this; cases this
      · exact hi rfl
  have hone : a.opd ≠ none := by
    intro ha
    cases a <;> simp only [Arg.opd] at ha <;> simp only at h1
    · split_ifs at h1 <;> (obtain rfl := Option.some.inj h1; cases h3)
    · obtain rfl := Option.some.inj h1; cases h3
    all_goals cases ha
  have hv : v ≤ 0xFF := by
    by_contra hv
    exact hc ⟨by omega, hbm, hone⟩
  have hs : decide (v ≤ 0xFF) = true := by simpa using hv
  cases a <;> simp only [hs, hbm, hj, if_true, if_false, Bool.not_false, Bool.and_self, Bool.false_eq_true] at h1
  · split_ifs at h1 <;> (obtain rfl := Option.some.inj h1; cases h3)
  all_goals first
    | (obtain rfl := Option.some.inj h1; first | exact hi rfl | cases h3)

theorem machineForm_writable {env : Env} {e : Placed} {i : Insn} (hm : Made e)
    (hk : ∀ l v, e.known.lookup l = some v → env.lookup l = some v) (hf : Fits env e.item) (hi : i.Valid)
    (h : MachineForm env e.item i) : i.Writable := by
  refine ⟨hi, fun h3 hind hj => ?_⟩
  rw [h.mode] at h3 hind
  rw [h.mnemonic] at hj
  obtain ⟨a, v, h1, h2, hmode⟩ := hm
  obtain ⟨g1, g2, g3⟩ := modeFor_three hmode h3 hind hj
  have hr : e.item.mode ≠ .rel := fun hr => by rw [hr] at h3; cases h3
  obtain ⟨o, ho⟩ := Option.ne_none_iff_exists'.1 g3
  rw [ho] at h1 h2
  have hval : opdValue env o = some v ∧ v ≤ 0xFFFF := by
    cases o with
    | lit n =>
      obtain rfl : n = v := by simpa [sizingValue] using h2
      exact ⟨rfl, (hf.1 n h1.symm).1 h3⟩
    | sym l =>
      simp only [sizingValue] at h2
      cases hl : e.known.lookup l with
      | none => rw [hl] at h2; simp [g2, hj] at h2
      | some t =>
        rw [hl] at h2
        obtain rfl : t = v := by simpa using h2
        exact ⟨hk l t hl, hf.2 l t h1.symm (hk l t hl) h3⟩
  rw [h.value o v h1.symm hval.1 fun hh => absurd hh hr, h3]
  have := hval.2
  omega

/-- **C51, the other direction.** gaia never produces anything else: if it succeeds on a program that does not set the origin
and whose operands fit, every instruction found by disassembling the output is one of those above. In particular a
program cannot access page zero by an absolute address. -/
theorem C51_only {w : World} {srcName outName : Str} {src : List Byte} {p : List Stmt} (hw : Setup w srcName outName src)
    (hp : IsProgram src p) (hno : NoOrigin p) (hin : InRange p) {bin : List Byte} {total symbols : Nat}
    (hs : Succeeds w srcName outName bin total symbols) :
    ∃ is, disassemble bin = some is ∧ ∀ i ∈ is, i.Writable := by
  obtain ⟨s, is, h1, h2, _, h4, h5, _⟩ := C50_disassembly hw hp hno hs
  refine ⟨is, h2, fun i hi => ?_⟩
  obtain ⟨g1, g2⟩ := placed_made p 1 h1
  have g1 : s.items = (placed p 1 .init).map (·.item) := by simpa [Pass1.init] using g1
  obtain ⟨k, hk, rfl⟩ := List.getElem_of_mem hi
  have hk' : k < s.items.length := by rw [h4.length_eq]; exact hk
  have hmf := (List.forall₂_iff_get.1 h4).2 k hk' hk
  simp only [List.get_eq_getElem] at hmf
  have hit : s.items[k] ∈ s.items := List.getElem_mem _
  have hfit := hin s h1 _ hit
  have hit' : ∀ it ∈ s.items, ∃ e ∈ placed p 1 .init, e.item = it := by
    intro it h
    rw [g1] at h
    exact List.mem_map.1 h
  obtain ⟨e, he, hee⟩ := hit' _ hit
  rw [← hee] at hmf hfit
  have hvalid : (is[k]).Valid := h5 _ hi
  exact machineForm_writable (g2 e he).1 (g2 e he).2 hfit hvalid hmf

/-- **C51, round trip.** If gaia succeeds on a program that does not set the origin and whose operands fit, then disassembling
the output and assembling the result again gives the same output. -/
theorem C51_round_trip {w w' : World} {srcName outName srcName' outName' : Str} {src : List Byte} {p : List Stmt}
    (hw : Setup w srcName outName src) (hp : IsProgram src p) (hno : NoOrigin p) (hin : InRange p) {bin : List Byte}
    {total symbols : Nat} (hs : Succeeds w srcName outName bin total symbols) {is : List Insn} (hd : disassemble bin = some is)
    (hw' : Setup w' srcName' outName' (is.flatMap Insn.text)) (hsize : Sized (is.flatMap Insn.text)) :
    Succeeds w' srcName' outName' bin bin.length 0 := by
  obtain ⟨_, is', _, h2, _, _, _, h5⟩ := C50_disassembly hw hp hno hs
  rw [hd] at h2
  obtain rfl : is = is' := by simpa using h2
  obtain ⟨is', h3, h4⟩ := C51_only hw hp hno hin hs
  rw [hd] at h3
  obtain rfl : is = is' := by simpa using h3
  have := C51_instructions hw' h4 hsize
  rwa [h5] at this

/-- Six instructions of different kinds, as text and as bytes. -/
def c51Insns : List Insn := [⟨.LDA, .absX, 0x1234⟩, ⟨.STA, .indY, 0xFE⟩, ⟨.JMP, .ind, 0x10⟩, ⟨.BNE, .rel, 0xFB⟩, ⟨.ASL, .acc, 0⟩, ⟨.RTS, .imp, 0⟩]

instance (i : Insn) : Decidable i.Valid := by unfold Insn.Valid; infer_instance
instance (i : Insn) : Decidable i.Writable := by unfold Insn.Writable; infer_instance

example : (∀ i ∈ c51Insns, i.Writable) ∧ Sized (c51Insns.flatMap Insn.text) ∧
    c51Insns.flatMap Insn.text = b! " LDA $1234,X\n STA ($00FE),Y\n JMP ($0010)\n BNE $00FB\n ASL A\n RTS\n" ∧
    c51Insns.flatMap Insn.bytes = [0xBD, 0x34, 0x12, 0x91, 0xFE, 0x6C, 0x10, 0, 0xD0, 0xFB, 0x0A, 0x60] := by decide +kernel

example : Succeeds (demo (c51Insns.flatMap Insn.text)) (b! "p.asm") (b! "p.bin")
    [0xBD, 0x34, 0x12, 0x91, 0xFE, 0x6C, 0x10, 0, 0xD0, 0xFB, 0x0A, 0x60] 12 0 :=
  have hb : c51Insns.flatMap Insn.bytes = [0xBD, 0x34, 0x12, 0x91, 0xFE, 0x6C, 0x10, 0, 0xD0, 0xFB, 0x0A, 0x60] := by decide +kernel
  hb ▸ C51_instructions (demo_setup (c51Insns.flatMap Insn.text)) (by decide +kernel) (by decide +kernel)

/-- The program of `c50Src` meets the hypotheses of the round trip. -/
example : IsProgram c50Src c50Prog ∧ NoOrigin c50Prog ∧ InRange c50Prog := by
  have hp : IsProgram c50Src c50Prog :=
    isProgram_eval (by decide +kernel) (by decide +kernel) (by decide +kernel) (by decide +kernel)
  refine ⟨hp, fun v hv => by simp [c50Prog] at hv, ?_⟩
  have h : ∃ r, assemble c50Prog = some r := Option.isSome_iff_exists.1 (by decide +kernel)
  exact assemble_inRange h.choose_spec

/-- Not writable, though the 6502 has them: absolute addresses in page zero. With an index register Y the line is even
refused, because gaia looks only for the missing zero-page form. -/
theorem C51_not_writable : (⟨.LDA, .abs, 0x10⟩ : Insn).Valid ∧ ¬ (⟨.LDA, .abs, 0x10⟩ : Insn).Writable ∧
    (⟨.LDA, .absY, 0x10⟩ : Insn).Valid ∧
    Succeeds (demo (b! " LDA $0010\n")) (b! "p.asm") (b! "p.bin") [0xA5, 0x10] 2 0 ∧
    FailsAt (demo (b! " LDA $0010,Y\n")) (b! "p.asm") (b! "p.bin") (b! " LDA $0010,Y\n") 1 .illegalAddressingMode none := by
  refine ⟨by decide +kernel, by decide +kernel, by decide +kernel, demo_succeeds (by decide +kernel), ?_⟩
  have hp : IsProgram (b! " LDA $0010,Y\n") [.instr none .LDA (.idxY (.lit 0x10))] :=
    isProgram_eval (by decide +kernel) (by decide +kernel) (by decide +kernel) (by decide +kernel)
  obtain ⟨l, x, _, _, h⟩ := run_error (demo_setup _) hp (k := 1) (e := .illegalAddressingMode) (by decide +kernel)
  exact h

end Gaia

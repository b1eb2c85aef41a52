import Verif.Props.C01_Literals

/-! C03, C09: words. -/
set_option maxRecDepth 10000
namespace Gaia
open Spec

/-- What a token records about a word: its type, and its text in upper case. -/
def wordType (w : Str) : TokenType :=
  match wordLexeme w with
  | .regX => .xRegister
  | .regY => .yRegister
  | .regA => .accumulator
  | .mnem _ => .instruction
  | _ => .label

theorem wordType_eq (w : Str) : wordType w = lexType (wordLexeme w) := by
  unfold wordType wordLexeme
  split_ifs with h1 h2 h3
  all_goals first | rfl | skip
  cases hf : Mnemonic.all.find? (fun m => mnemonicName m = w) with
  | none => rfl
  | some m => rfl

theorem wordLexeme_value (w : Str) (v : Nat) : lexValue v (wordLexeme w) = v := by
  unfold wordLexeme
  split_ifs with h1 h2 h3
  all_goals first | rfl | skip
  cases Mnemonic.all.find? (fun m => mnemonicName m = w) <;> rfl

/-- **C03, the scanner.** A word of up to 63 characters, followed by a delimiter, the end of the meaningful text or a
colon, is read in full, in upper case; one of 64 or more is refused (whatever follows). -/
theorem C03_word_scanned {t r : Str} (ht : IsWord t) (off : Nat) (tk : Token) (instr : Instr) :
    (t.length ≤ 63 → (Ends r ∨ ∃ q, r = 58 :: q) →
      ∃ instr', lex off (t ++ r) tk instr =
        .ok (t.length, { tk with type := wordType (t.map toUpper), str := t.map toUpper, bufferLocation := some off }, instr')) ∧
    (64 ≤ t.length → lex off (t ++ r) tk instr = .err (.tooLongLabel, off)) := by
  have hne : t ++ r ≠ [] := by
    obtain ⟨c, u, rfl, _⟩ := ht
    simp
  rw [lex_eq _ _ _ _ hne, lexOne_word ht, wordBody_eq]
  constructor
  · intro hl hr
    have hstop : isTextStop (rd r) = true := by
      rw [textStop_iff]
      rcases hr with hr | ⟨q, rfl⟩
      · exact .inl (ends_eot hr)
      · exact .inr rfl
    obtain ⟨d1, d2⟩ := word_append (r := r) ht (by rintro c r' rfl; exact byte_stop_word c hstop)
    rw [d1, d2, if_neg (by omega), if_pos hstop]
    refine ⟨updInstr instr (wordLexeme (t.map toUpper)), ?_⟩
    simp only [applyOne, updTok, wordLexeme_str, wordLexeme_value, ← wordType_eq]
  · intro hl
    rw [if_pos]
    · rfl
    · obtain ⟨c, u, rfl, hc, hu⟩ := ht
      have hall : ∀ x ∈ c :: u, Spec.wordChar x = true := by
        intro x hx
        rcases List.mem_cons.1 hx with rfl | hx
        · exact byte_alpha_word _ hc
        · exact hu x hx
      unfold word
      rw [List.takeWhile_append_of_pos hall, List.length_append]
      omega

/-- Non-vacuity: 63 and 64 characters. -/
example : ∃ i, lex 0 (List.replicate 63 97 ++ b! ": NOP") {} {} =
    .ok (63, { type := .label, str := List.replicate 63 65, bufferLocation := some 0 }, i) := by
  have h := (C03_word_scanned (t := List.replicate 63 97) (r := b! ": NOP") ⟨97, List.replicate 62 97, rfl, by decide, by decide +kernel⟩ 0 {} {}).1
    (by decide) (.inr ⟨_, rfl⟩)
  have e1 : wordType ((List.replicate 63 97).map toUpper) = .label := by decide +kernel
  have e2 : (List.replicate 63 (97 : UInt8)).map toUpper = List.replicate 63 65 := by decide +kernel
  rw [e1, e2] at h
  exact h
example : lex 0 (List.replicate 64 97 ++ b! ": NOP") {} {} = .err (.tooLongLabel, 0) :=
  (C03_word_scanned (t := List.replicate 64 97) (r := b! ": NOP") ⟨97, List.replicate 63 97, rfl, by decide, by decide +kernel⟩ 0 {} {}).2
    (by decide)

/-- **C03, refusal in every context.** A word of 64 or more characters, after any faultless lines and any lexemes of its
line, makes gaia fail with "label exceeds 63 characters", pointing at the word. -/
theorem C03_too_long {w : World} {srcName outName : Str} {src : List Byte} {p : List Stmt} {l : List Byte} {rest : List (List Byte)}
    {ls : List (Nat × Lexeme)} {off : Nat} {t r : Str} (hw : Setup w srcName outName src) (h : Continues src p l rest)
    (he : firstFault p 1 .init = none) (hb : LineBegins l ls off (t ++ r)) (h8 : ls.length ≤ 8) (ht : IsWord t)
    (hlen : 64 ≤ t.length) : FailsAt w srcName outName src (p.length + 1) .tooLongLabel (some off) :=
  run_bad_line hw h he (fun h => by cases h) (.lexical _ _ (.token ls off _ _ 0 hb h8 (.wordLong t r ht hlen)))

/-- Non-vacuity. -/
example : FailsAt (demo (b! "NOP\n JMP " ++ List.replicate 64 97)) (b! "p.asm") (b! "p.bin") (b! "NOP\n JMP " ++ List.replicate 64 97)
    2 .tooLongLabel (some 5) :=
  C03_too_long (p := [.instr none .NOP .none]) (l := b! " JMP " ++ List.replicate 64 97) (rest := []) (ls := [(1, .mnem .JMP)])
    (t := List.replicate 64 97) (r := []) (demo_setup _)
    ⟨by decide, by decide +kernel, ⟨[b! "NOP"], by decide +kernel, reads_eval (by decide +kernel)⟩, by decide, noForward_of (by decide)⟩ rfl
    (lineBegins_eval 1 (by decide +kernel)) (by decide) ⟨97, List.replicate 63 97, rfl, by decide, by decide +kernel⟩ (by decide)

theorem Spec.IsWord.noTerm {t : Str} (ht : IsWord t) : NoTerm t := by
  have : ∀ c : Byte, Spec.wordChar c = true → isTerm c = false := by decide +kernel
  obtain ⟨c, u, rfl, hc, hu⟩ := ht
  intro x hx
  rcases List.mem_cons.1 hx with rfl | hx
  · exact this _ (byte_alpha_word _ hc)
  · exact this _ (hu x hx)

theorem Spec.IsWord.noLeadingBlank {t : Str} (ht : IsWord t) (r : Str) : NoLeadingBlank (t ++ r) := by
  have : ∀ c : Byte, isAlpha c = true → c ≠ 32 ∧ c ≠ 9 := by decide +kernel
  obtain ⟨c, u, rfl, hc, hu⟩ := ht
  intro x q h
  obtain ⟨rfl, _⟩ : c = x ∧ _ := by simpa using h
  exact this _ hc

theorem Spec.IsWord.spell {t : Str} (ht : IsWord t) (hlen : t.length ≤ 63) : Spell t (wordLexeme (t.map toUpper)) := by
  obtain ⟨c, u, rfl, hc, hu⟩ := ht
  exact .word c u hc hu hlen

theorem lexes_of_tokens {s : Str} {ls : List (Nat × Lexeme)} (hn : NoTerm s) (hb : NoLeadingBlank s) (h : Tokens true 0 s ls) :
    Lexes s ls := ⟨[], s, by rw [code_noTerm hn]; rfl, by decide, hb, h⟩

theorem noTerm_append {s t : Str} (hs : NoTerm s) (ht : NoTerm t) : NoTerm (s ++ t) := by
  intro c hc
  rcases List.mem_append.1 hc with hc | hc
  · exact hs c hc
  · exact ht c hc

instance (s : Str) : Decidable (NoTerm s) := by unfold NoTerm; infer_instance

/-- A text of several lines. -/
theorem lines_cons {l s : List Byte} (h : ∀ c ∈ l, c ≠ 10) : lines (l ++ 10 :: s) = l :: lines s := by
  induction l with
  | nil => rfl
  | cons c l ih =>
    rw [List.cons_append, lines, if_neg (h c (by simp)), ih fun x hx => h x (by simp [hx])]

theorem noTerm_lf {s : Str} (h : NoTerm s) : ∀ c ∈ s, c ≠ 10 := by
  rintro c hc rfl
  exact absurd (h 10 hc) (by decide)

/-- The program `t1 = $1111`, `t2 = $2222`, ` JMP t1`, ` JMP t2`. -/
def twoNames (t1 t2 : Str) : List Byte :=
  t1 ++ b! " = $1111\n" ++ t2 ++ b! " = $2222\n JMP " ++ t1 ++ b! "\n JMP " ++ t2

theorem lexes_const {t : Str} (ht : IsWord t) (hlen : t.length ≤ 63) (hn : wordLexeme (t.map toUpper) = .name (t.map toUpper))
    {ds : Str} {v : Nat} (hd : IsLiteral ds v) (hdn : NoTerm ds) (hnb : NoLeadingBlank ds) :
    Lexes (t ++ b! " = " ++ ds) [(0, .name (t.map toUpper)), (t.length + 1, .eq), (t.length + 3, .lit v)] := by
  refine lexes_of_tokens (noTerm_append (noTerm_append ht.noTerm (by decide)) hdn) (by rw [List.append_assoc]; exact ht.noLeadingBlank _) ?_
  have h3 : Tokens false (t.length + 3) (ds ++ [] ++ []) [(t.length + 3, .lit v)] :=
    .cons false _ ds [] [] _ [] hd.spell (.inr (.inl rfl)) (by decide) (by decide) (.done _ _)
  rw [List.append_nil, List.append_nil] at h3
  have h2 : Tokens false (t.length + 1) (b! "=" ++ b! " " ++ ds) [(t.length + 1, .eq), (t.length + 3, .lit v)] :=
    .cons false _ (b! "=") (b! " ") ds _ _ (.punct 61 .eq rfl) (.inl rfl) (by decide) hnb h3
  have h1 : Tokens true 0 (t ++ b! " " ++ (b! "=" ++ b! " " ++ ds)) _ :=
    .cons true 0 t (b! " ") (b! "=" ++ b! " " ++ ds) (.name (t.map toUpper)) _ (hn ▸ ht.spell hlen)
      (.inr (.inr ⟨32, _, rfl, by decide⟩)) (by decide) (by rintro c r ⟨rfl, _⟩; decide) (by rw [Nat.zero_add]; exact h2)
  simpa [List.append_assoc] using h1

theorem lexes_jmp {t : Str} (ht : IsWord t) (hlen : t.length ≤ 63) (hn : wordLexeme (t.map toUpper) = .name (t.map toUpper)) :
    Lexes (b! " JMP " ++ t) [(1, .mnem .JMP), (5, .name (t.map toUpper))] := by
  have hnt : NoTerm (b! " JMP " ++ t) := noTerm_append (by decide) ht.noTerm
  refine ⟨b! " ", b! "JMP " ++ t, by rw [code_noTerm hnt]; rfl, by decide, by rintro c r ⟨rfl, _⟩; decide, ?_⟩
  have h2 : Tokens false 5 (t ++ [] ++ []) [(5, .name (t.map toUpper))] :=
    .cons false _ t [] [] _ [] (hn ▸ ht.spell hlen) (.inr (.inl rfl)) (by decide) (by decide) (.done _ _)
  rw [List.append_nil, List.append_nil] at h2
  exact .cons true 1 (b! "JMP") (b! " ") t _ _ (.word 74 (b! "MP") (by decide) (by decide) (by decide))
    (.inr (.inr ⟨32, t, rfl, by decide⟩)) (by decide) (by simpa using ht.noLeadingBlank []) h2

/-- **C03, labels are told apart by every character.** For any two words of up to 63 characters that are neither registers
nor mnemonics: if they differ in any character (other than in case), they are two symbols, each with its own value; if
they differ at most in case, the second definition is refused. -/
theorem C03_labels_distinct {w : World} {srcName outName : Str} {t1 t2 : Str} (h1 : IsWord t1) (h2 : IsWord t2)
    (l1 : t1.length ≤ 63) (l2 : t2.length ≤ 63) (n1 : wordLexeme (t1.map toUpper) = .name (t1.map toUpper))
    (n2 : wordLexeme (t2.map toUpper) = .name (t2.map toUpper)) (hw : Setup w srcName outName (twoNames t1 t2)) :
    (t1.map toUpper ≠ t2.map toUpper → Succeeds w srcName outName [0x4C, 0x11, 0x11, 0x4C, 0x22, 0x22] 6 2) ∧
    (t1.map toUpper = t2.map toUpper → FailsAt w srcName outName (twoNames t1 t2) 2 .labelRedefinition (some 0)) := by
  have hlit : ∀ ds v, IsLiteral (36 :: ds) v → NoLeadingBlank (36 :: ds) := by
    rintro ds v _ c r h; obtain ⟨rfl, _⟩ : 36 = c ∧ _ := by simpa using h
    decide
  have q1 : IsLiteral (b! "$1111") 0x1111 := ⟨b! "$", b! "1111", 16, .hex, rfl, by decide, by decide, by decide, by decide⟩
  have q2 : IsLiteral (b! "$2222") 0x2222 := ⟨b! "$", b! "2222", 16, .hex, rfl, by decide, by decide, by decide, by decide⟩
  have hlines : lines (twoNames t1 t2) =
      [t1 ++ b! " = " ++ b! "$1111", t2 ++ b! " = " ++ b! "$2222", b! " JMP " ++ t1, b! " JMP " ++ t2] := by
    have e : twoNames t1 t2 = (t1 ++ b! " = " ++ b! "$1111") ++ 10 :: ((t2 ++ b! " = " ++ b! "$2222") ++ 10 ::
        ((b! " JMP " ++ t1) ++ 10 :: (b! " JMP " ++ t2))) := by
      simp [twoNames, List.append_assoc]
    rw [e, lines_cons, lines_cons, lines_cons, lines_single (by simp)]
    · exact noTerm_lf (noTerm_append (by decide) h2.noTerm)
    · exact noTerm_lf (noTerm_append (by decide) h1.noTerm)
    · exact noTerm_lf (noTerm_append (noTerm_append h2.noTerm (by decide)) (by decide))
    · exact noTerm_lf (noTerm_append (noTerm_append h1.noTerm (by decide)) (by decide))
  have hprog : IsProgram (twoNames t1 t2) [.const (t1.map toUpper) 0x1111, .const (t2.map toUpper) 0x2222,
      .instr none .JMP (.plain (.sym (t1.map toUpper))), .instr none .JMP (.plain (.sym (t2.map toUpper)))] := by
    refine ⟨?_, ?_, ?_, ?_⟩
    · refine sized_of_length ?_
      have : maxSymbols = 21474836 := rfl
      simp [twoNames]; omega
    · rw [hlines]
      simp only [List.mem_cons, List.not_mem_nil, or_false]
      rintro l (rfl | rfl | rfl | rfl) <;> simp <;> omega
    · rw [hlines]
      exact .cons _ _ _ _ _ (lexes_const h1 l1 n1 q1 (by decide) (hlit _ _ q1)) rfl (by simp)
        (.cons _ _ _ _ _ (lexes_const h2 l2 n2 q2 (by decide) (hlit _ _ q2)) rfl (by simp)
        (.cons _ _ _ _ _ (lexes_jmp h1 l1 n1) rfl (by simp) (.cons _ _ _ _ _ (lexes_jmp h2 l2 n2) rfl (by simp) .nil)))
    · refine noForward_of fun st hst => ?_
      simp only [List.mem_cons, List.not_mem_nil, or_false] at hst
      rcases hst with rfl | rfl | rfl | rfl <;> simp [IndexedJump, Stmt.jumpsIndexed]
  constructor
  · intro hne
    have hasm : assemble [.const (t1.map toUpper) 0x1111, .const (t2.map toUpper) 0x2222,
        .instr none .JMP (.plain (.sym (t1.map toUpper))), .instr none .JMP (.plain (.sym (t2.map toUpper)))] =
        some ⟨[(0, [0x4C, 0x11, 0x11]), (3, [0x4C, 0x22, 0x22])], [(t2.map toUpper, 0x2222), (t1.map toUpper, 0x1111)]⟩ := by
      have hb : (t1.map toUpper == t2.map toUpper) = false := by simpa using hne
      have hb' : (t2.map toUpper == t1.map toUpper) = false := by simpa using hne.symm
      have hm : ∀ o v, modeFor .JMP (.plain o) v = some .abs := fun _ _ => rfl
      have hop : opcode? .JMP .abs = some 0x4C := by decide
      simp [assemble, pass1, pass1Stmt, define, List.lookup, hb, hb', place, sizingValue, Arg.opd, hm, pass2, encode, operandBytes,
        opdValue, Mode.bytes, hop]
    obtain ⟨bin, k1, k2⟩ := run_assembled hw hprog hasm
    obtain ⟨s, g1, _⟩ := assemble_some hasm
    have hh := ascending_harmless g1 (by
      have : s.items = [⟨0, .JMP, .abs, some (.sym (t1.map toUpper))⟩, ⟨3, .JMP, .abs, some (.sym (t2.map toUpper))⟩] := by
        have hb : (t1.map toUpper == t2.map toUpper) = false := by simpa using hne
        have hb' : (t2.map toUpper == t1.map toUpper) = false := by simpa using hne.symm
        have hm : ∀ o v, modeFor .JMP (.plain o) v = some .abs := fun _ _ => rfl
        simp [pass1, pass1Stmt, define, List.lookup, hb, hb', place, sizingValue, Arg.opd, hm, Mode.bytes, Pass1.init] at g1
        rw [← g1]
      rw [this]
      simp [Ascending, Mode.bytes])
    rw [k2 hh] at k1
    exact k1
  · intro heq
    have hc : check [.const (t1.map toUpper) 0x1111, .const (t2.map toUpper) 0x2222,
        .instr none .JMP (.plain (.sym (t1.map toUpper))), .instr none .JMP (.plain (.sym (t2.map toUpper)))] =
        some (2, .labelRedefinition) := by
      rw [heq]
      simp [check, firstFault, stmtFault, labelFault, pass1Stmt, define, Pass1.init]
    obtain ⟨l, x, k1, k2, k3⟩ := run_error hw hprog hc
    rw [hlines] at k1
    obtain rfl : t2 ++ b! " = " ++ b! "$2222" = l := by simpa using k1
    have hx : faultPos x .labelRedefinition = some 0 := by
      have e1 := lexemes_complete k2
      have e2 := lexemes_complete (lexes_const h2 l2 n2 q2 (by decide) (hlit _ _ q2))
      rw [e2] at e1
      rw [if_pos (by simp : [(0, Lexeme.name (t2.map toUpper)), (t2.length + 1, Lexeme.eq), (t2.length + 3, Lexeme.lit 0x2222)].length ≤ 8)] at e1
      split_ifs at e1 with g
      · simp only [Except.ok.injEq] at e1
        rw [← e1]
        rfl
    rw [hx] at k3
    exact k3

/-- Non-vacuity: two names of 63 characters that differ in the last one. -/
example : Succeeds (demo (twoNames (List.replicate 62 97 ++ b! "b") (List.replicate 62 97 ++ b! "C"))) (b! "p.asm") (b! "p.bin")
    [0x4C, 0x11, 0x11, 0x4C, 0x22, 0x22] 6 2 := by
  have h : ∀ c : Byte, isAlpha c = true → IsWord (List.replicate 62 97 ++ [c]) := fun c hc =>
    ⟨97, List.replicate 61 97 ++ [c], rfl, by decide, fun x hx => by
      rcases List.mem_append.1 hx with hx | hx
      · rw [List.eq_of_mem_replicate hx]; decide
      · obtain rfl : x = c := by simpa using hx
        exact byte_alpha_word _ hc⟩
  have hn : ∀ c ∈ b! "bC", wordLexeme ((List.replicate 62 97 ++ [c]).map toUpper) = .name ((List.replicate 62 97 ++ [c]).map toUpper) := by
    decide +kernel
  have hd : (List.replicate 62 97 ++ b! "b").map toUpper ≠ (List.replicate 62 97 ++ b! "C").map toUpper := by decide +kernel
  exact (C03_labels_distinct (h 98 (by decide)) (h 67 (by decide)) (by simp) (by simp) (hn _ (by decide)) (hn _ (by decide))
    (demo_setup _)).1 hd

/-! ### C09 -/

/-- The 56 mnemonics of the 6502. -/
def mnemonics6502 : List Str :=
  [b! "ADC", b! "AND", b! "ASL", b! "BCC", b! "BCS", b! "BEQ", b! "BIT", b! "BMI", b! "BNE", b! "BPL", b! "BRK", b! "BVC", b! "BVS",
   b! "CLC", b! "CLD", b! "CLI", b! "CLV", b! "CMP", b! "CPX", b! "CPY", b! "DEC", b! "DEX", b! "DEY", b! "EOR", b! "INC", b! "INX",
   b! "INY", b! "JMP", b! "JSR", b! "LDA", b! "LDX", b! "LDY", b! "LSR", b! "NOP", b! "ORA", b! "PHA", b! "PHP", b! "PLA", b! "PLP",
   b! "ROL", b! "ROR", b! "RTI", b! "RTS", b! "SBC", b! "SEC", b! "SED", b! "SEI", b! "STA", b! "STX", b! "STY", b! "TAX", b! "TAY",
   b! "TSX", b! "TXA", b! "TXS", b! "TYA"]

theorem mnemonics_names : Mnemonic.all.map mnemonicName = mnemonics6502 := by decide +kernel

/-- **C09.** For every word of up to 63 characters, in whatever case, followed by what may follow a word: the scanner makes
it an instruction token exactly if it is one of the 56 mnemonics, and the instruction then is the one of that name; it
makes it a register exactly if it is `X`, `Y` or `A`; every other word is a label with the upper-cased text. -/
theorem C09_words {t r : Str} (ht : IsWord t) (hlen : t.length ≤ 63) (hr : Ends r ∨ ∃ q, r = 58 :: q) (off : Nat) (tk : Token)
    (instr : Instr) : ∃ tk' instr', lex off (t ++ r) tk instr = .ok (t.length, tk', instr') ∧ tk'.str = t.map toUpper ∧
      (tk'.type = .instruction ↔ t.map toUpper ∈ mnemonics6502) ∧
      (tk'.type = .instruction → ∃ m, instr'.mnemonic = some m ∧ mnemonicName m = t.map toUpper) ∧
      (tk'.type ≠ .instruction → instr' = instr) ∧
      (tk'.type = .xRegister ↔ t.map toUpper = b! "X") ∧ (tk'.type = .yRegister ↔ t.map toUpper = b! "Y") ∧
      (tk'.type = .accumulator ↔ t.map toUpper = b! "A") ∧
      (tk'.type = .label ↔ t.map toUpper ∉ mnemonics6502 ∧ t.map toUpper ≠ b! "X" ∧ t.map toUpper ≠ b! "Y" ∧ t.map toUpper ≠ b! "A") := by
  have hne : t ++ r ≠ [] := by
    obtain ⟨c, u, rfl, _⟩ := ht
    simp
  have hstop : isTextStop (rd r) = true := by
    rw [textStop_iff]
    rcases hr with hr | ⟨q, rfl⟩
    · exact .inl (ends_eot hr)
    · exact .inr rfl
  obtain ⟨d1, d2⟩ := word_append (r := r) ht (by rintro c r' rfl; exact byte_stop_word c hstop)
  refine ⟨updTok tk off (wordLexeme (t.map toUpper)), updInstr instr (wordLexeme (t.map toUpper)), ?_, wordLexeme_str _ _, ?_⟩
  · rw [lex_eq _ _ _ _ hne, lexOne_word ht, wordBody_eq, d1, d2, if_neg (by omega), if_pos hstop]
    rfl
  generalize t.map toUpper = u
  have hmem : ∀ m, mnemonicName m = u → u ∈ mnemonics6502 := by
    rintro m rfl
    rw [← mnemonics_names]
    exact List.mem_map.2 ⟨m, m.mem_all, rfl⟩
  show (lexType (wordLexeme u) = .instruction ↔ _) ∧ _
  simp only [updTok]
  unfold wordLexeme
  split_ifs with g1 g2 g3
  · subst g1; simp [lexType, updInstr]; decide
  · subst g2; simp [lexType, updInstr]; decide
  · subst g3; simp [lexType, updInstr]; decide
  · cases hf : Mnemonic.all.find? (fun m => mnemonicName m = u) with
    | some m =>
      have hm : mnemonicName m = u := by simpa using List.find?_some hf
      simp [lexType, updInstr, g1, g2, g3, hmem m hm, hm]
    | none =>
      have hno : u ∉ mnemonics6502 := by
        rw [← mnemonics_names]
        intro hu
        obtain ⟨m, hm1, hm2⟩ := List.mem_map.1 hu
        have := List.find?_eq_none.1 hf m hm1
        simp [hm2] at this
      simp [lexType, updInstr, g1, g2, g3, hno]

/-- Non-vacuity: `lda` is the instruction LDA, `ldas` is a label. -/
example : lex 2 (b! "lda #1") {} {} = .ok (3, { type := .instruction, str := b! "LDA", bufferLocation := some 2 },
    { mnemonic := some .LDA, addrBitfield := getAddrBitfield .LDA }) := by decide +kernel
example : lex 2 (b! "ldas #1") {} {} = .ok (4, { type := .label, str := b! "LDAS", bufferLocation := some 2 }, {}) := by decide +kernel

end Gaia

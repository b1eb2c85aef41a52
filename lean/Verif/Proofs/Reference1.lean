import Verif.Spec.Reference
import Verif.Proofs.Pieces
import Verif.Proofs.LexFault3
import Verif.Proofs.SynFault
import Verif.Proofs.Congr

/-! The reference assembler against the pure machine of `Proofs/OnePass.lean`: reading lines and lexemes. -/
namespace Gaia
open Spec Spec.Reference

theorem ref_delimited {s : Str} (h : NoTerm s) : Reference.delimited s = isEndOfToken (rd s) := by
  cases s with
  | nil => rfl
  | cons c r =>
    have hc : isTerm c = false := h c (by simp)
    have : ∀ c : Byte, isTerm c = false → (c == 32 || c == 9 || c == 44 || c == 40 || c == 41) = isEndOfToken c := by
      decide +kernel
    exact this c hc

theorem ref_isDigitOf (b : Nat) : Reference.isDigitOf b = isDig b := by
  funext c
  unfold Reference.isDigitOf isDig
  cases digitValue c <;> rfl

theorem ref_literal {conv : Byte → Option Nat} {b n : Nat} (hc : ConvOK conv b) {s : Str} (hs : NoTerm s)
    (hb : n = 1 ∧ (b = 2 ∨ b = 16) ∨ n = 0 ∧ b = 10 ∧ digits b s ≠ []) : Reference.literal b n s = litBody conv b s n := by
  rw [litBody_eq hc]
  unfold Reference.literal
  rw [ref_isDigitOf]
  simp only [drop_takeWhile]
  have hd : NoTerm (s.dropWhile (isDig b)) := by
    rw [← drop_takeWhile]; exact hs.drop _
  rw [ref_delimited hd]
  change (if (!isEndOfToken (rd (afterDigits b s))) = true then _ else if digits b s = [] then _ else
    if positional b (digits b s) % 2 ^ 64 > 0xFFFF then _ else _) = _
  cases isEndOfToken (rd (afterDigits b s)) with
  | false => rfl
  | true =>
    simp only [Bool.not_true, Bool.false_eq_true, if_false, if_true]
    by_cases hne : digits b s = []
    · rcases hb with ⟨rfl, hb⟩ | ⟨_, _, h⟩
      · simp [hne, hb]
      · exact absurd hne h
    · have hl : (digits b s).length ≠ 0 := by simpa using hne
      have h1 : ¬ n + (digits b s).length = 0 := by omega
      have h2 : ¬ (n + (digits b s).length = 1 ∧ (b = 2 ∨ b = 16)) := by
        rintro ⟨h1, h2⟩
        rcases hb with ⟨rfl, _⟩ | ⟨rfl, rfl, _⟩
        · omega
        · omega
      rw [if_neg hne, if_neg h1, if_neg h2]
      rfl

theorem ref_lexeme {s : Str} (hne : s ≠ []) (hs : NoTerm s) : Reference.lexeme s = lexOne s := by
  obtain ⟨c, s, rfl⟩ := List.exists_cons_of_ne_nil hne
  unfold Reference.lexeme lexOne
  rw [show rd (c :: s) = c from rfl]
  cases hp : punctLexeme c with
  | some x => simp only [hp]
  | none =>
    simp only [hp]
    have htail : NoTerm s := fun d hd => hs d (by simp [hd])
    by_cases h1 : isAlpha c = true
    · rw [if_pos h1, if_pos h1, wordBody_eq]
      unfold Reference.word
      simp only [drop_takeWhile]
      have hd : NoTerm ((c :: s).dropWhile wordChar) := by
        rw [← drop_takeWhile]; exact hs.drop _
      rw [ref_delimited hd]
      have hstop : (isEndOfToken (rd ((c :: s).dropWhile wordChar)) || ((c :: s).dropWhile wordChar).head? == some 58) =
          isTextStop (rd (afterWord (c :: s))) := by
        unfold isTextStop afterWord
        cases (c :: s).dropWhile wordChar with
        | nil => decide
        | cons d r => simp [rd]
      rw [hstop]
      rfl
    · rw [if_neg h1, if_neg h1]
      by_cases h2 : c = 36
      · rw [if_pos h2, if_pos h2]; exact ref_literal convOK_hex htail (.inl ⟨rfl, .inr rfl⟩)
      · rw [if_neg h2, if_neg h2]
        by_cases h3 : c = 37
        · rw [if_pos h3, if_pos h3]; exact ref_literal convOK_bin htail (.inl ⟨rfl, .inl rfl⟩)
        · rw [if_neg h3, if_neg h3]
          by_cases h4 : isDigit c = true
          · rw [if_pos h4, if_pos h4]
            refine ref_literal convOK_dec hs (.inr ⟨rfl, rfl, ?_⟩)
            unfold digits
            rw [List.takeWhile_cons, if_pos (byte_isDigit c h4)]
            simp
          · rw [if_neg h4, if_neg h4]
            by_cases h5 : c = 46
            · rw [if_pos h5, if_pos h5, dirBody_eq]
              unfold Reference.directive
              simp only [drop_takeWhile]
              have hd : NoTerm (s.dropWhile isAlpha) := by
                rw [← drop_takeWhile]; exact htail.drop _
              rw [ref_delimited hd]
              have ht : ((c :: s).take (1 + (s.takeWhile isAlpha).length)).map toUpper = 46 :: (s.takeWhile isAlpha).map toUpper := by
                rw [Nat.add_comm, List.take_succ_cons, take_takeWhile, h5]
                rfl
              rw [ht]
              by_cases h6 : 63 ≤ (s.takeWhile isAlpha).length
              · rw [if_pos h6, if_pos h6]
              · rw [if_neg h6, if_neg h6]
                cases isEndOfToken (rd (s.dropWhile isAlpha)) <;> rfl
            · rw [if_neg h5, if_neg h5]

/-- The two kinds of failures. -/
def toFail : Wrong → LexFail
  | .at e pos => .at e pos
  | .tooMany => .tooMany

theorem skipBlanks_eq (off : Nat) (t : Str) : skipBlanks off t =
    (off + (t.takeWhile fun c => c == 32 || c == 9).length, t.drop (t.takeWhile fun c => c == 32 || c == 9).length) := by
  induction t generalizing off with
  | nil => rfl
  | cons c t ih =>
    unfold skipBlanks isBlank
    rw [List.takeWhile_cons]
    by_cases hc : (c == 32 || c == 9) = true
    · rw [if_pos hc, if_pos hc, ih]
      simp only [List.length_cons, List.drop_succ_cons, Prod.mk.injEq, and_true]
      omega
    · rw [if_neg hc, if_neg hc]; rfl

theorem head58 {s : Str} : s.head? = some 58 ↔ rd s = 58 := by
  cases s <;> simp [rd]

theorem ref_lexemesFrom : ∀ (fuel off count : Nat) (t : Str), NoTerm t →
    scan fuel (skipBlanks off t).1 (skipBlanks off t).2 count = (lexemesFrom fuel count off t).mapError toFail
  | 0, _, _, _, _ => rfl
  | fuel + 1, off, count, t, ht => by
    rw [skipBlanks_eq]
    unfold scan lexemesFrom
    simp only
    generalize hbl : (t.takeWhile fun c => c == 32 || c == 9).length = bl
    have hs : NoTerm (t.drop bl) := ht.drop bl
    generalize off + bl = o
    generalize t.drop bl = s at hs ⊢
    by_cases hne : s = []
    · subst hne
      rw [if_pos (by rfl : isTerm (rd []) = true), if_pos rfl]
      rfl
    · have hterm : isTerm (rd s) = false := by
        obtain ⟨c, s, rfl⟩ := List.exists_cons_of_ne_nil hne
        exact hs c (by simp)
      rw [hterm, if_neg hne, ref_lexeme hne hs]
      simp only [Bool.false_eq_true, if_false]
      cases lexOne s with
      | error p => rfl
      | ok p =>
        obtain ⟨n, x⟩ := p
        simp only
        have hname : Gaia.isName x = Reference.isName x := by cases x <;> rfl
        by_cases h8 : count = 8
        · rw [if_pos h8, if_pos h8]; rfl
        · rw [if_neg h8, if_neg h8]
          by_cases hc : rd (s.drop n) = 58
          · rw [if_pos hc, if_pos (head58.2 hc), hname]
            by_cases hx : Reference.isName x = true ∧ count = 0
            · rw [if_pos hx, if_pos (by simpa using hx), ref_lexemesFrom fuel (o + n + 1) (count + 1) _
                (fun c hc => hs.drop n c (List.mem_of_mem_tail hc)), hx.2]
              cases lexemesFrom fuel (0 + 1) (o + n + 1) (s.drop n).tail <;> rfl
            · rw [if_neg hx, if_neg (by simpa using hx)]; rfl
          · rw [if_neg hc, if_neg (fun h => hc (head58.1 h)), ref_lexemesFrom fuel (o + n) (count + 1) _ (hs.drop n)]
            cases lexemesFrom fuel (count + 1) (o + n) (s.drop n) <;> rfl

/-- The lexemes of a piece. -/
theorem ref_lexemes (piece : List Byte) : lexemes piece = (lexemesOf piece).mapError toFail := by
  rw [lexemes_code]
  exact ref_lexemesFrom _ _ _ _ (noTerm_code piece)

/-! ### Statements -/

theorem ending_arg {a : List Lexeme} (h : (parseArg a).isSome = true) (k : Nat) :
    ∃ e ∈ endings, (parseArg (a.take k ++ e)).isSome = true := by
  have nil : ([] : List Lexeme) ∈ endings := by simp [endings]
  by_cases hk : a.length ≤ k
  · rw [List.take_of_length_le hk]
    exact ⟨[], nil, by simpa using h⟩
  have op : ∀ x, (opd x).isSome = true → (parseArg [x]).isSome = true ∧ (parseArg [x, .comma, .regX]).isSome = true ∧
      (parseArg [.lpar, x, .rpar]).isSome = true ∧ (parseArg [.lpar, x, .comma, .regX, .rpar]).isSome = true ∧
      (parseArg [.lpar, x, .rpar, .comma, .regY]).isSome = true := by
    intro x hx
    cases x <;> simp [opd] at hx <;> exact ⟨rfl, rfl, rfl, rfl, rfl⟩
  match k, a, hk with
  | 0, a, _ => exact ⟨[], nil, rfl⟩
  | k + 1, a, hk =>
    unfold parseArg at h
    split at h
    · simp at hk
    · simp at hk
    · obtain rfl : k = 0 := by simp at hk; omega
      exact ⟨[.lit 0], by simp [endings], rfl⟩
    · simp at hk
    · rename_i o
      have ho := op o (by simpa using h)
      simp only [List.length_cons, List.length_nil] at hk
      obtain rfl | rfl : k = 0 ∨ k = 1 := by omega
      · exact ⟨[], nil, ho.1⟩
      · exact ⟨[.regX], by simp [endings], ho.2.1⟩
    · rename_i o
      have ho := op o (by simpa using h)
      simp only [List.length_cons, List.length_nil] at hk
      obtain rfl | rfl : k = 0 ∨ k = 1 := by omega
      · exact ⟨[], nil, ho.1⟩
      · exact ⟨[.regX], by simp [endings], ho.2.1⟩
    · rename_i o
      have ho := op o (by simpa using h)
      simp only [List.length_cons, List.length_nil] at hk
      obtain rfl | rfl : k = 0 ∨ k = 1 := by omega
      · exact ⟨[.lit 0, .rpar], by simp [endings], rfl⟩
      · exact ⟨[.rpar], by simp [endings], ho.2.2.1⟩
    · rename_i o
      have ho := op o (by simpa using h)
      simp only [List.length_cons, List.length_nil] at hk
      obtain rfl | rfl | rfl | rfl : k = 0 ∨ k = 1 ∨ k = 2 ∨ k = 3 := by omega
      · exact ⟨[.lit 0, .rpar], by simp [endings], rfl⟩
      · exact ⟨[.rpar], by simp [endings], ho.2.2.1⟩
      · exact ⟨[.regX, .rpar], by simp [endings], ho.2.2.2.1⟩
      · exact ⟨[.rpar], by simp [endings], ho.2.2.2.1⟩
    · rename_i o
      have ho := op o (by simpa using h)
      simp only [List.length_cons, List.length_nil] at hk
      obtain rfl | rfl | rfl | rfl : k = 0 ∨ k = 1 ∨ k = 2 ∨ k = 3 := by omega
      · exact ⟨[.lit 0, .rpar], by simp [endings], rfl⟩
      · exact ⟨[.rpar], by simp [endings], ho.2.2.1⟩
      · exact ⟨[], by simp [endings], ho.2.2.1⟩
      · exact ⟨[.regY], by simp [endings], ho.2.2.2.2⟩
    · simp at h

theorem ending_take {a : List Lexeme} (h : (parse a).isSome = true) (k : Nat) :
    ∃ e ∈ endings, (parse (a.take k ++ e)).isSome = true := by
  have nil : ([] : List Lexeme) ∈ endings := by simp [endings]
  by_cases hk : a.length ≤ k
  · rw [List.take_of_length_le hk]
    exact ⟨[], nil, by simpa using h⟩
  match k, a, hk with
  | 0, a, _ => exact ⟨[], nil, rfl⟩
  | k + 1, a, hk =>
    have pm : ∀ m r, parse (.mnem m :: r) = (parseArg r).map (.instr none m) := fun m r => by
      cases r <;> rfl
    have pl : ∀ l m r, parse (.name l :: .mnem m :: r) = (parseArg r).map (.instr (some l) m) := fun l m r => by
      cases r <;> rfl
    unfold parse at h
    split at h
    · simp at hk
    · simp at hk
    · simp only [List.length_cons, List.length_nil] at hk
      obtain rfl | rfl : k = 0 ∨ k = 1 := by omega
      · exact ⟨[], nil, rfl⟩
      · exact ⟨[.lit 0], by simp [endings], rfl⟩
    · simp only [List.length_cons, List.length_nil] at hk
      obtain rfl | rfl : k = 0 ∨ k = 1 := by omega
      · exact ⟨[], nil, rfl⟩
      · exact ⟨[.lit 0], by simp [endings], rfl⟩
    · simp only [List.length_cons, List.length_nil] at hk
      obtain rfl | rfl : k = 0 ∨ k = 1 := by omega
      · exact ⟨[.name [], .lit 0], by simp [endings], rfl⟩
      · exact ⟨[.lit 0], by simp [endings], rfl⟩
    · simp only [List.length_cons, List.length_nil] at hk
      obtain rfl : k = 0 := by omega
      exact ⟨[.lit 0], by simp [endings], rfl⟩
    · simp only [List.length_cons, List.length_nil] at hk
      obtain rfl | rfl : k = 0 ∨ k = 1 := by omega
      · exact ⟨[.eq, .lit 0], by simp [endings], rfl⟩
      · exact ⟨[.lit 0], by simp [endings], rfl⟩
    · simp at hk
    · rename_i m r
      obtain ⟨e, he, hp⟩ := ending_arg (a := r) (by simpa using h) k
      refine ⟨e, he, ?_⟩
      rw [List.take_succ_cons, List.cons_append, pm]
      simpa using hp
    · rename_i l m r
      cases k with
      | zero => exact ⟨[], nil, rfl⟩
      | succ k =>
        obtain ⟨e, he, hp⟩ := ending_arg (a := r) (by simpa using h) k
        refine ⟨e, he, ?_⟩
        rw [List.take_succ_cons, List.take_succ_cons, List.cons_append, List.cons_append, pl]
        simpa using hp
    · simp at h

/-- The listed endings decide whether lexemes are the beginning of a statement. -/
theorem viable_iff (ls : List Lexeme) : viable ls = true ↔ Viable ls := by
  unfold viable
  rw [List.any_eq_true]
  constructor
  · rintro ⟨e, _, he⟩; exact ⟨e, he⟩
  · rintro ⟨more, h⟩
    obtain ⟨e, he, hp⟩ := ending_take h ls.length
    refine ⟨e, he, ?_⟩
    rwa [List.take_left] at hp

theorem faultIndex_spec {ls : List Lexeme} (h : parse ls = none) :
    SynFault ls (if ls.head? = some .star then .illegalBase else .illegalSequence) (faultIndex ls) := by
  have vnil : Viable ([] : List Lexeme) := ⟨[], rfl⟩
  unfold faultIndex
  cases hf : (List.range ls.length).find? fun i => !viable (ls.take (i + 1)) with
  | none =>
    rw [List.find?_eq_none] at hf
    refine ⟨h, Nat.le_refl _, ?_, fun h => absurd h (by simp), rfl⟩
    simp only [Option.getD_none]
    cases hl : ls.length with
    | zero => simpa using vnil
    | succ n =>
      have := hf n (by simp; omega)
      rw [← viable_iff]
      simpa using this
  | some i =>
    rw [List.find?_range_eq_some] at hf
    obtain ⟨h1, h2, h3⟩ := hf
    simp only [List.mem_range] at h2
    refine ⟨h, Nat.le_of_lt h2, ?_, fun _ hv => ?_, rfl⟩
    · simp only [Option.getD_some]
      cases i with
      | zero => simpa using vnil
      | succ n =>
        have := h3 n (by omega)
        rw [← viable_iff]
        simpa using this
    · rw [← viable_iff] at hv
      simp only [Option.getD_some] at hv
      rw [hv] at h1
      simp at h1

theorem junkArg_iff {lab : Option Str} {m : Mnemonic} {o r : Lexeme} {more : List Lexeme} :
    (junkArg lab m o r more).isSome = true ↔ (opd o).isSome = true ∧ (r = .regX ∨ r = .regY) ∧ more ≠ [] := by
  unfold junkArg
  cases opd o with
  | none => simp
  | some o => simp only; split_ifs with h <;> simp [h]

theorem junk_iff (ls : List Lexeme) : (junk ls).isSome = true ↔ LineJunk ls := by
  constructor
  · intro h
    unfold junk at h
    split at h
    · rw [junkArg_iff] at h
      exact ⟨_, _, .inl rfl, _, _, _, rfl, h⟩
    · rw [junkArg_iff] at h
      exact ⟨_, _, .inr ⟨_, rfl⟩, _, _, _, rfl, h⟩
    · simp at h
  · rintro ⟨m, args, hl, o, r, more, rfl, h⟩
    rcases hl with rfl | ⟨l, rfl⟩
    · exact junkArg_iff.2 h
    · exact junkArg_iff.2 h

/-- The syntax check. -/
theorem ref_statement (ls : List Lexeme) :
    (∀ e i, statement ls = .error (e, i) → syn (typeAt ls) = .error (i, e)) ∧
    (∀ x, statement ls = .ok x → syn (typeAt ls) = .ok ()) := by
  unfold statement
  cases hp : parse ls with
  | some st =>
    refine ⟨fun e i h => by simp at h, fun x _ => (syn_ok_iff ls).2 (.inl (by rw [hp]; rfl))⟩
  | none =>
    cases hj : junk ls with
    | some x =>
      refine ⟨fun e i h => by simp at h, fun x _ => (syn_ok_iff ls).2 (.inr ((junk_iff ls).1 (by rw [hj]; rfl)))⟩
    | none =>
      refine ⟨fun e i h => ?_, fun x h => by simp at h⟩
      simp only [Except.error.injEq, Prod.mk.injEq] at h
      rw [syn_error_iff, ← h.1, ← h.2]
      refine ⟨faultIndex_spec hp, fun hl => ?_⟩
      rw [← junk_iff, hj] at hl
      simp at hl

end Gaia

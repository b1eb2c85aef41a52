import Verif.Proofs.Diag
import Verif.Model.Parser

/-! The syntax analysis as a decision on token types, and its relation to the grammar. -/
namespace Gaia
open Spec

/-- Content of a token slot. -/
def tok (lx : Lexer) (i : Nat) : Token := (lx.seq[i]?).getD nullTok

theorem slot_ok {lx : Lexer} (h8 : lx.seq.length = 8) {i : Nat} (hi : i < 8) : slot lx i = .ok (tok lx i) := by
  unfold slot tok
  rw [List.getElem?_eq_getElem (by omega)]
  rfl

/-- Verdict of the syntax analysis: accepted, or an error at a token. -/
abbrev Verdict := Except (Nat × Err) Unit

/-- parser.c:40-81 on token types. -/
def synIndirect (T : Nat → TokenType) (i : Nat) : Verdict :=
  if T (i + 1) = .comma then
    if T (i + 1 + 1) = .xRegister then
      if T (i + 1 + 1 + 1) = .closeParenthesis then
        if T (i + 1 + 1 + 1 + 1) = .null then .ok () else .error (i + 1 + 1 + 1 + 1, .illegalSequence)
      else .error (i + 1 + 1 + 1, .illegalSequence)
    else .error (i + 1 + 1, .illegalSequence)
  else if T (i + 1) = .closeParenthesis then
    if T (i + 1 + 1) = .comma then
      if T (i + 1 + 1 + 1) = .yRegister then
        if T (i + 1 + 1 + 1 + 1) = .null then .ok () else .error (i + 1 + 1 + 1 + 1, .illegalSequence)
      else .error (i + 1 + 1 + 1, .illegalSequence)
    else if T (i + 1 + 1) = .null then .ok ()
    else .error (i + 1 + 1, .illegalSequence)
  else .error (i + 1, .illegalSequence)

/-- parser.c:91-144 on token types. -/
def synInstr (T : Nat → TokenType) (i : Nat) : Verdict :=
  if T (i + 1) = .openParenthesis then
    if isOperandType (T (i + 1 + 1)) then synIndirect T (i + 1 + 1)
    else .error (i + 1 + 1, .illegalSequence)
  else if isOperandType (T (i + 1)) then
    if T (i + 1 + 1) = .null then .ok ()
    else if T (i + 1 + 1) = .comma then
      if T (i + 1 + 1 + 1) = .xRegister ∨ T (i + 1 + 1 + 1) = .yRegister then .ok ()
      else .error (i + 1 + 1 + 1, .illegalSequence)
    else .error (i + 1 + 1, .illegalSequence)
  else if T (i + 1) = .immediate then
    if isOperandType (T (i + 1 + 1)) then
      if T (i + 1 + 1 + 1) = .null then .ok () else .error (i + 1 + 1 + 1, .illegalSequence)
    else .error (i + 1 + 1, .illegalSequence)
  else if T (i + 1) = .accumulator then
    if T (i + 1 + 1) = .null then .ok () else .error (i + 1 + 1, .illegalSequence)
  else if T (i + 1) = .null then .ok ()
  else .error (i + 1, .illegalSequence)

/-- parser.c:154-183 on token types. -/
def synLabel (T : Nat → TokenType) : Verdict :=
  if T 1 = .equalSign ∨ T 1 = .equDirective then
    if T 2 = .literal then
      if T 3 = .null then .ok () else .error (3, .illegalSequence)
    else .error (2, .illegalSequence)
  else if T 1 = .instruction then synInstr T 1
  else if T 1 = .null then .ok ()
  else .error (1, .illegalSequence)

/-- parser.c:193-228 on token types. -/
def synDirective (T : Nat → TokenType) : Verdict :=
  if T 0 = .defineDirective then
    if T 1 = .label then
      if T 2 = .literal then
        if T 3 = .null then .ok () else .error (3, .illegalSequence)
      else .error (2, .illegalSequence)
    else .error (1, .illegalSequence)
  else if T 0 = .orgDirective then
    if T 1 = .literal then
      if T 2 = .null then .ok () else .error (2, .illegalSequence)
    else .error (1, .illegalSequence)
  else if T 0 = .endDirective then
    if T 1 = .null then .ok () else .error (1, .illegalSequence)
  else .error (0, .illegalSequence)

/-- parser.c:238-260 on token types. -/
def synBase (T : Nat → TokenType) : Verdict :=
  if T 1 = .equalSign then
    if T 2 = .literal then
      if T 3 = .null then .ok () else .error (3, .illegalBase)
    else .error (2, .illegalBase)
  else .error (1, .illegalBase)

/-- parser.c:269-290 on token types. -/
def syn (T : Nat → TokenType) : Verdict :=
  if T 0 = .instruction then synInstr T 0
  else if T 0 = .label then synLabel T
  else if isDirectiveType (T 0) then synDirective T
  else if T 0 = .base then synBase T
  else if T 0 = .null then .ok ()
  else .error (0, .illegalSequence)

/-- Report a verdict the way the parser does. -/
def verdict {α} (lx : Lexer) (a : α) : Verdict → Res α
  | .ok _ => .ok a
  | .error (i, e) => syntaxError lx i e

/-- Types of the slots. -/
def types (lx : Lexer) (i : Nat) : TokenType := (tok lx i).type

theorem verdict_ite {α} (lx : Lexer) (a : α) (p : Prop) [Decidable p] (x y : Verdict) :
    verdict lx a (if p then x else y) = if p then verdict lx a x else verdict lx a y := by
  split_ifs <;> rfl

theorem verdict_ok {α} (lx : Lexer) (a : α) (u : Unit) : verdict lx a (.ok u) = .ok a := rfl
theorem verdict_error {α} (lx : Lexer) (a : α) (i : Nat) (e : Err) :
    verdict lx a (.error (i, e)) = syntaxError lx i e := rfl

theorem parseIndirect_eq {lx : Lexer} (h8 : lx.seq.length = 8) {i : Nat} (hi : i ≤ 3) :
    parseIndirectOperandTree lx i = verdict lx () (synIndirect (types lx) i) := by
  unfold parseIndirectOperandTree synIndirect types
  simp (disch := omega) only [slot_ok h8, C.ok_bind, C.pure_eq, verdict_ite, verdict_ok, verdict_error]

theorem parseInstr_eq {lx : Lexer} (h8 : lx.seq.length = 8) {i : Nat} (hi : i ≤ 1) :
    parseInstrTree lx i = verdict lx () (synInstr (types lx) i) := by
  unfold parseInstrTree synInstr
  simp (disch := omega) only [slot_ok h8, C.ok_bind, C.pure_eq, verdict_ite, verdict_ok, verdict_error,
    parseIndirect_eq h8]
  rfl

theorem parseLabel_eq {lx : Lexer} (h8 : lx.seq.length = 8) :
    parseLabelTree lx 0 = verdict lx () (synLabel (types lx)) := by
  unfold parseLabelTree synLabel
  simp (disch := omega) only [slot_ok h8, C.ok_bind, C.pure_eq, verdict_ite, verdict_ok, verdict_error,
    parseInstr_eq h8]
  rfl

/-- The lexer handed back by `parse_line`: the location given to `.ORG` or `*=` is stored in the first token. -/
def finish (lx : Lexer) : Lexer :=
  if types lx 0 = .orgDirective then setValue lx 0 (tok lx 1).value
  else if types lx 0 = .base then setValue lx 0 (tok lx 2).value
  else lx

theorem parseDirective_eq {lx : Lexer} (h8 : lx.seq.length = 8) :
    parseDirectiveTree lx 0 =
      verdict lx (if types lx 0 = .orgDirective then setValue lx 0 (tok lx 1).value else lx) (synDirective (types lx)) := by
  unfold parseDirectiveTree synDirective types
  simp (disch := omega) only [slot_ok h8, C.ok_bind, C.pure_eq, verdict_ite, verdict_ok, verdict_error]
  by_cases h1 : (tok lx 0).type = .defineDirective
  · have h2 : ¬ (tok lx 0).type = .orgDirective := by rw [h1]; decide
    simp [h1]
  · by_cases h2 : (tok lx 0).type = .orgDirective
    · simp [h2]
    · simp [h2]

theorem parseBase_eq {lx : Lexer} (h8 : lx.seq.length = 8) :
    parseBaseTree lx 0 = verdict lx (setValue lx 0 (tok lx 2).value) (synBase (types lx)) := by
  unfold parseBaseTree synBase types
  simp (disch := omega) only [slot_ok h8, C.ok_bind, C.pure_eq, verdict_ite, verdict_ok, verdict_error]

theorem verdict_bind {α β} (lx : Lexer) (a : α) (v : Verdict) (f : α → Res β) (b : β) (hf : f a = .ok b) :
    (verdict lx a v >>= f) = verdict lx b v := by
  cases v with
  | ok u => exact hf
  | error p =>
    obtain ⟨i, e⟩ := p
    simp only [verdict, syntaxError]
    cases slot lx i with
    | ok t =>
      simp only [C.ok_bind, raise]
      cases printError lx.line e t.bufferLocation lx.fileName lx.lineNum <;> rfl
    | err x => rfl
    | ub u => rfl

/-- `parse_line` on any sequence of 8 slots. -/
theorem parseLine_eq {lx : Lexer} (h8 : lx.seq.length = 8) :
    parseLine lx = verdict lx (finish lx) (syn (types lx)) := by
  unfold parseLine syn finish
  rw [slot_ok h8 (by omega)]
  simp only [C.ok_bind, C.pure_eq, verdict_ite, verdict_ok, verdict_error]
  have ht : (tok lx 0).type = types lx 0 := rfl
  rw [ht]
  by_cases h1 : types lx 0 = .instruction
  · rw [if_pos h1, if_pos h1, parseInstr_eq h8 (by omega), verdict_bind lx () _ (fun _ => .ok lx) lx rfl]
    simp [h1]
  rw [if_neg h1, if_neg h1]
  by_cases h2 : types lx 0 = .label
  · rw [if_pos h2, if_pos h2, parseLabel_eq h8, verdict_bind lx () _ (fun _ => .ok lx) lx rfl]
    simp [h2]
  rw [if_neg h2, if_neg h2]
  by_cases h3 : isDirectiveType (types lx 0) = true
  · rw [if_pos h3, if_pos h3, parseDirective_eq h8]
    have h4 : types lx 0 ≠ .base := by
      intro h; rw [h] at h3; revert h3; decide
    simp [h4]
  rw [if_neg h3, if_neg h3]
  have h5 : types lx 0 ≠ .orgDirective := by
    intro h; rw [h] at h3; exact h3 (by decide)
  by_cases h4 : types lx 0 = .base
  · rw [if_pos h4, if_pos h4, parseBase_eq h8]
    simp [h4]
  rw [if_neg h4, if_neg h4]
  by_cases h6 : types lx 0 = .null
  · simp [h6]
  · simp [h6]

/-! ### The tokens of a scanned line -/

theorem tokens_get : ∀ (ls : List (Nat × Lexeme)) (tk : Token) (i o : Nat) (x : Lexeme), ls[i]? = some (o, x) →
    ∃ tk', (tokens tk ls)[i]? = some (updTok tk' o x)
  | [], _, _, _, _, h => by simp at h
  | (o', y) :: ls, tk, 0, o, x, h => by
    simp only [List.getElem?_cons_zero, Option.some.injEq, Prod.mk.injEq] at h
    obtain ⟨rfl, rfl⟩ := h
    exact ⟨tk, rfl⟩
  | (o', y) :: ls, tk, i + 1, o, x, h => by
    rw [List.getElem?_cons_succ] at h
    obtain ⟨tk', h'⟩ := tokens_get ls (updTok tk o' y) i o x h
    exact ⟨tk', by simpa [tokens] using h'⟩

theorem lexerOf_length (buf : Str) (n : Nat) (fn : Str) (ls : List (Nat × Lexeme)) (h : ls.length ≤ 8) :
    (lexerOf buf n fn ls).seq.length = 8 := by
  simp only [lexerOf, List.length_append, tokens_length, List.length_replicate]
  omega

theorem lexerOf_some {buf : Str} {n : Nat} {fn : Str} {ls : List (Nat × Lexeme)} {i o : Nat} {x : Lexeme}
    (h : ls[i]? = some (o, x)) : ∃ tk', tok (lexerOf buf n fn ls) i = updTok tk' o x := by
  have hi : i < ls.length := by
    by_contra hc
    rw [List.getElem?_eq_none (by omega)] at h
    simp at h
  obtain ⟨tk', h'⟩ := tokens_get ls nullTok i o x h
  refine ⟨tk', ?_⟩
  unfold tok lexerOf
  simp only
  rw [List.getElem?_append_left (by rw [tokens_length]; exact hi), h']
  rfl

theorem lexerOf_none {buf : Str} {n : Nat} {fn : Str} {ls : List (Nat × Lexeme)} {i : Nat}
    (h : ls[i]? = none) : tok (lexerOf buf n fn ls) i = nullTok := by
  have hi : ls.length ≤ i := by
    by_contra hc
    rw [List.getElem?_eq_getElem (by omega)] at h
    simp at h
  unfold tok lexerOf
  simp only
  rw [List.getElem?_append_right (by rw [tokens_length]; exact hi), List.getElem?_replicate]
  split_ifs <;> rfl

/-- Type of the `i`-th lexeme, null after the end. -/
def typeAt (ls : List Lexeme) (i : Nat) : TokenType :=
  match ls[i]? with
  | some x => lexType x
  | none => .null

/-- Offset of the `i`-th lexeme. -/
def posAt (ls : List (Nat × Lexeme)) (i : Nat) : Option Nat := ls[i]?.map (·.1)

theorem types_lexerOf (buf : Str) (n : Nat) (fn : Str) (ls : List (Nat × Lexeme)) :
    types (lexerOf buf n fn ls) = typeAt (ls.map (·.2)) := by
  funext i
  unfold types typeAt
  rw [List.getElem?_map]
  cases h : ls[i]? with
  | none => rw [lexerOf_none h]; rfl
  | some p =>
    obtain ⟨o, x⟩ := p
    obtain ⟨tk', h'⟩ := lexerOf_some (buf := buf) (n := n) (fn := fn) h
    rw [h']; rfl

theorem loc_lexerOf (buf : Str) (n : Nat) (fn : Str) (ls : List (Nat × Lexeme)) (i : Nat) :
    (tok (lexerOf buf n fn ls) i).bufferLocation = posAt ls i := by
  unfold posAt
  cases h : ls[i]? with
  | none => rw [lexerOf_none h]; rfl
  | some p =>
    obtain ⟨o, x⟩ := p
    obtain ⟨tk', h'⟩ := lexerOf_some (buf := buf) (n := n) (fn := fn) h
    rw [h']; rfl

theorem syn_index_lt {T : Nat → TokenType} {i : Nat} {e : Err} (h : syn T = .error (i, e)) :
    i < 8 ∧ (e = .illegalSequence ∨ e = .illegalBase) ∧ T 0 ≠ .null := by
  by_cases h0 : T 0 = .null
  · simp [syn, h0, isDirectiveType] at h
  unfold syn at h
  split_ifs at h
  · unfold synInstr synIndirect at h
    split_ifs at h <;> simp only [Except.error.injEq, Prod.mk.injEq] at h <;> obtain ⟨rfl, rfl⟩ := h <;> simp [h0]
  · unfold synLabel synInstr synIndirect at h
    split_ifs at h <;> simp only [Except.error.injEq, Prod.mk.injEq] at h <;> obtain ⟨rfl, rfl⟩ := h <;> simp [h0]
  · unfold synDirective at h
    split_ifs at h <;> simp only [Except.error.injEq, Prod.mk.injEq] at h <;> obtain ⟨rfl, rfl⟩ := h <;> simp [h0]
  · unfold synBase at h
    split_ifs at h <;> simp only [Except.error.injEq, Prod.mk.injEq] at h <;> obtain ⟨rfl, rfl⟩ := h <;> simp [h0]
  · simp only [Except.error.injEq, Prod.mk.injEq] at h
    obtain ⟨rfl, rfl⟩ := h
    simp [h0]

/-- `parse_line` on the tokens of a scanned line. -/
theorem parseLine_lexerOf {raw : List Byte} {n : Nat} {fn : Str} {ls : List (Nat × Lexeme)} (h : lexemes raw = .ok ls) :
    parseLine (lexerOf (cstr raw) n fn ls) =
      match syn (typeAt (ls.map (·.2))) with
      | .ok _ => .ok (finish (lexerOf (cstr raw) n fn ls))
      | .error (i, e) => .err ⟨e, diag (cstr raw) e (posAt ls i) fn n⟩ := by
  have hlen : ls.length ≤ 8 := by
    have := scan_length _ _ _ _ _ (by omega) h
    omega
  have h8 := lexerOf_length (cstr raw) n fn ls hlen
  rw [parseLine_eq h8, types_lexerOf]
  cases hs : syn (typeAt (ls.map (·.2))) with
  | ok u => rfl
  | error p =>
    obtain ⟨i, e⟩ := p
    obtain ⟨hi, he, hne⟩ := syn_index_lt hs
    have hls : ls ≠ [] := by
      rintro rfl
      exact hne rfl
    obtain ⟨hsh, hshp⟩ := lexemes_shows h hls
    simp only [verdict, syntaxError, slot_ok h8 hi, C.ok_bind, loc_lexerOf]
    have hp : Shows (cstr raw) (posAt ls i) := by
      unfold posAt
      cases hx : ls[i]? with
      | none => exact hsh
      | some p => exact hshp p (List.mem_of_getElem? hx)
    exact raise_eq fn n hp (by rcases he with rfl | rfl <;> rfl)

end Gaia

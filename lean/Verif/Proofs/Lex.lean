import Verif.Model.Lexer
import Verif.Spec.Syntax
import Verif.Proofs.Bytes
import Mathlib.Data.List.Basic
import Mathlib.Tactic.SplitIfs

/-! The scanner as a pure function of the text (`lexOne`, `scan`), and its relation to the model's `lex`/`lexLoop`. -/
namespace Gaia
open Spec (Lexeme)

/-- Token type of a lexeme. -/
def lexType : Lexeme → TokenType
  | .name _ => .label
  | .mnem _ => .instruction
  | .regX => .xRegister
  | .regY => .yRegister
  | .regA => .accumulator
  | .lit _ => .literal
  | .define => .defineDirective
  | .equ => .equDirective
  | .org => .orgDirective
  | .stop => .endDirective
  | .hash => .immediate
  | .lpar => .openParenthesis
  | .rpar => .closeParenthesis
  | .comma => .comma
  | .eq => .equalSign
  | .star => .base

/-- Text stored in the running token for a lexeme (a literal leaves the old text). -/
def lexStr (old : Str) : Lexeme → Str
  | .name s => s
  | .mnem m => Spec.mnemonicName m
  | .regX => b! "X"
  | .regY => b! "Y"
  | .regA => b! "A"
  | .lit _ => old
  | .define => b! ".DEFINE"
  | .equ => b! ".EQU"
  | .org => b! ".ORG"
  | .stop => b! ".END"
  | .hash => b! "#"
  | .lpar => b! "("
  | .rpar => b! ")"
  | .comma => b! ","
  | .eq => b! "="
  | .star => b! "*"

/-- Value stored in the running token for a lexeme (only literals change it). -/
def lexValue (old : Nat) : Lexeme → Nat
  | .lit v => v
  | _ => old

/-- The running token after a lexeme at offset `off`. -/
def updTok (tk : Token) (off : Nat) (x : Lexeme) : Token :=
  { type := lexType x, str := lexStr tk.str x, value := lexValue tk.value x, bufferLocation := some off }

/-- The instruction structure after a lexeme. -/
def updInstr (i : Instr) : Lexeme → Instr
  | .mnem m => { i with mnemonic := some m, addrBitfield := getAddrBitfield m }
  | _ => i

/-! ### Mnemonics -/

theorem lookup_map_find {α β} [BEq α] [LawfulBEq α] [DecidableEq α] (f : β → α) (l : List β) (w : α) :
    (l.map fun m => (f m, m)).lookup w = l.find? (fun m => f m = w) := by
  induction l with
  | nil => rfl
  | cons a l ih =>
    simp only [List.map_cons, List.lookup_cons, List.find?_cons]
    by_cases h : f a = w
    · simp [h]
    · have h' : ¬ w = f a := fun e => h e.symm
      simp [h, ih, beq_eq_false_iff_ne.2 h']

theorem strToMnemonic_eq (w : Str) :
    strToMnemonic w = Mnemonic.all.find? (fun m => Spec.mnemonicName m = w) := by
  have h : mnemonicNames = Mnemonic.all.map fun m => (Spec.mnemonicName m, m) := by decide +kernel
  unfold strToMnemonic
  rw [h]
  exact lookup_map_find _ _ _

/-! ### `lexOne` -/

/-- The literal scanner, without the running token. -/
def litBody (conv : Byte → Option Nat) (base : Nat) (s : Str) (numChars : Nat) :
    Except (Err × Nat) (Nat × Lexeme) :=
  match digitLoop conv base s 0 numChars with
  | .bad n => .error (.illegalChar, n)
  | .done total n =>
    if n = 0 then .error (.illegalChar, n)
    else if n = 1 ∧ (base = 2 ∨ base = 16) then .error (.illegalChar, n)
    else if total > 0xFFFF then .error (.tooBigLiteral, 0)
    else .ok (n, .lit total)

/-- The word scanner. -/
def wordBody (s : Str) : Except (Err × Nat) (Nat × Lexeme) :=
  match scanLoop isTextStop isValidTokenChar MAX_TOKEN_STR_LEN 0 s with
  | .bad i => .error (.illegalChar, i)
  | .done n =>
    if n = MAX_TOKEN_STR_LEN then .error (.tooLongLabel, 0)
    else .ok (n, Spec.wordLexeme ((s.take n).map toUpper))

/-- The directive scanner. -/
def dirBody (s : Str) : Except (Err × Nat) (Nat × Lexeme) :=
  match scanLoop isEndOfToken isAlpha (MAX_TOKEN_STR_LEN - 1) 1 s.tail with
  | .bad i => .error (.illegalChar, i)
  | .done n =>
    if n = MAX_TOKEN_STR_LEN then .error (.illegalDirective, 0)
    else match Spec.directiveLexeme ((s.take n).map toUpper) with
      | some x => .ok (n, x)
      | none => .error (.illegalDirective, 0)

/-- One lexeme at the start of `s`: its length and meaning, or an error with its offset. -/
def lexOne (s : Str) : Except (Err × Nat) (Nat × Lexeme) :=
  match Spec.punctLexeme (rd s) with
  | some x => .ok (1, x)
  | none =>
    if isAlpha (rd s) then wordBody s
    else if rd s = 36 then litBody hexDigitToInt 16 s.tail 1
    else if rd s = 37 then litBody binDigitToInt 2 s.tail 1
    else if isDigit (rd s) then litBody decDigitToInt 10 s 0
    else if rd s = 46 then dirBody s
    else .error (.illegalChar, 0)

/-- The bounds of the scanning loop: it stops within its fuel and inside the text. -/
theorem scanLoop_done {stop valid : Byte → Bool} (hstop : stop 0 = true) :
    ∀ (fuel i : Nat) (s : Str) (n : Nat), scanLoop stop valid fuel i s = .done n →
      i ≤ n ∧ n ≤ i + fuel ∧ n ≤ i + s.length ∧ (∀ c ∈ s.take (n - i), valid c = true ∧ stop c = false) ∧
      (n < i + fuel → stop (rd (s.drop (n - i))) = true) := by
  intro fuel
  induction fuel with
  | zero =>
    intro i s n h
    simp only [scanLoop, ScanRes.done.injEq] at h
    subst h
    simp
  | succ fuel ih =>
    intro i s n h
    unfold scanLoop at h
    simp only at h
    split_ifs at h with h1 h2
    · simp only [ScanRes.done.injEq] at h
      subst h
      simp [h1]
    · cases s with
      | nil => exact absurd hstop h1
      | cons c s =>
        have hc : rd (c :: s) = c := rfl
        rw [hc] at h1 h2
        have := ih (i + 1) s n (by simpa using h)
        obtain ⟨a1, a2, a3, a4, a5⟩ := this
        have hn : n - i = (n - (i + 1)) + 1 := by omega
        refine ⟨by omega, by omega, by simp only [List.length_cons]; omega, ?_, ?_⟩
        · rw [hn, List.take_succ_cons]
          intro d hd
          rcases List.mem_cons.1 hd with rfl | hd
          · exact ⟨by simpa using h2, by simpa using h1⟩
          · exact a4 d hd
        · intro hlt
          rw [hn, List.drop_succ_cons]
          exact a5 (by omega)

theorem scanLoop_bad {stop valid : Byte → Bool} (hstop : stop 0 = true) :
    ∀ (fuel i : Nat) (s : Str) (n : Nat), scanLoop stop valid fuel i s = .bad n →
      i ≤ n ∧ n < i + fuel ∧ n < i + s.length ∧ (∀ c ∈ s.take (n - i), valid c = true ∧ stop c = false) ∧
      valid (rd (s.drop (n - i))) = false ∧ stop (rd (s.drop (n - i))) = false := by
  intro fuel
  induction fuel with
  | zero => intro i s n h; simp [scanLoop] at h
  | succ fuel ih =>
    intro i s n h
    unfold scanLoop at h
    simp only at h
    split_ifs at h with h1 h2
    · simp only [ScanRes.bad.injEq] at h
      subst h
      cases s with
      | nil => exact absurd hstop h1
      | cons c s =>
        have hc : rd (c :: s) = c := rfl
        rw [hc] at h1 h2
        simp only [Nat.sub_self, List.take_zero, List.drop_zero, hc]
        simp only [Bool.not_eq_true', Bool.not_eq_true] at h1 h2
        refine ⟨by omega, by omega, by simp, by simp, h2, h1⟩
    · cases s with
      | nil => exact absurd hstop h1
      | cons c s =>
        have hc : rd (c :: s) = c := rfl
        rw [hc] at h1 h2
        obtain ⟨a1, a2, a3, a4, a5⟩ := ih (i + 1) s n (by simpa using h)
        have hn : n - i = (n - (i + 1)) + 1 := by omega
        refine ⟨by omega, by omega, by simp only [List.length_cons]; omega, ?_, ?_⟩
        · rw [hn, List.take_succ_cons]
          intro d hd
          rcases List.mem_cons.1 hd with rfl | hd
          · exact ⟨by simpa using h2, by simpa using h1⟩
          · exact a4 d hd
        · rw [hn, List.drop_succ_cons]
          exact a5

/-- Bounds of the digit loop. -/
theorem digitLoop_bounds {conv : Byte → Option Nat} {base : Nat} :
    ∀ (s : Str) (t n : Nat),
      (∀ k, digitLoop conv base s t n = .bad k → n ≤ k ∧ k < n + s.length) ∧
      (∀ v k, digitLoop conv base s t n = .done v k → n ≤ k ∧ k ≤ n + s.length) := by
  intro s
  induction s with
  | nil =>
    intro t n
    refine ⟨by simp [digitLoop], fun v k h => ?_⟩
    simp only [digitLoop, DigitRes.done.injEq] at h
    simp; omega
  | cons c s ih =>
    intro t n
    unfold digitLoop
    cases hc : conv c with
    | none =>
      simp only
      split_ifs
      · refine ⟨by simp, fun v k h => ?_⟩
        simp only [DigitRes.done.injEq] at h
        simp only [List.length_cons]; omega
      · refine ⟨fun k h => ?_, by simp⟩
        simp only [DigitRes.bad.injEq] at h
        simp only [List.length_cons]; omega
    | some v =>
      simp only
      obtain ⟨h1, h2⟩ := ih ((t * base + v) % 2 ^ 64) (n + 1)
      refine ⟨fun k h => ?_, fun w k h => ?_⟩
      · have := h1 k h
        simp only [List.length_cons]; omega
      · have := h2 w k h
        simp only [List.length_cons]; omega

theorem isTextStop_zero : isTextStop 0 = true := by decide
theorem isEndOfToken_zero : isEndOfToken 0 = true := by decide

theorem isDigit_rd_pos {s : Str} (h : isDigit (rd s) = true) : s ≠ [] := by
  rintro rfl
  revert h
  decide

/-- A lexeme has at least one character and lies inside the text. -/
theorem lexOne_len {s : Str} {n : Nat} {x : Lexeme} (hs : s ≠ []) (h : lexOne s = .ok (n, x)) :
    1 ≤ n ∧ n ≤ s.length := by
  obtain ⟨c, s', rfl⟩ := List.exists_cons_of_ne_nil hs
  unfold lexOne at h
  cases hp : Spec.punctLexeme (rd (c :: s')) with
  | some y =>
    rw [hp] at h
    simp only [Except.ok.injEq, Prod.mk.injEq] at h
    simp only [List.length_cons]
    omega
  | none =>
    rw [hp] at h
    simp only at h
    split_ifs at h with h1 h2 h3 h4 h5
    · unfold wordBody at h
      split at h
      · simp at h
      · rename_i k hk
        split_ifs at h
        simp only [Except.ok.injEq, Prod.mk.injEq] at h
        obtain ⟨a1, a2, a3, a4, a5⟩ := scanLoop_done isTextStop_zero _ _ _ _ hk
        refine ⟨?_, by omega⟩
        by_contra hc
        have hk0 : k = 0 := by omega
        subst hk0
        have := a5 (by decide)
        simp only [Nat.sub_zero, List.drop_zero] at this
        revert h1 this
        generalize rd (c :: s') = d
        revert d
        decide +kernel
    · unfold litBody at h
      split at h
      · simp at h
      · rename_i v k hk
        split_ifs at h
        simp only [Except.ok.injEq, Prod.mk.injEq] at h
        have := (digitLoop_bounds _ _ _).2 v k hk
        simp only [List.tail_cons, List.length_cons] at *
        omega
    · unfold litBody at h
      split at h
      · simp at h
      · rename_i v k hk
        split_ifs at h
        simp only [Except.ok.injEq, Prod.mk.injEq] at h
        have := (digitLoop_bounds _ _ _).2 v k hk
        simp only [List.tail_cons, List.length_cons] at *
        omega
    · unfold litBody at h
      split at h
      · simp at h
      · rename_i v k hk
        split_ifs at h
        simp only [Except.ok.injEq, Prod.mk.injEq] at h
        have := (digitLoop_bounds _ _ _).2 v k hk
        simp only [List.length_cons] at *
        omega
    · unfold dirBody at h
      split at h
      · simp at h
      · rename_i k hk
        split_ifs at h
        split at h
        · simp only [Except.ok.injEq, Prod.mk.injEq] at h
          obtain ⟨a1, a2, a3, a4, a5⟩ := scanLoop_done isEndOfToken_zero _ _ _ _ hk
          simp only [List.tail_cons, List.length_cons] at *
          omega
        · simp at h

/-! ### The model's `lex` is `lexOne` -/

/-- Put the outcome of `lexOne` into the running token and instruction. -/
def applyOne (off : Nat) (tk : Token) (instr : Instr) :
    Except (Err × Nat) (Nat × Lexeme) → LexM (Nat × Token × Instr)
  | .error (e, k) => .err (e, off + k)
  | .ok (n, x) => .ok (n, updTok tk off x, updInstr instr x)

theorem lex_punct (tk : Token) (off : Nat) (c : Byte) (t : TokenType) (x : Lexeme) (instr : Instr)
    (h1 : lexType x = t) (h2 : lexStr tk.str x = [toUpper c]) (h3 : lexValue tk.value x = tk.value)
    (h4 : updInstr instr x = instr) :
    (do
      let tk ← tokenStrncpy { tk with bufferLocation := some off, type := t } [c] 1
      pure (1, tk, instr) : LexM (Nat × Token × Instr)) =
    .ok (1, updTok tk off x, updInstr instr x) := by
  simp [tokenStrncpy, MAX_TOKEN_STR_LEN, updTok, h1, h2, h3, h4]

theorem punct_rel (c : Byte) :
    (punctType c = none ↔ Spec.punctLexeme c = none) ∧
    ∀ x, Spec.punctLexeme c = some x → punctType c = some (lexType x) ∧ lexStr [] x = [toUpper c] ∧
      x.isPunct = true := by
  unfold punctType Spec.punctLexeme
  refine ⟨?_, ?_⟩
  · split_ifs <;> simp_all
  · intro x hx
    split_ifs at hx with h1 h2 h3 h4 h5 h6 <;> simp only [Option.some.injEq] at hx <;> subst hx <;>
      simp_all [lexType, lexStr, Lexeme.isPunct, Spec.Lexeme.isPunct] <;> decide

theorem isPunct_upd {x : Lexeme} (h : x.isPunct = true) (o o' : Str) (v : Nat) (i : Instr) :
    lexStr o x = lexStr o' x ∧ lexValue v x = v ∧ updInstr i x = i := by
  cases x <;> simp_all [Spec.Lexeme.isPunct, lexStr, lexValue, updInstr]

theorem lexLiteralBody_eq (conv : Byte → Option Nat) (base off : Nat) (s : Str) (k : Nat) (tk : Token)
    (instr : Instr) :
    (do
      let (n, tk) ← lexLiteralBody conv base off s k { tk with bufferLocation := some off }
      pure (n, tk, instr) : LexM (Nat × Token × Instr)) = applyOne off tk instr (litBody conv base s k) := by
  unfold lexLiteralBody litBody
  cases digitLoop conv base s 0 k with
  | bad n => simp [applyOne]
  | done total n =>
    simp only
    split_ifs <;> simp [applyOne, updTok, lexType, lexStr, lexValue, updInstr]

theorem directive_rel (w : Str) (old : Str) :
    (directiveType w = none ↔ Spec.directiveLexeme w = none) ∧
    ∀ x, Spec.directiveLexeme w = some x → directiveType w = some (lexType x) ∧ lexStr old x = w ∧
      (∀ v, lexValue v x = v) ∧ (∀ i, updInstr i x = i) := by
  unfold directiveType Spec.directiveLexeme
  refine ⟨?_, ?_⟩
  · split_ifs <;> simp_all
  · intro x hx
    split_ifs at hx with h1 h2 h3 h4 <;> simp only [Option.some.injEq] at hx <;> subst hx <;>
      simp_all [lexType, lexStr, lexValue, updInstr]

theorem lexDirective_eq (off : Nat) (s : Str) (tk : Token) (instr : Instr) (hs : s ≠ []) :
    (do
      let (n, tk) ← lexDirective off s { tk with bufferLocation := some off }
      pure (n, tk, instr) : LexM (Nat × Token × Instr)) = applyOne off tk instr (dirBody s) := by
  unfold lexDirective dirBody
  cases h : scanLoop isEndOfToken isAlpha (MAX_TOKEN_STR_LEN - 1) 1 s.tail with
  | bad i => simp [applyOne]
  | done n =>
    obtain ⟨a1, a2, a3, a4, a5⟩ := scanLoop_done isEndOfToken_zero _ _ _ _ h
    simp only
    split_ifs with hn
    · simp [applyOne]
    · have hlen : n ≤ s.length := by
        obtain ⟨c, s', rfl⟩ := List.exists_cons_of_ne_nil hs
        simp only [List.tail_cons, List.length_cons] at *
        omega
      have hm : MAX_TOKEN_STR_LEN = 64 := rfl
      unfold tokenStrncpy
      rw [if_neg (by omega), if_neg (by omega)]
      simp only [C.ok_bind]
      generalize (s.take n).map toUpper = w
      have hr := directive_rel w tk.str
      cases hx : Spec.directiveLexeme w with
      | none => simp [hr.1.2 hx, applyOne]
      | some x =>
        obtain ⟨b1, b2, b3, b4⟩ := hr.2 x hx
        simp [b1, applyOne, updTok, b2, b3, b4]

theorem word_rel (w : Str) (tk : Token) (instr : Instr) (off n : Nat) :
    (if w = b! "X" then C.ok (n, ({ tk with bufferLocation := some off, str := w, type := .xRegister } : Token), instr)
      else if w = b! "Y" then .ok (n, { tk with bufferLocation := some off, str := w, type := .yRegister }, instr)
      else if w = b! "A" then .ok (n, { tk with bufferLocation := some off, str := w, type := .accumulator }, instr)
      else
        match lexInstruction { tk with bufferLocation := some off, str := w } instr with
        | some (tk, instr) => .ok (n, tk, instr)
        | none => .ok (n, { tk with bufferLocation := some off, str := w, type := .label }, instr)
      : LexM (Nat × Token × Instr)) =
    .ok (n, updTok tk off (Spec.wordLexeme w), updInstr instr (Spec.wordLexeme w)) := by
  unfold Spec.wordLexeme
  split_ifs with h1 h2 h3
  · simp [updTok, lexType, lexStr, lexValue, updInstr, h1]
  · simp [updTok, lexType, lexStr, lexValue, updInstr, h2]
  · simp [updTok, lexType, lexStr, lexValue, updInstr, h3]
  · unfold lexInstruction
    simp only [strToMnemonic_eq]
    cases hf : Mnemonic.all.find? (fun m => Spec.mnemonicName m = w) with
    | none => simp [updTok, lexType, lexStr, lexValue, updInstr]
    | some m =>
      have := List.find?_some hf
      simp only [decide_eq_true_eq] at this
      simp [updTok, lexType, lexStr, lexValue, updInstr, this]

theorem lexText_eq (off : Nat) (s : Str) (tk : Token) (instr : Instr) :
    lexText off s { tk with bufferLocation := some off } instr = applyOne off tk instr (wordBody s) := by
  unfold lexText wordBody
  cases h : scanLoop isTextStop isValidTokenChar MAX_TOKEN_STR_LEN 0 s with
  | bad i => simp [applyOne]
  | done n =>
    obtain ⟨a1, a2, a3, a4, a5⟩ := scanLoop_done isTextStop_zero _ _ _ _ h
    simp only
    split_ifs with hn
    · simp [applyOne]
    · have hm : MAX_TOKEN_STR_LEN = 64 := rfl
      unfold tokenStrncpy
      rw [if_neg (by omega), if_neg (by omega)]
      simp only [C.ok_bind, C.pure_eq, applyOne]
      exact word_rel ((s.take n).map toUpper) tk instr off n

theorem lex_eq (off : Nat) (s : Str) (tk : Token) (instr : Instr) (hs : s ≠ []) :
    lex off s tk instr = applyOne off tk instr (lexOne s) := by
  unfold lex lexOne
  have hr := punct_rel (rd s)
  cases hp : Spec.punctLexeme (rd s) with
  | some x =>
    obtain ⟨h1, h2, h3⟩ := hr.2 x hp
    obtain ⟨u1, u2, u3⟩ := isPunct_upd h3 tk.str [] tk.value instr
    simp only [h1]
    rw [lex_punct tk off (rd s) _ x instr rfl (by rw [u1, h2]) u2 u3]
    rfl
  | none =>
    simp only [hr.1.2 hp]
    split_ifs with h1 h2 h3 h4 h5 h6 h7
    all_goals first
      | exact lexText_eq off s tk instr
      | exact lexDirective_eq off s tk instr hs
      | (simp only [lexLiteral, *, if_true, if_false]; exact lexLiteralBody_eq _ _ _ _ _ _ _)
      | simp_all [applyOne]

/-! ### Only the part before the first terminator matters -/

open Spec (code)

/-- The characters that end the meaningful part of a line. -/
def isTerm (c : Byte) : Bool := c == 13 || c == 10 || c == 59 || c == 0 || c == 255

theorem endLineLexing_eq (c : Byte) : endLineLexing c = isTerm c := rfl

theorem code_cons (c : Byte) (s : Str) : code (c :: s) = if isTerm c then [] else c :: code s := by
  unfold code
  rw [List.takeWhile_cons]
  cases h : isTerm c <;> unfold isTerm at h <;> simp [h]

theorem code_nil : code [] = [] := rfl

theorem code_code (s : Str) : code (code s) = code s := by
  induction s with
  | nil => rfl
  | cons c s ih =>
    rw [code_cons]
    split_ifs with h
    · rfl
    · rw [code_cons, if_neg h, ih]

theorem isTerm_zero : isTerm 0 = true := by decide

theorem code_eq_nil_iff (s : Str) : code s = [] ↔ isTerm (rd s) = true := by
  cases s with
  | nil => simp [code_nil, rd, isTerm_zero]
  | cons c s =>
    rw [code_cons]
    show _ ↔ isTerm c = true
    split_ifs with h <;> simp [h]

/-- Reading the first character of the meaningful part: the same unless it is a terminator. -/
theorem rd_code (s : Str) : rd (code s) = if isTerm (rd s) then 0 else rd s := by
  cases s with
  | nil => simp [code_nil, rd, isTerm_zero]
  | cons c s =>
    rw [code_cons]
    show _ = if isTerm c then 0 else c
    split_ifs with h <;> rfl

theorem drop_code (s : Str) : ∀ n, n ≤ (code s).length → code (s.drop n) = (code s).drop n := by
  induction s with
  | nil => intro n hn; simp [code_nil]
  | cons c s ih =>
    intro n hn
    rw [code_cons] at hn ⊢
    cases n with
    | zero => rw [List.drop_zero, List.drop_zero, code_cons]
    | succ n =>
      split_ifs at hn ⊢ with h
      · simp at hn
      · rw [List.drop_succ_cons, List.drop_succ_cons]
        exact ih n (by simpa using hn)

theorem digitLoop_code {conv : Byte → Option Nat} {base : Nat} (hc : ∀ c, isTerm c = true → conv c = none) :
    ∀ (s : Str) (t n : Nat), digitLoop conv base (code s) t n = digitLoop conv base s t n := by
  intro s
  induction s with
  | nil => intro t n; rfl
  | cons c s ih =>
    intro t n
    rw [code_cons]
    split_ifs with h
    · have he : isEndOfToken c = true := by
        revert h; revert c; decide +kernel
      simp [digitLoop, hc c h, he]
    · unfold digitLoop
      cases conv c with
      | none => rfl
      | some v => exact ih _ _

theorem scanLoop_code {stop valid : Byte → Bool} (hs : ∀ c, isTerm c = true → stop c = true) :
    ∀ (fuel i : Nat) (s : Str), scanLoop stop valid fuel i (code s) = scanLoop stop valid fuel i s := by
  intro fuel
  induction fuel with
  | zero => intro i s; rfl
  | succ fuel ih =>
    intro i s
    cases s with
    | nil => rfl
    | cons c s =>
      rw [code_cons]
      split_ifs with h
      · unfold scanLoop
        simp only [rd, List.headD_nil, List.headD_cons, hs c h, hs 0 isTerm_zero, if_true]
      · unfold scanLoop
        simp only [rd, List.headD_cons, List.tail_cons, ih]
        rfl

theorem tail_code {s : Str} (h : isTerm (rd s) = false) : (code s).tail = code s.tail := by
  cases s with
  | nil => rfl
  | cons c s =>
    rw [code_cons, if_neg (by simpa [rd] using h)]
    rfl

theorem take_code (s : Str) : ∀ n, n ≤ (code s).length → (code s).take n = s.take n := by
  induction s with
  | nil => intro n hn; simp [code_nil]
  | cons c s ih =>
    intro n hn
    rw [code_cons] at hn ⊢
    cases n with
    | zero => rw [List.take_zero, List.take_zero]
    | succ n =>
      split_ifs at hn ⊢ with h
      · simp at hn
      · rw [List.take_succ_cons, List.take_succ_cons, ih n (by simpa using hn)]

theorem lexOne_code {s : Str} (h : isTerm (rd s) = false) : lexOne (code s) = lexOne s := by
  have hrd : rd (code s) = rd s := by rw [rd_code, if_neg (by simp [h])]
  have ht := tail_code h
  have hw : wordBody (code s) = wordBody s := by
    unfold wordBody
    have hl := scanLoop_code (stop := isTextStop) (valid := isValidTokenChar) (by decide +kernel)
      MAX_TOKEN_STR_LEN 0 s
    rw [hl]
    cases hk : scanLoop isTextStop isValidTokenChar MAX_TOKEN_STR_LEN 0 s with
    | bad i => rfl
    | done n =>
      rw [hk] at hl
      have := (scanLoop_done isTextStop_zero _ _ _ _ hl).2.2.1
      simp only
      rw [take_code s n (by omega)]
  have hd : dirBody (code s) = dirBody s := by
    unfold dirBody
    have hl := scanLoop_code (stop := isEndOfToken) (valid := isAlpha) (by decide +kernel)
      (MAX_TOKEN_STR_LEN - 1) 1 s.tail
    rw [ht, hl]
    cases hk : scanLoop isEndOfToken isAlpha (MAX_TOKEN_STR_LEN - 1) 1 s.tail with
    | bad i => rfl
    | done n =>
      rw [hk] at hl
      have h3 := (scanLoop_done isEndOfToken_zero _ _ _ _ hl).2.2.1
      have hne : code s ≠ [] := by
        intro hc
        rw [code_eq_nil_iff] at hc
        simp [h] at hc
      have hlen : (code s).length = (code s).tail.length + 1 := by
        obtain ⟨c, s', hcs⟩ := List.exists_cons_of_ne_nil hne
        rw [hcs]; rfl
      rw [ht] at hlen
      simp only
      rw [take_code s n (by omega)]
  have hb : ∀ conv base k s', (∀ c, isTerm c = true → conv c = none) →
      litBody conv base (code s') k = litBody conv base s' k := by
    intro conv base k s' hc
    unfold litBody
    rw [digitLoop_code hc]
  unfold lexOne
  rw [hrd, hw, hd, ht, hb _ _ _ _ (by decide +kernel), hb _ _ _ _ (by decide +kernel),
    hb _ _ _ _ (by decide +kernel)]

/-! ### The token loop as a function of the text -/

/-- Why a line is refused by the lexer: an error at an offset, or a ninth token. -/
inductive LexFail
  | at (e : Err) (pos : Nat)
  | tooMany
  deriving DecidableEq, Repr

def isName : Lexeme → Bool
  | .name _ => true
  | _ => false

/-- The lexemes of the text `s` at offset `off`, given that `cnt` lexemes precede it. -/
def scan : (fuel off : Nat) → Str → (cnt : Nat) → Except LexFail (List (Nat × Lexeme))
  | 0, _, _, _ => .ok []
  | fuel + 1, off, s, cnt =>
    if isTerm (rd s) then .ok []
    else
      match lexOne s with
      | .error (e, k) => .error (.at e (off + k))
      | .ok (n, x) =>
        if cnt = 8 then .error .tooMany
        else if rd (s.drop n) = 58 then
          if isName x ∧ cnt = 0 then
            match scan fuel (skipBlanks (off + n + 1) (s.drop n).tail).1
                (skipBlanks (off + n + 1) (s.drop n).tail).2 (cnt + 1) with
            | .ok ls => .ok ((off, x) :: ls)
            | .error f => .error f
          else .error (.at .illegalChar (off + n))
        else
          match scan fuel (skipBlanks (off + n) (s.drop n)).1 (skipBlanks (off + n) (s.drop n)).2 (cnt + 1) with
          | .ok ls => .ok ((off, x) :: ls)
          | .error f => .error f

theorem skipBlanks_length : ∀ (off : Nat) (s : Str), (skipBlanks off s).2.length ≤ s.length
  | off, [] => by simp [skipBlanks]
  | off, c :: s => by
    unfold skipBlanks
    split_ifs
    · have := skipBlanks_length (off + 1) s
      simp only [List.length_cons]; omega
    · simp

/-- `skipBlanks` splits the text into blanks and a rest that does not start with a blank. -/
theorem skipBlanks_spec : ∀ (off : Nat) (s : Str), ∃ bl, s = bl ++ (skipBlanks off s).2 ∧
    (skipBlanks off s).1 = off + bl.length ∧ (∀ c ∈ bl, isBlank c = true) ∧
    (∀ c r, (skipBlanks off s).2 = c :: r → isBlank c = false)
  | off, [] => ⟨[], by simp [skipBlanks]⟩
  | off, c :: s => by
    unfold skipBlanks
    split_ifs with h
    · obtain ⟨bl, h1, h2, h3, h4⟩ := skipBlanks_spec (off + 1) s
      refine ⟨c :: bl, by simpa using h1, by rw [h2]; simp only [List.length_cons]; omega, ?_, h4⟩
      intro d hd
      rcases List.mem_cons.1 hd with rfl | hd
      · exact h
      · exact h3 d hd
    · refine ⟨[], rfl, rfl, by simp, ?_⟩
      intro d r hd
      simp only [List.cons.injEq] at hd
      rw [← hd.1]
      simpa using h

theorem skipBlanks_code : ∀ (off : Nat) (s : Str),
    skipBlanks off (code s) = ((skipBlanks off s).1, code (skipBlanks off s).2)
  | off, [] => rfl
  | off, c :: s => by
    rw [code_cons]
    have hx : isTerm c = true → isBlank c = false := by revert c; decide +kernel
    by_cases h : isTerm c = true
    · rw [if_pos h]
      unfold skipBlanks
      rw [if_neg (by simp [hx h])]
      simp [code_cons, h]
    · rw [if_neg h]
      unfold skipBlanks
      split_ifs
      · exact skipBlanks_code (off + 1) s
      · simp [code_cons, h]

theorem code_length_le (s : Str) : (code s).length ≤ s.length := by
  unfold code
  exact (List.takeWhile_prefix _).length_le

theorem scan_code : ∀ (fuel off : Nat) (s : Str) (cnt : Nat), scan fuel off (code s) cnt = scan fuel off s cnt := by
  intro fuel
  induction fuel with
  | zero => intro off s cnt; rfl
  | succ fuel ih =>
    intro off s cnt
    unfold scan
    have hterm : isTerm (rd (code s)) = isTerm (rd s) := by
      rw [rd_code]
      split_ifs with h
      · rw [h]; rfl
      · rfl
    rw [hterm]
    by_cases h : isTerm (rd s) = true
    · rw [if_pos h, if_pos h]
    · rw [if_neg h, if_neg h]
      have h' : isTerm (rd s) = false := by simpa using h
      have hl := lexOne_code h'
      rw [hl]
      cases hk : lexOne s with
      | error p => rfl
      | ok p =>
        obtain ⟨n, x⟩ := p
        rw [hk] at hl
        have hne : code s ≠ [] := by
          intro hc
          rw [code_eq_nil_iff] at hc
          exact h hc
        have hb := lexOne_len hne hl
        have hd := drop_code s n hb.2
        simp only
        rw [← hd]
        have hcol : (rd (code (s.drop n)) = 58) = (rd (s.drop n) = 58) := by
          rw [rd_code]
          split_ifs with ht
          · apply propext
            constructor
            · intro h0; exact absurd h0 (by decide)
            · intro h0; rw [h0] at ht; exact absurd ht (by decide)
          · rfl
        simp only [hcol]
        split_ifs with c1 c2 c3
        · rfl
        · have : isTerm (rd (s.drop n)) = false := by rw [c2]; decide
          rw [tail_code this, skipBlanks_code]
          simp only [ih]
        · rfl
        · rw [skipBlanks_code]
          simp only [ih]

/-! ### The model's token loop is `scan` -/

/-- A null token. -/
abbrev nullTok : Token := ⟨.null, [], 0, none⟩

/-- The tokens recorded for a list of lexemes, starting from the running token `tk`. -/
def tokens (tk : Token) : List (Nat × Lexeme) → List Token
  | [] => []
  | (off, x) :: ls => updTok tk off x :: tokens (updTok tk off x) ls

/-- The running token at the end. -/
def lastTok (tk : Token) : List (Nat × Lexeme) → Token
  | [] => tk
  | (off, x) :: ls => lastTok (updTok tk off x) ls

/-- The instruction structure at the end. -/
def lastInstr (i : Instr) : List (Nat × Lexeme) → Instr
  | [] => i
  | (_, x) :: ls => lastInstr (updInstr i x) ls

theorem tokens_length (tk : Token) (ls : List (Nat × Lexeme)) : (tokens tk ls).length = ls.length := by
  induction ls generalizing tk with
  | nil => rfl
  | cons p ls ih => obtain ⟨o, x⟩ := p; simp [tokens, ih]

theorem wordLexeme_str (w o : Str) : lexStr o (Spec.wordLexeme w) = w := by
  unfold Spec.wordLexeme
  split_ifs with h1 h2 h3
  · simp [lexStr, h1]
  · simp [lexStr, h2]
  · simp [lexStr, h3]
  · cases hf : Mnemonic.all.find? (fun m => Spec.mnemonicName m = w) with
    | none => rfl
    | some m =>
      have := List.find?_some hf
      simp only [decide_eq_true_eq] at this
      simp [lexStr, this]

theorem lexStr_len {s : Str} {n : Nat} {x : Lexeme} (o : Str) (ho : o.length ≤ 63)
    (h : lexOne s = .ok (n, x)) : (lexStr o x).length ≤ 63 := by
  unfold lexOne at h
  cases hp : Spec.punctLexeme (rd s) with
  | some y =>
    rw [hp] at h
    simp only [Except.ok.injEq, Prod.mk.injEq] at h
    have h3 := ((punct_rel (rd s)).2 y hp).2.2
    rw [← h.2]
    cases y <;> first | (simp [Spec.Lexeme.isPunct] at h3; done) | simp [lexStr]
  | none =>
    rw [hp] at h
    simp only at h
    have hlit : ∀ conv base t k, litBody conv base t k = .ok (n, x) → (lexStr o x).length ≤ 63 := by
      intro conv base t k hh
      unfold litBody at hh
      split at hh
      · simp at hh
      · split_ifs at hh
        simp only [Except.ok.injEq, Prod.mk.injEq] at hh
        rw [← hh.2]
        exact ho
    split_ifs at h with h1 h2 h3 h4 h5
    · unfold wordBody at h
      split at h
      · simp at h
      · rename_i k hk
        split_ifs at h with hn
        simp only [Except.ok.injEq, Prod.mk.injEq] at h
        obtain ⟨a1, a2, a3, a4, a5⟩ := scanLoop_done isTextStop_zero _ _ _ _ hk
        rw [← h.2, wordLexeme_str]
        have hm : MAX_TOKEN_STR_LEN = 64 := rfl
        simp only [List.length_map, List.length_take]
        omega
    · exact hlit _ _ _ _ h
    · exact hlit _ _ _ _ h
    · exact hlit _ _ _ _ h
    · unfold dirBody at h
      split at h
      · simp at h
      · split_ifs at h
        split at h
        · rename_i y hy
          simp only [Except.ok.injEq, Prod.mk.injEq] at h
          rw [← h.2]
          unfold Spec.directiveLexeme at hy
          split_ifs at hy <;> simp only [Option.some.injEq] at hy <;> subst hy <;> simp [lexStr]
        · simp at h

/-- Result of the lexing phase in terms of `scan`. -/
def lexResult (buffer : Str) (lx : Lexer) (toks : List Token) (tk : Token) (instr : Instr) :
    Except LexFail (List (Nat × Lexeme)) → Res (Lexer × Token × Instr)
  | .error (.at e pos) => raise (some buffer) e (some pos) lx.fileName lx.lineNum
  | .error .tooMany => .err ⟨.tooManyTokens, []⟩
  | .ok ls => .ok ({ lx with
      seq := toks ++ tokens tk ls ++ List.replicate (8 - (toks.length + ls.length)) nullTok,
      curr := toks.length + ls.length }, lastTok tk ls, lastInstr instr ls)

theorem addToken_eq (lx : Lexer) (toks : List Token) (tk : Token) (hlen : toks.length < 8)
    (hcurr : lx.curr = toks.length) (hseq : lx.seq = toks ++ List.replicate (8 - toks.length) nullTok)
    (hstr : tk.str.length ≤ 63) :
    addToken lx tk = .ok { lx with seq := (toks ++ [tk]) ++ List.replicate (8 - (toks.length + 1)) nullTok,
                                   curr := toks.length + 1 } := by
  unfold addToken
  have hm : MAX_TOKENS = 8 := rfl
  rw [if_neg (by omega)]
  have hget : lx.seq[lx.curr]? = some nullTok := by
    rw [hseq, hcurr, List.getElem?_append_right (by omega), List.getElem?_replicate]
    rw [if_pos (by omega)]
  rw [hget]
  simp only [if_true]
  have hcopy : tokenStrcpy { nullTok with type := tk.type } tk.str = .ok { nullTok with type := tk.type, str := tk.str } := by
    unfold tokenStrcpy
    have hm' : MAX_TOKEN_STR_LEN = 64 := rfl
    split_ifs with h1 h2
    · rw [h1]
    · omega
    · rfl
  rw [hcopy]
  simp only [C.ok_bind, C.pure_eq, C.ok.injEq]
  congr 1
  · rw [hseq, hcurr]
    obtain ⟨k, hk⟩ : ∃ k, 8 - toks.length = k + 1 := ⟨8 - toks.length - 1, by omega⟩
    rw [hk, List.set_append_right _ _ (by omega), Nat.sub_self, List.replicate_succ, List.set_cons_zero]
    rw [show 8 - (toks.length + 1) = k by omega]
    simp
  · rw [hcurr]

theorem lexLoop_eq (buffer : Str) : ∀ (fuel off : Nat) (s : Str) (lx : Lexer) (tk : Token) (instr : Instr)
    (toks : List Token), s.length < fuel → tk.str.length ≤ 63 → toks.length ≤ 8 → lx.curr = toks.length →
    lx.seq = toks ++ List.replicate (8 - toks.length) nullTok →
    lexLoop buffer fuel off s lx tk instr =
      lexResult buffer lx toks tk instr (scan fuel off s toks.length) := by
  intro fuel
  induction fuel with
  | zero => intro off s lx tk instr toks h; omega
  | succ fuel ih =>
    intro off s lx tk instr toks hf hstr hlen hcurr hseq
    unfold lexLoop scan
    rw [endLineLexing_eq]
    by_cases ht : isTerm (rd s) = true
    · rw [if_pos ht, if_pos ht]
      simp only [lexResult, tokens, lastTok, lastInstr, List.append_nil, List.length_nil, Nat.add_zero,
        C.ok.injEq, Prod.mk.injEq, and_true]
      rw [← hseq, ← hcurr]
    · rw [if_neg ht, if_neg ht]
      have hne : s ≠ [] := by
        rintro rfl
        exact ht isTerm_zero
      rw [lex_eq off s tk instr hne]
      cases hk : lexOne s with
      | error p => obtain ⟨e, k⟩ := p; rfl
      | ok p =>
        obtain ⟨n, x⟩ := p
        have hb := lexOne_len hne hk
        have hstr' : (updTok tk off x).str.length ≤ 63 := lexStr_len tk.str hstr hk
        simp only [applyOne]
        rw [if_neg (by omega)]
        by_cases h8 : toks.length = 8
        · rw [if_pos h8]
          have : addToken lx (updTok tk off x) = .err (.tooManyTokens, 0) := by
            unfold addToken
            rw [if_pos (by rw [hcurr, h8]; rfl)]
          rw [this]
          rfl
        · rw [if_neg h8, addToken_eq lx toks _ (by omega) hcurr hseq hstr']
          simp only
          have hname : ((updTok tk off x).type = .label) = (isName x = true) := by
            cases x <;> simp [updTok, lexType, isName]
          have step : ∀ (o' : Nat) (s' : Str), s'.length < s.length →
              lexLoop buffer fuel o' s'
                { lx with seq := (toks ++ [updTok tk off x]) ++ List.replicate (8 - (toks.length + 1)) nullTok,
                          curr := toks.length + 1 } (updTok tk off x) (updInstr instr x) =
              lexResult buffer lx toks tk instr
                (match scan fuel o' s' (toks.length + 1) with
                  | .ok ls => .ok ((off, x) :: ls)
                  | .error f => .error f) := by
            intro o' s' hs'
            rw [ih o' s' _ _ _ (toks ++ [updTok tk off x]) (by omega) hstr' (by simp; omega) (by simp)
              (by simp)]
            rw [List.length_append, List.length_singleton]
            cases scan fuel o' s' (toks.length + 1) with
            | error f => cases f <;> rfl
            | ok ls =>
              simp only [lexResult, tokens, lastTok, lastInstr, List.length_append, List.length_cons,
                List.length_nil, Nat.zero_add, List.append_assoc, List.cons_append,
                List.nil_append]
              rw [show toks.length + 1 + ls.length = toks.length + (ls.length + 1) by omega]
          have hdl : (s.drop n).length < s.length := by
            rw [List.length_drop]; omega
          by_cases hc : rd (s.drop n) = 58
          · rw [if_pos hc, if_pos hc]
            have h0 : ((updTok tk off x).type = .label ∧ toks.length + 1 = 1) ↔
                (isName x = true ∧ toks.length = 0) := by rw [hname]; simp
            by_cases hcond : isName x = true ∧ toks.length = 0
            · rw [if_pos (h0.2 hcond), if_pos hcond]
              refine step _ _ ?_
              have h1 := skipBlanks_length (off + n + 1) (s.drop n).tail
              have h2 : (s.drop n).tail.length ≤ (s.drop n).length := by rw [List.length_tail]; omega
              omega
            · rw [if_neg (fun h => hcond (h0.1 h)), if_neg hcond]
              rfl
          · rw [if_neg hc, if_neg hc]
            refine step _ _ ?_
            have h1 := skipBlanks_length (off + n) (s.drop n)
            omega

theorem scan_length : ∀ (fuel off : Nat) (s : Str) (cnt : Nat) (ls : List (Nat × Lexeme)), cnt ≤ 8 →
    scan fuel off s cnt = .ok ls → cnt + ls.length ≤ 8 := by
  intro fuel
  induction fuel with
  | zero => intro off s cnt ls hc h; simp [scan] at h; subst h; simpa using hc
  | succ fuel ih =>
    intro off s cnt ls hc h
    unfold scan at h
    by_cases h1 : isTerm (rd s) = true
    · rw [if_pos h1] at h
      simp at h; subst h; simpa using hc
    · rw [if_neg h1] at h
      cases hk : lexOne s with
      | error p => rw [hk] at h; simp at h
      | ok p =>
        obtain ⟨n, x⟩ := p
        rw [hk] at h
        simp only at h
        split_ifs at h with h2 h3 h4
        · split at h
          · rename_i ls' hs
            simp only [Except.ok.injEq] at h
            have := ih _ _ _ _ (by omega) hs
            rw [← h, List.length_cons]; omega
          · simp at h
        · split at h
          · rename_i ls' hs
            simp only [Except.ok.injEq] at h
            have := ih _ _ _ _ (by omega) hs
            rw [← h, List.length_cons]; omega
          · simp at h

/-- The lexemes of a line (`raw` is the buffer `fgets` filled). -/
def lexemes (raw : List Byte) : Except LexFail (List (Nat × Lexeme)) :=
  scan ((skipBlanks 0 (cstr raw)).2.length + 1) (skipBlanks 0 (cstr raw)).1 (skipBlanks 0 (cstr raw)).2 0

/-- The lexer after a successful scan of a line. -/
def lexerOf (buffer : Str) (lineNum : Nat) (fileName : Str) (ls : List (Nat × Lexeme)) : Lexer :=
  { seq := tokens nullTok ls ++ List.replicate (8 - ls.length) nullTok, curr := ls.length, line := some buffer,
    lineNum := lineNum, fileName := fileName }

/-- What `lex_line` does, whatever the scratch structures contained before. -/
theorem lexLine_eq (raw : List Byte) (lx : Lexer) (tk : Token) (instr : Instr) (lineNum : Nat)
    (hseq : lx.seq.length = 8) :
    lexLine raw lx tk instr lineNum =
      match lexemes raw with
      | .error (.at e pos) => raise (some (cstr raw)) e (some pos) lx.fileName lineNum
      | .error .tooMany => .err ⟨.tooManyTokens, []⟩
      | .ok ls => .ok (lexerOf (cstr raw) lineNum lx.fileName ls, lastTok nullTok ls, lastInstr {} ls) := by
  have hreset : lx.seq.map resetToken = List.replicate 8 nullTok := by
    rw [List.eq_replicate_iff]
    refine ⟨by simpa using hseq, ?_⟩
    intro t ht
    obtain ⟨t', _, rfl⟩ := List.mem_map.1 ht
    rfl
  unfold lexLine
  simp only
  rw [lexLoop_eq (cstr raw) _ _ _ _ _ _ [] (by omega) (by simp [resetToken]) (by simp) rfl
    (by simp [resetLexer, hreset])]
  unfold lexemes
  simp only [List.length_nil]
  cases hs : scan ((skipBlanks 0 (cstr raw)).2.length + 1) (skipBlanks 0 (cstr raw)).1
      (skipBlanks 0 (cstr raw)).2 0 with
  | error f =>
    cases f with
    | «at» e pos =>
      simp only [lexResult, resetLexer, raise]
      cases printError (some (cstr raw)) e (some pos) lx.fileName lineNum <;> rfl
    | tooMany => rfl
  | ok ls =>
    have hl := scan_length _ _ _ _ _ (by omega) hs
    simp only [lexResult, List.nil_append, List.length_nil, Nat.zero_add, C.ok_bind, C.pure_eq, C.ok.injEq,
      Prod.mk.injEq]
    refine ⟨?_, rfl, rfl⟩
    unfold fillNull lexerOf resetLexer
    simp only [Lexer.mk.injEq, and_true]
    have htl : (tokens (resetToken tk) ls).length = ls.length := tokens_length _ _
    have hrt : resetToken tk = nullTok := rfl
    rw [hrt] at htl ⊢
    rw [List.take_append_of_le_length (by omega), List.take_of_length_le (by omega),
      List.drop_append_of_le_length (by omega), List.drop_of_length_le (by omega), List.nil_append]
    simp

end Gaia

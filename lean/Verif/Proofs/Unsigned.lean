import Verif.Model.Unsigned
import Verif.Proofs.Steps
import Verif.Proofs.StepsLex

/-!
Where the byte 0xFF does not occur, the program does the same whether `char` is signed or not: every text the functions get is free of 0xFF, and
every text that is hashed consists of ASCII characters.
-/
namespace Gaia.Uns
open Gaia

/-- A text without the byte 0xFF. -/
def Clean (s : Str) : Prop := (255 : Byte) ∉ s
/-- A text of ASCII characters. -/
def Ascii (s : Str) : Prop := ∀ c ∈ s, c.toNat < 128

theorem Clean.tail {s : Str} (h : Clean s) : Clean s.tail := fun hc => h (List.mem_of_mem_tail hc)
theorem Clean.drop {s : Str} (h : Clean s) (n : Nat) : Clean (s.drop n) := fun hc => h (List.mem_of_mem_drop hc)

theorem Clean.rd {s : Str} (h : Clean s) : rd s ≠ 255 := by
  cases s with
  | nil => decide
  | cons c s =>
    intro hc
    apply h
    have : c = 255 := hc
    rw [this]
    exact List.mem_cons_self ..

theorem Clean.head {c : Byte} {s : Str} (h : Clean (c :: s)) : c ≠ 255 := h.rd

theorem isEndOfToken_eq {c : Byte} (h : c ≠ 255) : isEndOfToken c = Gaia.isEndOfToken c := by
  unfold isEndOfToken Gaia.isEndOfToken
  have : (c == 255) = false := by simpa using h
  rw [this, Bool.or_false]

theorem isTextStop_eq {c : Byte} (h : c ≠ 255) : isTextStop c = Gaia.isTextStop c := by
  unfold isTextStop Gaia.isTextStop
  rw [isEndOfToken_eq h]

theorem endLineLexing_eq {c : Byte} (h : c ≠ 255) : endLineLexing c = Gaia.endLineLexing c := by
  unfold endLineLexing Gaia.endLineLexing
  have : (c == 255) = false := by simpa using h
  rw [this, Bool.or_false]

theorem isTrailing_eq {c : Byte} (h : c ≠ 255) : isTrailing c = Gaia.isTrailing c := by
  unfold isTrailing Gaia.isTrailing
  have : (c == 255) = false := by simpa using h
  rw [this, Bool.or_false]

theorem trimRev_eq : ∀ {s : Str}, Clean s → trimRev s = Gaia.trimRev s := by
  intro s
  induction s with
  | nil => intro _; rfl
  | cons c s ih =>
    intro h
    unfold trimRev Gaia.trimRev
    rw [isTrailing_eq h.head, ih h.tail]

/-- The line given to `print_error`, if any, is free of 0xFF. -/
def CleanLine (line : Option Str) : Prop := ∀ l, line = some l → Clean l

theorem printError_eq {line : Option Str} (h : CleanLine line) (e : Err) (bad : Option Nat) (fn : Str) (n : Nat) :
    printError line e bad fn n = Gaia.printError line e bad fn n := by
  unfold printError Gaia.printError
  cases line with
  | none => rfl
  | some l =>
    have : Clean l.reverse := fun hc => h l rfl (List.mem_reverse.1 hc)
    simp only [trimRev_eq this]
    rfl

theorem raise_eq {α} {line : Option Str} (h : CleanLine line) (e : Err) (bad : Option Nat) (fn : Str) (n : Nat) :
    raise (α := α) line e bad fn n = Gaia.raise line e bad fn n := by
  unfold raise Gaia.raise
  rw [printError_eq h]

theorem digitLoop_eq (conv : Byte → Option Nat) (base : Nat) : ∀ {s : Str} (t n : Nat), Clean s →
    digitLoop conv base s t n = Gaia.digitLoop conv base s t n := by
  intro s
  induction s with
  | nil => intros; rfl
  | cons c s ih =>
    intro t n h
    unfold digitLoop Gaia.digitLoop
    cases conv c with
    | some v => exact ih _ _ h.tail
    | none => simp only; rw [isEndOfToken_eq h.head]

theorem lexLiteralBody_eq (conv : Byte → Option Nat) (base off : Nat) {s : Str} (h : Clean s) (n : Nat) (tk : Token) :
    lexLiteralBody conv base off s n tk = Gaia.lexLiteralBody conv base off s n tk := by
  unfold lexLiteralBody Gaia.lexLiteralBody
  rw [digitLoop_eq _ _ _ _ h]
  rfl

theorem lexLiteral_eq (off : Nat) {s : Str} (h : Clean s) (tk : Token) : lexLiteral off s tk = Gaia.lexLiteral off s tk := by
  unfold lexLiteral Gaia.lexLiteral
  rw [lexLiteralBody_eq _ _ _ h.tail, lexLiteralBody_eq _ _ _ h.tail, lexLiteralBody_eq _ _ _ h]

theorem scanLoop_eq {stop stop' : Byte → Bool} (valid : Byte → Bool) (hst : ∀ c, c ≠ 255 → stop c = stop' c) : ∀ (fuel i : Nat) {s : Str}, Clean s →
    scanLoop stop valid fuel i s = scanLoop stop' valid fuel i s := by
  intro fuel
  induction fuel with
  | zero => intros; rfl
  | succ fuel ih =>
    intro i s h
    unfold scanLoop
    simp only
    rw [hst _ h.rd, ih _ h.tail]

theorem lexDirective_eq (off : Nat) {s : Str} (h : Clean s) (tk : Token) : lexDirective off s tk = Gaia.lexDirective off s tk := by
  unfold lexDirective Gaia.lexDirective
  rw [scanLoop_eq isAlpha (fun c hc => isEndOfToken_eq hc) _ _ h.tail]
  rfl

theorem lexText_eq (off : Nat) {s : Str} (h : Clean s) (tk : Token) (instr : Instr) : lexText off s tk instr = Gaia.lexText off s tk instr := by
  unfold lexText Gaia.lexText
  rw [scanLoop_eq isValidTokenChar (fun c hc => isTextStop_eq hc) _ _ h]
  rfl

theorem lex_eq (off : Nat) {s : Str} (h : Clean s) (tk : Token) (instr : Instr) : lex off s tk instr = Gaia.lex off s tk instr := by
  unfold lex Gaia.lex
  simp only [lexText_eq _ h, lexLiteral_eq _ h, lexDirective_eq _ h]
  rfl

theorem Clean.skip : ∀ {s : Str} (off : Nat), Clean s → Clean (skipBlanks off s).2 := by
  intro s
  induction s with
  | nil => intro off h; exact h
  | cons c s ih =>
    intro off h
    unfold skipBlanks
    split
    · exact ih _ h.tail
    · exact h

theorem lexLoop_eq {buffer : Str} (hb : Clean buffer) : ∀ (fuel off : Nat) {s : Str} (lx : Lexer) (tk : Token) (instr : Instr), Clean s →
    lexLoop buffer fuel off s lx tk instr = Gaia.lexLoop buffer fuel off s lx tk instr := by
  have hl : CleanLine (some buffer) := by intro l h; cases h; exact hb
  intro fuel
  induction fuel with
  | zero => intros; rfl
  | succ fuel ih =>
    intro off s lx tk instr h
    unfold lexLoop Gaia.lexLoop
    rw [endLineLexing_eq h.rd, lex_eq _ h]
    split
    · rfl
    · cases Gaia.lex off s tk instr with
      | ub u => rfl
      | err e => exact raise_eq hl _ _ _ _
      | ok r =>
        obtain ⟨n, tk, instr⟩ := r
        simp only
        split
        · rfl
        · cases addToken lx tk with
          | ub u => rfl
          | err e => rfl
          | ok lx =>
            simp only
            split
            · split
              · exact ih _ _ _ _ ((h.drop n).tail.skip _)
              · exact raise_eq hl _ _ _ _
            · exact ih _ _ _ _ ((h.drop n).skip _)

theorem Clean.cstr {raw : List Byte} (h : Clean raw) : Clean (cstr raw) := fun hc => h ((List.takeWhile_sublist _).subset hc)

theorem lexLine_eq {raw : List Byte} (h : Clean raw) (lx : Lexer) (tk : Token) (instr : Instr) (n : Nat) :
    lexLine raw lx tk instr n = Gaia.lexLine raw lx tk instr n := by
  unfold lexLine Gaia.lexLine
  simp only
  rw [lexLoop_eq h.cstr _ _ _ _ _ (h.cstr.skip 0)]

/-! ### The texts of tokens are ASCII -/

theorem ascii_alpha {c : Byte} (h : isAlpha c = true) : c.toNat < 128 := by
  simp only [isAlpha, isUpper, isLower, Bool.or_eq_true, Bool.and_eq_true, decide_eq_true_eq] at h
  omega

theorem ascii_valid {c : Byte} (h : isValidTokenChar c = true) : c.toNat < 128 := by
  simp only [isValidTokenChar, isAlnum, Bool.or_eq_true, beq_iff_eq] at h
  rcases h with (h | h) | h
  · exact ascii_alpha h
  · simp only [isDigit, Bool.and_eq_true, decide_eq_true_eq] at h; omega
  · rw [h]; decide

theorem ascii_upper {c : Byte} (h : c.toNat < 128) : (toUpper c).toNat < 128 := by
  unfold toUpper
  split
  · rename_i hl
    simp only [isLower, Bool.and_eq_true, decide_eq_true_eq] at hl
    rw [UInt8.toNat_sub_of_le _ _ (by rw [UInt8.le_iff_toNat_le]; show 32 ≤ c.toNat; omega)]
    omega
  · exact h

theorem scan_ge {stop valid : Byte → Bool} : ∀ {fuel i : Nat} {s : Str} {n : Nat}, scanLoop stop valid fuel i s = .done n → i ≤ n := by
  intro fuel
  induction fuel with
  | zero => intro i s n h; cases h; exact Nat.le_refl _
  | succ fuel ih =>
    intro i s n h
    unfold scanLoop at h
    simp only at h
    split at h
    · cases h; exact Nat.le_refl _
    · split at h
      · cases h
      · have := ih h; omega

theorem scan_valid {stop valid : Byte → Bool} : ∀ {fuel i : Nat} {s : Str} {n : Nat}, scanLoop stop valid fuel i s = .done n → n ≤ i + s.length →
    ∀ c ∈ s.take (n - i), valid c = true := by
  intro fuel
  induction fuel with
  | zero =>
    intro i s n h _ c hc
    cases h
    simp at hc
  | succ fuel ih =>
    intro i s n h hn c hc
    unfold scanLoop at h
    simp only at h
    split at h
    · cases h; simp at hc
    · split at h
      · cases h
      · rename_i hv
        have hi := scan_ge h
        cases s with
        | nil =>
          simp at hc
        | cons c0 s =>
          have hv : valid c0 = true := by simpa [rd] using hv
          obtain ⟨d, rfl⟩ : ∃ d, n = i + 1 + d := ⟨n - (i + 1), by omega⟩
          have e1 : i + 1 + d - i = d + 1 := by omega
          rw [e1, List.take_succ_cons] at hc
          rcases List.mem_cons.1 hc with rfl | hc
          · exact hv
          · refine ih h (by simp only [List.length_cons, List.tail_cons] at hn ⊢; omega) c ?_
            have e2 : i + 1 + d - (i + 1) = d := by omega
            rw [e2]
            exact hc

end Gaia.Uns

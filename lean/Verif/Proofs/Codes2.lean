import Verif.Proofs.Codes1

/-! `Gaia.Codes` behaves like the main model: the lexer. -/
namespace Gaia.Codes
open Gaia

/-- `none` of a digit converter is the number -3. -/
def Conv (f : Byte → Option Nat) (g : Byte → Int) : Prop :=
  ∀ c, match f c with
    | some v => g c = v
    | none => g c = Err.illegalChar.code

theorem conv_hex : Conv Gaia.hexDigitToInt hexDigitToInt := by
  intro c
  unfold Gaia.hexDigitToInt hexDigitToInt
  repeat' split
  all_goals simp_all
  all_goals omega

theorem conv_bin : Conv Gaia.binDigitToInt binDigitToInt := by
  intro c
  unfold Gaia.binDigitToInt binDigitToInt
  repeat' split
  all_goals simp_all
  all_goals omega

theorem conv_dec : Conv Gaia.decDigitToInt decDigitToInt := by
  intro c
  unfold Gaia.decDigitToInt decDigitToInt
  repeat' split
  all_goals simp_all
  all_goals omega

theorem digitLoop_eq {f : Byte → Option Nat} {g : Byte → Int} (h : Conv f g) (base : Nat) :
    ∀ (s : Str) (total n : Nat), digitLoop g base s total n = Gaia.digitLoop f base s total n
  | [], _, _ => rfl
  | c :: s, total, n => by
    unfold digitLoop Gaia.digitLoop
    have hc := h c
    cases hf : f c with
    | some v =>
      rw [hf] at hc
      have hv : g c = (v : Int) := hc
      have : g c ≠ Err.illegalChar.code := by
        rw [hv]; have := code_neg .illegalChar; omega
      simp only [this, ne_eq, not_false_eq_true, ↓reduceIte]
      rw [digitLoop_eq h base s]
      congr 1
      rw [hv]
      omega
    | none =>
      rw [hf] at hc
      simp only [show g c = Err.illegalChar.code from hc, ne_eq, not_true_eq_false, ↓reduceIte]
      cases isEndOfToken c <;> rfl

/-- Errors of the lexer's functions: the code is returned and `error_char` is set, nothing is printed. -/
def Lexed {ρ} (c : ρ → Int) (ec : ρ → Option Nat) : Err × Nat → ρ → Str → Prop :=
  fun e r s => c r = e.1.code ∧ ec r = some e.2 ∧ s = []

/-- A successful result of a lexer function: the number of characters, and the token. -/
def Chars (a : Nat × Token) (r : Int × Running) : Prop := r.1 = a.1 ∧ r.2.tk = a.2
/-- The same for the functions which may set the instruction. -/
def Chars3 (a : Nat × Token × Instr) (r : Int × Running × Instr) : Prop := r.1 = a.1 ∧ r.2.1.tk = a.2.1 ∧ r.2.2 = a.2.2

theorem sim_lexErr {α ρ} {c : ρ → Int} {ec : ρ → Option Nat} {R : α → ρ → Prop} {e : Err} {p : Nat} {r : ρ} (h1 : c r = e.code)
    (h2 : ec r = some p) : Sim (Lexed c ec) R (.err (e, p)) (pure r) :=
  ⟨r, [], ⟨h1, h2, rfl⟩, fun o => by simp⟩

theorem sim_literalBody {f : Byte → Option Nat} {g : Byte → Int} (h : Conv f g) (base off : Nat) (s : Str) (n : Nat) (r : Running) :
    Sim (Lexed Prod.fst (·.2.errorChar)) Chars (Gaia.lexLiteralBody f base off s n r.tk)
      (pure (lexLiteralBody g base off s n r)) := by
  unfold Gaia.lexLiteralBody lexLiteralBody
  rw [digitLoop_eq h]
  cases Gaia.digitLoop f base s 0 n with
  | bad n => exact sim_lexErr rfl rfl
  | done total n =>
    dsimp only
    split
    · exact sim_lexErr rfl rfl
    · split
      · exact sim_lexErr rfl rfl
      · split
        · exact sim_lexErr rfl rfl
        · exact sim_ok ⟨rfl, rfl⟩

theorem sim_literal (off : Nat) (s : Str) (r : Running) :
    Sim (Lexed Prod.fst (·.2.errorChar)) Chars (Gaia.lexLiteral off s r.tk) (pure (lexLiteral off s r)) := by
  unfold Gaia.lexLiteral lexLiteral
  dsimp only
  split
  · exact sim_literalBody conv_hex _ _ _ _ _
  · split
    · exact sim_literalBody conv_bin _ _ _ _ _
    · split
      · exact sim_literalBody conv_dec _ _ _ _ _
      · exact sim_lexErr rfl rfl

theorem strncpy_ne_err (tk : Token) (s : Str) (n : Nat) (e : Err × Nat) : tokenStrncpy tk s n ≠ .err e := by
  unfold tokenStrncpy; repeat' split
  all_goals simp

theorem strcpy_ne_err (tk : Token) (s : Str) (e : Err × Nat) : tokenStrcpy tk s ≠ .err e := by
  unfold tokenStrcpy; repeat' split
  all_goals simp

theorem sim_directive (off : Nat) (s : Str) (r : Running) :
    Sim (Lexed Prod.fst (·.2.errorChar)) Chars (Gaia.lexDirective off s r.tk) (lexDirective off s r) := by
  unfold Gaia.lexDirective lexDirective
  cases scanLoop isEndOfToken isAlpha (MAX_TOKEN_STR_LEN - 1) 1 s.tail with
  | bad i => exact sim_lexErr rfl rfl
  | done n =>
    dsimp only
    split
    · exact sim_lexErr rfl rfl
    · refine sim_val (strncpy_ne_err _ _ _) fun tk _ => ?_
      cases directiveType tk.str with
      | some t => exact sim_ok ⟨rfl, rfl⟩
      | none => exact sim_lexErr rfl rfl

theorem sim_text (off : Nat) (s : Str) (r : Running) (instr : Instr) :
    Sim (Lexed Prod.fst (·.2.1.errorChar)) Chars3 (Gaia.lexText off s r.tk instr) (lexText off s r instr) := by
  unfold Gaia.lexText lexText
  cases scanLoop isTextStop isValidTokenChar MAX_TOKEN_STR_LEN 0 s with
  | bad i => exact sim_lexErr rfl rfl
  | done n =>
    dsimp only
    split
    · exact sim_lexErr rfl rfl
    · refine sim_val (strncpy_ne_err _ _ _) fun tk _ => ?_
      split
      · exact sim_ok ⟨rfl, rfl, rfl⟩
      · split
        · exact sim_ok ⟨rfl, rfl, rfl⟩
        · split
          · exact sim_ok ⟨rfl, rfl, rfl⟩
          · unfold Gaia.lexInstruction lexInstruction
            cases strToMnemonic tk.str with
            | some m =>
              have : ¬ ((tk.str.length : Int) = Err.instructionNotFound.code) := by
                have := code_neg .instructionNotFound; omega
              simp only [this, ↓reduceIte]
              exact sim_ok ⟨rfl, rfl, rfl⟩
            | none => exact sim_ok ⟨rfl, rfl, rfl⟩

theorem sim_lex (off : Nat) (s : Str) (r : Running) (instr : Instr) :
    Sim (Lexed Prod.fst (·.2.1.errorChar)) Chars3 (Gaia.lex off s r.tk instr) (lex off s r instr) := by
  unfold Gaia.lex lex
  dsimp only
  cases punctType (rd s) with
  | some t =>
    exact sim_val (strncpy_ne_err _ _ _) fun tk _ => sim_ok ⟨rfl, rfl, rfl⟩
  | none =>
    dsimp only
    split
    · exact sim_text off s { r with tk := { r.tk with bufferLocation := some off } } instr
    · split
      · have h := sim_literal off s { r with tk := { r.tk with bufferLocation := some off } }
        have e : (pure ((lexLiteral off s { r with tk := { r.tk with bufferLocation := some off } }).1,
            (lexLiteral off s { r with tk := { r.tk with bufferLocation := some off } }).2, instr) : M _) =
            (pure (lexLiteral off s { r with tk := { r.tk with bufferLocation := some off } }) : M _) >>= fun p =>
              pure (p.1, p.2, instr) := rfl
        show Sim _ _ _ (pure ((lexLiteral off s { r with tk := { r.tk with bufferLocation := some off } }).1,
            (lexLiteral off s { r with tk := { r.tk with bufferLocation := some off } }).2, instr) : M _)
        rw [e]
        refine sim_bind h ?_ ?_
        · rintro a p ⟨h1, h2⟩; exact sim_ok ⟨h1, h2, rfl⟩
        · rintro a p s ⟨h1, h2, h3⟩; exact ⟨(p.1, p.2, instr), ⟨h1, h2, h3⟩, fun _ => rfl⟩
      · split
        · refine sim_bind (sim_directive off s { r with tk := { r.tk with bufferLocation := some off } }) ?_ ?_
          · rintro a p ⟨h1, h2⟩; exact sim_ok ⟨h1, h2, rfl⟩
          · rintro a p s ⟨h1, h2, h3⟩; exact ⟨(p.1, p.2, instr), ⟨h1, h2, h3⟩, fun _ => rfl⟩
        · exact sim_lexErr rfl rfl

/-- `add_token`: the only error it can return here is ERROR_TOO_MANY_TOKENS. -/
theorem sim_addToken (lx : Lexer) (tk : Token) :
    Sim (fun (e : Err × Nat) (r : Int × Lexer) s => e.1 = .tooManyTokens ∧ r.1 = Err.tooManyTokens.code ∧ s = [])
      (fun a r => r = (TOKEN_INSERTION_SUCCESS, a)) (Gaia.addToken lx tk) (addToken lx tk) := by
  unfold Gaia.addToken addToken
  split
  · exact ⟨(Err.tooManyTokens.code, lx), [], ⟨rfl, rfl, rfl⟩, fun o => by simp⟩
  · cases lx.seq[lx.curr]? with
    | none => exact sim_ub
    | some new =>
      dsimp only
      split
      · exact sim_val (strcpy_ne_err _ _) fun t _ => sim_ok rfl
      · exact sim_ub

/-- Results of `lex_line`. -/
def Line (a : Lexer × Token × Instr) (r : Int × Lexer × Running × Instr) : Prop :=
  r.1 = LEXER_SUCCESS ∧ r.2.1 = a.1 ∧ r.2.2.1.tk = a.2.1 ∧ r.2.2.2 = a.2.2

theorem sim_lexLoop (buffer : Str) : ∀ (fuel off : Nat) (s : Str) (lx : Lexer) (r : Running) (instr : Instr),
    Sim (Ret Prod.fst) Line (Gaia.lexLoop buffer fuel off s lx r.tk instr) (lexLoop buffer fuel off s lx r instr)
  | 0, _, _, _, _, _ => sim_ub
  | fuel + 1, off, s, lx, r, instr => by
    unfold Gaia.lexLoop lexLoop
    split
    · exact sim_ok ⟨rfl, rfl, rfl, rfl⟩
    · have hl := sim_lex off s r instr
      cases hx : Gaia.lex off s r.tk instr with
      | ub u => exact sim_ub
      | err e =>
        obtain ⟨e, pos⟩ := e
        rw [hx] at hl
        obtain ⟨r', s', ⟨h1, h2, rfl⟩, hy⟩ := hl
        dsimp only
        rcases printError_run (some buffer) e (some pos) lx.fileName lx.lineNum with ⟨msg, p1, p2⟩ | ⟨u, p⟩
        · unfold raise
          rw [p1]
          refine ⟨(e.code, lx, r'.2.1, r'.2.2), msg, ⟨rfl, rfl⟩, fun o => ?_⟩
          rw [bind_run_ok (hy o)]
          have hneg : r'.1 < 0 := by rw [h1]; exact code_neg e
          simp only [hneg, ↓reduceIte, List.append_nil]
          simp only at h1 h2
          rw [h1, h2, bind_run_ok (p2 o)]
          rfl
        · unfold raise; rw [p]; exact sim_ub
      | ok a =>
        obtain ⟨n, tk, instr'⟩ := a
        rw [hx] at hl
        obtain ⟨⟨c, r', i'⟩, ⟨h1, h2, h3⟩, hy⟩ := hl
        dsimp only at h1 h2 h3 ⊢
        subst h1 h2 h3
        have e1 : ∀ {ρ : Type} (k : Int × Running × Instr → M ρ), (lex off s r instr >>= k) = k ((n : Int), r', i') := by
          intro ρ k; funext o; exact bind_run_ok (hy o)
        rw [e1]
        have hnn : ¬ ((n : Int) < 0) := by omega
        simp only [hnn, ↓reduceIte, Int.toNat_natCast]
        split
        · exact sim_ub
        · have ha := sim_addToken lx r'.tk
          cases hax : Gaia.addToken lx r'.tk with
          | ub u => exact sim_ub
          | err e =>
            rw [hax] at ha
            obtain ⟨p, s', ⟨h1, h2, rfl⟩, hy2⟩ := ha
            obtain ⟨e, pos⟩ := e
            dsimp only at h1 h2 ⊢
            subst h1
            refine ⟨(Err.tooManyTokens.code, p.2, r', i'), [], ⟨rfl, rfl⟩, fun o => ?_⟩
            rw [bind_run_ok (hy2 o)]
            simp [h2]
          | ok lx' =>
            rw [hax] at ha
            obtain ⟨p, rfl, hy2⟩ := ha
            have e2 : ∀ {ρ : Type} (k : Int × Lexer → M ρ), (addToken lx r'.tk >>= k) = k (TOKEN_INSERTION_SUCCESS, lx') := by
              intro ρ k; funext o; exact bind_run_ok (hy2 o)
            rw [e2]
            have ht : ¬ (TOKEN_INSERTION_SUCCESS = Err.tooManyTokens.code) := by decide
            simp only [ht, ↓reduceIte]
            split
            · split
              · exact sim_lexLoop buffer fuel _ _ _ _ _
              · exact sim_raise rfl
            · exact sim_lexLoop buffer fuel _ _ _ _ _

theorem sim_lexLine (raw : List Byte) (lx : Lexer) (r : Running) (instr : Instr) (lineNum : Nat) :
    Sim (Ret Prod.fst) Line (Gaia.lexLine raw lx r.tk instr lineNum) (lexLine raw lx r instr lineNum) := by
  unfold Gaia.lexLine lexLine
  dsimp only
  refine sim_bind (sim_lexLoop _ _ _ _ _ ⟨resetToken r.tk, none⟩ _) ?_ ?_
  · rintro ⟨lx', tk', i'⟩ ⟨c, lx2, r2, i2⟩ ⟨h1, h2, h3, h4⟩
    dsimp only at h1 h2 h3 h4 ⊢
    subst h1 h2 h3 h4
    simp only [↓reduceIte]
    exact sim_ok ⟨rfl, rfl, rfl, rfl⟩
  · rintro e ⟨c, lx2, r2, i2⟩ s ⟨h1, h2⟩
    dsimp only at h1 h2 ⊢
    refine ⟨(c, lx2, r2, i2), ⟨h1, h2⟩, fun o => ?_⟩
    have : ¬ (c = LEXER_SUCCESS) := by
      have := code_neg e.code
      unfold LEXER_SUCCESS
      omega
    simp [this]

end Gaia.Codes

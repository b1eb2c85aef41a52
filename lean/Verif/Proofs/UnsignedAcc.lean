import Verif.Proofs.UnsignedRun

/-!
A source that is accepted with an unsigned `char` is accepted, with the same result, with a signed one: with an unsigned `char` the byte 0xFF is an
illegal character wherever it is looked at.
-/
namespace Gaia.Uns.Acc
open Gaia Gaia.Uns

/-- Whatever the first delivers, with property `P`, the second delivers too. -/
structure Imp {ε α : Type} (x y : C ε α) (P : α → Prop) : Prop where
  imp : ∀ a, x = .ok a → y = .ok a ∧ P a

section rules
variable {ε α β : Type} {P : α → Prop}

theorem Imp.bind {x y : C ε α} {f g : α → C ε β} {Q : β → Prop} (h : Imp x y P) (hf : ∀ a, P a → Imp (f a) (g a) Q) :
    Imp (x >>= f) (y >>= g) Q := by
  refine ⟨fun b hb => ?_⟩
  rw [C.bind_eq_ok] at hb
  obtain ⟨a, ha, hb⟩ := hb
  obtain ⟨h1, h2⟩ := h.imp a ha
  rw [h1]
  exact (hf a h2).imp b hb

theorem Imp.pure {a : α} (h : P a) : Imp (Pure.pure a : C ε α) (Pure.pure a) P := ⟨fun _ e => by cases e; exact ⟨rfl, h⟩⟩
theorem Imp.ok {a : α} (h : P a) : Imp (C.ok a : C ε α) (C.ok a) P := ⟨fun _ e => by cases e; exact ⟨rfl, h⟩⟩
theorem Imp.ub (u : UB) : Imp (C.ub u : C ε α) (C.ub u) P := ⟨fun _ e => by cases e⟩
theorem Imp.refl {x : C ε α} (h : ∀ a, x = .ok a → P a) : Imp x x P := ⟨fun a e => ⟨e, h a e⟩⟩
theorem Imp.of_eq {x y : C ε α} (e : x = y) (h : ∀ a, y = .ok a → P a) : Imp x y P := by subst e; exact Imp.refl h

theorem Imp.ite {c : Prop} [Decidable c] {x y x' y' : C ε α} (h1 : c → Imp x x' P) (h2 : ¬ c → Imp y y' P) :
    Imp (if c then x else y) (if c then x' else y') P := by
  split
  · exact h1 ‹_›
  · exact h2 ‹_›

theorem Imp.orAbort {x y : Res α} (out : OutFile) (h : Imp x y P) : Imp (orAbort out x) (orAbort out y) P := by
  refine ⟨fun a e => ?_⟩
  cases x with
  | ok b => cases e; obtain ⟨h1, h2⟩ := h.imp a rfl; rw [h1]; exact ⟨rfl, h2⟩
  | err e' => cases e
  | ub u => cases e

theorem raise_ne_ok (line : Option Str) (e : Err) (bad : Option Nat) (fn : Str) (n : Nat) (a : α) : Uns.raise line e bad fn n ≠ .ok a := by
  intro h
  unfold Uns.raise at h
  rw [C.bind_eq_ok] at h
  obtain ⟨_, _, h⟩ := h
  cases h

theorem Imp.raise (line : Option Str) (e : Err) (bad : Option Nat) (fn : Str) (n : Nat) {y : Res α} :
    Imp (Uns.raise line e bad fn n) y P := ⟨fun _ ha => (raise_ne_ok _ _ _ _ _ _ ha).elim⟩

end rules

/-! ### Tokens -/

theorem isEndOfToken_imp {c : Byte} (h : Gaia.isEndOfToken c = true) (hc : c ≠ 255) : isEndOfToken c = true := by
  rw [isEndOfToken_eq hc]; exact h

theorem digitLoop_imp {conv : Byte → Option Nat} {base : Nat} : ∀ {s : Str} {t n t' n' : Nat},
    digitLoop conv base s t n = .done t' n' → Gaia.digitLoop conv base s t n = .done t' n' := by
  intro s
  induction s with
  | nil => intro t n t' n' h; exact h
  | cons c s ih =>
    intro t n t' n' h
    unfold digitLoop at h
    unfold Gaia.digitLoop
    cases hv : conv c with
    | some v => rw [hv] at h; exact ih h
    | none =>
      rw [hv] at h
      simp only at h ⊢
      by_cases hc : c = 255
      · subst hc; cases h
      · rw [isEndOfToken_eq hc] at h; exact h

theorem scanLoop_imp {stop stop' valid : Byte → Bool} (hst : ∀ c, c ≠ 255 → stop c = stop' c) (h1 : stop 255 = false) (h2 : valid 255 = false) :
    ∀ {fuel i : Nat} {s : Str} {n : Nat}, scanLoop stop valid fuel i s = .done n → scanLoop stop' valid fuel i s = .done n := by
  intro fuel
  induction fuel with
  | zero => intro i s n h; exact h
  | succ fuel ih =>
    intro i s n h
    unfold scanLoop at h ⊢
    simp only at h ⊢
    by_cases hc : rd s = 255
    · rw [hc, h1, h2] at h
      simp at h
    · rw [hst _ hc] at h
      split
      · rename_i hs; rw [if_pos hs] at h; exact h
      · rename_i hs
        rw [if_neg hs] at h
        split
        · rename_i hv; rw [if_pos hv] at h; exact h
        · rename_i hv; rw [if_neg hv] at h; exact ih h

theorem lexLiteralBody_imp (conv : Byte → Option Nat) (base off : Nat) (s : Str) (n : Nat) (tk : Token) :
    Imp (lexLiteralBody conv base off s n tk) (Gaia.lexLiteralBody conv base off s n tk) fun _ => True := by
  refine ⟨fun a h => ?_⟩
  unfold lexLiteralBody at h
  unfold Gaia.lexLiteralBody
  cases hd : digitLoop conv base s 0 n with
  | bad m => rw [hd] at h; cases h
  | done t m =>
    rw [digitLoop_imp hd]
    rw [hd] at h
    exact ⟨h, trivial⟩

theorem lexLiteral_imp (off : Nat) (s : Str) (tk : Token) : Imp (lexLiteral off s tk) (Gaia.lexLiteral off s tk) fun _ => True := by
  unfold lexLiteral Gaia.lexLiteral
  refine Imp.ite (fun _ => lexLiteralBody_imp ..) fun _ => Imp.ite (fun _ => lexLiteralBody_imp ..) fun _ =>
    Imp.ite (fun _ => lexLiteralBody_imp ..) fun _ => Imp.refl fun _ _ => trivial

theorem lexDirective_imp (off : Nat) (s : Str) (tk : Token) : Imp (lexDirective off s tk) (Gaia.lexDirective off s tk) fun _ => True := by
  refine ⟨fun a h => ?_⟩
  unfold lexDirective at h
  unfold Gaia.lexDirective
  cases hd : scanLoop isEndOfToken isAlpha (MAX_TOKEN_STR_LEN - 1) 1 s.tail with
  | bad m => rw [hd] at h; cases h
  | done n =>
    rw [scanLoop_imp (fun c hc => isEndOfToken_eq hc) (by decide) (by decide) hd]
    rw [hd] at h
    exact ⟨h, trivial⟩

theorem lexText_imp (off : Nat) (s : Str) (tk : Token) (instr : Instr) :
    Imp (lexText off s tk instr) (Gaia.lexText off s tk instr) fun _ => True := by
  refine ⟨fun a h => ?_⟩
  unfold lexText at h
  unfold Gaia.lexText
  cases hd : scanLoop isTextStop isValidTokenChar MAX_TOKEN_STR_LEN 0 s with
  | bad m => rw [hd] at h; cases h
  | done n =>
    rw [scanLoop_imp (fun c hc => isTextStop_eq hc) (by decide) (by decide) hd]
    rw [hd] at h
    exact ⟨h, trivial⟩

theorem lex_imp (off : Nat) (s : Str) (tk : Token) (instr : Instr) : Imp (lex off s tk instr) (Gaia.lex off s tk instr) fun _ => True := by
  unfold lex Gaia.lex
  simp only
  cases punctType (rd s) with
  | some t => exact Imp.refl fun _ _ => trivial
  | none =>
    refine Imp.ite (fun _ => lexText_imp ..) fun _ => Imp.ite (fun _ => ?_) fun _ => Imp.ite (fun _ => ?_) fun _ => Imp.refl fun _ _ => trivial
    · exact (lexLiteral_imp ..).bind fun _ _ => Imp.pure trivial
    · exact (lexDirective_imp ..).bind fun _ _ => Imp.pure trivial

/-- 0xFF is the start of no token. -/
theorem lex_255 {off : Nat} {s : Str} (h : rd s = 255) (tk : Token) (instr : Instr) : lex off s tk instr = .err (.illegalChar, off) := by
  unfold lex
  simp only [h]
  rfl

theorem lexLoop_imp (buffer : Str) : ∀ (fuel off : Nat) (s : Str) (lx : Lexer) (tk : Token) (instr : Instr),
    Imp (lexLoop buffer fuel off s lx tk instr) (Gaia.lexLoop buffer fuel off s lx tk instr) fun _ => True := by
  intro fuel
  induction fuel with
  | zero => intros; exact Imp.ub _
  | succ fuel ih =>
    intro off s lx tk instr
    unfold lexLoop Gaia.lexLoop
    by_cases hc : rd s = 255
    · rw [lex_255 hc, if_neg (by rw [hc]; decide)]
      exact Imp.raise ..
    · rw [endLineLexing_eq hc]
      refine Imp.ite (fun _ => Imp.ok trivial) fun _ => ?_
      have hi := lex_imp off s tk instr
      cases hx : lex off s tk instr with
      | ub u => exact ⟨fun a h => by cases h⟩
      | err e => exact Imp.raise ..
      | ok r =>
        rw [(hi.imp r hx).1]
        obtain ⟨n, tk, instr⟩ := r
        refine Imp.ite (fun _ => Imp.ub _) fun _ => ?_
        cases addToken lx tk with
        | ub u => exact Imp.ub _
        | err e => exact ⟨fun a h => by cases h⟩
        | ok lx =>
          refine Imp.ite (fun _ => Imp.ite (fun _ => ih ..) fun _ => Imp.raise ..) fun _ => ih ..

theorem lexLine_imp (raw : List Byte) (lx : Lexer) (tk : Token) (instr : Instr) (n : Nat) :
    Imp (lexLine raw lx tk instr n) (Gaia.lexLine raw lx tk instr n) fun r => Texts r.1 := by
  refine ⟨fun r e => ?_⟩
  have e' : Gaia.lexLine raw lx tk instr n = .ok r := by
    have : Imp (lexLine raw lx tk instr n) (Gaia.lexLine raw lx tk instr n) fun _ => True := by
      unfold lexLine Gaia.lexLine
      exact (lexLoop_imp ..).bind fun _ _ => Imp.pure trivial
    exact (this.imp r e).1
  refine ⟨e', ?_⟩
  unfold Gaia.lexLine at e'
  simp only at e'
  rw [C.bind_eq_ok] at e'
  obtain ⟨⟨lx', tk', instr'⟩, h1, e'⟩ := e'
  cases e'
  have h0 : Texts { resetLexer lx with line := some (cstr raw), lineNum := n } := by
    intro t ht
    obtain ⟨t', _, rfl⟩ := List.mem_map.1 ht
    exact ascii_nil
  exact fillNull_texts (lexLoop_texts _ _ _ _ h0 (by exact ascii_nil) h1).1

/-- What holds between two lines. -/
structure Ok (st : St) : Prop where
  labels : Labels st.symtab.symbols
  refs : ∀ r, some r ∈ st.unres.refs → Ascii r.label

/-- The state of the next line, or the final one. -/
def OkNext : Next → Prop
  | .continue st => Ok st
  | .stop st => Ok st

/-! ### The syntax -/

theorem slot_imp {lx : Lexer} (h : Texts lx) (i : Nat) : Imp (slot lx i) (slot lx i) fun t => Ascii t.str :=
  Imp.refl fun _ e => h _ (Steps.slot_mem e)

theorem syntaxError_imp {α} {lx : Lexer} (h : Texts lx) (i : Nat) (e : Err) {P : α → Prop} :
    Imp (syntaxError lx i e) (Gaia.syntaxError lx i e) P := by
  unfold syntaxError Gaia.syntaxError
  exact (slot_imp h i).bind fun t _ => Imp.raise ..

theorem parseIndirectOperandTree_imp {lx : Lexer} (h : Texts lx) (i : Nat) :
    Imp (parseIndirectOperandTree lx i) (Gaia.parseIndirectOperandTree lx i) fun _ => True := by
  unfold parseIndirectOperandTree Gaia.parseIndirectOperandTree
  repeat' first
    | exact Imp.pure trivial
    | exact syntaxError_imp h ..
    | refine Imp.ite (fun _ => ?_) (fun _ => ?_)
    | refine (slot_imp h _).bind fun _ _ => ?_

theorem parseInstrTree_imp {lx : Lexer} (h : Texts lx) (i : Nat) :
    Imp (parseInstrTree lx i) (Gaia.parseInstrTree lx i) fun _ => True := by
  unfold parseInstrTree Gaia.parseInstrTree
  repeat' first
    | exact Imp.pure trivial
    | exact syntaxError_imp h ..
    | exact parseIndirectOperandTree_imp h ..
    | refine Imp.ite (fun _ => ?_) (fun _ => ?_)
    | refine (slot_imp h _).bind fun _ _ => ?_

theorem parseLabelTree_imp {lx : Lexer} (h : Texts lx) (i : Nat) :
    Imp (parseLabelTree lx i) (Gaia.parseLabelTree lx i) fun _ => True := by
  unfold parseLabelTree Gaia.parseLabelTree
  repeat' first
    | exact Imp.pure trivial
    | exact syntaxError_imp h ..
    | exact parseInstrTree_imp h ..
    | refine Imp.ite (fun _ => ?_) (fun _ => ?_)
    | refine (slot_imp h _).bind fun _ _ => ?_

theorem parseDirectiveTree_imp {lx : Lexer} (h : Texts lx) (i : Nat) :
    Imp (parseDirectiveTree lx i) (Gaia.parseDirectiveTree lx i) Texts := by
  unfold parseDirectiveTree Gaia.parseDirectiveTree
  repeat' first
    | exact Imp.pure h
    | exact Imp.pure (setValue_texts h _ _)
    | exact syntaxError_imp h ..
    | refine Imp.ite (fun _ => ?_) (fun _ => ?_)
    | refine (slot_imp h _).bind fun _ _ => ?_

theorem parseBaseTree_imp {lx : Lexer} (h : Texts lx) (i : Nat) :
    Imp (parseBaseTree lx i) (Gaia.parseBaseTree lx i) Texts := by
  unfold parseBaseTree Gaia.parseBaseTree
  repeat' first
    | exact Imp.pure h
    | exact Imp.pure (setValue_texts h _ _)
    | exact syntaxError_imp h ..
    | refine Imp.ite (fun _ => ?_) (fun _ => ?_)
    | refine (slot_imp h _).bind fun _ _ => ?_

theorem parseLine_imp {lx : Lexer} (h : Texts lx) : Imp (parseLine lx) (Gaia.parseLine lx) Texts := by
  unfold parseLine Gaia.parseLine
  repeat' first
    | exact Imp.pure h
    | exact syntaxError_imp h ..
    | exact parseDirectiveTree_imp h ..
    | exact parseBaseTree_imp h ..
    | exact (parseInstrTree_imp h _).bind fun _ _ => Imp.pure h
    | exact (parseLabelTree_imp h _).bind fun _ _ => Imp.pure h
    | refine Imp.ite (fun _ => ?_) (fun _ => ?_)
    | refine (slot_imp h _).bind fun _ _ => ?_

/-! ### The symbol table -/

theorem rehashOne_imp {new : List (Option Symbol)} (h : Labels new) {sym : Symbol} (hs : Ascii sym.label) :
    Imp (rehashOne new sym) (Gaia.rehashOne new sym) Labels := by
  unfold rehashOne Gaia.rehashOne
  rw [djb2_eq hs]
  exact (Imp.refl (P := fun _ => True) fun _ _ => trivial).bind fun _ _ => Imp.pure (h.set _ hs)

theorem rehashAll_imp : ∀ {old new : List (Option Symbol)}, Labels old → Labels new → Imp (rehashAll old new) (Gaia.rehashAll old new) Labels := by
  intro old
  induction old with
  | nil => intro new _ h; exact Imp.ok h
  | cons o old ih =>
    intro new ho hn
    have ho' : Labels old := fun s hs => ho s (List.mem_cons_of_mem _ hs)
    cases o with
    | none => exact ih ho' hn
    | some sym => exact (rehashOne_imp hn (ho sym (List.mem_cons_self ..))).bind fun _ h => ih ho' h

theorem resizeSymbols_imp {t : SymTab} (h : Labels t.symbols) : Imp (resizeSymbols t) (Gaia.resizeSymbols t) fun t => Labels t.symbols := by
  unfold resizeSymbols Gaia.resizeSymbols
  refine Imp.ite (fun _ => Imp.ub _) fun _ => ?_
  refine (Imp.refl (P := fun _ => True) fun _ _ => trivial).bind fun _ _ => ?_
  exact (rehashAll_imp h (Labels.none _)).bind fun _ h => Imp.pure h

theorem placeSymbol_imp {t : SymTab} (h : Labels t.symbols) {label : Str} (hl : Ascii label) (v : Int) :
    Imp (placeSymbol t label v) (Gaia.placeSymbol t label v) fun t => Labels t.symbols := by
  unfold placeSymbol Gaia.placeSymbol
  rw [djb2_eq hl]
  refine (Imp.refl (P := fun _ => True) fun _ _ => trivial).bind fun _ _ => Imp.pure (h.set _ hl)

theorem insertSymbol_imp {t : SymTab} (h : Labels t.symbols) {label : Str} (hl : Ascii label) (v : Int) :
    Imp (insertSymbol t label v) (Gaia.insertSymbol t label v) fun t => Labels t.symbols := by
  unfold insertSymbol Gaia.insertSymbol
  refine Imp.ite (fun _ => Imp.ub _) fun _ => ?_
  refine Imp.ite (fun _ => ?_) fun _ => placeSymbol_imp h hl v
  exact (resizeSymbols_imp h).bind fun t h => placeSymbol_imp h hl v

theorem searchSymbol_imp (t : SymTab) {label : Str} (hl : Ascii label) :
    Imp (searchSymbol t label) (Gaia.searchSymbol t label) fun _ => True := by
  refine Imp.of_eq ?_ fun _ _ => trivial
  unfold searchSymbol Gaia.searchSymbol searchOpt Gaia.searchOpt
  rw [djb2_eq hl]
  rfl

/-! ### Declarations and operands -/

theorem parseLabelDeclaration_imp {lx : Lexer} (h : Texts lx) {t : SymTab} (ht : Labels t.symbols) (pc : Nat) :
    Imp (parseLabelDeclaration lx t pc) (Gaia.parseLabelDeclaration lx t pc) fun t => Labels t.symbols := by
  unfold parseLabelDeclaration Gaia.parseLabelDeclaration
  refine (slot_imp h _).bind fun _ h0 => ?_
  refine (slot_imp h _).bind fun _ h1 => ?_
  refine (searchSymbol_imp t h0).bind fun _ _ => ?_
  refine (searchSymbol_imp t h1).bind fun _ _ => ?_
  repeat' first
    | exact Imp.raise ..
    | exact insertSymbol_imp ht h0 _
    | exact insertSymbol_imp ht h1 _
    | refine Imp.ite (fun _ => ?_) (fun _ => ?_)
    | refine (slot_imp h _).bind fun _ _ => ?_

theorem parseLabelOperand_imp (lx : Lexer) (instr : Instr) {op : Token} (ho : Ascii op.str) (t : SymTab) :
    Imp (parseLabelOperand lx instr op t) (Gaia.parseLabelOperand lx instr op t) fun r => Ascii r.2.str := by
  unfold parseLabelOperand Gaia.parseLabelOperand
  refine (searchSymbol_imp t ho).bind fun _ _ => ?_
  repeat' first
    | exact Imp.raise ..
    | exact Imp.pure ho
    | refine Imp.ite (fun _ => ?_) (fun _ => ?_)

theorem parseOperand_imp (lx : Lexer) (instr : Instr) {op : Option Token} (ho : GoodOp op) (t : SymTab) :
    Imp (parseOperand lx instr op t) (Gaia.parseOperand lx instr op t) fun r => GoodOp r.2 := by
  unfold parseOperand Gaia.parseOperand
  cases op with
  | none => exact Imp.ok GoodOp.none
  | some tk =>
    have hk := ho tk rfl
    refine Imp.ite (fun _ => ?_) fun _ => Imp.ite (fun _ => Imp.ok ho) fun _ => Imp.raise ..
    exact (parseLabelOperand_imp lx instr hk t).bind fun r hr => Imp.pure (GoodOp.some hr)

theorem parseForwardRefAddrMode_imp (lx : Lexer) (instr : Instr) :
    Imp (parseForwardRefAddrMode lx instr) (Gaia.parseForwardRefAddrMode lx instr) fun _ => True := by
  unfold parseForwardRefAddrMode Gaia.parseForwardRefAddrMode
  exact Imp.ite (fun _ => Imp.raise ..) fun _ => Imp.ok trivial

theorem parseAddrMode_imp (lx : Lexer) (instr : Instr) (op : Option Token) (status : OpStatus) :
    Imp (parseAddrMode lx instr op status) (Gaia.parseAddrMode lx instr op status) fun _ => True := by
  unfold parseAddrMode Gaia.parseAddrMode
  refine Imp.ite (fun _ => parseForwardRefAddrMode_imp lx _) fun _ => ?_
  cases op with
  | none => exact Imp.ite (fun _ => Imp.raise ..) fun _ => Imp.ok trivial
  | some op => exact Imp.ite (fun _ => Imp.raise ..) fun _ => Imp.ok trivial

/-! ### Code generation -/

theorem resolveLabelRef_imp (f : OutFile) (lx : Lexer) (instr : Instr) {label : Option Token} (hl : GoodOp label) (status : OpStatus)
    (t : SymTab) (pc : Nat) :
    Imp (resolveLabelRef f lx instr label status t pc) (Gaia.resolveLabelRef f lx instr label status t pc) fun _ => True := by
  unfold resolveLabelRef Gaia.resolveLabelRef
  cases label with
  | none => exact Imp.raise ..
  | some label =>
    refine (searchSymbol_imp t (hl label rfl)).bind fun dest _ => ?_
    refine Imp.ite (fun _ => ?_) fun _ => Imp.ite (fun _ => Imp.pure trivial) fun _ => Imp.raise ..
    refine (Imp.refl (P := fun _ => True) fun _ _ => trivial).bind fun o _ => ?_
    cases o with
    | none => exact Imp.raise ..
    | some o => exact Imp.pure trivial

theorem resolveForwardRef_imp (f : OutFile) (r : ForwardRef) (lx : Lexer) (dest : Int) :
    Imp (resolveForwardRef f r lx dest) (Gaia.resolveForwardRef f r lx dest) fun _ => True := by
  unfold resolveForwardRef Gaia.resolveForwardRef
  refine Imp.ite (fun _ => ?_) fun _ => Imp.ite (fun _ => Imp.ite (fun _ => Imp.pure trivial) fun _ => Imp.raise ..) fun _ => Imp.raise ..
  refine (Imp.refl (P := fun _ => True) fun _ _ => trivial).bind fun o _ => ?_
  cases o with
  | none => exact Imp.raise ..
  | some o => exact Imp.ite (fun _ => Imp.pure trivial) fun _ => Imp.raise ..

/-! ### A line, and the whole program -/

theorem saveForwardRef_ok {buffer : Str} {st st' : St} (h : Ok st) (instr : Instr) {op : Option Token} (ho : GoodOp op)
    (status : OpStatus) (e : saveForwardRef buffer st instr op status = .ok st') : Ok st' ∧ st'.lexer = st.lexer := by
  have ab : ∀ {α} {out : OutFile} {x : Res α} {a : α}, orAbort out x = .ok a → x = .ok a := by
    intro α out x a e
    cases x with
    | ok a => cases e; rfl
    | err e' => cases e
    | ub u => cases e
  unfold saveForwardRef at e
  rw [C.bind_eq_ok] at e
  obtain ⟨ref, h1, e⟩ := e
  rw [C.bind_eq_ok] at e
  obtain ⟨u, h2, e⟩ := e
  cases e
  have h1 := ab h1
  have h2 := ab h2
  have hr : Ascii ref.label := by
    unfold createForwardRef at h1
    cases hs : savedLine buffer with
    | none => rw [hs] at h1; cases h1
    | some l =>
      rw [hs] at h1
      cases op with
      | none => cases h1
      | some op =>
        simp only at h1
        cases hl : op.bufferLocation with
        | none => rw [hl] at h1; cases h1
        | some loc =>
          rw [hl] at h1
          cases h1
          exact ho op rfl
  refine ⟨⟨h.labels, ?_⟩, rfl⟩
  have put : ∀ {v : Unresolved}, (∀ r, some r ∈ v.refs → Ascii r.label) →
      (if v.curr < v.size then (pure { refs := v.refs.set v.curr (some ref), curr := v.curr + 1 } : Res Unresolved) else C.ub UB.outOfBounds) = .ok u →
      ∀ r, some r ∈ u.refs → Ascii r.label := by
    intro v hv e
    split at e
    · cases e
      intro r hm
      rcases List.mem_or_eq_of_mem_set hm with hm | e
      · exact hv r hm
      · cases e; exact hr
    · cases e
  unfold addForwardRef at h2
  simp only at h2
  split at h2
  · rw [C.bind_eq_ok] at h2
    obtain ⟨v, h3, h2⟩ := h2
    refine put ?_ h2
    unfold resizeUnresolved at h3
    split at h3
    · cases h3
    · cases h3
      intro r hm
      rcases List.mem_append.1 hm with hm | hm
      · exact h.refs r hm
      · have := List.eq_of_mem_replicate hm
        cases this
  · exact put h.refs h2

theorem bumpLine_imp {α} {st : St} {f g : St → Run α} {P : α → Prop} (h : ∀ n, Imp (f { st with lineNum := n }) (g { st with lineNum := n }) P) :
    Imp (bumpLine st f) (bumpLine st g) P := by
  unfold bumpLine
  exact Imp.ite (fun _ => Imp.ub _) fun _ => h _

theorem instructionStep_imp {buffer : Str} {st : St} (h : Ok st) (hl : Texts st.lexer) :
    Imp (instructionStep buffer st) (Gaia.instructionStep buffer st) Ok := by
  unfold instructionStep Gaia.instructionStep
  refine (Imp.orAbort _ (Imp.refl (P := GoodOp) fun _ e => findOperand_good hl e)).bind fun op ho => ?_
  refine (Imp.orAbort _ (parseOperand_imp _ _ ho _)).bind fun r hr => ?_
  obtain ⟨status, op'⟩ := r
  refine (Imp.orAbort _ (parseAddrMode_imp _ _ _ _)).bind fun r _ => ?_
  obtain ⟨res, instr⟩ := r
  have h' : Ok { st with instr := instr } := ⟨h.labels, h.refs⟩
  simp only
  have last : ∀ (st' : St) (out : OutFile) (written : Nat), Ok st' → Imp
      (bumpLine { st' with out := out } fun st =>
        if st.pc + written > INT_MAX ∨ st.total + written > INT_MAX then .ub .signedOverflow
        else pure { st with pc := st.pc + written, total := st.total + written })
      (bumpLine { st' with out := out } fun st =>
        if st.pc + written > INT_MAX ∨ st.total + written > INT_MAX then .ub .signedOverflow
        else pure { st with pc := st.pc + written, total := st.total + written }) Ok := by
    intro st' out written ok
    refine bumpLine_imp fun n => ?_
    exact Imp.ite (fun _ => Imp.ub _) fun _ => Imp.pure ⟨ok.labels, ok.refs⟩
  cases res with
  | forwardReference =>
    refine (Imp.refl fun _ e => saveForwardRef_ok h' instr hr status e).bind fun st' hst => ?_
    obtain ⟨ok, _⟩ := hst
    refine Imp.ite (fun _ => ?_) fun _ => last _ _ _ ok
    exact (Imp.orAbort _ (resolveLabelRef_imp _ _ _ hr _ _ _)).bind fun r _ => last _ _ _ ok
  | flag =>
    refine Imp.ite (fun _ => ?_) fun _ => last _ _ _ h'
    exact (Imp.orAbort _ (resolveLabelRef_imp _ _ _ hr _ _ _)).bind fun r _ => last _ _ _ h'

theorem declareStep_imp {first : Token} {st : St} (h : Ok st) (hl : Texts st.lexer) :
    Imp (declareStep first st) (Gaia.declareStep first st) fun st' => Ok st' ∧ st'.lexer = st.lexer := by
  unfold declareStep Gaia.declareStep
  refine Imp.ite (fun _ => ?_) fun _ => Imp.ite (fun _ => Imp.pure ⟨⟨h.labels, h.refs⟩, rfl⟩) fun _ => Imp.pure ⟨h, rfl⟩
  exact (Imp.orAbort _ (parseLabelDeclaration_imp hl h.labels _)).bind fun t ht => Imp.pure ⟨⟨ht, h.refs⟩, rfl⟩

theorem lineStep_imp {raw : List Byte} {st : St} (h : Ok st) : Imp (lineStep raw st) (Gaia.lineStep raw st) OkNext := by
  unfold lineStep Gaia.lineStep
  refine (Imp.orAbort _ (lexLine_imp _ _ _ _ _)).bind fun r g => ?_
  obtain ⟨lx, tk, instr⟩ := r
  refine (Imp.orAbort _ (parseLine_imp g)).bind fun lx g => ?_
  refine (Imp.orAbort _ (slot_imp g 0)).bind fun first _ => ?_
  have h' : Ok { st with lexer := lx, tk := tk, instr := instr } := ⟨h.labels, h.refs⟩
  refine (declareStep_imp h' g).bind fun st' hst => ?_
  obtain ⟨ok, hlx⟩ := hst
  refine Imp.ite (fun _ => Imp.pure ok) fun _ => Imp.ite (fun _ => ?_) fun _ => ?_
  · exact bumpLine_imp fun n => Imp.pure (show Ok _ from ⟨ok.labels, ok.refs⟩)
  · exact (instructionStep_imp ok (by rw [hlx]; exact g)).bind fun st'' ok => Imp.pure ok

theorem mainLoop_imp : ∀ {raws : List (List Byte)}, ∀ {st : St}, Ok st →
    Imp (mainLoop raws st) (Gaia.mainLoop raws st) Ok := by
  intro raws
  induction raws with
  | nil => intro st h; exact Imp.ok h
  | cons raw rest ih =>
    intro st h
    unfold mainLoop Gaia.mainLoop
    refine (lineStep_imp h).bind fun n hn => ?_
    cases n with
    | «continue» st => exact ih hn
    | stop st => exact Imp.pure hn

theorem resolveAll_imp {st : St} (h : Ok st) : ∀ (n i : Nat) (out : OutFile),
    Imp (resolveAll st n i out) (Gaia.resolveAll st n i out) fun _ => True := by
  intro n
  induction n with
  | zero => intro i out; exact Imp.ok trivial
  | succ n ih =>
    intro i out
    unfold resolveAll Gaia.resolveAll
    cases hr : st.unres.refs[i]? with
    | none => exact Imp.ub _
    | some o =>
      cases o with
      | none => exact Imp.ub _
      | some ref =>
        have g := h.refs ref (List.mem_of_getElem? hr)
        refine (Imp.orAbort _ (searchSymbol_imp _ g)).bind fun dest _ => ?_
        refine Imp.ite (fun _ => Imp.orAbort _ (Imp.raise ..)) fun _ => ?_
        exact (Imp.orAbort _ (resolveForwardRef_imp _ _ _ _)).bind fun _ _ => ih _ _

theorem Ok_init (fn : Str) : Ok (initSt fn) := ⟨(Uns.Ok_init fn).labels, fun r hr => ((Uns.Ok_init fn).refs r hr).label⟩

theorem assembleBytes_imp (fn : Str) (src : List Byte) : Imp (assembleBytes fn src) (Gaia.assembleBytes fn src) fun _ => True :=
  (mainLoop_imp (Ok_init fn)).bind fun st ok => (resolveAll_imp ok st.unres.curr 0 st.out).bind fun _ _ => Imp.pure trivial

end Gaia.Uns.Acc

import Verif.Proofs.Unsigned
import Verif.Proofs.StepsRun

/-! A whole run with an unsigned `char`. -/
namespace Gaia.Uns
open Gaia

/-- Two parts of a program do the same, and a result has the property `P`. -/
structure Same {ε α : Type} (x y : C ε α) (P : α → Prop) : Prop where
  eq : x = y
  post : ∀ a, y = .ok a → P a

section rules
variable {ε α β : Type} {P : α → Prop}

theorem Same.bind {x y : C ε α} {f g : α → C ε β} {Q : β → Prop} (h : Same x y P) (hf : ∀ a, P a → Same (f a) (g a) Q) :
    Same (x >>= f) (y >>= g) Q := by
  obtain ⟨rfl, h⟩ := h
  cases x with
  | ok a => exact hf a (h a rfl)
  | err e => exact ⟨rfl, fun _ h => by cases h⟩
  | ub u => exact ⟨rfl, fun _ h => by cases h⟩

theorem Same.pure {a : α} (h : P a) : Same (Pure.pure a : C ε α) (Pure.pure a) P := ⟨rfl, fun _ e => by cases e; exact h⟩
theorem Same.ok {a : α} (h : P a) : Same (C.ok a : C ε α) (C.ok a) P := ⟨rfl, fun _ e => by cases e; exact h⟩
theorem Same.err (e : ε) : Same (C.err e : C ε α) (C.err e) P := ⟨rfl, fun _ e => by cases e⟩
theorem Same.ub (u : UB) : Same (C.ub u : C ε α) (C.ub u) P := ⟨rfl, fun _ e => by cases e⟩
theorem Same.refl {x : C ε α} (h : ∀ a, x = .ok a → P a) : Same x x P := ⟨rfl, h⟩
theorem Same.weaken {x y : C ε α} {Q : α → Prop} (h : Same x y P) (hq : ∀ a, P a → Q a) : Same x y Q := ⟨h.eq, fun a e => hq a (h.post a e)⟩

theorem Same.ite {c : Prop} [Decidable c] {x y x' y' : C ε α} (h1 : c → Same x x' P) (h2 : ¬ c → Same y y' P) :
    Same (if c then x else y) (if c then x' else y') P := by
  split
  · exact h1 ‹_›
  · exact h2 ‹_›

theorem Same.orAbort {x y : Res α} (out : OutFile) (h : Same x y P) : Same (orAbort out x) (orAbort out y) P := by
  obtain ⟨rfl, h⟩ := h
  cases x with
  | ok a => exact Same.ok (h a rfl)
  | err e => exact Same.err _
  | ub u => exact Same.ub _

theorem Same.raise {line : Option Str} (h : CleanLine line) (e : Err) (bad : Option Nat) (fn : Str) (n : Nat) :
    Same (raise (α := α) line e bad fn n) (Gaia.raise line e bad fn n) P :=
  ⟨raise_eq h .., fun _ ha => (Steps.raise_ne_ok _ _ _ _ _ _ ha).elim⟩

end rules

/-- The tokens of the lexer consist of ASCII characters. -/
def Texts (lx : Lexer) : Prop := ∀ t ∈ lx.seq, Ascii t.str

/-- The lexer holds a line without 0xFF and tokens of ASCII characters. -/
structure Good (lx : Lexer) : Prop where
  line : CleanLine lx.line
  seq : Texts lx

/-! ### Tokens -/

theorem ascii_nil : Ascii [] := fun _ h => by cases h

theorem lexText_ascii {off : Nat} {s : Str} {tk : Token} {instr : Instr} {r : Nat × Token × Instr} (h : Gaia.lexText off s tk instr = .ok r) :
    Ascii r.2.1.str := by
  unfold Gaia.lexText at h
  cases hs : scanLoop Gaia.isTextStop isValidTokenChar MAX_TOKEN_STR_LEN 0 s with
  | bad i => rw [hs] at h; cases h
  | done n =>
    rw [hs] at h
    simp only at h
    split at h
    · cases h
    · unfold tokenStrncpy at h
      split at h
      · cases h
      · split at h
        · cases h
        · rename_i hn
          have ha : Ascii ((s.take n).map toUpper) := by
            intro c hc
            obtain ⟨d, hd, rfl⟩ := List.mem_map.1 hc
            exact ascii_upper (ascii_valid (scan_valid hs (by omega) d hd))
          simp only [C.ok_bind, C.pure_eq] at h
          split at h
          · cases h; exact ha
          · split at h
            · cases h; exact ha
            · split at h
              · cases h; exact ha
              · unfold lexInstruction at h
                simp only at h
                cases hm : strToMnemonic ((s.take n).map toUpper) with
                | some m => rw [hm] at h; cases h; exact ha
                | none => rw [hm] at h; cases h; exact ha

theorem lexLiteral_str {off : Nat} {s : Str} {tk : Token} {r : Nat × Token} (h : Gaia.lexLiteral off s tk = .ok r) : r.2.str = tk.str := by
  have body : ∀ {conv : Byte → Option Nat} {base : Nat} {s : Str} {n : Nat}, Gaia.lexLiteralBody conv base off s n tk = .ok r → r.2.str = tk.str := by
    intro conv base s n h
    unfold Gaia.lexLiteralBody at h
    cases hd : Gaia.digitLoop conv base s 0 n with
    | bad n => rw [hd] at h; cases h
    | done total n =>
      rw [hd] at h
      simp only at h
      split at h
      · cases h
      · split at h
        · cases h
        · split at h
          · cases h
          · cases h; rfl
  unfold Gaia.lexLiteral at h
  simp only at h
  split at h
  · exact body h
  · split at h
    · exact body h
    · split at h
      · exact body h
      · cases h

theorem lexDirective_ascii {off : Nat} {s : Str} (h46 : rd s = 46) {tk : Token} {r : Nat × Token} (h : Gaia.lexDirective off s tk = .ok r) :
    Ascii r.2.str := by
  unfold Gaia.lexDirective at h
  cases hs : scanLoop Gaia.isEndOfToken isAlpha (MAX_TOKEN_STR_LEN - 1) 1 s.tail with
  | bad i => rw [hs] at h; cases h
  | done n =>
    rw [hs] at h
    simp only at h
    split at h
    · cases h
    · unfold tokenStrncpy at h
      split at h
      · cases h
      · split at h
        · cases h
        · rename_i hn
          have hge := scan_ge hs
          have ha : Ascii ((s.take n).map toUpper) := by
            intro c hc
            obtain ⟨d, hd, rfl⟩ := List.mem_map.1 hc
            apply ascii_upper
            cases s with
            | nil => simp at hd
            | cons c0 s =>
              obtain ⟨k, rfl⟩ : ∃ k, n = k + 1 := ⟨n - 1, by omega⟩
              rw [List.take_succ_cons] at hd
              rcases List.mem_cons.1 hd with rfl | hd
              · have : d = 46 := h46
                rw [this]; decide
              · refine ascii_alpha (scan_valid hs (by simp only [List.length_cons, List.tail_cons] at hn ⊢; omega) d ?_)
                exact hd
          simp only [C.ok_bind, C.pure_eq] at h
          cases hdt : directiveType ((s.take n).map toUpper) with
          | some t => rw [hdt] at h; cases h; exact ha
          | none => rw [hdt] at h; cases h

theorem lex_ascii {off : Nat} {s : Str} {tk : Token} (ht : Ascii tk.str) {instr : Instr} {r : Nat × Token × Instr}
    (h : Gaia.lex off s tk instr = .ok r) : Ascii r.2.1.str := by
  unfold Gaia.lex at h
  simp only at h
  cases hp : punctType (rd s) with
  | some t =>
    rw [hp] at h
    have hc : (rd s).toNat < 128 := by
      unfold punctType at hp
      split at hp
      · rename_i e; rw [e]; decide
      · split at hp
        · rename_i e; rw [e]; decide
        · split at hp
          · rename_i e; rw [e]; decide
          · split at hp
            · rename_i e; rw [e]; decide
            · split at hp
              · rename_i e; rw [e]; decide
              · split at hp
                · rename_i e; rw [e]; decide
                · cases hp
    simp only [tokenStrncpy, MAX_TOKEN_STR_LEN] at h
    norm_num at h
    subst h
    intro c hc'
    simp at hc'
    rw [hc']
    exact ascii_upper hc
  | none =>
    rw [hp] at h
    simp only at h
    split at h
    · exact lexText_ascii h
    · split at h
      · rw [C.bind_eq_ok] at h
        obtain ⟨a, ha, h⟩ := h
        cases h
        show Ascii a.2.str
        rw [lexLiteral_str ha]
        exact ht
      · split at h
        · rename_i h46
          rw [C.bind_eq_ok] at h
          obtain ⟨a, ha, h⟩ := h
          cases h
          exact lexDirective_ascii h46 ha
        · cases h

theorem addToken_texts {lx lx' : Lexer} (h : Texts lx) {tk : Token} (ht : Ascii tk.str) (e : addToken lx tk = .ok lx') :
    Texts lx' ∧ lx'.line = lx.line := by
  unfold addToken at e
  split at e
  · cases e
  · cases hn : lx.seq[lx.curr]? with
    | none => rw [hn] at e; cases e
    | some new =>
      rw [hn] at e
      simp only at e
      split at e
      · rw [C.bind_eq_ok] at e
        obtain ⟨new', h1, e⟩ := e
        have hnew : Ascii new'.str := by
          unfold tokenStrcpy at h1
          split at h1
          · cases h1; exact h new (List.mem_of_getElem? hn)
          · split at h1
            · cases h1
            · cases h1; exact ht
        cases e
        refine ⟨?_, rfl⟩
        intro t hm
        rcases List.mem_or_eq_of_mem_set hm with hm | rfl
        · exact h t hm
        · exact hnew
      · cases e

theorem lexLoop_texts (buffer : Str) : ∀ (fuel off : Nat) {s : Str} {lx : Lexer} {tk : Token} (instr : Instr), Texts lx → Ascii tk.str →
    ∀ {r : Lexer × Token × Instr}, Gaia.lexLoop buffer fuel off s lx tk instr = .ok r → Texts r.1 ∧ r.1.line = lx.line := by
  intro fuel
  induction fuel with
  | zero => intro off s lx tk instr _ _ r h; cases h
  | succ fuel ih =>
    intro off s lx tk instr hl ht r h
    unfold Gaia.lexLoop at h
    split at h
    · cases h; exact ⟨hl, rfl⟩
    · cases hx : Gaia.lex off s tk instr with
      | ub u => rw [hx] at h; cases h
      | err e => rw [hx] at h; exact (Steps.raise_ne_ok _ _ _ _ _ _ h).elim
      | ok q =>
        obtain ⟨n, tk', instr'⟩ := q
        have ht' : Ascii tk'.str := lex_ascii ht hx
        rw [hx] at h
        simp only at h
        split at h
        · cases h
        · cases ha : addToken lx tk' with
          | ub u => rw [ha] at h; cases h
          | err e => rw [ha] at h; cases h
          | ok lx' =>
            obtain ⟨hl', hline⟩ := addToken_texts hl ht' ha
            rw [← hline]
            rw [ha] at h
            simp only at h
            split at h
            · split at h
              · exact ih _ _ hl' ht' h
              · exact (Steps.raise_ne_ok _ _ _ _ _ _ h).elim
            · exact ih _ _ hl' ht' h

theorem fillNull_texts {lx : Lexer} (h : Texts lx) : Texts (fillNull lx) := by
  intro t ht
  rcases List.mem_append.1 ht with ht | ht
  · exact h t (List.mem_of_mem_take ht)
  · obtain ⟨t', ht', rfl⟩ := List.mem_map.1 ht
    exact h t' (List.mem_of_mem_drop ht')

theorem lexLine_same {raw : List Byte} (h : Clean raw) {lx : Lexer} (tk : Token) (instr : Instr) (n : Nat) :
    Same (lexLine raw lx tk instr n) (Gaia.lexLine raw lx tk instr n) fun r => Good r.1 := by
  refine ⟨lexLine_eq h .., ?_⟩
  intro r e
  unfold Gaia.lexLine at e
  simp only at e
  rw [C.bind_eq_ok] at e
  obtain ⟨⟨lx', tk', instr'⟩, h1, e⟩ := e
  cases e
  have h0 : Texts { resetLexer lx with line := some (cstr raw), lineNum := n } := by
    intro t ht
    obtain ⟨t', _, rfl⟩ := List.mem_map.1 ht
    exact ascii_nil
  obtain ⟨g, hl⟩ := lexLoop_texts _ _ _ _ h0 (by exact ascii_nil) h1
  refine ⟨?_, fillNull_texts g⟩
  intro l e
  have e : lx'.line = some l := e
  rw [hl] at e
  cases e
  exact h.cstr

/-! ### The syntax -/

theorem slot_same {lx : Lexer} (h : Good lx) (i : Nat) : Same (slot lx i) (slot lx i) fun t => Ascii t.str :=
  Same.refl fun _ e => h.seq _ (Steps.slot_mem e)

theorem syntaxError_same {α} {lx : Lexer} (h : Good lx) (i : Nat) (e : Err) {P : α → Prop} :
    Same (syntaxError lx i e) (Gaia.syntaxError lx i e) P := by
  unfold syntaxError Gaia.syntaxError
  exact (slot_same h i).bind fun t _ => Same.raise h.line ..

theorem setValue_texts {lx : Lexer} (h : Texts lx) (i v : Nat) : Texts (setValue lx i v) := by
  intro t ht
  have ht : t ∈ lx.seq.modify i fun t => { t with value := v } := ht
  obtain ⟨j, hj⟩ := List.mem_iff_getElem?.1 ht
  rw [List.getElem?_modify] at hj
  cases hl : lx.seq[j]? with
  | none => rw [hl] at hj; simp at hj
  | some t' =>
    rw [hl] at hj
    have := h t' (List.mem_of_getElem? hl)
    have hj : (if i = j then { t' with value := v } else t') = t := by simpa using hj
    subst hj
    split
    · exact this
    · exact this

theorem setValue_good {lx : Lexer} (h : Good lx) (i v : Nat) : Good (setValue lx i v) := ⟨h.line, setValue_texts h.seq i v⟩

theorem parseIndirectOperandTree_same {lx : Lexer} (h : Good lx) (i : Nat) :
    Same (parseIndirectOperandTree lx i) (Gaia.parseIndirectOperandTree lx i) fun _ => True := by
  unfold parseIndirectOperandTree Gaia.parseIndirectOperandTree
  repeat' first
    | exact Same.pure trivial
    | exact syntaxError_same h ..
    | refine Same.ite (fun _ => ?_) (fun _ => ?_)
    | refine (slot_same h _).bind fun _ _ => ?_

theorem parseInstrTree_same {lx : Lexer} (h : Good lx) (i : Nat) :
    Same (parseInstrTree lx i) (Gaia.parseInstrTree lx i) fun _ => True := by
  unfold parseInstrTree Gaia.parseInstrTree
  repeat' first
    | exact Same.pure trivial
    | exact syntaxError_same h ..
    | exact parseIndirectOperandTree_same h ..
    | refine Same.ite (fun _ => ?_) (fun _ => ?_)
    | refine (slot_same h _).bind fun _ _ => ?_

theorem parseLabelTree_same {lx : Lexer} (h : Good lx) (i : Nat) :
    Same (parseLabelTree lx i) (Gaia.parseLabelTree lx i) fun _ => True := by
  unfold parseLabelTree Gaia.parseLabelTree
  repeat' first
    | exact Same.pure trivial
    | exact syntaxError_same h ..
    | exact parseInstrTree_same h ..
    | refine Same.ite (fun _ => ?_) (fun _ => ?_)
    | refine (slot_same h _).bind fun _ _ => ?_

theorem parseDirectiveTree_same {lx : Lexer} (h : Good lx) (i : Nat) :
    Same (parseDirectiveTree lx i) (Gaia.parseDirectiveTree lx i) Good := by
  unfold parseDirectiveTree Gaia.parseDirectiveTree
  repeat' first
    | exact Same.pure h
    | exact Same.pure (setValue_good h _ _)
    | exact syntaxError_same h ..
    | refine Same.ite (fun _ => ?_) (fun _ => ?_)
    | refine (slot_same h _).bind fun _ _ => ?_

theorem parseBaseTree_same {lx : Lexer} (h : Good lx) (i : Nat) :
    Same (parseBaseTree lx i) (Gaia.parseBaseTree lx i) Good := by
  unfold parseBaseTree Gaia.parseBaseTree
  repeat' first
    | exact Same.pure h
    | exact Same.pure (setValue_good h _ _)
    | exact syntaxError_same h ..
    | refine Same.ite (fun _ => ?_) (fun _ => ?_)
    | refine (slot_same h _).bind fun _ _ => ?_

theorem parseLine_same {lx : Lexer} (h : Good lx) : Same (parseLine lx) (Gaia.parseLine lx) Good := by
  unfold parseLine Gaia.parseLine
  repeat' first
    | exact Same.pure h
    | exact syntaxError_same h ..
    | exact parseDirectiveTree_same h ..
    | exact parseBaseTree_same h ..
    | exact (parseInstrTree_same h _).bind fun _ _ => Same.pure h
    | exact (parseLabelTree_same h _).bind fun _ _ => Same.pure h
    | refine Same.ite (fun _ => ?_) (fun _ => ?_)
    | refine (slot_same h _).bind fun _ _ => ?_

/-! ### The symbol table -/

theorem djb2_eq {s : Str} (h : Ascii s) : djb2 s = Gaia.djb2 s := by
  unfold djb2 Gaia.djb2
  generalize 5381 = a
  induction s generalizing a with
  | nil => rfl
  | cons c s ih =>
    have hc : charToULong c = Gaia.charToULong c := by
      unfold charToULong Gaia.charToULong
      rw [if_pos (h c (List.mem_cons_self ..))]
    rw [List.foldl_cons, List.foldl_cons, hc]
    exact ih (fun d hd => h d (List.mem_cons_of_mem _ hd)) _

/-- All labels of the table consist of ASCII characters. -/
def Labels (l : List (Option Symbol)) : Prop := ∀ s, some s ∈ l → Ascii s.label

theorem Labels.set {l : List (Option Symbol)} (h : Labels l) (i : Nat) {s : Symbol} (hs : Ascii s.label) : Labels (l.set i (some s)) := by
  intro t ht
  rcases List.mem_or_eq_of_mem_set ht with ht | e
  · exact h t ht
  · cases e; exact hs

theorem Labels.none (n : Nat) : Labels (List.replicate n none) := by
  intro s hs
  have := List.eq_of_mem_replicate hs
  cases this

theorem rehashOne_same {new : List (Option Symbol)} (h : Labels new) {sym : Symbol} (hs : Ascii sym.label) :
    Same (rehashOne new sym) (Gaia.rehashOne new sym) Labels := by
  unfold rehashOne Gaia.rehashOne
  rw [djb2_eq hs]
  exact (Same.refl (P := fun _ => True) fun _ _ => trivial).bind fun _ _ => Same.pure (h.set _ hs)

theorem rehashAll_same : ∀ {old new : List (Option Symbol)}, Labels old → Labels new → Same (rehashAll old new) (Gaia.rehashAll old new) Labels := by
  intro old
  induction old with
  | nil => intro new _ h; exact Same.ok h
  | cons o old ih =>
    intro new ho hn
    have ho' : Labels old := fun s hs => ho s (List.mem_cons_of_mem _ hs)
    cases o with
    | none => exact ih ho' hn
    | some sym => exact (rehashOne_same hn (ho sym (List.mem_cons_self ..))).bind fun _ h => ih ho' h

theorem resizeSymbols_same {t : SymTab} (h : Labels t.symbols) : Same (resizeSymbols t) (Gaia.resizeSymbols t) fun t => Labels t.symbols := by
  unfold resizeSymbols Gaia.resizeSymbols
  refine Same.ite (fun _ => Same.ub _) fun _ => ?_
  refine (Same.refl (P := fun _ => True) fun _ _ => trivial).bind fun _ _ => ?_
  exact (rehashAll_same h (Labels.none _)).bind fun _ h => Same.pure h

theorem placeSymbol_same {t : SymTab} (h : Labels t.symbols) {label : Str} (hl : Ascii label) (v : Int) :
    Same (placeSymbol t label v) (Gaia.placeSymbol t label v) fun t => Labels t.symbols := by
  unfold placeSymbol Gaia.placeSymbol
  rw [djb2_eq hl]
  refine (Same.refl (P := fun _ => True) fun _ _ => trivial).bind fun _ _ => Same.pure (h.set _ hl)

theorem insertSymbol_same {t : SymTab} (h : Labels t.symbols) {label : Str} (hl : Ascii label) (v : Int) :
    Same (insertSymbol t label v) (Gaia.insertSymbol t label v) fun t => Labels t.symbols := by
  unfold insertSymbol Gaia.insertSymbol
  refine Same.ite (fun _ => Same.ub _) fun _ => ?_
  refine Same.ite (fun _ => ?_) fun _ => placeSymbol_same h hl v
  exact (resizeSymbols_same h).bind fun t h => placeSymbol_same h hl v

theorem searchSymbol_same (t : SymTab) {label : Str} (hl : Ascii label) :
    Same (searchSymbol t label) (Gaia.searchSymbol t label) fun _ => True := by
  refine ⟨?_, fun _ _ => trivial⟩
  unfold searchSymbol Gaia.searchSymbol searchOpt Gaia.searchOpt
  rw [djb2_eq hl]
  rfl

/-! ### Declarations and operands -/

theorem parseLabelDeclaration_same {lx : Lexer} (h : Good lx) {t : SymTab} (ht : Labels t.symbols) (pc : Nat) :
    Same (parseLabelDeclaration lx t pc) (Gaia.parseLabelDeclaration lx t pc) fun t => Labels t.symbols := by
  unfold parseLabelDeclaration Gaia.parseLabelDeclaration
  refine (slot_same h _).bind fun _ h0 => ?_
  refine (slot_same h _).bind fun _ h1 => ?_
  refine (searchSymbol_same t h0).bind fun _ _ => ?_
  refine (searchSymbol_same t h1).bind fun _ _ => ?_
  repeat' first
    | exact Same.raise h.line ..
    | exact insertSymbol_same ht h0 _
    | exact insertSymbol_same ht h1 _
    | refine Same.ite (fun _ => ?_) (fun _ => ?_)
    | refine (slot_same h _).bind fun _ _ => ?_

theorem parseLabelOperand_same {lx : Lexer} (h : Good lx) (instr : Instr) {op : Token} (ho : Ascii op.str) (t : SymTab) :
    Same (parseLabelOperand lx instr op t) (Gaia.parseLabelOperand lx instr op t) fun r => Ascii r.2.str := by
  unfold parseLabelOperand Gaia.parseLabelOperand
  refine (searchSymbol_same t ho).bind fun _ _ => ?_
  repeat' first
    | exact Same.raise h.line ..
    | exact Same.pure ho
    | refine Same.ite (fun _ => ?_) (fun _ => ?_)

/-- The operand, if any, is a token of ASCII characters. -/
def GoodOp (op : Option Token) : Prop := ∀ t, op = some t → Ascii t.str

theorem GoodOp.some {t : Token} (h : Ascii t.str) : GoodOp (some t) := fun _ e => by cases e; exact h
theorem GoodOp.none : GoodOp none := fun _ e => by cases e

theorem parseOperand_same {lx : Lexer} (h : Good lx) (instr : Instr) {op : Option Token} (ho : GoodOp op) (t : SymTab) :
    Same (parseOperand lx instr op t) (Gaia.parseOperand lx instr op t) fun r => GoodOp r.2 := by
  unfold parseOperand Gaia.parseOperand
  cases op with
  | none => exact Same.ok GoodOp.none
  | some tk =>
    have hk := ho tk rfl
    refine Same.ite (fun _ => ?_) fun _ => Same.ite (fun _ => Same.ok ho) fun _ => Same.raise h.line ..
    exact (parseLabelOperand_same h instr hk t).bind fun r hr => Same.pure (GoodOp.some hr)

theorem parseForwardRefAddrMode_same {lx : Lexer} (h : Good lx) (instr : Instr) :
    Same (parseForwardRefAddrMode lx instr) (Gaia.parseForwardRefAddrMode lx instr) fun _ => True := by
  unfold parseForwardRefAddrMode Gaia.parseForwardRefAddrMode
  exact Same.ite (fun _ => Same.raise h.line ..) fun _ => Same.ok trivial

theorem parseAddrMode_same {lx : Lexer} (h : Good lx) (instr : Instr) (op : Option Token) (status : OpStatus) :
    Same (parseAddrMode lx instr op status) (Gaia.parseAddrMode lx instr op status) fun _ => True := by
  unfold parseAddrMode Gaia.parseAddrMode
  refine Same.ite (fun _ => parseForwardRefAddrMode_same h _) fun _ => ?_
  cases op with
  | none => exact Same.ite (fun _ => Same.raise h.line ..) fun _ => Same.ok trivial
  | some op => exact Same.ite (fun _ => Same.raise h.line ..) fun _ => Same.ok trivial

theorem findOperand_good {lx : Lexer} (h : Texts lx) {op : Option Token} (e : findOperand lx = .ok op) : GoodOp op := by
  have loop : ∀ (fuel i : Nat) (curr : Token) {op : Option Token}, Ascii curr.str → findOperandLoop lx fuel i curr = .ok op → GoodOp op := by
    intro fuel
    induction fuel with
    | zero => intro i curr op _ e; cases e
    | succ fuel ih =>
      intro i curr op hc e
      unfold findOperandLoop at e
      split at e
      · cases e; exact GoodOp.none
      · rw [C.bind_eq_ok] at e
        obtain ⟨t, ht, e⟩ := e
        have ht := h _ (Steps.slot_mem ht)
        split at e
        · cases e; exact GoodOp.some ht
        · exact ih _ _ ht e
  unfold findOperand at e
  rw [C.bind_eq_ok] at e
  obtain ⟨t, ht, e⟩ := e
  exact loop _ _ _ (h _ (Steps.slot_mem ht)) e

/-! ### Code generation -/

theorem resolveLabelRef_same (f : OutFile) {lx : Lexer} (h : Good lx) (instr : Instr) {label : Option Token} (hl : GoodOp label) (status : OpStatus)
    (t : SymTab) (pc : Nat) :
    Same (resolveLabelRef f lx instr label status t pc) (Gaia.resolveLabelRef f lx instr label status t pc) fun _ => True := by
  unfold resolveLabelRef Gaia.resolveLabelRef
  cases label with
  | none => exact Same.raise h.line ..
  | some label =>
    refine (searchSymbol_same t (hl label rfl)).bind fun dest _ => ?_
    refine Same.ite (fun _ => ?_) fun _ => Same.ite (fun _ => Same.pure trivial) fun _ => Same.raise h.line ..
    refine (Same.refl (P := fun _ => True) fun _ _ => trivial).bind fun o _ => ?_
    cases o with
    | none => exact Same.raise h.line ..
    | some o => exact Same.pure trivial

/-- A saved reference: its label consists of ASCII characters, its line is free of 0xFF. -/
structure GoodRef (r : ForwardRef) : Prop where
  label : Ascii r.label
  line : Clean r.sourceLine

theorem GoodRef.lineSome {r : ForwardRef} (h : GoodRef r) : CleanLine (some r.sourceLine) := fun _ e => by cases e; exact h.line

theorem resolveForwardRef_same (f : OutFile) {r : ForwardRef} (hr : GoodRef r) {lx : Lexer} (h : CleanLine lx.line) (dest : Int) :
    Same (resolveForwardRef f r lx dest) (Gaia.resolveForwardRef f r lx dest) fun _ => True := by
  unfold resolveForwardRef Gaia.resolveForwardRef
  refine Same.ite (fun _ => ?_) fun _ => Same.ite (fun _ => Same.ite (fun _ => Same.pure trivial) fun _ => Same.raise h ..) fun _ => Same.raise h ..
  refine (Same.refl (P := fun _ => True) fun _ _ => trivial).bind fun o _ => ?_
  cases o with
  | none => exact Same.raise hr.lineSome ..
  | some o => exact Same.ite (fun _ => Same.pure trivial) fun _ => Same.raise h ..

/-! ### A line, and the whole program -/

/-- What holds between two lines. -/
structure Ok (st : St) : Prop where
  line : CleanLine st.lexer.line
  labels : Labels st.symtab.symbols
  refs : ∀ r, some r ∈ st.unres.refs → GoodRef r

theorem savedLine_clean {buffer l : Str} (h : Clean buffer) (e : savedLine buffer = some l) : Clean l := by
  have drop : ∀ {s r : Str}, Clean s → dropBlankRev s = some r → Clean r := by
    intro s
    induction s with
    | nil => intro r _ e; cases e
    | cons c s ih =>
      intro r h e
      unfold dropBlankRev at e
      split at e
      · exact ih h.tail e
      · cases e; exact h
  have hr : Clean buffer.reverse := fun hc => h (List.mem_reverse.1 hc)
  unfold savedLine at e
  simp only [Option.map_eq_some_iff] at e
  obtain ⟨r, e, rfl⟩ := e
  have : Clean r := by
    split at e
    · rename_i r' e'
      rw [e'] at hr
      exact drop hr.tail e
    · exact drop hr e
  exact fun hc => this (List.mem_reverse.1 hc)

theorem saveForwardRef_ok {buffer : Str} (hb : Clean buffer) {st st' : St} (h : Ok st) (instr : Instr) {op : Option Token} (ho : GoodOp op)
    (status : OpStatus) (e : saveForwardRef buffer st instr op status = .ok st') : Ok st' ∧ st'.lexer = st.lexer := by
  have ab : ∀ {α} {out : OutFile} {x : Res α} {a : α}, orAbort out x = .ok a → x = .ok a := by
    intro α out x a e
    cases x with
    | ok a => cases e; rfl
    | err e' => cases e
    | ub u => cases e
  unfold saveForwardRef at e
  rw [C.bind_eq_ok] at e
  obtain ⟨ref, h1, e⟩ := e
  rw [C.bind_eq_ok] at e
  obtain ⟨u, h2, e⟩ := e
  cases e
  have h1 := ab h1
  have h2 := ab h2
  have hr : GoodRef ref := by
    unfold createForwardRef at h1
    cases hs : savedLine buffer with
    | none => rw [hs] at h1; cases h1
    | some l =>
      rw [hs] at h1
      cases op with
      | none => cases h1
      | some op =>
        simp only at h1
        cases hl : op.bufferLocation with
        | none => rw [hl] at h1; cases h1
        | some loc =>
          rw [hl] at h1
          cases h1
          exact ⟨ho op rfl, savedLine_clean hb hs⟩
  refine ⟨⟨h.line, h.labels, ?_⟩, rfl⟩
  have put : ∀ {v : Unresolved}, (∀ r, some r ∈ v.refs → GoodRef r) →
      (if v.curr < v.size then (pure { refs := v.refs.set v.curr (some ref), curr := v.curr + 1 } : Res Unresolved) else C.ub UB.outOfBounds) = .ok u →
      ∀ r, some r ∈ u.refs → GoodRef r := by
    intro v hv e
    split at e
    · cases e
      intro r hm
      rcases List.mem_or_eq_of_mem_set hm with hm | e
      · exact hv r hm
      · cases e; exact hr
    · cases e
  unfold addForwardRef at h2
  simp only at h2
  split at h2
  · rw [C.bind_eq_ok] at h2
    obtain ⟨v, h3, h2⟩ := h2
    refine put ?_ h2
    unfold resizeUnresolved at h3
    split at h3
    · cases h3
    · cases h3
      intro r hm
      rcases List.mem_append.1 hm with hm | hm
      · exact h.refs r hm
      · have := List.eq_of_mem_replicate hm
        cases this
  · exact put h.refs h2

theorem bumpLine_same {α} {st : St} {f g : St → Run α} {P : α → Prop} (h : ∀ n, Same (f { st with lineNum := n }) (g { st with lineNum := n }) P) :
    Same (bumpLine st f) (bumpLine st g) P := by
  unfold bumpLine
  exact Same.ite (fun _ => Same.ub _) fun _ => h _

theorem instructionStep_same {buffer : Str} (hb : Clean buffer) {st : St} (h : Ok st) (hl : Good st.lexer) :
    Same (instructionStep buffer st) (Gaia.instructionStep buffer st) Ok := by
  unfold instructionStep Gaia.instructionStep
  refine (Same.orAbort _ (Same.refl (P := GoodOp) fun _ e => findOperand_good hl.seq e)).bind fun op ho => ?_
  refine (Same.orAbort _ (parseOperand_same hl _ ho _)).bind fun r hr => ?_
  obtain ⟨status, op'⟩ := r
  refine (Same.orAbort _ (parseAddrMode_same hl _ _ _)).bind fun r _ => ?_
  obtain ⟨res, instr⟩ := r
  have h' : Ok { st with instr := instr } := ⟨h.line, h.labels, h.refs⟩
  simp only
  have last : ∀ (st' : St) (out : OutFile) (written : Nat), Ok st' → Same
      (bumpLine { st' with out := out } fun st =>
        if st.pc + written > INT_MAX ∨ st.total + written > INT_MAX then .ub .signedOverflow
        else pure { st with pc := st.pc + written, total := st.total + written })
      (bumpLine { st' with out := out } fun st =>
        if st.pc + written > INT_MAX ∨ st.total + written > INT_MAX then .ub .signedOverflow
        else pure { st with pc := st.pc + written, total := st.total + written }) Ok := by
    intro st' out written ok
    refine bumpLine_same fun n => ?_
    exact Same.ite (fun _ => Same.ub _) fun _ => Same.pure ⟨ok.line, ok.labels, ok.refs⟩
  cases res with
  | forwardReference =>
    refine (Same.refl fun _ e => saveForwardRef_ok hb h' instr hr status e).bind fun st' hst => ?_
    obtain ⟨ok, hlx⟩ := hst
    have gl : Good st'.lexer := by rw [hlx]; exact hl
    refine Same.ite (fun _ => ?_) fun _ => last _ _ _ ok
    exact (Same.orAbort _ (resolveLabelRef_same _ gl _ hr _ _ _)).bind fun r _ => last _ _ _ ok
  | flag =>
    refine Same.ite (fun _ => ?_) fun _ => last _ _ _ h'
    exact (Same.orAbort _ (resolveLabelRef_same _ hl _ hr _ _ _)).bind fun r _ => last _ _ _ h'

theorem declareStep_same {first : Token} {st : St} (h : Ok st) (hl : Good st.lexer) :
    Same (declareStep first st) (Gaia.declareStep first st) fun st' => Ok st' ∧ st'.lexer = st.lexer := by
  unfold declareStep Gaia.declareStep
  refine Same.ite (fun _ => ?_) fun _ => Same.ite (fun _ => Same.pure ⟨⟨h.line, h.labels, h.refs⟩, rfl⟩) fun _ => Same.pure ⟨h, rfl⟩
  exact (Same.orAbort _ (parseLabelDeclaration_same hl h.labels _)).bind fun t ht => Same.pure ⟨⟨h.line, ht, h.refs⟩, rfl⟩

/-- The state of the next line, or the final one. -/
def OkNext : Next → Prop
  | .continue st => Ok st
  | .stop st => Ok st

theorem lineStep_same {raw : List Byte} (hr : Clean raw) {st : St} (h : Ok st) : Same (lineStep raw st) (Gaia.lineStep raw st) OkNext := by
  unfold lineStep Gaia.lineStep
  refine (Same.orAbort _ (lexLine_same hr _ _ _)).bind fun r g => ?_
  obtain ⟨lx, tk, instr⟩ := r
  refine (Same.orAbort _ (parseLine_same g)).bind fun lx g => ?_
  refine (Same.orAbort _ (slot_same g 0)).bind fun first _ => ?_
  have h' : Ok { st with lexer := lx, tk := tk, instr := instr } := ⟨g.line, h.labels, h.refs⟩
  refine (declareStep_same h' g).bind fun st' hst => ?_
  obtain ⟨ok, hlx⟩ := hst
  refine Same.ite (fun _ => Same.pure ok) fun _ => Same.ite (fun _ => ?_) fun _ => ?_
  · exact bumpLine_same fun n => Same.pure (show Ok _ from ⟨ok.line, ok.labels, ok.refs⟩)
  · exact (instructionStep_same hr.cstr ok (by rw [hlx]; exact g)).bind fun st'' ok => Same.pure ok

theorem mainLoop_same : ∀ {raws : List (List Byte)}, (∀ raw ∈ raws, Clean raw) → ∀ {st : St}, Ok st →
    Same (mainLoop raws st) (Gaia.mainLoop raws st) Ok := by
  intro raws
  induction raws with
  | nil => intro _ st h; exact Same.ok h
  | cons raw rest ih =>
    intro hr st h
    unfold mainLoop Gaia.mainLoop
    refine (lineStep_same (hr raw (List.mem_cons_self ..)) h).bind fun n hn => ?_
    cases n with
    | «continue» st => exact ih (fun r hm => hr r (List.mem_cons_of_mem _ hm)) hn
    | stop st => exact Same.pure hn

theorem resolveAll_same {st : St} (h : Ok st) : ∀ (n i : Nat) (out : OutFile),
    Same (resolveAll st n i out) (Gaia.resolveAll st n i out) fun _ => True := by
  intro n
  induction n with
  | zero => intro i out; exact Same.ok trivial
  | succ n ih =>
    intro i out
    unfold resolveAll Gaia.resolveAll
    cases hr : st.unres.refs[i]? with
    | none => exact Same.ub _
    | some o =>
      cases o with
      | none => exact Same.ub _
      | some ref =>
        have g := h.refs ref (List.mem_of_getElem? hr)
        refine (Same.orAbort _ (searchSymbol_same _ g.label)).bind fun dest _ => ?_
        refine Same.ite (fun _ => Same.orAbort _ (Same.raise g.lineSome ..)) fun _ => ?_
        exact (Same.orAbort _ (resolveForwardRef_same _ g h.line _)).bind fun _ _ => ih _ _

theorem chunks_clean {src : List Byte} (h : Clean src) : ∀ raw ∈ chunks src, Clean raw := by
  have hf : ∀ (n : Nat) {s : List Byte}, Clean s → Clean (fgets n s).1 ∧ Clean (fgets n s).2 := by
    intro n
    induction n with
    | zero => intro s h; exact ⟨List.not_mem_nil, h⟩
    | succ n ih =>
      intro s h
      cases s with
      | nil => exact ⟨h, h⟩
      | cons c s =>
        unfold fgets
        split
        · exact ⟨show (255 : Byte) ∉ [10] by decide, h.tail⟩
        · obtain ⟨h1, h2⟩ := ih h.tail
          refine ⟨?_, h2⟩
          intro hc
          rcases List.mem_cons.1 hc with e | hc
          · exact h.head e.symm
          · exact h1 hc
  have ha : ∀ (fuel : Nat) {s : List Byte}, Clean s → ∀ raw ∈ chunksAux fuel s, Clean raw := by
    intro fuel
    induction fuel with
    | zero => intro s _ raw hm; cases hm
    | succ fuel ih =>
      intro s h raw hm
      unfold chunksAux at hm
      split at hm
      · cases hm
      · rcases List.mem_cons.1 hm with rfl | hm
        · exact (hf _ h).1
        · exact ih (hf _ h).2 raw hm
  exact ha _ h

theorem Ok_init (fn : Str) : Ok (initSt fn) := by
  refine ⟨fun l e => (nomatch e), Labels.none _, ?_⟩
  intro r hr
  have := List.eq_of_mem_replicate hr
  cases this

theorem assembleBytes_eq (fn : Str) {src : List Byte} (h : Clean src) : assembleBytes fn src = Gaia.assembleBytes fn src := by
  have := (mainLoop_same (chunks_clean h) (Ok_init fn)).bind fun st ok =>
    (resolveAll_same ok st.unres.curr 0 st.out).bind (Q := fun _ => True) fun out _ => Same.pure (a := { st with out := out }) trivial
  exact this.eq

theorem gaia_eq (srcName outName : Str) (w : World) (h : ∀ src, w.files srcName = some src → Clean src) :
    gaia srcName outName w = Gaia.gaia srcName outName w := by
  have hn : ∀ e : Err, printError none e none srcName 0 = Gaia.printError none e none srcName 0 := fun e =>
    printError_eq (fun l e => by cases e) ..
  unfold gaia Gaia.gaia
  cases hs : w.files srcName with
  | none => simp only [hn]; rfl
  | some content =>
    have hc : Clean (if srcName = outName then [] else content) := by
      split
      · exact fun hc => by cases hc
      · exact h content hs
    simp only [hn, assembleBytes_eq srcName hc]
    rfl

end Gaia.Uns

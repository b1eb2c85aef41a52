import Verif.Proofs.Hash

/-! A whole run with an arbitrary hash function. -/
namespace Gaia.Hash
open Gaia

variable {hash : Str → Nat}

/-! ### Values of tokens -/

/-- No token has a value above 65535. -/
def Vals (lx : Lexer) : Prop := ∀ t ∈ lx.seq, t.value ≤ 0xFFFF

theorem lexText_value {off : Nat} {s : Str} {tk : Token} {instr : Instr} {r : Nat × Token × Instr} (h : lexText off s tk instr = .ok r) :
    r.2.1.value = tk.value := by
  unfold lexText at h
  cases hs : scanLoop isTextStop isValidTokenChar MAX_TOKEN_STR_LEN 0 s with
  | bad i => rw [hs] at h; cases h
  | done n =>
    rw [hs] at h
    simp only at h
    split at h
    · cases h
    · unfold tokenStrncpy at h
      split at h
      · cases h
      · split at h
        · cases h
        · simp only [C.ok_bind, C.pure_eq] at h
          split at h
          · cases h; rfl
          · split at h
            · cases h; rfl
            · split at h
              · cases h; rfl
              · unfold lexInstruction at h
                simp only at h
                cases hm : strToMnemonic ((s.take n).map toUpper) with
                | some m => rw [hm] at h; cases h; rfl
                | none => rw [hm] at h; cases h; rfl

theorem lexLiteral_value {off : Nat} {s : Str} {tk : Token} {r : Nat × Token} (h : lexLiteral off s tk = .ok r) : r.2.value ≤ 0xFFFF := by
  have body : ∀ {conv : Byte → Option Nat} {base : Nat} {s : Str} {n : Nat}, lexLiteralBody conv base off s n tk = .ok r → r.2.value ≤ 0xFFFF := by
    intro conv base s n h
    unfold lexLiteralBody at h
    cases hd : digitLoop conv base s 0 n with
    | bad n => rw [hd] at h; cases h
    | done total n =>
      rw [hd] at h
      simp only at h
      split at h
      · cases h
      · split at h
        · cases h
        · split at h
          · cases h
          · rename_i ht
            cases h
            show total ≤ 0xFFFF
            omega
  unfold lexLiteral at h
  simp only at h
  split at h
  · exact body h
  · split at h
    · exact body h
    · split at h
      · exact body h
      · cases h

theorem lexDirective_value {off : Nat} {s : Str} {tk : Token} {r : Nat × Token} (h : lexDirective off s tk = .ok r) : r.2.value = tk.value := by
  unfold lexDirective at h
  cases hs : scanLoop isEndOfToken isAlpha (MAX_TOKEN_STR_LEN - 1) 1 s.tail with
  | bad i => rw [hs] at h; cases h
  | done n =>
    rw [hs] at h
    simp only at h
    split at h
    · cases h
    · unfold tokenStrncpy at h
      split at h
      · cases h
      · split at h
        · cases h
        · simp only [C.ok_bind, C.pure_eq] at h
          cases hdt : directiveType ((s.take n).map toUpper) with
          | some t => rw [hdt] at h; cases h; rfl
          | none => rw [hdt] at h; cases h

theorem lex_value {off : Nat} {s : Str} {tk : Token} (ht : tk.value ≤ 0xFFFF) {instr : Instr} {r : Nat × Token × Instr}
    (h : lex off s tk instr = .ok r) : r.2.1.value ≤ 0xFFFF := by
  unfold lex at h
  simp only at h
  cases hp : punctType (rd s) with
  | some t =>
    rw [hp] at h
    simp only [tokenStrncpy, MAX_TOKEN_STR_LEN] at h
    norm_num at h
    subst h
    exact ht
  | none =>
    rw [hp] at h
    simp only at h
    split at h
    · rw [lexText_value h]; exact ht
    · split at h
      · rw [C.bind_eq_ok] at h
        obtain ⟨a, ha, h⟩ := h
        cases h
        exact lexLiteral_value ha
      · split at h
        · rw [C.bind_eq_ok] at h
          obtain ⟨a, ha, h⟩ := h
          cases h
          show a.2.value ≤ _
          rw [lexDirective_value ha]
          exact ht
        · cases h

theorem addToken_vals {lx lx' : Lexer} (h : Vals lx) {tk : Token} (ht : tk.value ≤ 0xFFFF) (e : addToken lx tk = .ok lx') : Vals lx' := by
  unfold addToken at e
  split at e
  · cases e
  · cases hn : lx.seq[lx.curr]? with
    | none => rw [hn] at e; cases e
    | some new =>
      rw [hn] at e
      simp only at e
      split at e
      · rw [C.bind_eq_ok] at e
        obtain ⟨new', h1, e⟩ := e
        cases e
        intro t hm
        rcases List.mem_or_eq_of_mem_set hm with hm | rfl
        · exact h t hm
        · exact ht
      · cases e

theorem lexLoop_vals (buffer : Str) : ∀ (fuel off : Nat) {s : Str} {lx : Lexer} {tk : Token} (instr : Instr), Vals lx → tk.value ≤ 0xFFFF →
    ∀ {r : Lexer × Token × Instr}, lexLoop buffer fuel off s lx tk instr = .ok r → Vals r.1 := by
  intro fuel
  induction fuel with
  | zero => intro off s lx tk instr _ _ r h; cases h
  | succ fuel ih =>
    intro off s lx tk instr hl ht r h
    unfold lexLoop at h
    split at h
    · cases h; exact hl
    · cases hx : lex off s tk instr with
      | ub u => rw [hx] at h; cases h
      | err e => rw [hx] at h; exact (Steps.raise_ne_ok _ _ _ _ _ _ h).elim
      | ok q =>
        obtain ⟨n, tk', instr'⟩ := q
        have ht' : tk'.value ≤ 0xFFFF := lex_value ht hx
        rw [hx] at h
        simp only at h
        split at h
        · cases h
        · cases ha : addToken lx tk' with
          | ub u => rw [ha] at h; cases h
          | err e => rw [ha] at h; cases h
          | ok lx' =>
            have hl' := addToken_vals hl ht' ha
            rw [ha] at h
            simp only at h
            split at h
            · split at h
              · exact ih _ _ hl' ht' h
              · exact (Steps.raise_ne_ok _ _ _ _ _ _ h).elim
            · exact ih _ _ hl' ht' h

theorem lexLine_vals {raw : List Byte} {lx : Lexer} {tk : Token} {instr : Instr} {n : Nat} {r : Lexer × Token × Instr}
    (e : lexLine raw lx tk instr n = .ok r) : Vals r.1 := by
  unfold lexLine at e
  simp only at e
  rw [C.bind_eq_ok] at e
  obtain ⟨⟨lx', tk', instr'⟩, h1, e⟩ := e
  cases e
  have h0 : Vals { resetLexer lx with line := some (cstr raw), lineNum := n } := by
    intro t ht
    obtain ⟨t', _, rfl⟩ := List.mem_map.1 ht
    exact Nat.zero_le _
  have g := lexLoop_vals _ _ _ _ h0 (by exact Nat.zero_le _) h1
  intro t ht
  rcases List.mem_append.1 ht with ht | ht
  · exact g t (List.mem_of_mem_take ht)
  · obtain ⟨t', ht', rfl⟩ := List.mem_map.1 ht
    exact g t' (List.mem_of_mem_drop ht')

theorem setValue_vals {lx : Lexer} (h : Vals lx) (i : Nat) {v : Nat} (hv : v ≤ 0xFFFF) : Vals (setValue lx i v) := by
  intro t ht
  have ht : t ∈ lx.seq.modify i fun t => { t with value := v } := ht
  obtain ⟨j, hj⟩ := List.mem_iff_getElem?.1 ht
  rw [List.getElem?_modify] at hj
  cases hl : lx.seq[j]? with
  | none => rw [hl] at hj; simp at hj
  | some t' =>
    rw [hl] at hj
    have := h t' (List.mem_of_getElem? hl)
    have hj : (if i = j then { t' with value := v } else t') = t := by simpa using hj
    subst hj
    split
    · exact hv
    · exact this

theorem slot_vals {lx : Lexer} (h : Vals lx) (i : Nat) : Uns.Same (slot lx i) (slot lx i) fun t => t.value ≤ 0xFFFF :=
  Uns.Same.refl fun _ e => h _ (Steps.slot_mem e)

theorem syntaxError_vals {α} {lx : Lexer} {i : Nat} {e : Err} {P : α → Prop} : Uns.Same (syntaxError lx i e) (syntaxError lx i e) P := by
  refine Uns.Same.refl fun a h => ?_
  unfold syntaxError at h
  rw [C.bind_eq_ok] at h
  obtain ⟨_, _, h⟩ := h
  exact (Steps.raise_ne_ok _ _ _ _ _ _ h).elim

theorem parseLine_vals {lx : Lexer} (h : Vals lx) : Uns.Same (parseLine lx) (parseLine lx) Vals := by
  unfold parseLine parseDirectiveTree parseBaseTree
  repeat' first
    | exact Uns.Same.pure h
    | exact Uns.Same.pure (setValue_vals h _ ‹_›)
    | exact syntaxError_vals
    | exact (Uns.Same.refl (P := fun _ => True) fun _ _ => trivial).bind fun _ _ => Uns.Same.pure h
    | refine Uns.Same.ite (fun _ => ?_) (fun _ => ?_)
    | refine (slot_vals h _).bind fun _ _ => ?_

/-! ### Declarations and operands -/

theorem toInt32_nonneg {n : Nat} (h : n ≤ INT_MAX) : 0 ≤ toInt32 n := by
  have e : INT_MAX = 2147483647 := rfl
  unfold toInt32
  split <;> omega

theorem slot_both {lx : Lexer} (h : Vals lx) (i : Nat) : Both (fun a b => a = b ∧ a.value ≤ 0xFFFF) (slot lx i) (slot lx i) :=
  Both.refl fun _ e => ⟨rfl, h _ (Steps.slot_mem e)⟩

theorem parseLabelDeclaration_both {lx : Lexer} (hl : Vals lx) {t t' : SymTab} (h : Rel hash t t') {pc : Nat} (hpc : pc ≤ INT_MAX) :
    Both (Rel hash) (parseLabelDeclaration hash lx t pc) (Gaia.parseLabelDeclaration lx t' pc) := by
  have e : INT_MAX = 2147483647 := rfl
  unfold parseLabelDeclaration Gaia.parseLabelDeclaration
  refine (slot_both hl _).bind fun label _ e0 => ?_
  obtain ⟨rfl, _⟩ := e0
  refine (slot_both hl _).bind fun define _ e0 => ?_
  obtain ⟨rfl, _⟩ := e0
  refine (searchSymbol_both h _).bind fun found _ e0 => ?_
  obtain ⟨rfl, a1⟩ := e0
  refine (searchSymbol_both h _).bind fun found' _ e0 => ?_
  obtain ⟨rfl, a2⟩ := e0
  refine Both.ite (fun _ => Both.ite (fun _ => Both.raise) fun hn => ?_) fun _ => Both.ite (fun _ => Both.ite (fun _ => Both.raise) fun hn => ?_)
    fun _ => Both.ite (fun _ => Both.ite (fun _ => Both.raise) fun hn => ?_) fun _ => Both.raise
  · exact insertSymbol_both h _ (toInt32_nonneg hpc) (a1 (not_not.1 hn))
  · refine (slot_both hl _).bind fun lit _ e0 => ?_
    obtain ⟨rfl, hv⟩ := e0
    exact insertSymbol_both h _ (toInt32_nonneg (by omega)) (a1 (not_not.1 hn))
  · refine (slot_both hl _).bind fun lit _ e0 => ?_
    obtain ⟨rfl, hv⟩ := e0
    exact insertSymbol_both h _ (toInt32_nonneg (by omega)) (a2 (not_not.1 hn))

theorem parseLabelOperand_both (lx : Lexer) (instr : Instr) (op : Token) {t t' : SymTab} (h : Rel hash t t') :
    Both Eq (parseLabelOperand hash lx instr op t) (Gaia.parseLabelOperand lx instr op t') := by
  unfold parseLabelOperand Gaia.parseLabelOperand
  refine (searchSymbol_both h _).bind fun found _ e0 => ?_
  obtain ⟨rfl, _⟩ := e0
  repeat' first
    | exact Both.raise
    | exact Both.pure rfl
    | refine Both.ite (fun _ => ?_) (fun _ => ?_)

theorem parseOperand_both (lx : Lexer) (instr : Instr) (op : Option Token) {t t' : SymTab} (h : Rel hash t t') :
    Both Eq (parseOperand hash lx instr op t) (Gaia.parseOperand lx instr op t') := by
  unfold parseOperand Gaia.parseOperand
  cases op with
  | none => exact .ok rfl
  | some tk =>
    refine Both.ite (fun _ => ?_) fun _ => Both.ite (fun _ => .ok rfl) fun _ => Both.raise
    refine (parseLabelOperand_both lx instr tk h).bind fun r _ e0 => ?_
    subst e0
    exact Both.pure rfl

theorem resolveLabelRef_both (f : OutFile) (lx : Lexer) (instr : Instr) (label : Option Token) (status : OpStatus) {t t' : SymTab} (h : Rel hash t t')
    (pc : Nat) : Both Eq (resolveLabelRef hash f lx instr label status t pc) (Gaia.resolveLabelRef f lx instr label status t' pc) := by
  unfold resolveLabelRef Gaia.resolveLabelRef
  cases label with
  | none => exact Both.raise
  | some label =>
    refine (searchSymbol_both h _).bind fun dest _ e0 => ?_
    obtain ⟨rfl, _⟩ := e0
    refine Both.ite (fun _ => ?_) fun _ => Both.ite (fun _ => Both.pure rfl) fun _ => Both.raise
    refine (Both.refl (R := Eq) fun _ _ => rfl).bind fun o _ e0 => ?_
    subst e0
    cases o with
    | none => exact Both.raise
    | some o => exact Both.pure rfl

/-! ### A line, and the whole program -/

/-- Two states that differ in the arrangement of the symbol table only. -/
structure StRel (hash : Str → Nat) (st st' : St) : Prop where
  same : st = { st' with symtab := st.symtab }
  tab : Rel hash st.symtab st'.symtab
  pc : st'.pc ≤ INT_MAX

theorem saveForwardRef_both {buffer : Str} {st st' : St} (h : StRel hash st st') (instr : Instr) (op : Option Token) (status : OpStatus) :
    Both (StRel hash) (saveForwardRef buffer st instr op status) (saveForwardRef buffer st' instr op status) := by
  obtain ⟨e, ht, hp⟩ := h
  rw [e]
  unfold saveForwardRef
  simp only
  refine (Both.refl (R := Eq) fun _ _ => rfl).bind fun r _ e0 => ?_
  subst e0
  refine (Both.refl (R := Eq) fun _ _ => rfl).bind fun u _ e0 => ?_
  subst e0
  exact Both.pure ⟨rfl, ht, hp⟩

theorem last_both {st st' : St} (h : StRel hash st st') (out : OutFile) (written : Nat) : Both (StRel hash)
    (bumpLine { st with out := out } fun st =>
      if st.pc + written > INT_MAX ∨ st.total + written > INT_MAX then .ub .signedOverflow
      else pure { st with pc := st.pc + written, total := st.total + written })
    (bumpLine { st' with out := out } fun st =>
      if st.pc + written > INT_MAX ∨ st.total + written > INT_MAX then .ub .signedOverflow
      else pure { st with pc := st.pc + written, total := st.total + written }) := by
  obtain ⟨e, ht, hp⟩ := h
  rw [e]
  unfold bumpLine
  simp only
  refine Both.ite (fun _ => .ub _) fun _ => Both.ite (fun _ => .ub _) fun hn => Both.pure ⟨rfl, ht, ?_⟩
  show st'.pc + written ≤ INT_MAX
  omega

theorem instructionStep_both (buffer : Str) {st st' : St} (h : StRel hash st st') :
    Both (StRel hash) (instructionStep hash buffer st) (Gaia.instructionStep buffer st') := by
  obtain ⟨e, ht, hp⟩ := h
  rw [e]
  unfold instructionStep Gaia.instructionStep
  simp only
  refine (Both.refl (R := Eq) fun _ _ => rfl).bind fun op _ e0 => ?_
  subst e0
  refine (Both.orAbort _ (parseOperand_both _ _ _ ht)).bind fun r _ e0 => ?_
  subst e0
  obtain ⟨status, op'⟩ := r
  refine (Both.refl (R := Eq) fun _ _ => rfl).bind fun r _ e0 => ?_
  subst e0
  obtain ⟨res, instr⟩ := r
  have emit : ∀ {s s' : St}, StRel hash s s' → Both (StRel hash)
      (if status = .branchOperand ∨ status = .jumpOperand then
        (orAbort s.out (resolveLabelRef hash s.out s.lexer instr op' status s.symtab s.pc)) >>= fun r =>
          bumpLine { s with out := r.1 } fun st =>
            if st.pc + r.2 > INT_MAX ∨ st.total + r.2 > INT_MAX then .ub .signedOverflow
            else pure { st with pc := st.pc + r.2, total := st.total + r.2 }
       else bumpLine { s with out := (generateCode s.out instr op' s.pc).1 } fun st =>
            if st.pc + (generateCode s.out instr op' s.pc).2 > INT_MAX ∨ st.total + (generateCode s.out instr op' s.pc).2 > INT_MAX then .ub .signedOverflow
            else pure { st with pc := st.pc + (generateCode s.out instr op' s.pc).2, total := st.total + (generateCode s.out instr op' s.pc).2 })
      (if status = .branchOperand ∨ status = .jumpOperand then
        (orAbort s'.out (Gaia.resolveLabelRef s'.out s'.lexer instr op' status s'.symtab s'.pc)) >>= fun r =>
          bumpLine { s' with out := r.1 } fun st =>
            if st.pc + r.2 > INT_MAX ∨ st.total + r.2 > INT_MAX then .ub .signedOverflow
            else pure { st with pc := st.pc + r.2, total := st.total + r.2 }
       else bumpLine { s' with out := (generateCode s'.out instr op' s'.pc).1 } fun st =>
            if st.pc + (generateCode s'.out instr op' s'.pc).2 > INT_MAX ∨ st.total + (generateCode s'.out instr op' s'.pc).2 > INT_MAX then .ub .signedOverflow
            else pure { st with pc := st.pc + (generateCode s'.out instr op' s'.pc).2, total := st.total + (generateCode s'.out instr op' s'.pc).2 }) := by
    intro s s' h
    obtain ⟨e, ht, hp⟩ := h
    have h2 : StRel hash { s' with symtab := s.symtab } s' := ⟨rfl, ht, hp⟩
    rw [e]
    refine Both.ite (fun _ => ?_) fun _ => last_both h2 _ _
    refine (Both.orAbort _ (resolveLabelRef_both _ _ _ _ _ ht _)).bind fun r _ e0 => ?_
    subst e0
    exact last_both h2 _ _
  have h' : StRel hash { st' with symtab := st.symtab, instr := instr } { st' with instr := instr } := ⟨rfl, ht, hp⟩
  cases res with
  | forwardReference => exact (saveForwardRef_both h' instr op' status).bind fun s s' hs => emit hs
  | flag => exact emit h'

theorem declareStep_both {first : Token} (hv : first.value ≤ 0xFFFF) {st st' : St} (h : StRel hash st st') (hl : Vals st'.lexer) :
    Both (StRel hash) (declareStep hash first st) (Gaia.declareStep first st') := by
  obtain ⟨e, ht, hp⟩ := h
  have e' : INT_MAX = 2147483647 := rfl
  rw [e]
  unfold declareStep Gaia.declareStep
  refine Both.ite (fun _ => ?_) fun _ => Both.ite (fun _ => Both.pure ⟨rfl, ht, ?_⟩) fun _ => Both.pure ⟨rfl, ht, hp⟩
  · exact (Both.orAbort _ (parseLabelDeclaration_both hl ht hp)).bind fun t t' hr => Both.pure ⟨rfl, hr, hp⟩
  · show first.value ≤ INT_MAX
    omega

/-- The two loops go on, or stop, together. -/
inductive NextRel (hash : Str → Nat) : Next → Next → Prop
  | continue {st st' : St} (h : StRel hash st st') : NextRel hash (.continue st) (.continue st')
  | stop {st st' : St} (h : StRel hash st st') : NextRel hash (.stop st) (.stop st')

theorem lineStep_both (raw : List Byte) {st st' : St} (h : StRel hash st st') :
    Both (NextRel hash) (lineStep hash raw st) (Gaia.lineStep raw st') := by
  obtain ⟨e, ht, hp⟩ := h
  rw [e]
  unfold lineStep Gaia.lineStep
  simp only
  refine (Both.orAbort _ (Both.refl (R := fun a b => a = b ∧ Vals a.1) fun _ e => ⟨rfl, lexLine_vals e⟩)).bind fun r _ e0 => ?_
  obtain ⟨rfl, g⟩ := e0
  obtain ⟨lx, tk, instr⟩ := r
  refine (Both.orAbort _ (Both.refl (R := fun a b => a = b ∧ Vals a) fun _ e => ⟨rfl, (parseLine_vals g).post _ e⟩)).bind fun lx' _ e0 => ?_
  obtain ⟨rfl, g'⟩ := e0
  refine (Both.orAbort _ (slot_both g' 0)).bind fun first _ e0 => ?_
  obtain ⟨rfl, hv⟩ := e0
  have h' : StRel hash { st' with symtab := st.symtab, lexer := lx', tk := tk, instr := instr } { st' with lexer := lx', tk := tk, instr := instr } :=
    ⟨rfl, ht, hp⟩
  refine (declareStep_both hv h' g').bind fun s s' hs => ?_
  have ei : s.instr = s'.instr := by rw [hs.same]
  rw [ei]
  refine Both.ite (fun _ => Both.pure (.stop hs)) fun _ => Both.ite (fun _ => ?_) fun _ => ?_
  · obtain ⟨e2, ht2, hp2⟩ := hs
    rw [e2]
    unfold bumpLine
    exact Both.ite (fun _ => .ub _) fun _ => Both.pure (.continue ⟨rfl, ht2, hp2⟩)
  · exact (instructionStep_both _ hs).bind fun _ _ h => Both.pure (.continue h)

theorem mainLoop_both : ∀ (raws : List (List Byte)) {st st' : St}, StRel hash st st' →
    Both (StRel hash) (mainLoop hash raws st) (Gaia.mainLoop raws st') := by
  intro raws
  induction raws with
  | nil => intro st st' h; exact .ok h
  | cons raw rest ih =>
    intro st st' h
    unfold mainLoop Gaia.mainLoop
    refine (lineStep_both raw h).bind fun n n' hn => ?_
    cases hn with
    | «continue» h => exact ih h
    | stop h => exact .ok h

theorem resolveAll_both {st st' : St} (h : StRel hash st st') : ∀ (n i : Nat) (out : OutFile),
    Both Eq (resolveAll hash st n i out) (Gaia.resolveAll st' n i out) := by
  obtain ⟨e, ht, hp⟩ := h
  intro n
  induction n with
  | zero => intro i out; exact .ok rfl
  | succ n ih =>
    intro i out
    have eu : st.unres = st'.unres := by rw [e]
    have el : st.lexer = st'.lexer := by rw [e]
    unfold resolveAll Gaia.resolveAll
    rw [eu, el]
    cases hr : st'.unres.refs[i]? with
    | none => exact .ub _
    | some o =>
      cases o with
      | none => exact .ub _
      | some ref =>
        refine (Both.orAbort _ (searchSymbol_both ht _)).bind fun dest _ e0 => ?_
        obtain ⟨rfl, _⟩ := e0
        refine Both.ite (fun _ => Both.orAbort _ Both.raise) fun _ => ?_
        refine (Both.refl (R := Eq) fun _ _ => rfl).bind fun o _ e0 => ?_
        subst e0
        exact ih _ _

theorem assembleBytes_both (hash : Str → Nat) (fn : Str) (src : List Byte) :
    Both (StRel hash) (assembleBytes hash fn src) (Gaia.assembleBytes fn src) := by
  unfold assembleBytes Gaia.assembleBytes
  have h0 : StRel hash (initSt fn) (initSt fn) := ⟨rfl, Rel_init hash, Nat.zero_le _⟩
  refine (mainLoop_both (chunks src) h0).bind fun st st' h => ?_
  have eu : st.unres = st'.unres := by rw [h.same]
  have eo : st.out = st'.out := by rw [h.same]
  rw [eu, eo]
  refine (resolveAll_both h _ _ _).bind fun o _ e0 => ?_
  subst e0
  obtain ⟨e, ht, hp⟩ := h
  rw [e]
  exact Both.pure ⟨rfl, ht, hp⟩

theorem gaia_eq (hash : Str → Nat) (srcName outName : Str) (w : World) : gaia hash srcName outName w = Gaia.gaia srcName outName w := by
  unfold gaia Gaia.gaia
  cases w.files srcName with
  | none => rfl
  | some content =>
    simp only
    split
    · rfl
    · have := assembleBytes_both hash srcName (if srcName = outName then [] else content)
      revert this
      generalize assembleBytes hash srcName (if srcName = outName then [] else content) = x
      generalize Gaia.assembleBytes srcName (if srcName = outName then [] else content) = y
      intro h
      cases h with
      | ok h =>
        obtain ⟨e, ht, _⟩ := h
        rw [e]
        simp only [ht.count]
      | err e => rfl
      | ub u => rfl

end Gaia.Hash

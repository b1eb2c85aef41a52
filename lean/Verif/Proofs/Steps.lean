import Verif.Model.Steps
import Verif.Proofs.SymTab

/-! The counting version of the program computes what the program computes. -/
namespace Gaia.Steps
open Gaia

section basics
variable {ε α β : Type}

@[simp] theorem result_bind (x : T ε α) (f : α → T ε β) : (x >>= f).result = (x.result >>= fun a => (f a).result) := by
  show (T.bind x f).result = _
  unfold T.bind
  cases x.result <;> rfl

theorem steps_bind_ok {x : T ε α} {f : α → T ε β} {a : α} (h : x.result = .ok a) : (x >>= f).steps = x.steps + (f a).steps := by
  show (T.bind x f).steps = _
  unfold T.bind
  rw [h]

/-- The iterations of a sequence, when those of its parts are bounded. -/
theorem steps_bind_le {x : T ε α} {f : α → T ε β} {n m : Nat} (h1 : x.steps ≤ n) (h2 : ∀ a, x.result = .ok a → (f a).steps ≤ m) :
    (x >>= f).steps ≤ n + m := by
  show (T.bind x f).steps ≤ _
  unfold T.bind
  cases h : x.result with
  | ok a => have := h2 a h; simp only; omega
  | err e => simp only; omega
  | ub u => simp only; omega

@[simp] theorem result_pure (a : α) : (pure a : T ε α).result = .ok a := rfl
@[simp] theorem steps_pure (a : α) : (pure a : T ε α).steps = 0 := rfl
@[simp] theorem result_lift (r : C ε α) : (lift r).result = r := rfl
@[simp] theorem steps_lift (r : C ε α) : (lift r).steps = 0 := rfl
@[simp] theorem result_tick (n : Nat) (x : T ε α) : (tick n x).result = x.result := rfl
@[simp] theorem steps_tick (n : Nat) (x : T ε α) : (tick n x).steps = n + x.steps := rfl

theorem result_ite {c : Prop} [Decidable c] (x y : T ε α) : (if c then x else y).result = if c then x.result else y.result := by
  split <;> rfl

end basics

@[simp] theorem result_orAbort {α} (symtab : SymTab) (unres : Unresolved) (out : OutFile) (x : T Fail α) :
    (orAbort symtab unres out x).result = Gaia.orAbort out x.result := by
  unfold orAbort Gaia.orAbort
  cases x.result <;> rfl

theorem lexLoop_result (buffer : Str) : ∀ (fuel off : Nat) (s : Str) (lx : Lexer) (tk : Token) (instr : Instr),
    (lexLoop buffer fuel off s lx tk instr).result = Gaia.lexLoop buffer fuel off s lx tk instr := by
  intro fuel
  induction fuel with
  | zero => intros; rfl
  | succ fuel ih =>
    intro off s lx tk instr
    unfold lexLoop Gaia.lexLoop
    split
    · rfl
    · rw [result_tick]
      cases lex off s tk instr with
      | ub u => rfl
      | err e => rfl
      | ok r =>
        obtain ⟨n, tk, instr⟩ := r
        simp only
        split
        · rfl
        · cases addToken lx tk with
          | ub u => rfl
          | err e => rfl
          | ok lx =>
            simp only
            split
            · split
              · rw [result_tick, ih]
              · rfl
            · rw [result_tick, ih]

theorem lexLine_result (raw : List Byte) (lx : Lexer) (tk : Token) (instr : Instr) (n : Nat) :
    (lexLine raw lx tk instr n).result = Gaia.lexLine raw lx tk instr n := by
  unfold lexLine Gaia.lexLine
  simp only [result_tick, result_bind, lexLoop_result, result_pure]
  rfl

theorem nextPrimeLoop_result : ∀ fuel x, (nextPrimeLoop fuel x).result = Gaia.nextPrimeLoop fuel x := by
  intro fuel
  induction fuel with
  | zero => intro x; rfl
  | succ fuel ih =>
    intro x
    unfold nextPrimeLoop Gaia.nextPrimeLoop
    split
    · rfl
    · rw [result_tick]
      split
      · rfl
      · exact ih _

theorem nextPrime_result (x : Nat) : (nextPrime x).result = Gaia.nextPrime x := nextPrimeLoop_result _ _

theorem probeFree_result (slots : Slots) : ∀ fuel h, (probeFree slots fuel h).result = Gaia.probeFree slots fuel h := by
  intro fuel
  induction fuel with
  | zero => intro h; rfl
  | succ fuel ih =>
    intro h
    unfold probeFree Gaia.probeFree
    match slots[h]? with
    | none => rfl
    | some none => rfl
    | some (some _) => exact ih _

theorem rehashOne_result (slots : Slots) (sym : Symbol) : (rehashOne slots sym).result = Gaia.rehashOne slots sym := by
  unfold rehashOne Gaia.rehashOne
  simp only [result_tick, result_bind, probeFree_result, result_pure]
  rfl

theorem rehashAll_result : ∀ old new : Slots, (rehashAll old new).result = Gaia.rehashAll old new := by
  intro old
  induction old with
  | nil => intro new; rfl
  | cons a old ih =>
    intro new
    cases a with
    | none => unfold rehashAll Gaia.rehashAll; rw [result_tick, ih]
    | some sym => unfold rehashAll Gaia.rehashAll; simp only [result_tick, result_bind, rehashOne_result, ih]

theorem resizeSymbols_result (t : SymTab) : (resizeSymbols t).result = Gaia.resizeSymbols t := by
  unfold resizeSymbols Gaia.resizeSymbols
  split
  · rfl
  · simp only [result_bind, nextPrime_result, rehashAll_result, result_pure]
    rfl

theorem placeSymbol_result (t : SymTab) (label : Str) (v : Int) : (placeSymbol t label v).result = Gaia.placeSymbol t label v := by
  unfold placeSymbol Gaia.placeSymbol
  simp only [result_tick, result_bind, probeFree_result, result_pure]
  rfl

theorem insertSymbol_result (t : SymTab) (label : Str) (v : Int) : (insertSymbol t label v).result = Gaia.insertSymbol t label v := by
  unfold insertSymbol Gaia.insertSymbol
  split
  · rfl
  · split
    · simp only [result_bind, placeSymbol_result, resizeSymbols_result]
    · simp only [result_bind, placeSymbol_result, result_pure, C.pure_eq]

theorem probeLabel_result (slots : Slots) (label : Str) : ∀ fuel h, (probeLabel slots label fuel h).result = Gaia.probeLabel slots label fuel h := by
  intro fuel
  induction fuel with
  | zero => intro h; rfl
  | succ fuel ih =>
    intro h
    unfold probeLabel Gaia.probeLabel
    match slots[h]? with
    | none => rfl
    | some none => rfl
    | some (some s) =>
      simp only [result_tick, result_ite, result_pure, ih]

theorem searchSymbol_result (t : SymTab) (label : Str) : (searchSymbol t label).result = Gaia.searchSymbol t label := by
  unfold searchSymbol Gaia.searchSymbol searchOpt
  simp only [result_tick, result_bind, probeLabel_result]
  congr 1
  funext r
  cases r <;> rfl

theorem parseLabelDeclaration_result (lx : Lexer) (t : SymTab) (pc : Nat) :
    (parseLabelDeclaration lx t pc).result = Gaia.parseLabelDeclaration lx t pc := by
  unfold parseLabelDeclaration Gaia.parseLabelDeclaration
  simp only [result_bind, result_lift, searchSymbol_result, result_ite, insertSymbol_result]

theorem parseLabelOperand_result (lx : Lexer) (instr : Instr) (op : Token) (t : SymTab) :
    (parseLabelOperand lx instr op t).result = Gaia.parseLabelOperand lx instr op t := by
  unfold parseLabelOperand Gaia.parseLabelOperand
  simp only [result_bind, result_lift, searchSymbol_result, result_ite, result_pure, C.pure_eq]

theorem parseOperand_result (lx : Lexer) (instr : Instr) (op : Option Token) (t : SymTab) :
    (parseOperand lx instr op t).result = Gaia.parseOperand lx instr op t := by
  unfold parseOperand Gaia.parseOperand
  cases op with
  | none => rfl
  | some tk =>
    simp only [result_ite, result_bind, result_lift, parseLabelOperand_result, result_pure]
    rfl

theorem findOperandLoop_result (lx : Lexer) : ∀ fuel i curr, (findOperandLoop lx fuel i curr).result = Gaia.findOperandLoop lx fuel i curr := by
  intro fuel
  induction fuel with
  | zero => intros; rfl
  | succ fuel ih =>
    intro i curr
    unfold findOperandLoop Gaia.findOperandLoop
    split
    · rfl
    · simp only [result_tick, result_bind, result_lift, result_ite, result_pure, ih, C.pure_eq]

theorem findOperand_result (lx : Lexer) : (findOperand lx).result = Gaia.findOperand lx := by
  unfold findOperand Gaia.findOperand
  simp only [result_bind, result_lift, findOperandLoop_result]

theorem resolveLabelRef_result (f : OutFile) (lx : Lexer) (instr : Instr) (label : Option Token) (status : OpStatus) (t : SymTab) (pc : Nat) :
    (resolveLabelRef f lx instr label status t pc).result = Gaia.resolveLabelRef f lx instr label status t pc := by
  unfold resolveLabelRef Gaia.resolveLabelRef
  cases label with
  | none => rfl
  | some label =>
    simp only [result_bind, searchSymbol_result]
    congr 1
    funext d
    rw [result_ite]
    split
    · simp only [result_bind, result_lift]
      congr 1
      funext o
      cases o <;> rfl
    · rw [result_ite]; rfl

theorem saveForwardRef_result (buffer : Str) (st : St) (instr : Instr) (op : Option Token) (status : OpStatus) :
    (saveForwardRef buffer st instr op status).result = Gaia.saveForwardRef buffer st instr op status := by
  unfold saveForwardRef Gaia.saveForwardRef createForwardRef addForwardRef
  simp only [result_bind, result_orAbort, result_tick, result_lift, result_pure]
  rfl

/-- Saving a reference changes the references and the file only. -/
theorem saveForwardRef_ok {buffer : Str} {st st' : St} {instr : Instr} {op : Option Token} {status : OpStatus}
    (h : Gaia.saveForwardRef buffer st instr op status = .ok st') :
    ∃ unres out, st' = { st with unres := unres, out := out } ∧ ∃ ref, Gaia.addForwardRef st.unres ref = .ok unres ∧
      Gaia.createForwardRef buffer instr op status st.pc st.lineNum = .ok ref := by
  unfold Gaia.saveForwardRef Gaia.orAbort at h
  cases h1 : Gaia.createForwardRef buffer instr op status st.pc st.lineNum with
  | err e => rw [h1] at h; cases h
  | ub u => rw [h1] at h; cases h
  | ok ref =>
    rw [h1] at h
    simp only [C.ok_bind] at h
    cases h2 : Gaia.addForwardRef st.unres ref with
    | err e => rw [h2] at h; cases h
    | ub u => rw [h2] at h; cases h
    | ok unres =>
      rw [h2] at h
      simp only [C.ok_bind, C.pure_eq, C.ok.injEq] at h
      exact ⟨_, _, h.symm, ref, h2, rfl⟩

theorem instructionStep_result (buffer : Str) (st : St) : (instructionStep buffer st).result = Gaia.instructionStep buffer st := by
  unfold instructionStep Gaia.instructionStep parseAddrMode
  simp only [result_bind, result_orAbort, result_tick, result_lift, findOperand_result, parseOperand_result]
  congr 1
  funext op
  congr 1
  funext r
  obtain ⟨status, op⟩ := r
  congr 1
  funext m
  obtain ⟨res, instr⟩ := m
  have e : ∀ st' : St, (emitStep st' op status).result =
      if status = .branchOperand ∨ status = .jumpOperand then
        Gaia.orAbort st'.out (Gaia.resolveLabelRef st'.out st'.lexer st'.instr op status st'.symtab st'.pc)
      else pure (generateCode st'.out st'.instr op st'.pc) := by
    intro st'
    unfold emitStep
    rw [result_ite, result_orAbort, resolveLabelRef_result]
    rfl
  simp only [e]
  unfold saveStep
  cases res with
  | flag =>
    simp only [result_pure, C.ok_bind, C.pure_eq]
    split <;> rfl
  | forwardReference =>
    simp only [saveForwardRef_result]
    cases h : Gaia.saveForwardRef buffer { st with instr := instr } instr op status with
    | err e => rfl
    | ub u => rfl
    | ok st' =>
      obtain ⟨unres, out, rfl, _⟩ := saveForwardRef_ok h
      simp only [C.ok_bind]
      split <;> rfl

theorem declareStep_result (first : Token) (st : St) : (declareStep first st).result = Gaia.declareStep first st := by
  unfold declareStep Gaia.declareStep
  simp only [result_ite, result_bind, result_orAbort, parseLabelDeclaration_result, result_pure]
  rfl

theorem lineStep_result (raw : List Byte) (st : St) : (lineStep raw st).result = Gaia.lineStep raw st := by
  unfold lineStep Gaia.lineStep
  simp only [result_bind, result_orAbort, result_lift, lexLine_result]
  congr 1
  funext r
  obtain ⟨lx, tk, instr⟩ := r
  congr 1
  funext lexer
  congr 1
  funext first
  rw [declareStep_result]
  congr 1
  funext st'
  simp only [result_ite, result_bind, result_lift, instructionStep_result, result_pure]
  rfl

theorem mainLoop_result : ∀ raws st, (mainLoop raws st).result = Gaia.mainLoop raws st := by
  intro raws
  induction raws with
  | nil => intro st; rfl
  | cons raw rest ih =>
    intro st
    unfold mainLoop Gaia.mainLoop
    simp only [result_tick, result_bind, lineStep_result]
    congr 1
    funext n
    cases n with
    | «continue» st => exact ih st
    | stop st => rfl

theorem resolveAll_result (st : St) : ∀ n i out, (resolveAll st n i out).result = Gaia.resolveAll st n i out := by
  intro n
  induction n with
  | zero => intros; rfl
  | succ n ih =>
    intro i out
    unfold resolveAll Gaia.resolveAll
    cases st.unres.refs[i]? with
    | none => rfl
    | some r =>
      cases r with
      | none => rfl
      | some ref => simp only [result_tick, result_bind, result_orAbort, result_lift, searchSymbol_result, result_ite, ih]

theorem assembleBytes_result (srcName : Str) (src : List Byte) : (assembleBytes srcName src).result = Gaia.assembleBytes srcName src := by
  unfold assembleBytes Gaia.assembleBytes
  simp only [result_tick, result_bind, mainLoop_result, resolveAll_result, result_pure]
  rfl

/-- The counting program does what the program does. -/
theorem gaia_result (srcName outName : Str) (w : World) : (gaia srcName outName w).1 = Gaia.gaia srcName outName w := by
  unfold gaia Gaia.gaia
  cases w.files srcName with
  | none => simp only; cases printError none .fileOpenFail none srcName 0 <;> rfl
  | some content =>
    simp only
    split
    · cases printError none .binaryFileCreationFail none srcName 0 <;> rfl
    · rw [assembleBytes_result]
      cases Gaia.assembleBytes srcName (if srcName = outName then [] else content) <;> rfl

end Gaia.Steps

import Verif.Proofs.Codes2

/-! `Gaia.Codes` behaves like the main model: forward references, code generation and `main`. -/
namespace Gaia.Codes
open Gaia

/-- A forward reference with its status as a number. -/
def encRef (r : Gaia.ForwardRef) : ForwardRef :=
  { label := r.label, sourceLine := r.sourceLine, instr := r.instr, pc := r.pc, lineNum := r.lineNum,
    operandStatus := enc r.status, operandLocation := r.operandLocation }

/-- The array of references, with the statuses as numbers. -/
def encUnres (u : Gaia.Unresolved) : Unresolved := { refs := u.refs.map (Option.map encRef), curr := u.curr }

theorem sim_createForwardRef (buffer : Str) (instr : Instr) (op : Option Token) (st : OpStatus) (pc lineNum : Nat)
    {E : Fail → ForwardRef → Str → Prop} :
    Sim E (fun a r => r = encRef a) (Gaia.createForwardRef buffer instr op st pc lineNum)
      (createForwardRef buffer instr op (enc st) pc lineNum) := by
  unfold Gaia.createForwardRef createForwardRef
  cases savedLine buffer with
  | none => exact sim_ub
  | some l =>
    cases op with
    | none => exact sim_ub
    | some op =>
      dsimp only
      cases op.bufferLocation with
      | none => exact sim_ub
      | some loc => exact sim_ok rfl

theorem sim_addForwardRef (u : Gaia.Unresolved) (ref : Gaia.ForwardRef) {E : Fail → Int × Unresolved → Str → Prop} :
    Sim E (fun a r => r = (FORWARD_REFERENCE_INSERTION_SUCCESS, encUnres a)) (Gaia.addForwardRef u ref)
      (addForwardRef (encUnres u) (encRef ref)) := by
  have key : ∀ u : Gaia.Unresolved, Sim E (fun a r => r = (FORWARD_REFERENCE_INSERTION_SUCCESS, encUnres a))
      (if u.curr < u.size then C.ok { refs := u.refs.set u.curr (some ref), curr := u.curr + 1 } else .ub .outOfBounds)
      (if (encUnres u).curr < (encUnres u).refs.length then (pure (FORWARD_REFERENCE_INSERTION_SUCCESS,
        { refs := (encUnres u).refs.set (encUnres u).curr (some (encRef ref)), curr := (encUnres u).curr + 1 }) : M _) else
        throw .outOfBounds) := by
    intro u
    have hl : (encUnres u).refs.length = u.size := by simp [encUnres, Gaia.Unresolved.size]
    rw [hl]
    show Sim E _ (if u.curr < u.size then _ else _) (if u.curr < u.size then _ else _)
    split
    · refine sim_ok ?_
      simp [encUnres, List.map_set]
    · exact sim_ub
  have hl : (encUnres u).refs.length = u.size := by simp [encUnres, Gaia.Unresolved.size]
  have hc : (encUnres u).curr = u.curr := rfl
  unfold Gaia.addForwardRef addForwardRef
  dsimp only
  rw [hl, hc]
  split
  · unfold Gaia.resizeUnresolved resizeUnresolved
    rw [hl]
    split
    · exact sim_ub
    · simp only [pure_bind, C.ok_bind]
      have := key { u with refs := u.refs ++ List.replicate u.size none }
      simpa [encUnres, Gaia.Unresolved.size] using this
  · have := key u
    rw [hl, hc] at this
    exact this

theorem sim_calcBranchOffset (currPc destPc : Int) {E : Fail → Int → Str → Prop} :
    Sim E (fun a r => match a with
      | some n => r = n ∧ n < 256
      | none => r = Err.tooBigOffset.code) (Gaia.calcBranchOffset currPc destPc) (calcBranchOffset currPc destPc) := by
  unfold Gaia.calcBranchOffset calcBranchOffset
  dsimp only
  have h256 : ∀ z : Int, z % 256 = ((z % 256).toNat : Int) ∧ (z % 256).toNat < 256 := fun z => by omega
  repeat' first | exact sim_ub | exact sim_ok rfl | exact sim_ok (h256 _) | split

theorem toUInt32_small {n : Nat} (h : n < 256) : toUInt32 (n : Int) = n := by
  unfold toUInt32; omega

/-- Results of the functions that write code. -/
def Wrote (a : OutFile × Nat) (r : Int × OutFile) : Prop := r.1 = a.2 ∧ r.2 = a.1

/-- Errors of the functions that write code: nothing has been written. -/
def RetOut (f : OutFile) : Fail → Int × OutFile → Str → Prop := fun e r s => r.1 = e.code.code ∧ r.2 = f ∧ s = e.out

theorem sim_raiseOut {α} {R : α → Int × OutFile → Prop} {line : Option Str} {e : Err} {bad : Option Nat} {fileName : Str}
    {lineNum : Nat} {f : OutFile} :
    Sim (RetOut f) R (raise line e bad fileName lineNum)
      (printError line e.code bad fileName lineNum >>= fun _ => pure (e.code, f)) := by
  rcases printError_run line e bad fileName lineNum with ⟨s, h1, h2⟩ | ⟨u, h⟩
  · unfold raise
    rw [h1]
    exact ⟨_, s, ⟨rfl, rfl, rfl⟩, fun o => by rw [bind_run_ok (h2 o)]; rfl⟩
  · unfold raise; rw [h]; trivial

theorem sim_resolveLabelRef (f : OutFile) (lx : Lexer) (instr : Instr) (label : Option Token) (st : OpStatus)
    (symtab : SymTab) (pc : Nat) :
    Sim (RetOut f) Wrote (Gaia.resolveLabelRef f lx instr label st symtab pc)
      (resolveLabelRef f lx instr label (enc st) symtab pc) := by
  unfold Gaia.resolveLabelRef resolveLabelRef
  cases label with
  | none => exact sim_raiseOut
  | some label =>
    simp only [searchSymbol_eq, (enc_eq_iff st).1, (enc_eq_iff st).2.1]
    refine sim_val (searchSymbol_ne_err _ _) fun dest _ => ?_
    split
    · refine sim_bind (sim_calcBranchOffset _ _ (E := fun _ _ _ => False)) ?_ (fun e r s h => h.elim)
      rintro (_ | n) r hr
      · dsimp only at hr ⊢
        subst hr
        simp only [↓reduceIte]
        exact sim_raiseOut
      · obtain ⟨rfl, hn⟩ := hr
        have : ¬ ((n : Int) = Err.tooBigOffset.code) := by
          have := code_neg .tooBigOffset; omega
        simp only [this, ↓reduceIte, toUInt32_small hn]
        exact sim_ok ⟨rfl, rfl⟩
    · split
      · exact sim_ok ⟨rfl, rfl⟩
      · exact sim_raiseOut

theorem sim_resolveForwardRef (f : OutFile) (ref : Gaia.ForwardRef) (lx : Lexer) (dest : Int) :
    Sim (RetOut f) (fun a r => 0 ≤ r.1 ∧ r.2 = a) (Gaia.resolveForwardRef f ref lx dest)
      (resolveForwardRef f (encRef ref) lx dest) := by
  unfold Gaia.resolveForwardRef resolveForwardRef
  have hs : (encRef ref).operandStatus = enc ref.status := rfl
  rw [hs]
  simp only [(enc_eq_iff ref.status).2.2.1, (enc_eq_iff ref.status).2.2.2]
  split
  · refine sim_bind (sim_calcBranchOffset _ _ (E := fun _ _ _ => False)) ?_ (fun e r s h => h.elim)
    rintro (_ | n) r hr
    · dsimp only at hr ⊢
      subst hr
      simp only [↓reduceIte]
      exact sim_raiseOut
    · obtain ⟨rfl, hn⟩ := hr
      have : ¬ ((n : Int) = Err.tooBigOffset.code) := by
        have := code_neg .tooBigOffset; omega
      simp only [this, ↓reduceIte]
      have hm : (n : Int) % 256 = n := by omega
      rw [hm]
      show Sim _ _ (if ref.instr.addrBitflag ≠ 0 then _ else _) (if ref.instr.addrBitflag ≠ 0 then _ else _)
      split
      · exact sim_ok ⟨Int.natCast_nonneg _, rfl⟩
      · exact sim_raiseOut
  · split
    · show Sim _ _ (if ref.instr.addrBitflag ≠ 0 then _ else _) (if ref.instr.addrBitflag ≠ 0 then _ else _)
      split
      · exact sim_ok ⟨Int.natCast_nonneg _, rfl⟩
      · exact sim_raiseOut
    · exact sim_raiseOut

/-! ## main.c -/

/-- A state of `main` with given `written_bytes` and `error_char`. -/
def emb (a : Gaia.St) (w : Int) (ec : Option Nat) : St :=
  { pc := a.pc, lineNum := a.lineNum, total := a.total, written := w, symtab := a.symtab, unres := encUnres a.unres,
    out := a.out, lexer := a.lexer, running := ⟨a.tk, ec⟩, instr := a.instr }

/-- The same state of `main`, up to `written_bytes` and `error_char`. -/
def Same (a : Gaia.St) (b : St) : Prop := ∃ w ec, b = emb a w ec

/-- `ABORT_ASSEMBLY()` after the message has been printed. -/
def Aborts : Abort → Ctl → Str → Prop := fun a r s => ∃ st, r = .abort st ∧ st.out = a.out ∧ s = a.fail.out

theorem sim_orAbort {α ρ} {E : Fail → ρ → Str → Prop} {R : α → ρ → Prop} {x : Res α} {y : M ρ} {out : OutFile} (h : Sim E R x y) :
    Sim (fun (a : Abort) r s => E a.fail r s ∧ a.out = out) R (orAbort out x) y := by
  cases x with
  | ok a => exact h
  | ub u => trivial
  | err e =>
    obtain ⟨r, s, h1, h2⟩ := h
    exact ⟨r, s, ⟨h1, rfl⟩, h2⟩

theorem sim_bump {α} {k : Gaia.St → Run α} {k' : St → M Ctl} {a : Gaia.St} {w : Int} {ec : Option Nat} {R : α → Ctl → Prop}
    (hk : ∀ a', Sim Aborts R (k a') (k' (emb a' w ec))) :
    Sim Aborts R (Gaia.bumpLine a k) (bumpLine (emb a w ec) >>= k') := by
  unfold Gaia.bumpLine
  by_cases h : a.lineNum + 1 > INT_MAX
  · rw [if_pos h]; exact sim_ub
  · have e : bumpLine (emb a w ec) = pure (emb { a with lineNum := a.lineNum + 1 } w ec) := by
      have h' : ¬ (emb a w ec).lineNum + 1 > INT_MAX := h
      unfold bumpLine
      rw [if_neg h']
      rfl
    rw [if_neg h, e, pure_bind]
    exact hk _

theorem findOperandLoop_ne_err (lx : Lexer) (e : Fail) : ∀ fuel i c, findOperandLoop lx fuel i c ≠ .err e
  | 0, _, _ => by simp [findOperandLoop]
  | fuel + 1, i, c => by
    unfold findOperandLoop
    split
    · simp
    · refine bind_ne_err (slot_ne_err _ _ _) fun t => ?_
      split
      · simp
      · exact findOperandLoop_ne_err lx e fuel _ _

theorem findOperand_ne_err (lx : Lexer) (e : Fail) : findOperand lx ≠ .err e := by
  unfold findOperand
  exact bind_ne_err (slot_ne_err _ _ _) fun t => findOperandLoop_ne_err _ _ _ _ _

theorem orAbort_ne_err {α} {x : Res α} {out : OutFile} (h : ∀ e, x ≠ .err e) (e : Abort) : orAbort out x ≠ .err e := by
  cases x with
  | ok a => simp [orAbort]
  | ub u => simp [orAbort]
  | err e => exact absurd rfl (h e)

theorem value_orAbort {α} {x : Res α} {out : OutFile} (h : ∀ e, x ≠ .err e) : value (orAbort out x) = value x := by
  cases x with
  | ok a => rfl
  | ub u => rfl
  | err e => exact absurd rfl (h e)

/-- main.c:246-259 in the main model. -/
def tail (a : Gaia.St) (op : Option Token) (st : OpStatus) : Run Gaia.St := do
  let (out, written) ←
    if st = .branchOperand ∨ st = .jumpOperand then
      orAbort a.out (Gaia.resolveLabelRef a.out a.lexer a.instr op st a.symtab a.pc)
    else pure (Gaia.generateCode a.out a.instr op a.pc)
  Gaia.bumpLine { a with out := out } fun st =>
    if st.pc + written > INT_MAX ∨ st.total + written > INT_MAX then .ub .signedOverflow
    else pure { st with pc := st.pc + written, total := st.total + written }

/-- The end of the loop body (main.c:246-259). -/
theorem sim_finish (a : Gaia.St) (w : Int) (ec : Option Nat) (op : Option Token) (st : OpStatus) :
    Sim Aborts (fun a r => ∃ b, r = .next b ∧ Same a b) (tail a op st) (finishLine (emb a w ec) op (enc st)) := by
  have key : ∀ (f : OutFile) (n : Nat), Sim Aborts (fun a r => ∃ b, r = .next b ∧ Same a b)
      (Gaia.bumpLine { a with out := f } fun st =>
          if st.pc + n > INT_MAX ∨ st.total + n > INT_MAX then .ub .signedOverflow
          else pure { st with pc := st.pc + n, total := st.total + n })
      (if isError (n : Int) = true then pure (.abort (emb { a with out := f } n ec)) else do
        let st' ← bumpLine (emb { a with out := f } n ec)
        if (st'.pc : Int) + st'.written > INT_MAX ∨ (st'.total : Int) + st'.written > INT_MAX then throw .signedOverflow
        return .next { st' with pc := ((st'.pc : Int) + st'.written).toNat,
                                total := ((st'.total : Int) + st'.written).toNat }) := by
    intro f n
    rw [isError_of_nonneg (by omega : (0 : Int) ≤ n)]
    simp only [Bool.false_eq_true, ↓reduceIte]
    refine sim_bump ?_
    intro a'
    dsimp only [emb]
    have e : ((a'.pc : Int) + n > INT_MAX ∨ (a'.total : Int) + n > INT_MAX) ↔
        (a'.pc + n > INT_MAX ∨ a'.total + n > INT_MAX) := by omega
    simp only [e]
    split
    · exact sim_ub
    · refine sim_ok ⟨emb { a' with pc := a'.pc + n, total := a'.total + n } n ec, ?_, _, _, rfl⟩
      unfold emb
      congr 2
  unfold tail finishLine
  simp only [(enc_eq_iff st).1, (enc_eq_iff st).2.1]
  split
  · refine sim_bind (sim_orAbort (sim_resolveLabelRef _ _ _ _ _ _ _)) ?_ ?_
    · rintro ⟨f, n⟩ ⟨c, g⟩ ⟨h1, h2⟩
      dsimp only at h1 h2
      subst h1 h2
      exact key _ _
    · rintro e ⟨c, g⟩ s ⟨⟨h1, h2, h3⟩, h4⟩
      dsimp only at h1 h2 h3
      subst h1 h2
      refine ⟨.abort (emb a e.fail.code.code ec), ⟨_, rfl, h4.symm, h3⟩, fun o => ?_⟩
      dsimp only
      simp only [isError_code, ↓reduceIte]
      rfl
  · simp only [C.pure_eq, C.ok_bind]
    exact key _ _

theorem sim_val_orAbort {α β ρ} {x : Res α} {out : OutFile} {f : α → Run β} {k : α → M ρ} {E : Abort → ρ → Str → Prop}
    {R : β → ρ → Prop} (he : ∀ e, x ≠ .err e) (h : ∀ a, x = .ok a → Sim E R (f a) (k a)) :
    Sim E R (orAbort out x >>= f) (value x >>= k) := by
  cases x with
  | ok a => exact h a rfl
  | ub u => trivial
  | err e => exact absurd rfl (he e)

theorem c_assoc {ε α β γ} (x : C ε α) (f : α → C ε β) (g : β → C ε γ) : (x >>= f >>= g) = x >>= fun a => f a >>= g := by
  cases x <;> rfl

/-- main.c:224-245 in the main model. -/
def middle (buffer : Str) (a : Gaia.St) (op : Option Token) (st : OpStatus) : Run Gaia.St := do
  let (res, instr) ← orAbort a.out (Gaia.parseAddrMode a.lexer a.instr op st)
  let a := { a with instr := instr }
  match res with
    | .forwardReference => saveForwardRef buffer a instr op st >>= fun a => tail a op st
    | .flag => tail a op st

theorem middle_eq (buffer : Str) (a : Gaia.St) : Gaia.instructionStep buffer a = (do
    let operand ← orAbort a.out (findOperand a.lexer)
    let (status, operand) ← orAbort a.out (Gaia.parseOperand a.lexer a.instr operand a.symtab)
    middle buffer a operand status) := by
  unfold Gaia.instructionStep middle
  cases orAbort a.out (findOperand a.lexer) with
  | ub u => rfl
  | err e => rfl
  | ok op =>
    simp only [C.ok_bind]
    cases orAbort a.out (Gaia.parseOperand a.lexer a.instr op a.symtab) with
    | ub u => rfl
    | err e => rfl
    | ok p =>
      obtain ⟨status, op⟩ := p
      simp only [C.ok_bind]
      cases orAbort a.out (Gaia.parseAddrMode a.lexer a.instr op status) with
      | ub u => rfl
      | err e => rfl
      | ok p =>
        obtain ⟨res, instr⟩ := p
        cases res with
        | forwardReference =>
          simp only [C.ok_bind]
          unfold saveForwardRef tail
          simp only [c_assoc, C.pure_eq, C.ok_bind]
        | flag => rfl

theorem sim_encodeLine (buffer : Str) (a : Gaia.St) (w : Int) (ec : Option Nat) (op : Option Token) (st : OpStatus)
    (hw : st = .branchForwardReference ∨ st = .jumpForwardReference → (w = 3 ↔ st = .jumpForwardReference)) :
    Sim Aborts (fun a r => ∃ b, r = .next b ∧ Same a b) (middle buffer a op st) (encodeLine buffer (emb a w ec) op (enc st)) := by
  unfold middle encodeLine
  refine sim_bind (sim_orAbort (sim_addrMode _ _ _ _)) ?_ ?_
  · rintro ⟨res, instr⟩ ⟨c, i⟩ ⟨h1, h2⟩
    dsimp only at h1 h2
    subst h1
    cases res with
    | flag =>
      obtain ⟨h2, h3⟩ := h2
      dsimp only
      simp only [h3, isError_of_nonneg h2, ↓reduceIte, Bool.false_eq_true]
      exact sim_finish { a with instr := i } w ec op st
    | forwardReference =>
      obtain ⟨h2, hst⟩ := h2
      subst h2
      have hw := hw hst
      simp only [↓reduceIte]
      unfold saveForwardRef
      simp only [c_assoc]
      refine sim_bind (sim_orAbort (sim_createForwardRef _ _ _ _ _ _ (E := fun _ _ _ => False))) ?_ (fun e r s h => h.1.elim)
      rintro ref r rfl
      refine sim_bind (sim_orAbort (sim_addForwardRef _ _ (E := fun _ _ _ => False))) ?_ (fun e r s h => h.1.elim)
      rintro u r rfl
      have hi : isError FORWARD_REFERENCE_INSERTION_SUCCESS = false := by decide
      have hw' : (emb a w ec).written = 3 ↔ st = .jumpForwardReference := hw
      simp only [hi, Bool.false_eq_true, ↓reduceIte, C.pure_eq, C.ok_bind, hw']
      split
      · exact sim_finish { a with instr := i, unres := u, out := ((a.out.fputc 0).fputc 0).fputc 0 } w ec op st
      · exact sim_finish { a with instr := i, unres := u, out := (a.out.fputc 0).fputc 0 } w ec op st
  · rintro e ⟨c, i⟩ s ⟨⟨h1, h2⟩, h3⟩
    dsimp only at h1
    subst h1
    refine ⟨.abort (emb { a with instr := i } w ec), ⟨_, rfl, h3.symm, h2⟩, fun o => ?_⟩
    have : ¬ (e.fail.code.code = FORWARD_REFERENCE) := by
      have := code_neg e.fail.code; unfold FORWARD_REFERENCE; omega
    simp only [this, isError_code, ↓reduceIte]
    rfl

theorem sim_instructionStep (buffer : Str) (a : Gaia.St) (w : Int) (ec : Option Nat) :
    Sim Aborts (fun a r => ∃ b, r = .next b ∧ Same a b) (Gaia.instructionStep buffer a)
      (instructionStep buffer (emb a w ec)) := by
  rw [middle_eq]
  unfold instructionStep
  refine sim_val_orAbort (findOperand_ne_err _) fun op _ => ?_
  refine sim_bind (sim_orAbort (sim_operand _ _ _ _)) ?_ ?_
  · rintro ⟨st, op⟩ r rfl
    dsimp only
    rw [isError_enc]
    simp only [Bool.false_eq_true, ↓reduceIte, (enc_eq_iff st).2.2.1, (enc_eq_iff st).2.2.2]
    split
    · rename_i h
      exact sim_encodeLine buffer a 2 ec op st (by subst h; decide)
    · split
      · rename_i h
        exact sim_encodeLine buffer a 3 ec op st (by subst h; decide)
      · rename_i h1 h2
        exact sim_encodeLine buffer a w ec op st (fun h => (h.elim h1 h2).elim)
  · rintro e ⟨c, op⟩ s ⟨⟨h1, h2⟩, h3⟩
    dsimp only at h1
    subst h1
    refine ⟨.abort (emb a w ec), ⟨_, rfl, h3.symm, h2⟩, fun o => ?_⟩
    simp only [isError_code, ↓reduceIte]
    rfl

/-- The end of a line: go on, or `.END`. -/
def Ends : Next → Ctl → Prop
  | .continue a, r => ∃ b, r = .next b ∧ Same a b
  | .stop a, r => ∃ b, r = .stop b ∧ Same a b

/-- main.c:209-259 in the main model. -/
theorem sim_rest (raw : List Byte) (a : Gaia.St) (w : Int) (ec : Option Nat) :
    Sim Aborts Ends
      (if a.instr.mnemonic = none then Gaia.bumpLine a fun st => pure (.continue st)
        else do
          let st ← Gaia.instructionStep (cstr raw) a
          pure (.continue st))
      (if (emb a w ec).instr.mnemonic = none then do return .next (← bumpLine (emb a w ec))
        else instructionStep (cstr raw) (emb a w ec)) := by
  show Sim Aborts Ends (if a.instr.mnemonic = none then _ else _) (if a.instr.mnemonic = none then _ else _)
  split
  · exact sim_bump fun a' => sim_ok ⟨_, rfl, _, _, rfl⟩
  · have : instructionStep (cstr raw) (emb a w ec) = instructionStep (cstr raw) (emb a w ec) >>= pure := by simp
    rw [this]
    refine sim_bind (sim_instructionStep (cstr raw) a w ec) ?_ ?_
    · rintro a' r h; exact sim_ok h
    · rintro e r s h; exact ⟨r, h, fun _ => rfl⟩

theorem sim_lineStep (raw : List Byte) (a : Gaia.St) (w : Int) (ec : Option Nat) :
    Sim Aborts Ends (Gaia.lineStep raw a) (lineStep raw (emb a w ec)) := by
  unfold Gaia.lineStep lineStep
  refine sim_bind (sim_orAbort (sim_lexLine raw a.lexer ⟨a.tk, ec⟩ a.instr a.lineNum)) ?_ ?_
  · rintro ⟨lx, tk, instr⟩ ⟨c, lx', ⟨tk', ec'⟩, instr'⟩ ⟨h1, h2, h3, h4⟩
    dsimp only at h1 h2 h3 h4
    subst h1 h2 h3 h4
    have hs : isError LEXER_SUCCESS = false := by decide
    dsimp only
    simp only [hs, Bool.false_eq_true, ↓reduceIte]
    refine sim_bind (sim_orAbort (sim_parseLine lx')) ?_ ?_
    · rintro lx r rfl
      have hp : isError PARSER_SUCCESS = false := by decide
      dsimp only
      simp only [hp, Bool.false_eq_true, ↓reduceIte]
      refine sim_val_orAbort (slot_ne_err _ _) fun first _ => ?_
      unfold declareStep
      by_cases hl : first.type = .label ∨ first.type = .defineDirective
      · have hne : ¬ first.type = .endDirective := by rcases hl with h | h <;> simp [h]
        simp only [if_pos hl, hne, ↓reduceIte, c_assoc]
        refine sim_bind (sim_orAbort (sim_labelDeclaration _ _ _)) ?_ ?_
        · rintro symtab r rfl
          have hp : isError SYMBOL_INSERTION_SUCCESS = false := by decide
          dsimp only
          simp only [hp, Bool.false_eq_true, ↓reduceIte, C.pure_eq, C.ok_bind]
          exact sim_rest raw { a with lexer := lx, tk := tk', instr := instr', symtab := symtab } w ec'
        · rintro e ⟨c, t⟩ s ⟨⟨h1, h2⟩, h3⟩
          dsimp only at h1
          subst h1
          refine ⟨.abort (emb { a with lexer := lx, tk := tk', instr := instr', symtab := t } w ec'), ⟨_, rfl, h3.symm, h2⟩,
            fun o => ?_⟩
          simp only [isError_code, ↓reduceIte]
          rfl
      · simp only [if_neg hl]
        by_cases hb : first.type = .base ∨ first.type = .orgDirective
        · have hne : ¬ first.type = .endDirective := by rcases hb with h | h <;> simp [h]
          simp only [if_pos hb, hne, ↓reduceIte, C.pure_eq, C.ok_bind]
          exact sim_rest raw { a with lexer := lx, tk := tk', instr := instr', pc := first.value } w ec'
        · simp only [if_neg hb, C.pure_eq, C.ok_bind]
          split
          · exact sim_ok ⟨emb { a with lexer := lx, tk := tk', instr := instr' } w ec', rfl, _, _, rfl⟩
          · exact sim_rest raw { a with lexer := lx, tk := tk', instr := instr' } w ec'
    · rintro e ⟨c, t⟩ s ⟨⟨h1, h2⟩, h3⟩
      dsimp only at h1
      subst h1
      refine ⟨.abort (emb { a with lexer := t, tk := tk', instr := instr' } w ec'), ⟨_, rfl, h3.symm, h2⟩, fun o => ?_⟩
      simp only [isError_code, ↓reduceIte]
      rfl
  · rintro e ⟨c, lx', ⟨tk', ec'⟩, instr'⟩ s ⟨⟨h1, h2⟩, h3⟩
    dsimp only at h1
    subst h1
    refine ⟨.abort (emb { a with lexer := lx', tk := tk', instr := instr' } w ec'), ⟨_, rfl, h3.symm, h2⟩, fun o => ?_⟩
    simp only [isError_code, ↓reduceIte]
    rfl

theorem sim_mainLoop : ∀ (raws : List (List Byte)) (a : Gaia.St) (w : Int) (ec : Option Nat),
    Sim Aborts (fun a r => ∃ b, r = .stop b ∧ Same a b) (Gaia.mainLoop raws a) (mainLoop raws (emb a w ec))
  | [], a, w, ec => sim_ok ⟨_, rfl, _, _, rfl⟩
  | raw :: rest, a, w, ec => by
    unfold Gaia.mainLoop mainLoop
    refine sim_bind (sim_lineStep raw a w ec) ?_ ?_
    · rintro (a' | a') r h
      · obtain ⟨b, rfl, w', ec', rfl⟩ := h
        exact sim_mainLoop rest a' w' ec'
      · obtain ⟨b, rfl, h⟩ := h
        exact sim_ok ⟨b, rfl, h⟩
    · rintro e r s ⟨st, rfl, h⟩
      exact ⟨.abort st, ⟨st, rfl, h⟩, fun _ => rfl⟩

theorem sim_resolveAll (a : Gaia.St) (w : Int) (ec : Option Nat) : ∀ (n i : Nat) (f : OutFile),
    Sim (fun (e : Abort) (r : Bool × OutFile) s => r = (false, e.out) ∧ s = e.fail.out) (fun f r => r = (true, f))
      (Gaia.resolveAll a n i f) (resolveAll (emb a w ec) n i f)
  | 0, i, f => sim_ok rfl
  | n + 1, i, f => by
    unfold Gaia.resolveAll resolveAll
    have hr : (emb a w ec).unres.refs[i]? = (a.unres.refs[i]?).map (Option.map encRef) := by
      simp [emb, encUnres]
    rw [hr]
    cases a.unres.refs[i]? with
    | none => exact sim_ub
    | some o =>
      cases o with
      | none => exact sim_ub
      | some ref =>
        dsimp only [Option.map]
        rw [searchSymbol_eq]
        refine sim_val_orAbort (searchSymbol_ne_err _ _) fun dest _ => ?_
        by_cases hd : dest < 0
        · have : isError dest = true := by simpa [isError] using hd
          simp only [hd, this, ↓reduceIte]
          rcases printError_run (some ref.sourceLine) .missingLabelDefinition (some ref.operandLocation) a.lexer.fileName
            ref.lineNum with ⟨s, h1, h2⟩ | ⟨u, h⟩
          · unfold raise
            rw [h1]
            refine ⟨(false, f), s, ⟨rfl, rfl⟩, fun o => ?_⟩
            exact bind_run_ok (h2 o)
          · unfold raise; rw [h]; trivial
        · have : isError dest = false := isError_of_nonneg (by omega)
          simp only [hd, this, ↓reduceIte, Bool.false_eq_true]
          refine sim_bind (sim_orAbort (sim_resolveForwardRef _ _ _ _)) ?_ ?_
          · rintro g ⟨c, g'⟩ ⟨h1, h2⟩
            dsimp only at h1 h2
            subst h2
            simp only [isError_of_nonneg h1, Bool.false_eq_true, ↓reduceIte]
            exact sim_resolveAll a w ec n _ _
          · rintro e ⟨c, g⟩ s ⟨⟨h1, h2, h3⟩, h4⟩
            dsimp only at h1 h2
            subst h1 h2
            refine ⟨(false, e.out), ⟨rfl, h3⟩, fun o => ?_⟩
            simp only [isError_code, ↓reduceIte]
            rw [h4]
            rfl

/-- The program with `int` return values does what the main model does, whenever that is defined. -/
theorem gaia_eq (srcName outName : Str) (w : World) (e : Exit) (h : Gaia.gaia srcName outName w = .exited e) :
    gaia srcName outName w = .exited e := by
  unfold gaia main
  unfold Gaia.gaia at h
  cases hf : w.files srcName with
  | none =>
    rw [hf] at h
    dsimp only at h
    rcases printError_run none .fileOpenFail none srcName 0 with ⟨s, h1, h2⟩ | ⟨u, hu⟩
    · rw [h1] at h
      dsimp only [StateT.run]
      rw [bind_run_ok (h2 [])]
      simpa using h
    · rw [hu] at h; cases h
  | some content =>
    rw [hf] at h
    dsimp only at h ⊢
    by_cases hc : w.creatable outName = false
    · rw [if_pos hc] at h ⊢
      rcases printError_run none .binaryFileCreationFail none srcName 0 with ⟨s, h1, h2⟩ | ⟨u, hu⟩
      · rw [h1] at h
        dsimp only [StateT.run]
        rw [bind_run_ok (h2 [])]
        simpa using h
      · rw [hu] at h; cases h
    · rw [if_neg hc] at h ⊢
      generalize hsrc : (if srcName = outName then [] else content) = src at h ⊢
      unfold assembleBytes at h
      have hm := sim_mainLoop (chunks src) (Gaia.initSt srcName) 0 none
      have hi : initSt srcName = emb (Gaia.initSt srcName) 0 none := by
        simp [initSt, emb, Gaia.initSt, encUnres, initUnresolved, Gaia.initUnresolved]
      rw [← hi] at hm
      dsimp only [StateT.run]
      cases hl : Gaia.mainLoop (chunks src) (Gaia.initSt srcName) with
      | ub u => rw [hl] at h; cases h
      | err a =>
        rw [hl] at h hm
        obtain ⟨r, s, ⟨st, rfl, h1, h2⟩, hy⟩ := hm
        rw [bind_run_ok (hy [])]
        dsimp only [C.err_bind] at h ⊢
        subst h2
        simpa [h1] using h
      | ok a =>
        rw [hl] at h hm
        obtain ⟨r, ⟨b, rfl, w', ec, rfl⟩, hy⟩ := hm
        rw [bind_run_ok (hy [])]
        simp only [C.ok_bind] at h ⊢
        have hr := sim_resolveAll a w' ec a.unres.curr 0 a.out
        cases hx : Gaia.resolveAll a a.unres.curr 0 a.out with
        | ub u => rw [hx] at h; cases h
        | err e' =>
          rw [hx] at h hr
          obtain ⟨r, s, ⟨rfl, rfl⟩, hy2⟩ := hr
          have : ∀ k : Bool × OutFile → M (Nat × Option (List Byte)),
              (resolveAll (emb a w' ec) (emb a w' ec).unres.curr 0 (emb a w' ec).out >>= k) [] = k (false, e'.out) ([] ++ e'.fail.out) :=
            fun k => bind_run_ok (hy2 [])
          rw [this]
          simpa using h
        | ok f =>
          rw [hx] at h hr
          obtain ⟨r, rfl, hy2⟩ := hr
          have : ∀ k : Bool × OutFile → M (Nat × Option (List Byte)),
              (resolveAll (emb a w' ec) (emb a w' ec).unres.curr 0 (emb a w' ec).out >>= k) [] = k (true, f) [] :=
            fun k => bind_run_ok (hy2 [])
          rw [this]
          simpa [emb] using h

end Gaia.Codes

import Verif.Proofs.MemorySim

/-! Memory: a whole run. -/
namespace Gaia.Memory
open Gaia

theorem Tidy.keep {s s' : State} (h : Tidy s) (h1 : s'.heap = s.heap) (h2 : s'.lexerB = s.lexerB) (h3 : s'.tkB = s.tkB)
    (h4 : s'.instrB = s.instrB) (h5 : s'.symtab = s.symtab) (h6 : s'.unres = s.unres) : Tidy s' := by
  have hb : s'.blocks = s.blocks := by unfold State.blocks; rw [h2, h3, h4, h5, h6]
  exact ⟨⟨by rw [h1]; exact h.owns.fresh, by rw [h1, hb]; exact h.owns.perm, by rw [h6]; exact h.owns.shaped,
    by rw [h1]; exact h.owns.files⟩, by rw [h6]; exact h.arr⟩

theorem run_assoc {α β γ : Type} (x : Run α) (f : α → Run β) (g : β → Run γ) : (x >>= f) >>= g = x >>= fun a => f a >>= g := by
  cases x <;> rfl

theorem follows_modify {β γ : Type} {o : Oracle} {s : State} {ψ : β → St → γ} {g : State → State} {f : Unit → Mem State β} {F : Run γ}
    (hh : (g s).heap = s.heap) (hf : Follows o (g s).heap ψ F (f () o (g s))) : Follows o s.heap ψ F ((modifyS g >>= f) o s) := by
  rw [bind_ok (modifyS_apply g o s), ← hh]; exact hf

theorem saveForwardRef_follows {o : Oracle} {s : State} (ht : Tidy s) (buffer : Str) (instr : Instr) (operand : Option Token)
    (status : OpStatus) :
    Follows o s.heap (fun _ st => st) (Gaia.saveForwardRef buffer s.bare instr operand status)
      (saveForwardRef buffer instr operand status o s) := by
  unfold Gaia.saveForwardRef saveForwardRef
  rw [bind_ok (getS_apply o s)]
  have e1 : s.bare.pc = s.pc := rfl
  have e2 : s.bare.lineNum = s.lineNum := rfl
  rw [e1, e2]
  cases hr : Gaia.createForwardRef buffer instr operand status s.pc s.lineNum with
  | ub _ => trivial
  | err e =>
    exfalso
    unfold Gaia.createForwardRef at hr
    split at hr
    · cases hr
    · split at hr
      · cases hr
      · split at hr <;> cases hr
  | ok ref =>
    rcases createForwardRef_cases (o := o) ht.owns hr with ⟨b, h', c1, o1, g1⟩ | ⟨h', lost, c1, o1, g1, k1⟩
    · rw [bind_ok c1]
      refine Follows.after g1 ?_
      have hadd := addForwardRef_follows (o := o) (s := { s with heap := h' }) (ref := (ref, b)) o1 ht.arr
      show Follows o h' _ (orAbort s.out (Gaia.addForwardRef s.unres.bare ref) >>= _) _
      have e3 : (orAbort s.out (Gaia.addForwardRef s.unres.bare ref) >>= fun unres =>
          (pure { s.bare with unres := unres, out :=
            (if status = .jumpForwardReference then ((s.bare.out.fputc 0).fputc 0).fputc 0 else (s.bare.out.fputc 0).fputc 0) } : Run St)) =
          ((orAbort s.out (Gaia.addForwardRef s.unres.bare ref) >>= fun u => .ok { s.bare with unres := u }) >>= fun st =>
            .ok { st with out := (if status = .jumpForwardReference then ((st.out.fputc 0).fputc 0).fputc 0
              else (st.out.fputc 0).fputc 0) }) := by rw [run_assoc]; rfl
      refine cast (congrArg (fun F => Follows o h' (fun _ st => st) F _) e3.symm) ?_
      refine hadd.bind ?_
      intro _ s' ht' _
      rw [modifyS_apply]
      exact .inl ⟨(), rfl, rfl, ht'.keep rfl rfl rfl rfl rfl rfl, Granted.refl _ _⟩
    · rw [bind_err c1]
      exact Oom.follows ⟨rfl, g1, lost, o1, .inl k1⟩ _ _

theorem bumpLine_follows {β : Type} {o : Oracle} {s : State} {ψ : β → St → γ} {f : Unit → Mem State β} {k : St → Run γ}
    (ht : Tidy s) (hf : ∀ s', Tidy s' → s'.heap = s.heap → Follows o s'.heap ψ (k s'.bare) (f () o s')) :
    Follows o s.heap ψ (Gaia.bumpLine s.bare k) ((bumpLine >>= f) o s) := by
  unfold Gaia.bumpLine bumpLine
  rw [mem_assoc, bind_ok (getS_apply o s), mem_assoc]
  refine follows_guard (p := s.lineNum + 1 > INT_MAX) (F := k { s.bare with lineNum := s.bare.lineNum + 1 }) fun _ => ?_
  refine follows_modify rfl ?_
  exact hf _ (ht.keep rfl rfl rfl rfl rfl rfl) rfl

/-- main.c:245-259 -/
theorem emit_follows {o : Oracle} {s : State} (ht : Tidy s) (instr : Instr) (operand : Option Token) (status : OpStatus) :
    Follows o s.heap (fun _ st => st)
      (do
        let (out, written) ←
          if status = .branchOperand ∨ status = .jumpOperand then
            orAbort s.bare.out (resolveLabelRef s.bare.out s.bare.lexer instr operand status s.bare.symtab s.bare.pc)
          else pure (generateCode s.bare.out instr operand s.bare.pc)
        Gaia.bumpLine { s.bare with out := out } fun st =>
          if st.pc + written > INT_MAX ∨ st.total + written > INT_MAX then .ub .signedOverflow
          else pure { st with pc := st.pc + written, total := st.total + written })
      ((do
        let s ← getS
        let (out, written) ←
          if status = .branchOperand ∨ status = .jumpOperand then
            lift (resolveLabelRef s.out s.lexer instr operand status s.symtab.bare s.pc)
          else pure (generateCode s.out instr operand s.pc)
        modifyS fun s => { s with out := out }
        bumpLine
        let s ← getS
        lift (if s.pc + written > INT_MAX ∨ s.total + written > INT_MAX then .ub .signedOverflow else .ok ())
        modifyS fun s => { s with pc := s.pc + written, total := s.total + written } : Mem State Unit) o s) := by
  rw [bind_ok (getS_apply o s)]
  have rest : ∀ (x : OutFile × Nat), Follows o s.heap (fun _ st => st)
      (Gaia.bumpLine { s.bare with out := x.1 } fun st =>
          if st.pc + x.2 > INT_MAX ∨ st.total + x.2 > INT_MAX then .ub .signedOverflow
          else pure { st with pc := st.pc + x.2, total := st.total + x.2 })
      ((do
        modifyS fun s => { s with out := x.1 }
        bumpLine
        let s ← getS
        lift (if s.pc + x.2 > INT_MAX ∨ s.total + x.2 > INT_MAX then .ub .signedOverflow else .ok ())
        modifyS fun s => { s with pc := s.pc + x.2, total := s.total + x.2 } : Mem State Unit) o s) := by
    intro x
    refine follows_modify rfl ?_
    refine bumpLine_follows (s := { s with out := x.1 }) (ht.keep rfl rfl rfl rfl rfl rfl) fun s' ht' _ => ?_
    rw [bind_ok (getS_apply o s')]
    refine follows_guard (p := s'.pc + x.2 > INT_MAX ∨ s'.total + x.2 > INT_MAX) fun _ => ?_
    rw [modifyS_apply]
    exact .inl ⟨(), rfl, rfl, ht'.keep rfl rfl rfl rfl rfl rfl, Granted.refl _ _⟩
  by_cases h1 : status = .branchOperand ∨ status = .jumpOperand
  · rw [if_pos h1, if_pos h1]
    exact follows_lift ht fun x _ => rest x
  · rw [if_neg h1, if_neg h1]
    exact rest _

theorem instructionStep_follows {o : Oracle} {s : State} (ht : Tidy s) (buffer : Str) :
    Follows o s.heap (fun _ st => st) (Gaia.instructionStep buffer s.bare) (instructionStep buffer o s) := by
  unfold Gaia.instructionStep instructionStep
  rw [bind_ok (getS_apply o s)]
  refine follows_lift ht fun operand _ => ?_
  refine follows_lift ht fun ⟨status, operand⟩ _ => ?_
  refine follows_lift ht fun ⟨res, instr⟩ _ => ?_
  refine follows_modify rfl ?_
  have ht1 : Tidy { s with instr := instr } := ht.keep rfl rfl rfl rfl rfl rfl
  cases res with
  | flag => exact emit_follows ht1 instr operand status
  | forwardReference =>
    refine (saveForwardRef_follows ht1 buffer instr operand status).bind ?_
    intro _ s' ht' _
    exact emit_follows ht' instr operand status

theorem declareStep_follows {o : Oracle} {s : State} (ht : Tidy s) (first : Token) :
    Follows o s.heap (fun _ st => st) (Gaia.declareStep first s.bare) (declareStep first o s) := by
  unfold Gaia.declareStep declareStep
  rw [bind_ok (getS_apply o s)]
  by_cases h1 : first.type = .label ∨ first.type = .defineDirective
  · rw [if_pos h1, if_pos h1]
    exact parseLabelDeclaration_follows ht _ _
  · rw [if_neg h1, if_neg h1]
    by_cases h2 : first.type = .base ∨ first.type = .orgDirective
    · rw [if_pos h2, if_pos h2, modifyS_apply]
      exact .inl ⟨(), rfl, rfl, ht.keep rfl rfl rfl rfl rfl rfl, Granted.refl _ _⟩
    · rw [if_neg h2, if_neg h2]
      exact .inl ⟨(), rfl, rfl, ht, Granted.refl _ _⟩

/-- The loop goes on, or not. -/
def asNext (b : Bool) (st : St) : Next := if b then .continue st else .stop st

/-- A declaration does not change the instruction. -/
theorem declareStep_instr {first : Token} {st st' : St} (h : Gaia.declareStep first st = .ok st') : st'.instr = st.instr := by
  unfold Gaia.declareStep at h
  split at h
  · obtain ⟨_, _, h2⟩ := C.bind_eq_ok.1 h
    injection h2 with h2
    rw [← h2]
  · split at h
    · injection h with h
      rw [← h]
    · injection h with h
      rw [← h]

theorem lineStep_follows {o : Oracle} {s : State} (ht : Tidy s) (raw : List Byte) :
    Follows o s.heap asNext (Gaia.lineStep raw s.bare) (lineStep raw o s) := by
  unfold Gaia.lineStep lineStep
  rw [bind_ok (getS_apply o s)]
  refine follows_lift ht fun ⟨lexer, tk, instr⟩ _ => ?_
  refine follows_lift ht fun lexer _ => ?_
  refine follows_modify rfl ?_
  have ht1 : Tidy { s with lexer := lexer, tk := tk, instr := instr } := ht.keep rfl rfl rfl rfl rfl rfl
  refine follows_lift ht1 fun first _ => ?_
  refine (declareStep_follows ht1 first).bind ?_
  intro _ s' ht' hs'
  have hi : s'.bare.instr = instr := declareStep_instr hs'
  by_cases h1 : first.type = .endDirective
  · rw [if_pos h1, if_pos h1]
    exact .inl ⟨false, rfl, rfl, ht', Granted.refl _ _⟩
  · rw [if_neg h1, if_neg h1, hi]
    by_cases h2 : instr.mnemonic = none
    · rw [if_pos h2, if_pos h2]
      refine bumpLine_follows ht' fun s'' ht'' _ => ?_
      exact .inl ⟨true, rfl, rfl, ht'', Granted.refl _ _⟩
    · rw [if_neg h2, if_neg h2]
      refine (instructionStep_follows ht' (cstr raw)).bind ?_
      intro _ s'' ht'' _
      exact .inl ⟨true, rfl, rfl, ht'', Granted.refl _ _⟩

theorem mainLoop_follows (o : Oracle) : ∀ (rows : List (List Byte)) (s : State), Tidy s →
    Follows o s.heap (fun _ st => st) (Gaia.mainLoop rows s.bare) (mainLoop rows o s)
  | [], s, ht => .inl ⟨(), rfl, rfl, ht, Granted.refl _ _⟩
  | raw :: rest, s, ht => by
    unfold Gaia.mainLoop mainLoop
    refine (lineStep_follows ht raw).bind ?_
    intro b s' ht' _
    cases b with
    | true => exact mainLoop_follows o rest s' ht'
    | false => exact .inl ⟨(), rfl, rfl, ht', Granted.refl _ _⟩

theorem resolveAll_follows (o : Oracle) (st : St) : ∀ (n i : Nat) (s : State), Tidy s → { s.bare with out := st.out } = st →
    Follows o s.heap (fun _ st => st) (Gaia.resolveAll st n i s.out >>= fun out => .ok { st with out := out }) (resolveAll n i o s)
  | 0, i, s, ht, hs => .inl ⟨(), rfl, by rw [← hs]; rfl, ht, Granted.refl _ _⟩
  | n + 1, i, s, ht, hs => by
    unfold Gaia.resolveAll resolveAll
    rw [bind_ok (getS_apply o s)]
    have hu : st.unres = s.unres.bare := by rw [← hs]; rfl
    have hy : st.symtab = s.symtab.bare := by rw [← hs]; rfl
    have hl : st.lexer = s.lexer := by rw [← hs]; rfl
    rw [← hu, ← hy, ← hl]
    cases h1 : st.unres.refs[i]? with
    | none => trivial
    | some r =>
      cases r with
      | none => trivial
      | some ref =>
        simp only
        rw [run_assoc]
        refine follows_lift ht fun dest _ => ?_
        by_cases h2 : dest < 0
        · rw [if_pos h2, if_pos h2]; exact follows_raise' ht
        · rw [if_neg h2, if_neg h2, run_assoc]
          refine follows_lift ht fun out _ => ?_
          refine follows_modify rfl ?_
          exact resolveAll_follows o st n (i + 1) { s with out := out } (ht.keep rfl rfl rfl rfl rfl rfl) (by rw [← hs]; rfl)

/-- The state in which the main loop starts. -/
structure Begins (s : State) (srcName : Str) : Prop where
  tidy : Tidy s
  bare : s.bare = initSt srcName

theorem assembleBytes_follows {o : Oracle} {s : State} {srcName : Str} (h : Begins s srcName) (src : List Byte) :
    Follows o s.heap (fun _ st => st) (Gaia.assembleBytes srcName src) (assembleBytes src o s) := by
  unfold Gaia.assembleBytes assembleBytes
  rw [← h.bare]
  refine (mainLoop_follows o (chunks src) s h.tidy).bind ?_
  intro _ s' ht' _
  rw [bind_ok (getS_apply o s')]
  exact resolveAll_follows o s'.bare s'.unres.curr 0 s' ht' rfl

end Gaia.Memory

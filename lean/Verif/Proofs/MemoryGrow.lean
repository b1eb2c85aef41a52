import Verif.Proofs.MemoryRun

/-! Memory: each line adds at most one forward reference. -/
namespace Gaia.Memory
open Gaia

/-- Started in `s`, the step adds at most `k` references. -/
def Grows {α : Type} (x : Mem State α) (k : Nat) : Prop := ∀ o s, (x o s).2.unres.curr ≤ s.unres.curr + k

theorem Grows.bind {α β : Type} {x : Mem State α} {f : α → Mem State β} {k m : Nat} (hx : Grows x k) (hf : ∀ a, Grows (f a) m) :
    Grows (x >>= f) (k + m) := by
  intro o s
  have h1 := hx o s
  rw [bind_apply]
  rcases hr : x o s with ⟨r, s'⟩
  rw [hr] at h1
  cases r with
  | ok a => have := hf a o s'; simp only at h1 ⊢; omega
  | err e => simp only at h1 ⊢; omega
  | ub u => simp only at h1 ⊢; omega

theorem Grows.mono {α : Type} {x : Mem State α} {k m : Nat} (hx : Grows x k) (h : k ≤ m) : Grows x m :=
  fun o s => Nat.le_trans (hx o s) (by omega)

theorem grows_pure {α : Type} (a : α) : Grows (pure a : Mem State α) 0 := fun _ _ => Nat.le_refl _
theorem grows_lift {α : Type} (r : Res α) : Grows (lift r : Mem State α) 0 := fun _ _ => Nat.le_refl _
theorem grows_get : Grows (getS : Mem State State) 0 := fun _ _ => Nat.le_refl _
theorem grows_onHeap {α : Type} (x : Mem Heap α) : Grows (onHeap x) 0 := fun _ _ => Nat.le_refl _
theorem grows_oom {α : Type} : Grows (outOfMemory : Mem State α) 0 := fun _ _ => Nat.le_refl _
theorem grows_modify {f : State → State} (h : ∀ s, (f s).unres = s.unres) : Grows (modifyS f) 0 := fun _ s => by
  show (f s).unres.curr ≤ _
  rw [h]; exact Nat.le_refl _

theorem grows_ite {α : Type} {p : Prop} [Decidable p] {x y : Mem State α} {k : Nat} (hx : Grows x k) (hy : Grows y k) :
    Grows (if p then x else y) k := by split <;> assumption

/-- First look at the state, then go on. -/
theorem grows_getBind {β : Type} {f : State → Mem State β} {k : Nat} (hf : ∀ s o, (f s o s).2.unres.curr ≤ s.unres.curr + k) :
    Grows (getS >>= f) k := fun o s => hf s o

theorem b0 {α β : Type} {x : Mem State α} {f : α → Mem State β} {m : Nat} (hx : Grows x 0) (hf : ∀ a, Grows (f a) m) :
    Grows (x >>= f) m := (hx.bind hf).mono (by omega)

theorem grows_resizeSymbols : Grows resizeSymbols 0 := by
  unfold resizeSymbols
  refine b0 grows_get fun s => b0 (grows_lift _) fun n => b0 (grows_onHeap _) fun r => ?_
  cases r with
  | none => exact grows_oom
  | some a => exact b0 (grows_lift _) fun _ => b0 (grows_onHeap _) fun _ => grows_modify fun _ => rfl

theorem grows_insertSymbol (l : Str) (v : Int) : Grows (insertSymbol l v) 0 := by
  unfold insertSymbol
  refine b0 grows_get fun s => b0 (grows_lift _) fun _ => ?_
  have tail : ∀ k : Unit → Mem State Unit, (∀ u, Grows (k u) 0) →
      Grows (if overLoaded s.symtab.bare then resizeSymbols >>= k else k ()) 0 :=
    fun k hk => grows_ite (b0 grows_resizeSymbols hk) (hk ())
  refine tail _ fun _ => b0 (grows_onHeap _) fun r => ?_
  cases r with
  | none => exact grows_oom
  | some b =>
    refine b0 grows_get fun _ => b0 (grows_lift _) fun _ => ?_
    exact grows_modify fun _ => rfl

theorem grows_declaration (lx : Lexer) (pc : Nat) : Grows (parseLabelDeclaration lx pc) 0 := by
  unfold parseLabelDeclaration
  refine b0 (grows_lift _) fun a => b0 (grows_lift _) fun b => b0 grows_get fun s => b0 (grows_lift _) fun c => b0 (grows_lift _) fun d => ?_
  refine grows_ite (grows_ite (grows_lift _) (grows_insertSymbol _ _)) (grows_ite (grows_ite (grows_lift _) ?_)
    (grows_ite (grows_ite (grows_lift _) ?_) (grows_lift _)))
  · exact b0 (grows_lift _) fun _ => grows_insertSymbol _ _
  · exact b0 (grows_lift _) fun _ => grows_insertSymbol _ _

theorem grows_createForwardRef (buffer : Str) (instr : Instr) (operand : Option Token) (status : OpStatus) (pc n : Nat) :
    Grows (createForwardRef buffer instr operand status pc n) 0 := by
  unfold createForwardRef
  refine b0 (grows_onHeap _) fun r => ?_
  cases r with
  | none => exact grows_oom
  | some _ =>
    refine b0 (grows_lift _) fun _ => b0 (grows_onHeap _) fun r => ?_
    cases r with
    | none => exact grows_oom
    | some _ =>
      refine b0 (grows_onHeap _) fun r => ?_
      cases r with
      | none => exact grows_oom
      | some _ =>
        refine b0 (grows_onHeap _) fun r => ?_
        cases r with
        | none => exact grows_oom
        | some _ => exact grows_pure _

theorem grows_resizeUnresolved : Grows resizeUnresolved 0 := by
  unfold resizeUnresolved
  refine grows_getBind fun s o => ?_
  cases s.unres.arr with
  | none => exact Nat.le_refl _
  | some a =>
    simp only [bind_apply, onHeap_apply]
    rcases realloc a o s.heap with ⟨r, h⟩
    cases r with
    | err _ => exact Nat.le_refl _
    | ub _ => exact Nat.le_refl _
    | ok r =>
      cases r with
      | none => exact Nat.le_refl _
      | some b =>
        simp only [bind_apply]
        by_cases hi : s.unres.refs.length * 2 > INT_MAX
        · rw [if_pos hi]; exact Nat.le_refl _
        · rw [if_neg hi]; exact Nat.le_refl _

theorem grows_addForwardRef (ref : ForwardRef × RefB) : Grows (addForwardRef ref) 1 := by
  unfold addForwardRef
  refine b0 grows_get fun s0 => ?_
  have tail : ∀ k : Unit → Mem State Unit, (∀ u, Grows (k u) 1) →
      Grows (if s0.unres.curr + 1 = s0.unres.refs.length then resizeUnresolved >>= k else k ()) 1 :=
    fun k hk => grows_ite (b0 grows_resizeUnresolved hk) (hk ())
  refine tail _ fun _ => ?_
  refine grows_getBind fun s o => ?_
  by_cases h : s.unres.curr < s.unres.refs.length
  · simp only [bind_apply, if_pos h]; exact Nat.le_refl _
  · simp only [bind_apply, if_neg h]; exact Nat.le_succ _

theorem grows_bumpLine : Grows bumpLine 0 := by
  unfold bumpLine
  exact b0 grows_get fun _ => b0 (grows_lift _) fun _ => grows_modify fun _ => rfl

theorem grows_saveForwardRef (buffer : Str) (instr : Instr) (operand : Option Token) (status : OpStatus) :
    Grows (saveForwardRef buffer instr operand status) 1 := by
  unfold saveForwardRef
  refine b0 grows_get fun s => b0 (grows_createForwardRef _ _ _ _ _ _) fun r => ?_
  refine (grows_addForwardRef r).bind (m := 0) fun _ => ?_
  exact grows_modify fun _ => rfl

theorem grows_instructionStep (buffer : Str) : Grows (instructionStep buffer) 1 := by
  unfold instructionStep
  refine b0 grows_get fun s => b0 (grows_lift _) fun a => b0 (grows_lift _) fun b => b0 (grows_lift _) fun c => ?_
  refine b0 (grows_modify fun _ => rfl) fun _ => ?_
  have tail : ∀ x : Mem State Unit, Grows x 1 → Grows (x >>= fun _ => do
      let s ← getS
      let (out, written) ←
        if b.1 = .branchOperand ∨ b.1 = .jumpOperand then
          lift (resolveLabelRef s.out s.lexer c.2 b.2 b.1 s.symtab.bare s.pc)
        else pure (generateCode s.out c.2 b.2 s.pc)
      modifyS fun s => { s with out := out }
      bumpLine
      let s ← getS
      lift (if s.pc + written > INT_MAX ∨ s.total + written > INT_MAX then .ub .signedOverflow else .ok ())
      modifyS fun s => { s with pc := s.pc + written, total := s.total + written }) 1 := by
    intro x hx
    refine (hx.bind (m := 0) fun _ => ?_)
    refine b0 grows_get fun s => ?_
    have tail2 : ∀ (p : OutFile × Nat), Grows (do
        modifyS fun s => { s with out := p.1 }
        bumpLine
        let s ← getS
        lift (if s.pc + p.2 > INT_MAX ∨ s.total + p.2 > INT_MAX then .ub .signedOverflow else .ok ())
        modifyS fun s => { s with pc := s.pc + p.2, total := s.total + p.2 }) 0 := by
      intro p
      refine b0 (grows_modify fun _ => rfl) fun _ => b0 grows_bumpLine fun _ => b0 grows_get fun _ => b0 (grows_lift _) fun _ => ?_
      exact grows_modify fun _ => rfl
    exact grows_ite (b0 (grows_lift _) tail2) (tail2 _)
  obtain ⟨status, operand⟩ := b
  obtain ⟨res, instr⟩ := c
  cases res with
  | forwardReference => exact tail _ (grows_saveForwardRef _ _ _ _)
  | flag => exact tail (pure ()) ((grows_pure _).mono (by omega))

theorem grows_declareStep (first : Token) : Grows (declareStep first) 0 := by
  unfold declareStep
  refine b0 grows_get fun s => grows_ite (grows_declaration _ _) (grows_ite (grows_modify fun _ => rfl) (grows_pure _))

theorem grows_lineStep (raw : List Byte) : Grows (lineStep raw) 1 := by
  unfold lineStep
  refine b0 grows_get fun s => b0 (grows_lift _) fun a => b0 (grows_lift _) fun b => b0 (grows_modify fun _ => rfl) fun _ =>
    b0 (grows_lift _) fun f => b0 (grows_declareStep f) fun _ => ?_
  refine grows_ite ((grows_pure _).mono (by omega)) (grows_ite ?_ ?_)
  · exact (b0 grows_bumpLine fun _ => grows_pure _).mono (by omega)
  · exact (grows_instructionStep _).bind fun _ => grows_pure _

theorem grows_mainLoop : ∀ (rows : List (List Byte)), Grows (mainLoop rows) rows.length
  | [] => grows_pure _
  | raw :: rest => by
    unfold mainLoop
    refine ((grows_lineStep raw).bind (m := rest.length) fun b => ?_).mono (by simp; omega)
    cases b with
    | true => exact grows_mainLoop rest
    | false => exact (grows_pure _).mono (by omega)

theorem grows_resolveAll : ∀ (n i : Nat), Grows (resolveAll n i) 0
  | 0, _ => grows_pure _
  | n + 1, i => by
    unfold resolveAll
    refine b0 grows_get fun s => ?_
    cases s.unres.bare.refs[i]? with
    | none => exact grows_lift _
    | some r =>
      cases r with
      | none => exact grows_lift _
      | some ref =>
        refine b0 (grows_lift _) fun d => grows_ite (grows_lift _) ?_
        exact b0 (grows_lift _) fun _ => b0 (grows_modify fun _ => rfl) fun _ => grows_resolveAll n (i + 1)

theorem grows_assembleBytes (src : List Byte) : Grows (assembleBytes src) (chunks src).length := by
  unfold assembleBytes
  exact (grows_mainLoop _).bind (m := 0) fun _ => b0 grows_get fun _ => grows_resolveAll _ _

end Gaia.Memory

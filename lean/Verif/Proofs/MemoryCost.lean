import Verif.Proofs.MemoryTop

/-! Memory: how many requests are made. -/
namespace Gaia.Memory
open Gaia

/-- Whatever is granted, the step makes at most `k` requests; `p` says where the state keeps the heap. -/
def Asks {σ α : Type} (p : σ → Heap) (x : Mem σ α) (k : Nat) : Prop := ∀ o s, (p (x o s).2).asked ≤ (p s).asked + k

theorem Asks.bind {σ α β : Type} {p : σ → Heap} {x : Mem σ α} {f : α → Mem σ β} {k m : Nat} (hx : Asks p x k) (hf : ∀ a, Asks p (f a) m) :
    Asks p (x >>= f) (k + m) := by
  intro o s
  have h1 := hx o s
  rw [bind_apply]
  rcases hr : x o s with ⟨r, s'⟩
  rw [hr] at h1
  cases r with
  | ok a => have := hf a o s'; simp only at h1 ⊢; omega
  | err e => simp only at h1 ⊢; omega
  | ub u => simp only at h1 ⊢; omega

theorem Asks.mono {σ α : Type} {p : σ → Heap} {x : Mem σ α} {k m : Nat} (hx : Asks p x k) (h : k ≤ m) : Asks p x m :=
  fun o s => Nat.le_trans (hx o s) (by omega)

theorem asks_pure {σ α : Type} {p : σ → Heap} (a : α) (k : Nat := 0) : Asks p (pure a : Mem σ α) k := fun _ _ => Nat.le_add_right _ _
theorem asks_lift {σ α : Type} {p : σ → Heap} (r : Res α) (k : Nat := 0) : Asks p (lift r : Mem σ α) k := fun _ _ => Nat.le_add_right _ _
theorem asks_get (k : Nat := 0) : Asks State.heap (getS : Mem State State) k := fun _ _ => Nat.le_add_right _ _
theorem asks_oom {σ α : Type} {p : σ → Heap} (k : Nat := 0) : Asks p (outOfMemory : Mem σ α) k := fun _ _ => Nat.le_add_right _ _
theorem asks_modify {f : State → State} (h : ∀ s, (f s).heap = s.heap) : Asks State.heap (modifyS f) 0 := fun _ s => by
  show (f s).heap.asked ≤ _
  rw [h]; exact Nat.le_refl _
theorem asks_onHeap {α : Type} {x : Mem Heap α} {k : Nat} (h : Asks id x k) : Asks State.heap (onHeap x) k := fun o s => h o s.heap

theorem asks_ite {σ α : Type} {p : σ → Heap} {c : Prop} [Decidable c] {x y : Mem σ α} {k : Nat} (hx : Asks p x k) (hy : Asks p y k) :
    Asks p (if c then x else y) k := by split <;> assumption

theorem a0 {σ α β : Type} {p : σ → Heap} {x : Mem σ α} {f : α → Mem σ β} {m : Nat} (hx : Asks p x 0) (hf : ∀ a, Asks p (f a) m) :
    Asks p (x >>= f) m := (hx.bind hf).mono (by omega)

theorem a1 {σ α β : Type} {p : σ → Heap} {x : Mem σ α} {f : α → Mem σ β} {m : Nat} (hx : Asks p x 1) (hf : ∀ a, Asks p (f a) m) :
    Asks p (x >>= f) (m + 1) := (hx.bind hf).mono (by omega)

theorem asks_malloc : Asks id malloc 1 := fun o h => by unfold malloc; split <;> exact Nat.le_refl _
theorem asks_free (p : Nat) : Asks id (free p) 0 := fun o h => by unfold free; split <;> exact Nat.le_refl _
theorem asks_realloc (p : Nat) : Asks id (realloc p) 1 := fun o h => by
  unfold realloc
  split
  · exact Nat.le_succ _
  · split <;> exact Nat.le_refl _

theorem asks_initToken : Asks id initToken 2 := by
  unfold initToken
  refine a1 asks_malloc fun r => ?_
  cases r with
  | none => exact asks_pure _ _
  | some _ =>
    refine a1 (m := 0) asks_malloc fun r => ?_
    cases r <;> exact asks_pure _ _

theorem asks_initTokens : ∀ n, Asks id (initTokens n) (2 * n)
  | 0 => asks_pure _
  | n + 1 => by
    unfold initTokens
    refine (asks_initToken.bind (m := 2 * n) fun r => ?_).mono (by omega)
    cases r with
    | none => exact asks_pure _ _
    | some _ =>
      refine ((asks_initTokens n).bind (m := 0) fun r => ?_)
      cases r <;> exact asks_pure _ _

theorem asks_initLexer : Asks id initLexer 18 := by
  unfold initLexer
  refine a1 (m := 17) asks_malloc fun r => ?_
  cases r with
  | none => exact asks_pure _ _
  | some _ =>
    refine a1 (m := 16) asks_malloc fun r => ?_
    cases r with
    | none => exact asks_pure _ _
    | some _ =>
      refine ((asks_initTokens MAX_TOKENS).bind (m := 0) fun r => ?_).mono (by decide)
      cases r <;> exact asks_pure _ _

theorem asks_initSymbolTable : Asks id initSymbolTable 2 := by
  unfold initSymbolTable
  refine a1 asks_malloc fun r => ?_
  cases r with
  | none => exact asks_pure _ _
  | some _ =>
    refine a1 (m := 0) asks_malloc fun r => ?_
    cases r <;> exact asks_pure _ _

theorem asks_initUnresolved : Asks id initUnresolved 2 := by
  unfold initUnresolved
  refine a1 asks_malloc fun r => ?_
  cases r with
  | none => exact asks_pure _ _
  | some _ =>
    refine a1 (m := 0) asks_malloc fun r => ?_
    cases r <;> exact asks_pure _ _

theorem asks_initSymbol : Asks id initSymbol 2 := by
  unfold initSymbol
  refine a1 asks_malloc fun r => ?_
  cases r with
  | none => exact asks_pure _ _
  | some _ =>
    refine a1 (m := 0) asks_malloc fun r => ?_
    cases r <;> exact asks_pure _ _

theorem asks_initAll : Asks id initAll 25 := by
  unfold initAll
  refine (asks_initLexer.bind (m := 7) fun _ => ?_)
  refine (asks_initToken.bind (m := 5) fun _ => ?_)
  refine (a1 (m := 4) asks_malloc fun _ => ?_)
  refine (asks_initSymbolTable.bind (m := 2) fun _ => ?_)
  refine (asks_initUnresolved.bind (m := 0) fun _ => ?_)
  exact asks_pure _

theorem asks_resizeSymbols : Asks State.heap resizeSymbols 1 := by
  unfold resizeSymbols
  refine a0 asks_get fun s => a0 (asks_lift _) fun n => a1 (m := 0) (asks_onHeap asks_malloc) fun r => ?_
  cases r with
  | none => exact asks_oom
  | some a => exact a0 (asks_lift _) fun _ => a0 (asks_onHeap (asks_free _)) fun _ => asks_modify fun _ => rfl

theorem asks_insertSymbol (l : Str) (v : Int) : Asks State.heap (insertSymbol l v) 3 := by
  unfold insertSymbol
  refine a0 asks_get fun s => a0 (asks_lift _) fun _ => ?_
  have tail : ∀ k : Unit → Mem State Unit, (∀ u, Asks State.heap (k u) 2) →
      Asks State.heap (if overLoaded s.symtab.bare then resizeSymbols >>= k else k ()) 3 :=
    fun k hk => asks_ite (a1 asks_resizeSymbols hk) ((hk ()).mono (by omega))
  refine tail _ fun _ => (asks_onHeap asks_initSymbol).bind (m := 0) fun r => ?_
  cases r with
  | none => exact asks_oom
  | some b =>
    refine a0 asks_get fun _ => a0 (asks_lift _) fun _ => ?_
    exact asks_modify fun _ => rfl

theorem asks_declaration (lx : Lexer) (pc : Nat) : Asks State.heap (parseLabelDeclaration lx pc) 3 := by
  unfold parseLabelDeclaration
  refine a0 (asks_lift _) fun a => a0 (asks_lift _) fun b => a0 asks_get fun s => a0 (asks_lift _) fun c => a0 (asks_lift _) fun d => ?_
  refine asks_ite (asks_ite (asks_lift _ _) (asks_insertSymbol _ _)) (asks_ite (asks_ite (asks_lift _ _) ?_)
    (asks_ite (asks_ite (asks_lift _ _) ?_) (asks_lift _ _)))
  · exact a0 (asks_lift _) fun _ => asks_insertSymbol _ _
  · exact a0 (asks_lift _) fun _ => asks_insertSymbol _ _

theorem asks_createForwardRef (buffer : Str) (instr : Instr) (operand : Option Token) (status : OpStatus) (pc n : Nat) :
    Asks State.heap (createForwardRef buffer instr operand status pc n) 4 := by
  unfold createForwardRef
  refine a1 (asks_onHeap asks_malloc) fun r => ?_
  cases r with
  | none => exact asks_oom _
  | some _ =>
    refine a0 (asks_lift _) fun _ => a1 (asks_onHeap asks_malloc) fun r => ?_
    cases r with
    | none => exact asks_oom _
    | some _ =>
      refine a1 (asks_onHeap asks_malloc) fun r => ?_
      cases r with
      | none => exact asks_oom _
      | some _ =>
        refine a1 (m := 0) (asks_onHeap asks_malloc) fun r => ?_
        cases r with
        | none => exact asks_oom
        | some _ => exact asks_pure _

theorem asks_resizeUnresolved : Asks State.heap resizeUnresolved 1 := by
  unfold resizeUnresolved
  refine a0 asks_get fun s => ?_
  dsimp only
  cases s.unres.arr with
  | none => exact asks_lift _ _
  | some a =>
    refine a1 (m := 0) (asks_onHeap (asks_realloc a)) fun r => ?_
    cases r with
    | none => exact a0 (asks_modify fun _ => rfl) fun _ => asks_oom
    | some b => exact a0 (asks_lift _) fun _ => asks_modify fun _ => rfl

theorem asks_addForwardRef (ref : ForwardRef × RefB) : Asks State.heap (addForwardRef ref) 1 := by
  unfold addForwardRef
  refine a0 asks_get fun s0 => ?_
  have tail : ∀ k : Unit → Mem State Unit, (∀ u, Asks State.heap (k u) 0) →
      Asks State.heap (if s0.unres.curr + 1 = s0.unres.refs.length then resizeUnresolved >>= k else k ()) 1 :=
    fun k hk => asks_ite (a1 asks_resizeUnresolved hk) ((hk ()).mono (by omega))
  refine tail _ fun _ => ?_
  exact a0 asks_get fun s => a0 (asks_lift _) fun _ => asks_modify fun _ => rfl

theorem asks_bumpLine : Asks State.heap bumpLine 0 := by
  unfold bumpLine
  exact a0 asks_get fun _ => a0 (asks_lift _) fun _ => asks_modify fun _ => rfl

theorem asks_saveForwardRef (buffer : Str) (instr : Instr) (operand : Option Token) (status : OpStatus) :
    Asks State.heap (saveForwardRef buffer instr operand status) 5 := by
  unfold saveForwardRef
  refine a0 asks_get fun s => (asks_createForwardRef _ _ _ _ _ _).bind (m := 1) fun r => ?_
  refine (asks_addForwardRef r).bind (m := 0) fun _ => ?_
  exact asks_modify fun _ => rfl

theorem asks_instructionStep (buffer : Str) : Asks State.heap (instructionStep buffer) 5 := by
  unfold instructionStep
  refine a0 asks_get fun s => a0 (asks_lift _) fun a => a0 (asks_lift _) fun b => a0 (asks_lift _) fun c => ?_
  refine a0 (asks_modify fun _ => rfl) fun _ => ?_
  have tail : ∀ x : Mem State Unit, Asks State.heap x 5 → Asks State.heap (x >>= fun _ => do
      let s ← getS
      let (out, written) ←
        if b.1 = .branchOperand ∨ b.1 = .jumpOperand then
          lift (resolveLabelRef s.out s.lexer c.2 b.2 b.1 s.symtab.bare s.pc)
        else pure (generateCode s.out c.2 b.2 s.pc)
      modifyS fun s => { s with out := out }
      bumpLine
      let s ← getS
      lift (if s.pc + written > INT_MAX ∨ s.total + written > INT_MAX then .ub .signedOverflow else .ok ())
      modifyS fun s => { s with pc := s.pc + written, total := s.total + written }) 5 := by
    intro x hx
    refine (hx.bind (m := 0) fun _ => ?_)
    refine a0 asks_get fun s => ?_
    have tail2 : ∀ (p : OutFile × Nat), Asks State.heap (do
        modifyS fun s => { s with out := p.1 }
        bumpLine
        let s ← getS
        lift (if s.pc + p.2 > INT_MAX ∨ s.total + p.2 > INT_MAX then .ub .signedOverflow else .ok ())
        modifyS fun s => { s with pc := s.pc + p.2, total := s.total + p.2 }) 0 := by
      intro p
      refine a0 (asks_modify fun _ => rfl) fun _ => a0 asks_bumpLine fun _ => a0 asks_get fun _ => a0 (asks_lift _) fun _ => ?_
      exact asks_modify fun _ => rfl
    exact asks_ite (a0 (asks_lift _) tail2) (tail2 _)
  obtain ⟨status, operand⟩ := b
  obtain ⟨res, instr⟩ := c
  cases res with
  | forwardReference => exact tail _ (asks_saveForwardRef _ _ _ _)
  | flag => exact tail (pure ()) ((asks_pure _).mono (by omega))

theorem asks_declareStep (first : Token) : Asks State.heap (declareStep first) 3 := by
  unfold declareStep
  refine a0 asks_get fun s => asks_ite (asks_declaration _ _) (asks_ite ((asks_modify fun _ => rfl).mono (by omega)) (asks_pure _ _))

theorem asks_lineStep (raw : List Byte) : Asks State.heap (lineStep raw) 8 := by
  unfold lineStep
  refine a0 asks_get fun s => a0 (asks_lift _) fun a => a0 (asks_lift _) fun b => a0 (asks_modify fun _ => rfl) fun _ =>
    a0 (asks_lift _) fun f => (asks_declareStep f).bind (m := 5) fun _ => ?_
  refine asks_ite ((asks_pure _).mono (by omega)) (asks_ite ?_ ?_)
  · exact (a0 asks_bumpLine fun _ => asks_pure _).mono (by omega)
  · exact (asks_instructionStep _).bind fun _ => asks_pure _

theorem asks_mainLoop : ∀ (rows : List (List Byte)), Asks State.heap (mainLoop rows) (8 * rows.length)
  | [] => asks_pure _
  | raw :: rest => by
    unfold mainLoop
    refine ((asks_lineStep raw).bind (m := 8 * rest.length) fun b => ?_).mono (by simp; omega)
    cases b with
    | true => exact asks_mainLoop rest
    | false => exact (asks_pure _).mono (by omega)

theorem asks_resolveAll : ∀ (n i : Nat), Asks State.heap (resolveAll n i) 0
  | 0, _ => asks_pure _
  | n + 1, i => by
    unfold resolveAll
    refine a0 asks_get fun s => ?_
    cases s.unres.bare.refs[i]? with
    | none => exact asks_lift _
    | some r =>
      cases r with
      | none => exact asks_lift _
      | some ref =>
        refine a0 (asks_lift _) fun d => asks_ite (asks_lift _) ?_
        exact a0 (asks_lift _) fun _ => a0 (asks_modify fun _ => rfl) fun _ => asks_resolveAll n (i + 1)

theorem asks_assembleBytes (src : List Byte) : Asks State.heap (assembleBytes src) (8 * (chunks src).length) := by
  unfold assembleBytes
  exact (asks_mainLoop _).bind (m := 0) fun _ => a0 asks_get fun _ => asks_resolveAll _ _



theorem asks_freeList : ∀ l, Asks id (freeList l) 0
  | [] => asks_pure _
  | _ :: l => a0 (asks_free _) fun _ => asks_freeList l

theorem asks_fclose (n : Nat) : Asks id (fclose n) 0 := fun o h => by unfold fclose; split <;> exact Nat.le_refl _

theorem asks_ifHeld {α : Type} (p : Option α) {f : α → Mem Heap Unit} (h : ∀ a, Asks id (f a) 0) : Asks id (ifHeld p f) 0 := by
  cases p with
  | none => exact asks_pure _
  | some a => exact h a

theorem asks_destroyRefs : ∀ l, Asks id (destroyRefs l) 0
  | [] => asks_lift _
  | none :: _ => asks_pure _
  | some (_, r) :: rest => by
    unfold destroyRefs
    rw [destroyForwardRef_eq]
    exact a0 (asks_freeList _) fun _ => asks_destroyRefs rest

theorem asks_destroyUnresolved (u : UnresB) : Asks id (destroyUnresolved u) 0 := by
  unfold destroyUnresolved
  cases u.arr with
  | none => exact asks_pure _
  | some a => exact a0 (asks_destroyRefs _) fun _ => a0 (asks_free _) fun _ => asks_free _

theorem asks_destroyLexer (l : LexerB) : Asks id (destroyLexer l) 0 := by rw [destroyLexer_eq]; exact asks_freeList _
theorem asks_destroyToken (t : TokenB) : Asks id (destroyToken t) 0 := by rw [destroyToken_eq]; exact asks_freeList _
theorem asks_destroySymbolTable (t : SymTabB) : Asks id (destroySymbolTable t) 0 := by rw [destroySymbolTable_eq]; exact asks_freeList _

theorem asks_abortGaia (h : Held) : Asks id (abortGaia h) 0 := by
  unfold abortGaia
  exact a0 (asks_ifHeld _ asks_fclose) fun _ => a0 (asks_ifHeld _ asks_fclose) fun _ => a0 (asks_ifHeld _ asks_destroyLexer) fun _ =>
    a0 (asks_ifHeld _ asks_destroyToken) fun _ => a0 (asks_ifHeld _ asks_free) fun _ => a0 (asks_ifHeld _ asks_destroySymbolTable) fun _ =>
    asks_ifHeld _ asks_destroyUnresolved

theorem asks_cleanUp (s : State) : Asks id (cleanUp s) 0 := by
  unfold cleanUp
  exact a0 (asks_fclose _) fun _ => a0 (asks_fclose _) fun _ => a0 (asks_destroyLexer _) fun _ => a0 (asks_destroyToken _) fun _ =>
    a0 (asks_free _) fun _ => a0 (asks_destroySymbolTable _) fun _ => asks_destroyUnresolved _

theorem leave_asked {o : Oracle} {h h' : Heap} {c : Mem Heap Unit} {e e' : Exit} (hc : Asks id c 0) (he : leave o h c e = .exited e' h') :
    h'.asked ≤ h.asked := by
  have := hc o h
  unfold leave at he
  rcases hr : c o h with ⟨r, h2⟩
  rw [hr] at this he
  cases r with
  | ok _ => cases he; exact this
  | err _ => cases he
  | ub _ => cases he

theorem refuse_asked {o : Oracle} {h h' : Heap} {held : Held} {er : Err} {n : Str} {w : World} {e' : Exit}
    (he : refuse o h held er n w = .exited e' h') : h'.asked ≤ h.asked := by
  unfold refuse at he
  cases hp : printError none er none n 0 with
  | ok t => rw [hp] at he; exact leave_asked (asks_abortGaia _) he
  | err _ => rw [hp] at he; cases he
  | ub _ => rw [hp] at he; cases he

theorem assemble_asked {o : Oracle} {s : State} {outName : Str} {src : List Byte} {w : World} {e : Exit} {h : Heap}
    (he : assemble o s outName src w = .exited e h) : h.asked ≤ s.heap.asked + 8 * (chunks src).length := by
  have := asks_assembleBytes src o s
  unfold assemble at he
  rcases hr : assembleBytes src o s with ⟨r, s'⟩
  rw [hr] at this he
  cases r with
  | ok _ => exact Nat.le_trans (leave_asked (asks_cleanUp _) he) this
  | err _ => exact Nat.le_trans (leave_asked (asks_abortGaia _) he) this
  | ub _ => cases he

end Gaia.Memory

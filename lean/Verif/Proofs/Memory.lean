import Verif.Model.Memory
import Mathlib.Data.List.Perm.Basic

/-! Memory: the blocks a state owns, and what each step does to them. -/
namespace Gaia.Memory
open Gaia

/-! ### The monad -/

@[simp] theorem pure_apply {σ α : Type} (a : α) (o : Oracle) (s : σ) : (pure a : Mem σ α) o s = (.ok a, s) := rfl

theorem bind_apply {σ α β : Type} (x : Mem σ α) (f : α → Mem σ β) (o : Oracle) (s : σ) :
    (x >>= f) o s = match x o s with
      | (.ok a, s') => f a o s'
      | (.err e, s') => (.err e, s')
      | (.ub u, s') => (.ub u, s') := rfl

theorem bind_ok {σ α β : Type} {x : Mem σ α} {f : α → Mem σ β} {o : Oracle} {s s' : σ} {a : α} (h : x o s = (.ok a, s')) :
    (x >>= f) o s = f a o s' := by rw [bind_apply, h]

theorem bind_err {σ α β : Type} {x : Mem σ α} {f : α → Mem σ β} {o : Oracle} {s s' : σ} {e : Fail} (h : x o s = (.err e, s')) :
    (x >>= f) o s = (.err e, s') := by rw [bind_apply, h]

@[simp] theorem lift_ok {σ α : Type} (a : α) (o : Oracle) (s : σ) : (lift (.ok a) : Mem σ α) o s = (.ok a, s) := rfl
@[simp] theorem lift_err {σ α : Type} (e : Fail) (o : Oracle) (s : σ) : (lift (.err e) : Mem σ α) o s = (.err e, s) := rfl
@[simp] theorem lift_ub {σ α : Type} (u : UB) (o : Oracle) (s : σ) : (lift (.ub u) : Mem σ α) o s = (.ub (.other u), s) := rfl
@[simp] theorem getS_apply {σ : Type} (o : Oracle) (s : σ) : (getS : Mem σ σ) o s = (.ok s, s) := rfl
@[simp] theorem modifyS_apply {σ : Type} (f : σ → σ) (o : Oracle) (s : σ) : modifyS f o s = (.ok (), f s) := rfl
@[simp] theorem outOfMemory_apply {σ α : Type} (o : Oracle) (s : σ) :
    (outOfMemory : Mem σ α) o s = (.err ⟨.memoryAllocationFail, []⟩, s) := rfl
@[simp] theorem onHeap_apply {α : Type} (x : Mem Heap α) (o : Oracle) (s : State) :
    onHeap x o s = ((x o s.heap).1, { s with heap := (x o s.heap).2 }) := rfl

/-! ### Blocks -/

def TokenB.blocks (t : TokenB) : List Nat := [t.str, t.blk]
def LexerB.blocks (l : LexerB) : List Nat := l.toks.flatMap TokenB.blocks ++ [l.arr, l.blk]
def SymbolB.blocks (b : SymbolB) : List Nat := [b.label, b.blk]
def RefB.blocks (r : RefB) : List Nat := [r.label, r.line, r.instr, r.blk]

/-- The blocks of what an array points to. -/
def slotsBlocks {α β : Type} (f : β → List Nat) (slots : List (Option (α × β))) : List Nat :=
  slots.flatMap fun x => match x with
    | none => []
    | some (_, b) => f b

def SymTabB.blocks (t : SymTabB) : List Nat := slotsBlocks SymbolB.blocks t.slots ++ [t.arr, t.blk]
def UnresB.blocks (u : UnresB) : List Nat :=
  match u.arr with
  | none => []
  | some a => slotsBlocks RefB.blocks u.refs ++ [a, u.blk]

/-- All blocks the clean-up frees. -/
def State.blocks (s : State) : List Nat :=
  s.lexerB.blocks ++ (s.tkB.blocks ++ (s.instrB :: (s.symtab.blocks ++ s.unres.blocks)))

/-- The blocks in use are numbered below `next`, each once. -/
def Heap.Fresh (h : Heap) : Prop := h.live.Nodup ∧ ∀ b ∈ h.live, b < h.next

/-- The references are at the front of the array, `curr` is their number, and the array is not full. -/
def UnresB.Shaped (u : UnresB) : Prop :=
  ∃ (rs : List (ForwardRef × RefB)) (n : Nat), u.refs = rs.map some ++ List.replicate (n + 1) none ∧ u.curr = rs.length

/-- The blocks in use are those of the state and the `lost` ones; the two files are open. -/
structure Owns (s : State) (lost : List Nat) : Prop where
  fresh : s.heap.Fresh
  perm : s.heap.live.Perm (s.blocks ++ lost)
  shaped : s.unres.Shaped
  files : s.heap.files = [1, 0]

/-- Nothing is lost, and the array of references exists. -/
structure Tidy (s : State) : Prop where
  owns : Owns s []
  arr : s.unres.arr.isSome = true

/-- Only granted requests between the two. -/
def Granted (o : Oracle) (h h' : Heap) : Prop := h.asked ≤ h'.asked ∧ ∀ i, h.asked ≤ i → i < h'.asked → o i = true

/-- A request between the two was refused. -/
def Refused (o : Oracle) (h h' : Heap) : Prop := h.asked ≤ h'.asked ∧ ∃ i, h.asked ≤ i ∧ i < h'.asked ∧ o i = false

theorem Granted.refl (o : Oracle) (h : Heap) : Granted o h h := ⟨le_refl _, fun _ _ _ => by omega⟩

theorem Granted.trans {o : Oracle} {a b c : Heap} (h1 : Granted o a b) (h2 : Granted o b c) : Granted o a c :=
  ⟨le_trans h1.1 h2.1, fun i hi hi' => if h : i < b.asked then h1.2 i hi h else h2.2 i (by omega) hi'⟩

theorem Granted.refused {o : Oracle} {a b c : Heap} (h1 : Granted o a b) (h2 : Refused o b c) : Refused o a c := by
  obtain ⟨h3, i, h4, h5, h6⟩ := h2
  exact ⟨le_trans h1.1 h3, i, le_trans h1.1 h4, h5, h6⟩

theorem Granted.of_asked {o : Oracle} {a b c : Heap} (h1 : Granted o a b) (h : c.asked = b.asked) : Granted o a c := by
  unfold Granted; rw [h]; exact h1

/-! ### Allocation -/

/-- The heap after a granted request. -/
def Heap.more (h : Heap) : Heap := { h with asked := h.asked + 1, next := h.next + 1, live := h.next :: h.live }
/-- The heap after a refused request. -/
def Heap.ask (h : Heap) : Heap := { h with asked := h.asked + 1 }

theorem malloc_granted {o : Oracle} {h : Heap} (ho : o h.asked = true) : malloc o h = (.ok (some h.next), h.more) := by
  unfold malloc; rw [if_pos ho]; rfl

theorem malloc_refused {o : Oracle} {h : Heap} (ho : o h.asked = false) : malloc o h = (.ok none, h.ask) := by
  unfold malloc; rw [if_neg (by rw [ho]; decide)]; rfl

theorem granted_more {o : Oracle} {h : Heap} (ho : o h.asked = true) : Granted o h h.more :=
  ⟨Nat.le_succ _, fun i h1 h2 => by
    have : i = h.asked := by simp only [Heap.more] at h2; omega
    rw [this]; exact ho⟩

theorem refused_ask {o : Oracle} {h : Heap} (ho : o h.asked = false) : Refused o h h.ask :=
  ⟨Nat.le_succ _, h.asked, le_refl _, Nat.lt_succ_self _, ho⟩

theorem Heap.Fresh.more {h : Heap} (hf : h.Fresh) : h.more.Fresh :=
  ⟨List.nodup_cons.2 ⟨fun hm => absurd (hf.2 _ hm) (Nat.lt_irrefl _), hf.1⟩, fun b hb => by
    rcases List.mem_cons.1 hb with rfl | hb
    · exact Nat.lt_succ_self _
    · exact Nat.lt_succ_of_lt (hf.2 b hb)⟩

theorem Heap.Fresh.erase {h : Heap} (hf : h.Fresh) (p : Nat) : Heap.Fresh { h with live := h.live.erase p } :=
  ⟨hf.1.erase p, fun b hb => hf.2 b (List.mem_of_mem_erase hb)⟩

/-- A granted block does not belong to the state yet. -/
theorem Owns.more {s : State} {lost : List Nat} (h : Owns s lost) : Owns { s with heap := s.heap.more } (s.heap.next :: lost) :=
  ⟨h.fresh.more, (h.perm.cons _).trans List.perm_middle.symm, h.shaped, h.files⟩

theorem Owns.ask {s : State} {lost : List Nat} (h : Owns s lost) : Owns { s with heap := s.heap.ask } lost :=
  ⟨h.fresh, h.perm, h.shaped, h.files⟩

/-! ### Freeing -/

/-- Free all these blocks. -/
def freeList : List Nat → Mem Heap Unit
  | [] => pure ()
  | p :: ps => do
    free p
    freeList ps

theorem mem_assoc {σ α β γ : Type} (x : Mem σ α) (f : α → Mem σ β) (g : β → Mem σ γ) :
    (x >>= f) >>= g = x >>= fun a => f a >>= g := by
  funext o s
  simp only [bind_apply]
  rcases x o s with ⟨r, s'⟩
  cases r <;> rfl

theorem mem_pure_bind {σ α β : Type} (a : α) (f : α → Mem σ β) : (pure a >>= f) = f a := rfl

theorem mem_bind_pure {σ : Type} (x : Mem σ Unit) : (x >>= fun _ => pure ()) = x := by
  funext o s
  simp only [bind_apply]
  rcases x o s with ⟨r, s'⟩
  cases r <;> rfl

theorem freeList_append (a b : List Nat) : freeList (a ++ b) = freeList a >>= fun _ => freeList b := by
  induction a with
  | nil => rfl
  | cons p a ih =>
    show (free p >>= fun _ => freeList (a ++ b)) = (free p >>= fun _ => freeList a) >>= fun _ => freeList b
    rw [mem_assoc, ih]

theorem freeList_single (p : Nat) : freeList [p] = free p := mem_bind_pure _

theorem freeList_ok (o : Oracle) : ∀ (ps rest : List Nat) (h : Heap), h.live.Perm (ps ++ rest) → ∃ h', freeList ps o h = (.ok (), h') ∧
    h'.live.Perm rest ∧ h'.files = h.files ∧ h'.asked = h.asked
  | [], _, h, hp => ⟨h, rfl, hp, rfl, rfl⟩
  | p :: ps, rest, h, hp => by
    have hm : p ∈ h.live := hp.mem_iff.2 (by simp)
    have h1 : free p o h = (.ok (), { h with live := h.live.erase p }) := by unfold free; rw [if_pos hm]
    have h2 : (h.live.erase p).Perm (ps ++ rest) := by
      have := hp.erase p
      rwa [List.cons_append, List.erase_cons_head] at this
    obtain ⟨h', h3, h4, h5, h6⟩ := freeList_ok o ps rest { h with live := h.live.erase p } h2
    exact ⟨h', by rw [freeList, bind_ok h1, h3], h4, h5, h6⟩

theorem destroyToken_eq (t : TokenB) : destroyToken t = freeList t.blocks := by
  unfold destroyToken TokenB.blocks
  rw [freeList, freeList_single]

theorem destroyTokens_eq (ts : List TokenB) : destroyTokens ts = freeList (ts.flatMap TokenB.blocks) := by
  induction ts with
  | nil => rfl
  | cons t ts ih => rw [List.flatMap_cons, freeList_append, ← destroyToken_eq, ← ih]; rfl

theorem destroyLexer_eq (l : LexerB) : destroyLexer l = freeList l.blocks := by
  unfold destroyLexer LexerB.blocks
  rw [freeList_append, ← destroyTokens_eq, freeList, freeList_single]

theorem destroySlots_eq (l : List (Option (Symbol × SymbolB))) : destroySlots l = freeList (slotsBlocks SymbolB.blocks l) := by
  induction l with
  | nil => rfl
  | cons x l ih =>
    cases x with
    | none => exact ih
    | some y =>
      show _ = freeList (y.2.blocks ++ slotsBlocks SymbolB.blocks l)
      rw [freeList_append, ← ih]
      show _ = (free y.2.label >>= fun _ => (free y.2.blk >>= fun _ => pure ())) >>= _
      rw [mem_bind_pure, mem_assoc]
      rfl

theorem destroySymbolTable_eq (t : SymTabB) : destroySymbolTable t = freeList t.blocks := by
  unfold destroySymbolTable SymTabB.blocks
  rw [freeList_append, ← destroySlots_eq, freeList, freeList_single]

theorem destroyForwardRef_eq (r : RefB) : destroyForwardRef r = freeList r.blocks := by
  unfold destroyForwardRef RefB.blocks destroyInstruction
  rw [freeList, freeList, freeList, freeList_single]

theorem slotsBlocks_append {α β : Type} (f : β → List Nat) (a b : List (Option (α × β))) :
    slotsBlocks f (a ++ b) = slotsBlocks f a ++ slotsBlocks f b := List.flatMap_append

theorem slotsBlocks_none {α β : Type} (f : β → List Nat) (n : Nat) : slotsBlocks f (List.replicate n (none : Option (α × β))) = [] := by
  induction n with
  | zero => rfl
  | succ n ih => rw [List.replicate_succ]; exact ih

theorem destroyRefs_eq (rs : List (ForwardRef × RefB)) (n : Nat) : destroyRefs (rs.map some ++ List.replicate (n + 1) none) =
    freeList (slotsBlocks RefB.blocks (rs.map some ++ List.replicate (n + 1) none)) := by
  rw [slotsBlocks_append, slotsBlocks_none, List.append_nil]
  induction rs with
  | nil => rfl
  | cons r rs ih =>
    show (destroyForwardRef r.2 >>= fun _ => destroyRefs (rs.map some ++ List.replicate (n + 1) none)) =
      freeList (r.2.blocks ++ slotsBlocks RefB.blocks (rs.map some))
    rw [freeList_append, ih, destroyForwardRef_eq]

theorem destroyUnresolved_eq {u : UnresB} (h : u.Shaped) : destroyUnresolved u = freeList u.blocks := by
  unfold destroyUnresolved UnresB.blocks
  cases u.arr with
  | none => rfl
  | some a =>
    obtain ⟨rs, n, h1, _⟩ := h
    simp only
    rw [freeList_append, h1, ← destroyRefs_eq, freeList, freeList_single]

/-- The five structures of a state. -/
theorem destroy_eq (s : State) (h : s.unres.Shaped) :
    (do destroyLexer s.lexerB
        destroyToken s.tkB
        destroyInstruction s.instrB
        destroySymbolTable s.symtab
        destroyUnresolved s.unres) = freeList s.blocks := by
  unfold State.blocks
  rw [freeList_append, freeList_append, freeList, freeList_append, destroyLexer_eq, destroyToken_eq, destroySymbolTable_eq,
    destroyUnresolved_eq h]
  rfl

/-- The clean-up after success, and the one after an error, free the blocks of the state and close both files. -/
theorem cleanUp_ok {s : State} {lost : List Nat} (h : Owns s lost) (o : Oracle) : ∃ h', cleanUp s o s.heap = (.ok (), h') ∧
    h'.live.Perm lost ∧ h'.files = [] ∧ h'.asked = s.heap.asked := by
  have e : cleanUp s = fclose 0 >>= fun _ => fclose 1 >>= fun _ => freeList s.blocks := by
    unfold cleanUp
    rw [← destroy_eq s h.shaped]
  rw [e]
  have h1 : fclose 0 o s.heap = (.ok (), { s.heap with files := [1] }) := by unfold fclose; rw [h.files]; rfl
  have h2 : fclose 1 o { s.heap with files := [1] } = (.ok (), { s.heap with files := [] }) := rfl
  rw [bind_ok h1, bind_ok h2]
  obtain ⟨h', h3, h4, h5, h6⟩ := freeList_ok o s.blocks lost { s.heap with files := [] } h.perm
  exact ⟨h', h3, h4, h5, h6⟩

theorem abort_eq_cleanUp (s : State) :
    abortGaia ⟨some 0, some 1, some s.lexerB, some s.tkB, some s.instrB, some s.symtab, some s.unres⟩ = cleanUp s := rfl

end Gaia.Memory

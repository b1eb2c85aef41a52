import Verif.Proofs.Memory

/-! Memory: each step does what the model without memory does, or a request for memory was refused. -/
namespace Gaia.Memory
open Gaia

/-- What is lost when a request is refused: up to three blocks, or, if it is the request to enlarge the array of references, the
struct, the array, all references and the new one. -/
def Leak (s : State) (lost : List Nat) : Prop :=
  lost.length ≤ 3 ∨ (s.unres.arr = none ∧ lost.length = 4 * (s.unres.curr + 1) + 2)

/-- The step ended because a request for memory was refused: no message, nothing misused. -/
def Oom {α : Type} (o : Oracle) (h : Heap) (x : Result α × State) : Prop :=
  x.1 = .err ⟨.memoryAllocationFail, []⟩ ∧ Refused o h x.2.heap ∧ ∃ lost, Owns x.2 lost ∧ Leak x.2 lost

/-- `x` is the result of a memory step begun with heap `h`, `F` that of the model without memory; `φ` relates the values. -/
def Follows {α β : Type} (o : Oracle) (h : Heap) (φ : α → St → β) (F : Run β) (x : Result α × State) : Prop :=
  match F with
  | .ub _ => True
  | .ok b => (∃ a, x.1 = .ok a ∧ φ a x.2.bare = b ∧ Tidy x.2 ∧ Granted o h x.2.heap) ∨ Oom o h x
  | .err ab => (x.1 = .err ab.fail ∧ x.2.out = ab.out ∧ Tidy x.2 ∧ Granted o h x.2.heap) ∨ Oom o h x

theorem Oom.after {α : Type} {o : Oracle} {h h' : Heap} {x : Result α × State} (g : Granted o h h') (hx : Oom o h' x) : Oom o h x :=
  ⟨hx.1, g.refused hx.2.1, hx.2.2⟩

theorem Follows.after {α β : Type} {o : Oracle} {h h' : Heap} {φ : α → St → β} {F : Run β} {x : Result α × State}
    (g : Granted o h h') (hx : Follows o h' φ F x) : Follows o h φ F x := by
  cases F with
  | ub _ => trivial
  | ok b =>
    rcases hx with ⟨a, h1, h2, h3, h4⟩ | hx
    · exact .inl ⟨a, h1, h2, h3, g.trans h4⟩
    · exact .inr (hx.after g)
  | err ab =>
    rcases hx with ⟨h1, h2, h3, h4⟩ | hx
    · exact .inl ⟨h1, h2, h3, g.trans h4⟩
    · exact .inr (hx.after g)

theorem Oom.bind {α β : Type} {o : Oracle} {s : State} {x : Mem State α} {f : α → Mem State β} (hx : Oom o s.heap (x o s)) :
    Oom o s.heap ((x >>= f) o s) := by
  obtain ⟨h1, h2⟩ := hx
  rw [bind_apply]
  revert h1 h2
  rcases x o s with ⟨r, s'⟩
  intro h1 h2
  simp only at h1
  subst h1
  exact ⟨rfl, h2⟩

theorem Follows.bind {α β γ δ : Type} {o : Oracle} {s : State} {φ : α → St → β} {ψ : γ → St → δ} {F : Run β} {x : Mem State α}
    {f : α → Mem State γ} {G : β → Run δ} (hx : Follows o s.heap φ F (x o s))
    (hf : ∀ a s', Tidy s' → F = .ok (φ a s'.bare) → Follows o s'.heap ψ (G (φ a s'.bare)) (f a o s')) :
    Follows o s.heap ψ (F >>= G) ((x >>= f) o s) := by
  cases F with
  | ub _ => trivial
  | ok b =>
    rcases hx with ⟨a, h1, h2, h3, h4⟩ | hx
    · have e : x o s = (.ok a, (x o s).2) := Prod.ext h1 rfl
      rw [bind_ok e]
      have := hf a (x o s).2 h3 (by rw [h2])
      rw [h2] at this
      exact this.after h4
    · have := hx.bind (f := f)
      show Follows o s.heap ψ (G b) _
      cases G b with
      | ub _ => trivial
      | ok _ => exact .inr this
      | err _ => exact .inr this
  | err ab =>
    rcases hx with ⟨h1, h2, h3, h4⟩ | hx
    · have e : x o s = (.err ab.fail, (x o s).2) := Prod.ext h1 rfl
      rw [bind_err e]
      exact .inl ⟨rfl, h2, h3, h4⟩
    · exact .inr hx.bind

/-- A step that fails for lack of memory follows anything. -/
theorem Oom.follows {α β : Type} {o : Oracle} {h : Heap} {x : Result α × State} (hx : Oom o h x) (φ : α → St → β) (F : Run β) :
    Follows o h φ F x := by
  cases F with
  | ub _ => trivial
  | ok _ => exact .inr hx
  | err _ => exact .inr hx

theorem follows_ok {α β : Type} {o : Oracle} {s s' : State} {φ : α → St → β} {a : α} (ht : Tidy s') (hh : Granted o s.heap s'.heap) :
    Follows o s.heap φ (.ok (φ a s'.bare)) (.ok a, s') := .inl ⟨a, rfl, rfl, ht, hh⟩

theorem follows_pure {α β : Type} {o : Oracle} {s : State} {φ : α → St → β} (a : α) (ht : Tidy s) {b : β} (hb : φ a s.bare = b) :
    Follows o s.heap φ (.ok b) ((pure a : Mem State α) o s) := .inl ⟨a, rfl, hb, ht, Granted.refl _ _⟩

theorem follows_lift {α β γ : Type} {o : Oracle} {s : State} {ψ : β → St → γ} {r : Res α} {f : α → Mem State β} {G : α → Run γ}
    (ht : Tidy s) (hf : ∀ a, r = .ok a → Follows o s.heap ψ (G a) (f a o s)) :
    Follows o s.heap ψ (orAbort s.out r >>= G) ((lift r >>= f) o s) := by
  cases r with
  | ub _ => trivial
  | ok a => exact hf a rfl
  | err e => exact .inl ⟨rfl, rfl, ht, Granted.refl _ _⟩

/-- The same for a step that is an error or undefined. -/
theorem follows_raise {α β γ : Type} {o : Oracle} {s : State} {ψ : β → St → γ} {r : Res α} {r' : Res β} {G : α → Run γ}
    (ht : Tidy s) (hr : ∀ a, r ≠ .ok a) (h1 : ∀ e, r = .err e → r' = .err e) :
    Follows o s.heap ψ (orAbort s.out r >>= G) ((lift r' : Mem State β) o s) := by
  cases r with
  | ub _ => trivial
  | ok a => exact absurd rfl (hr a)
  | err e => rw [h1 e rfl]; exact .inl ⟨rfl, rfl, ht, Granted.refl _ _⟩

/-- An `if … then undefined` in the memory model, at a point where the other model is undefined too. -/
theorem follows_guard {β γ : Type} {o : Oracle} {s : State} {ψ : β → St → γ} {p : Prop} [Decidable p] {u v : UB} {f : Unit → Mem State β}
    {F : Run γ} (hf : ¬ p → Follows o s.heap ψ F (f () o s)) :
    Follows o s.heap ψ (if p then .ub u else F) ((lift (if p then .ub v else .ok ()) >>= f) o s) := by
  by_cases h : p
  · rw [if_pos h]; trivial
  · rw [if_neg h, if_neg h]; exact hf h

/-! ### Arrays -/

theorem length_bare {α β : Type} (l : List (Option (α × β))) : (bare l).length = l.length := List.length_map _

theorem bare_set {α β : Type} (l : List (Option (α × β))) (k : Nat) (x : α × β) :
    bare (l.set k (some x)) = (bare l).set k (some x.1) := List.map_set

theorem bare_replicate {α β : Type} (n : Nat) : bare (List.replicate n (none : Option (α × β))) = List.replicate n none :=
  List.map_replicate

theorem bare_append {α β : Type} (a b : List (Option (α × β))) : bare (a ++ b) = bare a ++ bare b := List.map_append

theorem bare_none {α β : Type} {l : List (Option (α × β))} {k : Nat} (h : (bare l)[k]? = some none) : l[k]? = some none := by
  unfold bare at h
  rw [List.getElem?_map] at h
  cases h1 : l[k]? with
  | none => rw [h1] at h; simp at h
  | some x =>
    rw [h1] at h
    cases x with
    | none => rfl
    | some y => simp at h

/-- Filling a free slot adds the new blocks. -/
theorem slotsBlocks_set {α β : Type} (f : β → List Nat) (x : α × β) : ∀ (l : List (Option (α × β))) (k : Nat), l[k]? = some none →
    (slotsBlocks f (l.set k (some x))).Perm (f x.2 ++ slotsBlocks f l)
  | [], k, h => by simp at h
  | y :: l, 0, h => by
    simp only [List.getElem?_cons_zero, Option.some.injEq] at h
    subst h
    exact .refl _
  | y :: l, k + 1, h => by
    have ih := slotsBlocks_set f x l k (by simpa using h)
    have e : ∀ (z : List (Option (α × β))), slotsBlocks f (y :: z) = slotsBlocks f [y] ++ slotsBlocks f z := fun z =>
      slotsBlocks_append f [y] z
    rw [List.set_cons_succ, e (l.set k (some x)), e l]
    refine (ih.append_left _).trans ?_
    rw [← List.append_assoc, ← List.append_assoc]
    exact List.perm_append_comm.append_right _

theorem probeFree_none (slots : List (Option Symbol)) : ∀ (fuel h k : Nat), probeFree slots fuel h = .ok k → slots[k]? = some none
  | 0, h, k, hk => by simp [probeFree] at hk
  | fuel + 1, h, k, hk => by
    unfold probeFree at hk
    cases h1 : slots[h]? with
    | none => rw [h1] at hk; simp at hk
    | some x =>
      rw [h1] at hk
      cases x with
      | none =>
        simp only [C.ok.injEq] at hk
        subst hk
        exact h1
      | some y => exact probeFree_none slots fuel _ k hk

theorem rehashOne_bare (new : List (Option (Symbol × SymbolB))) (sym : Symbol × SymbolB) :
    Gaia.rehashOne (bare new) sym.1 = (rehashOne new sym >>= fun x => .ok (bare x)) := by
  unfold Gaia.rehashOne rehashOne
  rw [length_bare]
  cases probeFree (bare new) new.length (djb2 sym.1.label % new.length) with
  | ub _ => rfl
  | err _ => rfl
  | ok k => simp only [C.ok_bind, C.pure_eq, bare_set]

theorem rehashOne_blocks {new new' : List (Option (Symbol × SymbolB))} {sym : Symbol × SymbolB} (h : rehashOne new sym = .ok new') :
    (slotsBlocks SymbolB.blocks new').Perm (sym.2.blocks ++ slotsBlocks SymbolB.blocks new) := by
  obtain ⟨k, h1, h2⟩ := C.bind_eq_ok.1 h
  injection h2 with h2
  subst h2
  exact slotsBlocks_set _ _ _ _ (bare_none (probeFree_none _ _ _ _ h1))

theorem rehashAll_bare : ∀ (old new : List (Option (Symbol × SymbolB))),
    Gaia.rehashAll (bare old) (bare new) = (rehashAll old new >>= fun x => .ok (bare x))
  | [], new => rfl
  | none :: old, new => rehashAll_bare old new
  | some sym :: old, new => by
    show (Gaia.rehashOne (bare new) sym.1 >>= fun n => Gaia.rehashAll (bare old) n) =
      ((rehashOne new sym >>= fun n => rehashAll old n) >>= fun x => .ok (bare x))
    rw [rehashOne_bare]
    cases rehashOne new sym with
    | ub _ => rfl
    | err _ => rfl
    | ok n => exact rehashAll_bare old n

theorem rehashAll_blocks : ∀ (old new : List (Option (Symbol × SymbolB))) {new' : List (Option (Symbol × SymbolB))},
    rehashAll old new = .ok new' →
    (slotsBlocks SymbolB.blocks new').Perm (slotsBlocks SymbolB.blocks old ++ slotsBlocks SymbolB.blocks new)
  | [], new, new', h => by
    injection h with h
    subst h
    exact .refl _
  | none :: old, new, new', h => rehashAll_blocks old new h
  | some sym :: old, new, new', h => by
    obtain ⟨n, h1, h2⟩ := C.bind_eq_ok.1 h
    refine (rehashAll_blocks old n h2).trans (((rehashOne_blocks h1).append_left _).trans ?_)
    show List.Perm _ ((sym.2.blocks ++ slotsBlocks SymbolB.blocks old) ++ slotsBlocks SymbolB.blocks new)
    rw [← List.append_assoc]
    exact List.perm_append_comm.append_right _

theorem probeFree_noerr (slots : List (Option Symbol)) : ∀ (fuel h : Nat) (e : Fail), probeFree slots fuel h ≠ .err e
  | 0, _, _ => by simp [probeFree]
  | fuel + 1, h, e => by
    intro h1
    unfold probeFree at h1
    split at h1
    · cases h1
    · cases h1
    · exact probeFree_noerr slots fuel _ e h1

theorem rehashAll_noerr : ∀ (old new : List (Option (Symbol × SymbolB))) (e : Fail), rehashAll old new ≠ .err e
  | [], _, _ => by simp [rehashAll]
  | none :: old, new, e => rehashAll_noerr old new e
  | some sym :: old, new, e => by
    intro h3
    have h3 : (rehashOne new sym >>= fun n => rehashAll old n) = .err e := h3
    cases h4 : rehashOne new sym with
    | ub _ => rw [h4] at h3; cases h3
    | ok n => rw [h4] at h3; exact rehashAll_noerr _ _ _ h3
    | err e' =>
      unfold rehashOne at h4
      cases h5 : probeFree (bare new) new.length (djb2 sym.1.label % new.length) with
      | ub _ => rw [h5] at h4; cases h4
      | ok _ => rw [h5] at h4; cases h4
      | err e'' => exact probeFree_noerr _ _ _ _ h5

/-! ### The symbol table -/

/-- A state with blocks not yet attached to it. -/
theorem Owns.of_perm {s s' : State} {lost lost' : List Nat} (h : Owns s lost) (hl : s'.heap.live = s.heap.live) (hn : s'.heap.next = s.heap.next)
    (hf : s'.heap.files = s.heap.files) (hs : s'.unres.Shaped) (hp : (s.blocks ++ lost).Perm (s'.blocks ++ lost')) : Owns s' lost' :=
  ⟨by unfold Heap.Fresh; rw [hl, hn]; exact h.fresh, by rw [hl]; exact h.perm.trans hp, hs, by rw [hf]; exact h.files⟩

/-- Blocks of the table and blocks outside it. -/
theorem symtab_perm (s : State) (t : SymTabB) (lost lost' : List Nat) (h : (s.symtab.blocks ++ lost).Perm (t.blocks ++ lost')) :
    (s.blocks ++ lost).Perm (State.blocks { s with symtab := t } ++ lost') := by
  rw [List.perm_iff_count] at h ⊢
  intro b
  have := h b
  simp only [State.blocks, List.count_append, List.count_cons] at this ⊢
  omega

theorem unres_perm (s : State) (u : UnresB) (lost lost' : List Nat) (h : (s.unres.blocks ++ lost).Perm (u.blocks ++ lost')) :
    (s.blocks ++ lost).Perm (State.blocks { s with unres := u } ++ lost') := by
  rw [List.perm_iff_count] at h ⊢
  intro b
  have := h b
  simp only [State.blocks, List.count_append, List.count_cons] at this ⊢
  omega

/-- Freeing a block that the state does not need. -/
theorem free_ok {o : Oracle} {h : Heap} {p : Nat} (hm : p ∈ h.live) : free p o h = (.ok (), { h with live := h.live.erase p }) := by
  unfold free; rw [if_pos hm]

theorem resizeSymbols_follows {o : Oracle} {s : State} (ht : Tidy s) :
    Follows o s.heap (fun _ st => st) (orAbort s.out (Gaia.resizeSymbols s.symtab.bare) >>= fun t => .ok { s.bare with symtab := t })
      (resizeSymbols o s) := by
  unfold Gaia.resizeSymbols
  have hlen : s.symtab.bare.size = s.symtab.slots.length := length_bare _
  rw [hlen]
  by_cases h1 : s.symtab.slots.length * 2 > INT_MAX
  · rw [if_pos h1]; trivial
  rw [if_neg h1]
  cases h2 : nextPrime (s.symtab.slots.length * 2) with
  | ub _ => trivial
  | err e =>
    have : resizeSymbols o s = (.err e, s) := by
      unfold resizeSymbols
      rw [bind_ok (getS_apply o s), if_neg h1, h2]
      rfl
    rw [this]
    exact .inl ⟨rfl, rfl, ht, Granted.refl _ _⟩
  | ok n =>
    have e1 : resizeSymbols o s = ((do
        let some arr ← onHeap malloc | outOfMemory
        let slots ← lift (rehashAll s.symtab.slots (List.replicate n none))
        onHeap (free s.symtab.arr)
        modifyS fun s' => { s' with symtab := { s.symtab with arr := arr, slots := slots } }) : Mem State Unit) o s := by
      unfold resizeSymbols
      rw [bind_ok (getS_apply o s), if_neg h1, h2]
      rfl
    rw [e1]
    cases ho : o s.heap.asked with
    | false =>
      have e2 : onHeap malloc o s = (.ok none, { s with heap := s.heap.ask }) := by rw [onHeap_apply, malloc_refused ho]
      rw [bind_ok e2]
      exact Oom.follows ⟨rfl, refused_ask ho, [], ht.owns.ask, .inl (by simp)⟩ _ _
    | true =>
      have e2 : onHeap malloc o s = (.ok (some s.heap.next), { s with heap := s.heap.more }) := by rw [onHeap_apply, malloc_granted ho]
      rw [bind_ok e2]
      simp only [C.ok_bind]
      have e3 : Gaia.rehashAll s.symtab.bare.symbols (List.replicate n none) =
          (rehashAll s.symtab.slots (List.replicate n none) >>= fun x => .ok (bare x)) := by
        rw [← rehashAll_bare, bare_replicate]; rfl
      rw [e3]
      cases h3 : rehashAll s.symtab.slots (List.replicate n none) with
      | ub _ => trivial
      | err e =>
        exact absurd h3 (rehashAll_noerr _ _ e)
      | ok slots =>
        have hp := rehashAll_blocks _ _ h3
        rw [slotsBlocks_none, List.append_nil] at hp
        have hm : s.symtab.arr ∈ s.heap.more.live := by
          refine List.mem_cons_of_mem _ (ht.owns.perm.mem_iff.2 ?_)
          simp [State.blocks, SymTabB.blocks]
        have e4 : onHeap (free s.symtab.arr) o { s with heap := s.heap.more } =
            (.ok (), { s with heap := { s.heap.more with live := s.heap.more.live.erase s.symtab.arr } }) := by
          rw [onHeap_apply]; simp only [free_ok hm]
        simp only [C.ok_bind]
        rw [bind_ok (lift_ok slots o _), bind_ok e4, modifyS_apply]
        refine .inl ⟨(), rfl, rfl, ⟨⟨ht.owns.fresh.more.erase _, ?_, ht.owns.shaped, ht.owns.files⟩, ht.arr⟩,
          (granted_more ho).of_asked rfl⟩
        have h5 := (ht.owns.more.perm).erase s.symtab.arr
        refine h5.trans ?_
        have h6 := symtab_perm s { s.symtab with arr := s.heap.next, slots := slots } [s.heap.next] [s.symtab.arr] (by
          unfold SymTabB.blocks
          rw [List.perm_iff_count] at hp ⊢
          intro b
          have := hp b
          simp only [List.count_append, List.count_cons, List.count_nil] at this ⊢
          omega)
        refine (h6.erase _).trans ?_
        rw [List.append_nil]
        have h7 := List.perm_append_comm (l₁ := State.blocks { s with symtab := { s.symtab with arr := s.heap.next, slots := slots } })
          (l₂ := [s.symtab.arr])
        have h8 := h7.erase s.symtab.arr
        rwa [List.singleton_append, List.erase_cons_head] at h8

/-- Asking for a block: it is granted, and belongs to nobody yet, or refused. -/
theorem malloc_cases {o : Oracle} {s : State} {lost : List Nat} (h : Owns s lost) :
    (∃ p h', onHeap malloc o s = (.ok (some p), { s with heap := h' }) ∧ Owns { s with heap := h' } (p :: lost) ∧ Granted o s.heap h') ∨
    (∃ h', onHeap malloc o s = (.ok none, { s with heap := h' }) ∧ Owns { s with heap := h' } lost ∧ Refused o s.heap h') := by
  cases ho : o s.heap.asked with
  | false => exact .inr ⟨_, by rw [onHeap_apply, malloc_refused ho], h.ask, refused_ask ho⟩
  | true => exact .inl ⟨_, _, by rw [onHeap_apply, malloc_granted ho], h.more, granted_more ho⟩

theorem onHeap_bind {α β : Type} (x : Mem Heap α) (f : α → Mem Heap β) : onHeap (x >>= f) = onHeap x >>= fun a => onHeap (f a) := by
  funext o s
  simp only [bind_apply, onHeap_apply]
  rcases x o s.heap with ⟨r, h⟩
  cases r <;> rfl

theorem initSymbol_cases {o : Oracle} {s : State} {lost : List Nat} (h : Owns s lost) :
    (∃ b h', onHeap initSymbol o s = (.ok (some b), { s with heap := h' }) ∧ Owns { s with heap := h' } (b.blocks ++ lost) ∧
      Granted o s.heap h') ∨
    (∃ h' lost', onHeap initSymbol o s = (.ok none, { s with heap := h' }) ∧ Owns { s with heap := h' } lost' ∧ Refused o s.heap h' ∧
      lost'.length ≤ lost.length + 1) := by
  unfold initSymbol
  rw [onHeap_bind]
  rcases malloc_cases (o := o) h with ⟨p, h1, e1, o1, g1⟩ | ⟨h1, e1, o1, g1⟩
  · rw [bind_ok e1]
    simp only
    rw [onHeap_bind]
    rcases malloc_cases (o := o) o1 with ⟨q, h2, e2, o2, g2⟩ | ⟨h2, e2, o2, g2⟩
    · rw [bind_ok e2]
      exact .inl ⟨⟨p, q⟩, h2, rfl, o2, g1.trans g2⟩
    · rw [bind_ok e2]
      exact .inr ⟨h2, _, rfl, o2, g1.refused g2, by simp⟩
  · rw [bind_ok e1]
    exact .inr ⟨h1, _, rfl, o1, g1, by simp⟩

theorem orAbort_bind {α β : Type} (out : OutFile) (x : Res α) (f : α → Res β) :
    orAbort out (x >>= f) = (orAbort out x >>= fun a => orAbort out (f a)) := by cases x <;> rfl

theorem placeSymbol_follows {o : Oracle} {s : State} (ht : Tidy s) (label : Str) (value : Int) :
    Follows o s.heap (fun _ st => st) (orAbort s.out (placeSymbol s.symtab.bare label value) >>= fun t => .ok { s.bare with symtab := t })
      ((do
        let some b ← onHeap initSymbol | outOfMemory
        let t := (← getS).symtab
        let h ← lift (probeFree (Memory.bare t.slots) t.slots.length (djb2 label % t.slots.length))
        modifyS fun s => { s with symtab := { t with slots := t.slots.set h (some (⟨label, value⟩, b)), count := t.count + 1 } } :
          Mem State Unit) o s) := by
  rcases initSymbol_cases (o := o) ht.owns with ⟨b, h1, e1, o1, g1⟩ | ⟨h1, lost, e1, o1, g1, k1⟩
  · rw [bind_ok e1]
    simp only
    rw [bind_ok (getS_apply o _)]
    unfold placeSymbol
    have hlen : s.symtab.bare.size = s.symtab.slots.length := length_bare _
    rw [hlen]
    cases h2 : probeFree (bare s.symtab.slots) s.symtab.slots.length (djb2 label % s.symtab.slots.length) with
    | err e => exact absurd h2 (probeFree_noerr _ _ _ _)
    | ub u =>
      have h2' : probeFree s.symtab.bare.symbols s.symtab.slots.length (djb2 label % s.symtab.slots.length) = .ub u := h2
      rw [h2']; trivial
    | ok k =>
      have h2' : probeFree s.symtab.bare.symbols s.symtab.slots.length (djb2 label % s.symtab.slots.length) = .ok k := h2
      have hk := bare_none (probeFree_none _ _ _ _ h2)
      rw [h2', bind_ok (lift_ok k o _), modifyS_apply]
      refine .inl ⟨(), rfl, ?_, ⟨?_, ht.arr⟩, g1⟩
      · simp only [State.bare, SymTabB.bare, bare_set]
      · refine Owns.of_perm o1 rfl rfl rfl o1.shaped ?_
        refine symtab_perm { s with heap := h1 } { s.symtab with
          slots := s.symtab.slots.set k (some (⟨label, value⟩, b)), count := s.symtab.count + 1 } (b.blocks ++ []) [] ?_
        unfold SymTabB.blocks
        have hp := slotsBlocks_set SymbolB.blocks ((⟨label, value⟩ : Symbol), b) _ _ hk
        rw [List.perm_iff_count] at hp ⊢
        intro c
        have := hp c
        simp only [List.count_append, List.count_cons, List.count_nil] at this ⊢
        omega
  · rw [bind_ok e1]
    exact Oom.follows ⟨rfl, g1, lost, o1, .inl (by simp at k1; omega)⟩ _ _

theorem insertSymbol_follows {o : Oracle} {s : State} (ht : Tidy s) (label : Str) (value : Int) :
    Follows o s.heap (fun _ st => st) (orAbort s.out (Gaia.insertSymbol s.symtab.bare label value) >>= fun t => .ok { s.bare with symtab := t })
      (insertSymbol label value o s) := by
  unfold Gaia.insertSymbol insertSymbol
  rw [bind_ok (getS_apply o s)]
  by_cases h1 : (s.symtab.bare.count + 1) * 100 > INT_MAX
  · rw [if_pos h1]; trivial
  · have h1' : ¬ (s.symtab.count + 1) * 100 > INT_MAX := h1
    rw [if_neg h1, if_neg h1', bind_ok (lift_ok () o s)]
    by_cases h2 : overLoaded s.symtab.bare = true
    · rw [if_pos h2, if_pos h2, orAbort_bind]
      have hr := resizeSymbols_follows (o := o) ht
      cases h3 : Gaia.resizeSymbols s.symtab.bare with
      | ub u => trivial
      | err e =>
        rw [h3] at hr
        exact hr.bind (G := fun _ => C.ub .internal) (fun _ _ _ h => by cases h)
      | ok t =>
        rw [h3] at hr
        refine hr.bind (G := fun st => orAbort s.out (placeSymbol st.symtab label value) >>= fun t => .ok { s.bare with symtab := t }) ?_
        intro _ s' ht' hs'
        injection hs' with hs'
        have e1 : s'.symtab.bare = s'.bare.symtab := rfl
        have e2 : s'.out = s.out := congrArg St.out hs'.symm
        have := placeSymbol_follows (o := o) ht' label value
        rw [e2] at this
        have e3 : ∀ t, ({ s.bare with symtab := t } : St) = { s'.bare with symtab := t } := fun t => by rw [← hs']
        simp only [e3]
        exact this
    · rw [if_neg h2, if_neg h2]
      exact placeSymbol_follows ht label value

theorem raise_err {α : Type} {line : Option Str} {e : Err} {loc : Option Nat} {fn : Str} {n : Nat} (a : α) :
    (raise line e loc fn n : Res α) ≠ .ok a := by
  unfold raise
  intro h
  obtain ⟨_, _, h2⟩ := C.bind_eq_ok.1 h
  cases h2

theorem raise_same {α β : Type} {line : Option Str} {e : Err} {loc : Option Nat} {fn : Str} {n : Nat} (f : Fail)
    (h : (raise line e loc fn n : Res α) = .err f) : (raise line e loc fn n : Res β) = .err f := by
  unfold raise at h ⊢
  revert h
  cases printError line e loc fn n with
  | ub u => intro h; cases h
  | err e => intro h; cases h; rfl
  | ok t => intro h; cases h; rfl

theorem follows_raise' {β γ δ : Type} {o : Oracle} {s : State} {ψ : β → St → γ} {G : δ → Run γ} {line : Option Str} {e : Err}
    {loc : Option Nat} {fn : Str} {n : Nat} (ht : Tidy s) :
    Follows o s.heap ψ (orAbort s.out (raise line e loc fn n : Res δ) >>= G) ((lift (raise line e loc fn n : Res β) : Mem State β) o s) :=
  follows_raise ht raise_err raise_same

theorem parseLabelDeclaration_follows {o : Oracle} {s : State} (ht : Tidy s) (lx : Lexer) (pc : Nat) :
    Follows o s.heap (fun _ st => st)
      (orAbort s.out (Gaia.parseLabelDeclaration lx s.symtab.bare pc) >>= fun t => .ok { s.bare with symtab := t })
      (parseLabelDeclaration lx pc o s) := by
  unfold Gaia.parseLabelDeclaration parseLabelDeclaration
  have assoc : ∀ {α β γ : Type} (x : Run α) (f : α → Run β) (g : β → Run γ), (x >>= f) >>= g = x >>= fun a => f a >>= g := by
    intro α β γ x f g; cases x <;> rfl
  rw [orAbort_bind, assoc]
  refine follows_lift ht fun label _ => ?_
  rw [orAbort_bind, assoc]
  refine follows_lift ht fun defineLabel _ => ?_
  rw [orAbort_bind, assoc, bind_ok (getS_apply o s)]
  refine follows_lift ht fun found _ => ?_
  rw [orAbort_bind, assoc]
  refine follows_lift ht fun foundDefine _ => ?_
  by_cases h1 : defineLabel.type = .null ∨ defineLabel.type = .instruction
  · rw [if_pos h1, if_pos h1]
    by_cases h2 : found ≠ Err.symbolNotFound.code
    · rw [if_pos h2, if_pos h2]; exact follows_raise' ht
    · rw [if_neg h2, if_neg h2]; exact insertSymbol_follows ht _ _
  · rw [if_neg h1, if_neg h1]
    by_cases h2 : defineLabel.type = .equalSign ∨ defineLabel.type = .equDirective
    · rw [if_pos h2, if_pos h2]
      by_cases h3 : found ≠ Err.symbolNotFound.code
      · rw [if_pos h3, if_pos h3]; exact follows_raise' ht
      · rw [if_neg h3, if_neg h3, orAbort_bind, assoc]
        exact follows_lift ht fun lit _ => insertSymbol_follows ht _ _
    · rw [if_neg h2, if_neg h2]
      by_cases h3 : label.type = .defineDirective
      · rw [if_pos h3, if_pos h3]
        by_cases h4 : foundDefine ≠ Err.symbolNotFound.code
        · rw [if_pos h4, if_pos h4]; exact follows_raise' ht
        · rw [if_neg h4, if_neg h4, orAbort_bind, assoc]
          exact follows_lift ht fun lit _ => insertSymbol_follows ht _ _
      · rw [if_neg h3, if_neg h3]; exact follows_raise' ht

/-! ### Forward references -/

theorem createForwardRef_cases {o : Oracle} {s : State} (h : Owns s []) {buffer : Str} {instr : Instr} {operand : Option Token}
    {status : OpStatus} {pc lineNum : Nat} {ref : ForwardRef}
    (hr : Gaia.createForwardRef buffer instr operand status pc lineNum = .ok ref) :
    (∃ b h', createForwardRef buffer instr operand status pc lineNum o s = (.ok (ref, b), { s with heap := h' }) ∧
      Owns { s with heap := h' } b.blocks ∧ Granted o s.heap h') ∨
    (∃ h' lost, createForwardRef buffer instr operand status pc lineNum o s =
      (.err ⟨.memoryAllocationFail, []⟩, { s with heap := h' }) ∧ Owns { s with heap := h' } lost ∧ Refused o s.heap h' ∧ lost.length ≤ 3) := by
  unfold createForwardRef
  rcases malloc_cases (o := o) h with ⟨p1, h1, e1, o1, g1⟩ | ⟨h1, e1, o1, g1⟩
  swap
  · rw [bind_ok e1]; exact .inr ⟨h1, _, rfl, o1, g1, by simp⟩
  rw [bind_ok e1]
  simp only
  rw [hr, bind_ok (lift_ok ref o _)]
  rcases malloc_cases (o := o) o1 with ⟨p2, h2, e2, o2, g2⟩ | ⟨h2, e2, o2, g2⟩
  swap
  · rw [bind_ok e2]; exact .inr ⟨h2, _, rfl, o2, g1.refused g2, by simp⟩
  rw [bind_ok e2]
  simp only
  rcases malloc_cases (o := o) o2 with ⟨p3, h3, e3, o3, g3⟩ | ⟨h3, e3, o3, g3⟩
  swap
  · rw [bind_ok e3]; exact .inr ⟨h3, _, rfl, o3, (g1.trans g2).refused g3, by simp⟩
  rw [bind_ok e3]
  simp only
  unfold initInstruction
  rcases malloc_cases (o := o) o3 with ⟨p4, h4, e4, o4, g4⟩ | ⟨h4, e4, o4, g4⟩
  swap
  · rw [bind_ok e4]; exact .inr ⟨h4, _, rfl, o4, ((g1.trans g2).trans g3).refused g4, by simp⟩
  rw [bind_ok e4]
  refine .inl ⟨⟨p1, p2, p3, p4⟩, h4, rfl, ?_, ((g1.trans g2).trans g3).trans g4⟩
  refine Owns.of_perm o4 rfl rfl rfl o4.shaped (List.Perm.append_left _ ?_)
  unfold RefB.blocks
  rw [List.perm_iff_count]
  intro c
  simp only [List.count_cons, List.count_nil]
  omega

theorem Granted.next_eq {o : Oracle} {h : Heap} (ho : o h.asked = true) (live : List Nat) :
    Granted o h { h with asked := h.asked + 1, next := h.next + 1, live := live } := (granted_more ho).of_asked rfl

/-- Storing a reference in an array with room for it. -/
theorem store_follows {o : Oracle} {s : State} {ref : ForwardRef × RefB} (h : Owns s ref.2.blocks) (ha : s.unres.arr.isSome = true)
    (hc : s.unres.curr + 1 < s.unres.refs.length) :
    Tidy { s with unres := { s.unres with refs := s.unres.refs.set s.unres.curr (some ref), curr := s.unres.curr + 1 } } := by
  obtain ⟨a, ha'⟩ := Option.isSome_iff_exists.1 ha
  obtain ⟨rs, n, h1, h2⟩ := h.shaped
  have hn : ∃ m, n = m + 1 := by
    rw [h1, h2] at hc
    simp only [List.length_append, List.length_map, List.length_replicate] at hc
    exact ⟨n - 1, by omega⟩
  obtain ⟨m, rfl⟩ := hn
  have hslot : s.unres.refs[s.unres.curr]? = some none := by
    rw [h1, h2, List.getElem?_append_right (by simp)]
    simp
  refine ⟨Owns.of_perm h rfl rfl rfl ?_ ?_, ha⟩
  · refine ⟨rs ++ [ref], m, ?_, by simp [h2]⟩
    show s.unres.refs.set s.unres.curr (some ref) = _
    rw [h1, h2]
    have : rs.length = (rs.map some : List (Option (ForwardRef × RefB))).length := by simp
    rw [this, List.set_append_right _ _ (le_refl _), Nat.sub_self, List.replicate_succ, List.set_cons_zero]
    simp
  · refine unres_perm s { s.unres with refs := s.unres.refs.set s.unres.curr (some ref), curr := s.unres.curr + 1 } _ [] ?_
    unfold UnresB.blocks
    simp only [ha']
    have hp := slotsBlocks_set RefB.blocks ref _ _ hslot
    rw [List.perm_iff_count] at hp ⊢
    intro c
    have := hp c
    simp only [List.count_append, List.count_cons, List.count_nil] at this ⊢
    omega

theorem refBlocks_length : ∀ (rs : List (ForwardRef × RefB)), (slotsBlocks RefB.blocks (rs.map some)).length = 4 * rs.length
  | [] => rfl
  | r :: rs => by
    have := refBlocks_length rs
    unfold slotsBlocks at this ⊢
    rw [List.map_cons, List.flatMap_cons, List.length_append, this, List.length_cons]
    show 4 + _ = _
    omega

theorem unres_blocks_length {u : UnresB} (h : u.Shaped) (ha : u.arr.isSome = true) : u.blocks.length = 4 * u.curr + 2 := by
  obtain ⟨a, ha'⟩ := Option.isSome_iff_exists.1 ha
  obtain ⟨rs, n, h1, h2⟩ := h
  unfold UnresB.blocks
  simp only [ha']
  rw [h1, slotsBlocks_append, slotsBlocks_none, List.append_nil, List.length_append, refBlocks_length, h2]
  rfl

/-- `realloc` of the array of references. -/
theorem resizeUnresolved_cases {o : Oracle} {s : State} {lost : List Nat} (h : Owns s lost) (ha : s.unres.arr.isSome = true)
    (hi : s.unres.refs.length * 2 ≤ INT_MAX) :
    (∃ h' a, resizeUnresolved o s = (.ok (), { s with heap := h', unres := { s.unres with
        arr := some a, refs := s.unres.refs ++ List.replicate s.unres.refs.length none } }) ∧
      Owns { s with heap := h', unres := { s.unres with
        arr := some a, refs := s.unres.refs ++ List.replicate s.unres.refs.length none } } lost ∧ Granted o s.heap h') ∨
    (∃ h' lost', resizeUnresolved o s = (.err ⟨.memoryAllocationFail, []⟩, { s with heap := h', unres := { s.unres with arr := none } }) ∧
      Owns { s with heap := h', unres := { s.unres with arr := none } } lost' ∧ Refused o s.heap h' ∧
      lost'.length = 4 * s.unres.curr + 2 + lost.length) := by
  obtain ⟨a, ha'⟩ := Option.isSome_iff_exists.1 ha
  have hm : a ∈ s.heap.live := h.perm.mem_iff.2 (by simp [State.blocks, UnresB.blocks, ha'])
  unfold resizeUnresolved
  rw [bind_ok (getS_apply o s)]
  simp only [ha']
  cases ho : o s.heap.asked with
  | false =>
    have e1 : onHeap (realloc a) o s = (.ok none, { s with heap := s.heap.ask }) := by
      rw [onHeap_apply]
      have : realloc a o s.heap = (.ok none, s.heap.ask) := by
        unfold realloc
        rw [if_neg (by simpa using hm), if_neg (by rw [ho]; decide)]
        rfl
      rw [this]
    rw [bind_ok e1]
    refine .inr ⟨s.heap.ask, s.unres.blocks ++ lost, rfl, Owns.of_perm h.ask rfl rfl rfl h.shaped ?_, refused_ask ho, ?_⟩
    rotate_left
    · rw [List.length_append, unres_blocks_length h.shaped ha]
    exact unres_perm { s with heap := s.heap.ask } { s.unres with arr := none } lost (s.unres.blocks ++ lost) (.refl _)
  | true =>
    have e1 : onHeap (realloc a) o s = (.ok (some s.heap.next), { s with
        heap := { s.heap with asked := s.heap.asked + 1, next := s.heap.next + 1, live := s.heap.next :: s.heap.live.erase a } }) := by
      rw [onHeap_apply]
      have : realloc a o s.heap = (.ok (some s.heap.next), { s.heap with
          asked := s.heap.asked + 1, next := s.heap.next + 1, live := s.heap.next :: s.heap.live.erase a }) := by
        unfold realloc
        rw [if_neg (by simpa using hm), if_pos ho]
      rw [this]
    rw [bind_ok e1]
    simp only
    rw [if_neg (by omega), bind_ok (lift_ok () o _), modifyS_apply]
    refine .inl ⟨_, _, rfl, ⟨⟨?_, ?_⟩, ?_, ?_, h.files⟩, Granted.next_eq ho _⟩
    · refine List.nodup_cons.2 ⟨fun hb => ?_, h.fresh.1.erase _⟩
      exact absurd (h.fresh.2 _ (List.mem_of_mem_erase hb)) (Nat.lt_irrefl _)
    · intro b hb
      rcases List.mem_cons.1 hb with rfl | hb
      · exact Nat.lt_succ_self _
      · exact Nat.lt_succ_of_lt (h.fresh.2 b (List.mem_of_mem_erase hb))
    · have h1 := unres_perm s { s.unres with arr := some s.heap.next, refs := s.unres.refs ++ List.replicate s.unres.refs.length none }
        (s.heap.next :: lost) (a :: lost) (by
          unfold UnresB.blocks
          simp only [ha']
          rw [slotsBlocks_append, slotsBlocks_none, List.append_nil, List.perm_iff_count]
          intro c
          simp only [List.count_append, List.count_cons, List.count_nil]
          omega)
      have h2 : (s.heap.next :: s.heap.live).Perm (s.blocks ++ (s.heap.next :: lost)) := (h.perm.cons _).trans List.perm_middle.symm
      have h3 := ((h2.trans h1).trans List.perm_middle).erase a
      rw [List.erase_cons_head] at h3
      refine List.Perm.trans ?_ h3
      rw [List.erase_cons_tail]
      intro hb
      have hb : s.heap.next = a := by simpa using hb
      have := h.fresh.2 a hm
      omega
    · obtain ⟨rs, n, h1, h2⟩ := h.shaped
      refine ⟨rs, n + s.unres.refs.length, ?_, h2⟩
      show s.unres.refs ++ List.replicate s.unres.refs.length none = _
      generalize s.unres.refs.length = k
      rw [h1, List.append_assoc, List.replicate_append_replicate]
      congr 2
      omega

theorem addForwardRef_follows {o : Oracle} {s : State} {ref : ForwardRef × RefB} (h : Owns s ref.2.blocks)
    (ha : s.unres.arr.isSome = true) :
    Follows o s.heap (fun _ st => st)
      (orAbort s.out (Gaia.addForwardRef s.unres.bare ref.1) >>= fun u => .ok { s.bare with unres := u })
      (addForwardRef ref o s) := by
  unfold Gaia.addForwardRef addForwardRef
  rw [bind_ok (getS_apply o s)]
  have hlen : s.unres.bare.size = s.unres.refs.length := length_bare _
  have hcurr : s.unres.bare.curr = s.unres.curr := rfl
  rw [hlen, hcurr]
  obtain ⟨rs, n, h1, h2⟩ := h.shaped
  have hsz : s.unres.refs.length = s.unres.curr + (n + 1) := by rw [h1, h2]; simp
  by_cases hc : s.unres.curr + 1 = s.unres.refs.length
  · rw [if_pos hc, if_pos hc]
    unfold Gaia.resizeUnresolved
    rw [hlen]
    by_cases hi : s.unres.refs.length * 2 > INT_MAX
    · rw [if_pos hi]; trivial
    · rw [if_neg hi]
      rcases resizeUnresolved_cases (o := o) h ha (by omega) with ⟨h', a, e1, o1, g1⟩ | ⟨h', lost', e1, o1, g1, k1⟩
      · rw [bind_ok e1]
        simp only [C.ok_bind]
        rw [bind_ok (getS_apply o _)]
        have hl : s.unres.curr < (s.unres.refs ++ List.replicate s.unres.refs.length none).length := by
          rw [List.length_append, List.length_replicate]; omega
        have hl2 : ({ s.unres.bare with refs := s.unres.bare.refs ++ List.replicate s.unres.refs.length none } : Unresolved).size =
            (s.unres.refs ++ List.replicate s.unres.refs.length none).length := by
          show (bare s.unres.refs ++ List.replicate s.unres.refs.length none).length = _
          rw [List.length_append, List.length_append, length_bare]
          simp
        rw [hl2, if_pos hl, if_pos (show s.unres.bare.curr < _ from hl), bind_ok (lift_ok () o _), modifyS_apply]
        refine .inl ⟨(), rfl, ?_, ?_, g1⟩
        · simp only [State.bare, UnresB.bare, bare_set, bare_append, bare_replicate]
        · refine store_follows (s := { s with heap := h', unres := { s.unres with
            arr := some a, refs := s.unres.refs ++ List.replicate s.unres.refs.length none } }) (ref := ref) (o := o) o1 rfl ?_
          show s.unres.curr + 1 < (s.unres.refs ++ List.replicate s.unres.refs.length none).length
          rw [List.length_append, List.length_replicate]
          omega
      · rw [bind_err e1]
        refine Oom.follows ⟨rfl, g1, lost', o1, .inr ⟨rfl, ?_⟩⟩ _ _
        have : ref.2.blocks.length = 4 := rfl
        show lost'.length = 4 * (s.unres.curr + 1) + 2
        omega
  · rw [if_neg hc, if_neg hc]
    have hl : s.unres.curr < s.unres.refs.length := by omega
    simp only [C.pure_eq, C.ok_bind]
    rw [bind_ok (getS_apply o s), hlen, hcurr, if_pos hl, if_pos hl, bind_ok (lift_ok () o _), modifyS_apply]
    refine .inl ⟨(), rfl, ?_, ?_, Granted.refl _ _⟩
    · simp only [State.bare, UnresB.bare, bare_set]
    · exact store_follows (o := o) h ha (by omega)

end Gaia.Memory

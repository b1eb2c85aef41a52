import Verif.Proofs.MemoryGrow

/-! Memory: the five structures main allocates first, and the whole program. -/
namespace Gaia.Memory
open Gaia

/-- `x` allocates a structure with the blocks `f`; if a request is refused it returns NULL, and what it got so far is lost. `n` is the
number of requests it makes when all are granted. -/
def Makes {α : Type} (x : Mem Heap (Option α)) (f : α → List Nat) (n : Nat) : Prop :=
  ∀ (o : Oracle) (h : Heap), h.Fresh →
    (∃ a h', x o h = (.ok (some a), h') ∧ h'.Fresh ∧ h'.files = h.files ∧ h'.live.Perm (f a ++ h.live) ∧ Granted o h h' ∧
      h'.asked = h.asked + n ∧ (f a).length = n) ∨
    (∃ h' lost, x o h = (.ok none, h') ∧ h'.Fresh ∧ h'.files = h.files ∧ h'.live.Perm (lost ++ h.live) ∧ Refused o h h' ∧
      h'.asked ≤ h.asked + n ∧ lost.length < n)

theorem Makes.ask {h : Heap} (hf : h.Fresh) : h.ask.Fresh := hf

theorem makes_malloc : Makes malloc (fun p => [p]) 1 := by
  intro o h hf
  cases ho : o h.asked with
  | false => exact .inr ⟨_, [], malloc_refused ho, hf, rfl, .refl _, refused_ask ho, le_refl _, Nat.one_pos⟩
  | true => exact .inl ⟨_, _, malloc_granted ho, hf.more, rfl, .refl _, granted_more ho, rfl, rfl⟩

theorem makes_none {α : Type} (f : α → List Nat) : ∀ (a : α), f a = [] → Makes (pure (some a)) f 0 := by
  intro a ha o h hf
  exact .inl ⟨a, h, rfl, hf, rfl, by rw [ha]; exact .refl _, Granted.refl _ _, rfl, by rw [ha]; rfl⟩

theorem Granted.of_le {o : Oracle} {a b : Heap} (h : Granted o a b) : a.asked ≤ b.asked := h.1

/-- First one structure, then another; NULL if either fails. -/
theorem Makes.seq {α β γ : Type} {x : Mem Heap (Option α)} {y : Mem Heap (Option β)} {f : α → List Nat} {g : β → List Nat} {n m : Nat}
    {k : α → β → γ} {e : γ → List Nat} (hx : Makes x f n) (hy : Makes y g m) (he : ∀ a b, (e (k a b)).Perm (g b ++ f a)) :
    Makes (do
      let some a ← x | pure none
      let some b ← y | pure none
      pure (some (k a b))) e (n + m) := by
  intro o h hf
  rcases hx o h hf with ⟨a, h1, e1, f1, i1, p1, g1, n1, z1⟩ | ⟨h1, l1, e1, f1, i1, p1, g1, n1, z1⟩
  · rw [bind_ok e1]
    rcases hy o h1 f1 with ⟨b, h2, e2, f2, i2, p2, g2, n2, z2⟩ | ⟨h2, l2, e2, f2, i2, p2, g2, n2, z2⟩
    · simp only
      rw [bind_ok e2]
      refine .inl ⟨_, h2, rfl, f2, i2.trans i1, ?_, g1.trans g2, by omega,
        by rw [(he a b).length_eq, List.length_append]; omega⟩
      refine p2.trans ((p1.append_left _).trans ?_)
      rw [← List.append_assoc]
      exact (he a b).symm.append_right _
    · simp only
      rw [bind_ok e2]
      refine .inr ⟨h2, l2 ++ f a, rfl, f2, i2.trans i1, ?_, g1.refused g2, by omega, by rw [List.length_append]; omega⟩
      rw [List.append_assoc]
      exact p2.trans (p1.append_left _)
  · rw [bind_ok e1]
    exact .inr ⟨h1, l1, rfl, f1, i1, p1, g1, by omega, by omega⟩

theorem makes_token : Makes initToken TokenB.blocks 2 := by
  have := Makes.seq (e := TokenB.blocks) (k := fun blk str => (⟨blk, str⟩ : TokenB)) makes_malloc makes_malloc fun _ _ => .refl _
  unfold initToken
  refine cast (congrArg (fun w => Makes w TokenB.blocks 2) ?_) this
  congr 1
  funext r
  cases r with
  | none => rfl
  | some a =>
    show (_ >>= _) = (_ >>= _)
    congr 1
    funext r
    cases r <;> rfl

theorem makes_tokens : ∀ n, Makes (initTokens n) (fun ts => ts.flatMap TokenB.blocks) (2 * n)
  | 0 => makes_none _ [] rfl
  | n + 1 => by
    have := Makes.seq (e := fun ts => ts.flatMap TokenB.blocks) (k := fun t ts => t :: ts) makes_token (makes_tokens n)
      (fun a b => by rw [List.flatMap_cons]; exact List.perm_append_comm)
    have e : 2 + 2 * n = 2 * (n + 1) := by omega
    rw [e] at this
    unfold initTokens
    refine cast (congrArg (fun w => Makes w _ (2 * (n + 1))) ?_) this
    congr 1
    funext r
    cases r with
    | none => rfl
    | some a =>
      show (_ >>= _) = (_ >>= _)
      congr 1
      funext r
      cases r <;> rfl

theorem Makes.three {α β γ δ : Type} {x : Mem Heap (Option α)} {y : Mem Heap (Option β)} {z : Mem Heap (Option γ)} {f : α → List Nat}
    {g : β → List Nat} {i : γ → List Nat} {n m l : Nat} {k : α → β → γ → δ} {e : δ → List Nat} (hx : Makes x f n) (hy : Makes y g m)
    (hz : Makes z i l) (he : ∀ a b c, (e (k a b c)).Perm (i c ++ (g b ++ f a))) :
    Makes (do
      let some a ← x | pure none
      let some b ← y | pure none
      let some c ← z | pure none
      pure (some (k a b c))) e (n + m + l) := by
  have h1 := Makes.seq (k := fun a b => (a, b)) (e := fun p => g p.2 ++ f p.1) hx hy fun _ _ => .refl _
  have h2 := Makes.seq (k := fun p c => k p.1 p.2 c) (e := e) h1 hz fun p c => he p.1 p.2 c
  refine cast (congrArg (fun w => Makes w e (n + m + l)) ?_) h2
  funext o h
  simp only [bind_apply]
  rcases x o h with ⟨r1, h1⟩
  cases r1 with
  | ub _ => rfl
  | err _ => rfl
  | ok a =>
    cases a with
    | none => rfl
    | some a =>
      simp only [bind_apply]
      rcases y o h1 with ⟨r2, h2⟩
      cases r2 with
      | ub _ => rfl
      | err _ => rfl
      | ok b => cases b <;> rfl

theorem makes_lexer : Makes initLexer LexerB.blocks 18 := by
  have := Makes.three (e := LexerB.blocks) (k := fun blk arr toks => (⟨blk, arr, toks⟩ : LexerB)) makes_malloc makes_malloc (makes_tokens MAX_TOKENS)
    fun _ _ _ => .refl _
  unfold initLexer
  refine cast (congrArg (fun w => Makes w LexerB.blocks 18) ?_) this
  congr 1
  funext r
  cases r with
  | none => rfl
  | some a =>
    show (_ >>= _) = (_ >>= _)
    congr 1
    funext r
    cases r with
    | none => rfl
    | some b =>
      show (_ >>= _) = (_ >>= _)
      congr 1
      funext r
      cases r <;> rfl

theorem makes_symtab : Makes initSymbolTable SymTabB.blocks 2 := by
  have := Makes.seq (e := SymTabB.blocks) (k := fun blk arr => ({ blk, arr, slots := List.replicate SYM_BASE_SIZE none, count := 0 } : SymTabB)) makes_malloc
    makes_malloc fun a b => by unfold SymTabB.blocks; rw [slotsBlocks_none]; exact .refl _
  unfold initSymbolTable
  refine cast (congrArg (fun w => Makes w SymTabB.blocks 2) ?_) this
  congr 1
  funext r
  cases r with
  | none => rfl
  | some a =>
    show (_ >>= _) = (_ >>= _)
    congr 1
    funext r
    cases r <;> rfl

theorem makes_unres : Makes initUnresolved UnresB.blocks 2 := by
  have := Makes.seq (e := UnresB.blocks) (k := fun blk arr => ({ blk, arr := some arr, refs := List.replicate FWD_BASE_SIZE none, curr := 0 } : UnresB)) makes_malloc
    makes_malloc fun a b => by unfold UnresB.blocks; simp only; rw [slotsBlocks_none]; exact .refl _
  unfold initUnresolved
  refine cast (congrArg (fun w => Makes w UnresB.blocks 2) ?_) this
  congr 1
  funext r
  cases r with
  | none => rfl
  | some a =>
    show (_ >>= _) = (_ >>= _)
    congr 1
    funext r
    cases r <;> rfl

/-- The blocks of a structure that may be NULL. -/
def optBlocks {α : Type} (f : α → List Nat) : Option α → List Nat
  | none => []
  | some a => f a

/-- The result of attempting an allocation, whichever it is. -/
theorem Makes.either {α : Type} {x : Mem Heap (Option α)} {f : α → List Nat} {n : Nat} (hx : Makes x f n) (o : Oracle) {h : Heap}
    (hf : h.Fresh) : ∃ r h' lost, x o h = (.ok r, h') ∧ h'.Fresh ∧ h'.files = h.files ∧ h'.live.Perm (lost ++ (optBlocks f r ++ h.live)) ∧
      h.asked ≤ h'.asked ∧ h'.asked ≤ h.asked + n ∧ lost.length ≤ n - 1 ∧
      ((r.isSome = true ∧ lost = [] ∧ Granted o h h' ∧ h'.asked = h.asked + n) ∨ (r.isSome = false ∧ Refused o h h')) := by
  rcases hx o h hf with ⟨a, h1, e1, f1, i1, p1, g1, n1, z1⟩ | ⟨h1, l1, e1, f1, i1, p1, g1, n1, z1⟩
  · exact ⟨some a, h1, [], e1, f1, i1, p1, g1.1, by omega, by simp, .inl ⟨rfl, rfl, g1, n1⟩⟩
  · exact ⟨none, h1, l1, e1, f1, i1, p1, g1.1, n1, by omega, .inr ⟨rfl, g1⟩⟩

/-- The number of requests main makes before anything else: a lexer (2 and 8 tokens of 2), a token (2), an instruction (1), a
symbol table (2) and the unresolved references (2). -/
def startRequests : Nat := 25

/-- Only the array of references is allocated with the struct. -/
theorem unres_shape {o : Oracle} {h h' : Heap} {u : UnresB} (e : initUnresolved o h = (.ok (some u), h')) :
    u.refs = List.replicate FWD_BASE_SIZE none ∧ u.curr = 0 ∧ u.arr.isSome = true := by
  unfold initUnresolved at e
  rw [bind_apply] at e
  rcases h1 : malloc o h with ⟨r, h2⟩
  rw [h1] at e
  cases r with
  | ub _ => cases e
  | err _ => cases e
  | ok p =>
    cases p with
    | none => cases e
    | some p =>
      simp only at e
      rw [bind_apply] at e
      rcases h3 : malloc o h2 with ⟨r, h4⟩
      rw [h3] at e
      cases r with
      | ub _ => cases e
      | err _ => cases e
      | ok q =>
        cases q with
        | none => cases e
        | some q =>
          have e : ((Result.ok (some ({ blk := p, arr := some q, refs := List.replicate FWD_BASE_SIZE none, curr := 0 } : UnresB)), h4) :
            Result (Option UnresB) × Heap) = (.ok (some u), h') := e
          injection e with e _
          injection e with e
          injection e with e
          rw [← e]
          exact ⟨rfl, rfl, rfl⟩

theorem symtab_shape {o : Oracle} {h h' : Heap} {t : SymTabB} (e : initSymbolTable o h = (.ok (some t), h')) :
    t.bare = Gaia.initSymbolTable := by
  unfold initSymbolTable at e
  rw [bind_apply] at e
  rcases h1 : malloc o h with ⟨r, h2⟩
  rw [h1] at e
  cases r with
  | ub _ => cases e
  | err _ => cases e
  | ok p =>
    cases p with
    | none => cases e
    | some p =>
      simp only at e
      rw [bind_apply] at e
      rcases h3 : malloc o h2 with ⟨r, h4⟩
      rw [h3] at e
      cases r with
      | ub _ => cases e
      | err _ => cases e
      | ok q =>
        cases q with
        | none => cases e
        | some q =>
          have e : ((Result.ok (some ({ blk := p, arr := q, slots := List.replicate SYM_BASE_SIZE none, count := 0 } : SymTabB)), h4) :
            Result (Option SymTabB) × Heap) = (.ok (some t), h') := e
          injection e with e _
          injection e with e
          injection e with e
          rw [← e]
          unfold SymTabB.bare Gaia.initSymbolTable
          rw [bare_replicate]

/-- The blocks of what main holds. -/
def Held.blocks (h : Held) : List Nat :=
  optBlocks LexerB.blocks h.lexer ++ (optBlocks TokenB.blocks h.tk ++ (optBlocks (fun p => [p]) h.instr ++
    (optBlocks SymTabB.blocks h.symtab ++ optBlocks UnresB.blocks h.unres)))

/-- The five allocations. -/
theorem initAll_cases (o : Oracle) : ∃ l t i y u h lost, initAll o Heap.start = (.ok (l, t, i, y, u), h) ∧ h.Fresh ∧ h.files = [] ∧
    h.live.Perm ((⟨none, none, l, t, i, y, u⟩ : Held).blocks ++ lost) ∧
    (∀ y', y = some y' → y'.bare = Gaia.initSymbolTable) ∧
    (∀ u', u = some u' → u'.refs = List.replicate FWD_BASE_SIZE none ∧ u'.curr = 0 ∧ u'.arr.isSome = true) ∧
    h.asked ≤ startRequests ∧ lost.length ≤ 20 ∧
    ((l.isSome = true ∧ t.isSome = true ∧ i.isSome = true ∧ y.isSome = true ∧ u.isSome = true ∧ lost = [] ∧
        Granted o Heap.start h ∧ h.asked = startRequests) ∨
      ((l.isSome = false ∨ t.isSome = false ∨ i.isSome = false ∨ y.isSome = false ∨ u.isSome = false) ∧ Refused o Heap.start h)) := by
  have h0 : Heap.start.Fresh := ⟨List.nodup_nil, fun b hb => absurd hb (List.not_mem_nil)⟩
  obtain ⟨l, h1, l1, e1, f1, i1, p1, a1, b1, z1, c1⟩ := makes_lexer.either o h0
  obtain ⟨t, h2, l2, e2, f2, i2, p2, a2, b2, z2, c2⟩ := makes_token.either o f1
  obtain ⟨i, h3, l3, e3, f3, i3, p3, a3, b3, z3, c3⟩ := makes_malloc.either o f2
  obtain ⟨y, h4, l4, e4, f4, i4, p4, a4, b4, z4, c4⟩ := makes_symtab.either o f3
  obtain ⟨u, h5, l5, e5, f5, i5, p5, a5, b5, z5, c5⟩ := makes_unres.either o f4
  have hs : Heap.start.asked = 0 := rfl
  have e3' : initInstruction o h2 = (.ok i, h3) := e3
  refine ⟨l, t, i, y, u, h5, l5 ++ (l4 ++ (l3 ++ (l2 ++ l1))), ?_, f5, ?_, ?_, ?_, ?_, ?_, ?_, ?_⟩
  · unfold initAll
    rw [bind_ok e1, bind_ok e2, bind_ok e3', bind_ok e4, bind_ok e5]
    rfl
  · rw [i5, i4, i3, i2, i1]; rfl
  · unfold Held.blocks
    simp only
    rw [List.perm_iff_count] at p1 p2 p3 p4 p5 ⊢
    intro b
    have q1 := p1 b
    have q2 := p2 b
    have q3 := p3 b
    have q4 := p4 b
    have q5 := p5 b
    have q0 : List.count b Heap.start.live = 0 := rfl
    simp only [List.count_append] at q1 q2 q3 q4 q5 ⊢
    omega
  · intro y' hy
    rw [hy] at e4
    exact symtab_shape e4
  · intro u' hu
    rw [hu] at e5
    exact unres_shape e5
  · unfold startRequests; omega
  · simp only [List.length_append]; omega
  · have mono : ∀ {a b c d : Heap}, a.asked ≤ b.asked → Refused o b c → c.asked ≤ d.asked → Refused o a d := by
      rintro a b c d h1 ⟨h2, j, h3, h4, h5⟩ h6
      exact ⟨by omega, j, by omega, by omega, h5⟩
    rcases c1 with ⟨s1, r1, g1, n1⟩ | ⟨s1, g1⟩
    swap
    · exact .inr ⟨.inl s1, mono (le_refl _) g1 (by omega)⟩
    rcases c2 with ⟨s2, r2, g2, n2⟩ | ⟨s2, g2⟩
    swap
    · exact .inr ⟨.inr (.inl s2), mono (by omega) g2 (by omega)⟩
    rcases c3 with ⟨s3, r3, g3, n3⟩ | ⟨s3, g3⟩
    swap
    · exact .inr ⟨.inr (.inr (.inl s3)), mono (by omega) g3 (by omega)⟩
    rcases c4 with ⟨s4, r4, g4, n4⟩ | ⟨s4, g4⟩
    swap
    · exact .inr ⟨.inr (.inr (.inr (.inl s4))), mono (by omega) g4 (by omega)⟩
    rcases c5 with ⟨s5, r5, g5, n5⟩ | ⟨s5, g5⟩
    swap
    · exact .inr ⟨.inr (.inr (.inr (.inr s5))), mono (by omega) g5 (by omega)⟩
    refine .inl ⟨s1, s2, s3, s4, s5, by rw [r1, r2, r3, r4, r5]; rfl, (((g1.trans g2).trans g3).trans g4).trans g5, ?_⟩
    unfold startRequests
    omega

/-- Cleaning up whatever was allocated. -/
theorem abort_ok {o : Oracle} {h : Heap} {held : Held} {lost : List Nat} (hp : h.live.Perm (held.blocks ++ lost))
    (hu : ∀ u, held.unres = some u → u.Shaped) (ho : held.outf = none)
    (hi : (held.inf = none ∧ h.files = []) ∨ (held.inf = some 0 ∧ h.files = [0])) :
    ∃ h', abortGaia held o h = (.ok (), h') ∧ h'.live.Perm lost ∧ h'.files = [] ∧ h'.asked = h.asked := by
  have e : abortGaia held = ifHeld held.inf fclose >>= fun _ => freeList held.blocks := by
    unfold abortGaia Held.blocks
    rw [ho, freeList_append, freeList_append, freeList_append, freeList_append]
    have e1 : ifHeld held.lexer destroyLexer = freeList (optBlocks LexerB.blocks held.lexer) := by
      cases held.lexer with
      | none => rfl
      | some l => exact destroyLexer_eq l
    have e2 : ifHeld held.tk destroyToken = freeList (optBlocks TokenB.blocks held.tk) := by
      cases held.tk with
      | none => rfl
      | some l => exact destroyToken_eq l
    have e3 : ifHeld held.instr destroyInstruction = freeList (optBlocks (fun p => [p]) held.instr) := by
      cases held.instr with
      | none => rfl
      | some l => exact (freeList_single l).symm
    have e4 : ifHeld held.symtab destroySymbolTable = freeList (optBlocks SymTabB.blocks held.symtab) := by
      cases held.symtab with
      | none => rfl
      | some l => exact destroySymbolTable_eq l
    have e5 : ifHeld held.unres destroyUnresolved = freeList (optBlocks UnresB.blocks held.unres) := by
      cases hv : held.unres with
      | none => rfl
      | some l => exact destroyUnresolved_eq (hu l hv)
    rw [e1, e2, e3, e4, e5]
    rfl
  rw [e]
  rcases hi with ⟨h1, h2⟩ | ⟨h1, h2⟩
  · rw [h1]
    obtain ⟨h', h3, h4, h5, h6⟩ := freeList_ok o held.blocks lost h hp
    refine ⟨h', ?_, h4, by rw [h5, h2], h6⟩
    exact h3
  · rw [h1]
    have h3 : fclose 0 o h = (.ok (), { h with files := [] }) := by unfold fclose; rw [h2]; rfl
    obtain ⟨h', h4, h5, h6, h7⟩ := freeList_ok o held.blocks lost { h with files := [] } hp
    refine ⟨h', ?_, h5, by rw [h6], h7⟩
    show (fclose 0 >>= fun _ => freeList held.blocks) o h = _
    rw [bind_ok h3, h4]

theorem shaped_start {u : UnresB} (h : u.refs = List.replicate FWD_BASE_SIZE none ∧ u.curr = 0 ∧ u.arr.isSome = true) : u.Shaped :=
  ⟨[], 7, h.1, h.2.1⟩

/-- The whole program, whatever memory is granted. -/
theorem gaia_cases (o : Oracle) (srcName outName : Str) (w : World) (hub : ∀ u, Gaia.gaia srcName outName w ≠ .undefined u) :
    ∃ e h, gaia o srcName outName w = .exited e h ∧ h.files = [] ∧
      (((∀ i, i < h.asked → o i = true) ∧ startRequests ≤ h.asked ∧ h.live = [] ∧ Gaia.gaia srcName outName w = .exited e) ∨
       ((∃ i, i < startRequests ∧ i < h.asked ∧ o i = false) ∧ e.status = 1 ∧ e.world = w ∧
          e.stdout = b! "ERROR: could not allocate enough memory during assembly\n\n" ∧ h.live.length ≤ 20) ∨
       ((∀ i, i < startRequests → o i = true) ∧ (∃ i, i < h.asked ∧ o i = false) ∧ e.status = 1 ∧ e.stdout = [] ∧
          (∃ content, w.files srcName = some content ∧
            (h.live.length ≤ 3 ∨ ∃ n, n ≤ (chunks content).length ∧ h.live.length = 4 * (n + 1) + 2)) ∧ w.creatable outName = true ∧ ∃ bytes, e.world = w.write outName bytes)) := by
  obtain ⟨l, t, i, y, u, h, lost, e1, f1, i1, p1, hy, hu, hn, hz, hc⟩ := initAll_cases o
  have hshape : ∀ v, u = some v → v.Shaped := fun v hv => shaped_start (hu v hv)
  rcases hc with ⟨s1, s2, s3, s4, s5, hl, hg, ha⟩ | ⟨hnone, hr⟩
  · obtain ⟨l, rfl⟩ := Option.isSome_iff_exists.1 s1
    obtain ⟨t, rfl⟩ := Option.isSome_iff_exists.1 s2
    obtain ⟨i, rfl⟩ := Option.isSome_iff_exists.1 s3
    obtain ⟨y, rfl⟩ := Option.isSome_iff_exists.1 s4
    obtain ⟨u, rfl⟩ := Option.isSome_iff_exists.1 s5
    subst hl
    have hgr : ∀ j, j < startRequests → o j = true := fun j hj => hg.2 j (Nat.zero_le _) (by omega)
    unfold gaia
    rw [e1]
    simp only
    unfold Gaia.gaia at hub ⊢
    cases hf : w.files srcName with
    | none =>
      obtain ⟨h', k1, k2, k3, k4⟩ := abort_ok (o := o) (h := h) (held := ⟨none, none, some l, some t, some i, some y, some u⟩)
        (lost := []) p1 hshape rfl (.inl ⟨rfl, i1⟩)
      simp only
      unfold refuse leave
      rw [k1]
      refine ⟨_, h', rfl, k3, .inl ⟨fun j hj => hgr j (by omega), by omega, k2.eq_nil, rfl⟩⟩
    | some content =>
      simp only
      by_cases hcr : w.creatable outName = false
      · rw [if_pos hcr, if_pos hcr]
        obtain ⟨h', k1, k2, k3, k4⟩ := abort_ok (o := o) (h := ((fopen 0) o h).2)
          (held := ⟨some 0, none, some l, some t, some i, some y, some u⟩)
          (lost := []) p1 hshape rfl (.inr ⟨rfl, by show 0 :: h.files = [0]; rw [i1]⟩)
        have k4 : h'.asked = h.asked := k4
        unfold refuse leave
        rw [k1]
        refine ⟨_, h', rfl, k3, .inl ⟨fun j hj => hgr j (by omega), by omega, k2.eq_nil, rfl⟩⟩
      · rw [hf] at hub
        simp only at hub
        rw [if_neg hcr] at hub
        rw [if_neg hcr, if_neg hcr]
        generalize hsrc : (if srcName = outName then [] else content) = src at hub ⊢
        generalize hs : ({
          heap := ((fopen 1) o ((fopen 0) o h).2).2, pc := 0, lineNum := 1, total := 0, symtab := y, unres := u,
          out := OutFile.empty, lexer := Gaia.initLexer srcName, lexerB := l, tk := Gaia.initToken, tkB := t,
          instr := Gaia.initInstruction, instrB := i } : State) = s
        have hb : Begins s srcName := by
          have hu' := hu u rfl
          refine ⟨⟨⟨?_, ?_, ?_, ?_⟩, ?_⟩, ?_⟩
          · rw [← hs]; exact f1
          · rw [← hs]; exact p1
          · rw [← hs]; exact hshape u rfl
          · rw [← hs]; show 1 :: 0 :: h.files = _; rw [i1]
          · rw [← hs]; exact hu'.2.2
          · rw [← hs]
            unfold State.bare initSt
            simp only
            rw [hy y rfl]
            unfold UnresB.bare
            rw [hu'.1, hu'.2.1, bare_replicate]
            rfl
        have hasked : s.heap.asked = startRequests := by rw [← hs]; exact ha
        have fol := assembleBytes_follows (o := o) hb src
        have oom : Oom o s.heap (assembleBytes src o s) → ∃ e h', assemble o s outName src w = .exited e h' ∧ h'.files = [] ∧
            (∃ j, j < h'.asked ∧ o j = false) ∧ e.status = 1 ∧ e.stdout = [] ∧ (∃ bytes, e.world = w.write outName bytes) ∧
            (h'.live.length ≤ 3 ∨ ∃ n, n ≤ (chunks content).length ∧ h'.live.length = 4 * (n + 1) + 2) := by
          have hgrow := grows_assembleBytes src o s
          have hcurr : s.unres.curr = 0 := by rw [← hs]; exact (hu u rfl).2.1
          have hlen : (chunks src).length ≤ (chunks content).length := by
            rw [← hsrc]
            split
            · exact Nat.zero_le _
            · exact le_refl _
          rintro ⟨q1, q2, lost, q3, q6⟩
          unfold assemble
          revert q1 q2 q3 q6 hgrow
          rcases assembleBytes src o s with ⟨r, s'⟩
          intro hgrow q1 q2 q3 q6
          simp only at hgrow q1 q2 q3 q6
          subst q1
          simp only
          rw [abort_eq_cleanUp]
          obtain ⟨h', k1, k2, k3, k4⟩ := cleanUp_ok q3 o
          unfold leave
          rw [k1]
          obtain ⟨_, j, _, q4, q5⟩ := q2
          refine ⟨_, h', rfl, k3, ⟨j, by omega, q5⟩, rfl, rfl, ⟨_, rfl⟩, ?_⟩
          rw [k2.length_eq]
          rcases q6 with q6 | ⟨_, q6⟩
          · exact .inl q6
          · exact .inr ⟨s'.unres.curr, by omega, q6⟩
        have hcr' : w.creatable outName = true := by
          cases hh : w.creatable outName with
          | true => rfl
          | false => exact absurd hh hcr
        cases hF : Gaia.assembleBytes srcName src with
        | ub v =>
          rw [hF] at hub
          exact absurd rfl (hub v)
        | ok st =>
          rw [hF] at fol
          rcases fol with ⟨_, q1, q2, q3, q4⟩ | hoom
          · unfold assemble
            revert q1 q2 q3 q4
            rcases assembleBytes src o s with ⟨r, s'⟩
            intro q1 q2 q3 q4
            simp only at q1 q2 q3 q4
            subst q1
            simp only
            obtain ⟨h', k1, k2, k3, k4⟩ := cleanUp_ok q3.owns o
            unfold leave
            rw [k1]
            refine ⟨_, h', rfl, k3, .inl ⟨?_, ?_, k2.eq_nil, ?_⟩⟩
            · intro j hj
              by_cases hj' : j < startRequests
              · exact hgr j hj'
              · exact q4.2 j (by omega) (by omega)
            · have := q4.1; omega
            · rw [← q2]; rfl
          · obtain ⟨e, h', q1, q2, q3, q4, q5, q6, q7⟩ := oom hoom
            exact ⟨e, h', q1, q2, .inr (.inr ⟨hgr, q3, q4, q5, ⟨content, rfl, q7⟩, hcr', q6⟩)⟩
        | err ab =>
          rw [hF] at fol
          rcases fol with ⟨q1, q2, q3, q4⟩ | hoom
          · unfold assemble
            revert q1 q2 q3 q4
            rcases assembleBytes src o s with ⟨r, s'⟩
            intro q1 q2 q3 q4
            simp only at q1 q2 q3 q4
            subst q1
            simp only
            rw [abort_eq_cleanUp]
            obtain ⟨h', k1, k2, k3, k4⟩ := cleanUp_ok q3.owns o
            unfold leave
            rw [k1]
            refine ⟨_, h', rfl, k3, .inl ⟨?_, ?_, k2.eq_nil, ?_⟩⟩
            · intro j hj
              by_cases hj' : j < startRequests
              · exact hgr j hj'
              · exact q4.2 j (by omega) (by omega)
            · have := q4.1; omega
            · rw [← q2]
          · obtain ⟨e, h', q1, q2, q3, q4, q5, q6, q7⟩ := oom hoom
            exact ⟨e, h', q1, q2, .inr (.inr ⟨hgr, q3, q4, q5, ⟨content, rfl, q7⟩, hcr', q6⟩)⟩
  · have eg : gaia o srcName outName w = refuse o h ⟨none, none, l, t, i, y, u⟩ .memoryAllocationFail srcName w := by
      unfold gaia
      rw [e1]
      cases l with
      | none => rfl
      | some l =>
        cases t with
        | none => rfl
        | some t =>
          cases i with
          | none => rfl
          | some i =>
            cases y with
            | none => rfl
            | some y =>
              cases u with
              | none => rfl
              | some u => simp at hnone
    rw [eg]
    obtain ⟨h', k1, k2, k3, k4⟩ := abort_ok (o := o) (h := h) (held := ⟨none, none, l, t, i, y, u⟩)
      (lost := lost) p1 hshape rfl (.inl ⟨rfl, i1⟩)
    unfold refuse leave
    rw [k1]
    obtain ⟨_, j, _, q4, q5⟩ := hr
    exact ⟨_, h', rfl, k3, .inr (.inl ⟨⟨j, by omega, by omega, q5⟩, rfl, rfl, rfl, by rw [k2.length_eq]; exact hz⟩)⟩

end Gaia.Memory

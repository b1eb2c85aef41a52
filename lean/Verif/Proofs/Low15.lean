import Verif.Proofs.Low14

/-! The model with pointers: the start of `main`. -/
namespace Gaia.Low
open Gaia
open Gaia.Memory

section
variable {o : Oracle} {s s' s'' : Store} {h : Heap}

theorem New.append {F G : List Nat} (h : New F s s') (h' : New G s' s'') (n : s.heap.next ≤ s'.heap.next)
    (n' : s'.heap.next ≤ s''.heap.next) : New (F ++ G) s s'' := by
  refine ⟨?_, ?_, ?_⟩
  · rw [List.nodup_append]
    refine ⟨h.nodup, h'.nodup, ?_⟩
    rintro p hp q hq rfl
    have := h.lt p hp
    have := h'.ge p hq
    omega
  · intro p hp
    rcases List.mem_append.1 hp with hp | hp
    · exact h.ge p hp
    · exact Nat.le_trans n (h'.ge p hp)
  · intro p hp
    rcases List.mem_append.1 hp with hp | hp
    · exact Nat.lt_of_lt_of_le (h.lt p hp) n'
    · exact h'.lt p hp

theorem Made.opt {α : Type} {blk : α → Nat} {bl : α → List Nat} {At : (Nat → Option Obj) → α → Prop} {a : Option Nat} {b : Option α}
    (hm : Made blk bl At s a s' b h) : New (optBlocks bl b) s s' := by
  cases b with
  | none => exact ⟨by simp [optBlocks], by simp [optBlocks], by simp [optBlocks]⟩
  | some y => exact hm.new y rfl

/-- A structure is not touched by making others. -/
theorem Made.later {α : Type} {blk : α → Nat} {bl : α → List Nat} {At : (Nat → Option Obj) → α → Prop} {a : Option Nat} {b : Option α}
    (hm : Made blk bl At s a s' b h) (hf : Frame [] s' s'')
    (hc : ∀ (m m' : Nat → Option Obj) y, At m y → (∀ p ∈ bl y, m' p = m p) → At m' y) : ∀ y, b = some y → At s''.mem y := by
  intro y hy
  exact hc _ _ y (hm.at' y hy) fun p hp => hf.mem p ((hm.new y hy).lt p hp) (by simp)

theorem LexNew.congr {m m' : Nat → Option Obj} {l : LexerB} (h : LexNew m l) (hm : ∀ p ∈ l.blocks, m' p = m p) : LexNew m' l := by
  refine ⟨h.len, h.nodup, by rw [hm _ (by simp [LexerB.blocks])]; exact h.arr, ?_, by rw [hm _ (by simp [LexerB.blocks])]; exact h.head⟩
  intro b hb
  refine (h.toks b hb).congr fun p hp => hm p ?_
  unfold LexerB.blocks
  exact List.mem_append_left _ (List.mem_flatMap.2 ⟨b, hb, hp⟩)

theorem LexNew.lexAt {m : Nat → Option Obj} {l : LexerB} (h : LexNew m l) : LexAt m l :=
  ⟨h.len, h.nodup, h.arr, ⟨_, h.head, rfl⟩, fun b hb => ⟨_, h.toks b hb⟩⟩

/-- What `main` has after its five calls. -/
structure Ready (s s' : Store) (l : Option LexerB) (t : Option TokenB) (i : Option Nat) (y : Option SymTabB) (u : Option UnresB) : Prop where
  frame : Frame [] s s'
  lexer : ∀ x, l = some x → LexNew s'.mem x
  tk : ∀ x, t = some x → TokAt s'.mem x Gaia.initToken
  instr : ∀ x, i = some x → s'.mem x = some (.instr Gaia.initInstruction)
  symtab : ∀ x, y = some x → TabAt s'.mem x
  unres : ∀ x, u = some x → UnresAt s'.mem x ∧ x.arr.isSome = true
  new : New (optBlocks LexerB.blocks l ++ (optBlocks TokenB.blocks t ++ (i.toList ++
    (optBlocks SymTabB.blocks y ++ optBlocks full u)))) s s'

theorem optBlocks_one (i : Option Nat) : optBlocks (fun p => [p]) i = i.toList := by cases i <;> rfl

theorem initAll_sim (hh : s.heap = h) {E : Store → Heap → Prop} : Sim (initAll o s) (Memory.initAll o h)
    (fun a s' b h' => s'.heap = h' ∧ a = (b.1.map (·.blk), b.2.1.map (·.blk), b.2.2.1, b.2.2.2.1.map (·.blk), b.2.2.2.2.map (·.blk)) ∧
      Ready s s' b.1 b.2.1 b.2.2.1 b.2.2.2.1 b.2.2.2.2) E := by
  unfold initAll Memory.initAll
  refine Sim.bind (initLexer_sim hh) ?_
  intro a1 s1 b1 h1 m1
  refine Sim.bind (initToken_sim m1.heap) ?_
  intro a2 s2 b2 h2 m2
  refine Sim.bind (initInstruction_sim m2.heap) ?_
  intro a3 s3 b3 h3 m3
  refine Sim.bind (initSymbolTable_sim m3.heap) ?_
  intro a4 s4 b4 h4 m4
  refine Sim.bind (initUnresolved_sim m4.heap) ?_
  intro a5 s5 b5 h5 m5
  have f5 := m5.frame
  have f4 := m4.frame.trans f5 (by simp)
  have f3 := m3.frame.trans f4 (by simp)
  have f2 := m2.frame.trans f3 (by simp)
  have n5 := m5.opt
  have n4 := m4.opt.append n5 m4.frame.next f5.next
  have n3 := m3.opt.append n4 m3.frame.next f4.next
  have n2 := m2.opt.append n3 m2.frame.next f3.next
  have n1 := m1.opt.append n2 m1.frame.next f2.next
  rw [optBlocks_one] at n1
  refine ⟨_, _, rfl, m5.heap, ?_, m1.frame.trans f2 (by simp), ?_, ?_, ?_, ?_, ?_, n1⟩
  · rw [m1.ptr, m2.ptr, m3.ptr, m4.ptr, m5.ptr]
    simp
  · exact m1.later f2 fun m m' y hy hm => hy.congr hm
  · exact m2.later f3 fun m m' y hy hm => hy.congr hm
  · exact m3.later f4 fun m m' y hy hm => by rw [hm y (by simp)]; exact hy
  · exact m4.later f5 fun m m' y hy hm => hy.congr hm
  · exact m5.at'

theorem Ready.held {l : Option LexerB} {t : Option TokenB} {i : Option Nat} {y : Option SymTabB} {u : Option UnresB}
    (hr : Ready s s' l t i y u) (inf : Option Nat) :
    HeldAt s'.mem ⟨inf, none, l.map (·.blk), t.map (·.blk), i, y.map (·.blk), u.map (·.blk)⟩ ⟨inf, none, l, t, i, y, u⟩ := by
  have hn := hr.new.nodup
  refine ⟨rfl, rfl, rfl, rfl, rfl, rfl, rfl, fun x hx => (hr.lexer x hx).lexAt, fun x hx => ⟨_, hr.tk x hx⟩, ?_, ?_, hn⟩
  · intro x hx
    refine ⟨hr.symtab x hx, ?_⟩
    simp only at hx
    rw [hx] at hn
    simp only [List.nodup_append] at hn
    exact hn.2.1.2.1.2.1.1
  · intro x hx
    refine ⟨(hr.unres x hx).1, ?_⟩
    simp only at hx
    rw [hx] at hn
    simp only [List.nodup_append] at hn
    exact hn.2.1.2.1.2.1.2.1

end
end Gaia.Low

namespace Gaia.Low
open Gaia
open Gaia.Memory

section
variable {o : Oracle} {s s' s'' : Store} {h : Heap} {fn : Str}

/-- Opening a file touches no object. -/
theorem fopen_mem (m : Store) (o : Oracle) (n : Nat) : (m.fopen o n).mem = m.mem := rfl

/-- The states of the two models before the first line. -/
theorem Ready.between {l : LexerB} {t : TokenB} {i : Nat} {y : SymTabB} {u : UnresB} (hr : Ready s s' (some l) (some t) (some i) (some y) (some u))
    (hb : s.buffer.length = MAX_BUFFER_SIZE) (hn : NameAt s fn) (hm : s''.mem = s'.mem) (hbuf : s''.buffer = s'.buffer)
    (hname : s''.name = s'.name) (hnext : s''.heap.next = s'.heap.next) (hh : s''.heap = h) :
    Between fn ⟨s'', 0, 1, 0, OutFile.empty, l.blk, t.blk, i, y.blk, u.blk⟩
      { heap := h, pc := 0, lineNum := 1, total := 0, symtab := y, unres := u, out := OutFile.empty, lexer := Gaia.initLexer fn
        lexerB := l, tk := Gaia.initToken, tkB := t, instr := Gaia.initInstruction, instrB := i } := by
  have hx := hr.lexer l rfl
  have hnd := hr.new.nodup
  have hlt := hr.new.lt
  simp only [optBlocks, Option.toList] at hnd hlt
  have hN : NameAt s'' fn := by
    obtain ⟨data, h1, h2, h3⟩ := hn
    refine ⟨data, ?_, h2, h3⟩
    have h1 : some s.name = some data := h1
    show some s''.name = some data
    rw [hname, hr.frame.name]; exact h1
  have e : l.blocks ++ (t.blocks ++ ([i] ++ (y.blocks ++ full u))) = foot l t i ++ (y.blocks ++ full u) := by simp [foot]
  rw [e] at hnd hlt
  have hnd0 := hnd
  rw [List.nodup_append, List.nodup_append (l₂ := full u)] at hnd
  obtain ⟨k1, ⟨k2, k3, k4⟩, k5⟩ := hnd
  have hseq : Seq s'' l (Gaia.initLexer fn).seq := by
    refine ⟨hx.nodup, by rw [hm]; exact hx.arr, ?_, ⟨_, by rw [hm]; exact hx.head, rfl, rfl⟩⟩
    rw [hm]
    have : ∀ (bs : List TokenB) (n : Nat), bs.length = n → (∀ b ∈ bs, TokAt s'.mem b Gaia.initToken) →
        List.Forall₂ (TokAt s'.mem) bs (List.replicate n Gaia.initToken) := by
      intro bs
      induction bs with
      | nil => rintro _ rfl _; exact .nil
      | cons b bs ih =>
        rintro _ rfl hall
        rw [List.length_cons, List.replicate_succ]
        exact .cons (hall b (by simp)) (ih _ rfl fun b' hb' => hall b' (by simp [hb']))
    exact this _ _ hx.len hx.toks
  have htk : TokAt s''.mem t Gaia.initToken := by rw [hm]; exact hr.tk t rfl
  have hin : s''.mem i = some (.instr Gaia.initInstruction) := by rw [hm]; exact hr.instr i rfl
  have hrel : LexRel s'' l t i fn (Gaia.initLexer fn) Gaia.initToken Gaia.initInstruction :=
    ⟨k1, hx.len, hseq, htk, hin, ⟨_, by rw [hm]; exact hx.head, rfl, .inl ⟨rfl, rfl⟩⟩, hN, rfl⟩
  refine { parts := ?_, name := hN, buffer := ?_, pc := rfl, lineNum := rfl, total := rfl, out := rfl, lexer := rfl, tk := rfl, instr := rfl,
           symtab := rfl, unres := rfl, len := ?_, file := rfl, arr := (hr.unres u rfl).2, lex := ⟨_, _, _, hrel, rfl, rfl, rfl, rfl⟩ }
  · refine ⟨hh, hrel.scratch, by rw [hm]; exact hr.symtab y rfl, by rw [hm]; exact (hr.unres u rfl).1, k2, k3, ?_, ?_, ?_, ?_, ?_, ?_⟩
    · exact fun p hp hq => k5 p hp p (List.mem_append_left _ hq) rfl
    · exact fun p hp hq => k5 p hp p (List.mem_append_right _ hq) rfl
    · exact fun p hp hq => k4 p hp p hq rfl
    · exact fun p hp => by rw [hnext]; exact hlt p (List.mem_append_left _ hp)
    · exact fun p hp => by rw [hnext]; exact hlt p (List.mem_append_right _ (List.mem_append_left _ hp))
    · exact fun p hp => by rw [hnext]; exact hlt p (List.mem_append_right _ (List.mem_append_right _ hp))
  · show s''.buffer.length = _
    rw [hbuf, hr.frame.buffer]; exact hb
  · simp [Gaia.initLexer]

/-- The two models end the same way, or the one without pointers does something undefined. -/
def Agree (x y : Memory.Outcome) : Prop := x = y ∨ ∃ u, y = .undefined u

theorem leave_agree {m : Store} {clean : M Unit} {clean' : Mem Heap Unit} {E : Store → Heap → Prop} (e : Exit)
    (hs : Sim (clean o m) (clean' o h) (fun _ s' _ h' => s'.heap = h') E) : Agree (leave o m clean e) (Memory.leave o h clean' e) := by
  unfold leave Memory.leave
  generalize clean' o h = r at hs ⊢
  obtain ⟨r, h'⟩ := r
  cases r with
  | ok _ =>
    obtain ⟨_, s', hx, hq⟩ := hs
    rw [hx]
    exact .inl (congrArg (Memory.Outcome.exited e) hq)
  | err f => exact .inr ⟨_, rfl⟩
  | ub u => exact .inr ⟨_, rfl⟩

theorem refuse_agree {m : Store} {H : Low.Held} {M : Memory.Held} (hh : m.heap = h) (hH : HeldAt m.mem H M) (hn : NameAt m fn) (e : Err)
    (w : World) : Agree (refuse o m H e w) (Memory.refuse o h M e fn w) := by
  unfold refuse Memory.refuse printError
  rw [bind_ok (readStr_run hn)]
  dsimp only
  cases Gaia.printError none e none fn 0 with
  | ok text => exact leave_agree (E := fun _ _ => True) _ (abortGaia_sim hh hH)
  | err f => exact .inr ⟨_, rfl⟩
  | ub u => exact .inr ⟨_, rfl⟩

theorem assemble_agree {σ : State} {S : Memory.State} (hb : Between fn σ S) (outName : Str) (src : List Byte) (w : World) :
    Agree (assemble o σ outName src w) (Memory.assemble o S outName src w) := by
  have hs := assembleBytes_sim (o := o) hb src
  unfold assemble Memory.assemble
  generalize Memory.assembleBytes src o S = r at hs ⊢
  obtain ⟨r, S'⟩ := r
  cases r with
  | ub u => exact .inr ⟨_, rfl⟩
  | ok _ =>
    obtain ⟨_, σ', hx, hq⟩ := hs
    rw [hx]
    have hq : Linked fn σ' S' := hq.toLinked
    dsimp only
    have hc : symbolCount σ' o σ'.store = (.ok S'.symtab.count, σ'.store) := by
      unfold symbolCount
      rw [hq.symtab, bind_ok (loadTable_run hq.parts.tab.head)]
      rfl
    rw [hc]
    dsimp only
    rw [← Memory.abort_eq_cleanUp, hq.total, hq.out]
    exact leave_agree (E := fun _ _ => True) _ (abortGaia_sim (H := ⟨some 0, some 1, some σ'.lexer, some σ'.tk, some σ'.instr, some σ'.symtab,
      some σ'.unres⟩) hq.parts.heap hq.held)
  | err f =>
    obtain ⟨σ', hx, hq⟩ := hs
    rw [hx]
    have hq : Linked fn σ' S' := hq
    dsimp only
    rw [hq.out]
    exact leave_agree (E := fun _ _ => True) _ (abortGaia_sim hq.parts.heap hq.held)

theorem cstr_name : ∀ {l : Str}, (0 : Byte) ∉ l → cstr (l ++ [0]) = l := by
  intro l
  unfold cstr
  induction l with
  | nil => intro _; rfl
  | cons a l ih =>
    intro hl
    simp only [List.mem_cons, not_or] at hl
    have ha : (a != 0) = true := by simpa using fun h => hl.1 h.symm
    rw [List.cons_append, List.takeWhile_cons, ha]
    simp only [if_true]
    rw [ih hl.2]

/-- The model with pointers ends as the model without does, unless that does something undefined. -/
theorem gaia_agree (o : Oracle) {junk : List Byte} (cells : Nat → Option Nat) (hj : junk.length = MAX_BUFFER_SIZE) {srcName : Str} (hz : (0 : Byte) ∉ srcName) (outName : Str)
    (w : World) : Agree (gaia o junk cells srcName outName w) (Memory.gaia o srcName outName w) := by
  have hs := initAll_sim (o := o) (s := Store.start srcName junk cells) (h := Heap.start) rfl (E := fun _ _ => True)
  have hn0 : NameAt (Store.start srcName junk cells) srcName := ⟨srcName ++ [0], rfl, by simp, by simpa using cstr_name hz⟩
  unfold gaia Memory.gaia
  generalize Memory.initAll o Heap.start = r at hs ⊢
  obtain ⟨r, h1⟩ := r
  cases r with
  | ub u => exact .inr ⟨_, rfl⟩
  | err f => exact .inr ⟨_, rfl⟩
  | ok b =>
    obtain ⟨a, s1, hx, hh, rfl, hr⟩ := hs
    rw [hx]
    obtain ⟨l, t, i, y, u⟩ := b
    have hn : ∀ s' : Store, s'.name = s1.name → NameAt s' srcName := by
      intro s' hs'
      obtain ⟨data, k1, k2, k3⟩ := hn0
      refine ⟨data, ?_, k2, k3⟩
      have k1 : some (Store.start srcName junk cells).name = some data := k1
      show some s'.name = some data
      rw [hs', hr.frame.name]; exact k1
    have href := fun inf => hr.held inf
    cases l with
    | none => exact refuse_agree hh (href none) (hn s1 rfl) _ _
    | some l =>
    cases t with
    | none => exact refuse_agree hh (href none) (hn s1 rfl) _ _
    | some t =>
    cases i with
    | none => exact refuse_agree hh (href none) (hn s1 rfl) _ _
    | some i =>
    cases y with
    | none => exact refuse_agree hh (href none) (hn s1 rfl) _ _
    | some y =>
    cases u with
    | none => exact refuse_agree hh (href none) (hn s1 rfl) _ _
    | some u =>
      simp only [Option.map_some]
      cases w.files srcName with
      | none => exact refuse_agree hh (href none) (hn s1 rfl) _ _
      | some content =>
        dsimp only
        cases w.creatable outName with
        | false =>
          simp only [if_true]
          refine refuse_agree (m := s1.fopen o 0) ?_ (href (some 0)) (hn _ rfl) _ _
          show (Memory.fopen 0 o s1.heap).2 = _
          rw [hh]
        | true =>
          simp only [Bool.true_eq_false, if_false]
          refine assemble_agree (hr.between (s'' := (s1.fopen o 0).fopen o 1) hj hn0 rfl rfl rfl rfl ?_) outName _ w
          show (Memory.fopen 1 o (Memory.fopen 0 o s1.heap).2).2 = _
          rw [hh]

end
end Gaia.Low

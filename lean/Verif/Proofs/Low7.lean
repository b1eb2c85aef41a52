import Verif.Proofs.Low6

/-! The model with pointers: the parts of the memory side by side, label declarations and operands. -/
namespace Gaia.Low
open Gaia
open Gaia.Memory (Mem Result Misuse Heap Oracle bind_ok bind_err bind_apply TokenB LexerB SymbolB SymTabB RefB UnresB slotsBlocks getS modifyS
  getS_apply modifyS_apply outOfMemory outOfMemory_apply onHeap_apply lift malloc_granted malloc_refused)

/-! ### The forward references in memory -/

/-- A text in a block. -/
def CharsAt (m : Nat → Option Obj) (p : Nat) (str : Str) : Prop := ∃ data, m p = some (.chars data) ∧ (0 : Byte) ∈ data ∧ cstr data = str

/-- A forward reference in memory. -/
structure RefAt (m : Nat → Option Obj) (r : ForwardRef × RefB) : Prop where
  head : m r.2.blk = some (.ref ⟨r.2.label, r.2.line, r.2.instr, r.1.pc, r.1.lineNum, r.1.status, ⟨.heap r.2.line, r.1.operandLocation⟩⟩)
  label : CharsAt m r.2.label r.1.label
  line : CharsAt m r.2.line r.1.sourceLine
  instr : ∃ op, m r.2.instr = some (.instr { r.1.instr with opcode := op })

/-- The cells of the array. -/
def refCells (refs : List (Option (ForwardRef × RefB))) : List (Option Nat) := refs.map (Option.map fun r => r.2.blk)

/-- The references in memory. -/
structure UnresAt (m : Nat → Option Obj) (u : UnresB) : Prop where
  head : m u.blk = some (.unres ⟨u.arr, u.curr, u.refs.length⟩)
  arr : ∀ a, u.arr = some a → m a = some (.ptrs (refCells u.refs))
  refs : ∀ r, some r ∈ u.refs → RefAt m r

/-- All blocks of the references. -/
def full (u : UnresB) : List Nat := slotsBlocks RefB.blocks u.refs ++ (u.arr.toList ++ [u.blk])

theorem CharsAt.congr {m m' : Nat → Option Obj} {p : Nat} {str : Str} (h : CharsAt m p str) (hm : m' p = m p) : CharsAt m' p str := by
  obtain ⟨data, h1, h2⟩ := h
  exact ⟨data, by rw [hm]; exact h1, h2⟩

theorem CharsAt.text {s : Store} {p : Nat} {str : Str} (h : CharsAt s.mem p str) : TextAt s ⟨.heap p, 0⟩ str := by
  obtain ⟨data, h2, h3, h4⟩ := h
  exact ⟨data, by simp [dataOf, h2], by simpa using h3, by simpa using h4⟩

theorem RefAt.congr {m m' : Nat → Option Obj} {r : ForwardRef × RefB} (h : RefAt m r) (hm : ∀ p ∈ r.2.blocks, m' p = m p) : RefAt m' r :=
  ⟨by rw [hm _ (by simp [RefB.blocks])]; exact h.head, h.label.congr (hm _ (by simp [RefB.blocks])),
    h.line.congr (hm _ (by simp [RefB.blocks])), by rw [hm _ (by simp [RefB.blocks])]; exact h.instr⟩

theorem UnresAt.congr {m m' : Nat → Option Obj} {u : UnresB} (h : UnresAt m u) (hm : ∀ p ∈ full u, m' p = m p) : UnresAt m' u := by
  refine ⟨by rw [hm _ (by simp [full])]; exact h.head, ?_, ?_⟩
  · intro a ha
    rw [hm a (by simp [full, ha])]
    exact h.arr a ha
  · intro r hr
    exact (h.refs r hr).congr fun p hp => hm p (by unfold full; exact List.mem_append_left _ (mem_slotsBlocks.2 ⟨r, hr, hp⟩))

/-! ### The parts of the memory -/

/-- The memory holds what the other model says it holds, at different places. -/
structure Parts (s : Store) (S : Memory.State) : Prop where
  heap : s.heap = S.heap
  scratch : Scratch s S.lexerB S.tkB S.instrB
  tab : TabAt s.mem S.symtab
  unres : UnresAt s.mem S.unres
  tabNodup : S.symtab.blocks.Nodup
  unresNodup : (full S.unres).Nodup
  footTab : ∀ p ∈ foot S.lexerB S.tkB S.instrB, p ∉ S.symtab.blocks
  footUnres : ∀ p ∈ foot S.lexerB S.tkB S.instrB, p ∉ full S.unres
  tabUnres : ∀ p ∈ S.symtab.blocks, p ∉ full S.unres
  footLt : ∀ p ∈ foot S.lexerB S.tkB S.instrB, p < s.heap.next
  tabLt : ∀ p ∈ S.symtab.blocks, p < s.heap.next
  unresLt : ∀ p ∈ full S.unres, p < s.heap.next

/-- What a step on the memory leaves alone. -/
structure Kept (S S' : Memory.State) : Prop where
  pc : S'.pc = S.pc
  lineNum : S'.lineNum = S.lineNum
  total : S'.total = S.total
  out : S'.out = S.out
  lexer : S'.lexer = S.lexer
  lexerB : S'.lexerB = S.lexerB
  tkB : S'.tkB = S.tkB
  instrB : S'.instrB = S.instrB
  tabBlk : S'.symtab.blk = S.symtab.blk
  unresBlk : S'.unres.blk = S.unres.blk

theorem Kept.refl (S : Memory.State) : Kept S S := ⟨rfl, rfl, rfl, rfl, rfl, rfl, rfl, rfl, rfl, rfl⟩

theorem Kept.trans {S S' S'' : Memory.State} (h : Kept S S') (h' : Kept S' S'') : Kept S S'' :=
  ⟨h'.pc.trans h.pc, h'.lineNum.trans h.lineNum, h'.total.trans h.total, h'.out.trans h.out, h'.lexer.trans h.lexer,
    h'.lexerB.trans h.lexerB, h'.tkB.trans h.tkB, h'.instrB.trans h.instrB, h'.tabBlk.trans h.tabBlk, h'.unresBlk.trans h.unresBlk⟩

theorem TabStep.kept {s s' : Store} {S S' : Memory.State} (h : TabStep s S s' S') : Kept S S' := by
  have h1 := h.rest
  have h2 := h.blk
  generalize S'.heap = hp, S'.symtab = st at h1 h2
  subst h1
  exact ⟨rfl, rfl, rfl, rfl, rfl, rfl, rfl, rfl, h2, rfl⟩

/-- The end of a step on the memory. -/
structure Fin (fn : Str) (s : Store) (S : Memory.State) (s' : Store) (S' : Memory.State) : Prop where
  parts : Parts s' S'
  name : NameAt s' fn
  buffer : s'.buffer = s.buffer
  kept : Kept S S'

theorem NameAt.frame {F : List Nat} {s s' : Store} {fn : Str} (h : NameAt s fn) (hf : Frame F s s') : NameAt s' fn :=
  TextAt.frame h hf (fun n hn => by cases hn)

theorem Fin.trans {fn : Str} {s s' s'' : Store} {S S' S'' : Memory.State} (h : Fin fn s S s' S') (h' : Fin fn s' S' s'' S'') :
    Fin fn s S s'' S'' := ⟨h'.parts, h'.name, h'.buffer.trans h.buffer, h.kept.trans h'.kept⟩

section
variable {o : Oracle} {s s' : Store} {S S' : Memory.State} {fn : Str} {lx lx' : Lexer} {tk : Token} {ins : Instr} {buf : Str}
  {lB : LexerB} {tB : TokenB} {iB : Nat}

theorem Parts.symRel (h : Parts s S) : SymRel s S := ⟨h.heap, h.tab, h.tabNodup, h.tabLt⟩

/-- A step on the lexer, the token and the instruction. -/
theorem Parts.only (h : Parts s S) (ho : Only (foot S.lexerB S.tkB S.instrB) s s') (hs : Scratch s' S.lexerB S.tkB S.instrB) : Parts s' S := by
  have hn : s'.heap.next = s.heap.next := by rw [ho.heap]
  exact ⟨by rw [ho.heap]; exact h.heap, hs, h.tab.congr fun p hp => ho.mem p (fun hf => h.footTab p hf hp),
    h.unres.congr fun p hp => ho.mem p (fun hf => h.footUnres p hf hp), h.tabNodup, h.unresNodup, h.footTab, h.footUnres, h.tabUnres,
    by rw [hn]; exact h.footLt, by rw [hn]; exact h.tabLt, by rw [hn]; exact h.unresLt⟩

theorem LexRel.frame {F : List Nat} (h : LexRel s lB tB iB fn lx tk ins) (hf : Frame F s s')
    (hF : ∀ p ∈ foot lB tB iB, p < s.heap.next ∧ p ∉ F) : LexRel s' lB tB iB fn lx tk ins := by
  have hm : ∀ p ∈ foot lB tB iB, s'.mem p = s.mem p := fun p hp => hf.mem p (hF p hp).1 (hF p hp).2
  have hlB : ∀ p ∈ lB.blocks, s'.mem p = s.mem p := fun p hp => hm p (by unfold foot; simp [hp])
  have htB : ∀ p ∈ tB.blocks, s'.mem p = s.mem p := fun p hp => hm p (by unfold foot; simp [hp])
  have hiB : s'.mem iB = s.mem iB := hm _ (by unfold foot; simp)
  refine ⟨h.nodup, h.len, h.seq.frame hlB, h.tok.congr htB, by rw [hiB]; exact h.ins, ?_, h.name.frame hf, h.file⟩
  obtain ⟨x, hx1, hx2, hx3⟩ := h.head
  refine ⟨x, by rw [hlB _ (by simp [LexerB.blocks])]; exact hx1, hx2, ?_⟩
  rcases hx3 with hx | ⟨b, h1, h2, h3, h4⟩
  · exact .inl hx
  · exact .inr ⟨b, h1, h2, h3.frame hf (fun n hn => by cases hn), h4⟩

theorem Scratch.frame {F : List Nat} (h : Scratch s lB tB iB) (hf : Frame F s s')
    (hF : ∀ p ∈ foot lB tB iB, p < s.heap.next ∧ p ∉ F) : Scratch s' lB tB iB := by
  have hm : ∀ p ∈ foot lB tB iB, s'.mem p = s.mem p := fun p hp => hf.mem p (hF p hp).1 (hF p hp).2
  have hlB : ∀ p ∈ lB.blocks, s'.mem p = s.mem p := fun p hp => hm p (by unfold foot; simp [hp])
  have htB : ∀ p ∈ tB.blocks, s'.mem p = s.mem p := fun p hp => hm p (by unfold foot; simp [hp])
  have hiB : s'.mem iB = s.mem iB := hm _ (by unfold foot; simp)
  obtain ⟨seq, hq⟩ := h.seq
  obtain ⟨t, ht⟩ := h.tok
  exact ⟨h.nodup, h.len, ⟨seq, hq.frame hlB⟩, ⟨t, ht.congr htB⟩, by rw [hiB]; exact h.ins⟩

/-- A step on the table. -/
theorem Parts.tabStep (h : Parts s S) (ht : TabStep s S s' S') : Parts s' S' := by
  have hk := ht.kept
  have hu : S'.unres = S.unres := by rw [ht.rest]
  have hfoot : foot S'.lexerB S'.tkB S'.instrB = foot S.lexerB S.tkB S.instrB := by rw [hk.lexerB, hk.tkB, hk.instrB]
  have hsub : ∀ {F : List Nat}, (∀ p ∈ F, p < s.heap.next) → (∀ p ∈ F, p ∉ S.symtab.blocks) → ∀ p ∈ F, p ∉ S'.symtab.blocks := by
    intro F h1 h2 p hp hp'
    rcases ht.sub p hp' with h3 | h3
    · exact h2 p hp h3
    · have := h1 p hp; omega
  refine ⟨ht.rel.heap, ?_, ht.rel.tab, ?_, ht.rel.nodup, by rw [hu]; exact h.unresNodup, ?_, ?_, ?_, ?_, ht.rel.lt, ?_⟩
  · rw [hk.lexerB, hk.tkB, hk.instrB]
    exact h.scratch.frame ht.frame fun p hp => ⟨h.footLt p hp, h.footTab p hp⟩
  · rw [hu]
    exact h.unres.congr fun p hp => ht.frame.mem p (h.unresLt p hp) (fun hp' => h.tabUnres p hp' hp)
  · rw [hfoot]; exact hsub h.footLt h.footTab
  · rw [hfoot, hu]; exact h.footUnres
  · rw [hu]
    intro p hp hp'
    exact hsub h.unresLt (fun q hq hq' => h.tabUnres q hq' hq) p hp' hp
  · rw [hfoot]; intro p hp; exact Nat.lt_of_lt_of_le (h.footLt p hp) ht.frame.next
  · rw [hu]; intro p hp; exact Nat.lt_of_lt_of_le (h.unresLt p hp) ht.frame.next

theorem Parts.failed (h : Parts s S) (hn : NameAt s fn) (hf : Failed s S.lexerB S.tkB S.instrB s') : Fin fn s S s' S :=
  ⟨h.only hf.only hf.scratch, hn.only hf.only, hf.only.buffer, Kept.refl _⟩

/-! ### Label declarations -/

/-- The state after a declaration. -/
structure Declared (fn : Str) (s : Store) (S : Memory.State) (lx : Lexer) (tk : Token) (ins : Instr) (i : Nat) (s' : Store)
    (S' : Memory.State) : Prop where
  fin : Fin fn s S s' S'
  same : S'.instr = S.instr
  unres : S'.unres = S.unres
  lexer : ∃ lx', LexRel s' S'.lexerB S'.tkB S'.instrB fn lx' tk ins ∧ Like lx lx' ∧ (i = 0 → Same lx lx')

theorem like_set {i : Nat} {t : Token} (hi : lx.seq[i]? = some t) (v : Nat) :
    Like lx { lx with seq := lx.seq.set i { t with value := v } } ∧
      (i = 0 → Same lx { lx with seq := lx.seq.set i { t with value := v } }) := by
  have h1 : Like lx { lx with seq := lx.seq.set i { t with value := v } } := by
    refine ⟨rfl, rfl, rfl, ?_⟩
    show (lx.seq.set i _).map _ = _
    rw [List.map_set]
    apply List.ext_getElem?
    intro j
    rw [List.getElem?_set]
    split_ifs with h2 h3
    · subst h2
      rw [List.getElem?_map, hi]
      rfl
    · subst h2
      rw [List.getElem?_eq_none (by omega)]
    · rfl
  refine ⟨h1, ?_⟩
  rintro rfl
  refine ⟨h1, ?_⟩
  intro j hj
  show (lx.seq.set 0 _)[j]? = _
  rw [List.getElem?_set_ne (by omega)]

theorem define_sim (h : Parts s S) (hr : LexRel s S.lexerB S.tkB S.instrB fn lx tk ins) {i : Nat} {b : TokenB} {t : Token}
    (hb : S.lexerB.toks[i]? = some b) (hi : lx.seq[i]? = some t) (ht : TokAt s.mem b t) (v : Nat) :
    Sim (define S.symtab.blk b.blk v o s) (Memory.insertSymbol t.str (toInt32 v) o S)
      (fun _ s' _ S' => Declared fn s S lx tk ins i s' S') (Fin fn s S) := by
  unfold define
  obtain ⟨s1, h1, h2, h3⟩ := setTokValue_run (o := o) ht v
  rw [bind_ok h1]
  have hw := hr.write hb h2 (h3.mono (by simp [TokenB.blocks]))
  have hbf : ∀ p ∈ b.blocks, p ∈ foot S.lexerB S.tkB S.instrB := mem_foot_tok hb
  have ho : Only (foot S.lexerB S.tkB S.instrB) s s1 :=
    h3.mono (fun p hp => hbf p (by simp only [List.mem_singleton] at hp; simp [TokenB.blocks, hp]))
  have hp1 := h.only ho hw.scratch
  have h2' := h2
  obtain ⟨data, e, h4, _⟩ := h2
  rw [bind_ok (loadToken_run h4)]
  dsimp only
  have hstr : b.str ∈ foot S.lexerB S.tkB S.instrB := hbf _ (by simp [TokenB.blocks])
  have hsafe : Loc.Safe ⟨.heap b.str, 0⟩ S.symtab.blocks s1 := by
    intro n hn
    simp only [Base.heap.injEq] at hn
    subst hn
    exact ⟨hp1.footLt _ hstr, h.footTab _ hstr⟩
  have hin := insertSymbol_sim (o := o) (value := toInt32 v) hp1.symRel h2'.text hsafe
  have hfin : ∀ s' S', TabStep s1 S s' S' → Fin fn s S s' S' := by
    intro s' S' ht'
    exact ⟨hp1.tabStep ht', (hr.name.only ho).frame ht'.frame, ht'.frame.buffer.trans ho.buffer, ht'.kept⟩
  refine hin.mono ?_ hfin
  intro _ s' _ S' ht'
  refine ⟨hfin s' S' ht', by rw [ht'.rest], by rw [ht'.rest], _, ?_, like_set hi v⟩
  have hk := ht'.kept
  rw [hk.lexerB, hk.tkB, hk.instrB]
  exact hw.frame ht'.frame fun p hp => ⟨hp1.footLt p hp, h.footTab p hp⟩

theorem redefinition_sim (h : Parts s S) (hr : LexRel s S.lexerB S.tkB S.instrB fn lx tk ins) (hl : lx.line = some buf) {i : Nat} {b : TokenB}
    {t : Token} (hb : S.lexerB.toks[i]? = some b) (ht : TokAt s.mem b t) {Q : Unit → Store → Unit → Memory.State → Prop} :
    Sim (redefinition S.lexerB.blk b.blk o s)
      (lift (Gaia.raise lx.line .labelRedefinition t.bufferLocation lx.fileName lx.lineNum) o S) Q (Fin fn s S) := by
  have := raiseTok_sim (α := Unit) (β := Unit) (o := o) (Q := fun _ _ _ => False) hr hl .labelRedefinition hb ht
  exact (this.lifted (fun _ hf => h.failed hr.name hf)).mono (fun _ _ _ _ hq => hq.2.2.elim) (fun _ _ he => he)

/-- The value of the third token. -/
theorem defineLit_sim (h : Parts s S) (hr : LexRel s S.lexerB S.tkB S.instrB fn lx tk ins) {i : Nat} {b : TokenB} {t : Token}
    (hb : S.lexerB.toks[i]? = some b) (hi : lx.seq[i]? = some t) (ht : TokAt s.mem b t) :
    Sim ((do
        let lit ← seqTok S.lexerB.blk 2
        define S.symtab.blk b.blk lit.value : M Unit) o s)
      ((do
        let lit ← lift (slot lx 2)
        Memory.insertSymbol t.str (toInt32 lit.value) : Mem Memory.State Unit) o S)
      (fun _ s' _ S' => Declared fn s S lx tk ins i s' S') (Fin fn s S) := by
  unfold slot
  cases h2 : lx.seq[2]? with
  | none => trivial
  | some u =>
    obtain ⟨b2, hb2, ht2⟩ := hr.seq.get h2
    obtain ⟨data, e, h3, _⟩ := ht2
    rw [bind_ok (seqTok_run hr hb2 h3), bind_ok (Memory.lift_ok u o S)]
    exact define_sim h hr hb hi ht u.value

theorem parseLabelDeclaration_sim (h : Parts s S) (hr : LexRel s S.lexerB S.tkB S.instrB fn lx tk ins) (hl : lx.line = some buf)
    {t0 : Token} (h0 : lx.seq[0]? = some t0) (pc : Nat) :
    Sim (parseLabelDeclaration S.lexerB.blk S.symtab.blk pc o s) (Memory.parseLabelDeclaration lx pc o S)
      (fun _ s' _ S' => Declared fn s S lx tk ins (if t0.type = .defineDirective then 1 else 0) s' S') (Fin fn s S) := by
  unfold parseLabelDeclaration Memory.parseLabelDeclaration
  obtain ⟨b0, hb0, ht0⟩ := hr.seq.get h0
  have hs0 : slot lx 0 = .ok t0 := by unfold slot; rw [h0]
  rw [hs0, bind_ok (Memory.lift_ok t0 o S), bind_ok (hr.seq.seqPtr hb0)]
  cases h1 : lx.seq[1]? with
  | none =>
    have hs1 : slot lx 1 = .ub .outOfBounds := by unfold slot; rw [h1]
    rw [hs1]
    trivial
  | some t1 =>
    have hs1 : slot lx 1 = .ok t1 := by unfold slot; rw [h1]
    obtain ⟨b1, hb1, ht1⟩ := hr.seq.get h1
    rw [hs1, bind_ok (Memory.lift_ok t1 o S), bind_ok (hr.seq.seqPtr hb1), bind_ok (getS_apply o S)]
    have ht0' := ht0
    have ht1' := ht1
    obtain ⟨d0, e0, h00, _⟩ := ht0'
    obtain ⟨d1, e1, h11, _⟩ := ht1'
    rw [bind_ok (loadToken_run h00)]
    dsimp only
    have hE : Fin fn s S s S := ⟨h, hr.name, rfl, Kept.refl _⟩
    refine Sim.bind ((searchSymbol_sim (o := o) h.tab ht0.text (fun s' => Fin fn s S s' S)).lifted (fun _ hx => hx)) ?_
    rintro found s' _ S' ⟨rfl, -, rfl, rfl⟩
    rw [bind_ok (loadToken_run h11)]
    dsimp only
    refine Sim.bind ((searchSymbol_sim (o := o) h.tab ht1.text (fun s'' => Fin fn s' S' s'' S')).lifted (fun _ hx => hx)) ?_
    rintro foundD s'' _ S'' ⟨rfl, -, rfl, rfl⟩
    -- a definition of the first token
    have hz : ∀ s1 S1, Declared fn s'' S'' lx tk ins 0 s1 S1 →
        Declared fn s'' S'' lx tk ins (if t0.type = .defineDirective then 1 else 0) s1 S1 := by
      intro s1 S1 hd
      obtain ⟨l', g1, g2, g3⟩ := hd.lexer
      exact ⟨hd.fin, hd.same, hd.unres, l', g1, g2, fun _ => g3 rfl⟩
    refine Sim.ite (fun hc1 => ?_) (fun hc1 => ?_)
    · refine Sim.ite (fun hc2 => redefinition_sim h hr hl hb0 ht0) (fun hc2 => ?_)
      exact (define_sim h hr hb0 h0 ht0 pc).mono (fun _ _ _ _ hd => hz _ _ hd) (fun _ _ he => he)
    refine Sim.ite (fun hc2 => ?_) (fun hc2 => ?_)
    · refine Sim.ite (fun hc3 => redefinition_sim h hr hl hb0 ht0) (fun hc3 => ?_)
      exact (defineLit_sim h hr hb0 h0 ht0).mono (fun _ _ _ _ hd => hz _ _ hd) (fun _ _ he => he)
    refine Sim.ite (fun hc3 => ?_) (fun hc3 => ?_)
    · refine Sim.ite (fun hc4 => redefinition_sim h hr hl hb1 ht1) (fun hc4 => ?_)
      rw [if_pos hc3]
      exact defineLit_sim h hr hb1 h1 ht1
    · have := raiseLine_sim (α := Unit) (β := Unit) (o := o) (Q := fun _ _ _ => False) hr hl .unknown none (E := fun s' => s' = s'') rfl
      refine (this.lifted (E' := Fin fn s'' S'') ?_).mono (fun _ _ _ _ hq => hq.2.2.elim) (fun _ _ he => he)
      rintro _ rfl
      exact hE

/-! ### Operands -/

/-- The state after a step on an instruction. -/
structure Opd (fn : Str) (s : Store) (lB : LexerB) (tB : TokenB) (iB : Nat) (lx : Lexer) (tk : Token) (ins : Instr) (r : Option Nat)
    (s' : Store) (op : Option Token) : Prop where
  only : Only (foot lB tB iB) s s'
  lexer : ∃ lx', LexRel s' lB tB iB fn lx' tk ins ∧ Like lx lx' ∧ OpAt s' lB lx' r op

/-- A value for the operand. -/
theorem setOperand (h : LexRel s lB tB iB fn lx' tk ins) (hk : Like lx lx') {i : Nat} {b : TokenB} {t : Token}
    (hb : lB.toks[i]? = some b) (ht : TokAt s.mem b t) (hi : lx'.seq[i]? = some t) (v : Nat) :
    ∃ s', setTokValue b.blk v o s = (.ok (), s') ∧ Opd fn s lB tB iB lx tk ins (some b.blk) s' (some { t with value := v }) := by
  obtain ⟨s1, h1, h2, h3⟩ := setTokValue_run (o := o) ht v
  have hw := h.write hb h2 (h3.mono (by simp [TokenB.blocks]))
  refine ⟨s1, h1, h3.mono ?_, _, hw, ?_, .inr ⟨i, b, _, rfl, rfl, hb, h2, ?_⟩⟩
  · intro p hp
    exact mem_foot_tok hb p (by simp only [List.mem_singleton] at hp; simp [TokenB.blocks, hp])
  · have := (like_set hi v).1
    exact ⟨hk.line, hk.num, hk.file, this.types.trans hk.types⟩
  · have hlt := (List.getElem?_eq_some_iff.1 hi).1
    show (lx'.seq.set i _)[i]? = _
    rw [List.getElem?_set_self hlt]

theorem Opd.refl (h : LexRel s lB tB iB fn lx' tk ins) (hk : Like lx lx') {r : Option Nat} {op : Option Token} (ho : OpAt s lB lx' r op) :
    Opd fn s lB tB iB lx tk ins r s op := ⟨Only.refl _ _, lx', h, hk, ho⟩

theorem parseLabelOperand_sim (h : LexRel s lB tB iB fn lx' tk ins) (hk : Like lx lx') (hl : lx.line = some buf) {tab : SymTabB}
    (htab : TabAt s.mem tab) {i : Nat} {b : TokenB} {t : Token}
    (hb : lB.toks[i]? = some b) (ht : TokAt s.mem b t) (hi : lx'.seq[i]? = some t) :
    SimR (parseLabelOperand lB.blk iB b.blk tab.blk o s) (Gaia.parseLabelOperand lx ins t tab.bare)
      (fun a s' r => a = r.1 ∧ Opd fn s lB tB iB lx tk ins (some b.blk) s' (some r.2)) (Failed s lB tB iB) := by
  unfold parseLabelOperand Gaia.parseLabelOperand
  have ht' := ht
  obtain ⟨d, e, h1, _⟩ := ht'
  rw [bind_ok (loadToken_run h1)]
  dsimp only
  refine SimR.bind (searchSymbol_sim (o := o) htab ht.text _) ?_
  rintro v s' _ ⟨rfl, rfl⟩
  rw [bind_ok (loadInstr_run h.ins)]
  have href : Opd fn s' lB tB iB lx tk ins (some b.blk) s' (some t) := Opd.refl h hk (.inr ⟨i, b, t, rfl, rfl, hb, ht, hi⟩)
  refine SimR.ite (fun _ => ?_) (fun _ => ?_)
  · obtain ⟨s1, g1, g2⟩ := setOperand (o := o) h hk hb ht hi (toUInt32 v)
    rw [bind_ok g1]
    refine SimR.ite (fun _ => ⟨_, _, rfl, rfl, g2⟩) (fun _ => SimR.ite (fun _ => ⟨_, _, rfl, rfl, g2⟩) (fun _ => ⟨_, _, rfl, rfl, g2⟩))
  refine SimR.ite (fun _ => ⟨_, _, rfl, rfl, href⟩) (fun _ => SimR.ite (fun _ => ⟨_, _, rfl, rfl, href⟩) (fun _ => ?_))
  rw [← hk.line, ← hk.num, ← hk.file]
  exact raiseTok_sim h (by rw [hk.line]; exact hl) _ hb ht

theorem parseOperand_sim (h : LexRel s lB tB iB fn lx' tk ins) (hk : Like lx lx') (hl : lx.line = some buf) {tab : SymTabB}
    (htab : TabAt s.mem tab) {r : Option Nat} {op : Option Token} (ho : OpAt s lB lx' r op) :
    SimR (parseOperand lB.blk iB r tab.blk o s) (Gaia.parseOperand lx ins op tab.bare)
      (fun a s' x => a = x.1 ∧ Opd fn s lB tB iB lx tk ins r s' x.2) (Failed s lB tB iB) := by
  have ho' := ho
  unfold parseOperand Gaia.parseOperand
  rcases ho with ⟨rfl, rfl⟩ | ⟨i, b, t, rfl, rfl, hb, ht, hi⟩
  · exact ⟨_, _, rfl, rfl, Opd.refl h hk ho'⟩
  · dsimp only
    have ht' := ht
    obtain ⟨d, e, h1, _⟩ := ht'
    rw [bind_ok (loadToken_run h1)]
    dsimp only
    by_cases hc : t.type = .label
    · rw [if_pos hc, if_pos hc]
      have := parseLabelOperand_sim (o := o) h hk hl htab hb ht hi
      revert this
      cases Gaia.parseLabelOperand lx ins t tab.bare with
      | ub => intro _; trivial
      | err f => exact fun h => h
      | ok x => exact fun h => h
    rw [if_neg hc, if_neg hc]
    refine SimR.ite (fun _ => ⟨_, _, rfl, rfl, Opd.refl h hk ho'⟩) (fun _ => ?_)
    rw [← hk.line, ← hk.num, ← hk.file]
    exact raiseLine_sim h (by rw [hk.line]; exact hl) _ none h.failed

end

end Gaia.Low

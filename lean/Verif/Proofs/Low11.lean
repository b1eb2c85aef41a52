import Verif.Proofs.Low10

/-! The model with pointers: the lines of a source, and the patching of references. -/
namespace Gaia.Low
open Gaia
open Gaia.Memory

section
variable {o : Oracle} {σ σ' : State} {S S' : Memory.State} {fn : Str} {s' : Store} {α β : Type}

/-! ### One line -/

/-- A line has been parsed; `t0` is its first token, in the blocks `b0`. -/
structure AtLine (fn : Str) (σ : State) (S : Memory.State) (buf : Str) (t0 : Token) (b0 : TokenB) : Prop extends Linked fn σ S where
  arr : S.unres.arr.isSome = true
  line : S.lexer.line = some buf
  lex : ∃ lx' tk, LexRel σ.store S.lexerB S.tkB S.instrB fn lx' tk S.instr ∧ Like S.lexer lx' ∧
    (S.instr.mnemonic ≠ none → Same S.lexer lx')
  text : TextAt σ.store theBuffer buf
  pos : ∀ (i : Nat) t p, S.lexer.seq[i]? = some t → t.bufferLocation = some p → GoodChar buf p
  first : S.lexer.seq[0]? = some t0
  ptr : S.lexerB.toks[0]? = some b0

/-- The first token still has its type. -/
theorem AtLine.tok {buf : Str} {t0 : Token} {b0 : TokenB} (h : AtLine fn σ S buf t0 b0) :
    ∃ t : TokenO, σ.store.mem b0.blk = some (.token t) ∧ t.type = t0.type := by
  obtain ⟨lx', tk, h1, h2, _⟩ := h.lex
  have ht := congrArg (·[0]?) h2.types
  simp only [List.getElem?_map, h.first, Option.map_some] at ht
  cases hu : lx'.seq[0]? with
  | none => rw [hu] at ht; cases ht
  | some u =>
    rw [hu] at ht
    obtain ⟨b, hb, e, h3, h4, _⟩ := h1.seq.get hu
    rw [h.ptr] at hb
    cases hb
    exact ⟨_, h4, by simpa using ht⟩

theorem declareStep_sim {buf : Str} {t0 : Token} {b0 : TokenB} (h : AtLine fn σ S buf t0 b0)
    (hlex : ∃ tk, LexRel σ.store S.lexerB S.tkB S.instrB fn S.lexer tk S.instr)
    (hdef : t0.type = .defineDirective → S.instr.mnemonic = none) :
    Sim (declareStep b0.blk o σ) (Memory.declareStep t0 o S) (fun _ σ' _ S' => AtLine fn σ' S' buf t0 b0 ∧ S'.instr = S.instr ∧
      σ'.lexer = σ.lexer ∧ σ'.instr = σ.instr) (Linked fn) := by
  obtain ⟨store, pc, lineNum, total, out, lexer, tk0, instr, symtab, unres⟩ := σ
  obtain rfl : lexer = _ := h.lexer
  obtain rfl : symtab = _ := h.symtab
  obtain rfl : pc = _ := h.pc
  obtain ⟨tk, hr⟩ := hlex
  obtain ⟨b, hb, ht⟩ := hr.seq.get h.first
  rw [h.ptr] at hb
  cases hb
  obtain ⟨d, e, h1, _⟩ := ht
  unfold declareStep Memory.declareStep
  rw [bind_ok (getS_apply o _), bind_ok (getS_apply o S), bind_ok (onStore_run (loadToken_run h1))]
  dsimp only
  refine Sim.ite (fun hc => onStore_sim ?_) (fun hc => Sim.ite (fun hc2 => ?_) (fun hc2 => ⟨(), _, rfl, h, rfl, rfl, rfl⟩))
  · refine (parseLabelDeclaration_sim (o := o) h.parts hr h.line h.first S.pc).mono ?_ (fun _ _ hf => h.toLinked.fin hf)
    intro _ s1 _ S1 hd
    obtain ⟨lx', g1, g2, g3⟩ := hd.lexer
    have hk := hd.fin.kept
    refine ⟨⟨h.toLinked.fin hd.fin, ?_, ?_, ⟨lx', tk, ?_, ?_, ?_⟩, ?_, ?_, ?_, ?_⟩, hd.same, rfl, rfl⟩
    · rw [hd.unres]; exact h.arr
    · rw [hk.lexer]; exact h.line
    · rw [hd.same]; exact g1
    · rw [hk.lexer]; exact g2
    · rw [hd.same, hk.lexer]
      intro hm
      refine g3 (if_neg fun hdd => hm (hdef hdd))
    · obtain ⟨data, k1, k2⟩ := h.text
      exact ⟨data, by simp only [theBuffer, dataOf] at k1 ⊢; rw [hd.fin.buffer]; exact k1, k2⟩
    · rw [hk.lexer]; exact h.pos
    · rw [hk.lexer]; exact h.first
    · rw [hk.lexerB]; exact h.ptr
  · refine ⟨(), _, rfl, ⟨?_, h.arr, h.line, h.lex, h.text, h.pos, h.first, h.ptr⟩, rfl, rfl, rfl⟩
    have hv := h.toLinked.vars t0.value S.lineNum S.total S.out
    rw [← h.lineNum, ← h.total, ← h.out] at hv
    convert hv using 2
    · rw [h.lineNum]
    · rw [h.total]
    · rw [h.out]

theorem memLineStep_eq (raw : List Byte) : Memory.lineStep raw = (do
    let s ← getS
    let x ← lift (Gaia.lexLine raw s.lexer s.tk s.instr s.lineNum)
    let lexer ← lift (Gaia.parseLine x.1)
    modifyS fun s => { s with lexer := lexer, tk := x.2.1, instr := x.2.2 }
    let first ← lift (slot lexer 0)
    Memory.declareStep first
    if first.type = TokenType.endDirective then pure false
    else if x.2.2.mnemonic = none then do
      Memory.bumpLine
      pure true
    else do
      Memory.instructionStep (cstr raw)
      pure true : Mem Memory.State Bool) := rfl

theorem lineStep_sim (h : Linked fn σ S) (harr : S.unres.arr.isSome = true) {raw : List Byte} (hraw : raw.length + 1 ≤ MAX_BUFFER_SIZE) :
    Sim (lineStep raw o σ) (Memory.lineStep raw o S) (fun a σ' b S' => a = b ∧ Between fn σ' S') (Linked fn) := by
  rw [memLineStep_eq]
  unfold lineStep
  obtain ⟨store, pc, lineNum, total, out, lexer, tk0, instr, symtab, unres⟩ := σ
  obtain rfl : lexer = _ := h.lexer
  obtain rfl : tk0 = _ := h.tk
  obtain rfl : instr = _ := h.instr
  obtain rfl : lineNum = _ := h.lineNum
  obtain ⟨s0, h0, hL0, ht0⟩ := fgets_run (o := o) h hraw
  rw [bind_ok h0, bind_ok (getS_apply o _), bind_ok (getS_apply o S)]
  dsimp only
  refine Sim.bind (Q := fun _ σ' x S' => S = S' ∧ Gaia.lexLine raw S.lexer S.tk S.instr S.lineNum = .ok x ∧
      ∃ s', σ' = ⟨s', pc, S.lineNum, total, out, S.lexerB.blk, S.tkB.blk, S.instrB, symtab, unres⟩ ∧ Lexed s0 S.lexerB S.tkB S.instrB fn (cstr raw) S.lineNum s' x) (onStore_sim ?_) ?_
  · refine ((lexLine_sim (o := o) hL0.parts.scratch h.len h.file hL0.name ht0 S.tk S.instr).lifted (t := S)
        (E' := fun s S' => Linked fn ⟨s, pc, S.lineNum, total, out, S.lexerB.blk, S.tkB.blk, S.instrB, symtab, unres⟩ S') (fun s hf => hL0.failed hf)).mono ?_ (fun _ _ he => he)
    rintro _ s x S' ⟨rfl, hx, hq⟩
    exact ⟨rfl, hx, s, rfl, hq⟩
  rintro _ _ ⟨lx1, tk, ins⟩ _ ⟨rfl, hlex, s1, rfl, hq⟩
  have hL1 : Linked fn ⟨s1, pc, S.lineNum, total, out, S.lexerB.blk, S.tkB.blk, S.instrB, symtab, unres⟩ S := hL0.failed ⟨hq.rel.scratch, hq.only⟩
  dsimp only
  refine Sim.bind (Q := fun _ σ' x S' => S = S' ∧ Gaia.parseLine lx1 = .ok x ∧
      ∃ s', σ' = ⟨s', pc, S.lineNum, total, out, S.lexerB.blk, S.tkB.blk, S.instrB, symtab, unres⟩ ∧ Parsed s1 S.lexerB S.tkB S.instrB fn lx1 tk ins s' x) (onStore_sim ?_) ?_
  · refine ((parseLine_sim (o := o) hq.rel hq.line).lifted (t := S)
        (E' := fun s S' => Linked fn ⟨s, pc, S.lineNum, total, out, S.lexerB.blk, S.tkB.blk, S.instrB, symtab, unres⟩ S') (fun s hf => hL1.failed hf)).mono ?_ (fun _ _ he => he)
    rintro _ s x S' ⟨rfl, hx, hq⟩
    exact ⟨rfl, hx, s, rfl, hq⟩
  rintro _ _ lx _ ⟨rfl, hparse, s2, rfl, hp⟩
  have hL2 : Linked fn ⟨s2, pc, S.lineNum, total, out, S.lexerB.blk, S.tkB.blk, S.instrB, symtab, unres⟩ S := hL1.failed ⟨hp.rel.scratch, hp.only⟩
  obtain ⟨f1, f2, f3, f4⟩ := line_facts h.len hlex hparse
  rw [bind_ok (modifyS_apply _ o S)]
  have hlen : 0 < lx.seq.length := by rw [f1]; decide
  have hfst : lx.seq[0]? = some lx.seq[0] := List.getElem?_eq_getElem hlen
  have hs0 : slot lx 0 = .ok lx.seq[0] := by unfold slot; rw [hfst]
  obtain ⟨b0, hb0, htok0⟩ := hp.rel.seq.get hfst
  rw [hs0, bind_ok (Memory.lift_ok lx.seq[0] o _), bind_ok (onStore_run (hp.rel.seq.seqPtr hb0))]
  have hat : AtLine fn ⟨s2, pc, S.lineNum, total, out, S.lexerB.blk, S.tkB.blk, S.instrB, symtab, unres⟩ { S with lexer := lx, tk := tk, instr := ins } (cstr raw) lx.seq[0] b0 := by
    refine ⟨⟨hL2.parts.vars _ _ _ _ _ _ _, hL2.name, hL2.buffer, hL2.pc, hL2.lineNum, hL2.total, hL2.out, hL2.lexer, hL2.tk, hL2.instr,
      hL2.symtab, hL2.unres, f1, f2.trans h.file⟩, harr, hp.line.trans hq.line,
      ⟨lx, tk, hp.rel, ⟨rfl, rfl, rfl, rfl⟩, fun _ => ⟨⟨rfl, rfl, rfl, rfl⟩, fun _ _ => rfl⟩⟩, ?_, f3, hfst, hb0⟩
    exact TextAt.only (n := 0) (TextAt.only (n := 0) ht0 hq.only) hp.only
  refine Sim.bind (declareStep_sim (o := o) hat ⟨tk, hp.rel⟩ (f4 _ hfst)) ?_
  rintro _ σ3 _ S3 ⟨h3, h4, h5, h6⟩
  obtain ⟨t, g1, g2⟩ := h3.tok
  rw [bind_ok (onStore_run (loadToken_run g1)), g2]
  have hσ3 : ({ σ3 with store := σ3.store } : State) = σ3 := rfl
  obtain ⟨lx', tk', k1, k2, k3⟩ := h3.lex
  have hbet : Between fn σ3 S3 := ⟨h3.toLinked, h3.arr, lx', tk', S3.instr, k1, k2⟩
  refine Sim.ite (fun _ => ⟨_, _, rfl, rfl, hbet⟩) (fun _ => ?_)
  have hins : loadInstr S.instrB o σ3.store = (.ok ins, σ3.store) := by
    refine loadInstr_run ?_
    have := k1.ins
    rw [h4] at this
    rw [← h3.instr, h6, ← h.instr] at *
    exact this
  rw [bind_ok (onStore_run hins)]
  refine Sim.ite (fun _ => ?_) (fun hm => ?_)
  · refine Sim.bind (bumpLine_sim hbet) ?_
    intro _ σ4 _ S4 h8
    exact ⟨_, _, rfl, rfl, h8⟩
  · refine Sim.bind (instructionStep_sim (buf := cstr raw) ⟨h3.toLinked, h3.arr, h3.line, ⟨lx', tk', k1, k3 (by rw [h4]; exact hm)⟩, h3.text, h3.pos⟩) ?_
    intro _ σ4 _ S4 h8
    exact ⟨_, _, rfl, rfl, h8⟩

/-! ### All lines -/

theorem mainLoop_sim : ∀ (lines : List (List Byte)) {σ : State} {S : Memory.State}, Between fn σ S →
    (∀ l ∈ lines, l.length + 1 ≤ MAX_BUFFER_SIZE) →
    Sim (mainLoop lines o σ) (Memory.mainLoop lines o S) (fun _ σ' _ S' => Between fn σ' S') (Linked fn) := by
  intro lines
  induction lines with
  | nil => intro σ S h _; exact ⟨(), σ, rfl, h⟩
  | cons l rest ih =>
    intro σ S h hl
    unfold mainLoop Memory.mainLoop
    refine Sim.bind (lineStep_sim h.toLinked h.arr (hl l (by simp))) ?_
    rintro a σ' _ S' ⟨rfl, h'⟩
    cases a with
    | false => exact ⟨(), σ', rfl, h'⟩
    | true => exact ih h' fun l' hl' => hl l' (by simp [hl'])

theorem fgets_length : ∀ (n : Nat) (s : List Byte), (fgets n s).1.length ≤ n := by
  intro n
  induction n with
  | zero => intro s; cases s <;> simp [fgets]
  | succ n ih =>
    intro s
    cases s with
    | nil => simp [fgets]
    | cons c s =>
      have := ih s
      unfold fgets
      split_ifs <;> simp [this]

theorem chunksAux_line : ∀ (fuel : Nat) (s : List Byte), ∀ l ∈ chunksAux fuel s, l.length + 1 ≤ MAX_BUFFER_SIZE := by
  intro fuel
  induction fuel with
  | zero => intro s l hl; simp [chunksAux] at hl
  | succ fuel ih =>
    intro s l hl
    unfold chunksAux at hl
    split at hl
    · simp at hl
    · rcases List.mem_cons.1 hl with rfl | hl
      · have := fgets_length (MAX_BUFFER_SIZE - 1) s
        have h1 : 0 < MAX_BUFFER_SIZE := by decide
        omega
      · exact ih _ l hl

/-! ### Patching -/

/-- A block belongs to one slot. -/
theorem slots_unique {α β : Type} {f : β → List Nat} {slots : List (Option (α × β))} (h : (slotsBlocks f slots).Nodup) {y z : α × β} {p : Nat}
    (hy : some y ∈ slots) (hz : some z ∈ slots) (hpy : p ∈ f y.2) (hpz : p ∈ f z.2) : y = z := by
  induction slots with
  | nil => cases hy
  | cons x slots ih =>
    have hc : slotsBlocks f (x :: slots) = slotsBlocks f [x] ++ slotsBlocks f slots := by
      unfold slotsBlocks; rw [List.flatMap_cons, List.flatMap_cons]; simp
    rw [hc, List.nodup_append] at h
    obtain ⟨_, h2, h3⟩ := h
    rcases List.mem_cons.1 hy with hy1 | hy1 <;> rcases List.mem_cons.1 hz with hz1 | hz1
    · rw [← hy1] at hz1; cases hz1; rfl
    · exact absurd rfl (h3 p (mem_slotsBlocks.2 ⟨y, by simp [hy1], hpy⟩) p (mem_slotsBlocks.2 ⟨z, hz1, hpz⟩))
    · exact absurd rfl (h3 p (mem_slotsBlocks.2 ⟨z, by simp [hz1], hpz⟩) p (mem_slotsBlocks.2 ⟨y, hy1, hpy⟩))
    · exact ih h2 hy1 hz1

theorem slots_nodup {α β : Type} {f : β → List Nat} {slots : List (Option (α × β))} (h : (slotsBlocks f slots).Nodup) {y : α × β}
    (hy : some y ∈ slots) : (f y.2).Nodup := by
  induction slots with
  | nil => cases hy
  | cons x slots ih =>
    have hc : slotsBlocks f (x :: slots) = slotsBlocks f [x] ++ slotsBlocks f slots := by
      unfold slotsBlocks; rw [List.flatMap_cons, List.flatMap_cons]; simp
    rw [hc, List.nodup_append] at h
    obtain ⟨h1, h2, _⟩ := h
    rcases List.mem_cons.1 hy with hy1 | hy1
    · rw [← hy1] at h1; simpa [slotsBlocks] using h1
    · exact ih h2 hy1

/-- The opcode in a reference's instruction is set. -/
theorem unres_opcode {s : Store} (h : Parts s S) {r : ForwardRef × RefB} (hr : some r ∈ S.unres.refs) (c : Int) :
    UnStep s S (s.put r.2.instr (.instr { r.1.instr with opcode := c })) S := by
  have hmem : r.2.instr ∈ full S.unres := by
    unfold full
    exact List.mem_append_left _ (mem_slotsBlocks.2 ⟨r, hr, by simp [RefB.blocks]⟩)
  have hnd := h.unresNodup
  unfold full at hnd
  rw [List.nodup_append] at hnd
  obtain ⟨n1, n2, n3⟩ := hnd
  have hslot : r.2.instr ∈ slotsBlocks RefB.blocks S.unres.refs := mem_slotsBlocks.2 ⟨r, hr, by simp [RefB.blocks]⟩
  refine ⟨h.heap, ⟨?_, ?_, ?_⟩, h.unresNodup, h.unresLt, (Only.put (F := full S.unres) hmem).frame, fun p hp => .inl hp, rfl, rfl⟩
  · rw [put_other (fun he => n3 _ hslot S.unres.blk (by simp) he.symm)]
    exact h.unres.head
  · intro a ha
    rw [put_other (fun he => n3 _ hslot a (by simp [ha]) he.symm)]
    exact h.unres.arr a ha
  · intro r' hr'
    by_cases hrr : r' = r
    · subst hrr
      have hd := slots_nodup n1 hr
      simp only [RefB.blocks, List.nodup_cons, List.mem_cons, List.not_mem_nil, or_false, not_or] at hd
      have h0 := h.unres.refs r' hr'
      exact ⟨by rw [put_other (fun he => hd.2.2.1 he.symm)]; exact h0.head, h0.label.congr (put_other hd.1.2.1),
        h0.line.congr (put_other hd.2.1.1), ⟨c, by rw [put_same]⟩⟩
    · refine (h.unres.refs r' hr').congr fun p hp => put_other ?_
      rintro rfl
      exact hrr (slots_unique n1 hr' hr hp (by simp [RefB.blocks]))

/-- The message about a line that may not exist. -/
theorem raiseAny_sim {s : Store} {lB : LexerB} {tB : TokenB} {iB : Nat} {lx lx' : Lexer} {tk : Token} {ins : Instr}
    (h : LexRel s lB tB iB fn lx' tk ins) (hk : Like lx lx') (e : Err)
    {E : Store → Prop} (hE : E s) {Q : α → Store → β → Prop} :
    SimR ((raiseLine lB.blk e none : M α) o s) (Gaia.raise lx.line e none lx.fileName lx.lineNum : Res β) Q E := by
  rw [← hk.line, ← hk.file, ← hk.num]
  obtain ⟨x, hx1, hx2, hx3⟩ := h.head
  rcases hx3 with ⟨h1, h2⟩ | ⟨b, h1, _⟩
  · obtain ⟨x', hx1', _, hx5⟩ := h.seq.head
    rw [hx1] at hx1'
    cases hx1'
    unfold raiseLine
    rw [bind_ok (loadLexer_run hx1), h1, h2, hx5, h.file]
    exact raise_none_sim h.name hE
  · exact raiseLine_sim h h1 e none hE

theorem resolveForwardRef_sim {s : Store} (h : Parts s S) (hn : NameAt s fn) {lx lx' : Lexer} {tk : Token} {ins : Instr}
    (hr : LexRel s S.lexerB S.tkB S.instrB fn lx' tk ins) (hk : Like lx lx') {r : ForwardRef × RefB} (hm : some r ∈ S.unres.refs) (f : OutFile)
    (dest : Int) :
    SimR (resolveForwardRef f r.2.blk S.lexerB.blk dest o s) (Gaia.resolveForwardRef f r.1 lx dest)
      (fun a s' b => a = b ∧ UnStep s S s' S) (fun s' => s' = s) := by
  have hra := h.unres.refs r hm
  obtain ⟨c, hins⟩ := hra.instr
  have hset : setOpcode r.2.instr o s = (.ok (getOpcode r.1.instr), s.put r.2.instr (.instr { r.1.instr with opcode := getOpcode r.1.instr })) := by
    unfold setOpcode
    rw [bind_ok (loadInstr_run hins), bind_ok (store_run hins)]
    rfl
  have hst := unres_opcode h hm (getOpcode r.1.instr)
  unfold resolveForwardRef Gaia.resolveForwardRef
  rw [bind_ok (loadRef_run hra.head)]
  dsimp only
  refine SimR.ite (fun _ => ?_) (fun _ => SimR.ite (fun _ => ?_) (fun _ => raiseAny_sim (E := fun s' => s' = s) hr hk _ rfl))
  · cases hc : calcBranchOffset r.1.pc dest with
    | ub u => trivial
    | err e => exact ⟨s, rfl, rfl⟩
    | ok off =>
      rw [bind_ok (Memory.lift_ok off o s)]
      simp only [C.ok_bind]
      cases off with
      | none =>
        dsimp only
        obtain ⟨x, hx1, _, hx3⟩ := hr.seq.head
        rw [bind_ok (loadLexer_run hx1), hx3, ← hk.file, hr.file]
        have hl : (⟨.heap r.2.line, r.1.operandLocation⟩ : Loc) = Loc.plus ⟨.heap r.2.line, 0⟩ r.1.operandLocation := by simp [Loc.plus]
        rw [hl]
        exact raise_sim (l := ⟨.heap r.2.line, 0⟩) (bad := some r.1.operandLocation) (e := .tooBigOffset) (E := fun s' => s' = s) hra.line.text hn rfl
      | some off =>
        dsimp only
        rw [bind_ok (loadInstr_run hins)]
        refine SimR.ite (fun _ => ?_) (fun _ => raiseAny_sim (E := fun s' => s' = s) hr hk _ rfl)
        rw [bind_ok hset]
        exact ⟨_, _, rfl, rfl, hst⟩
  · rw [bind_ok (loadInstr_run hins)]
    refine SimR.ite (fun _ => ?_) (fun _ => raiseAny_sim (E := fun s' => s' = s) hr hk _ rfl)
    rw [bind_ok hset]
    exact ⟨_, _, rfl, rfl, hst⟩

theorem Between.unStep (h : Between fn σ S) (hu : UnStep σ.store S s' S) : Between fn { σ with store := s' } S := by
  obtain ⟨lx', tk, ins, h1, h2⟩ := h.lex
  exact ⟨h.toLinked.fin (h.parts.unFin h.name hu), h.arr, lx', tk, ins,
    h1.frame hu.frame (fun p hp => ⟨h.parts.footLt p hp, h.parts.footUnres p hp⟩), h2⟩

theorem resolveAll_sim : ∀ (n i : Nat) {σ : State} {S : Memory.State}, Between fn σ S →
    Sim (resolveAll n i o σ) (Memory.resolveAll n i o S) (fun _ σ' _ S' => Between fn σ' S') (Linked fn) := by
  intro n
  induction n with
  | zero => intro i σ S h; exact ⟨(), σ, rfl, h⟩
  | succ n ih =>
    intro i σ S h
    unfold resolveAll Memory.resolveAll
    rw [bind_ok (getS_apply o σ), bind_ok (getS_apply o S)]
    cases hi : S.unres.refs[i]? with
    | none =>
      have : S.unres.bare.refs[i]? = none := by show (Memory.bare _)[i]? = none; unfold Memory.bare; rw [List.getElem?_map, hi]; rfl
      simp only [this]
      trivial
    | some c =>
      have hb : S.unres.bare.refs[i]? = some (c.map Prod.fst) := by
        show (Memory.bare _)[i]? = _; unfold Memory.bare; rw [List.getElem?_map, hi]; rfl
      simp only [hb]
      cases c with
      | none => trivial
      | some r =>
        obtain ⟨store, pc, lineNum, total, out, lexer, tk0, instr, symtab, unres⟩ := σ
        obtain rfl : lexer = _ := h.lexer
        obtain rfl : symtab = _ := h.symtab
        obtain rfl : unres = _ := h.unres
        obtain rfl : out = _ := h.out
        obtain ⟨a, ha⟩ := Option.isSome_iff_exists.1 h.arr
        have hm : some r ∈ S.unres.refs := List.mem_of_getElem? hi
        have hra := h.parts.unres.refs r hm
        have hcell : (refCells S.unres.refs)[i]? = some (some r.2.blk) := by unfold refCells; rw [List.getElem?_map, hi]; rfl
        rw [bind_ok (onStore_run (loadUnres_run h.parts.unres.head))]
        simp only [ha, Option.map_some]
        rw [bind_ok (onStore_run (getCell_run (h.parts.unres.arr a ha) hcell))]
        dsimp only
        rw [bind_ok (onStore_run (loadRef_run hra.head))]
        dsimp only
        refine Sim.bind (Q := fun d σ' d' S' => d = d' ∧ S = S' ∧ σ' = ⟨store, pc, lineNum, total, S.out, S.lexerB.blk, tk0, instr, S.symtab.blk, S.unres.blk⟩)
          (onStore_sim ?_) ?_
        · refine ((searchSymbol_sim (o := o) h.parts.tab hra.label.text
            (fun s => Linked fn ⟨s, pc, lineNum, total, S.out, S.lexerB.blk, tk0, instr, S.symtab.blk, S.unres.blk⟩ S)).lifted (t := S)
            (E' := fun s S' => Linked fn ⟨s, pc, lineNum, total, S.out, S.lexerB.blk, tk0, instr, S.symtab.blk, S.unres.blk⟩ S')
            (fun _ he => he)).mono ?_ (fun _ _ he => he)
          rintro d s d' S' ⟨rfl, -, rfl, rfl⟩
          exact ⟨rfl, rfl, rfl⟩
        · rintro dest _ _ _ ⟨rfl, rfl, rfl⟩
          refine Sim.ite (fun _ => onStore_sim ?_) (fun _ => ?_)
          · rw [h.file]
            have hl : (⟨.heap r.2.line, r.1.operandLocation⟩ : Loc) = Loc.plus ⟨.heap r.2.line, 0⟩ r.1.operandLocation := by simp [Loc.plus]
            rw [hl]
            exact ((raise_sim (α := Unit) (β := Unit) (o := o) (l := ⟨.heap r.2.line, 0⟩) (bad := some r.1.operandLocation) (e := .missingLabelDefinition)
              (E := fun s => s = store) (Q := fun _ _ _ => False) (n := r.1.lineNum) hra.line.text h.name rfl).lifted (t := S)
              (E' := fun s S' => Linked fn ⟨s, pc, lineNum, total, S.out, S.lexerB.blk, tk0, instr, S.symtab.blk, S.unres.blk⟩ S')
              (fun s hs => by subst hs; exact h.toLinked)).mono (fun _ _ _ _ hq => hq.2.2.elim) (fun _ _ he => he)
          · obtain ⟨lx', tk, ins, h1, h2⟩ := h.lex
            refine Sim.bind (Q := fun x σ' x' S' => x = x' ∧ S = S' ∧ ∃ s', UnStep store S s' S ∧
              σ' = ⟨s', pc, lineNum, total, S.out, S.lexerB.blk, tk0, instr, S.symtab.blk, S.unres.blk⟩) (onStore_sim ?_) ?_
            · refine ((resolveForwardRef_sim (o := o) h.parts h.name h1 h2 hm S.out dest).lifted (t := S)
                (E' := fun s S' => Linked fn ⟨s, pc, lineNum, total, S.out, S.lexerB.blk, tk0, instr, S.symtab.blk, S.unres.blk⟩ S')
                (fun s hs => by subst hs; exact h.toLinked)).mono ?_ (fun _ _ he => he)
              rintro x s x' S' ⟨rfl, -, rfl, hu⟩
              exact ⟨rfl, rfl, s, hu, rfl⟩
            · rintro x _ _ _ ⟨rfl, rfl, s', hu, rfl⟩
              rw [bind_ok (modifyS_apply _ o _), bind_ok (modifyS_apply _ o S)]
              have hb2 := (h.unStep hu).vars pc lineNum total x
              refine ih (i + 1) ?_
              obtain rfl : pc = _ := h.pc
              obtain rfl : lineNum = _ := h.lineNum
              obtain rfl : total = _ := h.total
              exact hb2

theorem assembleBytes_sim (h : Between fn σ S) (src : List Byte) :
    Sim (assembleBytes src o σ) (Memory.assembleBytes src o S) (fun _ σ' _ S' => Between fn σ' S') (Linked fn) := by
  unfold assembleBytes Memory.assembleBytes
  refine Sim.bind (mainLoop_sim _ h (chunksAux_line _ _)) ?_
  intro _ σ' _ S' h'
  rw [bind_ok (getS_apply o σ'), bind_ok (getS_apply o S'), h'.unres, bind_ok (onStore_run (loadUnres_run h'.parts.unres.head))]
  exact resolveAll_sim _ _ h'

end
end Gaia.Low

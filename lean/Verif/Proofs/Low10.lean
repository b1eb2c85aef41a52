import Verif.Proofs.Low9
import Verif.Proofs.Step
import Verif.Proofs.LineFacts

/-! The model with pointers: `main`. -/
namespace Gaia.Low
open Gaia
open Gaia.Memory

/-! ### A line that the lexer and the parser accept -/

theorem line_facts {raw : List Byte} {lx0 lx1 lx : Lexer} {tk0 tk : Token} {ins0 ins : Instr} {n : Nat} (h8 : lx0.seq.length = MAX_TOKENS)
    (hl : Gaia.lexLine raw lx0 tk0 ins0 n = .ok (lx1, tk, ins)) (hp : Gaia.parseLine lx1 = .ok lx) :
    lx.seq.length = MAX_TOKENS ∧ lx.fileName = lx0.fileName ∧
      (∀ (i : Nat) t p, lx.seq[i]? = some t → t.bufferLocation = some p → GoodChar (cstr raw) p) ∧
      (∀ t, lx.seq[0]? = some t → t.type = .defineDirective → ins.mnemonic = none) := by
  rw [lexLine_eq raw lx0 tk0 ins0 n h8] at hl
  cases hlx : lexemes raw with
  | error f =>
    rw [hlx] at hl
    cases f with
    | «at» e pos =>
      simp only [Gaia.raise] at hl
      cases hpe : Gaia.printError (some (cstr raw)) e (some pos) lx0.fileName n <;> rw [hpe] at hl <;> cases hl
    | tooMany => cases hl
  | ok ls =>
    rw [hlx] at hl
    simp only [C.ok.injEq, Prod.mk.injEq] at hl
    obtain ⟨rfl, rfl, rfl⟩ := hl
    rw [parseLine_lexerOf hlx] at hp
    cases hs : syn (typeAt (ls.map (·.2))) with
    | error q => rw [hs] at hp; cases hp
    | ok u =>
      rw [hs] at hp
      simp only [C.ok.injEq] at hp
      have hf := lexFacts (n := n) (fn := lx0.fileName) hlx hs
      rw [hp] at hf
      have htok : ∀ (i : Nat) t, lx.seq[i]? = some t → tok lx i = t := by
        intro i t ht; unfold tok; rw [ht]; rfl
      refine ⟨hf.len, hf.fileName, ?_, ?_⟩
      · intro i t p ht hb
        have h1 := hf.loc i
        rw [htok i t ht, hb] at h1
        unfold posAt at h1
        cases hi : ls[i]? with
        | none => rw [hi] at h1; cases h1
        | some q =>
          rw [hi] at h1
          have := lexemes_char hlx q (List.mem_of_getElem? hi)
          cases h1
          exact this
      · intro t ht hd
        have h1 := hf.types 0
        rw [htok 0 t ht, hd] at h1
        rw [lastInstr_eq]
        cases hm : lastMnem (ls.map (·.2)) with
        | none => rfl
        | some m =>
          obtain ⟨m', args, h2 | ⟨l, h2⟩⟩ := accepted_instr hs hm <;> rw [h2] at h1 <;> cases h1

/-! ### The variables of `main` -/

/-- The variables of `main` agree. -/
structure Linked (fn : Str) (σ : State) (S : Memory.State) : Prop where
  parts : Parts σ.store S
  name : NameAt σ.store fn
  buffer : σ.store.buffer.length = MAX_BUFFER_SIZE
  pc : σ.pc = S.pc
  lineNum : σ.lineNum = S.lineNum
  total : σ.total = S.total
  out : σ.out = S.out
  lexer : σ.lexer = S.lexerB.blk
  tk : σ.tk = S.tkB.blk
  instr : σ.instr = S.instrB
  symtab : σ.symtab = S.symtab.blk
  unres : σ.unres = S.unres.blk
  len : S.lexer.seq.length = MAX_TOKENS
  file : S.lexer.fileName = fn

/-- They agree, and so do the lexer's fields. -/
structure Between (fn : Str) (σ : State) (S : Memory.State) : Prop extends Linked fn σ S where
  arr : S.unres.arr.isSome = true
  lex : ∃ lx' tk ins, LexRel σ.store S.lexerB S.tkB S.instrB fn lx' tk ins ∧ Like S.lexer lx'

section
variable {o : Oracle} {σ σ' : State} {S S' : Memory.State} {fn : Str} {s' : Store} {α β : Type}

theorem Linked.fin (h : Linked fn σ S) (hf : Fin fn σ.store S s' S') : Linked fn { σ with store := s' } S' := by
  have k := hf.kept
  exact ⟨hf.parts, hf.name, by rw [← h.buffer]; exact congrArg _ hf.buffer, by rw [k.pc]; exact h.pc, by rw [k.lineNum]; exact h.lineNum,
    by rw [k.total]; exact h.total, by rw [k.out]; exact h.out, by rw [k.lexerB]; exact h.lexer, by rw [k.tkB]; exact h.tk,
    by rw [k.instrB]; exact h.instr, by rw [k.tabBlk]; exact h.symtab, by rw [k.unresBlk]; exact h.unres, by rw [k.lexer]; exact h.len,
    by rw [k.lexer]; exact h.file⟩

theorem Linked.failed (h : Linked fn σ S) (hf : Failed σ.store S.lexerB S.tkB S.instrB s') : Linked fn { σ with store := s' } S :=
  h.fin (h.parts.failed h.name hf)

theorem onStore_run {x : M α} {a : α} (h : x o σ.store = (.ok a, s')) : onStore x o σ = (.ok a, { σ with store := s' }) := by
  unfold onStore; rw [h]

theorem onStore_sim {x : M α} {y : Result β × Memory.State} {Q : α → State → β → Memory.State → Prop} {E : State → Memory.State → Prop}
    (h : Sim (x o σ.store) y (fun a s b S' => Q a { σ with store := s } b S') (fun s S' => E { σ with store := s } S')) :
    Sim (onStore x o σ) y Q E := by
  unfold Sim at h ⊢
  unfold onStore
  split at h
  · obtain ⟨a, s, hx, hq⟩ := h; rw [hx]; exact ⟨a, _, rfl, hq⟩
  · obtain ⟨s, hx, hq⟩ := h; rw [hx]; exact ⟨_, rfl, hq⟩
  · trivial

/-! ### fgets -/

theorem cstr_line (l r : List Byte) : cstr (l ++ 0 :: r) = cstr l := by
  unfold cstr
  induction l with
  | nil => simp
  | cons c l ih =>
    by_cases hc : c = 0
    · simp [hc]
    · simp only [List.cons_append, List.takeWhile_cons, bne_iff_ne, ne_eq, hc, not_false_eq_true, if_true, ih]

theorem Seq.ofMem {s s' : Store} {lB : LexerB} {seq : List Token} (h : Seq s lB seq) (hm : s'.mem = s.mem) : Seq s' lB seq :=
  ⟨h.nodup, by rw [hm]; exact h.arr, by rw [hm]; exact h.toks, by rw [hm]; exact h.head⟩

theorem Parts.buffer {s : Store} (h : Parts s S) (b : List Byte) : Parts { s with buffer := b } S := by
  obtain ⟨seq, hseq⟩ := h.scratch.seq
  exact ⟨h.heap, ⟨h.scratch.nodup, h.scratch.len, ⟨seq, hseq.ofMem rfl⟩, h.scratch.tok, h.scratch.ins⟩, h.tab, h.unres, h.tabNodup, h.unresNodup, h.footTab,
    h.footUnres, h.tabUnres, h.footLt, h.tabLt, h.unresLt⟩

theorem fgets_run (h : Linked fn σ S) {line : List Byte} (hl : line.length + 1 ≤ MAX_BUFFER_SIZE) :
    ∃ s', onStore (fgetsInto line) o σ = (.ok (), { σ with store := s' }) ∧ Linked fn { σ with store := s' } S ∧
      TextAt s' theBuffer (cstr line) := by
  refine ⟨{ σ.store with buffer := line ++ 0 :: σ.store.buffer.drop (line.length + 1) }, ?_, ?_, ?_⟩
  · apply onStore_run
    unfold fgetsInto
    rw [if_pos (by rw [h.buffer]; exact hl)]
  · refine ⟨h.parts.buffer _, h.name, ?_, h.pc, h.lineNum, h.total, h.out, h.lexer, h.tk, h.instr, h.symtab, h.unres, h.len, h.file⟩
    show (line ++ 0 :: σ.store.buffer.drop (line.length + 1)).length = _
    have := h.buffer
    simp only [List.length_append, List.length_cons, List.length_drop]
    omega
  · refine ⟨_, rfl, ?_, ?_⟩
    · simp [theBuffer]
    · show cstr (List.drop 0 _) = _
      rw [List.drop_zero, cstr_line]

/-! ### instruction lines -/

theorem Parts.vars {s : Store} (h : Parts s S) (pc n t : Nat) (out : OutFile) (lx : Lexer) (tk : Token) (ins : Instr) :
    Parts s { S with pc := pc, lineNum := n, total := t, out := out, lexer := lx, tk := tk, instr := ins } :=
  ⟨h.heap, h.scratch, h.tab, h.unres, h.tabNodup, h.unresNodup, h.footTab, h.footUnres, h.tabUnres, h.footLt, h.tabLt, h.unresLt⟩

/-- The numbers and the output file change in the same way. -/
theorem Linked.vars (h : Linked fn σ S) (pc n t : Nat) (out : OutFile) :
    Linked fn { σ with pc := pc, lineNum := n, total := t, out := out } { S with pc := pc, lineNum := n, total := t, out := out } :=
  ⟨h.parts.vars pc n t out S.lexer S.tk S.instr, h.name, h.buffer, rfl, rfl, rfl, rfl, h.lexer, h.tk, h.instr, h.symtab, h.unres, h.len, h.file⟩

theorem Between.vars (h : Between fn σ S) (pc n t : Nat) (out : OutFile) :
    Between fn { σ with pc := pc, lineNum := n, total := t, out := out } { S with pc := pc, lineNum := n, total := t, out := out } :=
  ⟨h.toLinked.vars pc n t out, h.arr, h.lex⟩

/-- `line_num++` -/
theorem bumpLine_sim (h : Between fn σ S) : Sim (bumpLine o σ) (Memory.bumpLine o S) (fun _ σ' _ S' => Between fn σ' S') (Linked fn) := by
  unfold bumpLine Memory.bumpLine
  rw [bind_ok (getS_apply o σ), bind_ok (getS_apply o S), h.lineNum]
  by_cases hc : S.lineNum + 1 > INT_MAX
  · rw [if_pos hc]; trivial
  · rw [if_neg hc, bind_ok (Memory.lift_ok () o σ), bind_ok (Memory.lift_ok () o S)]
    refine ⟨(), _, rfl, ?_⟩
    have := h.vars S.pc (S.lineNum + 1) S.total S.out
    dsimp only
    rw [h.lineNum]
    rw [← h.pc, ← h.total, ← h.out] at this
    convert this using 2
    · rw [h.pc]
    · rw [h.total]
    · rw [h.out]

/-- main.c:252-258 -/
def endLow (x : OutFile × Nat) : Mem State Unit := do
  modifyS fun s => { s with out := x.1 }
  bumpLine
  let s ← getS
  lift (if s.pc + x.2 > INT_MAX ∨ s.total + x.2 > INT_MAX then .ub .signedOverflow else .ok ())
  modifyS fun s => { s with pc := s.pc + x.2, total := s.total + x.2 }

/-- main.c:252-258 -/
def endMem (x : OutFile × Nat) : Mem Memory.State Unit := do
  modifyS fun s => { s with out := x.1 }
  Memory.bumpLine
  let s ← getS
  lift (if s.pc + x.2 > INT_MAX ∨ s.total + x.2 > INT_MAX then .ub .signedOverflow else .ok ())
  modifyS fun s => { s with pc := s.pc + x.2, total := s.total + x.2 }

theorem end_sim (h : Between fn σ S) (x : OutFile × Nat) :
    Sim (endLow x o σ) (endMem x o S) (fun _ σ' _ S' => Between fn σ' S') (Linked fn) := by
  unfold endLow endMem
  rw [bind_ok (modifyS_apply _ o σ), bind_ok (modifyS_apply _ o S)]
  have h1 : Between fn { σ with out := x.1 } { S with out := x.1 } := by
    have := h.vars S.pc S.lineNum S.total x.1
    rw [← h.pc, ← h.total, ← h.lineNum] at this
    convert this using 2
    · rw [h.pc]
    · rw [h.lineNum]
    · rw [h.total]
  refine Sim.bind (bumpLine_sim h1) ?_
  intro _ σ' _ S' h2
  rw [bind_ok (getS_apply o σ'), bind_ok (getS_apply o S'), h2.pc, h2.total]
  by_cases hc : S'.pc + x.2 > INT_MAX ∨ S'.total + x.2 > INT_MAX
  · rw [if_pos hc]; trivial
  · rw [if_neg hc, bind_ok (Memory.lift_ok () o σ'), bind_ok (Memory.lift_ok () o S')]
    refine ⟨(), _, rfl, ?_⟩
    have := h2.vars (S'.pc + x.2) S'.lineNum (S'.total + x.2) S'.out
    dsimp only
    rw [h2.pc, h2.total]
    rw [← h2.lineNum, ← h2.out] at this
    convert this using 2
    · rw [h2.lineNum]
    · rw [h2.out]

/-- On a line with an instruction, after the operand has been looked at. -/
structure AtOp (fn : Str) (σ : State) (S : Memory.State) (buf : Str) (r : Option Nat) (op : Option Token) : Prop extends Linked fn σ S where
  arr : S.unres.arr.isSome = true
  line : S.lexer.line = some buf
  lex : ∃ lx' tk, LexRel σ.store S.lexerB S.tkB S.instrB fn lx' tk S.instr ∧ Like S.lexer lx' ∧ OpAt σ.store S.lexerB lx' r op
  text : TextAt σ.store theBuffer buf

theorem Linked.coded (h : Linked fn σ S) (ha : S.unres.arr.isSome = true) (hc : Coded fn σ.store S.lexerB S.tkB S.instrB S.lexer s') :
    Between fn { σ with store := s' } S := by
  obtain ⟨lx', tk, ins, h1, h2⟩ := hc.lexer
  exact ⟨h.failed ⟨h1.scratch, hc.only⟩, ha, lx', tk, ins, h1, h2⟩

/-- main.c:245-258 -/
def emitLow (operand : Option Nat) (status : OpStatus) : Mem State Unit := do
  let s ← getS
  if status = .branchOperand ∨ status = .jumpOperand then do
    let x ← onStore (resolveLabelRef s.out s.lexer s.instr operand status s.symtab s.pc)
    endLow x
  else do
    let x ← onStore (generateCode s.out s.instr operand s.pc)
    endLow x

/-- main.c:245-258 -/
def emitMem (instr : Instr) (operand : Option Token) (status : OpStatus) : Mem Memory.State Unit := do
  let s ← getS
  if status = .branchOperand ∨ status = .jumpOperand then do
    let x ← lift (Gaia.resolveLabelRef s.out s.lexer instr operand status s.symtab.bare s.pc)
    endMem x
  else do
    let x ← pure (Gaia.generateCode s.out instr operand s.pc)
    endMem x

theorem emit_sim {buf : Str} {r : Option Nat} {op : Option Token} (h : AtOp fn σ S buf r op) (st : OpStatus) :
    Sim (emitLow r st o σ) (emitMem S.instr op st o S) (fun _ σ' _ S' => Between fn σ' S') (Linked fn) := by
  unfold emitLow emitMem
  rw [bind_ok (getS_apply o σ), bind_ok (getS_apply o S), h.out, h.lexer, h.instr, h.symtab, h.pc]
  obtain ⟨lx', tk, h1, h2, h3⟩ := h.lex
  refine Sim.ite (fun _ => ?_) (fun _ => ?_)
  · refine Sim.bind (Q := fun a σ' b S' => a = b ∧ Between fn σ' S') (onStore_sim ?_) ?_
    · refine ((resolveLabelRef_sim (o := o) h1 h2 h.line h.parts.tab h3 S.out st S.pc).lifted (t := S)
        (E' := fun s S' => Linked fn { σ with store := s } S') (fun s hf => h.toLinked.failed hf)).mono ?_ (fun _ _ he => he)
      rintro a s b S' ⟨rfl, -, hab, hc⟩
      exact ⟨hab, h.toLinked.coded h.arr hc⟩
    · rintro a σ' b S' ⟨rfl, hb⟩
      exact end_sim hb a
  · obtain ⟨s'', h4, h5⟩ := generateCode_run (o := o) h1 h2 h3 S.out S.pc
    rw [bind_ok (onStore_run h4)]
    exact end_sim (h.toLinked.coded h.arr h5) _

theorem OpAt.frame {F : List Nat} {s : Store} {lB : LexerB} {tB : TokenB} {iB : Nat} {lx : Lexer} {r : Option Nat} {op : Option Token}
    (h : OpAt s lB lx r op) (hf : Frame F s s') (hF : ∀ p ∈ foot lB tB iB, p < s.heap.next ∧ p ∉ F) : OpAt s' lB lx r op := by
  rcases h with h | ⟨i, b, t, h1, h2, h3, h4, h5⟩
  · exact .inl h
  · exact .inr ⟨i, b, t, h1, h2, h3, h4.congr (fun p hp => hf.mem p (hF p (mem_foot_tok h3 p hp)).1 (hF p (mem_foot_tok h3 p hp)).2), h5⟩

theorem saveForwardRef_sim {buf : Str} {r : Option Nat} {op : Option Token} (h : AtOp fn σ S buf r op)
    (hgood : ∀ t p, op = some t → t.bufferLocation = some p → GoodChar buf p) (st : OpStatus) :
    Sim (saveForwardRef r st o σ) (Memory.saveForwardRef buf S.instr op st o S)
      (fun _ σ' _ S' => AtOp fn σ' S' buf r op ∧ S'.instr = S.instr) (Linked fn) := by
  unfold saveForwardRef Memory.saveForwardRef
  rw [bind_ok (getS_apply o σ), bind_ok (getS_apply o S), h.instr, h.lineNum, h.pc, h.unres]
  obtain ⟨lx', tk, h1, h2, h3⟩ := h.lex
  have hfin : ∀ {s1 : Store} {S1 : Memory.State}, UnStep σ.store S s1 S1 → Linked fn { σ with store := s1 } S1 :=
    fun hu => h.toLinked.fin (h.parts.unFin h.name hu)
  refine Sim.bind (Q := fun p σ' x S' => NewRef σ.store S σ'.store S' p x ∧ σ' = { σ with store := σ'.store }) (onStore_sim ?_) ?_
  · exact (createForwardRef_sim (o := o) h.parts h1 h.text h3 hgood st S.pc S.lineNum).mono (fun _ _ _ _ hq => ⟨hq, rfl⟩)
      (fun _ _ hc => hfin (h.parts.calmStep hc))
  · rintro p σ1 x S1 ⟨hn, hσ⟩
    have hu : S1.unres = S.unres := by rw [hn.calm.rest]
    refine Sim.bind (Q := fun _ σ' _ S' => (UnStep σ.store S σ'.store S' ∧ S'.unres.arr.isSome = true) ∧ σ' = { σ with store := σ'.store })
      (onStore_sim ?_) ?_
    · rw [← hu]
      refine (addForwardRef_sim (o := o) h.parts h.arr hn).mono (fun _ s2 _ _ hq => ⟨hq, ?_⟩) (fun s2 _ he => ?_)
      · rw [hσ]
      · rw [hσ]; exact hfin he
    · rintro _ σ2 _ S2 ⟨⟨hu2, ha2⟩, hσ2⟩
      have hl2 := hfin hu2
      rw [← hσ2] at hl2
      refine ⟨(), _, rfl, ?_, ?_⟩
      · have hv := hl2.vars S2.pc S2.lineNum S2.total (if st = .jumpForwardReference then ((S2.out.fputc 0).fputc 0).fputc 0 else (S2.out.fputc 0).fputc 0)
        dsimp only
        rw [hl2.out]
        have hfoot : ∀ p ∈ foot S.lexerB S.tkB S.instrB, p < σ.store.heap.next ∧ p ∉ full S.unres :=
          fun p hp => ⟨h.parts.footLt p hp, h.parts.footUnres p hp⟩
        have hk := hu2.kept
        refine ⟨?_, ha2, ?_, ⟨lx', tk, ?_, ?_, ?_⟩, ?_⟩
        · rw [← hl2.pc, ← hl2.lineNum, ← hl2.total] at hv
          convert hv using 2
          · rw [hl2.pc]
          · rw [hl2.lineNum]
          · rw [hl2.total]
        · show S2.lexer.line = _
          rw [hk.lexer]; exact h.line
        · show LexRel σ2.store S2.lexerB S2.tkB S2.instrB fn lx' tk S2.instr
          have : S2.instr = S.instr := by rw [hu2.rest]
          rw [hk.lexerB, hk.tkB, hk.instrB, this]
          exact h1.frame hu2.frame hfoot
        · show Like S2.lexer lx'
          rw [hk.lexer]; exact h2
        · show OpAt σ2.store S2.lexerB lx' r op
          rw [hk.lexerB]
          exact h3.frame hu2.frame hfoot
        · exact h.text.frame hu2.frame (fun n hn => by cases hn)
      · show S2.instr = S.instr
        rw [hu2.rest]

/-- The operand is a token of the sequence. -/
theorem findOperandLoop_mem {lx : Lexer} : ∀ (fuel i : Nat) (curr t : Token), Gaia.findOperandLoop lx fuel i curr = .ok (some t) →
    ∃ j : Nat, lx.seq[j]? = some t := by
  intro fuel
  induction fuel with
  | zero => intro i curr t h; cases h
  | succ fuel ih =>
    intro i curr t h
    unfold Gaia.findOperandLoop at h
    split_ifs at h with h1
    · cases h
    · unfold slot at h
      cases hi : lx.seq[i]? with
      | none => rw [hi] at h; cases h
      | some u =>
        rw [hi] at h
        simp only [C.ok_bind] at h
        split_ifs at h with h2
        · cases h; exact ⟨i, hi⟩
        · exact ih _ _ _ h

theorem findOperand_mem {lx : Lexer} {t : Token} (h : Gaia.findOperand lx = .ok (some t)) : ∃ j : Nat, lx.seq[j]? = some t := by
  unfold Gaia.findOperand slot at h
  cases hi : lx.seq[1]? with
  | none => rw [hi] at h; cases h
  | some u => rw [hi] at h; exact findOperandLoop_mem _ _ _ _ h

/-- `parse_operand` does not move the operand. -/
theorem parseOperand_loc {lx : Lexer} {ins : Instr} {op op' : Option Token} {tab : SymTab} {st : OpStatus} {t' : Token}
    (h : Gaia.parseOperand lx ins op tab = .ok (st, op')) (ht : op' = some t') : ∃ t, op = some t ∧ t'.bufferLocation = t.bufferLocation := by
  subst ht
  unfold Gaia.parseOperand at h
  cases op with
  | none => cases h
  | some t =>
    refine ⟨t, rfl, ?_⟩
    have hraise : ∀ {α : Type} {l e b f n} {x : α}, (Gaia.raise l e b f n : Res α) = .ok x → False := by
      intro α l e b f n x hx
      unfold Gaia.raise at hx
      cases hp : Gaia.printError l e b f n <;> rw [hp] at hx <;> cases hx
    dsimp only at h
    split_ifs at h with h1 h2
    · unfold Gaia.parseLabelOperand at h
      cases hs : Gaia.searchSymbol tab t.str with
      | err f => rw [hs] at h; cases h
      | ub u => rw [hs] at h; cases h
      | ok v =>
        rw [hs] at h
        simp only [C.ok_bind] at h
        split_ifs at h <;> first | (cases h; rfl) | skip
        all_goals
          cases hr : (Gaia.raise lx.line .illegalForwardReference t.bufferLocation lx.fileName lx.lineNum : Res (OpStatus × Token)) with
          | ok x => exact (hraise hr).elim
          | err f => rw [hr] at h; cases h
          | ub u => rw [hr] at h; cases h
    · cases h; rfl
    · exact (hraise h).elim

/-- On a line with an instruction, before the operand has been looked at. -/
structure AtInstr (fn : Str) (σ : State) (S : Memory.State) (buf : Str) : Prop extends Linked fn σ S where
  arr : S.unres.arr.isSome = true
  line : S.lexer.line = some buf
  lex : ∃ lx' tk, LexRel σ.store S.lexerB S.tkB S.instrB fn lx' tk S.instr ∧ Same S.lexer lx'
  text : TextAt σ.store theBuffer buf
  pos : ∀ (i : Nat) t p, S.lexer.seq[i]? = some t → t.bufferLocation = some p → GoodChar buf p

theorem instructionStep_eq : instructionStep = (do
    let s ← getS
    let operand ← onStore (findOperand s.lexer)
    let status ← onStore (parseOperand s.lexer s.instr operand s.symtab)
    let res ← onStore (parseAddrMode s.lexer s.instr operand status)
    match res with
    | .forwardReference => do
      saveForwardRef operand status
      emitLow operand status
    | .flag => emitLow operand status : Mem State Unit) := rfl

theorem memInstructionStep_eq (buffer : Str) : Memory.instructionStep buffer = (do
    let s ← getS
    let operand ← lift (Gaia.findOperand s.lexer)
    let x ← lift (Gaia.parseOperand s.lexer s.instr operand s.symtab.bare)
    let y ← lift (Gaia.parseAddrMode s.lexer s.instr x.2 x.1)
    modifyS fun s => { s with instr := y.2 }
    match y.1 with
    | .forwardReference => do
      Memory.saveForwardRef buffer y.2 x.2 x.1
      emitMem y.2 x.2 x.1
    | .flag => emitMem y.2 x.2 x.1 : Mem Memory.State Unit) := rfl

theorem instructionStep_sim {buf : Str} (h : AtInstr fn σ S buf) :
    Sim (instructionStep o σ) (Memory.instructionStep buf o S) (fun _ σ' _ S' => Between fn σ' S') (Linked fn) := by
  rw [instructionStep_eq, memInstructionStep_eq]
  rw [bind_ok (getS_apply o σ), bind_ok (getS_apply o S), h.instr, h.lexer, h.symtab]
  obtain ⟨lx', tk, h1, h2⟩ := h.lex
  rw [findOperand_same h2]
  refine Sim.bind (Q := fun r σ' op S' => σ = σ' ∧ S = S' ∧ Gaia.findOperand lx' = .ok op ∧ OpAt σ.store S.lexerB lx' r op) (onStore_sim ?_) ?_
  · refine ((findOperand_sim (o := o) h1 (fun s => Linked fn { σ with store := s } S)).lifted (t := S)
      (E' := fun s S' => Linked fn { σ with store := s } S') (fun _ he => he)).mono ?_ (fun _ _ he => he)
    · rintro r s op S' ⟨rfl, hf, rfl, ho⟩
      exact ⟨rfl, rfl, hf, ho⟩
  · rintro r _ op _ ⟨rfl, rfl, hf, ho⟩
    refine Sim.bind (Q := fun a σ' x S' => a = x.1 ∧ S = S' ∧ Gaia.parseOperand S.lexer S.instr op S.symtab.bare = .ok x ∧
      ∃ s', σ' = { σ with store := s' } ∧ Opd fn σ.store S.lexerB S.tkB S.instrB S.lexer tk S.instr r s' x.2) (onStore_sim ?_) ?_
    · refine ((parseOperand_sim (o := o) h1 h2.toLike h.line h.parts.tab ho).lifted (t := S)
        (E' := fun s S' => Linked fn { σ with store := s } S') (fun s hf => h.toLinked.failed hf)).mono ?_ (fun _ _ he => he)
      rintro a s x S' ⟨rfl, hp, ha, hx⟩
      exact ⟨ha, rfl, hp, s, rfl, hx⟩
    · rintro st _ ⟨_, op'⟩ _ ⟨rfl, rfl, hp, s1, rfl, hopd⟩
      dsimp only at hopd ⊢
      obtain ⟨lx2, h3, h4, h5⟩ := hopd.lexer
      have hL1 : Linked fn { σ with store := s1 } S := h.toLinked.failed ⟨h3.scratch, hopd.only⟩
      have ht1 : TextAt s1 theBuffer buf := TextAt.only (n := 0) h.text hopd.only
      refine Sim.bind (Q := fun a σ' y S' => a = y.1 ∧ S = S' ∧
        ∃ s', σ' = { σ with store := s' } ∧ Moded s1 S.lexerB S.tkB S.instrB fn lx2 tk s' y.2 ∧ OpAt s' S.lexerB lx2 r op') (onStore_sim ?_) ?_
      · refine ((parseAddrMode_sim (o := o) h3 h4 h.line h5 st).lifted (t := S)
          (E' := fun s S' => Linked fn { σ with store := s } S') (fun s hf => hL1.failed hf)).mono ?_ (fun _ _ he => he)
        rintro a s y S' ⟨rfl, -, ha, hx⟩
        exact ⟨ha, rfl, s, rfl, hx⟩
      · rintro res _ ⟨_, ins'⟩ _ ⟨rfl, rfl, s2, rfl, hm, hop⟩
        dsimp only at hm ⊢
        rw [bind_ok (modifyS_apply _ o S)]
        have hL2 : Linked fn { σ with store := s2 } S := hL1.failed ⟨hm.rel.scratch, hm.only⟩
        have hat : AtOp fn { σ with store := s2 } { S with instr := ins' } buf r op' := by
          refine ⟨⟨hL2.parts.vars _ _ _ _ _ _ _, hL2.name, hL2.buffer, hL2.pc, hL2.lineNum, hL2.total, hL2.out, hL2.lexer, hL2.tk, hL2.instr,
            hL2.symtab, hL2.unres, hL2.len, hL2.file⟩, h.arr, h.line, ⟨lx2, tk, hm.rel, h4, hop⟩, TextAt.only (n := 0) ht1 hm.only⟩
        cases res with
        | flag => exact emit_sim hat st
        | forwardReference =>
          dsimp only
          refine Sim.bind (saveForwardRef_sim hat ?_ st) ?_
          · intro t p ht hb
            obtain ⟨t0, ht0, hb0⟩ := parseOperand_loc hp ht
            rw [hb0] at hb
            rw [ht0, ← findOperand_same h2] at hf
            obtain ⟨j, hj⟩ := findOperand_mem hf
            exact h.pos j t0 p hj hb
          · rintro _ σ3 _ S3 ⟨h6, h7⟩
            have := emit_sim (o := o) h6 st
            rw [h7] at this
            exact this

end
end Gaia.Low

import Verif.Proofs.Low4

/-! The model with pointers: the parser. -/
namespace Gaia.Low
open Gaia
open Gaia.Memory (Mem Result Misuse Heap Oracle bind_ok bind_err bind_apply TokenB LexerB)

section
variable {α β : Type} {o : Oracle} {s s' : Store} {lB : LexerB} {tB : TokenB} {iB : Nat} {fn : Str} {lx lx' : Lexer} {tk : Token} {ins : Instr}
  {buf : Str}

theorem LexRel.failed (h : LexRel s lB tB iB fn lx tk ins) : Failed s lB tB iB s := ⟨h.scratch, Only.refl _ _⟩

/-- `lexer->error_tk = …` -/
theorem LexRel.errorTk (h : LexRel s lB tB iB fn lx tk ins) (p : Option Nat) :
    ∃ x, s.mem lB.blk = some (.lexer x) ∧ LexRel (s.put lB.blk (.lexer { x with errorTk := p })) lB tB iB fn lx tk ins := by
  obtain ⟨x, hx1, hx2, hx3⟩ := h.head
  obtain ⟨x0, h0, h1, h2⟩ := h.seq.head
  rw [hx1] at h0
  simp only [Option.some.injEq, Obj.lexer.injEq] at h0
  subst h0
  refine ⟨x, hx1, h.putHead { x with errorTk := p } h1 h2 rfl rfl hx2 ?_⟩
  have := hx3
  unfold LineRel at this ⊢
  exact this

theorem raiseLine_sim (h : LexRel s lB tB iB fn lx tk ins) (hl : lx.line = some buf) (e : Err) (bad : Option Nat)
    {E : Store → Prop} (hE : E s) {Q : α → Store → β → Prop} :
    SimR ((raiseLine lB.blk e (bad.map bufLoc) : M α) o s) (Gaia.raise lx.line e bad lx.fileName lx.lineNum : Res β) Q E := by
  obtain ⟨x, hx1, hx2, hx3, hx4, hx5, hx6⟩ := h.lineNum hl
  unfold raiseLine
  rw [bind_ok (loadLexer_run hx1), hx4, hx3, hx6, hl, h.file]
  have : bad.map bufLoc = bad.map theBuffer.plus := by
    cases bad with
    | none => rfl
    | some n => simp [plus_buffer]
  rw [this]
  exact raise_sim (l := theBuffer) hx5 h.name hE

/-- The message for a token of the sequence. -/
theorem raiseTok_sim (h : LexRel s lB tB iB fn lx tk ins) (hl : lx.line = some buf) (e : Err) {i : Nat} {b : TokenB} {t : Token}
    (hb : lB.toks[i]? = some b) (ht : TokAt s.mem b t) {Q : α → Store → β → Prop} :
    SimR ((do
        let x ← loadLexer lB.blk
        store lB.blk (.lexer { x with errorTk := some b.blk })
        let t ← loadToken b.blk
        raiseLine lB.blk e t.bufferLocation : M α) o s) (Gaia.raise lx.line e t.bufferLocation lx.fileName lx.lineNum : Res β) Q
      (Failed s lB tB iB) := by
  obtain ⟨x, hx1, hr⟩ := h.errorTk (some b.blk)
  rw [bind_ok (loadLexer_run hx1), bind_ok (store_run hx1)]
  have hne := (h.seq.blk_ne hb).1
  obtain ⟨data, er, h1, _⟩ := ht
  have hne' : b.blk ≠ lB.blk := by rintro he; rw [← he] at hne; exact hne (by simp [TokenB.blocks])
  rw [bind_ok (loadToken_run ((put_other hne').trans h1))]
  exact raiseLine_sim hr hl e t.bufferLocation ⟨hr.scratch, Only.put mem_foot_blk⟩

theorem seqTok_run (h : LexRel s lB tB iB fn lx tk ins) {i : Nat} {b : TokenB} {tO : TokenO} (hb : lB.toks[i]? = some b)
    (hm : s.mem b.blk = some (.token tO)) : seqTok lB.blk i o s = (.ok tO, s) := by
  unfold seqTok
  rw [bind_ok (h.seq.seqPtr hb)]
  exact loadToken_run hm

theorem seqTok_sim (h : LexRel s lB tB iB fn lx tk ins) {i : Nat} {f : TokenO → M α} {g : Token → Res β} {Q : α → Store → β → Prop}
    {E : Store → Prop}
    (hf : ∀ b t e, lB.toks[i]? = some b → lx.seq[i]? = some t → TokAt s.mem b t →
      SimR (f ⟨t.type, b.str, t.value, e, t.bufferLocation.map bufLoc⟩ o s) (g t) Q E) :
    SimR ((seqTok lB.blk i >>= f) o s) (slot lx i >>= g) Q E := by
  unfold slot
  cases hi : lx.seq[i]? with
  | none => trivial
  | some t =>
    obtain ⟨b, hb, ht⟩ := h.seq.get hi
    have ht0 := ht
    obtain ⟨data, e, h1, _⟩ := ht
    rw [bind_ok (seqTok_run h hb h1)]
    exact hf b t e hb hi ht0

theorem syntaxError_sim (h : LexRel s lB tB iB fn lx tk ins) (hl : lx.line = some buf) (e : Err) (i : Nat) {Q : α → Store → β → Prop} :
    SimR ((syntaxError lB.blk i e : M α) o s) (Gaia.syntaxError lx i e : Res β) Q (Failed s lB tB iB) := by
  unfold syntaxError Gaia.syntaxError slot
  cases hi : lx.seq[i]? with
  | none => trivial
  | some t =>
    obtain ⟨b, hb, ht⟩ := h.seq.get hi
    rw [bind_ok (h.seq.seqPtr hb)]
    exact raiseTok_sim h hl e hb ht

/-- One step of a syntax function. -/
macro "syn_step" h:term:max hl:term:max : tactic => `(tactic| first
  | exact syntaxError_sim $h $hl _ _
  | exact ⟨_, _, rfl, rfl⟩
  | (refine seqTok_sim $h ?_; intros; dsimp only)
  | refine SimR.ite (fun _ => ?_) (fun _ => ?_))

theorem parseIndirectOperandTree_sim (h : LexRel s lB tB iB fn lx tk ins) (hl : lx.line = some buf) (i : Nat) :
    SimR (parseIndirectOperandTree lB.blk i o s) (Gaia.parseIndirectOperandTree lx i) (fun _ s' _ => s' = s) (Failed s lB tB iB) := by
  unfold parseIndirectOperandTree Gaia.parseIndirectOperandTree
  dsimp only
  repeat' syn_step h hl

theorem parseInstrTree_sim (h : LexRel s lB tB iB fn lx tk ins) (hl : lx.line = some buf) (i : Nat) :
    SimR (parseInstrTree lB.blk i o s) (Gaia.parseInstrTree lx i) (fun _ s' _ => s' = s) (Failed s lB tB iB) := by
  unfold parseInstrTree Gaia.parseInstrTree
  dsimp only
  repeat' first | exact parseIndirectOperandTree_sim h hl _ | syn_step h hl

theorem parseLabelTree_sim (h : LexRel s lB tB iB fn lx tk ins) (hl : lx.line = some buf) (i : Nat) :
    SimR (parseLabelTree lB.blk i o s) (Gaia.parseLabelTree lx i) (fun _ s' _ => s' = s) (Failed s lB tB iB) := by
  unfold parseLabelTree Gaia.parseLabelTree
  dsimp only
  repeat' first | exact parseInstrTree_sim h hl _ | syn_step h hl

/-- What is known once a line has been parsed. -/
structure Parsed (s0 : Store) (lB : LexerB) (tB : TokenB) (iB : Nat) (fn : Str) (lx : Lexer) (tk : Token) (ins : Instr) (s : Store)
    (lx' : Lexer) : Prop where
  rel : LexRel s lB tB iB fn lx' tk ins
  only : Only (foot lB tB iB) s0 s
  line : lx'.line = lx.line
  num : lx'.lineNum = lx.lineNum

theorem LexRel.parsed (h : LexRel s lB tB iB fn lx tk ins) : Parsed s lB tB iB fn lx tk ins s lx := ⟨h, Only.refl _ _, rfl, rfl⟩

theorem copyValue_sim (h : LexRel s lB tB iB fn lx tk ins) {i j : Nat} {t u : Token} (hi : lx.seq[i]? = some t)
    (hj : lx.seq[j]? = some u) :
    SimR (copyValue lB.blk i j o s) (pure (setValue lx i u.value)) (fun _ s' r => Parsed s lB tB iB fn lx tk ins s' r)
      (Failed s lB tB iB) := by
  obtain ⟨b, hb, ht⟩ := h.seq.get hi
  obtain ⟨b', hb', ht'⟩ := h.seq.get hj
  obtain ⟨data, e, h1, _⟩ := ht'
  obtain ⟨s', h2, h3, h4⟩ := setTokValue_run (o := o) ht u.value
  refine ⟨(), s', ?_, ?_⟩
  · unfold copyValue
    rw [bind_ok (seqTok_run h hb' h1), bind_ok (h.seq.seqPtr hb)]
    exact h2
  · have hw := h.write hb h3 (h4.mono (by simp [TokenB.blocks]))
    have he : setValue lx i u.value = { lx with seq := lx.seq.set i { t with value := u.value } } := by
      unfold setValue
      rw [List.modify_eq_set_getElem?, hi]
      rfl
    rw [he]
    refine ⟨hw, h4.mono ?_, rfl, rfl⟩
    intro p hp
    exact mem_foot_tok hb p (by simp only [List.mem_singleton] at hp; simp [TokenB.blocks, hp])

theorem parseDirectiveTree_sim (h : LexRel s lB tB iB fn lx tk ins) (hl : lx.line = some buf) (i : Nat) :
    SimR (parseDirectiveTree lB.blk i o s) (Gaia.parseDirectiveTree lx i) (fun _ s' r => Parsed s lB tB iB fn lx tk ins s' r)
      (Failed s lB tB iB) := by
  unfold parseDirectiveTree Gaia.parseDirectiveTree
  dsimp only
  refine seqTok_sim h ?_
  intro b t e hb ht hbt
  dsimp only
  refine SimR.ite (fun _ => ?_) (fun _ => ?_)
  · repeat' first | exact ⟨_, _, rfl, h.parsed⟩ | syn_step h hl
  refine SimR.ite (fun _ => ?_) (fun _ => ?_)
  · refine seqTok_sim h ?_
    intro b1 t1 e1 hb1 ht1 hbt1
    dsimp only
    refine SimR.ite (fun _ => ?_) (fun _ => ?_)
    · refine seqTok_sim h ?_
      intro b2 t2 e2 hb2 ht2 hbt2
      dsimp only
      refine SimR.ite (fun _ => ?_) (fun _ => ?_)
      · exact copyValue_sim h ht ht1
      · exact syntaxError_sim h hl _ _
    · exact syntaxError_sim h hl _ _
  · repeat' first | exact ⟨_, _, rfl, h.parsed⟩ | syn_step h hl

theorem parseBaseTree_sim (h : LexRel s lB tB iB fn lx tk ins) (hl : lx.line = some buf) (i : Nat) {t : Token} (ht : lx.seq[i]? = some t) :
    SimR (parseBaseTree lB.blk i o s) (Gaia.parseBaseTree lx i) (fun _ s' r => Parsed s lB tB iB fn lx tk ins s' r)
      (Failed s lB tB iB) := by
  unfold parseBaseTree Gaia.parseBaseTree
  dsimp only
  refine seqTok_sim h ?_
  intro b0 t0 e0 hb0 ht0 hbt0
  dsimp only
  refine SimR.ite (fun _ => ?_) (fun _ => syntaxError_sim h hl _ _)
  refine seqTok_sim h ?_
  intro b1 t1 e1 hb1 ht1 hbt1
  dsimp only
  refine SimR.ite (fun _ => ?_) (fun _ => syntaxError_sim h hl _ _)
  refine seqTok_sim h ?_
  intro b2 t2 e2 hb2 ht2 hbt2
  dsimp only
  refine SimR.ite (fun _ => ?_) (fun _ => syntaxError_sim h hl _ _)
  exact copyValue_sim h ht ht1

theorem parseLine_sim (h : LexRel s lB tB iB fn lx tk ins) (hl : lx.line = some buf) :
    SimR (parseLine lB.blk o s) (Gaia.parseLine lx) (fun _ s' r => Parsed s lB tB iB fn lx tk ins s' r) (Failed s lB tB iB) := by
  unfold parseLine Gaia.parseLine
  refine seqTok_sim h ?_
  intro b t e hb ht hbt
  dsimp only
  have hthen : ∀ {x : M Unit} {y : Res Unit}, SimR (x o s) y (fun _ s' _ => s' = s) (Failed s lB tB iB) →
      SimR (x o s) (y >>= fun _ => pure lx) (fun _ s' r => Parsed s lB tB iB fn lx tk ins s' r) (Failed s lB tB iB) := by
    intro x y hxy
    cases y with
    | ok a =>
      obtain ⟨a', s', h1, rfl⟩ := hxy
      exact ⟨a', _, h1, h.parsed⟩
    | err f => exact hxy
    | ub => trivial
  refine SimR.ite (fun _ => hthen (parseInstrTree_sim h hl _)) (fun _ => ?_)
  refine SimR.ite (fun _ => hthen (parseLabelTree_sim h hl _)) (fun _ => ?_)
  refine SimR.ite (fun _ => parseDirectiveTree_sim h hl _) (fun _ => ?_)
  refine SimR.ite (fun _ => parseBaseTree_sim h hl _ ht) (fun _ => ?_)
  refine SimR.ite (fun _ => ⟨_, _, rfl, h.parsed⟩) (fun _ => syntaxError_sim h hl _ _)

/-! ### After the declaration -/

/-- The lexer in memory is `lx'`, that of the other model `lx`: the same line, and tokens of the same types. -/
structure Like (lx lx' : Lexer) : Prop where
  line : lx'.line = lx.line
  num : lx'.lineNum = lx.lineNum
  file : lx'.fileName = lx.fileName
  types : lx'.seq.map (·.type) = lx.seq.map (·.type)

/-- Moreover the tokens are the same, except for the value of the first. -/
structure Same (lx lx' : Lexer) : Prop extends Like lx lx' where
  rest : ∀ i, 1 ≤ i → lx'.seq[i]? = lx.seq[i]?

/-- The operand in memory. -/
def OpAt (s : Store) (lB : LexerB) (lx' : Lexer) (r : Option Nat) (op : Option Token) : Prop :=
  (op = none ∧ r = none) ∨
    ∃ (i : Nat) (b : TokenB) (t : Token), op = some t ∧ r = some b.blk ∧ lB.toks[i]? = some b ∧ TokAt s.mem b t ∧ lx'.seq[i]? = some t

theorem Same.slot (h : Same lx lx') (i : Nat) (hi : 1 ≤ i) : slot lx i = slot lx' i := by
  unfold Gaia.slot; rw [h.rest i hi]

theorem findOperandLoop_same (h : Same lx lx') (fuel i : Nat) (hi : 1 ≤ i) (curr : Token) :
    Gaia.findOperandLoop lx fuel i curr = Gaia.findOperandLoop lx' fuel i curr := by
  induction fuel generalizing i curr with
  | zero => rfl
  | succ fuel ih =>
    unfold Gaia.findOperandLoop
    rw [h.slot i hi]
    simp only [ih (i + 1) (by omega)]

theorem findOperand_same (h : Same lx lx') : Gaia.findOperand lx = Gaia.findOperand lx' := by
  unfold Gaia.findOperand
  rw [h.slot 1 (by omega)]
  simp only [findOperandLoop_same h 10 1 (by omega)]

theorem findOperandLoop_sim (h : LexRel s lB tB iB fn lx tk ins) (E : Store → Prop) (fuel i : Nat) {b : TokenB} {t : Token}
    (ht : TokAt s.mem b t) :
    SimR (findOperandLoop lB.blk fuel i b.blk o s) (Gaia.findOperandLoop lx fuel i t) (fun r s' op => s' = s ∧ OpAt s lB lx r op) E := by
  induction fuel generalizing i b t with
  | zero => trivial
  | succ fuel ih =>
    unfold findOperandLoop Gaia.findOperandLoop
    obtain ⟨data, e, h1, _⟩ := ht
    rw [bind_ok (loadToken_run h1)]
    dsimp only
    refine SimR.ite (fun _ => ⟨_, _, rfl, rfl, .inl ⟨rfl, rfl⟩⟩) (fun _ => ?_)
    unfold slot
    cases hi : lx.seq[i]? with
    | none => trivial
    | some u =>
      obtain ⟨b', hb', ht'⟩ := h.seq.get hi
      have ht0 := ht'
      obtain ⟨data', e', h1', _⟩ := ht'
      rw [bind_ok (h.seq.seqPtr hb'), bind_ok (loadToken_run h1')]
      dsimp only
      refine SimR.ite (fun _ => ⟨_, _, rfl, rfl, .inr ⟨i, b', u, rfl, rfl, hb', ht0, hi⟩⟩) (fun _ => ih _ ht0)

theorem findOperand_sim (h : LexRel s lB tB iB fn lx tk ins) (E : Store → Prop) :
    SimR (findOperand lB.blk o s) (Gaia.findOperand lx) (fun r s' op => s' = s ∧ OpAt s lB lx r op) E := by
  unfold findOperand Gaia.findOperand slot
  cases hi : lx.seq[1]? with
  | none => trivial
  | some u =>
    obtain ⟨b', hb', ht'⟩ := h.seq.get hi
    rw [bind_ok (h.seq.seqPtr hb')]
    exact findOperandLoop_sim h E 10 1 ht'

theorem types_run (h : LexRel s lB tB iB fn lx tk ins) : ∀ (n i : Nat), i + n = lx.seq.length →
    types lB.blk n i o s = (.ok ((lx.seq.drop i).map (·.type)), s) := by
  intro n
  induction n with
  | zero =>
    intro i hi
    rw [List.drop_of_length_le (by omega)]
    rfl
  | succ n ih =>
    intro i hi
    have hlt : i < lx.seq.length := by omega
    obtain ⟨b, hb, hbt⟩ := h.seq.get (List.getElem?_eq_getElem hlt)
    obtain ⟨data, e, h1, _⟩ := hbt
    unfold types
    rw [bind_ok (seqTok_run h hb h1), bind_ok (ih (i + 1) (by omega)), List.drop_eq_getElem_cons hlt]
    rfl

theorem hasType_like (h : Like lx lx') (ty : TokenType) : (lx'.seq.map (·.type)).contains ty = Gaia.hasType lx ty := by
  rw [h.types]
  unfold Gaia.hasType
  induction lx.seq with
  | nil => rfl
  | cons t ts ih =>
    rw [List.map_cons, List.contains_cons, List.any_cons, ih]
    congr 1
    rw [Bool.eq_iff_iff]
    simp only [beq_iff_eq]
    exact eq_comm

theorem applyMasks_run (h : LexRel s lB tB iB fn lx' tk ins) (hk : Like lx lx') (f : Flags) :
    applyMasks lB.blk f o s = (.ok (Gaia.applyMasks lx f), s) := by
  have h8 := h.scratch.seq8 h.seq
  unfold applyMasks
  rw [bind_ok (types_run h MAX_TOKENS 0 (by omega))]
  simp only [List.drop_zero, hasType_like hk]
  rfl

/-- What is known after a step of the parser on an instruction. -/
structure Moded (s0 : Store) (lB : LexerB) (tB : TokenB) (iB : Nat) (fn : Str) (lx' : Lexer) (tk : Token) (s : Store) (ins : Instr) : Prop where
  rel : LexRel s lB tB iB fn lx' tk ins
  only : Only (foot lB tB iB) s0 s

theorem LexRel.instr (h : LexRel s lB tB iB fn lx tk ins) (i : Instr) :
    LexRel (s.put iB (.instr i)) lB tB iB fn lx tk i ∧ Only (foot lB tB iB) s (s.put iB (.instr i)) ∧
      ∀ {j : Nat} {b : TokenB} {t : Token}, lB.toks[j]? = some b → TokAt s.mem b t → TokAt (s.put iB (.instr i)).mem b t := by
  obtain ⟨a1, a2, a3, a4⟩ := foot_apart h.nodup
  refine ⟨h.scanned ⟨?_, put_same _ _ _, Only.put (by simp)⟩, Only.put (mem_foot_tk _ (by simp)), ?_⟩
  · exact h.tok.congr (fun p hp => put_other (by rintro rfl; exact a3 hp))
  · intro j b t hb ht
    refine ht.congr (fun p hp => put_other ?_)
    rintro rfl
    exact a2 (by unfold LexerB.blocks; exact List.mem_append_left _ (List.mem_flatMap.2 ⟨b, List.mem_of_getElem? hb, hp⟩))

theorem OpAt.instr (h : LexRel s lB tB iB fn lx tk ins) {r : Option Nat} {op : Option Token} (ho : OpAt s lB lx r op) (i : Instr) :
    OpAt (s.put iB (.instr i)) lB lx r op := by
  rcases ho with ho | ⟨j, b, t, h1, h2, h3, h4, h5⟩
  · exact .inl ho
  · exact .inr ⟨j, b, t, h1, h2, h3, (h.instr i).2.2 h3 h4, h5⟩

theorem setFlag_sim (h : LexRel s lB tB iB fn lx' tk ins) (hk : Like lx lx') (hl : lx.line = some buf) (f : Flags) (res : AddrRes)
    {r : Option Nat} {op : Option Token} (ho : OpAt s lB lx' r op) :
    SimR (setFlag lB.blk iB f res o s)
      (if f = 0 then Gaia.raise lx.line .illegalAddressingMode none lx.fileName lx.lineNum else .ok (res, { ins with addrBitflag := f }))
      (fun a s' b => a = b.1 ∧ Moded s lB tB iB fn lx' tk s' b.2 ∧ OpAt s' lB lx' r op) (Failed s lB tB iB) := by
  unfold setFlag
  rw [bind_ok (loadInstr_run h.ins), bind_ok (store_run h.ins)]
  obtain ⟨h1, h2, h3⟩ := h.instr { ins with addrBitflag := f }
  refine SimR.ite (fun _ => ?_) (fun _ => ⟨_, _, rfl, rfl, ⟨h1, h2⟩, ho.instr h _⟩)
  rw [← hk.line, ← hk.num, ← hk.file]
  exact raiseLine_sim h1 (by rw [hk.line]; exact hl) _ none ⟨h1.scratch, h2⟩

theorem parseForwardRefAddrMode_sim (h : LexRel s lB tB iB fn lx' tk ins) (hk : Like lx lx') (hl : lx.line = some buf)
    {r : Option Nat} {op : Option Token} (ho : OpAt s lB lx' r op) :
    SimR (parseForwardRefAddrMode lB.blk iB o s) (Gaia.parseForwardRefAddrMode lx ins)
      (fun a s' b => a = b.1 ∧ Moded s lB tB iB fn lx' tk s' b.2 ∧ OpAt s' lB lx' r op) (Failed s lB tB iB) := by
  unfold parseForwardRefAddrMode Gaia.parseForwardRefAddrMode
  rw [bind_ok (applyMasks_run h hk _), bind_ok (loadInstr_run h.ins)]
  dsimp only
  by_cases h1 : ins.isBranch = true
  · rw [if_pos h1, if_pos h1]; exact setFlag_sim h hk hl _ _ ho
  rw [if_neg h1, if_neg h1]
  by_cases h2 : ins.mnemonic = some .JMP
  · rw [if_pos h2, if_pos h2]; exact setFlag_sim h hk hl _ _ ho
  rw [if_neg h2, if_neg h2]
  by_cases h3 : ins.mnemonic = some .JSR
  · rw [if_pos h3, if_pos h3]; exact setFlag_sim h hk hl _ _ ho
  rw [if_neg h3, if_neg h3]
  exact setFlag_sim h hk hl _ _ ho

theorem parseAddrMode_sim (h : LexRel s lB tB iB fn lx' tk ins) (hk : Like lx lx') (hl : lx.line = some buf)
    {r : Option Nat} {op : Option Token} (ho : OpAt s lB lx' r op) (st : OpStatus) :
    SimR (parseAddrMode lB.blk iB r st o s) (Gaia.parseAddrMode lx ins op st)
      (fun a s' b => a = b.1 ∧ Moded s lB tB iB fn lx' tk s' b.2 ∧ OpAt s' lB lx' r op) (Failed s lB tB iB) := by
  unfold parseAddrMode Gaia.parseAddrMode
  refine SimR.ite (fun _ => parseForwardRefAddrMode_sim h hk hl ho) (fun _ => ?_)
  have ho' := ho
  rcases ho with ⟨rfl, rfl⟩ | ⟨j, b, t, rfl, rfl, h3, h4, h5⟩
  · dsimp only
    rw [bind_ok (loadInstr_run h.ins)]
    exact setFlag_sim h hk hl _ _ ho'
  · dsimp only
    obtain ⟨data, e, h6, _⟩ := h4
    rw [bind_ok (loadToken_run h6), bind_ok (loadInstr_run h.ins)]
    dsimp only
    rw [bind_ok (applyMasks_run h hk _)]
    exact setFlag_sim h hk hl _ _ ho'

end

end Gaia.Low

import Verif.Proofs.Low7
import Verif.Proofs.LineFacts

/-! The model with pointers: code generation and forward references. -/
namespace Gaia.Low
open Gaia
open Gaia.Memory (Mem Result Misuse Heap Oracle bind_ok bind_err bind_apply TokenB LexerB SymbolB SymTabB RefB UnresB slotsBlocks getS modifyS
  getS_apply modifyS_apply outOfMemory outOfMemory_apply onHeap_apply lift malloc_granted malloc_refused)

section
variable {o : Oracle} {s s' : Store} {S S' : Memory.State} {fn : Str} {lx lx' : Lexer} {tk : Token} {ins : Instr} {buf : Str}
  {lB : LexerB} {tB : TokenB} {iB : Nat}

/-! ### generate_code, resolve_label_ref -/

/-- The state after the code for an instruction has been written. -/
structure Coded (fn : Str) (s : Store) (lB : LexerB) (tB : TokenB) (iB : Nat) (lx : Lexer) (s' : Store) : Prop where
  only : Only (foot lB tB iB) s s'
  lexer : ∃ lx' tk ins, LexRel s' lB tB iB fn lx' tk ins ∧ Like lx lx'

theorem getOpcode_opcode (i : Instr) (c : Int) : getOpcode { i with opcode := c } = getOpcode i := rfl

theorem generateCode_run (h : LexRel s lB tB iB fn lx' tk ins) (hk : Like lx lx') {r : Option Nat} {op : Option Token}
    (ho : OpAt s lB lx' r op) (f : OutFile) (pc : Nat) :
    ∃ s', generateCode f iB r pc o s = (.ok (Gaia.generateCode f ins op pc), s') ∧ Coded fn s lB tB iB lx s' := by
  obtain ⟨h1, h2, _⟩ := h.instr { ins with opcode := getOpcode ins }
  have hop := ho.instr h { ins with opcode := getOpcode ins }
  have hset : setOpcode iB o s = (.ok (getOpcode ins), s.put iB (.instr { ins with opcode := getOpcode ins })) := by
    unfold setOpcode
    rw [bind_ok (loadInstr_run h.ins), bind_ok (store_run h.ins)]
    rfl
  refine ⟨_, ?_, h2, lx', tk, _, h1, hk⟩
  unfold generateCode Gaia.generateCode
  rw [bind_ok hset]
  rcases hop with ⟨rfl, rfl⟩ | ⟨i, b, t, rfl, rfl, hb, ht, hi⟩
  · rfl
  · obtain ⟨d, e, h3, _⟩ := ht
    dsimp only
    rw [bind_ok (loadToken_run h3)]
    dsimp only
    by_cases hc : t.type = .accumulator
    · rw [if_pos hc, if_pos hc]; rfl
    · rw [if_neg hc, if_neg hc, bind_ok (loadInstr_run h1.ins)]
      dsimp only
      by_cases hc2 : ins.addrBitflag &&& ABSOLUTE_FIELD ≠ 0
      · rw [if_pos hc2, if_pos hc2]; rfl
      · rw [if_neg hc2, if_neg hc2]; rfl

theorem Opd.generate {r : Option Nat} {op : Option Token} (h : Opd fn s lB tB iB lx tk ins r s' op) (f : OutFile) (pc : Nat) :
    ∃ s'', generateCode f iB r pc o s' = (.ok (Gaia.generateCode f ins op pc), s'') ∧ Coded fn s lB tB iB lx s'' := by
  obtain ⟨lx', h1, h2, h3⟩ := h.lexer
  obtain ⟨s'', h4, h5, h6⟩ := generateCode_run (o := o) h1 h2 h3 f pc
  exact ⟨s'', h4, h.only.trans h5, h6⟩

theorem resolveLabelRef_sim (h : LexRel s lB tB iB fn lx' tk ins) (hk : Like lx lx') (hl : lx.line = some buf) {tab : SymTabB}
    (htab : TabAt s.mem tab) {r : Option Nat} {op : Option Token} (ho : OpAt s lB lx' r op) (f : OutFile) (st : OpStatus) (pc : Nat) :
    SimR (resolveLabelRef f lB.blk iB r st tab.blk pc o s) (Gaia.resolveLabelRef f lx ins op st tab.bare pc)
      (fun a s' x => a = x ∧ Coded fn s lB tB iB lx s') (Failed s lB tB iB) := by
  have hraise : SimR ((raiseLine lB.blk .unknown none : M (OutFile × Nat)) o s) (Gaia.raise lx.line .unknown none lx.fileName lx.lineNum)
      (fun a s' x => a = x ∧ Coded fn s lB tB iB lx s') (Failed s lB tB iB) := by
    rw [← hk.line, ← hk.num, ← hk.file]
    exact raiseLine_sim h (by rw [hk.line]; exact hl) _ none h.failed
  unfold resolveLabelRef Gaia.resolveLabelRef
  rcases ho with ⟨rfl, rfl⟩ | ⟨i, b, t, rfl, rfl, hb, ht, hi⟩
  · exact hraise
  · dsimp only
    have ht' := ht
    obtain ⟨d, e, h1, _⟩ := ht'
    rw [bind_ok (loadToken_run h1)]
    dsimp only
    refine SimR.bind (searchSymbol_sim (o := o) htab ht.text _) ?_
    rintro v s' _ ⟨rfl, rfl⟩
    refine SimR.ite (fun _ => ?_) (fun _ => SimR.ite (fun _ => ?_) (fun _ => hraise))
    · refine SimR.bind (SimR.lift (Q := fun a s'' b => s'' = s' ∧ a = b) (fun _ _ => ⟨rfl, rfl⟩) (fun _ _ => h.failed)) ?_
      rintro off s'' _ ⟨rfl, rfl⟩
      cases off with
      | none =>
        dsimp only
        rw [bind_ok (loadToken_run h1)]
        dsimp only
        rw [← hk.line, ← hk.num, ← hk.file]
        exact raiseLine_sim h (by rw [hk.line]; exact hl) _ t.bufferLocation h.failed
      | some offset =>
        dsimp only
        obtain ⟨s1, g1, g2⟩ := setOperand (o := o) h hk hb ht hi offset
        rw [bind_ok g1]
        obtain ⟨s2, g3, g4⟩ := g2.generate (o := o) f pc
        exact ⟨_, _, g3, rfl, g4⟩
    · obtain ⟨s1, g1, g2⟩ := setOperand (o := o) h hk hb ht hi (toUInt32 v)
      rw [bind_ok g1]
      obtain ⟨s2, g3, g4⟩ := g2.generate (o := o) f pc
      exact ⟨_, _, g3, rfl, g4⟩

/-! ### Steps that only allocate -/

/-- Nothing has changed but what is in new blocks. -/
structure Calm (s : Store) (S : Memory.State) (s' : Store) (S' : Memory.State) : Prop where
  frame : Frame [] s s'
  heap : s'.heap = S'.heap
  rest : S' = { S with heap := S'.heap }

theorem Calm.refl (h : s.heap = S.heap) : Calm s S s S := ⟨Frame.refl _ _, h, rfl⟩

theorem Calm.trans {s'' : Store} {S'' : Memory.State} (h : Calm s S s' S') (h' : Calm s' S' s'' S'') : Calm s S s'' S'' := by
  refine ⟨h.frame.trans h'.frame (by simp), h'.heap, ?_⟩
  rw [h'.rest]
  conv => lhs; rw [h.rest]

theorem Calm.put (h : Calm s S s' S') {p : Nat} (hp : s.heap.next ≤ p) (x : Obj) : Calm s S (s'.put p x) S' :=
  ⟨h.frame.trans (Only.put (F := [p]) (by simp)).frame (by simp only [List.mem_singleton]; rintro _ rfl; exact .inr hp), h.heap, h.rest⟩

theorem Calm.kept (h : Calm s S s' S') : Kept S S' := by
  rw [h.rest]
  exact ⟨rfl, rfl, rfl, rfl, rfl, rfl, rfl, rfl, rfl, rfl⟩

theorem Parts.calm (h : Parts s S) (hc : Calm s S s' S') : Parts s' S' := by
  have hle := hc.frame.next
  have hr := hc.rest
  have hh := hc.heap
  generalize S'.heap = hp at hr hh
  subst hr
  exact ⟨hh, h.scratch.frame hc.frame fun p hp => ⟨h.footLt p hp, by simp⟩,
    h.tab.congr fun p hp => hc.frame.mem p (h.tabLt p hp) (by simp),
    h.unres.congr fun p hp => hc.frame.mem p (h.unresLt p hp) (by simp), h.tabNodup, h.unresNodup, h.footTab, h.footUnres, h.tabUnres,
    fun p hp => Nat.lt_of_lt_of_le (h.footLt p hp) hle, fun p hp => Nat.lt_of_lt_of_le (h.tabLt p hp) hle,
    fun p hp => Nat.lt_of_lt_of_le (h.unresLt p hp) hle⟩

/-- A request. -/
theorem alloc_sim {γ δ : Type} (hc : Calm s S s' S') {x : Obj} {f : Option Nat → M γ} {g : Option Nat → Mem Memory.State δ}
    {Q : γ → Store → δ → Memory.State → Prop} {E : Store → Memory.State → Prop}
    (h0 : ∀ s1 S1, Calm s S s1 S1 → Sim (f none o s1) (g none o S1) Q E)
    (h1 : Calm s S (s'.grown x) { S' with heap := S'.heap.more } →
      Sim (f (some s'.heap.next) o (s'.grown x)) (g (some s'.heap.next) o { S' with heap := S'.heap.more }) Q E) :
    Sim ((alloc x >>= f) o s') ((Memory.onHeap Memory.malloc >>= g) o S') Q E := by
  cases ho : o S'.heap.asked with
  | false =>
    rw [bind_ok (alloc_refused (by rw [hc.heap]; exact ho)), bind_ok (x := Memory.onHeap Memory.malloc) (s' := { S' with heap := S'.heap.ask })
      (a := none) (by rw [onHeap_apply, malloc_refused ho])]
    refine h0 _ _ (hc.trans ⟨frame_asked _, ?_, rfl⟩)
    show s'.heap.ask = _
    rw [hc.heap]
  | true =>
    rw [bind_ok (alloc_granted (by rw [hc.heap]; exact ho)), bind_ok (x := Memory.onHeap Memory.malloc) (s' := { S' with heap := S'.heap.more })
      (a := some S'.heap.next) (by rw [onHeap_apply, malloc_granted ho])]
    rw [← hc.heap]
    have h1 := h1 (hc.trans ⟨frame_grown _ _, by rw [grown_heap, hc.heap], rfl⟩)
    rw [← hc.heap] at h1
    exact h1

/-! ### create_forward_ref -/

/-- A position in the line at which there is neither a blank nor the end. -/
def GoodChar (buf : Str) (p : Nat) : Prop := ∃ c, buf[p]? = some c ∧ isTerm c = false ∧ isBlank c = false

/-- A reference has been made. -/
structure NewRef (s : Store) (S : Memory.State) (s' : Store) (S' : Memory.State) (p : Nat) (r : ForwardRef × RefB) : Prop where
  calm : Calm s S s' S'
  ptr : p = r.2.blk
  ref : RefAt s'.mem r
  nodup : r.2.blocks.Nodup
  new : ∀ q ∈ r.2.blocks, s.heap.next ≤ q ∧ q < s'.heap.next

theorem cstr_replicate {str : Str} (h : ∀ c ∈ str, c ≠ 0) :
    cstr (str ++ (List.replicate (str.length + 1) (0 : Byte)).drop str.length) = str ∧
      (0 : Byte) ∈ str ++ (List.replicate (str.length + 1) (0 : Byte)).drop str.length := by
  rw [List.drop_replicate]
  have : str.length + 1 - str.length = 1 := by omega
  rw [this]
  exact ⟨cstr_of h, by simp⟩

theorem createForwardRef_sim (h : Parts s S) (hr : LexRel s S.lexerB S.tkB S.instrB fn lx' tk ins) (hbuf : TextAt s theBuffer buf)
    {r : Option Nat} {op : Option Token} (ho : OpAt s S.lexerB lx' r op)
    (hgood : ∀ t p, op = some t → t.bufferLocation = some p → GoodChar buf p) (st : OpStatus) (pc n : Nat) :
    Sim (createForwardRef theBuffer S.instrB r st pc n o s) (Memory.createForwardRef buf ins op st pc n o S)
      (fun p s' x S' => NewRef s S s' S' p x) (fun s' S' => Calm s S s' S') := by
  unfold createForwardRef Memory.createForwardRef
  refine alloc_sim (Calm.refl h.heap) (fun s1 S1 hc => ⟨_, rfl, hc⟩) (fun hc1 => ?_)
  dsimp only
  have hb1 : TextAt (s.grown .raw) theBuffer buf := hbuf.frame hc1.frame (fun n hn => by cases hn)
  rw [bind_ok (readStr_run hb1)]
  unfold Gaia.createForwardRef
  cases hsv : savedLine buf with
  | none => trivial
  | some saved =>
    dsimp only
    rcases ho with ⟨rfl, rfl⟩ | ⟨i, b, t, rfl, rfl, hb, ht, hi⟩
    · trivial
    dsimp only
    cases hloc : t.bufferLocation with
    | none => trivial
    | some loc =>
      obtain ⟨c, c1, c2, c3⟩ := hgood t loc rfl hloc
      obtain ⟨sv, suf, e1, e2, e3, e4⟩ := savedLine_spec c1 c2 c3
      rw [hsv] at e1
      injection e1 with e1
      subst e1
      rw [bind_ok (Memory.lift_ok _ o _)]
      refine alloc_sim hc1 (fun s1 S1 hc => ⟨_, rfl, hc⟩) (fun hc2 => ?_)
      dsimp only
      set s1 := s.grown .raw with hs1
      set s2 := s1.grown (.chars (List.replicate (saved.length + 1) 0)) with hs2
      have hb2 : TextAt s2 theBuffer buf := hbuf.frame hc2.frame (fun n hn => by cases hn)
      have hle : saved.length ≤ buf.length := by rw [e2]; simp
      rw [bind_ok (readBytes_run hb2 hle)]
      have htake : buf.take saved.length = saved := by rw [e2]; simp
      rw [htake]
      have hm2 : s2.mem s1.heap.next = some (.chars (List.replicate (saved.length + 1) 0)) := grown_same _ _
      rw [bind_ok (writeChars_run hm2 (by simp))]
      set s2' := s2.put s1.heap.next (.chars (saved ++ (List.replicate (saved.length + 1) (0 : Byte)).drop saved.length)) with hs2'
      have hc2' : Calm s S s2' _ := hc2.put (by simp [hs1]) _
      have hbf : ∀ p ∈ b.blocks, p ∈ foot S.lexerB S.tkB S.instrB := mem_foot_tok hb
      have htok : ∀ {s3 : Store} {S3 : Memory.State}, Calm s S s3 S3 → TokAt s3.mem b t := fun hc =>
        ht.congr fun p hp => hc.frame.mem p (h.footLt p (hbf p hp)) (by simp)
      have ht2 := htok hc2'
      have ht2' := ht2
      obtain ⟨d, e, h1, _⟩ := ht2'
      rw [bind_ok (loadToken_run h1)]
      dsimp only
      rw [bind_ok (readStr_run ht2.text)]
      refine alloc_sim hc2' (fun s1 S1 hc => ⟨_, rfl, hc⟩) (fun hc3 => ?_)
      dsimp only
      set s3 := s2'.grown (.chars (List.replicate (t.str.length + 1) 0)) with hs3
      rw [bind_ok (readStr_run (htok hc3).text)]
      have hm3 : s3.mem s2'.heap.next = some (.chars (List.replicate (t.str.length + 1) 0)) := grown_same _ _
      rw [bind_ok (writeChars_run hm3 (by simp))]
      set s3' := s3.put s2'.heap.next (.chars (t.str ++ (List.replicate (t.str.length + 1) (0 : Byte)).drop t.str.length)) with hs3'
      have hn1 : s1.heap.next = s.heap.next + 1 := rfl
      have hn2 : s2'.heap.next = s.heap.next + 2 := rfl
      have hc3' : Calm s S s3' _ := hc3.put (by rw [hn2]; omega) _
      unfold initInstruction Memory.initInstruction
      refine alloc_sim hc3' (fun s1 S1 hc => ⟨_, rfl, hc⟩) (fun hc4 => ?_)
      dsimp only
      set s4 := s3'.grown (.instr Gaia.initInstruction) with hs4
      have hn3 : s3'.heap.next = s.heap.next + 3 := rfl
      have hiB : S.instrB ∈ foot S.lexerB S.tkB S.instrB := by unfold foot; simp
      have hins : s4.mem S.instrB = some (.instr ins) := (hc4.frame.mem _ (h.footLt _ hiB) (by simp)).trans hr.ins
      have hm4 : s4.mem s3'.heap.next = some (.instr Gaia.initInstruction) := grown_same _ _
      rw [bind_ok (loadInstr_run hins), bind_ok (store_run hm4)]
      set s4' := s4.put s3'.heap.next (.instr ins) with hs4'
      have hc4' : Calm s S s4' _ := hc4.put (by rw [hn3]; omega) _
      obtain ⟨d', e', h1', _⟩ := htok hc4'
      rw [bind_ok (loadToken_run h1')]
      simp only [hloc, Option.map_some]
      rw [if_pos ⟨rfl, Nat.zero_le _, by simp only [theBuffer, bufLoc]; omega⟩]
      have hl1 : ∀ (p : Nat), s4'.mem p = if p = s.heap.next + 3 then some (.instr ins) else
          if p = s.heap.next + 2 then some (.chars (t.str ++ (List.replicate (t.str.length + 1) (0 : Byte)).drop t.str.length)) else
          if p = s.heap.next + 1 then some (.chars (saved ++ (List.replicate (saved.length + 1) (0 : Byte)).drop saved.length)) else
          if p = s.heap.next then some .raw else s.mem p := by
        intro p
        show (if p = s3'.heap.next then _ else if p = s3'.heap.next then _ else if p = s2'.heap.next then _ else if p = s2'.heap.next then _
          else if p = s1.heap.next then _ else if p = s1.heap.next then _ else if p = s.heap.next then _ else s.mem p) = _
        rw [hn1, hn2, hn3]
        split_ifs <;> rfl
      have hm5 : s4'.mem s.heap.next = some .raw := by rw [hl1]; simp
      rw [bind_ok (store_run hm5)]
      refine ⟨_, _, rfl, hc4'.put (Nat.le_refl _) _, rfl, ⟨?_, ?_, ?_, ?_⟩, ?_, ?_⟩
      · show (Store.put _ _ _).mem s.heap.next = _
        rw [put_same]
        simp [bufLoc, theBuffer]
      · refine ⟨t.str ++ (List.replicate (t.str.length + 1) (0 : Byte)).drop t.str.length, ?_, ?_⟩
        · show (Store.put _ _ _).mem s2'.heap.next = _
          rw [put_other (by rw [hn2]; omega), hl1, hn2]
          simp
        · have := cstr_replicate ht.text.nonul
          exact ⟨this.2, this.1⟩
      · refine ⟨saved ++ (List.replicate (saved.length + 1) (0 : Byte)).drop saved.length, ?_, ?_⟩
        · show (Store.put _ _ _).mem s1.heap.next = _
          rw [put_other (by rw [hn1]; omega), hl1, hn1]
          simp
        · have hnn : ∀ c ∈ saved, c ≠ 0 := fun c hc => hbuf.nonul c (by rw [e2]; exact List.mem_append_left _ hc)
          have := cstr_replicate hnn
          exact ⟨this.2, this.1⟩
      · refine ⟨ins.opcode, ?_⟩
        show (Store.put _ _ _).mem s3'.heap.next = _
        rw [put_other (by rw [hn3]; omega), hl1, hn3]
        simp
      · show [s2'.heap.next, s1.heap.next, s3'.heap.next, s.heap.next].Nodup
        rw [hn1, hn2, hn3]
        simp
      · intro q hq
        have hq : q ∈ [s2'.heap.next, s1.heap.next, s3'.heap.next, s.heap.next] := hq
        rw [hn1, hn2, hn3] at hq
        show s.heap.next ≤ q ∧ q < s.heap.next + 4
        simp only [List.mem_cons, List.not_mem_nil, or_false] at hq
        omega

end

end Gaia.Low

import Verif.Proofs.Low3

/-! The model with pointers: the lexing of a line. -/
namespace Gaia.Low
open Gaia
open Gaia.Memory (Mem Result Misuse Heap Oracle bind_ok bind_err bind_apply TokenB LexerB)

section
variable {o : Oracle} {s s' : Store} {lB : LexerB} {tB : TokenB} {iB : Nat} {fn : Str} {lx : Lexer} {tk : Token} {ins : Instr}

theorem skipBlanks_off (off : Nat) (str : Str) : (Gaia.skipBlanks off str).2 = str.drop ((Gaia.skipBlanks off str).1 - off) ∧
    off ≤ (Gaia.skipBlanks off str).1 ∧ (Gaia.skipBlanks off str).1 - off ≤ str.length := by
  induction str generalizing off with
  | nil => simp [Gaia.skipBlanks]
  | cons c r ih =>
    unfold Gaia.skipBlanks
    by_cases hc : isBlank c = true
    · rw [if_pos hc]
      obtain ⟨h1, h2, h3⟩ := ih (off + 1)
      refine ⟨?_, by omega, by simp; omega⟩
      rw [h1]
      have : (Gaia.skipBlanks (off + 1) r).1 - off = ((Gaia.skipBlanks (off + 1) r).1 - (off + 1)) + 1 := by omega
      rw [this, List.drop_succ_cons]
    · rw [if_neg hc]; simp

theorem skipBlanks_run {off : Nat} {str : Str} (h : TextAt s (bufLoc off) str) :
    skipBlanks (bufLoc off) o s = (.ok (bufLoc (Gaia.skipBlanks off str).1), s) ∧
      TextAt s (bufLoc (Gaia.skipBlanks off str).1) (Gaia.skipBlanks off str).2 := by
  obtain ⟨h1, h2, h3⟩ := skipBlanks_off off str
  constructor
  · unfold Low.skipBlanks
    rw [bind_ok (readStr_run h)]
    rfl
  · rw [h1]
    have := h.plus (n := (Gaia.skipBlanks off str).1 - off) h3
    rw [plus_bufLoc] at this
    have he : off + ((Gaia.skipBlanks off str).1 - off) = (Gaia.skipBlanks off str).1 := by omega
    rw [he] at this
    exact this

theorem readChar_run {l : Loc} {str : Str} (h : TextAt s l str) : readChar l o s = (.ok (rd str), s) := by
  unfold readChar
  rw [bind_ok (readStr_run h)]
  rfl

/-- What is known once a line has been lexed. -/
structure Lexed (s0 : Store) (lB : LexerB) (tB : TokenB) (iB : Nat) (fn buffer : Str) (n : Nat) (s : Store) (r : Lexer × Token × Instr) :
    Prop where
  rel : LexRel s lB tB iB fn r.1 r.2.1 r.2.2
  only : Only (foot lB tB iB) s0 s
  line : r.1.line = some buffer
  num : r.1.lineNum = n

/-- What is known after a failure. -/
structure Failed (s0 : Store) (lB : LexerB) (tB : TokenB) (iB : Nat) (s : Store) : Prop where
  scratch : Scratch s lB tB iB
  only : Only (foot lB tB iB) s0 s

theorem LexRel.lineNum (h : LexRel s lB tB iB fn lx tk ins) {buffer : Str} (hl : lx.line = some buffer) :
    ∃ x, s.mem lB.blk = some (.lexer x) ∧ x.curr = lx.curr ∧ x.lineNum = some lx.lineNum ∧ x.line = some theBuffer ∧
      TextAt s theBuffer buffer ∧ x.fileName = ⟨.name, 0⟩ := by
  obtain ⟨x, h1, h2, h3⟩ := h.head
  obtain ⟨x', h1', _, h3'⟩ := h.seq.head
  have : x' = x := by rw [h1] at h1'; simpa using h1'.symm
  subst this
  rcases h3 with ⟨h3, _⟩ | ⟨buf, h4, h5, h6, h7⟩
  · rw [hl] at h3; cases h3
  · rw [hl] at h4
    simp only [Option.some.injEq] at h4
    subst h4
    exact ⟨x', h1, h2, h7, h5, h6, h3'⟩

theorem addToken_keeps {lx lx' : Lexer} {tk : Token} (h : Gaia.addToken lx tk = .ok lx') :
    lx'.line = lx.line ∧ lx'.lineNum = lx.lineNum := by
  unfold Gaia.addToken at h
  split at h
  · cases h
  · split at h
    · cases h
    · split at h
      · obtain ⟨new, _, h2⟩ := C.bind_eq_ok.1 h
        simp only [C.pure_eq, C.ok.injEq] at h2
        subst h2
        exact ⟨rfl, rfl⟩
      · cases h

theorem lexLoop_sim {buffer : Str} {n : Nat} {s0 : Store} : ∀ (fuel off : Nat) (str : Str) (lx : Lexer) (tk : Token) (ins : Instr) (s : Store),
    LexRel s lB tB iB fn lx tk ins → Only (foot lB tB iB) s0 s → lx.line = some buffer → lx.lineNum = n →
    TextAt s (bufLoc off) str →
    SimR (lexLoop theBuffer lB.blk tB.blk iB fuel (bufLoc off) o s) (Gaia.lexLoop buffer fuel off str lx tk ins)
      (fun _ s' r => Lexed s0 lB tB iB fn buffer n s' r) (Failed s0 lB tB iB) := by
  intro fuel
  induction fuel with
  | zero => intros; trivial
  | succ fuel ih =>
    intro off str lx tk ins s h hs0 hline hnum ht
    unfold Low.lexLoop Gaia.lexLoop
    rw [bind_ok (readChar_run ht)]
    by_cases hend : endLineLexing (rd str) = true
    · rw [if_pos hend, if_pos hend]
      exact ⟨(), s, rfl, h, hs0, hline, hnum⟩
    rw [if_neg hend, if_neg hend]
    have hlex := lex_sim (o := o) (Tk.refl h.tok h.ins) ht (by rintro rfl; exact hend rfl)
    generalize Gaia.lex off str tk ins = lr at hlex
    cases lr with
    | ub u => trivial
    | err p =>
      obtain ⟨e, pos⟩ := p
      obtain ⟨s1, tk1, ins1, h1, h2, tO, h3, h4⟩ := hlex
      have hr := h.scanned h2
      obtain ⟨x, hx1, hx2, hx3, hx4, hx5, hx6⟩ := hr.lineNum hline
      rw [bind_ok h1]
      simp only
      rw [bind_ok (loadToken_run h3), bind_ok (loadLexer_run hx1), h4, hx3, hx6]
      have := raise_sim (o := o) (α := Unit) (β := Lexer × Token × Instr) (e := e) (bad := some pos) (n := lx.lineNum) (E := Failed s0 lB tB iB)
        (Q := fun _ s' r => Lexed s0 lB tB iB fn buffer n s' r) hx5 hr.name
        ⟨hr.scratch, hs0.trans (h2.only.mono mem_foot_tk)⟩
      rw [Option.map_some, plus_buffer] at this
      rw [h.file]
      exact this
    | ok p =>
      obtain ⟨k, tk1, ins1⟩ := p
      obtain ⟨s1, h1, h2⟩ := hlex
      have hr := h.scanned h2
      rw [bind_ok h1]
      simp only
      have ht1 := ht.only h2.only
      have ho1 := hs0.trans (h2.only.mono (mem_foot_tk (lB := lB)))
      by_cases hk : k > str.length
      · rw [if_pos hk]; trivial
      rw [if_neg hk]
      have hadd := addToken_sim (o := o) hr
      cases hla : Gaia.addToken lx tk1 with
      | ub u => trivial
      | err p =>
        obtain ⟨e, q⟩ := p
        rw [hla] at hadd
        rw [bind_err hadd]
        exact ⟨s1, rfl, hr.scratch, ho1⟩
      | ok lx2 =>
        rw [hla] at hadd
        obtain ⟨s2, h3, hr2, ho2⟩ := hadd
        obtain ⟨hk1, hk2⟩ := addToken_keeps hla
        rw [bind_ok h3]
        have ho := ho1.trans ho2
        have ht2 := (ht1.only ho2).plus (n := k) (Nat.le_of_not_gt hk)
        rw [plus_bufLoc] at ht2
        simp only [plus_bufLoc]
        rw [bind_ok (readChar_run ht2)]
        rw [hline] at hk1
        rw [hnum] at hk2
        by_cases hc : rd (str.drop k) = 58
        · rw [if_pos hc, if_pos hc]
          obtain ⟨data, e', h7, h8⟩ := hr2.tok
          obtain ⟨x, hx1, hx2, hx3, hx4, hx5, hx6⟩ := hr2.lineNum hk1
          rw [bind_ok (loadToken_run h7), bind_ok (loadLexer_run hx1), hx2]
          by_cases hl : tk1.type = .label ∧ lx2.curr = 1
          · rw [if_pos hl, if_pos hl]
            have ht3 := ht2.plus (n := 1) (by
              cases hd : str.drop k with
              | nil => rw [hd] at hc; simp [rd] at hc
              | cons c r => simp)
            rw [plus_bufLoc, List.drop_one] at ht3
            obtain ⟨hs1, hs2⟩ := skipBlanks_run (o := o) ht3
            rw [bind_ok hs1]
            exact ih _ _ _ _ _ _ hr2 ho hk1 hk2 hs2
          · rw [if_neg hl, if_neg hl]
            rw [bind_ok (store_run h7), hx3, hx6]
            have ht4 := hr2.scanned ((Tk.refl hr2.tok hr2.ins).next (hr2.tok.put tk1.type tk1.value (some (bufLoc (off + k))) tk1.bufferLocation)
              (Only.put (by simp)))
            have ho4 : Only (foot lB tB iB) s2 (s2.put tB.blk (.token ⟨tk1.type, tB.str, tk1.value, some (bufLoc (off + k)),
                tk1.bufferLocation.map bufLoc⟩)) := Only.put (mem_foot_tk _ (by simp))
            have := raise_sim (o := o) (α := Unit) (β := Lexer × Token × Instr) (e := .illegalChar) (bad := some (off + k)) (n := lx2.lineNum)
              (E := Failed s0 lB tB iB) (l := theBuffer)
              (Q := fun _ s' r => Lexed s0 lB tB iB fn buffer n s' r) (TextAt.only (n := 0) hx5 ho4) ht4.name
              ⟨ht4.scratch, ho.trans ho4⟩
            rw [Option.map_some, plus_buffer] at this
            rw [hr2.file]
            exact this
        · rw [if_neg hc, if_neg hc]
          obtain ⟨hs1, hs2⟩ := skipBlanks_run (o := o) ht2
          rw [bind_ok hs1]
          exact ih _ _ _ _ _ _ hr2 ho hk1 hk2 hs2

theorem Only.sub_toks {s s' : Store} (h : Only (lB.toks.flatMap TokenB.blocks) s s') : Only (foot lB tB iB) s s' :=
  h.mono fun p hp => by unfold foot LexerB.blocks; simp only [List.append_assoc, List.mem_append]; exact .inl hp

/-- What holds if only tokens of the sequence have changed. -/
theorem Scratch.seqOnly (h : Scratch s lB tB iB) {seq : List Token} (hq : Seq s' lB seq)
    (ho : Only (lB.toks.flatMap TokenB.blocks) s s') : Scratch s' lB tB iB := by
  obtain ⟨a1, a2, a3, a4⟩ := foot_apart h.nodup
  have hsub : ∀ p, p ∈ lB.toks.flatMap TokenB.blocks → p ∈ lB.blocks := by
    intro p hp; unfold LexerB.blocks; exact List.mem_append_left _ hp
  obtain ⟨tk, htk⟩ := h.tok
  obtain ⟨ins, hins⟩ := h.ins
  refine ⟨h.nodup, h.len, ⟨_, hq⟩, ⟨tk, htk.congr (fun p hp => ho.mem p (fun hp' => a1 p hp (hsub p hp')))⟩, ⟨ins, ?_⟩⟩
  rw [ho.mem _ (fun hp => a2 (hsub _ hp))]
  exact hins

theorem Scratch.seq8 (h : Scratch s lB tB iB) {seq : List Token} (hq : Seq s lB seq) : seq.length = MAX_TOKENS := by
  rw [← hq.toks.length_eq]; exact h.len

theorem reset_const (seq : List Token) (n : Nat) (h : seq.length = n) : seq.map Gaia.resetToken = List.replicate n (Gaia.initToken) := by
  rw [List.eq_replicate_iff]
  refine ⟨by simpa using h, ?_⟩
  intro t ht
  obtain ⟨t', _, rfl⟩ := List.mem_map.1 ht
  rfl

/-- The lexer, the token and the instruction at the start of a line. -/
theorem start_line {raw : List Byte} {lineNum : Nat} (h : Scratch s lB tB iB) (hlx : lx.seq.length = MAX_TOKENS) (hf : lx.fileName = fn)
    (hname : NameAt s fn) (hbuf : TextAt s theBuffer (cstr raw)) (tk : Token) (ins : Instr) :
    ∃ s', ((do
        resetLexer lB.blk
        resetInstruction iB
        resetToken tB.blk
        let x ← loadLexer lB.blk
        store lB.blk (.lexer { x with line := some theBuffer, lineNum := some lineNum })) : M Unit) o s = (.ok (), s') ∧
      LexRel s' lB tB iB fn { Gaia.resetLexer lx with line := some (cstr raw), lineNum := lineNum } (Gaia.resetToken tk)
        (Gaia.resetInstruction ins) ∧ Only (foot lB tB iB) s s' := by
  obtain ⟨seq, hq⟩ := h.seq
  have h8 := h.seq8 hq
  obtain ⟨s1, h1, h2, h3, h4⟩ := tokLoop (o := o) (lB := lB) (act := resetToken) (f := Gaia.resetToken) (loop := resetTokens lB.blk)
    (fun _ => rfl) (fun _ _ => rfl)
    (by
      intro s b t ht
      obtain ⟨s', a, b', c⟩ := resetToken_run (o := o) ht
      exact ⟨s', a, b', c⟩)
    MAX_TOKENS 0 s seq hq (by omega)
  have hsc := h.seqOnly h2 h4
  simp only [List.take_zero, List.drop_zero, List.nil_append] at h2
  rw [reset_const seq _ h8] at h2
  obtain ⟨x, hx1, hx2, hx3⟩ := h2.head
  obtain ⟨a1, a2, a3, a4⟩ := foot_apart h.nodup
  have hmem : lB.blk ∈ lB.blocks := by simp [LexerB.blocks]
  -- the head after `reset_lexer`
  obtain ⟨tk1, htk1⟩ := hsc.tok
  obtain ⟨ins1, hins1⟩ := hsc.ins
  let x1 : LexerO := { x with curr := 0, errorTk := none, line := none, lineNum := none }
  have ho1 : Only (foot lB tB iB) s s1 := h4.sub_toks
  have ho2 : Only (foot lB tB iB) s1 (s1.put lB.blk (.lexer x1)) := Only.put mem_foot_blk
  have hq2 : Seq (s1.put lB.blk (.lexer x1)) lB (List.replicate MAX_TOKENS Gaia.initToken) := h2.putHead h.nodup x1 hx2 hx3
  have hne : iB ≠ lB.blk := by rintro rfl; exact a2 hmem
  have hi2 : (s1.put lB.blk (.lexer x1)).mem iB = some (.instr ins1) := by rw [put_other hne]; exact hins1
  have ht2 : TokAt (s1.put lB.blk (.lexer x1)).mem tB tk1 := htk1.congr (fun p hp => put_other (by rintro rfl; exact a1 _ hp hmem))
  -- the instruction
  let s3 := (s1.put lB.blk (.lexer x1)).put iB (.instr (Gaia.resetInstruction ins1))
  have ho3 : Only (foot lB tB iB) (s1.put lB.blk (.lexer x1)) s3 := Only.put (mem_foot_tk _ (by simp))
  have ht3 : TokAt s3.mem tB tk1 := ht2.congr (fun p hp => put_other (by rintro rfl; exact a3 hp))
  obtain ⟨s4, h5, h6, h7⟩ := resetToken_run (o := o) ht3
  have ho4 : Only (foot lB tB iB) s3 s4 := h7.mono fun p hp => by
    simp only [List.mem_cons, List.not_mem_nil, or_false] at hp
    unfold foot TokenB.blocks
    rcases hp with h | h <;> simp [h]
  have hk : ∀ p ∈ lB.blocks, s4.mem p = (s1.put lB.blk (.lexer x1)).mem p := by
    intro p hp
    have hap := a4 p hp
    rw [h7.mem p (by simpa [TokenB.blocks] using hap.1)]
    exact put_other hap.2
  have hx4 : s4.mem lB.blk = some (.lexer x1) := by rw [hk _ hmem]; exact put_same _ _ _
  have hq4 : Seq s4 lB (List.replicate MAX_TOKENS Gaia.initToken) := hq2.frame hk
  have hoall : Only (foot lB tB iB) s s4 := ((ho1.trans ho2).trans ho3).trans ho4
  have hi4 : s4.mem iB = some (.instr (Gaia.resetInstruction ins1)) := by
    rw [h7.mem _ (by simpa [TokenB.blocks] using a3)]; exact put_same _ _ _
  have hrel : LexRel s4 lB tB iB fn { Gaia.resetLexer lx with line := none, lineNum := 0 } (Gaia.resetToken tk)
      (Gaia.resetInstruction ins) := by
    refine ⟨h.nodup, h.len, ?_, h6, hi4, ⟨x1, hx4, rfl, .inl ⟨rfl, rfl⟩⟩, hname.only hoall, hf⟩
    show Seq s4 lB (lx.seq.map Gaia.resetToken)
    rw [reset_const lx.seq _ hlx]
    exact hq4
  refine ⟨s4.put lB.blk (.lexer { x1 with line := some theBuffer, lineNum := some lineNum }), ?_, ?_,
    hoall.trans (Only.put mem_foot_blk)⟩
  · have hA : resetLexer lB.blk o s = (.ok (), s1.put lB.blk (.lexer x1)) := by
      unfold Low.resetLexer
      rw [bind_ok h1, bind_ok (loadLexer_run hx1)]
      exact store_run hx1
    have hB : resetInstruction iB o (s1.put lB.blk (.lexer x1)) = (.ok (), s3) := by
      unfold Low.resetInstruction
      rw [bind_ok (loadInstr_run hi2)]
      exact store_run hi2
    rw [bind_ok hA, bind_ok hB, bind_ok h5, bind_ok (loadLexer_run hx4)]
    exact store_run hx4
  · exact hrel.putHead { x1 with line := some theBuffer, lineNum := some lineNum } (lx' := { Gaia.resetLexer lx with line := some (cstr raw), lineNum := lineNum }) hx2 hx3 rfl rfl rfl
      (.inr ⟨cstr raw, rfl, rfl, TextAt.only (n := 0) hbuf hoall, rfl⟩)

theorem bind_assoc' {σ α β γ : Type} (x : Mem σ α) (f : α → Mem σ β) (g : β → Mem σ γ) :
    ((x >>= f) >>= g) = (x >>= fun a => f a >>= g) := by
  funext o s
  simp only [bind_apply]
  generalize x o s = r
  obtain ⟨r, s'⟩ := r
  cases r <;> rfl

theorem lexLine_sim {raw : List Byte} {lineNum : Nat} (h : Scratch s lB tB iB) (hlx : lx.seq.length = MAX_TOKENS) (hf : lx.fileName = fn)
    (hname : NameAt s fn) (hbuf : TextAt s theBuffer (cstr raw)) (tk : Token) (ins : Instr) :
    SimR (lexLine theBuffer lB.blk tB.blk iB lineNum o s) (Gaia.lexLine raw lx tk ins lineNum)
      (fun _ s' r => Lexed s lB tB iB fn (cstr raw) lineNum s' r) (Failed s lB tB iB) := by
  obtain ⟨s1, h1, h2, h3⟩ := start_line (o := o) (lineNum := lineNum) h hlx hf hname hbuf tk ins
  have hb : TextAt s1 (bufLoc 0) (cstr raw) := TextAt.only (n := 0) hbuf h3
  obtain ⟨h4, h5⟩ := skipBlanks_run (o := o) hb
  have h4 : skipBlanks theBuffer o s1 = _ := h4
  have hsplit : lexLine theBuffer lB.blk tB.blk iB lineNum o s =
      ((do
        let curr ← skipBlanks theBuffer
        let str ← readStr curr
        lexLoop theBuffer lB.blk tB.blk iB (str.length + 1) curr
        let x ← loadLexer lB.blk
        fillNull lB.blk (MAX_TOKENS - x.curr) x.curr) : M Unit) o s1 := by
    rw [← bind_ok (f := fun _ => ((do
        let curr ← skipBlanks theBuffer
        let str ← readStr curr
        lexLoop theBuffer lB.blk tB.blk iB (str.length + 1) curr
        let x ← loadLexer lB.blk
        fillNull lB.blk (MAX_TOKENS - x.curr) x.curr) : M Unit)) h1]
    simp only [bind_assoc']
    rfl
  rw [hsplit, bind_ok h4, bind_ok (readStr_run h5)]
  unfold Gaia.lexLine
  simp only
  refine SimR.bind (lexLoop_sim _ _ _ _ _ _ _ h2 h3 rfl rfl h5) ?_
  rintro _ s2 ⟨lx', tk', ins'⟩ ⟨hr, ho, hl, hnum⟩
  simp only at hr hl hnum ⊢
  obtain ⟨x, hx1, hx2, hx3, hx4, hx5, hx6⟩ := hr.lineNum hl
  rw [bind_ok (loadLexer_run hx1), hx2]
  have h8 : lx'.seq.length = MAX_TOKENS := hr.scratch.seq8 hr.seq
  by_cases hc : lx'.curr ≤ MAX_TOKENS
  swap
  · have h0 : MAX_TOKENS - lx'.curr = 0 := by omega
    rw [h0]
    refine ⟨(), s2, rfl, ?_, ho, hl, hnum⟩
    have : Gaia.fillNull lx' = lx' := by
      unfold Gaia.fillNull
      rw [List.take_of_length_le (by omega), List.drop_of_length_le (by omega)]
      simp
    rw [this]
    exact hr
  obtain ⟨s3, h6, h7, h8', h9⟩ := tokLoop (o := o) (lB := lB) (act := fun p => setType p .null) (f := fun t => { t with type := .null })
    (loop := fillNull lB.blk) (fun _ => rfl) (fun _ _ => rfl)
    (by
      intro s b t ht
      obtain ⟨s', a, b', c⟩ := setType_run (o := o) ht .null
      exact ⟨s', a, b', c.mono (by simp [TokenB.blocks])⟩)
    (MAX_TOKENS - lx'.curr) lx'.curr s2 lx'.seq hr.seq (by omega)
  refine ⟨(), s3, h6, ?_, ho.trans h9.sub_toks, hl, hnum⟩
  obtain ⟨a1, a2, a3, a4⟩ := foot_apart hr.nodup
  have hsub : ∀ p, p ∈ lB.toks.flatMap TokenB.blocks → p ∈ lB.blocks := by
    intro p hp; unfold LexerB.blocks; exact List.mem_append_left _ hp
  refine ⟨hr.nodup, hr.len, h7, hr.tok.congr (fun p hp => h9.mem p (fun hp' => a1 p hp (hsub p hp'))), ?_,
    ⟨x, by rw [h8']; exact hx1, hx2, ?_⟩, hr.name.only h9, hr.file⟩
  · rw [h9.mem _ (fun hp => a2 (hsub _ hp))]; exact hr.ins
  · exact .inr ⟨cstr raw, hl, hx4, TextAt.only (n := 0) hx5 h9, hx3⟩

end

end Gaia.Low

import Verif.Proofs.Low2

/-! The model with pointers: the sequence of tokens in memory, and the lexing of a line. -/
namespace Gaia.Low
open Gaia
open Gaia.Memory (Mem Result Misuse Heap Oracle bind_ok bind_err bind_apply TokenB LexerB)

theorem plus_buffer (n : Nat) : theBuffer.plus n = bufLoc n := by simp [theBuffer, bufLoc, Loc.plus]
theorem plus_bufLoc (n k : Nat) : (bufLoc n).plus k = bufLoc (n + k) := rfl

/-! ### The sequence -/

/-- The sequence of tokens lies in memory. -/
structure Seq (s : Store) (lB : LexerB) (seq : List Token) : Prop where
  nodup : lB.blocks.Nodup
  arr : s.mem lB.arr = some (.ptrs (lB.toks.map fun b => some b.blk))
  toks : List.Forall₂ (TokAt s.mem) lB.toks seq
  head : ∃ x, s.mem lB.blk = some (.lexer x) ∧ x.sequence = lB.arr ∧ x.fileName = ⟨.name, 0⟩

theorem forall₂_imp {α β : Type} {R S : α → β → Prop} {l : List α} {l' : List β} (h : ∀ a b, a ∈ l → b ∈ l' → R a b → S a b)
    (hr : List.Forall₂ R l l') : List.Forall₂ S l l' := by
  induction hr with
  | nil => exact .nil
  | cons h1 _ ih => exact .cons (h _ _ (by simp) (by simp) h1) (ih fun a b ha hb => h a b (by simp [ha]) (by simp [hb]))

theorem forall₂_set {m m' : Nat → Option Obj} {bs : List TokenB} {ts : List Token} (h : List.Forall₂ (TokAt m) bs ts)
    (hn : (bs.flatMap TokenB.blocks).Nodup) {i : Nat} {b : TokenB} (hb : bs[i]? = some b) {t : Token} (ht : TokAt m' b t)
    (hm : ∀ p, p ∉ b.blocks → m' p = m p) : List.Forall₂ (TokAt m') bs (ts.set i t) := by
  induction h generalizing i with
  | nil => simp at hb
  | @cons b0 t0 bs ts h0 h1 ih =>
    rw [List.flatMap_cons, List.nodup_append] at hn
    cases i with
    | zero =>
      simp only [List.getElem?_cons_zero, Option.some.injEq] at hb
      subst hb
      refine List.Forall₂.cons ht ?_
      refine forall₂_imp ?_ h1
      intro b' t' hb' _ h'
      refine h'.congr (fun p hp => hm p ?_)
      intro hp'
      exact hn.2.2 p hp' p (List.mem_flatMap.2 ⟨b', hb', hp⟩) rfl
    | succ i =>
      simp only [List.getElem?_cons_succ] at hb
      refine List.Forall₂.cons ?_ (ih hn.2.1 hb)
      refine h0.congr (fun p hp => hm p ?_)
      intro hp'
      exact hn.2.2 p hp p (List.mem_flatMap.2 ⟨b, List.mem_of_getElem? hb, hp'⟩) rfl

theorem Seq.blk_ne {s : Store} {lB : LexerB} {seq : List Token} (h : Seq s lB seq) {i : Nat} {b : TokenB} (hb : lB.toks[i]? = some b) :
    lB.blk ∉ b.blocks ∧ lB.arr ∉ b.blocks := by
  have hn := h.nodup
  unfold LexerB.blocks at hn
  rw [List.nodup_append] at hn
  constructor
  · intro hp
    exact hn.2.2 _ (List.mem_flatMap.2 ⟨b, List.mem_of_getElem? hb, hp⟩) lB.blk (by simp) rfl
  · intro hp
    exact hn.2.2 _ (List.mem_flatMap.2 ⟨b, List.mem_of_getElem? hb, hp⟩) lB.arr (by simp) rfl

theorem Seq.write {s s' : Store} {lB : LexerB} {seq : List Token} (h : Seq s lB seq) {i : Nat} {b : TokenB} (hb : lB.toks[i]? = some b)
    {t : Token} (ht : TokAt s'.mem b t) (ho : Only b.blocks s s') :
    Seq s' lB (seq.set i t) ∧ s'.mem lB.blk = s.mem lB.blk := by
  have hne := h.blk_ne hb
  have hn := h.nodup
  unfold LexerB.blocks at hn
  rw [List.nodup_append] at hn
  have hblk := ho.mem _ hne.1
  exact ⟨⟨h.nodup, by rw [ho.mem _ hne.2]; exact h.arr, forall₂_set h.toks hn.1 hb ht ho.mem,
    by rw [hblk]; exact h.head⟩, hblk⟩

theorem Seq.get {s : Store} {lB : LexerB} {seq : List Token} (h : Seq s lB seq) {i : Nat} {t : Token} (ht : seq[i]? = some t) :
    ∃ b, lB.toks[i]? = some b ∧ TokAt s.mem b t := by
  have h2 := List.forall₂_iff_get.1 h.toks
  obtain ⟨hi, hit⟩ := List.getElem?_eq_some_iff.1 ht
  have hi' : i < lB.toks.length := by rw [h2.1]; exact hi
  refine ⟨lB.toks[i], List.getElem?_eq_getElem hi', ?_⟩
  have := h2.2 i hi' hi
  rw [← hit]
  exact this

theorem Seq.seqPtr {o : Oracle} {s : Store} {lB : LexerB} {seq : List Token} (h : Seq s lB seq) {i : Nat} {b : TokenB}
    (hb : lB.toks[i]? = some b) : seqPtr lB.blk i o s = (.ok b.blk, s) := by
  obtain ⟨x, h1, h2, _⟩ := h.head
  unfold Low.seqPtr
  rw [bind_ok (loadLexer_run h1)]
  rw [h2, bind_ok (getCell_run (c := some b.blk) h.arr (by rw [List.getElem?_map, hb]; rfl))]
  rfl

/-- The loops over the sequence that treat each token alike. -/
theorem tokLoop {o : Oracle} {lB : LexerB} {act : Nat → M Unit} {f : Token → Token} {loop : Nat → Nat → M Unit}
    (h0 : ∀ i, loop 0 i = pure ())
    (h1 : ∀ n i, loop (n + 1) i = (Low.seqPtr lB.blk i >>= fun p => act p >>= fun _ => loop n (i + 1)))
    (ha : ∀ s b t, TokAt s.mem b t → ∃ s', act b.blk o s = (.ok (), s') ∧ TokAt s'.mem b (f t) ∧ Only b.blocks s s') :
    ∀ (n i : Nat) (s : Store) (seq : List Token), Seq s lB seq → i + n = seq.length →
      ∃ s', loop n i o s = (.ok (), s') ∧ Seq s' lB (seq.take i ++ (seq.drop i).map f) ∧ s'.mem lB.blk = s.mem lB.blk ∧
        Only (lB.toks.flatMap TokenB.blocks) s s' := by
  intro n
  induction n with
  | zero =>
    intro i s seq h hi
    refine ⟨s, by rw [h0]; rfl, ?_, rfl, Only.refl _ _⟩
    rw [List.take_of_length_le (by omega), List.drop_of_length_le (by omega)]
    simpa using h
  | succ n ih =>
    intro i s seq h hi
    have hlt : i < seq.length := by omega
    obtain ⟨b, hb, hbt⟩ := h.get (List.getElem?_eq_getElem hlt)
    obtain ⟨s1, h2, h3, h4⟩ := ha s b _ hbt
    obtain ⟨h5, h6⟩ := h.write hb h3 h4
    obtain ⟨s2, h7, h8, h9, h10⟩ := ih (i + 1) s1 _ h5 (by simp; omega)
    refine ⟨s2, ?_, ?_, h9.trans h6, ?_⟩
    · rw [h1, bind_ok (h.seqPtr hb), bind_ok h2]; exact h7
    · have : seq.take i ++ (seq.drop i).map f =
          (seq.set i (f seq[i])).take (i + 1) ++ ((seq.set i (f seq[i])).drop (i + 1)).map f := by
        rw [List.drop_eq_getElem_cons hlt, List.map_cons, List.drop_set_of_lt (by omega), List.take_set,
          List.take_succ_eq_append_getElem hlt, List.set_append_right _ _ (by simp; omega)]
        have hm : i - (seq.take i).length = 0 := by simp; omega
        rw [hm]
        simp
      rw [this]
      exact h8
    · exact (h4.mono (fun p hp => List.mem_flatMap.2 ⟨b, List.mem_of_getElem? hb, hp⟩)).trans h10

/-! ### The lexer, the scratch token and the instruction -/

/-- The blocks of the lexer, the scratch token and the instruction. -/
def foot (lB : LexerB) (tB : TokenB) (iB : Nat) : List Nat := lB.blocks ++ tB.blocks ++ [iB]

/-- What `lexer->line` and `lexer->line_num` are. -/
def LineRel (s : Store) (x : LexerO) (lx : Lexer) : Prop :=
  (lx.line = none ∧ x.line = none) ∨
    ∃ buf, lx.line = some buf ∧ x.line = some theBuffer ∧ TextAt s theBuffer buf ∧ x.lineNum = some lx.lineNum

/-- The lexer, the scratch token and the instruction are well formed, whatever they hold. -/
structure Scratch (s : Store) (lB : LexerB) (tB : TokenB) (iB : Nat) : Prop where
  nodup : (foot lB tB iB).Nodup
  len : lB.toks.length = MAX_TOKENS
  seq : ∃ seq, Seq s lB seq
  tok : ∃ tk, TokAt s.mem tB tk
  ins : ∃ ins, s.mem iB = some (.instr ins)

/-- The lexer, the scratch token and the instruction lie in memory. -/
structure LexRel (s : Store) (lB : LexerB) (tB : TokenB) (iB : Nat) (fn : Str) (lx : Lexer) (tk : Token) (ins : Instr) : Prop where
  nodup : (foot lB tB iB).Nodup
  len : lB.toks.length = MAX_TOKENS
  seq : Seq s lB lx.seq
  tok : TokAt s.mem tB tk
  ins : s.mem iB = some (.instr ins)
  head : ∃ x, s.mem lB.blk = some (.lexer x) ∧ x.curr = lx.curr ∧ LineRel s x lx
  name : NameAt s fn
  file : lx.fileName = fn

section
variable {o : Oracle} {s s' : Store} {lB : LexerB} {tB : TokenB} {iB : Nat} {fn : Str} {lx : Lexer} {tk : Token} {ins : Instr}

theorem LexRel.scratch (h : LexRel s lB tB iB fn lx tk ins) : Scratch s lB tB iB :=
  ⟨h.nodup, h.len, ⟨_, h.seq⟩, ⟨_, h.tok⟩, ⟨_, h.ins⟩⟩

/-- The facts about distinct blocks that are needed. -/
theorem foot_apart (h : (foot lB tB iB).Nodup) :
    (∀ p ∈ tB.blocks, p ∉ lB.blocks) ∧ iB ∉ lB.blocks ∧ iB ∉ tB.blocks ∧ (∀ p ∈ lB.blocks, p ∉ tB.blocks ∧ p ≠ iB) := by
  unfold foot at h
  rw [List.nodup_append, List.nodup_append] at h
  obtain ⟨⟨_, _, h1⟩, _, h2⟩ := h
  refine ⟨fun p hp hl => h1 p hl p hp rfl, fun hl => h2 iB (by simp [hl]) iB (by simp) rfl,
    fun hl => h2 iB (by simp [hl]) iB (by simp) rfl, fun p hp => ⟨fun ht => h1 p hp p ht rfl, ?_⟩⟩
  rintro rfl
  exact h2 p (by simp [hp]) p (by simp) rfl

theorem LineRel.only {x : LexerO} (h : LineRel s x lx) {F : List Nat} (ho : Only F s s') : LineRel s' x lx := by
  rcases h with h | ⟨buf, h1, h2, h3, h4⟩
  · exact .inl h
  · exact .inr ⟨buf, h1, h2, TextAt.only (n := 0) h3 ho, h4⟩

theorem Seq.frame {seq : List Token} (h : Seq s lB seq) (hm : ∀ p ∈ lB.blocks, s'.mem p = s.mem p) : Seq s' lB seq := by
  have hblk : s'.mem lB.blk = s.mem lB.blk := hm _ (by simp [LexerB.blocks])
  refine ⟨h.nodup, by rw [hm _ (by simp [LexerB.blocks])]; exact h.arr, ?_, by rw [hblk]; exact h.head⟩
  refine forall₂_imp ?_ h.toks
  intro b t hb _ h'
  refine h'.congr (fun p hp => hm p ?_)
  unfold LexerB.blocks
  exact List.mem_append_left _ (List.mem_flatMap.2 ⟨b, hb, hp⟩)

/-- Only the scratch token and the instruction have changed. -/
theorem LexRel.scanned (h : LexRel s lB tB iB fn lx tk ins) {tk' : Token} {ins' : Instr} (h' : Tk s s' tB iB tk' ins') :
    LexRel s' lB tB iB fn lx tk' ins' := by
  obtain ⟨a1, a2, a3, a4⟩ := foot_apart h.nodup
  have hm : ∀ p ∈ lB.blocks, s'.mem p = s.mem p := by
    intro p hp
    have := a4 p hp
    refine h'.only.mem p ?_
    simp only [TokenB.blocks, List.mem_cons, List.not_mem_nil, or_false, not_or] at this ⊢
    exact ⟨this.1.1, this.1.2, this.2⟩
  refine ⟨h.nodup, h.len, h.seq.frame hm, h'.tok, h'.ins, ?_, h.name.only h'.only, h.file⟩
  obtain ⟨x, h1, h2, h3⟩ := h.head
  exact ⟨x, by rw [hm _ (by simp [LexerB.blocks])]; exact h1, h2, h3.only h'.only⟩

/-- Only a token of the sequence has changed. -/
theorem LexRel.write (h : LexRel s lB tB iB fn lx tk ins) {i : Nat} {b : TokenB} (hb : lB.toks[i]? = some b) {t : Token}
    (ht : TokAt s'.mem b t) (ho : Only b.blocks s s') : LexRel s' lB tB iB fn { lx with seq := lx.seq.set i t } tk ins := by
  obtain ⟨a1, a2, a3, a4⟩ := foot_apart h.nodup
  obtain ⟨h1, h2⟩ := h.seq.write hb ht ho
  have hsub : ∀ p ∈ b.blocks, p ∈ lB.blocks := by
    intro p hp
    unfold LexerB.blocks
    exact List.mem_append_left _ (List.mem_flatMap.2 ⟨b, List.mem_of_getElem? hb, hp⟩)
  refine ⟨h.nodup, h.len, h1, h.tok.congr (fun p hp => ho.mem p (fun hp' => a1 p hp (hsub p hp'))), ?_, ?_, h.name.only ho, h.file⟩
  · rw [ho.mem _ (fun hp => a2 (hsub _ hp))]; exact h.ins
  · obtain ⟨x, h3, h4, h5⟩ := h.head
    exact ⟨x, by rw [h2]; exact h3, h4, h5.only ho⟩

theorem blk_fresh (h : (foot lB tB iB).Nodup) : lB.blk ∉ lB.toks.flatMap TokenB.blocks ∧ lB.blk ≠ lB.arr := by
  unfold foot LexerB.blocks at h
  rw [List.nodup_append, List.nodup_append, List.nodup_append] at h
  obtain ⟨⟨⟨_, h1, h2⟩, _⟩, _⟩ := h
  refine ⟨fun hp => h2 _ hp lB.blk (by simp) rfl, ?_⟩
  simp only [List.nodup_cons, List.mem_cons, List.not_mem_nil, or_false] at h1
  exact fun he => h1.1 he.symm

/-- The lexer's struct is replaced. -/
theorem Seq.putHead {seq : List Token} (hn : (foot lB tB iB).Nodup) (h : Seq s lB seq) (x : LexerO) (h1 : x.sequence = lB.arr)
    (h2 : x.fileName = ⟨.name, 0⟩) : Seq (s.put lB.blk (.lexer x)) lB seq := by
  obtain ⟨f1, f2⟩ := blk_fresh hn
  refine ⟨h.nodup, by rw [put_other (Ne.symm f2)]; exact h.arr, ?_, x, put_same _ _ _, h1, h2⟩
  refine forall₂_imp ?_ h.toks
  intro b t hb _ h'
  refine h'.congr (fun p hp => put_other ?_)
  rintro rfl
  exact f1 (List.mem_flatMap.2 ⟨b, hb, hp⟩)

theorem LexRel.putHead (h : LexRel s lB tB iB fn lx tk ins) (x : LexerO) (h1 : x.sequence = lB.arr) (h2 : x.fileName = ⟨.name, 0⟩)
    {lx' : Lexer} (hseq : lx'.seq = lx.seq) (hf : lx'.fileName = lx.fileName) (hc : x.curr = lx'.curr) (hl : LineRel s x lx') :
    LexRel (s.put lB.blk (.lexer x)) lB tB iB fn lx' tk ins := by
  obtain ⟨a1, a2, a3, a4⟩ := foot_apart h.nodup
  have hmem : lB.blk ∈ lB.blocks := by simp [LexerB.blocks]
  have ho : Only [lB.blk] s (s.put lB.blk (.lexer x)) := Only.put (by simp)
  refine ⟨h.nodup, h.len, ?_, ?_, ?_, ⟨x, put_same _ _ _, hc, hl.only ho⟩, h.name.only ho, hf.trans h.file⟩
  · rw [hseq]; exact h.seq.putHead h.nodup x h1 h2
  · refine h.tok.congr (fun p hp => put_other ?_)
    rintro rfl
    exact a1 _ hp hmem
  · rw [put_other]
    · exact h.ins
    · rintro rfl; exact a2 hmem

theorem mem_foot_blk : lB.blk ∈ foot lB tB iB := by simp [foot, LexerB.blocks]

theorem mem_foot_tok {b : TokenB} {i : Nat} (hb : lB.toks[i]? = some b) : ∀ p ∈ b.blocks, p ∈ foot lB tB iB := by
  intro p hp
  unfold foot LexerB.blocks
  simp only [List.append_assoc, List.mem_append]
  exact .inl (List.mem_flatMap.2 ⟨b, List.mem_of_getElem? hb, hp⟩)

theorem mem_foot_tk : ∀ p ∈ [tB.str, tB.blk, iB], p ∈ foot lB tB iB := by
  intro p hp
  simp only [List.mem_cons, List.not_mem_nil, or_false] at hp
  unfold foot TokenB.blocks
  simp only [List.mem_append, List.mem_cons, List.not_mem_nil, or_false]
  rcases hp with h | h | h <;> simp [h]

/-! ### add_token -/

theorem tokenStrcpy_run {b : TokenB} {t : Token} {l : Loc} {str : Str} (h : TokAt s.mem b t) (hl : TextAt s l str) :
    match Gaia.tokenStrcpy t str with
    | .ok t' => ∃ s', tokenStrcpy b.blk l o s = (.ok (), s') ∧ TokAt s'.mem b t' ∧ Only [b.str] s s'
    | .err _ => False
    | .ub _ => True := by
  unfold tokenStrcpy Gaia.tokenStrcpy
  by_cases h0 : str = []
  · rw [if_pos h0]
    refine ⟨s, ?_, h, Only.refl _ _⟩
    rw [bind_ok (readStr_run hl), if_pos h0]
    rfl
  rw [if_neg h0]
  by_cases h1 : str.length + 1 > MAX_TOKEN_STR_LEN
  · rw [if_pos h1]; trivial
  rw [if_neg h1]
  obtain ⟨s', h2, h3, h4⟩ := h.write (o := o) str hl.nonul (by omega)
  refine ⟨s', ?_, h3, h4⟩
  obtain ⟨data, e, h5, _⟩ := h
  rw [bind_ok (readStr_run hl), if_neg h0, bind_ok (loadToken_run h5)]
  exact h2

theorem addToken_sim (h : LexRel s lB tB iB fn lx tk ins) :
    match Gaia.addToken lx tk with
    | .ok lx' => ∃ s', addToken lB.blk tB.blk o s = (.ok (), s') ∧ LexRel s' lB tB iB fn lx' tk ins ∧ Only (foot lB tB iB) s s'
    | .err (e, _) => addToken lB.blk tB.blk o s = (.err ⟨e, []⟩, s)
    | .ub _ => True := by
  obtain ⟨a1, a2, a3, a4⟩ := foot_apart h.nodup
  obtain ⟨x, h1, h2, h3⟩ := h.head
  unfold Low.addToken Gaia.addToken
  rw [bind_ok (loadLexer_run h1), h2]
  by_cases h4 : lx.curr = MAX_TOKENS
  · rw [if_pos h4, if_pos h4]; rfl
  rw [if_neg h4, if_neg h4]
  cases h5 : lx.seq[lx.curr]? with
  | none => trivial
  | some new =>
    simp only
    by_cases h6 : new.type = .null
    swap
    · rw [if_neg h6]; trivial
    rw [if_pos h6]
    obtain ⟨b, hb, hbt⟩ := h.seq.get h5
    have hbt0 := hbt
    obtain ⟨data, e, h7, h8⟩ := hbt
    obtain ⟨datat, et, ht7, ht8⟩ := h.tok
    rw [bind_ok (h.seq.seqPtr hb), bind_ok (loadToken_run h7), if_pos h6, bind_ok (loadToken_run ht7), bind_ok (store_run h7)]
    have hr1 := h.write hb (hbt0.put tk.type new.value e new.bufferLocation) (Only.put (by simp [TokenB.blocks]))
    have hb1 := hbt0.put tk.type new.value e new.bufferLocation
    have hcp := tokenStrcpy_run (o := o) hb1 hr1.tok.text
    simp only
    revert hcp
    cases hn : Gaia.tokenStrcpy { new with type := tk.type } tk.str with
    | err _ =>
      rintro hcp
      exact hcp.elim
    | ub _ => intro _; trivial
    | ok new' =>
      rintro ⟨s2, h9, h10, h11⟩
      rw [bind_ok h9]
      have hr2 := hr1.write hb h10 (h11.mono (by simp [TokenB.blocks]))
      have h10' := h10
      obtain ⟨data2, e2, h12, _⟩ := h10
      obtain ⟨datat2, et2, ht12, _⟩ := hr2.tok
      rw [bind_ok (loadToken_run h12), bind_ok (loadToken_run ht12), bind_ok (store_run h12)]
      have hb3 := h10'.put new'.type tk.value e2 tk.bufferLocation
      have hr3 := hr2.write hb hb3 (Only.put (by simp [TokenB.blocks]))
      obtain ⟨x3, hx3, hx4, hx5⟩ := hr3.head
      have hxx : x3 = x := by
        have e1 := (h.seq.write hb hb1 (Only.put (by simp [TokenB.blocks]))).2
        have e2' := (hr1.seq.write hb h10' (h11.mono (by simp [TokenB.blocks]))).2
        have e3 := (hr2.seq.write hb hb3 (Only.put (by simp [TokenB.blocks]))).2
        rw [e3, e2', e1, h1] at hx3
        simpa using hx3.symm
      subst hxx
      obtain ⟨x0, hx0, hx1, hx2⟩ := h.seq.head
      have hx0' : x0 = x3 := by rw [h1] at hx0; simpa using hx0.symm
      subst hx0'
      refine ⟨_, store_run hx3, ?_, ?_⟩
      · have := hr3.putHead { x0 with curr := lx.curr + 1 } hx1 hx2
          (lx' := { lx with seq := lx.seq.set lx.curr { new' with value := tk.value, bufferLocation := tk.bufferLocation },
                            curr := lx.curr + 1 }) (by simp) rfl rfl
          (by
            have := hx5
            unfold LineRel at this ⊢
            simpa using this)
        exact this
      · have hsub := mem_foot_tok (lB := lB) (tB := tB) (iB := iB) hb
        exact (((Only.put (hsub _ (by simp [TokenB.blocks]))).trans (h11.mono (by
          intro p hp; refine hsub p ?_; simp only [List.mem_singleton] at hp; simp [TokenB.blocks, hp]))).trans
          (Only.put (hsub _ (by simp [TokenB.blocks])))).trans (Only.put mem_foot_blk)

end

end Gaia.Low

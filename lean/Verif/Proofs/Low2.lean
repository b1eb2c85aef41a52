import Verif.Proofs.Low1
import Verif.Proofs.Bytes

/-! The model with pointers: tokens in memory, and the functions that lex one token. -/
namespace Gaia.Low
open Gaia
open Gaia.Memory (Mem Result Misuse Heap Oracle bind_ok bind_err bind_apply TokenB LexerB)

/-- A place in main's buffer. -/
def bufLoc (n : Nat) : Loc := ⟨.buffer, n⟩

/-- The step changed nothing but the objects in the blocks `F`. -/
structure Only (F : List Nat) (s s' : Store) : Prop where
  heap : s'.heap = s.heap
  buffer : s'.buffer = s.buffer
  name : s'.name = s.name
  mem : ∀ p, p ∉ F → s'.mem p = s.mem p

theorem Only.refl (F : List Nat) (s : Store) : Only F s s := ⟨rfl, rfl, rfl, fun _ _ => rfl⟩

theorem Only.trans {F : List Nat} {s s' s'' : Store} (h : Only F s s') (h' : Only F s' s'') : Only F s s'' :=
  ⟨h'.heap.trans h.heap, h'.buffer.trans h.buffer, h'.name.trans h.name, fun p hp => (h'.mem p hp).trans (h.mem p hp)⟩

theorem Only.mono {F G : List Nat} {s s' : Store} (h : Only F s s') (hs : ∀ p ∈ F, p ∈ G) : Only G s s' :=
  ⟨h.heap, h.buffer, h.name, fun p hp => h.mem p (fun hf => hp (hs p hf))⟩

theorem Only.put {F : List Nat} {s : Store} {p : Nat} {x : Obj} (h : p ∈ F) : Only F s (s.put p x) :=
  ⟨rfl, rfl, rfl, fun _ hq => put_other (fun he => hq (he ▸ h))⟩

/-- The token `t` lies in the blocks `b`. -/
def TokAt (m : Nat → Option Obj) (b : TokenB) (t : Token) : Prop :=
  ∃ data e, m b.blk = some (.token ⟨t.type, b.str, t.value, e, t.bufferLocation.map bufLoc⟩) ∧ m b.str = some (.chars data) ∧
    data.length = MAX_TOKEN_STR_LEN ∧ (0 : Byte) ∈ data ∧ cstr data = t.str

theorem TokAt.congr {m m' : Nat → Option Obj} {b : TokenB} {t : Token} (h : TokAt m b t) (he : ∀ p ∈ b.blocks, m' p = m p) :
    TokAt m' b t := by
  obtain ⟨data, e, h1, h2, h3⟩ := h
  exact ⟨data, e, by rw [he _ (by simp [TokenB.blocks])]; exact h1, by rw [he _ (by simp [TokenB.blocks])]; exact h2, h3⟩

theorem TokAt.ne {m : Nat → Option Obj} {b : TokenB} {t : Token} (h : TokAt m b t) : b.str ≠ b.blk := by
  obtain ⟨data, e, h1, h2, _⟩ := h
  intro he
  rw [he, h1] at h2
  simp at h2

theorem TokAt.text {s : Store} {b : TokenB} {t : Token} (h : TokAt s.mem b t) : TextAt s ⟨.heap b.str, 0⟩ t.str := by
  obtain ⟨data, e, h1, h2, h3, h4, h5⟩ := h
  exact ⟨data, by simp [dataOf, h2], by simpa using h4, by simpa using h5⟩

/-- Change the struct, not the text. -/
theorem TokAt.put {s : Store} {b : TokenB} {t : Token} (h : TokAt s.mem b t) (ty : TokenType) (v : Nat) (e : Option Loc)
    (l : Option Nat) : TokAt (s.put b.blk (.token ⟨ty, b.str, v, e, l.map bufLoc⟩)).mem b ⟨ty, t.str, v, l⟩ := by
  have hn := h.ne
  obtain ⟨data, _, h1, h2, h3⟩ := h
  exact ⟨data, e, put_same _ _ _, by rw [put_other hn]; exact h2, h3⟩

/-- Change the text, not the struct. -/
theorem TokAt.write {o : Oracle} {s : Store} {b : TokenB} {t : Token} (h : TokAt s.mem b t) (bs : List Byte)
    (hb : ∀ c ∈ bs, c ≠ 0) (hl : bs.length < MAX_TOKEN_STR_LEN) :
    ∃ s', writeChars b.str (bs ++ [0]) o s = (.ok (), s') ∧ TokAt s'.mem b { t with str := bs } ∧ Only [b.str] s s' := by
  have hn := h.ne
  obtain ⟨data, e, h1, h2, h3, h4, h5⟩ := h
  have hw := writeChars_run (o := o) (bs := bs ++ [0]) h2 (by simp; omega)
  refine ⟨_, hw, ⟨_, e, ?_, put_same _ _ _, ?_, ?_, ?_⟩, Only.put (by simp)⟩
  · rw [put_other (Ne.symm hn)]; exact h1
  · simp; omega
  · simp
  · rw [List.append_assoc]; exact cstr_of hb

theorem toUpper_ne : ∀ c : Byte, c ≠ 0 → toUpper c ≠ 0 := by decide +kernel

theorem setType_run {o : Oracle} {s : Store} {b : TokenB} {t : Token} (h : TokAt s.mem b t) (ty : TokenType) :
    ∃ s', setType b.blk ty o s = (.ok (), s') ∧ TokAt s'.mem b { t with type := ty } ∧ Only [b.blk] s s' := by
  have hp := h
  obtain ⟨data, e, h1, h2⟩ := h
  refine ⟨_, ?_, hp.put ty t.value e t.bufferLocation, Only.put (by simp)⟩
  unfold setType
  rw [bind_ok (loadToken_run h1)]
  exact store_run h1

theorem setTokValue_run {o : Oracle} {s : Store} {b : TokenB} {t : Token} (h : TokAt s.mem b t) (v : Nat) :
    ∃ s', setTokValue b.blk v o s = (.ok (), s') ∧ TokAt s'.mem b { t with value := v } ∧ Only [b.blk] s s' := by
  have hp := h
  obtain ⟨data, e, h1, h2⟩ := h
  refine ⟨_, ?_, hp.put t.type v e t.bufferLocation, Only.put (by simp)⟩
  unfold setTokValue
  rw [bind_ok (loadToken_run h1)]
  exact store_run h1

theorem failAt_run {o : Oracle} {s : Store} {b : TokenB} {t : Token} (h : TokAt s.mem b t) (p : Loc) (e : Err) :
    ∃ s', failAt b.blk p e o s = (.ok (.error e), s') ∧ TokAt s'.mem b t ∧ Only [b.blk] s s' ∧
      ∃ tO, s'.mem b.blk = some (.token tO) ∧ tO.errorChar = some p := by
  have hp := h
  obtain ⟨data, e', h1, h2⟩ := h
  refine ⟨_, ?_, hp.put t.type t.value (some p) t.bufferLocation, Only.put (by simp), _, put_same _ _ _, rfl⟩
  unfold failAt
  rw [bind_ok (loadToken_run h1), bind_ok (store_run h1)]
  rfl

theorem tokenStrncpy_run {o : Oracle} {s : Store} {b : TokenB} {t : Token} {l : Loc} {str : Str} {n : Nat} (h : TokAt s.mem b t)
    (hl : TextAt s l str) (hn : n ≤ str.length) (h64 : n < MAX_TOKEN_STR_LEN) :
    ∃ s', tokenStrncpy b.blk l n o s = (.ok (), s') ∧ TokAt s'.mem b { t with str := (str.take n).map toUpper } ∧ Only [b.str] s s' := by
  obtain ⟨s', h1, h2, h3⟩ := h.write (o := o) ((str.take n).map toUpper)
    (by
      intro c hc
      obtain ⟨d, hd, rfl⟩ := List.mem_map.1 hc
      exact toUpper_ne _ (hl.nonul d (List.mem_of_mem_take hd)))
    (by simp; omega)
  refine ⟨s', ?_, h2, h3⟩
  obtain ⟨data, e', h4, h5⟩ := h
  unfold tokenStrncpy
  rw [bind_ok (readBytes_run hl hn), bind_ok (loadToken_run h4)]
  exact h1

theorem resetToken_run {o : Oracle} {s : Store} {b : TokenB} {t : Token} (h : TokAt s.mem b t) :
    ∃ s', resetToken b.blk o s = (.ok (), s') ∧ TokAt s'.mem b (Gaia.resetToken t) ∧ Only [b.str, b.blk] s s' := by
  have hn := h.ne
  obtain ⟨data, e, h1, h2, h3, h4, h5⟩ := h
  have h2' : (s.put b.blk (.token ⟨.null, b.str, 0, none, none⟩)).mem b.str = some (.chars data) := by rw [put_other hn]; exact h2
  have hw := writeChars_run (o := o) (bs := List.replicate MAX_TOKEN_STR_LEN 0) h2' (by simp [h3])
  refine ⟨?w, ?_, ⟨List.replicate MAX_TOKEN_STR_LEN 0, none, ?_, ?_, by simp, ?_, rfl⟩, ?_⟩
  · exact (s.put b.blk (.token ⟨.null, b.str, 0, none, none⟩)).put b.str
      (.chars (List.replicate MAX_TOKEN_STR_LEN 0 ++ data.drop (List.replicate MAX_TOKEN_STR_LEN (0 : Byte)).length))
  · unfold resetToken
    rw [bind_ok (loadToken_run h1), bind_ok (store_run h1)]
    exact hw
  · rw [put_other (Ne.symm hn), put_same]; rfl
  · simp [h3]
  · exact List.mem_replicate.2 ⟨by decide, rfl⟩
  · exact (Only.put (F := [b.str, b.blk]) (p := b.blk) (by simp)).trans (Only.put (p := b.str) (by simp))

/-! ### The buffer -/

theorem TextAt.only {F : List Nat} {s s' : Store} {n : Nat} {str : Str} (h : TextAt s (bufLoc n) str) (ho : Only F s s') :
    TextAt s' (bufLoc n) str := by
  obtain ⟨data, h1, h2⟩ := h
  exact ⟨data, by simp only [bufLoc, dataOf] at h1 ⊢; rw [ho.buffer]; exact h1, h2⟩

theorem NameAt.only {F : List Nat} {s s' : Store} {fn : Str} (h : NameAt s fn) (ho : Only F s s') : NameAt s' fn := by
  obtain ⟨data, h1, h2⟩ := h
  exact ⟨data, by simp only [dataOf] at h1 ⊢; rw [ho.name]; exact h1, h2⟩

/-! ### Lexing one token -/

/-- The scratch token and the instruction are as `tk` and `ins` say, and nothing else has changed. -/
structure Tk (s s' : Store) (tB : TokenB) (iB : Nat) (tk : Token) (ins : Instr) : Prop where
  tok : TokAt s'.mem tB tk
  ins : s'.mem iB = some (.instr ins)
  only : Only [tB.str, tB.blk, iB] s s'

theorem Tk.refl {s : Store} {tB : TokenB} {iB : Nat} {tk : Token} {ins : Instr} (h : TokAt s.mem tB tk)
    (hi : s.mem iB = some (.instr ins)) : Tk s s tB iB tk ins := ⟨h, hi, Only.refl _ _⟩

theorem Tk.ne_blk {s s' : Store} {tB : TokenB} {iB : Nat} {tk : Token} {ins : Instr} (h : Tk s s' tB iB tk ins) : iB ≠ tB.blk := by
  intro he
  obtain ⟨data, e, h1, _⟩ := h.tok
  have := h.ins
  rw [he, h1] at this
  simp at this

theorem Tk.ne_str {s s' : Store} {tB : TokenB} {iB : Nat} {tk : Token} {ins : Instr} (h : Tk s s' tB iB tk ins) : iB ≠ tB.str := by
  intro he
  obtain ⟨data, e, _, h1, _⟩ := h.tok
  have := h.ins
  rw [he, h1] at this
  simp at this

theorem Tk.next {s s' s'' : Store} {tB : TokenB} {iB : Nat} {tk tk' : Token} {ins : Instr} (h : Tk s s' tB iB tk ins)
    (ht : TokAt s''.mem tB tk') (ho : Only [tB.str, tB.blk] s' s'') : Tk s s'' tB iB tk' ins :=
  ⟨ht, by rw [ho.mem _ (by simp [h.ne_blk, h.ne_str])]; exact h.ins, h.only.trans (ho.mono (by simp))⟩

/-- What the functions that lex a token do. -/
def LexSim (s : Store) (tB : TokenB) (iB : Nat) (x : Result (Except Err Nat) × Store) (r : LexM (Nat × Token × Instr)) : Prop :=
  match r with
  | .ok (n, tk, ins) => ∃ s', x = (.ok (.ok n), s') ∧ Tk s s' tB iB tk ins
  | .err (e, pos) => ∃ s' tk ins, x = (.ok (.error e), s') ∧ Tk s s' tB iB tk ins ∧
      ∃ tO, s'.mem tB.blk = some (.token tO) ∧ tO.errorChar = some (bufLoc pos)
  | .ub _ => True

section
variable {o : Oracle} {s s1 : Store} {tB : TokenB} {iB : Nat} {tk : Token} {ins : Instr}

theorem fail_sim (h : Tk s s1 tB iB tk ins) (n : Nat) (e : Err) :
    LexSim s tB iB (failAt tB.blk (bufLoc n) e o s1) (.err (e, n)) := by
  obtain ⟨s', h1, h2, h3, h4⟩ := failAt_run (o := o) h.tok (bufLoc n) e
  exact ⟨s', tk, ins, h1, h.next h2 (h3.mono (by simp)), h4⟩

theorem lexLiteralBody_sim (h : Tk s s1 tB iB tk ins) (conv : Byte → Option Nat) (base off : Nat) (str : Str) (k : Nat) :
    LexSim s tB iB (lexLiteralBody conv base (bufLoc off) str k tB.blk o s1)
      (Gaia.lexLiteralBody conv base off str k tk >>= fun x => .ok (x.1, x.2, ins)) := by
  unfold lexLiteralBody Gaia.lexLiteralBody
  cases digitLoop conv base str 0 k with
  | bad n => exact fail_sim h (off + n) _
  | done total n =>
    simp only
    by_cases h1 : n = 0
    · rw [if_pos h1, if_pos h1]; exact fail_sim h (off + n) _
    rw [if_neg h1, if_neg h1]
    by_cases h2 : n = 1 ∧ (base = 2 ∨ base = 16)
    · rw [if_pos h2, if_pos h2]; exact fail_sim h (off + n) _
    rw [if_neg h2, if_neg h2]
    by_cases h3 : total > 0xFFFF
    · rw [if_pos h3, if_pos h3]; exact fail_sim h off _
    rw [if_neg h3, if_neg h3]
    have ht := h.tok
    obtain ⟨data, e', h4, h5⟩ := h.tok
    refine ⟨_, ?_, h.next (ht.put .literal total e' tk.bufferLocation) (Only.put (by simp))⟩
    rw [bind_ok (loadToken_run h4), bind_ok (store_run h4)]
    rfl

theorem lexLiteral_sim (h : Tk s s1 tB iB tk ins) {off : Nat} {str : Str} (ht : TextAt s1 (bufLoc off) str) :
    LexSim s tB iB (lexLiteral (bufLoc off) tB.blk o s1) (Gaia.lexLiteral off str tk >>= fun x => .ok (x.1, x.2, ins)) := by
  unfold lexLiteral Gaia.lexLiteral
  rw [bind_ok (readStr_run ht)]
  simp only
  by_cases h1 : rd str = 36
  · rw [if_pos h1, if_pos h1]; exact lexLiteralBody_sim h _ _ _ _ _
  rw [if_neg h1, if_neg h1]
  by_cases h2 : rd str = 37
  · rw [if_pos h2, if_pos h2]; exact lexLiteralBody_sim h _ _ _ _ _
  rw [if_neg h2, if_neg h2]
  by_cases h3 : isDigit (rd str) = true
  · rw [if_pos h3, if_pos h3]; exact lexLiteralBody_sim h _ _ _ _ _
  rw [if_neg h3, if_neg h3]
  exact fail_sim h off _

theorem setType_sim (h : Tk s s1 tB iB tk ins) (ty : TokenType) (n : Nat) :
    ∃ s', ((setType tB.blk ty >>= fun _ => pure (Except.ok n : Except Err Nat)) : M (Except Err Nat)) o s1 = (.ok (.ok n), s') ∧
      Tk s s' tB iB { tk with type := ty } ins := by
  obtain ⟨s', h1, h2, h3⟩ := setType_run (o := o) h.tok ty
  exact ⟨s', by rw [bind_ok h1]; rfl, h.next h2 (h3.mono (by simp))⟩

theorem lexDirective_sim (h : Tk s s1 tB iB tk ins) {off : Nat} {str : Str} (ht : TextAt s1 (bufLoc off) str) :
    LexSim s tB iB (lexDirective (bufLoc off) tB.blk o s1) (Gaia.lexDirective off str tk >>= fun x => .ok (x.1, x.2, ins)) := by
  unfold lexDirective Gaia.lexDirective
  rw [bind_ok (readStr_run ht)]
  cases scanLoop isEndOfToken isAlpha (MAX_TOKEN_STR_LEN - 1) 1 str.tail with
  | bad n => exact fail_sim h (off + n) _
  | done n =>
    simp only
    by_cases h1 : n = MAX_TOKEN_STR_LEN
    · rw [if_pos h1, if_pos h1]; exact fail_sim h off _
    rw [if_neg h1, if_neg h1]
    unfold Gaia.tokenStrncpy
    by_cases h2 : n ≥ MAX_TOKEN_STR_LEN
    · rw [if_pos h2]; trivial
    rw [if_neg h2]
    by_cases h3 : n > str.length
    · rw [if_pos h3]; trivial
    rw [if_neg h3]
    obtain ⟨s2, h4, h5, h6⟩ := tokenStrncpy_run (o := o) h.tok ht (Nat.le_of_not_gt h3) (Nat.lt_of_not_ge h2)
    have hk := h.next h5 (h6.mono (by simp))
    rw [bind_ok h4]
    obtain ⟨data, e', h7, h8⟩ := h5
    rw [bind_ok (loadToken_run h7), bind_ok (readStr_run hk.tok.text)]
    simp only [C.ok_bind]
    cases directiveType ((str.take n).map toUpper) with
    | none => exact fail_sim hk off _
    | some ty => exact setType_sim hk ty n

theorem lexInstruction_run (h : Tk s s1 tB iB tk ins) :
    ∃ s', match Gaia.lexInstruction tk ins with
      | some (tk', ins') => lexInstruction tB.blk iB o s1 = (.ok true, s') ∧ Tk s s' tB iB tk' ins'
      | none => lexInstruction tB.blk iB o s1 = (.ok false, s') ∧ Tk s s' tB iB tk ins := by
  unfold lexInstruction Gaia.lexInstruction
  have ht := h.tok
  obtain ⟨data, e', h7, h8⟩ := h.tok
  rw [bind_ok (loadToken_run h7), bind_ok (readStr_run ht.text)]
  cases strToMnemonic tk.str with
  | none => exact ⟨s1, rfl, h⟩
  | some m =>
    simp only
    have hk := h.next (ht.put .instruction tk.value e' tk.bufferLocation) (Only.put (by simp))
    refine ⟨_, ?_, ?_, put_same _ _ _, hk.only.trans (Only.put (by simp))⟩
    · rw [bind_ok (store_run h7), bind_ok (loadInstr_run hk.ins), bind_ok (store_run hk.ins)]
      rfl
    · refine hk.tok.congr ?_
      intro p hp
      simp only [TokenB.blocks, List.mem_cons, List.not_mem_nil, or_false] at hp
      rcases hp with rfl | rfl
      · exact put_other (Ne.symm hk.ne_str)
      · exact put_other (Ne.symm hk.ne_blk)

theorem lexText_sim (h : Tk s s1 tB iB tk ins) {off : Nat} {str : Str} (ht : TextAt s1 (bufLoc off) str) :
    LexSim s tB iB (lexText (bufLoc off) tB.blk iB o s1) (Gaia.lexText off str tk ins) := by
  unfold lexText Gaia.lexText
  rw [bind_ok (readStr_run ht)]
  cases scanLoop isTextStop isValidTokenChar MAX_TOKEN_STR_LEN 0 str with
  | bad n => exact fail_sim h (off + n) _
  | done n =>
    simp only
    by_cases h1 : n = MAX_TOKEN_STR_LEN
    · rw [if_pos h1, if_pos h1]; exact fail_sim h off _
    rw [if_neg h1, if_neg h1]
    unfold Gaia.tokenStrncpy
    by_cases h2 : n ≥ MAX_TOKEN_STR_LEN
    · rw [if_pos h2]; trivial
    rw [if_neg h2]
    by_cases h3 : n > str.length
    · rw [if_pos h3]; trivial
    rw [if_neg h3]
    obtain ⟨s2, h4, h5, h6⟩ := tokenStrncpy_run (o := o) h.tok ht (Nat.le_of_not_gt h3) (Nat.lt_of_not_ge h2)
    have hk := h.next h5 (h6.mono (by simp))
    rw [bind_ok h4]
    obtain ⟨data, e', h7, h8⟩ := h5
    rw [bind_ok (loadToken_run h7), bind_ok (readStr_run hk.tok.text)]
    simp only [C.ok_bind]
    generalize (str.take n).map toUpper = w at *
    by_cases h9 : w = b! "X"
    · rw [if_pos h9, if_pos h9]; exact setType_sim hk _ n
    rw [if_neg h9, if_neg h9]
    by_cases h9 : w = b! "Y"
    · rw [if_pos h9, if_pos h9]; exact setType_sim hk _ n
    rw [if_neg h9, if_neg h9]
    by_cases h9 : w = b! "A"
    · rw [if_pos h9, if_pos h9]; exact setType_sim hk _ n
    rw [if_neg h9, if_neg h9]
    obtain ⟨s3, h10⟩ := lexInstruction_run (o := o) hk
    revert h10
    cases Gaia.lexInstruction { tk with str := w } ins with
    | none =>
      rintro ⟨h10, h11⟩
      rw [bind_ok h10]
      exact setType_sim h11 _ n
    | some p =>
      rintro ⟨h10, h11⟩
      rw [bind_ok h10]
      exact ⟨s3, rfl, h11⟩

theorem lex_sim (h : Tk s s1 tB iB tk ins) {off : Nat} {str : Str} (ht : TextAt s1 (bufLoc off) str) (hne : str ≠ []) :
    LexSim s tB iB (lex (bufLoc off) tB.blk iB o s1) (Gaia.lex off str tk ins) := by
  unfold lex Gaia.lex
  have htk := h.tok
  obtain ⟨data, e', h7, h8⟩ := h.tok
  rw [bind_ok (readStr_run ht)]
  simp only
  rw [bind_ok (loadToken_run h7), bind_ok (store_run h7)]
  have hk := h.next (htk.put tk.type tk.value e' (some off)) (Only.put (by simp))
  have ht' : TextAt (s1.put tB.blk (.token ⟨tk.type, tB.str, tk.value, e', (some off).map bufLoc⟩)) (bufLoc off) str :=
    ht.only (F := [tB.blk]) (Only.put (by simp))
  simp only [Option.map_some] at hk ht'
  cases hp : punctType (rd str) with
  | some ty =>
    simp only
    obtain ⟨s2, h1, h2, h3⟩ := setType_run (o := o) hk.tok ty
    have hk2 := hk.next h2 (h3.mono (by simp))
    rw [bind_ok h1]
    have hc : rd str ≠ 0 := by
      intro h0; rw [h0] at hp; simp [punctType] at hp
    obtain ⟨s3, h4, h5, h6⟩ := hk2.tok.write (o := o) [toUpper (rd str)] (by simpa using toUpper_ne _ hc) (by simp [MAX_TOKEN_STR_LEN])
    have hk3 := hk2.next h5 (h6.mono (by simp))
    obtain ⟨data, e'', h10, h11⟩ := hk2.tok
    have h12 : tokenPunct tB.blk (rd str) o s2 = (.ok (), s3) := by
      unfold tokenPunct
      rw [bind_ok (loadToken_run h10)]
      exact h4
    rw [bind_ok h12]
    exact ⟨s3, rfl, hk3⟩
  | none =>
    simp only
    by_cases h1 : isAlpha (rd str) = true
    · rw [if_pos h1, if_pos h1]; exact lexText_sim hk ht'
    rw [if_neg h1, if_neg h1]
    by_cases h2 : rd str = 36 ∨ rd str = 37 ∨ isDigit (rd str) = true
    · rw [if_pos h2, if_pos h2]; exact lexLiteral_sim hk ht'
    rw [if_neg h2, if_neg h2]
    by_cases h3 : rd str = 46
    · rw [if_pos h3, if_pos h3]; exact lexDirective_sim hk ht'
    rw [if_neg h3, if_neg h3]
    exact fail_sim hk off _

end

end Gaia.Low

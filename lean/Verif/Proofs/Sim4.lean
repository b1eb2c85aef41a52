import Verif.Proofs.Sim3

/-! Bounds, one line, the main loop and the patching: the model of main.c computes what the pure machine computes. -/
set_option linter.unusedSimpArgs false
namespace Gaia
open Spec

/-! ### Invariants of the pure machine -/

/-- A reference that can be patched or reported. -/
def GoodRef (r : ForwardRef) : Prop :=
  r.instr.addrBitflag ≠ 0 ∧ (r.status = .branchForwardReference ∨ r.status = .jumpForwardReference) ∧
    Shows r.sourceLine (some r.operandLocation)

theorem declared_value {pc : Nat} {ls : List (Nat × Lexeme)} {p v : Nat} {l : Str} (h : declared pc ls = some (p, l, v)) :
    v = pc ∨ ∃ q, (q, .lit v) ∈ ls := by
  unfold declared at h
  split at h <;> simp only [Option.some.injEq, Prod.mk.injEq, reduceCtorEq] at h
  all_goals obtain ⟨_, _, rfl⟩ := h
  all_goals first
    | (left; rfl)
    | (right; exact ⟨_, by simp; tauto⟩)

theorem originOf_mem {ls : List (Nat × Lexeme)} {v : Nat} (h : originOf ls = some v) : ∃ q, (q, .lit v) ∈ ls := by
  unfold originOf at h
  split at h <;> simp only [Option.some.injEq, reduceCtorEq] at h
  all_goals subst h
  all_goals exact ⟨_, by simp; tauto⟩

theorem declare_bound {ls : List (Nat × Lexeme)} {a a' : A} {k : Nat} (h : declare ls a = .ok a') (hb : Bound k a)
    (hlit : ∀ p ∈ ls, ∀ v, p.2 = .lit v → v ≤ 0xFFFF) : Mid k a' ∧ a'.refs = a.refs ∧ a'.lineNum = a.lineNum ∧ a'.out = a.out := by
  have hpc := hb.pc
  have henv := hb.env
  unfold declare at h
  cases hd : declared a.pc ls with
  | some q =>
    obtain ⟨p, l, v⟩ := q
    rw [hd] at h
    simp only at h
    cases hl : a.env.lookup l with
    | some w => rw [hl] at h; cases h
    | none =>
      rw [hl] at h
      simp only [Except.ok.injEq] at h
      subst h
      have hv : v ≤ 65535 + 3 * k := by
        rcases declared_value hd with rfl | ⟨q, hq⟩
        · exact hpc
        · have := hlit _ hq v rfl; omega
      refine ⟨⟨hb.pc, hb.lineNum, hb.total, by simpa using henv, ?_, hb.refs, hb.refpc⟩, rfl, rfl, rfl⟩
      intro x w hx
      simp only [List.lookup_cons] at hx
      split at hx
      · simp only [Option.some.injEq] at hx; omega
      · exact hb.vals x w hx
  | none =>
    rw [hd] at h
    simp only at h
    cases ho : originOf ls with
    | some v =>
      rw [ho] at h
      simp only [Except.ok.injEq] at h
      subst h
      obtain ⟨q, hq⟩ := originOf_mem ho
      have := hlit _ hq v rfl
      exact ⟨⟨by simp only; omega, hb.lineNum, hb.total, by simp only; omega, hb.vals, hb.refs, hb.refpc⟩, rfl, rfl, rfl⟩
    | none =>
      rw [ho] at h
      simp only [Except.ok.injEq] at h
      subst h
      exact ⟨⟨hb.pc, hb.lineNum, hb.total, by omega, hb.vals, hb.refs, hb.refpc⟩, rfl, rfl, rfl⟩

theorem emit_bound {a : A} {k : Nat} (h : Mid k a) {bs : List Byte} (hbs : bs.length ≤ 3) : Bound (k + 1) (a.emit bs) := by
  have := h.pc
  have := h.lineNum
  have := h.total
  have := h.refs
  refine ⟨?_, ?_, ?_, h.env, ?_, ?_, ?_⟩
  · simp only [A.emit]; omega
  · simp only [A.emit]; omega
  · simp only [A.emit]; omega
  · intro x v hx; have := h.vals x v hx; omega
  · simp only [A.emit]; omega
  · intro r hr; have := h.refpc r hr; omega

/-- What an instruction does to the state. -/
theorem instrStep_cases {buf : Str} {ls : List (Nat × Lexeme)} {m : Mnemonic} {a a' : A}
    (h : instrStep buf ls m a = .ok a') :
    (∃ bs : List Byte, 1 ≤ bs.length ∧ bs.length ≤ 3 ∧ a' = a.emit bs) ∨
    (∃ p l bs, (p, Lexeme.name l) ∈ ls ∧ a.env.lookup l = none ∧ (Gaia.isBranch m = true ∨ Gaia.isJump m = true) ∧
      fwdFlag m (shape (ls.map (·.2))) ≠ 0 ∧
      bs = opByte m (fwdFlag m (shape (ls.map (·.2)))) :: argBytes (fwdFlag m (shape (ls.map (·.2)))) 0 ∧
      a' = (a.saveRef (mkRef buf l m (fwdFlag m (shape (ls.map (·.2)))) p a) m).emit bs) := by
  have ab : ∀ f v b, 1 ≤ (b :: argBytes f v).length ∧ (b :: argBytes f v).length ≤ 3 := by
    intro f v b
    have := argBytes_len f v
    simp only [List.length_cons]; omega
  unfold instrStep at h
  simp only at h
  cases ho : operandOf ls with
  | none =>
    rw [ho] at h
    simp only at h
    split_ifs at h
    simp only [Except.ok.injEq] at h
    exact .inl ⟨_, by simp, by simp, h.symm⟩
  | some q =>
    obtain ⟨p, x⟩ := q
    have hmem : (p, x) ∈ ls := by
      have := List.mem_of_find?_eq_some ho
      exact List.mem_of_mem_tail this
    rw [ho] at h
    cases x
    case regA =>
      simp only at h
      split_ifs at h
      simp only [Except.ok.injEq] at h
      exact .inl ⟨_, by simp, by simp, h.symm⟩
    case lit v =>
      simp only at h
      split_ifs at h
      simp only [Except.ok.injEq] at h
      exact .inl ⟨_, (ab _ _ _).1, (ab _ _ _).2, h.symm⟩
    case name l =>
      simp only at h
      cases hl : a.env.lookup l with
      | some v =>
        rw [hl] at h
        simp only at h
        split_ifs at h with h1 h2
        · cases hbb : branchByte a.pc v with
          | none => rw [hbb] at h; cases h
          | some b =>
            rw [hbb] at h
            simp only [Except.ok.injEq] at h
            exact .inl ⟨_, by simp, by simp, h.symm⟩
        · simp only [Except.ok.injEq] at h
          exact .inl ⟨_, (ab _ _ _).1, (ab _ _ _).2, h.symm⟩
      | none =>
        rw [hl] at h
        simp only at h
        split_ifs at h with h1 h2
        simp only [Except.ok.injEq] at h
        exact .inr ⟨p, l, _, hmem, hl, h1, h2, rfl, h.symm⟩
    all_goals
      simp only at h
      split_ifs at h
      simp only [Except.ok.injEq] at h
      exact .inl ⟨_, by simp, by simp, h.symm⟩

theorem instrStep_bound {buf : Str} {ls : List (Nat × Lexeme)} {m : Mnemonic} {a a' : A} {k : Nat}
    (h : instrStep buf ls m a = .ok a') (hb : Mid k a) : Bound (k + 1) a' := by
  rcases instrStep_cases h with ⟨bs, h1, h2, rfl⟩ | ⟨p, l, bs, _, _, _, _, hbs, rfl⟩
  · exact emit_bound hb h2
  · have hlen : bs.length ≤ 3 := by
      rw [hbs]; have := argBytes_len (fwdFlag m (shape (ls.map (·.2)))) 0
      simp only [List.length_cons]; omega
    have := hb.pc
    have := hb.lineNum
    have := hb.total
    have := hb.refs
    refine ⟨?_, ?_, ?_, hb.env, ?_, ?_, ?_⟩
    · simp only [A.emit, A.saveRef]; omega
    · simp only [A.emit, A.saveRef]; omega
    · simp only [A.emit, A.saveRef]; omega
    · intro x v hx; have := hb.vals x v hx; omega
    · simp only [A.emit, A.saveRef, List.length_append, List.length_cons, List.length_nil]; omega
    · intro r hr
      simp only [A.emit, A.saveRef, List.mem_append, List.mem_singleton] at hr
      rcases hr with hr | rfl
      · have := hb.refpc r hr; omega
      · simp only [mkRef]; omega

theorem goodRef_mkRef {buf l : Str} {m : Mnemonic} {f : Flags} {p : Nat} {a : A} {c : Byte} (hf : f ≠ 0)
    (h1 : buf[p]? = some c) (h2 : isTerm c = false) (h3 : isBlank c = false) : GoodRef (mkRef buf l m f p a) := by
  obtain ⟨s, suf, e1, e2, e3, e4⟩ := savedLine_spec h1 h2 h3
  have hnt : ∀ x : Byte, isTerm x = false → isBlank x = false → isTrailing x = false := by decide +kernel
  refine ⟨hf, ?_, ?_⟩
  · simp only [mkRef]; split_ifs <;> simp
  · simp only [mkRef, e1, Option.getD_some]
    refine ⟨⟨c, ?_, hnt c h2 h3⟩, ?_⟩
    · rw [e2, List.getElem?_append_left e4] at h1
      exact List.mem_of_getElem? h1
    · rintro _ ⟨⟩; omega

theorem step_bound {buf : Str} {ls : List (Nat × Lexeme)} {a a' : A} {k : Nat} {b : Bool}
    (h : step buf ls a = .ok (b, a')) (hb : Bound k a) (hlit : ∀ p ∈ ls, ∀ v, p.2 = .lit v → v ≤ 0xFFFF) :
    Bound (k + 1) a' := by
  unfold step at h
  cases hd : declare ls a with
  | error f => rw [hd] at h; cases h
  | ok a1 =>
    rw [hd] at h
    obtain ⟨hm, _, hln, _⟩ := declare_bound hd hb hlit
    have up : ∀ a2 : A, a2.pc = a1.pc → a2.lineNum ≤ a1.lineNum + 1 → a2.total = a1.total → a2.env = a1.env → a2.refs = a1.refs →
        Bound (k + 1) a2 := by
      intro a2 g1 g2 g3 g4 g5
      have := hm.pc
      have := hm.lineNum
      have := hm.total
      have := hm.refs
      refine ⟨by omega, by omega, by omega, by rw [g4]; exact hm.env, ?_, by rw [g5]; omega, ?_⟩
      · intro x v hx; rw [g4] at hx; have := hm.vals x v hx; omega
      · intro r hr; rw [g5] at hr; have := hm.refpc r hr; omega
    simp only at h
    split_ifs at h with h1
    · simp only [Except.ok.injEq, Prod.mk.injEq] at h
      obtain ⟨_, rfl⟩ := h
      exact up _ rfl (by omega) rfl rfl rfl
    · split at h
      · simp only [Except.ok.injEq, Prod.mk.injEq] at h
        obtain ⟨_, rfl⟩ := h
        exact up _ rfl (by simp only; omega) rfl rfl rfl
      · split at h
        · cases h
        · rename_i a2 hi
          simp only [Except.ok.injEq, Prod.mk.injEq] at h
          obtain ⟨_, rfl⟩ := h
          exact instrStep_bound hi hm

theorem step_refs {buf : Str} {ls : List (Nat × Lexeme)} {a a' : A} {b : Bool}
    (h : step buf ls a = .ok (b, a'))
    (hch : ∀ p ∈ ls, ∃ c, buf[p.1]? = some c ∧ isTerm c = false ∧ isBlank c = false) :
    ∀ r ∈ a'.refs, r ∈ a.refs ∨ GoodRef r := by
  unfold step at h
  cases hd : declare ls a with
  | error f => rw [hd] at h; cases h
  | ok a1 =>
    rw [hd] at h
    have hrefs : a1.refs = a.refs := by
      unfold declare at hd
      split at hd
      · split at hd <;> simp only [Except.ok.injEq, reduceCtorEq] at hd; subst hd; rfl
      · split at hd <;> simp only [Except.ok.injEq] at hd <;> subst hd <;> rfl
    simp only at h
    split_ifs at h with h1
    · simp only [Except.ok.injEq, Prod.mk.injEq] at h
      obtain ⟨_, rfl⟩ := h
      rw [hrefs]; exact fun r hr => .inl hr
    · split at h
      · simp only [Except.ok.injEq, Prod.mk.injEq] at h
        obtain ⟨_, rfl⟩ := h
        simp only [hrefs]; exact fun r hr => .inl hr
      · split at h
        · cases h
        · rename_i a2 hi
          simp only [Except.ok.injEq, Prod.mk.injEq] at h
          obtain ⟨_, rfl⟩ := h
          intro r hr
          rcases instrStep_cases hi with ⟨bs, _, _, rfl⟩ | ⟨p, l, bs, hp, _, _, hf, _, rfl⟩
          · left; rw [← hrefs]; exact hr
          · simp only [A.emit, A.saveRef, List.mem_append, List.mem_singleton] at hr
            rcases hr with hr | rfl
            · left; rw [← hrefs]; exact hr
            · right
              obtain ⟨c, c1, c2, c3⟩ := hch _ hp
              exact goodRef_mkRef hf c1 c2 c3

/-! ### One line -/

/-- The result of `lineStep` for a result of `line`. -/
def nextOf (b : Bool) (st : St) : Next := if b then .stop st else .continue st

/-- The line defines one symbol more than gaia can handle. -/
def Crowded (raw : List Byte) (a : A) : Prop := maxSymbols ≤ a.env.length ∧ ∃ ls a', lexemes raw = .ok ls ∧
  syn (typeAt (ls.map (·.2))) = .ok () ∧ declare ls a = .ok a' ∧ a.env.length < a'.env.length

theorem line_sim {fn : Str} {st : St} {a : A} {k : Nat} {raw : List Byte} (hr : Rel fn st a) (hb : Bound k a)
    (hk : k < 2 ^ 28) (hn : ¬ Crowded raw a) :
    match line fn raw a with
    | .error e => lineStep raw st = .err e
    | .ok (b, a') => ∃ st', lineStep raw st = .ok (nextOf b st') ∧ Rel fn st' a' ∧ Bound (k + 1) a' ∧
        ∀ r ∈ a'.refs, r ∈ a.refs ∨ GoodRef r := by
  unfold lineStep line
  have hfn : st.lexer.fileName = fn := hr.fileName
  rw [lexLine_eq raw st.lexer st.tk st.instr st.lineNum hr.seq, hfn, hr.lineNum]
  cases hlx : lexemes raw with
  | error f =>
    cases f with
    | «at» e pos =>
      obtain ⟨h1, h2⟩ := lexemes_error hlx
      simp only
      rw [raise_eq fn a.lineNum h1 (by rcases h2 with rfl | rfl | rfl | rfl <;> rfl)]
      simp only [orAbort, C.err_bind, faultAt, hr.out]
    | tooMany =>
      simp only [orAbort, C.err_bind, hr.out]
  | ok ls =>
    simp only [orAbort, C.ok_bind]
    rw [parseLine_lexerOf hlx]
    cases hs : syn (typeAt (ls.map (·.2))) with
    | error p =>
      obtain ⟨i, e⟩ := p
      simp only [orAbort, C.err_bind, faultAt, hr.out]
    | ok u =>
      simp only [orAbort, C.ok_bind]
      have hlen : ls.length ≤ 8 := by
        have := scan_length _ _ _ _ _ (by omega) hlx
        omega
      have hf := lexFacts (n := a.lineNum) (fn := fn) hlx hs
      have hlit := lexemes_small hlx
      have hch := lexemes_char hlx
      generalize hL : finish (lexerOf (cstr raw) a.lineNum fn ls) = L at hf
      rw [slot_ok hf.len (by omega)]
      simp only [orAbort, C.ok_bind]
      have hr1 : Rel fn { st with lineNum := a.lineNum, lexer := L, tk := lastTok nullTok ls, instr := lastInstr {} ls } a :=
        ⟨hr.pc, rfl, hr.total, hr.out, hr.tab, hr.count, hr.look, hr.refs, hf.len, hf.fileName⟩
      have hC : ls ≠ [] → Ctx L (cstr raw) fn a.lineNum ls := fun hne =>
        ⟨hf, hlen, (lexemes_shows hlx hne).1, (lexemes_shows hlx hne).2, hch⟩
      have hds := declare_sim hr1 hb hk hf hC (accepted_of_syn hs) hlit
      have hsb : ∀ b a', step (cstr raw) ls a = .ok (b, a') → Bound (k + 1) a' := fun b a' h => step_bound h hb hlit
      have hsr : ∀ b a', step (cstr raw) ls a = .ok (b, a') → ∀ r ∈ a'.refs, r ∈ a.refs ∨ GoodRef r :=
        fun b a' h => step_refs h hch
      unfold step at hsb hsr ⊢
      cases hd : declare ls a with
      | error f =>
        rw [hd] at hds
        simp only at hds ⊢
        rw [hds]
        rfl
      | ok a1 =>
        rw [hd] at hds hsb hsr
        simp only at hds hsb hsr ⊢
        obtain ⟨hm, _, hln, hout⟩ := declare_bound hd hb hlit
        obtain ⟨st1, e1, e2, e3, e4⟩ := hds.1 (by
          by_contra hc
          exact hn ⟨by omega, ls, a1, hlx, hs, hd, by omega⟩)
        rw [e1]
        simp only [C.ok_bind, e4]
        have t0 := hf.types 0
        have hstop : (tok L 0).type = .endDirective ↔ isStop ls = true := by
          rw [t0]
          cases ls with
          | nil => simp [typeAt, isStop]
          | cons p r =>
            obtain ⟨o, x⟩ := p
            cases x <;> simp [typeAt, lexType, isStop]
        by_cases hst : isStop ls = true
        · rw [if_pos (hstop.2 hst)]
          simp only [hst, if_true] at hsb hsr ⊢
          exact ⟨st1, rfl, e2, hsb _ _ rfl, hsr _ _ rfl⟩
        · rw [if_neg (fun h => hst (hstop.1 h))]
          simp only [hst, if_false, Bool.false_eq_true] at hsb hsr ⊢
          rw [lastInstr_eq] at *
          cases hmn : lastMnem (ls.map (·.2)) with
          | none =>
            rw [hmn] at hsb hsr e4
            simp only at hsb hsr ⊢
            rw [if_pos trivial]
            unfold bumpLine
            have hl1 := e2.lineNum
            have := hm.lineNum
            have : INT_MAX = 2147483647 := rfl
            rw [if_neg (by omega)]
            refine ⟨{ st1 with lineNum := st1.lineNum + 1 }, rfl, ⟨e2.pc, by simp [hl1], e2.total, e2.out, e2.tab, e2.count, e2.look,
              e2.refs, e2.seq, e2.fileName⟩, hsb _ _ rfl, hsr false { a1 with lineNum := a1.lineNum + 1 } rfl⟩
          | some m =>
            rw [hmn] at hsb hsr e4
            simp only at hsb hsr ⊢
            rw [if_neg (by simp)]
            have hne : ls ≠ [] := by rintro rfl; simp [lastMnem] at hmn
            have hC1 : Ctx st1.lexer (cstr raw) fn a1.lineNum ls := by
              rw [e3, hln]; exact hC hne
            have his := instr_sim e2 hm hk hC1 e4 hs hmn hlit
            cases hi : instrStep (cstr raw) ls m a1 with
            | error f =>
              rw [hi] at his
              simp only at his ⊢
              rw [his]
              simp only [C.err_bind, faultAt, hln, hout]
            | ok a2 =>
              rw [hi] at his hsb hsr
              simp only at his hsb hsr ⊢
              obtain ⟨st2, g1, g2⟩ := his
              rw [g1]
              exact ⟨st2, rfl, g2, hsb _ _ rfl, hsr _ _ rfl⟩

/-- The same as long as fewer lines have been read than there may be symbols. -/
theorem line_sim_few {fn : Str} {st : St} {a : A} {k : Nat} {raw : List Byte} (hr : Rel fn st a) (hb : Bound k a)
    (hk : k < maxSymbols) :
    match line fn raw a with
    | .error e => lineStep raw st = .err e
    | .ok (b, a') => ∃ st', lineStep raw st = .ok (nextOf b st') ∧ Rel fn st' a' ∧ Bound (k + 1) a' ∧
        ∀ r ∈ a'.refs, r ∈ a.refs ∨ GoodRef r :=
  have hM : maxSymbols = 21474836 := rfl
  line_sim hr hb (by omega) fun hc => by have := hc.1; have := hb.env; omega

/-- A line that defines one symbol too many. -/
theorem line_crowded {fn : Str} {st : St} {a : A} {k : Nat} {raw : List Byte} (hr : Rel fn st a) (hb : Bound k a)
    (hk : k < 2 ^ 28) (hc : Crowded raw a) : lineStep raw st = .ub .signedOverflow := by
  obtain ⟨hfull, ls, a1, hlx, hs, hd, hmore⟩ := hc
  unfold lineStep
  have hfn : st.lexer.fileName = fn := hr.fileName
  rw [lexLine_eq raw st.lexer st.tk st.instr st.lineNum hr.seq, hfn, hr.lineNum, hlx]
  simp only [orAbort, C.ok_bind]
  rw [parseLine_lexerOf hlx, hs]
  simp only [orAbort, C.ok_bind]
  have hlen : ls.length ≤ 8 := by
    have := scan_length _ _ _ _ _ (by omega) hlx
    omega
  have hf := lexFacts (n := a.lineNum) (fn := fn) hlx hs
  have hlit := lexemes_small hlx
  have hch := lexemes_char hlx
  generalize hL : finish (lexerOf (cstr raw) a.lineNum fn ls) = L at hf
  rw [slot_ok hf.len (by omega)]
  simp only [orAbort, C.ok_bind]
  have hr1 : Rel fn { st with lineNum := a.lineNum, lexer := L, tk := lastTok nullTok ls, instr := lastInstr {} ls } a :=
    ⟨hr.pc, rfl, hr.total, hr.out, hr.tab, hr.count, hr.look, hr.refs, hf.len, hf.fileName⟩
  have hC : ls ≠ [] → Ctx L (cstr raw) fn a.lineNum ls := fun hne =>
    ⟨hf, hlen, (lexemes_shows hlx hne).1, (lexemes_shows hlx hne).2, hch⟩
  have hds := declare_sim hr1 hb hk hf hC (accepted_of_syn hs) hlit
  rw [hd] at hds
  rw [hds.2 hfull hmore]
  rfl

/-! ### All lines -/

/-- Some line of the run defines one symbol too many. -/
def Overflows (fn : Str) : List (List Byte) → A → Prop
  | [], _ => False
  | raw :: rest, a => Crowded raw a ∨ ∃ a', line fn raw a = .ok (false, a') ∧ Overflows fn rest a'

theorem not_overflows {fn : Str} : ∀ (raws : List (List Byte)) (a : A) (k : Nat), Bound k a → k + raws.length ≤ maxSymbols →
    ¬ Overflows fn raws a
  | [], a, k, hb, hk => fun h => h
  | raw :: rest, a, k, hb, hk => by
    rw [List.length_cons] at hk
    have henv := hb.env
    rintro (⟨h, _⟩ | ⟨a', h1, h2⟩)
    · omega
    · have hb' : Bound (k + 1) a' := by
        unfold line at h1
        cases hlx : lexemes raw with
        | error f => rw [hlx] at h1; cases f <;> simp at h1
        | ok ls =>
          rw [hlx] at h1
          simp only at h1
          split at h1
          · simp at h1
          · split at h1
            · simp at h1
            · rename_i r hst
              simp only [Except.ok.injEq] at h1
              subst h1
              exact step_bound hst hb (lexemes_small hlx)
      exact not_overflows rest a' (k + 1) hb' (by omega) h2

theorem mainLoop_sim' {fn : Str} : ∀ (raws : List (List Byte)) (st : St) (a : A) (k : Nat), Rel fn st a → Bound k a →
    k + raws.length ≤ 2 ^ 28 → ¬ Overflows fn raws a → (∀ r ∈ a.refs, GoodRef r) →
    match runLines fn raws a with
    | .error e => mainLoop raws st = .err e
    | .ok a' => ∃ st', mainLoop raws st = .ok st' ∧ Rel fn st' a' ∧ Bound (k + raws.length) a' ∧ ∀ r ∈ a'.refs, GoodRef r
  | [], st, a, k, hr, hb, hk, _, hg => ⟨st, rfl, hr, hb, hg⟩
  | raw :: rest, st, a, k, hr, hb, hk, hn, hg => by
    rw [List.length_cons] at hk
    have hl := line_sim (raw := raw) hr hb (by omega) (fun h => hn (.inl h))
    have hn' : ∀ a', line fn raw a = .ok (false, a') → ¬ Overflows fn rest a' := fun a' h1 h2 => hn (.inr ⟨a', h1, h2⟩)
    unfold runLines mainLoop
    cases h : line fn raw a with
    | error e =>
      rw [h] at hl
      simp only at hl ⊢
      rw [hl]; rfl
    | ok p =>
      obtain ⟨b, a1⟩ := p
      rw [h] at hl
      simp only at hl
      obtain ⟨st1, e1, e2, e3, e4⟩ := hl
      have hg1 : ∀ r ∈ a1.refs, GoodRef r := by
        intro r hr
        rcases e4 r hr with h | h
        · exact hg r h
        · exact h
      rw [e1]
      cases b with
      | true =>
        refine ⟨st1, rfl, e2, ?_, hg1⟩
        have : k + 1 ≤ k + (raw :: rest).length := by simp
        refine ⟨?_, ?_, ?_, ?_, ?_, ?_, ?_⟩
        · have := e3.pc; omega
        · have := e3.lineNum; omega
        · have := e3.total; omega
        · have := e3.env; omega
        · intro x v hx; have := e3.vals x v hx; omega
        · have := e3.refs; omega
        · intro r hr; have := e3.refpc r hr; omega
      | false =>
        simp only [nextOf, C.ok_bind, Bool.false_eq_true, if_false]
        have ih := mainLoop_sim' rest st1 a1 (k + 1) e2 e3 (by omega) (hn' a1 h) hg1
        have hkk : k + 1 + rest.length = k + (raw :: rest).length := by rw [List.length_cons]; omega
        rw [hkk] at ih
        exact ih

/-- With one symbol too many the behaviour is undefined. -/
theorem mainLoop_overflow {fn : Str} : ∀ (raws : List (List Byte)) (st : St) (a : A) (k : Nat), Rel fn st a → Bound k a →
    k + raws.length ≤ 2 ^ 28 → Overflows fn raws a → mainLoop raws st = .ub .signedOverflow
  | [], st, a, k, hr, hb, hk, h => h.elim
  | raw :: rest, st, a, k, hr, hb, hk, h => by
    rw [List.length_cons] at hk
    by_cases hc : Crowded raw a
    · unfold mainLoop
      rw [line_crowded hr hb (by omega) hc]
      rfl
    · rcases h with h | ⟨a1, h1, h2⟩
      · exact absurd h hc
      · have hl := line_sim (raw := raw) hr hb (by omega) hc
        rw [h1] at hl
        obtain ⟨st1, e1, e2, e3, _⟩ := hl
        unfold mainLoop
        rw [e1]
        simp only [nextOf, C.ok_bind, Bool.false_eq_true, if_false]
        exact mainLoop_overflow rest st1 a1 (k + 1) e2 e3 (by omega) h2

theorem mainLoop_sim {fn : Str} (raws : List (List Byte)) (st : St) (a : A) (k : Nat) (hr : Rel fn st a) (hb : Bound k a)
    (hk : k + raws.length ≤ maxSymbols) (hg : ∀ r ∈ a.refs, GoodRef r) :
    match runLines fn raws a with
    | .error e => mainLoop raws st = .err e
    | .ok a' => ∃ st', mainLoop raws st = .ok st' ∧ Rel fn st' a' ∧ Bound (k + raws.length) a' ∧ ∀ r ∈ a'.refs, GoodRef r :=
  mainLoop_sim' raws st a k hr hb (by have : maxSymbols = 21474836 := rfl; omega) (not_overflows raws a k hb hk) hg

theorem fgets_progress (n : Nat) (s : List Byte) (hs : s ≠ []) : (fgets (n + 1) s).2.length < s.length := by
  induction n generalizing s with
  | zero =>
    cases s with
    | nil => exact absurd rfl hs
    | cons c s => unfold fgets; split_ifs <;> simp [fgets]
  | succ n ih =>
    cases s with
    | nil => exact absurd rfl hs
    | cons c s =>
      unfold fgets
      split_ifs with h
      · simp
      · simp only [List.length_cons]
        by_cases h0 : s = []
        · subst h0; simp [fgets]
        · have := ih s h0; omega

theorem chunksAux_length : ∀ (fuel : Nat) (s : List Byte), (chunksAux fuel s).length ≤ fuel
  | 0, s => by simp [chunksAux]
  | fuel + 1, s => by
    unfold chunksAux
    split_ifs
    · simp
    · have := chunksAux_length fuel (fgets (MAX_BUFFER_SIZE - 1) s).2
      simp only [List.length_cons]; omega

theorem chunks_length (src : List Byte) : (chunks src).length ≤ src.length := chunksAux_length _ _

/-! ### Patching -/

theorem patch_sim {fn : Str} {st : St} {a : A} {k : Nat} (hr : Rel fn st a) (hb : Bound k a) (hk : k ≤ 2 ^ 28)
    (hg : ∀ r ∈ a.refs, GoodRef r) :
    ∀ (n i : Nat) (out : OutFile), i + n = a.refs.length →
      resolveAll st n i out = match patch fn a.env (a.refs.drop i) out with
        | .error e => .err e
        | .ok o => .ok o := by
  intro n
  induction n with
  | zero =>
    intro i out h
    rw [List.drop_of_length_le (by omega)]
    rfl
  | succ n ih =>
    intro i out h
    have hi : i < a.refs.length := by omega
    have hmem : a.refs[i] ∈ a.refs := List.getElem_mem hi
    obtain ⟨g1, g2, g3⟩ := hg _ hmem
    have hpc := hb.refpc _ hmem
    rw [List.drop_eq_getElem_cons hi]
    unfold resolveAll patch
    rw [hr.refs.get hi]
    simp only [search_eq hr, orAbort, C.ok_bind]
    have hfn := hr.fileName
    cases hl : a.env.lookup a.refs[i].label with
    | none =>
      simp only
      rw [if_pos (by omega), hfn, raise_eq fn _ g3 rfl]
    | some v =>
      have hv := hb.vals _ _ hl
      simp only
      rw [if_neg (by omega)]
      unfold resolveForwardRef
      rcases g2 with g2 | g2
      · rw [if_pos g2, if_pos g2, calc_eq (by omega) (by omega)]
        simp only [C.ok_bind]
        cases hbb : branchByte a.refs[i].pc v with
        | none =>
          simp only [Option.map_none]
          rw [hfn, raise_eq fn _ g3 rfl]
          rfl
        | some b =>
          simp only [Option.map_some]
          rw [if_pos g1]
          simp only [C.pure_eq, orAbort, C.ok_bind, fputc_eq, byte_offset]
          rw [ih (i + 1) _ (by omega)]
          rfl
      · have hnb : ¬ a.refs[i].status = .branchForwardReference := by rw [g2]; decide
        rw [if_neg hnb, if_neg hnb, if_pos g2, if_pos g1]
        simp only [C.pure_eq, orAbort, C.ok_bind, fputc_eq, byte_small, byte_mod, byte_high]
        rw [ih (i + 1) _ (by omega)]
        rfl

theorem lookup_init (x : Str) : lookup initSymbolTable x = none := by
  unfold lookup
  simp [initSymbolTable, entries_replicate]

theorem Rel_init (fn : Str) : Rel fn (initSt fn) A.init :=
  ⟨rfl, rfl, rfl, rfl, TabInv_init, rfl, by intro x; simp [initSt, A.init, lookup_init], Holds_init, rfl, rfl⟩

theorem Bound_init : Bound 0 A.init :=
  ⟨by simp [A.init], by simp [A.init], by simp [A.init], by simp [A.init], by simp [A.init], by simp [A.init],
    by simp [A.init]⟩

/-- **The model of main.c computes what the pure machine computes**, without undefined behaviour, if no more symbols are
defined than gaia can handle. -/
theorem assemble_sim' (fn : Str) (src : List Byte) (hsz : (chunks src).length ≤ 2 ^ 28) (hn : ¬ Overflows fn (chunks src) A.init) :
    match assembleA fn src with
    | .error e => assembleBytes fn src = .err e
    | .ok a => ∃ st, assembleBytes fn src = .ok st ∧ st.total = a.total ∧ st.symtab.count = a.env.length ∧ st.out = a.out ∧
        (∀ x, searchSymbol st.symtab x = .ok (match a.env.lookup x with | some v => (v : Int) | none => -2)) := by
  have hm := mainLoop_sim' (fn := fn) (chunks src) (initSt fn) A.init 0 (Rel_init fn) Bound_init (by omega) hn
    (by simp [A.init])
  unfold assembleA assembleBytes
  cases hrun : runLines fn (chunks src) A.init with
  | error e =>
    rw [hrun] at hm
    simp only at hm ⊢
    rw [hm]; rfl
  | ok a =>
    rw [hrun] at hm
    obtain ⟨st, e1, e2, e3, e4⟩ := hm
    rw [e1]
    simp only [C.ok_bind]
    rw [patch_sim e2 e3 (by omega) e4 st.unres.curr 0 st.out (by rw [e2.refs.curr]; omega), e2.out, List.drop_zero]
    cases hp : patch fn a.env a.refs a.out with
    | error e => rfl
    | ok o =>
      exact ⟨_, rfl, e2.total, e2.count, rfl, fun x => search_eq e2 x⟩

/-- One symbol too many. -/
theorem assemble_overflow (fn : Str) (src : List Byte) (hsz : (chunks src).length ≤ 2 ^ 28) (h : Overflows fn (chunks src) A.init) :
    assembleBytes fn src = .ub .signedOverflow := by
  unfold assembleBytes
  rw [mainLoop_overflow (chunks src) (initSt fn) A.init 0 (Rel_init fn) Bound_init (by omega) h]
  rfl

theorem sized_not_overflows (fn : Str) {src : List Byte} (h : Sized src) : ¬ Overflows fn (chunks src) A.init :=
  not_overflows _ _ 0 Bound_init (by have := h.chunks; omega)

theorem assemble_sim (fn : Str) (src : List Byte) (hsz : Sized src) :
    match assembleA fn src with
    | .error e => assembleBytes fn src = .err e
    | .ok a => ∃ st, assembleBytes fn src = .ok st ∧ st.total = a.total ∧ st.symtab.count = a.env.length ∧ st.out = a.out ∧
        (∀ x, searchSymbol st.symtab x = .ok (match a.env.lookup x with | some v => (v : Int) | none => -2)) :=
  assemble_sim' fn src (by have := hsz.chunks; have : maxSymbols = 21474836 := rfl; omega) (sized_not_overflows fn hsz)

end Gaia

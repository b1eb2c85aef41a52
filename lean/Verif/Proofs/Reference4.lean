import Verif.Proofs.Reference3
import Verif.Proofs.Whole

/-! The reference assembler against the pure machine: whole runs. -/
set_option linter.unusedSimpArgs false
namespace Gaia
open Spec Spec.Reference

theorem RelR.next {s : State} {a : A} (h : RelR s a) : RelR { s with line := s.line + 1 } { a with lineNum := a.lineNum + 1 } :=
  ⟨h.pc, by rw [h.line], h.total, h.env, h.out, h.pos, h.refs⟩

theorem define_sim {ls : List (Nat × Lexeme)} {p : Nat} {l : Str} {v : Nat} {s : State} {a : A} (h : RelR s a)
    (hd : declared a.pc ls = some (p, l, v)) :
    match defineLabel ls l v s with
    | .error f => declare ls a = .error f
    | .ok s' => ∃ a', declare ls a = .ok a' ∧ RelR s' a' ∧ s'.line = s.line := by
  unfold defineLabel declare
  rw [hd, ← h.env, declared_head hd]
  simp only
  cases a.env.lookup l with
  | some _ => rfl
  | none => exact ⟨_, rfl, ⟨h.pc, h.line, h.total, by simp [h.env], h.out, h.pos, h.refs⟩, rfl⟩

theorem execute_sim {raw : List Byte} {ls : List (Nat × Lexeme)} (hl : lexemes raw = .ok ls) {st : Stmt} {odd : Bool}
    (hs : statement (ls.map (·.2)) = .ok (st, odd)) {s : State} {a : A} (h : RelR s a) :
    match execute (cstr raw) ls odd s st with
    | .error f => step (cstr raw) ls a = .error f
    | .ok s' => ∃ a', step (cstr raw) ls a = .ok (decide (st = .stop), a') ∧
        RelR (if st = .stop then s' else { s' with line := s'.line + 1 }) a' ∧ s'.line = s.line := by
  have instr : ∀ lab m arg, st = .instr lab m arg → Sees ls lab m arg odd →
      match execute (cstr raw) ls odd s st with
      | .error f => step (cstr raw) ls a = .error f
      | .ok s' => ∃ a', step (cstr raw) ls a = .ok (decide (st = .stop), a') ∧
        RelR (if st = .stop then s' else { s' with line := s'.line + 1 }) a' ∧ s'.line = s.line := by
    intro lab m arg hst hv
    subst hst
    have hdec : decide (Stmt.instr lab m arg = .stop) = false := rfl
    rw [hdec]
    simp only [reduceCtorEq, if_false]
    have key : ∀ (s : State) (a0 : A), RelR s a0 → declare ls a = .ok a0 →
        match Reference.instruction (cstr raw) ls m arg odd s with
        | .error f => step (cstr raw) ls a = .error f
        | .ok s' => ∃ a', step (cstr raw) ls a = .ok (false, a') ∧ RelR { s' with line := s'.line + 1 } a' ∧ s'.line = s.line := by
      intro s a0 h0 hd
      have hi := instruction_sim hl hv h0
      unfold step
      rw [hd]
      simp only [hv.stop, Bool.false_eq_true, if_false, hv.mnem]
      cases he : Reference.instruction (cstr raw) ls m arg odd s with
      | error f => rw [he] at hi; simp only at hi ⊢; rw [hi]
      | ok s' =>
        rw [he] at hi
        obtain ⟨a', h1, h2, h3⟩ := hi
        simp only
        rw [h1]
        exact ⟨a', rfl, h2, h3⟩
    cases lab with
    | none =>
      refine key s a h ?_
      have h1 := hv.decl a.pc
      have h1 : declared a.pc ls = none := by simpa using h1
      unfold declare
      rw [h1, hv.org rfl]
    | some l =>
      have h1 := hv.decl a.pc
      obtain ⟨p, h1⟩ : ∃ p, declared a.pc ls = some (p, l, s.pc) := by
        rw [← h.pc]
        cases hh : declared a.pc ls with
        | none => rw [hh] at h1; simp at h1
        | some q => rw [hh] at h1; simp at h1; exact ⟨q.1, by rw [← h1]⟩
      have hd := define_sim h h1
      show match ((match defineLabel ls l s.pc s with
          | .error f => .error f
          | .ok s => Reference.instruction (cstr raw) ls m arg odd s) : Except Reference.Fault State) with
        | .error f => step (cstr raw) ls a = .error f
        | .ok s' => ∃ a', step (cstr raw) ls a = .ok (false, a') ∧ RelR { s' with line := s'.line + 1 } a' ∧ s'.line = s.line
      cases he : defineLabel ls l s.pc s with
      | error f =>
        rw [he] at hd
        simp only at hd ⊢
        unfold step
        rw [hd]
      | ok s' =>
        rw [he] at hd
        obtain ⟨a', h2, h3, h4⟩ := hd
        have := key s' a' h3 h2
        simp only
        rw [← h4]
        exact this
  rcases sees_statement hs with ⟨rfl, hp⟩ | ⟨lab, m, arg, hst, hv⟩
  swap
  · exact instr lab m arg hst hv
  have hf := other_facts hp
  have def' : ∀ p l v, declared a.pc ls = some (p, l, v) → isStop ls = false → lastMnem (ls.map (·.2)) = none →
      match defineLabel ls l v s with
      | .error f => step (cstr raw) ls a = .error f
      | .ok s' => ∃ a', step (cstr raw) ls a = .ok (false, a') ∧ RelR { s' with line := s'.line + 1 } a' ∧ s'.line = s.line := by
    intro p l v hd hst hm
    have hh := define_sim h hd
    cases he : defineLabel ls l v s with
    | error f =>
      rw [he] at hh
      simp only at hh ⊢
      unfold step
      rw [hh]
    | ok s' =>
      rw [he] at hh
      obtain ⟨a', h2, h3, h4⟩ := hh
      refine ⟨{ a' with lineNum := a'.lineNum + 1 }, ?_, h3.next, h4⟩
      unfold step
      simp only [h2, hst, hm, Bool.false_eq_true, if_false]
  cases st with
  | empty =>
    obtain rfl : ls = [] := hf
    exact ⟨_, rfl, h.next, rfl⟩
  | stop =>
    obtain ⟨p, rfl⟩ := hf
    exact ⟨_, rfl, h, rfl⟩
  | label l =>
    obtain ⟨p, rfl⟩ := hf
    exact def' p l s.pc (by rw [← h.pc]; rfl) rfl rfl
  | const l v =>
    rcases hf with ⟨p, q, r, rfl⟩ | ⟨p, q, r, rfl⟩ | ⟨p, q, r, rfl⟩
    · exact def' p l v rfl rfl rfl
    · exact def' p l v rfl rfl rfl
    · exact def' q l v rfl rfl rfl
  | org v =>
    have hh : RelR { s with pc := v } { a with pc := v } := ⟨rfl, h.line, h.total, h.env, h.out, h.pos, h.refs⟩
    rcases hf with ⟨p, q, rfl⟩ | ⟨p, q, r, rfl⟩
    · exact ⟨_, rfl, hh.next, rfl⟩
    · exact ⟨_, rfl, hh.next, rfl⟩
  | instr lab m arg => exact instr lab m arg rfl (sees_parse hp)

/-- A failure of the machine is the failure of the reference assembler. -/
structure FailR (f : Failure) (e : Abort) : Prop where
  out : e.fail.out = f.1
  file : Written e.out f.2

theorem faultAt_rel {fn text : Str} {s : State} {a : A} (h : RelR s a) (e : Err) (pos : Option Nat) :
    FailR (diag text e pos fn s.line, s.writes) (faultAt fn text a (e, pos)) :=
  ⟨by simp only [faultAt, h.line], h.out⟩

theorem runPieces_sim (fn : Str) : ∀ (ps : List (List Byte)) (s : State) (a : A), RelR s a →
    match runPieces fn ps s with
    | .error f => ∃ e, runLines fn ps a = .error e ∧ FailR f e
    | .ok s' => ∃ a', runLines fn ps a = .ok a' ∧ RelR s' a'
  | [], s, a, h => ⟨a, rfl, h⟩
  | piece :: rest, s, a, h => by
    have e1 : runPieces fn (piece :: rest) s =
        (match lexemesOf piece with
        | .error .tooMany => .error ([], s.writes)
        | .error (.at e pos) => .error (diag (cstr piece) e (some pos) fn s.line, s.writes)
        | .ok ls =>
          match statement (ls.map (·.2)) with
          | .error (e, i) => .error (diag (cstr piece) e (ls[i]?.map (·.1)) fn s.line, s.writes)
          | .ok (st, odd) =>
            match execute (cstr piece) ls odd s st with
            | .error (e, pos) => .error (diag (cstr piece) e pos fn s.line, s.writes)
            | .ok s => if st = .stop then .ok s else runPieces fn rest { s with line := s.line + 1 }) := rfl
    have e2 : runLines fn (piece :: rest) a =
        (match line fn piece a with
        | .error e => .error e
        | .ok (true, a) => .ok a
        | .ok (false, a) => runLines fn rest a) := rfl
    rw [e1, e2]
    unfold line
    rw [ref_lexemes]
    cases hl : lexemesOf piece with
    | error w =>
      cases w with
      | tooMany => exact ⟨_, rfl, rfl, h.out⟩
      | «at» e pos => exact ⟨_, rfl, faultAt_rel h e (some pos)⟩
    | ok ls =>
      have hlx : lexemes piece = .ok ls := by rw [ref_lexemes, hl]; rfl
      simp only [Except.mapError]
      obtain ⟨r1, r2⟩ := ref_statement (ls.map (·.2))
      cases hst : statement (ls.map (·.2)) with
      | error x =>
        obtain ⟨e, i⟩ := x
        rw [r1 e i hst]
        exact ⟨_, rfl, faultAt_rel h e _⟩
      | ok x =>
        obtain ⟨st, odd⟩ := x
        rw [r2 _ hst]
        simp only
        have hx := execute_sim hlx hst h
        cases he : execute (cstr piece) ls odd s st with
        | error f =>
          rw [he] at hx
          obtain ⟨e, pos⟩ := f
          simp only at hx
          rw [hx]
          exact ⟨_, rfl, faultAt_rel h e pos⟩
        | ok s' =>
          rw [he] at hx
          obtain ⟨a', h1, h2, _⟩ := hx
          rw [h1]
          simp only
          by_cases hstop : st = .stop
          · rw [if_pos hstop] at h2 ⊢
            rw [decide_eq_true hstop]
            exact ⟨a', rfl, h2⟩
          · rw [if_neg hstop] at h2 ⊢
            rw [decide_eq_false hstop]
            exact runPieces_sim fn rest _ a' h2

theorem resolve_sim (fn : Str) (env : Env) : ∀ (ps : List Pending) (qs : List ForwardRef) (W : List Chunk) (out : OutFile),
    List.Forall₂ RefR ps qs → Written out W →
    match resolve fn env ps W with
    | .error f => ∃ e, patch fn env qs out = .error e ∧ FailR f e
    | .ok W' => ∃ out', patch fn env qs out = .ok out' ∧ Written out' W'
  | [], [], W, out, _, h => ⟨out, rfl, h⟩
  | r :: ps, q :: qs, W, out, .cons hr hrs, h => by
    have e1 : resolve fn env (r :: ps) W =
        (match env.lookup r.label with
        | none => .error (diag r.text .missingLabelDefinition (some r.pos) fn r.line, W)
        | some v =>
          if Spec.isBranch r.mnemonic then
            match branchByte r.addr v with
            | none => .error (diag r.text .tooBigOffset (some r.pos) fn r.line, W)
            | some b => resolve fn env ps (W ++ [(r.addr, [r.opcode, b])])
          else resolve fn env ps (W ++ [(r.addr, [r.opcode, UInt8.ofNat (v % 256), UInt8.ofNat (v / 256 % 256)])])) := rfl
    rw [e1]
    unfold patch
    rw [hr.label, hr.status, hr.addr, hr.opcode, isBranch_eq]
    simp only [hr.shows, ofNat_mod]
    cases env.lookup r.label with
    | none => exact ⟨_, rfl, rfl, h⟩
    | some v =>
      simp only
      by_cases hb : Spec.isBranch r.mnemonic = true
      · simp only [hb, if_true]
        cases branchByte r.addr v with
        | none => exact ⟨_, rfl, rfl, h⟩
        | some b => exact resolve_sim fn env ps qs _ _ hrs (h.puts _ _ (by simp))
      · simp only [hb, if_false, reduceCtorEq]
        exact resolve_sim fn env ps qs _ _ hrs (h.puts _ _ (by simp))

/-- **The reference assembler is gaia**, as long as the symbols can be counted. -/
theorem reference_eq' {w : World} {srcName outName : Str} {src : List Byte} (hw : Setup w srcName outName src)
    (hs : (chunks src).length ≤ 2 ^ 28) (hn : ¬ Overflows srcName (chunks src) A.init) :
    gaia srcName outName w = .exited ⟨(Reference.run srcName src).status, (Reference.run srcName src).text,
      w.write outName (Reference.run srcName src).file⟩ := by
  have h1 := runPieces_sim srcName (pieces src) _ _ RelR_init
  have h3 := assemble_sim' srcName src hs hn
  rw [gaia_eq hw]
  unfold assembleA at h3
  rw [← pieces_eq] at h3
  unfold Reference.run
  cases hr : runPieces srcName (pieces src) .init with
  | error f =>
    rw [hr] at h1
    obtain ⟨e, k1, k2⟩ := h1
    rw [k1] at h3
    simp only at h3 ⊢
    rw [h3]
    simp only [Failure.result, k2.out, k2.file.bytes]
  | ok s =>
    rw [hr] at h1
    obtain ⟨a, k1, k2⟩ := h1
    rw [k1] at h3
    simp only at h3 ⊢
    have h4 := resolve_sim srcName s.env s.pending a.refs s.writes a.out k2.refs k2.out
    rw [k2.env] at h3
    cases hp : resolve srcName s.env s.pending s.writes with
    | error f =>
      rw [hp] at h4
      obtain ⟨e, m1, m2⟩ := h4
      rw [m1] at h3
      simp only at h3 ⊢
      rw [h3]
      simp only [Failure.result, m2.out, m2.file.bytes]
    | ok W =>
      rw [hp] at h4
      obtain ⟨out, m1, m2⟩ := h4
      rw [m1] at h3
      obtain ⟨st, n1, n2, n3, n4, _⟩ := h3
      simp only
      rw [n1]
      simp only [n2, n3, n4, k2.total, m2.bytes]
      rfl

/-- **The reference assembler is gaia.** -/
theorem reference_eq {w : World} {srcName outName : Str} {src : List Byte} (hw : Setup w srcName outName src)
    (hs : Sized src) :
    gaia srcName outName w = .exited ⟨(Reference.run srcName src).status, (Reference.run srcName src).text,
      w.write outName (Reference.run srcName src).file⟩ :=
  reference_eq' hw (by have := hs.chunks; have : maxSymbols = 21474836 := rfl; omega) (sized_not_overflows srcName hs)

/-! ### The limit -/

/-- What a statement defines. -/
theorem declared_statement {raw : List Byte} {ls : List (Nat × Lexeme)} {st : Stmt} {odd : Bool}
    (hs : statement (ls.map (·.2)) = .ok (st, odd)) (pc : Nat) :
    (declared pc ls).map (fun q => q.2.1) = defined st := by
  rcases sees_statement hs with ⟨rfl, hp⟩ | ⟨lab, m, arg, rfl, hv⟩
  · have hf := other_facts hp
    cases st with
    | empty => obtain rfl : ls = [] := hf; rfl
    | stop => obtain ⟨p, rfl⟩ := hf; rfl
    | label l => obtain ⟨p, rfl⟩ := hf; rfl
    | const l v => rcases hf with ⟨p, q, r, rfl⟩ | ⟨p, q, r, rfl⟩ | ⟨p, q, r, rfl⟩ <;> rfl
    | org v => rcases hf with ⟨p, q, rfl⟩ | ⟨p, q, r, rfl⟩ <;> rfl
    | instr lab m arg =>
      have h1 := (sees_parse hp).decl pc
      cases lab <;> cases hd : declared pc ls <;> rw [hd] at h1 <;> simp_all [defined]
  · have h1 := hv.decl pc
    cases lab <;> cases hd : declared pc ls <;> rw [hd] at h1 <;> simp_all [defined]

theorem crowded_iff {piece : List Byte} {ls : List (Nat × Lexeme)} (hl : lexemes piece = .ok ls) {st : Stmt} {odd : Bool}
    (hs : statement (ls.map (·.2)) = .ok (st, odd)) {s : State} {a : A} (h : RelR s a) :
    Crowded piece a ↔ maxSymbols ≤ s.env.length ∧ ∃ l, defined st = some l ∧ s.env.lookup l = none := by
  have hd := declared_statement (raw := piece) hs a.pc
  unfold Crowded
  rw [h.env]
  refine and_congr_right fun _ => ⟨?_, ?_⟩
  · rintro ⟨ls', a', h1, _, h3, h4⟩
    rw [hl] at h1
    cases h1
    unfold declare at h3
    cases hh : declared a.pc ls with
    | none =>
      rw [hh] at h3
      cases ho : originOf ls <;> rw [ho] at h3 <;> cases h3 <;> simp [h.env] at h4
    | some q =>
      obtain ⟨p, l, v⟩ := q
      rw [hh] at h3 hd
      refine ⟨l, hd.symm, ?_⟩
      simp only [h.env] at h3
      cases he : s.env.lookup l with
      | none => rfl
      | some x => rw [he] at h3; cases h3
  · rintro ⟨l, h1, h2⟩
    rw [h1] at hd
    cases hh : declared a.pc ls with
    | none => rw [hh] at hd; cases hd
    | some q =>
      obtain ⟨p, l', v⟩ := q
      rw [hh] at hd
      obtain rfl : l' = l := by simpa using hd
      refine ⟨ls, { a with env := (l', v) :: a.env }, hl, (ref_statement _).2 _ hs, ?_, by simp [h.env]⟩
      unfold declare
      rw [hh]
      simp only [h.env, h2]

theorem overflows_iff (fn : Str) : ∀ (ps : List (List Byte)) (s : State) (a : A), RelR s a →
    (Overflows fn ps a ↔ overflows ps s)
  | [], s, a, h => Iff.rfl
  | piece :: rest, s, a, h => by
    show (Crowded piece a ∨ ∃ a', line fn piece a = .ok (false, a') ∧ Overflows fn rest a') ↔
      ∃ ls st odd, lexemesOf piece = .ok ls ∧ statement (ls.map (·.2)) = .ok (st, odd) ∧
      ((maxSymbols ≤ s.env.length ∧ ∃ l, defined st = some l ∧ s.env.lookup l = none) ∨
       (st ≠ .stop ∧ ∃ s', execute (cstr piece) ls odd s st = .ok s' ∧ overflows rest { s' with line := s'.line + 1 }))
    cases hl : lexemesOf piece with
    | error w =>
      have hlx : lexemes piece = .error (toFail w) := by rw [ref_lexemes, hl]; rfl
      constructor
      · rintro (⟨_, ls, a', h1, _⟩ | ⟨a', h1, _⟩)
        · rw [hlx] at h1; cases h1
        · unfold line at h1
          rw [hlx] at h1
          cases w <;> cases h1
      · rintro ⟨ls, st, odd, h1, _⟩; cases h1
    | ok ls =>
      have hlx : lexemes piece = .ok ls := by rw [ref_lexemes, hl]; rfl
      obtain ⟨r1, r2⟩ := ref_statement (ls.map (·.2))
      cases hst : statement (ls.map (·.2)) with
      | error x =>
        obtain ⟨e, i⟩ := x
        have hsyn := r1 e i hst
        constructor
        · rintro (⟨_, ls', a', h1, h2, _⟩ | ⟨a', h1, _⟩)
          · rw [hlx] at h1; cases h1; rw [hsyn] at h2; cases h2
          · unfold line at h1
            rw [hlx] at h1
            simp only [hsyn] at h1
            cases h1
        · rintro ⟨ls', st, odd, h1, h2, _⟩
          cases h1
          rw [hst] at h2; cases h2
      | ok x =>
        obtain ⟨st, odd⟩ := x
        have hsyn := r2 _ hst
        have hx := execute_sim hlx hst h
        have hline : line fn piece a = (match step (cstr piece) ls a with
            | .error f => .error (faultAt fn (cstr piece) a f)
            | .ok r => .ok r) := by
          unfold line
          rw [hlx]
          simp only [hsyn]
          cases step (cstr piece) ls a <;> rfl
        have hc := crowded_iff hlx hst h
        constructor
        · rintro (h1 | ⟨a', h1, h2⟩)
          · exact ⟨ls, st, odd, rfl, hst, .inl (hc.1 h1)⟩
          · refine ⟨ls, st, odd, rfl, hst, .inr ?_⟩
            rw [hline] at h1
            cases he : execute (cstr piece) ls odd s st with
            | error f => rw [he] at hx; simp only at hx; rw [hx] at h1; cases h1
            | ok s' =>
              rw [he] at hx
              obtain ⟨a1, k1, k2, _⟩ := hx
              rw [k1] at h1
              simp only [Except.ok.injEq, Prod.mk.injEq, decide_eq_false_iff_not] at h1
              obtain ⟨h0, rfl⟩ := h1
              rw [if_neg h0] at k2
              exact ⟨h0, s', rfl, (overflows_iff fn rest _ _ k2).1 h2⟩
        · rintro ⟨ls', st', odd', g1, g2, g3⟩
          cases g1
          rw [hst] at g2
          cases g2
          rcases g3 with g | ⟨g1, s', g2, g3⟩
          · exact .inl (hc.2 g)
          · right
            rw [g2] at hx
            obtain ⟨a1, k1, k2, _⟩ := hx
            rw [if_neg g1] at k2
            rw [decide_eq_false g1] at k1
            exact ⟨a1, by rw [hline, k1], (overflows_iff fn rest _ _ k2).2 g3⟩

end Gaia

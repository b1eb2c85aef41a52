import Verif.Proofs.Sim

/-! Simulation of one instruction. -/
set_option linter.unusedSimpArgs false
namespace Gaia
open Spec

/-- Bounds in the middle of a line: a label may have been declared. -/
structure Mid (k : Nat) (a : A) : Prop where
  pc : a.pc ≤ 65535 + 3 * k
  lineNum : a.lineNum ≤ k + 1
  total : a.total ≤ 3 * k
  env : a.env.length ≤ k + 1
  vals : ∀ x v, a.env.lookup x = some v → v ≤ 65535 + 3 * k
  refs : a.refs.length ≤ k
  refpc : ∀ r ∈ a.refs, r.pc ≤ 65535 + 3 * k

theorem Rel.setInstr {fn : Str} {st : St} {a : A} (h : Rel fn st a) (i : Instr) : Rel fn { st with instr := i } a :=
  ⟨h.pc, h.lineNum, h.total, h.out, h.tab, h.count, h.look, h.refs, h.seq, h.fileName⟩

theorem emit_sim {fn : Str} {st : St} {a : A} {k : Nat} (hr : Rel fn st a)
    (h1 : a.pc ≤ 65535 + 3 * k) (h2 : a.lineNum ≤ k + 1) (h3 : a.total ≤ 3 * k) (hk : k < 2 ^ 28)
    (bs : List Byte) (hbs : bs.length ≤ 3) (w : Nat) (hw : w = bs.length) (o : OutFile)
    (ho : o = (a.out.seek a.pc).puts bs) (i : Instr) :
    ∃ st', (bumpLine { st with out := o, instr := i } fun st =>
        if st.pc + w > INT_MAX ∨ st.total + w > INT_MAX then .ub .signedOverflow
        else .ok { st with pc := st.pc + w, total := st.total + w }) = .ok st' ∧ Rel fn st' (a.emit bs) := by
  subst hw ho
  unfold bumpLine
  simp only [hr.pc, hr.lineNum, hr.total]
  have hi : INT_MAX = 2147483647 := rfl
  rw [if_neg (by omega), if_neg (by omega)]
  exact ⟨_, rfl, ⟨rfl, rfl, rfl, rfl, hr.tab, hr.count, hr.look, hr.refs, hr.seq, hr.fileName⟩⟩

theorem argBytes_len (f : Flags) (v : Nat) : (argBytes f v).length ≤ 2 := by
  unfold argBytes; split_ifs <;> simp

theorem argBytes_pos (f : Flags) (v : Nat) : 1 ≤ (argBytes f v).length := by
  unfold argBytes; split_ifs <;> simp

theorem save_sim {fn : Str} {st : St} {a : A} {k : Nat} {buf : Str} {ls : List (Nat × Lexeme)} (hr : Rel fn st a)
    (hb : Mid k a) (hk : k < 2 ^ 28) (hc : Ctx st.lexer buf fn a.lineNum ls) {m : Mnemonic}
    {f : Flags} {op : Token} {p : Nat} {l : Str} (hp : (p, .name l) ∈ ls) (hl : op.str = l)
    (hloc : op.bufferLocation = some p) {status : OpStatus}
    (hs : status = if Gaia.isBranch m then .branchForwardReference else .jumpForwardReference) :
    ∃ st', saveForwardRef buf st ⟨some m, getAddrBitfield m, f, 0⟩ (some op) status = .ok st' ∧
      Rel fn st' (a.saveRef (mkRef buf l m f p a) m) ∧ st'.lexer = st.lexer := by
  obtain ⟨c, hc1, hc2, hc3⟩ := hc.chars _ hp
  obtain ⟨s, suf, hsv, _, _, _⟩ := savedLine_spec hc1 hc2 hc3
  have hcr : createForwardRef buf ⟨some m, getAddrBitfield m, f, 0⟩ (some op) status st.pc st.lineNum =
      .ok (mkRef buf l m f p a) := by
    unfold createForwardRef mkRef
    simp only [hsv, hloc, hl, hr.pc, hr.lineNum, hs, Option.getD_some]
  have hrefs := hb.refs
  obtain ⟨u', hu1, hu2⟩ := addForwardRef_spec hr.refs (mkRef buf l m f p a) (by
    have : INT_MAX = 2147483647 := rfl
    omega)
  unfold saveForwardRef
  rw [hcr]
  simp only [orAbort, C.ok_bind, hu1]
  refine ⟨_, rfl, ⟨hr.pc, hr.lineNum, hr.total, ?_, hr.tab, hr.count, hr.look, hu2, hr.seq, hr.fileName⟩, rfl⟩
  simp only [A.saveRef, hr.out, hs]
  cases Gaia.isBranch m <;> rfl

theorem instr_sim {fn : Str} {st : St} {a : A} {k : Nat} {buf : Str} {ls : List (Nat × Lexeme)} {m : Mnemonic}
    (hr : Rel fn st a) (hb : Mid k a) (hk : k < 2 ^ 28) (hc : Ctx st.lexer buf fn a.lineNum ls)
    (hi : st.instr = instrOf m) (hsyn : syn (typeAt (ls.map (·.2))) = .ok ()) (hm : lastMnem (ls.map (·.2)) = some m)
    (hlit : ∀ p ∈ ls, ∀ v, p.2 = .lit v → v ≤ 0xFFFF) :
    match instrStep buf ls m a with
    | .error f => instructionStep buf st = .err (faultAt fn buf a f)
    | .ok a' => ∃ st', instructionStep buf st = .ok st' ∧ Rel fn st' a' := by
  have hpc := hb.pc
  have fwdNo : ∀ {s : OpStatus}, s = .parserSuccess ∨ s = .branchOperand ∨ s = .jumpOperand →
      ¬ (s = .branchForwardReference ∨ s = .jumpForwardReference) := by
    rintro s (rfl | rfl | rfl) <;> decide
  cases hop : operandOf ls with
  | none =>
    have hlt := operand_none_length hsyn hop
    have hfind := findOperand_none hc.toLexFacts hlt hop
    simp only [instrStep, hop]
    unfold instructionStep
    rw [hfind]
    simp only [orAbort, C.ok_bind, parseOperand, hi]
    rw [addrMode_none hc m (fwdNo (.inl rfl))]
    by_cases h0 : noneFlag m = 0
    · simp only [if_pos h0, orAbort, C.err_bind, faultAt, hr.out]
    · simp only [if_neg h0, orAbort, C.ok_bind, C.pure_eq, generate_none]
      simp only [reduceCtorEq, or_self, if_false, C.ok_bind]
      refine emit_sim hr hb.pc hb.lineNum hb.total hk _ ?_ 1 ?_ _ ?_ _
      · simp
      · rfl
      · simp only [hr.out, hr.pc]
  | some q =>
    obtain ⟨p, x⟩ := q
    obtain ⟨i, hget, hi1, hlike, hbefore, hfind⟩ := findOperand_some hc.toLexFacts hc.short hop
    have hmem : (p, x) ∈ ls := List.mem_of_getElem? hget
    have hty : (tok st.lexer i).type = lexType x := by rw [hc.types i, typeAt_of_get hget]
    have hloc : (tok st.lexer i).bufferLocation = some p := by rw [hc.loc i, posAt, hget]; rfl
    cases x
    case regA =>
      simp only [instrStep, hop]
      have hta : (tok st.lexer i).type = .accumulator := hty
      unfold instructionStep
      rw [hfind]
      simp only [orAbort, C.ok_bind, parseOperand, hi, hta]
      simp only [reduceCtorEq, if_false, or_true, if_true, orAbort, C.ok_bind]
      rw [addrMode_some hc m _ (fwdNo (.inl rfl)) true false (by simp [hta]) (by simp)]
      by_cases h0 : knownFlag m true false (shape (ls.map (·.2))) = 0
      · simp only [if_pos h0, orAbort, C.err_bind, faultAt, hr.out]
      · simp only [if_neg h0, orAbort, C.ok_bind, C.pure_eq, generate_acc hta]
        simp only [reduceCtorEq, or_self, if_false, C.ok_bind]
        refine emit_sim hr hb.pc hb.lineNum hb.total hk _ ?_ 1 ?_ _ ?_ _
        · simp
        · rfl
        · simp only [hr.out, hr.pc]
    case lit v =>
      simp only [instrStep, hop]
      have hta : (tok st.lexer i).type = .literal := hty
      have hval : (tok st.lexer i).value = v := hc.lit i p v hget
      have hv := hlit _ hmem v rfl
      unfold instructionStep
      rw [hfind]
      simp only [orAbort, C.ok_bind, parseOperand, hi, hta]
      simp only [reduceCtorEq, if_false, true_or, if_true, orAbort, C.ok_bind]
      rw [addrMode_some hc m _ (fwdNo (.inl rfl)) false (decide (v > 0xFF)) (by simp [hta]) (by simp [hval])]
      by_cases h0 : knownFlag m false (decide (v > 0xFF)) (shape (ls.map (·.2))) = 0
      · simp only [if_pos h0, orAbort, C.err_bind, faultAt, hr.out]
      · simp only [if_neg h0, orAbort, C.ok_bind, C.pure_eq,
          generate_some (op := tok st.lexer i) (by simp [hta]) hval (by omega)]
        simp only [reduceCtorEq, or_self, if_false, C.ok_bind]
        refine emit_sim hr hb.pc hb.lineNum hb.total hk _ ?_ _ rfl _ ?_ _
        · have := argBytes_len (knownFlag m false (decide (v > 0xFF)) (shape (ls.map (·.2)))) v
          simp only [List.length_cons]; omega
        · simp only [hr.out, hr.pc]
    case name l =>
      simp only [instrStep, hop]
      have hta : (tok st.lexer i).type = .label := hty
      have hstr : (tok st.lexer i).str = l := hc.name i p l hget
      unfold instructionStep
      rw [hfind]
      simp only [orAbort, C.ok_bind, parseOperand, hi, hta, if_true, parseLabelOperand, hstr, search_eq hr l,
        instrOf_branch, instrOf_jump]
      cases hlook : a.env.lookup l with
      | some v =>
        have hv := hb.vals l v hlook
        have hne : ((v : Int) ≠ Err.symbolNotFound.code) := by
          show (v : Int) ≠ -2
          omega
        simp only [hne, ne_eq, not_false_eq_true, if_true, toUInt32_small (show v < 2 ^ 31 by omega)]
        by_cases hbr : Gaia.isBranch m = true
        · simp only [hbr, if_true, C.pure_eq, C.ok_bind, orAbort]
          rw [addrMode_some hc m _ (fwdNo (.inr (.inl rfl))) false (decide (v > 0xFF)) (by simp [hta]) (by simp)]
          by_cases h0 : knownFlag m false (decide (v > 0xFF)) (shape (ls.map (·.2))) = 0
          · simp only [if_pos h0, orAbort, C.err_bind, faultAt, hr.out]
          · simp only [if_neg h0, orAbort, C.ok_bind, C.pure_eq, true_or, if_true]
            unfold resolveLabelRef
            have hcalc : calcBranchOffset st.pc v = .ok ((branchByte a.pc v).map UInt8.toNat) := by
              rw [hr.pc]; exact calc_eq (by omega) (by omega)
            simp only [hstr, search_eq hr l, hlook, C.ok_bind, if_true, hcalc]
            cases hbb : branchByte a.pc v with
            | none =>
              simp only [Option.map_none, hloc]
              rw [hc.raise rfl (hc.showsAt _ hmem)]
              simp only [orAbort, C.err_bind, faultAt, hr.out]
            | some b =>
              have hlt : b.toNat < 256 := b.toNat_lt
              simp only [Option.map_some, C.pure_eq, orAbort, C.ok_bind]
              rw [generate_some (v := b.toNat) (by simp [hta]) rfl (by omega)]
              have hab : argBytes (knownFlag m false (decide (v > 0xFF)) (shape (ls.map (·.2)))) b.toNat = [b] := by
                unfold argBytes
                rw [if_neg (by simp [flag_branch hbr])]
                simp
              simp only [hab]
              refine emit_sim hr hb.pc hb.lineNum hb.total hk _ ?_ 2 ?_ _ ?_ _
              · simp
              · rfl
              · simp only [hr.out, hr.pc]
        · by_cases hj : Gaia.isJump m = true
          · simp only [hbr, hj, if_true, Bool.false_eq_true, if_false, C.pure_eq, C.ok_bind, orAbort]
            rw [addrMode_some hc m _ (fwdNo (.inr (.inr rfl))) false (decide (v > 0xFF)) (by simp [hta]) (by simp)]
            by_cases h0 : knownFlag m false (decide (v > 0xFF)) (shape (ls.map (·.2))) = 0
            · simp only [if_pos h0, orAbort, C.err_bind, faultAt, hr.out]
            · simp only [if_neg h0, orAbort, C.ok_bind, C.pure_eq, or_true, if_true]
              unfold resolveLabelRef
              simp only [hstr, search_eq hr l, hlook, C.ok_bind, reduceCtorEq, if_false, if_true, C.pure_eq,
                toUInt32_small (show v < 2 ^ 31 by omega), orAbort]
              rw [generate_some (v := v) (by simp [hta]) rfl (by omega)]
              refine emit_sim hr hb.pc hb.lineNum hb.total hk _ ?_ _ rfl _ ?_ _
              · have := argBytes_len (knownFlag m false (decide (v > 0xFF)) (shape (ls.map (·.2)))) v
                simp only [List.length_cons]; omega
              · simp only [hr.out, hr.pc]
          · simp only [hbr, hj, Bool.false_eq_true, if_false, C.pure_eq, C.ok_bind, orAbort]
            rw [addrMode_some hc m _ (fwdNo (.inl rfl)) false (decide (v > 0xFF)) (by simp [hta]) (by simp)]
            by_cases h0 : knownFlag m false (decide (v > 0xFF)) (shape (ls.map (·.2))) = 0
            · simp only [if_pos h0, orAbort, C.err_bind, faultAt, hr.out]
            · simp only [if_neg h0, orAbort, C.ok_bind, C.pure_eq, reduceCtorEq, or_self, if_false]
              rw [generate_some (v := v) (by simp [hta]) rfl (by omega)]
              refine emit_sim hr hb.pc hb.lineNum hb.total hk _ ?_ _ rfl _ ?_ _
              · have := argBytes_len (knownFlag m false (decide (v > 0xFF)) (shape (ls.map (·.2)))) v
                simp only [List.length_cons]; omega
              · simp only [hr.out, hr.pc]
      | none =>
        have hval : (tok st.lexer i).value = 0 := by
          obtain ⟨m', args, hform⟩ := accepted_instr hsyn hm
          apply hc.zero i
          · intro q hq v hqv
            obtain ⟨j, hj, rfl⟩ := List.getElem_of_mem hq
            rw [List.length_take] at hj
            rw [List.getElem_take] at hqv
            have hg : ls[j]? = some (ls[j]'(by omega)) := List.getElem?_eq_getElem (by omega)
            by_cases hj0 : j = 0
            · subst hj0
              have h2 : (ls.map (·.2))[0]? = some (.lit v) := by
                rw [List.getElem?_map, hg, Option.map_some, hqv]
              rcases hform with hform | ⟨l', hform⟩ <;> rw [hform] at h2 <;> simp at h2
            · by_cases hji : j = i
              · subst hji
                rw [hg] at hget
                simp only [Option.some.injEq] at hget
                rw [hget] at hqv; simp at hqv
              · have := hbefore j (by omega) (by omega) _ hg
                rw [hqv] at this; simp [operandLike] at this
          · match ls, hform with
            | [], hform => simp at hform
            | (o, y) :: r, hform =>
              have : y = .mnem m' ∨ ∃ l', y = .name l' := by
                rcases hform with hform | ⟨l', hform⟩
                · left; simp at hform; exact hform.1
                · right; simp at hform; exact ⟨l', hform.1⟩
              rcases this with rfl | ⟨l', rfl⟩ <;> rfl
        have hcode : Err.symbolNotFound.code = -2 := rfl
        simp only [hcode, ne_eq, not_true, if_false]
        by_cases hbr : Gaia.isBranch m = true
        · simp only [hbr, if_true, C.pure_eq, C.ok_bind, orAbort, true_or]
          rw [addrMode_fwd hc m (.inl hbr) _ (.inl rfl)]
          by_cases h0 : fwdFlag m (shape (ls.map (·.2))) = 0
          · simp only [if_pos h0, orAbort, C.err_bind, faultAt, hr.out]
          · simp only [if_neg h0, orAbort, C.ok_bind, C.pure_eq]
            obtain ⟨st', e1, e2, e3⟩ := save_sim (hr.setInstr ⟨some m, getAddrBitfield m, fwdFlag m (shape (ls.map (·.2))), 0⟩)
              hb hk (buf := buf) (ls := ls) hc (m := m) (f := fwdFlag m (shape (ls.map (·.2)))) (op := tok st.lexer i) hmem hstr hloc
              (status := .branchForwardReference) (by rw [hbr]; rfl)
            rw [e1]
            simp only [reduceCtorEq, or_self, if_false, C.ok_bind]
            rw [generate_some (v := 0) (by simp [hta]) hval (by omega)]
            exact emit_sim (k := k) e2 hb.pc hb.lineNum hb.total hk _ (by
                have := argBytes_len (fwdFlag m (shape (ls.map (·.2)))) 0
                simp only [List.length_cons]; omega) _ rfl _ (by simp only [e2.out, e2.pc]) _
        · by_cases hj : Gaia.isJump m = true
          · simp only [hbr, hj, if_true, Bool.false_eq_true, if_false, C.pure_eq, C.ok_bind, orAbort, or_true]
            rw [addrMode_fwd hc m (.inr hj) _ (.inr rfl)]
            by_cases h0 : fwdFlag m (shape (ls.map (·.2))) = 0
            · simp only [if_pos h0, orAbort, C.err_bind, faultAt, hr.out]
            · simp only [if_neg h0, orAbort, C.ok_bind, C.pure_eq]
              obtain ⟨st', e1, e2, e3⟩ := save_sim (hr.setInstr ⟨some m, getAddrBitfield m, fwdFlag m (shape (ls.map (·.2))), 0⟩)
                hb hk (buf := buf) (ls := ls) hc (m := m) (f := fwdFlag m (shape (ls.map (·.2)))) (op := tok st.lexer i) hmem hstr hloc
                (status := .jumpForwardReference) (by simp [hbr])
              rw [e1]
              simp only [reduceCtorEq, or_self, if_false, C.ok_bind]
              rw [generate_some (v := 0) (by simp [hta]) hval (by omega)]
              exact emit_sim (k := k) e2 hb.pc hb.lineNum hb.total hk _ (by
                  have := argBytes_len (fwdFlag m (shape (ls.map (·.2)))) 0
                  simp only [List.length_cons]; omega) _ rfl _ (by simp only [e2.out, e2.pc]) _
          · simp only [hbr, hj, Bool.false_eq_true, if_false, or_self]
            rw [hloc, hc.raise rfl (hc.showsAt _ hmem)]
            simp only [orAbort, C.err_bind, faultAt, hr.out]
    all_goals simp [operandLike] at hlike
end Gaia

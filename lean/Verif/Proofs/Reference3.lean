import Verif.Proofs.Reference2

/-! The reference assembler against the pure machine: one line. -/
set_option linter.unusedSimpArgs false
namespace Gaia
open Spec Spec.Reference

theorem ofNat_mod (w : Nat) : UInt8.ofNat (w % 256) = UInt8.ofNat w := by
  apply UInt8.toNat_inj.1; simp

/-- A reference of the reference assembler and one of the machine. -/
structure RefR (r : Pending) (q : ForwardRef) : Prop where
  label : q.label = r.label
  addr : q.pc = r.addr
  status : q.status = if Gaia.isBranch r.mnemonic then .branchForwardReference else .jumpForwardReference
  opcode : UInt8.ofNat (getOpcode q.instr % 256).toNat = r.opcode
  shows : ∀ e fn, diag q.sourceLine e (some q.operandLocation) fn q.lineNum = diag r.text e (some r.pos) fn r.line

/-- The states correspond. -/
structure RelR (s : State) (a : A) : Prop where
  pc : a.pc = s.pc
  line : a.lineNum = s.line
  total : a.total = s.total
  env : a.env = s.env
  out : Written a.out s.writes
  pos : a.out.pos = s.filePos
  refs : List.Forall₂ RefR s.pending a.refs

theorem RelR_init : RelR .init A.init := ⟨rfl, rfl, rfl, rfl, Written_empty, rfl, .nil⟩

theorem emit_rel {s : State} {a : A} (h : RelR s a) {bs : List Byte} (hne : bs ≠ []) :
    RelR { s.write bs with line := s.line + 1 } (a.emit bs) := by
  refine ⟨?_, ?_, ?_, h.env, ?_, ?_, h.refs⟩
  · simp [A.emit, State.write, h.pc]
  · simp [A.emit, h.line]
  · simp [A.emit, State.write, h.total]
  · simp only [A.emit, State.write, h.pc]; exact h.out.puts _ _ hne
  · simp only [A.emit, State.write, puts_pos, OutFile.seek, h.pc]

theorem argBytes_eq {m : Mnemonic} {arg : Arg} {o : Opd} (ho : arg.opd = some o) {v w : Nat} {md : Mode}
    (h : modeFor m arg w = some md) :
    argBytes (modeFlag md) v = if md.bytes = 2 then [UInt8.ofNat (v % 256)] else
      [UInt8.ofNat (v % 256), UInt8.ofNat (v / 256 % 256)] := by
  rw [argBytes_raw ho h, ofNat_mod, ofNat_mod]
  have := modeFor_bytes ho h
  rcases mode_bytes_cases md with h | h | h
  · omega
  · rw [h]; rfl
  · rw [h]; rfl

/-- What is written for an instruction whose operand is known. -/
theorem encodeLow_known {env : Env} {m : Mnemonic} {arg : Arg} {w pc : Nat} {md : Mode} (h : modeFor m arg w = some md) :
    encodeLow env ⟨pc, m, md, arg.opd⟩ = match arg.opd with
      | none => some [opByte m (modeFlag md)]
      | some (.lit v) => some (opByte m (modeFlag md) :: argBytes (modeFlag md) v)
      | some (.sym l) =>
        match env.lookup l with
        | none => none
        | some v => if Gaia.isBranch m then (branchByte pc v).map fun b => [opByte m (modeFlag md), b]
          else some (opByte m (modeFlag md) :: argBytes (modeFlag md) v) := by
  obtain ⟨op, hop⟩ := (modeFor_some h).2
  unfold encodeLow
  simp only [hop, Option.bind_eq_bind, Option.bind_some, opByte_eq hop]
  cases ho : arg.opd with
  | none =>
    have h1 := modeFor_bytes_acc ho h
    unfold operandBytesLow
    simp only [h1]
    rfl
  | some o =>
    have hb := modeFor_bytes ho h
    have hr := modeFor_branch ho h
    rw [operandBytesLow_some (o := o) rfl (by simp only; omega)]
    cases o with
    | lit v =>
      simp only [opdValue, Option.bind_some, argBytes_eq ho h]
      by_cases hrel : md = .rel
      · have : md.bytes = 2 := by rw [hrel]; rfl
        simp [hrel, Mode.bytes]
      · rw [if_neg hrel]
        split_ifs <;> rfl
    | sym l =>
      simp only [opdValue]
      cases env.lookup l with
      | none => rfl
      | some v =>
        simp only [Option.bind_some, argBytes_eq ho h, isBranch_eq]
        by_cases hrel : md = .rel
        · rw [if_pos hrel, if_pos (hr.1 hrel)]
          cases branchByte pc v <;> rfl
        · rw [if_neg hrel, if_neg (fun hh => hrel (hr.2 hh))]
          split_ifs <;> rfl

/-- The operand is the first name after the first lexeme, if it is a name. -/
theorem operand_head {ls : List (Nat × Lexeme)} {p : Nat} {l : Str} (h : operandOf ls = some (p, .name l)) :
    (nameOffsets ls.tail).head? = some p := by
  unfold operandOf at h
  generalize ls.tail = t at h
  rw [nameOffsets_filter]
  rw [← List.head?_filter] at h
  cases hf : t.filter (fun q => operandLike q.2) with
  | nil => rw [hf] at h; simp at h
  | cons q r => rw [hf] at h; simp at h; subst h; rfl

theorem declared_head {pc : Nat} {ls : List (Nat × Lexeme)} {p : Nat} {l : Str} {v : Nat}
    (h : declared pc ls = some (p, l, v)) : (nameOffsets ls).head? = some p := by
  unfold declared at h
  split at h <;> simp at h <;> obtain ⟨rfl, rfl, rfl⟩ := h <;> rfl

/-- A saved reference shows the line as it was read. -/
theorem saved_shows {raw : List Byte} {ls : List (Nat × Lexeme)} (hl : lexemes raw = .ok ls) {p : Nat} {x : Lexeme}
    (hp : operandOf ls = some (p, x)) (e : Err) (fn : Str) (n : Nat) :
    diag ((savedLine (cstr raw)).getD []) e (some p) fn n = diag (cstr raw) e (some p) fn n := by
  have hm : (p, x) ∈ ls := List.mem_of_mem_tail (List.mem_of_find?_eq_some hp)
  obtain ⟨c, c1, c2, c3⟩ := lexemes_char hl _ hm
  obtain ⟨s, suf, h1, h2, h3, h4⟩ := savedLine_spec c1 c2 c3
  rw [h1, Option.getD_some]
  exact diag_saved h2 h3 (Nat.le_of_lt h4)

theorem instruction_sim {raw : List Byte} {ls : List (Nat × Lexeme)} (hl : lexemes raw = .ok ls) {lab : Option Str} {m : Mnemonic}
    {arg : Arg} {odd : Bool} (hv : Sees ls lab m arg odd) {s : State} {a : A} (h : RelR s a) :
    match Reference.instruction (cstr raw) ls m arg odd s with
    | .error f => instrStep (cstr raw) ls m a = .error f
    | .ok s' => ∃ a', instrStep (cstr raw) ls m a = .ok a' ∧ RelR { s' with line := s'.line + 1 } a' ∧ s'.line = s.line := by
  have emit : ∀ bs : List Byte, bs ≠ [] → ∃ a', (Except.ok (a.emit bs) : Except Fault A) = .ok a' ∧
      RelR { s.write bs with line := (s.write bs).line + 1 } a' ∧ (s.write bs).line = s.line :=
    fun bs hne => ⟨_, rfl, emit_rel h hne, rfl⟩
  unfold Reference.instruction instrStep
  have hop := hv.operand
  cases ho : arg.opd with
  | none =>
    have hodd := hv.plain ho
    subst hodd
    simp only [sizingValue, Reference.unknown, Bool.false_eq_true, if_false]
    cases arg <;> simp [Arg.opd] at ho
    case none =>
      have hq : operandOf ls = none := by simpa [argLexeme] using hop
      rw [hq]
      have hF := noneFlag_eq m
      simp only
      cases hm : modeFor m .none 0 with
      | none => rw [hm] at hF; exact if_pos hF
      | some md =>
        rw [hm] at hF
        have hF : noneFlag m = modeFlag md := hF
        have he := encodeLow_known (env := s.env) (pc := s.pc) hm
        simp only [Arg.opd] at he
        simp only [he]
        rw [if_neg (by rw [hF]; exact modeFlag_ne md), hF]
        exact emit _ (by simp)
    case acc =>
      obtain ⟨p, hq⟩ : ∃ p, operandOf ls = some (p, .regA) := by
        cases hh : operandOf ls with
        | none => rw [hh] at hop; simp [argLexeme] at hop
        | some q => rw [hh] at hop; simp [argLexeme] at hop; exact ⟨q.1, by rw [← hop]⟩
      rw [hq]
      have hF := hv.acc rfl
      simp only
      cases hm : modeFor m .acc 0 with
      | none => rw [hm] at hF; exact if_pos hF
      | some md =>
        rw [hm] at hF
        have hF : knownFlag m true false (shape (ls.map (·.2))) = modeFlag md := hF
        have he := encodeLow_known (env := s.env) (pc := s.pc) hm
        simp only [Arg.opd] at he
        simp only [he]
        rw [if_neg (by rw [hF]; exact modeFlag_ne md), hF]
        exact emit _ (by simp)
  | some o =>
    rw [argLexeme_some ho] at hop
    obtain ⟨p, hq⟩ : ∃ p, operandOf ls = some (p, opdLexeme o) := by
      cases hh : operandOf ls with
      | none => rw [hh] at hop; simp at hop
      | some q => rw [hh] at hop; simp at hop; exact ⟨q.1, by rw [← hop]⟩
    rw [hq]
    have hkn := hv.known o ho
    cases o with
    | lit v =>
      simp only [sizingValue, Reference.unknown, opdLexeme]
      have hF := hkn v
      cases hm : (if odd = true then none else modeFor m arg v) with
      | none => rw [hm] at hF; exact if_pos hF
      | some md =>
        rw [hm] at hF
        have hF : knownFlag m false (decide (v > 0xFF)) (shape (ls.map (·.2))) = modeFlag md := hF
        have hm' : modeFor m arg v = some md := by
          cases odd <;> simp at hm; exact hm
        have he := encodeLow_known (env := s.env) (pc := s.pc) hm'
        simp only [ho] at he
        simp only [he]
        rw [if_neg (by rw [hF]; exact modeFlag_ne md), hF]
        exact emit _ (by simp)
    | sym l =>
      have hpos := operand_head hq
      simp only [sizingValue, Reference.unknown, opdLexeme, hpos, h.env]
      cases hlk : s.env.lookup l with
      | some v =>
        simp only [Option.isSome_some, if_true]
        have hF := hkn v
        cases hm : (if odd = true then none else modeFor m arg v) with
        | none => rw [hm] at hF; exact if_pos hF
        | some md =>
          rw [hm] at hF
          have hF : knownFlag m false (decide (v > 0xFF)) (shape (ls.map (·.2))) = modeFlag md := hF
          have hm' : modeFor m arg v = some md := by
            cases odd <;> simp at hm; exact hm
          have he := encodeLow_known (env := s.env) (pc := s.pc) hm'
          simp only [ho, hlk] at he
          simp only [he]
          have hne : ¬ knownFlag m false (decide (v > 0xFF)) (shape (ls.map (·.2))) = 0 := by rw [hF]; exact modeFlag_ne md
          rw [if_neg hne, hF, h.pc]
          by_cases hbr : Gaia.isBranch m = true
          · rw [if_pos hbr, if_pos hbr]
            cases branchByte s.pc v with
            | none => rfl
            | some b => exact emit _ (by simp)
          · rw [if_neg hbr, if_neg hbr]
            exact emit _ (by simp)
      | none =>
        simp only [Option.isSome_none, Bool.false_eq_true, if_false]
        by_cases hbj : (Gaia.isBranch m || Gaia.isJump m) = true
        · have hF := hv.fwd _ ho hbj
          have hbj' := hbj
          rw [isBranch_eq, isJump_eq] at hbj'
          have hbo : Gaia.isBranch m = true ∨ Gaia.isJump m = true := by simpa using hbj
          simp only [hbj', hbo, if_true]
          cases hc : (if odd = true then none else forwardCode m arg) with
          | none =>
            rw [hc] at hF
            have hF : fwdFlag m (shape (ls.map (·.2))) = 0 := by simpa [fwdAgrees] using hF
            exact if_pos hF
          | some c =>
            obtain ⟨op, n⟩ := c
            rw [hc] at hF
            simp only [fwdAgrees, Bool.and_eq_true, bne_iff_ne, ne_eq, beq_iff_eq] at hF
            obtain ⟨⟨⟨⟨g1, g2⟩, g3⟩, g4⟩, g5⟩ := hF
            simp only [Option.getD_some]
            rw [if_neg g1, g2, g3]
            refine ⟨_, rfl, ?_, rfl⟩
            have hz : (if Gaia.isBranch m then [0, 0] else [0, 0, 0] : List Byte) = List.replicate n 0 := by
              rw [g4]; split_ifs <;> rfl
            have hsave : RelR
                { s with
                  writes := s.writes ++ [(s.filePos, List.replicate n 0)]
                  filePos := s.filePos + n
                  pending := s.pending ++ [⟨s.line, cstr raw, p, l, s.pc, m, op⟩] }
                (a.saveRef (mkRef (cstr raw) l m (fwdFlag m (shape (ls.map (·.2)))) p a) m) := by
              refine ⟨h.pc, h.line, h.total, h.env, ?_, ?_, ?_⟩
              · simp only [A.saveRef, hz]
                have := h.out.puts a.out.pos (List.replicate n 0) (by rw [g4]; split_ifs <;> simp)
                rw [h.pos] at this
                have e : a.out.seek s.filePos = a.out := by rw [← h.pos]; rfl
                rwa [e] at this
              · simp only [A.saveRef, hz, puts_pos, h.pos, List.length_replicate]
              · refine List.rel_append h.refs (.cons ⟨rfl, h.pc, rfl, g5, fun e fn => ?_⟩ .nil)
                simp only [mkRef, h.line]
                exact saved_shows hl hq e fn _
            exact emit_rel hsave (by simp)
        · have hbj' := hbj
          rw [isBranch_eq, isJump_eq] at hbj'
          have hbo : ¬ (Gaia.isBranch m = true ∨ Gaia.isJump m = true) := by simpa using hbj
          simp only [hbj', hbo, if_false, Bool.false_eq_true]
end Gaia

import Verif.Proofs.Out

/-! The pure machine against the specification, statement by statement. -/
set_option linter.unusedSimpArgs false
namespace Gaia
open Spec

/-- The bytes gaia writes for an item when the symbols `env` are known (0 for an unknown operand). -/
def rawBytes (env : Env) (it : Item) : List Byte :=
  UInt8.ofNat ((opcode? it.mnemonic it.mode).getD 0) ::
    match it.opd with
    | none => []
    | some (.lit v) => if it.mode.bytes = 3 then [UInt8.ofNat v, UInt8.ofNat (v / 256)] else [UInt8.ofNat v]
    | some (.sym l) =>
      match env.lookup l with
      | none => if it.mode.bytes = 3 then [0, 0] else [0]
      | some t =>
        if it.mode = .rel then [(branchByte it.addr t).getD 0]
        else if it.mode.bytes = 3 then [UInt8.ofNat t, UInt8.ofNat (t / 256)] else [UInt8.ofNat t]

/-- An item as the first pass makes them. -/
def ItemOK (it : Item) : Prop :=
  (∃ op, opcode? it.mnemonic it.mode = some op) ∧ (it.opd = none ↔ it.mode.bytes = 1) ∧
    (it.mode = .rel ↔ it.opd ≠ none ∧ Spec.isBranch it.mnemonic = true)

theorem mode_bytes_cases (md : Mode) : md.bytes = 1 ∨ md.bytes = 2 ∨ md.bytes = 3 := by cases md <;> simp [Mode.bytes]

theorem rawBytes_length {it : Item} (h : ItemOK it) (env : Env) : (rawBytes env it).length = it.mode.bytes := by
  obtain ⟨_, h2, h3⟩ := h
  unfold rawBytes
  have hb := mode_bytes_cases it.mode
  cases ho : it.opd with
  | none => simp [h2.1 ho]
  | some o =>
    have h1 : it.mode.bytes ≠ 1 := fun h => by rw [h2.2 h] at ho; cases ho
    have hrel : it.mode = .rel → it.mode.bytes = 2 := fun h => by rw [h]; rfl
    cases o with
    | lit v => simp only; split_ifs <;> simp <;> omega
    | sym l =>
      simp only
      cases env.lookup l with
      | none => simp only; split_ifs <;> simp <;> omega
      | some t =>
        simp only
        split_ifs with h5 h6 <;> simp <;> first | omega | (have := hrel h5; omega)

theorem itemOK_of {m : Mnemonic} {a : Arg} {v : Nat} {md : Mode} (h : modeFor m a v = some md) (pc : Nat) :
    ItemOK ⟨pc, m, md, a.opd⟩ := by
  refine ⟨(modeFor_some h).2, ?_, ?_⟩
  · cases ho : a.opd with
    | none => simp [modeFor_bytes_acc ho h]
    | some o => have := modeFor_bytes ho h; simp; omega
  · cases ho : a.opd with
    | none =>
      have := modeFor_bytes_acc ho h
      simp only [ne_eq, not_true_eq_false, false_and, iff_false]
      rintro rfl
      simp [Mode.bytes] at this
    | some o => simp [modeFor_branch ho h]

/-- The forward reference of an instruction. -/
def fwdOf (env : Env) (a : Arg) : Option Str :=
  match a.opd with
  | some (.sym l) => if (env.lookup l).isSome then none else some l
  | _ => none

theorem argBytes_raw {m : Mnemonic} {a : Arg} {o : Opd} (ho : a.opd = some o) {v w : Nat} {md : Mode}
    (h : modeFor m a w = some md) :
    argBytes (modeFlag md) v = if md.bytes = 3 then [UInt8.ofNat v, UInt8.ofNat (v / 256)] else [UInt8.ofNat v] :=
  argBytes_mode md v (modeFor_bytes ho h)

theorem instr_spec {buf : Str} {ls : List (Nat × Lexeme)} {lab : Option Str} {m : Mnemonic} {arg : Arg} {a : A}
    (hp : parse (ls.map (·.2)) = some (.instr lab m arg)) (hj : fwdOf a.env arg ≠ none → ¬ IdxJump m arg) :
    match instrFault a.pc a.env m arg with
    | some e => instrStep buf ls m a = .error (e, faultPos ls e)
    | none => ∃ v md, sizingValue a.env m arg.opd = some v ∧ modeFor m arg v = some md ∧
        match fwdOf a.env arg with
        | some l => ∃ p, (nameOffsets ls).getLast? = some p ∧ operandOf ls = some (p, .name l) ∧ instrStep buf ls m a =
            .ok ((a.saveRef (mkRef buf l m (modeFlag md) p a) m).emit (rawBytes a.env ⟨a.pc, m, md, arg.opd⟩)) ∧
            (Spec.isBranch m = true ∨ Spec.isJump m = true)
        | none => instrStep buf ls m a = .ok (a.emit (rawBytes a.env ⟨a.pc, m, md, arg.opd⟩)) := by
  obtain ⟨f1, f2, f3, f4, f5, f6⟩ := instr_facts hp
  unfold instrFault instrStep
  simp only [f1]
  cases ho : arg.opd with
  | none =>
    have hfw : fwdOf a.env arg = none := by unfold fwdOf; rw [ho]
    rw [hfw]
    simp only [sizingValue]
    have hb : ∀ md, modeFor m arg 0 = some md → rawBytes a.env ⟨a.pc, m, md, none⟩ = [opByte m (modeFlag md)] := by
      intro md h
      obtain ⟨op, hop⟩ := (modeFor_some h).2
      simp [rawBytes, hop, opByte_eq hop]
    cases arg <;> simp [Arg.opd] at ho
    case none =>
      have hq : operandOf ls = none := by simpa [argLexeme] using f3
      rw [hq]
      have hF := noneFlag_eq m
      simp only
      cases hm : modeFor m .none 0 with
      | none =>
        rw [hm] at hF
        exact if_pos hF
      | some md =>
        rw [hm] at hF
        have hF : noneFlag m = modeFlag md := hF
        refine ⟨0, md, rfl, hm, ?_⟩
        rw [if_neg (by rw [hF]; exact modeFlag_ne md), hF, hb md hm]
    case acc =>
      obtain ⟨p, hq⟩ : ∃ p, operandOf ls = some (p, .regA) := by
        cases hh : operandOf ls with
        | none => rw [hh] at f3; simp [argLexeme] at f3
        | some q => rw [hh] at f3; simp [argLexeme] at f3; exact ⟨q.1, by rw [← f3]⟩
      rw [hq]
      have hF := accFlag_eq m
      simp only
      cases hm : modeFor m .acc 0 with
      | none =>
        rw [hm] at hF
        exact if_pos hF
      | some md =>
        rw [hm] at hF
        have hF : knownFlag m true false (argShape .acc) = modeFlag md := hF
        refine ⟨0, md, rfl, hm, ?_⟩
        rw [if_neg (by rw [hF]; exact modeFlag_ne md), hF, hb md hm]
  | some o =>
    rw [argLexeme_some ho] at f3
    obtain ⟨p, hq⟩ : ∃ p, operandOf ls = some (p, opdLexeme o) := by
      cases hh : operandOf ls with
      | none => rw [hh] at f3; simp at f3
      | some q => rw [hh] at f3; simp at f3; exact ⟨q.1, by rw [← f3]⟩
    rw [hq]
    cases o with
    | lit v =>
      have hfw : fwdOf a.env arg = none := by unfold fwdOf; rw [ho]
      rw [hfw]
      simp only [opdLexeme, sizingValue]
      have hF := knownFlag_eq m ho v
      cases hm : modeFor m arg v with
      | none =>
        rw [hm] at hF
        exact if_pos hF
      | some md =>
        rw [hm] at hF
        have hF : knownFlag m false (decide (v > 0xFF)) (argShape arg) = modeFlag md := hF
        refine ⟨v, md, rfl, hm, ?_⟩
        obtain ⟨op, hop⟩ := (modeFor_some hm).2
        rw [if_neg (by rw [hF]; exact modeFlag_ne md), hF]
        simp only [argBytes_raw ho hm, rawBytes, hop, opByte_eq hop, Option.getD_some]
    | sym l =>
      cases hl : a.env.lookup l with
      | some t =>
        have hfw : fwdOf a.env arg = none := by unfold fwdOf; simp only [ho]; rw [if_pos (by rw [hl]; rfl)]
        rw [hfw]
        simp only [opdLexeme, sizingValue, hl, isBranch_eq]
        have hF := knownFlag_eq m ho t
        cases hm : modeFor m arg t with
        | none =>
          rw [hm] at hF
          exact if_pos hF
        | some md =>
          rw [hm] at hF
          have hF : knownFlag m false (decide (t > 0xFF)) (argShape arg) = modeFlag md := hF
          have hne : ¬ knownFlag m false (decide (t > 0xFF)) (argShape arg) = 0 := by rw [hF]; exact modeFlag_ne md
          obtain ⟨op, hop⟩ := (modeFor_some hm).2
          have hrel := modeFor_branch ho hm
          simp only
          by_cases hbr : Spec.isBranch m = true
          · have hmd := hrel.2 hbr
            cases hbb : branchByte a.pc t with
            | none =>
              rw [if_pos ⟨hbr, rfl⟩]
              have hfp : faultPos ls .tooBigOffset = some p := operand_pos hp hq
              simp only [hfp]
              rw [if_neg hne, if_pos hbr]
            | some b =>
              rw [if_neg (by simp)]
              refine ⟨t, md, rfl, hm, ?_⟩
              rw [if_neg hne, if_pos hbr, hF]
              subst hmd
              simp only [rawBytes, hop, opByte_eq hop, Option.getD_some, hl, if_true, hbb]
          · rw [if_neg (fun h => hbr h.1)]
            refine ⟨t, md, rfl, hm, ?_⟩
            have hmd : ¬ md = .rel := fun h => hbr (hrel.1 h)
            rw [if_neg hne, if_neg hbr, hF]
            simp only [rawBytes, hop, opByte_eq hop, Option.getD_some, hl, hmd, if_false, argBytes_raw ho hm]
      | none =>
        have hfw : fwdOf a.env arg = some l := by unfold fwdOf; simp only [ho]; rw [if_neg (by rw [hl]; simp)]
        rw [hfw]
        simp only [opdLexeme, sizingValue, hl, isBranch_eq, isJump_eq]
        by_cases hbj : Spec.isBranch m = true ∨ Spec.isJump m = true
        · have hbj' : (Spec.isBranch m || Spec.isJump m) = true := by simpa using hbj
          have hbg : Gaia.isBranch m = true ∨ Gaia.isJump m = true := by rw [isBranch_eq, isJump_eq]; exact hbj
          simp only [hbj', hbj, if_true]
          have hF := fwdFlag_eq ho hbg (hj (by rw [hfw]; simp))
          cases hm : modeFor m arg 0 with
          | none =>
            rw [hm] at hF
            exact if_pos hF
          | some md =>
            rw [hm] at hF
            have hF : fwdFlag m (argShape arg) = modeFlag md := hF
            rw [if_neg (by rw [hF]; exact modeFlag_ne md), hF]
            obtain ⟨op, hop⟩ := (modeFor_some hm).2
            refine ⟨0, md, rfl, hm, ?_⟩
            refine ⟨p, operand_pos hp hq, rfl, ?_, trivial⟩
            simp [rawBytes, hop, opByte_eq hop, hl, argBytes_raw ho hm]
        · have hbj' : (Spec.isBranch m || Spec.isJump m) = false := by simpa using hbj
          simp only [hbj', hbj, if_false, Bool.false_eq_true]
          have hfp : faultPos ls .illegalForwardReference = some p := operand_pos hp hq
          simp only [hfp]

end Gaia

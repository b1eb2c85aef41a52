import Verif.Proofs.Sim4

/-! The mode flags of the model against the addressing modes of the specification (finite checks over the 56
mnemonics and the shapes of the arguments). -/
namespace Gaia
open Spec

/-- The flag of a mode. -/
def modeFlag : Mode → Flags
  | .imm => ADDR_MODE_IMMEDIATE
  | .zp => ADDR_MODE_ZERO_PAGE
  | .zpX => ADDR_MODE_ZERO_PAGE_X
  | .zpY => ADDR_MODE_ZERO_PAGE_Y
  | .abs => ADDR_MODE_ABSOLUTE
  | .absX => ADDR_MODE_ABSOLUTE_X
  | .absY => ADDR_MODE_ABSOLUTE_Y
  | .indX => ADDR_MODE_X_INDEXED_INDIRECT
  | .indY => ADDR_MODE_INDIRECT_Y_INDEXED
  | .ind => ADDR_MODE_INDIRECT
  | .acc => ADDR_MODE_ACCUMULATOR
  | .rel => ADDR_MODE_RELATIVE
  | .imp => ADDR_MODE_IMPLIED

/-- The flag of an optional mode: no mode, no flag. -/
def flagOf : Option Mode → Flags
  | none => 0
  | some md => modeFlag md

theorem modeFlag_ne (md : Mode) : modeFlag md ≠ 0 := by cases md <;> decide

/-- Registers and punctuation of an argument. -/
def argShape : Arg → Shape
  | .none => ⟨false, false, false, false, false⟩
  | .acc => ⟨false, false, false, false, true⟩
  | .imm _ => ⟨false, false, false, true, false⟩
  | .plain _ => ⟨false, false, false, false, false⟩
  | .idxX _ => ⟨true, false, false, false, false⟩
  | .idxY _ => ⟨false, true, false, false, false⟩
  | .ind _ => ⟨false, false, true, false, false⟩
  | .indX _ => ⟨true, false, true, false, false⟩
  | .indY _ => ⟨false, true, true, false, false⟩

/-- One argument of each form that has an operand. -/
def argKinds (o : Opd) : List Arg := [.imm o, .plain o, .idxX o, .idxY o, .ind o, .indX o, .indY o]

theorem mem_argKinds {a : Arg} {o : Opd} (h : a.opd = some o) : a ∈ argKinds o := by
  cases a <;> simp [Arg.opd] at h <;> subst h <;> simp [argKinds]

/-- The mode depends on the operand only through "bigger than 0xFF". -/
theorem modeFor_size (m : Mnemonic) (a : Arg) (v : Nat) :
    modeFor m a v = modeFor m a (if v > 0xFF then 0x100 else 0) := by
  unfold modeFor wantedMode
  by_cases h : v > 0xFF
  · have : decide (v ≤ 0xFF) = decide ((0x100 : Nat) ≤ 0xFF) := by simp; omega
    simp only [if_pos h, this]
  · have : decide (v ≤ 0xFF) = decide ((0 : Nat) ≤ 0xFF) := by simp; omega
    simp only [if_neg h, this]

/-- ... and not on which operand it is. -/
def Arg.erase : Arg → Arg
  | .none => .none
  | .acc => .acc
  | .imm _ => .imm (.lit 0)
  | .plain _ => .plain (.lit 0)
  | .idxX _ => .idxX (.lit 0)
  | .idxY _ => .idxY (.lit 0)
  | .ind _ => .ind (.lit 0)
  | .indX _ => .indX (.lit 0)
  | .indY _ => .indY (.lit 0)

theorem modeFor_erase (m : Mnemonic) (a : Arg) (v : Nat) : modeFor m a v = modeFor m (Arg.erase a) v := by
  cases a <;> rfl

theorem argShape_erase (a : Arg) : argShape a = argShape (Arg.erase a) := by cases a <;> rfl

theorem erase_mem {a : Arg} {o : Opd} (h : a.opd = some o) : Arg.erase a ∈ argKinds (.lit 0) := by
  cases a <;> simp [Arg.opd] at h <;> simp [Arg.erase, argKinds]

theorem knownFlag_fin : ∀ m ∈ Mnemonic.all, ∀ a ∈ argKinds (.lit 0), ∀ big : Bool,
    knownFlag m false big (argShape a) = flagOf (modeFor m a (if big then 0x100 else 0)) := by decide +kernel

/-- **Mode selection, operand known.** -/
theorem knownFlag_eq (m : Mnemonic) {a : Arg} {o : Opd} (h : a.opd = some o) (v : Nat) :
    knownFlag m false (decide (v > 0xFF)) (argShape a) = flagOf (modeFor m a v) := by
  rw [modeFor_size, modeFor_erase, argShape_erase, knownFlag_fin m m.mem_all _ (erase_mem h)]
  simp only [decide_eq_true_eq]

theorem accFlag_fin : ∀ m ∈ Mnemonic.all,
    knownFlag m true false (argShape .acc) = flagOf (modeFor m .acc 0) := by decide +kernel

theorem accFlag_eq (m : Mnemonic) : knownFlag m true false (argShape .acc) = flagOf (modeFor m .acc 0) :=
  accFlag_fin m m.mem_all

theorem noneFlag_fin : ∀ m ∈ Mnemonic.all, noneFlag m = flagOf (modeFor m .none 0) := by decide +kernel

theorem noneFlag_eq (m : Mnemonic) : noneFlag m = flagOf (modeFor m .none 0) := noneFlag_fin m m.mem_all

theorem isBranch_eq (m : Mnemonic) : Gaia.isBranch m = Spec.isBranch m := by
  have : ∀ m ∈ Mnemonic.all, Gaia.isBranch m = Spec.isBranch m := by decide +kernel
  exact this m m.mem_all

theorem isJump_eq (m : Mnemonic) : Gaia.isJump m = Spec.isJump m := by
  have : ∀ m ∈ Mnemonic.all, Gaia.isJump m = Spec.isJump m := by decide +kernel
  exact this m m.mem_all

/-- The one form for which the flag of a forward reference is wrong: an indexed `JMP`. -/
def IdxJump (m : Mnemonic) (a : Arg) : Prop := m = .JMP ∧ ((∃ o, a = .idxX o) ∨ ∃ o, a = .idxY o)

def idxJump (m : Mnemonic) : Arg → Bool
  | .idxX _ | .idxY _ => m == .JMP
  | _ => false

theorem idxJump_iff (m : Mnemonic) (a : Arg) : idxJump m a = true ↔ IdxJump m a := by
  unfold IdxJump
  cases a <;> simp [idxJump]

theorem fwdFlag_fin : ∀ m ∈ Mnemonic.all, ∀ a ∈ argKinds (.lit 0), (Gaia.isBranch m || Gaia.isJump m) = true →
    idxJump m a = false → fwdFlag m (argShape a) = flagOf (modeFor m a 0) := by decide +kernel

/-- **Mode selection, forward reference.** -/
theorem fwdFlag_eq {m : Mnemonic} {a : Arg} {o : Opd} (h : a.opd = some o)
    (hm : Gaia.isBranch m = true ∨ Gaia.isJump m = true) (hj : ¬ IdxJump m a) :
    fwdFlag m (argShape a) = flagOf (modeFor m a 0) := by
  rw [modeFor_erase, argShape_erase]
  refine fwdFlag_fin m m.mem_all _ (erase_mem h) (by simpa using hm) ?_
  have : idxJump m (Arg.erase a) = idxJump m a := by cases a <;> rfl
  rw [this]
  cases h' : idxJump m a with
  | false => rfl
  | true => exact absurd ((idxJump_iff m a).1 h') hj

theorem opByte_fin : ∀ m ∈ Mnemonic.all, ∀ md ∈ Mode.all, (opcode? m md).isSome = true →
    some (opByte m (modeFlag md)) = (opcode? m md).map UInt8.ofNat := by decide +kernel

theorem Mode.mem_all (md : Mode) : md ∈ Mode.all := by cases md <;> decide

/-- **Opcode selection.** -/
theorem opByte_eq {m : Mnemonic} {md : Mode} {op : Nat} (h : opcode? m md = some op) :
    opByte m (modeFlag md) = UInt8.ofNat op := by
  have := opByte_fin m m.mem_all md (Mode.mem_all md) (by rw [h]; rfl)
  rw [h] at this
  simpa using this

theorem modeFor_some {m : Mnemonic} {a : Arg} {v : Nat} {md : Mode} (h : modeFor m a v = some md) :
    wantedMode m a v = some md ∧ ∃ op, opcode? m md = some op := by
  unfold modeFor at h
  rw [Option.filter_eq_some_iff] at h
  obtain ⟨h1, h2⟩ := h
  exact ⟨h1, Option.isSome_iff_exists.1 h2⟩

/-- The number of operand bytes written is the one of the mode. -/
theorem argBytes_mode (md : Mode) (v : Nat) (h : 2 ≤ md.bytes) :
    argBytes (modeFlag md) v = if md.bytes = 3 then [UInt8.ofNat v, UInt8.ofNat (v / 256)] else [UInt8.ofNat v] := by
  cases md <;> simp [Mode.bytes] at h <;> rfl

/-- With an operand the mode has operand bytes. -/
theorem modeFor_bytes {m : Mnemonic} {a : Arg} {o : Opd} (h : a.opd = some o) {v : Nat} {md : Mode}
    (hm : modeFor m a v = some md) : 2 ≤ md.bytes := by
  have h1 := (modeFor_some hm).1
  unfold wantedMode at h1
  cases a <;> simp [Arg.opd] at h <;> simp only at h1
  all_goals
    (try split_ifs at h1) <;> simp at h1 <;> subst h1 <;> decide

theorem modeFor_bytes_acc {m : Mnemonic} {a : Arg} (h : a.opd = none) {v : Nat} {md : Mode}
    (hm : modeFor m a v = some md) : md.bytes = 1 := by
  have h1 := (modeFor_some hm).1
  unfold wantedMode at h1
  cases a <;> simp [Arg.opd] at h <;> simp only at h1
  all_goals
    (try split_ifs at h1) <;> simp at h1 <;> subst h1 <;> decide

/-- A branch has only the relative mode. -/
theorem modeFor_branch {m : Mnemonic} {a : Arg} {o : Opd} (h : a.opd = some o) {v : Nat} {md : Mode}
    (hm : modeFor m a v = some md) : md = .rel ↔ Spec.isBranch m = true := by
  have fin : ∀ m ∈ Mnemonic.all, ∀ a ∈ argKinds (.lit 0), ∀ v ∈ [0, 0x100], ∀ md ∈ Mode.all, modeFor m a v = some md →
      (md = .rel ↔ Spec.isBranch m = true) := by decide +kernel
  rw [modeFor_size, modeFor_erase] at hm
  refine fin m m.mem_all _ (erase_mem h) _ ?_ md (Mode.mem_all md) hm
  split_ifs <;> simp

/-- The size of a jump or branch does not depend on the operand. -/
theorem modeFor_fixed {m : Mnemonic} {a : Arg} {o : Opd} (h : a.opd = some o)
    (hm : Spec.isBranch m = true ∨ Spec.isJump m = true) (v : Nat) (w : Nat) : modeFor m a v = modeFor m a w := by
  have fin : ∀ m ∈ Mnemonic.all, ∀ a ∈ argKinds (.lit 0), (Spec.isBranch m || Spec.isJump m) = true →
      modeFor m a 0x100 = modeFor m a 0 := by decide +kernel
  have key : ∀ v, modeFor m a v = modeFor m a 0 := by
    intro v
    rw [modeFor_size, modeFor_erase, modeFor_erase m a 0]
    have := fin m m.mem_all _ (erase_mem h) (by simpa using hm)
    split_ifs
    · exact this
    · rfl
  rw [key v, key w]

/-- A one-byte operand field is only chosen for a value that fits, except for branches. -/
theorem modeFor_fits {m : Mnemonic} {a : Arg} {o : Opd} (h : a.opd = some o) {v : Nat} {md : Mode}
    (hm : modeFor m a v = some md) (h2 : md.bytes = 2) (hr : md ≠ .rel) : v ≤ 0xFF := by
  have fin : ∀ m ∈ Mnemonic.all, ∀ a ∈ argKinds (.lit 0), ∀ md ∈ Mode.all, modeFor m a 0x100 = some md →
      md.bytes = 2 → md = .rel := by decide +kernel
  by_contra hv
  rw [modeFor_size, modeFor_erase, if_pos (by omega)] at hm
  exact hr (fin m m.mem_all _ (erase_mem h) md (Mode.mem_all md) hm h2)

end Gaia

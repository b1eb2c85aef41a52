import Verif.Proofs.Reference1
import Verif.Proofs.Truncate

/-! The reference assembler against the pure machine: what an instruction line selects. -/
set_option linter.unusedSimpArgs false
namespace Gaia
open Spec Spec.Reference

/-- The forward codes, against the mode flag. -/
def fwdAgrees (m : Mnemonic) (f : Flags) (r : Option (Byte × Nat)) : Bool :=
  match r with
  | none => f == 0
  | some (op, n) => f != 0 && opByte m f == op && argBytes f 0 == List.replicate (n - 1) 0 &&
      n == (if Gaia.isBranch m then 2 else 3) &&
      UInt8.ofNat (getOpcode ⟨some m, getAddrBitfield m, f, 0⟩ % 256).toNat == op

theorem forwardCode_erase (m : Mnemonic) (a : Arg) : forwardCode m a = forwardCode m (Arg.erase a) := by
  have h := modeFor_erase m a 0
  cases a <;> simp only [forwardCode, Arg.erase] at h ⊢ <;> rw [h]

theorem fwd_fin : ∀ m ∈ Mnemonic.all, ∀ a ∈ argKinds (.lit 0), (Gaia.isBranch m || Gaia.isJump m) = true →
    fwdAgrees m (fwdFlag m (argShape a)) (forwardCode m a) = true := by decide +kernel

/-- The argument gaia sees in an indexed operand with more lexemes after it. -/
def jArg (x par : Bool) (o : Opd) : Arg := if x then if par then .indX o else .idxX o else if par then .indY o else .idxY o

theorem junk_fwd_fin : ∀ m ∈ Mnemonic.all, ∀ x y par imm acc : Bool, (x || y) = true →
    (Gaia.isBranch m || Gaia.isJump m) = true →
    fwdAgrees m (fwdFlag m ⟨x, y, par, imm, acc⟩) (if imm || acc then none else forwardCode m (jArg x par (.lit 0))) = true := by
  decide +kernel

theorem junk_known_fin : ∀ m ∈ Mnemonic.all, ∀ x y par imm acc big : Bool, (x || y) = true →
    knownFlag m false big ⟨x, y, par, imm, acc⟩ =
      flagOf (if imm || acc then none else modeFor m (jArg x par (.lit 0)) (if big then 256 else 0)) := by
  decide +kernel

/-- What the machine sees of an instruction line. -/
structure Sees (ls : List (Nat × Lexeme)) (lab : Option Str) (m : Mnemonic) (arg : Arg) (odd : Bool) : Prop where
  mnem : lastMnem (ls.map (·.2)) = some m
  operand : (operandOf ls).map (·.2) = argLexeme arg
  stop : isStop ls = false
  decl : ∀ pc, (declared pc ls).map (fun q => q.2) = lab.map fun l => (l, pc)
  org : lab = none → originOf ls = none
  plain : arg.opd = none → odd = false
  acc : arg = .acc → knownFlag m true false (shape (ls.map (·.2))) = flagOf (modeFor m .acc 0)
  known : ∀ o, arg.opd = some o → ∀ v, knownFlag m false (decide (v > 0xFF)) (shape (ls.map (·.2))) =
    flagOf (if odd then none else modeFor m arg v)
  fwd : ∀ o, arg.opd = some o → (Gaia.isBranch m || Gaia.isJump m) = true →
    fwdAgrees m (fwdFlag m (shape (ls.map (·.2)))) (if odd then none else forwardCode m arg) = true

theorem sees_parse {ls : List (Nat × Lexeme)} {lab : Option Str} {m : Mnemonic} {arg : Arg}
    (h : parse (ls.map (·.2)) = some (.instr lab m arg)) : Sees ls lab m arg false := by
  obtain ⟨f1, f2, f3, f4, f5, f6⟩ := instr_facts h
  refine ⟨f2, f3, f4, f5, f6, fun _ => rfl, ?_, ?_, ?_⟩
  · rintro rfl; rw [f1]; exact accFlag_eq m
  · intro o ho v; rw [f1]; exact knownFlag_eq m ho v
  · intro o ho hm
    rw [f1, argShape_erase]
    simp only [Bool.false_eq_true, if_false]
    rw [forwardCode_erase]
    exact fwd_fin m m.mem_all _ (erase_mem ho) hm

theorem lastMnem_eq : ∀ ls : List Lexeme, lastMnem ls = ls.reverse.findSome? mnemonicOf
  | [] => rfl
  | x :: ls => by
    rw [List.reverse_cons, List.findSome?_append, ← lastMnem_eq ls]
    cases x <;> simp only [lastMnem] <;> cases lastMnem ls <;> rfl

theorem jArg_erase (x par : Bool) (o : Opd) : Arg.erase (jArg x par o) = jArg x par (.lit 0) := by
  cases x <;> cases par <;> rfl

theorem jArg_opd (x par : Bool) (o : Opd) : (jArg x par o).opd = some o := by
  cases x <;> cases par <;> rfl

theorem junk_shape {q : Opd} {r : Lexeme} {more : List Lexeme} (hr : r = .regX ∨ r = .regY) :
    ∃ y, (decide (r = .regX ∨ .regX ∈ more) || y) = true ∧
    shape (opdLexeme q :: .comma :: r :: more) = ⟨decide (r = .regX ∨ .regX ∈ more), y, decide (.lpar ∈ more),
      decide (.hash ∈ more), decide (.regA ∈ more)⟩ := by
  have e : ∀ x : Lexeme, more.contains x = decide (x ∈ more) := fun x => by simp
  refine ⟨decide (r = .regY ∨ .regY ∈ more), ?_, ?_⟩
  · rcases hr with rfl | rfl <;> simp
  · rcases hr with rfl | rfl <;> cases q <;> simp [shape, opdLexeme, List.contains_cons, e]

theorem sees_junkArg {ls : List (Nat × Lexeme)} {lab : Option Str} {m : Mnemonic} {o r : Lexeme} {more : List Lexeme}
    {st : Stmt} {odd : Bool}
    (hs : (lab = none ∧ ls.map (·.2) = .mnem m :: o :: .comma :: r :: more) ∨
      ∃ l, lab = some l ∧ ls.map (·.2) = .name l :: .mnem m :: o :: .comma :: r :: more)
    (h : junkArg lab m o r more = some (st, odd)) : ∃ m' arg, st = .instr lab m' arg ∧ Sees ls lab m' arg odd := by
  unfold junkArg at h
  cases ho : opd o with
  | none => rw [ho] at h; simp at h
  | some q =>
    rw [ho] at h
    simp only at h
    obtain rfl := opd_some ho
    by_cases hr : (r = .regX ∨ r = .regY) ∧ more ≠ []
    swap
    · rw [if_neg hr] at h; simp at h
    rw [if_pos hr] at h
    obtain ⟨hr, hne⟩ := hr
    simp only [Option.some.injEq, Prod.mk.injEq] at h
    rw [← lastMnem_eq] at h
    obtain ⟨h1, h4⟩ := h
    refine ⟨(lastMnem more).getD m, jArg (decide (r = .regX ∨ .regX ∈ more)) (decide (.lpar ∈ more)) q, ?_, ?_⟩
    · rw [← h1]
      unfold jArg
      simp only [decide_eq_true_eq]
    · obtain ⟨y, hxy, hsh⟩ := junk_shape (q := q) (more := more) hr
      have hodd : odd = (decide (Lexeme.hash ∈ more) || decide (Lexeme.regA ∈ more)) := by
        rw [← h4, Bool.decide_or]
      generalize decide (r = .regX ∨ .regX ∈ more) = x at hxy hsh ⊢
      generalize decide (Lexeme.lpar ∈ more) = par at hsh ⊢
      generalize decide (Lexeme.hash ∈ more) = imm at hsh hodd ⊢
      generalize decide (Lexeme.regA ∈ more) = acc at hsh hodd ⊢
      have hshape : shape (ls.map (·.2)) = ⟨x, y, par, imm, acc⟩ := by
        rw [← hsh]
        rcases hs with ⟨_, hs⟩ | ⟨l, _, hs⟩ <;> rw [hs] <;> rfl
      have hlm : lastMnem (ls.map (·.2)) = some ((lastMnem more).getD m) := by
        rcases hs with ⟨_, hs⟩ | ⟨l, _, hs⟩ <;> rw [hs] <;>
          rcases hr with rfl | rfl <;> cases q <;> simp [lastMnem, opdLexeme]
      have hopd : ∀ o', (jArg x par q).opd = some o' → q = o' := fun o' h => by simpa [jArg_opd] using h
      have hop : (operandOf ls).map (·.2) = (ls.tail.map (·.2)).find? operandLike := by
        unfold operandOf
        rw [List.find?_map]
        rfl
      have hal : argLexeme (jArg x par q) = some (opdLexeme q) := argLexeme_some (jArg_opd x par q)
      have hol : operandLike (opdLexeme q) = true := by cases q <;> rfl
      refine ⟨hlm, ?_, ?_, ?_, ?_, ?_, ?_, ?_, ?_⟩
      · rw [hop, hal, List.map_tail]
        rcases hs with ⟨_, hs⟩ | ⟨l, _, hs⟩ <;> rw [hs]
        · rw [List.tail_cons, List.find?_cons_of_pos hol]
        · rw [List.tail_cons, List.find?_cons_of_neg (by simp [operandLike]), List.find?_cons_of_pos hol]
      · rcases hs with ⟨_, hs⟩ | ⟨l, _, hs⟩
        · match ls, hs with
          | (p, z) :: ls, hs => simp only [List.map_cons, List.cons.injEq] at hs; rw [hs.1]; rfl
        · match ls, hs with
          | (p, z) :: ls, hs => simp only [List.map_cons, List.cons.injEq] at hs; rw [hs.1]; rfl
      · intro pc
        rcases hs with ⟨rfl, hs⟩ | ⟨l, rfl, hs⟩
        · match ls, hs with
          | (p, z) :: ls, hs => simp only [List.map_cons, List.cons.injEq] at hs; rw [hs.1]; rfl
        · match ls, hs with
          | (p, z) :: (p', z') :: ls, hs =>
            simp only [List.map_cons, List.cons.injEq] at hs; rw [hs.1, hs.2.1]
            cases ls <;> rfl
      · rintro rfl
        rcases hs with ⟨_, hs⟩ | ⟨l, h, hs⟩
        · match ls, hs with
          | (p, z) :: ls, hs => simp only [List.map_cons, List.cons.injEq] at hs; rw [hs.1]; rfl
        · cases h
      · intro h; rw [jArg_opd] at h; cases h
      · intro h; cases x <;> cases par <;> simp [jArg] at h
      · intro o' h v
        rw [hshape, junk_known_fin _ (Mnemonic.mem_all _) _ _ _ _ _ _ hxy, hodd,
          modeFor_size _ (jArg x par q) v, modeFor_erase _ (jArg x par q), jArg_erase]
        simp only [decide_eq_true_eq]
      · intro o' h hm
        rw [hshape, hodd, forwardCode_erase, jArg_erase]
        exact junk_fwd_fin _ (Mnemonic.mem_all _) _ _ _ _ _ hxy hm

theorem sees_statement {ls : List (Nat × Lexeme)} {st : Stmt} {odd : Bool} (h : statement (ls.map (·.2)) = .ok (st, odd)) :
    (odd = false ∧ parse (ls.map (·.2)) = some st) ∨ ∃ lab m arg, st = .instr lab m arg ∧ Sees ls lab m arg odd := by
  unfold statement at h
  cases hp : parse (ls.map (·.2)) with
  | some st' =>
    rw [hp] at h
    simp only [Except.ok.injEq, Prod.mk.injEq] at h
    exact .inl ⟨h.2.symm, by rw [h.1]⟩
  | none =>
    rw [hp] at h
    simp only at h
    cases hj : junk (ls.map (·.2)) with
    | none => rw [hj] at h; simp at h
    | some x =>
      rw [hj] at h
      simp only [Except.ok.injEq] at h
      subst h
      right
      unfold junk at hj
      split at hj
      · rename_i hs
        obtain ⟨m', arg, h1, h2⟩ := sees_junkArg (.inl ⟨rfl, hs⟩) hj
        exact ⟨_, m', arg, h1, h2⟩
      · rename_i hs
        obtain ⟨m', arg, h1, h2⟩ := sees_junkArg (.inr ⟨_, rfl, hs⟩) hj
        exact ⟨_, m', arg, h1, h2⟩
      · simp at hj
end Gaia

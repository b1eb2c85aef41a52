import Verif.Props.C31_Exit

/-! C46: what a run depends on. -/
namespace Gaia
open Spec

/-- **C46.** Two file systems with the same source file, in which the output file can be created or not alike: gaia does the same in
both. It either leaves both untouched, with the same status and text, or writes the same output file. Whatever else is in the file
systems - an older output file, or other files - plays no role. -/
theorem C46_locality {w w' : World} {srcName outName : Str} (hf : w.files srcName = w'.files srcName)
    (hc : w.creatable outName = w'.creatable outName) (hsm : SmallSource w srcName) :
    (∃ status text, gaia srcName outName w = .exited ⟨status, text, w⟩ ∧ gaia srcName outName w' = .exited ⟨status, text, w'⟩) ∨
    SameRun srcName outName w w' := by
  cases hs : w.files srcName with
  | none => exact .inl ⟨_, _, C36_no_source w srcName outName hs, C36_no_source w' srcName outName (hf ▸ hs)⟩
  | some src =>
    cases hcr : w.creatable outName with
    | false =>
      exact .inl ⟨_, _, C36_no_output w srcName outName (by simp [hs]) hcr,
        C36_no_output w' srcName outName (by simp [← hf, hs]) (hc ▸ hcr)⟩
    | true =>
      right
      have hub : ∀ u, gaia srcName outName w ≠ .undefined u := fun u => C35_no_undefined_behaviour w srcName outName hsm u
      unfold SameRun
      unfold gaia at hub ⊢
      rw [hs] at hub ⊢
      rw [← hf, ← hc, hs]
      simp only [hcr, Bool.true_eq_false, if_false] at hub ⊢
      generalize assembleBytes srcName (if srcName = outName then [] else src) = r at hub ⊢
      cases r with
      | ok st => exact ⟨0, _, _, rfl, rfl, .inl rfl⟩
      | err a => exact ⟨1, _, _, rfl, rfl, .inr rfl⟩
      | ub u => exact absurd rfl (hub u)

/-- **C46, the name of the output file** plays no role either, as long as it is not the source. -/
theorem C46_output_name {w : World} {srcName outName outName' : Str} {src : List Byte} (hw : Setup w srcName outName src)
    (hw' : Setup w srcName outName' src) (hsz : Sized src) : ∃ status text binary,
    gaia srcName outName w = .exited ⟨status, text, { w with files := fun n => if n = outName then some binary else w.files n }⟩ ∧
    gaia srcName outName' w = .exited ⟨status, text, { w with files := fun n => if n = outName' then some binary else w.files n }⟩ := by
  have hub : ∀ u, gaia srcName outName w ≠ .undefined u := fun u => C35_no_undefined_behaviour w srcName outName
    (fun s hs => by rw [hw.source] at hs; cases hs; exact hsz) u
  rw [gaia_eq hw] at hub ⊢
  rw [gaia_eq hw']
  generalize assembleBytes srcName src = r at hub ⊢
  cases r with
  | ok st => exact ⟨0, _, _, rfl, rfl⟩
  | err a => exact ⟨1, _, _, rfl, rfl⟩
  | ub u => exact absurd rfl (hub u)

/-- **C46, the name of the source file** only appears in messages: the same source under another name gives the same exit status
and output file, and on success the same report. -/
theorem C46_source_name {w w' : World} {srcName srcName' outName outName' : Str} {src : List Byte} (hw : Setup w srcName outName src)
    (hw' : Setup w' srcName' outName' src) (hsz : Sized src) : ∃ status text text' binary,
    gaia srcName outName w = .exited ⟨status, text, { w with files := fun n => if n = outName then some binary else w.files n }⟩ ∧
    gaia srcName' outName' w' =
      .exited ⟨status, text', { w' with files := fun n => if n = outName' then some binary else w'.files n }⟩ ∧
    (status = 0 ∨ status = 1) ∧ (status = 0 → text = text') := by
  have hA := assembleA_congr (src := src) (src' := src) (runLines_congr (fn := srcName) (fn' := srcName') (cs := chunks src)
    (List.forall₂_same.2 fun _ _ => rfl) (a := A.init) rfl)
  have s1 := assemble_sim srcName src hsz
  have s2 := assemble_sim srcName' src hsz
  rw [gaia_eq hw, gaia_eq hw']
  cases e1 : assembleA srcName src with
  | error f =>
    rw [e1] at s1 hA
    cases e2 : assembleA srcName' src with
    | ok a => rw [e2] at hA; cases hA
    | error g =>
      rw [e2] at s2 hA
      have : f.out = g.out := by
        simp only [skelR, Except.error.injEq, Prod.mk.injEq] at hA
        exact hA.2
      simp only at s1 s2
      rw [s1, s2]
      exact ⟨1, f.fail.out, g.fail.out, f.out.bytes, rfl, by rw [this]; rfl, .inr rfl, by simp⟩
  | ok a =>
    rw [e1] at s1 hA
    cases e2 : assembleA srcName' src with
    | error g => rw [e2] at hA; cases hA
    | ok b =>
      rw [e2] at s2 hA
      obtain ⟨_, h2, h3, h4, _⟩ := skel_eq (show skel a = skel b by simpa [skelR] using hA)
      obtain ⟨st, r1, r2, r3, r4, _⟩ := s1
      obtain ⟨st', q1, q2, q3, q4, _⟩ := s2
      rw [r1, q1]
      refine ⟨0, report st.total st.symtab.count, report st'.total st'.symtab.count, st.out.bytes, rfl, ?_, .inl rfl, fun _ => ?_⟩
      · rw [r4, h4, ← q4]; rfl
      · rw [r2, q2, r3, q3, h2, h3]

/-! Concrete cases: an old, longer output file leaves no trace; a failing source under two names. -/

/-- `demo` with an old output file. -/
def demoOld (src : List Byte) : World := (demo src).write (b! "p.bin") (List.replicate 100 7)

example : SameRun (b! "p.asm") (b! "p.bin") (demo (b! "NOP\n")) (demoOld (b! "NOP\n")) := by
  rcases C46_locality (w := demo (b! "NOP\n")) (w' := demoOld (b! "NOP\n")) (srcName := b! "p.asm") (outName := b! "p.bin")
    (by decide) (by decide) (fun s hs => by rw [(demo_setup _).source] at hs; cases hs; decide) with ⟨st, t, h1, _⟩ | h
  · have : demoRun (b! "NOP\n") = some (0, b! "Assembly successful.\n1 (0x0001) bytes assembled.\n0 symbols.\n", some [0xEA]) := by
      decide +kernel
    unfold demoRun at this
    rw [h1] at this
    have h2 : (demo (b! "NOP\n")).files (b! "p.bin") = none := by decide
    simp only [h2, Option.some.injEq, Prod.mk.injEq] at this
    exact absurd this.2.2 (by simp)
  · exact h

/-- The world with the source under another name. -/
def demoQ (src : List Byte) : World := ⟨fun n => if n = b! "q" then some src else none, fun _ => true⟩

example : ∃ status text text' binary,
    gaia (b! "p.asm") (b! "p.bin") (demo (b! "NOP\n LDA\n")) = .exited ⟨status, text, { demo (b! "NOP\n LDA\n") with
      files := fun n => if n = b! "p.bin" then some binary else (demo (b! "NOP\n LDA\n")).files n }⟩ ∧
    gaia (b! "q") (b! "a.out") (demoQ (b! "NOP\n LDA\n")) = .exited ⟨status, text', { demoQ (b! "NOP\n LDA\n") with
      files := fun n => if n = b! "a.out" then some binary else (demoQ (b! "NOP\n LDA\n")).files n }⟩ ∧
    (status = 0 ∨ status = 1) ∧ (status = 0 → text = text') :=
  C46_source_name (demo_setup _) ⟨by decide, by decide, by decide⟩ (by decide)

end Gaia

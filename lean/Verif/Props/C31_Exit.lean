import Verif.Proofs.AnyRun

/-!
C31: the exit status. C32: every failure is reported. C35: no undefined behaviour. C36, C37: which files are touched.
All for arbitrary sources (of fewer than 21474836 lines), not only for programs of the documented language.
-/
set_option maxRecDepth 10000
namespace Gaia
open Spec

/-- The source, if there is one, has fewer than 21474836 lines. -/
def SmallSource (w : World) (srcName : Str) : Prop := ∀ src, w.files srcName = some src → Sized src

/-- gaia's text ends with an empty line, or is empty. -/
def EndsBlank (s : Str) : Prop := s = [] ∨ ∃ q, s = q ++ [10, 10]

theorem diag_endsBlank (l : Str) (e : Err) (pos : Option Nat) (fn : Str) (n : Nat) : EndsBlank (diag l e pos fn n) := by
  right
  unfold diag
  cases pos with
  | none => exact ⟨fn ++ b! ":" ++ decimal n ++ b! ": " ++ message e ++ trimEnd l, by simp⟩
  | some p => exact ⟨fn ++ b! ":" ++ decimal n ++ b! ": " ++ message e ++ trimEnd l ++ b! "\n" ++
      (List.replicate (column (l.take p)) 32 ++ b! "^~~~~~"), by simp⟩

theorem report_not_blank (t n : Nat) : ¬ EndsBlank (report t n) := by
  have h : report t n = (b! "Assembly successful.\n" ++ decimal t ++ b! " (0x" ++ hex04 t ++ b! ") bytes assembled.\n" ++
    decimal n ++ b! " symbols") ++ [46, 10] := by
    unfold report
    simp only [List.append_assoc]
    rfl
  rintro (h0 | ⟨q, hq⟩)
  · rw [h] at h0; simp at h0
  · rw [h] at hq
    have := List.append_inj' hq rfl
    simp at this

/-- What the program does at all: it exits with status 0 and a report, having written the output file; or with status 1 and
a text that ends with an empty line (or is empty), having written at most the output file. -/
theorem run_outcome (w : World) (srcName outName : Str) (h : SmallSource w srcName) :
    (∃ bin t n, gaia srcName outName w = .exited ⟨0, report t n, w.write outName bin⟩) ∨
    ∃ text w', gaia srcName outName w = .exited ⟨1, text, w'⟩ ∧ EndsBlank text ∧ (w' = w ∨ ∃ bin, w' = w.write outName bin) := by
  unfold gaia
  cases hf : w.files srcName with
  | none =>
    simp only [printError, errorMessage]
    refine .inr ⟨_, _, rfl, .inr ⟨b! "ERROR: " ++ srcName ++ b! " could not be opened", ?_⟩, .inl rfl⟩
    simp
  | some src =>
    simp only
    split_ifs with hc hn
    · simp only [printError, errorMessage]
      refine .inr ⟨_, _, rfl, .inr ⟨b! "ERROR: assembled binary file could not be created", rfl⟩, .inl rfl⟩
    · rcases assembleBytes_cases srcName [] (by decide) with ⟨st, h⟩ | ⟨ab, h, ⟨k, raw, pos, h1, h2, h3, h4, h5⟩ | ⟨raw, h1, h2, h3⟩⟩
      · rw [h]; exact .inl ⟨_, _, _, rfl⟩
      · rw [h]; exact .inr ⟨_, _, rfl, by rw [h3]; exact diag_endsBlank _ _ _ _ _, .inr ⟨_, rfl⟩⟩
      · rw [h]; exact .inr ⟨_, _, rfl, by rw [h3]; exact .inl rfl, .inr ⟨_, rfl⟩⟩
    · rcases assembleBytes_cases srcName src (h src hf) with ⟨st, h⟩ | ⟨ab, h, ⟨k, raw, pos, h1, h2, h3, h4, h5⟩ | ⟨raw, h1, h2, h3⟩⟩
      · rw [h]; exact .inl ⟨_, _, _, rfl⟩
      · rw [h]; exact .inr ⟨_, _, rfl, by rw [h3]; exact diag_endsBlank _ _ _ _ _, .inr ⟨_, rfl⟩⟩
      · rw [h]; exact .inr ⟨_, _, rfl, by rw [h3]; exact .inl rfl, .inr ⟨_, rfl⟩⟩

/-- **C31.** Whatever the files and names, gaia exits with status 0 or 1; it exits with 0 exactly if what it printed is the
success report. -/
theorem C31_status (w : World) (srcName outName : Str) (h : SmallSource w srcName) :
    ∃ status text w', gaia srcName outName w = .exited ⟨status, text, w'⟩ ∧ (status = 0 ∨ status = 1) ∧
      (status = 0 ↔ ∃ total symbols, text = b! "Assembly successful.\n" ++ decimal total ++ b! " (0x" ++ hex04 total ++
        b! ") bytes assembled.\n" ++ decimal symbols ++ b! " symbols.\n") := by
  rcases run_outcome w srcName outName h with ⟨bin, t, n, h⟩ | ⟨text, w', h, h1, _⟩
  · exact ⟨0, _, _, h, .inl rfl, fun _ => ⟨t, n, rfl⟩, fun _ => rfl⟩
  · refine ⟨1, text, w', h, .inr rfl, fun h => by simp at h, ?_⟩
    rintro ⟨t, n, rfl⟩
    exact absurd h1 (report_not_blank t n)

/-! When is the status 0? -/

/-- `AllAccepted fn raws st`: gaia accepts all the buffers `raws`, or those up to `.END`, and then is in state `st`. -/
inductive AllAccepted (fn : Str) : List (List Byte) → St → Prop
  | all {raws : List (List Byte)} {st : St} (h : Reached fn raws st) : AllAccepted fn raws st
  | stopped {raws : List (List Byte)} {st st' : St} (h : Reached fn raws st) (raw : List Byte) (rest : List (List Byte))
      (hl : lineStep raw st = .ok (.stop st')) : AllAccepted fn (raws ++ raw :: rest) st'

/-- The references to labels that were not known when they were used. -/
def pending (st : St) : List ForwardRef := (st.unres.refs.take st.unres.curr).filterMap id

/-- The reference can be resolved: its label has a value, within reach for a branch. -/
def Resolvable (st : St) (r : ForwardRef) : Prop :=
  ∃ t, symbol st r.label = some t ∧ (r.status = .branchForwardReference → (branchByte r.pc t).isSome = true)

theorem accepted_iff {fn : Str} {raws : List (List Byte)} (hf : raws.length < maxSymbols) (st : St) :
    mainLoop raws (initSt fn) = .ok st ↔ AllAccepted fn raws st := by
  have key : ∀ (rest pre : List (List Byte)) (st0 : St), Reached fn pre st0 → (pre ++ rest).length < maxSymbols →
      mainLoop rest st0 = .ok st → AllAccepted fn (pre ++ rest) st := by
    intro rest
    induction rest with
    | nil =>
      intro pre st0 h0 _ h
      obtain rfl : st0 = st := by simpa [mainLoop] using h
      rw [List.append_nil]
      exact .all h0
    | cons raw rest ih =>
      intro pre st0 h0 hl h
      unfold mainLoop at h
      cases hs : lineStep raw st0 with
      | err e => rw [hs] at h; cases h
      | ub u => rw [hs] at h; cases h
      | ok n =>
        rw [hs] at h
        simp only [C.ok_bind] at h
        cases n with
        | «continue» st1 =>
          have := ih (pre ++ [raw]) st1 (.next raw h0 (by simp at hl; omega) hs) (by simpa using hl) h
          simpa using this
        | stop st1 =>
          obtain rfl : st1 = st := by
            have h : (C.ok st1 : Run St) = .ok st := h
            simpa using h
          exact .stopped h0 raw rest hs
  constructor
  · intro h
    exact key raws [] (initSt fn) .start (by simpa using hf) h
  · intro h
    cases h with
    | all h => have := h.loop []; simpa [mainLoop] using this
    | stopped h raw rest hl =>
      rw [h.loop, mainLoop, hl]
      rfl

theorem patch_ok_iff (fn : Str) (env : Env) : ∀ (rs : List ForwardRef) (out : OutFile),
    (∃ out', patch fn env rs out = .ok out') ↔
    ∀ r ∈ rs, ∃ t, env.lookup r.label = some t ∧ (r.status = .branchForwardReference → (branchByte r.pc t).isSome = true)
  | [], out => by simp [patch]
  | r :: rs, out => by
    unfold patch
    cases hl : env.lookup r.label with
    | none =>
      simp only [reduceCtorEq, exists_false, false_iff]
      intro h
      obtain ⟨t, ht, _⟩ := h r (by simp)
      rw [hl] at ht; cases ht
    | some t =>
      simp only
      have step : ∀ out' : OutFile, (r.status = .branchForwardReference → (branchByte r.pc t).isSome = true) →
          ((∃ o, patch fn env rs out' = .ok o) ↔ ∀ x ∈ r :: rs, ∃ t, env.lookup x.label = some t ∧
            (x.status = .branchForwardReference → (branchByte x.pc t).isSome = true)) := by
        intro out' h
        rw [patch_ok_iff fn env rs out']
        constructor
        · intro h' x hx
          rcases List.mem_cons.1 hx with rfl | hx
          · exact ⟨t, hl, h⟩
          · exact h' x hx
        · intro h' x hx
          exact h' x (by simp [hx])
      split_ifs with hb
      · cases hbb : branchByte r.pc t with
        | none =>
          simp only [reduceCtorEq, exists_false, false_iff]
          intro h
          obtain ⟨t', ht, h2⟩ := h r (by simp)
          rw [hl] at ht
          obtain rfl : t = t' := by simpa using ht
          have := h2 hb
          rw [hbb] at this; cases this
        | some b => exact step _ fun _ => by rw [hbb]; rfl
      · exact step _ fun h => absurd h hb

theorem Rel.pending {fn : Str} {st : St} {a : A} (h : Rel fn st a) : pending st = a.refs := by
  unfold Gaia.pending
  rw [h.refs.curr, h.refs.refs, List.take_append_of_le_length (by simp), List.take_of_length_le (by simp)]
  simp [List.filterMap_map]

/-- **C31.** gaia exits with status 0 if and only if it accepts every line of the source, up to the end or to `.END`, and every
reference to a label that was not known when it was used can be resolved in the end. -/
theorem C31_success_iff {w : World} {srcName outName : Str} {src : List Byte} (hw : Setup w srcName outName src)
    (hsz : Sized src) :
    (∃ binary total symbols, Succeeds w srcName outName binary total symbols) ↔
    ∃ st, AllAccepted srcName (chunks src) st ∧ ∀ r ∈ pending st, Resolvable st r := by
  have hc := hsz.chunks
  have hm := mainLoop_sim (fn := srcName) (chunks src) (initSt srcName) A.init 0 (Rel_init srcName) Bound_init (by omega)
    (by simp [A.init])
  have hsim := assemble_sim srcName src hsz
  unfold assembleA at hsim
  cases hrun : runLines srcName (chunks src) A.init with
  | error ab =>
    rw [hrun] at hm hsim
    simp only at hm hsim
    constructor
    · rintro ⟨bin, t, n, h⟩
      exact absurd (fails_of hw hsim) h.not_fails
    · rintro ⟨st, h, _⟩
      rw [← accepted_iff (raws := chunks src) (by omega), hm] at h
      cases h
  | ok a =>
    rw [hrun] at hm hsim
    simp only at hm hsim
    obtain ⟨st, e1, e2, _, _⟩ := hm
    have hres : (∀ r ∈ pending st, Resolvable st r) ↔ ∃ out', patch srcName a.env a.refs a.out = .ok out' := by
      rw [patch_ok_iff, e2.pending]
      unfold Resolvable
      simp only [e2.symbol]
    have hacc := (accepted_iff (fn := srcName) (raws := chunks src) (by omega) st).1 e1
    constructor
    · rintro ⟨bin, t, n, h⟩
      refine ⟨st, hacc, hres.2 ?_⟩
      cases hp : patch srcName a.env a.refs a.out with
      | ok o => exact ⟨o, rfl⟩
      | error ab =>
        rw [hp] at hsim
        exact absurd (fails_of hw hsim) h.not_fails
    · rintro ⟨st', h1, h2⟩
      rw [← accepted_iff (raws := chunks src) (by omega), e1] at h1
      obtain rfl : st = st' := by simpa using h1
      obtain ⟨o, ho⟩ := hres.1 h2
      rw [ho] at hsim
      obtain ⟨st2, g, _⟩ := hsim
      exact ⟨_, _, _, succeeds_of hw g⟩

/-- **C32.** A run that fails prints one diagnostic, for one line of the source (`raw`, line number `k`), or it prints nothing,
and then a line has more than eight lexemes. Missing from the full property (hence `_partial`): the second case should not
exist, but it does, see `C32_silent`. -/
theorem C32_diagnostic_partial {w : World} {srcName outName : Str} {src : List Byte} (hw : Setup w srcName outName src)
    (hsz : Sized src) {text : Str} (h : FailsPrinting w srcName outName text) :
    (∃ k raw e pos, 1 ≤ k ∧ (chunks src)[k - 1]? = some raw ∧ message e ≠ [] ∧ text = diag (cstr raw) e pos srcName k) ∨
    (text = [] ∧ ∃ raw ∈ chunks src, HugeFree raw → TooMany raw) := by
  obtain ⟨b, h⟩ := h
  rcases run_cases hw hsz with ⟨bin, t, n, h'⟩ | ⟨k, raw, e, pos, h1, h2, h3, _, b', h'⟩ | ⟨raw, h1, h2, b', h'⟩
  · exact absurd ⟨b, h⟩ h'.not_fails
  · rw [h] at h'
    simp only [Outcome.exited.injEq, Exit.mk.injEq, true_and] at h'
    exact .inl ⟨k, raw, e, pos, h1, h2, h3, h'.1⟩
  · rw [h] at h'
    simp only [Outcome.exited.injEq, Exit.mk.injEq, true_and] at h'
    exact .inr ⟨h'.1, raw, h1, fun hh => tooMany_sound hh h2⟩

/-- **C32**, in the terms of source lines: if no line is longer than 126 characters or has more than eight lexemes (or a
literal of more than 64 bits), every failing run prints exactly one diagnostic, for a line of the source. -/
theorem C32_one_diagnostic_partial {w : World} {srcName outName : Str} {src : List Byte} (hw : Setup w srcName outName src)
    (hsz : Sized src) (hshort : ∀ l ∈ lines src, l.length ≤ 126) (hmany : ∀ l ∈ lines src, HugeFree l ∧ ¬ TooMany l) :
    (∃ binary total symbols, Succeeds w srcName outName binary total symbols) ∨ ∃ k e pos, FailsAt w srcName outName src k e pos := by
  have hb := chunks_lines src hshort
  rcases run_cases hw hsz with h | ⟨k, raw, e, pos, h1, h2, h3, h4, h5⟩ | ⟨raw, h1, h2, h3⟩
  · exact .inl h
  · obtain ⟨l, k1, k2⟩ := forall₂_get hb h2
    refine .inr ⟨k, e, pos, l, h1, k1, ?_⟩
    rwa [diag_buffers k2 e pos srcName k fun p hp => ((h4 p hp).of_buffers k2).le] at h5
  · exfalso
    obtain ⟨i, hi⟩ := List.mem_iff_getElem?.1 h1
    obtain ⟨l, k1, k2⟩ := forall₂_get hb hi
    rw [lexemes_buffers k2] at h2
    obtain ⟨m1, m2⟩ := hmany l (List.mem_of_getElem? k1)
    exact m2 (tooMany_sound m1 h2)

/-- **The full C32 is false**: this line is refused without any message. -/
theorem C32_silent : ∃ src, Setup (demo src) (b! "p.asm") (b! "p.bin") src ∧ FailsPrinting (demo src) (b! "p.asm") (b! "p.bin") [] := by
  refine ⟨b! "LDA ( ( ( ( ( ( ( (\n", demo_setup _, ?_⟩
  have h : lexemes (b! "LDA ( ( ( ( ( ( ( (\n") = .error .tooMany := by decide +kernel
  have h2 : assembleBytes (b! "p.asm") (b! "LDA ( ( ( ( ( ( ( (\n") = .err ⟨⟨.tooManyTokens, []⟩, OutFile.empty⟩ := by decide +kernel
  exact fails_of (demo_setup _) h2

/-- **C35.** Assembling any source of fewer than 21474836 lines, with any names and files, never has undefined behaviour: no access outside an
array, no use of a null pointer, no signed overflow in the modelled code. (Termination: the model is a total function.) -/
theorem C35_no_undefined_behaviour (w : World) (srcName outName : Str) (h : SmallSource w srcName) (u : UB) :
    gaia srcName outName w ≠ .undefined u := by
  rcases run_outcome w srcName outName h with ⟨bin, t, n, h⟩ | ⟨text, w', h, _⟩ <;> rw [h] <;> simp

/-- **C36.** If the source cannot be opened, gaia says so, exits with status 1, and no file is changed. -/
theorem C36_no_source (w : World) (srcName outName : Str) (h : w.files srcName = none) :
    gaia srcName outName w = .exited ⟨1, b! "ERROR: " ++ srcName ++ b! " could not be opened\n\n", w⟩ := by
  unfold gaia
  rw [h]
  simp [printError, errorMessage]

/-- **C36.** If the source can be opened but the output file cannot be created, gaia says so, exits with status 1, and no file is
changed. -/
theorem C36_no_output (w : World) (srcName outName : Str) (h : w.files srcName ≠ none) (hc : w.creatable outName = false) :
    gaia srcName outName w = .exited ⟨1, b! "ERROR: assembled binary file could not be created\n\n", w⟩ := by
  unfold gaia
  cases hf : w.files srcName with
  | none => exact absurd hf h
  | some src =>
    simp only [hc, if_true]
    rfl

/-- No run changes any file but the output file. -/
theorem C36_only_output (w : World) (srcName outName : Str) (h : SmallSource w srcName) :
    ∃ status text w', gaia srcName outName w = .exited ⟨status, text, w'⟩ ∧ ∀ n, n ≠ outName → w'.files n = w.files n := by
  rcases run_outcome w srcName outName h with ⟨bin, t, n, h⟩ | ⟨text, w', h, _, rfl | ⟨bin, rfl⟩⟩
  · exact ⟨_, _, _, h, fun x hx => by simp [World.write, hx]⟩
  · exact ⟨_, _, _, h, fun x hx => rfl⟩
  · exact ⟨_, _, _, h, fun x hx => by simp [World.write, hx]⟩

/-- **C37.** gaia does not change its source file, unless it is also the output file. Missing from the full property (hence
`_partial`): the case of equal names, where it is false, see `C37_overwritten`. -/
theorem C37_source_kept_partial (w : World) (srcName outName : Str) (h : SmallSource w srcName) (hne : srcName ≠ outName) :
    ∃ status text w', gaia srcName outName w = .exited ⟨status, text, w'⟩ ∧ w'.files srcName = w.files srcName := by
  obtain ⟨s, t, w', h1, h2⟩ := C36_only_output w srcName outName h
  exact ⟨s, t, w', h1, h2 srcName hne⟩

/-- **The full C37 is false**: with the same name for both, the source is emptied and gaia reports success. -/
theorem C37_overwritten (w : World) (name : Str) (src : List Byte) (h : w.files name = some src) (hc : w.creatable name = true) :
    ∃ text w', gaia name name w = .exited ⟨0, text, w'⟩ ∧ w'.files name = some [] := by
  have h2 : assembleBytes name [] = .ok { initSt name with out := OutFile.empty } := rfl
  unfold gaia
  rw [h]
  simp only [hc, Bool.true_eq_false, if_false, if_true, h2]
  exact ⟨_, _, rfl, by simp [World.write, OutFile.empty]⟩

/-! Non-vacuity. -/

theorem demo_small {src : List Byte} (h : Sized src) : SmallSource (demo src) (b! "p.asm") := by
  intro s hs
  have := (demo_setup src).source
  rw [hs] at this
  obtain rfl := Option.some.inj this
  exact h

example : ∃ status text w', gaia (b! "p.asm") (b! "p.bin") (demo (b! "NOP\n")) = .exited ⟨status, text, w'⟩ ∧ (status = 0 ∨ status = 1) ∧
    (status = 0 ↔ ∃ total symbols, text = b! "Assembly successful.\n" ++ decimal total ++ b! " (0x" ++ hex04 total ++
        b! ") bytes assembled.\n" ++ decimal symbols ++ b! " symbols.\n") :=
  C31_status _ _ _ (demo_small (by decide))

/-- A run with two forward references that can be resolved, and one whose branch is too far away. -/
example : (demoRun (b! "BNE L\nJMP L\nL RTS\n")).map (·.1) = some 0 ∧
    demoRun (b! "BNE L\n*=$100\nL RTS\n") = some (1, b! "p.asm:1: ERROR: branch offset too far away\nBNE L\n    ^~~~~~\n\n",
      some ([0xD0, 0] ++ List.replicate 254 0 ++ [0x60])) := by
  constructor <;> decide +kernel

example : (∃ bin t n, Succeeds (demo (b! "BNE L\nL RTS\n")) (b! "p.asm") (b! "p.bin") bin t n) ∧
    ∃ st, AllAccepted (b! "p.asm") (chunks (b! "BNE L\nL RTS\n")) st ∧ (pending st).length = 1 := by
  refine ⟨⟨[0xD0, 0, 0x60], 3, 1, demo_succeeds (by decide +kernel)⟩, ?_⟩
  obtain ⟨st, h1, h2⟩ := reach_eval (fn := b! "p.asm") (raws := chunks (b! "BNE L\nL RTS\n")) (fun st => (pending st).length = 1)
    (by decide +kernel) (by decide +kernel)
  exact ⟨st, .all h1, h2⟩

example : gaia (b! "q.asm") (b! "p.bin") (demo []) = .exited ⟨1, b! "ERROR: q.asm could not be opened\n\n", demo []⟩ :=
  C36_no_source _ _ _ (by decide)

example : gaia (b! "p.asm") (b! "q/r") (demo []) = .exited ⟨1, b! "ERROR: assembled binary file could not be created\n\n", demo []⟩ :=
  C36_no_output _ _ _ (by decide) (by decide)

end Gaia

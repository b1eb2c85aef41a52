import Verif.Proofs.Process
import Verif.Props.Example

/-! C76: gaia processes that run at the same time. -/
set_option maxRecDepth 10000
namespace Gaia
open Spec Proc

/-- **C76.** Any number of gaia processes run at the same time, and none writes what another one reads or writes. However their steps are interleaved, in
whatever blocks the sources are read and the outputs written, and whichever processes are killed: a process that has exited has the exit status of gaia
run alone on the file system as it was at the beginning, has printed the same text, and its output is the same. -/
theorem C76_result {ι : Type} [DecidableEq ι] {jobs : ι → Job} (hsep : Separate jobs) (w : World) (schedule : List (ι × Act)) (i : ι)
    {status : Nat} {text : Str} (h : ((Sys.init w).run jobs schedule).phase i = .done status text) :
    ∃ w', gaia (jobs i).src (jobs i).out w = .exited ⟨status, text, w'⟩ ∧
      ((Sys.init w).run jobs schedule).world.files (jobs i).out = w'.files (jobs i).out := by
  have := (AllGood.run hsep schedule (.init w jobs)).good i
  rw [h] at this
  exact this

/-- **C76.** A process does something undefined in C only if gaia does so alone. -/
theorem C76_undefined {ι : Type} [DecidableEq ι] {jobs : ι → Job} (hsep : Separate jobs) (w : World) (schedule : List (ι × Act)) (i : ι)
    {u : UB} (h : ((Sys.init w).run jobs schedule).phase i = .undefined u) : gaia (jobs i).src (jobs i).out w = .undefined u := by
  have := (AllGood.run hsep schedule (.init w jobs)).good i
  rw [h] at this
  exact this

/-- **C76.** At every moment, a file that is no process's output is what it was. -/
theorem C76_files {ι : Type} [DecidableEq ι] {jobs : ι → Job} (hsep : Separate jobs) (w : World) (schedule : List (ι × Act))
    {name : Str} (hn : ∀ i, name ≠ (jobs i).out) : ((Sys.init w).run jobs schedule).world.files name = w.files name :=
  (AllGood.run hsep schedule (.init w jobs)).others name hn

/-- **C76.** The order does not matter: when all processes have exited, their exit statuses, what they have printed and the whole file system are the same
whatever the schedule was. -/
theorem C76_order {ι : Type} [DecidableEq ι] {jobs : ι → Job} (hsep : Separate jobs) (w : World) (schedule schedule' : List (ι × Act))
    (h : ∀ i, ∃ status text, ((Sys.init w).run jobs schedule).phase i = .done status text)
    (h' : ∀ i, ∃ status text, ((Sys.init w).run jobs schedule').phase i = .done status text) :
    (Sys.init w).run jobs schedule = (Sys.init w).run jobs schedule' := by
  have g := AllGood.run hsep schedule (.init w jobs)
  have g' := AllGood.run hsep schedule' (.init w jobs)
  have key : ∀ i, ((Sys.init w).run jobs schedule).phase i = ((Sys.init w).run jobs schedule').phase i ∧
      ((Sys.init w).run jobs schedule).world.files (jobs i).out = ((Sys.init w).run jobs schedule').world.files (jobs i).out := by
    intro i
    obtain ⟨s, t, e⟩ := h i
    obtain ⟨s', t', e'⟩ := h' i
    obtain ⟨w1, h1, h2⟩ := C76_result hsep w schedule i e
    obtain ⟨w2, h3, h4⟩ := C76_result hsep w schedule' i e'
    rw [h1] at h3
    injection h3 with h3
    injection h3 with h3 h5 h6
    subst h3 h5 h6
    exact ⟨e.trans e'.symm, h2.trans h4.symm⟩
  have hw : ((Sys.init w).run jobs schedule).world = ((Sys.init w).run jobs schedule').world := by
    have hf : ((Sys.init w).run jobs schedule).world.files = ((Sys.init w).run jobs schedule').world.files := by
      funext n
      by_cases hn : ∃ i, n = (jobs i).out
      · obtain ⟨i, rfl⟩ := hn; exact (key i).2
      · have hn : ∀ i, n ≠ (jobs i).out := fun i e => hn ⟨i, e⟩
        rw [g.others n hn, g'.others n hn]
    have hc : ((Sys.init w).run jobs schedule).world.creatable = ((Sys.init w).run jobs schedule').world.creatable := by
      rw [g.creatable, g'.creatable]
    revert hf hc
    cases ((Sys.init w).run jobs schedule).world
    cases ((Sys.init w).run jobs schedule').world
    rintro rfl rfl; rfl
  have hp : ((Sys.init w).run jobs schedule).phase = ((Sys.init w).run jobs schedule').phase := funext fun i => (key i).1
  revert hw hp
  cases (Sys.init w).run jobs schedule
  cases (Sys.init w).run jobs schedule'
  rintro rfl rfl; rfl

/-- **C76.** A process that has been killed has not touched its output, or has left what an interrupted run alone can leave (see C55). -/
theorem C76_killed {ι : Type} [DecidableEq ι] {jobs : ι → Job} (hsep : Separate jobs) (w : World) (schedule : List (ι × Act)) (i : ι)
    (hu : ∀ u, gaia (jobs i).src (jobs i).out w ≠ .undefined u) (h : ((Sys.init w).run jobs schedule).phase i = .killed) :
    ((Sys.init w).run jobs schedule).world.files (jobs i).out = w.files (jobs i).out ∨
    ∃ left, Interrupted (jobs i).src (input w (jobs i)) left ∧ ((Sys.init w).run jobs schedule).world.files (jobs i).out = some left := by
  have := (AllGood.run hsep schedule (.init w jobs)).good i
  rw [h] at this
  rcases this with this | ⟨⟨c, hs⟩, hc, hf⟩
  · exact .inl this
  · refine .inr (hf.interrupted fun u e => hu u ?_)
    rw [gaia_ran hs hc, e]

/-- **C76.** Whatever has happened, running gaia (once more) does what it would have done on the untouched file system. -/
theorem C76_rerun {ι : Type} [DecidableEq ι] {jobs : ι → Job} (hsep : Separate jobs) (w : World) (schedule : List (ι × Act)) (i : ι)
    {src : List Byte} (hw : Setup w (jobs i).src (jobs i).out src) {status : Nat} {text : Str} {w' : World}
    (h : gaia (jobs i).src (jobs i).out w = .exited ⟨status, text, w'⟩) :
    ∃ w'', gaia (jobs i).src (jobs i).out ((Sys.init w).run jobs schedule).world = .exited ⟨status, text, w''⟩ ∧
      w''.files (jobs i).out = w'.files (jobs i).out := by
  have g := AllGood.run hsep schedule (.init w jobs)
  have hw' : Setup ((Sys.init w).run jobs schedule).world (jobs i).src (jobs i).out src :=
    ⟨by rw [g.source hsep i hw.different]; exact hw.source, by rw [g.creatable]; exact hw.creatable, hw.different⟩
  rw [gaia_eq hw] at h
  rw [gaia_eq hw']
  cases ha : assembleBytes (jobs i).src src with
  | ok st =>
    rw [ha] at h
    injection h with h; injection h with h1 h2 h3
    subst h1 h2 h3
    exact ⟨_, rfl, by simp [World.write]⟩
  | err a =>
    rw [ha] at h
    injection h with h; injection h with h1 h2 h3
    subst h1 h2 h3
    exact ⟨_, rfl, by simp [World.write]⟩
  | ub u => rw [ha] at h; cases h

/-- **C76.** No process ever waits for another one: at every moment, each process that has not been killed can come to its end by its own steps. -/
theorem C76_finishes {ι : Type} [DecidableEq ι] {jobs : ι → Job} (hsep : Separate jobs) (w : World) (schedule : List (ι × Act)) (i : ι)
    (h : ((Sys.init w).run jobs schedule).phase i ≠ .killed) :
    ∃ acts : List Act, Ended (((Sys.init w).run jobs (schedule ++ acts.map fun a => (i, a))).phase i) := by
  obtain ⟨acts, ha⟩ := (AllGood.run hsep schedule (.init w jobs)).canEnd hsep i h
  exact ⟨acts, by rw [run_append]; exact ha⟩

/-- **C76.** And it needs few of them: no schedule gets a process on more than 6 times and twice per byte of its source. -/
theorem C76_steps {ι : Type} [DecidableEq ι] {jobs : ι → Job} (hsep : Separate jobs) (w : World) (schedule : List (ι × Act)) (i : ι) :
    progress jobs i (Sys.init w) schedule ≤ 2 * (input w (jobs i)).length + 6 := by
  have h : _ ≤ 2 * (input w (jobs i)).length + 6 := AllGood.progress_le hsep i schedule (.init w jobs)
  omega

/-- **C76.** One process alone: in whatever blocks the source is read and the output written, gaia does the same. -/
theorem C76_alone (j : Job) (w : World) (acts : List Act) {status : Nat} {text : Str}
    (h : ((Sys.init w).run (fun _ : Unit => j) (acts.map fun a => ((), a))).phase () = .done status text) :
    gaia j.src j.out w = .exited ⟨status, text, ((Sys.init w).run (fun _ : Unit => j) (acts.map fun a => ((), a))).world⟩ := by
  have hsep : Separate fun _ : Unit => j := fun i k h => absurd rfl h
  obtain ⟨w', h1, h2⟩ := C76_result hsep w _ () h
  rw [h1]
  have g := AllGood.run hsep (acts.map fun a => ((), a)) (.init w _)
  have hw : w'.creatable = w.creatable ∧ ∀ n, n ≠ j.out → w'.files n = w.files n := by
    revert h1
    unfold gaia
    intro h1
    split at h1
    · split at h1
      · injection h1 with h1; injection h1 with _ _ h1; subst h1; exact ⟨rfl, fun _ _ => rfl⟩
      · cases h1
      · cases h1
    · split at h1
      · split at h1
        · injection h1 with h1; injection h1 with _ _ h1; subst h1; exact ⟨rfl, fun _ _ => rfl⟩
        · cases h1
        · cases h1
      · dsimp only at h1
        split at h1
        · injection h1 with h1; injection h1 with _ _ h1; subst h1; exact ⟨rfl, fun n hn => by simp [World.write, hn]⟩
        · injection h1 with h1; injection h1 with _ _ h1; subst h1; exact ⟨rfl, fun n hn => by simp [World.write, hn]⟩
        · cases h1
  congr 2
  have hf : w'.files = ((Sys.init w).run (fun _ : Unit => j) (acts.map fun a => ((), a))).world.files := by
    funext n
    by_cases hn : n = j.out
    · rw [hn]; exact h2.symm
    · rw [hw.2 n hn, g.others n fun _ => hn]
  have hc := hw.1.trans g.creatable.symm
  revert hf hc
  cases w'
  cases ((Sys.init w).run (fun _ : Unit => j) (acts.map fun a => ((), a))).world
  rintro rfl rfl; rfl

/-! ### Cases -/

/-- Two sources, of which one cannot be assembled. -/
def c76World : World :=
  ⟨fun n => if n = b! "a.asm" then some (b! " JMP E\nE NOP\n") else if n = b! "b.asm" then some (b! " LDA #1\n LDA )\n") else none,
   fun n => n == b! "a.bin" || n == b! "b.bin"⟩

/-- `true` assembles the first, `false` the second. -/
def c76Jobs : Bool → Job
  | true => ⟨b! "a.asm", b! "a.bin"⟩
  | false => ⟨b! "b.asm", b! "b.bin"⟩

theorem c76_separate : Separate c76Jobs := by unfold Separate; decide

/-- The two run at the same time; the first reads 3 bytes and then the rest. -/
def c76Schedule : List (Bool × Act) :=
  [(true, .openSource), (false, .openSource), (false, .createOutput), (true, .createOutput), (true, .read 2), (false, .read 100), (true, .line),
   (false, .line), (true, .read 50), (true, .line), (false, .flush 1), (true, .line), (true, .read 0), (false, .line), (false, .close), (true, .finish),
   (true, .flush 4), (true, .close)]

theorem C76_case :
    ((Sys.init c76World).run c76Jobs c76Schedule).phase true = .done 0 (b! "Assembly successful.\n4 (0x0004) bytes assembled.\n1 symbols.\n") ∧
    (∃ text, ((Sys.init c76World).run c76Jobs c76Schedule).phase false = .done 1 text) ∧
    ((Sys.init c76World).run c76Jobs c76Schedule).world.files (b! "a.bin") = some [0x4C, 3, 0, 0xEA] ∧
    ((Sys.init c76World).run c76Jobs c76Schedule).world.files (b! "b.bin") = some [0xA9, 1] ∧
    progress c76Jobs true (Sys.init c76World) c76Schedule = 9 := by
  have h : (match ((Sys.init c76World).run c76Jobs c76Schedule).phase false with | .done 1 _ => true | _ => false) = true := by decide +kernel
  refine ⟨by decide +kernel, ?_, by decide +kernel, by decide +kernel, by decide +kernel⟩
  split at h
  · exact ⟨_, ‹_›⟩
  · cases h

/-- The theorems, applied to this run. -/
example : ∃ w', gaia (b! "a.asm") (b! "a.bin") c76World = .exited ⟨0, b! "Assembly successful.\n4 (0x0004) bytes assembled.\n1 symbols.\n", w'⟩ ∧
    ((Sys.init c76World).run c76Jobs c76Schedule).world.files (b! "a.bin") = w'.files (b! "a.bin") :=
  C76_result c76_separate c76World c76Schedule true C76_case.1

example : ((Sys.init c76World).run c76Jobs c76Schedule).world.files (b! "a.asm") = c76World.files (b! "a.asm") :=
  C76_files c76_separate c76World c76Schedule (by decide)

example : progress c76Jobs true (Sys.init c76World) c76Schedule ≤ 2 * 13 + 6 := C76_steps c76_separate c76World c76Schedule true

/-- One after the other: the same end. -/
def c76Other : List (Bool × Act) :=
  ([.openSource, .createOutput, .read 100, .line, .line, .close].map fun a => (false, a)) ++
  ([.openSource, .createOutput, .read 100, .read 0, .line, .line, .finish, .close].map fun a => (true, a))

example : (Sys.init c76World).run c76Jobs c76Schedule = (Sys.init c76World).run c76Jobs c76Other := by
  refine C76_order c76_separate c76World _ _ ?_ ?_
  · intro i
    cases i
    · obtain ⟨t, h⟩ := C76_case.2.1; exact ⟨_, _, h⟩
    · exact ⟨_, _, C76_case.1⟩
  · intro i
    have h : (match ((Sys.init c76World).run c76Jobs c76Other).phase i with | .done _ _ => true | _ => false) = true := by
      cases i <;> decide +kernel
    split at h
    · exact ⟨_, _, ‹_›⟩
    · cases h

/-- The first process is killed when two of the three dummy bytes are in the file. -/
theorem C76_killed_case :
    ((Sys.init c76World).run c76Jobs (c76Schedule.take 9 ++ [(true, .line), (true, .flush 2), (true, .kill)])).phase true = .killed ∧
    ((Sys.init c76World).run c76Jobs (c76Schedule.take 9 ++ [(true, .line), (true, .flush 2), (true, .kill)])).world.files (b! "a.bin") = some [0, 0] := by
  constructor <;> decide +kernel

/-- The condition is needed: `false` assembles what `true` writes, and its result depends on the schedule. -/
theorem C76_race :
    let jobs : Bool → Job := fun i => if i then ⟨b! "a.asm", b! "m.asm"⟩ else ⟨b! "m.asm", b! "m.bin"⟩
    let w : World := ⟨fun n => if n = b! "a.asm" ∨ n = b! "m.asm" then some (b! " NOP\n") else none, fun _ => true⟩
    let first := [.openSource, .createOutput, .read 9, .read 0, .line, .finish, .close].map fun a => (false, a)
    let second := [.openSource, .createOutput, .read 9, .read 0, .line, .finish, .close].map fun a => (true, a)
    ((Sys.init w).run jobs (first ++ second)).world.files (b! "m.bin") = some [0xEA] ∧
    (∃ text, ((Sys.init w).run jobs (first ++ second)).phase false = .done 0 text) ∧
    ((Sys.init w).run jobs (second.take 2 ++ first)).world.files (b! "m.bin") = some [] ∧
    (∃ text, ((Sys.init w).run jobs (second.take 2 ++ first)).phase false = .done 0 text) := by
  refine ⟨by decide +kernel, ⟨b! "Assembly successful.\n1 (0x0001) bytes assembled.\n0 symbols.\n", by decide +kernel⟩, by decide +kernel,
    ⟨b! "Assembly successful.\n0 (0x0000) bytes assembled.\n0 symbols.\n", by decide +kernel⟩⟩

end Gaia

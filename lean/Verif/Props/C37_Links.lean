import Verif.Model.Links
import Verif.Props.C31_Exit

/-! C37 for file systems with links. -/
namespace Gaia
open Spec

/-- The file system as the names show it. -/
def Links.Disk.view {ι} (d : Links.Disk ι) : World := ⟨fun n => d.data (d.leads n), d.creatable⟩

theorem Links.write_write {ι} [DecidableEq ι] (d : Links.Disk ι) (f : ι) (a b : List Byte) : (d.write f a).write f b = d.write f b := by
  unfold Links.Disk.write
  simp only [Links.Disk.mk.injEq, true_and, and_true]
  funext g
  split <;> rfl

/-- **C37, C46 with links.** As long as the two names lead to different files, gaia behaves as if there were no links: same status,
same text; the output file gets the same bytes, and no other file is touched. -/
theorem C37_links {ι : Type} [DecidableEq ι] (d : Links.Disk ι) (srcName outName : Str) (hne : d.leads srcName ≠ d.leads outName)
    {status : Nat} {text : Str} {w' : World} (h : gaia srcName outName d.view = .exited ⟨status, text, w'⟩) :
    ∃ d' : Links.Disk ι, Links.gaia srcName outName d = .exited status text d' ∧ d'.leads = d.leads ∧
      d'.data (d.leads outName) = w'.files outName ∧ ∀ f, f ≠ d.leads outName → d'.data f = d.data f := by
  have hn : srcName ≠ outName := fun e => hne (by rw [e])
  unfold gaia at h
  unfold Links.gaia
  have hv : d.view.files srcName = d.data (d.leads srcName) := rfl
  have hc : d.view.creatable = d.creatable := rfl
  rw [hv, hc] at h
  cases hs : d.data (d.leads srcName) with
  | none =>
    rw [hs] at h
    simp only at h ⊢
    cases hp : printError none .fileOpenFail none srcName 0 with
    | ok s => rw [hp] at h; cases h; exact ⟨d, rfl, rfl, rfl, fun _ _ => rfl⟩
    | err e => rw [hp] at h; cases h
    | ub u => rw [hp] at h; cases h
  | some content =>
    rw [hs] at h
    simp only [if_neg hn] at h ⊢
    by_cases hcr : d.creatable outName = false
    · rw [if_pos hcr] at h ⊢
      cases hp : printError none .binaryFileCreationFail none srcName 0 with
      | ok s => rw [hp] at h; cases h; exact ⟨d, rfl, rfl, rfl, fun _ _ => rfl⟩
      | err e => rw [hp] at h; cases h
      | ub u => rw [hp] at h; cases h
    · rw [if_neg hcr] at h ⊢
      have e : ((d.write (d.leads outName) []).data ((d.write (d.leads outName) []).leads srcName)).getD [] = content := by
        show (if d.leads srcName = d.leads outName then _ else d.data (d.leads srcName)).getD [] = content
        rw [if_neg hne, hs]; rfl
      rw [e]
      cases ha : assembleBytes srcName content with
      | ub u => rw [ha] at h; cases h
      | ok st =>
        rw [ha] at h; cases h
        refine ⟨_, rfl, rfl, ?_, fun f hf => ?_⟩
        · simp [Links.Disk.write, World.write]
        · simp [Links.Disk.write, hf]
      | err st =>
        rw [ha] at h; cases h
        refine ⟨_, rfl, rfl, ?_, fun f hf => ?_⟩
        · simp [Links.Disk.write, World.write]
        · simp [Links.Disk.write, hf]

/-- **The full C37 is false** under any two names of one file: the source is emptied and gaia reports success with 0 bytes. -/
theorem C37_links_overwritten {ι : Type} [DecidableEq ι] (d : Links.Disk ι) (srcName outName : Str) (src : List Byte)
    (he : d.leads srcName = d.leads outName) (h : d.data (d.leads srcName) = some src) (hc : d.creatable outName = true) :
    ∃ d', Links.gaia srcName outName d = .exited 0 (b! "Assembly successful.\n0 (0x0000) bytes assembled.\n0 symbols.\n") d' ∧
      d'.leads = d.leads ∧ d'.data (d.leads srcName) = some [] ∧ ∀ f, f ≠ d.leads srcName → d'.data f = d.data f := by
  have h2 : assembleBytes srcName [] = .ok { initSt srcName with out := OutFile.empty } := rfl
  have hr : report 0 0 = b! "Assembly successful.\n0 (0x0000) bytes assembled.\n0 symbols.\n" := by decide +kernel
  unfold Links.gaia
  rw [h]
  have e : ((d.write (d.leads outName) []).data ((d.write (d.leads outName) []).leads srcName)).getD [] = [] := by
    show (if d.leads srcName = d.leads outName then some [] else d.data (d.leads srcName)).getD [] = []
    rw [if_pos he]; rfl
  simp only [hc, Bool.true_eq_false, if_false]
  rw [e, h2]
  rw [← hr]
  refine ⟨(d.write (d.leads outName) []).write (d.leads outName) [], rfl, rfl, ?_, fun f hf => ?_⟩
  · simp [Links.Disk.write, he]
  · simp [Links.Disk.write, he ▸ hf]

/-- **C37, exactly.** Whatever the links: a run of gaia leaves its source as it was if and only if the output name leads to another
file, or one of the two files cannot be opened, or the source was empty anyway. -/
theorem C37_kept_iff {ι : Type} [DecidableEq ι] (d : Links.Disk ι) (srcName outName : Str)
    (hs : ∀ src, d.data (d.leads srcName) = some src → Sized src) :
    ∃ status text d', Links.gaia srcName outName d = .exited status text d' ∧ d'.leads = d.leads ∧
      (d'.data (d.leads srcName) = d.data (d.leads srcName) ↔
        d.leads outName ≠ d.leads srcName ∨ d.data (d.leads srcName) = none ∨ d.creatable outName = false ∨ d.data (d.leads srcName) = some []) := by
  by_cases hne : d.leads srcName ≠ d.leads outName
  · obtain ⟨status, text, w', h1, _⟩ := C36_only_output d.view srcName outName (fun src h => hs src h)
    obtain ⟨d', k1, k2, _, k4⟩ := C37_links d srcName outName hne h1
    exact ⟨status, text, d', k1, k2, ⟨fun _ => .inl hne.symm, fun _ => k4 _ hne⟩⟩
  · have he : d.leads srcName = d.leads outName := not_not.1 hne
    cases hsrc : d.data (d.leads srcName) with
    | none =>
      have hn := C36_no_source d.view srcName outName hsrc
      unfold Links.gaia
      rw [hsrc]
      have hp : printError none .fileOpenFail none srcName 0 = .ok (b! "ERROR: " ++ srcName ++ b! " could not be opened\n\n") := by
        unfold gaia at hn
        rw [show d.view.files srcName = none from hsrc] at hn
        simp only at hn
        cases hp : printError none .fileOpenFail none srcName 0 with
        | ok s => rw [hp] at hn; simp only [Outcome.exited.injEq, Exit.mk.injEq] at hn; rw [hn.2.1]
        | err e => rw [hp] at hn; cases hn
        | ub u => rw [hp] at hn; cases hn
      rw [hp]
      exact ⟨_, _, _, rfl, rfl, by simp [hsrc]⟩
    | some src =>
      cases hc : d.creatable outName with
      | false =>
        have hn := C36_no_output d.view srcName outName (by rw [show d.view.files srcName = some src from hsrc]; simp) hc
        have hp : ∃ s, printError none .binaryFileCreationFail none srcName 0 = .ok s := by
          unfold gaia at hn
          rw [show d.view.files srcName = some src from hsrc] at hn
          simp only [show d.view.creatable outName = false from hc, if_true] at hn
          cases hp : printError none .binaryFileCreationFail none srcName 0 with
          | ok s => exact ⟨s, rfl⟩
          | err e => rw [hp] at hn; cases hn
          | ub u => rw [hp] at hn; cases hn
        obtain ⟨s, hp⟩ := hp
        unfold Links.gaia
        rw [hsrc]
        simp only [hc, if_true, hp]
        exact ⟨_, _, _, rfl, rfl, by simp [hsrc]⟩
      | true =>
        obtain ⟨d', k1, k2, k3, _⟩ := C37_links_overwritten d srcName outName src he hsrc hc
        refine ⟨_, _, d', k1, k2, ?_⟩
        rw [k3]
        simp [he, eq_comm]

/-! Concrete cases: `p.asm` and `./p.asm` lead to file 0, `p.bin` to file 1. -/

def linked : Links.Disk Nat :=
  ⟨fun n => if n = b! "p.asm" ∨ n = b! "./p.asm" then 0 else 1, fun f => if f = 0 then some (b! " NOP\n") else none, fun _ => true⟩

example : ∃ d', Links.gaia (b! "p.asm") (b! "./p.asm") linked =
    .exited 0 (b! "Assembly successful.\n0 (0x0000) bytes assembled.\n0 symbols.\n") d' ∧ d'.data 0 = some [] := by
  obtain ⟨d', h1, _, h3, _⟩ := C37_links_overwritten linked (b! "p.asm") (b! "./p.asm") (b! " NOP\n") (by decide) (by decide) rfl
  exact ⟨d', h1, h3⟩

example : linked.leads (b! "p.asm") ≠ linked.leads (b! "p.bin") := by decide

end Gaia

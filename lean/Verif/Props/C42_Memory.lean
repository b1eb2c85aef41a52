import Verif.Proofs.MemoryTop
import Verif.Props.C31_Exit

/-!
C42: memory and files are given back. C43: what happens when a request for memory is refused. C44: what is then leaked.

`Memory.gaia o srcName outName w` is the program run in an environment in which the n-th request for memory (counted from 0) is
granted iff `o n`. If it ends, it ends as `.exited e h`: with the exit status, text and files `e`, and with the heap `h`, where
`h.live` are the blocks never freed, `h.files` the files never closed, `h.asked` the number of requests made. Freeing a block that is
not in use, or closing a file that is not open, is `.undefined`.
-/
namespace Gaia
open Spec

/-- **C42.** For every source of fewer than 21474836 lines, all names and every file system: if no request for memory is refused, then the program
ends, with the same status, text and files as the model without memory says; every block it was given has been freed, exactly once,
and every file it opened has been closed. -/
theorem C42_all_released (o : Memory.Oracle) (w : World) (srcName outName : Str) (h : SmallSource w srcName) (ho : ∀ n, o n = true) :
    ∃ e heap, Memory.gaia o srcName outName w = .exited e heap ∧ gaia srcName outName w = .exited e ∧
      heap.live = [] ∧ heap.files = [] := by
  obtain ⟨e, heap, h1, h2, h3⟩ := Memory.gaia_cases o srcName outName w (fun u => C35_no_undefined_behaviour w srcName outName h u)
  rcases h3 with ⟨_, _, h4, h5⟩ | ⟨⟨i, _, _, hi⟩, _⟩ | ⟨_, ⟨i, _, hi⟩, _⟩
  · exact ⟨e, heap, h1, h5, h4, h2⟩
  · rw [ho] at hi; cases hi
  · rw [ho] at hi; cases hi

/-- It is enough that the requests actually made are granted. -/
theorem C42_all_released_made (o : Memory.Oracle) (w : World) (srcName outName : Str) (h : SmallSource w srcName) (e : Exit)
    (heap : Memory.Heap) (hr : Memory.gaia o srcName outName w = .exited e heap) (ho : ∀ n, n < heap.asked → o n = true) :
    gaia srcName outName w = .exited e ∧ heap.live = [] ∧ heap.files = [] := by
  obtain ⟨e', heap', h1, h2, h3⟩ := Memory.gaia_cases o srcName outName w (fun u => C35_no_undefined_behaviour w srcName outName h u)
  rw [hr] at h1
  injection h1 with h4 h5
  subst h4 h5
  rcases h3 with ⟨_, _, h4, h5⟩ | ⟨⟨i, _, h6, hi⟩, _⟩ | ⟨_, ⟨i, h6, hi⟩, _⟩
  · exact ⟨h5, h4, h2⟩
  · rw [ho i h6] at hi; cases hi
  · rw [ho i h6] at hi; cases hi

/-- **C43.** Whatever requests for memory are refused, assembling a source of fewer than 21474836 lines has no undefined behaviour: no block is freed
twice, no NULL pointer is used, and both files are closed. -/
theorem C43_no_undefined_behaviour (o : Memory.Oracle) (w : World) (srcName outName : Str) (h : SmallSource w srcName) :
    ∃ e heap, Memory.gaia o srcName outName w = .exited e heap ∧ heap.files = [] ∧ (e.status = 0 ∨ e.status = 1) ∧
      ∀ n, n ≠ outName → e.world.files n = w.files n := by
  obtain ⟨e, heap, h1, h2, h3⟩ := Memory.gaia_cases o srcName outName w (fun u => C35_no_undefined_behaviour w srcName outName h u)
  refine ⟨e, heap, h1, h2, ?_⟩
  rcases h3 with ⟨_, _, _, h5⟩ | ⟨_, h4, h5, _⟩ | ⟨_, _, h4, _, _, _, bytes, h5⟩
  · rcases run_outcome w srcName outName h with ⟨bin, t, n, h6⟩ | ⟨text, w', h6, _, rfl | ⟨bin, rfl⟩⟩
    · rw [h6] at h5; injection h5 with h5; subst h5
      exact ⟨.inl rfl, fun x hx => by simp [World.write, hx]⟩
    · rw [h6] at h5; injection h5 with h5; subst h5
      exact ⟨.inr rfl, fun x _ => rfl⟩
    · rw [h6] at h5; injection h5 with h5; subst h5
      exact ⟨.inr rfl, fun x hx => by simp [World.write, hx]⟩
  · exact ⟨.inr h4, fun x _ => by rw [h5]⟩
  · exact ⟨.inr h4, fun x hx => by rw [h5]; simp [World.write, hx]⟩

/-- A run that reports success has not been refused any memory, and its output is the one of an unlimited run. -/
theorem C43_success_is_real (o : Memory.Oracle) (w : World) (srcName outName : Str) (h : SmallSource w srcName) (e : Exit)
    (heap : Memory.Heap) (hr : Memory.gaia o srcName outName w = .exited e heap) (hs : e.status = 0) :
    gaia srcName outName w = .exited e ∧ (∀ n, n < heap.asked → o n = true) := by
  obtain ⟨e', heap', h1, h2, h3⟩ := Memory.gaia_cases o srcName outName w (fun u => C35_no_undefined_behaviour w srcName outName h u)
  rw [hr] at h1
  injection h1 with h4 h5
  subst h4 h5
  rcases h3 with ⟨h4, _, _, h5⟩ | ⟨_, h4, _⟩ | ⟨_, _, h4, _⟩
  · exact ⟨h5, h4⟩
  · rw [h4] at hs; cases hs
  · rw [h4] at hs; cases hs

/-- The program starts with 25 requests. If one of them is refused, it says so and touches no file. -/
theorem C43_refused_at_start (o : Memory.Oracle) (w : World) (srcName outName : Str) (h : SmallSource w srcName)
    (hr : ∃ n, n < 25 ∧ o n = false) :
    ∃ heap, Memory.gaia o srcName outName w =
      .exited ⟨1, b! "ERROR: could not allocate enough memory during assembly\n\n", w⟩ heap := by
  obtain ⟨e, heap, h1, h2, h3⟩ := Memory.gaia_cases o srcName outName w (fun u => C35_no_undefined_behaviour w srcName outName h u)
  obtain ⟨n, hn, ho⟩ := hr
  rcases h3 with ⟨h4, h5, _⟩ | ⟨_, h4, h5, h6, _⟩ | ⟨h4, _⟩
  · rw [h4 n (by unfold Memory.startRequests at h5; omega)] at ho; cases ho
  · refine ⟨heap, ?_⟩
    rw [h1]
    congr 1
    cases e
    simp only at h4 h5 h6
    rw [h4, h5, h6]
  · rw [h4 n hn] at ho; cases ho

/-- If a later request is refused, the program ends with status 1 and without any message, and of the files only the output file
is changed. -/
theorem C43_refused_later (o : Memory.Oracle) (w : World) (srcName outName : Str) (h : SmallSource w srcName)
    (hr : ∀ n, n < 25 → o n = true) (e : Exit) (heap : Memory.Heap) (hg : Memory.gaia o srcName outName w = .exited e heap)
    (hn : ∃ n, n < heap.asked ∧ o n = false) :
    ∃ bytes, e = ⟨1, [], w.write outName bytes⟩ := by
  obtain ⟨e', heap', h1, h2, h3⟩ := Memory.gaia_cases o srcName outName w (fun u => C35_no_undefined_behaviour w srcName outName h u)
  rw [hg] at h1
  injection h1 with h4 h5
  subst h4 h5
  obtain ⟨n, hn, ho⟩ := hn
  rcases h3 with ⟨h4, _⟩ | ⟨⟨i, h4, _, h5⟩, _⟩ | ⟨_, _, h4, h5, _, _, bytes, h6⟩
  · rw [h4 n hn] at ho; cases ho
  · rw [hr i h4] at h5; cases h5
  · refine ⟨bytes, ?_⟩
    cases e
    simp only at h4 h5 h6
    rw [h4, h5, h6]

/-! ### Concrete cases -/

/-- A run of the program on a source, with the memory `o`: status, text, output file, blocks not freed, files not closed, requests. -/
def memRun (o : Memory.Oracle) (src : List Byte) : Option (Nat × Str × Option (List Byte) × List Nat × List Nat × Nat) :=
  match Memory.gaia o (b! "p.asm") (b! "p.bin") (demo src) with
  | .exited e h => some (e.status, e.stdout, e.world.files (b! "p.bin"), h.live, h.files, h.asked)
  | .undefined _ => none

/-- Nine labels and nine forward references: the table and the array of references both grow. -/
def c42Src : List Byte :=
  b! "*=$10\nA1 JMP Z\nA2 JMP Z\nA3 JMP Z\nA4 JMP Z\nA5 JMP Z\nA6 JMP Z\nA7 JMP Z\nA8 JMP Z\nA9 BNE Z\nZ RTS\n"

/-- A witness for C42: 83 requests, nothing left over. -/
theorem c42_grows : (memRun (fun _ => true) c42Src).map (fun r => (r.1, r.2.2.2)) = some (0, [], [], 83) := by decide +kernel

theorem c42_case : ∃ e heap, Memory.gaia (fun _ => true) (b! "p.asm") (b! "p.bin") (demo c42Src) = .exited e heap ∧
    gaia (b! "p.asm") (b! "p.bin") (demo c42Src) = .exited e ∧ heap.live = [] ∧ heap.files = [] :=
  C42_all_released _ _ _ _ (demo_small (by decide +kernel)) fun _ => rfl

/-- A witness for `C43_refused_at_start`: the third request is refused. -/
theorem c43_start : (memRun (fun n => n != 2) c42Src).map (fun r => (r.1, r.2.1, r.2.2.1)) =
    some (1, b! "ERROR: could not allocate enough memory during assembly\n\n", none) := by decide +kernel

/-- A witness for `C43_refused_later`: the 41st request is refused. The output file is left with what had been assembled. -/
theorem c43_later : (memRun (fun n => n != 40) c42Src).map (fun r => (r.1, r.2.1, r.2.2.2.2)) =
    some (1, [], [], 41) := by decide +kernel

/-! ### C44: what is leaked -/

/-- **C44 (all memory is freed even if a request is refused) is false of the code**: if the array of the lexer cannot be allocated, the
lexer is not freed. -/
theorem C44_init_leaks : (memRun (fun n => n != 1) (b! "NOP\n")).map (fun r => r.2.2.2.1) = some [0] := by decide +kernel

/-- If the label of a new symbol cannot be allocated, the symbol is not freed. -/
theorem C44_symbol_leaks : (memRun (fun n => n != 26) (b! "L NOP\n")).map (fun r => r.2.2.2.1) = some [25] := by decide +kernel

/-- If a part of a forward reference cannot be allocated, the other parts are not freed. -/
theorem C44_reference_leaks : (memRun (fun n => n != 28) (b! "JMP L\nL NOP\n")).map (fun r => r.2.2.2.1) = some [27, 26, 25] := by
  decide +kernel

/-- If the array of forward references cannot grow, none of them is freed, nor is the array: 34 blocks. -/
theorem C44_realloc_leaks : (memRun (fun n => n != 57)
    (b! "JMP L\nJMP L\nJMP L\nJMP L\nJMP L\nJMP L\nJMP L\nJMP L\nL NOP\n")).map (fun r => (r.1, r.2.1, r.2.2.2.1.length)) =
    some (1, [], 34) := by decide +kernel

/-- What remains true: nothing is leaked by a run in which every request made is granted, whatever else goes wrong (unreadable
source, errors in the source). Missing from the full property (hence `_partial`): runs in which a request is refused. -/
theorem C44_no_leak_partial (o : Memory.Oracle) (w : World) (srcName outName : Str) (h : SmallSource w srcName) (e : Exit)
    (heap : Memory.Heap) (hr : Memory.gaia o srcName outName w = .exited e heap) (ho : ∀ n, n < heap.asked → o n = true) :
    heap.live = [] := (C42_all_released_made o w srcName outName h e heap hr ho).2.1

/-- How much is leaked at most, and when. If one of the 25 requests made at the start is refused, at most 20 blocks; afterwards at most
3 blocks — the parts of one symbol or of one forward reference — unless it was the array of forward references that could not grow: then
exactly the array and the structures of all `n` references made so far and of the new one are lost, 4 blocks for each and 2 more, and `n`
is at most the number of lines of the source. So the leak never exceeds 4 blocks for each line, and 20 more. -/
theorem C44_leak_bound (o : Memory.Oracle) (w : World) (srcName outName : Str) (h : SmallSource w srcName) (e : Exit)
    (heap : Memory.Heap) (hr : Memory.gaia o srcName outName w = .exited e heap) :
    ((∃ i, i < 25 ∧ o i = false) → heap.live.length ≤ 20) ∧
    ((∀ i, i < 25 → o i = true) → heap.live.length ≤ 3 ∨ ∃ content n, w.files srcName = some content ∧
      n ≤ (chunks content).length ∧ heap.live.length = 4 * (n + 1) + 2) := by
  obtain ⟨e', heap', h1, h2, h3⟩ := Memory.gaia_cases o srcName outName w (fun u => C35_no_undefined_behaviour w srcName outName h u)
  rw [hr] at h1
  injection h1 with h4 h5
  subst h4 h5
  rcases h3 with ⟨_, _, h4, _⟩ | ⟨⟨i, h4, _, h5⟩, _, _, _, h6⟩ | ⟨h4, _, _, _, ⟨content, h5, h6⟩, _⟩
  · rw [h4]; exact ⟨fun _ => Nat.zero_le _, fun _ => .inl (Nat.zero_le _)⟩
  · exact ⟨fun _ => h6, fun q => by rw [q i h4] at h5; cases h5⟩
  · refine ⟨fun ⟨i, q1, q2⟩ => (by rw [h4 i q1] at q2; cases q2), fun _ => ?_⟩
    rcases h6 with h6 | ⟨n, h6, h7⟩
    · exact .inl h6
    · exact .inr ⟨content, n, h5, h6, h7⟩

/-- The bounds of `C44_leak_bound` are reached: 20 blocks at the start (the last request of each of the five structures is refused), 3
for a forward reference, and 34 = 4 * (7 + 1) + 2 when the array cannot grow for the eighth one. -/
theorem C44_leak_reached :
    (memRun (fun n => n != 17 && n != 19 && n != 22 && n != 24) (b! "NOP\n")).map (fun r => r.2.2.2.1.length) = some 20 ∧
    (memRun (fun n => n != 28) (b! "JMP L\nL NOP\n")).map (fun r => r.2.2.2.1.length) = some 3 ∧
    (memRun (fun n => n != 57) (b! "JMP L\nJMP L\nJMP L\nJMP L\nJMP L\nJMP L\nJMP L\nJMP L\nL NOP\n")).map
      (fun r => r.2.2.2.1.length) = some (4 * (7 + 1) + 2) := by decide +kernel

/-- A witness for `C44_no_leak_partial` in a run that fails. -/
theorem c44_failing : (memRun (fun n => n < 60) (b! "JMP L\nLDA #$10000\n")).map (fun r => (r.1, r.2.2.2)) =
    some (1, [], [], 29) := by decide +kernel

end Gaia

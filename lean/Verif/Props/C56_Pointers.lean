import Verif.Proofs.Low15
import Verif.Props.C42_Memory

/-!
C56: no access through a stale or wild pointer.

`Low.gaia o junk cells srcName outName w` is the program with its structures in memory (Model/Pointers.lean): tokens, symbols, forward
references and their texts are objects in blocks of the heap, and the program reads and writes them through pointers, several of which
may point to the same object. `junk` is what main's `char buffer[128]` holds before the first line is read, `cells` what cells of
fresh arrays of pointers hold that `malloc` or `realloc` did not initialise, `o` says which requests for memory are granted. Reading or writing through NULL, through a pointer to a freed block or to an object of another kind, outside of an
array, or a string without a NUL, ends in `.undefined`; so does a free of a block that is not in use.
-/
namespace Gaia
open Spec

/-- The size of main's `buffer` (main.c:178, lexer.h). -/
theorem c56_buffer_size : MAX_BUFFER_SIZE = 128 := rfl

/-- **C56.** For every source of fewer than 21474836 lines, all names, every file system, whatever requests for memory are refused and whatever the
line buffer and the arrays of pointers contain before they are initialised: the program makes no access through a pointer to anything but the object meant, inside its bounds
and before it is freed, and frees nothing twice; it ends with the status, text and files, and with the heap, that the model passing
structures by value predicts, and closes both files. -/
theorem C56_no_bad_access (o : Memory.Oracle) (junk : List Byte) (cells : Nat → Option Nat) (w : World) (srcName outName : Str) (h : SmallSource w srcName)
    (hj : junk.length = 128) (hz : (0 : Byte) ∉ srcName) :
    ∃ e heap, Low.gaia o junk cells srcName outName w = .exited e heap ∧ Memory.gaia o srcName outName w = .exited e heap ∧
      heap.files = [] ∧ (e.status = 0 ∨ e.status = 1) ∧ ∀ n, n ≠ outName → e.world.files n = w.files n := by
  obtain ⟨e, heap, h1, h2, h3, h4⟩ := C43_no_undefined_behaviour o w srcName outName h
  refine ⟨e, heap, ?_, h1, h2, h3, h4⟩
  rcases Low.gaia_agree o cells hj hz outName w with hg | ⟨u, hg⟩
  · rw [hg, h1]
  · rw [h1] at hg; cases hg

/-- If no request is refused, it ends as the model without memory says, and every block has been freed. -/
theorem C56_all_released (o : Memory.Oracle) (junk : List Byte) (cells : Nat → Option Nat) (w : World) (srcName outName : Str) (h : SmallSource w srcName)
    (hj : junk.length = 128) (hz : (0 : Byte) ∉ srcName) (ho : ∀ n, o n = true) :
    ∃ e heap, Low.gaia o junk cells srcName outName w = .exited e heap ∧ gaia srcName outName w = .exited e ∧
      heap.live = [] ∧ heap.files = [] := by
  obtain ⟨e, heap, h1, h2, h3, h4⟩ := C42_all_released o w srcName outName h ho
  obtain ⟨e', heap', k1, k2, _⟩ := C56_no_bad_access o junk cells w srcName outName h hj hz
  rw [h1] at k2
  injection k2 with q1 q2
  subst q1 q2
  exact ⟨e, heap, k1, h2, h3, h4⟩

/-- What memory holds before it is initialised has no effect on anything. -/
theorem C56_uninitialised (o : Memory.Oracle) (junk junk' : List Byte) (cells cells' : Nat → Option Nat) (w : World) (srcName outName : Str) (h : SmallSource w srcName)
    (hj : junk.length = 128) (hj' : junk'.length = 128) (hz : (0 : Byte) ∉ srcName) :
    Low.gaia o junk cells srcName outName w = Low.gaia o junk' cells' srcName outName w := by
  obtain ⟨e, heap, h1, h2, _⟩ := C56_no_bad_access o junk cells w srcName outName h hj hz
  obtain ⟨e', heap', k1, k2, _⟩ := C56_no_bad_access o junk' cells' w srcName outName h hj' hz
  rw [h1, k1, ← h2, ← k2]

/-- A success reported by a run in which memory may be refused is the result of an unlimited run. -/
theorem C56_success_is_real (o : Memory.Oracle) (junk : List Byte) (cells : Nat → Option Nat) (w : World) (srcName outName : Str) (h : SmallSource w srcName)
    (hj : junk.length = 128) (hz : (0 : Byte) ∉ srcName) (e : Exit) (heap : Memory.Heap)
    (hr : Low.gaia o junk cells srcName outName w = .exited e heap) (hs : e.status = 0) : gaia srcName outName w = .exited e := by
  obtain ⟨e', heap', k1, k2, _⟩ := C56_no_bad_access o junk cells w srcName outName h hj hz
  rw [hr] at k1
  injection k1 with q1 q2
  subst q1 q2
  exact (C43_success_is_real o w srcName outName h e heap k2 hs).1

/-! ### The model does notice misuse -/

section
variable (o : Memory.Oracle) (s : Low.Store) (p : Nat)

/-- Reading through a pointer to a freed block is noticed. -/
theorem c56_use_after_free (hp : p ∈ s.heap.live) : ((do Low.free p; Low.load p : Low.M Low.Obj) o s).1 = .ub .badAccess := by
  unfold Low.free
  simp only [Memory.bind_apply, Low.onHeap, Memory.free, hp, if_true]
  simp [Memory.modifyS, Low.load]

/-- Freeing twice is noticed, if blocks in use have distinct numbers. -/
theorem c56_double_free (hp : p ∈ s.heap.live) (hn : s.heap.live.Nodup) : ((do Low.free p; Low.free p : Low.M Unit) o s).1 = .ub .badFree := by
  have hne : p ∉ s.heap.live.erase p := fun hm => (List.Nodup.not_mem_erase hn) hm
  unfold Low.free
  simp only [Memory.bind_apply, Low.onHeap, Memory.free, hp, if_true]
  simp [Memory.modifyS, hne]

/-- Writing beyond the end of an array is noticed. -/
theorem c56_overflow (data bs : List Byte) (hm : s.mem p = some (.chars data)) (hl : data.length < bs.length) :
    (Low.writeChars p bs o s).1 = .ub .badAccess := by
  unfold Low.writeChars
  rw [Memory.bind_ok (Low.load_run hm)]
  simp only [Nat.not_le.2 hl, if_false]
  rfl

/-- A string without a NUL is noticed. -/
theorem c56_no_nul (data : List Byte) (hm : s.mem p = some (.chars data)) (hl : (0 : Byte) ∉ data) :
    (Low.readStr ⟨.heap p, 0⟩ o s).1 = .ub .badAccess := by
  unfold Low.readStr
  rw [Memory.bind_ok (Low.charsOf_run (data := data) (by simp [Low.dataOf, hm]))]
  simp only [List.drop_zero, hl, if_false]
  rfl
end

/-! ### Concrete cases -/

/-- A run of the program with pointers on a source: status, text, output file, blocks not freed, files not closed, requests. -/
def lowRun (o : Memory.Oracle) (src : List Byte) : Option (Nat × Str × Option (List Byte) × List Nat × List Nat × Nat) :=
  match Low.gaia o (List.replicate 128 65) some (b! "p.asm") (b! "p.bin") (demo src) with
  | .exited e h => some (e.status, e.stdout, e.world.files (b! "p.bin"), h.live, h.files, h.asked)
  | .undefined _ => none

/-- The table and the array of references both grow. -/
theorem c56_grows : (lowRun (fun _ => true) c42Src).map (fun r => (r.1, r.2.2.2)) = some (0, [], [], 83) := by decide +kernel

/-- A request is refused while the array of references grows. -/
theorem c56_refused : (lowRun (fun n => n != 57)
    (b! "JMP L\nJMP L\nJMP L\nJMP L\nJMP L\nJMP L\nJMP L\nJMP L\nL NOP\n")).map (fun r => (r.1, r.2.1, r.2.2.2.1.length)) =
    some (1, [], 34) := by decide +kernel

/-- A source with an error. -/
theorem c56_error : (lowRun (fun _ => true) (b! "JMP L\nLDA #$10000\n")).map (fun r => (r.1, r.2.2.2)) = some (1, [], [], 29) := by
  decide +kernel

theorem c56_case : ∃ e heap, Low.gaia (fun _ => true) (List.replicate 128 65) some (b! "p.asm") (b! "p.bin") (demo c42Src) = .exited e heap ∧
    gaia (b! "p.asm") (b! "p.bin") (demo c42Src) = .exited e ∧ heap.live = [] ∧ heap.files = [] :=
  C56_all_released _ _ _ _ _ _ (demo_small (by decide +kernel)) (by simp) (by decide) fun _ => rfl

end Gaia

import Verif.Props.C55_Crash
import Verif.Props.C57_Reference

/-!
C55 for every source: what a killed run leaves, whatever the source contains and whether or not the run would have succeeded.
-/
namespace Gaia
open Spec

/-- All writes of a run on `src`, in order, whether it succeeds or not. -/
def allWrites (fn : Str) (src : List Byte) : List Chunk :=
  match Reference.runPieces fn (pieces src) .init with
  | .error f => f.2
  | .ok s =>
    match Reference.resolve fn s.env s.pending s.writes with
    | .error f => f.2
    | .ok W => W

/-- A complete run leaves the image of its writes. -/
theorem C55_complete {w : World} {srcName outName : Str} {src : List Byte} (hw : Setup w srcName outName src) (hs : Sized src) :
    ∃ status text, gaia srcName outName w = .exited ⟨status, text,
      { w with files := fun n => if n = outName then some (image (allWrites srcName src)) else w.files n }⟩ := by
  refine ⟨(Reference.run srcName src).status, (Reference.run srcName src).text, ?_⟩
  rw [C57_reference hw hs]
  have : (Reference.run srcName src).file = image (allWrites srcName src) := by
    unfold Reference.run allWrites
    cases Reference.runPieces srcName (pieces src) .init with
    | error f => rfl
    | ok s =>
      simp only
      cases Reference.resolve srcName s.env s.pending s.writes with
      | error f => rfl
      | ok W => rfl
  rw [this]

/-- **C55, any source.** A killed run leaves in the output file the result of the first so many bytes of the writes of the complete run. -/
theorem C55_left_any {srcName : Str} {src : List Byte} (hs : Sized src) {left : List Byte} (hl : Interrupted srcName src left) :
    ∃ m, left = written ((singles (allWrites srcName src)).take m) := by
  have h1 := runPieces_sim srcName (pieces src) _ _ RelR_init
  have h3 := assemble_sim srcName src hs
  unfold assembleA at h3
  rw [← pieces_eq] at h3
  have key : ∀ out : OutFile, out.log = singles (allWrites srcName src) → (∃ m, left = written (out.log.take m)) →
      ∃ m, left = written ((singles (allWrites srcName src)).take m) := by
    rintro out h ⟨m, hm⟩
    exact ⟨m, by rw [hm, h]⟩
  unfold allWrites at key ⊢
  cases hr : Reference.runPieces srcName (pieces src) .init with
  | error f =>
    rw [hr] at h1
    obtain ⟨e, k1, k2⟩ := h1
    rw [k1] at h3
    simp only at h3
    rw [hr] at key
    rcases interrupted_log hl with ⟨st, g, _⟩ | ⟨a, g, h⟩
    · rw [h3] at g; cases g
    · rw [h3] at g; cases g
      exact key _ k2.file.log h
  | ok s =>
    rw [hr] at h1
    obtain ⟨a, k1, k2⟩ := h1
    rw [k1] at h3
    simp only at h3 ⊢
    rw [hr] at key
    simp only at key
    have h4 := resolve_sim srcName s.env s.pending a.refs s.writes a.out k2.refs k2.out
    rw [k2.env] at h3
    cases hp : Reference.resolve srcName s.env s.pending s.writes with
    | error f =>
      rw [hp] at h4 key
      obtain ⟨e, m1, m2⟩ := h4
      rw [m1] at h3
      simp only at h3
      rcases interrupted_log hl with ⟨st, g, _⟩ | ⟨a, g, h⟩
      · rw [h3] at g; cases g
      · rw [h3] at g; cases g
        exact key _ m2.file.log h
    | ok W =>
      rw [hp] at h4 key
      obtain ⟨out, m1, m2⟩ := h4
      rw [m1] at h3
      obtain ⟨st, n1, n2, n3, n4, _⟩ := h3
      rcases interrupted_log hl with ⟨st', g, h⟩ | ⟨a, g, h⟩
      · rw [n1] at g
        obtain rfl := C.ok.inj g
        exact key _ (by rw [n4]; exact m2.log) h
      · rw [n1] at g; cases g

/-- The file left is never longer than what the complete run leaves. -/
theorem C55_length_any {srcName : Str} {src : List Byte} (hs : Sized src) {left : List Byte} (hl : Interrupted srcName src left) :
    left.length ≤ (image (allWrites srcName src)).length := by
  obtain ⟨m, rfl⟩ := C55_left_any hs hl
  rw [written_length]
  intro x hx
  have hx := List.mem_of_mem_take hx
  obtain ⟨c, hc, hb⟩ := singles_mem (i := x.1) (b := x.2) hx
  rw [image_length]
  have := le_imageEnd hc
  unfold Chunk.at at hb
  split_ifs at hb with h1
  have := (List.getElem?_eq_some_iff.1 hb).1
  omega

/-! ### Example: a program that fails (its label is never defined), killed in its second instruction -/

example : allWrites (b! "p.asm") (b! " BNE L\n LDA #1\n") = [(0, [0, 0]), (0, [0xD0, 0]), (2, [0xA9, 1])] ∧
    Interrupted (b! "p.asm") (b! " BNE L\n LDA #1\n") [0xD0, 0, 0xA9] ∧
    (∃ m, [0xD0, 0, 0xA9] = written ((singles (allWrites (b! "p.asm") (b! " BNE L\n LDA #1\n"))).take m)) ∧
    ([0xD0, 0, 0xA9] : List Byte).length ≤ (image (allWrites (b! "p.asm") (b! " BNE L\n LDA #1\n"))).length := by
  have hl : Interrupted (b! "p.asm") (b! " BNE L\n LDA #1\n") [0xD0, 0, 0xA9] :=
    crash_eval (ops := [.putc 0, .putc 0, .seek 0, .putc 0xD0, .putc 0, .seek 2, .putc 0xA9, .putc 1]) 7 (by decide +kernel) (by decide +kernel)
  exact ⟨by decide +kernel, hl, C55_left_any (by unfold Sized; decide) hl, C55_length_any (by unfold Sized; decide) hl⟩

/-- The complete run of the same program. -/
example : ∃ status text, gaia (b! "p.asm") (b! "p.bin") (demo (b! " BNE L\n LDA #1\n")) = .exited ⟨status, text,
    { demo (b! " BNE L\n LDA #1\n") with
      files := fun n => if n = b! "p.bin" then some (image (allWrites (b! "p.asm") (b! " BNE L\n LDA #1\n"))) else (demo (b! " BNE L\n LDA #1\n")).files n }⟩ :=
  C55_complete (demo_setup _) (by unfold Sized; decide)

end Gaia

import Verif.Proofs.IO
import Verif.Proofs.Equiv
import Verif.Props.Example

/-! C54: errors while reading the source or writing the output. -/
set_option maxRecDepth 10000
namespace Gaia
open Spec

/-- A run that ends, seen as operations on the output file. -/
theorem run_ops {w : World} {srcName outName : Str} {src : List Byte} (hw : Setup w srcName outName src) {e : Exit}
    (he : gaia srcName outName w = .exited e) :
    ∃ ops, IO.gaia IO.recorder [] srcName (chunks src) = .exited e.status e.stdout ops ∧
      e.world = w.write outName (IO.replay IO.perfect OutFile.empty ops).bytes := by
  have h1 := IO.gaia_perfect srcName src
  have h2 := IO.gaia_replay IO.perfect OutFile.empty srcName (chunks src)
  rw [h2] at h1
  rw [gaia_eq hw] at he
  cases hr : IO.gaia IO.recorder [] srcName (chunks src) with
  | exited s t ops =>
    rw [hr] at h1
    refine ⟨ops, ?_⟩
    cases ha : assembleBytes srcName src with
    | ok st =>
      rw [ha] at h1 he
      simp only [IO.Outcome.map, IO.Outcome.exited.injEq] at h1
      simp only [Outcome.exited.injEq] at he
      subst he
      obtain ⟨rfl, rfl, h3⟩ := h1
      exact ⟨rfl, by rw [h3]⟩
    | err a =>
      rw [ha] at h1 he
      simp only [IO.Outcome.map, IO.Outcome.exited.injEq] at h1
      simp only [Outcome.exited.injEq] at he
      subst he
      obtain ⟨rfl, rfl, h3⟩ := h1
      exact ⟨rfl, by rw [h3]⟩
    | ub u =>
      rw [ha] at he
      exact absurd he (by simp)
  | undefined u =>
    rw [hr] at h1
    cases ha : assembleBytes srcName src with
    | ok st => rw [ha] at h1; simp [IO.Outcome.map] at h1
    | err a => rw [ha] at h1; simp [IO.Outcome.map] at h1
    | ub u' => rw [ha] at he; exact absurd he (by simp)

/-- **C54.** Errors on the output file are not noticed. Let a run on a healthy disk end with some exit status and text. Then there
is one sequence of requests (seek to an offset, write a byte) such that on a healthy disk the output file is their result, and on
any other device, whatever it does with the requests (a full or broken disk, say, that ignores some of them), gaia makes exactly the
same requests, exits with the same status and prints the same text, success included. -/
theorem C54_write_errors_ignored {w : World} {srcName outName : Str} {src : List Byte} (hw : Setup w srcName outName src)
    {e : Exit} (he : gaia srcName outName w = .exited e) :
    ∃ ops : List IO.Op,
      e.world = { w with files := fun n => if n = outName then some (IO.replay IO.perfect OutFile.empty ops).bytes else w.files n } ∧
      ∀ (D : Type) (dev : IO.Device D) (d : D),
        IO.gaia dev d srcName (chunks src) = .exited e.status e.stdout (IO.replay dev d ops) := by
  obtain ⟨ops, h1, h2⟩ := run_ops hw he
  refine ⟨ops, h2, fun D dev d => ?_⟩
  rw [IO.gaia_replay, h1]
  rfl

/-- A disk that is full: every write is lost, the position moves on. -/
def Spec.fullDisk : IO.Device OutFile := ⟨OutFile.seek, fun f _ => { f with pos := f.pos + 1 }⟩

theorem fullDisk_empty : ∀ (ops : List IO.Op) (f : OutFile), f.bytes = [] → (IO.replay fullDisk f ops).bytes = []
  | [], _, h => h
  | op :: ops, f, h => by
    refine fullDisk_empty ops _ ?_
    cases op <;> exact h

/-- **C54.** In particular: if gaia succeeds on a healthy disk, it also reports success, with the same numbers, on a full disk, where
the output file stays empty. -/
theorem C54_full_disk {w : World} {srcName outName : Str} {src : List Byte} (hw : Setup w srcName outName src) {bin : List Byte}
    {total symbols : Nat} (hs : Succeeds w srcName outName bin total symbols) :
    ∃ f, f.bytes = [] ∧ IO.gaia fullDisk OutFile.empty srcName (chunks src) = .exited 0
      (b! "Assembly successful.\n" ++ decimal total ++ b! " (0x" ++ hex04 total ++ b! ") bytes assembled.\n" ++
        decimal symbols ++ b! " symbols.\n") f := by
  obtain ⟨ops, _, h⟩ := C54_write_errors_ignored hw hs
  exact ⟨_, fullDisk_empty ops _ rfl, h _ fullDisk OutFile.empty⟩

/-! ### Reading -/

theorem IO.buffersErrAux_spec : ∀ (fuel : Nat) (s : List Byte), s.length ≤ fuel →
    ∃ s1 tail, s = s1 ++ tail ∧ tail.length ≤ 126 ∧ 10 ∉ tail ∧ IO.buffersErrAux fuel s = chunks s1 ∧
      ((∀ l ∈ lines s, l.length ≤ 126) → WholeLines s1)
  | 0, s, h => by
    have : s = [] := List.length_eq_zero_iff.1 (by omega)
    subst this
    exact ⟨[], [], rfl, by simp, by simp, rfl, fun _ => .inl rfl⟩
  | fuel + 1, s, h => by
    unfold IO.buffersErrAux
    cases hf : IO.fgetsErr (MAX_BUFFER_SIZE - 1) s with
    | none =>
      obtain ⟨h1, h2⟩ := (IO.fgetsErr_none _ _).1 hf
      have h1 : s.length < 127 := h1
      exact ⟨[], s, rfl, by omega, h2, rfl, fun _ => .inl rfl⟩
    | some r =>
      obtain ⟨b, h1, h2⟩ := IO.fgetsErr_prefix _ s [] r hf
      have h3 := IO.fgetsErr_some _ _ _ hf
      have hb : r.2 = b := by
        have := h2 b
        rw [h1, h3] at this
        exact congrArg Prod.snd this
      subst hb
      have hne : r.1 ≠ [] := by
        intro h0
        have hp : (127 : Nat) = 126 + 1 := rfl
        have hs : s ≠ [] := by
          rintro rfl
          simp [MAX_BUFFER_SIZE, IO.fgetsErr] at hf
        have := fgets_progress 126 s hs
        have h3 : fgets (126 + 1) s = r := h3
        rw [h3] at this
        rw [h0] at h1
        simp only [List.nil_append] at h1
        rw [h1] at this
        omega
      have hlen : r.1.length + r.2.length = s.length := by rw [← h1, List.length_append]
      have hpos : 0 < r.1.length := List.length_pos_of_ne_nil hne
      obtain ⟨s1, tail, g1, g2, g3, g4, g5⟩ := IO.buffersErrAux_spec fuel r.2 (by omega)
      refine ⟨r.1 ++ s1, tail, by rw [List.append_assoc, ← g1, h1], g2, g3, ?_, fun hl => ?_⟩
      · simp only
        rw [g4, chunks_cons (s := r.1 ++ s1) (by simp [hne])]
        have h4 : fgets 127 (r.1 ++ s1) = (r.1, s1) := h2 s1
        rw [h4]
      · -- the buffer ends with a newline
        have key : ∀ (n : Nat) (s : List Byte) (r : List Byte × List Byte), IO.fgetsErr n s = some r →
            (r.1.length = n ∧ 10 ∉ r.1) ∨ ∃ q, r.1 = q ++ [10] ∧ 10 ∉ q := by
          intro n
          induction n with
          | zero => intro s r h; obtain rfl : ([], s) = r := by simpa [IO.fgetsErr] using h
                    exact .inl ⟨rfl, by simp⟩
          | succ n ih =>
            intro s r h
            cases s with
            | nil => simp [IO.fgetsErr] at h
            | cons c s =>
              unfold IO.fgetsErr at h
              split_ifs at h with hc
              · obtain rfl : ([10], s) = r := by simpa using h
                exact .inr ⟨[], rfl, by simp⟩
              · obtain ⟨r', k1, rfl⟩ := Option.map_eq_some_iff.1 h
                rcases ih s r' k1 with ⟨k2, k3⟩ | ⟨q, k2, k3⟩
                · exact .inl ⟨by simp [k2], by simp only [List.mem_cons, not_or]; exact ⟨fun h => hc h.symm, k3⟩⟩
                · exact .inr ⟨c :: q, by simp [k2], by simp only [List.mem_cons, not_or]; exact ⟨fun h => hc h.symm, k3⟩⟩
        rcases key _ _ _ hf with ⟨k1, k2⟩ | ⟨q, k1, k2⟩
        · exfalso
          have k1 : r.1.length = 127 := k1
          have hfirst : ∀ (x y : List Byte), x ≠ [] → 10 ∉ x → ∃ l ls, lines (x ++ y) = l :: ls ∧ x.length ≤ l.length := by
            intro x
            induction x with
            | nil => intro y h; exact absurd rfl h
            | cons c x ih =>
              intro y _ hx
              simp only [List.mem_cons, not_or] at hx
              rw [List.cons_append, lines, if_neg (fun h => hx.1 h.symm)]
              cases x with
              | nil =>
                cases lines ([] ++ y) with
                | nil => exact ⟨[c], [], rfl, by simp⟩
                | cons l ls => exact ⟨c :: l, ls, rfl, by simp⟩
              | cons d x =>
                obtain ⟨l, ls, e1, e2⟩ := ih y (by simp) hx.2
                rw [e1]
                exact ⟨c :: l, ls, rfl, by simpa using e2⟩
          obtain ⟨l, ls, m1, m2⟩ := hfirst r.1 r.2 hne k2
          rw [h1] at m1
          have := hl l (by rw [m1]; simp)
          omega
        · have hs : s = q ++ 10 :: r.2 := by rw [← h1, k1]; simp
          have : ∀ l ∈ lines r.2, l.length ≤ 126 := by
            intro l hm
            refine hl l ?_
            have hcut : ∀ (q y : List Byte), 10 ∉ q → lines (q ++ 10 :: y) = q :: lines y := by
              intro q
              induction q with
              | nil => intro y _; simp [lines]
              | cons c q ih =>
                intro y hq
                simp only [List.mem_cons, not_or] at hq
                rw [List.cons_append, lines, if_neg (fun h => hq.1 h.symm), ih y hq.2]
            rw [hs, hcut q r.2 k2]
            exact List.mem_cons_of_mem _ hm
          rcases g5 this with h0 | ⟨x, h0⟩
          · exact .inr ⟨q, by rw [h0, k1, List.append_nil]⟩
          · exact .inr ⟨r.1 ++ x, by rw [h0, List.append_assoc]⟩

/-- **C54.** An error while reading the source is not noticed. If the file delivers `delivered` and then reading fails, gaia behaves, on
any output device, exactly as on a file that ends there, without error; only an unfinished last line (less than 127 characters,
no newline) is dropped too. If all lines are short, what is assembled consists of the complete lines delivered. -/
theorem C54_read_error_ignored (delivered : List Byte) :
    ∃ assembled dropped, delivered = assembled ++ dropped ∧ dropped.length ≤ 126 ∧ 10 ∉ dropped ∧
      ((∀ l ∈ lines delivered, l.length ≤ 126) → WholeLines assembled) ∧
      ∀ (D : Type) (dev : IO.Device D) (d : D) (srcName : Str),
        IO.gaia dev d srcName (IO.buffersErr delivered) = IO.gaia dev d srcName (chunks assembled) := by
  obtain ⟨s1, tail, h1, h2, h3, h4, h5⟩ := IO.buffersErrAux_spec delivered.length delivered (Nat.le_refl _)
  exact ⟨s1, tail, h1, h2, h3, h5, fun D dev d n => by unfold IO.buffersErr; rw [h4]⟩

/-! ### Examples -/

/-- A read error in the second line: the first is assembled, and success reported. -/
example : IO.buffersErr (b! "NOP\nLDA #") = chunks (b! "NOP\n") := by decide +kernel

/-- gaia asks for the opcode and the operand to be written at the address. -/
example : IO.gaia IO.recorder [] (b! "p.asm") (chunks (b! "*=$10\n LDA #$12\n")) = .exited 0
    (b! "Assembly successful.\n2 (0x0002) bytes assembled.\n0 symbols.\n") [.seek 16, .putc 0xA9, .putc 0x12] := by
  have h := show IO.assembleBuffers IO.recorder [] (b! "p.asm") (chunks (b! "*=$10\n LDA #$12\n")) = _ from rfl
  unfold IO.gaia
  rfl

/-- The hypotheses are met. -/
example : ∃ f, f.bytes = [] ∧ IO.gaia fullDisk OutFile.empty (b! "p.asm") (chunks (b! "LDA #$12\n")) = .exited 0
    (b! "Assembly successful.\n" ++ decimal 2 ++ b! " (0x" ++ hex04 2 ++ b! ") bytes assembled.\n" ++
      decimal 0 ++ b! " symbols.\n") f :=
  C54_full_disk (demo_setup _) (bin := [0xA9, 0x12]) (demo_succeeds (by decide +kernel))

end Gaia

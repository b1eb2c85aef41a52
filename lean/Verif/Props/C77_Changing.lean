import Verif.Proofs.Changing
import Verif.Props.C35_Limit
import Verif.Props.Example

/-! C77: a source that is changed while gaia reads it. -/
set_option maxRecDepth 10000
namespace Gaia
open Spec Proc

theorem setup_write {w : World} {j : Job} {c : List Byte} (hw : Setup w j.src j.out c) (S : List Byte) : Setup (w.write j.src S) j.src j.out S :=
  ⟨write_self .., hw.creatable, hw.different⟩

theorem yields_iff {w : World} {j : Job} {c : List Byte} (hw : Setup w j.src j.out c) {S : List Byte} {status : Nat} {text : Str} {out : OutFile}
    (h : Matches (.closing status text out) (assembleBytes j.src S)) : Yields w j S status text out.bytes := by
  unfold Yields
  rw [gaia_eq (setup_write hw S)]
  cases ha : assembleBytes j.src S with
  | ok st =>
    rw [ha] at h
    obtain ⟨rfl, rfl, rfl⟩ := h
    exact ⟨_, rfl, write_self ..⟩
  | err a =>
    rw [ha] at h
    obtain ⟨rfl, rfl, rfl⟩ := h
    exact ⟨_, rfl, write_self ..⟩
  | ub u => rw [ha] at h; exact absurd h id

/-- **C77.** Other programs change files, the source among them, but not the output, at any moments while gaia runs. When gaia exits, its exit status, the
printed text and the output are those for a text put together from the versions of the source, in their order, each byte from its place; the text ends
where the source ended when gaia read its end, unless what follows makes no difference. -/
theorem C77_result {w : World} {j : Job} {c : List Byte} (hw : Setup w j.src j.out c) (events : List Event)
    (hout : ∀ name content, .write name content ∈ events → name ≠ j.out) {status : Nat} {text : Str}
    (h : (runAmong j w events).2 = .done status text) :
    ∃ S k binary, Spliced (versions j.src c events) k S ∧ Yields w j S status text binary ∧
      (Whole (versions j.src c events) k S ∨ ∀ more, Yields w j (S ++ more) status text binary) ∧
      (runAmong j w events).1.files j.out = some binary := by
  have hs := (runAmong_stands hw events hout).1
  rw [h] at hs
  obtain ⟨out, ⟨R, k, h1, h2⟩, h3⟩ := hs
  refine ⟨R, k, out.bytes, h1, ?_, ?_, h3⟩
  · rcases h2 with h2 | h2
    · exact yields_iff hw h2.2
    · have := h2 []
      rw [List.append_nil] at this
      exact yields_iff hw this
  · exact h2.imp (·.1) fun h2 more => yields_iff hw (h2 more)

theorem Spec.Spliced.short {h : List (List Byte)} {k : Nat → Nat} {S : List Byte} (hs : Spliced h k S) {n : Nat} (hn : ∀ v ∈ h, v.length ≤ n) :
    S.length ≤ n := by
  by_contra hlt
  obtain ⟨v, h1, h2⟩ := hs.byte n (by omega)
  have := hn v (List.mem_of_getElem? h1)
  rw [List.getElem?_eq_none (by omega), List.getElem?_eq_getElem (by omega)] at h2
  cases h2

/-- **C77.** No undefined behaviour, whatever happens to the source, if no version of it is longer than 21474836 bytes. -/
theorem C77_defined {w : World} {j : Job} {c : List Byte} (hw : Setup w j.src j.out c) (events : List Event)
    (hout : ∀ name content, .write name content ∈ events → name ≠ j.out) (hn : ∀ v ∈ versions j.src c events, v.length ≤ 21474836) (u : UB) :
    (runAmong j w events).2 ≠ .undefined u := by
  intro h
  have hs := (runAmong_stands hw events hout).1
  rw [h] at hs
  obtain ⟨R, k, h1, h2⟩ := hs
  have hl := h1.short hn
  have hm : Matches (.undefined u) (assembleBytes j.src R) := by
    rcases h2 with h2 | h2
    · exact h2.2
    · have := h2 []
      rwa [List.append_nil] at this
  have hp : (pieces R).length ≤ 21474836 := by
    rw [pieces_eq]; exact (chunks_length R).trans hl
  obtain ⟨r, hr⟩ := (C35_defined_iff (setup_write hw R) (by omega)).2 (C35_small hp)
  rw [gaia_eq (setup_write hw R)] at hr
  cases ha : assembleBytes j.src R with
  | ok st => rw [ha] at hm; exact absurd hm id
  | err a => rw [ha] at hm; exact absurd hm id
  | ub u' => rw [ha] at hr; cases hr

/-- **C77.** If the source is only appended to (a log, a file that is still being written), the result is that for one of its versions. -/
theorem C77_append {w : World} {j : Job} {c : List Byte} (hw : Setup w j.src j.out c) (events : List Event)
    (hout : ∀ name content, .write name content ∈ events → name ≠ j.out) (hg : Grows (versions j.src c events)) {status : Nat} {text : Str}
    (h : (runAmong j w events).2 = .done status text) :
    ∃ v ∈ versions j.src c events, ∃ binary, Yields w j v status text binary ∧ (runAmong j w events).1.files j.out = some binary := by
  obtain ⟨S, k, binary, h1, h2, h3, h4⟩ := C77_result hw events hout h
  -- `S` is the beginning of every version from which no byte of it comes later
  have pre : ∀ (m : Nat) (v : List Byte), (versions j.src c events)[m]? = some v → (∀ i, i < S.length → k i ≤ m) → S <+: v := by
    intro m v hv hk
    have hb : ∀ i, i < S.length → v[i]? = S[i]? := by
      intro i hi
      obtain ⟨v', k1, k2⟩ := h1.byte i hi
      obtain ⟨t, rfl⟩ := hg _ _ _ _ (hk i hi) k1 hv
      rw [← k2, List.getElem?_append_left]
      by_contra hlt
      rw [List.getElem?_eq_none (by omega), List.getElem?_eq_getElem hi] at k2
      cases k2
    rw [List.prefix_iff_getElem?]
    intro i hi
    rw [hb i hi, List.getElem?_eq_getElem hi]
  rcases h3 with ⟨m, v, k1, k2, k3⟩ | h3
  · obtain rfl := (pre m v k1 k3).eq_of_length_le k2
    exact ⟨S, List.mem_of_getElem? k1, binary, h2, h4⟩
  · obtain ⟨_, ⟨h', v, e, _⟩, _⟩ := runAmong_stands hw events hout
    obtain ⟨t, ht⟩ := pre h'.length v (by rw [e]; simp) (by
      intro i hi
      obtain ⟨v', k1, _⟩ := h1.byte i hi
      have := (List.getElem?_eq_some_iff.1 k1).1
      rw [e] at this
      simp only [List.length_append, List.length_singleton] at this
      omega)
    exact ⟨v, by rw [e]; simp, binary, ht ▸ h3 t, h4⟩

theorem versions_unchanged (src : Str) (c : List Byte) : ∀ (es : List Event), (∀ name content, .write name content ∈ es → name ≠ src) → versions src c es = [c]
  | [], _ => rfl
  | .step a :: es, h => versions_unchanged src c es fun n b hm => h n b (List.mem_cons_of_mem _ hm)
  | .write name content :: es, h => by
    rw [versions_write, if_neg (h name content (by simp))]
    exact versions_unchanged src c es fun n b hm => h n b (List.mem_cons_of_mem _ hm)

/-- **C77.** Programs that touch neither the source nor the output do not matter. -/
theorem C77_unchanged {w : World} {j : Job} {c : List Byte} (hw : Setup w j.src j.out c) (events : List Event)
    (hother : ∀ name content, .write name content ∈ events → name ≠ j.out ∧ name ≠ j.src) {status : Nat} {text : Str}
    (h : (runAmong j w events).2 = .done status text) :
    ∃ w', gaia j.src j.out w = .exited ⟨status, text, w'⟩ ∧ (runAmong j w events).1.files j.out = w'.files j.out := by
  have hv := versions_unchanged j.src c events fun n b hm => (hother n b hm).2
  obtain ⟨v, hm, binary, h1, h2⟩ := C77_append hw events (fun n b hm => (hother n b hm).1) (by
    rw [hv]
    intro a b v v' _ ha hb
    rcases a with _ | a <;> rcases b with _ | b <;> simp at ha hb
    rw [← ha, ← hb]) h
  rw [hv, List.mem_singleton] at hm
  subst hm
  obtain ⟨w', h3, h4⟩ := h1
  have hww : w.write j.src v = w := by
    unfold World.write
    have : (fun n => if n = j.src then some v else w.files n) = w.files := by
      funext n
      split_ifs with e
      · rw [e]; exact hw.source.symm
      · rfl
    rw [this]
  rw [hww] at h3
  exact ⟨w', h3, h2.trans h4.symm⟩

/-! ### Cases -/

/-- The source is overwritten between two reads: half of the old text, half of the new one. -/
def c77Events : List Event :=
  [.step .openSource, .step .createOutput, .step (.read 4), .step .line, .write (b! "p.asm") (b! " INX\n INY\n"), .step (.read 99), .step .line, .step (.read 99),
   .write (b! "q") [], .step .finish, .step .close]

theorem C77_case :
    (runAmong ⟨b! "p.asm", b! "p.bin"⟩ (demo (b! " DEX\n DEY\n")) c77Events).2 =
      .done 0 (b! "Assembly successful.\n2 (0x0002) bytes assembled.\n0 symbols.\n") ∧
    (runAmong ⟨b! "p.asm", b! "p.bin"⟩ (demo (b! " DEX\n DEY\n")) c77Events).1.files (b! "p.bin") = some [0xCA, 0xC8] ∧
    versions (b! "p.asm") (b! " DEX\n DEY\n") c77Events = [b! " DEX\n DEY\n", b! " INX\n INY\n"] := by
  refine ⟨?_, ?_, ?_⟩ <;> decide +kernel

theorem c77_out : ∀ name content, .write name content ∈ c77Events → name ≠ b! "p.bin" := by
  intro name content h
  simp only [c77Events, List.mem_cons, Event.write.injEq, reduceCtorEq, List.not_mem_nil, or_false, false_or] at h
  rcases h with ⟨rfl, _⟩ | ⟨rfl, _⟩ <;> decide

/-- The theorem, applied. -/
example : ∃ S k binary, Spliced (versions (b! "p.asm") (b! " DEX\n DEY\n") c77Events) k S ∧
    Yields (demo (b! " DEX\n DEY\n")) ⟨b! "p.asm", b! "p.bin"⟩ S 0 (b! "Assembly successful.\n2 (0x0002) bytes assembled.\n0 symbols.\n") binary ∧
    (runAmong ⟨b! "p.asm", b! "p.bin"⟩ (demo (b! " DEX\n DEY\n")) c77Events).1.files (b! "p.bin") = some binary := by
  obtain ⟨S, k, binary, h1, h2, _, h3⟩ := C77_result (j := ⟨b! "p.asm", b! "p.bin"⟩) (demo_setup _) c77Events c77_out C77_case.1
  exact ⟨S, k, binary, h1, h2, h3⟩

example : ∀ u, (runAmong ⟨b! "p.asm", b! "p.bin"⟩ (demo (b! " DEX\n DEY\n")) c77Events).2 ≠ .undefined u :=
  C77_defined (j := ⟨b! "p.asm", b! "p.bin"⟩) (demo_setup _) c77Events c77_out (by
    rw [C77_case.2.2]; decide)

/-- A source that is still being written: the result is that for its first version, its last one, or the one between. -/
def c77Log : List Event :=
  [.step .openSource, .step .createOutput, .step (.read 2), .write (b! "p.asm") (b! " DEX\n DEY\n"), .step (.read 99), .step .line, .step .line, .step (.read 99),
   .write (b! "p.asm") (b! " DEX\n DEY\n NOP\n"), .step .finish, .step .close]

theorem C77_append_case : Grows (versions (b! "p.asm") (b! " DEX\n") c77Log) ∧
    (runAmong ⟨b! "p.asm", b! "p.bin"⟩ (demo (b! " DEX\n")) c77Log).2 = .done 0 (b! "Assembly successful.\n2 (0x0002) bytes assembled.\n0 symbols.\n") := by
  refine ⟨?_, by decide +kernel⟩
  have hv : versions (b! "p.asm") (b! " DEX\n") c77Log = [b! " DEX\n", b! " DEX\n DEY\n", b! " DEX\n DEY\n NOP\n"] := by decide +kernel
  rw [hv]
  intro a b v v' hab ha hb
  rcases a with _ | _ | _ | a <;> rcases b with _ | _ | _ | b <;> simp at ha hb hab <;> subst ha hb <;> decide

example : ∃ v ∈ versions (b! "p.asm") (b! " DEX\n") c77Log, ∃ binary, Yields (demo (b! " DEX\n")) ⟨b! "p.asm", b! "p.bin"⟩ v 0
    (b! "Assembly successful.\n2 (0x0002) bytes assembled.\n0 symbols.\n") binary ∧
    (runAmong ⟨b! "p.asm", b! "p.bin"⟩ (demo (b! " DEX\n")) c77Log).1.files (b! "p.bin") = some binary :=
  C77_append (j := ⟨b! "p.asm", b! "p.bin"⟩) (demo_setup _) c77Log (by
    intro name content h
    simp only [c77Log, List.mem_cons, Event.write.injEq, reduceCtorEq, List.not_mem_nil, or_false, false_or] at h
    rcases h with ⟨rfl, _⟩ | ⟨rfl, _⟩ <;> decide) C77_append_case.1 C77_append_case.2

/-- Another program writes to another file. -/
example : ∃ w', gaia (b! "p.asm") (b! "p.bin") (demo (b! " DEX\n")) =
    .exited ⟨0, b! "Assembly successful.\n1 (0x0001) bytes assembled.\n0 symbols.\n", w'⟩ ∧
    some [0xCA] = w'.files (b! "p.bin") :=
  C77_unchanged (j := ⟨b! "p.asm", b! "p.bin"⟩) (demo_setup (b! " DEX\n"))
    [.step .openSource, .step .createOutput, .step (.read 2), .write (b! "q") (b! "?"), .step (.read 99), .step .line, .step (.read 0), .step .finish, .step .close]
    (by
      intro name content h
      simp only [List.mem_cons, Event.write.injEq, reduceCtorEq, List.not_mem_nil, or_false, false_or] at h
      obtain ⟨rfl, _⟩ := h
      decide) (by decide +kernel)

end Gaia

import Verif.Proofs.SpecFacts
import Verif.Spec.Program

/-! Whole runs of gaia on programs of the documented language. -/
set_option linter.unusedSimpArgs false
namespace Gaia
open Spec

/-- Programs without any indexed jump to a label. -/
theorem noForward_of {p : List Stmt} (h : ∀ st ∈ p, ¬ IndexedJump st) : NoForwardIndexedJump p := by
  rintro before st after l rfl hl
  exact absurd (show st.jumpsIndexed.isSome = true by rw [hl]; rfl) (h st (by simp))

/-- A successful run, in the terms of the first pass. -/
theorem assembly_ok {src : List Byte} {p : List Stmt} (fn : Str) (h : IsProgram src p) (hc : check p = none) :
    ∃ s st, pass1 p .init = some s ∧ assembleBytes fn src = .ok st ∧
      s.items = (placed p 1 .init).map (·.item) ∧
      st.total = (s.items.map (·.mode.bytes)).sum ∧ st.symtab.count = s.env.length ∧
      (∀ x, searchSymbol st.symtab x = .ok (match s.env.lookup x with | some v => (v : Int) | none => -2)) ∧
      Written st.out (writesFrom 0 (placed p 1 .init) ++ patches s.env (placed p 1 .init)) ∧
      (Harmless (placed p 1 .init) → st.out.bytes = image (finals s.env (placed p 1 .init))) := by
  obtain ⟨s, a, h1, h2, h3, h4, h5, h6, h7, h8⟩ := (assembleA_spec fn src p h.short h.reads h.noForwardJump).2 hc
  have hs := assemble_sim fn src h.size
  rw [h2] at hs
  obtain ⟨st, k1, k2, k3, k4, k5⟩ := hs
  refine ⟨s, st, h1, k1, h3, by rw [k2, h5], by rw [k3, h4], by rw [← h4]; exact k5, by rw [k4]; exact h6, fun hh => ?_⟩
  rw [k4, h6.bytes, image_finals h7 h8 hh]

/-- `gaia` with its files in place. -/
theorem gaia_eq {w : World} {srcName outName : Str} {src : List Byte} (h : Setup w srcName outName src) :
    gaia srcName outName w = match assembleBytes srcName src with
      | .ok st => .exited ⟨0, report st.total st.symtab.count, w.write outName st.out.bytes⟩
      | .err a => .exited ⟨1, a.fail.out, w.write outName a.out.bytes⟩
      | .ub u => .undefined u := by
  unfold gaia
  rw [h.source]
  simp only [h.creatable, Bool.true_eq_false, if_false, if_neg h.different]
  cases assembleBytes srcName src <;> rfl

theorem succeeds_of {w : World} {srcName outName : Str} {src : List Byte} (h : Setup w srcName outName src) {st : St}
    (hst : assembleBytes srcName src = .ok st) : Succeeds w srcName outName st.out.bytes st.total st.symtab.count := by
  unfold Succeeds
  rw [gaia_eq h, hst]
  rfl

theorem fails_of {w : World} {srcName outName : Str} {src : List Byte} (h : Setup w srcName outName src) {a : Abort}
    (ha : assembleBytes srcName src = .err a) : FailsPrinting w srcName outName a.fail.out := by
  refine ⟨a.out.bytes, ?_⟩
  rw [gaia_eq h, ha]
  rfl

theorem firstFault_line : ∀ (p : List Stmt) (n : Nat) (s : Pass1) {k : Nat} {e : Err}, firstFault p n s = some (k, e) → n ≤ k
  | [], _, _, _, _, h => by simp [firstFault] at h
  | st :: p, n, s, k, e, h => by
    by_cases hst : st = .stop
    · subst hst; simp [firstFault] at h
    · rw [firstFault_cons hst] at h
      split at h
      · obtain ⟨rfl, _⟩ : n = k ∧ _ := by simpa using h
        exact Nat.le_refl _
      · have := firstFault_line p (n + 1) _ h; omega

theorem placed_line : ∀ (p : List Stmt) (n : Nat) (s : Pass1), ∀ e ∈ placed p n s, n ≤ e.line
  | [], n, s, e, he => by simp [placed] at he
  | st :: p, n, s, e, he => by
    by_cases hst : st = .stop
    · subst hst; simp [placed] at he
    · cases h : pass1Stmt s st with
      | none =>
        have : placed (st :: p) n s = [] := by
          cases st <;> first | (exact absurd rfl hst) | (simp only [placed, h])
        rw [this] at he; simp at he
      | some t =>
        rw [placed_cons hst h] at he
        rcases List.mem_append.1 he with he | he
        · unfold newPlaced at he
          rw [List.mem_map] at he
          obtain ⟨_, _, rfl⟩ := he
          exact Nat.le_refl _
        · have := placed_line p (n + 1) t e he; omega

theorem check_line {p : List Stmt} {k : Nat} {e : Err} (h : check p = some (k, e)) : 1 ≤ k := by
  unfold check at h
  split at h
  · rename_i f hf
    obtain rfl : f = (k, e) := by simpa using h
    exact firstFault_line _ _ _ hf
  · obtain ⟨d, hd, h2⟩ := List.exists_of_findSome?_eq_some h
    have := placed_line _ _ _ d hd
    unfold Placed.fault at h2
    split at h2
    · cases h2
    · split at h2
      · obtain ⟨rfl, _⟩ : d.line = k ∧ _ := by simpa using h2
        exact this
      · split_ifs at h2
        obtain ⟨rfl, _⟩ : d.line = k ∧ _ := by simpa using h2
        exact this

/-- **A faulty program** fails with the message the specification asks for. -/
theorem run_error {w : World} {srcName outName : Str} {src : List Byte} {p : List Stmt} (hw : Setup w srcName outName src)
    (hp : IsProgram src p) {k : Nat} {e : Err} (he : check p = some (k, e)) :
    ∃ l x, (lines src)[k - 1]? = some l ∧ Lexes l x ∧ FailsAt w srcName outName src k e (faultPos x e) := by
  obtain ⟨l, x, out, h1, h2, h3⟩ := assembly_error (fn := srcName) hp.size hp.short hp.reads hp.noForwardJump he
  exact ⟨l, x, h1, h2, l, check_line he, h1, fails_of hw h3⟩

/-- **A faultless program** succeeds. -/
theorem run_ok {w : World} {srcName outName : Str} {src : List Byte} {p : List Stmt} (hw : Setup w srcName outName src)
    (hp : IsProgram src p) (hc : check p = none) :
    ∃ s bin, pass1 p .init = some s ∧ s.items = (placed p 1 .init).map (·.item) ∧
      Succeeds w srcName outName bin (s.items.map (·.mode.bytes)).sum s.env.length ∧
      bin = image (writesFrom 0 (placed p 1 .init) ++ patches s.env (placed p 1 .init)) ∧
      (Harmless (placed p 1 .init) → bin = image (finals s.env (placed p 1 .init))) := by
  obtain ⟨s, st, h1, h2, h3, h4, h5, _, h6, h7⟩ := assembly_ok srcName hp hc
  refine ⟨s, st.out.bytes, h1, h3, ?_, h6.bytes, h7⟩
  have := succeeds_of hw h2
  rw [h4, h5] at this
  exact this

end Gaia

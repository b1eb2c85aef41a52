import Verif.Props.Reach
import Verif.Proofs.Result
import Verif.Proofs.BadLine

/-! What a run of gaia on an arbitrary source ends with. -/
set_option linter.unusedSimpArgs false
namespace Gaia
open Spec

/-- A position in a line: of a lexeme, or of a lexical fault. -/
def GoodPos (raw : List Byte) (p : Nat) : Prop :=
  (∃ e, lexemes raw = .error (.at e p)) ∨ ∃ ls x, lexemes raw = .ok ls ∧ (p, x) ∈ ls

theorem GoodPos.le {raw : List Byte} {p : Nat} (h : GoodPos raw p) : p ≤ (cstr raw).length := by
  rcases h with ⟨e, h⟩ | ⟨ls, x, h, hx⟩
  · exact (lexemes_error h).1.2 p rfl
  · obtain ⟨c, c1, _⟩ := lexemes_char h _ hx
    exact Nat.le_of_lt (List.getElem?_eq_some_iff.1 c1).1

theorem GoodPos.of_buffers {l raw : List Byte} {p : Nat} (hb : Buffers raw l) (h : GoodPos raw p) : GoodPos l p := by
  unfold GoodPos at h ⊢
  rwa [lexemes_buffers hb] at h

/-- A saved reference remembers its line. -/
def RefSrc (raws : List (List Byte)) (r : ForwardRef) : Prop :=
  1 ≤ r.lineNum ∧ ∃ raw ls, raws[r.lineNum - 1]? = some raw ∧ lexemes raw = .ok ls ∧
    (r.operandLocation, Lexeme.name r.label) ∈ ls ∧ r.sourceLine = (savedLine (cstr raw)).getD []

theorem RefSrc.diag {raws : List (List Byte)} {r : ForwardRef} (h : RefSrc raws r) (fn : Str) (er : Err) :
    ∃ raw, raws[r.lineNum - 1]? = some raw ∧ GoodPos raw r.operandLocation ∧
      diag r.sourceLine er (some r.operandLocation) fn r.lineNum = diag (cstr raw) er (some r.operandLocation) fn r.lineNum := by
  obtain ⟨_, raw, ls, h1, h2, h3, h4⟩ := h
  obtain ⟨c, c1, c2, c3⟩ := lexemes_char h2 _ h3
  obtain ⟨s, suf, s1, s2, s3, s4⟩ := savedLine_spec c1 c2 c3
  refine ⟨raw, h1, .inr ⟨ls, _, h2, h3⟩, ?_⟩
  · rw [h4, s1]
    exact diag_saved s2 s3 (Nat.le_of_lt s4)

theorem line_refs {fn : Str} {raw : List Byte} {a a' : A} {b : Bool} {raws : List (List Byte)} (h : line fn raw a = .ok (b, a'))
    (h1 : 1 ≤ a.lineNum) (hr : raws[a.lineNum - 1]? = some raw) (ha : ∀ r ∈ a.refs, RefSrc raws r) :
    ∀ r ∈ a'.refs, RefSrc raws r := by
  obtain ⟨ls, a1, hl, _, hd, hc⟩ := line_ok h
  obtain ⟨d1, _, d3, _⟩ := declare_ok hd
  rcases hc with ⟨_, _, rfl⟩ | ⟨_, _, _, rfl⟩ | ⟨_, _, m, _, hi⟩
  · rw [d3]; exact ha
  · simp only [d3]; exact ha
  · rcases instrStep_cases hi with ⟨bs, _, _, rfl⟩ | ⟨p, l, bs, hm, _, _, _, _, rfl⟩
    · simp only [A.emit, d3]; exact ha
    · simp only [A.emit, A.saveRef, d3]
      intro r hr'
      rcases List.mem_append.1 hr' with hr' | hr'
      · exact ha r hr'
      · obtain rfl := List.mem_singleton.1 hr'
        refine ⟨?_, raw, ls, ?_, hl, hm, rfl⟩
        · simp only [mkRef, d1]; exact h1
        · simp only [mkRef, d1]; exact hr

/-- A line error: one that has a message. -/
def IsLineError (e : Err) : Prop := message e ≠ []

instance (e : Err) : Decidable (IsLineError e) := by unfold IsLineError; infer_instance

theorem posAt_le {raw : List Byte} {ls : List (Nat × Lexeme)} (h : lexemes raw = .ok ls) {i p : Nat} (hp : posAt ls i = some p) :
    GoodPos raw p := by
  unfold posAt at hp
  obtain ⟨q, hq, rfl⟩ := Option.map_eq_some_iff.1 hp
  exact .inr ⟨ls, q.2, h, List.mem_of_getElem? hq⟩

theorem step_fault {buf : Str} {ls : List (Nat × Lexeme)} {a : A} {f : Fault} (h : step buf ls a = .error f) :
    IsLineError f.1 ∧ ∀ p, f.2 = some p → ∃ x, (p, x) ∈ ls := by
  unfold step at h
  cases hd : declare ls a with
  | error g =>
    rw [hd] at h
    obtain rfl : g = f := by simpa using h
    unfold declare at hd
    cases hdc : declared a.pc ls with
    | none =>
      rw [hdc] at hd
      simp only at hd
      split at hd <;> cases hd
    | some q =>
      obtain ⟨p, l, v⟩ := q
      rw [hdc] at hd
      simp only at hd
      split at hd
      · obtain rfl := (Except.error.inj hd).symm
        refine ⟨(by simp only [IsLineError]; decide), fun p' hp => ?_⟩
        obtain rfl : p = p' := by simpa using hp
        unfold declared at hdc
        split at hdc
        · obtain ⟨rfl, rfl, rfl⟩ : _ = p ∧ _ = l ∧ _ = v := by simpa using hdc
          exact ⟨_, by simp; left; exact rfl⟩
        · obtain ⟨rfl, rfl, rfl⟩ : _ = p ∧ _ = l ∧ _ = v := by simpa using hdc
          exact ⟨_, by simp; left; exact rfl⟩
        · obtain ⟨rfl, rfl, rfl⟩ : _ = p ∧ _ = l ∧ _ = v := by simpa using hdc
          exact ⟨_, by simp; right; left; exact rfl⟩
        · obtain ⟨rfl, rfl, _⟩ : _ = p ∧ _ = l ∧ _ = v := by simpa using hdc
          exact ⟨_, by simp; left; exact rfl⟩
        · cases hdc
      · cases hd
  | ok a1 =>
    rw [hd] at h
    simp only at h
    split_ifs at h with hs
    cases hm : lastMnem (ls.map (·.2)) with
    | none => rw [hm] at h; cases h
    | some m =>
      rw [hm] at h
      simp only at h
      cases hi : instrStep buf ls m a1 with
      | ok a2 => rw [hi] at h; cases h
      | error g =>
        rw [hi] at h
        obtain rfl : g = f := by simpa using h
        have hmem : ∀ q, operandOf ls = some q → q ∈ ls := fun q hq => List.mem_of_mem_tail (List.mem_of_find?_eq_some hq)
        unfold instrStep at hi
        simp only at hi
        split at hi
        · split_ifs at hi
          obtain rfl := (Except.error.inj hi).symm
          exact ⟨by decide, fun p hp => by cases hp⟩
        · split_ifs at hi
          obtain rfl := (Except.error.inj hi).symm
          exact ⟨by decide, fun p hp => by cases hp⟩
        · rename_i p l ho
          split at hi
          · split_ifs at hi
            · obtain rfl := (Except.error.inj hi).symm
              exact ⟨by decide, fun p hp => by cases hp⟩
            · split at hi
              · obtain rfl := (Except.error.inj hi).symm
                exact ⟨(by simp only [IsLineError]; decide), fun p' hp => ⟨_, (Option.some.inj hp) ▸ hmem _ ho⟩⟩
              · cases hi
          · split_ifs at hi
            · obtain rfl := (Except.error.inj hi).symm
              exact ⟨by decide, fun p hp => by cases hp⟩
            · obtain rfl := (Except.error.inj hi).symm
              exact ⟨(by simp only [IsLineError]; decide), fun p' hp => ⟨_, (Option.some.inj hp) ▸ hmem _ ho⟩⟩
        · split_ifs at hi
          obtain rfl := (Except.error.inj hi).symm
          exact ⟨by decide, fun p hp => by cases hp⟩

/-- How a refused line fails. -/
theorem line_fault {fn : Str} {raw : List Byte} {a : A} {ab : Abort} (h : line fn raw a = .error ab) :
    (∃ e pos, ab.fail = ⟨e, diag (cstr raw) e pos fn a.lineNum⟩ ∧ IsLineError e ∧ ∀ p, pos = some p → GoodPos raw p) ∨
    (lexemes raw = .error .tooMany ∧ ab.fail = ⟨.tooManyTokens, []⟩) := by
  unfold line at h
  cases hl : lexemes raw with
  | error f =>
    rw [hl] at h
    cases f with
    | «at» e pos =>
      obtain rfl := (Except.error.inj h).symm
      obtain ⟨h1, h2⟩ := lexemes_error hl
      refine .inl ⟨e, some pos, rfl, ?_, fun p hp => by obtain rfl := Option.some.inj hp; exact .inl ⟨e, hl⟩⟩
      rcases h2 with rfl | rfl | rfl | rfl <;> decide
    | tooMany =>
      obtain rfl := (Except.error.inj h).symm
      exact .inr ⟨rfl, rfl⟩
  | ok ls =>
    rw [hl] at h
    simp only at h
    cases hs : syn (typeAt (ls.map (·.2))) with
    | error q =>
      obtain ⟨i, e⟩ := q
      rw [hs] at h
      obtain rfl := (Except.error.inj h).symm
      refine .inl ⟨e, _, rfl, ?_, fun p hp => posAt_le hl hp⟩
      have := ((syn_error_iff _ _ _).1 hs).1.error
      rw [this]
      split_ifs <;> decide
    | ok u =>
      rw [hs] at h
      simp only at h
      cases hst : step (cstr raw) ls a with
      | ok r => rw [hst] at h; cases h
      | error f =>
        rw [hst] at h
        obtain rfl := (Except.error.inj h).symm
        obtain ⟨h1, h2⟩ := step_fault hst
        refine .inl ⟨f.1, f.2, rfl, h1, fun p hp => ?_⟩
        obtain ⟨x, hx⟩ := h2 p hp
        exact .inr ⟨ls, x, hl, hx⟩

/-- The failure is one diagnostic for buffer number `k`. -/
def DiagFor (raws : List (List Byte)) (fn : Str) (f : Fail) : Prop :=
  ∃ k raw pos, 1 ≤ k ∧ raws[k - 1]? = some raw ∧ f.out = diag (cstr raw) f.code pos fn k ∧ IsLineError f.code ∧
    ∀ p, pos = some p → GoodPos raw p

/-- The failure is a line with too many lexemes. -/
def Silent (raws : List (List Byte)) (f : Fail) : Prop :=
  ∃ raw ∈ raws, lexemes raw = .error .tooMany ∧ f = ⟨.tooManyTokens, []⟩

theorem runLines_fault {fn : Str} (all : List (List Byte)) : ∀ (rest pre : List (List Byte)) (a : A), all = pre ++ rest →
    a.lineNum = pre.length + 1 → (∀ r ∈ a.refs, RefSrc all r) →
    match runLines fn rest a with
    | .error ab => DiagFor all fn ab.fail ∨ Silent all ab.fail
    | .ok a' => ∀ r ∈ a'.refs, RefSrc all r
  | [], pre, a, _, _, hr => hr
  | raw :: rest, pre, a, hall, hn, hr => by
    have hget : all[a.lineNum - 1]? = some raw := by
      rw [hall, hn]; simp
    unfold runLines
    cases h : line fn raw a with
    | error ab =>
      simp only
      rcases line_fault h with ⟨e, pos, h1, h2, h3⟩ | ⟨h1, h2⟩
      · exact .inl ⟨a.lineNum, raw, pos, by omega, hget, by rw [h1], by rw [h1]; exact h2, h3⟩
      · exact .inr ⟨raw, by rw [hall]; simp, h1, h2⟩
    | ok q =>
      obtain ⟨b, a'⟩ := q
      have hr' := line_refs h (by omega) hget hr
      cases b with
      | true => exact hr'
      | false => exact runLines_fault all rest (pre ++ [raw]) a' (by rw [hall]; simp) (by rw [line_next h, hn]; simp) hr'

theorem patch_fault {fn : Str} {env : Env} (raws : List (List Byte)) : ∀ (rs : List ForwardRef) (out : OutFile),
    (∀ r ∈ rs, RefSrc raws r) → ∀ ab, patch fn env rs out = .error ab → DiagFor raws fn ab.fail
  | [], out, _, ab, h => by cases h
  | r :: rs, out, hr, ab, h => by
    have key : ∀ e, IsLineError e → DiagFor raws fn ⟨e, diag r.sourceLine e (some r.operandLocation) fn r.lineNum⟩ := by
      intro e he
      obtain ⟨raw, h1, h2, h3⟩ := (hr r (by simp)).diag fn e
      exact ⟨r.lineNum, raw, some r.operandLocation, (hr r (by simp)).1, h1, h3, he, fun p hp => by
        obtain rfl := Option.some.inj hp; exact h2⟩
    have hr' : ∀ x ∈ rs, RefSrc raws x := fun x hx => hr x (by simp [hx])
    unfold patch at h
    split at h
    · obtain rfl := (Except.error.inj h).symm
      exact key _ (by decide)
    · split_ifs at h
      · split at h
        · obtain rfl := (Except.error.inj h).symm
          exact key _ (by decide)
        · exact patch_fault raws rs _ hr' ab h
      · exact patch_fault raws rs _ hr' ab h

/-- **Any source** of fewer than 21474836 lines: success, or one diagnostic for a buffer, or silence for too many lexemes. -/
theorem assembleBytes_cases (fn : Str) (src : List Byte) (hsz : Sized src) :
    (∃ st, assembleBytes fn src = .ok st) ∨
    ∃ ab, assembleBytes fn src = .err ab ∧ (DiagFor (chunks src) fn ab.fail ∨ Silent (chunks src) ab.fail) := by
  have hs := assemble_sim fn src hsz
  have hr := runLines_fault (fn := fn) (chunks src) (chunks src) [] A.init rfl rfl (by simp [A.init])
  unfold assembleA at hs
  cases hrun : runLines fn (chunks src) A.init with
  | error ab =>
    rw [hrun] at hs hr
    exact .inr ⟨ab, hs, hr⟩
  | ok a =>
    rw [hrun] at hs hr
    simp only at hs hr
    cases hp : patch fn a.env a.refs a.out with
    | error ab =>
      rw [hp] at hs
      exact .inr ⟨ab, hs, .inl (patch_fault _ _ _ hr ab hp)⟩
    | ok out =>
      rw [hp] at hs
      obtain ⟨st, h, _⟩ := hs
      exact .inl ⟨st, h⟩

theorem run_cases {w : World} {srcName outName : Str} {src : List Byte} (hw : Setup w srcName outName src)
    (hsz : Sized src) :
    (∃ bin t n, Succeeds w srcName outName bin t n) ∨
    (∃ k raw e pos, 1 ≤ k ∧ (chunks src)[k - 1]? = some raw ∧ IsLineError e ∧ (∀ p, pos = some p → GoodPos raw p) ∧
      FailsPrinting w srcName outName (diag (cstr raw) e pos srcName k)) ∨
    (∃ raw ∈ chunks src, lexemes raw = .error .tooMany ∧ FailsPrinting w srcName outName []) := by
  rcases assembleBytes_cases srcName src hsz with ⟨st, h⟩ | ⟨ab, h, ⟨k, raw, pos, h1, h2, h3, h4, h5⟩ | ⟨raw, h1, h2, h3⟩⟩
  · exact .inl ⟨_, _, _, succeeds_of hw h⟩
  · refine .inr (.inl ⟨k, raw, ab.fail.code, pos, h1, h2, h4, h5, ?_⟩)
    have := fails_of hw h
    rwa [h3] at this
  · refine .inr (.inr ⟨raw, h1, h2, ?_⟩)
    have := fails_of hw h
    rwa [h3] at this

end Gaia

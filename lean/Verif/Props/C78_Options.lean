import Verif.Model.Options

/-! C78: the options gaia knows. The claim is false: the table of options has no end. -/
namespace Gaia
open Options

/-- The option of the manual: `-o FILE`, `--output=FILE`. -/
def outputOption : Entry := ⟨some (b! "output"), 111, some (b! "FILE"), 0, some (b! "Place assembled binary into <FILE>"), 0⟩

/-- An entry argp takes for the end of the table: no name, key, explanation and group. -/
def IsEnd (e : Entry) : Prop := e.name = none ∧ e.key = 0 ∧ e.doc = none ∧ e.group = 0

theorem isEnd_iff (e : Entry) : e.isEnd = true ↔ IsEnd e := by
  unfold Entry.isEnd IsEnd
  simp only [Bool.and_eq_true, beq_iff_eq, Option.isNone_iff_eq_none]
  constructor
  · rintro ⟨⟨⟨a, b⟩, c⟩, d⟩; exact ⟨b, a, c, d⟩
  · rintro ⟨b, a, c, d⟩; exact ⟨⟨⟨a, b⟩, c⟩, d⟩

theorem scan_before : ∀ (before : List Entry), (∀ x ∈ before, ¬ IsEnd x) → ∀ more, scan (before ++ more) = (scan more >>= fun rest => pure (before ++ rest))
  | [], _, more => by
    show scan more = _
    cases scan more <;> rfl
  | e :: es, h, more => by
    have he : e.isEnd = false := by
      rw [Bool.eq_false_iff]; intro h'; exact h e (by simp) ((isEnd_iff e).1 h')
    have hc : scan (e :: (es ++ more)) = (scan (es ++ more) >>= fun rest => pure (e :: rest)) := by
      rw [scan, he]; rfl
    show scan (e :: (es ++ more)) = _
    rw [hc, scan_before es (fun x hx => h x (by simp [hx])) more]
    cases scan more <;> rfl

/-- **C78** (the claim is false). On every command line, looking for the options reads behind the table: the behaviour is undefined. -/
theorem C78_undefined : scan options = .ub .outOfBounds := by decide

/-- **C78**, as far as it goes. `after` is whatever the memory behind the table holds, read as entries. argp knows the documented option and nothing else if
and only if the first entry there looks like an end. In general it knows the entries up to the first one that does (`C78_more`). Missing: that there
is such an entry, which nothing in the program ensures. -/
theorem C78_known_partial (after : List Entry) : scan (options ++ after) = .ok [outputOption] ↔ ∃ e more, after = e :: more ∧ IsEnd e := by
  have h0 : scan (options ++ after) = (scan after >>= fun rest => pure (outputOption :: rest)) :=
    scan_before options (by intro x hx; rw [options, List.mem_singleton] at hx; subst hx; intro h; cases h.1) after
  rw [h0]
  cases after with
  | nil => exact ⟨fun h => (nomatch h), fun ⟨_, _, h, _⟩ => (nomatch h)⟩
  | cons e more =>
    unfold scan
    by_cases he : e.isEnd = true
    · rw [if_pos he]; exact ⟨fun _ => ⟨e, more, rfl, (isEnd_iff e).1 he⟩, fun _ => rfl⟩
    · rw [if_neg he]
      constructor
      · intro h
        cases hs : scan more with
        | ok r => rw [hs] at h; injection h with h; injection h with _ h; cases h
        | err f => rw [hs] at h; cases h
        | ub u => rw [hs] at h; cases h
      · rintro ⟨e', more', heq, h⟩
        injection heq with h1 h2
        subst h1
        exact absurd ((isEnd_iff e).2 h) he

/-- **C78.** What is behind the table up to the first entry that looks like an end is taken for further options. -/
theorem C78_more {before more : List Entry} {e : Entry} (h : ∀ x ∈ before, ¬ IsEnd x) (he : IsEnd e) :
    scan (options ++ before ++ e :: more) = .ok (outputOption :: before) := by
  have h0 : ∀ x ∈ options ++ before, ¬ IsEnd x := by
    intro x hx
    rcases List.mem_append.1 hx with hx | hx
    · rw [options, List.mem_singleton] at hx; subst hx; intro h; cases h.1
    · exact h x hx
  rw [scan_before _ h0]
  unfold scan
  rw [if_pos ((isEnd_iff e).2 he)]
  simp only [C.ok_bind, List.append_nil]
  rfl

/-- **C78.** With the entry that the manual of argp asks for, the claim would hold. -/
theorem C78_repaired (after : List Entry) : scan (options ++ [⟨none, 0, none, 0, none, 0⟩] ++ after) = .ok [outputOption] := by
  rw [List.append_assoc]
  exact (C78_known_partial _).2 ⟨_, _, rfl, rfl, rfl, rfl, rfl⟩

/-- Memory behind the table that reads as an option `-x`: gaia has it, too. -/
example : scan (options ++ [⟨some (b! "xtra"), 120, none, 0, none, 0⟩, ⟨none, 0, none, 0, none, 0⟩]) =
    .ok [outputOption, ⟨some (b! "xtra"), 120, none, 0, none, 0⟩] :=
  C78_more (before := [⟨some (b! "xtra"), 120, none, 0, none, 0⟩]) (more := []) (by
    intro x hx; rw [List.mem_singleton] at hx; subst hx; intro h; cases h.1) ⟨rfl, rfl, rfl, rfl⟩

end Gaia

import Verif.Props.Example

/-! C05: comments, blanks and line endings carry no meaning. -/
namespace Gaia
open Spec

/-- **C05.** Two source files whose lines (of at most 126 characters) correspond one by one, each pair having the same
text up to comments, the amount of blanks and tabs, and a final CR, or being the same lexemes with or without
blanks between them, have the same exit status and output file, and on success the same report. Lines that are
errors are included. -/
theorem C05_layout {w w' : World} {srcName outName : Str} {src src' : List Byte}
    (hw : Setup w srcName outName src) (hw' : Setup w' srcName outName src') (hs : Sized src)
    (hs' : Sized src') (hl : ∀ l ∈ lines src, l.length ≤ 126) (hl' : ∀ l ∈ lines src', l.length ≤ 126)
    (h : List.Forall₂ (fun l l' => LineAlike Eq l l' ∨ SameLexemes l l') (lines src) (lines src')) :
    SameResult srcName outName w w' := by
  refine run_lines hw hw' hs hs' hl hl' h ?_
  rintro l l' (h | h)
  · exact kinds_alike (fun c c' h => by rw [h]; rfl) h
  · exact kinds_sameLexemes h

/-! The single layout freedoms are instances of `LineAlike Eq`. -/

theorem alike_refl (s : Str) : Alike Eq s s := by
  induction s with
  | nil => exact .trail [] [] (by simp [Blanks]) (by simp [Blanks])
  | cons c s ih =>
    by_cases hb : c = 32 ∨ c = 9
    · exact .blanks [c] [c] s s (by simpa [Blanks] using hb) (by simpa [Blanks] using hb) (by simp) (by simp) ih
    · exact .char c c s s rfl (not_or.1 hb) (not_or.1 hb) ih

theorem lineAlike_code {l l' : List Byte} (h : code l = code l') : LineAlike Eq l l' :=
  ⟨[], [], code l, code l', rfl, rfl, by simp [Blanks], by simp [Blanks], by rw [h]; exact alike_refl _⟩

/-- A comment changes nothing. -/
theorem C05_comment (l c : List Byte) : LineAlike Eq (l ++ 59 :: c) l := by
  refine lineAlike_code ?_
  unfold code
  induction l with
  | nil => simp
  | cons d l ih =>
    rw [List.cons_append, List.takeWhile_cons, List.takeWhile_cons, ih]

theorem code_cr (l : List Byte) : code (l ++ [13]) = code l := by
  unfold code
  induction l with
  | nil => simp
  | cons d l ih =>
    rw [List.cons_append, List.takeWhile_cons, List.takeWhile_cons, ih]

/-- A CR at the end of the line changes nothing. -/
theorem C05_cr (l : List Byte) : LineAlike Eq (l ++ [13]) l := lineAlike_code (code_cr l)

/-- Blanks and tabs at the start of a line change nothing. -/
theorem C05_indent (b l : List Byte) (hb : Blanks b) : LineAlike Eq (b ++ l) l := by
  refine ⟨b, [], code l, code l, ?_, rfl, hb, by simp [Blanks], alike_refl _⟩
  unfold code
  induction b with
  | nil => rfl
  | cons c b ih =>
    rw [List.cons_append, List.takeWhile_cons, if_pos, ih fun x hx => hb x (by simp [hx])]
    · rfl
    · rcases hb c (by simp) with rfl | rfl <;> rfl

theorem alike_append {s s' : Str} (p : Str) (h : Alike Eq s s') : Alike Eq (p ++ s) (p ++ s') := by
  induction p with
  | nil => exact h
  | cons c p ih =>
    by_cases hb : c = 32 ∨ c = 9
    · exact .blanks [c] [c] _ _ (by simpa [Blanks] using hb) (by simpa [Blanks] using hb) (by simp) (by simp) ih
    · exact .char c c _ _ rfl (not_or.1 hb) (not_or.1 hb) ih

theorem code_append_of {p s : List Byte} (hp : code p = p) : code (p ++ s) = p ++ code s := by
  have h : ∀ x ∈ p, (!(x == 13 || x == 10 || x == 59 || x == 0 || x == 255)) = true := by
    intro x hx
    rw [← hp] at hx
    exact takeWhile_all _ _ x hx
  unfold code
  rw [List.takeWhile_append_of_pos h]

theorem code_blanks {b : List Byte} (hb : Blanks b) : code b = b := by
  have := List.takeWhile_append_of_pos (p := fun c : Byte => !(c == 13 || c == 10 || c == 59 || c == 0 || c == 255)) (l₁ := b)
    (l₂ := []) (by intro x hx; rcases hb x hx with rfl | rfl <;> rfl)
  rw [List.append_nil, List.takeWhile_nil, List.append_nil] at this
  exact this

/-- The amount of blanks and tabs inside a line does not matter. -/
theorem C05_blanks (p b b' s : List Byte) (hp : code p = p) (hb : Blanks b) (hb' : Blanks b') (hne : b ≠ []) (hne' : b' ≠ []) :
    LineAlike Eq (p ++ (b ++ s)) (p ++ (b' ++ s)) := by
  refine ⟨[], [], code (p ++ (b ++ s)), code (p ++ (b' ++ s)), rfl, rfl, by simp [Blanks], by simp [Blanks], ?_⟩
  rw [code_append_of hp, code_append_of hp, code_append_of (code_blanks hb), code_append_of (code_blanks hb')]
  exact alike_append p (.blanks b b' _ _ hb hb' hne hne' (alike_refl _))

/-- Blanks at the end of a line change nothing. -/
theorem C05_trailing (l b : List Byte) (hl : code l = l) (hb : Blanks b) : LineAlike Eq (l ++ b) l := by
  refine ⟨[], [], code (l ++ b), code l, rfl, rfl, by simp [Blanks], by simp [Blanks], ?_⟩
  rw [code_append_of hl, code_blanks hb, hl]
  have := alike_append l (.trail b [] hb (by simp [Blanks]))
  rwa [List.append_nil] at this

/-! Line endings. -/

/-- The same text with CRLF line endings. -/
def toCRLF (s : List Byte) : List Byte := s.flatMap fun c => if c = 10 then [13, 10] else [c]

theorem lines_cons_ne {c : Byte} (h : c ≠ 10) (s : List Byte) : lines (c :: s) = match lines s with
    | [] => [[c]]
    | l :: ls => (c :: l) :: ls := by
  have g : lines (c :: s) = if c = 10 then [] :: lines s else match lines s with
      | [] => [[c]]
      | l :: ls => (c :: l) :: ls := rfl
  rw [g, if_neg h]

theorem lines_append_nl : ∀ (s : List Byte), s ≠ [] → s.getLast? ≠ some 10 → lines (s ++ [10]) = lines s
  | [], h, _ => absurd rfl h
  | [c], _, h => by
    have hc : c ≠ 10 := by rintro rfl; exact h rfl
    simp [lines, hc]
  | c :: d :: s, _, h => by
    have ih := lines_append_nl (d :: s) (by simp) (by simpa using h)
    have g : ∀ s, lines (c :: s) = if c = 10 then [] :: lines s else match lines s with
      | [] => [[c]]
      | l :: ls => (c :: l) :: ls := fun s => rfl
    rw [List.cons_append, g, g (d :: s), ih]

theorem crlf_lines : ∀ (s : List Byte), List.Forall₂ (fun l' l => l' = l ∨ l' = l ++ [13]) (lines (toCRLF s)) (lines s)
  | [] => .nil
  | c :: s => by
    have ih := crlf_lines s
    by_cases hc : c = 10
    · subst hc
      have : toCRLF (10 :: s) = 13 :: 10 :: toCRLF s := rfl
      rw [this, lines_cons_ne (by decide)]
      simp only [lines, if_true]
      exact .cons (.inr rfl) ih
    · have : toCRLF (c :: s) = c :: toCRLF s := by unfold toCRLF; rw [List.flatMap_cons, if_neg hc]; rfl
      rw [this, lines_cons_ne hc, lines_cons_ne hc]
      cases hl : lines s with
      | nil =>
        rw [hl] at ih
        cases hl' : lines (toCRLF s) with
        | nil => exact .cons (.inl rfl) .nil
        | cons _ _ => rw [hl'] at ih; cases ih
      | cons l ls =>
        rw [hl] at ih
        cases hl' : lines (toCRLF s) with
        | nil => rw [hl'] at ih; cases ih
        | cons l' ls' =>
          rw [hl'] at ih
          cases ih with
          | cons h1 h2 =>
            refine .cons ?_ h2
            rcases h1 with rfl | rfl
            · exact .inl rfl
            · exact .inr rfl

/-- **C05**, line endings: a source with LF line endings and the same source with CRLF give the same result. -/
theorem C05_crlf {w w' : World} {srcName outName : Str} {src : List Byte}
    (hw : Setup w srcName outName src) (hw' : Setup w' srcName outName (toCRLF src)) (hs : Sized (toCRLF src))
    (hl : ∀ l ∈ lines src, l.length ≤ 125) : SameResult srcName outName w w' := by
  have hc := crlf_lines src
  have hlen : src.Sublist (toCRLF src) := by
    unfold toCRLF
    clear hw hw' hs hl hc
    induction src with
    | nil => simp
    | cons c s ih =>
      rw [List.flatMap_cons]
      split_ifs with h
      · subst h; exact .cons _ (.cons_cons _ ih)
      · exact .cons_cons _ ih
  refine C05_layout hw hw' (sized_sublist hlen hs) hs (fun l h => by have := hl l h; omega) ?_ ?_
  · intro l' hl'
    obtain ⟨k, hk⟩ := List.getElem?_of_mem hl'
    obtain ⟨l, h1, h2⟩ := forall₂_get hc hk
    have := hl l (List.mem_of_getElem? h1)
    rcases h2 with rfl | rfl <;> simp <;> omega
  · refine hc.flip.imp fun l l' h => .inl ?_
    rcases h with rfl | rfl
    · exact lineAlike_code rfl
    · exact lineAlike_code (code_cr l).symm

/-- **C05**, last line: the final newline may be missing. -/
theorem C05_final_newline {w w' : World} {srcName outName : Str} {src : List Byte}
    (hw : Setup w srcName outName src) (hw' : Setup w' srcName outName (src ++ [10])) (hs : Sized (src ++ [10]))
    (hl : ∀ l ∈ lines src, l.length ≤ 126) (hne : src ≠ []) (hlast : src.getLast? ≠ some 10) : SameResult srcName outName w w' := by
  have e := lines_append_nl src hne hlast
  refine C05_layout hw hw' (sized_sublist (List.sublist_append_left _ _) hs) hs hl (by rw [e]; exact hl) ?_
  rw [e]
  exact List.forall₂_same.2 fun l _ => .inl (lineAlike_code rfl)

/-- Non-vacuity: comments, tabs and CRs against none. -/
example : SameResult (b! "p.asm") (b! "p.bin") (demo (b! "L:\tLDA   $10 , X ; load\r\n\tJMP L"))
    (demo (b! "L: LDA $10 , X\nJMP L\n")) := by
  refine C05_layout (demo_setup _) (demo_setup _) (by decide) (by decide) (by decide +kernel) (by decide +kernel) ?_
  have h1 : lines (b! "L:\tLDA   $10 , X ; load\r\n\tJMP L") = [b! "L:\tLDA   $10 , X ; load\r", b! "\tJMP L"] := by decide +kernel
  have h2 : lines (b! "L: LDA $10 , X\nJMP L\n") = [b! "L: LDA $10 , X", b! "JMP L"] := by decide +kernel
  rw [h1, h2]
  refine .cons (.inl ?_) (.cons (.inl (C05_indent [9] (b! "JMP L") (by simp [Blanks]))) .nil)
  refine ⟨[], [], code (b! "L:\tLDA   $10 , X ; load\r"), code (b! "L: LDA $10 , X"), rfl, rfl, by simp [Blanks], by simp [Blanks], ?_⟩
  have e1 : code (b! "L:\tLDA   $10 , X ; load\r") = b! "L:" ++ ([9] ++ (b! "LDA" ++ ([32, 32, 32] ++ (b! "$10 , X" ++ [32])))) := by
    decide +kernel
  have e2 : code (b! "L: LDA $10 , X") = b! "L:" ++ ([32] ++ (b! "LDA" ++ ([32] ++ (b! "$10 , X" ++ [])))) := by decide +kernel
  rw [e1, e2]
  refine alike_append _ (.blanks _ _ _ _ (by simp [Blanks]) (by simp [Blanks]) (by simp) (by simp) (alike_append _ ?_))
  exact .blanks _ _ _ _ (by simp [Blanks]) (by simp [Blanks]) (by simp) (by simp)
    (alike_append _ (.trail _ _ (by simp [Blanks]) (by simp [Blanks])))

example : demoRun (b! "L:\tLDA   $10 , X ; load\r\n\tJMP L") =
    some (0, b! "Assembly successful.\n5 (0x0005) bytes assembled.\n1 symbols.\n", some [0xB5, 0x10, 0x4C, 0, 0]) := by decide +kernel

end Gaia

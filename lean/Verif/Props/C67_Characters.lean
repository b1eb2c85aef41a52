import Verif.Props.C63_Origins

/-!
C67: nothing in a line is skipped, except blanks and comments: a character that has no place in the language is refused wherever it stands.
-/
namespace Gaia.Spec
open Gaia

/-- The characters of the language, outside comments: letters, digits, blanks, tabs and `_` `#` `(` `)` `,` `=` `*` `$` `%` `.` `:`. -/
def known (c : Byte) : Bool :=
  isAlpha c || isDigit c || [32, 9, 95, 35, 40, 41, 44, 61, 42, 36, 37, 46, 58].contains c

end Gaia.Spec

namespace Gaia
open Spec Spec.Reference

namespace Chars

theorem digit_known : ∀ c : Byte, (digitValue c).isSome = true → known c = true := by decide +kernel

theorem isDigitOf_known {b : Nat} {c : Byte} (h : isDigitOf b c = true) : known c = true := by
  refine digit_known c ?_
  unfold isDigitOf at h
  cases hd : digitValue c with
  | none => rw [hd] at h; cases h
  | some v => rfl

theorem wordChar_known : ∀ c : Byte, wordChar c = true → known c = true := by decide +kernel
theorem isAlpha_known : ∀ c : Byte, isAlpha c = true → known c = true := by decide +kernel
theorem punct_known : ∀ c : Byte, (punctLexeme c).isSome = true → known c = true := by decide +kernel

theorem takeWhile_take {p : Byte → Bool} (s : Str) : s.take (s.takeWhile p).length = s.takeWhile p := by
  induction s with
  | nil => rfl
  | cons c s ih => by_cases h : p c <;> simp [h, ih]

theorem takeWhile_known {p : Byte → Bool} (hp : ∀ c, p c = true → known c = true) (s : Str) : ∀ c ∈ s.takeWhile p, known c = true :=
  fun c hc => hp c (List.mem_takeWhile_imp hc)

theorem takeWhile_le {p : Byte → Bool} (s : Str) : (s.takeWhile p).length ≤ s.length := (List.takeWhile_sublist p).length_le

/-- A lexeme consists of known characters. -/
theorem lexeme_known {s : Str} {n : Nat} {x : Lexeme} (h : lexeme s = .ok (n, x)) :
    0 < n ∧ n ≤ s.length ∧ ∀ c ∈ s.take n, known c = true := by
  have lit : ∀ (b k : Nat) (t : Str), literal b k t = .ok (n, x) → n = k + (t.takeWhile (isDigitOf b)).length ∧ t.takeWhile (isDigitOf b) ≠ [] := by
    intro b k t h
    unfold Reference.literal at h
    dsimp only at h
    split at h
    · cases h
    · split at h
      · cases h
      · rename_i hne
        split at h
        · cases h
        · cases h
          exact ⟨rfl, hne⟩
  cases s with
  | nil => cases h
  | cons c s =>
    unfold lexeme at h
    dsimp only at h
    cases hp : punctLexeme c with
    | some y =>
      rw [hp] at h
      cases h
      refine ⟨by omega, by simp, ?_⟩
      intro d hd
      rw [List.take_succ_cons, List.take_zero, List.mem_singleton] at hd
      subst hd
      exact punct_known d (by rw [hp]; rfl)
    | none =>
      rw [hp] at h
      dsimp only at h
      split at h
      · rename_i ha
        unfold Reference.word at h
        dsimp only at h
        split at h
        · cases h
        · split at h
          · have e : n = ((c :: s).takeWhile wordChar).length := by cases h; rfl
            subst e
            refine ⟨?_, takeWhile_le _, ?_⟩
            · have : wordChar c = true := by unfold wordChar isAlnum; simp [ha]
              rw [List.takeWhile_cons, if_pos this]
              exact Nat.succ_pos _
            · rw [takeWhile_take]
              exact takeWhile_known wordChar_known _
          · cases h
      · split at h
        · rename_i hc
          obtain ⟨rfl, h2⟩ := lit _ _ _ h
          refine ⟨by omega, by have := takeWhile_le (p := isDigitOf 16) s; simp only [List.length_cons]; omega, ?_⟩
          rw [Nat.add_comm 1, List.take_succ_cons, takeWhile_take]
          intro d hd
          rcases List.mem_cons.1 hd with rfl | hd
          · subst hc; decide
          · exact takeWhile_known (fun _ => isDigitOf_known) _ d hd
        · split at h
          · rename_i hc
            obtain ⟨rfl, h2⟩ := lit _ _ _ h
            refine ⟨by omega, by have := takeWhile_le (p := isDigitOf 2) s; simp only [List.length_cons]; omega, ?_⟩
            rw [Nat.add_comm 1, List.take_succ_cons, takeWhile_take]
            intro d hd
            rcases List.mem_cons.1 hd with rfl | hd
            · subst hc; decide
            · exact takeWhile_known (fun _ => isDigitOf_known) _ d hd
          · split at h
            · obtain ⟨rfl, h2⟩ := lit _ _ _ h
              refine ⟨?_, by have := takeWhile_le (p := isDigitOf 10) (c :: s); omega, ?_⟩
              · have := List.length_pos_of_ne_nil h2
                omega
              · rw [Nat.zero_add, takeWhile_take]
                exact takeWhile_known (fun _ => isDigitOf_known) _
            · split at h
              · rename_i hc
                unfold Reference.directive at h
                dsimp only at h
                split at h
                · cases h
                · split at h
                  · cases h
                  · split at h
                    · have e : n = 1 + (s.takeWhile isAlpha).length := by cases h; rfl
                      subst e
                      refine ⟨by omega, by have := takeWhile_le (p := isAlpha) s; simp only [List.length_cons]; omega, ?_⟩
                      rw [Nat.add_comm 1, List.take_succ_cons, takeWhile_take]
                      intro d hd
                      rcases List.mem_cons.1 hd with rfl | hd
                      · subst hc; decide
                      · exact takeWhile_known isAlpha_known _ d hd
                    · cases h
              · cases h

theorem map_ok {ε α β} {f : α → β} {r : Except ε α} {y : β} (h : r.map f = .ok y) : ∃ a, r = .ok a := by
  cases r with
  | error e => cases h
  | ok a => exact ⟨a, rfl⟩

theorem lexemesFrom_known : ∀ (fuel count off : Nat) (t : Str) (ls : List (Nat × Lexeme)), t.length < fuel →
    lexemesFrom fuel count off t = .ok ls → ∀ c ∈ t, known c = true
  | 0, _, _, t, _, hf, _ => by omega
  | fuel + 1, count, off, t, ls, hf, h => by
    unfold lexemesFrom at h
    dsimp only at h
    generalize hb : t.takeWhile (fun c => c == 32 || c == 9) = bl at h
    have ht : t = bl ++ t.drop bl.length := by
      conv_lhs => rw [← List.takeWhile_append_dropWhile (p := fun c : Byte => c == 32 || c == 9) (l := t), hb]
      congr 1
      conv_rhs => rw [← List.takeWhile_append_dropWhile (p := fun c : Byte => c == 32 || c == 9) (l := t), hb]
      simp
    have hbl : ∀ c ∈ bl, known c = true := by
      rw [← hb]
      exact takeWhile_known (by decide +kernel) t
    generalize hs : t.drop bl.length = s at h ht
    have hsl : s.length ≤ t.length := by rw [ht]; simp
    suffices hk : ∀ c ∈ s, known c = true by
      rw [ht]
      intro c hc
      rcases List.mem_append.1 hc with hc | hc
      · exact hbl c hc
      · exact hk c hc
    by_cases hse : s = []
    · rw [hse]; simp
    rw [if_neg hse] at h
    cases hx : lexeme s with
    | error f => rw [hx] at h; cases h
    | ok q =>
      obtain ⟨n, x⟩ := q
      rw [hx] at h
      dsimp only at h
      obtain ⟨h0, h1, h2⟩ := lexeme_known hx
      have hrest : ∀ c ∈ s.drop n, known c = true := by
        have hl : (s.drop n).length < fuel := by rw [List.length_drop]; omega
        split at h
        · cases h
        · split at h
          · rename_i h58
            split at h
            · obtain ⟨ls', h'⟩ := map_ok h
              have := lexemesFrom_known fuel _ _ _ _ (by rw [List.length_tail]; omega) h'
              cases hd : s.drop n with
              | nil => simp
              | cons d r =>
                rw [hd] at h58 this
                cases h58
                intro c hc
                rcases List.mem_cons.1 hc with rfl | hc
                · decide
                · exact this c hc
            · cases h
          · obtain ⟨ls', h'⟩ := map_ok h
            exact lexemesFrom_known fuel _ _ _ _ hl h'
      intro c hc
      rw [← List.take_append_drop n s] at hc
      rcases List.mem_append.1 hc with hc | hc
      · exact h2 c hc
      · exact hrest c hc

theorem lexemesOf_known {piece : List Byte} {ls : List (Nat × Lexeme)} (h : lexemesOf piece = .ok ls) : ∀ c ∈ code piece, known c = true :=
  lexemesFrom_known _ _ _ _ _ (Nat.lt_succ_self _) h

/-- Every piece that is reached can be cut into lexemes. -/
theorem reached_lexes {fn : Str} {piece : List Byte} {post : List (List Byte)} : ∀ {pre : List (List Byte)} {s s' : State},
    runPieces fn (pre ++ piece :: post) s = .ok s' → (∀ q ∈ pre, stmtOf q ≠ some .stop) → ∃ ls st odd, lexemesOf piece = .ok ls ∧ statement (ls.map (·.2)) = .ok (st, odd)
  | [], s, s', h, _ => by
    rw [List.nil_append, Org.runPieces_cons] at h
    cases h1 : lexemesOf piece with
    | error f => rw [h1] at h; cases f <;> cases h
    | ok ls =>
      rw [h1] at h
      dsimp only at h
      cases h2 : statement (ls.map (·.2)) with
      | error f => rw [h2] at h; cases h
      | ok q => exact ⟨ls, q.1, q.2, rfl, h2⟩
  | p :: pre, s, s', h, hp => by
    rw [List.cons_append, Org.runPieces_cons] at h
    have hne := hp p (by simp)
    unfold stmtOf at hne
    cases h1 : lexemesOf p with
    | error f => rw [h1] at h; cases f <;> cases h
    | ok ls =>
      rw [h1] at h hne
      dsimp only at h hne
      cases h2 : statement (ls.map (·.2)) with
      | error f => rw [h2] at h; cases h
      | ok q =>
        obtain ⟨st, odd⟩ := q
        rw [h2] at h hne
        dsimp only at h hne
        cases h3 : execute (p.takeWhile (· != 0)) ls odd s st with
        | error f => rw [h3] at h; cases h
        | ok t =>
          rw [h3] at h
          dsimp only at h
          rw [if_neg (fun e => hne (by rw [e]))] at h
          exact reached_lexes h fun q hq => hp q (by simp [hq])

end Chars

/-- **C67.** If gaia succeeds, every line up to `.END` has, outside its comment, no character but those of the language. -/
theorem C67_characters {w : World} {srcName outName : Str} {src : List Byte} (hw : Setup w srcName outName src) (hs : Sized src)
    {bin : List Byte} {total symbols : Nat} (h : Succeeds w srcName outName bin total symbols)
    {pre post : List (List Byte)} {piece : List Byte} (hp : pieces src = pre ++ piece :: post) (hend : ∀ q ∈ pre, stmtOf q ≠ some .stop) :
    ∀ c ∈ code piece, known c = true := by
  obtain ⟨s, W, h1, _⟩ := (C57_success hw hs _ _ _).1 h
  rw [hp] at h1
  obtain ⟨ls, st, odd, h2, _⟩ := Chars.reached_lexes h1 hend
  exact Chars.lexemesOf_known h2

/-- **C67, refused.** A source with any other character in a line, outside a comment and not behind `.END`, is refused: exit status 1. -/
theorem C67_refused {w : World} {srcName outName : Str} {src : List Byte} (hw : Setup w srcName outName src) (hs : Sized src)
    {pre post : List (List Byte)} {piece : List Byte} (hp : pieces src = pre ++ piece :: post) (hend : ∀ q ∈ pre, stmtOf q ≠ some .stop)
    {c : Byte} (hc : c ∈ code piece) (hk : known c = false) : ∃ text bin, FailsLeaving w srcName outName text bin := by
  by_cases h : ∃ bin total symbols, Succeeds w srcName outName bin total symbols
  · obtain ⟨bin, total, symbols, h⟩ := h
    rw [C67_characters hw hs h hp hend c hc] at hk
    cases hk
  · cases h1 : runPieces srcName (pieces src) .init with
    | error f => exact ⟨f.1, image f.2, (C57_failure hw hs _ _).2 ⟨f.2, rfl, .inl h1⟩⟩
    | ok s =>
      cases h2 : resolve srcName s.env s.pending s.writes with
      | error f => exact ⟨f.1, image f.2, (C57_failure hw hs _ _).2 ⟨f.2, rfl, .inr ⟨s, h1, h2⟩⟩⟩
      | ok W => exact (h ⟨_, _, _, (C57_success hw hs _ _ _).2 ⟨s, W, h1, h2, rfl, rfl, rfl⟩⟩).elim

/-! ### Cases -/

/-- Expressions, character constants and strings are refused, not read as something else. -/
example : (b! "+-*/<>&|^~!?@'\"`[]{}\\").filter known = b! "*" ∧ known 0x80 = false ∧ known 1 = false := by decide +kernel

example : ∃ text bin, FailsLeaving (demo (b! "K =2\n LDA K+1\n")) (b! "p.asm") (b! "p.bin") text bin :=
  C67_refused (demo_setup _) (by decide +kernel) (pre := [b! "K =2\n"]) (piece := b! " LDA K+1\n") (post := []) (c := 43) (by decide +kernel)
    (by decide +kernel) (by decide +kernel) (by decide +kernel)

/-- In a comment and behind `.END` every character is allowed. -/
example : Succeeds (demo (b! " NOP ; a+b\n.END\n LDA K+1\n")) (b! "p.asm") (b! "p.bin") [0xEA] 1 0 := demo_succeeds (by decide +kernel)

end Gaia

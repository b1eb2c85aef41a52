import Verif.Proofs.LexSpec

/-! A line has at most one lexical analysis, however many lexemes it has. -/
namespace Gaia
open Spec

/-- Where the text after a lexeme of length `n` continues. -/
def nextText (off n : Nat) (s : Str) : Nat × Str :=
  if rd (s.drop n) = 58 then skipBlanks (off + n + 1) (s.drop n).tail else skipBlanks (off + n) (s.drop n)

theorem Tokens_step {first : Bool} {off : Nat} {s : Str} {ls : List (Nat × Lexeme)} (h : Tokens first off s ls) (hn : NoTerm s) :
    (s = [] ∧ ls = []) ∨ ∃ n x ls1, s ≠ [] ∧ lexOne s = .ok (n, x) ∧ ls = (off, x) :: ls1 ∧
      Tokens false (nextText off n s).1 (nextText off n s).2 ls1 ∧ NoTerm (nextText off n s).2 := by
  cases h with
  | done => exact .inl ⟨rfl, rfl⟩
  | cons _ _ t bl s x ls ht hd hb hs hrest =>
    right
    have hn' : NoTerm (bl ++ s) := by
      rw [List.append_assoc] at hn
      exact hn.append_right
    have hfol : Follows x (bl ++ s) := by
      rcases hd with h | h
      · exact .inl h
      · exact .inr (.inl ((delimited_iff hn').1 h))
    have hl := spell_lexOne ht (bl ++ s) hfol
    have hcolon : rd (bl ++ s) ≠ 58 := by
      cases bl with
      | nil => exact tokens_head hrest
      | cons b bl' =>
        have := hb b (by simp)
        intro h58
        have hbb : b = 58 := h58
        rw [hbb] at this
        revert this; decide
    have hdrop : (t ++ bl ++ s).drop t.length = bl ++ s := by rw [List.append_assoc]; exact List.drop_left
    have hnx : nextText off t.length (t ++ bl ++ s) = (off + t.length + bl.length, s) := by
      unfold nextText
      rw [hdrop, if_neg hcolon, skipBlanks_of hb hs]
    obtain ⟨c, r, htc, _⟩ := spell_head ht
    refine ⟨t.length, x, ls, ?_, by rw [List.append_assoc]; exact hl, rfl, ?_, ?_⟩
    · subst htc; simp
    · rw [hnx]; exact hrest
    · rw [hnx]; exact hn'.append_right
  | colon _ t bl s l ls ht hb hs hrest =>
    right
    have hn' : NoTerm (bl ++ s) := by
      rw [List.append_assoc] at hn
      have := hn.append_right
      exact fun d hd => this d (by simp only [List.cons_append, List.mem_cons]; exact .inr hd)
    have hl := spell_lexOne ht (58 :: bl ++ s) (.inr (.inr ⟨rfl, rfl⟩))
    have hdrop : (t ++ 58 :: bl ++ s).drop t.length = 58 :: (bl ++ s) := by rw [List.append_assoc]; exact List.drop_left
    have hnx : nextText off t.length (t ++ 58 :: bl ++ s) = (off + t.length + 1 + bl.length, s) := by
      unfold nextText
      rw [hdrop, if_pos (show rd (58 :: (bl ++ s)) = 58 from rfl), List.tail_cons, skipBlanks_of hb hs]
    refine ⟨t.length, _, ls, by simp, by rw [List.append_assoc]; exact hl, rfl, ?_, ?_⟩
    · rw [hnx]; exact hrest
    · rw [hnx]; exact hn'.append_right

theorem Tokens_unique : ∀ (ls : List (Nat × Lexeme)) {first first' : Bool} {off : Nat} {s : Str} {ls' : List (Nat × Lexeme)},
    Tokens first off s ls → Tokens first' off s ls' → NoTerm s → ls = ls'
  | [], first, first', off, s, ls', h, h', hn => by
    rcases Tokens_step h hn with ⟨rfl, _⟩ | ⟨n, x, ls1, _, _, h3, _⟩
    · rcases Tokens_step h' hn with ⟨_, rfl⟩ | ⟨n, x, ls1, h1, _⟩
      · rfl
      · exact absurd rfl h1
    · cases h3
  | p :: ls, first, first', off, s, ls', h, h', hn => by
    rcases Tokens_step h hn with ⟨_, h0⟩ | ⟨n, x, ls1, h1, h2, h3, h4, h5⟩
    · cases h0
    · obtain ⟨rfl, rfl⟩ := List.cons.inj h3
      rcases Tokens_step h' hn with ⟨rfl, _⟩ | ⟨n', x', ls1', _, g2, g3, g4, _⟩
      · exact absurd rfl h1
      · rw [h2] at g2
        obtain ⟨rfl, rfl⟩ : n = n' ∧ x = x' := by simpa using g2
        rw [g3, Tokens_unique ls h4 g4 h5]

theorem Lexes_unique {l : List Byte} {x y : List (Nat × Lexeme)} (hx : Lexes l x) (hy : Lexes l y) : x = y :=
  Tokens_unique x (lexes_skip.1 hx) (lexes_skip.1 hy) (noTerm_skip l)

end Gaia

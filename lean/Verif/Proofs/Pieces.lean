import Verif.Spec.Pieces
import Verif.Model.Main

/-! The pieces of a source are the buffers `fgets` delivers. -/
namespace Gaia
open Spec

theorem cut_fgets : ∀ (s : List Byte) (k : Nat), s ≠ [] →
    cut (k + 1) s = (fgets (k + 1) s).1 :: cut 127 (fgets (k + 1) s).2
  | [], k, h => absurd rfl h
  | c :: s, k, _ => by
    have e : cut (k + 1) (c :: s) = if c = 10 ∨ k + 1 ≤ 1 then [c] :: cut 127 s else
        match cut (k + 1 - 1) s with
        | [] => [[c]]
        | l :: ls => (c :: l) :: ls := rfl
    have e' : fgets (k + 1) (c :: s) = if c = 10 then ([10], s) else (c :: (fgets k s).1, (fgets k s).2) := rfl
    rw [e, e']
    by_cases hc : c = 10
    · simp [hc]
    · cases k with
      | zero => simp [hc, fgets]
      | succ k =>
        rw [if_neg (by simp [hc]), if_neg hc]
        by_cases hs : s = []
        · subst hs; simp [cut, fgets]
        · rw [show k + 1 + 1 - 1 = k + 1 by omega, cut_fgets s k hs]

theorem fgets_rest : ∀ (n : Nat) (s : List Byte), (fgets (n + 1) s).2.length ≤ s.length - 1
  | _, [] => by simp [fgets]
  | n, c :: s => by
    unfold fgets
    by_cases hc : c = 10
    · simp [hc]
    · rw [if_neg hc]
      cases n with
      | zero => simp [fgets]
      | succ n =>
        have := fgets_rest n s
        simp only [List.length_cons]
        omega

theorem chunksAux_cut : ∀ (fuel : Nat) (s : List Byte), s.length ≤ fuel → chunksAux fuel s = cut 127 s
  | 0, s, h => by
    have : s = [] := List.length_eq_zero_iff.1 (by omega)
    subst this; rfl
  | fuel + 1, s, h => by
    unfold chunksAux
    by_cases hs : s = []
    · subst hs; rfl
    · rw [if_neg hs, show MAX_BUFFER_SIZE - 1 = 126 + 1 from rfl,
        chunksAux_cut fuel _ (by have := fgets_rest 126 s; omega), ← cut_fgets s 126 hs]

/-- The pieces are the buffers `fgets` delivers. -/
theorem pieces_eq (src : List Byte) : pieces src = chunks src := (chunksAux_cut _ _ (Nat.le_refl _)).symm

theorem cut_length : ∀ (room : Nat) (s : List Byte), (cut room s).length ≤ s.length
  | _, [] => by simp [cut]
  | room, c :: s => by
    unfold cut
    split_ifs
    · have := cut_length 127 s
      simp only [List.length_cons]; omega
    · have := cut_length (room - 1) s
      split
      · simp
      · rename_i h
        rw [h] at this
        simp only [List.length_cons] at this ⊢; omega

theorem cut_len (room : Nat) (c : Byte) (s : List Byte) : (cut room (c :: s)).length =
    if c = 10 ∨ room ≤ 1 then (cut 127 s).length + 1 else max 1 (cut (room - 1) s).length := by
  have e : cut room (c :: s) = if c = 10 ∨ room ≤ 1 then [c] :: cut 127 s else
      match cut (room - 1) s with
      | [] => [[c]]
      | l :: ls => (c :: l) :: ls := rfl
  rw [e]
  split_ifs
  · rfl
  · cases cut (room - 1) s <;> simp

/-- Less room makes at most one more piece. -/
theorem cut_room : ∀ (s : List Byte) (r r' : Nat), r' ≤ r → r ≤ 127 →
    (cut r s).length ≤ (cut r' s).length ∧ (cut r' s).length ≤ (cut r s).length + 1
  | [], r, r', _, _ => by simp [cut]
  | c :: s, r, r', h, h' => by
    rw [cut_len, cut_len]
    have h1 := cut_room s (r - 1) (r' - 1) (by omega) (by omega)
    have h2 := cut_room s 127 (r - 1) (by omega) (by omega)
    by_cases hc : c = 10
    · simp [hc]
    · simp only [hc, false_or]
      split_ifs <;> omega

/-- Taking bytes away does not make more pieces. -/
theorem cut_sublist {s s' : List Byte} (h : s.Sublist s') : ∀ (r r' : Nat), r' ≤ r → r ≤ 127 →
    (cut r s).length ≤ (cut r' s').length := by
  induction h with
  | slnil => intros; simp [cut]
  | @cons s t c h ih =>
    intro r r' h1 h2
    rw [cut_len]
    have a := ih r (r' - 1) (by omega) h2
    have b := ih 127 127 (by omega) (by omega)
    have d := cut_room s 127 r h2 (by omega)
    split_ifs <;> omega
  | @cons_cons s t c h ih =>
    intro r r' h1 h2
    rw [cut_len, cut_len]
    have a := ih (r - 1) (r' - 1) (by omega) (by omega)
    have b := ih 127 127 (by omega) (by omega)
    have d := cut_room s 127 (r - 1) (by omega) (by omega)
    by_cases hc : c = 10
    · simp only [hc, true_or, if_true]; omega
    · simp only [hc, false_or]
      split_ifs <;> omega

theorem sized_sublist {s s' : List Byte} (h : s.Sublist s') (hs : Sized s') : Sized s :=
  Nat.lt_of_le_of_lt (cut_sublist h 127 127 (by omega) (by omega)) hs

/-- A short text is small enough. -/
theorem sized_of_length {src : List Byte} (h : src.length < maxSymbols) : Sized src :=
  Nat.lt_of_le_of_lt (cut_length _ _) h

theorem Spec.Sized.chunks {src : List Byte} (h : Sized src) : (chunks src).length < maxSymbols := by
  rw [← pieces_eq]; exact h

end Gaia

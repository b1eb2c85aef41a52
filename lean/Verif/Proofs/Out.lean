import Verif.Spec.Crash
import Verif.Proofs.ParseFacts
import Verif.Spec.Check

/-! The output file as a sequence of writes. -/
namespace Gaia
open Spec

theorem getD_append_replicate (l : List Byte) (n i : Nat) : (l ++ List.replicate n 0).getD i 0 = l.getD i 0 := by
  simp only [List.getD_eq_getElem?_getD]
  by_cases h : i < l.length
  · rw [List.getElem?_append_left h]
  · rw [List.getElem?_append_right (by omega), List.getElem?_replicate, List.getElem?_eq_none (by omega)]
    split_ifs <;> rfl

theorem put_length (f : OutFile) (b : Byte) : (f.put b).bytes.length = max f.bytes.length (f.pos + 1) := by
  unfold OutFile.put
  simp only [List.length_append, List.length_cons, List.length_take, List.length_drop, List.length_replicate]
  omega

theorem put_get (f : OutFile) (b : Byte) (i : Nat) :
    (f.put b).bytes.getD i 0 = if i = f.pos then b else f.bytes.getD i 0 := by
  rw [← getD_append_replicate f.bytes (f.pos - f.bytes.length) i]
  unfold OutFile.put
  simp only
  generalize hp : f.bytes ++ List.replicate (f.pos - f.bytes.length) 0 = P
  have hP : f.pos ≤ P.length := by rw [← hp]; simp; omega
  simp only [List.getD_eq_getElem?_getD]
  by_cases h1 : i < f.pos
  · rw [List.getElem?_append_left (by simp; omega), List.getElem?_take, if_pos h1, if_neg (by omega)]
  · rw [List.getElem?_append_right (by simp; omega), List.length_take, Nat.min_eq_left hP]
    by_cases h2 : i = f.pos
    · subst h2; simp
    · obtain ⟨j, rfl⟩ : ∃ j, i = f.pos + 1 + j := ⟨i - f.pos - 1, by omega⟩
      rw [if_neg h2]
      have : f.pos + 1 + j - f.pos = j + 1 := by omega
      rw [this, List.getElem?_cons_succ, List.getElem?_drop]

theorem puts_pos (bs : List Byte) : ∀ f : OutFile, (f.puts bs).pos = f.pos + bs.length := by
  induction bs with
  | nil => intro f; rfl
  | cons b bs ih =>
    intro f
    show ((f.put b).puts bs).pos = _
    rw [ih]
    simp only [OutFile.put, List.length_cons]; omega

theorem puts_length (bs : List Byte) : ∀ f : OutFile,
    (f.puts bs).bytes.length = if bs = [] then f.bytes.length else max f.bytes.length (f.pos + bs.length) := by
  induction bs with
  | nil => intro f; rfl
  | cons b bs ih =>
    intro f
    show ((f.put b).puts bs).bytes.length = _
    rw [ih, put_length, if_neg (List.cons_ne_nil b bs)]
    have : (f.put b).pos = f.pos + 1 := rfl
    simp only [this, List.length_cons]
    by_cases h : bs = []
    · subst h; simp
    · rw [if_neg h]; omega

theorem puts_get (bs : List Byte) : ∀ (f : OutFile) (i : Nat),
    (f.puts bs).bytes.getD i 0 = (Chunk.at (f.pos, bs) i).getD (f.bytes.getD i 0) := by
  induction bs with
  | nil => intro f i; simp [OutFile.puts, Chunk.at]
  | cons b bs ih =>
    intro f i
    show ((f.put b).puts bs).bytes.getD i 0 = _
    rw [ih, put_get]
    have : (f.put b).pos = f.pos + 1 := rfl
    rw [this]
    unfold Chunk.at
    simp only
    by_cases h1 : i = f.pos
    · subst h1
      rw [if_neg (by omega), if_pos (by omega)]
      simp
    · by_cases h2 : f.pos ≤ i
      · obtain ⟨j, rfl⟩ : ∃ j, i = f.pos + 1 + j := ⟨i - f.pos - 1, by omega⟩
        have e1 : f.pos + 1 + j - (f.pos + 1) = j := by omega
        have e2 : f.pos + 1 + j - f.pos = j + 1 := by omega
        rw [if_pos (by omega), if_pos h2, e1, e2, List.getElem?_cons_succ, if_neg h1]
      · rw [if_neg (by omega), if_neg h2, if_neg h1]

/-! ### Sequences of writes -/

theorem imageEnd_append (W : List Chunk) (c : Chunk) : imageEnd (W ++ [c]) = max (imageEnd W) (c.1 + c.2.length) := by
  unfold imageEnd
  simp

theorem byteAt_append (W : List Chunk) (c : Chunk) (i : Nat) : byteAt (W ++ [c]) i = (c.at i).getD (byteAt W i) := by
  unfold byteAt
  rw [List.reverse_append]
  simp only [List.reverse_cons, List.reverse_nil, List.nil_append, List.singleton_append, List.findSome?_cons]
  cases c.at i <;> rfl

theorem Chunk.at_none {c : Chunk} {i : Nat} (h : i < c.1 ∨ c.1 + c.2.length ≤ i) : c.at i = none := by
  unfold Chunk.at
  split_ifs with h1
  · rw [List.getElem?_eq_none (by omega)]
  · rfl

theorem Chunk.at_some {c : Chunk} {i : Nat} (h1 : c.1 ≤ i) (h2 : i < c.1 + c.2.length) :
    c.at i = some (c.2[i - c.1]'(by omega)) := by
  unfold Chunk.at
  rw [if_pos h1, List.getElem?_eq_getElem]

theorem byteAt_none {W : List Chunk} {i : Nat} (h : ∀ c ∈ W, c.at i = none) : byteAt W i = 0 := by
  unfold byteAt
  have : W.reverse.findSome? (Chunk.at · i) = none := by
    rw [List.findSome?_eq_none_iff]
    intro c hc
    exact h c (by simpa using hc)
  rw [this]; rfl

theorem le_imageEnd {W : List Chunk} {c : Chunk} (h : c ∈ W) : c.1 + c.2.length ≤ imageEnd W := by
  induction W using List.reverseRecOn with
  | nil => simp at h
  | append_singleton W d ih =>
    rw [imageEnd_append]
    rcases List.mem_append.1 h with h | h
    · have := ih h; omega
    · simp only [List.mem_singleton] at h; subst h; omega

theorem byteAt_beyond {W : List Chunk} {i : Nat} (h : imageEnd W ≤ i) : byteAt W i = 0 := by
  refine byteAt_none fun c hc => Chunk.at_none (.inr ?_)
  have := le_imageEnd hc
  omega

/-- The file holds exactly what the writes `W` left. -/
structure Written (f : OutFile) (W : List Chunk) : Prop where
  len : f.bytes.length = imageEnd W
  get : ∀ i, f.bytes.getD i 0 = byteAt W i
  log : f.log = singles W

theorem Written_empty : Written OutFile.empty [] := ⟨rfl, fun i => by simp [OutFile.empty, byteAt], rfl⟩

theorem puts_log (bs : List Byte) : ∀ f : OutFile, (f.puts bs).log = f.log ++ Chunk.singles f.pos bs := by
  induction bs with
  | nil => intro f; simp [OutFile.puts, Chunk.singles]
  | cons b bs ih =>
    intro f
    have : f.puts (b :: bs) = (f.put b).puts bs := rfl
    rw [this, ih]
    simp [OutFile.put, Chunk.singles]

/-- The file is the memory image of the writes. -/
theorem Written.bytes {f : OutFile} {W : List Chunk} (h : Written f W) : f.bytes = image W := by
  unfold image
  apply List.ext_getElem?
  intro i
  by_cases hi : i < f.bytes.length
  · have h1 := h.get i
    rw [List.getD_eq_getElem?_getD, List.getElem?_eq_getElem hi] at h1
    simp only [Option.getD_some] at h1
    rw [List.getElem?_eq_getElem hi, List.getElem?_map, List.getElem?_range (by rw [← h.len]; exact hi), h1]
    rfl
  · rw [List.getElem?_eq_none (by omega), List.getElem?_eq_none]
    simp only [List.length_map, List.length_range]
    rw [← h.len]; omega

theorem Written.puts {f : OutFile} {W : List Chunk} (h : Written f W) (p : Nat) (bs : List Byte) (hne : bs ≠ []) :
    Written ((f.seek p).puts bs) (W ++ [(p, bs)]) := by
  refine ⟨?_, fun i => ?_, ?_⟩
  · rw [puts_length, if_neg hne, imageEnd_append]
    simp only [OutFile.seek, h.len]
  · rw [puts_get, byteAt_append]
    simp only [OutFile.seek, h.get]
  · rw [puts_log]
    simp [OutFile.seek, h.log, singles]

end Gaia

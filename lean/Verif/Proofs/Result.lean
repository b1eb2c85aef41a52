import Verif.Proofs.Truncate
import Verif.Proofs.Numbers

/-! What a successful run looks like. -/
set_option linter.unusedSimpArgs false
namespace Gaia
open Spec

/-- gaia is deterministic, and its report shows the totals. -/
theorem Spec.Succeeds.unique {w : World} {srcName outName : Str} {bin bin' : List Byte} {t t' n n' : Nat}
    (h : Succeeds w srcName outName bin t n) (h' : Succeeds w srcName outName bin' t' n') : bin = bin' ∧ t = t' ∧ n = n' := by
  unfold Succeeds at h h'
  rw [h] at h'
  simp only [Outcome.exited.injEq, Exit.mk.injEq, true_and] at h'
  obtain ⟨h1, h2⟩ := h'
  have h2 := congrFun (World.mk.inj h2).1 outName
  simp only [if_true, Option.some.injEq] at h2
  have h1 : report t n = report t' n' := h1
  exact ⟨h2, report_inj h1⟩

theorem Spec.Succeeds.not_fails {w : World} {srcName outName : Str} {bin : List Byte} {t n : Nat} {text : Str}
    (h : Succeeds w srcName outName bin t n) : ¬ FailsPrinting w srcName outName text := by
  rintro ⟨b, h'⟩
  unfold Succeeds at h
  rw [h] at h'
  simp at h'

theorem succeeds_check {w : World} {srcName outName : Str} {src : List Byte} {p : List Stmt} (hw : Setup w srcName outName src)
    (hp : IsProgram src p) {bin : List Byte} {t n : Nat} (h : Succeeds w srcName outName bin t n) : check p = none := by
  cases hc : check p with
  | none => rfl
  | some f =>
    obtain ⟨k, e⟩ := f
    obtain ⟨l, x, _, _, l', _, _, h3⟩ := run_error hw hp hc
    exact absurd h3 h.not_fails

theorem succeeded {w : World} {srcName outName : Str} {src : List Byte} {p : List Stmt} (hw : Setup w srcName outName src)
    (hp : IsProgram src p) {bin : List Byte} {t n : Nat} (h : Succeeds w srcName outName bin t n) :
    ∃ s, pass1 p .init = some s ∧ t = (s.items.map (·.mode.bytes)).sum ∧ n = s.env.length ∧
      (Ascending s.items → bin = image (finals s.env (placed p 1 .init))) := by
  obtain ⟨s, bin', h1, h2, h3, h4, h5⟩ := run_ok hw hp (succeeds_check hw hp h)
  obtain ⟨rfl, rfl, rfl⟩ := h.unique h3
  exact ⟨s, h1, rfl, rfl, fun ha => h5 (ascending_harmless h1 ha)⟩

theorem byteAt_of {W : List Chunk} {c : Chunk} {i : Nat} {b : Byte} (hc : c ∈ W) (hb : c.at i = some b)
    (h : ∀ d ∈ W, d.at i = none ∨ d.at i = some b) : byteAt W i = b := by
  unfold byteAt
  cases hf : W.reverse.findSome? (Chunk.at · i) with
  | none =>
    rw [List.findSome?_eq_none_iff] at hf
    have := hf c (by simpa using hc)
    rw [hb] at this; cases this
  | some x =>
    obtain ⟨d, hd, hx⟩ := List.exists_of_findSome?_eq_some hf
    rcases h d (by simpa using hd) with h | h
    · rw [h] at hx; cases hx
    · rw [h] at hx; exact (Option.some.inj hx).symm ▸ rfl

theorem image_get {W : List Chunk} {i : Nat} (h : i < imageEnd W) : (image W)[i]? = some (byteAt W i) := by
  unfold image
  rw [List.getElem?_map, List.getElem?_range h]
  rfl

theorem image_length (W : List Chunk) : (image W).length = imageEnd W := by simp [image]

theorem pairwise_either {α} {R : α → α → Prop} {l : List α} (h : l.Pairwise R) {x y : α} (hx : x ∈ l) (hy : y ∈ l)
    (hne : x ≠ y) : R x y ∨ R y x := by
  induction h with
  | nil => simp at hx
  | cons h1 _ ih =>
    rcases List.mem_cons.1 hx with rfl | hx' <;> rcases List.mem_cons.1 hy with rfl | hy'
    · exact absurd rfl hne
    · exact .inl (h1 _ hy')
    · exact .inr (h1 _ hx')
    · exact ih hx' hy'

/-- Instructions with ascending addresses lie one after the other in the image. -/
theorem finals_bytes {env : Env} {es : List Placed} (hok : ∀ e ∈ es, ItemOK e.item) (ha : Ascending (es.map (·.item)))
    {e : Placed} (he : e ∈ es) :
    ((image (finals env es)).drop e.item.addr).take e.item.mode.bytes = rawBytes env e.item := by
  have hmem : (e.item.addr, rawBytes env e.item) ∈ finals env es := by
    unfold finals
    exact List.mem_map.2 ⟨e, he, rfl⟩
  have hlen := rawBytes_length (hok e he) env
  have hle := le_imageEnd hmem
  simp only [hlen] at hle
  apply List.ext_getElem?
  intro j
  by_cases hj : j < e.item.mode.bytes
  · rw [List.getElem?_take, if_pos hj, List.getElem?_drop, image_get (by omega)]
    have hb : Chunk.at (e.item.addr, rawBytes env e.item) (e.item.addr + j) = (rawBytes env e.item)[j]? := by
      unfold Chunk.at
      simp
    rw [List.getElem?_eq_getElem (by omega)] at hb ⊢
    congr 1
    refine byteAt_of hmem hb ?_
    intro c hc
    unfold finals at hc
    obtain ⟨d, hd, rfl⟩ := List.mem_map.1 hc
    have hld := rawBytes_length (hok d hd) env
    by_cases hde : d = e
    · subst hde; exact .inr hb
    · left
      apply Chunk.at_none
      simp only [hld]
      have : d.item.addr + d.item.mode.bytes ≤ e.item.addr ∨ e.item.addr + e.item.mode.bytes ≤ d.item.addr := by
        unfold Ascending at ha
        rw [List.pairwise_map] at ha
        exact pairwise_either ha hd he hde
      omega
  · rw [List.getElem?_eq_none, List.getElem?_eq_none (by omega)]
    simp only [List.length_take]; omega

theorem finals_zero {env : Env} {es : List Placed} (hok : ∀ e ∈ es, ItemOK e.item) {i : Nat}
    (hi : i < (image (finals env es)).length) (h : ∀ e ∈ es, ¬ Covers e i) : (image (finals env es))[i]? = some 0 := by
  rw [image_length] at hi
  rw [image_get hi, byteAt_none]
  intro c hc
  unfold finals at hc
  obtain ⟨d, hd, rfl⟩ := List.mem_map.1 hc
  exact not_covers_at (hok d hd) (h d hd)

theorem finals_end {env : Env} {es : List Placed} (hok : ∀ e ∈ es, ItemOK e.item) (ha : Ascending (es.map (·.item)))
    {e : Placed} (he : es.getLast? = some e) : (image (finals env es)).length = e.item.addr + e.item.mode.bytes := by
  rw [image_length]
  obtain ⟨pre, rfl⟩ : ∃ pre, es = pre ++ [e] := List.getLast?_eq_some_iff.1 he
  apply Nat.le_antisymm
  · refine imageEnd_le fun c hc => ?_
    unfold finals at hc
    obtain ⟨d, hd, rfl⟩ := List.mem_map.1 hc
    rw [rawBytes_length (hok d hd) env]
    rcases List.mem_append.1 hd with hd | hd
    · unfold Ascending at ha
      rw [List.map_append, List.pairwise_append] at ha
      have := ha.2.2 d.item (List.mem_map_of_mem hd) e.item (by simp)
      simp only; omega
    · obtain rfl : d = e := by simpa using hd
      exact Nat.le_refl _
  · have := le_imageEnd (W := finals env (pre ++ [e])) (c := (e.item.addr, rawBytes env e.item)) (by
      unfold finals; exact List.mem_map.2 ⟨e, by simp, rfl⟩)
    rwa [rawBytes_length (hok e (by simp)) env] at this

end Gaia

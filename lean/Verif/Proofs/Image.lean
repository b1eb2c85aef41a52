import Verif.Proofs.Program4

/-! The final file is the image of the instructions with their final operands. -/
namespace Gaia
open Spec

/-- Each instruction at its address, with the symbols `env`. -/
def finals (env : Env) (es : List Placed) : List Chunk := es.map fun e => (e.item.addr, rawBytes env e.item)

theorem covers_at {e : Placed} {i : Nat} {env : Env} (hok : ItemOK e.item) (h : Covers e i) :
    Chunk.at (e.item.addr, rawBytes env e.item) i ≠ none := by
  rw [Chunk.at_some (c := (e.item.addr, rawBytes env e.item)) h.1 (by simp only [rawBytes_length hok]; exact h.2)]
  simp

theorem not_covers_at {e : Placed} {i : Nat} {env : Env} (hok : ItemOK e.item) (h : ¬ Covers e i) :
    Chunk.at (e.item.addr, rawBytes env e.item) i = none := by
  apply Chunk.at_none
  simp only [rawBytes_length hok]
  unfold Covers at h
  omega

theorem zeros_at (p n i : Nat) : Chunk.at (p, List.replicate n 0) i = none ∨ Chunk.at (p, List.replicate n 0) i = some 0 := by
  unfold Chunk.at
  simp only
  split_ifs
  · rw [List.getElem?_replicate]
    split_ifs <;> simp
  · simp

theorem rawBytes_known {e : Placed} {env : Env} (hk : ∀ l v, e.known.lookup l = some v → env.lookup l = some v)
    (hf : e.forward.isSome = false) : rawBytes e.known e.item = rawBytes env e.item := by
  unfold rawBytes
  unfold Placed.forward at hf
  congr 1
  split
  · rfl
  · rfl
  · rename_i l ho
    rw [ho] at hf
    simp only at hf
    split_ifs at hf with h1
    · obtain ⟨v, hv⟩ := Option.isSome_iff_exists.1 h1
      rw [hv, hk l v hv]
    · simp at hf

theorem writes_byte (env : Env) : ∀ es : List Placed, (∀ e ∈ es, ItemOK e.item) →
    (∀ e ∈ es, ∀ l v, e.known.lookup l = some v → env.lookup l = some v) →
    (∀ pre e post, es = pre ++ e :: post → e.forward.isSome = true → ∀ d ∈ pre, ∀ i, Covers d i →
      ¬ (endFrom 0 pre ≤ i ∧ i < endFrom 0 pre + e.item.mode.bytes)) →
    ∀ i, (∀ e ∈ es, e.forward.isSome = true → ¬ Covers e i) → byteAt (writesFrom 0 es) i = byteAt (finals env es) i := by
  intro es
  induction es using List.reverseRecOn with
  | nil => intros; rfl
  | append_singleton es e ih =>
    intro hok hk hb i hi
    have hok' : ∀ e ∈ es, ItemOK e.item := fun x hx => hok x (by simp [hx])
    have ih' := ih hok' (fun x hx => hk x (by simp [hx]))
      (fun pre x post h => hb pre x (post ++ [e]) (by rw [h]; simp)) i (fun x hx => hi x (by simp [hx]))
    have hoke := hok e (by simp)
    have hfin : finals env (es ++ [e]) = finals env es ++ [(e.item.addr, rawBytes env e.item)] := by simp [finals]
    rw [writesFrom_append, ← List.append_assoc, byteAt_append, hfin, byteAt_append]
    by_cases hc : Covers e i
    · have hnf : e.forward.isSome = false := by
        by_contra h
        exact hi e (by simp) (by simpa only [Bool.not_eq_false] using h) hc
      rw [rawBytes_known (hk e (by simp)) hnf]
      obtain ⟨b, hb⟩ := Option.ne_none_iff_exists'.1 (covers_at (env := env) hoke hc)
      rw [hb]; rfl
    · rw [not_covers_at hoke hc, not_covers_at hoke hc]
      simp only [Option.getD_none]
      cases hf : e.forward.isSome with
      | false => simpa [hf] using ih'
      | true =>
        simp only [if_true]
        rw [byteAt_append]
        by_cases hd : endFrom 0 es ≤ i ∧ i < endFrom 0 es + e.item.mode.bytes
        · have h0 : byteAt (finals env es) i = 0 := by
            apply byteAt_none
            intro c hcm
            simp only [finals, List.mem_map] at hcm
            obtain ⟨d, hd1, rfl⟩ := hcm
            exact not_covers_at (hok' d hd1) fun h => hb es e [] (by simp) hf d hd1 i h hd
          rw [h0]
          rcases zeros_at (endFrom 0 es) e.item.mode.bytes i with h | h
          · rw [h, ih', h0]; rfl
          · rw [h]; rfl
        · rw [Chunk.at_none (by simp only [List.length_replicate]; omega)]
          exact ih'

theorem patches_append (env : Env) (es : List Placed) (e : Placed) : patches env (es ++ [e]) =
    patches env es ++ if e.forward.isSome then [(e.item.addr, rawBytes env e.item)] else [] := by
  unfold patches
  rw [List.filter_append]
  cases hf : e.forward.isSome <;> simp [hf]

theorem patched_byte (env : Env) (W : List Chunk) : ∀ es : List Placed, (∀ e ∈ es, ItemOK e.item) →
    (∀ pre e post, es = pre ++ e :: post → e.forward.isSome = true → ∀ d ∈ post, ∀ i, Covers e i → ¬ Covers d i) →
    ∀ i, (∃ e ∈ es, e.forward.isSome = true ∧ Covers e i) → byteAt (W ++ patches env es) i = byteAt (finals env es) i := by
  intro es
  induction es using List.reverseRecOn with
  | nil => intro _ _ i h; simp at h
  | append_singleton es e ih =>
    intro hok ha i hi
    have hok' : ∀ e ∈ es, ItemOK e.item := fun x hx => hok x (by simp [hx])
    have hoke := hok e (by simp)
    have hfin : finals env (es ++ [e]) = finals env es ++ [(e.item.addr, rawBytes env e.item)] := by simp [finals]
    rw [patches_append, ← List.append_assoc, hfin, byteAt_append]
    by_cases hc : Covers e i
    · have hf : e.forward.isSome = true := by
        obtain ⟨x, hx, hxf, hxc⟩ := hi
        rcases List.mem_append.1 hx with hx | hx
        · obtain ⟨pre, post, rfl⟩ := List.append_of_mem hx
          exact absurd hc (ha pre x (post ++ [e]) (by simp) hxf e (by simp) i hxc)
        · rw [List.mem_singleton] at hx; subst hx; exact hxf
      rw [hf]
      simp only [if_true]
      rw [byteAt_append]
      obtain ⟨b, hb⟩ := Option.ne_none_iff_exists'.1 (covers_at (env := env) hoke hc)
      rw [hb]; rfl
    · have ih' := ih hok' (fun pre x post h hxf d hd => ha pre x (post ++ [e]) (by rw [h]; simp) hxf d (by simp [hd])) i (by
        obtain ⟨x, hx, hxf, hxc⟩ := hi
        rcases List.mem_append.1 hx with hx | hx
        · exact ⟨x, hx, hxf, hxc⟩
        · rw [List.mem_singleton] at hx; subst hx; exact absurd hxc hc)
      rw [not_covers_at hoke hc]
      simp only [Option.getD_none]
      cases hf : e.forward.isSome with
      | false => simpa using ih'
      | true =>
        simp only [if_true]
        rw [byteAt_append, not_covers_at hoke hc]
        exact ih'

theorem imageEnd_le {W : List Chunk} {n : Nat} (h : ∀ c ∈ W, c.1 + c.2.length ≤ n) : imageEnd W ≤ n := by
  induction W using List.reverseRecOn with
  | nil => exact Nat.zero_le _
  | append_singleton W c ih =>
    rw [imageEnd_append]
    have h1 := ih fun d hd => h d (by simp [hd])
    have h2 := h c (by simp)
    omega

theorem patches_none (env : Env) (es : List Placed) (i : Nat) (hok : ∀ e ∈ es, ItemOK e.item)
    (h : ∀ e ∈ es, e.forward.isSome = true → ¬ Covers e i) (W : List Chunk) : byteAt (W ++ patches env es) i = byteAt W i := by
  have : ∀ c ∈ patches env es, c.at i = none := by
    intro c hc
    simp only [patches, List.mem_map, List.mem_filter] at hc
    obtain ⟨e, ⟨he, hf⟩, rfl⟩ := hc
    exact not_covers_at (hok e he) (h e he hf)
  generalize patches env es = P at this
  induction P using List.reverseRecOn with
  | nil => simp
  | append_singleton P c ih =>
    rw [← List.append_assoc, byteAt_append, this c (by simp)]
    exact ih fun d hd => this d (by simp [hd])

theorem mem_writesFrom (es : List Placed) : ∀ p c, c ∈ writesFrom p es →
    (∃ e ∈ es, c = (e.item.addr, rawBytes e.known e.item)) ∨
    ∃ pre e post, es = pre ++ e :: post ∧ e.forward.isSome = true ∧ c = (endFrom p pre, List.replicate e.item.mode.bytes 0) := by
  induction es with
  | nil => intro p c h; simp [writesFrom] at h
  | cons e es ih =>
    intro p c h
    simp only [writesFrom, List.mem_append, List.mem_cons] at h
    rcases h with h | h | h
    · split_ifs at h with hf
      · rw [List.mem_singleton] at h
        exact .inr ⟨[], e, es, rfl, hf, h⟩
      · simp at h
    · exact .inl ⟨e, by simp, h⟩
    · rcases ih _ c h with ⟨x, hx, rfl⟩ | ⟨pre, x, post, rfl, hf, rfl⟩
      · exact .inl ⟨x, by simp [hx], rfl⟩
      · exact .inr ⟨e :: pre, x, post, rfl, hf, rfl⟩

theorem mem_writesFrom' (es : List Placed) : ∀ p, ∀ e ∈ es, (e.item.addr, rawBytes e.known e.item) ∈ writesFrom p es := by
  induction es with
  | nil => intro p e h; simp at h
  | cons x es ih =>
    intro p e h
    simp only [writesFrom, List.mem_append, List.mem_cons]
    rcases List.mem_cons.1 h with rfl | h
    · exact .inr (.inl rfl)
    · exact .inr (.inr (ih _ e h))

/-- **The file holds the image of the instructions.** -/
theorem image_finals {env : Env} {es : List Placed} (hok : ∀ e ∈ es, ItemOK e.item)
    (hk : ∀ e ∈ es, ∀ l v, e.known.lookup l = some v → env.lookup l = some v) (hh : Harmless es) :
    image (writesFrom 0 es ++ patches env es) = image (finals env es) := by
  have hend : imageEnd (writesFrom 0 es ++ patches env es) = imageEnd (finals env es) := by
    have hmem : ∀ e ∈ es, e.item.addr + e.item.mode.bytes ≤ imageEnd (finals env es) := by
      intro e he
      have := le_imageEnd (W := finals env es) (c := (e.item.addr, rawBytes env e.item)) (by
        simp only [finals, List.mem_map]; exact ⟨e, he, rfl⟩)
      simpa only [rawBytes_length (hok e he)] using this
    apply Nat.le_antisymm
    · apply imageEnd_le
      intro c hc
      rcases List.mem_append.1 hc with hc | hc
      · rcases mem_writesFrom es 0 c hc with ⟨e, he, rfl⟩ | ⟨pre, e, post, h1, hf, rfl⟩
        · simp only [rawBytes_length (hok e he)]; exact hmem e he
        · obtain ⟨d, hd, h⟩ := hh.inside pre e post h1 hf
          simp only [List.length_replicate]
          have := hmem d hd
          omega
      · simp only [patches, List.mem_map, List.mem_filter] at hc
        obtain ⟨e, ⟨he, -⟩, rfl⟩ := hc
        simp only [rawBytes_length (hok e he)]; exact hmem e he
    · apply imageEnd_le
      intro c hc
      simp only [finals, List.mem_map] at hc
      obtain ⟨e, he, rfl⟩ := hc
      have := le_imageEnd (W := writesFrom 0 es ++ patches env es) (List.mem_append_left _ (mem_writesFrom' es 0 e he))
      simpa only [rawBytes_length (hok e he)] using this
  unfold image
  rw [hend]
  apply List.map_congr_left
  intro i _
  by_cases hi : ∃ e ∈ es, e.forward.isSome = true ∧ Covers e i
  · exact patched_byte env _ es hok hh.after i hi
  · have hi' : ∀ e ∈ es, e.forward.isSome = true → ¬ Covers e i := fun e he hf hc => hi ⟨e, he, hf, hc⟩
    rw [patches_none env es i hok hi']
    exact writes_byte env es hok hk hh.before i hi'

theorem endFrom_le {pre : List Placed} {e : Placed} : ∀ p, (∀ d ∈ pre, d.item.addr + d.item.mode.bytes ≤ e.item.addr) →
    p ≤ e.item.addr → endFrom p pre ≤ e.item.addr := by
  induction pre with
  | nil => intro p _ h; exact h
  | cons d pre ih => intro p h _; exact ih _ (fun x hx => h x (by simp [hx])) (h d (by simp))

theorem le_endFrom {pre : List Placed} : ∀ p, (pre.map (·.item)).Pairwise (fun a b => a.addr + a.mode.bytes ≤ b.addr) →
    ∀ d ∈ pre, d.item.addr + d.item.mode.bytes ≤ endFrom p pre := by
  induction pre using List.reverseRecOn with
  | nil => intro p _ d hd; simp at hd
  | append_singleton pre e _ =>
    intro p h d hd
    rw [endFrom_append]
    rcases List.mem_append.1 hd with hd | hd
    · rw [List.map_append, List.pairwise_append] at h
      have := h.2.2 d.item (List.mem_map_of_mem hd) e.item (by simp)
      omega
    · rw [List.mem_singleton] at hd; subst hd; exact Nat.le_refl _

theorem Spec.Harmless.of_ascending {es : List Placed} (h : Ascending (es.map (·.item))) : Harmless es := by
  unfold Ascending at h
  refine ⟨?_, ?_, ?_⟩
  · rintro pre e post rfl _ d hd i hc ⟨h1, h2⟩
    rw [List.map_append, List.pairwise_append] at h
    have := le_endFrom 0 h.1 d hd
    unfold Covers at hc
    omega
  · rintro pre e post rfl _
    refine ⟨e, by simp, ?_⟩
    rw [List.map_append, List.pairwise_append] at h
    have := endFrom_le (pre := pre) (e := e) 0 (fun d hd => h.2.2 d.item (List.mem_map_of_mem hd) e.item (by simp)) (Nat.zero_le _)
    omega
  · rintro pre e post rfl _ d hd i h1 h2
    rw [List.map_append, List.pairwise_append, List.map_cons, List.pairwise_cons] at h
    have := h.2.1.1 d.item (List.mem_map_of_mem hd)
    unfold Covers at h1 h2
    omega

theorem Spec.Harmless.of_none {es : List Placed} (h : ∀ e ∈ es, e.forward = none) : Harmless es := by
  refine ⟨?_, ?_, ?_⟩ <;>
  · rintro pre e post rfl hf
    rw [h e (by simp)] at hf
    simp at hf

end Gaia

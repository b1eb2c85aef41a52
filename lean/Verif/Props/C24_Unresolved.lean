import Verif.Proofs.ForwardRef

/-! C24: the array of pending forward references, for every sequence of additions. -/
namespace Gaia

/-- Add a sequence of references, oldest first. -/
def addAll : List ForwardRef → Unresolved → Res Unresolved
  | [], u => .ok u
  | r :: rest, u => do
    let u ← addForwardRef u r
    addAll rest u

theorem addAll_spec : ∀ (rs : List ForwardRef) (u : Unresolved) (done : List ForwardRef), Holds u done →
    2 * (done.length + rs.length) ≤ INT_MAX →
    ∃ u', addAll rs u = .ok u' ∧ Holds u' (done ++ rs) := by
  intro rs
  induction rs with
  | nil => intro u done h _; exact ⟨u, rfl, by simpa using h⟩
  | cons r rs ih =>
    intro u done h hb
    simp only [List.length_cons] at hb
    obtain ⟨u1, h1, h2⟩ := addForwardRef_spec h r (by omega)
    obtain ⟨u2, r1, r2⟩ := ih u1 (done ++ [r]) h2 (by
      simp only [List.length_append, List.length_cons, List.length_nil]
      omega)
    exact ⟨u2, by simp only [addAll, h1, C.ok_bind]; exact r1, by simpa using r2⟩

/-- **C24.** After adding any sequence of references (up to 2^30 - 1 of them), the array holds exactly these, in
order; every further slot is NULL and at least one is left; the clean-up walk frees each reference exactly once, in
order, without leaving the array. -/
theorem C24_references_kept (rs : List ForwardRef) (hb : rs.length < 2 ^ 30) :
    ∃ u, addAll rs initUnresolved = .ok u ∧ u.curr = rs.length ∧ rs.length < u.size ∧
      (∀ i : Nat, i < u.size → u.refs[i]? = some rs[i]?) ∧
      destroyUnresolved u = .ok rs := by
  have hm : INT_MAX = 2147483647 := rfl
  obtain ⟨u, h1, h2⟩ := addAll_spec rs initUnresolved [] Holds_init (by simp only [List.length_nil]; omega)
  simp only [List.nil_append] at h2
  refine ⟨u, h1, h2.curr, h2.room, ?_, ?_⟩
  · intro i hi
    by_cases hlt : i < rs.length
    · rw [h2.get hlt, List.getElem?_eq_getElem hlt]
    · rw [h2.get_null (by omega) hi, List.getElem?_eq_none (by omega)]
  · have := destroyWalk_spec h2 rs.length 0 (u.size + 1) (by omega) (by
      have := h2.room
      unfold Unresolved.size
      omega)
    unfold destroyUnresolved
    simpa using this

/-- Non-vacuity: 20 references force two growths (8 → 16 → 32). -/
example : ∃ rs : List ForwardRef, rs.length = 20 ∧ rs.length < 2 ^ 30 :=
  ⟨List.replicate 20 ⟨b! "L", b! "JMP L", {}, 0, 1, .jumpForwardReference, 4⟩, by decide, by decide⟩

end Gaia

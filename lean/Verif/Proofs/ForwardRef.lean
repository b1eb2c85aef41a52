import Verif.Model.ForwardRef
import Mathlib.Tactic.Ring
import Mathlib.Tactic.SplitIfs

/-! The list of unresolved forward references. -/
namespace Gaia

/-- `u` holds exactly the references `rs`, in order, followed by at least one NULL slot. -/
structure Holds (u : Unresolved) (rs : List ForwardRef) : Prop where
  curr : u.curr = rs.length
  refs : u.refs = rs.map some ++ List.replicate (u.refs.length - rs.length) none
  room : rs.length < u.refs.length
  sizeLe : u.refs.length ≤ max 8 (2 * rs.length)

theorem Holds_init : Holds initUnresolved [] :=
  ⟨rfl, by simp [initUnresolved], by decide, by decide⟩

theorem set_replicate_none {α} (l : List α) (x : α) (n : Nat) (h : 0 < n) :
    (l.map some ++ List.replicate n none).set l.length (some x) =
      (l ++ [x]).map some ++ List.replicate (n - 1) none := by
  obtain ⟨m, rfl⟩ : ∃ m, n = m + 1 := ⟨n - 1, by omega⟩
  rw [List.set_append_right _ _ (by simp)]
  simp [List.replicate_succ]

theorem addForwardRef_spec {u : Unresolved} {rs : List ForwardRef} (h : Holds u rs) (r : ForwardRef)
    (hb : 2 * (rs.length + 1) ≤ INT_MAX) :
    ∃ u', addForwardRef u r = .ok u' ∧ Holds u' (rs ++ [r]) := by
  obtain ⟨h1, h2, h3, h4⟩ := h
  have key : ∀ u1 : Unresolved, u1.curr = rs.length →
      u1.refs = rs.map some ++ List.replicate (u1.refs.length - rs.length) none →
      rs.length + 1 < u1.refs.length → u1.refs.length ≤ max 8 (2 * (rs.length + 1)) →
      ∃ u', (if u1.curr < u1.size then C.ok (ε := Fail) { refs := u1.refs.set u1.curr (some r), curr := u1.curr + 1 }
          else .ub .outOfBounds) = C.ok u' ∧ Holds u' (rs ++ [r]) := by
    intro u1 g1 g2 g3 g4
    have : u1.curr < u1.size := by unfold Unresolved.size; omega
    rw [if_pos this]
    refine ⟨_, rfl, by simp [g1], ?_, by simpa using g3, by simpa using g4⟩
    show u1.refs.set u1.curr (some r) = _
    simp only [List.length_set, List.length_append, List.length_cons, List.length_nil]
    rw [g1]
    conv_lhs => rw [g2]
    rw [set_replicate_none _ _ _ (by omega)]
    congr 2
  unfold addForwardRef
  by_cases hc : u.curr + 1 = u.size
  · rw [if_pos hc]
    unfold resizeUnresolved
    have hs : u.size = u.refs.length := rfl
    rw [if_neg (by omega)]
    simp only [C.ok_bind, C.pure_eq]
    refine key ⟨u.refs ++ List.replicate u.size none, u.curr⟩ h1 ?_ ?_ ?_
    · show u.refs ++ List.replicate u.size none = _
      conv_lhs => rw [h2]
      rw [List.append_assoc, List.replicate_append_replicate]
      congr 2
      simp only [List.length_append, List.length_replicate]
      omega
    · simp only [List.length_append, List.length_replicate]
      omega
    · simp only [List.length_append, List.length_replicate]
      omega
  · rw [if_neg hc]
    have hs : u.size = u.refs.length := rfl
    simp only [C.ok_bind, C.pure_eq]
    exact key u h1 h2 (by omega) (by omega)

theorem Holds.get {u : Unresolved} {rs : List ForwardRef} (h : Holds u rs) {i : Nat} (hi : i < rs.length) :
    u.refs[i]? = some (some rs[i]) := by
  rw [h.refs, List.getElem?_append_left (by simpa using hi)]
  simp [hi]

theorem Holds.get_null {u : Unresolved} {rs : List ForwardRef} (h : Holds u rs) {i : Nat} (hi : rs.length ≤ i)
    (hs : i < u.refs.length) : u.refs[i]? = some none := by
  rw [h.refs, List.getElem?_append_right (by simpa using hi), List.getElem?_replicate]
  rw [if_pos]
  simp only [List.length_map]
  omega

theorem destroyWalk_spec {u : Unresolved} {rs : List ForwardRef} (h : Holds u rs) :
    ∀ (n i fuel : Nat), i + n = rs.length → n < fuel → destroyWalk u.refs fuel i = .ok (rs.drop i) := by
  intro n
  induction n with
  | zero =>
    intro i fuel hi hf
    obtain ⟨f, rfl⟩ : ∃ f, fuel = f + 1 := ⟨fuel - 1, by omega⟩
    unfold destroyWalk
    have hr := h.room
    rw [h.get_null (by omega) (by omega)]
    simp only
    rw [List.drop_of_length_le (by omega)]
  | succ n ih =>
    intro i fuel hi hf
    obtain ⟨f, rfl⟩ : ∃ f, fuel = f + 1 := ⟨fuel - 1, by omega⟩
    unfold destroyWalk
    rw [h.get (by omega)]
    simp only
    rw [ih (i + 1) f (by omega) (by omega)]
    simp only [C.ok_bind, C.pure_eq]
    congr 1
    exact (List.drop_eq_getElem_cons (by omega)).symm

end Gaia

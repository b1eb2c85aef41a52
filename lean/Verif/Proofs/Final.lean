import Verif.Proofs.Image

/-! gaia on a program of the documented language. -/
set_option linter.unusedSimpArgs false
namespace Gaia
open Spec

theorem cstr_append (l : List Byte) (suf : List Byte) : cstr (l ++ suf) = cstr l ∨ (cstr l = l ∧ cstr (l ++ suf) = l ++ cstr suf) := by
  unfold cstr
  by_cases h : ∀ c ∈ l, (c != 0) = true
  · right
    have h0 := List.takeWhile_append_of_pos (l₂ := []) h
    simp only [List.append_nil, List.takeWhile_nil] at h0
    exact ⟨h0, List.takeWhile_append_of_pos h⟩
  · left
    rw [List.takeWhile_append, if_neg]
    intro hl
    apply h
    have h1 := List.takeWhile_append_dropWhile (p := (· != 0)) (l := l)
    have h2 : l.dropWhile (· != 0) = [] := by
      apply List.length_eq_zero_iff.1
      have := congrArg List.length h1
      rw [List.length_append] at this
      omega
    rw [h2, List.append_nil] at h1
    rw [← h1]
    exact takeWhile_all _ _

theorem diag_buffers {raw l : List Byte} (h : Buffers raw l) (e : Err) (pos : Option Nat) (fn : Str) (n : Nat)
    (hp : ∀ p, pos = some p → p ≤ (cstr l).length) : diag (cstr raw) e pos fn n = diag (cstr l) e pos fn n := by
  rcases h with rfl | rfl
  · rfl
  · rcases cstr_append l [10] with h | ⟨h1, h2⟩
    · rw [h]
    · have h3 : cstr [10] = [10] := rfl
      rw [h2, h1, h3]
      rw [h1] at hp
      cases pos with
      | none =>
        unfold diag
        simp only
        rw [trimEnd_append (by simp [isTrailing])]
      | some p => exact (diag_saved rfl (by simp [isTrailing]) (hp p rfl)).symm

theorem nameOffsets_mem {ls : List (Nat × Lexeme)} {p : Nat} (h : p ∈ nameOffsets ls) : ∃ x, (p, x) ∈ ls := by
  unfold nameOffsets at h
  rw [List.mem_filterMap] at h
  obtain ⟨⟨q, x⟩, h1, h2⟩ := h
  cases x <;> simp at h2
  subst h2
  exact ⟨_, h1⟩

theorem faultPos_mem {ls : List (Nat × Lexeme)} {e : Err} {p : Nat} (h : faultPos ls e = some p) : ∃ x, (p, x) ∈ ls := by
  unfold faultPos at h
  split at h
  · exact nameOffsets_mem (List.mem_of_mem_head? h)
  · exact nameOffsets_mem (List.mem_of_getLast? h)
  · exact nameOffsets_mem (List.mem_of_getLast? h)
  · exact nameOffsets_mem (List.mem_of_getLast? h)
  · cases h

theorem Tokens_offset {first : Bool} {off : Nat} {s : Str} {ls : List (Nat × Lexeme)} (h : Tokens first off s ls) :
    ∀ q ∈ ls, q.1 ≤ off + s.length := by
  induction h with
  | done => intro q hq; simp at hq
  | cons first off t bl s x ls _ _ _ _ _ ih =>
    intro q hq
    rcases List.mem_cons.1 hq with rfl | hq
    · simp
    · have := ih q hq
      simp only [List.length_append] at this ⊢
      omega
  | colon off t bl s l ls _ _ _ _ ih =>
    intro q hq
    rcases List.mem_cons.1 hq with rfl | hq
    · simp
    · have := ih q hq
      simp only [List.length_append, List.length_cons] at this ⊢
      omega

theorem code_le_cstr (l : List Byte) : (Spec.code l).length ≤ (cstr l).length := by
  induction l with
  | nil => exact Nat.le_refl _
  | cons c l ih =>
    rw [code_cons]
    split_ifs with h
    · exact Nat.zero_le _
    · have hc : (c != 0) = true := by
        by_contra hc
        apply h
        have : c = 0 := by simpa using hc
        subst this; rfl
      unfold cstr at ih ⊢
      rw [List.takeWhile_cons, if_pos hc]
      simpa using ih

theorem Lexes_offset {l : List Byte} {ls : List (Nat × Lexeme)} (h : Lexes l ls) : ∀ q ∈ ls, q.1 ≤ (cstr l).length := by
  obtain ⟨bl, s, h1, _, _, h2⟩ := h
  intro q hq
  have := Tokens_offset h2 q hq
  have h3 := code_le_cstr l
  rw [h1, List.length_append] at h3
  omega

/-- The result of the pure machine on a program of the documented language. -/
theorem assembleA_spec_out (fn : Str) (src : List Byte) (p : List Stmt) (hlen : ∀ l ∈ lines src, l.length ≤ 126)
    (hr : Reads (lines src) p) (hj : NoForwardIndexedJump p) :
    (∀ k e, check p = some (k, e) → ∃ raw ls out, (chunks src)[k - 1]? = some raw ∧ Lexes raw ls ∧
      assembleA fn src = .error ⟨⟨e, diag (cstr raw) e (faultPos ls e) fn k⟩, out⟩ ∧
      (firstFault p 1 .init ≠ none → Written out (writesFrom 0 (placed (p.take (k - 1)) 1 .init))) ∧
      (firstFault p 1 .init = none → ∃ s, pass1 p .init = some s ∧ Written out (writesFrom 0 (placed p 1 .init) ++
        patches s.env ((placed p 1 .init).takeWhile fun e => (Placed.fault s.env e).isNone)))) ∧
    (check p = none → ∃ s a, pass1 p .init = some s ∧ assembleA fn src = .ok a ∧
      s.items = (placed p 1 .init).map (·.item) ∧
      a.env = s.env ∧ a.total = (s.items.map (·.mode.bytes)).sum ∧
      Written a.out (writesFrom 0 (placed p 1 .init) ++ patches s.env (placed p 1 .init)) ∧
      (∀ e ∈ placed p 1 .init, ItemOK e.item) ∧
      (∀ e ∈ placed p 1 .init, ∀ l v, e.known.lookup l = some v → s.env.lookup l = some v)) := by
  have hb := chunks_lines src hlen
  have hr' := Reads_buffers hb hr
  obtain ⟨g1, g2⟩ := run_spec fn (chunks src) [] (chunks src) p hr' 1 .init [] A.init (Inv_init _) (Nat.le_refl _) (by simp)
    (fun b t c l h1 h2 => .inl (hj b t c l h1 h2))
  rw [List.append_nil] at g1 g2
  have fin : firstFault p 1 .init = none → ∃ s a n', pass1 p .init = some s ∧ runLines fn (chunks src) A.init = .ok a ∧
      Inv (chunks src) n' s (placed p 1 .init) a := by
    intro h
    obtain ⟨s, a, n', h1, h2, h3⟩ := g2 h
    rw [List.nil_append] at h2
    refine ⟨s, a, n', h1, ?_, h2⟩
    rcases h3 with ⟨_, h3⟩ | ⟨_, _, h3⟩
    · exact h3
    · rw [h3]; rfl
  constructor
  · intro k e he
    unfold check at he
    cases hf : firstFault p 1 .init with
    | some f =>
      rw [hf] at he
      obtain rfl : f = (k, e) := by simpa using he
      obtain ⟨raw, ls, out, h1, h2, h3, h4, h5⟩ := g1 k e hf
      refine ⟨raw, ls, out, h1, h2, ?_, fun _ => by simpa using h5, fun h => by simp at h⟩
      unfold assembleA
      rw [h3]
    | none =>
      rw [hf] at he
      obtain ⟨s, a, n', h1, h2, h3⟩ := fin hf
      rw [h1] at he
      simp only [Option.getD_some] at he
      obtain ⟨p1, -⟩ := patch_spec fn (chunks src) s.env (placed p 1 .init) a.refs h3.refs h3.ok h3.fwd a.out _ h3.out
      obtain ⟨raw, ls, out, k1, k2, k3, k4⟩ := p1 k e he
      refine ⟨raw, ls, out, k1, k2, ?_, fun h => absurd rfl h, fun _ => ⟨s, h1, k4⟩⟩
      unfold assembleA
      rw [h2]
      simp only [h3.env, k3]
  · intro he
    unfold check at he
    cases hf : firstFault p 1 .init with
    | some f => rw [hf] at he; cases he
    | none =>
      rw [hf] at he
      obtain ⟨s, a, n', h1, h2, h3⟩ := fin hf
      rw [h1] at he
      simp only [Option.getD_some] at he
      obtain ⟨-, p2⟩ := patch_spec fn (chunks src) s.env (placed p 1 .init) a.refs h3.refs h3.ok h3.fwd a.out _ h3.out
      obtain ⟨out, k1, k2⟩ := p2 he
      refine ⟨s, { a with out := out }, h1, ?_, h3.items, h3.env, ?_, k2, h3.ok, h3.known⟩
      · unfold assembleA
        rw [h2]
        simp only [h3.env, k1]
      · simp only [h3.total, h3.items, List.map_map]
        rfl

/-- The same without the output file of failing runs. -/
theorem assembleA_spec (fn : Str) (src : List Byte) (p : List Stmt) (hlen : ∀ l ∈ lines src, l.length ≤ 126)
    (hr : Reads (lines src) p) (hj : NoForwardIndexedJump p) :
    (∀ k e, check p = some (k, e) → ∃ raw ls out, (chunks src)[k - 1]? = some raw ∧ Lexes raw ls ∧
      assembleA fn src = .error ⟨⟨e, diag (cstr raw) e (faultPos ls e) fn k⟩, out⟩) ∧
    (check p = none → ∃ s a, pass1 p .init = some s ∧ assembleA fn src = .ok a ∧
      s.items = (placed p 1 .init).map (·.item) ∧
      a.env = s.env ∧ a.total = (s.items.map (·.mode.bytes)).sum ∧
      Written a.out (writesFrom 0 (placed p 1 .init) ++ patches s.env (placed p 1 .init)) ∧
      (∀ e ∈ placed p 1 .init, ItemOK e.item) ∧
      (∀ e ∈ placed p 1 .init, ∀ l v, e.known.lookup l = some v → s.env.lookup l = some v)) := by
  obtain ⟨h1, h2⟩ := assembleA_spec_out fn src p hlen hr hj
  refine ⟨fun k e he => ?_, h2⟩
  obtain ⟨raw, ls, out, g1, g2, g3, _⟩ := h1 k e he
  exact ⟨raw, ls, out, g1, g2, g3⟩

theorem forall₂_get {α β} {R : α → β → Prop} {l : List α} {m : List β} (h : List.Forall₂ R l m) {k : Nat} {x : α}
    (hx : l[k]? = some x) : ∃ y, m[k]? = some y ∧ R x y := by
  induction h generalizing k with
  | nil => simp at hx
  | @cons a b l m hab _ ih =>
    cases k with
    | zero =>
      simp only [List.getElem?_cons_zero, Option.some.injEq] at hx ⊢
      exact ⟨b, rfl, hx ▸ hab⟩
    | succ k => simpa using ih (by simpa using hx)

/-- **An erroneous program**: gaia reports the error the specification asks for, at the line it asks for. -/
theorem assembly_error {fn : Str} {src : List Byte} {p : List Stmt} (hsz : Sized src)
    (hlen : ∀ l ∈ lines src, l.length ≤ 126) (hr : Reads (lines src) p) (hj : NoForwardIndexedJump p) {k : Nat} {e : Err}
    (he : check p = some (k, e)) :
    ∃ l x out, (lines src)[k - 1]? = some l ∧ Lexes l x ∧
      assembleBytes fn src = .err ⟨⟨e, diag (cstr l) e (faultPos x e) fn k⟩, out⟩ := by
  obtain ⟨raw, ls, out, h1, h2, h3⟩ := (assembleA_spec fn src p hlen hr hj).1 k e he
  obtain ⟨l, k1, k2⟩ := forall₂_get (chunks_lines src hlen) h1
  have hs := assemble_sim fn src hsz
  rw [h3] at hs
  have hl := (k2.lexes ls).1 h2
  refine ⟨l, ls, out, k1, hl, ?_⟩
  simp only at hs
  rw [hs, diag_buffers k2]
  intro q hq
  obtain ⟨x, hx⟩ := faultPos_mem hq
  exact Lexes_offset hl _ hx

end Gaia

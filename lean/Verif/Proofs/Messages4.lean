import Verif.Proofs.Messages3

/-! An inserted line: the messages. -/
namespace Gaia
open Spec

theorem runOn_m {T : Str → Str → Prop} (hT : OneOne T) {K : Complaint} {d δ : Nat} {fn : Str} : ∀ {cs cs' : List (List Byte)} {a a' : A},
    Pieces2 T K δ a.lineNum cs cs' → SimM T K d δ a a' →
    (∃ s b b', runOn fn cs a = .ok (s, b) ∧ runOn fn cs' a' = .ok (s, b') ∧ SimM T K d δ b b' ∧ (s = false → b.lineNum = a.lineNum + cs.length)) ∨
    ∃ f f', runOn fn cs a = .error f ∧ runOn fn cs' a' = .error f' ∧ AbortM K fn f f'
  | _, _, a, a', .nil _, ha => .inl ⟨_, _, _, rfl, rfl, ha, fun _ => rfl⟩
  | c :: cs, c' :: cs', a, a', .cons h hs, ha => by
    unfold runOn
    rcases line_m hT (fn := fn) h ha with ⟨s, b, b', e1, e2, hb⟩ | ⟨f, g, e1, e2, hf⟩
    · rw [e1, e2]
      cases s with
      | true => exact .inl ⟨_, _, _, rfl, rfl, hb, by simp⟩
      | false =>
        have hn := line_num e1
        rcases runOn_m hT (fn := fn) (by rw [hn]; exact hs) hb with ⟨s, c, c', g1, g2, hc, hd⟩ | h
        · refine .inl ⟨s, c, c', g1, g2, hc, fun h => ?_⟩
          rw [hd h, hn, List.length_cons]; omega
        · exact .inr h
    · rw [e1, e2]; exact .inr ⟨_, _, rfl, rfl, hf⟩

/-- The same complaint, with the number of the line after the insertion. -/
def shiftComplaint (cs : List (List Byte)) (N : Nat) : Complaint := fun n raw n' raw' p p' =>
  1 ≤ n ∧ cs[n - 1]? = some raw ∧ raw' = raw ∧ p' = p ∧ n' = afterInsertion N n

theorem RawSim.self {T : Str → Str → Prop} {P : Option Nat → Option Nat → Prop} {raw : List Byte} (h : RawSim T raw raw) (hP : ∀ p, P p p) : RawM T P raw raw := by
  rcases h with ⟨ls, ls', h1, h2, hl⟩ | ⟨e, p, p', h1, h2⟩ | h
  · obtain rfl : ls = ls' := by rw [h1] at h2; exact Except.ok.inj h2
    exact .inl ⟨ls, ls, h1, h2, hP _, List.forall₂_same.2 fun q hq => ⟨List.forall₂_same.1 hl q hq, hP _⟩⟩
  · exact .inr (.inl ⟨e, p, p, h1, h1, hP _⟩)
  · exact .inr (.inr h)

theorem pieces2_shift {T : Str → Str → Prop} {L : List (List Byte)} {N δ : Nat} : ∀ {pre cs post : List (List Byte)}, L = pre ++ (cs ++ post) →
    List.Forall₂ (RawSim T) cs cs → ((δ = 0 ∧ pre.length + cs.length ≤ N) ∨ (δ = 1 ∧ N ≤ pre.length)) →
    Pieces2 T (shiftComplaint L N) δ (pre.length + 1) cs cs
  | _, [], _, _, _, _ => .nil _
  | pre, c :: cs, post, hL, .cons hc hs, hN => by
    refine .cons (hc.self fun p => ⟨by omega, ?_, rfl, rfl, ?_⟩) ?_
    · rw [hL]; simp
    · unfold afterInsertion
      simp only [List.length_cons] at hN
      rcases hN with ⟨rfl, hN⟩ | ⟨rfl, hN⟩
      · rw [if_pos (by omega)]
      · rw [if_neg (by omega)]
    · have := pieces2_shift (T := T) (L := L) (N := N) (δ := δ) (pre := pre ++ [c]) (cs := cs) (post := post) (by rw [hL]; simp) hs
        (by simp only [List.length_append, List.length_cons, List.length_nil] at hN ⊢; omega)
      simpa using this

/-- A line inserted behind `pre` that only changes the symbols. -/
theorem insertion {T : Str → Str → Prop} (hT : OneOne T) {d : Nat} {w w' : World} {srcName outName : Str} {pre l rest : List Byte} (hpre : WholeLines pre)
    (hl : ∀ c ∈ l, c ≠ 10) (hll : l.length ≤ 126) (hw : Setup w srcName outName (pre ++ rest))
    (hw' : Setup w' srcName outName (pre ++ (l ++ 10 :: rest))) (hs : Sized (pre ++ (l ++ 10 :: rest)))
    (sp : List.Forall₂ (RawSim T) (chunks pre) (chunks pre)) (sr : List.Forall₂ (RawSim T) (chunks rest) (chunks rest))
    (hstop : ∀ a, runOn srcName (chunks pre) A.init = .ok (true, a) → d = 0)
    (hline : ∀ a, runOn srcName (chunks pre) A.init = .ok (false, a) → ∃ env', line srcName (l ++ [10]) a =
      .ok (false, { a with env := env', lineNum := a.lineNum + 1 }) ∧ (∀ x x', T x x' → a.env.lookup x = a.env.lookup x' → a.env.lookup x = env'.lookup x') ∧
        env'.length = a.env.length + d) :
    (∃ bin total symbols, Succeeds w srcName outName bin total symbols ∧ Succeeds w' srcName outName bin total (symbols + d)) ∨
    ∃ text text' bin, FailsLeaving w srcName outName text bin ∧ FailsLeaving w' srcName outName text' bin ∧
      ShiftedComplaint srcName (pieces pre).length (pre ++ rest) text text' := by
  have hs0 : Sized (pre ++ rest) := sized_sublist (List.Sublist.append_left (.trans (.cons _ (.refl _)) (List.sublist_append_right _ _)) _) hs
  have fin : ∀ {text text' : Str}, ((text = [] ∧ text' = []) ∨
        ∃ n raw n' raw' e p p', shiftComplaint (chunks (pre ++ rest)) (chunks pre).length n raw n' raw' p p' ∧ text = diag (cstr raw) e p srcName n ∧
          text' = diag (cstr raw') e p' srcName n') → ShiftedComplaint srcName (pieces pre).length (pre ++ rest) text text' := by
    rintro text text' (h | ⟨n, raw, n', raw', e, p, p', ⟨k1, k2, rfl, rfl, rfl⟩, h1, h2⟩)
    · exact .inl h
    · exact .inr ⟨n, raw', e, p', k1, by rw [pieces_eq]; exact k2, h1, by rw [pieces_eq]; exact h2⟩
  have hcs : chunks (pre ++ rest) = chunks pre ++ chunks rest := chunks_whole hpre
  have P1 : Pieces2 T (shiftComplaint (chunks (pre ++ rest)) (chunks pre).length) 0 1 (chunks pre) (chunks pre) :=
    pieces2_shift (pre := []) (post := chunks rest) (by rw [hcs]; rfl) sp (.inl ⟨rfl, by simp⟩)
  have P2 : Pieces2 T (shiftComplaint (chunks (pre ++ rest)) (chunks pre).length) 1 ((chunks pre).length + 1) (chunks rest) (chunks rest) :=
    pieces2_shift (pre := chunks pre) (post := []) (by rw [hcs]; simp) sr (.inr ⟨rfl, Nat.le_refl _⟩)
  have e1 : runLines srcName (chunks (pre ++ rest)) A.init = match runOn srcName (chunks pre) A.init with
      | .error e => .error e
      | .ok (true, a) => .ok a
      | .ok (false, a) => runLines srcName (chunks rest) a := by rw [hcs]; exact runLines_append _ _ _ _
  have e2 : runLines srcName (chunks (pre ++ (l ++ 10 :: rest))) A.init = match runOn srcName (chunks pre) A.init with
      | .error e => .error e
      | .ok (true, a) => .ok a
      | .ok (false, a) => runLines srcName ((l ++ [10]) :: chunks rest) a := by rw [chunks_whole hpre, chunks_cut hl hll]; exact runLines_append _ _ _ _
  rcases runOn_m hT (fn := srcName) (a := A.init) (a' := A.init) P1 (SimM.init T _) with ⟨s, a, a', k1, k2, k3, k4⟩ | ⟨f, f', k1, k2, k3⟩
  · obtain rfl : a = a' := by rw [k1] at k2; cases k2; rfl
    rw [k1] at e1 e2
    cases s with
    | true =>
      have hd := hstop a k1
      subst hd
      rcases result_m hw hw' hs0 hs (.inl ⟨a, a, e1, e2, k3⟩) with h | ⟨t, t', b, h1, h2, h3⟩
      · exact .inl h
      · exact .inr ⟨t, t', b, h1, h2, fin h3⟩
    | false =>
      simp only at e1 e2
      obtain ⟨env', g1, g2, g3⟩ := hline a k1
      have hu : runLines srcName ((l ++ [10]) :: chunks rest) a = runLines srcName (chunks rest) { a with env := env', lineNum := a.lineNum + 1 } := by
        conv_lhs => unfold runLines
        rw [g1]
      rw [hu] at e2
      have hsim : SimM T (shiftComplaint (chunks (pre ++ rest)) (chunks pre).length) d 1 a { a with env := env', lineNum := a.lineNum + 1 } :=
        ⟨⟨rfl, rfl, rfl, fun x x' hx => g2 x x' hx (k3.sim.env x x' hx), g3, k3.sim.refs⟩, rfl, k3.refs⟩
      have hn : a.lineNum = (chunks pre).length + 1 := by rw [k4 rfl]; simp [A.init]; omega
      have := runLines_m hT (fn := srcName) (by rw [hn]; exact P2) hsim
      rw [← e1, ← e2] at this
      rcases result_m hw hw' hs0 hs this with h | ⟨t, t', b, h1, h2, h3⟩
      · exact .inl h
      · exact .inr ⟨t, t', b, h1, h2, fin h3⟩
  · obtain rfl : f = f' := by rw [k1] at k2; cases k2; rfl
    rw [k1] at e1 e2
    rcases result_m (T := T) (d := d) (δ := 0) hw hw' hs0 hs (.inr ⟨f, f, e1, e2, k3⟩) with h | ⟨t, t', b, h1, h2, h3⟩
    · exact .inl h
    · exact .inr ⟨t, t', b, h1, h2, fin h3⟩

end Gaia

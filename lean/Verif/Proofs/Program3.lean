import Verif.Proofs.Program2

/-! Statements and whole files. -/
set_option linter.unusedSimpArgs false
namespace Gaia
open Spec

theorem labelFault_some {env : Env} {l : Str} {e : Err} (h : labelFault env l = some e) :
    e = .labelRedefinition ∧ ∃ v, env.lookup l = some v := by
  unfold labelFault at h
  split_ifs at h with h1
  exact ⟨by simpa using h.symm, Option.isSome_iff_exists.1 h1⟩

theorem labelFault_none {env : Env} {l : Str} (h : labelFault env l = none) : env.lookup l = none := by
  unfold labelFault at h
  split_ifs at h with h1
  exact Option.not_isSome_iff_eq_none.1 h1

/-- A line whose declared name is `l`. -/
theorem declare_label {raws : List (List Byte)} {n : Nat} {s : Pass1} {es : List Placed} {a : A} (h : Inv raws n s es a)
    {ls : List (Nat × Lexeme)} {l : Str} {p v : Nat} (hd : declared a.pc ls = some (p, l, v))
    (hn : (nameOffsets ls).head? = some p) :
    (∀ e, labelFault s.env l = some e → declare ls a = .error (e, faultPos ls e)) ∧
    (labelFault s.env l = none → define s l v = some { s with env := (l, v) :: s.env } ∧
      declare ls a = .ok { a with env := (l, v) :: a.env } ∧
      Inv raws n { s with env := (l, v) :: s.env } es { a with env := (l, v) :: a.env }) := by
  constructor
  · intro e he
    obtain ⟨rfl, w, hw⟩ := labelFault_some he
    unfold declare
    rw [hd]
    simp only [h.env, hw, faultPos, hn]
  · intro he
    have hl := labelFault_none he
    refine ⟨?_, ?_, h.define v hl⟩
    · unfold define; rw [hl]
    · unfold declare
      rw [hd]
      simp only [h.env, hl]

theorem jumpsIndexed_of {lab : Option Str} {m : Mnemonic} {arg : Arg} {l : Str} (h : IdxJump m arg) (hl : arg.opd = some (.sym l)) :
    Stmt.jumpsIndexed (.instr lab m arg) = some l := by
  obtain ⟨rfl, ⟨o, rfl⟩ | ⟨o, rfl⟩⟩ := h <;> simp only [Arg.opd, Option.some.injEq] at hl <;> subst hl <;> rfl

/-- What a statement does to the symbols. -/
theorem pass1Stmt_env {s s' : Pass1} {st : Stmt} (h : pass1Stmt s st = some s') (l : Str) :
    (s.env.lookup l ≠ none → s'.env.lookup l ≠ none) ∧ (st.defines = some l → s'.env.lookup l ≠ none) := by
  have hdef : ∀ {s s' : Pass1} {x : Str} {v : Nat}, define s x v = some s' → s'.env = (x, v) :: s.env := by
    intro s s' x v hd
    unfold define at hd
    split at hd
    · cases hd
    · obtain rfl := Option.some.inj hd; rfl
  have hpl : ∀ {s s' : Pass1} {m : Mnemonic} {a : Arg}, place s m a = some s' → s'.env = s.env := by
    intro s s' m a hd
    unfold place at hd
    simp only [Option.bind_eq_bind, Option.bind_eq_some_iff] at hd
    obtain ⟨_, _, _, _, hd⟩ := hd
    obtain rfl := Option.some.inj hd; rfl
  have hcons : ∀ (x : Str) (v : Nat) (e : Env), e.lookup l ≠ none → ((x, v) :: e).lookup l ≠ none := by
    intro x v e he
    rw [List.lookup_cons]
    split
    · simp
    · exact he
  have hhead : ∀ (v : Nat) (e : Env), ((l, v) :: e).lookup l ≠ none := by
    intro v e; simp [List.lookup_cons]
  cases st with
  | empty | stop => obtain rfl := Option.some.inj h; exact ⟨id, fun hh => by cases hh⟩
  | org v => obtain rfl := Option.some.inj h; exact ⟨id, fun hh => by cases hh⟩
  | label x =>
    rw [hdef h]
    exact ⟨hcons _ _ _, fun hh => by obtain rfl := Option.some.inj hh; exact hhead _ _⟩
  | const x v =>
    rw [hdef h]
    exact ⟨hcons _ _ _, fun hh => by obtain rfl := Option.some.inj hh; exact hhead _ _⟩
  | instr lab m a =>
    cases lab with
    | none => rw [hpl h]; exact ⟨id, fun hh => by cases hh⟩
    | some x =>
      obtain ⟨s1, h1, h2⟩ := Option.bind_eq_some_iff.1 h
      rw [hpl h2, hdef h1]
      exact ⟨hcons _ _ _, fun hh => by obtain rfl := Option.some.inj hh; exact hhead _ _⟩

/-- One statement. -/
theorem stmt_spec {raws : List (List Byte)} {n : Nat} {s : Pass1} {es : List Placed} {a : A} (h : Inv raws n s es a)
    {raw : List Byte} {ls : List (Nat × Lexeme)} (hraw : raws[n - 1]? = some raw) (hlex : lexemes raw = .ok ls ∧ Lexes raw ls)
    {st : Stmt} (hp : parse (ls.map (·.2)) = some st) (hst : st ≠ .stop)
    (hj : ∀ l, st.jumpsIndexed = some l → st.defines = some l ∨ s.env.lookup l ≠ none) :
    (∀ e, stmtFault s st = some e → step (cstr raw) ls a = .error (e, faultPos ls e)) ∧
    (stmtFault s st = none → ∃ s' a', pass1Stmt s st = some s' ∧ step (cstr raw) ls a = .ok (false, a') ∧
      Inv raws (n + 1) s' (es ++ (s'.items.drop s.items.length).map (fun it => ⟨n, it, s'.env⟩)) a') := by
  have hnil : ∀ t : Pass1, t.items = s.items → es ++ (t.items.drop s.items.length).map (fun it => (⟨n, it, t.env⟩ : Placed)) = es := by
    intro t ht; rw [ht]; simp
  have hform := other_facts hp
  have lab : ∀ (l : Str) (p v : Nat), declared a.pc ls = some (p, l, v) → (nameOffsets ls).head? = some p →
      isStop ls = false → lastMnem (ls.map (·.2)) = none →
      (∀ e, labelFault s.env l = some e → step (cstr raw) ls a = .error (e, faultPos ls e)) ∧
      (labelFault s.env l = none → ∃ s' a', define s l v = some s' ∧ step (cstr raw) ls a = .ok (false, a') ∧
        Inv raws (n + 1) s' (es ++ (s'.items.drop s.items.length).map (fun it => ⟨n, it, s'.env⟩)) a') := by
    intro l p v hd hn hs hm
    obtain ⟨g1, g2⟩ := declare_label h hd hn
    constructor
    · intro e he
      unfold step
      rw [g1 e he]
    · intro he
      obtain ⟨k1, k2, k3⟩ := g2 he
      refine ⟨_, { a with env := (l, v) :: a.env, lineNum := a.lineNum + 1 }, k1, ?_, ?_⟩
      · unfold step
        rw [k2]
        simp only [hs, hm, Bool.false_eq_true, if_false]
      · rw [hnil { s with env := (l, v) :: s.env } rfl]
        exact k3.bump
  cases st with
  | empty =>
    obtain rfl : ls = [] := hform
    refine ⟨fun e he => by simp [stmtFault] at he, fun _ => ⟨s, _, rfl, rfl, ?_⟩⟩
    rw [hnil _ rfl]
    exact h.bump
  | label l =>
    obtain ⟨p, rfl⟩ := hform
    have := lab l p s.pc (by simp [declared, h.pc]) rfl rfl rfl
    exact this
  | const l v =>
    rcases hform with ⟨p, q, r, rfl⟩ | ⟨p, q, r, rfl⟩ | ⟨p, q, r, rfl⟩
    · exact lab l p v rfl rfl rfl rfl
    · exact lab l p v rfl rfl rfl rfl
    · exact lab l q v rfl rfl rfl rfl
  | org v =>
    refine ⟨fun e he => by simp [stmtFault] at he, fun _ => ⟨{ s with pc := v }, { a with pc := v, lineNum := a.lineNum + 1 }, rfl, ?_, ?_⟩⟩
    · rcases hform with ⟨p, q, rfl⟩ | ⟨p, q, r, rfl⟩ <;> rfl
    · rw [hnil { s with pc := v } rfl]
      exact (h.org v).bump
  | stop => exact absurd rfl hst
  | instr lb m arg =>
    obtain ⟨f1, f2, f3, f4, f5, f6⟩ := instr_facts hp
    cases lb with
    | none =>
      have hd : declare ls a = .ok a := by
        unfold declare
        have := f5 a.pc
        simp only [Option.map_none, Option.map_eq_none_iff] at this
        rw [this, f6 rfl]
      obtain ⟨g1, g2⟩ := instrStep_inv h hraw hlex hp (fun h1 l h2 => by
        rcases hj l (jumpsIndexed_of h1 h2) with h3 | h3
        · cases h3
        · exact h3)
      constructor
      · intro e he
        unfold step
        rw [hd]
        simp only [f4, f2, Bool.false_eq_true, if_false]
        rw [g1 e he]
      · intro he
        obtain ⟨s', a', k1, k2, k3, k4, k5⟩ := g2 he
        refine ⟨s', a', k1, ?_, k5⟩
        unfold step
        rw [hd]
        simp only [f4, f2, Bool.false_eq_true, if_false, k2]
    | some l =>
      obtain ⟨p, hd, hn⟩ : ∃ p, declared a.pc ls = some (p, l, a.pc) ∧ (nameOffsets ls).head? = some p := by
        rcases parse_instr hp with ⟨h1, _⟩ | ⟨l', r, h1, hr, ha⟩
        · cases h1
        · cases h1
          match ls, hr with
          | (p, x) :: (q, y) :: ls', hr =>
            simp only [List.map_cons, List.cons.injEq] at hr
            obtain ⟨rfl, rfl, rfl⟩ := hr
            refine ⟨p, ?_, rfl⟩
            cases ls' <;> rfl
      rw [h.pc] at hd
      obtain ⟨d1, d2⟩ := declare_label (v := s.pc) h (by rw [h.pc]; exact hd) hn
      have e1 : stmtFault s (.instr (some l) m arg) = match labelFault s.env l with
          | some e => some e
          | none => instrFault s.pc ((l, s.pc) :: s.env) m arg := rfl
      have e2 : pass1Stmt s (.instr (some l) m arg) = (define s l s.pc).bind (place · m arg) := rfl
      rw [e1, e2]
      cases hlf : labelFault s.env l with
      | some e =>
        refine ⟨fun e' he => ?_, fun he => by simp at he⟩
        obtain rfl : e = e' := by simpa using he
        unfold step
        rw [d1 _ hlf]
      | none =>
        simp only
        obtain ⟨k1, k2, k3⟩ := d2 hlf
        obtain ⟨g1, g2⟩ := instrStep_inv k3 hraw hlex hp (fun h1 x h2 => by
          rw [List.lookup_cons]
          rcases hj x (jumpsIndexed_of h1 h2) with h3 | h3
          · obtain rfl := Option.some.inj h3
            simp
          · split
            · simp
            · exact h3)
        rw [k1, Option.bind_some]
        constructor
        · intro e he
          unfold step
          rw [k2]
          simp only [f4, f2, Bool.false_eq_true, if_false]
          rw [g1 e he]
        · intro he
          obtain ⟨s', a', j1, j2, j3, j4, j5⟩ := g2 he
          refine ⟨s', a', j1, ?_, j5⟩
          unfold step
          rw [k2]
          simp only [f4, f2, Bool.false_eq_true, if_false, j2]

/-- Lines the machine reads as the specification does. -/
theorem line_spec {raws : List (List Byte)} {n : Nat} {s : Pass1} {es : List Placed} {a : A} (h : Inv raws n s es a) (fn : Str)
    {raw : List Byte} {ls : List (Nat × Lexeme)} (hraw : raws[n - 1]? = some raw) (hlex : Lexes raw ls)
    {st : Stmt} (hp : parse (ls.map (·.2)) = some st) (hst : st ≠ .stop)
    (hj : ∀ l, st.jumpsIndexed = some l → st.defines = some l ∨ s.env.lookup l ≠ none) :
    (∀ e, stmtFault s st = some e → line fn raw a = .error (faultAt fn (cstr raw) a (e, faultPos ls e))) ∧
    (stmtFault s st = none → ∃ s' a', pass1Stmt s st = some s' ∧ line fn raw a = .ok (false, a') ∧
      Inv raws (n + 1) s' (es ++ (s'.items.drop s.items.length).map (fun it => ⟨n, it, s'.env⟩)) a') := by
  have hl : lexemes raw = .ok ls := by
    rw [lexemes_complete hlex, if_pos]
    have := parse_length (ls := ls.map (·.2)) (by rw [hp]; rfl)
    simp only [List.length_map] at this
    omega
  have hs : syn (typeAt (ls.map (·.2))) = .ok () := (syn_ok_iff _).2 (.inl (by rw [hp]; rfl))
  obtain ⟨g1, g2⟩ := stmt_spec h hraw ⟨hl, hlex⟩ hp hst hj
  constructor
  · intro e he
    unfold line
    rw [hl]
    simp only [hs, g1 e he]
  · intro he
    obtain ⟨s', a', k1, k2, k3⟩ := g2 he
    refine ⟨s', a', k1, ?_, k3⟩
    unfold line
    rw [hl]
    simp only [hs, k2]

theorem line_stop {raws : List (List Byte)} {n : Nat} {s : Pass1} {es : List Placed} {a : A} (_h : Inv raws n s es a) (fn : Str)
    {raw : List Byte} {ls : List (Nat × Lexeme)} (hlex : Lexes raw ls) (hp : parse (ls.map (·.2)) = some .stop) :
    line fn raw a = .ok (true, a) := by
  have hl : lexemes raw = .ok ls := by
    rw [lexemes_complete hlex, if_pos]
    have := parse_length (ls := ls.map (·.2)) (by rw [hp]; rfl)
    simp only [List.length_map] at this
    omega
  have hs : syn (typeAt (ls.map (·.2))) = .ok () := (syn_ok_iff _).2 (.inl (by rw [hp]; rfl))
  obtain ⟨p, rfl⟩ := other_facts hp
  unfold line
  rw [hl]
  simp only [hs]
  rfl

/-- All lines of a file, or a prefix of it. -/
theorem run_spec (fn : Str) (raws : List (List Byte)) (tail : List (List Byte)) : ∀ (rest : List (List Byte)) (p : List Stmt),
    Reads rest p → ∀ (n : Nat) (s : Pass1) (es : List Placed) (a : A), Inv raws n s es a → 1 ≤ n →
    raws.drop (n - 1) = rest ++ tail → (∀ before st after l, p = before ++ st :: after → st.jumpsIndexed = some l →
      (∃ d ∈ before ++ [st], d.defines = some l) ∨ s.env.lookup l ≠ none) →
    (∀ k e, firstFault p n s = some (k, e) → ∃ raw ls out, raws[k - 1]? = some raw ∧ Lexes raw ls ∧
      runLines fn (rest ++ tail) a = .error ⟨⟨e, diag (cstr raw) e (faultPos ls e) fn k⟩, out⟩ ∧
      n ≤ k ∧ Written out (writesFrom 0 (es ++ placed (p.take (k - n)) n s))) ∧
    (firstFault p n s = none → ∃ s' a' n', pass1 p s = some s' ∧ Inv raws n' s' (es ++ placed p n s) a' ∧
      ((.stop ∈ p ∧ runLines fn (rest ++ tail) a = .ok a') ∨
        (.stop ∉ p ∧ n' = n + p.length ∧ runLines fn (rest ++ tail) a = runLines fn tail a'))) := by
  intro rest p hr
  induction hr with
  | nil =>
    intro n s es a h _ _ _
    refine ⟨fun k e he => by simp [firstFault] at he, fun _ => ⟨s, a, n, rfl, by simpa [placed] using h, .inr ⟨by simp, by simp, rfl⟩⟩⟩
  | stop l rest x h1 h2 =>
    intro n s es a h _ _ _
    refine ⟨fun k e he => by simp [firstFault] at he, fun _ => ⟨s, a, n, rfl, by simpa [placed] using h, .inl ⟨by simp, ?_⟩⟩⟩
    rw [List.cons_append]
    unfold runLines
    rw [line_stop h fn h1 h2]
  | cons l rest x st p h1 h2 h3 hr ih =>
    intro n s es a h hn hdrop hj
    have hraw : raws[n - 1]? = some l := by
      rw [← List.head?_drop, hdrop]; rfl
    have hdrop' : raws.drop (n + 1 - 1) = rest ++ tail := by
      have : n + 1 - 1 = (n - 1) + 1 := by omega
      rw [this, ← List.drop_drop, hdrop]; rfl
    obtain ⟨g1, g2⟩ := line_spec h fn hraw h1 h2 h3 (fun l hl => by
      simpa using hj [] st p l rfl hl)
    have hff : firstFault (st :: p) n s = match stmtFault s st with
        | some e => some (n, e)
        | none => firstFault p (n + 1) ((pass1Stmt s st).getD s) := by
      cases st <;> first | rfl | exact absurd rfl h3
    have hp1 : pass1 (st :: p) s = (pass1Stmt s st).bind (pass1 p) := by
      cases st <;> first | rfl | exact absurd rfl h3
    have hpl : placed (st :: p) n s = match pass1Stmt s st with
        | none => []
        | some s' => (s'.items.drop s.items.length).map (fun it => ⟨n, it, s'.env⟩) ++ placed p (n + 1) s' := by
      cases st <;> first | rfl | exact absurd rfl h3
    rw [hff, hp1, hpl]
    cases hf : stmtFault s st with
    | some e =>
      refine ⟨fun k e' he => ?_, fun he => by simp at he⟩
      obtain ⟨rfl, rfl⟩ : n = k ∧ e = e' := by simpa using he
      refine ⟨l, x, a.out, hraw, h1, ?_, Nat.le_refl _, ?_⟩
      · rw [List.cons_append]
        unfold runLines
        rw [g1 _ hf]
        simp only [faultAt, h.line]
      · simpa [placed] using h.out
    | none =>
      obtain ⟨s', a', k1, k2, k3⟩ := g2 hf
      simp only [k1, Option.getD_some, Option.bind_some]
      obtain ⟨i1, i2⟩ := ih (n + 1) s' _ a' k3 (by omega) hdrop' (by
        intro before t after y he hy
        obtain ⟨e1, e2⟩ := pass1Stmt_env k1 y
        rcases hj (st :: before) t after y (by rw [he]; rfl) hy with ⟨d, hd, hdy⟩ | hd
        · rcases List.mem_cons.1 hd with rfl | hd
          · exact .inr (e2 hdy)
          · exact .inl ⟨d, hd, hdy⟩
        · exact .inr (e1 hd))
      have hrun : runLines fn (l :: rest ++ tail) a = runLines fn (rest ++ tail) a' := by
        rw [List.cons_append]
        conv_lhs => unfold runLines
        rw [k2]
      rw [hrun]
      refine ⟨fun k e he => ?_, fun he => ?_⟩
      · obtain ⟨raw, ls, out, j1, j2, j3, j4, j5⟩ := i1 k e he
        refine ⟨raw, ls, out, j1, j2, j3, by omega, ?_⟩
        have ht : (st :: p).take (k - n) = st :: p.take (k - (n + 1)) := by
          rw [show k - n = (k - (n + 1)) + 1 by omega]; rfl
        have hpl' : placed (st :: p.take (k - (n + 1))) n s = match pass1Stmt s st with
            | none => []
            | some s' => (s'.items.drop s.items.length).map (fun it => ⟨n, it, s'.env⟩) ++ placed (p.take (k - (n + 1))) (n + 1) s' := by
          cases st <;> first | rfl | exact absurd rfl h3
        rw [ht, hpl', k1, ← List.append_assoc]
        exact j5
      obtain ⟨s'', a'', n'', j1, j2, j3⟩ := i2 he
      refine ⟨s'', a'', n'', j1, by rw [← List.append_assoc]; exact j2, ?_⟩
      rcases j3 with ⟨j3, j4⟩ | ⟨j3, j4, j5⟩
      · exact .inl ⟨by simp [j3], j4⟩
      · refine .inr ⟨?_, by simp; omega, j5⟩
        simp only [List.mem_cons, not_or]
        exact ⟨fun h => h3 h.symm, j3⟩

end Gaia

import Verif.Props.C21_Runs
import Verif.Props.C12_Runs

/-!
C62: where a constant is defined does not matter: the line can be moved up.
-/
namespace Gaia
open Gaia.Spec

/-! ### Programs with the same instructions -/

theorem pass2Low_congr {env env' : Env} : ∀ {items items' : List Item},
    List.Forall₂ (fun a b => b.addr = a.addr ∧ encodeLow env' b = encodeLow env a) items items' → pass2Low env' items' = pass2Low env items
  | _, _, .nil => rfl
  | _, _, .cons (a := a) (b := b) h t => by
    unfold pass2Low
    rw [h.1, h.2, pass2Low_congr t]

theorem encodeLow_congr {env env' : Env} (h : ∀ x, env'.lookup x = env.lookup x) (it : Item) : encodeLow env' it = encodeLow env it := by
  have : opdValue env' = opdValue env := by funext o; cases o <;> simp [opdValue, h]
  unfold encodeLow operandBytesLow
  rw [this]

theorem ascending_congr {items items' : List Item} (h : List.Forall₂ (fun a b => b.addr = a.addr ∧ b.mode = a.mode) items items')
    (ha : Ascending items) : Ascending items' := by
  induction h with
  | nil => exact .nil
  | cons h t ih =>
    obtain ⟨h1, h2⟩ := List.pairwise_cons.1 ha
    refine List.pairwise_cons.2 ⟨fun b hb => ?_, ih h2⟩
    obtain ⟨i, hi, rfl⟩ := List.getElem_of_mem hb
    have hl := t.length_eq
    have := h1 _ (List.getElem_mem (l := _) (n := i) (by omega))
    have g := (List.forall₂_iff_get.1 t).2 i (by omega) hi
    simp only [List.get_eq_getElem] at g
    rw [h.1, h.2, g.1]
    exact this

theorem pass2_of_assembleLow {p : List Stmt} {s : Pass1} {r : Result} (h : pass1 p .init = some s) (hr : assembleLow p = some r) :
    pass2Low s.env s.items = some r.chunks := by
  unfold assembleLow at hr
  rw [show (⟨0, [], []⟩ : Pass1) = Pass1.init from rfl, h] at hr
  simp only [Option.bind_eq_bind, Option.bind_some, Option.bind_eq_some_iff, Option.some.injEq] at hr
  obtain ⟨c, k1, rfl⟩ := hr
  exact k1

theorem assembleLow_of_pass2 {p : List Stmt} {s : Pass1} {cs : List Chunk} (h : pass1 p .init = some s) (hr : pass2Low s.env s.items = some cs) :
    assembleLow p = some ⟨cs, s.env⟩ := by
  unfold assembleLow
  rw [show (⟨0, [], []⟩ : Pass1) = Pass1.init from rfl, h]
  simp only [Option.bind_eq_bind, Option.bind_some]
  rw [hr]
  rfl

/-- Two programs whose instructions stand at the same addresses and have the same bytes have the same binary. -/
theorem same_code {w w' : World} {srcName outName srcName' outName' : Str} {src src' : List Byte} {p p' : List Stmt}
    (hw : Setup w srcName outName src) (hw' : Setup w' srcName' outName' src') (hp : IsProgram src p) (hp' : IsProgram src' p')
    (ha : AscendingProgram p) {bin : List Byte} {t n : Nat} (hs : Succeeds w srcName outName bin t n) {s s' : Pass1}
    (h1 : pass1 p .init = some s) (h2 : pass1 p' .init = some s')
    (hi : List.Forall₂ (fun a b => b.addr = a.addr ∧ b.mode = a.mode ∧ encodeLow s'.env b = encodeLow s.env a) s.items s'.items) :
    Succeeds w' srcName' outName' bin t (n - s.env.length + s'.env.length) := by
  have hc := succeeds_check hw hp hs
  obtain ⟨s0, g1, g2⟩ := check_assembleLow.1 hc
  obtain rfl : s = s0 := by rw [h1] at g1; simpa using g1
  have hr := (C26_low hw hp ha).1 _ g2
  obtain ⟨rfl, rfl, rfl⟩ := hs.unique hr
  have g3 := pass2_of_assembleLow h1 g2
  have g4 := assembleLow_of_pass2 h2 ((pass2Low_congr (hi.imp fun a b h => ⟨h.1, h.2.2⟩)).trans g3)
  have ha' : AscendingProgram p' := by
    intro u hu
    rw [h2] at hu
    obtain rfl : s' = u := by simpa using hu
    exact ascending_congr (hi.imp fun a b h => ⟨h.1, h.2.1⟩) (ha s h1)
  have := (C26_low hw' hp' ha').1 _ g4
  simpa using this

/-! ### Knowing one more constant changes nothing -/

theorem modeFor_flow {m : Mnemonic} (h : (Spec.isBranch m || Spec.isJump m) = true) (a : Arg) (v v' : Nat) : modeFor m a v = modeFor m a v' := by
  cases m <;> first | (exfalso; revert h; decide) | skip
  all_goals
    cases a <;> unfold modeFor wantedMode <;>
      first
      | rfl
      | (simp [Spec.isJump, opcode?]; done)
      | (by_cases h1 : v ≤ 0xFF <;> by_cases h2 : v' ≤ 0xFF <;> simp [h1, h2, Spec.isJump] <;> decide)

/-- The state `t` is `s` with one more symbol. -/
structure Knows (l : Str) (v : Nat) (s t : Pass1) : Prop where
  pc : t.pc = s.pc
  items : t.items = s.items
  fresh : s.env.lookup l = none
  look : ∀ x, t.env.lookup x = if x = l then some v else s.env.lookup x
  length : t.env.length = s.env.length + 1

theorem Knows.define {l : Str} {v : Nat} {s t s' : Pass1} (h : Knows l v s t) {x : Str} {k : Nat} (hd : Spec.define s x k = some s')
    (hx : s'.env.lookup l = none) : ∃ t', Spec.define t x k = some t' ∧ Knows l v s' t' := by
  obtain ⟨h1, rfl⟩ := define_some hd
  have hne : x ≠ l := by
    rintro rfl
    simp at hx
  have h2 : t.env.lookup x = none := by rw [h.look x, if_neg hne]; exact h1
  refine ⟨⟨t.pc, (x, k) :: t.env, t.items⟩, by unfold Spec.define; rw [h2], h.pc, h.items, hx, fun y => ?_, by simp [h.length]⟩
  simp only [List.lookup_cons]
  by_cases hy : y = x
  · subst hy; simp [hne]
  · have : (y == x) = false := by simpa using hy
    rw [this]
    exact h.look y

theorem Knows.place {l : Str} {v : Nat} {s t s' : Pass1} (h : Knows l v s t) {m : Mnemonic} {a : Arg} (hp : Spec.place s m a = some s') :
    ∃ t', Spec.place t m a = some t' ∧ Knows l v s' t' := by
  obtain ⟨k, md, h1, h2, rfl⟩ := place_some hp
  have h3 : ∃ k', sizingValue t.env m a.opd = some k' ∧ modeFor m a k' = some md := by
    cases ho : a.opd with
    | none => rw [ho] at h1; exact ⟨k, h1, h2⟩
    | some o =>
      cases o with
      | lit j => rw [ho] at h1; exact ⟨k, h1, h2⟩
      | sym x =>
        rw [ho] at h1
        unfold sizingValue at h1 ⊢
        simp only [h.look x] at h1 ⊢
        by_cases hx : x = l
        · subst hx
          rw [h.fresh] at h1
          simp only at h1
          split at h1
          · rename_i hb
            refine ⟨v, by simp, ?_⟩
            rw [← h2]
            exact modeFor_flow hb a v k
          · cases h1
        · rw [if_neg hx]
          exact ⟨k, h1, h2⟩
  obtain ⟨k', g1, g2⟩ := h3
  refine ⟨⟨t.pc + md.bytes, t.env, t.items ++ [⟨t.pc, m, md, a.opd⟩]⟩, ?_, by simp [h.pc], by simp [h.pc, h.items], h.fresh, h.look, h.length⟩
  unfold Spec.place
  rw [g1]
  simp [g2]

theorem Knows.stmt {l : Str} {v : Nat} {s t s' : Pass1} (h : Knows l v s t) {st : Stmt} (hp : pass1Stmt s st = some s')
    (hx : s'.env.lookup l = none) : ∃ t', pass1Stmt t st = some t' ∧ Knows l v s' t' := by
  cases st with
  | empty => obtain rfl : s = s' := by simpa [pass1Stmt] using hp
             exact ⟨t, rfl, h⟩
  | stop => obtain rfl : s = s' := by simpa [pass1Stmt] using hp
            exact ⟨t, rfl, h⟩
  | label x =>
    have hp : Spec.define s x s.pc = some s' := hp
    rw [← h.pc] at hp
    exact h.define hp hx
  | const x k => exact h.define hp hx
  | org k =>
    obtain rfl : { s with pc := k } = s' := by simpa [pass1Stmt] using hp
    exact ⟨{ t with pc := k }, rfl, rfl, h.items, h.fresh, h.look, h.length⟩
  | instr lb m a =>
    cases lb with
    | none => exact h.place hp
    | some x =>
      have hp : (Spec.define s x s.pc).bind (Spec.place · m a) = some s' := hp
      obtain ⟨u, h1, h2⟩ := Option.bind_eq_some_iff.1 hp
      rw [← h.pc] at h1
      have hu : u.env.lookup l = none := by
        obtain ⟨k, md, _, _, rfl⟩ := place_some h2
        exact hx
      obtain ⟨u', g1, g2⟩ := h.define h1 hu
      obtain ⟨t', g3, g4⟩ := g2.place h2
      exact ⟨t', Option.bind_eq_some_iff.2 ⟨u', g1, g3⟩, g4⟩

theorem lookup_none_of_extends {s s' : Pass1} (h : Extends s s') {l : Str} (hl : s'.env.lookup l = none) : s.env.lookup l = none := by
  cases hc : s.env.lookup l with
  | none => rfl
  | some v => rw [h.1 l v hc] at hl; cases hl

theorem Knows.pass1 {l : Str} {v : Nat} : ∀ (p : List Stmt) {s t s' : Pass1}, .stop ∉ p → Knows l v s t → Spec.pass1 p s = some s' →
    s'.env.lookup l = none → ∃ t', Spec.pass1 p t = some t' ∧ Knows l v s' t'
  | [], s, t, s', _, h, hp, _ => by
    obtain rfl : s = s' := by simpa [Spec.pass1] using hp
    exact ⟨t, rfl, h⟩
  | st :: p, s, t, s', hs, h, hp, hx => by
    have hst : st ≠ .stop := fun e => hs (by simp [e])
    rw [pass1_cons hst] at hp
    obtain ⟨u, h1, h2⟩ := Option.bind_eq_some_iff.1 hp
    obtain ⟨u', g1, g2⟩ := h.stmt h1 (lookup_none_of_extends (pass1_extends p h2) hx)
    obtain ⟨t', g3, g4⟩ := Knows.pass1 p (fun e => hs (by simp [e])) g2 h2 hx
    exact ⟨t', by rw [pass1_cons hst, g1]; exact g3, g4⟩

/-- Two states that differ only in the order of their symbols. -/
structure Reordered (s t : Pass1) : Prop where
  pc : t.pc = s.pc
  items : t.items = s.items
  look : ∀ x, t.env.lookup x = s.env.lookup x
  length : t.env.length = s.env.length

theorem Reordered.define {s t s' : Pass1} (h : Reordered s t) {x : Str} {k : Nat} (hd : Spec.define s x k = some s') :
    ∃ t', Spec.define t x k = some t' ∧ Reordered s' t' := by
  obtain ⟨h1, rfl⟩ := define_some hd
  have h2 : t.env.lookup x = none := by rw [h.look x]; exact h1
  refine ⟨⟨t.pc, (x, k) :: t.env, t.items⟩, by unfold Spec.define; rw [h2], h.pc, h.items, fun y => ?_, by simp [h.length]⟩
  simp only [List.lookup_cons, h.look y]

theorem Reordered.place {s t s' : Pass1} (h : Reordered s t) {m : Mnemonic} {a : Arg} (hp : Spec.place s m a = some s') :
    ∃ t', Spec.place t m a = some t' ∧ Reordered s' t' := by
  obtain ⟨k, md, h1, h2, rfl⟩ := place_some hp
  have h3 : sizingValue t.env m a.opd = some k := by
    rw [← h1]
    unfold sizingValue
    simp only [h.look]
  refine ⟨⟨t.pc + md.bytes, t.env, t.items ++ [⟨t.pc, m, md, a.opd⟩]⟩, ?_, by simp [h.pc], by simp [h.pc, h.items], h.look, h.length⟩
  unfold Spec.place
  rw [h3]
  simp [h2]

theorem Reordered.pass1 : ∀ (p : List Stmt) {s t s' : Pass1}, Reordered s t → Spec.pass1 p s = some s' →
    ∃ t', Spec.pass1 p t = some t' ∧ Reordered s' t'
  | [], s, t, s', h, hp => by
    obtain rfl : s = s' := by simpa [Spec.pass1] using hp
    exact ⟨t, rfl, h⟩
  | st :: p, s, t, s', h, hp => by
    by_cases hst : st = .stop
    · subst hst
      obtain rfl : s = s' := by simpa [Spec.pass1] using hp
      exact ⟨t, rfl, h⟩
    rw [pass1_cons hst] at hp
    obtain ⟨u, h1, h2⟩ := Option.bind_eq_some_iff.1 hp
    have : ∃ u', pass1Stmt t st = some u' ∧ Reordered u u' := by
      cases st with
      | empty => obtain rfl : s = u := by simpa [pass1Stmt] using h1
                 exact ⟨t, rfl, h⟩
      | stop => exact absurd rfl hst
      | label x =>
        have h1 : Spec.define s x s.pc = some u := h1
        rw [← h.pc] at h1
        exact h.define h1
      | const x k => exact h.define h1
      | org k =>
        obtain rfl : { s with pc := k } = u := by simpa [pass1Stmt] using h1
        exact ⟨{ t with pc := k }, rfl, rfl, h.items, h.look, h.length⟩
      | instr lb m a =>
        cases lb with
        | none => exact h.place h1
        | some x =>
          have h1 : (Spec.define s x s.pc).bind (Spec.place · m a) = some u := h1
          obtain ⟨y, k1, k2⟩ := Option.bind_eq_some_iff.1 h1
          rw [← h.pc] at k1
          obtain ⟨y', g1, g2⟩ := h.define k1
          obtain ⟨t', g3, g4⟩ := g2.place k2
          exact ⟨t', Option.bind_eq_some_iff.2 ⟨y', g1, g3⟩, g4⟩
    obtain ⟨u', g1, g2⟩ := this
    obtain ⟨t', g3, g4⟩ := Reordered.pass1 p g2 h2
    exact ⟨t', by rw [pass1_cons hst, g1]; exact g3, g4⟩

theorem pass1_append_some : ∀ (p q : List Stmt) {s t s' : Pass1}, .stop ∉ p → pass1 p s = some t → pass1 q t = some s' →
    pass1 (p ++ q) s = some s'
  | [], q, s, t, s', _, h1, h2 => by
    obtain rfl : s = t := by simpa [pass1] using h1
    exact h2
  | st :: p, q, s, t, s', hs, h1, h2 => by
    have hst : st ≠ .stop := fun e => hs (by simp [e])
    rw [pass1_cons hst] at h1
    obtain ⟨u, g1, g2⟩ := Option.bind_eq_some_iff.1 h1
    rw [List.cons_append, pass1_cons hst, g1]
    exact pass1_append_some p q (fun e => hs (by simp [e])) g2 h2

/-- Moving a constant up gives the same instructions. -/
theorem pass1_moved {a b c : List Stmt} {l : Str} {v : Nat} (hs : .stop ∉ a ++ b) {s : Pass1} (h : pass1 (a ++ b ++ .const l v :: c) .init = some s) :
    ∃ t, pass1 (a ++ .const l v :: b ++ c) .init = some t ∧ Reordered s t := by
  obtain ⟨y, h1, h2⟩ := pass1_append (a ++ b) _ hs h
  have ha : .stop ∉ a := fun e => hs (by simp [e])
  have hb : .stop ∉ b := fun e => hs (by simp [e])
  obtain ⟨x, h3, h4⟩ := pass1_append a b ha h1
  rw [pass1_cons (by simp)] at h2
  obtain ⟨z, h5, h6⟩ := Option.bind_eq_some_iff.1 h2
  obtain ⟨hy, rfl⟩ := define_some h5
  have hx := lookup_none_of_extends (pass1_extends b h4) hy
  have hk : Knows l v x ⟨x.pc, (l, v) :: x.env, x.items⟩ := by
    refine ⟨rfl, rfl, hx, fun w => ?_, rfl⟩
    simp only [List.lookup_cons]
    by_cases hw : w = l
    · subst hw; simp
    · have : (w == l) = false := by simpa using hw
      rw [this, if_neg hw]
  obtain ⟨y', g1, g2⟩ := hk.pass1 b hb h4 hy
  have hr : Reordered ⟨y.pc, (l, v) :: y.env, y.items⟩ y' := by
    refine ⟨g2.pc, g2.items, fun w => ?_, by simp [g2.length]⟩
    rw [g2.look w]
    simp only [List.lookup_cons]
    by_cases hw : w = l
    · subst hw; simp
    · have : (w == l) = false := by simpa using hw
      rw [this, if_neg hw]
  obtain ⟨t, g3, g4⟩ := hr.pass1 c h6
  refine ⟨t, ?_, g4⟩
  rw [List.append_assoc]
  refine pass1_append_some a _ ha h3 ?_
  rw [List.cons_append, pass1_cons (by simp)]
  have : pass1Stmt x (.const l v) = some ⟨x.pc, (l, v) :: x.env, x.items⟩ := by
    show Spec.define x l v = _
    unfold Spec.define; rw [hx]
  rw [this]
  exact pass1_append_some b c hb g1 g3

/-! ### The texts -/

theorem Reads_split : ∀ (a b : List Stmt) {ls : List (List Byte)}, .stop ∉ a → Reads ls (a ++ b) →
    ∃ la lb, ls = la ++ lb ∧ Reads la a ∧ Reads lb b ∧ la.length = a.length
  | [], b, ls, _, h => ⟨[], ls, rfl, .nil, h, rfl⟩
  | st :: a, b, ls, hs, h => by
    rw [List.cons_append] at h
    generalize hq : a ++ b = q at h
    cases h with
    | stop l rest x h1 h2 => simp at hs
    | cons l rest x _ _ h1 h2 h3 hr =>
      subst hq
      obtain ⟨la, lb, rfl, g1, g2, g3⟩ := Reads_split a b (fun e => hs (by simp [e])) hr
      exact ⟨l :: la, lb, rfl, .cons _ _ _ _ _ h1 h2 h3 g1, g2, by simp [g3]⟩

theorem Reads_append {la lb : List (List Byte)} {a b : List Stmt} (h : Reads la a) (hs : .stop ∉ a) (hb : Reads lb b) : Reads (la ++ lb) (a ++ b) := by
  induction h with
  | nil => exact hb
  | stop => simp at hs
  | cons l rest x st p h1 h2 h3 hr ih => exact .cons _ _ _ _ _ h1 h2 h3 (ih fun e => hs (by simp [e]))

theorem jumpsIndexed_const {l : Str} {v : Nat} : (Stmt.const l v).jumpsIndexed = none := rfl

/-- An indexed jump in a program with one line moved up still comes after the definition of its label. -/
theorem noForwardJump_moved {a b c : List Stmt} {l : Str} {v : Nat} (h : NoForwardIndexedJump (a ++ b ++ .const l v :: c)) :
    NoForwardIndexedJump (a ++ .const l v :: b ++ c) := by
  intro before st after x he hx
  have mono : ∀ (pre post pre' : List Stmt), a ++ b ++ .const l v :: c = pre ++ st :: post → (∀ d ∈ pre, d ∈ pre') →
      ∃ d ∈ pre' ++ [st], d.defines = some x := by
    intro pre post pre' e hsub
    obtain ⟨d, hd, hd'⟩ := h pre st post x e hx
    refine ⟨d, ?_, hd'⟩
    rcases List.mem_append.1 hd with hd | hd
    · exact List.mem_append.2 (.inl (hsub d hd))
    · exact List.mem_append.2 (.inr hd)
  rw [List.append_assoc] at he
  rcases List.append_eq_append_iff.1 he with ⟨m, h1, h2⟩ | ⟨m, h1, h2⟩
  · -- in what follows a
    cases m with
    | nil =>
      simp only [List.nil_append, List.cons_append] at h2
      injection h2 with h2 _
      subst h2; cases hx
    | cons y m =>
      simp only [List.cons_append] at h2
      injection h2 with h2 h3
      subst h2
      rcases List.append_eq_append_iff.1 h3 with ⟨n, k1, k2⟩ | ⟨n, k1, k2⟩
      · -- in c
        refine mono (a ++ b ++ .const l v :: n) after before (by rw [k2]; simp) ?_
        intro d hd
        rw [h1, k1]
        simp at hd ⊢
        tauto
      · cases n with
        | nil =>
          simp only [List.nil_append] at k2
          refine mono (a ++ b ++ [.const l v]) after before (by rw [← k2]; simp) ?_
          intro d hd
          rw [h1]
          simp only [List.append_nil] at k1
          rw [← k1]
          simp at hd ⊢
          tauto
        | cons z n =>
          simp only [List.cons_append] at k2
          injection k2 with k2 k3
          subst k2
          refine mono (a ++ m) (n ++ .const l v :: c) before (by rw [k1]; simp) ?_
          intro d hd
          rw [h1]
          simp at hd ⊢
          tauto
  · cases m with
    | nil =>
      simp only [List.nil_append, List.cons_append] at h2
      injection h2 with h2 _
      subst h2; cases hx
    | cons y m =>
      simp only [List.cons_append] at h2
      injection h2 with h2 h3
      subst h2
      exact mono before (m ++ b ++ .const l v :: c) before (by rw [h1]; simp) fun d hd => hd

theorem sized_lines {src : List Byte} (h : ∀ l ∈ lines src, l.length ≤ 126) : Sized src ↔ (lines src).length < maxSymbols := by
  unfold Sized
  rw [pieces_eq, (chunks_lines src h).length_eq]

/-- The text with the line moved is a program too. -/
theorem isProgram_moved {src src' : List Byte} {a b c : List Stmt} {l : Str} {v : Nat} (hp : IsProgram src (a ++ b ++ .const l v :: c))
    (hs : .stop ∉ a ++ b) {la lb lc : List (List Byte)} {k : List Byte} (h1 : lines src = la ++ lb ++ k :: lc) (hla : la.length = a.length)
    (hlb : lb.length = b.length) (h2 : lines src' = la ++ k :: lb ++ lc) : IsProgram src' (a ++ .const l v :: b ++ c) := by
  have hsa : .stop ∉ a := fun e => hs (by simp [e])
  have hsb : .stop ∉ b := fun e => hs (by simp [e])
  have hshort : ∀ x ∈ lines src', x.length ≤ 126 := by
    intro x hx
    refine hp.short x ?_
    rw [h2] at hx; rw [h1]
    simp at hx ⊢
    tauto
  refine ⟨?_, hshort, ?_, noForwardJump_moved hp.noForwardJump⟩
  · have := (sized_lines hp.short).1 hp.size
    rw [sized_lines hshort, h2]
    rw [h1] at this
    simp at this ⊢
    omega
  · obtain ⟨xa, xr, e1, r1, r2, n1⟩ := Reads_split (a ++ b) _ hs hp.reads
    obtain ⟨ya, yb, rfl, r3, r4, n2⟩ := Reads_split a b hsa r1
    cases r2 with
    | cons l' rest x _ _ g1 g2 g3 gr =>
      rw [h1] at e1
      have n3 := Reads_length r4 hsb
      obtain ⟨e2, e3⟩ := List.append_inj e1 (by simp [hla, hlb] at n1 ⊢; omega)
      obtain ⟨rfl, rfl⟩ := List.append_inj e2 (by omega)
      injection e3 with e4 e5
      subst e4 e5
      rw [h2, List.append_assoc, List.append_assoc]
      refine Reads_append r3 hsa ?_
      exact .cons _ _ _ _ _ g1 g2 g3 (Reads_append r4 hsb gr)

/-- **C62.** In a successful assembly (documented language, ascending addresses), a line that defines a constant can be moved up, past
any lines but `.END`: the binary and the totals are the same. The texts are given by their lines: `la`, `lb`, `k`, `lc` in the one and
`la`, `k`, `lb`, `lc` in the other, where `la` and `lb` are the statements `a` and `b`, and `k` is the constant. -/
theorem C62_moved {w w' : World} {srcName outName srcName' outName' : Str} {src src' : List Byte} {a b c : List Stmt} {l : Str} {v : Nat}
    (hw : Setup w srcName outName src) (hw' : Setup w' srcName' outName' src') (hp : IsProgram src (a ++ b ++ .const l v :: c))
    (hs : .stop ∉ a ++ b) {la lb lc : List (List Byte)} {k : List Byte} (h1 : lines src = la ++ lb ++ k :: lc) (hla : la.length = a.length)
    (hlb : lb.length = b.length) (h2 : lines src' = la ++ k :: lb ++ lc) (ha : AscendingProgram (a ++ b ++ .const l v :: c))
    {bin : List Byte} {total symbols : Nat} (hr : Succeeds w srcName outName bin total symbols) :
    Succeeds w' srcName' outName' bin total symbols := by
  have hp' := isProgram_moved hp hs h1 hla hlb h2
  obtain ⟨s, q1, q2⟩ := check_assembleLow.1 (succeeds_check hw hp hr)
  obtain ⟨t, q3, q4⟩ := pass1_moved hs q1
  have hn := (hr.unique ((C26_low hw hp ha).1 _ q2)).2.2
  have := same_code hw hw' hp hp' ha hr q1 q3 (by
    rw [q4.items]
    exact List.forall₂_same.2 fun it _ => ⟨rfl, rfl, encodeLow_congr q4.look it⟩)
  rw [q4.length, hn] at this
  rw [hn]
  simpa using this

/-- **C62, any addresses.** If the addresses do not ascend, the text with the constant moved up is still accepted, with the same totals. -/
theorem C62_accepted {w w' : World} {srcName outName srcName' outName' : Str} {src src' : List Byte} {a b c : List Stmt} {l : Str} {v : Nat}
    (hw : Setup w srcName outName src) (hw' : Setup w' srcName' outName' src') (hp : IsProgram src (a ++ b ++ .const l v :: c))
    (hs : .stop ∉ a ++ b) {la lb lc : List (List Byte)} {k : List Byte} (h1 : lines src = la ++ lb ++ k :: lc) (hla : la.length = a.length)
    (hlb : lb.length = b.length) (h2 : lines src' = la ++ k :: lb ++ lc)
    {bin : List Byte} {total symbols : Nat} (hr : Succeeds w srcName outName bin total symbols) :
    ∃ bin', Succeeds w' srcName' outName' bin' total symbols := by
  have hp' := isProgram_moved hp hs h1 hla hlb h2
  obtain ⟨s, q1, q2⟩ := check_assembleLow.1 (succeeds_check hw hp hr)
  obtain ⟨t, q3, q4⟩ := pass1_moved hs q1
  have q5 := pass2_of_assembleLow q1 q2
  have q6 := assembleLow_of_pass2 q3 ((pass2Low_congr (by
    rw [q4.items]
    exact List.forall₂_same.2 fun it _ => ⟨rfl, encodeLow_congr q4.look it⟩)).trans q5)
  obtain ⟨bin1, g1⟩ := (C26_accepts hw hp).1 _ q2
  obtain ⟨_, rfl, rfl⟩ := hr.unique g1
  obtain ⟨bin', g2⟩ := (C26_accepts hw' hp').1 _ q6
  exact ⟨bin', by simpa [q4.length] using g2⟩

/-! ### A case: `K` is used by a jump and a branch before its definition, and by a load after it -/

def movedSrc : List Byte := b! "*=$10\nL JMP K\n BNE K\nK =$20\n LDA K\n"
def movedSrc' : List Byte := b! "K =$20\n*=$10\nL JMP K\n BNE K\n LDA K\n"
def movedUses : List Stmt := [.org 0x10, .instr (some (b! "L")) .JMP (.plain (.sym (b! "K"))), .instr none .BNE (.plain (.sym (b! "K")))]
def movedRest : List Stmt := [.instr none .LDA (.plain (.sym (b! "K")))]
def movedBin : List Byte := List.replicate 0x10 0 ++ [0x4C, 0x20, 0, 0xD0, 0x0B, 0xA5, 0x20]

theorem moved_isProgram : IsProgram movedSrc ([] ++ movedUses ++ .const (b! "K") 0x20 :: movedRest) :=
  isProgram_eval (by decide) (by decide +kernel) (by decide +kernel) (by
    intro st hst h
    simp only [movedUses, movedRest, List.nil_append, List.cons_append, List.mem_cons, List.not_mem_nil, or_false] at hst
    rcases hst with rfl | rfl | rfl | rfl | rfl <;> simp [IndexedJump, Stmt.jumpsIndexed] at h)

theorem moved_succeeds : Succeeds (demo movedSrc) (b! "p.asm") (b! "p.bin") movedBin 7 2 := demo_succeeds (by decide +kernel)

example : Succeeds (demo movedSrc') (b! "p.asm") (b! "p.bin") movedBin 7 2 :=
  C62_moved (demo_setup _) (demo_setup _) moved_isProgram (by decide +kernel) (la := []) (lb := (lines movedSrc).take 3) (k := b! "K =$20")
    (lc := [b! " LDA K"]) (by decide +kernel) rfl (by decide +kernel) (by decide +kernel) (ascendingProgram_eval (by decide +kernel)) moved_succeeds

/-- Down it cannot be moved in general: the load needs the value. -/
example : Succeeds (demo (b! "K =$20\n LDA K\n")) (b! "p.asm") (b! "p.bin") [0xA5, 0x20] 2 1 ∧
    ∃ text, gaia (b! "p.asm") (b! "p.bin") (demo (b! " LDA K\nK =$20\n")) =
      .exited ⟨1, text, { demo (b! " LDA K\nK =$20\n") with
        files := fun n => if n = b! "p.bin" then some [] else (demo (b! " LDA K\nK =$20\n")).files n }⟩ :=
  ⟨demo_succeeds (by decide +kernel), _, by rfl⟩

end Gaia

import Verif.Proofs.Rename
import Verif.Props.Reach

/-!
Runs of the pure machine on lines that correspond, as in `Proofs/Rename.lean`, with the messages: `K n raw n' raw' pos pos'` says that
a complaint about line `n`, of text `raw`, at `pos` corresponds to one about line `n'`, of text `raw'`, at `pos'`.
-/
set_option linter.unusedSimpArgs false
namespace Gaia
open Spec

abbrev Complaint := Nat → List Byte → Nat → List Byte → Option Nat → Option Nat → Prop

/-- Lexemes and their offsets correspond. -/
abbrev LineM (T : Str → Str → Prop) (P : Option Nat → Option Nat → Prop) (ls ls' : List (Nat × Lexeme)) : Prop :=
  List.Forall₂ (fun q q' => LexSim T q.2 q'.2 ∧ P (some q.1) (some q'.1)) ls ls'

theorem LineM.sim {T : Str → Str → Prop} {P : Option Nat → Option Nat → Prop} {ls ls' : List (Nat × Lexeme)} (h : LineM T P ls ls') : LineSim T ls ls' :=
  h.imp fun _ _ h => h.1

/-- References correspond, and so do the complaints about them. -/
def RefM (T : Str → Str → Prop) (K : Complaint) (r r' : ForwardRef) : Prop :=
  RefSim T r r' ∧ ∃ raw raw', K r.lineNum raw r'.lineNum raw' (some r.operandLocation) (some r'.operandLocation) ∧
    (∀ e fn, diag r.sourceLine e (some r.operandLocation) fn r.lineNum = diag (cstr raw) e (some r.operandLocation) fn r.lineNum) ∧
    ∀ e fn, diag r'.sourceLine e (some r'.operandLocation) fn r'.lineNum = diag (cstr raw') e (some r'.operandLocation) fn r'.lineNum

structure SimM (T : Str → Str → Prop) (K : Complaint) (d δ : Nat) (a a' : A) : Prop where
  sim : SimA T d a a'
  num : a'.lineNum = a.lineNum + δ
  refs : List.Forall₂ (RefM T K) a.refs a'.refs

theorem SimM.emit {T : Str → Str → Prop} {K : Complaint} {d δ : Nat} {a a' : A} (h : SimM T K d δ a a') (bs : List Byte) :
    SimM T K d δ (a.emit bs) (a'.emit bs) :=
  ⟨h.sim.emit bs, by simp [A.emit, h.num]; omega, h.refs⟩

/-- The same error, at offsets that correspond. -/
def FaultM (P : Option Nat → Option Nat → Prop) (f f' : Fault) : Prop := f.1 = f'.1 ∧ P f.2 f'.2

theorem declared_m {T : Str → Str → Prop} {P : Option Nat → Option Nat → Prop} {ls ls' : List (Nat × Lexeme)} (h : LineM T P ls ls') (pc : Nat) :
    (declared pc ls = none ∧ declared pc ls' = none) ∨
    ∃ p p' l l' v, declared pc ls = some (p, l, v) ∧ declared pc ls' = some (p', l', v) ∧ T l l' ∧ P (some p) (some p') := by
  cases h with
  | nil => exact .inl ⟨rfl, rfl⟩
  | @cons q q' r r' hq hr =>
    obtain ⟨p, x⟩ := q
    obtain ⟨p', x'⟩ := q'
    obtain ⟨hx, hp⟩ := hq
    simp only at hx hp
    cases hx with
    | @name l l' hl =>
      right
      cases hr with
      | nil => exact ⟨p, p', l, l', pc, rfl, rfl, hl, hp⟩
      | @cons q q' r r' hq hr =>
        obtain ⟨_, y⟩ := q
        obtain ⟨_, y'⟩ := q'
        obtain ⟨hy, _⟩ := hq
        simp only at hy
        cases hy with
        | name _ => exact ⟨p, p', l, l', pc, rfl, rfl, hl, hp⟩
        | @same y hy =>
          cases hr with
          | nil => cases y <;> exact ⟨p, p', l, l', pc, rfl, rfl, hl, hp⟩
          | @cons q q' r r' hq hr =>
            obtain ⟨_, z⟩ := q
            obtain ⟨_, z'⟩ := q'
            obtain ⟨hz, _⟩ := hq
            simp only at hz
            cases hz with
            | name _ => cases y <;> exact ⟨p, p', l, l', pc, rfl, rfl, hl, hp⟩
            | @same z hz => cases y <;> cases z <;> exact ⟨p, p', l, l', _, rfl, rfl, hl, hp⟩
    | @same x hx =>
      by_cases hd : x = .define
      · subst hd
        cases hr with
        | nil => exact .inl ⟨rfl, rfl⟩
        | @cons q q' r r' hq hr =>
          obtain ⟨p1, y⟩ := q
          obtain ⟨p1', y'⟩ := q'
          obtain ⟨hy, hp1⟩ := hq
          simp only at hy hp1
          cases hy with
          | @name l l' hl =>
            cases hr with
            | nil => exact .inl ⟨rfl, rfl⟩
            | @cons q q' r r' hq hr =>
              obtain ⟨_, z⟩ := q
              obtain ⟨_, z'⟩ := q'
              obtain ⟨hz, _⟩ := hq
              simp only at hz
              cases hz with
              | name _ => exact .inl ⟨rfl, rfl⟩
              | @same z hz => cases z <;> first | exact .inl ⟨rfl, rfl⟩ | exact .inr ⟨p1, p1', l, l', _, rfl, rfl, hl, hp1⟩
          | @same y hy =>
            left
            cases y <;> first | exact ⟨rfl, rfl⟩ | exact absurd rfl (hy _)
      · left
        cases x <;> first | exact ⟨rfl, rfl⟩ | exact absurd rfl (hx _) | exact absurd rfl hd

theorem declare_m {T : Str → Str → Prop} (hT : OneOne T) {K : Complaint} {d δ : Nat} {P : Option Nat → Option Nat → Prop}
    {ls ls' : List (Nat × Lexeme)} (hl : LineM T P ls ls') {a a' : A} (ha : SimM T K d δ a a') :
    (∃ b b', declare ls a = .ok b ∧ declare ls' a' = .ok b' ∧ b.lineNum = a.lineNum ∧ SimM T K d δ b b') ∨
    ∃ f f', declare ls a = .error f ∧ declare ls' a' = .error f' ∧ FaultM P f f' := by
  have hor : originOf ls = originOf ls' := by rw [origin_map, origin_map]; exact originK_sim (lineSim_map hl.sim)
  unfold declare
  rcases declared_m hl a.pc with ⟨k1, k2⟩ | ⟨p, p', l, l', v, k1, k2, hll, hp⟩
  · rw [← ha.sim.pc, k1, k2, hor]
    simp only
    cases originOf ls' with
    | none => exact .inl ⟨_, _, rfl, rfl, rfl, ha⟩
    | some v => exact .inl ⟨_, _, rfl, rfl, rfl, ⟨⟨rfl, ha.sim.total, ha.sim.out, ha.sim.env, ha.sim.size, ha.sim.refs⟩, ha.num, ha.refs⟩⟩
  · rw [← ha.sim.pc, k1, k2]
    simp only [ha.sim.env l l' hll]
    cases a'.env.lookup l' with
    | some _ => exact .inr ⟨_, _, rfl, rfl, rfl, hp⟩
    | none =>
      refine .inl ⟨_, _, rfl, rfl, rfl, ⟨⟨rfl, ha.sim.total, ha.sim.out, ?_, by simp [ha.sim.size]; omega, ha.sim.refs⟩, ha.num, ha.refs⟩⟩
      intro m m' hm
      simp only [List.lookup_cons]
      have := hT m m' l l' hm hll
      by_cases hml : m = l
      · rw [this.1 hml, hml]; simp
      · rw [beq_false_of_ne hml, beq_false_of_ne (fun h => hml (this.2 h))]
        exact ha.sim.env m m' hm

theorem operandOf_m {T : Str → Str → Prop} {P : Option Nat → Option Nat → Prop} {ls ls' : List (Nat × Lexeme)} (h : LineM T P ls ls') :
    (operandOf ls = none ∧ operandOf ls' = none) ∨
    ∃ q q', operandOf ls = some q ∧ operandOf ls' = some q' ∧ LexSim T q.2 q'.2 ∧ P (some q.1) (some q'.1) ∧ q ∈ ls ∧ q' ∈ ls' := by
  have key : ∀ {t t' : List (Nat × Lexeme)}, LineM T P t t' → (t.find? (fun p => operandLike p.2) = none ∧ t'.find? (fun p => operandLike p.2) = none) ∨
      ∃ q q', t.find? (fun p => operandLike p.2) = some q ∧ t'.find? (fun p => operandLike p.2) = some q' ∧ LexSim T q.2 q'.2 ∧ P (some q.1) (some q'.1) := by
    intro t t' ht
    induction ht with
    | nil => exact .inl ⟨rfl, rfl⟩
    | @cons q q' ls ls' hq _ ih =>
      have : operandLike q.2 = operandLike q'.2 := by
        obtain ⟨p, y⟩ := q
        obtain ⟨p', y'⟩ := q'
        obtain ⟨hq, _⟩ := hq
        simp only at hq
        cases hq with
        | name _ => rfl
        | same _ => rfl
      rw [List.find?_cons, List.find?_cons, this]
      cases operandLike q'.2 with
      | true => exact .inr ⟨q, q', rfl, rfl, hq.1, hq.2⟩
      | false => exact ih
  unfold operandOf
  cases h with
  | nil => exact .inl ⟨rfl, rfl⟩
  | cons _ h =>
    rcases key h with h | ⟨q, q', h1, h2, h3, h4⟩
    · exact .inl h
    · exact .inr ⟨q, q', h1, h2, h3, h4, List.mem_cons_of_mem _ (List.mem_of_find?_eq_some h1), List.mem_cons_of_mem _ (List.mem_of_find?_eq_some h2)⟩

/-- A saved line is reported like the line. -/
theorem saved_diag {raw : List Byte} {ls : List (Nat × Lexeme)} (h : lexemes raw = .ok ls) {q : Nat × Lexeme} (hq : q ∈ ls) (e : Err) (fn : Str)
    (n : Nat) : diag ((savedLine (cstr raw)).getD []) e (some q.1) fn n = diag (cstr raw) e (some q.1) fn n := by
  obtain ⟨c, c1, c2, c3⟩ := lexemes_char h _ hq
  obtain ⟨s, suf, s1, s2, s3, s4⟩ := savedLine_spec c1 c2 c3
  rw [s1]
  exact diag_saved s2 s3 (Nat.le_of_lt s4)

theorem instrStep_m {T : Str → Str → Prop} {K : Complaint} {d δ n : Nat} {raw raw' : List Byte} {ls ls' : List (Nat × Lexeme)}
    (h1 : lexemes raw = .ok ls) (h2 : lexemes raw' = .ok ls') (hK : K n raw (n + δ) raw' none none) (hl : LineM T (K n raw (n + δ) raw') ls ls')
    {a a' : A} (ha : SimM T K d δ a a') (hn : a.lineNum = n) (m : Mnemonic) :
    (∃ b b', instrStep (cstr raw) ls m a = .ok b ∧ instrStep (cstr raw') ls' m a' = .ok b' ∧ SimM T K d δ b b') ∨
    ∃ f f', instrStep (cstr raw) ls m a = .error f ∧ instrStep (cstr raw') ls' m a' = .error f' ∧ FaultM (K n raw (n + δ) raw') f f' := by
  unfold instrStep
  rw [shape_sim hl.sim]
  rcases operandOf_m hl with ⟨k1, k2⟩ | ⟨⟨p, x⟩, ⟨p', x'⟩, k1, k2, hx, hp, m1, m2⟩
  · rw [k1, k2]
    simp only
    split_ifs
    · exact .inr ⟨_, _, rfl, rfl, rfl, hK⟩
    · exact .inl ⟨_, _, rfl, rfl, ha.emit _⟩
  · rw [k1, k2]
    simp only at hx hp
    cases hx with
    | @name l l' hll =>
      simp only [ha.sim.env l l' hll, ha.sim.pc]
      cases a'.env.lookup l' with
      | some v =>
        simp only
        split_ifs
        · exact .inr ⟨_, _, rfl, rfl, rfl, hK⟩
        · cases branchByte a'.pc v with
          | none => exact .inr ⟨_, _, rfl, rfl, rfl, hp⟩
          | some b => exact .inl ⟨_, _, rfl, rfl, ha.emit _⟩
        · exact .inl ⟨_, _, rfl, rfl, ha.emit _⟩
      | none =>
        simp only
        split_ifs
        · exact .inr ⟨_, _, rfl, rfl, rfl, hK⟩
        · have hr : RefSim T (mkRef (cstr raw) l m (fwdFlag m (shape (ls'.map (·.2)))) p a) (mkRef (cstr raw') l' m (fwdFlag m (shape (ls'.map (·.2)))) p' a') :=
            ⟨hll, rfl, ha.sim.pc, rfl⟩
          refine .inl ⟨_, _, rfl, rfl, SimM.emit ⟨ha.sim.saveRef hr m, ha.num, List.rel_append ha.refs (.cons ⟨hr, raw, raw', ?_, ?_, ?_⟩ .nil)⟩ _⟩
          · simp only [mkRef, hn, ha.num]; exact hp
          · exact fun e fn => saved_diag h1 m1 e fn _
          · exact fun e fn => saved_diag h2 m2 e fn _
        · exact .inr ⟨_, _, rfl, rfl, rfl, hp⟩
    | @same x hx =>
      cases x with
      | name l => exact absurd rfl (hx l)
      | _ =>
        simp only
        split_ifs
        · exact .inr ⟨_, _, rfl, rfl, rfl, hK⟩
        · exact .inl ⟨_, _, rfl, rfl, ha.emit _⟩

theorem step_m {T : Str → Str → Prop} (hT : OneOne T) {K : Complaint} {d δ n : Nat} {raw raw' : List Byte} {ls ls' : List (Nat × Lexeme)}
    (h1 : lexemes raw = .ok ls) (h2 : lexemes raw' = .ok ls') (hK : K n raw (n + δ) raw' none none) (hl : LineM T (K n raw (n + δ) raw') ls ls')
    {a a' : A} (ha : SimM T K d δ a a') (hn : a.lineNum = n) :
    (∃ s b b', step (cstr raw) ls a = .ok (s, b) ∧ step (cstr raw') ls' a' = .ok (s, b') ∧ SimM T K d δ b b') ∨
    ∃ f f', step (cstr raw) ls a = .error f ∧ step (cstr raw') ls' a' = .error f' ∧ FaultM (K n raw (n + δ) raw') f f' := by
  unfold step
  rcases declare_m hT hl ha with ⟨b, b', e1, e2, e3, hb⟩ | ⟨f, g, e1, e2, hf⟩
  · rw [e1, e2, isStop_sim hl.sim, lastMnem_sim hl.sim]
    simp only
    split_ifs
    · exact .inl ⟨_, _, _, rfl, rfl, hb⟩
    · cases lastMnem (ls'.map (·.2)) with
      | none =>
        refine .inl ⟨_, _, _, rfl, rfl, ⟨⟨hb.sim.pc, hb.sim.total, hb.sim.out, hb.sim.env, hb.sim.size, hb.sim.refs⟩, ?_, hb.refs⟩⟩
        simp only [hb.num]; omega
      | some m =>
        simp only
        rcases instrStep_m h1 h2 hK hl hb (e3.trans hn) m with ⟨c, c', g1, g2, hc⟩ | ⟨f, g, g1, g2, hf⟩
        · rw [g1, g2]; exact .inl ⟨_, _, _, rfl, rfl, hc⟩
        · rw [g1, g2]; exact .inr ⟨_, _, rfl, rfl, hf⟩
  · rw [e1, e2]; exact .inr ⟨_, _, rfl, rfl, hf⟩

/-- Buffers whose lexemes correspond, or that are refused for the same reason at corresponding offsets. -/
def RawM (T : Str → Str → Prop) (P : Option Nat → Option Nat → Prop) (raw raw' : List Byte) : Prop :=
  (∃ ls ls', lexemes raw = .ok ls ∧ lexemes raw' = .ok ls' ∧ P none none ∧ LineM T P ls ls') ∨
  (∃ e p p', lexemes raw = .error (.at e p) ∧ lexemes raw' = .error (.at e p') ∧ P (some p) (some p')) ∨
  (lexemes raw = .error .tooMany ∧ lexemes raw' = .error .tooMany)

/-- The runs failed with the same error and the same output file; either both printed nothing, or both printed a diagnostic, and the
diagnostics correspond. -/
def AbortM (K : Complaint) (fn : Str) (f g : Abort) : Prop :=
  abortCode f = abortCode g ∧ ((f.fail.out = [] ∧ g.fail.out = []) ∨
    ∃ n raw n' raw' e p p', K n raw n' raw' p p' ∧ f.fail.out = diag (cstr raw) e p fn n ∧ g.fail.out = diag (cstr raw') e p' fn n')

theorem line_m {T : Str → Str → Prop} (hT : OneOne T) {K : Complaint} {d δ : Nat} {fn : Str} {raw raw' : List Byte} {a a' : A}
    (hr : RawM T (K a.lineNum raw (a.lineNum + δ) raw') raw raw') (ha : SimM T K d δ a a') :
    (∃ s b b', line fn raw a = .ok (s, b) ∧ line fn raw' a' = .ok (s, b') ∧ SimM T K d δ b b') ∨
    ∃ f f', line fn raw a = .error f ∧ line fn raw' a' = .error f' ∧ AbortM K fn f f' := by
  unfold line
  rcases hr with ⟨ls, ls', h1, h2, hK, hl⟩ | ⟨e, p, p', h1, h2, hp⟩ | ⟨h1, h2⟩
  · rw [h1, h2]
    simp only [typeAt_sim hl.sim]
    cases syn (typeAt (ls'.map (·.2))) with
    | error q =>
      obtain ⟨i, e⟩ := q
      refine .inr ⟨_, _, rfl, rfl, by simp [abortCode, faultAt, ha.sim.out], .inr ⟨_, raw, _, raw', e, posAt ls i, posAt ls' i, ?_, rfl, rfl⟩⟩
      rw [ha.num]
      unfold posAt
      rcases h3 : ls[i]? with _ | q
      · have : ls'[i]? = none := by rw [List.getElem?_eq_none_iff] at h3 ⊢; rw [← hl.length_eq]; exact h3
        rw [this]; exact hK
      · obtain ⟨hi, h4⟩ := List.getElem?_eq_some_iff.1 h3
        have hi' : i < ls'.length := by rw [← hl.length_eq]; exact hi
        have := (List.forall₂_iff_get.1 hl).2 i hi hi'
        simp only [List.get_eq_getElem] at this
        rw [List.getElem?_eq_getElem hi']
        rw [h4] at this
        exact this.2
    | ok u =>
      simp only
      rcases step_m hT h1 h2 hK hl ha rfl with ⟨s, b, b', e1, e2, hb⟩ | ⟨f, g, e1, e2, hf⟩
      · rw [e1, e2]; exact .inl ⟨_, _, _, rfl, rfl, hb⟩
      · rw [e1, e2]
        refine .inr ⟨_, _, rfl, rfl, by simp [abortCode, faultAt, ha.sim.out, hf.1], .inr ⟨_, raw, a'.lineNum, raw', f.1, f.2, g.2, ?_, rfl, by simp [faultAt, hf.1]⟩⟩
        rw [ha.num]; exact hf.2
  · rw [h1, h2]
    refine .inr ⟨_, _, rfl, rfl, by simp [abortCode, faultAt, ha.sim.out], .inr ⟨_, raw, _, raw', e, some p, some p', ?_, rfl, rfl⟩⟩
    rw [ha.num]; exact hp
  · rw [h1, h2]; exact .inr ⟨_, _, rfl, rfl, by simp [abortCode, ha.sim.out], .inl ⟨rfl, rfl⟩⟩

/-- The pieces correspond, from line `n` on. -/
inductive Pieces2 (T : Str → Str → Prop) (K : Complaint) (δ : Nat) : Nat → List (List Byte) → List (List Byte) → Prop
  | nil (n : Nat) : Pieces2 T K δ n [] []
  | cons {n : Nat} {c c' : List Byte} {cs cs' : List (List Byte)} (h : RawM T (K n c (n + δ) c') c c') (hs : Pieces2 T K δ (n + 1) cs cs') :
      Pieces2 T K δ n (c :: cs) (c' :: cs')

theorem line_num {fn : Str} {raw : List Byte} {a b : A} (h : line fn raw a = .ok (false, b)) : b.lineNum = a.lineNum + 1 := by
  obtain ⟨ls, a1, h1, _, hd, hc⟩ := line_ok h
  have := (declare_ok hd).1
  rcases hc with ⟨_, h3, _⟩ | ⟨_, _, _, rfl⟩ | ⟨_, _, m, _, hi⟩
  · cases h3
  · simp [this]
  · rcases instrStep_cases hi with ⟨bs, _, _, rfl⟩ | ⟨p, l, bs, _, _, _, _, _, rfl⟩
    · simp [A.emit, this]
    · simp [A.emit, A.saveRef, this]

theorem runLines_m {T : Str → Str → Prop} (hT : OneOne T) {K : Complaint} {d δ : Nat} {fn : Str} : ∀ {cs cs' : List (List Byte)} {a a' : A},
    Pieces2 T K δ a.lineNum cs cs' → SimM T K d δ a a' →
    (∃ b b', runLines fn cs a = .ok b ∧ runLines fn cs' a' = .ok b' ∧ SimM T K d δ b b') ∨
    ∃ f f', runLines fn cs a = .error f ∧ runLines fn cs' a' = .error f' ∧ AbortM K fn f f'
  | _, _, a, a', .nil _, ha => .inl ⟨_, _, rfl, rfl, ha⟩
  | c :: cs, c' :: cs', a, a', .cons h hs, ha => by
    unfold runLines
    rcases line_m hT (fn := fn) h ha with ⟨s, b, b', e1, e2, hb⟩ | ⟨f, g, e1, e2, hf⟩
    · rw [e1, e2]
      cases s with
      | true => exact .inl ⟨_, _, rfl, rfl, hb⟩
      | false => exact runLines_m hT (by rw [line_num e1]; exact hs) hb
    · rw [e1, e2]; exact .inr ⟨_, _, rfl, rfl, hf⟩

theorem patch_m {T : Str → Str → Prop} {K : Complaint} {fn : Str} {env env' : Env} (he : ∀ l l', T l l' → env.lookup l = env'.lookup l') :
    ∀ {rs rs' : List ForwardRef} (out : OutFile), List.Forall₂ (RefM T K) rs rs' →
    (∃ o, patch fn env rs out = .ok o ∧ patch fn env' rs' out = .ok o) ∨
    ∃ f g, patch fn env rs out = .error f ∧ patch fn env' rs' out = .error g ∧ AbortM K fn f g
  | _, _, out, .nil => .inl ⟨out, rfl, rfl⟩
  | r :: rs, r' :: rs', out, .cons hr hs => by
    obtain ⟨⟨k1, k2, k3, k4⟩, raw, raw', k5, k6, k7⟩ := hr
    unfold patch
    rw [he _ _ k1, k2, k3, k4]
    cases env'.lookup r'.label with
    | none => exact .inr ⟨_, _, rfl, rfl, rfl, .inr ⟨_, raw, _, raw', _, _, _, k5, k6 _ _, k7 _ _⟩⟩
    | some v =>
      simp only
      split_ifs
      · cases branchByte r'.pc v with
        | none => exact .inr ⟨_, _, rfl, rfl, rfl, .inr ⟨_, raw, _, raw', _, _, _, k5, k6 _ _, k7 _ _⟩⟩
        | some b => exact patch_m he _ hs
      · exact patch_m he _ hs

/-- The results of two runs that correspond: the same report, or messages that correspond. -/
theorem result_m {T : Str → Str → Prop} {K : Complaint} {d δ : Nat} {w w' : World} {srcName outName : Str} {src src' : List Byte}
    (hw : Setup w srcName outName src) (hw' : Setup w' srcName outName src') (hs : Sized src) (hs' : Sized src')
    (h : (∃ b b', runLines srcName (chunks src) A.init = .ok b ∧ runLines srcName (chunks src') A.init = .ok b' ∧ SimM T K d δ b b') ∨
      ∃ f f', runLines srcName (chunks src) A.init = .error f ∧ runLines srcName (chunks src') A.init = .error f' ∧ AbortM K srcName f f') :
    (∃ bin total symbols, Succeeds w srcName outName bin total symbols ∧ Succeeds w' srcName outName bin total (symbols + d)) ∨
    ∃ text text' bin,
      gaia srcName outName w = .exited ⟨1, text, { w with files := fun n => if n = outName then some bin else w.files n }⟩ ∧
      gaia srcName outName w' = .exited ⟨1, text', { w' with files := fun n => if n = outName then some bin else w'.files n }⟩ ∧
      ((text = [] ∧ text' = []) ∨
        ∃ n raw n' raw' e p p', K n raw n' raw' p p' ∧ text = diag (cstr raw) e p srcName n ∧ text' = diag (cstr raw') e p' srcName n') := by
  have s1 := assemble_sim srcName src hs
  have s2 := assemble_sim srcName src' hs'
  have fails : ∀ f g, assembleA srcName src = .error f → assembleA srcName src' = .error g → AbortM K srcName f g → ∃ text text' bin,
      gaia srcName outName w = .exited ⟨1, text, { w with files := fun n => if n = outName then some bin else w.files n }⟩ ∧
      gaia srcName outName w' = .exited ⟨1, text', { w' with files := fun n => if n = outName then some bin else w'.files n }⟩ ∧
      ((text = [] ∧ text' = []) ∨
        ∃ n raw n' raw' e p p', K n raw n' raw' p p' ∧ text = diag (cstr raw) e p srcName n ∧ text' = diag (cstr raw') e p' srcName n') := by
    intro f g e1 e2 hfg
    rw [e1] at s1
    rw [e2] at s2
    simp only at s1 s2
    have ho : f.out = g.out := by
      have := congrArg Prod.snd hfg.1
      simpa [abortCode] using this
    refine ⟨f.fail.out, g.fail.out, f.out.bytes, ?_, ?_, hfg.2⟩
    · rw [gaia_eq hw, s1]; rfl
    · rw [gaia_eq hw', s2, ho]; rfl
  rw [assembleA_eq] at fails s1
  rw [assembleA_eq] at fails s2
  rcases h with ⟨b, b', h1, h2, hb⟩ | ⟨f, g, h1, h2, hf⟩
  · rw [h1] at s1 fails
    rw [h2] at s2 fails
    unfold finishA at s1 s2 fails
    simp only [hb.sim.out] at s1 s2 fails
    rcases patch_m (fn := srcName) hb.sim.env b'.out hb.refs with ⟨o, e1, e2⟩ | ⟨f, g, e1, e2, hf⟩
    · rw [e1] at s1
      rw [e2] at s2
      simp only at s1 s2
      obtain ⟨st, r1, r2, r3, r4, _⟩ := s1
      obtain ⟨st', q1, q2, q3, q4, _⟩ := s2
      refine .inl ⟨st.out.bytes, st.total, st.symtab.count, succeeds_of hw r1, ?_⟩
      have := succeeds_of hw' q1
      rwa [q4, ← r4, q2, ← hb.sim.total, ← r2, q3, hb.sim.size, ← r3] at this
    · rw [e1, e2] at fails
      exact .inr (fails f g rfl rfl hf)
  · rw [h1, h2] at fails
    exact .inr (fails f g rfl rfl hf)

theorem SimM.init (T : Str → Str → Prop) (K : Complaint) : SimM T K 0 0 A.init A.init :=
  ⟨⟨rfl, rfl, rfl, fun _ _ _ => rfl, rfl, .nil⟩, rfl, .nil⟩

end Gaia

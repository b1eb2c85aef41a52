import Verif.Proofs.Equiv
import Verif.Proofs.LexCut

/-!
Runs of the pure machine on lines that correspond up to a relation `T` between names, from states whose symbol tables agree on
names related by `T`.
-/
set_option linter.unusedSimpArgs false
namespace Gaia
open Spec

/-- Lexemes that are equal, except that names are related by `T`. -/
inductive LexSim (T : Str → Str → Prop) : Lexeme → Lexeme → Prop
  | name {l l' : Str} (h : T l l') : LexSim T (.name l) (.name l')
  | same {x : Lexeme} (h : ∀ l, x ≠ .name l) : LexSim T x x

/-- `T` relates names one to one. -/
def OneOne (T : Str → Str → Prop) : Prop := ∀ l l' m m', T l l' → T m m' → (l = m ↔ l' = m')

/-- Forward references that agree up to the name and what is only used in messages. -/
def RefSim (T : Str → Str → Prop) (r r' : ForwardRef) : Prop :=
  T r.label r'.label ∧ r.instr = r'.instr ∧ r.pc = r'.pc ∧ r.status = r'.status

structure SimA (T : Str → Str → Prop) (d : Nat) (a a' : A) : Prop where
  pc : a.pc = a'.pc
  total : a.total = a'.total
  out : a.out = a'.out
  env : ∀ l l', T l l' → a.env.lookup l = a'.env.lookup l'
  size : a'.env.length = a.env.length + d
  refs : List.Forall₂ (RefSim T) a.refs a'.refs

/-- Both fail in the same way, or both succeed in related states. -/
def SimE {E : Type} (code : E → Err × Option OutFile) (T : Str → Str → Prop) (d : Nat) (x y : Except E A) : Prop :=
  (∃ b b', x = .ok b ∧ y = .ok b' ∧ SimA T d b b') ∨ ∃ f g, x = .error f ∧ y = .error g ∧ code f = code g

abbrev faultCode (f : Fault) : Err × Option OutFile := (f.1, none)
abbrev abortCode (a : Abort) : Err × Option OutFile := (a.fail.code, some a.out)

theorem SimA.emit {T : Str → Str → Prop} {d : Nat} {a a' : A} (h : SimA T d a a') (bs : List Byte) :
    SimA T d (a.emit bs) (a'.emit bs) :=
  ⟨by simp [A.emit, h.pc], by simp [A.emit, h.total], by simp [A.emit, h.out, h.pc], h.env, h.size, h.refs⟩

theorem SimA.saveRef {T : Str → Str → Prop} {d : Nat} {a a' : A} (h : SimA T d a a') {r r' : ForwardRef} (hr : RefSim T r r')
    (m : Mnemonic) : SimA T d (a.saveRef r m) (a'.saveRef r' m) :=
  ⟨h.pc, h.total, by simp [A.saveRef, h.out], h.env, h.size, List.rel_append h.refs (.cons hr .nil)⟩

abbrev LineSim (T : Str → Str → Prop) (ls ls' : List (Nat × Lexeme)) : Prop := List.Forall₂ (fun q q' => LexSim T q.2 q'.2) ls ls'

theorem contains_sim {T : Str → Str → Prop} {x : Lexeme} (hx : ∀ l, x ≠ .name l) {ls ls' : List (Nat × Lexeme)} (h : LineSim T ls ls') :
    (ls.map (·.2)).contains x = (ls'.map (·.2)).contains x := by
  induction h with
  | nil => rfl
  | @cons q q' ls ls' hq _ ih =>
    simp only [List.map_cons, List.contains_cons, ih]
    congr 1
    obtain ⟨p, y⟩ := q
    obtain ⟨p', y'⟩ := q'
    simp only at hq
    cases hq with
    | name _ => rw [beq_false_of_ne (hx _), beq_false_of_ne (hx _)]
    | same _ => rfl

theorem shape_sim {T : Str → Str → Prop} {ls ls' : List (Nat × Lexeme)} (h : LineSim T ls ls') :
    shape (ls.map (·.2)) = shape (ls'.map (·.2)) := by
  unfold shape
  rw [contains_sim (by simp) h, contains_sim (by simp) h, contains_sim (by simp) h, contains_sim (by simp) h, contains_sim (by simp) h]

theorem operandOf_sim {T : Str → Str → Prop} {ls ls' : List (Nat × Lexeme)} (h : LineSim T ls ls') :
    (operandOf ls = none ∧ operandOf ls' = none) ∨
    ∃ q q', operandOf ls = some q ∧ operandOf ls' = some q' ∧ LexSim T q.2 q'.2 := by
  unfold operandOf
  have ht : LineSim T ls.tail ls'.tail := by
    cases h with
    | nil => exact .nil
    | cons _ h => exact h
  generalize ls.tail = t at *
  generalize ls'.tail = t' at *
  clear h
  induction ht with
  | nil => exact .inl ⟨rfl, rfl⟩
  | @cons q q' ls ls' hq _ ih =>
    have : operandLike q.2 = operandLike q'.2 := by
      obtain ⟨p, y⟩ := q
      obtain ⟨p', y'⟩ := q'
      simp only at hq
      cases hq with
      | name _ => rfl
      | same _ => rfl
    rw [List.find?_cons, List.find?_cons, this]
    cases operandLike q'.2 with
    | true => exact .inr ⟨q, q', rfl, rfl, hq⟩
    | false => exact ih

theorem lastMnem_sim {T : Str → Str → Prop} {ls ls' : List (Nat × Lexeme)} (h : LineSim T ls ls') :
    lastMnem (ls.map (·.2)) = lastMnem (ls'.map (·.2)) := by
  induction h with
  | nil => rfl
  | @cons q q' ls ls' hq _ ih =>
    obtain ⟨p, x⟩ := q
    obtain ⟨p', x'⟩ := q'
    simp only [List.map_cons] at *
    cases hq with
    | name _ => simpa [lastMnem] using ih
    | same _ => cases x <;> simp [lastMnem, ih]

theorem isStop_sim {T : Str → Str → Prop} {ls ls' : List (Nat × Lexeme)} (h : LineSim T ls ls') : isStop ls = isStop ls' := by
  cases h with
  | nil => rfl
  | @cons q q' ls ls' hq _ =>
    obtain ⟨p, x⟩ := q
    obtain ⟨p', x'⟩ := q'
    simp only at hq
    cases hq with
    | name _ => rfl
    | same _ => cases x <;> rfl

theorem typeAt_sim {T : Str → Str → Prop} {ls ls' : List (Nat × Lexeme)} (h : LineSim T ls ls') :
    typeAt (ls.map (·.2)) = typeAt (ls'.map (·.2)) := by
  funext i
  unfold typeAt
  induction h generalizing i with
  | nil => rfl
  | @cons q q' ls ls' hq _ ih =>
    cases i with
    | zero =>
      obtain ⟨p, x⟩ := q
      obtain ⟨p', x'⟩ := q'
      simp only at hq
      cases hq with
      | name _ => rfl
      | same _ => rfl
    | succ i => simpa using ih i

theorem declaredK_sim {T : Str → Str → Prop} {ls ls' : List Lexeme} (h : List.Forall₂ (LexSim T) ls ls') (pc : Nat) :
    (declaredK pc ls = none ∧ declaredK pc ls' = none) ∨
    ∃ l l' v, declaredK pc ls = some (l, v) ∧ declaredK pc ls' = some (l', v) ∧ T l l' := by
  cases h with
  | nil => exact .inl ⟨rfl, rfl⟩
  | @cons x x' r r' hx hr =>
    cases hx with
    | @name l l' hl =>
      right
      cases hr with
      | nil => exact ⟨l, l', pc, rfl, rfl, hl⟩
      | @cons y y' r r' hy hr =>
        cases hy with
        | name _ => exact ⟨l, l', pc, rfl, rfl, hl⟩
        | @same y hy =>
          cases hr with
          | nil => cases y <;> exact ⟨l, l', pc, rfl, rfl, hl⟩
          | @cons z z' r r' hz hr =>
            cases hz with
            | name _ => cases y <;> exact ⟨l, l', pc, rfl, rfl, hl⟩
            | @same z hz => cases y <;> cases z <;> exact ⟨l, l', _, rfl, rfl, hl⟩
    | @same x hx =>
      by_cases hd : x = .define
      · subst hd
        cases hr with
        | nil => exact .inl ⟨rfl, rfl⟩
        | @cons y y' r r' hy hr =>
          cases hy with
          | @name l l' hl =>
            cases hr with
            | nil => exact .inl ⟨rfl, rfl⟩
            | @cons z z' r r' hz hr =>
              cases hz with
              | name _ => exact .inl ⟨rfl, rfl⟩
              | @same z hz => cases z <;> first | exact .inl ⟨rfl, rfl⟩ | exact .inr ⟨l, l', _, rfl, rfl, hl⟩
          | @same y hy =>
            left
            cases y <;> first | exact ⟨rfl, rfl⟩ | exact absurd rfl (hy _)
      · left
        cases x <;> first | exact ⟨rfl, rfl⟩ | exact absurd rfl (hx _) | exact absurd rfl hd

theorem originK_sim {T : Str → Str → Prop} {ls ls' : List Lexeme} (h : List.Forall₂ (LexSim T) ls ls') : originK ls = originK ls' := by
  cases h with
  | nil => rfl
  | @cons x x' r r' hx hr =>
    cases hx with
    | name _ => rfl
    | @same x hx =>
      cases hr with
      | nil => cases x <;> rfl
      | @cons y y' r r' hy hr =>
        cases hy with
        | name _ => cases x <;> rfl
        | @same y hy =>
          cases hr with
          | nil => cases x <;> cases y <;> rfl
          | @cons z z' r r' hz hr =>
            cases hz with
            | name _ => cases x <;> cases y <;> rfl
            | @same z hz => cases x <;> cases y <;> cases z <;> rfl

theorem lineSim_map {T : Str → Str → Prop} {ls ls' : List (Nat × Lexeme)} (h : LineSim T ls ls') :
    List.Forall₂ (LexSim T) (ls.map (·.2)) (ls'.map (·.2)) := by
  rw [List.forall₂_map_left_iff, List.forall₂_map_right_iff]
  exact h

theorem declare_simT {T : Str → Str → Prop} (hT : OneOne T) {d : Nat} {ls ls' : List (Nat × Lexeme)} (hl : LineSim T ls ls') {a a' : A}
    (ha : SimA T d a a') : SimE faultCode T d (declare ls a) (declare ls' a') := by
  have hor : originOf ls = originOf ls' := by rw [origin_map, origin_map]; exact originK_sim (lineSim_map hl)
  have h1 := declared_map a.pc ls
  have h2 := declared_map a'.pc ls'
  unfold declare
  rcases declaredK_sim (lineSim_map hl) a.pc with ⟨k1, k2⟩ | ⟨l, l', v, k1, k2, hll⟩
  · rw [k1] at h1
    rw [← ha.pc, k2] at h2
    simp only [Option.map_eq_none_iff] at h1 h2
    rw [← ha.pc, h1, h2, hor]
    simp only
    cases originOf ls' with
    | none => exact .inl ⟨_, _, rfl, rfl, ha⟩
    | some v => exact .inl ⟨_, _, rfl, rfl, ⟨rfl, ha.total, ha.out, ha.env, ha.size, ha.refs⟩⟩
  · rw [k1] at h1
    rw [← ha.pc, k2] at h2
    simp only [Option.map_eq_some_iff] at h1 h2
    obtain ⟨⟨p, q1⟩, e1, rfl⟩ := h1
    obtain ⟨⟨p', q2⟩, e2, rfl⟩ := h2
    rw [← ha.pc, e1, e2]
    simp only [ha.env l l' hll]
    cases a'.env.lookup l' with
    | some _ => exact .inr ⟨_, _, rfl, rfl, rfl⟩
    | none =>
      refine .inl ⟨_, _, rfl, rfl, ⟨rfl, ha.total, ha.out, ?_, by simp [ha.size]; omega, ha.refs⟩⟩
      intro m m' hm
      simp only [List.lookup_cons]
      have := hT m m' l l' hm hll
      by_cases hml : m = l
      · rw [this.1 hml, hml]; simp
      · rw [beq_false_of_ne hml, beq_false_of_ne (fun h => hml (this.2 h))]
        exact ha.env m m' hm

theorem instrStep_simT {T : Str → Str → Prop} {d : Nat} {buf buf' : Str} {ls ls' : List (Nat × Lexeme)} (hl : LineSim T ls ls') {a a' : A}
    (ha : SimA T d a a') (m : Mnemonic) : SimE faultCode T d (instrStep buf ls m a) (instrStep buf' ls' m a') := by
  have emitted : ∀ bs, SimE faultCode T d (.ok (a.emit bs)) (.ok (a'.emit bs)) := fun bs => .inl ⟨_, _, rfl, rfl, ha.emit bs⟩
  have failed : ∀ e p p', SimE faultCode T d (.error (e, p)) (.error (e, p')) := fun e p p' => .inr ⟨_, _, rfl, rfl, rfl⟩
  unfold instrStep
  rw [shape_sim hl]
  rcases operandOf_sim hl with ⟨h1, h2⟩ | ⟨⟨p, x⟩, ⟨p', x'⟩, h1, h2, hx⟩
  · rw [h1, h2]
    simp only
    split_ifs
    · exact failed _ _ _
    · exact emitted _
  · rw [h1, h2]
    simp only at hx
    cases hx with
    | @name l l' hll =>
      simp only [ha.env l l' hll, ha.pc]
      cases a'.env.lookup l' with
      | some v =>
        simp only
        split_ifs
        · exact failed _ _ _
        · cases branchByte a'.pc v with
          | none => exact failed _ _ _
          | some b => exact emitted _
        · exact emitted _
      | none =>
        simp only
        split_ifs
        · exact failed _ _ _
        · refine .inl ⟨_, _, rfl, rfl, SimA.emit (ha.saveRef ?_ m) _⟩
          exact ⟨hll, rfl, ha.pc, rfl⟩
        · exact failed _ _ _
    | @same x hx =>
      cases x with
      | name l => exact absurd rfl (hx l)
      | _ =>
        simp only
        split_ifs
        · exact failed _ _ _
        · exact emitted _

/-- Like `SimE`, with the flag for `.END`. -/
def SimB {E : Type} (code : E → Err × Option OutFile) (T : Str → Str → Prop) (d : Nat) (x y : Except E (Bool × A)) : Prop :=
  (∃ s b b', x = .ok (s, b) ∧ y = .ok (s, b') ∧ SimA T d b b') ∨ ∃ f g, x = .error f ∧ y = .error g ∧ code f = code g

theorem step_simT {T : Str → Str → Prop} (hT : OneOne T) {d : Nat} {buf buf' : Str} {ls ls' : List (Nat × Lexeme)} (hl : LineSim T ls ls')
    {a a' : A} (ha : SimA T d a a') : SimB faultCode T d (step buf ls a) (step buf' ls' a') := by
  unfold step
  rcases declare_simT hT hl ha with ⟨b, b', e1, e2, hb⟩ | ⟨f, g, e1, e2, hf⟩
  · rw [e1, e2, isStop_sim hl, lastMnem_sim hl]
    simp only
    split_ifs
    · exact .inl ⟨_, _, _, rfl, rfl, hb⟩
    · cases lastMnem (ls'.map (·.2)) with
      | none => exact .inl ⟨_, _, _, rfl, rfl, ⟨hb.pc, hb.total, hb.out, hb.env, hb.size, hb.refs⟩⟩
      | some m =>
        simp only
        rcases instrStep_simT (buf := buf) (buf' := buf') hl hb m with ⟨c, c', g1, g2, hc⟩ | ⟨f, g, g1, g2, hf⟩
        · rw [g1, g2]; exact .inl ⟨_, _, _, rfl, rfl, hc⟩
        · rw [g1, g2]; exact .inr ⟨_, _, rfl, rfl, hf⟩
  · rw [e1, e2]; exact .inr ⟨_, _, rfl, rfl, hf⟩

/-- Buffers whose lexemes correspond, or that are refused for the same reason. -/
def RawSim (T : Str → Str → Prop) (raw raw' : List Byte) : Prop :=
  (∃ ls ls', lexemes raw = .ok ls ∧ lexemes raw' = .ok ls' ∧ LineSim T ls ls') ∨
  (∃ e p p', lexemes raw = .error (.at e p) ∧ lexemes raw' = .error (.at e p')) ∨
  (lexemes raw = .error .tooMany ∧ lexemes raw' = .error .tooMany)

theorem line_simT {T : Str → Str → Prop} (hT : OneOne T) {d : Nat} {fn fn' : Str} {raw raw' : List Byte} (hr : RawSim T raw raw')
    {a a' : A} (ha : SimA T d a a') : SimB abortCode T d (line fn raw a) (line fn' raw' a') := by
  unfold line
  rcases hr with ⟨ls, ls', h1, h2, hl⟩ | ⟨e, p, p', h1, h2⟩ | ⟨h1, h2⟩
  · rw [h1, h2]
    simp only [typeAt_sim hl]
    cases syn (typeAt (ls'.map (·.2))) with
    | error q => exact .inr ⟨_, _, rfl, rfl, by simp [abortCode, faultAt, ha.out]⟩
    | ok u =>
      simp only
      rcases step_simT hT (buf := cstr raw) (buf' := cstr raw') hl ha with ⟨s, b, b', e1, e2, hb⟩ | ⟨f, g, e1, e2, hf⟩
      · rw [e1, e2]; exact .inl ⟨_, _, _, rfl, rfl, hb⟩
      · rw [e1, e2]
        have : f.1 = g.1 := by simpa [faultCode] using hf
        exact .inr ⟨_, _, rfl, rfl, by simp [abortCode, faultAt, ha.out, this]⟩
  · rw [h1, h2]; exact .inr ⟨_, _, rfl, rfl, by simp [abortCode, faultAt, ha.out]⟩
  · rw [h1, h2]; exact .inr ⟨_, _, rfl, rfl, by simp [abortCode, ha.out]⟩

theorem runOn_sim {T : Str → Str → Prop} (hT : OneOne T) {d : Nat} {fn fn' : Str} : ∀ {cs cs' : List (List Byte)} {a a' : A},
    List.Forall₂ (RawSim T) cs cs' → SimA T d a a' → SimB abortCode T d (runOn fn cs a) (runOn fn' cs' a')
  | _, _, a, a', .nil, ha => .inl ⟨_, _, _, rfl, rfl, ha⟩
  | c :: cs, c' :: cs', a, a', .cons h hs, ha => by
    unfold runOn
    rcases line_simT hT (fn := fn) (fn' := fn') h ha with ⟨s, b, b', e1, e2, hb⟩ | ⟨f, g, e1, e2, hf⟩
    · rw [e1, e2]
      cases s with
      | true => exact .inl ⟨_, _, _, rfl, rfl, hb⟩
      | false => exact runOn_sim hT hs hb
    · rw [e1, e2]; exact .inr ⟨_, _, rfl, rfl, hf⟩

theorem runLines_on (fn : Str) : ∀ (cs : List (List Byte)) (a : A), runLines fn cs a = (runOn fn cs a).map (·.2)
  | [], _ => rfl
  | c :: cs, a => by
    unfold runLines runOn
    cases line fn c a with
    | error e => rfl
    | ok r =>
      obtain ⟨b, a⟩ := r
      cases b
      · exact runLines_on fn cs a
      · rfl

theorem runLines_simT {T : Str → Str → Prop} (hT : OneOne T) {d : Nat} {fn fn' : Str} {cs cs' : List (List Byte)} {a a' : A}
    (h : List.Forall₂ (RawSim T) cs cs') (ha : SimA T d a a') : SimE abortCode T d (runLines fn cs a) (runLines fn' cs' a') := by
  rw [runLines_on, runLines_on]
  rcases runOn_sim hT (fn := fn) (fn' := fn') h ha with ⟨s, b, b', e1, e2, hb⟩ | ⟨f, g, e1, e2, hf⟩
  · rw [e1, e2]; exact .inl ⟨_, _, rfl, rfl, hb⟩
  · rw [e1, e2]; exact .inr ⟨_, _, rfl, rfl, hf⟩

theorem patch_simT {T : Str → Str → Prop} {fn fn' : Str} {env env' : Env} (he : ∀ l l', T l l' → env.lookup l = env'.lookup l') :
    ∀ {rs rs' : List ForwardRef} (out : OutFile), List.Forall₂ (RefSim T) rs rs' →
    (∃ o, patch fn env rs out = .ok o ∧ patch fn' env' rs' out = .ok o) ∨
    ∃ f g, patch fn env rs out = .error f ∧ patch fn' env' rs' out = .error g ∧ abortCode f = abortCode g
  | _, _, out, .nil => .inl ⟨out, rfl, rfl⟩
  | r :: rs, r' :: rs', out, .cons hr hs => by
    obtain ⟨k1, k2, k3, k4⟩ := hr
    unfold patch
    rw [he _ _ k1, k2, k3, k4]
    cases env'.lookup r'.label with
    | none => exact .inr ⟨_, _, rfl, rfl, rfl⟩
    | some v =>
      simp only
      split_ifs
      · cases branchByte r'.pc v with
        | none => exact .inr ⟨_, _, rfl, rfl, rfl⟩
        | some b => exact patch_simT he _ hs
      · exact patch_simT he _ hs

theorem finish_simT {T : Str → Str → Prop} {d : Nat} {fn fn' : Str} {x y : Except Abort A} (h : SimE abortCode T d x y) :
    SimE abortCode T d (finishA fn x) (finishA fn' y) := by
  rcases h with ⟨b, b', rfl, rfl, hb⟩ | ⟨f, g, rfl, rfl, hf⟩
  · unfold finishA
    simp only [hb.out]
    rcases patch_simT (fn := fn) (fn' := fn') hb.env b'.out hb.refs with ⟨o, e1, e2⟩ | ⟨f, g, e1, e2, hf⟩
    · rw [e1, e2]; exact .inl ⟨_, _, rfl, rfl, ⟨hb.pc, hb.total, rfl, hb.env, hb.size, hb.refs⟩⟩
    · rw [e1, e2]; exact .inr ⟨_, _, rfl, rfl, hf⟩
  · exact .inr ⟨f, g, rfl, rfl, hf⟩

/-- The result of two runs that correspond, the second with `d` more symbols. -/
theorem result_simT {T : Str → Str → Prop} {d : Nat} {w w' : World} {srcName outName : Str} {src src' : List Byte}
    (hw : Setup w srcName outName src) (hw' : Setup w' srcName outName src') (hs : Sized src) (hs' : Sized src')
    (h : SimE abortCode T d (runLines srcName (chunks src) A.init) (runLines srcName (chunks src') A.init)) :
    (∃ bin total symbols, Succeeds w srcName outName bin total symbols ∧ Succeeds w' srcName outName bin total (symbols + d)) ∨
    ∃ text text' bin,
      gaia srcName outName w = .exited ⟨1, text, { w with files := fun n => if n = outName then some bin else w.files n }⟩ ∧
      gaia srcName outName w' = .exited ⟨1, text', { w' with files := fun n => if n = outName then some bin else w'.files n }⟩ := by
  have hA := finish_simT (fn := srcName) (fn' := srcName) h
  rw [← assembleA_eq, ← assembleA_eq] at hA
  have s1 := assemble_sim srcName src hs
  have s2 := assemble_sim srcName src' hs'
  rcases hA with ⟨a, b, e1, e2, hab⟩ | ⟨f, g, e1, e2, hf⟩
  · rw [e1] at s1
    rw [e2] at s2
    obtain ⟨st, r1, r2, r3, r4, _⟩ := s1
    obtain ⟨st', q1, q2, q3, q4, _⟩ := s2
    refine .inl ⟨st.out.bytes, st.total, st.symtab.count, succeeds_of hw r1, ?_⟩
    have := succeeds_of hw' q1
    rwa [q4, ← hab.out, ← r4, q2, ← hab.total, ← r2, q3, hab.size, ← r3] at this
  · rw [e1] at s1
    rw [e2] at s2
    simp only at s1 s2
    have ho : f.out = g.out := by
      have := congrArg Prod.snd hf
      simpa [abortCode] using this
    refine .inr ⟨f.fail.out, g.fail.out, f.out.bytes, ?_, ?_⟩
    · rw [gaia_eq hw, s1]; rfl
    · rw [gaia_eq hw', s2, ho]; rfl

/-- Equal lines without names in which `T` fails. -/
theorem RawSim.refl {T : Str → Str → Prop} {raw : List Byte}
    (h : ∀ ls, lexemes raw = .ok ls → ∀ q ∈ ls, ∀ l, q.2 = .name l → T l l) : RawSim T raw raw := by
  cases e : lexemes raw with
  | ok ls =>
    refine .inl ⟨ls, ls, e, e, List.forall₂_same.2 fun q hq => ?_⟩
    by_cases hn : ∃ l, q.2 = .name l
    · obtain ⟨l, hl⟩ := hn
      rw [hl]
      exact .name (h ls e q hq l hl)
    · exact .same fun l hl => hn ⟨l, hl⟩
  | error f =>
    cases f with
    | «at» e' p => exact .inr (.inl ⟨e', p, p, e, e⟩)
    | tooMany => exact .inr (.inr ⟨e, e⟩)

end Gaia

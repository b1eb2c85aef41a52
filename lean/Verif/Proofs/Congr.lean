import Verif.Proofs.BadLine
import Verif.Spec.Equivalence

/-! The result of a run depends on the lexemes of the lines only. -/
set_option linter.unusedSimpArgs false
namespace Gaia
open Spec

/-- What a line is, without offsets. -/
def kinds : Except LexFail (List (Nat × Lexeme)) → Except (Option Err) (List Lexeme)
  | .ok ls => .ok (ls.map (·.2))
  | .error (.at e _) => .error (some e)
  | .error .tooMany => .error none

def skelRef (r : ForwardRef) : ForwardRef := { r with sourceLine := [], lineNum := 0, operandLocation := 0 }

/-- The state without what is only used in messages. -/
def skel (a : A) : A := { a with lineNum := 0, refs := a.refs.map skelRef }

def skelF : Except Fault A → Except Err A
  | .ok a => .ok (skel a)
  | .error f => .error f.1

def skelB : Except Fault (Bool × A) → Except Err (Bool × A)
  | .ok (b, a) => .ok (b, skel a)
  | .error f => .error f.1

def skelL : Except Abort (Bool × A) → Except (Err × OutFile) (Bool × A)
  | .ok (b, a) => .ok (b, skel a)
  | .error x => .error (x.fail.code, x.out)

def skelR : Except Abort A → Except (Err × OutFile) A
  | .ok a => .ok (skel a)
  | .error x => .error (x.fail.code, x.out)

theorem skel_eq {a a' : A} (h : skel a = skel a') : a.pc = a'.pc ∧ a.total = a'.total ∧ a.env = a'.env ∧ a.out = a'.out ∧
    a.refs.map skelRef = a'.refs.map skelRef := by
  unfold skel at h
  simp only [A.mk.injEq] at h
  exact ⟨h.1, h.2.2.1, h.2.2.2.1, h.2.2.2.2.2, h.2.2.2.2.1⟩

theorem skel_of {a a' : A} (h : a.pc = a'.pc ∧ a.total = a'.total ∧ a.env = a'.env ∧ a.out = a'.out ∧
    a.refs.map skelRef = a'.refs.map skelRef) : skel a = skel a' := by
  unfold skel
  simp only [A.mk.injEq]
  exact ⟨h.1, trivial, h.2.1, h.2.2.1, h.2.2.2.2, h.2.2.2.1⟩

theorem skel_emit {a a' : A} (h : skel a = skel a') (bs : List Byte) : skel (a.emit bs) = skel (a'.emit bs) := by
  obtain ⟨h1, h2, h3, h4, h5⟩ := skel_eq h
  apply skel_of
  simp only [A.emit, h1, h2, h3, h4, h5, and_self]

theorem skel_saveRef {a a' : A} (h : skel a = skel a') {r r' : ForwardRef} (hr : skelRef r = skelRef r') (m : Mnemonic) :
    skel (a.saveRef r m) = skel (a'.saveRef r' m) := by
  obtain ⟨h1, h2, h3, h4, h5⟩ := skel_eq h
  apply skel_of
  simp only [A.saveRef, h1, h2, h3, h4, h5, and_self, List.map_append, List.map_cons, List.map_nil, hr]

/-- The operand lexeme. -/
theorem operandOf_map (ls : List (Nat × Lexeme)) : (operandOf ls).map (·.2) = (ls.map (·.2)).tail.find? operandLike := by
  unfold operandOf
  rw [← List.map_tail, List.find?_map]
  rfl

theorem instrStep_congr' {buf buf' : Str} {ls ls' : List (Nat × Lexeme)} (hl : shape (ls.map (·.2)) = shape (ls'.map (·.2)))
    (ho : (operandOf ls).map (·.2) = (operandOf ls').map (·.2)) {a a' : A}
    (ha : skel a = skel a') (m : Mnemonic) : skelF (instrStep buf ls m a) = skelF (instrStep buf' ls' m a') := by
  obtain ⟨h1, h2, h3, h4, h5⟩ := skel_eq ha
  unfold instrStep
  rw [hl]
  cases hq : operandOf ls with
  | none =>
    rw [hq] at ho
    cases hq' : operandOf ls' with
    | some q' => rw [hq'] at ho; cases ho
    | none =>
      simp only
      split_ifs
      · rfl
      · simp only [skelF, skel_emit ha]
  | some q =>
    rw [hq] at ho
    cases hq' : operandOf ls' with
    | none => rw [hq'] at ho; cases ho
    | some q' =>
      rw [hq'] at ho
      simp only [Option.map_some, Option.some.injEq] at ho
      obtain ⟨p, x⟩ := q
      obtain ⟨p', x'⟩ := q'
      simp only at ho
      subst ho
      cases x with
      | regA =>
        simp only
        split_ifs
        · rfl
        · simp only [skelF, skel_emit ha]
      | lit v =>
        simp only
        split_ifs
        · rfl
        · simp only [skelF, skel_emit ha]
      | name l =>
        simp only [h3, h1]
        cases a'.env.lookup l with
        | some v =>
          simp only
          split_ifs
          · rfl
          · cases branchByte a'.pc v with
            | none => rfl
            | some b => simp only [skelF, skel_emit ha]
          · simp only [skelF, skel_emit ha]
        | none =>
          simp only
          split_ifs
          · rfl
          · simp only [skelF]
            rw [skel_emit (skel_saveRef ha (r := mkRef buf l m (fwdFlag m (shape (ls'.map (·.2)))) p a)
              (r' := mkRef buf' l m (fwdFlag m (shape (ls'.map (·.2)))) p' a') (by simp [skelRef, mkRef, h1]) m)]
          · rfl
      | _ =>
        simp only
        split_ifs
        · rfl
        · simp only [skelF, skel_emit ha]

theorem instrStep_congr {buf buf' : Str} {ls ls' : List (Nat × Lexeme)} (hl : ls.map (·.2) = ls'.map (·.2)) {a a' : A}
    (ha : skel a = skel a') (m : Mnemonic) : skelF (instrStep buf ls m a) = skelF (instrStep buf' ls' m a') := by
  have ho := operandOf_map ls
  have ho' := operandOf_map ls'
  rw [hl, ← ho'] at ho
  exact instrStep_congr' (by rw [hl]) ho ha m

/-- The label a line declares, from the lexemes. -/
def declaredK (pc : Nat) : List Lexeme → Option (Str × Nat)
  | .name l :: .eq :: .lit v :: _ => some (l, v)
  | .name l :: .equ :: .lit v :: _ => some (l, v)
  | .define :: .name l :: .lit v :: _ => some (l, v)
  | .name l :: _ => some (l, pc)
  | _ => none

theorem declared_map (pc : Nat) (ls : List (Nat × Lexeme)) :
    (declared pc ls).map (·.2) = declaredK pc (ls.map (·.2)) := by
  unfold declared
  split <;> try rfl
  · rename_i p l rest h1 h2
    simp only [List.map_cons]
    unfold declaredK
    split <;> try rfl
    · rename_i hh
      simp only [List.cons.injEq, Lexeme.name.injEq] at hh
      obtain ⟨rfl, hh⟩ := hh
      match rest, hh with
      | (_, x) :: (_, y) :: r, hh =>
        simp only [List.map_cons, List.cons.injEq] at hh
        obtain ⟨rfl, rfl, _⟩ := hh
        exact absurd rfl (h1 _ _ _ _)
    · rename_i hh
      simp only [List.cons.injEq, Lexeme.name.injEq] at hh
      obtain ⟨rfl, hh⟩ := hh
      match rest, hh with
      | (_, x) :: (_, y) :: r, hh =>
        simp only [List.map_cons, List.cons.injEq] at hh
        obtain ⟨rfl, rfl, _⟩ := hh
        exact absurd rfl (h2 _ _ _ _)
    · rename_i hh
      simp at hh
    · rename_i hh
      simp only [List.cons.injEq, Lexeme.name.injEq] at hh
      obtain ⟨rfl, _⟩ := hh
      rfl
    · rename_i hh
      exact absurd rfl (hh _ _)
  · rename_i h1 h2 h3 h4
    unfold declaredK
    symm
    match ls with
    | [] => rfl
    | (p, .name l) :: r => exact absurd rfl (h4 p l r)
    | [(p, .define)] => rfl
    | (p, .define) :: (q, y) :: r =>
      cases y with
      | name l =>
        match r with
        | [] => rfl
        | (q', z) :: r' =>
          cases z with
          | lit v => exact absurd rfl (h3 _ _ _ _ _ _)
          | _ => rfl
      | _ => rfl
    | (p, .mnem _) :: r | (p, .regX) :: r | (p, .regY) :: r | (p, .regA) :: r | (p, .lit _) :: r | (p, .hash) :: r
    | (p, .lpar) :: r | (p, .rpar) :: r | (p, .comma) :: r | (p, .eq) :: r | (p, .star) :: r | (p, .equ) :: r
    | (p, .org) :: r | (p, .stop) :: r => rfl

def originK : List Lexeme → Option Nat
  | .org :: .lit v :: _ => some v
  | .star :: .eq :: .lit v :: _ => some v
  | _ => none

theorem origin_map (ls : List (Nat × Lexeme)) : originOf ls = originK (ls.map (·.2)) := by
  unfold originOf
  split <;> try rfl
  rename_i h1 h2
  unfold originK
  symm
  match ls with
  | [] => rfl
  | [(p, .org)] => rfl
  | (p, .org) :: (q, y) :: r =>
    cases y with
    | lit v => exact absurd rfl (h1 _ _ _ _)
    | _ => rfl
  | [(p, .star)] => rfl
  | (p, .star) :: (q, y) :: r =>
    cases y with
    | eq =>
      match r with
      | [] => rfl
      | (q', z) :: r' =>
        cases z with
        | lit v => exact absurd rfl (h2 _ _ _ _ _)
        | _ => rfl
    | _ => rfl
  | (p, .mnem _) :: r | (p, .regX) :: r | (p, .regY) :: r | (p, .regA) :: r | (p, .lit _) :: r | (p, .hash) :: r
  | (p, .lpar) :: r | (p, .rpar) :: r | (p, .comma) :: r | (p, .eq) :: r | (p, .define) :: r | (p, .equ) :: r
  | (p, .name _) :: r | (p, .stop) :: r => rfl

theorem isStop_congr {ls ls' : List (Nat × Lexeme)} (hl : ls.map (·.2) = ls'.map (·.2)) : isStop ls = isStop ls' := by
  match ls, ls', hl with
  | [], [], _ => rfl
  | (p, x) :: r, (p', x') :: r', hl =>
    simp only [List.map_cons, List.cons.injEq] at hl
    obtain ⟨rfl, _⟩ := hl
    cases x <;> rfl

theorem declare_congr {ls ls' : List (Nat × Lexeme)} (hl : ls.map (·.2) = ls'.map (·.2)) {a a' : A}
    (ha : skel a = skel a') : skelF (declare ls a) = skelF (declare ls' a') := by
  obtain ⟨h1, h2, h3, h4, h5⟩ := skel_eq ha
  have hd : (declared a.pc ls).map (·.2) = (declared a'.pc ls').map (·.2) := by rw [declared_map, declared_map, hl, h1]
  have hor : originOf ls = originOf ls' := by rw [origin_map, origin_map, hl]
  unfold declare
  rw [hor]
  cases hq : declared a.pc ls with
  | some q =>
    rw [hq] at hd
    cases hq' : declared a'.pc ls' with
    | none => rw [hq'] at hd; cases hd
    | some q' =>
      rw [hq'] at hd
      obtain ⟨p, l, v⟩ := q
      obtain ⟨p', l', v'⟩ := q'
      simp only [Option.map_some, Option.some.injEq, Prod.mk.injEq] at hd
      obtain ⟨rfl, rfl⟩ := hd
      simp only [h3]
      cases a'.env.lookup l with
      | some _ => rfl
      | none =>
        simp only [skelF, Except.ok.injEq]
        apply skel_of
        simp only [h1, h2, h4, h5, and_self]
  | none =>
    rw [hq] at hd
    cases hq' : declared a'.pc ls' with
    | some q' => rw [hq'] at hd; cases hd
    | none =>
      simp only
      cases originOf ls' with
      | none => simp only [skelF, ha]
      | some v =>
        simp only [skelF, Except.ok.injEq]
        apply skel_of
        simp only [h3, h2, h4, h5, and_self]

theorem skelF_ok {x y : Except Fault A} (h : skelF x = skelF y) : (∃ a b, x = .ok a ∧ y = .ok b ∧ skel a = skel b) ∨
    ∃ f g, x = .error f ∧ y = .error g ∧ f.1 = g.1 := by
  cases x with
  | ok a =>
    cases y with
    | ok b => exact .inl ⟨a, b, rfl, rfl, by simpa [skelF] using h⟩
    | error g => cases h
  | error f =>
    cases y with
    | ok b => cases h
    | error g => exact .inr ⟨f, g, rfl, rfl, by simpa [skelF] using h⟩

theorem step_congr {buf buf' : Str} {ls ls' : List (Nat × Lexeme)} (hl : ls.map (·.2) = ls'.map (·.2)) {a a' : A}
    (ha : skel a = skel a') : skelB (step buf ls a) = skelB (step buf' ls' a') := by
  unfold step
  rcases skelF_ok (declare_congr hl ha) with ⟨b, b', e1, e2, hb⟩ | ⟨f, g, e1, e2, hf⟩
  · rw [e1, e2]
    simp only [isStop_congr hl, hl]
    split_ifs
    · simp only [skelB, hb]
    · cases lastMnem (ls'.map (·.2)) with
      | none =>
        simp only [skelB, Except.ok.injEq, Prod.mk.injEq, true_and]
        apply skel_of
        exact skel_eq hb
      | some m =>
        rcases skelF_ok (instrStep_congr (buf := buf) (buf' := buf') hl hb m) with ⟨c, c', g1, g2, hc⟩ | ⟨f, g, g1, g2, hf⟩
        · simp only [g1, g2, skelB, hc]
        · simp only [g1, g2, skelB, hf]
  · rw [e1, e2]
    simp only [skelB, hf]

/-- One line. -/
theorem line_congr {fn fn' : Str} {raw raw' : List Byte} (hk : kinds (lexemes raw) = kinds (lexemes raw')) {a a' : A}
    (ha : skel a = skel a') : skelL (line fn raw a) = skelL (line fn' raw' a') := by
  have h4 := (skel_eq ha).2.2.2.1
  unfold line
  cases hx : lexemes raw with
  | error f =>
    rw [hx] at hk
    cases hy : lexemes raw' with
    | ok ls' => rw [hy] at hk; cases f <;> cases hk
    | error g =>
      rw [hy] at hk
      cases f with
      | «at» e p =>
        cases g with
        | «at» e' p' =>
          obtain rfl : e = e' := by simpa [kinds] using hk
          simp only [skelL, faultAt, h4]
        | tooMany => simp [kinds] at hk
      | tooMany =>
        cases g with
        | «at» e' p' => simp [kinds] at hk
        | tooMany => simp only [skelL, h4]
  | ok ls =>
    rw [hx] at hk
    cases hy : lexemes raw' with
    | error g => rw [hy] at hk; cases g <;> cases hk
    | ok ls' =>
      rw [hy] at hk
      have hl : ls.map (·.2) = ls'.map (·.2) := by simpa [kinds] using hk
      simp only [hl]
      cases syn (typeAt (ls'.map (·.2))) with
      | error q => simp only [skelL, faultAt, h4]
      | ok u =>
        simp only
        have hs := step_congr (buf := cstr raw) (buf' := cstr raw') hl ha
        cases e1 : step (cstr raw) ls a with
        | error f =>
          rw [e1] at hs
          cases e2 : step (cstr raw') ls' a' with
          | error g =>
            rw [e2] at hs
            obtain h : f.1 = g.1 := by simpa [skelB] using hs
            simp only [skelL, faultAt, h4, h]
          | ok r => rw [e2] at hs; cases hs
        | ok r =>
          rw [e1] at hs
          cases e2 : step (cstr raw') ls' a' with
          | error g => rw [e2] at hs; cases hs
          | ok r' =>
            rw [e2] at hs
            simpa [skelB, skelL] using hs

theorem runLines_congr {fn fn' : Str} : ∀ {cs cs' : List (List Byte)} {a a' : A},
    List.Forall₂ (fun r r' => kinds (lexemes r) = kinds (lexemes r')) cs cs' → skel a = skel a' →
    skelR (runLines fn cs a) = skelR (runLines fn' cs' a')
  | _, _, a, a', .nil, ha => by simp only [runLines, skelR, ha]
  | c :: cs, c' :: cs', a, a', .cons h hs, ha => by
    have hl := line_congr (fn := fn) (fn' := fn') h ha
    unfold runLines
    cases e1 : line fn c a with
    | error f =>
      rw [e1] at hl
      cases e2 : line fn' c' a' with
      | error g => rw [e2] at hl; simpa [skelL, skelR] using hl
      | ok r => rw [e2] at hl; cases hl
    | ok r =>
      rw [e1] at hl
      cases e2 : line fn' c' a' with
      | error g => rw [e2] at hl; cases hl
      | ok r' =>
        rw [e2] at hl
        obtain ⟨b, a1⟩ := r
        obtain ⟨b', a1'⟩ := r'
        simp only [skelL, Except.ok.injEq, Prod.mk.injEq] at hl
        obtain ⟨rfl, hsk⟩ := hl
        cases b with
        | true => simp only [skelR, hsk]
        | false => exact runLines_congr hs hsk

def skelO : Except Abort OutFile → Except (Err × OutFile) OutFile
  | .ok a => .ok a
  | .error x => .error (x.fail.code, x.out)

theorem patch_congr {fn fn' : Str} {env : Env} : ∀ {rs rs' : List ForwardRef} (out : OutFile), rs.map skelRef = rs'.map skelRef →
    skelO (patch fn env rs out) = skelO (patch fn' env rs' out)
  | [], [], out, _ => rfl
  | [], _ :: _, _, h => by cases h
  | _ :: _, [], _, h => by cases h
  | r :: rs, r' :: rs', out, h => by
    simp only [List.map_cons, List.cons.injEq] at h
    obtain ⟨h1, h2⟩ := h
    unfold skelRef at h1
    simp only [ForwardRef.mk.injEq, true_and, and_true] at h1
    obtain ⟨k1, k2, k3, k4⟩ := h1
    unfold patch
    rw [k1, k2, k3, k4]
    cases env.lookup r'.label with
    | none => rfl
    | some v =>
      simp only
      split_ifs
      · cases branchByte r'.pc v with
        | none => rfl
        | some b => exact patch_congr _ h2
      · exact patch_congr _ h2

/-- `assembleA` after the lines. -/
def finishA (fn : Str) : Except Abort A → Except Abort A
  | .error e => .error e
  | .ok a => match patch fn a.env a.refs a.out with
    | .error e => .error e
    | .ok out => .ok { a with out := out }

theorem assembleA_eq (fn : Str) (src : List Byte) : assembleA fn src = finishA fn (runLines fn (chunks src) A.init) := by
  unfold assembleA finishA
  cases runLines fn (chunks src) A.init <;> rfl

theorem finish_congr {fn fn' : Str} {x y : Except Abort A} (h : skelR x = skelR y) :
    skelR (finishA fn x) = skelR (finishA fn' y) := by
  unfold finishA
  cases x with
  | error f =>
    cases y with
    | error g => exact h
    | ok b => cases h
  | ok a =>
    cases y with
    | error g => cases h
    | ok b =>
      have hs : skel a = skel b := by simpa [skelR] using h
      obtain ⟨h1, h2, h3, h4, h5⟩ := skel_eq hs
      have hp := patch_congr (fn := fn) (fn' := fn') (env := b.env) b.out h5
      simp only [h3, h4]
      cases e1 : patch fn b.env a.refs b.out with
      | error f =>
        rw [e1] at hp
        cases e2 : patch fn' b.env b.refs b.out with
        | error g => rw [e2] at hp; simpa [skelO, skelR] using hp
        | ok o => rw [e2] at hp; cases hp
      | ok o =>
        rw [e1] at hp
        cases e2 : patch fn' b.env b.refs b.out with
        | error g => rw [e2] at hp; cases hp
        | ok o' =>
          rw [e2] at hp
          obtain rfl : o = o' := by simpa [skelO] using hp
          simp only [skelR, Except.ok.injEq]
          exact skel_of ⟨h1, h2, rfl, rfl, h5⟩

theorem assembleA_congr {fn fn' : Str} {src src' : List Byte}
    (h : skelR (runLines fn (chunks src) A.init) = skelR (runLines fn' (chunks src') A.init)) :
    skelR (assembleA fn src) = skelR (assembleA fn' src') := by
  rw [assembleA_eq, assembleA_eq]
  exact finish_congr h

/-- Runs with the same skeleton have the same result. -/
theorem sameResult_of {w w' : World} {srcName outName : Str} {src src' : List Byte} (hw : Setup w srcName outName src)
    (hw' : Setup w' srcName outName src') (hs : Sized src) (hs' : Sized src')
    (h : skelR (runLines srcName (chunks src) A.init) = skelR (runLines srcName (chunks src') A.init)) :
    SameResult srcName outName w w' := by
  have hA := assembleA_congr h
  have s1 := assemble_sim srcName src hs
  have s2 := assemble_sim srcName src' hs'
  unfold SameResult
  rw [gaia_eq hw, gaia_eq hw']
  cases e1 : assembleA srcName src with
  | error f =>
    rw [e1] at s1 hA
    cases e2 : assembleA srcName src' with
    | ok a => rw [e2] at hA; cases hA
    | error g =>
      rw [e2] at s2 hA
      have : f.out = g.out := by
        simp only [skelR, Except.error.injEq, Prod.mk.injEq] at hA
        exact hA.2
      simp only at s1 s2
      rw [s1, s2]
      exact ⟨1, f.fail.out, g.fail.out, f.out.bytes, rfl, by rw [this]; rfl, .inr rfl, by simp⟩
  | ok a =>
    rw [e1] at s1 hA
    cases e2 : assembleA srcName src' with
    | error g => rw [e2] at hA; cases hA
    | ok b =>
      rw [e2] at s2 hA
      obtain ⟨_, h2, h3, h4, _⟩ := skel_eq (show skel a = skel b by simpa [skelR] using hA)
      obtain ⟨st, r1, r2, r3, r4, _⟩ := s1
      obtain ⟨st', q1, q2, q3, q4, _⟩ := s2
      rw [r1, q1]
      refine ⟨0, report st.total st.symtab.count, report st'.total st'.symtab.count, st.out.bytes, rfl, ?_, .inl rfl, fun _ => ?_⟩
      · rw [r4, h4, ← q4]; rfl
      · rw [r2, q2, r3, q3, h2, h3]

end Gaia

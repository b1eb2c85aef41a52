import Verif.Proofs.Alike
import Verif.Proofs.BadLine

/-! Runs on related sources. -/
set_option linter.unusedSimpArgs false
namespace Gaia
open Spec

theorem chunksAux_fuel : ∀ (fuel fuel' : Nat) (s : List Byte), s.length ≤ fuel → s.length ≤ fuel' →
    chunksAux fuel s = chunksAux fuel' s := by
  intro fuel
  induction fuel with
  | zero =>
    intro fuel' s h _
    have : s = [] := List.length_eq_zero_iff.1 (by omega)
    subst this
    cases fuel' <;> simp [chunksAux]
  | succ fuel ih =>
    intro fuel' s h h'
    by_cases hs : s = []
    · subst hs; cases fuel' <;> simp [chunksAux]
    · cases fuel' with
      | zero => exact absurd (List.length_eq_zero_iff.1 (by omega)) hs
      | succ fuel' =>
        unfold chunksAux
        rw [if_neg hs, if_neg hs]
        have : (fgets (MAX_BUFFER_SIZE - 1) s).2.length < s.length := fgets_progress 126 s hs
        rw [ih fuel' _ (by omega) (by omega)]

theorem chunks_cons {s : List Byte} (hs : s ≠ []) : chunks s = (fgets 127 s).1 :: chunks (fgets 127 s).2 := by
  unfold chunks
  cases hl : s.length with
  | zero => exact absurd (List.length_eq_zero_iff.1 hl) hs
  | succ n =>
    conv_lhs => unfold chunksAux
    rw [if_neg hs]
    have : (fgets (MAX_BUFFER_SIZE - 1) s).2.length < s.length := fgets_progress 126 s hs
    rw [chunksAux_fuel n _ _ (by omega) (Nat.le_refl _)]
    rfl

theorem chunks_cut {l rest : List Byte} (hl : ∀ c ∈ l, c ≠ 10) (hn : l.length ≤ 126) :
    chunks (l ++ 10 :: rest) = (l ++ [10]) :: chunks rest := by
  rw [chunks_cons (by simp), fgets_cut 127 l rest hl (by omega)]

theorem fgets_append : ∀ (n : Nat) (a b : List Byte), fgets n (a ++ 10 :: b) = ((fgets n (a ++ [10])).1, (fgets n (a ++ [10])).2 ++ b) := by
  intro n
  induction n with
  | zero => intro a b; simp [fgets]
  | succ n ih =>
    intro a b
    cases a with
    | nil => simp [fgets]
    | cons c a =>
      simp only [List.cons_append, fgets]
      split_ifs with h
      · simp
      · rw [ih a b]

theorem fgets_newline : ∀ (n : Nat) (a : List Byte), ∃ q, (fgets n (a ++ [10])).2 = [] ∨ (fgets n (a ++ [10])).2 = q ++ [10] := by
  intro n
  induction n with
  | zero => intro a; exact ⟨a, .inr rfl⟩
  | succ n ih =>
    intro a
    cases a with
    | nil => exact ⟨[], .inl (by simp [fgets])⟩
    | cons c a =>
      simp only [List.cons_append, fgets]
      split_ifs with h
      · exact ⟨a, .inr rfl⟩
      · exact ih a

/-- Whole lines are read independently of what follows. -/
theorem chunks_append : ∀ (n : Nat) (a b : List Byte), a.length ≤ n →
    chunks (a ++ 10 :: b) = chunks (a ++ [10]) ++ chunks b := by
  intro n
  induction n with
  | zero =>
    intro a b h
    obtain rfl : a = [] := List.length_eq_zero_iff.1 (by omega)
    rw [chunks_cons (by simp), chunks_cons (s := [] ++ [10]) (by simp)]
    simp [fgets, chunks, chunksAux]
  | succ n ih =>
    intro a b h
    rw [chunks_cons (by simp), chunks_cons (s := a ++ [10]) (by simp), fgets_append, List.cons_append]
    congr 1
    simp only
    have hp := fgets_progress 126 (a ++ [10]) (by simp)
    obtain ⟨q, hq | hq⟩ := fgets_newline 127 a
    · rw [hq]; simp [chunks, chunksAux]
    · rw [hq] at hp
      rw [hq, List.append_assoc, ← ih q b (by simp at hp; omega)]
      rfl

theorem chunks_whole {pre b : List Byte} (h : WholeLines pre) : chunks (pre ++ b) = chunks pre ++ chunks b := by
  rcases h with rfl | ⟨q, rfl⟩
  · simp [chunks, chunksAux]
  · rw [← chunks_append _ q b (Nat.le_refl _), List.append_assoc]
    rfl

/-- Lines, and whether `.END` was met. -/
def runOn (fn : Str) : List (List Byte) → A → Except Abort (Bool × A)
  | [], a => .ok (false, a)
  | raw :: rest, a =>
    match line fn raw a with
    | .error e => .error e
    | .ok (true, a) => .ok (true, a)
    | .ok (false, a) => runOn fn rest a

theorem runLines_append (fn : Str) : ∀ (cs ds : List (List Byte)) (a : A), runLines fn (cs ++ ds) a =
    match runOn fn cs a with
    | .error e => .error e
    | .ok (true, a) => .ok a
    | .ok (false, a) => runLines fn ds a
  | [], _, _ => rfl
  | c :: cs, ds, a => by
    simp only [List.cons_append, runLines, runOn]
    cases h : line fn c a with
    | error e => rfl
    | ok r =>
      obtain ⟨b, a'⟩ := r
      cases b
      · exact runLines_append fn cs ds a'
      · rfl

/-- What decides the result, whatever the error is. -/
def outcome : Except Abort A → Except OutFile A
  | .ok a => .ok (skel a)
  | .error x => .error x.out

theorem outcome_of_skelR {x y : Except Abort A} (h : skelR x = skelR y) : outcome x = outcome y := by
  cases x <;> cases y <;> simp_all [skelR, outcome]

theorem finish_outcome {fn fn' : Str} {x y : Except Abort A} (h : outcome x = outcome y) :
    outcome (finishA fn x) = outcome (finishA fn' y) := by
  cases x with
  | error f =>
    cases y with
    | error g => exact h
    | ok b => cases h
  | ok a =>
    cases y with
    | error g => cases h
    | ok b =>
      refine outcome_of_skelR (finish_congr ?_)
      simpa [skelR, outcome] using h

/-- Runs with the same outcome have the same result. -/
theorem sameResult_of_outcome {w w' : World} {srcName outName : Str} {src src' : List Byte} (hw : Setup w srcName outName src)
    (hw' : Setup w' srcName outName src') (hs : Sized src) (hs' : Sized src')
    (h : outcome (runLines srcName (chunks src) A.init) = outcome (runLines srcName (chunks src') A.init)) :
    SameResult srcName outName w w' := by
  have hA : outcome (assembleA srcName src) = outcome (assembleA srcName src') := by
    rw [assembleA_eq, assembleA_eq]; exact finish_outcome h
  have s1 := assemble_sim srcName src hs
  have s2 := assemble_sim srcName src' hs'
  unfold SameResult
  rw [gaia_eq hw, gaia_eq hw']
  cases e1 : assembleA srcName src with
  | error f =>
    rw [e1] at s1 hA
    cases e2 : assembleA srcName src' with
    | ok a => rw [e2] at hA; cases hA
    | error g =>
      rw [e2] at s2 hA
      have : f.out = g.out := by simpa [outcome] using hA
      simp only at s1 s2
      rw [s1, s2]
      exact ⟨1, f.fail.out, g.fail.out, f.out.bytes, rfl, by rw [this]; rfl, .inr rfl, by simp⟩
  | ok a =>
    rw [e1] at s1 hA
    cases e2 : assembleA srcName src' with
    | error g => rw [e2] at hA; cases hA
    | ok b =>
      rw [e2] at s2 hA
      obtain ⟨_, h2, h3, h4, _⟩ := skel_eq (show skel a = skel b by simpa [outcome] using hA)
      obtain ⟨st, r1, r2, r3, r4, _⟩ := s1
      obtain ⟨st', q1, q2, q3, q4, _⟩ := s2
      rw [r1, q1]
      refine ⟨0, report st.total st.symtab.count, report st'.total st'.symtab.count, st.out.bytes, rfl, ?_, .inl rfl, fun _ => ?_⟩
      · rw [r4, h4, ← q4]; rfl
      · rw [r2, q2, r3, q3, h2, h3]

/-- Runs that are the same line by line are the same. -/
theorem sameRun_of {w w' : World} {srcName outName : Str} {src src' : List Byte} (hw : Setup w srcName outName src)
    (hw' : Setup w' srcName outName src') (hs : Sized src) (hs' : Sized src')
    (h : runLines srcName (chunks src) A.init = runLines srcName (chunks src') A.init) :
    SameRun srcName outName w w' := by
  have hA : assembleA srcName src = assembleA srcName src' := by rw [assembleA_eq, assembleA_eq, h]
  have s1 := assemble_sim srcName src hs
  have s2 := assemble_sim srcName src' hs'
  unfold SameRun
  rw [gaia_eq hw, gaia_eq hw']
  rw [← hA] at s2
  cases e1 : assembleA srcName src with
  | error f =>
    rw [e1] at s1 s2
    simp only at s1 s2
    rw [s1, s2]
    exact ⟨1, f.fail.out, f.out.bytes, rfl, rfl, .inr rfl⟩
  | ok a =>
    rw [e1] at s1 s2
    obtain ⟨st, r1, r2, r3, r4, _⟩ := s1
    obtain ⟨st', q1, q2, q3, q4, _⟩ := s2
    rw [r1, q1]
    refine ⟨0, report st.total st.symtab.count, st.out.bytes, rfl, ?_, .inl rfl⟩
    rw [r2, r3, r4, ← q2, ← q3, ← q4]
    rfl

theorem line_end {raw l : List Byte} (hb : Buffers raw l) {k : Nat} (h : Lexes l [(k, .stop)]) (fn : Str) (a : A) :
    line fn raw a = .ok (true, a) := by
  unfold line
  rw [lexemes_buffers hb, lexemes_complete h]
  rfl

/-- Nothing after `.END` matters. -/
theorem run_end {w w' : World} {srcName outName : Str} {pre l rest rest' : List Byte} {k : Nat} (hpre : WholeLines pre)
    (hl : ∀ c ∈ l, c ≠ 10) (hn : l.length ≤ 126) (h : Lexes l [(k, .stop)])
    (hw : Setup w srcName outName (pre ++ l ++ 10 :: rest)) (hw' : Setup w' srcName outName (pre ++ l ++ 10 :: rest'))
    (hs : Sized (pre ++ l ++ 10 :: rest)) (hs' : Sized (pre ++ l ++ 10 :: rest')) :
    SameRun srcName outName w w' := by
  refine sameRun_of hw hw' hs hs' ?_
  rw [List.append_assoc, List.append_assoc, chunks_whole hpre, chunks_whole hpre, chunks_cut hl hn, chunks_cut hl hn,
    runLines_append, runLines_append]
  cases runOn srcName (chunks pre) A.init with
  | error e => rfl
  | ok r =>
    obtain ⟨b, a⟩ := r
    cases b
    · simp only [runLines, line_end (l := l) (.inr rfl) h]
    · rfl

theorem typeAt_map_cons (x : Lexeme) (ls : List Lexeme) (j : Nat) : typeAt (x :: ls) (j + 1) = typeAt ls j := rfl

theorem synIndirect_shift (x : Lexeme) (ls : List Lexeme) (i : Nat) : (∃ u, synIndirect (typeAt (x :: ls)) (i + 1) = .ok u) ↔
    ∃ u, synIndirect (typeAt ls) i = .ok u := by
  unfold synIndirect
  simp only [typeAt_map_cons, Nat.add_assoc, Nat.reduceAdd]
  split_ifs <;> simp

theorem synInstr_shift (x : Lexeme) (ls : List Lexeme) (i : Nat) : (∃ u, synInstr (typeAt (x :: ls)) (i + 1) = .ok u) ↔
    ∃ u, synInstr (typeAt ls) i = .ok u := by
  unfold synInstr
  simp only [typeAt_map_cons, Nat.add_assoc, Nat.reduceAdd]
  split_ifs <;> first | exact synIndirect_shift x ls _ | simp

theorem syn_label_instr (L : Str) (m : Mnemonic) (ls : List Lexeme) :
    (∃ u, syn (typeAt (.name L :: .mnem m :: ls)) = .ok u) ↔ ∃ u, syn (typeAt (.mnem m :: ls)) = .ok u := by
  have h1 : syn (typeAt (.name L :: .mnem m :: ls)) = synInstr (typeAt (.name L :: .mnem m :: ls)) (0 + 1) := rfl
  have h2 : syn (typeAt (.mnem m :: ls)) = synInstr (typeAt (.mnem m :: ls)) 0 := rfl
  rw [h1, h2]
  exact synInstr_shift _ _ _

theorem line_label {raw : List Byte} {i : Nat} {L : Str} (h : lexemes raw = .ok [(i, .name L)]) (fn : Str) (a : A) :
    line fn raw a = match a.env.lookup L with
      | some _ => .error (faultAt fn (cstr raw) a (.labelRedefinition, some i))
      | none => .ok (false, { a with env := (L, a.pc) :: a.env, lineNum := a.lineNum + 1 }) := by
  unfold line
  rw [h]
  have h1 : syn (typeAt ([(i, Lexeme.name L)].map (·.2))) = .ok () := rfl
  simp only [h1]
  unfold step
  have h2 : declared a.pc [(i, Lexeme.name L)] = some (i, L, a.pc) := rfl
  unfold declare
  rw [h2]
  simp only
  cases a.env.lookup L <;> rfl

/-- Forget the fault. -/
def lineOut : Except Abort (Bool × A) → Except OutFile (Bool × A)
  | .ok (b, a) => .ok (b, skel a)
  | .error x => .error x.out

theorem outcome_line {fn fn' : Str} {raw raw' : List Byte} {cs : List (List Byte)} {a a' : A}
    (h : lineOut (line fn raw a) = lineOut (line fn' raw' a')) :
    outcome (runLines fn (raw :: cs) a) = outcome (runLines fn' (raw' :: cs) a') := by
  unfold runLines
  cases e1 : line fn raw a with
  | error f =>
    rw [e1] at h
    cases e2 : line fn' raw' a' with
    | error g => rw [e2] at h; simpa [lineOut, outcome] using h
    | ok r => rw [e2] at h; cases h
  | ok r =>
    rw [e1] at h
    cases e2 : line fn' raw' a' with
    | error g => rw [e2] at h; cases h
    | ok r' =>
      rw [e2] at h
      obtain ⟨b, a1⟩ := r
      obtain ⟨b', a1'⟩ := r'
      simp only [lineOut, Except.ok.injEq, Prod.mk.injEq] at h
      obtain ⟨rfl, hsk⟩ := h
      cases b with
      | true => simp only [outcome, hsk]
      | false =>
        exact outcome_of_skelR (runLines_congr (List.forall₂_same.2 fun _ _ => rfl) hsk)

theorem line_instr {fn fn' : Str} {raw raw' : List Byte} {j k k' : Nat} {L : Str} {m : Mnemonic} {xs ys : List (Nat × Lexeme)}
    (hb : lexemes raw = .ok ((j, .mnem m) :: xs)) (hc : lexemes raw' = .ok ((k, .name L) :: (k', .mnem m) :: ys))
    (hxy : xs.map (·.2) = ys.map (·.2)) {a : A} (hL : a.env.lookup L = none) :
    lineOut (line fn raw { a with env := (L, a.pc) :: a.env, lineNum := a.lineNum + 1 }) = lineOut (line fn' raw' a) := by
  unfold line
  rw [hb, hc]
  simp only [List.map_cons, hxy]
  have hsyn := syn_label_instr L m (ys.map (·.2))
  cases e1 : syn (typeAt (.mnem m :: ys.map (·.2))) with
  | error q =>
    cases e2 : syn (typeAt (.name L :: .mnem m :: ys.map (·.2))) with
    | error q' => rfl
    | ok u => rw [e1, e2] at hsyn; simp at hsyn
  | ok u =>
    cases e2 : syn (typeAt (.name L :: .mnem m :: ys.map (·.2))) with
    | error q' => rw [e1, e2] at hsyn; simp at hsyn
    | ok u =>
      simp only
      have d1 : ∀ a' : A, declare ((j, .mnem m) :: xs) a' = .ok a' := fun _ => rfl
      have d2 : declare ((k, .name L) :: (k', .mnem m) :: ys) a = .ok { a with env := (L, a.pc) :: a.env } := by
        unfold declare
        have : declared a.pc ((k, Lexeme.name L) :: (k', .mnem m) :: ys) = some (k, L, a.pc) := rfl
        rw [this]
        simp only [hL]
      unfold step
      rw [d1, d2]
      have i1 : isStop ((j, .mnem m) :: xs) = false := rfl
      have i2 : isStop ((k, .name L) :: (k', .mnem m) :: ys) = false := rfl
      simp only [i1, i2, Bool.false_eq_true, if_false, List.map_cons, hxy]
      have m1 : lastMnem (.mnem m :: ys.map (·.2)) = some ((lastMnem (ys.map (·.2))).getD m) := rfl
      have m2 : lastMnem (.name L :: .mnem m :: ys.map (·.2)) = some ((lastMnem (ys.map (·.2))).getD m) := rfl
      rw [m1, m2]
      simp only
      have hstep := instrStep_congr' (buf := cstr raw) (buf' := cstr raw') (ls := (j, .mnem m) :: xs)
        (ls' := (k, .name L) :: (k', .mnem m) :: ys)
        (by simp [shape, hxy])
        (by rw [operandOf_map, operandOf_map]
            simp only [List.map_cons, List.tail_cons, hxy]
            rw [List.find?_cons]
            rfl)
        (a := { a with env := (L, a.pc) :: a.env, lineNum := a.lineNum + 1 })
        (a' := { a with env := (L, a.pc) :: a.env }) rfl ((lastMnem (ys.map (·.2))).getD m)
      rcases skelF_ok hstep with ⟨b, b', e1, e2, hb⟩ | ⟨f, g, e1, e2, hf⟩
      · rw [e1, e2]; simp only [lineOut, hb]
      · rw [e1, e2]; rfl

theorem line_redefined {fn : Str} {raw : List Byte} {k : Nat} {L : Str} {m : Mnemonic} {k' : Nat} {ys : List (Nat × Lexeme)}
    (hc : lexemes raw = .ok ((k, .name L) :: (k', .mnem m) :: ys)) {a : A} {v : Nat} (hL : a.env.lookup L = some v) :
    lineOut (line fn raw a) = .error a.out := by
  unfold line
  rw [hc]
  simp only
  split
  · rfl
  · have d2 : step (cstr raw) ((k, .name L) :: (k', .mnem m) :: ys) a = .error (.labelRedefinition, some k) := by
      unfold step declare
      have : declared a.pc ((k, Lexeme.name L) :: (k', .mnem m) :: ys) = some (k, L, a.pc) := rfl
      rw [this]
      simp only [hL]
    rw [d2]
    rfl

/-- A label on its own line. -/
theorem run_label {w w' : World} {srcName outName : Str} {pre x y z rest : List Byte} (hpre : WholeLines pre)
    (hx : ∀ c ∈ x, c ≠ 10) (hy : ∀ c ∈ y, c ≠ 10) (hz : ∀ c ∈ z, c ≠ 10) (hxl : x.length ≤ 126) (hyl : y.length ≤ 126)
    (hzl : z.length ≤ 126) {i j k k' : Nat} {L : Str} {m : Mnemonic} {xs ys : List (Nat × Lexeme)}
    (lx : Lexes x [(i, .name L)]) (ly : Lexes y ((j, .mnem m) :: xs)) (lz : Lexes z ((k, .name L) :: (k', .mnem m) :: ys))
    (hxy : xs.map (·.2) = ys.map (·.2)) (h8 : xs.length ≤ 6)
    (hw : Setup w srcName outName (pre ++ (x ++ 10 :: (y ++ 10 :: rest)))) (hw' : Setup w' srcName outName (pre ++ (z ++ 10 :: rest)))
    (hs : Sized (pre ++ (x ++ 10 :: (y ++ 10 :: rest)))) (hs' : Sized (pre ++ (z ++ 10 :: rest))) :
    SameResult srcName outName w w' := by
  have hlen : xs.length = ys.length := by simpa using congrArg List.length hxy
  have kx : lexemes (x ++ [10]) = .ok [(i, .name L)] := by
    rw [lexemes_buffers (l := x) (.inr rfl), lexemes_complete lx]; rfl
  have ky : lexemes (y ++ [10]) = .ok ((j, .mnem m) :: xs) := by
    rw [lexemes_buffers (l := y) (.inr rfl), lexemes_complete ly, if_pos (by simp; omega)]
  have kz : lexemes (z ++ [10]) = .ok ((k, .name L) :: (k', .mnem m) :: ys) := by
    rw [lexemes_buffers (l := z) (.inr rfl), lexemes_complete lz, if_pos (by simp; omega)]
  refine sameResult_of_outcome hw hw' hs hs' ?_
  rw [chunks_whole hpre, chunks_whole hpre, chunks_cut hx hxl, chunks_cut hy hyl, chunks_cut hz hzl,
    runLines_append, runLines_append]
  cases runOn srcName (chunks pre) A.init with
  | error e => rfl
  | ok r =>
    obtain ⟨b, a⟩ := r
    cases b with
    | true => rfl
    | false =>
      simp only
      have hu : runLines srcName ((x ++ [10]) :: (y ++ [10]) :: chunks rest) a = match line srcName (x ++ [10]) a with
        | .error e => .error e
        | .ok (true, a) => .ok a
        | .ok (false, a) => runLines srcName ((y ++ [10]) :: chunks rest) a := rfl
      rw [hu, line_label kx]
      cases hL : a.env.lookup L with
      | none => exact outcome_line (line_instr ky kz hxy hL)
      | some v =>
        have := line_redefined (fn := srcName) kz hL
        simp only
        unfold runLines
        cases e : line srcName (z ++ [10]) a with
        | error f => rw [e] at this; simpa [lineOut, outcome, faultAt] using this.symm
        | ok r => rw [e] at this; cases this

theorem forall₂_chunks {R : List Byte → List Byte → Prop} {src src' : List Byte} (hs : ∀ l ∈ lines src, l.length ≤ 126)
    (hs' : ∀ l ∈ lines src', l.length ≤ 126) (h : List.Forall₂ R (lines src) (lines src'))
    (hR : ∀ l l', R l l' → kinds (lexemes l) = kinds (lexemes l')) :
    List.Forall₂ (fun r r' => kinds (lexemes r) = kinds (lexemes r')) (chunks src) (chunks src') := by
  have h1 := chunks_lines src hs
  have h2 := chunks_lines src' hs'
  generalize lines src = ls at *
  generalize lines src' = ls' at *
  generalize chunks src = cs at *
  generalize chunks src' = cs' at *
  induction h generalizing cs cs' with
  | nil => cases h1; cases h2; exact .nil
  | cons h _ ih =>
    cases h1 with
    | cons b1 h1 =>
      cases h2 with
      | cons b2 h2 =>
        refine .cons ?_ (ih (fun l hl => hs l (by simp [hl])) (fun l hl => hs' l (by simp [hl])) _ h1 _ h2)
        rw [lexemes_buffers b1, lexemes_buffers b2]
        exact hR _ _ h

/-- Sources whose lines correspond have the same result. -/
theorem run_lines {w w' : World} {srcName outName : Str} {src src' : List Byte} {R : List Byte → List Byte → Prop}
    (hw : Setup w srcName outName src) (hw' : Setup w' srcName outName src') (hs : Sized src) (hs' : Sized src')
    (hl : ∀ l ∈ lines src, l.length ≤ 126) (hl' : ∀ l ∈ lines src', l.length ≤ 126)
    (h : List.Forall₂ R (lines src) (lines src')) (hR : ∀ l l', R l l' → kinds (lexemes l) = kinds (lexemes l')) :
    SameResult srcName outName w w' :=
  sameResult_of hw hw' hs hs' (runLines_congr (forall₂_chunks hl hl' h hR) rfl)

theorem kinds_sameLexemes {l l' : List Byte} (h : SameLexemes l l') : kinds (lexemes l) = kinds (lexemes l') := by
  rcases h with rfl | ⟨x, x', h1, h2, h⟩
  · rfl
  · have hlen : x.length = x'.length := by simpa using congrArg List.length h
    rw [lexemes_complete h1, lexemes_complete h2, hlen]
    split_ifs
    · simp only [kinds, h]
    · rfl

theorem Recased.blank {c c' : Byte} (h : Recased c c') : (c = 32 ∨ c = 9) ↔ (c' = 32 ∨ c' = 9) := by
  have := Recased.upEq h
  unfold UpEq at this
  have g : ∀ c : Byte, (toUpper c = 32 ∨ toUpper c = 9) ↔ (c = 32 ∨ c = 9) := by decide +kernel
  rw [← g c, ← g c', this]

theorem alike_of_recased {s s' : Str} (h : List.Forall₂ Recased s s') : Alike Recased s s' := by
  induction h with
  | nil => exact .trail [] [] (by simp [Blanks]) (by simp [Blanks])
  | @cons c c' s s' hc _ ih =>
    by_cases hb : c = 32 ∨ c = 9
    · have hb' := (Recased.blank hc).1 hb
      exact .blanks [c] [c'] s s' (by simpa [Blanks] using hb) (by simpa [Blanks] using hb') (by simp) (by simp) ih
    · have hb' := fun h => hb ((Recased.blank hc).2 h)
      exact .char c c' s s' hc (not_or.1 hb) (not_or.1 hb') ih

theorem forall₂_takeWhile {R : Byte → Byte → Prop} {p : Byte → Bool} (hp : ∀ c c', R c c' → p c = p c') {s s' : List Byte}
    (h : List.Forall₂ R s s') : List.Forall₂ R (s.takeWhile p) (s'.takeWhile p) := by
  induction h with
  | nil => exact .nil
  | @cons c c' s s' hc _ ih =>
    rw [List.takeWhile_cons, List.takeWhile_cons, hp _ _ hc]
    split_ifs
    · exact .cons hc ih
    · exact .nil

theorem lineAlike_of_recased {l l' : List Byte} (h : List.Forall₂ Recased l l') : LineAlike Recased l l' := by
  refine ⟨[], [], code l, code l', rfl, rfl, by simp [Blanks], by simp [Blanks], alike_of_recased ?_⟩
  refine forall₂_takeWhile ?_ h
  intro c c' hc
  have := Recased.upEq hc
  unfold UpEq at this
  have g : ∀ c : Byte, (!(c == 13 || c == 10 || c == 59 || c == 0 || c == 255)) =
    (!(toUpper c == 13 || toUpper c == 10 || toUpper c == 59 || toUpper c == 0 || toUpper c == 255)) := by decide +kernel
  rw [g c, g c', this]

theorem fgets_recased : ∀ (n : Nat) {s s' : List Byte}, List.Forall₂ Recased s s' →
    List.Forall₂ Recased (fgets n s).1 (fgets n s').1 ∧ List.Forall₂ Recased (fgets n s).2 (fgets n s').2 := by
  intro n
  induction n with
  | zero => intro s s' h; exact ⟨.nil, h⟩
  | succ n ih =>
    intro s s' h
    cases h with
    | nil => exact ⟨.nil, .nil⟩
    | @cons c c' s s' hc hs =>
      have g : ∀ c : Byte, (toUpper c = 10) ↔ (c = 10) := by decide +kernel
      have hcc : c = 10 ↔ c' = 10 := by rw [← g c, ← g c', show toUpper c = toUpper c' from Recased.upEq hc]
      simp only [fgets, hcc]
      split_ifs with h10
      · exact ⟨.cons (.inl rfl) .nil, hs⟩
      · exact ⟨.cons hc (ih hs).1, (ih hs).2⟩

theorem chunks_recased : ∀ (n : Nat) {s s' : List Byte}, s.length ≤ n → List.Forall₂ Recased s s' →
    List.Forall₂ (List.Forall₂ Recased) (chunks s) (chunks s') := by
  intro n
  induction n with
  | zero =>
    intro s s' hn h
    obtain rfl : s = [] := List.length_eq_zero_iff.1 (by omega)
    cases h
    exact .nil
  | succ n ih =>
    intro s s' hn h
    by_cases hs : s = []
    · subst hs; cases h; exact .nil
    · have hs' : s' ≠ [] := by rintro rfl; cases h; exact hs rfl
      rw [chunks_cons hs, chunks_cons hs']
      have : (fgets 127 s).2.length < s.length := fgets_progress 126 s hs
      exact .cons (fgets_recased 127 h).1 (ih (by omega) (fgets_recased 127 h).2)

/-- Case does not matter. -/
theorem run_recased {w w' : World} {srcName outName : Str} {src src' : List Byte} (hw : Setup w srcName outName src)
    (hw' : Setup w' srcName outName src') (hs : Sized src) (h : List.Forall₂ Recased src src') :
    SameResult srcName outName w w' := by
  have hs' : Sized src' := by
    unfold Sized at hs ⊢
    rw [pieces_eq] at hs ⊢
    rw [← (chunks_recased _ (Nat.le_refl _) h).length_eq]; exact hs
  refine sameResult_of hw hw' hs hs' (runLines_congr ?_ rfl)
  exact (chunks_recased _ (Nat.le_refl _) h).imp fun l l' hl => kinds_alike (fun _ _ => Recased.upEq) (lineAlike_of_recased hl)

end Gaia

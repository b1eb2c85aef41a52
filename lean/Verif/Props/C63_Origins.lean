import Verif.Props.C59_Append

/-!
C63: origin lines that do nothing.
-/
namespace Gaia.Spec
open Gaia

/-- What an origin line sets, for the pieces that follow it, is never used: no label and no instruction comes before the next line that
sets the origin, before `.END`, before a wrong line, or before the end of the source. -/
def overridden : List (List Byte) → Bool
  | [] => true
  | p :: ps =>
    match stmtOf p with
    | none | some (.org _) | some .stop => true
    | some (.label _) | some (.instr _ _ _) => false
    | some .empty | some (.const _ _) => overridden ps

end Gaia.Spec

namespace Gaia
open Spec Spec.Reference

namespace Org

/-- The result of a run from the state after the last piece. -/
def finish (fn : Str) : Except Failure State → Reference.Result
  | .error f => Failure.result f
  | .ok s =>
    match resolve fn s.env s.pending s.writes with
    | .error f => Failure.result f
    | .ok W => ⟨0, b! "Assembly successful.\n" ++ decimal s.total ++ b! " (0x" ++ hex04 s.total ++ b! ") bytes assembled.\n" ++
        decimal s.env.length ++ b! " symbols.\n", image W⟩

theorem run_finish (fn : Str) (src : List Byte) : run fn src = finish fn (runPieces fn (pieces src) .init) := rfl

theorem finish_pc (fn : Str) (s : State) (v : Nat) : finish fn (.ok { s with pc := v }) = finish fn (.ok s) := rfl

theorem runPieces_cons (fn : Str) (piece : List Byte) (rest : List (List Byte)) (s : State) :
    runPieces fn (piece :: rest) s =
    match lexemesOf piece with
    | .error .tooMany => .error ([], s.writes)
    | .error (.at e pos) => .error (diag (piece.takeWhile (· != 0)) e (some pos) fn s.line, s.writes)
    | .ok ls =>
      match statement (ls.map (·.2)) with
      | .error (e, i) => .error (diag (piece.takeWhile (· != 0)) e (ls[i]?.map (·.1)) fn s.line, s.writes)
      | .ok (st, odd) =>
        match execute (piece.takeWhile (· != 0)) ls odd s st with
        | .error (e, pos) => .error (diag (piece.takeWhile (· != 0)) e pos fn s.line, s.writes)
        | .ok s => if st = .stop then .ok s else runPieces fn rest { s with line := s.line + 1 } := by
  rfl

/-- A change of the text after some pieces matters only if it matters from every state reached. -/
theorem congr_after {fn : Str} {Q Q' : List (List Byte)} : ∀ (P : List (List Byte)) (s : State),
    (∀ s', runPieces fn P s = .ok s' → finish fn (runPieces fn Q s') = finish fn (runPieces fn Q' s')) →
    finish fn (runPieces fn (P ++ Q) s) = finish fn (runPieces fn (P ++ Q') s)
  | [], s, h => h s rfl
  | p :: P, s, h => by
    rw [List.cons_append, List.cons_append, runPieces_cons, runPieces_cons]
    cases h1 : lexemesOf p with
    | error x => cases x <;> rfl
    | ok ls =>
      simp only
      cases h2 : statement (ls.map (·.2)) with
      | error x => rfl
      | ok q =>
        obtain ⟨st, odd⟩ := q
        simp only
        cases h3 : execute (p.takeWhile (· != 0)) ls odd s st with
        | error x => rfl
        | ok t =>
          simp only
          by_cases hst : st = .stop
          · rw [if_pos hst, if_pos hst]
          · rw [if_neg hst, if_neg hst]
            refine congr_after P _ fun s' hs' => h s' ?_
            rw [runPieces_cons, h1]
            simp only [h2, h3, if_neg hst]
            exact hs'

/-- A line that sets the origin. -/
theorem runPieces_org {fn : Str} {line : List Byte} {x : Nat} (h : stmtOf line = some (.org x)) (rest : List (List Byte)) (s : State) :
    runPieces fn (line :: rest) s = runPieces fn rest { s with pc := x, line := s.line + 1 } := by
  rw [runPieces_cons]
  unfold stmtOf at h
  cases h4 : lexemesOf line with
  | error _ => simp only [h4] at h; cases h
  | ok ls =>
    simp only [h4] at h
    cases h5 : statement (ls.map (·.2)) with
    | error _ => simp only [h5] at h; cases h
    | ok q =>
      obtain ⟨st, odd⟩ := q
      simp only [h5] at h
      cases h
      simp only [h5, execute]
      rfl

theorem runPieces_blank {fn : Str} (rest : List (List Byte)) (s : State) :
    runPieces fn ([10] :: rest) s = runPieces fn rest { s with line := s.line + 1 } := by
  rw [runPieces_cons]
  have h1 : lexemesOf [10] = .ok [] := by decide +kernel
  have h2 : statement [] = .ok (.empty, false) := by decide +kernel
  rw [h1]
  simp only [List.map_nil, h2, execute]
  rfl

/-- Nothing that follows uses the location counter. -/
theorem overridden_run {fn : Str} : ∀ (P : List (List Byte)) (s : State) (v : Nat), overridden P = true →
    finish fn (runPieces fn P { s with pc := v }) = finish fn (runPieces fn P s)
  | [], s, v, _ => rfl
  | p :: P, s, v, h => by
    unfold overridden at h
    unfold stmtOf at h
    rw [runPieces_cons, runPieces_cons]
    cases h1 : lexemesOf p with
    | error x => cases x <;> rfl
    | ok ls =>
      rw [h1] at h
      simp only at h ⊢
      cases h2 : statement (ls.map (·.2)) with
      | error x => rfl
      | ok q =>
        obtain ⟨st, odd⟩ := q
        rw [h2] at h
        simp only at h ⊢
        cases st with
        | label l => simp at h
        | instr l m a => simp at h
        | stop => rfl
        | org w => rfl
        | empty =>
          simp only at h
          simp only [execute]
          exact overridden_run P { s with line := s.line + 1 } v h
        | const l w =>
          simp only at h
          simp only [execute, defineLabel]
          by_cases hd : (List.lookup l s.env).isSome = true
          · simp only [hd, if_true]
          · simp only [hd]
            exact overridden_run P { s with env := (l, w) :: s.env, line := s.line + 1 } v h

theorem pieces_line {line : List Byte} (h1 : pieces line = [line]) (h2 : line.getLast? = some 10) (b : List Byte) :
    pieces (line ++ b) = line :: pieces b := Reloc.cut_line b line 127 h1 h2

theorem pieces_blank (b : List Byte) : pieces (10 :: b) = [10] :: pieces b := by
  show cut 127 (10 :: b) = _
  conv_lhs => unfold cut
  simp [pieces]

theorem sized_blank {a line b : List Byte} (ha : WholeLines a) (h1 : pieces line = [line]) (h2 : line.getLast? = some 10)
    (hs : Sized (a ++ (line ++ b))) : Sized (a ++ 10 :: b) := by
  unfold Sized at hs ⊢
  rw [App.pieces_append ha, pieces_blank]
  rw [App.pieces_append ha, pieces_line h1 h2] at hs
  simpa using hs

theorem sameRun_of {w w' : World} {srcName outName : Str} {src src' : List Byte} (hw : Setup w srcName outName src)
    (hw' : Setup w' srcName outName src') (hs : Sized src) (hs' : Sized src') (h : run srcName src = run srcName src') :
    SameRun srcName outName w w' := by
  refine ⟨_, _, _, C57_reference hw hs, ?_, ?_⟩
  · rw [h]; exact C57_reference hw' hs'
  · unfold run
    split
    · exact .inr rfl
    · split
      · exact .inr rfl
      · exact .inl rfl

end Org

/-- **C63, the present address.** Let `a` be any complete lines, and `line` a line that sets the origin to the address at which assembly
stands anyway after `a`. Then with an empty line in its place, whatever text follows, gaia does exactly the same: status, text printed,
output file. -/
theorem C63_same_address {w w' : World} {srcName outName : Str} {a line b : List Byte} (ha : WholeLines a) {x : Nat} (hl : SetsOrigin line x)
    (hx : ∀ s, runPieces srcName (pieces a) .init = .ok s → s.pc = x)
    (hw : Setup w srcName outName (a ++ (line ++ b))) (hw' : Setup w' srcName outName (a ++ 10 :: b)) (hs : Sized (a ++ (line ++ b))) :
    SameRun srcName outName w w' := by
  refine Org.sameRun_of hw hw' hs (Org.sized_blank ha hl.1 hl.2.1 hs) ?_
  rw [Org.run_finish, Org.run_finish, App.pieces_append ha, App.pieces_append ha, Org.pieces_line hl.1 hl.2.1, Org.pieces_blank]
  refine Org.congr_after _ _ fun s hr => ?_
  rw [Org.runPieces_org hl.2.2, Org.runPieces_blank]
  have := hx s hr
  subst this
  rfl

/-- **C63, at the end of the binary.** Let gaia assemble `a` alone, which sets the origin at most in its first line, to a binary of `n > 0`
bytes. Then a line that sets the origin to `n` after `a` does nothing. -/
theorem C63_continue {w w' wa : World} {srcName outName : Str} {a line b : List Byte} (ha : WholeLines a) (ho : OneOrigin a)
    (hwa : Setup wa srcName outName a) {binary : List Byte} {total symbols : Nat} (hr : Succeeds wa srcName outName binary total symbols)
    (hne : binary ≠ []) (hl : SetsOrigin line binary.length)
    (hw : Setup w srcName outName (a ++ (line ++ b))) (hw' : Setup w' srcName outName (a ++ 10 :: b)) (hs : Sized (a ++ (line ++ b))) :
    SameRun srcName outName w w' := by
  have hsa : Sized a := sized_sublist (List.sublist_append_left a _) hs
  obtain ⟨s, W, h1, h2, rfl, rfl, rfl⟩ := (C57_success hwa hsa _ _ _).1 hr
  refine C63_same_address ha hl (fun s' hs' => ?_) hw hw' hs
  rw [h1] at hs'
  cases hs'
  have hwhole := (App.one_origin ho h1).1
  rw [image_length]
  obtain ⟨D, hD, hDm, _⟩ := App.resolve_more (fun _ _ h => h) h2
  rcases hwhole.last with ⟨e1, e2, _⟩ | ⟨_, _, c, hc, hcn⟩
  · exfalso
    rw [e2, e1] at h2
    cases h2
    exact hne rfl
  · refine Nat.le_antisymm ?_ ?_
    · rw [← hcn]
      exact le_imageEnd (by rw [hD]; simp [hc])
    · refine imageEnd_le fun c hc => ?_
      rw [hD] at hc
      rcases List.mem_append.1 hc with hc | hc
      · exact hwhole.fits c hc
      · obtain ⟨r, hr, hr1, hr2⟩ := hDm c hc
        have := hwhole.refs r hr
        omega

/-- **C63, the start.** Assembly starts at address 0: a first line that says so does nothing. -/
theorem C63_zero {w w' : World} {srcName outName : Str} {line b : List Byte} (hl : SetsOrigin line 0)
    (hw : Setup w srcName outName (line ++ b)) (hw' : Setup w' srcName outName (10 :: b)) (hs : Sized (line ++ b)) :
    SameRun srcName outName w w' :=
  C63_same_address (a := []) (.inl rfl) hl (fun s h => by cases h; rfl) hw hw' hs

/-- **C63, an origin that is not used.** An origin line after which no label and no instruction comes before the next origin line (or `.END`,
a wrong line, or the end of the source) does nothing: of several origin lines in a row the last one counts. -/
theorem C63_overridden {w w' : World} {srcName outName : Str} {a line b : List Byte} (ha : WholeLines a) {x : Nat} (hl : SetsOrigin line x)
    (hb : overridden (pieces b) = true)
    (hw : Setup w srcName outName (a ++ (line ++ b))) (hw' : Setup w' srcName outName (a ++ 10 :: b)) (hs : Sized (a ++ (line ++ b))) :
    SameRun srcName outName w w' := by
  refine Org.sameRun_of hw hw' hs (Org.sized_blank ha hl.1 hl.2.1 hs) ?_
  rw [Org.run_finish, Org.run_finish, App.pieces_append ha, App.pieces_append ha, Org.pieces_line hl.1 hl.2.1, Org.pieces_blank]
  refine Org.congr_after _ _ fun s hr => ?_
  rw [Org.runPieces_org hl.2.2, Org.runPieces_blank]
  exact Org.overridden_run (pieces b) { s with line := s.line + 1 } x hb

/-! ### Cases -/

/-- After `firstPart` (C59) the next address is 0x30B. -/
example : SameRun (b! "p.asm") (b! "p.bin") (demo (firstPart ++ (b! " * = $30b ; here\n" ++ b! "X JMP X\n"))) (demo (firstPart ++ 10 :: b! "X JMP X\n")) := by
  refine C63_continue (.inr ⟨firstPart.dropLast, by decide +kernel⟩) (by decide +kernel) (demo_setup _)
    (binary := placedAt 0x300 [0xA2, 5, 0xCA, 0xD0, 0xFD, 0xF0, 3, 0x20, 0, 3, 0x60]) (total := 11) (symbols := 3)
    (demo_succeeds (by decide +kernel)) (by decide +kernel) ⟨by decide +kernel, by decide +kernel, by decide +kernel⟩ (demo_setup _) (demo_setup _) (by decide +kernel)

example : SetsOrigin (b! "*=%0\n") 0 ∧ SetsOrigin (b! "*=$200\n") 0x200 ∧ overridden (pieces (b! "K =3\n\n*=$400\nL NOP\n")) = true ∧
    overridden (pieces (b! "\n; nothing more")) = true ∧ overridden (pieces (b! "L\n*=$400\n")) = false := by
  refine ⟨⟨?_, ?_, ?_⟩, ⟨?_, ?_, ?_⟩, ?_, ?_, ?_⟩ <;> decide +kernel

/-- The condition is needed: a label before the next origin line has the address. -/
example : (run [] (b! "*=$200\nL\n*=$4\n JMP L\n")).file = [0, 0, 0, 0, 0x4C, 0, 2] ∧ (run [] (b! "\nL\n*=$4\n JMP L\n")).file = [0, 0, 0, 0, 0x4C, 0, 0] := by
  decide +kernel

end Gaia

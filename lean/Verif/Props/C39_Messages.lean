import Verif.Proofs.Twin

/-!
C39 for every text, with the messages: a label on a line of its own, or in front of the instruction.
-/
namespace Gaia
open Spec Spec.Reference

/-- Where messages point in two sources that are the same, except that after `n` pieces the first has the two pieces `x` and `y`, with
the lexemes `lx` and `ly`, and the second the one piece `z`, with the lexemes `lz`. -/
inductive SplitPlace (n : Nat) (x y z : List Byte) (lx ly lz : List (Nat × Lexeme)) : Place → Place → Prop
  | above (k : Nat) (t : Str) (pos : Option Nat) (hk : k ≤ n) : SplitPlace n x y z lx ly lz (k, t, pos) (k, t, pos)
  | label : SplitPlace n x y z lx ly lz (n + 1, shown x, lx[0]?.map (·.1)) (n + 1, shown z, lz[0]?.map (·.1))
  | instr (i : Nat) : SplitPlace n x y z lx ly lz (n + 2, shown y, ly[i]?.map (·.1)) (n + 1, shown z, lz[i + 1]?.map (·.1))
  | below (k : Nat) (t : Str) (pos : Option Nat) (hk : n + 1 < k) : SplitPlace n x y z lx ly lz (k + 1, t, pos) (k, t, pos)

namespace Split

theorem parse_labelled {L : Str} {m : Mnemonic} {q : List Lexeme} : parse (.name L :: .mnem m :: q) = (parseArg q).map (.instr (some L) m) := rfl

theorem statement_labelled {q : List Lexeme} {m : Mnemonic} {a : Arg} {odd : Bool} (h : statement q = .ok (.instr none m a, odd)) (L : Str) :
    statement (.name L :: q) = .ok (.instr (some L) m a, odd) ∧ ∃ m' r, q = .mnem m' :: r := by
  have hq : ∃ m' r, q = .mnem m' :: r := by
    unfold statement at h
    cases hp : parse q with
    | some st =>
      rw [hp] at h
      cases h
      unfold parse at hp
      split at hp <;> try (first | cases hp | exact ⟨_, _, rfl⟩)
      rename_i r
      cases hr : parseArg r <;> rw [hr] at hp <;> cases hp
    | none =>
      rw [hp] at h
      dsimp only at h
      cases hj : junk q with
      | none => rw [hj] at h; cases h
      | some x =>
        rw [hj] at h
        cases h
        unfold junk at hj
        split at hj
        · exact ⟨_, _, rfl⟩
        · unfold junkArg at hj
          split at hj
          · cases hj
          · split_ifs at hj <;> cases hj
        · cases hj
  obtain ⟨m', r, rfl⟩ := hq
  refine ⟨?_, m', r, rfl⟩
  unfold statement at h ⊢
  rw [parse_labelled]
  have hp : parse (.mnem m' :: r) = (parseArg r).map (.instr none m') := rfl
  rw [hp] at h
  cases ha : parseArg r with
  | some a' =>
    rw [ha] at h
    cases h
    rfl
  | none =>
    rw [ha] at h
    dsimp only [Option.map_none] at h ⊢
    have key : ∀ {st odd}, junk (.mnem m' :: r) = some (st, odd) → st = .instr none m a → junk (.name L :: .mnem m' :: r) = some (.instr (some L) m a, odd) := by
      intro st odd hj hst
      unfold junk at hj ⊢
      split at hj
      · rename_i o rr more heq
        cases heq
        dsimp only
        unfold junkArg at hj ⊢
        cases ho : opd o with
        | none => rw [ho] at hj; cases hj
        | some o' =>
          rw [ho] at hj
          dsimp only at hj ⊢
          split_ifs at hj ⊢ <;> cases hj <;> cases hst <;> rfl
      · rename_i heq; cases heq
      · cases hj
    cases hj : junk (.mnem m' :: r) with
    | none => rw [hj] at h; cases h
    | some x =>
      rw [hj] at h
      cases h
      rw [key hj rfl]

theorem opd_name {o : Lexeme} {l : Str} (h : opd o = some (.sym l)) : o = .name l := by
  unfold opd at h
  split at h <;> cases h
  rfl

/-- A label in the operand is in the line, after its first lexeme. -/
theorem operand_named {r : List Lexeme} {m' m : Mnemonic} {a : Arg} {odd : Bool} {l : Str} (h : statement (.mnem m' :: r) = .ok (.instr none m a, odd))
    (ho : a.opd = some (.sym l)) : .name l ∈ r := by
  unfold statement at h
  have hp : parse (.mnem m' :: r) = (parseArg r).map (.instr none m') := rfl
  rw [hp] at h
  cases ha : parseArg r with
  | some a' =>
    rw [ha] at h
    cases h
    unfold parseArg at ha
    split at ha <;> first | (cases ha; done) | (cases ha; cases ho) | (obtain ⟨o, k1, rfl⟩ := Option.map_eq_some_iff.1 ha; cases ho; rw [opd_name k1]; simp)
  | none =>
    rw [ha] at h
    dsimp only [Option.map_none] at h
    cases hj : junk (.mnem m' :: r) with
    | none => rw [hj] at h; cases h
    | some x =>
      rw [hj] at h
      cases h
      unfold junk at hj
      split at hj
      · rename_i o rr more heq
        cases heq
        unfold junkArg at hj
        cases hoo : opd o with
        | none => rw [hoo] at hj; cases hj
        | some o' =>
          rw [hoo] at hj
          dsimp only at hj
          split_ifs at hj <;> cases hj <;> cases ho <;> rw [opd_name hoo] <;> simp
      · rename_i heq; cases heq
      · cases hj

/-- The first names of lines of the same lexemes are lexemes of the same number. -/
theorem first_name : ∀ {xs ys : List (Nat × Lexeme)}, xs.map (·.2) = ys.map (·.2) →
    ((nameOffsets xs).head? = none ∧ (nameOffsets ys).head? = none ∧ ∀ l, .name l ∉ xs.map (·.2)) ∨
    ∃ (i : Nat) (p p' : Nat), (nameOffsets xs).head? = some p ∧ (nameOffsets ys).head? = some p' ∧ (xs[i]?).map (·.1) = some p ∧ (ys[i]?).map (·.1) = some p'
  | [], [], _ => .inl ⟨rfl, rfl, by simp⟩
  | [], _ :: _, h => by cases h
  | _ :: _, [], h => by cases h
  | (p, x) :: xs, (p', x') :: ys, h => by
    simp only [List.map_cons, List.cons.injEq] at h
    obtain ⟨rfl, h⟩ := h
    by_cases hx : ∃ l, x = .name l
    · obtain ⟨l, rfl⟩ := hx
      exact .inr ⟨0, p, p', rfl, rfl, rfl, rfl⟩
    · have e : ∀ p (xs : List (Nat × Lexeme)), nameOffsets ((p, x) :: xs) = nameOffsets xs := by
        intro p xs
        unfold nameOffsets
        rw [List.filterMap_cons]
        cases x <;> first | rfl | exact (hx ⟨_, rfl⟩).elim
      rw [e, e]
      rcases first_name h with ⟨h1, h2, h3⟩ | ⟨i, q, q', h1, h2, h3, h4⟩
      · refine .inl ⟨h1, h2, fun l hl => ?_⟩
        rcases List.mem_cons.1 hl with hl | hl
        · exact hx ⟨l, hl.symm⟩
        · exact h3 l hl
      · exact .inr ⟨i + 1, q, q', h1, h2, h3, h4⟩

end Split

/-- **C39, any text.** Two sources that are the same, except that one has a line with a label and then a line with an instruction where the
other has one line with both. gaia succeeds on both, with the same output file and the same report; or it fails on both, with the same output
file and the same message for corresponding places: the lines below have their numbers shifted by one, a message about the label or the
instruction points to the same lexeme of the line that has it, and all other messages are the same to the byte. The rest of the source is
arbitrary. -/
theorem C39_any_text {w w' : World} {srcName outName : Str} {src src' : List Byte} (hw : Setup w srcName outName src)
    (hw' : Setup w' srcName outName src') (hs : Sized src) (hs' : Sized src') {pre post : List (List Byte)} {x y z : List Byte}
    (hsrc : pieces src = pre ++ x :: y :: post) (hsrc' : pieces src' = pre ++ z :: post)
    {lx ly lz : List (Nat × Lexeme)} {L : Str} {m : Mnemonic} {a : Arg} {odd : Bool} (hx : lexemesOf x = .ok lx) (hy : lexemesOf y = .ok ly)
    (hz : lexemesOf z = .ok lz) (kx : lx.map (·.2) = [.name L]) (ky : statement (ly.map (·.2)) = .ok (.instr none m a, odd))
    (kz : lz.map (·.2) = .name L :: ly.map (·.2)) :
    (∃ bin total symbols, Succeeds w srcName outName bin total symbols ∧ Succeeds w' srcName outName bin total symbols) ∨
    ∃ t t' bin, FailsLeaving w srcName outName t bin ∧ FailsLeaving w' srcName outName t' bin ∧
      TwinTexts srcName (SplitPlace pre.length x y z lx ly lz) t t' := by
  refine Twin.outcome hw hw' hs hs' ?_
  rw [hsrc, hsrc']
  cases hpre : runPieces srcName pre .init with
  | error f =>
    rw [App.runPieces_error _ hpre, App.runPieces_error _ hpre]
    refine ⟨?_, rfl⟩
    rcases Pre.runPieces_message (t := f.1) (W := f.2) hpre with h | ⟨k, piece, e, pos, h1, h2⟩
    · exact .inl ⟨h, h⟩
    · obtain ⟨hk, _⟩ := List.getElem?_eq_some_iff.1 h1
      refine .inr ⟨e, (State.init.line + k, shown piece, pos), (State.init.line + k, shown piece, pos), .above _ _ _ ?_, h2, h2⟩
      simp only [State.init]; omega
  | ok s =>
    have hr : ∀ r ∈ s.pending, r.line ≤ pre.length := by
      intro r hr
      rcases Pre.runPieces_pending hpre r hr with h | ⟨k, piece, h1, _, h3⟩
      · cases h
      · obtain ⟨hk, _⟩ := List.getElem?_eq_some_iff.1 h1
        rw [h3]; simp only [State.init]; omega
    rcases Edit.runPieces_split hpre with g | ⟨g1, g2⟩
    · rw [g, g]
      exact Twin.Rel.refl s fun r hr' => .above _ _ _ (hr r hr')
    · rw [g2, g2]
      have hline : s.line = pre.length + 1 := by rw [g1]; simp only [State.init]; omega
      obtain ⟨kz', m', r, hm'⟩ := Split.statement_labelled ky L
      obtain ⟨⟨px, nx⟩, rfl⟩ : ∃ q, lx = [q] := by
        cases lx with
        | nil => cases kx
        | cons q l => cases l with
          | nil => exact ⟨q, rfl⟩
          | cons _ _ => simp at kx
      obtain rfl : nx = .name L := by simpa using kx
      obtain ⟨⟨pm, mm⟩, xs, rfl⟩ : ∃ q xs, ly = q :: xs := by
        cases ly with
        | nil => cases hm'
        | cons q l => exact ⟨q, l, rfl⟩
      simp only [List.map_cons, List.cons.injEq] at hm'
      obtain ⟨rfl, hm'⟩ := hm'
      obtain ⟨⟨pz, nz⟩, ⟨pz', mz⟩, ys, rfl⟩ : ∃ q q' ys, lz = q :: q' :: ys := by
        cases lz with
        | nil => cases kz
        | cons q l => cases l with
          | nil => simp at kz
          | cons q' l => exact ⟨q, q', l, rfl⟩
      simp only [List.map_cons, List.cons.injEq] at kz
      obtain ⟨rfl, rfl, kz⟩ := kz
      rw [Org.runPieces_cons, Org.runPieces_cons srcName z, hx, hz]
      have sx : statement (List.map (·.2) [(px, Lexeme.name L)]) = .ok (.label L, false) := rfl
      have sz : statement (List.map (·.2) ((pz, Lexeme.name L) :: (pz', .mnem m') :: ys)) = .ok (.instr (some L) m a, odd) := by
        rw [← kz']; simp only [List.map_cons, kz]
      dsimp only
      rw [sx, sz]
      simp only [execute, defineLabel]
      by_cases hl : (s.env.lookup L).isSome = true
      · rw [if_pos hl, if_pos hl]
        refine ⟨.inr ⟨.labelRedefinition, _, _, .label, ?_, ?_⟩, rfl⟩
        · rw [hline]; rfl
        · rw [hline]; rfl
      · rw [if_neg hl, if_neg hl]
        dsimp only
        rw [if_neg (by simp), Org.runPieces_cons, hy]
        dsimp only
        rw [ky]
        dsimp only [execute]
        have hrel : Twin.Rel (SplitPlace pre.length x y z [(px, .name L)] ((pm, .mnem m') :: xs) ((pz, .name L) :: (pz', .mnem m') :: ys))
            { s with env := (L, s.pc) :: s.env, line := s.line + 1 } { s with env := (L, s.pc) :: s.env } :=
          ⟨rfl, rfl, rfl, rfl, rfl, List.forall₂_same.2 fun r hr' => ⟨rfl, rfl, rfl, rfl, .above _ _ _ (hr r hr')⟩⟩
        have hno : nameOffsets (((pz, Lexeme.name L) :: (pz', Lexeme.mnem m') :: ys).tail) = nameOffsets ys := rfl
        have hpl : ∀ i : Nat, SplitPlace pre.length x y z [(px, .name L)] ((pm, .mnem m') :: xs) ((pz, .name L) :: (pz', .mnem m') :: ys)
            (s.line + 1, shown y, ((pm, Lexeme.mnem m') :: xs)[i]?.map (·.1)) (s.line, shown z, ((pz', Lexeme.mnem m') :: ys)[i]?.map (·.1)) := by
          intro i
          rw [hline]
          exact .instr i
        have hnone := hpl (xs.length + 1)
        have hlen : xs.length = ys.length := by simpa using (congrArg List.length kz).symm
        rw [List.getElem?_eq_none (by simp), List.getElem?_eq_none (by simp [hlen])] at hnone
        have := Twin.instruction (text := y.takeWhile (· != 0)) (text' := z.takeWhile (· != 0)) (ls := (pm, .mnem m') :: xs)
          (ls' := (pz, .name L) :: (pz', .mnem m') :: ys) hrel (m := m) (a := a) (odd := odd) hnone
          (by
            rw [hno, List.tail_cons]
            rcases Split.first_name kz.symm with ⟨h1, h2, _⟩ | ⟨i, p, p', h1, h2, h3, h4⟩
            · rw [h1, h2]; exact hnone
            · rw [h1, h2, ← h3, ← h4]; exact hpl (i + 1))
          (by
            intro l ho
            rw [hno, List.tail_cons]
            rcases Split.first_name kz.symm with ⟨h1, h2, h3⟩ | ⟨i, p, p', h1, h2, h3, h4⟩
            · simp only [List.map_cons] at ky
              exact (h3 l (Split.operand_named ky ho)).elim
            · rw [h1, h2, Option.getD_some, Option.getD_some, ← h3, ← h4]; exact hpl (i + 1))
        cases h3 : Reference.instruction (y.takeWhile (· != 0)) ((pm, .mnem m') :: xs) m a odd { s with env := (L, s.pc) :: s.env, line := s.line + 1 } <;>
          cases h4 : Reference.instruction (z.takeWhile (· != 0)) ((pz, .name L) :: (pz', .mnem m') :: ys) m a odd { s with env := (L, s.pc) :: s.env } <;>
          rw [h3, h4] at this
        · rename_i f f'
          obtain ⟨e, pos⟩ := f
          obtain ⟨e', pos'⟩ := f'
          obtain ⟨k1, k2⟩ := this
          cases (k1 : e = e')
          exact ⟨.inr ⟨e, _, _, k2, rfl, rfl⟩, rfl⟩
        · exact this.elim
        · exact this.elim
        · rename_i u u'
          obtain ⟨k1, k2, k3⟩ := this
          simp only [reduceCtorEq, if_false]
          refine Twin.runPieces ⟨k1.pc, k1.env, k1.total, k1.filePos, k1.writes, k1.pending⟩ fun i q hq pos => ?_
          simp only [k2, k3]
          rw [show s.line + 1 + 1 + i = s.line + 1 + i + 1 by omega]
          exact .below _ _ _ (by omega)

/-! ### Cases -/

/-- All conditions hold for a source that fails in the lines concerned, after the last line. -/
theorem C39_conditions :
    let x := b! "L\n"
    let y := b! " JMP M\n"
    let z := b! "L: JMP M\n"
    let lx : List (Nat × Lexeme) := [(0, .name (b! "L"))]
    let ly : List (Nat × Lexeme) := [(1, .mnem .JMP), (5, .name (b! "M"))]
    let lz : List (Nat × Lexeme) := [(0, .name (b! "L")), (3, .mnem .JMP), (7, .name (b! "M"))]
    pieces (b! " NOP\nL\n JMP M\n BNE L\n") = [b! " NOP\n"] ++ x :: y :: [b! " BNE L\n"] ∧
    pieces (b! " NOP\nL: JMP M\n BNE L\n") = [b! " NOP\n"] ++ z :: [b! " BNE L\n"] ∧
    lexemesOf x = .ok lx ∧ lexemesOf y = .ok ly ∧ lexemesOf z = .ok lz ∧ lx.map (·.2) = [.name (b! "L")] ∧
    statement (ly.map (·.2)) = .ok (.instr none .JMP (.plain (.sym (b! "M"))), false) ∧ lz.map (·.2) = .name (b! "L") :: ly.map (·.2) ∧
    SplitPlace 1 x y z lx ly lz (3, shown y, some 5) (2, shown z, some 7) ∧
    FailsLeaving (demo (b! " NOP\nL\n JMP M\n BNE L\n")) (b! "p.asm") (b! "p.bin")
      (diag y .missingLabelDefinition (some 5) (b! "p.asm") 3) [0xEA, 0x4C, 0, 0, 0xD0, 0xFB] ∧
    FailsLeaving (demo (b! " NOP\nL: JMP M\n BNE L\n")) (b! "p.asm") (b! "p.bin")
      (diag z .missingLabelDefinition (some 7) (b! "p.asm") 2) [0xEA, 0x4C, 0, 0, 0xD0, 0xFB] := by
  refine ⟨by decide +kernel, by decide +kernel, by decide +kernel, by decide +kernel, by decide +kernel, by decide +kernel, by decide +kernel, by decide +kernel,
    .instr 1, ?_, ?_⟩
  · have hr : Reference.run (b! "p.asm") (b! " NOP\nL\n JMP M\n BNE L\n") =
      ⟨1, diag (b! " JMP M\n") .missingLabelDefinition (some 5) (b! "p.asm") 3, [0xEA, 0x4C, 0, 0, 0xD0, 0xFB]⟩ := by decide +kernel
    have h0 := C57_reference (demo_setup (b! " NOP\nL\n JMP M\n BNE L\n")) (by decide +kernel)
    rw [hr] at h0
    exact h0
  · have hr : Reference.run (b! "p.asm") (b! " NOP\nL: JMP M\n BNE L\n") =
      ⟨1, diag (b! "L: JMP M\n") .missingLabelDefinition (some 7) (b! "p.asm") 2, [0xEA, 0x4C, 0, 0, 0xD0, 0xFB]⟩ := by decide +kernel
    have h0 := C57_reference (demo_setup (b! " NOP\nL: JMP M\n BNE L\n")) (by decide +kernel)
    rw [hr] at h0
    exact h0

/-- The second line has to be an instruction: if it is wrong and the label is a redefinition, gaia complains about the one or the other. -/
theorem C39_needs_instruction :
    (∃ bin, FailsLeaving (demo (b! "L\nL\n LDA LDA\n")) (b! "p.asm") (b! "p.bin") (diag (b! "L\n") .labelRedefinition (some 0) (b! "p.asm") 2) bin) ∧
    ∃ bin, FailsLeaving (demo (b! "L\nL LDA LDA\n")) (b! "p.asm") (b! "p.bin") (diag (b! "L LDA LDA\n") .illegalSequence (some 6) (b! "p.asm") 2) bin := by
  refine ⟨⟨[], ?_⟩, [], ?_⟩
  · have hr : Reference.run (b! "p.asm") (b! "L\nL\n LDA LDA\n") = ⟨1, diag (b! "L\n") .labelRedefinition (some 0) (b! "p.asm") 2, []⟩ := by decide +kernel
    have h0 := C57_reference (demo_setup (b! "L\nL\n LDA LDA\n")) (by decide +kernel)
    rw [hr] at h0
    exact h0
  · have hr : Reference.run (b! "p.asm") (b! "L\nL LDA LDA\n") = ⟨1, diag (b! "L LDA LDA\n") .illegalSequence (some 6) (b! "p.asm") 2, []⟩ := by decide +kernel
    have h0 := C57_reference (demo_setup (b! "L\nL LDA LDA\n")) (by decide +kernel)
    rw [hr] at h0
    exact h0

end Gaia

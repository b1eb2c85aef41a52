import Verif.Props.C35_Limit
import Verif.Proofs.Files

/-! Proofs for C81: files that begin with `$F3`. -/
set_option maxRecDepth 20000
namespace Gaia
open Spec Spec.Reference
namespace Files

theorem parseArg_short {ls : List Lexeme} {a : Arg} (h : parseArg ls = some a) : ls.length ≤ 5 := by
  unfold parseArg at h
  split at h <;> first | cases h | skip
  all_goals simp

theorem parse_short {ls : List (Nat × Lexeme)} {st : Stmt} (h : parse (ls.map (·.2)) = some st) : ls.length ≤ 8 := by
  suffices ∀ {ls : List Lexeme}, parse ls = some st → ls.length ≤ 8 by simpa using this h
  intro ls h
  unfold parse at h
  split at h <;> first | cases h | skip
  all_goals try simp
  all_goals
    obtain ⟨a, ha, _⟩ := Option.map_eq_some_iff.1 h
    have := parseArg_short ha
    omega

theorem lexemesOf_of {l : List Byte} {x : List (Nat × Lexeme)} (h : Lexes l x) (h8 : x.length ≤ 8) : lexemesOf (l ++ [10]) = .ok x := by
  have hx : Lexes (l ++ [10]) x := by
    obtain ⟨b, s, h1, h2⟩ := h
    exact ⟨b, s, by rw [code_newline]; exact h1, h2⟩
  have h1 := lexemes_complete hx
  rw [if_pos h8, ref_lexemes] at h1
  cases h2 : lexemesOf (l ++ [10]) with
  | error w => rw [h2] at h1; cases h1
  | ok ls => rw [h2] at h1; simpa [Except.mapError] using h1

theorem pieces_line {l rest : List Byte} (h : ∀ c ∈ l, c ≠ 10) (hl : l.length ≤ 126) : pieces (l ++ 10 :: rest) = (l ++ [10]) :: pieces rest := by
  rw [pieces_eq, pieces_eq]
  exact chunks_cut h (by omega)

theorem run_org {fn : Str} {a : Nat} (ha : a < 65536) (ps : List (List Byte)) (s : State) :
    runPieces fn ((orgLine a ++ [10]) :: ps) s = runPieces fn ps { s with pc := a, line := s.line + 1 } := by
  obtain ⟨x, h1, h2⟩ := org_lexes ha
  rw [runPieces]
  simp [lexemesOf_of h1 (parse_short h2), statement, h2, execute]

theorem run_insn {fn : Str} {i : Insn} (hi : i.Writable) (ps : List (List Byte)) (s : State) (he : s.env = []) :
    runPieces fn ((i.line ++ [10]) :: ps) s = runPieces fn ps { s.write i.bytes with line := (s.write i.bytes).line + 1 } := by
  obtain ⟨x, h1, h2⟩ := line_lexes (valid_small hi.1)
  rw [runPieces]
  have hu : unknown s.env (argOf i).opd = none := by
    rw [argOf_opd]
    unfold unknown
    split
    · rename_i h; split at h <;> cases h
    · rfl
  have hx : ∀ text, instruction text x i.mnemonic (argOf i) false s = .ok (s.write i.bytes) := by
    intro text
    unfold instruction
    simp only [argOf_sizing hi.1, hu, writable_mode hi, Bool.false_eq_true, if_false]
    have := encode hi.1 s.pc
    unfold itemOf at this
    rw [he, this]
  simp [lexemesOf_of h1 (parse_short h2), statement, h2, execute, hx]

theorem run_texts {fn : Str} {rest : List Byte} : ∀ {ps : List Placement}, (∀ p ∈ ps, p.1 < 65536 ∧ p.2.Writable) → ∀ s : State, s.env = [] →
    ∃ s', runPieces fn (pieces (ps.flatMap Placement.text ++ rest)) s = runPieces fn (pieces rest) s' ∧ s'.env = [] ∧ s'.pending = s.pending ∧
      s'.writes = s.writes ++ ps.map Placement.chunk
  | [], _, s, he => ⟨s, by simp, he, rfl, by simp⟩
  | p :: ps, h, s, he => by
    have hp := h p (by simp)
    rw [List.flatMap_cons, text_eq, List.append_assoc, List.append_assoc, List.cons_append, List.append_assoc, List.singleton_append,
      pieces_line (org_chars hp.1) (by simp [orgLine, hexText]),
      pieces_line (fun c hc => (line_chars (valid_small hp.2.1) c hc).1) (by have := line_length p.2; omega), run_org hp.1, run_insn hp.2 _ _ (by exact he)]
    obtain ⟨s', h1, h2, h3, h4⟩ := run_texts (rest := rest) (fn := fn) (ps := ps) (fun q hq => h q (by simp [hq]))
      { State.write { s with pc := p.1, line := s.line + 1 } p.2.bytes with line := s.line + 1 + 1 } (by exact he)
    refine ⟨s', h1, h2, h3.trans rfl, h4.trans ?_⟩
    simp [State.write, Placement.chunk]

theorem descending_over {pre : List Chunk} : ∀ {bs : List Byte} {a i : Nat}, a + 1 ≤ i →
    byteAt (pre ++ (descending a bs).map Placement.chunk) i = (bs[i - (a + 1)]?).getD (byteAt pre i)
  | [], _, _, _ => by simp [descending]
  | b :: bs, a, i, h => by
    rw [descending, List.map_append, List.map_cons, List.map_nil, ← List.append_assoc, byteAt_append]
    by_cases hi : i = a + 1
    · subst hi
      have : Chunk.at (Placement.chunk (a, ⟨.LDA, .imm, b.toNat⟩)) (a + 1) = some b := by
        simp [Chunk.at, Placement.chunk, Insn.bytes, Mode.bytes]
      rw [this]
      simp
    · have : Chunk.at (Placement.chunk (a, ⟨.LDA, .imm, b.toNat⟩)) i = none := by
        apply Chunk.at_none
        right
        simp [Placement.chunk, Insn.bytes, Mode.bytes]
        omega
      rw [this, Option.getD_none, descending_over (by omega)]
      obtain ⟨j, rfl⟩ : ∃ j, i = a + 2 + j := ⟨i - (a + 2), by omega⟩
      rw [show a + 2 + j - (a + 1 + 1) = j by omega, show a + 2 + j - (a + 1) = j + 1 by omega]
      simp

theorem imageEnd_two (A B : List Chunk) : imageEnd (A ++ B) = max (imageEnd A) (imageEnd B) := by
  induction B using List.reverseRecOn with
  | nil => simp [imageEnd]
  | append_singleton B c ih =>
    rw [← List.append_assoc, imageEnd_append, ih, imageEnd_append]
    omega

/-- The source for a file that begins with `$F3`. -/
def indexed (b c : Byte) (tl : List Byte) : List Byte :=
  b! " JMP L,X\n" ++ ((descending 0 (b :: c :: tl)).flatMap Placement.text ++ (orgLine (b.toNat + 256 * c.toNat) ++ 10 :: b! "L\n"))

theorem image_indexed {b c : Byte} {tl : List Byte} : image ([(0, [0, 0, 0]), (0, [0xF3, 0, 0])] ++ (descending 0 (b :: c :: tl)).map Placement.chunk ++ [(0, [0xF3, b, c])]) =
    0xF3 :: b :: c :: tl := by
  have e : imageEnd ([(0, [0, 0, 0]), (0, [0xF3, 0, 0])] ++ (descending 0 (b :: c :: tl)).map Placement.chunk) = 1 + (tl.length + 2) := by
    have := descending_end (bs := b :: c :: tl) (a := 0) (by simp)
    rw [imageEnd_two, this]
    simp [imageEnd]
    omega
  apply image_of
  · rw [imageEnd_append, e]
    simp
    omega
  · intro i hi
    rw [byteAt_append]
    match i with
    | 0 => simp [Chunk.at]
    | 1 => simp [Chunk.at]
    | 2 => simp [Chunk.at]
    | i + 3 =>
      have e1 : Chunk.at (0, [(0xF3 : Byte), b, c]) (i + 3) = none := Chunk.at_none (.inr (by simp))
      rw [e1, Option.getD_none, descending_over (by omega)]
      have hi' : i < tl.length := by simpa using hi
      simp [hi']

theorem indexed_sized {b c : Byte} {tl : List Byte} (hl : tl.length + 3 ≤ 65537) : Sized (indexed b c tl) := by
  have len : ∀ (bs : List Byte) (a : Nat), (descending a bs).length = bs.length := by
    intro bs
    induction bs with
    | nil => intro a; rfl
    | cons b bs ih => intro a; simp [descending, ih]
  have h1 := Files.cut_length (indexed b c tl) 127
  have h2 := placements_text_length (descending 0 (b :: c :: tl))
  rw [len] at h2
  have h3 : (indexed b c tl).length = 19 + ((descending 0 (b :: c :: tl)).flatMap Placement.text).length := by
    unfold indexed
    simp only [List.length_append, List.length_cons, List.length_nil, orgLine, hexText]
    omega
  have h4 : (b :: c :: tl).length = tl.length + 2 := rfl
  rw [h4] at h2
  unfold Sized pieces maxSymbols
  omega

theorem indexed_run {w : World} {srcName outName : Str} {b c : Byte} {tl : List Byte} (hl : tl.length + 3 ≤ 65537) (hw : Setup w srcName outName (indexed b c tl)) :
    ∃ total, Succeeds w srcName outName (0xF3 :: b :: c :: tl) total 1 := by
  have hb := b.toNat_lt
  have hc := c.toNat_lt
  have hs := indexed_sized (b := b) (c := c) hl
  obtain ⟨s1, k1, k2, k3, k4⟩ := run_texts (fn := srcName) (rest := orgLine (b.toNat + 256 * c.toNat) ++ 10 :: b! "L\n") (ps := descending 0 (b :: c :: tl))
    (fun p hp => by
      have := descending_all p hp
      simp only [List.length_cons] at this
      exact ⟨by omega, this.2⟩)
    ⟨3, 2, [], 3, 3, [(0, [0, 0, 0]), (0, [0xF3, 0, 0])], [⟨1, b! " JMP L,X\n", 5, b! "L", 0, .JMP, 0xF3⟩]⟩ rfl
  have hx1 : lexemesOf (b! " JMP L,X\n") = .ok [(1, .mnem .JMP), (5, .name (b! "L")), (6, .comma), (7, .regX)] := by decide +kernel
  have hx2 : lexemesOf (b! "L\n") = .ok [(0, .name (b! "L"))] := by decide +kernel
  have hp1 : pieces (indexed b c tl) = b! " JMP L,X\n" :: pieces ((descending 0 (b :: c :: tl)).flatMap Placement.text ++ (orgLine (b.toNat + 256 * c.toNat) ++ 10 :: b! "L\n")) :=
    pieces_line (l := b! " JMP L,X") (by decide) (by decide)
  have hrun : runPieces srcName (pieces (indexed b c tl)) .init =
      .ok { s1 with pc := b.toNat + 256 * c.toNat, env := [(b! "L", b.toNat + 256 * c.toNat)], line := s1.line + 1 + 1 } := by
    rw [hp1]
    rw [show runPieces srcName (b! " JMP L,X\n" :: pieces ((descending 0 (b :: c :: tl)).flatMap Placement.text ++ (orgLine (b.toNat + 256 * c.toNat) ++ 10 :: b! "L\n"))) .init =
      runPieces srcName (pieces ((descending 0 (b :: c :: tl)).flatMap Placement.text ++ (orgLine (b.toNat + 256 * c.toNat) ++ 10 :: b! "L\n")))
        ⟨3, 2, [], 3, 3, [(0, [0, 0, 0]), (0, [0xF3, 0, 0])], [⟨1, b! " JMP L,X\n", 5, b! "L", 0, .JMP, 0xF3⟩]⟩ from by
          rw [runPieces, hx1]; rfl]
    rw [k1, pieces_line (org_chars (by omega)) (by simp [orgLine, hexText]), run_org (by omega)]
    rw [show pieces (b! "L\n") = [b! "L\n"] from by decide +kernel, runPieces, hx2]
    have : statement ([(0, Lexeme.name (b! "L"))].map (·.2)) = .ok (.label (b! "L"), false) := by decide +kernel
    simp only [this, execute, defineLabel, k2, List.lookup_nil, Option.isSome_none, Bool.false_eq_true, if_false]
    rfl
  refine ⟨s1.total, (C57_success hw hs _ _ _).2 ⟨_, s1.writes ++ [(0, [0xF3, b, c])], hrun, ?_, ?_, rfl, rfl⟩⟩
  · simp only [k3]
    unfold resolve
    have h2 : UInt8.ofNat ((b.toNat + 256 * c.toNat) / 256 % 256) = c := by
      rw [show (b.toNat + 256 * c.toNat) / 256 % 256 = c.toNat by omega]
      simp
    simp [show Spec.isBranch .JMP = false from by decide +kernel, resolve, h2]
  · rw [k4]
    exact image_indexed.symm

end Files
end Gaia

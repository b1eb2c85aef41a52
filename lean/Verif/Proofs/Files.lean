import Verif.Spec.Files
import Verif.Props.C51_Writable
import Verif.Props.C41_WriteLog
import Verif.Props.C57_Reference
import Verif.Props.C70_Edit

/-! Proofs for C81: the files gaia can make. -/
set_option maxRecDepth 20000
namespace Gaia
open Spec
namespace Files

/-! ### Instructions at any address -/

def orgLine (a : Nat) : Str := 42 :: 61 :: hexText a

theorem org_lexes {a : Nat} (h : a < 65536) : ∃ x, Lexes (orgLine a) x ∧ parse (x.map (·.2)) = some (.org a) := by
  have ht : Tokens true 0 (orgLine a) [(0, .star), (1, .eq), (2, .lit a)] := by
    have h2 : Tokens false 2 (hexText a ++ []) [(2, .lit a)] := tokens_num h (.done _ _) (.inl rfl) noLead_nil
    have h1 : Tokens false 1 (61 :: (hexText a ++ [])) _ := tokens_punct (x := .eq) (by decide) rfl h2 (noLead_cons (by decide))
    have := Tokens.cons true 0 [42] [] (61 :: (hexText a ++ [])) .star _ (.punct 42 .star (by decide)) (.inl rfl) blanks_nil (noLead_cons (by decide)) h1
    simpa [orgLine] using this
  refine ⟨_, ⟨[], orgLine a, ?_, by simp [Blanks], noLead_cons (by decide), ht⟩, rfl⟩
  unfold code
  have hall : ∀ c ∈ orgLine a, (fun c : Byte => !(c == 13 || c == 10 || c == 59 || c == 0 || c == 255)) c = true := by
    intro c hc
    rcases List.mem_cons.1 hc with rfl | hc
    · decide
    rcases List.mem_cons.1 hc with rfl | hc
    · decide
    obtain ⟨h1, h2, h3, h4, h5⟩ := hexText_chars h c hc
    simp [h1, h2, h3, h4, h5]
  have := List.takeWhile_append_of_pos (l₂ := []) hall
  rw [List.append_nil] at this
  rw [this]
  simp

theorem org_chars {a : Nat} (h : a < 65536) : ∀ c ∈ orgLine a, c ≠ 10 := by
  intro c hc
  rcases List.mem_cons.1 hc with rfl | hc
  · decide
  rcases List.mem_cons.1 hc with rfl | hc
  · decide
  exact (hexText_chars h c hc).1

theorem text_eq (p : Placement) : p.text = orgLine p.1 ++ 10 :: (p.2.line ++ [10]) := by
  unfold Placement.text
  rw [Gaia.text_eq]
  simp [orgLine]

/-- The program of the placements. -/
def program (ps : List Placement) : List Stmt := ps.flatMap fun p => [.org p.1, .instr none p.2.mnemonic (argOf p.2)]

theorem lines_texts : ∀ {ps : List Placement}, (∀ p ∈ ps, p.1 < 65536 ∧ p.2.operand < 65536) →
    lines (ps.flatMap Placement.text) = ps.flatMap fun p => [orgLine p.1, p.2.line]
  | [], _ => rfl
  | p :: ps, h => by
    have hp := h p (by simp)
    rw [List.flatMap_cons, text_eq, List.append_assoc, List.cons_append, lines_line (org_chars hp.1), List.append_assoc, List.singleton_append,
      lines_line fun c hc => (line_chars hp.2 c hc).1, lines_texts fun q hq => h q (by simp [hq])]
    rfl

theorem reads_texts : ∀ {ps : List Placement}, (∀ p ∈ ps, p.1 < 65536 ∧ p.2.operand < 65536) →
    Reads (ps.flatMap fun p => [orgLine p.1, p.2.line]) (program ps)
  | [], _ => .nil
  | p :: ps, h => by
    have hp := h p (by simp)
    obtain ⟨x, h1, h2⟩ := org_lexes hp.1
    obtain ⟨y, h3, h4⟩ := line_lexes hp.2
    exact .cons _ _ x _ _ h1 h2 (by simp) (.cons _ _ y _ _ h3 h4 (by simp) (reads_texts fun q hq => h q (by simp [hq])))

theorem cut_length : ∀ (s : List Byte) (room : Nat), (cut room s).length ≤ s.length
  | [], _ => by simp [cut]
  | c :: s, room => by
    unfold cut
    split
    · have := cut_length s 127
      simp only [List.length_cons]
      omega
    · have := cut_length s (room - 1)
      split
      · simp
      · rename_i l ls h
        rw [h] at this
        simp only [List.length_cons] at this ⊢
        omega

theorem isProgram {ps : List Placement} (h : ∀ p ∈ ps, p.1 < 65536 ∧ p.2.operand < 65536) (hs : Sized (ps.flatMap Placement.text)) :
    IsProgram (ps.flatMap Placement.text) (program ps) where
  size := hs
  short := by
    intro l hl
    rw [lines_texts h] at hl
    obtain ⟨p, _, hl⟩ := List.mem_flatMap.1 hl
    simp only [List.mem_cons, List.not_mem_nil, or_false] at hl
    rcases hl with rfl | rfl
    · simp [orgLine, hexText]
    · have := line_length p.2
      omega
  reads := by
    rw [lines_texts h]
    exact reads_texts h
  noForwardJump := by
    intro before st after l he hj
    have : st ∈ program ps := by rw [he]; simp
    obtain ⟨p, _, hp⟩ := List.mem_flatMap.1 this
    simp only [List.mem_cons, List.not_mem_nil, or_false] at hp
    exfalso
    rcases hp with rfl | rfl
    · simp [Stmt.jumpsIndexed] at hj
    · revert hj
      generalize p.2.mnemonic = m
      unfold argOf
      cases p.2.mode <;> cases m <;> simp [Stmt.jumpsIndexed]

theorem pass1_program : ∀ {ps : List Placement}, (∀ p ∈ ps, p.2.Writable) → ∀ s : Pass1, s.env = [] →
    ∃ pc, pass1 (program ps) s = some ⟨pc, [], s.items ++ ps.map fun p => itemOf p.1 p.2⟩
  | [], _, ⟨pc, env, items⟩, hs => by
    simp only at hs
    subst hs
    exact ⟨pc, by simp [program, pass1]⟩
  | p :: ps, h, s, hs => by
    have hw := h p (by simp)
    have hp : place { s with pc := p.1 } p.2.mnemonic (argOf p.2) =
        some { s with pc := p.1 + p.2.mode.bytes, items := s.items ++ [itemOf p.1 p.2] } := by
      unfold place
      rw [argOf_sizing hw.1, Option.bind_eq_bind, Option.bind_some, writable_mode hw]
      rfl
    obtain ⟨pc, g⟩ := pass1_program (ps := ps) (fun q hq => h q (by simp [hq])) { s with pc := p.1 + p.2.mode.bytes, items := s.items ++ [itemOf p.1 p.2] } hs
    refine ⟨pc, ?_⟩
    show pass1 (.org p.1 :: .instr none p.2.mnemonic (argOf p.2) :: program ps) s = _
    rw [pass1_cons (by simp), pass1Stmt, Option.bind_some, pass1_cons (by simp)]
    simp only [pass1Stmt, hp, Option.bind_some]
    rw [g]
    simp

theorem encode {i : Insn} (h : i.Valid) (a : Nat) : encodeLow [] (itemOf a i) = some i.bytes := by
  obtain ⟨h1, h2⟩ := h
  obtain ⟨op, hop⟩ := Option.isSome_iff_exists.1 h1
  unfold encodeLow itemOf Insn.bytes
  simp only [hop, Option.bind_eq_bind, Option.bind_some, Option.getD_some, argOf_opd]
  rcases mode_bytes_cases i.mode with hb | hb | hb <;> rw [hb] at h2 <;> simp only [operandBytesLow, hb]
  · rfl
  · simp [opdValue, Nat.mod_eq_of_lt (show i.operand < 256 by omega)]
  · have hr : i.mode ≠ .rel := fun hr => by rw [hr] at hb; cases hb
    simp [opdValue, hr, Nat.mod_eq_of_lt (show i.operand / 256 < 256 by omega)]

/-- The placements are assembled as they are. -/
theorem run {srcName outName : Str} {ps : List Placement} (ha : ∀ p ∈ ps, p.1 < 65536) (hi : ∀ p ∈ ps, p.2.Writable)
    (hs : Sized (ps.flatMap Placement.text)) {w : World} (hw : Setup w srcName outName (ps.flatMap Placement.text)) :
    Succeeds w srcName outName (image (ps.map Placement.chunk)) (totalBytes (ps.map Placement.chunk)) 0 := by
  have hp := isProgram (fun p hp => ⟨ha p hp, valid_small (hi p hp).1⟩) hs
  obtain ⟨pc, h1⟩ := pass1_program hi .init rfl
  have h2 : assembleLow (program ps) = some ⟨ps.map Placement.chunk, []⟩ := by
    unfold assembleLow
    rw [show pass1 (program ps) ⟨0, [], []⟩ = _ from h1]
    simp only [Option.bind_eq_bind, Option.bind_some, Pass1.init, List.nil_append]
    have : ∀ ps : List Placement, (∀ p ∈ ps, p.2.Writable) → pass2Low [] (ps.map fun p => itemOf p.1 p.2) = some (ps.map Placement.chunk) := by
      intro ps
      induction ps with
      | nil => intro _; rfl
      | cons p ps ih =>
        intro h
        rw [List.map_cons, pass2Low, encode (h p (by simp)).1, ih fun q hq => h q (by simp [hq])]
        rfl
    rw [this ps hi]
    rfl
  obtain ⟨bin, k1, k2⟩ := run_assembledLow hw hp h2
  have hh : Harmless (placed (program ps) 1 .init) := by
    apply Harmless.of_none
    intro e he
    have hit := (placed_made _ 1 h1).1
    simp only [Pass1.init, List.nil_append] at hit
    have : e.item ∈ ps.map fun p => itemOf p.1 p.2 := by
      rw [hit]
      exact List.mem_map_of_mem he
    obtain ⟨p, _, hpe⟩ := List.mem_map.1 this
    unfold Placed.forward
    rw [← hpe]
    simp only [itemOf, argOf_opd]
    split
    · rename_i h
      split at h <;> cases h
    · rfl
  rw [k2 hh] at k1
  exact k1

theorem placement_text_length (p : Placement) : p.text.length ≤ 24 := by
  have := line_length p.2
  rw [text_eq]
  simp [orgLine, hexText]
  omega

theorem placements_text_length : ∀ ps : List Placement, (ps.flatMap Placement.text).length ≤ 24 * ps.length
  | [] => by simp
  | p :: ps => by
    have := placements_text_length ps
    have := placement_text_length p
    simp only [List.flatMap_cons, List.length_append, List.length_cons]
    omega

/-! ### Every file -/

/-- The bytes of `bs` at `a + 1` and after, each written as the operand of an instruction, from the last to the first. -/
def descending : (a : Nat) → List Byte → List Placement
  | _, [] => []
  | a, b :: bs => descending (a + 1) bs ++ [(a, ⟨.LDA, .imm, b.toNat⟩)]

theorem descending_all : ∀ {bs : List Byte} {a : Nat}, ∀ p ∈ descending a bs, p.1 < a + bs.length ∧ p.2.Writable
  | [], _, p, h => by cases h
  | b :: bs, a, p, h => by
    unfold descending at h
    rcases List.mem_append.1 h with h | h
    · have := descending_all p h
      exact ⟨by simp only [List.length_cons]; omega, this.2⟩
    · rw [List.mem_singleton] at h
      subst h
      refine ⟨by simp, ⟨show (opcode? .LDA .imm).isSome = true by decide, ?_⟩, by simp [Mode.bytes]⟩
      have := b.toNat_lt
      simp only [Mode.bytes]
      omega

theorem descending_end : ∀ {bs : List Byte} {a : Nat}, bs ≠ [] → imageEnd ((descending a bs).map Placement.chunk) = a + 1 + bs.length
  | [], _, h => absurd rfl h
  | [b], a, _ => by simp [descending, Placement.chunk, Insn.bytes, Mode.bytes, imageEnd]
  | b :: c :: bs, a, _ => by
    rw [descending, List.map_append, List.map_cons, List.map_nil, imageEnd_append, descending_end (by simp)]
    simp [Placement.chunk, Insn.bytes, Mode.bytes]
    omega

theorem descending_byte : ∀ {bs : List Byte} {a i : Nat}, a + 1 ≤ i → byteAt ((descending a bs).map Placement.chunk) i = (bs[i - (a + 1)]?).getD 0
  | [], _, _, _ => by simp [descending, byteAt]
  | b :: bs, a, i, h => by
    rw [descending, List.map_append, List.map_cons, List.map_nil, byteAt_append]
    by_cases hi : i = a + 1
    · subst hi
      have : Chunk.at (Placement.chunk (a, ⟨.LDA, .imm, b.toNat⟩)) (a + 1) = some b := by
        simp [Chunk.at, Placement.chunk, Insn.bytes, Mode.bytes]
      rw [this]
      simp
    · have : Chunk.at (Placement.chunk (a, ⟨.LDA, .imm, b.toNat⟩)) i = none := by
        apply Chunk.at_none
        right
        simp [Placement.chunk, Insn.bytes, Mode.bytes]
        omega
      rw [this, Option.getD_none, descending_byte (by omega)]
      obtain ⟨j, rfl⟩ : ∃ j, i = a + 2 + j := ⟨i - (a + 2), by omega⟩
      rw [show a + 2 + j - (a + 1 + 1) = j by omega, show a + 2 + j - (a + 1) = j + 1 by omega]
      simp

theorem image_of {cs : List Chunk} {bin : List Byte} (h1 : imageEnd cs = bin.length) (h2 : ∀ i (h : i < bin.length), byteAt cs i = bin[i]) : image cs = bin := by
  apply List.ext_getElem
  · simp [image, h1]
  · intro i h3 h4
    simp only [image, List.getElem_map, List.getElem_range]
    exact h2 i h4

/-- The instruction at address 0 that leaves the bytes `b` and `c` behind its opcode, and what has to be written after it: gaia does not write the long
form of an instruction with a zero as high byte, but it writes BRK. -/
def first (m : Mnemonic) (md : Mode) (b c : Byte) : List Placement :=
  if md.bytes = 1 then [(0, ⟨m, md, 0⟩)]
  else if md.bytes = 2 then [(0, ⟨m, md, b.toNat⟩)]
  else if c = 0 then [(0, ⟨m, md, b.toNat + 256⟩), (2, ⟨.BRK, .imp, 0⟩)]
  else [(0, ⟨m, md, b.toNat + 256 * c.toNat⟩)]

theorem first_all {m : Mnemonic} {md : Mode} {op : Nat} (h : opcode? m md = some op) (b c : Byte) : ∀ p ∈ first m md b c, p.1 ≤ 2 ∧ p.2.Writable := by
  have hb := b.toNat_lt
  have hc := c.toNat_lt
  intro p hp
  unfold first at hp
  rcases mode_bytes_cases md with e | e | e <;> rw [e] at hp
  · simp only [if_true, List.mem_singleton] at hp
    subst hp
    exact ⟨by simp, ⟨by simp [h], by simp [e]⟩, by simp [e]⟩
  · simp only [OfNat.ofNat_ne_one, if_false, if_true, List.mem_singleton] at hp
    subst hp
    exact ⟨by simp, ⟨by simp [h], by simp [e]; omega⟩, by simp [e]⟩
  · simp only [OfNat.ofNat_ne_one, if_false, show (3 : Nat) ≠ 2 by decide] at hp
    split at hp
    · simp only [List.mem_cons, List.not_mem_nil, or_false] at hp
      rcases hp with rfl | rfl
      · exact ⟨by simp, ⟨by simp [h], by simp [e]; omega⟩, by intros; simp⟩
      · exact ⟨by simp, ⟨by decide, by decide⟩, by simp [Mode.bytes]⟩
    · rename_i hc0
      rw [List.mem_singleton] at hp
      subst hp
      have : c.toNat ≠ 0 := fun h => hc0 (UInt8.toNat_inj.1 (by simpa using h))
      exact ⟨by simp, ⟨by simp [h], by simp [e]; omega⟩, by intros; simp; omega⟩

theorem at_head {op : Byte} {ws : List Byte} {i : Nat} : Chunk.at (0, op :: ws) (i + 1) = ws[i]? := by simp [Chunk.at]

theorem image_one {op : Byte} {ws tl : List Byte} (h1 : ws.length ≤ tl.length) (h2 : ∀ (i : Nat) b, ws[i]? = some b → tl[i]? = some b) :
    image ((descending 0 tl).map Placement.chunk ++ [(0, op :: ws)]) = op :: tl := by
  apply image_of
  · rw [imageEnd_append]
    by_cases ht : tl = []
    · subst ht
      have : ws = [] := by simpa using h1
      subst this
      simp [descending, imageEnd]
    · rw [descending_end ht]
      simp only [List.length_cons]
      omega
  · intro i hi
    rw [byteAt_append]
    cases i with
    | zero => simp [Chunk.at]
    | succ i =>
      rw [at_head]
      have hi' : i < tl.length := by simpa using hi
      cases hw : ws[i]? with
      | none =>
        rw [Option.getD_none, descending_byte (by omega)]
        simp [hi']
      | some b =>
        have := h2 i b hw
        rw [List.getElem?_eq_getElem hi'] at this
        simpa using (Option.some.inj this).symm

theorem image_two {op b x : Byte} {tl : List Byte} : image ((descending 0 (b :: 0 :: tl)).map Placement.chunk ++ [(0, [op, b, x])] ++ [(2, [0])]) = op :: b :: 0 :: tl := by
  apply image_of
  · rw [imageEnd_append, imageEnd_append, descending_end (by simp)]
    simp only [List.length_cons, List.length_nil]
    omega
  · intro i hi
    rw [byteAt_append, byteAt_append]
    match i with
    | 0 => simp [Chunk.at]
    | 1 => simp [Chunk.at]
    | 2 => simp [Chunk.at]
    | i + 3 =>
      have e1 : Chunk.at (2, [(0 : Byte)]) (i + 3) = none := Chunk.at_none (.inr (by simp))
      have e2 : Chunk.at (0, [op, b, x]) (i + 3) = none := Chunk.at_none (.inr (by simp))
      rw [e1, e2, Option.getD_none, Option.getD_none, descending_byte (by omega)]
      have hi' : i < tl.length := by simpa using hi
      simp [hi']

theorem every {bin : List Byte} (h : StartsWithOpcode bin) : ∃ ps : List Placement, (∀ p ∈ ps, p.1 ≤ bin.length ∧ p.1 + 2 ≤ max 4 bin.length ∧ p.2.Writable) ∧
    ps.length ≤ bin.length + 2 ∧ image (ps.map Placement.chunk) = bin := by
  have len : ∀ (bs : List Byte) (a : Nat), (descending a bs).length = bs.length := by
    intro bs
    induction bs with
    | nil => intro a; rfl
    | cons b bs ih => intro a; simp [descending, ih]
  rcases h with rfl | ⟨m, md, op, h1, h2, h3⟩
  · exact ⟨[], by simp, by simp, rfl⟩
  · cases bin with
    | nil => cases h2
    | cons o tl =>
      simp only [List.head?_cons, Option.some.injEq] at h2
      subst h2
      have hd : ∀ p ∈ descending 0 tl, p.1 ≤ (UInt8.ofNat op :: tl).length ∧ p.1 + 2 ≤ max 4 (UInt8.ofNat op :: tl).length ∧ p.2.Writable := by
        intro p hp
        have := descending_all p hp
        simp only [List.length_cons]
        exact ⟨by omega, by omega, this.2⟩
      have hf : ∀ b c, (∀ p ∈ first m md b c, p.1 ≤ (UInt8.ofNat op :: tl).length) → ∀ p ∈ descending 0 tl ++ first m md b c,
          p.1 ≤ (UInt8.ofNat op :: tl).length ∧ p.1 + 2 ≤ max 4 (UInt8.ofNat op :: tl).length ∧ p.2.Writable := by
        intro b c hl p hp
        rcases List.mem_append.1 hp with hp | hp
        · exact hd p hp
        · have := first_all h1 b c p hp
          exact ⟨hl p hp, by omega, this.2⟩
      rcases mode_bytes_cases md with e | e | e
      · refine ⟨descending 0 tl ++ first m md 0 0, hf _ _ ?_, ?_, ?_⟩
        · simp [first, e]
        · simp [first, e, len]
        · rw [List.map_append]
          have : (first m md 0 0).map Placement.chunk = [(0, [UInt8.ofNat op])] := by simp [first, e, Placement.chunk, Insn.bytes, h1]
          rw [this]
          exact image_one (by simp) (by simp)
      · obtain ⟨b, tl, rfl⟩ : ∃ b t, tl = b :: t := by
          cases tl with
          | nil => simp [e] at h3
          | cons b t => exact ⟨b, t, rfl⟩
        refine ⟨descending 0 (b :: tl) ++ first m md b 0, hf _ _ ?_, ?_, ?_⟩
        · simp [first, e]
        · simp [first, e, len]
        · rw [List.map_append]
          have : (first m md b 0).map Placement.chunk = [(0, [UInt8.ofNat op, b])] := by simp [first, e, Placement.chunk, Insn.bytes, h1]
          rw [this]
          refine image_one (by simp) ?_
          intro i x h
          cases i with
          | zero => simpa using h
          | succ i => simp at h
      · obtain ⟨b, c, tl, rfl⟩ : ∃ b c t, tl = b :: c :: t := by
          match tl, h3 with
          | [], h3 => simp [e] at h3
          | [_], h3 => simp [e] at h3
          | b :: c :: t, _ => exact ⟨b, c, t, rfl⟩
        refine ⟨descending 0 (b :: c :: tl) ++ first m md b c, hf _ _ ?_, ?_, ?_⟩
        · intro p hp
          have := (first_all h1 b c p hp).1
          simp only [List.length_cons]
          omega
        · unfold first
          simp only [e, OfNat.ofNat_ne_one, if_false, show (3 : Nat) ≠ 2 by decide, List.length_append, len, List.length_cons]
          split <;> simp
        · rw [List.map_append]
          by_cases hc : c = 0
          · subst hc
            have : (first m md b 0).map Placement.chunk = [(0, [UInt8.ofNat op, b, 1]), (2, [0])] := by
              simp [first, e, Placement.chunk, Insn.bytes, h1, show Mode.bytes .imp = 1 from rfl, show (opcode? Mnemonic.BRK Mode.imp) = some 0 by decide,
                show (b.toNat + 256) / 256 = 1 by have := b.toNat_lt; omega]
            rw [this, List.append_cons]
            exact image_two
          · have : (first m md b c).map Placement.chunk = [(0, [UInt8.ofNat op, b, c])] := by
              simp [first, e, hc, Placement.chunk, Insn.bytes, h1,
                show (b.toNat + 256 * c.toNat) / 256 = c.toNat by have := b.toNat_lt; omega]
            rw [this]
            refine image_one (by simp) ?_
            intro i x h
            match i, h with
            | 0, h => simpa using h
            | 1, h => simpa using h
            | i + 2, h => simp at h

/-! ### Only these -/

/-- What `P` allows as first byte, with a length, is the first byte of a list that is long enough. -/
def Starts (P : Byte → Nat → Prop) (bs : List Byte) : Prop := ∃ b n, P b n ∧ bs.head? = some b ∧ n ≤ bs.length

theorem image_starts {P : Byte → Nat → Prop} (h0 : P 0 1) {W : List Chunk} (h : ∀ c ∈ W, Starts P c.2) : image W = [] ∨ Starts P (image W) := by
  by_cases he : imageEnd W = 0
  · left
    simp [image, he]
  · right
    have hl : (image W).length = imageEnd W := by simp [image]
    have hh : (image W).head? = some (byteAt W 0) := by
      rw [List.head?_eq_getElem?]
      exact image_get (by omega)
    unfold byteAt at hh
    cases hf : W.reverse.findSome? (Chunk.at · 0) with
    | none =>
      rw [hf] at hh
      exact ⟨0, 1, h0, hh, by omega⟩
    | some b =>
      rw [hf] at hh
      obtain ⟨c, hc, hb⟩ := List.exists_of_findSome?_eq_some hf
      rw [List.mem_reverse] at hc
      obtain ⟨b', n, g1, g2, g3⟩ := h c hc
      have := le_imageEnd hc
      refine ⟨b, n, ?_, hh, by omega⟩
      unfold Chunk.at at hb
      split at hb
      · rename_i h1
        have h1 : c.1 = 0 := by omega
        rw [h1, Nat.sub_zero, ← List.head?_eq_getElem?, g2] at hb
        cases hb
        exact g1
      · cases hb

/-- The documented opcodes, and how long their instructions are. -/
def Documented (b : Byte) (n : Nat) : Prop := ∃ m md op, opcode? m md = some op ∧ b = UInt8.ofNat op ∧ n = md.bytes

theorem documented_zero : Documented 0 1 := ⟨.BRK, .imp, 0, by decide, rfl, rfl⟩

theorem starts_zeros {P : Byte → Nat → Prop} (h0 : P 0 1) {n : Nat} (h : 1 ≤ n) : Starts P (List.replicate n 0) := by
  obtain ⟨k, rfl⟩ : ∃ k, n = k + 1 := ⟨n - 1, by omega⟩
  exact ⟨0, 1, h0, by simp [List.replicate_succ], by simp⟩

/-- The output of a program of the documented language. -/
theorem program_starts {w : World} {srcName outName : Str} {src : List Byte} {p : List Stmt} (hw : Setup w srcName outName src)
    (hp : IsProgram src p) {bin : List Byte} {total symbols : Nat} (hs : Succeeds w srcName outName bin total symbols) : bin = [] ∨ Starts Documented bin := by
  obtain ⟨s, h1, h2, rfl, h4⟩ := run_log hw hp hs
  have hraw : ∀ e ∈ placed p 1 .init, ∀ env, Starts Documented (rawBytes env e.item) := by
    intro e he env
    have hok := placed_ok h1 e he
    obtain ⟨op, hop⟩ := hok.1
    refine ⟨UInt8.ofNat op, e.item.mode.bytes, ⟨_, _, op, hop, rfl, rfl⟩, ?_, (rawBytes_length hok env).ge⟩
    simp [rawBytes, hop]
  have hwr : ∀ (es : List Placed), (∀ e ∈ es, e ∈ placed p 1 .init) → ∀ pos, ∀ c ∈ writesFrom pos es, Starts Documented c.2 := by
    intro es
    induction es with
    | nil => intro _ _ c hc; cases hc
    | cons e es ih =>
      intro hm pos c hc
      unfold writesFrom at hc
      rcases List.mem_append.1 hc with hc | hc
      · split at hc
        · rw [List.mem_singleton] at hc
          subst hc
          refine starts_zeros documented_zero ?_
          rcases mode_bytes_cases e.item.mode with h | h | h <;> omega
        · cases hc
      · rcases List.mem_cons.1 hc with rfl | hc
        · exact hraw e (hm e (by simp)) _
        · exact ih (fun x hx => hm x (by simp [hx])) _ c hc
  apply image_starts documented_zero
  intro c hc
  rcases List.mem_append.1 hc with hc | hc
  · exact hwr _ (fun _ h => h) _ c hc
  · obtain ⟨e, he, rfl⟩ := List.mem_map.1 hc
    exact hraw e (List.mem_filter.1 he).1 _

/-! Any source. -/

/-- Also the opcode gaia writes for an indexed jump to a label that is not known yet. -/
def Written (b : Byte) (n : Nat) : Prop := Documented b n ∨ (b = 0xF3 ∧ n = 3)

open Reference in
/-- The writes of the reference assembler begin with an opcode. -/
structure Inv (s : Reference.State) : Prop where
  writes : ∀ c ∈ s.writes, Starts Written c.2
  pending : ∀ r ∈ s.pending, ∃ n, Written r.opcode n ∧ n ≤ if Spec.isBranch r.mnemonic then 2 else 3

theorem branch_bytes : ∀ m ∈ Mnemonic.all, ∀ md ∈ [Mode.imp, .acc, .imm, .zp, .zpX, .zpY, .indX, .indY, .rel, .abs, .absX, .absY, .ind],
    Spec.isBranch m = true → (opcode? m md).isSome = true → md.bytes ≤ 2 := by decide +kernel

theorem mode_mem (md : Mode) : md ∈ [Mode.imp, .acc, .imm, .zp, .zpX, .zpY, .indX, .indY, .rel, .abs, .absX, .absY, .ind] := by cases md <;> simp

open Reference in
theorem forward_written {m : Mnemonic} {a : Arg} {op : Byte} {n : Nat} (h : forwardCode m a = some (op, n)) :
    Written op n ∧ n ≤ (if Spec.isBranch m then 2 else 3) ∧ 1 ≤ n := by
  have coded : ∀ {md : Option Mode}, (md.bind fun md => (opcode? m md).map fun op => (UInt8.ofNat op, md.bytes)) = some (op, n) →
      Written op n ∧ n ≤ (if Spec.isBranch m then 2 else 3) ∧ 1 ≤ n := by
    intro md h
    obtain ⟨md, _, h⟩ := Option.bind_eq_some_iff.1 h
    obtain ⟨o, ho, h⟩ := Option.map_eq_some_iff.1 h
    cases h
    refine ⟨.inl ⟨m, md, o, ho, rfl, rfl⟩, ?_, ?_⟩
    · split
      · rename_i hb
        exact branch_bytes m m.mem_all md (mode_mem md) hb (by simp [ho])
      · rcases mode_bytes_cases md with h | h | h <;> omega
    · rcases mode_bytes_cases md with h | h | h <;> omega
  unfold forwardCode at h
  simp only at h
  split at h
  · split at h
    · rename_i hm
      cases h
      subst hm
      exact ⟨.inr ⟨rfl, rfl⟩, by decide, by decide⟩
    · exact coded h
  · split at h
    · rename_i hm
      cases h
      subst hm
      exact ⟨.inr ⟨rfl, rfl⟩, by decide, by decide⟩
    · exact coded h
  · exact coded h

open Reference in
theorem inv_instruction {text : Str} {ls : List (Nat × Lexeme)} {m : Mnemonic} {a : Arg} {odd : Bool} {s s' : State} (h : Inv s)
    (hr : instruction text ls m a odd s = .ok s') : Inv s' := by
  unfold instruction at hr
  simp only at hr
  split at hr
  · cases hr
  rename_i v hv
  split at hr
  · split at hr
    · cases hr
    rename_i md hmd
    split at hr
    · cases hr
    rename_i bs hbs
    cases hr
    refine ⟨?_, h.pending⟩
    intro c hc
    simp only [State.write, List.mem_append, List.mem_singleton] at hc
    rcases hc with hc | rfl
    · exact h.writes c hc
    · have hlen : bs.length = md.bytes := Edit.encodeLow_len hbs
      unfold encodeLow at hbs
      simp only [Option.bind_eq_bind, Option.bind_eq_some_iff, Option.some.injEq] at hbs
      obtain ⟨op, hop, bs', _, rfl⟩ := hbs
      exact ⟨_, _, .inl ⟨m, md, op, hop, rfl, rfl⟩, rfl, by simp only; omega⟩
  · split at hr
    · cases hr
    rename_i op n hf
    cases hr
    have hf : forwardCode m a = some (op, n) := by
      cases odd with
      | true => cases hf
      | false => exact hf
    obtain ⟨g1, g2, g3⟩ := forward_written hf
    constructor
    · intro c hc
      simp only [State.write, List.mem_append, List.mem_singleton] at hc
      rcases hc with (hc | rfl) | rfl
      · exact h.writes c hc
      · exact starts_zeros (.inl documented_zero) g3
      · refine ⟨op, n, g1, rfl, ?_⟩
        simp only [List.length_cons, List.length_replicate]
        omega
    · intro r hr
      simp only [State.write, List.mem_append, List.mem_singleton] at hr
      rcases hr with hr | rfl
      · exact h.pending r hr
      · exact ⟨n, g1, g2⟩

open Reference in
theorem inv_execute {text : Str} {ls : List (Nat × Lexeme)} {odd : Bool} {st : Stmt} {s s' : State} (h : Inv s)
    (hr : execute text ls odd s st = .ok s') : Inv s' := by
  have hdef : ∀ {l v} {s' : State}, defineLabel ls l v s = .ok s' → Inv s' := by
    intro l v s' hd
    unfold defineLabel at hd
    split at hd
    · cases hd
    · cases hd
      exact ⟨h.writes, h.pending⟩
  cases st with
  | empty => cases hr; exact h
  | stop => cases hr; exact h
  | label l => exact hdef hr
  | const l v => exact hdef hr
  | org v => cases hr; exact ⟨h.writes, h.pending⟩
  | instr lab m a =>
    cases lab with
    | none => exact inv_instruction h hr
    | some l =>
      have hr : (match defineLabel ls l s.pc s with | .error f => Except.error f | .ok s => instruction text ls m a odd s) = Except.ok s' := hr
      split at hr
      · cases hr
      · rename_i s1 h1
        exact inv_instruction (hdef h1) hr

open Reference in
theorem inv_run {fn : Str} : ∀ {ps : List (List Byte)} {s s' : State}, Inv s → runPieces fn ps s = .ok s' → Inv s'
  | [], s, s', h, hr => by cases hr; exact h
  | p :: ps, s, s', h, hr => by
    unfold runPieces at hr
    simp only at hr
    split at hr
    · cases hr
    · cases hr
    · split at hr
      · cases hr
      · split at hr
        · cases hr
        · rename_i s1 h1
          have h2 := inv_execute h h1
          split at hr
          · cases hr; exact h2
          · exact inv_run (s := { s1 with line := s1.line + 1 }) ⟨h2.writes, h2.pending⟩ hr

open Reference in
theorem inv_resolve {fn : Str} {env : Env} : ∀ {rs : List Pending} {W V : List Chunk}, (∀ c ∈ W, Starts Written c.2) →
    (∀ r ∈ rs, ∃ n, Written r.opcode n ∧ n ≤ if Spec.isBranch r.mnemonic then 2 else 3) → resolve fn env rs W = .ok V → ∀ c ∈ V, Starts Written c.2
  | [], W, V, h, _, hr => by cases hr; exact h
  | r :: rs, W, V, h, hp, hr => by
    obtain ⟨n, g1, g2⟩ := hp r (by simp)
    unfold resolve at hr
    simp only at hr
    split at hr
    · cases hr
    split at hr
    · rename_i hb
      split at hr
      · cases hr
      · refine inv_resolve ?_ (fun r hr => hp r (by simp [hr])) hr
        intro c hc
        simp only [List.mem_append, List.mem_singleton] at hc
        rcases hc with hc | rfl
        · exact h c hc
        · rw [if_pos hb] at g2
          exact ⟨_, n, g1, rfl, g2⟩
    · rename_i hb
      refine inv_resolve ?_ (fun r hr => hp r (by simp [hr])) hr
      intro c hc
      simp only [List.mem_append, List.mem_singleton] at hc
      rcases hc with hc | rfl
      · exact h c hc
      · rw [if_neg hb] at g2
        exact ⟨_, n, g1, rfl, g2⟩

/-- The output for any source. -/
theorem source_starts {w : World} {srcName outName : Str} {src : List Byte} (hw : Setup w srcName outName src) (hs : Sized src)
    {bin : List Byte} {total symbols : Nat} (h : Succeeds w srcName outName bin total symbols) : bin = [] ∨ Starts Written bin := by
  obtain ⟨s, W, h1, h2, rfl, _, _⟩ := (C57_success hw hs _ _ _).1 h
  have hi := inv_run (s := .init) ⟨by simp [Reference.State.init], by simp [Reference.State.init]⟩ h1
  exact image_starts (.inl documented_zero) (inv_resolve hi.writes hi.pending h2)

end Files
end Gaia

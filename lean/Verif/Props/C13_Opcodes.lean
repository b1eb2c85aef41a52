import Verif.Props.C27_Undamaged
import Verif.Props.C06_Lexing

/-! C13, C14: opcodes. -/
set_option maxRecDepth 100000
namespace Gaia
open Spec

/-- The flag of opcode.h (lines 10-36) for each addressing mode. -/
def flagFor : Mode → Flags
  | .acc => ADDR_MODE_ACCUMULATOR
  | .imp => ADDR_MODE_IMPLIED
  | .imm => ADDR_MODE_IMMEDIATE
  | .rel => ADDR_MODE_RELATIVE
  | .abs => ADDR_MODE_ABSOLUTE
  | .absX => ADDR_MODE_ABSOLUTE_X
  | .absY => ADDR_MODE_ABSOLUTE_Y
  | .ind => ADDR_MODE_INDIRECT
  | .indX => ADDR_MODE_X_INDEXED_INDIRECT
  | .indY => ADDR_MODE_INDIRECT_Y_INDEXED
  | .zp => ADDR_MODE_ZERO_PAGE
  | .zpX => ADDR_MODE_ZERO_PAGE_X
  | .zpY => ADDR_MODE_ZERO_PAGE_Y

/-- **C13, opcodes**: for every mnemonic and mode, `assemble_mnemonic` returns the opcode in opcodes/6502ops.csv, and an
error code if there is none. -/
theorem C13_opcode (m : Mnemonic) (md : Mode) : assembleMnemonic m (flagFor md) =
    match opcode? m md with
    | some op => (op : Int)
    | none => -13 := by
  have H : ∀ m ∈ Mnemonic.all, ∀ md ∈ Mode.all, assembleMnemonic m (flagFor md) =
      match opcode? m md with
      | some op => (op : Int)
      | none => -13 := by decide +kernel
  exact H m m.mem_all md (Mode.mem_all md)

/-- **C13, modes**: the set of modes gaia attaches to a mnemonic has exactly the modes the table lists for it. -/
theorem C13_allowed (m : Mnemonic) (md : Mode) : getAddrBitfield m &&& flagFor md ≠ 0 ↔ (opcode? m md).isSome = true := by
  have H : ∀ m ∈ Mnemonic.all, ∀ md ∈ Mode.all, getAddrBitfield m &&& flagFor md ≠ 0 ↔ (opcode? m md).isSome = true := by
    decide +kernel
  exact H m m.mem_all md (Mode.mem_all md)

/-- ... and no other bits. -/
theorem C13_no_other_modes (m : Mnemonic) : getAddrBitfield m =
    (Mode.all.filter fun md => (opcode? m md).isSome).foldl (fun f md => f ||| flagFor md) 0 := by
  have H : ∀ m ∈ Mnemonic.all, getAddrBitfield m =
      (Mode.all.filter fun md => (opcode? m md).isSome).foldl (fun f md => f ||| flagFor md) 0 := by decide +kernel
  exact H m m.mem_all

/-- **C13, no two instructions share an opcode**, and opcodes are bytes. -/
theorem C13_distinct {m m' : Mnemonic} {md md' : Mode} {op : Nat} (h : assembleMnemonic m (flagFor md) = op)
    (h' : assembleMnemonic m' (flagFor md') = op) : m = m' ∧ md = md' ∧ op < 256 := by
  have key : ∀ {m : Mnemonic} {md : Mode}, assembleMnemonic m (flagFor md) = op → opcode? m md = some op := by
    intro m md h
    rw [C13_opcode] at h
    cases ho : opcode? m md with
    | none => rw [ho] at h; simp only at h; omega
    | some op' => rw [ho] at h; simp only at h; rw [show op' = op by exact_mod_cast h]
  obtain ⟨a1, a2⟩ := decode_opcode (key h)
  obtain ⟨_, b2⟩ := decode_opcode (key h')
  rw [a2] at b2
  simp only [Option.some.injEq, OpRow.mk.injEq] at b2
  exact ⟨b2.2.1, b2.2.2.1, a1⟩

/-- **C13, the rows of the table**: each row is what gaia does for its mnemonic and mode, and the number of bytes in the
table is the length of an instruction in that mode. -/
theorem C13_rows : ∀ r ∈ opTable, assembleMnemonic r.mnemonic (flagFor r.mode) = r.opcode ∧ r.bytes = r.mode.bytes ∧
    opcode? r.mnemonic r.mode = some r.opcode := by decide +kernel

example : assembleMnemonic .LDA ADDR_MODE_IMMEDIATE = 0xA9 ∧ assembleMnemonic .STX ADDR_MODE_IMMEDIATE = -13 := by decide

/-! C14 -/

/-- A flag that stands for a mode the 6502 has for the mnemonic. -/
def Legal (m : Mnemonic) (f : Flags) : Prop := ∃ md ∈ Mode.all, f = modeFlag md ∧ (opcode? m md).isSome = true

instance (m : Mnemonic) (f : Flags) : Decidable (Legal m f) := by unfold Legal; infer_instance

theorem known_legal {m : Mnemonic} {acc big : Bool} {s : Shape} (h : knownFlag m acc big s ≠ 0) : Legal m (knownFlag m acc big s) := by
  have H : ∀ m ∈ Mnemonic.all, ∀ acc big x y p i c : Bool, knownFlag m acc big ⟨x, y, p, i, c⟩ ≠ 0 →
      Legal m (knownFlag m acc big ⟨x, y, p, i, c⟩) := by decide +kernel
  obtain ⟨x, y, p, i, c⟩ := s
  exact H m m.mem_all acc big x y p i c h

theorem none_legal {m : Mnemonic} (h : noneFlag m ≠ 0) : Legal m (noneFlag m) := by
  have H : ∀ m ∈ Mnemonic.all, noneFlag m ≠ 0 → Legal m (noneFlag m) := by decide +kernel
  exact H m m.mem_all h

theorem fwd_legal {m : Mnemonic} {s : Shape} (hb : Gaia.isBranch m = true ∨ Gaia.isJump m = true) (h : fwdFlag m s ≠ 0) :
    Legal m (fwdFlag m s) ∨ (m = .JMP ∧ (s.x = true ∨ s.y = true) ∧ s.par = false ∧ opByte m (fwdFlag m s) = 0xF3) := by
  have H : ∀ m ∈ Mnemonic.all, (Gaia.isBranch m || Gaia.isJump m) = true → ∀ x y p i c : Bool, fwdFlag m ⟨x, y, p, i, c⟩ ≠ 0 →
      Legal m (fwdFlag m ⟨x, y, p, i, c⟩) ∨
        (m = .JMP ∧ (x = true ∨ y = true) ∧ p = false ∧ opByte m (fwdFlag m ⟨x, y, p, i, c⟩) = 0xF3) := by decide +kernel
  obtain ⟨x, y, p, i, c⟩ := s
  exact H m m.mem_all (by simpa using hb) x y p i c h

/-- The byte written for a legal flag is a documented opcode of the mnemonic. -/
theorem Legal.byte {m : Mnemonic} {f : Flags} (h : Legal m f) : ∃ md op, opcode? m md = some op ∧ opByte m f = UInt8.ofNat op := by
  obtain ⟨md, _, rfl, ho⟩ := h
  obtain ⟨op, hop⟩ := Option.isSome_iff_exists.1 ho
  exact ⟨md, op, hop, opByte_eq hop⟩

/-- The opcode byte of an instruction step. -/
theorem instrStep_op {buf : Str} {ls : List (Nat × Lexeme)} {m : Mnemonic} {a a' : A} (h : instrStep buf ls m a = .ok a') :
    ∃ (f : Flags) (bs : List Byte) (a1 : A), (Legal m f ∨ (m = .JMP ∧ opByte m f = 0xF3 ∧
      (.regX ∈ ls.map (·.2) ∨ .regY ∈ ls.map (·.2)) ∧ .lpar ∉ ls.map (·.2) ∧
      ∃ l, .name l ∈ ls.map (·.2) ∧ a.env.lookup l = none)) ∧
      a' = a1.emit (opByte m f :: bs) ∧ a1.pc = a.pc ∧ a1.total = a.total ∧ a1.env = a.env := by
  unfold instrStep at h
  simp only at h
  split at h
  · split_ifs at h with h0
    exact ⟨_, [], a, .inl (known_legal h0), (Except.ok.inj h).symm, rfl, rfl, rfl⟩
  · split_ifs at h with h0
    exact ⟨_, _, a, .inl (known_legal h0), (Except.ok.inj h).symm, rfl, rfl, rfl⟩
  · rename_i p l hop
    split at h
    · split_ifs at h with h0 h1
      · split at h
        · cases h
        · exact ⟨_, _, a, .inl (known_legal h0), (Except.ok.inj h).symm, rfl, rfl, rfl⟩
      · exact ⟨_, _, a, .inl (known_legal h0), (Except.ok.inj h).symm, rfl, rfl, rfl⟩
    · rename_i hnone
      split_ifs at h with h0 h1
      · refine ⟨_, _, a.saveRef (mkRef buf l m _ p a) m, ?_, (Except.ok.inj h).symm, rfl, rfl, rfl⟩
        rcases fwd_legal h0 h1 with g | ⟨g1, g2, g3, g4⟩
        · exact .inl g
        · refine .inr ⟨g1, g4, by simpa [shape] using g2, by simpa [shape] using g3, l, ?_, hnone⟩
          exact List.mem_map.2 ⟨_, List.mem_of_mem_tail (List.mem_of_find?_eq_some hop), rfl⟩
  · split_ifs at h with h0
    exact ⟨_, [], a, .inl (none_legal h0), (Except.ok.inj h).symm, rfl, rfl, rfl⟩

/-- **C14, exactly.** Whatever the line - documented or not - and whatever the state: if an accepted line assembles
something, then the first of the bytes it assembles is a documented opcode of the (last) mnemonic on the line, or else it
is 0xF3, the mnemonic is `JMP`, the line has an index register and no parenthesis, and a label on it is not known when the line has
been assembled. -/
theorem C14_exact_opcode {fn : Str} {raws : List (List Byte)} {st st' : St} (h : Reached fn raws st) {raw : List Byte}
    (hs : lineStep raw st = .ok (.continue st')) (ht : st'.total ≠ st.total) {ls : List (Nat × Lexeme)} (hl : Cuts raw ls) :
    ∃ m op, LastMnemonic (ls.map (·.2)) (some m) ∧
      st'.out.bytes[st'.pc - (st'.total - st.total)]? = some (UInt8.ofNat op) ∧
      ((∃ md, opcode? m md = some op) ∨
       (op = 0xF3 ∧ m = .JMP ∧ (.regX ∈ ls.map (·.2) ∨ .regY ∈ ls.map (·.2)) ∧ .lpar ∉ ls.map (·.2) ∧
          ∃ l, .name l ∈ ls.map (·.2) ∧ symbol st' l = none)) := by
  obtain ⟨a, a', hr, hr', hli⟩ := reached_line h hs
  obtain ⟨ls', a1, k0, _, k2, k3⟩ := line_ok hli
  obtain ⟨c1, c2⟩ := (lexemes_cuts ls').1 k0
  obtain rfl : ls' = ls := C06_unambiguous c1 hl c2
  obtain ⟨_, d2, _, _, _⟩ := declare_ok k2
  rcases k3 with ⟨_, hb, _⟩ | ⟨_, _, _, rfl⟩ | ⟨_, _, m, hm, hi⟩
  · cases hb
  · exact absurd (by rw [hr'.total, hr.total]; exact d2) ht
  · obtain ⟨f, bs, a2, g1, rfl, g3, g4, g5⟩ := instrStep_op hi
    have htot : st'.total - st.total = (opByte m f :: bs).length := by
      rw [hr'.total, hr.total, ← d2, ← g4]
      simp [A.emit]
    have hpc : st'.pc = a2.pc + (opByte m f :: bs).length := by rw [hr'.pc]; rfl
    have hbyte : st'.out.bytes[st'.pc - (st'.total - st.total)]? = some (opByte m f) := by
      rw [htot, hpc, Nat.add_sub_cancel, hr'.out]
      have := (emitted (f := a2.out) (pc := a2.pc) (bs := opByte m f :: bs) (by simp)).2.1 0 (by simp)
      simpa [A.emit] using this
    have hlast : LastMnemonic (ls'.map (·.2)) (some m) := by rw [← hm]; exact lastMnem_last _
    rcases g1 with g1 | ⟨rfl, w1, w2, w3, l, w4, w5⟩
    · obtain ⟨md, op, ho, hop⟩ := g1.byte
      exact ⟨m, op, hlast, by rw [hbyte, hop], .inl ⟨md, ho⟩⟩
    · refine ⟨.JMP, 0xF3, hlast, by rw [hbyte, w1]; rfl, .inr ⟨rfl, rfl, w2, w3, l, w4, ?_⟩⟩
      rw [hr'.symbol]
      show a2.env.lookup l = none
      rw [g5]; exact w5

/-- **C14, as far as it holds.** As above: the opcode is a documented one, unless the line has `JMP` with an index
register, no parenthesis and a label that is not yet known. What is missing: that case (`C14_illegal_opcode`). -/
theorem C14_documented_partial {fn : Str} {raws : List (List Byte)} {st st' : St} (h : Reached fn raws st) {raw : List Byte}
    (hs : lineStep raw st = .ok (.continue st')) (ht : st'.total ≠ st.total) {ls : List (Nat × Lexeme)}
    (hl : Cuts raw ls)
    (hx : .mnem .JMP ∈ ls.map (·.2) → .regX ∈ ls.map (·.2) ∨ .regY ∈ ls.map (·.2) → .lpar ∉ ls.map (·.2) →
      ∀ l, .name l ∈ ls.map (·.2) → symbol st' l ≠ none) :
    ∃ m md op, LastMnemonic (ls.map (·.2)) (some m) ∧ opcode? m md = some op ∧
      st'.out.bytes[st'.pc - (st'.total - st.total)]? = some (UInt8.ofNat op) := by
  obtain ⟨m, op, h1, h2, ⟨md, h3⟩ | ⟨rfl, rfl, h3, h4, l, h5, h6⟩⟩ := C14_exact_opcode h hs ht hl
  · exact ⟨m, md, op, h1, h3, h2⟩
  · obtain ⟨pre, post, he, _⟩ := h1
    exact absurd h6 (hx (by rw [he]; simp) h3 h4 l h5)

/-- **C14 fails** for an indexed jump to a label that is defined later: opcode 0xF3 is no 6502 instruction. -/
theorem C14_illegal_opcode : Succeeds (demo (b! " JMP FWD,X\nFWD NOP\n")) (b! "p.asm") (b! "p.bin") [0xF3, 0x03, 0x00, 0xEA] 4 1 ∧
    decode? 0xF3 = none :=
  ⟨demo_succeeds (by decide +kernel), by decide +kernel⟩

/-! A concrete case: a forward `JMP (FWD)`. -/
example : ∃ st, Reached (b! "p.asm") [b! "L =$1000\n"] st ∧ (match lineStep (b! " JMP (FWD)\n") st with
      | .ok (.continue st') => decide (st'.total = 3 ∧ st'.out.bytes = [0x6C, 0, 0])
      | _ => false) = true :=
  reach_eval (fun st => (match lineStep (b! " JMP (FWD)\n") st with
      | .ok (.continue st') => decide (st'.total = 3 ∧ st'.out.bytes = [0x6C, 0, 0])
      | _ => false) = true) (by decide) (by decide +kernel)

end Gaia

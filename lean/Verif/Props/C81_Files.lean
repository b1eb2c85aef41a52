import Verif.Proofs.Files2

/-!
C81: gaia can make every file that begins with an opcode, and no other.
-/
set_option maxRecDepth 20000
namespace Gaia
open Spec Files

/-- Instructions written at any addresses, in any order and overlapping, are put there: each is written over what the ones before it have left, what none has written is
0, and each counts with its length. -/
theorem C81_anywhere {srcName outName : Str} {ps : List Placement} (ha : ∀ p ∈ ps, p.1 < 65536) (hi : ∀ p ∈ ps, p.2.Writable)
    (hs : Sized (ps.flatMap Placement.text)) {w : World} (hw : Setup w srcName outName (ps.flatMap Placement.text)) :
    Succeeds w srcName outName (image (ps.map Placement.chunk)) (totalBytes (ps.map Placement.chunk)) 0 := Files.run ha hi hs hw

/-- For every file that begins with an opcode of an instruction that is not longer than the file there is a source that gaia makes it of. It is of the documented
language, and has no labels. -/
theorem C81_every_file {bin : List Byte} (hl : bin.length ≤ 65537) (h : StartsWithOpcode bin) :
    ∃ src p, IsProgram src p ∧ ∀ {srcName outName : Str} {w : World}, Setup w srcName outName src → ∃ total, Succeeds w srcName outName bin total 0 := by
  obtain ⟨ps, h1, h2, h3⟩ := every h
  have hs : Sized (ps.flatMap Placement.text) := by
    have := Files.cut_length (ps.flatMap Placement.text) 127
    have := placements_text_length ps
    unfold Sized pieces maxSymbols
    omega
  have ha : ∀ p ∈ ps, p.1 < 65536 := fun p hp => by
    have := (h1 p hp).2.1
    omega
  refine ⟨_, _, isProgram (fun p hp => ⟨ha p hp, valid_small (h1 p hp).2.2.1⟩) hs, ?_⟩
  intro srcName outName w hw
  have := C81_anywhere ha (fun p hp => (h1 p hp).2.2) hs hw
  rw [h3] at this
  exact ⟨_, this⟩

/-- These are the files that programs of the documented language have as output. -/
theorem C81_exact {bin : List Byte} (hl : bin.length ≤ 65537) :
    (∃ src p, IsProgram src p ∧ ∃ srcName outName w total symbols, Setup w srcName outName src ∧ Succeeds w srcName outName bin total symbols) ↔
      StartsWithOpcode bin := by
  constructor
  · rintro ⟨src, p, hp, srcName, outName, w, total, symbols, hw, hs⟩
    rcases program_starts hw hp hs with h | ⟨b, n, ⟨m, md, op, h1, rfl, rfl⟩, h2, h3⟩
    · exact .inl h
    · exact .inr ⟨m, md, op, h1, h2, h3⟩
  · intro h
    obtain ⟨src, p, hp, hs⟩ := C81_every_file hl h
    obtain ⟨total, ht⟩ := hs (demo_setup src)
    exact ⟨src, p, hp, b! "p.asm", b! "p.bin", demo src, total, 0, demo_setup src, ht⟩

/-- And no program has another file as output, however long. -/
theorem C81_only {srcName outName : Str} {src : List Byte} {p : List Stmt} {w : World} (hw : Setup w srcName outName src) (hp : IsProgram src p)
    {bin : List Byte} {total symbols : Nat} (hs : Succeeds w srcName outName bin total symbols) : StartsWithOpcode bin := by
  rcases program_starts hw hp hs with h | ⟨b, n, ⟨m, md, op, h1, rfl, rfl⟩, h2, h3⟩
  · exact .inl h
  · exact .inr ⟨m, md, op, h1, h2, h3⟩

/-- Any source at all: besides, the file can begin with `$F3`, the opcode gaia writes for `JMP L,X` and `JMP L,Y` with a later label, if it has three bytes. -/
theorem C81_any_source {srcName outName : Str} {src : List Byte} {w : World} (hw : Setup w srcName outName src) (hs : Sized src)
    {bin : List Byte} {total symbols : Nat} (h : Succeeds w srcName outName bin total symbols) :
    StartsWithOpcode bin ∨ (bin.head? = some 0xF3 ∧ 3 ≤ bin.length) := by
  rcases source_starts hw hs h with h | ⟨b, n, ⟨m, md, op, h1, rfl, rfl⟩ | ⟨rfl, rfl⟩, h2, h3⟩
  · exact .inl (.inl h)
  · exact .inl (.inr ⟨m, md, op, h1, h2, h3⟩)
  · exact .inr ⟨h2, h3⟩

/-- These files can be made too. -/
theorem C81_indexed {bin : List Byte} (hl : bin.length ≤ 65537) (h : bin.head? = some 0xF3 ∧ 3 ≤ bin.length) :
    ∃ src, Sized src ∧ ∀ {srcName outName : Str} {w : World}, Setup w srcName outName src → ∃ total, Succeeds w srcName outName bin total 1 := by
  obtain ⟨b, c, tl, rfl⟩ : ∃ b c tl, bin = 0xF3 :: b :: c :: tl := by
    match bin, h with
    | o :: b :: c :: tl, h => exact ⟨b, c, tl, by simpa using h.1⟩
  exact ⟨indexed b c tl, indexed_sized hl, fun hw => indexed_run hl hw⟩

/-- The files that gaia makes at all. -/
theorem C81_exact_any {bin : List Byte} (hl : bin.length ≤ 65537) :
    (∃ src srcName outName w total symbols, Sized src ∧ Setup w srcName outName src ∧ Succeeds w srcName outName bin total symbols) ↔
      StartsWithOpcode bin ∨ (bin.head? = some 0xF3 ∧ 3 ≤ bin.length) := by
  constructor
  · rintro ⟨src, srcName, outName, w, total, symbols, hs, hw, h⟩
    exact C81_any_source hw hs h
  · rintro (h | h)
    · obtain ⟨src, p, hp, hr⟩ := C81_every_file hl h
      obtain ⟨total, ht⟩ := hr (demo_setup src)
      exact ⟨src, _, _, _, total, 0, hp.size, demo_setup src, ht⟩
    · obtain ⟨src, hs, hr⟩ := C81_indexed hl h
      obtain ⟨total, ht⟩ := hr (demo_setup src)
      exact ⟨src, _, _, _, total, 1, hs, demo_setup src, ht⟩

/-! Examples. -/

/-- A text as output. -/
example : StartsWithOpcode (b! "hello, world") := .inr ⟨.PLA, .imp, 0x68, by decide, rfl, by decide⟩

/-- An instruction with zero as high byte, which gaia does not write as it is. -/
example : ∃ src p, IsProgram src p ∧ ∃ total, Succeeds (demo src) (b! "p.asm") (b! "p.bin") [0xAD, 5, 0, 0xFF] total 0 := by
  obtain ⟨src, p, h1, h2⟩ := C81_every_file (bin := [0xAD, 5, 0, 0xFF]) (by decide) (.inr ⟨.LDA, .abs, 0xAD, by decide, rfl, by decide⟩)
  exact ⟨src, p, h1, h2 (demo_setup src)⟩

/-- One source for it: the last byte, the zero, the operand, the instruction, and a BRK for the zero. -/
example : Succeeds (demo (b! "*=$2\n LDA #$FF\n*=$0\n LDA $105\n*=$2\n BRK\n")) (b! "p.asm") (b! "p.bin") [0xAD, 5, 0, 0xFF] 6 0 :=
  demo_succeeds (by decide +kernel)

/-- `$FF` is not the opcode of an instruction, and an `LDA #` alone has no operand. -/
example : ¬ StartsWithOpcode [0xFF, 0xEA] ∧ ¬ StartsWithOpcode [0xA9] := by
  have key : ∀ m ∈ Mnemonic.all, ∀ md ∈ [Mode.imp, .acc, .imm, .zp, .zpX, .zpY, .indX, .indY, .rel, .abs, .absX, .absY, .ind],
      ∀ op ∈ opcode? m md, UInt8.ofNat op ≠ 0xFF ∧ (UInt8.ofNat op = 0xA9 → md.bytes = 2) := by decide +kernel
  constructor
  · rintro (h | ⟨m, md, op, h1, h2, h3⟩)
    · cases h
    · exact (key m m.mem_all md (mode_mem md) op h1).1 (by simpa using h2.symm)
  · rintro (h | ⟨m, md, op, h1, h2, h3⟩)
    · cases h
    · rw [(key m m.mem_all md (mode_mem md) op h1).2 (by simpa using h2.symm)] at h3
      simp at h3

/-- A source for a file that begins with `$F3`. -/
example : Succeeds (demo (b! " JMP L,X\n*=$0001\n LDA #$34\n*=$0000\n LDA #$12\n*=$3412\nL\n")) (b! "p.asm") (b! "p.bin") [0xF3, 0x12, 0x34] 7 1 :=
  demo_succeeds (by decide +kernel)

end Gaia

import Verif.Props.C20_Labels

/-! C27: what a line may change in the output file, whatever the line and whatever the state. -/
set_option maxRecDepth 10000
namespace Gaia
open Spec

theorem fwd_size_fin : ∀ m ∈ Mnemonic.all, (Gaia.isBranch m || Gaia.isJump m) = true → ∀ x y p i c : Bool,
    fwdFlag m ⟨x, y, p, i, c⟩ ≠ 0 →
    (1 + (if fwdFlag m ⟨x, y, p, i, c⟩ &&& ABSOLUTE_FIELD ≠ 0 then 2 else 1)) = if Gaia.isBranch m then 2 else 3 := by
  decide +kernel

/-- The dummy bytes of a forward reference are as many as the bytes of its instruction. -/
theorem fwd_size {m : Mnemonic} {s : Shape} (h : Gaia.isBranch m = true ∨ Gaia.isJump m = true) (hf : fwdFlag m s ≠ 0) (b : Byte) (v : Nat) :
    (b :: argBytes (fwdFlag m s) v).length = if Gaia.isBranch m then 2 else 3 := by
  obtain ⟨x, y, p, i, c⟩ := s
  rw [← fwd_size_fin m m.mem_all (by simpa using h) x y p i c hf]
  unfold argBytes
  split_ifs <;> simp

theorem saved_bytes (f : OutFile) (bs : List Byte) (i : Nat) (h : i < f.pos ∨ f.pos + bs.length ≤ i) :
    (f.puts bs).bytes.getD i 0 = f.bytes.getD i 0 := by
  rw [puts_get, Chunk.at_none h]; rfl

/-- The pure counterpart of a line from a reached state. -/
theorem reached_line {fn : Str} {raws : List (List Byte)} {st st' : St} (h : Reached fn raws st) {raw : List Byte}
    (hs : lineStep raw st = .ok (.continue st')) :
    ∃ a a', Rel fn st a ∧ Rel fn st' a' ∧ line fn raw a = .ok (false, a') := by
  obtain ⟨a, hr, hb, _, _, _⟩ := h.rel
  have hsim := line_sim_few (raw := raw) hr hb h.few
  cases hli : line fn raw a with
  | error e => rw [hli] at hsim; simp only at hsim; rw [hsim] at hs; cases hs
  | ok q =>
    obtain ⟨b, a'⟩ := q
    rw [hli] at hsim
    obtain ⟨st'', g1, g2, _, _⟩ := hsim
    rw [g1] at hs
    cases b with
    | true => simp [nextOf] at hs
    | false =>
      obtain rfl : st'' = st' := by simpa [nextOf] using hs
      exact ⟨a, a', hr, g2, hli⟩

/-- The three things an accepted line can do to the output file. -/
theorem line_writes {fn : Str} {raws : List (List Byte)} {st st' : St} (h : Reached fn raws st) {raw : List Byte}
    (hs : lineStep raw st = .ok (.continue st')) :
    (st'.out = st.out ∧ st'.total = st.total ∧ st'.unres.curr = st.unres.curr) ∨
    (∃ (pc : Nat) (bs : List Byte), 1 ≤ bs.length ∧ bs.length ≤ 3 ∧ st'.pc = pc + bs.length ∧ st'.total = st.total + bs.length ∧
      ((st'.unres.curr = st.unres.curr ∧ st'.out = (st.out.seek pc).puts bs) ∨
       (st'.unres.curr = st.unres.curr + 1 ∧ ∃ ds : List Byte, ds.length = bs.length ∧ st'.out = ((st.out.puts ds).seek pc).puts bs)) ∧
      (pc = st.pc ∨ ∃ ls v, lexemes raw = .ok ls ∧ originOf ls = some v)) := by
  obtain ⟨a, a', hr, hr', hli⟩ := reached_line h hs
  obtain ⟨ls, a1, k0, _, k2, k3⟩ := line_ok hli
  obtain ⟨d1, d2, d3, d4, d5⟩ := declare_ok k2
  have hcur := hr.refs.curr
  have hcur' := hr'.refs.curr
  have hpc : a1.pc = st.pc ∨ ∃ ls v, lexemes raw = .ok ls ∧ originOf ls = some v := by
    rcases d5 with ⟨_, _, _, _, _, _, e⟩ | ⟨_, _, e⟩
    · exact .inl (by rw [e, hr.pc])
    · cases ho : originOf ls with
      | none => exact .inl (by rw [e, ho, hr.pc]; rfl)
      | some v => exact .inr ⟨ls, v, k0, ho⟩
  rcases k3 with ⟨_, hb, _⟩ | ⟨_, _, _, rfl⟩ | ⟨_, _, m, _, hi⟩
  · cases hb
  · refine .inl ⟨?_, ?_, ?_⟩
    · rw [hr'.out, hr.out]; exact d4
    · rw [hr'.total, hr.total]; exact d2
    · rw [hcur', hcur]; simp [d3]
  · right
    rcases instrStep_cases hi with ⟨bs, b1, b2, rfl⟩ | ⟨p, l, bs, _, _, hbj, hf, hbs, rfl⟩
    · refine ⟨a1.pc, bs, b1, b2, by rw [hr'.pc]; rfl, ?_, .inl ⟨?_, ?_⟩, hpc⟩
      · rw [hr'.total, hr.total, ← d2]; rfl
      · rw [hcur', hcur]; simp [A.emit, d3]
      · rw [hr'.out, hr.out, ← d4]; rfl
    · have hlen := fwd_size hbj hf (opByte m (fwdFlag m (shape (ls.map (·.2))))) 0
      rw [← hbs] at hlen
      refine ⟨a1.pc, bs, ?_, ?_, by rw [hr'.pc]; rfl, ?_, .inr ⟨?_, if Gaia.isBranch m then [0, 0] else [0, 0, 0], ?_, ?_⟩, hpc⟩
      · rw [hlen]; split_ifs <;> omega
      · rw [hlen]; split_ifs <;> omega
      · rw [hr'.total, hr.total, ← d2]; rfl
      · rw [hcur', hcur]; simp [A.emit, A.saveRef, d3]
      · rw [hlen]; split_ifs <;> rfl
      · rw [hr'.out, hr.out, ← d4]; rfl

/-- **C27, lines without a forward reference.** Whatever the line and the state: if the line records no forward reference,
then every byte of the output file outside the addresses of the instruction it assembles - the last `n` bytes before
the new location counter, `n` being the increase of the byte count - stays as it was (0 beyond the end of the file). -/
theorem C27_undamaged_partial {fn : Str} {raws : List (List Byte)} {st st' : St} (h : Reached fn raws st) {raw : List Byte}
    (hs : lineStep raw st = .ok (.continue st')) (hno : st'.unres.curr = st.unres.curr) (i : Nat)
    (hi : st'.total = st.total ∨ i + (st'.total - st.total) < st'.pc ∨ st'.pc ≤ i) : fileByte st' i = fileByte st i := by
  rcases line_writes h hs with ⟨ho, _⟩ | ⟨pc, bs, b1, _, hpc, ht, (⟨_, ho⟩ | ⟨hc, _⟩), _⟩
  · unfold fileByte; rw [ho]
  · have hne : bs ≠ [] := by rintro rfl; simp at b1
    have := (emitted (f := st.out) (pc := pc) hne).2.2 i (by omega)
    unfold fileByte
    rw [ho]; exact this
  · omega

/-- **C27, lines with a forward reference.** The only other bytes such a line can change are as many bytes again at the
file position, that is, directly after the instruction assembled last (`C27_position`). -/
theorem C27_forward_damage {fn : Str} {raws : List (List Byte)} {st st' : St} (h : Reached fn raws st) {raw : List Byte}
    (hs : lineStep raw st = .ok (.continue st')) (i : Nat)
    (hi : st'.total = st.total ∨ i + (st'.total - st.total) < st'.pc ∨ st'.pc ≤ i)
    (hp : i < st.out.pos ∨ st.out.pos + (st'.total - st.total) ≤ i) : fileByte st' i = fileByte st i := by
  rcases line_writes h hs with ⟨ho, _⟩ | ⟨pc, bs, b1, _, hpc, ht, (⟨_, ho⟩ | ⟨hc, ds, hd, ho⟩), _⟩
  · unfold fileByte; rw [ho]
  · have hne : bs ≠ [] := by rintro rfl; simp at b1
    have := (emitted (f := st.out) (pc := pc) hne).2.2 i (by omega)
    unfold fileByte
    rw [ho]; exact this
  · have hne : bs ≠ [] := by rintro rfl; simp at b1
    have h1 := (emitted (f := st.out.puts ds) (pc := pc) hne).2.2 i (by omega)
    have h2 := saved_bytes st.out ds i (by omega)
    unfold fileByte
    rw [ho, h1, h2]

/-- **C27, the file position**: after a line that assembled something it is the location counter; other lines leave it
(and the file) alone. -/
theorem C27_position {fn : Str} {raws : List (List Byte)} {st st' : St} (h : Reached fn raws st) {raw : List Byte}
    (hs : lineStep raw st = .ok (.continue st')) :
    (st'.total = st.total ∧ st'.out = st.out) ∨ (st.total < st'.total ∧ st'.out.pos = st'.pc) := by
  rcases line_writes h hs with ⟨ho, ht, _⟩ | ⟨pc, bs, b1, _, hpc, ht, (⟨_, ho⟩ | ⟨hc, ds, hd, ho⟩), _⟩
  · exact .inl ⟨ht, ho⟩
  · exact .inr ⟨by omega, by rw [ho, puts_pos, hpc]; rfl⟩
  · exact .inr ⟨by omega, by rw [ho, puts_pos, hpc]; rfl⟩

/-- **C27, without a change of origin since the instruction assembled last** (the file position is the location counter):
no line, with or without a forward reference, changes any byte outside the instruction it assembles, provided it does
not set the origin itself. -/
theorem C27_undamaged_in_sequence {fn : Str} {raws : List (List Byte)} {st st' : St} (h : Reached fn raws st) {raw : List Byte}
    (hs : lineStep raw st = .ok (.continue st')) (hpos : st.out.pos = st.pc)
    (hno : ∀ ls, lexemes raw = .ok ls → originOf ls = none) (i : Nat)
    (hi : i < st.pc ∨ st'.pc ≤ i) : fileByte st' i = fileByte st i := by
  rcases line_writes h hs with ⟨ho, _⟩ | ⟨pc, bs, b1, _, hpc, ht, hw, ho⟩
  · unfold fileByte; rw [ho]
  · obtain rfl : pc = st.pc := by
      rcases ho with ho | ⟨ls, v, h1, h2⟩
      · exact ho
      · rw [hno ls h1] at h2; cases h2
    have hne : bs ≠ [] := by rintro rfl; simp at b1
    rcases hw with ⟨_, ho⟩ | ⟨_, ds, hd, ho⟩
    · have := (emitted (f := st.out) (pc := st.pc) hne).2.2 i (by omega)
      unfold fileByte
      rw [ho]; exact this
    · have h1 := (emitted (f := st.out.puts ds) (pc := st.pc) hne).2.2 i (by omega)
      have h2 := saved_bytes st.out ds i (by omega)
      unfold fileByte
      rw [ho, h1, h2]

/-- **C27 fails**: here the line ` JMP FWD` at $10 erases the instructions `INX` and `INY` at 3 and 4, because the dummy
bytes of its forward reference are written where the instruction assembled last ended. -/
theorem C27_damage : Succeeds (demo (b! " *=$2\n INX\n INY\n NOP\n *=$0\n NOP\n NOP\n *=$10\n JMP FWD\nFWD NOP\n")) (b! "p.asm") (b! "p.bin")
      [0xEA, 0xEA, 0, 0, 0, 0, 0, 0, 0, 0, 0, 0, 0, 0, 0, 0, 0x4C, 0x13, 0, 0xEA] 9 1 ∧
    Succeeds (demo (b! " *=$2\n INX\n INY\n NOP\n *=$0\n NOP\n NOP\n *=$10\n JMP $13\nFWD NOP\n")) (b! "p.asm") (b! "p.bin")
      [0xEA, 0xEA, 0xE8, 0xC8, 0xEA, 0, 0, 0, 0, 0, 0, 0, 0, 0, 0, 0, 0x4C, 0x13, 0, 0xEA] 9 1 :=
  ⟨demo_succeeds (by decide +kernel), demo_succeeds (by decide +kernel)⟩

/-! A concrete case of the hypotheses: after ` NOP` a forward reference is recorded in sequence. -/
example : ∃ st, Reached (b! "p.asm") [b! " NOP\n"] st ∧ (st.out.pos = st.pc ∧
    (match lineStep (b! " JMP FWD\n") st with
      | .ok (.continue st') => decide (st'.unres.curr = st.unres.curr + 1 ∧ st'.pc = 4)
      | _ => false) = true) :=
  reach_eval (fun st => st.out.pos = st.pc ∧
    (match lineStep (b! " JMP FWD\n") st with
      | .ok (.continue st') => decide (st'.unres.curr = st.unres.curr + 1 ∧ st'.pc = 4)
      | _ => false) = true) (by decide) (by decide +kernel)

end Gaia

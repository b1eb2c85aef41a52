import Verif.Props.C55_AnyText
import Verif.Props.C70_Edit

/-!
C55 for every text whose origin lines do not go back: each byte that a killed run leaves is 0 or what the complete run leaves there, whether the
run would have succeeded or not.
-/
namespace Gaia.Spec
open Gaia Reference

/-- No origin line that is reached goes back: it sets an address not below the one reached before it. -/
def OriginsAscend (fn : Str) (src : List Byte) : Prop :=
  ∀ pre p post v s, pieces src = pre ++ p :: post → stmtOf p = some (.org v) → runPieces fn pre .init = .ok s → s.pc ≤ v

end Gaia.Spec

namespace Gaia
open Spec Spec.Reference

namespace Left

/-- Every byte ever written is 0 or the one that stands there now. -/
def Settled (W : List Chunk) : Prop := ∀ c ∈ W, ∀ i b, c.at i = some b → b = 0 ∨ byteAt W i = b

theorem Settled.append {W : List Chunk} (h : Settled W) {c : Chunk} (hc : ∀ i b, c.at i = some b → byteAt W i = 0 ∨ byteAt W i = b) :
    Settled (W ++ [c]) := by
  intro d hd i b hb
  rw [byteAt_append]
  rcases List.mem_append.1 hd with hd | hd
  · rcases h d hd i b hb with h0 | h0
    · exact .inl h0
    · cases hci : c.at i with
      | none => exact .inr h0
      | some b' =>
        rcases hc i b' hci with h1 | h1
        · exact .inl (by rw [← h0, h1])
        · exact .inr (by rw [Option.getD_some, ← h1, h0])
  · cases List.mem_singleton.1 hd
    rw [hb]
    exact .inr rfl

theorem at_range {c : Chunk} {i : Nat} {b : Byte} (h : c.at i = some b) : c.1 ≤ i ∧ i < c.1 + c.2.length := by
  by_contra hn
  rw [Chunk.at_none (by omega)] at h
  cases h

theorem byteAt_free {W : List Chunk} {n i : Nat} (h : ∀ c ∈ W, c.1 + c.2.length ≤ n) (hi : n ≤ i) : byteAt W i = 0 :=
  byteAt_beyond ((imageEnd_le h).trans hi)

/-- The state of a run whose origins ascend. -/
structure Good (s : State) : Prop where
  settled : Settled s.writes
  fits : ∀ c ∈ s.writes, c.1 + c.2.length ≤ s.filePos
  le : s.filePos ≤ s.pc
  refs : ∀ r ∈ s.pending, r.addr + Edit.refLen r ≤ s.filePos ∧ byteAt s.writes r.addr = r.opcode ∧
    ∀ k, 0 < k → k < Edit.refLen r → byteAt s.writes (r.addr + k) = 0
  apart : s.pending.Pairwise fun r r' => r.addr + Edit.refLen r ≤ r'.addr

theorem Good.write {s : State} (h : Good s) (bs : List Byte) : Good (s.write bs) := by
  refine ⟨h.settled.append ?_, ?_, le_rfl, ?_, h.apart⟩
  · intro i b hb
    exact .inl (byteAt_free h.fits (h.le.trans (at_range hb).1))
  · intro c hc
    rcases List.mem_append.1 hc with hc | hc
    · have := h.fits c hc; have := h.le; simp only [State.write]; omega
    · cases List.mem_singleton.1 hc; exact le_rfl
  · intro r hr
    obtain ⟨h1, h2, h3⟩ := h.refs r hr
    have hle := h.le
    have out : ∀ i, i < s.filePos → byteAt (s.writes ++ [(s.pc, bs)]) i = byteAt s.writes i := by
      intro i hi
      rw [byteAt_append, Chunk.at_none (by dsimp only; omega)]
      rfl
    have h0 : 0 < Edit.refLen r := by unfold Edit.refLen; split_ifs <;> omega
    simp only [State.write]
    refine ⟨by omega, by rw [out _ (by omega), h2], fun k k1 k2 => by rw [out _ (by omega), h3 k k1 k2]⟩

theorem Good.forward {s : State} (h : Good s) {r : Pending} (ha : r.addr = s.pc) :
    Good ({ s with writes := s.writes ++ [(s.filePos, List.replicate (Edit.refLen r) 0)], pending := s.pending ++ [r] }.write
      (r.opcode :: List.replicate (Edit.refLen r - 1) 0)) := by
  have h0 : 0 < Edit.refLen r := by unfold Edit.refLen; split_ifs <;> omega
  have hle := h.le
  obtain ⟨n, hn⟩ : ∃ n, Edit.refLen r = n + 1 := ⟨Edit.refLen r - 1, by omega⟩
  have zero : ∀ i, s.filePos ≤ i → byteAt (s.writes ++ [(s.filePos, List.replicate (Edit.refLen r) 0)]) i = 0 := by
    intro i hi
    rw [byteAt_append, byteAt_free h.fits hi]
    rcases zeros_at s.filePos (Edit.refLen r) i with h | h <;> rw [h] <;> rfl
  have low : ∀ i, i < s.filePos → byteAt (s.writes ++ [(s.filePos, List.replicate (Edit.refLen r) 0)]) i = byteAt s.writes i := by
    intro i hi
    rw [byteAt_append, Chunk.at_none (by dsimp only; omega)]
    rfl
  have s1 : Settled (s.writes ++ [(s.filePos, List.replicate (Edit.refLen r) 0)]) := by
    refine h.settled.append fun i b hb => .inl (byteAt_free h.fits (at_range hb).1)
  have s2 : Settled (s.writes ++ [(s.filePos, List.replicate (Edit.refLen r) 0)] ++ [(s.pc, r.opcode :: List.replicate (Edit.refLen r - 1) 0)]) :=
    s1.append fun i b hb => .inl (zero i (hle.trans (at_range hb).1))
  refine ⟨s2, ?_, le_rfl, ?_, ?_⟩
  · intro c hc
    simp only [State.write, List.mem_append, List.mem_singleton] at hc ⊢
    simp only [List.length_cons, List.length_replicate]
    rcases hc with (hc | rfl) | rfl
    · have := h.fits c hc; omega
    · simp only [List.length_replicate]; omega
    · simp only [List.length_cons, List.length_replicate]; omega
  · intro q hq
    simp only [State.write, List.mem_append, List.mem_singleton] at hq ⊢
    simp only [List.length_cons, List.length_replicate]
    rcases hq with hq | rfl
    · obtain ⟨h1, h2, h3⟩ := h.refs q hq
      have h0' : 0 < Edit.refLen q := by unfold Edit.refLen; split_ifs <;> omega
      have out : ∀ i, i < s.filePos → byteAt (s.writes ++ [(s.filePos, List.replicate (Edit.refLen r) 0)] ++
          [(s.pc, r.opcode :: List.replicate (Edit.refLen r - 1) 0)]) i = byteAt s.writes i := by
        intro i hi
        rw [byteAt_append, Chunk.at_none (by dsimp only; omega), ← low i hi]
        rfl
      refine ⟨by omega, by rw [out _ (by omega), h2], fun k k1 k2 => by rw [out _ (by omega), h3 k k1 k2]⟩
    · refine ⟨by omega, ?_, fun k k1 k2 => ?_⟩
      · rw [byteAt_append]
        unfold Chunk.at
        simp [ha]
      · rw [byteAt_append]
        unfold Chunk.at
        rw [if_pos (by dsimp only; omega)]
        dsimp only
        rw [ha, Nat.add_sub_cancel_left]
        obtain ⟨k, rfl⟩ : ∃ j, k = j + 1 := ⟨k - 1, by omega⟩
        rw [List.getElem?_cons_succ, List.getElem?_replicate, if_pos (by omega)]
        rfl
  · refine List.pairwise_append.2 ⟨h.apart, List.pairwise_singleton _ _, ?_⟩
    intro q hq q' hq'
    cases List.mem_singleton.1 hq'
    have := (h.refs q hq).1
    omega

theorem Good.instruction {s u : State} (h : Good s) {text : Str} {ls : List (Nat × Lexeme)} {m : Mnemonic} {a : Arg} {odd : Bool}
    (hd : instruction text ls m a odd s = .ok u) : Good u := by
  unfold Reference.instruction at hd
  cases h1 : sizingValue s.env m a.opd with
  | none => rw [h1] at hd; cases hd
  | some v =>
    rw [h1] at hd
    dsimp only at hd
    cases h2 : unknown s.env a.opd with
    | none =>
      rw [h2] at hd
      dsimp only at hd
      cases h3 : (if odd then none else modeFor m a v) with
      | none => rw [h3] at hd; cases hd
      | some md =>
        rw [h3] at hd
        dsimp only at hd
        cases h4 : encodeLow s.env ⟨s.pc, m, md, a.opd⟩ with
        | none => rw [h4] at hd; cases hd
        | some bs => rw [h4] at hd; cases hd; exact h.write bs
    | some l =>
      rw [h2] at hd
      dsimp only at hd
      cases h3 : (if odd then none else forwardCode m a) with
      | none => rw [h3] at hd; cases hd
      | some q =>
        rw [h3] at hd
        have hf : forwardCode m a = some q := by
          cases odd with
          | true => cases h3
          | false => exact h3
        have hbj : (Spec.isBranch m || Spec.isJump m) = true := by
          unfold unknown at h2
          split at h2
          · rename_i l' ho
            split_ifs at h2 with h5
            rw [ho] at h1
            unfold sizingValue at h1
            simp only at h1
            cases h4 : s.env.lookup l' with
            | some v => rw [h4] at h5; exact (h5 rfl).elim
            | none =>
              rw [h4] at h1
              simp only at h1
              split_ifs at h1 with h6
              exact h6
          · cases h2
        have hlen := Reloc.forward_len hbj hf
        cases hd
        have := h.forward (r := ⟨s.line, text, (nameOffsets ls.tail).head?.getD 0, l, s.pc, m, q.1⟩) rfl
        unfold Edit.refLen at this
        rw [← hlen] at this
        exact this

theorem Good.define {s u : State} (h : Good s) {ls : List (Nat × Lexeme)} {l : Str} {v : Nat} (hd : defineLabel ls l v s = .ok u) : Good u ∧ u.pc = s.pc := by
  unfold defineLabel at hd
  split_ifs at hd
  cases hd
  exact ⟨⟨h.settled, h.fits, h.le, h.refs, h.apart⟩, rfl⟩

theorem Good.execute {s u : State} (h : Good s) {text : Str} {ls : List (Nat × Lexeme)} {odd : Bool} {st : Stmt}
    (hd : execute text ls odd s st = .ok u) (ho : ∀ v, st = .org v → s.pc ≤ v) : Good u := by
  unfold Reference.execute at hd
  split at hd
  · cases hd; exact h
  · cases hd; exact h
  · exact (h.define hd).1
  · exact (h.define hd).1
  · rename_i v
    cases hd
    exact ⟨h.settled, h.fits, h.le.trans (ho v rfl), h.refs, h.apart⟩
  · exact h.instruction hd
  · rename_i l m a
    cases h1 : defineLabel ls l s.pc s with
    | error f => rw [h1] at hd; cases hd
    | ok v => rw [h1] at hd; exact (h.define h1).1.instruction hd

theorem Good.runPieces {fn : Str} : ∀ {P : List (List Byte)} {s : State}, Good s →
    (∀ pre p post v u, P = pre ++ p :: post → stmtOf p = some (.org v) → Reference.runPieces fn pre s = .ok u → u.pc ≤ v) →
    match Reference.runPieces fn P s with
    | .ok u => Good u
    | .error f => Settled f.2
  | [], s, h, _ => h
  | p :: P, s, h, ho => by
    rw [Org.runPieces_cons]
    cases h1 : lexemesOf p with
    | error f => cases f <;> exact h.settled
    | ok ls =>
      dsimp only
      cases h2 : statement (ls.map (·.2)) with
      | error f => exact h.settled
      | ok x =>
        obtain ⟨st, odd⟩ := x
        dsimp only
        cases h3 : Reference.execute (p.takeWhile (· != 0)) ls odd s st with
        | error f => exact h.settled
        | ok t =>
          have ht := h.execute h3 (fun v hv => ho [] p P v s rfl (by
            unfold stmtOf
            rw [h1]
            simp only [h2, hv]) rfl)
          dsimp only
          split_ifs with hst
          · exact ht
          · refine Good.runPieces (s := { t with line := t.line + 1 }) ⟨ht.settled, ht.fits, ht.le, ht.refs, ht.apart⟩ ?_
            intro pre q post v u e hq hu
            refine ho (p :: pre) q post v u (by rw [e]; rfl) hq ?_
            rw [Org.runPieces_cons, h1]
            simp only [h2, h3, if_neg hst]
            exact hu

/-- The references, written one after the other. -/
theorem resolve_settled {fn : Str} {env : Env} : ∀ {P : List Pending} {W : List Chunk}, Settled W →
    (∀ r ∈ P, byteAt W r.addr = r.opcode ∧ ∀ k, 0 < k → k < Edit.refLen r → byteAt W (r.addr + k) = 0) →
    (P.Pairwise fun r r' => r.addr + Edit.refLen r ≤ r'.addr) →
    match resolve fn env P W with
    | .ok V => Settled V
    | .error f => Settled f.2
  | [], W, h, _, _ => h
  | r :: P, W, h, hr, hp => by
    simp only [resolve]
    cases env.lookup r.label with
    | none => exact h
    | some v =>
      dsimp only
      obtain ⟨h1, h2⟩ := hr r (by simp)
      have key : ∀ fs : List Byte, fs.length + 1 = Edit.refLen r →
          match resolve fn env P (W ++ [(r.addr, r.opcode :: fs)]) with
          | .ok V => Settled V
          | .error f => Settled f.2 := by
        intro fs hl
        refine resolve_settled (h.append ?_) ?_ (List.pairwise_cons.1 hp).2
        · intro i b hb
          obtain ⟨g1, g2⟩ := at_range hb
          simp only [List.length_cons] at g1 g2
          by_cases he : i = r.addr
          · subst he
            unfold Chunk.at at hb
            simp at hb
            exact .inr (by rw [h1, hb])
          · have := h2 (i - r.addr) (by omega) (by omega)
            rw [show r.addr + (i - r.addr) = i by omega] at this
            exact .inl this
        · intro q hq
          have hap := (List.pairwise_cons.1 hp).1 q hq
          obtain ⟨k1, k2⟩ := hr q (by simp [hq])
          have out : ∀ i, q.addr ≤ i → byteAt (W ++ [(r.addr, r.opcode :: fs)]) i = byteAt W i := by
            intro i hi
            rw [byteAt_append, Chunk.at_none (by simp only [List.length_cons]; omega)]
            rfl
          exact ⟨by rw [out _ le_rfl, k1], fun k j1 j2 => by rw [out _ (by omega), k2 k j1 j2]⟩
      split_ifs with hb
      · cases branchByte r.addr v with
        | none => exact h
        | some b => exact key [b] (by simp [Edit.refLen, hb])
      · exact key [_, _] (by simp [Edit.refLen, hb])

theorem allWrites_settled {fn : Str} {src : List Byte} (ho : OriginsAscend fn src) : Settled (allWrites fn src) := by
  have h0 : Good .init := ⟨fun c hc => by simp [State.init] at hc, fun c hc => by simp [State.init] at hc, le_rfl,
    fun r hr => by simp [State.init] at hr, by simp [State.init]⟩
  have h1 := h0.runPieces ho
  unfold allWrites
  cases hr : Reference.runPieces fn (pieces src) .init with
  | error f => rw [hr] at h1; exact h1
  | ok s =>
    rw [hr] at h1
    have h2 := resolve_settled (fn := fn) (env := s.env) h1.settled (fun r hr => (h1.refs r hr).2) h1.apart
    dsimp only
    cases hq : resolve fn s.env s.pending s.writes with
    | error f => rw [hq] at h2; exact h2
    | ok W => rw [hq] at h2; exact h2

end Left

/-- **C55, the bytes left, any text.** If no origin line goes back, then whatever the moment at which a run is killed, and whether or not it would
have succeeded, each byte it leaves is 0 or the byte that the complete run leaves there, and the file is not longer than after the complete
run. -/
theorem C55_bytes_any {w : World} {srcName outName : Str} {src : List Byte} (hw : Setup w srcName outName src) (hs : Sized src)
    (ho : OriginsAscend srcName src) {left : List Byte} (hl : Interrupted srcName src left) :
    ∃ status text bin, gaia srcName outName w = .exited ⟨status, text,
        { w with files := fun n => if n = outName then some bin else w.files n }⟩ ∧
      left.length ≤ bin.length ∧ ∀ (i : Nat) (b : Byte), left[i]? = some b → b = 0 ∨ bin[i]? = some b := by
  obtain ⟨status, text, h⟩ := C55_complete hw hs
  refine ⟨status, text, _, h, C55_length_any hs hl, fun i b hb => ?_⟩
  have hlen := C55_length_any hs hl
  obtain ⟨m, rfl⟩ := C55_left_any hs hl
  have hi := (List.getElem?_eq_some_iff.1 hb).1
  rcases written_get hb with h | h
  · exact .inl h
  · obtain ⟨c, hc, hcx⟩ := singles_mem (List.mem_of_mem_take h)
    rcases Left.allWrites_settled ho c hc i b hcx with h | h
    · exact .inl h
    · rw [image_length] at hlen
      exact .inr (by rw [image_get (by omega), h])

/-! ### Cases -/

theorem originsAscend_eval {fn : Str} {src : List Byte} (h : ∀ k < (pieces src).length,
    (match (pieces src)[k]?.bind stmtOf, runPieces fn ((pieces src).take k) .init with
    | some (.org v), .ok s => decide (s.pc ≤ v)
    | _, _ => true) = true) : OriginsAscend fn src := by
  intro pre p post v s e hp hr
  have := h pre.length (by rw [e]; simp)
  rw [e] at this
  simp only [List.getElem?_append_right (Nat.le_refl _), Nat.sub_self, List.getElem?_cons_zero, Option.bind_some, hp,
    List.take_left, hr, decide_eq_true_eq] at this
  exact this

/-- Two sections, a branch forward, and a label that is never defined: the run fails, and was killed in the last instruction it wrote. -/
def killedSrc : List Byte := b! " BNE E\nE LDA #$11\n .ORG $8\n JMP F\n RTS\n"

example : OriginsAscend (b! "p.asm") killedSrc ∧ Interrupted (b! "p.asm") killedSrc [0xD0, 0, 0xA9, 0x11, 0, 0, 0, 0, 0x4C, 0] ∧
    ∃ status text bin, gaia (b! "p.asm") (b! "p.bin") (demo killedSrc) = .exited ⟨status, text,
        { demo killedSrc with files := fun n => if n = b! "p.bin" then some bin else (demo killedSrc).files n }⟩ ∧
      10 ≤ bin.length ∧ ∀ (i : Nat) (b : Byte), ([0xD0, 0, 0xA9, 0x11, 0, 0, 0, 0, 0x4C, 0] : List Byte)[i]? = some b → b = 0 ∨ bin[i]? = some b := by
  have ho : OriginsAscend (b! "p.asm") killedSrc := originsAscend_eval (by decide +kernel)
  have hl : Interrupted (b! "p.asm") killedSrc [0xD0, 0, 0xA9, 0x11, 0, 0, 0, 0, 0x4C, 0] :=
    crash_eval (ops := [.putc 0, .putc 0, .seek 0, .putc 0xD0, .putc 0, .seek 2, .putc 0xA9, .putc 0x11, .putc 0, .putc 0, .putc 0, .seek 8,
      .putc 0x4C, .putc 0, .putc 0, .seek 11, .putc 0x60, .seek 0, .putc 0xD0, .putc 0]) 14 (by decide +kernel) (by decide +kernel)
  exact ⟨ho, hl, C55_bytes_any (demo_setup _) (by unfold Sized; decide) ho hl⟩

/-- If an origin line goes back this is not so: killed after the second instruction, the run leaves 0x11, where the complete one leaves 0x22. -/
theorem C55_bytes_back : Interrupted (b! "p.asm") (b! " LDA #$11\n .ORG $0\n LDA #$22\n") [0xA9, 0x11] ∧
    Succeeds (demo (b! " LDA #$11\n .ORG $0\n LDA #$22\n")) (b! "p.asm") (b! "p.bin") [0xA9, 0x22] 4 0 :=
  ⟨crash_eval (ops := [.seek 0, .putc 0xA9, .putc 0x11, .seek 0, .putc 0xA9, .putc 0x22]) 3 (by decide +kernel) (by decide +kernel),
   demo_succeeds (by decide +kernel)⟩

end Gaia

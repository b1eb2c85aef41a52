import Verif.Proofs.Relocate
import Verif.Props.C57_Reference

/-! C58: code can be put anywhere. -/
set_option maxRecDepth 20000
namespace Gaia
open Spec Spec.Reference

namespace Reloc

theorem cut_line (body : List Byte) : ∀ (line : List Byte) (room : Nat), cut room line = [line] → line.getLast? = some 10 →
    cut room (line ++ body) = line :: cut 127 body
  | [], _, h, _ => by cases h
  | c :: s, room, h, hl => by
    have e : ∀ s, cut room (c :: s) = if c = 10 ∨ room ≤ 1 then [c] :: cut 127 s else
        match cut (room - 1) s with
        | [] => [[c]]
        | l :: ls => (c :: l) :: ls := fun _ => rfl
    rw [List.cons_append, e]
    rw [e] at h
    by_cases hc : c = 10 ∨ room ≤ 1
    · rw [if_pos hc] at h ⊢
      obtain ⟨h1, h2⟩ := List.cons.inj h
      cases h1
      rfl
    · rw [if_neg hc] at h ⊢
      cases s with
      | nil => simp only [List.getLast?_singleton, Option.some.injEq] at hl; exact absurd (.inl hl) hc
      | cons d s =>
        have hcut : cut (room - 1) (d :: s) = [d :: s] := by
          generalize cut (room - 1) (d :: s) = r at h
          cases r with
          | nil => cases h
          | cons a as =>
            obtain ⟨h1, h2⟩ := List.cons.inj h
            cases h1; cases h2; rfl
        rw [cut_line body (d :: s) (room - 1) hcut (by simpa using hl)]

/-- Behind a line that sets the origin. -/
theorem origin_step {fn : Str} {body line : List Byte} {x : Nat} (h : SetsOrigin line x) :
    runPieces fn (pieces (line ++ body)) .init = runPieces fn (pieces body) (inst x ⟨0, 2, [], false, [], []⟩) := by
  obtain ⟨h1, h2, h3⟩ := h
  have e : pieces (line ++ body) = line :: pieces body := cut_line body line 127 h1 h2
  rw [e]
  unfold stmtOf at h3
  cases h4 : lexemesOf line with
  | error _ => simp only [h4] at h3; cases h3
  | ok ls =>
    simp only [h4] at h3
    cases h5 : statement (ls.map (·.2)) with
    | error _ => simp only [h5] at h3; cases h3
    | ok q =>
      obtain ⟨st, odd⟩ := q
      simp only [h5] at h3
      cases h3
      conv_lhs => unfold runPieces
      simp only [h4, h5, execute]
      rfl

theorem assemble {body : List Byte} (fn : Str) {abs : Prop} (hr : Relocatable body) (ha : ¬ abs → PositionIndependent body) :
    (∃ t, ∀ x, 256 ≤ x → ∃ W, runPieces fn (pieces body) (inst x ⟨0, 2, [], false, [], []⟩) = .error (t, W) ∨
      ∃ s, runPieces fn (pieces body) (inst x ⟨0, 2, [], false, [], []⟩) = .ok s ∧ resolve fn s.env s.pending s.writes = .error (t, W)) ∨
    (∃ code : List Cell, ∃ n, (¬ abs → ∀ c ∈ code, ∃ b, c = .fixed b) ∧ ∀ x, 256 ≤ x → ∃ s W,
      runPieces fn (pieces body) (inst x ⟨0, 2, [], false, [], []⟩) = .ok s ∧ resolve fn s.env s.pending s.writes = .ok W ∧
      image W = placedAt x (code.map (Cell.at x)) ∧ s.total = code.length ∧ s.env.length = n) := by
  let con : Str → Prop := fun l => ∃ st ∈ stmtsOf body, st.constant = some l
  let adr : Str → Prop := fun l => ∃ st ∈ stmtsOf body, st.addressLabel = some l
  have h0 : Ok con adr abs ⟨0, 2, [], false, [], []⟩ := by
    refine { start := fun _ => ⟨rfl, rfl⟩, last := (by intro h; cases h), within := ?_, zeros := ?_, fixed := ?_, branches := ?_, jumps := ?_,
             fits := ?_, cons := ?_, adrs := ?_ } <;> simp
  have hfine : ∀ st ∈ (pieces body).filterMap stmtOf, Fine con adr abs st := by
    intro st hm
    refine { org := hr.1 st hm, defs := fun l h => ⟨st, hm, h⟩, labels := fun l h => ⟨st, hm, h⟩, branch := ?_, used := ?_ }
    · rintro l h ⟨st', hm', h'⟩
      exact hr.2 st hm l h st' hm' h'
    · rintro hna l h ⟨st', hm', h'⟩
      exact ha hna st hm l h st' hm' h'
  rcases runPieces_step fn (pieces body) _ h0 hfine with ⟨t, ht⟩ | ⟨σ, hσ, ht⟩
  · refine .inl ⟨t, fun x hx => ?_⟩
    obtain ⟨W, hW⟩ := ht x hx
    exact ⟨W, .inl hW⟩
  · rcases resolve_step (abs := abs) fn hσ.cons hσ.adrs σ.pending σ.writes hσ.branches hσ.jumps hσ.fits hσ.wrote with ⟨t, hr⟩ | ⟨W, hW, hr⟩
    · refine .inl ⟨t, fun x hx => ?_⟩
      obtain ⟨W, hW⟩ := hr x hx
      exact ⟨W, .inr ⟨_, ht x hx, hW⟩⟩
    · refine .inr ⟨codeOf σ.off W, σ.env.length, codeOf_fixed hW, fun x hx => ⟨_, _, ht x hx, hr x hx, image_eq hW hx, ?_, ?_⟩⟩
      · simp [inst, codeOf]
      · simp [inst]

end Reloc

/-- **C58.** Code can be put anywhere. Let `body` be any text whatsoever in which no line sets the origin and no branch leads
to a constant, and put before it any line that sets the origin to some `x`, not on page zero. Then there are two cases, and
`x` does not matter for which it is. Either gaia always fails, and always prints the same. Or it always succeeds, with the same
number of symbols; the output is `x` zeros and then always the same bytes, but for the low and high bytes of addresses, which
move with the origin. -/
theorem C58_relocatable {body : List Byte} (hr : Relocatable body) (hs : (pieces body).length + 1 < maxSymbols) (srcName outName : Str) :
    (∃ text, ∀ x line w, 256 ≤ x → SetsOrigin line x → Setup w srcName outName (line ++ body) →
      FailsPrinting w srcName outName text) ∨
    (∃ code : List Cell, ∃ symbols, ∀ x line w, 256 ≤ x → SetsOrigin line x → Setup w srcName outName (line ++ body) →
      Succeeds w srcName outName (placedAt x (code.map (Cell.at x))) code.length symbols) := by
  have hsz : ∀ {x line}, SetsOrigin line x → Sized (line ++ body) := by
    intro x line h
    unfold Sized
    rw [show pieces (line ++ body) = line :: pieces body from Reloc.cut_line body line 127 h.1 h.2.1]
    exact hs
  rcases Reloc.assemble (abs := True) srcName hr (by simp) with ⟨t, ht⟩ | ⟨code, n, _, ht⟩
  · refine .inl ⟨t, fun x line w hx hl hw => ?_⟩
    obtain ⟨W, hW⟩ := ht x hx
    rw [← Reloc.origin_step hl] at hW
    exact ⟨_, (C57_failure hw (hsz hl) t (image W)).2 ⟨W, rfl, hW⟩⟩
  · refine .inr ⟨code, n, fun x line w hx hl hw => ?_⟩
    obtain ⟨s, W, h1, h2, h3, h4, h5⟩ := ht x hx
    rw [← Reloc.origin_step hl] at h1
    exact (C57_success hw (hsz hl) _ _ _).2 ⟨s, W, h1, h2, h3.symm, h4.symm, h5.symm⟩

/-- **C58, position-independent code.** If moreover only branches use the names of addresses, then the code is the same bytes at
every origin. -/
theorem C58_position_independent {body : List Byte} (hr : Relocatable body) (hp : PositionIndependent body)
    (hs : (pieces body).length + 1 < maxSymbols) (srcName outName : Str) :
    (∃ text, ∀ x line w, 256 ≤ x → SetsOrigin line x → Setup w srcName outName (line ++ body) →
      FailsPrinting w srcName outName text) ∨
    (∃ code : List Byte, ∃ symbols, ∀ x line w, 256 ≤ x → SetsOrigin line x → Setup w srcName outName (line ++ body) →
      Succeeds w srcName outName (placedAt x code) code.length symbols) := by
  have hsz : ∀ {x line}, SetsOrigin line x → Sized (line ++ body) := by
    intro x line h
    unfold Sized
    rw [show pieces (line ++ body) = line :: pieces body from Reloc.cut_line body line 127 h.1 h.2.1]
    exact hs
  rcases Reloc.assemble (abs := False) srcName hr (fun _ => hp) with ⟨t, ht⟩ | ⟨code, n, hc, ht⟩
  · refine .inl ⟨t, fun x line w hx hl hw => ?_⟩
    obtain ⟨W, hW⟩ := ht x hx
    rw [← Reloc.origin_step hl] at hW
    exact ⟨_, (C57_failure hw (hsz hl) t (image W)).2 ⟨W, rfl, hW⟩⟩
  · refine .inr ⟨code.map (Cell.at 0), n, fun x line w hx hl hw => ?_⟩
    obtain ⟨s, W, h1, h2, h3, h4, h5⟩ := ht x hx
    rw [← Reloc.origin_step hl] at h1
    have e : code.map (Cell.at x) = code.map (Cell.at 0) := by
      apply List.map_congr_left
      intro c hcm
      obtain ⟨b, rfl⟩ := hc (by simp) c hcm
      rfl
    rw [e] at h3
    exact (C57_success hw (hsz hl) _ _ _).2 ⟨s, W, h1, h2, h3.symm, by simpa using h4.symm, h5.symm⟩

/-! Concrete cases. -/

/-- Calls, jumps and branches in both directions, a constant, an instruction behind another's label. -/
def movable : List Byte :=
  b! "P = $80\nINIT: LDX #$05\nLOOP: STA P,X\n DEX\n BNE LOOP\n BEQ OUT ; ahead\n JSR INIT\n JMP OUT\n LDA INIT,X\nOUT: JMP (P)\n"

/-- A line that sets the origin. -/
theorem sets_origin_example : SetsOrigin (b! "*=$C000\n") 0xC000 ∧ SetsOrigin (b! "\t* = $1FF ; here\n") 0x1FF ∧ SetsOrigin (b! "*=256\n") 256 := by
  unfold SetsOrigin
  decide +kernel

example : Relocatable movable := by decide +kernel
example : ¬ PositionIndependent movable := by decide +kernel

/-- The code of `movable`: the calls and jumps hold addresses that move, the branches do not. -/
def movableCode : List Cell :=
  [.fixed 0xA2, .fixed 5, .fixed 0x95, .fixed 0x80, .fixed 0xCA, .fixed 0xD0, .fixed 0xFB, .fixed 0xF0, .fixed 9, .fixed 0x20, .low 0, .high 0,
   .fixed 0x4C, .low 18, .high 18, .fixed 0xBD, .low 0, .high 0, .fixed 0x6C, .fixed 0x80, .fixed 0]

/-- gaia on `movable` at two origins. -/
theorem C58_example :
    Reference.run (b! "p.asm") (b! "*=256\n" ++ movable) = ⟨0, b! "Assembly successful.\n21 (0x0015) bytes assembled.\n4 symbols.\n",
      placedAt 256 (movableCode.map (Cell.at 256))⟩ ∧
    Reference.run (b! "p.asm") (b! "\t* = $1FF ; here\n" ++ movable) = ⟨0, b! "Assembly successful.\n21 (0x0015) bytes assembled.\n4 symbols.\n",
      placedAt 0x1FF (movableCode.map (Cell.at 0x1FF))⟩ ∧ movableCode.map (Cell.at 256) ≠ movableCode.map (Cell.at 0x1FF) := by
  decide +kernel

/-- The first case of `C58_relocatable` occurs: an undefined label. So does the second (`C58_example`). -/
example : Relocatable (b! " BNE NOWHERE\n") ∧ (Reference.run (b! "p.asm") (b! "*=256\n" ++ b! " BNE NOWHERE\n")).status = 1 := by decide +kernel

example : Relocatable (b! "L: LDA #1\n BNE L\n BEQ M\nM: RTS\n") ∧ PositionIndependent (b! "L: LDA #1\n BNE L\n BEQ M\nM: RTS\n") ∧
    Reference.run (b! "p.asm") (b! "*=256\n" ++ b! "L: LDA #1\n BNE L\n BEQ M\nM: RTS\n") =
      ⟨0, b! "Assembly successful.\n7 (0x0007) bytes assembled.\n2 symbols.\n", placedAt 256 [0xA9, 1, 0xD0, 0xFC, 0xF0, 0, 0x60]⟩ := by
  decide +kernel

/-- None of the three conditions can be dropped. An origin on page zero makes shorter code; a branch to a constant is nearer or
farther; a second origin fixes what follows it. -/
theorem C58_conditions :
    (Relocatable (b! "L: LDA L\n") ∧ (Reference.run [] (b! "*=$10\n" ++ b! "L: LDA L\n")).file.length = 0x10 + 2 ∧
      (Reference.run [] (b! "*=$110\n" ++ b! "L: LDA L\n")).file.length = 0x110 + 3) ∧
    (¬ Relocatable (b! "V =$110\n BNE V\n") ∧ (Reference.run [] (b! "*=$100\n" ++ b! "V =$110\n BNE V\n")).status = 0 ∧
      (Reference.run [] (b! "*=$200\n" ++ b! "V =$110\n BNE V\n")).status = 1) ∧
    (¬ Relocatable (b! "*=$120\n RTS\n") ∧ Reference.run [] (b! "*=$100\n" ++ b! "*=$120\n RTS\n") =
      Reference.run [] (b! "*=$110\n" ++ b! "*=$120\n RTS\n")) := by
  decide +kernel

end Gaia

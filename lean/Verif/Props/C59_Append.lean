import Verif.Proofs.Append
import Verif.Props.C58_Relocate

/-! C59: appending source text. -/
set_option maxRecDepth 20000
namespace Gaia
open Spec Spec.Reference

namespace App

theorem pieces_append {a : List Byte} (h : WholeLines a) (b : List Byte) : pieces (a ++ b) = pieces a ++ pieces b := by
  rcases h with rfl | ⟨q, rfl⟩
  · rfl
  · rw [pieces_eq, pieces_eq, pieces_eq, List.append_assoc]
    exact chunks_append _ q b (Nat.le_refl _)

theorem stop_or {fn : Str} {P Q : List (List Byte)} {s s' s'' : State} (h : runPieces fn P s = .ok s') (h' : runPieces fn (P ++ Q) s = .ok s'') :
    s'' = s' ∨ runPieces fn Q s' = .ok s'' := by
  rcases runPieces_append Q h with e | e
  · rw [e] at h'; cases h'; exact .inl rfl
  · rw [e] at h'; exact .inr h'

end App

/-- **C59.** Appended source text appends code. Let `a` be any complete lines that set the origin at most in the first of them,
and `b` any text that does not set it. If gaia assembles `a`, to at least one byte, then it either refuses `a` followed by `b`, or
assembles it to the same bytes followed by others; the two reports differ by the number of these. -/
theorem C59_append {a b : List Byte} (hwh : WholeLines a) (ha : OneOrigin a) (hb : OriginFree b) (hs : Sized (a ++ b)) {w w' : World}
    {srcName outName : Str} (hw : Setup w srcName outName a) (hw' : Setup w' srcName outName (a ++ b)) {binary : List Byte} {total symbols : Nat}
    (h : Succeeds w srcName outName binary total symbols) (hne : binary ≠ []) :
    (∃ text, FailsPrinting w' srcName outName text) ∨
    ∃ more symbols', Succeeds w' srcName outName (binary ++ more) (total + more.length) symbols' ∧ symbols ≤ symbols' := by
  have hsa : Sized a := sized_sublist (List.sublist_append_left a b) hs
  obtain ⟨s, W, h1, h2, rfl, rfl, rfl⟩ := (C57_success hw hsa _ _ _).1 h
  cases h3 : runPieces srcName (pieces (a ++ b)) .init with
  | error f => exact .inl ⟨f.1, _, (C57_failure hw' hs f.1 (image f.2)).2 ⟨f.2, rfl, .inl h3⟩⟩
  | ok s' =>
    cases h4 : resolve srcName s'.env s'.pending s'.writes with
    | error f => exact .inl ⟨f.1, _, (C57_failure hw' hs f.1 (image f.2)).2 ⟨f.2, rfl, .inr ⟨s', h3, h4⟩⟩⟩
    | ok V =>
      refine .inr ?_
      have key : ∃ more : List Byte, image V = image W ++ more ∧ s'.total = s.total + more.length ∧ s.env.length ≤ s'.env.length := by
        rw [App.pieces_append hwh] at h3
        rcases App.stop_or h1 h3 with rfl | hB
        · rw [h2] at h4
          cases h4
          exact ⟨[], by simp, by simp, le_rfl⟩
        · have hwhole : App.Whole s := (App.one_origin ha h1).1
          have hst := App.runPieces_steps (allow := false) hB (.inr hb)
          have hk := App.Steps.keeps hst
          obtain ⟨D, hD, hDm, hDr⟩ := App.resolve_more hk.env h2
          rcases hwhole.last with ⟨e1, e2, _⟩ | ⟨_, hpos, c, hc, hcn⟩
          · exfalso
            rw [e2, e1] at h2
            cases h2
            exact hne rfl
          · obtain ⟨_, hle, htot, ⟨W2, hW2, hW2b, hlast⟩, ⟨P2, hP2, hP2b⟩⟩ := App.Steps.after hst hpos
            rw [hP2, hDr, hW2] at h4
            obtain ⟨D2, rfl, hD2m, _⟩ := App.resolve_more (fun _ _ h => h) h4
            subst hD
            obtain ⟨more, hm1, hm2⟩ := App.image_prefix (W := s.writes) (W' := W2) (D := D) (D' := D2) (n := s.pc) (n' := s'.pc)
              (by
                intro c hc
                rcases List.mem_append.1 hc with hc | hc
                · exact hwhole.fits c hc
                · obtain ⟨r, hr, hr1, hr2⟩ := hDm c hc
                  have := hwhole.refs r hr
                  omega)
              ⟨c, hc, hcn⟩
              (by
                intro c hc
                rcases List.mem_append.1 hc with hc | hc
                · exact hW2b c hc
                · obtain ⟨r, hr, hr1, hr2⟩ := hD2m c hc
                  have := hP2b r hr
                  omega) hlast hle
            refine ⟨more, hm1, by omega, hk.count⟩
      obtain ⟨more, hm, ht, hc⟩ := key
      exact ⟨more, s'.env.length, (C57_success hw' hs _ _ _).2 ⟨s', V, h3, h4, hm.symm, ht.symm, rfl⟩, hc⟩

/-- **C59, failure.** Text appended does not repair a program, but for labels that were not defined: if gaia refuses `a` (any
complete lines) for any other reason, it refuses `a` followed by whatever text. -/
theorem C59_no_repair {a b : List Byte} (hwh : WholeLines a) (hs : Sized (a ++ b)) {w w' : World} {srcName outName : Str}
    (hw : Setup w srcName outName a) (hw' : Setup w' srcName outName (a ++ b)) {text : Str} (h : FailsPrinting w srcName outName text)
    (hm : ¬ ∃ line pos number, text = diag line .missingLabelDefinition pos srcName number) :
    ∃ text', FailsPrinting w' srcName outName text' := by
  have hsa : Sized a := sized_sublist (List.sublist_append_left a b) hs
  obtain ⟨out, h⟩ := h
  obtain ⟨W, rfl, h1⟩ := (C57_failure hw hsa text out).1 h
  have ok : ∀ t V, (runPieces srcName (pieces (a ++ b)) .init = .error (t, V) ∨ ∃ s, runPieces srcName (pieces (a ++ b)) .init = .ok s ∧
      resolve srcName s.env s.pending s.writes = .error (t, V)) → ∃ text', FailsPrinting w' srcName outName text' :=
    fun t V hf => ⟨t, _, (C57_failure hw' hs t (image V)).2 ⟨V, rfl, hf⟩⟩
  rw [App.pieces_append hwh] at ok
  rcases h1 with h1 | ⟨s, h1, h2⟩
  · exact ok _ _ (.inl (App.runPieces_error _ h1))
  · cases h3 : runPieces srcName (pieces a ++ pieces b) .init with
    | error f => exact ok f.1 f.2 (.inl h3)
    | ok s' =>
      rcases App.stop_or h1 h3 with rfl | hB
      · exact ok _ _ (.inr ⟨s', h3, h2⟩)
      · have hk := App.Steps.keeps (App.runPieces_steps (allow := true) hB (.inl rfl))
        rcases App.resolve_never hk.env h2 with ⟨r, _, hr⟩ | hr
        · exact absurd ⟨_, _, _, hr⟩ hm
        · obtain ⟨P2, hP2⟩ := hk.pending
          obtain ⟨V, hV⟩ := hr P2 s'.writes
          rw [← hP2] at hV
          exact ok _ _ (.inr ⟨s', h3, hV⟩)

/-! Concrete cases. -/

/-- A routine with an origin, a reference in each direction and a call; and a second one that uses the first. -/
def firstPart : List Byte := b! "*=$0300\nINIT: LDX #$05\nLOOP: DEX\n BNE LOOP\n BEQ OUT\n JSR INIT\nOUT: RTS\n"
def secondPart : List Byte := b! "AGAIN: JSR INIT\n JMP DONE\n BNE AGAIN\nDONE: RTS"

example : WholeLines firstPart ∧ OneOrigin firstPart ∧ ¬ OriginFree firstPart ∧ OriginFree secondPart ∧ Sized (firstPart ++ secondPart) :=
  ⟨.inr ⟨firstPart.dropLast, by decide +kernel⟩, by decide +kernel, by decide +kernel, by decide +kernel, by decide +kernel⟩

/-- Both are assembled; the second result continues the first. -/
theorem C59_example :
    Reference.run (b! "p.asm") firstPart = ⟨0, b! "Assembly successful.\n11 (0x000b) bytes assembled.\n3 symbols.\n",
      placedAt 0x300 [0xA2, 5, 0xCA, 0xD0, 0xFD, 0xF0, 3, 0x20, 0, 3, 0x60]⟩ ∧
    Reference.run (b! "p.asm") (firstPart ++ secondPart) = ⟨0, b! "Assembly successful.\n20 (0x0014) bytes assembled.\n5 symbols.\n",
      placedAt 0x300 [0xA2, 5, 0xCA, 0xD0, 0xFD, 0xF0, 3, 0x20, 0, 3, 0x60] ++ [0x20, 0, 3, 0x4C, 0x13, 3, 0xD0, 0xF8, 0x60]⟩ := by
  decide +kernel

/-- The conditions are needed: an origin in the text appended can change earlier bytes; a line that is not complete can get
another meaning. -/
theorem C59_conditions :
    ((Reference.run [] (b! " RTS\n")).file = [0x60] ∧ (Reference.run [] (b! " RTS\n" ++ b! "*=0\n NOP\n")).file = [0xEA]) ∧
    ((Reference.run [] (b! " LDA $1")).file = [0xA5, 1] ∧ (Reference.run [] (b! " LDA $1" ++ b! "0\n")).file = [0xA5, 0x10]) := by
  decide +kernel

/-- The exception in `C59_no_repair` is needed: a label defined in the text appended repairs the program. A branch that is too far
stays so. -/
theorem C59_repair :
    ((Reference.run [] (b! " BNE L\n")).status = 1 ∧ (Reference.run [] (b! " BNE L\n" ++ b! "L: RTS\n")).status = 0) ∧
    ((Reference.run [] (b! " BNE L\n*=$200\nL: RTS\n")).status = 1 ∧
      (Reference.run [] (b! " BNE L\n*=$200\nL: RTS\n")).text = diag (b! " BNE L\n") .tooBigOffset (some 5) [] 1) := by
  decide +kernel

end Gaia

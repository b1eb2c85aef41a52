import Verif.Proofs.Messages4
import Verif.Props.C04_CaseInsensitive
import Verif.Props.C05_Layout
import Verif.Props.C40_LiteralNotation
import Verif.Props.C47_Renaming

/-! C04, C05, C40, C47, C48: what is printed when the runs fail. -/
namespace Gaia
open Spec

/-- **C04, messages.** If gaia fails on two sources that differ only in the case of letters, the messages are for the same line, with the
same text and the arrow at the same column; they quote the line as it is written. -/
theorem C04_messages {w w' : World} {srcName outName : Str} {src src' : List Byte}
    (hw : Setup w srcName outName src) (hw' : Setup w' srcName outName src') (hs : Sized src)
    (h : List.Forall₂ Recased src src') :
    (∃ bin total symbols, Succeeds w srcName outName bin total symbols ∧ Succeeds w' srcName outName bin total symbols) ∨
    ∃ text text' bin, FailsLeaving w srcName outName text bin ∧ FailsLeaving w' srcName outName text' bin ∧
      RecasedComplaint srcName src src' text text' :=
  outcome_recased hw hw' hs h

/-- **C04, all output.** Whatever is printed for the one source is printed for the other, up to the case of letters. -/
theorem C04_output {w w' : World} {srcName outName : Str} {src src' : List Byte}
    (hw : Setup w srcName outName src) (hw' : Setup w' srcName outName src') (hs : Sized src)
    (h : List.Forall₂ Recased src src') : ∃ status text text' bin,
      gaia srcName outName w = .exited ⟨status, text, { w with files := fun n => if n = outName then some bin else w.files n }⟩ ∧
      gaia srcName outName w' = .exited ⟨status, text', { w' with files := fun n => if n = outName then some bin else w'.files n }⟩ ∧
      List.Forall₂ Recased text text' := by
  rcases C04_messages hw hw' hs h with ⟨bin, total, symbols, h1, h2⟩ | ⟨t, t', bin, h1, h2, h3⟩
  · exact ⟨0, _, _, bin, h1, h2, recased_refl _⟩
  · refine ⟨1, t, t', bin, h1, h2, ?_⟩
    rcases h3 with ⟨rfl, rfl⟩ | ⟨k, p, p', e, pos, _, _, k3, rfl, rfl⟩
    · exact .nil
    · exact diag_recased (shown_recased k3) _ _ _ _

/-- **C05, messages.** Sources that differ in layout only have the same outcome: if gaia fails, it complains about the same lexeme of the same
line, in the same words. -/
theorem C05_messages {w w' : World} {srcName outName : Str} {src src' : List Byte}
    (hw : Setup w srcName outName src) (hw' : Setup w' srcName outName src') (hs : Sized src)
    (hs' : Sized src') (hl : ∀ l ∈ lines src, l.length ≤ 126) (hl' : ∀ l ∈ lines src', l.length ≤ 126)
    (h : List.Forall₂ (fun l l' => LineAlike Eq l l' ∨ SameLexemes l l') (lines src) (lines src')) :
    SameOutcome srcName outName w w' src src' := by
  refine sameOutcome_kinds hw hw' hs hs' hl hl' h ?_
  rintro l l' (h | h)
  · exact kinds_alike (fun c c' h => by rw [h]; rfl) h
  · exact kinds_sameLexemes h

/-- **C40, messages.** The same for sources that differ in the notation of literals. -/
theorem C40_messages {w w' : World} {srcName outName : Str} {src src' : List Byte}
    (hw : Setup w srcName outName src) (hw' : Setup w' srcName outName src') (hs : Sized src)
    (hs' : Sized src') (hl : ∀ l ∈ lines src, l.length ≤ 126) (hl' : ∀ l ∈ lines src', l.length ≤ 126)
    (h : List.Forall₂ Relit (lines src) (lines src')) : SameOutcome srcName outName w w' src src' :=
  sameOutcome_kinds hw hw' hs hs' hl hl' h fun _ _ => kinds_relit

/-- **C47, messages.** The same for sources that differ in the names of labels. -/
theorem C47_messages {w w' : World} {srcName outName : Str} {src src' : List Byte} (ρ : Str → Str)
    (hw : Setup w srcName outName src) (hw' : Setup w' srcName outName src') (hs : Sized src) (hs' : Sized src')
    (hl : ∀ l ∈ lines src, l.length ≤ 126) (hl' : ∀ l ∈ lines src', l.length ≤ 126)
    (hρ : ∀ m n, Mentions (lines src) m → Mentions (lines src) n → ρ m = ρ n → m = n)
    (h : List.Forall₂ (RenamedLine ρ) (lines src) (lines src')) : SameOutcome srcName outName w w' src src' := by
  refine sameOutcome (T := fun l l' => Mentions (lines src) l ∧ l' = ρ l) ?_ hw hw' hs hs' hl hl' ?_
  · rintro l l' m m' ⟨h1, rfl⟩ ⟨h2, rfl⟩
    exact ⟨fun h => by rw [h], fun h => hρ l m h1 h2 h⟩
  · rw [List.forall₂_iff_get] at h ⊢
    refine ⟨h.1, fun i hi hi' raw raw' hb hb' => rawSim_renamed (h.2 i hi hi') hb hb' ?_⟩
    exact fun x p n hx hp => ⟨⟨_, List.get_mem _ _, x, p, hx, hp⟩, rfl⟩

/-- **C48, messages.** If gaia fails on a source with or without a line that defines an unused symbol, the message is the same but for the
number of the line. -/
theorem C48_messages {w w' : World} {srcName outName : Str} {pre l rest : List Byte} {L : Str} (hpre : WholeLines pre)
    (hl : ∀ c ∈ l, c ≠ 10) {x : List (Nat × Lexeme)} (hx : Lexes l x)
    (hdef : parse (x.map (·.2)) = some (.label L) ∨ ∃ v, parse (x.map (·.2)) = some (.const L v))
    (hL : ¬ Mentions (lines (pre ++ rest)) L) (hend : NoEnd (lines pre))
    (hw : Setup w srcName outName (pre ++ rest)) (hw' : Setup w' srcName outName (pre ++ (l ++ 10 :: rest)))
    (hs : Sized (pre ++ (l ++ 10 :: rest))) (hlen : ∀ k ∈ lines (pre ++ (l ++ 10 :: rest)), k.length ≤ 126) :
    (∃ bin total symbols, Succeeds w srcName outName bin total symbols ∧ Succeeds w' srcName outName bin total (symbols + 1)) ∨
    ∃ text text' bin, FailsLeaving w srcName outName text bin ∧ FailsLeaving w' srcName outName text' bin ∧
      ShiftedComplaint srcName (pieces pre).length (pre ++ rest) text text' := by
  rw [lines_append hpre, lines_line hl] at hlen
  rw [lines_append hpre] at hL
  have hll : l.length ≤ 126 := hlen l (by simp)
  have hp : List.Forall₂ Buffers (chunks pre) (lines pre) := chunks_lines pre fun k hk => hlen k (by simp [hk])
  have hr : List.Forall₂ Buffers (chunks rest) (lines rest) := chunks_lines rest fun k hk => hlen k (by simp [hk])
  have hT : OneOne fun l l' => l = l' ∧ l ≠ L := by
    rintro l l' m m' ⟨rfl, _⟩ ⟨rfl, _⟩; exact Iff.rfl
  have sp := rawSim_unmentioned hp (T := fun l l' => l = l' ∧ l ≠ L) fun k hk => ⟨rfl, fun h => hL (by
    obtain ⟨k', h1, h2⟩ := hk
    exact ⟨k', by simp [h1], h ▸ h2⟩)⟩
  have sr := rawSim_unmentioned hr (T := fun l l' => l = l' ∧ l ≠ L) fun k hk => ⟨rfl, fun h => hL (by
    obtain ⟨k', h1, h2⟩ := hk
    exact ⟨k', by simp [h1], h ▸ h2⟩)⟩
  refine insertion hT hpre hl hll hw hw' hs sp sr ?_ ?_
  · intro a e
    have := noEnd_runOn hp hend e
    cases this
  · intro a e
    have ha : a.env.lookup L = none := unmentioned_env sp rfl e
    obtain ⟨v, hv⟩ := line_defines (fn := srcName) hx hdef ha
    refine ⟨_, hv, ?_, rfl⟩
    rintro m m' ⟨rfl, hm⟩ _
    simp only [List.lookup_cons]
    rw [beq_false_of_ne hm]

/-- **C48, blank lines, messages.** The same for a line without lexemes. -/
theorem C48_blank_messages {w w' : World} {srcName outName : Str} {pre l rest : List Byte} (hpre : WholeLines pre)
    (hl : ∀ c ∈ l, c ≠ 10) (hll : l.length ≤ 126) (hx : Lexes l []) (hw : Setup w srcName outName (pre ++ rest))
    (hw' : Setup w' srcName outName (pre ++ (l ++ 10 :: rest))) (hs : Sized (pre ++ (l ++ 10 :: rest))) :
    (∃ bin total symbols, Succeeds w srcName outName bin total symbols ∧ Succeeds w' srcName outName bin total symbols) ∨
    ∃ text text' bin, FailsLeaving w srcName outName text bin ∧ FailsLeaving w' srcName outName text' bin ∧
      ShiftedComplaint srcName (pieces pre).length (pre ++ rest) text text' := by
  have self : ∀ cs : List (List Byte), List.Forall₂ (RawSim Eq) cs cs := fun cs => List.forall₂_same.2 fun _ _ => rawSim_of_kinds rfl
  refine insertion (d := 0) oneOne_eq hpre hl hll hw hw' hs (self _) (self _) (fun _ _ => rfl) ?_
  intro a _
  refine ⟨a.env, ?_, fun x x' _ h => h, rfl⟩
  unfold line
  rw [lexemes_buffers (l := l) (.inr rfl), lexemes_complete hx]
  rfl

/-! Concrete cases. -/

/-- The messages for a source in two cases. -/
example : demoRun (b! "nop\nlda #$1 x\n") = some (1, b! "p.asm:2: ERROR: illegal syntax\nlda #$1 x\n        ^~~~~~\n\n", some [0xEA]) ∧
    demoRun (b! "NOP\nLDA #$1 X\n") = some (1, b! "p.asm:2: ERROR: illegal syntax\nLDA #$1 X\n        ^~~~~~\n\n", some [0xEA]) := by
  decide +kernel

example : ∃ text text' bin, FailsLeaving (demo (b! "nop\nlda #$1 x\n")) (b! "p.asm") (b! "p.bin") text bin ∧
    FailsLeaving (demo (b! "NOP\nLDA #$1 X\n")) (b! "p.asm") (b! "p.bin") text' bin ∧
    RecasedComplaint (b! "p.asm") (b! "nop\nlda #$1 x\n") (b! "NOP\nLDA #$1 X\n") text text' := by
  rcases C04_messages (demo_setup (b! "nop\nlda #$1 x\n")) (demo_setup (b! "NOP\nLDA #$1 X\n")) (by decide) (recased_of _ _ (by decide +kernel)) with
    ⟨_, _, _, h, _⟩ | h
  · exfalso
    unfold Succeeds at h
    have := congrArg (fun o => match o with | Outcome.exited e => e.status | _ => 7) h
    revert this
    have : (match gaia (b! "p.asm") (b! "p.bin") (demo (b! "nop\nlda #$1 x\n")) with | .exited e => e.status | _ => 7) = 1 := by decide +kernel
    simp only [this]
    decide
  · exact h

/-- An unknown label, with and without an unused symbol before it. -/
example : demoRun (b! "NOP\n JMP L ;\n") = some (1, b! "p.asm:2: ERROR: label definition was not found\n JMP L ;\n     ^~~~~~\n\n", some [0xEA, 0x4C, 0, 0]) ∧
    demoRun (b! "NOP\nU =1\n JMP L ;\n") = some (1, b! "p.asm:3: ERROR: label definition was not found\n JMP L ;\n     ^~~~~~\n\n", some [0xEA, 0x4C, 0, 0]) := by
  decide +kernel

example : (∃ bin total symbols, Succeeds (demo (b! "NOP\n JMP L ;\n")) (b! "p.asm") (b! "p.bin") bin total symbols ∧
      Succeeds (demo (b! "NOP\nU =1\n JMP L ;\n")) (b! "p.asm") (b! "p.bin") bin total (symbols + 1)) ∨
    ∃ text text' bin, FailsLeaving (demo (b! "NOP\n JMP L ;\n")) (b! "p.asm") (b! "p.bin") text bin ∧
      FailsLeaving (demo (b! "NOP\nU =1\n JMP L ;\n")) (b! "p.asm") (b! "p.bin") text' bin ∧
      ShiftedComplaint (b! "p.asm") 1 (b! "NOP\n JMP L ;\n") text text' :=
  C48_messages (pre := b! "NOP\n") (l := b! "U =1") (rest := b! " JMP L ;\n") (L := b! "U") (.inr ⟨b! "NOP", rfl⟩)
    (by decide +kernel) (x := [(0, .name (b! "U")), (2, .eq), (3, .lit 1)])
    (lexes_eval (by decide +kernel) (by decide +kernel)) (.inr ⟨1, rfl⟩) (not_mentions_eval (by decide +kernel))
    (noEnd_eval (by decide +kernel)) (demo_setup _) (demo_setup _) (by decide) (by decide +kernel)

/-- A layout change in a wrong line. -/
example : SameOutcome (b! "p.asm") (b! "p.bin") (demo (b! "NOP X ; no\n")) (demo (b! "\tNOP X\n")) (b! "NOP X ; no\n") (b! "\tNOP X\n") := by
  refine C05_messages (demo_setup _) (demo_setup _) (by decide) (by decide) (by decide +kernel) (by decide +kernel) ?_
  have e1 : lines (b! "NOP X ; no\n") = [b! "NOP X ; no"] := by decide +kernel
  have e2 : lines (b! "\tNOP X\n") = [b! "\tNOP X"] := by decide +kernel
  rw [e1, e2]
  refine .cons (.inr (.inr ⟨[(0, .mnem .NOP), (4, .regX)], [(1, .mnem .NOP), (5, .regX)], ?_, ?_, rfl⟩)) .nil
  · exact lexes_eval (by decide +kernel) (by decide +kernel)
  · exact lexes_eval (by decide +kernel) (by decide +kernel)

end Gaia

import Verif.Proofs.Modules
import Verif.Props.C29_AnyText

/-! C60: texts that share no names are assembled independently. -/
set_option maxRecDepth 20000
namespace Gaia
open Spec Spec.Reference

/-- **C60.** Texts that share no names are assembled independently. Let `a` be complete lines, without `.END`, of which at most the
first sets the origin, which gaia assembles to `binary`, of at least one byte; and let `b` be any text that does not set the origin and
that neither defines nor uses a name of `a`. Let `line` set the origin to the first address after `a`. Then either gaia assembles `line`
followed by `b`, to some `code` at that address, and `a` followed by `b` to `binary` followed by the same `code`, with as many bytes and
symbols as both together; or it refuses both, with the same message but for the number of the line. -/
theorem C60_modules {a b line : List Byte} (hwh : WholeLines a) (hone : OneOrigin a) (hend : WithoutEnd a) (hb : OriginFree b) (hst : Strangers a b)
    (hsa : Sized (a ++ b)) (hsl : Sized (line ++ b)) {wa wb wab : World} {srcName outName : Str} (hwa : Setup wa srcName outName a)
    (hwb : Setup wb srcName outName (line ++ b)) (hwab : Setup wab srcName outName (a ++ b)) {binary : List Byte} {total symbols : Nat}
    (h : Succeeds wa srcName outName binary total symbols) (hne : binary ≠ []) (hline : SetsOrigin line (originSet a + total)) :
    (∃ code n, Succeeds wb srcName outName (placedAt (originSet a + total) code) code.length n ∧
      Succeeds wab srcName outName (binary ++ code) (total + code.length) (symbols + n)) ∨
    (∃ text text', FailsPrinting wb srcName outName text ∧ FailsPrinting wab srcName outName text' ∧
      SameMessage srcName ((pieces a).length - 1) text text') := by
  have hsz : Sized a := sized_sublist (List.sublist_append_left a b) hsa
  obtain ⟨s0, W, h1, h2, rfl, rfl, rfl⟩ := (C57_success hwa hsz _ _ _).1 h
  obtain ⟨hwhole, hpc⟩ := App.one_origin hone h1
  obtain ⟨D0, hD0, hD0m, hD0r⟩ := App.resolve_more (env' := s0.env) (fun _ _ h => h) h2
  subst hD0
  rcases hwhole.last with ⟨e1, e2, _⟩ | ⟨_, hpos, c0, hc0, hc0n⟩
  · exfalso
    rw [e2, e1] at h2
    rw [e1] at hne
    cases h2
    exact hne rfl
  have hnames : ∀ l, l ∉ definedIn a → s0.env.lookup l = none := by
    intro l hl
    rw [List.lookup_eq_none_iff]
    intro q hq
    by_contra hc
    apply hl
    have hk := (App.runPieces_env h1).1
    have k3 : App.names State.init = [] := rfl
    rw [k3, List.append_nil] at hk
    have hm : l ∈ App.names s0 := by
      have : l = q.1 := by simpa using hc
      exact List.mem_map.2 ⟨q, hq, this.symm⟩
    rw [hk, List.mem_reverse] at hm
    unfold definedIn
    have hsub : ∀ (sts : List Stmt), ∀ st ∈ upToEnd sts, st ∈ sts := by
      intro sts
      induction sts with
      | nil => intro st h; exact h
      | cons x sts ih =>
        intro st h
        unfold upToEnd at h
        split at h
        · cases h
        · rcases List.mem_cons.1 h with rfl | h
          · exact List.mem_cons_self
          · exact List.mem_cons_of_mem _ (ih st h)
    obtain ⟨st, hst, hd⟩ := List.mem_filterMap.1 hm
    exact List.mem_filterMap.2 ⟨st, hsub _ st hst, hd⟩
  have hlen : 0 < (pieces a).length := by
    rw [Nat.pos_iff_ne_zero]
    intro h0
    rw [List.length_eq_zero_iff.1 h0] at h1
    cases h1
    cases h2
    exact hne rfl
  obtain ⟨hthrough, hl0⟩ := Mods.runPieces_through (pieces b) h1 hend
  have hrunb := Reloc.origin_step (fn := srcName) (body := b) hline
  have hruna : runPieces srcName (pieces (a ++ b)) .init = runPieces srcName (pieces b) s0 := by rw [App.pieces_append hwh]; exact hthrough
  have hrel : Mods.Rel s0.pc ((pieces a).length - 1) s0 s0 (Reloc.inst (originSet a + s0.total) ⟨0, 2, [], false, [], []⟩) := by
    refine ⟨hpc, ?_, rfl, rfl, by simp [Reloc.inst], by simp [Reloc.inst], [], by simp, by simp, .inl ⟨rfl, rfl, hpos, rfl, rfl⟩⟩
    rw [hl0]
    show 1 + (pieces a).length = 2 + ((pieces a).length - 1)
    omega
  have hfree : ∀ st ∈ (pieces b).filterMap stmtOf, st.isOrg = false ∧ (∀ l ∈ defined st, s0.env.lookup l = none) ∧ ∀ l ∈ st.reference, s0.env.lookup l = none := by
    intro st hm
    refine ⟨hb st hm, fun l hl => hnames l (hst l ?_), fun l hl => hnames l (hst l ?_)⟩
    · exact List.mem_append_left _ (List.mem_filterMap.2 ⟨st, hm, hl⟩)
    · exact List.mem_append_right _ (List.mem_filterMap.2 ⟨st, hm, hl⟩)
  rcases Mods.runPieces_both (fn := srcName) hrel hfree with ⟨m, m', V, V', hf', hf, hm⟩ | ⟨s, t, hs, ht, hr⟩
  · exact .inr ⟨m, m', ⟨_, (C57_failure hwb hsl m (image V)).2 ⟨V, rfl, .inl (hrunb.trans hf)⟩⟩,
      ⟨_, (C57_failure hwab hsa m' (image V')).2 ⟨V', rfl, .inl (hruna.trans hf')⟩⟩, hm⟩
  · have hsteps := App.runPieces_steps (allow := false) hs (.inr hb)
    obtain ⟨hpos', hle, htot, ⟨X, hX, hXb, hlast⟩, ⟨P, hP, hPb⟩⟩ := App.Steps.after hsteps hpos
    have hk := App.Steps.keeps hsteps
    obtain ⟨_, _, _, hD0r'⟩ := App.resolve_more hk.env h2
    rename_i D0' hD0' hD0m'
    have : D0' = D0 := (List.append_cancel_left hD0').symm
    subst this
    have hP' : P = t.pending.map (Mods.bump ((pieces a).length - 1)) := List.append_cancel_left (hP.symm.trans hr.pending)
    have hra : resolve srcName s.env s.pending s.writes = resolve srcName (t.env ++ s0.env) (t.pending.map (Mods.bump ((pieces a).length - 1))) (s.writes ++ D0') := by
      rw [hr.pending, hD0r', hr.env]
    rcases Mods.resolve_both (fn := srcName) (n := (pieces a).length - 1) (env := t.env) hr.free (s.writes ++ D0') t.writes with
      ⟨m, m', V, V', hf', hf, hm⟩ | ⟨D, hd', hd⟩
    · exact .inr ⟨m, m', ⟨_, (C57_failure hwb hsl m (image V)).2 ⟨V, rfl, .inr ⟨t, hrunb.trans ht, hf⟩⟩⟩,
        ⟨_, (C57_failure hwab hsa m' (image V')).2 ⟨V', rfl, .inr ⟨s, hruna.trans hs, hra.trans hf'⟩⟩⟩, hm⟩
    · left
      obtain ⟨D', hDD, hDm, _⟩ := App.resolve_more (env' := t.env) (fun _ _ h => h) hd
      have hDD : D' = D := (List.append_cancel_left hDD).symm
      subst hDD
      have hDb : ∀ c ∈ D', ∃ r ∈ P, c.1 = r.addr ∧ c.2.length = App.Pending.len r := by
        intro c hc
        obtain ⟨r, hr1, hr2⟩ := hDm c hc
        exact ⟨Mods.bump ((pieces a).length - 1) r, by rw [hP']; exact List.mem_map_of_mem hr1, hr2⟩
      obtain ⟨X', hX', hne', hw'⟩ := hr.writes
      have : X' = X := List.append_cancel_left (hX'.symm.trans hX)
      subst this
      obtain ⟨code, hc1, hc2, hc3⟩ := Mods.placed (e := s0.pc) (n' := s.pc) (W0 := s0.writes) (D0 := D0') (X := X') (Y := t.writes) (D := D')
        (by
          intro c hc
          rcases List.mem_append.1 hc with hc | hc
          · exact hwhole.fits c hc
          · obtain ⟨r, hr, hr1, hr2⟩ := hD0m c hc
            have := hwhole.refs r hr
            omega)
        ⟨c0, hc0, hc0n⟩
        (by
          intro c hc
          rcases List.mem_append.1 hc with hc | hc
          · exact hXb c hc
          · obtain ⟨r, hr, hr1, hr2⟩ := hDb c hc
            have := hPb r hr
            omega) hlast hle
        (by
          by_cases hX0 : X' = []
          · left
            have hpce : s.pc = s0.pc := by
              rcases hlast with h | ⟨c, hc, _⟩
              · exact h
              · rw [hX0] at hc; cases hc
            have hP0 : P = [] := by
              rw [List.eq_nil_iff_forall_not_mem]
              intro r hr
              have := hPb r hr
              have : 0 < App.Pending.len r := by unfold App.Pending.len; split <;> omega
              omega
            refine ⟨hX0, ?_, ?_⟩
            · rcases hw' with ⟨_, h, _⟩ | ⟨_, h | ⟨n, bs, R, _, h, _⟩⟩
              · exact h
              · rw [← h]; exact hX0
              · rw [hX0] at h; cases h
            · rw [List.eq_nil_iff_forall_not_mem]
              intro c hc
              obtain ⟨r, hr, _⟩ := hDb c hc
              rw [hP0] at hr; cases hr
          · right
            refine ⟨hX0, ?_⟩
            rcases hw' with ⟨h, _⟩ | ⟨_, h⟩
            · exact absurd h hX0
            · exact h) hne'
      have htt : t.total = code.length := by have := hr.total; omega
      refine ⟨code, t.env.length, ?_, ?_⟩
      · refine (C57_success hwb hsl _ _ _).2 ⟨t, t.writes ++ D', hrunb.trans ht, hd, ?_, htt.symm, rfl⟩
        rw [hc3, hpc]
      · refine (C57_success hwab hsa _ _ _).2 ⟨s, s.writes ++ D0' ++ D', hruna.trans hs, hra.trans hd', ?_, ?_, ?_⟩
        · rw [hX, hc1]
        · omega
        · rw [hr.env, List.length_append]; omega

/-! Concrete cases. -/

/-- A second text, which begins with a forward jump. -/
def stranger : List Byte := b! " JMP FAR\nK =$44\nBACK: LDA K,X\n BNE BACK\nFAR: JSR BACK\n.END\n???"

/-- Both texts meet the conditions, and both cases of `C60_modules` occur. The code of `stranger` is the same in both runs. -/
theorem C60_example :
    (WholeLines firstPart ∧ OneOrigin firstPart ∧ WithoutEnd firstPart ∧ OriginFree stranger ∧ Strangers firstPart stranger ∧
      originSet firstPart + 11 = 0x30B ∧ SetsOrigin (b! "*=$30B\n") 0x30B) ∧
    Reference.run (b! "p.asm") (b! "*=$30B\n" ++ stranger) = ⟨0, b! "Assembly successful.\n10 (0x000a) bytes assembled.\n3 symbols.\n",
      placedAt 0x30B [0x4C, 0x12, 3, 0xB5, 0x44, 0xD0, 0xFC, 0x20, 0x0E, 3]⟩ ∧
    Reference.run (b! "p.asm") (firstPart ++ stranger) = ⟨0, b! "Assembly successful.\n21 (0x0015) bytes assembled.\n6 symbols.\n",
      placedAt 0x300 [0xA2, 5, 0xCA, 0xD0, 0xFD, 0xF0, 3, 0x20, 0, 3, 0x60] ++ [0x4C, 0x12, 3, 0xB5, 0x44, 0xD0, 0xFC, 0x20, 0x0E, 3]⟩ ∧
    ((Reference.run (b! "p.asm") (b! "*=$30B\n" ++ b! " NOP\n BNE NOWHERE\n")).text = diag (b! " BNE NOWHERE\n") .missingLabelDefinition (some 5) (b! "p.asm") 3 ∧
     (Reference.run (b! "p.asm") (firstPart ++ b! " NOP\n BNE NOWHERE\n")).text = diag (b! " BNE NOWHERE\n") .missingLabelDefinition (some 5) (b! "p.asm") 9) ∧
    (pieces firstPart).length = 7 := by
  refine ⟨⟨.inr ⟨firstPart.dropLast, ?_⟩, ?_⟩, ?_⟩ <;> decide +kernel

/-- The conditions are needed. A text that uses a name of the first is refused alone; one that defines it again is refused behind it; behind
`.END` nothing is assembled. -/
theorem C60_conditions :
    ((Reference.run [] (b! "*=1\n" ++ b! " JMP L\n")).status = 1 ∧ (Reference.run [] (b! "L: RTS\n" ++ b! " JMP L\n")).status = 0) ∧
    ((Reference.run [] (b! "*=1\n" ++ b! "L: RTS\n")).status = 0 ∧ (Reference.run [] (b! "L: RTS\n" ++ b! "L: RTS\n")).status = 1) ∧
    ((Reference.run [] (b! " RTS\n.END\n" ++ b! " NOP\n")).file = [0x60]) := by
  decide +kernel

end Gaia

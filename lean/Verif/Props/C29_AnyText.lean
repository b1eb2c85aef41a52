import Verif.Props.C59_Append

/-! C29 for every source text, of the documented language or not. -/
set_option maxRecDepth 20000
namespace Gaia
open Spec Spec.Reference

namespace App

theorem instruction_env {text : Str} {ls : List (Nat × Lexeme)} {m : Mnemonic} {a : Arg} {odd : Bool} {s s' : State}
    (h : instruction text ls m a odd s = .ok s') : s'.env = s.env := by
  unfold instruction at h
  simp only at h
  split at h
  · cases h
  · split at h
    · split at h
      · cases h
      · split at h
        · cases h
        · cases h; rfl
    · split at h
      · cases h
      · cases h; rfl

theorem define_env {ls : List (Nat × Lexeme)} {l : Str} {v : Nat} {s s' : State} (h : defineLabel ls l v s = .ok s') :
    s'.env = (l, v) :: s.env ∧ s.env.lookup l = none := by
  unfold defineLabel at h
  split at h
  · cases h
  · rename_i hl
    cases h
    exact ⟨rfl, by rwa [Bool.not_eq_true, Option.isSome_eq_false_iff, Option.isNone_iff_eq_none] at hl⟩

/-- The names in the environment. -/
def names (s : State) : List Str := s.env.map (·.1)

theorem lookup_names {env : Env} {l : Str} (h : env.lookup l = none) : l ∉ env.map (·.1) := by
  intro hm
  obtain ⟨⟨k, v⟩, hk, rfl⟩ := List.mem_map.1 hm
  rw [List.lookup_eq_none_iff] at h
  have := h _ hk
  simp at this

theorem execute_env {text : Str} {ls : List (Nat × Lexeme)} {odd : Bool} {st : Stmt} {s s' : State}
    (h : execute text ls odd s st = .ok s') : (names s' = (defined st).toList ++ names s) ∧ ((names s).Nodup → (names s').Nodup) := by
  have key : ∀ {l v} {s s' : State}, defineLabel ls l v s = .ok s' → names s' = l :: names s ∧ ((names s).Nodup → (names s').Nodup) := by
    intro l v s s' h
    obtain ⟨h1, h2⟩ := define_env h
    have e : names s' = l :: names s := by unfold names; rw [h1]; rfl
    exact ⟨e, fun hn => by rw [e]; exact List.nodup_cons.2 ⟨lookup_names h2, hn⟩⟩
  cases st with
  | empty => cases h; exact ⟨rfl, id⟩
  | stop => cases h; exact ⟨rfl, id⟩
  | label l => exact key h
  | const l v => exact key h
  | org v => cases h; exact ⟨rfl, id⟩
  | instr lab m a =>
    cases lab with
    | none =>
      have := instruction_env h
      unfold names
      rw [this]
      exact ⟨rfl, id⟩
    | some l =>
      have h : (match defineLabel ls l s.pc s with
        | Except.error f => Except.error f
        | Except.ok s => instruction text ls m a odd s) = Except.ok s' := h
      split at h
      · cases h
      · rename_i s1 hd
        have e : names s' = names s1 := by unfold names; rw [instruction_env h]
        rw [e]
        exact key hd

/-- The symbols are those the statements define, newest first. -/
theorem runPieces_env {fn : Str} : ∀ {ps : List (List Byte)} {s s' : State}, runPieces fn ps s = .ok s' →
    names s' = ((upToEnd (ps.filterMap stmtOf)).filterMap defined).reverse ++ names s ∧ ((names s).Nodup → (names s').Nodup)
  | [], s, s', h => by cases h; exact ⟨rfl, id⟩
  | p :: ps, s, s', h => by
    unfold runPieces at h
    simp only at h
    split at h
    · cases h
    · cases h
    · rename_i ls h1
      split at h
      · cases h
      · rename_i st odd h2
        have hp : stmtOf p = some st := by unfold stmtOf; simp only [h1, h2]
        split at h
        · cases h
        · rename_i s1 h3
          obtain ⟨k1, k2⟩ := execute_env h3
          rw [List.filterMap_cons, hp]
          show _ = ((upToEnd (st :: ps.filterMap stmtOf)).filterMap defined).reverse ++ _ ∧ _
          unfold upToEnd
          split at h
          · rename_i hst
            cases h
            rw [if_pos hst]
            subst hst
            exact ⟨k1, k2⟩
          · rename_i hst
            rw [if_neg hst]
            obtain ⟨j1, j2⟩ := runPieces_env h
            have e : names { s1 with line := s1.line + 1 } = names s1 := rfl
            rw [e] at j1 j2
            refine ⟨?_, fun hn => j2 (k2 hn)⟩
            rw [j1, k1, List.filterMap_cons]
            cases defined st <;> simp

end App

/-- **C29, symbols, any text.** If gaia succeeds, the number of symbols it reports is the number of lines before `.END` that define one;
no two of them define the same. -/
theorem C29_symbols_any {w : World} {srcName outName : Str} {src : List Byte} (hw : Setup w srcName outName src) (hs : Sized src)
    {binary : List Byte} {total symbols : Nat} (h : Succeeds w srcName outName binary total symbols) :
    symbols = ((upToEnd (stmtsOf src)).filterMap defined).length ∧ ((upToEnd (stmtsOf src)).filterMap defined).Nodup := by
  obtain ⟨s, W, h1, h2, rfl, rfl, rfl⟩ := (C57_success hw hs _ _ _).1 h
  obtain ⟨k1, k2⟩ := App.runPieces_env h1
  have k2 := k2 (by simp [App.names, State.init])
  rw [k1] at k2
  have k3 : App.names State.init = [] := rfl
  rw [k3, List.append_nil] at k1 k2
  refine ⟨?_, List.nodup_reverse.1 k2⟩
  have := congrArg List.length k1
  simpa [App.names, stmtsOf] using this

/-- **C29, bytes, any text.** If at most the first line sets the origin, the output file is exactly the origin plus the bytes reported
long; it is empty if 0 bytes are reported. -/
theorem C29_bytes_any {w : World} {srcName outName : Str} {src : List Byte} (hw : Setup w srcName outName src) (hs : Sized src) (ho : OneOrigin src)
    {binary : List Byte} {total symbols : Nat} (h : Succeeds w srcName outName binary total symbols) :
    binary.length = if total = 0 then 0 else originSet src + total := by
  obtain ⟨s, W, h1, h2, rfl, rfl, rfl⟩ := (C57_success hw hs _ _ _).1 h
  obtain ⟨hwhole, hpc⟩ := App.one_origin ho h1
  obtain ⟨D, rfl, hDm, _⟩ := App.resolve_more (fun _ _ h => h) h2
  rw [image_length]
  rcases hwhole.last with ⟨e1, e2, e3⟩ | ⟨_, hpos, c, hc, hcn⟩
  · rw [if_pos e3]
    have : D = [] := by
      cases D with
      | nil => rfl
      | cons d D => obtain ⟨r, hr, _⟩ := hDm d List.mem_cons_self; rw [e2] at hr; cases hr
    rw [e1, this]
    rfl
  · rw [if_neg (by omega), ← hpc]
    apply Nat.le_antisymm
    · apply imageEnd_le
      intro c hc
      rcases List.mem_append.1 hc with hc | hc
      · exact hwhole.fits c hc
      · obtain ⟨r, hr, hr1, hr2⟩ := hDm c hc
        have := hwhole.refs r hr
        omega
    · have := le_imageEnd (W := s.writes ++ D) (List.mem_append_left _ hc)
      omega

/-! Concrete cases. -/

example : originSet firstPart = 0x300 ∧ ((upToEnd (stmtsOf firstPart)).filterMap defined) = [b! "INIT", b! "LOOP", b! "OUT"] := by decide +kernel

/-- Lines after `.END` do not count; lines outside the documented language do. -/
example : let src := b! " LDA $10,X STA (\nL: NOP\n.END\nM: NOP\n"
    ((upToEnd (stmtsOf src)).filterMap defined) = [b! "L"] ∧ OneOrigin src ∧
    Reference.run [] src = ⟨0, b! "Assembly successful.\n3 (0x0003) bytes assembled.\n1 symbols.\n", [0x81, 0x10, 0xEA]⟩ := by decide +kernel

/-- With a second origin the length is another. -/
example : ¬ OneOrigin (b! " NOP\n*=$10\n NOP\n") ∧ (Reference.run [] (b! " NOP\n*=$10\n NOP\n")).file.length = 0x11 := by decide +kernel

end Gaia

import Verif.Proofs.Linked
import Verif.Props.C79_Parts
import Verif.Props.C26_TwoPass

/-! C79 for sections that call each other. -/
set_option maxRecDepth 20000
namespace Gaia
open Spec

namespace Linked

theorem finals_items {p : List Stmt} {s : Pass1} (h : pass1 p .init = some s) (env : Env) :
    finals env (placed p 1 .init) = s.items.map fun it => (it.addr, rawBytes env it) := by
  have := (placed_made p 1 h).1
  rw [this]
  simp [finals, Pass1.init]

/-- One direction, for the two-pass assembler. -/
theorem assemble_perm {bs bs' : List Block} (hperm : bs.Perm bs') (hb : ∀ b ∈ bs, b.Linkable) (hno : NoOverlap (bs.flatMap Block.stmts)) {r : Result}
    (h : assembleLow (bs.flatMap Block.stmts) = some r) : NoOverlap (bs'.flatMap Block.stmts) ∧ ∃ r', assembleLow (bs'.flatMap Block.stmts) = some r' ∧
      image r.chunks = image r'.chunks ∧ totalBytes r.chunks = totalBytes r'.chunks ∧ r.env.length = r'.env.length := by
  obtain ⟨_, s, hs, rfl⟩ := assembleLow_some h
  have hb' : ∀ b ∈ bs', b.Linkable := fun b h => hb b (hperm.mem_iff.2 h)
  obtain ⟨h1, h2, h3, h4⟩ := pass1_blocks hb (show (Linked.keys Pass1.init.env).Nodup from List.nodup_nil) hs
  have h2 : s.items = bs.flatMap itemsOf := by simpa [Pass1.init] using h2
  have h3 : s.env.Perm (bs.flatMap symbolsOf) := by simpa [Pass1.init] using h3
  obtain ⟨s', hs'⟩ := blocks_pass1 (bs := bs') (s := .init) hb' (fun b h => h1 b (hperm.mem_iff.2 h)) (by
    have hp : s.env.Perm (bs'.flatMap symbolsOf ++ []) := by
      rw [List.append_nil]
      exact h3.trans (hperm.flatMap_right _)
    exact (hp.map fun q : Str × Nat => q.1).nodup h4)
  obtain ⟨_, h2', h3', h4'⟩ := pass1_blocks hb' (show (Linked.keys Pass1.init.env).Nodup from List.nodup_nil) hs'
  have h2' : s'.items = bs'.flatMap itemsOf := by simpa [Pass1.init] using h2'
  have h3' : s'.env.Perm (bs'.flatMap symbolsOf) := by simpa [Pass1.init] using h3'
  have hit : s.items.Perm s'.items := by rw [h2, h2']; exact hperm.flatMap_right _
  have henv : s.env.Perm s'.env := h3.trans ((hperm.flatMap_right _).trans h3'.symm)
  have hlk := lookup_perm henv h4
  have hov := hno s hs
  have hov' : NoOverlap (bs'.flatMap Block.stmts) := by
    intro t ht
    rw [hs'] at ht
    cases ht
    exact hit.pairwise hov (fun h => h.symm)
  refine ⟨hov', ?_⟩
  have hsome : (assembleLow (bs'.flatMap Block.stmts)).isSome = true := by
    have e1 : ∀ it ∈ s.items, (encodeLow s.env it).isSome = true := by
      apply pass2_isSome.1
      unfold assembleLow at h
      rw [show pass1 (bs.flatMap Block.stmts) ⟨0, [], []⟩ = some s from hs] at h
      simp only [Option.bind_eq_bind, Option.bind_some] at h
      cases hc : pass2Low s.env s.items with
      | none => rw [hc] at h; cases h
      | some cs => rfl
    have e2 : (pass2Low s'.env s'.items).isSome = true := by
      rw [pass2_isSome]
      intro it hm
      rw [← encode_congr hlk]
      exact e1 it (hit.mem_iff.2 hm)
    unfold assembleLow
    rw [show pass1 (bs'.flatMap Block.stmts) ⟨0, [], []⟩ = some s' from hs']
    obtain ⟨cs, hcs⟩ := Option.isSome_iff_exists.1 e2
    simp [hcs]
  obtain ⟨r', hr'⟩ := Option.isSome_iff_exists.1 hsome
  obtain ⟨_, s'', hs'', rfl⟩ := assembleLow_some hr'
  rw [hs'] at hs''
  cases hs''
  have hch : (finals s.env (placed (bs.flatMap Block.stmts) 1 .init)).Perm (finals s'.env (placed (bs'.flatMap Block.stmts) 1 .init)) := by
    rw [finals_items hs, finals_items hs']
    have : (s.items.map fun it => (it.addr, rawBytes s.env it)) = s.items.map fun it => (it.addr, rawBytes s'.env it) :=
      List.map_congr_left fun it _ => by rw [rawBytes_congr hlk]
    rw [this]
    exact hit.map _
  refine ⟨_, hr', image_perm hch ?_, ?_, henv.length_eq⟩
  · rw [finals_items hs]
    have hok : ∀ it ∈ s.items, ItemOK it := by
      intro it hm
      have := (placed_made _ 1 hs).1
      rw [this] at hm
      simp only [Pass1.init, List.nil_append, List.mem_map] at hm
      obtain ⟨e, he, rfl⟩ := hm
      exact placed_ok hs e he
    rw [List.pairwise_map]
    refine hov.imp_of_mem ?_
    intro a b ha hb' hab
    unfold Clear
    simp only [rawBytes_length (hok a ha), rawBytes_length (hok b hb')]
    exact hab
  · exact (hch.map _).sum_eq

/-- A program of sections without overlap succeeds as the two-pass assembler says, or fails. -/
theorem run_blocks {w : World} {srcName outName : Str} {src : List Byte} {bs : List Block} (hw : Setup w srcName outName src)
    (hp : IsProgram src (bs.flatMap Block.stmts)) (hb : ∀ b ∈ bs, b.Linkable) (hno : NoOverlap (bs.flatMap Block.stmts)) {r : Result}
    (h : assembleLow (bs.flatMap Block.stmts) = some r) : Succeeds w srcName outName (image r.chunks) (totalBytes r.chunks) r.env.length := by
  obtain ⟨bin, h1, h2⟩ := run_assembledLow hw hp h
  obtain ⟨_, s, hs, _⟩ := assembleLow_some h
  have hit := (placed_made _ 1 hs).1
  have hh := harmless (blocks_inPlace 1 0 hb hs) (by
    have := hno s hs
    rw [hit] at this
    simpa [Pass1.init] using this)
  rw [← h2 hh]
  exact h1

theorem succeeds_unique {w : World} {srcName outName : Str} {src : List Byte} (hw : Setup w srcName outName src) (hs : Sized src) {b b' : List Byte} {t t' n n' : Nat}
    (h : Succeeds w srcName outName b t n) (h' : Succeeds w srcName outName b' t' n') : b = b' ∧ t = t' ∧ n = n' := by
  obtain ⟨s, W, h1, h2, rfl, rfl, rfl⟩ := (C57_success hw hs _ _ _).1 h
  obtain ⟨s', W', h1', h2', rfl, rfl, rfl⟩ := (C57_success hw hs _ _ _).1 h'
  rw [h1] at h1'
  cases h1'
  rw [h2] at h2'
  cases h2'
  exact ⟨rfl, rfl, rfl⟩

end Linked

/-- **C79, sections that call each other.** Let a program of the documented language consist of sections, each behind a line that sets the origin,
that use names of each other in branches and jumps only (before or after the definition), of which none begins with a forward reference, and no two
instructions of which overlap. Then gaia gives the same output, number of bytes and number of symbols for every order of the sections, or fails for
every order. -/
theorem C79_linked {srcName outName : Str} {blocks blocks' : List Block} (hperm : blocks.Perm blocks') (hb : ∀ b ∈ blocks, b.Linkable)
    (hno : NoOverlap (blocks.flatMap Block.stmts)) {src src' : List Byte} (hp : IsProgram src (blocks.flatMap Block.stmts))
    (hp' : IsProgram src' (blocks'.flatMap Block.stmts)) {w w' : World} (hw : Setup w srcName outName src) (hw' : Setup w' srcName outName src')
    (binary : List Byte) (total symbols : Nat) :
    Succeeds w srcName outName binary total symbols ↔ Succeeds w' srcName outName binary total symbols := by
  have key : ∀ {bs bs' : List Block} {src src' : List Byte} {w w' : World}, bs.Perm bs' → (∀ b ∈ bs, b.Linkable) → NoOverlap (bs.flatMap Block.stmts) →
      IsProgram src (bs.flatMap Block.stmts) → IsProgram src' (bs'.flatMap Block.stmts) → Setup w srcName outName src → Setup w' srcName outName src' →
      Succeeds w srcName outName binary total symbols → Succeeds w' srcName outName binary total symbols := by
    intro bs bs' src src' w w' hperm hb hno hp hp' hw hw' h
    cases hr : assembleLow (bs.flatMap Block.stmts) with
    | none =>
      exfalso
      obtain ⟨k, e, pos, l, _, _, c, hf⟩ := (C26_accepts hw hp).2 hr
      unfold Succeeds at h
      rw [h] at hf
      cases hf
    | some r =>
      obtain ⟨hno', r', hr', e1, e2, e3⟩ := Linked.assemble_perm hperm hb hno hr
      have g := Linked.run_blocks hw hp hb hno hr
      obtain ⟨rfl, rfl, rfl⟩ := Linked.succeeds_unique hw hp.size h g
      rw [e1, e2, e3]
      exact Linked.run_blocks hw' hp' (fun b h => hb b (hperm.mem_iff.2 h)) hno' hr'
  refine ⟨key hperm hb hno hp hp' hw hw', fun h => ?_⟩
  have hb' : ∀ b ∈ blocks', b.Linkable := fun b h => hb b (hperm.mem_iff.2 h)
  have hno' : NoOverlap (blocks'.flatMap Block.stmts) := by
    intro t ht
    obtain ⟨h1, h2, h3, h4⟩ := Linked.pass1_blocks hb' (show (Linked.keys Pass1.init.env).Nodup from List.nodup_nil) ht
    obtain ⟨s, hs⟩ := Linked.blocks_pass1 (bs := blocks) (s := .init) hb (fun b h => h1 b (hperm.mem_iff.1 h)) (by
      have hp : t.env.Perm (blocks.flatMap Linked.symbolsOf ++ []) := by
        rw [List.append_nil]
        have : t.env.Perm (blocks'.flatMap Linked.symbolsOf) := by simpa [Pass1.init] using h3
        exact this.trans (hperm.symm.flatMap_right _)
      exact (hp.map fun q : Str × Nat => q.1).nodup h4)
    obtain ⟨_, g2, _, _⟩ := Linked.pass1_blocks hb (show (Linked.keys Pass1.init.env).Nodup from List.nodup_nil) hs
    have e1 : t.items = blocks'.flatMap Linked.itemsOf := by simpa [Pass1.init] using h2
    have e2 : s.items = blocks.flatMap Linked.itemsOf := by simpa [Pass1.init] using g2
    have hit : s.items.Perm t.items := by rw [e1, e2]; exact hperm.flatMap_right _
    exact hit.pairwise (hno s hs) (fun h => h.symm)
  exact key hperm.symm hb' hno' hp' hp hw' hw h

/-! A concrete case: the main program calls a subroutine that jumps back into it. -/

def mainBlock : Block := ⟨0x10, [.instr (some (b! "START")) .LDX (.imm (.lit 5)), .instr none .JSR (.plain (.sym (b! "SUB"))),
  .instr (some (b! "BACK")) .BNE (.plain (.sym (b! "START"))), .instr none .RTS .none]⟩
def subBlock : Block := ⟨4, [.instr (some (b! "SUB")) .DEX .none, .instr none .BEQ (.plain (.sym (b! "BACK"))), .instr none .JMP (.plain (.sym (b! "START")))]⟩

def mainText : List Byte := b! "*=$10\nSTART: LDX #5\n JSR SUB\nBACK: BNE START\n RTS\n"
def subText : List Byte := b! "*=4\nSUB: DEX\n BEQ BACK\n JMP START\n"

theorem c79_linkable : ∀ b ∈ [mainBlock, subBlock], b.Linkable := by
  intro b h
  simp only [List.mem_cons, List.not_mem_nil, or_false] at h
  rcases h with rfl | rfl
  · exact ⟨by decide +kernel, by decide +kernel, by decide +kernel⟩
  · exact ⟨by decide +kernel, by decide +kernel, by decide +kernel⟩

theorem c79_programs : IsProgram (mainText ++ subText) ([mainBlock, subBlock].flatMap Block.stmts) ∧
    IsProgram (subText ++ mainText) ([subBlock, mainBlock].flatMap Block.stmts) ∧ NoOverlap ([mainBlock, subBlock].flatMap Block.stmts) := by
  refine ⟨isProgram_eval (by decide +kernel) (by decide +kernel) (by decide +kernel) (by decide +kernel),
    isProgram_eval (by decide +kernel) (by decide +kernel) (by decide +kernel) (by decide +kernel), ?_⟩
  intro s hs
  have h : (match pass1 ([mainBlock, subBlock].flatMap Block.stmts) .init with
    | some s => decide (s.items.Pairwise fun a b => a.addr + a.mode.bytes ≤ b.addr ∨ b.addr + b.mode.bytes ≤ a.addr)
    | none => true) = true := by decide +kernel
  rw [hs] at h
  simpa using h

example : Succeeds (demo (mainText ++ subText)) (b! "p.asm") (b! "p.bin")
      [0, 0, 0, 0, 0xCA, 0xF0, 0x0E, 0x4C, 0x10, 0, 0, 0, 0, 0, 0, 0, 0xA2, 5, 0x20, 4, 0, 0xD0, 0xF9, 0x60] 14 3 ∧
    Succeeds (demo (subText ++ mainText)) (b! "p.asm") (b! "p.bin")
      [0, 0, 0, 0, 0xCA, 0xF0, 0x0E, 0x4C, 0x10, 0, 0, 0, 0, 0, 0, 0, 0xA2, 5, 0x20, 4, 0, 0xD0, 0xF9, 0x60] 14 3 := by
  have h : Succeeds (demo (mainText ++ subText)) (b! "p.asm") (b! "p.bin")
      [0, 0, 0, 0, 0xCA, 0xF0, 0x0E, 0x4C, 0x10, 0, 0, 0, 0, 0, 0, 0, 0xA2, 5, 0x20, 4, 0, 0xD0, 0xF9, 0x60] 14 3 := demo_succeeds (by decide +kernel)
  exact ⟨h, (C79_linked (blocks' := [subBlock, mainBlock]) (List.Perm.swap _ _ _) c79_linkable c79_programs.2.2 c79_programs.1 c79_programs.2.1 (demo_setup _) (demo_setup _) _ _ _).1 h⟩

/-- Other uses of a name need its definition before: then the order matters. -/
theorem C79_needs : (Reference.run [] (b! "*=0\nV: NOP\n*=4\n LDA V\n")).status = 0 ∧ (Reference.run [] (b! "*=4\n LDA V\n*=0\nV: NOP\n")).status = 1 := by
  decide +kernel

end Gaia

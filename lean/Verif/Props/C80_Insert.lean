import Verif.Proofs.Insert
import Verif.Props.C79_Linked

/-! C80: instructions put into a program. -/
set_option maxRecDepth 20000
namespace Gaia
open Spec

namespace Insert

/-- A straight program: gaia does what the two-pass assembler does. -/
theorem run_straight {w : World} {srcName outName : Str} {src : List Byte} {x : Nat} {p : List Stmt} (hw : Setup w srcName outName src)
    (hp : IsProgram src (.org x :: p)) (hs : ∀ st ∈ p, st.isOrg = false ∧ st ≠ .stop) {r : Result} (h : assembleLow (.org x :: p) = some r) :
    Succeeds w srcName outName (image r.chunks) (totalBytes r.chunks) r.env.length := by
  obtain ⟨bin, h1, h2⟩ := run_assembledLow hw hp h
  obtain ⟨_, s, hs', _⟩ := assembleLow_some h
  obtain ⟨its, j1, j2, _⟩ := pass1_straight hs (show pass1 p ⟨x, [], []⟩ = some s from hs')
  have hit := (placed_made _ 1 hs').1
  rw [← h2 (Harmless.of_ascending (by
    have : (placed (.org x :: p) 1 .init).map (·.item) = its := by
      rw [j1] at hit
      simpa [Pass1.init] using hit.symm
    rw [this]
    exact j2.ascending.1))]
  exact h1

/-- What gaia assembles, the two-pass assembler assembles. -/
theorem assembled {w : World} {srcName outName : Str} {src : List Byte} {p : List Stmt} (hw : Setup w srcName outName src) (hp : IsProgram src p)
    {b : List Byte} {t n : Nat} (h : Succeeds w srcName outName b t n) : ∃ r, assembleLow p = some r := by
  cases hr : assembleLow p with
  | some r => exact ⟨r, rfl⟩
  | none =>
    exfalso
    obtain ⟨k, e, pos, l, _, _, c, hf⟩ := (C26_accepts hw hp).2 hr
    unfold Succeeds at h
    rw [h] at hf
    cases hf

/-- Instructions without names. -/
theorem run_nameless {w : World} {srcName outName : Str} {src : List Byte} {p : List Stmt} (hw : Setup w srcName outName src)
    (hp : IsProgram src p) (hm : ∀ st ∈ p, st.Nameless) {b : List Byte} {t n : Nat} (h : Succeeds w srcName outName b t n) :
    ∃ r, assembleLow p = some r ∧ image r.chunks = b := by
  obtain ⟨r, hr⟩ := assembled hw hp h
  refine ⟨r, hr, ?_⟩
  obtain ⟨bin, h1, h2⟩ := run_assembledLow hw hp hr
  obtain ⟨_, s, hs', _⟩ := assembleLow_some hr
  obtain ⟨its, j1, j2, _⟩ := pass1_straight (nameless_straight hm) hs'
  have hit := (placed_made _ 1 hs').1
  have := h2 (Harmless.of_ascending (by
    have : (placed p 1 .init).map (·.item) = its := by
      rw [j1] at hit
      simpa [Pass1.init] using hit.symm
    rw [this]
    exact j2.ascending.1))
  rw [← this]
  exact (Linked.succeeds_unique hw hp.size h1 h).1

/-- The theorem over the code of the two-pass assembler for the instructions at the place. -/
theorem general {srcName outName : Str} {x : Nat} {before mid0 after : List Stmt} (hi : Insertable x before after) {rm0 : Result}
    (hm0 : ∀ st ∈ mid0, st.Nameless) (hrm0 : assembleLow mid0 = some rm0) {src : List Byte}
    (hp : IsProgram src (.org x :: (before ++ mid0 ++ after))) {w : World} (hw : Setup w srcName outName src) {binary : List Byte} {total symbols : Nat}
    (h : Succeeds w srcName outName binary total symbols) :
    ∃ A B : List Slot, (∃ s, pass1 (.org x :: before) .init = some s ∧ s.pc = x + A.length) ∧
      binary = placedAt x (A.map (Slot.at (image rm0.chunks).length) ++ image rm0.chunks ++ B.map (Slot.at (image rm0.chunks).length)) ∧
      ∀ {mid : List Stmt} {rm : Result} {src' : List Byte} {w' : World}, (∀ st ∈ mid, st.Nameless) → assembleLow mid = some rm →
        IsProgram src' (.org x :: (before ++ mid ++ after)) → Setup w' srcName outName src' → ∀ binary' total' symbols',
        Succeeds w' srcName outName binary' total' symbols' ↔ (∀ c ∈ A ++ B, c.Fits (image rm.chunks).length) ∧
          binary' = placedAt x (A.map (Slot.at (image rm.chunks).length) ++ image rm.chunks ++ B.map (Slot.at (image rm.chunks).length)) ∧
          total' + (image rm0.chunks).length = total + (image rm.chunks).length ∧ symbols' = symbols := by
  obtain ⟨r, hr⟩ := assembled hw hp h
  obtain ⟨A, B, h1, _, h3⟩ := assemble_insert hi hm0 hr
  have straight : ∀ {mid : List Stmt}, (∀ st ∈ mid, st.Nameless) → ∀ st ∈ before ++ mid ++ after, st.isOrg = false ∧ st ≠ .stop := by
    intro mid hm st hst
    rcases List.mem_append.1 hst with hst | hst
    · rcases List.mem_append.1 hst with hst | hst
      · exact hi.straight st (List.mem_append_left _ hst)
      · exact nameless_straight hm st hst
    · exact hi.straight st (List.mem_append_right _ hst)
  have g := run_straight hw hp (straight hm0) hr
  obtain ⟨rfl, rfl, rfl⟩ := Linked.succeeds_unique hw hp.size h g
  obtain ⟨z1, z2⟩ := h3 mid0 rm0 hm0 hrm0
  have hfit : ∀ c ∈ A ++ B, c.Fits (image rm0.chunks).length := by
    by_contra hc
    rw [z2 hc] at hr
    cases hr
  obtain ⟨r0, y1, y2, y3, y4⟩ := z1 hfit
  rw [hr] at y1
  cases y1
  refine ⟨A, B, h1, y2, ?_⟩
  intro mid rm src' w' hm hrm hp' hw' binary' total' symbols'
  obtain ⟨k1, k2⟩ := h3 mid rm hm hrm
  constructor
  · intro hsucc
    obtain ⟨r', hr'⟩ := assembled hw' hp' hsucc
    have hc : ∀ c ∈ A ++ B, c.Fits (image rm.chunks).length := by
      by_contra hc
      rw [k2 hc] at hr'
      cases hr'
    obtain ⟨r'', j1, j2, j3, j4⟩ := k1 hc
    have := run_straight hw' hp' (straight hm) j1
    obtain ⟨rfl, rfl, rfl⟩ := Linked.succeeds_unique hw' hp'.size hsucc this
    exact ⟨hc, j2, by omega, j4⟩
  · rintro ⟨hc, rfl, ht, rfl⟩
    obtain ⟨r'', j1, j2, j3, j4⟩ := k1 hc
    have := run_straight hw' hp' (straight hm) j1
    rw [j2, j4] at this
    rw [show total' = totalBytes r''.chunks by omega]
    exact this

end Insert

/-- **C80.** Let gaia assemble a program of an origin, statements `before` and statements `after`. There are slots `A` for the code of `before` and `B` for
that of `after` (bytes that stay, low and high bytes of addresses behind the place, offsets of branches across it), such that the output is what
they hold for `k = 0`. Put any instructions that have and use no names between the two, with the code `code`. Then gaia succeeds if and only if
every branch across the place still reaches its target, and the output is `A`, `code` and `B`, the slots filled for `k = code.length`; the number of bytes
grows by that, the number of symbols stays. -/
theorem C80_insert {srcName outName : Str} {x : Nat} {before after : List Stmt} (hi : Insertable x before after) {src : List Byte}
    (hp : IsProgram src (.org x :: (before ++ after))) {w : World} (hw : Setup w srcName outName src) {binary : List Byte} {total symbols : Nat}
    (h : Succeeds w srcName outName binary total symbols) :
    ∃ A B : List Slot, (∃ s, pass1 (.org x :: before) .init = some s ∧ s.pc = x + A.length) ∧
      binary = placedAt x (A.map (Slot.at 0) ++ B.map (Slot.at 0)) ∧
      ∀ {mid : List Stmt} {midText code : List Byte} {t : Nat} {src' : List Byte} {wm w' : World}, (∀ st ∈ mid, st.Nameless) →
        IsProgram midText mid → Setup wm srcName outName midText → Succeeds wm srcName outName code t 0 →
        IsProgram src' (.org x :: (before ++ mid ++ after)) → Setup w' srcName outName src' → ∀ binary' total' symbols',
        Succeeds w' srcName outName binary' total' symbols' ↔ (∀ c ∈ A ++ B, c.Fits code.length) ∧
          binary' = placedAt x (A.map (Slot.at code.length) ++ code ++ B.map (Slot.at code.length)) ∧ total' = total + code.length ∧ symbols' = symbols := by
  obtain ⟨A, B, h1, h2, h3⟩ := Insert.general hi (mid0 := []) (rm0 := ⟨[], []⟩) (fun _ h => nomatch h) rfl (by simpa using hp) hw h
  refine ⟨A, B, h1, by simpa [show image (Result.mk [] []).chunks = [] from rfl] using h2, ?_⟩
  intro mid midText code t src' wm w' hm hpm hwm hsm hp' hw' binary' total' symbols'
  obtain ⟨rm, hrm, rfl⟩ := Insert.run_nameless hwm hpm hm hsm
  rw [h3 hm hrm hp' hw', show (image (Result.mk [] []).chunks).length = 0 from rfl, Nat.add_zero]

/-- **C80, instructions exchanged for others or taken out.** As `C80_insert`, but starting with a program that has instructions `mid0` with the code `code0` at
the place; they can be exchanged for any `mid` (also for nothing). -/
theorem C80_exchange {srcName outName : Str} {x : Nat} {before mid0 after : List Stmt} (hi : Insertable x before after)
    {text0 code0 : List Byte} {t0 : Nat} {w0 : World} (hm0 : ∀ st ∈ mid0, st.Nameless) (hp0 : IsProgram text0 mid0) (hw0 : Setup w0 srcName outName text0)
    (hs0 : Succeeds w0 srcName outName code0 t0 0)
    {src : List Byte} (hp : IsProgram src (.org x :: (before ++ mid0 ++ after))) {w : World} (hw : Setup w srcName outName src) {binary : List Byte} {total symbols : Nat}
    (h : Succeeds w srcName outName binary total symbols) :
    ∃ A B : List Slot, (∃ s, pass1 (.org x :: before) .init = some s ∧ s.pc = x + A.length) ∧
      binary = placedAt x (A.map (Slot.at code0.length) ++ code0 ++ B.map (Slot.at code0.length)) ∧
      ∀ {mid : List Stmt} {midText code : List Byte} {t : Nat} {src' : List Byte} {wm w' : World}, (∀ st ∈ mid, st.Nameless) →
        IsProgram midText mid → Setup wm srcName outName midText → Succeeds wm srcName outName code t 0 →
        IsProgram src' (.org x :: (before ++ mid ++ after)) → Setup w' srcName outName src' → ∀ binary' total' symbols',
        Succeeds w' srcName outName binary' total' symbols' ↔ (∀ c ∈ A ++ B, c.Fits code.length) ∧
          binary' = placedAt x (A.map (Slot.at code.length) ++ code ++ B.map (Slot.at code.length)) ∧
          total' + code0.length = total + code.length ∧ symbols' = symbols := by
  obtain ⟨rm0, hrm0, rfl⟩ := Insert.run_nameless hw0 hp0 hm0 hs0
  obtain ⟨A, B, h1, h2, h3⟩ := Insert.general hi hm0 hrm0 hp hw h
  refine ⟨A, B, h1, h2, ?_⟩
  intro mid midText code t src' wm w' hm hpm hwm hsm hp' hw' binary' total' symbols'
  obtain ⟨rm, hrm, rfl⟩ := Insert.run_nameless hwm hpm hm hsm
  exact h3 hm hrm hp' hw' _ _ _

/-- **C80, when nothing crosses the place.** Then the bytes of the program stay as they are, and the new code is put between them. -/
theorem C80_between {srcName outName : Str} {x : Nat} {before after : List Stmt} (hi : Insertable x before after) (hn : NothingCrosses before after)
    {src : List Byte} (hp : IsProgram src (.org x :: (before ++ after))) {w : World} (hw : Setup w srcName outName src) {binary : List Byte} {total symbols : Nat}
    (h : Succeeds w srcName outName binary total symbols) :
    ∃ a b : List Byte, (∃ s, pass1 (.org x :: before) .init = some s ∧ s.pc = x + a.length) ∧ binary = placedAt x (a ++ b) ∧
      ∀ {mid : List Stmt} {midText code : List Byte} {t : Nat} {src' : List Byte} {wm w' : World}, (∀ st ∈ mid, st.Nameless) →
        IsProgram midText mid → Setup wm srcName outName midText → Succeeds wm srcName outName code t 0 →
        IsProgram src' (.org x :: (before ++ mid ++ after)) → Setup w' srcName outName src' →
        Succeeds w' srcName outName (placedAt x (a ++ code ++ b)) (total + code.length) symbols := by
  obtain ⟨r, hr⟩ := Insert.assembled hw hp h
  obtain ⟨A, B, h1, h2, h3⟩ := Insert.assemble_insert hi (mid0 := []) (fun _ h => nomatch h) (by simpa using hr)
  have hfix := h2 hn
  have g := Insert.run_straight hw hp hi.straight hr
  obtain ⟨rfl, rfl, rfl⟩ := Linked.succeeds_unique hw hp.size h g
  have fits : ∀ k, ∀ c ∈ A ++ B, c.Fits k := by
    intro k c hc
    obtain ⟨b, rfl⟩ := hfix c hc
    trivial
  have atA : ∀ k, A.map (Slot.at k) = A.map (Slot.at 0) := fun k => List.map_congr_left fun c hc => by
    obtain ⟨b, rfl⟩ := hfix c (List.mem_append_left _ hc)
    rfl
  have atB : ∀ k, B.map (Slot.at k) = B.map (Slot.at 0) := fun k => List.map_congr_left fun c hc => by
    obtain ⟨b, rfl⟩ := hfix c (List.mem_append_right _ hc)
    rfl
  obtain ⟨z1, _⟩ := h3 [] ⟨[], []⟩ (fun _ h => nomatch h) rfl
  have e0 : (image (Result.mk [] []).chunks) = [] := rfl
  rw [e0] at z1
  simp only [List.append_nil, List.length_nil, Nat.add_zero] at z1
  obtain ⟨r0, y1, y2, y3, y4⟩ := z1 (fits 0)
  rw [hr] at y1
  cases y1
  refine ⟨A.map (Slot.at 0), B.map (Slot.at 0), by simpa using h1, y2, ?_⟩
  intro mid midText code t src' wm w' hm hpm hwm hsm hp' hw'
  obtain ⟨rm, hrm, rfl⟩ := Insert.run_nameless hwm hpm hm hsm
  obtain ⟨k1, _⟩ := h3 mid rm hm hrm
  have hs' : ∀ st ∈ before ++ mid ++ after, st.isOrg = false ∧ st ≠ .stop := by
    intro st hst
    rcases List.mem_append.1 hst with hst | hst
    · rcases List.mem_append.1 hst with hst | hst
      · exact hi.straight st (List.mem_append_left _ hst)
      · exact Insert.nameless_straight hm st hst
    · exact hi.straight st (List.mem_append_right _ hst)
  obtain ⟨r'', j1, j2, j3, j4⟩ := k1 (fits _)
  have := Insert.run_straight hw' hp' hs' j1
  rw [atA, atB] at j2
  rw [← j2, ← j4, show totalBytes r.chunks + (image rm.chunks).length = totalBytes r''.chunks by omega]
  exact this

/-! A concrete case: a branch across the place ahead, one back, a jump to a label behind it, and one to a label before it. -/

def beforePart : List Stmt := [.instr (some (b! "LOOP")) .DEX .none, .instr none .BEQ (.plain (.sym (b! "DONE")))]
def afterPart : List Stmt := [.instr none .BNE (.plain (.sym (b! "LOOP"))), .instr (some (b! "DONE")) .INX .none, .instr none .JMP (.plain (.sym (b! "DONE"))),
  .instr none .JMP (.plain (.sym (b! "LOOP")))]
def newPart : List Stmt := [.instr none .LDA (.imm (.lit 1)), .instr none .STA (.plain (.lit 0x2000))]

theorem c80_insertable : Insertable 4 beforePart afterPart := ⟨by decide +kernel, Or.inr (by decide +kernel)⟩

theorem c80_nameless : ∀ st ∈ newPart, st.Nameless := by
  intro st h
  simp only [newPart, List.mem_cons, List.not_mem_nil, or_false] at h
  rcases h with rfl | rfl <;> intro l h <;> cases h

theorem c80_programs :
    IsProgram (b! "*=4\nLOOP: DEX\n BEQ DONE\n BNE LOOP\nDONE: INX\n JMP DONE\n JMP LOOP\n") (.org 4 :: (beforePart ++ afterPart)) ∧
    IsProgram (b! " LDA #1\n STA $2000\n") newPart ∧
    IsProgram (b! "*=4\nLOOP: DEX\n BEQ DONE\n LDA #1\n STA $2000\n BNE LOOP\nDONE: INX\n JMP DONE\n JMP LOOP\n")
      (.org 4 :: (beforePart ++ newPart ++ afterPart)) :=
  ⟨isProgram_eval (by decide +kernel) (by decide +kernel) (by decide +kernel) (by decide +kernel),
    isProgram_eval (by decide +kernel) (by decide +kernel) (by decide +kernel) (by decide +kernel),
    isProgram_eval (by decide +kernel) (by decide +kernel) (by decide +kernel) (by decide +kernel)⟩

example : ∃ A B : List Slot, [0, 0, 0, 0, 0xCA, 0xF0, 0x02, 0xD0, 0xFB, 0xE8, 0x4C, 9, 0, 0x4C, 4, 0] = placedAt 4 (A.map (Slot.at 0) ++ B.map (Slot.at 0)) ∧
    (∀ c ∈ A ++ B, c.Fits 5) ∧
    [0, 0, 0, 0, 0xCA, 0xF0, 0x07, 0xA9, 1, 0x8D, 0, 0x20, 0xD0, 0xF6, 0xE8, 0x4C, 14, 0, 0x4C, 4, 0] =
      placedAt 4 (A.map (Slot.at 5) ++ [0xA9, 1, 0x8D, 0, 0x20] ++ B.map (Slot.at 5)) := by
  obtain ⟨A, B, _, h1, h2⟩ := C80_insert (srcName := b! "p.asm") (outName := b! "p.bin") c80_insertable c80_programs.1 (demo_setup _)
    (demo_succeeds (bin := [0, 0, 0, 0, 0xCA, 0xF0, 0x02, 0xD0, 0xFB, 0xE8, 0x4C, 9, 0, 0x4C, 4, 0]) (total := 12) (symbols := 2) (by decide +kernel))
  obtain ⟨h3, h4, _⟩ := (h2 (mid := newPart) (t := 5) (code := [0xA9, 1, 0x8D, 0, 0x20]) c80_nameless c80_programs.2.1 (demo_setup _)
    (demo_succeeds (by decide +kernel)) c80_programs.2.2 (demo_setup _)
    [0, 0, 0, 0, 0xCA, 0xF0, 0x07, 0xA9, 1, 0x8D, 0, 0x20, 0xD0, 0xF6, 0xE8, 0x4C, 14, 0, 0x4C, 4, 0] 17 2).1 (demo_succeeds (by decide +kernel))
  exact ⟨A, B, h1, h3, h4⟩

/-- The instructions exchanged for others, and taken out again. -/
example : ∃ A B : List Slot, [0, 0, 0, 0, 0xCA, 0xF0, 0x07, 0xA9, 1, 0x8D, 0, 0x20, 0xD0, 0xF6, 0xE8, 0x4C, 14, 0, 0x4C, 4, 0] =
      placedAt 4 (A.map (Slot.at 5) ++ [0xA9, 1, 0x8D, 0, 0x20] ++ B.map (Slot.at 5)) ∧
    (∀ c ∈ A ++ B, c.Fits 2) ∧
    [0, 0, 0, 0, 0xCA, 0xF0, 0x04, 0xA5, 7, 0xD0, 0xF9, 0xE8, 0x4C, 11, 0, 0x4C, 4, 0] = placedAt 4 (A.map (Slot.at 2) ++ [0xA5, 7] ++ B.map (Slot.at 2)) := by
  obtain ⟨A, B, _, h1, h2⟩ := C80_exchange (srcName := b! "p.asm") (outName := b! "p.bin") (mid0 := newPart) (t0 := 5) (code0 := [0xA9, 1, 0x8D, 0, 0x20])
    c80_insertable c80_nameless c80_programs.2.1 (demo_setup _) (demo_succeeds (by decide +kernel)) c80_programs.2.2 (demo_setup _)
    (demo_succeeds (bin := [0, 0, 0, 0, 0xCA, 0xF0, 0x07, 0xA9, 1, 0x8D, 0, 0x20, 0xD0, 0xF6, 0xE8, 0x4C, 14, 0, 0x4C, 4, 0]) (total := 17) (symbols := 2) (by decide +kernel))
  have hn : ∀ st ∈ [Stmt.instr none .LDA (.plain (.lit 7))], st.Nameless := by
    intro st h
    simp only [List.mem_cons, List.not_mem_nil, or_false] at h
    subst h
    intro l h; cases h
  obtain ⟨h3, h4, _⟩ := (h2 (mid := [.instr none .LDA (.plain (.lit 7))]) (midText := b! " LDA 7\n") (t := 2) (code := [0xA5, 7])
    (src' := b! "*=4\nLOOP: DEX\n BEQ DONE\n LDA 7\n BNE LOOP\nDONE: INX\n JMP DONE\n JMP LOOP\n") hn
    (isProgram_eval (by decide +kernel) (by decide +kernel) (by decide +kernel) (by decide +kernel)) (demo_setup _)
    (demo_succeeds (by decide +kernel)) (isProgram_eval (by decide +kernel) (by decide +kernel) (by decide +kernel) (by decide +kernel)) (demo_setup _)
    [0, 0, 0, 0, 0xCA, 0xF0, 0x04, 0xA5, 7, 0xD0, 0xF9, 0xE8, 0x4C, 11, 0, 0x4C, 4, 0] 14 2).1 (demo_succeeds (by decide +kernel))
  exact ⟨A, B, h1, h3, h4⟩

/-! Nothing crosses the place between these. -/

def upperPart : List Stmt := [.instr (some (b! "UP")) .DEX .none, .instr none .BNE (.plain (.sym (b! "UP")))]
def lowerPart : List Stmt := [.instr (some (b! "DN")) .INX .none, .instr none .BNE (.plain (.sym (b! "DN"))), .instr none .JMP (.plain (.sym (b! "UP")))]

theorem c80_crosses : Insertable 4 upperPart lowerPart ∧ NothingCrosses upperPart lowerPart :=
  ⟨⟨by decide +kernel, Or.inr (by decide +kernel)⟩, ⟨by decide +kernel, by decide +kernel, by decide +kernel⟩⟩

example : Succeeds (demo (b! "*=4\nUP: DEX\n BNE UP\n LDA #1\n STA $2000\nDN: INX\n BNE DN\n JMP UP\n")) (b! "p.asm") (b! "p.bin")
    [0, 0, 0, 0, 0xCA, 0xD0, 0xFD, 0xA9, 1, 0x8D, 0, 0x20, 0xE8, 0xD0, 0xFD, 0x4C, 4, 0] 14 2 := by
  obtain ⟨a, b, h0, h1, h2⟩ := C80_between (srcName := b! "p.asm") (outName := b! "p.bin") c80_crosses.1 c80_crosses.2
    (isProgram_eval (src := b! "*=4\nUP: DEX\n BNE UP\nDN: INX\n BNE DN\n JMP UP\n") (by decide +kernel) (by decide +kernel) (by decide +kernel) (by decide +kernel)) (demo_setup _)
    (demo_succeeds (bin := [0, 0, 0, 0, 0xCA, 0xD0, 0xFD, 0xE8, 0xD0, 0xFD, 0x4C, 4, 0]) (total := 9) (symbols := 2) (by decide +kernel))
  have h := h2 (mid := newPart) (t := 5) (code := [0xA9, 1, 0x8D, 0, 0x20]) (src' := b! "*=4\nUP: DEX\n BNE UP\n LDA #1\n STA $2000\nDN: INX\n BNE DN\n JMP UP\n") c80_nameless c80_programs.2.1 (demo_setup _)
    (demo_succeeds (by decide +kernel)) (isProgram_eval (by decide +kernel) (by decide +kernel) (by decide +kernel) (by decide +kernel)) (demo_setup _)
  have e : (pass1 (.org 4 :: upperPart) .init).map (·.pc) = some 7 := by decide +kernel
  obtain ⟨s, hs, hl⟩ := h0
  rw [hs] at e
  simp only [Option.map_some, Option.some.injEq] at e
  have hlen : a.length = 3 := by omega
  obtain ⟨p, q, r, rfl⟩ : ∃ p q r, a = [p, q, r] := by
    match a, hlen with
    | [p, q, r], _ => exact ⟨p, q, r, rfl⟩
  have h1' : [0, 0, 0, 0, 0xCA, 0xD0, 0xFD, 0xE8, 0xD0, 0xFD, 0x4C, 4, 0] = (0 : Byte) :: 0 :: 0 :: 0 :: p :: q :: r :: b := h1
  simp only [List.cons.injEq, true_and] at h1'
  obtain ⟨rfl, rfl, rfl, rfl⟩ := h1'
  exact h

/-- The conditions are needed. With code on page zero an instruction that uses an address behind the place can change its size; and a branch across the place can
get out of reach. -/
theorem C80_conditions :
    ((Reference.run [] (b! "*=$FF\n" ++ b! "V: NOP\n LDA V\n")).file.drop 0xFF = [0xEA, 0xA5, 0xFF] ∧
      (Reference.run [] (b! "*=$FF\n" ++ b! " NOP\n" ++ b! "V: NOP\n LDA V\n")).file.drop 0xFF = [0xEA, 0xEA, 0xAD, 0x00, 0x01]) ∧
    (let nops := (List.replicate 127 (b! " NOP\n")).flatten
     (Reference.run [] (b! " BEQ L\n" ++ nops ++ b! "L: RTS\n")).status = 0 ∧
      (Reference.run [] (b! " BEQ L\n" ++ b! " NOP\n" ++ nops ++ b! "L: RTS\n")).status = 1) := by
  decide +kernel

end Gaia

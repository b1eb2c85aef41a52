import Verif.Proofs.TwoPass
import Verif.Spec.Truncate

/-! gaia against the two-pass assembler that cuts operand values to the size of their field. -/
set_option linter.unusedSimpArgs false
namespace Gaia
open Spec

theorem operandBytesLow_some {env : Env} {it : Item} {o : Opd} (ho : it.opd = some o) (h1 : it.mode.bytes ≠ 1) :
    operandBytesLow env it = (opdValue env o).bind fun v =>
      if it.mode = .rel then
        match o with
        | .lit v => some [UInt8.ofNat (v % 256)]
        | .sym _ => (branchByte it.addr v).map fun b => [b]
      else if it.mode.bytes = 2 then some [UInt8.ofNat (v % 256)]
      else some [UInt8.ofNat (v % 256), UInt8.ofNat (v / 256 % 256)] := by
  unfold operandBytesLow
  rcases mode_bytes_cases it.mode with h | h | h
  · exact absurd h h1
  · rw [h, ho]; rfl
  · rw [h, ho]; rfl

theorem encodeLow_iff {env : Env} {e : Placed} (hm : Made e) (hk : ∀ l v, e.known.lookup l = some v → env.lookup l = some v) :
    (¬ Immediate e ∧ Placed.fault env e = none → encodeLow env e.item = some (rawBytes env e.item)) ∧
    ((encodeLow env e.item).isSome = true → ¬ Immediate e ∧ Placed.fault env e = none) := by
  have hok := hm.ok
  obtain ⟨⟨op, hop⟩, hb1, hrel⟩ := hok
  have hbc := mode_bytes_cases e.item.mode
  have hrel2 : e.item.mode = .rel → e.item.mode.bytes = 2 := fun h => by rw [h]; rfl
  unfold encodeLow
  simp only [hop, Option.bind_eq_bind, Option.bind_some]
  cases ho : e.item.opd with
  | none =>
    have h1 : e.item.mode.bytes = 1 := hb1.1 ho
    have himm : ¬ Immediate e := by rintro ⟨_, l, t, h, _⟩; rw [ho] at h; cases h
    have hfw : e.forward = none := by unfold Placed.forward; rw [ho]
    have hfa : Placed.fault env e = none := by unfold Placed.fault; rw [hfw]
    refine ⟨fun _ => ?_, fun _ => ⟨himm, hfa⟩⟩
    unfold operandBytesLow
    rw [h1]
    simp [rawBytes, hop, ho]
  | some o =>
    have h1 : e.item.mode.bytes ≠ 1 := fun h => by rw [hb1.2 h] at ho; cases ho
    rw [operandBytesLow_some ho h1]
    have hbyte : ∀ w : Nat, UInt8.ofNat (w % 256) = UInt8.ofNat w := by
      intro w; apply UInt8.toNat_inj.1; simp
    cases o with
    | lit w =>
      have himm : ¬ Immediate e := by rintro ⟨_, l, t, h, _⟩; rw [ho] at h; cases h
      have hfw : e.forward = none := by unfold Placed.forward; rw [ho]
      have hfa : Placed.fault env e = none := by unfold Placed.fault; rw [hfw]
      refine ⟨fun _ => ?_, fun _ => ⟨himm, hfa⟩⟩
      simp only [opdValue, Option.bind_some, rawBytes, hop, ho, Option.getD_some, hbyte]
      by_cases hr : e.item.mode = .rel
      · have h2 := hrel2 hr
        rw [if_pos hr, if_neg (by omega)]
        rfl
      · rw [if_neg hr]
        by_cases h2 : e.item.mode.bytes = 2
        · rw [if_pos h2, if_neg (by omega)]
          rfl
        · rw [if_neg h2, if_pos (by omega)]
          rfl
    | sym l =>
      have hfw : e.forward = if (e.known.lookup l).isSome then none else some l := by
        unfold Placed.forward; rw [ho]
      have hbr : e.item.mode = .rel ↔ Spec.isBranch e.item.mnemonic = true :=
        hrel.trans ⟨fun h => h.2, fun h => ⟨by rw [ho]; simp, h⟩⟩
      cases hl : env.lookup l with
      | none =>
        have hkn : e.known.lookup l = none := by
          by_contra h
          obtain ⟨x, hx⟩ := Option.ne_none_iff_exists'.1 h
          rw [hk l x hx] at hl; cases hl
        have hfa : Placed.fault env e = some (e.line, .missingLabelDefinition) := by
          unfold Placed.fault
          rw [hfw, hkn]
          simp [hl]
        constructor
        · rintro ⟨_, h⟩; rw [hfa] at h; cases h
        · intro h; simp [opdValue, hl] at h
      | some t =>
        have heq : (¬ Immediate e ∧ Placed.fault env e = none) ↔
            ¬ (Spec.isBranch e.item.mnemonic = true ∧ branchByte e.item.addr t = none) := by
          cases hkn : e.known.lookup l with
          | some x =>
            have := hk l x hkn
            rw [hl] at this
            obtain rfl : t = x := by simpa using this
            have hf : e.forward = none := by rw [hfw, hkn]; rfl
            have hfa : Placed.fault env e = none := by unfold Placed.fault; rw [hf]
            have him : Immediate e ↔ (Spec.isBranch e.item.mnemonic = true ∧ branchByte e.item.addr t = none) := by
              unfold Immediate
              rw [ho]
              constructor
              · rintro ⟨h1, l', t', h2, h3, h4⟩
                obtain rfl : l = l' := by simpa using h2
                rw [hkn] at h3; obtain rfl : t = t' := by simpa using h3
                exact ⟨h1, h4⟩
              · rintro ⟨h1, h2⟩; exact ⟨h1, l, t, rfl, hkn, h2⟩
            rw [him, hfa]
            simp
          | none =>
            have hf : e.forward = some l := by rw [hfw, hkn]; rfl
            have him : ¬ Immediate e := by
              rintro ⟨h1, l', t', h2, h3, h4⟩
              rw [ho] at h2
              obtain rfl : l = l' := by simpa using h2
              rw [hkn] at h3; cases h3
            have hfa : Placed.fault env e = if Spec.isBranch e.item.mnemonic ∧ branchByte e.item.addr t = none then
                some (e.line, .tooBigOffset) else none := by
              unfold Placed.fault; simp only [hf, hl]
            rw [hfa]
            simp [him]
        rw [heq]
        simp only [opdValue, hl, Option.bind_some, rawBytes, hop, ho, Option.getD_some, hbyte]
        by_cases hr : e.item.mode = .rel
        · rw [if_pos hr, if_pos hr]
          cases hbb : branchByte e.item.addr t with
          | none =>
            simp only [Option.map_none, and_true]
            exact ⟨fun h => absurd (hbr.1 hr) h, fun h => by simp at h⟩
          | some b => simp
        · rw [if_neg hr, if_neg hr]
          have hnb : ¬ Spec.isBranch e.item.mnemonic = true := fun h => hr (hbr.2 h)
          by_cases h2 : e.item.mode.bytes = 2
          · rw [if_pos h2, if_neg (by omega)]
            exact ⟨fun _ => rfl, fun _ h => hnb h.1⟩
          · rw [if_neg h2, if_pos (by omega)]
            exact ⟨fun _ => rfl, fun _ h => hnb h.1⟩

theorem pass2Low_some {env : Env} : ∀ {items : List Item} {cs : List Chunk}, pass2Low env items = some cs →
    ∀ it ∈ items, (encodeLow env it).isSome = true
  | [], _, _, it, h => by simp at h
  | x :: items, cs, h, it, hm => by
    unfold pass2Low at h
    simp only [Option.bind_eq_bind, Option.bind_eq_some_iff] at h
    obtain ⟨b, h1, c, h2, _⟩ := h
    rcases List.mem_cons.1 hm with rfl | hm
    · rw [h1]; rfl
    · exact pass2Low_some h2 it hm

theorem pass2Low_all {env : Env} {f : Item → List Byte} : ∀ {items : List Item}, (∀ it ∈ items, encodeLow env it = some (f it)) →
    pass2Low env items = some (items.map fun it => (it.addr, f it))
  | [], _ => rfl
  | x :: items, h => by
    unfold pass2Low
    rw [h x (by simp), pass2Low_all (fun it hit => h it (by simp [hit]))]
    rfl

/-- The two-pass assembler that cuts operands refuses exactly what `check` finds fault with. -/
theorem check_assembleLow {p : List Stmt} :
    (check p = none → ∃ s, pass1 p .init = some s ∧
      assembleLow p = some ⟨finals s.env (placed p 1 .init), s.env⟩) ∧
    ((assembleLow p).isSome = true → check p = none) := by
  constructor
  · intro h
    unfold check at h
    cases hf : firstFault p 1 .init with
    | some f => rw [hf] at h; cases h
    | none =>
      rw [hf] at h
      obtain ⟨s, h1, h2⟩ := (firstFault_none_iff p 1 .init).1 hf
      rw [h1] at h
      simp only [Option.getD_some, List.findSome?_eq_none_iff] at h
      refine ⟨s, h1, ?_⟩
      obtain ⟨g1, g2⟩ := placed_made p 1 h1
      have g1 : s.items = (placed p 1 .init).map (·.item) := by simpa [Pass1.init] using g1
      unfold assembleLow
      have h1' : pass1 p ⟨0, [], []⟩ = some s := h1
      simp only [h1', Option.bind_eq_bind, Option.bind_some]
      have henc : ∀ it ∈ s.items, encodeLow s.env it = some (rawBytes s.env it) := by
        intro it hit
        rw [g1, List.mem_map] at hit
        obtain ⟨e, he, rfl⟩ := hit
        exact (encodeLow_iff (g2 e he).1 (g2 e he).2).1 ⟨h2 e he, h e he⟩
      rw [pass2Low_all henc, g1]
      simp [finals]
  · intro h
    unfold assembleLow at h
    simp only [Option.bind_eq_bind] at h
    cases h1 : pass1 p .init with
    | none =>
      have h1' : pass1 p ⟨0, [], []⟩ = none := h1
      rw [h1'] at h; simp at h
    | some s =>
      have h1' : pass1 p ⟨0, [], []⟩ = some s := h1
      rw [h1'] at h
      simp only [Option.bind_some] at h
      cases h2 : pass2Low s.env s.items with
      | none => rw [h2] at h; simp at h
      | some cs =>
        obtain ⟨g1, g2⟩ := placed_made p 1 h1
        have g1 : s.items = (placed p 1 .init).map (·.item) := by simpa [Pass1.init] using g1
        have hall := pass2Low_some h2
        have hb : ∀ e ∈ placed p 1 .init, ¬ Immediate e ∧ Placed.fault s.env e = none := by
          intro e he
          have hmem : e.item ∈ s.items := by rw [g1]; exact List.mem_map_of_mem he
          exact (encodeLow_iff (g2 e he).1 (g2 e he).2).2 (hall _ hmem)
        unfold check
        rw [(firstFault_none_iff p 1 .init).2 ⟨s, h1, fun e he => (hb e he).1⟩, h1]
        simp only [Option.getD_some, List.findSome?_eq_none_iff]
        exact fun e he => (hb e he).2

theorem assembleLow_some {p : List Stmt} {r : Result} (h : assembleLow p = some r) :
    check p = none ∧ ∃ s, pass1 p .init = some s ∧ r = ⟨finals s.env (placed p 1 .init), s.env⟩ := by
  have hc := check_assembleLow.2 (by rw [h]; rfl)
  obtain ⟨s, h1, h2⟩ := check_assembleLow.1 hc
  rw [h] at h2
  exact ⟨hc, s, h1, by simpa using h2⟩

/-- The assembler that refuses too large values agrees with the one that cuts them, where it succeeds. -/
theorem assembleLow_of_assemble {p : List Stmt} {r : Result} (h : assemble p = some r) : assembleLow p = some r := by
  have hc := (check_assemble (assemble_inRange h)).2 (by rw [h]; rfl)
  obtain ⟨s, g1, g2⟩ := (check_assemble (assemble_inRange h)).1 hc
  obtain ⟨s', g3, g4⟩ := check_assembleLow.1 hc
  rw [g1] at g3
  obtain rfl : s = s' := by simpa using g3
  rw [g4, ← g2, h]

/-- gaia succeeds where `assembleLow` does. -/
theorem run_assembledLow {w : World} {srcName outName : Str} {src : List Byte} {p : List Stmt} (hw : Setup w srcName outName src)
    (hp : IsProgram src p) {r : Result} (hr : assembleLow p = some r) :
    ∃ bin, Succeeds w srcName outName bin (totalBytes r.chunks) r.env.length ∧
      (Harmless (placed p 1 .init) → bin = image r.chunks) := by
  obtain ⟨hc, s, g1, rfl⟩ := assembleLow_some hr
  obtain ⟨s', bin, h1, h2, h3, _, h5⟩ := run_ok hw hp hc
  rw [g1] at h1
  obtain rfl : s = s' := by simpa using h1
  refine ⟨bin, ?_, h5⟩
  rw [finals_total (placed_ok g1), ← h2]
  exact h3

end Gaia

import Verif.Proofs.Parts

/-! C79: sections of code at different addresses. -/
set_option maxRecDepth 20000
namespace Gaia
open Spec Spec.Reference

/-- **C79.** Take sections that gaia assembles alone, each behind a line that sets the origin, without common names and addresses, each with a first
instruction that is no forward reference. Then gaia assembles them one behind the other, in any order: the output holds the code of each section at
its origin, zeros elsewhere, and nothing behind the last byte of code; the numbers of bytes and symbols are the sums. -/
theorem C79_sections {srcName outName : Str} {parts : List Part} (hp : ∀ p ∈ parts, p.Alone srcName outName) (ha : parts.Pairwise Part.Apart)
    (hs : Sized (parts.flatMap Part.text)) {w : World} (hw : Setup w srcName outName (parts.flatMap Part.text)) :
    ∃ binary, Combined parts binary ∧
      Succeeds w srcName outName binary (parts.map (·.code.length)).sum (parts.map (·.symbols)).sum := by
  have hsz : ∀ p ∈ parts, Sized p.text := by
    intro p h
    refine sized_sublist ?_ hs
    obtain ⟨a, b, rfl⟩ := List.append_of_mem h
    rw [List.flatMap_append, List.flatMap_cons]
    exact (List.sublist_append_left _ _).trans (List.sublist_append_right _ _)
  obtain ⟨s, h1, h2⟩ := Parts.run_all [] (Parts.Inv.init srcName) (fun p h => ⟨hp p h, hsz p h⟩) ha
  rw [List.nil_append] at h2
  rw [← Parts.pieces_all parts fun p h => Parts.whole_text (hp p h)] at h1
  obtain ⟨D, d1, d2, d3, d4⟩ := h2.writes
  have hr : resolve srcName s.env s.pending s.writes = .ok (s.writes ++ D) := by
    have := d1 s.env (fun _ _ h => h) [] s.writes
    rwa [List.append_nil] at this
  have hin : ∀ p ∈ parts, ∀ i, p.Covers i → i < imageEnd (s.writes ++ D) := by
    intro p h i hi
    obtain ⟨c, hc, h3⟩ := d4 p h (by rintro h'; have := hi.1; have := hi.2; rw [h'] at this; simp at this; omega)
    have := le_imageEnd (W := s.writes ++ D) (List.mem_append_left _ hc)
    have := hi.2
    omega
  refine ⟨image (s.writes ++ D), ⟨?_, ?_, ?_⟩, (C57_success hw hs _ _ _).2 ⟨s, _, h1, hr, rfl, h2.total.symm, h2.count.symm⟩⟩
  · intro p h i hi
    rw [image_get (hin p h _ ⟨by omega, by omega⟩), d3 p h i hi]
  · intro i hi hno
    rw [image_length] at hi
    rw [image_get hi]
    congr 1
    unfold byteAt
    rw [Mods.find_none]
    · rfl
    · intro c hc
      obtain ⟨_, p, h, h3⟩ := d2 c hc
      by_contra hcon
      exact hno p h ⟨by omega, by omega⟩
  · intro n hn
    rw [image_length] at hn
    by_contra hcon
    push Not at hcon
    have : imageEnd (s.writes ++ D) ≤ n := by
      refine imageEnd_le fun c hc => ?_
      obtain ⟨hne, p, h, h3⟩ := d2 c hc
      have hpos := List.length_pos_of_ne_nil hne
      by_contra hlt
      exact hcon p h (c.1 + c.2.length - 1) (by omega) ⟨by omega, by omega⟩
    omega

/-- What `Combined` says determines the file. -/
theorem combined_unique {parts parts' : List Part} (h : ∀ p, p ∈ parts ↔ p ∈ parts') {a b : List Byte} (ha : Combined parts a) (hb : Combined parts' b) : a = b := by
  have hlen : ∀ {P P' : List Part} {a b : List Byte}, (∀ p, p ∈ P → p ∈ P') → Combined P a → Combined P' b → a.length ≤ b.length := by
    intro P P' a b h ha hb
    by_contra hlt
    obtain ⟨p, hp, i, hi, hc⟩ := ha.last b.length (by omega)
    have h1 := hb.code p (h p hp) (i - p.origin) (by have := hc.1; have := hc.2; omega)
    have h2 : b[p.origin + (i - p.origin)]? = none := List.getElem?_eq_none (by have := hc.1; omega)
    rw [h2, List.getElem?_eq_getElem (by have := hc.1; have := hc.2; omega)] at h1
    cases h1
  have hl : a.length = b.length := Nat.le_antisymm (hlen (fun p => (h p).1) ha hb) (hlen (fun p => (h p).2) hb ha)
  refine List.ext_getElem? fun i => ?_
  by_cases hi : i < a.length
  · by_cases hc : ∃ p ∈ parts, p.Covers i
    · obtain ⟨p, hp, h1, h2⟩ := hc
      have e1 := ha.code p hp (i - p.origin) (by omega)
      have e2 := hb.code p ((h p).1 hp) (i - p.origin) (by omega)
      rw [show p.origin + (i - p.origin) = i by omega] at e1 e2
      rw [e1, e2]
    · push Not at hc
      rw [ha.zeros i hi hc, hb.zeros i (by omega) fun p hp => hc p ((h p).2 hp)]
  · rw [List.getElem?_eq_none (by omega), List.getElem?_eq_none (by omega)]

/-- **C79.** The order of such sections does not matter: any two orders give the same output, with the same numbers of bytes and symbols. -/
theorem C79_order {srcName outName : Str} {parts parts' : List Part} (hperm : parts.Perm parts') (hp : ∀ p ∈ parts, p.Alone srcName outName)
    (ha : parts.Pairwise Part.Apart) (hs : Sized (parts.flatMap Part.text)) (hs' : Sized (parts'.flatMap Part.text)) {w w' : World}
    (hw : Setup w srcName outName (parts.flatMap Part.text)) (hw' : Setup w' srcName outName (parts'.flatMap Part.text)) :
    ∃ binary total symbols, Succeeds w srcName outName binary total symbols ∧ Succeeds w' srcName outName binary total symbols := by
  have hsym : ∀ {p q : Part}, p.Apart q → q.Apart p := fun {p q} h => ⟨fun l h1 h2 => h.1 l h2 h1, fun i hi => h.2 i ⟨hi.2, hi.1⟩⟩
  obtain ⟨b, h1, h2⟩ := C79_sections hp ha hs hw
  obtain ⟨b', h1', h2'⟩ := C79_sections (fun p h => hp p (hperm.mem_iff.2 h)) (hperm.pairwise ha hsym) hs' hw'
  cases combined_unique (fun p => hperm.mem_iff) h1 h1'
  rw [← (hperm.map _).sum_eq, ← (hperm.map _).sum_eq] at h2'
  exact ⟨b, _, _, h2, h2'⟩

/-! Concrete cases. -/

/-- Two sections, the second of which lies below the first. -/
def highPart : Part := ⟨b! "*=$10\n", 0x10, b! "HI: LDX #5\nLOOP: DEX\n BNE LOOP\n JMP OUT\nOUT: RTS\n", [0xA2, 5, 0xCA, 0xD0, 0xFD, 0x4C, 0x18, 0, 0x60], 3⟩
def lowPart : Part := ⟨b! "*=4\n", 4, b! "K0 = 7\nSTART: LDA K0\n BEQ DONE\nDONE: RTS\n", [0xA5, 7, 0xF0, 0, 0x60], 3⟩

theorem highPart_alone : highPart.Alone (b! "p.asm") (b! "p.bin") :=
  ⟨by decide +kernel, .inr ⟨highPart.body.dropLast, by decide +kernel⟩, by decide +kernel, by decide +kernel, by decide +kernel,
    demo highPart.text, demo_setup _, demo_succeeds (by decide +kernel)⟩

theorem lowPart_alone : lowPart.Alone (b! "p.asm") (b! "p.bin") :=
  ⟨by decide +kernel, .inr ⟨lowPart.body.dropLast, by decide +kernel⟩, by decide +kernel, by decide +kernel, by decide +kernel,
    demo lowPart.text, demo_setup _, demo_succeeds (by decide +kernel)⟩

theorem parts_apart : [highPart, lowPart].Pairwise Part.Apart := by
  refine List.pairwise_pair.2 ⟨by decide +kernel, fun i hi => ?_⟩
  have h1 := hi.1.1
  have h2 := hi.2.2
  have e1 : highPart.origin = 16 := rfl
  have e2 : lowPart.origin + lowPart.code.length = 9 := rfl
  omega

/-- Both orders. -/
example : Succeeds (demo ([highPart, lowPart].flatMap Part.text)) (b! "p.asm") (b! "p.bin")
      [0, 0, 0, 0, 0xA5, 7, 0xF0, 0, 0x60, 0, 0, 0, 0, 0, 0, 0, 0xA2, 5, 0xCA, 0xD0, 0xFD, 0x4C, 0x18, 0, 0x60] 14 6 ∧
    Succeeds (demo ([lowPart, highPart].flatMap Part.text)) (b! "p.asm") (b! "p.bin")
      [0, 0, 0, 0, 0xA5, 7, 0xF0, 0, 0x60, 0, 0, 0, 0, 0, 0, 0, 0xA2, 5, 0xCA, 0xD0, 0xFD, 0x4C, 0x18, 0, 0x60] 14 6 :=
  ⟨demo_succeeds (by decide +kernel), demo_succeeds (by decide +kernel)⟩

example : ∃ binary, Combined [highPart, lowPart] binary ∧
    Succeeds (demo ([highPart, lowPart].flatMap Part.text)) (b! "p.asm") (b! "p.bin") binary 14 6 :=
  C79_sections (by
    intro p h
    simp only [List.mem_cons, List.not_mem_nil, or_false] at h
    rcases h with rfl | rfl
    · exact highPart_alone
    · exact lowPart_alone) parts_apart (by decide +kernel) (demo_setup _)

/-- The conditions are needed. Code at the same address: the last section wins. A first instruction that is a forward reference: zeros are written
behind the section before it, over the section that is there. A name in both: refused. -/
theorem C79_conditions :
    ((Reference.run [] (b! "*=1\n NOP\n*=1\n RTS\n")).file = [0, 0x60] ∧ (Reference.run [] (b! "*=1\n RTS\n*=1\n NOP\n")).file = [0, 0xEA]) ∧
    ((Reference.run [] (b! "*=1\n NOP\n*=0\n RTS\n*=4\n BEQ L\nL: RTS\n")).file = [0x60, 0, 0, 0, 0xF0, 0, 0x60] ∧
     (Reference.run [] (b! "*=0\n RTS\n*=1\n NOP\n*=4\n BEQ L\nL: RTS\n")).file = [0x60, 0xEA, 0, 0, 0xF0, 0, 0x60]) ∧
    ((Reference.run [] (b! "*=0\nL: RTS\n*=1\nL: RTS\n")).status = 1) := by
  decide +kernel

end Gaia

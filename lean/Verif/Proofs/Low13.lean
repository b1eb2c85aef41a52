import Verif.Proofs.Low12
import Verif.Proofs.MemoryTop

/-! The model with pointers: giving up and cleaning up. -/
namespace Gaia.Low
open Gaia
open Gaia.Memory

section
variable {o : Oracle} {s s' : Store} {h : Heap} {m m' : Nat → Option Obj}

theorem LexAt.congr {l : LexerB} (h : LexAt m l) (hm : ∀ p ∈ l.blocks, m' p = m p) : LexAt m' l := by
  obtain ⟨x, h1, h2⟩ := h.left.head
  refine ⟨h.len, h.nodup, ⟨by rw [hm _ (by simp [LexerB.blocks])]; exact h.left.arr,
    ⟨x, by rw [hm _ (by simp [LexerB.blocks])]; exact h1, h2⟩, ?_⟩⟩
  intro b hb
  obtain ⟨t, ht⟩ := h.left.toks b hb
  refine ⟨t, ht.congr fun p hp => hm p ?_⟩
  unfold LexerB.blocks
  exact List.mem_append_left _ (List.mem_flatMap.2 ⟨b, hb, hp⟩)

theorem TokAt.congr' {b : TokenB} (h : ∃ t, TokAt m b t) (hm : ∀ p ∈ b.blocks, m' p = m p) : ∃ t, TokAt m' b t := by
  obtain ⟨t, ht⟩ := h
  exact ⟨t, ht.congr hm⟩

/-- What `abort_gaia` is given, in memory. -/
structure HeldAt (m : Nat → Option Obj) (H : Low.Held) (M : Memory.Held) : Prop where
  inf : H.inf = M.inf
  outf : H.outf = M.outf
  lexer : H.lexer = M.lexer.map (·.blk)
  tk : H.tk = M.tk.map (·.blk)
  instr : H.instr = M.instr
  symtab : H.symtab = M.symtab.map (·.blk)
  unres : H.unres = M.unres.map (·.blk)
  lexerAt : ∀ l, M.lexer = some l → LexAt m l
  tkAt : ∀ b, M.tk = some b → ∃ t, TokAt m b t
  symtabAt : ∀ t, M.symtab = some t → TabAt m t ∧ t.blocks.Nodup
  unresAt : ∀ u, M.unres = some u → UnresAt m u ∧ (full u).Nodup
  nodup : (optBlocks LexerB.blocks M.lexer ++ (optBlocks TokenB.blocks M.tk ++ (M.instr.toList ++
    (optBlocks SymTabB.blocks M.symtab ++ optBlocks full M.unres)))).Nodup

/-- `if (p) destroy(p);` -/
theorem ifHeld_sim {α : Type} (hh : s.heap = h) {blk : α → Nat} {bl : α → List Nat} {P : Option Nat} {x : Option α} (hp : P = x.map blk)
    {f : Nat → M Unit} {g : α → Mem Heap Unit} {E : Store → Heap → Prop}
    (hf : ∀ a, x = some a → Sim (f (blk a) o s) (g a o h) (fun _ s' _ h' => Frees (bl a) s s' h') E) :
    Sim (ifHeld P f o s) (Memory.ifHeld x g o h) (fun _ s' _ h' => Frees (optBlocks bl x) s s' h') E := by
  subst hp
  cases x with
  | none => exact ⟨(), s, rfl, hh, Gone.refl _ _⟩
  | some a => exact hf a rfl

theorem fclose_sim (hh : s.heap = h) (n : Nat) {E : Store → Heap → Prop} :
    Sim (fclose n o s) (Memory.fclose n o h) (fun _ s' _ h' => Frees [] s s' h') E := by
  unfold fclose onHeap Memory.fclose
  rw [hh]
  by_cases hn : n ∈ h.files
  · simp only [hn, if_true]
    exact ⟨(), _, rfl, rfl, fun _ _ => rfl⟩
  · simp only [hn, if_false]
    trivial

theorem ifClose_sim (hh : s.heap = h) (P : Option Nat) {E : Store → Heap → Prop} :
    Sim (ifHeld P fclose o s) (Memory.ifHeld P Memory.fclose o h) (fun _ s' _ h' => Frees [] s s' h') E := by
  cases P with
  | none => exact ⟨(), s, rfl, hh, Gone.refl _ _⟩
  | some n => exact fclose_sim hh n

theorem abortGaia_sim (hh : s.heap = h) {H : Low.Held} {M : Memory.Held} (hH : HeldAt s.mem H M) {E : Store → Heap → Prop} :
    Sim (abortGaia H o s) (Memory.abortGaia M o h) (fun _ s' _ h' => s'.heap = h') E := by
  obtain ⟨i1, i2, i3, i4, i5, i6, i7, j1, j2, j4, j5, hn⟩ := hH
  rw [List.nodup_append] at hn
  obtain ⟨_, hn, d1⟩ := hn
  rw [List.nodup_append] at hn
  obtain ⟨_, hn, d2⟩ := hn
  rw [List.nodup_append] at hn
  obtain ⟨_, hn, d3⟩ := hn
  rw [List.nodup_append] at hn
  obtain ⟨_, _, d4⟩ := hn
  unfold abortGaia Memory.abortGaia
  rw [i1, i2]
  refine Sim.bind (ifClose_sim hh _) ?_
  rintro _ s1 _ h1 ⟨hh1, g1⟩
  refine Sim.bind (ifClose_sim hh1 _) ?_
  rintro _ s2 _ h2 ⟨hh2, g2⟩
  have k2 : ∀ p, s2.mem p = s.mem p := fun p => by rw [g2 p (by simp), g1 p (by simp)]
  refine Sim.bind (ifHeld_sim hh2 (bl := LexerB.blocks) i3 fun l hl => destroyLexer_sim hh2 ((j1 l hl).congr fun p _ => k2 p)) ?_
  rintro _ s3 _ h3 ⟨hh3, g3⟩
  have k3 : ∀ p, p ∉ optBlocks LexerB.blocks M.lexer → s3.mem p = s.mem p := fun p hp => by rw [g3 p hp, k2]
  refine Sim.bind (ifHeld_sim hh3 (bl := TokenB.blocks) i4 fun b hb => destroyToken_sim hh3 (TokAt.congr' (j2 b hb) fun p hp => k3 p
    (fun hq => d1 p hq p (by rw [hb]; exact List.mem_append_left _ hp) rfl))) ?_
  rintro _ s4 _ h4 ⟨hh4, g4⟩
  have k4 : ∀ p, p ∉ optBlocks LexerB.blocks M.lexer → p ∉ optBlocks TokenB.blocks M.tk → s4.mem p = s.mem p :=
    fun p hp hq => by rw [g4 p hq, k3 p hp]
  refine Sim.bind (ifHeld_sim hh4 (blk := id) (bl := fun p => [p]) (by rw [i5]; simp) fun p hp => free_sim hh4 p) ?_
  rintro _ s5 _ h5 ⟨hh5, g5⟩
  have g5' : ∀ p, p ∉ M.instr.toList → s5.mem p = s4.mem p := fun p hp => g5 p (by
    cases hi : M.instr with
    | none => simp [optBlocks]
    | some a => rw [hi] at hp; simpa [optBlocks] using hp)
  refine Sim.bind (ifHeld_sim hh5 (bl := SymTabB.blocks) i6 fun t ht => destroySymbolTable_sim hh5 ((j4 t ht).1.congr fun p hp => ?_) (j4 t ht).2) ?_
  · have hp' : p ∈ optBlocks SymTabB.blocks M.symtab := by rw [ht]; exact hp
    rw [g5' p (fun hq => d3 p hq p (List.mem_append_left _ hp') rfl),
      k4 p (fun hq => d1 p hq p (by simp [hp']) rfl) (fun hq => d2 p hq p (by simp [hp']) rfl)]
  rintro _ s6 _ h6 ⟨hh6, g6⟩
  refine (ifHeld_sim hh6 (bl := full) i7 fun u hu => destroyUnresolved_sim hh6 ((j5 u hu).1.congr fun p hp => ?_) (j5 u hu).2).mono ?_
    (fun _ _ he => he)
  · have hp' : p ∈ optBlocks full M.unres := by rw [hu]; exact hp
    rw [g6 p (fun hq => d4 p hq p hp' rfl), g5' p (fun hq => d3 p hq p (List.mem_append_right _ hp') rfl),
      k4 p (fun hq => d1 p hq p (by simp [hp']) rfl) (fun hq => d2 p hq p (by simp [hp']) rfl)]
  · rintro _ s7 _ h7 ⟨hh7, _⟩
    exact hh7

theorem forall₂_left {α β : Type} {R : α → β → Prop} {l : List α} {l' : List β} (h : List.Forall₂ R l l') {a : α} (ha : a ∈ l) :
    ∃ b, R a b := by
  induction h with
  | nil => cases ha
  | @cons a' b' _ _ h1 _ ih =>
    rcases List.mem_cons.1 ha with rfl | ha
    · exact ⟨b', h1⟩
    · exact ih ha

theorem Scratch.lexAt {lB : LexerB} {tB : TokenB} {iB : Nat} (h : Scratch s lB tB iB) : LexAt s.mem lB := by
  obtain ⟨seq, hs⟩ := h.seq
  obtain ⟨x, h1, h2, _⟩ := hs.head
  exact ⟨h.len, hs.nodup, hs.arr, ⟨x, h1, h2⟩, fun b hb => forall₂_left hs.toks hb⟩

/-- What the main loop leaves can be given up. -/
theorem Linked.held {fn : Str} {σ : State} {S : Memory.State} (h : Linked fn σ S) :
    HeldAt σ.store.mem ⟨some 0, some 1, some σ.lexer, some σ.tk, some σ.instr, some σ.symtab, some σ.unres⟩
      ⟨some 0, some 1, some S.lexerB, some S.tkB, some S.instrB, some S.symtab, some S.unres⟩ := by
  have hp := h.parts
  refine ⟨rfl, rfl, congrArg some h.lexer, congrArg some h.tk, congrArg some h.instr, congrArg some h.symtab, congrArg some h.unres,
    ?_, ?_, ?_, ?_, ?_⟩
  · rintro _ ⟨⟩; exact hp.scratch.lexAt
  · rintro _ ⟨⟩; exact hp.scratch.tok
  · rintro _ ⟨⟩; exact ⟨hp.tab, hp.tabNodup⟩
  · rintro _ ⟨⟩; exact ⟨hp.unres, hp.unresNodup⟩
  · have hf := hp.scratch.nodup
    have : (foot S.lexerB S.tkB S.instrB ++ (S.symtab.blocks ++ full S.unres)).Nodup := by
      rw [List.nodup_append]
      refine ⟨hf, ?_, ?_⟩
      · rw [List.nodup_append]
        exact ⟨hp.tabNodup, hp.unresNodup, fun a ha b hb he => hp.tabUnres a ha (he ▸ hb)⟩
      · intro a ha b hb he
        subst he
        rcases List.mem_append.1 hb with hb | hb
        · exact hp.footTab a ha hb
        · exact hp.footUnres a ha hb
    simpa [foot, optBlocks, List.append_assoc] using this

end
end Gaia.Low

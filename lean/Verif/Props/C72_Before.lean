import Verif.Props.C70_Edit

/-!
C72: what follows a line of the source does not change the code assembled before it, except for the operands of references to labels that are
defined there.
-/
namespace Gaia
open Spec Spec.Reference

namespace Before

/-- What is added to a state lies above the address `i`, and so does everything that will be added. -/
structure Above (i : Nat) (s u : State) : Prop where
  pc : i < u.pc
  filePos : i < u.filePos
  writes : ∃ U, u.writes = s.writes ++ U ∧ ∀ c ∈ U, i < c.1
  pending : ∃ X, u.pending = s.pending ++ X ∧ ∀ r ∈ X, i < r.addr

theorem Above.write {i : Nat} {s u : State} (h : Above i s u) (bs : List Byte) : Above i s (u.write bs) := by
  obtain ⟨h1, h2, ⟨U, h3, h4⟩, h5⟩ := h
  refine ⟨?_, ?_, ⟨U ++ [(u.pc, bs)], ?_, ?_⟩, h5⟩
  · simp only [State.write]; omega
  · simp only [State.write]; omega
  · simp only [State.write, h3, List.append_assoc]
  · intro c hc
    rcases List.mem_append.1 hc with hc | hc
    · exact h4 c hc
    · cases List.mem_singleton.1 hc; exact h1

theorem Above.step {allow : Bool} {i : Nat} {s u v : State} (h : Above i s u) (hs : App.Step allow u v) (hv : allow = true → i < v.pc) : Above i s v := by
  cases hs with
  | org x hx => exact ⟨hv hx, h.filePos, h.writes, h.pending⟩
  | line => exact ⟨h.pc, h.filePos, h.writes, h.pending⟩
  | define l x hx => exact ⟨h.pc, h.filePos, h.writes, h.pending⟩
  | write bs hb => exact h.write bs
  | forward r bs zs hb hr hl hz =>
    refine Above.write ?_ bs
    obtain ⟨h1, h2, ⟨U, h3, h4⟩, ⟨X, h5, h6⟩⟩ := h
    refine ⟨h1, h2, ⟨U ++ [(u.filePos, zs)], by simp only [h3, List.append_assoc], ?_⟩, ⟨X ++ [r], by simp only [h5, List.append_assoc], ?_⟩⟩
    · intro c hc
      rcases List.mem_append.1 hc with hc | hc
      · exact h4 c hc
      · cases List.mem_singleton.1 hc; exact h2
    · intro q hq
      rcases List.mem_append.1 hq with hq | hq
      · exact h6 q hq
      · cases List.mem_singleton.1 hq; rw [hr]; exact h1

theorem Above.steps {i : Nat} {s u v : State} (h : Above i s u) (hs : App.Steps false u v) : Above i s v := by
  induction hs with
  | refl => exact h
  | tail _ hst ih => exact ih.step hst (fun h => by cases h)

theorem Above.execute {i : Nat} {s u v : State} (h : Above i s u) {text : Str} {ls : List (Nat × Lexeme)} {odd : Bool} {st : Stmt}
    (hd : execute text ls odd u st = .ok v) (ho : ∀ x, st = .org x → i < x) : Above i s v := by
  by_cases hx : ∃ x, st = .org x
  · obtain ⟨x, rfl⟩ := hx
    cases hd
    exact ⟨ho x rfl, h.filePos, h.writes, h.pending⟩
  · exact h.steps (App.execute_steps hd (.inl (by
      cases st <;> first | rfl | exact (hx ⟨_, rfl⟩).elim)))

theorem Above.runPieces {fn : Str} {i : Nat} {s : State} : ∀ {P : List (List Byte)} {u v : State}, Above i s u →
    Reference.runPieces fn P u = .ok v → (∀ p ∈ P, ∀ x, stmtOf p = some (.org x) → i < x) → Above i s v
  | [], u, v, h, hd, _ => by cases hd; exact h
  | p :: P, u, v, h, hd, ho => by
    rw [Org.runPieces_cons] at hd
    cases h1 : lexemesOf p with
    | error f => rw [h1] at hd; cases f <;> cases hd
    | ok ls =>
      rw [h1] at hd
      dsimp only at hd
      cases h2 : statement (ls.map (·.2)) with
      | error f => rw [h2] at hd; cases hd
      | ok x =>
        obtain ⟨st, odd⟩ := x
        rw [h2] at hd
        dsimp only at hd
        cases h3 : Reference.execute (p.takeWhile (· != 0)) ls odd u st with
        | error f => rw [h3] at hd; cases hd
        | ok t =>
          rw [h3] at hd
          have ht := h.execute h3 (fun x hx => ho p (by simp) x (by
            unfold stmtOf
            rw [h1]
            simp only [h2, hx]))
          dsimp only at hd
          split_ifs at hd with hst
          · cases hd; exact ht
          · exact Above.runPieces (u := { t with line := t.line + 1 }) ⟨ht.pc, ht.filePos, ht.writes, ht.pending⟩ hd
              (fun q hq => ho q (by simp [hq]))

/-- What is written for a reference whose label has the value `v`. -/
def patch (r : Pending) (v : Nat) : Option Chunk :=
  if Spec.isBranch r.mnemonic then (branchByte r.addr v).map fun b => (r.addr, [r.opcode, b])
  else some (r.addr, [r.opcode, UInt8.ofNat (v % 256), UInt8.ofNat (v / 256 % 256)])

theorem resolve_patches {fn : Str} {env : Env} : ∀ {P : List Pending} {W V : List Chunk}, resolve fn env P W = .ok V →
    ∃ D, V = W ++ D ∧ List.Forall₂ (fun r c => ∃ v, env.lookup r.label = some v ∧ patch r v = some c) P D
  | [], W, V, h => by cases h; exact ⟨[], by simp, .nil⟩
  | r :: P, W, V, h => by
    simp only [resolve] at h
    cases h1 : env.lookup r.label with
    | none => rw [h1] at h; cases h
    | some v =>
      rw [h1] at h
      dsimp only at h
      have key : ∀ c : Chunk, patch r v = some c → resolve fn env P (W ++ [c]) = .ok V →
          ∃ D, V = W ++ D ∧ List.Forall₂ (fun r c => ∃ v, env.lookup r.label = some v ∧ patch r v = some c) (r :: P) D := by
        intro c hc hr
        obtain ⟨D, h2, h3⟩ := resolve_patches hr
        exact ⟨c :: D, by rw [h2, List.append_assoc]; rfl, .cons ⟨v, h1, hc⟩ h3⟩
      split_ifs at h with hb
      · cases h2 : branchByte r.addr v with
        | none => rw [h2] at h; cases h
        | some b => rw [h2] at h; exact key _ (by simp [patch, hb, h2]) h
      · exact key _ (by simp [patch, hb]) h

theorem patch_addr {r : Pending} {v : Nat} {c : Chunk} (h : patch r v = some c) : c.1 = r.addr ∧ c.2.head? = some r.opcode ∧ c.2.length = Edit.refLen r := by
  unfold patch at h
  unfold Edit.refLen
  split_ifs at h ⊢
  · obtain ⟨b, _, rfl⟩ := Option.map_eq_some_iff.1 h
    exact ⟨rfl, rfl, rfl⟩
  · cases h; exact ⟨rfl, rfl, rfl⟩

/-- The same byte for a reference, unless it is an operand byte and the value of the label has changed. -/
theorem patch_at {r : Pending} {v v' : Nat} {c c' : Chunk} {i : Nat} (h : patch r v = some c) (h' : patch r v' = some c')
    (hv : r.addr < i → i < r.addr + Edit.refLen r → v = v') : c.at i = c'.at i := by
  obtain ⟨h1, h2, h3⟩ := patch_addr h
  obtain ⟨h1', h2', h3'⟩ := patch_addr h'
  by_cases hi : r.addr < i ∧ i < r.addr + Edit.refLen r
  · obtain rfl := hv hi.1 hi.2
    rw [h] at h'
    cases h'; rfl
  · unfold Chunk.at
    rw [h1, h1']
    split_ifs with hle
    · by_cases he : i = r.addr
      · rw [he, Nat.sub_self, ← List.head?_eq_getElem?, ← List.head?_eq_getElem?, h2, h2']
      · rw [List.getElem?_eq_none (by omega), List.getElem?_eq_none (by omega)]
    · rfl

theorem byteAt_congr {i : Nat} : ∀ {D D' : List Chunk} {W W' : List Chunk}, List.Forall₂ (fun c c' : Chunk => c.at i = c'.at i) D D' →
    byteAt W i = byteAt W' i → byteAt (W ++ D) i = byteAt (W' ++ D') i
  | _, _, W, W', .nil, h => by simpa using h
  | c :: D, c' :: D', W, W', .cons h1 h2, h => by
    have e : ∀ (W : List Chunk) (c : Chunk) D, W ++ c :: D = W ++ [c] ++ D := by simp
    rw [e W c D, e W' c' D']
    exact byteAt_congr h2 (by rw [byteAt_append, byteAt_append, h1, h])

theorem forall₂_split {α β : Type} {R : α → β → Prop} {X : List α} : ∀ {A : List α} {D : List β}, List.Forall₂ R (A ++ X) D →
    ∃ D1 D2, List.Forall₂ R A D1 ∧ List.Forall₂ R X D2 ∧ D = D1 ++ D2
  | [], D, h => ⟨[], D, .nil, h, rfl⟩
  | a :: A, d :: D, .cons h1 h2 => by
    obtain ⟨D1, D2, g1, g2, rfl⟩ := forall₂_split h2
    exact ⟨d :: D1, D2, .cons h1 g1, g2, rfl⟩

/-- The byte at `i` at the end of a run, from the writes and references of its beginning. -/
theorem final {fn : Str} {i : Nat} {s u : State} (h : Above i s u) {V : List Chunk} (hr : resolve fn u.env u.pending u.writes = .ok V) :
    ∃ D, byteAt V i = byteAt (s.writes ++ D) i ∧
      List.Forall₂ (fun r c => ∃ v, u.env.lookup r.label = some v ∧ patch r v = some c) s.pending D := by
  obtain ⟨_, _, ⟨U, h3, h4⟩, ⟨X, h5, h6⟩⟩ := h
  obtain ⟨D, rfl, hD⟩ := resolve_patches hr
  rw [h5] at hD
  obtain ⟨D1, D2, g1, g2, rfl⟩ : ∃ D1 D2, List.Forall₂ (fun r c => ∃ v, u.env.lookup r.label = some v ∧ patch r v = some c) s.pending D1 ∧
      List.Forall₂ (fun r c => ∃ v, u.env.lookup r.label = some v ∧ patch r v = some c) X D2 ∧ D = D1 ++ D2 := by
    obtain ⟨D1, D2, g1, g2, g3⟩ := forall₂_split hD
    exact ⟨D1, D2, g1, g2, g3⟩
  refine ⟨D1, ?_, g1⟩
  rw [h3, App.byteAt_skip i _ _ _ h4]
  have h7 : ∀ c ∈ D2, i < c.1 := by
    intro c hc
    obtain ⟨r, hr, v, _, hp⟩ : ∃ r ∈ X, ∃ v, u.env.lookup r.label = some v ∧ patch r v = some c := by
      obtain ⟨k, hk, rfl⟩ := List.getElem_of_mem hc
      have hl := g2.length_eq
      exact ⟨X[k], List.getElem_mem _, by simpa using List.Forall₂.get g2 (by omega) hk⟩
    rw [(patch_addr hp).1]
    exact h6 r hr
  have := App.byteAt_skip i (s.writes ++ D1) D2 [] h7
  simpa using this

theorem patches_at {env env' : Env} {i : Nat} : ∀ {P : List Pending} {D D' : List Chunk},
    List.Forall₂ (fun r c => ∃ v, env.lookup r.label = some v ∧ patch r v = some c) P D →
    List.Forall₂ (fun r c => ∃ v, env'.lookup r.label = some v ∧ patch r v = some c) P D' →
    (∀ r ∈ P, r.addr < i → i < r.addr + Edit.refLen r → env.lookup r.label = env'.lookup r.label) →
    List.Forall₂ (fun c c' : Chunk => c.at i = c'.at i) D D'
  | _, _, _, .nil, .nil, _ => .nil
  | r :: P, c :: D, c' :: D', .cons ⟨v, h1, h2⟩ h3, .cons ⟨v', h1', h2'⟩ h3', h => by
    refine .cons (patch_at h2 h2' fun k1 k2 => ?_) (patches_at h3 h3' fun q hq => h q (by simp [hq]))
    have := h r (by simp) k1 k2
    rw [h1, h1'] at this
    exact Option.some.inj this

end Before

/-- **C72.** Two texts with the same lines `pre` at the beginning and anything behind, both assembled. (`s`: the state behind `pre` of the
reference assembler of C57.) A byte that lies below the address reached, and below the place where the file stands, is the same in both
outputs, if no origin line behind `pre` goes down to it, unless it is an operand byte of a reference to a label that is defined behind `pre`, and
with different values in the two texts. -/
theorem C72_code_before {w w' : World} {srcName outName outName' : Str} {src src' : List Byte} (hw : Setup w srcName outName src)
    (hw' : Setup w' srcName outName' src') (hs : Sized src) (hs' : Sized src') {pre post post' : List (List Byte)}
    (hsrc : pieces src = pre ++ post) (hsrc' : pieces src' = pre ++ post') {s : State} (hpre : runPieces srcName pre .init = .ok s)
    {u u' : State} (hu : runPieces srcName (pieces src) .init = .ok u) (hu' : runPieces srcName (pieces src') .init = .ok u')
    {bin bin' : List Byte} {total symbols total' symbols' : Nat} (h : Succeeds w srcName outName bin total symbols)
    (h' : Succeeds w' srcName outName' bin' total' symbols') {i : Nat} (hi : i < s.pc) (hf : i < s.filePos)
    (ho : ∀ p ∈ post, ∀ v, stmtOf p = some (.org v) → i < v) (ho' : ∀ p ∈ post', ∀ v, stmtOf p = some (.org v) → i < v)
    (hr : ∀ r ∈ s.pending, r.addr < i → i < r.addr + Edit.refLen r → u.env.lookup r.label = u'.env.lookup r.label) :
    bin.getD i 0 = bin'.getD i 0 := by
  obtain ⟨_, W, h1, h2, rfl, _, _⟩ := (C57_success hw hs _ _ _).1 h
  obtain ⟨_, W', h1', h2', rfl, _, _⟩ := (C57_success hw' hs' _ _ _).1 h'
  rw [hu] at h1
  rw [hu'] at h1'
  cases h1
  cases h1'
  rw [Edit.image_getD, Edit.image_getD]
  have start : Before.Above i s s := ⟨hi, hf, ⟨[], by simp, by simp⟩, ⟨[], by simp, by simp⟩⟩
  rw [hsrc] at hu
  rw [hsrc'] at hu'
  have both : Before.Above i s u ∧ Before.Above i s u' := by
    rcases Edit.runPieces_split hpre with g | ⟨_, g⟩
    · rw [g] at hu hu'
      cases hu
      cases hu'
      exact ⟨start, start⟩
    · rw [g] at hu hu'
      exact ⟨start.runPieces hu ho, start.runPieces hu' ho'⟩
  obtain ⟨D, e, hD⟩ := Before.final both.1 h2
  obtain ⟨D', e', hD'⟩ := Before.final both.2 h2'
  rw [e, e']
  exact Before.byteAt_congr (Before.patches_at hD hD' hr) rfl

/-- **C72, without origin lines.** If neither text sets the origin, all code of the common lines is the same, but for the operands of
references to labels that are defined later, with different values. -/
theorem C72_no_origins {w w' : World} {srcName outName outName' : Str} {src src' : List Byte} (hw : Setup w srcName outName src)
    (hw' : Setup w' srcName outName' src') (hs : Sized src) (hs' : Sized src') {pre post post' : List (List Byte)}
    (hsrc : pieces src = pre ++ post) (hsrc' : pieces src' = pre ++ post') (ho : ∀ st ∈ stmtsOf src, st.isOrg = false)
    (ho' : ∀ st ∈ stmtsOf src', st.isOrg = false) {s : State} (hpre : runPieces srcName pre .init = .ok s)
    {u u' : State} (hu : runPieces srcName (pieces src) .init = .ok u) (hu' : runPieces srcName (pieces src') .init = .ok u')
    {bin bin' : List Byte} {total symbols total' symbols' : Nat} (h : Succeeds w srcName outName bin total symbols)
    (h' : Succeeds w' srcName outName' bin' total' symbols') {i : Nat} (hi : i < s.total)
    (hr : ∀ r ∈ s.pending, r.addr < i → i < r.addr + Edit.refLen r → u.env.lookup r.label = u'.env.lookup r.label) :
    bin.getD i 0 = bin'.getD i 0 := by
  have no : ∀ {src : List Byte} {post : List (List Byte)}, (∀ st ∈ stmtsOf src, st.isOrg = false) → pieces src = pre ++ post →
      (∀ st ∈ pre.filterMap stmtOf, st.isOrg = false) ∧ ∀ p ∈ post, ∀ v, stmtOf p = some (.org v) → i < v := by
    intro src post h e
    unfold stmtsOf at h
    rw [e, List.filterMap_append] at h
    refine ⟨fun st hst => h st (List.mem_append_left _ hst), fun p hp v hv => ?_⟩
    have := h (.org v) (List.mem_append_right _ (List.mem_filterMap.2 ⟨p, hp, hv⟩))
    cases this
  have ha := App.Steps.after (App.runPieces_steps (allow := false) hpre (.inr (no ho hsrc).1)) rfl
  have hpc : s.pc = s.total := by have := ha.total; simp only [State.init] at this; omega
  exact C72_code_before hw hw' hs hs' hsrc hsrc' hpre hu hu' h h' (by omega) (by rw [ha.pos]; omega) (no ho hsrc).2 (no ho' hsrc').2 hr

/-! ### Cases -/

def beforePre : List (List Byte) := [b! "S LDA #$01\n", b! " BNE E\n", b! " JMP T\n"]
def beforeSrc : List Byte := b! "S LDA #$01\n BNE E\n JMP T\nE NOP\nT RTS\n"
def beforeSrc' : List Byte := b! "S LDA #$01\n BNE E\n JMP T\nE NOP\n JSR S\nT RTS\n"

/-- A program, and the same with one more line behind the third: the hypotheses hold, and the outputs differ in the operand of the jump and behind
the third line only; the branch has kept its operand, as `E` has kept its value. -/
theorem C72_conditions :
    pieces beforeSrc = beforePre ++ [b! "E NOP\n", b! "T RTS\n"] ∧ pieces beforeSrc' = beforePre ++ [b! "E NOP\n", b! " JSR S\n", b! "T RTS\n"] ∧
    (∀ st ∈ stmtsOf beforeSrc, st.isOrg = false) ∧ (∀ st ∈ stmtsOf beforeSrc', st.isOrg = false) ∧
    (∃ s, runPieces (b! "p.asm") beforePre .init = .ok s ∧ s.total = 7 ∧ s.pending.map (fun r => (r.label, r.addr)) = [(b! "E", 2), (b! "T", 4)]) ∧
    (∃ u, runPieces (b! "p.asm") (pieces beforeSrc) .init = .ok u ∧ u.env = [(b! "T", 8), (b! "E", 7), (b! "S", 0)]) ∧
    (∃ u, runPieces (b! "p.asm") (pieces beforeSrc') .init = .ok u ∧ u.env = [(b! "T", 11), (b! "E", 7), (b! "S", 0)]) ∧
    Succeeds (demo beforeSrc) (b! "p.asm") (b! "p.bin") [0xA9, 1, 0xD0, 3, 0x4C, 8, 0, 0xEA, 0x60] 9 3 ∧
    Succeeds (demo beforeSrc') (b! "p.asm") (b! "p.bin") [0xA9, 1, 0xD0, 3, 0x4C, 11, 0, 0xEA, 0x20, 0, 0, 0x60] 12 3 := by
  refine ⟨by decide +kernel, by decide +kernel, by decide +kernel, by decide +kernel, ⟨_, rfl, by decide +kernel, by decide +kernel⟩,
    ⟨_, rfl, by decide +kernel⟩, ⟨_, rfl, by decide +kernel⟩, demo_succeeds (by decide +kernel), demo_succeeds (by decide +kernel)⟩

/-- The condition on the place where the file stands is needed (see C27): the common lines end with an origin line, the file stands at 3, and a
reference to a later label in the next line clears what stands there. -/
theorem C72_file_position :
    Succeeds (demo (b! " .ORG $3\n LDA #$11\n .ORG $1\n LDA #$22\n .ORG $9\n JMP $1234\nE NOP\n")) (b! "p.asm") (b! "p.bin")
      [0, 0xA9, 0x22, 0xA9, 0x11, 0, 0, 0, 0, 0x4C, 0x34, 0x12, 0xEA] 8 1 ∧
    Succeeds (demo (b! " .ORG $3\n LDA #$11\n .ORG $1\n LDA #$22\n .ORG $9\n JMP E\nE NOP\n")) (b! "p.asm") (b! "p.bin")
      [0, 0xA9, 0x22, 0, 0, 0, 0, 0, 0, 0x4C, 12, 0, 0xEA] 8 1 :=
  ⟨demo_succeeds (by decide +kernel), demo_succeeds (by decide +kernel)⟩

end Gaia

import Verif.Props.C63_Origins
import Verif.Spec.Messages
import Verif.Proofs.Numbers

/-!
C68: what stands behind an error, and what stands before the end.
-/
namespace Gaia
open Spec Spec.Reference

namespace Pre

/-- The messages about references: the label is missing, or too far away. -/
theorem resolve_error {fn : Str} {env : Env} : ∀ {rs : List Pending} {W : List Chunk} {t : Str} {V : List Chunk},
    resolve fn env rs W = .error (t, V) → ∃ r ∈ rs, ∃ e, (e = .missingLabelDefinition ∨ e = .tooBigOffset) ∧ t = diag r.text e (some r.pos) fn r.line
  | [], W, t, V, h => by cases h
  | r :: rs, W, t, V, h => by
    unfold resolve at h
    dsimp only at h
    split at h
    · cases h
      exact ⟨r, by simp, _, .inl rfl, rfl⟩
    · split at h
      · split at h
        · cases h
          exact ⟨r, by simp, _, .inr rfl, rfl⟩
        · obtain ⟨r', h1, h2⟩ := resolve_error h
          exact ⟨r', by simp [h1], h2⟩
      · obtain ⟨r', h1, h2⟩ := resolve_error h
        exact ⟨r', by simp [h1], h2⟩

theorem instruction_pending {text : Str} {ls : List (Nat × Lexeme)} {m : Mnemonic} {a : Arg} {odd : Bool} {s s' : State}
    (h : instruction text ls m a odd s = .ok s') : ∀ r ∈ s'.pending, r ∈ s.pending ∨ (r.text = text ∧ r.line = s.line) := by
  unfold instruction at h
  dsimp only at h
  split at h
  · cases h
  · split at h
    · split at h
      · cases h
      · split at h
        · cases h
        · cases h
          exact fun r hr => .inl hr
    · split at h
      · cases h
      · cases h
        intro r hr
        rcases List.mem_append.1 hr with hr | hr
        · exact .inl hr
        · rw [List.mem_singleton] at hr
          subst hr
          exact .inr ⟨rfl, rfl⟩

theorem define_pending {ls : List (Nat × Lexeme)} {l : Str} {v : Nat} {s s' : State} (h : defineLabel ls l v s = .ok s') :
    s'.pending = s.pending ∧ s'.line = s.line := by
  unfold defineLabel at h
  split at h
  · cases h
  · cases h; exact ⟨rfl, rfl⟩

theorem instruction_line {text : Str} {ls : List (Nat × Lexeme)} {m : Mnemonic} {a : Arg} {odd : Bool} {s s' : State}
    (h : instruction text ls m a odd s = .ok s') : s'.line = s.line := by
  unfold instruction at h
  dsimp only at h
  split at h
  · cases h
  · split at h
    · split at h
      · cases h
      · split at h
        · cases h
        · cases h; rfl
    · split at h
      · cases h
      · cases h; rfl

theorem execute_pending {text : Str} {ls : List (Nat × Lexeme)} {odd : Bool} {st : Stmt} {s s' : State} (h : execute text ls odd s st = .ok s') :
    (∀ r ∈ s'.pending, r ∈ s.pending ∨ (r.text = text ∧ r.line = s.line)) ∧ s'.line = s.line := by
  unfold execute at h
  split at h
  · cases h; exact ⟨fun r hr => .inl hr, rfl⟩
  · cases h; exact ⟨fun r hr => .inl hr, rfl⟩
  · obtain ⟨h1, h2⟩ := define_pending h
    exact ⟨fun r hr => .inl (h1 ▸ hr), h2⟩
  · obtain ⟨h1, h2⟩ := define_pending h
    exact ⟨fun r hr => .inl (h1 ▸ hr), h2⟩
  · cases h; exact ⟨fun r hr => .inl hr, rfl⟩
  · exact ⟨instruction_pending h, instruction_line h⟩
  · split at h
    · cases h
    · rename_i t ht
      obtain ⟨h1, h2⟩ := define_pending ht
      refine ⟨fun r hr => ?_, (instruction_line h).trans h2⟩
      rcases instruction_pending h r hr with h3 | ⟨h3, h4⟩
      · exact .inl (h1 ▸ h3)
      · exact .inr ⟨h3, h4.trans h2⟩

/-- A pending reference quotes its line, and knows its number. -/
theorem runPieces_pending {fn : Str} : ∀ {P : List (List Byte)} {s s' : State}, runPieces fn P s = .ok s' →
    ∀ r ∈ s'.pending, r ∈ s.pending ∨ ∃ k piece, P[k]? = some piece ∧ r.text = shown piece ∧ r.line = s.line + k
  | [], s, s', h => by cases h; exact fun r hr => .inl hr
  | p :: P, s, s', h => by
    rw [Org.runPieces_cons] at h
    cases h1 : lexemesOf p with
    | error f => rw [h1] at h; cases f <;> cases h
    | ok ls =>
      rw [h1] at h
      dsimp only at h
      cases h2 : statement (ls.map (·.2)) with
      | error f => rw [h2] at h; cases h
      | ok q =>
        obtain ⟨st, odd⟩ := q
        rw [h2] at h
        dsimp only at h
        cases h3 : execute (p.takeWhile (· != 0)) ls odd s st with
        | error f => rw [h3] at h; cases h
        | ok t =>
          rw [h3] at h
          dsimp only at h
          obtain ⟨k1, k2⟩ := execute_pending h3
          have first : ∀ r ∈ t.pending, r ∈ s.pending ∨ ∃ k piece, (p :: P)[k]? = some piece ∧ r.text = shown piece ∧ r.line = s.line + k := by
            intro r hr
            rcases k1 r hr with hr | ⟨h5, h6⟩
            · exact .inl hr
            · exact .inr ⟨0, p, rfl, h5, h6⟩
          split at h
          · cases h
            exact first
          · intro r hr
            rcases runPieces_pending h r hr with hr | ⟨k, piece, h5, h6, h7⟩
            · exact first r hr
            · refine .inr ⟨k + 1, piece, h5, h6, ?_⟩
              rw [h7]
              show t.line + 1 + k = _
              omega

/-- After some pieces, all lines are counted, or `.END` was among them. -/
theorem runPieces_lines {fn : Str} : ∀ {P : List (List Byte)} {s s' : State}, runPieces fn P s = .ok s' →
    s'.line = s.line + P.length ∨ ∀ Q, runPieces fn (P ++ Q) s = .ok s'
  | [], s, s', h => by cases h; exact .inl rfl
  | p :: P, s, s', h => by
    rw [Org.runPieces_cons] at h
    simp only [List.cons_append, Org.runPieces_cons]
    cases h1 : lexemesOf p with
    | error f => rw [h1] at h; cases f <;> cases h
    | ok ls =>
      rw [h1] at h
      dsimp only at h ⊢
      cases h2 : statement (ls.map (·.2)) with
      | error f => rw [h2] at h; cases h
      | ok q =>
        obtain ⟨st, odd⟩ := q
        rw [h2] at h
        dsimp only at h ⊢
        cases h3 : execute (p.takeWhile (· != 0)) ls odd s st with
        | error f => rw [h3] at h; cases h
        | ok t =>
          rw [h3] at h
          dsimp only at h ⊢
          split at h
          · rename_i hst
            simp only [if_pos hst]
            exact .inr fun Q => h
          · rename_i hst
            simp only [if_neg hst]
            rcases runPieces_lines h with h4 | h4
            · left
              rw [h4]
              show t.line + 1 + P.length = _
              rw [(execute_pending h3).2, List.length_cons]
              omega
            · exact .inr h4

/-- What an error in a line prints. -/
theorem runPieces_message {fn : Str} : ∀ {P : List (List Byte)} {s : State} {t : Str} {W : List Chunk}, runPieces fn P s = .error (t, W) →
    t = [] ∨ ∃ k piece e pos, P[k]? = some piece ∧ t = diag (shown piece) e pos fn (s.line + k)
  | [], s, t, W, h => by cases h
  | p :: P, s, t, W, h => by
    rw [Org.runPieces_cons] at h
    cases h1 : lexemesOf p with
    | error f =>
      rw [h1] at h
      cases f with
      | tooMany => cases h; exact .inl rfl
      | «at» e pos => cases h; exact .inr ⟨0, p, e, some pos, rfl, rfl⟩
    | ok ls =>
      rw [h1] at h
      dsimp only at h
      cases h2 : statement (ls.map (·.2)) with
      | error f => rw [h2] at h; cases h; exact .inr ⟨0, p, f.1, _, rfl, rfl⟩
      | ok q =>
        obtain ⟨st, odd⟩ := q
        rw [h2] at h
        dsimp only at h
        cases h3 : execute (p.takeWhile (· != 0)) ls odd s st with
        | error f => rw [h3] at h; cases h; exact .inr ⟨0, p, f.1, f.2, rfl, rfl⟩
        | ok u =>
          rw [h3] at h
          dsimp only at h
          split at h
          · cases h
          · rcases runPieces_message h with h4 | ⟨k, piece, e, pos, h4, h5⟩
            · exact .inl h4
            · refine .inr ⟨k + 1, piece, e, pos, h4, ?_⟩
              rw [h5]
              show diag _ e pos fn (u.line + 1 + k) = _
              rw [(execute_pending h3).2, Nat.add_assoc, Nat.add_comm 1 k]

/-- The number in a message can be read back, and what follows it. -/
theorem diag_number {l l' : Str} {e e' : Err} {pos pos' : Option Nat} {fn : Str} {n n' : Nat} (h : diag l e pos fn n = diag l' e' pos' fn n') :
    n = n' ∧ ∃ x x', message e ++ x = message e' ++ x' := by
  unfold diag at h
  simp only [List.append_assoc] at h
  have h := List.append_cancel_left (List.append_cancel_left h)
  obtain ⟨h1, h2⟩ := decimal_prefix (c := 58) (d := 58) (by decide +kernel) (by decide +kernel) h
  injection h2 with _ h2
  injection h2 with _ h2
  exact ⟨h1, _, _, h2⟩

theorem message_newline : ∀ e : Err, message e ≠ [] → ∃ m, message e = m ++ [10] ∧ 10 ∉ m := by
  intro e h
  refine ⟨(message e).dropLast, ?_, ?_⟩ <;> revert h <;> cases e <;> decide

theorem message_inj {e e' : Err} (h : message e ≠ []) (h' : message e' ≠ []) {x x' : Str} (hx : message e ++ x = message e' ++ x') : e = e' := by
  obtain ⟨m, hm, hn⟩ := message_newline e h
  obtain ⟨m', hm', hn'⟩ := message_newline e' h'
  have key : ∀ (m x : Str), 10 ∉ m → (m ++ [10] ++ x).takeWhile (· != 10) = m := by
    intro m
    induction m with
    | nil => intro x _; rfl
    | cons c m ih =>
      intro x hc
      have : (c != 10) = true := by
        simp only [bne_iff_ne]
        exact fun e => hc (by simp [e])
      rw [List.cons_append, List.cons_append, List.takeWhile_cons, if_pos this, ih x fun h => hc (by simp [h])]
  have : m = m' := by rw [← key m x hn, ← hm, hx, hm', key m' x' hn']
  have e3 : message e = message e' := by rw [hm, hm', this]
  clear hx hm hm' this
  revert h h' e3
  cases e <;> cases e' <;> decide

end Pre

/-- **C33, messages are unambiguous.** The number of the line and the kind of the error can be read from a message. -/
theorem C33_unambiguous {l l' : Str} {e e' : Err} {pos pos' : Option Nat} {fn : Str} {n n' : Nat} (he : message e ≠ []) (he' : message e' ≠ [])
    (h : diag l e pos fn n = diag l' e' pos' fn n') : n = n' ∧ e = e' := by
  obtain ⟨h1, x, x', h2⟩ := Pre.diag_number h
  exact ⟨h1, Pre.message_inj he he' h2⟩

/-- **C68, nothing behind an error matters.** Let gaia refuse the complete lines `a`, with any message (or none) but those about a reference (its
label is not defined, or too far away). Then whatever text follows `a`, gaia prints the same, and leaves the same output file. -/
theorem C68_behind_error {a b : List Byte} (hwh : WholeLines a) (hs : Sized (a ++ b)) {w w' : World} {srcName outName : Str}
    (hw : Setup w srcName outName a) (hw' : Setup w' srcName outName (a ++ b)) {text : Str} {bin : List Byte}
    (h : FailsLeaving w srcName outName text bin)
    (hm : ∀ line pos number, text ≠ diag line .missingLabelDefinition pos srcName number ∧ text ≠ diag line .tooBigOffset pos srcName number) :
    FailsLeaving w' srcName outName text bin := by
  have hsa : Sized a := sized_sublist (List.sublist_append_left a b) hs
  obtain ⟨W, rfl, h1⟩ := (C57_failure hw hsa text bin).1 h
  rcases h1 with h1 | ⟨s, _, h2⟩
  · exact (C57_failure hw' hs text _).2 ⟨W, rfl, .inl (by rw [App.pieces_append hwh]; exact App.runPieces_error _ h1)⟩
  · obtain ⟨r, _, e, he, ht⟩ := Pre.resolve_error h2
    rcases he with rfl | rfl
    · exact absurd ht (hm _ _ _).1
    · exact absurd ht (hm _ _ _).2

/-- **C68, the lines up to the error decide.** If gaia refuses `a` followed by `b`, with a message for one of the lines of `a` that is not about a
reference, then it does the same for `a` alone. -/
theorem C68_up_to_error {a b : List Byte} (hwh : WholeLines a) (hs : Sized (a ++ b)) {w w' : World} {srcName outName : Str}
    (hw : Setup w srcName outName a) (hw' : Setup w' srcName outName (a ++ b)) {l : Str} {e : Err} {pos : Option Nat} {k : Nat} {bin : List Byte}
    (h : FailsLeaving w' srcName outName (diag l e pos srcName k) bin) (hk : k ≤ (pieces a).length)
    (he : message e ≠ [] ∧ e ≠ .missingLabelDefinition ∧ e ≠ .tooBigOffset) :
    FailsLeaving w srcName outName (diag l e pos srcName k) bin := by
  have hsa : Sized a := sized_sublist (List.sublist_append_left a b) hs
  obtain ⟨W, rfl, h1⟩ := (C57_failure hw' hs _ _).1 h
  rw [App.pieces_append hwh] at h1
  refine (C57_failure hw hsa _ _).2 ⟨W, rfl, ?_⟩
  rcases h1 with h1 | ⟨s, _, h2⟩
  · left
    cases h3 : runPieces srcName (pieces a) .init with
    | error f => rw [App.runPieces_error _ h3] at h1; exact h1
    | ok s =>
      exfalso
      rcases Pre.runPieces_lines h3 with h4 | h4
      · rcases App.runPieces_append (pieces b) h3 with h5 | h5
        · rw [h5] at h1; cases h1
        · rw [h5] at h1
          rcases Pre.runPieces_message h1 with h6 | ⟨j, piece, e', pos', _, h6⟩
          · have := congrArg List.length h6
            simp [diag] at this
          · obtain ⟨h7, _⟩ := Pre.diag_number h6
            have : s.line = 1 + (pieces a).length := h4
            omega
      · rw [h4] at h1; cases h1
  · exfalso
    obtain ⟨r, _, e', he', ht⟩ := Pre.resolve_error h2
    rcases he' with rfl | rfl
    · exact he.2.1 (C33_unambiguous he.1 (by decide) ht).2
    · exact he.2.2 (C33_unambiguous he.1 (by decide) ht).2

/-- **C68, a beginning of an accepted source.** If gaia accepts `a` followed by `b`, then it accepts the complete lines `a` alone, or all it
has to say is that a label used in `a` is not defined. -/
theorem C68_beginning {a b : List Byte} (hwh : WholeLines a) (hs : Sized (a ++ b)) {w w' : World} {srcName outName : Str}
    (hw : Setup w srcName outName a) (hw' : Setup w' srcName outName (a ++ b)) {bin' : List Byte} {total' symbols' : Nat}
    (h : Succeeds w' srcName outName bin' total' symbols') :
    (∃ bin total symbols, Succeeds w srcName outName bin total symbols ∧ symbols ≤ symbols') ∨
    ∃ k piece pos bin, (pieces a)[k]? = some piece ∧
      FailsLeaving w srcName outName (diag (shown piece) .missingLabelDefinition (some pos) srcName (k + 1)) bin := by
  have hsa : Sized a := sized_sublist (List.sublist_append_left a b) hs
  obtain ⟨s', W', g1, g2, rfl, rfl, rfl⟩ := (C57_success hw' hs _ _ _).1 h
  rw [App.pieces_append hwh] at g1
  cases h1 : runPieces srcName (pieces a) .init with
  | error f => rw [App.runPieces_error _ h1] at g1; cases g1
  | ok s =>
    have hk : App.Keeps s s' := by
      rcases App.stop_or h1 g1 with rfl | hB
      · exact ⟨⟨[], by simp⟩, ⟨[], by simp⟩, fun _ _ h => h, le_rfl⟩
      · exact App.Steps.keeps (App.runPieces_steps (allow := true) hB (.inl rfl))
    cases h2 : resolve srcName s.env s.pending s.writes with
    | ok W => exact .inl ⟨_, _, _, (C57_success hw hsa _ _ _).2 ⟨s, W, h1, h2, rfl, rfl, rfl⟩, hk.count⟩
    | error f =>
      obtain ⟨t, V⟩ := f
      rcases App.resolve_never hk.env h2 with ⟨r, hr, rfl⟩ | hr
      · rcases Pre.runPieces_pending h1 r hr with hr | ⟨k, piece, h3, h4, h5⟩
        · cases hr
        · refine .inr ⟨k, piece, r.pos, image V, h3, (C57_failure hw hsa _ _).2 ⟨V, rfl, .inr ⟨s, h1, ?_⟩⟩⟩
          rw [h2, h4, h5, Nat.add_comm k 1]
          rfl
      · obtain ⟨P2, hP2⟩ := hk.pending
        obtain ⟨V', hV'⟩ := hr P2 s'.writes
        rw [← hP2, g2] at hV'
        cases hV'

/-! ### Cases -/

/-- A wrong line, and anything after it. -/
example (b : List Byte) (hs : Sized (b! " LDA #1\n LDA #256\n" ++ b)) :
    ∃ bin, FailsLeaving (demo (b! " LDA #1\n LDA #256\n" ++ b)) (b! "p.asm") (b! "p.bin")
      (diag (b! " LDA #256\n") .illegalAddressingMode none (b! "p.asm") 2) bin := by
  have hr : Reference.run (b! "p.asm") (b! " LDA #1\n LDA #256\n") =
      ⟨1, diag (b! " LDA #256\n") .illegalAddressingMode none (b! "p.asm") 2, [0xA9, 1]⟩ := by decide +kernel
  have h0 := C57_reference (demo_setup (b! " LDA #1\n LDA #256\n")) (by decide +kernel)
  rw [hr] at h0
  refine ⟨[0xA9, 1], C68_behind_error (.inr ⟨(b! " LDA #1\n LDA #256\n").dropLast, by decide +kernel⟩) hs (demo_setup _) (demo_setup _) h0 (fun line pos number => ?_)⟩
  refine ⟨fun h => ?_, fun h => ?_⟩
  · have := (C33_unambiguous (e := .illegalAddressingMode) (e' := .missingLabelDefinition) (by decide) (by decide) h).2
    cases this
  · have := (C33_unambiguous (e := .illegalAddressingMode) (e' := .tooBigOffset) (by decide) (by decide) h).2
    cases this

/-- The exception is needed: a label may be defined behind `a`. -/
example : (Reference.run [] (b! " JMP L\n")).status = 1 ∧ (Reference.run [] (b! " JMP L\nL\n")).status = 0 := by decide +kernel

end Gaia

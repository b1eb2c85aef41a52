import Verif.Proofs.Change
import Verif.Props.C68_Prefix

/-!
C82: a constant with another value.
-/
set_option maxRecDepth 20000
namespace Gaia
open Spec Spec.Reference
namespace Change

theorem runPieces_join {fn : Str} : ∀ {P : List (List Byte)} {s s' : State}, runPieces fn P s = .ok s' →
    (∀ Q, runPieces fn (P ++ Q) s = .ok s') ∨ (∀ Q, runPieces fn (P ++ Q) s = runPieces fn Q s')
  | [], s, s', h => by cases h; exact .inr fun _ => rfl
  | p :: P, s, s', h => by
    unfold runPieces at h
    simp only at h
    split at h
    · cases h
    · cases h
    · rename_i ls h1
      split at h
      · cases h
      · rename_i st odd h2
        split at h
        · cases h
        · rename_i s1 h3
          have e : ∀ Q, runPieces fn (p :: (P ++ Q)) s = if st = .stop then .ok s1 else runPieces fn (P ++ Q) { s1 with line := s1.line + 1 } := by
            intro Q
            conv_lhs => unfold runPieces
            simp only [h1, h2, h3]
          split at h
          · rename_i hs
            exact .inl fun Q => by rw [List.cons_append, e, if_pos hs]; exact h
          · rename_i hs
            rcases runPieces_join h with g | g
            · exact .inl fun Q => by rw [List.cons_append, e, if_neg hs]; exact g Q
            · exact .inr fun Q => by rw [List.cons_append, e, if_neg hs]; exact g Q

/-- A state that does not depend on the constant. -/
def lift (s : State) : T :=
  ⟨s.pc, s.line, s.env.map fun p => (p.1, some p.2), s.total, s.filePos, s.writes.map fun c => (c.1, c.2.map .fixed), s.pending⟩

theorem lift_at (v : Nat) (s : State) : (lift s).at v = s := by
  have h1 : envAt v (s.env.map fun p => (p.1, some p.2)) = s.env := by
    unfold envAt
    rw [List.map_map]
    exact List.map_id' s.env
  have h2 : (s.writes.map fun c => (c.1, c.2.map Spot.fixed)).map (TChunk.at v) = s.writes := by
    rw [List.map_map]
    refine (List.map_congr_left fun c _ => ?_).trans (List.map_id s.writes)
    simp [TChunk.at]
    exact Prod.ext rfl (List.map_id' c.2)
  simp only [lift, T.at, h1, h2]

theorem lift_has (s : State) (a : Nat) : ¬ Has (lift s).writes a := by
  rintro ⟨c, hc, h⟩
  obtain ⟨d, _, rfl⟩ := List.mem_map.1 hc
  simp at h

theorem lift_lookup (l : Str) (s : State) : (lift s).env.lookup l = (s.env.lookup l).map some := by
  unfold lift
  simp only
  induction s.env with
  | nil => rfl
  | cons p env ih =>
    obtain ⟨k, w⟩ := p
    rw [List.map_cons, List.lookup_cons, List.lookup_cons]
    cases l == k
    · exact ih
    · rfl

theorem lift_only (L : Str) (s : State) : Only L (lift s).env := by
  intro l h
  rw [lift_lookup] at h
  cases hl : s.env.lookup l <;> rw [hl] at h <;> cases h

theorem const_piece {fn : Str} {line : List Byte} {L : Str} {v : Nat} (h : DefinesConstant line L v) (ps : List (List Byte)) (s : State) :
    runPieces fn (line :: ps) s = if (s.env.lookup L).isSome then runPieces fn [line] s else runPieces fn ps { s with env := (L, v) :: s.env, line := s.line + 1 } := by
  obtain ⟨t, x, rfl, h1, h2, h3, h4⟩ := h
  have hx := Files.lexemesOf_of h3 (Files.parse_short h4)
  have hst : statement (x.map (·.2)) = .ok (.const L v, false) := by simp only [statement, h4]
  by_cases hl : (s.env.lookup L).isSome = true
  · rw [if_pos hl, runPieces, runPieces]
    simp only [hx, hst, execute, defineLabel, hl, if_true]
  · rw [if_neg hl, runPieces]
    simp only [hx, hst, execute, defineLabel, hl]
    rfl

theorem const_again {fn : Str} {line : List Byte} {L : Str} {v : Nat} (h : DefinesConstant line L v) {s : State} (hl : (s.env.lookup L).isSome = true)
    (ps : List (List Byte)) : ∃ e, runPieces fn (line :: ps) s = .error e := by
  obtain ⟨t, x, rfl, h1, h2, h3, h4⟩ := h
  have hx := Files.lexemesOf_of h3 (Files.parse_short h4)
  have hst : statement (x.map (·.2)) = .ok (.const L v, false) := by simp only [statement, h4]
  rw [runPieces]
  simp only [hx, hst, execute, defineLabel, hl, if_true]
  exact ⟨_, rfl⟩

theorem pieces_three {a l b : List Byte} {L : Str} {v : Nat} (ha : WholeLines a) (hl : DefinesConstant l L v) : pieces (a ++ l ++ b) = pieces a ++ l :: pieces b := by
  obtain ⟨t, x, rfl, h1, h2, h3, h4⟩ := hl
  rw [List.append_assoc, App.pieces_append ha, List.append_assoc, List.singleton_append, Files.pieces_line (fun c hc h => h1 (h ▸ hc)) h2]

end Change

open Change in
/-- The output depends on the value of a constant in these ways only. Let any source that gaia assembles have a line that defines a constant `L`, and let another value
be put there, on the same side of the end of page zero. There are a list of spots (fixed bytes, the low and the high byte of the value, and the offsets of branches to it),
and a list of the branches to it, so that for every such value gaia succeeds exactly if the branches reach it, and the output is what is in the spots for this value; the
totals stay. Without branches to `L` it always succeeds. -/
theorem C82_change {srcName outName : Str} {a l b : List Byte} {L : Str} {v : Nat} (ha : WholeLines a) (hl : DefinesConstant l L v) (hs : Sized (a ++ l ++ b))
    {w : World} (hw : Setup w srcName outName (a ++ l ++ b)) {bin : List Byte} {total symbols : Nat} (h : Succeeds w srcName outName bin total symbols) :
    ∃ (spots : List Spot) (near : List Nat), bin = spots.map (Spot.at v) ∧ (∀ c ∈ near, Reaches c v) ∧ (∀ c, .offset c ∈ spots → c ∈ near) ∧
      (NoBranchTo L (a ++ l ++ b) → near = []) ∧
      ∀ {v' : Nat} {l' : List Byte}, DefinesConstant l' L v' → (v ≤ 255 ↔ v' ≤ 255) → ∀ {w' : World}, Setup w' srcName outName (a ++ l' ++ b) →
        ∀ bin' total' symbols', Succeeds w' srcName outName bin' total' symbols' ↔
          (∀ c ∈ near, Reaches c v') ∧ bin' = spots.map (Spot.at v') ∧ total' = total ∧ symbols' = symbols := by
  have hp : ∀ {l' v'}, DefinesConstant l' L v' → pieces (a ++ l' ++ b) = pieces a ++ l' :: pieces b := fun h => pieces_three ha h
  obtain ⟨s, W, h1, h2, rfl, rfl, rfl⟩ := (C57_success hw hs _ _ _).1 h
  -- the run as it depends on the value, and the references
  have main : ∀ (t : T) (near1 : List Nat), Only L t.env → s = t.at v → (∀ c ∈ near1, Reaches c v) → (∀ a, Has t.writes a → a ∈ near1) →
      (NoBranchTo L (a ++ l ++ b) → near1 = [] ∧ NoPending L t.pending) →
      (∀ {v' l'}, DefinesConstant l' L v' → (v ≤ 255 ↔ v' ≤ 255) →
        if ∀ c ∈ near1, Reaches c v' then runPieces srcName (pieces a ++ l' :: pieces b) .init = .ok (t.at v')
        else ∃ e, runPieces srcName (pieces a ++ l' :: pieces b) .init = .error e) →
      ∃ (spots : List Spot) (near : List Nat), image W = spots.map (Spot.at v) ∧ (∀ c ∈ near, Reaches c v) ∧ (∀ c, .offset c ∈ spots → c ∈ near) ∧
      (NoBranchTo L (a ++ l ++ b) → near = []) ∧
      ∀ {v' : Nat} {l' : List Byte}, DefinesConstant l' L v' → (v ≤ 255 ↔ v' ≤ 255) → ∀ {w' : World}, Setup w' srcName outName (a ++ l' ++ b) →
        ∀ bin' total' symbols', Succeeds w' srcName outName bin' total' symbols' ↔
          (∀ c ∈ near, Reaches c v') ∧ bin' = spots.map (Spot.at v') ∧ total' = s.total ∧ symbols' = s.env.length := by
    rintro t near1 hL rfl hn1 ho hb hr
    have h2' : resolve srcName (envAt v t.env) t.pending (t.writes.map (TChunk.at v)) = .ok W := h2
    obtain ⟨W', near2, k1, k2, k3, k5, k4⟩ := resolve_out h2'
    subst k1
    refine ⟨spots W', near1 ++ near2, image_spots _ _, ?_, fun c hc => ?_, fun hc => ?_, ?_⟩
    · intro c hc
      rcases List.mem_append.1 hc with hc | hc
      · exact hn1 c hc
      · exact k2 c hc
    · rw [List.mem_append]
      rcases k5 c (spots_offset hc) with h | h
      · exact .inl (ho c h)
      · exact .inr h
    · rw [(hb hc).1, k4 fun r hr hlk => (hb hc).2 r hr (hL _ hlk)]
      rfl
    intro v' l' hl' hsame w' hw' bin' total' symbols'
    have hs' : Sized (a ++ l' ++ b) := by
      unfold Sized at hs ⊢
      rw [hp hl] at hs
      rw [hp hl']
      simpa using hs
    have h5 := hr hl' hsame
    have h6 := k3 v'
    simp only [List.forall_mem_append]
    rw [C57_success hw' hs', hp hl']
    constructor
    · rintro ⟨s', V, g1, g2, rfl, rfl, rfl⟩
      by_cases hn : ∀ c ∈ near1, Reaches c v'
      · rw [if_pos hn, g1] at h5
        cases h5
        by_cases hn2 : ∀ c ∈ near2, Reaches c v'
        · rw [if_pos hn2] at h6
          have : V = W'.map (TChunk.at v') := by
            have : resolve srcName (envAt v' t.env) t.pending (t.writes.map (TChunk.at v')) = .ok V := g2
            rw [h6] at this
            exact (Except.ok.inj this).symm
          subst this
          refine ⟨⟨hn, hn2⟩, image_spots _ _, rfl, ?_⟩
          simp [T.at, envAt]
        · rw [if_neg hn2] at h6
          obtain ⟨e, he⟩ := h6
          have : resolve srcName (envAt v' t.env) t.pending (t.writes.map (TChunk.at v')) = .ok V := g2
          rw [he] at this
          cases this
      · rw [if_neg hn, g1] at h5
        obtain ⟨e, he⟩ := h5
        cases he
    · rintro ⟨⟨hn, hn2⟩, rfl, rfl, rfl⟩
      rw [if_pos hn] at h5
      rw [if_pos hn2] at h6
      exact ⟨_, _, h5, h6, (image_spots _ _).symm, rfl, by simp [T.at, envAt]⟩
  rw [hp hl] at h1
  have clean : NoBranchTo L (a ++ l ++ b) → (∀ p ∈ pieces a, ∀ st, stmtOf p = some st → Clean L st) ∧ (∀ p ∈ pieces b, ∀ st, stmtOf p = some st → Clean L st) := by
    intro hc
    have : ∀ p ∈ pieces a ++ l :: pieces b, ∀ st, stmtOf p = some st → Clean L st := by
      intro p hpm st hst lab m arg he ho
      refine hc st ?_ lab m arg he ho
      unfold stmtsOf
      rw [hp hl]
      exact List.mem_filterMap.2 ⟨p, hpm, hst⟩
    exact ⟨fun p h => this p (by simp [h]), fun p h => this p (by simp [h])⟩
  cases h0 : runPieces srcName (pieces a) .init with
  | error f =>
    rw [App.runPieces_error _ h0] at h1
    cases h1
  | ok s0 =>
    have hpend : NoBranchTo L (a ++ l ++ b) → NoPending L s0.pending := by
      intro hc
      obtain ⟨t', near, g1, g2, g3, g4, _, g5⟩ := run_out (L := L) (v := v) (t := lift .init) (lift_only _ _) (by rw [lift_at]; exact h0)
      rw [g2]
      exact (g5 (clean hc).1).2 (by intro r hr; cases hr)
    rcases runPieces_join h0 with hj | hj
    · rw [hj] at h1
      cases h1
      refine main (lift s) [] (lift_only _ _) (lift_at _ _).symm (by simp) (fun a h => absurd h (lift_has s a)) (fun hc => ⟨rfl, hpend hc⟩) fun _ _ => ?_
      simp [hj, lift_at]
    · rw [hj] at h1
      have hfresh : (s0.env.lookup L).isSome = false := by
        cases hx : (s0.env.lookup L).isSome with
        | false => rfl
        | true =>
          obtain ⟨e, he⟩ := const_again (fn := srcName) hl hx (pieces b)
          rw [he] at h1
          cases h1
      let t1 : T := { lift s0 with env := (L, none) :: (lift s0).env, line := s0.line + 1 }
      have ht1 : ∀ v', t1.at v' = { s0 with env := (L, v') :: s0.env, line := s0.line + 1 } := by
        intro v'
        have := lift_at v' s0
        have e1 : envAt v' (lift s0).env = s0.env := congrArg State.env this
        have e2 : (lift s0).writes.map (TChunk.at v') = s0.writes := congrArg State.writes this
        show (⟨s0.pc, s0.line + 1, (L, v') :: envAt v' (lift s0).env, s0.total, s0.filePos, (lift s0).writes.map (TChunk.at v'), s0.pending⟩ : State) = _
        rw [e1, e2]
      have hrun : ∀ {v' l'}, DefinesConstant l' L v' → runPieces srcName (pieces a ++ l' :: pieces b) .init = runPieces srcName (pieces b) (t1.at v') := by
        intro v' l' hl'
        rw [hj, const_piece hl', hfresh, ht1]
        rfl
      have hL1 : Only L t1.env := by
        intro x hx
        by_contra hne
        have : t1.env.lookup x = (lift s0).env.lookup x := by
          show ((L, none) :: (lift s0).env).lookup x = _
          rw [List.lookup_cons, beq_false_of_ne hne]
        rw [this] at hx
        exact hne (lift_only L s0 x hx)
      rw [← hj, hrun hl] at h1
      obtain ⟨t2, near1, g1, g2, g3, g4, g6, g5⟩ := run_out hL1 h1
      refine main t2 near1 g1 g2 g3 (fun a h => (g6 a h).resolve_left (lift_has s0 a)) (fun hc => ?_) fun hl' hsame => ?_
      · obtain ⟨q1, q2⟩ := g5 (clean hc).2
        exact ⟨q1, q2 (hpend hc)⟩
      · rw [hrun hl']
        exact g4 _ hsame

/-- Without branches to the constant: for every other value on the same side of the end of page zero gaia succeeds too, the totals and the length of the output stay, and a
byte of the output changes only from the low byte of the value to the new one, or from the high byte to the new one. -/
theorem C82_value {srcName outName : Str} {a l l' b : List Byte} {L : Str} {v v' : Nat} (ha : WholeLines a) (hl : DefinesConstant l L v) (hl' : DefinesConstant l' L v')
    (hv : v ≤ 255 ↔ v' ≤ 255) (hb : NoBranchTo L (a ++ l ++ b)) (hs : Sized (a ++ l ++ b)) {w w' : World} (hw : Setup w srcName outName (a ++ l ++ b))
    (hw' : Setup w' srcName outName (a ++ l' ++ b)) {bin : List Byte} {total symbols : Nat} (h : Succeeds w srcName outName bin total symbols) :
    ∃ bin', Succeeds w' srcName outName bin' total symbols ∧ bin'.length = bin.length ∧
      ∀ i (h : i < bin.length) (h' : i < bin'.length), bin[i] ≠ bin'[i] →
        (bin[i] = UInt8.ofNat (v % 256) ∧ bin'[i] = UInt8.ofNat (v' % 256)) ∨ (bin[i] = UInt8.ofNat (v / 256 % 256) ∧ bin'[i] = UInt8.ofNat (v' / 256 % 256)) := by
  obtain ⟨spots, near, rfl, h1, h2, h3, h4⟩ := C82_change ha hl hs hw h
  obtain rfl := h3 hb
  refine ⟨_, (h4 hl' hv hw' _ _ _).2 ⟨by simp, rfl, rfl, rfl⟩, by simp, fun i hi hi' hne => ?_⟩
  simp only [List.getElem_map] at hne ⊢
  have hi : i < spots.length := by simpa using hi
  cases hc : spots[i] with
  | fixed b => rw [hc] at hne; exact absurd rfl hne
  | low => exact .inl ⟨rfl, rfl⟩
  | high => exact .inr ⟨rfl, rfl⟩
  | offset a =>
    have := h2 a (hc ▸ List.getElem_mem hi)
    cases this

theorem definesConstant_eval {t : List Byte} {L : Str} {v : Nat} (h : lineStmt t = some (.const L v)) (hn : 10 ∉ t) (hl : t.length ≤ 126) :
    DefinesConstant (t ++ [10]) L v := by
  obtain ⟨x, h1, h2⟩ := lineStmt_some h
  exact ⟨t, x, rfl, hn, hl, h1, h2⟩

/-! A constant used in all ways, before its definition too; it is defined anew in another form. -/

theorem c82_forms : DefinesConstant (b! "N = $0108\n") (b! "N") 0x108 ∧ DefinesConstant (b! "  .DEFINE n 272 ; new\n") (b! "N") 0x110 :=
  ⟨definesConstant_eval (t := b! "N = $0108") (by decide +kernel) (by decide) (by decide),
    definesConstant_eval (t := b! "  .DEFINE n 272 ; new") (by decide +kernel) (by decide) (by decide)⟩

def c82_code (n : Byte) (x y : Byte) : List Byte := List.replicate 256 0 ++ [0x4C, n, 1, 0xD0, x, 0xBD, n, 1, 0x6C, n, 1, 0xF0, y, 0x60]

example : ∃ (spots : List Spot) (near : List Nat), c82_code 8 3 0xFB = spots.map (Spot.at 0x108) ∧ c82_code 0x10 11 3 = spots.map (Spot.at 0x110) ∧
    (∀ c ∈ near, Reaches c 0x108) ∧ ∀ c ∈ near, Reaches c 0x110 := by
  obtain ⟨spots, near, h1, h2, _, _, h3⟩ := C82_change (a := b! "*=$100\n JMP N\n BNE N\n") (b := b! " LDA N,X\n JMP (N)\n BEQ N\n RTS\n")
    (.inr ⟨b! "*=$100\n JMP N\n BNE N", rfl⟩) c82_forms.1 (by decide +kernel) (demo_setup _)
    (demo_succeeds (bin := c82_code 8 3 0xFB) (total := 14) (symbols := 1) (by decide +kernel))
  obtain ⟨h4, h5, _⟩ := (h3 c82_forms.2 (by decide) (demo_setup _) (c82_code 0x10 11 3) 14 1).1 (demo_succeeds (by decide +kernel))
  exact ⟨spots, near, h1, h5, h2, h4⟩

example : ∃ bin', Succeeds (demo (b! "N = 144\n" ++ b! " LDA N\n STA N,X\n")) (b! "p.asm") (b! "p.bin") bin' 4 1 ∧ bin'.length = 4 := by
  have hb : NoBranchTo (b! "N") (b! "" ++ b! "N = $80\n" ++ b! " LDA N\n STA N,X\n") := by
    have : stmtsOf (b! "" ++ b! "N = $80\n" ++ b! " LDA N\n STA N,X\n") =
        [.const (b! "N") 0x80, .instr none .LDA (.plain (.sym (b! "N"))), .instr none .STA (.idxX (.sym (b! "N")))] := by decide +kernel
    intro st h lab m a he _
    rw [this] at h
    simp only [List.mem_cons, List.not_mem_nil, or_false] at h
    rcases h with rfl | rfl | rfl <;> cases he <;> decide +kernel
  obtain ⟨bin', h1, h2, _⟩ := C82_value (a := []) (l := b! "N = $80\n") (l' := b! "N = 144\n") (b := b! " LDA N\n STA N,X\n") (v := 0x80) (v' := 144) (.inl rfl)
    (definesConstant_eval (t := b! "N = $80") (by decide +kernel) (by decide) (by decide))
    (definesConstant_eval (t := b! "N = 144") (by decide +kernel) (by decide) (by decide)) (by decide) hb (by decide +kernel) (demo_setup _) (demo_setup _)
    (demo_succeeds (bin := [0xA5, 0x80, 0x95, 0x80]) (total := 4) (symbols := 1) (by decide +kernel))
  exact ⟨bin', h1, h2⟩

/-- The conditions are needed: across the end of page zero the instructions change their size, and a branch can get out of reach. -/
theorem C82_conditions :
    ((Reference.run [] (b! "N = $FF\n LDA N\n")).file = [0xA5, 0xFF] ∧ (Reference.run [] (b! "N = $100\n LDA N\n")).file = [0xAD, 0x00, 0x01]) ∧
    ((Reference.run [] (b! "N = $81\n BNE N\n")).status = 0 ∧ (Reference.run [] (b! "N = $82\n BNE N\n")).status = 1) := by
  decide +kernel

end Gaia

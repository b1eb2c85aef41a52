import Verif.Proofs.Messages2

/-! Case, renaming, inserted lines: the messages. -/
namespace Gaia
open Spec

theorem skip_recased {s s' : Str} (h : List.Forall₂ Recased s s') (off : Nat) :
    (skipBlanks off s).1 = (skipBlanks off s').1 ∧ List.Forall₂ Recased (skipBlanks off s).2 (skipBlanks off s').2 := by
  induction h generalizing off with
  | nil => exact ⟨rfl, .nil⟩
  | @cons c c' s s' hc hs ih =>
    have hb : isBlank c = isBlank c' := by
      have := Recased.blank hc
      rw [← isBlank_iff, ← isBlank_iff] at this
      exact Bool.eq_iff_iff.2 this
    unfold skipBlanks
    rw [hb]
    split
    · exact ih (off + 1)
    · exact ⟨rfl, .cons hc hs⟩

theorem rd_recased {q : Byte → Bool} (hq : ∀ c, q (toUpper c) = q c) {s s' : Str} (h : List.Forall₂ Recased s s') : q (rd s) = q (rd s') := by
  cases h with
  | nil => rfl
  | @cons c c' s s' hc _ =>
    show q c = q c'
    rw [← hq c, ← hq c', show toUpper c = toUpper c' from Recased.upEq hc]

theorem scan_recased : ∀ (fuel off : Nat) {s s' : Str} (cnt : Nat), List.Forall₂ Recased s s' → NoLeadingBlank s → NoLeadingBlank s' →
    scan fuel off s cnt = scan fuel off s' cnt
  | 0, _, _, _, _, _, _, _ => rfl
  | fuel + 1, off, s, s', cnt, h, hn, hn' => by
    have ha := (alike_of_recased h).mono fun _ _ => Recased.upEq
    have ht := rd_recased (q := isTerm) (by decide +kernel) h
    unfold scan
    rw [ht, lexOne_alike ha hn hn']
    have key : ∀ (o : Nat) {t t' : Str}, List.Forall₂ Recased t t' → scan fuel (skipBlanks o t).1 (skipBlanks o t).2 (cnt + 1) =
        scan fuel (skipBlanks o t').1 (skipBlanks o t').2 (cnt + 1) := by
      intro o t t' htt
      rw [(skip_recased htt o).1]
      exact scan_recased fuel _ _ (skip_recased htt o).2 (skip_noLead _ _) (skip_noLead _ _)
    have hdrop : ∀ n, List.Forall₂ Recased (s.drop n) (s'.drop n) := fun n => List.forall₂_drop n h
    have htail : ∀ n, List.Forall₂ Recased (s.drop n).tail (s'.drop n).tail := fun n => by
      rw [List.tail_drop, List.tail_drop]; exact hdrop _
    have hcol : ∀ n, (rd (s.drop n) = 58 ↔ rd (s'.drop n) = 58) := fun n => by
      have := rd_recased (q := fun c => c == 58) (by decide +kernel) (hdrop n)
      rw [Bool.eq_iff_iff] at this
      simpa using this
    split
    · rfl
    · split
      · rfl
      · rename_i n x _
        rw [key _ (htail n), key _ (hdrop n)]
        simp only [hcol n]

theorem lexemes_recased {l l' : List Byte} (h : List.Forall₂ Recased l l') : lexemes l = lexemes l' := by
  have hc : List.Forall₂ Recased (code l) (code l') := by
    refine forall₂_takeWhile ?_ h
    intro c c' hc
    have := Recased.upEq hc
    unfold UpEq at this
    have g : ∀ c : Byte, (!(c == 13 || c == 10 || c == 59 || c == 0 || c == 255)) =
      (!(toUpper c == 13 || toUpper c == 10 || toUpper c == 59 || toUpper c == 0 || toUpper c == 255)) := by decide +kernel
    rw [g c, g c', this]
  rw [lexemes_code, lexemes_code, (skip_recased hc 0).1, hc.length_eq]
  exact scan_recased _ _ _ (skip_recased hc 0).2 (skip_noLead _ _) (skip_noLead _ _)

/-- The same line against itself. -/
theorem RawM.same {P : Option Nat → Option Nat → Prop} {raw raw' : List Byte} (h : lexemes raw = lexemes raw') (h0 : P none none)
    (h1 : ∀ p, GoodPos raw p → P (some p) (some p)) : RawM Eq P raw raw' := by
  cases e : lexemes raw with
  | ok ls =>
    refine .inl ⟨ls, ls, e, h ▸ e, h0, List.forall₂_same.2 fun q hq => ⟨?_, h1 q.1 (.inr ⟨ls, q.2, e, hq⟩)⟩⟩
    cases q.2 with
    | name l => exact .name rfl
    | _ => exact .same (by simp)
  | error f =>
    cases f with
    | «at» er p => exact .inr (.inl ⟨er, p, p, e, h ▸ e, h1 p (.inl ⟨er, e⟩)⟩)
    | tooMany => exact .inr (.inr ⟨e, h ▸ e⟩)

/-- Complaints about pieces that differ only in case. -/
def recasedComplaint (cs cs' : List (List Byte)) : Complaint := fun n raw n' raw' p p' =>
  n' = n ∧ 1 ≤ n ∧ cs[n - 1]? = some raw ∧ cs'[n - 1]? = some raw' ∧ List.Forall₂ Recased raw raw' ∧ p' = p

theorem pieces2_recased {cs cs' : List (List Byte)} (h : List.Forall₂ (List.Forall₂ Recased) cs cs') :
    Pieces2 Eq (recasedComplaint cs cs') 0 1 cs cs' := by
  have key : ∀ {L L' pre pre' cs cs' : List (List Byte)}, L = pre ++ cs → L' = pre' ++ cs' → pre.length = pre'.length →
      List.Forall₂ (List.Forall₂ Recased) cs cs' → Pieces2 Eq (recasedComplaint L L') 0 (pre.length + 1) cs cs' := by
    intro L L' pre pre' cs cs' hL hL' hp h
    induction h generalizing pre pre' with
    | nil => exact .nil _
    | @cons c c' cs cs' hc _ ih =>
      refine .cons ?_ ?_
      · have g : ∀ p, recasedComplaint L L' (pre.length + 1) c (pre.length + 1 + 0) c' p p := by
          intro p
          refine ⟨rfl, by omega, ?_, ?_, hc, rfl⟩
          · rw [hL]; simp
          · rw [hL', hp]; simp
        exact .same (lexemes_recased hc) (g _) fun p _ => g _
      · have := ih (pre := pre ++ [c]) (pre' := pre' ++ [c']) (by rw [hL]; simp) (by rw [hL']; simp) (by simp [hp])
        simpa using this
  exact key (pre := []) (pre' := []) rfl rfl rfl h

theorem outcome_recased {w w' : World} {srcName outName : Str} {src src' : List Byte} (hw : Setup w srcName outName src)
    (hw' : Setup w' srcName outName src') (hs : Sized src) (h : List.Forall₂ Recased src src') :
    (∃ bin total symbols, Succeeds w srcName outName bin total symbols ∧ Succeeds w' srcName outName bin total symbols) ∨
    ∃ text text' bin, FailsLeaving w srcName outName text bin ∧ FailsLeaving w' srcName outName text' bin ∧
      RecasedComplaint srcName src src' text text' := by
  have hc := chunks_recased _ (Nat.le_refl _) h
  have hs' : Sized src' := by
    unfold Sized at hs ⊢
    rw [pieces_eq] at hs ⊢
    rw [← hc.length_eq]; exact hs
  rcases result_m hw hw' hs hs' (runLines_m oneOne_eq (a := A.init) (a' := A.init) (pieces2_recased hc) (SimM.init _ _)) with h | ⟨t, t', b, h1, h2, h3⟩
  · exact .inl h
  · refine .inr ⟨t, t', b, h1, h2, ?_⟩
    rcases h3 with h3 | ⟨n, raw, n', raw', e, p, p', ⟨rfl, k1, k2, k3, k4, rfl⟩, h4, h5⟩
    · exact .inl h3
    · obtain ⟨k, rfl⟩ : ∃ k, n' = k + 1 := ⟨n' - 1, by omega⟩
      exact .inr ⟨k, raw, raw', e, p', by rw [pieces_eq]; exact k2, by rw [pieces_eq]; exact k3, k4, h4, h5⟩

theorem recased_refl (s : Str) : List.Forall₂ Recased s s := List.forall₂_same.2 fun _ _ => .inl rfl

theorem column_recased {s s' : Str} (h : List.Forall₂ Recased s s') : column s = column s' := by
  unfold column
  have key : ∀ n, s.foldl (fun col c => if c = 9 then (col / 8 + 1) * 8 else col + 1) n = s'.foldl (fun col c => if c = 9 then (col / 8 + 1) * 8 else col + 1) n := by
    induction h with
    | nil => intro n; rfl
    | @cons c c' s s' hc _ ih =>
      intro n
      have g : ∀ c : Byte, (toUpper c = 9) ↔ (c = 9) := by decide +kernel
      have hcc : c = 9 ↔ c' = 9 := by rw [← g c, ← g c', show toUpper c = toUpper c' from Recased.upEq hc]
      simp only [List.foldl_cons, hcc]
      exact ih _
  exact key 0

theorem trimEnd_recased {s s' : Str} (h : List.Forall₂ Recased s s') : List.Forall₂ Recased (trimEnd s) (trimEnd s') := by
  unfold trimEnd
  have key : ∀ {t t' : Str}, List.Forall₂ Recased t t' → List.Forall₂ Recased (t.dropWhile fun c => c == 32 || c == 9 || c == 10 || c == 255)
      (t'.dropWhile fun c => c == 32 || c == 9 || c == 10 || c == 255) := by
    intro t t' ht
    induction ht with
    | nil => exact .nil
    | @cons c c' t t' hc htt ih =>
      have g : ∀ c : Byte, (toUpper c == 32 || toUpper c == 9 || toUpper c == 10 || toUpper c == 255) = (c == 32 || c == 9 || c == 10 || c == 255) := by
        decide +kernel
      rw [List.dropWhile_cons, List.dropWhile_cons, ← g c, ← g c', show toUpper c = toUpper c' from Recased.upEq hc]
      split
      · exact ih
      · exact .cons hc htt
  exact List.rel_reverse (key (List.rel_reverse h))

theorem diag_recased {s s' : Str} (h : List.Forall₂ Recased s s') (e : Err) (p : Option Nat) (fn : Str) (n : Nat) :
    List.Forall₂ Recased (diag s e p fn n) (diag s' e p fn n) := by
  unfold diag
  refine List.rel_append (List.rel_append (List.rel_append (recased_refl _) (trimEnd_recased h)) (recased_refl _)) ?_
  cases p with
  | none => exact recased_refl _
  | some p => simp only [column_recased (List.forall₂_take p h)]; exact recased_refl _

theorem shown_recased {s s' : Str} (h : List.Forall₂ Recased s s') : List.Forall₂ Recased (shown s) (shown s') := by
  refine forall₂_takeWhile ?_ h
  intro c c' hc
  have g : ∀ c : Byte, (toUpper c != 0) = (c != 0) := by decide +kernel
  rw [← g c, ← g c', show toUpper c = toUpper c' from Recased.upEq hc]

end Gaia

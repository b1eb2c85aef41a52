import Verif.Spec.Messages
import Verif.Proofs.Messages
import Verif.Proofs.AnyRun

/-! Sources whose lines correspond one by one: the messages. -/
namespace Gaia
open Spec

theorem cuts_buffers {raw l : List Byte} (h : Buffers raw l) (x : List (Nat × Lexeme)) : Cuts raw x ↔ Cuts l x := by
  have : code raw = code l := by
    rcases h with rfl | rfl
    · rfl
    · exact code_newline l
  unfold Cuts
  rw [this]

theorem no_cuts {raw : List Byte} {e : Err} {p : Nat} (h : lexemes raw = .error (.at e p)) : ¬ ∃ x, Cuts raw x := by
  rintro ⟨x, hx⟩
  rw [lexemes_cut_complete hx] at h
  split_ifs at h
  cases h

/-- Within the line. -/
def Inside (l : List Byte) (p : Option Nat) : Prop := ∀ q, p = some q → q ≤ (cstr l).length

theorem inside_none (l : List Byte) : Inside l none := fun _ h => by cases h

theorem inside_lexeme {l : List Byte} {ls : List (Nat × Lexeme)} (h : lexemes l = .ok ls) {q : Nat × Lexeme} (hq : q ∈ ls) : Inside l (some q.1) := by
  rintro p ⟨⟩
  exact GoodPos.le (.inr ⟨ls, q.2, h, hq⟩)

theorem rawM_of_sim {T : Str → Str → Prop} {raw raw' l l' : List Byte} (h : RawSim T raw raw') (hb : Buffers raw l) (hb' : Buffers raw' l') :
    RawM T (fun p p' => SamePlace l l' p p' ∧ Inside l p ∧ Inside l' p') raw raw' := by
  rcases h with ⟨ls, ls', h1, h2, hl⟩ | ⟨e, p, p', h1, h2⟩ | h
  · refine .inl ⟨ls, ls', h1, h2, ⟨trivial, inside_none l, inside_none l'⟩, ?_⟩
    rw [lexemes_buffers hb] at h1
    rw [lexemes_buffers hb'] at h2
    have hl := List.forall₂_iff_get.1 hl
    refine List.forall₂_iff_get.2 ⟨hl.1, fun i hi hi' => ⟨hl.2 i hi hi', ?_, inside_lexeme h1 (List.getElem_mem hi), inside_lexeme h2 (List.getElem_mem hi')⟩⟩
    refine .inl ⟨ls, ls', i, ls[i].2, ls'[i].2, (lexemes_cut_sound h1).1, (lexemes_cut_sound h2).1, ?_, ?_⟩
    · rw [List.getElem?_eq_getElem hi]; rfl
    · rw [List.getElem?_eq_getElem hi']; rfl
  · refine .inr (.inl ⟨e, p, p', h1, h2, ?_⟩)
    rw [lexemes_buffers hb] at h1
    rw [lexemes_buffers hb'] at h2
    refine ⟨.inr ⟨no_cuts h1, no_cuts h2⟩, ?_, ?_⟩
    · rintro q ⟨⟩; exact GoodPos.le (.inl ⟨e, h1⟩)
    · rintro q ⟨⟩; exact GoodPos.le (.inl ⟨e, h2⟩)
  · exact .inr (.inr h)

theorem rawSim_of_kinds {raw raw' : List Byte} (h : kinds (lexemes raw) = kinds (lexemes raw')) : RawSim Eq raw raw' := by
  cases e : lexemes raw with
  | ok ls =>
    cases e' : lexemes raw' with
    | ok ls' =>
      rw [e, e'] at h
      have h : ls.map (·.2) = ls'.map (·.2) := by simpa [kinds] using h
      refine .inl ⟨ls, ls', e, e', ?_⟩
      have key : ∀ {ls ls' : List (Nat × Lexeme)}, ls.map (·.2) = ls'.map (·.2) → LineSim Eq ls ls' := by
        intro ls
        induction ls with
        | nil => intro ls' h; cases ls' with
          | nil => exact .nil
          | cons _ _ => cases h
        | cons q ls ih =>
          intro ls' h
          cases ls' with
          | nil => cases h
          | cons q' ls' =>
            simp only [List.map_cons, List.cons.injEq] at h
            refine .cons ?_ (ih h.2)
            rw [h.1]
            cases q'.2 with
            | name l => exact .name rfl
            | _ => exact .same (by simp)
      exact key h
    | error f => rw [e, e'] at h; cases f <;> cases h
  | error f =>
    cases e' : lexemes raw' with
    | ok ls' => rw [e, e'] at h; cases f <;> cases h
    | error f' =>
      rw [e, e'] at h
      cases f with
      | «at» er p =>
        cases f' with
        | «at» er' p' =>
          have : er = er' := by simpa [kinds] using h
          subst this
          exact .inr (.inl ⟨_, _, _, e, e'⟩)
        | tooMany => cases h
      | tooMany =>
        cases f' with
        | «at» er' p' => cases h
        | tooMany => exact .inr (.inr ⟨e, e'⟩)

/-- Complaints about lines of the same number. -/
def lineComplaint (ls ls' : List (List Byte)) : Complaint := fun n raw n' raw' p p' =>
  n' = n ∧ 1 ≤ n ∧ ∃ l l', ls[n - 1]? = some l ∧ ls'[n - 1]? = some l' ∧ Buffers raw l ∧ Buffers raw' l' ∧
    SamePlace l l' p p' ∧ Inside l p ∧ Inside l' p'

theorem pieces2_lines {T : Str → Str → Prop} {src src' : List Byte} (hl : ∀ l ∈ lines src, l.length ≤ 126) (hl' : ∀ l ∈ lines src', l.length ≤ 126)
    (h : List.Forall₂ (fun l l' => ∀ raw raw', Buffers raw l → Buffers raw' l' → RawSim T raw raw') (lines src) (lines src')) :
    Pieces2 T (lineComplaint (lines src) (lines src')) 0 1 (chunks src) (chunks src') := by
  have h1 := chunks_lines src hl
  have h2 := chunks_lines src' hl'
  have key : ∀ {L L' pre pre' ls ls' cs cs' : List (List Byte)}, L = pre ++ ls → L' = pre' ++ ls' → pre.length = pre'.length →
      List.Forall₂ Buffers cs ls → List.Forall₂ Buffers cs' ls' →
      List.Forall₂ (fun l l' => ∀ raw raw', Buffers raw l → Buffers raw' l' → RawSim T raw raw') ls ls' →
      Pieces2 T (lineComplaint L L') 0 (pre.length + 1) cs cs' := by
    intro L L' pre pre' ls ls' cs cs' hL hL' hp hc hc' h
    induction h generalizing pre pre' cs cs' with
    | nil => cases hc; cases hc'; exact .nil _
    | @cons l l' ls ls' hr _ ih =>
      cases hc with
      | @cons c _ cs _ hb hc =>
        cases hc' with
        | @cons c' _ cs' _ hb' hc' =>
          refine .cons ?_ ?_
          · have := rawM_of_sim (hr c c' hb hb') hb hb'
            have g : ∀ p p', (SamePlace l l' p p' ∧ Inside l p ∧ Inside l' p') → lineComplaint L L' (pre.length + 1) c (pre.length + 1 + 0) c' p p' := by
              intro p p' hpp
              refine ⟨rfl, by omega, l, l', ?_, ?_, hb, hb', hpp⟩
              · rw [hL]; simp
              · rw [hL', hp]; simp
            rcases this with ⟨x, x', k1, k2, k3, k4⟩ | ⟨e, p, p', k1, k2, k3⟩ | k
            · exact .inl ⟨x, x', k1, k2, g _ _ k3, k4.imp fun _ _ h => ⟨h.1, g _ _ h.2⟩⟩
            · exact .inr (.inl ⟨e, p, p', k1, k2, g _ _ k3⟩)
            · exact .inr (.inr k)
          · have := ih (pre := pre ++ [l]) (pre' := pre' ++ [l']) (by rw [hL]; simp) (by rw [hL']; simp) (by simp [hp]) hc hc'
            simpa using this
  exact key (pre := []) (pre' := []) rfl rfl rfl h1 h2 h

/-- Sources whose lines correspond have the same outcome. -/
theorem sameOutcome {T : Str → Str → Prop} (hT : OneOne T) {w w' : World} {srcName outName : Str} {src src' : List Byte}
    (hw : Setup w srcName outName src) (hw' : Setup w' srcName outName src') (hs : Sized src) (hs' : Sized src')
    (hl : ∀ l ∈ lines src, l.length ≤ 126) (hl' : ∀ l ∈ lines src', l.length ≤ 126)
    (h : List.Forall₂ (fun l l' => ∀ raw raw', Buffers raw l → Buffers raw' l' → RawSim T raw raw') (lines src) (lines src')) :
    SameOutcome srcName outName w w' src src' := by
  have hp := pieces2_lines hl hl' h
  have hr := runLines_m hT (fn := srcName) (a := A.init) (a' := A.init) hp (SimM.init T _)
  rcases result_m hw hw' hs hs' hr with h | ⟨text, text', bin, h1, h2, h3⟩
  · exact .inl h
  · refine .inr ⟨text, text', bin, h1, h2, ?_⟩
    rcases h3 with h3 | ⟨n, raw, n', raw', e, p, p', ⟨rfl, k1, l, l', k2, k3, k4, k5, k6, k7, k8⟩, h4, h5⟩
    · exact .inl h3
    · obtain ⟨k, rfl⟩ : ∃ k, n' = k + 1 := ⟨n' - 1, by omega⟩
      refine .inr ⟨k, l, l', e, p, p', k2, k3, k6, ?_, ?_⟩
      · rw [h4]; exact diag_buffers k4 e p srcName _ k7
      · rw [h5]; exact diag_buffers k5 e p' srcName _ k8

theorem oneOne_eq : OneOne (Eq : Str → Str → Prop) := by
  rintro l l' m m' rfl rfl; exact Iff.rfl

theorem sameOutcome_kinds {R : List Byte → List Byte → Prop} {w w' : World} {srcName outName : Str} {src src' : List Byte}
    (hw : Setup w srcName outName src) (hw' : Setup w' srcName outName src') (hs : Sized src) (hs' : Sized src')
    (hl : ∀ l ∈ lines src, l.length ≤ 126) (hl' : ∀ l ∈ lines src', l.length ≤ 126)
    (h : List.Forall₂ R (lines src) (lines src')) (hR : ∀ l l', R l l' → kinds (lexemes l) = kinds (lexemes l')) :
    SameOutcome srcName outName w w' src src' := by
  refine sameOutcome oneOne_eq hw hw' hs hs' hl hl' (h.imp fun l l' hll raw raw' hb hb' => rawSim_of_kinds ?_)
  rw [lexemes_buffers hb, lexemes_buffers hb']
  exact hR l l' hll

end Gaia

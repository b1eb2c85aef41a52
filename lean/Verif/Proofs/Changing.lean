import Verif.Proofs.Process
import Verif.Spec.Changing
import Verif.Spec.Program

/-! A run on a source that changes. -/
namespace Gaia.Proc
open Gaia Spec

/-- The phase a run with the result `r` ends in. -/
def Matches (p : Phase) (r : Gaia.Run St) : Prop :=
  match p, r with
  | .closing status text out, .ok st => status = 0 ∧ text = report st.total st.symtab.count ∧ out = st.out
  | .closing status text out, .err a => status = 1 ∧ text = a.fail.out ∧ out = a.out
  | .undefined u, .ub u' => u = u'
  | _, _ => False

theorem matches_afterLoop (st : St) : Matches (afterLoop st) (conclude (.ok st)) := by
  unfold afterLoop
  have h2 : conclude (.ok st) = (resolveAll st st.unres.curr 0 st.out >>= fun out => pure { st with out := out }) := rfl
  rw [h2]
  cases hr : resolveAll st st.unres.curr 0 st.out with
  | ok out => exact ⟨rfl, rfl, rfl⟩
  | err a => exact ⟨rfl, rfl, rfl⟩
  | ub u => rfl

theorem matches_loopBody (r : List Byte × List Byte) (pos : Nat) (eof : Bool) (st : St) :
    (∃ st', loopBody r pos eof st = .reading r.2 pos eof st' ∧ ∀ more, mainLoop (r.1 :: more) st = mainLoop more st') ∨
    ∀ more, Matches (loopBody r pos eof st) (conclude (mainLoop (r.1 :: more) st)) := by
  have hm : ∀ more, mainLoop (r.1 :: more) st = (lineStep r.1 st >>= fun n => match n with
      | .continue st => mainLoop more st
      | .stop st => pure st) := fun _ => rfl
  unfold loopBody
  cases hr : lineStep r.1 st with
  | ok n =>
    cases n with
    | «continue» st' => exact .inl ⟨st', rfl, fun more => by rw [hm, hr]; rfl⟩
    | stop st' => exact .inr fun more => by rw [hm, hr]; exact matches_afterLoop st'
  | err a => exact .inr fun more => by rw [hm, hr]; exact ⟨rfl, rfl, rfl⟩
  | ub u => exact .inr fun more => by rw [hm, hr]; rfl

/-- What has been read so far. -/
def Verdict (h : List (List Byte)) (src : Str) (V : Gaia.Run St → Prop) : Prop :=
  ∃ R k, Spliced h k R ∧ ((Whole h k R ∧ V (assembleBytes src R)) ∨ ∀ more, V (assembleBytes src (R ++ more)))

/-- How the process stands; `h` are the versions so far, `f` is the output now. -/
def Stands (h : List (List Byte)) (j : Job) (f : Option (List Byte)) : Phase → Prop
  | .start => True
  | .opened => True
  | .reading inp pos eof st => ∃ R k, R.length = pos ∧ Spliced h k R ∧ (∀ i, i < R.length → k i < h.length) ∧
      if eof then Whole h k R ∧ assembleBytes j.src R = conclude (rest inp st)
      else ∀ more, assembleBytes j.src (R ++ more) = conclude (rest (inp ++ more) st)
  | .closing status text out => Verdict h j.src (Matches (.closing status text out))
  | .done status text => ∃ out, Verdict h j.src (Matches (.closing status text out)) ∧ f = some out.bytes
  | .undefined u => Verdict h j.src (Matches (.undefined u))
  | .killed => True

theorem _root_.Gaia.Spec.Spliced.mono {h : List (List Byte)} {k : Nat → Nat} {S : List Byte} (hs : Spliced h k S) (h' : List (List Byte)) : Spliced (h ++ h') k S := by
  refine ⟨hs.later, fun i hi => ?_⟩
  obtain ⟨v, h1, h2⟩ := hs.byte i hi
  exact ⟨v, by rw [List.getElem?_append_left (List.getElem?_eq_some_iff.1 h1).1]; exact h1, h2⟩

theorem whole_mono {h : List (List Byte)} {k : Nat → Nat} {S : List Byte} (hs : Whole h k S) (h' : List (List Byte)) : Whole (h ++ h') k S := by
  obtain ⟨m, v, h1, h2, h3⟩ := hs
  exact ⟨m, v, by rw [List.getElem?_append_left (List.getElem?_eq_some_iff.1 h1).1]; exact h1, h2, h3⟩

theorem Verdict.mono {h : List (List Byte)} {src : Str} {V : Gaia.Run St → Prop} (hs : Verdict h src V) (h' : List (List Byte)) :
    Verdict (h ++ h') src V := by
  obtain ⟨R, k, h1, h2⟩ := hs
  exact ⟨R, k, h1.mono h', h2.imp (fun x => ⟨whole_mono x.1 h', x.2⟩) id⟩

theorem Stands.mono {h : List (List Byte)} {j : Job} {f : Option (List Byte)} {p : Phase} (hs : Stands h j f p) (h' : List (List Byte)) :
    Stands (h ++ h') j f p := by
  cases p with
  | start => trivial
  | opened => trivial
  | killed => trivial
  | closing => exact Verdict.mono hs h'
  | undefined => exact Verdict.mono hs h'
  | done =>
    obtain ⟨out, h1, h2⟩ := hs
    exact ⟨out, h1.mono h', h2⟩
  | reading inp pos eof st =>
    obtain ⟨R, k, h1, h2, h3, h4⟩ := hs
    refine ⟨R, k, h1, h2.mono h', fun i hi => by rw [List.length_append]; exact Nat.lt_of_lt_of_le (h3 i hi) (Nat.le_add_right _ _), ?_⟩
    cases eof with
    | true => exact ⟨whole_mono h4.1 h', h4.2⟩
    | false => exact h4

/-- A block read now. -/
theorem _root_.Gaia.Spec.Spliced.block {h : List (List Byte)} {k : Nat → Nat} {R c : List Byte} (hs : Spliced (h ++ [c]) k R)
    (hk : ∀ i, i < R.length → k i < (h ++ [c]).length) (n : Nat) :
    Spliced (h ++ [c]) (fun i => if i < R.length then k i else h.length) (R ++ (c.drop R.length).take n) := by
  constructor
  · intro i i' hi hi'
    split_ifs with h1 h2
    · exact hs.later i i' hi (by omega)
    · have := hk i h1; simp only [List.length_append, List.length_singleton] at this; omega
    · omega
    · exact Nat.le_refl _
  · intro i hi
    split_ifs with h1
    · obtain ⟨v, h2, h3⟩ := hs.byte i h1
      exact ⟨v, h2, by rw [List.getElem?_append_left h1]; exact h3⟩
    · refine ⟨c, by simp, ?_⟩
      rw [List.length_append, List.length_take] at hi
      rw [List.getElem?_append_right (by omega), List.getElem?_take_of_lt (by omega), List.getElem?_drop]
      congr 1; omega

theorem Stands.verdict {h : List (List Byte)} {j : Job} {f : Option (List Byte)} {p : Phase} {R : List Byte} {k : Nat → Nat} (hsp : Spliced h k R)
    (hv : (Whole h k R ∧ Matches p (assembleBytes j.src R)) ∨ ∀ more, Matches p (assembleBytes j.src (R ++ more))) : Stands h j f p := by
  have no : ∀ r, ¬ Matches .start r ∧ ¬ Matches .opened r ∧ (∀ a b c d, ¬ Matches (.reading a b c d) r) ∧ (∀ a b, ¬ Matches (.done a b) r) ∧
      ¬ Matches .killed r := by
    intro r; cases r <;> exact ⟨id, id, fun _ _ _ _ => id, fun _ _ => id, id⟩
  have hm : ∃ r, Matches p r := by
    rcases hv with hv | hv
    · exact ⟨_, hv.2⟩
    · exact ⟨_, hv []⟩
  obtain ⟨r, hm⟩ := hm
  cases p with
  | start => trivial
  | opened => trivial
  | killed => trivial
  | reading a b c d => exact absurd hm ((no r).2.2.1 a b c d)
  | done a b => exact absurd hm ((no r).2.2.2.1 a b)
  | closing a b c => exact ⟨R, k, hsp, hv⟩
  | undefined u => exact ⟨R, k, hsp, hv⟩

/-- One step of gaia; the source holds `c` now. -/
theorem Stands.act {w1 : World} {j : Job} {h : List (List Byte)} {c : List Byte} (hne : j.src ≠ j.out) (hsrc : w1.files j.src = some c)
    (hcr : w1.creatable j.out = true) {p : Phase} (hs : Stands (h ++ [c]) j (w1.files j.out) p) (a : Act) :
    Stands (h ++ [c]) j ((Proc.act j a w1 p).1.files j.out) (Proc.act j a w1 p).2 ∧ (Proc.act j a w1 p).1.files j.src = some c ∧
    (Proc.act j a w1 p).1.creatable = w1.creatable := by
  cases p with
  | done status text => exact ⟨hs, hsrc, rfl⟩
  | undefined u => exact ⟨hs, hsrc, rfl⟩
  | killed => exact ⟨hs, hsrc, rfl⟩
  | start =>
    cases a <;> first | exact ⟨hs, hsrc, rfl⟩ | skip
    simp only [Proc.act, hsrc]
    exact ⟨trivial, trivial, trivial⟩
  | opened =>
    cases a <;> first | exact ⟨hs, hsrc, rfl⟩ | skip
    simp only [Proc.act, hcr, Bool.true_eq_false, if_false]
    refine ⟨⟨[], fun _ => 0, rfl, ⟨fun _ _ _ h => absurd h (by simp), fun _ h => absurd h (by simp)⟩, fun _ h => absurd h (by simp), ?_⟩, ?_, rfl⟩
    · intro more; exact assembleBytes_eq _ _
    · rw [write_other _ _ hne]; exact hsrc
  | closing status text out =>
    cases a with
    | kill => exact ⟨trivial, hsrc, rfl⟩
    | openSource => exact ⟨hs, hsrc, rfl⟩
    | createOutput => exact ⟨hs, hsrc, rfl⟩
    | read n => exact ⟨hs, hsrc, rfl⟩
    | line => exact ⟨hs, hsrc, rfl⟩
    | finish => exact ⟨hs, hsrc, rfl⟩
    | flush k => exact ⟨hs, by simp only [Proc.act]; rw [write_other _ _ hne]; exact hsrc, rfl⟩
    | close => exact ⟨⟨out, hs, by simp only [Proc.act]; rw [write_self]⟩, by simp only [Proc.act]; rw [write_other _ _ hne]; exact hsrc, rfl⟩
  | reading inp pos eof st =>
    have same := hs
    obtain ⟨R, k, hR, hsp, hk, hrun⟩ := hs
    cases a with
    | kill => exact ⟨trivial, hsrc, rfl⟩
    | openSource => exact ⟨same, hsrc, rfl⟩
    | createOutput => exact ⟨same, hsrc, rfl⟩
    | close => exact ⟨same, hsrc, rfl⟩
    | flush n => exact ⟨same, by simp only [Proc.act]; rw [write_other _ _ hne]; exact hsrc, rfl⟩
    | read n =>
      simp only [Proc.act, hsrc]
      cases eof with
      | true => exact ⟨same, hsrc, rfl⟩
      | false =>
        refine ⟨⟨R ++ (c.drop pos).take (n + 1), _, by rw [List.length_append, hR], hR ▸ hsp.block hk (n + 1), ?_, ?_⟩, hsrc, rfl⟩
        · intro i hi
          split_ifs with h1
          · exact hk i (by omega)
          · simp
        · simp only [Bool.false_eq_true, if_false] at hrun
          split_ifs with h1
          · have hz := List.isEmpty_iff.1 h1
            have hd : c.drop pos = [] := by
              rcases List.take_eq_nil_iff.1 hz with h | h
              · omega
              · exact h
            refine ⟨⟨h.length, c, by simp, ?_, ?_⟩, ?_⟩
            · rw [hz, List.append_nil, hR]; exact List.drop_eq_nil_iff.1 hd
            · intro i hi
              dsimp only
              split_ifs with h2
              · have := hk i (by omega); simp only [List.length_append, List.length_singleton] at this; omega
              · exact Nat.le_refl _
            · rw [hz]
              have := hrun []
              simpa using this
          · intro more
            rw [List.append_assoc, List.append_assoc]
            exact hrun _
    | line =>
      simp only [Proc.act]
      cases eof with
      | true =>
        simp only [if_true] at hrun ⊢
        split_ifs with h1
        · exact ⟨same, hsrc, rfl⟩
        · refine ⟨?_, hsrc, rfl⟩
          have hl := conclude_line (inp := inp) (more := []) (r := fgets (MAX_BUFFER_SIZE - 1) inp) h1 (by simp) st
          rw [List.append_nil, List.append_nil] at hl
          rw [hl] at hrun
          rcases matches_loopBody (fgets (MAX_BUFFER_SIZE - 1) inp) pos true st with ⟨st', h2, h3⟩ | h2
          · rw [h2]
            refine ⟨R, k, hR, hsp, hk, hrun.1, ?_⟩
            rw [hrun.2, h3]; rfl
          · have h3 := h2 (chunks (fgets (MAX_BUFFER_SIZE - 1) inp).2)
            rw [← hrun.2] at h3
            exact Stands.verdict hsp (.inl ⟨hrun.1, h3⟩)
      | false =>
        simp only [Bool.false_eq_true, if_false] at hrun ⊢
        cases hl : IO.fgetsErr (MAX_BUFFER_SIZE - 1) inp with
        | none => exact ⟨same, hsrc, rfl⟩
        | some r =>
          refine ⟨?_, hsrc, rfl⟩
          dsimp only
          rcases matches_loopBody r pos false st with ⟨st', h2, h3⟩ | h2
          · rw [h2]
            refine ⟨R, k, hR, hsp, hk, ?_⟩
            simp only [Bool.false_eq_true, if_false]
            intro more
            rw [hrun more, conclude_line (line_some (more := more) hl).1 (line_some hl).2, h3]; rfl
          · refine Stands.verdict hsp (.inr fun more => ?_)
            rw [hrun more, conclude_line (line_some (more := more) hl).1 (line_some hl).2]
            exact h2 _
    | finish =>
      simp only [Proc.act]
      split_ifs with h1
      · refine ⟨?_, hsrc, rfl⟩
        obtain ⟨rfl, rfl⟩ := h1
        simp only [if_true] at hrun
        refine Stands.verdict hsp (.inl ⟨hrun.1, ?_⟩)
        rw [hrun.2]; exact matches_afterLoop st
      · exact ⟨same, hsrc, rfl⟩

theorem versions_write (src name : Str) (c content : List Byte) (es : List Event) :
    versions src c (.write name content :: es) = if name = src then c :: versions src content es else versions src c es := by
  rw [versions]

/-- The versions after some events. -/
theorem versions_append (src : Str) : ∀ (es : List Event) (c : List Byte) (e : Event), ∃ h c', versions src c es = h ++ [c'] ∧
    versions src c (es ++ [e]) = h ++ versions src c' [e]
  | [], c, e => ⟨[], c, rfl, rfl⟩
  | .step a :: es, c, e => versions_append src es c e
  | .write name content :: es, c, e => by
    have : (Event.write name content :: es ++ [e]) = .write name content :: (es ++ [e]) := rfl
    rw [this, versions_write, versions_write]
    split_ifs with hn
    · obtain ⟨h, c', h1, h2⟩ := versions_append src es content e
      exact ⟨c :: h, c', by rw [h1]; rfl, by rw [h2]; rfl⟩
    · obtain ⟨h, c', h1, h2⟩ := versions_append src es c e
      exact ⟨h, c', h1, h2⟩

theorem runAmong_stands {w : World} {j : Job} {c : List Byte} (hw : Setup w j.src j.out c) (es : List Event)
    (hout : ∀ name content, .write name content ∈ es → name ≠ j.out) :
    Stands (versions j.src c es) j ((runAmong j w es).1.files j.out) (runAmong j w es).2 ∧
    (∃ h c', versions j.src c es = h ++ [c'] ∧ (runAmong j w es).1.files j.src = some c') ∧ (runAmong j w es).1.creatable = w.creatable := by
  induction es using List.reverseRecOn with
  | nil => exact ⟨trivial, ⟨[], c, rfl, hw.source⟩, rfl⟩
  | append_singleton es e ih =>
    obtain ⟨i1, ⟨h, c', i2, i3⟩, i4⟩ := ih fun name content hm => hout name content (by simp [hm])
    have hr : runAmong j w (es ++ [e]) = event j (runAmong j w es) e := by unfold runAmong; rw [List.foldl_append]; rfl
    obtain ⟨h', c'', k1, k2⟩ := versions_append j.src es c e
    obtain ⟨rfl, k3⟩ := List.append_inj' (i2.symm.trans k1) rfl
    obtain rfl : c' = c'' := by simpa using k3
    rw [hr, k2]
    rw [i2] at i1
    cases e with
    | step a =>
      obtain ⟨a1, a2, a3⟩ := i1.act hw.different i3 (by rw [i4]; exact hw.creatable) a
      exact ⟨a1, ⟨h, c', rfl, a2⟩, a3.trans i4⟩
    | write name content =>
      have hn : j.out ≠ name := fun e => hout name content (by simp) e.symm
      have hf : (event j (runAmong j w es) (.write name content)).1.files j.out = (runAmong j w es).1.files j.out := write_other _ _ hn
      rw [hf]
      show Stands (h ++ versions j.src c' [.write name content]) j _ (runAmong j w es).2 ∧ _
      rw [versions_write]
      split_ifs with hs
      · refine ⟨?_, ⟨h ++ [c'], content, by simp [versions], ?_⟩, i4⟩
        · have := i1.mono [content]
          simpa [versions] using this
        · show ((runAmong j w es).1.write name content).files j.src = _
          rw [hs, write_self]
      · refine ⟨by simpa [versions] using i1, ⟨h, c', by simp [versions], ?_⟩, i4⟩
        show ((runAmong j w es).1.write name content).files j.src = _
        rw [write_other _ _ (fun e => hs e.symm)]; exact i3

end Gaia.Proc

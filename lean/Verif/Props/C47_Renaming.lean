import Verif.Spec.Rename
import Verif.Proofs.Rename
import Verif.Props.Reach

/-! C47: the names of labels carry no meaning. C48: symbols nobody uses change nothing. -/
namespace Gaia
open Spec

theorem rawSim_renamed {ρ : Str → Str} {l l' raw raw' : List Byte} (h : RenamedLine ρ l l') (hb : Buffers raw l) (hb' : Buffers raw' l')
    {T : Str → Str → Prop} (hT : ∀ x p n, Cuts l x → (p, Lexeme.name n) ∈ x → T n (ρ n)) : RawSim T raw raw' := by
  unfold RawSim
  rw [lexemes_buffers hb, lexemes_buffers hb']
  rcases h with ⟨x, x', h1, h2, h3⟩ | ⟨rfl, h⟩
  · have hlen : x.length = x'.length := by simpa using (congrArg List.length h3).symm
    rw [lexemes_cut_complete h1, lexemes_cut_complete h2, ← hlen]
    split_ifs
    · refine .inl ⟨x, x', rfl, rfl, ?_⟩
      have key : ∀ (y y' : List (Nat × Lexeme)), y'.map (·.2) = y.map (·.2.rename ρ) → (∀ p n, (p, Lexeme.name n) ∈ y → T n (ρ n)) →
          LineSim T y y' := by
        intro y
        induction y with
        | nil => intro y' h _; cases y' with
          | nil => exact .nil
          | cons _ _ => cases h
        | cons q y ih =>
          intro y' h hn
          cases y' with
          | nil => cases h
          | cons q' y' =>
            simp only [List.map_cons, List.cons.injEq] at h
            refine .cons ?_ (ih y' h.2 fun p n hp => hn p n (by simp [hp]))
            rw [h.1]
            obtain ⟨p, z⟩ := q
            cases z with
            | name n => exact .name (hn p n (by simp))
            | _ => exact .same (by simp)
      exact key x x' h3 fun p n hp => hT x p n h1 hp
    · exact .inr (.inr ⟨rfl, rfl⟩)
  · cases e : lexemes l with
    | ok ls => exact absurd ⟨ls, (lexemes_cut_sound e).1⟩ h
    | error f =>
      cases f with
      | «at» e' p => exact .inr (.inl ⟨e', p, p, rfl, rfl⟩)
      | tooMany => exact .inr (.inr ⟨rfl, rfl⟩)

theorem sameResult_of_simT {T : Str → Str → Prop} {w w' : World} {srcName outName : Str} {src src' : List Byte}
    (hw : Setup w srcName outName src) (hw' : Setup w' srcName outName src') (hs : Sized src) (hs' : Sized src')
    (h : SimE abortCode T 0 (runLines srcName (chunks src) A.init) (runLines srcName (chunks src') A.init)) :
    SameResult srcName outName w w' := by
  rcases result_simT hw hw' hs hs' h with ⟨b, t, s, h1, h2⟩ | ⟨t, t', b, h1, h2⟩
  · exact ⟨0, _, _, b, h1, h2, .inl rfl, fun _ => rfl⟩
  · exact ⟨1, t, t', b, h1, h2, .inr rfl, by simp⟩

theorem SimA.init (T : Str → Str → Prop) : SimA T 0 A.init A.init :=
  ⟨rfl, rfl, rfl, fun _ _ _ => rfl, rfl, .nil⟩

/-- **C47.** Renaming the labels and constants of a source, such that different names stay different, changes nothing: same exit
status, same output file, on success the same report. This holds for all sources with lines of at most 126 characters, also for
those with errors. -/
theorem C47_renaming {w w' : World} {srcName outName : Str} {src src' : List Byte} (ρ : Str → Str)
    (hw : Setup w srcName outName src) (hw' : Setup w' srcName outName src') (hs : Sized src) (hs' : Sized src')
    (hl : ∀ l ∈ lines src, l.length ≤ 126) (hl' : ∀ l ∈ lines src', l.length ≤ 126)
    (hρ : ∀ m n, Mentions (lines src) m → Mentions (lines src) n → ρ m = ρ n → m = n)
    (h : List.Forall₂ (RenamedLine ρ) (lines src) (lines src')) : SameResult srcName outName w w' := by
  refine sameResult_of_simT hw hw' hs hs' (runLines_simT (T := fun l l' => Mentions (lines src) l ∧ l' = ρ l) ?_ ?_ (.init _))
  · rintro l l' m m' ⟨h1, rfl⟩ ⟨h2, rfl⟩
    exact ⟨fun h => by rw [h], fun h => hρ l m h1 h2 h⟩
  · have h1 := chunks_lines src hl
    have h2 := chunks_lines src' hl'
    have hm : ∀ l ∈ lines src, ∀ x p n, Cuts l x → (p, Lexeme.name n) ∈ x → Mentions (lines src) n ∧ ρ n = ρ n :=
      fun l hl x p n hx hp => ⟨⟨l, hl, x, p, hx, hp⟩, rfl⟩
    generalize Mentions (lines src) = M at hm
    generalize lines src = ls at *
    generalize lines src' = ls' at *
    generalize chunks src = cs at *
    generalize chunks src' = cs' at *
    clear hρ hw hw' hs hs'
    induction h generalizing cs cs' with
    | nil => cases h1; cases h2; exact .nil
    | @cons l l' ls ls' hr _ ih =>
      cases h1 with
      | cons b1 h1 =>
        cases h2 with
        | cons b2 h2 =>
          exact .cons (rawSim_renamed hr b1 b2 fun x p n hx hp => hm l (by simp) x p n hx hp)
            (ih (fun l h => hl l (by simp [h])) (fun l h => hm l (by simp [h])) (fun l h => hl' l (by simp [h])) _ h1 _ h2)

theorem lines_append {pre s : List Byte} (h : WholeLines pre) : lines (pre ++ s) = lines pre ++ lines s := by
  have key : ∀ (q s : List Byte), lines (q ++ 10 :: s) = lines (q ++ [10]) ++ lines s := by
    intro q
    induction q with
    | nil => intro s; simp [lines]
    | cons c q ih =>
      intro s
      simp only [List.cons_append, lines]
      rw [ih s]
      split_ifs
      · rfl
      · have : lines (q ++ [10]) ≠ [] := by
          cases q with
          | nil => simp [lines]
          | cons d q =>
            simp only [List.cons_append, lines]
            split_ifs
            · simp
            · split <;> simp
        obtain ⟨z, zs, hz⟩ := List.exists_cons_of_ne_nil this
        rw [hz]
        rfl
  rcases h with rfl | ⟨q, rfl⟩
  · rfl
  · rw [List.append_assoc]; exact key q s

theorem lines_line {l s : List Byte} (hl : ∀ c ∈ l, c ≠ 10) : lines (l ++ 10 :: s) = l :: lines s := by
  induction l with
  | nil => simp [lines]
  | cons c l ih =>
    simp only [List.cons_append, lines]
    rw [if_neg (hl c (by simp)), ih fun c hc => hl c (by simp [hc])]

theorem rawSim_unmentioned {ls raws : List (List Byte)} (h : List.Forall₂ Buffers raws ls) {T : Str → Str → Prop}
    (hT : ∀ l, Mentions ls l → T l l) : List.Forall₂ (RawSim T) raws raws := by
  have hT' : ∀ l ∈ ls, ∀ x p n, Cuts l x → (p, Lexeme.name n) ∈ x → T n n := fun l hl x p n hx hp => hT n ⟨l, hl, x, p, hx, hp⟩
  clear hT
  induction h with
  | nil => exact .nil
  | @cons raw l raws ls hb _ ih =>
    refine .cons (RawSim.refl ?_) (ih fun l hl => hT' l (by simp [hl]))
    intro xs hx q hq n hn
    rw [lexemes_buffers hb] at hx
    exact hT' l (by simp) xs q.1 n (lexemes_cut_sound hx).1 (by rw [← hn]; exact hq)

theorem instrStep_env {buf : Str} {ls : List (Nat × Lexeme)} {m : Mnemonic} {a b : A} (h : instrStep buf ls m a = .ok b) :
    b.env = a.env := by
  rcases instrStep_cases h with ⟨bs, _, _, rfl⟩ | ⟨p, l, bs, _, _, _, _, _, rfl⟩ <;> rfl

/-- The symbols after a line. -/
theorem line_env {fn : Str} {raw : List Byte} {a a' : A} {s : Bool} (h : line fn raw a = .ok (s, a')) :
    ∃ ls, lexemes raw = .ok ls ∧ ((∃ p l v, declared a.pc ls = some (p, l, v) ∧ a.env.lookup l = none ∧ a'.env = (l, v) :: a.env) ∨
      (declared a.pc ls = none ∧ a'.env = a.env)) := by
  obtain ⟨ls, a1, h1, _, hd, hc⟩ := line_ok h
  refine ⟨ls, h1, ?_⟩
  have he : a'.env = a1.env := by
    rcases hc with ⟨_, _, rfl⟩ | ⟨_, _, _, rfl⟩ | ⟨_, _, m, _, hi⟩
    · rfl
    · rfl
    · exact instrStep_env hi
  rw [he]
  rcases (declare_ok hd).2.2.2.2 with ⟨p, l, v, g1, g2, g3, _⟩ | ⟨g1, g2, _⟩
  · exact .inl ⟨p, l, v, g1, g2, g3⟩
  · exact .inr ⟨g1, g2⟩

/-- Not met before, so not in the table. -/
theorem unmentioned_env {fn : Str} {L : Str} : ∀ {cs : List (List Byte)} {a : A} {r : Bool × A},
    List.Forall₂ (RawSim fun l l' => l = l' ∧ l ≠ L) cs cs → a.env.lookup L = none → runOn fn cs a = .ok r → r.2.env.lookup L = none := by
  intro cs
  induction cs with
  | nil => intro a r _ h hr; cases hr; exact h
  | cons c cs ih =>
    intro a r hs h hr
    cases hs with
    | cons hc hs =>
      unfold runOn at hr
      cases e : line fn c a with
      | error f => rw [e] at hr; cases hr
      | ok q =>
        rw [e] at hr
        obtain ⟨b, a1⟩ := q
        have h1 : a1.env.lookup L = none := by
          obtain ⟨ls, e1, hd⟩ := line_env e
          rcases hc with ⟨ls1, ls', e1', e2, hl⟩ | ⟨_, _, _, e1', _⟩ | ⟨e1', _⟩
          · rw [e1] at e1'
            cases e1'
            rcases hd with ⟨p, l, v, g1, g2, g3⟩ | ⟨_, g3⟩
            · rw [g3, List.lookup_cons]
              have h3 := declared_map a.pc ls
              rw [g1] at h3
              rcases declaredK_sim (lineSim_map hl) a.pc with ⟨k1, _⟩ | ⟨l1, l', v1, k1, _, hll⟩
              · rw [k1] at h3; cases h3
              · rw [k1] at h3
                simp only [Option.map_some, Option.some.injEq, Prod.mk.injEq] at h3
                rw [h3.1, beq_false_of_ne (Ne.symm hll.2)]
                exact h
            · rw [g3]; exact h
          · rw [e1] at e1'; cases e1'
          · rw [e1] at e1'; cases e1'
        cases b with
        | true => cases hr; exact h1
        | false => exact ih hs h1 hr

/-- No line starts with `.END`. -/
def Spec.NoEnd (ls : List (List Byte)) : Prop := ∀ l ∈ ls, ∀ x, Cuts l x → x.head?.map (·.2) ≠ some .stop

theorem noEnd_runOn {fn : Str} : ∀ {cs : List (List Byte)} {a : A} {r : Bool × A} {ls : List (List Byte)}, List.Forall₂ Buffers cs ls →
    NoEnd ls → runOn fn cs a = .ok r → r.1 = false := by
  intro cs
  induction cs with
  | nil => intro a r ls _ _ h; cases h; rfl
  | cons c cs ih =>
    intro a r ls hb hn h
    cases hb with
    | @cons _ l _ ls hb hbs =>
      unfold runOn at h
      cases e : line fn c a with
      | error f => rw [e] at h; cases h
      | ok q =>
        rw [e] at h
        obtain ⟨b, a1⟩ := q
        obtain ⟨xs, _, hx, _, _, hc⟩ := line_ok e
        rw [lexemes_buffers hb] at hx
        have := hn l (by simp) xs (lexemes_cut_sound hx).1
        have hstop : isStop xs = false := by
          cases xs with
          | nil => rfl
          | cons q xs =>
            obtain ⟨p, z⟩ := q
            cases z <;> simp_all [isStop]
        obtain rfl : b = false := by
          rcases hc with ⟨h1, _⟩ | ⟨_, h1, _⟩ | ⟨_, h1, _⟩
          · rw [hstop] at h1; cases h1
          · exact h1
          · exact h1
        exact ih hbs (fun l hl => hn l (by simp [hl])) h

/-- A line that only defines `L`. -/
theorem line_defines {fn : Str} {l : List Byte} {L : Str} {x : List (Nat × Lexeme)} (hx : Lexes l x)
    (hdef : parse (x.map (·.2)) = some (.label L) ∨ ∃ v, parse (x.map (·.2)) = some (.const L v)) {a : A} (ha : a.env.lookup L = none) :
    ∃ v, line fn (l ++ [10]) a = .ok (false, { a with env := (L, v) :: a.env, lineNum := a.lineNum + 1 }) := by
  have h8 : x.length ≤ 8 := by
    have := parse_length (ls := x.map (·.2)) (by rcases hdef with h | ⟨v, h⟩ <;> rw [h] <;> rfl)
    simp at this; omega
  have hlx : lexemes (l ++ [10]) = .ok x := by
    rw [lexemes_buffers (l := l) (.inr rfl), lexemes_complete hx, if_pos h8]
  have hsyn : syn (typeAt (x.map (·.2))) = .ok () := by
    rw [syn_ok_iff]
    left
    rcases hdef with h | ⟨v, h⟩ <;> rw [h] <;> rfl
  have hdec : ∃ p v, declared a.pc x = some (p, L, v) ∧ isStop x = false ∧ lastMnem (x.map (·.2)) = none := by
    rcases hdef with h | ⟨v, h⟩
    · unfold parse at h
      split at h <;> try cases h
      · rename_i y
        match x, y with
        | [(p, z)], y =>
          simp only [List.map_cons, List.map_nil, List.cons.injEq, and_true] at y
          subst y
          exact ⟨p, _, rfl, rfl, rfl⟩
      all_goals (rename_i h; simp [Option.map_eq_some_iff] at h)
    · unfold parse at h
      split at h <;> try cases h
      · rename_i y
        match x, y with
        | [(p, z), (p1, z1), (p2, z2)], y =>
          simp only [List.map_cons, List.map_nil, List.cons.injEq, and_true] at y
          obtain ⟨rfl, rfl, rfl⟩ := y
          exact ⟨p, _, rfl, rfl, rfl⟩
      · rename_i y
        match x, y with
        | [(p, z), (p1, z1), (p2, z2)], y =>
          simp only [List.map_cons, List.map_nil, List.cons.injEq, and_true] at y
          obtain ⟨rfl, rfl, rfl⟩ := y
          exact ⟨p, _, rfl, rfl, rfl⟩
      · rename_i y
        match x, y with
        | [(p, z), (p1, z1), (p2, z2)], y =>
          simp only [List.map_cons, List.map_nil, List.cons.injEq, and_true] at y
          obtain ⟨rfl, rfl, rfl⟩ := y
          exact ⟨p1, _, rfl, rfl, rfl⟩
      all_goals (rename_i h; simp [Option.map_eq_some_iff] at h)
  obtain ⟨p, v, d1, d2, d3⟩ := hdec
  refine ⟨v, ?_⟩
  unfold line
  rw [hlx]
  simp only [hsyn]
  unfold step declare
  rw [d1]
  simp only [ha, d2, d3, Bool.false_eq_true, if_false]

/-- **C48.** A line that only defines a label or constant `L` which is mentioned nowhere else may be added anywhere in a source (before
`.END`): same exit status, same output file; on success the report is the same but for one more symbol. -/
theorem C48_unused_symbol {w w' : World} {srcName outName : Str} {pre l rest : List Byte} {L : Str} (hpre : WholeLines pre)
    (hl : ∀ c ∈ l, c ≠ 10) {x : List (Nat × Lexeme)} (hx : Lexes l x)
    (hdef : parse (x.map (·.2)) = some (.label L) ∨ ∃ v, parse (x.map (·.2)) = some (.const L v))
    (hL : ¬ Mentions (lines (pre ++ rest)) L) (hend : NoEnd (lines pre))
    (hw : Setup w srcName outName (pre ++ rest)) (hw' : Setup w' srcName outName (pre ++ (l ++ 10 :: rest)))
    (hs : Sized (pre ++ (l ++ 10 :: rest))) (hlen : ∀ k ∈ lines (pre ++ (l ++ 10 :: rest)), k.length ≤ 126) :
    (∃ bin total symbols, Succeeds w srcName outName bin total symbols ∧ Succeeds w' srcName outName bin total (symbols + 1)) ∨
    ∃ text text' bin,
      gaia srcName outName w = .exited ⟨1, text, { w with files := fun n => if n = outName then some bin else w.files n }⟩ ∧
      gaia srcName outName w' = .exited ⟨1, text', { w' with files := fun n => if n = outName then some bin else w'.files n }⟩ := by
  rw [lines_append hpre, lines_line hl] at hlen
  rw [lines_append hpre] at hL
  have hll : l.length ≤ 126 := hlen l (by simp)
  have hp : List.Forall₂ Buffers (chunks pre) (lines pre) := chunks_lines pre fun k hk => hlen k (by simp [hk])
  have hr : List.Forall₂ Buffers (chunks rest) (lines rest) := chunks_lines rest fun k hk => hlen k (by simp [hk])
  have hT : OneOne fun l l' => l = l' ∧ l ≠ L := by
    rintro l l' m m' ⟨rfl, _⟩ ⟨rfl, _⟩; exact Iff.rfl
  have sp := rawSim_unmentioned hp (T := fun l l' => l = l' ∧ l ≠ L) fun k hk => ⟨rfl, fun h => hL (by
    obtain ⟨k', h1, h2⟩ := hk
    exact ⟨k', by simp [h1], h ▸ h2⟩)⟩
  have sr := rawSim_unmentioned hr (T := fun l l' => l = l' ∧ l ≠ L) fun k hk => ⟨rfl, fun h => hL (by
    obtain ⟨k', h1, h2⟩ := hk
    exact ⟨k', by simp [h1], h ▸ h2⟩)⟩
  refine result_simT (T := fun l l' => l = l' ∧ l ≠ L) hw hw' (sized_sublist (by first | (exact List.Sublist.append_left (.trans (.cons _ (.refl _)) (List.sublist_append_right _ _)) _)) hs) hs ?_
  rw [chunks_whole hpre, chunks_whole hpre, chunks_cut hl hll, runLines_append, runLines_append]
  cases e : runOn srcName (chunks pre) A.init with
  | error f => exact .inr ⟨f, f, rfl, rfl, rfl⟩
  | ok r =>
    obtain ⟨b, a⟩ := r
    obtain rfl : b = false := noEnd_runOn hp hend e
    have ha : a.env.lookup L = none := unmentioned_env sp rfl e
    have hsim : SimA (fun l l' => l = l' ∧ l ≠ L) 0 a a := by
      rcases runOn_sim hT (fn := srcName) (fn' := srcName) sp (.init _) with ⟨s, b, b', e1, e2, hb⟩ | ⟨f, g, e1, e2, hf⟩
      · rw [e] at e1 e2
        cases e1; cases e2; exact hb
      · rw [e] at e1; cases e1
    simp only
    have hline := line_defines (fn := srcName) hx hdef ha
    obtain ⟨v, hline⟩ := hline
    have hu : runLines srcName ((l ++ [10]) :: chunks rest) a = runLines srcName (chunks rest)
        { a with env := (L, v) :: a.env, lineNum := a.lineNum + 1 } := by
      conv_lhs => unfold runLines
      rw [hline]
    rw [hu]
    refine runLines_simT hT sr ⟨rfl, rfl, rfl, ?_, rfl, hsim.refs⟩
    rintro m m' ⟨rfl, hm⟩
    simp only [List.lookup_cons]
    rw [beq_false_of_ne hm]

/-- **C48, blank lines**: a line without lexemes (empty, or blanks and a comment) may be added anywhere: same exit status, same output
file, on success the same report. -/
theorem C48_blank_line {w w' : World} {srcName outName : Str} {pre l rest : List Byte} (hpre : WholeLines pre)
    (hl : ∀ c ∈ l, c ≠ 10) (hll : l.length ≤ 126) (hx : Lexes l []) (hw : Setup w srcName outName (pre ++ rest))
    (hw' : Setup w' srcName outName (pre ++ (l ++ 10 :: rest))) (hs : Sized (pre ++ (l ++ 10 :: rest))) :
    SameResult srcName outName w w' := by
  refine sameResult_of_outcome hw hw' (sized_sublist (by first | (exact List.Sublist.append_left (.trans (.cons _ (.refl _)) (List.sublist_append_right _ _)) _)) hs) hs ?_
  rw [chunks_whole hpre, chunks_whole hpre, chunks_cut hl hll, runLines_append, runLines_append]
  cases runOn srcName (chunks pre) A.init with
  | error f => rfl
  | ok r =>
    obtain ⟨b, a⟩ := r
    cases b with
    | true => rfl
    | false =>
      simp only
      have hline : line srcName (l ++ [10]) a = .ok (false, { a with lineNum := a.lineNum + 1 }) := by
        unfold line
        rw [lexemes_buffers (l := l) (.inr rfl), lexemes_complete hx]
        rfl
      have hu : runLines srcName ((l ++ [10]) :: chunks rest) a = runLines srcName (chunks rest) { a with lineNum := a.lineNum + 1 } := by
        conv_lhs => unfold runLines
        rw [hline]
      rw [hu]
      exact outcome_of_skelR (runLines_congr (List.forall₂_same.2 fun _ _ => rfl) rfl)

/-! Concrete cases. -/

theorem cut_eval {l : List Byte} {xs x : List (Nat × Lexeme)} (h : lexemes l = .ok xs) (hx : Cuts l x) : x = xs := by
  rw [lexemes_cut_complete hx] at h
  split_ifs at h
  exact Except.ok.inj h

theorem not_mentions_eval {ls : List (List Byte)} {n : Str}
    (h : (ls.all fun l => match lexemes l with | .ok xs => xs.all fun q => q.2 != .name n | .error _ => false) = true) :
    ¬ Mentions ls n := by
  rintro ⟨l, hl, x, p, hx, hp⟩
  have := List.all_eq_true.1 h l hl
  cases e : lexemes l with
  | error f => rw [e] at this; cases this
  | ok xs =>
    rw [e] at this
    rw [cut_eval e hx] at hp
    have := List.all_eq_true.1 this _ hp
    simp at this

theorem noEnd_eval {ls : List (List Byte)}
    (h : (ls.all fun l => match lexemes l with | .ok xs => xs.head?.map (·.2) != some .stop | .error _ => false) = true) :
    NoEnd ls := by
  intro l hl x hx
  have := List.all_eq_true.1 h l hl
  cases e : lexemes l with
  | error f => rw [e] at this; cases this
  | ok xs =>
    rw [e] at this
    rw [cut_eval e hx]
    simpa using this

theorem renamed_eval {ρ : Str → Str} {l l' : List Byte} {xs xs' : List (Nat × Lexeme)} (h : lexemes l = .ok xs) (h' : lexemes l' = .ok xs')
    (he : xs'.map (·.2) = xs.map (·.2.rename ρ)) : RenamedLine ρ l l' :=
  .inl ⟨xs, xs', (lexemes_cut_sound h).1, (lexemes_cut_sound h').1, he⟩

/-- `LOOP`, `V` become `ZLOOP`, `ZV`; one line is an error. -/
example : SameResult (b! "p.asm") (b! "p.bin") (demo (b! "V =$10\nLOOP LDA V\nBNE LOOP\n&\n")) (demo (b! "zV =$10\nzloop lda zV\nbne Zloop\n&\n")) :=
  C47_renaming (fun n => 90 :: n) (demo_setup _) (demo_setup _) (by decide) (by decide) (by decide +kernel) (by decide +kernel)
    (fun m n _ _ h => (List.cons.inj h).2)
    (.cons (renamed_eval (xs := [(0, .name (b! "V")), (2, .eq), (3, .lit 16)]) (xs' := [(0, .name (b! "ZV")), (3, .eq), (4, .lit 16)])
        (by decide +kernel) (by decide +kernel) rfl)
      (.cons (renamed_eval (xs := [(0, .name (b! "LOOP")), (5, .mnem .LDA), (9, .name (b! "V"))])
          (xs' := [(0, .name (b! "ZLOOP")), (6, .mnem .LDA), (10, .name (b! "ZV"))]) (by decide +kernel) (by decide +kernel) rfl)
        (.cons (renamed_eval (xs := [(0, .mnem .BNE), (4, .name (b! "LOOP"))])
            (xs' := [(0, .mnem .BNE), (4, .name (b! "ZLOOP"))]) (by decide +kernel) (by decide +kernel) rfl)
          (.cons (.inr ⟨rfl, fun ⟨x, hx⟩ => by
            have h := lexemes_cut_complete hx
            have h' : lexemes (b! "&") = .error (.at .illegalChar 0) := by decide +kernel
            rw [h'] at h
            split_ifs at h
            cases h⟩) .nil))))

/-- An unused constant before a forward reference. -/
example : (∃ bin total symbols, Succeeds (demo (b! "NOP\nJMP L\nL RTS\n")) (b! "p.asm") (b! "p.bin") bin total symbols ∧
      Succeeds (demo (b! "NOP\nUNUSED =$1234\nJMP L\nL RTS\n")) (b! "p.asm") (b! "p.bin") bin total (symbols + 1)) ∨
    ∃ text text' bin,
      gaia (b! "p.asm") (b! "p.bin") (demo (b! "NOP\nJMP L\nL RTS\n")) = .exited ⟨1, text,
        { demo (b! "NOP\nJMP L\nL RTS\n") with files := fun n => if n = b! "p.bin" then some bin else (demo (b! "NOP\nJMP L\nL RTS\n")).files n }⟩ ∧
      gaia (b! "p.asm") (b! "p.bin") (demo (b! "NOP\nUNUSED =$1234\nJMP L\nL RTS\n")) = .exited ⟨1, text',
        { demo (b! "NOP\nUNUSED =$1234\nJMP L\nL RTS\n") with
          files := fun n => if n = b! "p.bin" then some bin else (demo (b! "NOP\nUNUSED =$1234\nJMP L\nL RTS\n")).files n }⟩ :=
  C48_unused_symbol (pre := b! "NOP\n") (l := b! "UNUSED =$1234") (rest := b! "JMP L\nL RTS\n") (L := b! "UNUSED") (.inr ⟨b! "NOP", rfl⟩)
    (by decide +kernel) (x := [(0, .name (b! "UNUSED")), (7, .eq), (8, .lit 0x1234)])
    (lexes_eval (by decide +kernel) (by decide +kernel)) (.inr ⟨0x1234, rfl⟩) (not_mentions_eval (by decide +kernel))
    (noEnd_eval (by decide +kernel)) (demo_setup _) (demo_setup _) (by decide) (by decide +kernel)

example : SameResult (b! "p.asm") (b! "p.bin") (demo (b! "NOP\nRTS\n")) (demo (b! "NOP\n  ; nothing\nRTS\n")) :=
  C48_blank_line (pre := b! "NOP\n") (l := b! "  ; nothing") (rest := b! "RTS\n") (.inr ⟨b! "NOP", rfl⟩) (by decide +kernel) (by decide)
    (lexes_eval (by decide +kernel) (by decide +kernel)) (demo_setup _) (demo_setup _) (by decide)

end Gaia

import Verif.Spec.Parts
import Verif.Proofs.Modules
import Verif.Props.C29_AnyText
import Verif.Props.C58_Relocate
import Verif.Props.C59_Append

/-! Sections of code: the reference assembler, section by section. -/
namespace Gaia
open Spec Spec.Reference

namespace Parts

/-- As `StartsPlainly`, if the names `known` are already defined. -/
def PlainFrom (known : List Str) (sts : List Stmt) : Prop :=
  ∀ st ∈ (sts.dropWhile fun st => !st.isInstr).head?, ∀ l ∈ st.reference, l ∈ known ∨ l ∈ ((sts.takeWhile fun st => !st.isInstr) ++ [st]).filterMap defined

/-- The state, with the file at another place. -/
def at' (s : State) (f : Nat) : State := { s with filePos := f }

theorem lookup_of_mem {env : Env} {l : Str} (h : l ∈ env.map (·.1)) : (env.lookup l).isSome = true := by
  rw [Option.isSome_iff_ne_none]
  intro hn
  rw [List.lookup_eq_none_iff] at hn
  obtain ⟨q, hq, rfl⟩ := List.mem_map.1 h
  have := hn q hq
  simp at this

theorem mem_of_lookup {env : Env} {l : Str} (h : (env.lookup l).isSome = true) : l ∈ env.map (·.1) := by
  by_contra hn
  have : env.lookup l = none := by
    rw [List.lookup_eq_none_iff]
    intro q hq
    by_contra hc
    exact hn (List.mem_map.2 ⟨q, hq, by simpa using (Eq.symm (by simpa using hc))⟩)
  rw [this] at h; cases h

theorem define_at {ls : List (Nat × Lexeme)} {l : Str} {v : Nat} {s s' : State} (f : Nat) (h : defineLabel ls l v s = .ok s') :
    defineLabel ls l v (at' s f) = .ok (at' s' f) := by
  unfold defineLabel at h ⊢
  split at h
  · cases h
  · rename_i hn
    cases h
    show (if (s.env.lookup l).isSome = true then _ else _) = _
    rw [if_neg hn]; rfl

theorem execute_at {text : Str} {ls : List (Nat × Lexeme)} {odd : Bool} {st : Stmt} {s s' : State} (f : Nat) (hi : st.isInstr = false)
    (h : execute text ls odd s st = .ok s') : execute text ls odd (at' s f) st = .ok (at' s' f) := by
  cases st with
  | empty => cases h; rfl
  | stop => cases h; rfl
  | label l => exact define_at f h
  | const l v => exact define_at f h
  | org v => cases h; rfl
  | instr lab m a => cases hi

theorem instruction_at {text : Str} {ls : List (Nat × Lexeme)} {m : Mnemonic} {a : Arg} {odd : Bool} {s s' : State} (f : Nat)
    (hu : unknown s.env a.opd = none) (h : instruction text ls m a odd s = .ok s') : instruction text ls m a odd (at' s f) = .ok s' := by
  rw [← h]
  unfold instruction at'
  simp only [hu]
  rfl

theorem execute_known {text : Str} {ls : List (Nat × Lexeme)} {odd : Bool} {st : Stmt} {s s' : State} (f : Nat) (hi : st.isInstr = true)
    (hk : ∀ l ∈ st.reference, l ∈ s.env.map (·.1) ∨ defined st = some l)
    (h : execute text ls odd s st = .ok s') : execute text ls odd (at' s f) st = .ok s' := by
  cases st with
  | instr lab m a =>
    have key : ∀ env : Env, (∀ l ∈ (Stmt.instr lab m a).reference, l ∈ env.map (·.1)) → unknown env a.opd = none := by
      intro env he
      cases ho : a.opd with
      | none => rfl
      | some o =>
        cases o with
        | lit v => rfl
        | sym l =>
          have := lookup_of_mem (he l (by simp [Stmt.reference, ho]))
          simp [unknown, this]
    cases lab with
    | none =>
      refine instruction_at f (key _ fun l hl => ?_) h
      rcases hk l hl with h | h
      · exact h
      · cases h
    | some l0 =>
      have h : (match defineLabel ls l0 s.pc s with
        | Except.error f => Except.error f
        | Except.ok s => instruction text ls m a odd s) = Except.ok s' := h
      show (match defineLabel ls l0 (at' s f).pc (at' s f) with
        | Except.error f => Except.error f
        | Except.ok s => instruction text ls m a odd s) = Except.ok s'
      split at h
      · cases h
      · rename_i s1 h1
        rw [show (at' s f).pc = s.pc from rfl, define_at f h1]
        refine instruction_at f (key _ fun l hl => ?_) h
        unfold defineLabel at h1
        split at h1
        · cases h1
        · cases h1
          rcases hk l hl with h | h
          · exact List.mem_cons_of_mem _ h
          · have h : some l0 = some l := h
            cases h
            exact List.mem_cons_self
  | empty => cases hi
  | stop => cases hi
  | label l => cases hi
  | const l v => cases hi
  | org v => cases hi

theorem define_keys {ls : List (Nat × Lexeme)} {l : Str} {v : Nat} {s s' : State} (h : defineLabel ls l v s = .ok s') : s'.env.map (·.1) = l :: s.env.map (·.1) := by
  unfold defineLabel at h
  split at h <;> cases h
  rfl

theorem execute_keys {text : Str} {ls : List (Nat × Lexeme)} {odd : Bool} {st : Stmt} {s s' : State} (hi : st.isInstr = false)
    (h : execute text ls odd s st = .ok s') : ∀ l, l ∈ s.env.map (·.1) ∨ defined st = some l → l ∈ s'.env.map (·.1) := by
  intro k hk
  cases st with
  | empty => cases h; rcases hk with hk | hk; exact hk; cases hk
  | stop => cases h; rcases hk with hk | hk; exact hk; cases hk
  | label l =>
    rw [define_keys h]
    rcases hk with hk | hk
    · exact List.mem_cons_of_mem _ hk
    · have hk : some l = some k := hk
      cases hk; exact List.mem_cons_self
  | const l v =>
    rw [define_keys h]
    rcases hk with hk | hk
    · exact List.mem_cons_of_mem _ hk
    · have hk : some l = some k := hk
      cases hk; exact List.mem_cons_self
  | org v => cases h; rcases hk with hk | hk; exact hk; cases hk
  | instr lab m a => cases hi

/-- Where the file stands at the beginning does not matter if the first instruction is no forward reference. -/
theorem plain_run {fn : Str} (f : Nat) : ∀ {ps : List (List Byte)} {s s' : State}, runPieces fn ps s = .ok s' →
    PlainFrom (s.env.map (·.1)) (ps.filterMap stmtOf) → ∃ g, runPieces fn ps (at' s f) = .ok (at' s' g)
  | [], s, s', h, _ => by cases h; exact ⟨f, rfl⟩
  | p :: ps, s, s', h, hp => by
    unfold runPieces at h
    simp only at h
    split at h
    · cases h
    · cases h
    · rename_i ls h1
      split at h
      · cases h
      · rename_i st odd h2
        have hst : stmtOf p = some st := by unfold stmtOf; simp only [h1, h2]
        rw [List.filterMap_cons, hst] at hp
        have hp : PlainFrom (s.env.map (·.1)) (st :: ps.filterMap stmtOf) := hp
        split at h
        · cases h
        · rename_i s1 h3
          cases hi : st.isInstr with
          | true =>
            have hk : ∀ l ∈ st.reference, l ∈ s.env.map (·.1) ∨ defined st = some l := by
              intro l hl
              have := hp st (by simp [hi]) l hl
              rcases this with h | h
              · exact .inl h
              · right
                simpa [hi] using h
            refine ⟨s'.filePos, ?_⟩
            show runPieces fn (p :: ps) (at' s f) = .ok s'
            rw [← h]
            conv_lhs => unfold runPieces
            simp only [h1, h2, execute_known f hi hk h3]
          | false =>
            have he := execute_at f hi h3
            split at h
            · rename_i hs
              cases h
              refine ⟨f, ?_⟩
              conv_lhs => unfold runPieces
              simp only [h1, h2, he]
              rw [if_pos hs]
            · rename_i hs
              obtain ⟨g, hg⟩ := plain_run f h (by
                intro q hq l hl
                have := hp q (by simpa [hi] using hq) l hl
                simp only [hi, Bool.not_false, List.takeWhile_cons, if_true, List.cons_append, List.filterMap_cons] at this
                have hkeys := execute_keys hi h3
                show l ∈ s1.env.map (·.1) ∨ _
                rcases this with h | h
                · exact .inl (hkeys l (.inl h))
                · cases hd : defined st with
                  | none => rw [hd] at h; exact .inr h
                  | some k =>
                    rw [hd] at h
                    rcases List.mem_cons.1 h with rfl | h
                    · exact .inl (hkeys l (.inr hd))
                    · exact .inr h)
              refine ⟨g, ?_⟩
              conv_lhs => unfold runPieces
              simp only [h1, h2, he]
              rw [if_neg hs]
              exact hg

theorem instruction_refs {text : Str} {ls : List (Nat × Lexeme)} {m : Mnemonic} {a : Arg} {odd : Bool} {s s' : State} (lab : Option Str)
    (h : instruction text ls m a odd s = .ok s') : ∀ l ∈ (Stmt.instr lab m a).reference, (s'.env.lookup l).isSome = true ∨ ∃ r ∈ s'.pending, r.label = l := by
  intro l hl
  have ho : a.opd = some (.sym l) := by
    unfold Stmt.reference at hl
    simp only at hl
    split at hl
    · cases hl; assumption
    · cases hl
  unfold instruction at h
  simp only at h
  split at h
  · cases h
  · split at h
    · rename_i hu
      have hk : (s.env.lookup l).isSome = true := by
        rw [ho] at hu
        unfold unknown at hu
        simp only at hu
        by_contra hc
        rw [if_neg hc] at hu
        cases hu
      repeat' split at h
      all_goals first | cases h; exact .inl hk | cases h
    · rename_i k hu
      have hkl : k = l := by
        rw [ho] at hu
        unfold unknown at hu
        simp only at hu
        split at hu <;> cases hu
        rfl
      subst hkl
      split at h
      · cases h
      · cases h
        exact .inr ⟨_, List.mem_append_right _ (List.mem_singleton.2 rfl), rfl⟩

theorem execute_refs {text : Str} {ls : List (Nat × Lexeme)} {odd : Bool} {st : Stmt} {s s' : State}
    (h : execute text ls odd s st = .ok s') : ∀ l ∈ st.reference, (s'.env.lookup l).isSome = true ∨ ∃ r ∈ s'.pending, r.label = l := by
  cases st with
  | instr lab m a =>
    cases lab with
    | none => exact instruction_refs none h
    | some l0 =>
      unfold execute at h
      simp only at h
      split at h
      · cases h
      · exact instruction_refs (some l0) h
  | empty => intro l hl; cases hl
  | stop => intro l hl; cases hl
  | label l => intro l hl; cases hl
  | const l v => intro l hl; cases hl
  | org v => intro l hl; cases hl

/-- Every name that is referred to is known in the end, or waits for its definition. -/
theorem run_refs {fn : Str} : ∀ {ps : List (List Byte)} {s s' : State}, runPieces fn ps s = .ok s' → (∀ st ∈ ps.filterMap stmtOf, st ≠ .stop) →
    ∀ st ∈ ps.filterMap stmtOf, ∀ l ∈ st.reference, (s'.env.lookup l).isSome = true ∨ ∃ r ∈ s'.pending, r.label = l
  | [], s, s', _, _ => by intro st h; cases h
  | p :: ps, s, s', h, hn => by
    unfold runPieces at h
    simp only at h
    split at h
    · cases h
    · cases h
    · rename_i ls h1
      split at h
      · cases h
      · rename_i st odd h2
        have hst : stmtOf p = some st := by unfold stmtOf; simp only [h1, h2]
        rw [List.filterMap_cons, hst] at hn ⊢
        split at h
        · cases h
        · rename_i s1 h3
          rw [if_neg (hn st List.mem_cons_self)] at h
          have hk := App.Steps.keeps (App.runPieces_steps (allow := true) h (.inl rfl))
          intro q hq l hl
          rcases List.mem_cons.1 hq with rfl | hq
          · rcases execute_refs h3 l hl with h4 | ⟨r, hr, h4⟩
            · left
              obtain ⟨v, hv⟩ := Option.isSome_iff_exists.1 h4
              rw [hk.env l v hv]; rfl
            · right
              obtain ⟨P, hP⟩ := hk.pending
              exact ⟨r, by rw [hP]; exact List.mem_append_left _ hr, h4⟩
          · exact run_refs h (fun q hq => hn q (List.mem_cons_of_mem _ hq)) q hq l hl

theorem resolve_all {fn : Str} {env : Env} : ∀ {rs : List Pending} {W V : List Chunk}, resolve fn env rs W = .ok V → ∀ r ∈ rs, (env.lookup r.label).isSome = true
  | [], _, _, _ => by intro r h; cases h
  | r :: rs, W, V, h => by
    unfold resolve at h
    simp only at h
    split at h
    · cases h
    · rename_i v hv
      intro q hq
      rcases List.mem_cons.1 hq with rfl | hq
      · rw [hv]; rfl
      · split at h
        · split at h
          · cases h
          · exact resolve_all h q hq
        · exact resolve_all h q hq

theorem byteAt_skip {A U B : List Chunk} {i : Nat} (h : ∀ c ∈ U, i < c.1 ∨ c.1 + c.2.length ≤ i) : byteAt (A ++ U ++ B) i = byteAt (A ++ B) i := by
  unfold byteAt
  congr 1
  rw [List.reverse_append, List.reverse_append, List.reverse_append, List.findSome?_append, List.findSome?_append, List.findSome?_append, Mods.find_none h]
  rfl

/-- The names a text defines are those of the symbols in the end. -/
theorem keys_of {fn : Str} {body : List Byte} {s s' : State} (h : runPieces fn (pieces body) s = .ok s') (he : WithoutEnd body) (l : Str) :
    l ∈ s'.env.map (·.1) ↔ l ∈ definedIn body ∨ l ∈ s.env.map (·.1) := by
  have hk := (App.runPieces_env h).1
  have hu : ∀ sts : List Stmt, (∀ st ∈ sts, st ≠ .stop) → upToEnd sts = sts := by
    intro sts
    induction sts with
    | nil => intro _; rfl
    | cons x sts ih =>
      intro h
      unfold upToEnd
      rw [if_neg (h x List.mem_cons_self), ih fun st hst => h st (List.mem_cons_of_mem _ hst)]
  rw [show (pieces body).filterMap stmtOf = stmtsOf body from rfl, hu _ he] at hk
  unfold App.names at hk
  rw [hk, List.mem_append, List.mem_reverse]
  rfl

theorem line_step {fn : Str} {line : List Byte} {x : Nat} (h : SetsOrigin line x) (ps : List (List Byte)) (s : State) :
    runPieces fn (line :: ps) s = runPieces fn ps { s with pc := x, line := s.line + 1 } := by
  obtain ⟨_, _, h3⟩ := h
  unfold stmtOf at h3
  cases h4 : lexemesOf line with
  | error _ => simp only [h4] at h3; cases h3
  | ok ls =>
    simp only [h4] at h3
    cases h5 : statement (ls.map (·.2)) with
    | error _ => simp only [h5] at h3; cases h3
    | ok q =>
      obtain ⟨st, odd⟩ := q
      simp only [h5] at h3
      cases h3
      conv_lhs => unfold runPieces
      simp only [h4, h5, execute]
      rw [if_neg (by simp)]

/-- The state after some sections. -/
structure Inv (fn : Str) (P : List Part) (s : State) : Prop where
  keys : ∀ l ∈ s.env.map (·.1), ∃ p ∈ P, l ∈ definedIn p.body
  count : s.env.length = (P.map (·.symbols)).sum
  total : s.total = (P.map (·.code.length)).sum
  line : 1 ≤ s.line
  writes : ∃ D, (∀ env', (∀ l v, s.env.lookup l = some v → env'.lookup l = some v) → ∀ rs W, resolve fn env' (s.pending ++ rs) W = resolve fn env' rs (W ++ D)) ∧
    (∀ c ∈ s.writes ++ D, c.2 ≠ [] ∧ ∃ p ∈ P, p.origin ≤ c.1 ∧ c.1 + c.2.length ≤ p.origin + p.code.length) ∧
    (∀ p ∈ P, ∀ i < p.code.length, some (byteAt (s.writes ++ D) (p.origin + i)) = p.code[i]?) ∧
    (∀ p ∈ P, p.code ≠ [] → ∃ c ∈ s.writes, c.1 + c.2.length = p.origin + p.code.length)

theorem Inv.init (fn : Str) : Inv fn [] State.init :=
  ⟨fun _ h => (nomatch h), rfl, rfl, le_rfl, [], fun _ _ rs W => by simp [State.init], fun _ h => (nomatch h), fun _ h => (nomatch h), fun _ h => (nomatch h)⟩

/-- A section alone. -/
theorem alone_run {fn out : Str} {p : Part} (hp : p.Alone fn out) (hs : Sized p.text) : ∃ t D g,
    runPieces fn (pieces p.body) ⟨p.origin, 2, [], 0, p.origin, [], []⟩ = .ok (at' t g) ∧ resolve fn t.env t.pending t.writes = .ok (t.writes ++ D) ∧
    placedAt p.origin p.code = image (t.writes ++ D) ∧ p.code.length = t.total ∧ p.symbols = t.env.length := by
  obtain ⟨w, hw, h⟩ := hp.alone
  obtain ⟨t, V, h1, h2, h3, h4, h5⟩ := (C57_success hw hs _ _ _).1 h
  obtain ⟨D, rfl, _, _⟩ := App.resolve_more (env' := t.env) (fun _ _ h => h) h2
  have e := Reloc.origin_step (fn := fn) (body := p.body) hp.sets
  rw [show pieces (p.line ++ p.body) = pieces p.text from rfl, h1] at e
  obtain ⟨g, hg⟩ := plain_run p.origin e.symm (by
    intro st hst l hl
    exact .inr (hp.plain st hst l hl))
  refine ⟨t, D, g, ?_, h2, h3, h4, h5⟩
  rw [← hg]
  rfl

theorem Inv.step {fn out : Str} {P : List Part} {s : State} (hi : Inv fn P s) {p : Part} (hp : p.Alone fn out) (hs : Sized p.text)
    (ha : ∀ q ∈ P, q.Apart p) (rest : List (List Byte)) :
    ∃ s', runPieces fn (pieces p.text ++ rest) s = runPieces fn rest s' ∧ Inv fn (P ++ [p]) s' := by
  obtain ⟨t, D', g, ht, hr, him, hlen, hsym⟩ := alone_run hp hs
  obtain ⟨l1, l2, l3⟩ := hp.sets
  have epieces : pieces p.text = p.line :: pieces p.body := Reloc.cut_line p.body p.line 127 l1 l2
  set s1 : State := { s with pc := p.origin, line := s.line + 1 } with hs1
  have hnames : ∀ l, l ∈ definedIn p.body → s.env.lookup l = none := by
    intro l hl
    by_contra hc
    obtain ⟨q, hq, hm⟩ := hi.keys l (mem_of_lookup (Option.isSome_iff_ne_none.2 hc))
    exact (ha q hq).1 l hm hl
  have hkeyst : ∀ l, l ∈ t.env.map (·.1) ↔ l ∈ definedIn p.body := by
    intro l
    have : l ∈ t.env.map (·.1) ↔ l ∈ definedIn p.body ∨ l ∈ ([] : Env).map (·.1) := keys_of ht hp.noEnd l
    rw [this]
    simp
  have hrefs : ∀ st ∈ stmtsOf p.body, ∀ l ∈ st.reference, l ∈ definedIn p.body := by
    intro st hst l hl
    rw [← hkeyst]
    apply mem_of_lookup
    rcases run_refs ht hp.noEnd st hst l hl with h | ⟨r, hr1, rfl⟩
    · exact h
    · exact resolve_all hr r hr1
  have hrel : Mods.Rel p.origin (s.line - 1) s1 (at' s1 p.origin) ⟨p.origin, 2, [], 0, p.origin, [], []⟩ := by
    refine ⟨rfl, ?_, rfl, rfl, by simp [at'], by simp, [], by simp [at'], by simp, .inr ⟨rfl, .inl rfl⟩⟩
    show s.line + 1 = 2 + (s.line - 1)
    have := hi.line
    omega
  have hfree : ∀ st ∈ (pieces p.body).filterMap stmtOf, st.isOrg = false ∧ (∀ l ∈ defined st, s1.env.lookup l = none) ∧ ∀ l ∈ st.reference, s1.env.lookup l = none := by
    intro st hm
    exact ⟨hp.free st hm, fun l hl => hnames l (List.mem_filterMap.2 ⟨st, hm, hl⟩), fun l hl => hnames l (hrefs st hm l hl)⟩
  rcases Mods.runPieces_both (fn := fn) hrel hfree with ⟨_, _, _, _, _, h, _⟩ | ⟨s2, t2, h1, h2, hR⟩
  · rw [ht] at h; cases h
  rw [ht] at h2
  cases h2
  obtain ⟨g', hg'⟩ := plain_run s.filePos h1 (by
    intro st hst l hl
    exact .inr (hp.plain st hst l hl))
  have hg' : runPieces fn (pieces p.body) s1 = .ok (at' s2 g') := hg'
  obtain ⟨hthrough, hline⟩ := Mods.runPieces_through rest hg' hp.noEnd
  obtain ⟨_, hle, htot, ⟨W, hW, hWb, hlast⟩, ⟨Q, hQ, hQb⟩⟩ := App.Steps.after (App.runPieces_steps (allow := false) ht (.inr hp.free)) rfl
  have hW : t.writes = W := by simpa [at'] using hW
  subst hW
  have hQ : t.pending = Q := by simpa [at'] using hQ
  subst hQ
  have htot : t.total + p.origin = t.pc := by
    have : t.total + p.origin = 0 + t.pc := htot
    omega
  have hWb : ∀ c ∈ t.writes, p.origin ≤ c.1 ∧ c.1 + c.2.length ≤ t.pc := hWb
  have hQb : ∀ r ∈ t.pending, p.origin ≤ r.addr ∧ r.addr + App.Pending.len r ≤ t.pc := hQb
  obtain ⟨X, hX, hXne, hX2⟩ := hR.writes
  have hX : s2.writes = s.writes ++ X := hX
  have hXt : X = t.writes := by
    rcases hX2 with ⟨h, h', _⟩ | ⟨_, h | ⟨n, bs, R, h, h', h''⟩⟩
    · rw [h]; exact h'.symm
    · exact h
    · have h'' : t.writes = _ := h''
      have := hWb (0, List.replicate n 0) (by rw [h'']; exact List.mem_cons_self)
      have h0 : p.origin = 0 := by have := this.1; simpa using this
      rw [h', h'', h0]
  subst hXt
  have henv : s2.env = t.env ++ s.env := hR.env
  have hpend : s2.pending = s.pending ++ t.pending.map (Mods.bump (s.line - 1)) := hR.pending
  have hkeep := App.Steps.keeps (App.runPieces_steps (allow := true) hg' (.inl rfl))
  have hkeep : ∀ l v, s.env.lookup l = some v → s2.env.lookup l = some v := hkeep.env
  obtain ⟨D, d1, d2, d3, d4⟩ := hi.writes
  obtain ⟨Dx, hDx, hDm, _⟩ := App.resolve_more (env' := t.env) (fun _ _ h => h) hr
  have : Dx = D' := (List.append_cancel_left hDx).symm
  subst this
  have hDb : ∀ c ∈ Dx, p.origin ≤ c.1 ∧ c.1 + c.2.length ≤ t.pc := by
    intro c hc
    obtain ⟨r, hr1, hr2, hr3⟩ := hDm c hc
    have := hQb r hr1
    omega
  have hown : ∀ c ∈ t.writes ++ Dx, p.origin ≤ c.1 ∧ c.1 + c.2.length ≤ p.origin + p.code.length := by
    intro c hc
    rcases List.mem_append.1 hc with hc | hc
    · have := hWb c hc; omega
    · have := hDb c hc; omega
  have hres : resolve fn s2.env (t.pending.map (Mods.bump (s.line - 1))) t.writes = .ok (t.writes ++ Dx) := by
    rw [henv]
    rcases Mods.resolve_both (fn := fn) (n := s.line - 1) (env := t.env) (env0 := s.env) (rs := t.pending) hR.free t.writes t.writes with ⟨_, _, _, _, _, h, _⟩ | ⟨E, e1, e2⟩
    · rw [hr] at h; cases h
    · rw [hr] at e2
      cases List.append_cancel_left (Except.ok.inj e2)
      exact e1
  have hbytes : ∀ i < p.code.length, some (byteAt (t.writes ++ Dx) (p.origin + i)) = p.code[i]? := by
    intro i h
    have hne : p.code ≠ [] := by rintro h'; rw [h'] at h; simp at h
    unfold placedAt at him
    rw [if_neg hne] at him
    have hl := congrArg List.length him
    rw [image_length, List.length_append, List.length_replicate] at hl
    rw [← image_get (by omega), ← him, List.getElem?_append_right (by simp)]
    simp
  have hdis : ∀ q ∈ P, ∀ i, q.origin ≤ i → i < q.origin + q.code.length → ∀ c ∈ t.writes ++ Dx, i < c.1 ∨ c.1 + c.2.length ≤ i := by
    intro q hq i hi1 hi2 c hc
    by_contra hcon
    have := hown c hc
    exact (ha q hq).2 i ⟨⟨hi1, hi2⟩, by omega, by omega⟩
  have hdis' : ∀ i, p.origin ≤ i → i < p.origin + p.code.length → ∀ c ∈ s.writes ++ D, i < c.1 ∨ c.1 + c.2.length ≤ i := by
    intro i hi1 hi2 c hc
    by_contra hcon
    obtain ⟨_, q, hq, hq2⟩ := d2 c hc
    exact (ha q hq).2 i ⟨⟨by omega, by omega⟩, hi1, hi2⟩
  refine ⟨at' s2 g', ?_, ?_⟩
  · rw [epieces, List.cons_append, line_step hp.sets, hthrough]
  · refine ⟨?_, ?_, ?_, ?_, D ++ Dx, ?_, ?_, ?_, ?_⟩
    · intro l hl
      have hl : l ∈ s2.env.map (·.1) := hl
      rw [henv, List.map_append] at hl
      rcases List.mem_append.1 hl with hl | hl
      · exact ⟨p, by simp, (hkeyst l).1 hl⟩
      · obtain ⟨q, hq, h⟩ := hi.keys l hl
        exact ⟨q, by simp [hq], h⟩
    · show s2.env.length = _
      rw [henv, List.length_append, hi.count, ← hsym]
      simp; omega
    · show s2.total = _
      have : s2.total = s.total + t.total := hR.total
      rw [this, hi.total, ← hlen]
      simp
    · show 1 ≤ (at' s2 g').line
      rw [hline]
      show 1 ≤ s.line + 1 + _
      omega
    · intro env' he rs V
      have he : ∀ l v, s2.env.lookup l = some v → env'.lookup l = some v := he
      show resolve fn env' (s2.pending ++ rs) V = _
      rw [hpend, List.append_assoc, d1 env' (fun l v h => he l v (hkeep l v h))]
      obtain ⟨E, e1, _, e2⟩ := App.resolve_more he hres
      cases List.append_cancel_left e1
      rw [e2, List.append_assoc]
    · intro c hc
      have hc : c ∈ s2.writes ++ (D ++ Dx) := hc
      rw [hX] at hc
      have hc : c ∈ s.writes ++ D ∨ c ∈ t.writes ++ Dx := by
        simp only [List.mem_append] at hc ⊢
        tauto
      rcases hc with hc | hc
      · obtain ⟨hne, q, hq, h⟩ := d2 c hc
        exact ⟨hne, q, by simp [hq], h⟩
      · refine ⟨?_, p, by simp, hown c hc⟩
        rcases List.mem_append.1 hc with hc | hc
        · exact hXne c hc
        · obtain ⟨r, _, _, hr3⟩ := hDm c hc
          rintro h0
          rw [h0] at hr3
          unfold App.Pending.len at hr3
          split at hr3 <;> simp at hr3
    · intro q hq i h
      show some (byteAt (s2.writes ++ (D ++ Dx)) _) = _
      rw [hX]
      rcases List.mem_append.1 hq with hq | hq
      · have e1 := byteAt_skip (A := s.writes) (U := t.writes) (B := D ++ Dx) (i := q.origin + i) (fun c hc => hdis q hq _ (by omega) (by omega) c (by simp [hc]))
        have e2 := byteAt_skip (A := s.writes ++ D) (U := Dx) (B := []) (i := q.origin + i) (fun c hc => hdis q hq _ (by omega) (by omega) c (by simp [hc]))
        rw [e1, ← d3 q hq i h]
        simp only [List.append_nil, List.append_assoc] at e2
        rw [e2]
      · cases List.mem_singleton.1 hq
        have e1 := byteAt_skip (A := []) (U := s.writes) (B := t.writes ++ (D ++ Dx)) (i := p.origin + i) (fun c hc => hdis' _ (by omega) (by omega) c (by simp [hc]))
        have e2 := byteAt_skip (A := t.writes) (U := D) (B := Dx) (i := p.origin + i) (fun c hc => hdis' _ (by omega) (by omega) c (by simp [hc]))
        simp only [List.nil_append, List.append_assoc] at e1 e2 ⊢
        rw [e1, e2, hbytes i h]
    · intro q hq hne
      show ∃ c ∈ s2.writes, _
      rw [hX]
      rcases List.mem_append.1 hq with hq | hq
      · obtain ⟨c, hc, h⟩ := d4 q hq hne
        exact ⟨c, by simp [hc], h⟩
      · cases List.mem_singleton.1 hq
        have hpos := List.length_pos_of_ne_nil hne
        rcases hlast with h | ⟨c, hc, h⟩
        · have h : t.pc = p.origin := h
          omega
        · have h : c.1 + c.2.length = t.pc := h
          exact ⟨c, by simp [hc], by omega⟩

theorem run_all {fn out : Str} : ∀ {R : List Part} (P : List Part) {s : State}, Inv fn P s → (∀ p ∈ R, p.Alone fn out ∧ Sized p.text) →
    (P ++ R).Pairwise Part.Apart → ∃ s', runPieces fn (R.flatMap fun p => pieces p.text) s = .ok s' ∧ Inv fn (P ++ R) s'
  | [], P, s, h, _, _ => ⟨s, rfl, by simpa using h⟩
  | p :: R, P, s, h, hR, hp => by
    obtain ⟨h1, h2⟩ := hR p List.mem_cons_self
    obtain ⟨s1, h3, h4⟩ := h.step h1 h2 (fun q hq => (List.pairwise_append.1 hp).2.2 q hq p List.mem_cons_self) (R.flatMap fun p => pieces p.text)
    obtain ⟨s2, h5, h6⟩ := run_all (P ++ [p]) h4 (fun q hq => hR q (List.mem_cons_of_mem _ hq)) (by simpa using hp)
    exact ⟨s2, by rw [List.flatMap_cons, h3, h5], by simpa using h6⟩

theorem pieces_all : ∀ (R : List Part), (∀ p ∈ R, WholeLines p.text) → pieces (R.flatMap Part.text) = R.flatMap fun p => pieces p.text
  | [], _ => by rfl
  | p :: R, h => by
    rw [List.flatMap_cons, List.flatMap_cons, App.pieces_append (h p List.mem_cons_self), pieces_all R fun q hq => h q (List.mem_cons_of_mem _ hq)]

theorem whole_text {fn out : Str} {p : Part} (h : p.Alone fn out) : WholeLines p.text := by
  right
  unfold Part.text
  rcases h.whole with hb | ⟨q, hb⟩
  · rw [hb, List.append_nil]
    have := h.sets.2.1
    exact ⟨p.line.dropLast, (List.dropLast_append_getLast? (l := p.line) 10 this).symm⟩
  · exact ⟨p.line ++ q, by rw [hb, List.append_assoc]⟩

end Parts
end Gaia

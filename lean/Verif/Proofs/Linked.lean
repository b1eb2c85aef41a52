import Verif.Spec.Linked
import Verif.Proofs.Truncate
import Verif.Proofs.Modules
import Verif.Proofs.Parts
import Verif.Props.C21_Runs
import Verif.Props.C62_Constants

/-! Sections that refer to each other: the two-pass assembler, section by section. -/
namespace Gaia
open Spec

namespace Linked

/-- The state `s`, with symbols `E` and instructions `I` from before. -/
def behind (E : Env) (I : List Item) (s : Pass1) : Pass1 := ⟨s.pc, s.env ++ E, I ++ s.items⟩

theorem define_behind {E : Env} {I : List Item} {s : Pass1} {l : Str} {v : Nat} (h : E.lookup l = none) :
    define (behind E I s) l v = (define s l v).map (behind E I) := by
  unfold define behind
  simp only
  rw [Mods.lookup_stranger h]
  cases s.env.lookup l <;> rfl

theorem place_behind {E : Env} {I : List Item} {s : Pass1} {lab : Option Str} {m : Mnemonic} {a : Arg} (h : ∀ l ∈ (Stmt.instr lab m a).needs, E.lookup l = none) :
    place (behind E I s) m a = (place s m a).map (behind E I) := by
  have key : ∀ v v', sizingValue (s.env ++ E) m a.opd = some v → sizingValue s.env m a.opd = some v' → modeFor m a v = modeFor m a v' →
      place (behind E I s) m a = (place s m a).map (behind E I) := by
    intro v v' h1 h2 h3
    unfold place behind
    simp only [h1, h2, h3, Option.bind_eq_bind, Option.bind_some]
    cases modeFor m a v' with
    | none => rfl
    | some md => simp
  cases ho : a.opd with
  | none => exact key 0 0 (by rw [ho]; rfl) (by rw [ho]; rfl) rfl
  | some o =>
    cases o with
    | lit v => exact key v v (by rw [ho]; rfl) (by rw [ho]; rfl) rfl
    | sym l =>
      cases hb : (Spec.isBranch m || Spec.isJump m) with
      | true =>
        have hv : ∀ env : Env, ∃ v, sizingValue env m a.opd = some v := by
          intro env
          rw [ho]
          unfold sizingValue
          simp only
          cases env.lookup l with
          | none => exact ⟨0, by simp only [hb, if_true]⟩
          | some v => exact ⟨v, rfl⟩
        obtain ⟨v, h1⟩ := hv (s.env ++ E)
        obtain ⟨v', h2⟩ := hv s.env
        exact key v v' h1 h2 (modeFor_fixed ho (by simpa using hb) v v')
      | false =>
        have hl : E.lookup l = none := h l (by simp [Stmt.needs, ho, hb])
        have e : sizingValue (s.env ++ E) m a.opd = sizingValue s.env m a.opd := by
          rw [ho]; unfold sizingValue; simp only; rw [Mods.lookup_stranger hl]
        cases hv : sizingValue s.env m a.opd with
        | none =>
          unfold place behind
          simp only [e, hv, Option.bind_eq_bind, Option.bind_none, Option.map_none]
        | some v => exact key v v (by rw [e, hv]) hv rfl

theorem stmt_behind {E : Env} {I : List Item} {s : Pass1} {st : Stmt} (hd : ∀ l ∈ st.defines, E.lookup l = none)
    (hn : ∀ l ∈ st.needs, E.lookup l = none) : pass1Stmt (behind E I s) st = (pass1Stmt s st).map (behind E I) := by
  cases st with
  | empty => rfl
  | stop => rfl
  | label l => exact define_behind (hd l rfl)
  | const l v => exact define_behind (hd l rfl)
  | org v => rfl
  | instr lab m a =>
    cases lab with
    | none => exact place_behind hn
    | some l =>
      show (define (behind E I s) l s.pc).bind (place · m a) = ((define s l s.pc).bind (place · m a)).map (behind E I)
      rw [define_behind (hd l rfl)]
      cases define s l s.pc with
      | none => rfl
      | some t => exact place_behind hn

/-- What is before a section does not matter for it. -/
theorem pass1_behind {E : Env} {I : List Item} : ∀ {body : List Stmt} {s : Pass1}, (∀ st ∈ body, st ≠ .stop) →
    (∀ st ∈ body, ∀ l ∈ st.defines, E.lookup l = none) → (∀ st ∈ body, ∀ l ∈ st.needs, E.lookup l = none) →
    pass1 body (behind E I s) = (pass1 body s).map (behind E I)
  | [], s, _, _, _ => rfl
  | st :: body, s, h1, h2, h3 => by
    have hst := h1 st List.mem_cons_self
    rw [pass1_cons hst, pass1_cons hst, stmt_behind (h2 st List.mem_cons_self) (h3 st List.mem_cons_self)]
    cases pass1Stmt s st with
    | none => rfl
    | some t =>
      exact pass1_behind (fun q hq => h1 q (List.mem_cons_of_mem _ hq)) (fun q hq => h2 q (List.mem_cons_of_mem _ hq))
        (fun q hq => h3 q (List.mem_cons_of_mem _ hq))

/-- The names of the symbols. -/
abbrev keys (env : Env) : List Str := env.map (·.1)

theorem stmt_keys {s t : Pass1} {st : Stmt} (h : pass1Stmt s st = some t) : keys t.env = st.defines.toList ++ keys s.env ∧
    ∀ l ∈ st.defines, s.env.lookup l = none := by
  have pl : ∀ {s t : Pass1} {m : Mnemonic} {a : Arg}, place s m a = some t → t.env = s.env := by
    intro s t m a h
    obtain ⟨_, _, _, _, rfl⟩ := place_some h
    rfl
  have df : ∀ {s t : Pass1} {l : Str} {v : Nat}, define s l v = some t → keys t.env = l :: keys s.env ∧ s.env.lookup l = none := by
    intro s t l v h
    obtain ⟨h1, rfl⟩ := define_some h
    exact ⟨rfl, h1⟩
  cases st with
  | empty => cases h; exact ⟨rfl, fun _ h => (nomatch h)⟩
  | stop => cases h; exact ⟨rfl, fun _ h => (nomatch h)⟩
  | label l =>
    obtain ⟨h1, h2⟩ := df h
    refine ⟨h1, fun k hk => ?_⟩
    cases hk; exact h2
  | const l v =>
    obtain ⟨h1, h2⟩ := df h
    refine ⟨h1, fun k hk => ?_⟩
    cases hk; exact h2
  | org v => cases h; exact ⟨rfl, fun _ h => (nomatch h)⟩
  | instr lab m a =>
    cases lab with
    | none =>
      have h : place s m a = some t := h
      rw [pl h]
      exact ⟨rfl, fun _ h => (nomatch h)⟩
    | some l =>
      have h : (define s l s.pc).bind (place · m a) = some t := h
      obtain ⟨u, h1, h2⟩ := Option.bind_eq_some_iff.1 h
      rw [pl h2]
      obtain ⟨h3, h4⟩ := df h1
      refine ⟨h3, fun k hk => ?_⟩
      cases hk; exact h4

/-- The names defined by a section that is assembled. -/
theorem pass1_keys : ∀ {body : List Stmt} {s t : Pass1}, (∀ st ∈ body, st ≠ .stop) → pass1 body s = some t →
    keys t.env = (body.filterMap Stmt.defines).reverse ++ keys s.env ∧ (∀ l ∈ body.filterMap Stmt.defines, l ∉ keys s.env) ∧ ((keys s.env).Nodup → (keys t.env).Nodup)
  | [], s, t, _, h => by cases h; exact ⟨rfl, fun _ h => (nomatch h), id⟩
  | st :: body, s, t, h1, h => by
    rw [pass1_cons (h1 st List.mem_cons_self)] at h
    obtain ⟨u, h2, h3⟩ := Option.bind_eq_some_iff.1 h
    obtain ⟨k1, k2⟩ := stmt_keys h2
    obtain ⟨g1, g2, g3⟩ := pass1_keys (fun q hq => h1 q (List.mem_cons_of_mem _ hq)) h3
    have hfm : (st :: body).filterMap Stmt.defines = st.defines.toList ++ body.filterMap Stmt.defines := by
      rw [List.filterMap_cons]
      cases st.defines <;> rfl
    have hnot : ∀ l ∈ st.defines, l ∉ keys s.env := by
      intro l hl hm
      have := Parts.lookup_of_mem hm
      rw [k2 l hl] at this; cases this
    rw [hfm]
    refine ⟨?_, ?_, ?_⟩
    · rw [g1, k1]
      cases st.defines <;> simp
    · intro l hl
      rcases List.mem_append.1 hl with hl | hl
      · exact hnot l (by simpa using hl)
      · intro hm
        exact g2 l hl (by rw [k1]; exact List.mem_append_right _ hm)
    · intro hn
      apply g3
      rw [k1]
      cases hd : st.defines with
      | none => simpa using hn
      | some l => exact List.nodup_cons.2 ⟨hnot l (by rw [hd]; rfl), hn⟩

/-- A section alone. -/
def alone (b : Block) : Option Pass1 := pass1 b.body ⟨b.origin, [], []⟩

/-- Its symbols and instructions. -/
def symbolsOf (b : Block) : Env := ((alone b).map (·.env)).getD []
def itemsOf (b : Block) : List Item := ((alone b).map (·.items)).getD []

theorem stmts_noStop {b : Block} (h : b.Linkable) : Stmt.stop ∉ b.stmts := by
  intro hm
  rcases List.mem_cons.1 hm with hm | hm
  · cases hm
  · exact (h.straight _ hm).2 rfl

theorem alone_keys {b : Block} (h : b.Linkable) {t : Pass1} (ht : alone b = some t) (l : Str) : l ∈ keys t.env ↔ l ∈ b.body.filterMap Stmt.defines := by
  have := (pass1_keys (fun st hst => (h.straight st hst).2) ht).1
  rw [this]
  simp

/-- All sections, from any state. -/
theorem pass1_blocks : ∀ {bs : List Block} {s t : Pass1}, (∀ b ∈ bs, b.Linkable) → (keys s.env).Nodup → pass1 (bs.flatMap Block.stmts) s = some t →
    (∀ b ∈ bs, (alone b).isSome = true) ∧ t.items = s.items ++ bs.flatMap itemsOf ∧ t.env.Perm (bs.flatMap symbolsOf ++ s.env) ∧ (keys t.env).Nodup
  | [], s, t, _, hn, h => by cases h; exact ⟨fun _ h => (nomatch h), by simp, by simp, hn⟩
  | b :: bs, s, t, hb, hn, h => by
    have hl := hb b List.mem_cons_self
    rw [List.flatMap_cons] at h
    obtain ⟨u, h1, h2⟩ := pass1_append _ _ (stmts_noStop hl) h
    have h1 : pass1 b.body (behind s.env s.items ⟨b.origin, [], []⟩) = some u := by
      have : pass1 b.stmts s = pass1 b.body { s with pc := b.origin } := rfl
      rw [this] at h1
      rw [← h1]
      simp [behind]
    have hns : ∀ st ∈ b.body, st ≠ .stop := fun st hst => (hl.straight st hst).2
    obtain ⟨k1, k2, k3⟩ := pass1_keys hns h1
    have hfree : ∀ l ∈ b.body.filterMap Stmt.defines, s.env.lookup l = none := by
      intro l hm
      by_contra hc
      exact k2 l hm (Parts.mem_of_lookup (env := behind s.env s.items ⟨b.origin, [], []⟩ |>.env) (by simpa [behind] using Option.isSome_iff_ne_none.2 hc))
    rw [pass1_behind hns (fun st hst l h => hfree l (List.mem_filterMap.2 ⟨st, hst, h⟩)) (fun st hst l h => hfree l (hl.own st hst l h))] at h1
    have h1 : (alone b).map (behind s.env s.items) = some u := h1
    obtain ⟨o, ho, rfl⟩ := Option.map_eq_some_iff.1 h1
    obtain ⟨g1, g2, g3, g4⟩ := pass1_blocks (fun c hc => hb c (List.mem_cons_of_mem _ hc)) (k3 (by simpa [behind, keys] using hn)) h2
    have e1 : symbolsOf b = o.env := by simp [symbolsOf, ho]
    have e2 : itemsOf b = o.items := by simp [itemsOf, ho]
    refine ⟨?_, ?_, ?_, g4⟩
    · intro c hc
      rcases List.mem_cons.1 hc with rfl | hc
      · rw [ho]; rfl
      · exact g1 c hc
    · rw [g2, List.flatMap_cons, e2]; simp [behind]
    · refine g3.trans ?_
      rw [List.flatMap_cons, e1]
      show (bs.flatMap symbolsOf ++ (o.env ++ s.env)).Perm _
      rw [← List.append_assoc]
      exact List.perm_append_comm.append_right _

/-- And back. -/
theorem blocks_pass1 : ∀ {bs : List Block} {s : Pass1}, (∀ b ∈ bs, b.Linkable) → (∀ b ∈ bs, (alone b).isSome = true) →
    (keys (bs.flatMap symbolsOf ++ s.env)).Nodup → ∃ t, pass1 (bs.flatMap Block.stmts) s = some t
  | [], s, _, _, _ => ⟨s, rfl⟩
  | b :: bs, s, hb, ha, hn => by
    have hl := hb b List.mem_cons_self
    obtain ⟨o, ho⟩ := Option.isSome_iff_exists.1 (ha b List.mem_cons_self)
    have e1 : symbolsOf b = o.env := by simp [symbolsOf, ho]
    have hns : ∀ st ∈ b.body, st ≠ .stop := fun st hst => (hl.straight st hst).2
    rw [List.flatMap_cons, e1] at hn
    have hfree : ∀ l ∈ b.body.filterMap Stmt.defines, s.env.lookup l = none := by
      intro l hm
      by_contra hc
      have h1 := (alone_keys hl ho l).2 hm
      have h2 : l ∈ keys s.env := Parts.mem_of_lookup (Option.isSome_iff_ne_none.2 hc)
      have hn : (keys o.env ++ (keys (bs.flatMap symbolsOf) ++ keys s.env)).Nodup := by simpa [keys] using hn
      exact (List.nodup_append.1 hn).2.2 l h1 l (List.mem_append_right _ h2) rfl
    have h1 : pass1 b.stmts s = some (behind s.env s.items o) := by
      have e : pass1 b.stmts s = pass1 b.body (behind s.env s.items ⟨b.origin, [], []⟩) := by
        have : pass1 b.stmts s = pass1 b.body { s with pc := b.origin } := rfl
        rw [this]; simp [behind]
      rw [e, pass1_behind hns (fun st hst l h => hfree l (List.mem_filterMap.2 ⟨st, hst, h⟩)) (fun st hst l h => hfree l (hl.own st hst l h))]
      show (alone b).map _ = _
      rw [ho]; rfl
    obtain ⟨t, ht⟩ := blocks_pass1 (s := behind s.env s.items o) (fun c hc => hb c (List.mem_cons_of_mem _ hc)) (fun c hc => ha c (List.mem_cons_of_mem _ hc)) (by
      have hp : (o.env ++ bs.flatMap symbolsOf ++ s.env).Perm (bs.flatMap symbolsOf ++ (o.env ++ s.env)) := by
        rw [← List.append_assoc]
        exact List.perm_append_comm.append_right _
      exact (hp.map fun q : Str × Nat => q.1).nodup hn)
    exact ⟨t, pass1_append_some _ _ (stmts_noStop hl) h1 ht⟩

/-! Symbols in another order. -/

theorem lookup_iff {env : Env} (hn : (keys env).Nodup) (l : Str) (v : Nat) : env.lookup l = some v ↔ (l, v) ∈ env := by
  induction env with
  | nil => simp
  | cons q env ih =>
    obtain ⟨k, u⟩ := q
    have hn : k ∉ keys env ∧ (keys env).Nodup := by simpa [keys] using hn
    rw [List.lookup_cons]
    by_cases hk : l = k
    · subst hk
      simp only [beq_self_eq_true, Option.some.injEq, List.mem_cons, Prod.mk.injEq, true_and]
      constructor
      · rintro rfl; exact .inl rfl
      · rintro (rfl | h)
        · rfl
        · exact absurd (List.mem_map.2 ⟨_, h, rfl⟩) hn.1
    · have : (l == k) = false := by simpa using hk
      simp only [this, List.mem_cons, Prod.mk.injEq, hk, false_and, false_or]
      exact ih hn.2

theorem lookup_perm {env env' : Env} (hp : env.Perm env') (hn : (keys env).Nodup) (l : Str) : env.lookup l = env'.lookup l := by
  have hn' : (keys env').Nodup := (hp.map _).nodup hn
  refine Option.ext fun v => ?_
  rw [lookup_iff hn, lookup_iff hn', hp.mem_iff]

theorem encode_congr {env env' : Env} (h : ∀ l, env.lookup l = env'.lookup l) (it : Item) : encodeLow env it = encodeLow env' it := by
  have hv : ∀ o, opdValue env o = opdValue env' o := by
    intro o
    cases o with
    | lit v => rfl
    | sym l => exact h l
  unfold encodeLow operandBytesLow
  simp only [hv]

theorem rawBytes_congr {env env' : Env} (h : ∀ l, env.lookup l = env'.lookup l) (it : Item) : rawBytes env it = rawBytes env' it := by
  unfold rawBytes
  simp only [h]

theorem pass2_isSome {env : Env} : ∀ {its : List Item}, (pass2Low env its).isSome = true ↔ ∀ it ∈ its, (encodeLow env it).isSome = true
  | [] => by simp [pass2Low]
  | it :: its => by
    have ih := pass2_isSome (env := env) (its := its)
    unfold pass2Low
    cases h1 : encodeLow env it with
    | none => simp [h1]
    | some bs =>
      cases h2 : pass2Low env its with
      | none =>
        rw [h2] at ih
        simp only [Option.bind_eq_bind, Option.bind_some, Option.bind_none, Option.isSome_none, List.mem_cons, forall_eq_or_imp, h1, Option.isSome_some, true_and]
        simpa using ih
      | some cs =>
        rw [h2] at ih
        simp only [Option.bind_eq_bind, Option.bind_some, Option.isSome_some, List.mem_cons, forall_eq_or_imp, h1, true_and]
        simpa using ih

/-! Bytes in another order. -/

/-- The two stretches have no address in common. -/
def Clear (a b : Chunk) : Prop := a.1 + a.2.length ≤ b.1 ∨ b.1 + b.2.length ≤ a.1

theorem byteAt_of_mem {cs : List Chunk} (hp : cs.Pairwise Clear) {c : Chunk} (hc : c ∈ cs) {i : Nat} (h1 : c.1 ≤ i) (h2 : i < c.1 + c.2.length) :
    some (byteAt cs i) = c.at i := by
  unfold byteAt
  have hs : (cs.reverse.findSome? (Chunk.at · i)).isSome = true := by
    rw [List.findSome?_isSome_iff]
    exact ⟨c, by simpa using hc, by rw [Chunk.at_some h1 h2]; rfl⟩
  obtain ⟨b, hb⟩ := Option.isSome_iff_exists.1 hs
  rw [hb]
  obtain ⟨d, hd, hdb⟩ := List.exists_of_findSome?_eq_some hb
  have hd : d ∈ cs := by simpa using hd
  have hdc : d.1 ≤ i ∧ i < d.1 + d.2.length := by
    by_contra hcon
    rw [Mods.at_none (by omega)] at hdb
    cases hdb
  have : d = c := by
    by_contra hne
    have hsym : Std.Symm Clear := ⟨fun a b h => h.symm⟩
    have := hp.forall hd hc hne
    unfold Clear at this
    omega
  subst this
  rw [hdb]; rfl

theorem image_perm {cs cs' : List Chunk} (hp : cs.Perm cs') (hc : cs.Pairwise Clear) : image cs = image cs' := by
  have hc' : cs'.Pairwise Clear := hp.pairwise hc (fun h => h.symm)
  have hend : imageEnd cs = imageEnd cs' := by
    refine Nat.le_antisymm (imageEnd_le fun c h => le_imageEnd (hp.mem_iff.1 h)) (imageEnd_le fun c h => le_imageEnd (hp.mem_iff.2 h))
  unfold image
  rw [hend]
  refine List.map_congr_left fun i _ => ?_
  by_cases h : ∃ c ∈ cs, c.1 ≤ i ∧ i < c.1 + c.2.length
  · obtain ⟨c, h1, h2, h3⟩ := h
    have e1 := byteAt_of_mem hc h1 h2 h3
    have e2 := byteAt_of_mem hc' (hp.mem_iff.1 h1) h2 h3
    rw [← e1] at e2
    exact (Option.some.inj e2).symm
  · have hno : ∀ c ∈ cs, i < c.1 ∨ c.1 + c.2.length ≤ i := by
      intro c hm
      by_contra hcon
      exact h ⟨c, hm, by omega, by omega⟩
    unfold byteAt
    rw [Mods.find_none hno, Mods.find_none fun c hm => hno c (hp.mem_iff.2 hm)]

/-! The zeros of forward references. -/

/-- With the file at `f` before `es`, the zeros of each forward reference go where the reference itself goes. -/
def InPlace (f : Nat) (es : List Placed) : Prop := ∀ pre e post, es = pre ++ e :: post → e.forward.isSome = true → endFrom f pre = e.item.addr

theorem InPlace.nil (f : Nat) : InPlace f [] := by
  intro pre e post h
  cases pre <;> cases h

theorem InPlace.cons {f : Nat} {e : Placed} {es : List Placed} (h : e.forward.isSome = true → f = e.item.addr)
    (h' : InPlace (e.item.addr + e.item.mode.bytes) es) : InPlace f (e :: es) := by
  intro pre d post heq hd
  cases pre with
  | nil => cases heq; exact h hd
  | cons x pre =>
    injection heq with h1 h2
    subst h1
    exact h' pre d post h2 hd

theorem InPlace.append : ∀ {A B : List Placed} {f : Nat}, InPlace f A → InPlace (endFrom f A) B → InPlace f (A ++ B)
  | [], B, f, _, h => h
  | e :: A, B, f, h, h' => by
    refine InPlace.cons (fun he => h [] e A rfl he) (InPlace.append ?_ h')
    intro pre d post heq hd
    exact h (e :: pre) d post (by rw [heq]; rfl) hd

/-- As `Block.Linkable.plain`, if the names `known` are defined. -/
def PlainFrom (known : List Str) (sts : List Stmt) : Prop :=
  ∀ st ∈ (sts.dropWhile fun st => !st.isInstr).head?, ∀ l ∈ st.reference, l ∈ known ∨ l ∈ ((sts.takeWhile fun st => !st.isInstr) ++ [st]).filterMap Stmt.defines

theorem placed_inPlace : ∀ {body : List Stmt} {s t : Pass1} (n f : Nat), (∀ st ∈ body, st.isOrg = false ∧ st ≠ .stop) → pass1 body s = some t →
    (f = s.pc ∨ PlainFrom (keys s.env) body) → InPlace f (placed body n s)
  | [], s, t, n, f, _, _, _ => InPlace.nil f
  | st :: body, s, t, n, f, hst, h, hf => by
    obtain ⟨ho, hs⟩ := hst st List.mem_cons_self
    rw [pass1_cons hs] at h
    obtain ⟨u, h1, h2⟩ := Option.bind_eq_some_iff.1 h
    rw [placed_cons hs h1]
    have hrest := fun q hq => hst q (List.mem_cons_of_mem _ hq)
    obtain ⟨k1, _⟩ := stmt_keys h1
    cases hi : st.isInstr with
    | false =>
      have hu : u.items = s.items ∧ u.pc = s.pc := by
        cases st with
        | empty => cases h1; exact ⟨rfl, rfl⟩
        | stop => cases h1; exact ⟨rfl, rfl⟩
        | label l => obtain ⟨_, rfl⟩ := define_some h1; exact ⟨rfl, rfl⟩
        | const l v => obtain ⟨_, rfl⟩ := define_some h1; exact ⟨rfl, rfl⟩
        | org v => cases ho
        | instr lab m a => cases hi
      have hnew : newPlaced n s u = [] := by unfold newPlaced; rw [hu.1]; simp
      rw [hnew, List.nil_append]
      refine placed_inPlace _ f hrest h2 ?_
      rcases hf with hf | hf
      · exact .inl (by rw [hf, hu.2])
      · right
        intro q hq l hl
        have := hf q (by simpa [hi] using hq) l hl
        simp only [hi, Bool.not_false, List.takeWhile_cons, if_true, List.cons_append, List.filterMap_cons] at this
        rw [k1]
        rcases this with h | h
        · exact .inl (List.mem_append_right _ h)
        · cases hd : st.defines with
          | none => rw [hd] at h; exact .inr h
          | some k =>
            rw [hd] at h
            rcases List.mem_cons.1 h with rfl | h
            · exact .inl (by simp)
            · exact .inr h
    | true =>
      cases st with
      | instr lab m a =>
        have hu : ∃ md, u.items = s.items ++ [⟨s.pc, m, md, a.opd⟩] ∧ u.pc = s.pc + md.bytes := by
          cases lab with
          | none =>
            have h1 : place s m a = some u := h1
            obtain ⟨_, md, _, _, rfl⟩ := place_some h1
            exact ⟨md, rfl, rfl⟩
          | some l =>
            have h1 : (define s l s.pc).bind (place · m a) = some u := h1
            obtain ⟨u', h3, h4⟩ := Option.bind_eq_some_iff.1 h1
            obtain ⟨_, rfl⟩ := define_some h3
            obtain ⟨_, md, _, _, rfl⟩ := place_some h4
            exact ⟨md, rfl, rfl⟩
        obtain ⟨md, hu1, hu2⟩ := hu
        have hnew : newPlaced n s u = [⟨n, ⟨s.pc, m, md, a.opd⟩, u.env⟩] := by unfold newPlaced; rw [hu1]; simp
        rw [hnew]
        refine InPlace.cons (fun hfw => ?_) (placed_inPlace _ _ hrest h2 (.inl hu2.symm))
        rcases hf with hf | hf
        · exact hf
        · exfalso
          unfold Placed.forward at hfw
          cases hopd : a.opd with
          | none => simp [hopd] at hfw
          | some o =>
            cases o with
            | lit v => simp [hopd] at hfw
            | sym l =>
              have hk := hf (.instr lab m a) (by simp [Stmt.isInstr]) l (by simp [Stmt.reference, hopd])
              have hm : l ∈ keys u.env := by
                rw [k1]
                rcases hk with hk | hk
                · exact List.mem_append_right _ hk
                · refine List.mem_append_left _ ?_
                  simpa [Stmt.isInstr] using hk
              have := Parts.lookup_of_mem hm
              simp [hopd, this] at hfw
      | empty => cases hi
      | stop => cases hi
      | label l => cases hi
      | const l v => cases hi
      | org v => cases hi

theorem placed_append : ∀ (p q : List Stmt) (n : Nat) {s t : Pass1}, .stop ∉ p → pass1 p s = some t → placed (p ++ q) n s = placed p n s ++ placed q (n + p.length) t
  | [], q, n, s, t, _, h => by cases h; rfl
  | st :: p, q, n, s, t, hs, h => by
    have hst : st ≠ .stop := fun e => hs (by simp [e])
    rw [pass1_cons hst] at h
    obtain ⟨u, h1, h2⟩ := Option.bind_eq_some_iff.1 h
    rw [List.cons_append, placed_cons hst h1, placed_cons hst h1, placed_append p q (n + 1) (fun h => hs (List.mem_cons_of_mem _ h)) h2, List.append_assoc]
    congr 3
    simp only [List.length_cons]; omega

theorem blocks_inPlace : ∀ {bs : List Block} {s t : Pass1} (n f : Nat), (∀ b ∈ bs, b.Linkable) → pass1 (bs.flatMap Block.stmts) s = some t →
    InPlace f (placed (bs.flatMap Block.stmts) n s)
  | [], s, t, n, f, _, _ => InPlace.nil f
  | b :: bs, s, t, n, f, hb, h => by
    have hl := hb b List.mem_cons_self
    rw [List.flatMap_cons] at h ⊢
    obtain ⟨u, h1, h2⟩ := pass1_append _ _ (stmts_noStop hl) h
    rw [placed_append _ _ _ (stmts_noStop hl) h1]
    refine InPlace.append ?_ (blocks_inPlace _ _ (fun c hc => hb c (List.mem_cons_of_mem _ hc)) h2)
    have e : placed b.stmts n s = placed b.body (n + 1) { s with pc := b.origin } := by
      have : placed b.stmts n s = newPlaced n s { s with pc := b.origin } ++ placed b.body (n + 1) { s with pc := b.origin } :=
        placed_cons (by simp) rfl
      rw [this]
      simp [newPlaced]
    rw [e]
    refine placed_inPlace _ f hl.straight h1 (.inr fun st hst l h => .inr (hl.plain st hst l h))

theorem harmless {es : List Placed} (h : InPlace 0 es) (hc : (es.map (·.item)).Pairwise fun a b => a.addr + a.mode.bytes ≤ b.addr ∨ b.addr + b.mode.bytes ≤ a.addr) :
    Harmless es := by
  refine ⟨?_, ?_, ?_⟩
  · rintro pre e post rfl hf d hd i hcov ⟨h1, h2⟩
    rw [h pre e post rfl hf] at h1 h2
    rw [List.map_append, List.map_cons, List.pairwise_append] at hc
    have := hc.2.2 d.item (List.mem_map_of_mem hd) e.item List.mem_cons_self
    unfold Covers at hcov
    omega
  · rintro pre e post rfl hf
    exact ⟨e, by simp, by rw [h pre e post rfl hf]⟩
  · rintro pre e post rfl hf d hd i h1 h2
    rw [List.map_append, List.map_cons, List.pairwise_append, List.pairwise_cons] at hc
    have := hc.2.1.1 d.item (List.mem_map_of_mem hd)
    unfold Covers at h1 h2
    omega

end Linked
end Gaia

import Verif.Proofs.SymTab
import Verif.Proofs.UnsignedRun
import Verif.Model.Hash

/-!
The symbol table with an arbitrary hash function: linear probing refines a finite map whatever the hash function is. (As in `Proofs/SymTab`, with
`hash` for `djb2`.)
-/
namespace Gaia.Hash
open Gaia

variable (hash : Str → Nat)

/-- Every stored symbol is reachable from its hash by occupied slots. -/
def PathInv (slots : Slots) : Prop :=
  ∀ (i : Nat) (s : Symbol), slots[i]? = some (some s) →
    ∃ d, d < slots.length ∧ i = (hash s.label % slots.length + d) % slots.length ∧
      ∀ k, k < d → ∃ s', slots[(hash s.label % slots.length + k) % slots.length]? = some (some s')


theorem PathInv_replicate (n : Nat) : PathInv hash (List.replicate n none) := by
  intro i s h
  rw [List.getElem?_replicate] at h
  split at h <;> simp at h

variable {hash}

/-- Storing a symbol in the slot found by probing keeps the path invariant. -/
theorem place_spec {slots : Slots} (sym : Symbol) (hpath : PathInv hash slots)
    (hlen : (entries slots).length < slots.length) :
    ∃ i, probeFree slots slots.length (hash sym.label % slots.length) = .ok i ∧
      slots[i]? = some none ∧ PathInv hash (slots.set i (some sym)) := by
  have hpos : 0 < slots.length := by omega
  obtain ⟨j, hj⟩ := exists_free hlen
  have hjl : j < slots.length := by
    by_contra hc
    rw [List.getElem?_eq_none (by omega)] at hj
    cases hj
  have hh := Nat.mod_lt (hash sym.label) hpos
  obtain ⟨d0, hd0, hd0e⟩ := on_path hh hjl
  obtain ⟨d, hd, h1, h2, h3⟩ := probeFree_spec slots slots.length _ hh ⟨d0, hd0, by rw [hd0e]; exact hj⟩
  refine ⟨_, h1, h2, ?_⟩
  set i := (hash sym.label % slots.length + d) % slots.length with hi
  have hil : i < slots.length := Nat.mod_lt _ hpos
  -- occupied slots stay occupied
  have hocc : ∀ m : Nat, (∃ s, slots[m]? = some (some s)) →
      ∃ s, (slots.set i (some sym))[m]? = some (some s) := by
    rintro m ⟨s, hs⟩
    by_cases hm : i = m
    · exact ⟨sym, by rw [hm, List.getElem?_set_self (by omega)]⟩
    · exact ⟨s, by rw [List.getElem?_set_ne hm]; exact hs⟩
  intro m s hm
  simp only [List.length_set]
  by_cases hmi : i = m
  · rw [← hmi, List.getElem?_set_self hil] at hm
    cases hm
    exact ⟨d, hd, by rw [← hmi], fun k hk => hocc _ (h3 k hk)⟩
  · rw [List.getElem?_set_ne hmi] at hm
    obtain ⟨e, he, hme, hp⟩ := hpath m s hm
    exact ⟨e, he, hme, fun k hk => hocc _ (hp k hk)⟩

/-- The transfer loop keeps all symbols. -/
theorem rehashAll_spec : ∀ (old new : Slots), PathInv hash new →
    (entries old).length + (entries new).length < new.length →
    ∃ res, rehashAll hash old new = .ok res ∧ PathInv hash res ∧ res.length = new.length ∧
      (entries res).Perm (entries old ++ entries new) := by
  intro old
  induction old with
  | nil => intro new hp _; exact ⟨new, rfl, hp, rfl, by simp [entries]⟩
  | cons a old ih =>
    intro new hp hlen
    cases a with
    | none =>
      obtain ⟨res, h1, h2, h3, h4⟩ := ih new hp (by simpa [entries] using hlen)
      exact ⟨res, h1, h2, h3, by simpa [entries] using h4⟩
    | some sym =>
      have hlen' : (entries old).length + 1 + (entries new).length < new.length := by
        have : (entries (some sym :: old)).length = (entries old).length + 1 := by simp [entries]
        omega
      obtain ⟨i, h1, h2, h3⟩ := place_spec sym hp (by omega)
      have hperm := entries_set sym h2
      obtain ⟨res, r1, r2, r3, r4⟩ := ih (new.set i (some sym)) h3 (by
        rw [hperm.length_eq, List.length_set]
        simp only [List.length_cons]
        omega)
      refine ⟨res, ?_, r2, by simpa using r3, ?_⟩
      · simp only [rehashAll, rehashOne, h1, C.ok_bind, C.pure_eq]
        exact r1
      · have e1 : entries (some sym :: old) = sym :: entries old := by simp [entries]
        rw [e1]
        refine r4.trans ((List.Perm.append_left _ hperm).trans ?_)
        exact List.perm_middle

/-- Invariant of the symbol table. -/
structure TabInv (hash : Str → Nat) (t : SymTab) : Prop where
  path : PathInv hash t.symbols
  distinct : Distinct t.symbols
  count : t.count = (entries t.symbols).length
  load : t.count * 100 < 51 * t.size
  sizeLe : t.size ≤ max 17 (8 * t.count)
  prime : Nat.Prime t.size

theorem TabInv.pos {t : SymTab} (h : TabInv hash t) : 0 < t.size := by
  have := h.load
  omega

theorem TabInv.countLt {t : SymTab} (h : TabInv hash t) : (entries t.symbols).length < t.symbols.length := by
  have h1 := h.load
  have h2 := h.count
  have h3 : t.size = t.symbols.length := rfl
  omega

theorem TabInv_init : TabInv hash initSymbolTable where
  path := PathInv_replicate _ _
  distinct := by simp [Distinct, initSymbolTable, entries_replicate]
  count := by simp [initSymbolTable, entries_replicate]
  load := by decide
  sizeLe := by decide
  prime := by
    have : Nat.Prime 17 := by norm_num
    exact this


/-- Searching is looking up in the finite map. -/
theorem searchOpt_eq {t : SymTab} (h : TabInv hash t) (label : Str) : searchOpt hash t label = .ok (lookup t label) := by
  have hpos := h.pos
  have hh : hash label % t.size < t.symbols.length := Nat.mod_lt _ hpos
  unfold searchOpt
  cases hl : lookup t label with
  | none =>
    obtain ⟨j, hj⟩ := exists_free h.countLt
    have hjl : j < t.symbols.length := by
      by_contra hc
      rw [List.getElem?_eq_none (by omega)] at hj
      cases hj
    obtain ⟨d, hd, hde⟩ := on_path hh hjl
    exact probeLabel_miss t.symbols label (lookup_none.1 hl) t.size _ d hh hd (by rw [hde]; exact hj)
  | some v =>
    have hm := (lookup_some h.distinct).1 hl
    rw [mem_entries] at hm
    obtain ⟨i, hi⟩ := List.getElem?_of_mem hm
    obtain ⟨d, hd, hie, hp⟩ := h.path i _ hi
    obtain ⟨s, hs, hsl, hr⟩ := probeLabel_hit t.symbols label t.size (hash label % t.size) d hh hd
      ⟨⟨label, v⟩, by rw [hie] at hi; exact hi, rfl⟩ hp
    rw [hr]
    have := nodup_unique h.distinct hs ((lookup_some h.distinct).1 hl) hsl
    rw [this]

/-- Growing keeps the invariant (except that the load drops) and the contents. -/
theorem resize_spec {t : SymTab} (h : TabInv hash t) (hbig : t.size * 4 ≤ INT_MAX) :
    ∃ t', resizeSymbols hash t = .ok t' ∧ PathInv hash t'.symbols ∧ t'.count = t.count ∧
      (entries t'.symbols).Perm (entries t.symbols) ∧ Nat.Prime t'.size ∧ 2 * t.size < t'.size ∧
      t'.size ≤ 4 * t.size := by
  have hpos := h.pos
  obtain ⟨q, h1, h2, h3, h4, _⟩ := nextPrime_bound (t.size * 2) (by omega) (by omega)
  have hlt := h.countLt
  have hsz : t.size = t.symbols.length := rfl
  obtain ⟨res, r1, r2, r3, r4⟩ := rehashAll_spec t.symbols (List.replicate q none) (PathInv_replicate _ q) (by
    rw [entries_replicate, List.length_replicate]
    simp only [List.length_nil]
    omega)
  rw [List.length_replicate] at r3
  refine ⟨{ t with symbols := res }, ?_, r2, rfl, ?_, ?_, ?_, ?_⟩
  · unfold resizeSymbols
    rw [if_neg (by omega), h1]
    simp only [C.ok_bind, r1, C.pure_eq]
  · simpa [entries_replicate] using r4
  · show Nat.Prime res.length
    rw [r3]; exact h2
  · show 2 * t.size < res.length
    omega
  · show res.length ≤ 4 * t.size
    omega

theorem place_tab_spec {t : SymTab} (label : Str) (value : Int) (hp : PathInv hash t.symbols)
    (hd : Distinct t.symbols) (hc : t.count = (entries t.symbols).length)
    (hlt : (entries t.symbols).length < t.symbols.length) (habs : lookup t label = none) :
    ∃ t', placeSymbol hash t label value = .ok t' ∧ PathInv hash t'.symbols ∧ Distinct t'.symbols ∧
      t'.count = t.count + 1 ∧ t'.count = (entries t'.symbols).length ∧ t'.size = t.size ∧
      (entries t'.symbols).Perm (⟨label, value⟩ :: entries t.symbols) := by
  obtain ⟨i, h1, h2, h3⟩ := place_spec ⟨label, value⟩ hp hlt
  have hperm := entries_set ⟨label, value⟩ h2
  refine ⟨⟨t.symbols.set i (some ⟨label, value⟩), t.count + 1⟩, ?_, h3, ?_, rfl, ?_, ?_, hperm⟩
  · unfold placeSymbol
    have h1' : probeFree t.symbols t.size (hash label % t.size) = .ok i := h1
    rw [h1']
    rfl
  · unfold Distinct
    rw [(hperm.map _).nodup_iff]
    simp only [List.map_cons, List.nodup_cons]
    refine ⟨?_, hd⟩
    intro hm
    obtain ⟨s, hs, hsl⟩ := List.mem_map.1 hm
    exact lookup_none.1 habs s hs hsl
  · simp only [hperm.length_eq, List.length_cons]
    omega
  · simp [SymTab.size]


/-- Inserting an absent label: the map gains exactly that binding. -/
theorem insertSymbol_spec {t : SymTab} (h : TabInv hash t) (label : Str) (value : Int)
    (hbig : (t.count + 1) * 100 ≤ INT_MAX) (habs : lookup t label = none) :
    ∃ t', insertSymbol hash t label value = .ok t' ∧ TabInv hash t' ∧ t'.count = t.count + 1 ∧
      ∀ x, lookup t' x = if x = label then some value else lookup t x := by
  have hpos := h.pos
  unfold insertSymbol
  rw [if_neg (by omega)]
  by_cases hov : overLoaded t = true
  · rw [if_pos hov]
    unfold overLoaded at hov
    simp only [gt_iff_lt, decide_eq_true_eq] at hov
    have hsz : t.size * 51 ≤ (t.count + 1) * 100 := by
      have := (Nat.le_div_iff_mul_le hpos).1 hov
      omega
    have hmax : INT_MAX = 2147483647 := rfl
    obtain ⟨t1, r1, r2, r3, r4, r5, r6, r7⟩ := resize_spec h (by omega)
    have hd1 : Distinct t1.symbols := by
      unfold Distinct
      exact (r4.map _).nodup_iff.2 h.distinct
    have hl1 : ∀ x, lookup t1 x = lookup t x := lookup_congr h.distinct r4
    have hc := h.count
    have hlt := h.countLt
    have e1 : t1.size = t1.symbols.length := rfl
    have e0 : t.size = t.symbols.length := rfl
    have hlen := r4.length_eq
    obtain ⟨t2, p1, p2, p3, p4, p5, p6, p7⟩ := place_tab_spec (t := t1) label value r2 hd1
      (by omega) (by omega) (by rw [hl1]; exact habs)
    refine ⟨t2, ?_, ?_, by omega, ?_⟩
    · rw [r1]
      exact p1
    · have hl := h.load
      refine ⟨p2, p3, p5, ?_, ?_, ?_⟩
      · omega
      · omega
      · rw [p6]; exact r5
    · intro x
      rw [lookup_insert hd1 p3 p7, hl1]
  · rw [if_neg hov]
    unfold overLoaded at hov
    simp only [gt_iff_lt, decide_eq_true_eq, not_lt] at hov
    have hc := h.count
    have hlt := h.countLt
    have hload : (t.count + 1) * 100 < 51 * t.size := by
      have := (Nat.div_lt_iff_lt_mul hpos).1 (Nat.lt_succ_of_le hov)
      omega
    obtain ⟨t2, p1, p2, p3, p4, p5, p6, p7⟩ := place_tab_spec label value h.path h.distinct
      h.count hlt habs
    refine ⟨t2, ?_, ?_, by omega, fun x => lookup_insert h.distinct p3 p7 x⟩
    · exact p1
    · have hs := h.sizeLe
      exact ⟨p2, p3, p5, by omega, by omega, by rw [p6]; exact h.prime⟩

/-! ### The size of the table does not depend on the hash function -/

theorem rehashAll_length : ∀ {old new res : Slots}, rehashAll hash old new = .ok res → res.length = new.length := by
  intro old
  induction old with
  | nil => intro new res h; cases h; rfl
  | cons a old ih =>
    intro new res h
    cases a with
    | none => exact ih h
    | some sym =>
      unfold rehashAll rehashOne at h
      rw [C.bind_eq_ok] at h
      obtain ⟨n, hn, h⟩ := h
      rw [C.bind_eq_ok] at hn
      obtain ⟨i, _, hn⟩ := hn
      cases hn
      rw [ih h, List.length_set]

/-- The number of slots after an insertion. -/
def grown (t : SymTab) : Nat := if overLoaded t then (match nextPrime (t.size * 2) with | .ok q => q | _ => 0) else t.size

theorem insertSymbol_size {t t' : SymTab} {label : Str} {v : Int} (h : insertSymbol hash t label v = .ok t') : t'.size = grown t := by
  have place : ∀ {t1 : SymTab}, placeSymbol hash t1 label v = .ok t' → t'.size = t1.size := by
    intro t1 h
    unfold placeSymbol at h
    rw [C.bind_eq_ok] at h
    obtain ⟨i, _, h⟩ := h
    cases h
    simp [SymTab.size]
  unfold insertSymbol at h
  unfold grown
  split at h
  · cases h
  · simp only at h
    split at h
    · rename_i ho
      rw [if_pos ho]
      rw [C.bind_eq_ok] at h
      obtain ⟨t1, h1, h⟩ := h
      rw [place h]
      unfold resizeSymbols at h1
      split at h1
      · cases h1
      · rw [C.bind_eq_ok] at h1
        obtain ⟨q, hq, h1⟩ := h1
        rw [C.bind_eq_ok] at h1
        obtain ⟨slots, hs, h1⟩ := h1
        cases h1
        have := rehashAll_length hs
        rw [List.length_replicate] at this
        rw [hq]
        exact this
    · rename_i ho
      rw [if_neg ho]
      exact place h

/-! ### Two tables that stand for the same map -/

/-- A table filled with `hash` and one filled with `djb2`: the same number of slots and symbols, the same map; no value is negative. -/
structure Rel (hash : Str → Nat) (t t' : SymTab) : Prop where
  inv : TabInv hash t
  inv' : Gaia.TabInv t'
  size : t.size = t'.size
  count : t.count = t'.count
  map : ∀ x, lookup t x = lookup t' x
  pos : ∀ x v, lookup t' x = some v → 0 ≤ v

theorem Rel_init (hash : Str → Nat) : Rel hash initSymbolTable initSymbolTable :=
  ⟨TabInv_init, Gaia.TabInv_init, rfl, rfl, fun _ => rfl, fun x v h => by
    have : lookup initSymbolTable x = none := by
      unfold lookup initSymbolTable
      rw [entries_replicate]
      rfl
    rw [this] at h
    cases h⟩

/-- Two results: related, or the same error, or the same undefined behaviour. -/
inductive Both {ε α β : Type} (R : α → β → Prop) : C ε α → C ε β → Prop
  | ok {a : α} {b : β} (h : R a b) : Both R (.ok a) (.ok b)
  | err (e : ε) : Both R (.err e) (.err e)
  | ub (u : UB) : Both R (.ub u) (.ub u)

section rules
variable {ε α β α' β' : Type} {R : α → β → Prop}

theorem Both.bind {x : C ε α} {y : C ε β} {f : α → C ε α'} {g : β → C ε β'} {Q : α' → β' → Prop} (h : Both R x y)
    (hf : ∀ a b, R a b → Both Q (f a) (g b)) : Both Q (x >>= f) (y >>= g) := by
  cases h with
  | ok h => exact hf _ _ h
  | err e => exact .err e
  | ub u => exact .ub u

theorem Both.pure {a : α} {b : β} (h : R a b) : Both R (Pure.pure a : C ε α) (Pure.pure b) := .ok h

theorem Both.refl {x : C ε α} {R : α → α → Prop} (h : ∀ a, x = .ok a → R a a) : Both R x x := by
  cases x with
  | ok a => exact .ok (h a rfl)
  | err e => exact .err e
  | ub u => exact .ub u

theorem Both.ite {c : Prop} [Decidable c] {x y : C ε α} {x' y' : C ε β} (h1 : c → Both R x x') (h2 : ¬ c → Both R y y') :
    Both R (if c then x else y) (if c then x' else y') := by
  split
  · exact h1 ‹_›
  · exact h2 ‹_›

theorem Both.orAbort {x : Res α} {y : Res β} (out : OutFile) (h : Both R x y) : Both R (orAbort out x) (orAbort out y) := by
  cases h with
  | ok h => exact .ok h
  | err e => exact .err _
  | ub u => exact .ub u

theorem Both.raise {line : Option Str} {e : Err} {bad : Option Nat} {fn : Str} {n : Nat} :
    Both R (Gaia.raise line e bad fn n) (Gaia.raise line e bad fn n) := by
  unfold Gaia.raise
  cases Gaia.printError line e bad fn n with
  | ok a => exact .err _
  | err e => exact .err _
  | ub u => exact .ub _

end rules

theorem gaia_insertSymbol_eq (t : SymTab) (label : Str) (v : Int) : Gaia.insertSymbol t label v = insertSymbol djb2 t label v := by
  have hr : ∀ (old new : Slots), Gaia.rehashAll old new = rehashAll djb2 old new := by
    intro old
    induction old with
    | nil => intro new; rfl
    | cons a old ih =>
      intro new
      cases a with
      | none => exact ih new
      | some sym =>
        show (Gaia.rehashOne new sym >>= fun new => Gaia.rehashAll old new) = (rehashOne djb2 new sym >>= fun new => rehashAll djb2 old new)
        simp only [ih]
        rfl
  have hs : ∀ t, Gaia.resizeSymbols t = resizeSymbols djb2 t := by
    intro t
    unfold Gaia.resizeSymbols resizeSymbols
    simp only [hr]
  unfold Gaia.insertSymbol insertSymbol
  rw [hs]
  rfl

theorem gaia_insert_size {t t' : SymTab} {label : Str} {v : Int} (h : Gaia.insertSymbol t label v = .ok t') : t'.size = grown t :=
  insertSymbol_size (hash := djb2) (by rw [← gaia_insertSymbol_eq]; exact h)

theorem searchSymbol_both {t t' : SymTab} (h : Rel hash t t') (label : Str) :
    Both (fun a b => a = b ∧ (a = Err.symbolNotFound.code → lookup t' label = none)) (searchSymbol hash t label) (Gaia.searchSymbol t' label) := by
  unfold searchSymbol Gaia.searchSymbol
  rw [searchOpt_eq h.inv, Gaia.searchOpt_eq h.inv', h.map]
  cases hl : lookup t' label with
  | none => exact .ok ⟨rfl, fun _ => rfl⟩
  | some v =>
    refine .ok ⟨rfl, fun hv => ?_⟩
    have := h.pos label v hl
    have hv : v = -2 := hv
    omega

theorem insertSymbol_both {t t' : SymTab} (h : Rel hash t t') (label : Str) {v : Int} (hv : 0 ≤ v) (habs : lookup t' label = none) :
    Both (Rel hash) (insertSymbol hash t label v) (Gaia.insertSymbol t' label v) := by
  by_cases hbig : (t.count + 1) * 100 ≤ INT_MAX
  · obtain ⟨t1, a1, a2, a3, a4⟩ := insertSymbol_spec h.inv label v hbig (by rw [h.map]; exact habs)
    obtain ⟨t2, b1, b2, b3, b4⟩ := Gaia.insertSymbol_spec h.inv' label v (by rw [← h.count]; exact hbig) habs
    rw [a1, b1]
    refine .ok ⟨a2, b2, ?_, by rw [a3, b3, h.count], ?_, ?_⟩
    · rw [insertSymbol_size a1, gaia_insert_size b1]
      unfold grown overLoaded
      rw [h.size, h.count]
    · intro x; rw [a4, b4, h.map]
    · intro x w hw
      rw [b4] at hw
      split at hw
      · cases hw; exact hv
      · exact h.pos x w hw
  · have e1 : insertSymbol hash t label v = .ub .signedOverflow := by unfold insertSymbol; rw [if_pos (by omega)]
    have e2 : Gaia.insertSymbol t' label v = .ub .signedOverflow := by unfold Gaia.insertSymbol; rw [if_pos (by rw [← h.count]; omega)]
    rw [e1, e2]
    exact .ub _

end Gaia.Hash

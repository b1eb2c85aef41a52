import Verif.Proofs.Prime
import Verif.Model.SymTab

/-! Linear probing: invariant of the symbol table and its refinement to a finite map. -/
namespace Gaia

abbrev Slots := List (Option Symbol)

/-- The symbols stored in the slots. -/
def entries (slots : Slots) : List Symbol := slots.filterMap id

theorem mem_entries {slots : Slots} {s : Symbol} : s ∈ entries slots ↔ some s ∈ slots := by
  simp [entries]

theorem entries_replicate (n : Nat) : entries (List.replicate n none) = [] := by
  induction n with
  | zero => rfl
  | succ n ih => simp [entries]

theorem entries_length_le (slots : Slots) : (entries slots).length ≤ slots.length := by
  unfold entries
  exact List.length_filterMap_le _ _

/-- A table with fewer symbols than slots has a free slot. -/
theorem exists_free {slots : Slots} (h : (entries slots).length < slots.length) :
    ∃ i : Nat, slots[i]? = some none := by
  by_contra hc
  push Not at hc
  have : ∀ slots : Slots, (∀ i : Nat, slots[i]? ≠ some none) → (entries slots).length = slots.length := by
    intro slots
    induction slots with
    | nil => intro _; rfl
    | cons a l ih =>
      intro h
      cases a with
      | none => exact absurd rfl (h 0)
      | some s =>
        have := ih (fun i => by simpa using h (i + 1))
        simp only [entries, List.filterMap_cons, id_eq, List.length_cons] at *
        omega
  have := this slots hc
  omega

theorem entries_set {slots : Slots} {i : Nat} (s : Symbol) (h : slots[i]? = some none) :
    (entries (slots.set i (some s))).Perm (s :: entries slots) := by
  induction slots generalizing i with
  | nil => simp at h
  | cons a l ih =>
    cases i with
    | zero =>
      simp only [List.getElem?_cons_zero, Option.some.injEq] at h
      subst h
      simp [entries]
    | succ i =>
      have h' : l[i]? = some none := by simpa using h
      have := ih h'
      cases a with
      | none => simpa [entries] using this
      | some b =>
        simp only [List.set_cons_succ, entries, List.filterMap_cons, id_eq] at *
        exact (this.cons b).trans (List.Perm.swap s b _)

theorem add_mod_step (h n d : Nat) : ((h + 1) % n + d) % n = (h + (d + 1)) % n := by
  rw [Nat.add_mod, Nat.mod_mod, ← Nat.add_mod]
  congr 1
  omega

/-- Probing for a free slot ends at the first free slot of the probe path. -/
theorem probeFree_spec (slots : Slots) : ∀ (fuel h : Nat), h < slots.length →
    (∃ d, d < fuel ∧ slots[(h + d) % slots.length]? = some none) →
    ∃ d, d < fuel ∧ probeFree slots fuel h = .ok ((h + d) % slots.length) ∧
      slots[(h + d) % slots.length]? = some none ∧
      ∀ k, k < d → ∃ s, slots[(h + k) % slots.length]? = some (some s) := by
  intro fuel
  induction fuel with
  | zero => rintro h _ ⟨d, hd, _⟩; omega
  | succ fuel ih =>
    rintro h hh ⟨d, hd, hfree⟩
    have hmod : h % slots.length = h := Nat.mod_eq_of_lt hh
    have hget : slots[h]? = some slots[h] := List.getElem?_eq_getElem hh
    unfold probeFree
    rw [hget]
    cases hs : slots[h] with
    | none =>
      refine ⟨0, by omega, ?_, ?_, by omega⟩
      · simp [hmod]
      · simp [hmod, hget, hs]
    | some s =>
      have hd0 : d ≠ 0 := by
        rintro rfl
        simp [hmod, hget, hs] at hfree
      have hpos : 0 < slots.length := by omega
      obtain ⟨d', hd', h1, h2, h3⟩ := ih ((h + 1) % slots.length) (Nat.mod_lt _ hpos)
        ⟨d - 1, by omega, by rw [add_mod_step, show d - 1 + 1 = d by omega]; exact hfree⟩
      rw [add_mod_step] at h1 h2
      refine ⟨d' + 1, by omega, h1, h2, ?_⟩
      intro k hk
      cases k with
      | zero => exact ⟨s, by simp [hmod, hget, hs]⟩
      | succ k =>
        obtain ⟨s', hs'⟩ := h3 k (by omega)
        rw [add_mod_step] at hs'
        exact ⟨s', hs'⟩

/-- Probing for a label that sits behind occupied slots finds a symbol with that label. -/
theorem probeLabel_hit (slots : Slots) (label : Str) : ∀ (fuel h d : Nat), h < slots.length → d < fuel →
    (∃ s, slots[(h + d) % slots.length]? = some (some s) ∧ s.label = label) →
    (∀ k, k < d → ∃ s, slots[(h + k) % slots.length]? = some (some s)) →
    ∃ s, s ∈ entries slots ∧ s.label = label ∧ probeLabel slots label fuel h = .ok (some s.value) := by
  intro fuel
  induction fuel with
  | zero => intro h d _ hd; omega
  | succ fuel ih =>
    intro h d hh hd hit path
    have hmod : h % slots.length = h := Nat.mod_eq_of_lt hh
    have hget : slots[h]? = some slots[h] := List.getElem?_eq_getElem hh
    have hpos : 0 < slots.length := by omega
    have hocc : ∃ s, slots[h]? = some (some s) := by
      cases d with
      | zero =>
        obtain ⟨s, hs, _⟩ := hit
        exact ⟨s, by simpa [hmod] using hs⟩
      | succ d =>
        obtain ⟨s, hs⟩ := path 0 (by omega)
        exact ⟨s, by simpa [hmod] using hs⟩
    obtain ⟨s, hs⟩ := hocc
    unfold probeLabel
    rw [hs]
    by_cases hl : label = s.label
    · simp only [if_pos hl]
      exact ⟨s, mem_entries.2 (List.mem_of_getElem? hs), hl.symm, rfl⟩
    · simp only [if_neg hl]
      cases d with
      | zero =>
        obtain ⟨s', hs', hl'⟩ := hit
        simp only [Nat.add_zero, hmod] at hs'
        rw [hs] at hs'
        cases hs'
        exact absurd hl'.symm hl
      | succ d =>
        refine ih ((h + 1) % slots.length) d (Nat.mod_lt _ hpos) (by omega) ?_ ?_
        · rw [add_mod_step]; exact hit
        · intro k hk
          rw [add_mod_step]
          exact path (k + 1) (by omega)

/-- Probing for an absent label ends with "not found" if there is a free slot ahead. -/
theorem probeLabel_miss (slots : Slots) (label : Str) (habs : ∀ s ∈ entries slots, s.label ≠ label) :
    ∀ (fuel h d : Nat), h < slots.length → d < fuel →
    slots[(h + d) % slots.length]? = some none → probeLabel slots label fuel h = .ok none := by
  intro fuel
  induction fuel with
  | zero => intro h d _ hd; omega
  | succ fuel ih =>
    intro h d hh hd hfree
    have hmod : h % slots.length = h := Nat.mod_eq_of_lt hh
    have hget : slots[h]? = some slots[h] := List.getElem?_eq_getElem hh
    have hpos : 0 < slots.length := by omega
    unfold probeLabel
    rw [hget]
    cases hs : slots[h] with
    | none => rfl
    | some s =>
      have hmem : s ∈ entries slots := mem_entries.2 (by rw [← hs]; exact List.getElem_mem hh)
      have hne : ¬ label = s.label := fun h => habs s hmem h.symm
      simp only [if_neg hne]
      cases d with
      | zero => simp [hmod, hget, hs] at hfree
      | succ d =>
        refine ih ((h + 1) % slots.length) d (Nat.mod_lt _ hpos) (by omega) ?_
        rw [add_mod_step]; exact hfree

/-- Every index is on the probe path of every start. -/
theorem on_path {n h j : Nat} (hh : h < n) (hj : j < n) : ∃ d, d < n ∧ (h + d) % n = j := by
  by_cases hle : h ≤ j
  · exact ⟨j - h, by omega, by rw [show h + (j - h) = j by omega]; exact Nat.mod_eq_of_lt hj⟩
  · refine ⟨n - h + j, by omega, ?_⟩
    rw [show h + (n - h + j) = j + n by omega, Nat.add_mod_right]
    exact Nat.mod_eq_of_lt hj

/-- Every stored symbol is reachable from its hash by occupied slots. -/
def PathInv (slots : Slots) : Prop :=
  ∀ (i : Nat) (s : Symbol), slots[i]? = some (some s) →
    ∃ d, d < slots.length ∧ i = (djb2 s.label % slots.length + d) % slots.length ∧
      ∀ k, k < d → ∃ s', slots[(djb2 s.label % slots.length + k) % slots.length]? = some (some s')

/-- The labels stored are pairwise different. -/
def Distinct (slots : Slots) : Prop := ((entries slots).map Symbol.label).Nodup

theorem PathInv_replicate (n : Nat) : PathInv (List.replicate n none) := by
  intro i s h
  rw [List.getElem?_replicate] at h
  split at h <;> simp at h

/-- Storing a symbol in the slot found by probing keeps the path invariant. -/
theorem place_spec {slots : Slots} (sym : Symbol) (hpath : PathInv slots)
    (hlen : (entries slots).length < slots.length) :
    ∃ i, probeFree slots slots.length (djb2 sym.label % slots.length) = .ok i ∧
      slots[i]? = some none ∧ PathInv (slots.set i (some sym)) := by
  have hpos : 0 < slots.length := by omega
  obtain ⟨j, hj⟩ := exists_free hlen
  have hjl : j < slots.length := by
    by_contra hc
    rw [List.getElem?_eq_none (by omega)] at hj
    cases hj
  have hh := Nat.mod_lt (djb2 sym.label) hpos
  obtain ⟨d0, hd0, hd0e⟩ := on_path hh hjl
  obtain ⟨d, hd, h1, h2, h3⟩ := probeFree_spec slots slots.length _ hh ⟨d0, hd0, by rw [hd0e]; exact hj⟩
  refine ⟨_, h1, h2, ?_⟩
  set i := (djb2 sym.label % slots.length + d) % slots.length with hi
  have hil : i < slots.length := Nat.mod_lt _ hpos
  -- occupied slots stay occupied
  have hocc : ∀ m : Nat, (∃ s, slots[m]? = some (some s)) →
      ∃ s, (slots.set i (some sym))[m]? = some (some s) := by
    rintro m ⟨s, hs⟩
    by_cases hm : i = m
    · exact ⟨sym, by rw [hm, List.getElem?_set_self (by omega)]⟩
    · exact ⟨s, by rw [List.getElem?_set_ne hm]; exact hs⟩
  intro m s hm
  simp only [List.length_set]
  by_cases hmi : i = m
  · rw [← hmi, List.getElem?_set_self hil] at hm
    cases hm
    exact ⟨d, hd, by rw [← hmi], fun k hk => hocc _ (h3 k hk)⟩
  · rw [List.getElem?_set_ne hmi] at hm
    obtain ⟨e, he, hme, hp⟩ := hpath m s hm
    exact ⟨e, he, hme, fun k hk => hocc _ (hp k hk)⟩

/-- The transfer loop keeps all symbols. -/
theorem rehashAll_spec : ∀ (old new : Slots), PathInv new →
    (entries old).length + (entries new).length < new.length →
    ∃ res, rehashAll old new = .ok res ∧ PathInv res ∧ res.length = new.length ∧
      (entries res).Perm (entries old ++ entries new) := by
  intro old
  induction old with
  | nil => intro new hp _; exact ⟨new, rfl, hp, rfl, by simp [entries]⟩
  | cons a old ih =>
    intro new hp hlen
    cases a with
    | none =>
      obtain ⟨res, h1, h2, h3, h4⟩ := ih new hp (by simpa [entries] using hlen)
      exact ⟨res, h1, h2, h3, by simpa [entries] using h4⟩
    | some sym =>
      have hlen' : (entries old).length + 1 + (entries new).length < new.length := by
        have : (entries (some sym :: old)).length = (entries old).length + 1 := by simp [entries]
        omega
      obtain ⟨i, h1, h2, h3⟩ := place_spec sym hp (by omega)
      have hperm := entries_set sym h2
      obtain ⟨res, r1, r2, r3, r4⟩ := ih (new.set i (some sym)) h3 (by
        rw [hperm.length_eq, List.length_set]
        simp only [List.length_cons]
        omega)
      refine ⟨res, ?_, r2, by simpa using r3, ?_⟩
      · simp only [rehashAll, rehashOne, h1, C.ok_bind, C.pure_eq]
        exact r1
      · have e1 : entries (some sym :: old) = sym :: entries old := by simp [entries]
        rw [e1]
        refine r4.trans ((List.Perm.append_left _ hperm).trans ?_)
        exact List.perm_middle

/-- Invariant of the symbol table. -/
structure TabInv (t : SymTab) : Prop where
  path : PathInv t.symbols
  distinct : Distinct t.symbols
  count : t.count = (entries t.symbols).length
  load : t.count * 100 < 51 * t.size
  sizeLe : t.size ≤ max 17 (8 * t.count)
  prime : Nat.Prime t.size

theorem TabInv.pos {t : SymTab} (h : TabInv t) : 0 < t.size := by
  have := h.load
  omega

theorem TabInv.countLt {t : SymTab} (h : TabInv t) : (entries t.symbols).length < t.symbols.length := by
  have h1 := h.load
  have h2 := h.count
  have h3 : t.size = t.symbols.length := rfl
  omega

theorem TabInv_init : TabInv initSymbolTable where
  path := PathInv_replicate _
  distinct := by simp [Distinct, initSymbolTable, entries_replicate]
  count := by simp [initSymbolTable, entries_replicate]
  load := by decide
  sizeLe := by decide
  prime := by
    have : Nat.Prime 17 := by norm_num
    exact this

/-- The finite map a table stands for. -/
def lookup (t : SymTab) (label : Str) : Option Int :=
  ((entries t.symbols).find? (·.label = label)).map Symbol.value

theorem nodup_unique {l : List Symbol} (h : (l.map Symbol.label).Nodup) {a b : Symbol} (ha : a ∈ l)
    (hb : b ∈ l) (he : a.label = b.label) : a = b := List.inj_on_of_nodup_map h ha hb he

theorem lookup_some {t : SymTab} (h : Distinct t.symbols) {label : Str} {v : Int} :
    lookup t label = some v ↔ (⟨label, v⟩ : Symbol) ∈ entries t.symbols := by
  unfold lookup
  constructor
  · intro hl
    simp only [Option.map_eq_some_iff] at hl
    obtain ⟨s, hs, hv⟩ := hl
    have h1 := List.mem_of_find?_eq_some hs
    have h2 := List.find?_some hs
    simp only [decide_eq_true_eq] at h2
    cases s
    simp_all
  · intro hm
    cases hf : (entries t.symbols).find? (·.label = label) with
    | none =>
      rw [List.find?_eq_none] at hf
      exact absurd (by simp) (hf _ hm)
    | some s =>
      have h1 := List.mem_of_find?_eq_some hf
      have h2 := List.find?_some hf
      simp only [decide_eq_true_eq] at h2
      have := nodup_unique h h1 hm h2
      simp [this]

theorem lookup_none {t : SymTab} {label : Str} :
    lookup t label = none ↔ ∀ s ∈ entries t.symbols, s.label ≠ label := by
  unfold lookup
  simp [List.find?_eq_none]

/-- The part of the invariant that searching needs. -/
structure SearchInv (t : SymTab) : Prop where
  path : PathInv t.symbols
  distinct : Distinct t.symbols
  count : t.count = (entries t.symbols).length
  load : t.count * 100 < 51 * t.size

theorem SearchInv.pos {t : SymTab} (h : SearchInv t) : 0 < t.size := by
  have := h.load
  omega

theorem SearchInv.countLt {t : SymTab} (h : SearchInv t) : (entries t.symbols).length < t.symbols.length := by
  have h1 := h.load
  have h2 := h.count
  have h3 : t.size = t.symbols.length := rfl
  omega

/-- Searching is looking up in the finite map. -/
theorem searchOpt_eq' {t : SymTab} (h : SearchInv t) (label : Str) : searchOpt t label = .ok (lookup t label) := by
  have hpos := h.pos
  have hh : djb2 label % t.size < t.symbols.length := Nat.mod_lt _ hpos
  unfold searchOpt
  cases hl : lookup t label with
  | none =>
    obtain ⟨j, hj⟩ := exists_free h.countLt
    have hjl : j < t.symbols.length := by
      by_contra hc
      rw [List.getElem?_eq_none (by omega)] at hj
      cases hj
    obtain ⟨d, hd, hde⟩ := on_path hh hjl
    exact probeLabel_miss t.symbols label (lookup_none.1 hl) t.size _ d hh hd (by rw [hde]; exact hj)
  | some v =>
    have hm := (lookup_some h.distinct).1 hl
    rw [mem_entries] at hm
    obtain ⟨i, hi⟩ := List.getElem?_of_mem hm
    obtain ⟨d, hd, hie, hp⟩ := h.path i _ hi
    obtain ⟨s, hs, hsl, hr⟩ := probeLabel_hit t.symbols label t.size (djb2 label % t.size) d hh hd
      ⟨⟨label, v⟩, by rw [hie] at hi; exact hi, rfl⟩ hp
    rw [hr]
    have := nodup_unique h.distinct hs ((lookup_some h.distinct).1 hl) hsl
    rw [this]

theorem searchOpt_eq {t : SymTab} (h : TabInv t) (label : Str) : searchOpt t label = .ok (lookup t label) :=
  searchOpt_eq' ⟨h.path, h.distinct, h.count, h.load⟩ label

theorem lookup_congr {t t' : SymTab} (h : Distinct t.symbols) (hp : (entries t'.symbols).Perm (entries t.symbols))
    (label : Str) : lookup t' label = lookup t label := by
  have h' : Distinct t'.symbols := by
    unfold Distinct at *
    exact (hp.map _).nodup_iff.2 h
  ext v
  rw [lookup_some h, lookup_some h', hp.mem_iff]

/-- Growing keeps the invariant (except that the load drops) and the contents. -/
theorem resize_spec {t : SymTab} (h : TabInv t) (hbig : t.size * 4 ≤ INT_MAX) :
    ∃ t', resizeSymbols t = .ok t' ∧ PathInv t'.symbols ∧ t'.count = t.count ∧
      (entries t'.symbols).Perm (entries t.symbols) ∧ Nat.Prime t'.size ∧ 2 * t.size < t'.size ∧
      t'.size ≤ 4 * t.size := by
  have hpos := h.pos
  obtain ⟨q, h1, h2, h3, h4, _⟩ := nextPrime_bound (t.size * 2) (by omega) (by omega)
  have hlt := h.countLt
  have hsz : t.size = t.symbols.length := rfl
  obtain ⟨res, r1, r2, r3, r4⟩ := rehashAll_spec t.symbols (List.replicate q none) (PathInv_replicate q) (by
    rw [entries_replicate, List.length_replicate]
    simp only [List.length_nil]
    omega)
  rw [List.length_replicate] at r3
  refine ⟨{ t with symbols := res }, ?_, r2, rfl, ?_, ?_, ?_, ?_⟩
  · unfold resizeSymbols
    rw [if_neg (by omega), h1]
    simp only [C.ok_bind, r1, C.pure_eq]
  · simpa [entries_replicate] using r4
  · show Nat.Prime res.length
    rw [r3]; exact h2
  · show 2 * t.size < res.length
    omega
  · show res.length ≤ 4 * t.size
    omega

theorem place_tab_spec {t : SymTab} (label : Str) (value : Int) (hp : PathInv t.symbols)
    (hd : Distinct t.symbols) (hc : t.count = (entries t.symbols).length)
    (hlt : (entries t.symbols).length < t.symbols.length) (habs : lookup t label = none) :
    ∃ t', placeSymbol t label value = .ok t' ∧ PathInv t'.symbols ∧ Distinct t'.symbols ∧
      t'.count = t.count + 1 ∧ t'.count = (entries t'.symbols).length ∧ t'.size = t.size ∧
      (entries t'.symbols).Perm (⟨label, value⟩ :: entries t.symbols) := by
  obtain ⟨i, h1, h2, h3⟩ := place_spec ⟨label, value⟩ hp hlt
  have hperm := entries_set ⟨label, value⟩ h2
  refine ⟨⟨t.symbols.set i (some ⟨label, value⟩), t.count + 1⟩, ?_, h3, ?_, rfl, ?_, ?_, hperm⟩
  · unfold placeSymbol
    have h1' : probeFree t.symbols t.size (djb2 label % t.size) = .ok i := h1
    rw [h1']
    rfl
  · unfold Distinct
    rw [(hperm.map _).nodup_iff]
    simp only [List.map_cons, List.nodup_cons]
    refine ⟨?_, hd⟩
    intro hm
    obtain ⟨s, hs, hsl⟩ := List.mem_map.1 hm
    exact lookup_none.1 habs s hs hsl
  · simp only [hperm.length_eq, List.length_cons]
    omega
  · simp [SymTab.size]

theorem lookup_insert {t t' : SymTab} {label : Str} {value : Int} (hd : Distinct t.symbols)
    (hd' : Distinct t'.symbols)
    (hperm : (entries t'.symbols).Perm (⟨label, value⟩ :: entries t.symbols)) (x : Str) :
    lookup t' x = if x = label then some value else lookup t x := by
  by_cases hx : x = label
  · subst hx
    rw [if_pos rfl, lookup_some hd', hperm.mem_iff]
    simp
  · rw [if_neg hx]
    ext v
    rw [lookup_some hd', lookup_some hd, hperm.mem_iff]
    simp [hx]

/-- Inserting an absent label: the map gains exactly that binding. -/
theorem insertSymbol_spec {t : SymTab} (h : TabInv t) (label : Str) (value : Int)
    (hbig : (t.count + 1) * 100 ≤ INT_MAX) (habs : lookup t label = none) :
    ∃ t', insertSymbol t label value = .ok t' ∧ TabInv t' ∧ t'.count = t.count + 1 ∧
      ∀ x, lookup t' x = if x = label then some value else lookup t x := by
  have hpos := h.pos
  unfold insertSymbol
  rw [if_neg (by omega)]
  by_cases hov : overLoaded t = true
  · rw [if_pos hov]
    unfold overLoaded at hov
    simp only [gt_iff_lt, decide_eq_true_eq] at hov
    have hsz : t.size * 51 ≤ (t.count + 1) * 100 := by
      have := (Nat.le_div_iff_mul_le hpos).1 hov
      omega
    have hmax : INT_MAX = 2147483647 := rfl
    obtain ⟨t1, r1, r2, r3, r4, r5, r6, r7⟩ := resize_spec h (by omega)
    have hd1 : Distinct t1.symbols := by
      unfold Distinct
      exact (r4.map _).nodup_iff.2 h.distinct
    have hl1 : ∀ x, lookup t1 x = lookup t x := lookup_congr h.distinct r4
    have hc := h.count
    have hlt := h.countLt
    have e1 : t1.size = t1.symbols.length := rfl
    have e0 : t.size = t.symbols.length := rfl
    have hlen := r4.length_eq
    obtain ⟨t2, p1, p2, p3, p4, p5, p6, p7⟩ := place_tab_spec (t := t1) label value r2 hd1
      (by omega) (by omega) (by rw [hl1]; exact habs)
    refine ⟨t2, ?_, ?_, by omega, ?_⟩
    · rw [r1]
      exact p1
    · have hl := h.load
      refine ⟨p2, p3, p5, ?_, ?_, ?_⟩
      · omega
      · omega
      · rw [p6]; exact r5
    · intro x
      rw [lookup_insert hd1 p3 p7, hl1]
  · rw [if_neg hov]
    unfold overLoaded at hov
    simp only [gt_iff_lt, decide_eq_true_eq, not_lt] at hov
    have hc := h.count
    have hlt := h.countLt
    have hload : (t.count + 1) * 100 < 51 * t.size := by
      have := (Nat.div_lt_iff_lt_mul hpos).1 (Nat.lt_succ_of_le hov)
      omega
    obtain ⟨t2, p1, p2, p3, p4, p5, p6, p7⟩ := place_tab_spec label value h.path h.distinct
      h.count hlt habs
    refine ⟨t2, ?_, ?_, by omega, fun x => lookup_insert h.distinct p3 p7 x⟩
    · exact p1
    · have hs := h.sizeLe
      exact ⟨p2, p3, p5, by omega, by omega, by rw [p6]; exact h.prime⟩

end Gaia

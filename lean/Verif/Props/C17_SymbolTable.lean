import Verif.Proofs.SymTab

/-!
C17, C18, C38: the symbol table.

Specification: a history is a list of (label, value) pairs inserted in order; looking up a label in the history is
`List.lookup`. No hash, slot or probe appears in the statements.
-/
namespace Gaia

/-- Insert a history of symbols, oldest first, into a table. -/
def insertHistory : List (Str × Int) → SymTab → Res SymTab
  | [], t => .ok t
  | (l, v) :: rest, t => do
    let t ← insertSymbol t l v
    insertHistory rest t

/-- The labels of a history are pairwise different. -/
def DistinctLabels (hist : List (Str × Int)) : Prop := (hist.map Prod.fst).Nodup

theorem insertHistory_spec : ∀ (hist : List (Str × Int)) (t : SymTab), TabInv t → DistinctLabels hist →
    (∀ p ∈ hist, lookup t p.1 = none) → (t.count + hist.length) * 100 ≤ INT_MAX →
    ∃ t', insertHistory hist t = .ok t' ∧ TabInv t' ∧ t'.count = t.count + hist.length ∧
      ∀ x, lookup t' x = match hist.lookup x with | some v => some v | none => lookup t x := by
  intro hist
  induction hist with
  | nil => intro t h _ _ _; exact ⟨t, rfl, h, rfl, fun x => rfl⟩
  | cons p hist ih =>
    obtain ⟨l, v⟩ := p
    intro t h hd habs hlen
    simp only [List.length_cons] at hlen
    obtain ⟨t1, h1, h2, h3, h4⟩ := insertSymbol_spec h l v (by omega) (habs (l, v) (by simp))
    unfold DistinctLabels at hd
    simp only [List.map_cons, List.nodup_cons] at hd
    have hne : ∀ p ∈ hist, p.1 ≠ l := fun p hp he => hd.1 (List.mem_map.2 ⟨p, hp, he⟩)
    obtain ⟨t2, r1, r2, r3, r4⟩ := ih t1 h2 hd.2 (fun p hp => by
      rw [h4, if_neg (hne p hp)]
      exact habs p (by simp [hp])) (by omega)
    refine ⟨t2, ?_, r2, ?_, ?_⟩
    · simp only [insertHistory, h1, C.ok_bind]
      exact r1
    · simp only [List.length_cons]; omega
    · intro x
      rw [r4, h4]
      by_cases hx : x = l
      · subst hx
        have hnone : hist.lookup x = none := by
          rw [List.lookup_eq_none_iff]
          intro p hp
          simpa using (hne p hp).symm
        rw [hnone]
        simp
      · simp [hx, List.lookup_cons, beq_eq_false_iff_ne.2 hx]

/-- The most symbols for which `(count + 1) * 100` still fits an `int` (symbol_table.c:170). -/
def MAX_SYMBOLS : Nat := 21474836

/-- **C17.** After inserting any history of distinct labels into a fresh table, the search for any label answers
with the value it was inserted with, or "not found" if it was not inserted. -/
theorem C17_symbolTable_is_finite_map (hist : List (Str × Int)) (hd : DistinctLabels hist)
    (hlen : hist.length ≤ MAX_SYMBOLS) :
    ∃ t, insertHistory hist initSymbolTable = .ok t ∧ ∀ label, searchOpt t label = .ok (hist.lookup label) := by
  have h0 : initSymbolTable.count = 0 := rfl
  have hm : MAX_SYMBOLS * 100 ≤ INT_MAX := by decide
  have hnone : ∀ x, lookup initSymbolTable x = none := by
    intro x
    rw [lookup_none]
    intro s hs
    simp [initSymbolTable, entries_replicate] at hs
  obtain ⟨t, h1, h2, h3, h4⟩ := insertHistory_spec hist initSymbolTable TabInv_init hd
    (fun p _ => hnone _) (by omega)
  refine ⟨t, h1, fun label => ?_⟩
  rw [searchOpt_eq h2, h4, hnone]
  cases hist.lookup label <;> rfl

/-- **C17**, as the C function reports it: the `int` it returns is the value, or -2. -/
theorem C17_searchSymbol_value (hist : List (Str × Int)) (hd : DistinctLabels hist)
    (hlen : hist.length ≤ MAX_SYMBOLS) :
    ∃ t, insertHistory hist initSymbolTable = .ok t ∧
      ∀ label, searchSymbol t label = .ok ((hist.lookup label).getD (-2)) := by
  obtain ⟨t, h1, h2⟩ := C17_symbolTable_is_finite_map hist hd hlen
  refine ⟨t, h1, fun label => ?_⟩
  unfold searchSymbol
  rw [h2]
  cases hist.lookup label <;> rfl

/-- **C18.** In every reachable table the symbol count is the number of insertions, the number of slots is prime,
strictly more slots exist than symbols (a load of at most 50 per cent, rounded down), and so every search and
every further insertion terminates inside the table. -/
theorem C18_probing_terminates (hist : List (Str × Int)) (hd : DistinctLabels hist)
    (hlen : hist.length < MAX_SYMBOLS) :
    ∃ t, insertHistory hist initSymbolTable = .ok t ∧ t.count = hist.length ∧ Nat.Prime t.size ∧
      t.count * 100 / t.size ≤ 50 ∧ t.count = (t.symbols.filter Option.isSome).length ∧
      t.size ≤ max 17 (8 * t.count) ∧
      (∀ label, (searchOpt t label).safe) ∧
      (∀ label v, hist.lookup label = none → (insertSymbol t label v).safe) := by
  have h0 : initSymbolTable.count = 0 := rfl
  have hm : MAX_SYMBOLS * 100 ≤ INT_MAX := by decide
  have hnone : ∀ x, lookup initSymbolTable x = none := by
    intro x
    rw [lookup_none]
    intro s hs
    simp [initSymbolTable, entries_replicate] at hs
  obtain ⟨t, h1, h2, h3, h4⟩ := insertHistory_spec hist initSymbolTable TabInv_init hd
    (fun p _ => hnone _) (by omega)
  refine ⟨t, h1, by omega, h2.prime, ?_, ?_, h2.sizeLe, ?_, ?_⟩
  · have := h2.load
    have hp := h2.pos
    have : t.count * 100 / t.size < 51 := (Nat.div_lt_iff_lt_mul hp).2 this
    omega
  · rw [h2.count]
    unfold entries
    clear h1 h2 h3 h4
    induction t.symbols with
    | nil => rfl
    | cons a l ih => cases a <;> simpa using ih
  · intro label
    rw [searchOpt_eq h2]
    trivial
  · intro label v hl
    obtain ⟨t', h', _⟩ := insertSymbol_spec h2 label v (by omega) (by rw [h4, hl]; exact hnone _)
    rw [h']
    trivial

/-- **C38.** Whatever allocation fails during an insertion into a reachable table (`growOk`, `symOk` are the
outcomes of the two allocations), the call returns normally, and unless both needed allocations succeeded it reports
failure and leaves every lookup as it was; the count still counts the symbols. When it reports success the
new binding was added. -/
theorem C38_failed_allocation_harmless (hist : List (Str × Int)) (hd : DistinctLabels hist)
    (hlen : hist.length < MAX_SYMBOLS) (growOk symOk : Bool) (label : Str) (value : Int)
    (hnew : hist.lookup label = none) :
    ∃ t, insertHistory hist initSymbolTable = .ok t ∧
      ∃ t' success, insertSymbolAlloc growOk symOk t label value = .ok (t', success) ∧
        (symOk = false → success = false) ∧
        (growOk = true → symOk = true → success = true) ∧
        (success = false → t'.count = t.count ∧ ∀ x, searchOpt t' x = .ok (hist.lookup x)) ∧
        (success = true → t'.count = t.count + 1 ∧
          ∀ x, searchOpt t' x = .ok (if x = label then some value else hist.lookup x)) := by
  have h0 : initSymbolTable.count = 0 := rfl
  have hm : MAX_SYMBOLS * 100 ≤ INT_MAX := by decide
  have hnone : ∀ x, lookup initSymbolTable x = none := by
    intro x
    rw [lookup_none]
    intro s hs
    simp [initSymbolTable, entries_replicate] at hs
  obtain ⟨t, h1, h2, h3, h4⟩ := insertHistory_spec hist initSymbolTable TabInv_init hd
    (fun p _ => hnone _) (by omega)
  have h4' : ∀ x, lookup t x = hist.lookup x := by
    intro x; rw [h4, hnone]; cases hist.lookup x <;> rfl
  refine ⟨t, h1, ?_⟩
  have hpos := h2.pos
  have hsz : overLoaded t = true → t.size * 4 ≤ INT_MAX := by
    intro hov
    unfold overLoaded at hov
    simp only [gt_iff_lt, decide_eq_true_eq] at hov
    have := (Nat.le_div_iff_mul_le hpos).1 hov
    have hmax : INT_MAX = 2147483647 := rfl
    omega
  unfold insertSymbolAlloc
  rw [if_neg (by omega)]
  by_cases hfail : (overLoaded t && !growOk) = true
  · rw [if_pos hfail]
    simp only [Bool.and_eq_true, Bool.not_eq_true'] at hfail
    have := hsz hfail.1
    rw [if_neg (by omega)]
    obtain ⟨q, hq, _⟩ := nextPrime_bound (t.size * 2) (by omega) (by omega)
    refine ⟨t, false, by simp [hq], fun _ => rfl, ?_, fun _ => ⟨rfl, fun x => ?_⟩, by simp⟩
    · intro hg; rw [hg] at hfail; simp at hfail
    · rw [searchOpt_eq h2, h4']
  · rw [if_neg hfail]
    cases symOk with
    | false =>
      by_cases hov : overLoaded t = true
      · obtain ⟨t1, r1, r2, r3, r4, r5, r6, r7⟩ := resize_spec h2 (hsz hov)
        refine ⟨t1, false, by simp [hov, r1], fun _ => rfl, by simp, fun _ => ⟨r3, fun x => ?_⟩, by simp⟩
        have hd1 : Distinct t1.symbols := (r4.map _).nodup_iff.2 h2.distinct
        have hl := h2.load
        have hc := h2.count
        have hle := r4.length_eq
        have hs := h2.sizeLe
        -- the grown table has the invariant apart from the size bound, which searching does not need
        have hpos1 : 0 < t1.size := by omega
        have : searchOpt t1 x = .ok (lookup t1 x) := by
          refine searchOpt_eq' ⟨r2, hd1, by omega, ?_⟩ x
          omega
        rw [this, lookup_congr h2.distinct r4, h4']
      · refine ⟨t, false, by simp [hov], fun _ => rfl, by simp, fun _ => ⟨rfl, fun x => ?_⟩, by simp⟩
        rw [searchOpt_eq h2, h4']
    | true =>
      obtain ⟨t2, i1, i2, i3, i4⟩ := insertSymbol_spec h2 label value (by omega) (by rw [h4']; exact hnew)
      unfold insertSymbol at i1
      rw [if_neg (by omega)] at i1
      refine ⟨t2, true, ?_, by simp, fun _ _ => rfl, by simp, fun _ => ⟨i3, fun x => ?_⟩⟩
      · by_cases hov : overLoaded t = true
        · simp only [hov, if_true, C.bind_eq_ok] at i1
          obtain ⟨t1, e1, e2⟩ := i1
          simp [hov, e1, e2]
        · simp only [hov, C.pure_eq, C.ok_bind] at i1
          simp only [hov, C.pure_eq, C.ok_bind]
          simp at i1
          simp [i1]
      · rw [searchOpt_eq i2, i4, h4']

/-- Non-vacuity: a history of 20 distinct labels forces two growths (17 → 37 → 79); looking up works. -/
def sampleHistory : List (Str × Int) := (List.range 20).map fun n => ([UInt8.ofNat (65 + n)], (n : Int))

example : DistinctLabels sampleHistory ∧ sampleHistory.length < MAX_SYMBOLS ∧
    sampleHistory.lookup (b! "ZZ") = none ∧ sampleHistory.lookup (b! "C") = some 2 := by
  unfold DistinctLabels; decide +kernel

end Gaia

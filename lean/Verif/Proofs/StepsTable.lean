import Verif.Proofs.Steps

/-! How many iterations the loops of the symbol table take. -/
namespace Gaia.Steps
open Gaia

theorem entries_append (a b : Slots) : entries (a ++ b) = entries a ++ entries b := by simp [entries]

/-- Probing from slot `h` on passes occupied slots only, each at most once. -/
theorem rot_step {slots : Slots} {h fuel : Nat} (hh : h < slots.length) (hf : fuel + 1 ≤ slots.length) {s : Symbol}
    (hs : slots[h]? = some (some s)) :
    (entries ((slots.rotate h).take (fuel + 1))).length = 1 + (entries ((slots.rotate ((h + 1) % slots.length)).take fuel)).length := by
  have hg : slots[h] = some s := by rw [List.getElem?_eq_getElem hh] at hs; exact Option.some.inj hs
  have e1 : slots.rotate h = some s :: (slots.drop (h + 1) ++ slots.take h) := by
    rw [List.rotate_eq_drop_append_take (le_of_lt hh), List.drop_eq_getElem_cons hh, hg]
    rfl
  have e2 : slots.rotate ((h + 1) % slots.length) = (slots.drop (h + 1) ++ slots.take h) ++ [some s] := by
    rw [List.rotate_mod, List.rotate_eq_drop_append_take (by omega), List.take_succ_eq_append_getElem hh, hg, List.append_assoc]
  have hl : fuel ≤ (slots.drop (h + 1) ++ slots.take h).length := by
    simp only [List.length_append, List.length_drop, List.length_take]
    omega
  rw [e1, e2, List.take_append_of_le_length hl, List.take_succ_cons]
  simp only [entries, List.filterMap_cons, id_eq, List.length_cons]
  omega

theorem rot_le (slots : Slots) (h fuel : Nat) : (entries ((slots.rotate h).take fuel)).length ≤ (entries slots).length := by
  have h1 : (entries ((slots.rotate h).take fuel)).length ≤ (entries (slots.rotate h)).length :=
    ((List.take_sublist fuel (slots.rotate h)).filterMap id).length_le
  have h2 : (entries (slots.rotate h)).length = (entries slots).length := ((List.rotate_perm slots h).filterMap id).length_eq
  omega

theorem probeFree_steps' (slots : Slots) : ∀ fuel h, h < slots.length → fuel ≤ slots.length →
    (probeFree slots fuel h).steps ≤ (entries ((slots.rotate h).take fuel)).length := by
  intro fuel
  induction fuel with
  | zero => intro h _ _; simp [probeFree]
  | succ fuel ih =>
    intro h hh hf
    unfold probeFree
    match hs : slots[h]? with
    | none => simp
    | some none => simp
    | some (some s) =>
      rw [rot_step hh hf hs, steps_tick]
      have := ih ((h + 1) % slots.length) (Nat.mod_lt _ (by omega)) (by omega)
      omega

/-- Looking for a free slot passes at most as many slots as there are symbols. -/
theorem probeFree_steps (slots : Slots) (x : Nat) : (probeFree slots slots.length (x % slots.length)).steps ≤ (entries slots).length := by
  rcases Nat.eq_zero_or_pos slots.length with h0 | h0
  · rw [h0]; simp [probeFree]
  · exact (probeFree_steps' slots _ _ (Nat.mod_lt _ h0) le_rfl).trans (rot_le _ _ _)

theorem probeLabel_steps' (slots : Slots) (label : Str) : ∀ fuel h, h < slots.length → fuel ≤ slots.length →
    (probeLabel slots label fuel h).steps ≤ (entries ((slots.rotate h).take fuel)).length := by
  intro fuel
  induction fuel with
  | zero => intro h _ _; simp [probeLabel]
  | succ fuel ih =>
    intro h hh hf
    unfold probeLabel
    match hs : slots[h]? with
    | none => simp
    | some none => simp
    | some (some s) =>
      rw [rot_step hh hf hs, steps_tick]
      have := ih ((h + 1) % slots.length) (Nat.mod_lt _ (by omega)) (by omega)
      split
      · simp
      · omega

/-- Looking for a label inspects at most as many symbols as there are. -/
theorem probeLabel_steps (slots : Slots) (label : Str) (x : Nat) :
    (probeLabel slots label slots.length (x % slots.length)).steps ≤ (entries slots).length := by
  rcases Nat.eq_zero_or_pos slots.length with h0 | h0
  · rw [h0]; simp [probeLabel]
  · exact (probeLabel_steps' slots label _ _ (Nat.mod_lt _ h0) le_rfl).trans (rot_le _ _ _)

theorem probeFree_ok {slots : Slots} : ∀ {fuel h i : Nat}, Gaia.probeFree slots fuel h = .ok i → slots[i]? = some none := by
  intro fuel
  induction fuel with
  | zero => intro h i e; cases e
  | succ fuel ih =>
    intro h i e
    unfold Gaia.probeFree at e
    match hs : slots[h]? with
    | none => rw [hs] at e; cases e
    | some none => rw [hs] at e; cases e; exact hs
    | some (some s) => rw [hs] at e; exact ih e

theorem rehashOne_ok {slots new : Slots} {sym : Symbol} (h : Gaia.rehashOne slots sym = .ok new) :
    new.length = slots.length ∧ (entries new).length = (entries slots).length + 1 := by
  unfold Gaia.rehashOne at h
  rw [C.bind_eq_ok] at h
  obtain ⟨i, hi, h⟩ := h
  cases h
  refine ⟨by simp, ?_⟩
  have := (entries_set sym (probeFree_ok hi)).length_eq
  simpa using this

/-- Moving the symbols to a new array. -/
theorem rehashAll_steps : ∀ (old new : Slots) (N : Nat), (∀ s ∈ entries old, s.label.length ≤ 63) →
    (entries new).length + (entries old).length ≤ N →
    (rehashAll old new).steps ≤ old.length + (entries old).length * (63 + N) := by
  intro old
  induction old with
  | nil => intro new N _ _; simp [rehashAll]
  | cons a old ih =>
    intro new N hl hN
    cases a with
    | none =>
      unfold rehashAll
      rw [steps_tick]
      have he : entries (none :: old) = entries old := by simp [entries]
      rw [he] at hl hN ⊢
      have := ih new N hl hN
      simp only [List.length_cons]
      omega
    | some sym =>
      have he : entries (some sym :: old) = sym :: entries old := by simp [entries]
      rw [he] at hl hN ⊢
      simp only [List.length_cons] at hN ⊢
      unfold rehashAll
      rw [steps_tick]
      have h1 : (rehashOne new sym).steps ≤ 63 + N := by
        unfold rehashOne
        rw [steps_tick]
        have e1 : hashSteps sym.label ≤ 63 := hl sym (by simp)
        have e2 := probeFree_steps new (djb2 sym.label)
        have e3 := steps_bind_le (f := fun h => (pure (new.set h (some sym)) : T Fail Slots)) e2 (m := 0) (fun _ _ => by simp)
        omega
      have h2 := steps_bind_le (f := fun n => rehashAll old n) h1 (m := old.length + (entries old).length * (63 + N)) (by
        intro n hn
        rw [rehashOne_result] at hn
        have := rehashOne_ok hn
        exact ih n N (fun s hs => hl s (by simp [hs])) (by omega))
      have e : ((entries old).length + 1) * (63 + N) = (entries old).length * (63 + N) + (63 + N) := by ring
      omega

theorem isPrimeLoopSteps_le (x : Nat) : ∀ fuel i, isPrimeLoopSteps x fuel i ≤ Nat.sqrt x + 1 - i := by
  intro fuel
  induction fuel with
  | zero => intro i; simp [isPrimeLoopSteps]
  | succ fuel ih =>
    intro i
    unfold isPrimeLoopSteps
    split
    · split
      · omega
      · have := ih (i + 2)
        omega
    · omega

theorem isPrimeSteps_le (x : Nat) : isPrimeSteps x ≤ Nat.sqrt x := by
  unfold isPrimeSteps
  have := isPrimeLoopSteps_le x x 3
  repeat' split
  all_goals omega

theorem nextPrimeLoop_steps {p : Nat} (hp : Nat.Prime p) : ∀ fuel x, x < p →
    (nextPrimeLoop fuel x).steps ≤ (p - x) * (1 + Nat.sqrt p) := by
  intro fuel
  induction fuel with
  | zero => intro x _; simp [nextPrimeLoop]
  | succ fuel ih =>
    intro x hx
    unfold nextPrimeLoop
    split
    · simp
    · rw [steps_tick]
      have h1 := isPrimeSteps_le (x + 1)
      have h2 : Nat.sqrt (x + 1) ≤ Nat.sqrt p := Nat.sqrt_le_sqrt (by omega)
      obtain ⟨d, hd⟩ : ∃ d, p - x = d + 1 := ⟨p - x - 1, by omega⟩
      have e : (p - x) * (1 + Nat.sqrt p) = d * (1 + Nat.sqrt p) + (1 + Nat.sqrt p) := by rw [hd]; ring
      rw [e]
      split
      · rw [steps_pure]
        have : 0 ≤ d * (1 + Nat.sqrt p) := Nat.zero_le _
        omega
      · rename_i hnp
        have hne : x + 1 ≠ p := by
          rintro rfl
          exact hnp ((isPrime_iff _).2 hp)
        have h3 := ih (x + 1) (by omega)
        have : p - (x + 1) = d := by omega
        rw [this] at h3
        omega

/-- The invariant: how full the table is, and how long its labels are. -/
structure W (t : SymTab) : Prop where
  count : t.count = (entries t.symbols).length
  load : t.count * 100 < 51 * t.size
  big : 17 ≤ t.size
  sizeLe : t.size ≤ max 17 (8 * t.count)
  labels : ∀ s ∈ entries t.symbols, s.label.length ≤ 63

theorem W_init : W initSymbolTable := by
  refine ⟨by decide, by decide, by decide, by decide, ?_⟩
  intro s hs
  have : entries initSymbolTable.symbols = [] := by decide
  rw [this] at hs
  cases hs

theorem searchSymbol_steps {t : SymTab} (h : W t) {label : Str} (hl : label.length ≤ 63) :
    (searchSymbol t label).steps ≤ 63 + t.count := by
  unfold searchSymbol
  rw [steps_tick]
  have e := probeLabel_steps t.symbols label (djb2 label)
  have hc := h.count
  rw [hc]
  exact Nat.add_le_add hl (steps_bind_le e (m := 0) (fun a _ => by cases a <;> simp))

/-- Growing: at most seven times the square of the old size. -/
theorem resizeSymbols_steps {t : SymTab} (h : W t) (hbig : t.size * 4 ≤ INT_MAX) :
    (resizeSymbols t).steps ≤ 7 * (t.size * t.size) ∧
    ∃ t', Gaia.resizeSymbols t = .ok t' ∧ t'.count = t.count ∧ (entries t'.symbols).Perm (entries t.symbols) ∧
      2 * t.size < t'.size ∧ t'.size ≤ 4 * t.size := by
  have h17 := h.big
  have hload := h.load
  have hc := h.count
  obtain ⟨q, h1, h2, h3, h4, _⟩ := nextPrime_bound (t.size * 2) (by omega) (by omega)
  have hsz : t.size = t.symbols.length := rfl
  obtain ⟨res, r1, r2, r3, r4⟩ := rehashAll_spec t.symbols (List.replicate q none) (PathInv_replicate q) (by
    rw [entries_replicate, List.length_replicate]
    simp only [List.length_nil]
    omega)
  rw [List.length_replicate] at r3
  have hok : Gaia.resizeSymbols t = .ok { t with symbols := res } := by
    unfold Gaia.resizeSymbols
    rw [if_neg (by omega), h1]
    simp only [C.ok_bind, r1, C.pure_eq]
  refine ⟨?_, { t with symbols := res }, hok, rfl, by simpa [entries_replicate] using r4, ?_, ?_⟩
  · unfold resizeSymbols
    rw [if_neg (by omega)]
    have hsq : Nat.sqrt q ≤ t.size := by
      have : Nat.sqrt q < t.size + 1 := by
        rw [Nat.sqrt_lt]
        nlinarith
      omega
    have e1 : (nextPrime (t.size * 2)).steps ≤ 2 * t.size * (1 + t.size) := by
      refine (nextPrimeLoop_steps h2 _ _ h3).trans ?_
      exact Nat.mul_le_mul (by omega) (by omega)
    have e2 : ∀ n : Nat, (rehashAll t.symbols (List.replicate n none)).steps ≤ t.size + t.count * (63 + t.count) := by
      intro n
      rw [hc]
      exact rehashAll_steps _ _ _ h.labels (by rw [entries_replicate]; simp)
    have e3 := steps_bind_le e1 (f := fun newSize => do
      let slots ← rehashAll t.symbols (List.replicate newSize none)
      (pure { t with symbols := slots } : T Fail SymTab)) (m := t.size + t.count * (63 + t.count) + 0)
      (fun n _ => steps_bind_le (e2 n) (fun _ _ => by simp))
    refine e3.trans ?_
    have hcle : t.count ≤ t.size := by omega
    have : t.count * (63 + t.count) ≤ t.size * (63 + t.size) := Nat.mul_le_mul hcle (by omega)
    nlinarith
  · show 2 * t.size < res.length
    omega
  · show res.length ≤ 4 * t.size
    omega

/-- Placing a symbol. -/
theorem placeSymbol_steps {t : SymTab} {label : Str} {v : Int} (hl : label.length ≤ 63) :
    (placeSymbol t label v).steps ≤ 63 + (entries t.symbols).length := by
  unfold placeSymbol
  rw [steps_tick]
  have e := probeFree_steps t.symbols (djb2 label)
  have e2 := steps_bind_le (x := probeFree t.symbols t.size (djb2 label % t.size))
    (f := fun h => (pure { symbols := t.symbols.set h (some ⟨label, v⟩), count := t.count + 1 } : T Fail SymTab)) e (m := 0)
    (fun a _ => by simp)
  have : hashSteps label ≤ 63 := hl
  omega

theorem placeSymbol_ok {t : SymTab} {label : Str} {v : Int} (h : (entries t.symbols).length < t.symbols.length) :
    ∃ t', Gaia.placeSymbol t label v = .ok t' ∧ t'.size = t.size ∧ t'.count = t.count + 1 ∧
      (entries t'.symbols).Perm (⟨label, v⟩ :: entries t.symbols) := by
  have hpos : 0 < t.symbols.length := by omega
  obtain ⟨i, hi⟩ := exists_free h
  have hil : i < t.symbols.length := by
    by_contra hc
    rw [List.getElem?_eq_none (by omega)] at hi
    cases hi
  obtain ⟨d, hd, hp⟩ := on_path (h := djb2 label % t.symbols.length) (j := i) (Nat.mod_lt _ hpos) hil
  obtain ⟨d', _, h1, h2, _⟩ := probeFree_spec t.symbols t.symbols.length (djb2 label % t.symbols.length) (Nat.mod_lt _ hpos)
    ⟨d, hd, by rw [hp]; exact hi⟩
  refine ⟨{ symbols := t.symbols.set ((djb2 label % t.symbols.length + d') % t.symbols.length) (some ⟨label, v⟩), count := t.count + 1 },
    ?_, ?_, rfl, entries_set _ h2⟩
  · unfold Gaia.placeSymbol SymTab.size
    rw [h1]
    rfl
  · simp [SymTab.size]

/-- One insertion: what it costs beyond its probing is paid for by the growth of the table. -/
theorem insertSymbol_steps {t : SymTab} (h : W t) {label : Str} (v : Int) (hl : label.length ≤ 63) (hbig : t.size * 4 ≤ INT_MAX)
    (hfew : (t.count + 1) * 100 ≤ INT_MAX) :
    ∃ t', Gaia.insertSymbol t label v = .ok t' ∧ W t' ∧ t'.count = t.count + 1 ∧
      (insertSymbol t label v).steps + 3 * (t.size * t.size) ≤ 63 + t.count + 3 * (t'.size * t'.size) := by
  have hc := h.count
  have h17 := h.big
  have hload := h.load
  have hsl := h.sizeLe
  have hsz : t.size = t.symbols.length := rfl
  have hno : ¬ (t.count + 1) * 100 > INT_MAX := by omega
  by_cases ho : overLoaded t = true
  · have i1 : Gaia.insertSymbol t label v = (Gaia.resizeSymbols t >>= fun t => Gaia.placeSymbol t label v) := by
      unfold Gaia.insertSymbol
      rw [if_neg hno, if_pos ho]
    have i2 : insertSymbol t label v = (resizeSymbols t >>= fun t => placeSymbol t label v) := by
      unfold insertSymbol
      rw [if_neg hno, if_pos ho]
    rw [i1, i2]
    obtain ⟨r1, t1, r2, r3, r4, r5, r6⟩ := resizeSymbols_steps h hbig
    have hlen := r4.length_eq
    have hs1 : t1.size = t1.symbols.length := rfl
    obtain ⟨t2, p1, p2, p3, p4⟩ := placeSymbol_ok (t := t1) (label := label) (v := v) (by omega)
    have hov : (t.count + 1) * 100 / t.size > 50 := by
      unfold overLoaded at ho
      simpa using ho
    have hov2 : 51 * t.size ≤ (t.count + 1) * 100 := (Nat.le_div_iff_mul_le (by omega)).1 hov
    refine ⟨t2, by rw [r2]; exact p1, ⟨?_, ?_, ?_, ?_, ?_⟩, by omega, ?_⟩
    · have := p4.length_eq
      simp only [List.length_cons] at this
      omega
    · omega
    · omega
    · omega
    · intro s hs
      have := (p4.mem_iff).1 hs
      rcases List.mem_cons.1 this with rfl | hs
      · exact hl
      · exact h.labels s ((r4.mem_iff).1 hs)
    · have hb : (resizeSymbols t).result = .ok t1 := by rw [resizeSymbols_result, r2]
      rw [steps_bind_ok hb]
      have := placeSymbol_steps (t := t1) (label := label) (v := v) hl
      have e : 4 * (t.size * t.size) ≤ t2.size * t2.size := by
        rw [p2]
        calc 4 * (t.size * t.size) = (2 * t.size) * (2 * t.size) := by ring
          _ ≤ t1.size * t1.size := Nat.mul_le_mul (by omega) (by omega)
      omega
  · have i1 : Gaia.insertSymbol t label v = (pure t >>= fun t => Gaia.placeSymbol t label v) := by
      unfold Gaia.insertSymbol
      rw [if_neg hno, if_neg ho]
    have i2 : insertSymbol t label v = (pure t >>= fun t => placeSymbol t label v) := by
      unfold insertSymbol
      rw [if_neg hno, if_neg ho]
    rw [i1, i2]
    obtain ⟨t2, p1, p2, p3, p4⟩ := placeSymbol_ok (t := t) (label := label) (v := v) (by omega)
    have hov : ¬ (t.count + 1) * 100 / t.size > 50 := by
      unfold overLoaded at ho
      simpa using ho
    have hov2 : (t.count + 1) * 100 < 51 * t.size := by
      by_contra hcon
      exact hov ((Nat.le_div_iff_mul_le (by omega)).2 (by omega))
    refine ⟨t2, p1, ⟨?_, ?_, ?_, ?_, ?_⟩, by omega, ?_⟩
    · have := p4.length_eq
      simp only [List.length_cons] at this
      omega
    · omega
    · omega
    · omega
    · intro s hs
      have := (p4.mem_iff).1 hs
      rcases List.mem_cons.1 this with rfl | hs
      · exact hl
      · exact h.labels s hs
    · rw [steps_bind_ok (a := t) rfl]
      have := placeSymbol_steps (t := t) (label := label) (v := v) hl
      rw [p2]
      simp only [steps_pure]
      omega

end Gaia.Steps

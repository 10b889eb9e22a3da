import Verif.Model.Batch
import Mathlib.Data.List.Basic
import Mathlib.Data.List.Nodup
import Mathlib.Data.List.Infix
import Mathlib.Data.Rat.Floor
import Mathlib.Algebra.Order.Floor.Ring
import Mathlib.Algebra.Order.Field.Basic
import Mathlib.Tactic.Linarith
import Mathlib.Tactic.Ring
import Mathlib.Tactic.FieldSimp
import Mathlib.Tactic.NormNum

/-!
# C55-C61, C67: batches, outputs, engine copies
-/

set_option linter.unusedSimpArgs false
set_option linter.unusedSectionVars false

namespace ThermoFun
namespace Batch

variable {R V : Type} [DecidableEq R]

/-! ### Helper lemmas -/

lemma visits_succ (J I : Nat) : visits (J + 1) I = visits J I ++ (List.range I).map (fun i => (J, i)) := by
  simp [visits, List.range_succ]

lemma mem_visits {J I : Nat} {x : Nat × Nat} : x ∈ visits J I ↔ x.1 < J ∧ x.2 < I := by
  obtain ⟨a, b⟩ := x
  simp [visits]

lemma filter_visits_fst (J I t : Nat) :
    ((visits J I).filter (fun x => x.1 = t)).map Prod.snd = if t < J then List.range I else [] := by
  induction J with
  | zero => simp [visits]
  | succ J ih =>
    rw [visits_succ, List.filter_append, List.map_append, ih]
    by_cases h : t = J
    · subst h; simp [List.filter_map, Function.comp_def]
    · by_cases h2 : t < J
      · simp [h2, Nat.lt_succ_of_lt h2, List.filter_map, Function.comp_def, Ne.symm h]
      · have : ¬ t < J + 1 := by omega
        simp [h2, this, List.filter_map, Function.comp_def, Ne.symm h]

lemma filter_range_eq (I i : Nat) : (List.range I).filter (fun x => x = i) = if i < I then [i] else [] := by
  induction I with
  | zero => simp
  | succ I ih =>
    rw [List.range_succ, List.filter_append, ih]
    by_cases h : i = I
    · subst h; simp
    · by_cases h2 : i < I
      · simp [h2, Nat.lt_succ_of_lt h2, Ne.symm h]
      · have : ¬ i < I + 1 := by omega
        simp [h2, this, Ne.symm h]

lemma filter_visits_snd (J I t : Nat) :
    ((visits J I).filter (fun x => x.2 = t)).map Prod.fst = if t < I then List.range J else [] := by
  induction J with
  | zero => simp [visits]
  | succ J ih =>
    rw [visits_succ, List.filter_append, List.map_append, ih]
    have : (List.filter (fun x : Nat × Nat => decide (x.2 = t)) ((List.range I).map (fun i => (J, i)))).map Prod.fst
        = if t < I then [J] else [] := by
      rw [List.filter_map, List.map_map]
      simp only [Function.comp_def]
      rw [filter_range_eq]
      split <;> simp
    rw [this]
    split
    · rw [List.range_succ]
    · rfl

/-- Pressure of a pair after the symbols `syms` have been processed: each query may overwrite it. -/
def pAfter (cv : Conv R) (eval : R → R → String → V × R) (T : R) (P : R) (syms : List String) : R :=
  syms.foldl (fun P sym => cv.fromP (eval (cv.toT T) (cv.toP P) sym).2) P

lemma pAfter_take_succ (cv : Conv R) (eval : R → R → String → V × R) (T P : R) (syms : List String) (s : Nat)
    (sym : String) (h : syms[s]? = some sym) :
    pAfter cv eval T P (syms.take (s + 1)) =
      cv.fromP (eval (cv.toT T) (cv.toP (pAfter cv eval T P (syms.take s))) sym).2 := by
  rw [List.take_add_one, h, pAfter, List.foldl_append]; rfl

/-- Core of `calculate`: a fold over visits `(s,t)` that, for every pair, meets the symbols in order. -/
lemma calc_core (cv : Conv R) (eval : R → R → String → V × R) (symbols : List String) (pairs : List (R × R))
    (row : Nat → Nat → Nat) (N : Nat)
    (hb : ∀ s t, s < symbols.length → t < pairs.length → row s t < N)
    (hinj : ∀ s t s' t', s < symbols.length → t < pairs.length → s' < symbols.length → t' < pairs.length →
      row s t = row s' t' → s = s' ∧ t = t')
    (L : List (Nat × Nat)) (hL : ∀ x ∈ L, x.1 < symbols.length ∧ x.2 < pairs.length)
    (hord : ∀ t, ∃ n, (L.filter (fun x => x.2 = t)).map Prod.fst = List.range n) :
    ∃ st : CalcState R V, L.foldl (fun st x => match st with
        | .ub => .ub
        | .ok st => calcStep cv eval symbols x.1 x.2 (row x.1 x.2) st)
        (Outc.ok ⟨List.replicate N none, pairs⟩) = .ok st ∧
      st.results.length = N ∧
      (∀ t (ht : t < pairs.length), st.pairs[t]? = some (pairs[t].1,
        pAfter cv eval pairs[t].1 pairs[t].2 (symbols.take (L.filter (fun x => x.2 = t)).length))) ∧
      (∀ s t (hs : s < symbols.length) (ht : t < pairs.length), (s, t) ∈ L →
        st.results[row s t]? = some (some (eval (cv.toT pairs[t].1)
          (cv.toP (pAfter cv eval pairs[t].1 pairs[t].2 (symbols.take s))) symbols[s]).1)) ∧
      st.pairs.length = pairs.length := by
  induction L using List.reverseRecOn with
  | nil =>
    refine ⟨⟨List.replicate N none, pairs⟩, rfl, by simp, ?_, by simp, rfl⟩
    intro t ht
    simp [pAfter, List.getElem?_eq_getElem ht]
  | append_singleton L x ih =>
    obtain ⟨s0, t0⟩ := x
    have hx := hL (s0, t0) (by simp)
    simp only at hx
    -- prefixes keep the order
    have hpre : ∀ t, ∃ n, (L.filter (fun x => x.2 = t)).map Prod.fst = List.range n := by
      intro t
      obtain ⟨n, hn⟩ := hord t
      rw [List.filter_append, List.map_append] at hn
      refine ⟨(L.filter (fun x => x.2 = t)).length, ?_⟩
      have hlen := congrArg List.length hn
      simp only [List.length_append, List.length_map, List.length_range] at hlen
      have htake := congrArg (List.take (L.filter (fun x => x.2 = t)).length) hn
      rw [List.take_left' (by simp), List.take_range] at htake
      rw [htake]
      congr 1
      omega
    obtain ⟨st, hst, hlen, hp, hr, hpl⟩ := ih (fun x hx => hL x (by simp [hx])) hpre
    have hcount : (L.filter (fun x => x.2 = t0)).length = s0 := by
      obtain ⟨n, hn⟩ := hord t0
      rw [List.filter_append, List.map_append] at hn
      simp only [decide_true, List.filter_cons_of_pos, List.filter_nil, List.map_cons, List.map_nil] at hn
      have h1 : (List.map Prod.fst (List.filter (fun x => decide (x.2 = t0)) L) ++ [s0])[(L.filter (fun x => x.2 = t0)).length]? = some s0 := by
        rw [List.getElem?_append_right (by simp)]; simp
      rw [hn] at h1
      obtain ⟨_, h⟩ := List.getElem?_eq_some_iff.mp h1
      simpa using h
    have hpt := hp t0 hx.2
    rw [hcount] at hpt
    have hsym : symbols[s0]? = some symbols[s0] := List.getElem?_eq_getElem hx.1
    have hstep : calcStep cv eval symbols s0 t0 (row s0 t0) st = .ok
        ⟨st.results.set (row s0 t0) (some (eval (cv.toT pairs[t0].1)
          (cv.toP (pAfter cv eval pairs[t0].1 pairs[t0].2 (symbols.take s0))) symbols[s0]).1),
         st.pairs.set t0 (pairs[t0].1, cv.fromP (eval (cv.toT pairs[t0].1)
          (cv.toP (pAfter cv eval pairs[t0].1 pairs[t0].2 (symbols.take s0))) symbols[s0]).2)⟩ := by
      unfold calcStep
      rw [hpt, hsym]
      simp only
      rw [if_pos (hlen ▸ hb s0 t0 hx.1 hx.2)]
    refine ⟨_, by rw [List.foldl_append, hst]; simp only [List.foldl_cons, List.foldl_nil]; exact hstep, ?_, ?_, ?_, ?_⟩
    · simp [hlen]
    · intro t ht
      by_cases htt : t = t0
      · subst htt
        rw [List.getElem?_set_self (by omega), List.filter_append]
        simp only [decide_true, List.filter_cons_of_pos, List.filter_nil, List.length_append, List.length_cons,
          List.length_nil, zero_add, hcount]
        rw [pAfter_take_succ _ _ _ _ _ _ _ hsym]
      · rw [List.getElem?_set_ne (Ne.symm htt), hp t ht, List.filter_append]
        simp [Ne.symm htt]
    · intro s t hs ht hmem
      by_cases heq : s = s0 ∧ t = t0
      · obtain ⟨rfl, rfl⟩ := heq
        rw [List.getElem?_set_self (by rw [hlen]; exact hb _ _ hs ht)]
      · have hne : row s0 t0 ≠ row s t := by
          intro h
          have := hinj s0 t0 s t hx.1 hx.2 hs ht h
          exact heq ⟨this.1.symm, this.2.symm⟩
        rw [List.getElem?_set_ne hne]
        apply hr s t hs ht
        rcases List.mem_append.mp hmem with h | h
        · exact h
        · simp at h; exact absurd h heq
    · simp [hpl]

/-- Row of a symbol and a pair as documented by the readers of `results`. -/
def rowOf (pairsFirst : Bool) (nSym nPair s t : Nat) : Nat := if pairsFirst then nPair * s + t else nSym * t + s

lemma mul_add_lt {a b x y : Nat} (hx : x < a) (hy : y < b) : b * x + y < b * a := by
  calc b * x + y < b * x + b := by omega
    _ = b * (x + 1) := by ring
    _ ≤ b * a := Nat.mul_le_mul_left _ hx

lemma mul_add_inj {b x y x' y' : Nat} (hy : y < b) (hy' : y' < b) (h : b * x + y = b * x' + y') : x = x' ∧ y = y' := by
  have hb : 0 < b := by omega
  have h1 : (b * x + y) / b = (b * x' + y') / b := by rw [h]
  rw [Nat.mul_add_div hb, Nat.mul_add_div hb, Nat.div_eq_of_lt hy, Nat.div_eq_of_lt hy'] at h1
  simp only [add_zero] at h1
  subst h1
  exact ⟨rfl, by omega⟩

/-- **C55 (storage).** For both loop orders and all sizes, `calculate` never leaves its vectors, fills exactly one row per
(symbol, pair), and the row read back under that symbol and pair holds the result computed for that symbol at that
pair's temperature and current pressure. -/
theorem C55_storage (pairsFirst : Bool) (cv : Conv R) (eval : R → R → String → V × R) (symbols : List String)
    (pairs : List (R × R)) :
    ∃ st, calculate pairsFirst cv eval symbols pairs = .ok st ∧
      st.results.length = symbols.length * pairs.length ∧ st.pairs.length = pairs.length ∧
      (∀ t (ht : t < pairs.length), st.pairs[t]? = some (pairs[t].1,
        pAfter cv eval pairs[t].1 pairs[t].2 symbols)) ∧
      (∀ s t (hs : s < symbols.length) (ht : t < pairs.length),
        st.results[rowOf pairsFirst symbols.length pairs.length s t]? =
          some (some (eval (cv.toT pairs[t].1)
            (cv.toP (pAfter cv eval pairs[t].1 pairs[t].2 (symbols.take s))) symbols[s]).1)) := by
  cases pairsFirst with
  | true =>
    have hcore := calc_core cv eval symbols pairs (fun s t => pairs.length * s + t) (pairs.length * symbols.length)
      (fun s t hs ht => mul_add_lt hs ht)
      (fun s t s' t' _ ht _ ht' h => mul_add_inj ht ht' h)
      ((visits pairs.length symbols.length).map Prod.swap)
      (by intro x hx
          obtain ⟨y, hy, rfl⟩ := List.mem_map.mp hx
          have := mem_visits.mp hy
          exact ⟨this.2, this.1⟩)
      (by intro t
          have := filter_visits_fst pairs.length symbols.length t
          rw [List.filter_map, List.map_map]
          refine ⟨if t < pairs.length then symbols.length else 0, ?_⟩
          have h2 : (List.filter ((fun x : Nat × Nat => decide (x.2 = t)) ∘ Prod.swap) (visits pairs.length symbols.length)).map (Prod.fst ∘ Prod.swap)
              = ((visits pairs.length symbols.length).filter (fun x => x.1 = t)).map Prod.snd := rfl
          rw [h2, this]; split <;> simp)
    obtain ⟨st, hst, hlen, hp, hr, hpl⟩ := hcore
    refine ⟨st, ?_, by rw [hlen, Nat.mul_comm], hpl, ?_, ?_⟩
    · rw [← hst, List.foldl_map]; rfl
    · intro t ht
      rw [hp t ht]
      have hc : (List.filter (fun x : Nat × Nat => decide (x.2 = t)) ((visits pairs.length symbols.length).map Prod.swap)).length = symbols.length := by
        have h := congrArg List.length (filter_visits_fst pairs.length symbols.length t)
        rw [if_pos ht] at h
        simpa [List.filter_map, Function.comp_def] using h
      rw [hc, List.take_length]
    · intro s t hs ht
      have := hr s t hs ht (List.mem_map.mpr ⟨(t, s), mem_visits.mpr ⟨ht, hs⟩, rfl⟩)
      simpa [rowOf] using this
  | false =>
    have hcore := calc_core cv eval symbols pairs (fun s t => symbols.length * t + s) (symbols.length * pairs.length)
      (fun s t hs ht => mul_add_lt ht hs)
      (fun s t s' t' hs _ hs' _ h => (mul_add_inj hs hs' h).symm)
      (visits symbols.length pairs.length)
      (fun x hx => mem_visits.mp hx)
      (by intro t
          refine ⟨if t < pairs.length then symbols.length else 0, ?_⟩
          rw [filter_visits_snd]; split <;> simp)
    obtain ⟨st, hst, hlen, hp, hr, hpl⟩ := hcore
    refine ⟨st, ?_, hlen, hpl, ?_, ?_⟩
    · rw [← hst]; rfl
    · intro t ht
      rw [hp t ht]
      have h := congrArg List.length (filter_visits_snd symbols.length pairs.length t)
      rw [if_pos ht] at h
      simp only [List.length_map, List.length_range] at h
      rw [h, List.take_length]
    · intro s t hs ht
      have := hr s t hs ht (mem_visits.mpr ⟨hs, ht⟩)
      simpa [rowOf] using this

/-- Case for C55: two symbols, three pairs, both orders; the value encodes symbol and pair. -/
example : (calculate (R := Nat) true ⟨id, id, id⟩ (fun T P s => ((T, P, s), P)) ["a", "b"] [(1, 10), (2, 20), (3, 30)]) =
    .ok ⟨[some (1, 10, "a"), some (2, 20, "a"), some (3, 30, "a"), some (1, 10, "b"), some (2, 20, "b"), some (3, 30, "b")],
      [(1, 10), (2, 20), (3, 30)]⟩ := by rfl

example : (calculate (R := Nat) false ⟨id, id, id⟩ (fun T P s => ((T, P, s), P)) ["a", "b"] [(1, 10), (2, 20)]) =
    .ok ⟨[some (1, 10, "a"), some (1, 10, "b"), some (2, 20, "a"), some (2, 20, "b")], [(1, 10), (2, 20)]⟩ := by rfl

lemma outc_all_ok {A : Type} (l : List A) : Outc.all (l.map Outc.ok) = .ok l := by
  induction l with
  | nil => rfl
  | cons a l ih => simp only [List.map_cons, Outc.all, ih]

lemma map_range_getElem {A B : Type} (l : List A) (g : Nat → B) (k : A → B)
    (h : ∀ i (hi : i < l.length), g i = k l[i]) :
    (List.range l.length).map g = l.map k := by
  apply List.ext_getElem?
  intro i
  by_cases hi : i < l.length
  · simp [hi, h i hi]
  · simp [hi]

lemma visits_map {A B C : Type} (as : List A) (bs : List B) (F : Nat × Nat → C) (G : A → B → C)
    (h : ∀ i j (hi : i < as.length) (hj : j < bs.length), F (i, j) = G as[i] bs[j]) :
    (visits as.length bs.length).map F = as.flatMap (fun a => bs.map (G a)) := by
  rw [visits, List.map_flatMap, List.flatMap_def, List.flatMap_def]
  congr 1
  apply map_range_getElem
  intro i hi
  rw [List.map_map]
  apply map_range_getElem
  intro j hj
  exact h i j hi hj

lemma visits_all {A B C : Type} (as : List A) (bs : List B) (F : Nat × Nat → Outc C) (G : A → B → C)
    (h : ∀ i j (hi : i < as.length) (hj : j < bs.length), F (i, j) = .ok (G as[i] bs[j])) :
    Outc.all ((visits as.length bs.length).map F) = .ok (as.flatMap (fun a => bs.map (G a))) := by
  rw [visits_map as bs F (fun a b => .ok (G a b)) h, ← outc_all_ok, List.map_flatMap]
  simp [Function.comp_def]

/-- No query changes the pressure (no `P = 0`), seen through the unit conversion. -/
def NoWriteBack (cv : Conv R) (eval : R → R → String → V × R) (symbols : List String) (pairs : List (R × R)) : Prop :=
  ∀ q ∈ pairs, ∀ sym ∈ symbols, cv.fromP (eval (cv.toT q.1) (cv.toP q.2) sym).2 = q.2

lemma pAfter_const {cv : Conv R} {eval : R → R → String → V × R} {T P : R} :
    ∀ (syms : List String), (∀ sym ∈ syms, cv.fromP (eval (cv.toT T) (cv.toP P) sym).2 = P) →
    pAfter cv eval T P syms = P
  | [], _ => rfl
  | s :: syms, h => by
    rw [pAfter, List.foldl_cons, h s (by simp)]
    exact pAfter_const syms (fun x hx => h x (by simp [hx]))

/-- The value a client expects in the cell of symbol `sym` and pair `q`. -/
def expected (cv : Conv R) (eval : R → R → String → V × R) (sym : String) (q : R × R) : V :=
  (eval (cv.toT q.1) (cv.toP q.2) sym).1

/-- **C55 (CSV).** When no query rewrites the pressure, the CSV written after a batch contains, for every symbol and every
pair exactly once, a line labelled with that symbol, T and P that carries the value computed for them; lines are grouped
by symbol (pairs first) or by pair. -/
theorem C55_csv_rows (pairsFirst : Bool) (cv : Conv R) (eval : R → R → String → V × R) (symbols : List String)
    (pairs : List (R × R)) (h : NoWriteBack cv eval symbols pairs) :
    ∃ st, calculate pairsFirst cv eval symbols pairs = .ok st ∧ st.pairs = pairs ∧
      foutResults pairsFirst symbols st.pairs st.results = .ok (
        if pairsFirst then symbols.flatMap (fun sym => pairs.map (fun q => ⟨sym, q.1, q.2, some (expected cv eval sym q)⟩))
        else pairs.flatMap (fun q => symbols.map (fun sym => ⟨sym, q.1, q.2, some (expected cv eval sym q)⟩))) := by
  obtain ⟨st, hst, hlen, hpl, hp, hr⟩ := C55_storage pairsFirst cv eval symbols pairs
  have hpairs : st.pairs = pairs := by
    apply List.ext_getElem?
    intro t
    by_cases ht : t < pairs.length
    · rw [hp t ht, pAfter_const symbols (fun sym hs => h _ (List.getElem_mem ht) sym hs), List.getElem?_eq_getElem ht]
    · rw [List.getElem?_eq_none (by omega), List.getElem?_eq_none (by omega)]
  have hval : ∀ s t (hs : s < symbols.length) (ht : t < pairs.length),
      st.results[rowOf pairsFirst symbols.length pairs.length s t]? = some (some (expected cv eval symbols[s] pairs[t])) := by
    intro s t hs ht
    rw [hr s t hs ht, pAfter_const (symbols.take s)
      (fun sym hsym => h _ (List.getElem_mem ht) sym (List.mem_of_mem_take hsym))]
    rfl
  refine ⟨st, hst, hpairs, ?_⟩
  rw [hpairs]
  cases pairsFirst with
  | true =>
    simp only [foutResults, if_true]
    refine visits_all symbols pairs _ (fun sym q => (⟨sym, q.1, q.2, some (expected cv eval sym q)⟩ : Row R (Option V))) ?_
    intro i j hi hj
    have := hval i j hi hj
    simp only [rowOf, if_true] at this
    simp only [List.getElem?_eq_getElem hi, List.getElem?_eq_getElem hj, this]
  | false =>
    simp only [foutResults, Bool.false_eq_true, if_false]
    refine visits_all pairs symbols _ (fun q sym => (⟨sym, q.1, q.2, some (expected cv eval sym q)⟩ : Row R (Option V))) ?_
    intro i j hi hj
    have := hval j i hj hi
    simp only [rowOf, Bool.false_eq_true, if_false] at this
    simp only [List.getElem?_eq_getElem hi, List.getElem?_eq_getElem hj, this]

example : NoWriteBack (R := Rat) ⟨(· + 273), (· * 100000), (· / 100000)⟩ (fun T P s => ((T, s), P)) ["a", "b"]
    [(25, 1), (50, 2)] := by
  intro q hq sym _
  simp only
  rw [mul_div_assoc, div_self (by norm_num), mul_one]

/-- **C55 (transposed CSV).** With all requested properties known to the selector (`g` gives their values) and no pressure
rewritten, the transposed file has one line per property and pair, labelled with them, and in the column of each symbol
the value of that property for that symbol at that pair. -/
theorem C55_csv_transposed {W : Type} (pairsFirst : Bool) (cv : Conv R) (g : R → R → String → String → W)
    (wb : R → R → String → R) (symbols properties : List String) (pairs : List (R × R))
    (h : ∀ q ∈ pairs, ∀ sym ∈ symbols, cv.fromP (wb (cv.toT q.1) (cv.toP q.2) sym) = q.2) :
    ∃ st, calculate pairsFirst cv (fun T P sym => (properties.map (g T P sym), wb T P sym)) symbols pairs = .ok st ∧
      foutTransposed pairsFirst symbols properties st.pairs (st.results.map (·.getD [])) = .ok (
        if pairsFirst then properties.flatMap (fun prop => pairs.map (fun q =>
          ⟨prop, q.1, q.2, symbols.map (fun sym => g (cv.toT q.1) (cv.toP q.2) sym prop)⟩))
        else pairs.flatMap (fun q => properties.map (fun prop =>
          ⟨prop, q.1, q.2, symbols.map (fun sym => g (cv.toT q.1) (cv.toP q.2) sym prop)⟩))) := by
  obtain ⟨st, hst, hlen, hpl, hp, hr⟩ :=
    C55_storage pairsFirst cv (fun T P sym => (properties.map (g T P sym), wb T P sym)) symbols pairs
  have hpairs : st.pairs = pairs := by
    apply List.ext_getElem?
    intro t
    by_cases ht : t < pairs.length
    · rw [hp t ht, pAfter_const symbols (fun sym hs => h _ (List.getElem_mem ht) sym hs), List.getElem?_eq_getElem ht]
    · rw [List.getElem?_eq_none (by omega), List.getElem?_eq_none (by omega)]
  have hval : ∀ s t (hs : s < symbols.length) (ht : t < pairs.length),
      (st.results.map (·.getD []))[rowOf pairsFirst symbols.length pairs.length s t]? =
        some (properties.map (g (cv.toT pairs[t].1) (cv.toP pairs[t].2) symbols[s])) := by
    intro s t hs ht
    rw [List.getElem?_map, hr s t hs ht, pAfter_const (symbols.take s)
      (fun sym hsym => h _ (List.getElem_mem ht) sym (List.mem_of_mem_take hsym))]
    rfl
  refine ⟨st, hst, ?_⟩
  rw [hpairs]
  cases pairsFirst with
  | true =>
    simp only [foutTransposed, if_true]
    refine visits_all properties pairs _ (fun prop q =>
      (⟨prop, q.1, q.2, symbols.map (fun sym => g (cv.toT q.1) (cv.toP q.2) sym prop)⟩ : TRow R W)) ?_
    intro i j hi hj
    simp only [List.getElem?_eq_getElem hi, List.getElem?_eq_getElem hj]
    rw [map_range_getElem symbols _ (fun sym => Outc.ok (g (cv.toT pairs[j].1) (cv.toP pairs[j].2) sym properties[i]))]
    · have := outc_all_ok (symbols.map (fun sym => g (cv.toT pairs[j].1) (cv.toP pairs[j].2) sym properties[i]))
      rw [List.map_map] at this
      simp only [Function.comp_def] at this
      rw [this]
    · intro k hk
      have := hval k j hk hj
      simp only [rowOf, if_true] at this
      simp only [this, List.getElem?_map, List.getElem?_eq_getElem hi, Option.map_some]
  | false =>
    simp only [foutTransposed, Bool.false_eq_true, if_false]
    refine visits_all pairs properties _ (fun q prop =>
      (⟨prop, q.1, q.2, symbols.map (fun sym => g (cv.toT q.1) (cv.toP q.2) sym prop)⟩ : TRow R W)) ?_
    intro i j hi hj
    simp only [List.getElem?_eq_getElem hi, List.getElem?_eq_getElem hj]
    rw [map_range_getElem symbols _ (fun sym => Outc.ok (g (cv.toT pairs[i].1) (cv.toP pairs[i].2) sym properties[j]))]
    · have := outc_all_ok (symbols.map (fun sym => g (cv.toT pairs[i].1) (cv.toP pairs[i].2) sym properties[j]))
      rw [List.map_map] at this
      simp only [Function.comp_def] at this
      rw [this]
    · intro k hk
      have := hval k i hk hi
      simp only [rowOf, Bool.false_eq_true, if_false] at this
      simp only [this, List.getElem?_map, List.getElem?_eq_getElem hj, Option.map_some]

/-- Case for the transposed CSV: identity units, two properties, nothing rewritten. -/
example : ∀ q ∈ [((1 : Nat), 10), (2, 20)], ∀ sym ∈ ["a", "b"],
    (⟨id, id, id⟩ : Conv Nat).fromP ((fun (_ : Nat) (P : Nat) (_ : String) => P) (id q.1) (id q.2) sym) = q.2 := by
  intro q _ sym _; rfl

/-! ### C56 -/

section range
variable {K : Type} [Field K] [LinearOrder K] [IsStrictOrderedRing K] [FloorSemiring K]

lemma rangeLoop_spec (step max : K) (hs : 0 < step) :
    ∀ (n : Nat) (x : K), x + n * step < max ∨ n = 0 → max ≤ x + (n + 1) * step → ∀ fuel, n < fuel →
      rangeLoop step max fuel x = some ((List.range (n + 1)).map (fun i : Nat => x + ((i : K) + 1) * step)) := by
  intro n
  induction n with
  | zero =>
    intro x _ h2 fuel hf
    obtain ⟨fuel, rfl⟩ : ∃ k, fuel = k + 1 := ⟨fuel - 1, by omega⟩
    simp only [rangeLoop]
    rw [if_neg (by push_cast at h2; linarith)]
    simp
  | succ n ih =>
    intro x h1 h2 fuel hf
    obtain ⟨fuel, rfl⟩ : ∃ k, fuel = k + 1 := ⟨fuel - 1, by omega⟩
    have h1' : x + (n + 1) * step < max := by
      rcases h1 with h | h
      · push_cast at h; exact h
      · omega
    have hn : (0 : K) ≤ n := Nat.cast_nonneg n
    have hlt : x + step < max := by nlinarith
    simp only [rangeLoop, if_pos hlt]
    rw [ih (x + step) (by left; linarith) (by push_cast at h2; linarith) fuel (by omega)]
    simp only [Option.map_some]
    rw [List.range_succ_eq_map (n := n + 1)]
    simp only [List.map_cons, List.map_map, Nat.cast_zero, zero_add, one_mul, Option.some.injEq, List.cons.injEq, true_and]
    apply List.map_congr_left
    intro i _
    simp only [Function.comp_apply, Nat.cast_succ]
    ring

/-- **C56.** With a positive step the range loop terminates and generates exactly the points `min + i*step`,
`i = 0 … ⌈(max-min)/step⌉` (and just `min` when `max ≤ min`). -/
theorem C56_range_points (min max step : K) (hs : 0 < step) :
    ∃ N, ∀ fuel, N < fuel → range fuel min max step =
      some ((List.range (⌈(max - min) / step⌉₊ + 1)).map (fun i : Nat => min + (i : K) * step)) := by
  refine ⟨⌈(max - min) / step⌉₊, fun fuel hf => ?_⟩
  rw [range, rangeLoop_spec step max hs ⌈(max - min) / step⌉₊ (min - step) ?_ ?_ fuel hf]
  · congr 1
    apply List.map_congr_left
    intro i _
    ring
  · by_cases h0 : ⌈(max - min) / step⌉₊ = 0
    · exact Or.inr h0
    · left
      have : ⌈(max - min) / step⌉₊ - 1 < ⌈(max - min) / step⌉₊ := by omega
      rw [Nat.lt_ceil] at this
      have h1 : ((⌈(max - min) / step⌉₊ - 1 : Nat) : K) = (⌈(max - min) / step⌉₊ : K) - 1 := by
        rw [Nat.cast_sub (by omega)]; simp
      rw [h1, lt_div_iff₀ hs] at this
      linarith
  · have := Nat.le_ceil ((max - min) / step)
    rw [div_le_iff₀ hs] at this
    linarith

example : range 10 (0 : Rat) 6 2 = some [0, 2, 4, 6] := by decide +kernel

/-- **C56, exact fit.** When the step divides the range, the points are `min, min+step, …, max` and none beyond. -/
theorem C56_range_exact (min step : K) (m : Nat) (hs : 0 < step) :
    ∃ N, ∀ fuel, N < fuel → range fuel min (min + m * step) step =
      some ((List.range (m + 1)).map (fun i : Nat => min + (i : K) * step)) := by
  obtain ⟨N, h⟩ := C56_range_points min (min + m * step) step hs
  refine ⟨N, fun fuel hf => ?_⟩
  rw [h fuel hf]
  have : (min + m * step - min) / step = (m : K) := by field_simp; ring
  rw [this, Nat.ceil_natCast]

example : (0 : Rat) < 2 := by norm_num

/-- **C56, violation (a).** With a step that does not divide the range, a point beyond `max` is generated. -/
theorem C56_overshoot_refuted : range 10 (0 : Rat) 5 2 = some [0, 2, 4, 6] := by decide +kernel

omit [FloorSemiring K] in
/-- **C56, violation (b).** With a zero or negative step and `min < max` the loop never ends. -/
theorem C56_divergence_refuted (min max step : K) (hs : step ≤ 0) (h : min < max) (fuel : Nat) :
    range fuel min max step = none := by
  have : ∀ fuel x, x + step < max → rangeLoop step max fuel x = none := by
    intro fuel
    induction fuel with
    | zero => intro x _; rfl
    | succ fuel ih =>
      intro x hx
      simp only [rangeLoop, if_pos hx]
      rw [ih (x + step) (by linarith)]
      rfl
  exact this fuel _ (by linarith)

example : (0 : Rat) ≤ 0 ∧ (25 : Rat) < 100 := by norm_num

end range

/-- The grid a client expects: all combinations, nested as documented. -/
def gridPairs (tFirst : Bool) (temps press : List R) : List (R × R) :=
  if tFirst then temps.flatMap (fun t => press.map (fun p => (t, p)))
  else press.flatMap (fun p => temps.map (fun t => (t, p)))

lemma addPairs_fold (l : List (R × R)) (s : TP R) : l.foldl (fun s q => addTPpair s q.1 q.2) s =
    ⟨s.pairs ++ l, (l.map Prod.fst).foldl pushNew s.ts, (l.map Prod.snd).foldl pushNew s.ps⟩ := by
  induction l generalizing s with
  | nil => simp
  | cons q l ih => rw [List.foldl_cons, ih]; simp [addTPpair]

lemma addGrid_eq (tFirst : Bool) (temps press : List R) :
    addGrid tFirst temps press = addPairs (gridPairs tFirst temps press) := by
  cases tFirst <;> simp [addGrid, addPairs, gridPairs, List.foldl_flatMap, List.foldl_map]

/-- **C56 (grid).** Every combination of temperature and pressure is generated exactly in the documented nesting order. -/
theorem C56_grid (tFirst : Bool) (temps press : List R) :
    (addGrid tFirst temps press).pairs = gridPairs tFirst temps press := by
  rw [addGrid_eq, addPairs, addPairs_fold]; simp [clearTP]

example : (addGrid true [(25 : Nat), 50] [1, 100]).pairs = [(25, 1), (25, 100), (50, 1), (50, 100)] := by decide

/-! ### C57 -/

/-- **C57, violation.** A symbol earlier in the list that rewrites `P = 0` changes what a later symbol is computed at:
the row of "x" differs between the batches ["w","x"] and ["x"]. -/
theorem C57_independence_refuted :
    let eval : Nat → Nat → String → (Nat × String) × Nat := fun _ P s => ((P, s), if P = 0 ∧ s = "w" then 5 else P)
    (calculate true ⟨id, id, id⟩ eval ["w", "x"] [(300, 0)] = .ok ⟨[some (0, "w"), some (5, "x")], [(300, 5)]⟩) ∧
    (calculate true ⟨id, id, id⟩ eval ["x"] [(300, 0)] = .ok ⟨[some (0, "x")], [(300, 0)]⟩) := ⟨rfl, rfl⟩

/-- **C57 (partial).** Full statement: the row of a symbol at a pair is the one a batch of that symbol alone gives.
Proved when no query rewrites the pressure; missing (false, above): queries that rewrite it. -/
theorem C57_independence_partial (pairsFirst : Bool) (cv : Conv R) (eval : R → R → String → V × R)
    (symbols : List String) (pairs : List (R × R)) (h : NoWriteBack cv eval symbols pairs)
    (s t : Nat) (hs : s < symbols.length) (ht : t < pairs.length) :
    ∃ st st1, calculate pairsFirst cv eval symbols pairs = .ok st ∧
      calculate pairsFirst cv eval [symbols[s]] [pairs[t]] = .ok st1 ∧
      st.results[rowOf pairsFirst symbols.length pairs.length s t]? = st1.results[0]? := by
  obtain ⟨st, hst, _, _, _, hr⟩ := C55_storage pairsFirst cv eval symbols pairs
  obtain ⟨st1, hst1, _, _, _, hr1⟩ := C55_storage pairsFirst cv eval [symbols[s]] [pairs[t]]
  refine ⟨st, st1, hst, hst1, ?_⟩
  have h1 := hr1 0 0 (by simp) (by simp)
  have hrow : rowOf pairsFirst [symbols[s]].length [pairs[t]].length 0 0 = 0 := by simp [rowOf]
  rw [hrow] at h1
  rw [h1, hr s t hs ht, pAfter_const (symbols.take s)
      (fun sym hsym => h _ (List.getElem_mem ht) sym (List.mem_of_mem_take hsym))]
  simp [pAfter]

/-! ### C58 -/

/-- **C58, violation.** A requested name the selector does not know is skipped silently, so all later columns shift left:
asking a substance batch for "density" and "entropy" gives one column, labelled "density" by the writers, holding the
entropy. -/
theorem C58_alignment_refuted : ∃ (known : String → Option Nat) (props : List String),
    known = (fun n => if n ∈ substNames then some n.length else none) ∧ props = ["density", "entropy"] ∧
    props[0]? = some "density" ∧ (select known props)[0]? = known "entropy" ∧ (select known props).length = 1 :=
  ⟨_, _, rfl, rfl, rfl, by decide, by decide⟩

lemma select_map (known : String → Option V) (props : List String) (h : ∀ p ∈ props, (known p).isSome) :
    (select known props).map some = props.map known := by
  induction props with
  | nil => rfl
  | cons p props ih =>
    obtain ⟨v, hv⟩ := Option.isSome_iff_exists.mp (h p (by simp))
    have : select known (p :: props) = v :: select known props := by simp [select, hv]
    rw [this, List.map_cons, List.map_cons, hv, ih (fun x hx => h x (by simp [hx]))]

/-- **C58 (partial).** Full statement: column k of a row is the k-th requested property, for every request.  Proved when
all requested names are known to the selector (repeats allowed); missing (false, above): unknown names. -/
theorem C58_alignment_partial (known : String → Option V) (props : List String)
    (h : ∀ p ∈ props, (known p).isSome) (k : Nat) (hk : k < props.length) :
    (select known props).length = props.length ∧ (select known props)[k]? = known props[k] := by
  have hmap := select_map known props h
  constructor
  · simpa using congrArg List.length hmap
  · have h2 : (List.map some (select known props))[k]? = (List.map known props)[k]? := by rw [hmap]
    rw [List.getElem?_map, List.getElem?_map, List.getElem?_eq_getElem hk] at h2
    simp only [Option.map_some] at h2
    cases hx : (select known props)[k]? with
    | none => rw [hx] at h2; simp at h2
    | some v => rw [hx] at h2; simp at h2; exact h2

example : ∀ p ∈ ["volume", "entropy", "volume"], ((fun n => if n ∈ substNames then some n.length else none) p).isSome := by
  decide

/-! ### C59 -/

lemma foldl_pushNew_subset (acc l : List R) (h : ∀ x ∈ l, x ∈ acc) : l.foldl pushNew acc = acc := by
  induction l with
  | nil => rfl
  | cons x l ih =>
    have : pushNew acc x = acc := by simp [pushNew, h x (by simp)]
    rw [List.foldl_cons, this, ih (fun y hy => h y (by simp [hy]))]

lemma foldl_pushNew_nodup (acc l : List R) (hn : l.Nodup) (hd : ∀ x ∈ l, x ∉ acc) : l.foldl pushNew acc = acc ++ l := by
  induction l generalizing acc with
  | nil => simp
  | cons x l ih =>
    have hx : pushNew acc x = acc ++ [x] := by simp [pushNew, hd x (by simp)]
    rw [List.foldl_cons, hx, ih (acc ++ [x]) (List.nodup_cons.mp hn).2]
    · simp
    · intro y hy
      simp only [List.mem_append, List.mem_singleton, not_or]
      refine ⟨hd y (by simp [hy]), ?_⟩
      rintro rfl
      exact (List.nodup_cons.mp hn).1 hy

/-- The outer coordinate of a product list, deduplicated. -/
lemma dedup_outer {B : Type} (l : List R) (m : List B) (hn : l.Nodup) (hm : m ≠ []) :
    (l.flatMap (fun r => m.map (fun _ => r))).foldl pushNew [] = l := by
  suffices H : ∀ (l : List R) (acc : List R), l.Nodup → (∀ x ∈ l, x ∉ acc) →
      (l.flatMap (fun r => m.map (fun _ => r))).foldl pushNew acc = acc ++ l by
    simpa using H l [] hn (by simp)
  intro l
  induction l with
  | nil => intro acc _ _; simp
  | cons r l ih =>
    intro acc hn hd
    obtain ⟨b, m', rfl⟩ := List.exists_cons_of_ne_nil hm
    simp only [List.flatMap_cons, List.foldl_append, List.map_cons, List.foldl_cons]
    have h1 : pushNew acc r = acc ++ [r] := by simp [pushNew, hd r (by simp)]
    rw [h1, foldl_pushNew_subset (acc ++ [r]) (m'.map (fun _ => r)) (by simp)]
    have := ih (acc ++ [r]) (List.nodup_cons.mp hn).2 (by
      intro y hy
      simp only [List.mem_append, List.mem_singleton, not_or]
      refine ⟨hd y (by simp [hy]), ?_⟩
      rintro rfl; exact (List.nodup_cons.mp hn).1 hy)
    simp only [List.map_cons] at this
    rw [this]; simp

/-- The inner coordinate of a product list, deduplicated. -/
lemma dedup_inner {B : Type} (l : List B) (m : List R) (hn : m.Nodup) (hl : l ≠ []) :
    (l.flatMap (fun _ => m)).foldl pushNew [] = m := by
  obtain ⟨b, l', rfl⟩ := List.exists_cons_of_ne_nil hl
  simp only [List.flatMap_cons, List.foldl_append]
  rw [foldl_pushNew_nodup [] m hn (by simp), List.nil_append]
  apply foldl_pushNew_subset
  intro x hx
  simp only [List.mem_flatMap] at hx
  obtain ⟨_, _, h⟩ := hx
  exact h

lemma gridLine_spec (sym : String) (r : R) (v : R → V) (pre post : List V) (cols : List R) :
    gridLine sym r (pre ++ cols.map v ++ post) cols pre.length =
      .ok (cols.map (fun c => ⟨sym, r, c, v c⟩), pre.length + cols.length) := by
  induction cols generalizing pre with
  | nil => rfl
  | cons c cs ih =>
    simp only [gridLine, List.map_cons]
    have h1 : (pre ++ v c :: List.map v cs ++ post)[pre.length]? = some (v c) := by
      rw [List.append_assoc, List.getElem?_append_right (le_refl _)]; simp
    rw [h1]
    have h2 : pre ++ v c :: List.map v cs ++ post = (pre ++ [v c]) ++ List.map v cs ++ post := by simp
    have h3 := ih (pre ++ [v c])
    rw [← h2] at h3
    simp only [List.length_append, List.length_cons, List.length_nil, zero_add] at h3
    rw [h3]
    simp only [List.length_cons, Outc.ok.injEq, Prod.mk.injEq, true_and]
    omega

lemma gridRows_spec (sym : String) (cols : List R) (hcols : cols ≠ []) (v : R → R → V) (pre post : List V)
    (rows : List R) :
    gridRows sym cols (pre ++ rows.flatMap (fun r => cols.map (v r)) ++ post) rows pre.length =
      .ok (rows.flatMap (fun r => cols.map (fun c => ⟨sym, r, c, v r c⟩)),
        (pre ++ rows.flatMap (fun r => cols.map (v r))).length) := by
  induction rows generalizing pre with
  | nil => simp [gridRows]
  | cons r rs ih =>
    have hc : 0 < cols.length := List.length_pos_iff.mpr hcols
    simp only [gridRows]
    rw [if_neg (by simp only [List.flatMap_cons, List.length_append, List.length_map]; omega)]
    have h1 := gridLine_spec sym r (v r) pre (rs.flatMap (fun r => cols.map (v r)) ++ post) cols
    have hassoc : pre ++ (r :: rs).flatMap (fun r => cols.map (v r)) ++ post =
        pre ++ cols.map (v r) ++ (rs.flatMap (fun r => cols.map (v r)) ++ post) := by simp
    rw [hassoc, h1]
    simp only
    have h2 := ih (pre ++ cols.map (v r))
    have hassoc2 : pre ++ cols.map (v r) ++ (rs.flatMap (fun r => cols.map (v r)) ++ post) =
        pre ++ cols.map (v r) ++ rs.flatMap (fun r => cols.map (v r)) ++ post := by simp
    rw [hassoc2]
    rw [List.length_append, List.length_map] at h2
    rw [h2]
    simp

lemma grid_spec (cols rows : List R) (hcols : cols ≠ []) (v : String → R → R → V) (syms : List String)
    (pre : List V) :
    grid cols rows (pre ++ syms.flatMap (fun sym => rows.flatMap (fun r => cols.map (v sym r)))) syms pre.length =
      .ok (syms.flatMap (fun sym => rows.flatMap (fun r => cols.map (fun c => ⟨sym, r, c, v sym r c⟩)))) := by
  induction syms generalizing pre with
  | nil => simp [grid]
  | cons sym syms ih =>
    simp only [grid]
    have h1 := gridRows_spec sym cols hcols (v sym) pre
      (syms.flatMap (fun sym => rows.flatMap (fun r => cols.map (v sym r)))) rows
    have hassoc : pre ++ (sym :: syms).flatMap (fun sym => rows.flatMap (fun r => cols.map (v sym r))) =
        pre ++ rows.flatMap (fun r => cols.map (v sym r)) ++
          syms.flatMap (fun sym => rows.flatMap (fun r => cols.map (v sym r))) := by simp
    rw [hassoc, h1]
    simp only
    rw [ih]
    simp

/-- **C59 (partial).** Full statement: in the property grid the cell at row T and column P holds the value computed there,
for every list of pairs.  Proved for complete grids of distinct temperatures and pressures whose pressures were not
rewritten (`val sym t p` is the value of the printed property).  Missing: other pair lists, refuted below. -/
theorem C59_grid_partial (tFirst : Bool) (temps press : List R) (hT : temps.Nodup) (hP : press.Nodup)
    (hT0 : temps ≠ []) (hP0 : press ≠ []) (symbols : List String) (val : String → R → R → V) :
    propertyGrid tFirst (addGrid tFirst temps press) symbols
      (symbols.flatMap (fun sym => (gridPairs tFirst temps press).map (fun q => val sym q.1 q.2))) =
    .ok (symbols.flatMap (fun sym =>
      if tFirst then temps.flatMap (fun t => press.map (fun p => ⟨sym, t, p, val sym t p⟩))
      else press.flatMap (fun p => temps.map (fun t => ⟨sym, p, t, val sym t p⟩)))) := by
  cases tFirst with
  | true =>
    have hts : (addGrid true temps press).ts = temps := by
      rw [addGrid_eq, addPairs, addPairs_fold]
      simp only [gridPairs, if_true, clearTP, List.map_flatMap, List.map_map, Function.comp_def]
      exact dedup_outer temps press hT hP0
    have hps : (addGrid true temps press).ps = press := by
      rw [addGrid_eq, addPairs, addPairs_fold]
      simp only [gridPairs, if_true, clearTP, List.map_flatMap, List.map_map, Function.comp_def, List.map_id']
      exact dedup_inner temps press hP hT0
    simp only [propertyGrid, if_true, hts, hps, gridPairs, List.map_flatMap, List.map_map, Function.comp_def]
    have := grid_spec press temps hP0 val symbols []
    simpa using this
  | false =>
    have hps : (addGrid false temps press).ps = press := by
      rw [addGrid_eq, addPairs, addPairs_fold]
      simp only [gridPairs, Bool.false_eq_true, if_false, clearTP, List.map_flatMap, List.map_map, Function.comp_def]
      exact dedup_outer press temps hP hT0
    have hts : (addGrid false temps press).ts = temps := by
      rw [addGrid_eq, addPairs, addPairs_fold]
      simp only [gridPairs, Bool.false_eq_true, if_false, clearTP, List.map_flatMap, List.map_map, Function.comp_def,
        List.map_id']
      exact dedup_inner press temps hT hP0
    simp only [propertyGrid, Bool.false_eq_true, if_false, hts, hps, gridPairs, List.map_flatMap, List.map_map,
      Function.comp_def]
    have := grid_spec temps press hT0 (fun sym p t => val sym t p) symbols []
    simpa using this

example : [(25 : Nat), 50].Nodup ∧ [(1 : Nat), 100].Nodup := by decide

/-- **C59, violation (a).** Pairs that are not a complete grid are mislabelled: from (25,1),(50,2) — e.g. a table of
arbitrary pairs — with two symbols, the value of "b" at (25,1) is printed under "a" at T = 50. -/
theorem C59_mislabel_refuted :
    (propertyGrid true (addPairs [((25 : Nat), (1 : Nat)), (50, 2)]) ["a", "b"] ["a25", "a50", "b25", "b50"]) =
      .ok [⟨"a", 25, 1, "a25"⟩, ⟨"a", 25, 2, "a50"⟩, ⟨"a", 50, 1, "b25"⟩, ⟨"a", 50, 2, "b50"⟩] := by rfl

/-- **C59, violation (b).** A complete grid of two temperatures and the pressures 0 (saturation) and 100: the rewritten
pressures make three columns, and the second line is read past the end of the four results. -/
theorem C59_out_of_range_refuted :
    let eval : Nat → Nat → String → Nat × Nat := fun T P _ => (T, if P = 0 then T + 7 else P)
    ∃ st, calculate true ⟨id, id, id⟩ eval ["w"] (addGrid true [300, 400] [0, 100]).pairs = .ok st ∧
      propertyGrid true (addPairs st.pairs) ["w"] st.results = .ub := by
  exact ⟨⟨[some 300, some 300, some 400, some 400], [(300, 307), (300, 100), (400, 407), (400, 100)]⟩, rfl, rfl⟩

/-! ### C60 -/

/-- `pat` occurs in `s`. -/
def Occurs (pat s : List Char) : Prop := ∃ a b, s = a ++ pat ++ b

/-- Segments joined by a separator. -/
def join (sep : List Char) : List (List Char) → List Char
  | [] => []
  | [a] => a
  | a :: b :: rest => a ++ sep ++ join sep (b :: rest)

lemma findFirst_some {pat s b a : List Char} (h : findFirst pat s = some (b, a)) : s = b ++ pat ++ a := by
  induction s generalizing b a with
  | nil =>
    simp only [findFirst] at h
    split at h
    · rename_i hp; simp at h; simp [h.1, h.2, hp]
    · simp at h
  | cons c cs ih =>
    simp only [findFirst] at h
    split at h
    · rename_i hp
      simp at h
      obtain ⟨rfl, rfl⟩ := h
      obtain ⟨t, ht⟩ := hp
      rw [← ht]; simp
    · simp only [Option.map_eq_some_iff] at h
      obtain ⟨⟨b', a'⟩, h1, h2⟩ := h
      simp at h2
      obtain ⟨rfl, rfl⟩ := h2
      have := ih h1
      rw [this]; simp

lemma findFirst_none {pat s : List Char} (h : findFirst pat s = none) : ¬ Occurs pat s := by
  rintro ⟨a, b, hab⟩
  induction s generalizing a b with
  | nil =>
    simp only [findFirst] at h
    have : pat = [] := by
      have := hab.symm; simp at this; exact this.2.1
    simp [this] at h
  | cons c cs ih =>
    simp only [findFirst] at h
    split at h
    · simp at h
    · rename_i hp
      cases a with
      | nil => exact hp ⟨b, by simpa using hab.symm⟩
      | cons x xs =>
        simp at hab
        exact ih (by simpa using h) xs b (by simpa using hab.2)

/-- The text before the first occurrence contains none, even together with all but the last character of the match. -/
lemma findFirst_before {pat s b a : List Char} (hne : pat ≠ []) (h : findFirst pat s = some (b, a)) : ¬ Occurs pat b := by
  rintro ⟨x, y, hxy⟩
  induction s generalizing b a x with
  | nil => simp [findFirst, hne] at h
  | cons c cs ih =>
    simp only [findFirst] at h
    split at h
    · simp at h
      obtain ⟨rfl, _⟩ := h
      have := hxy.symm
      simp at this
      exact hne this.2.1
    · rename_i hp
      simp only [Option.map_eq_some_iff] at h
      obtain ⟨⟨b', a'⟩, h1, h2⟩ := h
      simp at h2
      obtain ⟨rfl, rfl⟩ := h2
      cases x with
      | nil =>
        apply hp
        have h3 := findFirst_some h1
        refine ⟨y ++ pat ++ a', ?_⟩
        have h4 : c :: b' = pat ++ y := by simpa using hxy
        rw [h3, List.append_assoc, List.append_assoc, ← List.cons_append, h4]
        simp
      | cons z zs =>
        simp at hxy
        exact ih h1 zs (by simpa using hxy.2)

/-- **C60 (termination and effect).** For a non-empty pattern `find_and_replace` terminates, and its effect is: cut the source
at non-overlapping occurrences of the pattern into pieces that do not contain it, and join the pieces with the
replacement instead. -/
theorem C60_replace_spec (src pat rep : List Char) (hne : pat ≠ []) :
    ∃ segs : List (List Char), segs ≠ [] ∧ src = join pat segs ∧ (∀ g ∈ segs, ¬ Occurs pat g) ∧
      ∃ N, ∀ fuel, N < fuel → findAndReplace fuel src pat rep = some (join rep segs) := by
  suffices H : ∀ (n : Nat) (pre s : List Char), s.length ≤ n → ∃ segs : List (List Char), segs ≠ [] ∧ s = join pat segs ∧
      (∀ g ∈ segs, ¬ Occurs pat g) ∧ ∃ N, ∀ fuel, N < fuel →
        replaceLoop pat rep fuel (pre ++ s) pre.length = some (pre ++ join rep segs) by
    obtain ⟨segs, h0, h1, h2, N, h3⟩ := H src.length [] src (le_refl _)
    exact ⟨segs, h0, h1, h2, N, by simpa [findAndReplace] using h3⟩
  intro n
  induction n with
  | zero =>
    intro pre s hs
    have : s = [] := List.length_eq_zero_iff.mp (by omega)
    subst this
    refine ⟨[[]], by simp, rfl, ?_, 0, ?_⟩
    · intro g hg
      simp at hg; subst hg
      rintro ⟨a, b, hab⟩
      have := hab.symm; simp at this; exact hne this.2.1
    · intro fuel hf
      obtain ⟨fuel, rfl⟩ : ∃ k, fuel = k + 1 := ⟨fuel - 1, by omega⟩
      simp [replaceLoop, findFirst, hne, join]
  | succ n ih =>
    intro pre s hs
    cases hf : findFirst pat s with
    | none =>
      refine ⟨[s], by simp, rfl, ?_, 0, ?_⟩
      · intro g hg; simp at hg; subst hg; exact findFirst_none hf
      · intro fuel hfu
        obtain ⟨fuel, rfl⟩ : ∃ k, fuel = k + 1 := ⟨fuel - 1, by omega⟩
        simp only [replaceLoop, List.drop_left]
        rw [hf]; rfl
    | some ba =>
      obtain ⟨b, a⟩ := ba
      have hs1 := findFirst_some hf
      have hlen : a.length ≤ n := by
        have hp : 0 < pat.length := List.length_pos_iff.mpr hne
        have := congrArg List.length hs1
        simp only [List.length_append] at this
        omega
      obtain ⟨segs, h0, h1, h2, N, h3⟩ := ih (pre ++ b ++ rep) a hlen
      obtain ⟨g0, gs, rfl⟩ := List.exists_cons_of_ne_nil h0
      refine ⟨b :: g0 :: gs, by simp, ?_, ?_, N + 1, ?_⟩
      · rw [hs1, h1]; rfl
      · intro g hg
        rcases List.mem_cons.mp hg with rfl | hg
        · exact findFirst_before hne hf
        · exact h2 g hg
      · intro fuel hfu
        obtain ⟨fuel, rfl⟩ : ∃ k, fuel = k + 1 := ⟨fuel - 1, by omega⟩
        simp only [replaceLoop, List.drop_left]
        rw [hf]
        simp only [List.take_left]
        have h4 := h3 fuel (by omega)
        rw [List.length_append, List.length_append] at h4
        rw [h4]
        simp [join]

example : findAndReplace 10 "CaCl2,aq,x".toList ",".toList "_".toList = some "CaCl2_aq_x".toList := by decide

lemma occurs_append_of_not_mem {pat a b : List Char} {c : Char} (hc : c ∉ pat) (hne : pat ≠ [])
    (h : Occurs pat (a ++ [c] ++ b)) : Occurs pat a ∨ Occurs pat b := by
  obtain ⟨x, y, hxy⟩ := h
  rw [List.append_assoc, List.append_assoc] at hxy
  rcases List.append_eq_append_iff.mp hxy with ⟨d, hd1, hd2⟩ | ⟨d, hd1, hd2⟩
  · -- x = a ++ d, c :: b = d ++ (pat ++ y)
    cases d with
    | nil =>
      simp at hd2
      cases pat with
      | nil => exact absurd rfl hne
      | cons p ps => simp at hd2; exact absurd (by simp [hd2.1]) hc
    | cons e es =>
      simp at hd2
      exact Or.inr ⟨es, y, by rw [hd2.2]; simp⟩
  · -- a = x ++ d, pat ++ y = d ++ (c :: b)
    rcases List.append_eq_append_iff.mp hd2 with ⟨e, he1, he2⟩ | ⟨e, he1, he2⟩
    · -- d = pat ++ e
      exact Or.inl ⟨x, e, by rw [hd1, he1]; simp⟩
    · -- pat = d ++ e, c :: b = e ++ y
      cases e with
      | nil =>
        simp at he1 he2
        exact Or.inl ⟨x, [], by rw [hd1, he1]; simp⟩
      | cons f fs =>
        simp at he2
        exact absurd (by rw [he1]; simp [he2.1]) hc

lemma not_occurs_join {pat : List Char} {c : Char} (hc : c ∉ pat) (hne : pat ≠ []) :
    ∀ (segs : List (List Char)), (∀ g ∈ segs, ¬ Occurs pat g) → ¬ Occurs pat (join [c] segs)
  | [], _ => by
    rintro ⟨a, b, h⟩
    have := h.symm; simp [join] at this; exact hne this.2.1
  | [g], h => h g (by simp)
  | g :: g' :: gs, h => by
    intro ho
    rcases occurs_append_of_not_mem hc hne ho with h1 | h1
    · exact h g (by simp) h1
    · exact not_occurs_join hc hne (g' :: gs) (fun x hx => h x (by simp [hx])) h1

/-- **C60.** For every name and every non-empty separator not containing `_`, the cleaned name exists and does not contain
the separator. -/
theorem C60_no_separator (src sep : List Char) (hne : sep ≠ []) (hu : '_' ∉ sep) :
    ∃ res N, (∀ fuel, N < fuel → findAndReplace fuel src sep ['_'] = some res) ∧ ¬ Occurs sep res := by
  obtain ⟨segs, _, _, h2, N, h3⟩ := C60_replace_spec src sep ['_'] hne
  exact ⟨_, N, h3, not_occurs_join hu hne segs h2⟩

example : (",".toList ≠ []) ∧ '_' ∉ ",".toList := by decide

/-- **C60, violation.** With a separator containing `_` the cleaned name can still contain it: "_,," cleaned of "_," is "_,". -/
theorem C60_underscore_refuted : findAndReplace 10 "_,,".toList "_,".toList "_".toList = some "_,".toList ∧
    Occurs "_,".toList "_,".toList := ⟨by decide, [], [], by simp⟩

/-- **C60, violation.** With an empty separator the loop never ends. -/
theorem C60_empty_divergence_refuted (src rep : List Char) (fuel : Nat) : findAndReplace fuel src [] rep = none := by
  have : ∀ fuel src i, i ≤ src.length → replaceLoop [] rep fuel src i = none := by
    intro fuel
    induction fuel with
    | zero => intro _ _ _; rfl
    | succ fuel ih =>
      intro src i hi
      have hf : ∀ s, findFirst [] s = some ([], s) := by
        intro s; cases s <;> simp [findFirst]
      simp only [replaceLoop, hf]
      apply ih
      simp only [List.length_append, List.length_take, List.length_nil, List.length_drop]
      omega
  exact this fuel src 0 (Nat.zero_le _)

/-! ### C61 -/

/-- What a client expects of an output: the results of the request that returned it. -/
def ownResults {Q A : Type} (answer : Q → A) : List Q → List (BOp Q) → List (Option A)
  | _, [] => []
  | qs, .request q :: ops => none :: ownResults answer (qs ++ [q]) ops
  | qs, .read h :: ops => (qs[h]?).map answer :: ownResults answer qs ops

/-- **C61, violation.** Reading the first output after a second request returns the second request's results. -/
theorem C61_output_refuted : ∃ (ops : List (BOp Nat)),
    (Cache.runCalls (bstep (fun q : Nat => q)) ⟨none, 0⟩ ops).1 ≠ ownResults (fun q => q) [] ops :=
  ⟨[.request 1, .request 2, .read 0], by decide⟩

/-- The output read is always the one of the most recent request. -/
def ReadsLatest {Q : Type} : Nat → List (BOp Q) → Prop
  | _, [] => True
  | n, .request _ :: ops => ReadsLatest (n + 1) ops
  | n, .read h :: ops => h + 1 = n ∧ ReadsLatest n ops

/-- **C61 (partial).** Full statement: `(runCalls (bstep answer) ⟨none,0⟩ ops).1 = ownResults answer [] ops` for every
history.  Proved for histories that only read the latest output; missing (false, above): reading older outputs. -/
theorem C61_output_partial {Q A : Type} (answer : Q → A) (ops : List (BOp Q)) (h : ReadsLatest 0 ops) :
    (Cache.runCalls (bstep answer) ⟨none, 0⟩ ops).1 = ownResults answer [] ops := by
  suffices H : ∀ (ops : List (BOp Q)) (qs : List Q), ReadsLatest qs.length ops →
      (Cache.runCalls (bstep answer) ⟨qs.getLast?.map answer, qs.length⟩ ops).1 = ownResults answer qs ops by
    simpa using H ops [] h
  intro ops
  induction ops with
  | nil => intro qs _; rfl
  | cons op ops ih =>
    intro qs h
    cases op with
    | request q =>
      have := ih (qs ++ [q]) (by simpa [ReadsLatest] using h)
      simp only [Cache.runCalls, bstep, ownResults]
      simp only [List.getLast?_append, List.getLast?_singleton, Option.some_or, Option.map_some,
        List.length_append, List.length_cons, List.length_nil, zero_add] at this
      rw [this]
    | read k =>
      obtain ⟨hk, hrest⟩ := h
      have hlast : qs[k]? = qs.getLast? := by
        rw [List.getLast?_eq_getElem?]; congr 1; omega
      simp only [Cache.runCalls, bstep, ownResults]
      rw [if_pos (by omega), ih qs hrest, hlast]

example : ReadsLatest 0 [BOp.request 1, .read 0, .read 0, .request 2, .read 1] := by simp [ReadsLatest]

end Batch

/-! ### C67: engine copies -/

/-- What a client expects: a query on engine `i` is answered from engine `i`'s own current data. -/
def ownAnswers {Env Q A : Type} (f : Env → Q → A) : List Env → List (EOp Env Q) → List (Option A)
  | _, [] => []
  | es, .new e :: ops => none :: ownAnswers f (es ++ [e]) ops
  | es, .copy s :: ops => none :: ownAnswers f (es ++ es[s]?.toList) ops
  | es, .change i e :: ops => none :: ownAnswers f (es.set i e) ops
  | es, .destroy _ :: ops => none :: ownAnswers f es ops
  | es, .query i q :: ops => (es[i]?).map (fun e => f e q) :: ownAnswers f es ops

/-- The answers of a run. -/
def answersOf {Env A : Type} : Outc (List (Option A) × EHeap Env) → Option (List (Option A))
  | .ub => none
  | .ok (l, _) => some l

/-- The empty heap. -/
def noEngines (Env : Type) : EHeap Env := ⟨fun _ => none, 0⟩

/-- **C67, violation (a).** Changing the data of a copied engine has no effect on its answers: they come from the
original. -/
theorem C67_copy_refuted : ∃ ops : List (EOp Nat Nat),
    answersOf (erun (fun e _ => e) (noEngines Nat) ops) = some [none, none, none, some 1] ∧
    ownAnswers (fun e _ => e) [] ops = [none, none, none, some 2] :=
  ⟨[.new 1, .copy 0, .change 1 2, .query 1 0], by decide⟩

/-- **C67, violation (b).** Destroying the original makes the copy unusable (use after free). -/
theorem C67_copy_dangling_refuted :
    answersOf (erun (fun e _ => e) (noEngines Nat) ([.new 1, .copy 0, .destroy 0, .query 1 0] : List (EOp Nat Nat))) = none := by
  decide

/-- A program without copies that only uses engines it has made and never destroys one. -/
def NoCopies {Env Q : Type} : Nat → List (EOp Env Q) → Prop
  | _, [] => True
  | n, .new _ :: ops => NoCopies (n + 1) ops
  | _, .copy _ :: _ => False
  | n, .change i _ :: ops => i < n ∧ NoCopies n ops
  | _, .destroy _ :: _ => False
  | n, .query i _ :: ops => i < n ∧ NoCopies n ops

/-- **C67 (partial).** Full statement: for every client program the answers are `ownAnswers`.  Proved for programs that do
not copy engines (each engine made from a database or file; data changes and queries on any of them in any order).
Missing (false, above): copies. -/
theorem C67_own_data_partial {Env Q A : Type} (f : Env → Q → A) (ops : List (EOp Env Q)) (h : NoCopies 0 ops) :
    answersOf (erun f (noEngines Env) ops) = some (ownAnswers f [] ops) := by
  suffices H : ∀ (ops : List (EOp Env Q)) (es : List Env) (hp : EHeap Env), hp.next = es.length →
      (∀ i, hp.objs i = (es[i]?).map (fun e => ⟨e, i⟩)) → NoCopies es.length ops →
      ∃ h', erun f hp ops = .ok (ownAnswers f es ops, h') by
    obtain ⟨h', hh⟩ := H ops [] (noEngines Env) rfl (by intro i; simp [noEngines]) (by simpa using h)
    rw [hh]; rfl
  intro ops
  induction ops with
  | nil => intro es hp _ _ _; exact ⟨hp, rfl⟩
  | cons op ops ih =>
    intro es hp hn hobj hc
    cases op with
    | copy => exact hc.elim
    | destroy => exact hc.elim
    | new e =>
      obtain ⟨h', hh⟩ := ih (es ++ [e]) ⟨fun n => if n = hp.next then some ⟨e, hp.next⟩ else hp.objs n, hp.next + 1⟩
        (by simp [hn]) (by
          intro i
          simp only [hn]
          by_cases hi : i = es.length
          · subst hi; simp
          · rw [if_neg hi, hobj i]
            by_cases hlt : i < es.length
            · rw [List.getElem?_append_left hlt]
            · rw [List.getElem?_eq_none (by omega), List.getElem?_eq_none (by simp; omega)])
        (by simpa [NoCopies] using hc)
      exact ⟨h', by simp only [erun, estep, hh, ownAnswers]⟩
    | change i e =>
      obtain ⟨hi, hc⟩ := hc
      have hoi : hp.objs i = some ⟨es[i], i⟩ := by rw [hobj i, List.getElem?_eq_getElem hi]; rfl
      obtain ⟨h', hh⟩ := ih (es.set i e) ⟨fun n => if n = i then some ⟨e, i⟩ else hp.objs n, hp.next⟩
        (by simp [hn]) (by
          intro j
          simp only
          by_cases hj : j = i
          · subst hj; rw [if_pos rfl, List.getElem?_set_self hi]; rfl
          · rw [if_neg hj, hobj j, List.getElem?_set_ne (Ne.symm hj)])
        (by simpa using hc)
      exact ⟨h', by simp only [erun, estep, hoi, hh, ownAnswers]⟩
    | query i q =>
      obtain ⟨hi, hc⟩ := hc
      have hoi : hp.objs i = some ⟨es[i], i⟩ := by rw [hobj i, List.getElem?_eq_getElem hi]; rfl
      obtain ⟨h', hh⟩ := ih es hp hn hobj hc
      exact ⟨h', by simp only [erun, estep, hoi, hh, ownAnswers, List.getElem?_eq_getElem hi, Option.map_some]⟩

example : NoCopies 0 ([.new 1, .new 2, .change 0 5, .query 0 7, .query 1 7] : List (EOp Nat Nat)) := by simp [NoCopies]

end ThermoFun

import Verif.Model.Memo
import Mathlib.Data.List.Nodup
import Mathlib.Data.List.Perm.Subperm
import Mathlib.Data.List.Infix
import Mathlib.Tactic.Common
import Mathlib.Tactic.NormNum
import Mathlib.Data.Rat.Defs
import Mathlib.Tactic.Linarith

/-!
# C05-C11, C66: memoisation
-/

set_option linter.unusedSimpArgs false
set_option linter.unusedSectionVars false

namespace ThermoFun

variable {K V ε : Type} [DecidableEq K]

open Cache

/-! ### Helper lemmas -/

section helpers

lemma lookup_none_iff (l : List (K × V)) (k : K) : l.lookup k = none ↔ k ∉ l.map Prod.fst := by
  induction l with
  | nil => simp
  | cons e l ih =>
    obtain ⟨a, b⟩ := e
    by_cases h : k = a
    · simp [List.lookup, h]
    · simp [List.lookup, h, beq_eq_false_iff_ne.mpr h, ih]

lemma mem_of_lookup {l : List (K × V)} {k : K} {v : V} (h : l.lookup k = some v) : (k, v) ∈ l := by
  induction l with
  | nil => simp at h
  | cons e l ih =>
    obtain ⟨a, b⟩ := e
    by_cases hk : k = a
    · subst hk; simp [List.lookup] at h; simp [h]
    · simp [List.lookup, beq_eq_false_iff_ne.mpr hk] at h; simp [ih h]

lemma erase_subset (l : List (K × V)) (k : K) : ∀ e ∈ Cache.erase l k, e ∈ l := by
  intro e he; exact (List.mem_filter.mp he).1

lemma erase_keys (l : List (K × V)) (k : K) :
    (Cache.erase l k).map Prod.fst = (l.map Prod.fst).filter (fun x => x ≠ k) := by
  simp [Cache.erase, List.filter_map, Function.comp_def]

lemma erase_of_not_mem {l : List (K × V)} {k : K} (h : k ∉ l.map Prod.fst) : Cache.erase l k = l := by
  apply List.filter_eq_self.mpr
  intro e he
  simp only [decide_eq_true_eq]
  rintro rfl; exact h (List.mem_map_of_mem he)

/-- Every cached binding is what the function returns. -/
def Coherent (f : K → Except ε V) (c : Cache K V) : Prop := ∀ e ∈ c.entries, f e.1 = .ok e.2

/-- The map's keys are exactly the order list, which has no repetition. -/
structure Tidy (c : Cache K V) : Prop where
  keys : c.entries.map Prod.fst = c.order
  nodup : c.order.Nodup

lemma evict_entries_subset (max : Nat) (c : Cache K V) : ∀ e ∈ (evict max c).entries, e ∈ c.entries := by
  intro e he
  unfold evict at he
  split at he
  · split at he
    · exact he
    · exact erase_subset _ _ e he
  · exact he

lemma filter_ne_getLast {l : List K} (h : l.Nodup) {b : K} (hb : l.getLast? = some b) :
    l.filter (fun x => x ≠ b) = l.dropLast := by
  obtain ⟨l', rfl⟩ : ∃ l', l = l' ++ [b] := by
    rw [List.getLast?_eq_some_iff] at hb; exact hb
  rw [List.dropLast_concat, List.filter_append]
  have hb' : b ∉ l' := by
    have := List.nodup_append.mp h
    intro hm; exact this.2.2 b hm b (by simp) rfl
  rw [List.filter_eq_self.mpr]
  · simp
  · intro a ha; simp only [decide_eq_true_eq]; rintro rfl; exact hb' ha

lemma tidy_evict {max : Nat} {c : Cache K V} (h : Tidy c) : Tidy (evict max c) := by
  unfold evict
  split
  · split
    · exact h
    · rename_i b hb
      refine ⟨?_, ?_⟩
      · simp only [erase_keys, h.keys]; exact filter_ne_getLast h.nodup hb
      · exact h.nodup.sublist (List.dropLast_sublist _)
  · exact h

lemma tidy_insert {c : Cache K V} (h : Tidy c) {k : K} (v : V) (hk : k ∉ c.entries.map Prod.fst) :
    Tidy (c.insert k v) := by
  refine ⟨?_, ?_⟩
  · simp [Cache.insert, erase_of_not_mem hk, h.keys]
  · simp only [Cache.insert]; rw [List.nodup_cons]; exact ⟨h.keys ▸ hk, h.nodup⟩

lemma size_eq {c : Cache K V} (h : Tidy c) : c.entries.length = c.order.length := by
  rw [← h.keys, List.length_map]

lemma size_evict {max : Nat} {c : Cache K V} (h : Tidy c) :
    (evict max c).entries.length ≤ c.entries.length ∧
    (max ≤ c.entries.length → (evict max c).entries.length = c.entries.length - 1) := by
  have he := size_eq h
  have he' := size_eq (tidy_evict (max := max) h)
  have ho : (evict max c).order = if c.entries.length ≥ max then c.order.dropLast else c.order := by
    unfold evict
    split
    · split
      · rename_i hn; rw [List.getLast?_eq_none_iff] at hn; simp [hn]
      · rfl
    · rfl
  rw [he', ho, he]
  split
  · simp
  · rename_i hlt; exact ⟨le_refl _, fun h => absurd h (by omega)⟩

lemma size_insert {c : Cache K V} {k : K} (v : V) (hk : k ∉ c.entries.map Prod.fst) :
    (c.insert k v).entries.length = c.entries.length + 1 := by
  simp [Cache.insert, erase_of_not_mem hk]

lemma coherent_evict {max : Nat} {f : K → Except ε V} {c : Cache K V} (h : Coherent f c) :
    Coherent f (evict max c) := fun e he => h e (evict_entries_subset max c e he)

end helpers

/-! ### C05 -/

/-- **C05 (bounded cache).** Any sequence of calls through `memoizeN`, from a fresh cache, with any capacity, returns
exactly what the function itself returns (including raised errors). -/
theorem C05_memoizeN_transparent (max : Nat) (f : K → Except ε V) (ks : List K) :
    (runCalls (callN max f) empty ks).1 = ks.map f := by
  suffices H : ∀ (ks : List K) (c : Cache K V), Coherent f c → (runCalls (callN max f) c ks).1 = ks.map f from
    H ks empty (by intro e he; simp [empty] at he)
  intro ks
  induction ks with
  | nil => intro c _; rfl
  | cons k ks ih =>
    intro c hc
    have hstep : (callN max f c k).1 = f k ∧ Coherent f (callN max f c k).2 := by
      unfold callN
      have hc' := coherent_evict (max := max) hc
      cases hf : (evict max c).find k with
      | some v => simp only [hf]; exact ⟨(hc' _ (mem_of_lookup hf)).symm, hc'⟩
      | none =>
        cases hk : f k with
        | error e => simp only [hf, hk]; exact ⟨trivial, hc'⟩
        | ok v =>
          simp only [hf, hk]
          refine ⟨trivial, ?_⟩
          intro e he
          simp only [Cache.insert, List.mem_cons] at he
          rcases he with rfl | he
          · exact hk
          · exact hc' e (erase_subset _ _ e he)
    simp only [runCalls, List.map_cons, hstep.1, ih _ hstep.2]

/-- **C05 (unbounded cache).** The same for `memoize`. -/
theorem C05_memoize_transparent (f : K → Except ε V) (ks : List K) :
    (runCalls (Cache.call f) empty ks).1 = ks.map f := by
  suffices H : ∀ (ks : List K) (c : Cache K V), Coherent f c → (runCalls (Cache.call f) c ks).1 = ks.map f from
    H ks empty (by intro e he; simp [empty] at he)
  intro ks
  induction ks with
  | nil => intro c _; rfl
  | cons k ks ih =>
    intro c hc
    have hstep : (Cache.call f c k).1 = f k ∧ Coherent f (Cache.call f c k).2 := by
      unfold Cache.call
      cases hf : c.find k with
      | some v => simp only [hf]; exact ⟨(hc _ (mem_of_lookup hf)).symm, hc⟩
      | none =>
        cases hk : f k with
        | error e => simp only [hf, hk]; exact ⟨trivial, hc⟩
        | ok v =>
          simp only [hf, hk]
          refine ⟨trivial, ?_⟩
          intro e he
          rcases List.mem_cons.mp he with rfl | he
          · exact hk
          · exact hc e he
    simp only [runCalls, List.map_cons, hstep.1, ih _ hstep.2]

/-- Case for C05: capacity 2, six calls with repeats, one of them raising. -/
example : (runCalls (callN 2 (fun n : Nat => if n = 3 then Except.error "no" else Except.ok (n*n))) empty
    [1, 2, 1, 3, 2, 1]).1 = [.ok 1, .ok 4, .ok 1, .error "no", .ok 4, .ok 1] := by decide

/-! ### C06 -/

lemma callN_inv (max : Nat) (f : K → Except ε V) {c : Cache K V} (h : Tidy c)
    (hs : c.entries.length ≤ Nat.max 1 max) (k : K) :
    Tidy (callN max f c k).2 ∧ (callN max f c k).2.entries.length ≤ Nat.max 1 max := by
  have ht := tidy_evict (max := max) h
  have hz := size_evict (max := max) h
  have hm1 : 1 ≤ Nat.max 1 max := Nat.le_max_left _ _
  have hm2 : max ≤ Nat.max 1 max := Nat.le_max_right _ _
  unfold callN
  cases hf : (evict max c).find k with
  | some v => simp only [hf]; exact ⟨ht, hz.1.trans hs⟩
  | none =>
    cases hk : f k with
    | error e => simp only [hf, hk]; exact ⟨ht, hz.1.trans hs⟩
    | ok v =>
      simp only [hf, hk]
      have hnm := (lookup_none_iff _ _).mp hf
      refine ⟨tidy_insert ht v hnm, ?_⟩
      rw [size_insert v hnm]
      by_cases hfull : max ≤ c.entries.length
      · have := hz.2 hfull; omega
      · have := hz.1; omega

lemma runCalls_inv {S A R : Type} {step : S → A → R × S} {I : S → Prop} (hI : ∀ s a, I s → I (step s a).2) :
    ∀ (as : List A) (s : S), I s → I (runCalls step s as).2
  | [], _, h => h
  | a :: as, s, h => runCalls_inv hI as _ (hI s a h)

/-- **C06.** After any sequence of calls: at most `max(1, max_cache_size)` entries, no key twice, and the eviction
queue lists exactly the cached keys, newest first. -/
theorem C06_bounded (max : Nat) (f : K → Except ε V) (ks : List K) :
    let c := (runCalls (callN max f) empty ks).2
    c.entries.length ≤ Nat.max 1 max ∧ (c.entries.map Prod.fst).Nodup ∧ c.order = c.entries.map Prod.fst := by
  have := runCalls_inv (step := callN max f)
    (I := fun c : Cache K V => Tidy c ∧ c.entries.length ≤ Nat.max 1 max)
    (fun c k h => callN_inv max f h.1 h.2 k) ks empty
    ⟨⟨rfl, List.nodup_nil⟩, Nat.zero_le _⟩
  exact ⟨this.2, this.1.keys ▸ this.1.nodup, this.1.keys.symm⟩

/-- Case for C06: 5 distinct keys through capacity 3 leave exactly the last three. -/
example : (runCalls (callN 3 (fun n : Nat => (Except.ok n : Except String Nat))) empty [1, 2, 3, 4, 5]).2.order = [5, 4, 3] := by
  decide

/-! ### C07 -/

/-- Every query made by the body satisfies `p`, whatever the answers are. -/
inductive Prog.Asks (p : K → Prop) : Prog K V → Prop
  | ret (v : V) : Prog.Asks p (.ret v)
  | ask (k : K) (cont : V → Prog K V) : p k → (∀ v, Prog.Asks p (cont v)) → Prog.Asks p (.ask k cont)

/-- `rank` measures the nesting depth: the body of `k` asks only for keys of smaller rank. -/
def Ranked (body : K → Prog K V) (rank : K → Nat) : Prop := ∀ k, (body k).Asks (fun k' => rank k' < rank k)

/-- Invariant of one (possibly re-entrant) call: bookkeeping stays tidy, the size grows to at most
`max(size before, max + rank)`, and no key of rank above that of the query is inserted. -/
lemma callRec_inv (max : Nat) (hmax : 1 ≤ max) (body : K → Prog K V) (rank : K → Nat) (hr : Ranked body rank) :
    ∀ (fuel : Nat) (k : K) (c : Cache K V), Tidy c → ∀ v c', callRec max body fuel c k = some (v, c') →
      Tidy c' ∧ c'.entries.length ≤ Nat.max c.entries.length (max + rank k) ∧
      (∀ k' ∈ c'.entries.map Prod.fst, k' ∈ c.entries.map Prod.fst ∨ rank k' ≤ rank k) := by
  intro fuel
  induction fuel with
  | zero => intro k c _ v c' h; simp [callRec] at h
  | succ fuel ih =>
    intro k c hc v c' h
    -- the body, threaded
    have hexec : ∀ (p : Prog K V), p.Asks (fun k' => rank k' < rank k) → ∀ (d : Cache K V), Tidy d → ∀ w d',
        p.exec (callRec max body fuel) d = some (w, d') →
        Tidy d' ∧ d'.entries.length ≤ Nat.max d.entries.length (max + (rank k - 1)) ∧
        (∀ k' ∈ d'.entries.map Prod.fst, k' ∈ d.entries.map Prod.fst ∨ rank k' < rank k) := by
      intro p
      induction p with
      | ret w0 =>
        intro _ d hd w d' he
        simp [Prog.exec] at he
        obtain ⟨_, rfl⟩ := he
        exact ⟨hd, Nat.le_max_left _ _, fun k' h => Or.inl h⟩
      | ask k0 cont ihp =>
        intro ha d hd w d' he
        cases ha with
        | ask _ _ hk0 hcont =>
          simp only [Prog.exec] at he
          cases hcall : callRec max body fuel d k0 with
          | none => simp [hcall] at he
          | some r =>
            obtain ⟨v0, d0⟩ := r
            simp only [hcall] at he
            have h1 := ih k0 d hd v0 d0 hcall
            have h2 := ihp v0 (hcont v0) d0 h1.1 w d' he
            refine ⟨h2.1, ?_, ?_⟩
            · have a := h1.2.1; have b := h2.2.1
              simp only [Nat.max_def] at a b ⊢
              split_ifs at a b ⊢ <;> omega
            · intro k' hk'
              rcases h2.2.2 k' hk' with h | h
              · rcases h1.2.2 k' h with h | h
                · exact Or.inl h
                · exact Or.inr (by omega)
              · exact Or.inr h
    have ht := tidy_evict (max := max) hc
    have hz := size_evict (max := max) hc
    have hsub : ∀ k' ∈ (evict max c).entries.map Prod.fst, k' ∈ c.entries.map Prod.fst := by
      intro k' hk'
      obtain ⟨e, he, rfl⟩ := List.mem_map.mp hk'
      exact List.mem_map_of_mem (evict_entries_subset max c e he)
    simp only [callRec] at h
    cases hf : (evict max c).find k with
    | some v0 =>
      simp only [hf, Option.some.injEq, Prod.mk.injEq] at h
      obtain ⟨_, rfl⟩ := h
      exact ⟨ht, hz.1.trans (Nat.le_max_left _ _), fun k' hk' => Or.inl (hsub k' hk')⟩
    | none =>
      simp only [hf] at h
      cases he : (body k).exec (callRec max body fuel) (evict max c) with
      | none => simp [he] at h
      | some r =>
        obtain ⟨v0, d⟩ := r
        simp only [he, Option.some.injEq, Prod.mk.injEq] at h
        obtain ⟨rfl, rfl⟩ := h
        have hb := hexec (body k) (hr k) _ ht v0 d he
        have hnm : k ∉ d.entries.map Prod.fst := by
          intro hm
          rcases hb.2.2 k hm with h | h
          · exact (lookup_none_iff _ _).mp hf h
          · exact absurd h (lt_irrefl _)
        refine ⟨tidy_insert hb.1 v0 hnm, ?_, ?_⟩
        · rw [size_insert v0 hnm]
          have b := hb.2.1
          have hz1 := hz.1
          by_cases hrk : rank k = 0
          · -- a leaf: nothing nested
            have hret : ∃ w, body k = .ret w := by
              have := hr k
              cases hbk : body k with
              | ret w => exact ⟨w, rfl⟩
              | ask k0 cont =>
                rw [hbk] at this
                cases this with
                | ask _ _ h0 _ => omega
            obtain ⟨w, hw⟩ := hret
            rw [hw] at he; simp [Prog.exec] at he
            obtain ⟨_, rfl⟩ := he
            by_cases hfull : max ≤ c.entries.length
            · have hz2 := hz.2 hfull
              simp only [Nat.max_def]; split_ifs <;> omega
            · simp only [Nat.max_def]; split_ifs <;> omega
          · by_cases hfull : max ≤ c.entries.length
            · have hz2 := hz.2 hfull
              simp only [Nat.max_def] at b ⊢; split_ifs at b ⊢ <;> omega
            · simp only [Nat.max_def] at b ⊢; split_ifs at b ⊢ <;> omega
        · intro k' hk'
          simp only [Cache.insert, erase_of_not_mem hnm, List.map_cons, List.mem_cons] at hk'
          rcases hk' with rfl | hk'
          · exact Or.inr (le_refl _)
          · rcases hb.2.2 k' hk' with h | h
            · exact Or.inl (hsub k' h)
            · exact Or.inr (le_of_lt h)

/-- A history of top-level queries through the re-entrant cache. -/
def runRec (max : Nat) (body : K → Prog K V) (fuel : Nat) : Cache K V → List K → Option (Cache K V)
  | c, [] => some c
  | c, k :: ks =>
    match callRec max body fuel c k with
    | none => none
    | some (_, c') => runRec max body fuel c' ks

/-- **C07.** If no key nests deeper than `d` (rank at most `d`), then after any history of queries the cache holds at
most `max_cache_size + d` entries. -/
theorem C07_recursion_bound (max : Nat) (hmax : 1 ≤ max) (body : K → Prog K V) (rank : K → Nat)
    (hr : Ranked body rank) (d : Nat) (hd : ∀ k, rank k ≤ d) (fuel : Nat) (ks : List K) (c : Cache K V)
    (h : runRec max body fuel empty ks = some c) : c.entries.length ≤ max + d := by
  suffices H : ∀ (ks : List K) (c0 c : Cache K V), Tidy c0 → c0.entries.length ≤ max + d →
      runRec max body fuel c0 ks = some c → c.entries.length ≤ max + d from
    H ks empty c ⟨rfl, List.nodup_nil⟩ (Nat.zero_le _) h
  intro ks
  induction ks with
  | nil => intro c0 c _ hs h; simp [runRec] at h; exact h ▸ hs
  | cons k ks ih =>
    intro c0 c ht hs h
    simp only [runRec] at h
    cases hc : callRec max body fuel c0 k with
    | none => simp [hc] at h
    | some r =>
      obtain ⟨v, c1⟩ := r
      simp only [hc] at h
      have := callRec_inv max hmax body rank hr fuel k c0 ht v c1 hc
      refine ih c1 c this.1 ?_ h
      have b := this.2.1; have := hd k
      simp only [Nat.max_def] at b; split_ifs at b <;> omega

/-- A concrete recursive calculation: the value of `n+1` is that of `n` plus one (a chain of reactions). -/
def chainBody : Nat → Prog Nat Nat
  | 0 => .ret 0
  | n + 1 => .ask n (fun v => .ret (v + 1))

lemma chain_ranked : Ranked chainBody (fun n => n) := by
  intro k
  cases k with
  | zero => exact .ret 0
  | succ n => exact .ask _ _ (Nat.lt_succ_self n) (fun v => .ret _)

/-- Case for C07 and tightness: with capacity 1 a chain of depth 3 leaves four entries, one more per nesting level. -/
example : (runRec 1 chainBody 10 empty [3]).map (fun c => c.entries.length) = some 4 := by decide

/-- The body run without any cache: nested queries are answered by `ask`. -/
def Prog.eval (ask : K → Option V) : Prog K V → Option V
  | .ret v => some v
  | .ask k cont =>
    match ask k with
    | none => none
    | some v => (cont v).eval ask

/-- The un-memoised recursion. -/
def pureRec (body : K → Prog K V) : Nat → K → Option V
  | 0, _ => none
  | fuel + 1, k => (body k).eval (pureRec body fuel)

lemma pureRec_mono (body : K → Prog K V) : ∀ (n m : Nat) (k : K) (v : V), n ≤ m → pureRec body n k = some v →
    pureRec body m k = some v := by
  intro n
  induction n with
  | zero => intro m k v _ h; simp [pureRec] at h
  | succ n ih =>
    intro m k v hm h
    obtain ⟨m, rfl⟩ : ∃ m', m = m' + 1 := ⟨m - 1, by omega⟩
    have hgo : ∀ (p : Prog K V) v, p.eval (pureRec body n) = some v → p.eval (pureRec body m) = some v := by
      intro p
      induction p with
      | ret w => intro v h; simpa [Prog.eval] using h
      | ask k0 cont ihp =>
        intro v h
        simp only [Prog.eval] at h ⊢
        cases hk : pureRec body n k0 with
        | none => simp [hk] at h
        | some w =>
          simp only [hk] at h
          rw [ih m k0 w (by omega) hk]
          exact ihp w v h
    simp only [pureRec] at h ⊢
    exact hgo _ v h

/-- **C07 (values).** Whenever the un-memoised recursion terminates within `fuel` nesting levels, the cached one
terminates with the same value, from any cache filled by such recursions, and keeps it so. -/
theorem C07_recursive_transparent (max : Nat) (body : K → Prog K V) :
    ∀ (fuel : Nat) (c : Cache K V) (k : K) (v : V),
      (∀ e ∈ c.entries, ∃ n, pureRec body n e.1 = some e.2) → pureRec body fuel k = some v →
      ∃ c', callRec max body fuel c k = some (v, c') ∧ ∀ e ∈ c'.entries, ∃ n, pureRec body n e.1 = some e.2 := by
  have det : ∀ (n m : Nat) (k : K) (v w : V), pureRec body n k = some v → pureRec body m k = some w → v = w := by
    intro n m k v w h1 h2
    have a := pureRec_mono body n (n + m) k v (by omega) h1
    have b := pureRec_mono body m (n + m) k w (by omega) h2
    exact Option.some.inj (a.symm.trans b)
  intro fuel
  induction fuel with
  | zero => intro c k v _ h; simp [pureRec] at h
  | succ fuel ih =>
    intro c k v hc h
    have hc' : ∀ e ∈ (evict max c).entries, ∃ n, pureRec body n e.1 = some e.2 :=
      fun e he => hc e (evict_entries_subset max c e he)
    simp only [callRec]
    cases hf : (evict max c).find k with
    | some w =>
      obtain ⟨n, hn⟩ := hc' _ (mem_of_lookup hf)
      exact ⟨evict max c, by rw [det _ _ k v w h hn], hc'⟩
    | none =>
      have hgo : ∀ (p : Prog K V) (d : Cache K V) (w : V), (∀ e ∈ d.entries, ∃ n, pureRec body n e.1 = some e.2) →
          p.eval (pureRec body fuel) = some w → ∃ d', p.exec (callRec max body fuel) d = some (w, d') ∧
            ∀ e ∈ d'.entries, ∃ n, pureRec body n e.1 = some e.2 := by
        intro p
        induction p with
        | ret w0 => intro d w hd hg; simp [Prog.eval] at hg; exact ⟨d, by simp [Prog.exec, hg], hd⟩
        | ask k0 cont ihp =>
          intro d w hd hg
          simp only [Prog.eval] at hg
          cases hk : pureRec body fuel k0 with
          | none => simp [hk] at hg
          | some u =>
            simp only [hk] at hg
            obtain ⟨d1, h1, hd1⟩ := ih d k0 u hd hk
            obtain ⟨d2, h2, hd2⟩ := ihp u d1 w hd1 hg
            exact ⟨d2, by simp only [Prog.exec, h1, h2], hd2⟩
      obtain ⟨d, hd, hcoh⟩ := hgo (body k) (evict max c) v hc' (by simpa only [pureRec] using h)
      refine ⟨d.insert k v, by simp only [hd], ?_⟩
      intro e he
      simp only [Cache.insert, List.mem_cons] at he
      rcases he with rfl | he
      · exact ⟨fuel + 1, h⟩
      · exact hcoh e (erase_subset _ _ e he)

example : (callRec 1 chainBody 10 empty 4).map (·.1) = some 4 ∧ pureRec chainBody 10 4 = some 4 := by decide

/-! ### C08 -/

/-- The keys for which the function was actually run (successfully), oldest first: an observable log. -/
def computeLog (max : Nat) (f : K → Except ε V) : Cache K V → List K → List K
  | _, [] => []
  | c, k :: ks =>
    let c' := (callN max f c k).2
    if (evict max c).find k = none ∧ (f k).toOption.isSome
    then k :: computeLog max f c' ks else computeLog max f c' ks

/-- **C08.** First in, first out: after any history the cached keys, in insertion order, are precisely the most recent
entries (a suffix) of the log of computed keys.  So an entry is only ever dropped when every remaining one is younger. -/
theorem C08_fifo (max : Nat) (f : K → Except ε V) (ks : List K) :
    (runCalls (callN max f) empty ks).2.order.reverse <:+ computeLog max f empty ks := by
  suffices H : ∀ (ks : List K) (c : Cache K V) (log : List K), c.order.reverse <:+ log →
      (runCalls (callN max f) c ks).2.order.reverse <:+ log ++ computeLog max f c ks by
    simpa using H ks empty [] (by simp [empty])
  intro ks
  induction ks with
  | nil => intro c log h; simpa [runCalls, computeLog] using h
  | cons k ks ih =>
    intro c log h
    have hev : (evict max c).order.reverse <:+ log := by
      unfold evict
      split
      · split
        · exact h
        · refine List.IsSuffix.trans ?_ h
          simp only
          rw [← List.tail_reverse]
          exact List.tail_suffix _
      · exact h
    have hstep : (callN max f c k).2 = (match (evict max c).find k with
        | some _ => evict max c
        | none => match f k with
          | .ok v => (evict max c).insert k v
          | .error _ => evict max c) := by
      unfold callN
      cases hf : (evict max c).find k with
      | some v => simp only [hf]
      | none => cases hk : f k <;> simp only [hf, hk]
    simp only [runCalls, computeLog]
    cases hf : (evict max c).find k with
    | some v =>
      simp only [hf] at hstep
      simp only [reduceCtorEq, false_and, and_false, if_false]
      exact ih _ log (by rw [hstep]; exact hev)
    | none =>
      cases hk : f k with
      | error e =>
        simp only [hf, hk] at hstep
        simp only [Except.toOption, Option.isSome_none, Bool.false_eq_true, and_false, if_false]
        exact ih _ log (by rw [hstep]; exact hev)
      | ok v =>
        simp only [hf, hk] at hstep
        simp only [Except.toOption, Option.isSome_some, and_self, if_true]
        have := ih (callN max f c k).2 (log ++ [k]) (by
          rw [hstep]; simp only [Cache.insert, List.reverse_cons]
          obtain ⟨t, ht⟩ := hev
          exact ⟨t, by rw [← ht, List.append_assoc]⟩)
        simpa using this

example : (runCalls (callN 2 (fun n : Nat => (Except.ok n : Except String Nat))) empty [1, 2, 3, 2]).2.order.reverse = [3, 2] ∧
    computeLog 2 (fun n : Nat => (Except.ok n : Except String Nat)) empty [1, 2, 3, 2] = [1, 2, 3, 2] := by decide

/-- **C08, hits do not protect (LRU refuted).** With capacity 2, after computing 1, 2 the query 2 is a hit and yet
evicts 1; and re-querying the oldest key recomputes it although it was cached. -/
theorem C08_lru_refuted : ∃ (f : Nat → Except String Nat),
    let c := (runCalls (callN 2 f) empty [1, 2]).2
    (c.find 1).isSome ∧ (c.find 2).isSome ∧ ((callN 2 f c 2).2.find 1).isNone ∧
    ((evict 2 c).find 1).isNone := ⟨fun n => .ok n, by decide⟩

/-- **C08, capacity one never hits.** With `max_cache_size = 1` every call recomputes: no lookup ever succeeds,
after any history. -/
theorem C08_capacity_one_never_hits (f : K → Except ε V) (ks : List K) (k : K) :
    (evict 1 (runCalls (callN 1 f) empty ks).2).find k = none := by
  have h := C06_bounded 1 f ks
  have ht : Tidy (runCalls (callN 1 f) empty ks).2 := ⟨h.2.2.symm, h.2.2 ▸ h.2.1⟩
  have hz := size_evict (max := 1) ht
  have hlen : (evict 1 (runCalls (callN 1 f) empty ks).2).entries.length = 0 := by
    by_cases h1 : 1 ≤ (runCalls (callN 1 f) empty ks).2.entries.length
    · have := hz.2 h1; have h0 := h.1; simp at h0; omega
    · have := hz.1; omega
  simp [find, List.length_eq_zero_iff.mp hlen]

/-! ### C09 -/

variable {Env : Type}

/-- What a client expects: each query is answered from the data current at that moment. -/
def freshAnswers (f : Env → K → Except ε V) : Env → List (EnvOp Env K) → List (Option (Except ε V))
  | _, [] => []
  | _, .change e' :: ops => none :: freshAnswers f e' ops
  | e, .query k :: ops => some (f e k) :: freshAnswers f e ops

/-- **C09, violation.** The engine's caches survive a change of data or preferences, so a repeated query returns the
old value: default capacity 10⁶ (ThermoEngine.h), data 1, query, data 2, same query → 1 again. -/
theorem C09_fresh_refuted : ∃ (f : Nat → Nat → Except String Nat) (ops : List (EnvOp Nat Nat)),
    (runCalls (stepEnv 1000000 f) (1, empty) ops).1 ≠ freshAnswers f 1 ops :=
  ⟨fun e _ => .ok e, [.query 0, .change 2, .query 0], by decide⟩

/-- No key is asked twice in the history. -/
def queried : List (EnvOp Env K) → List K
  | [] => []
  | .change _ :: ops => queried ops
  | .query k :: ops => k :: queried ops

/-- **C09 (partial).** Full statement: `runCalls (stepEnv max f) (e, empty) ops = freshAnswers f e ops` for every
history.  Proved for histories in which no key is queried twice; missing (and false, see `C09_fresh_refuted`): repeated
queries across a change. -/
theorem C09_fresh_partial (max : Nat) (f : Env → K → Except ε V) (e : Env) (ops : List (EnvOp Env K))
    (h : (queried ops).Nodup) : (runCalls (stepEnv max f) (e, empty) ops).1 = freshAnswers f e ops := by
  suffices H : ∀ (ops : List (EnvOp Env K)) (e : Env) (c : Cache K V), (queried ops).Nodup →
      (∀ k ∈ queried ops, k ∉ c.entries.map Prod.fst) →
      (runCalls (stepEnv max f) (e, c) ops).1 = freshAnswers f e ops from
    H ops e empty h (by intro k _; simp [empty])
  intro ops
  induction ops with
  | nil => intro e c _ _; rfl
  | cons op ops ih =>
    intro e c hn hf
    cases op with
    | change e' => simp only [runCalls, stepEnv, freshAnswers, ih e' c hn hf]
    | query k =>
      simp only [queried, List.nodup_cons] at hn
      have hk : (evict max c).find k = none := by
        rw [find, lookup_none_iff]
        intro hm
        obtain ⟨x, hx, hxk⟩ := List.mem_map.mp hm
        exact hf k (by simp [queried]) (List.mem_map.mpr ⟨x, evict_entries_subset max c x hx, hxk⟩)
      have hsub : ∀ k' ∈ (callN max (f e) c k).2.entries.map Prod.fst, k' ∈ c.entries.map Prod.fst ∨ k' = k := by
        intro k' hk'
        unfold callN at hk'
        have hev : ∀ x ∈ (evict max c).entries.map Prod.fst, x ∈ c.entries.map Prod.fst := by
          intro x hx
          obtain ⟨y, hy, rfl⟩ := List.mem_map.mp hx
          exact List.mem_map_of_mem (evict_entries_subset max c y hy)
        cases hfk : f e k with
        | error _ => simp only [hk, hfk] at hk'; exact Or.inl (hev k' hk')
        | ok v =>
          simp only [hk, hfk, Cache.insert, List.map_cons, List.mem_cons] at hk'
          rcases hk' with rfl | hk'
          · exact Or.inr rfl
          · obtain ⟨y, hy, rfl⟩ := List.mem_map.mp hk'
            exact Or.inl (hev _ (List.mem_map_of_mem (erase_subset _ _ y hy)))
      have hval : (callN max (f e) c k).1 = f e k := by
        unfold callN; cases hfk : f e k <;> simp only [hk, hfk]
      simp only [runCalls, stepEnv, freshAnswers, hval]
      rw [ih e _ hn.2]
      intro k' hk' hm
      rcases hsub k' hm with h | rfl
      · exact hf k' (by simp [queried, hk']) h
      · exact hn.1 hk'

example : (queried [EnvOp.query 0, .change 2, .query 1, .change 3, .query (2 : Nat)] : List Nat).Nodup := by decide

/-! ### C10 -/

/-- **C10, violation (a).** The very first call with the default argument returns the default result without running
the function. -/
theorem C10_default_refuted : ∃ (f : Nat → Except String Nat) (ks : List Nat),
    (runCalls (LastCache.call f) ⟨0, 0⟩ ks).1 ≠ ks.map f :=
  ⟨fun _ => .ok 7, [0], by decide⟩

/-- **C10, violation (b).** After a call that raised, repeating it returns the previous result instead of raising. -/
theorem C10_throw_refuted : ∃ (f : Nat → Except String Nat) (ks : List Nat), ks.head? = some 1 ∧
    (runCalls (LastCache.call f) ⟨0, 0⟩ ks).1 ≠ ks.map f :=
  ⟨fun n => if n = 2 then .error "out of range" else .ok n, [1, 2, 2], by decide⟩

/-- **C10 (partial).** Full statement: `(runCalls (LastCache.call f) ⟨k0, v0⟩ ks).1 = ks.map f` for every `f` and `ks`,
with `k0`, `v0` the default values.  Proved for functions that never raise when the default result is right for the
default argument or the first call is not with it; missing (false, see above): the other cases. -/
theorem C10_last_partial (f : K → Except ε V) (k0 : K) (v0 : V) (ks : List K)
    (htot : ∀ k, ∃ v, f k = .ok v) (h0 : f k0 = .ok v0 ∨ ks.head? ≠ some k0) :
    (runCalls (LastCache.call f) ⟨k0, v0⟩ ks).1 = ks.map f := by
  have H : ∀ (ks : List K) (c : LastCache K V), f c.key = .ok c.result →
      (runCalls (LastCache.call f) c ks).1 = ks.map f := by
    intro ks
    induction ks with
    | nil => intro c _; rfl
    | cons k ks ih =>
      intro c hc
      by_cases hk : k = c.key
      · have : LastCache.call f c k = (.ok c.result, c) := by simp [LastCache.call, hk]
        subst hk; simp only [runCalls, this, ih c hc, List.map_cons, hc]
      · obtain ⟨v, hv⟩ := htot k
        have : LastCache.call f c k = (.ok v, ⟨k, v⟩) := by simp [LastCache.call, hk, hv]
        simp only [runCalls, this, ih ⟨k, v⟩ hv, List.map_cons, hv]
  rcases h0 with h0 | h0
  · exact H ks _ h0
  · cases ks with
    | nil => rfl
    | cons k ks =>
      have hk : k ≠ k0 := by simpa using h0
      obtain ⟨v, hv⟩ := htot k
      have : LastCache.call f ⟨k0, v0⟩ k = (.ok v, ⟨k, v⟩) := by simp [LastCache.call, hk, hv]
      simp only [runCalls, this, H ks ⟨k, v⟩ hv, List.map_cons, hv]

example : ([5, 0, 0, 5] : List Nat).head? ≠ some 0 ∧
    (runCalls (LastCache.call (fun n : Nat => (Except.ok (n + 1) : Except String Nat))) ⟨0, 0⟩ [5, 0, 0, 5]).1
      = [.ok 6, .ok 1, .ok 1, .ok 6] := by decide

/-! ### C11 -/

/-- Operations of a client that passes its pressure variable by reference: assign it, query, end its lifetime. -/
inductive RefOp (R : Type) where
  | setP (addr : Nat) (p : R)
  | kill (addr : Nat)
  | query (T : R) (addr : Nat) (sym : String)

variable {R : Type} [DecidableEq R]

/-- Run a client through the cache. Returns the query results and the final state, or undefined behaviour. -/
def runRef (f : R → R → String → V × R) : PMem R × List (RefKey R × V) → List (RefOp R) →
    Outc (List V × (PMem R × List (RefKey R × V)))
  | s, [] => .ok ([], s)
  | s, .setP a p :: ops => runRef f (fun x => if x = a then some p else s.1 x, s.2) ops
  | s, .kill a :: ops => runRef f (fun x => if x = a then none else s.1 x, s.2) ops
  | s, .query T a sym :: ops =>
    match refQuery f s T a sym with
    | .ub => .ub
    | .ok (v, s') =>
      match runRef f s' ops with
      | .ub => .ub
      | .ok (vs, s'') => .ok (v :: vs, s'')

/-- What the client sees without a cache: every query runs the function on its variables. -/
def runPlain (f : R → R → String → V × R) : PMem R → List (RefOp R) → Outc (List V × PMem R)
  | m, [] => .ok ([], m)
  | m, .setP a p :: ops => runPlain f (fun x => if x = a then some p else m x) ops
  | m, .kill a :: ops => runPlain f (fun x => if x = a then none else m x) ops
  | m, .query T a sym :: ops =>
    match m a with
    | none => .ub
    | some P =>
      match runPlain f (fun x => if x = a then some (f T P sym).2 else m x) ops with
      | .ub => .ub
      | .ok (vs, m') => .ok ((f T P sym).1 :: vs, m')

/-- The final content of variable `a`. -/
def finalP (a : Nat) : Outc (List V × (PMem R × List (RefKey R × V))) → Option R
  | .ok (_, s) => s.1 a
  | .ub => none

/-- The saturation pressure example: `P = 0` asks for saturation and gets 5 written back. -/
def satF : Int → Int → String → Int × Int := fun T P _ => if P = 0 then (T + 5, 5) else (T + P, P)

/-- **C11, violation (a).** The same variable set to 0 twice and queried twice: the first query stores the saturation
pressure into it, the second (a cache hit) leaves 0. -/
theorem C11_writeback_refuted :
    finalP 1 (runRef satF (fun _ => none, []) [.setP 1 0, .query 300 1 "H2O@"]) = some 5 ∧
    finalP 1 (runRef satF (fun _ => none, []) [.setP 1 0, .query 300 1 "H2O@", .setP 1 0, .query 300 1 "H2O@"]) = some 0 := by
  decide

/-- The outcome is undefined behaviour. -/
def isUB {A : Type} : Outc A → Bool
  | .ub => true
  | .ok _ => false

/-- **C11, violation (b).** If the variable of the first query is gone, the second identical query (with its own live
variable) reads a dangling reference; without the cache the program is well defined. -/
theorem C11_dangling_refuted :
    isUB (runRef satF (fun _ => none, []) [.setP 1 100, .query 300 1 "CO2", .kill 1, .setP 2 100, .query 300 2 "CO2"]) = true ∧
    isUB (runPlain satF (fun _ => none) [.setP 1 100, .query 300 1 "CO2", .kill 1, .setP 2 100, .query 300 2 "CO2"]) = false := by
  decide

/-- No variable's lifetime ends and no query writes a different pressure back. -/
def Benign (f : R → R → String → V × R) : PMem R → List (RefOp R) → Prop
  | _, [] => True
  | m, .setP a p :: ops => Benign f (fun x => if x = a then some p else m x) ops
  | _, .kill _ :: _ => False
  | m, .query T a sym :: ops => (∀ P, m a = some P → (f T P sym).2 = P) ∧ (∃ P, m a = some P) ∧ Benign f m ops

/-- **C11 (partial).** Full statement: `runRef` and `runPlain` give the same values and the same final variables.
Proved for clients whose variables stay alive and whose queries write nothing new back (P ≠ 0); variables may be
reassigned and shared between queries at will.  Missing (false, see above): saturation queries repeated on the same
variable, and variables that go out of scope. -/
theorem C11_reference_partial (f : R → R → String → V × R) (ops : List (RefOp R)) (m : PMem R)
    (h : Benign f m ops) :
    ∃ vs m' c, runRef f (m, []) ops = .ok (vs, (m', c)) ∧ runPlain f m ops = .ok (vs, m') := by
  suffices H : ∀ (ops : List (RefOp R)) (m : PMem R) (c : List (RefKey R × V)),
      (∀ e ∈ c, (m e.1.addr).isSome ∧ e.2 = (f e.1.T e.1.P e.1.sym).1) → Benign f m ops →
      ∃ vs m' c', runRef f (m, c) ops = .ok (vs, (m', c')) ∧ runPlain f m ops = .ok (vs, m') from
    H ops m [] (by simp) h
  intro ops
  induction ops with
  | nil => intro m c _ _; exact ⟨[], m, c, rfl, rfl⟩
  | cons op ops ih =>
    intro m c hc hb
    cases op with
    | kill a => exact hb.elim
    | setP a p =>
      refine ih (fun x => if x = a then some p else m x) c ?_ hb
      intro e he
      refine ⟨?_, (hc e he).2⟩
      split
      · rfl
      · exact (hc e he).1
    | query T a sym =>
      obtain ⟨hw, ⟨P, hP⟩, hrest⟩ := hb
      have hwb := hw P hP
      have hm : (fun x => if x = a then some (f T P sym).2 else m x) = m := by
        funext x; split
        · rename_i hx; rw [hwb, hx, hP]
        · rfl
      have hfind : ∀ (c : List (RefKey R × V)), (∀ e ∈ c, (m e.1.addr).isSome ∧ e.2 = (f e.1.T e.1.P e.1.sym).1) →
          refFind m T P sym c = .ok none ∨ refFind m T P sym c = .ok (some (f T P sym).1) := by
        intro c
        induction c with
        | nil => intro _; exact Or.inl rfl
        | cons e c ihc =>
          intro hc
          have he := hc e (by simp)
          have hrec := ihc (fun e' he' => hc e' (by simp [he']))
          obtain ⟨k, v⟩ := e
          simp only [refFind]
          split
          · rename_i hTP
            obtain ⟨p, hp⟩ := Option.isSome_iff_exists.mp he.1
            simp only at hp
            rw [hp]
            simp only
            split
            · rename_i hps
              right
              have := he.2
              simp only [hTP.1, hTP.2, hps.2] at this
              rw [this]
            · exact hrec
          · exact hrec
      rcases hfind c hc with hn | hs
      · obtain ⟨vs, m', c', h1, h2⟩ := ih m ((⟨T, P, a, sym⟩, (f T P sym).1) :: c) (by
          intro e he
          rcases List.mem_cons.mp he with rfl | he
          · exact ⟨by simp [hP], rfl⟩
          · exact hc e he) hrest
        refine ⟨(f T P sym).1 :: vs, m', c', ?_, ?_⟩
        · simp only [runRef, refQuery, hP, hn, hm, h1]
        · simp only [runPlain, hP, hm, h2]
      · obtain ⟨vs, m', c', h1, h2⟩ := ih m c hc hrest
        refine ⟨(f T P sym).1 :: vs, m', c', ?_, ?_⟩
        · simp only [runRef, refQuery, hP, hs, h1]
        · simp only [runPlain, hP, hm, h2]

example : Benign satF (fun _ => none)
    [.setP 1 100, .query 300 1 "CO2", .setP 1 200, .query 300 1 "CO2", .setP 2 100, .query 300 2 "CO2"] := by
  simp [Benign, satF]

/-! ### C66 -/

/-- **C66, violation.** A copied engine shares the map but not the eviction queue: with capacity 2 the pair of engines
lets the shared cache grow to 3 entries (and further with more copies of keys). -/
theorem C66_copy_bound_refuted : ∃ (f : Nat → Except String Nat) (qs : List (Bool × Nat)),
    let c := (runCalls (TwinCache.call 2 f) ⟨[], [], []⟩ qs).2
    2 < c.entries.length :=
  ⟨fun n => .ok n, [(false, 1), (false, 2), (true, 3), (true, 4), (true, 5)], by decide⟩

/-- **C66 (partial).** Full statement: two engines, one copied from the other, each keep their cache within its bound
and answer like the un-memoised function.  Proved: the answers of both are right for every interleaving (same data);
missing: the bound, refuted above. -/
theorem C66_copy_answers_partial (max : Nat) (f : K → Except ε V) (orderA orderB : List K) (entries : List (K × V))
    (hc : ∀ e ∈ entries, f e.1 = .ok e.2) (qs : List (Bool × K)) :
    (runCalls (TwinCache.call max f) ⟨entries, orderA, orderB⟩ qs).1 = qs.map (fun q => f q.2) := by
  induction qs generalizing orderA orderB entries with
  | nil => rfl
  | cons q qs ih =>
    have hstep : ∀ (o : List K), (callN max f ⟨entries, o⟩ q.2).1 = f q.2 ∧
        ∀ e ∈ (callN max f ⟨entries, o⟩ q.2).2.entries, f e.1 = .ok e.2 := by
      intro o
      have hc' := coherent_evict (max := max) (f := f) (c := ⟨entries, o⟩) hc
      unfold callN
      cases hf : (evict max ⟨entries, o⟩).find q.2 with
      | some v => simp only [hf]; exact ⟨(hc' _ (mem_of_lookup hf)).symm, hc'⟩
      | none =>
        cases hk : f q.2 with
        | error e => simp only [hf, hk]; exact ⟨trivial, hc'⟩
        | ok v =>
          simp only [hf, hk]
          refine ⟨trivial, ?_⟩
          intro e he
          simp only [Cache.insert, List.mem_cons] at he
          rcases he with rfl | he
          · exact hk
          · exact hc' e (erase_subset _ _ e he)
    obtain ⟨b, k⟩ := q
    cases b with
    | true =>
      simp only [runCalls, TwinCache.call, if_true, (hstep orderB).1, List.map_cons]
      rw [ih _ _ _ (hstep orderB).2]
    | false =>
      simp only [runCalls, TwinCache.call, Bool.false_eq_true, if_false, (hstep orderA).1, List.map_cons]
      rw [ih _ _ _ (hstep orderA).2]

/-- What an engine and its copy preserve: `n` is the number of entries when the copy was made. -/
structure TwinInv (max n : Nat) (c : TwinCache K V) : Prop where
  nodup : (c.entries.map Prod.fst).Nodup
  covered : ∀ k ∈ c.entries.map Prod.fst, k ∈ c.orderA ∨ k ∈ c.orderB
  stale : c.orderA.length + c.orderB.length ≤ c.entries.length + n
  lenA : c.orderA.length ≤ max + n
  lenB : c.orderB.length ≤ max + n
  total : c.orderA.length + c.orderB.length ≤ max + n + 1

lemma erase_length_ge (l : List (K × V)) (k : K) (h : (l.map Prod.fst).Nodup) : l.length ≤ (Cache.erase l k).length + 1 := by
  induction l with
  | nil => simp
  | cons e l ih =>
    simp only [List.map_cons, List.nodup_cons] at h
    by_cases hk : e.1 = k
    · have : Cache.erase l k = l := by
        refine List.filter_eq_self.mpr fun x hx => ?_
        have : x.1 ≠ k := fun hxk => h.1 (List.mem_map.mpr ⟨x, hx, by rw [hxk, hk]⟩)
        simpa using this
      rw [show Cache.erase (e :: l) k = Cache.erase l k by simp [Cache.erase, List.filter_cons, hk], this]
      simp
    · have := ih h.2
      rw [show Cache.erase (e :: l) k = e :: Cache.erase l k by simp [Cache.erase, List.filter_cons, hk]]
      simp only [List.length_cons]; omega

lemma erase_length_le (l : List (K × V)) (k : K) : (Cache.erase l k).length ≤ l.length := List.length_filter_le _ _

/-- One call through the engine whose usage list is `order`, the other one's being `other`. -/
lemma twin_step (max n : Nat) (hmax : 1 ≤ max) (f : K → Except ε V) (entries : List (K × V)) (order other : List K) (k : K)
    (nodup : (entries.map Prod.fst).Nodup) (covered : ∀ x ∈ entries.map Prod.fst, x ∈ order ∨ x ∈ other)
    (stale : order.length + other.length ≤ entries.length + n) (lenA : order.length ≤ max + n)
    (lenB : other.length ≤ max + n) (total : order.length + other.length ≤ max + n + 1) :
    let c' := (callN max f ⟨entries, order⟩ k).2
    (c'.entries.map Prod.fst).Nodup ∧ (∀ x ∈ c'.entries.map Prod.fst, x ∈ c'.order ∨ x ∈ other) ∧
      c'.order.length + other.length ≤ c'.entries.length + n ∧ c'.order.length ≤ max + n ∧
      c'.order.length + other.length ≤ max + n + 1 := by
  -- after the eviction the list has room for one more key
  have hev : ∃ e o, evict max ⟨entries, order⟩ = ⟨e, o⟩ ∧ (e.map Prod.fst).Nodup ∧
      (∀ x ∈ e.map Prod.fst, x ∈ o ∨ x ∈ other) ∧ o.length + other.length ≤ e.length + n ∧
      o.length + 1 ≤ max + n ∧ o.length + other.length ≤ max + n := by
    unfold evict
    by_cases hfull : entries.length ≥ max
    · simp only [hfull, if_true]
      rcases List.eq_nil_or_concat order with rfl | ⟨o, b, rfl⟩
      · exact ⟨entries, [], rfl, nodup, covered, stale, by simp; omega, by simpa using lenB⟩
      · rw [List.concat_eq_append] at *
        refine ⟨Cache.erase entries b, o, by simp, ?_, ?_, ?_, ?_, ?_⟩
        · rw [erase_keys]; exact nodup.filter _
        · intro x hx
          rw [erase_keys, List.mem_filter] at hx
          have hne : x ≠ b := by simpa using hx.2
          rcases covered x hx.1 with h | h
          · left; simpa [hne] using h
          · exact Or.inr h
        · have := erase_length_ge entries b nodup
          simp only [List.length_append, List.length_singleton] at *; omega
        · simp only [List.length_append, List.length_singleton] at *; omega
        · simp only [List.length_append, List.length_singleton] at *; omega
    · simp only [hfull, if_false]
      refine ⟨entries, order, rfl, nodup, covered, stale, ?_, ?_⟩ <;> omega
  obtain ⟨e, o, he, h1, h2, h3, h4, h5⟩ := hev
  simp only [callN, he]
  cases hf : (Cache.mk e o).find k with
  | some v => exact ⟨h1, h2, h3, by simp only; omega, by simp only; omega⟩
  | none =>
    cases f k with
    | error x => exact ⟨h1, h2, h3, by simp only; omega, by simp only; omega⟩
    | ok v =>
      have hk : k ∉ e.map Prod.fst := (lookup_none_iff e k).mp hf
      have her : Cache.erase e k = e := by
        refine List.filter_eq_self.mpr fun x hx => ?_
        have : x.1 ≠ k := fun hxk => hk (List.mem_map.mpr ⟨x, hx, hxk⟩)
        simpa using this
      simp only [Cache.insert, her, List.map_cons, List.nodup_cons, List.mem_cons, List.length_cons]
      refine ⟨⟨hk, h1⟩, ?_, by omega, by omega, by omega⟩
      rintro x (rfl | hx)
      · exact Or.inl (Or.inl rfl)
      · rcases h2 x hx with h | h
        · exact Or.inl (Or.inr h)
        · exact Or.inr h

/-- **C66 (partial), size.** Full statement: two engines, one copied from the other, keep their cache within `max` entries
(refuted above). Proved: whatever is asked through which engine, the shared cache never exceeds `2·max + 1` entries. -/
theorem C66_copy_bound_partial (max : Nat) (hmax : 1 ≤ max) (f : K → Except ε V) (entries : List (K × V)) (order : List K)
    (hnd : (entries.map Prod.fst).Nodup) (hkeys : ∀ k ∈ entries.map Prod.fst, k ∈ order)
    (hlen : order.length = entries.length) (hle : entries.length ≤ max) (qs : List (Bool × K)) :
    (runCalls (TwinCache.call max f) ⟨entries, order, order⟩ qs).2.entries.length ≤ 2 * max + 1 := by
  have key : ∀ (c : TwinCache K V), TwinInv max entries.length c →
      TwinInv max entries.length (runCalls (TwinCache.call max f) c qs).2 := by
    induction qs with
    | nil => intro c h; exact h
    | cons q qs ih =>
      intro c h
      simp only [runCalls]
      apply ih
      obtain ⟨u, k⟩ := q
      cases u with
      | true =>
        obtain ⟨a1, a2, a3, a4, a5⟩ := twin_step max entries.length hmax f c.entries c.orderB c.orderA k h.nodup
          (fun x hx => (h.covered x hx).symm) (by have := h.stale; omega) h.lenB h.lenA (by have := h.total; omega)
        simp only [TwinCache.call, if_true]
        exact ⟨a1, fun x hx => (a2 x hx).symm, by simp only; omega, h.lenA, a4, by simp only; omega⟩
      | false =>
        obtain ⟨a1, a2, a3, a4, a5⟩ := twin_step max entries.length hmax f c.entries c.orderA c.orderB k h.nodup
          h.covered h.stale h.lenA h.lenB h.total
        simp only [TwinCache.call, Bool.false_eq_true, if_false]
        exact ⟨a1, a2, a3, a4, h.lenB, a5⟩
  have h0 : TwinInv max entries.length (⟨entries, order, order⟩ : TwinCache K V) :=
    ⟨hnd, fun k hk => Or.inl (hkeys k hk), by simp only; omega, by simp only; omega, by simp only; omega, by simp only; omega⟩
  have h := key _ h0
  have hsub : ((runCalls (TwinCache.call max f) ⟨entries, order, order⟩ qs).2.entries.map Prod.fst).length ≤
      ((runCalls (TwinCache.call max f) ⟨entries, order, order⟩ qs).2.orderA ++
        (runCalls (TwinCache.call max f) ⟨entries, order, order⟩ qs).2.orderB).length :=
    (List.subperm_of_subset h.nodup (fun x hx => List.mem_append.mpr (h.covered x hx))).length_le
  have := h.total
  simp only [List.length_map, List.length_append] at hsub
  omega

/-- A full cache of three entries meets the hypotheses. -/
example : let entries : List (Nat × Nat) := [(3, 9), (2, 4), (1, 1)]
    (entries.map Prod.fst).Nodup ∧ (∀ k ∈ entries.map Prod.fst, k ∈ [3, 2, 1]) ∧ [3, 2, 1].length = entries.length ∧
      entries.length ≤ 3 := by decide

end ThermoFun

import Verif.Model.Scopes
import Mathlib.Data.List.Basic
import Mathlib.Data.Rat.Defs
import Mathlib.Tactic.Push

/-! Requests one after another: C148. -/

set_option linter.unusedSimpArgs false
set_option linter.unusedVariables false

namespace ThermoFun.Scopes

variable {R V : Type} [DecidableEq R]

/-- Specification: some temperature and pressure are asked for in two of the requests. -/
def Repeats (qs : List (List (R × R × String))) : Prop :=
  ∃ (i j : Nat) (a b : List (R × R × String)), i < j ∧ qs[i]? = some a ∧ qs[j]? = some b ∧ ∃ x ∈ a, ∃ y ∈ b, x.1 = y.1 ∧ x.2.1 = y.2.1

/-- The cache before request `n`, after the queries `old` of earlier requests and `new` of this one: the answers are those of `f`, each entry is of one of these queries and
holds the variable of its request, those of earlier requests are gone, and each earlier query has an entry at its temperature and pressure. -/
structure Inv (f : R → R → String → V × R) (n : Nat) (old : List (R × R × String)) (s : St R V) : Prop where
  vals : ∀ e ∈ s.2, e.2 = (f e.1.T e.1.P e.1.sym).1
  dead : ∀ e ∈ s.2, e.1.addr ≠ n → s.1 e.1.addr = none ∧ ∃ x ∈ old, x.1 = e.1.T ∧ x.2.1 = e.1.P
  le : ∀ e ∈ s.2, e.1.addr ≤ n
  all : ∀ x ∈ old, ∃ e ∈ s.2, e.1.addr ≠ n ∧ x.1 = e.1.T ∧ x.2.1 = e.1.P

lemma find_ok {f : R → R → String → V × R} {m : PMem R} {n : Nat} {T P : R} {sym : String} (hm : m n = some P) :
    ∀ {c : List (RefKey R × V)}, (∀ e ∈ c, e.2 = (f e.1.T e.1.P e.1.sym).1) → (∀ e ∈ c, e.1.T = T ∧ e.1.P = P → e.1.addr = n) →
    refFind m T P sym c = .ok none ∨ refFind m T P sym c = .ok (some (f T P sym).1)
  | [], _, _ => Or.inl rfl
  | (k, v) :: c, h1, h2 => by
    have ih := find_ok (f := f) (sym := sym) hm (c := c) (fun e he => h1 e (by simp [he])) (fun e he => h2 e (by simp [he]))
    have hv := h1 (k, v) (by simp)
    have hk := h2 (k, v) (by simp)
    unfold refFind
    by_cases hTP : k.T = T ∧ k.P = P
    · rw [if_pos hTP, hk hTP, hm]
      dsimp only
      by_cases hs : P = P ∧ k.sym = sym
      · rw [if_pos hs]
        right
        rw [show v = _ from hv, hTP.1, hTP.2, hs.2]
      · rw [if_neg hs]; exact ih
    · rw [if_neg hTP]; exact ih

lemma find_ub {m : PMem R} {n : Nat} {T P : R} {sym : String} :
    ∀ {c : List (RefKey R × V)}, (∀ e ∈ c, e.1.T = T ∧ e.1.P = P → m e.1.addr = none) → (∃ e ∈ c, e.1.T = T ∧ e.1.P = P) → refFind m T P sym c = .ub
  | [], _, h => by obtain ⟨e, he, _⟩ := h; cases he
  | (k, v) :: c, h1, h2 => by
    unfold refFind
    by_cases hTP : k.T = T ∧ k.P = P
    · rw [if_pos hTP, show m k.addr = none from h1 (k, v) (by simp) hTP]
    · rw [if_neg hTP]
      refine find_ub (n := n) (fun e he => h1 e (by simp [he])) ?_
      obtain ⟨e, he, h⟩ := h2
      rcases List.mem_cons.1 he with rfl | he
      · exact absurd h hTP
      · exact ⟨e, he, h⟩

/-- The entries of this request are of queries of this request. -/
def Own (n : Nat) (new : List (R × R × String)) (s : St R V) : Prop := ∀ e ∈ s.2, e.1.addr = n → ∃ x ∈ new, x.1 = e.1.T ∧ x.2.1 = e.1.P

/-- Queries of this request have entries. -/
def Has (new : List (R × R × String)) (s : St R V) : Prop := ∀ x ∈ new, ∃ e ∈ s.2, x.1 = e.1.T ∧ x.2.1 = e.1.P

lemma step {f : R → R → String → V × R} {n : Nat} {old new : List (R × R × String)} {s : St R V} (hi : Inv f n old s) (ho : Own n new s) (hh : Has new s)
    (hdis : ∀ x ∈ new, ∀ y ∈ old, ¬ (x.1 = y.1 ∧ x.2.1 = y.2.1)) (q : R × R × String) :
    ((∃ y ∈ old, q.1 = y.1 ∧ q.2.1 = y.2.1) → query f n s q = .ub) ∧
    ((∀ y ∈ old, ¬ (q.1 = y.1 ∧ q.2.1 = y.2.1)) → ∃ s', query f n s q = .ok ((f q.1 q.2.1 q.2.2).1, s') ∧ Inv f n old s' ∧ Own n (new ++ [q]) s' ∧ Has (new ++ [q]) s') := by
  obtain ⟨T, P, sym⟩ := q
  have hm : (fun x => if x = n then some P else s.1 x) n = some P := by simp
  have hoth : ∀ a, a ≠ n → (fun x => if x = n then some P else s.1 x) a = s.1 a := fun a ha => by simp [ha]
  constructor
  · rintro ⟨y, hy, h1, h2⟩
    have : refFind (fun x => if x = n then some P else s.1 x) T P sym s.2 = .ub := by
      refine find_ub (n := n) ?_ ?_
      · intro e he hTP
        have hne : e.1.addr ≠ n := by
          intro h
          obtain ⟨x, hx, hx1, hx2⟩ := ho e he h
          exact hdis x hx y hy ⟨by rw [hx1, hTP.1]; exact h1, by rw [hx2, hTP.2]; exact h2⟩
        exact (hoth _ hne).trans (hi.dead e he hne).1
      · obtain ⟨e, he, _, h3, h4⟩ := hi.all y hy
        exact ⟨e, he, h3.symm.trans h1.symm, h4.symm.trans h2.symm⟩
    unfold query refQuery
    dsimp only
    rw [if_pos rfl]
    dsimp only
    rw [this]
  · intro hno
    have hkey : ∀ e ∈ s.2, e.1.T = T ∧ e.1.P = P → e.1.addr = n := by
      intro e he hTP
      by_contra hne
      obtain ⟨_, x, hx, hx1, hx2⟩ := hi.dead e he hne
      exact hno x hx ⟨by rw [hx1, hTP.1], by rw [hx2, hTP.2]⟩
    have hmem : ∀ m' : PMem R, (∀ a, a ≠ n → m' a = s.1 a) → Inv f n old (m', s.2) := fun m' h' =>
      ⟨hi.vals, fun e he hne => ⟨(h' _ hne).trans (hi.dead e he hne).1, (hi.dead e he hne).2⟩, hi.le, hi.all⟩
    unfold query refQuery
    dsimp only
    rw [if_pos rfl]
    dsimp only
    rcases find_ok (f := f) (m := fun x => if x = n then some P else s.1 x) (sym := sym) hm hi.vals hkey with h | h
    · rw [h]
      refine ⟨_, rfl, ?_, ?_, ?_⟩
      · refine ⟨?_, ?_, ?_, ?_⟩
        · intro e he
          rcases List.mem_cons.1 he with rfl | he
          · rfl
          · exact hi.vals e he
        · intro e he hne
          rcases List.mem_cons.1 he with rfl | he
          · exact absurd rfl hne
          · refine ⟨?_, (hi.dead e he hne).2⟩
            dsimp only
            rw [if_neg hne, if_neg hne]
            exact (hi.dead e he hne).1
        · intro e he
          rcases List.mem_cons.1 he with rfl | he
          · exact le_rfl
          · exact hi.le e he
        · intro x hx
          obtain ⟨e, he, h1⟩ := hi.all x hx
          exact ⟨e, List.mem_cons_of_mem _ he, h1⟩
      · intro e he ha
        rcases List.mem_cons.1 he with rfl | he
        · exact ⟨(T, P, sym), by simp, rfl, rfl⟩
        · obtain ⟨x, hx, h1⟩ := ho e he ha
          exact ⟨x, by simp [hx], h1⟩
      · intro x hx
        rcases List.mem_append.1 hx with hx | hx
        · obtain ⟨e, he, h1⟩ := hh x hx
          exact ⟨e, List.mem_cons_of_mem _ he, h1⟩
        · rw [List.mem_singleton] at hx
          subst hx
          exact ⟨_, List.mem_cons_self, rfl, rfl⟩
    · rw [h]
      refine ⟨_, rfl, hmem _ fun a ha => by simp [ha], ?_, ?_⟩
      · intro e he ha
        obtain ⟨x, hx, h1⟩ := ho e he ha
        exact ⟨x, by simp [hx], h1⟩
      · intro x hx
        rcases List.mem_append.1 hx with hx | hx
        · exact hh x hx
        · rw [List.mem_singleton] at hx
          subst hx
          by_contra hc
          have hnone : refFind (fun x => if x = n then some P else s.1 x) T P sym s.2 = .ok none := by
            have : ∀ c : List (RefKey R × V), (∀ e ∈ c, ¬ (e.1.T = T ∧ e.1.P = P)) → refFind (fun x => if x = n then some P else s.1 x) T P sym c = .ok none := by
              intro c
              induction c with
              | nil => intro _; rfl
              | cons e c ih =>
                intro hc
                obtain ⟨k, v⟩ := e
                unfold refFind
                rw [if_neg (hc (k, v) (by simp))]
                exact ih fun e he => hc e (by simp [he])
            exact this s.2 fun e he hTP => hc ⟨e, he, hTP.1.symm, hTP.2.symm⟩
          rw [hnone] at h
          cases h

lemma queries_run {f : R → R → String → V × R} {n : Nat} {old : List (R × R × String)} : ∀ (qs new : List (R × R × String)) {s : St R V}, Inv f n old s → Own n new s → Has new s →
    (∀ x ∈ new, ∀ y ∈ old, ¬ (x.1 = y.1 ∧ x.2.1 = y.2.1)) →
    ((∃ x ∈ qs, ∃ y ∈ old, x.1 = y.1 ∧ x.2.1 = y.2.1) → queries f n s qs = .ub) ∧
    ((∀ x ∈ qs, ∀ y ∈ old, ¬ (x.1 = y.1 ∧ x.2.1 = y.2.1)) → ∃ s', queries f n s qs = .ok (qs.map fun q => (f q.1 q.2.1 q.2.2).1, s') ∧ Inv f n old s' ∧ Own n (new ++ qs) s' ∧ Has (new ++ qs) s')
  | [], new, s, hi, ho, hh, hd => ⟨fun h => (by obtain ⟨x, hx, _⟩ := h; cases hx), fun _ => ⟨s, rfl, hi, by simpa using ho, by simpa using hh⟩⟩
  | q :: qs, new, s, hi, ho, hh, hd => by
    obtain ⟨h1, h2⟩ := step hi ho hh hd q
    by_cases hq : ∃ y ∈ old, q.1 = y.1 ∧ q.2.1 = y.2.1
    · refine ⟨fun _ => ?_, fun h => ?_⟩
      · unfold queries; rw [h1 hq]
      · obtain ⟨y, hy, hh⟩ := hq
        exact absurd hh (h q (by simp) y hy)
    · push Not at hq
      obtain ⟨s1, e1, i1, o1, a1⟩ := h2 fun y hy h => hq y hy h.1 h.2
      have hd1 : ∀ x ∈ new ++ [q], ∀ y ∈ old, ¬ (x.1 = y.1 ∧ x.2.1 = y.2.1) := by
        intro x hx y hy h
        rcases List.mem_append.1 hx with hx | hx
        · exact hd x hx y hy h
        · rw [List.mem_singleton] at hx
          subst hx
          exact hq y hy h.1 h.2
      obtain ⟨g1, g2⟩ := queries_run qs (new ++ [q]) i1 o1 a1 hd1
      refine ⟨fun h => ?_, fun h => ?_⟩
      · unfold queries
        rw [e1]
        dsimp only
        rw [g1 ?_]
        obtain ⟨x, hx, y, hy, hxy⟩ := h
        rcases List.mem_cons.1 hx with rfl | hx
        · exact absurd hxy.2 (hq y hy hxy.1)
        · exact ⟨x, hx, y, hy, hxy⟩
      · obtain ⟨s2, e2, i2, o2, a2⟩ := g2 fun x hx => h x (by simp [hx])
        refine ⟨s2, ?_, i2, by simpa using o2, by simpa using a2⟩
        unfold queries
        rw [e1]
        dsimp only
        rw [e2]
        rfl

/-- What the requests before `n` leave behind. -/
structure Past (f : R → R → String → V × R) (n : Nat) (old : List (R × R × String)) (s : St R V) : Prop where
  vals : ∀ e ∈ s.2, e.2 = (f e.1.T e.1.P e.1.sym).1
  dead : ∀ e ∈ s.2, e.1.addr < n ∧ s.1 e.1.addr = none ∧ ∃ x ∈ old, x.1 = e.1.T ∧ x.2.1 = e.1.P
  all : ∀ x ∈ old, ∃ e ∈ s.2, x.1 = e.1.T ∧ x.2.1 = e.1.P

lemma request_run {f : R → R → String → V × R} {n : Nat} {old : List (R × R × String)} {s : St R V} (h : Past f n old s) (qs : List (R × R × String)) :
    ((∃ x ∈ qs, ∃ y ∈ old, x.1 = y.1 ∧ x.2.1 = y.2.1) → request f n s qs = .ub) ∧
    ((∀ x ∈ qs, ∀ y ∈ old, ¬ (x.1 = y.1 ∧ x.2.1 = y.2.1)) → ∃ s', request f n s qs = .ok (qs.map fun q => (f q.1 q.2.1 q.2.2).1, s') ∧ Past f (n + 1) (old ++ qs) s') := by
  have hi : Inv f n old s := ⟨h.vals, fun e he _ => (h.dead e he).2, fun e he => (h.dead e he).1.le, fun x hx => by
    obtain ⟨e, he, h1⟩ := h.all x hx
    exact ⟨e, he, (h.dead e he).1.ne, h1⟩⟩
  have ho : Own n [] s := fun e he ha => absurd ha (h.dead e he).1.ne
  obtain ⟨g1, g2⟩ := queries_run qs [] hi ho (fun x hx => by cases hx) (fun x hx => by cases hx)
  refine ⟨fun hr => ?_, fun hr => ?_⟩
  · unfold request; rw [g1 hr]
  · obtain ⟨s', e, i', o', a'⟩ := g2 hr
    rw [List.nil_append] at o' a'
    refine ⟨(fun x => if x = n then none else s'.1 x, s'.2), ?_, i'.vals, ?_, ?_⟩
    · unfold request; rw [e]
    · intro e he
      refine ⟨Nat.lt_succ_of_le (i'.le e he), ?_, ?_⟩
      · dsimp only
        split
        · rfl
        · rename_i hne
          exact (i'.dead e he hne).1
      · by_cases hne : e.1.addr = n
        · obtain ⟨x, hx, h1⟩ := o' e he hne
          exact ⟨x, by simp [hx], h1⟩
        · obtain ⟨_, x, hx, h1⟩ := i'.dead e he hne
          exact ⟨x, by simp [hx], h1⟩
    · intro x hx
      rcases List.mem_append.1 hx with hx | hx
      · obtain ⟨e, he, _, h1⟩ := i'.all x hx
        exact ⟨e, he, h1⟩
      · exact a' x hx

lemma requests_run {f : R → R → String → V × R} : ∀ (qs : List (List (R × R × String))) {n : Nat} {old : List (R × R × String)} {s : St R V}, Past f n old s →
    ((Repeats qs ∨ ∃ a ∈ qs, ∃ x ∈ a, ∃ y ∈ old, x.1 = y.1 ∧ x.2.1 = y.2.1) → requests f n s qs = .ub) ∧
    (¬ (Repeats qs ∨ ∃ a ∈ qs, ∃ x ∈ a, ∃ y ∈ old, x.1 = y.1 ∧ x.2.1 = y.2.1) → requests f n s qs = .ok (qs.map fun a => a.map fun q => (f q.1 q.2.1 q.2.2).1))
  | [], n, old, s, h => by
    refine ⟨fun hr => ?_, fun _ => rfl⟩
    rcases hr with ⟨i, j, a, b, _, ha, _⟩ | ⟨a, ha, _⟩
    · simp at ha
    · cases ha
  | a :: qs, n, old, s, h => by
    obtain ⟨h1, h2⟩ := request_run h a
    by_cases hb : ∃ x ∈ a, ∃ y ∈ old, x.1 = y.1 ∧ x.2.1 = y.2.1
    · refine ⟨fun _ => ?_, fun hn => absurd (Or.inr ⟨a, by simp, hb⟩) hn⟩
      unfold requests; rw [h1 hb]
    · obtain ⟨s', e, h'⟩ := h2 fun x hx y hy hxy => hb ⟨x, hx, y, hy, hxy⟩
      obtain ⟨g1, g2⟩ := requests_run qs h'
      have key : (Repeats (a :: qs) ∨ ∃ b ∈ a :: qs, ∃ x ∈ b, ∃ y ∈ old, x.1 = y.1 ∧ x.2.1 = y.2.1) ↔
          (Repeats qs ∨ ∃ b ∈ qs, ∃ x ∈ b, ∃ y ∈ old ++ a, x.1 = y.1 ∧ x.2.1 = y.2.1) := by
        constructor
        · rintro (⟨i, j, b, c, hij, hi, hj, x, hx, y, hy, hxy⟩ | ⟨b, hb', x, hx, y, hy, hxy⟩)
          · obtain ⟨j, rfl⟩ : ∃ k, j = k + 1 := ⟨j - 1, by omega⟩
            rw [List.getElem?_cons_succ] at hj
            cases i with
            | zero =>
              rw [List.getElem?_cons_zero, Option.some.injEq] at hi
              subst hi
              exact Or.inr ⟨c, List.mem_of_getElem? hj, y, hy, x, by simp [hx], hxy.1.symm, hxy.2.symm⟩
            | succ i =>
              rw [List.getElem?_cons_succ] at hi
              exact Or.inl ⟨i, j, b, c, by omega, hi, hj, x, hx, y, hy, hxy⟩
          · rcases List.mem_cons.1 hb' with rfl | hb'
            · exact absurd ⟨x, hx, y, hy, hxy⟩ hb
            · exact Or.inr ⟨b, hb', x, hx, y, by simp [hy], hxy⟩
        · rintro (⟨i, j, b, c, hij, hi, hj, hxy⟩ | ⟨b, hb', x, hx, y, hy, hxy⟩)
          · exact Or.inl ⟨i + 1, j + 1, b, c, by omega, by simpa using hi, by simpa using hj, hxy⟩
          · rcases List.mem_append.1 hy with hy | hy
            · exact Or.inr ⟨b, by simp [hb'], x, hx, y, hy, hxy⟩
            · obtain ⟨k, hk⟩ := List.mem_iff_getElem?.1 hb'
              exact Or.inl ⟨0, k + 1, a, b, by omega, rfl, by simpa using hk, y, hy, x, hx, hxy.1.symm, hxy.2.symm⟩
      rw [key]
      refine ⟨fun hr => ?_, fun hr => ?_⟩
      · unfold requests
        rw [e]
        dsimp only
        rw [g1 hr]
      · unfold requests
        rw [e]
        dsimp only
        rw [g2 hr]
        rfl

/-! ### C148 -/

/-- **C148 (part).** For every calculation, with or without a pressure written back, and every sequence of requests to an engine with empty cache: if no temperature and pressure are
asked for in two requests (within one request they may be, for any symbols), every request is answered with the values of the calculation.  Otherwise the
behaviour is undefined.

Missing from the full statement: requests that repeat a temperature and pressure, for which it is false. -/
theorem C148_partial (f : R → R → String → V × R) (n : Nat) (m : PMem R) (qs : List (List (R × R × String))) :
    (¬ Repeats qs → requests f n (m, []) qs = .ok (qs.map fun a => a.map fun q => (f q.1 q.2.1 q.2.2).1)) ∧
    (Repeats qs → requests f n (m, []) qs = .ub) := by
  have hp : Past f n [] (m, ([] : List (RefKey R × V))) := ⟨by simp, by simp, by simp⟩
  obtain ⟨h1, h2⟩ := requests_run qs hp
  exact ⟨fun h => h2 (by simpa using h), fun h => h1 (Or.inl h)⟩

example : ¬ Repeats [[((298 : Nat), (100000 : Nat), "H2O@"), (298, 100000, "H+")], [(299, 100000, "H2O@")]] := by
  rintro ⟨i, j, a, b, hij, hi, hj, x, hx, y, hy, hxy⟩
  have hj2 : j < 2 := by
    have := List.getElem?_eq_some_iff.1 hj
    simpa using this.1
  obtain ⟨rfl, rfl⟩ : i = 0 ∧ j = 1 := by omega
  simp only [List.getElem?_cons_zero, List.getElem?_cons_succ, Option.some.injEq] at hi hj
  subst hi hj
  simp only [List.mem_cons, List.not_mem_nil, or_false] at hx hy
  subst hy
  rcases hx with rfl | rfl <;> simp at hxy

/-- **C148, violation.** A batch that is asked for two substances at 25 °C and 1 bar and then for a third at the same conditions; a Python program that asks for two substances
at the same conditions, whatever the calculation. -/
theorem C148_refuted (f : ℚ → ℚ → String → V × ℚ) (m : PMem ℚ) :
    requests f 0 (m, []) [[(298.15, 100000, "H2O@"), (298.15, 100000, "H+")], [(298.15, 100000, "OH-")]] = .ub ∧
    requests f 0 (m, []) [[(298.15, 100000, "H2O@")], [(298.15, 100000, "H+")]] = .ub := by
  refine ⟨(C148_partial f 0 m _).2 ⟨0, 1, _, _, by omega, rfl, rfl, _, List.mem_cons_self, _, List.mem_cons_self, rfl, rfl⟩,
    (C148_partial f 0 m _).2 ⟨0, 1, _, _, by omega, rfl, rfl, _, List.mem_cons_self, _, List.mem_cons_self, rfl, rfl⟩⟩

end ThermoFun.Scopes

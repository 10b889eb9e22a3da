import Verif.Model.Units
import Mathlib.Algebra.BigOperators.Group.Finset.Basic
import Mathlib.Algebra.BigOperators.Ring.Finset
import Mathlib.Algebra.Order.BigOperators.Group.List

/-! Facts about the unit tables and the parser used by the property theorems. -/

set_option linter.unusedSimpArgs false
set_option maxRecDepth 100000

namespace ThermoFun.Units

/-! ### Table checks (over the whole table) -/

/-- Every symbol below `s` is defined, with positive factors, within `n` steps. -/
def resolves : Nat → Sym → Bool
  | 0, _ => false
  | n + 1, s =>
    if isTemp s then true
    else match lookup s table with
      | none => false
      | some [] => false
      | some (u :: us) =>
        if u.sym = s then u.num == 1 && u.den == 1 && u.pn == 1 && u.pd == 1
        else (u :: us).all (fun v => decide (0 < v.num) && decide (0 < v.den) && decide (0 < v.pd) && resolves n v.sym)

theorem table_resolves : table.all (fun e => resolves depth e.1) = true := by decide +kernel

theorem table_lookup : table.all (fun e => decide (lookup e.1 table = some e.2)) = true := by decide +kernel

theorem table_not_temp : table.all (fun e => !isTemp e.1) = true := by decide +kernel

theorem table_head : table.all (fun e => e.2 != []) = true := by decide +kernel

theorem lookup_mem {s : Sym} {us : List SU} (h : (s, us) ∈ table) : lookup s table = some us := by
  have := List.all_eq_true.mp table_lookup _ h
  simpa using this

theorem mem_of_lookup {s : Sym} {us : List SU} : ∀ {t : List (Sym × List SU)}, lookup s t = some us → (s, us) ∈ t
  | [], h => by simp [lookup] at h
  | e :: t, h => by
    simp only [lookup] at h
    split at h
    · rename_i he
      simp only [Option.some.injEq] at h
      subst he; subst h; simp
    · exact List.mem_cons_of_mem _ (mem_of_lookup h)

theorem not_temp_of_mem {s : Sym} {us : List SU} (h : (s, us) ∈ table) : isTemp s = false := by
  have := List.all_eq_true.mp table_not_temp _ h
  simpa using this

theorem resolves_mem {s : Sym} {us : List SU} (h : (s, us) ∈ table) : resolves depth s = true :=
  List.all_eq_true.mp table_resolves _ h

theorem resolves_mono : ∀ (n : Nat) (s : Sym), resolves n s = true → resolves (n + 1) s = true
  | 0, s, h => by simp [resolves] at h
  | n + 1, s, h => by
    rw [resolves] at h ⊢
    split
    · rfl
    · rename_i ht
      rw [if_neg ht] at h
      split
      · rename_i hl; rw [hl] at h; exact h
      · rename_i hl; rw [hl] at h; exact h
      · rename_i u us hl
        rw [hl] at h
        simp only at h ⊢
        split
        · rename_i hs; rw [if_pos hs] at h; exact h
        · rename_i hs
          rw [if_neg hs] at h
          rw [List.all_eq_true] at h ⊢
          intro v hv
          have := h v hv
          simp only [Bool.and_eq_true] at this ⊢
          exact ⟨this.1, resolves_mono n v.sym this.2⟩

/-! ### Factors -/

/-- The known unit names. -/
def Known (s : Sym) : Prop := s ∈ tempTable.map Prod.fst ∨ s ∈ table.map Prod.fst

theorem tempLookup_isSome {s : Sym} : ∀ {t : List (Sym × Int × Int × Sym)}, (tempLookup s t).isSome ↔ s ∈ t.map Prod.fst
  | [] => by simp [tempLookup]
  | e :: t => by
    simp only [tempLookup, List.map_cons, List.mem_cons]
    split
    · rename_i h; simp [h]
    · rename_i h
      rw [tempLookup_isSome]
      constructor
      · exact Or.inr
      · rintro (h1 | h1)
        · exact absurd h1.symm h
        · exact h1

theorem isTemp_iff {s : Sym} : isTemp s = true ↔ s ∈ tempTable.map Prod.fst := tempLookup_isSome

theorem lookup_none {s : Sym} : ∀ {t : List (Sym × List SU)}, lookup s t = none ↔ s ∉ t.map Prod.fst
  | [] => by simp [lookup]
  | e :: t => by
    simp only [lookup, List.map_cons, List.mem_cons]
    split
    · rename_i h; simp [h]
    · rename_i h
      rw [lookup_none]
      constructor
      · rintro h1 (h2 | h2)
        · exact h h2.symm
        · exact h1 h2
      · exact fun h1 h2 => h1 (Or.inr h2)

theorem resolves_of_known {s : Sym} (h : Known s) : resolves depth s = true := by
  rcases h with h | h
  · have : isTemp s = true := isTemp_iff.mpr h
    simp [depth, resolves, this]
  · simp only [List.mem_map] at h
    obtain ⟨⟨s', us⟩, hm, rfl⟩ := h
    exact resolves_mem hm

theorem known_cases (s : Sym) : Known s ∨ (isTemp s = false ∧ lookup s table = none) := by
  by_cases ht : isTemp s = true
  · exact Or.inl (Or.inl (isTemp_iff.mp ht))
  · by_cases hl : lookup s table = none
    · exact Or.inr ⟨by simpa using ht, hl⟩
    · left; right
      by_contra hc
      exact hl (lookup_none.mpr hc)

/-- One table definition read off with the factors `F` of its parts. -/
noncomputable def defValue (F : Sym → ℝ) (us : List SU) : ℝ :=
  (us.map (fun u => (u.num : ℝ) / u.den * F u.sym ^ ((u.pn : ℝ) / u.pd))).prod

theorem factorLoop_eq (n : Nat) (F : Sym → ℝ) : ∀ (us : List SU) (r : ℝ), (∀ u ∈ us, factorF n u.sym = .ok (F u.sym)) →
    factorLoop (factorF n) us r = .ok (r * defValue F us)
  | [], r, _ => by simp [factorLoop, defValue]
  | u :: us, r, h => by
    rw [factorLoop, h u (by simp), Res.ok_bind, factorLoop_eq n F us _ (fun v hv => h v (by simp [hv]))]
    simp [defValue, mul_assoc]

/-- The factor as a plain number. -/
noncomputable def fval (s : Sym) : ℝ := match factor s with | .ok f => f | _ => 1

theorem factorF_ok : ∀ (n : Nat) (s : Sym), resolves n s = true →
    ∃ f, 0 < f ∧ ∀ m, n ≤ m → factorF m s = .ok f
  | 0, s, h => by simp [resolves] at h
  | n + 1, s, h => by
    rw [resolves] at h
    split at h
    · rename_i ht
      refine ⟨1, one_pos, fun m hm => ?_⟩
      obtain ⟨m, rfl⟩ : ∃ k, m = k + 1 := ⟨m - 1, by omega⟩
      simp [factorF, ht]
    · rename_i ht
      split at h
      · simp at h
      · simp at h
      · rename_i u us hl
        split at h
        · rename_i hs
          simp only [Bool.and_eq_true, beq_iff_eq] at h
          obtain ⟨⟨⟨h1, h2⟩, h3⟩, h4⟩ := h
          refine ⟨1, one_pos, fun m hm => ?_⟩
          obtain ⟨m, rfl⟩ : ∃ k, m = k + 1 := ⟨m - 1, by omega⟩
          simp [factorF, ht, hl, hs, h1, h2, h3, h4]
        · rename_i hs
          rw [List.all_eq_true] at h
          have hF : ∀ v ∈ u :: us, ∃ f, 0 < f ∧ ∀ m, n ≤ m → factorF m v.sym = .ok f := by
            intro v hv
            have := h v hv
            simp only [Bool.and_eq_true] at this
            exact factorF_ok n v.sym this.2
          let F : Sym → ℝ := fun x => match factorF n x with | .ok f => f | _ => 1
          have hFv : ∀ v ∈ u :: us, 0 < F v.sym ∧ ∀ m, n ≤ m → factorF m v.sym = .ok (F v.sym) := by
            intro v hv
            obtain ⟨f, hf0, hf⟩ := hF v hv
            have : F v.sym = f := by simp [F, hf n (le_refl _)]
            rw [this]; exact ⟨hf0, hf⟩
          refine ⟨1 * defValue F (u :: us), ?_, fun m hm => ?_⟩
          · rw [one_mul]
            apply List.prod_pos
            intro x hx
            simp only [List.mem_map] at hx
            obtain ⟨v, hv, rfl⟩ := hx
            have h1 := h v hv
            simp only [Bool.and_eq_true, decide_eq_true_eq] at h1
            have h2 : (0 : ℝ) < v.num := Nat.cast_pos.mpr h1.1.1.1
            have h3 : (0 : ℝ) < v.den := Nat.cast_pos.mpr h1.1.1.2
            have h4 := Real.rpow_pos_of_pos (hFv v hv).1 ((v.pn : ℝ) / v.pd)
            positivity
          · obtain ⟨m, rfl⟩ : ∃ k, m = k + 1 := ⟨m - 1, by omega⟩
            rw [factorF, if_neg ht, hl]
            simp only
            rw [if_neg hs]
            exact factorLoop_eq m F _ 1 (fun v hv => (hFv v hv).2 m (by omega))

theorem factor_known {s : Sym} (h : Known s) :
    0 < fval s ∧ ∀ m, depth ≤ m → factorF m s = .ok (fval s) := by
  obtain ⟨f, hf0, hf⟩ := factorF_ok depth s (resolves_of_known h)
  have : fval s = f := by simp [fval, factor, hf depth (le_refl _)]
  rw [this]; exact ⟨hf0, hf⟩

theorem resolves_parts {s : Sym} {us : List SU} (h : (s, us) ∈ table) (hs : us.head?.map (·.sym) ≠ some s) :
    ∀ u ∈ us, resolves 11 u.sym = true ∧ 0 < u.num ∧ 0 < u.den ∧ 0 < u.pd := by
  have hr := resolves_mem h
  rw [depth, resolves, if_neg (by simp [not_temp_of_mem h]), lookup_mem h] at hr
  cases us with
  | nil => simp at hr
  | cons u us =>
    simp only at hr
    simp only [List.head?_cons, Option.map_some, ne_eq, Option.some.injEq] at hs
    rw [if_neg hs, List.all_eq_true] at hr
    intro v hv
    have := hr v hv
    simp only [Bool.and_eq_true, decide_eq_true_eq] at this
    exact ⟨this.2, this.1.1.1, this.1.1.2, this.1.2⟩

theorem known_of_resolves {n : Nat} {s : Sym} (h : resolves n s = true) : Known s := by
  rcases known_cases s with hk | ⟨h1, h2⟩
  · exact hk
  · cases n with
    | zero => simp [resolves] at h
    | succ n => simp [resolves, h1, h2] at h

theorem base_entry {s : Sym} {us : List SU} (h : (s, us) ∈ table) (hs : us.head?.map (·.sym) = some s) :
    ∃ rest, us = ⟨1, 1, s, 1, 1⟩ :: rest := by
  have hr := resolves_mem h
  rw [depth, resolves, if_neg (by simp [not_temp_of_mem h]), lookup_mem h] at hr
  cases us with
  | nil => simp at hs
  | cons u us =>
    simp only at hr
    simp only [List.head?_cons, Option.map_some, Option.some.injEq] at hs
    rw [if_pos hs] at hr
    simp only [Bool.and_eq_true, beq_iff_eq] at hr
    obtain ⟨⟨⟨h1, h2⟩, h3⟩, h4⟩ := hr
    refine ⟨us, ?_⟩
    obtain ⟨a, b, c, d, e⟩ := u
    simp only at h1 h2 h3 h4 hs
    subst h1 h2 h3 h4 hs
    rfl

/-! ### Dimensions -/

theorem dimLoop_ok (n : Nat) : ∀ (us : List SU) (m : Int), (∀ u ∈ us, ∀ m, ∃ d, dimF n u.sym m = .ok d) →
    ∃ d, dimLoop (dimF n) us m = .ok d
  | [], m, _ => ⟨[], rfl⟩
  | u :: us, m, h => by
    obtain ⟨d, hd⟩ := h u (by simp) (Int.tdiv (u.pn * m) u.pd)
    obtain ⟨ds, hds⟩ := dimLoop_ok n us m (fun v hv => h v (by simp [hv]))
    exact ⟨d ++ ds, by rw [dimLoop, hd, Res.ok_bind, hds, Res.ok_bind]⟩

theorem dimF_ok : ∀ (n : Nat) (s : Sym), resolves n s = true → ∀ m, ∃ d, dimF n s m = .ok d
  | 0, s, h => by simp [resolves] at h
  | n + 1, s, h => by
    intro m
    rw [resolves] at h
    rw [dimF]
    split at h
    · rename_i ht; exact ⟨_, if_pos ht⟩
    · rename_i ht
      rw [if_neg ht]
      split at h
      · simp at h
      · simp at h
      · rename_i u us hl
        rw [hl]
        simp only
        split at h
        · rename_i hs; exact ⟨_, if_pos hs⟩
        · rename_i hs
          rw [if_neg hs]
          rw [List.all_eq_true] at h
          apply dimLoop_ok
          intro v hv
          have := h v hv
          simp only [Bool.and_eq_true] at this
          exact dimF_ok n v.sym this.2

theorem dimF_throw {s : Sym} (h : ¬ Known s) (m : Int) : dimF depth s m = .throw := by
  rcases known_cases s with hk | ⟨h1, h2⟩
  · exact absurd hk h
  · simp [depth, dimF, h1, h2]

theorem factorList_ok : ∀ (l : List (Sym × Int)), (∀ e ∈ l, Known e.1) →
    factorList l = .ok ((l.map (fun e => fval e.1 ^ (e.2 : ℝ))).prod)
  | [], _ => by simp [factorList]
  | (s, p) :: l, h => by
    have h1 := (factor_known (h (s, p) (by simp))).2 depth (le_refl _)
    rw [factorList, factor, h1, Res.ok_bind, factorList_ok l (fun e he => h e (by simp [he])), Res.ok_bind]
    simp

theorem factorProd_pos (l : List (Sym × Int)) (h : ∀ e ∈ l, Known e.1) :
    0 < (l.map (fun e => fval e.1 ^ (e.2 : ℝ))).prod := by
  apply List.prod_pos
  intro x hx
  simp only [List.mem_map] at hx
  obtain ⟨e, he, rfl⟩ := hx
  exact Real.rpow_pos_of_pos (factor_known (h e he)).1 _

theorem dimList_ok (l : List (Sym × Int)) (h : ∀ e ∈ l, Known e.1) : ∃ d, dimList l = .ok d := by
  induction l with
  | nil => exact ⟨[], rfl⟩
  | cons e l ih =>
    obtain ⟨s, p⟩ := e
    obtain ⟨d, hd⟩ := dimF_ok depth s (resolves_of_known (h (s, p) (by simp))) p
    obtain ⟨ds, hds⟩ := ih (fun e he => h e (by simp [he]))
    exact ⟨d ++ ds, by rw [dimList, hd, Res.ok_bind, hds, Res.ok_bind]⟩

theorem dimList_throw (l : List (Sym × Int)) (h : ∃ e ∈ l, ¬ Known e.1) : dimList l = .throw := by
  induction l with
  | nil => obtain ⟨e, he, _⟩ := h; simp at he
  | cons e l ih =>
    obtain ⟨s, p⟩ := e
    rw [dimList]
    by_cases hk : Known s
    · obtain ⟨d, hd⟩ := dimF_ok depth s (resolves_of_known hk) p
      rw [hd, Res.ok_bind, ih]
      · rfl
      · obtain ⟨e, he, hek⟩ := h
        rcases List.mem_cons.mp he with rfl | he
        · exact absurd hk hek
        · exact ⟨e, he, hek⟩
    · rw [dimF_throw hk]; rfl

theorem known_of_dimList {l : List (Sym × Int)} {d : Dims} (h : dimList l = .ok d) : ∀ e ∈ l, Known e.1 := by
  by_contra hc
  push Not at hc
  rw [dimList_throw l hc] at h
  cases h

theorem coef_append (d e : Dims) (s : Sym) : coef (d ++ e) s = coef d s + coef e s := by
  simp [coef]

theorem coef_not_mem {d : Dims} {s : Sym} (h : ∀ k ∈ d, k.1 ≠ s) : coef d s = 0 := by
  induction d with
  | nil => rfl
  | cons k d ih =>
    have : coef (k :: d) s = (if k.1 = s then k.2 else 0) + coef d s := by simp [coef]
    rw [this, if_neg (h k (by simp)), ih (fun x hx => h x (by simp [hx]))]; rfl

theorem sameDim_iff (d e : Dims) : sameDim d e = true ↔ ∀ s, coef d s = coef e s := by
  rw [sameDim, List.all_eq_true]
  constructor
  · intro h s
    by_cases hd : ∃ k ∈ d ++ e, k.1 = s
    · obtain ⟨k, hk, rfl⟩ := hd
      simpa using h k hk
    · push Not at hd
      rw [coef_not_mem (fun k hk => hd k (by simp [hk])), coef_not_mem (fun k hk => hd k (by simp [hk]))]
  · intro h k _
    simp [h k.1]

theorem sameDim_symm {d e : Dims} (h : sameDim d e = true) : sameDim e d = true := by
  rw [sameDim_iff] at h ⊢; exact fun s => (h s).symm

theorem sameDim_trans {d e f : Dims} (h : sameDim d e = true) (h' : sameDim e f = true) : sameDim d f = true := by
  rw [sameDim_iff] at h h' ⊢; exact fun s => (h s).trans (h' s)

theorem sameDim_refl (d : Dims) : sameDim d d = true := by
  rw [sameDim_iff]; exact fun _ => rfl

/-! ### convert -/

theorem convert_ok {x y : ℝ} {a b : Sym} (ht : (isTemp a && isTemp b) = false) (h : convert x a b = .ok y) :
    ∃ la lb da db, parseUnit a = .ok la ∧ parseUnit b = .ok lb ∧ dimList la = .ok da ∧ dimList lb = .ok db ∧
      sameDim da db = true ∧ (∀ e ∈ la, Known e.1) ∧ (∀ e ∈ lb, Known e.1) ∧
      y = x * (la.map (fun e => fval e.1 ^ (e.2 : ℝ))).prod / (lb.map (fun e => fval e.1 ^ (e.2 : ℝ))).prod := by
  rw [convert, if_neg (by simp [ht])] at h
  cases hla : parseUnit a with
  | throw => rw [hla] at h; simp at h
  | ub => rw [hla] at h; simp at h
  | ok la =>
    cases hlb : parseUnit b with
    | throw => rw [hla, hlb] at h; simp at h
    | ub => rw [hla, hlb] at h; simp at h
    | ok lb =>
      rw [hla, hlb, Res.ok_bind, Res.ok_bind] at h
      cases hda : dimList la with
      | throw => rw [hda] at h; simp at h
      | ub => rw [hda] at h; simp at h
      | ok da =>
        cases hdb : dimList lb with
        | throw => rw [hda, hdb] at h; simp at h
        | ub => rw [hda, hdb] at h; simp at h
        | ok db =>
          rw [hda, hdb, Res.ok_bind, Res.ok_bind] at h
          split at h
          · rename_i hs
            have ka := known_of_dimList hda
            have kb := known_of_dimList hdb
            rw [factorList_ok la ka, factorList_ok lb kb, Res.ok_bind, Res.ok_bind, Res.ok.injEq] at h
            exact ⟨la, lb, da, db, rfl, rfl, hda, hdb, hs, ka, kb, h.symm⟩
          · cases h

theorem convert_of {a b : Sym} (ht : (isTemp a && isTemp b) = false) {la lb : List (Sym × Int)} {da db : Dims}
    (h1 : parseUnit a = .ok la) (h2 : parseUnit b = .ok lb) (h3 : dimList la = .ok da) (h4 : dimList lb = .ok db)
    (h5 : sameDim da db = true) (x : ℝ) :
    convert x a b = .ok (x * (la.map (fun e => fval e.1 ^ (e.2 : ℝ))).prod / (lb.map (fun e => fval e.1 ^ (e.2 : ℝ))).prod) := by
  rw [convert, if_neg (by simp [ht]), h1, h2, Res.ok_bind, Res.ok_bind, h3, h4, Res.ok_bind, Res.ok_bind, if_pos h5,
    factorList_ok la (known_of_dimList h3), factorList_ok lb (known_of_dimList h4)]
  rfl

end ThermoFun.Units

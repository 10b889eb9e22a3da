import Verif.Props.ByEquation

/-!
# U, A and Cv of a reaction asked for by its equation

Theorems about the engine (Model/Engine.lean) with the parser of equations (Model/Equation.lean): C157 for the properties that are not summed.
-/

namespace ThermoFun.Engine

open Equation

variable {PS EPS : Type}

lemma forall2_last {α β : Type} {R : α → β → Prop} {a : α} : ∀ {l : List α} {ts : List β}, List.Forall₂ R (l ++ [a]) ts → ∃ ts' b, ts = ts' ++ [b] ∧ R a b
  | [], _, h => by
    cases h with
    | cons h1 h2 => cases h2; exact ⟨[], _, rfl, h1⟩
  | x :: l, _, h => by
    cases h with
    | cons h1 h2 =>
      obtain ⟨ts', b, rfl, hb⟩ := forall2_last h2
      exact ⟨_ :: ts', b, rfl, hb⟩

/-- What is reported for U, A and Cv: the contribution of the last species of the map. -/
lemma last_of_equation {env : Env PS EPS} {N K : Nat} (h : Regular env N) {T P : ℝ} {x : String} {m : RMap} {e : List Char × ℚ} (hs : env.db.reacs.lookup x = none)
    (he : x.toList.contains '=' = true) (hm : fromEquation x.toList [] = .ok (m ++ [e])) {qs : List Query} (hqs : ∀ q ∈ qs, NoGasQuery q) {f : String → TPS}
    (hf : ∀ e' ∈ m ++ [e], (∃ v, env.db.subs.lookup (String.ofList e'.1) = some v ∧ v.reactionSymbol ≠ x) ∧
      answer env N (.sub T P (String.ofList e'.1)) = .ok (.sub (f (String.ofList e'.1)))) :
    ∃ t, (ask env (N + 1) (.reac T P x) (after env K ESt.init qs)).1 = .ok (.reac t) ∧
      t.U.val = (e.2 : ℝ) * (f (String.ofList e.1)).U.val ∧ t.A.val = (e.2 : ℝ) * (f (String.ofList e.1)).A.val ∧ t.Cv.val = (e.2 : ℝ) * (f (String.ofList e.1)).Cv.val := by
  have hq : FromSpecies env T P (recordOf x (m ++ [e])) (.reacRec T P (recordOf x (m ++ [e]))) := .noMethods ⟨rfl, rfl, rfl⟩
  have hmem : ∀ e' ∈ (recordOf x (m ++ [e])).reactants, ∃ e'' ∈ m ++ [e], e'.1 = String.ofList e''.1 := by
    intro e' he
    obtain ⟨e'', h1, h2⟩ := List.mem_map.1 he
    exact ⟨e'', h1, by rw [← h2]⟩
  obtain ⟨t, ht⟩ := C109_answers (K := 0) h hq (qs := []) (by simp) (f := f) (fun e' he => by
    obtain ⟨e'', h1, h2⟩ := hmem e' he
    obtain ⟨⟨v, hv, hn⟩, ha⟩ := hf e'' h1
    rw [h2]
    exact ⟨⟨v, hv, fun hc => hn hc.2⟩, ha⟩)
  refine ⟨t, ?_, ?_⟩
  · rw [(h.mono (Nat.le_succ N)).ask_coh (q := .reac T P x) trivial trivial ((h.mono (Nat.le_succ N)).cohSt hqs), answer_equation hs he hm]
    exact ht
  have hx : (recordOf x (m ++ [e])).reactants = (m.map fun e => (String.ofList e.1, (e.2 : ℝ))) ++ [(String.ofList e.1, (e.2 : ℝ))] := by
    show (m ++ [e]).map _ = _
    rw [List.map_append]
    rfl
  have hsum := hq.sum ht
  obtain ⟨ts, s', h0, -, -, -, -, -, -, -, h8, -⟩ := sumReactants_ok _ _ _ _ hsum
  have hcoh : CohSt env "H2O@" { after env 0 (ESt.init : ESt PS EPS) [] with pcorr := true } :=
    (fixes_cohSt (env := env) h.water).flag true _ (h.cohSt (by simp))
  have hfa := h.asked hcoh h0
  rw [hx] at hfa h8
  obtain ⟨ts', t2, rfl, hl2⟩ := forall2_last hfa
  have e2 : t2 = f (String.ofList e.1) := by
    have := hl2.symm.trans (hf e (by simp)).2
    injection this with this; injection this
  obtain ⟨hC, hU, hA⟩ := h8 (String.ofList e.1, (e.2 : ℝ)) t2 (by simp) (by simp)
  rw [← e2]
  exact ⟨hU, hA, hC⟩

/-- **C157 for U, A and Cv, what is reported.**  Asked for a reaction by its equation the engine reports the contribution of one species, the last in the order of the map, and so the
property of the products minus that of the reactants exactly where the contributions of all other species add up to zero.  Missing: that it is so for every equation, which fails (below). -/
theorem C157_energy_partial {env : Env PS EPS} {N K : Nat} (h : Regular env N) (l r : Side) (hl : l.Ok) (hr : r.Ok)
    (hd : ((l.terms ++ r.terms).map Term.name).Nodup) (hs : env.db.reacs.lookup (eqText l r) = none) {T P : ℝ} {qs : List Query}
    (hqs : ∀ q ∈ qs, NoGasQuery q) {f : String → TPS}
    (hf : ∀ t ∈ l.terms ++ r.terms, (∃ v, env.db.subs.lookup (String.ofList t.name) = some v ∧ v.reactionSymbol ≠ eqText l r) ∧
      answer env N (.sub T P (String.ofList t.name)) = .ok (.sub (f (String.ofList t.name)))) :
    ∃ t, ∃ e ∈ signed l r, ∃ others, (signed l r).Perm (others ++ [e]) ∧ (ask env (N + 1) (.reac T P (eqText l r)) (after env K ESt.init qs)).1 = .ok (.reac t) ∧
      (∀ p ∈ [((TPR.U, TPS.U) : (TPR → TS) × (TPS → TS)), (TPR.A, TPS.A), (TPR.Cv, TPS.Cv)],
        (p.1 t).val = (e.2 : ℝ) * (p.2 (f (String.ofList e.1))).val ∧
        ((p.1 t).val = overEquation l r (fun y => (p.2 (f y)).val) ↔ (others.map fun o => (o.2 : ℝ) * (p.2 (f (String.ofList o.1))).val).sum = 0)) := by
  have hm : fromEquation (eqText l r).toList [] = .ok ((signed l r).foldl (fun m p => m.assign p.1 p.2) []) := by
    rw [eqText_toList]
    exact fromEquation_ok l r hl hr []
  have hnames : (signed l r).map Prod.fst = (l.terms ++ r.terms).map Term.name := by simp [signed, Function.comp_def]
  have hp := foldl_assign_perm (signed l r) [] (by rw [List.append_nil, hnames]; exact hd)
  rw [List.append_nil] at hp
  obtain ⟨m, hm, hp⟩ : ∃ m : RMap, fromEquation (eqText l r).toList [] = .ok m ∧ List.Perm m (signed l r) := ⟨_, hm, hp⟩
  have hne : m ≠ [] := by
    rintro rfl
    have hlen := hp.length_eq
    simp [signed, Side.terms] at hlen
  obtain ⟨others, e, rfl⟩ : ∃ others e, m = others ++ [e] := ⟨m.dropLast, m.getLast hne, (List.dropLast_append_getLast hne).symm⟩
  have hover : ∀ g : String → ℝ, overEquation l r g = ((others ++ [e]).map fun o => (o.2 : ℝ) * g (String.ofList o.1)).sum := by
    intro g
    rw [overEquation_eq]
    exact ((hp.map _).sum_eq).symm
  obtain ⟨t, h1, hU, hA, hC⟩ := last_of_equation (K := K) h hs (by rw [eqText_toList]; simp) hm hqs (f := f) (fun e' he => by
    have hmem := hp.subset he
    have : e'.1 ∈ (signed l r).map Prod.fst := List.mem_map_of_mem hmem
    rw [hnames] at this
    obtain ⟨t, ht, hn⟩ := List.mem_map.1 this
    rw [← hn]
    exact hf t ht)
  refine ⟨t, e, hp.subset (by simp), others, hp.symm, h1, ?_⟩
  have fin : ∀ (x : ℝ) (g : String → ℝ), x = (e.2 : ℝ) * g (String.ofList e.1) → (x = (e.2 : ℝ) * g (String.ofList e.1) ∧
      (x = overEquation l r g ↔ (others.map fun o => (o.2 : ℝ) * g (String.ofList o.1)).sum = 0)) := by
    intro x g hx
    refine ⟨hx, ?_⟩
    rw [hover, List.map_append, List.sum_append, hx]
    simp only [List.map_cons, List.map_nil, List.sum_cons, List.sum_nil, add_zero]
    constructor <;> intro h <;> linarith
  intro p hp
  simp only [List.mem_cons, List.not_mem_nil, or_false] at hp
  rcases hp with rfl | rfl | rfl
  · exact fin _ (fun y => (f y).U.val) hU
  · exact fin _ (fun y => (f y).A.val) hA
  · exact fin _ (fun y => (f y).Cv.val) hC

/-- **C157 refuted for the internal energy.**  Asked for "A = B" with the internal energies 2 and 5 of A and B, the engine reports 5, that of B, and not 5 − 2. -/
theorem C157_energy_refuted (T P : ℝ) : ∃ t : TPR, (ask exEq 5 (.reac T P "A = B") ESt.init).1 = .ok (.reac t) ∧ t.U.val = 5 ∧
    answer exEq 4 (.sub T P "A") = .ok (.sub (exEqG "A")) ∧ answer exEq 4 (.sub T P "B") = .ok (.sub (exEqG "B")) ∧ (exEqG "A").U.val = 2 ∧ (exEqG "B").U.val = 5 := by
  have hA := exEq_answer (y := "A") (g := 2) rfl (by decide) T P
  have hB := exEq_answer (y := "B") (g := 5) rfl (by decide) T P
  have e1 : exEqG "A" = refGV 2 1 := by unfold exEqG; rw [if_pos (by decide)]
  have e2 : exEqG "B" = refGV 5 1 := by unfold exEqG; rw [if_neg (by decide), if_pos (by decide)]
  obtain ⟨t, h1, h2, -⟩ := last_of_equation (K := 0) exEq_regular (T := T) (P := P) (x := "A = B") (m := [(['A'], -1)]) (e := (['B'], 1)) rfl (by decide)
    (by decide +kernel) (qs := []) (by simp) (f := exEqG) (by
      intro e he
      simp only [List.cons_append, List.nil_append, List.mem_cons, List.not_mem_nil, or_false] at he
      rcases he with rfl | rfl
      · exact ⟨⟨_, rfl, by simp [conSub]⟩, hA⟩
      · exact ⟨⟨_, rfl, by simp [conSub]⟩, hB⟩)
  have e3 : String.ofList ['B'] = "B" := by decide
  refine ⟨t, h1, ?_, by rw [e1]; exact hA, by rw [e2]; exact hB, ?_, ?_⟩
  · rw [h2]
    dsimp only
    rw [e3, e2]
    norm_num [refGV, asg]
  · rw [e1]; norm_num [refGV, asg]
  · rw [e2]; norm_num [refGV, asg]

/-- "A = B" meets the conditions of the first theorem. -/
example (T P : ℝ) :
    let a : Term := ⟨none, [], ['A']⟩
    let b : Term := ⟨none, [], ['B']⟩
    let l : Side := ⟨[], a, [], [' ']⟩
    let r : Side := ⟨[' '], b, [], []⟩
    eqText l r = "A = B" ∧ ∃ t, ∃ e ∈ signed l r, (ask exEq 5 (.reac T P (eqText l r)) ESt.init).1 = .ok (.reac t) ∧
      t.U.val = (e.2 : ℝ) * (exEqG (String.ofList e.1)).U.val := by
  intro a b l r
  have hA : a.Ok := ⟨⟨_, _, rfl, Or.inl (by decide)⟩, by decide, by simp [Blanks, a], by simp [a]⟩
  have hB : b.Ok := ⟨⟨_, _, rfl, Or.inl (by decide)⟩, by decide, by simp [Blanks, b], by simp [b]⟩
  have hl : l.Ok := ⟨by simp [Blanks, l], by simp [Blanks, l], by simpa [Side.terms, l] using hA, by simp [l]⟩
  have hr : r.Ok := ⟨by simp [Blanks, r], by simp [Blanks, r], by simpa [Side.terms, r] using hB, by simp [r]⟩
  have e1 : eqText l r = "A = B" := by decide +kernel
  refine ⟨e1, ?_⟩
  have hA := exEq_answer (y := "A") (g := 2) rfl (by decide) T P
  have hB := exEq_answer (y := "B") (g := 5) rfl (by decide) T P
  obtain ⟨t, e, he, _, _, h1, h2⟩ := C157_energy_partial (K := 0) exEq_regular l r hl hr (by simp [Side.terms, l, r, a, b]) (by rw [e1]; rfl) (T := T) (P := P) (qs := []) (by simp)
    (f := exEqG) (by
      intro t ht
      simp only [Side.terms, l, r, List.map_nil, List.cons_append, List.nil_append, List.mem_cons, List.not_mem_nil, or_false] at ht
      rcases ht with rfl | rfl
      · exact ⟨⟨_, rfl, by simp [conSub, e1]⟩, hA⟩
      · exact ⟨⟨_, rfl, by simp [conSub, e1]⟩, hB⟩)
  exact ⟨t, e, he, h1, (h2 (TPR.U, TPS.U) (by simp)).1⟩

end ThermoFun.Engine

import Verif.Lemmas.GemsRes

/-! The Helmholtz energy of WaterHGK-JNgems.cpp: the sum of the base function, the residual function and the ideal gas function. -/

namespace ThermoFun

namespace Gems

open WP (el)
open HGK (eli)

variable {t d : ℝ}

/-! ### The residual function -/

/-- The residual function with its partial derivatives. -/
noncomputable def residJ (t d : ℝ) : Helm :=
  (List.range 4).foldl (fun s j => s.plus (xJ j t d))
    ((List.range 36).foldl (fun s i => s.plus (rTerm (el g i) (eli ii i + 1) (eli jj i) t d)) (Helm.const 0))

lemma ii_ne : ∀ i < 36, eli ii i + 1 ≠ 0 := by
  have h : ∀ i < 36, ii.getD i 0 + 1 ≠ 0 := by decide +kernel
  exact fun i hi => by unfold eli; exact h i hi

lemma extra_ne : ∀ j < 4, el g (j + 36) ≠ 0 ∧ el adz j ≠ 0 ∧ el atz j ≠ 0 := by
  have h : ∀ j < 4, g.getD (j + 36) 0 ≠ 0 ∧ adz.getD j 0 ≠ 0 ∧ atz.getD j 0 ≠ 0 := by decide +kernel
  exact fun j hj => by unfold el; exact_mod_cast h j hj

/-- The state is not on the boundary of a cut-off. -/
structure Off (t d : ℝ) : Prop where
  del : ∀ j < 4, 1.0e-10 < |d / el adz j - 1|
  ex1 : ∀ j < 4, -el aad j * (d / el adz j - 1) ^ eli ii (j + 36) ≠ EXPTOL
  ex2 : ∀ j < 4, -el aat j * (t / el atz j - 1) * (t / el atz j - 1) ≠ EXPTOL

lemma Off.ne (h : Off t d) {j : ℕ} (hj : j < 4) : d / el adz j - 1 ≠ 0 := by
  have h1 := h.del j hj
  intro h0; rw [h0, abs_zero] at h1; norm_num at h1

lemma residJ_jet (ht : 0 < t) (hd : 0 < d) (h : Off t d) : Jet residJ t d :=
  WP.foldl_jet (List.range 4) (fun j t d => xJ j t d)
    (WP.foldl_jet (List.range 36) (fun i t d => rTerm (el g i) (eli ii i + 1) (eli jj i) t d) (Jet.const 0) fun i _ => rTerm_jet _ _ _ ht hd)
    fun j hj => by
      have hj := List.mem_range.1 hj
      exact xCut_jet _ _ _ _ _ _ _ (extra_ne j hj).2.1 (extra_ne j hj).2.2 (h.ne hj) (h.ex1 j hj) (h.ex2 j hj)

lemma foldl_inv {σ τ ι : Type*} (R : σ → τ → Prop) (l : List ι) (f : σ → ι → σ) (k : τ → ι → τ) (hs : ∀ i ∈ l, ∀ s u, R s u → R (f s i) (k u i))
    {s : σ} {u : τ} (h : R s u) : R (l.foldl f s) (l.foldl k u) := by
  induction l generalizing s u with
  | nil => exact h
  | cons i l ih => exact ih (fun j hj => hs j (List.mem_cons_of_mem _ hj)) (hs i (by simp) s u h)

lemma rel_resid (ht : 0 < t) (hd : 0 < d) (h : ∀ j < 4, 1.0e-10 ≤ |d / el adz j - 1|) :
    Rel t d ((List.range 4).foldl (residExtra t d) ((List.range 36).foldl (residStep t d) ⟨0, 0, 0, 0, 0, 0, 0, 0⟩)) (residJ t d) := by
  refine foldl_inv (Rel t d) _ _ _ (fun j hj s u hr => ?_) (foldl_inv (Rel t d) _ _ _ (fun i hi s u hr => ?_) ?_)
  · have hj := List.mem_range.1 hj
    exact rel_extra ht hd hr j (extra_ne j hj).1 (extra_ne j hj).2.1 (extra_ne j hj).2.2 (h j hj)
  · exact rel_step ht hd hr i (ii_ne i (List.mem_range.1 hi))
  · constructor <;> simp [Helm.const]

/-- The error of `dalHGK` in the second derivative by density. -/
noncomputable def dalErr (t d : ℝ) : ℝ :=
  ∑ j ∈ Finset.range 4, xErr (el g (j + 36)) (el aad j) (el aat j) (el adz j) (el atz j) (eli ii (j + 36)) (eli jj (j + 36)) t d

lemma relD_resid (ht : 0 < t) (hd : 0 < d) (al : ℝ) (h : ∀ j < 4, 1.0e-10 ≤ |d / el adz j - 1|) :
    RelD d al (dalErr t d) (dalResid t d al) (residJ t d) := by
  have h0 : RelD d al 0 ((List.range 36).foldl (dalStep t d al) ⟨0, 0, 0, 0, 0, 0⟩)
      ((List.range 36).foldl (fun s i => s.plus (rTerm (el g i) (eli ii i + 1) (eli jj i) t d)) (Helm.const 0)) := by
    refine foldl_inv (RelD d al 0) _ _ _ (fun i hi s u hr => relD_step ht hd hr i (ii_ne i (List.mem_range.1 hi))) ?_
    constructor <;> simp [Helm.const]
  unfold dalResid residJ dalErr
  revert h0
  generalize (List.range 36).foldl (dalStep t d al) ⟨0, 0, 0, 0, 0, 0⟩ = s
  generalize (List.range 36).foldl (fun s i => s.plus (rTerm (el g i) (eli ii i + 1) (eli jj i) t d)) (Helm.const 0) = u
  intro h0
  have st : ∀ n ≤ 4, RelD d al (∑ j ∈ Finset.range n, xErr (el g (j + 36)) (el aad j) (el aat j) (el adz j) (el atz j) (eli ii (j + 36)) (eli jj (j + 36)) t d)
      ((List.range n).foldl (dalExtra t d al) s) ((List.range n).foldl (fun s j => s.plus (xJ j t d)) u) := by
    intro n hn
    induction n with
    | zero => simpa using h0
    | succ n ih =>
      have hn' : n < 4 := by omega
      rw [Finset.sum_range_succ, List.range_succ, List.foldl_append, List.foldl_append]
      exact relD_extra ht hd (ih (by omega)) n (extra_ne n hn').2.1 (extra_ne n hn').2.2 (h n hn')
  exact st 4 le_rfl

/-! ### The ideal gas function -/

/-- A power in the ideal gas function with its derivatives. -/
noncomputable def idT (i : ℕ) (t : ℝ) : Helm :=
  (Helm.ofT (t ^ ((i : ℤ) - 5)) (((i : ℤ) - 5 : ℤ) / t * t ^ ((i : ℤ) - 5)) ((((i : ℤ) - 5 : ℤ) - 1) / t * (((i : ℤ) - 5 : ℤ) / t * t ^ ((i : ℤ) - 5)))
    ((((i : ℤ) - 5 : ℤ) - 2) / t * ((((i : ℤ) - 5 : ℤ) - 1) / t * (((i : ℤ) - 5 : ℤ) / t * t ^ ((i : ℤ) - 5))))).scale
      (-el idealC i * (1.0e2 : ℝ) ^ (-((i : ℤ) - 5)))

/-- The terms with the logarithm with their derivatives. -/
noncomputable def idL (t : ℝ) : Helm :=
  (((Helm.ofT (t ^ (-1 : ℤ)) ((-1 : ℤ) / t * t ^ (-1 : ℤ)) (((-1 : ℤ) - 1) / t * ((-1 : ℤ) / t * t ^ (-1 : ℤ)))
      (((-1 : ℤ) - 2) / t * (((-1 : ℤ) - 1) / t * ((-1 : ℤ) / t * t ^ (-1 : ℤ))))).scale (-el idealC 0 * 1.0e2)).plus (Helm.const (-el idealC 1))).times
    ((Helm.ofT (Real.log t) (1 / t) (-1 / t ^ 2) (2 / t ^ 3)).plus (Helm.const (-Real.log 1.0e2)))

/-- The ideal gas function, divided by `R T`, with its derivatives. -/
noncomputable def idG (t : ℝ) : Helm := ((List.range 16).map (· + 2)).foldl (fun s (i : ℕ) => s.plus (idT i t)) (idL t)

lemma idG_jet (ht : 0 < t) : Jet (fun t _ => idG t) t d := by
  have h0 : Jet (fun t _ => idL t) t d := (((Jet.zpowT ht.ne' (-1)).scale _).plus (Jet.const _)).times ((log_jet ht).plus (Jet.const _))
  exact HGK.foldl_jet' ((List.range 16).map (· + 2)) (fun (i : ℕ) t _ s => s.plus (idT i t)) (fun i t _ => idT i t) (fun _ _ _ _ => rfl) h0
    fun i _ => (Jet.zpowT ht.ne' ((i : ℤ) - 5)).scale _

/-- What the sums of `ideal` say about a function with its derivatives. -/
def RelI (t : ℝ) (s : ℝ × ℝ × ℝ) (h : Helm) : Prop :=
  s.1 = h.f ∧ s.2.1 = -t * h.fT ∧ s.2.2 = -2 * t * h.fT - t ^ 2 * h.fTT

lemma ideal_rel (ht : 0 < t) : (ideal t).gi = (idG t).f ∧ (ideal t).hi = -t * (idG t).fT ∧ (ideal t).cpi = -2 * t * (idG t).fT - t ^ 2 * (idG t).fTT := by
  have ht0 := ht.ne'
  refine foldl_inv (RelI t) _ _ _ (fun i _ s u hr => ?_) ?_
  · obtain ⟨a1, a2, a3⟩ := hr
    have hp : (t / 1.0e2) ^ ((i : ℤ) - 5) = t ^ ((i : ℤ) - 5) * (1.0e2 : ℝ) ^ (-((i : ℤ) - 5)) := by rw [div_zpow, zpow_neg, div_eq_mul_inv]
    simp only [RelI, idT, Helm.plus, Helm.scale, Helm.ofT, hp]
    generalize t ^ ((i : ℤ) - 5) = W
    generalize (1.0e2 : ℝ) ^ (-((i : ℤ) - 5)) = Z
    refine ⟨?_, ?_, ?_⟩
    · rw [a1]; ring
    · rw [a2]; push_cast; field_simp; ring
    · rw [a3]; push_cast; field_simp; ring
  · have hl : Real.log (t / 1.0e2) = Real.log t - Real.log 1.0e2 := Real.log_div ht0 (by norm_num)
    simp only [RelI, idL, Helm.plus, Helm.scale, Helm.ofT, Helm.times, Helm.const, hl, zpow_neg_one]
    generalize Real.log (1.0e2 : ℝ) = l1
    generalize Real.log t = l2
    have hh : (1.0e2 : ℝ) = 100 := by norm_num
    rw [hh]
    refine ⟨?_, ?_, ?_⟩ <;> push_cast <;> field_simp <;> ring

/-- The ideal gas function and the constants of the reference state, with their derivatives. -/
noncomputable def idJ (t : ℝ) : Helm :=
  ((Helm.ofT (gascon * t) gascon 0 0).times ((idG t).plus (Helm.const (sref - 1)))).plus (Helm.const (-gascon * uref))

lemma foldl_fD (l : List ℕ) (T : ℕ → Helm) (h : ∀ i, (T i).fD = 0 ∧ (T i).fTD = 0 ∧ (T i).fDD = 0 ∧ (T i).fTTD = 0 ∧ (T i).fTDD = 0 ∧ (T i).fDDD = 0) {u : Helm}
    (hu : u.fD = 0 ∧ u.fTD = 0 ∧ u.fDD = 0 ∧ u.fTTD = 0 ∧ u.fTDD = 0 ∧ u.fDDD = 0) :
    let r := l.foldl (fun s i => s.plus (T i)) u
    r.fD = 0 ∧ r.fTD = 0 ∧ r.fDD = 0 ∧ r.fTTD = 0 ∧ r.fTDD = 0 ∧ r.fDDD = 0 := by
  induction l generalizing u with
  | nil => exact hu
  | cons i l ih =>
    refine ih ?_
    obtain ⟨a1, a2, a3, a4, a5, a6⟩ := hu
    obtain ⟨b1, b2, b3, b4, b5, b6⟩ := h i
    simp [Helm.plus, *]

lemma idJ_fD : (idJ t).fD = 0 ∧ (idJ t).fTD = 0 ∧ (idJ t).fDD = 0 ∧ (idJ t).fTTD = 0 ∧ (idJ t).fTDD = 0 ∧ (idJ t).fDDD = 0 := by
  obtain ⟨a1, a2, a3, a4, a5, a6⟩ := foldl_fD ((List.range 16).map (· + 2)) (fun i => idT i t) (fun i => by simp [idT, Helm.scale, Helm.ofT]) (u := idL t)
    (by simp [idL, Helm.scale, Helm.ofT, Helm.plus, Helm.times, Helm.const])
  change (idG t).fD = 0 at a1
  change (idG t).fTD = 0 at a2
  change (idG t).fDD = 0 at a3
  change (idG t).fTTD = 0 at a4
  change (idG t).fTDD = 0 at a5
  change (idG t).fDDD = 0 at a6
  simp only [idJ, Helm.plus, Helm.times, Helm.ofT, Helm.const, a1, a2, a3, a4, a5, a6]
  simp

lemma idJ_jet (ht : 0 < t) : Jet (fun t _ => idJ t) t d := (rt_jet.times ((idG_jet ht).plus (Jet.const _))).plus (Jet.const _)

/-- The Helmholtz energy with its partial derivatives. -/
noncomputable def total (t d : ℝ) : Helm := ((baseJ t d).plus (residJ t d)).plus (idJ t)

/-- A state at which the equation of state is smooth. -/
structure Ok (t d : ℝ) : Prop where
  ht : 0 < t
  hd : 0 < d
  hb : (bb t).b1 ≠ 0
  hy : 0.25 * ((bb t).b1 * d) < 1
  off : Off t d

lemma Ok.del (h : Ok t d) : ∀ j < 4, 1.0e-10 ≤ |d / el adz j - 1| := fun j hj => (h.off.del j hj).le

lemma total_jet (h : Ok t d) : Jet total t d := ((baseJ_jet h.ht h.hd h.hy).plus (residJ_jet h.ht h.hd h.off)).plus (idJ_jet h.ht)

/-! ### The functions of the program -/

section code
variable (h : Ok t d)
include h

lemma pres_eq : presOf (evalAt t d) t d = d ^ 2 * (total t d).fD := by
  have b := base_zb h.hd h.ht h.hb h.hy
  have r := (rel_resid h.ht h.hd h.del).q0
  simp only [presOf, evalAt, resid, b, r, total, Helm.plus, idJ_fD.1]; ring

lemma dpdd_eq : (thmHGK (evalAt t d) t d).dpdd = 2 * d * (total t d).fD + d ^ 2 * (total t d).fDD := by
  have b := base_dpdd h.hd h.ht h.hb h.hy
  have r := (rel_resid h.ht h.hd h.del).q5
  simp only [thmHGK, evalAt, resid, b, r, total, Helm.plus, idJ_fD.1, idJ_fD.2.2.1]; ring

lemma dpdt_eq : (thmHGK (evalAt t d) t d).dpdt = d ^ 2 * (total t d).fTD := by
  have b := base_dpdt h.hd h.ht h.hb h.hy
  have r := (rel_resid h.ht h.hd h.del).dpdtr
  simp only [thmHGK, evalAt, resid, b, r, total, Helm.plus, idJ_fD.2.1]; ring

lemma ud_eq : gascon * t * (thmHGK (evalAt t d) t d).ud = (total t d).f - t * (total t d).fT := by
  have b := base_ub h.hd h.ht h.hb h.hy
  have r := rel_resid h.ht h.hd h.del
  have r1 := r.ar
  have r2 := r.dadt
  obtain ⟨i1, i2, _⟩ := ideal_rel h.ht
  have hi : (ideal t).ui = (ideal t).hi - 1 := rfl
  have hg := gascon_pos.ne'
  have ht := h.ht.ne'
  simp only [thmHGK, evalAt, resid, r2, hi, i2, total, idJ, Helm.plus, Helm.times, Helm.ofT, Helm.const]
  have e : ∀ x y z w : ℝ, gascon * t * (x + (y + z) + w - uref / t) = gascon * t * x + gascon * t * y + gascon * t * z + gascon * t * w - gascon * uref := by
    intro x y z w; field_simp; ring
  rw [e, b, r1]; field_simp; ring

lemma cvd_eq : gascon * (thmHGK (evalAt t d) t d).cvd = -t * (total t d).fTT := by
  have b := base_cvb h.hd h.ht h.hb h.hy
  have r := (rel_resid h.ht h.hd h.del).cvr
  obtain ⟨_, _, i3⟩ := ideal_rel h.ht
  have hi : (ideal t).cvi = (ideal t).cpi - 1 := rfl
  have hg := gascon_pos.ne'
  have ht := h.ht.ne'
  simp only [thmHGK, evalAt, resid, hi, i3, total, idJ, Helm.plus, Helm.times, Helm.ofT, Helm.const]
  have e : ∀ x y z w : ℝ, gascon * (x + (y + z / gascon) + w) = gascon * x + (gascon * y + z) + gascon * w := by
    intro x y z w; field_simp
  rw [e, b, r]; ring

lemma ad_eq : gascon * t * (thmHGK (evalAt t d) t d).ad =
    (total t d).f + gascon * t * ((28.16666667 - cHS) / (1 - 0.25 * ((bb t).b1 * d)) ^ 2) := by
  have b := base_ab h.hd h.ht h.hb h.hy
  have r1 := (rel_resid h.ht h.hd h.del).ar
  obtain ⟨i1, _, _⟩ := ideal_rel h.ht
  have hi : (ideal t).ai = (ideal t).gi - 1 := rfl
  have hg := gascon_pos.ne'
  have ht := h.ht.ne'
  simp only [thmHGK, evalAt, resid, hi, i1, total, idJ, Helm.plus, Helm.times, Helm.ofT, Helm.const]
  have e : ∀ x y w : ℝ, gascon * t * (x + y + w - uref / t + sref) = gascon * t * x + gascon * t * y + gascon * t * w - gascon * uref + gascon * t * sref := by
    intro x y w; field_simp
  rw [e, b, r1]; ring

end code

/-! ### Smoothness is an open condition -/

lemma Ok.eventually (h : Ok t d) : ∀ᶠ q : ℝ × ℝ in nhds (t, d), Ok q.1 q.2 := by
  have hc : ContinuousAt (fun q : ℝ × ℝ => (bb q.1).b1) (t, d) := (b1_jet (d := d) h.ht).f.continuousAt
  have e1 : ∀ᶠ q : ℝ × ℝ in nhds (t, d), 0 < q.1 := fst_pos h.ht
  have e2 : ∀ᶠ q : ℝ × ℝ in nhds (t, d), 0 < q.2 := (continuousAt_snd (p := (t, d))).eventually_const_lt h.hd
  have e3 : ∀ᶠ q : ℝ × ℝ in nhds (t, d), (bb q.1).b1 ≠ 0 := hc.eventually_ne h.hb
  have e4 : ∀ᶠ q : ℝ × ℝ in nhds (t, d), 0.25 * ((bb q.1).b1 * q.2) < 1 :=
    ((hc.mul (continuousAt_snd (p := (t, d)))).const_mul 0.25).eventually_lt_const h.hy
  have cd : ∀ j, ContinuousAt (fun q : ℝ × ℝ => q.2 / el adz j - 1) (t, d) := fun j => (continuousAt_snd.div_const _).sub continuousAt_const
  have ct : ∀ j, ContinuousAt (fun q : ℝ × ℝ => q.1 / el atz j - 1) (t, d) := fun j => (continuousAt_fst.div_const _).sub continuousAt_const
  have e5 : ∀ᶠ q : ℝ × ℝ in nhds (t, d), ∀ j < 4, 1.0e-10 < |q.2 / el adz j - 1| := by
    simp only [← Finset.mem_range]
    exact (Filter.eventually_all_finset _).2 fun j hj => (cd j).abs.eventually_const_lt (h.off.del j (Finset.mem_range.1 hj))
  have e6 : ∀ᶠ q : ℝ × ℝ in nhds (t, d), ∀ j < 4, -el aad j * (q.2 / el adz j - 1) ^ eli ii (j + 36) ≠ EXPTOL := by
    simp only [← Finset.mem_range]
    exact (Filter.eventually_all_finset _).2 fun j hj =>
      (((cd j).zpow₀ _ (Or.inl (h.off.ne (Finset.mem_range.1 hj)))).const_mul (-el aad j)).eventually_ne (h.off.ex1 j (Finset.mem_range.1 hj))
  have e7 : ∀ᶠ q : ℝ × ℝ in nhds (t, d), ∀ j < 4, -el aat j * (q.1 / el atz j - 1) * (q.1 / el atz j - 1) ≠ EXPTOL := by
    simp only [← Finset.mem_range]
    exact (Filter.eventually_all_finset _).2 fun j hj =>
      ((((ct j).const_mul (-el aat j)).mul (ct j))).eventually_ne (h.off.ex2 j (Finset.mem_range.1 hj))
  filter_upwards [e1, e2, e3, e4, e5, e6, e7] with q h1 h2 h3 h4 h5 h6 h7
  exact ⟨h1, h2, h3, h4, ⟨h5, h6, h7⟩⟩

end Gems

end ThermoFun

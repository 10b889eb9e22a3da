import Verif.Props.GasCritical

/-!
# Continuity of gas properties in temperature

Theorems about the Peng-Robinson and Soave-Redlich-Kwong models (Model/Gas.lean): where the equation of state has a single volume, the residual
properties have no jump in temperature (C172).
-/

namespace ThermoFun.Gas

open Filter Topology

local notation "uPR" => ((1 : ℝ) + Real.sqrt 2)
local notation "wPR" => ((1 : ℝ) - Real.sqrt 2)

/-- The residual G, H, S and the volume are returned along the filter `F` of temperatures and tend to the given values. -/
def Limits (fug : ℝ → Option Fug) (F : Filter ℝ) (g h s v : ℝ) : Prop :=
  ∃ (f : ℝ → Fug) (hh ss : ℝ → ℝ), (∀ᶠ T in F, fug T = some (f T) ∧ (f T).h = some (hh T) ∧ (f T).s = some (ss T)) ∧
    Tendsto (fun T => (f T).g) F (𝓝 g) ∧ Tendsto hh F (𝓝 h) ∧ Tendsto ss F (𝓝 s) ∧ Tendsto (fun T => (f T).v) F (𝓝 v)

/-- A root of Cardano's formula depends continuously on the coefficients. -/
lemma oneRoot_cont {a2 a1 a0 : ℝ → ℝ} {x : ℝ} (h2 : ContinuousAt a2 x) (h1 : ContinuousAt a1 x) (h0 : ContinuousAt a0 x)
    (hc : cr (a2 x) (a1 x) (a0 x) ≠ 0) : ContinuousAt (fun y => oneRoot (a2 y) (a1 y) (a0 y)) x := by
  have cr' : ContinuousAt (fun y => cr (a2 y) (a1 y) (a0 y)) x := by unfold cr; fun_prop
  have cq' : ContinuousAt (fun y => cq (a2 y) (a1 y)) x := by unfold cq; fun_prop
  have hpos : 0 < |cr (a2 x) (a1 x) (a0 x)| + Real.sqrt (cr (a2 x) (a1 x) (a0 x) ^ 2 - cq (a2 x) (a1 x) ^ 3) :=
    add_pos_of_pos_of_nonneg (abs_pos.2 hc) (Real.sqrt_nonneg _)
  have cs : ContinuousAt (fun y => |cr (a2 y) (a1 y) (a0 y)| + Real.sqrt (cr (a2 y) (a1 y) (a0 y) ^ 2 - cq (a2 y) (a1 y) ^ 3)) x :=
    cr'.abs.add ((cr'.pow 2).sub (cq'.pow 3)).sqrt
  have cac : ContinuousAt (fun y => (-1) * cr (a2 y) (a1 y) (a0 y) / |cr (a2 y) (a1 y) (a0 y)|
      * (|cr (a2 y) (a1 y) (a0 y)| + Real.sqrt (cr (a2 y) (a1 y) (a0 y) ^ 2 - cq (a2 y) (a1 y) ^ 3)) ^ (1 / 3 : ℝ)) x :=
    ((continuousAt_const.mul cr').div cr'.abs (abs_ne_zero.2 hc)).mul (cs.rpow_const (Or.inl hpos.ne'))
  unfold oneRoot
  dsimp only
  refine (cac.add (cq'.div cac ?_)).sub (h2.div_const 3)
  exact mul_ne_zero (div_ne_zero (mul_ne_zero (by norm_num) hc) (abs_ne_zero.2 hc)) (Real.rpow_pos_of_pos hpos _).ne'

section
variable {T P b : ℝ} {a : ℝ → ℝ}

lemma Ax_cont (hT : T ≠ 0) (ha : ContinuousAt a T) : ContinuousAt (fun t => Ax (a t) t P) T := by
  have hR := Rpos
  unfold Ax
  exact (ha.mul continuousAt_const).div (by fun_prop) (by positivity)

lemma Bx_cont (hT : T ≠ 0) : ContinuousAt (fun t => Bx b t P) T := by
  have hR := Rpos
  unfold Bx
  exact continuousAt_const.div (by fun_prop) (mul_ne_zero hR.ne' hT)

lemma prZ_cont (hT : T ≠ 0) (ha : ContinuousAt a T) (h : PrOne (a T) b T P) : ContinuousAt (fun t => prZ (a t) b t P) T := by
  have cA := Ax_cont (P := P) hT ha
  have cB := Bx_cont (P := P) (b := b) hT
  unfold prZ
  exact oneRoot_cont (by fun_prop) (by fun_prop) (by fun_prop) h.2

lemma srkZ_cont (hT : T ≠ 0) (ha : ContinuousAt a T) (h : SrkOne (a T) b T P) : ContinuousAt (fun t => srkZ (a t) b t P) T := by
  have cA := Ax_cont (P := P) hT ha
  have cB := Bx_cont (P := P) (b := b) hT
  unfold srkZ
  exact oneRoot_cont (by fun_prop) (by fun_prop) (by fun_prop) h.2

end

/-- The logarithm of the Peng-Robinson equation. -/
noncomputable def prLog (a b T P : ℝ) : ℝ := Real.log ((prZ a b T P + uPR * Bx b T P) / (prZ a b T P + wPR * Bx b T P))

/-- What the Peng-Robinson models return tends to, if the factor of the enthalpy tends to `K`. -/
lemma pr_limits {T P b c Tc Pc K : ℝ} {a : ℝ → ℝ} {p : ℝ → AB} {F : Filter ℝ} (hT : 0 < T) (hP : 0 < P) (hb : 0 < b) (ha : ContinuousAt a T)
    (h : PrOne (a T) b T P) (hF : F ≤ 𝓝 T) (hp : ∀ᶠ t in F, (p t).a = a t ∧ (p t).b = b ∧ Real.sqrt (t / Tc) ≠ 1) (hpa : ∀ t, 0 ≤ a t)
    (hK : Tendsto (fun t => (Real.sqrt (a t / (c * Rgas ^ 2 * Tc ^ 2 / Pc)) - 1) / (1 - Real.sqrt (t / Tc)) * Real.sqrt (t / Tc)
      / Real.sqrt (a t / (c * Rgas ^ 2 * Tc ^ 2 / Pc))) F (𝓝 K)) :
    Limits (fun t => prPure c t P Tc Pc (p t)) F (gres Rgas uPR wPR P T (a T) b (prZ (a T) b T P * Rgas * T / P))
      (Rgas * T * (prZ (a T) b T P - 1 - prLog (a T) b T P * Ax (a T) T P / (Bx b T P * Real.sqrt 8) * (1 + K)))
      ((Rgas * T * (prZ (a T) b T P - 1 - prLog (a T) b T P * Ax (a T) T P / (Bx b T P * Real.sqrt 8) * (1 + K))
        - gres Rgas uPR wPR P T (a T) b (prZ (a T) b T P * Rgas * T / P)) / T) (prZ (a T) b T P * Rgas * T / P) := by
  have hR := Rpos
  have r := pr_rootOf hT hP (hpa T) hb h
  have cZ := prZ_cont (P := P) (b := b) hT.ne' ha h
  have cA := Ax_cont (P := P) hT.ne' ha
  have cB := Bx_cont (P := P) (b := b) hT.ne'
  have hBpos : 0 < Bx b T P := by unfold Bx; positivity
  have cL : ContinuousAt (fun t => prLog (a t) b t P) T := by
    unfold prLog
    exact ((cZ.add (continuousAt_const.mul cB)).div (cZ.add (continuousAt_const.mul cB)) r.W.ne').log (div_ne_zero r.U.ne' r.W.ne')
  have cv : ContinuousAt (fun t => prZ (a t) b t P * Rgas * t / P) T := ((cZ.mul continuousAt_const).mul continuousAt_id).div_const _
  have h8 : Real.sqrt 8 ≠ 0 := (Real.sqrt_pos.mpr (by norm_num)).ne'
  have tt : Tendsto (fun t : ℝ => t) F (𝓝 T) := hF
  have tg : Tendsto (fun t => gres Rgas uPR wPR P t (a t) b (prZ (a t) b t P * Rgas * t / P)) F
      (𝓝 (gres Rgas uPR wPR P T (a T) b (prZ (a T) b T P * Rgas * T / P))) := by
    have : ContinuousAt (fun t => gres Rgas uPR wPR P t (a t) b (prZ (a t) b t P * Rgas * t / P)) T := by
      unfold gres
      have c1 : ContinuousAt (fun t => Real.log (P * (prZ (a t) b t P * Rgas * t / P - b) / (Rgas * t))) T :=
        ((continuousAt_const.mul (cv.sub continuousAt_const)).div (continuousAt_const.mul continuousAt_id) (mul_pos hR hT).ne').log
          (div_ne_zero (mul_ne_zero hP.ne' (sub_ne_zero.2 r.vb.ne')) (mul_pos hR hT).ne')
      have c2 : ContinuousAt (fun t => Real.log ((prZ (a t) b t P * Rgas * t / P + uPR * b) / (prZ (a t) b t P * Rgas * t / P + wPR * b))) T :=
        ((cv.add continuousAt_const).div (cv.add continuousAt_const) r.vW.ne').log (div_ne_zero r.vU.ne' r.vW.ne')
      exact (((continuousAt_const.mul cv).sub (continuousAt_const.mul continuousAt_id)).sub ((continuousAt_const.mul continuousAt_id).mul c1)).sub
        ((ha.div_const _).mul c2)
    exact this.tendsto.mono_left hF
  have th : Tendsto (fun t => Rgas * t * (prZ (a t) b t P - 1 - prLog (a t) b t P * Ax (a t) t P / (Bx b t P * Real.sqrt 8)
      * (1 + (Real.sqrt (a t / (c * Rgas ^ 2 * Tc ^ 2 / Pc)) - 1) / (1 - Real.sqrt (t / Tc)) * Real.sqrt (t / Tc)
        / Real.sqrt (a t / (c * Rgas ^ 2 * Tc ^ 2 / Pc))))) F
      (𝓝 (Rgas * T * (prZ (a T) b T P - 1 - prLog (a T) b T P * Ax (a T) T P / (Bx b T P * Real.sqrt 8) * (1 + K)))) := by
    have c3 : ContinuousAt (fun t => prLog (a t) b t P * Ax (a t) t P / (Bx b t P * Real.sqrt 8)) T :=
      (cL.mul cA).div (cB.mul continuousAt_const) (mul_ne_zero hBpos.ne' h8)
    exact (tendsto_const_nhds.mul tt).mul (((cZ.tendsto.mono_left hF).sub tendsto_const_nhds).sub
      ((c3.tendsto.mono_left hF).mul (tendsto_const_nhds.add hK)))
  refine ⟨fun t => prProps c t P Tc Pc (p t) (Ax (p t).a t P) (Bx (p t).b t P)
      (prZ (p t).a (p t).b t P, prLnf (Ax (p t).a t P) (Bx (p t).b t P) (prZ (p t).a (p t).b t P)),
    fun t => prH c t Tc Pc P (p t) (prZ (p t).a (p t).b t P), fun t => (prH c t Tc Pc P (p t) (prZ (p t).a (p t).b t P)
      - (prProps c t P Tc Pc (p t) (Ax (p t).a t P) (Bx (p t).b t P)
        (prZ (p t).a (p t).b t P, prLnf (Ax (p t).a t P) (Bx (p t).b t P) (prZ (p t).a (p t).b t P))).g) / t, ?_, ?_, ?_, ?_, ?_⟩
  · have e1 := (PrOne.eventually ha (continuousAt_const (y := b)) continuousAt_id (continuousAt_const (y := P)) hT.ne' h).filter_mono hF
    have e2 : ∀ᶠ t in F, 0 < t := (lt_mem_nhds hT).filter_mono hF
    filter_upwards [hp, e1, e2] with t ⟨h1, h2, h3⟩ h4 h5
    exact ⟨prPure_one h5 hP (by rw [h1]; exact hpa t) (by rw [h2]; exact hb) (by rw [h1, h2]; exact h4), (prProps_h h3).1, (prProps_h h3).2⟩
  · refine tg.congr' ?_
    have e2 : ∀ᶠ t in F, 0 < t := (lt_mem_nhds hT).filter_mono hF
    filter_upwards [hp, e2] with t ⟨h1, h2, h3⟩ h5
    rw [prProps_g h5 hP (by rw [h2]; exact hb), h1, h2]
  · refine th.congr' ?_
    filter_upwards [hp] with t ⟨h1, h2, h3⟩
    unfold prH
    rw [h1, h2]
    rfl
  · refine ((th.sub tg).div tt hT.ne').congr' ?_
    have e2 : ∀ᶠ t in F, 0 < t := (lt_mem_nhds hT).filter_mono hF
    filter_upwards [hp, e2] with t ⟨h1, h2, h3⟩ h5
    rw [prProps_g h5 hP (by rw [h2]; exact hb)]
    unfold prH
    rw [h1, h2]
    rfl
  · refine (cv.tendsto.mono_left hF).congr' ?_
    filter_upwards [hp] with t ⟨h1, h2, h3⟩
    show prZ (a t) b t P * Rgas * t / P = prZ (p t).a (p t).b t P * Rgas * t / P
    rw [h1, h2]

/-- The factor of the enthalpy at the critical temperature. -/
lemma factor_lim {κ : ℝ → ℝ} {κ0 ac Tc : ℝ} {F : Filter ℝ} (hTc : 0 < Tc) (hac : 0 < ac) (hF : F ≤ 𝓝[≠] Tc) (hκ : Tendsto κ F (𝓝 κ0)) :
    Tendsto (fun t => (Real.sqrt ((1 + κ t * (1 - Real.sqrt (t / Tc))) ^ 2 * ac / ac) - 1) / (1 - Real.sqrt (t / Tc)) * Real.sqrt (t / Tc)
      / Real.sqrt ((1 + κ t * (1 - Real.sqrt (t / Tc))) ^ 2 * ac / ac)) F (𝓝 κ0) := by
  have hs : Tendsto (fun t => Real.sqrt (t / Tc)) F (𝓝 1) := by
    have : ContinuousAt (fun t => Real.sqrt (t / Tc)) Tc := by fun_prop
    have h1 := this.tendsto.mono_left (hF.trans nhdsWithin_le_nhds)
    rwa [div_self hTc.ne', Real.sqrt_one] at h1
  have hq : Tendsto (fun t => 1 + κ t * (1 - Real.sqrt (t / Tc))) F (𝓝 1) := by
    have := (tendsto_const_nhds (x := (1 : ℝ))).add (hκ.mul ((tendsto_const_nhds (x := (1 : ℝ))).sub hs))
    rwa [sub_self, mul_zero, add_zero] at this
  have main : Tendsto (fun t => κ t * Real.sqrt (t / Tc) / (1 + κ t * (1 - Real.sqrt (t / Tc)))) F (𝓝 κ0) := by
    have := (hκ.mul hs).div hq one_ne_zero
    rwa [mul_one, div_one] at this
  refine main.congr' ?_
  have e1 : ∀ᶠ t in F, 0 < 1 + κ t * (1 - Real.sqrt (t / Tc)) := hq.eventually (lt_mem_nhds one_pos)
  have e2 : ∀ᶠ t in F, t ≠ Tc := hF self_mem_nhdsWithin
  have e3 : ∀ᶠ t in F, 0 < t := (lt_mem_nhds hTc).filter_mono (hF.trans nhdsWithin_le_nhds)
  filter_upwards [e1, e2, e3] with t h1 h2 h3
  have hne : 1 - Real.sqrt (t / Tc) ≠ 0 := by
    intro h
    have h4 : Real.sqrt (t / Tc) = 1 := by linarith
    rw [Real.sqrt_eq_one, div_eq_one_iff_eq hTc.ne'] at h4
    exact h2 h4
  rw [mul_div_cancel_right₀ _ hac.ne', Real.sqrt_sq h1.le, add_sub_cancel_left, mul_div_cancel_right₀ _ hne]

lemma sqrt_ne_one {t Tc : ℝ} (hTc : 0 < Tc) (h : t ≠ Tc) : Real.sqrt (t / Tc) ≠ 1 := by
  rw [Ne, Real.sqrt_eq_one, div_eq_one_iff_eq hTc.ne']
  exact h

/-- The Peng-Robinson models with a = ac (1 + κ (1 − √(T/Tc)))² at the critical temperature. -/
lemma pr_crit {κ : ℝ → ℝ} {P b c Tc Pc : ℝ} {p : ℝ → AB} {F : Filter ℝ} (hTc : 0 < Tc) (hPc : 0 < Pc) (hc : 0 < c) (hP : 0 < P) (hb : 0 < b)
    (hκ : ContinuousAt κ Tc) (h : PrOne (c * Rgas ^ 2 * Tc ^ 2 / Pc) b Tc P) (hF : F ≤ 𝓝[≠] Tc)
    (hp : ∀ᶠ t in F, (p t).a = (1 + κ t * (1 - Real.sqrt (t / Tc))) ^ 2 * (c * Rgas ^ 2 * Tc ^ 2 / Pc) ∧ (p t).b = b) :
    Limits (fun t => prPure c t P Tc Pc (p t)) F (gres Rgas uPR wPR P Tc (c * Rgas ^ 2 * Tc ^ 2 / Pc) b (prZ (c * Rgas ^ 2 * Tc ^ 2 / Pc) b Tc P * Rgas * Tc / P))
      (Rgas * Tc * (prZ (c * Rgas ^ 2 * Tc ^ 2 / Pc) b Tc P - 1 - prLog (c * Rgas ^ 2 * Tc ^ 2 / Pc) b Tc P * Ax (c * Rgas ^ 2 * Tc ^ 2 / Pc) Tc P
        / (Bx b Tc P * Real.sqrt 8) * (1 + κ Tc)))
      ((Rgas * Tc * (prZ (c * Rgas ^ 2 * Tc ^ 2 / Pc) b Tc P - 1 - prLog (c * Rgas ^ 2 * Tc ^ 2 / Pc) b Tc P * Ax (c * Rgas ^ 2 * Tc ^ 2 / Pc) Tc P
        / (Bx b Tc P * Real.sqrt 8) * (1 + κ Tc)) - gres Rgas uPR wPR P Tc (c * Rgas ^ 2 * Tc ^ 2 / Pc) b (prZ (c * Rgas ^ 2 * Tc ^ 2 / Pc) b Tc P * Rgas * Tc / P)) / Tc)
      (prZ (c * Rgas ^ 2 * Tc ^ 2 / Pc) b Tc P * Rgas * Tc / P) := by
  have hR := Rpos
  have hac : 0 < c * Rgas ^ 2 * Tc ^ 2 / Pc := by positivity
  have hcont : ContinuousAt (fun t => (1 + κ t * (1 - Real.sqrt (t / Tc))) ^ 2 * (c * Rgas ^ 2 * Tc ^ 2 / Pc)) Tc := by fun_prop
  have e : (1 + κ Tc * (1 - Real.sqrt (Tc / Tc))) ^ 2 * (c * Rgas ^ 2 * Tc ^ 2 / Pc) = c * Rgas ^ 2 * Tc ^ 2 / Pc := by
    rw [div_self hTc.ne', Real.sqrt_one]; ring
  have hle : F ≤ 𝓝 Tc := hF.trans nhdsWithin_le_nhds
  have := pr_limits (T := Tc) (P := P) (b := b) (c := c) (Tc := Tc) (Pc := Pc) (K := κ Tc)
    (a := fun t => (1 + κ t * (1 - Real.sqrt (t / Tc))) ^ 2 * (c * Rgas ^ 2 * Tc ^ 2 / Pc)) (p := p) (F := F) hTc hP hb hcont (by rw [e]; exact h) hle
    (by
      have e2 : ∀ᶠ t in F, t ≠ Tc := hF self_mem_nhdsWithin
      filter_upwards [hp, e2] with t h1 h2
      exact ⟨h1.1, h1.2, sqrt_ne_one hTc h2⟩) (fun t => by positivity)
    (factor_lim hTc hac hF (hκ.tendsto.mono_left hle))
  rw [e] at this
  exact this

/-- The factor of PRSV below the critical temperature. -/
noncomputable def prsvK (k : Nat → ℝ) (t : ℝ) : ℝ :=
  k0S (k 2) + (k 3 + k 4 * (k 5 - t / k 0) * (1 - Real.sqrt (t / k 0))) * (1 + Real.sqrt (t / k 0)) * (0.7 - t / k 0)

lemma prsv_lt {k : Nat → ℝ} {t : ℝ} (h : t < k 0) : (prsvAB t (k 0) (k 1) (k 2) (k 3) (k 4) (k 5)).a
    = (1 + prsvK k t * (1 - Real.sqrt (t / k 0))) ^ 2 * (0.457235 * Rgas ^ 2 * k 0 ^ 2 / k 1) := by
  unfold prsvAB prsvK k0S
  dsimp only
  rw [if_neg (not_le.2 h), if_neg (not_le.2 h), if_neg (not_le.2 h)]

lemma prsvK_crit {k : Nat → ℝ} (h : 0 < k 0) : prsvK k (k 0) = k0S (k 2) - 0.6 * k 3 := by
  unfold prsvK
  rw [div_self h.ne', Real.sqrt_one]
  ring

lemma prsvK_cont (k : Nat → ℝ) (t : ℝ) : ContinuousAt (prsvK k) t := by
  unfold prsvK
  fun_prop

/-- The parameters of PRSV at the critical temperature. -/
lemma prsv_at {k : Nat → ℝ} (h : 0 < k 0) : (parsOf .PRSV (k 0) k).a = 0.457235 * Rgas ^ 2 * k 0 ^ 2 / k 1 := by
  show (prsvAB (k 0) (k 0) (k 1) (k 2) (k 3) (k 4) (k 5)).a = _
  rw [(prsv_soave (Or.inl le_rfl)).1, div_self h.ne', Real.sqrt_one]
  ring

/-! ### C172 -/

/-- **C172** is violated: the PRSV model drops its coefficients k1 to k3 at the critical temperature.  For every record with k1 ≠ 0 and every pressure at
which the equation has a single volume at the critical temperature, G and the volume come together there from both sides, but the enthalpy and the entropy
jump, by an amount proportional to k1. -/
theorem C172_prsv_refuted (P : ℝ) (k : Nat → ℝ) (hP : 0 < P) (hTc : 0 < k 0) (hPc : 0 < k 1) (hk : k 3 ≠ 0)
    (h : PrSingle (parsOf .PRSV (k 0) k).a (parsOf .PRSV (k 0) k).b (k 0) P) :
    ∃ g v hl hr sl sr, Limits (fun t => fugacityPT .PRSV t P k) (𝓝[<] k 0) g hl sl v ∧ Limits (fun t => fugacityPT .PRSV t P k) (𝓝[>] k 0) g hr sr v ∧
      hl ≠ hr ∧ sl ≠ sr := by
  have hR := Rpos
  have hb : 0 < 0.077796 * Rgas * k 0 / k 1 := by positivity
  have hac : 0 < 0.457235 * Rgas ^ 2 * k 0 ^ 2 / k 1 := by positivity
  rw [prsv_at hTc] at h
  have h1 : PrOne (0.457235 * Rgas ^ 2 * k 0 ^ 2 / k 1) (0.077796 * Rgas * k 0 / k 1) (k 0) P := h.one
  have L := pr_crit (κ := prsvK k) (p := fun t => prsvAB t (k 0) (k 1) (k 2) (k 3) (k 4) (k 5)) (F := 𝓝[<] k 0) hTc hPc (by norm_num : (0 : ℝ) < 0.457235) hP hb
    (prsvK_cont k _) h1 (nhdsWithin_mono _ fun t ht => ne_of_lt ht) (by
      filter_upwards [self_mem_nhdsWithin] with t ht
      exact ⟨prsv_lt ht, rfl⟩)
  have R := pr_crit (κ := fun _ => k0S (k 2)) (p := fun t => prsvAB t (k 0) (k 1) (k 2) (k 3) (k 4) (k 5)) (F := 𝓝[>] k 0) hTc hPc
    (by norm_num : (0 : ℝ) < 0.457235) hP hb continuousAt_const h1 (nhdsWithin_mono _ fun t ht => ne_of_gt ht) (by
      filter_upwards [self_mem_nhdsWithin] with t ht
      exact ⟨(prsv_soave (Or.inl (le_of_lt ht))).1, rfl⟩)
  rw [prsvK_crit hTc] at L
  have r := pr_rootOf hTc hP hac.le hb h1
  have hB : 0 < Bx (0.077796 * Rgas * k 0 / k 1) (k 0) P := by unfold Bx; positivity
  have hA : 0 < Ax (0.457235 * Rgas ^ 2 * k 0 ^ 2 / k 1) (k 0) P := by unfold Ax; positivity
  have hL : 0 < prLog (0.457235 * Rgas ^ 2 * k 0 ^ 2 / k 1) (0.077796 * Rgas * k 0 / k 1) (k 0) P := by
    unfold prLog
    refine Real.log_pos ?_
    rw [lt_div_iff₀ r.W]
    nlinarith [sqrt2_pos]
  have h8 : 0 < Real.sqrt 8 := Real.sqrt_pos.mpr (by norm_num)
  have hX : 0 < prLog (0.457235 * Rgas ^ 2 * k 0 ^ 2 / k 1) (0.077796 * Rgas * k 0 / k 1) (k 0) P * Ax (0.457235 * Rgas ^ 2 * k 0 ^ 2 / k 1) (k 0) P
      / (Bx (0.077796 * Rgas * k 0 / k 1) (k 0) P * Real.sqrt 8) := by positivity
  have hne : ∀ z X κ : ℝ, 0 < X → Rgas * k 0 * (z - 1 - X * (1 + (κ - 0.6 * k 3))) ≠ Rgas * k 0 * (z - 1 - X * (1 + κ)) := by
    intro z X κ hX he
    have h2 := mul_left_cancel₀ (mul_pos hR hTc).ne' he
    have h3 : X * k 3 = 0 := by linarith
    rcases mul_eq_zero.1 h3 with h3 | h3
    · exact hX.ne' h3
    · exact hk h3
  refine ⟨_, _, _, _, _, _, L, R, hne _ _ _ hX, fun he => ?_⟩
  rw [div_left_inj' hTc.ne', sub_left_inj] at he
  exact hne _ _ _ hX he

/-- **C172** (Peng-Robinson at the critical temperature): for PR78, and for PRSV with k1 = 0, all of G, H, S and the volume come together from both sides.
Missing: k1 ≠ 0 (above), the value at the critical temperature itself (below), and pressures at which the equation has several volumes. -/
theorem C172_critical_partial (m : Eos) (hm : m ≠ .SRK) (P : ℝ) (k : Nat → ℝ) (hP : 0 < P) (hTc : 0 < k 0) (hPc : 0 < k 1) (hk : m = .PRSV → k 3 = 0)
    (h : PrSingle (parsOf m (k 0) k).a (parsOf m (k 0) k).b (k 0) P) :
    ∃ g v h s, Limits (fun t => fugacityPT m t P k) (𝓝[<] k 0) g h s v ∧ Limits (fun t => fugacityPT m t P k) (𝓝[>] k 0) g h s v := by
  have hR := Rpos
  cases m
  · have hb : 0 < 0.077796 * Rgas * k 0 / k 1 := by positivity
    rw [prsv_at hTc] at h
    have h1 : PrOne (0.457235 * Rgas ^ 2 * k 0 ^ 2 / k 1) (0.077796 * Rgas * k 0 / k 1) (k 0) P := h.one
    have L := pr_crit (κ := prsvK k) (p := fun t => prsvAB t (k 0) (k 1) (k 2) (k 3) (k 4) (k 5)) (F := 𝓝[<] k 0) hTc hPc (by norm_num : (0 : ℝ) < 0.457235) hP hb
      (prsvK_cont k _) h1 (nhdsWithin_mono _ fun t ht => ne_of_lt ht) (by
        filter_upwards [self_mem_nhdsWithin] with t ht
        exact ⟨prsv_lt ht, rfl⟩)
    have R := pr_crit (κ := fun _ => k0S (k 2)) (p := fun t => prsvAB t (k 0) (k 1) (k 2) (k 3) (k 4) (k 5)) (F := 𝓝[>] k 0) hTc hPc
      (by norm_num : (0 : ℝ) < 0.457235) hP hb continuousAt_const h1 (nhdsWithin_mono _ fun t ht => ne_of_gt ht) (by
        filter_upwards [self_mem_nhdsWithin] with t ht
        exact ⟨(prsv_soave (Or.inl (le_of_lt ht))).1, rfl⟩)
    rw [show prsvK k (k 0) = k0S (k 2) by rw [prsvK_crit hTc, hk rfl, mul_zero, sub_zero]] at L
    exact ⟨_, _, _, _, L, R⟩
  · exact absurd rfl hm
  · have hb : 0 < 0.0777960739 * Rgas * k 0 / k 1 := by positivity
    have e : (parsOf .PR78 (k 0) k).a = 0.457235529 * Rgas ^ 2 * k 0 ^ 2 / k 1 := by
      show (1 + pr78k (k 2) * (1 - Real.sqrt (k 0 / k 0))) ^ 2 * (0.457235529 * Rgas ^ 2 * k 0 ^ 2 / k 1) = _
      rw [div_self hTc.ne', Real.sqrt_one]
      ring
    rw [e] at h
    have h1 : PrOne (0.457235529 * Rgas ^ 2 * k 0 ^ 2 / k 1) (0.0777960739 * Rgas * k 0 / k 1) (k 0) P := h.one
    have key : ∀ F : Filter ℝ, F ≤ 𝓝[≠] k 0 → _ := fun F hF => pr_crit (κ := fun _ => pr78k (k 2)) (p := fun t => pr78AB t (k 0) (k 1) (k 2)) (F := F) hTc hPc
      (by norm_num : (0 : ℝ) < 0.457235529) hP hb continuousAt_const h1 hF (Eventually.of_forall fun t => ⟨rfl, rfl⟩)
    exact ⟨_, _, _, _, key _ (nhdsWithin_mono _ fun t ht => ne_of_lt ht), key _ (nhdsWithin_mono _ fun t ht => ne_of_gt ht)⟩

/-- **C172** is violated at the critical temperature itself: both Peng-Robinson models return NaN for H and S there, for every record and every pressure
with a single volume, although the values on both sides have limits (`C172_critical_partial`). -/
theorem C172_nan_refuted (m : Eos) (hm : m ≠ .SRK) (P : ℝ) (k : Nat → ℝ) (hP : 0 < P) (hTc : 0 < k 0) (hPc : 0 < k 1)
    (h : PrSingle (parsOf m (k 0) k).a (parsOf m (k 0) k).b (k 0) P) :
    (∃ f, fugacityPT m (k 0) P k = some f ∧ f.h = none ∧ f.s = none) ∧ ∀ g hh s v, ¬ Limits (fun t => fugacityPT m t P k) (𝓝 (k 0)) g hh s v := by
  obtain ⟨ha0, hb⟩ := parsOf_pos (m := m) (T := k 0) hTc hPc
  have hs : Real.sqrt (k 0 / k 0) = 1 := by rw [div_self hTc.ne', Real.sqrt_one]
  have key : ∃ f, fugacityPT m (k 0) P k = some f ∧ f.h = none ∧ f.s = none := by
    cases m
    · exact ⟨_, prPure_one hTc hP ha0 hb h.one, if_pos hs, if_pos hs⟩
    · exact absurd rfl hm
    · exact ⟨_, prPure_one hTc hP ha0 hb h.one, if_pos hs, if_pos hs⟩
  refine ⟨key, ?_⟩
  rintro g hh s v ⟨f, h1, s1, ev, -⟩
  obtain ⟨f', e1, e2, -⟩ := key
  obtain ⟨e3, e4, -⟩ := ev.self_of_nhds
  have : f' = f (k 0) := Option.some.inj (e1.symm.trans e3)
  rw [← this, e2] at e4
  exact absurd e4 (by simp)

/-- The Soave-Redlich-Kwong model where a and its derivative are continuous. -/
lemma srk_limits {T P b : ℝ} {p : ℝ → AB} (hT : 0 < T) (hP : 0 < P) (hb : 0 < b) (ha : ContinuousAt (fun t => (p t).a) T)
    (hda : ContinuousAt (fun t => (p t).da) T) (hpb : ∀ t, (p t).b = b) (hpa : ∀ t, 0 ≤ (p t).a) (h : SrkOne (p T).a b T P) :
    ∃ g hh s v, Limits (fun t => srkPure t P (p t)) (𝓝 T) g hh s v := by
  have hR := Rpos
  have r := srk_rootOf hT hP (hpa T) hb h
  have cZ := srkZ_cont (P := P) (b := b) hT.ne' ha h
  have cv : ContinuousAt (fun t => srkZ (p t).a b t P * Rgas * t / P) T := ((cZ.mul continuousAt_const).mul continuousAt_id).div_const _
  have hv : 0 < srkZ (p T).a b T P * Rgas * T / P := by have := r.vb; linarith
  have hz : 0 < srkZ (p T).a b T P := by have := r.W; linarith
  have cL : ContinuousAt (fun t => Real.log (1 + b / (srkZ (p t).a b t P * Rgas * t / P))) T :=
    (continuousAt_const.add (continuousAt_const.div cv hv.ne')).log (add_pos one_pos (div_pos hb hv)).ne'
  have cM : ContinuousAt (fun t => Real.log (srkZ (p t).a b t P * (1 - b / (srkZ (p t).a b t P * Rgas * t / P)))) T := by
    refine (cZ.mul (continuousAt_const.sub (continuousAt_const.div cv hv.ne'))).log (mul_ne_zero hz.ne' ?_)
    have : b / (srkZ (p T).a b T P * Rgas * T / P) < 1 := by rw [div_lt_one hv]; exact r.vb
    intro h0
    have h0' : 1 - b / (srkZ (p T).a b T P * Rgas * T / P) = 0 := h0
    linarith
  have cH : ContinuousAt (fun t => -(1 - srkZ (p t).a b t P + 1 / (b * Rgas * t) * ((p t).a - t * (p t).da)
      * Real.log (1 + b / (srkZ (p t).a b t P * Rgas * t / P))) * Rgas * t) T := by
    have c1 : ContinuousAt (fun t : ℝ => 1 / (b * Rgas * t)) T := continuousAt_const.div (by fun_prop) (by positivity)
    have c2 : ContinuousAt (fun t : ℝ => (p t).a - t * (p t).da) T := ha.sub (continuousAt_id.mul hda)
    exact (((continuousAt_const.sub cZ).add ((c1.mul c2).mul cL)).neg.mul continuousAt_const).mul continuousAt_id
  have cS : ContinuousAt (fun t => (Real.log (srkZ (p t).a b t P * (1 - b / (srkZ (p t).a b t P * Rgas * t / P)))
      + 1 / (b * Rgas) * (p t).da * Real.log (1 + b / (srkZ (p t).a b t P * Rgas * t / P))) * Rgas) T :=
    (cM.add ((continuousAt_const.mul hda).mul cL)).mul continuousAt_const
  refine ⟨_, _, _, _, fun t => srkProps t P (p t) (Bx (p t).b t P) (srkZ (p t).a (p t).b t P, srkLnf (Ax (p t).a t P) (Bx (p t).b t P)
      (srkZ (p t).a (p t).b t P)), _, _, ?_, (cH.sub (continuousAt_id.mul cS)).tendsto.congr ?_, cH.tendsto, cS.tendsto, cv.tendsto.congr ?_⟩
  · have e1 := SrkOne.eventually ha (continuousAt_const (y := b)) continuousAt_id (continuousAt_const (y := P)) hT.ne' h
    filter_upwards [e1, lt_mem_nhds hT] with t h4 h5
    refine ⟨srkPure_one h5 hP (hpa t) (by rw [hpb]; exact hb) (by rw [hpb]; exact h4), ?_, ?_⟩
    · rw [hpb]
      unfold srkProps
      dsimp only
      rw [hpb]
    · rw [hpb]
      unfold srkProps
      dsimp only
      rw [hpb]
  · intro t
    dsimp only
    rw [hpb]
    unfold srkProps
    dsimp only
    rw [hpb]
    rfl
  · intro t
    dsimp only
    rw [hpb]
    rfl

/-- The Peng-Robinson models away from the critical temperature. -/
lemma pr_away {T P b c Tc Pc : ℝ} {a : ℝ → ℝ} {p : ℝ → AB} (hT : 0 < T) (hP : 0 < P) (hb : 0 < b) (hTc : 0 < Tc) (hPc : 0 < Pc) (hc : 0 < c)
    (hne : T ≠ Tc) (ha : ContinuousAt a T) (ha0 : 0 < a T) (hpa : ∀ t, 0 ≤ a t) (h : PrOne (a T) b T P) (hp : ∀ᶠ t in 𝓝 T, (p t).a = a t ∧ (p t).b = b) :
    ∃ g hh s v, Limits (fun t => prPure c t P Tc Pc (p t)) (𝓝 T) g hh s v := by
  have hR := Rpos
  have hac : 0 < c * Rgas ^ 2 * Tc ^ 2 / Pc := by positivity
  have hq : ContinuousAt (fun t => Real.sqrt (a t / (c * Rgas ^ 2 * Tc ^ 2 / Pc))) T := (ha.div_const _).sqrt
  have hs : ContinuousAt (fun t : ℝ => Real.sqrt (t / Tc)) T := by fun_prop
  have h1 : 1 - Real.sqrt (T / Tc) ≠ 0 := sub_ne_zero.2 (sqrt_ne_one hTc hne).symm
  have h2 : Real.sqrt (a T / (c * Rgas ^ 2 * Tc ^ 2 / Pc)) ≠ 0 := (Real.sqrt_pos.2 (div_pos ha0 hac)).ne'
  have hK : ContinuousAt (fun t => (Real.sqrt (a t / (c * Rgas ^ 2 * Tc ^ 2 / Pc)) - 1) / (1 - Real.sqrt (t / Tc)) * Real.sqrt (t / Tc)
      / Real.sqrt (a t / (c * Rgas ^ 2 * Tc ^ 2 / Pc))) T :=
    (((hq.sub continuousAt_const).div (continuousAt_const.sub hs) h1).mul hs).div hq h2
  refine ⟨_, _, _, _, pr_limits hT hP hb ha h le_rfl ?_ hpa hK.tendsto⟩
  have e : ∀ᶠ t in 𝓝 T, t ≠ Tc := isOpen_ne.mem_nhds hne
  filter_upwards [hp, e] with t h3 h4
  exact ⟨h3.1, h3.2, sqrt_ne_one hTc h4⟩

/-- **C172**: where the equation of state has a single volume (and away from the critical temperature and the zero of a for the two Peng-Robinson models), G, H, S
and the volume are continuous functions of temperature, for every record, with all coefficients of PRSV.
Missing: pressures at which the equation has several volumes, where the phases change; and see the refutations. -/
theorem C172_partial (m : Eos) (T P : ℝ) (k : Nat → ℝ) (hT : 0 < T) (hP : 0 < P) (hTc : 0 < k 0) (hPc : 0 < k 1)
    (hne : m ≠ .SRK → T ≠ k 0 ∧ (parsOf m T k).a ≠ 0)
    (h : match m with
      | .SRK => SrkSingle (parsOf m T k).a (parsOf m T k).b T P
      | _ => PrSingle (parsOf m T k).a (parsOf m T k).b T P) :
    ∃ g hh s v, Limits (fun t => fugacityPT m t P k) (𝓝 T) g hh s v := by
  have hR := Rpos
  obtain ⟨ha0, hb⟩ := parsOf_pos (m := m) (T := T) hTc hPc
  have hsq : Real.sqrt (T / k 0) * k 0 ≠ 0 := by positivity
  cases m
  · obtain ⟨n1, n2⟩ := hne (by decide)
    have h1 : PrOne (parsOf .PRSV T k).a (parsOf .PRSV T k).b T P := h.one
    rcases lt_or_gt_of_ne n1 with hlt | hgt
    · have e : (parsOf .PRSV T k).a = (1 + prsvK k T * (1 - Real.sqrt (T / k 0))) ^ 2 * (0.457235 * Rgas ^ 2 * k 0 ^ 2 / k 1) := prsv_lt hlt
      rw [e] at h1 n2 ha0
      have := prsvK_cont k T
      exact pr_away (p := fun t => prsvAB t (k 0) (k 1) (k 2) (k 3) (k 4) (k 5))
        (a := fun t => (1 + prsvK k t * (1 - Real.sqrt (t / k 0))) ^ 2 * (0.457235 * Rgas ^ 2 * k 0 ^ 2 / k 1)) hT hP hb hTc hPc (by norm_num) n1
        (by fun_prop) (lt_of_le_of_ne ha0 n2.symm) (fun t => by positivity) h1 ((gt_mem_nhds hlt).mono fun t ht => ⟨prsv_lt ht, rfl⟩)
    · have e : (parsOf .PRSV T k).a = (1 + k0S (k 2) * (1 - Real.sqrt (T / k 0))) ^ 2 * (0.457235 * Rgas ^ 2 * k 0 ^ 2 / k 1) :=
        (prsv_soave (Or.inl hgt.le)).1
      rw [e] at h1 n2 ha0
      exact pr_away (p := fun t => prsvAB t (k 0) (k 1) (k 2) (k 3) (k 4) (k 5))
        (a := fun t => (1 + k0S (k 2) * (1 - Real.sqrt (t / k 0))) ^ 2 * (0.457235 * Rgas ^ 2 * k 0 ^ 2 / k 1)) hT hP hb hTc hPc (by norm_num) n1
        (by fun_prop) (lt_of_le_of_ne ha0 n2.symm) (fun t => by positivity) h1
        ((lt_mem_nhds hgt).mono fun t ht => ⟨(prsv_soave (Or.inl (le_of_lt ht))).1, rfl⟩)
  · refine srk_limits (p := fun t => srkAB t (k 0) (k 1) (k 2)) hT hP hb ?_ ?_ (fun _ => rfl) (fun t => (parsOf_pos (m := .SRK) hTc hPc).1) h.one
    · unfold srkAB
      dsimp only
      fun_prop
    · unfold srkAB
      dsimp only
      have c1 : ContinuousAt (fun t => -0.5 * (0.48 + 1.574 * k 2 - 0.176 * k 2 ^ 2) / (Real.sqrt (t / k 0) * k 0)) T :=
        continuousAt_const.div (by fun_prop) hsq
      have c2 : ContinuousAt (fun t => 1 + (0.48 + 1.574 * k 2 - 0.176 * k 2 ^ 2) * (1 - Real.sqrt (t / k 0))) T := by fun_prop
      exact continuousAt_const.mul (c2.mul c1)
  · obtain ⟨n1, n2⟩ := hne (by decide)
    exact pr_away (p := fun t => pr78AB t (k 0) (k 1) (k 2))
      (a := fun t => (1 + pr78k (k 2) * (1 - Real.sqrt (t / k 0))) ^ 2 * (0.457235529 * Rgas ^ 2 * k 0 ^ 2 / k 1)) hT hP hb hTc hPc (by norm_num) n1
      (by fun_prop) (lt_of_le_of_ne ha0 n2.symm) (fun t => by positivity) h.one (Eventually.of_forall fun t => ⟨rfl, rfl⟩)

/-- The gas of `exCrit` with the first coefficient of PRSV. -/
noncomputable def exK1 : Nat → ℝ := fun i => [300, 74, 0.225, 0.04, 0, 0, 0].getD i 0

lemma single_ex {k : Nat → ℝ} (h0 : k 0 = 300) (h1 : k 1 = 74) : PrSingle (parsOf .PRSV (k 0) k).a (parsOf .PRSV (k 0) k).b (k 0) 740 := by
  have hR := Rpos
  have eb : (parsOf .PRSV (k 0) k).b = 0.077796 * Rgas * k 0 / k 1 := rfl
  rw [prsv_at (by rw [h0]; norm_num), eb, h0, h1]
  obtain ⟨e1, e2⟩ := AB_num (c := 0.457235) (cb := 0.077796) (q := 1) (T := 300) (P := 740) (Tc := 300) (Pc := 74) (by norm_num) (by norm_num) (by norm_num)
  rw [one_pow, one_mul] at e1
  unfold PrSingle
  dsimp only
  rw [e1, e2]
  unfold discr cubic
  norm_num

/-- With it H and S jump at 300 K and 740 bar, and at 432 K they are continuous. -/
example : (∃ g v hl hr sl sr, Limits (fun t => fugacityPT .PRSV t 740 exK1) (𝓝[<] 300) g hl sl v ∧ Limits (fun t => fugacityPT .PRSV t 740 exK1) (𝓝[>] 300) g hr sr v ∧
      hl ≠ hr ∧ sl ≠ sr) ∧ (∃ f, fugacityPT .PRSV 300 740 exK1 = some f ∧ f.h = none ∧ f.s = none) ∧
    (∃ g hh s v, Limits (fun t => fugacityPT .SRK t 740 exCrit) (𝓝 432) g hh s v) ∧
    ∃ g v hh s, Limits (fun t => fugacityPT .PRSV t 740 exCrit) (𝓝[<] 300) g hh s v ∧ Limits (fun t => fugacityPT .PRSV t 740 exCrit) (𝓝[>] 300) g hh s v := by
  have h0 : (0 : ℝ) < exK1 0 := by show (0 : ℝ) < 300; norm_num
  have h1 : (0 : ℝ) < exK1 1 := by show (0 : ℝ) < 74; norm_num
  have h3 : exK1 3 ≠ 0 := by show (0.04 : ℝ) ≠ 0; norm_num
  exact ⟨C172_prsv_refuted 740 exK1 (by norm_num) h0 h1 h3 (single_ex rfl rfl), (C172_nan_refuted .PRSV (by decide) 740 exK1 (by norm_num) h0 h1 (single_ex rfl rfl)).1,
    C172_partial .SRK 432 740 exCrit (by norm_num) (by norm_num) (by rw [ex0]; norm_num) (by rw [ex1]; norm_num) (fun h => absurd rfl h) exCrit_srk,
    C172_critical_partial .PRSV (by decide) 740 exCrit (by norm_num) (by rw [ex0]; norm_num) (by rw [ex1]; norm_num) (fun _ => rfl) (single_ex rfl rfl)⟩

end ThermoFun.Gas

import Verif.Props.GShok

/-!
Property C37 at the entry points, and properties C73 and C74: the reference state of the HKF model and the agreement of its two
implementations.
-/

set_option linter.unusedSimpArgs false

namespace ThermoFun

/-! ### C37 from the solvent properties to the result -/

/-- The dielectric properties given to the model: Z with its derivatives, at (T, P). -/
structure DielSmooth (e : ℝ → ℝ → ESolv) (T P : ℝ) : Prop where
  Y : HasDerivAt (fun t => (e t P).bornZ.val) (e T P).bornY.val T
  X : HasDerivAt (fun t => (e t P).bornY.val) (e T P).bornX.val T
  Q : HasDerivAt (fun p => (e T p).bornZ.val) (e T P).bornQ.val P

lemma bornSmooth_of {E : ℝ → ℝ → ESub} {e : ℝ → ℝ → ESolv} {T P : ℝ} (hE : BornFirst E T P) (he : DielSmooth e T P) :
    BornSmooth E e T P := ⟨hE.wT, hE.wTT, hE.wP, he.Y, he.X, he.Q⟩

/-- `C38_gems_partial` with only the derivatives of g the gems implementation sets. -/
lemma omeg92_first (z : ℤ) (hkf : List ℝ) (wref : ℝ) (hw : hkf[6]? = some wref) (F : ℝ → ℝ → FunG) (T P : ℝ)
    (hF : GFirst F T P) (hr : z ≠ 0 → refRadius z wref + |(z : ℝ)| * (F T P).g.val ≠ 0) (hg : 3.082 + (F T P).g.val ≠ 0) :
    ∃ E : ℝ → ℝ → ESub, (∀ t p, omeg92 (F t p) z hkf = .ok (E t p)) ∧ BornFirst E T P := by
  by_cases hz : z = 0
  · refine ⟨fun _ _ => ⟨TS.assign .default wref, TS.assign .default 0, TS.assign .default 0, TS.assign .default 0,
      .default, .default⟩, fun t p => ?_, (constant_first _ ⟨rfl, rfl, rfl, rfl, rfl⟩ T P).toBornFirst⟩
    simp only [omeg92, hw, if_pos hz]
  · choose E hE h1 h2 h3 h4 h5 h6 using fun t p => omeg92_vals hz hw (F t p)
    refine ⟨E, hE, ⟨?_, ?_, ?_⟩⟩
    · simp only [h1, h2]
      exact bW_comp (f := fun t => (F t P).g.val) (hr hz) hg hF.gT
    · simp only [h1, h3]
      exact bW_comp (f := fun p => (F T p).g.val) (hr hz) hg hF.gP
    · simp only [h2, h4]
      exact bW1_mul (f := fun t => (F t P).g.val) (hr hz) hg hF.gT hF.gTT

/-- **C37 at the entry point `SoluteHKFreaktoro::thermoProperties`, the part that holds.**  For every species of any charge with seven
parameters and every smooth solvent density and dielectric function, also where the g function changes its equation: dG/dT = -S, dH/dT = Cp,
dS/dT = Cp/T, A = U - T S, dG/dP = κ V.  Missing: κ = 1 and U = H - P V, see `C37_refuted`. -/
theorem C37_reaktoro_entry_partial (z : ℤ) (isH : Bool) (a1 a2 a3 a4 c1 c2 wr : ℝ) (rest : List ℝ) (ref : TPS)
    (ps : ℝ → ℝ → PSolv) (e : ℝ → ℝ → ESolv) (T P : ℝ) (hT : 228 < T) (hP : 0 ≤ P)
    (hs : DensitySmooth ps T P) (he : DielSmooth e T P) (h0 : 0 < (ps T P).density.val)
    (h1 : (ps T P).density.val ≠ 1000) (hT0 : (ps T P).densityT.val ≠ 0) (hP0 : (ps T P).densityP.val ≠ 0)
    (hr : z ≠ 0 → refRadius z wr + |(z : ℝ)| * (functionG (TS.temperature T) (pbar P) (ps T P)).g.val ≠ 0)
    (hg : 3.082 + (functionG (TS.temperature T) (pbar P) (ps T P)).g.val ≠ 0) :
    let s : HKFSub := ⟨z, isH, a1 :: a2 :: a3 :: a4 :: c1 :: c2 :: wr :: rest, ref⟩
    ∃ f : ℝ → ℝ → TPS, (∀ t p, hkfReaktoroEntry t p s (ps t p) (e t p) = .ok (f t p)) ∧ HKFConsistent (4.184 / 4.184004) f T P := by
  intro s
  have hF := C72_reaktoro ps T P hs h0 h1 hT0 hP0
  obtain ⟨E, hE, hBorn, _⟩ := C38_reaktoro z isH s.hkf wr rfl _ T P hF hr hg
  obtain ⟨⟨f, hf, hc⟩, _⟩ := C37_partial ref a1 a2 a3 a4 c1 c2 wr rest E e T P hT hP (bornSmooth_of hBorn.toBornFirst he)
  refine ⟨f, fun t p => ?_, hc⟩
  have h := hE t p
  simp only [hkfReaktoroEntry]
  rw [h]
  exact hf t p

/-- **C37 at the entry point `SoluteHKFgems::thermoProperties`, the part that holds**, below 1000 kg/m³.  Missing: κ = 1 and U = H - P V,
see `C37_refuted`, and higher densities, see `C72_gems_wrong_sign`. -/
theorem C37_gems_entry_partial (z : ℤ) (isH : Bool) (a1 a2 a3 a4 c1 c2 wr : ℝ) (rest : List ℝ) (ref : TPS)
    (ps : ℝ → ℝ → PSolv) (e : ℝ → ℝ → ESolv) (T P : ℝ) (hT : 228 < T) (hP : 0 ≤ P)
    (hs : SolvSmooth (fun t p => (ps t p).toSolv) T P) (he : DielSmooth e T P)
    (h1 : (ps T P).density.val < 1000)
    (hr : z ≠ 0 → refRadius z wr + |(z : ℝ)| * (gShok2 (tC T) (pbar P) (ps T P).toSolv).g.val ≠ 0)
    (hg : 3.082 + (gShok2 (tC T) (pbar P) (ps T P).toSolv).g.val ≠ 0) :
    let s : HKFSub := ⟨z, isH, a1 :: a2 :: a3 :: a4 :: c1 :: c2 :: wr :: rest, ref⟩
    ∃ f : ℝ → ℝ → TPS, (∀ t p, hkfGemsEntry t p s (ps t p) (e t p) = .ok (f t p)) ∧ HKFConsistent (4.184 / 4.184004) f T P := by
  intro s
  have hF := C72_gems_partial (fun t p => (ps t p).toSolv) T P hs h1
  obtain ⟨E, hE, hBorn⟩ := omeg92_first z s.hkf wr rfl _ T P hF hr hg
  obtain ⟨_, ⟨f, hf, hc⟩⟩ := C37_partial ref a1 a2 a3 a4 c1 c2 wr rest E e T P hT hP (bornSmooth_of hBorn he)
  refine ⟨f, fun t p => ?_, hc⟩
  have h := hE t p
  simp only [hkfGemsEntry]
  simp only [tC] at h
  rw [h]
  exact hf t p

/-- The hypotheses of the two theorems above for a neutral species (for which the radius is not used), 500 K and 10 bar. -/
example : DensitySmooth sampleRho 500 1e6 ∧ SolvSmooth (fun t p => (sampleRho t p).toSolv) 500 1e6 ∧
    DielSmooth (fun t p => ⟨.ofVal (-1 / 80 - t * p), .ofVal (-p), .ofVal (-t), .ofVal 0⟩) 500 1e6 := by
  refine ⟨sampleRho_smooth _ _, sampleSolv_smooth (by norm_num), ?_⟩
  constructor <;> simp only [TS.val_ofVal]
  · exact (((hasDerivAt_id' (500 : ℝ)).mul_const 1e6).const_sub _).congr_deriv (by norm_num)
  · exact hasDerivAt_const _ _
  · exact (((hasDerivAt_id' (1e6 : ℝ)).const_mul 500).const_sub _).congr_deriv (by norm_num)

/-! ### C73 -/

lemma hkf_reference {q : HKFPar} {r : TPS} {a : ESub} {e : ESolv} (hv : HKFVals q r 298.15 1e5 a e) (hw : a.w.val = q.wr)
    (hwT : a.wT.val = 0) (hZ : e.bornZ.val = q.zr) (hY : e.bornY.val = q.yr) :
    r.G.val = q.Gf * 4.184 ∧ r.H.val = q.Hf * 4.184 ∧ r.S.val = q.Sr * 4.184 := by
  rw [hv.G, hv.H, hv.S, hw, hwT, hZ, hY]
  have h1 : (1e5 : ℝ) / 1e5 = 1 := by norm_num
  have h2 : HKFPar.lp 1 = 0 := by simp only [HKFPar.lp]; rw [div_self (by norm_num), Real.log_one]
  have h3 : HKFPar.lt 298.15 = 0 := by
    simp only [HKFPar.lt]; rw [div_self (by norm_num), one_mul, div_self (by norm_num), Real.log_one]
  have h4 : Real.log (298.15 / 298.15 : ℝ) = 0 := by rw [div_self (by norm_num), Real.log_one]
  simp only [HKFPar.G, HKFPar.H, HKFPar.S, h1, h2, h3, h4]
  refine ⟨?_, ?_, ?_⟩ <;> ring

/-- **C73.**  At 298.15 K and 1 bar, if the Born coefficient there is the recorded one with zero slope and the solvent's Born functions have
the implementation's reference values, G, H and S are the recorded ones, for every record, in both implementations. -/
theorem C73_reference (ref : TPS) (a1 a2 a3 a4 c1 c2 wr : ℝ) (rest : List ℝ) (a : ESub) (e : ESolv) (r : TPS)
    (hw : a.w.val = wr) (hwT : a.wT.val = 0) :
    let par := a1 :: a2 :: a3 :: a4 :: c1 :: c2 :: wr :: rest
    (hkfReaktoro (TS.temperature 298.15) (pbar 1e5) par ref a e = .ok r → e.bornZ.val = -1.278055636e-02 →
      e.bornY.val = -5.795424563e-05 → r.G.val = ref.G.val ∧ r.H.val = ref.H.val ∧ r.S.val = ref.S.val) ∧
    (hkfGems (TS.subAssignD (TS.temperature 298.15) 273.15) (pbar 1e5) par ref a e = .ok r → e.bornZ.val = -0.1278034682e-1 →
      e.bornY.val = -0.5798650444e-4 → r.G.val = ref.G.val ∧ r.H.val = ref.H.val ∧ r.S.val = ref.S.val) := by
  refine ⟨fun hr hZ hY => ?_, fun hr hZ hY => ?_⟩
  · obtain ⟨r', hr', hv⟩ := hkfReaktoro_vals 298.15 1e5 ref a e a1 a2 a3 a4 c1 c2 wr rest
    rw [hr] at hr'
    obtain rfl : r = r' := by simpa using hr'
    have h := hkf_reference hv hw hwT hZ hY
    simp only [HKFPar.of, div_mul_cancel₀ _ (show (4.184 : ℝ) ≠ 0 by norm_num)] at h
    exact h
  · obtain ⟨r', hr', hv⟩ := hkfGems_vals 298.15 1e5 ref a e a1 a2 a3 a4 c1 c2 wr rest
    rw [hr] at hr'
    obtain rfl : r = r' := by simpa using hr'
    have h := hkf_reference hv hw hwT hZ hY
    simp only [HKFPar.of, div_mul_cancel₀ _ (show (4.184 : ℝ) ≠ 0 by norm_num)] at h
    exact h

/-- The hypotheses of `C73_reference` for a species with a Born coefficient of 1e5 cal/mol; the result exists. -/
example : ∃ r, hkfReaktoro (TS.temperature 298.15) (pbar 1e5) [1, 2, 3, 4, 5, 6, 1e5] TPS.default
    ⟨.ofVal 1e5, .default, .default, .default, .default, .default⟩
    ⟨.ofVal (-1.278055636e-02), .ofVal (-5.795424563e-05), .default, .default⟩ = .ok r :=
  (hkfReaktoro_vals 298.15 1e5 _ _ _ 1 2 3 4 5 6 1e5 []).imp fun _ h => h.1

/-! ### C74 -/

/-- **C74, the part that holds.**  Given the same electrostatic properties the two implementations return the same volume and heat
capacities for every species, and the same values throughout if the recorded Born coefficient is zero.  In general G, H and S differ by
the terms shown.  Missing: equality for charged species, see `C74_refuted`. -/
theorem C74_partial (ref : TPS) (a1 a2 a3 a4 c1 c2 wr : ℝ) (rest : List ℝ) (a : ESub) (e : ESolv) (t P : ℝ) (r r' : TPS)
    (hr : hkfReaktoro (TS.temperature t) (pbar P) (a1 :: a2 :: a3 :: a4 :: c1 :: c2 :: wr :: rest) ref a e = .ok r)
    (hr' : hkfGems (TS.subAssignD (TS.temperature t) 273.15) (pbar P) (a1 :: a2 :: a3 :: a4 :: c1 :: c2 :: wr :: rest) ref a e = .ok r') :
    r'.V.val = r.V.val ∧ r'.Cp.val = r.Cp.val ∧ r'.Cv.val = r.Cv.val ∧
    r'.G.val - r.G.val = 4.184 * wr * ((-0.1278034682e-1 - -1.278055636e-02) + (-0.5798650444e-4 - -5.795424563e-05) * (t - 298.15)) ∧
    r'.H.val - r.H.val = 4.184 * wr * ((-0.1278034682e-1 - -1.278055636e-02) - (-0.5798650444e-4 - -5.795424563e-05) * 298.15) ∧
    r'.S.val - r.S.val = -(4.184 * wr * (-0.5798650444e-4 - -5.795424563e-05)) ∧
    (wr = 0 → r'.G.val = r.G.val ∧ r'.H.val = r.H.val ∧ r'.S.val = r.S.val ∧ r'.U.val = r.U.val ∧ r'.A.val = r.A.val) := by
  obtain ⟨x, hx, hv⟩ := hkfReaktoro_vals t P ref a e a1 a2 a3 a4 c1 c2 wr rest
  obtain ⟨x', hx', hv'⟩ := hkfGems_vals t P ref a e a1 a2 a3 a4 c1 c2 wr rest
  rw [hr] at hx
  rw [hr'] at hx'
  obtain rfl : r = x := by simpa using hx
  obtain rfl : r' = x' := by simpa using hx'
  have e1 : r'.V.val = r.V.val := by rw [hv.V, hv'.V]; rfl
  have e2 : r'.Cp.val = r.Cp.val := by rw [hv.Cp, hv'.Cp]; rfl
  have e3 : r'.Cv.val = r.Cv.val := by rw [hv.Cv, hv'.Cv]; rfl
  have e4 : r'.G.val - r.G.val = 4.184 * wr * ((-0.1278034682e-1 - -1.278055636e-02)
      + (-0.5798650444e-4 - -5.795424563e-05) * (t - 298.15)) := by
    rw [hv.G, hv'.G]; simp only [HKFPar.G, HKFPar.of]; ring
  have e5 : r'.H.val - r.H.val = 4.184 * wr * ((-0.1278034682e-1 - -1.278055636e-02)
      - (-0.5798650444e-4 - -5.795424563e-05) * 298.15) := by
    rw [hv.H, hv'.H]; simp only [HKFPar.H, HKFPar.of]; ring
  have e6 : r'.S.val - r.S.val = -(4.184 * wr * (-0.5798650444e-4 - -5.795424563e-05)) := by
    rw [hv.S, hv'.S]; simp only [HKFPar.S, HKFPar.of]; ring
  refine ⟨e1, e2, e3, e4, e5, e6, fun h0 => ?_⟩
  subst h0
  have g1 : r'.G.val = r.G.val := by linarith
  have g2 : r'.H.val = r.H.val := by linarith
  have g3 : r'.S.val = r.S.val := by linarith
  refine ⟨g1, g2, g3, ?_, ?_⟩
  · rw [hv.U, hv'.U, g2, e1]
  · rw [hv.A, hv'.A, hv.U, hv'.U, g2, e1, g3]

/-- Both implementations return a result for every list of at least seven parameters. -/
example : (∃ r, hkfReaktoro (TS.temperature 300) (pbar 1e5) [1, 2, 3, 4, 5, 6, 7] TPS.default
      ⟨.default, .default, .default, .default, .default, .default⟩ ⟨.default, .default, .default, .default⟩ = .ok r) ∧
    (∃ r, hkfGems (TS.subAssignD (TS.temperature 300) 273.15) (pbar 1e5) [1, 2, 3, 4, 5, 6, 7] TPS.default
      ⟨.default, .default, .default, .default, .default, .default⟩ ⟨.default, .default, .default, .default⟩ = .ok r) :=
  ⟨⟨_, rfl⟩, ⟨_, rfl⟩⟩

/-- **C74 does not hold**: with the same inputs the two implementations return a different entropy for a charged species, whatever the
temperature and pressure. -/
theorem C74_refuted : ∃ (ref : TPS) (par : List ℝ) (a : ESub) (e : ESolv), ∀ t P : ℝ, ∃ r r',
    hkfReaktoro (TS.temperature t) (pbar P) par ref a e = .ok r ∧
    hkfGems (TS.subAssignD (TS.temperature t) 273.15) (pbar P) par ref a e = .ok r' ∧ r.S.val ≠ r'.S.val := by
  refine ⟨TPS.default, [0, 0, 0, 0, 0, 0, 1e5], ⟨.default, .default, .default, .default, .default, .default⟩,
    ⟨.default, .default, .default, .default⟩, fun t P => ?_⟩
  obtain ⟨r, hr, -⟩ := hkfReaktoro_vals t P TPS.default ⟨.default, .default, .default, .default, .default, .default⟩
    ⟨.default, .default, .default, .default⟩ 0 0 0 0 0 0 1e5 []
  obtain ⟨r', hr', -⟩ := hkfGems_vals t P TPS.default ⟨.default, .default, .default, .default, .default, .default⟩
    ⟨.default, .default, .default, .default⟩ 0 0 0 0 0 0 1e5 []
  refine ⟨r, r', hr, hr', fun h => ?_⟩
  have hd := (C74_partial _ 0 0 0 0 0 0 1e5 [] _ _ t P r r' hr hr').2.2.2.2.2.1
  rw [h] at hd
  norm_num at hd

end ThermoFun

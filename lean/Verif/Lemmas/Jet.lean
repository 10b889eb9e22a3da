import Verif.Model.WaterState
import Verif.Lemmas.Grad
import Mathlib.Analysis.SpecialFunctions.Pow.Deriv
import Mathlib.Analysis.SpecialFunctions.Log.Deriv
import Mathlib.Analysis.SpecialFunctions.ExpDeriv

/-!
# Functions of two variables with their partial derivatives up to the third order

`Jet F x y`: the record `F` holds a function and its partial derivatives at (x, y).  Sums, products and compositions of such records.
-/

namespace ThermoFun

/-- The record `F` holds a function with all its partial derivatives up to the third order, at (x, y). -/
structure Jet (F : ℝ → ℝ → Helm) (x y : ℝ) : Prop where
  f : Grad (fun x y => (F x y).f) (F x y).fT (F x y).fD x y
  fT : Grad (fun x y => (F x y).fT) (F x y).fTT (F x y).fTD x y
  fD : Grad (fun x y => (F x y).fD) (F x y).fTD (F x y).fDD x y
  fTT : Grad (fun x y => (F x y).fTT) (F x y).fTTT (F x y).fTTD x y
  fTD : Grad (fun x y => (F x y).fTD) (F x y).fTTD (F x y).fTDD x y
  fDD : Grad (fun x y => (F x y).fDD) (F x y).fTDD (F x y).fDDD x y

namespace Helm

attribute [ext] Helm

/-- A constant. -/
def const (c : ℝ) : Helm := ⟨c, 0, 0, 0, 0, 0, 0, 0, 0, 0⟩

/-- A function of the first variable with its derivatives. -/
def ofT (a b c d : ℝ) : Helm := ⟨a, b, 0, c, 0, 0, d, 0, 0, 0⟩

/-- A function of the second variable with its derivatives. -/
def ofD (a b c d : ℝ) : Helm := ⟨a, 0, b, 0, 0, c, 0, 0, 0, d⟩

/-- Sum. -/
def plus (p q : Helm) : Helm :=
  ⟨p.f + q.f, p.fT + q.fT, p.fD + q.fD, p.fTT + q.fTT, p.fTD + q.fTD, p.fDD + q.fDD, p.fTTT + q.fTTT, p.fTTD + q.fTTD, p.fTDD + q.fTDD, p.fDDD + q.fDDD⟩

/-- Multiple. -/
def scale (c : ℝ) (p : Helm) : Helm :=
  ⟨c * p.f, c * p.fT, c * p.fD, c * p.fTT, c * p.fTD, c * p.fDD, c * p.fTTT, c * p.fTTD, c * p.fTDD, c * p.fDDD⟩

/-- Product (Leibniz). -/
def times (p q : Helm) : Helm where
  f := p.f * q.f
  fT := p.fT * q.f + p.f * q.fT
  fD := p.fD * q.f + p.f * q.fD
  fTT := p.fTT * q.f + 2 * p.fT * q.fT + p.f * q.fTT
  fTD := p.fTD * q.f + p.fT * q.fD + p.fD * q.fT + p.f * q.fTD
  fDD := p.fDD * q.f + 2 * p.fD * q.fD + p.f * q.fDD
  fTTT := p.fTTT * q.f + 3 * p.fTT * q.fT + 3 * p.fT * q.fTT + p.f * q.fTTT
  fTTD := p.fTTD * q.f + p.fTT * q.fD + 2 * p.fTD * q.fT + 2 * p.fT * q.fTD + p.fD * q.fTT + p.f * q.fTTD
  fTDD := p.fTDD * q.f + p.fDD * q.fT + 2 * p.fTD * q.fD + 2 * p.fD * q.fTD + p.fT * q.fDD + p.f * q.fTDD
  fDDD := p.fDDD * q.f + 3 * p.fDD * q.fD + 3 * p.fD * q.fDD + p.f * q.fDDD

/-- A function of one variable, with the derivatives `a, b, c, d` at `p.f`, of a function (Faà di Bruno). -/
def lift (a b c d : ℝ) (p : Helm) : Helm where
  f := a
  fT := b * p.fT
  fD := b * p.fD
  fTT := c * p.fT ^ 2 + b * p.fTT
  fTD := c * p.fT * p.fD + b * p.fTD
  fDD := c * p.fD ^ 2 + b * p.fDD
  fTTT := d * p.fT ^ 3 + 3 * c * p.fT * p.fTT + b * p.fTTT
  fTTD := d * p.fT ^ 2 * p.fD + c * (p.fTT * p.fD + 2 * p.fT * p.fTD) + b * p.fTTD
  fTDD := d * p.fT * p.fD ^ 2 + c * (p.fDD * p.fT + 2 * p.fD * p.fTD) + b * p.fTDD
  fDDD := d * p.fD ^ 3 + 3 * c * p.fD * p.fDD + b * p.fDDD

end Helm

namespace Jet

variable {F G : ℝ → ℝ → Helm} {x y : ℝ}

lemma congr_ev (h : Jet F x y) (e : ∀ᶠ q : ℝ × ℝ in nhds (x, y), G q.1 q.2 = F q.1 q.2) : Jet G x y := by
  have e0 : G x y = F x y := e.self_of_nhds
  refine ⟨?_, ?_, ?_, ?_, ?_, ?_⟩
  · rw [e0]; exact h.f.congr_ev (e.mono fun q hq => congrArg Helm.f hq)
  · rw [e0]; exact h.fT.congr_ev (e.mono fun q hq => congrArg Helm.fT hq)
  · rw [e0]; exact h.fD.congr_ev (e.mono fun q hq => congrArg Helm.fD hq)
  · rw [e0]; exact h.fTT.congr_ev (e.mono fun q hq => congrArg Helm.fTT hq)
  · rw [e0]; exact h.fTD.congr_ev (e.mono fun q hq => congrArg Helm.fTD hq)
  · rw [e0]; exact h.fDD.congr_ev (e.mono fun q hq => congrArg Helm.fDD hq)

lemma congr_fun (h : Jet F x y) (e : ∀ x y, G x y = F x y) : Jet G x y := h.congr_ev (Filter.Eventually.of_forall fun q => e q.1 q.2)

lemma const (c : ℝ) : Jet (fun _ _ => .const c) x y := ⟨.const _, .const _, .const _, .const _, .const _, .const _⟩

lemma ofT {a b c d : ℝ → ℝ} (ha : HasDerivAt a (b x) x) (hb : HasDerivAt b (c x) x) (hc : HasDerivAt c (d x) x) :
    Jet (fun x _ => .ofT (a x) (b x) (c x) (d x)) x y :=
  ⟨.left ha, .left hb, .const _, .left hc, .const _, .const _⟩

lemma ofD {a b c d : ℝ → ℝ} (ha : HasDerivAt a (b y) y) (hb : HasDerivAt b (c y) y) (hc : HasDerivAt c (d y) y) :
    Jet (fun _ y => .ofD (a y) (b y) (c y) (d y)) x y :=
  ⟨.right ha, .const _, .right hb, .const _, .const _, .right hc⟩

lemma plus (h : Jet F x y) (k : Jet G x y) : Jet (fun x y => (F x y).plus (G x y)) x y :=
  ⟨h.f.add k.f, h.fT.add k.fT, h.fD.add k.fD, h.fTT.add k.fTT, h.fTD.add k.fTD, h.fDD.add k.fDD⟩

lemma scale (c : ℝ) (h : Jet F x y) : Jet (fun x y => (F x y).scale c) x y :=
  ⟨h.f.const_mul c, h.fT.const_mul c, h.fD.const_mul c, h.fTT.const_mul c, h.fTD.const_mul c, h.fDD.const_mul c⟩

lemma times (h : Jet F x y) (k : Jet G x y) : Jet (fun x y => (F x y).times (G x y)) x y := by
  refine ⟨(h.f.mul k.f).congr rfl rfl, ?_, ?_, ?_, ?_, ?_⟩
  · exact ((h.fT.mul k.f).add (h.f.mul k.fT)).congr (by simp only [Helm.times] <;> ring) (by simp only [Helm.times] <;> ring)
  · exact ((h.fD.mul k.f).add (h.f.mul k.fD)).congr (by simp only [Helm.times] <;> ring) (by simp only [Helm.times] <;> ring)
  · exact (((h.fTT.mul k.f).add ((h.fT.const_mul 2).mul k.fT)).add (h.f.mul k.fTT)).congr (by simp only [Helm.times] <;> ring) (by simp only [Helm.times] <;> ring)
  · exact ((((h.fTD.mul k.f).add (h.fT.mul k.fD)).add (h.fD.mul k.fT)).add (h.f.mul k.fTD)).congr (by simp only [Helm.times] <;> ring) (by simp only [Helm.times] <;> ring)
  · exact (((h.fDD.mul k.f).add ((h.fD.const_mul 2).mul k.fD)).add (h.f.mul k.fDD)).congr (by simp only [Helm.times] <;> ring) (by simp only [Helm.times] <;> ring)

lemma lift {a b c d : ℝ → ℝ} (h : Jet F x y) (ha : HasDerivAt a (b (F x y).f) (F x y).f) (hb : HasDerivAt b (c (F x y).f) (F x y).f)
    (hc : HasDerivAt c (d (F x y).f) (F x y).f) : Jet (fun x y => (F x y).lift (a (F x y).f) (b (F x y).f) (c (F x y).f) (d (F x y).f)) x y := by
  have ga := Grad.comp (g := fun x y => (F x y).f) ha h.f
  have gb := Grad.comp (g := fun x y => (F x y).f) hb h.f
  have gc := Grad.comp (g := fun x y => (F x y).f) hc h.f
  refine ⟨ga.congr rfl rfl, ?_, ?_, ?_, ?_, ?_⟩
  · exact (gb.mul h.fT).congr (by simp only [Helm.lift] <;> ring) (by simp only [Helm.lift] <;> ring)
  · exact (gb.mul h.fD).congr (by simp only [Helm.lift] <;> ring) (by simp only [Helm.lift] <;> ring)
  · refine ((gc.mul (h.fT.mul h.fT)).add (gb.mul h.fTT)).congr_fun (k := fun x y => c (F x y).f * (F x y).fT ^ 2 + b (F x y).f * (F x y).fTT) (fun x y => by ring) |>.congr ?_ ?_ <;>
      (simp only [Helm.lift] <;> ring)
  · exact (((gc.mul h.fT).mul h.fD).add (gb.mul h.fTD)).congr (by simp only [Helm.lift] <;> ring) (by simp only [Helm.lift] <;> ring)
  · refine ((gc.mul (h.fD.mul h.fD)).add (gb.mul h.fDD)).congr_fun (k := fun x y => c (F x y).f * (F x y).fD ^ 2 + b (F x y).f * (F x y).fDD) (fun x y => by ring) |>.congr ?_ ?_ <;>
      (simp only [Helm.lift] <;> ring)

/-- Both variables changed, each by a function of one variable, the second linear. -/
lemma change {u u1 u2 u3 : ℝ → ℝ} {v : ℝ → ℝ} {k : ℝ} (h : Jet F (u x) (v y)) (h1 : HasDerivAt u (u1 x) x) (h2 : HasDerivAt u1 (u2 x) x)
    (h3 : HasDerivAt u2 (u3 x) x) (hv : HasDerivAt v k y) :
    Jet (fun x y => ⟨(F (u x) (v y)).f, (F (u x) (v y)).fT * u1 x, (F (u x) (v y)).fD * k,
      (F (u x) (v y)).fTT * u1 x * u1 x + (F (u x) (v y)).fT * u2 x, (F (u x) (v y)).fTD * u1 x * k, (F (u x) (v y)).fDD * k * k,
      (F (u x) (v y)).fTTT * u1 x * u1 x * u1 x + 3 * (F (u x) (v y)).fTT * u1 x * u2 x + (F (u x) (v y)).fT * u3 x,
      (F (u x) (v y)).fTTD * u1 x * u1 x * k + (F (u x) (v y)).fTD * u2 x * k, (F (u x) (v y)).fTDD * u1 x * k * k,
      (F (u x) (v y)).fDDD * k * k * k⟩) x y := by
  have su : ∀ {g : ℝ → ℝ → ℝ} {a b : ℝ}, Grad g a b (u x) (v y) → Grad (fun x y => g (u x) (v y)) (a * u1 x) (b * k) x y := fun hg =>
    (Grad.subst (u := fun x _ => u x) (v := fun _ y => v y) hg (.left h1) (.right hv)).congr (by ring) (by ring)
  have g1 : Grad (fun x _ => u1 x) (u2 x) 0 x y := .left h2
  have g2 : Grad (fun x _ => u2 x) (u3 x) 0 x y := .left h3
  refine ⟨su h.f, ?_, ?_, ?_, ?_, ?_⟩
  · exact ((su h.fT).mul g1).congr (by ring) (by ring)
  · exact ((su h.fD).mul_const k).congr (by ring) (by ring)
  · exact ((((su h.fTT).mul g1).mul g1).add ((su h.fT).mul g2)).congr (by ring) (by ring)
  · exact (((su h.fTD).mul g1).mul_const k).congr (by ring) (by ring)
  · exact (((su h.fDD).mul_const k).mul_const k).congr (by ring) (by ring)

end Jet

/-! ### Functions of one variable -/

lemma hasDerivAt_pow0 {x : ℝ} (hx : x ≠ 0) (p : ℝ) : HasDerivAt (fun x : ℝ => x ^ p) (p / x * x ^ p) x := by
  refine (Real.hasDerivAt_rpow_const (Or.inl hx)).congr_deriv ?_
  rw [Real.rpow_sub_one hx]; field_simp

lemma hasDerivAt_pow1 {x : ℝ} (hx : x ≠ 0) (p : ℝ) : HasDerivAt (fun x : ℝ => p / x * x ^ p) ((p - 1) / x * (p / x * x ^ p)) x := by
  refine (((hasDerivAt_const x p).fun_div (hasDerivAt_id' x) hx).mul (hasDerivAt_pow0 hx p)).congr_deriv ?_
  field_simp; ring

lemma hasDerivAt_pow2 {x : ℝ} (hx : x ≠ 0) (p : ℝ) :
    HasDerivAt (fun x : ℝ => (p - 1) / x * (p / x * x ^ p)) ((p - 2) / x * ((p - 1) / x * (p / x * x ^ p))) x := by
  refine (((hasDerivAt_const x (p - 1)).fun_div (hasDerivAt_id' x) hx).mul (hasDerivAt_pow1 hx p)).congr_deriv ?_
  field_simp; ring

/-- A power of the first variable. -/
lemma Jet.powT {x y : ℝ} (hx : x ≠ 0) (p : ℝ) :
    Jet (fun x _ => .ofT (x ^ p) (p / x * x ^ p) ((p - 1) / x * (p / x * x ^ p)) ((p - 2) / x * ((p - 1) / x * (p / x * x ^ p)))) x y :=
  .ofT (hasDerivAt_pow0 hx p) (hasDerivAt_pow1 hx p) (hasDerivAt_pow2 hx p)

/-- A power of the second variable. -/
lemma Jet.powD {x y : ℝ} (hy : y ≠ 0) (p : ℝ) :
    Jet (fun _ y => .ofD (y ^ p) (p / y * y ^ p) ((p - 1) / y * (p / y * y ^ p)) ((p - 2) / y * ((p - 1) / y * (p / y * y ^ p)))) x y :=
  .ofD (hasDerivAt_pow0 hy p) (hasDerivAt_pow1 hy p) (hasDerivAt_pow2 hy p)

/-- The second variable. -/
lemma Jet.varD {x y : ℝ} : Jet (fun _ y => .ofD y 1 0 0) x y := .ofD (hasDerivAt_id' y) (hasDerivAt_const y 1) (hasDerivAt_const y 0)

/-- The first variable. -/
lemma Jet.varT {x y : ℝ} : Jet (fun x _ => .ofT x 1 0 0) x y := .ofT (hasDerivAt_id' x) (hasDerivAt_const x 1) (hasDerivAt_const x 0)

/-- An exponential. -/
lemma Jet.exp {F : ℝ → ℝ → Helm} {x y : ℝ} (h : Jet F x y) :
    Jet (fun x y => (F x y).lift (Real.exp (F x y).f) (Real.exp (F x y).f) (Real.exp (F x y).f) (Real.exp (F x y).f)) x y :=
  h.lift (Real.hasDerivAt_exp _) (Real.hasDerivAt_exp _) (Real.hasDerivAt_exp _)

/-- A power. -/
lemma Jet.rpow {F : ℝ → ℝ → Helm} {x y : ℝ} (h : Jet F x y) (h0 : (F x y).f ≠ 0) (p : ℝ) :
    Jet (fun x y => (F x y).lift ((F x y).f ^ p) (p / (F x y).f * (F x y).f ^ p) ((p - 1) / (F x y).f * (p / (F x y).f * (F x y).f ^ p))
      ((p - 2) / (F x y).f * ((p - 1) / (F x y).f * (p / (F x y).f * (F x y).f ^ p)))) x y :=
  h.lift (a := fun u => u ^ p) (b := fun u => p / u * u ^ p) (c := fun u => (p - 1) / u * (p / u * u ^ p)) (d := fun u => (p - 2) / u * ((p - 1) / u * (p / u * u ^ p))) (hasDerivAt_pow0 h0 p) (hasDerivAt_pow1 h0 p) (hasDerivAt_pow2 h0 p)

end ThermoFun

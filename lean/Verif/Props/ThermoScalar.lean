import Verif.Model.ThermoScalar
import Mathlib.Analysis.SpecialFunctions.Log.Deriv
import Mathlib.Analysis.SpecialFunctions.Pow.Deriv
import Mathlib.Analysis.SpecialFunctions.ExpDeriv
import Mathlib.Analysis.SpecialFunctions.Complex.LogBounds
import Mathlib.Analysis.Real.Sqrt
import Mathlib.Tactic.NormNum
import Mathlib.Tactic.FieldSimp
import Mathlib.Tactic.Ring

/-!
# C01-C04: ThermoScalar arithmetic

Specification: `Spec.value` gives a formula its textbook meaning as a real function of `T` and `P`;
`Spec.Domain` says the point is inside the domain of every operator.  Neither mentions the model's operators.
-/

namespace ThermoFun

namespace Spec

/-- Textbook value of a formula. -/
noncomputable def value : Expr → ℝ → ℝ → ℝ
  | .temp, T, _ => T
  | .pres, _, P => P
  | .leaf f _ _ _ _, T, P => f T P
  | .add a b, T, P => value a T P + value b T P
  | .addL c a, T, P => c + value a T P
  | .addR a c, T, P => value a T P + c
  | .neg a, T, P => - value a T P
  | .sub a b, T, P => value a T P - value b T P
  | .subL c a, T, P => c - value a T P
  | .subR a c, T, P => value a T P - c
  | .mul a b, T, P => value a T P * value b T P
  | .mulL c a, T, P => c * value a T P
  | .mulR a c, T, P => value a T P * c
  | .div a b, T, P => value a T P / value b T P
  | .divL c a, T, P => c / value a T P
  | .divR a c, T, P => value a T P / c
  | .sqrt a, T, P => Real.sqrt (value a T P)
  | .powR a c, T, P => value a T P ^ c
  | .pow a b, T, P => value a T P ^ value b T P
  | .exp a, T, P => Real.exp (value a T P)
  | .log a, T, P => Real.log (value a T P)
  | .log10 a, T, P => Real.log (value a T P) / 2.302585092994046

/-- The point `(T,P)` is inside the domain of every operator of the formula, and the variables occurring in it
carry correct derivatives. -/
def Domain : Expr → ℝ → ℝ → Prop
  | .temp, _, _ => True
  | .pres, _, _ => True
  | .leaf f ft fp _ _, T, P =>
      HasDerivAt (fun t => f t P) (ft T P) T ∧ HasDerivAt (fun p => f T p) (fp T P) P
  | .add a b, T, P | .sub a b, T, P | .mul a b, T, P => Domain a T P ∧ Domain b T P
  | .addL _ a, T, P | .addR a _, T, P | .neg a, T, P | .subL _ a, T, P | .subR a _, T, P
  | .mulL _ a, T, P | .mulR a _, T, P | .exp a, T, P => Domain a T P
  | .divR a c, T, P => Domain a T P ∧ c ≠ 0
  | .div a b, T, P => Domain a T P ∧ Domain b T P ∧ value b T P ≠ 0
  | .divL _ a, T, P => Domain a T P ∧ value a T P ≠ 0
  | .sqrt a, T, P | .powR a _, T, P | .log a, T, P | .log10 a, T, P => Domain a T P ∧ 0 < value a T P
  | .pow a b, T, P => Domain a T P ∧ Domain b T P ∧ 0 < value a T P

/-- The statuses of the variables occurring in a formula (`Temperature`/`Pressure` objects are always `assigned`). -/
def statuses : Expr → List Status
  | .temp | .pres => [.assigned]
  | .leaf _ _ _ _ s => [s]
  | .add a b | .sub a b | .mul a b | .div a b | .pow a b => statuses a ++ statuses b
  | .addL _ a | .addR a _ | .neg a | .subL _ a | .subR a _ | .mulL _ a | .mulR a _ | .divL _ a | .divR a _
  | .sqrt a | .powR a _ | .exp a | .log a | .log10 a => statuses a

/-- A formula with at least one operator. -/
def compound : Expr → Prop
  | .temp | .pres | .leaf _ _ _ _ _ => False
  | _ => True

end Spec

open Spec

/-- What must hold of a result: right value, right partial derivatives. -/
structure Correct (e : Expr) (T P : ℝ) (r : TS) : Prop where
  val : r.val = value e T P
  ddt : HasDerivAt (fun t => value e t P) r.ddt T
  ddp : HasDerivAt (fun p => value e T p) r.ddp P

/-- **C01.** For every formula and every point in its domain, the computed value is the textbook value and the
computed `ddt`/`ddp` are the exact partial derivatives. -/
theorem C01_derivatives_exact (e : Expr) (T P : ℝ) (h : Domain e T P) : Correct e T P (e.run T P) := by
  induction e with
  | temp => exact ⟨rfl, hasDerivAt_id T, hasDerivAt_const P T⟩
  | pres => exact ⟨rfl, hasDerivAt_const T P, hasDerivAt_id P⟩
  | leaf f ft fp e s => exact ⟨rfl, h.1, h.2⟩
  | add a b iha ihb =>
    obtain ⟨ha, hb⟩ := h
    have A := iha ha; have B := ihb hb
    exact ⟨by simp [Expr.run, TS.add, TS.mk5, value, A.val, B.val], A.ddt.add B.ddt, A.ddp.add B.ddp⟩
  | sub a b iha ihb =>
    obtain ⟨ha, hb⟩ := h
    have A := iha ha; have B := ihb hb
    exact ⟨by simp [Expr.run, TS.sub, TS.mk5, value, A.val, B.val], A.ddt.sub B.ddt, A.ddp.sub B.ddp⟩
  | addL c a iha =>
    have A := iha h
    exact ⟨by simp [Expr.run, TS.addL, TS.mk5, value, A.val], A.ddt.const_add c, A.ddp.const_add c⟩
  | addR a c iha =>
    have A := iha h
    exact ⟨by simp [Expr.run, TS.addR, TS.addL, TS.mk5, value, A.val, add_comm], A.ddt.add_const c, A.ddp.add_const c⟩
  | neg a iha =>
    have A := iha h
    exact ⟨by simp [Expr.run, TS.neg, TS.mk5, value, A.val], A.ddt.neg, A.ddp.neg⟩
  | subL c a iha =>
    have A := iha h
    exact ⟨by simp [Expr.run, TS.subL, TS.mk5, value, A.val], A.ddt.const_sub c, A.ddp.const_sub c⟩
  | subR a c iha =>
    have A := iha h
    exact ⟨by simp [Expr.run, TS.subR, TS.mk5, value, A.val], A.ddt.sub_const c, A.ddp.sub_const c⟩
  | mul a b iha ihb =>
    obtain ⟨ha, hb⟩ := h
    have A := iha ha; have B := ihb hb
    refine ⟨by simp [Expr.run, TS.mul, TS.mk5, value, A.val, B.val], ?_, ?_⟩
    · refine (A.ddt.mul B.ddt).congr_deriv ?_
      simp only [Expr.run, TS.mul, TS.mk5, A.val, B.val]; ring
    · refine (A.ddp.mul B.ddp).congr_deriv ?_
      simp only [Expr.run, TS.mul, TS.mk5, A.val, B.val]; ring
  | mulL c a iha =>
    have A := iha h
    have hv : (TS.mulL c (a.run T P)).val = c * (a.run T P).val ∧
        (TS.mulL c (a.run T P)).ddt = c * (a.run T P).ddt ∧ (TS.mulL c (a.run T P)).ddp = c * (a.run T P).ddp := by
      unfold TS.mulL; split <;> simp [TS.mk5]
    refine ⟨by simp [Expr.run, hv.1, value, A.val], ?_, ?_⟩
    · exact (A.ddt.const_mul c).congr_deriv hv.2.1.symm
    · exact (A.ddp.const_mul c).congr_deriv hv.2.2.symm
  | mulR a c iha =>
    have A := iha h
    have hv : (TS.mulR (a.run T P) c).val = c * (a.run T P).val ∧
        (TS.mulR (a.run T P) c).ddt = c * (a.run T P).ddt ∧ (TS.mulR (a.run T P) c).ddp = c * (a.run T P).ddp := by
      unfold TS.mulR TS.mulL; split <;> simp [TS.mk5]
    refine ⟨by simp [Expr.run, hv.1, value, A.val, mul_comm], ?_, ?_⟩
    · refine (A.ddt.mul_const c).congr_deriv ?_
      simp only [Expr.run, hv.2.1]; ring
    · refine (A.ddp.mul_const c).congr_deriv ?_
      simp only [Expr.run, hv.2.2]; ring
  | div a b iha ihb =>
    obtain ⟨ha, hb, hz⟩ := h
    have A := iha ha; have B := ihb hb
    refine ⟨by simp [Expr.run, TS.div, TS.mk5, value, A.val, B.val]; norm_num; field_simp, ?_, ?_⟩
    · refine (A.ddt.div B.ddt hz).congr_deriv ?_
      simp only [Expr.run, TS.div, TS.mk5, A.val, B.val]; norm_num; field_simp
    · refine (A.ddp.div B.ddp hz).congr_deriv ?_
      simp only [Expr.run, TS.div, TS.mk5, A.val, B.val]; norm_num; field_simp
  | divL c a iha =>
    obtain ⟨ha, hz⟩ := h
    have A := iha ha
    have hv : (TS.divL c (a.run T P)).val = 1 / value a T P * c ∧
        (TS.divL c (a.run T P)).ddt = -c * (1/value a T P) * (1/value a T P) * (a.run T P).ddt ∧
        (TS.divL c (a.run T P)).ddp = -c * (1/value a T P) * (1/value a T P) * (a.run T P).ddp := by
      unfold TS.divL; norm_num only [A.val, hz, TS.mk5, if_false]; simp
    refine ⟨by simp only [Expr.run, hv.1, value]; ring, ?_, ?_⟩
    · refine (((hasDerivAt_const T c).div A.ddt hz)).congr_deriv ?_
      simp only [Expr.run, hv.2.1]; field_simp; ring
    · refine (((hasDerivAt_const P c).div A.ddp hz)).congr_deriv ?_
      simp only [Expr.run, hv.2.2]; field_simp; ring
  | divR a c iha =>
    have A := iha h.1
    have hv : (TS.divR (a.run T P) c).val = (1/c) * (a.run T P).val ∧
        (TS.divR (a.run T P) c).ddt = (1/c) * (a.run T P).ddt ∧ (TS.divR (a.run T P) c).ddp = (1/c) * (a.run T P).ddp := by
      unfold TS.divR TS.mulL; norm_num; split <;> simp [TS.mk5]
    refine ⟨by simp only [Expr.run, hv.1, value, A.val]; ring, ?_, ?_⟩
    · refine (A.ddt.div_const c).congr_deriv ?_
      simp only [Expr.run, hv.2.1]; ring
    · refine (A.ddp.div_const c).congr_deriv ?_
      simp only [Expr.run, hv.2.2]; ring
  | sqrt a iha =>
    obtain ⟨ha, hp⟩ := h
    have A := iha ha
    have hz := hp.ne'
    have hs : Real.sqrt (value a T P) ≠ 0 := (Real.sqrt_pos.mpr hp).ne'
    have hsq : value a T P = Real.sqrt (value a T P) * Real.sqrt (value a T P) := (Real.mul_self_sqrt hp.le).symm
    have hv : (TS.sqrt (a.run T P)).val = Real.sqrt (value a T P) ∧
        (TS.sqrt (a.run T P)).ddt = (0.5 * Real.sqrt (value a T P) / value a T P) * (a.run T P).ddt ∧
        (TS.sqrt (a.run T P)).ddp = (0.5 * Real.sqrt (value a T P) / value a T P) * (a.run T P).ddp := by
      unfold TS.sqrt; simp [A.val, hz, TS.mk5]
    have key : (0.5 * Real.sqrt (value a T P) / value a T P) = 1 / (2 * Real.sqrt (value a T P)) := by
      rw [show (0.5 * Real.sqrt (value a T P) / value a T P) =
        0.5 * Real.sqrt (value a T P) / (Real.sqrt (value a T P) * Real.sqrt (value a T P)) by rw [← hsq]]
      field_simp; norm_num
    refine ⟨by simp only [Expr.run, hv.1, value], ?_, ?_⟩
    · refine (A.ddt.sqrt hz).congr_deriv ?_
      simp only [Expr.run, hv.2.1, key]; field_simp
    · refine (A.ddp.sqrt hz).congr_deriv ?_
      simp only [Expr.run, hv.2.2, key]; field_simp
  | powR a c iha =>
    obtain ⟨ha, hp⟩ := h
    have A := iha ha
    have hz := hp.ne'
    have hv : (TS.powR (a.run T P) c).val = value a T P ^ c ∧
        (TS.powR (a.run T P) c).ddt = (c * value a T P ^ c / value a T P) * (a.run T P).ddt ∧
        (TS.powR (a.run T P) c).ddp = (c * value a T P ^ c / value a T P) * (a.run T P).ddp := by
      unfold TS.powR; simp [A.val, hz, TS.mk5]
    have key : value a T P ^ (c - 1) = value a T P ^ c / value a T P := by
      rw [Real.rpow_sub hp, Real.rpow_one]
    refine ⟨by simp only [Expr.run, hv.1, value], ?_, ?_⟩
    · refine (A.ddt.rpow_const (Or.inl hz)).congr_deriv ?_
      simp only [Expr.run, hv.2.1, key]; ring
    · refine (A.ddp.rpow_const (Or.inl hz)).congr_deriv ?_
      simp only [Expr.run, hv.2.2, key]; ring
  | pow a b iha ihb =>
    obtain ⟨ha, hb, hp⟩ := h
    have A := iha ha; have B := ihb hb
    have hz := hp.ne'
    have hv : (TS.pow (a.run T P) (b.run T P)).val = value a T P ^ value b T P ∧
        (TS.pow (a.run T P) (b.run T P)).ddt = value a T P ^ value b T P *
          (Real.log (value a T P) * (b.run T P).ddt + value b T P / value a T P * (a.run T P).ddt) ∧
        (TS.pow (a.run T P) (b.run T P)).ddp = value a T P ^ value b T P *
          (Real.log (value a T P) * (b.run T P).ddp + value b T P / value a T P * (a.run T P).ddp) := by
      unfold TS.pow; simp [A.val, B.val, hz, TS.mk5]
    have key : value a T P ^ (value b T P - 1) = value a T P ^ value b T P / value a T P := by
      rw [Real.rpow_sub hp, Real.rpow_one]
    refine ⟨by simp only [Expr.run, hv.1, value], ?_, ?_⟩
    · refine (A.ddt.rpow B.ddt hp).congr_deriv ?_
      simp only [Expr.run, hv.2.1, key]; ring
    · refine (A.ddp.rpow B.ddp hp).congr_deriv ?_
      simp only [Expr.run, hv.2.2, key]; ring
  | exp a iha =>
    have A := iha h
    refine ⟨by simp only [Expr.run, TS.exp, TS.mk5, value, A.val], ?_, ?_⟩
    · exact A.ddt.exp.congr_deriv (by simp only [Expr.run, TS.exp, TS.mk5, A.val])
    · exact A.ddp.exp.congr_deriv (by simp only [Expr.run, TS.exp, TS.mk5, A.val])
  | log a iha =>
    obtain ⟨ha, hp⟩ := h
    have A := iha ha
    have hz := hp.ne'
    have hv : (TS.log (a.run T P)).val = Real.log (value a T P) ∧
        (TS.log (a.run T P)).ddt = 1/ value a T P * (a.run T P).ddt ∧
        (TS.log (a.run T P)).ddp = 1/ value a T P * (a.run T P).ddp := by
      unfold TS.log; norm_num only [A.val, hz, TS.mk5, if_false]; simp
    refine ⟨by simp only [Expr.run, hv.1, value], ?_, ?_⟩
    · refine (A.ddt.log hz).congr_deriv ?_
      simp only [Expr.run, hv.2.1]; ring
    · refine (A.ddp.log hz).congr_deriv ?_
      simp only [Expr.run, hv.2.2]; ring
  | log10 a iha =>
    obtain ⟨ha, hp⟩ := h
    have A := iha ha
    have hz := hp.ne'
    have hv : (TS.log (a.run T P)).val = Real.log (value a T P) ∧
        (TS.log (a.run T P)).ddt = 1/ value a T P * (a.run T P).ddt ∧
        (TS.log (a.run T P)).ddp = 1/ value a T P * (a.run T P).ddp := by
      unfold TS.log; norm_num only [A.val, hz, TS.mk5, if_false]; simp
    have hw : (TS.log10 (a.run T P)).val = (1/TS.ln10) * Real.log (value a T P) ∧
        (TS.log10 (a.run T P)).ddt = (1/TS.ln10) * (1/ value a T P * (a.run T P).ddt) ∧
        (TS.log10 (a.run T P)).ddp = (1/TS.ln10) * (1/ value a T P * (a.run T P).ddp) := by
      unfold TS.log10 TS.divR TS.mulL
      rw [← hv.1, ← hv.2.1, ← hv.2.2]; norm_num; split <;> simp [TS.mk5]
    refine ⟨by simp only [Expr.run, hw.1, value, TS.ln10]; ring, ?_, ?_⟩
    · refine ((A.ddt.log hz).div_const _).congr_deriv ?_
      simp only [Expr.run, hw.2.1, TS.ln10]; ring
    · refine ((A.ddp.log hz).div_const _).congr_deriv ?_
      simp only [Expr.run, hw.2.2, TS.ln10]; ring

/-- Case for C01: `sqrt(T*P) / log(T) + pow(T, P)` at T = 300, P = 2 is in the domain. -/
example : Domain (.add (.div (.sqrt (.mul .temp .pres)) (.log .temp)) (.pow .temp .pres)) 300 2 := by
  have : Real.log 300 ≠ 0 := (Real.log_pos (by norm_num)).ne'
  simp [Domain, value, this]

/-- Case for C01 with a tabulated variable `f(T,P) = T² P`: the leaf hypothesis is satisfiable. -/
example : Domain (.log10 (.leaf (fun t p => t^2*p) (fun t p => 2*t*p) (fun t _ => t^2) 0.1 .calculated)) 300 2 := by
  refine ⟨⟨?_, ?_⟩, by norm_num [value]⟩
  · have := (hasDerivAt_pow 2 (300:ℝ)).mul_const (2:ℝ)
    exact this.congr_deriv (by norm_num)
  · have := (hasDerivAt_id (2:ℝ)).const_mul ((300:ℝ)^2)
    exact this.congr_deriv (by norm_num)

lemma status1_nd (l : TS) : TS.status1 l = .notdefined ↔ l.sta = .notdefined := by
  unfold TS.status1; split <;> simp_all
lemma status2_nd (l r : TS) : TS.status2 l r = .notdefined ↔ (l.sta = .notdefined ∨ r.sta = .notdefined) := by
  unfold TS.status2; split <;> simp_all
lemma status1_cases (l : TS) : TS.status1 l = .notdefined ∨ TS.status1 l = .calculated := by
  unfold TS.status1; split <;> simp
lemma status2_cases (l r : TS) : TS.status2 l r = .notdefined ∨ TS.status2 l r = .calculated := by
  unfold TS.status2; split <;> simp
lemma mulL_sta (c : ℝ) (r : TS) : (TS.mulL c r).sta = TS.status1 r := by unfold TS.mulL; split <;> rfl
lemma divL_sta (c : ℝ) (r : TS) : (TS.divL c r).sta = TS.status1 r := by unfold TS.divL; dsimp only; split <;> rfl
lemma sqrt_sta (r : TS) : (TS.sqrt r).sta = TS.status1 r := by unfold TS.sqrt; dsimp only; split <;> rfl
lemma powR_sta (r : TS) (c : ℝ) : (TS.powR r c).sta = TS.status1 r := by unfold TS.powR; dsimp only; split <;> rfl
lemma pow_sta (r s : TS) : (TS.pow r s).sta = TS.status2 r s := by unfold TS.pow; dsimp only; split <;> rfl
lemma log_sta (r : TS) : (TS.log r).sta = TS.status1 r := by unfold TS.log; dsimp only; split <;> rfl

/-- **C02.** The status of a formula is `notdefined` exactly when one of its variables is; a formula with at least
one operator is otherwise `calculated`.  No domain assumption: it holds at every point. -/
theorem C02_status_propagation (e : Expr) (T P : ℝ) :
    ((e.run T P).sta = .notdefined ↔ Status.notdefined ∈ statuses e) ∧
    (compound e → (e.run T P).sta = .notdefined ∨ (e.run T P).sta = .calculated) := by
  constructor
  · induction e with
    | temp | pres => simp [Expr.run, TS.temperature, TS.pressure, TS.mk5, statuses]
    | leaf f ft fp e s => simp [Expr.run, statuses, eq_comm]
    | add a b iha ihb | sub a b iha ihb | mul a b iha ihb | div a b iha ihb =>
      simp [Expr.run, TS.add, TS.sub, TS.mul, TS.div, TS.mk5, status2_nd, statuses, iha, ihb]
    | pow a b iha ihb => simp [Expr.run, pow_sta, status2_nd, statuses, iha, ihb]
    | addL c a iha | addR a c iha | neg a iha | subL c a iha | subR a c iha | exp a iha =>
      simp [Expr.run, TS.addL, TS.addR, TS.neg, TS.subL, TS.subR, TS.exp, TS.mk5, status1_nd, statuses, iha]
    | mulL c a iha | mulR a c iha | divL c a iha | divR a c iha | sqrt a iha | powR a c iha | log a iha =>
      simp [Expr.run, TS.mulR, TS.divR, mulL_sta, divL_sta, sqrt_sta, powR_sta, log_sta, status1_nd, statuses, iha]
    | log10 a iha => simp [Expr.run, TS.log10, TS.divR, mulL_sta, status1_nd, log_sta, statuses, iha]
  · intro hc
    cases e with
    | temp | pres | leaf => exact hc.elim
    | add | sub | mul | div => exact status2_cases _ _
    | pow => simp only [Expr.run, pow_sta]; exact status2_cases _ _
    | addL | addR | neg | subL | subR | exp => exact status1_cases _
    | mulL | mulR | divL | divR | sqrt | powR | log =>
      simp only [Expr.run, TS.mulR, TS.divR, mulL_sta, divL_sta, sqrt_sta, powR_sta, log_sta]; exact status1_cases _
    | log10 => simp only [Expr.run, TS.log10, TS.divR, mulL_sta]; exact status1_cases _

/-- Case for C02: one undefined variable below two operators makes the result undefined; without it, calculated. -/
example (T P : ℝ) :
    ((Expr.exp (.mul .temp (.leaf (fun _ _ => 1) (fun _ _ => 0) (fun _ _ => 0) 0 .notdefined))).run T P).sta = .notdefined
    ∧ ((Expr.exp (.mul .temp (.leaf (fun _ _ => 1) (fun _ _ => 0) (fun _ _ => 0) 0 .read))).run T P).sta = .calculated := by
  constructor
  · rw [(C02_status_propagation _ T P).1]; simp [statuses]
  · have h := (C02_status_propagation (Expr.exp (.mul .temp (.leaf (fun _ _ => 1) (fun _ _ => 0) (fun _ _ => 0) 0 .read))) T P)
    rcases h.2 trivial with h' | h'
    · rw [h.1] at h'; simp [statuses] at h'
    · exact h'

/-! ### C03: uncertainties -/

/-- Gaussian propagation for a product: `sqrt((y ex)² + (x ey)²)`. -/
noncomputable def gaussMul (x ex y ey : ℝ) : ℝ := Real.sqrt ((y*ex)^2 + (x*ey)^2)
/-- Gaussian propagation for a quotient `x/y`: `sqrt((ex/y)² + (x ey/y²)²)`. -/
noncomputable def gaussDiv (x ex y ey : ℝ) : ℝ := Real.sqrt ((ex/y)^2 + (x*ey/y^2)^2)

/-- **C03 (part 1).** The uncertainty of every formula with at least one operator is non-negative, whatever the
uncertainties of the variables are. -/
theorem C03_err_nonneg (e : Expr) (T P : ℝ) (hc : compound e) : 0 ≤ (e.run T P).err := by
  have m (a b c d : ℝ) (s : Status) : 0 ≤ (TS.mk5 a b c d s).err := abs_nonneg d
  have hmul (c : ℝ) (x : TS) : 0 ≤ (TS.mulL c x).err := by unfold TS.mulL; split <;> exact m ..
  cases e with
  | temp | pres | leaf => exact hc.elim
  | add | sub | mul | div | addL | addR | neg | subL | subR | exp => exact abs_nonneg _
  | mulL | mulR | divR | log10 => exact hmul _ _
  | divL => simp only [Expr.run, TS.divL]; split <;> exact m ..
  | sqrt => simp only [Expr.run, TS.sqrt]; split <;> exact m ..
  | powR => simp only [Expr.run, TS.powR]; split <;> exact m ..
  | pow => simp only [Expr.run, TS.pow]; split <;> exact m ..
  | log => simp only [Expr.run, TS.log]; split <;> exact m ..

example : compound (.mul (.leaf (fun _ _ => -2) (fun _ _ => 0) (fun _ _ => 0) 0.5 .read) .temp) := trivial

/-- **C03 (part 2).** Sum and difference follow the quadrature rule. -/
theorem C03_err_add_sub (x y : TS) :
    (TS.add x y).err = Real.sqrt (x.err^2 + y.err^2) ∧ (TS.sub x y).err = Real.sqrt (x.err^2 + y.err^2) := by
  constructor <;> simp [TS.add, TS.sub, TS.mk5, abs_of_nonneg (Real.sqrt_nonneg _), pow_two]

/-- **C03 (part 3).** Product and quotient of two non-zero values follow Gaussian propagation. -/
theorem C03_err_mul_div (x y : TS) (hx : x.val ≠ 0) (hy : y.val ≠ 0) :
    (TS.mul x y).err = gaussMul x.val x.err y.val y.err ∧ (TS.div x y).err = gaussDiv x.val x.err y.val y.err := by
  have habs (v r : ℝ) : |v * Real.sqrt r| = Real.sqrt (v^2 * r) := by
    rw [abs_mul, abs_of_nonneg (Real.sqrt_nonneg _), Real.sqrt_mul (sq_nonneg v), Real.sqrt_sq_eq_abs]
  constructor
  · simp only [TS.mul, TS.mk5, TS.relVar, hx, hy, ne_eq, not_false_eq_true, if_true, gaussMul, habs]
    congr 1; field_simp
  · simp only [TS.div, TS.mk5, TS.relVar, hx, hy, ne_eq, not_false_eq_true, if_true, gaussDiv, habs]
    congr 1; norm_num; field_simp

example : (⟨-2, 0, 0, 0.5, .read⟩ : TS).val ≠ 0 ∧ (⟨3, 0, 0, 0.1, .read⟩ : TS).val ≠ 0 := by norm_num

/-- **C03, violation.** `x *= y` with a negative product leaves a *negative* uncertainty
(ThermoScalar.hpp:151 lacks the `fabs` of the constructor): x = -2±1, y = 1±0 gives err = -1. -/
theorem C03_compound_err_refuted : ∃ x y : TS, 0 < x.err ∧ 0 ≤ y.err ∧ (TS.mulAssign x y).err < 0 ∧
    (TS.mulAssign x y).err ≠ (TS.mul x y).err := by
  refine ⟨⟨-2, 0, 0, 1, .read⟩, ⟨1, 0, 0, 0, .read⟩, by norm_num, by norm_num, ?_, ?_⟩
  · simp only [TS.mulAssign]; norm_num
  · have h1 : (TS.mulAssign ⟨-2, 0, 0, 1, .read⟩ ⟨1, 0, 0, 0, .read⟩).err < 0 := by
      simp only [TS.mulAssign]; norm_num
    have h2 : 0 ≤ (TS.mul ⟨-2, 0, 0, 1, .read⟩ ⟨1, 0, 0, 0, .read⟩).err := abs_nonneg _
    linarith

/-- **C03, violation.** For `c / y` the propagated uncertainty lacks the factor `|c / y|`: 10/(2±1) is reported
with uncertainty 1/2 instead of 2.5 (ThermoScalar.hpp:390 uses `tmp1 * r.val`, which is always 1). -/
theorem C03_divL_err_refuted : ∃ (c : ℝ) (y : TS), y.val ≠ 0 ∧ (TS.divL c y).err ≠ |c| * y.err / y.val^2 := by
  refine ⟨10, ⟨2, 0, 0, 1, .read⟩, by norm_num, ?_⟩
  have hs : Real.sqrt (1/4) = 1/2 := by
    rw [show (1/4:ℝ) = (1/2)^2 by norm_num]; exact Real.sqrt_sq (by norm_num)
  have : (TS.divL 10 ⟨2, 0, 0, 1, .read⟩).err = 1/2 := by
    simp only [TS.divL, TS.mk5]; norm_num
    rw [show Real.sqrt 4 = 2 by rw [show (4:ℝ) = 2^2 by norm_num]; exact Real.sqrt_sq (by norm_num)]
    norm_num
  rw [this]; norm_num

/-- **C03 (functions, partial).** Full statement: a function of one ThermoScalar propagates |f'(x)|·err.  Proved for `c + x`, `-x`,
`c - x`, `c * x` (non-zero x) and `exp`.  Missing: `c / x`, `sqrt`, `pow`, `log` (false: refuted here). -/
theorem C03_function_err_partial (x : TS) (c : ℝ) :
    (TS.addL c x).err = |x.err| ∧ (TS.neg x).err = |x.err| ∧ (TS.subL c x).err = |x.err| ∧ (TS.subR x c).err = |x.err| ∧
    (x.val ≠ 0 → (TS.mulL c x).err = |c| * |x.err|) ∧ (TS.exp x).err = |Real.exp x.val| * |x.err| := by
  refine ⟨rfl, ?_, rfl, rfl, fun hx => ?_, ?_⟩
  · simp only [TS.neg, TS.mk5]
    rw [abs_of_nonneg (Real.sqrt_nonneg _), ← pow_two, Real.sqrt_sq_eq_abs]
  · simp only [TS.mulL, TS.mk5, if_neg hx]
    have : x.err / x.val * x.err / x.val = (x.err / x.val)^2 := by field_simp
    rw [this, Real.sqrt_sq_eq_abs, abs_mul, abs_mul, abs_abs, abs_div]
    have := abs_pos.mpr hx
    field_simp
  · simp only [TS.exp, TS.mk5, abs_mul]; ring

example : (⟨-2, 0, 0, 0.5, .read⟩ : TS).val ≠ 0 := by norm_num

/-- **C03, violation.** `sqrt` and `pow` report the relative uncertainty of the result as if it were absolute (it is |f'|·err divided
by the result), and `log` reports 0.434·err/x, the value for log10: sqrt(4±1) is 2±0.125 instead of 2±0.25. -/
theorem C03_function_err_refuted :
    (∀ x : TS, 0 < x.val → 0 ≤ x.err →
      (TS.sqrt x).err = (1 / (2 * Real.sqrt x.val) * x.err) / Real.sqrt x.val ∧
      (∀ p : ℝ, (TS.powR x p).err = (|p| * x.val ^ (p - 1) * x.err) / x.val ^ p) ∧
      (∀ q : TS, (TS.pow x q).err = x.val ^ q.val * (x.err / x.val)) ∧
      (TS.log x).err = 0.434 * (1 / x.val * x.err)) ∧
    (∃ x : TS, 0 < x.val ∧ 0 < x.err ∧ (TS.sqrt x).err ≠ 1 / (2 * Real.sqrt x.val) * x.err ∧
      (TS.powR x 2).err ≠ |2| * x.val ^ ((2 : ℝ) - 1) * x.err ∧ (TS.log x).err ≠ 1 / x.val * x.err) := by
  have A : ∀ x : TS, 0 < x.val → 0 ≤ x.err →
      (TS.sqrt x).err = (1 / (2 * Real.sqrt x.val) * x.err) / Real.sqrt x.val ∧
      (∀ p : ℝ, (TS.powR x p).err = (|p| * x.val ^ (p - 1) * x.err) / x.val ^ p) ∧
      (∀ q : TS, (TS.pow x q).err = x.val ^ q.val * (x.err / x.val)) ∧
      (TS.log x).err = 0.434 * (1 / x.val * x.err) := by
    intro x hx he
    have hq : 0 ≤ x.err / x.val := div_nonneg he hx.le
    refine ⟨?_, fun p => ?_, fun q => ?_, ?_⟩
    · simp only [TS.sqrt, TS.mk5, if_neg hx.ne']
      rw [abs_of_nonneg (by positivity)]
      have hs := Real.sqrt_pos.mpr hx
      rw [show x.err / x.val = x.err / (Real.sqrt x.val * Real.sqrt x.val) by rw [Real.mul_self_sqrt hx.le]]
      norm_num
      field_simp
    · simp only [TS.powR, TS.mk5, if_neg hx.ne']
      rw [abs_of_nonneg (by positivity), Real.rpow_sub hx, Real.rpow_one]
      have := Real.rpow_pos_of_pos hx p
      field_simp
    · simp only [TS.pow, TS.mk5, if_neg hx.ne']
      rw [abs_of_nonneg (mul_nonneg (Real.rpow_nonneg hx.le _) hq)]
    · simp only [TS.log, TS.mk5, if_neg hx.ne']
      rw [abs_of_nonneg (by positivity)]
      ring
  refine ⟨A, ⟨4, 0, 0, 1, .read⟩, by norm_num, by norm_num, ?_, ?_, ?_⟩
  · have h := (A ⟨4, 0, 0, 1, .read⟩ (by norm_num) (by norm_num)).1
    rw [h]
    have h4 : Real.sqrt 4 = 2 := by rw [show (4:ℝ) = 2^2 by norm_num]; exact Real.sqrt_sq (by norm_num)
    simp only [h4]; norm_num
  · have h := (A ⟨4, 0, 0, 1, .read⟩ (by norm_num) (by norm_num)).2.1 2
    rw [h]
    have h1 : (4:ℝ) ^ (2:ℝ) = 16 := by rw [show (2:ℝ) = ((2:ℕ):ℝ) by norm_num, Real.rpow_natCast]; norm_num
    simp only [h1]
    rw [show ((2:ℝ) - 1) = 1 by norm_num, Real.rpow_one]
    norm_num
  · have h := (A ⟨4, 0, 0, 1, .read⟩ (by norm_num) (by norm_num)).2.2.2
    rw [h]; norm_num

/-- **C03 (partial for the compound forms).** Full statement: `op=` gives the uncertainty of `op`.  Proved:
always for `+=`/`-=`; for `*=`/`/=` when both values are non-zero and the resulting value is positive.
Missing: negative results (refuted above) and zero values. -/
theorem C03_compound_err_partial (x y : TS) :
    (TS.addAssign x y).err = (TS.add x y).err ∧ (TS.subAssign x y).err = (TS.sub x y).err ∧
    (0 < x.val * y.val → (TS.mulAssign x y).err = (TS.mul x y).err ∧ (TS.divAssign x y).err = (TS.div x y).err) := by
  refine ⟨?_, ?_, fun h => ?_⟩
  · simp [TS.add, TS.addAssign, TS.mk5, abs_of_nonneg (Real.sqrt_nonneg _)]
  · simp [TS.sub, TS.subAssign, TS.mk5, abs_of_nonneg (Real.sqrt_nonneg _)]
  · have hx : x.val ≠ 0 := by rintro h0; simp [h0] at h
    have hy : y.val ≠ 0 := by rintro h0; simp [h0] at h
    have hq : 0 < 1.0 / y.val * x.val := by
      have : 0 < x.val * y.val / y.val^2 := div_pos h (by positivity)
      have e : x.val * y.val / y.val^2 = 1.0 / y.val * x.val := by norm_num; field_simp
      rwa [e] at this
    constructor
    · simp only [TS.mulAssign, TS.mul, TS.mk5, TS.relVar, hx, hy, if_false, ne_eq, not_false_eq_true, if_true]
      rw [abs_of_nonneg (mul_nonneg h.le (Real.sqrt_nonneg _)), mul_div_assoc']
    · simp only [TS.divAssign, TS.div, TS.mk5, TS.relVar, hx, hy, if_false, ne_eq, not_false_eq_true, if_true]
      rw [abs_of_nonneg (mul_nonneg hq.le (Real.sqrt_nonneg _)), mul_comm x.val]
      congr 2; ring

example : 0 < (⟨-2, 0, 0, 0.5, .read⟩ : TS).val * (⟨-3, 0, 0, 0.1, .read⟩ : TS).val := by norm_num

/-! ### C04: compound assignment -/

/-- Same value, derivatives and status. -/
def SameVDS (x y : TS) : Prop := x.val = y.val ∧ x.ddt = y.ddt ∧ x.ddp = y.ddp ∧ x.sta = y.sta

/-- **C04.** `x op= y` and `x op y` agree on value, both derivatives and status, for all operands
(no non-zero assumption is needed). -/
theorem C04_compound_eq_free (x y : TS) :
    SameVDS (TS.addAssign x y) (TS.add x y) ∧ SameVDS (TS.subAssign x y) (TS.sub x y) ∧
    SameVDS (TS.mulAssign x y) (TS.mul x y) ∧ SameVDS (TS.divAssign x y) (TS.div x y) := by
  refine ⟨⟨rfl, rfl, rfl, rfl⟩, ⟨rfl, rfl, rfl, rfl⟩, ⟨rfl, ?_, ?_, rfl⟩, ⟨?_, ?_, ?_, rfl⟩⟩ <;>
    simp only [TS.mulAssign, TS.mul, TS.divAssign, TS.div, TS.mk5, show (1.0:ℝ) = 1 by norm_num] <;> ring

/-- **C04, plain double right operand.** Value and derivatives agree. -/
theorem C04_compound_double (x : TS) (d : ℝ) :
    ((TS.addAssignD x d).val = (TS.addR x d).val ∧ (TS.addAssignD x d).ddt = (TS.addR x d).ddt ∧
      (TS.addAssignD x d).ddp = (TS.addR x d).ddp) ∧
    ((TS.subAssignD x d).val = (TS.subR x d).val ∧ (TS.subAssignD x d).ddt = (TS.subR x d).ddt ∧
      (TS.subAssignD x d).ddp = (TS.subR x d).ddp) ∧
    ((TS.mulAssignD x d).val = (TS.mulR x d).val ∧ (TS.mulAssignD x d).ddt = (TS.mulR x d).ddt ∧
      (TS.mulAssignD x d).ddp = (TS.mulR x d).ddp) ∧
    ((TS.divAssignD x d).val = (TS.divR x d).val ∧ (TS.divAssignD x d).ddt = (TS.divR x d).ddt ∧
      (TS.divAssignD x d).ddp = (TS.divR x d).ddp) := by
  refine ⟨⟨?_, rfl, rfl⟩, ⟨rfl, rfl, rfl⟩, ?_, ?_⟩
  · simp [TS.addAssignD, TS.addR, TS.addL, TS.mk5, add_comm]
  · unfold TS.mulR TS.mulL TS.mulAssignD; split <;> simp [TS.mk5, mul_comm]
  · unfold TS.divR TS.mulL TS.divAssignD TS.mulAssignD; split <;> simp [TS.mk5, mul_comm]

/-- Case for C04: a division of a negative by a positive value. -/
example : (TS.divAssign ⟨-6, 1, 2, 0.5, .read⟩ ⟨3, 0, 1, 0, .read⟩).val = -2 ∧
    (TS.divAssign ⟨-6, 1, 2, 0.5, .read⟩ ⟨3, 0, 1, 0, .read⟩).ddp = 4/3 := by
  constructor <;> norm_num [TS.divAssign]

end ThermoFun

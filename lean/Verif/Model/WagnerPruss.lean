import Verif.Model.WaterState

/-!
Model of the Helmholtz function of Wagner and Pruss: /repo/ThermoFun/Substances/Solvent/Reaktoro/WaterHelmholtzStateWagnerPruss.cpp.

Only the values of the ThermoScalars are modelled (real numbers).  In the records for a function of the reduced variables the first variable
is `tau`, the second `delta`.
-/

namespace ThermoFun

namespace WP

/-- `+=` on all derivatives, WaterHelmholtzStateWagnerPruss.cpp:209-218 and after each of the other terms. -/
def add (p q : Helm) : Helm :=
  ⟨p.f + q.f, p.fT + q.fT, p.fD + q.fD, p.fTT + q.fTT, p.fTD + q.fTD, p.fDD + q.fDD, p.fTTT + q.fTTT, p.fTTD + q.fTTD, p.fTDD + q.fTDD, p.fDDD + q.fDDD⟩

/-- The zeros of WaterHelmholtzStateWagnerPruss.cpp:185-194. -/
def zero : Helm := ⟨0, 0, 0, 0, 0, 0, 0, 0, 0, 0⟩

/-- A loop that adds terms, WaterHelmholtzStateWagnerPruss.cpp:196-347. -/
def sum (l : List Helm) : Helm := l.foldl add zero

/-- The coefficients, WaterHelmholtzStateWagnerPruss.cpp:28-142.  Simplification: they are rational numbers. -/
structure Coef where
  no : List ℚ
  gammao : List ℚ
  c : List ℚ
  d : List ℚ
  t : List ℚ
  n : List ℚ
  alpha : List ℚ
  beta : List ℚ
  gamma : List ℚ
  epsilon : List ℚ
  a : List ℚ
  b : List ℚ
  A : List ℚ
  B : List ℚ
  C : List ℚ
  F : List ℚ
  E : List ℚ

/-- An element of an array; the loops below stay within the tables, and an index outside would give 0 here, where the C++ code would have undefined behaviour. -/
def el (l : List ℚ) (i : ℕ) : ℝ := (l.getD i 0 : ℚ)

/-- The coefficients of the program, WaterHelmholtzStateWagnerPruss.cpp:28-142. -/
def coef : Coef where
  no := [0, -8.32044648201, 6.6832105268, 3.00632, 0.012436, 0.97315, 1.27950, 0.96956,
    0.24873] -- 29-32
  gammao := [1.28728967, 3.53734222, 7.74073708, 9.24437796, 27.5075105] -- 34-37
  c := [0, 0, 0, 0, 0, 0, 0, 0,
    1, 1, 1, 1, 1, 1, 1, 1,
    1, 1, 1, 1, 1, 1, 1, 2,
    2, 2, 2, 2, 2, 2, 2, 2,
    2, 2, 2, 2, 2, 2, 2, 2,
    2, 2, 2, 3, 3, 3, 3, 4,
    6, 6, 6, 6, 0, 0, 0] -- 39-44
  d := [0, 1, 1, 1, 2, 2, 3, 4,
    1, 1, 1, 2, 2, 3, 4, 4,
    5, 7, 9, 10, 11, 13, 15, 1,
    2, 2, 2, 3, 4, 4, 4, 5,
    6, 6, 7, 9, 9, 9, 9, 9,
    10, 10, 12, 3, 4, 4, 5, 14,
    3, 6, 6, 6, 3, 3, 3] -- 46-51
  t := [0, -0.5, 0.875, 1, 0.5, 0.75, 0.375, 1,
    4, 6, 12, 1, 5, 4, 2, 13,
    9, 3, 4, 11, 4, 13, 1, 7,
    1, 9, 10, 10, 3, 7, 10, 10,
    6, 10, 10, 1, 2, 3, 4, 8,
    6, 9, 8, 16, 22, 23, 23, 10,
    50, 44, 46, 50, 0, 1, 4] -- 54-59
  n := [0, 0.12533547935523e-1, 0.78957634722828e1, -0.87803203303561e1, 0.31802509345418, -0.26145533859358, -0.78199751687981e-2, 0.88089493102134e-2,
    -0.66856572307965, 0.20433810950965, -0.66212605039687e-4, -0.19232721156002, -0.25709043003438, 0.16074868486251, -0.40092828925807e-1, 0.39343422603254e-6,
    -0.75941377088144e-5, 0.56250979351888e-3, -0.15608652257135e-4, 0.11537996422951e-8, 0.36582165144204e-6, -0.13251180074668e-11, -0.62639586912454e-9, -0.10793600908932,
    0.17611491008752e-1, 0.22132295167546, -0.40247669763528, 0.58083399985759, 0.49969146990806e-2, -0.31358700712549e-1, -0.74315929710341, 0.47807329915480,
    0.20527940895948e-1, -0.13636435110343, 0.14180634400617e-1, 0.83326504880713e-2, -0.29052336009585e-1, 0.38615085574206e-1, -0.20393486513704e-1, -0.16554050063734e-2,
    0.19955571979541e-2, 0.15870308324157e-3, -0.16388568342530e-4, 0.43613615723811e-1, 0.34994005463765e-1, -0.76788197844621e-1, 0.22446277332006e-1, -0.62689710414685e-4,
    -0.55711118565645e-9, -0.19905718354408, 0.31777497330738, -0.11841182425981, -0.31306260323435e2, 0.31546140237781e2, -0.25213154341695e4, -0.14874640856724,
    0.31806110878444] -- 61-120
  alpha := [20, 20, 20] -- 122-122
  beta := [150, 150, 250] -- 124-124
  gamma := [1.21, 1.21, 1.25] -- 126-126
  epsilon := [1, 1, 1] -- 128-128
  a := [3.5, 3.5] -- 130-130
  b := [0.85, 0.95] -- 132-132
  A := [0.32, 0.32] -- 134-134
  B := [0.2, 0.2] -- 136-136
  C := [28, 32] -- 138-138
  F := [700, 800] -- 140-140
  E := [0.3, 0.3] -- 142-142

/-- The ideal part, WaterHelmholtzStateWagnerPruss.cpp:151-172. -/
noncomputable def ideal (k : Coef) (tau delta : ℝ) : Helm :=
  let no := el k.no
  let start : Helm := {
    f := Real.log delta + no 1 + no 2 * tau + no 3 * Real.log tau
    fD := 1 / delta
    fT := no 2 + no 3 / tau
    fDD := -1 / delta ^ 2
    fTT := -no 3 / tau ^ 2
    fTD := 0
    fDDD := 2 / delta ^ 3
    fTTT := 2 * no 3 / tau ^ 3
    fTTD := 0
    fTDD := 0 }
  ((List.range 5).map (· + 4)).foldl (fun phio i =>
    let j := i - 4
    let ee := Real.exp (el k.gammao j * tau)
    { phio with
      f := phio.f + no i * Real.log (1 - 1 / ee)
      fT := phio.fT + no i * (el k.gammao j / (ee - 1))
      fTT := phio.fTT - no i * ee * (el k.gammao j / (ee - 1)) ^ 2
      fTTT := phio.fTTT + no i * ee * (1 + ee) * (el k.gammao j / (ee - 1)) ^ 3 }) start

/-- A term of the first sum, WaterHelmholtzStateWagnerPruss.cpp:198-207. -/
noncomputable def termA (n d t tau delta : ℝ) : Helm :=
  let A := n * delta ^ d * tau ^ t
  let A_d := d / delta * A
  let A_t := t / tau * A
  let A_dd := (d - 1) / delta * A_d
  let A_tt := (t - 1) / tau * A_t
  let A_dt := t * d / (tau * delta) * A
  let A_ddd := (d - 2) / delta * A_dd
  let A_ttt := (t - 2) / tau * A_tt
  let A_dtt := d / delta * A_tt
  let A_ddt := t / tau * A_dd
  { f := A, fD := A_d, fT := A_t, fDD := A_dd, fTT := A_tt, fTD := A_dt, fDDD := A_ddd, fTTT := A_ttt, fTTD := A_dtt, fTDD := A_ddt }

/-- A term of the second sum, WaterHelmholtzStateWagnerPruss.cpp:223-234. -/
noncomputable def termB (n d t c tau delta : ℝ) : Helm :=
  let dci := delta ^ c
  let B := n * delta ^ d * tau ^ t * Real.exp (-dci)
  let B_d := (d - c * dci) / delta * B
  let B_t := t / tau * B
  let B_dd := (d - c * dci - 1) / delta * B_d - dci * (c / delta) ^ 2 * B
  let B_tt := (t - 1) / tau * B_t
  let B_dt := t / tau * B_d
  let B_ddd := (d - c * dci - 1) / delta * B_dd - ((d - c * dci - 1) + 2 * c * c * dci) / delta ^ 2 * B_d - c * c * dci * (c - 2) / delta ^ 3 * B
  let B_ttt := (t - 2) / tau * B_tt
  let B_dtt := (t - 1) / tau * B_dt
  let B_ddt := (d - c * dci - 1) / delta * B_dt - c * c * dci / delta ^ 2 * B_t
  { f := B, fD := B_d, fT := B_t, fDD := B_dd, fTT := B_tt, fTD := B_dt, fDDD := B_ddd, fTTT := B_ttt, fTTD := B_dtt, fTDD := B_ddt }

/-- A term of the third sum, WaterHelmholtzStateWagnerPruss.cpp:252-267. -/
noncomputable def termC (n d t alpha beta gamma epsilon tau delta : ℝ) : Helm :=
  let aux1d := d / delta - 2 * alpha * (delta - epsilon)
  let aux1t := t / tau - 2 * beta * (tau - gamma)
  let aux2d := d / delta ^ 2 + 2 * alpha
  let aux2t := t / tau ^ 2 + 2 * beta
  let C := n * delta ^ d * tau ^ t * Real.exp (-alpha * (delta - epsilon) ^ 2 - beta * (tau - gamma) ^ 2)
  let C_d := aux1d * C
  let C_t := aux1t * C
  let C_dd := aux1d * C_d - aux2d * C
  let C_tt := aux1t * C_t - aux2t * C
  let C_dt := aux1d * aux1t * C
  let C_ddd := aux1d * C_dd - 2 * aux2d * C_d + 2 * d / delta ^ 3 * C
  let C_ttt := aux1t * C_tt - 2 * aux2t * C_t + 2 * t / tau ^ 3 * C
  let C_dtt := aux1t * C_dt - aux2t * C_d
  let C_ddt := aux1d * C_dt - aux2d * C_t
  { f := C, fD := C_d, fT := C_t, fDD := C_dd, fTT := C_tt, fTD := C_dt, fDDD := C_ddd, fTTT := C_ttt, fTTD := C_dtt, fTDD := C_ddt }

/-- `theta` with its derivatives, WaterHelmholtzStateWagnerPruss.cpp:288-291; those by `tau` (-1, then 0) are not named in the source. -/
noncomputable def theta (A E tau delta : ℝ) : Helm :=
  let dd := (delta - 1) ^ 2
  let theta := (1 - tau) + A * dd ^ (0.5 / E)
  let theta_d := (theta + tau - 1) / (delta - 1) / E
  let theta_dd := (1 / E - 1) * theta_d / (delta - 1)
  let theta_ddd := (1 / E - 1) * (theta_dd / (delta - 1) - theta_d / dd)
  { f := theta, fD := theta_d, fT := -1, fDD := theta_dd, fTT := 0, fTD := 0, fDDD := theta_ddd, fTTT := 0, fTTD := 0, fTDD := 0 }

/-- `psi` with its derivatives, WaterHelmholtzStateWagnerPruss.cpp:285-302. -/
noncomputable def psi (C F tau delta : ℝ) : Helm :=
  let psi := Real.exp (-C * (delta - 1) ^ 2 - F * (tau - 1) ^ 2)
  let psi_d := -2 * C * (delta - 1) * psi
  let psi_t := -2 * F * (tau - 1) * psi
  let psi_dd := -2 * C * (psi + (delta - 1) * psi_d)
  let psi_tt := -2 * F * (psi + (tau - 1) * psi_t)
  let psi_dt := 4 * C * F * (delta - 1) * (tau - 1) * psi
  let psi_ddd := -2 * C * (2 * psi_d + (delta - 1) * psi_dd)
  let psi_ttt := -2 * F * (2 * psi_t + (tau - 1) * psi_tt)
  let psi_dtt := -2 * F * (psi_d + (tau - 1) * psi_dt)
  let psi_ddt := -2 * C * (psi_t + (delta - 1) * psi_dt)
  { f := psi, fD := psi_d, fT := psi_t, fDD := psi_dd, fTT := psi_tt, fTD := psi_dt, fDDD := psi_ddd, fTTT := psi_ttt, fTTD := psi_dtt, fTDD := psi_ddt }

/-- `Delta` with its derivatives, WaterHelmholtzStateWagnerPruss.cpp:304-313; `h` is `theta`. -/
noncomputable def bigDelta (B a : ℝ) (h : Helm) (delta : ℝ) : Helm :=
  let dd := (delta - 1) ^ 2
  let theta := h.f
  let theta_d := h.fD
  let theta_dd := h.fDD
  let theta_ddd := h.fDDD
  let Delta := theta * theta + B * dd ^ a
  let Delta_d := 2 * (theta * theta_d + a * (Delta - theta * theta) / (delta - 1))
  let Delta_t := -2 * theta
  let Delta_dd := 2 * (theta_d * theta_d + theta * theta_dd + a * ((Delta_d - 2 * theta * theta_d) / (delta - 1) - (Delta - theta * theta) / (delta - 1) ^ 2))
  let Delta_tt := 2
  let Delta_dt := -2 * theta_d
  let Delta_ddd := 2 * (3 * theta_d * theta_dd + theta * theta_ddd + a * ((Delta_dd - 2 * theta_d * theta_d - 2 * theta * theta_dd) / (delta - 1)
    - 2 * (Delta_d - 2 * theta * theta_d) / (delta - 1) ^ 2 + 2 * (Delta - theta * theta) / (delta - 1) ^ 3))
  let Delta_ttt := 0
  let Delta_dtt := 0
  let Delta_ddt := -2 * theta_dd
  { f := Delta, fD := Delta_d, fT := Delta_t, fDD := Delta_dd, fTT := Delta_tt, fTD := Delta_dt, fDDD := Delta_ddd, fTTT := Delta_ttt, fTTD := Delta_dtt, fTDD := Delta_ddt }

/-- `DeltaPow` with its derivatives, WaterHelmholtzStateWagnerPruss.cpp:315-324; `D` is `Delta`. -/
noncomputable def deltaPow (b : ℝ) (D : Helm) : Helm :=
  let Delta := D.f
  let p := Delta ^ b
  { f := p
    fD := b * D.fD / Delta * p
    fT := b * D.fT / Delta * p
    fDD := (b * D.fDD / Delta + b * (b - 1) * (D.fD / Delta) ^ 2) * p
    fTT := (b * D.fTT / Delta + b * (b - 1) * (D.fT / Delta) ^ 2) * p
    fTD := (b * D.fTD / Delta + b * (b - 1) * D.fD * D.fT / Delta / Delta) * p
    fDDD := (b * D.fDDD / Delta + 3 * b * (b - 1) * D.fD * D.fDD / Delta / Delta + b * (b - 1) * (b - 2) * (D.fD / Delta) ^ 3) * p
    fTTT := (b * D.fTTT / Delta + 3 * b * (b - 1) * D.fT * D.fTT / Delta / Delta + b * (b - 1) * (b - 2) * (D.fT / Delta) ^ 3) * p
    fTTD := (b * D.fTTD / Delta + b * (b - 1) * (D.fD * D.fTT + 2 * D.fT * D.fTD) / Delta / Delta + b * (b - 1) * (b - 2) * D.fT * D.fT * D.fD / Delta ^ 3) * p
    fTDD := (b * D.fTDD / Delta + b * (b - 1) * (D.fT * D.fDD + 2 * D.fD * D.fTD) / Delta / Delta + b * (b - 1) * (b - 2) * D.fD * D.fD * D.fT / Delta ^ 3) * p }

/-- A term of the fourth sum from `DeltaPow` (`p`) and `psi` (`q`), WaterHelmholtzStateWagnerPruss.cpp:326-335. -/
noncomputable def product (n delta : ℝ) (p q : Helm) : Helm where
  f := n * p.f * delta * q.f
  fD := n * (p.f * (q.f + delta * q.fD) + p.fD * delta * q.f)
  fT := n * delta * (p.fT * q.f + p.f * q.fT)
  fDD := n * (p.f * (2 * q.fD + delta * q.fDD) + 2 * p.fD * (q.f + delta * q.fD) + p.fDD * delta * q.f)
  fTT := n * delta * (p.fTT * q.f + 2 * p.fT * q.fT + p.f * q.fTT)
  fTD := n * (p.f * (q.fT + delta * q.fTD) + delta * p.fD * q.fT + p.fT * (q.f + delta * q.fD) + p.fTD * delta * q.f)
  fDDD := n * (p.fDDD * delta * q.f + 3 * p.fDD * (q.f + delta * q.fD) + 3 * p.fD * (2 * q.fD + delta * q.fDD) + p.f * (3 * q.fDD + delta * q.fDDD))
  fTTT := n * delta * (p.fTTT * q.f + 3 * p.fTT * q.fT + 3 * p.fT * q.fTT + p.f * q.fTTT)
  fTTD := n * (p.fTT * q.f + 2 * p.fT * q.fT + p.f * q.fTT) + n * delta * (p.fTTD * q.f + p.fTT * q.fD + 2 * p.fTD * q.fT + 2 * p.fT * q.fTD + p.fD * q.fTT + p.f * q.fTTD)
  fTDD := n * (p.fTDD * delta * q.f + 2 * p.fTD * (q.f + delta * q.fD) + p.fDD * delta * q.fT + p.fT * (2 * q.fD + delta * q.fDD) + 2 * p.fD * (q.fT + delta * q.fTD) + p.f * (2 * q.fTD + delta * q.fTDD))

/-- A term of the fourth sum, WaterHelmholtzStateWagnerPruss.cpp:285-335. -/
noncomputable def termD (n a b A B C F E tau delta : ℝ) : Helm :=
  product n delta (deltaPow b (bigDelta B a (theta A E tau delta) delta)) (psi C F tau delta)

/-- The residual part, WaterHelmholtzStateWagnerPruss.cpp:185-347. -/
noncomputable def residual (k : Coef) (tau delta : ℝ) : Helm :=
  let n := el k.n
  let d := el k.d
  let t := el k.t
  sum (((List.range 7).map (· + 1)).map (fun i => termA (n i) (d i) (t i) tau delta) ++
    ((List.range 44).map (· + 8)).map (fun i => termB (n i) (d i) (t i) (el k.c i) tau delta) ++
    ((List.range 3).map (· + 52)).map (fun i =>
      let j := i - 52
      termC (n i) (d i) (t i) (el k.alpha j) (el k.beta j) (el k.gamma j) (el k.epsilon j) tau delta) ++
    ((List.range 2).map (· + 55)).map (fun i =>
      let j := i - 55
      termD (n i) (el k.a j) (el k.b j) (el k.A j) (el k.B j) (el k.C j) (el k.F j) (el k.E j) tau delta))

/-- The Helmholtz function in terms of T and D from that in reduced variables, WaterHelmholtzStateWagnerPruss.cpp:360-394. -/
noncomputable def dimensioned (phi : Helm) (tau T : ℝ) : Helm :=
  let Tcr := 647.096
  let Dcr := 322
  let tT := -Tcr / (T * T)
  let tTT := 2 * Tcr / (T * T * T)
  let tTTT := -6 * Tcr / (T * T * T * T)
  let dD := 1 / Dcr
  let phiT := phi.fT * tT
  let phiD := phi.fD * dD
  let phiTT := phi.fTT * tT * tT + phi.fT * tTT
  let phiTD := phi.fTD * tT * dD
  let phiDD := phi.fDD * dD * dD
  let phiTTT := phi.fTTT * tT * tT * tau * T + 3 * phi.fTT * tT * tTT + phi.fT * tTTT
  let phiTTD := phi.fTTD * tT * tT * dD + phi.fTD * tTT * dD
  let phiTDD := phi.fTDD * tT * dD * dD
  let phiDDD := phi.fDDD * dD * dD * dD
  let R := 461.51805
  { f := R * T * phi.f
    fT := R * T * phiT + R * phi.f
    fD := R * T * phiD
    fTT := R * T * phiTT + 2 * R * phiT
    fTD := R * T * phiTD + R * phiD
    fDD := R * T * phiDD
    fTTT := R * T * phiTTT + 3 * R * phiTT
    fTTD := R * T * phiTTD + 2 * R * phiTD
    fTDD := R * T * phiTDD + R * phiDD
    fDDD := R * T * phiDDD }

/-- `waterHelmholtzStateWagnerPruss`, WaterHelmholtzStateWagnerPruss.cpp:146-395, for any coefficients. -/
noncomputable def helmholtzOf (k : Coef) (T D : ℝ) : Helm :=
  let tau := 647.096 / T
  let delta := D / 322
  dimensioned (add (ideal k tau delta) (residual k tau delta)) tau T

/-- `waterHelmholtzStateWagnerPruss`, WaterHelmholtzStateWagnerPruss.cpp:146-395. -/
noncomputable def helmholtz (T D : ℝ) : Helm := helmholtzOf coef T D

end WP

end ThermoFun

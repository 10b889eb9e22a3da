import Verif.Model.WagnerPruss

/-!
Model of the Helmholtz function of Haar, Gallagher and Kell: /repo/ThermoFun/Substances/Solvent/Reaktoro/WaterHelmholtzStateHGK.cpp.

Only the values of the ThermoScalars are modelled (real numbers); the statement at 322-326 of the source changes carried derivatives only.
In the records for the reduced function the first variable is `t`, the second `d` (`r` in the source).
-/

namespace ThermoFun

namespace HGK

open WP (add el)

/-- `A0`, WaterHelmholtzStateHGK.cpp:56-75. -/
def A0 : List ℚ :=
  [-0.130840393653e2, -0.857020420940e2, 0.765192919131e-2, -0.620600116069, -0.106924329402e2, -0.280671377296e1,
    0.119843634845e3, -0.823907389256e2, 0.555864146443e2, -0.310698122980e2, 0.136200239305e2, -0.457116129409e1,
    0.115382128188e1, -0.214242224683, 0.282800597384e-1, -0.250384152737e-2, 0.132952679669e-3, -0.319277411208e-5]

/-- `A1`, WaterHelmholtzStateHGK.cpp:77-83. -/
def A1 : List ℚ :=
  [0.15383053e1, -0.81048367, -0.68305748e1, 0.00000000, 0.86756271]

/-- `yc`, WaterHelmholtzStateHGK.cpp:87-92. -/
def yc : List ℚ :=
  [0.59402227e-1, -0.28128238e-1, 0.56826674e-3, -0.27987451e-3]

/-- `ki`, WaterHelmholtzStateHGK.cpp:96-102. -/
def ki : List ℤ :=
  [1, 1, 1, 1, 2, 2,
    2, 2, 3, 3, 3, 3,
    4, 4, 4, 4, 5, 5,
    5, 5, 6, 6, 6, 6,
    7, 7, 7, 7, 9, 9,
    9, 9, 3, 3, 1, 5]

/-- `li`, WaterHelmholtzStateHGK.cpp:104-110. -/
def li : List ℤ :=
  [1, 2, 4, 6, 1, 2,
    4, 6, 1, 2, 4, 6,
    1, 2, 4, 6, 1, 2,
    4, 6, 1, 2, 4, 6,
    1, 2, 4, 6, 1, 2,
    4, 6, 0, 3, 3, 3]

/-- `A3`, WaterHelmholtzStateHGK.cpp:112-149. -/
def A3 : List ℚ :=
  [-0.76221190138079e1, 0.32661493707555e2, 0.11305763156821e2, -0.10015404767712e1, 0.12830064355028e3, -0.28371416789846e3,
    0.24256279839182e3, -0.99357645626725e2, -0.12275453013171e4, 0.23077622506234e4, -0.16352219929859e4, 0.58436648297764e3,
    0.42365441415641e4, -0.78027526961828e4, 0.38855645739589e4, -0.91225112529381e3, -0.90143895703666e4, 0.15196214817734e5,
    -0.39616651358508e4, -0.72027511617558e3, 0.11147126705990e5, -0.17412065252210e5, 0.99918281207782e3, 0.33504807153854e4,
    -0.64752644922631e4, 0.98323730907847e4, 0.83877854108422e3, -0.27919349903103e4, 0.11112410081192e4, -0.17287587261807e4,
    -0.36233262795423e3, 0.61139429010144e3, 0.32968064728562e2, 0.10411239605066e3, -0.38225874712590e2, -0.20307478607599e3]

/-- `mi`, WaterHelmholtzStateHGK.cpp:151-151. -/
def mi : List ℤ :=
  [2, 2, 2, 4]

/-- `ni`, WaterHelmholtzStateHGK.cpp:153-153. -/
def ni : List ℤ :=
  [0, 2, 0, 0]

/-- `alpha`, WaterHelmholtzStateHGK.cpp:155-155. -/
def alpha : List ℚ :=
  [34, 40, 30, 1050]

/-- `beta`, WaterHelmholtzStateHGK.cpp:157-157. -/
def beta : List ℚ :=
  [20000, 20000, 40000, 25]

/-- `ri`, WaterHelmholtzStateHGK.cpp:159-164. -/
def ri : List ℚ :=
  [0.10038928e1, 0.10038928e1, 0.10038928e1, 0.48778492e1]

/-- `ti`, WaterHelmholtzStateHGK.cpp:166-171. -/
def ti : List ℚ :=
  [0.98876821, 0.98876821, 0.99124013, 0.41713659]

/-- `A4`, WaterHelmholtzStateHGK.cpp:173-178. -/
def A4 : List ℚ :=
  [-0.32329494e-2, -0.24139355e-1, 0.79027651e-3, -0.13362857e1]

/-- An element of an array of integers; all indices used are in range. -/
def eli (l : List ℤ) (i : ℕ) : ℤ := l.getD i 0

/-- `A20`, WaterHelmholtzStateHGK.cpp:85. -/
noncomputable def A20 : ℝ := 0.42923415e1

/-- `z0`, WaterHelmholtzStateHGK.cpp:94. -/
noncomputable def z0 : ℝ := 0.317763

/-- `calculateWaterHelmholtzStateHGK0`, WaterHelmholtzStateHGK.cpp:194-217. -/
noncomputable def part0 (t : ℝ) : Helm :=
  let ln_t := Real.log t
  let s : Helm := {
    f := (el A0 0 + el A0 1 * t) * ln_t
    fT := el A0 0 / t + el A0 1 * (ln_t + 1)
    fTT := -el A0 0 / (t * t) + el A0 1 / t
    fTTT := 2 * el A0 0 / (t * t * t) - el A0 1 / (t * t)
    fD := 0, fTD := 0, fDD := 0, fTTD := 0, fTDD := 0, fDDD := 0 }
  ((List.range 16).map (· + 2)).foldl (fun s i =>
    let aux := el A0 i * t ^ ((i : ℤ) - 4)
    { s with
      f := s.f + aux
      fT := s.fT + aux * ((i : ℝ) - 4) / t
      fTT := s.fTT + aux * ((i : ℝ) - 4) * ((i : ℝ) - 5) / (t * t)
      fTTT := s.fTTT + aux * ((i : ℝ) - 4) * ((i : ℝ) - 5) * ((i : ℝ) - 6) / (t * t * t) }) s

/-- The loop of `calculateWaterHelmholtzStateHGK1`, WaterHelmholtzStateHGK.cpp:221-232. -/
noncomputable def part1Loop (t d : ℝ) : Helm :=
  (List.range 5).foldl (fun s i =>
    let aux := d * el A1 i * t ^ (1 - (i : ℤ))
    { s with
      f := s.f + aux
      fT := s.fT - aux * ((i : ℝ) - 1) / t
      fTT := s.fTT + aux * ((i : ℝ) - 1) * i / (t * t)
      fTTT := s.fTTT - aux * ((i : ℝ) - 1) * i * ((i : ℝ) + 1) / (t * t * t) }) WP.zero

/-- `calculateWaterHelmholtzStateHGK1`, WaterHelmholtzStateHGK.cpp:219-239. -/
noncomputable def part1 (t d : ℝ) : Helm :=
  let s := part1Loop t d
  { s with fD := s.f / d, fTD := s.fT / d, fTTD := s.fTT / d }

/-- `y` with its derivatives, WaterHelmholtzStateHGK.cpp:246-259. -/
noncomputable def yy (t d : ℝ) : Helm :=
  let t3 := t ^ (-3 : ℤ)
  let t5 := t ^ (-5 : ℤ)
  let ln_t := Real.log t
  let y := d * (el yc 0 + el yc 1 * ln_t + el yc 2 * t3 + el yc 3 * t5)
  let y_r := y / d
  let y_t := d * (el yc 1 - 3 * el yc 2 * t3 - 5 * el yc 3 * t5) / t
  let y_rr := 0
  let y_tt := d * (-el yc 1 + 12 * el yc 2 * t3 + 30 * el yc 3 * t5) / (t * t)
  let y_rt := y_t / d
  let y_rrr := 0
  let y_rrt := y_rt / d - y_t / (d * d)
  let y_rtt := y_tt / d
  let y_ttt := d * (2 * el yc 1 - 60 * el yc 2 * t3 - 210 * el yc 3 * t5) / (t * t * t)
  { f := y, fD := y_r, fT := y_t, fDD := y_rr, fTT := y_tt, fTD := y_rt, fDDD := y_rrr, fTTT := y_ttt, fTTD := y_rtt, fTDD := y_rrt }

/-- `x` with its derivatives, WaterHelmholtzStateHGK.cpp:261-271. -/
noncomputable def xx (y : Helm) : Helm :=
  let x := 1 / (1 - y.f)
  let x2 := x * x
  let x_r := y.fD * x2
  let x_t := y.fT * x2
  let x_rr := y.fDD * x2 + 2 * y.fD * x_r * x
  let x_tt := y.fTT * x2 + 2 * y.fT * x_t * x
  let x_rt := y.fTD * x2 + 2 * y.fD * x_t * x
  let x_rrr := y.fDDD * x2 + 4 * y.fDD * x_r * x + 2 * y.fD * (x_rr * x + x_r * x_r)
  let x_rrt := y.fTDD * x2 + 2 * (y.fTD * x_r + y.fDD * x_t) + 2 * y.fD * (x_rt * x + x_r * x_t)
  let x_rtt := y.fTTD * x2 + 4 * y.fTD * x_t * x + 2 * y.fD * (x_tt * x + x_t * x_t)
  let x_ttt := y.fTTT * x2 + 4 * y.fTT * x_t * x + 2 * y.fT * (x_tt * x + x_t * x_t)
  { f := x, fD := x_r, fT := x_t, fDD := x_rr, fTT := x_tt, fTD := x_rt, fDDD := x_rrr, fTTT := x_ttt, fTTD := x_rtt, fTDD := x_rrt }

/-- `u` with its derivatives, WaterHelmholtzStateHGK.cpp:273-282. -/
noncomputable def uu (x : Helm) (d : ℝ) : Helm where
  f := Real.log (d * x.f)
  fD := x.fD / x.f + 1 / d
  fT := x.fT / x.f
  fDD := x.fDD / x.f - x.fD * x.fD / (x.f * x.f) - 1 / (d * d)
  fTD := x.fTD / x.f - x.fD * x.fT / (x.f * x.f)
  fTT := x.fTT / x.f - x.fT * x.fT / (x.f * x.f)
  fDDD := x.fDDD / x.f - 3 * x.fDD * x.fD / (x.f * x.f) + 2 * x.fD * x.fD * x.fD / (x.f * x.f * x.f) + 2 / (d * d * d)
  fTDD := x.fTDD / x.f - (2 * x.fTD * x.fD + x.fDD * x.fT) / (x.f * x.f) + 2 * x.fD * x.fD * x.fT / (x.f * x.f * x.f)
  fTTD := x.fTTD / x.f - (2 * x.fTD * x.fT + x.fTT * x.fD) / (x.f * x.f) + 2 * x.fT * x.fT * x.fD / (x.f * x.f * x.f)
  fTTT := x.fTTT / x.f - 3 * x.fTT * x.fT / (x.f * x.f) + 2 * x.fT * x.fT * x.fT / (x.f * x.f * x.f)

/-- The result of `calculateWaterHelmholtzStateHGK2` from `y`, `x` and `u`, WaterHelmholtzStateHGK.cpp:284-297. -/
noncomputable def final2 (t : ℝ) (y x u : Helm) : Helm :=
  let c1 := -130 / 3
  let c2 := 169 / 6
  let c3 := -14
  let s := A20 * t * (u.f + c1 * x.f + c2 * x.f * x.f + c3 * y.f)
  let s_r := A20 * t * (u.fD + c1 * x.fD + 2 * c2 * x.f * x.fD + c3 * y.fD)
  let s_t := A20 * t * (u.fT + c1 * x.fT + 2 * c2 * x.f * x.fT + c3 * y.fT) + s / t
  let s_rr := A20 * t * (u.fDD + c1 * x.fDD + 2 * c2 * (x.f * x.fDD + x.fD * x.fD) + c3 * y.fDD)
  let s_rt := A20 * t * (u.fTD + c1 * x.fTD + 2 * c2 * (x.f * x.fTD + x.fD * x.fT) + c3 * y.fTD) + s_r / t
  let s_tt := A20 * t * (u.fTT + c1 * x.fTT + 2 * c2 * (x.f * x.fTT + x.fT * x.fT) + c3 * y.fTT) + 2 * (s_t / t - s / (t * t))
  let s_rrr := A20 * t * (u.fDDD + c1 * x.fDDD + 2 * c2 * (3 * x.fD * x.fDD + x.f * x.fDDD) + c3 * y.fDDD)
  let s_rrt := A20 * t * (u.fTDD + c1 * x.fTDD + 2 * c2 * (x.fT * x.fDD + 2 * x.fD * x.fTD + x.f * x.fTDD) + c3 * y.fTDD) + s_rr / t
  let s_rtt := A20 * t * (u.fTTD + c1 * x.fTTD + 2 * c2 * (x.fD * x.fTT + 2 * x.fT * x.fTD + x.f * x.fTTD) + c3 * y.fTTD) + 2 * (s_rt - s_r / t) / t
  let s_ttt := A20 * t * (u.fTTT + c1 * x.fTTT + 2 * c2 * (3 * x.fT * x.fTT + x.f * x.fTTT) + c3 * y.fTTT) + 3 * (s_tt - 2 * s_t / t + s / (t * t)) / t
  { f := s, fD := s_r, fT := s_t, fDD := s_rr, fTT := s_tt, fTD := s_rt, fDDD := s_rrr, fTTT := s_ttt, fTTD := s_rtt, fTDD := s_rrt }

/-- `calculateWaterHelmholtzStateHGK2`, WaterHelmholtzStateHGK.cpp:241-300. -/
noncomputable def part2 (t d : ℝ) : Helm :=
  let y := yy t d
  let x := xx y
  final2 t y x (uu x d)

/-- A term of `calculateWaterHelmholtzStateHGK3`, WaterHelmholtzStateHGK.cpp:307-310 and 314-329. -/
noncomputable def term3 (A : ℝ) (l k : ℤ) (t d : ℝ) : Helm :=
  let z := 1 - Real.exp (-z0 * d)
  let z_r := z0 * (1 - z)
  let z_rr := -z0 * z_r
  let z_rrr := -z0 * z_rr
  let lambda := A * t ^ (-l) * z ^ k
  let lambda_r := k * z_r * lambda / z
  let lambda_t := -l * lambda / t
  let lambda_rr := lambda_r * (z_rr / z_r + lambda_r / lambda - z_r / z)
  let lambda_rt := lambda_r * lambda_t / lambda
  let lambda_tt := lambda_t * (lambda_t / lambda - 1 / t)
  let lambda_rrr := lambda_rr * (z_rr / z_r + lambda_r / lambda - z_r / z) + lambda_r * (z_rrr / z_r - (z_rr / z_r) ^ 2 + lambda_rr / lambda
    - (lambda_r / lambda) ^ 2 - z_rr / z + (z_r / z) ^ 2)
  let l_pow := (lambda_t / lambda) ^ 2
  let lambda_rrt := -(lambda_r / lambda) ^ 2 * lambda_t + (lambda_rr * lambda_t + lambda_rt * lambda_r) / lambda
  let lambda_rtt := -l_pow * lambda_r + (lambda_tt * lambda_r + lambda_rt * lambda_t) / lambda
  let lambda_ttt := lambda_tt * (lambda_t / lambda - 1 / t) + lambda_t * (lambda_tt / lambda - l_pow + 1 / (t * t))
  { f := lambda, fD := lambda_r, fT := lambda_t, fDD := lambda_rr, fTT := lambda_tt, fTD := lambda_rt, fDDD := lambda_rrr, fTTT := lambda_ttt,
    fTTD := lambda_rtt, fTDD := lambda_rrt }

/-- `calculateWaterHelmholtzStateHGK3`, WaterHelmholtzStateHGK.cpp:302-344. -/
noncomputable def part3 (t d : ℝ) : Helm :=
  ((List.range 36).map fun i => term3 (el A3 i) (eli li i) (eli ki i) t d).foldl add WP.zero

/-- A term of `calculateWaterHelmholtzStateHGK4`, WaterHelmholtzStateHGK.cpp:353-374. -/
noncomputable def term4 (A alpha beta r ti : ℝ) (m n : ℤ) (t d : ℝ) : Helm :=
  let delta := (d - r) / r
  let tau := (t - ti) / ti
  let delta_r := 1 / r
  let tau_t := 1 / ti
  let delta_m := delta ^ m
  let delta_n := delta ^ n
  let psi := (n - alpha * m * delta_m) * delta_r / delta
  let psi_r := -(n + alpha * m * (m - 1) * delta_m) * (delta_r / delta) ^ 2
  let psi_rr := (2 * n - alpha * m * (m - 1) * (m - 2) * delta_m) * (delta_r / delta) ^ 3
  let theta := A * delta_n * Real.exp (-alpha * delta_m - beta * tau * tau)
  let theta_r := psi * theta
  let theta_t := -2 * beta * tau * tau_t * theta
  let theta_rr := psi_r * theta + psi * theta_r
  let theta_tt := 2 * beta * (2 * beta * tau * tau - 1) * tau_t * tau_t * theta
  let theta_rt := -2 * beta * tau * tau_t * theta_r
  let theta_rrr := psi_rr * theta + 2 * psi_r * theta_r + psi * theta_rr
  let theta_rrt := psi_r * theta_r + psi * theta_rt
  let theta_rtt := psi * theta_tt
  let theta_ttt := -2 * beta * (2 * tau_t * tau_t * theta_t + tau * tau_t * theta_tt)
  { f := theta, fD := theta_r, fT := theta_t, fDD := theta_rr, fTT := theta_tt, fTD := theta_rt, fDDD := theta_rrr, fTTT := theta_ttt,
    fTTD := theta_rtt, fTDD := theta_rrt }

/-- `calculateWaterHelmholtzStateHGK4`, WaterHelmholtzStateHGK.cpp:346-389. -/
noncomputable def part4 (t d : ℝ) : Helm :=
  ((List.range 4).map fun i => term4 (el A4 i) (el alpha i) (el beta i) (el ri i) (el ti i) (eli mi i) (eli ni i) t d).foldl add WP.zero

/-- The sum of the parts, WaterHelmholtzStateHGK.cpp:400-417. -/
noncomputable def reduced (t d : ℝ) : Helm := add (add (add (add (part0 t) (part1 t d)) (part2 t d)) (part3 t d)) (part4 t d)

/-- Conversion to dimensioned form, WaterHelmholtzStateHGK.cpp:420-429. -/
noncomputable def dimensioned (s : Helm) : Helm :=
  let F := 69595.89
  let Tr := 647.27
  let Dr := 317.763
  { f := s.f * F
    fD := s.fD * (F / Dr)
    fT := s.fT * (F / Tr)
    fDD := s.fDD * (F / Dr / Dr)
    fTD := s.fTD * (F / Dr / Tr)
    fTT := s.fTT * (F / Tr / Tr)
    fDDD := s.fDDD * (F / Dr / Dr / Dr)
    fTDD := s.fTDD * (F / Dr / Dr / Tr)
    fTTD := s.fTTD * (F / Dr / Tr / Tr)
    fTTT := s.fTTT * (F / Tr / Tr / Tr) }

/-- `waterHelmholtzStateHGK`, WaterHelmholtzStateHGK.cpp:393-432. -/
noncomputable def helmholtz (T D : ℝ) : Helm := dimensioned (reduced (T / 647.27) (D / 317.763))

end HGK

end ThermoFun

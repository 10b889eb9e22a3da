import Verif.Model.GemsFlow

/-!
# WaterHGK-JNgems.cpp: the near-critical region

The equation of state of Levelt Sengers et al. (1983) that replaces HGK between 643 K and 695 K around the critical density: `Pfind` with `conver`, `rtheta`, `ss`,
`aux`; the density and saturation searches `denLVS`, `TsLVS`, `LVSsat`; the properties `thmLVS`, `dalLVS`, `dimLVS`, and `LVSeqn`.  The members of the class that carry
values from one function to the next are the fields of `Mem`, passed along and returned.  A power of a negative number, not a number in the program, is Mathlib's
`rpow` here; no theorem uses one.
-/

namespace ThermoFun

namespace Gems

open WP (el)

namespace Crit

/-- `co_.a`, WaterHGK-JNgems.cpp:310-317. -/
def coA : List ℚ :=
  [-0.017762e0, 5.238000e0, 0.000000e0, -2.549150e1, 6.844500e0, 0.325000e0, 1.440300e0, 0.000000e0, 1.375700e0, 2.366660e1, 4.820000e0, 0.294200e0,
   -1.123260e1, -2.265470e1, -1.788760e1, -4.933200e0, 1.109430391161019373812391218008e0, -1.981395981400671095301629432211e0,
   0.246912528778663959151808173743e0, -0.843411332867484343974055795059e0]

/-- `co_.q`, WaterHGK-JNgems.cpp:319-328. -/
def coQ : List ℚ :=
  [-0.006000e0, -0.003000e0, 0.000000e0, 6.470670e2, 3.227780e2, 2.204600e1, 0.267000e0, -1.600000e0, 0.491775937675717720291497417773e0, 0.108500e0,
   0.586534703230779473334597524774e0, -1.026243389120214352553706598564e0, 0.612903225806451612903225804745e0, 0.500000e0, -0.391500e0, 0.825000e0, 0.741500e0,
   0.103245882826119154987166286332e0, 0.160322434159191991394857495360e0, -0.169859514687100893997445721324e0]

/-- `cr->Tc`, WaterHGK-JNgems.cpp:303. -/
noncomputable def Tc : ℝ := 647.067e0
/-- `cr->rhoC`, WaterHGK-JNgems.cpp:303. -/
noncomputable def rhoC : ℝ := 322.778e0
/-- `cr->Pc`, WaterHGK-JNgems.cpp:303. -/
noncomputable def Pc : ℝ := 22.046e0
/-- `cr->Pcon`, WaterHGK-JNgems.cpp:304. -/
noncomputable def Pcon : ℝ := 0.034070660379837018423130834983e0
/-- `cr->Ucon`, WaterHGK-JNgems.cpp:305. -/
noncomputable def Ucon : ℝ := 22046.0e0
/-- `cr->Scon`, WaterHGK-JNgems.cpp:306. -/
noncomputable def Scon : ℝ := 0.034070660379837018423130834983e3
/-- `cr->dPcon`, WaterHGK-JNgems.cpp:307. -/
noncomputable def dPcon : ℝ := 0.000000327018783663660700780197e0
/-- `co_.x[3]` and `co_.x[4]`, the bounds of the density, WaterHGK-JNgems.cpp:331. -/
noncomputable def Dmin : ℝ := 1.997750e2
@[inherit_doc Dmin] noncomputable def Dmax : ℝ := 4.200400e2

/-- The two terms of the sums: amplitudes `a[6]`, `a[11]`, WaterHGK-JNgems.cpp:1314-1315. -/
noncomputable def xk (i : ℕ) : ℝ := if i = 0 then el coA 6 else el coA 11
/-- The exponents alpha, `q[9]` and `q[14]`, WaterHGK-JNgems.cpp:1316-1317. -/
noncomputable def cal (i : ℕ) : ℝ := if i = 0 then el coQ 9 else el coQ 14
/-- The exponents beta, `a[5]` and `q[15]`, WaterHGK-JNgems.cpp:1318-1319. -/
noncomputable def cbe (i : ℕ) : ℝ := if i = 0 then el coA 5 else el coQ 15
/-- The coefficients `s00`, `s01`, WaterHGK-JNgems.cpp:1947-1949. -/
noncomputable def s0c (i : ℕ) : ℝ := if i = 0 then el coA 16 else el coA 18
/-- The coefficients `s20`, `s21`, WaterHGK-JNgems.cpp:1948-1950. -/
noncomputable def s2c (i : ℕ) : ℝ := if i = 0 then el coA 17 else el coA 19
/-- `besq`, `aa`, `cc`, `delta`, `pw11`: `a[8]`, `a[9]`, `a[0]`, `a[10]`, `q[8]`, WaterHGK-JNgems.cpp:1802-1817. -/
noncomputable def besq : ℝ := el coA 8
@[inherit_doc besq] noncomputable def aa : ℝ := el coA 9
@[inherit_doc besq] noncomputable def cc : ℝ := el coA 0
@[inherit_doc besq] noncomputable def delta : ℝ := el coA 10
@[inherit_doc besq] noncomputable def pw11 : ℝ := el coQ 8

/-- The members of the class that the functions below read and write: `par`, `a2`, `dv`, `d2`, `sa`, `a1.dPdTcd`, WaterHGK-JNgems.h:95-190.  `dv.sd` and `a1.dPdM`, which
nothing reads before writing, and the constant `dv.xk` are left out. -/
structure Mem where
  r1 : ℝ
  th1 : ℝ
  r : ℝ
  th : ℝ
  amu : ℝ
  s0 : ℝ
  s1 : ℝ
  Pw : ℝ
  Tw : ℝ
  dTw : ℝ
  dM0dT : ℝ
  dP0dT : ℝ
  d2PdM2 : ℝ
  d2PdMT : ℝ
  d2PdT2 : ℝ
  p0th : ℝ
  p1th : ℝ
  dPdD : ℝ
  dPdT : ℝ
  iphase : ℕ
  Dliq : ℝ
  Dvap : ℝ
  DH2O : ℝ
  dPdTcd : ℝ

/-- The members after the `memset`s, WaterHGK-JNgems.cpp:436-452. -/
def Mem.zero : Mem := ⟨0, 0, 0, 0, 0, 0, 0, 0, 0, 0, 0, 0, 0, 0, 0, 0, 0, 0, 0, 0, 0, 0, 0, 0⟩

/-- The polynomials `sx[i]` of `ss`, WaterHGK-JNgems.cpp:1953-1955. -/
noncomputable def sx (i : ℕ) (th : ℝ) : ℝ := s0c i + s2c i * (th * th)

/-- `ss`, WaterHGK-JNgems.cpp:1931-1964. -/
noncomputable def ssAt (i : ℕ) (r th : ℝ) : ℝ := sx i th * aa * xk i * r ^ (1 - cal i)

/-- `ss` called with the current `par`, storing into `dv.s`, e.g. WaterHGK-JNgems.cpp:1834. -/
noncomputable def Mem.ss (m : Mem) : Mem := { m with s0 := ssAt 0 m.r1 m.th1, s1 := ssAt 1 m.r1 m.th1 }

/-- The iteration of `rtheta`, WaterHGK-JNgems.cpp:1999-2008: the root found within the given number of rounds, if any. -/
noncomputable def rthLoop (c : ℝ) : ℕ → ℝ → Option ℝ
  | 0, _ => none
  | n + 1, z =>
    let z2 := z * z
    let z3 := 1 - z2
    let dz := z3 * (z + c * |z3| ^ (cbe 0)) / (z3 + 2 * cbe 0 * z2)
    let z' := z - dz
    if |dz / z'| < 1.0e-12 then some z' else rthLoop c n z'

/-- `rtheta`, WaterHGK-JNgems.cpp:1970-2039, on `par`: the pair (r, theta).  The guard of line 1978 (`em`, `besq`) is false for the constants. -/
noncomputable def rtheta (par : ℝ × ℝ) (rho Tee : ℝ) : ℝ × ℝ :=
  let bee := Real.sqrt besq
  let m496 : ℝ × ℝ := (|Tee / (1 - besq)|, rho / |rho|)
  let m601 : ℝ × ℝ := (par.1, if |par.2| > 1.0001 then par.2 / |par.2| else par.2)
  if |rho| < 1.0e-12 then
    if |Tee| < 1.0e-12 then m601 else if Tee < 0 then m496 else (Tee, 1.0e-12)
  else if |Tee| < 1.0e-12 then
    let th := rho / |rho| / bee
    ((rho / (xk 0 * th)) ^ (1 / cbe 0), th)
  else
    let z := if Tee < 0 then 1 - (1 - bee) * Tee / (1 - besq) * (xk 0 / |rho|) ^ (1 / cbe 0)
      else (1 + Tee * (xk 0 / bee / |rho|) ^ (1 / cbe 0)) ^ (-cbe 0)
    if z > 1.00234 * bee then m496
    else
      let c := -rho * bee / xk 0 / |Tee| ^ (cbe 0)
      match rthLoop c 16 (z * rho / |rho|) with
      | some z => (|Tee / (1 - z * z)|, z / bee)
      | none => m601

/-- One pass of `conver`, WaterHGK-JNgems.cpp:1860-1869, 1880-1888, 1907-1917: `rtheta` for the density `den`, then `amu`, `y1`, `ss`, `rhoweg` and the error that is left.
Returns the members, `y1`, `rhoweg` and the error. -/
noncomputable def pass (m : Mem) (rho rhodi dtstin y1 den : ℝ) : Mem × ℝ × ℝ × ℝ :=
  let p := rtheta (m.r1, m.th1) den y1
  let m : Mem := { m with r1 := p.1, th1 := p.2, amu := aa * p.1 ^ (cbe 0 * delta) * p.2 * (1 - p.2 * p.2) }
  let y1 := dtstin + cc * m.amu
  let m := m.ss
  let rhoweg := xk 1 * m.r1 ^ (cbe 1) * m.th1 + cc * m.s1
  (m, y1, rhoweg, rho - rhodi - (den + cc * m.s0 + rhoweg))

/-- `a2.r = par.r1; a2.th = par.th1`, e.g. WaterHGK-JNgems.cpp:1871-1872. -/
noncomputable def Mem.keep (m : Mem) : Mem := { m with r := m.r1, th := m.th1 }

/-- The further passes of `conver`, WaterHGK-JNgems.cpp:1901-1925. -/
noncomputable def convLoop (rho rhodi dtstin : ℝ) : ℕ → Mem → ℝ → ℝ → ℝ → ℝ → ℝ → Mem
  | 0, m, _, _, _, _, _ => m
  | n + 1, m, y1, den1, den2, e1, e2 =>
    let slope := (e2 - e1) / (den2 - den1)
    let hold := den2
    let den2 := den1 - e1 / slope
    let q := pass m rho rhodi dtstin y1 den2
    let m := q.1.keep
    if |q.2.2.2| < 1.0e-6 then m else convLoop rho rhodi dtstin n m q.2.1 hold den2 e2 q.2.2.2

/-- `conver`, WaterHGK-JNgems.cpp:1793-1926: the members and `*rhodi`. -/
noncomputable def conver (m : Mem) (rho Tee : ℝ) : Mem × ℝ :=
  let dtstin := 1 - 1 / (Tee + 1)
  let m : Mem := if dtstin ≤ 0 then { m with r1 := dtstin / (1 - besq), th1 := 1 } else { m with r1 := dtstin, th1 := 0 }
  let m := m.ss
  let rhodi := 1 + pw11 * dtstin
  let rhodit := rhodi + cc * m.s0 + cc * m.s1
  let drho := rho - rhodit
  let m : Mem := { m with amu := 0 }
  if dtstin ≤ 0 ∧ |drho| ≤ xk 0 * m.r1 ^ (cbe 0) + xk 1 * m.r1 ^ (cbe 1) then
    -- `par.th1 = drho * fabs(drho)` (1844), where the sign of `drho` is meant
    (Mem.keep { m with th1 := drho * |drho| }, rhodi)
  else
    let m : Mem := if drho = 0 then { m with th1 := 0, r1 := dtstin } else m
    let den1 := rho - rhodit
    let q := pass m rho rhodi dtstin dtstin den1
    let m := q.1.keep
    if |q.2.2.2| < 1.0e-5 then (m, rhodi)
    else
      let den12 := rho - rhodi - cc * m.s1 + q.2.2.1
      let den12 := if den12 = den1 then den1 - 1.0e-6 else den12
      let q2 := pass m rho rhodi dtstin q.2.1 den12
      if |q2.2.2.2| ≤ 1.0e-5 then (q2.1.keep, rhodi)
      else (convLoop rho rhodi dtstin 10 q2.1 q2.2.1 den1 den12 q.2.2.2 q2.2.2.2, rhodi)

/-- The term `i` of the sums `ww`, `yy`, `zz` of `aux`, WaterHGK-JNgems.cpp:763-779; 0 when `r1` is 0. -/
noncomputable def auxTerm (r1 th1 : ℝ) (i : ℕ) : ℝ × ℝ × ℝ :=
  let deli : ℝ := if i = 0 then 0 else 0.5
  let alhi := cal 0 - deli
  let beti := cbe 0 + deli
  let gami := cbe 0 * (delta - 1) - deli
  let tt1 := th1 * th1
  let ter := 2 * cbe 0 * delta - 1
  let g := 1 + (besq * ter - 3) * tt1 - besq * (ter - 2) * tt1 * tt1
  if r1 = 0 then (0, 0, 0)
  else
    (((1 - alhi) * (1 - 3 * tt1) * (s0c i + s2c i * th1 * th1) - cbe 0 * delta * (1 - tt1) * th1 * (2 * th1 * s2c i)) * r1 ^ (-alhi) / g * xk i,
     (beti * (1 - 3 * tt1) * th1 - cbe 0 * delta * (1 - tt1) * th1) * r1 ^ (beti - 1) * xk i / g,
     (1 - besq * (1 - 2 * beti) * tt1) * r1 ^ (-gami) * xk i / g)

/-- `aux`, WaterHGK-JNgems.cpp:730-796, storing into `dv`; `Cvcoex`, a local copy there, is left out. -/
noncomputable def Mem.aux (m : Mem) (r1 th1 : ℝ) : Mem :=
  let a := auxTerm r1 th1 0
  let b := auxTerm r1 th1 1
  let ww := 0 + a.1 + b.1
  let yy := 0 + a.2.1 + b.2.1
  let zz := 0 + a.2.2 + b.2.2
  { m with d2PdT2 := aa * ww, d2PdMT := yy + aa * cc * ww, d2PdM2 := zz / aa + 2 * cc * yy + cc * cc * aa * ww }

/-- `dv.dP0dT`, WaterHGK-JNgems.cpp:713. -/
noncomputable def dP0 (dTw : ℝ) : ℝ := el coA 4 + dTw * (2 * el coA 3 + 3 * el coA 1 * dTw)

/-- `dv.dM0dT`, WaterHGK-JNgems.cpp:714. -/
noncomputable def dM0 (dTw : ℝ) : ℝ := el coA 13 + dTw * (2 * el coA 14 + 3 * el coA 15 * dTw)

/-- The regular part `Pw0` of the pressure, WaterHGK-JNgems.cpp:697. -/
noncomputable def Pw0 (dTw : ℝ) : ℝ := 1 + dTw * (el coA 4 + dTw * (el coA 3 + dTw * el coA 1))

/-- The coefficient `p0th` or `p1th`, WaterHGK-JNgems.cpp:702-703. -/
noncomputable def pth (i : ℕ) (th : ℝ) : ℝ :=
  let tt1 := th * th
  if i = 0 then el coQ 10 + el coQ 11 * tt1 + el coQ 12 * (tt1 * tt1) else el coQ 17 + el coQ 18 * tt1 + el coQ 19 * (tt1 * tt1)

/-- The singular part `dPw` of the pressure, WaterHGK-JNgems.cpp:704-706. -/
noncomputable def dPwOf (r th : ℝ) : ℝ := aa * (xk 0 * pth 0 th * r ^ (2 - cal 0) + xk 1 * pth 1 th * r ^ (2 - cal 1))

/-- The scaled density for a direction `theta` on the coexistence curve, WaterHGK-JNgems.cpp:688-690, 1222-1224. -/
noncomputable def rhoOf (m : Mem) : ℝ :=
  m.th1 * (xk 0 * m.r1 ^ (cbe 0) + xk 1 * m.r1 ^ (cbe 1)) + cc * (m.s0 + m.s1) + (1 + pw11 * m.dTw)

/-- `Pfind`, WaterHGK-JNgems.cpp:637-726: the members and the pressure in MPa. -/
noncomputable def Pfind (m : Mem) (isat : Bool) (T DD : ℝ) : Mem × ℝ :=
  let T := if |T - Tc| < 1.0e-7 then Tc else T
  let Tee := (T - Tc) / Tc
  let m : Mem := { m with Tw := -Tc / T, dTw := 1 + -Tc / T }
  let q : Mem × ℝ × ℝ × ℝ :=
    if isat = false then
      let c := conver m (DD / rhoC) Tee
      (c.1, c.2, DD / rhoC, DD)
    else
      let m : Mem := { m with th1 := -1, th := -1, r1 := m.dTw / (1 - besq), r := m.dTw / (1 - besq) }
      let m := m.ss
      ({ m with amu := 0 }, 0, rhoOf m, rhoOf m * rhoC)
  let m := q.1
  let Pwmu := if isat = false then m.amu * q.2.1 else 0
  let m : Mem := { m with p0th := pth 0 m.th1, p1th := pth 1 m.th1, Pw := Pw0 m.dTw + Pwmu + dPwOf m.r1 m.th1 }
  let P := m.Pw * Pcon * T
  let m : Mem :=
    if |m.th1| < 1 then { m with iphase := 1 }
    else
      let rho := q.2.2.1
      let Uw := dP0 m.dTw - rho * dM0 m.dTw + pw11 * m.amu + m.s0 + m.s1
      { m with iphase := 2, dP0dT := dP0 m.dTw, dM0dT := dM0 m.dTw, dPdT := Pcon * (m.Pw - m.Tw * (Uw + rho * dM0 m.dTw)) }
  let m := m.aux m.r1 m.th1
  ((if m.iphase = 1 then { m with dPdD := dPcon * q.2.2.2 * T / m.d2PdM2 } else m), P)

/-- The loop of `denLVS` for a given pressure, WaterHGK-JNgems.cpp:824-852: at most 20 rounds; the second component tells whether the tolerance was reached. -/
noncomputable def denLoop (T P : ℝ) : ℕ → Mem → Mem × Bool
  | 0, m => (m, false)
  | n + 1, m =>
    let q := Pfind m false T m.DH2O
    let m := q.1
    let Pdif := q.2 - P
    if m.iphase = 2 then
      if |Pdif| ≤ 0 then (m, true)
      else denLoop T P n { m with DH2O := if Pdif < 0 then Dmax else Dmin }
    else
      let delD := -Pdif / m.dPdD
      let d := m.DH2O + delD
      let d := if d < Dmin then Dmin else d
      let d := if d > Dmax then Dmax else d
      let m : Mem := { m with DH2O := d }
      if |delD / d| < 1.0e-6 then (m, true) else denLoop T P n m

/-- `denLVS` for a given pressure (`isat` 0), WaterHGK-JNgems.cpp:821-853. -/
noncomputable def den0 (m : Mem) (T P : ℝ) : Mem × Bool := denLoop T P 20 { m with DH2O := rhoC }

/-- `denLVS` at saturation (`isat` 1), WaterHGK-JNgems.cpp:854-864. -/
noncomputable def den1 (m : Mem) (T : ℝ) : Mem :=
  let dTw := 1 + -Tc / T
  let m := m.ss
  let rho1 := 1 + pw11 * dTw + cc * (m.s0 + m.s1)
  let rho2 := xk 0 * m.r1 ^ (cbe 0) + xk 1 * m.r1 ^ (cbe 1)
  { m with Dvap := rhoC * (rho1 - rho2), Dliq := rhoC * (rho1 + rho2) }

/-- The loop of `TsLVS`, WaterHGK-JNgems.cpp:1094-1102.  `fuel` bounds the rounds followed here; the program has no bound, and its condition `++i > 20 || ...` keeps the loop
going for ever from the 21st round on.  `none`: not ended; the inner `none`: a division by a slope `dPdT` of 0, by which the program leaves the loop with an infinity or
not-a-number (with the clamp at `Tc`, after one more round). -/
noncomputable def tsLoop (isat : Bool) (P : ℝ) : ℕ → ℕ → Mem → ℝ → Option (Mem × Option ℝ)
  | 0, _, _, _ => none
  | fuel + 1, i, m, T =>
    let q := Pfind m isat T rhoC
    let m := q.1
    if m.dPdT = 0 then some (m, none)
    else
      let dT := (q.2 - P) / m.dPdT
      let T := T - dT
      let T := if T > Tc then Tc else T
      let i := i + 1
      if i > 20 ∨ |dT / T| > 1.0e-8 then tsLoop isat P fuel i m T else some (m, some T)

/-- `TsLVS`, WaterHGK-JNgems.cpp:1088-1105. -/
noncomputable def TsLVS (fuel : ℕ) (m : Mem) (isat : Bool) (P : ℝ) : Option (Mem × Option ℝ) := tsLoop isat P fuel 0 m (Tc - 1.0e0)

/-- `backup` before and `restor` after a saturation check, WaterHGK-JNgems.cpp:1109-1155: `now` with the saved members of `old`. -/
def Mem.restor (now old : Mem) : Mem :=
  { now with iphase := old.iphase, r1 := old.r1, th1 := old.th1, amu := old.amu, s0 := old.s0, s1 := old.s1, Pw := old.Pw, Tw := old.Tw, dTw := old.dTw
             dM0dT := old.dM0dT, dP0dT := old.dP0dT, d2PdM2 := old.d2PdM2, d2PdMT := old.d2PdMT, d2PdT2 := old.d2PdT2, p0th := old.p0th, p1th := old.p1th
             dPdD := old.dPdD }

/-- What `thmLVS` puts into `th` (without `heat`, which nothing reads). -/
structure Therm where
  AE : ℝ
  GE : ℝ
  U : ℝ
  H : ℝ
  Entrop : ℝ
  Cp : ℝ
  Cv : ℝ
  betaw : ℝ
  alphw : ℝ
  Speed : ℝ

/-- `thmLVS`, WaterHGK-JNgems.cpp:1193-1277, called with the current `par`. -/
noncomputable def thmLVS (m : Mem) (isat : Bool) (T : ℝ) : Mem × Therm :=
  let d2P0dT := 2 * el coA 3 + 6 * el coA 1 * m.dTw
  let d2M0dT := 2 * el coA 14 + 6 * el coA 15 * m.dTw
  let m : Mem := { m with dP0dT := dP0 m.dTw, dM0dT := dM0 m.dTw }
  let rho := if isat = false then m.DH2O / rhoC else rhoOf m
  let Uw := m.dP0dT - rho * m.dM0dT + pw11 * m.amu + m.s0 + m.s1
  let m : Mem := if isat = false then m else
    let m : Mem := { m with DH2O := rho * rhoC }
    let m := m.ss
    let m := m.aux m.r1 m.th1
    if m.r1 ≠ 0 then { m with dPdD := dPcon * m.DH2O * T / m.d2PdM2 } else m
  let m : Mem := if m.r1 ≠ 0 then
      { m with dPdTcd := m.dP0dT + pw11 * (m.amu - rho / m.d2PdM2) + m.s0 + m.s1 - m.d2PdMT * rho / m.d2PdM2 }
    else m
  let dPwdTw := m.Pw - m.Tw * m.dPdTcd
  let CviTw2 := d2P0dT - rho * d2M0dT + m.d2PdT2 - (pw11 + m.d2PdMT) * (pw11 + m.d2PdMT) / m.d2PdM2
  let Cvw := if m.r1 ≠ 0 then CviTw2 * m.Tw * m.Tw else 1
  let Cpw := if m.r1 ≠ 0 then Cvw + m.d2PdM2 * dPwdTw * dPwdTw / (rho * rho) else 1
  let betaw := if m.r1 ≠ 0 then 1 / (m.DH2O * m.dPdD) else 1
  let alphw := if m.r1 ≠ 0 then betaw * (Pcon * dPwdTw) else 1
  let Speed := if m.r1 ≠ 0 then 1.0e3 * Real.sqrt (Cpw / Cvw * m.dPdD) else 0
  let Hw := m.Pw - m.Tw * Uw
  let Sw := Hw - rho * (m.amu + el coA 12 + m.dTw * (el coA 13 + m.dTw * (el coA 14 + m.dTw * el coA 15)))
  let Scond := Scon / m.DH2O
  let U := Uw * Ucon / m.DH2O
  let H := Hw * Scond * T
  let Entrop := Sw * Scond
  (m, { U := U, H := H, Entrop := Entrop, AE := U - T * Entrop, GE := H - T * Entrop, Cv := Cvw * Scond, Cp := Cpw * Scond, betaw := betaw, alphw := alphw, Speed := Speed })

/-- `dalLVS`, WaterHGK-JNgems.cpp:1284-1434: (d alpha/dT)_P from `a2`, `dv` and `a1`.  In the exponents of lines 1414 and 1418 the factor `drdT` stands inside the call of
`pow`. -/
noncomputable def dalLVS (m : Mem) (D T P alpha : ℝ) : ℝ :=
  if m.r = 0 then 1.0e6
  else
    let a := aa
    let c := cc
    let cga (i : ℕ) : ℝ := if i = 0 then cbe 0 * (delta - 1) else cbe 0 * (delta - 1) - el coQ 13
    let delT := (T - Tc) / T
    let th := m.th
    let r := m.r
    let s (i : ℕ) : ℝ := s0c i + s2c i * th ^ 2
    let sp (i : ℕ) : ℝ := 2 * s2c i * th
    let b1 := -D / rhoC * alpha - pw11 * Tc / T / T
    let b2 := Tc / T ^ 2
    let ar1i (i : ℕ) : ℝ := xk i * (cbe i * th * r ^ (cbe i - 1) + a * c * (1 - cal i) * r ^ (-cal i) * s i)
    let a01i (i : ℕ) : ℝ := xk i * (r ^ (cbe i) + a * c * sp i * r ^ (1 - cal i))
    let ar1 := 0 + ar1i 0 + ar1i 1
    let a01 := 0 + a01i 0 + a01i 1
    let ar2 := 1 - besq * th ^ 2 - a * c * cbe 0 * delta * (1 - th ^ 2) * th * r ^ (cbe 0 * delta - 1)
    let a02 := 3 * a * c * th ^ 2 * r ^ (cbe 0 * delta) - 2 * besq * r * th - a * c * r ^ (cbe 0 * delta)
    let d0dT := if |ar1| > |ar2| then (b2 + -ar2 / ar1 * b1) / (a02 + -ar2 / ar1 * a01) else (b1 + -ar1 / ar2 * b2) / (a01 + -ar1 / ar2 * a02)
    let drdT := if |ar1| > |ar2| then (b1 - a01 * d0dT) / ar1 else (b2 - a02 * d0dT) / ar2
    let dsdT (i : ℕ) : ℝ := 2 * s2c i * th * d0dT
    let dspdT (i : ℕ) : ℝ := 2 * s2c i * d0dT
    let q := 1 + (besq * (2 * cbe 0 * delta - 1) - 3) * th ^ 2 - besq * (2 * cbe 0 * delta - 3) * th ^ 4
    let dqdT := 2 * (besq * (2 * cbe 0 * delta - 1) - 3) * th * d0dT - 4 * besq * (2 * cbe 0 * delta - 3) * th ^ 3 * d0dT
    let u (i : ℕ) : ℝ := (1 - besq * (1 - 2 * cbe i) * th ^ 2) / q
    let dudT (i : ℕ) : ℝ := (-2 * besq * (1 - 2 * cbe i) * th * d0dT - u i * dqdT) / q
    let v (i : ℕ) : ℝ := ((cbe i - cbe 0 * delta) * th + (cbe 0 * delta - 3 * cbe i) * th ^ 3) / q
    let dvdT (i : ℕ) : ℝ := ((cbe i - cbe 0 * delta) * d0dT + 3 * (cbe 0 * delta - 3 * cbe i) * th ^ 2 * d0dT - v i * dqdT) / q
    let w (i : ℕ) : ℝ := ((1 - cal i) * (1 - 3 * th ^ 2) * s i - cbe 0 * delta * (th - th ^ 3) * sp i) / q
    let dwdT (i : ℕ) : ℝ := ((1 - cal i) * ((1 - 3 * th ^ 2) * dsdT i - 6 * th * s i * d0dT)
      - cbe 0 * delta * ((th - th ^ 3) * dspdT i + sp i * (d0dT - 3 * th ^ 2 * d0dT)) - w i * dqdT) / q
    let dP0dTT := Tc / T ^ 2 * (2 * el coA 3 + 6 * el coA 1 * delT)
    let ddelMT := a * r ^ (cbe 0 * delta) * (cbe 0 * delta * th / r * (1 - th ^ 2) * drdT + (1 - 3 * th ^ 2) * d0dT)
    let ti (i : ℕ) : ℝ := a * xk i * (r ^ (1 - cal i) * dsdT i + s i * (1 - cal i) * r ^ (-cal i) * drdT)
    let mmi (i : ℕ) : ℝ := xk i * ((r ^ (-cga i) * dudT i - u i * cga i * r ^ ((-1 - cga i) * drdT)) / a
      + 2 * c * (r ^ (cbe i - 1) * dvdT i + v i * (cbe i - 1) * r ^ (cbe i - 2) * drdT)
      + a * c ^ 2 * (r ^ (-cal i) * dwdT i - cal i * w i * r ^ ((-1 - cal i) * drdT)))
    let mti (i : ℕ) : ℝ := xk i * (r ^ (cbe i - 1) * dvdT i + v i * (cbe i - 1) * r ^ (cbe i - 2) * drdT
      + a * c * (r ^ (-cal i) * dwdT i - cal i * r ^ (-1 - cal i) * drdT * w i))
    let dPdTT := 0 + ti 0 + ti 1
    let dPdMMT := 0 + mmi 0 + mmi 1
    let dPdMTT := 0 + mti 0 + mti 1
    let dPPTT := dP0dTT + dPdTT + pw11 * ddelMT - D / rhoC * dPdMTT / m.d2PdM2
      + (pw11 + m.d2PdMT) * (D / rhoC * alpha / m.d2PdM2 + D / rhoC * dPdMMT / m.d2PdM2 ^ 2)
    let pterm := P / Pc + m.dPdTcd
    Tc * rhoC ^ 2 / D ^ 2 / T ^ 2 * (-2 / T * m.d2PdM2 * pterm + 2 * alpha * m.d2PdM2 * pterm + pterm * dPdMMT + m.d2PdM2 * dPPTT)

/-- `dimLVS` with `itripl` 1, WaterHGK-JNgems.cpp:1438-1499; `a2.th` is set to `theta`, which is `par.th1` in all calls. -/
noncomputable def dimLVS (tt : Triple) (m : Mem) (h : Therm) (T P : ℝ) : Mem × WProps :=
  let pbars := P * 1.0e1
  let m : Mem := { m with th := m.th1 }
  let Betaw := h.betaw / un.fp
  let Alphaw := h.alphw
  let dAldT := dalLVS m m.DH2O T (pbars / 1.0e1) Alphaw
  let CpJKkg := h.Cp * 1.0e3
  let betaPa := h.betaw / 1.0e6
  let betab := h.betaw / 1.0e1
  let dkgm3 := if |m.th1| ≠ 1 then m.DH2O else if m.th1 < 0 then m.Dvap else m.Dliq
  let b := born92 T pbars (dkgm3 / 1.0e3) betab Alphaw dAldT
  let Viscw := viscos T pbars dkgm3 betaPa * un.fvd
  let Tcondw := thcond T pbars dkgm3 Alphaw betaPa * un.fc * un.ft
  (m, triple tt T
    { A := h.AE * un.fh, G := h.GE * un.fh, S := h.Entrop * un.fh * un.ft, U := h.U * un.fh, H := h.H * un.fh
      Cv := h.Cv * un.fh * un.ft, Cp := h.Cp * un.fh * un.ft, speed := h.Speed * un.fs
      beta := Betaw, alpha := Alphaw, dAldT := dAldT, visc := Viscw, tcond := Tcondw
      surten := if |m.th1| ≠ 1 then 0 else if m.th1 < 0 then 0 else surten T * un.fst
      diel := b.eps, Z := b.Z, Q := b.Q, Y := b.Y, X := b.X
      tdiff := Tcondw / un.fc / un.ft / (dkgm3 * CpJKkg) * un.fvk
      prndtl := Viscw / un.fvd * CpJKkg / (Tcondw / un.fc / un.ft)
      visck := Viscw / un.fvd / dkgm3 * un.fvk
      albe := Alphaw / Betaw })

/-- `thmLVS` and then `dimLVS`, e.g. WaterHGK-JNgems.cpp:1561-1562. -/
noncomputable def propsLVS (tt : Triple) (m : Mem) (isat : Bool) (T P : ℝ) : Mem × WProps :=
  let a := thmLVS m isat T
  dimLVS tt a.1 a.2 T P

/-- `cpswap`, WaterHGK-JNgems.cpp:1505-1532: the new `wl` and `wr`. -/
noncomputable def cpswap (wl wr : WProps) : WProps × WProps :=
  let speed := 0.429352766443498e2 * un.fs
  ({ wl with Cv := wr.Cv, Cp := wr.Cp, alpha := wr.alpha, beta := wr.beta, Y := wr.Y, Q := wr.Q, X := wr.X, tcond := wr.tcond, tdiff := wr.tdiff
             prndtl := wr.prndtl, dAldT := wr.dAldT, albe := wr.albe, speed := speed, visc := 1.0e6, visck := 1.0e6 },
   { wr with A := wl.A, G := wl.G, S := wl.S, U := wl.U, H := wl.H, diel := wl.diel, Z := wl.Z, surten := wl.surten, speed := speed, visc := 1.0e6, visck := 1.0e6 })

/-- The variables of `LVSeqn`: the members, the arguments `TC`, `*P`, `*Dens0` and `aSta.Dens[1]`, `wl`, `wr`, the local `isat` and `iopt`, `aSpc.isat`, and the locals
`cpoint`, `cdens`, `ioptsv`, `sW`. -/
structure Reg where
  m : Mem
  T : ℝ
  P : ℝ
  dens0 : ℝ
  dens1 : ℝ
  wl : WProps
  wr : WProps
  isat : Bool
  iopt : ℕ
  spcIsat : Bool
  cpoint : Bool
  cdens : ℝ
  ioptsv : ℕ
  sW : Bool

/-- `LVSsat`, WaterHGK-JNgems.cpp:1161-1188.  `isat` is passed by value: a state found to be saturated is noted in `aSpc.isat` only.  `none` when `TsLVS` does not end, or
leaves no number for the temperature at saturation. -/
noncomputable def satLVS (fuel : ℕ) (s : Reg) : Option Reg := by
  classical exact
  let q : Mem × ℝ := if s.iopt = 1 then Pfind s.m s.isat s.T s.m.DH2O else (s.m, s.P)
  let s : Reg := { s with m := q.1, P := q.2 }
  if s.isat = true then (TsLVS fuel s.m true s.P).bind fun a => a.2.map fun T => { s with m := a.1, T := T }
  else if s.P - 1.0e-12 > Pc then some s
  else (TsLVS fuel s.m false s.P).map fun a =>
    match a.2 with
    | some Tsat => if |Tsat - s.T| < 1.0e-2 then { s with m := a.1, T := Tsat, spcIsat := true } else { s with m := a.1.restor s.m }
    | none => { s with m := a.1.restor s.m }

/-- The second half of a round of `LVSeqn` for one phase, WaterHGK-JNgems.cpp:1551-1573. -/
noncomputable def onePhase (tt : Triple) (s : Reg) : Reg :=
  let m := if s.iopt = 1 then s.m else (den0 s.m s.T s.P).1
  let a := propsLVS tt m false s.T s.P
  if s.cpoint = true then
    let c := cpswap s.wl a.2
    { s with m := a.1, wl := c.1, wr := c.2, dens0 := s.cdens, dens1 := s.cdens, isat := true, spcIsat := true, iopt := s.ioptsv }
  else { s with m := a.1, wr := a.2, dens0 := m.DH2O }

/-- The second half of a round of `LVSeqn` at saturation, WaterHGK-JNgems.cpp:1551-1594. -/
noncomputable def twoPhase (tt : Triple) (s : Reg) : Reg := by
  classical exact
  let m := den1 s.m s.T
  let s : Reg := { s with dens0 := m.Dliq, dens1 := m.Dvap }
  let a := propsLVS tt { m with th1 := -1 } true s.T s.P
  let b := propsLVS tt { a.1 with th1 := 1 } true s.T s.P
  let s : Reg := { s with m := b.1, wr := a.2, wl := b.2 }
  if b.1.Dliq = b.1.Dvap then
    { s with cpoint := true, cdens := b.1.Dliq, T := 647.067000003e0, P := 22.0460000008e0, ioptsv := s.iopt, iopt := 2, isat := false, spcIsat := false, sW := true }
  else s

/-- A round of the loop of `LVSeqn`, WaterHGK-JNgems.cpp:1548-1595. -/
noncomputable def round (tt : Triple) (fuel : ℕ) (s : Reg) : Option Reg :=
  (satLVS fuel s).map fun s => if s.isat = true then twoPhase tt s else onePhase tt s

/-- `LVSeqn`, WaterHGK-JNgems.cpp:1539-1597; `none` when it has not ended after the given number of rounds (or `TsLVS` does not, after `fuel`). -/
noncomputable def eqnLoop (tt : Triple) (fuel : ℕ) : ℕ → Reg → Option Reg
  | 0, _ => none
  | n + 1, s => (round tt fuel s).bind fun s => if s.sW = true then eqnLoop tt fuel n s else some s

/-- The members when `LVSeqn` is called: `crtreg` has called `Pfind` if the pressure is above the upper line, WaterHGK-JNgems.cpp:1032-1045. -/
noncomputable def mem0 (isat : Bool) (T P : ℝ) : Mem :=
  if isat = false ∧ ¬ P ≤ 2.15814057875264119875397458907e1 + 0.380293646126229135059562456934e0 * (T - 6.453e2) then (Pfind Mem.zero true T 0).1 else Mem.zero

/-- The variables when `LVSeqn` is entered; `P` in MPa; `*Dens0` and `Dens[1]` are 0 (427), `wl` and `wr` are 0 (436-437). -/
noncomputable def start (isat : Bool) (T P : ℝ) : Reg :=
  { m := { mem0 isat T P with DH2O := 0 }, T := T, P := P, dens0 := 0, dens1 := 0, wl := WProps.zero, wr := WProps.zero, isat := isat, iopt := if isat = true then 1 else 2
    spcIsat := isat, cpoint := false, cdens := 0, ioptsv := 0, sW := false }

/-- `calculateWaterHGKgems` in the near-critical region, WaterHGK-JNgems.cpp:475-494, 512-520 (`fd` is 1, `fp` 10): the state left behind. -/
noncomputable def finish (T : ℝ) (s : Reg) : Sta :=
  let d0 := s.dens0 / 1.0e3
  let d1 := if s.spcIsat = true then s.dens1 / 1.0e3 else s.dens1
  if T ≤ Tc then ⟨s.spcIsat, s.P * 10, d0, d1, s.wr, s.wl⟩ else ⟨s.spcIsat, s.P * 10, d0, d0, s.wr, s.wr⟩

/-- The near-critical region, the parameter `Lvs` of `Gems.calculate`: `Pfind` at saturation for `crtreg` (1038) and lines 475-494. `pSat` is passed by `calculate` in bar. -/
noncomputable def lvs (fuel : ℕ) : Lvs where
  pfind T := (Pfind Mem.zero true T 0).2
  eqn tt isat T P := (eqnLoop tt fuel fuel (start isat T P)).map (finish T)

end Crit

end Gems

end ThermoFun

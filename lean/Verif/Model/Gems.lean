import Verif.Model.HGK

/-!
Model of the Haar–Gallagher–Kell equation of state of water as programmed in /repo/ThermoFun/Substances/Solvent/WaterHGK-JNgems.cpp
(away from the critical point), with the dielectric constant of Johnson and Norton, the Born functions and the transport properties.

Only values are computed by that file (`double`); they are real numbers here.  The functions of the file communicate through members
(`a1`, `ac`, `el`, `qq`, `res`, `ba`, `id`, `fct`, `wr`, `wl`) and global tables; here the results are returned.  `a1.rt` is always
`gascon * Temp` when it is read (1720, 911, 935, 2086).
-/

namespace ThermoFun

namespace Gems

open WP (el)
open HGK (eli)

/-- `ac->gascon`, WaterHGK-JNgems.cpp:228-230. -/
noncomputable def gascon : ℝ := 0.46152200e0

/-- `ac->tz`, WaterHGK-JNgems.cpp:228-230. -/
noncomputable def tz : ℝ := 0.647073e3

/-- `ac->aa`, WaterHGK-JNgems.cpp:228-230. -/
noncomputable def aa : ℝ := 0.1e1

/-- `ac->uref`, WaterHGK-JNgems.cpp:228-230. -/
noncomputable def uref : ℝ := -0.4328455039e4

/-- `ac->sref`, WaterHGK-JNgems.cpp:228-230. -/
noncomputable def sref : ℝ := 0.76180802e1

/-- `nc->g`, WaterHGK-JNgems.cpp:233-246. -/
def g : List ℚ :=
  [-0.53062968529023e3, 0.22744901424408e4, 0.78779333020687e3,
    -0.69830527374994e2, 0.17863832875422e5, -0.39514731563338e5,
    0.33803884280753e5, -0.13855050202703e5, -0.25637436613260e6,
    0.48212575981415e6, -0.34183016969660e6, 0.12223156417448e6,
    0.11797433655832e7, -0.21734810110373e7, 0.10829952168620e7,
    -0.25441998064049e6, -0.31377774947767e7, 0.52911910757704e7,
    -0.13802577177877e7, -0.25109914369001e6, 0.46561826115608e7,
    -0.72752773275387e7, 0.41774246148294e6, 0.14016358244614e7,
    -0.31555231392127e7, 0.47929666384584e7, 0.40912664781209e6,
    -0.13626369388386e7, 0.69625220862664e6, -0.10834900096447e7,
    -0.22722827401688e6, 0.38365486000660e6, 0.68833257944332e4,
    0.21757245522644e5, -0.26627944829770e4, -0.70730418082074e5,
    -0.22500000000000e0, -0.16800000000000e1, 0.5500000000000e-1,
    -0.93000000000000e2]

/-- `nc->ii`, WaterHGK-JNgems.cpp:247-249. -/
def ii : List ℤ :=
  [0, 0, 0, 0, 1, 1, 1, 1, 2, 2, 2, 2, 3, 3, 3, 3,
    4, 4, 4, 4, 5, 5, 5, 5, 6, 6, 6, 6, 8, 8, 8, 8,
    2, 2, 0, 4, 2, 2, 2, 4]

/-- `nc->jj`, WaterHGK-JNgems.cpp:250-252. -/
def jj : List ℤ :=
  [2, 3, 5, 7, 2, 3, 5, 7, 2, 3, 5, 7, 2, 3, 5, 7,
    2, 3, 5, 7, 2, 3, 5, 7, 2, 3, 5, 7, 2, 3, 5, 7,
    1, 4, 4, 4, 0, 2, 0, 0]

/-- `el->g1`, WaterHGK-JNgems.cpp:255-256. -/
noncomputable def g1 : ℝ := 0.11e2

/-- `el->g2`, WaterHGK-JNgems.cpp:255-256. -/
noncomputable def g2 : ℝ := 0.44333333333333e2

/-- `el->gf`, WaterHGK-JNgems.cpp:255-256. -/
noncomputable def gf : ℝ := 0.35e1

/-- `bcn->bp`, WaterHGK-JNgems.cpp:259-260. -/
def bp : List ℚ := [0.7478629e0, -0.3540782e0, 0.0e0, 0.0, 0.7159876e-2, 0.0e0, -0.3528426e-2, 0.0e0, 0.0, 0.0]

/-- `bcn->bq`, WaterHGK-JNgems.cpp:261-262. -/
def bq : List ℚ := [0.11278334e1, 0.0e0, -0.5944001e0, -0.5010996e1, 0.0e0, 0.63684256e0, 0.0e0, 0.0, 0.0, 0.0]

/-- `ad->atz`, WaterHGK-JNgems.cpp:265. -/
def atz : List ℚ := [0.64e3, 0.64e3, 0.6416e3, 0.27e3]

/-- `ad->adz`, WaterHGK-JNgems.cpp:266. -/
def adz : List ℚ := [0.319e0, 0.319e0, 0.319e0, 0.155e1]

/-- `ad->aat`, WaterHGK-JNgems.cpp:267. -/
def aat : List ℚ := [0.2e5, 0.2e5, 0.4e5, 0.25e2]

/-- `ad->aad`, WaterHGK-JNgems.cpp:268. -/
def aad : List ℚ := [0.34e2, 0.4e2, 0.3e2, 0.105e4]

/-- `to->EXPTOL`, WaterHGK-JNgems.cpp:273-274. -/
noncomputable def EXPTOL : ℝ := -673.5e0

/-! ### The base function -/

/-- `el`, the members set by `bb` (ELLCON, WaterHGK-JNgems.h). -/
structure Ell where
  b1 : ℝ
  b2 : ℝ
  b1t : ℝ
  b2t : ℝ
  b1tt : ℝ
  b2tt : ℝ

/-- The loop of `bb`, WaterHGK-JNgems.cpp:2188-2196, for one `i`; `v` is the array element `v[i-1]`. -/
noncomputable def bbStep (t : ℝ) (e : Ell) (i : ℕ) : Ell :=
  let v := (tz / t) ^ (i - 1)
  { b1 := e.b1 + el bp i * v
    b2 := e.b2 + el bq i * v
    b1t := e.b1t - ((i : ℝ) - 1) * el bp i * v / t
    b2t := e.b2t - ((i : ℝ) - 1) * el bq i * v / t
    b1tt := e.b1tt + el bp i * ((i : ℝ) - 1) * ((i : ℝ) - 1) * v / t / t
    b2tt := e.b2tt + el bq i * ((i : ℝ) - 1) * ((i : ℝ) - 1) * v / t / t }

/-- `bb`, WaterHGK-JNgems.cpp:2172-2199.  The array `v` holds the powers of `tz / t` (2177-2180). -/
noncomputable def bb (t : ℝ) : Ell :=
  let v1 := tz / t
  let e := ((List.range 8).map (· + 2)).foldl (bbStep t)
    { b1 := el bp 0 + el bp 1 * Real.log (1 / v1), b2 := el bq 0, b1t := el bp 1 * v1 / tz, b2t := 0, b1tt := 0, b2tt := 0 }
  { e with b1tt := e.b1tt - e.b1t / t, b2tt := e.b2tt - e.b2t / t }

/-- `ba` with `ac->yb`, `ac->zb`, `ac->dzb`: the members set by `base` (BASEF, ACONST, WaterHGK-JNgems.h). -/
structure BaseF where
  yb : ℝ
  zb : ℝ
  dzb : ℝ
  ab : ℝ
  ub : ℝ
  sb : ℝ
  cvb : ℝ
  dpdtb : ℝ

/-- `base`, WaterHGK-JNgems.cpp:2615-2641; `ba.pb` is `ac->zb`; `ba.gb` and `ba.hb` are not read. -/
noncomputable def base (e : Ell) (t d : ℝ) : BaseF :=
  let yb := 0.25e0 * e.b1 * d
  let x := 1 - yb
  let z0 := (1 + g1 * yb + g2 * yb * yb) / (x * x * x)
  let zb := z0 + 4 * yb * (e.b2 / e.b1 - gf)
  let dz0 := (g1 + 2 * g2 * yb) / (x * x * x) + 3 * (1 + g1 * yb + g2 * yb * yb) / (x * x * x * x)
  let dzb := dz0 + 4 * (e.b2 / e.b1 - gf)
  let ab := -Real.log x - (g2 - 1) / x + 28.16666667e0 / x / x + 4 * yb * (e.b2 / e.b1 - gf) + 15.166666667e0 +
    Real.log (d * t * gascon / 0.101325e0)
  let ub := -t * e.b1t * (zb - 1 - d * e.b2) / e.b1 - d * t * e.b2t
  let bb2tt := t * t * e.b2tt
  { yb := yb, zb := zb, dzb := dzb, ab := ab, ub := ub, sb := ub - ab
    cvb := 2 * ub + (z0 - 1) * (((t * e.b1t / e.b1) * (t * e.b1t / e.b1)) - t * t * e.b1tt / e.b1) -
      d * (bb2tt - gf * e.b1tt * t * t) - (t * e.b1t / e.b1) * (t * e.b1t / e.b1) * yb * dz0
    dpdtb := zb / t + d * (dzb * e.b1t / 4 + e.b2t - e.b2 / e.b1 * e.b1t) }

/-! ### The residual function -/

/-- The sums of `resid`: `qq.q0`, `qq.q5`, `res.ar`, `dadt`, `res.dpdtr`, `res.cvr`, `qp` (of the second loop) and `q2a`. -/
structure RAcc where
  q0 : ℝ
  q5 : ℝ
  ar : ℝ
  dadt : ℝ
  dpdtr : ℝ
  cvr : ℝ
  qp : ℝ
  q2a : ℝ

/-- The first loop of `resid`, WaterHGK-JNgems.cpp:2541-2560, for one `i`.  `qr[m]` is `q10 * q20 ^ (m-1)` and `qt[m]` is `v ^ (m-1)`
(2524-2544), which the arrays hold as products. -/
noncomputable def residStep (t d : ℝ) (s : RAcc) (i : ℕ) : RAcc :=
  let rt := gascon * t
  let e := Real.exp (-aa * d)
  let q10 := d * d * e
  let q20 := 1 - e
  let v := tz / t
  let k := eli ii i + 1
  let l := eli jj i
  let qp := el g i * aa * (q10 * q20 ^ (k - 1)) * v ^ (l - 1)
  let dfdt := q20 ^ k * (1 - l) * v ^ l / tz / k
  let d2f := l * dfdt
  let dpt := dfdt * q10 * aa * k / q20
  { s with
    q0 := s.q0 + qp
    q5 := s.q5 + aa * (2 / d - aa * (1 - e * (k - 1) / q20)) * qp
    ar := s.ar + el g i * (q10 * q20 ^ k) * v ^ (l - 1) / q10 / k / rt
    dadt := s.dadt + el g i * dfdt
    dpdtr := s.dpdtr + el g i * dpt
    cvr := s.cvr + el g i * d2f / gascon }

/-- `del` with its limit, WaterHGK-JNgems.cpp:2571-2573 and 2957-2960. -/
noncomputable def delOf (d ddz : ℝ) : ℝ :=
  let del := d / ddz - 1
  if |del| < 1.0e-10 then 1.0e-10 else del

/-- `exp(ex1)` with the lower limit of the argument, WaterHGK-JNgems.cpp:2574-2579 and 2962-2965. -/
noncomputable def cutLt (ex : ℝ) : ℝ := if ex < EXPTOL then 0 else Real.exp ex

/-- `exp(ex2)` with the lower limit of the argument, WaterHGK-JNgems.cpp:2581-2589 and 2967-2970. -/
noncomputable def cutLe (ex : ℝ) : ℝ := if ex ≤ EXPTOL then 0 else Real.exp ex

/-- The second loop of `resid`, WaterHGK-JNgems.cpp:2564-2604, for one `j` (here counted from 0: `j - 36`). -/
noncomputable def residExtra (t d : ℝ) (s : RAcc) (j : ℕ) : RAcc :=
  if el g (j + 36) = 0 then s else
  let rt := gascon * t
  let k := eli ii (j + 36)
  let km := eli jj (j + 36)
  let ddz := el adz j
  let del := delOf d ddz
  let ex1 := -el aad j * del ^ k
  let dex := cutLt ex1 * del ^ km
  let att := el aat j
  let tx := el atz j
  let tau := t / tx - 1
  let ex2 := -att * tau * tau
  let tex := cutLe ex2
  let q10 := dex * tex
  let qm := km / del - k * el aad j * del ^ (k - 1)
  let fct := qm * d * d * q10 / ddz
  let q5t := fct * (2 / d + qm / ddz) - (d / ddz) * (d / ddz) * q10 * (km / del / del + k * (k - 1) * el aad j * del ^ (k - 2))
  { s with
    q5 := s.q5 + q5t * el g (j + 36)
    qp := s.qp + el g (j + 36) * fct
    dadt := s.dadt - 2 * el g (j + 36) * att * tau * q10 / tx
    dpdtr := s.dpdtr - 2 * el g (j + 36) * att * tau * fct / tx
    q2a := s.q2a + t * el g (j + 36) * (4 * att * ex2 + 2 * att) * q10 / tx / tx
    ar := s.ar + q10 * el g (j + 36) / rt }

/-- `res` and `qq`: the members set by `resid` (RESF, QQQQ, WaterHGK-JNgems.h). -/
structure ResF where
  q0 : ℝ
  q5 : ℝ
  ar : ℝ
  sr : ℝ
  ur : ℝ
  cvr : ℝ
  dpdtr : ℝ

/-- `resid`, WaterHGK-JNgems.cpp:2508-2609. -/
noncomputable def resid (t d : ℝ) : ResF :=
  let s := (List.range 4).foldl (residExtra t d) ((List.range 36).foldl (residStep t d) ⟨0, 0, 0, 0, 0, 0, 0, 0⟩)
  let sr := -s.dadt / gascon
  { q0 := s.q0 + s.qp, q5 := s.q5, ar := s.ar, sr := sr, ur := s.ar + sr, cvr := s.cvr + s.q2a / gascon, dpdtr := s.dpdtr }

/-! ### The ideal gas function -/

/-- The coefficients of `ideal`, WaterHGK-JNgems.cpp:2124-2129. -/
def idealC : List ℚ :=
  [0.19730271018e2, 0.209662681977e2, -0.483429455355e0,
    0.605743189245e1, 0.2256023885e2, -0.987532442e1,
    -0.43135538513e1, 0.458155781e0, -0.47754901883e-1,
    0.41238460633e-2, -0.27929052852e-3, 0.14481695261e-4,
    -0.56473658748e-6, 0.16200446e-7, -0.3303822796e-9,
    0.451916067368e-11, -0.370734122708e-13, 0.137546068238e-15]

/-- `id`: the members set by `ideal` (IDF, WaterHGK-JNgems.h). -/
structure IdF where
  gi : ℝ
  hi : ℝ
  cpi : ℝ
  ai : ℝ
  ui : ℝ
  cvi : ℝ
  si : ℝ

/-- `ideal`, WaterHGK-JNgems.cpp:2120-2147. -/
noncomputable def ideal (t : ℝ) : IdF :=
  let tt := t / 1.0e2
  let tl := Real.log tt
  let s := ((List.range 16).map (· + 2)).foldl (fun (s : ℝ × ℝ × ℝ) (i : ℕ) =>
    let emult := tt ^ ((i : ℤ) - 5)
    (s.1 - el idealC i * emult, s.2.1 + el idealC i * ((i : ℝ) - 5) * emult, s.2.2 + el idealC i * ((i : ℝ) - 5) * ((i : ℝ) - 4) * emult))
    (-(el idealC 0 / tt + el idealC 1) * tl, el idealC 1 + el idealC 0 * (1 - tl) / tt, el idealC 1 - el idealC 0 / tt)
  { gi := s.1, hi := s.2.1, cpi := s.2.2, ai := s.1 - 1, ui := s.2.1 - 1, cvi := s.2.2 - 1, si := (s.2.1 - 1) - (s.1 - 1) }

/-! ### The properties at a temperature and a density -/

/-- What `resid`, `base` and `ideal` leave behind: the functions at one temperature and one density. -/
structure Eval where
  b : BaseF
  r : ResF
  i : IdF

/-- `bb`, `resid`, `base` and `ideal` at one temperature and one density, e.g. WaterHGK-JNgems.cpp:1681-1683, 2215-2216. -/
noncomputable def evalAt (t d : ℝ) : Eval := ⟨base (bb t) t d, resid t d, ideal t⟩

/-- `fct`: the members set by `thmHGK` (FCTS, WaterHGK-JNgems.h). -/
structure Fct where
  dpdd : ℝ
  ad : ℝ
  gd : ℝ
  ud : ℝ
  dpdt : ℝ
  cvd : ℝ
  cpd : ℝ
  hd : ℝ
  sd : ℝ
  dvdt : ℝ
  cjtt : ℝ
  cjth : ℝ

/-- `thmHGK`, WaterHGK-JNgems.cpp:2646-2664.  The density `d` is a parameter, the functions are those of the last evaluation. -/
noncomputable def thmHGK (e : Eval) (t d : ℝ) : Fct :=
  let rt := gascon * t
  let z := e.b.zb + e.r.q0 / rt / d
  let dpdd := rt * (e.b.zb + e.b.yb * e.b.dzb) + e.r.q5
  let ad := e.b.ab + e.r.ar + e.i.ai - uref / t + sref
  let ud := e.b.ub + e.r.ur + e.i.ui - uref / t
  let dpdt := rt * d * e.b.dpdtb + e.r.dpdtr
  let cvd := e.b.cvb + e.r.cvr + e.i.cvi
  let cpd := cvd + t * dpdt * dpdt / (d * d * dpdd * gascon)
  let dvdt := dpdt / dpdd / d / d
  let cjtt := 1 / d - t * dvdt
  { dpdd := dpdd, ad := ad, gd := ad + z, ud := ud, dpdt := dpdt, cvd := cvd, cpd := cpd, hd := ud + z
    sd := e.b.sb + e.r.sr + e.i.si - sref, dvdt := dvdt, cjtt := cjtt, cjth := -cjtt / cpd / gascon }

/-- The pressure of an evaluation, WaterHGK-JNgems.cpp:2217, 1684. -/
noncomputable def presOf (e : Eval) (t d : ℝ) : ℝ := gascon * t * d * e.b.zb + e.r.q0

/-! ### The derivative of the expansivity -/

/-- The derivatives collected by `dalHGK`: by density, twice by density, by density and temperature, the first along the isobar, the second
along the isobar, the mixed one along the isobar. -/
structure Dal where
  dd : ℝ
  d2d : ℝ
  d2dt : ℝ
  d2tp : ℝ
  d3dt : ℝ
  d3tt : ℝ

/-- The base function in `dalHGK`, WaterHGK-JNgems.cpp:2868-2908. -/
noncomputable def dalBase (e : Ell) (t d alpha : ℝ) : Dal :=
  let yb := 0.25e0 * e.b1 * d
  let x := 1 - yb
  let dydtp := (d / 4) * (e.b1t - e.b1 * alpha)
  let dbdd := gascon * t * ((e.b1 / 4 / x) * (1 - (g2 - 1) / x + (g1 + g2 + 1) / x / x) + e.b2 - e.b1 * gf + 1 / d)
  let db2dd := gascon * t * ((e.b1 * e.b1 / 16 / x / x) * (1 - 2 * (g2 - 1) / x + 3 * (g1 + g2 + 1) / x / x) - 1 / d / d)
  let db2ddt := gascon * t * ((e.b1t / 4 / x / x) * (1 - (g2 - 1) * (1 + yb) / x + (g1 + g2 + 1) * (1 + 2 * yb) / x / x) + e.b2t - gf * e.b1t) +
    dbdd / t
  let db2dtp := dbdd / t + gascon * t * ((e.b1 * dydtp / 4 / x / x / x) * (1 - g2 + 2 * (g1 + g2 + 1) / x) +
    ((x * e.b1t + e.b1 * dydtp) / 4 / x / x) * (1 - (g2 - 1) / x + (g1 + g2 + 1) / x / x) + e.b2t - gf * e.b1t + alpha / d)
  let db3ddt := db2dd / t + gascon * t * ((e.b1 * e.b1 * dydtp / 8 / x / x / x / x) * (1 - g2 + 3 * (g1 + g2 + 1) / x) +
    (e.b1 * (x * e.b1t + e.b1 * dydtp) / 8 / x / x / x) * (1 - 2 * (g2 - 1) / x + 3 * (g1 + g2 + 1) / x / x) - 2 * alpha / d / d)
  let db3dtt := (db2ddt - dbdd / t) / t + gascon * t * ((e.b1t * dydtp / 2 / x / x / x / x) * (1 - g2 + (g1 + g2 + 1) * (2 + yb) / x) +
    ((x * e.b1tt + 2 * e.b1t * dydtp) / 4 / x / x / x) * (1 - (g2 - 1) * (1 + yb) / x + (g1 + g2 + 1) * (1 + 2 * yb) / x / x) + e.b2tt -
    gf * e.b1tt) + (t * db2dtp - dbdd) / t / t
  ⟨dbdd, db2dd, db2ddt, db2dtp, db3ddt, db3dtt⟩

/-- The first loop of the residual function in `dalHGK`, WaterHGK-JNgems.cpp:2919-2940, for one `i`. -/
noncomputable def dalStep (t d alpha : ℝ) (s : Dal) (i : ℕ) : Dal :=
  let e1 := Real.exp (-aa * d)
  let e2 := 1 - e1
  let tzt := tz / t
  let k := eli ii i + 1
  let l := eli jj i - 1
  let km := k - 1
  let lp := l + 1
  let xtzt := tzt ^ l
  { dd := s.dd + el g i * xtzt * e2 ^ km * e1
    d2d := s.d2d + el g i * e1 * xtzt * e2 ^ km * (km * e1 / e2 - 1)
    d2dt := s.d2dt - el g i * e1 * l * e2 ^ km * tzt ^ lp / tz
    d2tp := s.d2tp + el g i * e1 * e2 ^ km * xtzt * (d * alpha - l / t - km * e1 * d * alpha / e2)
    d3dt := s.d3dt + el g i * (km * d * alpha * e1 * e1 * xtzt * e2 ^ (k - 3) +
      e1 * xtzt * e2 ^ km * (km * e1 / e2 - 1) * (d * alpha - l / t - km * d * alpha * e1 / e2))
    d3tt := s.d3tt + el g i * l * e1 * e2 ^ km * tzt ^ lp / tz * (lp / t + d * alpha * km * e1 / e2 - d * alpha) }

/-- The second loop of the residual function in `dalHGK`, WaterHGK-JNgems.cpp:2945-3003, for one `i` (here counted from 0: `i - 36`).
In `dr2dd` (2977-2978) `l` is divided by the square of `di`. -/
noncomputable def dalExtra (t d alpha : ℝ) (s : Dal) (j : ℕ) : Dal :=
  let k := eli ii (j + 36)
  let l := eli jj (j + 36)
  let km := k - 1
  let lm := l - 1
  let ai := el aad j
  let bi := el aat j
  let di := el adz j
  let ti := el atz j
  let tau := t / ti - 1
  let del := delOf d di
  let dex := cutLt (-ai * del ^ k)
  let tex := cutLe (-bi * tau * tau)
  let ex12 := dex * tex
  let qm := l / del - k * ai * del ^ km
  let xdell := del ^ l
  let xdelk := del ^ k
  let term1 := l * d * alpha / di / del / del + ai * k * km * d * alpha * del ^ (k - 2) / di
  let term2 := 2 * qm * term1 - 2 * l * d * alpha / di / del / del / del + ai * k * km * (k - 2) * del ^ (k - 3) * d * alpha / di
  let term3 := qm * qm - l / del / del - ai * k * km * del ^ (k - 2)
  let term4 := ai * k * del ^ (k - 1) * d * alpha / di - 2 * bi * tau / ti
  let term5 := ex12 * xdell * term4 - ex12 * l * del ^ (l - 1) * d * alpha / di
  { dd := s.dd + el g (j + 36) * xdell * ex12 / di * qm
    d2d := s.d2d + el g (j + 36) * xdell * ex12 / di / di * (qm * qm - l / di / di - ai * k * km * del ^ (k - 2))
    d2dt := s.d2dt - el g (j + 36) * 2 * bi * tau * ex12 * xdell / ti / di * qm
    d2tp := s.d2tp + el g (j + 36) / di * (d * alpha * xdell * ex12 / di / del / del * (l + ai * k * km * xdelk) +
      qm * (ex12 * (xdell * (k * ai * d * alpha * del ^ km / di - 2 * bi * tau / ti) - l * d * alpha * del ^ lm / di)))
    d3dt := s.d3dt + el g (j + 36) / di / di * (xdell * ex12 * term2 + term3 * term5)
    d3tt := s.d3tt - 2 * el g (j + 36) * bi / ti / di * (tau * xdell * ex12 * d * alpha / del / del / di * (l + ai * k * km * del ^ k) +
      qm * (xdell * ex12 * (ai * k * d * alpha * tau * del ^ km / di + (1 - 2 * bi * tau * tau) / ti - tau * l * d * alpha / di / del))) }

/-- The residual function in `dalHGK`, WaterHGK-JNgems.cpp:2911-3003. -/
noncomputable def dalResid (t d alpha : ℝ) : Dal :=
  (List.range 4).foldl (dalExtra t d alpha) ((List.range 36).foldl (dalStep t d alpha) ⟨0, 0, 0, 0, 0, 0⟩)

/-- `dalHGK`, WaterHGK-JNgems.cpp:2855-3015. -/
noncomputable def dalHGK (t d alpha : ℝ) : ℝ :=
  let b := dalBase (bb t) t d alpha
  let r := dalResid t d alpha
  ((b.d3tt + r.d3tt) * (2 * (b.dd + r.dd) + d * (b.d2d + r.d2d)) - (b.d2dt + r.d2dt) * (2 * (b.d2tp + r.d2tp) +
    d * (b.d3dt + r.d3dt) - d * alpha * (b.d2d + r.d2d))) / (2 * (b.dd + r.dd) + d * (b.d2d + r.d2d)) /
    (2 * (b.dd + r.dd) + d * (b.d2d + r.d2d))

/-! ### The dielectric constant -/

/-- The coefficients of `JN91`, WaterHGK-JNgems.cpp:2785-2789. -/
def jnA : List ℚ :=
  [0.1470333593e+02, 0.2128462733e+03,
    -0.1154445173e+03, 0.1955210915e+02,
    -0.8330347980e+02, 0.3213240048e+02,
    -0.6694098645e+01, -0.3786202045e+02,
    0.6887359646e+02, -0.2729401652e+02]

/-- `Tref` of `JN91`, WaterHGK-JNgems.cpp:2783. -/
noncomputable def jnTref : ℝ := 298.15e0

/-- `c[0]` to `c[4]`, WaterHGK-JNgems.cpp:2792-2815. -/
noncomputable def jnC (T : ℝ) : ℕ → ℝ
  | 0 => 1
  | 1 => el jnA 0 / (T / jnTref)
  | 2 => el jnA 1 / (T / jnTref) + el jnA 2 + el jnA 3 * (T / jnTref)
  | 3 => el jnA 4 / (T / jnTref) + el jnA 5 * (T / jnTref) + el jnA 6 * (T / jnTref) ^ 2
  | _ => el jnA 7 / (T / jnTref) ^ 2 + el jnA 8 / (T / jnTref) + el jnA 9

/-- `dcdT[0]` to `dcdT[4]`, WaterHGK-JNgems.cpp:2793-2813. -/
noncomputable def jnCt (T : ℝ) : ℕ → ℝ
  | 0 => 0
  | 1 => -el jnA 0 * jnTref / T ^ 2
  | 2 => -el jnA 1 * jnTref / T ^ 2 + el jnA 3 / jnTref
  | 3 => -el jnA 4 * jnTref / T ^ 2 + el jnA 5 / jnTref + 2 * el jnA 6 * T / jnTref ^ 2
  | _ => -2 * el jnA 7 * jnTref ^ 2 / T ^ 3 - el jnA 8 * jnTref / T ^ 2

/-- `dc2dTT[0]` to `dc2dTT[4]`, WaterHGK-JNgems.cpp:2794-2815. -/
noncomputable def jnCtt (T : ℝ) : ℕ → ℝ
  | 0 => 0
  | 1 => 2 * el jnA 0 * jnTref / T ^ 3
  | 2 => 2 * el jnA 1 * jnTref / T ^ 3
  | 3 => 2 * el jnA 4 * jnTref / T ^ 3 + 2 * el jnA 6 / jnTref ^ 2
  | _ => 6 * el jnA 7 * jnTref ^ 2 / T ^ 4 + 2 * el jnA 8 * jnTref / T ^ 3

/-- The results of `JN91`. -/
structure Eps where
  eps : ℝ
  dedP : ℝ
  dedT : ℝ
  d2edT2 : ℝ

/-- `JN91`, WaterHGK-JNgems.cpp:2778-2842. -/
noncomputable def jn91 (T D beta alpha daldT : ℝ) : Eps where
  eps := (List.range 5).foldl (fun s k => s + jnC T k * D ^ k) 0
  dedP := (List.range 5).foldl (fun s j => s + j * jnC T j * D ^ j) 0 * beta
  dedT := (List.range 5).foldl (fun s j => s + D ^ j * (jnCt T j - j * alpha * jnC T j)) 0
  d2edT2 := (List.range 5).foldl (fun s j => s + D ^ j * (jnCtt T j - j * (alpha * jnCt T j + jnC T j * daldT) -
    j * alpha * (jnCt T j - j * alpha * jnC T j))) 0

/-- The results of `Born92`: `Dielw`, `ZBorn`, `QBorn`, `YBorn`, `XBorn`. -/
structure Born where
  eps : ℝ
  Z : ℝ
  Q : ℝ
  Y : ℝ
  X : ℝ

/-- `epsBrn`, WaterHGK-JNgems.cpp:2846-2853. -/
noncomputable def epsBrn (e : Eps) : Born :=
  let Y := 1 / e.eps ^ 2 * e.dedT
  { eps := e.eps, Z := -1 / e.eps, Q := 1 / e.eps ^ 2 * e.dedP, Y := Y, X := 1 / e.eps ^ 2 * e.d2edT2 - 2 * e.eps * Y ^ 2 }

/-- `Born92` with `epseqn` 4 (set at WaterHGK-JNgems.cpp:426), WaterHGK-JNgems.cpp:2281-2311. -/
noncomputable def born92 (TK Pbars Dgcm3 betab alphaK daldT : ℝ) : Born :=
  if TK - 273.15e0 > 1000.0e0 + 1.0e-3 ∨ Pbars > 5000.0 + 1.0e-3 then ⟨0, 0, 0, 0, 0⟩
  else epsBrn (jn91 TK Dgcm3 betab alphaK daldT)

/-! ### Transport properties and surface tension -/

/-- The coefficients `a` of `viscos`, WaterHGK-JNgems.cpp:2320-2321. -/
def viscA : List ℚ := [0.0181583e0, 0.0177624e0, 0.0105287e0, -0.0036744e0]

/-- The coefficients `b` of `viscos`, WaterHGK-JNgems.cpp:2322-2331. -/
def viscB : List (List ℚ) :=
  [[0.5132047e0, 0.3205656e0, 0.0e0, 0.0e0, -0.7782567e0, 0.1885447e0],
    [0.2151778e0, 0.7317883e0, 1.2410440e0, 1.4767830e0, 0.0e0, 0.0e0],
    [-0.2818107e0, -1.0707860e0, -1.2631840e0, 0.0e0, 0.0e0, 0.0e0],
    [0.1778064e0, 0.4605040e0, 0.2340379e0, -0.4924179e0, 0.0e0, 0.0e0],
    [-0.0417661e0, 0.0e0, 0.0e0, 0.1600435e0, 0.0e0, 0.0e0],
    [0.0e0, -0.01578386e0, 0.0e0, 0.0e0, 0.0e0, 0.0e0],
    [0.0e0, 0.0e0, 0.0e0, -0.003629481e0, 0.0e0, 0.0e0]]

/-- An element of a table. -/
def el2 (b : List (List ℚ)) (i j : ℕ) : ℝ := el (b.getD i []) j

/-- A pair of nested loops `while (++i <= n) { while (++j <= m) { body(i, j) } }` of which the inner counter is set to -1 only before the outer
loop, as in `viscos` (WaterHGK-JNgems.cpp:2334, 2359-2366) and `thcond` (2389, 2439-2446, 2456-2464): with the counters as last left. -/
def nested (body : ℕ → ℕ → ℝ → ℝ) (n m : ℕ) (s : ℝ) : ℝ :=
  ((List.range (n + 1)).foldl (fun (q : ℤ × ℝ) i =>
    -- the inner loop runs over the j with q.1 < j ≤ m and leaves the counter at m + 1, or one higher when it does not run
    (max (q.1 + 1) (m + 1), ((List.range (m + 1)).filter (fun (j : ℕ) => decide (q.1 < (j : ℤ)))).foldl (fun s j => body i j s) q.2)) (-1, s)).2

/-- `viscos`, WaterHGK-JNgems.cpp:2318-2381. -/
noncomputable def viscos (Tk Pbars Dkgm3 betaPa : ℝ) : ℝ :=
  let TdegC := Tk - 273.15e0
  if Pbars > 5000.0e0 + 1.0e-2 ∨ (Pbars > 3500.0e0 + 1.0e-2 ∧ TdegC > 150.0e0 + 1.0e-2) ∨ (Pbars > 3000.0e0 + 1.0e-2 ∧ TdegC > 600.0e0 + 1.0e-2) ∨
      TdegC > 900.0e0 + 1.0e-2 then 0
  else
    let T := Tk / 647.270e0
    let D := Dkgm3 / 317.763e0
    let u0 := 1.0e-6 * Real.sqrt T / (List.range 4).foldl (fun s i => s + el viscA i / T ^ i) 0
    let u1 := Real.exp (D * nested (fun i j s => s + el2 viscB j i * (1 / T - 1) ^ i * (D - 1) ^ j) 5 6 0)
    let u2 := if 0.997e0 ≤ T ∧ T ≤ 1.0082e0 ∧ 0.755e0 ≤ D ∧ D ≤ 1.2900e0 then
        let xt := 22.1150e6 / 317.763e0 ^ 2 * betaPa * Dkgm3 ^ 2
        if xt < 22.0e0 then 1 else 0.922 * xt ^ (0.0263e0 : ℝ)
      else 1
    u0 * u1 * u2

/-- The coefficients `aL` of `thcond`, WaterHGK-JNgems.cpp:2392. -/
def thL : List ℚ := [0.2022230e1, 0.1411166e2, 0.5255970e1, -0.2018700e1]

/-- The coefficients `bL` of `thcond`, WaterHGK-JNgems.cpp:2394-2405. -/
def thBL : List (List ℚ) :=
  [[1.329304600e0, -0.404524370e0, 0.244094900e0, 0.018660751e0, -0.129610680e0, 0.044809953e0],
    [1.701836300e0, -2.215684500e0, 1.651105700e0, -0.767360020e0, 0.372833440e0, -0.112031600e0],
    [5.224615800e0, -1.012411100e1, 4.987468700e0, -0.272976940e0, -0.430833930e0, 0.133338490e0],
    [8.712767500e0, -9.500061100e0, 4.378660600e0, -0.917837820e0, 0.0e0, 0.0e0],
    [-1.852599900e0, 0.934046900e0, 0.0e0, 0.0e0, 0.0e0, 0.0e0]]

/-- The coefficients `bu` of `thcond`, WaterHGK-JNgems.cpp:2406-2414. -/
def thBu : List (List ℚ) :=
  [[0.5019380e0, 0.2356220e0, -0.2746370e0, 0.1458310e0, -0.0270448e0],
    [0.1628880e0, 0.7893930e0, -0.7435390e0, 0.2631290e0, -0.0253093e0],
    [-0.1303560e0, 0.6736650e0, -0.9594560e0, 0.3472470e0, -0.0267758e0],
    [0.9079190e0, 1.2075520e0, -0.6873430e0, 0.2134860e0, -0.0822904e0],
    [-0.5511190e0, 0.0670665e0, -0.4970890e0, 0.1007540e0, 0.0602253e0],
    [0.1465430e0, -0.0843370e0, 0.1952860e0, -0.0329320e0, -0.0202595e0]]

/-- `thcond`, WaterHGK-JNgems.cpp:2386-2476. -/
noncomputable def thcond (Tk Pbars Dkgm3 alph betaPa : ℝ) : ℝ :=
  let TdegC := Tk - 273.15e0
  if Pbars > 4000.0e0 + 1.0e-2 ∨ (Pbars > 2000.0e0 + 1.0e-2 ∧ TdegC > 125.0e0 + 1.0e-2) ∨ (Pbars > 1500.0e0 + 1.0e-2 ∧ TdegC > 400.0e0 + 1.0e-2) ∨
      TdegC > 800.0e0 + 1.0e-2 then 0
  else
    let T := Tk / 647.270e0
    let D := Dkgm3 / 317.763e0
    let L0 := Real.sqrt T / (List.range 4).foldl (fun s i => s + el thL i / T ^ i) 0
    let L1 := Real.exp (D * nested (fun i j s => s + el2 thBL i j * (1 / T - 1) ^ i * (D - 1) ^ j) 4 5 0)
    let u0 := 1.0e-6 * T ^ (0.5 : ℝ) / (List.range 4).foldl (fun s i => s + el viscA i / T ^ i) 0
    let u1 := Real.exp (D * nested (fun i j s => s + el2 thBu i j * (1 / T - 1) ^ i * (D - 1) ^ j) 5 4 0)
    let xt := 22.1150e6 / 317.763e0 ^ 2 * betaPa * Dkgm3 ^ 2
    let dPdT := 647.270e0 / 22.1150e6 * alph / betaPa
    let L2 := 3.7711e-8 / (u0 * u1) * (T / D) ^ 2 * dPdT ^ 2 * xt ^ (0.4678e0 : ℝ) * D ^ (0.5 : ℝ) *
      Real.exp (-18.66e0 * (T - 1) ^ 2 - (D - 1) ^ 4)
    L0 * L1 + L2

/-- `surten`, WaterHGK-JNgems.cpp:2245-2272. -/
noncomputable def surten (Tsatur : ℝ) : ℝ :=
  if Tsatur < 273.16e0 ∨ Tsatur > 647.067e0 then 0
  else
    let Tnorm := if Tsatur ≥ 647.067e0 - 1.0e-10 then 0 else (0.999686e0 - Tsatur / 647.27e0) / 0.999686e0
    0.2358e0 * Tnorm ^ (1.256e0 : ℝ) * (1 + -0.625e0 * Tnorm)

/-! ### The properties in the units of the caller -/

/-- `un`, WaterHGK-JNgems.cpp:526-549, with `it` = `id` = `ip` = 1 and `ih` = 4 (396-399): `ft`, `fd`, `fvd`, `fvk`, `fs`, `fp`, `fh`, `fst`, `fc`. -/
structure UnitF where
  ft : ℝ
  fd : ℝ
  fvd : ℝ
  fvk : ℝ
  fs : ℝ
  fp : ℝ
  fh : ℝ
  fst : ℝ
  fc : ℝ

/-- The scale factors, WaterHGK-JNgems.cpp:528-548. -/
noncomputable def un : UnitF where
  ft := 1.0e0
  fd := 1.0e0
  fvd := 1.0e1
  fvk := 1.0e4
  fs := 1.0e2
  fp := 1.0e1
  fh := 4.305816e0
  fst := 1.0e3
  fc := 1.0e-2 * 0.23901e0

/-- `WaterTripleProperties`, GlobalVariables.h:49-55: entropy, Gibbs energy, enthalpy, internal energy and Helmholtz energy at the triple point. -/
structure Triple where
  Str : ℝ
  Gtr : ℝ
  Htr : ℝ
  Utr : ℝ
  Atr : ℝ

/-- `cal_to_J`, GlobalVariables.h:33. -/
noncomputable def calToJ : ℝ := 4.184

/-- `waterTripleData` for `HKF_HGK_1974`, GlobalVariables.h:60-66. -/
noncomputable def tripleHKF : Triple := ⟨15.1320 * calToJ, -56290.0 * calToJ, -68767.0 * calToJ, -67887.0 * calToJ, -55415.0 * calToJ⟩

/-- `waterTripleData` for `NEA_HGK`, GlobalVariables.h:67-73. -/
noncomputable def tripleNEA : Triple := ⟨15.1386 * calToJ, -56279.9 * calToJ, -68766.44 * calToJ, -67921.9 * calToJ, -55434.49 * calToJ⟩

/-- `tt` as set by `tpset`, WaterHGK-JNgems.cpp:2152-2169. -/
noncomputable def tpset (w : Triple) : Triple :=
  let conv := 4.305816e0 * calToJ
  ⟨w.Str / conv * un.fh, w.Gtr / conv * un.fh, w.Htr / conv * un.fh, w.Utr / conv * un.fh, w.Atr / conv * un.fh⟩

/-- `WPROPS`, WaterHGK-JNgems.h. -/
structure WProps where
  A : ℝ
  G : ℝ
  S : ℝ
  U : ℝ
  H : ℝ
  Cv : ℝ
  Cp : ℝ
  speed : ℝ
  alpha : ℝ
  beta : ℝ
  diel : ℝ
  visc : ℝ
  tcond : ℝ
  surten : ℝ
  tdiff : ℝ
  prndtl : ℝ
  visck : ℝ
  albe : ℝ
  Z : ℝ
  Y : ℝ
  Q : ℝ
  dAldT : ℝ
  X : ℝ

/-- All zero, WaterHGK-JNgems.cpp:436-437. -/
def WProps.zero : WProps := ⟨0, 0, 0, 0, 0, 0, 0, 0, 0, 0, 0, 0, 0, 0, 0, 0, 0, 0, 0, 0, 0, 0, 0⟩

/-- `triple`, WaterHGK-JNgems.cpp:2479-2489; `tt->Ttr` is 273.16 (297). -/
noncomputable def triple (tt : Triple) (T : ℝ) (w : WProps) : WProps :=
  let S := w.S + tt.Str
  let TS := T * S - 2.7316e2 * tt.Str
  { w with S := S, G := w.H - TS + tt.Gtr, A := w.U - TS + tt.Atr, H := w.H + tt.Htr, U := w.U + tt.Utr }

/-- `dimHGK` with `itripl` 1, WaterHGK-JNgems.cpp:2667-2709; `sat` is `isat`, `p` in MPa. -/
noncomputable def dimHGK (tt : Triple) (f : Fct) (isat : ℕ) (t p d : ℝ) : WProps :=
  let rt := gascon * t
  let Cpw := f.cpd * gascon * un.fh * un.ft
  let Betaw := 1 / (d * f.dpdd * un.fp)
  let Alphaw := d * f.dvdt
  let dAldT := dalHGK t d Alphaw
  let pbars := p * 1.0e1
  let dkgm3 := d * 1.0e3
  let betaPa := Betaw * un.fp / 1.0e6
  let betab := Betaw * un.fp / 1.0e1
  let CpJKkg := Cpw / un.fh / un.ft * 1.0e3
  let Viscw := viscos t pbars dkgm3 betaPa * un.fvd
  let Tcondw := thcond t pbars dkgm3 Alphaw betaPa * un.fc * un.ft
  let b := born92 t pbars (dkgm3 / 1.0e3) betab Alphaw dAldT
  triple tt t
    { A := f.ad * rt * un.fh, G := f.gd * rt * un.fh, S := f.sd * gascon * un.fh * un.ft, U := f.ud * rt * un.fh, H := f.hd * rt * un.fh
      Cv := f.cvd * gascon * un.fh * un.ft, Cp := Cpw
      speed := Real.sqrt |f.cpd * f.dpdd * 1.0e3 / f.cvd| * un.fs
      beta := Betaw, alpha := Alphaw, dAldT := dAldT, visc := Viscw, tcond := Tcondw
      surten := if isat = 0 ∨ isat = 2 then 0 else surten t * un.fst
      diel := b.eps, Z := b.Z, Q := b.Q, Y := b.Y, X := b.X
      tdiff := Tcondw / un.fc / un.ft / (dkgm3 * CpJKkg) * un.fvk
      prndtl := if Tcondw = 0 then 0 else Viscw / un.fvd * CpJKkg / (Tcondw / un.fc / un.ft)
      visck := Viscw / un.fvd / dkgm3 * un.fvk
      albe := Alphaw / Betaw }

end Gems

end ThermoFun

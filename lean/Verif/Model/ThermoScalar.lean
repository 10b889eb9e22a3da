import Mathlib.Analysis.SpecialFunctions.Log.Basic
import Mathlib.Analysis.SpecialFunctions.Pow.Real
import Mathlib.Analysis.SpecialFunctions.Sqrt

/-!
# Model of `ThermoFun/Common/ThermoScalar.hpp`

`double` is modelled by `ℝ`.  Rounding, infinities and NaN are not modelled.
-/

namespace ThermoFun

/-- `enum Status`, ThermoScalar.hpp:28-35.  The message string of `StatusMessage` (line 37) is dropped:
every operator below resets it to the empty string. -/
inductive Status
  | notdefined | read | calculated | assigned | initialized | outofbounds
  deriving DecidableEq, Repr

/-- `ThermoScalarBase<double>`, ThermoScalar.hpp:42-59: value, partial derivatives, error, status. -/
@[ext] structure TS where
  val : ℝ
  ddt : ℝ
  ddp : ℝ
  err : ℝ
  sta : Status

namespace TS

/-- Five-argument constructor, ThermoScalar.hpp:75-76; takes `fabs(err)`. -/
noncomputable def mk5 (val ddt ddp err : ℝ) (sta : Status) : TS := ⟨val, ddt, ddp, |err|, sta⟩

/-- `explicit ThermoScalarBase(double val)`, ThermoScalar.hpp:67-68 (status `notdefined`). -/
noncomputable def ofVal (v : ℝ) : TS := mk5 v 0 0 0 .notdefined

/-- Default constructor, ThermoScalar.hpp:62-63. -/
noncomputable def default : TS := ofVal 0

/-- `operator=(double)`, ThermoScalar.hpp:96-104. -/
def assign (_x : TS) (d : ℝ) : TS := ⟨d, 0, 0, 0, .assigned⟩

/-- `Temperature(double)`, ThermoScalar.hpp:247. -/
noncomputable def temperature (t : ℝ) : TS := mk5 t 1 0 0 .assigned

/-- `Pressure(double)`, ThermoScalar.hpp:261. -/
noncomputable def pressure (p : ℝ) : TS := mk5 p 0 1 0 .assigned

/-- `status(l,r)`, ThermoScalar.hpp:268-275. -/
def status2 (l r : TS) : Status :=
  if l.sta = .notdefined ∨ r.sta = .notdefined then .notdefined else .calculated

/-- `status(l)`, ThermoScalar.hpp:276-283. -/
def status1 (l : TS) : Status := if l.sta = .notdefined then .notdefined else .calculated

/-- `operator+(TS,TS)`, ThermoScalar.hpp:293-297. -/
noncomputable def add (l r : TS) : TS :=
  mk5 (l.val + r.val) (l.ddt + r.ddt) (l.ddp + r.ddp) (Real.sqrt (l.err*l.err + r.err*r.err)) (status2 l r)

/-- `operator+(double,TS)`, ThermoScalar.hpp:299-303. -/
noncomputable def addL (l : ℝ) (r : TS) : TS := mk5 (l + r.val) r.ddt r.ddp r.err (status1 r)

/-- `operator+(TS,double)`, ThermoScalar.hpp:305-309. -/
noncomputable def addR (l : TS) (r : ℝ) : TS := addL r l

/-- Unary `operator-`, ThermoScalar.hpp:312-316. -/
noncomputable def neg (l : TS) : TS :=
  mk5 (-l.val) (-l.ddt) (-l.ddp) (Real.sqrt (l.err*l.err)) (status1 l)

/-- `operator-(TS,TS)`, ThermoScalar.hpp:319-323. -/
noncomputable def sub (l r : TS) : TS :=
  mk5 (l.val - r.val) (l.ddt - r.ddt) (l.ddp - r.ddp) (Real.sqrt (l.err*l.err + r.err*r.err)) (status2 l r)

/-- `operator-(TS,double)`, ThermoScalar.hpp:326-330. -/
noncomputable def subR (l : TS) (r : ℝ) : TS := mk5 (l.val - r) l.ddt l.ddp l.err (status1 l)

/-- `operator-(double,TS)`, ThermoScalar.hpp:333-337. -/
noncomputable def subL (l : ℝ) (r : TS) : TS := mk5 (l - r.val) (-r.ddt) (-r.ddp) r.err (status1 r)

/-- The guarded relative variance `x.err/x.val*x.err/x.val` (0 if the value is 0),
ThermoScalar.hpp:343-347 and 374-378. -/
noncomputable def relVar (x : TS) : ℝ := if x.val ≠ 0 then x.err/x.val*x.err/x.val else 0

/-- `operator*(TS,TS)`, ThermoScalar.hpp:340-349. -/
noncomputable def mul (l r : TS) : TS :=
  mk5 (l.val * r.val) (l.val * r.ddt + l.ddt * r.val) (l.val * r.ddp + l.ddp * r.val)
    ((l.val * r.val) * Real.sqrt (relVar l + relVar r)) (status2 l r)

/-- `operator*(double,TS)`, ThermoScalar.hpp:352-359. -/
noncomputable def mulL (l : ℝ) (r : TS) : TS :=
  if r.val = 0 then mk5 (l * r.val) (l * r.ddt) (l * r.ddp) 0 (status1 r)
  else mk5 (l * r.val) (l * r.ddt) (l * r.ddp)
    ((l * r.val) * Real.sqrt (r.err/r.val*r.err/r.val)) (status1 r)

/-- `operator*(TS,double)`, ThermoScalar.hpp:362-366. -/
noncomputable def mulR (l : TS) (r : ℝ) : TS := mulL r l

/-- `operator/(TS,TS)`, ThermoScalar.hpp:369-380.  Division by a zero value (±inf/NaN in the code) is
Lean's `x/0 = 0` here; the theorems assume a non-zero divisor. -/
noncomputable def div (l r : TS) : TS :=
  let tmp1 := 1.0 / r.val
  let tmp2 := tmp1 * tmp1
  mk5 (tmp1 * l.val) (tmp2 * (l.ddt * r.val - l.val * r.ddt)) (tmp2 * (l.ddp * r.val - l.val * r.ddp))
    ((tmp1 * l.val) * Real.sqrt (relVar l + relVar r)) (status2 l r)

/-- `operator/(double,TS)`, ThermoScalar.hpp:383-391 (error uses `tmp1*r.val`, as in the source). -/
noncomputable def divL (l : ℝ) (r : TS) : TS :=
  let tmp1 := 1.0 / r.val
  let tmp2 := -l * tmp1 * tmp1
  if r.val = 0 then mk5 (tmp1 * l) (tmp2 * r.ddt) (tmp2 * r.ddp) 0 (status1 r)
  else mk5 (tmp1 * l) (tmp2 * r.ddt) (tmp2 * r.ddp)
    ((tmp1 * r.val) * Real.sqrt (r.err/r.val*r.err/r.val)) (status1 r)

/-- `operator/(TS,double)`, ThermoScalar.hpp:394-398. -/
noncomputable def divR (l : TS) (r : ℝ) : TS := mulL (1.0/r) l

/-- `sqrt`, ThermoScalar.hpp:401-409. -/
noncomputable def sqrt (l : TS) : TS :=
  let tmp1 := Real.sqrt l.val
  let tmp2 := 0.5 * tmp1 / l.val
  if l.val = 0 then mk5 tmp1 0 0 0 (status1 l)
  else mk5 tmp1 (tmp2 * l.ddt) (tmp2 * l.ddp) (0.5 * (l.err / l.val)) (status1 l)

/-- `pow(TS,double)`, ThermoScalar.hpp:412-420.  `std::pow` is `Real.rpow`; they agree for a positive base,
which is what the theorems assume. -/
noncomputable def powR (l : TS) (power : ℝ) : TS :=
  let tmp1 := l.val ^ power
  let tmp2 := power * tmp1 / l.val
  if l.val = 0 then mk5 tmp1 0 0 0 (status1 l)
  else mk5 tmp1 (tmp2 * l.ddt) (tmp2 * l.ddp) (|power| * (l.err / l.val)) (status1 l)

/-- `pow(TS,TS)`, ThermoScalar.hpp:423-432. -/
noncomputable def pow (l p : TS) : TS :=
  let logl := Real.log l.val
  let powl := l.val ^ p.val
  let tmp := p.val / l.val
  if l.val = 0 then mk5 powl (powl * (logl * p.ddt + 0)) (powl * (logl * p.ddp + 0)) 0 (status2 l p)
  else mk5 powl (powl * (logl * p.ddt + tmp * l.ddt)) (powl * (logl * p.ddp + tmp * l.ddp))
    (powl * (l.err / l.val)) (status2 l p)

/-- `exp`, ThermoScalar.hpp:435-440. -/
noncomputable def exp (l : TS) : TS :=
  let tmp := Real.exp l.val
  mk5 tmp (tmp * l.ddt) (tmp * l.ddp) (l.err * tmp) (status1 l)

/-- `log`, ThermoScalar.hpp:443-451. -/
noncomputable def log (l : TS) : TS :=
  let tmp1 := Real.log l.val
  let tmp2 := 1.0 / l.val
  if l.val = 0 then mk5 tmp1 0 0 0 (status1 l)
  else mk5 tmp1 (tmp2 * l.ddt) (tmp2 * l.ddp) (0.434 * (l.err / l.val)) (status1 l)

/-- The literal `ln10` in `log10`, ThermoScalar.hpp:457. -/
noncomputable def ln10 : ℝ := 2.302585092994046

/-- `log10`, ThermoScalar.hpp:454-459. -/
noncomputable def log10 (l : TS) : TS := divR (log l) ln10

/-! ### Compound assignments -/

/-- `operator+=(TS)`, ThermoScalar.hpp:107-121. -/
noncomputable def addAssign (x o : TS) : TS :=
  { val := x.val + o.val, ddt := x.ddt + o.ddt, ddp := x.ddp + o.ddp
    err := Real.sqrt (x.err*x.err + o.err*o.err), sta := status2 x o }

/-- `operator-=(TS)`, ThermoScalar.hpp:124-138. -/
noncomputable def subAssign (x o : TS) : TS :=
  { val := x.val - o.val, ddt := x.ddt - o.ddt, ddp := x.ddp - o.ddp
    err := Real.sqrt (x.err*x.err + o.err*o.err), sta := status2 x o }

/-- `operator*=(TS)`, ThermoScalar.hpp:141-159.  `err` is set from the already multiplied `val` without `fabs`. -/
noncomputable def mulAssign (x o : TS) : TS :=
  let tmp_err := x.err / x.val
  let v := x.val * o.val
  { val := v
    ddt := x.ddt * o.val + x.val * o.ddt
    ddp := x.ddp * o.val + x.val * o.ddp
    err := if o.val = 0 then 0 else v * Real.sqrt (tmp_err*tmp_err + o.err/o.val*o.err/o.val)
    sta := status2 x o }

/-- `operator/=(TS)`, ThermoScalar.hpp:162-182. -/
noncomputable def divAssign (x o : TS) : TS :=
  let tmp1 := 1.0 / o.val
  let tmp2 := tmp1 * tmp1
  let tmp_err := x.err / x.val
  let v := x.val * tmp1
  { val := v
    ddt := (x.ddt * o.val - x.val * o.ddt) * tmp2
    ddp := (x.ddp * o.val - x.val * o.ddp) * tmp2
    err := if o.val = 0 then 0 else v * Real.sqrt (tmp_err*tmp_err + o.err/o.val*o.err/o.val)
    sta := status2 x o }

/-- `operator+=(double)`, ThermoScalar.hpp:185-189 (status and error untouched). -/
noncomputable def addAssignD (x : TS) (d : ℝ) : TS := { x with val := x.val + d }

/-- `operator-=(double)`, ThermoScalar.hpp:192-196. -/
noncomputable def subAssignD (x : TS) (d : ℝ) : TS := { x with val := x.val - d }

/-- `operator*=(double)`, ThermoScalar.hpp:199-210. -/
noncomputable def mulAssignD (x : TS) (d : ℝ) : TS :=
  let tmp_err := x.err/x.val*x.err/x.val
  let v := x.val * d
  { val := v, ddt := x.ddt * d, ddp := x.ddp * d
    err := if v = 0 then 0 else v * Real.sqrt tmp_err
    sta := x.sta }

/-- `operator/=(double)`, ThermoScalar.hpp:213-222. -/
noncomputable def divAssignD (x : TS) (d : ℝ) : TS :=
  let tmp_err := x.err/x.val*x.err/x.val
  let y := mulAssignD x (1.0/d)
  { y with err := if y.val = 0 then 0 else y.val * Real.sqrt tmp_err }

end TS

/-! ### Formulas written with the operators -/

/-- Abstract syntax of a C++ formula over `ThermoScalar`s; one constructor per overload used in the models.
`leaf f ft fp e s` is a `ThermoScalar` variable produced elsewhere: value `f T P`, derivatives `ft`, `fp`,
error `e`, status `s`. -/
inductive Expr
  | temp | pres
  | leaf (f ft fp : ℝ → ℝ → ℝ) (e : ℝ) (s : Status)
  | add (a b : Expr) | addL (c : ℝ) (a : Expr) | addR (a : Expr) (c : ℝ)
  | neg (a : Expr)
  | sub (a b : Expr) | subL (c : ℝ) (a : Expr) | subR (a : Expr) (c : ℝ)
  | mul (a b : Expr) | mulL (c : ℝ) (a : Expr) | mulR (a : Expr) (c : ℝ)
  | div (a b : Expr) | divL (c : ℝ) (a : Expr) | divR (a : Expr) (c : ℝ)
  | sqrt (a : Expr) | powR (a : Expr) (c : ℝ) | pow (a b : Expr)
  | exp (a : Expr) | log (a : Expr) | log10 (a : Expr)

/-- What the compiled program computes for a formula: each node calls the overload above
(ThermoScalar.hpp:293-459). -/
noncomputable def Expr.run (T P : ℝ) : Expr → TS
  | temp => TS.temperature T
  | pres => TS.pressure P
  | leaf f ft fp e s => ⟨f T P, ft T P, fp T P, e, s⟩
  | add a b => TS.add (a.run T P) (b.run T P)
  | addL c a => TS.addL c (a.run T P)
  | addR a c => TS.addR (a.run T P) c
  | neg a => TS.neg (a.run T P)
  | sub a b => TS.sub (a.run T P) (b.run T P)
  | subL c a => TS.subL c (a.run T P)
  | subR a c => TS.subR (a.run T P) c
  | mul a b => TS.mul (a.run T P) (b.run T P)
  | mulL c a => TS.mulL c (a.run T P)
  | mulR a c => TS.mulR (a.run T P) c
  | div a b => TS.div (a.run T P) (b.run T P)
  | divL c a => TS.divL c (a.run T P)
  | divR a c => TS.divR (a.run T P) c
  | sqrt a => TS.sqrt (a.run T P)
  | powR a c => TS.powR (a.run T P) c
  | pow a b => TS.pow (a.run T P) (b.run T P)
  | exp a => TS.exp (a.run T P)
  | log a => TS.log (a.run T P)
  | log10 a => TS.log10 (a.run T P)

end ThermoFun

import Verif.Model.ThermoScalar
import Verif.Model.Units

/-!
Model of /repo/ThermoFun/Reactions/LogK_function_of_T.cpp and of the coefficient conversions in
/repo/ThermoFun/Reaction.cpp, with the ThermoScalar operators of `Verif.Model.ThermoScalar`.
-/

namespace ThermoFun

/-- `R_CONSTANT`, GlobalVariables.h:27. -/
noncomputable def Rgas : ℝ := 8.31451
/-- `lg_to_ln`, GlobalVariables.h:36. -/
noncomputable def lgToLn : ℝ := 2.302585093
/-- `ln_to_lg`, GlobalVariables.h:37. -/
noncomputable def lnToLg : ℝ := 0.434294481
/-- `Rln10 = R_CONSTANT * lg_to_ln`, LogK_function_of_T.cpp:58, Reaction.cpp:360, 414, 466. -/
noncomputable def Rln10 : ℝ := Rgas * lgToLn

/-- `ThermoPropertiesReaction`, ThermoProperties.h:48-79. -/
structure TPR where
  lnK : TS
  logK : TS
  G : TS
  A : TS
  U : TS
  H : TS
  S : TS
  V : TS
  Cp : TS
  Cv : TS

/-- Default-constructed properties, ThermoProperties.h:48-79 with ThermoScalar.hpp:62-63. -/
noncomputable def TPR.default : TPR :=
  ⟨TS.default, TS.default, TS.default, TS.default, TS.default, TS.default, TS.default, TS.default, TS.default, TS.default⟩

/-- The temperature-correction methods `thermoPropertiesReaction_LogK_fT` distinguishes (`MethodCorrT_Thrift::type`,
GlobalVariables.h); all others are `other`. -/
inductive CorrT
  | EK0 | EK1 | EK2 | EK3 | LGK | LGX | other
  deriving DecidableEq

/-- `sta.first != Status::notdefined`, LogK_function_of_T.cpp:15-17, 71-73. -/
def TS.has (x : TS) : Prop := x.sta ≠ .notdefined

instance (x : TS) : Decidable x.has := inferInstanceAs (Decidable (¬ _))

open Classical in
/-- `determineMethod`, LogK_function_of_T.cpp:8-40 (its first argument is unused). -/
noncomputable def determineMethod (dHr dSr dCpr : TS) : CorrT :=
  if dCpr.has ∧ dHr.has ∧ dSr.has then .EK3
  else if dHr.has ∧ dSr.has then .EK2
  else if (dHr.has ∧ dHr.val = 0) ∨ (dSr.has ∧ dSr.val = 0) then .EK1
  else .EK0

/-- `std::vector<double>::resize(n, 0.0)`, LogK_function_of_T.cpp:117-118, 136-137. -/
def resize (n : Nat) (l : List ℝ) : List ℝ := (l ++ List.replicate n 0).take n

/-- `operator[]` on a coefficient vector, LogK_function_of_T.cpp:120-154; in the model every use is guarded by a length test, with
undefined behaviour reported when it fails. -/
def at' (l : List ℝ) (i : Nat) : ℝ := l.getD i 0

/-- The Cp → logK coefficients, LogK_function_of_T.cpp:120-130 (at the current temperature) and
Reaction.cpp:376-385 (at the reference temperature): `A` from the first five `c`. -/
noncomputable def cpToLogK (TK dSr dHr : TS) (c : List ℝ) : List ℝ :=
  let c0 := at' c 0; let c1 := at' c 1; let c2 := at' c 2; let c3 := at' c 3; let c4 := at' c 4
  let sq := TS.powR TK 0.5
  [ (TS.divR (TS.sub (TS.add (TS.add (TS.sub (TS.sub (TS.subR dSr c0) (TS.mulL c0 (TS.log TK))) (TS.mulL c1 TK))
        (TS.divL c2 (TS.mul (TS.mulL 2.0 TK) TK))) (TS.divL (2.0 * c3) sq))
        (TS.divR (TS.mul (TS.mulL c4 TK) TK) 2.0)) Rln10).val,
    c1 / (2.0 * Rln10),
    (TS.divR (TS.neg (TS.sub (TS.sub (TS.add (TS.sub (TS.sub dHr (TS.mulL c0 TK)) (TS.divR (TS.mul (TS.mulL c1 TK) TK) 2.0))
        (TS.divL c2 TK)) (TS.mulL (2.0 * c3) sq)) (TS.divR (TS.mul (TS.mul (TS.mulL c4 TK) TK) TK) 3.0))) Rln10).val,
    c0 / Rln10,
    c2 / (2.0 * Rln10),
    c4 / (6.0 * Rln10),
    -4.0 * c3 / Rln10 ]

/-- The logK → Cp coefficients, LogK_function_of_T.cpp:139-143 and Reaction.cpp:436-440. -/
noncomputable def logKToCp (a : List ℝ) : List ℝ :=
  [Rln10 * at' a 3, Rln10 * 2.0 * at' a 1, Rln10 * 2.0 * at' a 4, -Rln10 * 0.25 * at' a 6, Rln10 * 6.0 * at' a 5]

/-- Local variables lgK, dHr, dSr, dCpr after the switch, LogK_function_of_T.cpp:61-70, 84-163. -/
structure Mid where
  lgK : TS
  H : TS
  S : TS
  Cp : TS

/-- The formulas of case `CTM_LGK`/`CTM_LGX`, LogK_function_of_T.cpp:146-154. -/
noncomputable def mid7 (TK : TS) (a c : Nat → ℝ) : Mid :=
  let T2 := TS.mul TK TK
  let sq := TS.powR TK 0.5
  { lgK := TS.add (TS.add (TS.add (TS.add (TS.add (TS.addL (a 0) (TS.mulL (a 1) TK)) (TS.divL (a 2) TK))
      (TS.mulL (a 3) (TS.log TK))) (TS.divL (a 4) T2)) (TS.mulL (a 5) T2)) (TS.divL (a 6) sq)
    H := TS.mulL Rln10 (TS.sub (TS.add (TS.sub (TS.add (TS.subR (TS.mulL (a 1) T2) (a 2)) (TS.mulL (a 3) TK))
      (TS.divL (2.0 * a 4) TK)) (TS.mulL (2.0 * a 5) (TS.mul T2 TK))) (TS.mulL (0.5 * a 6) sq))
    S := TS.mulL Rln10 (TS.add (TS.add (TS.sub (TS.add (TS.addL (a 0) (TS.mulL (2.0 * a 1) TK))
      (TS.mulL (a 3) (TS.addL 1.0 (TS.log TK)))) (TS.divL (a 4) T2)) (TS.mulL (3.0 * a 5) T2)) (TS.divL (0.5 * a 6) sq))
    Cp := TS.add (TS.add (TS.add (TS.addL (c 0) (TS.mulL (c 1) TK)) (TS.divL (c 2) T2)) (TS.mulL (c 4) T2))
      (TS.divL (c 3) sq) }

/-- Case `CTM_LGK`/`CTM_LGX`, LogK_function_of_T.cpp:111-160.  Reading past the end of `A` or `CpCoeff` is undefined. -/
noncomputable def logK7 (TK dSr dHr : TS) (A Cp : List ℝ) : Res Mid :=
  let AC : List ℝ × List ℝ :=
    if A.length = 0 ∧ Cp.length > 0 then (cpToLogK TK dSr dHr (resize 5 Cp), resize 5 Cp)
    else if Cp.length = 0 ∧ A.length > 0 then (resize 7 A, logKToCp (resize 7 A))
    else (A, Cp)
  if AC.1.length < 7 ∨ AC.2.length < 5 then .ub
  else .ok (mid7 TK (at' AC.1) (at' AC.2))

open Classical in
/-- After the switch, LogK_function_of_T.cpp:164-184. -/
noncomputable def finishLogK (TK Pbar V : TS) (m : Mid) : TPR :=
  let G := TS.mulR (TS.mul (TS.neg (TS.mulR TK Rgas)) m.lgK) lgToLn
  let U := if m.H.val ≠ 0 then TS.sub m.H (TS.mul Pbar V) else TS.default
  let Ah := if m.H.val ≠ 0 then TS.sub U (TS.mul TK m.S) else TS.default
  { TPR.default with
    logK := m.lgK, lnK := TS.mulR m.lgK lgToLn, G := G, H := m.H, S := m.S, Cp := m.Cp, V := V, A := Ah, U := U }

/-- Case `CTM_EK3`, LogK_function_of_T.cpp:104-110. -/
noncomputable def mid3 (TK dHr dSr dCpr : TS) (Tr : ℝ) : Mid :=
  ⟨TS.divR (TS.sub (TS.sub dSr (TS.div dHr TK))
      (TS.mul dCpr (TS.sub (TS.subL 1 (TS.divL Tr TK)) (TS.log (TS.divR TK Tr))))) Rln10,
    TS.addAssign dHr (TS.mul dCpr (TS.subR TK Tr)),
    TS.addAssign dSr (TS.mul dCpr (TS.log (TS.divR TK Tr))), dCpr⟩

/-- The switch over the method, LogK_function_of_T.cpp:84-163. -/
noncomputable def switchT (TK dGr dHr dSr dCpr lgK : TS) (A Cp : List ℝ) (Tr : ℝ) : CorrT → Res Mid
  | .EK0 => .ok ⟨lgK, dHr, dSr, dCpr⟩
  | .EK1 => .ok ⟨TS.divR (TS.div (TS.neg dGr) TK) Rln10, dGr, dSr, dCpr⟩
  | .EK2 => .ok ⟨TS.divR (TS.sub dSr (TS.div dHr TK)) Rln10, dHr, dSr, dCpr⟩
  | .EK3 => .ok (mid3 TK dHr dSr dCpr Tr)
  | .LGK => logK7 TK dSr dHr A Cp
  | .LGX => logK7 TK dSr dHr A Cp
  | .other => .ok ⟨lgK, dHr, dSr, dCpr⟩

/-- A missing enthalpy is filled in from G and S, LogK_function_of_T.cpp:75-76. -/
noncomputable def fillH (TK : TS) (ref : TPR) : TS :=
  if ref.S.has ∧ ref.G.has ∧ ¬ ref.H.has then TS.add ref.G (TS.mul ref.S TK) else ref.H

/-- A missing entropy is filled in from G and H, LogK_function_of_T.cpp:77-78. -/
noncomputable def fillS (TK : TS) (ref : TPR) : TS :=
  if ref.H.has ∧ ref.G.has ∧ ¬ ref.S.has then TS.div (TS.sub ref.H ref.G) TK else ref.S

/-- `thermoPropertiesReaction_LogK_fT`, LogK_function_of_T.cpp:53-185: `ref` are the reference properties, `A` and `Cp` the
`reaction_logK_fT_coeff` and `reaction_Cp_fT_coeff`, `Tr` the reference temperature, `CE` the method. -/
noncomputable def logKfT (TK Pbar : TS) (ref : TPR) (A Cp : List ℝ) (Tr : ℝ) (CE : CorrT) : Res TPR := do
  let dHr := fillH TK ref
  let dSr := fillS TK ref
  let CE' := if CE = .EK3 then determineMethod dHr dSr ref.Cp else CE
  let m ← switchT TK ref.G dHr dSr ref.Cp ref.logK A Cp Tr CE'
  .ok (finishLogK TK Pbar ref.V m)

/-- `Reaction_LogK_fT::thermoProperties`, ThermoModelsReaction.cpp:126-132: `p /= bar_to_Pa`. -/
noncomputable def logKfTEntry (T P : ℝ) (ref : TPR) (A Cp : List ℝ) (Tr : ℝ) (CE : CorrT) : Res TPR :=
  logKfT (TS.temperature T) (TS.divAssignD (TS.pressure P) 1e5) ref A Cp Tr CE

/-! ### Conversions in Reaction.cpp -/

/-- What the conversions read and write of a reaction: the two coefficient vectors and the reference H, S, Cp and log K
(Reaction.cpp:358-462); the last four are the returned `ref_prop`, which callers store back as the reaction's reference
properties.  Values only; ln K and G of the returned properties are multiples of `lgK` (lines 403-406, 448-450) and are left
out. -/
structure ConvState where
  cp : List ℝ
  k : List ℝ
  H : ℝ
  S : ℝ
  Cp : ℝ
  lgK : ℝ

/-- H from logK coefficients, Reaction.cpp:391-392, 431-432. -/
noncomputable def convH (T : ℝ) (k : List ℝ) : ℝ :=
  Rln10 * (at' k 1 * T * T - at' k 2 + at' k 3 * T - 2.0 * at' k 4 / T + 2.0 * at' k 5 * T * T * T
    - 0.5 * at' k 6 * T ^ (0.5 : ℝ))

/-- S from logK coefficients, Reaction.cpp:393-394, 433-434; `K[4]/TK*TK` as written. -/
noncomputable def convS (T : ℝ) (k : List ℝ) : ℝ :=
  Rln10 * (at' k 0 + 2.0 * at' k 1 * T + at' k 3 * (1.0 + Real.log T) - at' k 4 / T * T + 3.0 * at' k 5 * T * T
    + 0.5 * at' k 6 / T ^ (0.5 : ℝ))

/-- Cp at the reference temperature, Reaction.cpp:388, 441; `CpCoeff[2]/TK*TK` as written. -/
noncomputable def convCp (T : ℝ) (c : List ℝ) : ℝ :=
  at' c 0 + at' c 1 * T + at' c 2 / T * T + at' c 3 / T ^ (0.5 : ℝ) + at' c 4 * T * T

/-- log K at the reference temperature, Reaction.cpp:389-390, 429-430; `K[4]/TK*TK` as written. -/
noncomputable def convLgK (T : ℝ) (k : List ℝ) : ℝ :=
  at' k 0 + at' k 1 * T + at' k 2 / T + at' k 3 * Real.log T + at' k 4 / T * T + at' k 5 * T * T + at' k 6 / T ^ (0.5 : ℝ)

/-- `convert_CpfT_to_logKfT`, Reaction.cpp:358-409, values only. Raises when fewer than five Cp coefficients are given. -/
noncomputable def convertCpToLogK (Tr : ℝ) (s : ConvState) : Res ConvState :=
  if s.cp.length < 5 then .throw
  else
    let k := cpToLogK (TS.temperature Tr) (TS.ofVal s.S) (TS.ofVal s.H) s.cp
    .ok ⟨s.cp, k, convH Tr k, convS Tr k, convCp Tr s.cp, convLgK Tr k⟩

/-- `convert_logKfT_toCpfT` for method `CTM_LGK`, Reaction.cpp:411-462, values only; reading fewer than seven coefficients is
undefined. -/
noncomputable def convertLogKToCp (Tr : ℝ) (s : ConvState) : Res ConvState :=
  if s.k.length < 7 then .ub
  else .ok ⟨logKToCp s.k, s.k, convH Tr s.k, convS Tr s.k, convCp Tr (logKToCp s.k), convLgK Tr s.k⟩

/-- `calc_logK_fT_coefficients`, Reaction.cpp:464-519: the 7 coefficients equivalent to an extrapolation method (`CTM_PPE`, which
is treated like `CTM_EK3`, is not in `CorrT`). -/
noncomputable def calcLogK (Tr : ℝ) (logK S H Cp : ℝ) : CorrT → List ℝ
  | .EK0 => [S / Rln10, 0, 0, 0, 0, 0, 0]
  | .EK1 => [0, 0, -H / Rln10, 0, 0, 0, 0]
  | .EK2 => [S / Rln10, 0, -H / Rln10, 0, 0, 0, 0]
  | .EK3 => [(S - Cp * (1 + Real.log Tr)) / Rln10, 0, (Cp * Tr - H) / Rln10, Cp / Rln10, 0, 0, 0]
  | _ => [logK, 0, 0, 0, 0, 0, 0]

end ThermoFun

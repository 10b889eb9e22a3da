import Verif.Model.Batch
import Verif.Model.Units
import Verif.Model.ThermoScalar

/-!
# Model of units and files of `ThermoFun/Batch/ThermoBatch.cpp` and `ThermoFun/Batch/OutputBatch.cpp`

The batch object with its tables of units and digits, its outputs, and the files they write.  An output file is the list of its lines and
a line the list of its cells: separators (C60) and the number of digits are not modelled.  The engine is an oracle that may raise.
-/

namespace ThermoFun
namespace Batch

/-! ### Streams -/

/-- `std::ofstream`: the file it is connected to and whether its error flags are clear. -/
structure OFS where
  file : Option String := none
  good : Bool := true
  deriving DecidableEq

/-- Files: what has been written to each, line by line; modelling device. -/
abbrev Files (L : Type) := String → Option (List L)

/-- `std::ofstream::open(path, std::ios::trunc)` (OutputBatch.cpp:46, 57, 70; OutputToCSV.cpp:86, 95, 104): on a stream that is connected it
sets `failbit` and changes nothing else; otherwise the file is emptied and the flags are cleared.  That the file cannot be created
is not modelled. -/
def OFS.open {L : Type} (path : String) (s : OFS) (fs : Files L) : OFS × Files L :=
  match s.file with
  | some _ => ({ s with good := false }, fs)
  | none => (⟨some path, true⟩, fun p => if p = path then some [] else fs p)

/-- `stream << … << std::endl`: appended to the file, unless an error flag is set; on a stream that is not connected it sets `badbit`. -/
def OFS.write {L : Type} (l : L) (s : OFS) (fs : Files L) : OFS × Files L :=
  if s.good then
    match s.file with
    | some path => (s, fun p => if p = path then some ((fs p).getD [] ++ [l]) else fs p)
    | none => ({ s with good := false }, fs)
  else (s, fs)

/-- `std::ofstream::close()`: disconnects; `failbit` if it was not connected. -/
def OFS.close (s : OFS) : OFS :=
  match s.file with
  | some _ => { s with file := none }
  | none => { s with good := false }

/-! ### Tables -/

/-- `defaultPropertyUnits`, ThermoBatch.h:268-293. -/
def defaultUnits : List (String × String) := [
  ("temperature", "K"), ("pressure", "Pa"),
  ("gibbs_energy", "J/mol"), ("enthalpy", "J/mol"), ("entropy", "J/K/mol"), ("heat_capacity_cp", "J/K/mol"), ("heat_capacity_cv", "J/K/mol"),
  ("volume", "J/bar"), ("helmholtz_energy", "J/mol"), ("internal_energy", "J/mol"),
  ("reaction_gibbs_energy", "J/mol"), ("reaction_helmholtz_energy", "J/mol"), ("reaction_internal_energy", "J/mol"),
  ("reaction_enthalpy", "J/mol"), ("reaction_entropy", "J/K/mol"), ("reaction_volume", "J/bar"), ("reaction_heat_capacity_cp", "J/K/mol"),
  ("reaction_heat_capacity_cv", "J/K/mol"), ("logKr", "1"), ("lnKr", "1")]

/-- `defaultPropertyDigits`, ThermoBatch.h:295-320. -/
def defaultDigits : List (String × Int) := [
  ("temperature", 1), ("pressure", 1),
  ("gibbs_energy", 0), ("enthalpy", 0), ("entropy", 3), ("heat_capacity_cp", 3), ("heat_capacity_cv", 3),
  ("volume", 3), ("helmholtz_energy", 0), ("internal_energy", 0),
  ("reaction_gibbs_energy", 0), ("reaction_helmholtz_energy", 0), ("reaction_internal_energy", 0),
  ("reaction_enthalpy", 0), ("reaction_entropy", 3), ("reaction_volume", 3), ("reaction_heat_capacity_cp", 3),
  ("reaction_heat_capacity_cv", 3), ("logKr", 3), ("lnKr", 3)]

/-- `std::map::at`: `std::out_of_range` for a key that is missing. -/
def mapAt {α : Type} (k : String) : List (String × α) → Res α
  | [] => .throw
  | (a, v) :: l => if a = k then .ok v else mapAt k l

/-- Assignment to the value of a key that is present. -/
def mapSet {α : Type} (k : String) (x : α) : List (String × α) → List (String × α)
  | [] => []
  | (a, v) :: l => if a = k then (a, x) :: l else (a, v) :: mapSet k x l

/-! ### The batch object -/

/-- What the engine hands back for one query: the values of the property names it knows (`selectResultsSubst`, `selectResultsReact`,
ThermoBatch.cpp:180-245) and the pressure it leaves. -/
abbrev Answer := (String → Option TS) × ℝ

/-- The engine as seen by the batch, ThermoBatch.cpp:320-339: a query in kelvin and pascal may raise. -/
abbrev Oracle := ℝ → ℝ → String → Res Answer

/-- `ThermoBatch::Impl`, ThermoBatch.cpp:21-48; the engine is left out (`Oracle`), of the preferences the two that matter here are kept. -/
structure Impl where
  units : List (String × String) := defaultUnits
  digits : List (String × Int) := defaultDigits
  pairsFirst : Bool := true
  writeNaN : Bool := true
  symbols : List String := []
  properties : List String := []
  pairs : List (ℝ × ℝ) := []
  results : List (List TS) := []

/-- Statements executed in order; those before an exception keep their effect.  Modelling device. -/
def runSteps {σ : Type} : List (σ → Res σ) → σ → σ × Res Unit
  | [], s => (s, .ok ())
  | f :: fs, s => match f s with
    | .ok t => runSteps fs t
    | .throw => (s, .throw)
    | .ub => (s, .ub)

/-- Body of the inner loop of `calculate` for symbol `s` and pair `t`, writing row `idx`, ThermoBatch.cpp:266-297.  The stored row is
assigned before the pressure is converted back; if that raises, the row is kept in C++ and lost here (no theorem depends on it). -/
noncomputable def calcStepU (eval : Oracle) (uT uP : String) (s t idx : Nat) (i : Impl) : Res Impl :=
  match i.pairs[t]?, i.symbols[s]? with
  | some (T, P), some sym => do
    let T' ← Units.convert T uT.toList "K".toList
    let P' ← Units.convert P uP.toList "Pa".toList
    let r ← eval T' P' sym
    if idx < i.results.length then do
      let P'' ← Units.convert r.2 "Pa".toList uP.toList
      .ok { i with results := i.results.set idx (i.properties.filterMap r.1), pairs := i.pairs.set t (T, P'') }
    else .ub
  | _, _ => .ub

/-- `calculate`, ThermoBatch.cpp:247-305. -/
noncomputable def calculateU (eval : Oracle) (i : Impl) : Impl × Res Unit :=
  match mapAt "temperature" i.units, mapAt "pressure" i.units with
  | .ok uT, .ok uP =>
    let jSize := if i.pairsFirst then i.pairs.length else i.symbols.length
    let iSize := if i.pairsFirst then i.symbols.length else i.pairs.length
    runSteps ((visits jSize iSize).map fun ji =>
      if i.pairsFirst then calcStepU eval uT uP ji.2 ji.1 (jSize * ji.2 + ji.1)
      else calcStepU eval uT uP ji.1 ji.2 (jSize * ji.2 + ji.1))
      { i with results := List.replicate (jSize * iSize) [] }
  | _, _ => (i, .throw)

/-- A batch request with a list of T-P pairs, ThermoBatch.cpp:410-427, 487-506 (without precomputed properties). -/
noncomputable def request (eval : Oracle) (pairs : List (ℝ × ℝ)) (symbols properties : List String) (i : Impl) : Impl × Res Unit :=
  calculateU eval { i with symbols := symbols, properties := properties, pairs := pairs }

/-! ### Output -/

/-- A cell of a line: text, or a number. -/
inductive Cell where
  | text (s : String)
  | num (x : ℝ)

/-- A name with its unit in parentheses, OutputBatch.cpp:115, 118. -/
def heading (name unit : String) : String := name ++ "(" ++ unit ++ ")"

/-- The headings of the properties, OutputBatch.cpp:117-118. -/
def headings (units : List (String × String)) : List String → Res (List Cell)
  | [] => .ok []
  | p :: ps => do
    let u ← mapAt p units
    let hs ← headings units ps
    .ok (.text (heading p u) :: hs)

/-- `CSVHeader`, OutputBatch.cpp:108-121: the cells of the first line. -/
def csvHeader (i : Impl) : Res (List Cell) := do
  let uT ← mapAt "temperature" i.units
  let uP ← mapAt "pressure" i.units
  let hs ← headings i.units i.properties
  .ok (.text "Symbol" :: .text (heading "T" uT) :: .text (heading "P" uP) :: hs)

/-- The cell of a result of property `p`, OutputBatch.cpp:217-226. -/
noncomputable def csvCell (i : Impl) (p : String) (v : TS) : Res Cell := do
  let _ ← mapAt p i.digits
  if v.sta = .notdefined ∧ i.writeNaN then .ok (.text "NaN")
  else do
    let a ← mapAt p defaultUnits
    let b ← mapAt p i.units
    let x ← Units.convert v.val a.toList b.toList
    .ok (.num x)

/-- The cells of a row of results, OutputBatch.cpp:217-227: `properties[k]` for each result `k`. -/
noncomputable def csvCells (i : Impl) : List String → List TS → Res (List Cell)
  | _, [] => .ok []
  | [], _ :: _ => .ub
  | p :: ps, v :: vs => do
    let c ← csvCell i p v
    let cs ← csvCells i ps vs
    .ok (c :: cs)

/-- A line of the file, OutputBatch.cpp:212-228 (the separator in the symbol is replaced, C60). -/
noncomputable def csvLine (i : Impl) (r : Row ℝ (List TS)) : Res (List Cell) := do
  let _ ← mapAt "temperature" i.digits
  let _ ← mapAt "pressure" i.digits
  let cs ← csvCells i i.properties r.result
  .ok (.text r.symbol :: .num r.T :: .num r.P :: cs)

/-- `toCSV`, OutputBatch.cpp:44-53, with `foutResults`, 174-230.  The stream is left open if something raises.  The cells written of a line
that raises are left out. -/
noncomputable def toCSV (i : Impl) (path : String) (s : OFS) (fs : Files (List Cell)) : (OFS × Files (List Cell)) × Res Unit :=
  let st := s.open path fs
  match csvHeader i with
  | .throw => (st, .throw)
  | .ub => (st, .ub)
  | .ok h =>
    let st := st.1.write h st.2
    match foutResults i.pairsFirst i.symbols i.pairs i.results with
    | .ub => (st, .ub)
    | .ok rows =>
      match runSteps (rows.map fun r => fun st : OFS × Files (List Cell) => do
          let l ← csvLine i r
          .ok (st.1.write l st.2)) st with
      | (st, .ok _) => ((st.1.close, st.2), .ok ())
      | (st, e) => (st, e)

/-- `to2DVectorDouble`, OutputBatch.cpp:91-106. -/
def toVector (i : Impl) : List (List ℝ) := i.results.map fun l => l.map (·.val)

/-- `setPropertyUnit`, ThermoBatch.cpp:534-537. -/
def setPropertyUnit (p u : String) (i : Impl) : Res Impl := do
  let _ ← mapAt p i.units
  .ok { i with units := mapSet p u i.units }

/-- `setPropertiesUnits`, ThermoBatch.cpp:522-526: the second list is read at the indices of the first; those before an exception keep
their effect. -/
def setPropertiesUnits : List String → List String → Impl → Impl × Res Unit
  | [], _, i => (i, .ok ())
  | _ :: _, [], i => (i, .ub)
  | p :: ps, u :: us, i => match setPropertyUnit p u i with
    | .ok i => setPropertiesUnits ps us i
    | .throw => (i, .throw)
    | .ub => (i, .ub)

/-! ### Programs using a batch object -/

/-- What a program may do with a batch object and its outputs, ThermoBatch.h:93-146, OutputBatch.h:20-70. -/
inductive FOp where
  | setUnits (u : List (String × String))
  | setUnit (p u : String)
  | setUnitsOf (ps us : List String)
  | request (pairs : List (ℝ × ℝ)) (symbols properties : List String)
  | toCSV (output : Nat) (path : String)

/-- The batch object, the streams of its outputs in the order of their creation (each output has its own stream and shares the `Impl` of
the batch, OutputBatch.cpp:12-29), and the files. -/
structure World where
  impl : Impl := {}
  outs : List OFS := []
  files : Files (List Cell) := fun _ => none

/-- One call; the program catches exceptions and goes on.  An output is created only by a request that succeeds.  Undefined behaviour and
the use of an output that does not exist: `ub`. -/
noncomputable def fstep (eval : Oracle) (w : World) : FOp → World × Res Unit
  | .setUnits u => ({ w with impl := { w.impl with units := u } }, .ok ())
  | .setUnit p u => match Batch.setPropertyUnit p u w.impl with
    | .ok i => ({ w with impl := i }, .ok ())
    | .throw => (w, .throw)
    | .ub => (w, .ub)
  | .setUnitsOf ps us => match setPropertiesUnits ps us w.impl with
    | (i, r) => ({ w with impl := i }, r)
  | .request pairs symbols properties => match Batch.request eval pairs symbols properties w.impl with
    | (i, .ok _) => ({ w with impl := i, outs := w.outs ++ [{}] }, .ok ())
    | (i, e) => ({ w with impl := i }, e)
  | .toCSV k path => match w.outs[k]? with
    | none => (w, .ub)
    | some s => match Batch.toCSV w.impl path s w.files with
      | ((s', fs'), r) => ({ w with outs := w.outs.set k s', files := fs' }, r)

/-- A program: the outcomes of its calls and the world after it. -/
noncomputable def frun (eval : Oracle) : World → List FOp → World × List (Res Unit)
  | w, [] => (w, [])
  | w, op :: ops =>
    let r := fstep eval w op
    let q := frun eval r.1 ops
    (q.1, r.2 :: q.2)

end Batch
end ThermoFun

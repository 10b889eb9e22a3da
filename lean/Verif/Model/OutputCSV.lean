import Verif.Model.BatchFile

/-!
# Model of `ThermoFun/Common/OutputToCSV.cpp` and `ThermoFun/Common/OutputToCSV.h`

An object with three output streams, for properties of substances, properties of the solvent and its electric properties.  A file is the
sequence of the texts written to it (there at once: buffering is not modelled).  How a number is printed is a parameter `fmt`.  Two streams of one object connected to the same file
are not modelled faithfully (each has a position of its own); that a file cannot be created is not modelled.
-/

namespace ThermoFun
namespace Csv

open Batch (OFS Files)

/-- The three streams, OutputToCSV.h:43-45. -/
inductive Kind where
  | substance | solvent | electro
  deriving DecidableEq

/-- The fields of `ThermoPropertiesSubstance` (ThermoProperties.h:19-44) that are written; a `ThermoScalar` is printed as its value
(ThermoScalar.hpp:589-593). -/
structure SubstRec where
  gibbs_energy : ℝ
  enthalpy : ℝ
  entropy : ℝ
  heat_capacity_cp : ℝ
  heat_capacity_cv : ℝ
  volume : ℝ
  helmholtz_energy : ℝ
  internal_energy : ℝ

/-- The fields of `PropertiesSolvent` (ThermoProperties.h:82-159) that are written. -/
structure SolvRec where
  density : ℝ
  densityT : ℝ
  densityP : ℝ
  densityTT : ℝ
  densityTP : ℝ
  densityPP : ℝ
  Alpha : ℝ
  dAldT : ℝ
  Beta : ℝ

/-- The fields of `ElectroPropertiesSolvent` (ThermoProperties.h:164-201) that are written. -/
structure ElectroRec where
  bornN : ℝ
  bornQ : ℝ
  bornU : ℝ
  bornX : ℝ
  bornY : ℝ
  bornZ : ℝ
  epsilon : ℝ
  epsilonP : ℝ
  epsilonPP : ℝ
  epsilonT : ℝ
  epsilonTP : ℝ
  epsilonTT : ℝ

/-- `headerThermoPropSubst`, `headerPropSolv`, `headerElectroPropSolv`, OutputToCSV.h:27-33. -/
def header : Kind → List Char
  | .substance => "Substance,T(C),P(bar),G0(J/mol),H0(J/mol),S0(J/molK),Cp0(J/molK),Cv0(J/molK),V0(J/bar),A0(J/mol),U0(J/mol)\n".toList
  | .solvent => "Substance,T(C),P(bar),Rho(kg/m3),Rho_dT((kg/m3)/K),Rho_dP((kg/m3)/Pa),Rho_d2T((kg/m3)/K2),Rho_dTdP((kg/m3)/KPa),Rho_d2P((kg/m3)/Pa2,Aplha(1/K),Alpha_dT,Beta(1/Pa)\n".toList
  | .electro => "Substance,T(C),P(bar),bornN(Pa-2),bornQ(Pa-1),bornU(Pa-1K-1),bornX(K-2),bornY(K-1),bornZ,eps,eps_dP,eps_d2P,eps_dT,eps_dTdP,eps_d2T\n".toList

/-- `a << c << b << c << … << std::endl` with `c = ","`. -/
def line : List (List Char) → List Char
  | [] => ['\n']
  | [a] => a ++ ['\n']
  | a :: b :: l => a ++ ',' :: line (b :: l)

/-- The row of a substance, OutputToCSV.cpp:119-122. -/
noncomputable def substRow (fmt : ℝ → List Char) (symbol : List Char) (T P : ℝ) (t : SubstRec) : List Char :=
  line [symbol, fmt T, fmt P, fmt t.gibbs_energy, fmt t.enthalpy, fmt t.entropy, fmt t.heat_capacity_cp, fmt t.heat_capacity_cv, fmt t.volume,
    fmt t.helmholtz_energy, fmt t.internal_energy]

/-- The row of a solvent, OutputToCSV.cpp:135-137. -/
noncomputable def solvRow (fmt : ℝ → List Char) (symbol : List Char) (T P : ℝ) (s : SolvRec) : List Char :=
  line [symbol, fmt T, fmt P, fmt s.density, fmt s.densityT, fmt s.densityP, fmt s.densityTT, fmt s.densityTP, fmt s.densityPP, fmt s.Alpha, fmt s.dAldT,
    fmt s.Beta]

/-- The row of the electric properties, OutputToCSV.cpp:150-154; `bornX` is written twice. -/
noncomputable def electroRow (fmt : ℝ → List Char) (symbol : List Char) (T P : ℝ) (e : ElectroRec) : List Char :=
  line [symbol, fmt T, fmt P, fmt e.bornN, fmt e.bornQ, fmt e.bornU, fmt e.bornX, fmt e.bornX, fmt e.bornY, fmt e.bornZ, fmt e.epsilon, fmt e.epsilonP,
    fmt e.epsilonPP, fmt e.epsilonT, fmt e.epsilonTP, fmt e.epsilonTT]

/-- What is written in one call. -/
inductive Rec where
  | substance (t : SubstRec)
  | solvent (s : SolvRec)
  | electro (e : ElectroRec)

/-- The stream a record goes to. -/
def Rec.kind : Rec → Kind
  | .substance _ => .substance
  | .solvent _ => .solvent
  | .electro _ => .electro

/-- The row of a record. -/
noncomputable def Rec.row (fmt : ℝ → List Char) (symbol : List Char) (T P : ℝ) : Rec → List Char
  | .substance t => substRow fmt symbol T P t
  | .solvent s => solvRow fmt symbol T P s
  | .electro e => electroRow fmt symbol T P e

/-- `std::string::find_last_of("/\\")` and `substr(0, found)` in the constructor, OutputToCSV.cpp:47-53: without a separator the whole path
is kept. -/
def folderOf (path : List Char) : List Char :=
  if path.any (fun c => c = '/' || c = '\\') then (path.reverse.dropWhile (fun c => !(c = '/' || c = '\\'))).tail.reverse else path

/-- `OutputToCSV`: the folder, and for each stream its state and whether its header has been written, OutputToCSV.h:15-25; `files` is the
file system.  The names of the files (17-19) are kept but never used. -/
structure Obj where
  folder : List Char
  streams : Kind → OFS
  isHeader : Kind → Bool
  files : Files (List Char)

/-- The constructor, OutputToCSV.cpp:47-53, with the initial values of OutputToCSV.h:21-23. -/
def Obj.new (path : List Char) (files : Files (List Char)) : Obj := ⟨folderOf path, fun _ => {}, fun _ => false, files⟩

/-- `outputFolderPath + "/" + fileName`, OutputToCSV.cpp:84, 93, 102. -/
def Obj.path (o : Obj) (name : List Char) : String := String.ofList (o.folder ++ '/' :: name)

/-- Change of the state of one stream. -/
def upd {α : Type} (f : Kind → α) (k : Kind) (x : α) : Kind → α := fun j => if j = k then x else f j

/-- `open…File`, OutputToCSV.cpp:80-105. -/
def Obj.open (k : Kind) (name : List Char) (o : Obj) : Obj :=
  let r := (o.streams k).open (o.path name) o.files
  { o with streams := upd o.streams k r.1, files := r.2 }

/-- `close…File`, OutputToCSV.cpp:62-78: nothing happens unless the stream is connected. -/
def Obj.close (k : Kind) (o : Obj) : Obj :=
  match (o.streams k).file with
  | some _ => { o with streams := upd o.streams k (o.streams k).close, isHeader := upd o.isHeader k false }
  | none => o

/-- A text written to a stream. -/
def Obj.put (k : Kind) (s : List Char) (o : Obj) : Obj :=
  let r := (o.streams k).write s o.files
  { o with streams := upd o.streams k r.1, files := r.2 }

/-- `write…`, OutputToCSV.cpp:107-155: the header if its flag is not set, then the row. -/
noncomputable def Obj.write (fmt : ℝ → List Char) (symbol : List Char) (T P : ℝ) (x : Rec) (o : Obj) : Obj :=
  let o := if o.isHeader x.kind then o
    else { o.put x.kind (header x.kind) with isHeader := upd o.isHeader x.kind true }
  o.put x.kind (x.row fmt symbol T P)

/-- What a program may do with the object, OutputToCSV.h:60-70 (`setOutputFolderPath` is left out: the folder is that of the
constructor). -/
inductive Op where
  | open (k : Kind) (name : List Char)
  | close (k : Kind)
  | write (symbol : List Char) (T P : ℝ) (x : Rec)

/-- One call. -/
noncomputable def step (fmt : ℝ → List Char) (o : Obj) : Op → Obj
  | .open k name => o.open k name
  | .close k => o.close k
  | .write symbol T P x => o.write fmt symbol T P x

/-- A program. -/
noncomputable def run (fmt : ℝ → List Char) (o : Obj) (ops : List Op) : Obj := ops.foldl (step fmt) o

/-- The text of a file. -/
def Obj.text (o : Obj) (path : String) : Option (List Char) := (o.files path).map List.flatten

end Csv
end ThermoFun

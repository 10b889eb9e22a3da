import Mathlib.Data.List.Basic
import Verif.Model.Memo

/-!
# Model of `ThermoFun/Batch/ThermoBatch.cpp` and `ThermoFun/Batch/OutputBatch.cpp`

`R` is the type of `double`s.  The engine query of a batch row enters as an oracle
`eval T P symbol = (selected properties, pressure left in P)`; unit conversions of T and P enter as functions.
Text formatting of numbers (precision, fixed/scientific) is not modelled: an output file is the list of its cells.
-/

namespace ThermoFun
namespace Batch

variable {R V : Type} [DecidableEq R]

/-! ### T-P pairs -/

/-- `tpPairs`, `Ts`, `Ps` of `ThermoBatch::Impl`, ThermoBatch.cpp:31-35. -/
structure TP (R : Type) where
  pairs : List (R × R)
  ts : List R
  ps : List R

/-- `std::find(v) == end → push_back`, ThermoBatch.cpp:121-124. -/
def pushNew (l : List R) (x : R) : List R := if x ∈ l then l else l ++ [x]

/-- `addTPpair`, ThermoBatch.cpp:118-127. -/
def addTPpair (s : TP R) (t p : R) : TP R := ⟨s.pairs ++ [(t, p)], pushNew s.ts t, pushNew s.ps p⟩

/-- `clearTPpairs`, ThermoBatch.cpp:83-88. -/
def clearTP : TP R := ⟨[], [], []⟩

/-- `addTPpairs(vvd)`, ThermoBatch.cpp:170-177. -/
def addPairs (l : List (R × R)) : TP R := l.foldl (fun s q => addTPpair s q.1 q.2) clearTP

/-- `addTPpairs(temperatures, pressures)`, ThermoBatch.cpp:129-144; `tFirst` is `loopTemperatureThenPressure`. -/
def addGrid (tFirst : Bool) (temps press : List R) : TP R :=
  if tFirst then
    temps.foldl (fun s r => press.foldl (fun s c => addTPpair s r c) s) clearTP
  else
    press.foldl (fun s r => temps.foldl (fun s c => addTPpair s c r) s) clearTP

/-- The `do { x = x + step; push_back(x); } while (x < max)` loop, ThermoBatch.cpp:156-160 and 162-166.
`fuel` bounds the number of iterations; `none` means the loop is still running. -/
def rangeLoop {R : Type} [Add R] [LT R] [DecidableLT R] (step max : R) : Nat → R → Option (List R)
  | 0, _ => none
  | fuel + 1, x =>
    let x' := x + step
    if x' < max then (rangeLoop step max fuel x').map (x' :: ·) else some [x']

/-- One axis of `addTPpairs(Tmin,Tmax,Tstep,Pmin,Pmax,Pstep)`, ThermoBatch.cpp:146-166: starts at `min - step`. -/
def range {R : Type} [Add R] [Sub R] [LT R] [DecidableLT R] (fuel : Nat) (min max step : R) : Option (List R) :=
  rangeLoop step max fuel (min - step)

/-! ### calculate -/

/-- State of the double loop: the `results` vector (`none` = still the empty row made by `resize`) and the pressures of
the T-P pairs, which are overwritten as the loop goes. -/
structure CalcState (R V : Type) where
  results : List (Option V)
  pairs : List (R × R)

/-- Unit conversions between the user's units and the default ones, ThermoBatch.cpp:250-253. -/
structure Conv (R : Type) where
  toT : R → R
  toP : R → R
  fromP : R → R

/-- Body of the inner loop for symbol index `s` and pair index `t`, writing row `idx`; ThermoBatch.cpp:266-297.
Out-of-range accesses are undefined behaviour. -/
def calcStep (cv : Conv R) (eval : R → R → String → V × R) (symbols : List String) (s t idx : Nat)
    (st : CalcState R V) : Outc (CalcState R V) :=
  match st.pairs[t]?, symbols[s]? with
  | some (T, P), some sym =>
    let r := eval (cv.toT T) (cv.toP P) sym
    if idx < st.results.length then
      .ok ⟨st.results.set idx (some r.1), st.pairs.set t (T, cv.fromP r.2)⟩
    else .ub
  | _, _ => .ub

/-- The order in which `(j, i)` is visited: `for j … for i …`, ThermoBatch.cpp:262-265. -/
def visits (jSize iSize : Nat) : List (Nat × Nat) :=
  (List.range jSize).flatMap (fun j => (List.range iSize).map (fun i => (j, i)))

/-- `calculate`, ThermoBatch.cpp:247-299, up to the final rebuild of the T-P lists.
`pairsFirst` is `loopOverTPpairsFirst`. -/
def calculate (pairsFirst : Bool) (cv : Conv R) (eval : R → R → String → V × R) (symbols : List String)
    (pairs : List (R × R)) : Outc (CalcState R V) :=
  let jSize := if pairsFirst then pairs.length else symbols.length
  let iSize := if pairsFirst then symbols.length else pairs.length
  (visits jSize iSize).foldl
    (fun st ji => match st with
      | .ub => .ub
      | .ok st =>
        if pairsFirst then calcStep cv eval symbols ji.2 ji.1 (jSize * ji.2 + ji.1) st
        else calcStep cv eval symbols ji.1 ji.2 (jSize * ji.2 + ji.1) st)
    (.ok ⟨List.replicate (jSize * iSize) none, pairs⟩)

/-! ### Property selection -/

/-- `selectResultsSubst` / `selectResultsSolvent` / `selectResultsReact`, ThermoBatch.cpp:180-245: the requested names are
scanned in order and a value is pushed only for names the selector knows.  `known` maps a known name to its field. -/
def select (known : String → Option V) (properties : List String) : List V := properties.filterMap known

/-- The names known to `selectResultsSubst`, ThermoBatch.cpp:185-192. -/
def substNames : List String :=
  ["gibbs_energy", "helmholtz_energy", "internal_energy", "enthalpy", "entropy", "volume", "heat_capacity_cp",
   "heat_capacity_cv"]

/-- The names known to `selectResultsReact`, ThermoBatch.cpp:233-242. -/
def reactNames : List String :=
  ["reaction_gibbs_energy", "reaction_helmholtz_energy", "reaction_internal_energy", "reaction_enthalpy",
   "reaction_entropy", "reaction_volume", "reaction_heat_capacity_cp", "reaction_heat_capacity_cv", "logKr", "lnKr"]

/-- The names known to `selectResultsSolvent`, ThermoBatch.cpp:202-223. -/
def solventNames : List String :=
  ["density", "densityT", "densityP", "densityTT", "densityTP", "densityPP", "alpha", "beta", "alphaT", "epsilon",
   "epsilonT", "epsilonP", "epsilonTT", "epsilonTP", "epsilonPP", "bornZ", "bornY", "bornQ", "bornN", "bornU", "bornX"]

/-! ### Output -/

/-- One row of the CSV written by `foutResults`: symbol, T, P and the stored result row, OutputBatch.cpp:195-229. -/
structure Row (R V : Type) where
  symbol : String
  T : R
  P : R
  result : V
  deriving DecidableEq

/-- Collect outcomes in order; the first undefined behaviour wins. -/
def Outc.all {A : Type} : List (Outc A) → Outc (List A)
  | [] => .ok []
  | .ub :: _ => .ub
  | .ok a :: rest => match Outc.all rest with
    | .ub => .ub
    | .ok l => .ok (a :: l)

/-- `foutResults`, OutputBatch.cpp:174-230: rows for `i` outer, `j` inner, reading `results[j_size*i + j]`. -/
def foutResults (pairsFirst : Bool) (symbols : List String) (pairs : List (R × R)) (results : List V) :
    Outc (List (Row R V)) :=
  let jSize := if pairsFirst then pairs.length else symbols.length
  let iSize := if pairsFirst then symbols.length else pairs.length
  Outc.all ((visits iSize jSize).map (fun ij =>
    let t := if pairsFirst then ij.2 else ij.1
    let s := if pairsFirst then ij.1 else ij.2
    match pairs[t]?, symbols[s]?, results[jSize * ij.1 + ij.2]? with
    | some (T, P), some sym, some r => .ok ⟨sym, T, P, r⟩
    | _, _, _ => .ub))

/-- One row of the transposed CSV: property name, T, P and one value per symbol, OutputBatch.cpp:254-292. -/
structure TRow (R V : Type) where
  property : String
  T : R
  P : R
  values : List V

/-- `foutResultsTransposed`, OutputBatch.cpp:232-293. -/
def foutTransposed (pairsFirst : Bool) (symbols properties : List String) (pairs : List (R × R))
    (results : List (List V)) : Outc (List (TRow R V)) :=
  let jSize := if pairsFirst then pairs.length else properties.length
  let iSize := if pairsFirst then properties.length else pairs.length
  Outc.all ((visits iSize jSize).map (fun ij =>
    let t := if pairsFirst then ij.2 else ij.1
    let q := if pairsFirst then ij.1 else ij.2
    match pairs[t]?, properties[q]? with
    | some (T, P), some prop =>
      match Outc.all ((List.range symbols.length).map (fun k =>
          let row := if pairsFirst then pairs.length * k + ij.2 else symbols.length * ij.1 + k
          let col := if pairsFirst then ij.1 else ij.2
          match results[row]? with
          | some l => match l[col]? with
            | some v => .ok v
            | none => Outc.ub
          | none => .ub)) with
      | .ok vs => .ok ⟨prop, T, P, vs⟩
      | .ub => .ub
    | _, _ => .ub))

/-- One cell of the property grid: symbol, row coordinate, column coordinate (from the header), value. -/
structure GCell (R V : Type) where
  symbol : String
  row : R
  col : R
  value : V
  deriving DecidableEq

/-- The cells of one grid line, OutputBatch.cpp:341-352: `results[count]` for consecutive counts. -/
def gridLine (sym : String) (r : R) (results : List V) : List R → Nat → Outc (List (GCell R V) × Nat)
  | [], count => .ok ([], count)
  | c :: cs, count =>
    match results[count]? with
    | none => .ub
    | some v => match gridLine sym r results cs (count + 1) with
      | .ub => .ub
      | .ok (l, n) => .ok (⟨sym, r, c, v⟩ :: l, n)

/-- The lines of one symbol, OutputBatch.cpp:333-354; `break` when `count == results.size()` at the start of a line. -/
def gridRows (sym : String) (cols : List R) (results : List V) : List R → Nat → Outc (List (GCell R V) × Nat)
  | [], count => .ok ([], count)
  | r :: rs, count =>
    if count = results.length then .ok ([], count)
    else match gridLine sym r results cols count with
      | .ub => .ub
      | .ok (l, n) => match gridRows sym cols results rs n with
        | .ub => .ub
        | .ok (l', n') => .ok (l ++ l', n')

/-- `foutPropertyGrid` for one property (loop over pairs first), OutputBatch.cpp:322-355; `results` is the column of that
property. -/
def grid (cols rows : List R) (results : List V) : List String → Nat → Outc (List (GCell R V))
  | [], _ => .ok []
  | sym :: syms, count =>
    match gridRows sym cols results rows count with
    | .ub => .ub
    | .ok (l, n) => match grid cols rows results syms n with
      | .ub => .ub
      | .ok l' => .ok (l ++ l')

/-- Rows and columns chosen from `Temperatures()` and `Pressures()`, OutputBatch.cpp:306-330. -/
def propertyGrid (tFirst : Bool) (tp : TP R) (symbols : List String) (results : List V) :
    Outc (List (GCell R V)) :=
  if tFirst then grid tp.ps tp.ts results symbols 0 else grid tp.ts tp.ps results symbols 0

/-! ### find_and_replace -/

/-- `std::string::find(pat)` on the rest of the string: text before and after the first occurrence. -/
def findFirst (pat : List Char) : List Char → Option (List Char × List Char)
  | [] => if pat = [] then some ([], []) else none
  | c :: cs =>
    if pat <+: c :: cs then some ([], (c :: cs).drop pat.length)
    else (findFirst pat cs).map (fun ba => (c :: ba.1, ba.2))

/-- The loop of `find_and_replace`, OutputBatch.cpp:36-40; `none` = still running after `fuel` iterations. -/
def replaceLoop (pat rep : List Char) : Nat → List Char → Nat → Option (List Char)
  | 0, _, _ => none
  | fuel + 1, src, i =>
    match findFirst pat (src.drop i) with
    | none => some src
    | some (b, a) => replaceLoop pat rep fuel (src.take i ++ b ++ rep ++ a) (i + b.length + rep.length)

/-- `find_and_replace(source, find, replace)`, OutputBatch.cpp:34-42. -/
def findAndReplace (fuel : Nat) (src pat rep : List Char) : Option (List Char) := replaceLoop pat rep fuel src 0

/-! ### Aliasing of outputs -/

/-- The batch object and the outputs made from it: `Output::Impl` stores `ThermoBatch(batch_)`, a copy of the handle whose
`shared_ptr` points to the same `Impl` (OutputBatch.cpp:20-22, ThermoBatch.h:154).  `Q` is a batch request. -/
inductive BOp (Q : Type) where
  | request (q : Q)
  | read (handle : Nat)

/-- Batch state: the results of the shared `Impl` and the number of outputs handed out. -/
structure BState (A : Type) where
  impl : Option A
  handles : Nat

/-- A request overwrites the shared results and returns a new output; reading any output reads the shared results
(ThermoBatch.cpp:352-507, OutputBatch.cpp:81-106).  Reading a handle never handed out is not a C++ program: `none`. -/
def bstep {Q A : Type} (answer : Q → A) (s : BState A) : BOp Q → Option A × BState A
  | .request q => (none, ⟨some (answer q), s.handles + 1⟩)
  | .read h => (if h < s.handles then s.impl else none, s)

end Batch

/-! ### Copies of engines -/

/-- Engine objects on the heap: `data` is the engine's own database and preferences, `bound` is the object whose `this`
was captured by its `std::function` members (ThermoEngine.cpp:91-112). -/
structure EngineObj (Env : Type) where
  data : Env
  bound : Nat

/-- Client operations on engines.  New engines get the next free number. -/
inductive EOp (Env Q : Type) where
  | new (e : Env)
  | copy (src : Nat)
  | change (i : Nat) (e : Env)
  | destroy (i : Nat)
  | query (i : Nat) (q : Q)

/-- Heap of engines; `none` = destroyed or not yet made. -/
structure EHeap (Env : Type) where
  objs : Nat → Option (EngineObj Env)
  next : Nat

/-- One client step.  `ThermoEngine(const ThermoEngine&)` (ThermoEngine.cpp:851-854) copies `Impl` member-wise, hence the
`std::function` members together with the captured pointer; constructors from a database or file run `set_fn`, which
captures the new object.  A query by symbol runs the captured object's calculation (ThermoEngine.cpp:856-859).
Use of a destroyed object is undefined behaviour. -/
def estep {Env Q A : Type} (f : Env → Q → A) (h : EHeap Env) : EOp Env Q → Outc (Option A × EHeap Env)
  | .new e => .ok (none, ⟨fun n => if n = h.next then some ⟨e, h.next⟩ else h.objs n, h.next + 1⟩)
  | .copy src => match h.objs src with
    | none => .ub
    | some o => .ok (none, ⟨fun n => if n = h.next then some o else h.objs n, h.next + 1⟩)
  | .change i e => match h.objs i with
    | none => .ub
    | some o => .ok (none, ⟨fun n => if n = i then some ⟨e, o.bound⟩ else h.objs n, h.next⟩)
  | .destroy i => match h.objs i with
    | none => .ub
    | some _ => .ok (none, ⟨fun n => if n = i then none else h.objs n, h.next⟩)
  | .query i q => match h.objs i with
    | none => .ub
    | some o => match h.objs o.bound with
      | none => .ub
      | some b => .ok (some (f b.data q), h)

/-- A client program. -/
def erun {Env Q A : Type} (f : Env → Q → A) : EHeap Env → List (EOp Env Q) → Outc (List (Option A) × EHeap Env)
  | h, [] => .ok ([], h)
  | h, op :: ops => match estep f h op with
    | .ub => .ub
    | .ok (r, h') => match erun f h' ops with
      | .ub => .ub
      | .ok (rs, h'') => .ok (r :: rs, h'')

end ThermoFun

import Mathlib.Data.List.Basic

/-!
# Model of `ThermoFun/OptimizationUtils.h` (memoisation)

A `std::map<key,value>` is modelled by an association list with the newest binding first; only lookup, insertion of an
absent key, erasure and size are used, for which the sorted order of the map is irrelevant.
The memoised function may raise: its result is `Except ε V`.
-/

namespace ThermoFun

variable {K V ε : Type} [DecidableEq K]

/-- State captured by the closure of `memoizeN`: the map `*cache` and the list `usage_order`
(front = head), OptimizationUtils.h:55-56.  `memoize` (line 14) uses `entries` only. -/
structure Cache (K V : Type) where
  entries : List (K × V)
  order : List K

namespace Cache

/-- Fresh closure state, OptimizationUtils.h:14, 55-56. -/
def empty : Cache K V := ⟨[], []⟩

/-- `cache->find(t)`, OptimizationUtils.h:18, 72. -/
def find (c : Cache K V) (k : K) : Option V := c.entries.lookup k

/-- `cache->erase(t)`, OptimizationUtils.h:67. -/
def erase (l : List (K × V)) (k : K) : List (K × V) := l.filter (fun e => e.1 ≠ k)

/-- The eviction block, OptimizationUtils.h:62-69.  It runs before the lookup on every call. -/
def evict (max : Nat) (c : Cache K V) : Cache K V :=
  if c.entries.length ≥ max then
    match c.order.getLast? with
    | none => c
    | some b => ⟨erase c.entries b, c.order.dropLast⟩
  else c

/-- `(*cache)[t] = v; usage_order.push_front(t)`, OptimizationUtils.h:73-74.  An existing binding of `t` is
overwritten (assignment through `operator[]`), and `t` is pushed on the order list in any case. -/
def insert (c : Cache K V) (k : K) (v : V) : Cache K V := ⟨(k, v) :: erase c.entries k, k :: c.order⟩

/-- One call of the closure returned by `memoizeN(f,max)`, OptimizationUtils.h:58-78.
Since C++17 the right side of `(*cache)[t] = f(args...)` is evaluated first, so a throwing `f` inserts nothing,
but the eviction has already happened. -/
def callN (max : Nat) (f : K → Except ε V) (c : Cache K V) (k : K) : Except ε V × Cache K V :=
  let c := evict max c
  match c.find k with
  | some v => (.ok v, c)
  | none =>
    match f k with
    | .ok v => (.ok v, c.insert k v)
    | .error e => (.error e, c)

/-- One call of the closure returned by `memoize(f)`, OptimizationUtils.h:15-21 (the order list is not used). -/
def call (f : K → Except ε V) (c : Cache K V) (k : K) : Except ε V × Cache K V :=
  match c.find k with
  | some v => (.ok v, c)
  | none =>
    match f k with
    | .ok v => (.ok v, ⟨(k, v) :: c.entries, c.order⟩)
    | .error e => (.error e, c)

/-- A sequence of calls of a closure with state `S`. -/
def runCalls {S A R : Type} (step : S → A → R × S) : S → List A → List R × S
  | s, [] => ([], s)
  | s, a :: as =>
    let (r, s') := step s a
    let (rs, s'') := runCalls step s' as
    (r :: rs, s'')

end Cache

/-! ### `memoizeLast` -/

/-- State captured by the closure of `memoizeLast`, OptimizationUtils.h:27-28: the last argument tuple and the last
result, both default-constructed at the start. -/
structure LastCache (K V : Type) where
  key : K
  result : V

/-- One call of the closure, OptimizationUtils.h:29-35.  The key is stored *before* `f` runs (line 33), so it stays
when `f` raises. -/
def LastCache.call (f : K → Except ε V) (c : LastCache K V) (k : K) : Except ε V × LastCache K V :=
  if k = c.key then (.ok c.result, c)
  else
    match f k with
    | .ok v => (.ok v, ⟨k, v⟩)
    | .error e => (.error e, ⟨k, c.result⟩)

/-! ### Recursion through the cache

The memoised functions call each other through the cache (ThermoEngine.cpp:598, 615, 812, 326-331), i.e. `f` in line 73
of OptimizationUtils.h re-enters the closure. -/

/-- What the body of a memoised calculation does: it finishes with a value or asks the cache for another key and
continues with the answer (ThermoEngine.cpp:598, 615, 812). -/
inductive Prog (K V : Type) where
  | ret (v : V)
  | ask (k : K) (cont : V → Prog K V)

/-- Run a body, threading the cache through the nested queries. -/
def Prog.exec (ask : Cache K V → K → Option (V × Cache K V)) : Prog K V → Cache K V → Option (V × Cache K V)
  | .ret v, c => some (v, c)
  | .ask k cont, c =>
    match ask c k with
    | none => none
    | some (v, c') => (cont v).exec ask c'

/-- One call of the `memoizeN` closure when the memoised function is `body` and re-enters the closure.
`fuel` bounds the nesting depth; `none` is stack exhaustion.  OptimizationUtils.h:58-78. -/
def Cache.callRec (max : Nat) (body : K → Prog K V) : Nat → Cache K V → K → Option (V × Cache K V)
  | 0, _, _ => none
  | fuel + 1, c, k =>
    let c := Cache.evict max c
    match c.find k with
    | some v => some (v, c)
    | none =>
      match (body k).exec (Cache.callRec max body fuel) c with
      | none => none
      | some (v, c') => some (v, c'.insert k v)

/-! ### Cached queries against changing data -/

/-- A client operation on an engine: a query, or a change of the database or preferences
(ThermoEngine.cpp:856-925). -/
inductive EnvOp (Env K : Type) where
  | query (k : K)
  | change (e : Env)

/-- The engine's cached function reads the current data (lambdas in `set_fn` capture `this`,
ThermoEngine.cpp:91-112) but the caches are created once in the constructor and never cleared. -/
def stepEnv {Env : Type} (max : Nat) (f : Env → K → Except ε V) (s : Env × Cache K V) :
    EnvOp Env K → Option (Except ε V) × (Env × Cache K V)
  | .change e => (none, (e, s.2))
  | .query k => let (r, c) := Cache.callN max (f s.1) s.2 k; (some r, (s.1, c))

/-! ### Keys that hold a reference to the caller's pressure variable -/

/-- A cached key: `std::tuple<double,double,double&,std::string>` (ThermoEngine.cpp:93 with OptimizationUtils.h:60).
The third component is a reference, modelled by the address of the caller's variable. -/
structure RefKey (R : Type) where
  T : R
  P : R
  addr : Nat
  sym : String
  deriving DecidableEq

/-- Memory of pressure variables; `none` is a variable whose lifetime has ended. -/
abbrev PMem (R : Type) := Nat → Option R

/-- Outcome of a step: a result, or undefined behaviour. -/
inductive Outc (A : Type) where
  | ok (a : A)
  | ub
  deriving DecidableEq

variable {R : Type} [DecidableEq R]

/-- Lookup of a fresh key in the cache.  Tuples compare component by component, so the reference of a stored key
is read as soon as its first two components agree.  Reading a dead variable is undefined behaviour.
Simplification: all stored keys are inspected, newest first, while `std::map::find` inspects those on a search path. -/
def refFind (m : PMem R) (T P : R) (sym : String) : List (RefKey R × V) → Outc (Option V)
  | [] => .ok none
  | (k, v) :: rest =>
    if k.T = T ∧ k.P = P then
      match m k.addr with
      | none => .ub
      | some p => if p = P ∧ k.sym = sym then .ok (some v) else refFind m T P sym rest
    else refFind m T P sym rest

/-- A query by reference through the unbounded cache, ThermoEngine.cpp:856-859 with OptimizationUtils.h:15-21.
`f T P sym` returns the properties and the pressure left in the caller's variable
(`P` itself, or the saturation pressure when `P = 0`: ThermoModelsSolvent.cpp, ThermoEngine.cpp:229-466). -/
def refQuery (f : R → R → String → V × R) (s : PMem R × List (RefKey R × V)) (T : R) (addr : Nat) (sym : String) :
    Outc (V × (PMem R × List (RefKey R × V))) :=
  match s.1 addr with
  | none => .ub
  | some P =>
    match refFind s.1 T P sym s.2 with
    | .ub => .ub
    | .ok (some v) => .ok (v, s)
    | .ok none =>
      let (v, P') := f T P sym
      .ok (v, (fun a => if a = addr then some P' else s.1 a), (⟨T, P, addr, sym⟩, v) :: s.2)

/-! ### Copied engines -/

/-- Two engines after `ThermoEngine b(a)`: the copied `std::function` objects share the map (a `shared_ptr`) but each
holds its own `usage_order` (captured by value), OptimizationUtils.h:55-58 with ThermoEngine.cpp:851-854. -/
structure TwinCache (K V : Type) where
  entries : List (K × V)
  orderA : List K
  orderB : List K

/-- A call through engine A (`useB = false`) or its copy B (`useB = true`), OptimizationUtils.h:58-78. -/
def TwinCache.call (max : Nat) (f : K → Except ε V) (c : TwinCache K V) (q : Bool × K) :
    Except ε V × TwinCache K V :=
  if q.1 then
    let (r, c') := Cache.callN max f ⟨c.entries, c.orderB⟩ q.2
    (r, ⟨c'.entries, c.orderA, c'.order⟩)
  else
    let (r, c') := Cache.callN max f ⟨c.entries, c.orderA⟩ q.2
    (r, ⟨c'.entries, c'.order, c.orderB⟩)

end ThermoFun

import Verif.Model.Memo

/-!
# Programs whose pressure variables live during one request only

`ThermoBatch::Impl::calculate` keeps the pressure in a local variable (ThermoBatch.cpp:249) and hands a reference to it to the engine for every query of the
request (ThermoBatch.cpp:320-339); a call from Python hands over a reference to a number that pybind11 holds during the call (pyThermoEngine.cpp:43-85, 98-111).
The engine keeps the reference in the keys of its caches (Model/Memo.lean).
-/

namespace ThermoFun
namespace Scopes

variable {R V : Type} [DecidableEq R]

/-- The state of memory and cache. -/
abbrev St (R V : Type) := PMem R × List (RefKey R × V)

/-- One query of a request: the variable is assigned, then handed to the engine, ThermoBatch.cpp:270-284.  The pressure it leaves behind is stored in the list of
pairs (286-294) and not used here: it is part of the queries that follow. -/
def query (f : R → R → String → V × R) (addr : Nat) (s : St R V) (q : R × R × String) : Outc (V × St R V) :=
  refQuery f (fun x => if x = addr then some q.2.1 else s.1 x, s.2) q.1 addr q.2.2

/-- The queries of a request, ThermoBatch.cpp:262-297. -/
def queries (f : R → R → String → V × R) (addr : Nat) : St R V → List (R × R × String) → Outc (List V × St R V)
  | s, [] => .ok ([], s)
  | s, q :: qs => match query f addr s q with
    | .ub => .ub
    | .ok (v, s) => match queries f addr s qs with
      | .ub => .ub
      | .ok (vs, s) => .ok (v :: vs, s)

/-- A request, `calculate`, ThermoBatch.cpp:247-301: its variable is gone after it.  A call from Python is a request with one query. -/
def request (f : R → R → String → V × R) (addr : Nat) (s : St R V) (qs : List (R × R × String)) : Outc (List V × St R V) :=
  match queries f addr s qs with
  | .ub => .ub
  | .ok (vs, s) => .ok (vs, (fun x => if x = addr then none else s.1 x, s.2))

/-- Requests one after another, each with a variable of its own.  (That a variable may be placed where an earlier one was does not make the earlier one alive
again.)  Simplification: the cache is never full, which it is after 1000000 different queries. -/
def requests (f : R → R → String → V × R) : Nat → St R V → List (List (R × R × String)) → Outc (List (List V))
  | _, _, [] => .ok []
  | n, s, q :: qs => match request f n s q with
    | .ub => .ub
    | .ok (vs, s) => match requests f (n + 1) s qs with
      | .ub => .ub
      | .ok l => .ok (vs :: l)

end Scopes
end ThermoFun

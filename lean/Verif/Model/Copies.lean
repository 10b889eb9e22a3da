import Mathlib.Logic.Function.Basic
import Mathlib.Data.List.Basic

/-!
# Model of the objects behind databases and records

`Database`, `Substance`, `Reaction` and `Element` hold their data behind a pointer `pimpl`.  Here objects are variables that hold addresses,
and a heap has what the addresses point to: the data of a record (`Substance::Impl`, `Reaction::Impl`, `Element::Impl`) or the maps of a
database (`Database::Impl`).  `κ` is the type of keys (kind of record and symbol), `α` that of the data of a record, `β` that of the data a
`Database::Impl` holds by value (`all_elements`, `conventions`, Database.cpp:40-44).

Addresses are not used again after an object is destroyed: the data of objects no variable points to stay in the heap.
-/

namespace ThermoFun.Copies

variable {κ α β : Type} [DecidableEq κ] [Inhabited α] [Inhabited β]

/-- `Database::Impl`, Database.cpp:28-45: the maps from symbols to records, of which each holds a pointer to its data; and the other members. -/
structure Impl (κ β : Type) where
  recs : List (κ × ℕ)
  rest : β

/-- The heap and the variables of a program: databases (Database.h:227) and records (Substance.h:198, Reaction.h:171, Element.h:114). -/
structure St (κ α β : Type) where
  cell : ℕ → α
  impl : ℕ → Impl κ β
  next : ℕ
  dbs : String → Option ℕ
  recs : String → Option ℕ

/-- A program before its first statement (modelling device, no source counterpart). -/
def St.init : St κ α β := ⟨fun _ => default, fun _ => ⟨[], default⟩, 0, fun _ => none, fun _ => none⟩

/-- `std::map::find`. -/
def look (k : κ) : List (κ × ℕ) → Option ℕ
  | [] => none
  | (q, a) :: l => if q = k then some a else look k l

/-- The copies of the records of a map, as the copy constructor of `std::map` makes them with those of the records
(Substance.cpp:96-98, Reaction.cpp:161-163, Element.cpp:56-58: `pimpl(new Impl(*other.pimpl))`). -/
def copyRecs : List (κ × ℕ) → (ℕ → α) → ℕ → List (κ × ℕ) × (ℕ → α) × ℕ
  | [], c, n => ([], c, n)
  | (k, a) :: l, c, n =>
    let r := copyRecs l (Function.update c n (c a)) (n + 1)
    ((k, n) :: r.1, r.2)

/-- Statements of a program. -/
inductive Stmt (κ α β : Type)
  /-- `Substance r(json)` and the like. -/
  | newRec (r : String) (v : α)
  /-- `Substance r(q)` and `r = q`. -/
  | copyRec (r q : String)
  /-- Setters on a record `r`. -/
  | modRec (r : String) (f : α → α)
  /-- `Database x`. -/
  | newDb (x : String) (b : β)
  /-- `Database x(y)` and `x = y`. -/
  | copyDb (x y : String)
  /-- `x.addSubstance(r)` and the like; `k` is the symbol of `r`. -/
  | add (x : String) (k : κ) (r : String)
  /-- `x.setSubstance(r)` and the like, and the loading of records. -/
  | set (x : String) (k : κ) (r : String)
  /-- `r = x.getSubstance(k)` and the like. -/
  | get (r x : String) (k : κ)
  /-- `x.substance(k)` and the like: creates the record `d` if there is none. -/
  | touch (x : String) (k : κ) (d : α)
  /-- Setters on the reference `x.substance(k)`, now or kept from before, as long as the record is there. -/
  | modify (x : String) (k : κ) (f : α → α)
  /-- Changes of the members held by value. -/
  | rest (x : String) (g : β → β)
  /-- `x.addMapSubstances(y.mapSubstances())` and the like; `p` says which keys are of that kind. -/
  | replace (x : String) (p : κ → Bool) (y : String)

/-- `map[k] = record` and `map.insert({k, record})`: `Substance::operator=(Substance other)` (Substance.cpp:103-107, Reaction.cpp:168-172,
Element.cpp:79-83) takes the pointer of a copy. -/
def St.put (s : St κ α β) (i : ℕ) (k : κ) (v : α) : St κ α β :=
  { s with
    cell := Function.update s.cell s.next v
    impl := Function.update s.impl i ⟨(k, s.next) :: (s.impl i).recs.filter (fun p => p.1 ≠ k), (s.impl i).rest⟩
    next := s.next + 1 }

/-- A record object with its own data: Substance.cpp:84-98, Reaction.cpp:149-163, Element.cpp:44-58. -/
def St.alloc (s : St κ α β) (r : String) (v : α) : St κ α β :=
  { s with cell := Function.update s.cell s.next v, recs := Function.update s.recs r (some s.next), next := s.next + 1 }

/-- The effect of a statement.  One on an undeclared variable, which a program cannot have, does nothing, and so does getting a record that is
not there, which raises. -/
def St.step (s : St κ α β) : Stmt κ α β → St κ α β
  | .newRec r v => s.alloc r v
  | .copyRec r q =>
    match s.recs q with
    | none => s
    | some a => s.alloc r (s.cell a)
  | .modRec r f =>
    match s.recs r with
    | none => s
    | some a => { s with cell := Function.update s.cell a (f (s.cell a)) }
  -- Database.cpp:391-393
  | .newDb x b => { s with impl := Function.update s.impl s.next ⟨[], b⟩, dbs := Function.update s.dbs x (some s.next), next := s.next + 1 }
  -- Database.cpp:403-411: `pimpl(new Impl(*other.pimpl))`, the implicit copy constructor of `Impl`; assignment takes the pointer of a copy
  | .copyDb x y =>
    match s.dbs y with
    | none => s
    | some i =>
      let c := copyRecs (s.impl i).recs s.cell s.next
      { s with
        cell := c.2.1
        impl := Function.update s.impl c.2.2 ⟨c.1, (s.impl i).rest⟩
        dbs := Function.update s.dbs x (some c.2.2)
        next := c.2.2 + 1 }
  -- Database.cpp:95-99, 108-111, 131-134
  | .add x k r =>
    match s.dbs x, s.recs r with
    | some i, some a => if (look k (s.impl i).recs).isSome then s else s.put i k (s.cell a)
    | _, _ => s
  -- Database.cpp:101-106, 113-117, 136-140
  | .set x k r =>
    match s.dbs x, s.recs r with
    | some i, some a => s.put i k (s.cell a)
    | _, _ => s
  -- Database.cpp:176-198
  | .get r x k =>
    match s.dbs x with
    | none => s
    | some i =>
      match look k (s.impl i).recs with
      | none => s
      | some a => s.alloc r (s.cell a)
  -- Database.cpp:200-239
  | .touch x k d =>
    match s.dbs x with
    | none => s
    | some i => if (look k (s.impl i).recs).isSome then s else s.put i k d
  | .modify x k f =>
    match s.dbs x with
    | none => s
    | some i =>
      match look k (s.impl i).recs with
      | none => s
      | some a => { s with cell := Function.update s.cell a (f (s.cell a)) }
  | .rest x g =>
    match s.dbs x with
    | none => s
    | some i => { s with impl := Function.update s.impl i ⟨(s.impl i).recs, g (s.impl i).rest⟩ }
  -- Database.cpp:119-129, 142-145
  | .replace x p y =>
    match s.dbs x, s.dbs y with
    | some i, some j =>
      let c := copyRecs ((s.impl j).recs.filter fun q => p q.1) s.cell s.next
      { s with
        cell := c.2.1
        impl := Function.update s.impl i ⟨(s.impl i).recs.filter (fun q => !p q.1) ++ c.1, (s.impl i).rest⟩
        next := c.2.2 }
    | _, _ => s

/-- A program is run from the start. -/
def St.run (s : St κ α β) (l : List (Stmt κ α β)) : St κ α β := l.foldl St.step s

end ThermoFun.Copies

import Mathlib.Data.Real.Basic
import Mathlib.Analysis.SpecialFunctions.Pow.Real
import Verif.Model.UnitsTable

/-!
Model of /repo/ThermoFun/Common/Units.cpp: unit-string parser, factors, dimensions and `convert`.
Numbers are reals instead of doubles.
-/

set_option linter.unusedVariables false

namespace ThermoFun

/-- Outcome of a C++ call: a value, an exception, or undefined behaviour (null dereference, out-of-range access,
unbounded recursion). -/
inductive Res (α : Type) where
  | ok (a : α)
  | throw
  | ub
deriving DecidableEq, Repr

namespace Res

/-- Sequencing of calls. -/
def bind {α β : Type} : Res α → (α → Res β) → Res β
  | .ok a, f => f a
  | .throw, _ => .throw
  | .ub, _ => .ub

instance : Monad Res where
  pure := .ok
  bind := bind

@[simp] theorem ok_bind {α β : Type} (a : α) (f : α → Res β) : (Res.ok a >>= f) = f a := rfl
@[simp] theorem throw_bind {α β : Type} (f : α → Res β) : ((Res.throw : Res α) >>= f) = .throw := rfl
@[simp] theorem ub_bind {α β : Type} (f : α → Res β) : ((Res.ub : Res α) >>= f) = .ub := rfl
@[simp] theorem pure_eq {α : Type} (a : α) : (pure a : Res α) = .ok a := rfl

end Res

namespace Units

/-! ### Tables -/

/-- `map::find` / `operator[]` on `derivedUnitsMap`; the map keeps the first of equal keys. -/
def lookup (s : Sym) : List (Sym × List SU) → Option (List SU)
  | [] => none
  | e :: t => if e.1 = s then some e.2 else lookup s t

/-- `temperatureUnitsMap`, Units.cpp:405-415: name, factor (tenths), translate (hundredths), parent. -/
def tempTable : List (Sym × Int × Int × Sym) := [
  (['K'], 10, 0, ['K']),
  (['d', 'e', 'g', 'C'], 10, -27315, ['K']),
  (['d', 'e', 'g', 'F'], 18, 3200, ['d', 'e', 'g', 'C']),
  (['d', 'e', 'g', 'R'], 10, 45967, ['d', 'e', 'g', 'F']),
  (['k', 'e', 'l', 'v', 'i', 'n'], 10, 0, ['K']),
  (['c', 'e', 'l', 's', 'i', 'u', 's'], 10, 0, ['d', 'e', 'g', 'C']),
  (['f', 'a', 'h', 'r', 'e', 'n', 'h', 'e', 'i', 't'], 10, 0, ['d', 'e', 'g', 'F']),
  (['r', 'a', 'n', 'k', 'i', 'n', 'e'], 10, 0, ['d', 'e', 'g', 'R'])]

/-- `temperatureUnitsMap[s]`. -/
def tempLookup (s : Sym) : List (Sym × Int × Int × Sym) → Option (Int × Int × Sym)
  | [] => none
  | e :: t => if e.1 = s then some e.2 else tempLookup s t

/-- `temperatureUnitsMap.count(s)`. -/
def isTemp (s : Sym) : Bool := (tempLookup s tempTable).isSome

/-! ### Temperatures -/

/-- `toKelvin`, Units.cpp:417-422. `fuel` bounds the recursion depth (running out = stack overflow). A missing entry
would be created with factor 0 and an empty parent; callers check presence first, so it is `.ub` here. -/
noncomputable def toKelvin : Nat → ℝ → Sym → Res ℝ
  | 0, _, _ => .ub
  | fuel + 1, v, s =>
    if s = ['K'] then .ok v
    else match tempLookup s tempTable with
      | none => .ub
      | some (f, t, parent) => toKelvin fuel ((v - (t : ℝ) / 100) / ((f : ℝ) / 10)) parent

/-- `fromKelvin`, Units.cpp:424-429. -/
noncomputable def fromKelvin : Nat → ℝ → Sym → Res ℝ
  | 0, _, _ => .ub
  | fuel + 1, v, s =>
    if s = ['K'] then .ok v
    else match tempLookup s tempTable with
      | none => .ub
      | some (f, t, parent) => do
        let w ← fromKelvin fuel v parent
        .ok ((f : ℝ) / 10 * w + (t : ℝ) / 100)

/-- Recursion depth allowed to the table walks (proved sufficient: more depth never changes a result). -/
def depth : Nat := 12

/-- `convertTemperature`, Units.cpp:449-455, with `checkTemperatureUnit`, 431-438. -/
noncomputable def convertTemperature (v : ℝ) (a b : Sym) : Res ℝ :=
  if isTemp a = false then .throw
  else if isTemp b = false then .throw
  else do
    let k ← toKelvin depth v a
    fromKelvin depth k b

/-! ### Factors -/

/-- The loop of `factor`, Units.cpp:463-466; `rec` is the recursive call. -/
noncomputable def factorLoop (rec : Sym → Res ℝ) : List SU → ℝ → Res ℝ
  | [], res => .ok res
  | u :: us, res => do
    let f ← rec u.sym
    factorLoop rec us (res * ((u.num : ℝ) / u.den * f ^ ((u.pn : ℝ) / u.pd)))

/-- `factor(const string&)`, Units.cpp:457-467, with `checkDerivedUnit`, 440-447. `fuel` bounds the recursion depth.
`units.front()` is never empty in the table. -/
noncomputable def factorF : Nat → Sym → Res ℝ
  | 0, _ => .ub
  | fuel + 1, s =>
    if isTemp s then .ok 1
    else match lookup s table with
      | none => .throw
      | some [] => .ub
      | some (u :: us) =>
        if u.sym = s then .ok (((u.num : ℝ) / u.den) ^ ((u.pn : ℝ) / u.pd))
        else factorLoop (factorF fuel) (u :: us) 1

/-- `factor(const string&)` at the table's depth. -/
noncomputable def factor (s : Sym) : Res ℝ := factorF depth s

/-- `factor(const DerivedUnit&)`, Units.cpp:469-479; a parsed unit is a list of symbols with sign ±1 and factor 1. -/
noncomputable def factorList : List (Sym × Int) → Res ℝ
  | [] => .ok 1
  | (s, p) :: l => do
    let f ← factor s
    let rest ← factorList l
    .ok (1 * f ^ (p : ℝ) * rest)

/-! ### Dimensions -/

/-- Increments made to the `map<string,int>`, in order. The map itself, after `removeZero`, is represented by this list
up to `sameDim`. -/
abbrev Dims := List (Sym × Int)

/-- The loop of `dimension`, Units.cpp:493-494; `rec` is the recursive call. The product `unit.power * multpower` is a
double converted to `int`, i.e. truncated towards zero (`Int.tdiv`). -/
def dimLoop (rec : Sym → Int → Res Dims) : List SU → Int → Res Dims
  | [], _ => .ok []
  | u :: us, m => do
    let d ← rec u.sym (Int.tdiv (u.pn * m) u.pd)
    let ds ← dimLoop rec us m
    .ok (d ++ ds)

/-- `dimension(symbol, multpower, res)`, Units.cpp:487-495. -/
def dimF : Nat → Sym → Int → Res Dims
  | 0, _, _ => .ub
  | fuel + 1, s, m =>
    if isTemp s then .ok [(s, m)]
    else match lookup s table with
      | none => .throw
      | some [] => .ub
      | some (u :: us) =>
        if u.sym = s then .ok [(u.sym, Int.tdiv (u.pn * m) u.pd)]
        else dimLoop (dimF fuel) (u :: us) m

/-- `dimension(const DerivedUnit&)`, Units.cpp:497-502 and 512-518. -/
def dimList : List (Sym × Int) → Res Dims
  | [] => .ok []
  | (s, p) :: l => do
    let d ← dimF depth s p
    let ds ← dimList l
    .ok (d ++ ds)

/-- Value of the map at a key. -/
def coef (d : Dims) (s : Sym) : Int := (d.map (fun e => if e.1 = s then e.2 else 0)).sum

/-- `dimension(from) == dimension(to)` on maps with zeros removed (`removeZero`, Units.cpp:481-485): equal values at
every key of either. -/
def sameDim (d e : Dims) : Bool := (d ++ e).all (fun k => coef d k.1 == coef e k.1)

/-! ### Parser -/

/-- `Node`, Units.cpp:520-528; `null` is `nullptr`. -/
inductive Tree where
  | null
  | node (str : List Char) (l r : Tree)
deriving DecidableEq, Repr

/-- `findMatchedParenthesisFromRight`, Units.cpp:530-541, on the reversed text before the `)`: the reversed text inside the
parentheses and the reversed text before the `(`. -/
def matchP : Nat → List Char → Option (List Char × List Char)
  | _, [] => none
  | lvl, c :: cs =>
    if c = ')' then (matchP (lvl + 1) cs).map (fun p => (c :: p.1, p.2))
    else if c = '(' then
      if lvl = 0 then some ([], cs) else (matchP (lvl - 1) cs).map (fun p => (c :: p.1, p.2))
    else (matchP lvl cs).map (fun p => (c :: p.1, p.2))

/-- `find_last_of("*/")` on the reversed text: reversed text after the operator, the operator, reversed text before it. -/
def lastOp : List Char → Option (List Char × Char × List Char)
  | [] => none
  | c :: cs =>
    if c = '*' ∨ c = '/' then some ([], c, cs) else (lastOp cs).map (fun p => (c :: p.1, p.2.1, p.2.2))

theorem matchP_length {lvl : Nat} {s a b : List Char} (h : matchP lvl s = some (a, b)) :
    a.length + b.length + 1 = s.length := by
  induction s generalizing lvl a b with
  | nil => simp [matchP] at h
  | cons c cs ih =>
    simp only [matchP] at h
    split at h
    · simp only [Option.map_eq_some_iff, Prod.exists] at h
      obtain ⟨x, y, h1, h2⟩ := h
      simp only [Prod.mk.injEq] at h2
      obtain ⟨rfl, rfl⟩ := h2
      have := ih h1; simp; omega
    · split at h
      · split at h
        · simp only [Option.some.injEq, Prod.mk.injEq] at h
          obtain ⟨rfl, rfl⟩ := h; simp
        · simp only [Option.map_eq_some_iff, Prod.exists] at h
          obtain ⟨x, y, h1, h2⟩ := h
          simp only [Prod.mk.injEq] at h2
          obtain ⟨rfl, rfl⟩ := h2
          have := ih h1; simp; omega
      · simp only [Option.map_eq_some_iff, Prod.exists] at h
        obtain ⟨x, y, h1, h2⟩ := h
        simp only [Prod.mk.injEq] at h2
        obtain ⟨rfl, rfl⟩ := h2
        have := ih h1; simp; omega

theorem lastOp_length {s a b : List Char} {o : Char} (h : lastOp s = some (a, o, b)) :
    a.length + b.length + 1 = s.length := by
  induction s generalizing a b with
  | nil => simp [lastOp] at h
  | cons c cs ih =>
    simp only [lastOp] at h
    split at h
    · simp only [Option.some.injEq, Prod.mk.injEq] at h
      obtain ⟨rfl, _, rfl⟩ := h; simp
    · simp only [Option.map_eq_some_iff, Prod.exists] at h
      obtain ⟨x, y, z, h1, h2⟩ := h
      simp only [Prod.mk.injEq] at h2
      obtain ⟨rfl, rfl, rfl⟩ := h2
      have := ih h1; simp; omega

/-- `parseUnit(symbol, pos)`, Units.cpp:548-590. The argument is the reversed prefix `symbol[0..pos]` (nothing after `pos` is
ever read). The empty string gives `nullptr`; an operator at position 0 makes the recursive call read
`symbol[size_t(-1)]`, undefined behaviour. -/
def parseRev (r : List Char) : Res Tree :=
  match r with
  | [] => .ok .null
  | c :: cs =>
    if c = ')' then
      match h : matchP 0 cs with
      | none => .throw
      | some (inside, []) => parseRev inside
      | some (inside, o :: left) => do
        let l ← parseRev left
        let r ← parseRev inside
        .ok (.node [o] l r)
    else
      match h : lastOp (c :: cs) with
      | none => .ok (.node (c :: cs).reverse .null .null)
      | some (_, _, []) => .ub
      | some (right, o, d :: left) => do
        let l ← parseRev (d :: left)
        .ok (.node [o] l (.node right.reverse .null .null))
termination_by r.length
decreasing_by
  all_goals simp_wf
  · have := matchP_length h; simp at this; omega
  · have := matchP_length h; simp at this; omega
  · have := matchP_length h; simp at this; omega
  · have := lastOp_length h; simp at this; omega

/-- `parseUnit(root, derivedUnit, sign)`, Units.cpp:592-608. -/
def flatten : Tree → Int → Res (List (Sym × Int))
  | .null, _ => .ub
  | .node str l r, sign =>
    if str = ['*'] then do
      let a ← flatten l sign
      let b ← flatten r sign
      .ok (a ++ b)
    else if str = ['/'] then do
      let a ← flatten l sign
      let b ← flatten r (-sign)
      .ok (a ++ b)
    else .ok [(str, sign)]

/-- `parseUnit(const string&)`, Units.cpp:610-616. -/
def parseUnit (s : Sym) : Res (List (Sym × Int)) := do
  let t ← parseRev s.reverse
  flatten t 1

/-! ### Public functions -/

/-- `units::convert`, Units.cpp:629-637, with `checkConvertibleUnits`, 618-625. -/
noncomputable def convert (x : ℝ) (a b : Sym) : Res ℝ :=
  if isTemp a && isTemp b then convertTemperature x a b
  else do
    let ua ← parseUnit a
    let ub ← parseUnit b
    let da ← dimList ua
    let db ← dimList ub
    if sameDim da db then do
      let fa ← factorList ua
      let fb ← factorList ub
      .ok (x * fa / fb)
    else .throw

/-- `units::convertible`, Units.cpp:639-646. -/
def convertible (a b : Sym) : Res Bool :=
  if isTemp a && isTemp b then .ok true
  else do
    let ua ← parseUnit a
    let ub ← parseUnit b
    let da ← dimList ua
    let db ← dimList ub
    .ok (sameDim da db)

end Units
end ThermoFun

import Mathlib.Data.Rat.Defs
import Mathlib.Data.Nat.Digits.Defs
import Mathlib.Algebra.Order.Ring.Rat
import Verif.Model.Units

/-!
Model of the reaction-equation parser, /repo/ThermoFun/Reaction.cpp:67-146.  Text is a list of characters, coefficients are exact
rationals instead of doubles, so `stod` never reports a value out of range.  Characters above 127 count as neither letters nor blanks
(in the source `isalpha` of such a char is undefined when char is signed).
-/

namespace ThermoFun.Equation

/-- The class `\s` of the regular expression of Reaction.cpp:127 and `isspace` in the C locale. -/
def isWs (c : Char) : Bool :=
  c == ' ' || c == '\t' || c == '\n' || c == '\r' || c.toNat == 11 || c.toNat == 12

/-- `isalpha` in the C locale, Reaction.cpp:104-108. -/
def isAlpha (c : Char) : Bool := ('a' ≤ c && c ≤ 'z') || ('A' ≤ c && c ≤ 'Z')

/-- The characters `strip_all` removes, Reaction.cpp:75-77. -/
def isBlank (c : Char) : Bool := c == ' ' || c == '\n' || c == '\t'

/-- `strip_all`, Reaction.cpp:67-78: cutting the blanks off both ends first changes nothing, as all of them are erased after. -/
def stripAll (s : List Char) : List Char := s.filter fun c => !isBlank c

/-- A match of `\s+\+\s+` at the head of the text, Reaction.cpp:127: what follows it. -/
def matchSep (l : List Char) : Option (List Char) :=
  match l with
  | c :: _ =>
    if isWs c then
      match l.dropWhile isWs with
      | '+' :: d :: r => if isWs d then some (r.dropWhile isWs) else none
      | _ => none
    else none
  | [] => none

theorem length_dropWhile_le' (p : Char → Bool) (l : List Char) : (l.dropWhile p).length ≤ l.length := by
  induction l with
  | nil => simp
  | cons c t ih =>
    simp only [List.dropWhile_cons]
    split
    · simp; omega
    · simp

theorem matchSep_length {l r : List Char} (h : matchSep l = some r) : r.length < l.length := by
  unfold matchSep at h
  split at h
  · rename_i c t
    split at h
    · split at h
      · rename_i d r' heq
        split at h
        · injection h with h
          subst h
          have h1 := length_dropWhile_le' isWs r'
          have h2 := length_dropWhile_le' isWs (c :: t)
          rw [heq] at h2
          simp only [List.length_cons] at h2 ⊢
          omega
        · simp at h
      · simp at h
    · simp at h
  · simp at h

/-- `std::sregex_token_iterator(…, -1)`, Reaction.cpp:88-96, from the text `l` on, with `acc` the (reversed) text since the last match and
`had` whether there was one; an empty rest after the last match is not a token.  Starting at the first blank of a run is the leftmost
match; if the expression does not match there it matches nowhere in the run. -/
def splitGo (had : Bool) (acc : List Char) (l : List Char) : List (List Char) :=
  match l with
  | [] => if had && acc.isEmpty then [] else [acc.reverse]
  | c :: t =>
    match _h : matchSep (c :: t) with
    | some r => acc.reverse :: splitGo true [] r
    | none => splitGo had (c :: acc) t
termination_by l.length
decreasing_by
  · exact matchSep_length _h
  · simp

/-- `regexp_split`, Reaction.cpp:81-98. -/
def regexpSplit (l : List Char) : List (List Char) := (splitGo false [] l).map stripAll

/-! ### `std::stod` -/

/-- Value of a digit in base 10 or 16. -/
def digitVal (b : Nat) (c : Char) : Option Nat :=
  if '0' ≤ c ∧ c ≤ '9' then some (c.toNat - 48)
  else if b = 16 ∧ 'a' ≤ c ∧ c ≤ 'f' then some (c.toNat - 87)
  else if b = 16 ∧ 'A' ≤ c ∧ c ≤ 'F' then some (c.toNat - 55)
  else none

/-- Longest prefix of digits and the rest. -/
def takeDigits (b : Nat) : List Char → List Nat × List Char
  | [] => ([], [])
  | c :: t =>
    match digitVal b c with
    | some d => (d :: (takeDigits b t).1, (takeDigits b t).2)
    | none => ([], c :: t)

/-- The exponent part (`e` and decimal digits, `p` for hexadecimal numbers); without digits there is none. -/
def scanExp (isE : Char → Bool) (l : List Char) : Int × List Char :=
  match l with
  | c :: t =>
    if isE c then
      match t with
      | s :: u =>
        let neg := s == '-'
        let body := if s == '-' || s == '+' then u else t
        match takeDigits 10 body with
        | ([], _) => (0, l)
        | (ds, r) => (if neg then -((Nat.ofDigits 10 ds.reverse : ℕ) : Int) else ((Nat.ofDigits 10 ds.reverse : ℕ) : Int), r)
      | [] => (0, l)
    else (0, l)
  | [] => (0, l)

/-- The digits behind a decimal point, if there is one. -/
def fracPart (b : Nat) (r : List Char) : List Nat × List Char :=
  match r with
  | '.' :: t => takeDigits b t
  | _ => ([], r)

/-- Unsigned number in base `b` with exponents to base `eb`. -/
def scanUnsigned (b eb : Nat) (isE : Char → Bool) (l : List Char) : Option (ℚ × List Char) :=
  let (i, r) := takeDigits b l
  let (f, r2) := fracPart b r
  if i = [] ∧ f = [] then none
  else
    let (e, r3) := scanExp isE r2
    some (((Nat.ofDigits b (i ++ f).reverse : ℕ) : ℚ) / (b : ℚ) ^ f.length * (eb : ℚ) ^ e, r3)

/-- Unsigned number, decimal or hexadecimal (`0x`). -/
def scanNumber (l : List Char) : Option (ℚ × List Char) :=
  let dec := scanUnsigned 10 10 (fun c => c == 'e' || c == 'E') l
  match l with
  | '0' :: x :: t =>
    if x == 'x' || x == 'X' then
      match scanUnsigned 16 2 (fun c => c == 'p' || c == 'P') t with
      | some r => some r
      | none => dec
    else dec
  | _ => dec

/-- `std::stod(data, &sz)`, Reaction.cpp:112-113 (C library `strtod`): the number at the head of the text and `data.substr(sz)`; throws if
there is none.  The spellings inf and nan, reachable here only behind a carriage return, form feed or vertical tab, are left out. -/
def stod (l : List Char) : Res (ℚ × List Char) :=
  let go := fun (neg : Bool) (u : List Char) => match scanNumber u with
    | some (q, r) => Res.ok (if neg then -q else q, r)
    | none => .throw
  match l.dropWhile isWs with
  | '-' :: u => go true u
  | '+' :: u => go false u
  | u => go false u

/-- `extractCoef`, Reaction.cpp:101-114: coefficient and name.  `data[1]` of a text of length one is the terminating null. -/
def extractCoef (data : List Char) : Res (ℚ × List Char) :=
  match data with
  | [] => .ok (1, [])
  | c :: t =>
    if isAlpha c || c == '(' then .ok (1, data)
    else
      let d := t.headD (Char.ofNat 0)
      if c == '+' && (isAlpha d || d == '(') then .ok (1, t)
      else if c == '-' && (isAlpha d || d == '(') then .ok (-1, t)
      else stod data

/-- `std::map<std::string,double>`, the list of its entries in the order of the keys: the reactants of a reaction (Reaction.cpp:28). -/
abbrev RMap := List (List Char × ℚ)

/-- `reactants[name] = x`, Reaction.cpp:135, 144: the map is kept in the order of its keys. -/
def RMap.assign (m : RMap) (n : List Char) (x : ℚ) : RMap :=
  match m with
  | [] => [(n, x)]
  | (k, y) :: t => if k = n then (n, x) :: t else if n < k then (n, x) :: (k, y) :: t else (k, y) :: RMap.assign t n x

/-- `reactants.find(name)`. -/
def RMap.get (m : RMap) (n : List Char) : Option ℚ :=
  match m with
  | [] => none
  | (k, y) :: t => if k = n then some y else RMap.get t n

/-- The loop over the parts of one side, Reaction.cpp:128-135 (`sgn` = -1) and 138-145 (`sgn` = 1). -/
def addParts (sgn : ℚ) (parts : List (List Char)) (m : RMap) : Res RMap :=
  match parts with
  | [] => .ok m
  | p :: t => do
    let (c, n) ← extractCoef p
    addParts sgn t (if n.isEmpty then m else m.assign n (c * sgn))

/-- `fromEquation`, Reaction.cpp:116-146, on a reaction whose reactants are `m`.  Without an equals sign `find` returns `npos`, and the
products are `substr(npos + 1)`, the whole text. -/
def fromEquation (text : List Char) (m : RMap) : Res RMap := do
  let left := text.takeWhile (· ≠ '=')
  let right := match text.dropWhile (· ≠ '=') with
    | [] => text
    | _ :: t => t
  let m ← addParts (-1) (regexpSplit left) m
  addParts 1 (regexpSplit right) m

end ThermoFun.Equation

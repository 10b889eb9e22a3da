import Verif.Model.EngineJson
import Verif.Props.Minerals
import Verif.Props.ParseFaithful
import Verif.Props.Database

/-!
# From the JSON file to the equilibrium constant

Loading (Model/Json.lean, Model/Database.lean), engine (Model/Engine.lean) and numeric models (Model/EngineReal.lean) together: reactions between
minerals of a file (C112).
-/

namespace ThermoFun.Engine

open Filter Topology Js

/-! ### What a record of a mineral says -/

/-- A table of heat capacities with rational entries, as written in a file. -/
structure QTable where
  n : ℕ
  b : ℕ → ℚ
  c : ℕ → List ℚ
  dS : ℕ → ℚ
  dH : ℕ → ℚ
  dV : ℕ → ℚ

/-- The table of real numbers. -/
def QTable.real (t : QTable) : CpTable :=
  ⟨t.n, fun j => (t.b j : ℝ), fun j => reals (t.c j), fun j => (t.dS j : ℝ), fun j => (t.dH j : ℝ), fun j => (t.dV j : ℝ)⟩

/-- The entry of one interval, with the transition at its end unless it is the last. -/
def QTable.entry (t : QTable) (j : ℕ) : MethodData where
  method := (0, "cp_ft_equation", .gen, 100)
  limits := some (some (t.b j), some (t.b (j + 1)))
  cp := some (t.c j)
  transition := if j + 1 < t.n then some [t.b (j + 1), t.dS j, t.dH j, t.dV j] else none

/-- The entry for constant volume. -/
def constantVolume : MethodData where
  method := (34, "mv_constant", .P, 305)

/-- The units of the reference properties can be converted. -/
structure UnitsOk (d : SubData) : Prop where
  Cp : Convertible d.Cp "J/K/mol"
  G : Convertible d.G "J/mol"
  H : Convertible d.H "J/mol"
  S : Convertible d.S "J/K/mol"
  V : Convertible d.V "J/bar"

/-- What a record of a mineral says: intervals of heat capacity and, before, between or after them, constant volume; it is not the solvent, and
there are the properties `g`, `h` and `s` (in the units of the program) and a volume. -/
structure MineralData (d : SubData) (t : QTable) (g h s : ℝ) : Prop where
  notH : d.symbol ≠ some "H+"
  notSolvent : d.cls.map Prod.fst ≠ some 3
  pos : 0 < t.n
  coefs : ∀ j < t.n, t.c j ≠ []
  methods : ∃ pre post, pre ++ post = (List.range t.n).map t.entry ∧ d.methods = some (pre ++ constantVolume :: post)
  units : UnitsOk d
  G : ∃ q e, d.G = some q ∧ q.Is "J/mol" g e
  H : ∃ q e, d.H = some q ∧ q.Is "J/mol" h e
  S : ∃ q e, d.S = some q ∧ q.Is "J/K/mol" s e
  V : d.V.isSome

/-! ### Lemmas -/

lemma foldl_entries (t : QTable) (l : List ℕ) (m : Methods) :
    (l.map t.entry).foldl (fun m e => withMethod m e.method.2.2.1 e.method.2.2.2) m = if l = [] then m else ⟨100, m.T, m.P⟩ := by
  induction l generalizing m with
  | nil => rfl
  | cons j l ih =>
    rw [List.map_cons, List.foldl_cons, ih]
    by_cases hl : l = []
    · simp [hl, QTable.entry, withMethod]
    · simp [hl, QTable.entry, withMethod]

lemma mineral_methods {t : QTable} (hn : 0 < t.n) {pre post : List MethodData} (h : pre ++ post = (List.range t.n).map t.entry) :
    (pre ++ constantVolume :: post).foldl (fun m e => withMethod m e.method.2.2.1 e.method.2.2.2) {} = ⟨100, 0, 305⟩ := by
  obtain ⟨l1, l2, hl, rfl, rfl⟩ := List.map_eq_append_iff.mp h.symm
  rw [List.foldl_append, List.foldl_cons, foldl_entries, foldl_entries]
  have : l1 ≠ [] ∨ l2 ≠ [] := by
    by_contra hc
    push Not at hc
    rw [hc.1, hc.2] at hl
    simp at hl
    omega
  rcases this with h1 | h1
  · by_cases h2 : l2 = [] <;> simp [h1, h2, constantVolume, withMethod]
  · by_cases h2 : l1 = [] <;> simp [h1, h2, constantVolume, withMethod]

/-- What a list of methods gives, collected, is not changed by the entry for constant volume. -/
lemma collect_skip {β : Type} (f : MethodData → List β) (h0 : f constantVolume = []) {pre post l : List MethodData} (h : pre ++ post = l) :
    (pre ++ constantVolume :: post).flatMap f = l.flatMap f := by
  rw [← h]; simp [h0]

lemma flatMap_entries {β : Type} (t : QTable) (f : MethodData → List β) (g : ℕ → β) (k : ℕ) (h : ∀ j < k, f (t.entry j) = [g j]) :
    ((List.range k).map t.entry).flatMap f = (List.range k).map g := by
  induction k with
  | zero => rfl
  | succ k ih =>
    rw [List.range_succ, List.map_append, List.flatMap_append, ih fun j hj => h j (by omega), List.map_append]
    simp [h k (by omega)]

lemma mineral_table {d : SubData} {t : QTable} (hn : 0 < t.n) (hc : ∀ j < t.n, t.c j ≠ []) {pre post : List MethodData}
    (h : pre ++ post = (List.range t.n).map t.entry) :
    let p := paramsOf d (pre ++ constantVolume :: post)
    p.cpCoeffs = (List.range t.n).map t.real.c ∧ p.intervals = (List.range t.n).map (fun j => [t.real.b j, t.real.b (j + 1)]) ∧
      p.transitions = (List.range (t.n - 1)).map (fun j => [t.real.b (j + 1), t.real.dS j, t.real.dH j, t.real.dV j]) := by
  have e1 : ∀ l : List MethodData, ((l.filterMap fun m => m.cp.map reals).filter fun x => !x.isEmpty) =
      l.flatMap fun m => (m.cp.map reals).toList.filter fun x => !x.isEmpty := by
    intro l
    induction l with
    | nil => rfl
    | cons m l ih => cases hm : m.cp <;> simp [List.filterMap_cons, List.filter_cons, hm, ← ih] <;> split <;> simp_all
  have e2 : ∀ l : List MethodData, ((l.filter fun m => m.method.2.1 = "cp_ft_equation").map fun m => limitsList m.limits) =
      l.flatMap fun m => if m.method.2.1 = "cp_ft_equation" then [limitsList m.limits] else [] := by
    intro l
    induction l with
    | nil => rfl
    | cons m l ih => by_cases hm : m.method.2.1 = "cp_ft_equation" <;> simp [List.filter_cons, hm, ← ih]
  have e3 : ∀ l : List MethodData, ((l.filterMap fun m => m.transition.map reals).filter fun x => !x.isEmpty) =
      l.flatMap fun m => (m.transition.map reals).toList.filter fun x => !x.isEmpty := by
    intro l
    induction l with
    | nil => rfl
    | cons m l ih => cases hm : m.transition <;> simp [List.filterMap_cons, List.filter_cons, hm, ← ih] <;> split <;> simp_all
  refine ⟨?_, ?_, ?_⟩
  · simp only [paramsOf]
    rw [e1, collect_skip _ rfl h]
    refine flatMap_entries t _ _ _ fun j hj => ?_
    have := hc j hj
    simp [QTable.entry, QTable.real, reals, this]
  · simp only [paramsOf]
    rw [e2, collect_skip _ (by simp [constantVolume]) h]
    exact flatMap_entries t _ _ _ fun j hj => by simp [QTable.entry, QTable.real, reals, limitsList]
  · simp only [paramsOf]
    rw [e3, collect_skip _ rfl h]
    obtain ⟨k, hk⟩ : ∃ k, t.n = k + 1 := ⟨t.n - 1, by omega⟩
    rw [hk, List.range_succ, List.map_append, List.flatMap_append, Nat.add_sub_cancel]
    have : ([k].map t.entry).flatMap (fun m => (m.transition.map reals).toList.filter fun x => !x.isEmpty) = [] := by
      simp [QTable.entry, hk]
    rw [this, List.append_nil]
    exact flatMap_entries t _ _ _ fun j hj => by simp [QTable.entry, QTable.real, reals, show j + 1 < t.n by omega]

lemma entries_documented {t : QTable} {pre post : List MethodData} (h : pre ++ post = (List.range t.n).map t.entry) :
    ∀ m ∈ pre ++ constantVolume :: post, m.method ∈ documentedS ∧ m.method.1 ≠ 41 ∧ m.method.1 ≠ 42 := by
  intro m hm
  have : m = constantVolume ∨ m ∈ pre ++ post := by
    simp only [List.mem_append, List.mem_cons] at hm ⊢
    tauto
  rcases this with rfl | hm
  · show ((34 : Int), "mv_constant", Slot.P, 305) ∈ documentedS ∧ (34 : Int) ≠ 41 ∧ (34 : Int) ≠ 42; decide
  · rw [h, List.mem_map] at hm
    obtain ⟨j, -, rfl⟩ := hm
    show ((0 : Int), "cp_ft_equation", Slot.gen, 100) ∈ documentedS ∧ (0 : Int) ≠ 41 ∧ (0 : Int) ≠ 42; decide

lemma isProp_val {q : Quantity} {unit : String} {x e : ℝ} {t : TS} (hq : q.Is unit x e) (ht : IsProp (some q) unit t) : t.val = x := by
  obtain ⟨y, e', ⟨h1, -⟩, rfl⟩ := ht
  have := hq.1
  rw [h1] at this
  injection this

/-- **C112 (records).** A JSON record of a mineral is read without an exception, and the engine has from it: the methods and the table of
`Mineral` and `HasTable`, G, H and S converted, reference temperature, reference pressure, formula and symbol as stated (or the defaults). -/
theorem C112_record (j : Json) (d : SubData) (hj : SaysSub j d) (hp : j.get? "properties" = none) {t : QTable} {g h s : ℝ}
    (hd : MineralData d t g h s) : ∃ x, parseSubstance j = .ok x ∧ Mineral (ofSub x) ∧ HasTable (ofSub x) t.real ∧
      (ofSub x).ref.G.val = g ∧ (ofSub x).ref.H.val = h ∧ (ofSub x).ref.S.val = s ∧ x.symbol = d.symbol.getD "" ∧
      (ofSub x).formula = d.formula.getD "" ∧ (ofSub x).refT = (d.Tst.map fun q : ℚ => (q : ℝ)).getD 298.15 ∧
      (ofSub x).refP = (d.Pst.map fun q : ℚ => (q : ℝ)).getD 1e5 := by
  obtain ⟨pre, post, hm, hms⟩ := hd.methods
  obtain ⟨x, hx, hi⟩ := C92_substances j d hj hp (fun l hl => by rw [hms] at hl; injection hl with hl; rw [← hl]; exact entries_documented hm)
    hd.units.Cp hd.units.G hd.units.H hd.units.S hd.units.V
  have hmeth : x.methods = ⟨100, 0, 305⟩ := by rw [hi.methods, hms]; exact mineral_methods hd.pos hm
  have hpar := hi.params _ hms
  obtain ⟨t1, t2, t3⟩ := mineral_table (d := d) hd.pos hd.coefs hm
  refine ⟨x, hx, ⟨?_, ?_, ?_, ?_, ?_, ?_, ?_⟩, ⟨?_, ?_, ?_⟩, ?_, ?_, ?_, hi.symbol, hi.formula, hi.refT, hi.refP⟩
  · show x.symbol ≠ _
    rw [hi.symbol]
    have := hd.notH
    cases hs : d.symbol with
    | none => decide
    | some y => rw [hs] at this; simpa using this
  · show x.reacdc = false
    rw [hi.reacdc, hms]; rfl
  · show SClass.ofCode x.cls ≠ _
    rw [hi.cls]
    have := hd.notSolvent
    cases hs : d.cls with
    | none => decide
    | some y =>
      rw [hs] at this
      have h3 : (y.1.1 : Int) ≠ 3 := by
        intro e
        refine this ?_
        simp only [Option.map_some]
        congr 1
        exact Fin.ext (by show (y.1 : ℕ) = 3; omega)
      simp only [Option.map_some, Option.getD_some]
      unfold SClass.ofCode
      split <;> simp_all
  · show GenEoS.ofCode x.methods.gen = _
    rw [hmeth]; rfl
  · show CorrT.ofCode x.methods.T ≠ _
    rw [hmeth]; decide
  · show CorrP.ofCode x.methods.P = _
    rw [hmeth]; rfl
  · show x.ref.V.has
    have := hi.V
    obtain ⟨q, hq⟩ := Option.isSome_iff_exists.mp hd.V
    rw [hq] at this
    obtain ⟨y, e, -, hv⟩ := this
    rw [hv]
    simp [TS.has]
  · show x.params.cpCoeffs = _
    rw [hpar]; exact t1
  · show x.params.intervals = _
    rw [hpar]; exact t2
  · show x.params.transitions = _
    rw [hpar]; exact t3
  · obtain ⟨q, e, hq, h1⟩ := hd.G
    have := hi.G; rw [hq] at this
    exact isProp_val h1 this
  · obtain ⟨q, e, hq, h1⟩ := hd.H
    have := hi.H; rw [hq] at this
    exact isProp_val h1 this
  · obtain ⟨q, e, hq, h1⟩ := hd.S
    have := hi.S; rw [hq] at this
    exact isProp_val h1 this

/-! ### Files -/

/-- A record of the solvent or of anything else the minerals do not need: documented methods, among them a general or temperature method, none that
of a gas or of Akinfiev and Diamond; convertible units. -/
structure PlainData (d : SubData) : Prop where
  methods : ∃ l, d.methods = some l ∧ (∀ m ∈ l, m.method ∈ documentedS ∧ m.method.1 ∉ [4, 9, 10, 11, 12, 13, 14, 40, 41, 42]) ∧
    ∃ m ∈ l, m.method.2.2.1 ≠ .P
  units : UnitsOk d

/-- A substance record of a file, without label and wrapping. -/
structure SubRecord (j : Json) (d : SubData) : Prop where
  label : j.get? "_label" = none
  plain : j.get? "properties" = none
  content : SaysSub j d

/-- What is said about a file: its list of substances says `ds`, and its lists of elements and reactions, if there are any, can be read. -/
structure FileSays (j : Json) (ds : List SubData) : Prop where
  substances : ∃ js, j.get? "substances" = some (.arr js) ∧ List.Forall₂ SubRecord js ds
  elements : ∀ l, j.get? "elements" = some l → ∀ r ∈ l.elems, ∃ e, readRecord (r, "element") = .ok (.elem e)
  reactions : ∀ l, j.get? "reactions" = some l → ∀ r ∈ l.elems, ∃ e, readRecord (r, "reaction") = .ok (.rea e)

/-- The method of a slot. -/
def slotOf (m : Methods) : Slot → Nat
  | .gen => m.gen
  | .T => m.T
  | .P => m.P

lemma slotOf_with (m : Methods) (s s' : Slot) (c : Nat) : slotOf (withMethod m s' c) s = if s' = s then c else slotOf m s := by
  cases s <;> cases s' <;> rfl

lemma slotOf_fold (l : List MethodData) (m : Methods) (s : Slot) :
    let r := l.foldl (fun m e => withMethod m e.method.2.2.1 e.method.2.2.2) m
    (∃ e ∈ l, e.method.2.2.1 = s ∧ e.method.2.2.2 = slotOf r s) ∨ ((∀ e ∈ l, e.method.2.2.1 ≠ s) ∧ slotOf r s = slotOf m s) := by
  induction l generalizing m with
  | nil => right; simp
  | cons e l ih =>
    simp only [List.foldl_cons]
    rcases ih (withMethod m e.method.2.2.1 e.method.2.2.2) with ⟨e', h1, h2⟩ | ⟨h1, h2⟩
    · exact .inl ⟨e', List.mem_cons_of_mem _ h1, h2⟩
    · rw [slotOf_with] at h2
      split at h2
      · rename_i hs
        exact .inl ⟨e, List.mem_cons_self, hs, h2.symm⟩
      · rename_i hs
        refine .inr ⟨fun e' he' => ?_, h2⟩
        rcases List.mem_cons.mp he' with rfl | he'
        · exact hs
        · exact h1 e' he'

lemma documented_codes : ∀ m ∈ documentedS, m.1 ∉ [4, 9, 10, 11, 12, 13, 14, 40, 41, 42] →
    (m.2.2.1 = .P → CorrP.ofCode m.2.2.2 ∉ [.CORK, .PRSV, .EMP, .SRK, .PR78, .STP, .OFF, .AKI]) ∧
    (m.2.2.1 = .T → CorrT.ofCode m.2.2.2 ≠ .unset) ∧ (m.2.2.1 = .gen → GenEoS.ofCode m.2.2.2 ≠ .unset) := by decide +kernel

/-- What the engine needs to know about every record of the file. -/
structure OwnModels (v : Subst) : Prop where
  noGas : NoGasModel v
  own : v.isReacDC = false
  noAki : v.mP ≠ .AKI

lemma own_of_methods {x : Js.Sub} {l : List MethodData} (h : ∀ m ∈ l, m.method ∈ documentedS ∧ m.method.1 ∉ [4, 9, 10, 11, 12, 13, 14, 40, 41, 42])
    (hm : ∃ m ∈ l, m.method.2.2.1 ≠ .P) (hx : x.methods = l.foldl (fun m e => withMethod m e.method.2.2.1 e.method.2.2.2) {}) (hr : x.reacdc = false) :
    OwnModels (ofSub x) := by
  have hP : CorrP.ofCode x.methods.P ∉ [.CORK, .PRSV, .EMP, .SRK, .PR78, .STP, .OFF, .AKI] := by
    rcases slotOf_fold l {} .P with ⟨e, h1, h2, h3⟩ | ⟨-, h2⟩
    · have := (documented_codes _ (h e h1).1 (h e h1).2).1 h2
      rw [h3, ← hx] at this
      exact this
    · rw [← hx] at h2
      show CorrP.ofCode (slotOf x.methods .P) ∉ _
      rw [h2]; decide
  have hTG : CorrT.ofCode x.methods.T ≠ .unset ∨ GenEoS.ofCode x.methods.gen ≠ .unset := by
    obtain ⟨e, h1, h2⟩ := hm
    cases hs : e.method.2.2.1 with
    | P => exact absurd hs h2
    | T =>
      left
      rcases slotOf_fold l {} .T with ⟨e', a1, a2, a3⟩ | ⟨a1, -⟩
      · have := (documented_codes _ (h e' a1).1 (h e' a1).2).2.1 a2
        rw [a3, ← hx] at this
        exact this
      · exact absurd hs (a1 e h1)
    | gen =>
      right
      rcases slotOf_fold l {} .gen with ⟨e', a1, a2, a3⟩ | ⟨a1, -⟩
      · have := (documented_codes _ (h e' a1).1 (h e' a1).2).2.2 a2
        rw [a3, ← hx] at this
        exact this
      · exact absurd hs (a1 e h1)
  refine ⟨?_, ?_, ?_⟩
  · intro hc
    replace hc : CorrP.ofCode x.methods.P ∈ [CorrP.CORK, .PRSV, .EMP, .SRK, .PR78, .STP, .OFF] := hc
    exact hP (by simp only [List.mem_cons, List.not_mem_nil, or_false] at hc ⊢; tauto)
  · simp only [Subst.isReacDC, Subst.noMethods, ofSub, hr]
    rcases hTG with hT | hT <;> simp [hT]
  · show CorrP.ofCode x.methods.P ≠ _
    intro hc
    exact hP (by rw [hc]; decide)

lemma plain_own (j : Json) (d : SubData) (hj : SaysSub j d) (hp : j.get? "properties" = none) (hd : PlainData d) :
    ∃ x, parseSubstance j = .ok x ∧ x.symbol = d.symbol.getD "" ∧ OwnModels (ofSub x) := by
  obtain ⟨l, hl, h1, h2⟩ := hd.methods
  obtain ⟨x, hx, hi⟩ := C92_substances j d hj hp (fun l' hl' => by
      rw [hl] at hl'; injection hl' with hl'; subst hl'
      intro m hm
      have := (h1 m hm).2
      simp only [List.mem_cons, List.not_mem_nil, or_false, not_or] at this
      exact ⟨(h1 m hm).1, by tauto, by tauto⟩)
    hd.units.Cp hd.units.G hd.units.H hd.units.S hd.units.V
  refine ⟨x, hx, hi.symbol, own_of_methods h1 h2 ?_ ?_⟩
  · rw [hi.methods, hl]; rfl
  · rw [hi.reacdc, hl]; rfl

lemma mineral_own {x : Subst} (h : Mineral x) : OwnModels x where
  noGas := by simp [NoGasModel, h.vol]
  own := by simp [Subst.isReacDC, Subst.noMethods, h.own, h.gen]
  noAki := by simp [h.vol]

/-! ### The database of a file -/

lemma lookup_find {α : Type} (k : String) (m : List (String × α)) : m.lookup k = find k m := by
  induction m with
  | nil => rfl
  | cons p m ih =>
    obtain ⟨a, x⟩ := p
    rw [List.lookup_cons, find, ih]
    by_cases h : a = k
    · simp [h]
    · have : ¬ k = a := fun e => h e.symm
      have hb : (k == a) = false := by simpa using this
      rw [hb, if_neg h]

lemma find_map {α β : Type} (f : α → β) (k : String) (m : List (String × α)) : find k (m.map fun p => (p.1, f p.2)) = (find k m).map f := by
  induction m with
  | nil => rfl
  | cons p m ih =>
    obtain ⟨a, x⟩ := p
    simp only [List.map_cons, find, ih]
    split <;> rfl

lemma ofDb_lookup (d : DbS) (ent : String → ℝ) (k : String) : (ofDb d ent).subs.lookup k = (find k d.subs).map ofSub := by
  rw [lookup_find]; exact find_map _ _ _

lemma readAll_ok (l : List (Json × String)) (h : ∀ r ∈ l, ∃ x, readRecord r = .ok x) :
    ∃ recs, readAll l = (recs, none) ∧ l.map readRecord = recs.map .ok := by
  induction l with
  | nil => exact ⟨[], rfl, rfl⟩
  | cons r l ih =>
    obtain ⟨x, hx⟩ := h r List.mem_cons_self
    obtain ⟨recs, h1, h2⟩ := ih fun r hr => h r (List.mem_cons_of_mem _ hr)
    refine ⟨x :: recs, ?_, by simp [hx, h2]⟩
    simp only [readAll, hx, h1]

lemma readRecord_sub {j : Json} (hl : j.get? "_label" = none) (hp : j.get? "properties" = none) :
    readRecord (j, "substance") = (parseSubstance j).map .sub := by
  unfold readRecord labelOf
  simp only [hl]
  have : inner j = j := by unfold inner Json.field; rw [hp]; rfl
  rw [this]

lemma lastOf_mem {α : Type} {k : String} {l : List (String × α)} {x : α} (h : lastOf k l = some x) : (k, x) ∈ l := by
  induction l with
  | nil => cases h
  | cons p l ih =>
    simp only [lastOf] at h
    cases hl : lastOf k l with
    | some y => rw [hl] at h; cases h; exact List.mem_cons_of_mem _ (ih hl)
    | none =>
      rw [hl] at h
      by_cases hk : k = p.1
      · simp [hk] at h
        subst hk
        rw [← h]
        exact List.mem_cons_self
      · simp [hk] at h

lemma lastOf_some {α : Type} {k : String} {l : List (String × α)} {x : α} (h : (k, x) ∈ l) : ∃ y, lastOf k l = some y := by
  induction l with
  | nil => cases h
  | cons p l ih =>
    simp only [lastOf]
    rcases List.mem_cons.mp h with rfl | h
    · cases hl : lastOf k l with
      | some y => exact ⟨y, rfl⟩
      | none => exact ⟨x, by simp⟩
    · obtain ⟨y, hy⟩ := ih h
      exact ⟨y, by rw [hy]; rfl⟩

/-- A file whose substance records can be read is loaded without an exception; every substance of the database is one of its records, and every
record has its symbol in the database. -/
lemma load_file (table : Table) {j : Json} {ds : List SubData} (hf : FileSays j ds) (Q : SubData → Js.Sub → Prop)
    (hQ : ∀ r d, SubRecord r d → d ∈ ds → ∃ x, parseSubstance r = .ok x ∧ x.symbol = d.symbol.getD "" ∧ Q d x) :
    ∃ D, ({ all := table } : DbS).fromFile j = (D, none) ∧
      (∀ k x, find k D.subs = some x → ∃ d ∈ ds, d.symbol.getD "" = k ∧ Q d x) ∧
      (∀ d ∈ ds, ∃ x, find (d.symbol.getD "") D.subs = some x) := by
  obtain ⟨js, hjs, hall⟩ := hf.substances
  have harr : ∀ l, j ≠ .arr l := by
    rintro l rfl
    simp [Json.get?] at hjs
  have hmem : ∀ r, r ∈ recordsOf j ↔ (∃ l, j.get? "elements" = some l ∧ ∃ e ∈ l.elems, r = (e, "element")) ∨ (∃ e ∈ js, r = (e, "substance")) ∨
      (∃ l, j.get? "reactions" = some l ∧ ∃ e ∈ l.elems, r = (e, "reaction")) := by
    intro r
    unfold recordsOf
    simp only [hjs, List.mem_append]
    simp only [List.not_mem_nil, or_false]
    constructor
    · rintro ((h | h) | h)
      · cases he : j.get? "elements" with
        | none => rw [he] at h; simp at h
        | some l => rw [he] at h; simp only [List.mem_map] at h; obtain ⟨e, a, b⟩ := h; exact .inl ⟨l, rfl, e, a, b.symm⟩
      · simp only [List.mem_map] at h; obtain ⟨e, a, b⟩ := h; exact .inr (.inl ⟨e, a, b.symm⟩)
      · cases he : j.get? "reactions" with
        | none => rw [he] at h; simp at h
        | some l => rw [he] at h; simp only [List.mem_map] at h; obtain ⟨e, a, b⟩ := h; exact .inr (.inr ⟨l, rfl, e, a, b.symm⟩)
    · rintro (⟨l, h1, e, h2, rfl⟩ | ⟨e, h2, rfl⟩ | ⟨l, h1, e, h2, rfl⟩)
      · rw [h1]; exact .inl (.inl (List.mem_map.mpr ⟨e, h2, rfl⟩))
      · exact .inl (.inr (List.mem_map.mpr ⟨e, h2, rfl⟩))
      · rw [h1]; exact .inr (List.mem_map.mpr ⟨e, h2, rfl⟩)
  have hread : ∀ r ∈ js, ∃ d ∈ ds, ∃ x, readRecord (r, "substance") = .ok (.sub x) ∧ x.symbol = d.symbol.getD "" ∧ Q d x := by
    intro r hr
    obtain ⟨d, hd, hrd⟩ := (List.forall₂_iff_get.mp hall |> fun h => by
      obtain ⟨i, hi⟩ := List.get_of_mem hr
      exact ⟨ds.get ⟨i, by rw [← h.1]; exact i.2⟩, List.get_mem _ _, hi ▸ h.2 i i.2 (by rw [← h.1]; exact i.2)⟩ :
      ∃ d ∈ ds, SubRecord r d)
    obtain ⟨x, h1, h2, h3⟩ := hQ r d hrd hd
    exact ⟨d, hd, x, by rw [readRecord_sub hrd.label hrd.plain, h1]; rfl, h2, h3⟩
  have hback : ∀ d ∈ ds, ∃ r ∈ js, SubRecord r d := by
    intro d hd
    have h := List.forall₂_iff_get.mp hall
    obtain ⟨i, hi⟩ := List.get_of_mem hd
    exact ⟨js.get ⟨i, by rw [h.1]; exact i.2⟩, List.get_mem _ _, hi ▸ h.2 i (by rw [h.1]; exact i.2) i.2⟩
  obtain ⟨recs, hr1, hr2⟩ := readAll_ok (recordsOf j) (fun r hr => by
    rcases (hmem r).mp hr with ⟨l, h1, e, h2, rfl⟩ | ⟨e, h2, rfl⟩ | ⟨l, h1, e, h2, rfl⟩
    · obtain ⟨x, hx⟩ := hf.elements l h1 e h2; exact ⟨_, hx⟩
    · obtain ⟨d, -, x, hx, -⟩ := hread e h2; exact ⟨_, hx⟩
    · obtain ⟨x, hx⟩ := hf.reactions l h1 e h2; exact ⟨_, hx⟩)
  have hsub : ∀ k x, (k, x) ∈ subsIn recs ↔ (k = x.symbol ∧ ∃ r ∈ js, readRecord (r, "substance") = .ok (.sub x)) := by
    intro k x
    have h1 : (k, x) ∈ subsIn recs ↔ k = x.symbol ∧ Record.sub x ∈ recs := by
      unfold subsIn
      rw [List.mem_filterMap]
      constructor
      · rintro ⟨r, hr, he⟩
        cases r with
        | sub s => simp only [Option.some.injEq, Prod.mk.injEq] at he; obtain ⟨rfl, rfl⟩ := he; exact ⟨rfl, hr⟩
        | rea s => cases he
        | elem s => cases he
      · rintro ⟨rfl, hr⟩
        exact ⟨_, hr, rfl⟩
    have h2 : Record.sub x ∈ recs ↔ ∃ r ∈ recordsOf j, readRecord r = .ok (.sub x) := by
      have : (Except.ok (Record.sub x) : J Record) ∈ recs.map Except.ok ↔ Record.sub x ∈ recs := by
        rw [List.mem_map]
        constructor
        · rintro ⟨a, ha, he⟩; injection he with he; rw [← he]; exact ha
        · intro h; exact ⟨_, h, rfl⟩
      rw [← this, ← hr2, List.mem_map]
    rw [h1, h2]
    constructor
    · rintro ⟨rfl, r, hr, he⟩
      refine ⟨rfl, ?_⟩
      rcases (hmem r).mp hr with ⟨l, h1, e, h2, rfl⟩ | ⟨e, h2, rfl⟩ | ⟨l, h1, e, h2, rfl⟩
      · obtain ⟨y, hy⟩ := hf.elements l h1 e h2; rw [hy] at he; cases he
      · exact ⟨e, h2, he⟩
      · obtain ⟨y, hy⟩ := hf.reactions l h1 e h2; rw [hy] at he; cases he
    · rintro ⟨rfl, r, hr, he⟩
      exact ⟨rfl, _, (hmem _).mpr (.inr (.inl ⟨r, hr, rfl⟩)), he⟩
  let D : DbS := recs.foldl DbS.put { ({ all := table } : DbS) with triple := tripleOf ({ all := table } : DbS).triple j }
  have hD : ({ all := table } : DbS).fromFile j = (D, none) := by
    rw [fromFile_eq, hr1]; rfl
  have hfind : ∀ k, find k D.subs = lastOf k (subsIn recs) := by
    intro k
    have := (models_puts (t := tripleOf ({ all := table } : DbS).triple j) (models_empty table) recs).1.agree k
    rw [puts_eq] at this
    rw [show find k D.subs = _ from this]
    simp [Spec.empty]
  refine ⟨D, hD, fun k x hk => ?_, fun d hd => ?_⟩
  · rw [hfind] at hk
    obtain ⟨rfl, r, hr, he⟩ := (hsub k x).mp (lastOf_mem hk)
    obtain ⟨d, hd, y, hy, h1, h2⟩ := hread r hr
    rw [hy] at he
    injection he with he; injection he with he; subst he
    exact ⟨d, hd, h1.symm, h2⟩
  · obtain ⟨r, hr, hrd⟩ := hback d hd
    obtain ⟨x, h1, h2, h3⟩ := hQ r d hrd hd
    rw [hfind]
    refine lastOf_some (x := x) ((hsub _ _).mpr ⟨h2.symm, r, hr, ?_⟩)
    rw [readRecord_sub hrd.label hrd.plain, h1]; rfl

/-- The data of a mineral hang together, as in `Sound`: reference temperature `Tr`, increasing intervals with coefficient lists of one length, the
interval `k` at `T0` without tenth coefficient, transitions below `T0` at equilibrium, and G = H - Tr (S - S of the elements). -/
structure SoundData (d : SubData) (ent : String → ℝ) (Tr T0 : ℝ) : Prop where
  Tst : (d.Tst.map fun q : ℚ => (q : ℝ)).getD 298.15 = Tr
  data : ∃ t g h s k, MineralData d t g h s ∧ t.real.Ok ∧ t.real.Inside T0 k ∧ t.real.coefs k 9 = 0 ∧ (∀ j < k, t.dH j = t.b (j + 1) * t.dS j) ∧
    g = h - Tr * (s - ent (d.formula.getD ""))

/-- **C112 (files).** From the JSON file to the equilibrium constant: a file of minerals with sound data and the solvent, with any lists of elements
and reactions that can be read, is loaded without an exception.  On an engine constructed from that database, with any preferences, a reaction
between minerals of the file that is balanced in the elements has an answer near `T0` at all pressures, after any histories, and in the answers
dG/dT = -S, dH/dT = Cp, G = H - T S, dG/dP = V, d ln K/dT = H/(R T²) and d ln K/dP = -V/(R T). -/
theorem C112_file (table : Table) {j : Json} {ds : List SubData} (hf : FileSays j ds) {ent : String → ℝ} {Tr T0 : ℝ} (hTr : 0 < Tr) (hT0 : 0 < T0)
    (hd : ∀ d ∈ ds, (d.symbol = some "H2O@" ∧ PlainData d) ∨ SoundData d ent Tr T0) (hw : ∃ d ∈ ds, d.symbol = some "H2O@")
    {form : String → String} (hform : ∀ d ∈ ds, d.formula.getD "" = form (d.symbol.getD "")) :
    ∃ D, ({ all := table } : DbS).fromFile j = (D, none) ∧
      ∀ (env : Env PSolv ESolv) (base : Models PSolv ESolv) (N : ℕ), env.db = ofDb D ent → env.mods = real base → env.fallback = false → 4 ≤ N →
      ∀ x : Reac, (∀ e ∈ x.reactants, e.1 ≠ "H2O@" ∧ ∃ d ∈ ds, d.symbol = some e.1) →
        (x.reactants.map fun e => e.2 * ent (form e.1)).sum = 0 →
      ∀ q : ℝ → ℝ → Query, (∀ T P, FromSpecies env T P x (q T P)) →
      ∀ (K : ℕ) (qs : ℝ → ℝ → List Query), (∀ T P, ∀ q ∈ qs T P, NoGasQuery q) →
      ∃ t : ℝ → ℝ → TPR, (∀ᶠ T in 𝓝 T0, ∀ P, (ask env N (q T P) (after env K ESt.init (qs T P))).1 = .ok (.reac (t T P))) ∧ ∀ P,
        HasDerivAt (fun T => (t T P).G.val) (-(t T0 P).S.val) T0 ∧ HasDerivAt (fun T => (t T P).H.val) (t T0 P).Cp.val T0 ∧
        (t T0 P).G.val = (t T0 P).H.val - T0 * (t T0 P).S.val ∧
        HasDerivAt (fun T => (t T P).lnK.val) ((t T0 P).H.val / (8.31451 * T0 ^ 2)) T0 ∧
        HasDerivAt (fun P => (t T0 P).G.val) ((t T0 P).V.val / 1e5) P ∧
        HasDerivAt (fun P => (t T0 P).lnK.val) (-((t T0 P).V.val / 1e5) / (8.31451 * T0)) P := by
  obtain ⟨D, hD, h1, h2⟩ := load_file table hf
    (fun d x => OwnModels (ofSub x) ∧ (d.symbol ≠ some "H2O@" → Mineral (ofSub x) ∧ x.formula = d.formula.getD "" ∧ (ofSub x).refT = Tr ∧
      (∃ (t : CpTable) (k : ℕ), HasTable (ofSub x) t ∧ t.Ok ∧ t.Inside T0 k ∧ t.coefs k 9 = 0 ∧ ∀ j < k, t.dH j = t.b (j + 1) * t.dS j) ∧
      (ofSub x).ref.G.val = (ofSub x).ref.H.val - Tr * ((ofSub x).ref.S.val - ent (ofSub x).formula)))
    (fun r d hr hds => by
      rcases hd d hds with ⟨a, b⟩ | a
      · obtain ⟨x, c1, c2, c3⟩ := plain_own r d hr.content hr.plain b
        exact ⟨x, c1, c2, c3, fun h => absurd a h⟩
      · obtain ⟨t, g, h, s, k, m, b1, b2, b3, b4, b5⟩ := a.data
        obtain ⟨x, c1, c2, c3, c4, c5, c6, c7, c8, c9, -⟩ := C112_record r d hr.content hr.plain m
        refine ⟨x, c1, c7, mineral_own c2, fun _ => ⟨c2, c8, c9.trans a.Tst, ⟨t.real, k, c3, b1, b2, b3, fun j hj => ?_⟩, ?_⟩⟩
        · simp only [QTable.real]
          exact_mod_cast b4 j hj
        · rw [c4, c5, c6, c8]; exact b5)
  refine ⟨D, hD, fun env base N hdb hmods hfb hN x hx hb q hq K qs hqs => ?_⟩
  have hreg : Regular env N := by
    refine regular_of_own ?_ (fun y v hv => ?_) hN
    · obtain ⟨d, hds, hs⟩ := hw
      obtain ⟨x, hx⟩ := h2 d hds
      rw [hs] at hx
      rw [hdb, ofDb_lookup]
      rw [Option.getD_some] at hx
      rw [hx]; rfl
    · rw [hdb, ofDb_lookup, Option.map_eq_some_iff] at hv
      obtain ⟨x, hx, rfl⟩ := hv
      obtain ⟨d, -, -, h, -⟩ := h1 y x hx
      exact ⟨h.noGas, h.own, h.noAki⟩
  have hent : env.db.elemEntropy = ent := by rw [hdb]; rfl
  have hv : ∀ e ∈ x.reactants, ∃ v, env.db.subs.lookup e.1 = some v ∧ Mineral v ∧ Sound env Tr T0 v ∧ v.formula = form e.1 := by
    intro e he
    obtain ⟨hne, d, hds, hs⟩ := hx e he
    obtain ⟨y, hy⟩ := h2 d hds
    rw [hs, Option.getD_some] at hy
    obtain ⟨d', hds', hs', -, h⟩ := h1 _ _ hy
    obtain ⟨m, f, r, t, g⟩ := h (by rintro hc; rw [hc] at hs'; exact hne hs'.symm)
    refine ⟨ofSub y, by rw [hdb, ofDb_lookup, hy]; rfl, m, ⟨r, t, by rw [hent]; exact g⟩, ?_⟩
    show y.formula = _
    rw [f, hform d' hds', hs']
  let v : String → Subst := fun y => (env.db.subs.lookup y).getD (conSub "" 0)
  have hv' : ∀ e ∈ x.reactants, env.db.subs.lookup e.1 = some (v e.1) ∧ Mineral (v e.1) ∧ Sound env Tr T0 (v e.1) ∧ (v e.1).formula = form e.1 := by
    intro e he
    obtain ⟨w, a, b⟩ := hv e he
    have : v e.1 = w := by simp only [v, a, Option.getD_some]
    rw [this]
    exact ⟨a, b⟩
  refine C110_minerals hmods hreg hfb hTr hT0 (v := v) (fun e he => ⟨(hv' e he).1, (hv' e he).2.1, (hv' e he).2.2.1⟩) ?_ hq hqs
  rw [← hb, hent]
  congr 1
  refine List.map_congr_left fun e he => ?_
  rw [(hv' e he).2.2.2]

/-! ### An example -/

/-- Two intervals, 300 to 800 K and 800 to 1300 K, with a transition at 800 K. -/
def exTable : QTable := ⟨2, fun j => 300 + 500 * j, fun j => if j = 0 then [30, 1 / 100] else [40, 0], fun _ => 1, fun j => 300 + 500 * (j + 1), fun _ => 0⟩

/-- A record of a mineral, with the entry for constant volume between those of the intervals. -/
def exRecord (sym : String) (g h s v : ℚ) : Json := .obj [
  ("TPMethods", .arr [
    .obj [("limitsTP", .obj [("lowerT", .num (exTable.b 0)), ("upperT", .num (exTable.b 1))]), ("m_heat_capacity_ft_coeffs", plainList [30, 1 / 100]),
      ("m_phase_trans_props", plainList [exTable.b 1, exTable.dS 0, exTable.dH 0, exTable.dV 0]), ("method", .obj [("0", .str "cp_ft_equation")])],
    .obj [("method", .obj [("34", .str "mv_constant")])],
    .obj [("limitsTP", .obj [("lowerT", .num (exTable.b 1)), ("upperT", .num (exTable.b 2))]), ("m_heat_capacity_ft_coeffs", plainList [40, 0]),
      ("method", .obj [("0", .str "cp_ft_equation")])]]),
  ("aggregate_state", .obj [("3", .str "AS_CRYSTAL")]), ("class_", .obj [("0", .str "SC_COMPONENT")]), ("formula", .str sym),
  ("sm_enthalpy", .obj [("values", .arr [.num h])]), ("sm_entropy_abs", .obj [("values", .arr [.num s])]),
  ("sm_gibbs_energy", .obj [("values", .arr [.num g])]), ("sm_volume", .obj [("values", .arr [.num v])]), ("symbol", .str sym)]

/-- What it says. -/
def exSays (sym : String) (g h s v : ℚ) : SubData where
  symbol := some sym
  formula := some sym
  state := some (3, "AS_CRYSTAL")
  cls := some (0, "SC_COMPONENT")
  methods := some ([exTable.entry 0] ++ constantVolume :: [exTable.entry 1])
  G := some { value := g }
  H := some { value := h }
  S := some { value := s }
  V := some { value := v }

/-- A record of water. -/
def exWater : Json := .obj [
  ("TPMethods", .arr [.obj [("method", .obj [("32", .str "water_eos_iapws95_reaktoro")])], .obj [("method", .obj [("25", .str "water_diel_jnort91_reaktoro")])]]),
  ("aggregate_state", .obj [("4", .str "AS_AQUEOUS")]), ("class_", .obj [("3", .str "SC_AQSOLVENT")]), ("formula", .str "H2O@"), ("symbol", .str "H2O@")]

/-- What it says. -/
def exWaterSays : SubData where
  symbol := some "H2O@"
  formula := some "H2O@"
  state := some (4, "AS_AQUEOUS")
  cls := some (3, "SC_AQSOLVENT")
  methods := some [{ method := (32, "water_eos_iapws95_reaktoro", .T, 222) }, { method := (25, "water_diel_jnort91_reaktoro", .gen, 117) }]

/-- A file with water, two minerals and a reaction. -/
def exFile : Json := .obj [
  ("reactions", .arr [dissociationJson]),
  ("substances", .arr [exRecord "A" (-19889 / 2) (-1000) 40 2, exWater, exRecord "B" (-47741 / 2) (-3000) 90 3])]

/-- What its substances say. -/
def exFileSays : List SubData := [exSays "A" (-19889 / 2) (-1000) 40 2, exWaterSays, exSays "B" (-47741 / 2) (-3000) 90 3]

lemma exRecord_says (sym : String) (g h s v : ℚ) : SubRecord (exRecord sym g h s v) (exSays sym g h s v) := by
  refine ⟨rfl, rfl, rfl, rfl, rfl, rfl, rfl, rfl, rfl, rfl, rfl, rfl, rfl, ⟨_, rfl, ?_⟩, rfl, rfl, rfl, rfl, rfl, rfl, rfl⟩
  exact .cons ⟨rfl, rfl, rfl, rfl, rfl, rfl, rfl, rfl, rfl⟩ (.cons ⟨rfl, rfl, rfl, rfl, rfl, rfl, rfl, rfl, rfl⟩ (.cons ⟨rfl, rfl, rfl, rfl, rfl, rfl, rfl, rfl, rfl⟩ .nil))

lemma exWater_says : SubRecord exWater exWaterSays := by
  refine ⟨rfl, rfl, rfl, rfl, rfl, rfl, rfl, rfl, rfl, rfl, rfl, rfl, rfl, ⟨_, rfl, ?_⟩, rfl, rfl, rfl, rfl, rfl, rfl, rfl⟩
  exact .cons ⟨rfl, rfl, rfl, rfl, rfl, rfl, rfl, rfl, rfl⟩ (.cons ⟨rfl, rfl, rfl, rfl, rfl, rfl, rfl, rfl, rfl⟩ .nil)

lemma exFile_says : FileSays exFile exFileSays where
  substances := ⟨_, rfl, .cons (exRecord_says _ _ _ _ _) (.cons exWater_says (.cons (exRecord_says _ _ _ _ _) .nil))⟩
  elements l hl := by cases hl
  reactions l hl := by
    injection hl with hl
    subst hl
    intro r hr
    rcases List.mem_singleton.mp hr with rfl
    obtain ⟨x, hx, -⟩ := C92_reactions dissociationJson dissociationData
      ⟨rfl, rfl, rfl, rfl, rfl, rfl, ⟨_, rfl, .cons ⟨rfl, rfl⟩ (.cons ⟨rfl, rfl⟩ .nil)⟩, ⟨_, rfl, .cons ⟨rfl, rfl, rfl, rfl, rfl, rfl, rfl⟩ .nil⟩, rfl, rfl,
        rfl, rfl, rfl, rfl⟩ rfl (by
        intro l hl
        injection hl with hl
        subst hl
        simp only [List.mem_cons, List.not_mem_nil, or_false]
        rintro m rfl
        show ((0 : Int), "logk_fpt_function", Slot.gen, 102) ∈ documentedR; decide)
      (by
        intro t ht
        injection ht with ht
        subst ht
        exact ⟨[(['A'], -1), (['B'], 1)], by decide +kernel⟩)
      (fun x hx => by cases hx) (fun x hx => by cases hx)
      (fun x hx => by injection hx with hx; subst hx; exact ⟨_, _, convert_ref (by simp) _, rfl⟩)
      (fun x hx => by cases hx) (fun x hx => by cases hx) (fun x hx => by cases hx)
    exact ⟨x, by show (parseReaction dissociationJson).map _ = _; rw [hx]; rfl⟩

lemma exMineral_says (sym : String) (hs : sym ≠ "H+") (g h s v : ℚ) : MineralData (exSays sym g h s v) exTable g h s where
  notH := by simpa [exSays] using hs
  notSolvent := by show (some (0 : Fin 100)) ≠ some 3; decide
  pos := by decide
  coefs j _ := by simp only [exTable]; split <;> simp
  methods := ⟨_, _, rfl, rfl⟩
  units := ⟨(fun x hx => by cases hx), (fun x hx => by injection hx with hx; subst hx; exact ⟨_, _, convert_ref (by simp) _, rfl⟩),
    (fun x hx => by injection hx with hx; subst hx; exact ⟨_, _, convert_ref (by simp) _, rfl⟩),
    (fun x hx => by injection hx with hx; subst hx; exact ⟨_, _, convert_ref (by simp) _, rfl⟩),
    (fun x hx => by injection hx with hx; subst hx; exact ⟨_, _, convert_ref (by simp) _, rfl⟩)⟩
  G := ⟨_, _, rfl, convert_ref (by simp) _, rfl⟩
  H := ⟨_, _, rfl, convert_ref (by simp) _, rfl⟩
  S := ⟨_, _, rfl, convert_ref (by simp) _, rfl⟩
  V := rfl

lemma exTable_ok : exTable.real.Ok where
  pos := by decide
  low := by norm_num [QTable.real, exTable]
  mono := strictMono_nat_of_lt_succ fun j => by
    simp only [QTable.real, exTable]
    push_cast
    linarith
  len := ⟨2, fun j _ => by simp only [QTable.real, exTable, reals]; split <;> simp⟩

lemma exSound (sym : String) (hs : sym ≠ "H+") (g h s v : ℚ) (ent : String → ℝ) (hg : (g : ℝ) = h - 298.15 * (s - ent sym)) :
    SoundData (exSays sym g h s v) ent 298.15 1000 where
  Tst := rfl
  data := by
    refine ⟨exTable, g, h, s, 1, exMineral_says sym hs g h s v, exTable_ok, ⟨by decide, .inl ?_⟩, ?_, ?_, hg⟩
    · norm_num [QTable.real, exTable]
    · simp [QTable.real, exTable, CpTable.coefs, reals]
    · intro j hj
      obtain rfl : j = 0 := by omega
      norm_num [exTable]

/-- The entropies of the elements in the minerals. -/
noncomputable def exEnt (f : String) : ℝ := if f = "A" then 10 else 20

/-- The file meets the conditions of `C112_file` at 1000 K, above the transitions; the reaction is 2 A = B. -/
example (table : Table) : ∃ D, ({ all := table } : DbS).fromFile exFile = (D, none) ∧ ∀ conv : String, ∃ t : ℝ → ℝ → TPR,
    let env : Env PSolv ESolv := ⟨ofDb D exEnt, real noWater, "GEOCHEMICAL", conv, false, true, 1000000⟩
    let x := fromR "r" [("A", -2), ("B", 1)]
    (∀ᶠ T in 𝓝 (1000 : ℝ), ∀ P, (ask env 4 (.fromRRec T P x) (after env 4 ESt.init [.sub T P "A"])).1 = .ok (.reac (t T P))) ∧
    HasDerivAt (fun T => (t T 1e8).lnK.val) ((t 1000 1e8).H.val / (8.31451 * 1000 ^ 2)) 1000 := by
  obtain ⟨D, hD, h⟩ := C112_file table exFile_says (ent := exEnt) (Tr := 298.15) (T0 := 1000) (by norm_num) (by norm_num)
    (fun d hd => by
      simp only [exFileSays, List.mem_cons, List.not_mem_nil, or_false] at hd
      rcases hd with rfl | rfl | rfl
      · exact .inr (exSound _ (by decide) _ _ _ _ _ (by norm_num [exEnt]))
      · refine .inl ⟨rfl, ⟨_, rfl, ?_, ?_⟩, ⟨(fun x hx => by cases hx), (fun x hx => by cases hx), (fun x hx => by cases hx), (fun x hx => by cases hx),
          (fun x hx => by cases hx)⟩⟩
        · intro m hm
          rw [List.mem_cons, List.mem_singleton] at hm
          rcases hm with rfl | rfl
          · show ((32 : Int), "water_eos_iapws95_reaktoro", Slot.T, 222) ∈ documentedS ∧ (32 : Int) ∉ [4, 9, 10, 11, 12, 13, 14, 40, 41, 42]; decide
          · show ((25 : Int), "water_diel_jnort91_reaktoro", Slot.gen, 117) ∈ documentedS ∧ (25 : Int) ∉ [4, 9, 10, 11, 12, 13, 14, 40, 41, 42]; decide
        · exact ⟨_, List.mem_cons_self, by decide⟩
      · exact .inr (exSound _ (by decide) _ _ _ _ _ (by rw [exEnt, if_neg (by decide)]; norm_num)))
    ⟨exWaterSays, by simp [exFileSays], rfl⟩ (form := id) (fun d hd => by
      simp only [exFileSays, List.mem_cons, List.not_mem_nil, or_false] at hd
      rcases hd with rfl | rfl | rfl <;> rfl)
  refine ⟨D, hD, fun conv => ?_⟩
  obtain ⟨t, h1, h2⟩ := h ⟨ofDb D exEnt, real noWater, "GEOCHEMICAL", conv, false, true, 1000000⟩ noWater 4 rfl rfl rfl le_rfl
    (fromR "r" [("A", -2), ("B", 1)]) (fun e he => by
      simp only [fromR, List.mem_cons, List.not_mem_nil, or_false] at he
      rcases he with rfl | rfl
      · exact ⟨by decide, _, List.mem_cons_self, rfl⟩
      · exact ⟨by decide, exSays "B" (-47741 / 2) (-3000) 90 3, by simp [exFileSays], rfl⟩)
    (by simp only [fromR, List.map_cons, List.map_nil, exEnt, id, if_true, if_neg (show ¬ ("B" : String) = "A" by decide)]; norm_num)
    (fun T P => .fromRRec T P (fromR "r" [("A", -2), ("B", 1)])) (fun T P => .record) 4 (fun T P => [.sub T P "A"])
    (fun T P q hq => by
      simp only [List.mem_cons, List.not_mem_nil, or_false] at hq
      rcases hq with rfl; trivial)
  exact ⟨t, h1, (h2 1e8).2.2.2.1⟩

end ThermoFun.Engine

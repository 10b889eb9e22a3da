import Verif.Model.Setters
import Verif.Props.Equation

/-!
# Setters and getters

Theorems about the setters and getters of records (Model/Setters.lean, Model/Records.lean): what is set is what is got (C170).
-/

namespace ThermoFun.Js

/-- The getter a setter of a substance belongs to, by its name, and the value it is given. -/
def SubSet.sets : SubSet → SubGet × Val
  | .name x => (.name, .text x)
  | .symbol x => (.symbol, .text x)
  | .formula x => (.formula, .text x)
  | .reactionSymbol x => (.reactionSymbol, .text x)
  | .ref x => (.ref, .tps x)
  | .params x => (.params, .paramS x)
  | .method m x => (.method m, .nat x)
  | .cls x => (.cls, .int x)
  | .state x => (.state, .int x)
  | .reacdc x => (.reacdc, .bool x)
  | .charge x => (.charge, .int x)
  | .refT x => (.refT, .real x)
  | .refP x => (.refP, .real x)
  | .lowerT x => (.lowerT, .real x)
  | .lowerP x => (.lowerP, .real x)
  | .upperT x => (.upperT, .real x)
  | .upperP x => (.upperP, .real x)
  | .molarMass x => (.molarMass, .maybe (some x))

/-- The getter a setter of a reaction belongs to, and the value it is given. -/
def ReaSet.sets : ReaSet → ReaGet × Val
  | .name x => (.name, .text x)
  | .symbol x => (.symbol, .text x)
  | .equation x => (.equation, .text x)
  | .reactants x => (.reactants, .map x)
  | .ref x => (.ref, .tpr x)
  | .params x => (.params, .paramR x)
  | .method m x => (.method m, .nat x)
  | .refT x => (.refT, .real x)
  | .refP x => (.refP, .real x)
  | .lowerT x => (.lowerT, .real x)
  | .lowerP x => (.lowerP, .real x)
  | .upperT x => (.upperT, .real x)
  | .upperP x => (.upperP, .real x)

/-- The getter a setter of an element belongs to, and the value it is given. -/
def ElemSet.sets : ElemSet → ElemGet × Val
  | .name x => (.name, .text x)
  | .symbol x => (.symbol, .text x)
  | .molarMass x => (.molarMass, .maybe (some x))
  | .entropy x => (.entropy, .maybe (some x))
  | .heatCapacity x => (.heatCapacity, .maybe (some x))
  | .volume x => (.volume, .maybe (some x))
  | .valence x => (.valence, .int x)
  | .cls x => (.cls, .int x)
  | .isotope x => (.isotope, .int x)
  | .number x => (.number, .int x)

/-- What a getter `g` should return after the setters of `l`, one after the other: what the last setter that belongs to it was given, or what it
returned before. -/
def lastSet {S G : Type} [DecidableEq G] (sets : S → G × Val) (l : List S) (g : G) (before : Val) : Val :=
  match l with
  | [] => before
  | x :: t => lastSet sets t g (if (sets x).1 = g then (sets x).2 else before)

lemma read_foldl {S G R : Type} [DecidableEq G] (sets : S → G × Val) (apply : S → R → R) (read : G → R → Val)
    (h : ∀ x r g, read g (apply x r) = if (sets x).1 = g then (sets x).2 else read g r) (g : G) :
    ∀ (l : List S) (r : R), read g (l.foldl (fun r x => apply x r) r) = lastSet sets l g (read g r)
  | [], _ => rfl
  | x :: t, r => by rw [List.foldl_cons, read_foldl sets apply read h g t, h, lastSet]

lemma methods_get_set (m : Methods) (s t : Slot) (c : Nat) : (m.set s c).get t = if s = t then c else m.get t := by
  cases s <;> cases t <;> rfl

/-- **C170, setters and getters.**  After any setters, in any order and any number, each getter of a substance, a reaction or an element returns what
the last setter of its name was given, or what it returned before if there was none: no setter sets another's value. -/
theorem C170_setters :
    (∀ (l : List SubSet) (s : Sub) (g : SubGet), g.read (l.foldl (fun s x => x.apply s) s) = lastSet SubSet.sets l g (g.read s)) ∧
    (∀ (l : List ReaSet) (r : Rea) (g : ReaGet), g.read (l.foldl (fun r x => x.apply r) r) = lastSet ReaSet.sets l g (g.read r)) ∧
    ∀ (l : List ElemSet) (e : Elem) (g : ElemGet), g.read (l.foldl (fun e x => x.apply e) e) = lastSet ElemSet.sets l g (g.read e) := by
  refine ⟨fun l s g => read_foldl _ _ _ (fun x r g => ?_) g l s, fun l s g => read_foldl _ _ _ (fun x r g => ?_) g l s,
    fun l s g => read_foldl _ _ _ (fun x r g => ?_) g l s⟩
  · cases x with
    | method m x =>
      cases g with
      | method t => simp only [SubSet.apply, SubGet.read, SubSet.sets, SubGet.method.injEq, methods_get_set]; split <;> rfl
      | _ => rfl
    | _ => cases g <;> rfl
  · cases x with
    | method m x =>
      cases g with
      | method t => simp only [ReaSet.apply, ReaGet.read, ReaSet.sets, ReaGet.method.injEq, methods_get_set]; split <;> rfl
      | _ => rfl
    | _ => cases g <;> rfl
  · cases x <;> cases g <;> rfl

/-- Two names, a charge and a method. -/
example (s : Sub) : let r := [SubSet.name "a", .charge 2, .method .T 7, .name "b", .lowerP 3].foldl (fun s x => x.apply s) s
    r.name = "b" ∧ r.charge = 2 ∧ r.lowerP = 3 ∧ r.lowerT = s.lowerT ∧ r.methods.gen = s.methods.gen := by
  intro r
  have h := fun g => C170_setters.1 [SubSet.name "a", .charge 2, .method .T 7, .name "b", .lowerP 3] s g
  refine ⟨?_, ?_, ?_, ?_, ?_⟩
  · exact Val.text.inj (h .name)
  · exact Val.int.inj (h .charge)
  · exact Val.real.inj (h .lowerP)
  · exact Val.real.inj (h .lowerT)
  · exact Val.nat.inj (h (.method .gen))

/-! ### The equation and the reactants of a reaction -/

open Equation

lemma lookup_get (m : RMap) (n : String) : (m.map fun e => (String.ofList e.1, e.2)).lookup n = m.get n.toList := by
  induction m with
  | nil => rfl
  | cons p t ih =>
    obtain ⟨k, y⟩ := p
    rw [List.map_cons, List.lookup_cons, RMap.get, ih]
    by_cases h : k = n.toList
    · subst h; simp
    · have : (n == String.ofList k) = false := by
        rw [beq_eq_false_iff_ne]
        exact fun e => h (by rw [e]; simp)
      rw [this, if_neg h]

lemma get_lookup (m : List (String × ℚ)) (n : String) : RMap.get (m.map fun e => (e.1.toList, e.2)) n.toList = m.lookup n := by
  rw [← lookup_get, List.map_map]
  congr 1
  conv_rhs => rw [← List.map_id m]
  exact List.map_congr_left fun e _ => by simp

/-- Reading an equation into a reaction. -/
lemma rea_fromEquation (l r : Side) (hl : l.Ok) (hr : r.Ok) (x : Rea) :
    ∃ y, x.fromEquation (String.ofList (l.text ++ '=' :: r.text)) = .ok y ∧ y.equation = String.ofList (l.text ++ '=' :: r.text) ∧
      (y.symbol = if x.symbol = "" then String.ofList (l.text ++ '=' :: r.text) else x.symbol) ∧
      (∀ n, y.reactants.lookup n = RMap.get ((occurrences l r).foldl (fun (m : RMap) p => m.assign p.1 p.2)
        (x.reactants.map fun e => (e.1.toList, e.2))) n.toList) := by
  unfold Rea.fromEquation
  rw [String.toList_ofList, fromEquation_ok l r hl hr]
  exact ⟨_, rfl, rfl, rfl, fun n => lookup_get _ n⟩

/-- **C170, the equation of a reaction, the part that holds.**  A reaction made from an equation, and afterwards from any other with all the species of
the first, has the species and coefficients of the last equation and no others; the first equation is its symbol if it had none.  Missing: equations that leave out a species, for which it
fails (below). -/
theorem C170_equation_partial (l r : Side) (hl : l.Ok) (hr : r.Ok) (hd : ((l.terms ++ r.terms).map Term.name).Nodup) (x : Rea)
    (hx : ∀ e ∈ x.reactants, e.1.toList ∈ (l.terms ++ r.terms).map Term.name) :
    ∃ y, x.fromEquation (String.ofList (l.text ++ '=' :: r.text)) = .ok y ∧ y.equation = String.ofList (l.text ++ '=' :: r.text) ∧
      (∀ t ∈ l.terms, y.reactants.lookup (String.ofList t.name) = some (-t.value)) ∧
      (∀ t ∈ r.terms, y.reactants.lookup (String.ofList t.name) = some t.value) ∧
      (∀ n : String, n.toList ∉ (l.terms ++ r.terms).map Term.name → y.reactants.lookup n = none) ∧
      (x.symbol = "" → y.symbol = y.equation) ∧ (x.symbol ≠ "" → y.symbol = x.symbol) := by
  obtain ⟨y, h1, h2, h2', h3⟩ := rea_fromEquation l r hl hr x
  have hnames : (occurrences l r).map (·.1) = (l.terms ++ r.terms).map Term.name := by
    simp [occurrences, Function.comp_def]
  have key : ∀ p ∈ occurrences l r, (occurrences l r).filter (fun q => q.1 = p.1) = [(p.1, p.2)] := by
    rw [← hnames] at hd
    generalize occurrences l r = o at hd
    clear hnames h3
    induction o with
    | nil => simp
    | cons q t ih =>
      simp only [List.map_cons, List.nodup_cons] at hd
      intro p hp
      rcases List.mem_cons.1 hp with rfl | hp
      · rw [List.filter_cons_of_pos (by simp)]
        congr 1
        rw [List.filter_eq_nil_iff]
        intro x hx
        simp only [decide_eq_true_eq]
        intro e
        exact hd.1 (List.mem_map.2 ⟨x, hx, e⟩)
      · have : q.1 ≠ p.1 := fun e => hd.1 (List.mem_map.2 ⟨p, hp, e.symm⟩)
        rw [List.filter_cons_of_neg (by simpa using this)]
        exact ih hd.2 p hp
  refine ⟨y, h1, h2, fun t ht => ?_, fun t ht => ?_, fun n hn => ?_, fun h => by rw [h2', if_pos h, h2], fun h => by rw [h2', if_neg h]⟩
  · rw [h3, String.toList_ofList]
    exact get_foldl_mem _ _ _ _ (key (t.name, -t.value) (by simp only [occurrences, List.mem_append, List.mem_map]; exact Or.inl ⟨t, ht, rfl⟩))
  · rw [h3, String.toList_ofList]
    exact get_foldl_mem _ _ _ _ (key (t.name, t.value) (by simp only [occurrences, List.mem_append, List.mem_map]; exact Or.inr ⟨t, ht, rfl⟩))
  · rw [h3, get_foldl_notMem _ _ _ (by rw [hnames]; exact hn), get_lookup, List.lookup_eq_none_iff]
    intro e he
    have : n ≠ e.1 := fun hne => hn (hne ▸ hx e he)
    simpa using this

/-- **C170 refuted, a reaction given another equation.**  `fromEquation` does not empty the reactants: whatever equation a reaction is given, each
species it had before and that the equation does not name stays, with its old coefficient, and takes part in every property calculated from the
reactants. -/
theorem C170_equation_refuted (l r : Side) (hl : l.Ok) (hr : r.Ok) (x : Rea) (n : String) (c : ℚ) (hn : x.reactants.lookup n = some c)
    (hno : n.toList ∉ (l.terms ++ r.terms).map Term.name) :
    ∃ y, x.fromEquation (String.ofList (l.text ++ '=' :: r.text)) = .ok y ∧ y.equation = String.ofList (l.text ++ '=' :: r.text) ∧
      y.reactants.lookup n = some c := by
  obtain ⟨y, h1, h2, -, h3⟩ := rea_fromEquation l r hl hr x
  have hnames : (occurrences l r).map (·.1) = (l.terms ++ r.terms).map Term.name := by
    simp [occurrences, Function.comp_def]
  exact ⟨y, h1, h2, by rw [h3, get_foldl_notMem _ _ _ (by rw [hnames]; exact hno), get_lookup, hn]⟩

/-- One species without coefficient. -/
def exSide (c : Char) : Side := ⟨[], ⟨none, [], [c]⟩, [], []⟩

lemma exSide_ok (c : Char) (h : c = 'A' ∨ c = 'B' ∨ c = 'C') : (exSide c).Ok := by
  refine ⟨fun c hc => absurd hc (List.not_mem_nil), fun c hc => absurd hc (List.not_mem_nil), ?_, by simp [exSide, White]⟩
  simp only [exSide, Side.terms, List.map_nil, List.forall_mem_cons, List.not_mem_nil, false_imp_iff, implies_true, and_true]
  rcases h with rfl | rfl | rfl <;> exact ⟨⟨_, _, rfl, Or.inl (by decide)⟩, by decide, by simp [Blanks], by simp⟩

/-- The reaction "A=B" that is given the equation "A=C" still has the product B; given "A=B" again it is as before. -/
example : ∃ x y z : Rea, ({} : Rea).fromEquation "A=B" = .ok x ∧ x.fromEquation "A=C" = .ok y ∧ y.equation = "A=C" ∧ y.reactants.lookup "B" = some 1 ∧
    x.fromEquation "A=B" = .ok z ∧ z.reactants.lookup "B" = some 1 ∧ z.reactants.lookup "C" = none := by
  obtain ⟨x, h1, -, -, h3, h4, -⟩ := C170_equation_partial (exSide 'A') (exSide 'B') (exSide_ok _ (by simp)) (exSide_ok _ (by simp))
    (by simp [exSide, Side.terms]) {} (by simp)
  have hB : x.reactants.lookup "B" = some 1 := h3 ⟨none, [], ['B']⟩ (by simp [exSide, Side.terms])
  obtain ⟨y, g1, g2, g3⟩ := C170_equation_refuted (exSide 'A') (exSide 'C') (exSide_ok _ (by simp)) (exSide_ok _ (by simp)) x "B" 1 hB
    (by simp [exSide, Side.terms])
  have hx : ∀ e ∈ x.reactants, e.1.toList ∈ ((exSide 'A').terms ++ (exSide 'B').terms).map Term.name := by
    intro e he
    by_contra hn
    have := h4 e.1 hn
    rw [List.lookup_eq_none_iff] at this
    have := this e he
    simp at this
  obtain ⟨z, k1, -, -, k3, k4, -⟩ := C170_equation_partial (exSide 'A') (exSide 'B') (exSide_ok _ (by simp)) (exSide_ok _ (by simp))
    (by simp [exSide, Side.terms]) x hx
  exact ⟨x, y, z, h1, g1, g2, g3, k1, k3 ⟨none, [], ['B']⟩ (by simp [exSide, Side.terms]), k4 "C" (by simp [exSide, Side.terms])⟩

/-- **C170 refuted, `setEquation`.**  `setEquation` changes the text alone: the reactants stay those of the equation before, for every reaction and every
text; and `setReactants` leaves the equation as it was.  The reaction "A=B" that is given the equation "A=C" is calculated with B. -/
theorem C170_setEquation_refuted : ∃ x : Rea, ({} : Rea).fromEquation "A=B" = .ok x ∧
    let y := (ReaSet.equation "A=C").apply x
    y.equation = "A=C" ∧ y.reactants.lookup "C" = none ∧ y.reactants.lookup "B" = some 1 ∧
    ∀ m, ((ReaSet.reactants m).apply x).equation = "A=B" := by
  obtain ⟨x, h1, h2, -, h3, h4, -⟩ := C170_equation_partial (exSide 'A') (exSide 'B') (exSide_ok _ (by simp)) (exSide_ok _ (by simp))
    (by simp [exSide, Side.terms]) {} (by simp)
  exact ⟨x, h1, rfl, h4 "C" (by simp [exSide, Side.terms]), h3 ⟨none, [], ['B']⟩ (by simp [exSide, Side.terms]), fun m => h2⟩

end ThermoFun.Js

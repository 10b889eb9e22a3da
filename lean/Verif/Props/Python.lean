import Verif.Model.Python
import Mathlib.Data.List.Nodup

/-!
# C161: what the Python module offers can be called, and a call reaches the function it is meant for
-/

namespace ThermoFun.Py

/-- Values without an empty list or dictionary anywhere. -/
inductive Full : Val → Prop
  | none : Full .none
  | bool (b) : Full (.bool b)
  | int (i) : Full (.int i)
  | float : Full .float
  | str (s) : Full (.str s)
  | bytes : Full .bytes
  | obj (n) : Full (.obj n)
  | list (l) : l ≠ [] → (∀ v ∈ l, Full v) → Full (.list l)
  | dict (l) : l ≠ [] → (∀ p ∈ l, Full p.1) → (∀ p ∈ l, Full p.2) → Full (.dict l)

/-- What is accepted without conversions is accepted with them. -/
theorem accepts_mono {reg : List String} {stl : Bool} (t : CType) : ∀ v, accepts reg stl false t v = true → accepts reg stl true t v = true := by
  induction t with
  | vec t ih =>
    intro v h
    cases v with
    | list l =>
      simp only [accepts, Bool.and_eq_true, List.all_eq_true] at h ⊢
      exact ⟨h.1, fun x hx => ih x (h.2 x hx)⟩
    | _ => simp [accepts] at h
  | map k t ihk iht =>
    intro v h
    cases v with
    | dict l =>
      simp only [accepts, Bool.and_eq_true, List.all_eq_true] at h ⊢
      exact ⟨h.1, fun x hx => ⟨ihk _ (h.2 x hx).1, iht _ (h.2 x hx).2⟩⟩
    | _ => simp [accepts] at h
  | pair a b iha ihb =>
    intro v h
    cases v with
    | list l =>
      rcases l with _ | ⟨u, _ | ⟨w, _ | ⟨z, r⟩⟩⟩
      · simp [accepts] at h
      · simp [accepts] at h
      · simp only [accepts, Bool.and_eq_true] at h ⊢
        exact ⟨iha _ h.1, ihb _ h.2⟩
      · simp [accepts] at h
    | _ => simp [accepts] at h
  | _ => intro v h; cases v <;> first | exact h | rfl | (simp [accepts] at h; done)

/-- Two types that have no full value in common, recognised by their shape. -/
def apart : CType → CType → Bool
  | .vec s, .vec t => apart s t
  | .vec _, .pair _ _ => false
  | .pair _ _, .vec _ => false
  | .pair _ _, .pair _ _ => false
  | .map _ _, .map _ _ => false
  | .cls m, .cls n => m != n
  | .enum m, .enum n => m != n
  | .cls m, .enum n => m != n
  | .enum m, .cls n => m != n
  | .cls _, _ => true
  | _, .cls _ => true
  | .enum _, _ => true
  | _, .enum _ => true
  | .vec _, _ => true
  | _, .vec _ => true
  | .map _ _, _ => true
  | _, .map _ _ => true
  | .pair _ _, _ => true
  | _, .pair _ _ => true
  | .string, .string => false
  | .string, _ => true
  | _, .string => true
  | _, _ => false

theorem apart_sound {reg : List String} {q r : Bool} (s : CType) :
    ∀ t v, apart s t = true → Full v → accepts reg q true s v = true → accepts reg r true t v = true → False := by
  induction s with
  | vec s ih =>
    intro t v ha hf h1 h2
    cases v with
    | list l =>
      cases t with
      | vec t =>
        cases hf with
        | list _ hne hall =>
          obtain ⟨v, hv⟩ := List.exists_mem_of_ne_nil l hne
          simp only [accepts, Bool.and_eq_true, List.all_eq_true] at h1 h2
          exact ih t v ha (hall v hv) (h1.2 v hv) (h2.2 v hv)
      | _ => simp_all [accepts, apart]
    | _ => simp [accepts] at h1
  | _ =>
    intro t v ha hf h1 h2
    cases v <;> first
      | (simp [accepts] at h1; done)
      | (cases t <;> first
          | (simp [accepts] at h2; done)
          | (simp [apart] at ha; done)
          | (simp only [accepts, Bool.and_eq_true, decide_eq_true_eq] at h1 h2
             simp only [apart, bne_iff_ne] at ha
             exact ha (h1.1.trans h2.1.symm)))

/-- Two functions that no arguments without empty containers fit both, recognised by their arguments. -/
def apartDef (d e : Def) : Bool := d.params.length != e.params.length || (d.params.zip e.params).any fun p => apart p.1 p.2

theorem takes_mono {reg : List String} {d : Def} {args : List Val} (h : takes reg false d args = true) : takes reg true d args = true := by
  simp only [takes, Bool.and_eq_true, List.all_eq_true] at h ⊢
  exact ⟨h.1, fun p hp => accepts_mono _ _ (h.2 p hp)⟩

theorem zip_any {reg : List String} {q r : Bool} : ∀ (ps qs : List CType) (args : List Val),
    (ps.zip qs).any (fun p => apart p.1 p.2) = true → args.length = ps.length → args.length = qs.length → (∀ v ∈ args, Full v) →
    (ps.zip args).all (fun p => accepts reg q true p.1 p.2) = true → (qs.zip args).all (fun p => accepts reg r true p.1 p.2) = true → False
  | [], _, _, h, _, _, _, _, _ => by simp at h
  | _ :: _, [], _, h, _, _, _, _, _ => by simp at h
  | p :: ps, q' :: qs, [], _, h, _, _, _, _ => by simp at h
  | p :: ps, q' :: qs, v :: args, h, h1, h2, hf, ha, hb => by
    simp only [List.zip_cons_cons, List.any_cons, Bool.or_eq_true, List.all_cons, Bool.and_eq_true, List.length_cons, Nat.add_right_cancel_iff] at h h1 h2 ha hb
    rcases h with h | h
    · exact apart_sound p q' v h (hf v (by simp)) ha.1 hb.1
    · exact zip_any ps qs args h h1 h2 (fun w hw => hf w (by simp [hw])) ha.2 hb.2

theorem apartDef_sound {reg : List String} {d e : Def} {args : List Val} (h : apartDef d e = true) (hf : ∀ v ∈ args, Full v)
    (hd : takes reg true d args = true) (he : takes reg true e args = true) : False := by
  simp only [takes, Bool.and_eq_true, beq_iff_eq] at hd he
  simp only [apartDef, Bool.or_eq_true, bne_iff_ne] at h
  rcases h with h | h
  · exact h (hd.1.symm.trans he.1)
  · exact zip_any _ _ _ h hd.1 he.1 hf hd.2 he.2

/-- With at most one function that takes the arguments, the order of the definitions does not matter. -/
theorem dispatch_unique {reg : List String} {ovs ovs' : List Def} {args : List Val} (hp : ∀ d, d ∈ ovs ↔ d ∈ ovs')
    (hu : ∀ d ∈ ovs, ∀ e ∈ ovs, takes reg true d args = true → takes reg true e args = true → d = e) :
    dispatch reg ovs' args = dispatch reg ovs args := by
  have hfind : ∀ c, ovs'.find? (takes reg c · args) = ovs.find? (takes reg c · args) := by
    intro c
    have hc : ∀ d, takes reg c d args = true → takes reg true d args = true := by
      intro d h
      cases c
      · exact takes_mono h
      · exact h
    cases h : ovs.find? (takes reg c · args) with
    | none =>
      rw [List.find?_eq_none] at h ⊢
      exact fun d hd => h d ((hp d).2 hd)
    | some d =>
      have hd := List.find?_some h
      have hm := List.mem_of_find?_eq_some h
      cases h' : ovs'.find? (takes reg c · args) with
      | none =>
        rw [List.find?_eq_none] at h'
        exact absurd hd (h' d ((hp d).1 hm))
      | some e =>
        have he := List.find?_some h'
        have hme := (hp e).2 (List.mem_of_find?_eq_some h')
        rw [hu e hme d hm (hc e he) (hc d hd)]
  unfold dispatch
  rw [hfind, hfind]

/-- The exported functions that no call can use: their arguments or results have types unknown to the module. -/
def unusable : List (String × String) :=
  [("Substance", "setMethodGenEoS"), ("Substance", "setMethod_T"), ("Substance", "setMethod_P"), ("Substance", "setSubstanceClass"),
   ("Substance", "setAggregateState"), ("Substance", "setThermoCalculationType"), ("Substance", "methodGenEOS"), ("Substance", "method_T"),
   ("Substance", "method_P"), ("Substance", "substanceClass"), ("Substance", "thermoCalculationType"), ("Substance", "aggregateState"),
   ("Reaction", "setMethodGenEoS"), ("Reaction", "setMethod_T"), ("Reaction", "setMethod_P"), ("Reaction", "methodGenEOS"),
   ("Reaction", "method_T"), ("Reaction", "method_P"), ("", "get_water_triple_data")]

/-- A Python value for each type. -/
def sample : CType → Val
  | .double => .float
  | .int => .int 1
  | .size => .int 1
  | .bool => .bool true
  | .string => .str "a"
  | .void => .none
  | .cls n => .obj n
  | .enum n => .obj n
  | .vec t => .list [sample t]
  | .map k v => .dict [(sample k, sample v)]
  | .pair a b => .list [sample a, sample b]

theorem reached : ∀ d ∈ exports, (d.owner, d.name) ∉ unusable → call d.owner d.name (d.params.map sample) = .ran d := by
  decide +kernel

/-- The exports class by class. -/
def classes : List (String × List Def) :=
  [("ThermoScalar", expThermoScalar), ("ThermoPropertiesSubstance", expThermoPropertiesSubstance),
   ("ThermoPropertiesReaction", expThermoPropertiesReaction), ("ElectroPropertiesSolvent", expElectroPropertiesSolvent),
   ("PropertiesSolvent", expPropertiesSolvent), ("ThermoParametersReaction", expThermoParametersReaction),
   ("ThermoParametersSubstance", expThermoParametersSubstance), ("ThermoEngine", expThermoEngine), ("EnginePreferences", expEnginePreferences),
   ("EngineConventions", expEngineConventions), ("ThermoBatch", expThermoBatch), ("BatchPreferences", expBatchPreferences), ("Output", expOutput),
   ("Database", expDatabase), ("DatabaseConventions", expDatabaseConventions), ("Substance", expSubstance), ("Reaction", expReaction),
   ("Element", expElement), ("", expModule)]

theorem split_class : ∀ p ∈ classes, ∀ d ∈ p.2, ∀ e ∈ p.2, d.name = e.name → d = e ∨ apartDef d e = true := by
  decide +kernel

theorem split_up (d : Def) (hd : d ∈ exports) (e : Def) (he : e ∈ exports) (ho : d.owner = e.owner) (hn : d.name = e.name) :
    d = e ∨ apartDef d e = true := by
  have hx : exports = classes.flatMap Prod.snd := by
    simp only [exports, classes, List.flatMap_cons, List.flatMap_nil, List.append_nil, List.append_assoc]
  have how : ∀ p ∈ classes, ∀ d ∈ p.2, d.owner = p.1 := by decide +kernel
  have hnd : (classes.map Prod.fst).Nodup := by decide +kernel
  rw [hx, List.mem_flatMap] at hd he
  obtain ⟨p, hp, hd⟩ := hd
  obtain ⟨q, hq, he⟩ := he
  have hpq : p = q := List.inj_on_of_nodup_map hnd hp hq ((how p hp d hd).symm.trans (ho.trans (how q hq e he)))
  exact split_class p hp d hd e (hpq ▸ he) hn

theorem hopeless : ∀ d ∈ exports, (d.owner, d.name) ∈ unusable →
    castable registered d.stl d.ret = false ∨ ∃ n ∈ ["MethodGenEoS_Thrift", "MethodCorrT_Thrift", "MethodCorrP_Thrift", "SubstanceClass",
      "AggregateState", "SubstanceThermoCalculationType"], d.params = [.enum n] := by
  decide +kernel

theorem results : ∀ d ∈ exports, (d.owner, d.name) ∉ unusable → castable registered d.stl d.ret = true := by
  decide +kernel

theorem mem_overloads {owner name : String} {d : Def} : d ∈ overloads owner name ↔ d ∈ exports ∧ d.owner = owner ∧ d.name = name := by
  simp [overloads]

theorem one_takes {owner name : String} {args : List Val} (hf : ∀ v ∈ args, Full v) :
    ∀ d ∈ overloads owner name, ∀ e ∈ overloads owner name, takes registered true d args = true → takes registered true e args = true → d = e := by
  intro d hd e he h1 h2
  rw [mem_overloads] at hd he
  rcases split_up d hd.1 e he.1 (hd.2.1.trans he.2.1.symm) (hd.2.2.trans he.2.2.symm) with h | h
  · exact h
  · exact (apartDef_sound h hf h1 h2).elim

theorem dispatch_takes {reg : List String} {ovs : List Def} {args : List Val} {d : Def} (hd : d ∈ ovs) (ht : takes reg true d args = true)
    (hu : ∀ d ∈ ovs, ∀ e ∈ ovs, takes reg true d args = true → takes reg true e args = true → d = e) : dispatch reg ovs args = finish reg d := by
  unfold dispatch
  cases h : ovs.find? (takes reg false · args) with
  | some e =>
    have he : takes reg false e args = true := by simpa using List.find?_some h
    rw [hu e (List.mem_of_find?_eq_some h) d hd (takes_mono he) ht]
  | none =>
    cases h' : ovs.find? (takes reg true · args) with
    | some e =>
      have he : takes reg true e args = true := by simpa using List.find?_some h'
      rw [hu e (List.mem_of_find?_eq_some h') d hd he ht]
    | none =>
      rw [List.find?_eq_none] at h'
      exact absurd ht (h' d hd)

theorem dispatch_ran {reg : List String} {ovs : List Def} {args : List Val} {d : Def} (h : dispatch reg ovs args = .ran d) :
    d ∈ ovs ∧ takes reg true d args = true ∧ castable reg d.stl d.ret = true := by
  have hfin : ∀ e, finish reg e = .ran d → e = d ∧ castable reg d.stl d.ret = true := by
    intro e he
    unfold finish at he
    split at he
    · next hc => cases he; exact ⟨rfl, hc⟩
    · cases he
  unfold dispatch at h
  cases h1 : ovs.find? (takes reg false · args) with
  | some e =>
    rw [h1] at h
    obtain ⟨rfl, hc⟩ := hfin e h
    have ht : takes reg false e args = true := by simpa using List.find?_some h1
    exact ⟨List.mem_of_find?_eq_some h1, takes_mono ht, hc⟩
  | none =>
    rw [h1] at h
    cases h2 : ovs.find? (takes reg true · args) with
    | some e =>
      rw [h2] at h
      obtain ⟨rfl, hc⟩ := hfin e h
      exact ⟨List.mem_of_find?_eq_some h2, by simpa using List.find?_some h2, hc⟩
    | none =>
      rw [h2] at h
      cases h

theorem unregistered : ∀ n ∈ ["MethodGenEoS_Thrift", "MethodCorrT_Thrift", "MethodCorrP_Thrift", "SubstanceClass", "AggregateState",
    "SubstanceThermoCalculationType"], registered.contains n = false := by decide

/-- Every exported function can be called from Python with some arguments and hands its result over, unless it is one of the nineteen in
`unusable`; and these are never called successfully, whatever the arguments. Missing: the nineteen (`C161_unusable_refuted`); arguments given by
keyword. -/
theorem C161_partial : ∀ d ∈ exports, (∃ args, call d.owner d.name args = .ran d) ↔ (d.owner, d.name) ∉ unusable := by
  intro d hd
  constructor
  · rintro ⟨args, h⟩ hu
    obtain ⟨-, ht, hc⟩ := dispatch_ran h
    rcases hopeless d hd hu with h' | ⟨n, hn, hp⟩
    · rw [h'] at hc; cases hc
    · simp only [takes, hp, Bool.and_eq_true, beq_iff_eq] at ht
      obtain ⟨hl, ha⟩ := ht
      obtain ⟨v, rfl⟩ := List.length_eq_one_iff.1 hl
      have hreg : registered.contains n = false := unregistered n hn
      simp only [List.zip_cons_cons, List.zip_nil_right, List.all_cons, List.all_nil, Bool.and_true] at ha
      cases v with
      | obj m =>
        simp only [accepts, hreg, Bool.and_false] at ha
        cases ha
      | _ => simp [accepts] at ha
  · exact fun h => ⟨_, reached d hd h⟩

/-- Python values that stand for a C++ type: any number for a `double`, integers in the range of the machine type, truth values for numbers, text
and bytes for a string, objects of a registered class, and containers of such where the file of the function includes pybind11/stl.h. -/
inductive Fits (stl : Bool) : CType → Val → Prop
  | float : Fits stl .double .float
  | ofInt (i) : Fits stl .double (.int i)
  | ofBool (b) : Fits stl .double (.bool b)
  | int (i) : -2 ^ 31 ≤ i → i < 2 ^ 31 → Fits stl .int (.int i)
  | intBool (b) : Fits stl .int (.bool b)
  | size (i) : 0 ≤ i → i < 2 ^ 64 → Fits stl .size (.int i)
  | sizeBool (b) : Fits stl .size (.bool b)
  | bool (b) : Fits stl .bool (.bool b)
  | boolNone : Fits stl .bool .none
  | boolInt (i) : Fits stl .bool (.int i)
  | boolFloat : Fits stl .bool .float
  | str (s) : Fits stl .string (.str s)
  | bytes : Fits stl .string .bytes
  | cls (n) : n ∈ registered → Fits stl (.cls n) (.obj n)
  | enum (n) : n ∈ registered → Fits stl (.enum n) (.obj n)
  | vec (t l) : stl = true → (∀ v ∈ l, Fits stl t v) → Fits stl (.vec t) (.list l)
  | map (k t l) : stl = true → (∀ p ∈ l, Fits stl k p.1) → (∀ p ∈ l, Fits stl t p.2) → Fits stl (.map k t) (.dict l)
  | pair (a b u v) : Fits stl a u → Fits stl b v → Fits stl (.pair a b) (.list [u, v])

theorem fits_iff {stl : Bool} (t : CType) : ∀ v, accepts registered stl true t v = true ↔ Fits stl t v := by
  induction t with
  | vec t ih =>
    intro v
    cases v with
    | list l =>
      simp only [accepts, Bool.and_eq_true, List.all_eq_true]
      constructor
      · exact fun h => .vec _ _ h.1 fun x hx => (ih x).1 (h.2 x hx)
      · rintro ⟨⟩
        rename_i h1 h2
        exact ⟨h1, fun x hx => (ih x).2 (h2 x hx)⟩
    | _ => exact ⟨fun h => by simp [accepts] at h, fun h => by cases h⟩
  | map k t ihk iht =>
    intro v
    cases v with
    | dict l =>
      simp only [accepts, Bool.and_eq_true, List.all_eq_true]
      constructor
      · exact fun h => .map _ _ _ h.1 (fun x hx => (ihk _).1 (h.2 x hx).1) (fun x hx => (iht _).1 (h.2 x hx).2)
      · rintro ⟨⟩
        rename_i h1 h2 h3
        exact ⟨h1, fun x hx => ⟨(ihk _).2 (h2 x hx), (iht _).2 (h3 x hx)⟩⟩
    | _ => exact ⟨fun h => by simp [accepts] at h, fun h => by cases h⟩
  | pair a b iha ihb =>
    intro v
    cases v with
    | list l =>
      rcases l with _ | ⟨u, _ | ⟨w, _ | ⟨z, r⟩⟩⟩
      · exact ⟨fun h => by simp [accepts] at h, fun h => by cases h⟩
      · exact ⟨fun h => by simp [accepts] at h, fun h => by cases h⟩
      · simp only [accepts, Bool.and_eq_true]
        constructor
        · exact fun h => .pair _ _ _ _ ((iha _).1 h.1) ((ihb _).1 h.2)
        · rintro ⟨⟩
          rename_i h1 h2
          exact ⟨(iha _).2 h1, (ihb _).2 h2⟩
      · exact ⟨fun h => by simp [accepts] at h, fun h => by cases h⟩
    | _ => exact ⟨fun h => by simp [accepts] at h, fun h => by cases h⟩
  | cls n =>
    intro v
    cases v with
    | obj m =>
      simp only [accepts, Bool.and_eq_true, decide_eq_true_eq, List.contains_iff_mem]
      constructor
      · rintro ⟨rfl, h⟩; exact .cls _ h
      · rintro ⟨⟩; rename_i h; exact ⟨rfl, h⟩
    | _ => exact ⟨fun h => by simp [accepts] at h, fun h => by cases h⟩
  | enum n =>
    intro v
    cases v with
    | obj m =>
      simp only [accepts, Bool.and_eq_true, decide_eq_true_eq, List.contains_iff_mem]
      constructor
      · rintro ⟨rfl, h⟩; exact .enum _ h
      · rintro ⟨⟩; rename_i h; exact ⟨rfl, h⟩
    | _ => exact ⟨fun h => by simp [accepts] at h, fun h => by cases h⟩
  | int =>
    intro v
    cases v with
    | int i =>
      simp only [accepts, decide_eq_true_eq]
      constructor
      · exact fun h => .int i (by omega) (by omega)
      · rintro ⟨⟩; omega
    | bool b => exact ⟨fun _ => .intBool b, fun _ => rfl⟩
    | _ => exact ⟨fun h => by simp [accepts] at h, fun h => by cases h⟩
  | size =>
    intro v
    cases v with
    | int i =>
      simp only [accepts, decide_eq_true_eq]
      constructor
      · exact fun h => .size i (by omega) (by omega)
      · rintro ⟨⟩; omega
    | bool b => exact ⟨fun _ => .sizeBool b, fun _ => rfl⟩
    | _ => exact ⟨fun h => by simp [accepts] at h, fun h => by cases h⟩
  | _ =>
    intro v
    cases v <;> first
      | exact ⟨fun _ => by constructor, fun _ => rfl⟩
      | exact ⟨fun h => by simp [accepts] at h, fun h => by cases h⟩

theorem takes_iff {d : Def} : ∀ {args : List Val}, takes registered true d args = true ↔ List.Forall₂ (Fits d.stl) d.params args := by
  intro args
  simp only [takes, Bool.and_eq_true, beq_iff_eq]
  generalize d.params = ps
  induction ps generalizing args with
  | nil =>
    cases args with
    | nil => simp
    | cons a as => simp
  | cons p ps ih =>
    cases args with
    | nil => simp
    | cons a as =>
      simp only [List.length_cons, Nat.add_right_cancel_iff, List.zip_cons_cons, List.all_cons, Bool.and_eq_true, List.forall₂_cons, ← ih, fits_iff]
      tauto

/-- A call reaches the function whose argument types it has, and only that: if no list or dictionary in it is empty, a usable function runs exactly
when there are as many arguments as it has parameters and each fits its type. Missing: empty lists (`C161_empty_refuted`). -/
theorem C161_meant_partial (d : Def) (hd : d ∈ exports) (hu : (d.owner, d.name) ∉ unusable) (args : List Val) (hf : ∀ v ∈ args, Full v) :
    call d.owner d.name args = .ran d ↔ List.Forall₂ (Fits d.stl) d.params args := by
  rw [← takes_iff]
  constructor
  · exact fun h => (dispatch_ran h).2.1
  · intro ht
    unfold call
    rw [dispatch_takes (mem_overloads.2 ⟨hd, rfl, rfl⟩) ht (one_takes hf)]
    unfold finish
    rw [if_pos (results d hd hu)]

/-- The five calculations of the engine: name, class of the object asked for, class of the answer. -/
def queries : List (String × String × String) :=
  [("thermoPropertiesSubstance", "Substance", "ThermoPropertiesSubstance"), ("electroPropertiesSolvent", "Substance", "ElectroPropertiesSolvent"),
   ("propertiesSolvent", "Substance", "PropertiesSolvent"), ("thermoPropertiesReaction", "Reaction", "ThermoPropertiesReaction"),
   ("thermoPropertiesReactionFromReactants", "Reaction", "ThermoPropertiesReaction")]

/-- Each calculation of the engine can be asked for by symbol and by object, with any two numbers for temperature and pressure, and answers with the
properties of that kind. -/
theorem C161_queries_partial (q : String × String × String) (hq : q ∈ queries) (t p x : Val) (ht : Fits true .double t) (hp : Fits true .double p)
    (hx : x = .obj q.2.1 ∨ ∃ s, x = .str s) : ∃ d, call "ThermoEngine" q.1 [t, p, x] = .ran d ∧ d.ret = .cls q.2.2 := by
  have key : ∀ c : CType, Fits true c x → Full x →
      (∀ q ∈ queries, (c = .cls q.2.1 ∨ c = .string) → (⟨"ThermoEngine", q.1, [.double, .double, c], .cls q.2.2, true⟩ : Def) ∈ exports ∧
        ("ThermoEngine", q.1) ∉ unusable) → (c = .cls q.2.1 ∨ c = .string) → ∃ d, call "ThermoEngine" q.1 [t, p, x] = .ran d ∧ d.ret = .cls q.2.2 := by
    intro c hc hfx h hcq
    obtain ⟨h1, h2⟩ := h q hq hcq
    refine ⟨_, (C161_meant_partial ⟨"ThermoEngine", q.1, [.double, .double, c], .cls q.2.2, true⟩ h1 h2 [t, p, x] ?_).2
      (.cons ht (.cons hp (.cons hc .nil))), rfl⟩
    have hnum : ∀ v, Fits true .double v → Full v := by
      intro v hv
      cases hv <;> constructor
    intro v hv
    simp only [List.mem_cons, List.not_mem_nil, or_false] at hv
    rcases hv with rfl | rfl | rfl
    · exact hnum _ ht
    · exact hnum _ hp
    · exact hfx
  rcases hx with rfl | ⟨s, rfl⟩
  · have hreg : ∀ q ∈ queries, q.2.1 ∈ registered := by decide
    refine key (.cls q.2.1) (.cls _ (hreg q hq)) (.obj _) ?_ (.inl rfl)
    have : ∀ r ∈ queries, ∀ q ∈ queries, ((.cls r.2.1 : CType) = .cls q.2.1 ∨ (.cls r.2.1 : CType) = .string) →
        (⟨"ThermoEngine", q.1, [.double, .double, .cls r.2.1], .cls q.2.2, true⟩ : Def) ∈ exports ∧ ("ThermoEngine", q.1) ∉ unusable := by decide +kernel
    exact this q hq
  · refine key .string (.str s) (.str s) ?_ (.inr rfl)
    decide +kernel

/-- `engine.thermoPropertiesReaction(400, 1e5, reaction)`. -/
example : ∃ d, call "ThermoEngine" "thermoPropertiesReaction" [.int 400, .float, .obj "Reaction"] = .ran d ∧ d.ret = .cls "ThermoPropertiesReaction" :=
  C161_queries_partial ("thermoPropertiesReaction", "Reaction", "ThermoPropertiesReaction") (by decide) _ _ _ (.ofInt _) .float (.inl rfl)

/-- The order in which the functions of one name are defined does not matter, under the same condition. -/
theorem C161_order_partial (owner name : String) (ovs : List Def) (hp : ∀ d, d ∈ overloads owner name ↔ d ∈ ovs) (args : List Val)
    (hf : ∀ v ∈ args, Full v) : dispatch registered ovs args = call owner name args :=
  dispatch_unique hp (one_takes hf)

/-- The batch calculation for lists of temperatures and pressures, pyThermoBatch.cpp:77. -/
def exGrid : Def :=
  ⟨"ThermoBatch", "thermoPropertiesSubstance", [.vec .double, .vec .double, .vec .string, .vec .string], .cls "Output", true⟩

/-- The batch calculation for pairs of temperature and pressure with results given, pyThermoBatch.cpp:76. -/
def exPairs : Def :=
  ⟨"ThermoBatch", "thermoPropertiesSubstance", [.vec (.vec .double), .vec .string, .vec .string, .vec (.cls "ThermoPropertiesSubstance")], .cls "Output", true⟩

/-- `batch.thermoPropertiesSubstance([25, 50.0], [1], ["Calcite"], ["gibbs_energy"])`: integers among the temperatures. -/
example : call "ThermoBatch" "thermoPropertiesSubstance"
    [.list [.int 25, .float], .list [.int 1], .list [.str "Calcite"], .list [.str "gibbs_energy"]] = .ran exGrid :=
  (C161_meant_partial exGrid (by decide +kernel) (by decide +kernel) _
    (by
      intro v hv
      simp only [List.mem_cons, List.not_mem_nil, or_false] at hv
      rcases hv with rfl | rfl | rfl | rfl <;> refine .list _ (by simp) ?_ <;> intro w hw <;>
        simp only [List.mem_cons, List.not_mem_nil, or_false] at hw
      · rcases hw with rfl | rfl
        · exact .int 25
        · exact .float
      · subst hw; exact .int 1
      · subst hw; exact .str _
      · subst hw; exact .str _)).2
    (takes_iff.1 (by decide +kernel))

/-- The functions that set or tell the calculation methods, the class and the aggregate state of a substance or a reaction cannot be used from Python:
their enumerations are not registered. Setting is refused whatever is given (`substance.setMethod_T(…)` raises `TypeError` for every argument),
and asking (`substance.method_T()`) raises `TypeError` when the result is converted. A `Substance` made in Python therefore never gets methods
of calculation other than through JSON. Likewise `get_water_triple_data()`: neither the container nor `WaterTripleProperties` can be
converted. -/
theorem C161_unusable_refuted :
    (∃ d ∈ exports, ∀ args, call d.owner d.name args ≠ .ran d) ∧
    (∀ v, call "Substance" "setMethod_T" [v] = .refused) ∧
    (∃ d, call "Substance" "method_T" [] = .lost d) ∧
    (∃ d, call "" "get_water_triple_data" [] = .lost d) ∧
    ∀ p ∈ unusable, ∃ d ∈ exports, (d.owner, d.name) = p := by
  have hm : (⟨"Substance", "setMethod_T", [.enum "MethodCorrT_Thrift"], .void, false⟩ : Def) ∈ exports := by decide +kernel
  refine ⟨⟨_, hm, fun args h => ?_⟩, fun v => ?_, ⟨⟨"Substance", "method_T", [], .enum "MethodCorrT_Thrift", false⟩, by decide +kernel⟩,
    ⟨⟨"", "get_water_triple_data", [], .map .string (.cls "WaterTripleProperties"), false⟩, by decide +kernel⟩, by decide +kernel⟩
  · exact (C161_partial _ hm).1 ⟨args, h⟩ (by decide +kernel)
  · have ho : overloads "Substance" "setMethod_T" = [⟨"Substance", "setMethod_T", [.enum "MethodCorrT_Thrift"], .void, false⟩] := by
      decide +kernel
    have hr : registered.contains "MethodCorrT_Thrift" = false := by decide
    have ht : ∀ c, takes registered c ⟨"Substance", "setMethod_T", [.enum "MethodCorrT_Thrift"], .void, false⟩ [v] = false := by
      intro c
      cases v <;> simp [takes, accepts, registered]
    simp only [call, ho, dispatch, List.find?, ht]

/-- With empty lists a call is ambiguous, and the first definition wins: `batch.thermoPropertiesSubstance([], [], [], [])` is taken for the
calculation with given results, also by a caller who means no temperatures and no pressures; defined in the other order it would be the other
one. -/
theorem C161_empty_refuted :
    let args := [Val.list [], Val.list [], Val.list [], Val.list []]
    exGrid ∈ exports ∧ takes registered true exGrid args = true ∧ call exGrid.owner exGrid.name args = .ran exPairs ∧
    dispatch registered (overloads exGrid.owner exGrid.name).reverse args = .ran exGrid := by
  decide +kernel

/-- The descriptions of `update_loggers` and `clear_loggers` (PyThermoFun.cpp:52-53) give default values for three arguments: `update_loggers()`
is refused, since no defaults are defined, and so is `clear_loggers` with the three arguments described; it takes the name of the file alone. -/
theorem C161_loggers_refuted :
    call "" "update_loggers" [] = .refused ∧ call "" "clear_loggers" [.bool false, .str "thermofun.log", .int 2] = .refused ∧
    call "" "clear_loggers" [] = .refused ∧
    (∃ d, call "" "update_loggers" [.bool false, .str "thermofun.log", .int 2] = .ran d) ∧
    ∃ d, call "" "clear_loggers" [.str "thermofun.log"] = .ran d :=
  ⟨by decide +kernel, by decide +kernel, by decide +kernel, ⟨⟨"", "update_loggers", [.bool, .string, .size], .void, false⟩, by decide +kernel⟩,
    ⟨⟨"", "clear_loggers", [.string], .void, false⟩, by decide +kernel⟩⟩

/-! ## Objects stay valid as long as they are held -/

/-- Every variable keeps the object it refers to. -/
def Safe (h : Heap) : Prop := ∀ x v, h.vars x = some v → v.root.2 = true

theorem Safe.alive {h : Heap} (hs : Safe h) {x : String} {v : Held} (hv : h.vars x = some v) : h.alive v.root.1 :=
  ⟨x, v, hv, Prod.ext rfl (hs x v hv)⟩

theorem Safe.set {h : Heap} (hs : Safe h) (x : String) (v : Held) (hv : v.root.2 = true) (n : Nat) :
    Safe ⟨fun z => if z = x then some v else h.vars z, n⟩ := by
  intro z w hw
  by_cases hz : z = x
  · simp only [hz, if_true, Option.some.injEq] at hw
    rw [← hw]; exact hv
  · simp only [hz, if_false] at hw
    exact hs z w hw

theorem safe_step {h : Heap} (hs : Safe h) (s : Step) (hr : ∀ x y d, s = .get x y d → policy d ≠ .reference) :
    ∃ h' b, step h s = some (h', b) ∧ Safe h' := by
  cases s with
  | new x => exact ⟨_, _, rfl, hs.set x _ rfl _⟩
  | del x =>
    refine ⟨_, _, rfl, ?_⟩
    intro z w hw
    by_cases hz : z = x
    · simp [hz] at hw
    · simp only [hz, if_false] at hw
      exact hs z w hw
  | use x =>
    cases hv : h.vars x with
    | none => exact ⟨h, false, by simp [step, hv], hs⟩
    | some v => exact ⟨h, true, by simp [step, hv, hs.alive hv], hs⟩
  | get x y d =>
    have hpol := hr x y d rfl
    cases hv : h.vars y with
    | none => exact ⟨h, false, by simp [step, hv], hs⟩
    | some v =>
      cases hp : policy d with
      | copy =>
        exact ⟨⟨fun z => if z = x then some (.own h.next) else h.vars z, h.next + 1⟩, true, by simp [step, hv, hs.alive hv, hp],
          hs.set x (.own h.next) rfl _⟩
      | internal =>
        exact ⟨{ h with vars := fun z => if z = x then some (.view v.root.1 v.root.2) else h.vars z }, true,
          by simp [step, hv, hs.alive hv, hp], hs.set x (.view v.root.1 v.root.2) (hs y v hv) _⟩
      | reference => exact absurd hp hpol

theorem safe_runs : ∀ (prog : List Step) (h : Heap), Safe h → (∀ x y d, Step.get x y d ∈ prog → policy d ≠ .reference) → runs h prog ≠ none
  | [], h, _, _ => by simp [runs]
  | s :: ss, h, hs, hr => by
    obtain ⟨h', b, he, hs'⟩ := safe_step hs s (fun x y d e => hr x y d (by simp [e]))
    unfold runs
    rw [he]
    cases b with
    | true => exact safe_runs ss h' hs' (fun x y d hm => hr x y d (by simp [hm]))
    | false => simp

theorem ite_ne {p : Prop} [Decidable p] {α : Type} {a b c : α} (ha : a ≠ c) (hb : b ≠ c) : (if p then a else b) ≠ c := by
  split
  · exact ha
  · exact hb

/-- A Python program that uses `getElement`, `getSubstance` and `getReaction` rather than `element`, `substance` and `reaction` of a database never
uses an object that has been freed, in whatever order it makes, takes, forgets and uses objects. Missing: the three functions
(`C161_dangling_refuted`). -/
theorem C161_alive_partial (prog : List Step)
    (h : ∀ x y d, Step.get x y d ∈ prog → d.owner = "Database" → d.name ∉ ["element", "substance", "reaction"]) :
    runs ⟨fun _ => none, 0⟩ prog ≠ none := by
  refine safe_runs prog _ (fun x v hv => by cases hv) fun x y d hm hp => ?_
  have := h x y d hm
  by_cases hc : d.owner = "Database" ∧ (d.name = "element" ∨ d.name = "substance" ∨ d.name = "reaction")
  · exact this hc.1 (by simpa using hc.2)
  · unfold policy at hp
    rw [if_neg hc] at hp
    by_cases h1 : d.name = "preferences" ∨ d.name = "conventions"
    · rw [if_pos h1] at hp; exact absurd hp (by decide)
    · rw [if_neg h1] at hp
      exact ite_ne (by decide) (by decide) hp

/-- `Database.getSubstance`, pyDatabase.cpp:92. -/
def exGet : Def := ⟨"Database", "getSubstance", [.string], .cls "Substance", true⟩

/-- `Database.substance`, pyDatabase.cpp:95. -/
def exRef : Def := ⟨"Database", "substance", [.string], .cls "Substance", true⟩

example : exGet ∈ exports ∧ exRef ∈ exports := by decide +kernel

/-- `db = Database(…); s = db.getSubstance("Calcite"); del db; s.symbol()` is fine. -/
example : runs ⟨fun _ => none, 0⟩ [.new "db", .get "s" "db" exGet, .del "db", .use "s"] ≠ none :=
  C161_alive_partial _ (by
    intro x y d hm
    simp only [List.mem_cons, List.not_mem_nil, or_false, reduceCtorEq, false_or, Step.get.injEq] at hm
    obtain ⟨-, -, rfl⟩ := hm
    intro _
    decide)

/-- A reference taken with `element`, `substance` or `reaction` does not keep its database alive: `s = Database(…).substance("Calcite")` followed by
any use of `s` reads freed memory. -/
theorem C161_dangling_refuted :
    runs ⟨fun _ => none, 0⟩ [.new "db", .get "s" "db" exRef, .del "db", .use "s"] = none ∧ exRef ∈ exports := by
  refine ⟨?_, by decide +kernel⟩
  have hp : policy exRef = .reference := by decide +kernel
  have ha : Heap.alive ⟨fun z => if z = "db" then some (.own 0) else none, 1⟩ 0 := ⟨"db", .own 0, by simp, rfl⟩
  have hn : ¬ Heap.alive ⟨fun z => if z = "db" then none else if z = "s" then some (.view 0 false) else if z = "db" then some (.own 0) else none, 1⟩ 0 := by
    rintro ⟨x, v, hx, hv⟩
    by_cases h1 : x = "db"
    · simp [h1] at hx
    · by_cases h2 : x = "s"
      · simp only [h1, h2, if_false, if_true] at hx
        simp at hx
        rw [← hx] at hv
        simp [Held.root] at hv
      · simp [h1, h2] at hx
  simp only [runs, step, if_true, Held.root, ha, hp, hn, String.reduceEq, if_false]

end ThermoFun.Py

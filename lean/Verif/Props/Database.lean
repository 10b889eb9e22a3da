import Verif.Model.Database
import Mathlib.Data.List.Pairwise
import Mathlib.Order.Basic
import Mathlib.Tactic.Ring
import Mathlib.Tactic.Linarith

/-!
# Properties of the database: maps (C50), loading (C52), element table (C53), comparisons (C54)
-/

namespace ThermoFun.Js

/-! ### C50 The database as finite maps -/

variable {α : Type}

/-- The symbols are in order, each once. -/
def Ordered (m : List (String × α)) : Prop := (m.map Prod.fst).Pairwise (· < ·)

/-- Specification: a finite map is a function from symbols to at most one record. -/
abbrev FMap (α : Type) := String → Option α

/-- Specification: adding keeps the first record. -/
def FMap.add (f : FMap α) (k : String) (x : α) : FMap α := fun s => if s = k then some ((f k).getD x) else f s

/-- Specification: setting overwrites. -/
def FMap.set (f : FMap α) (k : String) (x : α) : FMap α := fun s => if s = k then some x else f s

/-- The list stands for the finite map. -/
structure Rep (m : SMap α) (f : FMap α) : Prop where
  ordered : Ordered m
  agree : ∀ k, find k m = f k

lemma ordered_nil : Ordered ([] : SMap α) := List.Pairwise.nil

lemma ordered_cons {a : String} {y : α} {t : SMap α} : Ordered ((a, y) :: t) ↔ (∀ p ∈ t, a < p.1) ∧ Ordered t := by
  simp [Ordered, List.pairwise_cons]

lemma find_none_of_lt {k : String} {t : SMap α} (h : ∀ p ∈ t, k < p.1) : find k t = none := by
  induction t with
  | nil => rfl
  | cons p t ih =>
    obtain ⟨a, y⟩ := p
    have := h (a, y) (by simp)
    have hne : a ≠ k := fun e => by subst e; exact lt_irrefl _ this
    rw [find, if_neg hne]
    exact ih fun p hp => h p (by simp [hp])

lemma mem_assign {m : SMap α} {k : String} {x : α} {p : String × α} (h : p ∈ SMap.assign m k x) : p.1 = k ∨ ∃ q ∈ m, q.1 = p.1 := by
  induction m with
  | nil => simp [SMap.assign] at h; left; rw [h]
  | cons q t ih =>
    obtain ⟨a, y⟩ := q
    rw [SMap.assign] at h
    split at h
    · rcases List.mem_cons.1 h with h | h
      · left; rw [h]
      · right; exact ⟨p, h, rfl⟩
    · split at h
      · rcases List.mem_cons.1 h with h | h
        · left; rw [h]
        · right; exact ⟨p, by simp [h], rfl⟩
      · rcases List.mem_cons.1 h with h | h
        · right; exact ⟨p, by simp [h], rfl⟩
        · rcases ih h with h | ⟨q, hq, e⟩
          · left; exact h
          · right; exact ⟨q, by simp [hq], e⟩

lemma mem_insert' {m : SMap α} {k : String} {x : α} {p : String × α} (h : p ∈ SMap.insert m k x) : p.1 = k ∨ ∃ q ∈ m, q.1 = p.1 := by
  induction m with
  | nil => simp [SMap.insert] at h; left; rw [h]
  | cons q t ih =>
    obtain ⟨a, y⟩ := q
    rw [SMap.insert] at h
    split at h
    · rcases List.mem_cons.1 h with h | h
      · left; rw [h]
      · right; exact ⟨p, h, rfl⟩
    · split at h
      · right; exact ⟨p, h, rfl⟩
      · rcases List.mem_cons.1 h with h | h
        · right; exact ⟨p, by simp [h], rfl⟩
        · rcases ih h with h | ⟨q, hq, e⟩
          · left; exact h
          · right; exact ⟨q, by simp [hq], e⟩

lemma find_assign {m : SMap α} {k : String} {x : α} (s : String) :
    find s (SMap.assign m k x) = if s = k then some x else find s m := by
  induction m with
  | nil =>
    by_cases h : s = k
    · simp [SMap.assign, find, h]
    · simp [SMap.assign, find, h, Ne.symm h]
  | cons q t ih =>
    obtain ⟨a, y⟩ := q
    rw [SMap.assign]
    by_cases h1 : k < a
    · rw [if_pos h1]
      by_cases h : s = k
      · simp [find, h]
      · rw [find, if_neg (Ne.symm h), if_neg h]
    · rw [if_neg h1]
      by_cases h2 : a = k
      · rw [if_pos h2]
        by_cases h : s = k
        · simp [find, h]
        · rw [find, if_neg (Ne.symm h), if_neg h, find, if_neg (by rw [h2]; exact Ne.symm h)]
      · rw [if_neg h2, find, find]
        by_cases h3 : a = s
        · rw [if_pos h3, if_pos h3, if_neg (by rw [← h3]; exact h2)]
        · rw [if_neg h3, if_neg h3, ih]

lemma ordered_assign {m : SMap α} {k : String} {x : α} (h : Ordered m) : Ordered (SMap.assign m k x) := by
  induction m with
  | nil => simp [SMap.assign, Ordered]
  | cons q t ih =>
    obtain ⟨a, y⟩ := q
    obtain ⟨h1, h2⟩ := ordered_cons.1 h
    rw [SMap.assign]
    by_cases c1 : k < a
    · rw [if_pos c1]
      refine ordered_cons.2 ⟨fun p hp => ?_, h⟩
      rcases List.mem_cons.1 hp with hp | hp
      · rw [hp]; exact c1
      · exact lt_trans c1 (h1 p hp)
    · rw [if_neg c1]
      by_cases c2 : a = k
      · rw [if_pos c2]
        exact ordered_cons.2 ⟨fun p hp => c2 ▸ h1 p hp, h2⟩
      · rw [if_neg c2]
        refine ordered_cons.2 ⟨fun p hp => ?_, ih h2⟩
        rcases mem_assign hp with e | ⟨q, hq, e⟩
        · rw [e]; exact lt_of_le_of_ne (not_lt.1 c1) c2
        · rw [← e]; exact h1 q hq

lemma find_insert {m : SMap α} (hm : Ordered m) {k : String} {x : α} (s : String) :
    find s (SMap.insert m k x) = if s = k then some ((find k m).getD x) else find s m := by
  induction m with
  | nil =>
    by_cases h : s = k
    · simp [SMap.insert, find, h]
    · simp [SMap.insert, find, h, Ne.symm h]
  | cons q t ih =>
    obtain ⟨a, y⟩ := q
    obtain ⟨h1, h2⟩ := ordered_cons.1 hm
    rw [SMap.insert]
    by_cases c1 : k < a
    · rw [if_pos c1]
      have hn : find k ((a, y) :: t) = none := find_none_of_lt fun p hp => by
        rcases List.mem_cons.1 hp with hp | hp
        · rw [hp]; exact c1
        · exact lt_trans c1 (h1 p hp)
      by_cases h : s = k
      · rw [if_pos h, hn, find, if_pos h.symm]; rfl
      · rw [find, if_neg (Ne.symm h), if_neg h]
    · rw [if_neg c1]
      by_cases c2 : a = k
      · rw [if_pos c2]
        by_cases h : s = k
        · rw [if_pos h]; simp [find, h, c2]
        · rw [if_neg h]
      · rw [if_neg c2, find, find, find, if_neg c2]
        by_cases c3 : a = s
        · rw [if_pos c3, if_pos c3, if_neg (by rw [← c3]; exact c2)]
        · rw [if_neg c3, if_neg c3, ih h2]

lemma ordered_insert {m : SMap α} {k : String} {x : α} (h : Ordered m) : Ordered (SMap.insert m k x) := by
  induction m with
  | nil => simp [SMap.insert, Ordered]
  | cons q t ih =>
    obtain ⟨a, y⟩ := q
    obtain ⟨h1, h2⟩ := ordered_cons.1 h
    rw [SMap.insert]
    by_cases c1 : k < a
    · rw [if_pos c1]
      refine ordered_cons.2 ⟨fun p hp => ?_, h⟩
      rcases List.mem_cons.1 hp with hp | hp
      · rw [hp]; exact c1
      · exact lt_trans c1 (h1 p hp)
    · rw [if_neg c1]
      by_cases c2 : a = k
      · rw [if_pos c2]; exact h
      · rw [if_neg c2]
        refine ordered_cons.2 ⟨fun p hp => ?_, ih h2⟩
        rcases mem_insert' hp with e | ⟨q, hq, e⟩
        · rw [e]; exact lt_of_le_of_ne (not_lt.1 c1) c2
        · rw [← e]; exact h1 q hq

lemma Rep.set {m : SMap α} {f : FMap α} (h : Rep m f) (k : String) (x : α) : Rep (SMap.assign m k x) (f.set k x) :=
  ⟨ordered_assign h.ordered, fun s => by rw [find_assign, FMap.set, h.agree]⟩

lemma Rep.add {m : SMap α} {f : FMap α} (h : Rep m f) (k : String) (x : α) : Rep (SMap.insert m k x) (f.add k x) :=
  ⟨ordered_insert h.ordered, fun s => by rw [find_insert h.ordered, FMap.add, h.agree, h.agree]⟩

lemma find_some_mem {m : SMap α} {k : String} {x : α} (h : find k m = some x) : (k, x) ∈ m := by
  induction m with
  | nil => simp [find] at h
  | cons q t ih =>
    obtain ⟨a, y⟩ := q
    rw [find] at h
    by_cases c : a = k
    · rw [if_pos c] at h; injection h with h; rw [← h, ← c]; simp
    · rw [if_neg c] at h; simp [ih h]

lemma find_of_mem {m : SMap α} (hm : Ordered m) {k : String} {x : α} (h : (k, x) ∈ m) : find k m = some x := by
  induction m with
  | nil => simp at h
  | cons q t ih =>
    obtain ⟨a, y⟩ := q
    obtain ⟨h1, h2⟩ := ordered_cons.1 hm
    rw [find]
    rcases List.mem_cons.1 h with e | e
    · injection e with e1 e2; rw [if_pos e1.symm, e2]
    · have := h1 _ e
      rw [if_neg (ne_of_lt this), ih h2 e]

/-- The operations on one kind of records (add, set, replace all). -/
inductive MapOp (α : Type) where
  | add (x : α)
  | set (x : α)
  | replace (m : SMap α)

/-- Specification of the operations: `sym` is the symbol of a record, `fill` what the database adds to records it is given one by one. -/
def MapOp.spec (sym : α → String) (fill : α → α) (f : FMap α) : MapOp α → FMap α
  | .add x => f.set (sym x) (fill ((f (sym x)).getD x))
  | .set x => f.set (sym x) (fill x)
  | .replace m => fun k => (m.find? fun p => p.1 = k).map Prod.snd

lemma find_eq_find? (k : String) (m : SMap α) : find k m = (m.find? fun p => p.1 = k).map Prod.snd := by
  induction m with
  | nil => rfl
  | cons p t ih =>
    obtain ⟨a, y⟩ := p
    rw [find, List.find?_cons]
    by_cases h : a = k
    · simp [h]
    · simp [h, ih]

/-- The operation is one that can be called: maps passed as arguments are `std::map`s, hence in order. -/
def MapOp.Ok : MapOp α → Prop
  | .replace m => Ordered m
  | _ => True

/-- An operation on the database. -/
inductive DbOp where
  | sub (o : MapOp Sub)
  | rea (o : MapOp Rea)
  | elem (o : MapOp Elem)

/-- The maps passed are in order. -/
def DbOp.Ok : DbOp → Prop
  | .sub o => o.Ok
  | .rea o => o.Ok
  | .elem o => o.Ok

/-- The call of the database that an operation stands for. -/
def DbOp.call (dv : String → Int) (d : DbS) : DbOp → DbS
  | .sub (.add x) => d.addSubstance x
  | .sub (.set x) => d.setSubstance x
  | .sub (.replace m) => d.addMapSubstances m
  | .rea (.add x) => d.addReaction x
  | .rea (.set x) => d.setReaction x
  | .rea (.replace m) => d.addMapReactions m
  | .elem (.add x) => d.addElement dv x
  | .elem (.set x) => d.setElement dv x
  | .elem (.replace m) => d.addMapElements dv m

/-- Specification of a database: three finite maps. -/
structure Spec where
  subs : FMap Sub
  reacs : FMap Rea
  elems : FMap Elem

/-- Specification: an element without valence (777) gets the default valence of its symbol. -/
def defaultFilled (dv : String → Int) (e : Elem) : Elem := { e with valence := if e.valence = 777 then dv e.symbol else e.valence }

/-- Specification of an operation on the database. -/
def DbOp.spec (dv : String → Int) (f : Spec) : DbOp → Spec
  | .sub o => { f with subs := o.spec Sub.symbol id f.subs }
  | .rea o => { f with reacs := o.spec Rea.symbol id f.reacs }
  | .elem o => { f with elems := o.spec Elem.symbol (defaultFilled dv) f.elems }

lemma filled_eq (dv : String → Int) (e : Elem) : e.filled dv = defaultFilled dv e := by
  unfold Elem.filled defaultFilled; split <;> rfl

lemma setDBElement_other (dv : String → Int) (d : DbS) (k : String) : (d.setDBElement dv k).subs = d.subs ∧ (d.setDBElement dv k).reacs = d.reacs := by
  unfold DbS.setDBElement; split <;> exact ⟨rfl, rfl⟩

lemma rep_setDB {d : DbS} {f : FMap Elem} {e : Elem} (dv : String → Int) (k : String) (h : Rep d.elems f) (he : f k = some e) :
    Rep (d.setDBElement dv k).elems (f.set k (defaultFilled dv e)) := by
  unfold DbS.setDBElement
  rw [h.agree, he, ← filled_eq]
  exact h.set k _

lemma FMap.set_set (f : FMap α) (k : String) (x y : α) : (f.set k x).set k y = f.set k y := by
  funext s
  unfold FMap.set
  by_cases h : s = k <;> simp [h]

lemma FMap.add_eq (f : FMap α) (k : String) (x : α) : f.add k x = f.set k ((f k).getD x) := rfl

/-- The database stands for the three finite maps. -/
def Models (d : DbS) (f : Spec) : Prop := Rep d.subs f.subs ∧ Rep d.reacs f.reacs ∧ Rep d.elems f.elems

lemma models_call (dv : String → Int) {d : DbS} {f : Spec} (h : Models d f) (o : DbOp) (ho : o.Ok) : Models (o.call dv d) (o.spec dv f) := by
  obtain ⟨h1, h2, h3⟩ := h
  cases o with
  | sub o =>
    refine ⟨?_, ?_, ?_⟩ <;> cases o <;> try assumption
    · exact h1.add _ _
    · exact h1.set _ _
    · exact ⟨ho, fun k => find_eq_find? k _⟩
  | rea o =>
    refine ⟨?_, ?_, ?_⟩ <;> cases o <;> try assumption
    · exact h2.add _ _
    · exact h2.set _ _
    · exact ⟨ho, fun k => find_eq_find? k _⟩
  | elem o =>
    cases o with
    | add x =>
      refine ⟨?_, ?_, ?_⟩
      · show Rep (DbS.setDBElement dv _ _).subs _
        rw [(setDBElement_other dv _ _).1]; exact h1
      · show Rep (DbS.setDBElement dv _ _).reacs _
        rw [(setDBElement_other dv _ _).2]; exact h2
      · have := rep_setDB (d := { d with elems := SMap.insert d.elems x.symbol x }) dv x.symbol (h3.add x.symbol x)
          (e := (f.elems x.symbol).getD x) (by simp [FMap.add])
        rw [FMap.add_eq, FMap.set_set] at this
        exact this
    | set x =>
      refine ⟨?_, ?_, ?_⟩
      · show Rep (DbS.setDBElement dv _ _).subs _
        rw [(setDBElement_other dv _ _).1]; exact h1
      · show Rep (DbS.setDBElement dv _ _).reacs _
        rw [(setDBElement_other dv _ _).2]; exact h2
      · have := rep_setDB (d := { d with elems := SMap.assign d.elems x.symbol x }) dv x.symbol (h3.set x.symbol x)
          (e := x) (by simp [FMap.set])
        rw [FMap.set_set] at this
        exact this
    | replace m => exact ⟨h1, h2, ho, fun k => find_eq_find? k _⟩

/-- The empty maps. -/
def Spec.empty : Spec := ⟨fun _ => none, fun _ => none, fun _ => none⟩

lemma models_empty (table : Table) : Models { all := table } Spec.empty :=
  ⟨⟨ordered_nil, fun _ => rfl⟩, ⟨ordered_nil, fun _ => rfl⟩, ⟨ordered_nil, fun _ => rfl⟩⟩

lemma mem_keys {m : SMap α} (k : String) : k ∈ SMap.keys m ↔ (find k m).isSome := by
  constructor
  · intro h
    induction m with
    | nil => simp [SMap.keys] at h
    | cons p t ih =>
      obtain ⟨a, y⟩ := p
      rw [find]
      by_cases c : a = k
      · simp [c]
      · rw [if_neg c]
        refine ih ?_
        simp only [SMap.keys, List.map_cons, List.mem_cons] at h
        exact h.resolve_left (Ne.symm c)
  · intro h
    obtain ⟨x, hx⟩ := Option.isSome_iff_exists.1 h
    exact List.mem_map.2 ⟨(k, x), find_some_mem hx, rfl⟩

/-- What is seen of one kind of records: lookups, membership, the list of symbols in order and without repetition, the list of records. -/
def Shows (m : SMap α) (f : FMap α) : Prop :=
  (∀ k, find k m = f k) ∧ (∀ k, SMap.contains m k = (f k).isSome) ∧ (SMap.keys m).Pairwise (· < ·) ∧
  (∀ k, k ∈ SMap.keys m ↔ (f k).isSome) ∧ (∀ x, x ∈ SMap.values m ↔ ∃ k, f k = some x) ∧ (SMap.values m).length = (SMap.keys m).length

lemma Rep.shows {m : SMap α} {f : FMap α} (h : Rep m f) : Shows m f := by
  refine ⟨h.agree, fun k => by rw [SMap.contains, h.agree], h.ordered, fun k => by rw [mem_keys, h.agree], fun s => ⟨fun hs => ?_, ?_⟩, by simp [SMap.values, SMap.keys]⟩
  · obtain ⟨⟨k, x⟩, hp, rfl⟩ := List.mem_map.1 hs
    exact ⟨k, by rw [← h.agree]; exact find_of_mem h.ordered hp⟩
  · rintro ⟨k, hk⟩
    rw [← h.agree] at hk
    exact List.mem_map.2 ⟨(k, s), find_some_mem hk, rfl⟩

/-- **C50** After any sequence of add, set and replace operations on a new database, its maps are the finite maps of the specification, in
which add keeps the first record of a symbol and set overwrites (elements given one by one get their default valence): lookups agree,
`contains` says whether there is a record, `getSubstance` returns it or raises, and the lists of symbols are in order, without repetition,
and as long as the lists of records. -/
theorem C50_finite_maps (dv : String → Int) (table : Table) (ops : List DbOp) (hops : ∀ o ∈ ops, o.Ok) :
    let d := ops.foldl (DbOp.call dv) { all := table }
    let f := ops.foldl (DbOp.spec dv) Spec.empty
    Shows d.subs f.subs ∧ Shows d.reacs f.reacs ∧ Shows d.elems f.elems ∧
    ∀ k, d.getSubstance k = match f.subs k with | some s => .ok s | none => .error .other := by
  intro d f
  have key : ∀ (ops : List DbOp) (d : DbS) (f : Spec), (∀ o ∈ ops, o.Ok) → Models d f → Models (ops.foldl (DbOp.call dv) d) (ops.foldl (DbOp.spec dv) f) := by
    intro ops
    induction ops with
    | nil => intro d f _ h; exact h
    | cons o l ih => intro d f hk h; exact ih _ _ (fun o ho => hk o (by simp [ho])) (models_call dv h o (hk o (by simp)))
  obtain ⟨h1, h2, h3⟩ : Models d f := key ops _ _ hops (models_empty table)
  refine ⟨h1.shows, h2.shows, h3.shows, fun k => ?_⟩
  unfold DbS.getSubstance SMap.contains
  rw [h1.agree]
  cases f.subs k <;> rfl

/-- Adding twice keeps the first, setting overwrites, another symbol is sorted in front. -/
example : ∃ ops : List DbOp, (∀ o ∈ ops, o.Ok) ∧ ops.length = 4 ∧
    SMap.keys (ops.foldl (DbOp.call (fun _ => 0)) { all := fun _ => none }).subs = ["A", "B"] ∧
    (find "B" (ops.foldl (DbOp.call (fun _ => 0)) { all := fun _ => none }).subs).map Sub.name = some "first" ∧
    (find "A" (ops.foldl (DbOp.call (fun _ => 0)) { all := fun _ => none }).subs).map Sub.name = some "last" := by
  refine ⟨[.sub (.add { symbol := "B", name := "first" }), .sub (.add { symbol := "B", name := "second" }),
    .sub (.set { symbol := "A", name := "x" }), .sub (.set { symbol := "A", name := "last" })], ?_, rfl, ?_, ?_, ?_⟩
  · intro o ho
    simp only [List.mem_cons, List.not_mem_nil, or_false] at ho
    rcases ho with rfl | rfl | rfl | rfl <;> exact trivial
  all_goals simp [DbOp.call, DbS.addSubstance, DbS.setSubstance, SMap.insert, SMap.assign, SMap.keys, find, show "A" < "B" by decide]

/-- **C50 (references).** Asking for a record to modify it (`substance(symbol)`, `reaction(symbol)`) creates an empty record named after the
symbol if there is none, and changes nothing else. -/
theorem C50_references (d : DbS) (f : Spec) (h : Models d f) (k : String) :
    Models (d.substance k) { f with subs := f.subs.add k { symbol := k, name := k } } ∧
    Models (d.reaction k) { f with reacs := f.reacs.add k { symbol := k, name := k } } := by
  obtain ⟨h1, h2, h3⟩ := h
  have same : ∀ {β : Type} (g : FMap β) (x y : β), g k = some y → g.add k x = g := by
    intro β g x y hy
    funext s
    by_cases hs : s = k
    · simp [FMap.add, hs, hy]
    · simp [FMap.add, hs]
  have new : ∀ {β : Type} (g : FMap β) (x : β), g k = none → g.add k x = g.set k x := by
    intro β g x hy
    rw [FMap.add_eq, hy]; rfl
  constructor
  · unfold DbS.substance SMap.contains
    rw [h1.agree]
    cases hk : f.subs k with
    | none => rw [new _ _ hk]; exact ⟨h1.set _ _, h2, h3⟩
    | some s => rw [same _ _ _ hk]; exact ⟨h1, h2, h3⟩
  · unfold DbS.reaction SMap.contains
    rw [h2.agree]
    cases hk : f.reacs k with
    | none => rw [new _ _ hk]; exact ⟨h1, h2.set _ _, h3⟩
    | some s => rw [same _ _ _ hk]; exact ⟨h1, h2, h3⟩

/-- **C50 (references to elements).** Asking for an element to modify it (`element(symbol)`) creates a record if there is none, and changes
nothing else: the record of the table of chemical elements if the table has the symbol as an ordinary element (class 0, natural isotopic
composition), else an empty record named after the symbol. -/
theorem C50_element_references (d : DbS) (f : Spec) (h : Models d f) (k : String) :
    (∀ v, d.all ⟨k, 0, 0⟩ = some v → Models (d.element k) { f with elems := f.elems.add k { symbol := k, cls := 0, isotope := 0, name := v.name, entropy := v.entropy, heatCapacity := v.heatCapacity, volume := v.volume, valence := v.valence, molarMass := v.mass, number := v.number } }) ∧
    (d.all ⟨k, 0, 0⟩ = none → Models (d.element k) { f with elems := f.elems.add k { symbol := k, name := k } }) := by
  obtain ⟨h1, h2, h3⟩ := h
  have same : ∀ {β : Type} (g : FMap β) (x y : β), g k = some y → g.add k x = g := by
    intro β g x y hy
    funext s
    by_cases hs : s = k
    · simp [FMap.add, hs, hy]
    · simp [FMap.add, hs]
  have new : ∀ {β : Type} (g : FMap β) (x : β), g k = none → g.add k x = g.set k x := by
    intro β g x hy
    rw [FMap.add_eq, hy]; rfl
  unfold DbS.element SMap.contains
  rw [h3.agree]
  constructor
  · intro v hv
    rw [hv]
    cases hk : f.elems k with
    | none => rw [new _ _ hk]; exact ⟨h1, h2, h3.set _ _⟩
    | some s => rw [same _ _ _ hk]; exact ⟨h1, h2, h3⟩
  · intro hv
    rw [hv]
    cases hk : f.elems k with
    | none => rw [new _ _ hk]; exact ⟨h1, h2, h3.set _ _⟩
    | some s => rw [same _ _ _ hk]; exact ⟨h1, h2, h3⟩

example : Models { all := fun _ => none } Spec.empty := models_empty _

/-! ### C52 Loading -/

/-- A record that was read. -/
inductive Record where
  | sub (s : Sub)
  | rea (r : Rea)
  | elem (e : Elem)

/-- Specification: the records of a file and the labels of the lists they are in; a bare array has records that must be labelled. -/
def recordsOf (j : Json) : List (Json × String) :=
  let listed := fun key label => match j.get? key with
    | some l => l.elems.map fun r => (r, label)
    | none => []
  listed "elements" "element" ++ listed "substances" "substance" ++ listed "reactions" "reaction" ++
    match j with
    | .arr l => l.map fun r => (r, "unknown label")
    | _ => []

/-- Specification: the label of a record, its own or that of its list. -/
def labelOf (r : Json × String) : J String :=
  match r.1.get? "_label" with
  | none => .ok r.2
  | some .null => .ok r.2
  | some (.str s) => .ok s
  | some _ => .error .json

/-- Specification: a record is read by the reader of its label. -/
noncomputable def readRecord (r : Json × String) : J Record :=
  match labelOf r with
  | .error e => .error e
  | .ok "substance" => (parseSubstance (inner r.1)).map .sub
  | .ok "reaction" => (parseReaction (inner r.1)).map .rea
  | .ok "element" => (parseElement (inner r.1)).map .elem
  | .ok _ => .error .other

/-- Specification: a record that was read overwrites the one of its symbol. -/
def Spec.put (f : Spec) : Record → Spec
  | .sub s => { f with subs := f.subs.set s.symbol s }
  | .rea r => { f with reacs := f.reacs.set r.symbol r }
  | .elem e => { f with elems := f.elems.set e.symbol e }

/-- The same on the lists. -/
def DbS.put (d : DbS) : Record → DbS
  | .sub s => { d with subs := SMap.assign d.subs s.symbol s }
  | .rea r => { d with reacs := SMap.assign d.reacs r.symbol r }
  | .elem e => { d with elems := SMap.assign d.elems e.symbol e }

lemma models_put {d : DbS} {f : Spec} (h : Models d f) (r : Record) : Models (d.put r) (f.put r) := by
  obtain ⟨h1, h2, h3⟩ := h
  cases r with
  | sub s => exact ⟨h1.set _ _, h2, h3⟩
  | rea s => exact ⟨h1, h2.set _ _, h3⟩
  | elem s => exact ⟨h1, h2, h3.set _ _⟩

lemma models_puts {d : DbS} {f : Spec} {t : String} (h : Models d f) (l : List Record) : Models (l.foldl DbS.put { d with triple := t }) (l.foldl Spec.put f) := by
  have h : Models { d with triple := t } f := h
  revert h
  generalize ({ d with triple := t } : DbS) = d'
  clear * -
  induction l generalizing d' f with
  | nil => intro h; exact h
  | cons r l ih => intro h; exact ih _ (models_put h r)

lemma addRecord_eq (d : DbS) (j : Json) (label : String) : d.addRecord j label = (readRecord (j, label)).map d.put := by
  unfold DbS.addRecord readRecord
  have hl : DbS.recordLabel j label = labelOf (j, label) := by
    unfold DbS.recordLabel Json.field labelOf
    cases j.get? "_label" with
    | none => rfl
    | some v => cases v <;> rfl
  simp only [hl]
  cases labelOf (j, label) with
  | error e => rfl
  | ok l =>
    show (if l = "substance" then _ else _) = _
    have hi : (j.field "properties").getD j = inner j := rfl
    by_cases h1 : l = "substance"
    · subst h1
      rw [if_pos rfl, hi]
      cases parseSubstance (inner j) <;> rfl
    · rw [if_neg h1]
      by_cases h2 : l = "reaction"
      · subst h2
        rw [if_pos rfl, hi]
        cases parseReaction (inner j) <;> rfl
      · rw [if_neg h2]
        by_cases h3 : l = "element"
        · subst h3
          rw [if_pos rfl, hi]
          cases parseElement (inner j) <;> rfl
        · rw [if_neg h3]
          split
          · rename_i heq; cases heq
          · rename_i heq; injection heq with heq; exact absurd heq h1
          · rename_i heq; injection heq with heq; exact absurd heq h2
          · rename_i heq; injection heq with heq; exact absurd heq h3
          · rfl

/-- The records before the first failure, and the failure. -/
noncomputable def readAll : List (Json × String) → List Record × Option Err
  | [] => ([], none)
  | r :: l =>
    match readRecord r with
    | .ok x => (x :: (readAll l).1, (readAll l).2)
    | .error e => ([], some e)

lemma exec_records (l : List (Json × String)) (d : DbS) :
    exec (l.map fun r d => DbS.addRecord d r.1 r.2) d = ((readAll l).1.foldl DbS.put d, (readAll l).2) := by
  induction l generalizing d with
  | nil => rfl
  | cons r l ih =>
    simp only [List.map_cons, exec, readAll]
    rw [addRecord_eq]
    cases hr : readRecord r with
    | error e => rfl
    | ok x => exact ih (d.put x)

lemma readAll_spec (l : List (Json × String)) : ∃ pre post, l = pre ++ post ∧ pre.map readRecord = (readAll l).1.map .ok ∧
      ((post = [] ∧ (readAll l).2 = none) ∨ ∃ bad rest e, post = bad :: rest ∧ readRecord bad = .error e ∧ (readAll l).2 = some e) := by
  induction l with
  | nil => exact ⟨[], [], rfl, rfl, .inl ⟨rfl, rfl⟩⟩
  | cons r l ih =>
    simp only [readAll]
    cases hr : readRecord r with
    | error e => exact ⟨[], r :: l, rfl, rfl, .inr ⟨r, l, e, rfl, hr, rfl⟩⟩
    | ok x =>
      obtain ⟨pre, post, h1, h2, h4⟩ := ih
      exact ⟨r :: pre, post, by rw [h1]; rfl, by simp [hr, h2], h4⟩

lemma exec_append {σ : Type} (l m : List (Step σ)) (s : σ) : exec (l ++ m) s = match exec l s with | (t, none) => exec m t | (t, some e) => (t, some e) := by
  induction l generalizing s with
  | nil => rfl
  | cons f l ih =>
    simp only [List.cons_append, exec]
    cases f s with
    | error e => rfl
    | ok t => exact ih t

/-- Specification: the conventions of a file. -/
def tripleOf (old : String) (j : Json) : String :=
  match j.get? "conventions" with
  | none => old
  | some c => match c.get? "water_triple_point_reference" with
    | some (.str s) => s
    | _ => "HKF_HGK_1974"

lemma readConventions_eq (c : Json) : DbS.readConventions c = match c.get? "water_triple_point_reference" with
    | some (.str s) => s
    | _ => "HKF_HGK_1974" := by
  unfold DbS.readConventions Json.field
  cases c.get? "water_triple_point_reference" with
  | none => rfl
  | some v => cases v <;> rfl

lemma exec_file (d : DbS) (j : Json) :
    exec (DbS.fileSteps j) d = exec ((recordsOf j).map fun r d => DbS.addRecord d r.1 r.2) { d with triple := tripleOf d.triple j } := by
  have h : ∀ (s : List (Step DbS)) , DbS.fileSteps j = (match j.get? "conventions" with
    | some c => [fun d => .ok { d with triple := DbS.readConventions c }]
    | none => []) ++ (recordsOf j).map fun r d => DbS.addRecord d r.1 r.2 := by
    intro _
    unfold DbS.fileSteps recordsOf DbS.recordSteps
    simp only [List.append_assoc, List.map_append]
    congr 1
    congr 1
    · cases j.get? "elements" <;> simp [Function.comp_def]
    · congr 1
      · cases j.get? "substances" <;> simp [Function.comp_def]
      · congr 1
        · cases j.get? "reactions" <;> simp [Function.comp_def]
        · cases j <;> simp [Function.comp_def]
  rw [h [], exec_append]
  unfold tripleOf
  cases j.get? "conventions" with
  | none => rfl
  | some c => simp only [exec, readConventions_eq]

/-- **C52 (part).** For every file, loading reads its records in order (elements, substances, reactions, or those of a bare array) up to
the first whose reading raises; exactly the records before it are put into the maps, each overwriting the one of its symbol, and none
after it.  The exception leaves the function unless it is one of the JSON library, which is only logged.

Missing from the full statement: not every malformed record raises (`C52_malformed_refuted`). -/
theorem C52_prefix_partial (d : DbS) (f : Spec) (h : Models d f) (j : Json) :
    ∃ (pre post : List (Json × String)) (recs : List Record), recordsOf j = pre ++ post ∧ pre.map readRecord = recs.map .ok ∧
      Models (d.fromFile j).1 (recs.foldl Spec.put f) ∧
      ((post = [] ∧ (d.fromFile j).2 = none) ∨
        ∃ bad rest e, post = bad :: rest ∧ readRecord bad = .error e ∧ (d.fromFile j).2 = if e = .json then none else some e) := by
  obtain ⟨pre, post, h1, h2, h4⟩ := readAll_spec (recordsOf j)
  refine ⟨pre, post, (readAll (recordsOf j)).1, h1, h2, ?_, ?_⟩
  · show Models (exec (DbS.fileSteps j) d).1 _
    rw [exec_file, exec_records]
    exact models_puts h _
  · unfold DbS.fromFile
    rw [exec_file, exec_records]
    rcases h4 with ⟨h5, h6⟩ | ⟨bad, rest, e, h5, h6, h7⟩
    · exact .inl ⟨h5, by simp only [h6]; rfl⟩
    · refine .inr ⟨bad, rest, e, h5, h6, ?_⟩
      simp only [h7]
      cases e <;> rfl

/-- A file with a good record, one with an unknown label and a third. -/
def labelFile : Json := .obj [("substances", .arr [
  .obj [("symbol", .str "A")], .obj [("_label", .str "mineral"), ("symbol", .str "B")], .obj [("symbol", .str "C")]])]

lemma parse_symbol (s : String) : ∃ x, parseSubstance (inner (.obj [("symbol", .str s)])) = .ok x ∧ x.symbol = s := ⟨_, rfl, rfl⟩

/-- The first record is there, the other two are not, and the exception is raised. -/
example : ∃ x, ((({ all := fun _ => none } : DbS).fromFile labelFile).1.subs = [("A", x)]) ∧
    (({ all := fun _ => none } : DbS).fromFile labelFile).2 = some .other := ⟨_, rfl, rfl⟩

/-- A file with a record whose name is a number, and one that is right. -/
def badNameFile : Json := .obj [("substances", .arr [
  .obj [("name", .num 1), ("symbol", .str "A")], .obj [("symbol", .str "B"), ("name", .str "b")]])]

/-- **C52, violation.** A malformed record (its name is not a text) does not stop the loading: no exception leaves it, the malformed record
is stored under the empty symbol, without any of its data, and the record after it is loaded too. -/
theorem C52_malformed_refuted (table : Table) :
    ∃ x y, (({ all := table } : DbS).fromFile badNameFile) = ({ all := table, subs := [("", x), ("B", y)] }, none) ∧
      x = {} ∧ y.symbol = "B" ∧ y.name = "b" := ⟨_, _, rfl, rfl, rfl, rfl⟩

/-- A file of two records of which the first has a label that is not a text. -/
def badLabelFile : Json := .arr [
  .obj [("_label", .num 1), ("symbol", .str "A")], .obj [("_label", .str "substance"), ("symbol", .str "B")]]

/-- **C52, violation.** A label that is not a text stops the loading of the records after it, but no exception tells so. -/
theorem C52_silent_refuted (table : Table) : ({ all := table } : DbS).fromFile badLabelFile = ({ all := table }, none) := rfl

/-! ### C90 Loading again -/

lemma ordered_ext : ∀ {m n : SMap α}, Ordered m → Ordered n → (∀ k, find k m = find k n) → m = n
  | [], [], _, _, _ => rfl
  | [], (b, y) :: n, _, _, h => by have := h b; simp [find] at this
  | (a, x) :: m, [], _, _, h => by have := h a; simp [find] at this
  | (a, x) :: m, (b, y) :: n, hm, hn, h => by
    obtain ⟨h1, h2⟩ := ordered_cons.1 hm
    obtain ⟨h3, h4⟩ := ordered_cons.1 hn
    have hab : a = b := by
      rcases lt_trichotomy a b with c | c | c
      · have : find a ((b, y) :: n) = none := find_none_of_lt fun p hp => by
          rcases List.mem_cons.1 hp with e | e
          · rw [e]; exact c
          · exact lt_trans c (h3 p e)
        rw [← h a] at this; simp [find] at this
      · exact c
      · have : find b ((a, x) :: m) = none := find_none_of_lt fun p hp => by
          rcases List.mem_cons.1 hp with e | e
          · rw [e]; exact c
          · exact lt_trans c (h1 p e)
        rw [h b] at this; simp [find] at this
    subst hab
    have hxy : x = y := by have := h a; simpa [find] using this
    subst hxy
    have : m = n := ordered_ext h2 h4 fun k => by
      by_cases hk : a = k
      · subst hk; rw [find_none_of_lt h1, find_none_of_lt h3]
      · have := h k; rwa [find, if_neg hk, find, if_neg hk] at this
    rw [this]

/-- The last record of a symbol. -/
def lastOf (k : String) : List (String × α) → Option α
  | [] => none
  | p :: l => (lastOf k l).or (if k = p.1 then some p.2 else none)

lemma puts_apply (l : List (String × α)) (f : FMap α) (k : String) : (l.foldl (fun g p => FMap.set g p.1 p.2) f) k = (lastOf k l).or (f k) := by
  induction l generalizing f with
  | nil => simp [lastOf]
  | cons p l ih =>
    rw [List.foldl_cons, ih, lastOf]
    cases lastOf k l with
    | some x => simp
    | none => by_cases h : k = p.1 <;> simp [FMap.set, h]

/-- The substances among records, with their symbols. -/
def subsIn (l : List Record) : List (String × Sub) := l.filterMap fun | .sub s => some (s.symbol, s) | _ => none
/-- The reactions among records, with their symbols. -/
def reacsIn (l : List Record) : List (String × Rea) := l.filterMap fun | .rea s => some (s.symbol, s) | _ => none
/-- The elements among records, with their symbols. -/
def elemsIn (l : List Record) : List (String × Elem) := l.filterMap fun | .elem s => some (s.symbol, s) | _ => none

lemma puts_eq (l : List Record) (f : Spec) : l.foldl Spec.put f =
    ⟨fun k => (lastOf k (subsIn l)).or (f.subs k), fun k => (lastOf k (reacsIn l)).or (f.reacs k), fun k => (lastOf k (elemsIn l)).or (f.elems k)⟩ := by
  have : l.foldl Spec.put f = ⟨(subsIn l).foldl (fun g p => FMap.set g p.1 p.2) f.subs, (reacsIn l).foldl (fun g p => FMap.set g p.1 p.2) f.reacs,
      (elemsIn l).foldl (fun g p => FMap.set g p.1 p.2) f.elems⟩ := by
    induction l generalizing f with
    | nil => rfl
    | cons r l ih => rw [List.foldl_cons, ih]; cases r <;> rfl
  rw [this]
  simp only [Spec.mk.injEq]
  exact ⟨funext fun k => puts_apply _ _ k, funext fun k => puts_apply _ _ k, funext fun k => puts_apply _ _ k⟩

lemma Spec.put_twice (recs : List Record) (f : Spec) : recs.foldl Spec.put (recs.foldl Spec.put f) = recs.foldl Spec.put f := by
  rw [puts_eq, puts_eq]
  simp only [Spec.mk.injEq]
  refine ⟨funext fun k => ?_, funext fun k => ?_, funext fun k => ?_⟩
  · cases lastOf k (subsIn recs) <;> simp
  · cases lastOf k (reacsIn recs) <;> simp
  · cases lastOf k (elemsIn recs) <;> simp

lemma put_rest (l : List Record) (d : DbS) : (l.foldl DbS.put d).all = d.all ∧ (l.foldl DbS.put d).triple = d.triple := by
  induction l generalizing d with
  | nil => exact ⟨rfl, rfl⟩
  | cons r l ih => rw [List.foldl_cons]; cases r <;> exact ih _

lemma models_ext {d e : DbS} {f : Spec} (hd : Models d f) (he : Models e f) (h1 : d.all = e.all) (h2 : d.triple = e.triple) : d = e := by
  obtain ⟨a1, a2, a3⟩ := hd
  obtain ⟨b1, b2, b3⟩ := he
  have e1 := ordered_ext a1.ordered b1.ordered fun k => by rw [a1.agree, b1.agree]
  have e2 := ordered_ext a2.ordered b2.ordered fun k => by rw [a2.agree, b2.agree]
  have e3 := ordered_ext a3.ordered b3.ordered fun k => by rw [a3.agree, b3.agree]
  obtain ⟨_, _, _, _, _⟩ := d
  obtain ⟨_, _, _, _, _⟩ := e
  simp only at e1 e2 e3 h1 h2
  subst e1 e2 e3 h1 h2
  rfl

lemma fromFile_eq (d : DbS) (j : Json) : d.fromFile j =
    ((readAll (recordsOf j)).1.foldl DbS.put { d with triple := tripleOf d.triple j }, DbS.swallow (readAll (recordsOf j)).2) := by
  unfold DbS.fromFile
  rw [exec_file, exec_records]

lemma tripleOf_twice (t : String) (j : Json) : tripleOf (tripleOf t j) j = tripleOf t j := by
  unfold tripleOf
  cases j.get? "conventions" <;> rfl

/-- **C90 (idempotence).** Loading a file a second time changes nothing: same records, conventions and element table, and the same
exception, if any. -/
theorem C90_idempotent (d : DbS) (f : Spec) (h : Models d f) (j : Json) : (d.fromFile j).1.fromFile j = d.fromFile j := by
  rw [fromFile_eq (d.fromFile j).1 j, fromFile_eq d j]
  refine Prod.ext ?_ rfl
  have m1 : Models (List.foldl DbS.put { d with triple := tripleOf d.triple j } (readAll (recordsOf j)).1) ((readAll (recordsOf j)).1.foldl Spec.put f) := models_puts h _
  refine models_ext (f := (readAll (recordsOf j)).1.foldl Spec.put f) ?_ m1 ?_ ?_
  · have := models_puts (t := tripleOf (List.foldl DbS.put { d with triple := tripleOf d.triple j } (readAll (recordsOf j)).1).triple j) m1 (readAll (recordsOf j)).1
    rw [Spec.put_twice] at this
    exact this
  · rw [(put_rest _ _).1]
  · rw [(put_rest _ _).2]
    show tripleOf (List.foldl DbS.put _ _).triple j = _
    rw [(put_rest _ _).2]
    exact tripleOf_twice _ _

/-- **C90 (what is there afterwards).** After loading, the record of a symbol is the last one read for it, and the old one if none was
read: the order of records with different symbols does not matter. -/
theorem C90_last_wins (d : DbS) (f : Spec) (h : Models d f) (j : Json) (k : String) :
    ∃ recs : List Record, (∃ pre post, recordsOf j = pre ++ post ∧ pre.map readRecord = recs.map .ok) ∧
      find k (d.fromFile j).1.subs = (lastOf k (subsIn recs)).or (f.subs k) ∧
      find k (d.fromFile j).1.reacs = (lastOf k (reacsIn recs)).or (f.reacs k) ∧
      find k (d.fromFile j).1.elems = (lastOf k (elemsIn recs)).or (f.elems k) := by
  obtain ⟨pre, post, recs, h1, h2, h3, _⟩ := C52_prefix_partial d f h j
  refine ⟨recs, ⟨pre, post, h1, h2⟩, ?_⟩
  rw [puts_eq] at h3
  exact ⟨h3.1.agree k, h3.2.1.agree k, h3.2.2.agree k⟩

/-- Of two records of one symbol the second is found. -/
example : (({ all := fun _ => none } : DbS).fromFile (.obj [("substances", .arr [
    .obj [("symbol", .str "A"), ("name", .str "x")], .obj [("symbol", .str "A"), ("name", .str "y")]])])).1.subs.map (fun p => p.2.name) = ["y"] := rfl

end ThermoFun.Js

import Verif.Model.Records
import Verif.Props.Database
import Verif.Props.Unread

/-!
# Texts of records and charges from formulas

Theorems about `jsonString`, the setters of records and `setSubstancesChargeFromFromula` as modelled in Model/Records.lean: what a record's text says of
it, and whether a database can be written out and read again (C163); what recomputing the charges does (C164).
-/

namespace ThermoFun.Js

/-! ### C163: specification -/

/-- The text of a record describes it: reading the text gives the record. -/
def Describes {α : Type} (parse : Json → J α) (r : Rec α) : Prop := ∃ t, r.text = some t ∧ parse t = .ok r.data

/-- A database that was filled by reading only: from files, from lists of texts, and with records made from texts; whatever failed on the way. -/
inductive ByReading : RDb → Prop
  | empty : ByReading {}
  | file {d : RDb} (j : Json) (h : ByReading d) : ByReading (d.fromFile j).1
  | texts {d : RDb} (l : List (Option Json)) (label : String) (h : ByReading d) : ByReading (d.fromJSONs l label).1
  | addSubstance {d : RDb} {j : Json} {r : Rec Sub} (h : ByReading d) (hr : Rec.ofText parseSubstance j = .ok r) : ByReading (d.addSubstance r)
  | setSubstance {d : RDb} {j : Json} {r : Rec Sub} (h : ByReading d) (hr : Rec.ofText parseSubstance j = .ok r) : ByReading (d.setSubstance r)
  | addReaction {d : RDb} {j : Json} {r : Rec Rea} (h : ByReading d) (hr : Rec.ofText parseReaction j = .ok r) : ByReading (d.addReaction r)
  | setReaction {d : RDb} {j : Json} {r : Rec Rea} (h : ByReading d) (hr : Rec.ofText parseReaction j = .ok r) : ByReading (d.setReaction r)

/-- Writing a database out, as the texts of its elements, substances and reactions, and reading these into an empty database. -/
noncomputable def copyByText (d : RDb) : RDb × List (Option Err) :=
  let a := RDb.fromJSONs {} d.elemTexts "element"
  let b := a.1.fromJSONs d.subTexts "substance"
  let c := b.1.fromJSONs d.reaTexts "reaction"
  (c.1, [a.2, b.2, c.2])

/-- The text states no kind of record and wraps nothing. -/
def Plain (t : Json) : Prop := t.field "properties" = none ∧ t.field "_label" = none

/-! ### Lemmas -/

/-- The records of a map: in order, under their symbols, each described by its text. -/
structure Told {α : Type} (sym : α → String) (parse : Json → J α) (m : SMap (Rec α)) : Prop where
  ordered : Ordered m
  symbol : ∀ p ∈ m, sym p.2.data = p.1
  text : ∀ p ∈ m, Describes parse p.2

lemma mem_assign_or {α : Type} {m : SMap α} {k : String} {x : α} {p : String × α} (h : p ∈ SMap.assign m k x) : p = (k, x) ∨ p ∈ m := by
  induction m with
  | nil => simpa [SMap.assign] using h
  | cons q t ih =>
    obtain ⟨a, y⟩ := q
    rw [SMap.assign] at h
    split at h
    · rcases List.mem_cons.1 h with h | h
      · exact .inl h
      · exact .inr h
    · split at h
      · rcases List.mem_cons.1 h with h | h
        · exact .inl h
        · exact .inr (List.mem_cons_of_mem _ h)
      · rcases List.mem_cons.1 h with h | h
        · exact .inr (by rw [h]; exact List.mem_cons_self)
        · exact (ih h).imp id (List.mem_cons_of_mem _)

lemma mem_insert_or {α : Type} {m : SMap α} {k : String} {x : α} {p : String × α} (h : p ∈ SMap.insert m k x) : p = (k, x) ∨ p ∈ m := by
  induction m with
  | nil => simpa [SMap.insert] using h
  | cons q t ih =>
    obtain ⟨a, y⟩ := q
    rw [SMap.insert] at h
    split at h
    · rcases List.mem_cons.1 h with h | h
      · exact .inl h
      · exact .inr h
    · split at h
      · exact .inr h
      · rcases List.mem_cons.1 h with h | h
        · exact .inr (by rw [h]; exact List.mem_cons_self)
        · exact (ih h).imp id (List.mem_cons_of_mem _)

lemma Told.assign {α : Type} {sym : α → String} {parse : Json → J α} {m : SMap (Rec α)} (h : Told sym parse m) {r : Rec α} (hr : Describes parse r) :
    Told sym parse (SMap.assign m (sym r.data) r) :=
  ⟨ordered_assign h.ordered, fun p hp => by rcases mem_assign_or hp with rfl | hp; exacts [rfl, h.symbol p hp],
    fun p hp => by rcases mem_assign_or hp with rfl | hp; exacts [hr, h.text p hp]⟩

lemma Told.insert {α : Type} {sym : α → String} {parse : Json → J α} {m : SMap (Rec α)} (h : Told sym parse m) {r : Rec α} (hr : Describes parse r) :
    Told sym parse (SMap.insert m (sym r.data) r) :=
  ⟨ordered_insert h.ordered, fun p hp => by rcases mem_insert_or hp with rfl | hp; exacts [rfl, h.symbol p hp],
    fun p hp => by rcases mem_insert_or hp with rfl | hp; exacts [hr, h.text p hp]⟩

lemma Told.nil {α : Type} {sym : α → String} {parse : Json → J α} : Told sym parse [] := ⟨ordered_nil, by simp, by simp⟩

/-- All three maps are good. -/
structure ToldDb (d : RDb) : Prop where
  subs : Told Sub.symbol parseSubstance d.subs
  reacs : Told Rea.symbol parseReaction d.reacs
  elems : Told Elem.symbol parseElement d.elems

lemma toldDb_addRecord {d e : RDb} {j : Json} {label : String} (h : ToldDb d) (he : d.addRecord j label = .ok e) : ToldDb e := by
  unfold RDb.addRecord at he
  cases hl : DbS.recordLabel j label with
  | error x => rw [hl] at he; cases he
  | ok l =>
    rw [hl] at he
    change (if l = "substance" then _ else _ : J RDb) = _ at he
    split at he
    · cases hs : parseSubstance ((j.field "properties").getD j) with
      | error x => rw [hs] at he; cases he
      | ok s =>
        rw [hs] at he
        cases he
        exact ⟨h.subs.assign (r := ⟨s, _⟩) ⟨_, rfl, hs⟩, h.reacs, h.elems⟩
    · split at he
      · cases hs : parseReaction ((j.field "properties").getD j) with
        | error x => rw [hs] at he; cases he
        | ok s =>
          rw [hs] at he
          cases he
          exact ⟨h.subs, h.reacs.assign (r := ⟨s, _⟩) ⟨_, rfl, hs⟩, h.elems⟩
      · split at he
        · cases hs : parseElement ((j.field "properties").getD j) with
          | error x => rw [hs] at he; cases he
          | ok s =>
            rw [hs] at he
            cases he
            exact ⟨h.subs, h.reacs, h.elems.assign (r := ⟨s, _⟩) ⟨_, rfl, hs⟩⟩
        · cases he

lemma toldDb_steps {l : List Json} {label : String} {f : Step RDb} (hf : f ∈ RDb.recordSteps l label) {d e : RDb} (h : ToldDb d) (he : f d = .ok e) :
    ToldDb e := by
  obtain ⟨j, -, rfl⟩ := List.mem_map.1 hf
  exact toldDb_addRecord h he

lemma ofText_describes {α : Type} {parse : Json → J α} {j : Json} {r : Rec α} (h : Rec.ofText parse j = .ok r) : Describes parse r := by
  unfold Rec.ofText at h
  cases hp : parse j with
  | error x => rw [hp] at h; cases h
  | ok a =>
    rw [hp] at h
    cases h
    exact ⟨j, rfl, hp⟩

lemma ByReading.good {d : RDb} (h : ByReading d) : ToldDb d := by
  induction h with
  | empty => exact ⟨.nil, .nil, .nil⟩
  | @file d j _ ih =>
    refine exec_inv ToldDb (RDb.fileSteps j) (fun f hf s t hs ht => ?_) d ih
    unfold RDb.fileSteps at hf
    simp only [List.mem_append] at hf
    rcases hf with ((hf | hf) | hf) | hf
    · split at hf
      · exact toldDb_steps hf hs ht
      · cases hf
    · split at hf
      · exact toldDb_steps hf hs ht
      · cases hf
    · split at hf
      · exact toldDb_steps hf hs ht
      · cases hf
    · split at hf
      · exact toldDb_steps hf hs ht
      · cases hf
  | @texts d l label _ ih =>
    refine exec_inv ToldDb _ (fun f hf s t hs ht => ?_) d ih
    obtain ⟨x, -, rfl⟩ := List.mem_map.1 hf
    cases x with
    | none => cases ht
    | some j => exact toldDb_addRecord hs ht
  | addSubstance _ hr ih => exact ⟨ih.subs.insert (ofText_describes hr), ih.reacs, ih.elems⟩
  | setSubstance _ hr ih => exact ⟨ih.subs.assign (ofText_describes hr), ih.reacs, ih.elems⟩
  | addReaction _ hr ih => exact ⟨ih.subs, ih.reacs.insert (ofText_describes hr), ih.elems⟩
  | setReaction _ hr ih => exact ⟨ih.subs, ih.reacs.assign (ofText_describes hr), ih.elems⟩

lemma assign_snoc {α : Type} {m : SMap α} {k : String} {x : α} (h : ∀ p ∈ m, p.1 < k) : SMap.assign m k x = m ++ [(k, x)] := by
  induction m with
  | nil => rfl
  | cons q t ih =>
    obtain ⟨a, y⟩ := q
    have ha : a < k := h (a, y) List.mem_cons_self
    rw [SMap.assign, if_neg (not_lt.2 ha.le), if_neg ha.ne, ih fun p hp => h p (List.mem_cons_of_mem _ hp), List.cons_append]

/-- Reading the records of an ordered map one after the other, each of which is put under its symbol. -/
lemma exec_refill {α : Type} (get : RDb → SMap α) (put : RDb → SMap α → RDb) (hgp : ∀ d m, get (put d m) = m) (hpp : ∀ d m n, put (put d m) n = put d n)
    (hpg : ∀ d, put d (get d) = d) (f : String × α → Step RDb) : ∀ (m : SMap α) (d : RDb),
    (∀ p ∈ m, ∀ d, f p d = .ok (put d (SMap.assign (get d) p.1 p.2))) → Ordered (get d ++ m) → exec (m.map f) d = (put d (get d ++ m), none)
  | [], d, _, _ => by simp [exec, hpg]
  | p :: m, d, hf, ho => by
    have hlt : ∀ q ∈ get d, q.1 < p.1 := by
      intro q hq
      have := ho
      unfold Ordered at this
      rw [List.map_append, List.pairwise_append] at this
      exact this.2.2 _ (List.mem_map_of_mem hq) _ (by simp)
    rw [List.map_cons, exec_ok (hf p List.mem_cons_self d), assign_snoc hlt,
      exec_refill get put hgp hpp hpg f m _ (fun q hq => hf q (List.mem_cons_of_mem _ hq)) (by rw [hgp, List.append_assoc]; exact ho), hgp, hpp,
      List.append_assoc]
    rfl

lemma addRecord_plain {t : Json} (h : Plain t) (d : RDb) :
    (∀ s, parseSubstance t = .ok s → d.addRecord t "substance" = .ok { d with subs := SMap.assign d.subs s.symbol ⟨s, some t⟩ }) ∧
    (∀ r, parseReaction t = .ok r → d.addRecord t "reaction" = .ok { d with reacs := SMap.assign d.reacs r.symbol ⟨r, some t⟩ }) ∧
    ∀ e, parseElement t = .ok e → d.addRecord t "element" = .ok { d with elems := SMap.assign d.elems e.symbol ⟨e, some t⟩ } := by
  have hl : ∀ l, DbS.recordLabel t l = .ok l := fun l => by unfold DbS.recordLabel; rw [h.2]
  refine ⟨fun s hs => ?_, fun s hs => ?_, fun s hs => ?_⟩ <;> unfold RDb.addRecord <;> rw [hl, h.1] <;> simp [hs, bind, Except.bind]

/-! ### C163: theorems -/

/-- **C163 (partial)** The records of a database that was filled by reading: the text of each, read, gives the record.  A setter changes that unless it
sets what is there already.

Missing: records that setters have changed or code has made, for which it fails (below). -/
theorem C163_partial {d : RDb} (h : ByReading d) :
    (∀ p ∈ d.subs, Describes parseSubstance p.2 ∧ ∀ x : SubSet, Describes parseSubstance (p.2.edit x.apply) ↔ x.apply p.2.data = p.2.data) ∧
    (∀ p ∈ d.reacs, Describes parseReaction p.2 ∧ ∀ x : ReaSet, Describes parseReaction (p.2.edit x.apply) ↔ x.apply p.2.data = p.2.data) ∧
    ∀ p ∈ d.elems, Describes parseElement p.2 ∧ ∀ x : ElemSet, Describes parseElement (p.2.edit x.apply) ↔ x.apply p.2.data = p.2.data := by
  have key : ∀ {α : Type} {parse : Json → J α} {r : Rec α}, Describes parse r → ∀ f : α → α, Describes parse (r.edit f) ↔ f r.data = r.data := by
    intro α parse r hr f
    obtain ⟨t, ht, hp⟩ := hr
    constructor
    · rintro ⟨u, hu, hq⟩
      have hu : r.text = some u := hu
      rw [ht] at hu
      cases hu
      rw [hp] at hq
      injection hq with hq
      exact hq.symm
    · intro hf
      exact ⟨t, ht, by rw [hp]; exact congrArg _ hf.symm⟩
  have g := h.good
  exact ⟨fun p hp => ⟨g.subs.text p hp, fun x => key (g.subs.text p hp) _⟩, fun p hp => ⟨g.reacs.text p hp, fun x => key (g.reacs.text p hp) _⟩,
    fun p hp => ⟨g.elems.text p hp, fun x => key (g.elems.text p hp) _⟩⟩

/-- **C163 (partial), the whole database.**  A database that was filled by reading, written out as the texts of its records and read into an empty
database, is the same, without an exception; for texts that state no kind of record and wrap nothing.

Missing: texts with `_label` or `properties` inside, for which it fails (below), and the element table and conventions, which no text holds. -/
theorem C163_copy_partial {d : RDb} (h : ByReading d)
    (hp : ∀ t, some t ∈ d.elemTexts ++ d.subTexts ++ d.reaTexts → Plain t) : copyByText d = (d, [none, none, none]) := by
  have g := h.good
  have plain : ∀ {α : Type} {m : SMap (Rec α)}, (∀ t, some t ∈ m.map (fun p => p.2.text) → Plain t) → ∀ p ∈ m, ∀ t, p.2.text = some t → Plain t :=
    fun hm p hp t ht => hm t (by rw [← ht]; exact List.mem_map_of_mem hp)
  have he := plain (m := d.elems) fun t ht => hp t (List.mem_append_left _ (List.mem_append_left _ ht))
  have hs := plain (m := d.subs) fun t ht => hp t (List.mem_append_left _ (List.mem_append_right _ ht))
  have hr := plain (m := d.reacs) fun t ht => hp t (List.mem_append_right _ ht)
  have a : RDb.fromJSONs {} d.elemTexts "element" = ({ elems := d.elems }, none) := by
    unfold RDb.fromJSONs RDb.elemTexts
    rw [List.map_map, exec_refill RDb.elems (fun d m => { d with elems := m }) (fun _ _ => rfl) (fun _ _ _ => rfl) (fun _ => rfl) _ d.elems {} ?_
      g.elems.ordered]
    · rfl
    · intro p hpm d'
      obtain ⟨t, ht, hq⟩ := g.elems.text p hpm
      have := (addRecord_plain (he p hpm t ht) d').2.2 _ hq
      rw [g.elems.symbol p hpm, ← ht] at this
      rw [← this]
      simp only [Function.comp_apply, ht]
      rfl
  have b : RDb.fromJSONs { elems := d.elems } d.subTexts "substance" = ({ elems := d.elems, subs := d.subs }, none) := by
    unfold RDb.fromJSONs RDb.subTexts
    rw [List.map_map, exec_refill RDb.subs (fun d m => { d with subs := m }) (fun _ _ => rfl) (fun _ _ _ => rfl) (fun _ => rfl) _ d.subs { elems := d.elems } ?_
      g.subs.ordered]
    · rfl
    · intro p hpm d'
      obtain ⟨t, ht, hq⟩ := g.subs.text p hpm
      have := (addRecord_plain (hs p hpm t ht) d').1 _ hq
      rw [g.subs.symbol p hpm, ← ht] at this
      rw [← this]
      simp only [Function.comp_apply, ht]
      rfl
  have c : RDb.fromJSONs { elems := d.elems, subs := d.subs } d.reaTexts "reaction" = (d, none) := by
    unfold RDb.fromJSONs RDb.reaTexts
    rw [List.map_map, exec_refill RDb.reacs (fun d m => { d with reacs := m }) (fun _ _ => rfl) (fun _ _ _ => rfl) (fun _ => rfl) _ d.reacs { elems := d.elems, subs := d.subs } ?_
      g.reacs.ordered]
    · rfl
    · intro p hpm d'
      obtain ⟨t, ht, hq⟩ := g.reacs.text p hpm
      have := (addRecord_plain (hr p hpm t ht) d').2.1 _ hq
      rw [g.reacs.symbol p hpm, ← ht] at this
      rw [← this]
      simp only [Function.comp_apply, ht]
      rfl
  unfold copyByText
  rw [a]
  dsimp only
  rw [b]
  dsimp only
  rw [c]

/-- A small database read from a file: two substances, a reaction and an element. -/
def exText : Json := .obj [("elements", .arr [.obj [("symbol", .str "Na")]]),
  ("substances", .arr [.obj [("symbol", .str "Na+"), ("formula", .str "Na+")], .obj [("properties", .obj [("symbol", .str "H2O"), ("formula", .str "H2O")])]]),
  ("reactions", .arr [.obj [("symbol", .str "R")]])]

/-- The records of a file with two substances, one of them wrapped: they are copied, text and all. -/
example : ∃ d : RDb, (RDb.fromFile {} exText) = (d, none) ∧ d.subs.map Prod.fst = ["H2O", "Na+"] ∧ d.reacs.map Prod.fst = ["R"] ∧
    d.elems.map Prod.fst = ["Na"] ∧ copyByText d = (d, [none, none, none]) := by
  refine ⟨_, rfl, by rfl, rfl, rfl, C163_copy_partial (.file exText .empty) ?_⟩
  intro t ht
  have : t = .obj [("symbol", .str "Na")] ∨ t = .obj [("symbol", .str "Na+"), ("formula", .str "Na+")] ∨
      t = .obj [("symbol", .str "H2O"), ("formula", .str "H2O")] ∨ t = .obj [("symbol", .str "R")] := by
    change some t ∈ [some _, some _, some _, some _] at ht
    simp only [List.mem_cons, List.not_mem_nil, or_false, Option.some.injEq] at ht
    rcases ht with h | h | h | h <;> subst h
    · exact .inl rfl
    · exact .inr (.inr (.inl rfl))
    · exact .inr (.inl rfl)
    · exact .inr (.inr (.inr rfl))
  rcases this with h | h | h | h <;> subst h <;> exact ⟨rfl, rfl⟩

/-- **C163 refuted for changed records.**  A database is read, a charge set by hand, and the database written out and read again: the charge is lost,
without a message.  The text the record hands out is still that of the file. -/
theorem C163_edited_refuted : ∃ d : RDb, ByReading d ∧ ∃ r s : Rec Sub, (d.editSubstance "Na+" (.charge 1)).subs = [("Na+", r)] ∧ r.data.charge = 1 ∧
    ¬ Describes parseSubstance r ∧ (copyByText (d.editSubstance "Na+" (.charge 1))).1.subs = [("Na+", s)] ∧ s.data.charge = 0 ∧
    (copyByText (d.editSubstance "Na+" (.charge 1))).2 = [none, none, none] := by
  refine ⟨_, .texts [some (.obj [("symbol", .str "Na+")])] "substance" .empty, _, _, rfl, rfl, ?_, rfl, rfl, rfl⟩
  rintro ⟨t, ht, hp⟩
  cases ht
  have hp := congrArg (fun r : J Sub => match r with | .ok s => s.charge | .error _ => 0) hp
  change (0 : Int) = 1 at hp
  omega

/-- **C163 refuted for records made in code.**  `substance("A")` creates a record without text.  Written out, its empty text ends the reading of the texts
behind it: the substances after it are missing from the copy, and no exception says so. -/
theorem C163_created_refuted : ∃ d : RDb, ByReading d ∧ (d.substance "A").subs.map Prod.fst = ["A", "B"] ∧
    (copyByText (d.substance "A")).1.subs = [] ∧ (copyByText (d.substance "A")).2 = [none, none, none] :=
  ⟨_, .texts [some (.obj [("symbol", .str "B")])] "substance" .empty, rfl, rfl, rfl⟩

/-- **C163 refuted for elements that are set.**  `setElement` with a text fills in the valence the text leaves out, in the record only. -/
theorem C163_valence_refuted : ∃ r : Rec Elem, Rec.ofText parseElement (.obj [("symbol", .str "Na")]) = .ok r ∧ Describes parseElement r ∧
    ∃ s : Rec Elem, (RDb.setElement (fun _ => 1) {} r).elems = [("Na", s)] ∧ s.text = r.text ∧ ¬ Describes parseElement s := by
  refine ⟨_, rfl, ⟨_, rfl, rfl⟩, _, rfl, rfl, ?_⟩
  rintro ⟨t, ht, hp⟩
  cases ht
  have : parseElement (.obj [("symbol", .str "Na")]) = .ok _ := rfl
  rw [this] at hp
  injection hp with hp
  have := congrArg Elem.valence hp
  change (777 : Int) = 1 at this
  omega

/-- **C163 refuted for texts that state a kind.**  A substance whose properties contain the key `_label` with the value "element" is read as a substance
from a file, its text as an element: the copy has an element more and a substance less. -/
theorem C163_label_refuted : ∃ d : RDb, ByReading d ∧ d.subs.map Prod.fst = ["A"] ∧ d.elems = [] ∧ (copyByText d).1.subs = [] ∧
    (copyByText d).1.elems.map Prod.fst = ["A"] ∧ (copyByText d).2 = [none, none, none] :=
  ⟨_, .file (.obj [("substances", .arr [.obj [("_label", .str "substance"), ("properties", .obj [("symbol", .str "A"), ("_label", .str "element")])]])])
    .empty, rfl, rfl, rfl, rfl, rfl⟩

/-! ### The texts leave the records alone -/

lemma map_assign {α β : Type} (f : α → β) (m : SMap α) (k : String) (x : α) :
    (SMap.assign m k x).map (fun p => (p.1, f p.2)) = SMap.assign (m.map fun p => (p.1, f p.2)) k (f x) := by
  induction m with
  | nil => rfl
  | cons q t ih =>
    obtain ⟨a, y⟩ := q
    simp only [SMap.assign, List.map_cons]
    split
    · rfl
    · split
      · rfl
      · rw [List.map_cons, ih]

/-- Reading a record is the same with and without its text: Model/Records.lean and Model/Database.lean agree. -/
lemma addRecord_forget (d : RDb) (t : Table) (c : String) (j : Json) (label : String) :
    (d.addRecord j label).map (fun e => e.forget t c) = (d.forget t c).addRecord j label := by
  unfold RDb.addRecord DbS.addRecord
  cases hl : DbS.recordLabel j label with
  | error x => rfl
  | ok l =>
    simp only [bind, Except.bind]
    split
    · cases parseSubstance ((j.field "properties").getD j) with
      | error x => rfl
      | ok s => simp only [Except.map, RDb.forget, map_assign]
    · split
      · cases parseReaction ((j.field "properties").getD j) with
        | error x => rfl
        | ok s => simp only [Except.map, RDb.forget, map_assign]
      · split
        · cases parseElement ((j.field "properties").getD j) with
          | error x => rfl
          | ok s => simp only [Except.map, RDb.forget, map_assign]
        · rfl

/-! ### C164: charges from formulas -/

/-- Specification: the record with the charge its formula has, everything else as it was. -/
def withCharge (c : Int) (r : Rec Sub) : Rec Sub := { r with data := { r.data with charge := c } }

lemma truncInt_int (n : Int) : truncInt (n : ℝ) = n := by
  unfold truncInt
  split <;> simp

/-- **C164 (partial)** If the formulas of all substances can be parsed and have integer charges, then after `setSubstancesChargeFromFromula` every
substance has the charge of its formula and is otherwise unchanged; there is one warning for each substance whose charge was another, in order, which
names the new charge; and calling it again changes nothing and warns of nothing.

Missing: formulas with a charge that is not an integer, formulas that cannot be parsed, and the old charge in the warnings (below). -/
theorem C164_partial (ch : String → J ℝ) (f : String → Int) (m : SMap (Rec Sub)) (h : ∀ p ∈ m, ch p.2.data.formula = .ok (f p.2.data.formula)) :
    ∃ ws, setCharges ch m = (m.map fun p => (p.1, withCharge (f p.2.data.formula) p.2), ws, none) ∧
      ws.map (fun w => (w.symbol, w.becomes)) =
        ((m.filter fun p => p.2.data.charge ≠ f p.2.data.formula).map fun p => (p.2.data.symbol, ((f p.2.data.formula : Int) : ℝ))) ∧
      setCharges ch (setCharges ch m).1 = ((setCharges ch m).1, [], none) := by
  induction m with
  | nil => exact ⟨[], rfl, rfl, rfl⟩
  | cons p m ih =>
    obtain ⟨k, r⟩ := p
    obtain ⟨ws, h1, h2, h3⟩ := ih fun p hp => h p (List.mem_cons_of_mem _ hp)
    have hc : ch r.data.formula = .ok (f r.data.formula : ℝ) := h (k, r) List.mem_cons_self
    have again : chargeStep ch (withCharge (f r.data.formula) r) = .ok (withCharge (f r.data.formula) r, []) := by
      unfold chargeStep
      have : ch (withCharge (f r.data.formula) r).data.formula = .ok (f r.data.formula : ℝ) := hc
      rw [this]
      exact if_pos rfl
    by_cases e : r.data.charge = f r.data.formula
    · have hs : chargeStep ch r = .ok (r, []) := by
        unfold chargeStep
        rw [hc]
        exact if_pos (by rw [e])
      have hr : withCharge (f r.data.formula) r = r := by rw [← e]; rfl
      have h4 : setCharges ch ((k, r) :: m) = ((k, r) :: m.map (fun p => (p.1, withCharge (f p.2.data.formula) p.2)), ws, none) := by
        simp only [setCharges, hs, h1, List.nil_append]
      refine ⟨ws, by rw [h4, List.map_cons, hr], ?_, ?_⟩
      · rw [h2, List.filter_cons_of_neg (by simpa using e)]
      · rw [h4]
        rw [h1] at h3
        simp only [setCharges, hs, h3, List.nil_append]
    · have hs : chargeStep ch r = .ok (withCharge (f r.data.formula) r, [⟨r.data.symbol, f r.data.formula, f r.data.formula⟩]) := by
        unfold chargeStep
        rw [hc]
        refine (if_neg (by simpa using e)).trans ?_
        simp only [truncInt_int]
        rfl
      have h4 : setCharges ch ((k, r) :: m) = ((k, withCharge (f r.data.formula) r) :: m.map (fun p => (p.1, withCharge (f p.2.data.formula) p.2)),
          ⟨r.data.symbol, f r.data.formula, f r.data.formula⟩ :: ws, none) := by
        simp only [setCharges, hs, h1, List.cons_append, List.nil_append]
      refine ⟨_, by rw [h4, List.map_cons], ?_, ?_⟩
      · rw [List.map_cons, h2, List.filter_cons_of_pos (by simpa using e), List.map_cons]
      · rw [h4]
        rw [h1] at h3
        simp only [setCharges, again, h3, List.nil_append]

/-- A parser that knows the charges of two formulas. -/
noncomputable def exCharge (s : String) : J ℝ := if s = "Na+" then .ok 1 else if s = "H2O" then .ok 0 else .error .other

example : ∀ p ∈ ([("H2O", ⟨{ symbol := "H2O", formula := "H2O" }, none⟩), ("Na+", ⟨{ symbol := "Na+", formula := "Na+" }, none⟩)] : SMap (Rec Sub)),
    exCharge p.2.data.formula = .ok ((if p.2.data.formula = "Na+" then 1 else 0 : Int) : ℝ) := by
  intro p hp
  simp only [List.mem_cons, List.not_mem_nil, or_false] at hp
  rcases hp with rfl | rfl <;> simp [exCharge]

/-- **C164 refuted for the warnings.**  The charge of Na+ goes from 0 to 1, and the warning says that the record's charge 1 was updated to 1: the charge is
read after it has been set. -/
theorem C164_warning_refuted : ∃ (r s : Rec Sub) (w : Warning), r.data.charge = 0 ∧ setCharges exCharge [("Na+", r)] = ([("Na+", s)], [w], none) ∧
    s.data.charge = 1 ∧ w.was = 1 ∧ w.becomes = 1 := by
  have hs : chargeStep exCharge ⟨{ symbol := "Na+", formula := "Na+" }, none⟩ =
      .ok (⟨{ symbol := "Na+", formula := "Na+", charge := 1 }, none⟩, [⟨"Na+", 1, 1⟩]) := by
    have : truncInt 1 = 1 := by simpa using truncInt_int 1
    simp [chargeStep, exCharge, bind, Except.bind, Rec.edit, this]
  exact ⟨⟨{ symbol := "Na+", formula := "Na+" }, none⟩, _, _, rfl, by simp only [setCharges, hs]; rfl, rfl, rfl, rfl⟩

/-- **C164 refuted for charges that are not integers.**  A site with the formula charge 0.5 gets the charge 0, and every further call warns of it again. -/
theorem C164_fraction_refuted : ∃ (ch : String → J ℝ) (r : Rec Sub) (w : Warning), ch r.data.formula = .ok 0.5 ∧ r.data.charge = 0 ∧
    setCharges ch [("X", r)] = ([("X", r)], [w], none) ∧ w.was = 0 ∧ w.becomes = 0.5 := by
  have hs : chargeStep (fun _ => .ok 0.5) ⟨{ symbol := "X", formula := "X" }, none⟩ = .ok (⟨{ symbol := "X", formula := "X" }, none⟩, [⟨"X", 0, 0.5⟩]) := by
    have : truncInt 0.5 = 0 := by
      unfold truncInt
      rw [if_pos (by norm_num), Int.floor_eq_iff]
      norm_num
    have h5 : ¬ (0 : ℝ) = 0.5 := by norm_num
    simp [chargeStep, bind, Except.bind, Rec.edit, this, h5]
  exact ⟨fun _ => .ok 0.5, ⟨{ symbol := "X", formula := "X" }, none⟩, _, rfl, rfl, by simp only [setCharges, hs]; rfl, rfl, rfl⟩

/-- **C164 refuted for failures.**  A formula that cannot be parsed ends the loop with an exception when the substances before it have their new charges
and those after it have not. -/
theorem C164_halfway_refuted : ∃ (a b c a' : Rec Sub), a.data.formula = "Na+" ∧ c.data.formula = "Na+" ∧ c.data.charge = 0 ∧
    setCharges exCharge [("A", a), ("B", b), ("C", c)] = ([("A", a'), ("B", b), ("C", c)], [⟨"A", 1, 1⟩], some .other) ∧ a'.data.charge = 1 := by
  have hs : chargeStep exCharge ⟨{ symbol := "A", formula := "Na+" }, none⟩ =
      .ok (⟨{ symbol := "A", formula := "Na+", charge := 1 }, none⟩, [⟨"A", 1, 1⟩]) := by
    have : truncInt 1 = 1 := by simpa using truncInt_int 1
    simp [chargeStep, exCharge, bind, Except.bind, Rec.edit, this]
  have hb : chargeStep exCharge ⟨{ symbol := "B", formula := "Na+2)" }, none⟩ = .error .other := by
    simp [chargeStep, exCharge, bind, Except.bind]
  exact ⟨⟨{ symbol := "A", formula := "Na+" }, none⟩, ⟨{ symbol := "B", formula := "Na+2)" }, none⟩, ⟨{ symbol := "C", formula := "Na+" }, none⟩, _, rfl, rfl,
    rfl, by simp only [setCharges, hs, hb]; rfl, rfl⟩

end ThermoFun.Js

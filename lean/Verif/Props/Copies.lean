import Verif.Model.Copies
import Mathlib.Tactic.Common
import Mathlib.Order.Basic

/-!
# C51: copies are independent
-/

namespace ThermoFun.Copies

variable {κ α β : Type} [DecidableEq κ] [Inhabited α] [Inhabited β]

/-! ### Specification: variables hold values -/

/-- The value of a database: its records, and its other data. -/
structure DbVal (κ α β : Type) where
  recs : κ → Option α
  rest : β

/-- The values of all variables. -/
structure Vals (κ α β : Type) where
  dbs : String → Option (DbVal κ α β)
  recs : String → Option α

open Classical in
/-- A variable of databases gets a value. -/
noncomputable def Vals.setDb (v : Vals κ α β) (x : String) (d : DbVal κ α β) : Vals κ α β := { v with dbs := fun z => if z = x then some d else v.dbs z }

open Classical in
/-- A variable of records gets a value. -/
noncomputable def Vals.setRec (v : Vals κ α β) (r : String) (a : α) : Vals κ α β := { v with recs := fun z => if z = r then some a else v.recs z }

open Classical in
/-- A record of a database gets a value. -/
noncomputable def DbVal.put (d : DbVal κ α β) (k : κ) (a : α) : DbVal κ α β := { d with recs := fun z => if z = k then some a else d.recs z }

/-- What statements mean when variables hold values: each changes the variable it names first, and no other. -/
noncomputable def Vals.step (v : Vals κ α β) : Stmt κ α β → Vals κ α β
  | .newRec r a => v.setRec r a
  | .copyRec r q => (v.recs q).elim v fun a => v.setRec r a
  | .modRec r f => (v.recs r).elim v fun a => v.setRec r (f a)
  | .newDb x b => v.setDb x ⟨fun _ => none, b⟩
  | .copyDb x y => (v.dbs y).elim v fun d => v.setDb x d
  | .add x k r => (v.dbs x).elim v fun d => (v.recs r).elim v fun a => (d.recs k).elim (v.setDb x (d.put k a)) fun _ => v
  | .set x k r => (v.dbs x).elim v fun d => (v.recs r).elim v fun a => v.setDb x (d.put k a)
  | .get r x k => (v.dbs x).elim v fun d => (d.recs k).elim v fun a => v.setRec r a
  | .touch x k a => (v.dbs x).elim v fun d => (d.recs k).elim (v.setDb x (d.put k a)) fun _ => v
  | .modify x k f => (v.dbs x).elim v fun d => (d.recs k).elim v fun a => v.setDb x (d.put k (f a))
  | .rest x g => (v.dbs x).elim v fun d => v.setDb x { d with rest := g d.rest }
  | .replace x p y => (v.dbs x).elim v fun d => (v.dbs y).elim v fun e => v.setDb x { d with recs := fun k => if p k then e.recs k else d.recs k }

/-- What a program can observe. -/
def St.dbVal (s : St κ α β) (i : ℕ) : DbVal κ α β := ⟨fun k => (look k (s.impl i).recs).map s.cell, (s.impl i).rest⟩

/-- What a program can observe of its variables. -/
def St.view (s : St κ α β) : Vals κ α β := ⟨fun x => (s.dbs x).map s.dbVal, fun r => (s.recs r).map s.cell⟩

/-! ### Ownership -/

/-- Who an address belongs to. -/
inductive Owner (κ : Type)
  | object (r : String)
  | entry (x : String) (k : κ)
  | impl (x : String)

/-- Each address in use belongs to one variable, or one record of one database variable. -/
structure Owned (s : St κ α β) (own : ℕ → Option (Owner κ)) : Prop where
  recs : ∀ r a, s.recs r = some a → a < s.next ∧ own a = some (.object r)
  dbs : ∀ x i, s.dbs x = some i → i < s.next ∧ own i = some (.impl x)
  entries : ∀ x i, s.dbs x = some i → ∀ p ∈ (s.impl i).recs, p.2 < s.next ∧ own p.2 = some (.entry x p.1)

lemma look_mem {k : κ} {l : List (κ × ℕ)} {a : ℕ} (h : look k l = some a) : (k, a) ∈ l := by
  induction l with
  | nil => cases h
  | cons p l ih =>
    unfold look at h
    split at h
    · next e => injection h with h; subst e; subst h; exact List.mem_cons_self
    · exact List.mem_cons_of_mem _ (ih h)

lemma look_filter {k : κ} {q : κ → Bool} {l : List (κ × ℕ)} : look k (l.filter fun p => q p.1) = if q k then look k l else none := by
  induction l with
  | nil => simp [look]
  | cons p l ih =>
    by_cases hq : q p.1 = true
    · rw [List.filter_cons_of_pos (p := fun p : κ × ℕ => q p.1) hq]
      unfold look
      by_cases e : p.1 = k
      · rw [if_pos e, if_pos e]; rw [e] at hq; rw [if_pos hq]
      · rw [if_neg e, if_neg e]; exact ih
    · rw [List.filter_cons_of_neg (p := fun p : κ × ℕ => q p.1) hq]
      rw [ih]
      by_cases e : p.1 = k
      · rw [e] at hq; rw [if_neg hq, if_neg hq]
      · conv_rhs => unfold look
        rw [if_neg e]

lemma look_append {k : κ} {l m : List (κ × ℕ)} : look k (l ++ m) = (look k l).elim (look k m) some := by
  induction l with
  | nil => rfl
  | cons p l ih =>
    show (if p.1 = k then some p.2 else look k (l ++ m)) = (if p.1 = k then some p.2 else look k l).elim (look k m) some
    by_cases e : p.1 = k
    · rw [if_pos e, if_pos e]; rfl
    · rw [if_neg e, if_neg e]; exact ih

lemma map_congr {c d : ℕ → α} {o : Option ℕ} (h : ∀ a, o = some a → c a = d a) : o.map c = o.map d := by
  cases o with
  | none => rfl
  | some a => simp [h a rfl]

/-- Copying leaves what was there, and gives entries of their own with the same data. -/
lemma copyRecs_spec (x : String) : ∀ (l : List (κ × ℕ)) (c : ℕ → α) (n : ℕ) (own : ℕ → Option (Owner κ)), (∀ p ∈ l, p.2 < n) →
    n ≤ (copyRecs l c n).2.2 ∧ (∀ a < n, (copyRecs l c n).2.1 a = c a) ∧
    (∀ k, (look k (copyRecs l c n).1).map (copyRecs l c n).2.1 = (look k l).map c) ∧
    (∀ p ∈ (copyRecs l c n).1, p.2 < (copyRecs l c n).2.2 ∧ ∃ q ∈ l, q.1 = p.1) ∧
    ∃ own' : ℕ → Option (Owner κ), (∀ a < n, own' a = own a) ∧ ∀ p ∈ (copyRecs l c n).1, own' p.2 = some (.entry x p.1) := by
  intro l
  induction l with
  | nil => exact fun c n own _ => ⟨Nat.le_refl _, fun _ _ => rfl, fun _ => rfl, fun p hp => (by cases hp), own, fun _ _ => rfl, fun p hp => (by cases hp)⟩
  | cons p l ih =>
    intro c n own hl
    obtain ⟨h1, h2, h3, h4, own', h5, h6⟩ := ih (Function.update c n (c p.2)) (n + 1) (Function.update own n (some (.entry x p.1)))
      (fun q hq => Nat.lt_succ_of_lt (hl q (List.mem_cons_of_mem _ hq)))
    have hn : n < (copyRecs l (Function.update c n (c p.2)) (n + 1)).2.2 := Nat.lt_of_lt_of_le (Nat.lt_succ_self n) h1
    refine ⟨Nat.le_of_lt hn, ?_, ?_, ?_, own', ?_, ?_⟩
    · intro a ha
      show (copyRecs l (Function.update c n (c p.2)) (n + 1)).2.1 a = c a
      rw [h2 a (Nat.lt_succ_of_lt ha), Function.update_of_ne (Nat.ne_of_lt ha)]
    · intro k
      show (look k ((p.1, n) :: (copyRecs l (Function.update c n (c p.2)) (n + 1)).1)).map (copyRecs l (Function.update c n (c p.2)) (n + 1)).2.1 = _
      unfold look
      by_cases e : p.1 = k
      · rw [if_pos e, if_pos e]
        show some _ = some _
        rw [h2 n (Nat.lt_succ_self n), Function.update_self]
      · rw [if_neg e, if_neg e, h3 k]
        refine map_congr fun a ha => Function.update_of_ne ?_ _ _
        exact Nat.ne_of_lt (hl (k, a) (List.mem_cons_of_mem _ (look_mem ha)))
    · intro q hq
      rcases List.mem_cons.1 hq with rfl | hq
      · exact ⟨hn, p, List.mem_cons_self, rfl⟩
      · obtain ⟨a, b, hb, hb'⟩ := h4 q hq
        exact ⟨a, b, List.mem_cons_of_mem _ hb, hb'⟩
    · intro a ha
      rw [h5 a (Nat.lt_succ_of_lt ha), Function.update_of_ne (Nat.ne_of_lt ha)]
    · intro q hq
      rcases List.mem_cons.1 hq with rfl | hq
      · rw [h5 n (Nat.lt_succ_self n), Function.update_self]
      · exact h6 q hq

/-- The values are determined by observing them. -/
lemma view_ext {s : St κ α β} {v : Vals κ α β} (hd : ∀ x, (s.dbs x).map s.dbVal = v.dbs x) (hr : ∀ r, (s.recs r).map s.cell = v.recs r) : s.view = v := by
  cases v
  simp only [St.view, Vals.mk.injEq]
  exact ⟨funext hd, funext hr⟩

lemma alloc_spec {s : St κ α β} {own : ℕ → Option (Owner κ)} (h : Owned s own) (r : String) (v : α) :
    (s.alloc r v).view = s.view.setRec r v ∧ ∃ own', Owned (s.alloc r v) own' := by
  constructor
  · refine view_ext (fun x => ?_) (fun q => ?_)
    · show (s.dbs x).map (s.alloc r v).dbVal = (s.dbs x).map s.dbVal
      cases hx : s.dbs x with
      | none => rfl
      | some i =>
        show some _ = some _
        congr 1
        show DbVal.mk _ _ = DbVal.mk _ _
        congr 1
        funext k
        refine map_congr fun a ha => Function.update_of_ne (Nat.ne_of_lt (h.entries x i hx _ (look_mem ha)).1) _ _
    · show (Function.update s.recs r (some s.next) q).map (Function.update s.cell s.next v) = if q = r then some v else (s.recs q).map s.cell
      by_cases e : q = r
      · rw [if_pos e, e, Function.update_self]; show some _ = _; rw [Function.update_self]
      · rw [if_neg e, Function.update_of_ne e]
        exact map_congr fun a ha => Function.update_of_ne (Nat.ne_of_lt (h.recs q a ha).1) _ _
  · refine ⟨Function.update own s.next (some (.object r)), ?_, ?_, ?_⟩
    · intro q a hq
      change Function.update s.recs r (some s.next) q = some a at hq
      by_cases e : q = r
      · rw [e, Function.update_self] at hq; injection hq with hq
        rw [← hq, Function.update_self, e]; exact ⟨Nat.lt_succ_self _, rfl⟩
      · rw [Function.update_of_ne e] at hq
        rw [Function.update_of_ne (Nat.ne_of_lt (h.recs q a hq).1)]
        exact ⟨Nat.lt_succ_of_lt (h.recs q a hq).1, (h.recs q a hq).2⟩
    · intro x i hx
      rw [Function.update_of_ne (Nat.ne_of_lt (h.dbs x i hx).1)]
      exact ⟨Nat.lt_succ_of_lt (h.dbs x i hx).1, (h.dbs x i hx).2⟩
    · intro x i hx p hp
      rw [Function.update_of_ne (Nat.ne_of_lt (h.entries x i hx p hp).1)]
      exact ⟨Nat.lt_succ_of_lt (h.entries x i hx p hp).1, (h.entries x i hx p hp).2⟩

lemma Owned.impl_ne {s : St κ α β} {own : ℕ → Option (Owner κ)} (h : Owned s own) {x z : String} {i j : ℕ} (hx : s.dbs x = some i) (hz : s.dbs z = some j) (hne : z ≠ x) : j ≠ i := by
  rintro rfl
  have := (h.dbs x _ hx).2.symm.trans (h.dbs z _ hz).2
  injection this with this
  injection this with this
  exact hne this.symm

/-- An entry and other addresses differ. -/
lemma Owned.entry_ne {s : St κ α β} {own : ℕ → Option (Owner κ)} (h : Owned s own) {x z : String} {i j a b : ℕ} {k q : κ} (hx : s.dbs x = some i)
    (hz : s.dbs z = some j) (ha : (k, a) ∈ (s.impl i).recs) (hb : (q, b) ∈ (s.impl j).recs) (hne : z ≠ x ∨ q ≠ k) : b ≠ a := by
  rintro rfl
  have := (h.entries x i hx _ ha).2.symm.trans (h.entries z j hz _ hb).2
  injection this with this
  injection this with h1 h2
  rcases hne with e | e
  · exact e h1.symm
  · exact e h2.symm

lemma put_spec {s : St κ α β} {own : ℕ → Option (Owner κ)} (h : Owned s own) {x : String} {i : ℕ} (hx : s.dbs x = some i) (k : κ) (v : α) :
    (s.put i k v).view = s.view.setDb x ((s.dbVal i).put k v) ∧ ∃ own', Owned (s.put i k v) own' := by
  constructor
  · refine view_ext (fun z => ?_) (fun q => ?_)
    · show (s.dbs z).map (s.put i k v).dbVal = if z = x then some ((s.dbVal i).put k v) else (s.dbs z).map s.dbVal
      by_cases e : z = x
      · rw [if_pos e, e, hx]
        show some _ = some _
        congr 1
        show DbVal.mk (fun q => (look q (Function.update s.impl i _ i).recs).map _) (Function.update s.impl i _ i).rest = DbVal.mk _ _
        rw [Function.update_self]
        congr 1
        funext q
        show (if k = q then some s.next else look q ((s.impl i).recs.filter (fun p => p.1 ≠ k))).map (Function.update s.cell s.next v) = if q = k then some v else (look q (s.impl i).recs).map s.cell
        by_cases ek : k = q
        · rw [if_pos ek, if_pos ek.symm]; show some _ = _; rw [Function.update_self]
        · rw [if_neg ek, if_neg (Ne.symm ek), look_filter (q := fun z => decide (z ≠ k)), if_pos (by simpa using Ne.symm ek)]
          exact map_congr (c := Function.update s.cell s.next v) fun a ha => Function.update_of_ne (Nat.ne_of_lt (h.entries x i hx _ (look_mem ha)).1) _ _
      · rw [if_neg e]
        cases hz : s.dbs z with
        | none => rfl
        | some j =>
          show some _ = some _
          congr 1
          show DbVal.mk (fun q => (look q (Function.update s.impl i _ j).recs).map _) (Function.update s.impl i _ j).rest = DbVal.mk _ _
          rw [Function.update_of_ne (h.impl_ne hx hz e)]
          congr 1
          funext q
          exact map_congr fun a ha => Function.update_of_ne (Nat.ne_of_lt (h.entries z j hz _ (look_mem ha)).1) _ _
    · exact map_congr fun a ha => Function.update_of_ne (Nat.ne_of_lt (h.recs q a ha).1) _ _
  · refine ⟨Function.update own s.next (some (.entry x k)), ?_, ?_, ?_⟩
    · intro q a hq
      rw [Function.update_of_ne (Nat.ne_of_lt (h.recs q a hq).1)]
      exact ⟨Nat.lt_succ_of_lt (h.recs q a hq).1, (h.recs q a hq).2⟩
    · intro z j hz
      rw [Function.update_of_ne (Nat.ne_of_lt (h.dbs z j hz).1)]
      exact ⟨Nat.lt_succ_of_lt (h.dbs z j hz).1, (h.dbs z j hz).2⟩
    · intro z j hz p hp
      have old : p ∈ (s.impl j).recs → p.2 < s.next + 1 ∧ Function.update own s.next (some (.entry x k)) p.2 = some (.entry z p.1) := by
        intro hp
        rw [Function.update_of_ne (Nat.ne_of_lt (h.entries z j hz p hp).1)]
        exact ⟨Nat.lt_succ_of_lt (h.entries z j hz p hp).1, (h.entries z j hz p hp).2⟩
      change p ∈ (Function.update s.impl i _ j).recs at hp
      by_cases e : j = i
      · have ex : z = x := by by_contra hne; exact h.impl_ne hx hz hne e
        rw [e, Function.update_self] at hp
        rcases List.mem_cons.1 hp with rfl | hp
        · show s.next < s.next + 1 ∧ Function.update own s.next (some (.entry x k)) s.next = _
          rw [Function.update_self, ex]; exact ⟨Nat.lt_succ_self _, rfl⟩
        · exact old (by rw [e]; exact (List.mem_filter.1 hp).1)
      · rw [Function.update_of_ne e] at hp
        exact old hp

/-- Changing the data at an address of a record variable. -/
lemma modRec_spec {s : St κ α β} {own : ℕ → Option (Owner κ)} (h : Owned s own) {r : String} {a : ℕ} (hr : s.recs r = some a) (v : α) :
    ({ s with cell := Function.update s.cell a v } : St κ α β).view = s.view.setRec r v := by
  refine view_ext (fun x => ?_) (fun q => ?_)
  · show (s.dbs x).map _ = (s.dbs x).map s.dbVal
    cases hx : s.dbs x with
    | none => rfl
    | some i =>
      show some _ = some _
      congr 1
      show DbVal.mk _ _ = DbVal.mk _ _
      congr 1
      funext k
      refine map_congr fun b hb => Function.update_of_ne ?_ _ _
      rintro rfl
      have := (h.entries x i hx _ (look_mem hb)).2.symm.trans (h.recs r _ hr).2
      injection this with this
      cases this
  · show (s.recs q).map (Function.update s.cell a v) = if q = r then some v else (s.recs q).map s.cell
    by_cases e : q = r
    · rw [if_pos e, e, hr]; show some _ = _; rw [Function.update_self]
    · rw [if_neg e]
      refine map_congr fun b hb => Function.update_of_ne ?_ _ _
      rintro rfl
      have := (h.recs q _ hb).2.symm.trans (h.recs r _ hr).2
      injection this with this
      injection this with this
      exact e this

/-- Changing the data at the address of a record in a database. -/
lemma modify_spec {s : St κ α β} {own : ℕ → Option (Owner κ)} (h : Owned s own) {x : String} {i a : ℕ} {k : κ} (hx : s.dbs x = some i)
    (ha : look k (s.impl i).recs = some a) (v : α) :
    ({ s with cell := Function.update s.cell a v } : St κ α β).view = s.view.setDb x ((s.dbVal i).put k v) := by
  refine view_ext (fun z => ?_) (fun q => ?_)
  · show (s.dbs z).map _ = if z = x then some ((s.dbVal i).put k v) else (s.dbs z).map s.dbVal
    by_cases e : z = x
    · rw [if_pos e, e, hx]
      show some _ = some _
      congr 1
      show DbVal.mk _ _ = DbVal.mk _ _
      congr 1
      funext q
      show (look q (s.impl i).recs).map (Function.update s.cell a v) = if q = k then some v else (look q (s.impl i).recs).map s.cell
      by_cases ek : q = k
      · rw [if_pos ek, ek, ha]; show some _ = _; rw [Function.update_self]
      · rw [if_neg ek]
        exact map_congr fun b hb => Function.update_of_ne (h.entry_ne hx hx (look_mem ha) (look_mem hb) (Or.inr ek)) _ _
    · rw [if_neg e]
      cases hz : s.dbs z with
      | none => rfl
      | some j =>
        show some _ = some _
        congr 1
        show DbVal.mk _ _ = DbVal.mk _ _
        congr 1
        funext q
        exact map_congr fun b hb => Function.update_of_ne (h.entry_ne hx hz (look_mem ha) (look_mem hb) (Or.inl e)) _ _
  · refine map_congr fun b hb => Function.update_of_ne ?_ _ _
    rintro rfl
    have := (h.entries x i hx _ (look_mem ha)).2.symm.trans (h.recs q _ hb).2
    injection this with this
    cases this

lemma Owned.cell {s : St κ α β} {own : ℕ → Option (Owner κ)} (h : Owned s own) (c : ℕ → α) : Owned ({ s with cell := c } : St κ α β) own :=
  ⟨h.recs, h.dbs, h.entries⟩

lemma view_db {s : St κ α β} {x : String} : s.view.dbs x = (s.dbs x).map s.dbVal := rfl
lemma view_rec {s : St κ α β} {r : String} : s.view.recs r = (s.recs r).map s.cell := rfl
lemma dbVal_rec {s : St κ α β} {i : ℕ} {k : κ} : (s.dbVal i).recs k = (look k (s.impl i).recs).map s.cell := rfl

/-- Every statement does to the values of the variables what it should, and keeps addresses apart. -/
lemma step_spec {s : St κ α β} {own : ℕ → Option (Owner κ)} (h : Owned s own) (t : Stmt κ α β) :
    (s.step t).view = s.view.step t ∧ ∃ own', Owned (s.step t) own' := by
  cases t with
  | newRec r v => exact alloc_spec h r v
  | copyRec r q =>
    simp only [St.step, Vals.step, view_rec]
    cases hq : s.recs q with
    | none => exact ⟨rfl, own, h⟩
    | some a => exact alloc_spec h r _
  | modRec r f =>
    simp only [St.step, Vals.step, view_rec]
    cases hr : s.recs r with
    | none => exact ⟨rfl, own, h⟩
    | some a => exact ⟨modRec_spec h hr _, own, h.cell _⟩
  | newDb x b =>
    constructor
    · refine view_ext (fun z => ?_) (fun q => rfl)
      show (Function.update s.dbs x (some s.next) z).map _ = if z = x then some ⟨fun _ => none, b⟩ else (s.dbs z).map s.dbVal
      by_cases e : z = x
      · rw [if_pos e, e, Function.update_self]
        show some (DbVal.mk (fun q => (look q (Function.update s.impl s.next _ s.next).recs).map _) (Function.update s.impl s.next _ s.next).rest) = _
        rw [Function.update_self]; rfl
      · rw [if_neg e, Function.update_of_ne e]
        cases hz : s.dbs z with
        | none => rfl
        | some j =>
          show some (DbVal.mk (fun q => (look q (Function.update s.impl s.next _ j).recs).map _) (Function.update s.impl s.next _ j).rest) = _
          rw [Function.update_of_ne (Nat.ne_of_lt (h.dbs z j hz).1)]; rfl
    · refine ⟨Function.update own s.next (some (.impl x)), ?_, ?_, ?_⟩
      · intro q a hq
        rw [Function.update_of_ne (Nat.ne_of_lt (h.recs q a hq).1)]
        exact ⟨Nat.lt_succ_of_lt (h.recs q a hq).1, (h.recs q a hq).2⟩
      · intro z j hz
        change Function.update s.dbs x (some s.next) z = some j at hz
        by_cases e : z = x
        · rw [e, Function.update_self] at hz; injection hz with hz
          rw [← hz, Function.update_self, e]; exact ⟨Nat.lt_succ_self _, rfl⟩
        · rw [Function.update_of_ne e] at hz
          rw [Function.update_of_ne (Nat.ne_of_lt (h.dbs z j hz).1)]
          exact ⟨Nat.lt_succ_of_lt (h.dbs z j hz).1, (h.dbs z j hz).2⟩
      · intro z j hz p hp
        change Function.update s.dbs x (some s.next) z = some j at hz
        change p ∈ (Function.update s.impl s.next _ j).recs at hp
        by_cases e : z = x
        · rw [e, Function.update_self] at hz; injection hz with hz
          rw [← hz, Function.update_self] at hp
          cases hp
        · rw [Function.update_of_ne e] at hz
          rw [Function.update_of_ne (Nat.ne_of_lt (h.dbs z j hz).1)] at hp
          rw [Function.update_of_ne (Nat.ne_of_lt (h.entries z j hz p hp).1)]
          exact ⟨Nat.lt_succ_of_lt (h.entries z j hz p hp).1, (h.entries z j hz p hp).2⟩
  | copyDb x y =>
    simp only [St.step, Vals.step, view_db]
    cases hy : s.dbs y with
    | none => exact ⟨rfl, own, h⟩
    | some i =>
      dsimp only [Option.map_some, Option.elim_some]
      obtain ⟨h1, h2, h3, h4, own', h5, h6⟩ := copyRecs_spec x (s.impl i).recs s.cell s.next own (fun p hp => (h.entries y i hy p hp).1)
      generalize copyRecs (s.impl i).recs s.cell s.next = c at *
      have old : ∀ {a}, a < s.next → a ≠ c.2.2 := fun ha => Nat.ne_of_lt (Nat.lt_of_lt_of_le ha h1)
      constructor
      · refine view_ext (fun z => ?_) (fun q => ?_)
        · show (Function.update s.dbs x (some c.2.2) z).map _ = if z = x then some (s.dbVal i) else (s.dbs z).map s.dbVal
          by_cases e : z = x
          · rw [if_pos e, e, Function.update_self]
            show some (DbVal.mk (fun q => (look q (Function.update s.impl c.2.2 _ c.2.2).recs).map _) (Function.update s.impl c.2.2 _ c.2.2).rest) = _
            rw [Function.update_self]
            congr 2
            funext q
            exact h3 q
          · rw [if_neg e, Function.update_of_ne e]
            cases hz : s.dbs z with
            | none => rfl
            | some j =>
              show some (DbVal.mk (fun q => (look q (Function.update s.impl c.2.2 _ j).recs).map _) (Function.update s.impl c.2.2 _ j).rest) = _
              rw [Function.update_of_ne (old (h.dbs z j hz).1)]
              congr 2
              funext q
              exact map_congr fun a ha => h2 a (h.entries z j hz _ (look_mem ha)).1
        · exact map_congr fun a ha => h2 a (h.recs q a ha).1
      · refine ⟨Function.update own' c.2.2 (some (.impl x)), ?_, ?_, ?_⟩
        · intro q a hq
          have ha := (h.recs q a hq).1
          rw [Function.update_of_ne (old ha), h5 a ha]
          exact ⟨Nat.lt_succ_of_lt (Nat.lt_of_lt_of_le ha h1), (h.recs q a hq).2⟩
        · intro z j hz
          change Function.update s.dbs x (some c.2.2) z = some j at hz
          by_cases e : z = x
          · rw [e, Function.update_self] at hz; injection hz with hz
            rw [← hz, Function.update_self, e]; exact ⟨Nat.lt_succ_self _, rfl⟩
          · rw [Function.update_of_ne e] at hz
            have ha := (h.dbs z j hz).1
            rw [Function.update_of_ne (old ha), h5 j ha]
            exact ⟨Nat.lt_succ_of_lt (Nat.lt_of_lt_of_le ha h1), (h.dbs z j hz).2⟩
        · intro z j hz p hp
          change Function.update s.dbs x (some c.2.2) z = some j at hz
          change p ∈ (Function.update s.impl c.2.2 _ j).recs at hp
          by_cases e : z = x
          · rw [e, Function.update_self] at hz; injection hz with hz
            rw [← hz, Function.update_self] at hp
            have hp4 := (h4 p hp).1
            rw [Function.update_of_ne (Nat.ne_of_lt hp4), h6 p hp, e]
            exact ⟨Nat.lt_succ_of_lt hp4, rfl⟩
          · rw [Function.update_of_ne e] at hz
            rw [Function.update_of_ne (old (h.dbs z j hz).1)] at hp
            have ha := (h.entries z j hz p hp).1
            rw [Function.update_of_ne (old ha), h5 _ ha]
            exact ⟨Nat.lt_succ_of_lt (Nat.lt_of_lt_of_le ha h1), (h.entries z j hz p hp).2⟩
  | add x k r =>
    simp only [St.step, Vals.step, view_db, view_rec]
    cases hx : s.dbs x with
    | none => exact ⟨rfl, own, h⟩
    | some i =>
      cases hr : s.recs r with
      | none => exact ⟨rfl, own, h⟩
      | some a =>
        simp only [Option.map_some, Option.elim_some, dbVal_rec]
        cases hk : look k (s.impl i).recs with
        | none => exact put_spec h hx k _
        | some b => exact ⟨rfl, own, h⟩
  | set x k r =>
    simp only [St.step, Vals.step, view_db, view_rec]
    cases hx : s.dbs x with
    | none => exact ⟨rfl, own, h⟩
    | some i =>
      cases hr : s.recs r with
      | none => exact ⟨rfl, own, h⟩
      | some a => exact put_spec h hx k _
  | get r x k =>
    simp only [St.step, Vals.step, view_db]
    cases hx : s.dbs x with
    | none => exact ⟨rfl, own, h⟩
    | some i =>
      simp only [Option.map_some, Option.elim_some, dbVal_rec]
      cases hk : look k (s.impl i).recs with
      | none => exact ⟨rfl, own, h⟩
      | some a => exact alloc_spec h r _
  | touch x k d =>
    simp only [St.step, Vals.step, view_db]
    cases hx : s.dbs x with
    | none => exact ⟨rfl, own, h⟩
    | some i =>
      simp only [Option.map_some, Option.elim_some, dbVal_rec]
      cases hk : look k (s.impl i).recs with
      | none => exact put_spec h hx k _
      | some b => exact ⟨rfl, own, h⟩
  | modify x k f =>
    simp only [St.step, Vals.step, view_db]
    cases hx : s.dbs x with
    | none => exact ⟨rfl, own, h⟩
    | some i =>
      simp only [Option.map_some, Option.elim_some, dbVal_rec]
      cases hk : look k (s.impl i).recs with
      | none => exact ⟨rfl, own, h⟩
      | some a => exact ⟨modify_spec h hx hk _, own, h.cell _⟩
  | rest x g =>
    simp only [St.step, Vals.step, view_db]
    cases hx : s.dbs x with
    | none => exact ⟨rfl, own, h⟩
    | some i =>
      constructor
      · refine view_ext (fun z => ?_) (fun q => rfl)
        show (s.dbs z).map _ = if z = x then some _ else (s.dbs z).map s.dbVal
        by_cases e : z = x
        · rw [if_pos e, e, hx]
          show some (DbVal.mk (fun q => (look q (Function.update s.impl i _ i).recs).map _) (Function.update s.impl i _ i).rest) = _
          rw [Function.update_self]; rfl
        · rw [if_neg e]
          cases hz : s.dbs z with
          | none => rfl
          | some j =>
            show some (DbVal.mk (fun q => (look q (Function.update s.impl i _ j).recs).map _) (Function.update s.impl i _ j).rest) = _
            rw [Function.update_of_ne (h.impl_ne hx hz e)]; rfl
      · refine ⟨own, h.recs, h.dbs, ?_⟩
        intro z j hz p hp
        change p ∈ (Function.update s.impl i _ j).recs at hp
        by_cases e : j = i
        · rw [e, Function.update_self] at hp
          exact h.entries z j hz p (by rw [e]; exact hp)
        · rw [Function.update_of_ne e] at hp
          exact h.entries z j hz p hp
  | replace x p y =>
    simp only [St.step, Vals.step, view_db]
    cases hx : s.dbs x with
    | none => exact ⟨rfl, own, h⟩
    | some i =>
      cases hy : s.dbs y with
      | none => exact ⟨rfl, own, h⟩
      | some j =>
        dsimp only [Option.map_some, Option.elim_some]
        obtain ⟨h1, h2, h3, h4, own', h5, h6⟩ := copyRecs_spec x ((s.impl j).recs.filter fun q => p q.1) s.cell s.next own
          (fun q hq => (h.entries y j hy q (List.mem_filter.1 hq).1).1)
        have h7 : ∀ q ∈ (copyRecs ((s.impl j).recs.filter fun q => p q.1) s.cell s.next).1, p q.1 = true := by
          intro q hq
          obtain ⟨t, ht, e⟩ := (h4 q hq).2
          rw [← e]
          exact (List.mem_filter.1 ht).2
        generalize copyRecs ((s.impl j).recs.filter fun q => p q.1) s.cell s.next = c at *
        constructor
        · refine view_ext (fun z => ?_) (fun q => ?_)
          · show (s.dbs z).map _ = if z = x then some _ else (s.dbs z).map s.dbVal
            by_cases e : z = x
            · rw [if_pos e, e, hx]
              show some (DbVal.mk (fun q => (look q (Function.update s.impl i _ i).recs).map _) (Function.update s.impl i _ i).rest) = _
              rw [Function.update_self]
              congr 2
              funext q
              rw [look_append, look_filter (q := fun z => !p z), dbVal_rec, dbVal_rec]
              by_cases hp : p q = true
              · rw [if_neg (by simp [hp]), if_pos hp]
                show (look q c.1).map c.2.1 = _
                rw [h3 q, look_filter (q := p), if_pos hp]
              · rw [if_pos (by simp [hp]), if_neg hp]
                have hn : look q c.1 = none := by
                  cases hl : look q c.1 with
                  | none => rfl
                  | some a => exact absurd (h7 _ (look_mem hl)) hp
                rw [hn]
                cases hl : look q (s.impl i).recs with
                | none => rfl
                | some a => show some (c.2.1 a) = some _; rw [h2 a (h.entries x i hx _ (look_mem hl)).1]
            · rw [if_neg e]
              cases hz : s.dbs z with
              | none => rfl
              | some l =>
                show some (DbVal.mk (fun q => (look q (Function.update s.impl i _ l).recs).map _) (Function.update s.impl i _ l).rest) = _
                rw [Function.update_of_ne (h.impl_ne hx hz e)]
                congr 2
                funext q
                exact map_congr fun a ha => h2 a (h.entries z l hz _ (look_mem ha)).1
          · exact map_congr fun a ha => h2 a (h.recs q a ha).1
        · refine ⟨own', ?_, ?_, ?_⟩
          · intro q a hq
            have ha := (h.recs q a hq).1
            rw [h5 a ha]
            exact ⟨Nat.lt_of_lt_of_le ha h1, (h.recs q a hq).2⟩
          · intro z l hz
            have ha := (h.dbs z l hz).1
            rw [h5 l ha]
            exact ⟨Nat.lt_of_lt_of_le ha h1, (h.dbs z l hz).2⟩
          · intro z l hz q hq
            have old : q ∈ (s.impl l).recs → q.2 < c.2.2 ∧ own' q.2 = some (.entry z q.1) := by
              intro hq
              have ha := (h.entries z l hz q hq).1
              rw [h5 _ ha]
              exact ⟨Nat.lt_of_lt_of_le ha h1, (h.entries z l hz q hq).2⟩
            change q ∈ (Function.update s.impl i _ l).recs at hq
            by_cases e : l = i
            · have ex : z = x := by by_contra hne; exact h.impl_ne hx hz hne e
              rw [e, Function.update_self] at hq
              rcases List.mem_append.1 hq with hq | hq
              · exact old (by rw [e]; exact (List.mem_filter.1 hq).1)
              · rw [ex]; exact ⟨(h4 q hq).1, h6 q hq⟩
            · rw [Function.update_of_ne e] at hq
              exact old hq

lemma owned_init : Owned (St.init : St κ α β) fun _ => none :=
  ⟨fun r a h => (by cases h), fun x i h => (by cases h), fun x i h => (by cases h)⟩

lemma run_spec (l : List (Stmt κ α β)) : ∀ {s : St κ α β} {own : ℕ → Option (Owner κ)}, Owned s own →
    (s.run l).view = l.foldl Vals.step s.view ∧ ∃ own', Owned (s.run l) own' := by
  induction l with
  | nil => exact fun h => ⟨rfl, _, h⟩
  | cons t l ih =>
    intro s own h
    obtain ⟨h1, own', h2⟩ := step_spec h t
    have := ih h2
    rw [h1] at this
    exact this

/-! ### C51 -/

/-- **C51 (values).** A program on databases and records, of any length, observes what it would if every variable held its value itself:
copies of databases and records, records put into and taken out of databases, and references to records are never entangled. -/
theorem C51_values (l : List (Stmt κ α β)) : ((St.init : St κ α β).run l).view = l.foldl Vals.step ⟨fun _ => none, fun _ => none⟩ :=
  (run_spec l owned_init).1

/-- The variable of databases a statement changes. -/
def Stmt.target : Stmt κ α β → Option String
  | .newDb x _ | .copyDb x _ | .add x _ _ | .set x _ _ | .touch x _ _ | .modify x _ _ | .rest x _ | .replace x _ _ => some x
  | .newRec _ _ | .copyRec _ _ | .modRec _ _ | .get _ _ _ => none

lemma vals_target (v : Vals κ α β) (t : Stmt κ α β) (x : String) (h : t.target ≠ some x) : (v.step t).dbs x = v.dbs x := by
  have hd : ∀ y d, y ≠ x → (v.setDb y d).dbs x = v.dbs x := fun y d hy => if_neg (Ne.symm hy)
  cases t with
  | newRec r a => rfl
  | copyRec r q => simp only [Vals.step]; cases v.recs q <;> rfl
  | modRec r f => simp only [Vals.step]; cases v.recs r <;> rfl
  | newDb y b => exact hd _ _ (fun e => h (congrArg some e))
  | copyDb y z => simp only [Vals.step]; cases v.dbs z with
    | none => rfl
    | some d => exact hd _ _ (fun e => h (congrArg some e))
  | add y k r =>
    simp only [Vals.step]
    cases v.dbs y with
    | none => rfl
    | some d => cases v.recs r with
      | none => rfl
      | some a =>
        simp only [Option.elim_some]
        cases d.recs k with
        | none => exact hd _ _ (fun e => h (congrArg some e))
        | some b => rfl
  | set y k r =>
    simp only [Vals.step]
    cases v.dbs y with
    | none => rfl
    | some d => cases v.recs r with
      | none => rfl
      | some a => exact hd _ _ (fun e => h (congrArg some e))
  | get r y k =>
    simp only [Vals.step]
    cases v.dbs y with
    | none => rfl
    | some d =>
      simp only [Option.elim_some]
      cases d.recs k <;> rfl
  | touch y k a =>
    simp only [Vals.step]
    cases v.dbs y with
    | none => rfl
    | some d =>
      simp only [Option.elim_some]
      cases d.recs k with
      | none => exact hd _ _ (fun e => h (congrArg some e))
      | some b => rfl
  | modify y k f =>
    simp only [Vals.step]
    cases v.dbs y with
    | none => rfl
    | some d =>
      simp only [Option.elim_some]
      cases d.recs k with
      | none => rfl
      | some b => exact hd _ _ (fun e => h (congrArg some e))
  | rest y g =>
    simp only [Vals.step]
    cases v.dbs y with
    | none => rfl
    | some d => exact hd _ _ (fun e => h (congrArg some e))
  | replace y p z =>
    simp only [Vals.step]
    cases v.dbs y with
    | none => rfl
    | some d => cases v.dbs z with
      | none => rfl
      | some e => exact hd _ _ (fun e => h (congrArg some e))

/-- **C51.** Whatever a program did before, a copy `y` of the database `x` has what `x` has; and afterwards, however operations on both are
interleaved, those that do not name a database do not change what it has: the one keeps what it had when operations are on the other. -/
theorem C51_copies (before after : List (Stmt κ α β)) (x y : String) (hx : (((St.init : St κ α β).run before).view.dbs x).isSome) :
    ((St.init : St κ α β).run (before ++ [.copyDb y x])).view.dbs y = ((St.init : St κ α β).run before).view.dbs x ∧
    ∀ z, (∀ t ∈ after, t.target ≠ some z) →
      ((St.init : St κ α β).run (before ++ [.copyDb y x] ++ after)).view.dbs z = ((St.init : St κ α β).run (before ++ [.copyDb y x])).view.dbs z := by
  constructor
  · rw [C51_values, C51_values, List.foldl_append]
    rw [C51_values] at hx
    generalize before.foldl Vals.step _ = v at hx
    show ((v.dbs x).elim v fun d => v.setDb y d).dbs y = _
    cases hd : v.dbs x with
    | none => rw [hd] at hx; cases hx
    | some d => exact if_pos rfl
  · intro z hz
    rw [C51_values, C51_values, List.foldl_append]
    generalize (before ++ [Stmt.copyDb y x]).foldl Vals.step _ = v
    induction after generalizing v with
    | nil => rfl
    | cons t l ih =>
      rw [List.foldl_cons, ih (fun u hu => hz u (List.mem_cons_of_mem _ hu))]
      exact vals_target v t z (hz t List.mem_cons_self)

/-- A database with a record, copied; the record is then changed through a reference to the copy. -/
example : ∃ (before after : List (Stmt String ℕ ℕ)), (((St.init : St String ℕ ℕ).run before).view.dbs "x").isSome ∧ (∀ t ∈ after, t.target ≠ some "x") ∧
    ((((St.init : St String ℕ ℕ).run (before ++ [.copyDb "y" "x"] ++ after)).view.dbs "y").bind fun d => d.recs "H2O") = some 7 ∧
    ((((St.init : St String ℕ ℕ).run (before ++ [.copyDb "y" "x"] ++ after)).view.dbs "x").bind fun d => d.recs "H2O") = some 5 := by
  refine ⟨[.newDb "x" 0, .newRec "r" 5, .set "x" "H2O" "r"], [.modify "y" "H2O" fun _ => 7], rfl, ?_, rfl, rfl⟩
  intro t ht
  simp only [List.mem_cons, List.not_mem_nil, or_false] at ht
  subst ht
  simp [Stmt.target]

end ThermoFun.Copies

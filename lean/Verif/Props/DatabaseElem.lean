import Verif.Props.Database
import Verif.Lemmas.Json

/-!
# The element table (C53) and the comparisons of elements and substances (C54)
-/

namespace ThermoFun.Js

/-! ### C53 -/

/-- Formulas use the database's own elements: looking up the key of an element that is in the database gives that element's data, the valence
filled in. -/
def UsesOwn (dv : String → Int) (d : DbS) : Prop :=
  ∀ k e, find k d.elems = some e → ∃ x, d.elementOf ⟨e.symbol, e.cls, e.isotope⟩ = .ok x ∧ x.symbol = e.symbol ∧ x.cls = e.cls ∧
    x.isotope = e.isotope ∧ x.molarMass = e.molarMass ∧ x.entropy = e.entropy ∧ x.heatCapacity = e.heatCapacity ∧ x.volume = e.volume ∧
    x.number = e.number ∧ x.valence = if e.valence = 777 then dv e.symbol else e.valence

/-- Elements are stored under their own symbols. -/
def Keyed (m : SMap Elem) : Prop := ∀ k e, find k m = some e → e.symbol = k

/-- The data of the table are those of the element. -/
def Same (dv : String → Int) (v : EVal) (e : Elem) : Prop :=
  v.mass = e.molarMass ∧ v.entropy = e.entropy ∧ v.heatCapacity = e.heatCapacity ∧ v.volume = e.volume ∧ v.number = e.number ∧
    v.valence = if e.valence = 777 then dv e.symbol else e.valence

/-- The table has the data of the elements. -/
def InTable (dv : String → Int) (m : SMap Elem) (t : Table) : Prop := ∀ k e, find k m = some e → ∃ v, t e.key = some v ∧ Same dv v e

lemma same_vals (dv : String → Int) (e : Elem) : Same dv (e.vals dv) e := by
  refine ⟨rfl, rfl, rfl, rfl, rfl, ?_⟩
  show (e.filled dv).valence = _
  unfold Elem.filled; split <;> rfl

lemma same_vals_filled (dv : String → Int) (e : Elem) : Same dv (e.vals dv) (e.filled dv) := by
  have : e.filled dv = { e with valence := (e.filled dv).valence } := by unfold Elem.filled; split <;> rfl
  rw [this]
  refine ⟨rfl, rfl, rfl, rfl, rfl, ?_⟩
  show (e.filled dv).valence = if (e.filled dv).valence = 777 then dv e.symbol else (e.filled dv).valence
  unfold Elem.filled
  by_cases h : e.valence = 777 <;> simp [h]

lemma usesOwn_iff {dv : String → Int} {d : DbS} : UsesOwn dv d ↔ InTable dv d.elems d.all := by
  constructor
  · intro h k e he
    obtain ⟨x, h0, -, -, -, h4, h5, h6, h7, h8, h9⟩ := h k e he
    unfold DbS.elementOf at h0
    cases ha : d.all ⟨e.symbol, e.cls, e.isotope⟩ with
    | none => rw [ha] at h0; cases h0
    | some v =>
      rw [ha] at h0
      injection h0 with h0
      subst h0
      exact ⟨v, ha, h4, h5, h6, h7, h8, h9⟩
  · intro h k e he
    obtain ⟨v, h1, h2, h3, h4, h5, h6, h7⟩ := h k e he
    refine ⟨Elem.ofKey e.key v, ?_, rfl, rfl, rfl, h2, h3, h4, h5, h6, h7⟩
    unfold DbS.elementOf
    have h1 : d.all ⟨e.symbol, e.cls, e.isotope⟩ = some v := h1
    rw [h1]; rfl

lemma fold_table_other (dv : String → Int) (m : SMap Elem) (t : Table) (x : EKey) (h : ∀ p ∈ m, p.2.symbol ≠ x.symbol) :
    (m.foldl (fun t p => t.add p.2.key (p.2.vals dv)) t) x = t x := by
  induction m generalizing t with
  | nil => rfl
  | cons p m ih =>
    rw [List.foldl_cons, ih _ fun q hq => h q (by simp [hq])]
    have : x ≠ p.2.key := fun e => h p (by simp) (by rw [e]; rfl)
    simp [Table.add, this]

lemma inTable_fold (dv : String → Int) {m : SMap Elem} (ho : Ordered m) (hk : Keyed m) (t : Table) :
    InTable dv m (m.foldl (fun t p => t.add p.2.key (p.2.vals dv)) t) := by
  induction m generalizing t with
  | nil => intro k e h; simp [find] at h
  | cons p m ih =>
    obtain ⟨a, x⟩ := p
    obtain ⟨h1, h2⟩ := ordered_cons.1 ho
    have hx : x.symbol = a := hk a x (by simp [find])
    have hk' : Keyed m := fun k e he => hk k e (by
      have : a ≠ k := fun h => by subst h; rw [find_none_of_lt h1] at he; cases he
      rw [find, if_neg this, he])
    intro k e he
    rw [find] at he
    rw [List.foldl_cons]
    by_cases c : a = k
    · rw [if_pos c] at he
      injection he with he
      subst he
      rw [fold_table_other]
      · exact ⟨_, by simp [Table.add], same_vals dv _⟩
      · intro q hq
        show q.2.symbol ≠ x.symbol
        have hq' := h1 q hq
        have : find q.1 m = some q.2 := find_of_mem h2 hq
        rw [hk' _ _ this, hx]
        exact ne_of_gt hq'
    · rw [if_neg c] at he
      exact ih h2 hk' _ k e he

lemma keyed_assign {m : SMap Elem} (h : Keyed m) (e : Elem) (k : String) (hk : e.symbol = k) : Keyed (SMap.assign m k e) := by
  intro s x hx
  rw [find_assign] at hx
  by_cases c : s = k
  · rw [if_pos c] at hx; injection hx with hx; rw [← hx, hk, c]
  · rw [if_neg c] at hx; exact h s x hx

lemma keyed_insert {m : SMap Elem} (ho : Ordered m) (h : Keyed m) (e : Elem) : Keyed (SMap.insert m e.symbol e) := by
  intro s x hx
  rw [find_insert ho] at hx
  by_cases c : s = e.symbol
  · rw [if_pos c] at hx
    cases hf : find e.symbol m with
    | none => rw [hf] at hx; injection hx with hx; rw [← hx, c]; rfl
    | some y => rw [hf] at hx; injection hx with hx; rw [← hx, c]; exact h _ _ hf
  · rw [if_neg c] at hx; exact h s x hx

/-- The state of a database as its own operations leave it: elements in order, under their own symbols. -/
structure Good (d : DbS) : Prop where
  ordered : Ordered d.elems
  keyed : Keyed d.elems

lemma good_setDB (dv : String → Int) {d : DbS} (h : Good d) (k : String) : Good (d.setDBElement dv k) := by
  unfold DbS.setDBElement
  cases hf : find k d.elems with
  | none => exact h
  | some e =>
    refine ⟨ordered_assign h.ordered, keyed_assign h.keyed _ _ ?_⟩
    have : (e.filled dv).symbol = e.symbol := by unfold Elem.filled; split <;> rfl
    rw [this]; exact h.keyed _ _ hf

lemma inTable_setDB (dv : String → Int) {d : DbS} (h : Good d) (k : String) (ht : ∀ s e, s ≠ k → find s d.elems = some e → ∃ v, d.all e.key = some v ∧ Same dv v e) :
    InTable dv (d.setDBElement dv k).elems (d.setDBElement dv k).all := by
  unfold DbS.setDBElement
  cases hf : find k d.elems with
  | none =>
    intro s e he
    exact ht s e (fun c => by subst c; simp only at he; rw [hf] at he; cases he) he
  | some e =>
    intro s x hx
    simp only at hx ⊢
    rw [find_assign] at hx
    by_cases c : s = k
    · rw [if_pos c] at hx
      injection hx with hx
      have hkey : (e.filled dv).key = e.key := by unfold Elem.filled; split <;> rfl
      rw [← hx, hkey]
      exact ⟨_, by simp [Table.add], same_vals_filled dv e⟩
    · rw [if_neg c] at hx
      have h1 := h.keyed _ _ hf
      have h2 := h.keyed _ _ hx
      have : x.key ≠ e.key := fun q => c (by have := congrArg EKey.symbol q; change x.symbol = e.symbol at this; rw [← h1, ← h2, this])
      simp only [Table.add, if_neg this]
      exact ht s x c hx

lemma elems_put (l : List Record) (d : DbS) (h : Good d) : Good (l.foldl DbS.put d) := by
  induction l generalizing d with
  | nil => exact h
  | cons r l ih =>
    refine ih _ ?_
    cases r with
    | sub s => exact ⟨h.ordered, h.keyed⟩
    | rea s => exact ⟨h.ordered, h.keyed⟩
    | elem e => exact ⟨ordered_assign h.ordered, keyed_assign h.keyed e _ rfl⟩

lemma good_fromFile {d : DbS} (h : Good d) (j : Json) : Good (d.fromFile j).1 := by
  rw [fromFile_eq]
  exact elems_put _ _ ⟨h.ordered, h.keyed⟩

lemma good_empty (t : Table) : Good { all := t } := ⟨ordered_nil, fun k e h => by simp [find] at h⟩

/-- **C53 (part).** Formulas use the database's own element records: after construction from a file, after adding or setting an element,
after replacing all elements, and after appending records without an exception when the number of elements changed or no element was read.
In each case elements stay in order and under their own symbols, so the statements apply again.

Missing from the full statement: appending records that overwrite elements (`C53_overwrite_refuted`) or that fail midway
(`C53_exception_refuted`). -/
theorem C53_own_elements_partial (dv : String → Int) :
    (∀ table j d, DbS.ofFile dv table j = .ok d → Good d ∧ UsesOwn dv d) ∧
    (∀ d e, Good d → UsesOwn dv d → Good (d.addElement dv e) ∧ Good (d.setElement dv e) ∧ UsesOwn dv (d.addElement dv e) ∧ UsesOwn dv (d.setElement dv e)) ∧
    (∀ (d : DbS) m, Ordered m → Keyed m → Good (d.addMapElements dv m) ∧ UsesOwn dv (d.addMapElements dv m)) ∧
    (∀ d j d', Good d → d.appendData dv j = (d', none) → d.elems.length ≠ d'.elems.length → Good d' ∧ UsesOwn dv d') ∧
    (∀ d j d', Good d → UsesOwn dv d → d.appendData dv j = (d', none) → (∀ r ∈ recordsOf j, ∀ e, readRecord r ≠ .ok (.elem e)) → Good d' ∧ UsesOwn dv d') := by
  refine ⟨fun table j d h => ?_, fun d e hg ht => ?_, fun d m ho hk => ?_, fun d j d' hg h hl => ?_, fun d j d' hg hu h hr => ?_⟩
  · unfold DbS.ofFile at h
    have g := good_fromFile (good_empty table) j
    split at h
    · rename_i d0 heq
      rw [heq] at g
      injection h with h
      subst h
      exact ⟨⟨g.ordered, g.keyed⟩, usesOwn_iff.2 (inTable_fold dv g.ordered g.keyed _)⟩
    · cases h
  · have g1 : Good { d with elems := SMap.insert d.elems e.symbol e } := ⟨ordered_insert hg.ordered, keyed_insert hg.ordered hg.keyed e⟩
    have g2 : Good { d with elems := SMap.assign d.elems e.symbol e } := ⟨ordered_assign hg.ordered, keyed_assign hg.keyed e _ rfl⟩
    refine ⟨good_setDB dv g1 _, good_setDB dv g2 _, usesOwn_iff.2 (inTable_setDB dv g1 _ ?_), usesOwn_iff.2 (inTable_setDB dv g2 _ ?_)⟩
    · intro s x hs hx
      simp only at hx
      rw [find_insert hg.ordered, if_neg hs] at hx
      exact usesOwn_iff.1 ht s x hx
    · intro s x hs hx
      simp only at hx
      rw [find_assign, if_neg hs] at hx
      exact usesOwn_iff.1 ht s x hx
  · exact ⟨⟨ho, hk⟩, usesOwn_iff.2 (inTable_fold dv ho hk _)⟩
  · unfold DbS.appendData at h
    have g := good_fromFile hg j
    cases he : (d.fromFile j).2 with
    | some e => simp [he] at h
    | none =>
      simp only [he] at h
      by_cases c : d.elems.length ≠ (d.fromFile j).1.elems.length
      · rw [if_pos c] at h
        injection h with h _
        subst h
        exact ⟨⟨g.ordered, g.keyed⟩, usesOwn_iff.2 (inTable_fold dv g.ordered g.keyed _)⟩
      · rw [if_neg c] at h
        injection h with h _
        subst h
        exact absurd hl c
  · have key : ∀ l : List (Json × String), (∀ r ∈ l, ∀ e, readRecord r ≠ .ok (.elem e)) → ∀ d : DbS, ((readAll l).1.foldl DbS.put d).elems = d.elems := by
      intro l
      induction l with
      | nil => intro _ d; rfl
      | cons r l ih =>
        intro hr d
        unfold readAll
        cases hx : readRecord r with
        | error e => rfl
        | ok x =>
          simp only [List.foldl_cons]
          rw [ih fun r h => hr r (by simp [h])]
          cases x with
          | sub s => rfl
          | rea s => rfl
          | elem e => exact absurd hx (hr r (by simp) e)
    have h1 : (d.fromFile j).1.elems = d.elems := by rw [fromFile_eq]; exact key _ hr _
    have h2 : (d.fromFile j).1.all = d.all := by rw [fromFile_eq]; exact (put_rest _ _).1
    have g := good_fromFile hg j
    unfold DbS.appendData at h
    cases he : (d.fromFile j).2 with
    | some e => simp [he] at h
    | none =>
      simp only [he, h1, ne_eq, not_true_eq_false, if_false] at h
      injection h with h _
      subst h
      refine ⟨g, fun k e hk => ?_⟩
      rw [h1] at hk
      obtain ⟨x, hx, rest⟩ := hu k e hk
      refine ⟨x, ?_, rest⟩
      unfold DbS.elementOf at hx ⊢
      rw [h2]; exact hx

lemma gmol (x : ℝ) : convert x "g/mol" "g/mol" = .ok x := convert_readable (by decide +kernel) x
lemma jmolK (x : ℝ) : convert x "J/(mol*K)" "J/(mol*K)" = .ok x := convert_readable (by decide +kernel) x
lemma jbar (x : ℝ) : convert x "J/bar" "J/bar" = .ok x := convert_readable (by decide +kernel) x

/-- A file with the element `Na` of atomic mass `q`. -/
def massFile (q : ℚ) : Json := .obj [("elements", .arr [.obj [("symbol", .str "Na"), ("atomic_mass", .obj [("values", .arr [.num q])])]])]

/-- The element of the file. -/
noncomputable def sodium (q : ℚ) : Elem :=
  { symbol := "Na", entropy := none, heatCapacity := none, molarMass := some (q : ℝ), volume := some (q : ℝ) }

lemma parse_mass (q : ℚ) : parseElement (inner (.obj [("symbol", .str "Na"), ("atomic_mass", .obj [("values", .arr [.num q])])])) = .ok (sodium q) := by
  have h : readValueUnit (.obj [("symbol", .str "Na"), ("atomic_mass", .obj [("values", .arr [.num q])])]) "atomic_mass" "g/mol" = .ok (some (q : ℝ)) := by
    show (do
      let y ← convert ((q : ℝ) * ((1 : ℚ) : ℝ)) "g/mol" "g/mol"
      Except.ok (some y) : J (Option ℝ)) = _
    rw [Rat.cast_one, mul_one, gmol]; rfl
  unfold parseElement
  have : exec (elementSteps (inner (inner (.obj [("symbol", .str "Na"), ("atomic_mass", .obj [("values", .arr [.num q])])])))) {} = ({ e := sodium q, val := some (q : ℝ) }, none) := by
    show exec (elementSteps (.obj [("symbol", .str "Na"), ("atomic_mass", .obj [("values", .arr [.num q])])])) {} = _
    have h5 : ∀ w : ElemW, valStep (.obj [("symbol", .str "Na"), ("atomic_mass", .obj [("values", .arr [.num q])])]) "atomic_mass" "g/mol"
        (fun e x => { e with molarMass := x }) w = .ok { e := { w.e with molarMass := some (q : ℝ) }, val := some (q : ℝ) } := by
      intro w; unfold valStep; rw [h]; rfl
    unfold elementSteps
    refine Eq.trans (exec_ok (by rfl)) (Eq.trans (exec_ok (by rfl)) (Eq.trans (exec_ok (by rfl)) (Eq.trans (exec_ok (by rfl)) (Eq.trans (exec_ok (by rfl)) ?_))))
    exact Eq.trans (exec_ok (h5 _)) rfl
  rw [this]; rfl

lemma load_mass (d : DbS) (q : ℚ) : d.fromFile (massFile q) = ({ d with elems := SMap.assign d.elems "Na" (sodium q) }, none) := by
  rw [fromFile_eq]
  have : readAll (recordsOf (massFile q)) = ([.elem (sodium q)], none) := by
    show readAll [(.obj [("symbol", .str "Na"), ("atomic_mass", .obj [("values", .arr [.num q])])], "element")] = _
    unfold readAll
    have : readRecord (.obj [("symbol", .str "Na"), ("atomic_mass", .obj [("values", .arr [.num q])])], "element") = .ok (.elem (sodium q)) := by
      show (parseElement (inner _)).map Record.elem = _
      rw [parse_mass]; rfl
    rw [this]; rfl
  rw [this]
  rfl

/-- A database constructed from a file with one element uses it. -/
example : ∃ d, DbS.ofFile (fun _ => 1) (fun _ => none) (massFile 23) = .ok d ∧ find "Na" d.elems = some (sodium 23) := by
  refine ⟨{ all := fun x => if x = (sodium 23).key then some ((sodium 23).vals fun _ => 1) else none, elems := [("Na", sodium 23)] }, ?_, ?_⟩
  · unfold DbS.ofFile
    rw [load_mass]; rfl
  · rfl

/-- **C53, violation.** Appending a file that overwrites an element leaves the old data in the element table: the database has the new atomic
mass, and formulas are calculated with the old one. -/
theorem C53_overwrite_refuted : ∃ (dv : String → Int) (d : DbS) (j : Json), Good d ∧ UsesOwn dv d ∧
    (d.appendData dv j).2 = none ∧ ¬ UsesOwn dv (d.appendData dv j).1 ∧
    (find "Na" (d.appendData dv j).1.elems).map Elem.molarMass = some (some 23) ∧
    ∃ x, (d.appendData dv j).1.elementOf ⟨"Na", 0, 0⟩ = .ok x ∧ x.molarMass = some 22 := by
  let d0 : DbS := { all := fun x => if x = (sodium 22).key then some ((sodium 22).vals fun _ => 1) else none, elems := [("Na", sodium 22)] }
  have hd : DbS.ofFile (fun _ => 1) (fun _ => none) (massFile 22) = .ok d0 := by
    unfold DbS.ofFile
    rw [load_mass]; rfl
  obtain ⟨g, u⟩ := (C53_own_elements_partial fun _ => 1).1 _ _ _ hd
  have ha : d0.appendData (fun _ => 1) (massFile 23) = ({ d0 with elems := [("Na", sodium 23)] }, none) := by
    unfold DbS.appendData
    rw [load_mass]; rfl
  refine ⟨fun _ => 1, d0, massFile 23, g, u, by rw [ha], ?_, ?_, ?_⟩
  · rw [ha]
    intro h
    obtain ⟨v, h1, h2, -⟩ := usesOwn_iff.1 h "Na" (sodium 23) rfl
    have h3 : d0.all (sodium 23).key = some ((sodium 22).vals fun _ => 1) := rfl
    have h1 : d0.all (sodium 23).key = some v := h1
    rw [h3] at h1
    injection h1 with h1
    rw [← h1] at h2
    have h2 : some ((22 : ℚ) : ℝ) = some ((23 : ℚ) : ℝ) := h2
    norm_num at h2
  · rw [ha]
    show some (some ((23 : ℚ) : ℝ)) = _
    norm_num
  · rw [ha]
    refine ⟨Elem.ofKey (sodium 22).key ((sodium 22).vals fun _ => 1), rfl, ?_⟩
    show some ((22 : ℚ) : ℝ) = _
    norm_num

/-- A file with a new element and a substance record of unknown label. -/
def brokenFile : Json := .obj [("elements", .arr [.obj [("symbol", .str "Q")]]), ("substances", .arr [.obj [("_label", .str "mineral")]])]

/-- **C53, violation.** When appending fails midway, the elements read before are in the database but not in the element table; formulas with
them raise. -/
theorem C53_exception_refuted : ∃ (dv : String → Int) (d : DbS) (j : Json), Good d ∧ UsesOwn dv d ∧
    (d.appendData dv j).2 = some .other ∧ SMap.keys (d.appendData dv j).1.elems = ["Q"] ∧
    (d.appendData dv j).1.elementOf ⟨"Q", 0, 0⟩ = .error .other :=
  ⟨fun _ => 1, { all := fun _ => none }, brokenFile, good_empty _, fun k e h => by simp [find] at h, rfl, rfl, rfl⟩

/-- **C53 (elements created by reference, part).** `element(symbol)` for an ordinary element of the table keeps it so that formulas use the
database's own elements.

Missing from the full statement: symbols the table does not have (`C53_created_refuted`). -/
theorem C53_created_partial (dv : String → Int) (d : DbS) (k : String) (v : EVal) (h : Good d) (hu : UsesOwn dv d) (hv : d.all ⟨k, 0, 0⟩ = some v) (hz : v.valence ≠ 777) :
    Good (d.element k) ∧ UsesOwn dv (d.element k) := by
  unfold DbS.element
  by_cases hc : SMap.contains d.elems k = true
  · rw [if_pos hc]; exact ⟨h, hu⟩
  · rw [if_neg hc, hv]
    refine ⟨⟨ordered_assign h.ordered, keyed_assign h.keyed _ _ rfl⟩, usesOwn_iff.2 ?_⟩
    intro s e he
    change find s (SMap.assign d.elems k (Elem.ofKey ⟨k, 0, 0⟩ v)) = some e at he
    rw [find_assign] at he
    by_cases hs : s = k
    · rw [if_pos hs] at he
      injection he with he
      subst he
      refine ⟨v, hv, rfl, rfl, rfl, rfl, rfl, ?_⟩
      show v.valence = if v.valence = 777 then _ else v.valence
      rw [if_neg hz]
    · rw [if_neg hs] at he
      exact usesOwn_iff.1 hu s e he

/-- A database with an empty list of elements, and sodium in the table. -/
example : ∃ (d : DbS) (v : EVal), Good d ∧ UsesOwn (fun _ => 1) d ∧ d.all ⟨"Na", 0, 0⟩ = some v ∧ v.valence ≠ 777 :=
  ⟨{ all := fun _ => some ⟨some 22.99, some 51, some 28, none, 1, 11, "Na"⟩ }, _, good_empty _, fun k e h => by simp [find] at h, rfl, by decide⟩

/-- **C53, violation.** An element created by `element(symbol)` that the table does not have is in the database, but formulas cannot use
it: its key is not found. -/
theorem C53_created_refuted : ∃ (dv : String → Int) (d : DbS) (k : String), Good d ∧ UsesOwn dv d ∧
    (∃ e, find k (d.element k).elems = some e ∧ (d.element k).elementOf ⟨e.symbol, e.cls, e.isotope⟩ = .error .other) ∧ ¬ UsesOwn dv (d.element k) := by
  have key : ∃ e, find "Nit" (({ all := fun _ => none } : DbS).element "Nit").elems = some e ∧
      (({ all := fun _ => none } : DbS).element "Nit").elementOf ⟨e.symbol, e.cls, e.isotope⟩ = .error .other := ⟨_, rfl, rfl⟩
  refine ⟨fun _ => 1, { all := fun _ => none }, "Nit", good_empty _, fun k e h => by simp [find] at h, key, fun hu => ?_⟩
  obtain ⟨e, h1, h2⟩ := key
  obtain ⟨x, h3, -⟩ := hu _ e h1
  rw [h2] at h3
  cases h3

/-! ### C54 -/

/-- Specification: a strict weak ordering, as required of the comparison of a `std::map`. -/
structure StrictWeak {α : Type} (S : α → Prop) (lt : α → α → Bool) : Prop where
  irrefl : ∀ a, S a → lt a a = false
  trans : ∀ a b c, S a → S b → S c → lt a b = true → lt b c = true → lt a c = true
  incomp : ∀ a b c, S a → S b → S c → lt a b = false → lt b a = false → lt b c = false → lt c b = false → lt a c = false ∧ lt c a = false

lemma Sub.lt_iff (a b : Sub) : Sub.lt a b = true ↔ a.symbol < b.symbol ∨ a.symbol = b.symbol ∧ a.name < b.name := by
  unfold Sub.lt
  by_cases h : a.symbol < b.symbol
  · simp [h]
  · by_cases h2 : a.symbol = b.symbol <;> simp [h, h2]

lemma Sub.eq_iff (a b : Sub) : Sub.eq a b = true ↔ a.symbol = b.symbol ∧ a.name = b.name := by simp [Sub.eq]

lemma Sub.incomp_iff (a b : Sub) : (Sub.lt a b = false ∧ Sub.lt b a = false) ↔ Sub.eq a b = true := by
  rw [Sub.eq_iff]
  simp only [← Bool.not_eq_true, Sub.lt_iff]
  constructor
  · rintro ⟨h1, h2⟩
    push_neg at h1 h2
    have hs : a.symbol = b.symbol := le_antisymm h2.1 h1.1
    exact ⟨hs, le_antisymm (h2.2 hs.symm) (h1.2 hs)⟩
  · rintro ⟨h1, h2⟩
    simp [h1, h2]

/-- **C54 (substances).** The comparison of substances is a strict weak ordering, and substances that are not ordered either way are those
that are equal. -/
theorem C54_substances : StrictWeak (fun _ => True) Sub.lt ∧ ∀ a b : Sub, (Sub.lt a b = false ∧ Sub.lt b a = false) ↔ Sub.eq a b = true := by
  refine ⟨⟨fun a _ => ?_, fun a b c _ _ _ h1 h2 => ?_, fun a b c _ _ _ h1 h2 h3 h4 => ?_⟩, Sub.incomp_iff⟩
  · exact ((Sub.incomp_iff a a).2 (by simp [Sub.eq])).1
  · rw [Sub.lt_iff] at *
    rcases h1 with h1 | ⟨h1, h1'⟩ <;> rcases h2 with h2 | ⟨h2, h2'⟩
    · exact .inl (lt_trans h1 h2)
    · exact .inl (h2 ▸ h1)
    · exact .inl (h1 ▸ h2)
    · exact .inr ⟨h1.trans h2, lt_trans h1' h2'⟩
  · have e1 := (Sub.eq_iff _ _).1 ((Sub.incomp_iff _ _).1 ⟨h1, h2⟩)
    have e2 := (Sub.eq_iff _ _).1 ((Sub.incomp_iff _ _).1 ⟨h3, h4⟩)
    exact (Sub.incomp_iff _ _).2 ((Sub.eq_iff _ _).2 ⟨e1.1.trans e2.1, e1.2.trans e2.2⟩)

example : Sub.lt { symbol := "A", name := "b" } { symbol := "A", name := "c" } = true ∧ Sub.lt { symbol := "B", name := "a" } { symbol := "A", name := "c" } = false := by
  constructor
  · rw [Sub.lt_iff]; right; exact ⟨rfl, by show "b" < "c"; decide⟩
  · rw [← Bool.not_eq_true, Sub.lt_iff]; show ¬ ("B" < "A" ∨ "B" = "A" ∧ "a" < "c"); decide

/-- **C54, violation.** Of two isotopes with different valences each is less than the other: the comparison of elements is not an ordering. -/
theorem C54_elements_refuted : ∃ a b : Elem, a.symbol = b.symbol ∧ a.name = b.name ∧ a.cls = b.cls ∧ Elem.lt a b = true ∧ Elem.lt b a = true :=
  ⟨{ symbol := "U", isotope := 235, valence := 6 }, { symbol := "U", isotope := 238, valence := 4 }, rfl, rfl, rfl,
    by simp [Elem.lt], by simp [Elem.lt]⟩

/-- **C54, violation.** Two elements are equal although one is less than the other. -/
theorem C54_equality_refuted : ∃ a b : Elem, Elem.eq a b = true ∧ Elem.lt a b = true :=
  ⟨{ symbol := "Fe", valence := 2 }, { symbol := "Fe", valence := 3 }, by simp [Elem.eq], by simp [Elem.lt]⟩

/-- Elements among which the valence is a function of symbol, name and class, as when all valences are the default ones of the symbols. -/
def OneValence (S : Elem → Prop) : Prop := ∀ a b, S a → S b → a.symbol = b.symbol → a.name = b.name → a.cls = b.cls → a.valence = b.valence

lemma Elem.lt_iff {a b : Elem} (h : a.symbol = b.symbol → a.name = b.name → a.cls = b.cls → a.valence = b.valence) :
    Elem.lt a b = true ↔ a.symbol < b.symbol ∨ a.symbol = b.symbol ∧ (a.name < b.name ∨ a.name = b.name ∧
      (a.cls < b.cls ∨ a.cls = b.cls ∧ a.isotope < b.isotope)) := by
  unfold Elem.lt
  by_cases h1 : a.symbol < b.symbol
  · simp [h1]
  · by_cases h2 : a.symbol = b.symbol
    · by_cases h3 : a.name < b.name
      · simp [h1, h2, h3]
      · by_cases h4 : a.name = b.name
        · by_cases h5 : a.cls < b.cls
          · simp [h2, h4, h5]
          · by_cases h6 : a.cls = b.cls
            · by_cases h7 : a.isotope < b.isotope <;> simp [h2, h4, h6, h7, h h2 h4 h6]
            · simp [h2, h4, h5, h6]
        · simp [h2, h3, h4]
    · simp [h1, h2]

lemma Elem.eq_iff (a b : Elem) : Elem.eq a b = true ↔ a.symbol = b.symbol ∧ a.name = b.name ∧ a.cls = b.cls ∧ a.isotope = b.isotope := by
  simp [Elem.eq, and_assoc]

lemma Elem.incomp_iff {S : Elem → Prop} (hS : OneValence S) {a b : Elem} (ha : S a) (hb : S b) :
    (Elem.lt a b = false ∧ Elem.lt b a = false) ↔ Elem.eq a b = true := by
  rw [Elem.eq_iff]
  simp only [← Bool.not_eq_true, Elem.lt_iff (hS a b ha hb), Elem.lt_iff (hS b a hb ha)]
  constructor
  · rintro ⟨h1, h2⟩
    push_neg at h1 h2
    have hs : a.symbol = b.symbol := le_antisymm h2.1 h1.1
    have h1' := h1.2 hs; have h2' := h2.2 hs.symm
    have hn : a.name = b.name := le_antisymm h2'.1 h1'.1
    have h1' := h1'.2 hn; have h2' := h2'.2 hn.symm
    have hc : a.cls = b.cls := le_antisymm h2'.1 h1'.1
    exact ⟨hs, hn, hc, le_antisymm (h2'.2 hc.symm) (h1'.2 hc)⟩
  · rintro ⟨h1, h2, h3, h4⟩
    simp [h1, h2, h3, h4]

/-- **C54 (elements, part).** Among elements whose valence is determined by symbol, name and class, the comparison is a strict weak ordering,
and elements that are not ordered either way are those that are equal.

Missing from the full statement: elements that differ in valence (`C54_elements_refuted`, `C54_equality_refuted`). -/
theorem C54_elements_partial (S : Elem → Prop) (hS : OneValence S) :
    StrictWeak S Elem.lt ∧ ∀ a b : Elem, S a → S b → ((Elem.lt a b = false ∧ Elem.lt b a = false) ↔ Elem.eq a b = true) := by
  refine ⟨⟨fun a h => ?_, fun a b c ha hb hc h1 h2 => ?_, fun a b c ha hb hc h1 h2 h3 h4 => ?_⟩, fun a b ha hb => Elem.incomp_iff hS ha hb⟩
  · exact ((Elem.incomp_iff hS h h).2 (by simp [Elem.eq])).1
  · rw [Elem.lt_iff (hS _ _ ha hb)] at h1
    rw [Elem.lt_iff (hS _ _ hb hc)] at h2
    rw [Elem.lt_iff (hS _ _ ha hc)]
    rcases h1 with h1 | ⟨h1, h1'⟩
    · rcases h2 with h2 | ⟨h2, -⟩
      · exact .inl (lt_trans h1 h2)
      · exact .inl (h2 ▸ h1)
    · rcases h2 with h2 | ⟨h2, h2'⟩
      · exact .inl (h1 ▸ h2)
      · refine .inr ⟨h1.trans h2, ?_⟩
        rcases h1' with h1 | ⟨h1, h1'⟩
        · rcases h2' with h2 | ⟨h2, -⟩
          · exact .inl (lt_trans h1 h2)
          · exact .inl (h2 ▸ h1)
        · rcases h2' with h2 | ⟨h2, h2'⟩
          · exact .inl (h1 ▸ h2)
          · refine .inr ⟨h1.trans h2, ?_⟩
            rcases h1' with h1 | ⟨h1, h1'⟩ <;> rcases h2' with h2 | ⟨h2, h2'⟩
            · exact .inl (lt_trans h1 h2)
            · exact .inl (h2 ▸ h1)
            · exact .inl (h1 ▸ h2)
            · exact .inr ⟨h1.trans h2, lt_trans h1' h2'⟩
  · have e1 := (Elem.eq_iff _ _).1 ((Elem.incomp_iff hS ha hb).1 ⟨h1, h2⟩)
    have e2 := (Elem.eq_iff _ _).1 ((Elem.incomp_iff hS hb hc).1 ⟨h3, h4⟩)
    exact (Elem.incomp_iff hS ha hc).2 ((Elem.eq_iff _ _).2 ⟨e1.1.trans e2.1, e1.2.1.trans e2.2.1, e1.2.2.1.trans e2.2.2.1, e1.2.2.2.trans e2.2.2.2⟩)

example : OneValence (fun e => e.valence = 4) := fun _ _ ha hb _ _ _ => ha.trans hb.symm

/-- Specification: the coefficient of an element in a formula, the last one given. -/
def coefOf (e : Elem) : List (Elem × ℝ) → Option ℝ
  | [] => none
  | p :: l => (coefOf e l).or (if Elem.eq p.1 e then some p.2 else none)

/-- Coefficient of an element in the map of a formula. -/
def lookupE (e : Elem) (m : List (Elem × ℝ)) : Option ℝ := (m.find? fun p => Elem.eq p.1 e).map Prod.snd

lemma Elem.eq_comm (a b : Elem) : Elem.eq a b = Elem.eq b a := by
  rw [Bool.eq_iff_iff, Elem.eq_iff, Elem.eq_iff]
  constructor <;> (rintro ⟨h1, h2, h3, h4⟩; exact ⟨h1.symm, h2.symm, h3.symm, h4.symm⟩)

lemma Elem.eq_trans' {a b c : Elem} (h : Elem.eq a b = true) : Elem.eq a c = Elem.eq b c := by
  rw [Bool.eq_iff_iff, Elem.eq_iff, Elem.eq_iff]
  obtain ⟨h1, h2, h3, h4⟩ := (Elem.eq_iff _ _).1 h
  rw [h1, h2, h3, h4]

lemma lookup_assign {S : Elem → Prop} (hS : OneValence S) {m : List (Elem × ℝ)} (hm : ∀ p ∈ m, S p.1) {e : Elem} (he : S e) (x : ℝ) (s : Elem) :
    lookupE s (coefAssign m e x) = if Elem.eq e s then some x else lookupE s m := by
  induction m with
  | nil => by_cases h : Elem.eq e s = true <;> simp [coefAssign, lookupE, h]
  | cons p t ih =>
    obtain ⟨a, y⟩ := p
    have ha : S a := hm (a, y) (by simp)
    have ih := ih fun p hp => hm p (by simp [hp])
    rw [coefAssign]
    by_cases c1 : a.lt e = true
    · rw [if_pos c1]
      have hne : Elem.eq a e ≠ true := fun h => by
        have := ((Elem.incomp_iff hS ha he).2 h).1
        rw [this] at c1; cases c1
      unfold lookupE at *
      rw [List.find?_cons, List.find?_cons]
      by_cases c2 : Elem.eq a s = true
      · have : Elem.eq e s ≠ true := fun h => hne (by rw [Elem.eq_trans' c2, Elem.eq_comm]; exact h)
        simp [c2, this]
      · simp only [Bool.not_eq_true] at c2
        simp only [c2]
        exact ih
    · rw [if_neg c1]
      by_cases c3 : e.lt a = true
      · rw [if_pos c3]
        unfold lookupE
        rw [List.find?_cons]
        by_cases c2 : Elem.eq e s = true
        · simp [c2]
        · simp [c2]
      · rw [if_neg c3]
        have heq : Elem.eq a e = true := (Elem.incomp_iff hS ha he).1 ⟨by simpa using c1, by simpa using c3⟩
        unfold lookupE
        rw [List.find?_cons, List.find?_cons]
        rw [← Elem.eq_trans' heq]
        by_cases c2 : Elem.eq a s = true <;> simp [c2]

lemma mem_coefAssign {m : List (Elem × ℝ)} {e : Elem} {x : ℝ} {p : Elem × ℝ} (h : p ∈ coefAssign m e x) : p.1 = e ∨ ∃ q ∈ m, q.1 = p.1 := by
  induction m with
  | nil => simp [coefAssign] at h; left; rw [h]
  | cons q t ih =>
    obtain ⟨a, y⟩ := q
    rw [coefAssign] at h
    split at h
    · rcases List.mem_cons.1 h with h | h
      · right; exact ⟨(a, y), by simp, by rw [h]⟩
      · rcases ih h with h | ⟨q, hq, e'⟩
        · left; exact h
        · right; exact ⟨q, by simp [hq], e'⟩
    · split at h
      · rcases List.mem_cons.1 h with h | h
        · left; rw [h]
        · right; exact ⟨p, h, rfl⟩
      · rcases List.mem_cons.1 h with h | h
        · right; exact ⟨(a, y), by simp, by rw [h]⟩
        · right; exact ⟨p, by simp [h], rfl⟩

/-- The entries of the map of a formula are in the order of the comparison. -/
def OrderedE (m : List (Elem × ℝ)) : Prop := m.Pairwise fun p q => Elem.lt p.1 q.1 = true

lemma ordered_coefAssign {S : Elem → Prop} (hS : OneValence S) {m : List (Elem × ℝ)} (hm : ∀ p ∈ m, S p.1) {e : Elem} (he : S e) (x : ℝ)
    (ho : OrderedE m) : OrderedE (coefAssign m e x) := by
  have sw := (C54_elements_partial S hS).1
  induction m with
  | nil => simp [coefAssign, OrderedE]
  | cons p t ih =>
    obtain ⟨a, y⟩ := p
    have ha : S a := hm (a, y) (by simp)
    have ht : ∀ p ∈ t, S p.1 := fun p hp => hm p (by simp [hp])
    obtain ⟨h1, h2⟩ := List.pairwise_cons.1 ho
    rw [coefAssign]
    by_cases c1 : a.lt e = true
    · rw [if_pos c1]
      refine List.pairwise_cons.2 ⟨fun p hp => ?_, ih ht h2⟩
      rcases mem_coefAssign hp with h | ⟨q, hq, h⟩
      · rw [h]; exact c1
      · rw [← h]; exact h1 q hq
    · rw [if_neg c1]
      by_cases c3 : e.lt a = true
      · rw [if_pos c3]
        refine List.pairwise_cons.2 ⟨fun p hp => ?_, ho⟩
        rcases List.mem_cons.1 hp with h | h
        · rw [h]; exact c3
        · exact sw.trans _ _ _ he ha (ht p h) c3 (h1 p h)
      · rw [if_neg c3]
        exact List.pairwise_cons.2 ⟨h1, h2⟩

/-- **C54 (formulas, part).** If the elements of a formula have a valence determined by symbol, name and class, no element is lost from the map
of the formula and none collides with another: every element has the coefficient last given for it, and no two entries are equal.

Missing from the full statement: elements that differ in valence. -/
theorem C54_formula_partial (S : Elem → Prop) (hS : OneValence S) (d : DbS) (l : List (EKey × ℝ)) (es : List (Elem × ℝ))
    (hes : l.map (fun p => (d.elementOf p.1, p.2)) = es.map (fun p => (.ok p.1, p.2))) (hall : ∀ p ∈ es, S p.1) :
    ∃ m, d.formula l = .ok m ∧ (∀ s, lookupE s m = coefOf s es) ∧ m.Pairwise fun p q => Elem.eq p.1 q.1 = false := by
  have key : ∀ (l : List (EKey × ℝ)) (es : List (Elem × ℝ)) (m : List (Elem × ℝ)), l.map (fun p => (d.elementOf p.1, p.2)) = es.map (fun p => (.ok p.1, p.2)) →
      (∀ p ∈ es, S p.1) → (∀ p ∈ m, S p.1) → OrderedE m →
      ∃ m', l.foldlM (fun m p => do
        let e ← d.elementOf p.1
        Except.ok (coefAssign m e p.2)) m = (.ok m' : J _) ∧ (∀ s, lookupE s m' = (coefOf s es).or (lookupE s m)) ∧ (∀ p ∈ m', S p.1) ∧ OrderedE m' := by
    intro l
    induction l with
    | nil =>
      intro es m h1 h2 h3 h4
      cases es with
      | nil => exact ⟨m, rfl, fun s => by simp [coefOf], h3, h4⟩
      | cons p es => simp at h1
    | cons p l ih =>
      intro es m h1 h2 h3 h4
      cases es with
      | nil => simp at h1
      | cons q es =>
        simp only [List.map_cons, List.cons.injEq, Prod.mk.injEq] at h1
        obtain ⟨⟨h5, h6⟩, h7⟩ := h1
        have hq : S q.1 := h2 q (by simp)
        obtain ⟨m', e1, e2, e3, e4⟩ := ih es (coefAssign m q.1 q.2) h7 (fun p hp => h2 p (by simp [hp]))
          (fun p hp => by
            rcases mem_coefAssign hp with h | ⟨r, hr, h⟩
            · rw [h]; exact hq
            · rw [← h]; exact h3 r hr)
          (ordered_coefAssign hS h3 hq q.2 h4)
        refine ⟨m', ?_, fun s => ?_, e3, e4⟩
        · rw [List.foldlM_cons, h5, h6]
          exact e1
        · rw [e2, lookup_assign hS h3 hq, coefOf]
          cases coefOf s es with
          | some x => simp
          | none => by_cases h : Elem.eq q.1 s = true <;> simp [h]
  obtain ⟨m', e1, e2, e3, e4⟩ := key l es [] hes hall (by simp) List.Pairwise.nil
  refine ⟨m', ?_, fun s => ?_, ?_⟩
  · unfold DbS.formula
    cases l with
    | nil => simp only; rw [← e1]; rfl
    | cons p l => exact e1
  · rw [e2]; simp [lookupE]
  · have h5 : m'.Pairwise fun p q => (S p.1 ∧ S q.1) ∧ Elem.lt p.1 q.1 = true := by
      refine (List.Pairwise.and_mem.1 e4).imp ?_
      intro a b h
      exact ⟨⟨e3 a h.1, e3 b h.2.1⟩, h.2.2⟩
    refine h5.imp ?_
    rintro a b ⟨⟨ha, hb⟩, h⟩
    by_contra hc
    have := ((Elem.incomp_iff hS ha hb).2 (by simpa using hc)).1
    rw [this] at h; cases h

/-- Water: two elements. -/
example : ∃ (d : DbS) (l : List (EKey × ℝ)) (es : List (Elem × ℝ)),
    l.map (fun p => (d.elementOf p.1, p.2)) = es.map (fun p => (.ok p.1, p.2)) ∧ es.length = 2 ∧ ∀ p ∈ es, p.1.valence = 1 := by
  refine ⟨{ all := fun _ => some ⟨some 1, some 0, some 0, some 0, 1, 0, ""⟩ }, [(⟨"H", 0, 0⟩, 2), (⟨"O", 0, 0⟩, 1)],
    [(Elem.ofKey ⟨"H", 0, 0⟩ ⟨some 1, some 0, some 0, some 0, 1, 0, ""⟩, 2), (Elem.ofKey ⟨"O", 0, 0⟩ ⟨some 1, some 0, some 0, some 0, 1, 0, ""⟩, 1)], rfl, rfl, ?_⟩
  intro p hp
  simp only [List.mem_cons, List.not_mem_nil, or_false] at hp
  rcases hp with rfl | rfl <;> rfl

end ThermoFun.Js

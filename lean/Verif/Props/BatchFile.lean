import Verif.Model.BatchFile
import Verif.Props.Batch
import Verif.Props.Units
import Verif.Lemmas.Json

/-! Units and files of batch calculations: C144, C145. -/

set_option linter.unusedSimpArgs false
set_option linter.unusedVariables false

namespace ThermoFun.Batch

open Units

/-! ### Specification -/

/-- The number `y` in the unit `u` is the same quantity as the number `x` in the unit `d`, whatever consistent values the unit symbols are
given. -/
def SameQuantity (u : String) (y : ℝ) (d : String) (x : ℝ) : Prop :=
  ∃ e e' : UE, e.WF ∧ e'.WF ∧ u.toList = e.render ∧ d.toList = e'.render ∧ ∀ F, IsFactor F → y * e.value F = x * e'.value F

/-- A unit the property with default unit `d` can be written in: a well-formed expression of the same dimension (accepted by the
converter), no temperature scale. -/
def UnitFor (d u : String) : Prop :=
  isTemp d.toList = false ∧ (∃ e : UE, e.WF ∧ u.toList = e.render) ∧ (∃ e : UE, e.WF ∧ d.toList = e.render) ∧ ∃ x y, convert x d.toList u.toList = .ok y

/-- A cell that shows the value `v` of a property with default unit `d` in the unit `u`. -/
def ShowsValue (nan : Bool) (d u : String) (v : TS) (c : Cell) : Prop :=
  (v.sta = .notdefined ∧ nan = true ∧ c = .text "NaN") ∨ (¬(v.sta = .notdefined ∧ nan = true) ∧ ∃ y, c = .num y ∧ SameQuantity u y d v.val)

/-! ### Lemmas -/

lemma unitFor_factor {d u : String} (h : UnitFor d u) : ∃ r, 0 < r ∧ ∀ x, convert x d.toList u.toList = .ok (x * r) ∧ SameQuantity u (x * r) d x := by
  obtain ⟨ht, ⟨e, he, hu⟩, ⟨e', he', hd⟩, x, y, hc⟩ := h
  obtain ⟨r, hr, h⟩ := C12_proportional (Or.inl ht) hc
  refine ⟨r, hr, fun x => ⟨h x, e, e', he, he', hu, hd, fun F hF => ?_⟩⟩
  have h1 := h 1
  rw [hu, hd] at h1
  have h2 := C16_meaning F hF e' e he' he (Or.inl (by rw [← hd]; exact ht)) h1
  have h3 : e.value F ≠ 0 := by
    intro h0
    rw [h0, div_zero] at h2
    linarith
  rw [one_mul, one_mul] at h2
  rw [h2]
  field_simp

lemma mapAt_mem {α : Type} {k : String} {x : α} {l : List (String × α)} (h : mapAt k l = .ok x) : (k, x) ∈ l := by
  induction l with
  | nil => cases h
  | cons a l ih =>
    obtain ⟨b, v⟩ := a
    rw [mapAt] at h
    split at h
    · rename_i hb
      cases h
      rw [hb]; exact List.mem_cons_self
    · exact List.mem_cons_of_mem _ (ih h)

lemma foutResults_map {V W : Type} (f : V → W) (pf : Bool) (symbols : List String) (pairs : List (ℝ × ℝ)) (results : List V) {rows : List (Row ℝ V)}
    (h : foutResults pf symbols pairs results = .ok rows) :
    foutResults pf symbols pairs (results.map f) = .ok (rows.map fun r => ⟨r.symbol, r.T, r.P, f r.result⟩) := by
  have all_map : ∀ (l : List (Nat × Nat)) (g : Nat × Nat → Outc (Row ℝ V)) (g' : Nat × Nat → Outc (Row ℝ W)) (rows : List (Row ℝ V)),
      (∀ x r, g x = .ok r → g' x = .ok ⟨r.symbol, r.T, r.P, f r.result⟩) → Outc.all (l.map g) = .ok rows →
      Outc.all (l.map g') = .ok (rows.map fun r => ⟨r.symbol, r.T, r.P, f r.result⟩) := by
    intro l g g' rows hg
    induction l generalizing rows with
    | nil => intro h; cases h; rfl
    | cons x l ih =>
      intro h
      rw [List.map_cons] at h ⊢
      cases hx : g x with
      | ub => rw [hx] at h; cases h
      | ok r =>
        rw [hx] at h
        rw [hg x r hx]
        unfold Outc.all at h ⊢
        cases hl : Outc.all (l.map g) with
        | ub => rw [hl] at h; cases h
        | ok rs =>
          rw [hl] at h
          cases h
          rw [ih rs hl]; rfl
  unfold foutResults at h ⊢
  refine all_map _ _ _ rows ?_ h
  intro x r hr
  dsimp only at hr ⊢
  rw [List.getElem?_map]
  generalize (pairs[if pf = true then x.2 else x.1]?) = a at hr ⊢
  generalize (symbols[if pf = true then x.1 else x.2]?) = b at hr ⊢
  generalize (results[(if pf = true then pairs.length else symbols.length) * x.1 + x.2]?) = c at hr ⊢
  cases a <;> cases b <;> cases c <;> simp_all
  subst hr
  exact ⟨rfl, rfl, rfl, rfl⟩

lemma runSteps_calc {eval : Oracle} {uT uP : String} {pairs : List (ℝ × ℝ)} {symbols props : List String} {r : ℝ} {rec_ : ℝ → ℝ → String → String → Option TS}
    (hr : 0 < r) (hT : ∀ x, convert x uT.toList "K".toList = .ok (kelvinOf uT x)) (hP : ∀ x, convert x uP.toList "Pa".toList = .ok (x * r))
    (hP' : ∀ x, convert x "Pa".toList uP.toList = .ok (x / r)) (he : ∀ T P s, s ∈ symbols → 0 < P → eval T P s = .ok (rec_ T P s, P))
    (l : List (Nat × Nat × Nat)) (i : Impl) (st stF : CalcState ℝ (List TS)) (hi1 : i.symbols = symbols) (hi2 : i.properties = props)
    (hi3 : i.pairs = st.pairs) (hi4 : i.results = st.results.map (·.getD [])) (hpos : ∀ q ∈ st.pairs, 0 < q.2)
    (h : l.foldl (fun (st : Outc (CalcState ℝ (List TS))) x => match st with
      | .ub => .ub
      | .ok st => calcStep ⟨kelvinOf uT, (· * r), (· / r)⟩ (fun T P s => (props.filterMap (rec_ T P s), P)) symbols x.1 x.2.1 x.2.2 st) (.ok st) = .ok stF) :
    runSteps (l.map fun x => calcStepU eval uT uP x.1 x.2.1 x.2.2) i = ({ i with results := stF.results.map (·.getD []), pairs := stF.pairs }, .ok ()) := by
  induction l generalizing i st with
  | nil =>
    cases h
    show (i, _) = _
    rw [← hi3, ← hi4]
  | cons x l ih =>
    rw [List.foldl_cons] at h
    have hub : ∀ l : List (Nat × Nat × Nat), l.foldl (fun (st : Outc (CalcState ℝ (List TS))) x => match st with
        | .ub => .ub
        | .ok st => calcStep ⟨kelvinOf uT, (· * r), (· / r)⟩ (fun T P s => (props.filterMap (rec_ T P s), P)) symbols x.1 x.2.1 x.2.2 st) .ub = .ub := by
      intro l
      induction l with
      | nil => rfl
      | cons y l ih => rw [List.foldl_cons]; exact ih
    cases hc : calcStep ⟨kelvinOf uT, (· * r), (· / r)⟩ (fun T P s => (props.filterMap (rec_ T P s), P)) symbols x.1 x.2.1 x.2.2 st with
    | ub => dsimp only at h; rw [hc, hub] at h; cases h
    | ok st' =>
      dsimp only at h
      rw [hc] at h
      unfold calcStep at hc
      cases hp : st.pairs[x.2.1]? with
      | none => simp only [hp] at hc; cases hc
      | some q =>
        obtain ⟨T, P⟩ := q
        cases hs : symbols[x.1]? with
        | none => simp only [hp, hs] at hc; cases hc
        | some sym =>
          simp only [hp, hs] at hc
          by_cases hidx : x.2.2 < st.results.length
          · rw [if_pos hidx] at hc
            have hPpos : 0 < P := hpos (T, P) (List.mem_of_getElem? hp)
            have hstep : calcStepU eval uT uP x.1 x.2.1 x.2.2 i = .ok { i with
                results := i.results.set x.2.2 (props.filterMap (rec_ (kelvinOf uT T) (P * r) sym)), pairs := i.pairs.set x.2.1 (T, P * r / r) } := by
              unfold calcStepU
              rw [hi1, hi2, hi3, hp, hs]
              dsimp only
              rw [hT, Res.ok_bind, hP, Res.ok_bind, he _ _ _ (List.mem_of_getElem? hs) (mul_pos hPpos hr), Res.ok_bind,
                if_pos (by rw [hi4, List.length_map]; exact hidx), hP', Res.ok_bind]
            cases hc
            rw [List.map_cons]
            unfold runSteps
            rw [hstep]
            dsimp only
            refine (ih _ _ (by exact hi1) (by exact hi2) (by dsimp only; rw [hi3]) ?_ ?_ h).trans ?_
            · dsimp only
              rw [hi4, List.map_set]; rfl
            · intro q hq
              dsimp only at hq
              rcases List.mem_or_eq_of_mem_set hq with hq | hq
              · exact hpos q hq
              · rw [hq]; exact div_pos (mul_pos hPpos hr) hr
            · rfl
          · rw [if_neg hidx] at hc; cases hc

lemma foldl_map_visits {A : Type} (f : A → Nat × Nat × Nat → A) (g : Nat × Nat → Nat × Nat × Nat) (l : List (Nat × Nat)) (a : A) :
    (l.map g).foldl f a = l.foldl (fun a x => f a (g x)) a := by
  rw [List.foldl_map]

lemma request_ok {eval : Oracle} {i : Impl} {uT uP : String} {pairs : List (ℝ × ℝ)} {symbols props : List String} {r : ℝ}
    {rec_ : ℝ → ℝ → String → String → Option TS} (hu : mapAt "temperature" i.units = .ok uT) (hu' : mapAt "pressure" i.units = .ok uP)
    (hr : 0 < r) (hT : ∀ x, convert x uT.toList "K".toList = .ok (kelvinOf uT x)) (hP : ∀ x, convert x uP.toList "Pa".toList = .ok (x * r))
    (hP' : ∀ x, convert x "Pa".toList uP.toList = .ok (x / r)) (he : ∀ T P s, s ∈ symbols → 0 < P → eval T P s = .ok (rec_ T P s, P))
    (hpos : ∀ q ∈ pairs, 0 < q.2) :
    ∃ res, request eval pairs symbols props i = ({ i with symbols := symbols, properties := props, pairs := pairs, results := res }, .ok ()) ∧
      foutResults i.pairsFirst symbols pairs res = .ok (
        if i.pairsFirst then symbols.flatMap (fun sym => pairs.map (fun q => ⟨sym, q.1, q.2, props.filterMap (rec_ (kelvinOf uT q.1) (q.2 * r) sym)⟩))
        else pairs.flatMap (fun q => symbols.map (fun sym => ⟨sym, q.1, q.2, props.filterMap (rec_ (kelvinOf uT q.1) (q.2 * r) sym)⟩))) := by
  obtain ⟨stF, h1, h2, h3⟩ := C55_csv_rows i.pairsFirst ⟨kelvinOf uT, (· * r), (· / r)⟩ (fun T P s => (props.filterMap (rec_ T P s), P)) symbols pairs
    (by intro q _ s _; exact mul_div_cancel_right₀ _ hr.ne')
  have hsize : (i.pairsFirst = true → i.pairsFirst = true) := id
  set jS := (if i.pairsFirst = true then pairs.length else symbols.length) with hjS
  set iS := (if i.pairsFirst = true then symbols.length else pairs.length) with hiS
  set g : Nat × Nat → Nat × Nat × Nat := fun ji => if i.pairsFirst = true then (ji.2, ji.1, jS * ji.2 + ji.1) else (ji.1, ji.2, jS * ji.2 + ji.1) with hg
  have hrun := runSteps_calc (uP := uP) (pairs := pairs) (symbols := symbols) (props := props) hr hT hP hP' he ((visits jS iS).map g)
    { i with symbols := symbols, properties := props, pairs := pairs, results := List.replicate (jS * iS) [] }
    ⟨List.replicate (jS * iS) none, pairs⟩ stF rfl rfl rfl (by simp) hpos (by
      rw [foldl_map_visits]
      rw [← h1]
      unfold calculate
      rw [← hjS, ← hiS]
      congr 1
      funext st ji
      rw [hg]
      cases i.pairsFirst <;> cases st <;> rfl)
  refine ⟨stF.results.map (·.getD []), ?_, ?_⟩
  · unfold request calculateU
    dsimp only
    rw [hu, hu']
    dsimp only
    rw [← hjS, ← hiS]
    rw [List.map_map] at hrun
    refine Eq.trans ?_ (hrun.trans ?_)
    · congr 1
      apply List.map_congr_left
      intro ji _
      rw [hg]
      cases i.pairsFirst <;> rfl
    · rw [h2]
  · rw [h2] at h3
    rw [foutResults_map (fun o : Option (List TS) => o.getD []) _ _ _ _ h3]
    congr 1
    split
    · simp only [List.map_flatMap, List.map_map, Function.comp_def, Option.getD_some, expected]
    · simp only [List.map_flatMap, List.map_map, Function.comp_def, Option.getD_some, expected]

lemma mapAt_lookup {α : Type} {k : String} {x : α} {l : List (String × α)} (h : l.lookup k = some x) : mapAt k l = .ok x := by
  induction l with
  | nil => cases h
  | cons a l ih =>
    obtain ⟨b, v⟩ := a
    rw [mapAt]
    by_cases hb : b = k
    · rw [if_pos hb]
      subst hb
      simpa [List.lookup] using h
    · rw [if_neg hb]
      apply ih
      have : (k == b) = false := by simpa using fun h => hb h.symm
      simpa [List.lookup, this] using h

lemma default_at (x : String × String) (hx : x ∈ defaultUnits) : mapAt x.1 defaultUnits = .ok x.2 ∧ ∃ n, mapAt x.1 defaultDigits = .ok n := by
  have h : ∀ x ∈ defaultUnits, mapAt x.1 defaultUnits = .ok x.2 ∧ mapAt x.1 defaultDigits ≠ .throw ∧ mapAt x.1 defaultDigits ≠ .ub := by decide
  obtain ⟨h1, h2, h3⟩ := h x hx
  refine ⟨h1, ?_⟩
  cases hd : mapAt x.1 defaultDigits with
  | ok n => exact ⟨n, rfl⟩
  | throw => exact absurd hd h2
  | ub => exact absurd hd h3

lemma header_ok {i : Impl} {uT uP : String} {un : String → String} {props : List String} (h1 : mapAt "temperature" i.units = .ok uT)
    (h2 : mapAt "pressure" i.units = .ok uP) (h3 : ∀ p ∈ props, mapAt p i.units = .ok (un p)) (h4 : i.properties = props) :
    csvHeader i = .ok (.text "Symbol" :: .text (heading "T" uT) :: .text (heading "P" uP) :: props.map fun p => .text (heading p (un p))) := by
  have hm : ∀ l : List String, (∀ p ∈ l, mapAt p i.units = .ok (un p)) → headings i.units l = .ok (l.map fun p => .text (heading p (un p))) := by
    intro l hl
    induction l with
    | nil => rfl
    | cons p l ih =>
      unfold headings
      rw [hl p (by simp), ih fun q hq => hl q (by simp [hq])]
      rfl
  unfold csvHeader
  rw [h1, h2, h4]
  simp only [Res.ok_bind]
  rw [hm props h3]
  rfl

lemma cells_ok {i : Impl} {un dn : String → String} {f : String → Option TS} {props : List String} (h1 : ∀ p ∈ props, (p, dn p) ∈ defaultUnits)
    (h2 : ∀ p ∈ props, mapAt p i.units = .ok (un p)) (h3 : ∀ p ∈ props, UnitFor (dn p) (un p)) (h4 : i.digits = defaultDigits)
    (h5 : ∀ p ∈ props, (f p).isSome) : ∃ cs, csvCells i props (props.filterMap f) = .ok cs ∧
      List.Forall₂ (fun p c => ∃ v, f p = some v ∧ ShowsValue i.writeNaN (dn p) (un p) v c) props cs := by
  induction props with
  | nil => exact ⟨[], rfl, List.Forall₂.nil⟩
  | cons p props ih =>
    obtain ⟨cs, h6, h7⟩ := ih (fun q hq => h1 q (by simp [hq])) (fun q hq => h2 q (by simp [hq])) (fun q hq => h3 q (by simp [hq])) (fun q hq => h5 q (by simp [hq]))
    obtain ⟨v, hv⟩ := Option.isSome_iff_exists.1 (h5 p (by simp))
    obtain ⟨h8, n, h9⟩ := default_at (p, dn p) (h1 p (by simp))
    obtain ⟨r, hr, hc⟩ := unitFor_factor (h3 p (by simp))
    have hcell : ∃ c, csvCell i p v = .ok c ∧ ShowsValue i.writeNaN (dn p) (un p) v c := by
      unfold csvCell
      rw [h4, h9, Res.ok_bind]
      by_cases hn : v.sta = .notdefined ∧ i.writeNaN = true
      · exact ⟨.text "NaN", if_pos hn, Or.inl ⟨hn.1, hn.2, rfl⟩⟩
      · rw [if_neg hn, h8, Res.ok_bind, h2 p (by simp), Res.ok_bind, (hc v.val).1, Res.ok_bind]
        exact ⟨_, rfl, Or.inr ⟨hn, _, rfl, (hc v.val).2⟩⟩
    obtain ⟨c, h10, h11⟩ := hcell
    refine ⟨c :: cs, ?_, List.Forall₂.cons ⟨v, hv, h11⟩ h7⟩
    rw [List.filterMap_cons_some hv]
    unfold csvCells
    rw [h10, Res.ok_bind, h6, Res.ok_bind]

lemma run_write {A : Type} (g : A → Res (List Cell)) (P : A → List Cell → Prop) (path : String) (rows : List A) (h : ∀ r ∈ rows, ∃ l, g r = .ok l ∧ P r l)
    (fs : Files (List Cell)) (L : List (List Cell)) (hL : fs path = some L) : ∃ ls fs', runSteps (rows.map fun r => fun st : OFS × Files (List Cell) => do
        let l ← g r
        .ok (st.1.write l st.2)) ((⟨some path, true⟩ : OFS), fs) = (((⟨some path, true⟩ : OFS), fs'), .ok ()) ∧ fs' path = some (L ++ ls) ∧
      List.Forall₂ P rows ls := by
  induction rows generalizing fs L with
  | nil => exact ⟨[], fs, rfl, by rw [hL, List.append_nil], List.Forall₂.nil⟩
  | cons r rows ih =>
    obtain ⟨l, h1, h2⟩ := h r (by simp)
    obtain ⟨ls, fs', h3, h4, h5⟩ := ih (fun q hq => h q (by simp [hq])) (fun p => if p = path then some ((fs p).getD [] ++ [l]) else fs p) (L ++ [l])
      (by rw [if_pos rfl, hL]; rfl)
    refine ⟨l :: ls, fs', ?_, by rw [h4, List.append_assoc]; rfl, List.Forall₂.cons h2 h5⟩
    rw [List.map_cons]
    unfold runSteps
    rw [h1]
    exact h3

/-! ### C144 -/

/-- The line of a symbol at a pair: the symbol, the temperature and the pressure as given, and for every property the value the engine has
at that temperature in kelvin and that pressure in pascal, in the unit `un` of the property. -/
def LineOf (rec_ : ℝ → ℝ → String → String → Option TS) (nan : Bool) (uT uP : String) (dn un : String → String) (props : List String)
    (sym : String) (q : ℝ × ℝ) (l : List Cell) : Prop :=
  ∃ p cs, SameQuantity "Pa" p uP q.2 ∧ l = .text sym :: .num q.1 :: .num q.2 :: cs ∧
    List.Forall₂ (fun n c => ∃ v, rec_ (kelvinOf uT q.1) p sym n = some v ∧ ShowsValue nan (dn n) (un n) v c) props cs

/-- **C144 (part).** Whatever was done before with the batch object, a request followed by writing its result to a file gives a file with the
headings `name(unit)` and, for every symbol and every pair of temperature and pressure once, a line with the symbol, the temperature and
pressure in the units of their headings and the value of every property in the unit of its heading, or NaN if it is not defined.

Full statement: so for every program.  Missing: units changed between the request and the writing, and values handed out as vectors
(`C144_stale_refuted`, `C144_vector_refuted`); pressure 0 (C57). -/
theorem C144_partial (eval : Oracle) (w : World) (uT uP : String) (pairs : List (ℝ × ℝ)) (symbols props : List String) (dn un : String → String)
    (rec_ : ℝ → ℝ → String → String → Option TS) (path : String)
    (hT : w.impl.units.lookup "temperature" = some uT) (hT' : uT ∈ scales)
    (hP : w.impl.units.lookup "pressure" = some uP) (hP' : UnitFor "Pa" uP)
    (hu : ∀ p ∈ props, (p, dn p) ∈ defaultUnits ∧ w.impl.units.lookup p = some (un p) ∧ UnitFor (dn p) (un p)) (hd : w.impl.digits = defaultDigits)
    (he : ∀ T P s, s ∈ symbols → 0 < P → eval T P s = .ok (rec_ T P s, P)) (hpos : ∀ q ∈ pairs, 0 < q.2)
    (hk : ∀ T P s, ∀ p ∈ props, (rec_ T P s p).isSome) :
    ∃ w' body, frun eval w [.request pairs symbols props, .toCSV w.outs.length path] = (w', [.ok (), .ok ()]) ∧
      w'.files path = some ((.text "Symbol" :: .text (heading "T" uT) :: .text (heading "P" uP) :: props.map fun p => .text (heading p (un p))) :: body) ∧
      List.Forall₂ (fun x l => LineOf rec_ w.impl.writeNaN uT uP dn un props x.1 x.2 l)
        (if w.impl.pairsFirst then symbols.flatMap (fun s => pairs.map fun q => (s, q)) else pairs.flatMap fun q => symbols.map fun s => (s, q)) body := by
  obtain ⟨r, hr, hc⟩ := unitFor_factor hP'
  have hTc : ∀ x, convert x uT.toList "K".toList = .ok (kelvinOf uT x) := fun x =>
    C14_exact uT "K" hT' (by simp [scales]) x _ (by simp [kelvinOf])
  have hPc : ∀ x, convert x uP.toList "Pa".toList = .ok (x * (1 / r)) := by
    intro x
    have h := C12_reversible (hc (x * (1 / r))).1
    rwa [show x * (1 / r) * r = x by field_simp] at h
  have hPc' : ∀ x, convert x "Pa".toList uP.toList = .ok (x / (1 / r)) := by
    intro x
    rw [(hc x).1]
    congr 1
    field_simp
  obtain ⟨res, h1, h2⟩ := request_ok (eval := eval) (i := w.impl) (pairs := pairs) (symbols := symbols) (props := props) (rec_ := rec_)
    (mapAt_lookup hT) (mapAt_lookup hP) (one_div_pos.2 hr) hTc hPc hPc' he hpos
  obtain ⟨J, hJ⟩ : ∃ J : Impl, J = { w.impl with symbols := symbols, properties := props, pairs := pairs, results := res } := ⟨_, rfl⟩
  have hJ1 : J.units = w.impl.units := by rw [hJ]
  have hJ2 : J.properties = props := by rw [hJ]
  have hJ3 : J.digits = defaultDigits := by rw [hJ]; exact hd
  have hJ4 : J.writeNaN = w.impl.writeNaN := by rw [hJ]
  have hJ5 : J.pairsFirst = w.impl.pairsFirst ∧ J.symbols = symbols ∧ J.pairs = pairs ∧ J.results = res := by rw [hJ]; exact ⟨rfl, rfl, rfl, rfl⟩
  rw [← hJ] at h1
  have hhead := header_ok (i := J) (un := un)
    (by rw [hJ1]; exact mapAt_lookup hT) (by rw [hJ1]; exact mapAt_lookup hP) (fun p hp => by rw [hJ1]; exact mapAt_lookup (hu p hp).2.1) hJ2
  have hline : ∀ (s : String) (q : ℝ × ℝ), ∃ l, csvLine J
      ⟨s, q.1, q.2, props.filterMap (rec_ (kelvinOf uT q.1) (q.2 * (1 / r)) s)⟩ = .ok l ∧ LineOf rec_ w.impl.writeNaN uT uP dn un props s q l := by
    intro s q
    obtain ⟨cs, h3, h4⟩ := cells_ok (i := J) (un := un) (dn := dn)
      (f := rec_ (kelvinOf uT q.1) (q.2 * (1 / r)) s) (props := props) (fun p hp => (hu p hp).1) (fun p hp => by rw [hJ1]; exact mapAt_lookup (hu p hp).2.1)
      (fun p hp => (hu p hp).2.2) hJ3 (fun p hp => hk _ _ _ p hp)
    rw [hJ4] at h4
    refine ⟨.text s :: .num q.1 :: .num q.2 :: cs, ?_, q.2 * (1 / r), cs, ?_, rfl, h4⟩
    · unfold csvLine
      rw [hJ3, hJ2, (show mapAt "temperature" defaultDigits = .ok 1 from rfl), (show mapAt "pressure" defaultDigits = .ok 1 from rfl), Res.ok_bind, Res.ok_bind, h3,
        Res.ok_bind]
    · obtain ⟨e, e', he1, he2, he3, he4, h⟩ := (hc (q.2 * (1 / r))).2
      refine ⟨e', e, he2, he1, he4, he3, fun F hF => ?_⟩
      have := h F hF
      rw [show q.2 * (1 / r) * r = q.2 by field_simp] at this
      exact this.symm
  have hrows : ∀ (l : List (String × ℝ × ℝ)) (rows : List (Row ℝ (List TS))),
      rows = l.map (fun x => ⟨x.1, x.2.1, x.2.2, props.filterMap (rec_ (kelvinOf uT x.2.1) (x.2.2 * (1 / r)) x.1)⟩) →
      foutResults w.impl.pairsFirst symbols pairs res = .ok rows →
      ∃ w' body, frun eval w [.request pairs symbols props, .toCSV w.outs.length path] = (w', [.ok (), .ok ()]) ∧
      w'.files path = some ((.text "Symbol" :: .text (heading "T" uT) :: .text (heading "P" uP) :: props.map fun p => .text (heading p (un p))) :: body) ∧
      List.Forall₂ (fun x l => LineOf rec_ w.impl.writeNaN uT uP dn un props x.1 x.2 l) l body := by
    intro l rows hl hrows
    obtain ⟨H, hH⟩ : ∃ H : List Cell, H = .text "Symbol" :: .text (heading "T" uT) :: .text (heading "P" uP) ::
        props.map fun p => .text (heading p (un p)) := ⟨_, rfl⟩
    rw [← hH] at hhead ⊢
    obtain ⟨F, hF⟩ : ∃ F : Files (List Cell), F = (OFS.write H (OFS.open path ⟨none, true⟩ w.files).1 (OFS.open path ⟨none, true⟩ w.files).2).2 := ⟨_, rfl⟩
    have e0 : OFS.write H (OFS.open path ⟨none, true⟩ w.files).1 (OFS.open path ⟨none, true⟩ w.files).2 = (⟨some path, true⟩, F) := by rw [hF]; rfl
    have e00 : F path = some [H] := by
      rw [hF]
      show (if path = path then some (((if path = path then some [] else w.files path).getD []) ++ [H]) else _) = _
      rw [if_pos rfl, if_pos rfl]
      rfl
    obtain ⟨ls, fs', h5, h6, h7⟩ := run_write (fun x : Row ℝ (List TS) => csvLine J x)
      (fun x l => LineOf rec_ w.impl.writeNaN uT uP dn un props x.symbol (x.T, x.P) l) path rows (by
        intro x hx
        rw [hl] at hx
        obtain ⟨y, -, rfl⟩ := List.mem_map.1 hx
        exact hline y.1 y.2)
      F _ e00
    have hcsv : toCSV J path ⟨none, true⟩ w.files = (((⟨none, true⟩ : OFS), fs'), .ok ()) := by
      unfold toCSV
      rw [hhead, hJ5.1, hJ5.2.1, hJ5.2.2.1, hJ5.2.2.2, hrows]
      dsimp only
      rw [e0, h5]
      rfl
    refine ⟨{ impl := J, outs := (w.outs ++ [(⟨none, true⟩ : OFS)]).set w.outs.length ⟨none, true⟩, files := fs' }, ls, ?_, h6, ?_⟩
    · have e1 : fstep eval w (.request pairs symbols props) = (⟨J, w.outs ++ [⟨none, true⟩], w.files⟩, .ok ()) := by
        dsimp only [fstep]
        rw [h1]
      have e2 : fstep eval ⟨J, w.outs ++ [(⟨none, true⟩ : OFS)], w.files⟩ (.toCSV w.outs.length path)
          = (⟨J, (w.outs ++ [(⟨none, true⟩ : OFS)]).set w.outs.length ⟨none, true⟩, fs'⟩, .ok ()) := by
        dsimp only [fstep]
        rw [List.getElem?_append_right (le_refl _), Nat.sub_self, List.getElem?_cons_zero]
        dsimp only
        rw [hcsv]
      dsimp only [frun]
      rw [e1]
      dsimp only
      rw [e2]
    · rw [hl] at h7
      exact (List.forall₂_map_left_iff.1 h7)
  by_cases hb : w.impl.pairsFirst = true
  · rw [if_pos hb] at h2 ⊢
    exact hrows _ _ (by simp only [List.map_flatMap, List.map_map, Function.comp_def]) h2
  · rw [if_neg hb] at h2 ⊢
    exact hrows _ _ (by simp only [List.map_flatMap, List.map_map, Function.comp_def]) h2

lemma same_ok {u : String} (h : Js.readable u = true) (x : ℝ) : convert x u.toList u.toList = .ok x := by
  unfold Js.readable at h
  cases h1 : parseUnit u.toList with
  | ok l =>
    rw [h1] at h
    cases h2 : dimList l with
    | ok d => exact Js.convert_same h1 h2 x
    | throw => simp [h2] at h
    | ub => simp [h2] at h
  | throw => rw [h1] at h; simp at h
  | ub => rw [h1] at h; simp at h

/-- An engine for the examples: every property of every symbol has the value `T + P`. -/
noncomputable def sumEngine : Oracle := fun T P _ => .ok (fun _ => some ⟨T + P, 0, 0, 0, .calculated⟩, P)

lemma pa_ok (x : ℝ) : convert x "Pa".toList "Pa".toList = .ok x := same_ok (by decide +kernel) x
lemma jmol_ok (x : ℝ) : convert x "J/mol".toList "J/mol".toList = .ok x := same_ok (by decide +kernel) x

lemma request_sum (T P : ℝ) (i : Impl) (h1 : mapAt "temperature" i.units = .ok "K") (h2 : mapAt "pressure" i.units = .ok "Pa") (h3 : i.pairsFirst = true) :
    request sumEngine [(T, P)] ["Ca+2"] ["gibbs_energy"] i =
      ({ i with symbols := ["Ca+2"], properties := ["gibbs_energy"], pairs := [(T, P)], results := [[⟨T + P, 0, 0, 0, .calculated⟩]] }, .ok ()) := by
  have hK : convert T "K".toList "K".toList = .ok T := C14_exact "K" "K" (by simp [scales]) (by simp [scales]) T T rfl
  obtain ⟨units, digits, pf, nan, sy, pr, pa, re⟩ := i
  dsimp only at h1 h2 h3
  subst h3
  unfold request calculateU
  dsimp only
  rw [h1, h2]
  have hK' : convert T ['K'] ['K'] = .ok T := hK
  have hp' : ∀ x, convert x ['P', 'a'] ['P', 'a'] = .ok x := pa_ok
  simp [visits, runSteps, calcStepU, hK', hp', sumEngine]

lemma csv_one {i : Impl} {uT uP uG path : String} {s : OFS} {fs : Files (List Cell)} {T P x y : ℝ} (h1 : mapAt "temperature" i.units = .ok uT)
    (h2 : mapAt "pressure" i.units = .ok uP) (h3 : mapAt "gibbs_energy" i.units = .ok uG) (hd : i.digits = defaultDigits)
    (hs : i.symbols = ["Ca+2"]) (hp : i.properties = ["gibbs_energy"]) (hq : i.pairs = [(T, P)]) (hr : i.results = [[⟨x, 0, 0, 0, .calculated⟩]])
    (hf : i.pairsFirst = true) (hc : convert x "J/mol".toList uG.toList = .ok y) (h0 : s.file = none) :
    ∃ fs', toCSV i path s fs = ((⟨none, true⟩, fs'), .ok ()) ∧ fs' path = some [
        [.text "Symbol", .text (heading "T" uT), .text (heading "P" uP), .text (heading "gibbs_energy" uG)],
        [.text "Ca+2", .num T, .num P, .num y]] := by
  have hh : csvHeader i = .ok [.text "Symbol", .text (heading "T" uT), .text (heading "P" uP), .text (heading "gibbs_energy" uG)] := by
    unfold csvHeader
    rw [h1, h2, hp]
    simp [headings, h3]
  have hl : csvLine i ⟨"Ca+2", T, P, [⟨x, 0, 0, 0, .calculated⟩]⟩ = .ok [.text "Ca+2", .num T, .num P, .num y] := by
    unfold csvLine
    rw [hd, hp, show mapAt "temperature" defaultDigits = .ok 1 from rfl, show mapAt "pressure" defaultDigits = .ok 1 from rfl, Res.ok_bind, Res.ok_bind]
    unfold csvCells csvCell
    rw [hd, h3, show mapAt "gibbs_energy" defaultDigits = .ok 0 from rfl, show mapAt "gibbs_energy" defaultUnits = .ok "J/mol" from rfl, Res.ok_bind, Res.ok_bind,
      Res.ok_bind, hc, if_neg (by simp)]
    rfl
  have ho : foutResults true ["Ca+2"] [(T, P)] [[(⟨x, 0, 0, 0, .calculated⟩ : TS)]] = .ok [⟨"Ca+2", T, P, [⟨x, 0, 0, 0, .calculated⟩]⟩] := by
    simp [foutResults, visits, Outc.all]
  refine ⟨(toCSV i path s fs).1.2, ?_, ?_⟩ <;>
  · unfold toCSV
    rw [hh, hs, hq, hr, hf, ho]
    simp [runSteps, hl, OFS.open, h0, OFS.write, OFS.close]

/-- The state after the request of the examples, with the units `U`. -/
noncomputable def oneImpl (U : List (String × String)) (T P : ℝ) : Impl :=
  { units := U, symbols := ["Ca+2"], properties := ["gibbs_energy"], pairs := [(T, P)], results := [[⟨T + P, 0, 0, 0, .calculated⟩]] }

lemma step_request (T P : ℝ) (U : List (String × String)) (i : Impl) (outs : List OFS) (fs : Files (List Cell)) (h0 : i = { units := U })
    (h1 : mapAt "temperature" U = .ok "K") (h2 : mapAt "pressure" U = .ok "Pa") :
    fstep sumEngine ⟨i, outs, fs⟩ (.request [(T, P)] ["Ca+2"] ["gibbs_energy"]) = (⟨oneImpl U T P, outs ++ [⟨none, true⟩], fs⟩, .ok ()) := by
  subst h0
  have e1 := request_sum T P { units := U } h1 h2 rfl
  simp only [fstep, e1, oneImpl]

lemma step_unit {p u v : String} {i : Impl} (outs : List OFS) (fs : Files (List Cell)) (h : mapAt p i.units = .ok v) :
    fstep sumEngine ⟨i, outs, fs⟩ (.setUnit p u) = (⟨{ i with units := mapSet p u i.units }, outs, fs⟩, .ok ()) := by
  simp only [fstep, setPropertyUnit, h, Res.ok_bind]

lemma step_csv {i : Impl} {path : String} {s s' : OFS} {fs fs' : Files (List Cell)} {r : Res Unit} (h : toCSV i path s fs = ((s', fs'), r)) :
    fstep sumEngine ⟨i, [s], fs⟩ (.toCSV 0 path) = (⟨i, [s'], fs'⟩, r) := by
  simp only [fstep, List.getElem?_cons_zero, h, List.set_cons_zero]

/-- **C144, violation (units changed before writing).** The units of the headings are those set when the file is written, the temperature is
written as it was given.  A program that asks at `T` kelvin, sets degrees Celsius for the temperature and writes the file gets the number
`T` under the heading `T(degC)`, beside the value of the property at `T` kelvin; the values at `T` °C are others.  No call raises. -/
theorem C144_stale_refuted (T P : ℝ) : ∃ w',
    frun sumEngine {} [.request [(T, P)] ["Ca+2"] ["gibbs_energy"], .setUnit "temperature" "degC", .toCSV 0 "out.csv"] = (w', [.ok (), .ok (), .ok ()]) ∧
    w'.files "out.csv" = some [
      [.text "Symbol", .text "T(degC)", .text "P(Pa)", .text "gibbs_energy(J/mol)"],
      [.text "Ca+2", .num T, .num P, .num (T + P)]] ∧ kelvinOf "degC" T + P ≠ T + P := by
  obtain ⟨fs', h1, h2⟩ := csv_one (i := oneImpl (mapSet "temperature" "degC" defaultUnits) T P)
    (uT := "degC") (uP := "Pa") (uG := "J/mol") (path := "out.csv") (s := ⟨none, true⟩)
    (fs := fun _ => none) (T := T) (P := P) rfl rfl rfl rfl rfl rfl rfl rfl rfl (jmol_ok _) rfl
  refine ⟨⟨oneImpl (mapSet "temperature" "degC" defaultUnits) T P, [⟨none, true⟩], fs'⟩, ?_, h2, ?_⟩
  · have e1 := step_request T P defaultUnits {} [] (fun _ => none) rfl rfl rfl
    have e2 := step_unit (p := "temperature") (u := "degC") (v := "K") (i := oneImpl defaultUnits T P) [⟨none, true⟩] (fun _ => none) rfl
    have e3 := step_csv h1
    unfold frun
    rw [e1]
    dsimp only
    unfold frun
    rw [List.nil_append, e2]
    dsimp only
    unfold frun
    rw [show ({ oneImpl defaultUnits T P with units := mapSet "temperature" "degC" (oneImpl defaultUnits T P).units } : Impl)
      = oneImpl (mapSet "temperature" "degC" defaultUnits) T P from rfl, e3]
    rfl
  · simp [kelvinOf]; norm_num

/-- **C144, violation (documented units).** The class comment says that temperatures and pressures are to be given in degrees Celsius and bar
(ThermoBatch.h:89); a new object takes them as kelvin and pascal: a request at 25 and 1 asks the engine at 25 K and 1 Pa. -/
theorem C144_documented_refuted : ∃ i, request sumEngine [(25, 1)] ["Ca+2"] ["gibbs_energy"] {} = (i, .ok ()) ∧
    toVector i = [[25 + 1]] ∧ kelvinOf "degC" 25 = 298.15 :=
  ⟨_, request_sum 25 1 {} rfl rfl rfl, rfl, by simp [kelvinOf]; norm_num⟩

def jmol : UE := .div (.sym ['J']) (.sym "mol".toList)
def kjmol : UE := .div (.sym "kJ".toList) (.sym "mol".toList)

lemma jmol_wf : jmol.WF := by simp [jmol, UE.WF, UE.isTerm]
lemma kjmol_wf : kjmol.WF := by simp [kjmol, UE.WF, UE.isTerm]

lemma accepted {a b : String} (h : convertible a.toList b.toList = .ok true) (x : ℝ) : ∃ y, convert x a.toList b.toList = .ok y :=
  (C15_relation.1 _ _).1 h x

lemma kilo (x : ℝ) : convert x "J/mol".toList "kJ/mol".toList = .ok (x / 1000) := by
  obtain ⟨y, hy⟩ := accepted (a := "J/mol") (b := "kJ/mol") (by decide +kernel) x
  obtain ⟨F, hF, hpos, -⟩ := C13_factors
  have h := C16_meaning F hF jmol kjmol jmol_wf kjmol_wf (Or.inl (by decide +kernel)) hy
  have h1 := hF.derived ("kJ".toList, [⟨1000, 1, ['J'], 1, 1⟩]) (mem_of_lookup (by decide +kernel)) (by decide)
  have hJ : 0 < F ['J'] := hpos _ (known_of_lookup (by decide +kernel))
  have hm : 0 < F "mol".toList := hpos _ (known_of_lookup (by decide +kernel))
  simp at h1
  rw [hy, h]
  congr 1
  simp only [jmol, kjmol, UE.value]
  rw [show F "kJ".toList = 1000 * F ['J'] from h1]
  field_simp

/-- **C144, violation (values not written to a file).** The units set for the results have no effect on the values handed out as numbers:
with kJ/mol set, the file has `(T + P)/1000` under the heading `gibbs_energy(kJ/mol)`, the vector `T + P`. -/
theorem C144_vector_refuted (T P : ℝ) : ∃ w',
    frun sumEngine {} [.setUnit "gibbs_energy" "kJ/mol", .request [(T, P)] ["Ca+2"] ["gibbs_energy"], .toCSV 0 "out.csv"] = (w', [.ok (), .ok (), .ok ()]) ∧
    w'.files "out.csv" = some [
      [.text "Symbol", .text "T(K)", .text "P(Pa)", .text "gibbs_energy(kJ/mol)"],
      [.text "Ca+2", .num T, .num P, .num ((T + P) / 1000)]] ∧ toVector w'.impl = [[T + P]] := by
  obtain ⟨fs', h1, h2⟩ := csv_one (i := oneImpl (mapSet "gibbs_energy" "kJ/mol" defaultUnits) T P)
    (uT := "K") (uP := "Pa") (uG := "kJ/mol") (path := "out.csv") (s := ⟨none, true⟩)
    (fs := fun _ => none) (T := T) (P := P) rfl rfl rfl rfl rfl rfl rfl rfl rfl (kilo _) rfl
  refine ⟨⟨oneImpl (mapSet "gibbs_energy" "kJ/mol" defaultUnits) T P, [⟨none, true⟩], fs'⟩, ?_, h2, rfl⟩
  have e1 := step_unit (p := "gibbs_energy") (u := "kJ/mol") (v := "J/mol") (i := {}) [] (fun _ => none) rfl
  have e2 := step_request T P (mapSet "gibbs_energy" "kJ/mol" defaultUnits) _ [] (fun _ => none) rfl rfl rfl
  have e3 := step_csv h1
  unfold frun
  rw [e1]
  dsimp only
  unfold frun
  rw [e2]
  dsimp only
  unfold frun
  rw [List.nil_append, e3]
  rfl

lemma unit_bar : UnitFor "Pa" "bar" :=
  ⟨by decide +kernel, ⟨.sym "bar".toList, by simp [UE.WF], rfl⟩, ⟨.sym "Pa".toList, by simp [UE.WF], rfl⟩, 1, accepted (by decide +kernel) 1⟩

lemma unit_kj : UnitFor "J/mol" "kJ/mol" := ⟨by decide +kernel, ⟨kjmol, kjmol_wf, rfl⟩, ⟨jmol, jmol_wf, rfl⟩, 1, _, kilo 1⟩

/-- The hypotheses of `C144_partial` are met: degrees Celsius, bar and kJ/mol; two temperatures, two pressures, two properties. -/
example : ∃ w' body, frun sumEngine ⟨{ units := mapSet "temperature" "degC" (mapSet "pressure" "bar" (mapSet "gibbs_energy" "kJ/mol" defaultUnits)) }, [], fun _ => none⟩
      [.request [(25, 1), (50, 1), (25, 2), (50, 2)] ["Ca+2", "Na+"] ["gibbs_energy", "enthalpy"], .toCSV 0 "out.csv"] = (w', [.ok (), .ok ()]) ∧
    w'.files "out.csv" = some ([.text "Symbol", .text "T(degC)", .text "P(bar)", .text "gibbs_energy(kJ/mol)", .text "enthalpy(J/mol)"] :: body) ∧
    body.length = 8 := by
  obtain ⟨w', body, h1, h2, h3⟩ := C144_partial sumEngine
    ⟨{ units := mapSet "temperature" "degC" (mapSet "pressure" "bar" (mapSet "gibbs_energy" "kJ/mol" defaultUnits)) }, [], fun _ => none⟩
    "degC" "bar" [(25, 1), (50, 1), (25, 2), (50, 2)] ["Ca+2", "Na+"] ["gibbs_energy", "enthalpy"] (fun _ => "J/mol")
    (fun p => if p = "gibbs_energy" then "kJ/mol" else "J/mol") (fun T P _ _ => some ⟨T + P, 0, 0, 0, .calculated⟩) "out.csv" (by decide)
    (by simp [scales]) (by decide) unit_bar (by
      intro p hp
      simp only [List.mem_cons, List.not_mem_nil, or_false] at hp
      rcases hp with rfl | rfl
      · exact ⟨by decide, by decide, unit_kj⟩
      · exact ⟨by decide, by decide, by decide +kernel, ⟨jmol, jmol_wf, rfl⟩, ⟨jmol, jmol_wf, rfl⟩, 1, 1, jmol_ok 1⟩) rfl (fun _ _ _ _ _ => rfl)
    (by intro q hq; simp only [List.mem_cons, List.not_mem_nil, or_false] at hq; rcases hq with rfl | rfl | rfl | rfl <;> norm_num) (fun _ _ _ _ _ => rfl)
  exact ⟨w', body, h1, h2, h3.length_eq.symm⟩

/-! ### C145 -/

/-- An earlier attempt to write the results of output `k` ended with an exception. -/
def FailedWrite (k : Nat) (ops : List FOp) (results : List (Res Unit)) : Prop :=
  ∃ (n : Nat) (path : String) (r : Res Unit), ops[n]? = some (FOp.toCSV k path) ∧ results[n]? = some r ∧ r ≠ Res.ok ()

lemma run_write_ok {A : Type} (g : A → Res (List Cell)) (path : String) (rows : List A) (fs : Files (List Cell)) (L : List (List Cell))
    (hL : fs path = some L) {st : OFS × Files (List Cell)} (h : runSteps (rows.map fun r => fun st : OFS × Files (List Cell) => do
        let l ← g r
        .ok (st.1.write l st.2)) ((⟨some path, true⟩ : OFS), fs) = (st, .ok ())) :
    st.1 = ⟨some path, true⟩ ∧ ∃ ls, st.2 path = some (L ++ ls) ∧ List.Forall₂ (fun r l => g r = .ok l) rows ls := by
  induction rows generalizing fs L with
  | nil =>
    injection h with h1 h2
    exact ⟨by rw [← h1], [], by rw [← h1, List.append_nil]; exact hL, List.Forall₂.nil⟩
  | cons r rows ih =>
    rw [List.map_cons] at h
    unfold runSteps at h
    cases hr : g r with
    | ok l =>
      rw [hr] at h
      obtain ⟨h1, ls, h2, h3⟩ := ih (fun p => if p = path then some ((fs p).getD [] ++ [l]) else fs p) (L ++ [l]) (by rw [if_pos rfl, hL]; rfl) h
      exact ⟨h1, l :: ls, by rw [h2, List.append_assoc]; rfl, List.Forall₂.cons hr h3⟩
    | throw => rw [hr] at h; simp at h
    | ub => rw [hr] at h; simp at h

lemma mapAt_ok {α : Type} {k : String} {x : α} {l : List (String × α)} (h : mapAt k l = .ok x) : l.lookup k = some x := by
  induction l with
  | nil => cases h
  | cons a l ih =>
    obtain ⟨b, v⟩ := a
    rw [mapAt] at h
    split at h
    · rename_i hb
      cases h
      simp [List.lookup, hb]
    · rename_i hb
      have : (k == b) = false := by simpa using fun h => hb h.symm
      simp [List.lookup, this, ih h]

lemma headings_inv {U : List (String × String)} {ps : List String} {hs : List Cell} (h : headings U ps = .ok hs) :
    List.Forall₂ (fun p c => ∃ u, U.lookup p = some u ∧ c = .text (heading p u)) ps hs := by
  induction ps generalizing hs with
  | nil => cases h; exact List.Forall₂.nil
  | cons p ps ih =>
    unfold headings at h
    cases h1 : mapAt p U with
    | throw => rw [h1] at h; simp at h
    | ub => rw [h1] at h; simp at h
    | ok u =>
      rw [h1, Res.ok_bind] at h
      cases h2 : headings U ps with
      | throw => rw [h2] at h; simp at h
      | ub => rw [h2] at h; simp at h
      | ok r =>
        rw [h2, Res.ok_bind] at h
        cases h
        exact List.Forall₂.cons ⟨u, mapAt_ok h1, rfl⟩ (ih h2)

lemma header_inv {i : Impl} {H : List Cell} (h : csvHeader i = .ok H) : ∃ uT uP hs, i.units.lookup "temperature" = some uT ∧
    i.units.lookup "pressure" = some uP ∧ H = .text "Symbol" :: .text (heading "T" uT) :: .text (heading "P" uP) :: hs ∧
    List.Forall₂ (fun p c => ∃ u, i.units.lookup p = some u ∧ c = .text (heading p u)) i.properties hs := by
  unfold csvHeader at h
  cases h1 : mapAt "temperature" i.units with
  | throw => rw [h1] at h; simp at h
  | ub => rw [h1] at h; simp at h
  | ok uT =>
    cases h2 : mapAt "pressure" i.units with
    | throw => rw [h1, h2] at h; simp at h
    | ub => rw [h1, h2] at h; simp at h
    | ok uP =>
      cases h3 : headings i.units i.properties with
      | throw => rw [h1, h2, h3] at h; simp at h
      | ub => rw [h1, h2, h3] at h; simp at h
      | ok hs =>
        rw [h1, h2, h3] at h
        simp only [Res.ok_bind] at h
        cases h
        exact ⟨uT, uP, hs, mapAt_ok h1, mapAt_ok h2, rfl, headings_inv h3⟩

lemma outc_all_length {A : Type} {l : List (Outc A)} {r : List A} (h : Outc.all l = .ok r) : r.length = l.length := by
  induction l generalizing r with
  | nil => cases h; rfl
  | cons x l ih =>
    unfold Outc.all at h
    cases x with
    | ub => cases h
    | ok a =>
      cases hl : Outc.all l with
      | ub => simp [hl] at h
      | ok r' =>
        simp [hl] at h
        rw [← h, List.length_cons, List.length_cons, ih hl]

lemma visits_length (a b : Nat) : (visits a b).length = a * b := by
  simp [visits, List.length_flatMap]

lemma fout_length {pf : Bool} {symbols : List String} {pairs : List (ℝ × ℝ)} {results : List (List TS)} {rows : List (Row ℝ (List TS))}
    (h : foutResults pf symbols pairs results = .ok rows) : rows.length = symbols.length * pairs.length := by
  unfold foutResults at h
  rw [outc_all_length h, List.length_map, visits_length]
  cases pf
  · simp [Nat.mul_comm]
  · simp

lemma toCSV_written {i : Impl} {path : String} {s s' : OFS} {fs fs' : Files (List Cell)} (h : toCSV i path s fs = ((s', fs'), .ok ()))
    (h0 : s.file = none) : s'.file = none ∧ ∃ H body, csvHeader i = .ok H ∧ fs' path = some (H :: body) ∧ body.length = i.symbols.length * i.pairs.length := by
  unfold toCSV at h
  have ho : OFS.open path s fs = (⟨some path, true⟩, fun p => if p = path then some [] else fs p) := by unfold OFS.open; rw [h0]
  cases hh : csvHeader i with
  | throw => rw [hh] at h; simp at h
  | ub => rw [hh] at h; simp at h
  | ok H =>
    rw [hh] at h
    dsimp only at h
    cases hf : foutResults i.pairsFirst i.symbols i.pairs i.results with
    | ub => rw [hf] at h; simp at h
    | ok rows =>
      rw [hf, ho] at h
      dsimp only at h
      cases hr : runSteps (rows.map fun r => fun st : OFS × Files (List Cell) => do
          let l ← csvLine i r
          .ok (st.1.write l st.2)) (OFS.write H ⟨some path, true⟩ fun p => if p = path then some [] else fs p) with
      | mk st e =>
        rw [hr] at h
        cases e with
        | throw => simp at h
        | ub => simp at h
        | ok u =>
          dsimp only at h
          injection h with h1 h2
          injection h1 with h3 h4
          obtain ⟨h5, ls, h6, h7⟩ := run_write_ok (csvLine i) path rows
            (fun p => if p = path then some (((if p = path then some [] else fs p) : Option (List (List Cell))).getD [] ++ [H]) else if p = path then some [] else fs p) [H]
            (by rw [if_pos rfl, if_pos rfl]; rfl) hr
          refine ⟨by rw [← h3, h5]; rfl, H, ls, rfl, by rw [← h4, h6]; rfl, ?_⟩
          rw [← h7.length_eq, fout_length hf]

lemma fstep_closed {eval : Oracle} {w : World} {op : FOp} {k : Nat} (hc : ∀ s, w.outs[k]? = some s → s.file = none)
    (hf : ∀ path, op = .toCSV k path → (fstep eval w op).2 = .ok ()) : ∀ s, (fstep eval w op).1.outs[k]? = some s → s.file = none := by
  cases op with
  | setUnits u => exact hc
  | setUnit p u =>
    intro s
    unfold fstep
    dsimp only
    split <;> exact hc s
  | setUnitsOf ps us => exact hc
  | request pairs symbols props =>
    intro s
    unfold fstep
    dsimp only
    split
    · dsimp only
      intro h
      by_cases hk : k < w.outs.length
      · rw [List.getElem?_append_left hk] at h; exact hc s h
      · rw [List.getElem?_append_right (by omega)] at h
        cases hk' : k - w.outs.length with
        | zero => rw [hk'] at h; cases h; rfl
        | succ n => rw [hk'] at h; simp at h
    · exact hc s
  | toCSV j path =>
    intro s
    have hf' := hf path
    unfold fstep at hf' ⊢
    dsimp only at hf' ⊢
    cases hj : w.outs[j]? with
    | none => exact hc s
    | some t =>
      rw [hj] at hf'
      dsimp only at hf' ⊢
      intro h
      by_cases hjk : j = k
      · subst hjk
        have hlt : j < w.outs.length := by
          rw [List.getElem?_eq_some_iff] at hj; exact hj.1
        rw [List.getElem?_set_self hlt] at h
        cases h
        refine (toCSV_written (i := w.impl) (path := path) (s := t) (fs := w.files) (fs' := (toCSV w.impl path t w.files).1.2) ?_ (hc t hj)).1
        rw [← hf' rfl]
      · rw [List.getElem?_set_ne hjk] at h
        exact hc s h

lemma frun_closed {eval : Oracle} (ops : List FOp) (k : Nat) : ∀ w : World, (∀ s, w.outs[k]? = some s → s.file = none) →
    ¬ FailedWrite k ops (frun eval w ops).2 → ∀ s, (frun eval w ops).1.outs[k]? = some s → s.file = none := by
  induction ops with
  | nil => intro w hc _; exact hc
  | cons op ops ih =>
    intro w hc hn
    refine ih (fstep eval w op).1 (fstep_closed hc fun path hp => ?_) fun hw => hn ?_
    · by_contra hr
      exact hn ⟨0, path, _, by rw [hp]; rfl, rfl, hr⟩
    · obtain ⟨n, path, r, h1, h2, h3⟩ := hw
      exact ⟨n + 1, path, r, h1, h2, h3⟩

/-- **C145 (part).** For every program using a new batch object and its outputs: if no earlier attempt to write output `k` has raised, a
call of `toCSV` on it that returns has written the file: a first line with the headings of temperature, pressure and the properties of the
last request, each with its unit, and a line for every symbol and every pair of temperature and pressure.

Full statement: whenever `toCSV` returns, the file has been written.  Missing: outputs with an earlier attempt that raised
(`C145_refuted`). -/
theorem C145_partial (eval : Oracle) (i : Impl) (fs : Files (List Cell)) (ops : List FOp) (k : Nat) (path : String) (w w' : World) (rs : List (Res Unit))
    (h : frun eval ⟨i, [], fs⟩ ops = (w, rs)) (hn : ¬ FailedWrite k ops rs) (hw : fstep eval w (.toCSV k path) = (w', .ok ())) :
    ∃ uT uP hs body, w.impl.units.lookup "temperature" = some uT ∧ w.impl.units.lookup "pressure" = some uP ∧
      w'.files path = some ((.text "Symbol" :: .text (heading "T" uT) :: .text (heading "P" uP) :: hs) :: body) ∧
      List.Forall₂ (fun p c => ∃ u, w.impl.units.lookup p = some u ∧ c = .text (heading p u)) w.impl.properties hs ∧
      body.length = w.impl.symbols.length * w.impl.pairs.length := by
  have hc := frun_closed (eval := eval) ops k ⟨i, [], fs⟩ (by simp) (by rw [h]; exact hn)
  rw [h] at hc
  unfold fstep at hw
  dsimp only at hw
  cases hk : w.outs[k]? with
  | none => rw [hk] at hw; simp at hw
  | some s =>
    rw [hk] at hw
    dsimp only at hw
    injection hw with h1 h2
    obtain ⟨-, H, body, h3, h4, h5⟩ := toCSV_written (i := w.impl) (path := path) (s := s) (fs := w.files) (fs' := (toCSV w.impl path s w.files).1.2)
      (s' := (toCSV w.impl path s w.files).1.1) (by rw [← h2]) (hc s hk)
    obtain ⟨uT, uP, hs, h6, h7, h8, h9⟩ := header_inv h3
    exact ⟨uT, uP, hs, body, h6, h7, by rw [← h1, ← h8]; exact h4, h9, h5⟩

lemma refused (x : ℝ) : convert x "J/mol".toList "K".toList = .throw := by
  have h1 : parseUnit "J/mol".toList = .ok [(['J'], 1), ("mol".toList, -1)] := by decide +kernel
  have h2 : parseUnit "K".toList = .ok [(['K'], 1)] := by decide +kernel
  obtain ⟨da, h3⟩ : ∃ d, dimList [(['J'], 1), ("mol".toList, -1)] = .ok d := by
    refine dimList_ok _ fun e he => ?_
    simp only [List.mem_cons, List.not_mem_nil, or_false] at he
    rcases he with rfl | rfl <;> exact known_of_lookup (by decide +kernel)
  have h4 : dimList [(['K'], 1)] = .ok [(['K'], 1)] := by decide +kernel
  have h5 : convertible "J/mol".toList "K".toList = .ok false := by decide +kernel
  unfold convertible at h5
  rw [if_neg (by decide +kernel), h1, h2] at h5
  simp only [Res.ok_bind, h3, h4, Res.ok.injEq] at h5
  unfold convert
  rw [if_neg (by decide +kernel), h1, h2]
  simp only [Res.ok_bind, h3, h4, h5]
  rfl

/-- The file after the first, failed, attempt of `C145_refuted`. -/
def headerOnly : Option (List (List Cell)) := some [[.text "Symbol", .text "T(K)", .text "P(Pa)", .text "gibbs_energy(K)"]]

lemma csv_fail (T P : ℝ) : ∃ fs', toCSV (oneImpl (mapSet "gibbs_energy" "K" defaultUnits) T P) "out.csv" ⟨none, true⟩ (fun _ => none)
      = ((⟨some "out.csv", true⟩, fs'), .throw) ∧ fs' "out.csv" = headerOnly := by
  have hh : csvHeader (oneImpl (mapSet "gibbs_energy" "K" defaultUnits) T P) = .ok [.text "Symbol", .text "T(K)", .text "P(Pa)", .text "gibbs_energy(K)"] := rfl
  have hl : csvLine (oneImpl (mapSet "gibbs_energy" "K" defaultUnits) T P) ⟨"Ca+2", T, P, [⟨T + P, 0, 0, 0, .calculated⟩]⟩ = .throw := by
    unfold csvLine
    rw [show mapAt "temperature" (oneImpl (mapSet "gibbs_energy" "K" defaultUnits) T P).digits = .ok 1 from rfl,
      show mapAt "pressure" (oneImpl (mapSet "gibbs_energy" "K" defaultUnits) T P).digits = .ok 1 from rfl, Res.ok_bind, Res.ok_bind,
      show (oneImpl (mapSet "gibbs_energy" "K" defaultUnits) T P).properties = ["gibbs_energy"] from rfl]
    unfold csvCells csvCell
    rw [show mapAt "gibbs_energy" (oneImpl (mapSet "gibbs_energy" "K" defaultUnits) T P).digits = .ok 0 from rfl,
      show mapAt "gibbs_energy" (oneImpl (mapSet "gibbs_energy" "K" defaultUnits) T P).units = .ok "K" from rfl,
      show mapAt "gibbs_energy" defaultUnits = .ok "J/mol" from rfl, Res.ok_bind, Res.ok_bind, Res.ok_bind, refused, if_neg (by simp)]
    rfl
  have ho : foutResults (oneImpl (mapSet "gibbs_energy" "K" defaultUnits) T P).pairsFirst (oneImpl (mapSet "gibbs_energy" "K" defaultUnits) T P).symbols
      (oneImpl (mapSet "gibbs_energy" "K" defaultUnits) T P).pairs (oneImpl (mapSet "gibbs_energy" "K" defaultUnits) T P).results
      = .ok [⟨"Ca+2", T, P, [⟨T + P, 0, 0, 0, .calculated⟩]⟩] := by
    simp [oneImpl, foutResults, visits, Outc.all]
  refine ⟨(toCSV (oneImpl (mapSet "gibbs_energy" "K" defaultUnits) T P) "out.csv" ⟨none, true⟩ (fun _ => none)).1.2, ?_, ?_⟩ <;>
  · unfold toCSV
    rw [hh, ho]
    simp [runSteps, hl, OFS.open, OFS.write, headerOnly]

lemma csv_lost {i : Impl} {path q : String} {fs : Files (List Cell)} {H : List Cell} {rows : List (Row ℝ (List TS))} (hh : csvHeader i = .ok H)
    (ho : foutResults i.pairsFirst i.symbols i.pairs i.results = .ok rows) (hl : ∀ r ∈ rows, ∃ l, csvLine i r = .ok l) :
    toCSV i path ⟨some q, true⟩ fs = ((⟨none, false⟩, fs), .ok ()) := by
  have hr : ∀ rows : List (Row ℝ (List TS)), (∀ r ∈ rows, ∃ l, csvLine i r = .ok l) → runSteps (rows.map fun r => fun st : OFS × Files (List Cell) => do
        let l ← csvLine i r
        .ok (st.1.write l st.2)) ((⟨some q, false⟩ : OFS), fs) = (((⟨some q, false⟩ : OFS), fs), .ok ()) := by
    intro rows
    induction rows with
    | nil => intro _; rfl
    | cons r rows ih =>
      intro h
      obtain ⟨l, h1⟩ := h r (by simp)
      rw [List.map_cons]
      unfold runSteps
      rw [h1]
      exact ih fun r hr => h r (by simp [hr])
  unfold toCSV
  rw [hh, ho]
  dsimp only
  rw [show OFS.write H (OFS.open path ⟨some q, true⟩ fs).1 (OFS.open path ⟨some q, true⟩ fs).2 = (⟨some q, false⟩, fs) from rfl, hr rows hl]
  rfl

/-- **C145, violation.** After an attempt to write that raised, the stream of the output is still open; a later call on the same output returns
without an exception and writes nothing.  Here the unit K for the Gibbs energy makes the first attempt fail; with the unit corrected, the
second attempt returns, and the file still has nothing but the wrong headings of the first. -/
theorem C145_refuted (T P : ℝ) : ∃ w',
    frun sumEngine {} [.request [(T, P)] ["Ca+2"] ["gibbs_energy"], .setUnit "gibbs_energy" "K", .toCSV 0 "out.csv", .setUnit "gibbs_energy" "J/mol",
      .toCSV 0 "out.csv"] = (w', [.ok (), .ok (), .throw, .ok (), .ok ()]) ∧
    w'.files "out.csv" = some [[.text "Symbol", .text "T(K)", .text "P(Pa)", .text "gibbs_energy(K)"]] := by
  obtain ⟨fs', h1, h2⟩ := csv_fail T P
  refine ⟨⟨oneImpl defaultUnits T P, [⟨none, false⟩], fs'⟩, ?_, h2⟩
  have e1 := step_request T P defaultUnits {} [] (fun _ => none) rfl rfl rfl
  have e2 := step_unit (p := "gibbs_energy") (u := "K") (v := "J/mol") (i := oneImpl defaultUnits T P) [⟨none, true⟩] (fun _ => none) rfl
  have e3 := step_csv h1
  have e4 := step_unit (p := "gibbs_energy") (u := "J/mol") (v := "K") (i := oneImpl (mapSet "gibbs_energy" "K" defaultUnits) T P) [⟨some "out.csv", true⟩] fs' rfl
  have hl : csvLine (oneImpl defaultUnits T P) ⟨"Ca+2", T, P, [⟨T + P, 0, 0, 0, .calculated⟩]⟩ = .ok [.text "Ca+2", .num T, .num P, .num (T + P)] := by
    unfold csvLine
    rw [show mapAt "temperature" (oneImpl defaultUnits T P).digits = .ok 1 from rfl,
      show mapAt "pressure" (oneImpl defaultUnits T P).digits = .ok 1 from rfl, Res.ok_bind, Res.ok_bind,
      show (oneImpl defaultUnits T P).properties = ["gibbs_energy"] from rfl]
    unfold csvCells csvCell
    rw [show mapAt "gibbs_energy" (oneImpl defaultUnits T P).digits = .ok 0 from rfl,
      show mapAt "gibbs_energy" (oneImpl defaultUnits T P).units = .ok "J/mol" from rfl,
      show mapAt "gibbs_energy" defaultUnits = .ok "J/mol" from rfl, Res.ok_bind, Res.ok_bind, Res.ok_bind, jmol_ok, if_neg (by simp)]
    rfl
  have e5 := step_csv (csv_lost (i := oneImpl defaultUnits T P) (path := "out.csv") (q := "out.csv") (fs := fs')
    (H := [.text "Symbol", .text "T(K)", .text "P(Pa)", .text "gibbs_energy(J/mol)"]) (rows := [⟨"Ca+2", T, P, [⟨T + P, 0, 0, 0, .calculated⟩]⟩]) rfl
    (by simp [oneImpl, foutResults, visits, Outc.all]) (by intro r hr; rw [List.mem_singleton] at hr; subst hr; exact ⟨_, hl⟩))
  rw [show ({ oneImpl defaultUnits T P with units := mapSet "gibbs_energy" "K" (oneImpl defaultUnits T P).units } : Impl)
      = oneImpl (mapSet "gibbs_energy" "K" defaultUnits) T P from rfl] at e2
  rw [show ({ oneImpl (mapSet "gibbs_energy" "K" defaultUnits) T P with units := mapSet "gibbs_energy" "J/mol" (oneImpl (mapSet "gibbs_energy" "K" defaultUnits) T P).units } : Impl)
      = oneImpl defaultUnits T P from rfl] at e4
  unfold frun
  rw [e1]
  dsimp only
  unfold frun
  rw [List.nil_append, e2]
  dsimp only
  unfold frun
  rw [e3]
  dsimp only
  unfold frun
  rw [e4]
  dsimp only
  unfold frun
  rw [e5]
  rfl

lemma runSteps_stream {i : Impl} {o : OFS} (ho : ∀ (l : List Cell) (fs : Files (List Cell)), (o.write l fs).1 = o) : ∀ (rows : List (Row ℝ (List TS))) (fs : Files (List Cell)),
    ∃ fs', (runSteps (rows.map fun r => fun st : OFS × Files (List Cell) => do
        let l ← csvLine i r
        .ok (st.1.write l st.2)) (o, fs)).1 = (o, fs')
  | [], fs => ⟨fs, rfl⟩
  | r :: rows, fs => by
    rw [List.map_cons]
    unfold runSteps
    cases hl : csvLine i r with
    | throw => exact ⟨fs, rfl⟩
    | ub => exact ⟨fs, rfl⟩
    | ok l =>
      obtain ⟨fs', h⟩ := runSteps_stream (i := i) ho rows (o.write l fs).2
      refine ⟨fs', ?_⟩
      rw [← h]
      show (runSteps _ (o.write l fs)).1 = _
      rw [← Prod.mk.eta (p := o.write l fs), ho l fs]

lemma toCSV_throw {i : Impl} {path : String} {s s' : OFS} {fs fs' : Files (List Cell)} (h : toCSV i path s fs = ((s', fs'), .throw)) (hc : s.file = none) :
    s' = ⟨some path, true⟩ := by
  have h0 : (s.open path fs).1 = ⟨some path, true⟩ := by unfold OFS.open; rw [hc]
  have hw : ∀ (l : List Cell) fs, ((⟨some path, true⟩ : OFS).write l fs).1 = ⟨some path, true⟩ := fun l fs => rfl
  unfold toCSV at h
  dsimp only at h
  rw [← Prod.mk.eta (p := s.open path fs), h0] at h
  cases hh : csvHeader i with
  | throw => rw [hh] at h; simp only [Prod.mk.injEq] at h; exact h.1.1.symm
  | ub => rw [hh] at h; simp at h
  | ok H =>
    rw [hh] at h
    dsimp only at h
    cases ho : foutResults i.pairsFirst i.symbols i.pairs i.results with
    | ub => rw [ho] at h; simp at h
    | ok rows =>
      rw [ho] at h
      dsimp only at h
      obtain ⟨fs2, h2⟩ := runSteps_stream (i := i) hw rows ((⟨some path, true⟩ : OFS).write H (s.open path fs).2).2
      rw [← Prod.mk.eta (p := OFS.write H ⟨some path, true⟩ (s.open path fs).2), hw] at h
      split at h
      · simp at h
      · rename_i st e _ he
        rw [he] at h2
        have h2 : st = _ := h2
        simp only [Prod.mk.injEq] at h
        exact (congrArg Prod.fst h.1.symm).trans (congrArg Prod.fst h2)

lemma toCSV_lost {i : Impl} {path q : String} {s' : OFS} {fs fs' : Files (List Cell)} {r : Res Unit} (h : toCSV i path ⟨some q, true⟩ fs = ((s', fs'), r)) :
    fs' = fs := by
  have hr : ∀ rows : List (Row ℝ (List TS)), (runSteps (rows.map fun r => fun st : OFS × Files (List Cell) => do
        let l ← csvLine i r
        .ok (st.1.write l st.2)) ((⟨some q, false⟩ : OFS), fs)).1 = ((⟨some q, false⟩ : OFS), fs) := by
    intro rows
    induction rows with
    | nil => rfl
    | cons r rows ih =>
      rw [List.map_cons]
      unfold runSteps
      cases hl : csvLine i r with
      | throw => rfl
      | ub => rfl
      | ok l => exact ih
  unfold toCSV at h
  dsimp only at h
  rw [show OFS.open path ⟨some q, true⟩ fs = (⟨some q, false⟩, fs) from rfl] at h
  cases hh : csvHeader i with
  | throw => rw [hh] at h; simp only [Prod.mk.injEq] at h; exact h.1.2.symm
  | ub => rw [hh] at h; simp only [Prod.mk.injEq] at h; exact h.1.2.symm
  | ok H =>
    rw [hh] at h
    dsimp only at h
    rw [show OFS.write H ⟨some q, false⟩ fs = (⟨some q, false⟩, fs) from rfl] at h
    cases ho : foutResults i.pairsFirst i.symbols i.pairs i.results with
    | ub => rw [ho] at h; simp only [Prod.mk.injEq] at h; exact h.1.2.symm
    | ok rows =>
      rw [ho] at h
      dsimp only at h
      have h2 := hr rows
      split at h
      · rename_i st u he
        rw [he] at h2
        have h2 : st = _ := h2
        simp only [Prod.mk.injEq] at h
        rw [← h.1.2, h2]
      · rename_i st e _ he
        rw [he] at h2
        have h2 : st = _ := h2
        simp only [Prod.mk.injEq] at h
        exact (congrArg Prod.snd h.1.symm).trans (congrArg Prod.snd h2)

/-- **C145, violation, in general.** Whenever writing an output raises - in the headings, where a property has no unit, or in a line -, the next
call of `toCSV` on this output writes nothing, to whatever file, with whatever units and results by then, even if it returns. -/
theorem C145_again_refuted (eval : Oracle) (i : Impl) (fs : Files (List Cell)) (ops : List FOp) (k : Nat) (path path' : String) (w w1 w2 : World)
    (rs : List (Res Unit)) (r : Res Unit) (i' : Impl) (h : frun eval ⟨i, [], fs⟩ ops = (w, rs)) (hn : ¬ FailedWrite k ops rs)
    (h1 : fstep eval w (.toCSV k path) = (w1, .throw)) (h2 : fstep eval { w1 with impl := i' } (.toCSV k path') = (w2, r)) : w2.files = w1.files := by
  have hc := frun_closed (eval := eval) ops k ⟨i, [], fs⟩ (by simp) (by rw [h]; exact hn)
  rw [h] at hc
  unfold fstep at h1 h2
  dsimp only at h1 h2
  cases hk : w.outs[k]? with
  | none => rw [hk] at h1; simp at h1
  | some s =>
    rw [hk] at h1
    dsimp only at h1
    rcases ht : toCSV w.impl path s w.files with ⟨⟨s', fs'⟩, r'⟩
    rw [ht] at h1
    simp only [Prod.mk.injEq] at h1
    obtain ⟨h1, rfl⟩ := h1
    have hs := toCSV_throw ht (hc s hk)
    subst h1 hs
    have hlt : k < w.outs.length := by rw [List.getElem?_eq_some_iff] at hk; exact hk.1
    dsimp only at h2
    rw [List.getElem?_set_self hlt] at h2
    dsimp only at h2
    rcases hu : toCSV i' path' ⟨some path, true⟩ fs' with ⟨⟨s2, fs2⟩, r2⟩
    rw [hu] at h2
    simp only [Prod.mk.injEq] at h2
    rw [← h2.1]
    exact toCSV_lost hu

/-- A property without a unit makes the headings raise: the file is empty, and stays empty when it is written again. -/
example : ∃ w1, fstep sumEngine ⟨{ properties := ["gibbs"] }, [{}], fun _ => none⟩ (.toCSV 0 "a.csv") = (w1, .throw) ∧ w1.files "a.csv" = some [] ∧
    (fstep sumEngine { w1 with impl := {} } (.toCSV 0 "a.csv")).1.files "a.csv" = some [] ∧
    (fstep sumEngine { w1 with impl := {} } (.toCSV 0 "a.csv")).2 = .ok () := ⟨_, rfl, rfl, rfl, rfl⟩

/-- The hypotheses of `C145_partial` are met by the second writing of a program that writes twice. -/
example (T P : ℝ) : ∃ w w' rs, frun sumEngine ⟨{}, [], fun _ => none⟩ [.request [(T, P)] ["Ca+2"] ["gibbs_energy"], .toCSV 0 "a.csv"] = (w, rs) ∧
    ¬ FailedWrite 0 [.request [(T, P)] ["Ca+2"] ["gibbs_energy"], .toCSV 0 "a.csv"] rs ∧ fstep sumEngine w (.toCSV 0 "b.csv") = (w', .ok ()) := by
  obtain ⟨fs1, h1, -⟩ := csv_one (i := oneImpl defaultUnits T P)
    (uT := "K") (uP := "Pa") (uG := "J/mol") (path := "a.csv") (s := ⟨none, true⟩)
    (fs := fun _ => none) (T := T) (P := P) rfl rfl rfl rfl rfl rfl rfl rfl rfl (jmol_ok _) rfl
  obtain ⟨fs2, h2, -⟩ := csv_one (i := oneImpl defaultUnits T P)
    (uT := "K") (uP := "Pa") (uG := "J/mol") (path := "b.csv") (s := ⟨none, true⟩)
    (fs := fs1) (T := T) (P := P) rfl rfl rfl rfl rfl rfl rfl rfl rfl (jmol_ok _) rfl
  refine ⟨⟨oneImpl defaultUnits T P, [⟨none, true⟩], fs1⟩, _, [.ok (), .ok ()], ?_, ?_, step_csv h2⟩
  · have e1 := step_request T P defaultUnits {} [] (fun _ => none) rfl rfl rfl
    unfold frun
    rw [e1]
    dsimp only
    unfold frun
    rw [List.nil_append, step_csv h1]
    rfl
  · rintro ⟨n, path, r, h3, h4, h5⟩
    match n, h4 with
    | 0, h4 => cases h4; exact h5 rfl
    | 1, h4 => cases h4; exact h5 rfl
    | n + 2, h4 => simp at h4

end ThermoFun.Batch

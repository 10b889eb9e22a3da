import Verif.Props.Python

/-!
# Numbers handed over from Python

Theorems about the choice among functions of one name (Model/Python.lean): an exact match comes before a conversion (C161).
-/

namespace ThermoFun.Py

lemma takes_snoc {reg : List String} {c : Bool} {d : Def} {ps : List CType} {t : CType} {as : List Val} {v : Val} (hd : d.params = ps ++ [t])
    (hl : as.length = ps.length) :
    takes reg c d (as ++ [v]) = (((ps.zip as).all fun p => accepts reg d.stl c p.1 p.2) && accepts reg d.stl c t v) := by
  unfold takes
  rw [hd, List.zip_append hl.symm]
  simp [hl, List.all_append]

/-- **C161, numbers.**  Of two functions of one name that differ only in their last argument, a `double` in the one and an `int` in the other, a Python integer
that fits calls the one with `int` and a Python `float` the one with `double`, whichever was defined first, if the other arguments need no conversion.  Missing: other arguments that need conversions. -/
theorem C161_numbers_partial (reg : List String) (d e : Def) (ps : List CType) (hd : d.params = ps ++ [.double]) (he : e.params = ps ++ [.int])
    (hs : d.stl = e.stl) (as : List Val) (hl : as.length = ps.length) (ha : ∀ p ∈ ps.zip as, accepts reg e.stl false p.1 p.2 = true) (i : Int)
    (hi : -2147483648 ≤ i ∧ i ≤ 2147483647) (ovs : List Def) (ho : ovs = [d, e] ∨ ovs = [e, d]) :
    dispatch reg ovs (as ++ [.int i]) = finish reg e ∧ dispatch reg ovs (as ++ [.float]) = finish reg d := by
  have hall : ((ps.zip as).all fun p => accepts reg e.stl false p.1 p.2) = true := List.all_eq_true.2 ha
  have d1 : takes reg false d (as ++ [.int i]) = false := by rw [takes_snoc hd hl]; simp [accepts]
  have e1 : takes reg false e (as ++ [.int i]) = true := by rw [takes_snoc he hl, hall]; simp [accepts, hi]
  have d2 : takes reg false d (as ++ [.float]) = true := by rw [takes_snoc hd hl, hs, hall]; simp [accepts]
  have e2 : takes reg false e (as ++ [.float]) = false := by rw [takes_snoc he hl]; simp [accepts]
  rcases ho with h | h <;> subst h <;> simp [dispatch, List.find?, d1, e1, d2, e2]

/-- The solvent function with a state that is an integer, as it is exported, and one with a number, in both orders. -/
example : let e : Def := ⟨"ThermoEngine", "propertiesSolvent", [.double, .double, .string, .int], .cls "PropertiesSolvent", true⟩
    let d : Def := ⟨"ThermoEngine", "propertiesSolvent", [.double, .double, .string, .double], .cls "PropertiesSolvent", true⟩
    e ∈ exports ∧ dispatch registered [d, e] [.float, .float, .str "H2O@", .int 0] = .ran e ∧
      dispatch registered [e, d] [.float, .float, .str "H2O@", .float] = .ran d := by
  intro e d
  have ha : ∀ p ∈ [CType.double, .double, .string].zip [Val.float, .float, .str "H2O@"], accepts registered e.stl false p.1 p.2 = true := by
    simp [accepts]
  have h := fun (ovs : List Def) (ho : ovs = [d, e] ∨ ovs = [e, d]) =>
    C161_numbers_partial registered d e [.double, .double, .string] rfl rfl rfl [.float, .float, .str "H2O@"] rfl ha 0 (by decide) ovs ho
  exact ⟨by decide +kernel, (h _ (.inl rfl)).1.trans (by decide +kernel), (h _ (.inr rfl)).2.trans (by decide +kernel)⟩

end ThermoFun.Py

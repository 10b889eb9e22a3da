import Verif.Lemmas.Units
import Mathlib.Tactic.Linarith
import Mathlib.Tactic.FieldSimp
import Mathlib.Tactic.Ring

/-! Unit conversion: C12–C18. -/

set_option linter.unusedSimpArgs false
set_option maxRecDepth 100000

namespace ThermoFun.Units

/-! ### C12 -/

/-- **C12 (proportional).** Outside temperatures, whenever a conversion is accepted it multiplies by a positive factor that does
not depend on the value. -/
theorem C12_proportional {x y : ℝ} {a b : Sym} (ht : isTemp a = false ∨ isTemp b = false) (h : convert x a b = .ok y) :
    ∃ r, 0 < r ∧ ∀ z, convert z a b = .ok (z * r) := by
  have ht' : (isTemp a && isTemp b) = false := by rcases ht with h | h <;> simp [h]
  obtain ⟨la, lb, da, db, h1, h2, h3, h4, h5, ka, kb, _⟩ := convert_ok ht' h
  have pa := factorProd_pos la ka
  have pb := factorProd_pos lb kb
  exact ⟨_, div_pos pa pb, fun z => by rw [convert_of ht' h1 h2 h3 h4 h5 z, mul_div_assoc]⟩

/-- **C12 (composition).** Converting a to b and b to c is converting a to c, for all strings with `a`, `b` not
temperature names. -/
theorem C12_composes {x y z : ℝ} {a b c : Sym} (ha : isTemp a = false) (hb : isTemp b = false)
    (h : convert x a b = .ok y) (h' : convert y b c = .ok z) : convert x a c = .ok z := by
  obtain ⟨la, lb, da, db, h1, h2, h3, h4, h5, ka, kb, e1⟩ := convert_ok (by simp [ha]) h
  obtain ⟨lb', lc, db', dc, g1, g2, g3, g4, g5, kb', kc, e2⟩ := convert_ok (by simp [hb]) h'
  rw [h2, Res.ok.injEq] at g1; subst g1
  rw [h4, Res.ok.injEq] at g3; subst g3
  rw [convert_of (by simp [ha]) h1 g2 h3 g4 (sameDim_trans h5 g5), e2, e1, Res.ok.injEq]
  have pb := (factorProd_pos lb kb).ne'
  field_simp

/-! ### C14 (before C12's round trip, which includes temperatures) -/

/-- Textbook meaning of a temperature value: the absolute temperature in kelvin. -/
noncomputable def kelvinOf (s : String) (x : ℝ) : ℝ :=
  if s = "K" ∨ s = "kelvin" then x
  else if s = "degC" ∨ s = "celsius" then x + 273.15
  else if s = "degF" ∨ s = "fahrenheit" then (x - 32) * 5 / 9 + 273.15
  else x * 5 / 9

/-- The temperature scales. -/
def scales : List String := ["K", "kelvin", "degC", "celsius", "degF", "fahrenheit", "degR", "rankine"]

theorem toKelvin_scale (s : String) (hs : s ∈ scales) (x : ℝ) : toKelvin depth x s.toList = .ok (kelvinOf s x) := by
  simp only [scales, List.mem_cons, List.not_mem_nil, or_false] at hs
  rcases hs with rfl | rfl | rfl | rfl | rfl | rfl | rfl | rfl <;>
    simp [toKelvin, depth, tempLookup, tempTable, kelvinOf] <;> ring

theorem fromKelvin_scale (s : String) (hs : s ∈ scales) (x : ℝ) :
    fromKelvin depth (kelvinOf s x) s.toList = .ok x := by
  simp only [scales, List.mem_cons, List.not_mem_nil, or_false] at hs
  rcases hs with rfl | rfl | rfl | rfl | rfl | rfl | rfl | rfl <;>
    simp [fromKelvin, depth, tempLookup, tempTable, kelvinOf] <;> ring

theorem isTemp_scale (s : String) (hs : s ∈ scales) : isTemp s.toList = true := by
  simp only [scales, List.mem_cons, List.not_mem_nil, or_false] at hs
  rcases hs with rfl | rfl | rfl | rfl | rfl | rfl | rfl | rfl <;> decide

/-- **C14 (exact).** Converting between temperature scales gives the value that denotes the same absolute temperature. -/
theorem C14_exact (a b : String) (ha : a ∈ scales) (hb : b ∈ scales) (x y : ℝ) (h : kelvinOf a x = kelvinOf b y) :
    convert x a.toList b.toList = .ok y := by
  have h1 := isTemp_scale a ha
  have h2 := isTemp_scale b hb
  rw [convert, if_pos (by simp [h1, h2]), convertTemperature, if_neg (by simp [h1]), if_neg (by simp [h2]),
    toKelvin_scale a ha, Res.ok_bind, h, fromKelvin_scale b hb]

example : kelvinOf "degC" 25 = kelvinOf "degF" 77 := by
  simp [kelvinOf]; norm_num

lemma kelvinOf_surj (b : String) (k : ℝ) : ∃ y, kelvinOf b y = k := by
  unfold kelvinOf
  split_ifs
  · exact ⟨k, rfl⟩
  · exact ⟨k - 273.15, by ring⟩
  · exact ⟨(k - 273.15) * 9 / 5 + 32, by ring⟩
  · exact ⟨k * 9 / 5, by ring⟩

lemma kelvinOf_lt (b : String) (x y : ℝ) : kelvinOf b x < kelvinOf b y ↔ x < y := by
  unfold kelvinOf
  split_ifs <;> constructor <;> intro h <;> linarith

/-- **C14 (total).** Every conversion between scales gives a number, of the same absolute temperature. -/
theorem C14_total (a b : String) (ha : a ∈ scales) (hb : b ∈ scales) (x : ℝ) :
    ∃ y, convert x a.toList b.toList = .ok y ∧ kelvinOf a x = kelvinOf b y := by
  obtain ⟨y, hy⟩ := kelvinOf_surj b (kelvinOf a x)
  exact ⟨y, C14_exact a b ha hb x y hy.symm, hy.symm⟩

/-- **C14 (reversible).** There and back returns the original value. -/
theorem C14_reversible (a b : String) (ha : a ∈ scales) (hb : b ∈ scales) (x y : ℝ)
    (h : convert x a.toList b.toList = .ok y) : convert y b.toList a.toList = .ok x := by
  obtain ⟨y', h1, h2⟩ := C14_total a b ha hb x
  rw [h, Res.ok.injEq] at h1; subst h1
  exact C14_exact b a hb ha y x h2.symm

/-- **C14 (no detour effect).** Going through an intermediate scale makes no difference. -/
theorem C14_composes (a b c : String) (ha : a ∈ scales) (hb : b ∈ scales) (hc : c ∈ scales) (x y z : ℝ)
    (h : convert x a.toList b.toList = .ok y) (h' : convert y b.toList c.toList = .ok z) :
    convert x a.toList c.toList = .ok z := by
  obtain ⟨y', h1, h2⟩ := C14_total a b ha hb x
  rw [h, Res.ok.injEq] at h1; subst h1
  obtain ⟨z', h3, h4⟩ := C14_total b c hb hc y
  rw [h', Res.ok.injEq] at h3; subst h3
  exact C14_exact a c ha hc x z (h2.trans h4)

/-- **C14 (order).** Conversion preserves and reflects order. -/
theorem C14_monotone (a b : String) (ha : a ∈ scales) (hb : b ∈ scales) (x x' y y' : ℝ)
    (h : convert x a.toList b.toList = .ok y) (h' : convert x' a.toList b.toList = .ok y') : x < x' ↔ y < y' := by
  obtain ⟨y1, h1, h2⟩ := C14_total a b ha hb x
  rw [h, Res.ok.injEq] at h1; subst h1
  obtain ⟨y2, h3, h4⟩ := C14_total a b ha hb x'
  rw [h', Res.ok.injEq] at h3; subst h3
  rw [← kelvinOf_lt a, h2, h4, kelvinOf_lt b]

/-- The temperature names of the code are exactly these scales. -/
theorem C14_scales (s : Sym) : isTemp s = true ↔ ∃ n ∈ scales, s = n.toList := by
  constructor
  · intro h
    rw [isTemp_iff] at h
    simp only [tempTable, List.map_cons, List.map_nil, List.mem_cons, List.not_mem_nil, or_false] at h
    rcases h with h | h | h | h | h | h | h | h
    · exact ⟨"K", by simp [scales], by rw [h]; decide⟩
    · exact ⟨"degC", by simp [scales], by rw [h]; decide⟩
    · exact ⟨"degF", by simp [scales], by rw [h]; decide⟩
    · exact ⟨"degR", by simp [scales], by rw [h]; decide⟩
    · exact ⟨"kelvin", by simp [scales], by rw [h]; decide⟩
    · exact ⟨"celsius", by simp [scales], by rw [h]; decide⟩
    · exact ⟨"fahrenheit", by simp [scales], by rw [h]; decide⟩
    · exact ⟨"rankine", by simp [scales], by rw [h]; decide⟩
  · rintro ⟨n, hn, rfl⟩; exact isTemp_scale n hn

/-- **C12 (reversible).** Whenever a conversion is accepted, converting the result back is accepted and returns the original
value; for all strings, temperatures included. -/
theorem C12_reversible {x y : ℝ} {a b : Sym} (h : convert x a b = .ok y) : convert y b a = .ok x := by
  by_cases ht : (isTemp a && isTemp b) = true
  · simp only [Bool.and_eq_true] at ht
    obtain ⟨n, hn, rfl⟩ := (C14_scales a).mp ht.1
    obtain ⟨m, hm, rfl⟩ := (C14_scales b).mp ht.2
    exact C14_reversible n m hn hm x y h
  · have ht : (isTemp a && isTemp b) = false := by simpa using ht
    obtain ⟨la, lb, da, db, h1, h2, h3, h4, h5, ka, kb, e1⟩ := convert_ok ht h
    rw [convert_of (by rw [Bool.and_comm]; exact ht) h2 h1 h4 h3 (sameDim_symm h5), e1, Res.ok.injEq]
    have pa := (factorProd_pos la ka).ne'
    have pb := (factorProd_pos lb kb).ne'
    field_simp

/-- **C12 (identity).** Converting an accepted unit to itself changes nothing. -/
theorem C12_identity {x y : ℝ} {a b : Sym} (h : convert x a b = .ok y) (z : ℝ) :
    convert z a a = .ok z := by
  by_cases ha : isTemp a = true
  · obtain ⟨n, hn, rfl⟩ := (C14_scales a).mp ha
    exact C14_exact n n hn hn z z rfl
  · have ha : isTemp a = false := by simpa using ha
    obtain ⟨la, lb, da, db, h1, h2, h3, h4, h5, ka, kb, e1⟩ := convert_ok (by simp [ha]) h
    rw [convert_of (by simp [ha]) h1 h1 h3 h3 (sameDim_refl _), Res.ok.injEq]
    have pa := (factorProd_pos la ka).ne'
    field_simp

/-! ### C13 -/

/-- What the table defines: `F` assigns a factor to every unit name such that temperature units and base units (defined as
themselves) have factor 1, and a derived unit has the product of its parts `(num/den)·F(part)^(pn/pd)`. -/
structure IsFactor (F : Sym → ℝ) : Prop where
  temperature : ∀ e ∈ tempTable, F e.1 = 1
  base : ∀ e ∈ table, e.2.head?.map (·.sym) = some e.1 → F e.1 = 1
  derived : ∀ e ∈ table, e.2.head?.map (·.sym) ≠ some e.1 →
    F e.1 = (e.2.map (fun u => (u.num : ℝ) / u.den * F u.sym ^ ((u.pn : ℝ) / u.pd))).prod

lemma fval_isFactor : IsFactor fval where
  temperature := by
    intro e he
    have : isTemp e.1 = true := isTemp_iff.mpr (List.mem_map_of_mem he)
    simp [fval, factor, depth, factorF, this]
  base := by
    rintro ⟨s, us⟩ he hs
    obtain ⟨rest, rfl⟩ := base_entry he hs
    simp [fval, factor, depth, factorF, not_temp_of_mem he, lookup_mem he]
  derived := by
    rintro ⟨s, us⟩ he hs
    have hp := resolves_parts he hs
    have hk : ∀ u ∈ us, factorF 11 u.sym = .ok (fval u.sym) := by
      intro u hu
      obtain ⟨f, _, hf⟩ := factorF_ok 11 u.sym (hp u hu).1
      have : fval u.sym = f := by simp [fval, factor, hf depth (by decide)]
      rw [this]; exact hf 11 (le_refl _)
    have h1 := factorLoop_eq 11 fval us 1 hk
    have h2 : factor s = factorLoop (factorF 11) us 1 := by
      rw [factor, depth, factorF, if_neg (by simp [not_temp_of_mem he]), lookup_mem he]
      cases us with
      | nil => have := List.all_eq_true.mp table_head _ he; simp at this
      | cons u us =>
        simp only [List.head?_cons, Option.map_some, ne_eq, Option.some.injEq] at hs
        simp only
        rw [if_neg hs]
    rw [h1] at h2
    simp only [fval, h2, one_mul]
    rfl

/-- **C13.** The table determines exactly one factor for every known unit; it is positive and is what the recursive
look-up computes at any sufficient recursion depth (the look-up terminates). -/
theorem C13_factors : ∃ F : Sym → ℝ, IsFactor F ∧ (∀ s, Known s → 0 < F s) ∧
    (∀ G, IsFactor G → ∀ s, Known s → G s = F s) ∧ (∀ s, Known s → ∀ m, depth ≤ m → factorF m s = .ok (F s)) := by
  refine ⟨fval, fval_isFactor, fun s hs => (factor_known hs).1, ?_, fun s hs => (factor_known hs).2⟩
  intro G hG
  suffices H : ∀ n s, resolves n s = true → G s = fval s from fun s hs => H depth s (resolves_of_known hs)
  intro n
  induction n with
  | zero => intro s h; simp [resolves] at h
  | succ n ih =>
    intro s h
    have hk := known_of_resolves h
    rcases hk with hk | hk
    · simp only [List.mem_map] at hk
      obtain ⟨e, he, rfl⟩ := hk
      rw [hG.temperature e he, fval_isFactor.temperature e he]
    · simp only [List.mem_map] at hk
      obtain ⟨⟨s, us⟩, he, rfl⟩ := hk
      by_cases hs : us.head?.map (·.sym) = some s
      · rw [hG.base _ he hs, fval_isFactor.base _ he hs]
      · rw [hG.derived _ he hs, fval_isFactor.derived _ he hs]
        congr 1
        apply List.map_congr_left
        intro u hu
        rw [ih u.sym]
        rw [resolves, if_neg (by simp [not_temp_of_mem he]), lookup_mem he] at h
        cases us with
        | nil => simp at hu
        | cons v vs =>
          simp only [List.head?_cons, Option.map_some, Option.some.injEq] at hs
          simp only at h
          rw [if_neg hs, List.all_eq_true] at h
          have := h u hu
          simp only [Bool.and_eq_true] at this
          exact this.2

/-- **C13 (no dangling and no cyclic definition).** Every part of a definition is a known unit, and there is a rank that
strictly decreases along definitions. -/
theorem C13_acyclic : (∀ e ∈ table, ∀ u ∈ e.2, Known u.sym) ∧
    ∃ rank : Sym → Nat, ∀ e ∈ table, e.2.head?.map (·.sym) ≠ some e.1 → ∀ u ∈ e.2, rank u.sym < rank e.1 := by
  classical
  constructor
  · rintro ⟨s, us⟩ he u hu
    by_cases hs : us.head?.map (·.sym) = some s
    · have hself : table.all (fun e => if e.2.head?.map (·.sym) = some e.1 then decide (e.2.length = 1) else true) = true := by
        decide +kernel
      have := List.all_eq_true.mp hself _ he
      simp only at this
      rw [if_pos hs] at this
      obtain ⟨rest, rfl⟩ := base_entry he hs
      simp only [List.length_cons, decide_eq_true_eq] at this
      have : rest = [] := List.length_eq_zero_iff.mp (by omega)
      subst this
      simp only [List.mem_singleton] at hu
      subst hu
      exact Or.inr (List.mem_map_of_mem he)
    · exact known_of_resolves (resolves_parts he hs u hu).1
  · refine ⟨fun s => if h : ∃ n, resolves n s = true then Nat.find h else 0, ?_⟩
    rintro ⟨s, us⟩ he hs u hu
    have hex : ∃ n, resolves n s = true := ⟨_, resolves_mem he⟩
    have hexu : ∃ n, resolves n u.sym = true := ⟨_, (resolves_parts he hs u hu).1⟩
    simp only [dif_pos hex, dif_pos hexu]
    have hf := Nat.find_spec hex
    generalize Nat.find hex = n at hf ⊢
    cases n with
    | zero => simp [resolves] at hf
    | succ n =>
      rw [resolves, if_neg (by simp [not_temp_of_mem he]), lookup_mem he] at hf
      cases us with
      | nil => simp at hu
      | cons v vs =>
        simp only [List.head?_cons, Option.map_some, ne_eq, Option.some.injEq] at hs
        simp only at hf
        rw [if_neg hs, List.all_eq_true] at hf
        have := hf u hu
        simp only [Bool.and_eq_true] at this
        have := Nat.find_min' hexu this.2
        omega

/-- A derived unit with three parts: the newton. -/
example : Known "N".toList ∧ fval "N".toList = 1000 := by
  constructor
  · exact Or.inr (by decide)
  · have h := fval_isFactor.derived ("N".toList, [⟨1, 1, "kg".toList, 1, 1⟩, ⟨1, 1, "m".toList, 1, 1⟩, ⟨1, 1, "s".toList, -2, 1⟩])
      (mem_of_lookup (by decide +kernel)) (by decide)
    have hkg := fval_isFactor.derived ("kg".toList, [⟨1000, 1, "g".toList, 1, 1⟩]) (mem_of_lookup (by decide +kernel)) (by decide)
    have hg := fval_isFactor.base ("g".toList, [⟨1, 1, "g".toList, 1, 1⟩]) (mem_of_lookup (by decide +kernel)) (by decide)
    have hm := fval_isFactor.base ("m".toList, [⟨1, 1, "m".toList, 1, 1⟩]) (mem_of_lookup (by decide +kernel)) (by decide)
    have hs := fval_isFactor.base ("s".toList, [⟨1, 1, "s".toList, 1, 1⟩]) (mem_of_lookup (by decide +kernel)) (by decide)
    simp only [List.map_cons, List.map_nil, List.prod_cons, List.prod_nil] at h hkg
    rw [h, hm, hs, hkg, hg]
    norm_num

/-! ### C16 -/

/-- Unit expressions: symbols, products, quotients and parentheses. -/
inductive UE where
  | sym (s : Sym)
  | paren (e : UE)
  | mul (l r : UE)
  | div (l r : UE)

/-- The right operand of an operator must be a symbol or parenthesised. -/
def UE.isTerm : UE → Prop
  | .sym _ => True
  | .paren _ => True
  | _ => False

/-- Well-formed expressions: symbols are non-empty and free of `*`, `/`, `(`, `)`; operators associate to the left. -/
def UE.WF : UE → Prop
  | .sym s => s ≠ [] ∧ ∀ c ∈ s, c ≠ '*' ∧ c ≠ '/' ∧ c ≠ '(' ∧ c ≠ ')'
  | .paren e => e.WF
  | .mul l r => l.WF ∧ r.WF ∧ r.isTerm
  | .div l r => l.WF ∧ r.WF ∧ r.isTerm

/-- The text of an expression. -/
def UE.render : UE → Sym
  | .sym s => s
  | .paren e => '(' :: e.render ++ [')']
  | .mul l r => l.render ++ '*' :: r.render
  | .div l r => l.render ++ '/' :: r.render

/-- The arithmetic value of an expression over the values `F` of its symbols. -/
noncomputable def UE.value (F : Sym → ℝ) : UE → ℝ
  | .sym s => F s
  | .paren e => e.value F
  | .mul l r => l.value F * r.value F
  | .div l r => l.value F / r.value F

/-- The symbols of an expression. -/
def UE.syms : UE → List Sym
  | .sym s => [s]
  | .paren e => e.syms
  | .mul l r => l.syms ++ r.syms
  | .div l r => l.syms ++ r.syms

/-- The symbols with their exponents ±1. -/
def UE.terms : UE → Int → List (Sym × Int)
  | .sym s, p => [(s, p)]
  | .paren e, p => e.terms p
  | .mul l r, p => l.terms p ++ r.terms p
  | .div l r, p => l.terms p ++ r.terms (-p)

lemma parseRev_paren_none {cs : List Char} (h : matchP 0 cs = none) : parseRev (')' :: cs) = .throw := by
  rw [parseRev]; simp only [if_true]
  split <;> simp_all

lemma parseRev_paren0 {cs i : List Char} (h : matchP 0 cs = some (i, [])) : parseRev (')' :: cs) = parseRev i := by
  rw [parseRev]; simp only [if_true]
  split <;> simp_all

lemma parseRev_paren1 {cs i l : List Char} {o : Char} (h : matchP 0 cs = some (i, o :: l)) :
    parseRev (')' :: cs) = (do let a ← parseRev l; let b ← parseRev i; .ok (.node [o] a b)) := by
  rw [parseRev]; simp only [if_true]
  split <;> simp_all

lemma parseRev_leaf {c : Char} {cs : List Char} (hc : c ≠ ')') (h : lastOp (c :: cs) = none) :
    parseRev (c :: cs) = .ok (.node (c :: cs).reverse .null .null) := by
  rw [parseRev]; simp only [if_neg hc]
  split <;> simp_all

lemma parseRev_op0 {c o : Char} {cs r : List Char} (hc : c ≠ ')') (h : lastOp (c :: cs) = some (r, o, [])) :
    parseRev (c :: cs) = .ub := by
  rw [parseRev]; simp only [if_neg hc]
  split <;> simp_all

lemma parseRev_op {c o d : Char} {cs r l : List Char} (hc : c ≠ ')') (h : lastOp (c :: cs) = some (r, o, d :: l)) :
    parseRev (c :: cs) = (do let a ← parseRev (d :: l); .ok (.node [o] a (.node r.reverse .null .null))) := by
  rw [parseRev]; simp only [if_neg hc]
  split <;> simp_all

/-- Scanning over a balanced expression does not change the level. -/
lemma matchP_render (e : UE) : e.WF → ∀ (lvl : Nat) (rest : List Char),
    matchP lvl (e.render.reverse ++ rest) = (matchP lvl rest).map (fun p => (e.render.reverse ++ p.1, p.2)) := by
  induction e with
  | sym s =>
    intro h lvl rest
    simp only [UE.render]
    have hs : ∀ c ∈ s.reverse, c ≠ '(' ∧ c ≠ ')' := fun c hc => ⟨(h.2 c (by simpa using hc)).2.2.1, (h.2 c (by simpa using hc)).2.2.2⟩
    generalize s.reverse = t at hs
    clear h
    induction t with
    | nil => simp
    | cons c t ih =>
      have hc := hs c (by simp)
      simp only [List.cons_append, matchP, if_neg hc.1, if_neg hc.2, ih (fun x hx => hs x (by simp [hx])), Option.map_map]
      rfl
  | paren e ih =>
    intro h lvl rest
    simp only [UE.render, List.reverse_append, List.reverse_cons, List.reverse_nil, List.nil_append,
      List.cons_append, List.append_assoc, List.singleton_append]
    simp only [matchP, if_true]
    rw [ih h (lvl + 1)]
    simp [matchP, Option.map_map, Function.comp_def]
  | mul l r ihl ihr =>
    intro h lvl rest
    simp only [UE.render, List.reverse_append, List.reverse_cons, List.append_assoc, List.singleton_append,
      List.cons_append, List.nil_append]
    rw [ihr h.2.1]
    simp [matchP, ihl h.1, Option.map_map, Function.comp_def]
  | div l r ihl ihr =>
    intro h lvl rest
    simp only [UE.render, List.reverse_append, List.reverse_cons, List.append_assoc, List.singleton_append,
      List.cons_append, List.nil_append]
    rw [ihr h.2.1]
    simp [matchP, ihl h.1, Option.map_map, Function.comp_def]

lemma lastOp_sym (t rest : List Char) (h : ∀ c ∈ t, c ≠ '*' ∧ c ≠ '/') :
    lastOp (t ++ rest) = (lastOp rest).map (fun p => (t ++ p.1, p.2.1, p.2.2)) := by
  induction t with
  | nil => simp
  | cons c t ih =>
    have hc := h c (by simp)
    simp only [List.cons_append, lastOp, hc.1, hc.2, or_self, if_false, ih (fun x hx => h x (by simp [hx])), Option.map_map]
    rfl

lemma render_ne_nil (e : UE) (h : e.WF) : e.render ≠ [] := by
  cases e with
  | sym s => exact h.1
  | paren e => simp [UE.render]
  | mul l r => simp [UE.render]
  | div l r => simp [UE.render]

/-- The text before an operator applied to a symbol or parenthesised operand. -/
lemma parse_operator (l r : UE) (o : Char) (ho : o = '*' ∨ o = '/') (hl : l.WF) (hr : r.WF) (ht : r.isTerm)
    {tl tr : Tree} (h1 : parseRev l.render.reverse = .ok tl) (h2 : parseRev r.render.reverse = .ok tr) :
    parseRev ((l.render ++ o :: r.render).reverse) = .ok (.node [o] tl tr) := by
  have hlne : l.render.reverse ≠ [] := by simpa using render_ne_nil l hl
  obtain ⟨d, l', hl'⟩ := List.exists_cons_of_ne_nil hlne
  cases r with
  | mul => exact ht.elim
  | div => exact ht.elim
  | sym s =>
    simp only [UE.render] at h2 ⊢
    have hsr : s.reverse ≠ [] := by simpa using hr.1
    obtain ⟨c, t, hct⟩ := List.exists_cons_of_ne_nil hsr
    have hall : ∀ x ∈ s.reverse, x ≠ '*' ∧ x ≠ '/' := fun x hx => ⟨(hr.2 x (by simpa using hx)).1, (hr.2 x (by simpa using hx)).2.1⟩
    have hc : c ≠ ')' := (hr.2 c (by have : c ∈ s.reverse := by rw [hct]; simp
                                     simpa using this)).2.2.2
    have hleaf : lastOp (c :: t) = none := by
      have := lastOp_sym s.reverse [] hall
      rw [List.append_nil, hct] at this
      rw [this]; rfl
    rw [hct, parseRev_leaf hc hleaf] at h2
    have hop : lastOp (c :: (t ++ o :: (d :: l'))) = some (s.reverse, o, d :: l') := by
      have := lastOp_sym s.reverse (o :: d :: l') hall
      rw [hct, List.cons_append] at this
      rw [this]
      rcases ho with rfl | rfl <;> simp [lastOp, hct]
    have hrev : (l.render ++ o :: s).reverse = c :: (t ++ o :: (d :: l')) := by
      rw [List.reverse_append, List.reverse_cons, hct, hl']; simp
    rw [hrev, parseRev_op hc hop, ← hl', h1, Res.ok_bind]
    rw [Res.ok.injEq] at h2
    rw [← h2, ← hct]
  | paren e =>
    simp only [UE.render] at h2 ⊢
    have hm0 : matchP 0 (e.render.reverse ++ ['(']) = some (e.render.reverse, []) := by
      rw [matchP_render e hr]; simp [matchP]
    have hm1 : matchP 0 (e.render.reverse ++ '(' :: o :: l.render.reverse) = some (e.render.reverse, o :: l.render.reverse) := by
      rw [matchP_render e hr]; simp [matchP]
    have hrev : (l.render ++ o :: ('(' :: e.render ++ [')'])).reverse =
        ')' :: (e.render.reverse ++ '(' :: o :: l.render.reverse) := by simp
    have hrev0 : ('(' :: e.render ++ [')']).reverse = ')' :: (e.render.reverse ++ ['(']) := by simp
    rw [hrev0, parseRev_paren0 hm0] at h2
    rw [hrev, parseRev_paren1 hm1, h1, h2]
    rfl

/-- Parsing the text of a well-formed expression gives its symbols with the right exponents. -/
lemma parse_render (e : UE) : e.WF → ∃ t, parseRev e.render.reverse = .ok t ∧ ∀ p, flatten t p = .ok (e.terms p) := by
  induction e with
  | sym s =>
    intro h
    have hsr : s.reverse ≠ [] := by simpa using h.1
    obtain ⟨c, t, hct⟩ := List.exists_cons_of_ne_nil hsr
    have hall : ∀ x ∈ s.reverse, x ≠ '*' ∧ x ≠ '/' := fun x hx => ⟨(h.2 x (by simpa using hx)).1, (h.2 x (by simpa using hx)).2.1⟩
    have hc : c ≠ ')' := (h.2 c (by have : c ∈ s.reverse := by rw [hct]; simp
                                    simpa using this)).2.2.2
    have hleaf : lastOp (c :: t) = none := by
      have := lastOp_sym s.reverse [] hall
      rw [List.append_nil, hct] at this
      rw [this]; rfl
    refine ⟨_, by simp only [UE.render]; rw [hct]; exact parseRev_leaf hc hleaf, ?_⟩
    intro p
    rw [← hct, List.reverse_reverse]
    have h1 : s ≠ ['*'] := by rintro rfl; exact (h.2 '*' (by simp)).1 rfl
    have h2 : s ≠ ['/'] := by rintro rfl; exact (h.2 '/' (by simp)).2.1 rfl
    simp [flatten, h1, h2, UE.terms]
  | paren e ih =>
    intro h
    obtain ⟨t, ht, hf⟩ := ih h
    have hm0 : matchP 0 (e.render.reverse ++ ['(']) = some (e.render.reverse, []) := by
      rw [matchP_render e h]; simp [matchP]
    have hrev0 : ('(' :: e.render ++ [')']).reverse = ')' :: (e.render.reverse ++ ['(']) := by simp
    refine ⟨t, by simp only [UE.render]; rw [hrev0, parseRev_paren0 hm0, ht], hf⟩
  | mul l r ihl ihr =>
    intro h
    obtain ⟨tl, hl, fl⟩ := ihl h.1
    obtain ⟨tr, hr, fr⟩ := ihr h.2.1
    refine ⟨_, parse_operator l r '*' (Or.inl rfl) h.1 h.2.1 h.2.2 hl hr, fun p => ?_⟩
    simp [flatten, fl, fr, UE.terms]
  | div l r ihl ihr =>
    intro h
    obtain ⟨tl, hl, fl⟩ := ihl h.1
    obtain ⟨tr, hr, fr⟩ := ihr h.2.1
    refine ⟨_, parse_operator l r '/' (Or.inr rfl) h.1 h.2.1 h.2.2 hl hr, fun p => ?_⟩
    simp [flatten, fl, fr, UE.terms]

lemma parseUnit_render (e : UE) (h : e.WF) : parseUnit e.render = .ok (e.terms 1) := by
  obtain ⟨t, ht, hf⟩ := parse_render e h
  rw [parseUnit, ht, Res.ok_bind, hf]

lemma terms_syms (e : UE) : ∀ p, ∀ x ∈ e.terms p, x.1 ∈ e.syms := by
  induction e with
  | sym s => intro p x hx; simp [UE.terms] at hx; simp [hx, UE.syms]
  | paren e ih => intro p x hx; exact ih p x hx
  | mul l r ihl ihr =>
    intro p x hx
    rcases List.mem_append.mp hx with h | h
    · exact List.mem_append_left _ (ihl _ x h)
    · exact List.mem_append_right _ (ihr _ x h)
  | div l r ihl ihr =>
    intro p x hx
    rcases List.mem_append.mp hx with h | h
    · exact List.mem_append_left _ (ihl _ x h)
    · exact List.mem_append_right _ (ihr _ x h)

lemma syms_terms (e : UE) : ∀ p, ∀ s ∈ e.syms, ∃ q, (s, q) ∈ e.terms p := by
  induction e with
  | sym s => intro p x hx; simp [UE.syms] at hx; exact ⟨p, by simp [UE.terms, hx]⟩
  | paren e ih => intro p x hx; exact ih p x hx
  | mul l r ihl ihr =>
    intro p x hx
    rcases List.mem_append.mp hx with h | h
    · obtain ⟨q, hq⟩ := ihl p x h; exact ⟨q, List.mem_append_left _ hq⟩
    · obtain ⟨q, hq⟩ := ihr p x h; exact ⟨q, List.mem_append_right _ hq⟩
  | div l r ihl ihr =>
    intro p x hx
    rcases List.mem_append.mp hx with h | h
    · obtain ⟨q, hq⟩ := ihl p x h; exact ⟨q, List.mem_append_left _ hq⟩
    · obtain ⟨q, hq⟩ := ihr (-p) x h; exact ⟨q, List.mem_append_right _ hq⟩

lemma terms_prod (F : Sym → ℝ) (e : UE) (hF : ∀ s ∈ e.syms, 0 < F s) : ∀ p : Int, (p = 1 ∨ p = -1) →
    ((e.terms p).map (fun x => F x.1 ^ (x.2 : ℝ))).prod = e.value F ^ (p : ℝ) := by
  have hpos : ∀ e : UE, (∀ s ∈ e.syms, 0 < F s) → 0 < e.value F := by
    intro e
    induction e with
    | sym s => intro h; exact h s (by simp [UE.syms])
    | paren e ih => intro h; exact ih h
    | mul l r ihl ihr =>
      intro h
      exact mul_pos (ihl (fun s hs => h s (by simp [UE.syms, hs]))) (ihr (fun s hs => h s (by simp [UE.syms, hs])))
    | div l r ihl ihr =>
      intro h
      exact div_pos (ihl (fun s hs => h s (by simp [UE.syms, hs]))) (ihr (fun s hs => h s (by simp [UE.syms, hs])))
  induction e with
  | sym s => intro p _; simp [UE.terms, UE.value]
  | paren e ih => intro p hp; exact ih hF p hp
  | mul l r ihl ihr =>
    intro p hp
    have hl : ∀ s ∈ l.syms, 0 < F s := fun s hs => hF s (by simp [UE.syms, hs])
    have hr : ∀ s ∈ r.syms, 0 < F s := fun s hs => hF s (by simp [UE.syms, hs])
    simp only [UE.terms, List.map_append, List.prod_append, UE.value]
    rw [ihl hl p hp, ihr hr p hp, Real.mul_rpow (hpos l hl).le (hpos r hr).le]
  | div l r ihl ihr =>
    intro p hp
    have hl : ∀ s ∈ l.syms, 0 < F s := fun s hs => hF s (by simp [UE.syms, hs])
    have hr : ∀ s ∈ r.syms, 0 < F s := fun s hs => hF s (by simp [UE.syms, hs])
    simp only [UE.terms, List.map_append, List.prod_append, UE.value]
    rw [ihl hl p hp, ihr hr (-p) (by omega), Real.div_rpow (hpos l hl).le (hpos r hr).le, div_eq_mul_inv,
      ← Real.rpow_neg (hpos r hr).le]
    push_cast
    rfl

/-- **C16.** Between any two well-formed unit expressions (not both bare temperature names), an accepted conversion of x
gives `x · value(e) / value(e')`, where `value` is the arithmetic value of the expression with `*`, `/` evaluated from
left to right and parentheses respected, over the factors `F` the table defines. -/
theorem C16_meaning (F : Sym → ℝ) (hF : IsFactor F) (e e' : UE) (he : e.WF) (he' : e'.WF)
    (ht : isTemp e.render = false ∨ isTemp e'.render = false) {x y : ℝ} (h : convert x e.render e'.render = .ok y) :
    y = x * e.value F / e'.value F := by
  have ht' : (isTemp e.render && isTemp e'.render) = false := by rcases ht with h | h <;> simp [h]
  obtain ⟨la, lb, da, db, h1, h2, h3, h4, h5, ka, kb, e1⟩ := convert_ok ht' h
  rw [parseUnit_render e he, Res.ok.injEq] at h1; subst h1
  rw [parseUnit_render e' he', Res.ok.injEq] at h2; subst h2
  obtain ⟨F0, hF0, _, huniq, _⟩ := C13_factors
  have hFv : ∀ s, Known s → fval s = F s := fun s hs => by
    rw [huniq F hF s hs, huniq fval fval_isFactor s hs]
  have hval : ∀ e : UE, (∀ s ∈ e.syms, Known s) → e.value fval = e.value F := by
    intro e
    induction e with
    | sym s => intro h; exact hFv s (h s (by simp [UE.syms]))
    | paren e ih => intro h; exact ih h
    | mul l r ihl ihr =>
      intro h
      simp only [UE.value, ihl (fun s hs => h s (by simp [UE.syms, hs])), ihr (fun s hs => h s (by simp [UE.syms, hs]))]
    | div l r ihl ihr =>
      intro h
      simp only [UE.value, ihl (fun s hs => h s (by simp [UE.syms, hs])), ihr (fun s hs => h s (by simp [UE.syms, hs]))]
  have kse : ∀ s ∈ e.syms, Known s := fun s hs => by
    obtain ⟨q, hq⟩ := syms_terms e 1 s hs; exact ka _ hq
  have kse' : ∀ s ∈ e'.syms, Known s := fun s hs => by
    obtain ⟨q, hq⟩ := syms_terms e' 1 s hs; exact kb _ hq
  rw [e1, terms_prod fval e (fun s hs => (factor_known (kse s hs)).1) 1 (Or.inl rfl),
    terms_prod fval e' (fun s hs => (factor_known (kse' s hs)).1) 1 (Or.inl rfl), hval e kse, hval e' kse']
  simp

/-- J/(mol*K) is such an expression. -/
example : (UE.div (.sym "J".toList) (.paren (.mul (.sym "mol".toList) (.sym "K".toList)))).WF ∧
    (UE.div (.sym "J".toList) (.paren (.mul (.sym "mol".toList) (.sym "K".toList)))).render = "J/(mol*K)".toList := by
  constructor
  · simp [UE.WF, UE.isTerm]
  · decide

/-! ### C15 -/

/-- What the table says about physical dimensions: `D s b` is the exponent of the base unit `b` in `s`.  All temperature
units have the dimension of K, "1" has none, every other self-defined unit is its own base, and derived units add up
their parts times the powers. -/
structure IsDim (D : Sym → Sym → ℚ) : Prop where
  temperature : ∀ e ∈ tempTable, ∀ b, D e.1 b = if b = ['K'] then 1 else 0
  one : ∀ b, D ['1'] b = 0
  base : ∀ e ∈ table, e.2.head?.map (·.sym) = some e.1 → e.1 ≠ ['1'] → ∀ b, D e.1 b = if b = e.1 then 1 else 0
  derived : ∀ e ∈ table, e.2.head?.map (·.sym) ≠ some e.1 → ∀ b,
    D e.1 b = (e.2.map (fun u => (u.pn : ℚ) / u.pd * D u.sym b)).sum

/-- Dimension of an expression: products add, quotients subtract. -/
def UE.dim (D : Sym → Sym → ℚ) : UE → Sym → ℚ
  | .sym s => D s
  | .paren e => e.dim D
  | .mul l r => fun b => l.dim D b + r.dim D b
  | .div l r => fun b => l.dim D b - r.dim D b

/-- Construction of the dimension assignment. -/
def physF : Nat → Sym → Sym → ℚ
  | 0, _, _ => 0
  | n + 1, s, b =>
    if isTemp s then (if b = ['K'] then 1 else 0)
    else match lookup s table with
      | none => 0
      | some us =>
        if us.head?.map (·.sym) = some s then (if s = ['1'] then 0 else if b = s then 1 else 0)
        else (us.map (fun u => (u.pn : ℚ) / u.pd * physF n u.sym b)).sum

lemma physF_stable : ∀ (n : Nat) (s : Sym), resolves n s = true → ∀ b, physF (n + 1) s b = physF n s b
  | 0, s, h => by simp [resolves] at h
  | n + 1, s, h => by
    intro b
    rw [resolves] at h
    rw [physF, physF]
    split
    · rfl
    · rename_i ht
      rw [if_neg ht] at h
      split
      · rfl
      · rename_i us hl
        rw [hl] at h
        split
        · rfl
        · rename_i hs
          cases us with
          | nil => simp at h
          | cons u us =>
            simp only [List.head?_cons, Option.map_some, Option.some.injEq] at hs
            simp only at h
            rw [if_neg hs, List.all_eq_true] at h
            congr 1
            apply List.map_congr_left
            intro v hv
            have := h v hv
            simp only [Bool.and_eq_true] at this
            rw [physF_stable n v.sym this.2 b]

lemma exists_isDim : ∃ D, IsDim D := by
  refine ⟨physF (11 + 1), ?_, ?_, ?_, ?_⟩
  · intro e he b
    have : isTemp e.1 = true := isTemp_iff.mpr (List.mem_map_of_mem he)
    rw [physF, if_pos this]
  · intro b
    have h1 : isTemp ['1'] = false := by decide
    have h2 : lookup ['1'] table = some [⟨1, 1, ['1'], 1, 1⟩] := by decide +kernel
    rw [physF, if_neg (by rw [h1]; simp), h2]
    simp
  · rintro ⟨s, us⟩ he hs h1 b
    simp only at h1 hs
    rw [physF, if_neg (by rw [not_temp_of_mem he]; simp), lookup_mem he]
    simp only
    rw [if_pos hs, if_neg h1]
  · rintro ⟨s, us⟩ he hs b
    have hp := resolves_parts he hs
    simp only at hs
    rw [physF, if_neg (by rw [not_temp_of_mem he]; simp), lookup_mem he]
    simp only
    rw [if_neg hs]
    refine congrArg List.sum (List.map_congr_left fun u hu => ?_)
    rw [physF_stable 11 u.sym (hp u hu).1 b]

/-- Physical dimension of a list of map increments. -/
def phys (D : Sym → Sym → ℚ) (d : Dims) (b : Sym) : ℚ := (d.map (fun k => (k.2 : ℚ) * D k.1 b)).sum

lemma phys_append (D : Sym → Sym → ℚ) (d e : Dims) (b : Sym) : phys D (d ++ e) b = phys D d b + phys D e b := by
  simp [phys]

lemma phys_eq_sum (D : Sym → Sym → ℚ) (b : Sym) (S : Finset Sym) (d : Dims) (h : ∀ k ∈ d, k.1 ∈ S) :
    phys D d b = ∑ s ∈ S, (coef d s : ℚ) * D s b := by
  induction d with
  | nil => simp [phys, coef]
  | cons k d ih =>
    have h1 : phys D (k :: d) b = (k.2 : ℚ) * D k.1 b + phys D d b := by simp [phys]
    have h2 : ∀ s, coef (k :: d) s = (if k.1 = s then k.2 else 0) + coef d s := by intro s; simp [coef]
    rw [h1, ih (fun x hx => h x (by simp [hx]))]
    simp only [h2, Int.cast_add, add_mul, Finset.sum_add_distrib]
    congr 1
    rw [Finset.sum_eq_single k.1]
    · simp
    · intro s _ hs; simp [Ne.symm hs]
    · intro hk; exact absurd (h k (by simp)) hk

lemma phys_congr (D : Sym → Sym → ℚ) (d e : Dims) (h : sameDim d e = true) (b : Sym) : phys D d b = phys D e b := by
  rw [sameDim_iff] at h
  rw [phys_eq_sum D b ((d ++ e).map Prod.fst).toFinset d (by intro k hk; simp only [List.mem_toFinset]; exact List.mem_map_of_mem (by simp [hk])),
    phys_eq_sum D b ((d ++ e).map Prod.fst).toFinset e (by intro k hk; simp only [List.mem_toFinset]; exact List.mem_map_of_mem (by simp [hk]))]
  apply Finset.sum_congr rfl
  intro s _
  rw [h s]

/-- Symbols whose definition uses whole powers only (`clean`: and no dimensionless or non-kelvin temperature unit). -/
def intResolves (clean : Bool) : Nat → Sym → Bool
  | 0, _ => false
  | n + 1, s =>
    if isTemp s then !clean || decide (s = ['K'])
    else match lookup s table with
      | none => false
      | some [] => false
      | some (u :: us) =>
        if u.sym = s then u.num == 1 && u.den == 1 && u.pn == 1 && u.pd == 1 && (!clean || decide (s ≠ ['1']))
        else (u :: us).all (fun v => v.pd == 1 && intResolves clean n v.sym)

/-- Names of units defined with a fractional power. -/
def fractional : List Sym := ["K^0.5".toList, "K^1.5".toList, "bar^0.5".toList]

/-- Names of dimensionless units. -/
def dimensionless : List Sym :=
  ["1".toList, "%%".toList, "percent".toList, "%%%%".toList, "permil".toList, "ppm".toList, "ppb".toList]

lemma table_int : table.all (fun e => decide (e.1 ∈ fractional) || intResolves false depth e.1) = true := by
  decide +kernel

lemma table_clean : table.all (fun e => decide (e.1 ∈ fractional) || decide (e.1 ∈ dimensionless) ||
    intResolves true depth e.1) = true := by decide +kernel

lemma int_of_known {s : Sym} (hk : Known s) (hf : s ∉ fractional) : intResolves false depth s = true := by
  rcases hk with h | h
  · have : isTemp s = true := isTemp_iff.mpr h
    simp [depth, intResolves, this]
  · simp only [List.mem_map] at h
    obtain ⟨e, he, rfl⟩ := h
    have := List.all_eq_true.mp table_int _ he
    simpa [hf] using this

lemma clean_of_known {s : Sym} (hk : Known s) (hf : s ∉ fractional) (hd : s ∉ dimensionless)
    (ht : isTemp s = true → s = ['K']) : intResolves true depth s = true := by
  rcases hk with h | h
  · have : isTemp s = true := isTemp_iff.mpr h
    rw [depth, intResolves, if_pos this]
    simp [ht this]
  · simp only [List.mem_map] at h
    obtain ⟨e, he, rfl⟩ := h
    have := List.all_eq_true.mp table_clean _ he
    simpa [hf, hd] using this

lemma tempMem {s : Sym} (h : isTemp s = true) : ∃ e ∈ tempTable, e.1 = s := by
  simpa using isTemp_iff.mp h

/-- The increments the code makes add up to the physical dimension times the multiplier. -/
lemma dimF_phys (D : Sym → Sym → ℚ) (hD : IsDim D) (clean : Bool) : ∀ (n : Nat) (s : Sym), intResolves clean n s = true →
    ∀ m d, dimF n s m = .ok d → (∀ b, phys D d b = m * D s b) ∧
      (clean = true → ∀ k ∈ d, ∀ b, D k.1 b = if b = k.1 then 1 else 0)
  | 0, s, h => by simp [intResolves] at h
  | n + 1, s, h => by
    intro m d hd
    rw [intResolves] at h
    rw [dimF] at hd
    split at h
    · rename_i ht
      rw [if_pos ht, Res.ok.injEq] at hd
      subst hd
      refine ⟨fun b => by simp [phys], fun hc k hk b => ?_⟩
      simp only [List.mem_singleton] at hk
      subst hk
      simp only [hc, Bool.not_true, Bool.false_or, decide_eq_true_eq] at h
      obtain ⟨e, he, rfl⟩ := tempMem ht
      simp only
      rw [hD.temperature e he, h]
    · rename_i ht
      rw [if_neg ht] at hd
      split at h
      · simp at h
      · simp at h
      · rename_i u us hl
        rw [hl] at hd
        simp only at hd
        have hmem := mem_of_lookup hl
        split at h
        · rename_i hs
          rw [if_pos hs, Res.ok.injEq] at hd
          simp only [Bool.and_eq_true, beq_iff_eq] at h
          obtain ⟨⟨⟨⟨h1, h2⟩, h3⟩, h4⟩, h5⟩ := h
          subst hd
          rw [h3, h4]
          refine ⟨fun b => by simp [phys, hs], fun hc k hk b => ?_⟩
          simp only [List.mem_singleton] at hk
          subst hk
          simp only [hc, Bool.not_true, Bool.false_or, decide_eq_true_eq] at h5
          simp only [hs]
          exact hD.base _ hmem (by simp [hs]) h5 b
        · rename_i hs
          rw [if_neg hs] at hd
          rw [List.all_eq_true] at h
          have hder := hD.derived _ hmem (by simp [hs])
          have key : ∀ (vs : List SU), (∀ v ∈ vs, (v.pd == 1 && intResolves clean n v.sym) = true) → ∀ d,
              dimLoop (dimF n) vs m = .ok d →
              (∀ b, phys D d b = m * (vs.map (fun u => (u.pn : ℚ) / u.pd * D u.sym b)).sum) ∧
              (clean = true → ∀ k ∈ d, ∀ b, D k.1 b = if b = k.1 then 1 else 0) := by
            intro vs
            induction vs with
            | nil =>
              intro _ d hd
              rw [dimLoop, Res.ok.injEq] at hd
              subst hd
              exact ⟨fun b => by simp [phys], fun _ k hk => by simp at hk⟩
            | cons v vs ih =>
              intro hv d hd
              have hv1 := hv v (by simp)
              simp only [Bool.and_eq_true, beq_iff_eq] at hv1
              rw [dimLoop] at hd
              cases hx : dimF n v.sym (Int.tdiv (v.pn * m) v.pd) with
              | throw => rw [hx] at hd; simp at hd
              | ub => rw [hx] at hd; simp at hd
              | ok dx =>
                rw [hx, Res.ok_bind] at hd
                cases hy : dimLoop (dimF n) vs m with
                | throw => rw [hy] at hd; simp at hd
                | ub => rw [hy] at hd; simp at hd
                | ok dy =>
                  rw [hy, Res.ok_bind, Res.ok.injEq] at hd
                  subst hd
                  obtain ⟨p1, p2⟩ := dimF_phys D hD clean n v.sym hv1.2 _ _ hx
                  obtain ⟨q1, q2⟩ := ih (fun w hw => hv w (by simp [hw])) dy hy
                  constructor
                  · intro b
                    rw [phys_append, p1 b, q1 b, hv1.1]
                    simp only [Nat.cast_one, Int.tdiv_one, List.map_cons, List.sum_cons, hv1.1, div_one]
                    push_cast
                    ring
                  · intro hc k hk
                    rcases List.mem_append.mp hk with hk | hk
                    · exact p2 hc k hk
                    · exact q2 hc k hk
          obtain ⟨k1, k2⟩ := key (u :: us) h d hd
          refine ⟨fun b => ?_, k2⟩
          rw [k1 b, hder b]

lemma dimList_phys (D : Sym → Sym → ℚ) (hD : IsDim D) (clean : Bool) : ∀ (l : List (Sym × Int)),
    (∀ x ∈ l, intResolves clean depth x.1 = true) → ∀ d, dimList l = .ok d →
    (∀ b, phys D d b = (l.map (fun x => (x.2 : ℚ) * D x.1 b)).sum) ∧
      (clean = true → ∀ k ∈ d, ∀ b, D k.1 b = if b = k.1 then 1 else 0)
  | [], _, d, hd => by
    rw [dimList, Res.ok.injEq] at hd
    subst hd
    exact ⟨fun b => by simp [phys], fun _ k hk => by simp at hk⟩
  | (s, p) :: l, h, d, hd => by
    rw [dimList] at hd
    cases hx : dimF depth s p with
    | throw => rw [hx] at hd; simp at hd
    | ub => rw [hx] at hd; simp at hd
    | ok dx =>
      rw [hx, Res.ok_bind] at hd
      cases hy : dimList l with
      | throw => rw [hy] at hd; simp at hd
      | ub => rw [hy] at hd; simp at hd
      | ok dy =>
        rw [hy, Res.ok_bind, Res.ok.injEq] at hd
        subst hd
        obtain ⟨p1, p2⟩ := dimF_phys D hD clean depth s (h (s, p) (by simp)) _ _ hx
        obtain ⟨q1, q2⟩ := dimList_phys D hD clean l (fun w hw => h w (by simp [hw])) dy hy
        constructor
        · intro b
          rw [phys_append, p1 b, q1 b]; simp
        · intro hc k hk
          rcases List.mem_append.mp hk with hk | hk
          · exact p2 hc k hk
          · exact q2 hc k hk

lemma terms_dim (D : Sym → Sym → ℚ) (e : UE) : ∀ (p : Int) b,
    ((e.terms p).map (fun x => (x.2 : ℚ) * D x.1 b)).sum = p * e.dim D b := by
  induction e with
  | sym s => intro p b; simp [UE.terms, UE.dim]
  | paren e ih => intro p b; exact ih p b
  | mul l r ihl ihr => intro p b; simp only [UE.terms, List.map_append, List.sum_append, ihl, ihr, UE.dim]; ring
  | div l r ihl ihr =>
    intro p b
    simp only [UE.terms, List.map_append, List.sum_append, ihl, ihr, UE.dim]
    push_cast; ring

/-- **C15 (refused means an error).** On well-formed expressions `convert` returns a number or raises; and it raises whenever
one of them mentions an unknown unit. -/
theorem C15_number_or_error (e e' : UE) (he : e.WF) (he' : e'.WF) (x : ℝ) :
    ((∃ y, convert x e.render e'.render = .ok y) ∨ convert x e.render e'.render = .throw) ∧
    ((∃ s ∈ e.syms ++ e'.syms, ¬ Known s) → convert x e.render e'.render = .throw) := by
  by_cases ht : (isTemp e.render && isTemp e'.render) = true
  · simp only [Bool.and_eq_true] at ht
    obtain ⟨n, hn, hn'⟩ := (C14_scales _).mp ht.1
    obtain ⟨m, hm, hm'⟩ := (C14_scales _).mp ht.2
    rw [hn', hm']
    obtain ⟨y, hy, _⟩ := C14_total n m hn hm x
    refine ⟨Or.inl ⟨y, hy⟩, ?_⟩
    have key : ∀ e : UE, e.WF → isTemp e.render = true → ∀ s ∈ e.syms, Known s := by
      intro e he ht s hs
      have hchars : tempTable.all (fun t => !t.1.contains '(' && !t.1.contains '*' && !t.1.contains '/') = true := by decide
      obtain ⟨t, ht1, ht2⟩ := tempMem ht
      have hc := List.all_eq_true.mp hchars t ht1
      rw [ht2] at hc
      cases e with
      | sym s' =>
        simp only [UE.syms, List.mem_singleton] at hs
        subst hs
        exact Or.inl (isTemp_iff.mp ht)
      | paren e => simp [UE.render] at hc
      | mul l r => simp [UE.render] at hc
      | div l r => simp [UE.render] at hc
    rintro ⟨s, hs, hk⟩
    rcases List.mem_append.mp hs with hs | hs
    · exact absurd (key e he ht.1 s hs) hk
    · exact absurd (key e' he' ht.2 s hs) hk
  · have ht : (isTemp e.render && isTemp e'.render) = false := by simpa using ht
    have hcv : convert x e.render e'.render = (do
        let da ← dimList (e.terms 1)
        let db ← dimList (e'.terms 1)
        if sameDim da db then do
          let fa ← factorList (e.terms 1)
          let fb ← factorList (e'.terms 1)
          .ok (x * fa / fb)
        else .throw) := by
      rw [convert, if_neg (by simp [ht]), parseUnit_render e he, parseUnit_render e' he']; rfl
    by_cases hk : ∀ z ∈ e.terms 1, Known z.1
    · by_cases hk' : ∀ z ∈ e'.terms 1, Known z.1
      · obtain ⟨da, hda⟩ := dimList_ok _ hk
        obtain ⟨db, hdb⟩ := dimList_ok _ hk'
        constructor
        · rw [hcv, hda, hdb, factorList_ok _ hk, factorList_ok _ hk']
          simp only [Res.ok_bind]
          split
          · exact Or.inl ⟨_, rfl⟩
          · exact Or.inr rfl
        · rintro ⟨s, hs, hks⟩
          rcases List.mem_append.mp hs with hs | hs
          · obtain ⟨q, hq⟩ := syms_terms e 1 s hs; exact absurd (hk _ hq) hks
          · obtain ⟨q, hq⟩ := syms_terms e' 1 s hs; exact absurd (hk' _ hq) hks
      · push Not at hk'
        obtain ⟨da, hda⟩ := dimList_ok _ hk
        have : convert x e.render e'.render = .throw := by rw [hcv, hda, Res.ok_bind, dimList_throw _ hk']; rfl
        exact ⟨Or.inr this, fun _ => this⟩
    · push Not at hk
      have : convert x e.render e'.render = .throw := by rw [hcv, dimList_throw _ hk]; rfl
      exact ⟨Or.inr this, fun _ => this⟩

example : (UE.sym "parsec".toList).WF ∧ ¬ Known "parsec".toList := by
  constructor
  · simp [UE.WF]
  · have h1 : "parsec".toList ∉ tempTable.map Prod.fst := by decide
    have h2 : "parsec".toList ∉ table.map Prod.fst := lookup_none.mp (by decide +kernel)
    rintro (h | h)
    · exact h1 h
    · exact h2 h

/-- **C15 (partial).** Full statement: for all unit strings, `convert` gives a number iff both are known units of the same
physical dimension.  Proved here for well-formed expressions whose symbols are not dimensionless names, temperatures
other than K, or names with a fractional power.  Missing (false, below): those. -/
theorem C15_iff_partial (D : Sym → Sym → ℚ) (hD : IsDim D) (e e' : UE) (he : e.WF) (he' : e'.WF)
    (hsym : ∀ s ∈ e.syms ++ e'.syms, s ∉ fractional ∧ s ∉ dimensionless ∧ (isTemp s = true → s = ['K']))
    (hT : isTemp e.render = false ∨ isTemp e'.render = false) (x : ℝ) :
    (∃ y, convert x e.render e'.render = .ok y) ↔
      (∀ s ∈ e.syms ++ e'.syms, Known s) ∧ ∀ b, e.dim D b = e'.dim D b := by
  have ht : (isTemp e.render && isTemp e'.render) = false := by rcases hT with h | h <;> simp [h]
  constructor
  · rintro ⟨y, hy⟩
    obtain ⟨la, lb, da, db, h1, h2, h3, h4, h5, ka, kb, e1⟩ := convert_ok ht hy
    rw [parseUnit_render e he, Res.ok.injEq] at h1; subst h1
    rw [parseUnit_render e' he', Res.ok.injEq] at h2; subst h2
    have kn : ∀ s ∈ e.syms ++ e'.syms, Known s := by
      intro s hs
      rcases List.mem_append.mp hs with hs | hs
      · obtain ⟨q, hq⟩ := syms_terms e 1 s hs; exact ka _ hq
      · obtain ⟨q, hq⟩ := syms_terms e' 1 s hs; exact kb _ hq
    refine ⟨kn, fun b => ?_⟩
    have c1 := (dimList_phys D hD true (e.terms 1) (fun z hz => by
      have := terms_syms e 1 z hz
      exact clean_of_known (ka z hz) (hsym _ (by simp [this])).1 (hsym _ (by simp [this])).2.1 (hsym _ (by simp [this])).2.2) da h3).1 b
    have c2 := (dimList_phys D hD true (e'.terms 1) (fun z hz => by
      have := terms_syms e' 1 z hz
      exact clean_of_known (kb z hz) (hsym _ (by simp [this])).1 (hsym _ (by simp [this])).2.1 (hsym _ (by simp [this])).2.2) db h4).1 b
    rw [terms_dim] at c1 c2
    have := phys_congr D da db h5 b
    rw [c1, c2] at this
    simpa using this
  · rintro ⟨kn, hdim⟩
    have ka : ∀ z ∈ e.terms 1, Known z.1 := fun z hz => kn _ (by simp [terms_syms e 1 z hz])
    have kb : ∀ z ∈ e'.terms 1, Known z.1 := fun z hz => kn _ (by simp [terms_syms e' 1 z hz])
    obtain ⟨da, hda⟩ := dimList_ok _ ka
    obtain ⟨db, hdb⟩ := dimList_ok _ kb
    obtain ⟨c1, c1'⟩ := dimList_phys D hD true (e.terms 1) (fun z hz => by
      have := terms_syms e 1 z hz
      exact clean_of_known (ka z hz) (hsym _ (by simp [this])).1 (hsym _ (by simp [this])).2.1 (hsym _ (by simp [this])).2.2) da hda
    obtain ⟨c2, c2'⟩ := dimList_phys D hD true (e'.terms 1) (fun z hz => by
      have := terms_syms e' 1 z hz
      exact clean_of_known (kb z hz) (hsym _ (by simp [this])).1 (hsym _ (by simp [this])).2.1 (hsym _ (by simp [this])).2.2) db hdb
    have hcoef : ∀ (d : Dims), (∀ k ∈ d, ∀ b, D k.1 b = if b = k.1 then (1 : ℚ) else 0) → ∀ b, phys D d b = (coef d b : ℚ) := by
      intro d
      induction d with
      | nil => intro _ b; simp [phys, coef]
      | cons k d ih =>
        intro h b
        have h1 : phys D (k :: d) b = (k.2 : ℚ) * D k.1 b + phys D d b := by simp [phys]
        have h2 : coef (k :: d) b = (if k.1 = b then k.2 else 0) + coef d b := by simp [coef]
        rw [h1, h2, ih (fun z hz => h z (by simp [hz])) b, h k (by simp) b]
        by_cases hkb : b = k.1
        · simp [hkb]
        · simp [hkb, Ne.symm hkb]
    have hsame : sameDim da db = true := by
      rw [sameDim_iff]
      intro b
      have h1 := c1 b
      have h2 := c2 b
      rw [terms_dim, hcoef da (c1' rfl) b] at h1
      rw [terms_dim, hcoef db (c2' rfl) b] at h2
      have : (coef da b : ℚ) = coef db b := by rw [h1, h2, hdim b]
      exact_mod_cast this
    exact ⟨_, convert_of ht (parseUnit_render e he) (parseUnit_render e' he') hda hdb hsame x⟩

example : ∀ s ∈ (UE.div (.sym "J".toList) (.sym "K".toList)).syms ++ (UE.div (.sym "cal".toList) (.sym "K".toList)).syms,
    s ∉ fractional ∧ s ∉ dimensionless ∧ (isTemp s = true → s = ['K']) := by decide

/-- **C15 (soundness, partial).** An accepted conversion is between equal physical dimensions, also with dimensionless names
and temperature units inside expressions.  Missing (false, below): names with a fractional power. -/
theorem C15_sound_partial (D : Sym → Sym → ℚ) (hD : IsDim D) (e e' : UE) (he : e.WF) (he' : e'.WF)
    (hsym : ∀ s ∈ e.syms ++ e'.syms, s ∉ fractional) (hT : isTemp e.render = false ∨ isTemp e'.render = false)
    {x y : ℝ} (hy : convert x e.render e'.render = .ok y) : ∀ b, e.dim D b = e'.dim D b := by
  intro b
  have ht : (isTemp e.render && isTemp e'.render) = false := by rcases hT with h | h <;> simp [h]
  obtain ⟨la, lb, da, db, h1, h2, h3, h4, h5, ka, kb, e1⟩ := convert_ok ht hy
  rw [parseUnit_render e he, Res.ok.injEq] at h1; subst h1
  rw [parseUnit_render e' he', Res.ok.injEq] at h2; subst h2
  have c1 := (dimList_phys D hD false (e.terms 1) (fun z hz =>
    int_of_known (ka z hz) (hsym _ (by simp [terms_syms e 1 z hz]))) da h3).1 b
  have c2 := (dimList_phys D hD false (e'.terms 1) (fun z hz =>
    int_of_known (kb z hz) (hsym _ (by simp [terms_syms e' 1 z hz]))) db h4).1 b
  rw [terms_dim] at c1 c2
  have := phys_congr D da db h5 b
  rw [c1, c2] at this
  simpa using this

example : ∃ D, IsDim D := exists_isDim

lemma known_of_lookup {s : Sym} (h : (lookup s table).isSome = true) : Known s := by
  obtain ⟨us, hus⟩ := Option.isSome_iff_exists.mp h
  exact Or.inr (List.mem_map_of_mem (f := Prod.fst) (mem_of_lookup hus))

/-- `m/m`. -/
def mOverM : UE := .div (.sym ['m']) (.sym ['m'])

lemma mOverM_wf : mOverM.WF := by simp [mOverM, UE.WF, UE.isTerm]

/-- **C15, violation (a).** `m/m` and `1` have the same (no) dimension, but the conversion is refused. -/
theorem C15_dimensionless_refuted (D : Sym → Sym → ℚ) (hD : IsDim D) (x : ℝ) :
    (∀ b, mOverM.dim D b = (UE.sym ['1']).dim D b) ∧ convert x mOverM.render (UE.sym ['1']).render = .throw := by
  refine ⟨fun b => ?_, ?_⟩
  · simp only [mOverM, UE.dim, hD.one, sub_self]
  · have h1 := parseUnit_render mOverM mOverM_wf
    have h2 := parseUnit_render (.sym ['1']) (by simp [UE.WF])
    rw [convert, if_neg (by decide), h1, h2]
    simp only [Res.ok_bind]
    have d1 : dimList (mOverM.terms 1) = .ok [(['m'], 1), (['m'], -1)] := by decide +kernel
    have d2 : dimList ((UE.sym ['1']).terms 1) = .ok [(['1'], 1)] := by decide +kernel
    rw [d1, d2]
    simp only [Res.ok_bind]
    rw [if_neg (by decide)]

/-- **C15, violation (b).** The unit K^0.5 is accepted as dimensionless: `convert(x, "K^0.5", "m/m")` returns x. -/
theorem C15_fractional_refuted (D : Sym → Sym → ℚ) (hD : IsDim D) (x : ℝ) :
    (∃ b, (UE.sym "K^0.5".toList).dim D b ≠ mOverM.dim D b) ∧
    ∃ y, convert x (UE.sym "K^0.5".toList).render mOverM.render = .ok y := by
  refine ⟨⟨['K'], ?_⟩, ?_⟩
  · have h := hD.derived ("K^0.5".toList, [⟨1, 1, ['K'], 1, 2⟩]) (mem_of_lookup (by decide +kernel)) (by decide) ['K']
    have hK := hD.temperature (['K'], 10, 0, ['K']) (by simp [tempTable]) ['K']
    simp only at h hK
    simp only [UE.dim, mOverM, h]
    simp [hK]
  · have h1 := parseUnit_render (.sym "K^0.5".toList) (by simp [UE.WF])
    have h2 := parseUnit_render mOverM mOverM_wf
    have d1 : dimList ((UE.sym "K^0.5".toList).terms 1) = .ok [(['K'], 0)] := by decide +kernel
    have d2 : dimList (mOverM.terms 1) = .ok [(['m'], 1), (['m'], -1)] := by decide +kernel
    exact ⟨_, convert_of (by decide) h1 h2 d1 d2 (by decide) x⟩

/-- `K*1/1`. -/
def kelvinTimesOne : UE := .div (.mul (.sym ['K']) (.sym ['1'])) (.sym ['1'])

/-- **C15, violation (c).** Convertibility is not transitive: degC to K and K to `K*1/1` are accepted, degC to `K*1/1` is
not. -/
theorem C15_transitive_refuted :
    convertible "degC".toList ['K'] = .ok true ∧ convertible ['K'] kelvinTimesOne.render = .ok true ∧
    convertible "degC".toList kelvinTimesOne.render = .ok false := by
  have hw : kelvinTimesOne.WF := by simp [kelvinTimesOne, UE.WF, UE.isTerm]
  have h1 := parseUnit_render kelvinTimesOne hw
  have hK := parseUnit_render (.sym ['K']) (by simp [UE.WF])
  have hC := parseUnit_render (.sym "degC".toList) (by simp [UE.WF])
  simp only [UE.render] at hK hC
  refine ⟨by rw [convertible, if_pos (by decide)], ?_, ?_⟩
  · rw [convertible, if_neg (by decide), hK, h1]
    decide +kernel
  · rw [convertible, if_neg (by decide), hC, h1]
    decide +kernel

/-- **C15 (relation).** `convertible` answers true exactly when `convert` gives a number; it is symmetric, reflexive on
accepted strings, and transitive through a string that is not a temperature name. -/
theorem C15_relation :
    (∀ a b, convertible a b = .ok true ↔ ∀ x, ∃ y, convert x a b = .ok y) ∧
    (∀ a b, convertible a b = .ok true → convertible b a = .ok true) ∧
    (∀ a b, convertible a b = .ok true → convertible a a = .ok true) ∧
    (∀ a b c, isTemp b = false → convertible a b = .ok true → convertible b c = .ok true → convertible a c = .ok true) := by
  have H : ∀ a b, convertible a b = .ok true ↔ ∀ x, ∃ y, convert x a b = .ok y := by
    intro a b
    by_cases ht : (isTemp a && isTemp b) = true
    · rw [convertible, if_pos ht]
      simp only [Bool.and_eq_true] at ht
      obtain ⟨n, hn, rfl⟩ := (C14_scales a).mp ht.1
      obtain ⟨m, hm, rfl⟩ := (C14_scales b).mp ht.2
      exact ⟨fun _ x => let ⟨y, hy, _⟩ := C14_total n m hn hm x; ⟨y, hy⟩, fun _ => rfl⟩
    · have ht : (isTemp a && isTemp b) = false := by simpa using ht
      constructor
      · intro h x
        rw [convertible, if_neg (by simp [ht])] at h
        cases hla : parseUnit a with
        | throw => rw [hla] at h; simp at h
        | ub => rw [hla] at h; simp at h
        | ok la =>
          cases hlb : parseUnit b with
          | throw => rw [hla, hlb] at h; simp at h
          | ub => rw [hla, hlb] at h; simp at h
          | ok lb =>
            rw [hla, hlb, Res.ok_bind, Res.ok_bind] at h
            cases hda : dimList la with
            | throw => rw [hda] at h; simp at h
            | ub => rw [hda] at h; simp at h
            | ok da =>
              cases hdb : dimList lb with
              | throw => rw [hda, hdb] at h; simp at h
              | ub => rw [hda, hdb] at h; simp at h
              | ok db =>
                rw [hda, hdb, Res.ok_bind, Res.ok_bind, Res.ok.injEq] at h
                exact ⟨_, convert_of ht hla hlb hda hdb h x⟩
      · intro h
        obtain ⟨y, hy⟩ := h 1
        obtain ⟨la, lb, da, db, h1, h2, h3, h4, h5, _⟩ := convert_ok ht hy
        rw [convertible, if_neg (by simp [ht]), h1, h2]
        simp [h3, h4, h5]
  refine ⟨H, ?_, ?_, ?_⟩
  · intro a b h
    rw [H] at h ⊢
    intro x
    obtain ⟨y, hy⟩ := h 1
    by_cases ht : isTemp b = false ∨ isTemp a = false
    · obtain ⟨r, _, hr⟩ := C12_proportional ht (C12_reversible hy)
      exact ⟨_, hr x⟩
    · push Not at ht
      obtain ⟨n, hn, rfl⟩ := (C14_scales a).mp (by simpa using ht.2)
      obtain ⟨m, hm, rfl⟩ := (C14_scales b).mp (by simpa using ht.1)
      obtain ⟨z, hz, _⟩ := C14_total m n hm hn x
      exact ⟨z, hz⟩
  · intro a b h
    rw [H] at h ⊢
    intro x
    obtain ⟨y, hy⟩ := h 1
    exact ⟨x, C12_identity hy x⟩
  · intro a b c hb h h'
    rw [H] at h h' ⊢
    intro x
    by_cases ht : (isTemp a && isTemp c) = true
    · simp only [Bool.and_eq_true] at ht
      obtain ⟨n, hn, rfl⟩ := (C14_scales a).mp ht.1
      obtain ⟨m, hm, rfl⟩ := (C14_scales c).mp ht.2
      obtain ⟨z, hz, _⟩ := C14_total n m hn hm x
      exact ⟨z, hz⟩
    · obtain ⟨y, hy⟩ := h x
      obtain ⟨z, hz⟩ := h' y
      obtain ⟨la, lb, da, db, h1, h2, h3, h4, h5, _⟩ := convert_ok (by simp [hb]) hy
      obtain ⟨lb', lc, db', dc, g1, g2, g3, g4, g5, _⟩ := convert_ok (by simp [hb]) hz
      rw [h2, Res.ok.injEq] at g1; subst g1
      rw [h4, Res.ok.injEq] at g3; subst g3
      exact ⟨_, convert_of (by simpa using ht) h1 g2 h3 g4 (sameDim_trans h5 g5) x⟩

/-! ### C17 -/

/-- **C17, violation (a).** Converting from the empty unit string dereferences a null pointer. -/
theorem C17_empty_refuted (x : ℝ) (b : Sym) : convert x [] b = .ub := by
  rw [convert, if_neg (by simp [show isTemp [] = false by decide]), parseUnit]
  simp [parseRev, flatten]

/-- **C17, violation (b).** A string that starts with an operator, followed by any symbol (for example "/s"), is read out of
range. -/
theorem C17_leading_operator_refuted (x : ℝ) (b : Sym) : convert x "/s".toList b = .ub := by
  have : parseRev ['s', '/'] = .ub := parseRev_op0 (by decide) (by decide : lastOp ['s', '/'] = some (['s'], '/', []))
  rw [convert, if_neg (by rw [show isTemp "/s".toList = false by decide]; simp), parseUnit]
  simp [this]

/-- **C17, violation (c).** Empty parentheses dereference a null pointer. -/
theorem C17_empty_parentheses_refuted (x : ℝ) (b : Sym) : convert x "m*()".toList b = .ub := by
  have h0 : parseRev ['m'] = .ok (.node ['m'] .null .null) := parseRev_leaf (by decide) (by decide)
  have h1 : parseRev [] = .ok .null := by simp [parseRev]
  have : parseRev [')', '(', '*', 'm'] = .ok (.node ['*'] (.node ['m'] .null .null) .null) := by
    rw [parseRev_paren1 (by decide : matchP 0 ['(', '*', 'm'] = some ([], '*' :: ['m'])), h0, h1]; rfl
  rw [convert, if_neg (by rw [show isTemp "m*()".toList = false by decide]; simp), parseUnit]
  simp [this, flatten]

/-- In the text of a well-formed expression an opening parenthesis follows only an operator or another opening one. -/
lemma render_adj (e : UE) : e.WF → (∀ a c b, e.render = a ++ c :: '(' :: b → c = '*' ∨ c = '/' ∨ c = '(') ∧
    (e.isTerm → ∀ b, e.render = '(' :: b → ∃ e', e = .paren e') := by
  intro h
  refine ⟨?_, ?_⟩
  · induction e with
    | sym s =>
      intro a c b hs
      simp only [UE.render] at hs
      have := (h.2 '(' (by rw [hs]; simp)).2.2.1
      exact absurd rfl this
    | paren e ih =>
      intro a c b hs
      simp only [UE.render, List.cons_append] at hs
      cases a with
      | nil => simp at hs; exact Or.inr (Or.inr hs.1.symm)
      | cons x a =>
        simp only [List.cons_append, List.cons.injEq] at hs
        have hs2 := hs.2
        -- e.render ++ [')'] = a ++ c :: '(' :: b; the last character is ')', so b is non-empty at its end
        rcases List.eq_nil_or_concat b with rfl | ⟨b', z, rfl⟩
        · have := congrArg List.getLast? hs2
          simp at this
        · have h3 : e.render = a ++ c :: '(' :: b' := by
            have : e.render ++ [')'] = (a ++ c :: '(' :: b') ++ [z] := by rw [hs2]; simp
            exact (List.append_inj' this rfl).1
          exact ih h a c b' h3
    | mul l r ihl ihr =>
      intro a c b hs
      simp only [UE.render] at hs
      rcases List.append_eq_append_iff.mp hs with ⟨d, hd1, hd2⟩ | ⟨d, hd1, hd2⟩
      · cases d with
        | nil => simp at hd2; exact Or.inl hd2.1.symm
        | cons y d =>
          simp at hd2
          exact ihr h.2.1 d c b (by rw [hd2.2])
      · cases d with
        | nil => simp at hd2; exact Or.inl hd2.1
        | cons y d =>
          simp at hd2
          obtain ⟨rfl, hd2⟩ := hd2
          cases d with
          | nil => simp at hd2
          | cons w d =>
            simp at hd2
            obtain ⟨rfl, hd2⟩ := hd2
            exact ihl h.1 a c d (by rw [hd1])
    | div l r ihl ihr =>
      intro a c b hs
      simp only [UE.render] at hs
      rcases List.append_eq_append_iff.mp hs with ⟨d, hd1, hd2⟩ | ⟨d, hd1, hd2⟩
      · cases d with
        | nil => simp at hd2; exact Or.inr (Or.inl hd2.1.symm)
        | cons y d =>
          simp at hd2
          exact ihr h.2.1 d c b (by rw [hd2.2])
      · cases d with
        | nil => simp at hd2; exact Or.inr (Or.inl hd2.1)
        | cons y d =>
          simp at hd2
          obtain ⟨rfl, hd2⟩ := hd2
          cases d with
          | nil => simp at hd2
          | cons w d =>
            simp at hd2
            obtain ⟨rfl, hd2⟩ := hd2
            exact ihl h.1 a c d (by rw [hd1])
  · intro ht b hb
    cases e with
    | sym s => exact absurd rfl (h.2 '(' (by simp only [UE.render] at hb; rw [hb]; simp)).2.2.1
    | paren e => exact ⟨e, rfl⟩
    | mul => exact ht.elim
    | div => exact ht.elim

/-- **C17, violation (d).** A malformed string is silently accepted: "kg(m)" is no unit expression, yet it converts to "g"
with factor 1 (text before the last character in front of the parenthesis, and the parenthesis, are ignored). -/
theorem C17_garbage_accepted_refuted (x : ℝ) :
    (¬ ∃ e : UE, e.WF ∧ e.render = "kg(m)".toList) ∧ convert x "kg(m)".toList "g".toList = .ok x := by
  refine ⟨?_, ?_⟩
  · rintro ⟨e, he, hr⟩
    have := (render_adj e he).1 ['k'] 'g' ['m', ')'] (by rw [hr]; decide)
    revert this; decide
  · have h0 : parseRev ['k'] = .ok (.node ['k'] .null .null) := parseRev_leaf (by decide) (by decide)
    have h1 : parseRev ['m'] = .ok (.node ['m'] .null .null) := parseRev_leaf (by decide) (by decide)
    have hp : parseRev [')', 'm', '(', 'g', 'k'] = .ok (.node ['g'] (.node ['k'] .null .null) (.node ['m'] .null .null)) := by
      rw [parseRev_paren1 (by decide : matchP 0 ['m', '(', 'g', 'k'] = some (['m'], 'g' :: ['k'])), h0, h1]; rfl
    have hu : parseUnit "kg(m)".toList = .ok [(['g'], 1)] := by
      rw [parseUnit]; simp [hp, flatten]
    have hg : parseUnit "g".toList = .ok [(['g'], 1)] := parseUnit_render (.sym ['g']) (by simp [UE.WF])
    have hd : dimList [(['g'], 1)] = .ok [(['g'], 1)] := by decide +kernel
    rw [convert_of (by decide) hu hg hd hd (sameDim_refl _) x]
    have := (factor_known (known_of_lookup (s := ['g']) (by decide +kernel))).1.ne'
    simp [this]

lemma lastOp_spec {s r l : List Char} {o : Char} (h : lastOp s = some (r, o, l)) :
    s = r ++ o :: l ∧ (o = '*' ∨ o = '/') ∧ ∀ c ∈ r, c ≠ '*' ∧ c ≠ '/' := by
  induction s generalizing r with
  | nil => simp [lastOp] at h
  | cons c cs ih =>
    simp only [lastOp] at h
    split at h
    · rename_i hc
      simp only [Option.some.injEq, Prod.mk.injEq] at h
      obtain ⟨rfl, rfl, rfl⟩ := h
      exact ⟨rfl, hc, by simp⟩
    · rename_i hc
      simp only [Option.map_eq_some_iff, Prod.exists] at h
      obtain ⟨x, y, z, h1, h2⟩ := h
      simp only [Prod.mk.injEq] at h2
      obtain ⟨rfl, rfl, rfl⟩ := h2
      obtain ⟨h3, h4, h5⟩ := ih h1
      refine ⟨by rw [h3]; rfl, h4, ?_⟩
      intro d hd
      rcases List.mem_cons.mp hd with rfl | hd
      · push Not at hc; exact hc
      · exact h5 d hd

lemma lastOp_none {s : List Char} (h : lastOp s = none) : ∀ c ∈ s, c ≠ '*' ∧ c ≠ '/' := by
  induction s with
  | nil => simp
  | cons c cs ih =>
    simp only [lastOp] at h
    split at h
    · simp at h
    · rename_i hc
      intro d hd
      rcases List.mem_cons.mp hd with rfl | hd
      · push Not at hc; exact hc
      · exact ih (by simpa using h) d hd

lemma matchP_spec {lvl : Nat} {s i l : List Char} (h : matchP lvl s = some (i, l)) : s = i ++ '(' :: l := by
  induction s generalizing lvl i with
  | nil => simp [matchP] at h
  | cons c cs ih =>
    simp only [matchP] at h
    split at h
    · simp only [Option.map_eq_some_iff, Prod.exists] at h
      obtain ⟨x, y, h1, h2⟩ := h
      simp only [Prod.mk.injEq] at h2
      obtain ⟨rfl, rfl⟩ := h2
      rw [ih h1]; rfl
    · split at h
      · rename_i hc
        split at h
        · simp only [Option.some.injEq, Prod.mk.injEq] at h
          obtain ⟨rfl, rfl⟩ := h; rw [hc]; rfl
        · simp only [Option.map_eq_some_iff, Prod.exists] at h
          obtain ⟨x, y, h1, h2⟩ := h
          simp only [Prod.mk.injEq] at h2
          obtain ⟨rfl, rfl⟩ := h2
          rw [ih h1]; rfl
      · simp only [Option.map_eq_some_iff, Prod.exists] at h
        obtain ⟨x, y, h1, h2⟩ := h
        simp only [Prod.mk.injEq] at h2
        obtain ⟨rfl, rfl⟩ := h2
        rw [ih h1]; rfl

/-- A unit string that is not empty, does not start with an operator, and in which no opening parenthesis is directly followed
by an operator or a closing one. -/
def NoLeading (s : Sym) : Prop :=
  s ≠ [] ∧ (∀ c b, s = c :: b → c ≠ '*' ∧ c ≠ '/') ∧
  (∀ a c b, s = a ++ '(' :: c :: b → c ≠ '*' ∧ c ≠ '/' ∧ c ≠ ')')

/-- The same on reversed text. -/
def SafeR (r : List Char) : Prop :=
  r ≠ [] ∧ (∀ b c, r = b ++ [c] → c ≠ '*' ∧ c ≠ '/') ∧
  (∀ b c a, r = b ++ c :: '(' :: a → c ≠ '*' ∧ c ≠ '/' ∧ c ≠ ')')

lemma safeR_of (s : Sym) (h : NoLeading s) : SafeR s.reverse := by
  refine ⟨by simpa using h.1, ?_, ?_⟩
  · intro b c hr
    exact h.2.1 c b.reverse (by rw [← List.reverse_reverse s, hr]; simp)
  · intro b c a hr
    exact h.2.2 a.reverse c b.reverse (by rw [← List.reverse_reverse s, hr]; simp)

lemma parse_safe : ∀ (n : Nat) (r : List Char), r.length ≤ n → SafeR r →
    parseRev r = .throw ∨ ∃ t, parseRev r = .ok t ∧ ∀ p, flatten t p ≠ .ub := by
  intro n
  induction n with
  | zero =>
    intro r hn h
    exact absurd (List.length_eq_zero_iff.mp (by omega)) h.1
  | succ n ih =>
    intro r hn h
    cases r with
    | nil => exact absurd rfl h.1
    | cons c cs =>
      by_cases hc : c = ')'
      · subst hc
        cases hm : matchP 0 cs with
        | none => exact Or.inl (parseRev_paren_none hm)
        | some il =>
          obtain ⟨i, l⟩ := il
          have hcs := matchP_spec hm
          have hi : SafeR i := by
            refine ⟨?_, ?_, ?_⟩
            · rintro rfl
              exact (h.2.2 [] ')' l (by rw [hcs]; rfl)).2.2 rfl
            · intro b d hb
              have := h.2.2 (')' :: b) d l (by rw [hcs, hb]; simp)
              exact ⟨this.1, this.2.1⟩
            · intro b d a hb
              exact h.2.2 (')' :: b) d (a ++ '(' :: l) (by rw [hcs, hb]; simp)
          have hlen : i.length + l.length + 1 ≤ n := by
            have := congrArg List.length hcs
            simp at this hn; omega
          have hi' := ih i (by omega) hi
          cases l with
          | nil => rw [parseRev_paren0 hm]; exact hi'
          | cons o l =>
            rw [parseRev_paren1 hm]
            by_cases hl : l = []
            · subst hl
              have hno := h.2.1 (')' :: i ++ ['(']) o (by rw [hcs]; simp)
              have h0 : parseRev [] = .ok .null := by simp [parseRev]
              rw [h0, Res.ok_bind]
              rcases hi' with hi' | ⟨t, ht, _⟩
              · left; rw [hi']; rfl
              · right
                refine ⟨_, by rw [ht, Res.ok_bind], fun p => ?_⟩
                simp [flatten, hno.1, hno.2]
            · have hls : SafeR l := by
                refine ⟨hl, ?_, ?_⟩
                · intro b d hb
                  exact h.2.1 (')' :: i ++ '(' :: o :: b) d (by rw [hcs, hb]; simp)
                · intro b d a hb
                  exact h.2.2 (')' :: i ++ '(' :: o :: b) d a (by rw [hcs, hb]; simp)
              rcases ih l (by simp at hlen; omega) hls with hl' | ⟨tl, htl, hfl⟩
              · left; rw [hl']; rfl
              · rw [htl, Res.ok_bind]
                rcases hi' with hi' | ⟨ti, hti, hfi⟩
                · left; rw [hi']; rfl
                · right
                  refine ⟨_, by rw [hti, Res.ok_bind], fun p => ?_⟩
                  have key : ∀ p q, (do let a ← flatten tl p; let b ← flatten ti q; Res.ok (a ++ b)) ≠ .ub := by
                    intro p q
                    have h1 := hfl p
                    have h2 := hfi q
                    cases ha : flatten tl p <;> cases hb : flatten ti q <;> simp_all
                  rw [flatten]
                  split
                  · exact key p p
                  · split
                    · exact key p (-p)
                    · simp
      · cases hop : lastOp (c :: cs) with
        | none =>
          right
          refine ⟨_, parseRev_leaf hc hop, fun p => ?_⟩
          have hno := lastOp_none hop
          have h1 : (c :: cs).reverse ≠ ['*'] := by
            intro h1
            exact (hno '*' (by rw [← List.mem_reverse, h1]; simp)).1 rfl
          have h2 : (c :: cs).reverse ≠ ['/'] := by
            intro h1
            exact (hno '/' (by rw [← List.mem_reverse, h1]; simp)).2 rfl
          rw [flatten, if_neg h1, if_neg h2]; simp
        | some rol =>
          obtain ⟨r, o, l⟩ := rol
          obtain ⟨hs, ho, hr⟩ := lastOp_spec hop
          cases l with
          | nil =>
            have := h.2.1 r o hs
            rcases ho with rfl | rfl
            · exact absurd rfl this.1
            · exact absurd rfl this.2
          | cons d l =>
            rw [parseRev_op hc hop]
            have hls : SafeR (d :: l) := by
              refine ⟨by simp, ?_, ?_⟩
              · intro b e hb
                exact h.2.1 (r ++ o :: b) e (by rw [hs, hb]; simp)
              · intro b e a hb
                exact h.2.2 (r ++ o :: b) e a (by rw [hs, hb]; simp)
            have hlen : (d :: l).length ≤ n := by
              have := congrArg List.length hs
              simp at this hn ⊢; omega
            rcases ih (d :: l) hlen hls with hl' | ⟨tl, htl, hfl⟩
            · left; rw [hl']; rfl
            · right
              refine ⟨_, by rw [htl, Res.ok_bind], fun p => ?_⟩
              have h1 : r.reverse ≠ ['*'] := by
                intro h1; exact (hr '*' (by rw [← List.mem_reverse, h1]; simp)).1 rfl
              have h2 : r.reverse ≠ ['/'] := by
                intro h1; exact (hr '/' (by rw [← List.mem_reverse, h1]; simp)).2 rfl
              have hleaf : ∀ q, flatten (.node r.reverse .null .null) q = .ok [(r.reverse, q)] := by
                intro q; rw [flatten, if_neg h1, if_neg h2]
              rw [flatten, hleaf, hleaf]
              have hp := hfl p
              split
              · cases ha : flatten tl p <;> simp_all
              · split
                · cases ha : flatten tl p <;> simp_all
                · simp

/-- **C17 (partial).** Full statement: conversion of a string that is not a well-formed expression over known units raises,
and never has undefined behaviour.  Proved: for all strings that are non-empty, do not start with an operator and have no
opening parenthesis directly followed by an operator or closing one, the outcome is a number or an exception — never
undefined.  Missing (false, above): the other strings, and that all malformed strings are refused. -/
theorem C17_no_undefined_partial (x : ℝ) (a b : Sym) (ha : NoLeading a) (hb : NoLeading b) : convert x a b ≠ .ub := by
  by_cases ht : (isTemp a && isTemp b) = true
  · simp only [Bool.and_eq_true] at ht
    obtain ⟨n, hn, rfl⟩ := (C14_scales a).mp ht.1
    obtain ⟨m, hm, rfl⟩ := (C14_scales b).mp ht.2
    obtain ⟨y, hy, _⟩ := C14_total n m hn hm x
    rw [hy]; simp
  · rw [convert, if_neg ht]
    have hp : ∀ s, NoLeading s → parseUnit s ≠ .ub := by
      intro s hs
      rw [parseUnit]
      rcases parse_safe _ s.reverse (le_refl _) (safeR_of s hs) with h | ⟨t, h, hf⟩
      · rw [h]; simp
      · rw [h, Res.ok_bind]; exact hf 1
    have hd : ∀ l, dimList l = .throw ∨ ((∃ d, dimList l = .ok d) ∧ ∃ f, factorList l = .ok f) := by
      intro l
      by_cases hk : ∀ e ∈ l, Known e.1
      · exact Or.inr ⟨dimList_ok l hk, _, factorList_ok l hk⟩
      · push Not at hk; exact Or.inl (dimList_throw l hk)
    have h1 := hp a ha
    have h2 := hp b hb
    cases hla : parseUnit a with
    | ub => exact absurd hla h1
    | throw => simp
    | ok la =>
      cases hlb : parseUnit b with
      | ub => exact absurd hlb h2
      | throw => simp
      | ok lb =>
        rw [Res.ok_bind, Res.ok_bind]
        rcases hd la with h | ⟨⟨da, hda⟩, fa, hfa⟩
        · rw [h]; simp
        · rcases hd lb with h' | ⟨⟨db, hdb⟩, fb, hfb⟩
          · rw [hda, h']; simp
          · rw [hda, hdb, hfa, hfb]
            simp only [Res.ok_bind]
            split <;> simp

/-- A malformed string in the proved range: "m*s(". -/
example : NoLeading ['m', '*', 's', '('] := by
  refine ⟨by simp, ?_, ?_⟩
  · intro c b h; simp at h; rw [← h.1]; decide
  · intro a c b h
    have : a.length + b.length + 2 = 4 := by have := congrArg List.length h; simp at this; omega
    match a, h with
    | [], h => simp at h
    | [_], h => simp at h
    | [_, _], h => simp at h
    | _ :: _ :: _ :: a, h => have := congrArg List.length h; simp at this; omega

/-! ### C18 -/

/-- Entries `base^n` with a one-digit n, except those of bar, are defined as the n-th power of the base. -/
lemma table_powers : table.all (fun e => match e.1.reverse with
    | d :: '^' :: rb => decide (rb.reverse = "bar".toList) ||
        (decide (e.2 = [⟨1, 1, rb.reverse, (d.toNat - 48 : Nat), 1⟩]) && decide (rb.reverse ≠ e.1))
    | _ => true) = true := by decide +kernel

/-- **C18 (partial).** Full statement: for every table entry named `base^n` the factor is the n-th power of the base's factor and
the dimension n times its dimension.  Proved for all one-digit powers except those of bar; missing (false, below): bar,
and the half powers, whose dimension is lost (`C15_fractional_refuted`). -/
theorem C18_powers_partial (F : Sym → ℝ) (hF : IsFactor F) (D : Sym → Sym → ℚ) (hD : IsDim D) (base : Sym) (d : Char)
    (us : List SU) (he : (base ++ ['^', d], us) ∈ table) (hb : base ≠ "bar".toList) :
    F (base ++ ['^', d]) = F base ^ (d.toNat - 48) ∧ ∀ b, D (base ++ ['^', d]) b = ((d.toNat - 48 : Nat) : ℚ) * D base b := by
  have h := List.all_eq_true.mp table_powers _ he
  simp only [List.reverse_append, List.reverse_cons, List.reverse_nil, List.nil_append, List.cons_append,
    List.reverse_reverse] at h
  simp only [hb, decide_false, Bool.false_or, Bool.and_eq_true, decide_eq_true_eq] at h
  obtain ⟨rfl, hne⟩ := h
  have h1 := hF.derived _ he (by simp)
  have h2 := hD.derived _ he (by simp)
  constructor
  · rw [h1]; simp
  · intro b; rw [h2 b]; simp

example : (['c', 'm'] ++ ['^', '3'], [⟨1, 1, ['c', 'm'], 3, 1⟩]) ∈ table := mem_of_lookup (by decide +kernel)

/-- **C18, violation.** bar^2 is defined as K^2: it converts to K^2 unchanged and is refused as bar*bar. -/
theorem C18_bar_refuted (x : ℝ) : convert x "bar^2".toList "K^2".toList = .ok x ∧
    convert x "bar^2".toList (UE.mul (.sym "bar".toList) (.sym "bar".toList)).render = .throw := by
  have h1 := parseUnit_render (.sym "bar^2".toList) (by simp [UE.WF])
  have h2 := parseUnit_render (.sym "K^2".toList) (by simp [UE.WF])
  have h3 := parseUnit_render (UE.mul (.sym "bar".toList) (.sym "bar".toList)) (by simp [UE.WF, UE.isTerm])
  simp only [UE.render, UE.terms] at h1 h2
  have d1 : dimList [("bar^2".toList, 1)] = .ok [(['K'], 2)] := by decide +kernel
  have d2 : dimList [("K^2".toList, 1)] = .ok [(['K'], 2)] := by decide +kernel
  constructor
  · rw [convert_of (by decide) h1 h2 d1 d2 (sameDim_refl _) x]
    have f1 := fval_isFactor.derived ("bar^2".toList, [⟨1, 1, ['K'], 2, 1⟩]) (mem_of_lookup (by decide +kernel)) (by decide)
    have f2 := fval_isFactor.derived ("K^2".toList, [⟨1, 1, ['K'], 2, 1⟩]) (mem_of_lookup (by decide +kernel)) (by decide)
    have fK := fval_isFactor.temperature (['K'], 10, 0, ['K']) (by simp [tempTable])
    simp only [List.map_cons, List.map_nil, List.prod_cons, List.prod_nil] at f1 f2 fK
    simp only [List.map_cons, List.map_nil, List.prod_cons, List.prod_nil, f1, f2, fK]
    norm_num
  · rw [convert, if_neg (by decide), h1, h3]
    simp only [Res.ok_bind, d1]
    have d3 : ∃ d, dimList ((UE.mul (.sym "bar".toList) (.sym "bar".toList)).terms 1) = .ok d ∧
        sameDim [(['K'], 2)] d = false := by
      refine ⟨_, rfl, ?_⟩
      decide +kernel
    obtain ⟨d, hd, hs⟩ := d3
    rw [hd, Res.ok_bind, if_neg (by simp [hs])]

end ThermoFun.Units

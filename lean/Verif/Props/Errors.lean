import Verif.Model.Errors
import Mathlib.Data.Nat.Digits.Lemmas
import Mathlib.Tactic.NormNum
import Mathlib.Tactic.IntervalCases
import Mathlib.Data.List.TakeDrop

/-!
# C168  An error says what went wrong and where; the log goes where it was asked to go

Full statement: the text of every error can be read back to the error, its reason, and the file and line where it was raised; the record in the
log names the same place; and after `update_loggers(use_cout, logfile, level)` the records of at least that level, and no others, reach the console
if it was asked for and the file if one was named.

Spec: a reader of the text (`linesOf`, `field`, `placeOf`, `readDec`) and of the loggers (`reaches`), written without the functions of the model.
-/

namespace ThermoFun.Errors

/-! ## Spec: reading a message -/

/-- The lines of a text. -/
def linesOf : Text → List Text
  | [] => [[]]
  | c :: cs => if c = '\n' then [] :: linesOf cs else
      match linesOf cs with
      | [] => [[c]]
      | l :: ls => (c :: l) :: ls

/-- The rest of the `i`-th line after the word that starts it. -/
def field (t : Text) (i : Nat) (word : String) : Option Text :=
  match (linesOf t)[i]? with
  | none => none
  | some l => if word.toList.isPrefixOf l then some (l.drop word.toList.length) else none

/-- Reading a decimal number. -/
def readDec (t : Text) : Nat := t.foldl (fun a c => 10 * a + (c.toNat - 48)) 0

/-- A place written `file:line`: the last colon separates. -/
def placeOf (t : Text) : Text × Nat :=
  (((t.reverse.dropWhile (· ≠ ':')).drop 1).reverse, readDec (t.reverse.takeWhile (· ≠ ':')).reverse)

/-! ## Lemmas -/

theorem linesOf_cons (a t : Text) (h : '\n' ∉ a) : linesOf (a ++ '\n' :: t) = a :: linesOf t := by
  induction a with
  | nil => simp [linesOf]
  | cons c cs ih =>
    simp only [List.mem_cons, not_or] at h
    rw [List.cons_append, linesOf, if_neg (fun e => h.1 e.symm), ih h.2]

theorem digitChar_toNat (d : Nat) (h : d < 10) : (Char.ofNat (48 + d)).toNat - 48 = d := by
  interval_cases d <;> rfl

theorem digitChar_ne (d : Nat) (h : d < 10) : Char.ofNat (48 + d) ≠ ':' ∧ Char.ofNat (48 + d) ≠ '\n' := by
  interval_cases d <;> decide

theorem readDec_rev (ds : List Nat) (h : ∀ d ∈ ds, d < 10) :
    readDec (ds.reverse.map fun d => Char.ofNat (48 + d)) = Nat.ofDigits 10 ds := by
  induction ds with
  | nil => rfl
  | cons d ds ih =>
    have h1 := ih (fun x hx => h x (List.mem_cons_of_mem _ hx))
    have h2 := digitChar_toNat d (h d List.mem_cons_self)
    unfold readDec at h1 ⊢
    rw [List.reverse_cons, List.map_append, List.foldl_append, h1, Nat.ofDigits_cons]
    simp only [List.map_cons, List.map_nil, List.foldl_cons, List.foldl_nil, h2]
    omega

theorem readDec_decText (n : Nat) : readDec (decText n) = n := by
  unfold decText
  split
  · subst_vars; rfl
  · rw [readDec_rev _ (fun d hd => Nat.digits_lt_base (by norm_num) hd), Nat.ofDigits_digits]

theorem decText_clean (n : Nat) : ∀ c ∈ decText n, c ≠ ':' ∧ c ≠ '\n' := by
  unfold decText
  split
  · simp
  · intro c hc
    rw [List.mem_map] at hc
    obtain ⟨d, hd, rfl⟩ := hc
    exact digitChar_ne d (Nat.digits_lt_base (by norm_num) (List.mem_reverse.1 hd))

theorem placeOf_eq (f d : Text) (h : ∀ c ∈ d, c ≠ ':') : placeOf (f ++ [':'] ++ d) = (f, readDec d) := by
  have h' : ∀ c ∈ d.reverse, decide (c ≠ ':') = true := fun c hc => by simpa using h c (List.mem_reverse.1 hc)
  unfold placeOf
  rw [List.reverse_append, List.reverse_append, List.takeWhile_append_of_pos h', List.dropWhile_append_of_pos h']
  simp [List.takeWhile, List.dropWhile]

theorem location_clean (file : Text) (line : Nat) (h : '\n' ∉ file) : '\n' ∉ location file line := by
  have h1 : '\n' ∉ decText line := fun hc => (decText_clean line _ hc).2 rfl
  unfold location
  split
  · simp only [List.mem_append, not_or]
    exact ⟨⟨⟨by decide, fun hc => h (List.mem_of_mem_drop hc)⟩, by decide⟩, h1⟩
  · simp only [List.mem_append, not_or]
    exact ⟨⟨h, by decide⟩, h1⟩

theorem message_lines (e r l : Text) (he : '\n' ∉ e) (hr : '\n' ∉ r) (hl : '\n' ∉ l) :
    linesOf (messageText e r l) = [[], List.replicate (barLength e r l) '*', "*** Error: ".toList ++ e, "*** Reason: ".toList ++ r,
      "*** Location: ".toList ++ l, List.replicate (barLength e r l) '*', [], []] := by
  have hb : '\n' ∉ List.replicate (barLength e r l) '*' := by
    intro hc; exact absurd (List.eq_of_mem_replicate hc) (by decide)
  have h1 : '\n' ∉ "*** Error: ".toList ++ e := by
    simp only [List.mem_append, not_or]; exact ⟨by decide, he⟩
  have h2 : '\n' ∉ "*** Reason: ".toList ++ r := by
    simp only [List.mem_append, not_or]; exact ⟨by decide, hr⟩
  have h3 : '\n' ∉ "*** Location: ".toList ++ l := by
    simp only [List.mem_append, not_or]; exact ⟨by decide, hl⟩
  have e1 : messageText e r l = [] ++ '\n' :: (List.replicate (barLength e r l) '*' ++ '\n' :: (("*** Error: ".toList ++ e) ++ '\n' ::
      (("*** Reason: ".toList ++ r) ++ '\n' :: (("*** Location: ".toList ++ l) ++ '\n' :: (List.replicate (barLength e r l) '*' ++ '\n' ::
      ([] ++ '\n' :: [])))))) := by
    simp only [messageText, List.append_assoc, List.cons_append, List.nil_append]
  rw [e1, linesOf_cons _ _ (by simp), linesOf_cons _ _ hb, linesOf_cons _ _ h1, linesOf_cons _ _ h2, linesOf_cons _ _ h3, linesOf_cons _ _ hb,
    linesOf_cons _ _ (by simp), linesOf]

theorem field_of (t : Text) (i : Nat) (word : String) (x : Text) (h : (linesOf t)[i]? = some (word.toList ++ x)) :
    field t i word = some x := by
  have h1 : word.toList.isPrefixOf (word.toList ++ x) = true := by simp
  unfold field
  rw [h]
  simp only [h1, if_true, List.drop_left]

/-! ## Errors -/

/-- The path of a source file by which it was compiled in the examples. -/
def shortPath : Text := "/repo/ThermoFun/Database.cpp".toList

/-- Every error raised with a file of at most 45 characters, and with texts of one line each, can be read back: the error, the reason, the file and
the line are all in it.  Missing: files with longer paths (`C168_path_refuted`), texts of several lines (`C168_lines_refuted`), and errors raised
without their file or line (`C168_file_refuted`, `C168_range_refuted`). -/
theorem C168_read_partial (e r file : Text) (line here : Nat) (he : '\n' ∉ e) (hr : '\n' ∉ r) (hf : '\n' ∉ file) (h45 : file.length ≤ 45)
    (x : Raised) (h : raise ⟨e, r, some line, file⟩ here = .ok x) :
    field x.what 2 "*** Error: " = some e ∧ field x.what 3 "*** Reason: " = some r ∧
      (field x.what 4 "*** Location: ").map placeOf = some (file, line) := by
  unfold raise at h
  simp only [Res.ok.injEq] at h
  subst h
  have hl := location_clean file line hf
  have hm := message_lines e r (location file line) he hr hl
  have hloc : placeOf (location file line) = (file, line) := by
    unfold location
    rw [if_neg (by omega), placeOf_eq _ _ (fun c hc => (decText_clean line c hc).1), readDec_decText]
  refine ⟨field_of _ _ _ _ ?_, field_of _ _ _ _ ?_, ?_⟩
  · show (linesOf (messageText e r (location file line)))[2]? = _
    rw [hm]; rfl
  · show (linesOf (messageText e r (location file line)))[3]? = _
    rw [hm]; rfl
  · rw [field_of _ _ _ (location file line) ?_, Option.map_some, hloc]
    show (linesOf (messageText e r (location file line)))[4]? = _
    rw [hm]; rfl

example : ∃ x, errorSameSymbol "substance".toList "Quartz".toList 303 shortPath = .ok x ∧
    field x.what 3 "*** Reason: " = some "Duplicate symbol for substance Quartz was encountered! ".toList ∧
    (field x.what 4 "*** Location: ").map placeOf = some (shortPath, 303) := by
  refine ⟨_, rfl, ?_⟩
  have := C168_read_partial "Initializing Thermufun database.".toList
    ("Duplicate symbol for ".toList ++ "substance".toList ++ [' '] ++ "Quartz".toList ++ " was encountered! ".toList) shortPath 303 202
    (by decide) (by decide) (by decide) (by decide) _ rfl
  exact ⟨this.2.1, this.2.2⟩

/-- Two errors with the same text are the same error: nothing of error, reason, file or line is lost, under the conditions of
`C168_read_partial`. -/
theorem C168_distinct_partial (e r file e' r' file' : Text) (line line' here here' : Nat) (he : '\n' ∉ e) (hr : '\n' ∉ r) (hf : '\n' ∉ file)
    (h45 : file.length ≤ 45) (he' : '\n' ∉ e') (hr' : '\n' ∉ r') (hf' : '\n' ∉ file') (h45' : file'.length ≤ 45) (x y : Raised)
    (hx : raise ⟨e, r, some line, file⟩ here = .ok x) (hy : raise ⟨e', r', some line', file'⟩ here' = .ok y) (h : x.what = y.what) :
    e = e' ∧ r = r' ∧ file = file' ∧ line = line' := by
  obtain ⟨a1, a2, a3⟩ := C168_read_partial e r file line here he hr hf h45 x hx
  obtain ⟨b1, b2, b3⟩ := C168_read_partial e' r' file' line' here' he' hr' hf' h45' y hy
  rw [h] at a1 a2 a3
  have c1 := Option.some.inj (a1.symm.trans b1)
  have c2 := Option.some.inj (a2.symm.trans b2)
  have c3 := Prod.mk.inj (Option.some.inj (a3.symm.trans b3))
  exact ⟨c1, c2, c3.1, c3.2⟩

example : ∀ x y, funError "a".toList "b".toList 12 shortPath = .ok x → funError "a".toList "b".toList 112 shortPath = .ok y →
    x.what ≠ y.what := fun x y hx hy h =>
  absurd (C168_distinct_partial "a".toList "b".toList shortPath "a".toList "b".toList shortPath 12 112 222 222 (by decide) (by decide) (by decide)
    (by decide) (by decide) (by decide) (by decide) (by decide) x y hx hy h).2.2.2 (by decide)

/-- The frame of stars covers the text: when the texts are short of 2³² characters, the second and the sixth line are stars only and longer than each
of the three lines between. -/
theorem C168_frame_partial (e r file : Text) (line here : Nat) (he : '\n' ∉ e) (hr : '\n' ∉ r) (hf : '\n' ∉ file)
    (hs : e.length < 4294967280) (hs' : r.length < 4294967280) (hs'' : (location file line).length < 4294967280)
    (x : Raised) (h : raise ⟨e, r, some line, file⟩ here = .ok x) :
    ∃ bar, (linesOf x.what)[1]? = some bar ∧ (linesOf x.what)[5]? = some bar ∧ (∀ c ∈ bar, c = '*') ∧
      ∀ i l, 2 ≤ i → i ≤ 4 → (linesOf x.what)[i]? = some l → l.length + 2 ≤ bar.length := by
  unfold raise at h
  simp only [Res.ok.injEq] at h
  subst h
  have hm := message_lines e r (location file line) he hr (location_clean file line hf)
  generalize hloc : location file line = loc at *
  have hbl : barLength e r loc = max e.length (max r.length loc.length) + 16 := by
    unfold barLength
    exact Nat.mod_eq_of_lt (by omega)
  refine ⟨List.replicate (barLength e r loc) '*', ?_, ?_, fun c hc => List.eq_of_mem_replicate hc, ?_⟩
  · show (linesOf (messageText e r loc))[1]? = _
    rw [hm]; rfl
  · show (linesOf (messageText e r loc))[5]? = _
    rw [hm]; rfl
  · intro i l h2 h4 hl
    replace hl : (linesOf (messageText e r loc))[i]? = some l := hl
    rw [hm] at hl
    rw [List.length_replicate, hbl]
    have l1 : "*** Error: ".toList.length = 11 := by decide
    have l2 : "*** Reason: ".toList.length = 12 := by decide
    have l3 : "*** Location: ".toList.length = 14 := by decide
    interval_cases i
    · have := Option.some.inj hl; subst this; rw [List.length_append, l1]; omega
    · have := Option.some.inj hl; subst this; rw [List.length_append, l2]; omega
    · have := Option.some.inj hl; subst this; rw [List.length_append, l3]; omega

example : ∃ bar : Text, ∃ x, errorSolventNotDefined "Na+".toList 55 shortPath = .ok x ∧ (linesOf x.what)[1]? = some bar ∧ bar.length = 59 := by
  refine ⟨List.replicate 59 '*', _, rfl, ?_, by decide⟩
  decide +kernel

/-- What remains of longer paths: the text ends its location with the last 45 characters of the file, and the line. -/
theorem C168_tail_partial (e r file : Text) (line here : Nat) (he : '\n' ∉ e) (hr : '\n' ∉ r) (hf : '\n' ∉ file) (h45 : 45 < file.length)
    (x : Raised) (h : raise ⟨e, r, some line, file⟩ here = .ok x) :
    ∃ shown, (field x.what 4 "*** Location: ").map placeOf = some ("...".toList ++ shown, line) ∧ shown.length = 45 ∧ shown <:+ file := by
  unfold raise at h
  simp only [Res.ok.injEq] at h
  subst h
  have hm := message_lines e r (location file line) he hr (location_clean file line hf)
  refine ⟨file.drop (file.length - 45), ?_, by rw [List.length_drop]; omega, List.drop_suffix _ _⟩
  have hloc : placeOf (location file line) = ("...".toList ++ file.drop (file.length - 45), line) := by
    unfold location
    rw [if_pos h45, placeOf_eq _ _ (fun c hc => (decText_clean line c hc).1), readDec_decText]
    rfl
  rw [field_of _ _ _ (location file line) ?_, Option.map_some, hloc]
  show (linesOf (messageText e r (location file line)))[4]? = _
  rw [hm]; rfl

/-- The path given in the documentation of `location`. -/
def docPath : Text := "/home/user/gitThermoFun/ThermoFun/src/Substance.cpp".toList

example : ∃ x, funError "a".toList "b".toList 7 docPath = .ok x ∧
    (field x.what 4 "*** Location: ").map placeOf = some ("...user/gitThermoFun/ThermoFun/src/Substance.cpp".toList, 7) :=
  ⟨_, rfl, by decide +kernel⟩

/-- The comment above `location` (Exception.cpp:70-72) promises that for `/home/user/gitThermoFun/ThermoFun/src/Substance.cpp` the location is
`ThermoFun/src/Substance.cpp`; it is `...user/gitThermoFun/ThermoFun/src/Substance.cpp`, the last 45 characters. -/
theorem C168_documented_refuted : ∀ line, (placeOf (location docPath line)).1 ≠ "ThermoFun/src/Substance.cpp".toList := by
  intro line
  have h : docPath.length > 45 := by decide
  unfold location
  rw [if_pos h, placeOf_eq _ _ (fun c hc => (decText_clean line c hc).1)]
  show ['.', '.', '.'] ++ List.drop (List.length docPath - 45) docPath ≠ _
  decide

/-- Errors raised on the same line of two different files can have the same text: only the last 45 characters of a path are kept
(Exception.cpp:80-81). -/
theorem C168_path_refuted : ∃ file file' : Text, file ≠ file' ∧ '\n' ∉ file ∧ '\n' ∉ file' ∧ ∀ e r line,
    funError e r line file = funError e r line file' := by
  refine ⟨"/home/user/a/thermofun/ThermoFun/Substances/Solute/SoluteHKFgems.cpp".toList,
    "/home/user/b/thermofun/ThermoFun/Substances/Solute/SoluteHKFgems.cpp".toList, by decide, by decide, by decide, fun e r line => ?_⟩
  have h : ∀ l, location "/home/user/a/thermofun/ThermoFun/Substances/Solute/SoluteHKFgems.cpp".toList l
      = location "/home/user/b/thermofun/ThermoFun/Substances/Solute/SoluteHKFgems.cpp".toList l := by
    intro l
    unfold location
    rw [if_pos (by decide), if_pos (by decide)]
    have : List.drop ("/home/user/a/thermofun/ThermoFun/Substances/Solute/SoluteHKFgems.cpp".toList.length - 45)
        "/home/user/a/thermofun/ThermoFun/Substances/Solute/SoluteHKFgems.cpp".toList
      = List.drop ("/home/user/b/thermofun/ThermoFun/Substances/Solute/SoluteHKFgems.cpp".toList.length - 45)
        "/home/user/b/thermofun/ThermoFun/Substances/Solute/SoluteHKFgems.cpp".toList := by decide
    rw [this]
  unfold funError raise
  simp only [h]

/-- Two different errors have the same text when their texts contain line breaks: the error of one runs on into the reason of the other, as the texts
are written as they are (Exception.cpp:97-98). -/
theorem C168_lines_refuted : ∃ e r e' r' : Text, e ≠ e' ∧ r ≠ r' ∧ ∀ line file, ∃ x y,
    funError e r line file = .ok x ∧ funError e' r' line file = .ok y ∧ x.what = y.what := by
  refine ⟨"a\n*** Reason: b".toList, "c".toList, "a".toList, "b\n*** Reason: c".toList, by decide, by decide, fun line file => ⟨_, _, rfl, rfl, ?_⟩⟩
  show messageText _ _ (location file line) = messageText _ _ (location file line)
  generalize location file line = loc
  have l1 : "a\n*** Reason: b".toList.length = 15 := by decide
  have l2 : "b\n*** Reason: c".toList.length = 15 := by decide
  have hb : barLength "a\n*** Reason: b".toList "c".toList loc = barLength "a".toList "b\n*** Reason: c".toList loc := by
    unfold barLength
    rw [l1, l2]
    have l3 : "a".toList.length = 1 := by decide
    have l4 : "c".toList.length = 1 := by decide
    rw [l3, l4]
    congr 2
    omega
  unfold messageText
  rw [hb]
  have ht : "*** Error: ".toList ++ "a\n*** Reason: b".toList ++ ['\n'] ++ "*** Reason: ".toList ++ "c".toList
      = "*** Error: ".toList ++ "a".toList ++ ['\n'] ++ "*** Reason: ".toList ++ "b\n*** Reason: c".toList := by decide
  have ht' := congrArg (fun z => ['\n'] ++ List.replicate (barLength "a".toList "b\n*** Reason: c".toList loc) '*' ++ ['\n'] ++ z ++ ['\n']
    ++ "*** Location: ".toList ++ loc ++ ['\n'] ++ List.replicate (barLength "a".toList "b\n*** Reason: c".toList loc) '*' ++ ['\n'] ++ ['\n']) ht
  simpa only [List.append_assoc] using ht'

/-- A symbol with a line break forges the reason: asking the database for the substance `x⏎*** Reason: all is well` gives a message whose reason reads
`all is well` in the database.` -/
theorem C168_forged_refuted : ∃ name x, missingSubstance name = .ok x ∧
    field x.what 3 "*** Reason: " = some "all is well` in the database.".toList :=
  ⟨"x\n*** Reason: all is well".toList, _, rfl, by decide +kernel⟩

/-- Asking a database for a record it does not have gives an error that names no file, only a line: `Location: :179`, `:187` or `:195`, whatever the
symbol; so do eleven further places that raise errors directly (Database.cpp:18-25 and others set `line` and leave `file` empty). -/
theorem C168_file_refuted (name : Text) (h : '\n' ∉ name) :
    (∃ x, missingElement name = .ok x ∧ (field x.what 4 "*** Location: ").map placeOf = some ([], 179)) ∧
    (∃ x, missingSubstance name = .ok x ∧ (field x.what 4 "*** Location: ").map placeOf = some ([], 187)) ∧
    (∃ x, missingReaction name = .ok x ∧ (field x.what 4 "*** Location: ").map placeOf = some ([], 195)) ∧
    (∃ x, hkfGemsNoParameters name = .ok x ∧ (field x.what 4 "*** Location: ").map placeOf = some ([], 34)) := by
  have hc : ∀ a b : Text, '\n' ∉ a → '\n' ∉ b → '\n' ∉ a ++ name ++ b := by
    intro a b ha hb
    simp only [List.mem_append, not_or]
    exact ⟨⟨ha, h⟩, hb⟩
  refine ⟨⟨_, rfl, ?_⟩, ⟨_, rfl, ?_⟩, ⟨_, rfl, ?_⟩, ⟨_, rfl, ?_⟩⟩
  · exact (C168_read_partial _ _ [] 179 24 (hc _ _ (by decide) (by decide)) (by decide) (by decide) (by decide) _ rfl).2.2
  · exact (C168_read_partial _ _ [] 187 24 (hc _ _ (by decide) (by decide)) (by decide) (by decide) (by decide) _ rfl).2.2
  · exact (C168_read_partial _ _ [] 195 24 (hc _ _ (by decide) (by decide)) (by decide) (by decide) (by decide) _ rfl).2.2
  · exact (C168_read_partial _ _ [] 34 35 (by decide) (hc _ _ (by decide) (by decide)) (by decide) (by decide) _ rfl).2.2

/-- Every query of the model of Zhang and Duan for water outside its range (hotter than 2273.15 K or colder than 0 K, above 3·10¹⁰ Pa or below 10⁸ Pa)
reads a line number that was never set: `checkModelValidity` (ThermoModelsSolvent.cpp:17-46) leaves `exception.line` unset and the message
prints it.  At 300 K and 1 bar, for example. -/
theorem C168_range_refuted (fmt : ℚ → Text) :
    zhangDuanCheck fmt 300 100000 = some .ub ∧
    ∀ T P, T < 0 ∨ 2273.15 < T ∨ 30000000000 < P ∨ P < 100000000 → zhangDuanCheck fmt T P = some .ub := by
  have h : ∀ T P : ℚ, T < 0 ∨ 2273.15 < T ∨ 30000000000 < P ∨ P < 100000000 → zhangDuanCheck fmt T P = some .ub := by
    intro T P h
    unfold zhangDuanCheck checkModelValidity raise
    simp only
    split_ifs with h1 h2 h3
    · rfl
    · rfl
    · rfl
    · exfalso
      rcases h with h | h | h | h
      · exact h1 (Or.inl h)
      · exact h1 (Or.inr h)
      · exact h2 h
      · exact h3 h
  exact ⟨h _ _ (Or.inr (Or.inr (Or.inr (by norm_num)))), h⟩

/-- Inside its range the model of Zhang and Duan raises no error from this test.  The range begins at 0 K, not at the 273.15 K the caller names: that
argument is not read. -/
theorem C168_range_partial (fmt : ℚ → Text) (T P : ℚ) :
    zhangDuanCheck fmt T P = none ↔ 0 ≤ T ∧ T ≤ 2273.15 ∧ 100000000 ≤ P ∧ P ≤ 30000000000 := by
  constructor
  · intro h
    by_contra hn
    have : T < 0 ∨ 2273.15 < T ∨ 30000000000 < P ∨ P < 100000000 := by
      by_contra hc
      push Not at hc
      exact hn ⟨hc.1, hc.2.1, hc.2.2.2, hc.2.2.1⟩
    rw [(C168_range_refuted fmt).2 T P this] at h
    exact absurd h (by simp)
  · rintro ⟨h1, h2, h3, h4⟩
    unfold zhangDuanCheck checkModelValidity
    rw [if_neg (by push Not; exact ⟨h1, h2⟩), if_neg (not_lt.2 h4), if_neg (not_lt.2 h3)]

example (fmt : ℚ → Text) : zhangDuanCheck fmt 500 200000000 = none ∧ zhangDuanCheck fmt 1 200000000 = none :=
  ⟨(C168_range_partial fmt _ _).2 (by norm_num), (C168_range_partial fmt _ _).2 (by norm_num)⟩

/-- The records in the log hold the error and its reason: each ends with them. -/
theorem C168_log_partial (e : Exn) (here : Nat) (x : Raised) (h : raise e here = .ok x) : (e.error ++ [' '] ++ e.reason) <:+ x.log := by
  unfold raise at h
  split at h
  · cases h
  · simp only [Res.ok.injEq] at h
    subst h
    refine ⟨[' '] ++ decText here ++ " - ".toList, ?_⟩
    simp only [logText, List.append_assoc]

example : ∃ x, missingSubstance "Foo".toList = .ok x ∧ x.log = (" 24 - Cannot get an instance of the substance `Foo` in the database. " ++
    "There is no such substance in the database.").toList := ⟨_, rfl, by decide +kernel⟩

/-- The record in the log does not name the place of the error: wherever `funError` is called, the log says line 222, a line of Exception.cpp itself;
the place given by the caller goes into the text of the exception only (Exception.cpp:102 logs the line of `RaiseError`). -/
theorem C168_log_refuted : ∀ e r line file line' file', ∃ x y, funError e r line file = .ok x ∧ funError e r line' file' = .ok y ∧ x.log = y.log ∧
    " 222 - ".toList <+: x.log := by
  intro e r line file line' file'
  refine ⟨_, _, rfl, rfl, rfl, e ++ [' '] ++ r, ?_⟩
  have h : " 222 - ".toList = [' '] ++ decText 222 ++ " - ".toList := by decide +kernel
  rw [h]
  simp only [logText, List.append_assoc]

/-! ## The log -/

/-- Spec: where a record of level `l` written to the logger goes; level 6 is "off". -/
def reaches (lg : Logger) (l : Nat) (s : Sink) : Prop := lg.level ≤ l ∧ s ∈ lg.sinks

/-- The registry as it is after both libraries were loaded: each logger writes to the console. -/
def loaded : Registry := ⟨some ⟨2, [.console]⟩, some ⟨2, [.console]⟩⟩

/-- After `update_loggers(use_cout, name, level)` with both loggers registered and a file that can be opened, both loggers do exactly what was asked,
whatever they did before: a record reaches the console iff the console was asked for and its level is high enough, and it reaches a file iff that file
was named, the console was not asked for, and its level is high enough; levels above 6 count as 2.
Missing: console and file at once (`C168_both_refuted`), a missing logger (`C168_unregistered_partial`), a file that cannot be opened
(`C168_unopened_refuted`). -/
theorem C168_update_partial (canOpen : Text → Bool) (useCout : Bool) (name : Text) (level : Nat) (t c : Logger)
    (h : useCout = true ∨ name = [] ∨ canOpen name = true) :
    ∃ t' c', updateLoggers canOpen useCout name level ⟨some t, some c⟩ = (⟨some t', some c'⟩, false) ∧ ∀ lg ∈ [t', c'], ∀ l,
      (reaches lg l .console ↔ useCout = true ∧ (if level ≤ 6 then level else 2) ≤ l) ∧
      (∀ n a b, reaches lg l (.rotating n a b) ↔
        useCout = false ∧ name ≠ [] ∧ n = name ∧ a = 1048576 ∧ b = 3 ∧ (if level ≤ 6 then level else 2) ≤ l) ∧
      (∀ n b, ¬ reaches lg l (.basic n b)) := by
  have hlev : levelOf level = if level ≤ 6 then level else 2 := by
    unfold levelOf
    split_ifs <;> omega
  unfold updateLoggers
  simp only [hlev]
  generalize (if level ≤ 6 then level else 2) = lev
  cases useCout with
  | true =>
    refine ⟨_, _, rfl, ?_⟩
    intro lg hlg l
    simp only [List.mem_cons, List.not_mem_nil, or_false, or_self] at hlg
    subst hlg
    simp [reaches]
  | false =>
    by_cases hn : name = []
    · subst hn
      refine ⟨_, _, rfl, ?_⟩
      intro lg hlg l
      simp only [List.mem_cons, List.not_mem_nil, or_false, or_self] at hlg
      subst hlg
      simp [reaches]
    · have ho : canOpen name = true := by
        rcases h with h | h | h
        · exact absurd h (by simp)
        · exact absurd h hn
        · exact h
      refine ⟨⟨lev, [.rotating name 1048576 3]⟩, ⟨lev, [.rotating name 1048576 3]⟩, by simp [hn, ho], ?_⟩
      intro lg hlg l
      simp only [List.mem_cons, List.not_mem_nil, or_false, or_self] at hlg
      subst hlg
      refine ⟨by simp [reaches], fun n a b => ?_, by simp [reaches]⟩
      simp only [reaches, List.mem_cons, List.not_mem_nil, or_false, Sink.rotating.injEq]
      constructor
      · rintro ⟨h1, h2, h3, h4⟩; exact ⟨by simp, hn, h2, h3, h4, h1⟩
      · rintro ⟨-, -, h2, h3, h4, h1⟩; exact ⟨h1, h2, h3, h4⟩

example : ∃ t c, updateLoggers (fun _ => true) false "thermofun.log".toList 2 loaded = (⟨some t, some c⟩, false) ∧
    reaches t 4 (.rotating "thermofun.log".toList 1048576 3) ∧ ¬ reaches t 1 (.rotating "thermofun.log".toList 1048576 3) ∧
    ¬ reaches t 4 .console := by
  obtain ⟨t, c, h1, h2⟩ := C168_update_partial (fun _ => true) false "thermofun.log".toList 2 ⟨2, [.console]⟩ ⟨2, [.console]⟩ (Or.inr (Or.inr rfl))
  have h3 := h2 t (by simp)
  exact ⟨t, c, h1, ((h3 4).2.1 _ _ _).2 (by decide), fun h => absurd ((((h3 1).2.1 _ _ _).1 h).2.2.2.2.2) (by decide),
    fun h => absurd (((h3 4).1.1 h).1) (by decide)⟩

/-- The last call wins: what `update_loggers` leaves depends on nothing that was set before. -/
theorem C168_last_partial (canOpen : Text → Bool) (u u' : Bool) (n n' : Text) (l l' : Nat) (r : Registry) :
    updateLoggers canOpen u n l (updateLoggers canOpen u' n' l' r).1 = updateLoggers canOpen u n l r := by
  obtain ⟨t, c⟩ := r
  rcases t with _ | t <;> rcases c with _ | c
  · rfl
  · rfl
  · rfl
  · have h : ∃ t' c', (updateLoggers canOpen u' n' l' ⟨some t, some c⟩).1 = ⟨some t', some c'⟩ := by
      unfold updateLoggers
      simp only
      split_ifs <;> exact ⟨_, _, rfl⟩
    obtain ⟨t', c', h'⟩ := h
    rw [h']
    rfl

/-- `clear_loggers(name)` keeps the levels, takes all sinks away and leaves the named file, emptied, as the only one. -/
theorem C168_clear_partial (canOpen : Text → Bool) (name : Text) (t c : Logger) (h : name = [] ∨ canOpen name = true) :
    ∃ t' c', clearLoggers canOpen name ⟨some t, some c⟩ = (⟨some t', some c'⟩, false) ∧
      (∀ l s, reaches t' l s ↔ name ≠ [] ∧ s = .basic name true ∧ t.level ≤ l) ∧
      (∀ l s, reaches c' l s ↔ name ≠ [] ∧ s = .basic name true ∧ c.level ≤ l) := by
  unfold clearLoggers
  by_cases hn : name = []
  · subst hn
    exact ⟨_, _, rfl, by simp [reaches], by simp [reaches]⟩
  · have ho : canOpen name = true := h.resolve_left hn
    refine ⟨⟨t.level, [.basic name true]⟩, ⟨c.level, [.basic name true]⟩, by simp [hn, ho], fun l s => ?_, fun l s => ?_⟩ <;>
    · simp only [reaches, List.mem_cons, List.not_mem_nil, or_false]
      exact ⟨fun ⟨a, b⟩ => ⟨hn, b, a⟩, fun ⟨_, b, a⟩ => ⟨a, b⟩⟩

example : ∃ r, clearLoggers (fun _ => true) "x.log".toList loaded = (r, false) ∧ r ≠ loaded := ⟨_, rfl, by decide⟩

/-- Asking for the console and a log file at once gives the console only: nothing reaches the file (Exception.cpp:36-47 uses the file only in the
`else` branch). -/
theorem C168_both_refuted : ∀ (canOpen : Text → Bool) (name : Text) (level : Nat) (t c : Logger), ∃ t' c',
    updateLoggers canOpen true name level ⟨some t, some c⟩ = (⟨some t', some c'⟩, false) ∧
      ∀ l n a b, ¬ reaches t' l (.rotating n a b) ∧ ¬ reaches c' l (.rotating n a b) := by
  intro canOpen name level t c
  exact ⟨_, _, rfl, fun l n a b => ⟨by simp [reaches], by simp [reaches]⟩⟩

/-- When the logger of ChemicalFun is not registered (it is dropped from the registry, or that library was not initialised), `update_loggers` does nothing
and says nothing: the log of ThermoFun stays where it was (Exception.cpp:22-23). -/
theorem C168_unregistered_partial : ∀ (canOpen : Text → Bool) (useCout : Bool) (name : Text) (level : Nat) (t : Option Logger),
    updateLoggers canOpen useCout name level ⟨t, none⟩ = (⟨t, none⟩, false) := by
  intro canOpen useCout name level t
  cases t <;> rfl

/-- When the log file cannot be opened, the error comes after the old sinks were cleared: from then on nothing is logged anywhere (Exception.cpp:34-35
before 44). -/
theorem C168_unopened_refuted : ∃ canOpen : Text → Bool, ∃ r', updateLoggers canOpen false "/nowhere/x.log".toList 2 loaded = (r', true) ∧
    (∀ t, r'.thermofun = some t → ∀ l s, ¬ reaches t l s) ∧ (∀ c, r'.chemicalfun = some c → ∀ l s, ¬ reaches c l s) := by
  refine ⟨fun _ => false, ⟨some ⟨2, []⟩, some ⟨2, []⟩⟩, by decide, ?_, ?_⟩ <;>
  · intro t ht l s
    have := Option.some.inj ht
    subst this
    simp [reaches]

end ThermoFun.Errors

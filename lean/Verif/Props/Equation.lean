import Verif.Model.Equation
import Mathlib.Tactic.Ring
import Mathlib.Tactic.FieldSimp
import Mathlib.Tactic.NormNum

/-!
Properties C19 and C20: reading a reaction equation.
-/

namespace ThermoFun.Equation

/-! ### Specification: what the text of an equation is -/

/-- A decimal coefficient: perhaps a minus sign, digits, then perhaps a point and more digits; or a minus sign alone. -/
structure Coef where
  minus : Bool
  int : List (Fin 10)
  frac : Option (List (Fin 10))

/-- The character of a digit. -/
def digitChar (d : Fin 10) : Char := Char.ofNat (48 + d.val)

/-- The text of a coefficient. -/
def Coef.text (c : Coef) : List Char :=
  (if c.minus then ['-'] else []) ++ c.int.map digitChar ++ (match c.frac with | none => [] | some f => '.' :: f.map digitChar)

/-- The number a list of decimal digits, most significant first, stands for. -/
def digits (l : List (Fin 10)) : ℚ := l.foldl (fun a d => 10 * a + (d.val : ℚ)) 0

/-- The number a coefficient stands for. -/
def Coef.value (c : Coef) : ℚ :=
  let a := if c.int = [] then 1 else digits c.int + (match c.frac with | none => 0 | some f => digits f / 10 ^ f.length)
  if c.minus then -a else a

/-- A species with its coefficient, `gap` blanks between them. -/
structure Term where
  coef : Option Coef
  gap : List Char
  name : List Char

/-- The text of a term. -/
def Term.text (t : Term) : List Char :=
  match t.coef with
  | none => t.name
  | some c => c.text ++ t.gap ++ t.name

/-- Its coefficient; a missing one is 1. -/
def Term.value (t : Term) : ℚ :=
  match t.coef with
  | none => 1
  | some c => c.value

/-- Space, tab or newline. -/
def Blanks (l : List Char) : Prop := ∀ c ∈ l, c = ' ' ∨ c = '\t' ∨ c = '\n'

/-- The white-space characters: space, tab, newline, carriage return, vertical tab, form feed. -/
def whites : List Char := [' ', '\t', '\n', '\r', '\x0b', '\x0c']

/-- White space of any kind, at least one character. -/
def White (l : List Char) : Prop := l ≠ [] ∧ ∀ c ∈ l, c ∈ whites

/-- The name reads on as an exponent: e or E, perhaps a sign, a digit. -/
def LooksLikeExponent (n : List Char) : Prop :=
  ∃ e d r, (e = 'e' ∨ e = 'E') ∧ d.isDigit = true ∧ (n = e :: d :: r ∨ n = e :: '+' :: d :: r ∨ n = e :: '-' :: d :: r)

/-- Admissible terms: the name starts with a letter or a parenthesis and contains neither blanks nor an equals sign; a written
coefficient has digits before its point or is a single minus sign, is not zero, and the name does not continue it to an exponent. -/
structure Term.Ok (t : Term) : Prop where
  head : ∃ c r, t.name = c :: r ∧ (c.isAlpha = true ∨ c = '(')
  chars : ∀ c ∈ t.name, c ∉ whites ∧ c ≠ '='
  gap : Blanks t.gap
  coef : ∀ c, t.coef = some c → (c.int ≠ [] ∨ (c.minus = true ∧ c.frac = none)) ∧ c.value ≠ 0 ∧ ¬ LooksLikeExponent t.name

/-- One side of an equation: first term, then terms each behind white space, a plus sign and white space; blanks around. -/
structure Side where
  lead : List Char
  first : Term
  more : List (List Char × List Char × Term)
  trail : List Char

/-- The terms of a side. -/
def Side.terms (s : Side) : List Term := s.first :: s.more.map fun x => x.2.2

/-- The text of the terms after the first. -/
def moreText (l : List (List Char × List Char × Term)) : List Char :=
  l.flatMap fun x => x.1 ++ '+' :: x.2.1 ++ x.2.2.text

/-- The text of a side. -/
def Side.text (s : Side) : List Char := s.lead ++ s.first.text ++ moreText s.more ++ s.trail

/-- Admissible sides. -/
structure Side.Ok (s : Side) : Prop where
  lead : Blanks s.lead
  trail : Blanks s.trail
  terms : ∀ t ∈ s.terms, t.Ok
  seps : ∀ x ∈ s.more, White x.1 ∧ White x.2.1

/-! ### Lemmas -/

lemma isWs_iff (c : Char) : isWs c = true ↔ c ∈ whites := by
  have h11 : (c.toNat == 11) = true ↔ c = '\x0b' := by
    constructor
    · intro h; rw [beq_iff_eq] at h; exact Char.ext (UInt32.toNat_inj.1 h)
    · rintro rfl; rfl
  have h12 : (c.toNat == 12) = true ↔ c = '\x0c' := by
    constructor
    · intro h; rw [beq_iff_eq] at h; exact Char.ext (UInt32.toNat_inj.1 h)
    · rintro rfl; rfl
  simp only [isWs, whites, Bool.or_eq_true, h11, h12, beq_iff_eq, List.mem_cons, List.not_mem_nil, or_false]
  tauto

lemma isWs_false (c : Char) : isWs c = false ↔ c ∉ whites := by
  rw [← isWs_iff]; simp

lemma isAlpha_eq (c : Char) : isAlpha c = c.isAlpha := by
  rw [Bool.eq_iff_iff]
  simp only [isAlpha, Char.isAlpha, Char.isUpper, Char.isLower, Bool.or_eq_true, Bool.and_eq_true, decide_eq_true_eq, Char.le_def, ge_iff_le]
  tauto

lemma Term.Ok.ws {t : Term} (h : t.Ok) : ∀ c ∈ t.name, isWs c = false := fun c hc => (isWs_false c).2 (h.chars c hc).1

lemma White.ws {l : List Char} (h : White l) : ∀ c ∈ l, isWs c = true := fun c hc => (isWs_iff c).2 (h.2 c hc)

lemma isWs_of_blank {c : Char} (h : c = ' ' ∨ c = '\t' ∨ c = '\n') : isWs c = true := by
  rcases h with h | h | h <;> subst h <;> decide

lemma isBlank_of_blank {c : Char} (h : c = ' ' ∨ c = '\t' ∨ c = '\n') : isBlank c = true := by
  rcases h with h | h | h <;> subst h <;> decide

lemma isBlank_false_of_isWs {c : Char} (h : isWs c = false) : isBlank c = false := by
  simp only [isWs, isBlank, Bool.or_eq_false_iff] at *
  tauto

lemma dropWhile_ws_append (w r : List Char) (hw : ∀ c ∈ w, isWs c = true) : (w ++ r).dropWhile isWs = r.dropWhile isWs := by
  induction w with
  | nil => rfl
  | cons c t ih =>
    rw [List.cons_append, List.dropWhile_cons, if_pos (hw c (by simp))]
    exact ih fun c hc => hw c (by simp [hc])

/-- Text that starts with a character that is not white space. -/
def Solid (r : List Char) : Prop := ∃ c t, r = c :: t ∧ isWs c = false

lemma Solid.dropWhile {r : List Char} (h : Solid r) : r.dropWhile isWs = r := by
  obtain ⟨c, t, rfl, hc⟩ := h
  rw [List.dropWhile_cons, if_neg (by simp [hc])]

lemma matchSep_solid {c : Char} {t : List Char} (h : isWs c = false) : matchSep (c :: t) = none := by
  simp [matchSep, h]

lemma splitGo_cons_none (had : Bool) (acc t : List Char) (c : Char) (h : matchSep (c :: t) = none) :
    splitGo had acc (c :: t) = splitGo had (c :: acc) t := by
  rw [splitGo]
  split
  · rename_i heq; rw [h] at heq; simp at heq
  · rfl

lemma splitGo_some (had : Bool) (acc l r : List Char) (h : matchSep l = some r) :
    splitGo had acc l = acc.reverse :: splitGo true [] r := by
  match l with
  | [] => simp [matchSep] at h
  | c :: t =>
    rw [splitGo]
    split
    · rename_i heq; rw [h] at heq; injection heq with heq; subst heq; rfl
    · rename_i heq; rw [h] at heq; simp at heq

/-- Characters other than white space are passed over. -/
lemma splitGo_solid (had : Bool) (acc p l : List Char) (hp : ∀ c ∈ p, isWs c = false) :
    splitGo had acc (p ++ l) = splitGo had (p.reverse ++ acc) l := by
  induction p generalizing acc with
  | nil => rfl
  | cons c t ih =>
    rw [List.cons_append, splitGo_cons_none _ _ _ _ (matchSep_solid (hp c (by simp))), ih _ fun c hc => hp c (by simp [hc])]
    simp

/-- Text at whose head no `+` followed by white space stands. -/
def NoPlus (r : List Char) : Prop := r = [] ∨ (Solid r ∧ ∀ d t, r = '+' :: d :: t → isWs d = false)

/-- White space that no plus sign follows is passed over. -/
lemma splitGo_white (had : Bool) (acc w r : List Char) (hw : ∀ c ∈ w, isWs c = true) (hr : NoPlus r) :
    splitGo had acc (w ++ r) = splitGo had (w.reverse ++ acc) r := by
  induction w generalizing acc with
  | nil => rfl
  | cons c t ih =>
    have hm : matchSep (c :: (t ++ r)) = none := by
      have hd : (c :: (t ++ r)).dropWhile isWs = r := by
        rw [← List.cons_append, dropWhile_ws_append _ _ hw]
        rcases hr with rfl | hr
        · rfl
        · exact hr.1.dropWhile
      unfold matchSep
      simp only [hw c (by simp), if_true, hd]
      split
      · rename_i d r' 
        rcases hr with hr | hr
        · simp at hr
        · simp [hr.2 _ _ rfl]
      · rfl
    rw [List.cons_append, splitGo_cons_none _ _ _ _ hm, ih _ fun c hc => hw c (by simp [hc])]
    simp

/-- A separator splits. -/
lemma splitGo_sep (had : Bool) (acc a b r : List Char) (ha : White a) (hb : White b) (hr : Solid r) :
    splitGo had acc (a ++ '+' :: b ++ r) = acc.reverse :: splitGo true [] r := by
  apply splitGo_some
  obtain ⟨c, a', rfl⟩ := List.exists_cons_of_ne_nil ha.1
  obtain ⟨d, b', rfl⟩ := List.exists_cons_of_ne_nil hb.1
  have hd : ((c :: a') ++ '+' :: (d :: b') ++ r).dropWhile isWs = '+' :: d :: (b' ++ r) := by
    rw [List.append_assoc, dropWhile_ws_append _ _ ha.ws]
    exact Solid.dropWhile ⟨'+', _, rfl, by decide⟩
  unfold matchSep
  simp only [List.cons_append, ha.ws c (by simp), if_true] at hd ⊢
  rw [hd]
  simp only [hb.ws d (by simp), if_true]
  rw [dropWhile_ws_append _ _ fun c hc => hb.ws c (by simp [hc]), hr.dropWhile]

/-- What is left of a term after the blanks are erased. -/
def Term.core (t : Term) : List Char :=
  match t.coef with
  | none => t.name
  | some c => c.text ++ t.name

lemma digitChar_facts (d : Fin 10) : isWs (digitChar d) = false ∧ digitChar d ≠ '=' ∧ digitChar d ≠ '+' ∧ digitChar d ≠ '-' ∧
    digitVal 10 (digitChar d) = some d.val ∧ isAlpha (digitChar d) = false ∧ digitChar d ≠ '(' ∧ digitChar d ≠ '.' := by
  revert d; decide

lemma Coef.text_chars (c : Coef) : ∀ x ∈ c.text, isWs x = false ∧ x ≠ '=' := by
  intro x hx
  simp only [Coef.text, List.mem_append] at hx
  rcases hx with (hx | hx) | hx
  · split at hx
    · simp at hx; subst hx; decide
    · simp at hx
  · obtain ⟨d, _, rfl⟩ := List.mem_map.1 hx
    exact ⟨(digitChar_facts d).1, (digitChar_facts d).2.1⟩
  · split at hx
    · simp at hx
    · rename_i f _
      rcases List.mem_cons.1 hx with rfl | hx
      · decide
      · obtain ⟨d, _, rfl⟩ := List.mem_map.1 hx
        exact ⟨(digitChar_facts d).1, (digitChar_facts d).2.1⟩

lemma stripAll_append (a b : List Char) : stripAll (a ++ b) = stripAll a ++ stripAll b := List.filter_append ..

lemma stripAll_blanks {l : List Char} (h : Blanks l) : stripAll l = [] := by
  unfold stripAll
  rw [List.filter_eq_nil_iff]
  intro c hc
  simp [isBlank_of_blank (h c hc)]

lemma stripAll_solid {l : List Char} (h : ∀ c ∈ l, isWs c = false) : stripAll l = l := by
  unfold stripAll
  rw [List.filter_eq_self]
  intro c hc
  simp [isBlank_false_of_isWs (h c hc)]

lemma Term.Ok.strip {t : Term} (h : t.Ok) : stripAll t.text = t.core := by
  unfold Term.text Term.core
  cases t.coef with
  | none => exact stripAll_solid fun c hc => h.ws c hc
  | some c =>
    simp only [stripAll_append, stripAll_blanks h.gap, stripAll_solid fun x hx => (c.text_chars x hx).1,
      stripAll_solid fun x hx => h.ws x hx, List.append_nil]

/-- The head of a term is neither white space nor a plus sign. -/
lemma Term.Ok.head_char {t : Term} (h : t.Ok) : ∃ c r, t.text = c :: r ∧ isWs c = false ∧ c ≠ '+' := by
  obtain ⟨c, r, hn, hc⟩ := h.head
  have hname : isWs c = false ∧ c ≠ '+' := by
    refine ⟨h.ws c (by simp [hn]), ?_⟩
    rintro rfl
    rcases hc with hc | hc <;> revert hc <;> decide
  unfold Term.text
  cases hco : t.coef with
  | none => exact ⟨c, r, hn, hname⟩
  | some k =>
    obtain ⟨hi, -⟩ := h.coef k hco
    cases hm : k.minus with
    | true => exact ⟨'-', _, by simp [Coef.text, hm]; rfl, by decide, by decide⟩
    | false =>
      obtain ⟨d, l, hl⟩ := List.exists_cons_of_ne_nil (hi.resolve_right (by simp [hm]))
      exact ⟨digitChar d, _, by simp [Coef.text, hm, hl]; rfl, (digitChar_facts d).1, (digitChar_facts d).2.2.1⟩

lemma Term.Ok.noPlus {t : Term} (h : t.Ok) (l : List Char) : NoPlus (t.text ++ l) ∧ Solid (t.text ++ l) := by
  obtain ⟨c, r, e, hc, hp⟩ := h.head_char
  have hs : Solid (t.text ++ l) := ⟨c, r ++ l, by rw [e]; rfl, hc⟩
  refine ⟨Or.inr ⟨hs, ?_⟩, hs⟩
  intro d u hd
  rw [e] at hd
  injection hd with hd
  exact absurd hd hp

/-- A term is passed over. -/
lemma splitGo_term (had : Bool) (acc l : List Char) {t : Term} (h : t.Ok) :
    splitGo had acc (t.text ++ l) = splitGo had (t.text.reverse ++ acc) l := by
  unfold Term.text
  cases t.coef with
  | none => exact splitGo_solid _ _ _ _ fun c hc => h.ws c hc
  | some c =>
    simp only [List.append_assoc]
    rw [splitGo_solid _ _ _ _ fun x hx => (c.text_chars x hx).1, splitGo_white _ _ _ _ fun x hx => isWs_of_blank (h.gap x hx),
      splitGo_solid _ _ _ _ fun x hx => h.ws x hx]
    · simp
    · obtain ⟨a, r, hn, ha⟩ := h.head
      refine Or.inr ⟨⟨a, r ++ l, by rw [hn]; rfl, h.ws a (by simp [hn])⟩, ?_⟩
      intro d u hd
      rw [hn] at hd
      injection hd with hd
      subst hd
      rcases ha with ha | ha <;> exact absurd ha (by decide)

lemma splitGo_more (had : Bool) (acc trail : List Char) (l : List (List Char × List Char × Term)) (ht : Blanks trail)
    (hok : ∀ x ∈ l, x.2.2.Ok) (hs : ∀ x ∈ l, White x.1 ∧ White x.2.1) (hacc : acc ≠ []) :
    (splitGo had acc (moreText l ++ trail)).map stripAll = stripAll acc.reverse :: l.map fun x => x.2.2.core := by
  induction l generalizing had acc with
  | nil =>
    have := splitGo_white had acc trail [] (fun c hc => isWs_of_blank (ht c hc)) (Or.inl rfl)
    simp only [moreText, List.flatMap_nil, List.nil_append, List.append_nil, List.map_nil] at this ⊢
    rw [this, splitGo, if_neg (by simp [hacc])]
    simp [stripAll_append, stripAll_blanks ht]
  | cons x xs ih =>
    obtain ⟨h1, h2⟩ := hs x (by simp)
    have hx := hok x (by simp)
    have e : moreText (x :: xs) ++ trail = x.1 ++ '+' :: x.2.1 ++ (x.2.2.text ++ (moreText xs ++ trail)) := by
      simp [moreText]
    rw [e, splitGo_sep _ _ _ _ _ h1 h2 (hx.noPlus _).2, splitGo_term _ _ _ hx, List.map_cons, List.map_cons,
      ih true _ (fun y hy => hok y (by simp [hy])) (fun y hy => hs y (by simp [hy]))]
    · simp [hx.strip]
    · obtain ⟨c, r, e, _⟩ := hx.head_char
      simp [e]

lemma Side.Ok.split {s : Side} (h : s.Ok) : regexpSplit s.text = s.terms.map Term.core := by
  have hf := h.terms s.first (by simp [Side.terms])
  unfold regexpSplit Side.text Side.terms
  simp only [List.append_assoc]
  rw [splitGo_white _ _ _ _ (fun c hc => isWs_of_blank (h.lead c hc)) (hf.noPlus _).1, splitGo_term _ _ _ hf, splitGo_more _ _ _ _ h.trail
    (fun x hx => h.terms x.2.2 (by simp only [Side.terms, List.mem_cons, List.mem_map]; exact Or.inr ⟨x, hx, rfl⟩)) h.seps]
  · simp [stripAll_append, hf.strip, stripAll_blanks h.lead]
  · obtain ⟨c, r, e, _⟩ := hf.head_char
    simp [e]


/-! ### Numbers -/

lemma isDigit_iff (c : Char) : c.isDigit = true ↔ digitVal 10 c ≠ none := by
  simp only [digitVal, Char.isDigit, Char.le_def]
  split
  · rename_i h
    simp at h ⊢
    exact h
  · rename_i h
    simp at h ⊢
    exact h

lemma takeDigits_none {r : List Char} (h : ∀ c t, r = c :: t → digitVal 10 c = none) : takeDigits 10 r = ([], r) := by
  match r with
  | [] => rfl
  | c :: t => simp [takeDigits, h c t rfl]

lemma takeDigits_map (l : List (Fin 10)) (r : List Char) (h : ∀ c t, r = c :: t → digitVal 10 c = none) :
    takeDigits 10 (l.map digitChar ++ r) = (l.map Fin.val, r) := by
  induction l with
  | nil => exact takeDigits_none h
  | cons d t ih =>
    simp only [List.map_cons, List.cons_append, takeDigits, (digitChar_facts d).2.2.2.2.1, ih]

lemma digits_concat (l : List (Fin 10)) (d : Fin 10) : digits (l ++ [d]) = 10 * digits l + (d.val : ℚ) := by
  simp [digits]

lemma ofDigits_digits (l : List (Fin 10)) : ((Nat.ofDigits 10 (l.map Fin.val).reverse : ℕ) : ℚ) = digits l := by
  induction l using List.reverseRecOn with
  | nil => simp [digits]
  | append_singleton l d ih =>
    rw [digits_concat, ← ih]
    simp [Nat.ofDigits_cons]
    ring

lemma digits_append (a b : List (Fin 10)) : digits (a ++ b) = digits a * 10 ^ b.length + digits b := by
  induction b using List.reverseRecOn with
  | nil => simp [digits]
  | append_singleton b d ih =>
    rw [← List.append_assoc, digits_concat, digits_concat, ih]
    simp [pow_succ]
    ring

lemma scanExp_name {n : List Char} (h : ¬ LooksLikeExponent n) : scanExp (fun c => c == 'e' || c == 'E') n = (0, n) := by
  match n with
  | [] => rfl
  | c :: t =>
    unfold scanExp
    by_cases hc : (c == 'e' || c == 'E') = true
    · simp only [hc, if_true]
      have hc' : c = 'e' ∨ c = 'E' := by simpa using hc
      match t with
      | [] => rfl
      | s :: u =>
        simp only
        have : takeDigits 10 (if (s == '-' || s == '+') = true then u else s :: u) =
            ([], if (s == '-' || s == '+') = true then u else s :: u) := by
          apply takeDigits_none
          intro d v hd
          by_contra hne
          have hdig := (isDigit_iff d).2 hne
          apply h
          by_cases hs : (s == '-' || s == '+') = true
          · rw [if_pos hs] at hd
            subst hd
            have hs' : s = '-' ∨ s = '+' := by simpa using hs
            rcases hs' with rfl | rfl
            · exact ⟨c, d, v, hc', hdig, Or.inr (Or.inr rfl)⟩
            · exact ⟨c, d, v, hc', hdig, Or.inr (Or.inl rfl)⟩
          · rw [if_neg hs] at hd
            injection hd with h1 h2
            subst h1; subst h2
            exact ⟨c, s, u, hc', hdig, Or.inl rfl⟩
        rw [this]
    · simp [hc]

/-- The size of a coefficient. -/
def Coef.size (c : Coef) : ℚ := if c.int = [] then 1 else digits c.int + (match c.frac with | none => 0 | some f => digits f / 10 ^ f.length)

/-- Its text without the sign. -/
def Coef.utext (c : Coef) : List Char := c.int.map digitChar ++ (match c.frac with | none => [] | some f => '.' :: f.map digitChar)

lemma Term.Ok.head_name {t : Term} (h : t.Ok) : ∃ c r, t.name = c :: r ∧ digitVal 10 c = none ∧ c ≠ '.' := by
  obtain ⟨c, r, hn, hc⟩ := h.head
  refine ⟨c, r, hn, ?_, ?_⟩
  · by_contra hne
    have hd := (isDigit_iff c).2 hne
    rcases hc with hc | rfl
    · simp only [Char.isAlpha, Char.isUpper, Char.isLower, Char.isDigit, Bool.or_eq_true, Bool.and_eq_true, decide_eq_true_eq] at hc hd
      have h1 : c.val.toNat ≤ 57 := hd.2
      rcases hc with ⟨hc, _⟩ | ⟨hc, _⟩
      · have h2 : 65 ≤ c.val.toNat := hc
        omega
      · have h2 : 97 ≤ c.val.toNat := hc
        omega
    · revert hd; decide
  · rintro rfl
    rcases hc with hc | hc <;> revert hc <;> decide

lemma scanUnsigned_coef {t : Term} (h : t.Ok) {c : Coef} (hc : t.coef = some c) (hi : c.int ≠ []) :
    scanUnsigned 10 10 (fun c => c == 'e' || c == 'E') (c.utext ++ t.name) = some (c.size, t.name) := by
  obtain ⟨-, hv, he⟩ := h.coef c hc
  obtain ⟨a, r, hn, ha, hp⟩ := h.head_name
  have hname : ∀ x u, t.name = x :: u → digitVal 10 x = none := by
    intro x u hx; rw [hn] at hx; injection hx with h1 _; rw [← h1]; exact ha
  unfold scanUnsigned Coef.utext Coef.size
  rw [if_neg hi]
  cases hf : c.frac with
  | none =>
    simp only [List.append_nil]
    rw [takeDigits_map _ _ hname]
    simp only
    have : fracPart 10 t.name = ([], t.name) := by
      rw [hn]
      unfold fracPart
      split
      · rename_i heq; injection heq with h1 _; exact absurd h1 hp
      · rfl
    rw [this]
    simp only [List.map_eq_nil_iff, hi, false_and, if_false, scanExp_name he, List.append_nil, List.length_nil, pow_zero, div_one, zpow_zero,
      mul_one, add_zero, ofDigits_digits]
  | some f =>
    simp only [List.append_assoc, List.cons_append]
    rw [takeDigits_map _ _ (by intro x u hx; injection hx with h1 _; rw [← h1]; decide)]
    simp only [fracPart]
    rw [takeDigits_map _ _ hname]
    simp only [List.map_eq_nil_iff, hi, false_and, if_false, scanExp_name he, zpow_zero, mul_one, ← List.map_append, ofDigits_digits,
      digits_append, List.length_map]
    congr 2
    push_cast
    field_simp

lemma Coef.value_eq (c : Coef) : c.value = if c.minus then -c.size else c.size := rfl

lemma Coef.text_eq (c : Coef) : c.text = (if c.minus then ['-'] else []) ++ c.utext := by
  simp [Coef.text, Coef.utext]

lemma scanNumber_coef {t : Term} (h : t.Ok) {c : Coef} (hc : t.coef = some c) (hi : c.int ≠ []) :
    scanNumber (c.utext ++ t.name) = some (c.size, t.name) := by
  rw [← scanUnsigned_coef h hc hi]
  unfold scanNumber
  simp only
  split
  · rename_i x u heq
    split
    · rename_i hx
      exfalso
      have hx' : x = 'x' ∨ x = 'X' := by simpa using hx
      obtain ⟨-, hv, -⟩ := h.coef c hc
      obtain ⟨d, l, hl⟩ := List.exists_cons_of_ne_nil hi
      unfold Coef.utext at heq
      rw [hl] at heq
      simp only [List.map_cons, List.cons_append] at heq
      injection heq with h0 h1
      have hd0 : d = 0 := (by decide : ∀ d : Fin 10, digitChar d = '0' → d = 0) d h0
      match l, h1 with
      | e :: l', h1 =>
        simp only [List.map_cons, List.cons_append] at h1
        injection h1 with h1 _
        rw [← h1] at hx'
        exact (by decide : ∀ d : Fin 10, ¬ (digitChar d = 'x' ∨ digitChar d = 'X')) e hx'
      | [], h1 =>
        cases hf : c.frac with
        | some f =>
          rw [hf] at h1
          simp only [List.map_nil, List.nil_append, List.cons_append] at h1
          injection h1 with h1 _
          rw [← h1] at hx'
          revert hx'; decide
        | none =>
          apply hv
          simp [Coef.value_eq, Coef.size, hl, hf, hd0, digits]
    · rfl
  · rfl

/-- Coefficient and name of a term come back. -/
lemma extractCoef_core {t : Term} (h : t.Ok) : extractCoef t.core = .ok (t.value, t.name) := by
  unfold Term.core Term.value
  cases hc : t.coef with
  | none =>
    obtain ⟨c, r, hn, hc⟩ := h.head
    simp only [hn, extractCoef]
    rw [if_pos]
    rw [isAlpha_eq]
    rcases hc with hc | rfl
    · simp [hc]
    · simp
  | some c =>
    obtain ⟨hi', hv, -⟩ := h.coef c hc
    by_cases hi : c.int = []
    · obtain ⟨hm, hf⟩ := hi'.resolve_left (by simp [hi])
      obtain ⟨a, r, hn, ha⟩ := h.head
      simp only [Coef.text_eq, Coef.value_eq, Coef.utext, Coef.size, hi, hf, hm, if_true, List.map_nil, List.append_nil, hn, List.cons_append,
        List.nil_append]
      have ha' : (isAlpha a || a == '(') = true := by
        rw [isAlpha_eq]
        rcases ha with ha | rfl
        · simp [ha]
        · simp
      have hm1 : isAlpha '-' = false := by decide
      simp [extractCoef, ha', hm1]
    obtain ⟨d, l, hl⟩ := List.exists_cons_of_ne_nil hi
    obtain ⟨hd1, hd2, hd3, hd4, hd5, hd6, hd7, hd8⟩ := digitChar_facts d
    have hs := scanNumber_coef h hc hi
    have hu : ∃ u, c.utext ++ t.name = digitChar d :: u := by
      unfold Coef.utext; rw [hl]; exact ⟨_, rfl⟩
    obtain ⟨u, hu⟩ := hu
    simp only [Coef.text_eq, Coef.value_eq]
    cases hm : c.minus with
    | true =>
      simp only [if_true, List.cons_append, List.nil_append, hu]
      simp only [extractCoef, List.headD_cons, hd6, beq_eq_false_iff_ne.2 hd7, Bool.or_self, Bool.and_false, Bool.false_eq_true, if_false]
      rw [if_neg (by decide)]
      have hdw : ('-' :: digitChar d :: u).dropWhile isWs = '-' :: digitChar d :: u := Solid.dropWhile ⟨'-', _, rfl, by decide⟩
      simp only [stod, hdw]
      rw [← hu, hs]
      simp
    | false =>
      simp only [Bool.false_eq_true, if_false, List.nil_append, hu]
      simp only [extractCoef, hd6, beq_eq_false_iff_ne.2 hd7, Bool.or_self, Bool.false_eq_true, if_false, beq_eq_false_iff_ne.2 hd3,
        beq_eq_false_iff_ne.2 hd4, Bool.false_and]
      have hdw : (digitChar d :: u).dropWhile isWs = digitChar d :: u := Solid.dropWhile ⟨_, _, rfl, hd1⟩
      simp only [stod, hdw]
      split
      · rename_i v heq; injection heq with h1 _; exact absurd h1 hd4
      · rename_i v heq; injection heq with h1 _; exact absurd h1 hd3
      · rw [← hu, hs]; simp


/-! ### The map of reactants -/

lemma get_assign (m : RMap) (n k : List Char) (x : ℚ) : (m.assign n x).get k = if n = k then some x else m.get k := by
  induction m with
  | nil => rfl
  | cons p t ih =>
    obtain ⟨a, y⟩ := p
    unfold RMap.assign
    by_cases h : a = n
    · subst h
      simp only [if_true, RMap.get]
      by_cases h' : a = k <;> simp [h']
    · by_cases hlt : n < a
      · simp only [h, if_false, hlt, if_true, RMap.get]
      · simp only [h, if_false, hlt, RMap.get, ih]
        by_cases h' : a = k
        · subst h'
          simp [Ne.symm h]
        · simp [h']

lemma addParts_terms (sgn : ℚ) (l : List Term) (m : RMap) (h : ∀ t ∈ l, t.Ok) :
    addParts sgn (l.map Term.core) m = .ok (l.foldl (fun m t => m.assign t.name (t.value * sgn)) m) := by
  induction l generalizing m with
  | nil => rfl
  | cons t u ih =>
    have ht := h t (by simp)
    obtain ⟨c, r, hn, _⟩ := ht.head
    simp only [List.map_cons, addParts, extractCoef_core ht, Res.ok_bind, List.foldl_cons]
    rw [if_neg (by simp [hn]), ih _ fun t ht => h t (by simp [ht])]

/-- All occurrences of species in an equation, with signed coefficients: reactants negative, products positive. -/
def occurrences (l r : Side) : List (List Char × ℚ) :=
  (l.terms.map fun t => (t.name, -t.value)) ++ (r.terms.map fun t => (t.name, t.value))

lemma foldl_map_assign (sgn : ℚ) (l : List Term) (m : RMap) :
    l.foldl (fun m t => m.assign t.name (t.value * sgn)) m = (l.map fun t => (t.name, t.value * sgn)).foldl (fun m p => m.assign p.1 p.2) m := by
  rw [List.foldl_map]

lemma Side.Ok.no_eq {s : Side} (h : s.Ok) : ∀ c ∈ s.text, c ≠ '=' := by
  have hterm : ∀ t : Term, t.Ok → ∀ c ∈ t.text, c ≠ '=' := by
    intro t ht c hc
    unfold Term.text at hc
    cases hco : t.coef with
    | none => rw [hco] at hc; exact (ht.chars c hc).2
    | some k =>
      rw [hco] at hc
      simp only [List.mem_append] at hc
      rcases hc with (hc | hc) | hc
      · exact (k.text_chars c hc).2
      · rcases ht.gap c hc with rfl | rfl | rfl <;> decide
      · exact (ht.chars c hc).2
  have hbl : ∀ l : List Char, Blanks l → ∀ c ∈ l, c ≠ '=' := by
    intro l hl c hc
    rcases hl c hc with rfl | rfl | rfl <;> decide
  have hwh : ∀ l : List Char, White l → ∀ c ∈ l, c ≠ '=' := by
    rintro l hl c hc rfl
    exact absurd (hl.2 _ hc) (by decide)
  intro c hc
  simp only [Side.text, List.mem_append, moreText, List.mem_flatMap] at hc
  rcases hc with ((hc | hc) | ⟨x, hx, hc⟩) | hc
  · exact hbl _ h.lead c hc
  · exact hterm _ (h.terms _ (by simp [Side.terms])) c hc
  · rcases hc with (hc | hc) | hc
    · exact hwh _ (h.seps x hx).1 c hc
    · rcases List.mem_cons.1 hc with rfl | hc
      · decide
      · exact hwh _ (h.seps x hx).2 c hc
    · refine hterm _ (h.terms x.2.2 ?_) c hc
      simp only [Side.terms, List.mem_cons, List.mem_map]
      exact Or.inr ⟨x, hx, rfl⟩
  · exact hbl _ h.trail c hc

lemma takeWhile_eq (a b : List Char) (h : ∀ c ∈ a, c ≠ '=') :
    (a ++ '=' :: b).takeWhile (· ≠ '=') = a ∧ (a ++ '=' :: b).dropWhile (· ≠ '=') = '=' :: b := by
  induction a with
  | nil => simp
  | cons c t ih =>
    have hc := h c (by simp)
    obtain ⟨h1, h2⟩ := ih fun c hc => h c (by simp [hc])
    simp only [ne_eq, decide_not] at h1 h2
    simp [hc, h1, h2]

/-- Reading an equation assigns the occurrences in turn. -/
lemma fromEquation_ok (l r : Side) (hl : l.Ok) (hr : r.Ok) (m : RMap) :
    fromEquation (l.text ++ '=' :: r.text) m = .ok ((occurrences l r).foldl (fun m p => m.assign p.1 p.2) m) := by
  obtain ⟨h1, h2⟩ := takeWhile_eq l.text r.text hl.no_eq
  unfold fromEquation
  simp only [h1, h2, hl.split, hr.split, addParts_terms _ _ _ hl.terms, Res.ok_bind, addParts_terms _ _ _ hr.terms]
  rw [foldl_map_assign, foldl_map_assign, ← List.foldl_append]
  simp [occurrences]

lemma get_foldl_notMem (l : List (List Char × ℚ)) (m : RMap) (n : List Char) (h : n ∉ l.map (·.1)) :
    (l.foldl (fun m p => m.assign p.1 p.2) m).get n = m.get n := by
  induction l generalizing m with
  | nil => rfl
  | cons p t ih =>
    simp only [List.map_cons, List.mem_cons, not_or] at h
    rw [List.foldl_cons, ih _ h.2, get_assign, if_neg (Ne.symm h.1)]

lemma get_foldl_mem (l : List (List Char × ℚ)) (m : RMap) (n : List Char) (x : ℚ)
    (h : l.filter (fun p => p.1 = n) = [(n, x)]) :
    (l.foldl (fun m p => m.assign p.1 p.2) m).get n = some x := by
  induction l generalizing m with
  | nil => simp at h
  | cons p t ih =>
    rw [List.foldl_cons]
    by_cases hp : p.1 = n
    · rw [List.filter_cons_of_pos (by simpa using hp)] at h
      injection h with h1 h2
      rw [get_foldl_notMem _ _ _ ?_, get_assign, h1]
      · simp
      · intro hmem
        obtain ⟨q, hq, hqn⟩ := List.mem_map.1 hmem
        have := List.filter_eq_nil_iff.1 h2 q hq
        simp [hqn] at this
    · rw [List.filter_cons_of_neg (by simpa using hp)] at h
      exact ih _ h

/-! ### The properties -/

/-- **C19.**  The text of an equation gives back exactly its species: reactants with minus their coefficient, products with theirs, and no
other species.  (Any number of species with admissible, distinct names and any non-zero decimal coefficients.) -/
theorem C19_round_trip (l r : Side) (hl : l.Ok) (hr : r.Ok) (hd : ((l.terms ++ r.terms).map Term.name).Nodup) :
    ∃ m, fromEquation (l.text ++ '=' :: r.text) [] = .ok m ∧
      (∀ t ∈ l.terms, m.get t.name = some (-t.value)) ∧
      (∀ t ∈ r.terms, m.get t.name = some t.value) ∧
      (∀ n, n ∉ (l.terms ++ r.terms).map Term.name → m.get n = none) := by
  have hnames : (occurrences l r).map (·.1) = (l.terms ++ r.terms).map Term.name := by
    simp [occurrences, Function.comp_def]
  have key : ∀ p ∈ occurrences l r, (occurrences l r).filter (fun q => q.1 = p.1) = [(p.1, p.2)] := by
    rw [← hnames] at hd
    generalize occurrences l r = o at hd
    clear hnames
    induction o with
    | nil => simp
    | cons q t ih =>
      simp only [List.map_cons, List.nodup_cons] at hd
      intro p hp
      rcases List.mem_cons.1 hp with rfl | hp
      · rw [List.filter_cons_of_pos (by simp)]
        congr 1
        rw [List.filter_eq_nil_iff]
        intro x hx
        simp only [decide_eq_true_eq]
        intro e
        exact hd.1 (List.mem_map.2 ⟨x, hx, e⟩)
      · have : q.1 ≠ p.1 := fun e => hd.1 (List.mem_map.2 ⟨p, hp, e.symm⟩)
        rw [List.filter_cons_of_neg (by simpa using this)]
        exact ih hd.2 p hp
  refine ⟨_, fromEquation_ok l r hl hr [], fun t ht => ?_, fun t ht => ?_, fun n hn => ?_⟩
  · exact get_foldl_mem _ _ _ _ (key (t.name, -t.value) (by simp only [occurrences, List.mem_append, List.mem_map]; exact Or.inl ⟨t, ht, rfl⟩))
  · exact get_foldl_mem _ _ _ _ (key (t.name, t.value) (by simp only [occurrences, List.mem_append, List.mem_map]; exact Or.inr ⟨t, ht, rfl⟩))
  · rw [get_foldl_notMem _ _ _ (by rw [hnames]; exact hn)]; rfl

/-- `Ca+2 + 2 HCO3- = CaCO3 + H2O + 1.5(CO2)`: species with charges and parentheses. -/
example : ∃ l r : Side, l.Ok ∧ r.Ok ∧ ((l.terms ++ r.terms).map Term.name).Nodup ∧
    String.ofList (l.text ++ '=' :: r.text) = "Ca+2 + 2 HCO3- = CaCO3 + H2O\t+ 1.5(CO2)" := by
  refine ⟨⟨[], ⟨none, [], "Ca+2".toList⟩, [([' '], [' '], ⟨some ⟨false, [2], none⟩, [' '], "HCO3-".toList⟩)], [' ']⟩,
    ⟨[' '], ⟨none, [], "CaCO3".toList⟩, [([' '], [' '], ⟨none, [], "H2O".toList⟩),
      (['\t'], [' '], ⟨some ⟨false, [1], some [5]⟩, [], "(CO2)".toList⟩)], []⟩, ?_, ?_, ?_, ?_⟩
  · refine ⟨by simp [Blanks], by simp [Blanks], ?_, by simp [White, whites]⟩
    simp only [Side.terms, List.map_cons, List.map_nil, List.forall_mem_cons, List.not_mem_nil, false_imp_iff, implies_true, and_true]
    refine ⟨⟨⟨_, _, rfl, Or.inl (by decide)⟩, by decide, by simp [Blanks], by simp⟩,
      ⟨⟨_, _, rfl, Or.inl (by decide)⟩, by decide, by simp [Blanks], ?_⟩⟩
    rintro c ⟨⟩
    exact ⟨Or.inl (by simp), by norm_num [Coef.value, digits], by
      rintro ⟨e, d, r, he, _, h | h | h⟩ <;> injection h with h <;> subst h <;> revert he <;> decide⟩
  · refine ⟨by simp [Blanks], by simp [Blanks], ?_, by simp [White, whites]⟩
    simp only [Side.terms, List.map_cons, List.map_nil, List.forall_mem_cons, List.not_mem_nil, false_imp_iff, implies_true, and_true]
    refine ⟨⟨⟨_, _, rfl, Or.inl (by decide)⟩, by decide, by simp [Blanks], by simp⟩,
      ⟨⟨_, _, rfl, Or.inl (by decide)⟩, by decide, by simp [Blanks], by simp⟩,
      ⟨⟨_, _, rfl, Or.inr rfl⟩, by decide, by simp [Blanks], ?_⟩⟩
    rintro c ⟨⟩
    exact ⟨Or.inl (by simp), by norm_num [Coef.value, digits], by
      rintro ⟨e, d, r, he, _, h | h | h⟩ <;> injection h with h <;> subst h <;> revert he <;> decide⟩
  · decide
  · decide

/-- The conditions on names are needed: a coefficient followed by a name like `E1` is read as one number and the species is lost; a name
that starts with neither a letter nor a parenthesis is refused without a coefficient. -/
theorem C19_names_refuted :
    fromEquation "2 E1 = B".toList [] = .ok [("B".toList, 1)] ∧
    fromEquation "[A] = B".toList [] = .throw := by
  constructor <;> decide +kernel

/-- Reading a second equation into the same reaction keeps the species of the first: the text then does not determine the
stoichiometry. -/
theorem C19_reuse_refuted :
    ∃ m, fromEquation "A = B".toList [] = .ok m ∧ ∃ m', fromEquation "C = D".toList m = .ok m' ∧ m'.get "A".toList = some (-1) := by
  exact ⟨[("A".toList, -1), ("B".toList, 1)], by decide +kernel,
    [("A".toList, -1), ("B".toList, 1), ("C".toList, -1), ("D".toList, 1)], by decide +kernel, by decide +kernel⟩

/-- **C20 refuted.**  The last occurrence of a species overwrites the others, on the same side and across sides. -/
theorem C20_net_refuted :
    (∃ l r : Side, l.Ok ∧ r.Ok ∧ ∃ m, fromEquation (l.text ++ '=' :: r.text) [] = .ok m ∧ ∃ n,
      m.get n ≠ some (((occurrences l r).filter fun p => p.1 = n).map (·.2)).sum ∧ n ∈ (occurrences l r).map (·.1)) := by
  have hA : Term.Ok ⟨none, [], ['A']⟩ := ⟨⟨_, _, rfl, Or.inl (by decide)⟩, by decide, by simp [Blanks], by simp⟩
  have hB : Term.Ok ⟨none, [], ['B']⟩ := ⟨⟨_, _, rfl, Or.inl (by decide)⟩, by decide, by simp [Blanks], by simp⟩
  have hl : Side.Ok ⟨[], ⟨none, [], ['A']⟩, [([' '], [' '], ⟨none, [], ['A']⟩)], []⟩ :=
    ⟨by simp [Blanks], by simp [Blanks], by simp [Side.terms, hA], by simp [White, whites]⟩
  have hr : Side.Ok ⟨[], ⟨none, [], ['B']⟩, [], []⟩ :=
    ⟨by simp [Blanks], by simp [Blanks], by simp [Side.terms, hB], by simp⟩
  refine ⟨_, _, hl, hr, _, fromEquation_ok _ _ hl hr [], ['A'], ?_, ?_⟩
  · have : ¬ (['B'] : List Char) < ['A'] := by decide
    simp [occurrences, Side.terms, Term.value, RMap.assign, RMap.get, this]
  · simp [occurrences, Side.terms]

/-- **C20, the part that holds.**  A species that occurs once has its net coefficient, whatever else is repeated.  Missing: species that
occur more than once. -/
theorem C20_single_partial (l r : Side) (hl : l.Ok) (hr : r.Ok) :
    ∃ m, fromEquation (l.text ++ '=' :: r.text) [] = .ok m ∧
      ∀ n, ((occurrences l r).map (·.1)).count n = 1 →
        m.get n = some (((occurrences l r).filter fun p => p.1 = n).map (·.2)).sum := by
  refine ⟨_, fromEquation_ok l r hl hr [], fun n hn => ?_⟩
  have hlen : ((occurrences l r).filter fun p => p.1 = n).length = 1 := by
    rw [← hn, List.count, List.countP_map, List.countP_eq_length_filter]
    congr 1
    apply List.filter_congr
    intro x _
    simp [Bool.beq_eq_decide_eq]
  obtain ⟨p, hp⟩ := List.length_eq_one_iff.1 hlen
  have hpn : p.1 = n := by
    have : p ∈ (occurrences l r).filter fun p => p.1 = n := by rw [hp]; simp
    simpa using (List.mem_filter.1 this).2
  have hp' : (occurrences l r).filter (fun p => p.1 = n) = [(n, p.2)] := by
    rw [hp, ← hpn]
  rw [hp']
  simpa using get_foldl_mem _ _ _ _ hp'

/-- `A + A = B`: B occurs once. -/
example : ∃ l r : Side, l.Ok ∧ r.Ok ∧ ((occurrences l r).map (·.1)).count ['B'] = 1 := by
  have hA : Term.Ok ⟨none, [], ['A']⟩ := ⟨⟨_, _, rfl, Or.inl (by decide)⟩, by decide, by simp [Blanks], by simp⟩
  have hB : Term.Ok ⟨none, [], ['B']⟩ := ⟨⟨_, _, rfl, Or.inl (by decide)⟩, by decide, by simp [Blanks], by simp⟩
  exact ⟨⟨[], ⟨none, [], ['A']⟩, [([' '], [' '], ⟨none, [], ['A']⟩)], []⟩, ⟨[], ⟨none, [], ['B']⟩, [], []⟩,
    ⟨by simp [Blanks], by simp [Blanks], by simp [Side.terms, hA], by simp [White, whites]⟩,
    ⟨by simp [Blanks], by simp [Blanks], by simp [Side.terms, hB], by simp⟩, by simp [occurrences, Side.terms]⟩

end ThermoFun.Equation

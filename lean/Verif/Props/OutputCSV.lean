import Verif.Model.OutputCSV

/-! Tables written by `OutputToCSV`: C146. -/

set_option linter.unusedSimpArgs false
set_option linter.unusedVariables false

namespace ThermoFun.Csv

open Batch (OFS Files)

/-! ### Specification -/

/-- A text cut at every character `c`. -/
def cut (c : Char) : List Char → List (List Char)
  | [] => [[]]
  | x :: xs => if x = c then [] :: cut c xs else match cut c xs with
    | [] => [[x]]
    | h :: t => (x :: h) :: t

/-- The table in a text with comma-separated cells and lines that end with a line feed. -/
def table (s : List Char) : List (List (List Char)) := (cut '\n' s).dropLast.map (cut ',')

/-- Every column with its heading and the cell of a record. -/
noncomputable def columns (fmt : ℝ → List Char) (symbol : List Char) (T P : ℝ) : Rec → List (String × List Char)
  | .substance t => [("Substance", symbol), ("T(C)", fmt T), ("P(bar)", fmt P), ("G0(J/mol)", fmt t.gibbs_energy), ("H0(J/mol)", fmt t.enthalpy),
      ("S0(J/molK)", fmt t.entropy), ("Cp0(J/molK)", fmt t.heat_capacity_cp), ("Cv0(J/molK)", fmt t.heat_capacity_cv), ("V0(J/bar)", fmt t.volume),
      ("A0(J/mol)", fmt t.helmholtz_energy), ("U0(J/mol)", fmt t.internal_energy)]
  | .solvent s => [("Substance", symbol), ("T(C)", fmt T), ("P(bar)", fmt P), ("Rho(kg/m3)", fmt s.density), ("Rho_dT((kg/m3)/K)", fmt s.densityT),
      ("Rho_dP((kg/m3)/Pa)", fmt s.densityP), ("Rho_d2T((kg/m3)/K2)", fmt s.densityTT), ("Rho_dTdP((kg/m3)/KPa)", fmt s.densityTP),
      ("Rho_d2P((kg/m3)/Pa2", fmt s.densityPP), ("Aplha(1/K)", fmt s.Alpha), ("Alpha_dT", fmt s.dAldT), ("Beta(1/Pa)", fmt s.Beta)]
  | .electro e => [("Substance", symbol), ("T(C)", fmt T), ("P(bar)", fmt P), ("bornN(Pa-2)", fmt e.bornN), ("bornQ(Pa-1)", fmt e.bornQ),
      ("bornU(Pa-1K-1)", fmt e.bornU), ("bornX(K-2)", fmt e.bornX), ("bornY(K-1)", fmt e.bornY), ("bornZ", fmt e.bornZ), ("eps", fmt e.epsilon),
      ("eps_dP", fmt e.epsilonP), ("eps_d2P", fmt e.epsilonPP), ("eps_dT", fmt e.epsilonT), ("eps_dTdP", fmt e.epsilonTP), ("eps_d2T", fmt e.epsilonTT)]

/-- The headings of a table. -/
def headingsOf : Kind → List (List Char)
  | .substance => (["Substance", "T(C)", "P(bar)", "G0(J/mol)", "H0(J/mol)", "S0(J/molK)", "Cp0(J/molK)", "Cv0(J/molK)", "V0(J/bar)", "A0(J/mol)", "U0(J/mol)"]).map String.toList
  | .solvent => (["Substance", "T(C)", "P(bar)", "Rho(kg/m3)", "Rho_dT((kg/m3)/K)", "Rho_dP((kg/m3)/Pa)", "Rho_d2T((kg/m3)/K2)", "Rho_dTdP((kg/m3)/KPa)",
      "Rho_d2P((kg/m3)/Pa2", "Aplha(1/K)", "Alpha_dT", "Beta(1/Pa)"]).map String.toList
  | .electro => (["Substance", "T(C)", "P(bar)", "bornN(Pa-2)", "bornQ(Pa-1)", "bornU(Pa-1K-1)", "bornX(K-2)", "bornY(K-1)", "bornZ", "eps", "eps_dP", "eps_d2P",
      "eps_dT", "eps_dTdP", "eps_d2T"]).map String.toList

/-- Is the file of kind `k` open after these calls? -/
def isOpen (k : Kind) (ops : List Op) : Bool :=
  ops.foldl (fun b op => match op with
    | .open k' _ => if k' = k then true else b
    | .close k' => if k' = k then false else b
    | .write .. => b) false

/-- The file of kind `k` is opened only when it is closed, and written to only when it is open. -/
def Proper (k : Kind) (ops : List Op) : Prop :=
  ∀ n, (∀ name, ops[n]? = some (.open k name) → isOpen k (ops.take n) = false) ∧
    ∀ symbol T P x, ops[n]? = some (.write symbol T P x) → x.kind = k → isOpen k (ops.take n) = true

/-- What is written to the file of kind `k`. -/
def written (k : Kind) (ops : List Op) : List (List Char × ℝ × ℝ × Rec) :=
  ops.filterMap fun op => match op with
    | .write symbol T P x => if x.kind = k then some (symbol, T, P, x) else none
    | _ => none

/-! ### Lemmas -/

lemma cut_append (c : Char) (a b : List Char) (h : c ∉ a) : cut c (a ++ c :: b) = a :: cut c b := by
  induction a with
  | nil => simp [cut]
  | cons x a ih =>
    have hx : x ≠ c := fun e => h (by simp [e])
    rw [List.cons_append, cut, if_neg hx, ih fun h' => h (by simp [h'])]

lemma cut_none (c : Char) (a : List Char) (h : c ∉ a) : cut c a = [a] := by
  induction a with
  | nil => rfl
  | cons x a ih =>
    have hx : x ≠ c := fun e => h (by simp [e])
    rw [cut, if_neg hx, ih fun h' => h (by simp [h'])]

lemma cut_ne_nil (c : Char) (a : List Char) : cut c a ≠ [] := by
  cases a with
  | nil => simp [cut]
  | cons x a =>
    rw [cut]
    split
    · simp
    · split <;> simp

lemma line_body (cells : List (List Char)) (hne : cells ≠ []) (h1 : ∀ c ∈ cells, ',' ∉ c) (h2 : ∀ c ∈ cells, '\n' ∉ c) :
    ∃ body, line cells = body ++ ['\n'] ∧ '\n' ∉ body ∧ cut ',' body = cells := by
  induction cells with
  | nil => exact absurd rfl hne
  | cons a l ih =>
    cases l with
    | nil => exact ⟨a, rfl, h2 a (by simp), cut_none _ _ (h1 a (by simp))⟩
    | cons b l =>
      obtain ⟨body, h3, h4, h5⟩ := ih (by simp) (fun c hc => h1 c (by simp [hc])) (fun c hc => h2 c (by simp [hc]))
      refine ⟨a ++ ',' :: body, ?_, ?_, ?_⟩
      · rw [line, h3]; simp
      · have := h2 a (by simp)
        simp [this, h4]
      · rw [cut_append _ _ _ (h1 a (by simp)), h5]

lemma table_lines (ls : List (List (List Char))) (hne : ∀ l ∈ ls, l ≠ []) (h1 : ∀ l ∈ ls, ∀ c ∈ l, ',' ∉ c) (h2 : ∀ l ∈ ls, ∀ c ∈ l, '\n' ∉ c) :
    table (ls.map line).flatten = ls := by
  unfold table
  induction ls with
  | nil => simp [cut]
  | cons l ls ih =>
    obtain ⟨body, h3, h4, h5⟩ := line_body l (hne l (by simp)) (h1 l (by simp)) (h2 l (by simp))
    rw [List.map_cons, List.flatten_cons, h3, List.append_assoc, List.singleton_append, cut_append _ _ _ h4,
      List.dropLast_cons_of_ne_nil (cut_ne_nil _ _), List.map_cons, h5,
      ih (fun l hl => hne l (by simp [hl])) (fun l hl => h1 l (by simp [hl])) (fun l hl => h2 l (by simp [hl]))]

lemma header_line (k : Kind) : header k = line (headingsOf k) := by cases k <;> decide +kernel

lemma headings_clean (k : Kind) : headingsOf k ≠ [] ∧ (∀ c ∈ headingsOf k, ',' ∉ c) ∧ ∀ c ∈ headingsOf k, '\n' ∉ c := by
  cases k <;> decide +kernel

/-- The heads of the columns are the headings of the kind. -/
lemma columns_heads (fmt : ℝ → List Char) (symbol : List Char) (T P : ℝ) (x : Rec) :
    (columns fmt symbol T P x).map (fun c => c.1.toList) = headingsOf x.kind := by cases x <;> rfl

lemma row_line (fmt : ℝ → List Char) (symbol : List Char) (T P : ℝ) (x : Rec) (h : x.kind ≠ .electro) :
    x.row fmt symbol T P = line ((columns fmt symbol T P x).map Prod.snd) := by
  cases x with
  | substance t => rfl
  | solvent s => rfl
  | electro e => exact absurd rfl h

lemma cells_clean (fmt : ℝ → List Char) (hf : ∀ x, ',' ∉ fmt x ∧ '\n' ∉ fmt x) (symbol : List Char) (hs : ',' ∉ symbol ∧ '\n' ∉ symbol) (T P : ℝ) (x : Rec) :
    ∀ c ∈ (columns fmt symbol T P x).map Prod.snd, ',' ∉ c ∧ '\n' ∉ c := by
  cases x <;> simp [columns, hs, hf]

lemma path_inj {o : Obj} {a b : List Char} (h : o.path a = o.path b) : a = b := by
  unfold Obj.path at h
  have := congrArg String.toList h
  simpa using this

lemma isOpen_snoc (k : Kind) (ops : List Op) (op : Op) : isOpen k (ops ++ [op]) = match op with
    | .open k' _ => if k' = k then true else isOpen k ops
    | .close k' => if k' = k then false else isOpen k ops
    | .write .. => isOpen k ops := by
  unfold isOpen
  rw [List.foldl_append]
  rfl

lemma proper_prefix {k : Kind} {a b : List Op} (h : Proper k (a ++ b)) : Proper k a := by
  intro n
  obtain ⟨h1, h2⟩ := h n
  constructor
  · intro name hn
    have hlt : n < a.length := (List.getElem?_eq_some_iff.1 hn).1
    have := h1 name (by rw [List.getElem?_append_left hlt]; exact hn)
    rwa [List.take_append_of_le_length hlt.le] at this
  · intro symbol T P x hn hk
    have hlt : n < a.length := (List.getElem?_eq_some_iff.1 hn).1
    have := h2 symbol T P x (by rw [List.getElem?_append_left hlt]; exact hn) hk
    rwa [List.take_append_of_le_length hlt.le] at this

lemma proper_last {k : Kind} {a : List Op} {op : Op} (h : Proper k (a ++ [op])) :
    (∀ name, op = .open k name → isOpen k a = false) ∧ ∀ symbol T P x, op = .write symbol T P x → x.kind = k → isOpen k a = true := by
  obtain ⟨h1, h2⟩ := h a.length
  rw [List.take_append_of_le_length le_rfl, List.take_length] at h1 h2
  have e : (a ++ [op])[a.length]? = some op := by simp
  exact ⟨fun name hn => h1 name (by rw [e, hn]), fun s T P x hn hk => h2 s T P x (by rw [e, hn]) hk⟩

lemma run_snoc (fmt : ℝ → List Char) (o : Obj) (ops : List Op) (op : Op) : run fmt o (ops ++ [op]) = step fmt (run fmt o ops) op := by
  unfold run
  rw [List.foldl_append]
  rfl

lemma write_file (s : OFS) (t : List Char) (fs : Files (List Char)) : (s.write t fs).1.file = s.file := by
  unfold OFS.write
  split
  · split
    · rfl
    · rename_i h; rw [h]
  · rfl

lemma put_file (o : Obj) (k j : Kind) (t : List Char) : ((o.put k t).streams j).file = (o.streams j).file := by
  unfold Obj.put upd
  dsimp only
  split
  · rename_i h; subst h; exact write_file _ _ _
  · rfl

lemma write_files (fmt : ℝ → List Char) (o : Obj) (symbol : List Char) (T P : ℝ) (x : Rec) (j : Kind) :
    ((o.write fmt symbol T P x).streams j).file = (o.streams j).file ∧ (o.write fmt symbol T P x).folder = o.folder ∧
    (j ≠ x.kind → (o.write fmt symbol T P x).isHeader j = o.isHeader j) := by
  unfold Obj.write
  dsimp only
  by_cases h : o.isHeader x.kind = true
  · rw [if_pos h]
    exact ⟨put_file _ _ _ _, rfl, fun _ => rfl⟩
  · rw [if_neg h]
    refine ⟨?_, rfl, ?_⟩
    · rw [put_file]; exact put_file _ _ _ _
    · intro hj
      show upd o.isHeader x.kind true j = _
      unfold upd
      rw [if_neg hj]

/-- The path of the file `name` of an object created with `path`. -/
def fullPath (path name : List Char) : String := String.ofList (folderOf path ++ '/' :: name)

lemma open_streams (o : Obj) (k j : Kind) (name : List Char) : ((o.open k name).streams j).file = if j = k ∧ (o.streams k).file = none then some (o.path name) else (o.streams j).file := by
  unfold Obj.open upd OFS.open
  dsimp only
  by_cases hj : j = k
  · subst hj
    rw [if_pos rfl]
    cases h : (o.streams j).file with
    | none => simp
    | some p => simp [h]
  · rw [if_neg hj, if_neg fun h => hj h.1]

lemma close_streams (o : Obj) (k j : Kind) : ((o.close k).streams j).file = if j = k then none else (o.streams j).file := by
  unfold Obj.close
  cases h : (o.streams k).file with
  | none =>
    dsimp only
    split
    · rename_i hj; rw [hj, h]
    · rfl
  | some p =>
    dsimp only
    unfold upd
    split
    · unfold OFS.close; rw [h]
    · rfl

lemma close_folder (o : Obj) (k : Kind) : (o.close k).folder = o.folder := by
  unfold Obj.close
  cases (o.streams k).file <;> rfl

lemma inv_pre (fmt : ℝ → List Char) (path name : List Char) (fs : Files (List Char)) (k : Kind) (ops : List Op) (hp : Proper k ops)
    (hn : ∀ k', k' ≠ k → Op.open k' name ∉ ops) :
    (run fmt (Obj.new path fs) ops).folder = folderOf path ∧ ((run fmt (Obj.new path fs) ops).streams k).file.isSome = isOpen k ops ∧
    (isOpen k ops = false → (run fmt (Obj.new path fs) ops).isHeader k = false) ∧
    ∀ k', k' ≠ k → ((run fmt (Obj.new path fs) ops).streams k').file ≠ some (fullPath path name) := by
  induction ops using List.reverseRecOn with
  | nil => exact ⟨rfl, rfl, fun _ => rfl, fun k' _ => by simp [run, Obj.new]⟩
  | append_singleton ops op ih =>
    obtain ⟨h1, h2, h3, h4⟩ := ih (proper_prefix hp) fun k' hk h => hn k' hk (by simp [h])
    obtain ⟨hl1, hl2⟩ := proper_last hp
    rw [run_snoc, isOpen_snoc]
    generalize run fmt (Obj.new path fs) ops = o at h1 h2 h3 h4 ⊢
    cases op with
    | «open» k' m =>
      dsimp only [step]
      refine ⟨h1, ?_, ?_, ?_⟩
      · rw [open_streams]
        by_cases hk : k' = k
        · subst hk
          have := hl1 m rfl
          rw [this] at h2
          rw [if_pos ⟨rfl, by simpa using h2⟩, if_pos rfl]
          rfl
        · rw [if_neg fun h => hk h.1.symm, if_neg hk]
          exact h2
      · intro h
        by_cases hk : k' = k
        · rw [if_pos hk] at h; cases h
        · rw [if_neg hk] at h
          exact h3 h
      · intro j hj
        rw [open_streams]
        split
        · rename_i h
          intro he
          injection he with he
          have hm : m = name := by
            refine path_inj (o := o) (he.trans ?_)
            unfold fullPath Obj.path
            rw [h1]
          refine hn j hj ?_
          rw [h.1, hm]
          simp
        · exact h4 j hj
    | close k' =>
      dsimp only [step]
      refine ⟨by rw [close_folder]; exact h1, ?_, ?_, ?_⟩
      · rw [close_streams]
        by_cases hk : k' = k
        · rw [if_pos hk.symm, if_pos hk]; rfl
        · rw [if_neg fun h => hk h.symm, if_neg hk]; exact h2
      · intro h
        by_cases hk : k' = k
        · subst hk
          unfold Obj.close
          cases hf : (o.streams k').file with
          | none =>
            rw [hf] at h2
            exact h3 h2.symm
          | some p => simp [upd]
        · rw [if_neg hk] at h
          have := h3 h
          unfold Obj.close
          cases hf : (o.streams k').file with
          | none => exact this
          | some p =>
            dsimp only [upd]
            rw [if_neg fun h => hk h.symm]
            exact this
      · intro j hj
        rw [close_streams]
        split
        · simp
        · exact h4 j hj
    | write symbol T P x =>
      dsimp only [step]
      have hw := write_files fmt o symbol T P x
      refine ⟨by rw [(hw k).2.1]; exact h1, by rw [(hw k).1]; exact h2, ?_, fun j hj => by rw [(hw j).1]; exact h4 j hj⟩
      intro h
      rw [(hw k).2.2 ?_]
      · exact h3 h
      · intro hk
        have := hl2 symbol T P x rfl hk.symm
        rw [this] at h
        cases h

lemma put_other (o : Obj) (j : Kind) (t : List Char) (p : String) (h : (o.streams j).file ≠ some p) : (o.put j t).files p = o.files p := by
  unfold Obj.put OFS.write
  dsimp only
  split
  · split
    · rename_i q hq
      dsimp only
      rw [if_neg]
      intro e
      exact h (by rw [hq, e])
    · rfl
  · rfl

lemma put_self (o : Obj) (k : Kind) (t : List Char) (p : String) (L : List (List Char)) (h : o.streams k = ⟨some p, true⟩) (hL : o.files p = some L) :
    (o.put k t).streams k = ⟨some p, true⟩ ∧ (o.put k t).files p = some (L ++ [t]) := by
  unfold Obj.put upd
  rw [h]
  simp [OFS.write, hL]

lemma put_stream_other (o : Obj) (k j : Kind) (t : List Char) (hj : j ≠ k) : (o.put k t).streams j = o.streams j := by
  unfold Obj.put upd
  dsimp only
  rw [if_neg hj]

lemma write_other (fmt : ℝ → List Char) (o : Obj) (symbol : List Char) (T P : ℝ) (x : Rec) (k : Kind) (p : String) (hk : k ≠ x.kind)
    (h : (o.streams x.kind).file ≠ some p) : (o.write fmt symbol T P x).streams k = o.streams k ∧ (o.write fmt symbol T P x).isHeader k = o.isHeader k ∧
    (o.write fmt symbol T P x).files p = o.files p := by
  refine ⟨?_, (write_files fmt o symbol T P x k).2.2 hk, ?_⟩
  all_goals
    unfold Obj.write
    dsimp only
    split
  · exact put_stream_other _ _ _ _ hk
  · rw [put_stream_other _ _ _ _ hk]; exact put_stream_other _ _ _ _ hk
  · exact put_other _ _ _ _ h
  · rw [put_other _ _ _ _ (by show ((o.put x.kind (header x.kind)).streams x.kind).file ≠ _; rw [put_file]; exact h)]
    exact put_other _ _ _ _ h

lemma write_self (fmt : ℝ → List Char) (o : Obj) (symbol : List Char) (T P : ℝ) (x : Rec) (p : String) (L : List (List Char))
    (h : o.streams x.kind = ⟨some p, true⟩) (hL : o.files p = some L) : (o.write fmt symbol T P x).streams x.kind = ⟨some p, true⟩ ∧
    (o.write fmt symbol T P x).isHeader x.kind = true ∧
    (o.write fmt symbol T P x).files p = some (L ++ (if o.isHeader x.kind then [] else [header x.kind]) ++ [x.row fmt symbol T P]) := by
  unfold Obj.write
  dsimp only
  by_cases hh : o.isHeader x.kind = true
  · rw [if_pos hh, if_pos hh, List.append_nil]
    obtain ⟨h1, h2⟩ := put_self o x.kind (x.row fmt symbol T P) p L h hL
    exact ⟨h1, hh, h2⟩
  · rw [if_neg hh, if_neg hh]
    obtain ⟨h1, h2⟩ := put_self o x.kind (header x.kind) p L h hL
    obtain ⟨h3, h4⟩ := put_self { o.put x.kind (header x.kind) with isHeader := upd o.isHeader x.kind true } x.kind (x.row fmt symbol T P) p _ h1 h2
    exact ⟨h3, by show upd o.isHeader x.kind true x.kind = true; simp [upd], h4⟩

lemma written_snoc (k : Kind) (ops : List Op) (op : Op) : written k (ops ++ [op]) = written k ops ++ match op with
    | .write symbol T P x => if x.kind = k then [(symbol, T, P, x)] else []
    | _ => [] := by
  unfold written
  rw [List.filterMap_append]
  congr 1
  cases op with
  | «open» => rfl
  | close => rfl
  | write s T P x =>
    by_cases h : x.kind = k
    · simp [h]
    · simp [h]

/-- The texts in a file after the writings `ws`. -/
noncomputable def chunks (fmt : ℝ → List Char) (k : Kind) (ws : List (List Char × ℝ × ℝ × Rec)) : List (List Char) :=
  if ws = [] then [] else header k :: ws.map fun w => w.2.2.2.row fmt w.1 w.2.1 w.2.2.1

lemma inv_mid (fmt : ℝ → List Char) (path name : List Char) (k : Kind) (o0 : Obj) (hf : o0.folder = folderOf path)
    (hs : o0.streams k = ⟨some (fullPath path name), true⟩) (hh : o0.isHeader k = false) (hfs : o0.files (fullPath path name) = some [])
    (ho : ∀ k', k' ≠ k → (o0.streams k').file ≠ some (fullPath path name)) (ops : List Op) (hk : ∀ m, Op.open k m ∉ ops) (hc : Op.close k ∉ ops)
    (hn : ∀ k', k' ≠ k → Op.open k' name ∉ ops) :
    (run fmt o0 ops).folder = folderOf path ∧ (run fmt o0 ops).streams k = ⟨some (fullPath path name), true⟩ ∧
    (run fmt o0 ops).isHeader k = !(written k ops).isEmpty ∧ (run fmt o0 ops).files (fullPath path name) = some (chunks fmt k (written k ops)) ∧
    ∀ k', k' ≠ k → ((run fmt o0 ops).streams k').file ≠ some (fullPath path name) := by
  induction ops using List.reverseRecOn with
  | nil => exact ⟨hf, hs, by simpa [written, run] using hh, by simpa [written, chunks, run] using hfs, ho⟩
  | append_singleton ops op ih =>
    obtain ⟨h1, h2, h3, h4, h5⟩ := ih (fun m h => hk m (by simp [h])) (fun h => hc (by simp [h])) fun k' hk' h => hn k' hk' (by simp [h])
    rw [run_snoc, written_snoc]
    generalize run fmt o0 ops = o at h1 h2 h3 h4 h5 ⊢
    cases op with
    | «open» k' m =>
      have hkk : k' ≠ k := fun e => hk m (by simp [e])
      have hm : o.path m ≠ fullPath path name := by
        intro e
        have : m = name := path_inj (o := o) (e.trans (by unfold fullPath Obj.path; rw [h1]))
        exact hn k' hkk (by simp [this])
      dsimp only [step]
      rw [List.append_nil]
      refine ⟨h1, ?_, h3, ?_, ?_⟩
      · unfold Obj.open upd
        dsimp only
        rw [if_neg hkk.symm]; exact h2
      · unfold Obj.open OFS.open
        dsimp only
        split
        · exact h4
        · dsimp only
          rw [if_neg fun e => hm e.symm]
          exact h4
      · intro j hj
        rw [open_streams]
        split
        · intro e
          injection e with e
          exact hm e
        · exact h5 j hj
    | close k' =>
      have hkk : k' ≠ k := fun e => hc (by simp [e])
      dsimp only [step]
      rw [List.append_nil]
      refine ⟨by rw [close_folder]; exact h1, ?_, ?_, ?_, ?_⟩
      · unfold Obj.close upd
        split
        · dsimp only; rw [if_neg hkk.symm]; exact h2
        · exact h2
      · unfold Obj.close upd
        split
        · dsimp only; rw [if_neg hkk.symm]; exact h3
        · exact h3
      · unfold Obj.close
        split <;> exact h4
      · intro j hj
        rw [close_streams]
        split
        · simp
        · exact h5 j hj
    | write symbol T P x =>
      have hw := write_files fmt o symbol T P x
      dsimp only [step]
      by_cases hx : x.kind = k
      · rw [if_pos hx]
        subst hx
        obtain ⟨h6, h7, h8⟩ := write_self fmt o symbol T P x _ _ h2 h4
        refine ⟨by rw [(hw x.kind).2.1]; exact h1, h6, by rw [h7]; simp, ?_, fun j hj => by rw [(hw j).1]; exact h5 j hj⟩
        rw [h8, h3]
        congr 1
        unfold chunks
        by_cases he : written x.kind ops = []
        · simp [he]
        · have : (written x.kind ops).isEmpty = false := by simpa using he
          rw [if_neg he, this]
          simp
      · rw [if_neg hx, List.append_nil]
        obtain ⟨h6, h7, h8⟩ := write_other fmt o symbol T P x k _ (fun e => hx e.symm) (h5 x.kind hx)
        exact ⟨by rw [(hw k).2.1]; exact h1, by rw [h6]; exact h2, by rw [h7]; exact h3, by rw [h8]; exact h4, fun j hj => by rw [(hw j).1]; exact h5 j hj⟩

/-! ### C146 -/

/-- **C146 (part).** For every program that opens the file of a kind only when it is closed and writes to it only when it is open: a file of
properties of substances or of the solvent, once something has been written to it, is a table with one line of headings and one line for each
record written, in their order, and every cell is the value its heading names, printed.

Full statement: so for every program and all three files.  Missing: the file of electric properties (`C146_electro_refuted`); programs that
write before opening (`C146_early_refuted`) or open again without closing (`C146_reopen_refuted`); symbols with a comma or a line feed
(`C146_comma_refuted`); two streams on one file. -/
theorem C146_partial (fmt : ℝ → List Char) (hfmt : ∀ x, ',' ∉ fmt x ∧ '\n' ∉ fmt x) (path name : List Char) (fs : Files (List Char)) (k : Kind) (hk : k ≠ .electro)
    (pre mid : List Op) (hp : Proper k (pre ++ [.open k name])) (hmid : ∀ m, Op.open k m ∉ mid) (hmid' : Op.close k ∉ mid)
    (hn : ∀ k', k' ≠ k → Op.open k' name ∉ pre ++ mid) (hw : written k mid ≠ []) (hsym : ∀ w ∈ written k mid, ',' ∉ w.1 ∧ '\n' ∉ w.1) :
    ∃ s, (run fmt (Obj.new path fs) (pre ++ .open k name :: mid)).text (fullPath path name) = some s ∧
      table s = headingsOf k :: (written k mid).map (fun w => (columns fmt w.1 w.2.1 w.2.2.1 w.2.2.2).map Prod.snd) ∧
      ∀ w ∈ written k mid, (columns fmt w.1 w.2.1 w.2.2.1 w.2.2.2).map (fun c => c.1.toList) = headingsOf k := by
  obtain ⟨h1, h2, h3, h4⟩ := inv_pre fmt path name fs k pre (proper_prefix hp) fun k' hk' h => hn k' hk' (by simp [h])
  have h5 := (proper_last hp).1 name rfl
  rw [h5] at h2
  have h3 := h3 h5
  have hrun : run fmt (Obj.new path fs) (pre ++ .open k name :: mid) = run fmt ((run fmt (Obj.new path fs) pre).open k name) mid := by
    unfold run
    rw [List.foldl_append, List.foldl_cons]
    rfl
  rw [hrun]
  generalize run fmt (Obj.new path fs) pre = o at h1 h2 h3 h4 ⊢
  have h2' : (o.streams k).file = none := by simpa using h2
  have hpath : o.path name = fullPath path name := by unfold fullPath Obj.path; rw [h1]
  have e0 : (o.streams k).open (o.path name) o.files = (⟨some (fullPath path name), true⟩, fun p => if p = fullPath path name then some [] else o.files p) := by
    unfold OFS.open
    rw [h2', hpath]
  obtain ⟨-, -, -, h9, -⟩ := inv_mid fmt path name k (o.open k name) h1 (by unfold Obj.open upd; rw [e0]; simp) h3 (by unfold Obj.open; rw [e0]; simp)
    (by intro k' hk'; rw [open_streams, if_neg fun h => hk' h.1]; exact h4 k' hk') mid hmid hmid' fun k' hk' h => hn k' hk' (by simp [h])
  have hkind : ∀ w ∈ written k mid, w.2.2.2.kind = k := by
    intro w hw
    unfold written at hw
    rw [List.mem_filterMap] at hw
    obtain ⟨op, -, h⟩ := hw
    cases op with
    | «open» => simp at h
    | close => simp at h
    | write s T P x =>
      by_cases hx : x.kind = k
      · simp only [hx, if_true, Option.some.injEq] at h
        rw [← h]; exact hx
      · simp [hx] at h
  refine ⟨(chunks fmt k (written k mid)).flatten, by unfold Obj.text; rw [h9]; rfl, ?_, fun w hw => by rw [columns_heads, hkind w hw]⟩
  unfold chunks
  rw [if_neg hw, header_line]
  rw [show line (headingsOf k) :: (written k mid).map (fun w => w.2.2.2.row fmt w.1 w.2.1 w.2.2.1)
    = (headingsOf k :: (written k mid).map (fun w => (columns fmt w.1 w.2.1 w.2.2.1 w.2.2.2).map Prod.snd)).map line from ?_]
  · obtain ⟨g1, g2, g3⟩ := headings_clean k
    have gc : ∀ w ∈ written k mid, ∀ c ∈ (columns fmt w.1 w.2.1 w.2.2.1 w.2.2.2).map Prod.snd, ',' ∉ c ∧ '\n' ∉ c := fun w hw =>
      cells_clean fmt hfmt _ (hsym w hw) _ _ _
    refine table_lines _ ?_ ?_ ?_
    · intro l hl
      rcases List.mem_cons.1 hl with rfl | hl
      · exact g1
      · obtain ⟨w, -, rfl⟩ := List.mem_map.1 hl
        cases h : w.2.2.2 <;> simp [columns]
    · intro l hl
      rcases List.mem_cons.1 hl with rfl | hl
      · exact g2
      · obtain ⟨w, hw, rfl⟩ := List.mem_map.1 hl
        exact fun c hc => (gc w hw c hc).1
    · intro l hl
      rcases List.mem_cons.1 hl with rfl | hl
      · exact g3
      · obtain ⟨w, hw, rfl⟩ := List.mem_map.1 hl
        exact fun c hc => (gc w hw c hc).2
  · rw [List.map_cons, List.map_map]
    congr 1
    refine List.map_congr_left fun w hw => ?_
    exact row_line fmt _ _ _ _ (by rw [hkind w hw]; exact hk)

/-- **C146, violation (electric properties).** The X Born coefficient is written twice: the table of electric properties has 15 headings and
rows of 16 cells, and from the heading of Y on every cell belongs to the heading before it. -/
theorem C146_electro_refuted (fmt : ℝ → List Char) (hfmt : ∀ x, ',' ∉ fmt x ∧ '\n' ∉ fmt x) (path name symbol : List Char) (fs : Files (List Char))
    (hs : ',' ∉ symbol ∧ '\n' ∉ symbol) (T P : ℝ) (e : ElectroRec) : ∃ s row,
    (run fmt (Obj.new path fs) [.open .electro name, .write symbol T P (.electro e)]).text (fullPath path name) = some s ∧
    table s = [headingsOf .electro, row] ∧ (headingsOf .electro).length = 15 ∧ row.length = 16 ∧
    (headingsOf .electro)[7]? = some "bornY(K-1)".toList ∧ row[7]? = some (fmt e.bornX) ∧
    (headingsOf .electro)[9]? = some "eps".toList ∧ row[9]? = some (fmt e.bornZ) := by
  refine ⟨(([headingsOf .electro, [symbol, fmt T, fmt P, fmt e.bornN, fmt e.bornQ, fmt e.bornU, fmt e.bornX, fmt e.bornX, fmt e.bornY, fmt e.bornZ, fmt e.epsilon,
    fmt e.epsilonP, fmt e.epsilonPP, fmt e.epsilonT, fmt e.epsilonTP, fmt e.epsilonTT]]).map line).flatten, [symbol, fmt T, fmt P, fmt e.bornN, fmt e.bornQ, fmt e.bornU, fmt e.bornX, fmt e.bornX,
    fmt e.bornY, fmt e.bornZ, fmt e.epsilon, fmt e.epsilonP, fmt e.epsilonPP, fmt e.epsilonT, fmt e.epsilonTP, fmt e.epsilonTT], ?_, ?_, rfl, rfl, rfl, rfl, rfl, rfl⟩
  · simp [run, step, Obj.text, Obj.new, Obj.open, Obj.write, Obj.put, OFS.open, OFS.write, upd, Rec.kind, Rec.row, electroRow, Obj.path, fullPath, header_line]
  · obtain ⟨g1, g2, g3⟩ := headings_clean .electro
    refine table_lines _ ?_ ?_ ?_
    all_goals
      intro l hl
      simp only [List.mem_cons, List.not_mem_nil, or_false] at hl
      rcases hl with rfl | rfl
    · exact g1
    · simp
    · exact g2
    · simp [hs, hfmt]
    · exact g3
    · simp [hs, hfmt]

/-- **C146, violation (written before opened).** A record written before the file is opened is lost without an exception, and the file has no
headings: the flag that they have been written is set although nothing was. -/
theorem C146_early_refuted (fmt : ℝ → List Char) (hfmt : ∀ x, ',' ∉ fmt x ∧ '\n' ∉ fmt x) (path name symbol : List Char) (fs : Files (List Char))
    (hs : ',' ∉ symbol ∧ '\n' ∉ symbol) (T P : ℝ) (t u : SubstRec) : ∃ s,
    (run fmt (Obj.new path fs) [.write symbol T P (.substance t), .open .substance name, .write symbol T P (.substance u)]).text (fullPath path name) = some s ∧
    table s = [(columns fmt symbol T P (.substance u)).map Prod.snd] := by
  refine ⟨(([(columns fmt symbol T P (.substance u)).map Prod.snd]).map line).flatten, ?_, ?_⟩
  · simp [run, step, Obj.text, Obj.new, Obj.open, Obj.write, Obj.put, OFS.open, OFS.write, upd, Rec.kind, Rec.row, substRow, Obj.path, fullPath, columns]
  · refine table_lines _ ?_ ?_ ?_
    all_goals
      intro l hl
      rw [List.mem_singleton] at hl
      subst hl
    · simp [columns]
    · exact fun c hc => (cells_clean fmt hfmt symbol hs T P _ c hc).1
    · exact fun c hc => (cells_clean fmt hfmt symbol hs T P _ c hc).2

/-- **C146, violation (opened again).** Opening another file without closing the first makes the stream fail: the second file is not created, and
what is written afterwards is in neither. -/
theorem C146_reopen_refuted (fmt : ℝ → List Char) (path a b symbol : List Char) (fs : Files (List Char)) (hab : a ≠ b) (hb : fs (fullPath path b) = none)
    (T P : ℝ) (t u : SubstRec) :
    (run fmt (Obj.new path fs) [.open .substance a, .write symbol T P (.substance t), .open .substance b, .write symbol T P (.substance u)]).text (fullPath path b) = none ∧
    (run fmt (Obj.new path fs) [.open .substance a, .write symbol T P (.substance t), .open .substance b, .write symbol T P (.substance u)]).text (fullPath path a)
      = some (header .substance ++ substRow fmt symbol T P t) := by
  have h : fullPath path b ≠ fullPath path a := by
    intro h
    have := congrArg String.toList h
    simp [fullPath] at this
    exact hab this.symm
  constructor
  · simp [run, step, Obj.text, Obj.new, Obj.open, Obj.write, Obj.put, OFS.open, OFS.write, upd, Rec.kind, Rec.row, Obj.path]
    rw [show String.ofList (folderOf path) ++ ("/" ++ String.ofList a) = fullPath path a by simp [fullPath], if_neg h, if_neg h, if_neg h]
    exact hb
  · simp [run, step, Obj.text, Obj.new, Obj.open, Obj.write, Obj.put, OFS.open, OFS.write, upd, Rec.kind, Rec.row, Obj.path, fullPath]

/-- **C146, violation (comma in a symbol).** A symbol with a comma, as in the names of organic substances, shifts all its cells by one. -/
theorem C146_comma_refuted (fmt : ℝ → List Char) (hfmt : ∀ x, ',' ∉ fmt x ∧ '\n' ∉ fmt x) (path name : List Char) (fs : Files (List Char))
    (T P : ℝ) (t : SubstRec) : ∃ s row,
    (run fmt (Obj.new path fs) [.open .substance name, .write "1,2-Dichloroethane".toList T P (.substance t)]).text (fullPath path name) = some s ∧
    table s = [headingsOf .substance, row] ∧ (headingsOf .substance).length = 11 ∧ row.length = 12 ∧
    (headingsOf .substance)[1]? = some "T(C)".toList ∧ row[1]? = some "2-Dichloroethane".toList := by
  refine ⟨(([headingsOf .substance, ["1".toList, "2-Dichloroethane".toList, fmt T, fmt P, fmt t.gibbs_energy, fmt t.enthalpy, fmt t.entropy, fmt t.heat_capacity_cp,
    fmt t.heat_capacity_cv, fmt t.volume, fmt t.helmholtz_energy, fmt t.internal_energy]]).map line).flatten, ["1".toList, "2-Dichloroethane".toList, fmt T,
    fmt P, fmt t.gibbs_energy, fmt t.enthalpy, fmt t.entropy, fmt t.heat_capacity_cp, fmt t.heat_capacity_cv, fmt t.volume, fmt t.helmholtz_energy,
    fmt t.internal_energy], ?_, ?_, rfl, rfl, rfl, rfl⟩
  · simp [run, step, Obj.text, Obj.new, Obj.open, Obj.write, Obj.put, OFS.open, OFS.write, upd, Rec.kind, Rec.row, substRow, Obj.path, fullPath, header_line, line]
  · obtain ⟨g1, g2, g3⟩ := headings_clean .substance
    refine table_lines _ ?_ ?_ ?_
    all_goals
      intro l hl
      simp only [List.mem_cons, List.not_mem_nil, or_false] at hl
      rcases hl with rfl | rfl
    · exact g1
    · simp
    · exact g2
    · simp [hfmt]
    · exact g3
    · simp [hfmt]

/-- **C146 (folder).** The folder of a path is what comes before its last separator. -/
theorem C146_folder (dir name : List Char) (c : Char) (hc : c = '/' ∨ c = '\\') (h : '/' ∉ name) (h' : '\\' ∉ name) :
    folderOf (dir ++ c :: name) = dir := by
  have hany : (dir ++ c :: name).any (fun c => c = '/' || c = '\\') = true := by
    rcases hc with rfl | rfl <;> simp
  unfold folderOf
  rw [if_pos hany, List.reverse_append, List.reverse_cons, List.append_assoc, List.dropWhile_append_of_pos]
  · rcases hc with rfl | rfl <;> simp
  · intro x hx
    rw [List.mem_reverse] at hx
    have h1 : x ≠ '/' := fun e => h (e ▸ hx)
    have h2 : x ≠ '\\' := fun e => h' (e ▸ hx)
    simp [h1, h2]

example : folderOf "build/bin/autoTest".toList = "build/bin".toList := C146_folder "build/bin".toList "autoTest".toList '/' (Or.inl rfl) (by decide) (by decide)

/-- **C146, violation (folder).** A program called without a path gets its own name as the folder: the files are looked for below the
program file. -/
theorem C146_folder_refuted : fullPath "autoTest".toList "out.csv".toList = "autoTest/out.csv" := by decide +kernel

/-- The hypotheses of `C146_partial` are met by a program with two files of substances, the second open, and one of the solvent. -/
example (fs : Files (List Char)) (t u v : SubstRec) (w : SolvRec) : ∃ s, (run (fun _ => ['0']) (Obj.new "bin/test".toList fs)
    ([.open .solvent "s.csv".toList, .open .substance "a.csv".toList, .write "Ca+2".toList 25 1 (.substance t), .close .substance] ++ .open .substance "b.csv".toList ::
      [.write "Na+".toList 25 1 (.substance u), .write "H2O@".toList 25 1 (.solvent w), .write "Cl-".toList 50 1 (.substance v)])).text "bin/b.csv" = some s ∧
    (table s).length = 3 := by
  obtain ⟨s, h1, h2, -⟩ := C146_partial (fun _ => ['0']) (by simp) "bin/test".toList "b.csv".toList fs .substance (by simp)
    [.open .solvent "s.csv".toList, .open .substance "a.csv".toList, .write "Ca+2".toList 25 1 (.substance t), .close .substance]
    [.write "Na+".toList 25 1 (.substance u), .write "H2O@".toList 25 1 (.solvent w), .write "Cl-".toList 50 1 (.substance v)]
    (by
      intro n
      match n with
      | 0 => simp [isOpen]
      | 1 => simp [isOpen]
      | 2 => simp [isOpen]
      | 3 => simp [isOpen]
      | 4 => simp [isOpen]
      | n + 5 => simp) (by simp) (by simp) (by simp) (by simp [written, Rec.kind]) (by simp [written, Rec.kind])
  refine ⟨s, h1, ?_⟩
  rw [h2]
  simp [written, Rec.kind]

end ThermoFun.Csv

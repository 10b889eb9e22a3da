import Verif.Props.BirchEntry
import Verif.Props.ParseFaithful

/-!
Coefficients that records state and models need, but which are never read; coefficients the Birch-Murnaghan model reads.
-/

namespace ThermoFun.Js

/-- The three lists are empty, in the parameters read so far and in the substance. -/
def Unread (p : ParamS) : Prop := p.volume = [] ∧ p.birch = [] ∧ p.empirical = []

/-- An invariant of every step holds for whatever the steps arrive at. -/
lemma exec_inv {σ : Type} (I : σ → Prop) (l : List (Step σ)) (h : ∀ f ∈ l, ∀ s t, I s → f s = .ok t → I t) : ∀ s, I s → I (exec l s).1 := by
  induction l with
  | nil => intro s hs; exact hs
  | cons f l ih =>
    intro s hs
    unfold exec
    rcases hf : f s with e | t
    · exact hs
    · exact ih (fun g hg => h g (List.mem_cons_of_mem _ hg)) t (h f List.mem_cons_self s t hs hf)

lemma fieldStep_inv {σ α : Type} (I : σ → Prop) (j : Json) (k : String) (f : Json → J α) (set : σ → α → σ) (h : ∀ s x, I s → I (set s x)) (s t : σ)
    (hs : I s) (he : fieldStep j k f set s = .ok t) : I t := by
  unfold fieldStep at he
  rcases hj : j.field k with _ | v
  · rw [hj] at he; cases he; exact hs
  · rw [hj] at he
    dsimp only at he
    rcases hv : f v with e | x
    · rw [hv] at he; cases he
    · rw [hv] at he; cases he; exact h s x hs

lemma codeStep_inv {σ : Type} (I : σ → Prop) (j : Json) (k : String) (set : σ → Int → σ) (h : ∀ s x, I s → I (set s x)) (s t : σ)
    (hs : I s) (he : codeStep j k set s = .ok t) : I t := by
  unfold codeStep at he
  rcases hj : j.field k with _ | v
  · rw [hj] at he; cases he; exact hs
  · rw [hj] at he
    dsimp only at he
    split at he
    · cases he; exact hs
    · rcases hv : v.firstKey with e | x
      · rw [hv] at he; cases he
      · rw [hv] at he
        rcases hn : stoi x with e | n
        · change (stoi x >>= fun n => Except.ok (set s n)) = _ at he
          rw [hn] at he; cases he
        · change (stoi x >>= fun n => Except.ok (set s n)) = _ at he
          rw [hn] at he; cases he; exact h s n hs

lemma bind_ok {α β : Type} {x : J α} {f : α → J β} {b : β} (h : (x >>= f) = .ok b) : ∃ a, x = .ok a ∧ f a = .ok b := by
  rcases x with e | a
  · cases h
  · exact ⟨a, rfl, h⟩

lemma param_inv (j : Json) (name : String) (p q : ParamS) (h : Unread p) (he : thermoParamSubst j name p = .ok q) : Unread q := by
  unfold thermoParamSubst at he
  obtain ⟨a1, -, he⟩ := bind_ok he
  obtain ⟨a2, -, he⟩ := bind_ok he
  obtain ⟨a3, -, he⟩ := bind_ok he
  dsimp only at he
  split at he
  all_goals
    obtain ⟨a4, -, he⟩ := bind_ok he
    first
      | obtain ⟨a5, -, he⟩ := bind_ok he
        obtain ⟨a6, -, he⟩ := bind_ok he
        obtain ⟨a7, -, he⟩ := bind_ok he
        obtain ⟨a8, -, he⟩ := bind_ok he
        obtain ⟨a9, -, he⟩ := bind_ok he
        cases he
        exact h
      | obtain ⟨a5, -, he⟩ := bind_ok he
        obtain ⟨a6, -, he⟩ := bind_ok he
        obtain ⟨a7, -, he⟩ := bind_ok he
        obtain ⟨a8, -, he⟩ := bind_ok he
        cases he
        exact h

/-- The invariant of reading a substance. -/
def UnreadW (w : SubW) : Prop := Unread w.ps ∧ Unread w.s.params

lemma method_inv (val : Json) : ∀ f ∈ substMethodSteps val, ∀ s t, UnreadW s → f s = .ok t → UnreadW t := by
  intro f hf s t hs he
  simp only [substMethodSteps, List.mem_cons, List.not_mem_nil, or_false] at hf
  rcases hf with rfl | rfl
  · obtain ⟨m, -, he⟩ := bind_ok he
    rcases m with _ | ⟨key, name⟩
    · cases he; exact hs
    · obtain ⟨ms, -, he⟩ := bind_ok he
      cases he; exact hs
  · obtain ⟨m, -, he⟩ := bind_ok he
    rcases m with _ | ⟨key, name⟩
    · cases he; exact hs
    · obtain ⟨ps, hp, he⟩ := bind_ok he
      cases he
      exact ⟨param_inv _ _ _ _ hs.1 hp, hs.2⟩

lemma methods_inv (j : Json) : ∀ f ∈ substMethodsSteps j, ∀ s t, UnreadW s → f s = .ok t → UnreadW t := by
  intro f hf s t hs he
  unfold substMethodsSteps at hf
  rcases hj : j.field "TPMethods" with _ | ms
  · rw [hj] at hf; cases hf
  · rw [hj] at hf
    dsimp only at hf
    rw [List.mem_append] at hf
    rcases hf with hf | hf
    · rw [List.mem_flatMap] at hf
      obtain ⟨v, -, hf⟩ := hf
      exact method_inv v f hf s t hs he
    · simp only [List.mem_cons, List.not_mem_nil, or_false] at hf
      rcases hf with rfl | rfl | rfl
      · obtain ⟨r, -, he⟩ := bind_ok he
        cases he; exact hs
      · obtain ⟨r, -, he⟩ := bind_ok he
        cases he; exact hs
      · cases he; exact ⟨hs.1, hs.1⟩

lemma substance_inv (j : Json) : ∀ f ∈ substanceSteps j, ∀ s t, UnreadW s → f s = .ok t → UnreadW t := by
  intro f hf s t hs he
  unfold substanceSteps at hf
  rw [List.mem_append, List.mem_append] at hf
  rcases hf with (hf | hf) | hf
  · simp only [List.mem_cons, List.not_mem_nil, or_false] at hf
    rcases hf with rfl | rfl | rfl | rfl | rfl | rfl | rfl | rfl | rfl | rfl | rfl | rfl
    any_goals (refine fieldStep_inv UnreadW _ _ _ _ ?_ s t hs he; exact fun s x h => h)
    any_goals (refine codeStep_inv UnreadW _ _ _ ?_ s t hs he; exact fun s x h => h)
    obtain ⟨r, -, he⟩ := bind_ok he
    cases he; exact hs
  · exact methods_inv j f hf s t hs he
  · simp only [List.mem_cons, List.not_mem_nil, or_false] at hf
    rcases hf with rfl | rfl
    · cases he
      split
      · exact hs
      · exact hs
    · obtain ⟨r, -, he⟩ := bind_ok he
      cases he; exact hs

/-- **C92** is violated: the coefficients of the Berman, Birch-Murnaghan and Churakov-Gottschalk models are never read, whatever the record
states and under whatever key (the lines that would read them are comments or missing).  A substance read from a record that declares
one of the first two models cannot be computed: the models raise an error at every temperature and pressure. -/
theorem C92_unread_refuted (j : Json) (s : Sub) (h : parseSubstance j = .ok s) :
    s.params.volume = [] ∧ s.params.birch = [] ∧ s.params.empirical = [] ∧
    ∀ (T P Tst Pr : ℝ) (ref tps : TPS), berman88 (TS.temperature T) (pbar P) Tst Pr ref s.params.volume tps = .throw ∧ BM.bmEntry T P Tst Pr ref s.params.birch tps = .throw := by
  have hu : Unread s.params := by
    unfold parseSubstance at h
    obtain ⟨w, hw, h⟩ := bind_ok h
    cases h
    have hi := exec_inv UnreadW (substanceSteps (inner j)) (substance_inv (inner j)) {} ⟨⟨rfl, rfl, rfl⟩, ⟨rfl, rfl, rfl⟩⟩
    rcases he : exec (substanceSteps (inner j)) {} with ⟨w', e⟩
    rw [he] at hw hi
    rcases e with _ | e
    · cases hw; exact hi.2
    · cases e
      · cases hw; exact hi.2
      · cases hw
      · cases hw
  obtain ⟨h1, h2, h3⟩ := hu
  refine ⟨h1, h2, h3, fun T P Tst Pr ref tps => ⟨?_, ?_⟩⟩
  · rw [h1]; rfl
  · rw [h2]; rfl

/-- A record of a mineral that declares the Birch-Murnaghan model and states its coefficients. -/
def mineralJson : Json := .obj [
  ("TPMethods", .arr [
    .obj [("eos_birch_murnaghan_coeffs", plainList [1 / 1000, 0, 0, 0, 0, 1000, 0, 4, 0]), ("method", .obj [("37", .str "mv_eos_birch_murnaghan_gott97")])]]),
  ("name", .str "Quartz"), ("symbol", .str "Qtz")]

/-- The record of the mineral is read without an error, the declared model is set, and the model raises an error at every state. -/
example : ∃ s, parseSubstance mineralJson = .ok s ∧ s.methods.P = 308 ∧ s.params.birch = [] ∧
    ∀ (T P Tst Pr : ℝ) (ref tps : TPS), BM.bmEntry T P Tst Pr ref s.params.birch tps = .throw := by
  let d : SubData := { name := some "Quartz", symbol := some "Qtz", methods := some [{ method := (37, "mv_eos_birch_murnaghan_gott97", .P, 308) }] }
  have hd : SaysSub mineralJson d :=
    ⟨rfl, rfl, rfl, rfl, rfl, rfl, rfl, rfl, rfl, rfl, rfl, ⟨_, rfl, .cons ⟨rfl, rfl, rfl, rfl, rfl, rfl, rfl, rfl, rfl⟩ .nil⟩, rfl, rfl, rfl, rfl, rfl, rfl, rfl⟩
  obtain ⟨s, hs, hi⟩ := C92_substances mineralJson d hd rfl
    (by
      intro l hl
      injection hl with hl
      subst hl
      simp only [List.mem_cons, List.not_mem_nil, or_false]
      rintro m rfl
      show ((37 : Int), "mv_eos_birch_murnaghan_gott97", Slot.P, 308) ∈ documentedS ∧ (37 : Int) ≠ 41 ∧ (37 : Int) ≠ 42
      decide)
    (by intro x hx; cases hx) (by intro x hx; cases hx) (by intro x hx; cases hx) (by intro x hx; cases hx) (by intro x hx; cases hx)
  have h := C92_unread_refuted mineralJson s hs
  refine ⟨s, hs, ?_, h.2.1, fun T P Tst Pr ref tps => (h.2.2.2 T P Tst Pr ref tps).2⟩
  exact hi.methods.symm ▸ rfl

end ThermoFun.Js

namespace ThermoFun.BM

/-- **C105** (Birch-Murnaghan, partial): fewer than eight coefficients raise an error, nine suffice. -/
theorem C105_bm_partial (T P Tst Pr : ℝ) (ref tps : TPS) (c : List ℝ) :
    (c.length < 8 → bmEntry T P Tst Pr ref c tps = .throw) ∧ (9 ≤ c.length → ∃ r, bmEntry T P Tst Pr ref c tps = .ok r) := by
  unfold bmEntry bmGottschalk
  constructor
  · intro h
    rw [if_pos h]
  · intro h
    rw [if_neg (by omega)]
    dsimp only
    split
    · rw [if_neg (by omega)]
      exact ⟨_, rfl⟩
    · exact ⟨_, rfl⟩

example : ∃ r, bmEntry 400 1e8 300 1e5 TPS.default exC TPS.default = .ok r := (C105_bm_partial 400 1e8 300 1e5 _ _ exC).2 (by simp [exC])

/-- **C105** is violated: with eight coefficients, which pass the check, the ninth is read past the end of the vector, at every state but the
reference state. -/
theorem C105_bm_refuted (T P Tst Pr : ℝ) (ref tps : TPS) (c : List ℝ) (h : c.length = 8) (hs : T ≠ Tst ∨ P ≠ Pr) :
    bmEntry T P Tst Pr ref c tps = .ub := by
  unfold bmEntry bmGottschalk
  rw [if_neg (by omega)]
  dsimp only
  rw [if_pos, if_pos h]
  simp only [TS.op_val_subR, val_mulAssignD, val_pbar, TS.val_temperature]
  rcases hs with hs | hs
  · right
    exact sub_ne_zero.mpr hs
  · left
    intro h
    apply hs
    linarith

example : bmEntry 400 1e8 300 1e5 TPS.default [1e-3, 0, 0, 0, 0, 1000, 0, 4] TPS.default = .ub :=
  C105_bm_refuted 400 1e8 300 1e5 _ _ _ rfl (Or.inl (by norm_num))

end ThermoFun.BM

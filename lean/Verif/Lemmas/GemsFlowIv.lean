import Verif.Model.GemsFlow
import Verif.Lemmas.GemsIv

/-! Enclosures for the iterations of WaterHGK-JNgems.cpp: the kernel follows `denHGK` and `pcorr` on intervals, and stops where a comparison is not decided. -/

namespace ThermoFun

namespace Iv

/-- `k n`, with `n` evaluated first by the kernel. -/
def forceNat {α : Type} (n : ℕ) (k : ℕ → α) : α :=
  match n with
  | 0 => k 0
  | m + 1 => k (m + 1)

def forceInt {α : Type} (z : ℤ) (k : ℤ → α) : α :=
  match z with
  | .ofNat n => forceNat n fun n => k (.ofNat n)
  | .negSucc n => forceNat n fun n => k (.negSucc n)

def forceBool {α : Type} (b : Bool) (k : Bool → α) : α :=
  match b with
  | true => k true
  | false => k false

/-- `k a`, with `a` evaluated first by the kernel. -/
def force {α : Type} (a : Iv) (k : Iv → α) : α := forceInt a.lo fun l => forceInt a.hi fun u => forceBool a.ok fun b => k ⟨l, u, b⟩

lemma force_eq {α : Type} (a : Iv) (k : Iv → α) : a.force k = k a := by
  have h1 : ∀ (n : ℕ) (k : ℕ → α), forceNat n k = k n := by intro n k; cases n <;> rfl
  have h2 : ∀ (n : ℤ) (k : ℤ → α), forceInt n k = k n := by intro n k; cases n with
    | ofNat n => exact h1 n fun n => k (.ofNat n)
    | negSucc n => exact h1 n fun n => k (.negSucc n)
  have h3 : ∀ (n : Bool) (k : Bool → α), forceBool n k = k n := by intro n k; cases n <;> rfl
  unfold force
  rw [h2, h2, h3]

def lt (a b : Iv) : Bool := a.ok && b.ok && decide (a.hi < b.lo)
def le (a b : Iv) : Bool := a.ok && b.ok && decide (a.hi ≤ b.lo)

end Iv

lemma Enc.le {x y : ℝ} {a b : Iv} (ha : Enc x a) (hb : Enc y b) (h : a.le b = true) : x ≤ y := by
  unfold Iv.le at h
  simp only [Bool.and_eq_true, decide_eq_true_eq] at h
  have h1 := (ha h.1.1).2
  have h2 := (hb h.1.2).1
  have h3 : (a.hi : ℝ) ≤ b.lo := by exact_mod_cast h.2
  exact le_of_mul_le_mul_right (by linarith) scl_pos

lemma Enc.lt' {x y : ℝ} {a b : Iv} (ha : Enc x a) (hb : Enc y b) (h : a.lt b = true) : x < y := Enc.lt ha hb h

/-- A choice by a comparison that has to be decided. -/
def Iv.sel (c c' : Bool) (a b : Iv) : Iv := if c then a else if c' then b else .bad

lemma Enc.sel {p : Prop} [Decidable p] {x y : ℝ} {a b : Iv} {c c' : Bool} (h1 : c = true → p) (h2 : c' = true → ¬p) (hx : Enc x a) (hy : Enc y b) :
    Enc (if p then x else y) (.sel c c' a b) := by
  unfold Iv.sel
  cases c with
  | true => rw [if_pos (h1 rfl), if_pos rfl]; exact hx
  | false =>
    cases c' with
    | true => rw [if_neg (h2 rfl)]; simpa using hy
    | false => simpa using Enc.bad

namespace Gems

open WP (el)
open HGK (eli)

variable {t d p gu x : ℝ} {tI dI pI gI xI : Iv}

lemma z0 : Enc (0 : ℝ) (.rat 0) := Enc.lit 0 (by norm_num)
lemma z1 : Enc (1.0e-8 : ℝ) (.rat 1e-8) := Enc.lit _ (by norm_num)

def clampI (d : Iv) : Iv :=
  let d' := Iv.sel (d.le (.rat 0)) (Iv.lt (.rat 0) d) (.rat 1e-8) d
  Iv.sel (Iv.lt (.rat 1.9) d') (d'.le (.rat 1.9)) (.rat 1.9) d'

lemma clamp_enc (hd : Enc d dI) : Enc (clampD d) (clampI dI) := by
  have h19 : Enc (1.9 : ℝ) (.rat 1.9) := Enc.lit _ (by norm_num)
  have h := Enc.sel (p := d ≤ 0) (hd.le z0) (fun h => not_le.2 (z0.lt' hd h)) z1 hd
  exact Enc.sel (fun h' => h19.lt' h h') (fun h' => not_lt.2 (h.le h19 h')) h19 h

lemma dpddOf_eq (t d : ℝ) : dpddOf t d = (thmHGK (evalAt t d) t d).dpdd := rfl

/-- Whether the iteration has converged. -/
def convI (p g pp : Iv) : Option Bool :=
  let q := .rat 1 - pp / p
  let small (e : ℚ) : Bool := q.lt (.rat e) && Iv.lt (.rat (-e)) q
  let big (e : ℚ) : Bool := Iv.lt (.rat e) q || q.lt (.rat (-e))
  if small 1e-8 || (Iv.lt (.rat 0.3) g && small 1e-7) || (Iv.lt (.rat 0.7) g && small 1e-6) then some true
  else if big 1e-8 && (g.le (.rat 0.3) || big 1e-7) && (g.le (.rat 0.7) || big 1e-6) then some false
  else none

lemma conv_enc {pp : ℝ} {ppI : Iv} {b : Bool} (hp : Enc p pI) (hg : Enc gu gI) (hpp : Enc pp ppI) (h : convI pI gI ppI = some b) : denConv p gu pp ↔ b = true := by
  have hq : Enc (1 - pp / p) (.rat 1 - ppI / pI) := by enc
  have e8 : ((1e-8 : ℚ) : ℝ) = 1.0e-8 := by norm_num
  have e7 : ((1e-7 : ℚ) : ℝ) = 1.0e-7 := by norm_num
  have e6 : ((1e-6 : ℚ) : ℝ) = 1.0e-6 := by norm_num
  have g3 : Enc (0.3 : ℝ) (.rat 0.3) := Enc.lit _ (by norm_num)
  have g7 : Enc (0.7 : ℝ) (.rat 0.7) := Enc.lit _ (by norm_num)
  unfold convI at h
  dsimp only at h
  generalize (.rat 1 - ppI / pI : Iv) = q at *
  unfold denConv
  generalize 1 - pp / p = y at *
  have small : ∀ e : ℚ, (q.lt (.rat e) && Iv.lt (.rat (-e)) q) = true → |y| < (e : ℝ) := by
    intro e he
    rw [Bool.and_eq_true] at he
    have h1 := hq.lt' (Enc.rat e) he.1
    have h2 := (Enc.rat (-e)).lt' hq he.2
    push_cast at h2
    exact abs_lt.2 ⟨h2, h1⟩
  have big : ∀ e : ℚ, (Iv.lt (.rat e) q || q.lt (.rat (-e))) = true → ¬ |y| < (e : ℝ) := by
    intro e he h3
    rw [Bool.or_eq_true] at he
    obtain ⟨h1, h2⟩ := abs_lt.1 h3
    rcases he with he | he
    · have := (Enc.rat e).lt' hq he; linarith
    · have := hq.lt' (Enc.rat (-e)) he; push_cast at this; linarith
  rw [← e8, ← e7, ← e6]
  split_ifs at h with h1 h2
  · cases h
    simp only [Bool.or_eq_true] at h1
    rw [Bool.and_eq_true (Iv.lt (.rat 0.3) gI), Bool.and_eq_true (Iv.lt (.rat 0.7) gI)] at h1
    refine iff_of_true ?_ rfl
    rcases h1 with (h1 | ⟨h1, h2⟩) | ⟨h1, h2⟩
    · exact Or.inl (small _ h1)
    · exact Or.inr (Or.inl ⟨g3.lt' hg h1, small _ h2⟩)
    · exact Or.inr (Or.inr ⟨g7.lt' hg h1, small _ h2⟩)
  · cases h
    rw [Bool.and_eq_true, Bool.and_eq_true, Bool.or_eq_true (gI.le _), Bool.or_eq_true (gI.le _)] at h2
    obtain ⟨⟨k1, k2⟩, k3⟩ := h2
    refine iff_of_false ?_ (by simp)
    rintro (h4 | ⟨h5, h4⟩ | ⟨h5, h4⟩)
    · exact big _ k1 h4
    · rcases k2 with k2 | k2
      · exact absurd h5 (not_lt.2 (hg.le g3 k2))
      · exact big _ k2 h4
    · rcases k3 with k3 | k3
      · exact absurd h5 (not_lt.2 (hg.le g7 k3))
      · exact big _ k3 h4

def nextI (p d pp k : Iv) : Iv :=
  let kk := k * .rat 1.1
  let dpdx := Iv.sel (kk.lt (.rat 0.1)) (Iv.le (.rat 0.1) kk) (.rat 0.1) kk
  let x := (p - pp) / dpdx
  let x' := if Iv.lt (.rat 0.1) x then .rat 0.1 else if x.lt (.rat (-0.1)) then .rat (-0.1) else if x.le (.rat 0.1) && Iv.le (.rat (-0.1)) x then x else .bad
  let s := d + x'
  Iv.sel (s.le (.rat 0)) (Iv.lt (.rat 0) s) (.rat 1e-8) s

lemma next_enc {pp k : ℝ} {ppI kI : Iv} (hp : Enc p pI) (hd : Enc d dI) (hpp : Enc pp ppI) (hk : Enc k kI) : Enc (denNext p d pp k) (nextI pI dI ppI kI) := by
  have h01 : Enc (0.1 : ℝ) (.rat 0.1) := Enc.lit _ (by norm_num)
  have h02 : Enc (-0.1 : ℝ) (.rat (-0.1)) := Enc.lit _ (by norm_num)
  have h11 : Enc (1.1 : ℝ) (.rat 1.1) := Enc.lit _ (by norm_num)
  have hkk : Enc (k * 1.1) (kI * .rat 1.1) := by enc
  have hx := Enc.sel (p := k * 1.1 < 0.1) (fun h => hkk.lt' h01 h) (fun h => not_lt.2 (h01.le hkk h)) h01 hkk
  have hy : Enc ((p - pp) / if k * 1.1 < 0.1 then 0.1 else k * 1.1) ((pI - ppI) / Iv.sel ((kI * .rat 1.1).lt (.rat 0.1)) (Iv.le (.rat 0.1) (kI * .rat 1.1)) (.rat 0.1) (kI * .rat 1.1)) := by enc
  unfold denNext nextI
  dsimp only
  generalize ((p - pp) / if k * 1.1 < 0.1 then 0.1 else k * 1.1) = y at *
  generalize ((pI - ppI) / Iv.sel ((kI * .rat 1.1).lt (.rat 0.1)) (Iv.le (.rat 0.1) (kI * .rat 1.1)) (.rat 0.1) (kI * .rat 1.1)) = yI at *
  have hc : Enc (if |y| > 0.1 then y * (0.1 / |y|) else y)
      (if Iv.lt (.rat 0.1) yI then .rat 0.1 else if yI.lt (.rat (-0.1)) then .rat (-0.1) else if yI.le (.rat 0.1) && Iv.le (.rat (-0.1)) yI then yI else .bad) := by
    split_ifs with h1 h2 h3 h4 h5 h6 h7
    · refine h01.congr ?_
      have := h01.lt' hy h2
      rw [abs_of_pos (by linarith)]; field_simp
    · refine h02.congr ?_
      have := hy.lt' h02 h3
      rw [abs_of_neg (by linarith)]
      have hy0 : y ≠ 0 := by intro h0; rw [h0] at this; norm_num at this
      field_simp
    · rw [Bool.and_eq_true] at h4
      exact absurd h1 (not_lt.2 (abs_le.2 ⟨by have := h02.le hy h4.2; linarith, hy.le h01 h4.1⟩))
    · exact Enc.bad
    · exact absurd (lt_of_lt_of_le (h01.lt' hy h5) (le_abs_self y)) h1
    · exact absurd (lt_of_lt_of_le (by have := hy.lt' h02 h6; linarith) (neg_le_abs y)) h1
    · exact hy
    · exact Enc.bad
  have hs := hd.add hc
  exact Enc.sel (fun h => hs.le z0 h) (fun h => not_le.2 (z0.lt' hs h)) z1 hs

structure DenI where
  d : Iv
  e : Iv
  conv : Bool

def denLoopI (p g t : Iv) : ℕ → ℕ → Iv → Option DenI
  | 0, _, _ => none
  | fuel + 1, i, d =>
    let i := i + 1
    (clampI d).force fun d =>
    (presI t d).force fun pp =>
    (dpddI t d).force fun k =>
    if Iv.lt (.rat 0) k then
      match convI p g pp with
      | some true => some ⟨d, d, true⟩
      | some false => if i ≤ 30 then denLoopI p g t fuel i (nextI p d pp k) else some ⟨nextI p d pp k, d, false⟩
      | none => none
    else if k.le (.rat 0) then
      let d' := Iv.sel (Iv.le (.rat 0.2967) g) (g.lt (.rat 0.2967)) (d * .rat 1.02) (d * .rat 0.98)
      if i ≤ 10 then denLoopI p g t fuel i d' else some ⟨d', d, false⟩
    else none

lemma denLoop_enc (hp : Enc p pI) (hg : Enc gu gI) (ht : Enc t tI) : ∀ (fuel i : ℕ) (d : ℝ) (dI : Iv) (r : DenI), Enc d dI → denLoopI pI gI tI fuel i dI = some r →
    Enc (denLoop p gu t fuel i d).d r.d ∧ Enc (denLoop p gu t fuel i d).e r.e ∧ (denLoop p gu t fuel i d).conv = r.conv := by
  intro fuel
  induction fuel with
  | zero => intro i d dI r _ h; simp [denLoopI] at h
  | succ fuel ih =>
    intro i d dI r hd h
    have hc := clamp_enc hd
    have hpp := pres_enc ht hc
    have hk := dpdd_enc ht hc
    rw [← dpddOf_eq] at hk
    have hn := next_enc hp hc hpp hk
    have hcv := fun b => conv_enc (b := b) hp hg hpp
    unfold denLoopI at h
    unfold denLoop
    simp only [Iv.force_eq] at h
    dsimp only at h ⊢
    generalize clampI dI = cI at *
    generalize clampD d = c at *
    generalize presI tI cI = ppI at *
    generalize dpddI tI cI = kI at *
    generalize presOf (evalAt t c) t c = pp at *
    generalize dpddOf t c = k at *
    by_cases h1 : Iv.lt (.rat 0) kI = true
    · rw [if_pos h1] at h
      rw [if_pos (show k > 0 from z0.lt' hk h1)]
      cases hb : convI pI gI ppI with
      | none => rw [hb] at h; simp at h
      | some b =>
        rw [hb] at h
        have hb' := hcv b hb
        cases b with
        | true =>
          rw [if_pos (hb'.2 rfl)]
          simp only [Option.some.injEq] at h
          rw [← h]; exact ⟨hc, hc, rfl⟩
        | false =>
          rw [if_neg (fun h' => by simpa using hb'.1 h')]
          dsimp only at h
          by_cases hi : i + 1 ≤ 30
          · rw [if_pos hi] at h ⊢
            exact ih _ _ _ _ hn h
          · rw [if_neg hi] at h ⊢
            simp only [Option.some.injEq] at h
            rw [← h]; exact ⟨hn, hc, rfl⟩
    · rw [if_neg h1] at h
      by_cases h2 : kI.le (.rat 0) = true
      · rw [if_pos h2] at h
        rw [if_neg (not_lt.2 (hk.le z0 h2))]
        have hg2 : Enc (0.2967 : ℝ) (.rat 0.2967) := Enc.lit _ (by norm_num)
        have hd' : Enc (if gu ≥ 0.2967 then c * 1.02 else c * 0.98) (Iv.sel (Iv.le (.rat 0.2967) gI) (gI.lt (.rat 0.2967)) (cI * .rat 1.02) (cI * .rat 0.98)) :=
          Enc.sel (fun h => hg2.le hg h) (fun h => not_le.2 (hg.lt' hg2 h)) (by enc) (by enc)
        by_cases hi : i + 1 ≤ 10
        · rw [if_pos hi] at h ⊢
          exact ih _ _ _ _ hd' h
        · rw [if_neg hi] at h ⊢
          simp only [Option.some.injEq] at h
          rw [← h]; exact ⟨hd', hc, rfl⟩
      · rw [if_neg h2] at h; simp at h

def denHGKI (p g t : Iv) : Option DenI := denLoopI p g t 32 0 g

lemma den_enc (hp : Enc p pI) (hg : Enc gu gI) (ht : Enc t tI) {r : DenI} (h : denHGKI pI gI tI = some r) :
    Enc (denHGK p gu t).d r.d ∧ Enc (denHGK p gu t).e r.e ∧ (denHGK p gu t).conv = r.conv := denLoop_enc hp hg ht 32 0 gu gI r hg h

/-! ### The Gibbs energy without the terms that depend on the temperature alone -/

/-- `ab + ar + z`. -/
noncomputable def gnOf (t d e : ℝ) : ℝ :=
  (evalAt t e).b.ab + (evalAt t e).r.ar + ((evalAt t e).b.zb + (evalAt t e).r.q0 / (gascon * t) / d)

lemma gdAt_eq (t d e : ℝ) : gdAt t d e = gnOf t d e + ((ideal t).ai - uref / t + sref) := by
  unfold gdAt thmHGK gnOf
  dsimp only
  have h : (evalAt t e).i = ideal t := rfl
  rw [h]; ring

def abI (e : EllI) (t d : Iv) : Iv :=
  let yb := .rat 0.25 * e.b1 * d
  let x := .rat 1 - yb
  let m := -Iv.log x
  m - (g2I - .rat 1) / x + .rat 28.16666667 / x / x + .rat 4 * yb * (e.b2 / e.b1 - gfI) + .rat 15.166666667 + .log (d * t * gasconI / .rat 0.101325)

lemma ab_enc {e : Ell} {eI : EllI} (he : EllI.Enc e eI) (ht : Enc t tI) (hd : Enc d dI) : Enc (base e t d).ab (abI eI tI dI) := by
  obtain ⟨h1, h2, h3, h4, h5, h6⟩ := he
  have a1 := gascon_enc
  have a2 := g2_enc
  have a3 := gf_enc
  unfold base abI
  dsimp only
  enc

def arStepI (e t d : Iv) (s : Iv) (i : ℕ) : Iv :=
  let q10 := d * d * e
  let q20 := .rat 1 - e
  let v := tzI / t
  let k := eli ii i + 1
  let l := eli jj i
  s + elI g i * (q10 * q20 ^ k) * v ^ (l - 1) / q10 / .int k / (gasconI * t)

def arExtraI (t d : Iv) (s : Iv) (j : ℕ) : Iv :=
  let k := eli ii (j + 36)
  let km := eli jj (j + 36)
  let del := delI d (elI adz j)
  let dex := cutI (-elI aad j * del ^ k) * del ^ km
  let tau := t / elI atz j - .rat 1
  let tex := cutI (-elI aat j * tau * tau)
  s + dex * tex * elI g (j + 36) / (gasconI * t)

def arI (t d : Iv) : Iv := (List.range 4).foldl (arExtraI t d) ((List.range 36).foldl (arStepI (.exp (-aaI * d)) t d) (.rat 0))

lemma arStep_enc (ht : Enc t tI) (hd : Enc d dI) {eI : Iv} (he : Enc (Real.exp (-aa * d)) eI) (i : ℕ) (s : RAcc) (u : Iv) (h : Enc s.ar u) :
    Enc (residStep t d s i).ar (arStepI eI tI dI u i) := by
  have z1 := tz_enc
  have z3 := gascon_enc
  have z4 := elI_enc g i
  unfold residStep arStepI
  dsimp only
  enc

lemma arExtra_enc (ht : Enc t tI) (hd : Enc d dI) (j : ℕ) (hj : el g (j + 36) ≠ 0) (s : RAcc) (u : Iv) (h : Enc s.ar u) :
    Enc (residExtra t d s j).ar (arExtraI tI dI u j) := by
  have z0 := gascon_enc
  have z1 := elI_enc adz j
  have z2 := elI_enc aad j
  have z3 := elI_enc aat j
  have z4 := elI_enc atz j
  have z5 := elI_enc g (j + 36)
  have z6 := del_enc hd z1
  have c1 : Enc (-el aad j * delOf d (el adz j) ^ eli ii (j + 36)) (-elI aad j * delI dI (elI adz j) ^ eli ii (j + 36)) := by enc
  have c2 : Enc (-el aat j * (t / el atz j - 1) * (t / el atz j - 1)) (-elI aat j * (tI / elI atz j - .rat 1) * (tI / elI atz j - .rat 1)) := by enc
  have c3 := cutLt_enc c1
  have c4 := cutLe_enc c2
  rw [residExtra, if_neg hj]
  unfold arExtraI
  dsimp only
  enc

lemma ar_enc (ht : Enc t tI) (hd : Enc d dI) : Enc (resid t d).ar (arI tI dI) := by
  have z2 := aa_enc
  have he : Enc (Real.exp (-aa * d)) (.exp (-aaI * dI)) := by enc
  have h0 : Enc ((List.range 36).foldl (residStep t d) ⟨0, 0, 0, 0, 0, 0, 0, 0⟩).ar ((List.range 36).foldl (arStepI (.exp (-aaI * dI)) tI dI) (.rat 0)) :=
    foldl_enc (fun (s : RAcc) u => Enc s.ar u) _ _ _ (arStep_enc ht hd he) (Enc.lit 0 (by norm_num))
  have e4 : List.range 4 = [0, 1, 2, 3] := by decide
  unfold resid arI
  dsimp only
  rw [e4]
  simp only [List.foldl_cons, List.foldl_nil]
  exact arExtra_enc ht hd 3 (g_ne 3 (by norm_num)) _ _ (arExtra_enc ht hd 2 (g_ne 2 (by norm_num)) _ _
    (arExtra_enc ht hd 1 (g_ne 1 (by norm_num)) _ _ (arExtra_enc ht hd 0 (g_ne 0 (by norm_num)) _ _ h0)))

def gnI (t d e : Iv) : Iv := abI (bbI t) t e + arI t e + ((baseI (bbI t) t e).zb + ((residI t e).q0 + (residI t e).qp) / (gasconI * t) / d)

lemma gn_enc {e : ℝ} {eI : Iv} (ht : Enc t tI) (hd : Enc d dI) (he : Enc e eI) : Enc (gnOf t d e) (gnI tI dI eI) := by
  have h1 := ab_enc (bb_enc ht) ht he
  have h2 := ar_enc ht he
  have h3 := (base_enc (bb_enc ht) ht he).zb
  have h4 := (resid_enc ht he).q0
  have h5 := (resid_enc ht he).qp
  have z3 := gascon_enc
  have h6 : Enc (resid t e).q0 ((residI tI eI).q0 + (residI tI eI).qp) := by unfold resid; dsimp only; enc
  unfold gnOf evalAt gnI
  dsimp only
  enc

/-! ### Saturation -/

def psI (t : Iv) : Iv :=
  if t.le (.rat 314) && Iv.lt (.rat 0) t then .rat 0.1 * .exp (.rat 6.3573118 - .rat 8858.843 / t + .rat 607.56335 * .exp (.log t * .rat (-0.6))) else .bad

lemma ps_enc (ht : Enc t tI) : Enc (PsHGK t) (psI tI) := by
  unfold psI
  split_ifs with h
  · rw [Bool.and_eq_true] at h
    have h1 := ht.le (Enc.lit (x := 314.0e0) 314 (by norm_num)) h.1
    have h2 := z0.lt' ht h.2
    rw [PsHGK, if_pos h1, Real.rpow_def_of_pos h2]
    enc
  · exact Enc.bad

structure CorrI where
  dL : Iv
  dV : Iv
  delg : Iv

def corrI (t p dL dV : Iv) : Option CorrI :=
  match denHGKI p (Iv.sel (dL.le (.rat 0)) (Iv.lt (.rat 0) dL) (.rat 1.11 - .rat 0.0004 * t) dL) t,
    denHGKI p (Iv.sel (dV.le (.rat 0)) (Iv.lt (.rat 0) dV) (p / (gasconI * t)) dV) t with
  | some l, some w =>
    (Iv.sel (w.d.lt (.rat 5e-7)) (Iv.le (.rat 5e-7) w.d) (.rat 5e-7) w.d).force fun v =>
    (gnI t l.d l.e - gnI t v w.e).force fun g =>
    some ⟨l.d, v, g⟩
  | _, _ => none

lemma corr_enc {dL dV : ℝ} {lI vI : Iv} (ht : Enc t tI) (hp : Enc p pI) (hl : Enc dL lI) (hv : Enc dV vI) {r : CorrI} (h : corrI tI pI lI vI = some r) :
    Enc (corr t p dL dV).dL r.dL ∧ Enc (corr t p dL dV).dV r.dV ∧ Enc (corr t p dL dV).delg r.delg := by
  have z3 := gascon_enc
  have g1 := Enc.sel (p := dL ≤ 0) (hl.le z0) (fun h => not_le.2 (z0.lt' hl h)) (show Enc (1.11 - 0.0004 * t) (.rat 1.11 - .rat 0.0004 * tI) by enc) hl
  have g2 := Enc.sel (p := dV ≤ 0) (hv.le z0) (fun h => not_le.2 (z0.lt' hv h)) (show Enc (p / (gascon * t)) (pI / (gasconI * tI)) by enc) hv
  unfold corrI at h
  cases h1 : denHGKI pI (Iv.sel (lI.le (.rat 0)) (Iv.lt (.rat 0) lI) (.rat 1.11 - .rat 0.0004 * tI) lI) tI with
  | none => rw [h1] at h; simp at h
  | some l =>
    cases h2 : denHGKI pI (Iv.sel (vI.le (.rat 0)) (Iv.lt (.rat 0) vI) (pI / (gasconI * tI)) vI) tI with
    | none => rw [h1, h2] at h; simp at h
    | some w =>
      rw [h1, h2] at h
      simp only [Iv.force_eq, Option.some.injEq] at h
      obtain ⟨a1, a2, -⟩ := den_enc hp g1 ht h1
      obtain ⟨b1, b2, -⟩ := den_enc hp g2 ht h2
      have h5 : Enc (5.0e-7 : ℝ) (.rat 5e-7) := Enc.lit _ (by norm_num)
      have c1 := Enc.sel (p := (denHGK p (if dV ≤ 0 then p / (gascon * t) else dV) t).d < 5.0e-7) (fun h => b1.lt' h5 h) (fun h => not_lt.2 (h5.le b1 h)) h5 b1
      have d1 := gn_enc ht a1 a2
      have d2 := gn_enc ht c1 b2
      have e := d1.sub d2
      rw [← h]
      refine ⟨a1, c1, e.congr ?_⟩
      unfold corr
      dsimp only
      rw [gdAt_eq, gdAt_eq]; ring

structure SatI where
  p : Iv
  dL : Iv
  dV : Iv

structure SatI.Enc (s : Sat) (a : SatI) : Prop where
  p : ThermoFun.Enc s.p a.p
  dL : ThermoFun.Enc s.dL a.dL
  dV : ThermoFun.Enc s.dV a.dV

def pcorrLoopI (t : Iv) : ℕ → SatI → Option SatI
  | 0, _ => none
  | fuel + 1, s =>
    match corrI t s.p s.dL s.dV with
    | none => none
    | some c =>
      let s' : SatI := ⟨s.p + c.delg * gasconI * t / (.rat 1 / c.dV - .rat 1 / c.dL), c.dL, c.dV⟩
      if Iv.lt (.rat 1e-4) c.delg || c.delg.lt (.rat (-1e-4)) then pcorrLoopI t fuel s'
      else if c.delg.le (.rat 1e-4) && Iv.le (.rat (-1e-4)) c.delg then some s'
      else none

lemma pcorrLoop_enc (ht : Enc t tI) : ∀ (fuel : ℕ) (s : Sat) (a r : SatI), SatI.Enc s a → pcorrLoopI tI fuel a = some r → ∀ m,
    ∃ s', pcorrLoop t (fuel + m) s = some s' ∧ SatI.Enc s' r := by
  intro fuel
  induction fuel with
  | zero => intro s a r _ h; simp [pcorrLoopI] at h
  | succ fuel ih =>
    intro s a r hs h m
    rw [show fuel + 1 + m = (fuel + m) + 1 by ring]
    unfold pcorrLoopI at h
    unfold pcorrLoop
    cases hc : corrI tI a.p a.dL a.dV with
    | none => rw [hc] at h; simp at h
    | some c =>
      rw [hc] at h
      dsimp only at h ⊢
      obtain ⟨c1, c2, c3⟩ := corr_enc ht hs.p hs.dL hs.dV hc
      generalize corr t s.p s.dL s.dV = k at *
      have z3 := gascon_enc
      have hp := hs.p
      have e4 : Enc (1.0e-4 : ℝ) (.rat 1e-4) := Enc.lit _ (by norm_num)
      have e4' : Enc (-1.0e-4 : ℝ) (.rat (-1e-4)) := Enc.lit _ (by norm_num)
      have hn : SatI.Enc ⟨s.p + k.delg * gascon * t / (1 / k.dV - 1 / k.dL), k.dL, k.dV⟩
          ⟨a.p + c.delg * gasconI * tI / (.rat 1 / c.dV - .rat 1 / c.dL), c.dL, c.dV⟩ := by
        constructor
        · dsimp only; enc
        · exact c1
        · exact c2
      by_cases h1 : (Iv.lt (.rat 1e-4) c.delg || c.delg.lt (.rat (-1e-4))) = true
      · rw [if_pos h1] at h
        rw [if_pos]
        · exact ih _ _ _ hn h m
        · rw [Bool.or_eq_true] at h1
          rcases h1 with h1 | h1
          · exact lt_of_lt_of_le (e4.lt' c3 h1) (le_abs_self _)
          · have := c3.lt' e4' h1
            exact lt_of_lt_of_le (by linarith) (neg_le_abs _)
      · rw [if_neg h1] at h
        by_cases h2 : (c.delg.le (.rat 1e-4) && Iv.le (.rat (-1e-4)) c.delg) = true
        · rw [if_pos h2] at h
          rw [Bool.and_eq_true] at h2
          simp only [Option.some.injEq] at h
          have l1 := c3.le e4 h2.1
          have l2 := e4'.le c3 h2.2
          rw [if_neg (not_lt.2 (abs_le.2 ⟨by linarith, l1⟩))]
          exact ⟨_, rfl, h ▸ hn⟩
        · rw [if_neg h2] at h; simp at h

def pcorrI (fuel : ℕ) (t : Iv) : Option SatI := pcorrLoopI t fuel ⟨psI t, .rat 0, .rat 0⟩

lemma pcorr_enc (ht : Enc t tI) {fuel : ℕ} {r : SatI} (h : pcorrI fuel tI = some r) (m : ℕ) (hm : fuel ≤ m) : ∃ s, pcorr m t = some s ∧ SatI.Enc s r := by
  obtain ⟨k, rfl⟩ := Nat.exists_eq_add_of_le hm
  exact pcorrLoop_enc ht fuel _ _ r ⟨ps_enc ht, z0, z0⟩ h k

end Gems

end ThermoFun

import Verif.Lemmas.Interval
import Verif.Model.WagnerPruss
import Mathlib.Analysis.SpecialFunctions.Pow.Real

/-! An interval version of the Helmholtz function of Wagner and Pruss, up to second derivatives and with two of the third, for proofs about concrete states. -/

namespace ThermoFun

deriving instance DecidableEq for Iv

lemma Enc.rpow {x y : ℝ} {l b : Iv} (hx : 0 < x) (hl : Enc (Real.log x) l) (hy : Enc y b) : Enc (x ^ y) (.exp (l * b)) := by
  rw [Real.rpow_def_of_pos hx]
  exact (hl.mul hy).exp

namespace WP

/-- Value, first and second derivatives, and the third ones that contain two derivatives by density. -/
structure HI where
  f : Iv
  fT : Iv
  fD : Iv
  fTT : Iv
  fTD : Iv
  fDD : Iv
  fTDD : Iv
  fDDD : Iv
  deriving DecidableEq

structure HI.Enc (h : Helm) (a : HI) : Prop where
  f : ThermoFun.Enc h.f a.f
  fT : ThermoFun.Enc h.fT a.fT
  fD : ThermoFun.Enc h.fD a.fD
  fTT : ThermoFun.Enc h.fTT a.fTT
  fTD : ThermoFun.Enc h.fTD a.fTD
  fDD : ThermoFun.Enc h.fDD a.fDD
  fTDD : ThermoFun.Enc h.fTDD a.fTDD
  fDDD : ThermoFun.Enc h.fDDD a.fDDD

def addI (p q : HI) : HI := ⟨p.f + q.f, p.fT + q.fT, p.fD + q.fD, p.fTT + q.fTT, p.fTD + q.fTD, p.fDD + q.fDD, p.fTDD + q.fTDD, p.fDDD + q.fDDD⟩

def zeroI : HI := ⟨.int 0, .int 0, .int 0, .int 0, .int 0, .int 0, .int 0, .int 0⟩

def elI (l : List ℚ) (i : ℕ) : Iv := .rat (l.getD i 0)

lemma elI_enc (l : List ℚ) (i : ℕ) : Enc (el l i) (elI l i) := Enc.rat _

lemma add_enc {p q : Helm} {a b : HI} (h : HI.Enc p a) (k : HI.Enc q b) : HI.Enc (add p q) (addI a b) :=
  ⟨h.f.add k.f, h.fT.add k.fT, h.fD.add k.fD, h.fTT.add k.fTT, h.fTD.add k.fTD, h.fDD.add k.fDD, h.fTDD.add k.fTDD, h.fDDD.add k.fDDD⟩

lemma zero_enc : HI.Enc zero zeroI := by
  constructor <;> exact (Enc.int 0).congr (by simp [zero])

/-- The reduced variables with what is known of them. -/
structure Red (tau delta : ℝ) (tI dI lt ld : Iv) : Prop where
  ht : 0 < tau
  hd : 0 < delta
  t : Enc tau tI
  d : Enc delta dI
  lt : Enc (Real.log tau) lt
  ld : Enc (Real.log delta) ld

variable {tau delta : ℝ} {tI dI lt ld : Iv}

/-! ### The first two sums -/

def termAI (n d t tI dI lt ld : Iv) : HI :=
  let A := n * .exp (ld * d) * .exp (lt * t)
  let A_d := d / dI * A
  let A_t := t / tI * A
  let A_dd := (d - .rat 1) / dI * A_d
  { f := A, fD := A_d, fT := A_t, fDD := A_dd, fDDD := (d - .rat 2) / dI * A_dd, fTDD := t / tI * A_dd, fTT := (t - .rat 1) / tI * A_t, fTD := t * d / (tI * dI) * A }

lemma termA_enc (r : Red tau delta tI dI lt ld) {n d t : ℝ} {nI eI sI : Iv} (hn : Enc n nI) (hd : Enc d eI) (ht : Enc t sI) :
    HI.Enc (termA n d t tau delta) (termAI nI eI sI tI dI lt ld) := by
  obtain ⟨r1, r2, r3, r4, r5, r6⟩ := r
  have h1 := Enc.rpow r2 r6 hd
  have h2 := Enc.rpow r1 r5 ht
  unfold termA termAI
  constructor <;> dsimp only <;> enc

def termBI (n d t c tI dI lt ld : Iv) : HI :=
  let dci := .exp (ld * c)
  let B := n * .exp (ld * d) * .exp (lt * t) * .exp (-dci)
  let B_d := (d - c * dci) / dI * B
  let B_t := t / tI * B
  let B_dd := (d - c * dci - .rat 1) / dI * B_d - dci * (c / dI) ^ 2 * B
  let B_dt := t / tI * B_d
  { f := B, fD := B_d, fT := B_t, fDD := B_dd, fTT := (t - .rat 1) / tI * B_t, fTD := B_dt
    fDDD := (d - c * dci - .rat 1) / dI * B_dd - ((d - c * dci - .rat 1) + .rat 2 * c * c * dci) / dI ^ 2 * B_d - c * c * dci * (c - .rat 2) / dI ^ 3 * B
    fTDD := (d - c * dci - .rat 1) / dI * B_dt - c * c * dci / dI ^ 2 * B_t }

lemma termB_enc (r : Red tau delta tI dI lt ld) {n d t c : ℝ} {nI eI sI cI : Iv} (hn : Enc n nI) (hd : Enc d eI) (ht : Enc t sI) (hc : Enc c cI) :
    HI.Enc (termB n d t c tau delta) (termBI nI eI sI cI tI dI lt ld) := by
  obtain ⟨r1, r2, r3, r4, r5, r6⟩ := r
  have h1 := Enc.rpow r2 r6 hd
  have h2 := Enc.rpow r1 r5 ht
  have h3 := Enc.rpow r2 r6 hc
  unfold termB termBI
  constructor <;> dsimp only <;> enc

/-! ### The third sum -/

def termCI (n d t alpha beta gamma epsilon tI dI lt ld : Iv) : HI :=
  let aux1d := d / dI - .rat 2 * alpha * (dI - epsilon)
  let aux1t := t / tI - .rat 2 * beta * (tI - gamma)
  let aux2d := d / dI ^ 2 + .rat 2 * alpha
  let aux2t := t / tI ^ 2 + .rat 2 * beta
  let C := n * .exp (ld * d) * .exp (lt * t) * .exp (-alpha * (dI - epsilon) ^ 2 - beta * (tI - gamma) ^ 2)
  let C_d := aux1d * C
  let C_t := aux1t * C
  let C_dd := aux1d * C_d - aux2d * C
  let C_dt := aux1d * aux1t * C
  { f := C, fD := C_d, fT := C_t, fDD := C_dd, fTT := aux1t * C_t - aux2t * C, fTD := C_dt
    fDDD := aux1d * C_dd - .rat 2 * aux2d * C_d + .rat 2 * d / dI ^ 3 * C, fTDD := aux1d * C_dt - aux2d * C_t }

lemma termC_enc (r : Red tau delta tI dI lt ld) {n d t al be ga ep : ℝ} {nI eI sI aI bI gI pI : Iv} (hn : Enc n nI) (hd : Enc d eI) (ht : Enc t sI)
    (h1 : Enc al aI) (h2 : Enc be bI) (h3 : Enc ga gI) (h4 : Enc ep pI) :
    HI.Enc (termC n d t al be ga ep tau delta) (termCI nI eI sI aI bI gI pI tI dI lt ld) := by
  obtain ⟨r1, r2, r3, r4, r5, r6⟩ := r
  have h1 := Enc.rpow r2 r6 hd
  have h2 := Enc.rpow r1 r5 ht
  unfold termC termCI
  constructor <;> dsimp only <;> enc

/-! ### The fourth sum -/

def thetaI (A E tI dI : Iv) : HI :=
  let dd := (dI - .rat 1) ^ 2
  let theta := (.rat 1 - tI) + A * .exp (.log dd * (.rat 0.5 / E))
  let theta_d := (theta + tI - .rat 1) / (dI - .rat 1) / E
  let theta_dd := (.rat 1 / E - .rat 1) * theta_d / (dI - .rat 1)
  { f := theta, fD := theta_d, fT := .rat (-1), fDD := theta_dd, fTT := .rat 0, fTD := .rat 0
    fDDD := (.rat 1 / E - .rat 1) * (theta_dd / (dI - .rat 1) - theta_d / dd), fTDD := .rat 0 }

lemma theta_enc (h1 : delta ≠ 1) (r : Red tau delta tI dI lt ld) {A E : ℝ} {aI eI : Iv} (ha : Enc A aI) (he : Enc E eI) :
    HI.Enc (theta A E tau delta) (thetaI aI eI tI dI) := by
  obtain ⟨r1, r2, r3, r4, r5, r6⟩ := r
  have hp : 0 < (delta - 1) ^ 2 := by have := sub_ne_zero.mpr h1; positivity
  have hd : Enc ((delta - 1) ^ 2) ((dI - .rat 1) ^ 2) := by enc
  have hl := hd.log
  have h2 : Enc (((delta - 1) ^ 2) ^ (0.5 / E)) _ := Enc.rpow hp hl (y := 0.5 / E) (b := .rat 0.5 / eI) (by enc)
  unfold theta thetaI
  constructor <;> dsimp only <;> enc

def psiI (C F tI dI : Iv) : HI :=
  let psi := .exp (-C * (dI - .rat 1) ^ 2 - F * (tI - .rat 1) ^ 2)
  let psi_d := .rat (-2) * C * (dI - .rat 1) * psi
  let psi_t := .rat (-2) * F * (tI - .rat 1) * psi
  let psi_dd := .rat (-2) * C * (psi + (dI - .rat 1) * psi_d)
  let psi_dt := .rat 4 * C * F * (dI - .rat 1) * (tI - .rat 1) * psi
  { f := psi, fD := psi_d, fT := psi_t, fDD := psi_dd, fTT := .rat (-2) * F * (psi + (tI - .rat 1) * psi_t), fTD := psi_dt
    fDDD := .rat (-2) * C * (.rat 2 * psi_d + (dI - .rat 1) * psi_dd), fTDD := .rat (-2) * C * (psi_t + (dI - .rat 1) * psi_dt) }

lemma neg_two_enc : Enc (-2) (.rat (-2)) := Enc.lit _ (by norm_num)

lemma psi_enc (r : Red tau delta tI dI lt ld) {C F : ℝ} {cI fI : Iv} (hc : Enc C cI) (hf : Enc F fI) :
    HI.Enc (psi C F tau delta) (psiI cI fI tI dI) := by
  obtain ⟨r1, r2, r3, r4, r5, r6⟩ := r
  have h2 := neg_two_enc
  unfold psi psiI
  constructor <;> dsimp only <;> enc

def bigDeltaI (B a : Iv) (h : HI) (dI : Iv) : HI :=
  let dd := (dI - .rat 1) ^ 2
  let Delta := h.f * h.f + B * .exp (.log dd * a)
  let Delta_d := .rat 2 * (h.f * h.fD + a * (Delta - h.f * h.f) / (dI - .rat 1))
  let Delta_dd := .rat 2 * (h.fD * h.fD + h.f * h.fDD + a * ((Delta_d - .rat 2 * h.f * h.fD) / (dI - .rat 1) - (Delta - h.f * h.f) / (dI - .rat 1) ^ 2))
  { f := Delta, fD := Delta_d, fT := .rat (-2) * h.f, fDD := Delta_dd, fTT := .rat 2, fTD := .rat (-2) * h.fD
    fDDD := .rat 2 * (.rat 3 * h.fD * h.fDD + h.f * h.fDDD + a * ((Delta_dd - .rat 2 * h.fD * h.fD - .rat 2 * h.f * h.fDD) / (dI - .rat 1)
      - .rat 2 * (Delta_d - .rat 2 * h.f * h.fD) / (dI - .rat 1) ^ 2 + .rat 2 * (Delta - h.f * h.f) / (dI - .rat 1) ^ 3))
    fTDD := .rat (-2) * h.fDD }

lemma bigDelta_enc (h1 : delta ≠ 1) (r : Red tau delta tI dI lt ld) {B a : ℝ} {bI aI : Iv} (hb : Enc B bI) (ha : Enc a aI) {h : Helm} {k : HI} (hk : HI.Enc h k) :
    HI.Enc (bigDelta B a h delta) (bigDeltaI bI aI k dI) := by
  obtain ⟨r1, r2, r3, r4, r5, r6⟩ := r
  obtain ⟨k1, k2, k3, k4, k5, k6, k7, k8⟩ := hk
  have hp : 0 < (delta - 1) ^ 2 := by have := sub_ne_zero.mpr h1; positivity
  have hd : Enc ((delta - 1) ^ 2) ((dI - .rat 1) ^ 2) := by enc
  have hl := hd.log
  have h2 : Enc (((delta - 1) ^ 2) ^ a) _ := Enc.rpow hp hl ha
  have h3 := neg_two_enc
  unfold bigDelta bigDeltaI
  constructor <;> dsimp only <;> enc

def deltaPowI (b : Iv) (D : HI) : HI :=
  let p := .exp (.log D.f * b)
  { f := p
    fD := b * D.fD / D.f * p
    fT := b * D.fT / D.f * p
    fDD := (b * D.fDD / D.f + b * (b - .rat 1) * (D.fD / D.f) ^ 2) * p
    fTT := (b * D.fTT / D.f + b * (b - .rat 1) * (D.fT / D.f) ^ 2) * p
    fTD := (b * D.fTD / D.f + b * (b - .rat 1) * D.fD * D.fT / D.f / D.f) * p
    fDDD := (b * D.fDDD / D.f + .rat 3 * b * (b - .rat 1) * D.fD * D.fDD / D.f / D.f + b * (b - .rat 1) * (b - .rat 2) * (D.fD / D.f) ^ 3) * p
    fTDD := (b * D.fTDD / D.f + b * (b - .rat 1) * (D.fT * D.fDD + .rat 2 * D.fD * D.fTD) / D.f / D.f + b * (b - .rat 1) * (b - .rat 2) * D.fD * D.fD * D.fT / D.f ^ 3) * p }

lemma deltaPow_enc {b : ℝ} {bI : Iv} (hb : Enc b bI) {h : Helm} {k : HI} (h0 : 0 < h.f) (hk : HI.Enc h k) : HI.Enc (deltaPow b h) (deltaPowI bI k) := by
  obtain ⟨k1, k2, k3, k4, k5, k6, k7, k8⟩ := hk
  have hl := k1.log
  have h2 : Enc (h.f ^ b) _ := Enc.rpow h0 hl hb
  unfold deltaPow deltaPowI
  constructor <;> dsimp only <;> enc

def productI (n dI : Iv) (p q : HI) : HI where
  f := n * p.f * dI * q.f
  fD := n * (p.f * (q.f + dI * q.fD) + p.fD * dI * q.f)
  fT := n * dI * (p.fT * q.f + p.f * q.fT)
  fDD := n * (p.f * (.rat 2 * q.fD + dI * q.fDD) + .rat 2 * p.fD * (q.f + dI * q.fD) + p.fDD * dI * q.f)
  fTT := n * dI * (p.fTT * q.f + .rat 2 * p.fT * q.fT + p.f * q.fTT)
  fTD := n * (p.f * (q.fT + dI * q.fTD) + dI * p.fD * q.fT + p.fT * (q.f + dI * q.fD) + p.fTD * dI * q.f)
  fDDD := n * (p.fDDD * dI * q.f + .rat 3 * p.fDD * (q.f + dI * q.fD) + .rat 3 * p.fD * (.rat 2 * q.fD + dI * q.fDD) + p.f * (.rat 3 * q.fDD + dI * q.fDDD))
  fTDD := n * (p.fTDD * dI * q.f + .rat 2 * p.fTD * (q.f + dI * q.fD) + p.fDD * dI * q.fT + p.fT * (.rat 2 * q.fD + dI * q.fDD) + .rat 2 * p.fD * (q.fT + dI * q.fTD) + p.f * (.rat 2 * q.fTD + dI * q.fTDD))

lemma product_enc {n : ℝ} {nI : Iv} (hn : Enc n nI) (hd : Enc delta dI) {p q : Helm} {a b : HI} (ha : HI.Enc p a) (hb : HI.Enc q b) :
    HI.Enc (product n delta p q) (productI nI dI a b) := by
  obtain ⟨k1, k2, k3, k4, k5, k6, k7, k8⟩ := ha
  obtain ⟨l1, l2, l3, l4, l5, l6, l7, l8⟩ := hb
  unfold product productI
  constructor <;> dsimp only <;> enc

def termDI (n a b A B C F E tI dI : Iv) : HI := productI n dI (deltaPowI b (bigDeltaI B a (thetaI A E tI dI) dI)) (psiI C F tI dI)

lemma bigDeltaF_pos {B a A E : ℝ} (hB : 0 < B) (h1 : delta ≠ 1) : 0 < (bigDelta B a (theta A E tau delta) delta).f := by
  have hp : 0 < (delta - 1) ^ 2 := by have := sub_ne_zero.mpr h1; positivity
  have := Real.rpow_pos_of_pos hp a
  show 0 < (theta A E tau delta).f * (theta A E tau delta).f + B * ((delta - 1) ^ 2) ^ a
  have := mul_self_nonneg (theta A E tau delta).f
  positivity

lemma termD_enc (h1 : delta ≠ 1) (r : Red tau delta tI dI lt ld) {n a b A B C F E : ℝ} {nI aI bI AI BI CI FI EI : Iv} (hB : 0 < B)
    (k1 : Enc n nI) (k2 : Enc a aI) (k3 : Enc b bI) (k4 : Enc A AI) (k5 : Enc B BI) (k6 : Enc C CI) (k7 : Enc F FI) (k8 : Enc E EI) :
    HI.Enc (termD n a b A B C F E tau delta) (termDI nI aI bI AI BI CI FI EI tI dI) :=
  product_enc k1 r.d (deltaPow_enc k3 (bigDeltaF_pos hB h1) (bigDelta_enc h1 r k5 k2 (theta_enc h1 r k4 k8))) (psi_enc r k6 k7)

/-! ### The residual part -/

def sumI (l : List HI) : HI := l.foldl addI zeroI

lemma foldl_add_enc {ι : Type*} (l : List ι) (f : ι → Helm) (g : ι → HI) (h : ∀ i ∈ l, HI.Enc (f i) (g i)) {s : Helm} {u : HI} (hs : HI.Enc s u) :
    HI.Enc ((l.map f).foldl add s) ((l.map g).foldl addI u) := by
  induction l generalizing s u with
  | nil => exact hs
  | cons i l ih => exact ih (fun j hj => h j (List.mem_cons_of_mem _ hj)) (add_enc hs (h i List.mem_cons_self))

def partA (k : Coef) (tI dI lt ld : Iv) (u : HI) : HI :=
  (((List.range 7).map (· + 1)).map (fun i => termAI (elI k.n i) (elI k.d i) (elI k.t i) tI dI lt ld)).foldl addI u

/-- The terms `m` to `m + l - 1` of the second sum. -/
def partB (k : Coef) (m l : ℕ) (tI dI lt ld : Iv) (u : HI) : HI :=
  (((List.range l).map (· + m)).map (fun i => termBI (elI k.n i) (elI k.d i) (elI k.t i) (elI k.c i) tI dI lt ld)).foldl addI u

def partC (k : Coef) (tI dI lt ld : Iv) (u : HI) : HI :=
  (((List.range 3).map (· + 52)).map (fun i => termCI (elI k.n i) (elI k.d i) (elI k.t i) (elI k.alpha (i - 52)) (elI k.beta (i - 52)) (elI k.gamma (i - 52))
    (elI k.epsilon (i - 52)) tI dI lt ld)).foldl addI u

def partD (k : Coef) (tI dI : Iv) (u : HI) : HI :=
  (((List.range 2).map (· + 55)).map (fun i => termDI (elI k.n i) (elI k.a (i - 55)) (elI k.b (i - 55)) (elI k.A (i - 55)) (elI k.B (i - 55)) (elI k.C (i - 55))
    (elI k.F (i - 55)) (elI k.E (i - 55)) tI dI)).foldl addI u

lemma range_add_split (m a b : ℕ) : (List.range (a + b)).map (· + m) = (List.range a).map (· + m) ++ (List.range b).map (· + (m + a)) := by
  rw [List.range_add, List.map_append, List.map_map]
  congr 1
  exact List.map_congr_left fun i _ => by simp only [Function.comp]; omega

/-- The residual part, in four parts of the second sum so that each can be evaluated on its own. -/
lemma residual_enc (k : Coef) (hB : 0 < el k.B 0 ∧ 0 < el k.B 1) (h1 : delta ≠ 1) (r : Red tau delta tI dI lt ld) :
    HI.Enc (residual k tau delta) (partD k tI dI (partC k tI dI lt ld (partB k 41 11 tI dI lt ld (partB k 30 11 tI dI lt ld
      (partB k 19 11 tI dI lt ld (partB k 8 11 tI dI lt ld (partA k tI dI lt ld zeroI))))))) := by
  have e : (List.range 44).map (· + 8) = (List.range 11).map (· + 8) ++ (List.range 11).map (· + 19) ++ (List.range 11).map (· + 30) ++
      (List.range 11).map (· + 41) := by decide
  unfold residual sum
  simp only
  rw [e]
  simp only [List.map_append (f := fun i => termB _ _ _ _ _ _), List.foldl_append]
  have en := elI_enc k.n
  have ed := elI_enc k.d
  have et := elI_enc k.t
  have ec := elI_enc k.c
  refine foldl_add_enc _ _ _ (fun i hi => ?_) (foldl_add_enc _ _ _ (fun i _ => ?_) (foldl_add_enc _ _ _ (fun i _ => ?_) (foldl_add_enc _ _ _ (fun i _ => ?_)
    (foldl_add_enc _ _ _ (fun i _ => ?_) (foldl_add_enc _ _ _ (fun i _ => ?_) (foldl_add_enc _ _ _ (fun i _ => ?_) zero_enc))))))
  · refine termD_enc h1 r ?_ (en i) (elI_enc _ _) (elI_enc _ _) (elI_enc _ _) (elI_enc _ _) (elI_enc _ _) (elI_enc _ _) (elI_enc _ _)
    have : i = 55 ∨ i = 56 := by simp [List.range_succ] at hi; omega
    rcases this with rfl | rfl
    · exact hB.1
    · exact hB.2
  · exact termC_enc r (en i) (ed i) (et i) (elI_enc _ _) (elI_enc _ _) (elI_enc _ _) (elI_enc _ _)
  · exact termB_enc r (en i) (ed i) (et i) (ec i)
  · exact termB_enc r (en i) (ed i) (et i) (ec i)
  · exact termB_enc r (en i) (ed i) (et i) (ec i)
  · exact termB_enc r (en i) (ed i) (et i) (ec i)
  · exact termA_enc r (en i) (ed i) (et i)

/-! ### The ideal part -/

def idealStepI (k : Coef) (tI : Iv) (u : HI) (i : ℕ) : HI :=
  let ee := .exp (elI k.gammao (i - 4) * tI)
  { u with
    f := u.f + elI k.no i * .log (.rat 1 - .rat 1 / ee)
    fT := u.fT + elI k.no i * (elI k.gammao (i - 4) / (ee - .rat 1))
    fTT := u.fTT - elI k.no i * ee * (elI k.gammao (i - 4) / (ee - .rat 1)) ^ 2 }

def idealI (k : Coef) (tI dI lt ld : Iv) : HI :=
  ((List.range 5).map (· + 4)).foldl (idealStepI k tI)
    { f := ld + elI k.no 1 + elI k.no 2 * tI + elI k.no 3 * lt
      fD := .rat 1 / dI
      fT := elI k.no 2 + elI k.no 3 / tI
      fDD := .rat (-1) / dI ^ 2
      fTT := -elI k.no 3 / tI ^ 2
      fTD := .rat 0
      fDDD := .rat 2 / dI ^ 3
      fTDD := .rat 0 }

lemma foldl_enc {σ τ ι : Type*} (R : σ → τ → Prop) (l : List ι) (f : σ → ι → σ) (k : τ → ι → τ) (hs : ∀ i s u, R s u → R (f s i) (k u i))
    {s : σ} {u : τ} (h : R s u) : R (l.foldl f s) (l.foldl k u) := by
  induction l generalizing s u with
  | nil => exact h
  | cons i l ih => exact ih (hs i s u h)

lemma ideal_enc (k : Coef) (r : Red tau delta tI dI lt ld) : HI.Enc (ideal k tau delta) (idealI k tI dI lt ld) := by
  obtain ⟨r1, r2, r3, r4, r5, r6⟩ := r
  have h1 := elI_enc k.no
  have h2 := elI_enc k.gammao
  have h3 : Enc (-1) (.rat (-1)) := Enc.lit _ (by norm_num)
  unfold ideal idealI
  refine foldl_enc HI.Enc _ _ _ (fun i s u h => ?_) ?_
  · obtain ⟨k1, k2, k3, k4, k5, k6, k7, k8⟩ := h
    have n1 := h1 i
    have n2 := h2 (i - 4)
    unfold idealStepI
    constructor <;> dsimp only <;> enc
  · have n1 := h1 1
    have n2 := h1 2
    have n3 := h1 3
    constructor <;> dsimp only <;> enc

end WP

end ThermoFun

import Verif.Lemmas.GemsFlowIv

/-! Enclosures at 298.15 K: the saturation curve and the densities at 10 MPa.  Numbers found by evaluation, checked by the kernel step by step. -/

namespace ThermoFun

namespace Gems

lemma corrI_of {t p dL dV gl gv v g : Iv} {l w : DenI} (h1 : Iv.sel (dL.le (.rat 0)) (Iv.lt (.rat 0) dL) (.rat 1.11 - .rat 0.0004 * t) dL = gl)
    (h2 : Iv.sel (dV.le (.rat 0)) (Iv.lt (.rat 0) dV) (p / (gasconI * t)) dV = gv) (h3 : denHGKI p gl t = some l) (h4 : denHGKI p gv t = some w)
    (h5 : Iv.sel (w.d.lt (.rat 5e-7)) (Iv.le (.rat 5e-7) w.d) (.rat 5e-7) w.d = v) (h6 : gnI t l.d l.e - gnI t v w.e = g) :
    corrI t p dL dV = some ⟨l.d, v, g⟩ := by
  unfold corrI
  rw [h1, h2, h3, h4]
  simp only [Iv.force_eq, h5, h6]

lemma pcorrI_of {t ps p l v g : Iv} (h1 : psI t = ps) (h2 : corrI t ps (.rat 0) (.rat 0) = some ⟨l, v, g⟩)
    (h3 : (Iv.lt (.rat 1e-4) g || g.lt (.rat (-1e-4))) = false) (h4 : (g.le (.rat 1e-4) && Iv.le (.rat (-1e-4)) g) = true)
    (h5 : ps + g * gasconI * t / (.rat 1 / v - .rat 1 / l) = p) : pcorrI 1 t = some ⟨p, l, v⟩ := by
  unfold pcorrI pcorrLoopI
  rw [h1]
  simp only [h2, h3, h4, h5, if_true, Bool.false_eq_true, if_false]

namespace K298

deriving instance DecidableEq for Iv
deriving instance DecidableEq for DenI
deriving instance DecidableEq for CorrI
deriving instance DecidableEq for SatI

def t : Iv := .rat 298.15
/-- `PsHGK` at 298.15 K -/
def ps : Iv := ⟨31687373347492894499350567859224641310739277033116207819435184771821501161479804996423075041772917643442907471315487237105095581, 31687373347492894499350567859224641310739277033116207819435184771821501161479804996423075041772917643442907471315487237861925322, true⟩
/-- The guess of the liquid. -/
def gl : Iv := ⟨9907400000000000000000000000000000000000000000000000000000000000000000000000000000000000000000000000000000000000000000000000000000, 9907400000000000000000000000000000000000000000000000000000000000000000000000000000000000000000000000000000000000000000000000000000, true⟩
/-- The guess of the vapour. -/
def gv : Iv := ⟨230281483828179300143351589574082777558588086165028332347742942958905673549512653258303836819767880550385835988607152312579299, 230281483828179300143351589574082777558588086165028332347742942958905673549512653258303836819767880550385835988607152318079405, true⟩
/-- The density of the liquid. -/
def l : Iv := ⟨9970177022355890866749036435446176111594734585117246289228625674346079617596090378370534151239193770719901437530305923303741458161, 9970177022355890866749036435446176111594734585117246289228625674346079617596316293447153463637661776111523454374664864368162839114, true⟩
/-- The density of the vapour. -/
def v : Iv := ⟨230622525377921781087011834397551820277464917666359921242158060789545823767092443106240856277485559326796770300307223441235133, 230622525377921781087011834397551820277464917666359921242158060789545823767092443106240856277485559326796770300307223841602377, true⟩
/-- The difference of the Gibbs energies. -/
def g : Iv := ⟨982688218412884197510312364760710403156537985143589079520271053286910905857584468930235680587553545141748198431742566590430133, 982688218412884197510312364760710403156537985143589079520271053287295561209084760209802534461388764329200422551542030995517239, true⟩
/-- The saturation pressure. -/
def p : Iv := ⟨31690491912060743215575187687246831968644171802330722264902226989588311228438341592950191904488511890347026367985346990155757247, 31690491912060743215575187687246831968644171802330722264902226989588312449143472218820441595449016612033027538999781809676854675, true⟩
/-- The density at 10 MPa. -/
def b : Iv := ⟨10014754048439794400899221679783093742380854992573817046088294720291415372642779917478498436153058831081175069236801392584158223436, 10014754048439794400899221679783093742380854992584049070716958324893780468789581289062979235876627208033649401373698273155270285741, true⟩
/-- The density left by the search for vapour at 10 MPa. -/
def cd : Iv := ⟨539810604350877482375928624554432660318408860718673159916466791443499239486048715196589352198831585430768820523146341935240958212, 539810604350877482375928624554432660318408860718673159916466791443499239486048715196589352198831585430768820523146511384447308023, true⟩
/-- The density evaluated last in the search for vapour at 10 MPa. -/
def ce : Iv := ⟨550827147296813757526457780157584347263682510937421591751496725962754326006172158363866685917175087174253898493006471362490773686, 550827147296813757526457780157584347263682510937421591751496725962754326006172158363866685917175087174253898493006644269844191860, true⟩

lemma ps_eq : psI t = ps := by decide +kernel
lemma gl_eq : Iv.sel (Iv.le (.rat 0) (.rat 0)) (Iv.lt (.rat 0) (.rat 0)) (.rat 1.11 - .rat 0.0004 * t) (.rat 0) = gl := by decide +kernel
lemma gv_eq : Iv.sel (Iv.le (.rat 0) (.rat 0)) (Iv.lt (.rat 0) (.rat 0)) (ps / (gasconI * t)) (.rat 0) = gv := by decide +kernel
lemma l_eq : denHGKI ps gl t = some ⟨l, l, true⟩ := by decide +kernel
lemma v_eq : denHGKI ps gv t = some ⟨v, v, true⟩ := by decide +kernel
lemma g_eq : gnI t l l - gnI t v v = g := by decide +kernel
lemma v_sel : Iv.sel (v.lt (.rat 5e-7)) (Iv.le (.rat 5e-7) v) (.rat 5e-7) v = v := by decide +kernel
lemma corr_eq : corrI t ps (.rat 0) (.rat 0) = some ⟨l, v, g⟩ := corrI_of gl_eq gv_eq l_eq v_eq v_sel g_eq
lemma pcorr_eq : pcorrI 1 t = some ⟨p, l, v⟩ := pcorrI_of ps_eq corr_eq (by decide +kernel) (by decide +kernel) (by decide +kernel)
lemma b_eq : denHGKI (.rat 10) l t = some ⟨b, b, true⟩ := by decide +kernel
lemma c_eq : denHGKI (.rat 10) (.rat 0) t = some ⟨cd, ce, false⟩ := by decide +kernel

end K298

end Gems

end ThermoFun

import Verif.Model.Json
import Verif.Props.Units

/-! Facts about the reading of records used by the property theorems. -/

namespace ThermoFun.Js

open Units in
/-- Converting to the same unit gives the value back, for units that can be read. -/
lemma convert_same {l : List (Sym × Int)} {d : Dims} {u : Sym} (h1 : parseUnit u = .ok l) (h2 : dimList l = .ok d) (x : ℝ) :
    Units.convert x u u = .ok x := by
  by_cases hu : isTemp u = true
  · obtain ⟨n, hn, rfl⟩ := (C14_scales u).mp hu
    exact C14_exact n n hn hn x x rfl
  · have hu : isTemp u = false := by simpa using hu
    exact C12_identity (convert_of (by simp [hu]) h1 h1 h2 h2 (sameDim_refl _) 0) x

open Units in
/-- The unit text can be read: decided by computation. -/
def readable (u : String) : Bool :=
  match parseUnit u.toList with
  | .ok l => match dimList l with
    | .ok _ => true
    | _ => false
  | _ => false

lemma convert_readable {u : String} (h : readable u = true) (x : ℝ) : convert x u u = .ok x := by
  unfold readable at h
  cases h1 : Units.parseUnit u.toList with
  | ok l =>
    rw [h1] at h
    cases h2 : Units.dimList l with
    | ok d => simp only [convert, convert_same h1 h2 x, ofRes]
    | throw => simp [h2] at h
    | ub => simp [h2] at h
  | throw => rw [h1] at h; simp at h
  | ub => rw [h1] at h; simp at h

example : readable "J/(mol*K)" = true := by decide +kernel

lemma exec_ok {σ : Type} {f : Step σ} {s t : σ} {l : List (Step σ)} (h : f s = .ok t) : exec (f :: l) s = exec l t := by
  simp only [exec, h]

lemma exec_fail {σ : Type} {f : Step σ} {s : σ} {e : Err} {l : List (Step σ)} (h : f s = .error e) : exec (f :: l) s = (s, some e) := by
  simp only [exec, h]

end ThermoFun.Js

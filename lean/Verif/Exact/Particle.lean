import Verif.ParticleLemmas
import Verif.Exact.XR
import Verif.Spec.Minkowski
import Mathlib.Analysis.Complex.Trigonometric
import Mathlib.Tactic.LinearCombination
import Mathlib.Tactic.Linarith
import Mathlib.Tactic.FieldSimp
import Mathlib.LinearAlgebra.Matrix.Notation

/-! Evaluation of the particle model in the exact instance. -/

namespace Spinas

open Complex XR

/-- a real four-vector as finite numbers of the exact instance -/
noncomputable def V4.toX (p : V4 ℝ) : V4 XR := ⟨.fin p.t, .fin p.x, .fin p.y, .fin p.z⟩

/-- |p| -/
noncomputable def V4.mag (p : V4 ℝ) : ℝ := Real.sqrt (p.x * p.x + p.y * p.y + p.z * p.z)
/-- transverse momentum -/
noncomputable def V4.tr (p : V4 ℝ) : ℝ := Real.sqrt (p.x * p.x + p.y * p.y)

theorem V4.mag_nonneg (p : V4 ℝ) : 0 ≤ p.mag := Real.sqrt_nonneg _
theorem V4.tr_nonneg (p : V4 ℝ) : 0 ≤ p.tr := Real.sqrt_nonneg _
theorem V4.tr_mul_self (p : V4 ℝ) : p.tr * p.tr = p.x * p.x + p.y * p.y :=
  Real.mul_self_sqrt (by nlinarith [mul_self_nonneg p.x, mul_self_nonneg p.y])
theorem V4.mag_mul_self (p : V4 ℝ) : p.mag * p.mag = p.x * p.x + p.y * p.y + p.z * p.z :=
  Real.mul_self_sqrt (by nlinarith [mul_self_nonneg p.x, mul_self_nonneg p.y, mul_self_nonneg p.z])
theorem V4.mag_eq (p : V4 ℝ) : p.mag = Real.sqrt (p.tr * p.tr + p.z * p.z) := by
  rw [V4.tr_mul_self]; rfl

/-- `sqrt(x^2+y^2) cos(atan2 y x) = x` -/
theorem ratan2_cos [FPEnv] (x y : ℝ) : Real.sqrt (x * x + y * y) * Real.cos (ratan2 y x) = x := by
  unfold ratan2
  split_ifs with h
  · obtain ⟨rfl, rfl⟩ := h; simp
  · have := Complex.norm_mul_cos_arg ⟨x, y⟩
    rwa [Complex.norm_def, Complex.normSq_apply] at this

theorem ratan2_sin [FPEnv] (x y : ℝ) : Real.sqrt (x * x + y * y) * Real.sin (ratan2 y x) = y := by
  unfold ratan2
  split_ifs with h
  · obtain ⟨rfl, rfl⟩ := h; simp
  · have := Complex.norm_mul_sin_arg ⟨x, y⟩
    rwa [Complex.norm_def, Complex.normSq_apply] at this

theorem ratan2_nonneg [FPEnv] {x y : ℝ} (h : 0 ≤ y) : 0 ≤ ratan2 y x := by
  unfold ratan2
  split_ifs
  · exact FPEnv.atan00_nonneg
  · exact Complex.arg_nonneg_iff.mpr h

theorem ratan2_le [FPEnv] (x y : ℝ) : ratan2 y x ≤ Real.pi := by
  unfold ratan2
  split_ifs
  · exact FPEnv.atan00_le
  · exact Complex.arg_le_pi _

section
variable [FPEnv]

/-- polar angle -/
noncomputable def V4.th (p : V4 ℝ) : ℝ := ratan2 p.tr p.z
/-- azimuth -/
noncomputable def V4.ph (p : V4 ℝ) : ℝ := ratan2 p.y p.x
noncomputable def V4.ch (p : V4 ℝ) : ℝ := Real.cos (p.th / 2)
noncomputable def V4.sh (p : V4 ℝ) : ℝ := Real.sin (p.th / 2)
/-- the phase `exp(i phi)` -/
noncomputable def V4.ei (p : V4 ℝ) : ℂ := Complex.exp (p.ph * Complex.I)
/-- `s = sin(theta/2) exp(i phi)` -/
noncomputable def V4.s (p : V4 ℝ) : ℂ := p.sh * p.ei

theorem V4.th_nonneg (p : V4 ℝ) : 0 ≤ p.th := ratan2_nonneg p.tr_nonneg
theorem V4.th_le (p : V4 ℝ) : p.th ≤ Real.pi := ratan2_le _ _
theorem V4.sh_nonneg (p : V4 ℝ) : 0 ≤ p.sh :=
  Real.sin_nonneg_of_nonneg_of_le_pi (by have := p.th_nonneg; linarith) (by have := p.th_le; have := Real.pi_pos; linarith)
theorem V4.ch_nonneg (p : V4 ℝ) : 0 ≤ p.ch :=
  Real.cos_nonneg_of_mem_Icc ⟨by have := p.th_nonneg; have := Real.pi_pos; linarith, by have := p.th_le; linarith⟩
theorem V4.ch_sh (p : V4 ℝ) : p.ch * p.ch + p.sh * p.sh = 1 := by
  have := Real.cos_sq_add_sin_sq (p.th / 2); unfold V4.ch V4.sh; nlinarith
theorem V4.cos_th (p : V4 ℝ) : Real.cos p.th = p.ch * p.ch - p.sh * p.sh := by
  have h : p.th = 2 * (p.th / 2) := by ring
  rw [h, Real.cos_two_mul]
  have := p.ch_sh
  unfold V4.ch V4.sh at *
  nlinarith
theorem V4.sin_th (p : V4 ℝ) : Real.sin p.th = 2 * p.ch * p.sh := by
  have h : p.th = 2 * (p.th / 2) := by ring
  rw [h, Real.sin_two_mul]
  unfold V4.ch V4.sh
  ring
theorem V4.mag_cos (p : V4 ℝ) : p.mag * (p.ch * p.ch - p.sh * p.sh) = p.z := by
  rw [← V4.cos_th, V4.mag_eq, add_comm]; exact ratan2_cos _ _
theorem V4.mag_sin (p : V4 ℝ) : p.mag * (2 * p.ch * p.sh) = p.tr := by
  rw [← V4.sin_th, V4.mag_eq, add_comm]; exact ratan2_sin _ _
theorem V4.tr_cos_ph (p : V4 ℝ) : p.tr * Real.cos p.ph = p.x := ratan2_cos _ _
theorem V4.tr_sin_ph (p : V4 ℝ) : p.tr * Real.sin p.ph = p.y := ratan2_sin _ _
theorem V4.ei_re (p : V4 ℝ) : p.ei.re = Real.cos p.ph := Complex.exp_ofReal_mul_I_re _
theorem V4.ei_im (p : V4 ℝ) : p.ei.im = Real.sin p.ph := Complex.exp_ofReal_mul_I_im _
theorem V4.tr_ei (p : V4 ℝ) : (p.tr : ℂ) * p.ei = p.x + p.y * Complex.I := by
  apply Complex.ext
  · simp [V4.ei_re, V4.tr_cos_ph]
  · simp [V4.ei_im, V4.tr_sin_ph]
theorem V4.ei_conj (p : V4 ℝ) : (starRingEnd ℂ) p.ei = Complex.exp (-p.ph * Complex.I) := by
  unfold V4.ei
  rw [← Complex.exp_conj]; simp
theorem V4.ei_mul_conj (p : V4 ℝ) : p.ei * (starRingEnd ℂ) p.ei = 1 := by
  rw [V4.ei_conj, V4.ei, ← Complex.exp_add]; simp
theorem V4.tr_ei_conj (p : V4 ℝ) : (p.tr : ℂ) * (starRingEnd ℂ) p.ei = p.x - p.y * Complex.I := by
  have := congrArg (starRingEnd ℂ) p.tr_ei
  simpa [sub_eq_add_neg] using this
theorem V4.s_conj (p : V4 ℝ) : (starRingEnd ℂ) p.s = p.sh * (starRingEnd ℂ) p.ei := by simp [V4.s]
theorem V4.s_mul_conj (p : V4 ℝ) : p.s * (starRingEnd ℂ) p.s = p.sh * p.sh := by
  rw [V4.s_conj, V4.s]; linear_combination (p.sh * p.sh : ℂ) * p.ei_mul_conj
theorem V4.ch_s_conj (p : V4 ℝ) : (p.ch : ℂ) * p.ch + p.s * (starRingEnd ℂ) p.s = 1 := by
  rw [V4.s_mul_conj]; exact_mod_cast p.ch_sh
/-- `|p| (2 c s) = px + i py` -/
theorem V4.mag_cs (p : V4 ℝ) : (p.mag : ℂ) * (2 * p.ch * p.s) = p.x + p.y * Complex.I := by
  have h : (p.mag : ℂ) * (2 * p.ch * p.sh) = p.tr := by exact_mod_cast p.mag_sin
  rw [← V4.tr_ei, V4.s]; linear_combination p.ei * h
theorem V4.mag_cs_conj (p : V4 ℝ) : (p.mag : ℂ) * (2 * p.ch * (starRingEnd ℂ) p.s) = p.x - p.y * Complex.I := by
  have := congrArg (starRingEnd ℂ) p.mag_cs
  simpa [sub_eq_add_neg, map_ofNat] using this
/-- `|p| (c^2 - |s|^2) = pz` -/
theorem V4.mag_ccss (p : V4 ℝ) : (p.mag : ℂ) * (p.ch * p.ch - p.s * (starRingEnd ℂ) p.s) = p.z := by
  rw [V4.s_mul_conj]; exact_mod_cast p.mag_cos

/-- The kinematic members computed by `update` for a finite momentum with E >= |p|. -/
noncomputable def kinOf (p : V4 ℝ) (m : ℝ) : Kin XR XC :=
  { m := .fin m, p := p.toX, pmag := .fin p.mag, pxymag := .fin p.tr, theta := .fin p.th, phi := .fin p.ph
    c := ofC p.ch, s := ofC p.s, sc := ofC ((starRingEnd ℂ) p.s)
    sqrtEpP := ofC (Real.sqrt (p.t + p.mag)), sqrtEmP := ofC (Real.sqrt (p.t - p.mag)) }

theorem withMags_fin (k : Kin XR XC) (p : V4 ℝ) (h : k.p = p.toX) :
    k.withMags = { k with pxymag := .fin p.tr, pmag := .fin p.mag } := by
  unfold Kin.withMags
  simp only [h, V4.toX, fin_mul, fin_add]
  rw [s_sqrt (by nlinarith [mul_self_nonneg p.x, mul_self_nonneg p.y])]
  simp only [fin_mul, fin_add]
  rw [s_sqrt (by nlinarith [mul_self_nonneg p.z, mul_self_nonneg (Real.sqrt (p.x * p.x + p.y * p.y))])]
  rw [V4.mag_eq]; rfl

theorem settle_fin (k : Kin XR XC) (p : V4 ℝ) (m : ℝ) (h : k.p = p.toX) (hm : k.m = .fin m) (hE : p.mag ≤ p.t) :
    k.withMags.withAngles = kinOf p m := by
  have h0 := p.mag_nonneg
  rw [withMags_fin k p h]
  unfold Kin.withAngles kinOf
  simp only [h, hm, V4.toX, fin_add, fin_sub, s_atan2, s_int, Int.cast_ofNat, fin_div_two, s_cos, s_sin, c_polar, c_conj,
    Int.cast_zero, c_cart_zero]
  rw [s_sqrt (by linarith), s_sqrt (by linarith)]
  rfl

/-- The tolerance of the mass-shell check. -/
noncomputable def shellTol : ℝ := FPEnv.eps * 1000000000

theorem shellTol_pos : 0 < shellTol := mul_pos FPEnv.eps_pos (by norm_num)

theorem offShell_fin (k : Kin XR XC) (p : V4 ℝ) (m : ℝ) (h : k.p = p.toX) (hm : k.m = .fin m) :
    k.withMags.offShell = decide (shellTol < |p.t * p.t - p.mag * p.mag - m * m|) := by
  rw [withMags_fin k p h]
  unfold Kin.offShell shellTol
  simp [h, hm, V4.toX]

end

/-- matrices and vectors of complex numbers as finite values of the exact instance -/
noncomputable def XM (M : Matrix (Fin 2) (Fin 2) ℂ) : CMat XC := ⟨ofC (M 0 0), ofC (M 0 1), ofC (M 1 0), ofC (M 1 1)⟩
noncomputable def XV (v : Fin 2 → ℂ) : CVec XC := ⟨ofC (v 0), ofC (v 1)⟩

/-! Acceptance of on-shell momenta. -/

section
variable [FPEnv]

omit [FPEnv] in
theorem sq_eq (p : V4 ℝ) : Spec.msq p = p.t * p.t - p.mag * p.mag := by
  rw [V4.mag_mul_self]; unfold Spec.msq; ring

omit [FPEnv] in
theorem Spec.OnShell.mag_le {p : V4 ℝ} {m : ℝ} (h : Spec.OnShell p m) : p.mag ≤ p.t := by
  have h1 := h.shell
  have h2 := p.mag_mul_self
  exact abs_le_of_sq_le_sq' (by nlinarith [sq_nonneg m]) h.energy |>.2

theorem update_fin (P : Particle XR XC) (p : V4 ℝ) (m : ℝ) (hp : P.kin.p = p.toX) (hm : P.kin.m = .fin m) :
    (shellTol < |Spec.msq p - m ^ 2| → (Particle.update P).1 = .throw .massShell) ∧
    (|Spec.msq p - m ^ 2| ≤ shellTol → (Particle.update P).1 = .ok ()) := by
  have h := offShell_fin P.kin p m hp hm
  have e : p.t * p.t - p.mag * p.mag - m * m = Spec.msq p - m ^ 2 := by rw [sq_eq]; ring
  rw [e] at h
  constructor
  · intro hl
    simp [Particle.update, h, hl]
  · intro hl
    simp [Particle.update, h, not_lt.mpr hl]

theorem update_kin (P : Particle XR XC) (p : V4 ℝ) (m : ℝ) (hp : P.kin.p = p.toX) (hm : P.kin.m = .fin m)
    (hE : p.mag ≤ p.t) (hok : (Particle.update P).1 = .ok ()) : (Particle.update P).2.kin = kinOf p m := by
  rw [← settle_fin P.kin p m hp hm hE]
  unfold Particle.update at *
  dsimp only at *
  split at hok
  · cases hok
  · rename_i h; rw [if_neg h]; rfl

theorem ctorPM_fst (junk : Kin XR XC) (p : V4 ℝ) (m : ℝ) :
    (Particle.ctorPM junk p.toX (.fin m)).1 = if |Spec.msq p - m ^ 2| ≤ shellTol then .ok () else .throw .massShell := by
  have h := update_fin (Particle.noCaches { Particle.rawKin junk with m := .fin m, p := p.toX } true true false false false)
    p m rfl rfl
  unfold Particle.ctorPM
  split_ifs with hc
  · exact h.2 hc
  · exact h.1 (not_le.mp hc)

theorem Spec.OnShell.accept {p : V4 ℝ} {m : ℝ} (h : Spec.OnShell p m) : |Spec.msq p - m ^ 2| ≤ shellTol := by
  have : Spec.msq p - m ^ 2 = 0 := by have := h.shell; unfold Spec.msq; linarith
  rw [this, abs_zero]; exact shellTol_pos.le

theorem ctorPM_onShell (junk : Kin XR XC) {p : V4 ℝ} {m : ℝ} (h : Spec.OnShell p m) :
    (Particle.ctorPM junk p.toX (.fin m)).1 = .ok () := by
  rw [ctorPM_fst, if_pos h.accept]

end

end Spinas

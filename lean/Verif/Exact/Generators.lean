import Verif.Exact.Spinors
import Verif.Exact.Algebra

/-! Values of the generators in the exact instance. -/

namespace Spinas
open Spec Props XR Matrix

variable [FPEnv]

noncomputable def V4.eb (p : V4 ℝ) : ℂ := (starRingEnd ℂ) p.ei

/-- the generators without the prefactor 1/2 sqrt((E-+p)/(E+-p)) -/
noncomputable def lorShape (p : V4 ℝ) : Br → JAxis → M2
  | .rangle, .j3 => !![-(p.ch * p.ch - p.sh * p.sh) / 2, -(p.ch * p.sh * p.eb); -(p.ch * p.sh * p.ei), (p.ch * p.ch - p.sh * p.sh) / 2]
  | .rsquare, .j3 => !![-(p.ch * p.ch - p.sh * p.sh) / 2, -(p.ch * p.sh * p.eb); -(p.ch * p.sh * p.ei), (p.ch * p.ch - p.sh * p.sh) / 2]
  | .langle, .j3 => !![(p.ch * p.ch - p.sh * p.sh) / 2, p.ch * p.sh * p.ei; p.ch * p.sh * p.eb, -(p.ch * p.ch - p.sh * p.sh) / 2]
  | .lsquare, .j3 => !![(p.ch * p.ch - p.sh * p.sh) / 2, p.ch * p.sh * p.ei; p.ch * p.sh * p.eb, -(p.ch * p.ch - p.sh * p.sh) / 2]
  | .rangle, .jp => !![2 * p.ch * p.sh, 2 * p.sh * p.sh * p.eb; -(2 * p.ch * p.ch * p.ei), -(2 * p.ch * p.sh)]
  | .rsquare, .jp => !![2 * p.ch * p.sh, 2 * p.sh * p.sh * p.eb; -(2 * p.ch * p.ch * p.ei), -(2 * p.ch * p.sh)]
  | .rangle, .jm => !![2 * p.ch * p.sh, -(2 * p.ch * p.ch * p.eb); 2 * p.sh * p.sh * p.ei, -(2 * p.ch * p.sh)]
  | .rsquare, .jm => !![2 * p.ch * p.sh, -(2 * p.ch * p.ch * p.eb); 2 * p.sh * p.sh * p.ei, -(2 * p.ch * p.sh)]
  | .langle, .jp => !![-(2 * p.ch * p.sh), 2 * p.ch * p.ch * p.ei; -(2 * p.sh * p.sh * p.eb), 2 * p.ch * p.sh]
  | .lsquare, .jp => !![-(2 * p.ch * p.sh), 2 * p.ch * p.ch * p.ei; -(2 * p.sh * p.sh * p.eb), 2 * p.ch * p.sh]
  | .langle, .jm => !![-(2 * p.ch * p.sh), -(2 * p.sh * p.sh * p.ei); 2 * p.ch * p.ch * p.eb, 2 * p.ch * p.sh]
  | .lsquare, .jm => !![-(2 * p.ch * p.sh), -(2 * p.sh * p.sh * p.ei); 2 * p.ch * p.ch * p.eb, 2 * p.ch * p.sh]

/-- the prefactors, given the two possible values -/
def lorPre (lo hi : ℂ) : Br → JAxis → ℂ
  | _, .j3 => 1
  | .rangle, .jp => lo
  | .langle, .jp => lo
  | .rangle, .jm => hi
  | .langle, .jm => hi
  | .lsquare, .jp => hi
  | .rsquare, .jp => hi
  | .lsquare, .jm => lo
  | .rsquare, .jm => lo

theorem one_add_cos (p : V4 ℝ) : 1 + Real.cos p.th = 2 * p.ch * p.ch := by
  rw [p.cos_th]; have := p.ch_sh; linarith
theorem neg_one_add_cos (p : V4 ℝ) : -1 + Real.cos p.th = -(2 * p.sh * p.sh) := by
  rw [p.cos_th]; have := p.ch_sh; linarith

theorem lorentz_fin (p : V4 ℝ) (m : ℝ) (lo hi : ℝ) (h1 : (kinOf p m).preMinus = .fin lo) (h2 : (kinOf p m).prePlus = .fin hi)
    (b : Br) (j : JAxis) : (kinOf p m).lorentzVal b j = XM (lorPre lo hi b j • lorShape p b j) := by
  have hp : Complex.exp (p.ph * Complex.I) = p.ei := rfl
  have hm : Complex.exp (-(p.ph : ℂ) * Complex.I) = p.eb := by rw [V4.eb, V4.ei_conj]
  have ht : (kinOf p m).theta = .fin p.th := rfl
  have hf : (kinOf p m).phi = .fin p.ph := rfl
  cases b <;> cases j <;>
    simp only [Kin.lorentzVal, h1, h2, Kin.half, s_dec, CMat.mulR, ht, hf, s_cos, s_sin, s_int, Int.cast_one, fin_add, fin_neg,
      c_ofReal, c_smul, c_polar, ofC_neg, Complex.ofReal_neg, hm, hp, one_add_cos, neg_one_add_cos, p.sin_th] <;>
    simp only [XM, lorShape, lorPre, CMat.mk.injEq, ofC_inj, Matrix.smul_apply, Matrix.of_apply, Matrix.cons_val', Matrix.cons_val_zero,
      Matrix.cons_val_one, Matrix.cons_val_fin_one, smul_eq_mul] <;>
    (refine ⟨?_, ?_, ?_, ?_⟩ <;> (try rw [p.cos_th]) <;> push_cast <;> ring)

/-- the spin generators -/
noncomputable def spinMat (p : V4 ℝ) : Bool → JAxis → M2
  | true, .j3 => !![-1 / 2, 0; 0, 1 / 2]
  | true, .jp => !![0, 0; -p.ei, 0]
  | true, .jm => !![0, -p.eb; 0, 0]
  | false, .j3 => !![1 / 2, 0; 0, -1 / 2]
  | false, .jp => !![0, p.ei; 0, 0]
  | false, .jm => !![0, 0; p.eb, 0]

theorem spinGen_fin (p : V4 ℝ) (m : ℝ) (u : Bool) (j : JAxis) : (kinOf p m).spinGenVal u j = XM (spinMat p u j) := by
  have hp : Complex.exp (p.ph * Complex.I) = p.ei := rfl
  have hm : Complex.exp (-(p.ph : ℂ) * Complex.I) = p.eb := by rw [V4.eb, V4.ei_conj]
  cases u <;> cases j <;>
    simp only [Kin.spinGenVal, Kin.half, s_dec, CMat.mulR, kinOf, s_int, Int.cast_one, fin_neg,
      c_ofReal, c_smul, c_polar, c_zero, ofC_neg, Complex.ofReal_neg, hm, hp] <;>
    simp only [XM, spinMat, CMat.mk.injEq, ofC_inj, Matrix.of_apply, Matrix.cons_val', Matrix.cons_val_zero,
      Matrix.cons_val_one, Matrix.cons_val_fin_one] <;>
    (refine ⟨?_, ?_, ?_, ?_⟩ <;> push_cast <;> ring)

theorem a_pos {p : V4 ℝ} {M : ℝ} (h : OnShell p M) (hM : 0 < M) : 0 < p.a := by
  unfold V4.a
  apply Real.sqrt_pos.mpr
  have h1 := h.shell
  have h2 := h.energy
  have h3 := p.mag_nonneg
  have : 0 < p.t := by
    rcases h2.lt_or_eq with h | h
    · exact h
    · rw [← h] at h1; nlinarith [sq_nonneg p.x, sq_nonneg p.y, sq_nonneg p.z]
  linarith

theorem b_pos {p : V4 ℝ} {M : ℝ} (h : OnShell p M) (hM : 0 < M) : 0 < p.b := by
  have h1 := (blocks h hM.le).ab
  have h1 : p.a * p.b = M := by exact_mod_cast h1
  have h2 := a_pos h hM
  by_contra hc
  have : p.a * p.b ≤ 0 := mul_nonpos_of_nonneg_of_nonpos h2.le (not_lt.mp hc)
  linarith

theorem preMinus_fin {p : V4 ℝ} {m M : ℝ} (h : OnShell p M) (hM : 0 < M) (hm : m ≠ 0) :
    (kinOf p m).preMinus = .fin (p.b / p.a / 2) := by
  have ha := a_pos h hM
  have h3 : 0 < p.t + p.mag := by
    by_contra hc
    have : p.a = 0 := Real.sqrt_eq_zero_of_nonpos (not_lt.mp hc)
    linarith
  have h4 : 0 ≤ p.t - p.mag := by have := h.mag_le; linarith
  unfold Kin.preMinus
  simp only [kinOf, V4.toX, s_ne, s_int, Int.cast_zero, hm, decide_false, Bool.not_false, if_true, fin_sub, fin_add, Kin.half, s_dec]
  rw [fin_div h3.ne', s_sqrt (div_nonneg h4 h3.le), fin_mul, Real.sqrt_div h4]
  congr 1
  unfold V4.a V4.b
  norm_num; ring

theorem prePlus_fin {p : V4 ℝ} {m M : ℝ} (h : OnShell p M) (hM : 0 < M) (hm : m ≠ 0) :
    (kinOf p m).prePlus = .fin (p.a / p.b / 2) := by
  have ha := b_pos h hM
  have h3 : 0 < p.t - p.mag := by
    by_contra hc
    have : p.b = 0 := Real.sqrt_eq_zero_of_nonpos (not_lt.mp hc)
    linarith
  have h4 : 0 ≤ p.t + p.mag := by have := p.mag_nonneg; have := h.energy; linarith
  unfold Kin.prePlus
  simp only [kinOf, V4.toX, s_ne, s_int, Int.cast_zero, hm, decide_false, Bool.not_false, if_true, fin_sub, fin_add, Kin.half, s_dec]
  rw [fin_div h3.ne', s_sqrt (div_nonneg h4 h3.le), fin_mul, Real.sqrt_div h4]
  congr 1
  unfold V4.a V4.b
  norm_num; ring

/-- matrix of the two spin spinors -/
noncomputable def svMat (p : V4 ℝ) (b : Br) (u : Bool) : M2 := Matrix.of fun k i => sv p b u (decide (i = 1)) k

theorem lorentz_spin {p : V4 ℝ} (ha : p.a ≠ 0) (hb : p.b ≠ 0) (b : Br) (u : Bool) (j : JAxis) :
    (lorPre ((p.b / p.a / 2 : ℝ) : ℂ) ((p.a / p.b / 2 : ℝ) : ℂ) b j • lorShape p b j) * svMat p b u = svMat p b u * spinMat p u j := by
  have hr : ((p.b / p.a / 2 : ℝ) : ℂ) * p.a = p.b / 2 := by
    have : (p.b / p.a / 2 : ℝ) * p.a = p.b / 2 := by field_simp
    exact_mod_cast this
  have hi : ((p.a / p.b / 2 : ℝ) : ℂ) * p.b = p.a / 2 := by
    have : (p.a / p.b / 2 : ℝ) * p.b = p.a / 2 := by field_simp
    exact_mod_cast this
  have h1 : (p.ch : ℂ) * p.ch + p.sh * p.sh = 1 := by exact_mod_cast p.ch_sh
  have h2 : p.ei * p.eb = 1 := p.ei_mul_conj
  have hs : p.sb = p.sh * p.eb := p.s_conj
  have hs' : p.s = p.sh * p.ei := rfl
  generalize ((p.b / p.a / 2 : ℝ) : ℂ) = r at hr ⊢
  generalize ((p.a / p.b / 2 : ℝ) : ℂ) = q at hi ⊢
  simp only [svMat]
  cases b <;> cases u <;> cases j <;> simp only [lorPre, lorShape, spinMat, sv] <;> rw [hs] <;> rw [hs'] <;>
    generalize (p.a : ℂ) = A at hr hi ⊢ <;> generalize (p.b : ℂ) = B at hr hi ⊢ <;> generalize p.ei = e at h2 ⊢ <;>
    generalize p.eb = f at h2 ⊢ <;> generalize (p.ch : ℂ) = c at h1 ⊢ <;> generalize (p.sh : ℂ) = h at h1 ⊢ <;>
    clear hs hs' ha hb <;>
    ext i k <;> fin_cases i <;> fin_cases k <;>
    simp [Matrix.mul_apply, Fin.sum_univ_two] <;>
    grind

end Spinas

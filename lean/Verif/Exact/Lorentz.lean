import Verif.Spec.Lorentz
import Verif.Exact.Covariance
import Mathlib.LinearAlgebra.Matrix.Determinant.Misc
import Mathlib.Analysis.SpecialFunctions.Pow.Complex

/-! Every proper orthochronous Lorentz transformation comes from a complex 2x2 matrix of determinant one. -/

namespace Spinas
open Spec Matrix

/-- the momentum of a Hermitian matrix -/
noncomputable def ofHerm (H : M2) : V4 ℝ := ⟨((H 0 0).re + (H 1 1).re) / 2, (H 1 0).re, (H 1 0).im, ((H 0 0).re - (H 1 1).re) / 2⟩

theorem slash_ofHerm {H : M2} (h : Hᴴ = H) : slashLower (ofHerm H) = H := by
  have e := fun i j => congrFun (congrFun h i) j
  simp only [conjTranspose_apply] at e
  have h00 := e 0 0; have h11 := e 1 1; have h01 := e 0 1
  have i0 : (H 0 0).im = 0 := by have := congrArg Complex.im h00; simp at this; linarith
  have i1 : (H 1 1).im = 0 := by have := congrArg Complex.im h11; simp at this; linarith
  ext i j
  fin_cases i <;> fin_cases j
  · apply Complex.ext <;> simp [slashLower, ofHerm, i0]; ring
  · rw [show H ((fun i => i) ⟨0, by decide⟩) ((fun i => i) ⟨1, by decide⟩) = H 0 1 from rfl, ← h01]
    apply Complex.ext <;> simp [slashLower, ofHerm]
  · apply Complex.ext <;> simp [slashLower, ofHerm]
  · apply Complex.ext <;> simp [slashLower, ofHerm, i1]; ring

theorem slash_inj {p q : V4 ℝ} (h : slashLower p = slashLower q) : p = q := by
  have e := fun i j => congrFun (congrFun h i) j
  have h00 := congrArg Complex.re (e 0 0); have h11 := congrArg Complex.re (e 1 1)
  have h10 := congrArg Complex.re (e 1 0); have h10' := congrArg Complex.im (e 1 0)
  simp [slashLower] at h00 h11 h10 h10'
  cases p; cases q
  simp only [V4.mk.injEq] at *
  refine ⟨by linarith, h10, h10', by linarith⟩

/-- invariant product of four momenta -/
noncomputable def quad4 (a b c d : V4 ℝ) : ℂ := (slashLower a * (slashLower b).adjugate * slashLower c * (slashLower d).adjugate).trace

theorem quad4_act {G : M2} (hG : G.det * star G.det = 1) {a b c d a' b' c' d' : V4 ℝ} (ha : slashLower a' = G * slashLower a * Gᴴ)
    (hb : slashLower b' = G * slashLower b * Gᴴ) (hc : slashLower c' = G * slashLower c * Gᴴ) (hd : slashLower d' = G * slashLower d * Gᴴ) :
    quad4 a' b' c' d' = quad4 a b c d := by
  unfold quad4
  rw [ha, hb, hc, hd]
  simp only [adjugate_mul_distrib]
  have e1 : G.adjugate * G = G.det • 1 := adjugate_mul G
  have e2 : Gᴴ * Gᴴ.adjugate = star G.det • 1 := by rw [mul_adjugate, det_conjTranspose]
  generalize (slashLower b).adjugate = b'
  generalize (slashLower d).adjugate = d'
  generalize slashLower a = a'
  generalize slashLower c = c'
  calc _ = (G * (a' * (Gᴴ * Gᴴ.adjugate) * b' * (G.adjugate * G) * c' * (Gᴴ * Gᴴ.adjugate) * d') * G.adjugate).trace := by
        simp only [Matrix.mul_assoc]
    _ = ((G.adjugate * G) * (a' * (Gᴴ * Gᴴ.adjugate) * b' * (G.adjugate * G) * c' * (Gᴴ * Gᴴ.adjugate) * d')).trace := by
        rw [Matrix.trace_mul_comm]; congr 1; exact (Matrix.mul_assoc _ _ _).symm
    _ = _ := by
        rw [e1, e2]
        simp only [Matrix.smul_mul, Matrix.mul_smul, Matrix.mul_one, Matrix.one_mul, trace_smul, smul_eq_mul]
        linear_combination ((a' * b' * c' * d').trace * (G.det * star G.det + 1)) * hG

theorem quad4_im (a b c d : V4 ℝ) : (quad4 a b c d).im = 2 * (Matrix.of ![comps a, comps b, comps c, comps d]).det := by
  unfold quad4
  simp only [adjugate_fin_two, Matrix.trace_fin_two]
  simp [slashLower, Matrix.mul_apply, Fin.sum_univ_two, det_succ_row_zero, Fin.sum_univ_succ, comps, Fin.succAbove]
  ring

theorem dot_act {G : M2} (hG : G.det * star G.det = 1) {a b a' b' : V4 ℝ} (ha : slashLower a' = G * slashLower a * Gᴴ)
    (hb : slashLower b' = G * slashLower b * Gᴴ) : dot a' b' = dot a b := by
  have key : ∀ p q : V4 ℝ, (slashLower p * (slashLower q).adjugate).trace = ((2 * dot p q : ℝ) : ℂ) := by
    intro p q
    simp only [adjugate_fin_two, Matrix.trace_fin_two]
    simp [slashLower, Matrix.mul_apply, Fin.sum_univ_two, dot]
    linear_combination (2 * (p.y : ℂ) * q.y) * Complex.I_sq
  have : (slashLower a' * (slashLower b').adjugate).trace = (slashLower a * (slashLower b).adjugate).trace := by
    rw [ha, hb]
    simp only [adjugate_mul_distrib]
    have e1 : G.adjugate * G = G.det • 1 := adjugate_mul G
    have e2 : Gᴴ * Gᴴ.adjugate = star G.det • 1 := by rw [mul_adjugate, det_conjTranspose]
    generalize (slashLower b).adjugate = b'
    generalize slashLower a = a'
    calc _ = (G * (a' * (Gᴴ * Gᴴ.adjugate) * b') * G.adjugate).trace := by simp only [Matrix.mul_assoc]
      _ = ((G.adjugate * G) * (a' * (Gᴴ * Gᴴ.adjugate) * b')).trace := by
        rw [Matrix.trace_mul_comm]; congr 1; exact (Matrix.mul_assoc _ _ _).symm
      _ = _ := by
        rw [e1, e2]
        simp only [Matrix.smul_mul, Matrix.mul_smul, Matrix.mul_one, Matrix.one_mul, trace_smul, smul_eq_mul]
        linear_combination (a' * b').trace * hG
  rw [key, key] at this
  have := Complex.ofReal_injective this
  linarith

/-- column of a matrix as a momentum -/
def col4 (L : Matrix (Fin 4) (Fin 4) ℝ) (k : Fin 4) : V4 ℝ := ofComps fun i => L i k

theorem slash_transform (L : Matrix (Fin 4) (Fin 4) ℝ) (p : V4 ℝ) : slashLower (transform L p) =
    (p.t : ℂ) • slashLower (col4 L 0) + (p.x : ℂ) • slashLower (col4 L 1) + (p.y : ℂ) • slashLower (col4 L 2) + (p.z : ℂ) • slashLower (col4 L 3) := by
  ext i j
  fin_cases i <;> fin_cases j <;> simp [slashLower, transform, ofComps, comps, col4, mulVec, dotProduct, Fin.sum_univ_four] <;> ring

theorem slash_basis (p : V4 ℝ) : slashLower p = (p.t : ℂ) • slashLower ⟨1, 0, 0, 0⟩ + (p.x : ℂ) • slashLower ⟨0, 1, 0, 0⟩ +
    (p.y : ℂ) • slashLower ⟨0, 0, 1, 0⟩ + (p.z : ℂ) • slashLower ⟨0, 0, 0, 1⟩ := by
  ext i j
  fin_cases i <;> fin_cases j <;> simp [slashLower] <;> ring

theorem Spec.Lorentz.dot_col {L : Matrix (Fin 4) (Fin 4) ℝ} (h : Lorentz L) (i j : Fin 4) : dot (col4 L i) (col4 L j) = minkowski i j := by
  have := congrFun (congrFun h.isometry i) j
  rw [← this]
  simp [minkowski, Matrix.mul_apply, Fin.sum_univ_four, diagonal_apply, dot, col4, ofComps]
  ring

theorem null_forward {T N : V4 ℝ} (hT : dot T T = 1) (h0 : 0 < T.t) (hN : dot N N = 0) (hTN : 0 < dot T N) : 0 < N.t := by
  by_contra hc
  push Not at hc
  unfold dot at *
  have cs : (T.x * N.x + T.y * N.y + T.z * N.z) ^ 2 ≤ (T.x ^ 2 + T.y ^ 2 + T.z ^ 2) * (N.x ^ 2 + N.y ^ 2 + N.z ^ 2) := by
    nlinarith [sq_nonneg (T.x * N.y - T.y * N.x), sq_nonneg (T.x * N.z - T.z * N.x), sq_nonneg (T.y * N.z - T.z * N.y)]
  have e1 : T.x ^ 2 + T.y ^ 2 + T.z ^ 2 = T.t ^ 2 - 1 := by linarith
  have e2 : N.x ^ 2 + N.y ^ 2 + N.z ^ 2 = N.t ^ 2 := by linarith
  rw [e1, e2] at cs
  have e3 : T.x * N.x + T.y * N.y + T.z * N.z < T.t * N.t := by linarith
  have e4 : T.t * N.t ≤ 0 := mul_nonpos_of_nonneg_of_nonpos h0.le hc
  nlinarith [sq_nonneg N.t]

theorem Spec.Lorentz.cover [FPEnv] {L : Matrix (Fin 4) (Fin 4) ℝ} (h : Lorentz L) :
    ∃ A : M2, A.det = 1 ∧ ∀ p, slashLower (transform L p) = A * slashLower p * Aᴴ := by
  have hd := h.dot_col
  have d00 := hd 0 0; have d33 := hd 3 3; have d03 := hd 0 3; have d01 := hd 0 1; have d02 := hd 0 2
  have d13 := hd 1 3; have d23 := hd 2 3; have d11 := hd 1 1; have d22 := hd 2 2; have d12 := hd 1 2
  simp [minkowski, diagonal_apply] at d00 d33 d03 d01 d02 d13 d23 d11 d22 d12
  have hor : (quad4 (col4 L 0) (col4 L 1) (col4 L 2) (col4 L 3)).im = 2 := by
    rw [quad4_im]
    have : (Matrix.of ![comps (col4 L 0), comps (col4 L 1), comps (col4 L 2), comps (col4 L 3)]) = Lᵀ := by
      ext i j; fin_cases i <;> fin_cases j <;> rfl
    rw [this, det_transpose, h.proper, mul_one]
  have h0 : 0 < (col4 L 0).t := h.forward
  generalize hT : col4 L 0 = T at *
  generalize hX : col4 L 1 = X at *
  generalize hY : col4 L 2 = Y at *
  generalize hZ : col4 L 3 = Z at *
  -- the two light-like combinations
  let Np : V4 ℝ := ⟨T.t + Z.t, T.x + Z.x, T.y + Z.y, T.z + Z.z⟩
  let Nm : V4 ℝ := ⟨T.t - Z.t, T.x - Z.x, T.y - Z.y, T.z - Z.z⟩
  have hp : OnShell Np 0 := by
    have e : dot Np Np = 0 := by simp only [dot, Np] at *; linarith
    refine ⟨(null_forward d00 h0 e ?_).le, by simp only [dot] at e; linarith⟩
    simp only [dot, Np] at *; linarith
  have hm : OnShell Nm 0 := by
    have e : dot Nm Nm = 0 := by simp only [dot, Nm] at *; linarith
    refine ⟨(null_forward d00 h0 e ?_).le, by simp only [dot] at e; linarith⟩
    simp only [dot, Nm] at *; linarith
  have hl : ∀ q : V4 ℝ, hv q .lsquare = star (hv q .rangle) := by
    intro q; ext i; fin_cases i <;> simp [hv, V4.sb]
  have cp := (Props.hv_complete hp).1
  have cm := (Props.hv_complete hm).1
  rw [hl] at cp cm
  have ep : slashLower Np = slashLower T + slashLower Z := by
    ext i j; fin_cases i <;> fin_cases j <;> simp [slashLower, Np] <;> ring
  have em : slashLower Nm = slashLower T - slashLower Z := by
    ext i j; fin_cases i <;> fin_cases j <;> simp [slashLower, Nm] <;> ring
  rw [ep] at cp
  rw [em] at cm
  generalize hv Np .rangle = a at cp
  generalize hv Nm .rangle = b at cm
  -- the frame of `T` and `Z`
  obtain ⟨r, hr⟩ : ∃ r : ℝ, r * r = 1 / 2 := ⟨Real.sqrt (1 / 2), Real.mul_self_sqrt (by norm_num)⟩
  have hrc : (r : ℂ) * r = 1 / 2 := by rw [← Complex.ofReal_mul, hr]; simp
  let G0 : M2 := !![a 0, b 0; a 1, b 1]
  let G : M2 := (r : ℂ) • G0
  have hGS : ∀ H : M2, G * H * Gᴴ = (1 / 2 : ℂ) • (G0 * H * G0ᴴ) := by
    intro H
    simp only [G, conjTranspose_smul, Matrix.smul_mul, Matrix.mul_smul, smul_smul]
    rw [show star (r : ℂ) = r from Complex.conj_ofReal r, hrc]
  have cp' := fun i j => congrFun (congrFun cp i) j
  have cm' := fun i j => congrFun (congrFun cm i) j
  simp only [vecMulVec_apply, Matrix.add_apply, Matrix.sub_apply, Pi.star_apply] at cp' cm'
  have e0 : slashLower (⟨1, 0, 0, 0⟩ : V4 ℝ) = 1 := by
    ext i j; fin_cases i <;> fin_cases j <;> simp [slashLower]
  have gT : slashLower T = G * slashLower ⟨1, 0, 0, 0⟩ * Gᴴ := by
    rw [hGS, e0, Matrix.mul_one]
    ext i j
    have h1 := cp' i j; have h2 := cm' i j
    fin_cases i <;> fin_cases j <;> simp [G0, Matrix.mul_apply, Fin.sum_univ_two, vecMul, dotProduct] at h1 h2 ⊢ <;>
      linear_combination (-1 / 2 : ℂ) * h1 - (1 / 2 : ℂ) * h2
  have gZ : slashLower Z = G * slashLower ⟨0, 0, 0, 1⟩ * Gᴴ := by
    have e3 : slashLower (⟨0, 0, 0, 1⟩ : V4 ℝ) = !![1, 0; 0, -1] := by
      ext i j; fin_cases i <;> fin_cases j <;> simp [slashLower]
    rw [hGS, e3]
    ext i j
    have h1 := cp' i j; have h2 := cm' i j
    fin_cases i <;> fin_cases j <;> simp [G0, Matrix.mul_apply, Fin.sum_univ_two, vecMul, dotProduct] at h1 h2 ⊢ <;>
      linear_combination (-1 / 2 : ℂ) * h1 + (1 / 2 : ℂ) * h2
  have hG : G.det * star G.det = 1 := by
    have := congrArg Matrix.det gT
    rw [det_mul, det_mul, e0, det_one, mul_one, det_conjTranspose] at this
    rw [← this, det_fin_two]
    have dT : (T.t : ℂ) * T.t - T.x * T.x - T.y * T.y - T.z * T.z = 1 := by
      simp only [dot] at d00; exact_mod_cast congrArg Complex.ofReal d00
    simp [slashLower]
    linear_combination dT + ((T.y : ℂ) * T.y) * Complex.I_sq
  let Gi : M2 := star G.det • G.adjugate
  have gi : Gi * G = 1 := by
    simp only [Gi, Matrix.smul_mul, adjugate_mul, smul_smul]
    rw [mul_comm, hG, one_smul]
  have gi' : G * Gi = 1 := _root_.mul_eq_one_comm.mp gi
  have herm : ∀ q : V4 ℝ, ∃ q' : V4 ℝ, slashLower q = G * slashLower q' * Gᴴ := by
    intro q
    refine ⟨ofHerm (Gi * slashLower q * Giᴴ), ?_⟩
    rw [slash_ofHerm]
    · have g2 : Giᴴ * Gᴴ = 1 := by rw [← conjTranspose_mul, gi', conjTranspose_one]
      calc slashLower q = (G * Gi) * slashLower q * (Giᴴ * Gᴴ) := by rw [gi', g2, Matrix.one_mul, Matrix.mul_one]
        _ = _ := by simp only [Matrix.mul_assoc]
    · rw [conjTranspose_mul, conjTranspose_mul, conjTranspose_conjTranspose, (slash_hermitian q).1, Matrix.mul_assoc]
  obtain ⟨X', gX⟩ := herm X
  obtain ⟨Y', gY⟩ := herm Y
  rw [dot_act hG gT gX] at d01
  rw [dot_act hG gT gY] at d02
  rw [dot_act hG gX gZ] at d13
  rw [dot_act hG gY gZ] at d23
  rw [dot_act hG gX gX] at d11
  rw [dot_act hG gY gY] at d22
  rw [dot_act hG gX gY] at d12
  rw [quad4_act hG gT gX gY gZ, quad4_im] at hor
  have xt : X'.t = 0 := by simp [dot] at d01; exact d01
  have yt : Y'.t = 0 := by simp [dot] at d02; exact d02
  have xz : X'.z = 0 := by simp [dot] at d13; exact d13
  have yz : Y'.z = 0 := by simp [dot] at d23; exact d23
  have hxx : X'.x ^ 2 + X'.y ^ 2 = 1 := by simp only [dot, xt, xz] at d11; linarith
  have hxy : X'.x * Y'.x + X'.y * Y'.y = 0 := by simp only [dot, xt, xz, yt, yz] at d12; linarith
  have ho : X'.x * Y'.y - X'.y * Y'.x = 1 := by
    simp [det_succ_row_zero, Fin.sum_univ_succ, comps, Fin.succAbove, xt, xz, yt, yz] at hor
    linarith
  have yx : Y'.x = -X'.y := by linear_combination (-Y'.x) * hxx + X'.x * hxy - X'.y * ho
  have yy : Y'.y = X'.x := by linear_combination (-Y'.y) * hxx + X'.y * hxy + X'.x * ho
  -- the remaining rotation
  let c : ℂ := X'.x - X'.y * Complex.I
  have hc : c * star c = 1 := by
    have : ((X'.x ^ 2 + X'.y ^ 2 : ℝ) : ℂ) = 1 := by rw [hxx]; simp
    push_cast at this
    simp [c]
    linear_combination this - ((X'.y : ℂ) ^ 2) * Complex.I_sq
  obtain ⟨w, hw⟩ : ∃ w : ℂ, w * w = c * star G.det := ⟨(c * star G.det) ^ (1 / 2 : ℂ), by
    rw [← pow_two, ← Complex.cpow_nat_mul]; simp⟩
  have hww : w * star w = 1 := by
    have h1 : (w * star w) * (w * star w) = 1 := by
      calc _ = (w * w) * star (w * w) := by rw [star_mul']; ring
        _ = (c * star c) * (G.det * star G.det) := by rw [hw, star_mul', star_star]; ring
        _ = 1 := by rw [hc, hG, one_mul]
    have h2 : w * star w = ((Complex.normSq w : ℝ) : ℂ) := Complex.mul_conj w
    rw [h2] at h1 ⊢
    have h1 : Complex.normSq w * Complex.normSq w = 1 := by exact_mod_cast h1
    have := Complex.normSq_nonneg w
    have : Complex.normSq w = 1 := by nlinarith
    rw [this]; simp
  let D : M2 := !![w, 0; 0, star c * w]
  have hww' : w * (starRingEnd ℂ) w = 1 := hww
  have hc' : c * (starRingEnd ℂ) c = 1 := hc
  have hsl : ∀ t x y z : ℝ, D * slashLower ⟨t, x, y, z⟩ * Dᴴ = !![(t : ℂ) + z, (x - y * Complex.I) * c; (x + y * Complex.I) * star c, t - z] := by
    intro t x y z
    ext i j
    fin_cases i <;> fin_cases j <;> simp [D, slashLower, Matrix.mul_apply, Fin.sum_univ_two, vecMul, dotProduct]
    · linear_combination ((t : ℂ) + z) * hww'
    · linear_combination (((x : ℂ) - y * Complex.I) * c) * hww'
    · linear_combination (((x : ℂ) + y * Complex.I) * (starRingEnd ℂ) c) * hww'
    · linear_combination (((t : ℂ) - z) * (c * (starRingEnd ℂ) c)) * hww' + ((t : ℂ) - z) * hc'
  have d0 : D * slashLower ⟨1, 0, 0, 0⟩ * Dᴴ = slashLower ⟨1, 0, 0, 0⟩ := by
    rw [hsl]; ext i j; fin_cases i <;> fin_cases j <;> simp [slashLower]
  have d3 : D * slashLower ⟨0, 0, 0, 1⟩ * Dᴴ = slashLower ⟨0, 0, 0, 1⟩ := by
    rw [hsl]; ext i j; fin_cases i <;> fin_cases j <;> simp [slashLower]
  have dX : D * slashLower ⟨0, 1, 0, 0⟩ * Dᴴ = slashLower X' := by
    rw [hsl]; ext i j; fin_cases i <;> fin_cases j <;> simp [slashLower, c, xt, xz]
  have dY : D * slashLower ⟨0, 0, 1, 0⟩ * Dᴴ = slashLower Y' := by
    rw [hsl]; ext i j; fin_cases i <;> fin_cases j <;> simp [slashLower, c, yt, yz, yx, yy]
    · linear_combination (X'.y : ℂ) * Complex.I_sq
    · linear_combination (X'.y : ℂ) * Complex.I_sq
  refine ⟨G * D, ?_, fun p => ?_⟩
  · rw [det_mul]
    simp only [D, det_fin_two_of]
    linear_combination (G.det * star c) * hw + (c * star c) * hG + hc
  · have e : ∀ H : M2, G * D * H * (G * D)ᴴ = G * (D * H * Dᴴ) * Gᴴ := by
      intro H; simp only [conjTranspose_mul, Matrix.mul_assoc]
    rw [slash_transform, hT, hX, hY, hZ, gT, gX, gY, gZ, slash_basis p]
    simp only [Matrix.mul_add, Matrix.add_mul, Matrix.mul_smul, Matrix.smul_mul, e, d0, d3, dX, dY]

end Spinas

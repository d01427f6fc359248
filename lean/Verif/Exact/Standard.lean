import Verif.Exact.Lorentz
import Verif.Spec.Kinematics
import Verif.Spec.Collision

/-! Two-to-two configurations with the same masses and the same `s` and `t` are related by one Lorentz transformation. -/

namespace Spinas
open Spec Matrix

/-- related by one complex matrix -/
def Rel (p p' : Nat → V4 ℝ) : Prop := ∃ A : M2, A.det = 1 ∧ ∀ i, slashLower (p' i) = A * slashLower (p i) * Aᴴ

theorem Rel.trans {p p' p'' : Nat → V4 ℝ} (h : Rel p p') (h' : Rel p' p'') : Rel p p'' := by
  obtain ⟨A, hA, h⟩ := h
  obtain ⟨B, hB, h'⟩ := h'
  refine ⟨B * A, by rw [det_mul, hA, hB, one_mul], fun i => ?_⟩
  rw [h', h, conjTranspose_mul]
  simp only [Matrix.mul_assoc]

theorem Rel.symm {p p' : Nat → V4 ℝ} (h : Rel p p') : Rel p' p := by
  obtain ⟨A, hA, h⟩ := h
  have a1 : A.adjugate * A = 1 := by rw [adjugate_mul, hA, one_smul]
  have a2 : Aᴴ * A.adjugateᴴ = 1 := by rw [← conjTranspose_mul, a1, conjTranspose_one]
  refine ⟨A.adjugate, by rw [det_adjugate, hA]; simp, fun i => ?_⟩
  rw [h]
  calc _ = 1 * slashLower (p i) * 1 := by rw [Matrix.one_mul, Matrix.mul_one]
    _ = (A.adjugate * A) * slashLower (p i) * (Aᴴ * A.adjugateᴴ) := by rw [a1, a2]
    _ = _ := by simp only [Matrix.mul_assoc]

theorem Rel.dot {p p' : Nat → V4 ℝ} (h : Rel p p') (i j : Nat) : dot (p' i) (p' j) = dot (p i) (p j) := by
  obtain ⟨A, hA, h⟩ := h
  exact dot_act (by rw [hA]; simp) (h i) (h j)

theorem slash_add (p q : V4 ℝ) : slashLower ⟨p.t + q.t, p.x + q.x, p.y + q.y, p.z + q.z⟩ = slashLower p + slashLower q := by
  ext a b; fin_cases a <;> fin_cases b <;> simp [slashLower] <;> ring

/-! ### the rest frame -/

theorem rest_act {T : V4 ℝ} {r : ℝ} (hr : 0 < r) (ht : 0 ≤ T.t) (h : dot T T = r ^ 2) :
    ∃ A : M2, A.det = 1 ∧ A * slashLower T * Aᴴ = slashLower ⟨r, 0, 0, 0⟩ := by
  obtain ⟨c, hc0, hc⟩ : ∃ c : ℝ, c ≠ 0 ∧ c ^ 2 = r * (2 * r + 2 * T.t) :=
    ⟨Real.sqrt (r * (2 * r + 2 * T.t)), (Real.sqrt_pos.mpr (by positivity)).ne', Real.sq_sqrt (by positivity)⟩
  have hX : slashLower T * slashUpper T = ((r : ℂ) ^ 2) • (1 : M2) := by
    have h' : (T.t : ℂ) * T.t - T.x * T.x - T.y * T.y - T.z * T.z = (r : ℂ) ^ 2 := by exact_mod_cast h
    ext a b
    fin_cases a <;> fin_cases b <;> simp [slashLower, slashUpper, Matrix.mul_apply, Fin.sum_univ_two] <;>
      first | linear_combination h' + (T.y : ℂ) ^ 2 * Complex.I_sq | ring
  have hU : slashUpper T * slashLower T = ((r : ℂ) ^ 2) • (1 : M2) := by
    have h' : (T.t : ℂ) * T.t - T.x * T.x - T.y * T.y - T.z * T.z = (r : ℂ) ^ 2 := by exact_mod_cast h
    ext a b
    fin_cases a <;> fin_cases b <;> simp [slashLower, slashUpper, Matrix.mul_apply, Fin.sum_univ_two] <;>
      first | linear_combination h' + (T.y : ℂ) ^ 2 * Complex.I_sq | ring
  have hS : slashLower T + slashUpper T = ((2 * T.t : ℝ) : ℂ) • (1 : M2) := by
    ext a b
    fin_cases a <;> fin_cases b <;> simp [slashLower, slashUpper] <;> ring
  set B : M2 := (r : ℂ) • 1 + slashUpper T with hB
  have hBh : Bᴴ = B := by
    rw [hB, conjTranspose_add, (slash_hermitian T).2, conjTranspose_smul, conjTranspose_one]
    simp
  have hBX : B * slashLower T * B = ((r * c ^ 2 : ℝ) : ℂ) • (1 : M2) := by
    have e : B * slashLower T * B = ((r : ℂ) ^ 2) • (slashLower T + slashUpper T) + ((r : ℂ) * (2 * (r : ℂ) ^ 2)) • (1 : M2) := by
      rw [hB, Matrix.add_mul, hU, Matrix.mul_add, Matrix.add_mul, Matrix.add_mul]
      simp only [Matrix.smul_mul, Matrix.mul_smul, Matrix.one_mul, Matrix.mul_one, hX]
      module
    rw [e, hS, hc]
    push_cast
    module
  have hBd : B.det = ((c ^ 2 : ℝ) : ℂ) := by
    have h' : (T.t : ℂ) * T.t - T.x * T.x - T.y * T.y - T.z * T.z = (r : ℂ) ^ 2 := by exact_mod_cast h
    rw [hc, hB, det_fin_two]
    simp [slashUpper]
    linear_combination h' + (T.y : ℂ) ^ 2 * Complex.I_sq
  have hc' : (c : ℂ) ≠ 0 := by exact_mod_cast hc0
  refine ⟨(c : ℂ)⁻¹ • B, ?_, ?_⟩
  · rw [det_smul, hBd]
    push_cast
    simp only [Fintype.card_fin]
    field_simp
  · have e1 : ((c : ℂ)⁻¹ • B)ᴴ = (c : ℂ)⁻¹ • B := by rw [conjTranspose_smul, hBh]; simp
    have e2 : slashLower ⟨r, 0, 0, 0⟩ = (r : ℂ) • (1 : M2) := by ext a b; fin_cases a <;> fin_cases b <;> simp [slashLower]
    rw [e1, e2, Matrix.smul_mul, Matrix.smul_mul, Matrix.mul_smul, hBX, smul_smul, smul_smul]
    congr 1
    push_cast
    field_simp

/-- Go to the rest frame of the total momentum. -/
theorem to_rest {p : Nat → V4 ℝ} {r : ℝ} (hr : 0 < r) (ht : 0 ≤ (p 0).t + (p 1).t)
    (h : dot ⟨(p 0).t + (p 1).t, (p 0).x + (p 1).x, (p 0).y + (p 1).y, (p 0).z + (p 1).z⟩ ⟨(p 0).t + (p 1).t, (p 0).x + (p 1).x, (p 0).y + (p 1).y, (p 0).z + (p 1).z⟩ = r ^ 2) :
    ∃ p', Rel p p' ∧ (p' 0).t + (p' 1).t = r ∧ (p' 0).x + (p' 1).x = 0 ∧ (p' 0).y + (p' 1).y = 0 ∧ (p' 0).z + (p' 1).z = 0 := by
  obtain ⟨A, hA, hT⟩ := rest_act hr ht h
  have hh : ∀ i, (A * slashLower (p i) * Aᴴ)ᴴ = A * slashLower (p i) * Aᴴ := by
    intro i
    simp only [conjTranspose_mul, conjTranspose_conjTranspose, (slash_hermitian (p i)).1, Matrix.mul_assoc]
  refine ⟨fun i => ofHerm (A * slashLower (p i) * Aᴴ), ⟨A, hA, fun i => slash_ofHerm (hh i)⟩, ?_⟩
  set p' : Nat → V4 ℝ := fun i => ofHerm (A * slashLower (p i) * Aᴴ) with hp'
  have e : slashLower ⟨(p' 0).t + (p' 1).t, (p' 0).x + (p' 1).x, (p' 0).y + (p' 1).y, (p' 0).z + (p' 1).z⟩ = slashLower ⟨r, 0, 0, 0⟩ := by
    rw [slash_add, ← hT, slash_add (p 0) (p 1), hp']
    simp only [slash_ofHerm (hh _), Matrix.mul_add, Matrix.add_mul]
  have := slash_inj e
  simp only [V4.mk.injEq] at this
  exact this

/-! ### rotations -/

/-- an orthonormal right-handed frame as a Lorentz transformation -/
def frame4 (u v : V3 ℝ) : Matrix (Fin 4) (Fin 4) ℝ :=
  !![1, 0, 0, 0; 0, u.x, v.x, (cross u v).x; 0, u.y, v.y, (cross u v).y; 0, u.z, v.z, (cross u v).z]

theorem frame4_lorentz {u v : V3 ℝ} (hu : dot3 u u = 1) (hv : dot3 v v = 1) (huv : dot3 u v = 0) : Lorentz (frame4 u v) where
  isometry := by
    unfold dot3 at hu hv huv
    have e2 : ∀ a b c d : ℝ, (![a, b, c, d] : Fin 4 → ℝ) 2 = c := fun _ _ _ _ => rfl
    have e3 : ∀ a b c d : ℝ, (![a, b, c, d] : Fin 4 → ℝ) 3 = d := fun _ _ _ _ => rfl
    ext i j
    fin_cases i <;> fin_cases j <;>
      simp [frame4, cross, minkowski, Matrix.mul_apply, Fin.sum_univ_four, Matrix.diagonal, Matrix.transpose_apply, e2, e3] <;>
      first
      | ring1
      | linear_combination -hu
      | linear_combination -hv
      | linear_combination -huv
      | linear_combination -(v.x * v.x + v.y * v.y + v.z * v.z) * hu - hv + (u.x * v.x + u.y * v.y + u.z * v.z) * huv
  proper := by
    unfold dot3 at hu hv huv
    simp [frame4, cross, Matrix.det_succ_row_zero, Fin.sum_univ_succ, Fin.succAbove]
    linear_combination (v.x * v.x + v.y * v.y + v.z * v.z) * hu + hv - (u.x * v.x + u.y * v.y + u.z * v.z) * huv
  forward := by simp [frame4]

theorem frame4_apply (u v : V3 ℝ) (t a b : ℝ) :
    transform (frame4 u v) ⟨t, a, b, 0⟩ = ⟨t, a * u.x + b * v.x, a * u.y + b * v.y, a * u.z + b * v.z⟩ := by
  simp [transform, ofComps, comps, frame4, Matrix.mulVec, dotProduct, Fin.sum_univ_four]
  refine ⟨?_, ?_, ?_⟩ <;> ring

theorem dot3_nonneg (p : V3 ℝ) : 0 ≤ dot3 p p := by
  unfold dot3
  nlinarith [mul_self_nonneg p.x, mul_self_nonneg p.y, mul_self_nonneg p.z]

theorem exists_unit (p : V3 ℝ) : ∃ u : V3 ℝ, dot3 u u = 1 ∧ p = ⟨Real.sqrt (dot3 p p) * u.x, Real.sqrt (dot3 p p) * u.y, Real.sqrt (dot3 p p) * u.z⟩ := by
  have hn : 0 ≤ dot3 p p := dot3_nonneg p
  by_cases h : dot3 p p = 0
  · refine ⟨⟨1, 0, 0⟩, by simp [dot3], ?_⟩
    unfold dot3 at h
    have hx : p.x = 0 := by nlinarith [sq_nonneg p.x, sq_nonneg p.y, sq_nonneg p.z]
    have hy : p.y = 0 := by nlinarith [sq_nonneg p.x, sq_nonneg p.y, sq_nonneg p.z]
    have hz : p.z = 0 := by nlinarith [sq_nonneg p.x, sq_nonneg p.y, sq_nonneg p.z]
    cases p
    simp_all [dot3]
  · have hs : Real.sqrt (dot3 p p) ≠ 0 := (Real.sqrt_pos.mpr (lt_of_le_of_ne hn (Ne.symm h))).ne'
    have hq : Real.sqrt (dot3 p p) ^ 2 = dot3 p p := Real.sq_sqrt hn
    generalize Real.sqrt (dot3 p p) = a at hs hq ⊢
    refine ⟨⟨p.x / a, p.y / a, p.z / a⟩, ?_, ?_⟩
    · simp only [dot3] at hq ⊢
      field_simp
      linarith
    · cases p
      simp only [V3.mk.injEq]
      refine ⟨?_, ?_, ?_⟩ <;> field_simp

/-- a unit vector orthogonal to `u`, in the plane of `u` and `q` -/
theorem exists_second {u : V3 ℝ} (hu : dot3 u u = 1) (q : V3 ℝ) : ∃ v : V3 ℝ, dot3 v v = 1 ∧ dot3 u v = 0 ∧
    q = ⟨dot3 q u * u.x + Real.sqrt (dot3 q q - dot3 q u ^ 2) * v.x, dot3 q u * u.y + Real.sqrt (dot3 q q - dot3 q u ^ 2) * v.y,
      dot3 q u * u.z + Real.sqrt (dot3 q q - dot3 q u ^ 2) * v.z⟩ := by
  let d : V3 ℝ := ⟨q.x - dot3 q u * u.x, q.y - dot3 q u * u.y, q.z - dot3 q u * u.z⟩
  have hd : dot3 d d = dot3 q q - dot3 q u ^ 2 := by
    simp only [d, dot3] at hu ⊢
    linear_combination (q.x * u.x + q.y * u.y + q.z * u.z) ^ 2 * hu
  have hdu : dot3 u d = 0 := by
    simp only [d, dot3] at hu ⊢
    linear_combination -(q.x * u.x + q.y * u.y + q.z * u.z) * hu
  have hq : q = ⟨dot3 q u * u.x + d.x, dot3 q u * u.y + d.y, dot3 q u * u.z + d.z⟩ := by
    cases q
    simp only [d, V3.mk.injEq]
    refine ⟨?_, ?_, ?_⟩ <;> ring
  rw [← hd]
  by_cases h : dot3 d d = 0
  · have hx : d.x = 0 := by unfold dot3 at h; nlinarith [sq_nonneg d.x, sq_nonneg d.y, sq_nonneg d.z]
    have hy : d.y = 0 := by unfold dot3 at h; nlinarith [sq_nonneg d.x, sq_nonneg d.y, sq_nonneg d.z]
    have hz : d.z = 0 := by unfold dot3 at h; nlinarith [sq_nonneg d.x, sq_nonneg d.y, sq_nonneg d.z]
    obtain ⟨w, hw, huw⟩ : ∃ w : V3 ℝ, dot3 w w ≠ 0 ∧ dot3 u w = 0 := by
      by_cases h0 : u.x = 0 ∧ u.y = 0
      · exact ⟨⟨1, 0, 0⟩, by simp [dot3], by simp [dot3, h0.1]⟩
      · refine ⟨⟨-u.y, u.x, 0⟩, ?_, by simp only [dot3]; ring⟩
        simp only [dot3]
        intro hc
        exact h0 ⟨by nlinarith [sq_nonneg u.x, sq_nonneg u.y], by nlinarith [sq_nonneg u.x, sq_nonneg u.y]⟩
    obtain ⟨v, hv, e⟩ := exists_unit w
    refine ⟨v, hv, ?_, ?_⟩
    · have hs : Real.sqrt (dot3 w w) ≠ 0 := (Real.sqrt_pos.mpr (lt_of_le_of_ne (dot3_nonneg _) (Ne.symm hw))).ne'
      rw [e] at huw
      simp only [dot3] at huw hs ⊢
      have : Real.sqrt (w.x * w.x + w.y * w.y + w.z * w.z) * (u.x * v.x + u.y * v.y + u.z * v.z) = 0 := by linear_combination huw
      exact (mul_eq_zero.1 this).resolve_left hs
    · rw [h, Real.sqrt_zero]
      conv_lhs => rw [hq]
      simp [hx, hy, hz]
  · obtain ⟨v, hv, e⟩ := exists_unit d
    have hs : Real.sqrt (dot3 d d) ≠ 0 := (Real.sqrt_pos.mpr (lt_of_le_of_ne (dot3_nonneg _) (Ne.symm h))).ne'
    refine ⟨v, hv, ?_, ?_⟩
    · generalize Real.sqrt (dot3 d d) = a at e hs
      rw [e] at hdu
      simp only [dot3] at hdu ⊢
      have : a * (u.x * v.x + u.y * v.y + u.z * v.z) = 0 := by linear_combination hdu
      exact (mul_eq_zero.1 this).resolve_left hs
    · conv_lhs => rw [hq]
      have ex : d.x = Real.sqrt (dot3 d d) * v.x := congrArg V3.x e
      have ey : d.y = Real.sqrt (dot3 d d) * v.y := congrArg V3.y e
      have ez : d.z = Real.sqrt (dot3 d d) * v.z := congrArg V3.z e
      rw [← ex, ← ey, ← ez]

/-- coordinates of two vectors with scalar products `a = P.P`, `b = P.Q`, `c = Q.Q` in a suitable frame -/
noncomputable def std (a b c : ℝ) : (ℝ × ℝ) × (ℝ × ℝ) :=
  if a = 0 then ((0, 0), (Real.sqrt c, 0)) else ((Real.sqrt a, 0), (b / Real.sqrt a, Real.sqrt (c - (b / Real.sqrt a) ^ 2)))

theorem exists_frame (P Q : V3 ℝ) : ∃ u v : V3 ℝ, dot3 u u = 1 ∧ dot3 v v = 1 ∧ dot3 u v = 0 ∧
    P = ⟨(std (dot3 P P) (dot3 P Q) (dot3 Q Q)).1.1 * u.x + (std (dot3 P P) (dot3 P Q) (dot3 Q Q)).1.2 * v.x,
      (std (dot3 P P) (dot3 P Q) (dot3 Q Q)).1.1 * u.y + (std (dot3 P P) (dot3 P Q) (dot3 Q Q)).1.2 * v.y,
      (std (dot3 P P) (dot3 P Q) (dot3 Q Q)).1.1 * u.z + (std (dot3 P P) (dot3 P Q) (dot3 Q Q)).1.2 * v.z⟩ ∧
    Q = ⟨(std (dot3 P P) (dot3 P Q) (dot3 Q Q)).2.1 * u.x + (std (dot3 P P) (dot3 P Q) (dot3 Q Q)).2.2 * v.x,
      (std (dot3 P P) (dot3 P Q) (dot3 Q Q)).2.1 * u.y + (std (dot3 P P) (dot3 P Q) (dot3 Q Q)).2.2 * v.y,
      (std (dot3 P P) (dot3 P Q) (dot3 Q Q)).2.1 * u.z + (std (dot3 P P) (dot3 P Q) (dot3 Q Q)).2.2 * v.z⟩ := by
  by_cases h : dot3 P P = 0
  · obtain ⟨u, hu, e⟩ := exists_unit Q
    obtain ⟨v, hv, huv, -⟩ := exists_second hu Q
    refine ⟨u, v, hu, hv, huv, ?_, ?_⟩
    · have hx : P.x = 0 := by unfold dot3 at h; nlinarith [sq_nonneg P.x, sq_nonneg P.y, sq_nonneg P.z]
      have hy : P.y = 0 := by unfold dot3 at h; nlinarith [sq_nonneg P.x, sq_nonneg P.y, sq_nonneg P.z]
      have hz : P.z = 0 := by unfold dot3 at h; nlinarith [sq_nonneg P.x, sq_nonneg P.y, sq_nonneg P.z]
      simp only [std, if_pos h, zero_mul, add_zero]
      cases P
      simp_all
    · simp only [std, if_pos h, zero_mul, add_zero]
      exact e
  · obtain ⟨u, hu, e⟩ := exists_unit P
    obtain ⟨v, hv, huv, e'⟩ := exists_second hu Q
    have hs : Real.sqrt (dot3 P P) ≠ 0 := (Real.sqrt_pos.mpr (lt_of_le_of_ne (dot3_nonneg _) (Ne.symm h))).ne'
    have hb : dot3 Q u = dot3 P Q / Real.sqrt (dot3 P P) := by
      rw [eq_div_iff hs]
      have ex : P.x = Real.sqrt (dot3 P P) * u.x := congrArg V3.x e
      have ey : P.y = Real.sqrt (dot3 P P) * u.y := congrArg V3.y e
      have ez : P.z = Real.sqrt (dot3 P P) * u.z := congrArg V3.z e
      show (Q.x * u.x + Q.y * u.y + Q.z * u.z) * Real.sqrt (dot3 P P) = P.x * Q.x + P.y * Q.y + P.z * Q.z
      linear_combination -Q.x * ex - Q.y * ey - Q.z * ez
    refine ⟨u, v, hu, hv, huv, ?_, ?_⟩
    · simp only [std, if_neg h, zero_mul, add_zero]
      exact e
    · simp only [std, if_neg h]
      rw [← hb]
      exact e'

/-! ### configurations -/

/-- the standard configuration -/
def stdConf (E : Nat → ℝ) (x : (ℝ × ℝ) × (ℝ × ℝ)) : Nat → V4 ℝ
  | 0 => ⟨E 0, x.1.1, x.1.2, 0⟩
  | 1 => ⟨E 1, -x.1.1, -x.1.2, 0⟩
  | 2 => ⟨E 2, x.2.1, x.2.2, 0⟩
  | _ => ⟨E 3, -x.2.1, -x.2.2, 0⟩

theorem rest_std [FPEnv] {p : Nat → V4 ℝ} (hp : ∀ i, 3 ≤ i → p i = p 3) (hx : (p 0).x + (p 1).x = 0) (hy : (p 0).y + (p 1).y = 0) (hz : (p 0).z + (p 1).z = 0)
    (hx' : (p 2).x + (p 3).x = 0) (hy' : (p 2).y + (p 3).y = 0) (hz' : (p 2).z + (p 3).z = 0) :
    Rel (stdConf (fun i => (p i).t) (std (dot3 (space (p 0)) (space (p 0))) (dot3 (space (p 0)) (space (p 2))) (dot3 (space (p 2)) (space (p 2))))) p := by
  obtain ⟨u, v, hu, hv, huv, e0, e2⟩ := exists_frame (space (p 0)) (space (p 2))
  obtain ⟨A, hA, h⟩ := (frame4_lorentz hu hv huv).cover
  generalize std (dot3 (space (p 0)) (space (p 0))) (dot3 (space (p 0)) (space (p 2))) (dot3 (space (p 2)) (space (p 2))) = x at e0 e2
  simp only [space, V3.mk.injEq] at e0 e2
  refine ⟨A, hA, fun i => ?_⟩
  rw [← h]
  congr 1
  match i with
  | 0 => simp only [stdConf]; rw [frame4_apply, ← e0.1, ← e0.2.1, ← e0.2.2]
  | 1 =>
    simp only [stdConf]
    rw [frame4_apply]
    have : p 1 = ⟨(p 1).t, (p 1).x, (p 1).y, (p 1).z⟩ := rfl
    rw [this]
    simp only [V4.mk.injEq, true_and]
    exact ⟨by linarith [e0.1], by linarith [e0.2.1], by linarith [e0.2.2]⟩
  | 2 => simp only [stdConf]; rw [frame4_apply, ← e2.1, ← e2.2.1, ← e2.2.2]
  | k + 3 =>
    rw [hp (k + 3) (by omega)]
    simp only [stdConf]
    rw [frame4_apply]
    have : p 3 = ⟨(p 3).t, (p 3).x, (p 3).y, (p 3).z⟩ := rfl
    rw [this]
    simp only [V4.mk.injEq, true_and]
    exact ⟨by linarith [e2.1], by linarith [e2.2.1], by linarith [e2.2.2]⟩

theorem Rel.onShell [FPEnv] {p p' : Nat → V4 ℝ} (h : Rel p p') {i : Nat} {m : ℝ} (hi : OnShell (p i) m) : OnShell (p' i) m := by
  obtain ⟨A, hA, h⟩ := h
  exact hi.act hA (h i)

theorem Rel.balanced {p p' : Nat → V4 ℝ} (h : Rel p p') (hb : Balanced p) : Balanced p' := by
  obtain ⟨A, hA, h⟩ := h
  have e : slashLower (p 0) + slashLower (p 1) = slashLower (p 2) + slashLower (p 3) := by rw [← slash_add, ← slash_add, hb.t, hb.x, hb.y, hb.z]
  have e' : slashLower (p' 0) + slashLower (p' 1) = slashLower (p' 2) + slashLower (p' 3) := by
    rw [h, h, h, h, ← Matrix.add_mul, ← Matrix.mul_add, e, Matrix.mul_add, Matrix.add_mul]
  rw [← slash_add, ← slash_add] at e'
  have := slash_inj e'
  simp only [V4.mk.injEq] at this
  exact ⟨this.1, this.2.1, this.2.2.1, this.2.2.2⟩

/-- the energies in the rest frame -/
noncomputable def restE (r : ℝ) (m : Nat → ℝ) : Nat → ℝ
  | 0 => (r + (m 0 ^ 2 - m 1 ^ 2) / r) / 2
  | 1 => (r - (m 0 ^ 2 - m 1 ^ 2) / r) / 2
  | 2 => (r + (m 2 ^ 2 - m 3 ^ 2) / r) / 2
  | _ => (r - (m 2 ^ 2 - m 3 ^ 2) / r) / 2

/-- the standard configuration for given masses, `√s` and `t` -/
noncomputable def mandelConf (r t : ℝ) (m : Nat → ℝ) : Nat → V4 ℝ :=
  stdConf (restE r m) (std (restE r m 0 ^ 2 - m 0 ^ 2) ((t - m 0 ^ 2 - m 2 ^ 2) / 2 + restE r m 0 * restE r m 2) (restE r m 2 ^ 2 - m 2 ^ 2))

theorem two_energies {a b r d : ℝ} (hr : 0 < r) (h1 : a + b = r) (h2 : a ^ 2 - b ^ 2 = d) : a = (r + d / r) / 2 ∧ b = (r - d / r) / 2 := by
  have : d = r * (a - b) := by rw [← h1, ← h2]; ring
  subst this
  rw [mul_div_cancel_left₀ _ hr.ne']
  exact ⟨by linarith, by linarith⟩

theorem conf_std [FPEnv] {p : Nat → V4 ℝ} (hp : ∀ i, 3 ≤ i → p i = p 3) {m : Nat → ℝ} (hs : ∀ i, i < 4 → OnShell (p i) (m i)) (hb : Balanced p) (h : 0 < mandelstamS p) :
    Rel (mandelConf (Real.sqrt (mandelstamS p)) (mandelstamT p) m) p := by
  have hr : 0 < Real.sqrt (mandelstamS p) := Real.sqrt_pos.mpr h
  obtain ⟨p', hR, ht, hx, hy, hz⟩ := to_rest (p := p) hr (add_nonneg (hs 0 (by omega)).energy (hs 1 (by omega)).energy) (by
    rw [Real.sq_sqrt h.le]; simp only [dot, mandelstamS, msq]; ring)
  have hb' := hR.balanced hb
  have o := fun i hi => hR.onShell (hs i hi)
  have hE : stdConf (fun i => (p' i).t) = stdConf (restE (Real.sqrt (mandelstamS p)) m) := by
    have e01 := two_energies (d := m 0 ^ 2 - m 1 ^ 2) hr ht (by
      have ex : (p' 1).x = -(p' 0).x := by linarith
      have ey : (p' 1).y = -(p' 0).y := by linarith
      have ez : (p' 1).z = -(p' 0).z := by linarith
      rw [(o 0 (by omega)).shell, (o 1 (by omega)).shell, ex, ey, ez]; ring)
    have e23 := two_energies (a := (p' 2).t) (b := (p' 3).t) (d := m 2 ^ 2 - m 3 ^ 2) hr (by rw [← hb'.t]; exact ht) (by
      have ex : (p' 3).x = -(p' 2).x := by linarith [hb'.x]
      have ey : (p' 3).y = -(p' 2).y := by linarith [hb'.y]
      have ez : (p' 3).z = -(p' 2).z := by linarith [hb'.z]
      rw [(o 2 (by omega)).shell, (o 3 (by omega)).shell, ex, ey, ez]; ring)
    funext x i
    match i with
    | 0 => simp only [stdConf, restE, e01.1]
    | 1 => simp only [stdConf, restE, e01.2]
    | 2 => simp only [stdConf, restE, e23.1]
    | k + 3 => simp only [stdConf, restE, e23.2]
  have hp' : ∀ i, 3 ≤ i → p' i = p' 3 := by
    intro i hi
    obtain ⟨A, _, h⟩ := hR
    exact slash_inj (by rw [h, h, hp i hi])
  have := rest_std hp' hx hy hz (by linarith [hb'.x]) (by linarith [hb'.y]) (by linarith [hb'.z])
  refine Rel.trans ?_ hR.symm
  rw [hE] at this
  have hE0 : restE (Real.sqrt (mandelstamS p)) m 0 = (p' 0).t := (congrArg V4.t (congrFun (congrFun hE ((0, 0), (0, 0))) 0)).symm
  have hE2 : restE (Real.sqrt (mandelstamS p)) m 2 = (p' 2).t := (congrArg V4.t (congrFun (congrFun hE ((0, 0), (0, 0))) 2)).symm
  have s0 := (o 0 (by omega)).shell
  have s2 := (o 2 (by omega)).shell
  have ec : (mandelstamT p - m 0 ^ 2 - m 2 ^ 2) / 2 + (p' 0).t * (p' 2).t = dot3 (space (p' 0)) (space (p' 2)) := by
    have hT : mandelstamT p = m 0 ^ 2 + m 2 ^ 2 - 2 * dot (p' 0) (p' 2) := by
      rw [hR.dot]
      have s0 := (hs 0 (by omega)).shell
      have s2 := (hs 2 (by omega)).shell
      simp only [mandelstamT, msq, dot]
      linear_combination s0 + s2
    rw [hT]
    simp only [dot, dot3, space]
    ring
  unfold mandelConf
  rw [hE0, hE2, ec, show (p' 0).t ^ 2 - m 0 ^ 2 = dot3 (space (p' 0)) (space (p' 0)) by simp only [dot3, space]; linarith,
    show (p' 2).t ^ 2 - m 2 ^ 2 = dot3 (space (p' 2)) (space (p' 2)) by simp only [dot3, space]; linarith]
  exact this

/-- Two collisions with the same masses, `s` and `t` are seen by two observers. -/
theorem rel_of_mandelstam [FPEnv] {p q : Nat → V4 ℝ} (hp : ∀ i, 3 ≤ i → p i = p 3) (hq : ∀ i, 3 ≤ i → q i = q 3) {m : Nat → ℝ} (hs : ∀ i, i < 4 → OnShell (p i) (m i))
    (hs' : ∀ i, i < 4 → OnShell (q i) (m i)) (hb : Balanced p) (hb' : Balanced q) (h : 0 < mandelstamS p) (es : mandelstamS q = mandelstamS p)
    (et : mandelstamT q = mandelstamT p) : Rel p q := by
  have h1 := conf_std hp hs hb h
  have h2 := conf_std hq hs' hb' (by rw [es]; exact h)
  rw [es, et] at h2
  exact h1.symm.trans h2

end Spinas

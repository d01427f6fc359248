import Verif.SM.DirectEAeh

/-! A reaction along the z axis in which the two forms of amp2 of eAeh differ. -/

namespace Spinas.SM.Direct
open Spec Props XR Matrix

section
variable [FPEnv]

theorem axis_mag {p : V4 ℝ} (hx : p.x = 0) (hy : p.y = 0) : p.mag = |p.z| := by
  rw [V4.mag, hx, hy, ← Real.sqrt_mul_self_eq_abs]; simp

theorem axis_up {p : V4 ℝ} (hx : p.x = 0) (hy : p.y = 0) (hz : 0 < p.z) : p.ch = 1 ∧ p.s = 0 := by
  have h := p.mag_cos
  rw [axis_mag hx hy, abs_of_pos hz] at h
  have h1 : p.ch * p.ch - p.sh * p.sh = 1 := by
    have : p.z * (p.ch * p.ch - p.sh * p.sh - 1) = 0 := by linarith
    rcases mul_eq_zero.mp this with h' | h' <;> linarith
  have h2 := p.ch_sh
  have hs : p.sh = 0 := mul_self_eq_zero.mp (by linarith)
  have hc := p.ch_nonneg
  exact ⟨by nlinarith, by rw [V4.s, hs]; simp⟩

theorem axis_down {p : V4 ℝ} (hx : p.x = 0) (hy : p.y = 0) (hz : p.z < 0) : p.ch = 0 ∧ p.s = p.ei := by
  have h := p.mag_cos
  rw [axis_mag hx hy, abs_of_neg hz] at h
  have h1 : p.ch * p.ch - p.sh * p.sh = -1 := by
    have : p.z * (p.ch * p.ch - p.sh * p.sh + 1) = 0 := by linarith
    rcases mul_eq_zero.mp this with h' | h' <;> linarith
  have h2 := p.ch_sh
  have hc : p.ch = 0 := mul_self_eq_zero.mp (by linarith)
  have hs := p.sh_nonneg
  have hs1 : p.sh = 1 := by nlinarith
  exact ⟨hc, by rw [V4.s, hs1]; simp⟩

theorem product_one {Q : Proc} {ρ : Nat → ℝ} {p : Nat → V4 ℝ} (n : Nat) (d : SPDef) (j : Int) (h : (Q.sym.bind fun S => S.gsp n) = some d) : (Q.env ρ p).v n [j] = zchain p (Q.massNum ρ) d j j := by
  show braTab (fun a => Q.sym.bind fun S => S.gsp a) p (Q.massNum ρ) n _ = _
  unfold braTab
  beta_reduce
  rw [h]
theorem product_none {Q : Proc} {ρ : Nat → ℝ} {p : Nat → V4 ℝ} (n : Nat) (d : SPDef) (h : (Q.sym.bind fun S => S.gsp n) = some d) : (Q.env ρ p).v n [] = zchain p (Q.massNum ρ) d 1 1 := by
  show braTab (fun a => Q.sym.bind fun S => S.gsp a) p (Q.massNum ρ) n _ = _
  unfold braTab
  beta_reduce
  rw [h]

set_option maxRecDepth 8000

namespace eAeh

/-- electron and photon meet on the z axis; the electron goes back -/
noncomputable def momenta (i : Nat) : V4 ℝ := match i with
  | 0 => ⟨17, 0, 0, 8⟩
  | 1 => ⟨25 / 2, 0, 0, -25 / 2⟩
  | 2 => ⟨17, 0, 0, -8⟩
  | _ => ⟨25 / 2, 0, 0, 7 / 2⟩

/-- charge `e`, masses 15 and 12, vacuum expectation value `v` -/
def numbers (e v : ℝ) (n : Nat) : ℝ := if n = 0 then e else if n = 1 then 15 else if n = 2 then 12 else v

theorem sqrt25 : √(25 : ℝ) = 5 := by rw [show (25 : ℝ) = 5 ^ 2 by norm_num]; exact Real.sqrt_sq (by norm_num)
theorem sqrt9 : √(9 : ℝ) = 3 := by rw [show (9 : ℝ) = 3 ^ 2 by norm_num]; exact Real.sqrt_sq (by norm_num)

theorem ab0 : (momenta 0).a = 5 ∧ (momenta 0).b = 3 := by
  have : (momenta 0).mag = 8 := (axis_mag rfl rfl).trans (abs_of_pos (by norm_num [momenta]))
  refine ⟨?_, ?_⟩
  · rw [V4.a, this, ← sqrt25]; norm_num [momenta]
  · rw [V4.b, this, ← sqrt9]; norm_num [momenta]
theorem a1 : (momenta 1).a = 5 := by
  have : (momenta 1).mag = 25 / 2 := (axis_mag rfl rfl).trans ((abs_of_neg (by norm_num [momenta])).trans (by norm_num [momenta]))
  rw [V4.a, this, ← sqrt25]; norm_num [momenta]
theorem ab2 : (momenta 2).a = 5 ∧ (momenta 2).b = 3 := by
  have : (momenta 2).mag = 8 := (axis_mag rfl rfl).trans ((abs_of_neg (by norm_num [momenta])).trans (by norm_num [momenta]))
  refine ⟨?_, ?_⟩
  · rw [V4.a, this, ← sqrt25]; norm_num [momenta]
  · rw [V4.b, this, ← sqrt9]; norm_num [momenta]

/-- values of the products for these momenta; `w` is the phase at the axis -/
theorem products_axis (e v : ℝ) : ∃ w : ℂ, w * (starRingEnd ℂ) w = 1 ∧ ∀ N, N = P.env (numbers e v) momenta →
    (N.v 0 [1] = 25 * (starRingEnd ℂ) w ∧ N.v 0 [-1] = 0) ∧ (N.v 1 [1] = 0 ∧ N.v 1 [-1] = -25 * w) ∧ (N.v 2 [1] = 0 ∧ N.v 2 [-1] = -15) ∧ (N.v 3 [1] = -15 ∧ N.v 3 [-1] = 0) ∧
    (N.v 6 [1] = 0 ∧ N.v 6 [-1] = 400) ∧ (N.v 7 [1] = 400 ∧ N.v 7 [-1] = 0) ∧ (N.v 8 [1] = 240 * (starRingEnd ℂ) w ∧ N.v 8 [-1] = 0) ∧ (N.v 9 [1] = 0 ∧ N.v 9 [-1] = -240 * w) ∧ N.v 10 [] = 0 ∧ N.v 11 [] = 0 := by
  obtain ⟨c0, s0⟩ := axis_up (p := momenta 0) rfl rfl (by norm_num [momenta])
  obtain ⟨c1, s1⟩ := axis_down (p := momenta 1) rfl rfl (by norm_num [momenta])
  obtain ⟨c2, s2⟩ := axis_down (p := momenta 2) rfl rfl (by norm_num [momenta])
  rw [show (momenta 2).ei = (momenta 1).ei from rfl] at s2
  have hn := (momenta 1).ei_mul_conj
  obtain ⟨a0, b0⟩ := ab0
  obtain ⟨a2, b2⟩ := ab2
  have e1 := a1
  have m0 : P.massNum (numbers e v) 0 ≠ 0 := by show (15 : ℝ) ≠ 0; norm_num
  have m1 : P.massNum (numbers e v) 1 = 0 := Nat.cast_zero
  have m2 : P.massNum (numbers e v) 2 ≠ 0 := by show (15 : ℝ) ≠ 0; norm_num
  have u3 : slashUpper (momenta 3) = !![9, 0; 0, 16] := by ext i j; fin_cases i <;> fin_cases j <;> norm_num [slashUpper, momenta]
  have l3 : slashLower (momenta 3) = !![16, 0; 0, 9] := by ext i j; fin_cases i <;> fin_cases j <;> norm_num [slashLower, momenta]
  have u2 : slashUpper (momenta 2) = !![25, 0; 0, 9] := by ext i j; fin_cases i <;> fin_cases j <;> norm_num [slashUpper, momenta]
  have l2 : slashLower (momenta 2) = !![9, 0; 0, 25] := by ext i j; fin_cases i <;> fin_cases j <;> norm_num [slashLower, momenta]
  refine ⟨(momenta 1).ei, hn, ?_⟩
  rintro N rfl
  rw [product_one 0 ⟨false, 0, true, [], 1, true⟩ _ rfl, product_one 0 ⟨false, 0, true, [], 1, true⟩ _ rfl, product_one 1 ⟨true, 0, true, [], 1, true⟩ _ rfl, product_one 1 ⟨true, 0, true, [], 1, true⟩ _ rfl,
    product_one 2 ⟨false, 1, true, [], 2, true⟩ _ rfl, product_one 2 ⟨false, 1, true, [], 2, true⟩ _ rfl, product_one 3 ⟨true, 1, true, [], 2, true⟩ _ rfl, product_one 3 ⟨true, 1, true, [], 2, true⟩ _ rfl,
    product_one 6 ⟨false, 1, true, [3], 2, true⟩ _ rfl, product_one 6 ⟨false, 1, true, [3], 2, true⟩ _ rfl, product_one 7 ⟨true, 1, true, [3], 2, true⟩ _ rfl, product_one 7 ⟨true, 1, true, [3], 2, true⟩ _ rfl,
    product_one 8 ⟨false, 1, true, [3], 0, true⟩ _ rfl, product_one 8 ⟨false, 1, true, [3], 0, true⟩ _ rfl, product_one 9 ⟨true, 1, true, [3], 0, true⟩ _ rfl, product_one 9 ⟨true, 1, true, [3], 0, true⟩ _ rfl,
    product_none 10 ⟨false, 1, true, [2, 3], 1, true⟩ rfl, product_none 11 ⟨true, 1, true, [2, 3], 1, true⟩ rfl]
  simp only [zchain, zend, m1, if_true, if_neg m0, if_neg m2, kindL, kindR, slashProd]
  simp [hv, sv, V4.sb, c0, c1, c2, s0, s1, s2, a0, b0, e1, a2, b2, u3, l3, u2, l2, Matrix.vecMul, dotProduct, Matrix.mul_apply]
  generalize (momenta 1).ei = w at hn
  refine ⟨?_, ?_, ?_, ?_, ?_, ?_, ?_, ?_⟩
  · ring
  · ring
  · linear_combination 15 * hn
  · linear_combination 15 * hn
  · linear_combination 400 * hn
  · linear_combination 400 * hn
  · ring
  · ring

/-- the sums over the spins, with all products and without `[2|4|1>` and `<2|4|1]` -/
theorem totals (e v : ℝ) : total (P.env (numbers e v) momenta) 15 12 = 2 * 150000 ^ 2 ∧ total (dropped (P.env (numbers e v) momenta)) 15 12 = 2 * 204000 ^ 2 := by
  obtain ⟨w, hw, h⟩ := products_axis e v
  generalize hN : P.env (numbers e v) momenta = N
  obtain ⟨⟨a0, b0⟩, ⟨a1, b1⟩, ⟨a2, b2⟩, ⟨a3, b3⟩, ⟨a6, b6⟩, ⟨a7, b7⟩, ⟨a8, b8⟩, ⟨a9, b9⟩, h10, h11⟩ := h N hN.symm
  have n1 : ‖w‖ ^ 2 = 1 := by
    have : ((‖w‖ ^ 2 : ℝ) : ℂ) = 1 := by
      rw [← hw, Complex.mul_conj, Complex.normSq_eq_norm_sq]
    exact_mod_cast this
  have k : ∀ (x : ℝ) (z : ℂ), ‖z‖ ^ 2 = 1 → ‖(x : ℂ) * z‖ ^ 2 = x ^ 2 := by
    intro x z hz
    rw [norm_mul, mul_pow, hz, Complex.norm_real, Real.norm_eq_abs, sq_abs, mul_one]
  have n2 : ‖(starRingEnd ℂ) w‖ ^ 2 = 1 := by rw [RCLike.norm_conj, n1]
  have eP : nP N 15 12 1 (-1) = ((-150000 : ℝ) : ℂ) * (starRingEnd ℂ) w := by
    simp only [nP, a0, b2, b6, a8, h10]; push_cast; ring
  have eM : nM N 15 12 (-1) 1 = ((-150000 : ℝ) : ℂ) * w := by
    simp only [nM, b1, a3, a7, b9, h11]; push_cast; ring
  have dP : nP (dropped N) 15 12 1 (-1) = ((-204000 : ℝ) : ℂ) * (starRingEnd ℂ) w := by
    simp [nP, dropped, a0, b2, b6, h10]; ring
  have dM : nM (dropped N) 15 12 (-1) 1 = ((-204000 : ℝ) : ℂ) * w := by
    simp [nM, dropped, b1, a3, a7, h11]; ring
  refine ⟨?_, ?_⟩
  · unfold total
    rw [eP, eM, k _ _ n1, k _ _ n2]
    simp [nP, nM, a0, b0, a1, b1, a2, b2, a3, b3, a6, b6, a7, b7, a8, b8, a9, b9, h10, h11]
    norm_num
  · unfold total
    rw [dP, dM, k _ _ n1, k _ _ n2]
    simp [nP, nM, dropped, a0, b0, a1, b1, a2, b2, a3, b3, a6, b6, a7, b7, h10, h11]
    norm_num

end eAeh
end
end Spinas.SM.Direct

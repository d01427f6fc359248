import Verif.Exact.Spinors
import Verif.Spec.Kinematics
import Verif.Props.MassShell

/-! Properties C33 - C38: propagators, rotations, boosts, random momenta. -/

namespace Spinas

/-- finite 3-vectors of the exact instance -/
noncomputable def V3.toX (v : V3 ℝ) : V3 XR := ⟨.fin v.x, .fin v.y, .fin v.z⟩

@[simp] theorem V4.toX_inj {p q : V4 ℝ} : p.toX = q.toX ↔ p = q := by
  constructor
  · intro h
    obtain ⟨a, b, c, d⟩ := p
    obtain ⟨a', b', c', d'⟩ := q
    simp only [V4.toX, V4.mk.injEq, XR.fin_inj] at h
    obtain ⟨rfl, rfl, rfl, rfl⟩ := h; rfl
  · rintro rfl; rfl

end Spinas

namespace Spinas.Props
open Spinas Spec XR

/-- **C33 (any arithmetic).** After any history of calls the denominator is the one of a propagator constructed with the mass and
the width set last. -/
theorem C33_history {R C : Type} [Scalar R] [Cplx R C] (P : Propag R) (ops : List (Propag.Op R)) (p : V4 R) :
    ((Propag.run ops P).denominator p : C) = (Propag.ctor (lastMass P.m ops) (lastWidth P.w ops)).denominator p := by
  suffices Propag.run ops P = Propag.ctor (lastMass P.m ops) (lastWidth P.w ops) by rw [this]
  induction ops generalizing P with
  | nil => rfl
  | cons o os ih => cases o <;> exact ih _

section main
variable [FPEnv]

/-- **C33.** The denominator is `p.p - m^2 - i m w`, vanishes exactly at the pole of a propagator without width, its modulus is at
least `|m w|`, and it is the same for all momenta with the same square. -/
theorem C33_denominator (m w : ℝ) (p q : V4 ℝ) :
    (Propag.ctor (.fin m) (.fin w)).denominator p.toX = ofC (dot p p - m ^ 2 - m * w * Complex.I) ∧
    ((Propag.ctor (.fin m) (.fin w)).denominator p.toX = ofC 0 ↔ dot p p = m ^ 2 ∧ m * w = 0) ∧
    (∃ r, (Cplx.abs ((Propag.ctor (.fin m) (.fin w)).denominator p.toX : XC) : XR) = .fin r ∧ |m * w| ≤ r) ∧
    (dot p p = dot q q → ((Propag.ctor (.fin m) (.fin w)).denominator p.toX : XC) = (Propag.ctor (.fin m) (.fin w)).denominator q.toX) := by
  have key : ∀ p : V4 ℝ, ((Propag.ctor (.fin m) (.fin w)).denominator p.toX : XC) = ofC (dot p p - m ^ 2 - m * w * Complex.I) := by
    intro p
    simp only [Propag.denominator, Propag.ctor, V4.toX, fin_mul, fin_sub, fin_neg, c_cart, ofC_inj]
    apply Complex.ext
    · simp [dot, pow_two]
    · simp [pow_two]
  have im : ((dot p p - m ^ 2 - m * w * Complex.I : ℂ)).im = -(m * w) := by simp [pow_two]
  have re : ((dot p p - m ^ 2 - m * w * Complex.I : ℂ)).re = dot p p - m ^ 2 := by simp [pow_two]
  refine ⟨key p, ?_, ?_, ?_⟩
  · rw [key, ofC_inj, Complex.ext_iff, im, re]
    simp only [Complex.zero_re, Complex.zero_im, sub_eq_zero, neg_eq_zero]
  · refine ⟨‖(dot p p - m ^ 2 - m * w * Complex.I : ℂ)‖, by rw [key, c_abs], ?_⟩
    have := Complex.abs_im_le_norm (dot p p - m ^ 2 - m * w * Complex.I : ℂ)
    rwa [im, abs_neg] at this
  · intro h; rw [key, key, h]

/-! ### Rotations -/

theorem sqrt_one_sub_cos (θ : ℝ) : Real.sqrt (1 - Real.cos θ * Real.cos θ) = |Real.sin θ| := by
  rw [← Real.sqrt_sq_eq_abs]; congr 1
  have := Real.sin_sq_add_cos_sq θ; nlinarith

theorem rotate_fin (p : V4 ℝ) (u : V3 ℝ) (θ : ℝ) :
    Util.rotate p.toX u.toX (.fin θ) = (rodrigues u (Real.cos θ) |Real.sin θ| p).toX := by
  have h : (0 : ℝ) ≤ 1 - Real.cos θ * Real.cos θ := by
    have := Real.sin_sq_add_cos_sq θ; nlinarith [sq_nonneg (Real.sin θ)]
  simp only [Util.rotate, Util.row, V4.toX, V3.toX, s_cos, s_int, fin_mul, fin_sub, fin_add, V4.mk.injEq]
  push_cast
  rw [s_sqrt h, sqrt_one_sub_cos]
  simp only [fin_mul, fin_sub, fin_add, fin_inj, rodrigues, cross, dot3, space]
  refine ⟨?_, ?_, ?_, ?_⟩ <;> ring

/-- **C35.** `rotate_momentum` is the right-handed rotation about the unit axis `u` by the angle `theta` if `sin theta >= 0` and by
`-theta` if `sin theta < 0`. -/
theorem C35_direction (p : V4 ℝ) (u : V3 ℝ) (θ : ℝ) :
    let α := if 0 ≤ Real.sin θ then θ else -θ
    Util.rotate p.toX u.toX (.fin θ) = (rodrigues u (Real.cos α) (Real.sin α) p).toX := by
  intro α
  rw [rotate_fin]
  by_cases h : 0 ≤ Real.sin θ
  · rw [show α = θ from if_pos h, abs_of_nonneg h]
  · rw [show α = -θ from if_neg h, abs_of_neg (not_le.mp h), Real.cos_neg, Real.sin_neg]

/-- **C35.** So for `sin theta < 0` it is not the rotation by `theta`, for any axis. -/
theorem C35_wrong_direction (u : V3 ℝ) (hu : dot3 u u = 1) (θ : ℝ) (h : Real.sin θ < 0) :
    ∃ p : V4 ℝ, Util.rotate p.toX u.toX (.fin θ) ≠ (rodrigues u (Real.cos θ) (Real.sin θ) p).toX := by
  by_contra hc
  push Not at hc
  have hs : |Real.sin θ| - Real.sin θ ≠ 0 := by rw [abs_of_neg h]; linarith
  have key : ∀ p : V4 ℝ, (cross u (space p)) = ⟨0, 0, 0⟩ := by
    intro p
    have := hc p
    rw [rotate_fin, V4.toX_inj] at this
    simp only [rodrigues, V4.mk.injEq, true_and] at this
    obtain ⟨h1, h2, h3⟩ := this
    have e : ∀ a b c x : ℝ, a + |Real.sin θ| * x + c = a + Real.sin θ * x + c → x = 0 := by
      intro a b c x he
      have : (|Real.sin θ| - Real.sin θ) * x = 0 := by linarith
      exact (mul_eq_zero.mp this).resolve_left hs
    have g1 := e _ 0 _ _ h1
    have g2 := e _ 0 _ _ h2
    have g3 := e _ 0 _ _ h3
    cases hcr : cross u (space p)
    rw [hcr] at g1 g2 g3
    simp only at g1 g2 g3
    rw [g1, g2, g3]
  have h1 := key ⟨0, 1, 0, 0⟩
  have h2 := key ⟨0, 0, 1, 0⟩
  simp only [cross, space, V3.mk.injEq] at h1 h2
  simp only [dot3] at hu
  obtain ⟨_, a, b⟩ := h1
  obtain ⟨c, _, d⟩ := h2
  have hz : u.z = 0 := by linarith
  have hy : u.y = 0 := by linarith
  have hx : u.x = 0 := by linarith
  rw [hx, hy, hz] at hu
  norm_num at hu

/-- rotations preserve scalar products -/
theorem rodrigues_dot (u : V3 ℝ) (hu : dot3 u u = 1) {c s : ℝ} (h : c ^ 2 + s ^ 2 = 1) (p q : V4 ℝ) :
    dot (rodrigues u c s p) (rodrigues u c s q) = dot p q := by
  obtain ⟨pt, px, py, pz⟩ := p
  obtain ⟨qt, qx, qy, qz⟩ := q
  obtain ⟨x, y, z⟩ := u
  simp only [dot, rodrigues, cross, dot3, space] at *
  grind

theorem cos_abs_sin (θ : ℝ) : Real.cos θ ^ 2 + |Real.sin θ| ^ 2 = 1 := by
  rw [sq_abs]; linarith [Real.sin_sq_add_cos_sq θ]

/-- **C34.** With a unit axis the energy, all scalar products and all momenta along the axis are unchanged. -/
theorem C34_rotation (p q : V4 ℝ) (u : V3 ℝ) (hu : dot3 u u = 1) (θ : ℝ) :
    ∃ p' q' : V4 ℝ, Util.rotate p.toX u.toX (.fin θ) = p'.toX ∧ Util.rotate q.toX u.toX (.fin θ) = q'.toX ∧
      p'.t = p.t ∧ dot p' q' = dot p q ∧ (∀ k : ℝ, space p = ⟨k * u.x, k * u.y, k * u.z⟩ → p' = p) := by
  refine ⟨_, _, rotate_fin p u θ, rotate_fin q u θ, rfl, rodrigues_dot u hu (cos_abs_sin θ) p q, ?_⟩
  intro k hk
  obtain ⟨pt, px, py, pz⟩ := p
  simp only [space, V3.mk.injEq] at hk
  obtain ⟨rfl, rfl, rfl⟩ := hk
  simp only [dot3] at hu
  simp only [rodrigues, cross, dot3, space, V4.mk.injEq, true_and]
  generalize |Real.sin θ| = s
  generalize Real.cos θ = c
  refine ⟨?_, ?_, ?_⟩ <;> grind

theorem rodrigues_total (u : V3 ℝ) (c s : ℝ) (ps : List (V4 ℝ)) :
    total (ps.map (rodrigues u c s)) = rodrigues u c s (total ps) := by
  induction ps with
  | nil => simp [total, rodrigues, cross, dot3, space]
  | cons p ps ih =>
    simp only [List.map_cons, total, ih]
    simp only [add4, rodrigues, cross, dot3, space, V4.mk.injEq, true_and]
    refine ⟨?_, ?_, ?_⟩ <;> ring

/-- **C34.** Momentum conservation survives the rotation, for any numbers of incoming and outgoing momenta. -/
theorem C34_conservation (ps qs : List (V4 ℝ)) (u : V3 ℝ) (θ : ℝ) (h : total ps = total qs) :
    ∃ ps' qs' : List (V4 ℝ), ps.map (fun p => Util.rotate p.toX u.toX (.fin θ)) = ps'.map V4.toX ∧
      qs.map (fun p => Util.rotate p.toX u.toX (.fin θ)) = qs'.map V4.toX ∧ total ps' = total qs' := by
  refine ⟨ps.map (rodrigues u (Real.cos θ) |Real.sin θ|), qs.map (rodrigues u (Real.cos θ) |Real.sin θ|), ?_, ?_, ?_⟩
  · rw [List.map_map]; exact List.map_congr_left fun p _ => rotate_fin p u θ
  · rw [List.map_map]; exact List.map_congr_left fun p _ => rotate_fin p u θ
  · rw [rodrigues_total, rodrigues_total, h]

/-! ### Boosts -/

/-- the boost in real arithmetic, with `g` the Lorentz factor and `k = (g-1)/v^2` -/
def rboost (v : V3 ℝ) (g k : ℝ) (p : V4 ℝ) : V4 ℝ :=
  let a := dot3 v (space p)
  ⟨g * (p.t - a), p.x + v.x * (k * a - g * p.t), p.y + v.y * (k * a - g * p.t), p.z + v.z * (k * a - g * p.t)⟩

noncomputable def gam (v : V3 ℝ) : ℝ := 1 / Real.sqrt (1 - dot3 v v)

theorem gam_pos {v : V3 ℝ} (h : dot3 v v < 1) : 0 < gam v := by
  unfold gam; have := Real.sqrt_pos.mpr (sub_pos.mpr h); positivity

theorem gam_sq {v : V3 ℝ} (h : dot3 v v < 1) : gam v ^ 2 * (1 - dot3 v v) = 1 := by
  have h' := sub_pos.mpr h
  have := Real.sqrt_pos.mpr h'
  unfold gam
  have e := Real.mul_self_sqrt h'.le
  field_simp
  nlinarith

theorem boost_fin (p : V4 ℝ) {v : V3 ℝ} (h0 : dot3 v v ≠ 0) (h1 : dot3 v v < 1) :
    Util.boost p.toX v.toX = (rboost v (gam v) ((gam v - 1) / dot3 v v) p).toX := by
  have h' := sub_pos.mpr h1
  have hs := Real.sqrt_pos.mpr h'
  have e : v.x * v.x + v.y * v.y + v.z * v.z = dot3 v v := rfl
  simp only [Util.boost, Util.row, V4.toX, V3.toX, s_int, fin_mul, fin_sub, fin_add, V4.mk.injEq, fin_neg]
  push_cast
  rw [e, s_sqrt h'.le, fin_div hs.ne']
  simp only [fin_mul, fin_sub, fin_add, fin_neg, fin_div h0]
  rw [show 1 / Real.sqrt (1 - dot3 v v) = gam v from rfl]
  simp only [fin_inj, rboost]
  obtain ⟨x, y, z⟩ := v
  generalize gam _ = g
  have e : dot3 ⟨x, y, z⟩ (space p) = x * p.x + y * p.y + z * p.z := rfl
  rw [e]
  refine ⟨?_, ?_, ?_, ?_⟩ <;> ring

/-- the relations between the Lorentz factor and `k` -/
structure BoostRel (v : V3 ℝ) (g k : ℝ) : Prop where
  hg : g ^ 2 * (1 - dot3 v v) = 1
  hk : k * dot3 v v = g - 1
  hgk : g ^ 2 = (g + 1) * k

theorem boostRel {v : V3 ℝ} (h0 : dot3 v v ≠ 0) (h1 : dot3 v v < 1) : BoostRel v (gam v) ((gam v - 1) / dot3 v v) := by
  have hg := gam_sq h1
  have hk : (gam v - 1) / dot3 v v * dot3 v v = gam v - 1 := div_mul_cancel₀ _ h0
  refine ⟨hg, hk, ?_⟩
  have : (gam v ^ 2 - (gam v + 1) * ((gam v - 1) / dot3 v v)) * dot3 v v = 0 := by
    linear_combination -hg - (gam v + 1) * hk
  have := (mul_eq_zero.mp this).resolve_right h0
  linarith

theorem rboost_dot {v : V3 ℝ} {g k : ℝ} (h : BoostRel v g k) (p q : V4 ℝ) :
    dot (rboost v g k p) (rboost v g k q) = dot p q := by
  obtain ⟨hg, hk, hgk⟩ := h
  obtain ⟨pt, px, py, pz⟩ := p
  obtain ⟨qt, qx, qy, qz⟩ := q
  obtain ⟨x, y, z⟩ := v
  simp only [dot, rboost, dot3, space] at *
  linear_combination (pt * qt) * hg + (pt * (x * qx + y * qy + z * qz) + qt * (x * px + y * py + z * pz)) * g * hk
    + (x * px + y * py + z * pz) * (x * qx + y * qy + z * qz) * (hgk - k * hk)

theorem rboost_inv {v : V3 ℝ} {g k : ℝ} (h : BoostRel v g k) (p : V4 ℝ) :
    rboost ⟨-v.x, -v.y, -v.z⟩ g k (rboost v g k p) = p := by
  obtain ⟨hg, hk, hgk⟩ := h
  obtain ⟨pt, px, py, pz⟩ := p
  obtain ⟨x, y, z⟩ := v
  simp only [rboost, dot3, space, V4.mk.injEq] at *
  have e : ∀ w : ℝ, w * (k * (x * px + y * py + z * pz) - g * pt) - w * (k * (-x * (px + x * (k * (x * px + y * py + z * pz) - g * pt)) +
      -y * (py + y * (k * (x * px + y * py + z * pz) - g * pt)) + -z * (pz + z * (k * (x * px + y * py + z * pz) - g * pt)))
      - g * (g * (pt - (x * px + y * py + z * pz)))) = 0 := by
    intro w
    linear_combination w * (x * px + y * py + z * pz) * (k * hk - hgk) + w * pt * (-g * hk)
  refine ⟨?_, ?_, ?_, ?_⟩
  · linear_combination pt * hg + g * (x * px + y * py + z * pz) * hk
  · linear_combination e x
  · linear_combination e y
  · linear_combination e z

theorem rboost_total (v : V3 ℝ) (g k : ℝ) (ps : List (V4 ℝ)) : total (ps.map (rboost v g k)) = rboost v g k (total ps) := by
  induction ps with
  | nil => simp [total, rboost, dot3, space]
  | cons p ps ih =>
    simp only [List.map_cons, total, ih]
    simp only [add4, rboost, dot3, space, V4.mk.injEq]
    refine ⟨?_, ?_, ?_, ?_⟩ <;> ring

/-- E >= |p| and E > 0 -/
def Future (p : V4 ℝ) : Prop := 0 < p.t ∧ Real.sqrt (p.x ^ 2 + p.y ^ 2 + p.z ^ 2) ≤ p.t

theorem future_iff (p : V4 ℝ) : Future p ↔ 0 < p.t ∧ 0 ≤ dot p p := by
  unfold Future
  constructor
  · rintro ⟨h, h'⟩
    rw [Real.sqrt_le_left h.le] at h'
    exact ⟨h, by unfold dot; nlinarith⟩
  · rintro ⟨h, h'⟩
    refine ⟨h, ?_⟩
    rw [Real.sqrt_le_left h.le]
    unfold dot at h'; nlinarith

theorem rboost_future {v : V3 ℝ} (h0 : dot3 v v ≠ 0) (h1 : dot3 v v < 1) {p : V4 ℝ} (hp : Future p) :
    Future (rboost v (gam v) ((gam v - 1) / dot3 v v) p) := by
  rw [future_iff] at hp ⊢
  rw [rboost_dot (boostRel h0 h1)]
  refine ⟨?_, hp.2⟩
  show 0 < gam v * (p.t - dot3 v (space p))
  refine mul_pos (gam_pos h1) ?_
  have hcs : dot3 v (space p) ^ 2 ≤ dot3 v v * dot3 (space p) (space p) := by
    unfold dot3 space
    nlinarith [sq_nonneg (v.x * p.y - v.y * p.x), sq_nonneg (v.x * p.z - v.z * p.x), sq_nonneg (v.y * p.z - v.z * p.y)]
  have hpp : dot3 (space p) (space p) ≤ p.t ^ 2 := by
    have := hp.2; unfold dot at this; unfold dot3 space; simp only; nlinarith
  have hv : 0 ≤ dot3 v v := by unfold dot3; nlinarith [mul_self_nonneg v.x, mul_self_nonneg v.y, mul_self_nonneg v.z]
  have hlt : dot3 v (space p) ^ 2 < p.t ^ 2 := by
    have h2 : 0 < p.t ^ 2 := by have := hp.1; positivity
    nlinarith
  have := abs_lt_of_sq_lt_sq hlt hp.1.le
  have := (abs_lt.mp this).2
  linarith

/-- **C36.** For `0 < |v| < 1`: scalar products are preserved, the boost with `-v` undoes the boost, a particle moving with velocity
`v` is brought to rest, and physical momenta (`E > 0`, `E >= |p|`) stay physical. -/
theorem C36_boost (p q : V4 ℝ) (v : V3 ℝ) (h0 : 0 < dot3 v v) (h1 : dot3 v v < 1) :
    ∃ p' q' : V4 ℝ, Util.boost p.toX v.toX = p'.toX ∧ Util.boost q.toX v.toX = q'.toX ∧ dot p' q' = dot p q ∧
      Util.boost p'.toX (V3.toX ⟨-v.x, -v.y, -v.z⟩) = p.toX ∧
      (space p = ⟨p.t * v.x, p.t * v.y, p.t * v.z⟩ → space p' = ⟨0, 0, 0⟩ ∧ p'.t = p.t * Real.sqrt (1 - dot3 v v)) ∧
      (Future p → Future p') := by
  have hr := boostRel h0.ne' h1
  refine ⟨_, _, boost_fin p h0.ne' h1, boost_fin q h0.ne' h1, rboost_dot hr p q, ?_, ?_, rboost_future h0.ne' h1⟩
  · have e : dot3 ⟨-v.x, -v.y, -v.z⟩ ⟨-v.x, -v.y, -v.z⟩ = dot3 v v := by simp [dot3]
    have eg : gam ⟨-v.x, -v.y, -v.z⟩ = gam v := by unfold gam; rw [e]
    rw [boost_fin _ (by rw [e]; exact h0.ne') (by rw [e]; exact h1), e, eg, rboost_inv hr]
  · intro hsp
    have hd : dot3 v (space p) = p.t * dot3 v v := by rw [hsp]; simp only [dot3]; ring
    obtain ⟨hg, hk, hgk⟩ := hr
    have hs2 : gam v * Real.sqrt (1 - dot3 v v) = 1 := by
      unfold gam; exact one_div_mul_cancel (Real.sqrt_pos.mpr (by linarith)).ne'
    have hss := Real.mul_self_sqrt (sub_pos.mpr h1).le
    constructor
    · have hx : p.x = p.t * v.x := congrArg V3.x hsp
      have hy : p.y = p.t * v.y := congrArg V3.y hsp
      have hz : p.z = p.t * v.z := congrArg V3.z hsp
      show V3.mk _ _ _ = _
      simp only [rboost, hd, V3.mk.injEq]
      generalize (gam v - 1) / dot3 v v = k at *
      refine ⟨?_, ?_, ?_⟩
      · rw [hx]; linear_combination v.x * p.t * hk
      · rw [hy]; linear_combination v.y * p.t * hk
      · rw [hz]; linear_combination v.z * p.t * hk
    · show gam v * (p.t - dot3 v (space p)) = _
      rw [hd]
      have : p.t - p.t * dot3 v v = p.t * (Real.sqrt (1 - dot3 v v) * Real.sqrt (1 - dot3 v v)) := by rw [hss]; ring
      rw [this]
      linear_combination p.t * Real.sqrt (1 - dot3 v v) * hs2

/-- **C36.** Momentum conservation survives the boost, for any numbers of incoming and outgoing momenta. -/
theorem C36_conservation (ps qs : List (V4 ℝ)) (v : V3 ℝ) (h0 : 0 < dot3 v v) (h1 : dot3 v v < 1) (h : total ps = total qs) :
    ∃ ps' qs' : List (V4 ℝ), ps.map (fun p => Util.boost p.toX v.toX) = ps'.map V4.toX ∧
      qs.map (fun p => Util.boost p.toX v.toX) = qs'.map V4.toX ∧ total ps' = total qs' := by
  refine ⟨ps.map (rboost v (gam v) ((gam v - 1) / dot3 v v)), qs.map (rboost v (gam v) ((gam v - 1) / dot3 v v)), ?_, ?_, ?_⟩
  · rw [List.map_map]; exact List.map_congr_left fun p _ => boost_fin p h0.ne' h1
  · rw [List.map_map]; exact List.map_congr_left fun p _ => boost_fin p h0.ne' h1
  · rw [rboost_total, rboost_total, h]

/-- **C37.** With `v = 0` the space components of the result are not finite numbers; with `|v| >= 1` no component is. -/
theorem C37_degenerate (p : V4 ℝ) (v : V3 ℝ) :
    (dot3 v v = 0 → (Util.boost p.toX v.toX).x = .nan ∧ (Util.boost p.toX v.toX).y = .nan ∧ (Util.boost p.toX v.toX).z = .nan) ∧
    (1 ≤ dot3 v v → Util.boost p.toX v.toX = ⟨.nan, .nan, .nan, .nan⟩) := by
  have e : v.x * v.x + v.y * v.y + v.z * v.z = dot3 v v := rfl
  constructor
  · intro h
    simp only [Util.boost, Util.row, V4.toX, V3.toX, s_int, fin_mul, fin_sub, fin_add, fin_neg]
    push_cast
    rw [e, h, sub_zero, s_sqrt zero_le_one, fin_div (by simp)]
    simp [fin_div_def]
  · intro h
    simp only [Util.boost, Util.row, V4.toX, V3.toX, s_int, fin_mul, fin_sub, fin_add, fin_neg]
    push_cast
    rw [e]
    have hg : (fin 1 / Scalar.sqrt (fin (1 - dot3 v v)) : XR) = nan := by
      rcases h.lt_or_eq with h | h
      · rw [s_sqrt_neg (by linarith)]; simp
      · rw [← h, sub_self, s_sqrt le_rfl, Real.sqrt_zero, fin_div_def, if_pos rfl]
    rw [hg]
    simp

/-! ### Random momenta -/

/-- **C38.** Whatever finite numbers are drawn, the random momenta are accepted by the particle constructor and have `E >= |p|`. -/
theorem C38_random (ω : Nat → ℝ → ℝ → ℝ) (n : Nat) (b e : ℝ) (Ω : Util.Stream XR)
    (hΩ : ∀ n b e, Ω n (.fin b) (.fin e) = .fin (ω n b e)) (junk : Kin XR XC) :
    (∃ (p : V4 ℝ) (m : ℝ), Util.randomMomentum Ω n (.fin b) (.fin e) = (p.toX, .fin m) ∧ OnShell p m ∧
      Real.sqrt (p.x ^ 2 + p.y ^ 2 + p.z ^ 2) ≤ p.t ∧ p.x = ω n b e ∧ p.y = ω (n + 1) b e ∧ p.z = ω (n + 2) b e ∧ m = ω (n + 3) 0 e ∧
      (Particle.ctorPM junk p.toX (.fin m)).1 = .ok ()) ∧
    (∃ p : V4 ℝ, Util.randomMasslessMomentum Ω n (.fin b) (.fin e) = p.toX ∧ OnShell p 0 ∧
      Real.sqrt (p.x ^ 2 + p.y ^ 2 + p.z ^ 2) ≤ p.t ∧ p.x = ω n b e ∧ p.y = ω (n + 1) b e ∧ p.z = ω (n + 2) b e ∧
      (Particle.ctorPM junk p.toX (.fin 0)).1 = .ok ()) := by
  constructor
  · have h0 : 0 ≤ ω (n + 3) 0 e * ω (n + 3) 0 e + (0 + ω n b e * ω n b e + ω (n + 1) b e * ω (n + 1) b e + ω (n + 2) b e * ω (n + 2) b e) := by
      have h1 := mul_self_nonneg (ω n b e)
      have h2 := mul_self_nonneg (ω (n + 1) b e)
      have h3 := mul_self_nonneg (ω (n + 2) b e)
      have h4 := mul_self_nonneg (ω (n + 3) 0 e)
      linarith
    have hs : OnShell ⟨Real.sqrt (ω (n + 3) 0 e * ω (n + 3) 0 e + (0 + ω n b e * ω n b e + ω (n + 1) b e * ω (n + 1) b e +
        ω (n + 2) b e * ω (n + 2) b e)), ω n b e, ω (n + 1) b e, ω (n + 2) b e⟩ (ω (n + 3) 0 e) :=
      ⟨Real.sqrt_nonneg _, by simp only [Real.sq_sqrt h0]; ring⟩
    refine ⟨_, _, ?_, hs, ?_, rfl, rfl, rfl, rfl, C03_on_shell_accepted junk hs⟩
    · simp only [Util.randomMomentum, hΩ, fin_mul, fin_add, s_int, V4.toX, Int.cast_zero]
      rw [s_sqrt h0]
    · rw [Real.sqrt_le_left hs.energy]
      have := hs.shell
      nlinarith [sq_nonneg (ω (n + 3) 0 e)]
  · have h0 : 0 ≤ (0 + ω n b e * ω n b e + ω (n + 1) b e * ω (n + 1) b e + ω (n + 2) b e * ω (n + 2) b e) := by
      have h1 := mul_self_nonneg (ω n b e)
      have h2 := mul_self_nonneg (ω (n + 1) b e)
      have h3 := mul_self_nonneg (ω (n + 2) b e)
      linarith
    have hs : OnShell ⟨Real.sqrt (0 + ω n b e * ω n b e + ω (n + 1) b e * ω (n + 1) b e +
        ω (n + 2) b e * ω (n + 2) b e), ω n b e, ω (n + 1) b e, ω (n + 2) b e⟩ 0 :=
      ⟨Real.sqrt_nonneg _, by simp only [Real.sq_sqrt h0]; ring⟩
    refine ⟨_, ?_, hs, ?_, rfl, rfl, rfl, C03_on_shell_accepted junk hs⟩
    · simp only [Util.randomMasslessMomentum, hΩ, fin_mul, fin_add, s_int, V4.toX, Int.cast_zero]
      rw [s_sqrt h0]
    · rw [Real.sqrt_le_left hs.energy]
      have := hs.shell
      nlinarith

end main

section examples
attribute [local instance] doubleEnv

/-- a propagator whose mass is set twice -/
example : Propag.run [.setMass (.fin 1), .setWidth (.fin 2), .setMass (.fin 91)] (Propag.ctor0 : Propag XR) = ⟨.fin 91, .fin 2⟩ := rfl
/-- the pole is reached -/
example : dot ⟨5, 0, 4, 0⟩ ⟨5, 0, 4, 0⟩ = (3 : ℝ) ^ 2 := by norm_num [dot]
/-- a unit axis that is not a coordinate axis, and an angle with negative sine -/
example : dot3 ⟨3 / 5, 0, 4 / 5⟩ ⟨3 / 5, 0, 4 / 5⟩ = 1 ∧ Real.sin (-(Real.pi / 2)) < 0 := by
  constructor
  · norm_num [dot3]
  · rw [Real.sin_neg, Real.sin_pi_div_two]; norm_num
/-- a velocity, a momentum with this velocity, and a conserved list of momenta -/
example : 0 < dot3 ⟨3 / 5, 0, 0⟩ ⟨3 / 5, 0, 0⟩ ∧ dot3 ⟨3 / 5, 0, 0⟩ ⟨3 / 5, 0, 0⟩ < 1 ∧
    space ⟨5, 3, 0, 0⟩ = ⟨5 * (3 / 5), 5 * 0, 5 * 0⟩ ∧ Future ⟨5, 3, 0, 0⟩ ∧
    total [⟨5, 0, 0, 5⟩, ⟨5, 0, 0, -5⟩] = total [⟨5, 0, 5, 0⟩, ⟨5, 0, -5, 0⟩] := by
  refine ⟨by norm_num [dot3], by norm_num [dot3], by norm_num [space], ?_, by norm_num [total, add4]⟩
  rw [future_iff]; norm_num [dot]
/-- a stream of finite draws -/
example : ∃ (Ω : Util.Stream XR), ∀ n b e, Ω n (.fin b) (.fin e) = .fin (b + n / (n + 1) * (e - b)) :=
  ⟨fun n b e => b + .fin (n / (n + 1)) * (e - b), fun n b e => by simp⟩

end examples
end Spinas.Props

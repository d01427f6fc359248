import Verif.Exact.Pow

/-! A finite result has finite operands. -/

namespace Spinas
open XR

section
variable {x y : XR} {a : ℝ}

theorem add_fin (h : x + y = fin a) : ∃ b c, x = fin b ∧ y = fin c := by
  cases x <;> cases y <;> simp_all
theorem sub_fin (h : x - y = fin a) : ∃ b c, x = fin b ∧ y = fin c := by
  cases x <;> cases y <;> simp_all
theorem mul_fin (h : x * y = fin a) : ∃ b c, x = fin b ∧ y = fin c := by
  cases x <;> cases y <;> simp_all
theorem neg_fin (h : -x = fin a) : ∃ b, x = fin b := by
  cases x <;> simp_all
theorem div_fin (h : x / y = fin a) : ∃ b c, x = fin b ∧ y = fin c ∧ c ≠ 0 := by
  cases x <;> cases y <;> simp_all
  rw [fin_div_def] at h
  intro h0
  rw [if_pos h0] at h
  cases h
theorem pow_fin_inv {k : Nat} (h : SM.HasPow.pow x (k + 1) = fin a) : ∃ b, x = fin b := by
  cases x with
  | fin x => exact ⟨x, rfl⟩
  | nan => cases h
theorem sqrt_fin (h : XR.sqrt x = fin a) : ∃ b, x = fin b ∧ 0 ≤ b := by
  cases x with
  | nan => cases h
  | fin x =>
    refine ⟨x, rfl, ?_⟩
    by_contra hc
    rw [XR.sqrt, if_pos (not_le.mp hc)] at h
    cases h

theorem xr_add_assoc (x y z : XR) : x + y + z = x + (y + z) := by
  cases x <;> cases y <;> cases z <;> simp [add_assoc]
theorem xr_add_comm (x y : XR) : x + y = y + x := by
  cases x <;> cases y <;> simp [add_comm]
theorem xr_add_zero (x : XR) : x + fin 0 = x := by
  cases x <;> simp
theorem xr_sub (x y : XR) : x - y = x + -y := by
  cases x <;> cases y <;> simp [sub_eq_add_neg]
end

section
variable {x y : XC} {w : ℂ}

/-- finite complex number -/
def XC.Fin (x : XC) : Prop := ∃ z, x = ofC z

theorem xc_fin_iff : x.Fin ↔ ∃ a b, x.re = fin a ∧ x.im = fin b := by
  constructor
  · rintro ⟨z, rfl⟩; exact ⟨_, _, rfl, rfl⟩
  · rintro ⟨a, b, h1, h2⟩; exact ⟨⟨a, b⟩, XC.ext h1 h2⟩

theorem c_add_fin (h : (x + y).Fin) : x.Fin ∧ y.Fin := by
  obtain ⟨a, b, h1, h2⟩ := xc_fin_iff.mp h
  obtain ⟨p, q, e1, e2⟩ := add_fin (x := x.re) (y := y.re) h1
  obtain ⟨r, s, e3, e4⟩ := add_fin (x := x.im) (y := y.im) h2
  exact ⟨xc_fin_iff.mpr ⟨p, r, e1, e3⟩, xc_fin_iff.mpr ⟨q, s, e2, e4⟩⟩
theorem c_neg_fin (h : (-x).Fin) : x.Fin := by
  obtain ⟨a, b, h1, h2⟩ := xc_fin_iff.mp h
  obtain ⟨p, e1⟩ := neg_fin (x := x.re) h1
  obtain ⟨q, e2⟩ := neg_fin (x := x.im) h2
  exact xc_fin_iff.mpr ⟨p, q, e1, e2⟩
/-- the real part of the product is enough -/
theorem c_mul_fin_re {a : ℝ} (h : (x * y).re = fin a) : x.Fin ∧ y.Fin := by
  obtain ⟨p, q, e1, e2⟩ := sub_fin (x := x.re * y.re) (y := x.im * y.im) h
  obtain ⟨r, s, e3, e4⟩ := mul_fin e1
  obtain ⟨t, u, e5, e6⟩ := mul_fin e2
  exact ⟨xc_fin_iff.mpr ⟨_, _, e3, e5⟩, xc_fin_iff.mpr ⟨_, _, e4, e6⟩⟩
theorem c_mul_fin (h : (x * y).Fin) : x.Fin ∧ y.Fin := by
  obtain ⟨a, b, h1, h2⟩ := xc_fin_iff.mp h
  exact c_mul_fin_re h1
theorem c_div_fin (h : (x / y).Fin) : x.Fin ∧ ∃ v : ℂ, y = ofC v ∧ v ≠ 0 := by
  obtain ⟨a, b, h1, h2⟩ := xc_fin_iff.mp h
  obtain ⟨p, q, e1, e2, e3⟩ := div_fin (x := x.re * y.re + x.im * y.im) (y := y.re * y.re + y.im * y.im) h1
  obtain ⟨r, s, e4, e5⟩ := add_fin e1
  obtain ⟨t, u, e6, e7⟩ := mul_fin e4
  obtain ⟨t', u', e8, e9⟩ := mul_fin e5
  refine ⟨xc_fin_iff.mpr ⟨_, _, e6, e8⟩, ⟨u, u'⟩, XC.ext e7 e9, ?_⟩
  intro h0
  have h3 : u = 0 := congrArg Complex.re h0
  have h4 : u' = 0 := congrArg Complex.im h0
  rw [e7, e9, h3, h4] at e2
  simp at e2
  exact e3 e2.symm

variable [FPEnv]

theorem c_smul_fin {r : XR} (h : (Cplx.smul r x : XC).Fin) : (∃ a, r = fin a) ∧ x.Fin := by
  obtain ⟨a, b, h1, h2⟩ := xc_fin_iff.mp h
  obtain ⟨p, q, e1, e2⟩ := mul_fin (x := r) (y := x.re) h1
  obtain ⟨p', q', e3, e4⟩ := mul_fin (x := r) (y := x.im) h2
  exact ⟨⟨_, e1⟩, xc_fin_iff.mpr ⟨_, _, e2, e4⟩⟩
theorem c_divr_fin {r : XR} (h : (Cplx.divr x r : XC).Fin) : (∃ a, r = fin a ∧ a ≠ 0) ∧ x.Fin := by
  obtain ⟨a, b, h1, h2⟩ := xc_fin_iff.mp h
  obtain ⟨p, q, e1, e2, e5⟩ := div_fin (x := x.re) (y := r) h1
  obtain ⟨p', q', e3, e4, _⟩ := div_fin (x := x.im) (y := r) h2
  exact ⟨⟨_, e2, e5⟩, xc_fin_iff.mpr ⟨_, _, e1, e3⟩⟩
theorem c_ofReal_fin {r : XR} (h : (ofReal r : XC).Fin) : ∃ a, r = fin a := by
  obtain ⟨a, b, h1, _⟩ := xc_fin_iff.mp h
  exact ⟨a, h1⟩
theorem c_conj_fin (h : (Cplx.conj x : XC).Fin) : x.Fin := by
  obtain ⟨a, b, h1, h2⟩ := xc_fin_iff.mp h
  obtain ⟨q, e2⟩ := neg_fin (x := x.im) h2
  exact xc_fin_iff.mpr ⟨a, q, h1, e2⟩
theorem c_abs_fin {a : ℝ} (h : (Cplx.abs x : XR) = fin a) : x.Fin := by
  obtain ⟨b, e, _⟩ := sqrt_fin (x := x.re * x.re + x.im * x.im) h
  obtain ⟨p, q, e1, e2⟩ := add_fin e
  obtain ⟨r, s, e3, _⟩ := mul_fin e1
  obtain ⟨t, u, e5, _⟩ := mul_fin e2
  exact xc_fin_iff.mpr ⟨_, _, e3, e5⟩

omit [FPEnv] in
theorem xc_add_assoc (x y z : XC) : x + y + z = x + (y + z) := XC.ext (xr_add_assoc _ _ _) (xr_add_assoc _ _ _)
omit [FPEnv] in
theorem xc_add_zero (x : XC) : x + ofC 0 = x := XC.ext (xr_add_zero _) (xr_add_zero _)
omit [FPEnv] in
theorem xc_sub (x y : XC) : x - y = x + -y := XC.ext (xr_sub _ _) (xr_sub _ _)
end

end Spinas

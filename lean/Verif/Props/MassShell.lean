import Verif.Exact.Spinors
import Verif.Props.Spinors

/-! Properties C03, C19, C20: acceptance of momenta, indeterminate members, the self test of the angles. -/

namespace Spinas.Props
open Spinas Spec Matrix XR

section main
variable [FPEnv]

/-- **C03.** The constructor `particle(momentum, mass)` succeeds exactly when `|E^2-|p|^2-m^2| <= 10^9 epsilon`, and throws the
mass-shell exception otherwise; the same holds for `set_momentum` on a particle in any state whose mass was set to `m`. -/
theorem C03_mass_shell_gate (junk : Kin XR XC) (p : V4 ℝ) (m : ℝ) (P : Particle XR XC) (hm : P.kin.m = .fin m) :
    let out : Res Unit := if |p.t ^ 2 - p.x ^ 2 - p.y ^ 2 - p.z ^ 2 - m ^ 2| ≤ 1000000000 * FPEnv.eps then .ok () else .throw .massShell
    (Particle.ctorPM junk p.toX (.fin m)).1 = out ∧ (Particle.setMomentum p.toX P).1 = out := by
  have e : (1000000000 * FPEnv.eps : ℝ) = shellTol := by unfold shellTol; ring
  have e' : p.t ^ 2 - p.x ^ 2 - p.y ^ 2 - p.z ^ 2 = msq p := rfl
  rw [e, e']
  intro out
  refine ⟨ctorPM_fst junk p m, ?_⟩
  have h := update_fin { P with kin := { P.kin with p := p.toX }, pInit := true } p m rfl hm
  show (Particle.update _).1 = ite _ _ _
  split_ifs with hc
  · exact h.2 hc
  · exact h.1 (not_le.mp hc)

/-- **C03.** In particular every momentum that is exactly on shell is accepted. -/
theorem C03_on_shell_accepted (junk : Kin XR XC) {p : V4 ℝ} {m : ℝ} (h : OnShell p m) :
    (Particle.ctorPM junk p.toX (.fin m)).1 = .ok () := ctorPM_onShell junk h

/-- IEEE 754 rules for NaN: arithmetic with a NaN operand gives NaN, and `<` with a NaN operand is false.  (`nan x` says `x` is a NaN.)
These hold for `double` and `long double`, and for the exact instance. -/
structure NaNRules (R : Type) [Scalar R] (nan : R → Prop) : Prop where
  sub_left : ∀ x y : R, nan x → nan (x - y)
  sub_right : ∀ x y : R, nan y → nan (x - y)
  add_left : ∀ x y : R, nan x → nan (x + y)
  add_right : ∀ x y : R, nan y → nan (x + y)
  mul_self : ∀ x : R, nan x → nan (x * x)
  sqrt : ∀ x : R, nan x → nan (Scalar.sqrt x)
  abs : ∀ x : R, nan x → nan (Scalar.abs x)
  lt : ∀ x y : R, nan y → Scalar.lt x y = false

/-- **C03, what the gate does not catch (1).** In any arithmetic with the NaN rules, a momentum with a component that is NaN is accepted,
and so is a NaN mass. -/
theorem C03_nan_accepted {R C : Type} [Scalar R] [Cplx R C] {nan : R → Prop} (N : NaNRules R nan) (junk : Kin R C) (mom : V4 R) (mass : R)
    (h : nan mom.t ∨ nan mom.x ∨ nan mom.y ∨ nan mom.z ∨ nan mass) :
    (Particle.ctorPM junk mom mass).1 = .ok () := by
  have key : ((Particle.noCaches { Particle.rawKin junk with m := mass, p := mom } true true false false false : Particle R C).kin.withMags).offShell
      = false := by
    simp only [Particle.noCaches, Kin.withMags, Kin.offShell]
    apply N.lt
    apply N.abs
    have sq : ∀ x y : R, nan x ∨ nan y → nan (Scalar.sqrt (x * x + y * y)) := by
      rintro x y (h | h)
      · exact N.sqrt _ (N.add_left _ _ (N.mul_self _ h))
      · exact N.sqrt _ (N.add_right _ _ (N.mul_self _ h))
    rcases h with h | h | h | h | h
    · exact N.sub_left _ _ (N.sub_left _ _ (N.mul_self _ h))
    · exact N.sub_left _ _ (N.sub_right _ _ (N.mul_self _ (sq _ _ (.inl (sq _ _ (.inl h))))))
    · exact N.sub_left _ _ (N.sub_right _ _ (N.mul_self _ (sq _ _ (.inl (sq _ _ (.inr h))))))
    · exact N.sub_left _ _ (N.sub_right _ _ (N.mul_self _ (sq _ _ (.inr h))))
    · exact N.sub_right _ _ (N.mul_self _ h)
  unfold Particle.ctorPM Particle.update
  simp only [key]
  rfl

/-- The exact instance obeys the NaN rules. -/
theorem nanRules_XR : NaNRules XR (· = .nan) := by
  constructor <;> intros <;> subst_vars <;> simp

/-- The components of a vector are finite. -/
def FiniteVec (v : CVec XC) : Prop := ∃ w, v = XV w

/-- **C03, what the gate does not catch (2).** Let a finite momentum with nonzero mass be accepted.  The massive spinors are
finite exactly when `E >= |p|`; accepted momenta with a negative energy, or with an energy that rounding has moved below `|p|`,
give spinors that are not finite. -/
theorem C03_spinors_finite_iff {p : V4 ℝ} {m : ℝ} {P : Particle XR XC} (h : Live p.toX (.fin m) P) (hm : m ≠ 0) :
    (∀ b u, ∀ j : Int, j = 1 ∨ j = -1 → ∃ v, (Particle.spinor b j u P).1 = .ok v ∧ FiniteVec v) ↔
      Real.sqrt (p.x ^ 2 + p.y ^ 2 + p.z ^ 2) ≤ p.t := by
  have hmag : Real.sqrt (p.x ^ 2 + p.y ^ 2 + p.z ^ 2) = p.mag := by unfold V4.mag; congr 1; ring
  rw [hmag]
  constructor
  · intro hall
    by_contra hE
    obtain ⟨F, hF, hx, hk, _⟩ := h.fresh
    have hneg : p.t - p.mag < 0 := by linarith [not_le.mp hE]
    have hsq : F.kin.sqrtEmP = ⟨.nan, .fin 0⟩ := by
      rw [hk, withMags_fin _ p rfl]
      simp only [Kin.withAngles, V4.toX, fin_sub]
      rw [s_sqrt_neg hneg]
      simp; rfl
    have hm' : (Scalar.eq F.kin.m (int 0) : Bool) = false := by
      rw [hk, (withAngles_fin _ p rfl).2.2.2.2.2]; simp [hm]
    obtain ⟨v, hv, w, rfl⟩ := hall .rangle true 1 (.inl rfl)
    rw [hx.spinor_fst, hF.spn, hm'] at hv
    simp only [Kin.spnVal] at hv
    simp at hv
    have h1 := congrArg (fun v : CVec XC => v.v1.re) hv
    have : (F.kin.sqrtEmP * F.kin.c).re = .nan := by
      rw [hsq]
      show XR.nan * _ - _ = _
      simp
    simp only [XV, ofC, this] at h1
    cases h1
  · intro hE b u j hj
    exact ⟨_, h.spinor hE hm b u hj, _, rfl⟩

/-- **C20.** The self test of the angles passes for every finite momentum that was accepted. -/
theorem C20_test_angles {p : V4 ℝ} {m : XR} {P : Particle XR XC} (h : Live p.toX m P) :
    (Particle.testAngles P).1 = .ok true := by
  obtain ⟨F, hF, hx, hk, _⟩ := h.fresh
  rw [show (Particle.testAngles P).1 = .ok P.kin.testAnglesVal from rfl, hx.kin]
  congr 1
  obtain ⟨h1, h2, h3, h4, h5, _⟩ := withAngles_fin { P.kin with m := m, p := p.toX } p rfl
  rw [← hk] at h1 h2 h3 h4 h5
  have ha : F.kin.sqrtEpP = ⟨Scalar.sqrt (.fin (p.t + p.mag)), .fin 0⟩ := by
    rw [hk, withMags_fin _ p rfl]
    simp only [Kin.withAngles, V4.toX, fin_add]; simp; rfl
  have hb : F.kin.sqrtEmP = ⟨Scalar.sqrt (.fin (p.t - p.mag)), .fin 0⟩ := by
    rw [hk, withMags_fin _ p rfl]
    simp only [Kin.withAngles, V4.toX, fin_sub]; simp; rfl
  have ex : p.mag * Real.sin p.th * Real.cos p.ph = p.x := by
    rw [p.sin_th, p.mag_sin, p.tr_cos_ph]
  have ey : p.mag * Real.sin p.th * Real.sin p.ph = p.y := by
    rw [p.sin_th, p.mag_sin, p.tr_sin_ph]
  have ez : p.mag * Real.cos p.th = p.z := by rw [p.cos_th, p.mag_cos]
  have tol : ¬ FPEnv.eps * 1000000 < 0 := not_lt.mpr (mul_nonneg FPEnv.eps_pos.le (by norm_num))
  unfold Kin.testAnglesVal
  simp only [h1, h3, h4, h5, V4.toX, s_sin, s_cos, fin_mul, ex, ey, ez, fin_sub, s_eps, s_int, sub_self, s_abs, abs_zero, s_lt]
  push_cast
  simp only [tol, decide_false, Bool.or_false, Bool.not_eq_eq_eq_not, Bool.not_true]
  have hre : (Cplx.re (F.kin.sqrtEpP * Cplx.conj F.kin.sqrtEpP + F.kin.sqrtEmP * Cplx.conj F.kin.sqrtEmP) : XR) =
      (Scalar.sqrt (.fin (p.t + p.mag)) * Scalar.sqrt (.fin (p.t + p.mag)) - .fin 0 * (-.fin 0)) +
      (Scalar.sqrt (.fin (p.t - p.mag)) * Scalar.sqrt (.fin (p.t - p.mag)) - .fin 0 * (-.fin 0)) := by
    rw [ha, hb]; rfl
  rw [hre]
  by_cases hap : p.t + p.mag < 0
  · rw [s_sqrt_neg hap]; simp
  by_cases hbp : p.t - p.mag < 0
  · rw [s_sqrt_neg hbp]; simp
  rw [s_sqrt (not_lt.mp hap), s_sqrt (not_lt.mp hbp)]
  simp only [fin_mul, fin_neg, fin_sub, fin_add, fin_div_two, Real.mul_self_sqrt (not_lt.mp hap), Real.mul_self_sqrt (not_lt.mp hbp)]
  have : p.t - (p.t + p.mag - 0 * -0 + (p.t - p.mag - 0 * -0)) / 2 = 0 := by ring
  simp [this, FPEnv.eps_pos.le]

/-! ### C19 -/

/-- **C19 (1).** Reading `umat()` or `lmat()` of a particle that was only given a mass reads indeterminate members. -/
theorem C19_reads_indeterminate (junk : Kin XR XC) (mass : XR) :
    (Particle.ctorM junk mass).ub = false ∧ (Particle.umat (Particle.ctorM junk mass)).2.ub = true ∧
    (Particle.lmat (Particle.ctorM junk mass)).2.ub = true := by
  simp [Particle.ctorM, Particle.noCaches, Particle.umat, Particle.lmat]

/-- **C19 (2).** The value returned really depends on them. -/
theorem C19_value_depends (mass : ℝ) :
    ∃ junk junk' : Kin XR XC, (Particle.umat (Particle.ctorM junk (.fin mass))).1 ≠ (Particle.umat (Particle.ctorM junk' (.fin mass))).1 := by
  let k (x : ℝ) : Kin XR XC := ⟨.fin 0, ⟨.fin 0, .fin 0, .fin 0, .fin 0⟩, .fin 0, .fin x, .fin 0, .fin 0, ofC 0, ofC 0, ofC 0, ofC 0, ofC 0⟩
  refine ⟨k 0, k 1, ?_⟩
  simp [k, Particle.ctorM, Particle.noCaches, Particle.umat, Kin.umatVal, Particle.rawKin]

end main

/-- **C19 (3).** After the first successful `set_momentum`, whatever was called in between, the outcome of every later
sequence of accessor calls does not depend on the indeterminate contents (for any arithmetic). -/
theorem C19_forgotten {R C : Type} [Scalar R] [Cplx R C] (junk junk' : Kin R C) (mass : R) (pre pre' : List PAcc) (mom : V4 R)
    (accs : List PAcc) :
    let P := (runOps (pre.map .acc) (Particle.ctorM junk mass)).2
    let P' := (runOps (pre'.map .acc) (Particle.ctorM junk' mass)).2
    (Particle.setMomentum mom P).1 = (Particle.setMomentum mom P').1 ∧
    ((Particle.setMomentum mom P).1 = .ok () →
      (runOps (accs.map .acc) (Particle.setMomentum mom P).2).1 = (runOps (accs.map .acc) (Particle.setMomentum mom P').2).1) := by
  intro P P'
  have hm : P.kin.m = mass := by rw [(ext_runAccs pre _).kin]; rfl
  have hm' : P'.kin.m = mass := by rw [(ext_runAccs pre' _).kin]; rfl
  have hmm : ({ P with kin := { P.kin with p := mom }, pInit := true } : Particle R C).kin.m =
      ({ P' with kin := { P'.kin with p := mom }, pInit := true } : Particle R C).kin.m := by
    show P.kin.m = P'.kin.m; rw [hm, hm']
  constructor
  · show (Particle.update _).1 = (Particle.update _).1
    unfold Particle.update
    dsimp only
    rw [mags_congr (k := { P.kin with p := mom }) (k' := { P'.kin with p := mom }) rfl hmm]
    split <;> rfl
  · intro hok
    obtain ⟨_, hx⟩ := sync_eq (P := { P with kin := { P.kin with p := mom }, pInit := true })
      (Q := { P' with kin := { P'.kin with p := mom }, pInit := true }) rfl hmm hok
    rw [C02_accessor_program, C02_accessor_program]
    exact List.map_congr_left fun a _ => (hx.acc_fst a).symm

section examples
attribute [local instance] doubleEnv

/-- Both outcomes of the gate occur. -/
example : (Particle.ctorPM junkK pM.toX (.fin 3)).1 = .ok () ∧ (Particle.ctorPM junkK pM.toX (.fin 2)).1 = .throw .massShell := by
  refine ⟨ctorPM_onShell _ pM_onShell, ?_⟩
  rw [ctorPM_fst, if_neg]
  have := shellTol_double_lt
  refine not_le.mpr (this.trans ?_)
  norm_num [msq, pM]

/-- A momentum with negative energy is accepted: the hypotheses of `C03_spinors_finite_iff` hold with a false right-hand side. -/
example : Live (V4.toX ⟨-5, 0, 4, 0⟩) (.fin 3) (Particle.ctorPM junkK (V4.toX ⟨-5, 0, 4, 0⟩) (.fin 3)).2 ∧
    ¬ (Real.sqrt (0 ^ 2 + 4 ^ 2 + 0 ^ 2) ≤ (-5 : ℝ)) := by
  constructor
  · refine live_ctor _ _ _ ?_
    rw [ctorPM_fst, if_pos]
    have := shellTol_pos
    norm_num [msq]; exact this.le
  · have := Real.sqrt_nonneg ((0 : ℝ) ^ 2 + 4 ^ 2 + 0 ^ 2)
    intro h; linarith

/-- Non-vacuity of C19 (3): the first `set_momentum` succeeds. -/
example : (Particle.setMomentum pM.toX (runOps ([PAcc.umat].map .acc) (Particle.ctorM junkK (.fin 3))).2).1 = .ok () :=
  (update_fin { (runOps ([PAcc.umat].map .acc) (Particle.ctorM junkK (.fin 3))).2 with
    kin := { (runOps ([PAcc.umat].map .acc) (Particle.ctorM junkK (.fin 3))).2.kin with p := pM.toX }, pInit := true } pM 3 rfl rfl).2
    pM_onShell.accept

end examples

end Spinas.Props

import Verif.Exact.Generators
import Verif.Props.Spinors
import Mathlib.LinearAlgebra.Matrix.NonsingularInverse

/-! Properties C16 - C18: the Lorentz and spin generators. -/

namespace Spinas.Props
open Spinas Spec Matrix XR

section main
variable [FPEnv]

/-- `L` and `G` list the finite values returned by the Lorentz generators (by the kind of spinor they act on) and the spin
generators (by index position) of `P`. -/
def Generators (P : Particle XR XC) (L : Br → JAxis → M2) (G : Bool → JAxis → M2) : Prop :=
  (∀ b j, (Particle.lorentz b j P).1 = .ok (XM (L b j))) ∧ (∀ u j, (Particle.spinGen u j P).1 = .ok (XM (G u j)))

theorem generators_massive {p : V4 ℝ} {m M : ℝ} {P : Particle XR XC} (h : Live p.toX (.fin m) P) (hp : OnShell p M)
    (hM : 0 < M) (hm : m ≠ 0) :
    Generators P (fun b j => lorPre ((p.b / p.a / 2 : ℝ) : ℂ) ((p.a / p.b / 2 : ℝ) : ℂ) b j • lorShape p b j) (spinMat p) := by
  constructor
  · intro b j
    simp only [Particle.lorentz, h.kin hp.mag_le]
    rw [lorentz_fin p m _ _ (preMinus_fin hp hM hm) (prePlus_fin hp hM hm)]
  · intro u j
    simp only [Particle.spinGen, h.kin hp.mag_le, spinGen_fin]

theorem generators_massless {p : V4 ℝ} {P : Particle XR XC} (h : Live p.toX (.fin 0) P) (hp : OnShell p 0) :
    Generators P (fun b j => lorPre 0 1 b j • lorShape p b j) (spinMat p) := by
  constructor
  · intro b j
    simp only [Particle.lorentz, h.kin hp.mag_le]
    rw [lorentz_fin p 0 0 1 (by simp [Kin.preMinus, kinOf]) (by simp [Kin.prePlus, kinOf])]
    simp
  · intro u j
    simp only [Particle.spinGen, h.kin hp.mag_le, spinGen_fin]

/-- **C16 (massive).** For each of J3, J+, J-, each kind of spinor and each index position, the Lorentz generator acting on the
two spinors from the left equals the spin generator acting on the spin index from the right. -/
theorem C16_massive {p : V4 ℝ} {m M : ℝ} {P : Particle XR XC} (h : Live p.toX (.fin m) P) (hp : OnShell p M)
    (hM : 0 < M) (hm : m ≠ 0) :
    ∃ S L G, Spinors P S ∧ Generators P L G ∧
      ∀ b u j, L b j * (Matrix.of fun k i => S b u i k) = (Matrix.of fun k i => S b u i k) * G u j :=
  ⟨_, _, _, spinors_of_live h hp hm, generators_massive h hp hM hm,
    fun b u j => lorentz_spin (a_pos hp hM).ne' (b_pos hp hM).ne' b u j⟩

/-- helicity of the spinors: -1/2 for angle, +1/2 for square spinors -/
noncomputable def helicityOf : Br → ℂ
  | .rangle => -1 / 2
  | .langle => -1 / 2
  | .lsquare => 1 / 2
  | .rsquare => 1 / 2

/-- **C16 (massless).** The spinors of a massless particle are eigenvectors of J3 with the helicity as eigenvalue and are
annihilated by J+ and J-. -/
theorem C16_massless {p : V4 ℝ} {P : Particle XR XC} (h : Live p.toX (.fin 0) P) (hp : OnShell p 0) :
    ∃ S L G, HelSpinors P S ∧ Generators P L G ∧ ∀ b,
      L b .j3 *ᵥ S b = helicityOf b • S b ∧ L b .jp *ᵥ S b = 0 ∧ L b .jm *ᵥ S b = 0 := by
  refine ⟨_, _, _, hel_of_live h hp, generators_massless h hp, fun b => ?_⟩
  have h1 : (p.ch : ℂ) * p.ch + p.sh * p.sh = 1 := by exact_mod_cast p.ch_sh
  have h2 : p.ei * p.eb = 1 := p.ei_mul_conj
  have hs : p.sb = p.sh * p.eb := p.s_conj
  have hs' : p.s = p.sh * p.ei := rfl
  cases b <;> simp only [lorPre, lorShape, hv, hs, hs', helicityOf] <;>
    generalize (p.a : ℂ) = A <;> generalize p.ei = e at h2 ⊢ <;>
    generalize p.eb = f at h2 ⊢ <;> generalize (p.ch : ℂ) = c at h1 ⊢ <;> generalize (p.sh : ℂ) = h at h1 ⊢ <;>
    (refine ⟨?_, ?_, ?_⟩) <;> clear hs hs' <;>
    ext i <;> fin_cases i <;> simp [mulVec, dotProduct, Fin.sum_univ_two] <;> grind

theorem svMat_det {p : V4 ℝ} {M : ℝ} (B : Blocks p M) (b : Br) (u : Bool) : (svMat p b u).det = M ∨ (svMat p b u).det = -M := by
  have h1 := B.ab
  have h2 := B.cs
  rw [← h1]
  cases b <;> cases u <;> simp [svMat, sv, Matrix.det_fin_two] <;> grind

/-- **C17.** The Lorentz generators of a massive particle satisfy the su(2) relations, for each kind of spinor, and so do the
spin generators. -/
theorem C17_su2 {p : V4 ℝ} {m M : ℝ} {P : Particle XR XC} (h : Live p.toX (.fin m) P) (hp : OnShell p M)
    (hM : 0 < M) (hm : m ≠ 0) :
    ∃ L G, Generators P L G ∧
      (∀ b, L b .jp * L b .jm - L b .jm * L b .jp = (2 : ℂ) • L b .j3 ∧
        L b .j3 * L b .jp - L b .jp * L b .j3 = L b .jp ∧ L b .j3 * L b .jm - L b .jm * L b .j3 = -L b .jm) ∧
      (∀ u, G u .jp * G u .jm - G u .jm * G u .jp = (2 : ℂ) • G u .j3 ∧
        G u .j3 * G u .jp - G u .jp * G u .j3 = G u .jp ∧ G u .j3 * G u .jm - G u .jm * G u .j3 = -G u .jm) := by
  refine ⟨_, _, generators_massive h hp hM hm, ?_, ?_⟩
  · intro b
    have B := blocks hp hM.le
    have hdet : IsUnit (svMat p b true).det := by
      have hM' : (M : ℂ) ≠ 0 := by exact_mod_cast hM.ne'
      rcases svMat_det B b true with e | e <;> rw [e] <;> simp [hM']
    have hL := fun j => lorentz_spin (a_pos hp hM).ne' (b_pos hp hM).ne' b true j
    have hG : spinMat p true .jp * spinMat p true .jm - spinMat p true .jm * spinMat p true .jp = (2 : ℂ) • spinMat p true .j3 ∧
        spinMat p true .j3 * spinMat p true .jp - spinMat p true .jp * spinMat p true .j3 = spinMat p true .jp ∧
        spinMat p true .j3 * spinMat p true .jm - spinMat p true .jm * spinMat p true .j3 = -spinMat p true .jm := by
      have h2 : p.ei * p.eb = 1 := p.ei_mul_conj
      refine ⟨?_, ?_, ?_⟩ <;> ext i k <;> fin_cases i <;> fin_cases k <;>
        simp [spinMat, Matrix.mul_apply, Fin.sum_univ_two] <;> grind
    generalize hLL : (fun j => lorPre ((p.b / p.a / 2 : ℝ) : ℂ) ((p.a / p.b / 2 : ℝ) : ℂ) b j • lorShape p b j) = L
    have hLL' : ∀ j, lorPre ((p.b / p.a / 2 : ℝ) : ℂ) ((p.a / p.b / 2 : ℝ) : ℂ) b j • lorShape p b j = L j :=
      fun j => congrFun hLL j
    simp only [hLL'] at hL ⊢
    have cancel : ∀ X Y : M2, X * svMat p b true = Y * svMat p b true → X = Y := by
      intro X Y hXY
      have := congrArg (· * (svMat p b true)⁻¹) hXY
      simpa [Matrix.mul_assoc, Matrix.mul_nonsing_inv _ hdet] using this
    have comm : ∀ j k, (L j * L k) * svMat p b true = svMat p b true * (spinMat p true j * spinMat p true k) := by
      intro j k
      rw [Matrix.mul_assoc, hL, ← Matrix.mul_assoc, hL, Matrix.mul_assoc]
    refine ⟨cancel _ _ ?_, cancel _ _ ?_, cancel _ _ ?_⟩
    · rw [Matrix.sub_mul, comm, comm, ← Matrix.mul_sub, hG.1, Matrix.smul_mul, hL, Matrix.mul_smul]
    · rw [Matrix.sub_mul, comm, comm, ← Matrix.mul_sub, hG.2.1, hL]
    · rw [Matrix.sub_mul, comm, comm, ← Matrix.mul_sub, hG.2.2, Matrix.neg_mul, hL, Matrix.mul_neg]
  · intro u
    have h2 : p.ei * p.eb = 1 := p.ei_mul_conj
    cases u <;> (refine ⟨?_, ?_, ?_⟩) <;> ext i k <;> fin_cases i <;> fin_cases k <;>
      simp [spinMat, Matrix.mul_apply, Fin.sum_univ_two] <;> grind

/-! ### C18 -/

/-- **C18.** Take a newly constructed particle.  No undefined behaviour has happened yet.  Calling the J3 generators keeps it so.
Calling any ladder generator (J+ or J-, for any kind of spinor) evaluates `std::polar` with a negative modulus whenever the
momentum does not point along +z or vanish, and does not when it points along +z. -/
theorem C18_polar_domain (junk : Kin XR XC) {p : V4 ℝ} {M : ℝ} (m : ℝ) (hp : OnShell p M)
    (hok : (Particle.ctorPM junk p.toX (.fin m)).1 = .ok ()) (b : Br) :
    let F := (Particle.ctorPM junk p.toX (.fin m)).2
    F.ub = false ∧ (Particle.lorentz b .j3 F).2.ub = false ∧
    (∀ j, j ≠ .j3 → (p.x ≠ 0 ∨ p.y ≠ 0 ∨ p.z < 0) → (Particle.lorentz b j F).2.ub = true) ∧
    (∀ j, p.x = 0 → p.y = 0 → 0 < p.z → (Particle.lorentz b j F).2.ub = false) := by
  intro F
  have hk : F.kin = kinOf p m := update_kin _ p m rfl rfl hp.mag_le hok
  have hoff : (Particle.noCaches { Particle.rawKin junk with m := .fin m, p := p.toX } true true false false false :
      Particle XR XC).kin.withMags.offShell = false := (update_ok_iff _).mp hok
  have hflags : F.ub = false ∧ F.mInit = true ∧ F.pInit = true ∧ F.magInit = true ∧ F.angInit = true := by
    have hth : (Particle.noCaches { Particle.rawKin junk with m := .fin m, p := p.toX } true true false false false :
      Particle XR XC).kin.withMags.withAngles.theta = .fin p.th := (withAngles_fin _ p rfl).2.2.2.2.1
    have : F = Particle.noCaches (Particle.noCaches { Particle.rawKin junk with m := .fin m, p := p.toX } true true false false false :
      Particle XR XC).kin.withMags.withAngles true true true true
      ((false || !true || !true) || polarUB (Scalar.sin ((Particle.noCaches { Particle.rawKin junk with m := .fin m, p := p.toX } true true false false false :
      Particle XR XC).kin.withMags.withAngles.theta / int 2))) := by
      show (Particle.update _).2 = _
      unfold Particle.update
      dsimp only
      rw [if_neg (by rw [hoff]; simp)]
      rfl
    rw [this]
    refine ⟨?_, rfl, rfl, rfl, rfl⟩
    show ((false || !true || !true) || polarUB _) = false
    rw [hth]
    simp only [s_int, Int.cast_ofNat, fin_div_two, s_sin, polarUB, Int.cast_zero, s_le]
    have := p.sh_nonneg
    unfold V4.sh at this
    simpa using this
  obtain ⟨h0, h1, h2, h3, h4⟩ := hflags
  have hmod : ∀ j, (Particle.lorentz b j F).2.ub = ((kinOf p m).lorentzModuli j).any polarUB := by
    intro j
    simp [Particle.lorentz, h0, h1, h2, h3, h4, hk]
  have hlad : ∀ j, j ≠ .j3 → ((kinOf p m).lorentzModuli j).any polarUB = decide (p.sh ≠ 0) := by
    intro j hj
    have e : (kinOf p m).lorentzModuli j = [.fin (-(2 * p.sh * p.sh)), .fin (2 * p.ch * p.ch)] := by
      cases j
      · exact absurd rfl hj
      all_goals simp [Kin.lorentzModuli, kinOf, one_add_cos, neg_one_add_cos]
    rw [e]
    simp only [List.any_cons, List.any_nil, polarUB, s_int, Int.cast_zero, s_le, Bool.or_false]
    have hc : (0 : ℝ) ≤ 2 * p.ch * p.ch := by nlinarith [mul_self_nonneg p.ch]
    rw [decide_eq_true hc]
    by_cases hs : p.sh = 0
    · simp [hs]
    · have : ¬ (0 : ℝ) ≤ -(2 * p.sh * p.sh) := by
        have : 0 < p.sh * p.sh := mul_self_pos.mpr hs
        intro h; nlinarith
      rw [decide_eq_false this]; simp [hs]
  have hj3 : ((kinOf p m).lorentzModuli .j3).any polarUB = false := by
    have : (0 : ℝ) ≤ Real.sin p.th := Real.sin_nonneg_of_nonneg_of_le_pi p.th_nonneg p.th_le
    simp [Kin.lorentzModuli, kinOf, polarUB, this]
  refine ⟨h0, by rw [hmod, hj3], ?_, ?_⟩
  · intro j hj hne
    rw [hmod, hlad j hj]
    apply decide_eq_true
    intro hs
    have ec := p.mag_cos
    have es := p.mag_sin
    have ht := p.tr_mul_self
    rw [hs] at ec es
    have ht0 : p.tr = 0 := by rw [← es]; ring
    rw [ht0] at ht
    have hx : p.x = 0 := by nlinarith [mul_self_nonneg p.x, mul_self_nonneg p.y]
    have hy : p.y = 0 := by nlinarith [mul_self_nonneg p.x, mul_self_nonneg p.y]
    have hz : 0 ≤ p.z := by rw [← ec]; have := p.mag_nonneg; nlinarith [mul_self_nonneg p.ch]
    rcases hne with h | h | h
    · exact h hx
    · exact h hy
    · linarith
  · intro j hx hy hz
    rw [hmod]
    cases j
    · exact hj3
    all_goals
      rw [hlad _ (by simp)]
      apply decide_eq_false
      rw [not_not]
      have htr : p.tr = 0 := by unfold V4.tr; rw [hx, hy]; simp
      unfold V4.sh V4.th ratan2
      rw [htr, if_neg (by intro h; linarith [h.1])]
      have : Complex.arg (⟨p.z, 0⟩ : ℂ) = 0 := Complex.arg_ofReal_of_nonneg hz.le
      rw [this]; simp

end main

section examples
attribute [local instance] doubleEnv

/-- non-vacuity of C16 and C17: see the massive and massless particles of `Verif.Props.Spinors`; of C18: -/
example : (Particle.ctorPM junkK pM.toX (.fin 3)).1 = .ok () ∧ (pM.x ≠ 0 ∨ pM.y ≠ 0 ∨ pM.z < 0) :=
  ⟨ctorPM_onShell _ pM_onShell, by norm_num [pM]⟩

/-- both cases of C18 occur: a particle along +z -/
example : OnShell ⟨5, 0, 0, 4⟩ 3 := ⟨by norm_num, by norm_num⟩

end examples

end Spinas.Props

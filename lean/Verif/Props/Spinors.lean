import Verif.Exact.Spinors
import Verif.Exact.Algebra
import Verif.Spec.Spinors
import Mathlib.Topology.Instances.Complex
import Mathlib.Topology.MetricSpace.ProperSpace.Real

/-! Properties C07 - C15 and C50: the momentum matrices and spinors of a particle in use, exact arithmetic.

Throughout, `m` is the mass the particle was given and `M` the mass its momentum has (`OnShell p M`); the library accepts
them when they agree up to its tolerance.  In the exact case `M = m`. -/

namespace Spinas.Props
open Spinas Spec Matrix XR

section main
variable [FPEnv]

/-! ### momentum matrices -/

/-- **C07.** For every momentum that was accepted, `umat()` and `lmat()` are the matrices `cmatrix(p, UPPER)` and
`cmatrix(p, LOWER)` of the cmatrix constructor, and have the documented entries. -/
theorem C07_momentum_matrices {p : V4 ℝ} {m : XR} {P : Particle XR XC} (h : Live p.toX m P) :
    (Particle.umat P).1 = .ok (CMat.ofMom p.toX true) ∧ (Particle.lmat P).1 = .ok (CMat.ofMom p.toX false) ∧
    (CMat.ofMom p.toX true : CMat XC) = XM (slashUpper p) ∧ (CMat.ofMom p.toX false : CMat XC) = XM (slashLower p) := by
  have e1 : (CMat.ofMom p.toX true : CMat XC) = XM (slashUpper p) := by
    simp [CMat.ofMom, V4.toX, XM, slashUpper, Complex.ext_iff]
  have e2 : (CMat.ofMom p.toX false : CMat XC) = XM (slashLower p) := by
    simp [CMat.ofMom, V4.toX, XM, slashLower, Complex.ext_iff]
  exact ⟨by rw [e1]; exact h.umat, by rw [e2]; exact h.lmat, e1, e2⟩

omit [FPEnv] in
theorem slash_mul (p q : V4 ℝ) :
    slashUpper p * slashLower q + slashUpper q * slashLower p = ((2 * dot p q : ℝ) : ℂ) • (1 : M2) ∧
    slashLower p * slashUpper q + slashLower q * slashUpper p = ((2 * dot p q : ℝ) : ℂ) • (1 : M2) := by
  have hI : Complex.I ^ 2 = -1 := Complex.I_sq
  constructor <;> ext i j <;> fin_cases i <;> fin_cases j <;>
    simp [slashUpper, slashLower, dot, Matrix.mul_apply, Fin.sum_univ_two] <;> ring_nf <;> (try rw [hI]) <;> ring

omit [FPEnv] in
theorem dot_self_sq (p : V4 ℝ) : dot p p = msq p := by unfold dot msq; ring

omit [FPEnv] in
theorem slash_sq (p : V4 ℝ) : slashUpper p * slashLower p = (msq p : ℂ) • (1 : M2) ∧
    slashLower p * slashUpper p = (msq p : ℂ) • (1 : M2) := by
  have hI : Complex.I ^ 2 = -1 := Complex.I_sq
  constructor <;> ext i j <;> fin_cases i <;> fin_cases j <;>
    simp [slashUpper, slashLower, msq, Matrix.mul_apply, Fin.sum_univ_two] <;> ring_nf <;> (try rw [hI]) <;> ring

omit [FPEnv] in
theorem slash_det (p : V4 ℝ) : (slashUpper p).det = (msq p : ℝ) ∧ (slashLower p).det = (msq p : ℝ) := by
  have hI : Complex.I ^ 2 = -1 := Complex.I_sq
  constructor <;> simp [slashUpper, slashLower, msq, Matrix.det_fin_two] <;> ring_nf <;> (try rw [hI]) <;> ring

/-- **C08.** `get_det` of both matrices returns `E^2-|p|^2` without throwing, and the matrices are inverse to each other
up to that factor. -/
theorem C08_determinant {p : V4 ℝ} {m : XR} {P : Particle XR XC} (h : Live p.toX m P) :
    ∃ U L : CMat XC, (Particle.umat P).1 = .ok U ∧ (Particle.lmat P).1 = .ok L ∧
      U.getDet = .ok (.fin (msq p)) ∧ L.getDet = .ok (.fin (msq p)) ∧
      U * L = XM ((msq p : ℂ) • 1) ∧ L * U = XM ((msq p : ℂ) • 1) := by
  refine ⟨_, _, h.umat, h.lmat, ?_, ?_, ?_, ?_⟩
  · rw [XM_getDet, (slash_det p).1]
    · simp
    · rw [(slash_det p).1]; simp
  · rw [XM_getDet, (slash_det p).2]
    · simp
    · rw [(slash_det p).2]; simp
  · rw [XM_mul, (slash_sq p).1]
  · rw [XM_mul, (slash_sq p).2]

/-- **C09.** The Clifford relation between the matrices of two particles. -/
theorem C09_clifford {p q : V4 ℝ} {m n : XR} {P Q : Particle XR XC} (hP : Live p.toX m P) (hQ : Live q.toX n Q) :
    ∃ U L V K : CMat XC, (Particle.umat P).1 = .ok U ∧ (Particle.lmat P).1 = .ok L ∧
      (Particle.umat Q).1 = .ok V ∧ (Particle.lmat Q).1 = .ok K ∧
      U * K + V * L = XM (((2 * dot p q : ℝ) : ℂ) • 1) ∧ L * V + K * U = XM (((2 * dot p q : ℝ) : ℂ) • 1) := by
  refine ⟨_, _, _, _, hP.umat, hP.lmat, hQ.umat, hQ.lmat, ?_, ?_⟩
  · rw [XM_mul, XM_mul, XM_add, (slash_mul p q).1]
  · rw [XM_mul, XM_mul, XM_add, (slash_mul p q).2]

/-! ### entries of the matrices in terms of the spinor components -/

theorem _root_.Spinas.Blocks.lower {p : V4 ℝ} {M : ℝ} (h : Blocks p M) : slashLower p =
    !![(p.a * p.a * (p.ch * p.ch) + p.b * p.b * (p.s * p.sb) : ℂ), (p.a * p.a - p.b * p.b) * p.ch * p.sb;
       (p.a * p.a - p.b * p.b) * p.ch * p.s, p.a * p.a * (p.s * p.sb) + p.b * p.b * (p.ch * p.ch)] := by
  unfold slashLower; rw [h.epz, h.emz, h.xpy, h.xmy]

theorem _root_.Spinas.Blocks.upper {p : V4 ℝ} {M : ℝ} (h : Blocks p M) : slashUpper p =
    !![(p.a * p.a * (p.s * p.sb) + p.b * p.b * (p.ch * p.ch) : ℂ), -((p.a * p.a - p.b * p.b) * p.ch * p.sb);
       -((p.a * p.a - p.b * p.b) * p.ch * p.s), p.a * p.a * (p.ch * p.ch) + p.b * p.b * (p.s * p.sb)] := by
  have e1 : (-p.x + p.y * Complex.I : ℂ) = -((p.x : ℂ) - p.y * Complex.I) := by ring
  have e2 : (-p.x - p.y * Complex.I : ℂ) = -((p.x : ℂ) + p.y * Complex.I) := by ring
  unfold slashUpper; rw [h.epz, h.emz, e1, e2, h.xpy, h.xmy]

theorem spinors_of_live {p : V4 ℝ} {m M : ℝ} {P : Particle XR XC} (h : Live p.toX (.fin m) P) (hp : OnShell p M)
    (hm : m ≠ 0) : Spinors P fun b u i => sv p b u (decide (i = 1)) := by
  intro b u i
  rw [h.spinor hp.mag_le hm b u (j := spin i) (by fin_cases i <;> simp [spin])]
  fin_cases i <;> simp [spin]

theorem hel_of_live {p : V4 ℝ} {M : ℝ} {P : Particle XR XC} (h : Live p.toX (.fin 0) P) (hp : OnShell p M) :
    HelSpinors P (hv p) := fun b => h.helicity hp.mag_le b

omit [FPEnv] in
theorem b_zero {p : V4 ℝ} (hp : OnShell p 0) : p.b = 0 := by
  unfold V4.b
  have h1 := hp.mag_le
  have h2 := p.mag_mul_self
  have h3 := hp.shell
  have : p.mag = p.t := by
    have : p.mag ^ 2 = p.t ^ 2 := by nlinarith
    exact (sq_eq_sq₀ p.mag_nonneg hp.energy).mp this
  rw [this]; simp

/-! ### massless spinors -/

/-- **C10.** The four spinors of a massless particle are finite, solve the Weyl equations, have vanishing self products,
factorise the momentum matrices and are related by complex conjugation. -/
theorem C10_massless {p : V4 ℝ} {P : Particle XR XC} (h : Live p.toX (.fin 0) P) (hp : OnShell p 0) :
    ∃ S, HelSpinors P S ∧
      slashUpper p *ᵥ S .rangle = 0 ∧ S .lsquare ᵥ* slashUpper p = 0 ∧
      slashLower p *ᵥ S .rsquare = 0 ∧ S .langle ᵥ* slashLower p = 0 ∧
      S .langle ⬝ᵥ S .rangle = 0 ∧ S .lsquare ⬝ᵥ S .rsquare = 0 ∧
      vecMulVec (S .rangle) (S .lsquare) = slashLower p ∧ vecMulVec (S .rsquare) (S .langle) = slashUpper p ∧
      S .rangle = star (S .lsquare) ∧ S .langle = star (S .rsquare) := by
  have B := blocks hp le_rfl
  have hb : (p.b : ℂ) = 0 := by rw [b_zero hp]; simp
  have hs := B.cs
  refine ⟨_, hel_of_live h hp, ?_, ?_, ?_, ?_, ?_, ?_, ?_, ?_, ?_, ?_⟩
  · rw [B.upper, hb]; ext i; fin_cases i <;> simp [hv, mulVec, dotProduct, Fin.sum_univ_two] <;> ring
  · rw [B.upper, hb]; ext i; fin_cases i <;> simp [hv, vecMul, dotProduct, Fin.sum_univ_two] <;> ring
  · rw [B.lower, hb]; ext i; fin_cases i <;> simp [hv, mulVec, dotProduct, Fin.sum_univ_two] <;> ring
  · rw [B.lower, hb]; ext i; fin_cases i <;> simp [hv, vecMul, dotProduct, Fin.sum_univ_two] <;> ring
  · simp [hv, dotProduct, Fin.sum_univ_two]; ring
  · simp [hv, dotProduct, Fin.sum_univ_two]; ring
  · rw [B.lower, hb]; ext i j; fin_cases i <;> fin_cases j <;> simp [hv, vecMulVec_apply] <;> ring
  · rw [B.upper, hb]; ext i j; fin_cases i <;> fin_cases j <;> simp [hv, vecMulVec_apply] <;> ring
  · ext i; fin_cases i <;> simp [hv, V4.sb]
  · ext i; fin_cases i <;> simp [hv, V4.sb]

/-! ### massive spinors -/

section massive
variable {p : V4 ℝ} {m M : ℝ} {P : Particle XR XC}

/-- **C11.** Conjugation relations. -/
theorem C11_conjugation (h : Live p.toX (.fin m) P) (hp : OnShell p M) (hm : m ≠ 0) :
    ∃ S, Spinors P S ∧ ∀ i,
      S .rangle true i = star (S .lsquare false i) ∧ S .langle true i = star (S .rsquare false i) ∧
      S .rangle false i = -star (S .lsquare true i) ∧ S .langle false i = -star (S .rsquare true i) := by
  refine ⟨_, spinors_of_live h hp hm, fun i => ?_⟩
  refine ⟨?_, ?_, ?_, ?_⟩ <;> ext k <;> fin_cases i <;> fin_cases k <;> simp [sv, V4.sb]

/-- **C12.** Self products with all placements of the spin indices. -/
theorem C12_self_products (h : Live p.toX (.fin m) P) (hp : OnShell p M) (hM : 0 ≤ M) (hm : m ≠ 0) :
    ∃ S, Spinors P S ∧ ∀ i j,
      S .langle true i ⬝ᵥ S .rangle true j = -M * epsU i j ∧
      S .langle true i ⬝ᵥ S .rangle false j = -M * (1 : M2) i j ∧
      S .langle false i ⬝ᵥ S .rangle true j = M * (1 : M2) i j ∧
      S .langle false i ⬝ᵥ S .rangle false j = M * epsL i j ∧
      S .lsquare true i ⬝ᵥ S .rsquare true j = M * epsU i j ∧
      S .lsquare true i ⬝ᵥ S .rsquare false j = M * (1 : M2) i j ∧
      S .lsquare false i ⬝ᵥ S .rsquare true j = -M * (1 : M2) i j ∧
      S .lsquare false i ⬝ᵥ S .rsquare false j = -M * epsL i j := by
  have B := blocks hp hM
  have h1 := B.ab
  have h2 := B.cs
  refine ⟨_, spinors_of_live h hp hm, fun i j => ?_⟩
  rw [← h1]
  refine ⟨?_, ?_, ?_, ?_, ?_, ?_, ?_, ?_⟩ <;> fin_cases i <;> fin_cases j <;>
    simp [sv, dotProduct, Fin.sum_univ_two, epsU, epsL] <;>
    first
    | ring1
    | linear_combination ((p.a : ℂ) * p.b) * h2
    | linear_combination (-(p.a : ℂ) * p.b) * h2

/-- **C13.** Completeness: sums over the spin give the momentum matrices. -/
theorem C13_completeness (h : Live p.toX (.fin m) P) (hp : OnShell p M) (hM : 0 ≤ M) (hm : m ≠ 0) :
    ∃ S, Spinors P S ∧
      ∑ i, vecMulVec (S .rangle true i) (S .lsquare false i) = slashLower p ∧
      ∑ i, vecMulVec (S .rangle false i) (S .lsquare true i) = -slashLower p ∧
      ∑ i, vecMulVec (S .rsquare false i) (S .langle true i) = slashUpper p ∧
      ∑ i, vecMulVec (S .rsquare true i) (S .langle false i) = -slashUpper p := by
  have B := blocks hp hM
  refine ⟨_, spinors_of_live h hp hm, ?_, ?_, ?_, ?_⟩ <;> rw [Fin.sum_univ_two]
  · rw [B.lower]; ext i j; fin_cases i <;> fin_cases j <;> simp [sv, vecMulVec_apply] <;> ring
  · rw [B.lower]; ext i j; fin_cases i <;> fin_cases j <;> simp [sv, vecMulVec_apply] <;> ring
  · rw [B.upper]; ext i j; fin_cases i <;> fin_cases j <;> simp [sv, vecMulVec_apply] <;> ring
  · rw [B.upper]; ext i j; fin_cases i <;> fin_cases j <;> simp [sv, vecMulVec_apply] <;> ring

/-- **C14.** The Dirac equation, for upper and lower spin indices. -/
theorem C14_dirac (h : Live p.toX (.fin m) P) (hp : OnShell p M) (hM : 0 ≤ M) (hm : m ≠ 0) :
    ∃ S, Spinors P S ∧ ∀ u i,
      slashUpper p *ᵥ S .rangle u i = (-M : ℂ) • S .rsquare u i ∧
      slashLower p *ᵥ S .rsquare u i = (-M : ℂ) • S .rangle u i ∧
      S .langle u i ᵥ* slashLower p = (M : ℂ) • S .lsquare u i ∧
      S .lsquare u i ᵥ* slashUpper p = (M : ℂ) • S .langle u i := by
  have B := blocks hp hM
  have h1 := B.ab
  have h2 := B.cs
  refine ⟨_, spinors_of_live h hp hm, fun u i => ?_⟩
  rw [B.upper, B.lower, ← h1]
  refine ⟨?_, ?_, ?_, ?_⟩ <;> ext k <;> cases u <;> fin_cases i <;> fin_cases k <;>
    simp [sv, mulVec, vecMul, dotProduct, Fin.sum_univ_two] <;>
    first
    | linear_combination ((p.a:ℂ) * p.b * (p.a * p.ch)) * h2
    | linear_combination ((p.a:ℂ) * p.b * (p.a * p.s)) * h2
    | linear_combination ((p.a:ℂ) * p.b * (p.a * p.sb)) * h2
    | linear_combination ((p.a:ℂ) * p.b * (p.b * p.ch)) * h2
    | linear_combination ((p.a:ℂ) * p.b * (p.b * p.s)) * h2
    | linear_combination ((p.a:ℂ) * p.b * (p.b * p.sb)) * h2
    | linear_combination (-(p.a:ℂ) * p.b * (p.a * p.ch)) * h2
    | linear_combination (-(p.a:ℂ) * p.b * (p.a * p.s)) * h2
    | linear_combination (-(p.a:ℂ) * p.b * (p.a * p.sb)) * h2
    | linear_combination (-(p.a:ℂ) * p.b * (p.b * p.ch)) * h2
    | linear_combination (-(p.a:ℂ) * p.b * (p.b * p.s)) * h2
    | linear_combination (-(p.a:ℂ) * p.b * (p.b * p.sb)) * h2

/-- **C15.** Spinors with a lower spin index are the epsilon contraction of those with an upper one, with the same sign for
all four kinds. -/
theorem C15_lowering (h : Live p.toX (.fin m) P) (hp : OnShell p M) (hm : m ≠ 0) :
    ∃ S, Spinors P S ∧ ∀ b i, S b false i = ∑ j, epsU i j • S b true j := by
  refine ⟨_, spinors_of_live h hp hm, fun b i => ?_⟩
  ext k
  cases b <;> fin_cases i <;> fin_cases k <;> simp [sv, epsU]

/-- The two-index accessors `kind_matrix(upper)` return the matrix whose columns are the spin -1 and +1 spinors. -/
theorem C15_matrices (h : Live p.toX (.fin m) P) (hp : OnShell p M) (hm : m ≠ 0) :
    ∃ S, Spinors P S ∧ ∀ b u, (Particle.spinorMatrix b u P).1 = .ok (XM (Matrix.of fun k i => S b u i k)) := by
  refine ⟨_, spinors_of_live h hp hm, fun b u => ?_⟩
  have h1 := h.spinor hp.mag_le hm b u (j := -1) (.inr rfl)
  have h' : Live p.toX (.fin m) (Particle.spinor b (-1) u P).2 := by
    have := h.acc (.spinor b (-1) u)
    simpa only [PAcc.run, map_snd] using this
  have h2 := h'.spinor hp.mag_le hm b u (j := 1) (.inl rfl)
  unfold Particle.spinorMatrix
  rw [Prog.bind_run]
  generalize Particle.spinor b (-1) u P = r1 at h1 h2
  obtain ⟨r1, P1⟩ := r1
  dsimp only at h1 h2
  subst h1
  dsimp only
  rw [Prog.bind_run]
  generalize Particle.spinor b 1 u P1 = r2 at h2
  obtain ⟨r2, P2⟩ := r2
  dsimp only at h2
  subst h2
  simp [XM, XV]

/-- Which component is the large one: spin -1 for the upper angle spinors, +1 for the upper square spinors, opposite for lower. -/
def large : Br → Bool → Fin 2
  | .rangle, true => 0
  | .langle, true => 0
  | .lsquare, true => 1
  | .rsquare, true => 1
  | .rangle, false => 1
  | .langle, false => 1
  | .lsquare, false => 0
  | .rsquare, false => 0

/-- **C50.** Squared norms: `E+|p|` for the large component and `E-|p|` for the other one. -/
theorem C50_norms (h : Live p.toX (.fin m) P) (hp : OnShell p M) (hm : m ≠ 0) :
    ∃ S, Spinors P S ∧ ∀ b u i, ∑ k, ‖S b u i k‖ ^ 2 =
      if i = large b u then p.t + Real.sqrt (p.x ^ 2 + p.y ^ 2 + p.z ^ 2)
      else p.t - Real.sqrt (p.x ^ 2 + p.y ^ 2 + p.z ^ 2) := by
  refine ⟨_, spinors_of_live h hp hm, fun b u i => ?_⟩
  have ha : p.a * p.a = p.t + p.mag := Real.mul_self_sqrt (by have := p.mag_nonneg; have := hp.energy; linarith)
  have hb : p.b * p.b = p.t - p.mag := Real.mul_self_sqrt (by have := hp.mag_le; linarith)
  have hmag : Real.sqrt (p.x ^ 2 + p.y ^ 2 + p.z ^ 2) = p.mag := by unfold V4.mag; congr 1; ring
  have hs : ‖p.s‖ ^ 2 = p.sh ^ 2 := by
    rw [← Complex.normSq_eq_norm_sq]
    have : ((Complex.normSq p.s : ℝ) : ℂ) = ((p.sh ^ 2 : ℝ) : ℂ) := by
      rw [Complex.normSq_eq_conj_mul_self, mul_comm, p.s_mul_conj]; push_cast; ring
    exact_mod_cast this
  have hsb : ‖p.sb‖ ^ 2 = p.sh ^ 2 := by rw [← hs]; simp [V4.sb]
  have hcs := p.ch_sh
  rw [hmag, Fin.sum_univ_two]
  cases b <;> cases u <;> fin_cases i <;>
    simp [sv, large, mul_pow, hs, hsb] <;>
    first
    | linear_combination ha + p.a * p.a * hcs
    | linear_combination hb + p.b * p.b * hcs

end massive

/-- **C50.** For a fixed three-momentum, as the mass goes to zero the large components of the massive spinors (upper index)
converge to the helicity spinors of the massless particle, and the small components (either index placement) to zero. -/
theorem C50_massless_limit (x y z : ℝ) :
    ∃ (S : ℝ → Br → Bool → Fin 2 → V2) (H : Br → V2),
      (∀ m > 0, ∀ P : Particle XR XC, Live (V4.toX ⟨Real.sqrt (x ^ 2 + y ^ 2 + z ^ 2 + m ^ 2), x, y, z⟩) (.fin m) P →
        Spinors P (S m)) ∧
      (∀ P : Particle XR XC, Live (V4.toX ⟨Real.sqrt (x ^ 2 + y ^ 2 + z ^ 2), x, y, z⟩) (.fin 0) P → HelSpinors P H) ∧
      (∀ b, Filter.Tendsto (fun m => S m b true (large b true)) (nhdsWithin 0 (Set.Ioi 0)) (nhds (H b))) ∧
      (∀ b u i, i ≠ large b u → Filter.Tendsto (fun m => S m b u i) (nhdsWithin 0 (Set.Ioi 0)) (nhds 0)) := by
  have hE : ∀ m : ℝ, OnShell ⟨Real.sqrt (x ^ 2 + y ^ 2 + z ^ 2 + m ^ 2), x, y, z⟩ m := fun m =>
    ⟨Real.sqrt_nonneg _, by dsimp only; rw [Real.sq_sqrt (by positivity)]⟩
  have hE0 : OnShell ⟨Real.sqrt (x ^ 2 + y ^ 2 + z ^ 2), x, y, z⟩ 0 :=
    ⟨Real.sqrt_nonneg _, by dsimp only; rw [Real.sq_sqrt (by positivity)]; ring⟩
  obtain ⟨c, hc⟩ : ∃ c, ∀ E, (V4.mk E x y z).ch = c := ⟨(V4.mk 0 x y z).ch, fun _ => rfl⟩
  obtain ⟨s, hs⟩ : ∃ s, ∀ E, (V4.mk E x y z).s = s := ⟨(V4.mk 0 x y z).s, fun _ => rfl⟩
  obtain ⟨sb, hsb⟩ : ∃ s, ∀ E, (V4.mk E x y z).sb = s := ⟨(V4.mk 0 x y z).sb, fun _ => rfl⟩
  refine ⟨fun m b u i => sv ⟨Real.sqrt (x ^ 2 + y ^ 2 + z ^ 2 + m ^ 2), x, y, z⟩ b u (decide (i = 1)),
    hv ⟨Real.sqrt (x ^ 2 + y ^ 2 + z ^ 2), x, y, z⟩, fun m hm P h => spinors_of_live h (hE m) hm.ne',
    fun P h => hel_of_live h hE0, ?_, ?_⟩
  · have ha : Filter.Tendsto (fun m : ℝ => (((⟨Real.sqrt (x ^ 2 + y ^ 2 + z ^ 2 + m ^ 2), x, y, z⟩ : V4 ℝ).a : ℝ) : ℂ))
        (nhdsWithin 0 (Set.Ioi 0)) (nhds ((⟨Real.sqrt (x ^ 2 + y ^ 2 + z ^ 2), x, y, z⟩ : V4 ℝ).a : ℂ)) := by
      have hc : Continuous (fun m : ℝ => (((⟨Real.sqrt (x ^ 2 + y ^ 2 + z ^ 2 + m ^ 2), x, y, z⟩ : V4 ℝ).a : ℝ) : ℂ)) := by
        unfold V4.a V4.mag; fun_prop
      have := hc.tendsto 0
      simp only [ne_eq, OfNat.ofNat_ne_zero, not_false_eq_true, zero_pow, add_zero] at this
      exact this.mono_left nhdsWithin_le_nhds
    intro b
    rw [tendsto_pi_nhds]
    intro k
    cases b <;> fin_cases k <;> simp [sv, hv, large, hc, hs, hsb] <;>
      first
      | exact ha.mul_const _
      | exact (ha.mul_const _).neg
  · have hb : Filter.Tendsto (fun m : ℝ => (((⟨Real.sqrt (x ^ 2 + y ^ 2 + z ^ 2 + m ^ 2), x, y, z⟩ : V4 ℝ).b : ℝ) : ℂ))
        (nhdsWithin 0 (Set.Ioi 0)) (nhds 0) := by
      have hc : Continuous (fun m : ℝ => (((⟨Real.sqrt (x ^ 2 + y ^ 2 + z ^ 2 + m ^ 2), x, y, z⟩ : V4 ℝ).b : ℝ) : ℂ)) := by
        unfold V4.b V4.mag; fun_prop
      have := hc.tendsto 0
      simp only [ne_eq, OfNat.ofNat_ne_zero, not_false_eq_true, zero_pow, add_zero, b_zero hE0, Complex.ofReal_zero] at this
      exact this.mono_left nhdsWithin_le_nhds
    have h1 : ∀ w : ℂ, Filter.Tendsto (fun m : ℝ =>
        (((⟨Real.sqrt (x ^ 2 + y ^ 2 + z ^ 2 + m ^ 2), x, y, z⟩ : V4 ℝ).b : ℝ) : ℂ) * w)
        (nhdsWithin 0 (Set.Ioi 0)) (nhds 0) := fun w => by simpa using hb.mul_const w
    have h2 : ∀ w : ℂ, Filter.Tendsto (fun m : ℝ =>
        -(((⟨Real.sqrt (x ^ 2 + y ^ 2 + z ^ 2 + m ^ 2), x, y, z⟩ : V4 ℝ).b : ℝ) : ℂ) * w)
        (nhdsWithin 0 (Set.Ioi 0)) (nhds 0) := fun w => by simpa using hb.neg.mul_const w
    intro b u i hi
    rw [tendsto_pi_nhds]
    intro k
    cases b <;> cases u <;> fin_cases i <;> simp [large] at hi <;> fin_cases k <;> simp [sv, hc, hs, hsb] <;>
      first
      | exact h1 _
      | exact h2 _
      | simpa using (h1 _).neg

end main

/-! ### non-vacuity -/

section examples
attribute [local instance] doubleEnv

/-- a massless particle in use -/
example : Live pX.toX (.fin 0) (Particle.ctorPM junkK pX.toX (.fin 0)).2 :=
  live_ctor _ _ _ (ctorPM_onShell _ pX_onShell)

/-- a massive particle in use, after reading it and after a failed call -/
example : Live pM.toX (.fin 3) ((PAcc.helicity .rangle).run (Particle.ctorPM junkK pM.toX (.fin 3)).2).2 :=
  (live_ctor _ _ _ (ctorPM_onShell _ pM_onShell)).acc _

/-- the declared mass may differ from the mass of the momentum by rounding: `OnShell p M` with `M ≠ m` -/
example : ∃ (p : V4 ℝ) (m M : ℝ) (P : Particle XR XC), Live p.toX (.fin m) P ∧ OnShell p M ∧ 0 ≤ M ∧ m ≠ 0 ∧ M ≠ m := by
  refine ⟨⟨5, 0, 4, 0⟩, 3 + 1 / 2 ^ 52, 3, (Particle.ctorPM junkK _ _).2, live_ctor _ _ _ ?_, pM_onShell, by norm_num,
    by norm_num, by norm_num⟩
  rw [ctorPM_fst, if_pos]
  unfold msq shellTol
  show |(5 : ℝ) ^ 2 - 0 ^ 2 - 4 ^ 2 - 0 ^ 2 - (3 + 1 / 2 ^ 52) ^ 2| ≤ (1 : ℝ) / 2 ^ 52 * 1000000000
  rw [abs_le]; norm_num

end examples

end Spinas.Props

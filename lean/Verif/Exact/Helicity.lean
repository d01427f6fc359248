import Verif.Spec.Helicity
import Verif.Exact.Bosons

/-! Vectors of the same helicity differ by a phase and a multiple of the momentum, so that squared amplitudes do not depend on their choice. -/

namespace Spinas
open Spec Matrix

namespace Spec.Circular
variable {k : V4 ℝ} {r : Bool} {ε η : Vec}

theorem contract_sum (j k : Vec) : contract j k = j 0 * k 0 - j 1 * k 1 - j 2 * k 2 - j 3 * k 3 := by
  simp [contract, Fin.sum_univ_four, metric]; ring

theorem i_sq (r : Bool) : (if r then -Complex.I else Complex.I) ^ 2 = -1 := by cases r <;> simp

/-- orthogonal to the momentum -/
theorem transverse (hk : msq k = 0) (h : Circular k r ε) : contract (four k) ε = 0 := by
  have e0 : (k.t : ℂ) ≠ 0 := by exact_mod_cast h.energy
  have e1 : ((k.t : ℂ) ^ 2 - k.x ^ 2 - k.y ^ 2 - k.z ^ 2) = 0 := by exact_mod_cast hk
  have i2 := i_sq r
  have hx := h.x
  have hy := h.y
  have hz := h.z
  generalize (if r then -Complex.I else Complex.I) = j at *
  have j0 : j ≠ 0 := by rintro rfl; simp at i2
  apply mul_left_cancel₀ (mul_ne_zero e0 j0)
  rw [contract_sum, mul_zero]
  show (k.t * j) * ((k.t : ℂ) * ε 0 - k.x * ε 1 - k.y * ε 2 - k.z * ε 3) = 0
  linear_combination j * ε 0 * e1 + k.x * hx + k.y * hy + k.z * hz

/-- one number less -/
theorem reduce (hk : msq k = 0) (h : Circular k r ε) : Circular k r (ε + (-(ε 0 / k.t)) • four k) := by
  have e0 : (k.t : ℂ) ≠ 0 := by exact_mod_cast h.energy
  have f0 : four k 0 = k.t := rfl
  have f1 : four k 1 = k.x := rfl
  have f2 : four k 2 = k.y := rfl
  have f3 : four k 3 = k.z := rfl
  refine ⟨h.energy, ?_, ?_, ?_, ?_⟩
  · have t := h.transverse hk
    have t' : contract (four k) (star ε) = 0 := by
      have := congrArg star t
      simpa [contract, Fin.sum_univ_four, metric, four] using this
    have n := h.norm
    have e1 : ((k.t : ℂ) ^ 2 - k.x ^ 2 - k.y ^ 2 - k.z ^ 2) = 0 := by exact_mod_cast hk
    rw [contract_sum] at t t' n ⊢
    simp only [Pi.add_apply, Pi.smul_apply, Pi.star_apply, smul_eq_mul, star_add, star_mul', f0, f1, f2, f3, Complex.star_def, map_neg, map_div₀, Complex.conj_ofReal] at t t' n ⊢
    linear_combination n - (ε 0 / k.t) * t' - ((starRingEnd ℂ) (ε 0) / k.t) * t + (ε 0 / k.t) * ((starRingEnd ℂ) (ε 0) / k.t) * e1
  all_goals simp only [Pi.add_apply, Pi.smul_apply, smul_eq_mul, f0, f1, f2, f3]
  · linear_combination h.x
  · linear_combination h.y
  · linear_combination h.z

theorem reduce_zero (h : Circular k r ε) : (ε + (-(ε 0 / k.t)) • four k) 0 = 0 := by
  have e0 : (k.t : ℂ) ≠ 0 := by exact_mod_cast h.energy
  simp [four, e0]

theorem parallel (hk : msq k = 0) (h : Circular k r ε) (h' : Circular k r η) (h0 : ε 0 = 0) (h0' : η 0 = 0) : ∃ a : ℂ, ‖a‖ = 1 ∧ η = a • ε := by
  have e0 : (k.t : ℂ) ≠ 0 := by exact_mod_cast h.energy
  have e1 : ((k.t : ℂ) ^ 2 - k.x ^ 2 - k.y ^ 2 - k.z ^ 2) = 0 := by exact_mod_cast hk
  have i2 := i_sq r
  obtain ⟨-, n, hx, hy, hz⟩ := h
  obtain ⟨-, n', hx', hy', hz'⟩ := h'
  rw [h0] at hx hy hz
  rw [h0'] at hx' hy' hz'
  generalize (if r then -Complex.I else Complex.I) = j at *
  have j0 : j ≠ 0 := by rintro rfl; simp at i2
  simp only [zero_mul, sub_zero] at hx hy hz hx' hy' hz'
  -- the vector product of the two vanishes
  have c0 : (k.x : ℂ) * (ε 2 * η 3 - ε 3 * η 2) + k.y * (ε 3 * η 1 - ε 1 * η 3) + k.z * (ε 1 * η 2 - ε 2 * η 1) = 0 := by
    linear_combination (1 / 2) * (η 1 * hx + η 2 * hy + η 3 * hz - (ε 1 * hx' + ε 2 * hy' + ε 3 * hz'))
  have jt : (j * k.t) ^ 2 ≠ 0 := pow_ne_zero _ (mul_ne_zero j0 e0)
  have c1 : ε 2 * η 3 - ε 3 * η 2 = 0 := by
    apply mul_left_cancel₀ jt
    linear_combination k.x * c0 - ((k.z * ε 1 - k.x * ε 3) * hz' + j * k.t * η 3 * hy - ((k.x * ε 2 - k.y * ε 1) * hy' + j * k.t * η 2 * hz))
  have c2 : ε 3 * η 1 - ε 1 * η 3 = 0 := by
    apply mul_left_cancel₀ jt
    linear_combination k.y * c0 - ((k.x * ε 2 - k.y * ε 1) * hx' + j * k.t * η 1 * hz - ((k.y * ε 3 - k.z * ε 2) * hz' + j * k.t * η 3 * hx))
  have c3 : ε 1 * η 2 - ε 2 * η 1 = 0 := by
    apply mul_left_cancel₀ jt
    linear_combination k.z * c0 - ((k.y * ε 3 - k.z * ε 2) * hy' + j * k.t * η 2 * hx - ((k.z * ε 1 - k.x * ε 3) * hx' + j * k.t * η 1 * hy))
  have m : star (ε 1) * ε 1 + star (ε 2) * ε 2 + star (ε 3) * ε 3 = 1 := by
    simp [contract, Fin.sum_univ_four, metric, h0] at n ⊢
    linear_combination -n
  have m' : star (η 1) * η 1 + star (η 2) * η 2 + star (η 3) * η 3 = 1 := by
    simp [contract, Fin.sum_univ_four, metric, h0'] at n' ⊢
    linear_combination -n'
  have f : η = (star (ε 1) * η 1 + star (ε 2) * η 2 + star (ε 3) * η 3) • ε := by
    ext μ
    fin_cases μ <;> simp [h0, h0']
    · simp at m; linear_combination -η 1 * m - (starRingEnd ℂ) (ε 2) * c3 + (starRingEnd ℂ) (ε 3) * c2
    · simp at m; linear_combination -η 2 * m + (starRingEnd ℂ) (ε 1) * c3 - (starRingEnd ℂ) (ε 3) * c1
    · simp at m; linear_combination -η 3 * m - (starRingEnd ℂ) (ε 1) * c2 + (starRingEnd ℂ) (ε 2) * c1
  refine ⟨_, ?_, f⟩
  generalize star (ε 1) * η 1 + star (ε 2) * η 2 + star (ε 3) * η 3 = a at f
  subst f
  have q : star a * a = 1 := by
    simp only [Pi.smul_apply, smul_eq_mul, star_mul'] at m'
    linear_combination m' - star a * a * m
  have : ((‖a‖ ^ 2 : ℝ) : ℂ) = 1 := by rw [← q, Complex.ofReal_pow, ← Complex.conj_mul']; rfl
  have h2 : ‖a‖ ^ 2 = 1 := by exact_mod_cast this
  nlinarith [norm_nonneg a]

/-- Vectors of the same helicity differ by a phase and a multiple of the momentum. -/
theorem unique (hk : msq k = 0) (h : Circular k r ε) (h' : Circular k r η) : ∃ a b : ℂ, ‖a‖ = 1 ∧ η = a • ε + b • four k := by
  obtain ⟨a, ha, e⟩ := parallel hk (h.reduce hk) (h'.reduce hk) h.reduce_zero h'.reduce_zero
  refine ⟨a, η 0 / k.t - a * (ε 0 / k.t), ha, ?_⟩
  ext μ
  have := congrFun e μ
  simp at this ⊢
  linear_combination this

end Spec.Circular

namespace Spec.Reaction
variable (S : Reaction) {c : Constants} {p : Nat → V4 ℝ}

/-- particles of given helicity are photons and gluons -/
def Lights (H : Fin 4 → Option Bool) : Prop := ∀ n, (H n).isSome → S.leg n = .boson .photon ∨ S.leg n = .boson .gluon

variable {S} {H : Fin 4 → Option Bool}

theorem Lights.leg (hL : S.Lights H) {n : Fin 4} (h : (H n).isSome) : ∃ b : Boson, S.leg n = .boson b ∧ b.massive = false ∧ b ≠ .higgs := by
  rcases hL n h with h | h
  · exact ⟨_, h, rfl, by simp⟩
  · exact ⟨_, h, rfl, by simp⟩

theorem prepared_shell (hL : S.Lights H) (hm : ∀ n : Fin 4, msq (p n) = S.mass c n ^ 2) (h0 : ∀ n b, S.leg n = .boson b → b.massive = true → b ≠ .higgs → c.bosonMass b ≠ 0) {n : Fin 4} {u : Fin 3 → Spinor} {ε : Fin 3 → Vec}
    (h : S.Prepared c p n (H n) u ε) {s : Fin 3} (hs : s ∈ S.someSpins H n) : S.Shell c p n (u s) (ε s) := by
  unfold someSpins at hs
  unfold Prepared at h
  cases hh : H n with
  | none =>
    rw [hh] at h hs
    exact S.complete_shell hm h0 h (by simpa using hs)
  | some r =>
    rw [hh] at h hs
    obtain rfl : s = 0 := by simpa using hs
    obtain ⟨b, hl, hb, -⟩ := hL.leg (n := n) (by rw [hh]; rfl)
    have m0 : msq (p n) = 0 := by
      rw [hm, mass, hl]
      cases b <;> first | (simp [Constants.bosonMass]; done) | cases hb
    unfold Shell
    rw [hl]
    exact fun _ => h.transverse m0

/-- The squared amplitude for given helicities does not depend on the choice of spinors and polarisation vectors. -/
theorem prepared_basis (hL : S.Lights H) (hm : ∀ n : Fin 4, msq (p n) = S.mass c n ^ 2) (h0 : ∀ n b, S.leg n = .boson b → b.massive = true → b ≠ .higgs → c.bosonMass b ≠ 0) (hg : S.Gauge c p)
    {u v : Fin 4 → Fin 3 → Spinor} {ε η : Fin 4 → Fin 3 → Vec} (h : ∀ n, S.Prepared c p n (H n) (u n) (ε n)) (h' : ∀ n, S.Prepared c p n (H n) (v n) (η n)) : S.prepared c p H u ε = S.prepared c p H v η := by
  unfold prepared
  refine congrArg (· / _) ?_
  have e : ∀ (u : Fin 4 → Fin 3 → Spinor) (ε : Fin 4 → Fin 3 → Vec), (∑ s ∈ Fintype.piFinset (S.someSpins H), ∑ κ ∈ Fintype.piFinset S.colours, ∑ γ ∈ Fintype.piFinset S.gluons,
      ‖S.amplitude c p κ γ (fun n => u n (s n)) (fun n => ε n (s n))‖ ^ 2) = ∑ κ ∈ Fintype.piFinset S.colours, ∑ γ ∈ Fintype.piFinset S.gluons, ∑ s ∈ Fintype.piFinset (S.someSpins H),
      ‖S.amplitude c p κ γ (fun n => u n (s n)) (fun n => ε n (s n))‖ ^ 2 := by
    intro u ε
    rw [Finset.sum_comm]
    exact Finset.sum_congr rfl fun κ _ => Finset.sum_comm
  rw [e, e]
  refine Finset.sum_congr rfl fun κ _ => Finset.sum_congr rfl fun γ _ => ?_
  refine swap_legs (X := Spinor × Vec) (F := fun w => ‖S.amplitude c p κ γ (fun n => (w n).1) (fun n => (w n).2)‖ ^ 2) (x := fun n s => (u n s, ε n s)) (y := fun n s => (v n s, η n s))
    (fun n x => S.Shell c p n x.1 x.2) (fun n s hs => prepared_shell hL hm h0 (h n) hs) (fun n s hs => prepared_shell hL hm h0 (h' n) hs) fun n w hw => ?_
  have up : ∀ x : Spinor × Vec, (fun m => (Function.update w n x m).1) = Function.update (fun m => (w m).1) n x.1 ∧ (fun m => (Function.update w n x m).2) = Function.update (fun m => (w m).2) n x.2 := by
    intro x
    constructor <;> funext m <;> by_cases hmn : m = n
    · subst hmn; simp
    · simp [hmn]
    · subst hmn; simp
    · simp [hmn]
  simp only [(up _).1, (up _).2]
  have hn := h n
  have hn' := h' n
  unfold Prepared at hn hn'
  unfold someSpins
  cases hh : H n with
  | none =>
    rw [hh] at hn hn'
    simpa using S.leg_basis hg hn hn' κ γ _ _ hw
  | some r =>
    rw [hh] at hn hn'
    obtain ⟨b, hl, hM, hb0⟩ := hL.leg (n := n) (by rw [hh]; rfl)
    have m0 : msq (p n) = 0 := by
      rw [hm, mass, hl]
      cases b <;> first | (simp [Constants.bosonMass]; done) | cases hM
    simp only [Option.isSome_some, if_true, Finset.sum_singleton]
    have hb : S.isBoson n = true := by simp [isBoson, hl]
    have hb' : S.boson n = b := by simp [boson, hl]
    have hz := hg n b hl hM κ γ _ _ hw
    simp only [S.amplitude_boson c p κ γ _ _ hb]
    obtain ⟨ψ, k1, -, k3⟩ := S.amplitude_fine c p κ γ (fun m => (w m).1) (fun m => (w m).2) hb
    rw [hb'] at k1
    have hL := k1 hb0
    have re : ∀ (k : V4 ℝ), star (four k) = four k := by intro k; funext μ; fin_cases μ <;> simp [four]
    simp only [k3] at hz ⊢
    obtain ⟨a, b', ha, e'⟩ := Circular.unique m0 hn hn'
    rw [e']
    congr 1
    cases hA : arrives n
    · simp only [hA, Bool.false_eq_true, if_false, re] at hz ⊢
      rw [star_add, star_smul, star_smul, re, hL.map_add, hL.map_smul, hL.map_smul, hz, smul_zero, add_zero, smul_eq_mul, norm_mul, norm_star, ha, one_mul]
    · simp only [hA, if_true] at hz ⊢
      rw [hL.map_add, hL.map_smul, hL.map_smul, hz, smul_zero, add_zero, smul_eq_mul, norm_mul, ha, one_mul]

end Spec.Reaction
end Spinas

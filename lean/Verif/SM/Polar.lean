import Verif.SM.LightLine
import Verif.SM.SetMembers
import Verif.SM.VevRows
import Verif.Exact.Helicity

/-! Classes with methods for incoming photons and gluons of given helicity. -/

namespace Spinas
open Spec Props Matrix

/-! ### the spinors of the code have definite helicity -/

theorem Light.circular {k : V4 ℝ} {z : Pair} (h : Light k z) (h0 : k.t ≠ 0) : Circular k true (star (lightE z 1)) ∧ Circular k false (star (lightE z 0)) := by
  obtain ⟨ht, hx, hy, hz⟩ := h.components
  have d1 : sb z.1 z.2 = -(2 * k.t) := by rw [ht, h.conj]; simp [sb]; ring
  have d2 : ab z.2 z.1 = -(2 * k.t) := by rw [ht, h.conj]; simp [ab]; ring
  have ht0 : (k.t : ℂ) ≠ 0 := by exact_mod_cast h0
  have s2 : ((√2 : ℝ) : ℂ) * (√2 : ℝ) = 2 := by rw [← Complex.ofReal_mul, Real.mul_self_sqrt (by norm_num)]; norm_num
  have i2 := Complex.I_sq
  obtain ⟨κ, hκ⟩ : ∃ κ : ℝ, ((√2 : ℝ) / (-(2 * k.t)) : ℂ) = κ := ⟨√2 / (-(2 * k.t)), by push_cast; rfl⟩
  have k2 : 2 * ((κ : ℂ) * k.t) ^ 2 = 1 := by
    rw [← hκ]
    field_simp
    linear_combination s2
  have e1 : star (lightE z 1) = (κ : ℂ) • ![0, (z.1 1 ^ 2 - z.1 0 ^ 2) / 2, -Complex.I * (z.1 1 ^ 2 + z.1 0 ^ 2) / 2, z.1 0 * z.1 1] := by
    have : lightE z 1 = ((√2 : ℝ) / ab z.2 z.1 : ℂ) • pv z.2 z.2 := rfl
    rw [this, d2, hκ, h.conj]
    ext μ
    fin_cases μ <;> simp [pv] <;> ring_nf <;> simp
  have e0 : star (lightE z 0) = (κ : ℂ) • ![0, (star (z.1 0) ^ 2 - star (z.1 1) ^ 2) / 2, -Complex.I * (star (z.1 0) ^ 2 + star (z.1 1) ^ 2) / 2, -(star (z.1 0) * star (z.1 1))] := by
    have : lightE z 0 = ((√2 : ℝ) / sb z.1 z.2 : ℂ) • pv z.1 z.1 := rfl
    rw [this, d1, hκ]
    ext μ
    fin_cases μ <;> simp [pv] <;> ring_nf <;> simp
  rw [e0, e1]
  generalize z.1 0 = a at *
  generalize z.1 1 = b at *
  constructor
  all_goals
    refine ⟨h0, ?_, ?_, ?_, ?_⟩
    · rw [Circular.contract_sum]
      simp
      rw [ht] at k2
      simp at k2
      ring_nf at k2 ⊢
      simp only [i2]
      linear_combination -k2
    all_goals
      simp
      simp only [ht, hx, hy, hz]
      simp
      ring_nf
      try simp only [i2]
      try ring1

/-! ### squared amplitudes in the spin states of the code -/

namespace Spec.Reaction
variable (S : Reaction) {c : Constants} {p : Nat → V4 ℝ} {H : Fin 4 → Option Bool} [FPEnv]

/-- number of the state of given helicity in the code -/
def turn (H : Fin 4 → Option Bool) (n : Fin 4) (s : Fin 3) : Fin 3 := match H n with
  | none => s
  | some true => 1
  | some false => 0
/-- states of the code to sum over -/
def pick (H : Fin 4 → Option Bool) (n : Fin 4) : Finset (Fin 3) := match H n with
  | none => S.spins n
  | some true => {1}
  | some false => {0}
/-- polarisation vectors made of the spinors of the code -/
noncomputable def codeEps (c : Constants) (p : Nat → V4 ℝ) (n : Fin 4) (t : Fin 3) : Vec := if arrives n then star (S.codeE c p n t) else S.codeE c p n t

theorem prepared_polarised (hL : S.Lights H) (hp : ∀ n : Fin 4, OnShell (p n) (S.mass c n)) (hm : ∀ n, 0 ≤ S.mass c n) {u : Fin 4 → Fin 3 → Spinor} {ε : Fin 4 → Fin 3 → Vec} (hu : ∀ n, S.Prepared c p n (H n) (u n) (ε n))
    (h0 : ∀ b : Boson, b.massive = true → c.bosonMass b ≠ 0) (n : Fin 4) (b : Boson) (hl : S.leg n = .boson b) : Polarised c (p n) b (S.codeE c p n) := by
  have eb : S.boson n = b := by simp [boson, hl]
  unfold codeE
  rw [eb]
  cases hb : b.massive
  · rw [if_neg (by simp)]
    have hs := hp n
    rw [S.mass_light hl hb] at hs
    obtain ⟨q, hq⟩ : ∃ q : V4 ℝ, dot q (p n) ≠ 0 := by
      have h := hu n
      unfold Prepared at h
      cases hh : H n with
      | none => rw [hh] at h; exact S.light_dot hl hb h
      | some r => rw [hh] at h; exact ⟨⟨1, 0, 0, 0⟩, by simpa [dot] using h.energy⟩
    exact (light_code hs).polarised c (by simpa using onShell_msq hs) hq hb
  · rw [if_pos rfl]
    exact S.codeVec_polarised hp hm hl hb fun _ => h0 b hb

/-- The spinors and vectors of the code describe all states. -/
theorem prepared_complete (hL : S.Lights H) (hp : ∀ n : Fin 4, OnShell (p n) (S.mass c n)) (hm : ∀ n, 0 ≤ S.mass c n) {u : Fin 4 → Fin 3 → Spinor} {ε : Fin 4 → Fin 3 → Vec} (hu : ∀ n, S.Prepared c p n (H n) (u n) (ε n))
    (h0 : ∀ b : Boson, b.massive = true → c.bosonMass b ≠ 0) (n : Fin 4) : S.Complete c p n (S.codeSpinor c p n) (S.codeEps c p n) :=
  S.code_complete hp hm (S.prepared_polarised hL hp hm hu h0) n

theorem prepared_code (hL : S.Lights H) (ha : ∀ n, (H n).isSome → arrives n = true) (hp : ∀ n : Fin 4, OnShell (p n) (S.mass c n)) (hm : ∀ n, 0 ≤ S.mass c n) {u : Fin 4 → Fin 3 → Spinor} {ε : Fin 4 → Fin 3 → Vec}
    (hu : ∀ n, S.Prepared c p n (H n) (u n) (ε n)) (h0 : ∀ b : Boson, b.massive = true → c.bosonMass b ≠ 0) (hG : S.Gauge c p) :
    S.prepared c p H u ε = (∑ s ∈ Fintype.piFinset (S.pick H), S.stateSum c p (S.codeE c p) s) / (S.someStates H 0 * S.someStates H 1 * S.symmetry) := by
  have hC := S.prepared_complete hL hp hm hu h0
  rw [prepared_basis (v := fun n t => S.codeSpinor c p n (turn H n t)) (η := fun n t => S.codeEps c p n (turn H n t)) hL (fun n => onShell_msq (hp n)) (fun _ b _ hb _ => h0 b hb) hG hu]
  · unfold prepared
    refine congrArg (· / _) ?_
    refine Finset.sum_nbij (fun s n => turn H n (s n)) (fun s hs => ?_) (fun s hs s' hs' e => ?_) (fun s hs => ?_) (fun s hs => rfl)
    · rw [Fintype.mem_piFinset] at hs ⊢
      intro n
      have := hs n
      unfold someSpins at this
      unfold pick turn
      cases hh : H n with
      | none => simpa [hh] using this
      | some r => cases r <;> simp
    · rw [Finset.mem_coe, Fintype.mem_piFinset] at hs hs'
      funext n
      have h1 := hs n
      have h2 := hs' n
      have h3 := congrFun e n
      unfold someSpins at h1 h2
      simp only [turn] at h3
      cases hh : H n with
      | none => simpa [hh] using h3
      | some r =>
        simp [hh] at h1 h2
        rw [h1, h2]
    · rw [Finset.mem_coe, Fintype.mem_piFinset] at hs
      refine ⟨fun n => if (H n).isSome then 0 else s n, ?_, ?_⟩
      · rw [Finset.mem_coe, Fintype.mem_piFinset]
        intro n
        have := hs n
        unfold pick at this
        unfold someSpins
        cases hh : H n with
        | none => simpa [hh] using this
        | some r => simp
      · funext n
        have := hs n
        unfold pick at this
        unfold turn
        cases hh : H n with
        | none => simp [hh]
        | some r => cases r <;> simp [hh] at this ⊢ <;> rw [this]
  · intro n
    unfold Prepared
    cases hh : H n with
    | none =>
      have := hC n
      simpa only [turn, hh] using this
    | some r =>
      have hn := hu n
      unfold Prepared at hn
      rw [hh] at hn
      obtain ⟨b, hl, hb, -⟩ := hL.leg (n := n) (by rw [hh]; rfl)
      have eb : S.boson n = b := by simp [boson, hl]
      have hs := hp n
      rw [S.mass_light hl hb] at hs
      have k := (light_code hs).circular hn.energy
      simp only [turn, hh, codeEps, ha n (by rw [hh]; rfl), if_true, codeE, eb, hb, Bool.false_eq_true, if_false]
      cases r
      · exact k.2
      · exact k.1

/-- with a common factor -/
theorem prepared_states (hL : S.Lights H) (ha : ∀ n, (H n).isSome → arrives n = true) (hp : ∀ n : Fin 4, OnShell (p n) (S.mass c n)) (hm : ∀ n, 0 ≤ S.mass c n) {u : Fin 4 → Fin 3 → Spinor} {ε : Fin 4 → Fin 3 → Vec}
    (hu : ∀ n, S.Prepared c p n (H n) (u n) (ε n)) (h0 : ∀ b : Boson, b.massive = true → c.bosonMass b ≠ 0) (hG : S.Gauge c p) {W : ℝ} {B : (Fin 4 → Fin 3) → ℝ}
    (h : ∀ s ∈ Fintype.piFinset S.spins, S.stateSum c p (S.codeE c p) s = W * B s) :
    S.prepared c p H u ε = W * (∑ a ∈ S.pick H 0, ∑ b ∈ S.pick H 1, ∑ c ∈ S.pick H 2, ∑ d ∈ S.pick H 3, B ![a, b, c, d]) / (S.someStates H 0 * S.someStates H 1 * S.symmetry) := by
  rw [S.prepared_code hL ha hp hm hu h0 hG, ← sum_colours, Finset.mul_sum]
  refine congrArg (· / _) (Finset.sum_congr rfl fun s hs => h s ?_)
  rw [Fintype.mem_piFinset] at hs ⊢
  intro n
  have := hs n
  unfold pick at this
  cases hh : H n with
  | none => simpa [hh] using this
  | some r =>
    obtain ⟨b, hl, hb, hb0⟩ := hL.leg (n := n) (by rw [hh]; rfl)
    have : S.spins n = {0, 1} := by
      unfold spins
      rw [hl]
      cases b <;> first | rfl | cases hb
    rw [this]
    cases r <;> simp_all

end Spec.Reaction

namespace SM
open XR
namespace BRow
variable (R : BRow) [FPEnv]

/-- The method numbered `k` returns the squared amplitude for the helicities `H`: for any object of the class, however constructed and used before (but without `set_masses` where that forgets to
update something), any values of its parameters, any momenta and any spinors and polarisation vectors that describe the states. -/
def Polarises (k : Nat) (H : Fin 4 → Option Bool) : Prop := ∀ (mem : Nat → XR) (junk : Kin XR XC) (par : Nat → XR) (ops : List (ProcOp XR XC)) (c : Constants) (p : Nat → V4 ℝ) (u : Fin 4 → Fin 3 → Spinor) (ε : Fin 4 → Fin 3 → Vec)
    (o : Obj XR XC) (j : Kin XR XC) (xs : List (MCall XR XC)) (l : Loc XR XC), (R.proc.name ∈ staleMasses → Unset ops) →
  (∀ n q, R.pars[n]? = some (some q) → parAfter R.proc.massPar ops par n = fin (c.get q)) → c.Physical → c.Heavy → (∀ q ∈ R.absent, c.get q = 0) →
  o = runProcOps R.proc ops (R.proc.construct mem junk par).2 →
  (∀ i : Fin 4, OnShell (p i) (R.react.mass c i)) → Balanced p → R.react.Regular c p → (∀ i, R.react.Prepared c p i (H i) (u i) (ε i)) →
  (R.proc.runSetMomenta j (fun i => (p i).toX) o).1 = .ok () ∧
  (R.proc.method l .r k [] (runCalls R.proc xs (R.proc.runSetMomenta j (fun i => (p i).toX) o).2)).1 = .ok (fin (R.react.prepared c p H u ε))

/-- the same for classes with a parameter `vev`, `v = 2 MW sin θ / e` -/
def PolarisesVev (k : Nat) (H : Fin 4 → Option Bool) : Prop := ∀ (mem : Nat → XR) (junk : Kin XR XC) (par : Nat → XR) (ops : List (ProcOp XR XC)) (c : Constants) (v : ℝ) (p : Nat → V4 ℝ) (u : Fin 4 → Fin 3 → Spinor) (ε : Fin 4 → Fin 3 → Vec)
    (o : Obj XR XC) (j : Kin XR XC) (xs : List (MCall XR XC)) (l : Loc XR XC), (R.proc.name ∈ staleMasses → Unset ops) →
  (∀ n q, R.pars[n]? = some (some q) → parAfter R.proc.massPar ops par n = fin (c.get q)) → (∀ n, R.pars[n]? = some none → parAfter R.proc.massPar ops par n = fin v) → v * c.e = 2 * c.MW * c.SW →
  c.Physical → c.Heavy → o = runProcOps R.proc ops (R.proc.construct mem junk par).2 →
  (∀ i : Fin 4, OnShell (p i) (R.react.mass c i)) → Balanced p → R.react.Regular c p → (∀ i, R.react.Prepared c p i (H i) (u i) (ε i)) →
  (R.proc.runSetMomenta j (fun i => (p i).toX) o).1 = .ok () ∧
  (R.proc.method l .r k [] (runCalls R.proc xs (R.proc.runSetMomenta j (fun i => (p i).toX) o).2)).1 = .ok (fin (R.react.prepared c p H u ε))

/-- What is left to show, in terms of the mathematical meaning `N` of the members: the sum over the spin states of the code. -/
structure Polar (N : Env) (k : Nat) (H : Fin 4 → Option Bool) (c : Constants) (p : Nat → V4 ℝ) : Prop where
  gauge : R.react.Gauge c p
  value : ∃ (W : ℝ) (B : (Fin 4 → Fin 3) → ℝ), (∀ s ∈ Fintype.piFinset R.react.spins, R.react.stateSum c p (R.react.codeE c p) s = W * B s) ∧
    meaning N .r R.proc.methods k [] = W * (∑ a ∈ R.react.pick H 0, ∑ b ∈ R.react.pick H 1, ∑ c ∈ R.react.pick H 2, ∑ d ∈ R.react.pick H 3, B ![a, b, c, d]) /
      (R.react.someStates H 0 * R.react.someStates H 1 * R.react.symmetry)

variable {R}

theorem Polar.eq {N : Env} {k : Nat} {H : Fin 4 → Option Bool} {c : Constants} {p : Nat → V4 ℝ} (h : R.Polar N k H c p) (hc : c.Physical) (hh : c.Heavy) (hL : R.react.Lights H) (ha : ∀ n, (H n).isSome → Reaction.arrives n = true)
    (hs : ∀ i : Fin 4, OnShell (p i) (R.react.mass c i)) {u : Fin 4 → Fin 3 → Spinor} {ε : Fin 4 → Fin 3 → Vec} (hu : ∀ n, R.react.Prepared c p n (H n) (u n) (ε n)) :
    meaning N .r R.proc.methods k [] = R.react.prepared c p H u ε := by
  obtain ⟨W, B, h1, h2⟩ := h.value
  rw [h2, R.react.prepared_states hL ha hs (leg_nonneg hc hh R.react) hu (fun b hb => (boson_pos hc hh hb).ne') h.gauge h1]

theorem polarises_of {D E : List Nat} {k : Nat} {H : Fin 4 → Option Bool} (hL : R.react.Lights H) (ha : ∀ n, (H n).isSome → Reaction.arrives n = true)
    (hP : R.proc ∈ all) (hn : R.proc.numericOnce R.used D E = true) (hE : E.all (fun n => decide (n ∈ R.used)) = true) (hk : R.proc.isSquare k = true)
    (hD : ∀ c : Constants, c.Physical → c.Heavy → (∀ n ∈ D, R.rho c n ≠ 0) ∧ ∀ n ∈ E, R.rho c n ^ 2 < 1)
    (hm : ∀ c : Constants, c.Physical → ∀ i : Fin 4, R.proc.massNum (R.rho c) i = R.react.mass c i)
    (hz : ∀ i : Fin 4, heavy (R.react.leg i) || R.proc.massless i = true)
    (hv : ∀ (c : Constants) (p : Nat → V4 ℝ), c.Physical → c.Heavy → (∀ q ∈ R.absent, c.get q = 0) → (∀ i, 0 ≤ R.react.mass c i) →
      (∀ i : Fin 4, OnShell (p i) (R.react.mass c i)) → Balanced p → R.react.Regular c p → (∀ i, R.react.Complete c p i (R.react.codeSpinor c p i) (R.react.codeEps c p i)) →
      (∀ n, (Ty.r, n) ∈ R.proc.divides → (R.proc.env (R.rho c) p).r n ≠ 0) ∧ (∀ n, (Ty.c, n) ∈ R.proc.divides → (R.proc.env (R.rho c) p).c n ≠ 0) ∧
      R.Polar (R.proc.env (R.rho c) p) k H c p) : R.Polarises k H := by
  intro mem junk par ops c p u ε o j xs l hst hpar hc hh hw ho hs hb hr hu
  obtain ⟨h1, h2, h3⟩ := hv c p hc hh hw (leg_nonneg hc hh R.react) hs hb hr (R.react.prepared_complete hL hs (leg_nonneg hc hh R.react) hu fun b hb => (boson_pos hc hh hb).ne')
  have h3 := h3.eq hc hh hL ha hs hu
  have i4 : ∀ i, i < 4 → R.proc.massNum (R.rho c) i = R.react.mass c (Fin.ofNat 4 i) := by
    intro i hi
    have := hm c hc (Fin.ofNat 4 i)
    simpa [Nat.mod_eq_of_lt hi] using this
  have := numericOnce_result (D := D) (E := E) (ρ := R.rho c) hP ops (Decidable.or_iff_not_imp_left.2 fun h => hst (by simpa using h)) hn (fun n hn => by simpa using List.all_eq_true.1 hE n hn)
    (hD c hc hh).1 (hD c hc hh).2 mem junk par (fun n hn => ?_) ho (p := p) (fun i hi => ?_) (fun i hi hl => ?_) h1 h2 j xs l k hk
  · rw [h3] at this
    exact this
  · simp only [used, List.mem_filter] at hn
    obtain ⟨_, hn⟩ := hn
    split at hn
    · rename_i q hq
      rw [hpar n q hq, rho, hq]
    · cases hn
  · rw [i4 i hi]
    have := hs (Fin.ofNat 4 i)
    simpa [Nat.mod_eq_of_lt hi] using this
  · rw [i4 i hi]
    refine (leg_pos hc hh ?_).ne'
    have := hz (Fin.ofNat 4 i)
    simpa [Nat.mod_eq_of_lt hi, hl] using this

theorem polarisesSet_of {D E : List Nat} (K : List Nat) {k : Nat} {H : Fin 4 → Option Bool} (hL : R.react.Lights H) (ha : ∀ n, (H n).isSome → Reaction.arrives n = true)
    (hP : R.proc ∈ all) (hn : R.proc.numericSet K R.used D E = true) (hE : E.all (fun n => decide (n ∈ R.used)) = true) (hk : R.proc.isSquare k = true)
    (hD : ∀ c : Constants, c.Physical → c.Heavy → (∀ n ∈ D, R.rho c n ≠ 0) ∧ ∀ n ∈ E, R.rho c n ^ 2 < 1)
    (hm : ∀ c : Constants, c.Physical → ∀ i : Fin 4, R.proc.massNum (R.rho c) i = R.react.mass c i)
    (hz : ∀ i : Fin 4, heavy (R.react.leg i) || R.proc.massless i = true)
    (hv : ∀ (c : Constants) (p : Nat → V4 ℝ), c.Physical → c.Heavy → (∀ q ∈ R.absent, c.get q = 0) → (∀ i, 0 ≤ R.react.mass c i) →
      (∀ i : Fin 4, OnShell (p i) (R.react.mass c i)) → Balanced p → R.react.Regular c p → (∀ i, R.react.Complete c p i (R.react.codeSpinor c p i) (R.react.codeEps c p i)) →
      (∀ n ∈ K, (R.proc.env (R.rho c) p).c n ≠ 0) ∧
      (∀ n, (Ty.r, n) ∈ R.proc.divides → (R.proc.envSet K (R.rho c) p).r n ≠ 0) ∧ (∀ n, (Ty.c, n) ∈ R.proc.divides → (R.proc.envSet K (R.rho c) p).c n ≠ 0) ∧
      R.Polar (R.proc.envSet K (R.rho c) p) k H c p) : R.Polarises k H := by
  intro mem junk par ops c p u ε o j xs l hst hpar hc hh hw ho hs hb hr hu
  obtain ⟨h0, h1, h2, h3⟩ := hv c p hc hh hw (leg_nonneg hc hh R.react) hs hb hr (R.react.prepared_complete hL hs (leg_nonneg hc hh R.react) hu fun b hb => (boson_pos hc hh hb).ne')
  have h3 := h3.eq hc hh hL ha hs hu
  have i4 : ∀ i, i < 4 → R.proc.massNum (R.rho c) i = R.react.mass c (Fin.ofNat 4 i) := by
    intro i hi
    have := hm c hc (Fin.ofNat 4 i)
    simpa [Nat.mod_eq_of_lt hi] using this
  have := numericSet_result (K := K) (D := D) (E := E) (ρ := R.rho c) hP ops (Decidable.or_iff_not_imp_left.2 fun h => hst (by simpa using h)) hn (fun n hn => by simpa using List.all_eq_true.1 hE n hn)
    (hD c hc hh).1 (hD c hc hh).2 mem junk par (fun n hn => ?_) ho (p := p) (fun i hi => ?_) (fun i hi hl => ?_) h1 h2 h0 j xs l k hk
  · rw [h3] at this
    exact this
  · simp only [used, List.mem_filter] at hn
    obtain ⟨_, hn⟩ := hn
    split at hn
    · rename_i q hq
      rw [hpar n q hq, rho, hq]
    · cases hn
  · rw [i4 i hi]
    have := hs (Fin.ofNat 4 i)
    simpa [Nat.mod_eq_of_lt hi] using this
  · rw [i4 i hi]
    refine (leg_pos hc hh ?_).ne'
    have := hz (Fin.ofNat 4 i)
    simpa [Nat.mod_eq_of_lt hi, hl] using this

theorem polarisesVev_of {D E : List Nat} {k : Nat} {H : Fin 4 → Option Bool} (hL : R.react.Lights H) (ha : ∀ n, (H n).isSome → Reaction.arrives n = true)
    (hP : R.proc ∈ all) (hn : R.proc.numericOnce (List.range R.pars.length) D E = true) (hE : E.all (fun n => decide (n < R.pars.length)) = true) (hk : R.proc.isSquare k = true)
    (hD : ∀ (c : Constants) (v : ℝ), c.Physical → c.Heavy → v * c.e = 2 * c.MW * c.SW → (∀ n ∈ D, R.rhoVev c v n ≠ 0) ∧ ∀ n ∈ E, R.rhoVev c v n ^ 2 < 1)
    (hm : ∀ (c : Constants) (v : ℝ), c.Physical → ∀ i : Fin 4, R.proc.massNum (R.rhoVev c v) i = R.react.mass c i)
    (hz : ∀ i : Fin 4, heavy (R.react.leg i) || R.proc.massless i = true)
    (hv : ∀ (c : Constants) (v : ℝ) (p : Nat → V4 ℝ), c.Physical → c.Heavy → v * c.e = 2 * c.MW * c.SW → (∀ i, 0 ≤ R.react.mass c i) →
      (∀ i : Fin 4, OnShell (p i) (R.react.mass c i)) → Balanced p → R.react.Regular c p → (∀ i, R.react.Complete c p i (R.react.codeSpinor c p i) (R.react.codeEps c p i)) →
      (∀ n, (Ty.r, n) ∈ R.proc.divides → (R.proc.env (R.rhoVev c v) p).r n ≠ 0) ∧ (∀ n, (Ty.c, n) ∈ R.proc.divides → (R.proc.env (R.rhoVev c v) p).c n ≠ 0) ∧
      R.Polar (R.proc.env (R.rhoVev c v) p) k H c p) : R.PolarisesVev k H := by
  intro mem junk par ops c v p u ε o j xs l hst hpar hvp hve hc hh ho hs hb hr hu
  obtain ⟨h1, h2, h3⟩ := hv c v p hc hh hve (leg_nonneg hc hh R.react) hs hb hr (R.react.prepared_complete hL hs (leg_nonneg hc hh R.react) hu fun b hb => (boson_pos hc hh hb).ne')
  have h3 := h3.eq hc hh hL ha hs hu
  have i4 : ∀ i, i < 4 → R.proc.massNum (R.rhoVev c v) i = R.react.mass c (Fin.ofNat 4 i) := by
    intro i hi
    have := hm c v hc (Fin.ofNat 4 i)
    simpa [Nat.mod_eq_of_lt hi] using this
  have := numericOnce_result (D := D) (E := E) (ρ := R.rhoVev c v) hP ops (Decidable.or_iff_not_imp_left.2 fun h => hst (by simpa using h)) hn (fun n hn => List.mem_range.2 (by simpa using List.all_eq_true.1 hE n hn))
    (hD c v hc hh hve).1 (hD c v hc hh hve).2 mem junk par (fun n hn => ?_) ho (p := p) (fun i hi => ?_) (fun i hi hl => ?_) h1 h2 j xs l k hk
  · rw [h3] at this
    exact this
  · have hn := List.mem_range.1 hn
    cases hq : R.pars[n]? with
    | none => rw [List.getElem?_eq_none_iff] at hq; omega
    | some q =>
      cases q with
      | none => rw [hvp n hq, rhoVev, hq]
      | some q => rw [hpar n q hq, rhoVev, hq]
  · rw [i4 i hi]
    have := hs (Fin.ofNat 4 i)
    simpa [Nat.mod_eq_of_lt hi] using this
  · rw [i4 i hi]
    refine (leg_pos hc hh ?_).ne'
    have := hz (Fin.ofNat 4 i)
    simpa [Nat.mod_eq_of_lt hi, hl] using this

end BRow
end SM

end Spinas

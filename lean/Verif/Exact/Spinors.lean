import Verif.Exact.Particle
import Verif.Props.ParticleHistory

/-! Values of the spinors of a particle in use, in the exact instance, and the algebra they satisfy. -/

namespace Spinas
open Spec Props XR

section generic
variable {R C : Type} [Scalar R] [Cplx R C]

/-- A particle in use returns what the formulas give on the settled kinematic members. -/
structure Fresh (F : Particle R C) : Prop where
  umat : (Particle.umat F).1 = .ok F.kin.umatVal
  lmat : (Particle.lmat F).1 = .ok F.kin.lmatVal
  hel : ∀ b, (Particle.helicity b F).1 = if Scalar.ne F.kin.m (int 0) then .throw .helicityOfMassive else .ok (F.kin.helVal b)
  spn : ∀ b j u, (Particle.spinor b j u F).1 = if j ≠ 1 ∧ j ≠ -1 then .throw .badSpin else
    if Scalar.eq F.kin.m (int 0) then .throw .spinOfMassless else .ok (F.kin.spnVal b u (decide (j ≠ -1)))

theorem fresh_of_update {P : Particle R C} (h : (Particle.update P).1 = .ok ()) : Fresh (Particle.update P).2 := by
  obtain ⟨k, _, a, b, c, d⟩ := update_ok_kin h
  generalize (Particle.update P).2 = F at a b c d
  refine ⟨by simp [Particle.umat, c], by simp [Particle.lmat, d], fun b => ?_, fun br j u => ?_⟩
  · simp only [Particle.helicity, a]; split <;> rfl
  · simp only [Particle.spinor, b]; split
    · rfl
    · split <;> rfl

theorem Spec.Live.fresh {p : V4 R} {m : R} {P : Particle R C} (h : Live p m P) :
    ∃ F : Particle R C, Fresh F ∧ Ext F P ∧
      F.kin = Kin.withAngles (Kin.withMags { P.kin with m := m, p := p }) ∧ (Kin.withMags { P.kin with m := m, p := p }).offShell = false := by
  obtain ⟨P0, pre, sync, accs, hs, hok, rfl, hp, hm⟩ := h
  have e : (runOps (pre ++ sync :: accs.map .acc) P0).2
      = (runOps (accs.map .acc) (sync.run (runOps pre P0).2).2).2 := by rw [runOps_append]; rfl
  have hm' : m = massAfter (runOps pre P0).2.kin.m [sync] := by
    rw [hm, ← (runOps_mass_mom (pre ++ [sync]) P0).1, ← run_mass, ← (runOps_append pre [sync] P0 ▸ rfl :
      (runOps [sync] (runOps pre P0).2).2 = (runOps (pre ++ [sync]) P0).2)]; rfl
  have hp' : p = momAfter (runOps pre P0).2.kin.p [sync] := by
    rw [hp, ← (runOps_mass_mom (pre ++ [sync]) P0).2, ← run_mom, ← (runOps_append pre [sync] P0 ▸ rfl :
      (runOps [sync] (runOps pre P0).2).2 = (runOps (pre ++ [sync]) P0).2)]; rfl
  rw [e]
  have key : ∀ Q : Particle R C, Q.kin.p = p → Q.kin.m = m → (Particle.update Q).1 = .ok () →
      ∃ F : Particle R C, Fresh F ∧ Ext F (runOps (accs.map .acc) (Particle.update Q).2).2 ∧
      F.kin = Kin.withAngles (Kin.withMags { (runOps (accs.map .acc) (Particle.update Q).2).2.kin with m := m, p := p }) ∧
      (Kin.withMags { (runOps (accs.map .acc) (Particle.update Q).2).2.kin with m := m, p := p }).offShell = false := by
    intro Q h1 h2 h3
    refine ⟨_, fresh_of_update h3, ext_runAccs _ _, ?_, ?_⟩
    · rw [(update_ok_kin h3).1]; exact settle_congr h1 h2
    · rw [update_ok_iff] at h3; rw [← h3]; exact mags_congr h1.symm h2.symm
  cases sync with
  | setMass m => exact hs.elim
  | acc a => exact hs.elim
  | setMomentum q =>
    simp only [POp.run, map_snd, map_fst] at hok ⊢
    refine key _ hp'.symm hm'.symm ?_
    unfold Particle.setMomentum at hok
    generalize Particle.update (R := R) (C := C) _ = r at hok ⊢
    obtain ⟨r, _⟩ := r; cases r <;> simp_all [Res.map]
  | update =>
    simp only [POp.run, map_snd, map_fst] at hok ⊢
    refine key _ hp'.symm hm'.symm ?_
    generalize Particle.update (R := R) (C := C) _ = r at hok ⊢
    obtain ⟨r, _⟩ := r; cases r <;> simp_all [Res.map]

/-- A newly constructed particle is in use. -/
theorem live_ctor (junk : Kin R C) (p : V4 R) (m : R) (h : (Particle.ctorPM junk p m).1 = .ok ()) :
    Live p m (Particle.ctorPM junk p m).2 := by
  refine ⟨Particle.noCaches { Particle.rawKin junk with m := m, p := p } true true false false false, [], .update, [],
    trivial, ?_, ?_, rfl, rfl⟩
  · simp only [POp.run, map_fst, runOps]
    unfold Particle.ctorPM at h
    rw [h]; rfl
  · simp only [List.nil_append, List.map_nil, runOps, POp.run, map_snd]; rfl

/-- Reading keeps a particle in use. -/
theorem Spec.Live.acc {p : V4 R} {m : R} {P : Particle R C} (h : Live p m P) (a : PAcc) : Live p m (a.run P).2 := by
  obtain ⟨P0, pre, sync, accs, hs, hok, rfl, hp, hm⟩ := h
  refine ⟨P0, pre, sync, accs ++ [a], hs, hok, ?_, hp, hm⟩
  have e : pre ++ sync :: List.map POp.acc (accs ++ [a]) = (pre ++ sync :: List.map POp.acc accs) ++ [.acc a] := by simp
  rw [e, runOps_append _ [POp.acc a]]
  rfl

/-- A successful `set_momentum` makes any particle one in use. -/
theorem live_setMomentum (P : Particle R C) (p : V4 R) (h : (Particle.setMomentum p P).1 = .ok ()) :
    Live p P.kin.m (Particle.setMomentum p P).2 := by
  refine ⟨P, [], .setMomentum p, [], trivial, ?_, ?_, rfl, rfl⟩
  · simp only [POp.run, map_fst, runOps, h, Res.map]
  · simp only [List.nil_append, List.map_nil, runOps, POp.run, map_snd]

end generic

section exact
variable [FPEnv]

/-- the factors sqrt(E+|p|) and sqrt(E-|p|) -/
noncomputable def V4.a (p : V4 ℝ) : ℝ := Real.sqrt (p.t + p.mag)
noncomputable def V4.b (p : V4 ℝ) : ℝ := Real.sqrt (p.t - p.mag)

/-- conjugate of `s` -/
noncomputable def V4.sb (p : V4 ℝ) : ℂ := (starRingEnd ℂ) p.s

/-- helicity spinors as complex vectors -/
noncomputable def hv (p : V4 ℝ) : Br → Fin 2 → ℂ
  | .rangle => ![p.a * p.ch, p.a * p.s]
  | .langle => ![p.a * p.s, -p.a * p.ch]
  | .lsquare => ![p.a * p.ch, p.a * p.sb]
  | .rsquare => ![p.a * p.sb, -p.a * p.ch]

/-- spin spinors as complex vectors -/
noncomputable def sv (p : V4 ℝ) : Br → Bool → Bool → Fin 2 → ℂ
  | .rangle, true, false => ![p.a * p.ch, p.a * p.s]
  | .rangle, true, true => ![-p.b * p.sb, p.b * p.ch]
  | .rangle, false, false => ![-p.b * p.sb, p.b * p.ch]
  | .rangle, false, true => ![-p.a * p.ch, -p.a * p.s]
  | .langle, true, false => ![p.a * p.s, -p.a * p.ch]
  | .langle, true, true => ![p.b * p.ch, p.b * p.sb]
  | .langle, false, false => ![p.b * p.ch, p.b * p.sb]
  | .langle, false, true => ![-p.a * p.s, p.a * p.ch]
  | .lsquare, true, false => ![p.b * p.s, -p.b * p.ch]
  | .lsquare, true, true => ![p.a * p.ch, p.a * p.sb]
  | .lsquare, false, false => ![p.a * p.ch, p.a * p.sb]
  | .lsquare, false, true => ![-p.b * p.s, p.b * p.ch]
  | .rsquare, true, false => ![-p.b * p.ch, -p.b * p.s]
  | .rsquare, true, true => ![p.a * p.sb, -p.a * p.ch]
  | .rsquare, false, false => ![p.a * p.sb, -p.a * p.ch]
  | .rsquare, false, true => ![p.b * p.ch, p.b * p.s]

theorem hel_fin (p : V4 ℝ) (m : ℝ) (b : Br) : (kinOf p m).helVal b = XV (hv p b) := by
  cases b <;> simp [Kin.helVal, kinOf, XV, hv, V4.a, V4.sb]

theorem spn_fin (p : V4 ℝ) (m : ℝ) (b : Br) (u q : Bool) : (kinOf p m).spnVal b u q = XV (sv p b u q) := by
  cases b <;> cases u <;> cases q <;> simp [Kin.spnVal, kinOf, XV, sv, V4.a, V4.b, V4.sb]

/-- The kinematic members of a particle in use with E >= |p|. -/
theorem Spec.Live.kin {p : V4 ℝ} {m : ℝ} {P : Particle XR XC} (h : Live p.toX (.fin m) P) (hE : p.mag ≤ p.t) :
    P.kin = kinOf p m := by
  obtain ⟨F, _, hx, hk, _⟩ := h.fresh
  rw [hx.kin, hk]
  exact settle_fin _ p m rfl rfl hE

theorem Spec.Live.spinor {p : V4 ℝ} {m : ℝ} {P : Particle XR XC} (h : Live p.toX (.fin m) P) (hE : p.mag ≤ p.t) (hm : m ≠ 0)
    (b : Br) (u : Bool) {j : Int} (hj : j = 1 ∨ j = -1) :
    (Particle.spinor b j u P).1 = .ok (XV (sv p b u (decide (j = 1)))) := by
  have hkin := h.kin hE
  obtain ⟨F, hF, hx, hk, _⟩ := h.fresh
  rw [hx.spinor_fst, hF.spn, ← hx.kin, hkin, spn_fin]
  have : (Scalar.eq (kinOf p m).m (int 0) : Bool) = false := by simp [kinOf, hm]
  rw [this]
  rcases hj with rfl | rfl <;> simp

theorem Spec.Live.helicity {p : V4 ℝ} {P : Particle XR XC} (h : Live p.toX (.fin 0) P) (hE : p.mag ≤ p.t) (b : Br) :
    (Particle.helicity b P).1 = .ok (XV (hv p b)) := by
  have hkin := h.kin hE
  obtain ⟨F, hF, hx, hk, _⟩ := h.fresh
  rw [hx.helicity_fst, hF.hel, ← hx.kin, hkin, hel_fin]
  simp [kinOf]

theorem withAngles_fin (k : Kin XR XC) (p : V4 ℝ) (hp : k.p = p.toX) :
    k.withMags.withAngles.p = p.toX ∧ k.withMags.withAngles.pxymag = .fin p.tr ∧ k.withMags.withAngles.phi = .fin p.ph ∧
    k.withMags.withAngles.pmag = .fin p.mag ∧ k.withMags.withAngles.theta = .fin p.th ∧ k.withMags.withAngles.m = k.m := by
  rw [withMags_fin k p hp]
  unfold Kin.withAngles
  simp only [hp, V4.toX, s_atan2]
  exact ⟨trivial, trivial, rfl, trivial, rfl, trivial⟩

theorem Spec.Live.umat {p : V4 ℝ} {m : XR} {P : Particle XR XC} (h : Live p.toX m P) :
    (Particle.umat P).1 = .ok (XM (slashUpper p)) := by
  obtain ⟨F, hF, hx, hk, _⟩ := h.fresh
  obtain ⟨h1, h2, h3, _⟩ := withAngles_fin { P.kin with m := m, p := p.toX } p rfl
  rw [hx.umat_fst, hF.umat, hk]
  unfold Kin.umatVal
  rw [h1, h2, h3]
  have e1 := p.tr_ei
  have e2 := p.tr_ei_conj
  rw [V4.ei_conj] at e2
  unfold V4.ei at e1
  simp only [V4.toX, fin_sub, fin_add, fin_neg, s_int, Int.cast_zero, c_cart_zero, c_polar, Complex.ofReal_neg, e1, e2, ofC_neg]
  simp only [XM, slashUpper, Matrix.of_apply, Matrix.cons_val', Matrix.cons_val_zero, Matrix.cons_val_one, Matrix.cons_val_fin_one]
  congr 3 <;> congr 1 <;> push_cast <;> ring

theorem Spec.Live.lmat {p : V4 ℝ} {m : XR} {P : Particle XR XC} (h : Live p.toX m P) :
    (Particle.lmat P).1 = .ok (XM (slashLower p)) := by
  obtain ⟨F, hF, hx, hk, _⟩ := h.fresh
  obtain ⟨h1, h2, h3, _⟩ := withAngles_fin { P.kin with m := m, p := p.toX } p rfl
  rw [hx.lmat_fst, hF.lmat, hk]
  unfold Kin.lmatVal
  rw [h1, h2, h3]
  have e1 := p.tr_ei
  have e2 := p.tr_ei_conj
  rw [V4.ei_conj] at e2
  unfold V4.ei at e1
  simp only [V4.toX, fin_sub, fin_add, fin_neg, s_int, Int.cast_zero, c_cart_zero, c_polar, Complex.ofReal_neg, e1, e2, ofC_neg]
  simp [XM, slashLower]

/-! ### the algebra -/

/-- The relations between the building blocks of the spinors of an on-shell momentum. -/
structure Blocks (p : V4 ℝ) (M : ℝ) : Prop where
  ab : (p.a : ℂ) * p.b = M
  cs : (p.ch : ℂ) * p.ch + p.s * p.sb = 1
  epz : (p.t : ℂ) + p.z = p.a * p.a * (p.ch * p.ch) + p.b * p.b * (p.s * p.sb)
  emz : (p.t : ℂ) - p.z = p.a * p.a * (p.s * p.sb) + p.b * p.b * (p.ch * p.ch)
  xpy : (p.x : ℂ) + p.y * Complex.I = (p.a * p.a - p.b * p.b) * p.ch * p.s
  xmy : (p.x : ℂ) - p.y * Complex.I = (p.a * p.a - p.b * p.b) * p.ch * p.sb

omit [FPEnv] in
theorem a_sq {p : V4 ℝ} (hE : p.mag ≤ p.t) : (p.a : ℂ) * p.a = p.t + p.mag := by
  have : p.a * p.a = p.t + p.mag := Real.mul_self_sqrt (by have := p.mag_nonneg; linarith)
  exact_mod_cast this
omit [FPEnv] in
theorem b_sq {p : V4 ℝ} (hE : p.mag ≤ p.t) : (p.b : ℂ) * p.b = p.t - p.mag := by
  have : p.b * p.b = p.t - p.mag := Real.mul_self_sqrt (by linarith)
  exact_mod_cast this

theorem blocks {p : V4 ℝ} {M : ℝ} (h : OnShell p M) (hM : 0 ≤ M) : Blocks p M := by
  have hE := h.mag_le
  have ha := a_sq hE
  have hb := b_sq hE
  have h0 := p.mag_nonneg
  have hcs := p.ch_s_conj
  have hz := p.mag_ccss
  have hx := p.mag_cs
  have hx' := p.mag_cs_conj
  refine ⟨?_, hcs, ?_, ?_, ?_, ?_⟩
  · have : p.a * p.b = M := by
      unfold V4.a V4.b
      rw [← Real.sqrt_mul (by linarith), ← Real.sqrt_sq hM]
      congr 1
      have := h.shell
      have := p.mag_mul_self
      nlinarith
    exact_mod_cast this
  · rw [ha, hb]; unfold V4.sb; linear_combination (-p.t : ℂ) * hcs - hz
  · rw [ha, hb]; unfold V4.sb; linear_combination (-p.t : ℂ) * hcs + hz
  · rw [ha, hb]; linear_combination -hx
  · rw [ha, hb]; unfold V4.sb; linear_combination -hx'

end exact
end Spinas

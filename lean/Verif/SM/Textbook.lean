import Verif.SM.Compton
import Verif.SM.BosonRow
import Verif.Spec.Textbook

/-! What is needed to compare the squared amplitudes of a fermion line with two massless vector bosons with the formulas of textbooks. -/

namespace Spinas
open XR Spec Props

theorem fusion_kernel {m a b x : ℝ} (g : ℝ) (ha : a ≠ 0) (hb : b ≠ 0) (hx : a + b = x) (h : x ≠ 0) :
    quarkPair g m a b = g ^ 4 * ((a ^ 2 + b ^ 2) / (4 * x ^ 2) - 1 / 36) * (3 / 8) * breitWheeler m a b := by
  subst hx
  simp only [quarkPair, breitWheeler]
  field_simp
  ring

theorem compton_kernel {m a b x : ℝ} (g : ℝ) (ha : a ≠ 0) (hb : b ≠ 0) (hx : a - b = x) (h : x ≠ 0) :
    quarkCompton g m a b = g ^ 4 * ((a ^ 2 + b ^ 2) / (4 * x ^ 2) - 1 / 36) * kleinNishina m a b := by
  rw [quarkCompton, fusion_kernel g (neg_ne_zero.2 ha) hb (show -a + b = -x by linarith) (neg_ne_zero.2 h)]
  simp only [breitWheeler, kleinNishina]
  field_simp
  ring

/-! ### momenta -/

theorem dot_self_msq (p : V4 ℝ) : dot p p = msq p := by simp only [dot, msq]; ring

theorem pole_sub {p : Nat → V4 ℝ} {i j : Nat} {m mi mj : ℝ} (hi : msq (p i) = mi ^ 2) (hj : msq (p j) = mj ^ 2) (h : mi ^ 2 + mj ^ 2 = m ^ 2) :
    SM.poleDist m ((0 : Nat) : ℝ) ((SM.VExp.sub i j).sum p) = ((-(2 * dot (p i) (p j)) : ℝ) : ℂ) := by
  rw [Nat.cast_zero, pole_fermion rfl, ← h, ← hi, ← hj]
  congr 1
  simp only [msq, SM.VExp.sum, dot]
  ring
theorem pole_add {p : Nat → V4 ℝ} {i j : Nat} {m mi mj : ℝ} (hi : msq (p i) = mi ^ 2) (hj : msq (p j) = mj ^ 2) (h : mi ^ 2 + mj ^ 2 = m ^ 2) :
    SM.poleDist m ((0 : Nat) : ℝ) ((SM.VExp.add i j).sum p) = ((2 * dot (p i) (p j) : ℝ) : ℂ) := by
  rw [Nat.cast_zero, pole_fermion rfl, ← h, ← hi, ← hj]
  congr 1
  simp only [msq, SM.VExp.sum, dot]
  ring

section
variable {p : Nat → V4 ℝ} (hb : Balanced p) {m : ℝ}
include hb

/-- two massless particles in, two of mass `m` out -/
theorem dots_in (h0 : msq (p 0) = 0 ^ 2) (h1 : msq (p 1) = 0 ^ 2) (h2 : msq (p 2) = m ^ 2) (h3 : msq (p 3) = m ^ 2) :
    dot (p 1) (p 3) = dot (p 0) (p 2) ∧ dot (p 1) (p 2) = dot (p 0) (p 3) ∧ dot (p 0) (p 1) = dot (p 0) (p 2) + dot (p 0) (p 3) ∧
    dot (p 2) (p 3) = dot (p 0) (p 2) + dot (p 0) (p 3) - m ^ 2 := by
  have e := balanced_three hb
  rw [e] at h3 ⊢
  simp only [msq, dot, plus, backward] at *
  refine ⟨?_, ?_, ?_, ?_⟩ <;> linarith
/-- two of mass `m` in, two massless particles out -/
theorem dots_out (h0 : msq (p 0) = m ^ 2) (h1 : msq (p 1) = m ^ 2) (h2 : msq (p 2) = 0 ^ 2) (h3 : msq (p 3) = 0 ^ 2) :
    dot (p 1) (p 3) = dot (p 0) (p 2) ∧ dot (p 1) (p 2) = dot (p 0) (p 3) ∧ dot (p 2) (p 3) = dot (p 0) (p 2) + dot (p 0) (p 3) ∧
    dot (p 0) (p 1) = dot (p 0) (p 2) + dot (p 0) (p 3) - m ^ 2 := by
  have e := balanced_three hb
  rw [e] at h3 ⊢
  simp only [msq, dot, plus, backward] at *
  refine ⟨?_, ?_, ?_, ?_⟩ <;> linarith
/-- mass `m` first and last -/
theorem dots_ends (h0 : msq (p 0) = m ^ 2) (h1 : msq (p 1) = 0 ^ 2) (h2 : msq (p 2) = 0 ^ 2) (h3 : msq (p 3) = m ^ 2) :
    dot (p 2) (p 3) = dot (p 0) (p 1) ∧ dot (p 1) (p 3) = dot (p 0) (p 2) ∧ dot (p 1) (p 2) = dot (p 0) (p 1) - dot (p 0) (p 2) ∧
    dot (p 0) (p 3) = m ^ 2 + (dot (p 0) (p 1) - dot (p 0) (p 2)) := by
  have e := balanced_three hb
  rw [e] at h3 ⊢
  simp only [msq, dot, plus, backward] at *
  refine ⟨?_, ?_, ?_, ?_⟩ <;> linarith
theorem pole_ends (h1 : msq (p 1) = 0 ^ 2) (h2 : msq (p 2) = 0 ^ 2) : SM.poleDist ((0 : Nat) : ℝ) ((0 : Nat) : ℝ) ((SM.VExp.sub 0 3).sum p) = ((-(2 * dot (p 1) (p 2)) : ℝ) : ℂ) := by
  rw [Nat.cast_zero, pole_fermion rfl]
  have e := balanced_three hb
  congr 1
  simp only [msq, SM.VExp.sum, dot, e, plus, backward] at *
  linarith
/-- mass `m` second and last -/
theorem dots_second (h0 : msq (p 0) = 0 ^ 2) (h1 : msq (p 1) = m ^ 2) (h2 : msq (p 2) = 0 ^ 2) (h3 : msq (p 3) = m ^ 2) :
    dot (p 2) (p 3) = dot (p 0) (p 1) ∧ dot (p 0) (p 3) = dot (p 1) (p 2) ∧ dot (p 0) (p 2) = dot (p 0) (p 1) - dot (p 1) (p 2) ∧
    dot (p 1) (p 3) = m ^ 2 + (dot (p 0) (p 1) - dot (p 1) (p 2)) := by
  have e := balanced_three hb
  rw [e] at h3 ⊢
  simp only [msq, dot, plus, backward] at *
  refine ⟨?_, ?_, ?_, ?_⟩ <;> linarith
end

/-! ### results of classes -/

namespace SM.BRow
variable [FPEnv] (R : BRow)

/-- Method `k` of the class returns `f` for any object of the class after any history (for the three classes that keep old masses: as constructed), any constants and any balanced momenta on the mass shell that satisfy `ok`. -/
def Returns (k : Nat) (ok : (Nat → V4 ℝ) → Prop) (f : Constants → (Nat → V4 ℝ) → ℝ) : Prop :=
  ∀ (mem : Nat → XR) (junk : Kin XR XC) (par : Nat → XR) (ops : List (ProcOp XR XC)) (c : Constants) (p : Nat → V4 ℝ) (o : Obj XR XC)
    (j : Kin XR XC) (xs : List (MCall XR XC)) (l : Loc XR XC), (R.proc.name ∈ staleMasses → Unset ops) →
    (∀ n q, R.pars[n]? = some (some q) → parAfter R.proc.massPar ops par n = fin (c.get q)) → c.Physical → c.Heavy → o = runProcOps R.proc ops (R.proc.construct mem junk par).2 →
    (∀ i : Fin 4, OnShell (p i) (R.react.mass c i)) → Balanced p → ok p →
    (R.proc.runSetMomenta j (fun i => (p i).toX) o).1 = .ok () ∧
    (R.proc.method l .r k [] (runCalls R.proc xs (R.proc.runSetMomenta j (fun i => (p i).toX) o).2)).1 = .ok (fin (f c p))

variable {R}

theorem returns_of {k : Nat} {ok : (Nat → V4 ℝ) → Prop} {f : Constants → (Nat → V4 ℝ) → ℝ} (hP : R.proc ∈ all) (hn : R.proc.numericOnce R.used [] [] = true) (hk : R.proc.isSquare k = true)
    (hm : ∀ c : Constants, c.Physical → ∀ i : Fin 4, R.proc.massNum (R.rho c) i = R.react.mass c i)
    (hz : ∀ i : Fin 4, heavy (R.react.leg i) || R.proc.massless i = true)
    (hv : ∀ (c : Constants) (p : Nat → V4 ℝ), c.Physical → c.Heavy → (∀ i, 0 ≤ R.react.mass c i) → (∀ i : Fin 4, OnShell (p i) (R.react.mass c i)) → Balanced p → ok p →
      (∀ n, (Ty.r, n) ∈ R.proc.divides → (R.proc.env (R.rho c) p).r n ≠ 0) ∧ (∀ n, (Ty.c, n) ∈ R.proc.divides → (R.proc.env (R.rho c) p).c n ≠ 0) ∧
      meaning (R.proc.env (R.rho c) p) .r R.proc.methods k [] = f c p) : R.Returns k ok f := by
  intro mem junk par ops c p o j xs l hst hpar hc hh ho hs hb hr
  obtain ⟨h1, h2, h3⟩ := hv c p hc hh (leg_nonneg hc hh R.react) hs hb hr
  have i4 : ∀ i, i < 4 → R.proc.massNum (R.rho c) i = R.react.mass c (Fin.ofNat 4 i) := by
    intro i hi
    have := hm c hc (Fin.ofNat 4 i)
    simpa [Nat.mod_eq_of_lt hi] using this
  have := numericOnce_result (D := []) (E := []) (ρ := R.rho c) hP ops (Decidable.or_iff_not_imp_left.2 fun h => hst (by simpa using h)) hn (List.forall_mem_nil _)
    (List.forall_mem_nil _) (List.forall_mem_nil _) mem junk par (fun n hn => ?_) ho (p := p) (fun i hi => ?_) (fun i hi hl => ?_) h1 h2 j xs l k hk
  · rw [h3] at this
    exact this
  · simp only [used, List.mem_filter] at hn
    obtain ⟨_, hn⟩ := hn
    split at hn
    · rename_i q hq
      rw [hpar n q hq, rho, hq]
    · cases hn
  · rw [i4 i hi]
    have := hs (Fin.ofNat 4 i)
    simpa [Nat.mod_eq_of_lt hi] using this
  · rw [i4 i hi]
    refine (leg_pos hc hh ?_).ne'
    have := hz (Fin.ofNat 4 i)
    simpa [Nat.mod_eq_of_lt hi, hl] using this

end SM.BRow
end Spinas

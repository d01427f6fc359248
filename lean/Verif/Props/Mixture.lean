import Verif.SM.Mixture
import Verif.Props.Reversal

/-! C89: `amp2()` of nnZh after `set_momenta` has thrown (exact arithmetic). -/

namespace Spinas.Props
open SM Spec XR Matrix

section
variable [FPEnv]

/-- `s - MZ^2 + i MZ WZ`, up to complex conjugation -/
noncomputable def distanceZ (MZ WZ : ℝ) (p : Nat → V4 ℝ) : ℂ := ⟨mandelstamS p - MZ ^ 2, -(MZ * WZ)⟩

namespace Mixed

theorem factor_amp (N : Env) (c : Nat → ℂ) {x y : ℂ} (hx : x ≠ 0) (hy : y ≠ 0) (h : N.c 0 = x) (hc : c 0 = y) (t : Fin 3) :
    Cls.nnZh.m_amp.mean { N with c := c } (callMean { N with c := c } []) .c [spinV t] = (x / y) * Cls.nnZh.m_amp.mean N (callMean N []) .c [spinV t] := by
  rw [Rows.nnZh.amp_eq, Rows.nnZh.amp_eq]
  have : ∀ a b, Rows.nnZh.term { N with c := c } 1 0 a b = (x / y) * Rows.nnZh.term N 1 0 a b := by
    intro a b
    unfold Rows.nnZh.term
    dsimp only
    rw [h, hc]
    field_simp
    ring
  simp only [this]
  exact (comb_map (G := fun z : ℂ => x / y * z) ⟨fun a b => mul_add _ _ _, fun a b => by simp only [smul_eq_mul]; ring⟩ t _).symm

theorem factor (N : Env) (c : Nat → ℂ) {x y : ℂ} (hx : x ≠ 0) (hy : y ≠ 0) (h : N.c 0 = x) (hc : c 0 = y) :
    meaning { N with c := c } .r Cls.nnZh.methods Cls.nnZh.amp2 [] = meaning N .r Cls.nnZh.methods Cls.nnZh.amp2 [] * (‖x‖ / ‖y‖) ^ 2 := by
  rw [Rows.nnZh.value, Rows.nnZh.value]
  have e : ∀ t : Fin 3, ‖Cls.nnZh.m_amp.mean { N with c := c } (callMean { N with c := c } []) .c [spinV t]‖ ^ 2 = ‖Cls.nnZh.m_amp.mean N (callMean N []) .c [spinV t]‖ ^ 2 * (‖x‖ / ‖y‖) ^ 2 := by
    intro t
    rw [factor_amp N c hx hy h hc t, norm_mul, norm_div]
    ring
  have e0 := e 0
  have e1 := e 1
  have e2 := e 2
  simp only [show spinV 0 = -2 from rfl, show spinV 1 = 0 from rfl, show spinV 2 = 2 from rfl] at e0 e1 e2
  simp only [sumV, e0, e1, e2]
  ring

end Mixed

/-- `set_momenta(p)` returns, then `set_momenta(q)` throws, then `amp2()` returns `x`. -/
def AfterThrow (P : Proc) (o : Obj XR XC) (p : Nat → V4 ℝ) (q : Nat → V4 XR) (x : ℝ) : Prop :=
  ∀ (j j' : Kin XR XC) (l : Loc XR XC), (P.runSetMomenta j (fun i => (p i).toX) o).1 = .ok () ∧ (P.runSetMomenta j' q (P.runSetMomenta j (fun i => (p i).toX) o).2).1 = .throw .massShell ∧
    (P.method l .r P.amp2 [] (P.runSetMomenta j' q (P.runSetMomenta j (fun i => (p i).toX) o).2).2).1 = .ok (fin x)

/-- In nnZh, let the momentum of the Higgs be rejected.  If `amp2()` has not been called since the last `set_momenta`, it then has the spinors of the new momenta and the denominator of the old. -/
theorem C89_mixed (mem : Nat → XR) (junk : Kin XR XC) (par : Nat → XR) (ops : List (ProcOp XR XC)) {e mh MW SW WZ MZ : ℝ} (h0 : parAfter Cls.nnZh.massPar ops par 0 = fin e) (h1 : parAfter Cls.nnZh.massPar ops par 1 = fin mh)
    (h2 : parAfter Cls.nnZh.massPar ops par 2 = fin MW) (h3 : parAfter Cls.nnZh.massPar ops par 3 = fin SW) (h4 : parAfter Cls.nnZh.massPar ops par 4 = fin WZ) (hW : MW ≠ 0) (hw : SW ≠ 0) (hw1 : SW ^ 2 < 1) (hZ : MZ = MW / √(1 - SW ^ 2)) (hh : mh ≠ 0)
    {o : Obj XR XC} (ho : o = runProcOps Cls.nnZh ops (Cls.nnZh.construct mem junk par).2) {p p' : Nat → V4 ℝ} (hp : ∀ i : Fin 4, OnShell (p i) (![0, 0, MZ, mh] i)) (hp' : ∀ i : Fin 4, OnShell (p' i) (![0, 0, MZ, mh] i))
    (hd : distanceZ MZ WZ p ≠ 0) (hd' : distanceZ MZ WZ p' ≠ 0) {q : Nat → V4 XR} (hq : ∀ i, i < 3 → q i = (p' i).toX) (hr : (Particle.ctorPM junk (q 3) (fin mh)).1 ≠ .ok ()) :
    ∃ x, Gives Cls.nnZh o p' x ∧ AfterThrow Cls.nnZh o p q (x * (‖distanceZ MZ WZ p'‖ / ‖distanceZ MZ WZ p‖) ^ 2) := by
  let ρ : Nat → ℝ := fun n => if n = 0 then e else if n = 1 then mh else if n = 2 then MW else if n = 3 then SW else WZ
  have hpar : ∀ n ∈ [0, 1, 2, 3, 4], parAfter Cls.nnZh.massPar ops par n = fin (ρ n) := by simpa [ρ] using ⟨h0, h1, h2, h3, h4⟩
  have root : √(((1 : Nat) : ℝ) - SW * SW) = √(1 - SW ^ 2) := by rw [Nat.cast_one, pow_two]
  have zero : ((0 : Nat) : ℝ) = 0 := Nat.cast_zero
  have hm : ∀ i, i < 4 → Cls.nnZh.massNum ρ i = ![0, 0, MZ, mh] (Fin.ofNat 4 i) := by
    refine Stale.four ?_ ?_ ?_ ?_
    · exact zero
    · exact zero
    · show MW / √(((1 : Nat) : ℝ) - SW * SW) = MZ
      rw [root, hZ]
    · rfl
  have hz : MZ ≠ 0 := by rw [hZ]; exact div_ne_zero hW (Real.sqrt_pos.2 (by linarith)).ne'
  have shell : ∀ {p : Nat → V4 ℝ}, (∀ i : Fin 4, OnShell (p i) (![0, 0, MZ, mh] i)) → ∀ i, i < 4 → OnShell (p i) (Cls.nnZh.massNum ρ i) := by
    intro p hp i hi
    rw [hm i hi]
    have := hp (Fin.ofNat 4 i)
    rwa [show ((Fin.ofNat 4 i : Fin 4) : Nat) = i from Nat.mod_eq_of_lt hi] at this
  have massive : ∀ i, i < 4 → Cls.nnZh.massless i = false → Cls.nnZh.massNum ρ i ≠ 0 := by
    intro i hi hml
    rw [hm i hi]
    have : i = 0 ∨ i = 1 ∨ i = 2 ∨ i = 3 := by omega
    rcases this with rfl | rfl | rfl | rfl
    · exact absurd hml (by decide +kernel)
    · exact absurd hml (by decide +kernel)
    · exact hz
    · exact hh
  have c0 : ∀ p, (Cls.nnZh.env ρ p).c 0 = distanceZ MZ WZ p := by
    intro p
    show poleDist (MW / √(((1 : Nat) : ℝ) - SW * SW)) WZ ((VExp.add 0 1).sum p) = _
    rw [root, ← hZ]
    rfl
  have hdv : Cls.nnZh.divides = [(Ty.c, 0)] := by decide +kernel
  have dr : ∀ (p : Nat → V4 ℝ) n, (Ty.r, n) ∈ Cls.nnZh.divides → (Cls.nnZh.env ρ p).r n ≠ 0 := by intro p n hn; simp [hdv] at hn
  have dc : ∀ {p : Nat → V4 ℝ}, distanceZ MZ WZ p ≠ 0 → ∀ n, (Ty.c, n) ∈ Cls.nnZh.divides → (Cls.nnZh.env ρ p).c n ≠ 0 := by
    intro p hd n hn
    simp [hdv] at hn
    subst hn
    rw [c0]
    exact hd
  have hP : Cls.nnZh ∈ all := by simp [all]
  have hst : Cls.nnZh.name ∉ staleMasses := by decide +kernel
  have num : Cls.nnZh.numericOnce [0, 1, 2, 3, 4] [2, 3] [3] = true := by decide +kernel
  have hD : ∀ n ∈ [2, 3], ρ n ≠ 0 := by simpa [ρ] using ⟨hW, hw⟩
  have hE : ∀ n ∈ [3], ρ n ^ 2 < 1 := by simpa [ρ] using hw1
  have sq : Cls.nnZh.isSquare Cls.nnZh.amp2 = true := by decide +kernel
  have gives : ∀ {p : Nat → V4 ℝ}, (∀ i : Fin 4, OnShell (p i) (![0, 0, MZ, mh] i)) → distanceZ MZ WZ p ≠ 0 → Gives Cls.nnZh o p (meaning (Cls.nnZh.env ρ p) .r Cls.nnZh.methods Cls.nnZh.amp2 []) :=
    fun hp hd j xs l => numericOnce_result hP ops (.inl hst) num (by simp) hD hE mem junk par hpar ho (shell hp) massive (dr _) (dc hd) j xs l _ sq
  refine ⟨_, gives hp' hd', fun j j' l => ?_⟩
  have hacc := (gives hp hd j [] l).1
  obtain ⟨S, hS, hc⟩ := fresh_check hP
  have hi : SM.Inv S (parAfter Cls.nnZh.massPar ops par) (Cls.nnZh.runSetMomenta j (fun i => (p i).toX) o).2 := by
    have hr : SM.checkReset Cls.nnZh Cls.nnZh.massPar S = true := by
      have := List.all_eq_true.mp all_reset Cls.nnZh hP
      simp only [Bool.or_eq_true, List.contains_iff_mem] at this
      have := this.resolve_left hst
      simpa only [Proc.checkReset, hS] using this
    rw [ho]
    exact op_inv (checkAll_parts hc).1 (ops_inv_reset (checkAll_parts hc).1 hr ops (construct_inv hS mem junk par).2) (.setMomenta j fun i => (p i).toX) (by simp)
  have mass3 : ((Cls.nnZh.runSetMomenta j (fun i => (p i).toX) o).2.w.part 3).kin.m = fin mh :=
    (Direct.Known.mass (P := Cls.nnZh) (e := .loc .r 1) ⟨S, hS, hi⟩ (by rfl)).trans h1
  have hrej : (Cls.nnZh.runSetMomenta j' q (Cls.nnZh.runSetMomenta j (fun i => (p i).toX) o).2).1 ≠ .ok () := by
    rcases (setMomenta_sound (checkAll_parts hc).1 hi hi j' j' junk q (fun i => ((Cls.nnZh.runSetMomenta j (fun i => (p i).toX) o).2.w.part i).kin.m) (fun _ _ => rfl)).2 with ⟨_, e, _⟩ | ⟨h, _⟩
    · rw [e]; simp
    · have := h 3 (by omega)
      rw [mass3, accepts_iff junk junk] at this
      exact absurd this hr
  refine ⟨hacc, (stopped_of_inv (checkAll_parts hc).1 hi j' q hrej).1, ?_⟩
  have := mixture hP hst (by decide +kernel) (by decide +kernel) num (by simp) hD hE mem junk par ops hpar ho (shell hp) (shell hp') massive (dr p) (dc hd) j j' hq hrej l Cls.nnZh.amp2 sq
  rw [this]
  have f := Mixed.factor (Cls.nnZh.env ρ p') (Cls.nnZh.env ρ p).c hd' hd (c0 p') (c0 p)
  rw [← f]
  rfl

/-- If `amp2()` has been called, it returns the same again after `set_momenta` has thrown. -/
theorem C89_amp2 {P : Proc} (hP : P ∈ all) (hk : Regular P .r P.amp2 []) (mem : Nat → XR) (junk : Kin XR XC) (par : Nat → XR) (ops : List (ProcOp XR XC)) {o : Obj XR XC} (ho : o = runProcOps P ops (P.construct mem junk par).2) {p : Nat → V4 ℝ} {x : ℝ}
    (hx : Gives P o p x) (j j' : Kin XR XC) (q : Nat → V4 XR) (l l' : Loc XR XC) (hr : (P.runSetMomenta j' q (P.method l .r P.amp2 [] (P.runSetMomenta j (fun i => (p i).toX) o).2).2).1 ≠ .ok ()) :
    (P.method l' .r P.amp2 [] (P.runSetMomenta j' q (P.method l .r P.amp2 [] (P.runSetMomenta j (fun i => (p i).toX) o).2).2).2).1 = .ok (fin x) := by
  obtain ⟨h1, h2⟩ := hx j [] l
  exact C89_returned P hP mem junk par ops ho h1 [] hk (Prod.ext h2 rfl) [.setMomenta j' q] ⟨hr, trivial⟩ l'

end

section examples
attribute [local instance] doubleEnv

/-- two massless particles of energy `E` become two at rest or along the x axis -/
def towardsHiggs (E k : ℝ) (i : Nat) : V4 ℝ := match i with
  | 0 => ⟨E, 0, 0, E⟩
  | 1 => ⟨E, 0, 0, -E⟩
  | 2 => ⟨E, k, 0, 0⟩
  | _ => ⟨E, -k, 0, 0⟩

/-- The hypotheses are met: the masses of Z and Higgs are 5, the width is 1; first the energies are 13, then 5, and the momentum for the Higgs is zero. -/
example (mem : Nat → XR) (junk : Kin XR XC) : ∃ x, Gives Cls.nnZh (Cls.nnZh.construct mem junk fun n => if n = 0 then fin 1 else if n = 1 then fin 5 else if n = 2 then fin 4 else if n = 3 then fin (3 / 5) else fin 1).2 (towardsHiggs 5 0) x ∧
    AfterThrow Cls.nnZh (Cls.nnZh.construct mem junk fun n => if n = 0 then fin 1 else if n = 1 then fin 5 else if n = 2 then fin 4 else if n = 3 then fin (3 / 5) else fin 1).2 (towardsHiggs 13 12)
      (fun i => if i < 3 then (towardsHiggs 5 0 i).toX else V4.toX ⟨0, 0, 0, 0⟩) (x * (‖distanceZ 5 1 (towardsHiggs 5 0)‖ / ‖distanceZ 5 1 (towardsHiggs 13 12)‖) ^ 2) := by
  have shell : ∀ {E k : ℝ}, 0 ≤ E → E ^ 2 = k ^ 2 + 25 → ∀ i : Fin 4, OnShell (towardsHiggs E k i) (![0, 0, 5, 5] i) := by
    intro E k h0 h i
    fin_cases i <;> refine ⟨?_, ?_⟩ <;> simp [towardsHiggs] <;> first | exact h0 | nlinarith
  have dist : ∀ E k : ℝ, distanceZ 5 1 (towardsHiggs E k) ≠ 0 := fun E k h => by
    have := congrArg Complex.im h
    norm_num [distanceZ] at this
  refine C89_mixed mem junk _ [] (e := 1) (mh := 5) (MW := 4) (SW := 3 / 5) (WZ := 1) rfl rfl rfl rfl rfl (by norm_num) (by norm_num) (by norm_num) ?_ (by norm_num) rfl
    (shell (by norm_num) (by norm_num)) (shell (by norm_num) (by norm_num)) (dist 13 12) (dist 5 0) (fun i hi => if_pos hi) ?_
  · rw [show (1 : ℝ) - (3 / 5) ^ 2 = (4 / 5) ^ 2 by norm_num, Real.sqrt_sq (by norm_num)]
    norm_num
  · rw [if_neg (by omega), ctorPM_fst, if_neg]
    · simp
    · have := shellTol_double_lt
      refine not_le.mpr (this.trans ?_)
      norm_num [msq]

end examples
end Spinas.Props

import Verif.SM.DirectLemmas
import Verif.SM.Fermions.Leptons

/-! The overloads of eemmQED and eeeeQED return what `amp2()` returns. -/

namespace Spinas.SM.Direct
open Spec Props XR Matrix

section
variable [FPEnv] {ρ : Nat → ℝ} {p : Nat → V4 ℝ} {par : Nat → XR} {o : Obj XR XC}

set_option maxRecDepth 8000

/-- values of the products -/
noncomputable def tabOf (N : Env) (n : Nat) (i j : Bool) : ℂ := N.v n [sj i, sj j]

namespace eemmQED

abbrev P : Proc := Cls.eemmQED

theorem products_reads (hm : ∀ i, i < 4 → P.massNum ρ i ≠ 0) : ∀ x ∈ (products : List (Put XR XC)), Reads (kin4 p (P.massNum ρ)) x.e (ofC (tabOf (P.env ρ p) x.n x.i x.j)) := by
  simp only [products, List.flatMap_cons, List.flatMap_nil, List.append_nil, List.forall_mem_append, List.forall_mem_cons, List.not_mem_nil, false_imp_iff, implies_true, and_true]
  repeat' apply And.intro
  all_goals first
    | exact angle_reads (by omega) (by omega) (hm _ (by omega)) (hm _ (by omega)) _ _
    | exact square_reads (by omega) (by omega) (hm _ (by omega)) (hm _ (by omega)) _ _

/-- what the overload returns -/
theorem result (h : Known P par o) (hpar : ∀ n ∈ [0, 1, 2], par n = fin (ρ n)) (hm : ∀ i, i < 4 → P.massNum ρ i ≠ 0) (hs : ∀ i, i < 4 → OnShell (p i) (P.massNum ρ i))
    (hd : msq ((VExp.add 0 1).sum p) ≠ 0) :
    (amp2 (C := XC) (fun i => (p i).toX) o).1 = .ok (fin (meaning (P.env ρ p) .r P.methods Cls.eemmQED.amp2 [])) := by
  have hmass : ∀ i, i < 4 → (o.w.part i).kin.m = fin (P.massNum ρ i) := by
    intro i hi
    have : i = 0 ∨ i = 1 ∨ i = 2 ∨ i = 3 := by omega
    rcases this with rfl | rfl | rfl | rfl
    · exact (h.mass (e := .loc .r 1) (by rfl)).trans (hpar 1 (by simp))
    · exact (h.mass (e := .loc .r 1) (by rfl)).trans (hpar 1 (by simp))
    · exact (h.mass (e := .loc .r 2) (by rfl)).trans (hpar 2 (by simp))
    · exact (h.mass (e := .loc .r 2) (by rfl)).trans (hpar 2 (by simp))
  obtain ⟨w, e1, f1, -, -⟩ := setMomenta_ok hmass hs
  obtain ⟨w', e2, -, -⟩ := onWorld_reads (o := { o with w := w }) (puts_reads products (products_reads hm) fun _ _ _ => czero) f1
  have r0 : o.r 0 = fin (ρ 0) := (h.r (e := .loc .r 0) (by rfl)).trans (hpar 0 (by simp))
  have hpm : (o.pr 0).m = fin 0 := (h.pm (e := .lit 0) (by rfl)).trans (by simp [Exp.val0, Exp.val])
  have hpw : (o.pr 0).w = fin 0 := (h.pw (e := .lit 0) (by rfl)).trans (by simp [Exp.val0, Exp.val])
  have hden : (Propag.denominator (o.pr 0) ((VExp.add 0 1).eval fun i => (p i).toX) : XC) = ofC (poleDist 0 0 ((VExp.add 0 1).sum p)) := by
    rw [VExp.eval_sum]; exact denominator_fin hpm hpw _
  unfold amp2
  rw [Prog.bind_ok e1, get_bind]
  dsimp only
  rw [Prog.bind_ok e2]
  dsimp only
  rw [hden, r0]
  generalize hN : P.env ρ p = N
  have hN0 : N.r 0 = ρ 0 := by rw [← hN]; rfl
  have hNc : N.c 0 = ((msq ((VExp.add 0 1).sum p) : ℝ) : ℂ) := by
    rw [← hN]
    show poleDist ((0 : Nat) : ℝ) ((0 : Nat) : ℝ) ((VExp.add 0 1).sum p) = _
    apply Complex.ext <;> simp [poleDist]
  have hre : (poleDist 0 0 ((VExp.add 0 1).sum p)).re = msq ((VExp.add 0 1).sum p) := by simp [poleDist]
  rw [c_re, hre]
  generalize msq ((VExp.add 0 1).sum p) = d at hd hNc
  have hM : ∀ j1 j2 j3 j4, (M (after products (tabOf N) fun _ _ _ => czero) j1 j2 j3 j4 : XC) =
      ofC (-(N.v 0 [sj j1, sj j3] * N.v 7 [sj j2, sj j4] + N.v 2 [sj j1, sj j4] * N.v 5 [sj j2, sj j3] + N.v 1 [sj j1, sj j3] * N.v 6 [sj j2, sj j4] + N.v 3 [sj j1, sj j4] * N.v 4 [sj j2, sj j3])) := by
    intro j1 j2 j3 j4
    have ha : ∀ n, n < 8 → ∀ i j, after products (tabOf N) (fun _ _ _ => (czero : XC)) n i j = ofC (N.v n [sj i, sj j]) := by
      intro n hn i j
      unfold after
      rw [if_pos]
      · rfl
      · interval_cases n <;> cases i <;> cases j <;> rfl
    unfold M
    simp only [ha _ (show 0 < 8 by omega), ha _ (show 1 < 8 by omega), ha _ (show 2 < 8 by omega), ha _ (show 3 < 8 by omega), ha _ (show 4 < 8 by omega), ha _ (show 5 < 8 by omega), ha _ (show 6 < 8 by omega), ha _ (show 7 < 8 by omega), ofC_mul, ofC_add, ofC_neg]
  have hamp : ∀ a b c e, ‖Rows.eemmQED.amp N a b c e‖ ^ 2 = 4 * ρ 0 ^ 4 / d ^ 2 * ‖-(N.v 0 [a, c] * N.v 7 [b, e] + N.v 2 [a, e] * N.v 5 [b, c] + N.v 1 [a, c] * N.v 6 [b, e] + N.v 3 [a, e] * N.v 4 [b, c])‖ ^ 2 := by
    intro a b c e
    unfold Rows.eemmQED.amp
    rw [hN0, hNc]
    generalize N.v 0 [a, c] * N.v 7 [b, e] + N.v 2 [a, e] * N.v 5 [b, c] + N.v 1 [a, c] * N.v 6 [b, e] + N.v 3 [a, e] * N.v 4 [b, c] = z
    rw [norm_div, norm_mul, Complex.norm_real, Complex.norm_real, norm_neg, div_pow, mul_pow, Real.norm_eq_abs, Real.norm_eq_abs, sq_abs, sq_abs]
    push_cast
    ring
  have hv := Rows.eemmQED.value N
  show Res.ok _ = _
  rw [show P.methods = Cls.eemmQED.methods from rfl, hv]
  simp only [hM, both, sumJ, abs2_fin, s_int, fin_add, fin_mul, hamp, sj]
  rw [fin_div hd, fin_div hd, fin_div (by norm_num)]
  congr 2
  push_cast
  ring

end eemmQED

namespace eeeeQED

abbrev P : Proc := Cls.eeeeQED

theorem products_reads (hm : ∀ i, i < 4 → P.massNum ρ i ≠ 0) : ∀ x ∈ (products : List (Put XR XC)), Reads (kin4 p (P.massNum ρ)) x.e (ofC (tabOf (P.env ρ p) x.n x.i x.j)) := by
  simp only [products, List.flatMap_cons, List.flatMap_nil, List.append_nil, List.forall_mem_append, List.forall_mem_cons, List.not_mem_nil, false_imp_iff, implies_true, and_true]
  repeat' apply And.intro
  all_goals first
    | exact angle_reads (by omega) (by omega) (hm _ (by omega)) (hm _ (by omega)) _ _
    | exact square_reads (by omega) (by omega) (hm _ (by omega)) (hm _ (by omega)) _ _

/-- what the overload returns -/
theorem result (h : Known P par o) (hpar : ∀ n ∈ [0, 1], par n = fin (ρ n)) (hm : ∀ i, i < 4 → P.massNum ρ i ≠ 0) (hs : ∀ i, i < 4 → OnShell (p i) (P.massNum ρ i))
    (hS : msq ((VExp.add 0 1).sum p) ≠ 0) (hT : msq ((VExp.sub 0 2).sum p) ≠ 0) :
    (amp2 (C := XC) (fun i => (p i).toX) o).1 = .ok (fin (meaning (P.env ρ p) .r P.methods Cls.eeeeQED.amp2 [])) := by
  have hmass : ∀ i, i < 4 → (o.w.part i).kin.m = fin (P.massNum ρ i) := by
    intro i hi
    have : i = 0 ∨ i = 1 ∨ i = 2 ∨ i = 3 := by omega
    rcases this with rfl | rfl | rfl | rfl <;> exact (h.mass (e := .loc .r 1) (by rfl)).trans (hpar 1 (by simp))
  obtain ⟨w, e1, f1, -, -⟩ := setMomenta_ok hmass hs
  have r0 : o.r 0 = fin (ρ 0) := (h.r (e := .loc .r 0) (by rfl)).trans (hpar 0 (by simp))
  have hpm : (o.pr 0).m = fin 0 := (h.pm (e := .lit 0) (by rfl)).trans (by simp [Exp.val0, Exp.val])
  have hpw : (o.pr 0).w = fin 0 := (h.pw (e := .lit 0) (by rfl)).trans (by simp [Exp.val0, Exp.val])
  have hden : ∀ v : VExp, (Propag.denominator (o.pr 0) (v.eval fun i => (p i).toX) : XC) = ofC ((msq (v.sum p) : ℝ) : ℂ) := by
    intro v
    rw [VExp.eval_sum, denominator_fin hpm hpw]
    congr 1
    apply Complex.ext <;> simp [poleDist]
  obtain ⟨o2, ho2⟩ : ∃ o2 : Obj XR XC, o2 = (({ o with w := w } : Obj XR XC).setDen 0 0 ((VExp.add 0 1).eval fun i => (p i).toX) .c).setDen 1 0 ((VExp.sub 0 2).eval fun i => (p i).toX) .c := ⟨_, rfl⟩
  have hw2 : o2.w = w := by rw [ho2]; rfl
  have hr2 : o2.r = o.r := by rw [ho2]; rfl
  have hc0 : o2.c 0 = ofC ((msq ((VExp.add 0 1).sum p) : ℝ) : ℂ) := by rw [ho2, ← hden]; rfl
  have hc1 : o2.c 1 = ofC ((msq ((VExp.sub 0 2).sum p) : ℝ) : ℂ) := by rw [ho2, ← hden]; rfl
  obtain ⟨w', e2, -, -⟩ := onWorld_reads (o := o2) (puts_reads products (products_reads hm) fun _ _ _ => czero) (by rw [hw2]; exact f1)
  unfold amp2
  rw [Prog.bind_ok e1, modify_bind, modify_bind, ← ho2, Prog.bind_ok e2, get_bind]
  dsimp only
  rw [hc0, hc1, hr2, r0]
  generalize hN : P.env ρ p = N
  have hN0 : N.r 0 = ρ 0 := by rw [← hN]; rfl
  have hNc : N.c 0 = ((msq ((VExp.add 0 1).sum p) : ℝ) : ℂ) := by
    rw [← hN]
    show poleDist ((0 : Nat) : ℝ) ((0 : Nat) : ℝ) ((VExp.add 0 1).sum p) = _
    apply Complex.ext <;> simp [poleDist]
  have hNd : N.c 1 = ((msq ((VExp.sub 0 2).sum p) : ℝ) : ℂ) := by
    rw [← hN]
    show poleDist ((0 : Nat) : ℝ) ((0 : Nat) : ℝ) ((VExp.sub 0 2).sum p) = _
    apply Complex.ext <;> simp [poleDist]
  generalize msq ((VExp.add 0 1).sum p) = d at hS hNc
  generalize msq ((VExp.sub 0 2).sum p) = d' at hT hNd
  have kS : (d : ℂ) ≠ 0 := by exact_mod_cast hS
  have kT : (d' : ℂ) ≠ 0 := by exact_mod_cast hT
  have hM : ∀ j1 j2 j3 j4, (M (R := XR) (ofC (d : ℂ)) (ofC (d' : ℂ)) (after products (tabOf N) fun _ _ _ => czero) j1 j2 j3 j4 : XC) =
      ofC (-2 * (N.v 0 [sj j1, sj j3] * N.v 7 [sj j2, sj j4] + N.v 2 [sj j1, sj j4] * N.v 5 [sj j2, sj j3] + N.v 1 [sj j1, sj j3] * N.v 6 [sj j2, sj j4] + N.v 3 [sj j1, sj j4] * N.v 4 [sj j2, sj j3]) / d -
        2 * (N.v 8 [sj j1, sj j2] * N.v 9 [sj j3, sj j4] + N.v 2 [sj j1, sj j4] * N.v 5 [sj j2, sj j3] + N.v 10 [sj j1, sj j2] * N.v 11 [sj j3, sj j4] + N.v 3 [sj j1, sj j4] * N.v 4 [sj j2, sj j3]) / d') := by
    intro j1 j2 j3 j4
    have ha : ∀ n, n < 12 → ∀ i j, after products (tabOf N) (fun _ _ _ => (czero : XC)) n i j = ofC (N.v n [sj i, sj j]) := by
      intro n hn i j
      unfold after
      rw [if_pos]
      · rfl
      · interval_cases n <;> cases i <;> cases j <;> rfl
    unfold M
    simp only [ha _ (show 0 < 12 by omega), ha _ (show 1 < 12 by omega), ha _ (show 2 < 12 by omega), ha _ (show 3 < 12 by omega), ha _ (show 4 < 12 by omega), ha _ (show 5 < 12 by omega), ha _ (show 6 < 12 by omega), ha _ (show 7 < 12 by omega),
      ha _ (show 8 < 12 by omega), ha _ (show 9 < 12 by omega), ha _ (show 10 < 12 by omega), ha _ (show 11 < 12 by omega), ofC_mul, ofC_add, s_int, fin_neg, c_smul, ofC_div _ kS, ofC_div _ kT, ofC_sub]
    congr 2
    push_cast
    rfl
  have hamp : ∀ a b c e, ‖Rows.eeeeQED.amp N a b c e‖ ^ 2 = ρ 0 ^ 4 * ‖-2 * (N.v 0 [a, c] * N.v 7 [b, e] + N.v 2 [a, e] * N.v 5 [b, c] + N.v 1 [a, c] * N.v 6 [b, e] + N.v 3 [a, e] * N.v 4 [b, c]) / d -
        2 * (N.v 8 [a, b] * N.v 9 [c, e] + N.v 2 [a, e] * N.v 5 [b, c] + N.v 10 [a, b] * N.v 11 [c, e] + N.v 3 [a, e] * N.v 4 [b, c]) / d'‖ ^ 2 := by
    intro a b c e
    unfold Rows.eeeeQED.amp
    rw [hN0, hNc, hNd]
    generalize N.v 0 [a, c] * N.v 7 [b, e] + N.v 2 [a, e] * N.v 5 [b, c] + N.v 1 [a, c] * N.v 6 [b, e] + N.v 3 [a, e] * N.v 4 [b, c] = y
    generalize N.v 8 [a, b] * N.v 9 [c, e] + N.v 2 [a, e] * N.v 5 [b, c] + N.v 10 [a, b] * N.v 11 [c, e] + N.v 3 [a, e] * N.v 4 [b, c] = z
    have : (((-((2 : Nat) : ℝ) * ρ 0 * ρ 0 : ℝ) : ℂ) * y / d - (((2 : Nat) * ρ 0 * ρ 0 : ℝ) : ℂ) * z / d') = ((ρ 0 ^ 2 : ℝ) : ℂ) * (-2 * y / d - 2 * z / d') := by push_cast; ring
    rw [this, norm_mul, mul_pow, Complex.norm_real, Real.norm_eq_abs, sq_abs]
    ring
  show Res.ok _ = _
  rw [show P.methods = Cls.eeeeQED.methods from rfl, Rows.eeeeQED.value N]
  simp only [hM, both, sumJ, abs2_fin, s_int, fin_add, fin_mul, hamp, sj]
  rw [fin_div (by norm_num)]
  congr 2
  push_cast
  ring

end eeeeQED
end
end Spinas.SM.Direct

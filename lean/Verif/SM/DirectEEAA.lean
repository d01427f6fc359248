import Verif.SM.DirectLemmas
import Verif.SM.Bosons.PhotonsOut

/-! The overload of eeAA returns what `amp2()` returns. -/

namespace Spinas.SM.Direct
open Spec Props XR Matrix

section
variable [FPEnv] {ρ : Nat → ℝ} {p : Nat → V4 ℝ} {par : Nat → XR} {o : Obj XR XC}

set_option maxRecDepth 8000

namespace eeAA

abbrev P : Proc := Cls.eeAA

/-- values of the local variables -/
noncomputable def scal (N : Env) (j1 j2 : Bool) : Nat → ℂ
  | 0 => N.v 0 []
  | 1 => N.v 1 []
  | 2 => N.v 12 []
  | 3 => N.v 13 []
  | 4 => N.v 2 [sj j1, sj j2]
  | 5 => N.v 3 [sj j1, sj j2]
  | 6 => N.v 4 [sj j1]
  | 7 => N.v 5 [sj j1]
  | 8 => N.v 6 [sj j2]
  | 9 => N.v 7 [sj j2]
  | 10 => N.v 8 [sj j2]
  | 11 => N.v 9 [sj j2]
  | 12 => N.v 10 [sj j1]
  | 13 => N.v 11 [sj j1]
  | _ => 0

variable (h0 : P.massNum ρ 0 ≠ 0) (h1 : P.massNum ρ 1 ≠ 0) (h2 : P.massNum ρ 2 = 0) (h3 : P.massNum ρ 3 = 0)
include h0 h1 h2 h3

theorem before_reads (j1 j2 : Bool) : ∀ x ∈ (before : List (Put XR XC)), Reads (kin4 p (P.massNum ρ)) x.e (ofC (scal (P.env ρ p) j1 j2 x.n)) := by
  simp only [before, List.forall_mem_cons, List.not_mem_nil, false_imp_iff, implies_true, and_true]
  refine ⟨?_, ?_, ?_, ?_⟩
  · exact chain_reads (d := ⟨false, 2, true, [], 3, true⟩) (jL := 1) (jR := 1) (fits_none (by omega) h2 _) (fits_none (by omega) h3 _) (by simp) ⟨rfl, rfl, rfl, .inr h2⟩ ⟨rfl, rfl, rfl, .inr h3⟩ (mids_nil _)
  · exact chain_reads (d := ⟨true, 2, true, [], 3, true⟩) (jL := 1) (jR := 1) (fits_none (by omega) h2 _) (fits_none (by omega) h3 _) (by simp) ⟨rfl, rfl, rfl, .inr h2⟩ ⟨rfl, rfl, rfl, .inr h3⟩ (mids_nil _)
  · exact chain_reads (d := ⟨false, 2, true, [0], 3, true⟩) (jL := 1) (jR := 1) (fits_none (by omega) h2 _) (fits_none (by omega) h3 _) (by simp) ⟨rfl, rfl, rfl, .inr h2⟩ ⟨rfl, rfl, rfl, .inr h3⟩ (mids_one _ _)
  · exact chain_reads (d := ⟨false, 3, true, [0], 2, true⟩) (jL := 1) (jR := 1) (fits_none (by omega) h3 _) (fits_none (by omega) h2 _) (by simp) ⟨rfl, rfl, rfl, .inr h3⟩ ⟨rfl, rfl, rfl, .inr h2⟩ (mids_one _ _)

theorem inside_reads (j1 j2 : Bool) : ∀ x ∈ (inside j1 j2 : List (Put XR XC)), Reads (kin4 p (P.massNum ρ)) x.e (ofC (scal (P.env ρ p) j1 j2 x.n)) := by
  simp only [inside, List.forall_mem_cons, List.not_mem_nil, false_imp_iff, implies_true, and_true]
  refine ⟨square_reads (by omega) (by omega) h0 h1 _ _, angle_reads (by omega) (by omega) h0 h1 _ _, ?_, ?_, ?_, ?_, ?_, ?_, ?_, ?_⟩
  · exact chain_reads (d := ⟨false, 0, true, [], 2, true⟩) (jL := sj j1) (jR := sj j1) (fits_spin (by omega) h0 _ _) (fits_none (by omega) h2 _) (by simp) ⟨rfl, rfl, rfl, .inl rfl⟩ ⟨rfl, rfl, rfl, .inr h2⟩ (mids_nil _)
  · exact chain_reads (d := ⟨true, 0, true, [], 2, true⟩) (jL := sj j1) (jR := sj j1) (fits_spin (by omega) h0 _ _) (fits_none (by omega) h2 _) (by simp) ⟨rfl, rfl, rfl, .inl rfl⟩ ⟨rfl, rfl, rfl, .inr h2⟩ (mids_nil _)
  · exact chain_reads (d := ⟨false, 1, true, [], 3, true⟩) (jL := sj j2) (jR := sj j2) (fits_spin (by omega) h1 _ _) (fits_none (by omega) h3 _) (by simp) ⟨rfl, rfl, rfl, .inl rfl⟩ ⟨rfl, rfl, rfl, .inr h3⟩ (mids_nil _)
  · exact chain_reads (d := ⟨true, 1, true, [], 3, true⟩) (jL := sj j2) (jR := sj j2) (fits_spin (by omega) h1 _ _) (fits_none (by omega) h3 _) (by simp) ⟨rfl, rfl, rfl, .inl rfl⟩ ⟨rfl, rfl, rfl, .inr h3⟩ (mids_nil _)
  · exact chain_reads (d := ⟨false, 1, true, [], 2, true⟩) (jL := sj j2) (jR := sj j2) (fits_spin (by omega) h1 _ _) (fits_none (by omega) h2 _) (by simp) ⟨rfl, rfl, rfl, .inl rfl⟩ ⟨rfl, rfl, rfl, .inr h2⟩ (mids_nil _)
  · exact chain_reads (d := ⟨true, 1, true, [], 2, true⟩) (jL := sj j2) (jR := sj j2) (fits_spin (by omega) h1 _ _) (fits_none (by omega) h2 _) (by simp) ⟨rfl, rfl, rfl, .inl rfl⟩ ⟨rfl, rfl, rfl, .inr h2⟩ (mids_nil _)
  · exact chain_reads (d := ⟨false, 0, true, [], 3, true⟩) (jL := sj j1) (jR := sj j1) (fits_spin (by omega) h0 _ _) (fits_none (by omega) h3 _) (by simp) ⟨rfl, rfl, rfl, .inl rfl⟩ ⟨rfl, rfl, rfl, .inr h3⟩ (mids_nil _)
  · exact chain_reads (d := ⟨true, 0, true, [], 3, true⟩) (jL := sj j1) (jR := sj j1) (fits_spin (by omega) h0 _ _) (fits_none (by omega) h3 _) (by simp) ⟨rfl, rfl, rfl, .inl rfl⟩ ⟨rfl, rfl, rfl, .inr h3⟩ (mids_nil _)

/-- what a pass adds -/
noncomputable def added (N : Env) (me : ℝ) (j1 j2 : Bool) : ℝ :=
  ‖me * N.v 0 [] * N.v 0 [] * N.v 3 [sj j1, sj j2]‖ ^ 2 + ‖me * N.v 1 [] * N.v 1 [] * N.v 2 [sj j1, sj j2]‖ ^ 2 +
  ‖(N.v 4 [sj j1] * N.v 7 [sj j2] + N.v 8 [sj j2] * N.v 11 [sj j1]) * N.v 12 []‖ ^ 2 + ‖(N.v 5 [sj j1] * N.v 6 [sj j2] + N.v 9 [sj j2] * N.v 10 [sj j1]) * N.v 13 []‖ ^ 2

/-- the values computed before the loop -/
def Kept (N : Env) (t : Tab XC) : Prop := ∀ n, n < 4 → t n false false = ofC (scal N false false n)

theorem pass_reads {t : Tab XC} (ht : Kept (P.env ρ p) t) (me x : ℝ) (j1 j2 : Bool) :
    ∃ t', Reads (kin4 p (P.massNum ρ)) (pass (fin me) j1 j2 (fin x, t)) (fin (x + added (P.env ρ p) me j1 j2), t') ∧ Kept (P.env ρ p) t' := by
  generalize hN : P.env ρ p = N at ht
  refine ⟨after (inside j1 j2) (fun n _ _ => scal N j1 j2 n) t, ?_, ?_⟩
  · have hr := puts_reads (f := fun n _ _ => scal N j1 j2 n) (inside j1 j2) (by rw [← hN]; exact inside_reads h0 h1 h2 h3 j1 j2) t
    refine hr.bind ?_
    have e : (fin (x + added N me j1 j2) : XR) = fin x + term (fin me) (fun n => after (inside j1 j2) (fun n _ _ => scal N j1 j2 n) t n false false) := by
      have ha : ∀ n, 4 ≤ n → n < 14 → after (inside j1 j2) (fun n _ _ => scal N j1 j2 n) t n false false = ofC (scal N j1 j2 n) := by
        intro n hn hn'
        unfold after
        rw [if_pos]
        interval_cases n <;> rfl
      have hb : ∀ n, n < 4 → after (inside j1 j2) (fun n _ _ => scal N j1 j2 n) t n false false = ofC (scal N j1 j2 n) := by
        intro n hn
        unfold after
        rw [if_neg, ht n hn]
        · interval_cases n <;> rfl
        · interval_cases n <;> exact Bool.false_ne_true
      unfold term
      simp only [hb 0 (by omega), hb 1 (by omega), hb 2 (by omega), hb 3 (by omega), ha 4 (by omega) (by omega), ha 5 (by omega) (by omega), ha 6 (by omega) (by omega), ha 7 (by omega) (by omega), ha 8 (by omega) (by omega),
        ha 9 (by omega) (by omega), ha 10 (by omega) (by omega), ha 11 (by omega) (by omega), ha 12 (by omega) (by omega), ha 13 (by omega) (by omega), c_smul, ofC_mul, ofC_add, abs2_fin, fin_add]
      rfl
    rw [e]
    exact Reads.pure _
  · intro n hn
    unfold after
    rw [if_neg, ht n hn]
    interval_cases n <;> exact Bool.false_ne_true

omit h0 h1 h2 h3

/-- what the overload returns -/
theorem result (h : Known P par o) (hpar : ∀ n ∈ [0, 1], par n = fin (ρ n)) (hm : ρ 1 ≠ 0) (hs : ∀ i, i < 4 → OnShell (p i) (P.massNum ρ i))
    (hT : msq ((VExp.sub 0 2).sum p) - ρ 1 ^ 2 ≠ 0) (hU : msq ((VExp.sub 0 3).sum p) - ρ 1 ^ 2 ≠ 0) :
    (amp2 (C := XC) (fun i => (p i).toX) o).1 = .ok (fin (meaning (P.env ρ p) .r P.methods Cls.eeAA.amp2 [])) := by
  have hmass : ∀ i, i < 4 → (o.w.part i).kin.m = fin (P.massNum ρ i) := by
    intro i hi
    have : i = 0 ∨ i = 1 ∨ i = 2 ∨ i = 3 := by omega
    rcases this with rfl | rfl | rfl | rfl
    · exact (h.mass (e := .loc .r 1) (by rfl)).trans (hpar 1 (by simp))
    · exact (h.mass (e := .loc .r 1) (by rfl)).trans (hpar 1 (by simp))
    · exact (h.mass (e := .lit 0) (by rfl)).trans (s_int 0)
    · exact (h.mass (e := .lit 0) (by rfl)).trans (s_int 0)
  have m0 : P.massNum ρ 0 ≠ 0 := hm
  have m1 : P.massNum ρ 1 ≠ 0 := hm
  have m2 : P.massNum ρ 2 = 0 := Nat.cast_zero
  have m3 : P.massNum ρ 3 = 0 := Nat.cast_zero
  obtain ⟨w, e1, f1, -, -⟩ := setMomenta_ok hmass hs
  have r0 : o.r 0 = fin (ρ 0) := (h.r (e := .loc .r 0) (by rfl)).trans (hpar 0 (by simp))
  have r1 : o.r 1 = fin (ρ 1) := (h.r (e := .loc .r 1) (by rfl)).trans (hpar 1 (by simp))
  have hpm : (o.pr 0).m = fin (ρ 1) := (h.pm (e := .loc .r 1) (by rfl)).trans (hpar 1 (by simp))
  have hpw : (o.pr 0).w = fin 0 := (h.pw (e := .lit 0) (by rfl)).trans (by simp [Exp.val0, Exp.val])
  have hden : ∀ v : VExp, (Propag.denominator (o.pr 0) (v.eval fun i => (p i).toX) : XC) = ofC ((msq (v.sum p) - ρ 1 ^ 2 : ℝ) : ℂ) := by
    intro v
    rw [VExp.eval_sum, denominator_fin hpm hpw, poleDist_real]
  have k0 : Kept (P.env ρ p) (after before (fun n _ _ => scal (P.env ρ p) false false n) fun _ _ _ => czero) := by
    intro n hn
    unfold after
    rw [if_pos]
    interval_cases n <;> rfl
  obtain ⟨w0, e2, f2, -⟩ := onWorld_reads (o := { o with w := w }) (puts_reads (f := fun n _ _ => scal (P.env ρ p) false false n) before (before_reads m0 m1 m2 m3 false false) fun _ _ _ => czero) f1
  obtain ⟨t1, q1, k1⟩ := pass_reads m0 m1 m2 m3 k0 (ρ 1) 0 false false
  obtain ⟨w1, e3, f3, -⟩ := onWorld_reads (o := { o with w := w0 }) q1 f2
  obtain ⟨t2, q2, k2⟩ := pass_reads m0 m1 m2 m3 k1 (ρ 1) _ false true
  obtain ⟨w2, e4, f4, -⟩ := onWorld_reads (o := { o with w := w1 }) q2 f3
  obtain ⟨t3, q3, k3⟩ := pass_reads m0 m1 m2 m3 k2 (ρ 1) _ true false
  obtain ⟨w3, e5, f5, -⟩ := onWorld_reads (o := { o with w := w2 }) q3 f4
  obtain ⟨t4, q4, k4⟩ := pass_reads m0 m1 m2 m3 k3 (ρ 1) _ true true
  obtain ⟨w4, e6, f6, -⟩ := onWorld_reads (o := { o with w := w3 }) q4 f5
  unfold amp2
  rw [Prog.bind_ok e1, get_bind]
  dsimp only
  rw [Prog.bind_ok e2, r1, show (int 0 : XR) = fin 0 from by simp, Prog.bind_ok e3, Prog.bind_ok e4, Prog.bind_ok e5, Prog.bind_ok e6, hden, hden, r0]
  generalize hN : P.env ρ p = N
  have hN0 : N.r 0 = ρ 0 := by rw [← hN]; rfl
  have hN1 : N.r 1 = ρ 1 := by rw [← hN]; rfl
  have hNc : N.c 0 = ((msq ((VExp.sub 0 2).sum p) - ρ 1 ^ 2 : ℝ) : ℂ) := by
    rw [← hN]
    show poleDist (ρ 1) ((0 : Nat) : ℝ) ((VExp.sub 0 2).sum p) = _
    rw [Nat.cast_zero, poleDist_real]
  have hNd : N.c 1 = ((msq ((VExp.sub 0 3).sum p) - ρ 1 ^ 2 : ℝ) : ℂ) := by
    rw [← hN]
    show poleDist (ρ 1) ((0 : Nat) : ℝ) ((VExp.sub 0 3).sum p) = _
    rw [Nat.cast_zero, poleDist_real]
  generalize msq ((VExp.sub 0 2).sum p) - ρ 1 ^ 2 = d at hT hNc
  generalize msq ((VExp.sub 0 3).sum p) - ρ 1 ^ 2 = d' at hU hNd
  have core : ∀ (a : ℝ) (z : ℂ), ‖((a : ℝ) : ℂ) * z / d / d'‖ ^ 2 = a ^ 2 / d ^ 2 / d' ^ 2 * ‖z‖ ^ 2 := by
    intro a z
    rw [norm_div, norm_div, norm_mul, Complex.norm_real, Complex.norm_real, Complex.norm_real, div_pow, div_pow, mul_pow, Real.norm_eq_abs, Real.norm_eq_abs, Real.norm_eq_abs, sq_abs, sq_abs, sq_abs]
    ring
  have sum4 : ∀ a b, ‖Rows.eeAA.termPP N (sj a) (sj b)‖ ^ 2 + ‖Rows.eeAA.termMM N (sj a) (sj b)‖ ^ 2 + ‖Rows.eeAA.termPM N (sj a) (sj b)‖ ^ 2 + ‖Rows.eeAA.termMP N (sj a) (sj b)‖ ^ 2 =
      4 * ρ 0 ^ 4 / d ^ 2 / d' ^ 2 * added N (ρ 1) a b := by
    intro a b
    unfold Rows.eeAA.termPP Rows.eeAA.termMM Rows.eeAA.termPM Rows.eeAA.termMP added
    rw [hN0, hN1, hNc, hNd]
    have e : ∀ x y z : ℂ, ((((2 : Nat) : ℝ) * ρ 0 * ρ 0 * ρ 1 : ℝ) : ℂ) * x * y * z / d / d' = (((2 * ρ 0 ^ 2 : ℝ)) : ℂ) * (ρ 1 * x * y * z) / d / d' := by
      intro x y z; push_cast; ring
    have e' : ∀ x y : ℂ, ((((2 : Nat) : ℝ) * ρ 0 * ρ 0 : ℝ) : ℂ) * x * y / d / d' = (((2 * ρ 0 ^ 2 : ℝ)) : ℂ) * (x * y) / d / d' := by
      intro x y; push_cast; ring
    rw [e, e, e', e', core, core, core, core]
    ring
  have s1 := sum4 false false
  have s2 := sum4 false true
  have s3 := sum4 true false
  have s4 := sum4 true true
  show Res.ok _ = _
  rw [show P.methods = Cls.eeAA.methods from rfl, Rows.eeAA.value N]
  simp only [sumJ, sumW, Rows.eeAA.ampPP, Rows.eeAA.ampPM, Rows.eeAA.ampMP, Rows.eeAA.ampMM, s_int, fin_mul, c_re, Complex.ofReal_re]
  rw [fin_div hT, fin_div hT, fin_div hU, fin_div hU, fin_div (by norm_num)]
  congr 2
  simp only [show sj false = -1 from rfl, show sj true = 1 from rfl] at s1 s2 s3 s4
  push_cast
  linear_combination (-1 / 8) * (s1 + s2 + s3 + s4)

end eeAA
end
end Spinas.SM.Direct

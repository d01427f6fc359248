import Verif.SM.DirectLemmas
import Verif.SM.Bosons.PhotonHiggsE

/-! The overload of eAeh returns what `amp2()` would return if the products `[2|4|1>` and `<2|4|1]` were zero. -/

namespace Spinas.SM.Direct
open Spec Props XR Matrix

section
variable [FPEnv] {ρ : Nat → ℝ} {p : Nat → V4 ℝ} {par : Nat → XR} {o : Obj XR XC}

set_option maxRecDepth 8000

namespace eAeh

abbrev P : Proc := Cls.eAeh

/-- values of the local arrays -/
noncomputable def tab (N : Env) (n : Nat) (i j : Bool) : ℂ := match n with
  | 0 => N.v 5 [sj i, sj j]
  | 1 => N.v 4 [sj i, sj j]
  | 2 => N.v 0 [sj i]
  | 3 => N.v 1 [sj i]
  | 4 => N.v 2 [sj i]
  | 5 => N.v 3 [sj i]
  | 6 => N.v 6 [sj i]
  | 7 => N.v 7 [sj i]
  | 10 => N.v 10 []
  | 11 => N.v 11 []
  | _ => 0

/-- the two products that are never assigned taken as zero -/
noncomputable def dropped (N : Env) : Env := { N with v := fun n l => if n = 8 ∨ n = 9 then 0 else N.v n l }

theorem products_reads (h0 : P.massNum ρ 0 ≠ 0) (h1 : P.massNum ρ 1 = 0) (h2 : P.massNum ρ 2 ≠ 0) : ∀ x ∈ (products : List (Put XR XC)), Reads (kin4 p (P.massNum ρ)) x.e (ofC (tab (P.env ρ p) x.n x.i x.j)) := by
  simp only [products, List.flatMap_cons, List.flatMap_nil, List.append_nil, List.forall_mem_append, List.forall_mem_cons, List.not_mem_nil, false_imp_iff, implies_true, and_true]
  have s12 : ∀ i, Reads (kin4 p (P.massNum ρ)) (times (R := XR) (C := XC) ⟨0, .lsquare, sp i⟩ [] ⟨1, .rsquare, none⟩) (ofC ((P.env ρ p).v 0 [sj i])) := fun i =>
    chain_reads (d := ⟨false, 0, true, [], 1, true⟩) (jL := sj i) (jR := sj i) (fits_spin (by omega) h0 _ _) (fits_none (by omega) h1 _) (by simp) ⟨rfl, rfl, rfl, .inl rfl⟩ ⟨rfl, rfl, rfl, .inr h1⟩ (mids_nil _)
  have a12 : ∀ i, Reads (kin4 p (P.massNum ρ)) (times (R := XR) (C := XC) ⟨0, .langle, sp i⟩ [] ⟨1, .rangle, none⟩) (ofC ((P.env ρ p).v 1 [sj i])) := fun i =>
    chain_reads (d := ⟨true, 0, true, [], 1, true⟩) (jL := sj i) (jR := sj i) (fits_spin (by omega) h0 _ _) (fits_none (by omega) h1 _) (by simp) ⟨rfl, rfl, rfl, .inl rfl⟩ ⟨rfl, rfl, rfl, .inr h1⟩ (mids_nil _)
  have s23 : ∀ i, Reads (kin4 p (P.massNum ρ)) (times (R := XR) (C := XC) ⟨1, .lsquare, none⟩ [] ⟨2, .rsquare, sp i⟩) (ofC ((P.env ρ p).v 2 [sj i])) := fun i =>
    chain_reads (d := ⟨false, 1, true, [], 2, true⟩) (jL := sj i) (jR := sj i) (fits_none (by omega) h1 _) (fits_spin (by omega) h2 _ _) (by simp) ⟨rfl, rfl, rfl, .inr h1⟩ ⟨rfl, rfl, rfl, .inl rfl⟩ (mids_nil _)
  have a23 : ∀ i, Reads (kin4 p (P.massNum ρ)) (times (R := XR) (C := XC) ⟨1, .langle, none⟩ [] ⟨2, .rangle, sp i⟩) (ofC ((P.env ρ p).v 3 [sj i])) := fun i =>
    chain_reads (d := ⟨true, 1, true, [], 2, true⟩) (jL := sj i) (jR := sj i) (fits_none (by omega) h1 _) (fits_spin (by omega) h2 _ _) (by simp) ⟨rfl, rfl, rfl, .inr h1⟩ ⟨rfl, rfl, rfl, .inl rfl⟩ (mids_nil _)
  have s243 : ∀ i, Reads (kin4 p (P.massNum ρ)) (times (R := XR) (C := XC) ⟨1, .lsquare, none⟩ [(false, 3)] ⟨2, .rangle, sp i⟩) (ofC ((P.env ρ p).v 6 [sj i])) := fun i =>
    chain_reads (d := ⟨false, 1, true, [3], 2, true⟩) (jL := sj i) (jR := sj i) (fits_none (by omega) h1 _) (fits_spin (by omega) h2 _ _) (by simp) ⟨rfl, rfl, rfl, .inr h1⟩ ⟨rfl, rfl, rfl, .inl rfl⟩ (mids_one _ _)
  have a243 : ∀ i, Reads (kin4 p (P.massNum ρ)) (times (R := XR) (C := XC) ⟨1, .langle, none⟩ [(true, 3)] ⟨2, .rsquare, sp i⟩) (ofC ((P.env ρ p).v 7 [sj i])) := fun i =>
    chain_reads (d := ⟨true, 1, true, [3], 2, true⟩) (jL := sj i) (jR := sj i) (fits_none (by omega) h1 _) (fits_spin (by omega) h2 _ _) (by simp) ⟨rfl, rfl, rfl, .inr h1⟩ ⟨rfl, rfl, rfl, .inl rfl⟩ (mids_one _ _)
  have s2342 : Reads (kin4 p (P.massNum ρ)) (times (R := XR) (C := XC) ⟨1, .lsquare, none⟩ [(false, 2), (true, 3)] ⟨1, .rsquare, none⟩) (ofC ((P.env ρ p).v 10 [])) :=
    chain_reads (d := ⟨false, 1, true, [2, 3], 1, true⟩) (jL := 1) (jR := 1) (fits_none (by omega) h1 _) (fits_none (by omega) h1 _) (by simp) ⟨rfl, rfl, rfl, .inr h1⟩ ⟨rfl, rfl, rfl, .inr h1⟩ (mids_two _ _ _)
  have a2342 : Reads (kin4 p (P.massNum ρ)) (times (R := XR) (C := XC) ⟨1, .langle, none⟩ [(true, 2), (false, 3)] ⟨1, .rangle, none⟩) (ofC ((P.env ρ p).v 11 [])) :=
    chain_reads (d := ⟨true, 1, true, [2, 3], 1, true⟩) (jL := 1) (jR := 1) (fits_none (by omega) h1 _) (fits_none (by omega) h1 _) (by simp) ⟨rfl, rfl, rfl, .inr h1⟩ ⟨rfl, rfl, rfl, .inr h1⟩ (mids_two _ _ _)
  repeat' apply And.intro
  all_goals first
    | exact angle_reads (by omega) (by omega) h0 h2 _ _
    | exact square_reads (by omega) (by omega) h0 h2 _ _
    | exact s12 _
    | exact a12 _
    | exact s23 _
    | exact a23 _
    | exact s243 _
    | exact a243 _
    | exact s2342
    | exact a2342

noncomputable def nP (N : Env) (me mh : ℝ) (a b : Int) : ℂ := (mh * mh : ℝ) * N.v 0 [a] * N.v 2 [b] - me * N.v 0 [a] * N.v 6 [b] - me * N.v 2 [b] * N.v 8 [a] + N.v 5 [a, b] * N.v 10 []
noncomputable def nM (N : Env) (me mh : ℝ) (a b : Int) : ℂ := (-mh * mh : ℝ) * N.v 1 [a] * N.v 3 [b] + me * N.v 1 [a] * N.v 7 [b] + me * N.v 3 [b] * N.v 9 [a] - N.v 4 [a, b] * N.v 11 []

/-- sum over the spins -/
noncomputable def total (N : Env) (me mh : ℝ) : ℝ := ‖nP N me mh (-1) (-1)‖ ^ 2 + ‖nM N me mh (-1) (-1)‖ ^ 2 + (‖nP N me mh (-1) 1‖ ^ 2 + ‖nM N me mh (-1) 1‖ ^ 2) +
  (‖nP N me mh 1 (-1)‖ ^ 2 + ‖nM N me mh 1 (-1)‖ ^ 2) + (‖nP N me mh 1 1‖ ^ 2 + ‖nM N me mh 1 1‖ ^ 2)

theorem meaning_total {N : Env} {e me mh v d d' : ℝ} (h0 : N.r 0 = e) (h1 : N.r 1 = me) (h2 : N.r 2 = mh) (h3 : N.r 3 = v) (h4 : N.r 4 = √2) (hd : N.c 0 = d) (hd' : N.c 1 = d') :
    meaning N .r P.methods Cls.eAeh.amp2 [] = 2 * e * e * me * me * total N me mh / v / v / d / d / d' / d' / 4 := by
  have core : ∀ (z : ℂ), ‖((√2 * e * me / v : ℝ) : ℂ) * z / d / d'‖ ^ 2 = 2 * e * e * me * me / v / v / d / d / d' / d' * ‖z‖ ^ 2 := by
    intro z
    rw [norm_div, norm_div, norm_mul, Complex.norm_real, Complex.norm_real, Complex.norm_real, div_pow, div_pow, mul_pow, Real.norm_eq_abs, Real.norm_eq_abs, Real.norm_eq_abs, sq_abs, sq_abs, sq_abs, div_pow, mul_pow, mul_pow, Real.sq_sqrt two_pos.le]
    ring
  have eP : ∀ a b, ‖Rows.eAeh.termP N a b‖ ^ 2 = 2 * e * e * me * me / v / v / d / d / d' / d' * ‖nP N me mh a b‖ ^ 2 := by
    intro a b
    unfold Rows.eAeh.termP nP
    rw [h0, h1, h2, h3, h4, hd, hd', core]
  have eM : ∀ a b, ‖Rows.eAeh.termM N a b‖ ^ 2 = 2 * e * e * me * me / v / v / d / d / d' / d' * ‖nM N me mh a b‖ ^ 2 := by
    intro a b
    unfold Rows.eAeh.termM nM
    rw [h0, h1, h2, h3, h4, hd, hd', core]
  rw [show P.methods = Cls.eAeh.methods from rfl, Rows.eAeh.value N]
  simp only [sumJ, sumW, Rows.eAeh.ampP, Rows.eAeh.ampM, eP, eM, total]
  push_cast
  ring

/-- what the overload returns -/
theorem result (h : Known P par o) (hpar : ∀ n ∈ [0, 1, 2, 3], par n = fin (ρ n)) (hm : ρ 1 ≠ 0) (hv : ρ 3 ≠ 0) (hs : ∀ i, i < 4 → OnShell (p i) (P.massNum ρ i))
    (hS : msq ((VExp.add 0 1).sum p) - ρ 1 ^ 2 ≠ 0) (hU : msq ((VExp.sub 0 3).sum p) - ρ 1 ^ 2 ≠ 0) :
    (amp2 (C := XC) (fun i => (p i).toX) o).1 = .ok (fin (meaning (dropped (P.env ρ p)) .r P.methods Cls.eAeh.amp2 [])) := by
  have hmass : ∀ i, i < 4 → (o.w.part i).kin.m = fin (P.massNum ρ i) := by
    intro i hi
    have : i = 0 ∨ i = 1 ∨ i = 2 ∨ i = 3 := by omega
    rcases this with rfl | rfl | rfl | rfl
    · exact (h.mass (e := .loc .r 1) (by rfl)).trans (hpar 1 (by simp))
    · exact (h.mass (e := .lit 0) (by rfl)).trans (s_int 0)
    · exact (h.mass (e := .loc .r 1) (by rfl)).trans (hpar 1 (by simp))
    · exact (h.mass (e := .loc .r 2) (by rfl)).trans (hpar 2 (by simp))
  have m0 : P.massNum ρ 0 ≠ 0 := hm
  have m1 : P.massNum ρ 1 = 0 := Nat.cast_zero
  have m2 : P.massNum ρ 2 ≠ 0 := hm
  obtain ⟨w, e1, f1, -, -⟩ := setMomenta_ok hmass hs
  obtain ⟨w', e2, -, -⟩ := onWorld_reads (o := { o with w := w }) (puts_reads products (products_reads m0 m1 m2) fun _ _ _ => czero) f1
  have r0 : o.r 0 = fin (ρ 0) := (h.r (e := .loc .r 0) (by rfl)).trans (hpar 0 (by simp))
  have r1 : o.r 1 = fin (ρ 1) := (h.r (e := .loc .r 1) (by rfl)).trans (hpar 1 (by simp))
  have r2 : o.r 2 = fin (ρ 2) := (h.r (e := .loc .r 2) (by rfl)).trans (hpar 2 (by simp))
  have r3 : o.r 3 = fin (ρ 3) := (h.r (e := .loc .r 3) (by rfl)).trans (hpar 3 (by simp))
  have hpm : (o.pr 0).m = fin (ρ 1) := (h.pm (e := .loc .r 1) (by rfl)).trans (hpar 1 (by simp))
  have hpw : (o.pr 0).w = fin 0 := (h.pw (e := .lit 0) (by rfl)).trans (by simp [Exp.val0, Exp.val])
  have hden : ∀ v : VExp, (Propag.denominator (o.pr 0) (v.eval fun i => (p i).toX) : XC) = ofC ((msq (v.sum p) - ρ 1 ^ 2 : ℝ) : ℂ) := by
    intro v
    rw [VExp.eval_sum, denominator_fin hpm hpw, poleDist_real]
  unfold amp2
  rw [Prog.bind_ok e1, get_bind]
  dsimp only
  rw [Prog.bind_ok e2]
  dsimp only
  rw [hden, hden, r0, r1, r2, r3]
  have hNc : (P.env ρ p).c 0 = ((msq ((VExp.add 0 1).sum p) - ρ 1 ^ 2 : ℝ) : ℂ) := by
    show poleDist (ρ 1) ((0 : Nat) : ℝ) ((VExp.add 0 1).sum p) = _
    rw [Nat.cast_zero, poleDist_real]
  have hNd : (P.env ρ p).c 1 = ((msq ((VExp.sub 0 3).sum p) - ρ 1 ^ 2 : ℝ) : ℂ) := by
    show poleDist (ρ 1) ((0 : Nat) : ℝ) ((VExp.sub 0 3).sum p) = _
    rw [Nat.cast_zero, poleDist_real]
  rw [meaning_total (N := dropped (P.env ρ p)) (e := ρ 0) (me := ρ 1) (mh := ρ 2) (v := ρ 3) rfl rfl rfl rfl (by show √(((2 : Nat) : ℝ)) = √2; norm_num) hNc hNd]
  generalize P.env ρ p = N
  generalize msq ((VExp.add 0 1).sum p) - ρ 1 ^ 2 = d at hS
  generalize msq ((VExp.sub 0 3).sum p) - ρ 1 ^ 2 = d' at hU
  have ha : ∀ n, n < 12 → n ≠ 8 → n ≠ 9 → ∀ i j, (n < 2 ∨ j = false) → (n < 10 ∨ i = false) → after products (tab N) (fun _ _ _ => (czero : XC)) n i j = ofC (tab N n i j) := by
    intro n hn h8 h9 i j hj hi
    unfold after
    rw [if_pos]
    interval_cases n <;> first | (exact absurd rfl h8) | (exact absurd rfl h9) | (cases i <;> cases j <;> first | rfl | (exfalso; revert hj; decide) | (exfalso; revert hi; decide))
  have hz : ∀ n, n = 8 ∨ n = 9 → ∀ i j, after products (tab N) (fun _ _ _ => (czero : XC)) n i j = ofC 0 := by
    intro n hn i j
    unfold after
    rw [if_neg]
    · exact c_zero
    · rcases hn with rfl | rfl <;> exact Bool.false_ne_true
  have hP : ∀ j1 j3, (numP (fin (ρ 1)) (fin (ρ 2)) (after products (tab N) fun _ _ _ => (czero : XC)) j1 j3 : XC) = ofC (nP (dropped N) (ρ 1) (ρ 2) (sj j1) (sj j3)) := by
    intro j1 j3
    unfold numP
    rw [ha 2 (by omega) (by omega) (by omega) _ _ (.inr rfl) (.inl (by omega)), ha 4 (by omega) (by omega) (by omega) _ _ (.inr rfl) (.inl (by omega)), ha 6 (by omega) (by omega) (by omega) _ _ (.inr rfl) (.inl (by omega)),
      ha 0 (by omega) (by omega) (by omega) _ _ (.inl (by omega)) (.inl (by omega)), ha 10 (by omega) (by omega) (by omega) _ _ (.inr rfl) (.inr rfl), hz 8 (.inl rfl)]
    simp only [fin_mul, c_smul, ofC_mul, ofC_sub, ofC_add]
    rfl
  have hM : ∀ j1 j3, (numM (fin (ρ 1)) (fin (ρ 2)) (after products (tab N) fun _ _ _ => (czero : XC)) j1 j3 : XC) = ofC (nM (dropped N) (ρ 1) (ρ 2) (sj j1) (sj j3)) := by
    intro j1 j3
    unfold numM
    rw [ha 3 (by omega) (by omega) (by omega) _ _ (.inr rfl) (.inl (by omega)), ha 5 (by omega) (by omega) (by omega) _ _ (.inr rfl) (.inl (by omega)), ha 7 (by omega) (by omega) (by omega) _ _ (.inr rfl) (.inl (by omega)),
      ha 1 (by omega) (by omega) (by omega) _ _ (.inl (by omega)) (.inl (by omega)), ha 11 (by omega) (by omega) (by omega) _ _ (.inr rfl) (.inr rfl), hz 9 (.inr rfl)]
    simp only [fin_mul, fin_neg, c_smul, ofC_mul, ofC_sub, ofC_add]
    rfl
  show Res.ok _ = _
  simp only [both, hP, hM, abs2_fin, s_int, fin_add, fin_mul, c_re, Complex.ofReal_re, sj]
  rw [fin_div hv, fin_div hv, fin_div hS, fin_div hS, fin_div hU, fin_div hU, fin_div (by norm_num)]
  congr 2
  simp only [total, if_true, Bool.false_eq_true, if_false]
  push_cast
  ring

end eAeh
end
end Spinas.SM.Direct

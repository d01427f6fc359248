import Verif.SM.Closed
import Verif.Spec.Parton
import Verif.Props.Finite

/-! C64: two gluons into two gluons (exact arithmetic). -/

namespace Spinas.Props
open SM Spec XR Matrix

noncomputable section

/-! ### kinematics -/

/-- products of the momenta in terms of `s`, `t`, `u` -/
theorem mandelstam_dots {p : Nat → V4 ℝ} {m : Nat → ℝ} (hs : ∀ i, i < 4 → OnShell (p i) (m i)) (hb : Balanced p) :
    2 * dot (p 0) (p 1) = mandelstamS p - m 0 ^ 2 - m 1 ^ 2 ∧ 2 * dot (p 2) (p 3) = mandelstamS p - m 2 ^ 2 - m 3 ^ 2 ∧
    2 * dot (p 0) (p 2) = m 0 ^ 2 + m 2 ^ 2 - mandelstamT p ∧ 2 * dot (p 1) (p 3) = m 1 ^ 2 + m 3 ^ 2 - mandelstamT p ∧
    2 * dot (p 0) (p 3) = m 0 ^ 2 + m 3 ^ 2 - mandelstamU p ∧ 2 * dot (p 1) (p 2) = m 1 ^ 2 + m 2 ^ 2 - mandelstamU p ∧
    mandelstamS p + mandelstamT p + mandelstamU p = m 0 ^ 2 + m 1 ^ 2 + m 2 ^ 2 + m 3 ^ 2 := by
  have h0 := (hs 0 (by norm_num)).shell
  have h1 := (hs 1 (by norm_num)).shell
  have h2 := (hs 2 (by norm_num)).shell
  have h3 := (hs 3 (by norm_num)).shell
  have eS : mandelstamS p = msq ⟨(p 2).t + (p 3).t, (p 2).x + (p 3).x, (p 2).y + (p 3).y, (p 2).z + (p 3).z⟩ := by
    rw [mandelstamS, hb.t, hb.x, hb.y, hb.z]
  have eT : mandelstamT p = msq ⟨(p 3).t - (p 1).t, (p 3).x - (p 1).x, (p 3).y - (p 1).y, (p 3).z - (p 1).z⟩ := by
    rw [mandelstamT]; congr 2 <;> linarith [hb.t, hb.x, hb.y, hb.z]
  have eU : mandelstamU p = msq ⟨(p 2).t - (p 1).t, (p 2).x - (p 1).x, (p 2).y - (p 1).y, (p 2).z - (p 1).z⟩ := by
    rw [mandelstamU]; congr 2 <;> linarith [hb.t, hb.x, hb.y, hb.z]
  have d01 : 2 * dot (p 0) (p 1) = mandelstamS p - m 0 ^ 2 - m 1 ^ 2 := by rw [mandelstamS, dot, msq]; linear_combination -h0 - h1
  have d02 : 2 * dot (p 0) (p 2) = m 0 ^ 2 + m 2 ^ 2 - mandelstamT p := by rw [mandelstamT, dot, msq]; linear_combination h0 + h2
  have d03 : 2 * dot (p 0) (p 3) = m 0 ^ 2 + m 3 ^ 2 - mandelstamU p := by rw [mandelstamU, dot, msq]; linear_combination h0 + h3
  refine ⟨d01, by rw [eS, dot, msq]; linear_combination -h2 - h3, d02, by rw [eT, dot, msq]; linear_combination h1 + h3, d03,
    by rw [eU, dot, msq]; linear_combination h1 + h2, ?_⟩
  have : dot (p 0) (p 0) + dot (p 0) (p 1) = dot (p 0) (p 2) + dot (p 0) (p 3) := by
    simp only [dot]
    linear_combination (p 0).t * hb.t - (p 0).x * hb.x - (p 0).y * hb.y - (p 0).z * hb.z
  have h00 : dot (p 0) (p 0) = m 0 ^ 2 := by rw [dot]; linear_combination h0
  linarith

theorem massless_dots {p : Nat → V4 ℝ} (hs : ∀ i, i < 4 → OnShell (p i) 0) (hb : Balanced p) :
    2 * dot (p 0) (p 1) = mandelstamS p ∧ 2 * dot (p 2) (p 3) = mandelstamS p ∧ 2 * dot (p 0) (p 2) = -mandelstamT p ∧ 2 * dot (p 1) (p 3) = -mandelstamT p ∧
    2 * dot (p 0) (p 3) = -mandelstamU p ∧ 2 * dot (p 1) (p 2) = -mandelstamU p ∧ mandelstamS p + mandelstamT p + mandelstamU p = 0 := by
  simpa using mandelstam_dots (m := fun _ => 0) hs hb

variable [FPEnv]

/-- C29 in terms of the values -/
theorem normSq_massless {p : Nat → V4 ℝ} {m : Nat → ℝ} {i j : Nat} (hi : OnShell (p i) 0) (hj : OnShell (p j) 0) (mi : m i = 0) (mj : m j = 0) (t : Bool) :
    ‖zchain p m (br t i [] j) 1 1‖ ^ 2 = 2 * dot (p i) (p j) := by
  have h := spin_sum (d := br t i [] j) (e := br t i [] j) (p := p) (m := m) (M := fun _ => 0) rfl rfl rfl rfl hi hj le_rfl le_rfl
    (fun _ => ⟨rfl, rfl⟩) (fun _ => ⟨rfl, rfl⟩)
  have hm : sumEnd (m (br t i [] j).left) = sumEnd 0 ∧ sumEnd (m (br t i [] j).right) = sumEnd 0 := by simp [br, mi, mj]
  rw [hm.1, hm.2] at h
  cases t <;> simp [sumEnd, br, gramL, gramR, Spec.rightAngle, slashProd, trace_two, Complex.mul_conj] at h <;> rw [← Complex.normSq_eq_norm_sq] <;>
    exact (Complex.ofReal_injective (by simpa [br] using h) : _ = 2 * dot (p i) (p j))

/-! ### the methods -/

namespace Gluons

/-- the factor of the squared amplitudes -/
def weight (N : Env) : ℝ := ((36 : Nat) : ℝ) / (N.r 1 * N.r 2) ^ 2 + ((36 : Nat) : ℝ) / (N.r 1 * N.r 3) ^ 2 + ((36 : Nat) : ℝ) / (N.r 2 * N.r 3) ^ 2

def sum (f : Int → ℝ) (x : ℝ) : ℝ := [(-2 : Int), 2].foldl (fun acc a => acc + f a) x

def sum2 (f : Int → Int → ℝ) (x : ℝ) : ℝ := [(-2 : Int), 2].foldl (fun acc a => sum (f a) acc) x

def sum4 (f : Int → Int → Int → Int → ℝ) (x : ℝ) : ℝ := [(-2 : Int), 2].foldl (fun acc a => [(-2 : Int), 2].foldl (fun acc b => sum2 (f a b) acc) acc) x

omit [FPEnv] in
theorem mean_amp2 (N : Env) (f : Nat → List Int → ℂ) :
    Method.mean N f Cls.gggg.m_amp2 .r [] = sum4 (fun a b c d => ‖f 0 [a, b, c, d]‖ ^ 2 * weight N) ((0 : Nat) : ℝ) / ((512 : Nat) : ℝ) := by rfl
omit [FPEnv] in
theorem mean_pp (N : Env) (f : Nat → List Int → ℂ) :
    Method.mean N f Cls.gggg.m_amp2_gplus_gplus .r [] = sum2 (fun c d => ‖f 0 [2, 2, c, d]‖ ^ 2 * weight N) ((0 : Nat) : ℝ) / ((128 : Nat) : ℝ) := by rfl
omit [FPEnv] in
theorem mean_pm (N : Env) (f : Nat → List Int → ℂ) :
    Method.mean N f Cls.gggg.m_amp2_gplus_gminus .r [] = sum2 (fun c d => ‖f 0 [2, -2, c, d]‖ ^ 2 * weight N) ((0 : Nat) : ℝ) / ((128 : Nat) : ℝ) := by rfl
omit [FPEnv] in
theorem mean_mp (N : Env) (f : Nat → List Int → ℂ) :
    Method.mean N f Cls.gggg.m_amp2_gminus_gplus .r [] = sum2 (fun c d => ‖f 0 [-2, 2, c, d]‖ ^ 2 * weight N) ((0 : Nat) : ℝ) / ((128 : Nat) : ℝ) := by rfl
omit [FPEnv] in
theorem mean_mm (N : Env) (f : Nat → List Int → ℂ) :
    Method.mean N f Cls.gggg.m_amp2_gminus_gminus .r [] = sum2 (fun c d => ‖f 0 [-2, -2, c, d]‖ ^ 2 * weight N) ((0 : Nat) : ℝ) / ((128 : Nat) : ℝ) := by rfl
omit [FPEnv] in
theorem mean_Feynman (N : Env) (f : Nat → List Int → ℂ) :
    Method.mean N f Cls.gggg.m_amp2_Feynman .r [] = ‖((((9 : Nat) : ℝ) / ((4 : Nat) : ℝ) * N.r 0 * N.r 0 * N.r 0 * N.r 0 *
      (((3 : Nat) : ℝ) - N.r 2 * N.r 3 / N.r 1 / N.r 1 - N.r 1 * N.r 3 / N.r 2 / N.r 2 - N.r 1 * N.r 2 / N.r 3 / N.r 3) : ℝ) : ℂ)‖ := by rfl

/-- amplitudes: zero unless there are two positive and two negative helicities -/
theorem norms (N : Env) (f : Nat → List Int → ℂ) {p : Nat → V4 ℝ} (hs : ∀ i, i < 4 → OnShell (p i) 0) (hb : Balanced p)
    (hv : N.v = braTab (fun a => Cls.gggg.sym.bind fun S => S.gsp a) p fun _ => 0) (a b c d : Int) (ha : a = 2 ∨ a = -2) (hb' : b = 2 ∨ b = -2) (hc : c = 2 ∨ c = -2) (hd : d = 2 ∨ d = -2) :
    ‖Method.mean N f Cls.gggg.m_amp .c [a, b, c, d]‖ ^ 2 =
      if a = b ∧ c = -a ∧ d = -a then 4 * N.r 0 ^ 4 * mandelstamS p ^ 4
      else if a = c ∧ b = -a ∧ d = -a then 4 * N.r 0 ^ 4 * mandelstamT p ^ 4
      else if a = d ∧ b = -a ∧ c = -a then 4 * N.r 0 ^ 4 * mandelstamU p ^ 4 else 0 := by
  obtain ⟨h01, h23, h02, h13, h03, h12, _⟩ := massless_dots hs hb
  have nq : ∀ i j, i < 4 → j < 4 → ∀ t, ‖zchain p (fun _ => 0) (br t i [] j) 1 1‖ ^ 2 = 2 * dot (p i) (p j) := fun i j hi hj t =>
    normSq_massless (hs i hi) (hs j hj) rfl rfl t
  have hvn : ∀ n t i j, (Cls.gggg.sym.bind fun S => S.gsp n) = some (br t i [] j) → N.v n [] = zchain p (fun _ => 0) (br t i [] j) 1 1 := by
    intro n t i j h
    rw [hv]
    simp only [braTab, h]
  have v0 : ‖N.v 0 []‖ ^ 2 = mandelstamS p := by rw [hvn 0 false 0 1 rfl, nq 0 1 (by norm_num) (by norm_num), h01]
  have v1 : ‖N.v 1 []‖ ^ 2 = mandelstamS p := by rw [hvn 1 true 0 1 rfl, nq 0 1 (by norm_num) (by norm_num), h01]
  have v2 : ‖N.v 2 []‖ ^ 2 = -mandelstamT p := by rw [hvn 2 false 0 2 rfl, nq 0 2 (by norm_num) (by norm_num), h02]
  have v3 : ‖N.v 3 []‖ ^ 2 = -mandelstamT p := by rw [hvn 3 true 0 2 rfl, nq 0 2 (by norm_num) (by norm_num), h02]
  have sym : 2 * dot (p 3) (p 0) = -mandelstamU p := by rw [← h03]; simp only [dot]; ring
  have v4 : ‖N.v 4 []‖ ^ 2 = -mandelstamU p := by rw [hvn 4 false 3 0 rfl, nq 3 0 (by norm_num) (by norm_num), sym]
  have v5 : ‖N.v 5 []‖ ^ 2 = -mandelstamU p := by rw [hvn 5 true 3 0 rfl, nq 3 0 (by norm_num) (by norm_num), sym]
  have v6 : ‖N.v 6 []‖ ^ 2 = -mandelstamT p := by rw [hvn 6 false 1 3 rfl, nq 1 3 (by norm_num) (by norm_num), h13]
  have v7 : ‖N.v 7 []‖ ^ 2 = -mandelstamT p := by rw [hvn 7 true 1 3 rfl, nq 1 3 (by norm_num) (by norm_num), h13]
  have v8 : ‖N.v 8 []‖ ^ 2 = -mandelstamU p := by rw [hvn 8 false 1 2 rfl, nq 1 2 (by norm_num) (by norm_num), h12]
  have v9 : ‖N.v 9 []‖ ^ 2 = -mandelstamU p := by rw [hvn 9 true 1 2 rfl, nq 1 2 (by norm_num) (by norm_num), h12]
  have v10 : ‖N.v 10 []‖ ^ 2 = mandelstamS p := by rw [hvn 10 false 2 3 rfl, nq 2 3 (by norm_num) (by norm_num), h23]
  have v11 : ‖N.v 11 []‖ ^ 2 = mandelstamS p := by rw [hvn 11 true 2 3 rfl, nq 2 3 (by norm_num) (by norm_num), h23]
  have key : ∀ (g x : ℝ) (y z : ℂ), ‖y‖ ^ 2 = x → ‖z‖ ^ 2 = x → ‖((((2 : Nat) : ℝ) * g * g : ℝ) : ℂ) * y * y * z * z‖ ^ 2 = 4 * g ^ 4 * x ^ 4 := by
    intro g x y z hy hz
    have : ‖((((2 : Nat) : ℝ) * g * g : ℝ) : ℂ) * y * y * z * z‖ ^ 2 = (2 * g * g) ^ 2 * (‖y‖ ^ 2) ^ 2 * (‖z‖ ^ 2) ^ 2 := by
      simp only [norm_mul, Complex.norm_real, Real.norm_eq_abs, mul_pow, sq_abs]; push_cast; ring
    rw [this, hy, hz]; ring
  have zero : ‖(((((0 : Nat) : ℝ)) : ℝ) : ℂ)‖ ^ 2 = 0 := by simp
  have kS := fun y z hy hz => key (N.r 0) (mandelstamS p) y z hy hz
  have kT := fun y z hy hz => (key (N.r 0) (-mandelstamT p) y z hy hz).trans (by ring : _ = 4 * N.r 0 ^ 4 * mandelstamT p ^ 4)
  have kU := fun y z hy hz => (key (N.r 0) (-mandelstamU p) y z hy hz).trans (by ring : _ = 4 * N.r 0 ^ 4 * mandelstamU p ^ 4)
  rcases ha with rfl | rfl <;> rcases hb' with rfl | rfl <;> rcases hc with rfl | rfl <;> rcases hd with rfl | rfl <;> norm_num only [if_true, if_false, and_true, true_and, and_false, false_and, and_self] <;>
    first
    | exact zero
    | exact kS (N.v 0 []) (N.v 11 []) v0 v11
    | exact kS (N.v 10 []) (N.v 1 []) v10 v1
    | exact kT (N.v 2 []) (N.v 7 []) v2 v7
    | exact kT (N.v 6 []) (N.v 3 []) v6 v3
    | exact kU (N.v 4 []) (N.v 9 []) v4 v9
    | exact kU (N.v 8 []) (N.v 5 []) v8 v5

theorem sum4_val (f : Int → Int → Int → Int → ℝ) (A B C : ℝ) (h : ∀ a b c d : Int, (a = 2 ∨ a = -2) → (b = 2 ∨ b = -2) → (c = 2 ∨ c = -2) → (d = 2 ∨ d = -2) →
    f a b c d = if a = b ∧ c = -a ∧ d = -a then A else if a = c ∧ b = -a ∧ d = -a then B else if a = d ∧ b = -a ∧ c = -a then C else 0) (w : ℝ) :
    sum4 (fun a b c d => f a b c d * w) ((0 : Nat) : ℝ) = 2 * (A + B + C) * w ∧ sum2 (fun c d => f 2 2 c d * w) ((0 : Nat) : ℝ) = A * w ∧
    sum2 (fun c d => f 2 (-2) c d * w) ((0 : Nat) : ℝ) = (B + C) * w ∧ sum2 (fun c d => f (-2) 2 c d * w) ((0 : Nat) : ℝ) = (B + C) * w ∧
    sum2 (fun c d => f (-2) (-2) c d * w) ((0 : Nat) : ℝ) = A * w := by
  refine ⟨?_, ?_, ?_, ?_, ?_⟩ <;> simp [sum4, sum2, sum, h] <;> ring

/-- the weight for `s + t + u = 0` -/
theorem weight_val {N : Env} (h1 : N.r 1 ≠ 0) (h2 : N.r 2 ≠ 0) (h3 : N.r 3 ≠ 0) :
    weight N = 36 * (N.r 1 ^ 2 + N.r 2 ^ 2 + N.r 3 ^ 2) / (N.r 1 * N.r 2 * N.r 3) ^ 2 := by
  unfold weight
  push_cast
  field_simp
  ring

/-- `3 - tu/s^2 - su/t^2 - st/u^2` -/
theorem bracket {s t u : ℝ} (hs : s ≠ 0) (ht : t ≠ 0) (hu : u ≠ 0) (h : s + t + u = 0) :
    3 - t * u / s ^ 2 - s * u / t ^ 2 - s * t / u ^ 2 = (s ^ 4 + t ^ 4 + u ^ 4) * (s ^ 2 + t ^ 2 + u ^ 2) / (4 * (s * t * u) ^ 2) := by
  have : u = -s - t := by linarith
  subst this
  field_simp
  ring

end Gluons

/-- **C64.** An object of the class `gggg`, constructed with the coupling `g` and used in any way, is given four massless momenta that conserve energy and
momentum with `s t u` not zero: `amp2()` (method 2) and `amp2_Feynman()` (method 1) both return the textbook result exactly.  `amp2_gplus_gplus()` (3) and
`amp2_gminus_gminus()` (6), `amp2_gplus_gminus()` (4) and `amp2_gminus_gplus()` (5) return the ones for polarised gluons. -/
theorem C64_gluons (mem : Nat → XR) (junk : Kin XR XC) (par : Nat → XR) {g : ℝ} (hg : par 0 = fin g) (ops : List (ProcOp XR XC)) {o : Obj XR XC}
    (ho : o = runProcOps Cls.gggg ops (Cls.gggg.construct mem junk par).2) {p : Nat → V4 ℝ} (hs : ∀ i, i < 4 → OnShell (p i) 0) (hb : Balanced p)
    (h0 : mandelstamS p ≠ 0) (ht : mandelstamT p ≠ 0) (hu : mandelstamU p ≠ 0) (j : Kin XR XC) (xs : List (MCall XR XC)) (l : Loc XR XC) :
    (Cls.gggg.runSetMomenta j (fun i => (p i).toX) o).1 = .ok () ∧
    (Cls.gggg.method l .r 2 [] (runCalls Cls.gggg xs (Cls.gggg.runSetMomenta j (fun i => (p i).toX) o).2)).1 = .ok (fin (gluonGluon g (mandelstamS p) (mandelstamT p) (mandelstamU p))) ∧
    (Cls.gggg.method l .r 1 [] (runCalls Cls.gggg xs (Cls.gggg.runSetMomenta j (fun i => (p i).toX) o).2)).1 = .ok (fin (gluonGluon g (mandelstamS p) (mandelstamT p) (mandelstamU p))) ∧
    (∀ k, k = 3 ∨ k = 6 → (Cls.gggg.method l .r k [] (runCalls Cls.gggg xs (Cls.gggg.runSetMomenta j (fun i => (p i).toX) o).2)).1 =
      .ok (fin (gluonGluonLike g (mandelstamS p) (mandelstamT p) (mandelstamU p)))) ∧
    (∀ k, k = 4 ∨ k = 5 → (Cls.gggg.method l .r k [] (runCalls Cls.gggg xs (Cls.gggg.runSetMomenta j (fun i => (p i).toX) o).2)).1 =
      .ok (fin (gluonGluonUnlike g (mandelstamS p) (mandelstamT p) (mandelstamU p)))) := by
  have hP : Cls.gggg ∈ all := by simp [all]
  have hpar : ∀ ops : List (ProcOp XR XC), ∀ par : Nat → XR, parAfter Cls.gggg.massPar ops par 0 = par 0 := by
    intro ops
    induction ops with
    | nil => intro par; rfl
    | cons op ops ih => intro par; cases op <;> simp only [parAfter] <;> rw [ih] <;> rfl
  let N : Env := ⟨fun n => if n = 0 then g else if n = 1 then mandelstamS p else if n = 2 then mandelstamT p else mandelstamU p, fun _ => 0,
    braTab (fun a => Cls.gggg.sym.bind fun S => S.gsp a) p fun _ => 0⟩
  have hr : (Cls.gggg.reads.all fun x => [(Ty.r, 0), (.r, 1), (.r, 2), (.r, 3)].contains x) = true := by decide +kernel
  have hd : (Cls.gggg.divides.all fun x => [(Ty.r, 1), (.r, 2), (.r, 3)].contains x) = true := by decide +kernel
  simp only [List.all_eq_true, List.contains_iff_mem] at hr hd
  have hset : Setting Cls.gggg (parAfter Cls.gggg.massPar ops par) (fun _ => 0) p N := by
    refine ⟨fun i hi => ?_, fun i hi h => ?_, hs, fun n hn => ?_, fun n hn => absurd (hr _ hn) (by simp), fun n hn => ?_, fun n hn => absurd (hd _ hn) (by simp), rfl⟩
    · have : i = 0 ∨ i = 1 ∨ i = 2 ∨ i = 3 := by omega
      rcases this with rfl | rfl | rfl | rfl <;> exact ⟨.lit 0, rfl, by simp [Exp.val0, Exp.val]⟩
    · have : i = 0 ∨ i = 1 ∨ i = 2 ∨ i = 3 := by omega
      rcases this with rfl | rfl | rfl | rfl <;> exact absurd h (by decide +kernel)
    · have := hr _ hn
      simp only [List.mem_cons, Prod.mk.injEq, true_and, List.not_mem_nil, or_false] at this
      rcases this with rfl | rfl | rfl | rfl
      · exact .inl ⟨.loc .r 0, rfl, by simp [Exp.val0, Exp.val, hpar, hg, N]⟩
      · exact .inr ⟨0, .add 0 1, .lit 0, .lit 0, 0, 0, rfl, rfl, by simp [Exp.val0, Exp.val], rfl, by simp [Exp.val0, Exp.val], by simp [N, poleDist, VExp.sum, mandelstamS]⟩
      · exact .inr ⟨0, .sub 0 2, .lit 0, .lit 0, 0, 0, rfl, rfl, by simp [Exp.val0, Exp.val], rfl, by simp [Exp.val0, Exp.val], by simp [N, poleDist, VExp.sum, mandelstamT]⟩
      · exact .inr ⟨0, .sub 0 3, .lit 0, .lit 0, 0, 0, rfl, rfl, by simp [Exp.val0, Exp.val], rfl, by simp [Exp.val0, Exp.val], by simp [N, poleDist, VExp.sum, mandelstamU]⟩
    · have := hd _ hn
      simp only [List.mem_cons, Prod.mk.injEq, true_and, List.not_mem_nil, or_false] at this
      rcases this with rfl | rfl | rfl <;> simpa [N]
  have hsum := (massless_dots hs hb).2.2.2.2.2.2
  have res := fun k hk => (hset.result hP ops (.inl (by decide +kernel)) (by decide +kernel) mem junk par ho j xs l k hk).2
  have hN := Gluons.norms N (callMean N []) hs hb rfl
  have hw := Gluons.weight_val (N := N) h0 ht hu
  obtain ⟨a2, app, apm, amp, amm⟩ := Gluons.sum4_val _ _ _ _ hN (Gluons.weight N)
  have hbr := Gluons.bracket h0 ht hu hsum
  have e0 : N.r 0 = g := rfl
  have e1 : N.r 1 = mandelstamS p := rfl
  have e2 : N.r 2 = mandelstamT p := rfl
  have e3 : N.r 3 = mandelstamU p := rfl
  have hst : mandelstamS p * mandelstamT p * mandelstamU p ≠ 0 := mul_ne_zero (mul_ne_zero h0 ht) hu
  refine ⟨(hset.result hP ops (.inl (by decide +kernel)) (by decide +kernel) mem junk par ho j xs l 2 rfl).1, ?_, ?_, ?_, ?_⟩
  · rw [res 2 rfl]
    show Res.ok (fin (Method.mean N (callMean N [Cls.gggg.m_amp2_Feynman, Cls.gggg.m_amp]) Cls.gggg.m_amp2 .r [])) = _
    rw [Gluons.mean_amp2]
    have : ∀ a b c d, callMean N [Cls.gggg.m_amp2_Feynman, Cls.gggg.m_amp] 0 [a, b, c, d] = Method.mean N (callMean N []) Cls.gggg.m_amp .c [a, b, c, d] := fun _ _ _ _ => rfl
    simp only [this]
    rw [a2, hw, e0, e1, e2, e3, gluonGluon, hbr]
    congr 2
    field_simp
    ring
  · rw [res 1 rfl]
    show Res.ok (fin (Method.mean N (callMean N [Cls.gggg.m_amp]) Cls.gggg.m_amp2_Feynman .r [])) = _
    rw [Gluons.mean_Feynman, Complex.norm_real, Real.norm_eq_abs, e0, e1, e2, e3]
    have e : ∀ s t u : ℝ, (((9 : Nat) : ℝ) / ((4 : Nat) : ℝ) * g * g * g * g * (((3 : Nat) : ℝ) - t * u / s / s - s * u / t / t - s * t / u / u)) = gluonGluon g s t u := by
      intro s t u; simp only [gluonGluon, div_div, ← pow_two]; push_cast; ring
    rw [e, abs_of_nonneg]
    rw [gluonGluon, hbr]
    positivity
  · intro k hk
    rcases hk with rfl | rfl
    · rw [res 3 rfl]
      show Res.ok (fin (Method.mean N (callMean N [Cls.gggg.m_amp2, Cls.gggg.m_amp2_Feynman, Cls.gggg.m_amp]) Cls.gggg.m_amp2_gplus_gplus .r [])) = _
      rw [Gluons.mean_pp]
      have : ∀ a b c d, callMean N [Cls.gggg.m_amp2, Cls.gggg.m_amp2_Feynman, Cls.gggg.m_amp] 0 [a, b, c, d] = Method.mean N (callMean N []) Cls.gggg.m_amp .c [a, b, c, d] := fun _ _ _ _ => rfl
      simp only [this]
      rw [app, hw, e0, e1, e2, e3, gluonGluonLike]
      congr 2
      push_cast
      ring
    · rw [res 6 rfl]
      show Res.ok (fin (Method.mean N (callMean N Cls.gggg.methods.tail) Cls.gggg.m_amp2_gminus_gminus .r [])) = _
      rw [Gluons.mean_mm]
      have : ∀ a b c d, callMean N Cls.gggg.methods.tail 0 [a, b, c, d] = Method.mean N (callMean N []) Cls.gggg.m_amp .c [a, b, c, d] := fun _ _ _ _ => rfl
      simp only [this]
      rw [amm, hw, e0, e1, e2, e3, gluonGluonLike]
      congr 2
      push_cast
      ring
  · intro k hk
    rcases hk with rfl | rfl
    · rw [res 4 rfl]
      show Res.ok (fin (Method.mean N (callMean N Cls.gggg.methods.tail.tail.tail) Cls.gggg.m_amp2_gplus_gminus .r [])) = _
      rw [Gluons.mean_pm]
      have : ∀ a b c d, callMean N Cls.gggg.methods.tail.tail.tail 0 [a, b, c, d] = Method.mean N (callMean N []) Cls.gggg.m_amp .c [a, b, c, d] := fun _ _ _ _ => rfl
      simp only [this]
      rw [apm, hw, e0, e1, e2, e3, gluonGluonUnlike]
      congr 2
      push_cast
      ring
    · rw [res 5 rfl]
      show Res.ok (fin (Method.mean N (callMean N Cls.gggg.methods.tail.tail) Cls.gggg.m_amp2_gminus_gplus .r [])) = _
      rw [Gluons.mean_mp]
      have : ∀ a b c d, callMean N Cls.gggg.methods.tail.tail 0 [a, b, c, d] = Method.mean N (callMean N []) Cls.gggg.m_amp .c [a, b, c, d] := fun _ _ _ _ => rfl
      simp only [this]
      rw [amp, hw, e0, e1, e2, e3, gluonGluonUnlike]
      congr 2
      push_cast
      ring

/-- Unpolarised gluons: the average over the four combinations of helicities. -/
theorem C64_average {s t u : ℝ} (hs : s ≠ 0) (ht : t ≠ 0) (hu : u ≠ 0) (h : s + t + u = 0) (g : ℝ) :
    gluonGluon g s t u = (gluonGluonLike g s t u + gluonGluonUnlike g s t u + gluonGluonUnlike g s t u + gluonGluonLike g s t u) / 4 := by
  rw [gluonGluon, Gluons.bracket hs ht hu h, gluonGluonLike, gluonGluonUnlike]
  have := mul_ne_zero (mul_ne_zero hs ht) hu
  field_simp
  ring

end

/-! ### the hypotheses can be met -/

section examples
attribute [local instance] doubleEnv

/-- gluons of energy 5: `s = 100`, `t = -10`, `u = -90` -/
def exGluons (i : Nat) : V4 ℝ := if i = 0 then ⟨5, 0, 0, 5⟩ else if i = 1 then ⟨5, 0, 0, -5⟩ else if i = 2 then ⟨5, 3, 0, 4⟩ else ⟨5, -3, 0, -4⟩

theorem exGluons_onShell (i : Nat) (hi : i < 4) : OnShell (exGluons i) 0 := by
  have : i = 0 ∨ i = 1 ∨ i = 2 ∨ i = 3 := by omega
  rcases this with rfl | rfl | rfl | rfl <;> constructor <;> norm_num [exGluons]

theorem exGluons_balanced : Balanced exGluons := by constructor <;> norm_num [exGluons]

/-- with coupling 2 -/
example (mem : Nat → XR) (l : Loc XR XC) :
    (Cls.gggg.method l .r 2 [] (Cls.gggg.runSetMomenta junkK (fun i => (exGluons i).toX) (Cls.gggg.construct mem junkK fun _ => .fin 2).2).2).1 = .ok (.fin (753571 / 225)) := by
  have hs : mandelstamS exGluons = 100 := by norm_num [mandelstamS, msq, exGluons]
  have ht : mandelstamT exGluons = -10 := by norm_num [mandelstamT, msq, exGluons]
  have hu : mandelstamU exGluons = -90 := by norm_num [mandelstamU, msq, exGluons]
  have h := (C64_gluons mem junkK (fun _ => .fin 2) rfl [] (o := (Cls.gggg.construct mem junkK fun _ => .fin 2).2) (by rw [runProcOps]) exGluons_onShell exGluons_balanced
    (by rw [hs]; norm_num) (by rw [ht]; norm_num) (by rw [hu]; norm_num) junkK [] l).2.1
  rw [hs, ht, hu] at h
  refine h.trans ?_
  norm_num [gluonGluon]

end examples
end Spinas.Props

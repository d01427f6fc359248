import Verif.SM.Sign
import Verif.Exact.Finite
import Mathlib.Algebra.BigOperators.Group.List.Basic
import Mathlib.Algebra.BigOperators.Ring.List
import Mathlib.Tactic.LinearCombination
import Mathlib.Tactic.Positivity
import Mathlib.Tactic.FieldSimp

/-! Soundness of the check in `Verif.SM.Sign`, in exact arithmetic. -/

namespace Spinas.SM
open XR

/-! ### positive forms -/

/-- `sum_ij q_ij x_i x_j` over a list of indices -/
noncomputable def form (L : List Nat) (q : Nat → Nat → Rat) (x : Nat → ℝ) : ℝ := (L.map fun i => (L.map fun j => (q i j : ℝ) * x i * x j).sum).sum

theorem form_cons (i : Nat) (L : List Nat) (q : Nat → Nat → Rat) (hq : ∀ i j, q i j = q j i) (x : Nat → ℝ) :
    form (i :: L) q x = q i i * x i ^ 2 + 2 * x i * (L.map fun j => (q i j : ℝ) * x j).sum + form L q x := by
  have e1 : (L.map fun j => (q i j : ℝ) * x i * x j).sum = x i * (L.map fun j => (q i j : ℝ) * x j).sum := by
    rw [← List.sum_map_mul_left]; congr 1; exact List.map_congr_left fun j _ => by ring
  have e2 : (L.map fun k => (q k i : ℝ) * x k * x i).sum = x i * (L.map fun j => (q i j : ℝ) * x j).sum := by
    rw [← List.sum_map_mul_left]; congr 1; exact List.map_congr_left fun j _ => by rw [hq j i]; ring
  have e3 : (L.map fun k => (((i :: L).map fun j => (q k j : ℝ) * x k * x j).sum)).sum
      = (L.map fun k => (q k i : ℝ) * x k * x i).sum + form L q x := by
    unfold form; rw [← List.sum_map_add]; simp only [List.map_cons, List.sum_cons]
  show ((i :: L).map fun k => (((i :: L).map fun j => (q k j : ℝ) * x k * x j).sum)).sum = _
  rw [List.map_cons, List.sum_cons, e3, List.map_cons, List.sum_cons, e1, e2]
  ring

theorem form_elim (L : List Nat) (q : Nat → Nat → Rat) (i : Nat) (h : q i i ≠ 0) (x : Nat → ℝ) :
    form L (fun j k => q j k - q i j * q i k / q i i) x = form L q x - (L.map fun j => (q i j : ℝ) * x j).sum ^ 2 / q i i := by
  set B := (L.map fun j => (q i j : ℝ) * x j).sum with hB
  have h' : (q i i : ℝ) ≠ 0 := by exact_mod_cast h
  have e1 : ∀ j, (L.map fun k => (((q j k - q i j * q i k / q i i : Rat)) : ℝ) * x j * x k).sum
      = (L.map fun k => (q j k : ℝ) * x j * x k).sum + (-(B / q i i)) * ((q i j : ℝ) * x j) := by
    intro j
    have : (-(B / q i i)) * ((q i j : ℝ) * x j) = (L.map fun k => (-((q i j : ℝ) * x j / q i i)) * ((q i k : ℝ) * x k)).sum := by
      rw [List.sum_map_mul_left, ← hB]; ring
    rw [this, ← List.sum_map_add]
    congr 1
    refine List.map_congr_left fun k _ => ?_
    push_cast
    ring
  unfold form
  simp only [e1]
  rw [List.sum_map_add, List.sum_map_mul_left, ← hB]
  ring

theorem psd_nonneg : ∀ (L : List Nat) (q : Nat → Nat → Rat), (∀ i j, q i j = q j i) → psd L q = true → ∀ x, 0 ≤ form L q x
  | [], q, _, _, x => by simp [form]
  | i :: L, q, hq, h, x => by
    rw [form_cons i L q hq]
    unfold psd at h
    split_ifs at h with h0
    · rw [Bool.and_eq_true, List.all_eq_true] at h
      have hB : (L.map fun j => (q i j : ℝ) * x j).sum = 0 := by
        apply List.sum_eq_zero
        intro y hy
        obtain ⟨j, hj, rfl⟩ := List.mem_map.1 hy
        have := h.1 j hj
        rw [beq_iff_eq] at this
        simp [this]
      have := psd_nonneg L q hq h.2 x
      rw [hB, h0]
      simpa using this
    · rw [Bool.and_eq_true, decide_eq_true_eq] at h
      have hp : (0 : ℝ) < q i i := by exact_mod_cast h.1
      have := psd_nonneg L _ (fun j k => by rw [hq j k]; ring) h.2 x
      rw [form_elim L q i h0] at this
      set B := (L.map fun j => (q i j : ℝ) * x j).sum
      have e : (q i i : ℝ) * x i ^ 2 + 2 * x i * B + form L q x = q i i * (x i + B / q i i) ^ 2 + (form L q x - B ^ 2 / q i i) := by
        field_simp; ring
      rw [e]
      positivity

/-- value of a form -/
noncomputable def Quad.val (Q : Quad) (z : Nat → ℂ) : ℝ := (Q.map fun t => (t.2.2 : ℝ) * (z t.1 * (starRingEnd ℂ) (z t.2.1)).re).sum

theorem sum_ite_one {L : List Nat} (h : L.Nodup) {i : Nat} (hi : i ∈ L) (f : Nat → ℝ) : (L.map fun k => if i = k then f k else 0).sum = f i := by
  induction L with
  | nil => simp at hi
  | cons a L ih =>
    rw [List.nodup_cons] at h
    rw [List.map_cons, List.sum_cons]
    by_cases e : i = a
    · subst e
      have : (L.map fun k => if i = k then f k else 0).sum = 0 := by
        apply List.sum_eq_zero
        intro y hy
        obtain ⟨k, hk, rfl⟩ := List.mem_map.1 hy
        rw [if_neg]; rintro rfl; exact h.1 hk
      simp [this]
    · rw [if_neg e, zero_add, ih h.2 ((List.mem_cons.1 hi).resolve_left e)]

theorem Quad.coef_symm (Q : Quad) (i j : Nat) : Q.coef i j = Q.coef j i := by
  unfold Quad.coef
  congr 1
  exact List.map_congr_left fun t _ => add_comm _ _

theorem form_coef (L : List Nat) (hL : L.Nodup) (x : Nat → ℝ) : ∀ Q : Quad, (∀ t ∈ Q, t.1 ∈ L ∧ t.2.1 ∈ L) →
    form L Q.coef x = 2 * (Q.map fun t => (t.2.2 : ℝ) * (x t.1 * x t.2.1)).sum
  | [], _ => by simp [form, Quad.coef]
  | (a, b, q) :: Q, h => by
    have ih := form_coef L hL x Q fun t ht => h t (List.mem_cons_of_mem _ ht)
    obtain ⟨ha, hb⟩ := h (a, b, q) List.mem_cons_self
    have e : ∀ i j, ((Quad.coef ((a, b, q) :: Q) i j : Rat) : ℝ) * x i * x j
        = ((if a = i then (if b = j then (q : ℝ) * x i * x j else 0) else 0) + (if b = i then (if a = j then (q : ℝ) * x i * x j else 0) else 0))
          + (Quad.coef Q i j : ℝ) * x i * x j := by
      intro i j
      have hc : Quad.coef ((a, b, q) :: Q) i j = (if a = i then (if b = j then q else 0) else 0) + (if b = i then (if a = j then q else 0) else 0) + Quad.coef Q i j := by
        show (if a = i ∧ b = j then q else 0) + (if a = j ∧ b = i then q else 0) + Quad.coef Q i j = _
        simp only [and_comm (a := a = j), ite_and]
      rw [hc]
      push_cast
      split_ifs <;> ring
    have key : ∀ a b, a ∈ L → b ∈ L → (L.map fun i => (L.map fun j => if a = i then (if b = j then (q : ℝ) * x i * x j else 0) else 0).sum).sum = q * x a * x b := by
      intro a b ha hb
      have : ∀ i, (L.map fun j => if a = i then (if b = j then (q : ℝ) * x i * x j else 0) else 0).sum = if a = i then q * x i * x b else 0 := by
        intro i
        by_cases e : a = i
        · simp only [if_pos e]; exact sum_ite_one hL hb _
        · simp [e]
      simp only [this]
      exact sum_ite_one hL ha _
    unfold form at ih ⊢
    simp only [e, List.sum_map_add, key a b ha hb, key b a hb ha, ih, List.map_cons, List.sum_cons]
    ring

theorem Quad.val_nonneg {Q : Quad} (h : Q.pos = true) (z : Nat → ℂ) : 0 ≤ Q.val z := by
  have hm : ∀ t ∈ Q, t.1 ∈ Q.vars ∧ t.2.1 ∈ Q.vars := by
    intro t ht
    simp only [Quad.vars, List.mem_dedup, List.mem_append, List.mem_map]
    exact ⟨.inl ⟨t, ht, rfl⟩, .inr ⟨t, ht, rfl⟩⟩
  have n1 := psd_nonneg _ _ Q.coef_symm h fun i => (z i).re
  have n2 := psd_nonneg _ _ Q.coef_symm h fun i => (z i).im
  rw [form_coef Q.vars (List.nodup_dedup _) _ Q hm] at n1 n2
  have : Q.val z = (Q.map fun t => (t.2.2 : ℝ) * ((z t.1).re * (z t.2.1).re)).sum + (Q.map fun t => (t.2.2 : ℝ) * ((z t.1).im * (z t.2.1).im)).sum := by
    rw [← List.sum_map_add]
    unfold Quad.val
    congr 1
    refine List.map_congr_left fun t _ => ?_
    rw [Complex.mul_re, Complex.conj_re, Complex.conj_im]
    ring
  rw [this]
  linarith

/-! ### partial correctness -/

/-- Whatever the program returns satisfies `P`. -/
def Post {σ α : Type} (p : Prog σ α) (P : α → Prop) : Prop := ∀ s x, (p s).1 = .ok x → P x

section
variable {σ α β : Type}

theorem Post.pure {a : α} {P : α → Prop} (h : P a) : Post (Pure.pure a : Prog σ α) P := by
  intro s x e; cases e; exact h

theorem Post.bind {p : Prog σ α} {f : α → Prog σ β} {P : α → Prop} {Q : β → Prop} (hp : Post p P) (hf : ∀ x, P x → Post (f x) Q) :
    Post (p >>= f) Q := by
  intro s y e
  rw [Prog.bind_run] at e
  cases h : p s with
  | mk a s' =>
    rw [h] at e
    cases a with
    | ok a => exact hf a (hp s a (by rw [h])) s' y e
    | throw x => cases e
    | crash => cases e

theorem Post.any (p : Prog σ α) : Post p fun _ => True := fun _ _ _ => trivial

theorem Post.mono {p : Prog σ α} {P Q : α → Prop} (hp : Post p P) (h : ∀ x, P x → Q x) : Post p Q := fun s x e => h x (hp s x e)

theorem Post.throw (e : Exc) (P : α → Prop) : Post (Prog.throw e : Prog σ α) P := by intro s x h; cases h
theorem Post.crash (P : α → Prop) : Post (Prog.crash : Prog σ α) P := by intro s x h; cases h
end

/-! ### expressions -/

/-- A number that is not finite, or not negative. -/
def NN (x : XR) : Prop := ∀ a, x = fin a → 0 ≤ a

/-- a property of the real values -/
def OnR (P : XR → Prop) : (t : Ty) → t.den XR XC → Prop
  | .r, x => P x
  | .c, _ => True

/-- the number, zero if not finite -/
noncomputable def numR : XR → ℝ
  | fin a => a
  | nan => 0

noncomputable def numC (x : XC) : ℂ := ⟨numR x.re, numR x.im⟩

@[simp] theorem numC_ofC (z : ℂ) : numC (ofC z) = z := rfl

/-- value of a term -/
noncomputable def tval (t : Nat × Nat × Rat) (c : Nat → XC) : ℝ := (t.2.2 : ℝ) * (numC (c t.1) * (starRingEnd ℂ) (numC (c t.2.1))).re

section
variable [FPEnv] {σ : Type} {S : Sem XR XC σ} {l : Loc XR XC}

theorem const_sound : ∀ {t : Ty} (e : Exp t) (q : Rat), e.const = some q → Post (e.eval S l) (OnR (· = fin q) t) := by
  intro t e
  induction e using Exp.const.induct with
  | case1 n => intro q h; simp only [Exp.const, Option.some.injEq] at h; subst h; exact Post.pure (by simp [OnR])
  | case2 a b iha ihb =>
    intro q h
    simp only [Exp.const, Option.bind_eq_bind, Option.bind_eq_some_iff, Option.some.injEq] at h
    obtain ⟨x, hx, y, hy, rfl⟩ := h
    exact (iha x hx).bind fun u hu => (ihb y hy).bind fun v hv => Post.pure (by simp only [OnR] at hu hv ⊢; simp [tadd, hu, hv])
  | case3 a b iha ihb =>
    intro q h
    simp only [Exp.const, Option.bind_eq_bind, Option.bind_eq_some_iff, Option.some.injEq] at h
    obtain ⟨x, hx, y, hy, rfl⟩ := h
    exact (iha x hx).bind fun u hu => (ihb y hy).bind fun v hv => Post.pure (by simp only [OnR] at hu hv ⊢; simp [tsub, hu, hv])
  | case4 a b iha ihb =>
    intro q h
    simp only [Exp.const, Option.bind_eq_bind, Option.bind_eq_some_iff, Option.some.injEq] at h
    obtain ⟨x, hx, y, hy, rfl⟩ := h
    exact (iha x hx).bind fun u hu => (ihb y hy).bind fun v hv => Post.pure (by simp only [OnR] at hu hv ⊢; simp [tmul, hu, hv])
  | case5 a b ihb iha =>
    intro q h
    simp only [Exp.const, Option.bind_eq_bind, Option.bind_eq_some_iff] at h
    obtain ⟨y, hy, h⟩ := h
    split_ifs at h with h0
    obtain ⟨x, hx, h⟩ := Option.bind_eq_some_iff.1 h
    cases h
    have h0' : (y : ℝ) ≠ 0 := by exact_mod_cast h0
    exact (iha x hx).bind fun u hu => (ihb y hy).bind fun v hv => Post.pure (by simp only [OnR] at hu hv ⊢; simp [tdiv, hu, hv, XR.fin_div h0'])
  | case6 a iha =>
    intro q h
    simp only [Exp.const, Option.bind_eq_bind, Option.bind_eq_some_iff, Option.some.injEq] at h
    obtain ⟨x, hx, rfl⟩ := h
    exact (iha x hx).bind fun u hu => Post.pure (by simp only [OnR] at hu ⊢; simp [tneg, hu])
  | case7 x t h1 h2 h3 h4 h5 h6 =>
    intro q h
    rw [Exp.const] at h
    · cases h
    all_goals assumption

theorem term_sound : ∀ {t : Ty} (e : Exp t) (u : Nat × Nat × Rat), e.term = some u → Post (e.eval S l) (OnR (fun x => ∀ a, x = fin a → a = tval u l.c) t) := by
  intro t e
  induction e using Exp.term.induct with
  | case1 i =>
    intro u h
    simp only [Exp.term, Option.some.injEq] at h
    subst h
    refine Post.bind (P := (· = Cplx.abs (l.c i))) ?_ ?_
    · exact Post.bind (P := (· = l.c i)) (Post.pure rfl) fun x hx => Post.pure (by rw [hx])
    · intro x hx
      refine Post.pure ?_
      simp only [OnR]
      intro a ha
      rw [hx] at ha
      obtain ⟨b, hb⟩ := pow_fin_inv (k := 1) ha
      obtain ⟨z, hz⟩ := c_abs_fin hb
      rw [hz, c_abs, pow_fin, fin_inj] at ha
      rw [tval, ← ha, hz, numC_ofC, Complex.mul_conj, Complex.ofReal_re, Complex.normSq_eq_norm_sq]
      simp
  | case2 i j =>
    intro u h
    simp only [Exp.term, Option.some.injEq] at h
    subst h
    refine Post.bind (P := (· = l.c i * Cplx.conj (l.c j))) ?_ ?_
    · refine Post.bind (P := (· = l.c i)) (Post.pure rfl) fun x hx => Post.bind (P := (· = Cplx.conj (l.c j))) ?_ fun y hy => Post.pure (by rw [hx, hy]; rfl)
      exact Post.bind (P := (· = l.c j)) (Post.pure rfl) fun x hx => Post.pure (by rw [hx])
    · intro x hx
      refine Post.pure ?_
      simp only [OnR]
      intro a ha
      rw [hx] at ha
      obtain ⟨⟨z, hz⟩, f2⟩ := c_mul_fin_re ha
      obtain ⟨w, hw⟩ := c_conj_fin f2
      rw [hz, hw, c_conj, ofC_mul, c_re, fin_inj] at ha
      rw [tval, ← ha, hz, hw, numC_ofC, numC_ofC]
      simp
  | case3 a b q i j q' hb ha ih =>
    intro u h
    simp only [Exp.term, ha, hb, Option.some.injEq] at h
    subst h
    refine (const_sound a q ha).bind fun x hx => (ih _ hb).bind fun y hy => Post.pure ?_
    simp only [OnR] at hx hy ⊢
    intro c hc
    obtain ⟨_, d, _, hd⟩ := mul_fin hc
    have := hy d hd
    rw [hx, hd] at hc
    simp only [tmul, fin_mul, fin_inj] at hc
    rw [← hc, this]
    simp only [tval]
    push_cast
    ring
  | case4 a b hn ih =>
    intro u h
    exfalso
    rw [Exp.term] at h
    split at h
    · rename_i q i j q' e1 e2; exact hn q i j q' e1 e2
    · cases h
  | case5 x t h1 h2 h3 =>
    intro u h
    rw [Exp.term] at h
    · cases h
    all_goals assumption

/-- The members of the list sum to zero. -/
def TriOk (tri : List Nat) (mr : Nat → XR) : Prop := ∀ a b c, [a, b, c].Perm tri → ∀ x y z, mr a = fin x → mr b = fin y → mr c = fin z → x + y + z = 0

theorem colour_real {x y z : ℝ} (hx : x * y ≠ 0) (hz : x * z ≠ 0) (h : x + y + z = 0) :
    0 ≤ 6 / (x * y) ^ 2 + 6 / (x * z) ^ 2 - 2 / 3 / (y * z) ^ 2 := by
  have x0 : x ≠ 0 := left_ne_zero_of_mul hx
  have y0 : y ≠ 0 := right_ne_zero_of_mul hx
  have z0 : z ≠ 0 := right_ne_zero_of_mul hz
  have e : 6 / (x * y) ^ 2 + 6 / (x * z) ^ 2 - 2 / 3 / (y * z) ^ 2 = (6 * z ^ 2 + 6 * y ^ 2 - 2 / 3 * x ^ 2) / (x * y * z) ^ 2 := by
    field_simp
  rw [e]
  have hx' : x = -(y + z) := by linarith
  have : 0 ≤ 6 * z ^ 2 + 6 * y ^ 2 - 2 / 3 * x ^ 2 := by rw [hx']; nlinarith [sq_nonneg (y - z), sq_nonneg y, sq_nonneg z]
  positivity

/-- Knowledge about the real variables is true. -/
def SatR (E : SEnv) (l : Loc XR XC) : Prop := ∀ n Q, E.get n = some Q → ∀ a, l.r n = fin a → Quad.val Q (fun i => numC (l.c i)) ≤ a

theorem nn_sound {tri : List Nat} {E : SEnv} (ht : TriOk tri S.mr) (hE : SatR E l) :
    ∀ {t : Ty} (e : Exp t), e.nn tri E = true → Post (e.eval S l) (OnR NN t) := by
  intro t e
  induction e using Exp.nn.induct E with
  | case1 n => intro _; exact Post.pure (by simp only [OnR, NN, s_int, fin_inj]; rintro a rfl; positivity)
  | case2 m e => intro _; exact Post.pure (by simp only [OnR, NN, s_dec, fin_inj]; rintro a rfl; positivity)
  | case3 n Q hQ =>
    intro h
    simp only [Exp.nn, hQ] at h
    exact Post.pure fun a ha => (Quad.val_nonneg h _).trans (hE n Q hQ a ha)
  | case4 n hn => intro h; simp [Exp.nn, hn] at h
  | case5 a b iha ihb =>
    intro h
    rw [Exp.nn, Bool.and_eq_true] at h
    refine (iha h.1).bind fun x hx => (ihb h.2).bind fun y hy => Post.pure ?_
    simp only [OnR] at hx hy ⊢
    intro c hc
    obtain ⟨u, v, rfl, rfl⟩ := add_fin hc
    simp only [tadd, fin_add, fin_inj] at hc
    linarith [hx u rfl, hy v rfl]
  | case6 a b iha ihb =>
    intro h
    rw [Exp.nn, Bool.and_eq_true] at h
    refine (iha h.1).bind fun x hx => (ihb h.2).bind fun y hy => Post.pure ?_
    simp only [OnR] at hx hy ⊢
    intro c hc
    obtain ⟨u, v, rfl, rfl⟩ := mul_fin hc
    simp only [tmul, fin_mul, fin_inj] at hc
    rw [← hc]
    exact mul_nonneg (hx u rfl) (hy v rfl)
  | case7 a b iha ihb =>
    intro h
    rw [Exp.nn, Bool.and_eq_true] at h
    refine (iha h.1).bind fun x hx => (ihb h.2).bind fun y hy => Post.pure ?_
    simp only [OnR] at hx hy ⊢
    intro c hc
    obtain ⟨u, v, rfl, rfl, v0⟩ := div_fin hc
    simp only [tdiv, XR.fin_div v0, fin_inj] at hc
    rw [← hc]
    exact div_nonneg (hx u rfl) (hy v rfl)
  | case8 a k =>
    intro h
    rw [Exp.nn, beq_iff_eq] at h
    refine (Post.any _).bind fun x _ => Post.pure ?_
    simp only [OnR]
    intro c hc
    have hk : Even k := Nat.even_iff.2 h
    cases k with
    | zero =>
      rcases x with x | _
      · rw [pow_fin, fin_inj, pow_zero] at hc; rw [← hc]; exact zero_le_one
      · cases hc; exact zero_le_one
    | succ k =>
      obtain ⟨b, hb⟩ := pow_fin_inv hc
      rw [hb, pow_fin, fin_inj] at hc
      rw [← hc]
      exact hk.pow_nonneg b
  | case9 a =>
    intro _
    refine (Post.any _).bind fun x _ => Post.pure ?_
    simp only [OnR]
    intro c hc
    obtain ⟨z, hz⟩ := c_abs_fin hc
    rw [hz, c_abs, fin_inj] at hc
    rw [← hc]
    exact norm_nonneg z
  | case10 a =>
    intro _
    refine (Post.any _).bind fun x _ => Post.pure ?_
    simp only [OnR]
    intro c hc
    obtain ⟨b, rfl, hb⟩ := sqrt_fin hc
    rw [s_sqrt hb, fin_inj] at hc
    rw [← hc]
    exact Real.sqrt_nonneg b
  | case11 x a b c t h1 h2 h3 h4 h5 h6 h7 h8 h9 hc =>
    intro h
    rw [Exp.nn] at h
    · rw [hc] at h
      simp only at h
      rw [List.isPerm_iff] at h
      clear h1 h2 h3 h4 h5 h6 h7 h8 h9
      revert hc
      refine Exp.colour.fun_cases (motive := fun x t => t.colour = some (a, b, c) → Post (t.eval S l) (OnR NN x)) ?_ ?_ ?_ x t
      · rintro a b a' c b' c' ⟨rfl, rfl, rfl⟩ e
        simp only [Exp.colour, and_self, if_true, Option.some.injEq, Prod.mk.injEq] at e
        obtain ⟨rfl, rfl, rfl⟩ := e
        intro s x hx
        simp only [Exp.eval, Sem.mem, Prog.bind_run, Prog.pure_run, Res.ok.injEq] at hx
        subst hx
        simp only [OnR, tmul, tadd, tdiv, tsub, s_int]
        intro y hy
        obtain ⟨y1, y2, e1, e2⟩ := sub_fin hy
        obtain ⟨y3, y4, e3, e4⟩ := add_fin e1
        obtain ⟨_, p1, _, e5, n5⟩ := div_fin e3
        obtain ⟨_, p2, _, e6, n6⟩ := div_fin e4
        obtain ⟨q1, e7⟩ := pow_fin_inv (k := 1) e5
        obtain ⟨q2, e8⟩ := pow_fin_inv (k := 1) e6
        obtain ⟨u, v, hu, hv⟩ := mul_fin e7
        obtain ⟨_, w, _, hw⟩ := mul_fin e8
        rw [hu, hv, fin_mul, pow_fin, fin_inj] at e5
        rw [hu, hw, fin_mul, pow_fin, fin_inj] at e6
        have n1 : u * v ≠ 0 := by rintro h0; rw [h0] at e5; exact n5 (by rw [← e5]; norm_num)
        have n2 : u * w ≠ 0 := by rintro h0; rw [h0] at e6; exact n6 (by rw [← e6]; norm_num)
        have n3 : (v * w) ^ 2 ≠ 0 := pow_ne_zero _ (mul_ne_zero (right_ne_zero_of_mul n1) (right_ne_zero_of_mul n2))
        have := colour_real n1 n2 (ht _ _ _ h u v w hu hv hw)
        rw [hu, hv, hw, fin_mul, fin_mul, fin_mul, pow_fin, pow_fin, pow_fin, XR.fin_div (pow_ne_zero _ n1), XR.fin_div (pow_ne_zero _ n2),
          XR.fin_div (by norm_num), XR.fin_div n3, fin_add, fin_sub, fin_inj] at hy
        rw [← hy]
        simpa using this
      · intro a b a' c b' c' hn e
        simp only [Exp.colour, if_neg hn] at e
        cases e
      · intro x t hn e
        rw [Exp.colour] at e
        · cases e
        all_goals assumption
    all_goals assumption
  | case12 x t h1 h2 h3 h4 h5 h6 h7 h8 h9 hc =>
    intro h
    rw [Exp.nn] at h
    · rw [hc] at h; cases h
    all_goals assumption

/-! ### statements -/

theorem sat_nil (l : Loc XR XC) : SatR [] l := by intro n Q h; simp [SEnv.get] at h

theorem get_map (E : SEnv) (f : Option Quad → Option Quad) (hf : f none = none) (n : Nat) : SEnv.get (E.map f) n = f (E.get n) := by
  simp only [SEnv.get, List.getD_eq_getElem?_getD, List.getElem?_map]
  cases E[n]? <;> simp [hf]

theorem val_nil (z : Nat → ℂ) : Quad.val [] z = 0 := rfl

theorem SatR.close {E : SEnv} (h : SatR E l) : SatR E.close l := by
  intro n Q hQ a ha
  rw [SEnv.close, get_map _ _ rfl] at hQ
  cases e : E.get n with
  | none => rw [e] at hQ; cases hQ
  | some Q' =>
    rw [e] at hQ
    simp only at hQ
    split_ifs at hQ with hp
    cases hQ
    rw [val_nil]
    exact (Quad.val_nonneg hp _).trans (h n Q' e a ha)

theorem meet_get {E F : SEnv} {n : Nat} {Q : Quad} (h : (E.meet F).get n = some Q) :
    Q = [] ∧ ∃ A B, E.get n = some A ∧ F.get n = some B ∧ A.pos = true ∧ B.pos = true := by
  simp only [SEnv.get, List.getD_eq_getElem?_getD, SEnv.meet, List.getElem?_zipWith] at h ⊢
  cases e1 : E[n]? with
  | none => simp [e1] at h
  | some x =>
    cases e2 : F[n]? with
    | none => simp [e1, e2] at h
    | some y =>
      simp only [e1, e2, Option.getD_some] at h ⊢
      split at h
      · rename_i A B
        split_ifs at h with hp
        cases h
        rw [Bool.and_eq_true] at hp
        exact ⟨rfl, A, B, rfl, rfl, hp.1, hp.2⟩
      · cases h

theorem SatR.meet_left {E F : SEnv} (h : SatR E l) : SatR (E.meet F) l := by
  intro n Q hQ a ha
  obtain ⟨rfl, A, B, hA, -, pA, -⟩ := meet_get hQ
  exact (Quad.val_nonneg pA _).trans (h n A hA a ha)

theorem SatR.meet_right {E F : SEnv} (h : SatR F l) : SatR (E.meet F) l := by
  intro n Q hQ a ha
  obtain ⟨rfl, A, B, -, hB, -, pB⟩ := meet_get hQ
  exact (Quad.val_nonneg pB _).trans (h n B hB a ha)

theorem SatR.le {E F : SEnv} (hle : E.le F = true) (h : SatR F l) : SatR E l := by
  intro n Q hQ a ha
  rw [SEnv.le, List.all_eq_true] at hle
  have hn : n < E.length := by
    by_contra hc
    rw [SEnv.get, List.getD_eq_getElem?_getD, List.getElem?_eq_none (not_lt.1 hc)] at hQ
    cases hQ
  have := hle n (List.mem_range.2 hn)
  rw [hQ] at this
  cases Q with
  | cons t Q => simp at this
  | nil =>
    simp only at this
    cases e : F.get n with
    | none => rw [e] at this; cases this
    | some A =>
      rw [e] at this
      exact (Quad.val_nonneg this _).trans (h n A e a ha)

/-- Flow of control with true knowledge, or the result is not negative. -/
def FlowNN (E : SEnv) : Flow XR XC → Prop
  | .next l => SatR E l
  | .ret t x => OnR NN t x

theorem sat_seti {E : SEnv} (h : SatR E l) (n : Nat) (x : Int) : SatR E (l.seti n x) := h

theorem sat_setSpins {E : SEnv} : ∀ (ds : List (Nat × Nat × Nat)) (xs : List (Int × Int)) (l : Loc XR XC), SatR E l → SatR E (setSpins l ds xs)
  | [], _, _, h => by simpa only [setSpins] using h
  | (_, a, b) :: ds, [], _, h => by simpa only [setSpins] using h
  | (_, a, b) :: ds, (x, y) :: xs, l, h => by
    simp only [setSpins]
    exact sat_setSpins ds xs _ h

theorem sat_setr {E : SEnv} (h : SatR E l) {n : Nat} {v : XR} {x : Option Quad}
    (hx : ∀ Q, x = some Q → ∀ a, v = fin a → Quad.val Q (fun i => numC (l.c i)) ≤ a) : SatR (E.set n x) (l.set .r n v) := by
  intro k Q hQ a ha
  rw [SEnv.get, SEnv.set, getD_upd] at hQ
  simp only [Loc.set] at ha ⊢
  split_ifs at hQ with hk
  · rw [if_pos hk] at ha; exact hx Q hQ a ha
  · rw [if_neg hk] at ha; exact h k Q hQ a ha

theorem value_sound {tri : List Nat} {E : SEnv} (ht : TriOk tri S.mr) (h : SatR E l) (n : Nat) (e : Exp .r) :
    Post (e.eval S l) fun v => ∀ Q, E.value tri n e = some Q → ∀ a, v = fin a → Quad.val Q (fun i => numC (l.c i)) ≤ a := by
  have nn : ∀ e : Exp .r, Post (e.eval S l) fun v => ∀ Q, (if e.nn tri E = true then some [] else none) = some Q →
      ∀ a, v = fin a → Quad.val Q (fun i => numC (l.c i)) ≤ a := by
    intro e s v hv Q hQ a ha
    split_ifs at hQ with hn
    cases hQ
    exact nn_sound ht h e hn s v hv a ha
  unfold SEnv.value
  split
  · rename_i k e'
    by_cases hk : k = n
    · simp only [if_pos hk]
      subst hk
      cases hg : E.get k with
      | none => exact (Post.any _).mono fun v _ Q hQ => by cases hQ
      | some Q0 =>
        simp only
        cases htm : e'.term with
        | some t =>
          simp only
          refine Post.bind (P := (· = l.r k)) (Post.pure rfl) fun x hx => (term_sound e' t htm).bind fun y hy => Post.pure ?_
          intro Q hQ a ha
          cases hQ
          obtain ⟨u, v, hu, hv⟩ := add_fin ha
          have e1 := h k Q0 hg u (hx ▸ hu)
          have e2 := hy v hv
          rw [hu, hv] at ha
          simp only [tadd, fin_add, fin_inj] at ha
          unfold Quad.val at e1 ⊢
          rw [List.map_cons, List.sum_cons]
          unfold tval at e2
          linarith
        | none =>
          simp only
          by_cases hn : e'.nn tri E = true
          · rw [if_pos hn]
            refine Post.bind (P := (· = l.r k)) (Post.pure rfl) fun x hx => (nn_sound ht h e' hn).bind fun y hy => Post.pure ?_
            intro Q hQ a ha
            cases hQ
            obtain ⟨u, v, hu, hv⟩ := add_fin ha
            have e1 := h k Q0 hg u (hx ▸ hu)
            have e2 := hy v hv
            rw [hu, hv] at ha
            simp only [tadd, fin_add, fin_inj] at ha
            linarith
          · rw [if_neg hn]
            exact (Post.any _).mono fun v _ Q hQ => by cases hQ
    · simp only [if_neg hk]
      exact nn _
  · exact nn _

theorem sat_kill {E : SEnv} (h : SatR E l) (n : Nat) (v : XC) : SatR (E.kill n) (l.set .c n v) := by
  intro k Q hQ a ha
  rw [SEnv.kill, get_map _ _ rfl] at hQ
  cases e : E.get k with
  | none => rw [e] at hQ; cases hQ
  | some A =>
    rw [e] at hQ
    simp only at hQ
    have hA := h k A e a ha
    split_ifs at hQ with h1 h2
    · cases hQ
      exact (Quad.val_nonneg h2 _).trans hA
    · cases hQ
      have : Quad.val Q (fun i => numC ((l.set .c n v).c i)) = Quad.val Q fun i => numC (l.c i) := by
        unfold Quad.val
        congr 1
        refine List.map_congr_left fun t ht => ?_
        have hne : ¬(t.1 == n || t.2.1 == n) = true := fun hc => h1 (List.any_eq_true.2 ⟨t, ht, hc⟩)
        simp only [Bool.or_eq_true, beq_iff_eq, not_or] at hne
        simp only [Loc.set, if_neg hne.1, if_neg hne.2]
      rw [this]
      exact hA

theorem loop_nn {F : SEnv} {n : Nat} {body : Loc XR XC → Prog σ (Flow XR XC)}
    (hb : ∀ l, SatR F l → Post (body l) (FlowNN F)) : ∀ (xs : List Int) (l : Loc XR XC), SatR F l → Post (loopRun n body xs l) (FlowNN F)
  | [], l, h => Post.pure h
  | x :: xs, l, h => by
    refine (hb (l.seti n x) (sat_seti h n x)).bind fun fl hfl => ?_
    cases fl with
    | next l' => exact loop_nn hb xs l' hfl
    | ret t y => exact Post.pure hfl

theorem FlowNN.mono {E F : SEnv} {fl : Flow XR XC} (h : FlowNN E fl) (hs : ∀ l, SatR E l → SatR F l) : FlowNN F fl := by
  cases fl with
  | next l => exact hs l h
  | ret t x => exact h

theorem sign_sound {tri : List Nat} (ht : TriOk tri S.mr) : ∀ (s : Stmt) (E E' : SEnv) (l : Loc XR XC), s.sign tri E = some E' → SatR E l →
    Post (s.exec S l) (FlowNN E')
  | .skip, E, E', l, h, hE => by cases h; exact Post.pure hE
  | .seq a b, E, E', l, h, hE => by
    rw [Stmt.sign, Option.bind_eq_bind, Option.bind_eq_some_iff] at h
    obtain ⟨F, ha, hb⟩ := h
    refine (sign_sound ht a E F l ha hE).bind fun fl hfl => ?_
    cases fl with
    | next l' => exact sign_sound ht b F E' l' hb hfl
    | ret t x => exact Post.pure hfl
  | .seti n e, E, E', l, h, hE => by cases h; exact Post.pure hE
  | .set .r n e, E, E', l, h, hE => by
    cases h
    exact (value_sound ht hE n e).bind fun v hv => Post.pure (sat_setr hE hv)
  | .set .c n e, E, E', l, h, hE => by
    cases h
    exact (Post.any _).bind fun v _ => Post.pure (sat_kill hE n v)
  | .ite c a b, E, E', l, h, hE => by
    rw [Stmt.sign, Option.bind_eq_bind, Option.bind_eq_some_iff] at h
    obtain ⟨A, hA, h⟩ := h
    rw [Option.bind_eq_some_iff] at h
    obtain ⟨B, hB, h⟩ := h
    cases h
    rw [Stmt.exec]
    split_ifs
    · exact (sign_sound ht a E A l hA hE).mono fun fl hfl => hfl.mono fun _ => SatR.meet_left
    · exact (sign_sound ht b E B l hB hE).mono fun fl hfl => hfl.mono fun _ => SatR.meet_right
  | .loop n lo incl hi step body, E, E', l, h, hE => by
    rw [Stmt.sign] at h
    dsimp only at h
    rw [Option.bind_eq_bind, Option.bind_eq_some_iff] at h
    obtain ⟨F1, h1, h⟩ := h
    split_ifs at h with hle
    · cases h
      exact loop_nn (fun l' hl' => (sign_sound ht body _ F1 l' h1 hl').mono fun fl hfl => hfl.mono fun _ => SatR.le hle) _ l hE.close
    · rw [Option.bind_eq_some_iff] at h
      obtain ⟨G1, h2, h⟩ := h
      split_ifs at h with hle2
      cases h
      exact loop_nn (fun l' hl' => (sign_sound ht body _ G1 l' h2 hl').mono fun fl hfl => hfl.mono fun _ => SatR.le hle2) _ l hE.close.meet_left
  | .spins ds i, E, E', l, h, hE => by cases h; exact Post.pure (sat_setSpins ds _ l hE)
  | .ret .r e, E, E', l, h, hE => by
    rw [Stmt.sign] at h
    split_ifs at h with hn
    exact (nn_sound ht hE e hn).bind fun v hv => Post.pure hv
  | .ret .c e, E, E', l, h, hE => (Post.any _).bind fun v _ => Post.pure (show FlowNN E' (.ret .c v) from trivial)
  | .throw e, E, E', l, h, hE => Post.throw e _

theorem run_nn {tri : List Nat} (ht : TriOk tri S.mr) {m : Method} (h : (m.body.sign tri []).isSome = true) (junk : Loc XR XC) (args : List Int) :
    Post (m.run S junk .r args) NN := by
  obtain ⟨E', hE⟩ := Option.isSome_iff_exists.1 h
  unfold Method.run
  split_ifs
  · refine (sign_sound ht m.body [] E' _ hE (sat_nil _)).bind fun fl hfl => ?_
    cases fl with
    | next l => exact Post.crash _
    | ret t x =>
      cases t with
      | r => exact Post.pure hfl
      | c => exact Post.crash _
  · exact Post.crash _

theorem invoke_nn {tri : List Nat} {mr : Nat → XR} {mc : Nat → XC} {v : Nat → List Int → Prog σ XC} (ht : TriOk tri mr) (junk : Loc XR XC)
    (args : List Int) : ∀ (ms : List Method) (k : Nat), signMethod tri ms k = true → Post (invoke mr mc v junk .r ms k args) NN
  | [], _, _ => Post.crash _
  | m :: ms, k, h => by
    rw [invoke]
    rw [signMethod] at h
    split_ifs at h ⊢
    · exact run_nn ht h junk args
    · exact invoke_nn ht junk args ms k h

/-- **Soundness**: a method that passes the check returns no negative number, in any state of the object. -/
theorem method_nn {P : Proc} {tri : List Nat} {k : Nat} (h : P.nonneg tri k = true) {o : Obj XR XC} (ht : TriOk tri o.r) (junk : Loc XR XC) (args : List Int) :
    ∀ x, (P.method junk .r k args o).1 = .ok x → NN x := by
  intro x hx
  exact invoke_nn ht junk args P.methods k h o.w x hx

theorem triOk_nil (mr : Nat → XR) : TriOk [] mr := by intro a b c h; simp at h

end
end Spinas.SM

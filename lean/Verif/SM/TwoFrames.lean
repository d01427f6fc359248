import Verif.SM.TypingNest
import Verif.Exact.Covariance

/-! The spinor products of a process in two frames, as `Verif.SM.TypingNest` wants them. -/

namespace Spinas.SM
open Spec XR Ops Matrix

section
variable [FPEnv]

theorem kinOf_mats (p : V4 ℝ) (m : ℝ) : (kinOf p m).umatVal = XM (slashUpper p) ∧ (kinOf p m).lmatVal = XM (slashLower p) := by
  have e1 := p.tr_ei
  have e2 := p.tr_ei_conj
  rw [V4.ei_conj] at e2
  unfold V4.ei at e1
  constructor
  · simp only [Kin.umatVal, kinOf, V4.toX, fin_sub, fin_add, fin_neg, s_int, Int.cast_zero, c_cart_zero, c_polar, Complex.ofReal_neg, e1, e2, ofC_neg]
    simp only [XM, slashUpper, Matrix.of_apply, Matrix.cons_val', Matrix.cons_val_zero, Matrix.cons_val_one, Matrix.cons_val_fin_one]
    congr 3 <;> congr 1 <;> push_cast <;> ring
  · simp only [Kin.lmatVal, kinOf, V4.toX, fin_sub, fin_add, fin_neg, s_int, Int.cast_zero, c_cart_zero, c_polar, Complex.ofReal_neg, e1, e2, ofC_neg]
    simp [XM, slashLower]

theorem kins_kinOf (k0 : Kin XR XC) {m : Nat → ℝ} {p : Nat → V4 ℝ} {i : Nat} (h : (p i).mag ≤ (p i).t) :
    kins k0 (fun i => fin (m i)) (fun i => (p i).toX) i = kinOf (p i) (m i) :=
  settle_fin _ _ _ rfl rfl h

/-- Momenta in two frames: `A` is the Lorentz transformation in SL(2,C). -/
structure TwoFrames (A : M2) (m M : Nat → ℝ) (p p' : Nat → V4 ℝ) : Prop where
  det : A.det = 1
  shell : ∀ i, i < 4 → OnShell (p i) (M i)
  pos : ∀ i, i < 4 → 0 ≤ M i
  zero : ∀ i, i < 4 → (m i = 0 ↔ M i = 0)
  act : ∀ i, slashLower (p' i) = A * slashLower (p i) * Aᴴ

/-- The rotations and phases. -/
theorem TwoFrames.turns {A : M2} {m M : Nat → ℝ} {p p' : Nat → V4 ℝ} (h : TwoFrames A m M p p') :
    ∃ Γ : Frames, ∀ i, i < 4 → Turn (p i) (p' i) (m i) A (Γ.U i) (Γ.z i) := by
  have key : ∀ i, ∃ Uz : (Int → Int → ℂ) × ℂ, (∀ k l, (k = 1 ∨ k = -1) → (l = 1 ∨ l = -1) →
      Uz.1 k 1 * (starRingEnd ℂ) (Uz.1 l 1) + Uz.1 k (-1) * (starRingEnd ℂ) (Uz.1 l (-1)) = if k = l then 1 else 0) ∧
      Uz.2 * (starRingEnd ℂ) Uz.2 = 1 ∧ (i < 4 → Turn (p i) (p' i) (m i) A Uz.1 Uz.2) := by
    intro i
    by_cases hi : i < 4
    · obtain ⟨U, z, t⟩ := turn_exists h.det (h.shell i hi) (h.pos i hi) (h.zero i hi) (h.act i)
      exact ⟨(U, z), t.unitary, t.phase, fun _ => t⟩
    · refine ⟨(fun k j => if k = j then 1 else 0, 1), ?_, by simp, fun h => absurd h hi⟩
      rintro k l (rfl | rfl) (rfl | rfl) <;> simp
  choose f hf using key
  exact ⟨⟨fun i => (f i).1, fun i => (f i).2, fun i k l hk hl => (hf i).1 k l hk hl, fun i => (hf i).2.1⟩, fun i hi => (hf i).2.2 hi⟩

omit [FPEnv] in
theorem zw_unit (Γ : Frames) {i : Nat} (hi : i < 4) (x : Int) : Γ.zw (unitW i x) = Γ.z i ^ x := by
  have e : List.range 4 = [0, 1, 2, 3] := rfl
  have : i = 0 ∨ i = 1 ∨ i = 2 ∨ i = 3 := by omega
  rcases this with rfl | rfl | rfl | rfl <;> simp [Frames.zw, unitW, e]

/-- the phase of an end -/
theorem zw_end {A : M2} {m : Nat → ℝ} {p p' : Nat → V4 ℝ} {Γ : Frames} {X : TCtx} {i : Nat} (hi : i < 4)
    (t : Turn (p i) (p' i) (m i) A (Γ.U i) (Γ.z i)) (hX : X.massive i = decide (m i ≠ 0)) (b : Bool) :
    (if b then Γ.z i else (starRingEnd ℂ) (Γ.z i)) = Γ.zw (endW X i b) := by
  unfold endW
  rw [hX]
  by_cases hm : m i = 0
  · have hc : (starRingEnd ℂ) (Γ.z i) = (Γ.z i)⁻¹ := eq_inv_of_mul_eq_one_right (Γ.phase i)
    cases b <;> simp [hm, zw_unit Γ hi, hc]
  · rw [t.massive hm]
    cases b <;> simp [hm, Γ.zw_zero]

/-- A product does not depend on the spin of a massless end. -/
theorem zchain_left {p : Nat → V4 ℝ} {m : Nat → ℝ} {d : SPDef} (h : m d.left = 0) (j j' k : Int) : zchain p m d j k = zchain p m d j' k := by
  unfold zchain zend; rw [if_pos h, if_pos h]
theorem zchain_right {p : Nat → V4 ℝ} {m : Nat → ℝ} {d : SPDef} (h : m d.right = 0) (j k k' : Int) : zchain p m d j k = zchain p m d j k' := by
  unfold zchain zend; rw [if_pos h, if_pos h]
/-- Other integers count as -1. -/
theorem zchain_dep {p : Nat → V4 ℝ} {m : Nat → ℝ} {d : SPDef} {j j' k k' : Int} (hj : j = j') (hk : k = k') : zchain p m d j k = zchain p m d j' k' := by
  rw [hj, hk]

theorem TwoFrames.vtwo {A : M2} {m M : Nat → ℝ} {p p' : Nat → V4 ℝ} (h : TwoFrames A m M p p') (k0 k0' : Kin XR XC) (sp : Nat → Option SPDef)
    (massive : Nat → Bool) (hmass : ∀ i, i < 4 → massive i = decide (m i ≠ 0)) :
    ∃ Γ : Frames, VTwo Γ sp massive (chainTab sp (kins k0 (fun i => fin (m i)) fun i => (p i).toX))
      (chainTab sp (kins k0' (fun i => fin (m i)) fun i => (p' i).toX)) := by
  obtain ⟨Γ, hΓ⟩ := h.turns
  refine ⟨Γ, fun X hsp hmv a d xs T had hT => ?_⟩
  have hok : Sym.okDef d = true := by
    unfold vtype at hT
    dsimp only at hT
    split_ifs at hT with hok
    exact hok
  have hok' := hok
  simp only [Sym.okDef, Bool.and_eq_true, decide_eq_true_eq, List.all_eq_true] at hok'
  obtain ⟨⟨⟨⟨hlu, hru⟩, hl⟩, hr⟩, hmid⟩ := hok'
  have hsh : ∀ i, i < 4 → (p i).mag ≤ (p i).t := fun i hi => (h.shell i hi).mag_le
  have hsh' : ∀ i, i < 4 → (p' i).mag ≤ (p' i).t := fun i hi => ((h.shell i hi).act h.det (h.act i)).mag_le
  have ch : ∀ j k, chain (kins k0 (fun i => fin (m i)) fun i => (p i).toX) d j k = ofC (zchain p m d j k) := fun j k =>
    chain_fin (kins_kinOf k0 (hsh _ hl)) (kins_kinOf k0 (hsh _ hr)) (fun i hi => by rw [kins_kinOf k0 (hsh _ (hmid i hi))]; exact kinOf_mats _ _) j k
  have ch' : ∀ j k, chain (kins k0' (fun i => fin (m i)) fun i => (p' i).toX) d j k = ofC (zchain p' m d j k) := fun j k =>
    chain_fin (kins_kinOf k0' (hsh' _ hl)) (kins_kinOf k0' (hsh' _ hr)) (fun i hi => by rw [kins_kinOf k0' (hsh' _ (hmid i hi))]; exact kinOf_mats _ _) j k
  have act := fun j k => zchain_act (m := m) h.det h.act (U := Γ.U) (z := Γ.z) hlu hru (hΓ _ hl) (hΓ _ hr) j k
  have tl := hΓ _ hl
  have tr := hΓ _ hr
  have hXl : X.massive d.left = decide (m d.left ≠ 0) := by rw [hmv]; exact hmass _ hl
  have hXr : X.massive d.right = decide (m d.right ≠ 0) := by rw [hmv]; exact hmass _ hr
  have hw : ∀ j k, zchain p' m d j k = Γ.zw (addW (endW X d.left d.leftAngle) (endW X d.right (rightAngle d))) *
      (Γ.U d.left 1 j * (Γ.U d.right 1 k * zchain p m d 1 1 + Γ.U d.right (-1) k * zchain p m d 1 (-1)) +
       Γ.U d.left (-1) j * (Γ.U d.right 1 k * zchain p m d (-1) 1 + Γ.U d.right (-1) k * zchain p m d (-1) (-1))) := by
    intro j k
    rw [act, Γ.zw_add, ← zw_end hl tl hXl, ← zw_end hr tr hXr]
    rfl
  unfold vtype at hT
  dsimp only at hT
  rw [if_pos hok] at hT
  generalize addW (endW X d.left d.leftAngle) (endW X d.right (rightAngle d)) = w at hT hw
  split at hT
  · rename_i e1 e2
    cases hT
    have e1 : m d.left = 0 := by rw [hXl] at e1; simpa using e1
    have e2 : m d.right = 0 := by rw [hXr] at e2; simpa using e2
    intro ρ0 _
    refine ⟨fun _ => zchain p m d 1 1, fun _ => zchain p' m d 1 1, ⟨List.nodup_nil, fun _ _ _ => rfl, ?_⟩, fun ρ => ?_⟩
    · funext ρ
      rw [rotAll_nil, hw 1 1, zchain_left e1 (-1) 1 1, zchain_left e1 (-1) 1 (-1), zchain_right e2 1 (-1) 1]
      have a1 := tl.massless e1 1; have a2 := tr.massless e2 1
      linear_combination (Γ.zw w * zchain p m d 1 1 * (Γ.U d.right 1 1 + Γ.U d.right (-1) 1)) * a1 + (Γ.zw w * zchain p m d 1 1) * a2
    · simp [chainTab, had, ch, ch']
  · rename_i n e1 e2
    cases hT
    have e2 : m d.right = 0 := by rw [hXr] at e2; simpa using e2
    intro ρ0 _
    refine ⟨fun ρ => zchain p m d (ρ n) 1, fun ρ => zchain p' m d (ρ n) 1, ⟨by simp [Ops.Sep], fun ρ ρ' e => by simp [e n], ?_⟩, fun ρ => ?_⟩
    · funext ρ
      rw [rotAll_cons, rotAll_nil, rot_app, hw, zchain_right e2 1 (-1) 1, zchain_right e2 (-1) (-1) 1]
      simp only [put_same]
      have a2 := tr.massless e2 1
      linear_combination (Γ.zw w * (Γ.U d.left 1 (ρ n) * zchain p m d 1 1 + Γ.U d.left (-1) (ρ n) * zchain p m d (-1) 1)) * a2
    · simp [chainTab, had, ch, ch', IExp.eval, zchain_right e2 (ρ n) (ρ n) 1]
  · rename_i n e1 e2
    cases hT
    have e1 : m d.left = 0 := by rw [hXl] at e1; simpa using e1
    intro ρ0 _
    refine ⟨fun ρ => zchain p m d 1 (ρ n), fun ρ => zchain p' m d 1 (ρ n), ⟨by simp [Ops.Sep], fun ρ ρ' e => by simp [e n], ?_⟩, fun ρ => ?_⟩
    · funext ρ
      rw [rotAll_cons, rotAll_nil, rot_app, hw, zchain_left e1 (-1) 1 1, zchain_left e1 (-1) 1 (-1)]
      simp only [put_same]
      have a1 := tl.massless e1 1
      linear_combination (Γ.zw w * (Γ.U d.right 1 (ρ n) * zchain p m d 1 1 + Γ.U d.right (-1) (ρ n) * zchain p m d 1 (-1))) * a1
    · simp [chainTab, had, ch, ch', IExp.eval, zchain_left e1 (ρ n) 1 (ρ n)]
  · rename_i n n' e1 e2
    split_ifs at hT with hn
    cases hT
    intro ρ0 _
    refine ⟨fun ρ => zchain p m d (ρ n) (ρ n'), fun ρ => zchain p' m d (ρ n) (ρ n'), ⟨by simp [Ops.Sep, hn], fun ρ ρ' e => ?_, ?_⟩, fun ρ => ?_⟩
    · show zchain p m d (ρ n) (ρ n') = zchain p m d (ρ' n) (ρ' n')
      rw [e n (by simp), e n' (by simp)]
    · funext ρ
      rw [rotAll_cons, rotAll_cons, rotAll_nil, rot_app, hw]
      simp only [rot_app, put_same, put_ne _ _ hn, put_ne _ _ (Ne.symm hn)]
    · simp [chainTab, had, ch, ch', IExp.eval]
  · cases hT

end
end Spinas.SM

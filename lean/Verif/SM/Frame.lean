import Verif.SM.TwoFrames
import Verif.SM.Typed
import Verif.Props.Processes

/-! Squared amplitudes in two frames, in exact arithmetic. -/

namespace Spinas.SM
open Spec Props XR Matrix

/-! ### denominators -/

section
variable [FPEnv]

theorem slashLower_eval (p : Nat → V4 ℝ) (v : VExp) :
    ∃ w : V4 ℝ, v.eval (fun i => (p i).toX) = w.toX ∧ slashLower w = (match v with
      | .add i j => slashLower (p i) + slashLower (p j)
      | .sub i j => slashLower (p i) - slashLower (p j)) := by
  cases v with
  | add i j =>
    refine ⟨⟨(p i).t + (p j).t, (p i).x + (p j).x, (p i).y + (p j).y, (p i).z + (p j).z⟩, by simp [VExp.eval, V4.toX], ?_⟩
    ext a b; fin_cases a <;> fin_cases b <;> simp [slashLower] <;> ring
  | sub i j =>
    refine ⟨⟨(p i).t - (p j).t, (p i).x - (p j).x, (p i).y - (p j).y, (p i).z - (p j).z⟩, by simp [VExp.eval, V4.toX], ?_⟩
    ext a b; fin_cases a <;> fin_cases b <;> simp [slashLower] <;> ring

omit [FPEnv] in
theorem slashLower_det (q : V4 ℝ) : (slashLower q).det = ((q.t * q.t - q.x * q.x - q.y * q.y - q.z * q.z : ℝ) : ℂ) := by
  rw [det_fin_two]
  simp only [slashLower, of_apply, cons_val', cons_val_zero, cons_val_one, cons_val_fin_one, empty_val']
  push_cast
  linear_combination ((q.y : ℂ) ^ 2) * Complex.I_sq

theorem denominator_act {A : M2} (hA : A.det = 1) {p p' : Nat → V4 ℝ} (h : ∀ i, slashLower (p' i) = A * slashLower (p i) * Aᴴ) (v : VExp) (P : Propag XR) :
    (Propag.denominator P (v.eval fun i => (p i).toX) : XC) = Propag.denominator P (v.eval fun i => (p' i).toX) := by
  obtain ⟨w, e, s⟩ := slashLower_eval p v
  obtain ⟨w', e', s'⟩ := slashLower_eval p' v
  have : slashLower w' = A * slashLower w * Aᴴ := by
    rw [s, s']
    cases v <;> simp only [h, Matrix.mul_add, Matrix.add_mul, Matrix.mul_sub, Matrix.sub_mul]
  have hd := congrArg Matrix.det this
  rw [det_mul, det_mul, det_conjTranspose, hA, slashLower_det, slashLower_det] at hd
  simp only [star_one, one_mul, mul_one] at hd
  have hd := Complex.ofReal_injective hd
  rw [e, e']
  unfold Propag.denominator
  simp only [V4.toX, fin_mul, fin_sub]
  rw [hd]

/-! ### one direction -/

theorem calls_members (P : Proc) (xs : List (MCall XR XC)) : ∀ o : Obj XR XC, (runCalls P xs o).r = o.r ∧ (runCalls P xs o).c = o.c := by
  induction xs with
  | nil => intro o; exact ⟨rfl, rfl⟩
  | cons x xs ih => intro o; exact ih _

theorem TwoFrames.flip {A : M2} {m M : Nat → ℝ} {p p' : Nat → V4 ℝ} (h : TwoFrames A m M p p') : TwoFrames A.adjugate m M p' p where
  det := by rw [det_adjugate, h.det]; simp
  shell i hi := (h.shell i hi).act h.det (h.act i)
  pos := h.pos
  zero := h.zero
  act i := by
    rw [h.act]
    have a1 := adj_left h.det
    have a2 : Aᴴ * A.adjugateᴴ = 1 := by rw [← conjTranspose_mul, a1, conjTranspose_one]
    calc _ = 1 * slashLower (p i) * 1 := by rw [Matrix.one_mul, Matrix.mul_one]
      _ = (A.adjugate * A) * slashLower (p i) * (Aᴴ * A.adjugateᴴ) := by rw [a1, a2]
      _ = _ := by simp only [Matrix.mul_assoc]

/-- Objects with the same description, given momenta in two frames. -/
theorem square_frames {P : Proc} {S : Sym} (hc : P.checkAll S = true) {k : Nat} (hk : P.isSquare k = true)
    (hty : tySquare S.gsp (fun i => massiveExp (S.gm i)) P.methods k = true) {par : Nat → XR} {o o' : Obj XR XC} (h : Inv S par o) (h' : Inv S par o')
    {m M : Nat → ℝ} (hm : ∀ i, i < 4 → (o.w.part i).kin.m = fin (m i)) (hnz : MassesNonzero P o) {A : M2} {p p' : Nat → V4 ℝ} (hf : TwoFrames A m M p p')
    (j j' : Kin XR XC) (hq : (P.runSetMomenta j (fun i => (p i).toX) o).1 = .ok ()) (hq' : (P.runSetMomenta j' (fun i => (p' i).toX) o').1 = .ok ())
    (xs xs' : List (MCall XR XC)) (l l' : Loc XR XC) :
    (P.method l .r k [] (runCalls P xs (P.runSetMomenta j (fun i => (p i).toX) o).2)).1 =
      (P.method l' .r k [] (runCalls P xs' (P.runSetMomenta j' (fun i => (p' i).toX) o').2)).1 := by
  obtain ⟨_, h2, h3⟩ := checkAll_parts hc
  let κm : Nat → XR := fun i => fin (m i)
  have hm' : ∀ i, i < 4 → (o'.w.part i).kin.m = κm i := (setMomenta_sound h2 h h' j j' j (fun i => (p i).toX) κm hm).1
  have acc : ∀ i, i < 4 → accepts XC j (κm i) (p i).toX = true := by
    rcases (setMomenta_sound h2 h h j j j (fun i => (p i).toX) κm hm).2 with ⟨_, e, _⟩ | ⟨e, _⟩
    · rw [hq] at e; cases e
    · exact e
  have acc' : ∀ i, i < 4 → accepts XC j (κm i) (p' i).toX = true := by
    rcases (setMomenta_sound h2 h' h' j' j' j (fun i => (p' i).toX) κm hm').2 with ⟨_, e, _⟩ | ⟨e, _⟩
    · rw [hq'] at e; cases e
    · exact e
  obtain ⟨_, _, r, c, u, hr, ha, ha', er, ec⟩ := setMomenta_two h2 h h' j j' j (fun i => (p i).toX) (fun i => (p' i).toX) κm hm
    (fun v Q => denominator_act hf.det hf.act v Q) acc acc'
  have hmv : ∀ i, i < 4 → massiveExp (S.gm i) = decide (m i ≠ 0) := by
    intro i hi
    have hck := List.all_eq_true.mp h3 i (List.mem_range.mpr hi)
    simp only [beq_iff_eq] at hck
    cases hml : P.massless i with
    | false =>
      have := hnz i hi hml
      rw [hm i hi] at this
      rw [hck, hml]
      simpa [Scalar.ne] using this
    | true =>
      rw [hck, hml]
      have hz : S.gm i = some (.lit 0) := by
        rw [hml] at hck
        revert hck
        unfold massiveExp
        split
        · rename_i heq; exact fun _ => heq
        · intro hck; cases hck
      have : (o.w.part i).kin.m = Exp.val0 (C := XC) par (.lit 0) := h.mass i _ hz
      rw [hm i hi] at this
      simp only [Exp.val0, Exp.val, s_int, fin_inj] at this
      simp [this]
  have hs : ∀ q : Nat → V4 XR, MassTest S (kins j κm q) := by
    intro q i hi
    rw [hmv i hi]
    show Scalar.ne (fin (m i)) (int 0) = _
    simp [Scalar.ne]
  have hcm := check_method h2 hr (List.mem_append_left _ (regular_square hk))
  have ha1 := (ha.calls P xs).symm.calls P xs
  have ha1' := (ha'.calls P xs').symm.calls P xs'
  let mr := (P.runSetMomenta j (fun i => (p i).toX) o).2.r
  let mc := (P.runSetMomenta j (fun i => (p i).toX) o).2.c
  obtain ⟨x, e1, e2⟩ := method_pure ha1 hcm (hs _) List.Forall₂.nil l l (mr := mr) (mc := mc)
    (fun n _ => by rw [(calls_members P xs _).1]) (fun n _ => by rw [(calls_members P xs _).2])
  obtain ⟨x', e1', e2'⟩ := method_pure ha1' hcm (hs _) List.Forall₂.nil l' l' (mr := mr) (mc := mc)
    (fun n hn => by rw [(calls_members P xs' _).1]; exact (er n hn).symm) (fun n hn => by rw [(calls_members P xs' _).2]; exact (ec n hn).symm)
  rw [e1, e1']
  congr 1
  obtain ⟨Γ, hV⟩ := hf.vtwo j j S.gsp (fun i => massiveExp (S.gm i)) hmv
  obtain ⟨Γ', hV'⟩ := hf.flip.vtwo j j S.gsp (fun i => massiveExp (S.gm i)) hmv
  obtain ⟨y, y', f1, f2, f3⟩ := square_sound hV mr mc l l' P.methods k hty
  obtain ⟨z, z', g1, g2, g3⟩ := square_sound hV' mr mc l' l P.methods k hty
  rw [e2] at f1; rw [e2'] at f2
  rw [e2'] at g1; rw [e2] at g2
  cases f1; cases f2; cases g1; cases g2
  cases x with
  | fin a => exact (f3 a rfl).symm
  | nan =>
    cases x' with
    | nan => rfl
    | fin a => exact g3 a rfl

end
end Spinas.SM

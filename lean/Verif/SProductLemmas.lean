import Verif.Exact.Spinors
import Verif.Spec.Chains

/-! Auxiliary facts about the sproduct model: what is changed by reading, and the cache invariant. -/

namespace Spinas
open Spec

variable {R C : Type} [Scalar R] [Cplx R C]

theorem Fresh.ext {F P : Particle R C} (h : Fresh F) (x : Ext F P) : Fresh P :=
  ⟨by rw [x.umat_fst, h.umat, x.kin], by rw [x.lmat_fst, h.lmat, x.kin], fun b => by rw [x.helicity_fst, h.hel, x.kin],
    fun b j u => by rw [x.spinor_fst, h.spn, x.kin]⟩

/-- The particles at the addresses in `S` return the values given by the kinematic members `κ`. -/
def PartsOk (S : Nat → Prop) (κ : Nat → Kin R C) (w : World R C) : Prop :=
  ∀ i, S i → Fresh (w.part i) ∧ (w.part i).kin = κ i

/-- Only caches of particles were filled. -/
def WExt (w w' : World R C) : Prop := (∀ i, Ext (w.part i) (w'.part i)) ∧ w'.sp = w.sp

theorem WExt.refl (w : World R C) : WExt w w := ⟨fun _ => .refl _, rfl⟩
theorem WExt.trans {w w' w'' : World R C} (h : WExt w w') (h' : WExt w' w'') : WExt w w'' :=
  ⟨fun i => (h.1 i).trans (h'.1 i), h'.2.trans h.2⟩

theorem PartsOk.ext {S : Nat → Prop} {κ : Nat → Kin R C} {w w' : World R C} (h : PartsOk S κ w)
    (x : ∀ i, Ext (w.part i) (w'.part i)) : PartsOk S κ w' :=
  fun i hi => ⟨(h i hi).1.ext (x i), (x i).kin.trans (h i hi).2⟩

theorem PartsOk.mono {S T : Nat → Prop} {κ : Nat → Kin R C} {w : World R C} (h : PartsOk S κ w) (hT : ∀ i, T i → S i) :
    PartsOk T κ w := fun i hi => h i (hT i hi)

theorem wext_onPart {α : Type} (i : Nat) {f : Prog (Particle R C) α} (hf : ∀ P, Ext P (f P).2) (w : World R C) :
    WExt w (onPart i f w).2 := by
  refine ⟨fun j => ?_, rfl⟩
  simp only [onPart, World.setPart]
  by_cases h : j = i
  · subst h; simpa using hf (w.part j)
  · simpa [h] using Ext.refl (w.part j)

theorem onPart_fst {α : Type} (i : Nat) (f : Prog (Particle R C) α) (w : World R C) : (onPart i f w).1 = (f (w.part i)).1 := rfl

theorem ext_getMass (P : Particle R C) : Ext P (Particle.getMass P).2 := .ghost _ _

theorem slashed_ok {S : Nat → Prop} {κ : Nat → Kin R C} {w : World R C} (h : PartsOk S κ w) {i : Nat} (hi : S i) (lower : Bool) :
    ∃ w', SProd.slashed lower i w = (.ok (slashVal lower (κ i)), w') ∧ WExt w w' := by
  obtain ⟨hf, hk⟩ := h i hi
  unfold SProd.slashed slashVal
  cases lower
  · refine ⟨_, ?_, wext_onPart i ext_umat w⟩
    have : (Particle.umat (w.part i)).1 = .ok (κ i).umatVal := by rw [hf.umat, hk]
    simp [onPart, this]
  · refine ⟨_, ?_, wext_onPart i ext_lmat w⟩
    have : (Particle.lmat (w.part i)).1 = .ok (κ i).lmatVal := by rw [hf.lmat, hk]
    simp [onPart, this]

theorem midLoop_ok {S : Nat → Prop} {κ : Nat → Kin R C} (is : List Nat) :
    ∀ {w : World R C}, PartsOk S κ w → (∀ i ∈ is, S i) → ∀ (lower : Bool) (acc : CMat C),
    ∃ w', SProd.midLoop lower is acc w = (.ok (slashes κ lower is acc), w') ∧ WExt w w' := by
  induction is with
  | nil => intro w _ _ lower acc; exact ⟨w, rfl, .refl w⟩
  | cons i is ih =>
    intro w h hS lower acc
    obtain ⟨w1, h1, x1⟩ := slashed_ok h (hS i (List.mem_cons_self)) lower
    obtain ⟨w2, h2, x2⟩ := ih (h.ext x1.1) (fun j hj => hS j (List.mem_cons_of_mem _ hj)) (!lower) (acc * slashVal lower (κ i))
    refine ⟨w2, ?_, x1.trans x2⟩
    unfold SProd.midLoop
    rw [Prog.bind_ok h1, h2]; rfl

/-- The matrix of the internal momenta. -/
def midMat (κ : Nat → Kin R C) (leftAngle : Bool) : List Nat → Option (CMat C)
  | [] => none
  | i :: is => some (slashes κ (!leftAngle) is (slashVal leftAngle (κ i)))

theorem midProd_ok {S : Nat → Prop} {κ : Nat → Kin R C} {w : World R C} (h : PartsOk S κ w) (leftAngle : Bool) (is : List Nat)
    (hS : ∀ i ∈ is, S i) :
    ∃ w', SProd.midProd leftAngle is w = (.ok (midMat κ leftAngle is), w') ∧ WExt w w' := by
  cases is with
  | nil => exact ⟨w, rfl, .refl w⟩
  | cons i is =>
    obtain ⟨w1, h1, x1⟩ := slashed_ok h (hS i (List.mem_cons_self)) leftAngle
    obtain ⟨w2, h2, x2⟩ := midLoop_ok is (h.ext x1.1) (fun j hj => hS j (List.mem_cons_of_mem _ hj)) (!leftAngle) (slashVal leftAngle (κ i))
    refine ⟨w2, ?_, x1.trans x2⟩
    show (SProd.slashed leftAngle i >>= fun m => SProd.midLoop (!leftAngle) is m >>= fun r => pure (some r)) w = _
    rw [Prog.bind_ok h1, Prog.bind_ok h2]; rfl

/-- The sproduct at address `a` is the product `d`, updated for the kinematics `κ`. -/
structure Synced (a : Nat) (d : SPDef) (κ : Nat → Kin R C) (w : World R C) : Prop where
  parts : PartsOk (uses d) κ w
  desc : (w.sp a).desc = some d
  lm : (w.sp a).leftMassive = massive (κ d.left)
  rm : (w.sp a).rightMassive = massive (κ d.right)
  lu : badLeft κ d = false
  ru : badRight κ d = false
  mat : ∀ m, midMat κ d.leftAngle d.mids = some m → (w.sp a).pMat = m
  prod : ∀ jL jR x, (w.sp a).prod jL jR = some x → x = chain κ d (if jL then 1 else -1) (if jR then 1 else -1)

theorem Synced.of_ext {a : Nat} {d : SPDef} {κ : Nat → Kin R C} {w w' : World R C} (h : Synced a d κ w)
    (x : ∀ i, uses d i → Ext (w.part i) (w'.part i)) (hs : w'.sp a = w.sp a) : Synced a d κ w' :=
  ⟨fun i hi => ⟨(h.parts i hi).1.ext (x i hi), (x i hi).kin.trans (h.parts i hi).2⟩, by rw [hs]; exact h.desc, by rw [hs]; exact h.lm, by rw [hs]; exact h.rm, h.lu, h.ru,
    by rw [hs]; exact h.mat, by rw [hs]; exact h.prod⟩

/-- `update()` in any state of the object. -/
theorem update_spec {a : Nat} {d : SPDef} {κ : Nat → Kin R C} {w : World R C} (hd : (w.sp a).desc = some d)
    (hp : PartsOk (uses d) κ w) :
    (badLeft κ d = true → ∃ w', SProd.update a w = (.throw .lowerLeft, w') ∧ (∀ i, Ext (w.part i) (w'.part i)) ∧
      w'.sp a = { w.sp a with leftMassive := massive (κ d.left), rightMassive := massive (κ d.right) } ∧ (∀ b, b ≠ a → w'.sp b = w.sp b)) ∧
    (badLeft κ d = false → badRight κ d = true → ∃ w', SProd.update a w = (.throw .lowerRight, w') ∧ (∀ i, Ext (w.part i) (w'.part i)) ∧
      w'.sp a = { w.sp a with leftMassive := massive (κ d.left), rightMassive := massive (κ d.right) } ∧ (∀ b, b ≠ a → w'.sp b = w.sp b)) ∧
    (badLeft κ d = false → badRight κ d = false → ∃ w', SProd.update a w = (.ok (), w') ∧ (∀ i, Ext (w.part i) (w'.part i)) ∧
      Synced a d κ w' ∧ (∀ j k, (w'.sp a).prod j k = none) ∧ (∀ b, b ≠ a → w'.sp b = w.sp b)) := by
  let w1 := (onPart d.left Particle.getMass w).2
  let w2 := (onPart d.right Particle.getMass w1).2
  have x1 : WExt w w1 := wext_onPart d.left ext_getMass w
  have x2 : WExt w1 w2 := wext_onPart d.right ext_getMass w1
  have e1 : onPart d.left Particle.getMass w = (.ok (κ d.left).m, w1) := by
    have : (onPart d.left Particle.getMass w).1 = .ok (κ d.left).m := by
      rw [onPart_fst]; simp only [Particle.getMass]; rw [(hp _ (.inl rfl)).2]
    exact Prod.ext this rfl
  have hp1 := hp.ext x1.1
  have e2 : onPart d.right Particle.getMass w1 = (.ok (κ d.right).m, w2) := by
    have : (onPart d.right Particle.getMass w1).1 = .ok (κ d.right).m := by
      rw [onPart_fst]; simp only [Particle.getMass]; rw [(hp1 _ (.inr (.inl rfl))).2]
    exact Prod.ext this rfl
  have hp2 := hp1.ext x2.1
  have hsp : w2.sp = w.sp := x2.2.trans x1.2
  unfold SProd.update
  simp only [hd]
  simp only [Prog.bind, e1, e2]
  have el : (Scalar.ne (κ d.left).m (int 0) : Bool) = massive (κ d.left) := rfl
  have er : (Scalar.ne (κ d.right).m (int 0) : Bool) = massive (κ d.right) := rfl
  rw [el, er]
  have hbl : (!massive (κ d.left) && !d.leftUpper) = badLeft κ d := rfl
  have hbr : (!massive (κ d.right) && !d.rightUpper) = badRight κ d := rfl
  rw [hbl, hbr]
  have x12 := x1.trans x2
  refine ⟨fun hl => ?_, fun hl hr => ?_, fun hl hr => ?_⟩
  · rw [if_pos hl]
    exact ⟨_, rfl, x12.1, by simp [World.setSp], fun b hb => by simp [World.setSp, hb, hsp]⟩
  · rw [if_neg (by simp [hl]), if_pos hr]
    exact ⟨_, rfl, x12.1, by simp [World.setSp], fun b hb => by simp [World.setSp, hb, hsp]⟩
  · rw [if_neg (by simp [hl]), if_neg (by simp [hr])]
    let s2 : SProd C := { desc := some d, leftMassive := massive (κ d.left), rightMassive := massive (κ d.right), pMat := (w.sp a).pMat, prod := fun _ _ => none }
    have hs2 : s2 = { desc := some d, leftMassive := massive (κ d.left), rightMassive := massive (κ d.right), pMat := (w.sp a).pMat, prod := fun _ _ => none } := rfl
    have hp3 : PartsOk (uses d) κ (w2.setSp a s2) := hp2
    obtain ⟨w3, h3, x3⟩ := midProd_ok hp3 d.leftAngle d.mids (fun i hi => .inr (.inr hi))
    rw [show SProd.midProd d.leftAngle d.mids (w2.setSp a { desc := some d, leftMassive := massive (κ d.left), rightMassive := massive (κ d.right), pMat := (w.sp a).pMat, prod := fun _ _ => none }) = _ from h3]
    have hw3a : w3.sp a = s2 := by rw [x3.2]; simp [World.setSp]
    have hw3b : ∀ b, b ≠ a → w3.sp b = w.sp b := by intro b hb; rw [x3.2]; simp [World.setSp, hb, hsp]
    have xall : ∀ i, Ext (w.part i) (w3.part i) := fun i => (x12.1 i).trans (x3.1 i)
    cases hm : midMat κ d.leftAngle d.mids with
    | none =>
      refine ⟨w3, rfl, xall, ?_, by intro j k; rw [hw3a], hw3b⟩
      refine ⟨hp.ext xall, by rw [hw3a], by rw [hw3a], by rw [hw3a], hl, hr, ?_, ?_⟩
      · intro m hm'; rw [hm] at hm'; cases hm'
      · intro j k x hx; rw [hw3a] at hx; cases hx
    | some m =>
      refine ⟨_, rfl, xall, ?_, by intro j k; simp [World.setSp, hs2], fun b hb => by simp [World.setSp, hb, hw3b b hb]⟩
      refine ⟨hp.ext xall, by simp [World.setSp, hs2, hd], by simp [World.setSp, s2], by simp [World.setSp, s2], hl, hr, ?_, ?_⟩
      · intro m' hm'; rw [hm] at hm'; cases hm'; simp [World.setSp]
      · intro j k x hx; simp [World.setSp, hs2] at hx

theorem throughMids_eq {κ : Nat → Kin R C} {d : SPDef} {pMat : CMat C} (h : ∀ m, midMat κ d.leftAngle d.mids = some m → pMat = m)
    (v : CVec C) : SProd.throughMids d pMat v = through κ d.leftAngle d.mids v := by
  unfold SProd.throughMids through
  cases hm : d.mids with
  | nil => simp
  | cons i is => rw [hm] at h; rw [h _ rfl]; simp

theorem leftKind_eq (d : SPDef) : SProd.leftKind d = kindL d.leftAngle := rfl
theorem rightKind_eq (d : SPDef) : SProd.rightKind d = kindR d.leftAngle d.mids.length := by
  unfold SProd.rightKind kindR
  cases d.leftAngle <;> by_cases h : d.mids.length % 2 = 0 <;> simp [h]

/-- the reading program that yields an end spinor -/
theorem end_massive {P : Particle R C} {k : Kin R C} (hf : Fresh P) (hk : P.kin = k) (hm : massive k = true) (b : Br) (u : Bool) {j : Int}
    (hj : IsSpin j) : (Particle.spinor b j u P).1 = .ok (endVec k b u j) := by
  have he : (Scalar.eq k.m (int 0) : Bool) = false := by simpa [massive, Scalar.ne] using hm
  rw [hf.spn, hk, he, endVec, if_pos hm]
  rcases hj with rfl | rfl <;> simp

theorem end_massless {P : Particle R C} {k : Kin R C} (hf : Fresh P) (hk : P.kin = k) (hm : massive k = false) (b : Br) (u : Bool) (j : Int) :
    (Particle.helicity b P).1 = .ok (endVec k b u j) := by
  have he : (Scalar.ne k.m (int 0) : Bool) = false := hm
  rw [hf.hel, hk, he, endVec, hm]; rfl

theorem evalEntry_ok {a : Nat} {d : SPDef} {κ : Nat → Kin R C} {w : World R C} (h : Synced a d κ w) {jL jR : Bool} {sL sR : Int}
    {lft rgt : Prog (Particle R C) (CVec C)} (xl : ∀ P, Ext P (lft P).2) (xr : ∀ P, Ext P (rgt P).2)
    (hl : ∀ P : Particle R C, Fresh P → P.kin = κ d.left → (lft P).1 = .ok (endVec (κ d.left) (kindL d.leftAngle) d.leftUpper sL))
    (hr : ∀ P : Particle R C, Fresh P → P.kin = κ d.right → (rgt P).1 = .ok (endVec (κ d.right) (kindR d.leftAngle d.mids.length) d.rightUpper sR))
    (hchain : chain κ d sL sR = chain κ d (if jL then 1 else -1) (if jR then 1 else -1)) :
    ∃ w', SProd.evalEntry a d (w.sp a).pMat jL jR lft rgt w = (.ok (chain κ d sL sR), w') ∧
      (∀ i, Ext (w.part i) (w'.part i)) ∧ Synced a d κ w' ∧ (∀ b, b ≠ a → w'.sp b = w.sp b) := by
  let w1 := (onPart d.left lft w).2
  let w2 := (onPart d.right rgt w1).2
  have x1 : WExt w w1 := wext_onPart d.left xl w
  have x2 : WExt w1 w2 := wext_onPart d.right xr w1
  have p0 := h.parts _ (.inl rfl)
  have e1 : onPart d.left lft w = (.ok (endVec (κ d.left) (kindL d.leftAngle) d.leftUpper sL), w1) :=
    Prod.ext (hl _ p0.1 p0.2) rfl
  have p1 := (h.parts.ext x1.1) _ (.inr (.inl rfl))
  have e2 : onPart d.right rgt w1 = (.ok (endVec (κ d.right) (kindR d.leftAngle d.mids.length) d.rightUpper sR), w2) :=
    Prod.ext (hr _ p1.1 p1.2) rfl
  have hsp : w2.sp = w.sp := x2.2.trans x1.2
  have x12 := x1.trans x2
  unfold SProd.evalEntry
  rw [Prog.bind_ok e1]
  dsimp only
  rw [Prog.bind_ok e2, throughMids_eq h.mat]
  rw [Prog.bind_ok (Prog.modify_run _ _), Prog.pure_run]
  refine ⟨_, rfl, x12.1, ?_, fun b hb => by simp [World.setSp, hb, hsp]⟩
  refine ⟨h.parts.ext x12.1, by simp [World.setSp, hsp, h.desc], by simp [World.setSp, hsp, h.lm], by simp [World.setSp, hsp, h.rm],
    h.lu, h.ru, by simpa [World.setSp, hsp] using h.mat, ?_⟩
  intro j k x hx
  simp only [World.setSp, if_true, hsp] at hx
  split_ifs at hx with hc
  · obtain ⟨rfl, rfl⟩ := hc
    injection hx with hx
    rw [← hx, ← hchain]; rfl
  · exact h.prod j k x hx

/-- The result of a `v` call on an updated product. -/
theorem v_spec {a : Nat} {d : SPDef} {κ : Nat → Kin R C} {w : World R C} (h : Synced a d κ w) (c : VCall) (hc : c.Valid) :
    ∃ w', c.run a w = (outcome κ d c, w') ∧ (∀ i, Ext (w.part i) (w'.part i)) ∧ Synced a d κ w' ∧ (∀ b, b ≠ a → w'.sp b = w.sp b) := by
  have irr : ∀ (i : Nat) (b : Br) (u : Bool) (j k : Int), massive (κ i) = false → endVec (κ i) b u j = endVec (κ i) b u k := by
    intro i b u j k hm; simp [endVec, hm]
  have dec : ∀ j : Int, IsSpin j → (if decide (j > 0) then (1 : Int) else -1) = j := by
    intro j hj; rcases hj with rfl | rfl <;> decide
  cases c with
  | v0 =>
    simp only [VCall.run, SProd.v0, outcome, h.lm, h.rm, h.desc]
    cases hl : massive (κ d.left) <;> cases hr : massive (κ d.right)
    case false.false =>
      simp only [Bool.or_false]
      have hch : chain κ d 1 1 = chain κ d (if (false : Bool) then 1 else -1) (if (false : Bool) then 1 else -1) := by
        unfold chain; rw [irr d.left _ _ 1 (if (false : Bool) then 1 else -1) hl, irr d.right _ _ 1 (if (false : Bool) then 1 else -1) hr]
      cases hpr : (w.sp a).prod false false with
      | some x => exact ⟨w, by simp [h.prod _ _ _ hpr, hch], fun _ => .refl _, h, fun _ _ => rfl⟩
      | none =>
        obtain ⟨w', h1, h2⟩ := evalEntry_ok h (ext_helicity _) (ext_helicity _)
          (fun P hf hk => end_massless hf hk hl _ d.leftUpper 1) (fun P hf hk => end_massless hf hk hr _ d.rightUpper 1) hch
        rw [← leftKind_eq, ← rightKind_eq] at h1
        exact ⟨w', by simpa using h1, h2⟩
    all_goals exact ⟨w, by simp, fun _ => .refl _, h, fun _ _ => rfl⟩
  | v1 j =>
    have hj : IsSpin j := hc
    simp only [VCall.run, SProd.v1, outcome, h.lm, h.rm, h.desc]
    cases hl : massive (κ d.left) <;> cases hr : massive (κ d.right)
    case false.false => exact ⟨w, by simp, fun _ => .refl _, h, fun _ _ => rfl⟩
    case true.true => exact ⟨w, by simp, fun _ => .refl _, h, fun _ _ => rfl⟩
    case false.true =>
      have hch : chain κ d j j = chain κ d (if (false : Bool) then 1 else -1) (if decide (j > 0) then 1 else -1) := by
        unfold chain; rw [irr d.left _ _ j (if (false : Bool) then 1 else -1) hl, dec j hj]
      cases hpr : (w.sp a).prod false (decide (j > 0)) with
      | some x => exact ⟨w, by simp [h.prod _ _ _ hpr, hch], fun _ => .refl _, h, fun _ _ => rfl⟩
      | none =>
        obtain ⟨w', h1, h2⟩ := evalEntry_ok h (ext_helicity _) (ext_spinor _ j _)
          (fun P hf hk => end_massless hf hk hl _ d.leftUpper j) (fun P hf hk => end_massive hf hk hr _ d.rightUpper hj) hch
        rw [← leftKind_eq, ← rightKind_eq] at h1
        exact ⟨w', by simpa using h1, h2⟩
    case true.false =>
      have hch : chain κ d j j = chain κ d (if decide (j > 0) then 1 else -1) (if (false : Bool) then 1 else -1) := by
        unfold chain; rw [irr d.right _ _ j (if (false : Bool) then 1 else -1) hr, dec j hj]
      cases hpr : (w.sp a).prod (decide (j > 0)) false with
      | some x => exact ⟨w, by simp [h.prod _ _ _ hpr, hch], fun _ => .refl _, h, fun _ _ => rfl⟩
      | none =>
        obtain ⟨w', h1, h2⟩ := evalEntry_ok h (ext_spinor _ j _) (ext_helicity _)
          (fun P hf hk => end_massive hf hk hl _ d.leftUpper hj) (fun P hf hk => end_massless hf hk hr _ d.rightUpper j) hch
        rw [← leftKind_eq, ← rightKind_eq] at h1
        exact ⟨w', by simpa using h1, h2⟩
  | v2 j k =>
    obtain ⟨hj, hk⟩ : IsSpin j ∧ IsSpin k := hc
    simp only [VCall.run, SProd.v2, outcome, h.lm, h.rm, h.desc]
    cases hl : massive (κ d.left) <;> cases hr : massive (κ d.right)
    case true.true =>
      have hch : chain κ d j k = chain κ d (if decide (j > 0) then 1 else -1) (if decide (k > 0) then 1 else -1) := by
        rw [dec j hj, dec k hk]
      cases hpr : (w.sp a).prod (decide (j > 0)) (decide (k > 0)) with
      | some x => exact ⟨w, by simp [h.prod _ _ _ hpr, hch], fun _ => .refl _, h, fun _ _ => rfl⟩
      | none =>
        obtain ⟨w', h1, h2⟩ := evalEntry_ok h (ext_spinor _ j _) (ext_spinor _ k _)
          (fun P hf hk => end_massive hf hk hl _ d.leftUpper hj) (fun P hf hk' => end_massive hf hk' hr _ d.rightUpper hk) hch
        rw [← leftKind_eq, ← rightKind_eq] at h1
        exact ⟨w', by simpa using h1, h2⟩
    all_goals exact ⟨w, by simp, fun _ => .refl _, h, fun _ _ => rfl⟩

/-! ### what a call can change -/

/-- The call only fills particle caches and changes no sproduct other than the one at address `a`. -/
def Frame {α : Type} (a : Nat) (f : Prog (World R C) α) : Prop :=
  ∀ w, (∀ i, Ext (w.part i) ((f w).2.part i)) ∧ ∀ b, b ≠ a → (f w).2.sp b = w.sp b

theorem frame_onPart {α : Type} (a i : Nat) {f : Prog (Particle R C) α} (hf : ∀ P, Ext P (f P).2) : Frame a (onPart i f) := fun w =>
  ⟨(wext_onPart i hf w).1, fun _ _ => rfl⟩

theorem frame_bind {α β : Type} {a : Nat} {x : Prog (World R C) α} {f : α → Prog (World R C) β} (hx : Frame a x) (hf : ∀ r, Frame a (f r)) :
    Frame a (Prog.bind x f) := by
  intro w
  unfold Prog.bind
  have h1 := hx w
  cases h : x w with
  | mk r w' =>
    rw [h] at h1
    cases r with
    | ok r => exact ⟨fun i => (h1.1 i).trans ((hf r w').1 i), fun b hb => ((hf r w').2 b hb).trans (h1.2 b hb)⟩
    | throw e => exact h1
    | crash => exact h1

theorem frame_pure {α : Type} (a : Nat) (x : α) : Frame a (Pure.pure x : Prog (World R C) α) := fun _ => ⟨fun _ => .refl _, fun _ _ => rfl⟩

theorem frame_setSp {α : Type} (a : Nat) (s : World R C → SProd C) (r : Res α) : Frame (R := R) a (fun w => (r, w.setSp a (s w))) :=
  fun w => ⟨fun _ => .refl _, fun b hb => by simp [World.setSp, hb]⟩

theorem frame_id {α : Type} (a : Nat) (r : Res α) : Frame (R := R) (C := C) a (fun w => (r, w)) :=
  fun _ => ⟨fun _ => .refl _, fun _ _ => rfl⟩

theorem frame_ite {α : Type} {a : Nat} {c : World R C → Bool} {f g : Prog (World R C) α} (hf : Frame a f) (hg : Frame a g) :
    Frame a (fun w => if c w then f w else g w) := by
  intro w; dsimp only; split
  · exact hf w
  · exact hg w

theorem frame_slashed (a : Nat) (lower : Bool) (i : Nat) : Frame (R := R) (C := C) a (SProd.slashed lower i) := by
  unfold SProd.slashed; split
  · exact frame_onPart a i ext_lmat
  · exact frame_onPart a i ext_umat

theorem frame_midLoop (a : Nat) (is : List Nat) : ∀ (lower : Bool) (acc : CMat C), Frame (R := R) a (SProd.midLoop lower is acc) := by
  induction is with
  | nil => intro l acc; exact frame_pure a acc
  | cons i is ih => intro l acc; exact frame_bind (frame_slashed a l i) fun m => ih _ _

theorem frame_midProd (a : Nat) (l : Bool) (is : List Nat) : Frame (R := R) (C := C) a (SProd.midProd l is) := by
  cases is with
  | nil => exact frame_pure a none
  | cons i is => exact frame_bind (frame_slashed a l i) fun m => frame_bind (frame_midLoop a is _ m) fun r => frame_pure a _

theorem frame_update (a : Nat) : Frame (R := R) (C := C) a (SProd.update a) := by
  intro w
  simp only [SProd.update]
  split
  · exact ⟨fun _ => .refl _, fun _ _ => rfl⟩
  · rename_i d hd
    refine frame_bind (frame_onPart a d.left ext_getMass) (fun mL => ?_) w
    refine frame_bind (frame_onPart a d.right ext_getMass) (fun mR => ?_)
    intro w'
    dsimp only
    split
    · exact frame_setSp a (fun _ => _) _ w'
    · split
      · exact frame_setSp a (fun _ => _) _ w'
      · generalize hs : (SProd.mk _ _ _ _ (fun _ _ => none) : SProd C) = s2
        have h2 : Frame (R := R) a (Prog.bind (SProd.midProd d.leftAngle d.mids) (fun m => fun w' =>
          match m with
          | none => (.ok (), w')
          | some m => (.ok (), w'.setSp a { s2 with pMat := m }))) := by
          refine frame_bind (frame_midProd a _ _) fun m => ?_
          cases m with
          | none => exact frame_id a _
          | some m => exact frame_setSp a (fun _ => _) _
        have h3 := h2 (w'.setSp a s2)
        have h4 := frame_setSp (R := R) (α := Unit) a (fun _ => s2) (.ok ()) w'
        subst hs
        exact ⟨fun i => (h4.1 i).trans (h3.1 i), fun b hb => (h3.2 b hb).trans (h4.2 b hb)⟩

theorem frame_construct (a : Nat) (d : SPDef) : Frame (R := R) (C := C) a (SProd.construct a d) := by
  intro w
  unfold SProd.construct
  have h1 := frame_update (R := R) a (w.setSp a (SProd.raw d))
  have h2 : ∀ b, b ≠ a → (w.setSp a (SProd.raw d)).sp b = w.sp b := fun b hb => by simp [World.setSp, hb]
  cases h : SProd.update a (w.setSp a (SProd.raw d)) with
  | mk r w' =>
    rw [h] at h1
    cases r with
    | ok u => exact ⟨h1.1, fun b hb => (h1.2 b hb).trans (h2 b hb)⟩
    | throw e => exact ⟨h1.1, fun b hb => by simp only [World.setSp, if_neg hb]; exact (h1.2 b hb).trans (h2 b hb)⟩
    | crash => exact ⟨h1.1, fun b hb => by simp only [World.setSp, if_neg hb]; exact (h1.2 b hb).trans (h2 b hb)⟩

theorem frame_evalEntry (a : Nat) (d : SPDef) (m : CMat C) (jL jR : Bool) {lft rgt : Prog (Particle R C) (CVec C)}
    (xl : ∀ P, Ext P (lft P).2) (xr : ∀ P, Ext P (rgt P).2) : Frame a (SProd.evalEntry a d m jL jR lft rgt) :=
  frame_bind (frame_onPart a d.left xl) fun _ => frame_bind (frame_onPart a d.right xr) fun _ =>
    frame_bind (frame_setSp a _ _) fun _ => frame_pure a _

theorem frame_v (a : Nat) (c : VCall) : Frame (R := R) (C := C) a (c.run a) := by
  intro w
  cases c with
  | v0 =>
    simp only [VCall.run, SProd.v0]
    split
    · exact frame_id a _ w
    · split
      · exact frame_id a _ w
      · exact frame_id a _ w
      · exact frame_evalEntry a _ _ _ _ (ext_helicity _) (ext_helicity _) w
  | v1 j =>
    simp only [VCall.run, SProd.v1]
    split
    · split
      · exact frame_id a _ w
      · split
        · exact frame_id a _ w
        · exact frame_id a _ w
        · exact frame_evalEntry a _ _ _ _ (ext_spinor _ _ _) (ext_helicity _) w
    · split
      · split
        · exact frame_id a _ w
        · exact frame_id a _ w
        · exact frame_evalEntry a _ _ _ _ (ext_helicity _) (ext_spinor _ _ _) w
      · exact frame_id a _ w
  | v2 j k =>
    simp only [VCall.run, SProd.v2]
    split
    · exact frame_id a _ w
    · split
      · exact frame_id a _ w
      · exact frame_id a _ w
      · exact frame_evalEntry a _ _ _ _ (ext_spinor _ _ _) (ext_spinor _ _ _) w

end Spinas

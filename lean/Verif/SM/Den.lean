import Verif.SM.Typing
import Verif.Exact.Ops
import Verif.Exact.Finite
import Verif.Props.SpinLoops

/-! What the types of `Verif.SM.Typing` say about the values in two frames, in exact arithmetic. -/

namespace Spinas.SM
open XR Ops Spec

/-- Two frames: rotations of the spins of massive particles, phases of the massless ones. -/
structure Frames where
  U : Nat → Int → Int → ℂ
  z : Nat → ℂ
  unitary : Unitary U
  phase : ∀ i, z i * (starRingEnd ℂ) (z i) = 1

theorem Frames.z_ne (Γ : Frames) (i : Nat) : Γ.z i ≠ 0 := by
  intro h
  have := Γ.phase i
  rw [h, zero_mul] at this
  exact zero_ne_one this

/-- the phase of a value of weights `w` -/
noncomputable def Frames.zw (Γ : Frames) (w : List Int) : ℂ := ((List.range 4).map fun i => Γ.z i ^ w.getD i 0).prod

theorem Frames.zw_add (Γ : Frames) (w w' : List Int) : Γ.zw (addW w w') = Γ.zw w * Γ.zw w' := by
  have h := fun i => zpow_add₀ (Γ.z_ne i)
  have e : List.range 4 = [0, 1, 2, 3] := rfl
  simp only [Frames.zw, addW, e, List.map_cons, List.map_nil, List.prod_cons, List.prod_nil, List.getD_cons_zero, List.getD_cons_succ, h]
  ring

theorem Frames.zw_zero (Γ : Frames) : Γ.zw w0 = 1 := by
  have e : List.range 4 = [0, 1, 2, 3] := rfl
  simp [Frames.zw, w0, e]

theorem Frames.zw_conj (Γ : Frames) (w : List Int) : Γ.zw w * (starRingEnd ℂ) (Γ.zw w) = 1 := by
  have e : List.range 4 = [0, 1, 2, 3] := rfl
  have h : ∀ i (k : ℤ), Γ.z i ^ k * (starRingEnd ℂ) (Γ.z i ^ k) = 1 := by
    intro i k
    rw [map_zpow₀, ← mul_zpow, Γ.phase, one_zpow]
  simp only [Frames.zw, e, List.map_cons, List.map_nil, List.prod_cons, List.prod_nil, map_mul, map_one]
  have h0 := h 0 (w.getD 0 0); have h1 := h 1 (w.getD 1 0); have h2 := h 2 (w.getD 2 0); have h3 := h 3 (w.getD 3 0)
  calc _ = (Γ.z 0 ^ w.getD 0 0 * (starRingEnd ℂ) (Γ.z 0 ^ w.getD 0 0)) * (Γ.z 1 ^ w.getD 1 0 * (starRingEnd ℂ) (Γ.z 1 ^ w.getD 1 0)) *
      (Γ.z 2 ^ w.getD 2 0 * (starRingEnd ℂ) (Γ.z 2 ^ w.getD 2 0)) * (Γ.z 3 ^ w.getD 3 0 * (starRingEnd ℂ) (Γ.z 3 ^ w.getD 3 0)) := by ring
    _ = 1 := by rw [h0, h1, h2, h3]; norm_num

/-- the normalisation factor for the spins `ns` -/
noncomputable def nrm (ns : List Nat) (ρ : Asg) : ℝ := (Real.sqrt 2)⁻¹ ^ zeros (ns.map ρ)

/-- sum over the values of one spin -/
def sumOver (x : Nat × List Int) : Lin := x.2.map fun v => (fun _ => 1, fun ρ => put ρ x.1 v)

/-- the spins summed over -/
def loopsOf (X : TCtx) : List (Nat × List Int) := X.ferm.map (fun n => (n, fermVals)) ++ X.vec.map fun n => (n, vecVals)

/-- sums over the spinor spins of vector particles -/
noncomputable def mixAll (ds : List (Nat × Nat × Nat)) : List Lin := ds.map fun d => (Ext.vec d.1 d.2.1 d.2.2 0).mix

/-- finite value -/
def IsFin : (t : Ty) → t.den XR XC → Prop
  | .r, x => ∃ a, x = fin a
  | .c, x => XC.Fin x

/-- `G` depends on the spin variables of `T`, and becomes `G'` in the other frame. -/
structure Cov (Γ : Frames) (T : CType) (G G' : Asg → ℂ) : Prop where
  sep : Sep T.X
  dep : DepOn (T.X.map Prod.fst) G
  eq : G' = fun ρ => Γ.zw T.w * rotAll Γ.U T.X G ρ

/-- The value depends on the spins through the normalisation factor only, in both frames. -/
def Via {α : Type} (ns : List Nat) (D D' : Asg → α) : Prop := ∃ f f' : ℝ → α, (∀ ρ, D ρ = f (nrm ns ρ)) ∧ ∀ ρ, D' ρ = f' (nrm ns ρ)

theorem Via.map {α β : Type} {ns : List Nat} {D D' : Asg → α} (h : Via ns D D') (g : α → β) : Via ns (fun ρ => g (D ρ)) (fun ρ => g (D' ρ)) := by
  obtain ⟨f, f', h1, h2⟩ := h
  exact ⟨fun x => g (f x), fun x => g (f' x), fun ρ => by simp only [h1], fun ρ => by simp only [h2]⟩

theorem Via.map2 {α β γ : Type} {ns : List Nat} {D D' : Asg → α} {E E' : Asg → β} (h : Via ns D D') (k : Via ns E E') (g : α → β → γ) :
    Via ns (fun ρ => g (D ρ) (E ρ)) (fun ρ => g (D' ρ) (E' ρ)) := by
  obtain ⟨f, f', h1, h2⟩ := h
  obtain ⟨e, e', k1, k2⟩ := k
  exact ⟨fun x => g (f x) (e x), fun x => g (f' x) (e' x), fun ρ => by simp only [h1, k1], fun ρ => by simp only [h2, k2]⟩

/-- What a type says about the value, as a function of the spin variables, in the two frames.  Everything is conditional on the
value in the first frame being finite somewhere. -/
def Den (Γ : Frames) (X : TCtx) : (t : Ty) → VTy → (Asg → t.den XR XC) → (Asg → t.den XR XC) → Prop
  | .r, .zero, D, D' => Via X.ns D D' ∧ ∀ ρ0, IsFin .r (D ρ0) → ∀ ρ, D ρ = fin 0 ∧ D' ρ = fin 0
  | .c, .zero, D, D' => Via X.ns D D' ∧ ∀ ρ0, IsFin .c (D ρ0) → ∀ ρ, D ρ = ofC 0 ∧ D' ρ = ofC 0
  | .r, .scal d, D, D' => Via X.ns D D' ∧
      ∀ ρ0, IsFin .r (D ρ0) → ∃ c : ℝ, ∀ ρ, D ρ = fin (nrm X.ns ρ ^ d * c) ∧ D' ρ = fin (nrm X.ns ρ ^ d * c)
  | .c, .scal d, D, D' => Via X.ns D D' ∧
      ∀ ρ0, IsFin .c (D ρ0) → ∃ c : ℂ, ∀ ρ, D ρ = ofC ((nrm X.ns ρ : ℂ) ^ d * c) ∧ D' ρ = ofC ((nrm X.ns ρ : ℂ) ^ d * c)
  | .c, .lin T, D, D' => ∀ ρ0, IsFin .c (D ρ0) → ∃ G G', Cov Γ T G G' ∧ ∀ ρ, D ρ = ofC ((nrm X.ns ρ : ℂ) ^ T.deg * G ρ) ∧ D' ρ = ofC ((nrm X.ns ρ : ℂ) ^ T.deg * G' ρ)
  | .c, .amp ds T, D, D' => ∀ ρ0, IsFin .c (D ρ0) → ∃ G G', Cov Γ T G G' ∧ ∀ ρ, D ρ = ofC (appAll (mixAll ds) G ρ) ∧ D' ρ = ofC (appAll (mixAll ds) G' ρ)
  | .c, .camp ds T, D, D' => ∀ ρ0, IsFin .c (D ρ0) → ∃ G G', Cov Γ T G G' ∧
      ∀ ρ, D ρ = ofC ((starRingEnd ℂ) (appAll (mixAll ds) G ρ)) ∧ D' ρ = ofC ((starRingEnd ℂ) (appAll (mixAll ds) G' ρ))
  | .r, .aamp ds T, D, D' => ∀ ρ0, IsFin .r (D ρ0) → ∃ G G', Cov Γ T G G' ∧ ∀ ρ, D ρ = fin ‖appAll (mixAll ds) G ρ‖ ∧ D' ρ = fin ‖appAll (mixAll ds) G' ρ‖
  | .c, .quadc, D, D' => ∀ ρ0, (∃ a, (D ρ0).re = fin a) → ∃ q q' : Asg → ℂ, (∀ ρ, D ρ = ofC (q ρ) ∧ D' ρ = ofC (q' ρ)) ∧
      appAll ((loopsOf X).map sumOver) q = appAll ((loopsOf X).map sumOver) q'
  | .r, .quad, D, D' => ∀ ρ0, IsFin .r (D ρ0) → ∃ q q' : Asg → ℝ, (∀ ρ, D ρ = fin (q ρ) ∧ D' ρ = fin (q' ρ)) ∧
      appAll ((loopsOf X).map sumOver) (fun ρ => (q ρ : ℂ)) = appAll ((loopsOf X).map sumOver) (fun ρ => (q' ρ : ℂ))
  | _, _, _, _ => False

variable {Γ : Frames} {X : TCtx}

/-! ### covariant functions -/

theorem isPerm_perm {α : Type} [BEq α] [LawfulBEq α] {l m : List α} (h : l.isPerm m = true) : l.Perm m := List.isPerm_iff.mp h

theorem Cov.same {T T' : CType} (h : T.same T' = true) {G G' : Asg → ℂ} (hc : Cov Γ T' G G') : Cov Γ T G G' ∧ T.deg = T'.deg := by
  simp only [CType.same, Bool.and_eq_true, beq_iff_eq] at h
  obtain ⟨⟨hp, hw⟩, hd⟩ := h
  have hp := isPerm_perm hp
  have hs : Sep T.X := ((hp.map Prod.fst).nodup_iff).mpr hc.sep
  refine ⟨⟨hs, hc.dep.mono fun n hn => ((hp.map Prod.fst).mem_iff).mpr hn, ?_⟩, hd⟩
  rw [hc.eq, hw, rotAll_perm _ hp hs]

theorem Cov.add {T : CType} {F F' G G' : Asg → ℂ} (hF : Cov Γ T F F') (hG : Cov Γ T G G') : Cov Γ T (fun ρ => F ρ + G ρ) (fun ρ => F' ρ + G' ρ) := by
  refine ⟨hF.sep, fun ρ ρ' e => by show F ρ + G ρ = F ρ' + G ρ'; rw [hF.dep ρ ρ' e, hG.dep ρ ρ' e], ?_⟩
  rw [hF.eq, hG.eq, rotAll_add]; funext ρ; ring

theorem Cov.smul {T : CType} {G G' : Asg → ℂ} (hG : Cov Γ T G G') (c : ℂ) : Cov Γ T (fun ρ => c * G ρ) (fun ρ => c * G' ρ) := by
  refine ⟨hG.sep, fun ρ ρ' e => by show c * G ρ = c * G ρ'; rw [hG.dep ρ ρ' e], ?_⟩
  rw [hG.eq, rotAll_smul]; funext ρ; ring

theorem Cov.deg {T : CType} {G G' : Asg → ℂ} (hG : Cov Γ T G G') (d : Nat) : Cov Γ ⟨T.X, T.w, d⟩ G G' := ⟨hG.sep, hG.dep, hG.eq⟩

theorem Cov.mul {T T' : CType} {F F' G G' : Asg → ℂ} (hF : Cov Γ T F F') (hG : Cov Γ T' G G') (hd : ∀ x ∈ T.X, ∀ y ∈ T'.X, x.1 ≠ y.1) (d : Nat) :
    Cov Γ ⟨T.X ++ T'.X, addW T.w T'.w, d⟩ (fun ρ => F ρ * G ρ) (fun ρ => F' ρ * G' ρ) := by
  refine ⟨?_, fun ρ ρ' e => ?_, ?_⟩
  · show (List.map Prod.fst (T.X ++ T'.X)).Nodup
    rw [List.map_append, List.nodup_append]
    refine ⟨hF.sep, hG.sep, ?_⟩
    intro a ha b hb
    obtain ⟨x, hx, rfl⟩ := List.mem_map.mp ha
    obtain ⟨y, hy, rfl⟩ := List.mem_map.mp hb
    exact hd x hx y hy
  · show F ρ * G ρ = F ρ' * G ρ'
    rw [hF.dep ρ ρ' fun n hn => e n (by rw [List.map_append]; exact List.mem_append_left _ hn),
      hG.dep ρ ρ' fun n hn => e n (by rw [List.map_append]; exact List.mem_append_right _ hn)]
  · rw [hF.eq, hG.eq]
    dsimp only
    rw [rotAll_mul _ hF.dep hG.dep hd, Γ.zw_add]; funext ρ; ring

/-! ### operations on values -/

variable [FPEnv]

theorem den_add {t : Ty} {v v' w : VTy} (h : v.add v' = some w) {D D' E E' : Asg → t.den XR XC} (hD : Den Γ X t v D D') (hE : Den Γ X t v' E E') :
    Den Γ X t w (fun ρ => tadd t (D ρ) (E ρ)) (fun ρ => tadd t (D' ρ) (E' ρ)) := by
  unfold VTy.add at h
  split at h
  · cases h
    cases t with
    | r =>
      refine ⟨hD.1.map2 hE.1 (tadd .r), fun ρ0 ⟨a, ha⟩ ρ => ?_⟩
      obtain ⟨b, c, h1, h2⟩ := add_fin ha
      obtain ⟨e1, e2⟩ := hD.2 ρ0 ⟨b, h1⟩ ρ
      obtain ⟨e3, e4⟩ := hE.2 ρ0 ⟨c, h2⟩ ρ
      simp [tadd, e1, e2, e3, e4]
    | c =>
      refine ⟨hD.1.map2 hE.1 (tadd .c), fun ρ0 ha ρ => ?_⟩
      obtain ⟨h1, h2⟩ := c_add_fin ha
      obtain ⟨e1, e2⟩ := hD.2 ρ0 h1 ρ
      obtain ⟨e3, e4⟩ := hE.2 ρ0 h2 ρ
      simp [tadd, e1, e2, e3, e4]
  · rename_i d
    cases h
    cases t with
    | r =>
      refine ⟨hD.1.map2 hE.1 (tadd .r), fun ρ0 ⟨a, ha⟩ => ?_⟩
      obtain ⟨b, c, h1, h2⟩ := add_fin ha
      obtain ⟨k, hk⟩ := hE.2 ρ0 ⟨c, h2⟩
      refine ⟨k, fun ρ => ?_⟩
      obtain ⟨e1, e2⟩ := hD.2 ρ0 ⟨b, h1⟩ ρ
      simp [tadd, e1, e2, (hk ρ).1, (hk ρ).2]
    | c =>
      refine ⟨hD.1.map2 hE.1 (tadd .c), fun ρ0 ha => ?_⟩
      obtain ⟨h1, h2⟩ := c_add_fin ha
      obtain ⟨k, hk⟩ := hE.2 ρ0 h2
      refine ⟨k, fun ρ => ?_⟩
      obtain ⟨e1, e2⟩ := hD.2 ρ0 h1 ρ
      simp [tadd, e1, e2, (hk ρ).1, (hk ρ).2]
  · rename_i T
    cases h
    cases t with
    | r => exact hE.elim
    | c =>
      intro ρ0 ha
      obtain ⟨h1, h2⟩ := c_add_fin ha
      obtain ⟨G, G', hc, hk⟩ := hE ρ0 h2
      refine ⟨G, G', hc, fun ρ => ?_⟩
      obtain ⟨e1, e2⟩ := hD.2 ρ0 h1 ρ
      simp [tadd, e1, e2, (hk ρ).1, (hk ρ).2]
  · cases h
    cases t with
    | c => exact hE.elim
    | r =>
      intro ρ0 ⟨a, ha⟩
      obtain ⟨b, c, h1, h2⟩ := add_fin ha
      obtain ⟨q, q', hk, hs⟩ := hE ρ0 ⟨c, h2⟩
      refine ⟨q, q', fun ρ => ?_, hs⟩
      obtain ⟨e1, e2⟩ := hD.2 ρ0 ⟨b, h1⟩ ρ
      simp [tadd, e1, e2, (hk ρ).1, (hk ρ).2]
  · rename_i d e
    split_ifs at h with hde
    cases h
    subst hde
    cases t with
    | r =>
      refine ⟨hD.1.map2 hE.1 (tadd .r), fun ρ0 ⟨a, ha⟩ => ?_⟩
      obtain ⟨b, c, h1, h2⟩ := add_fin ha
      obtain ⟨k, hk⟩ := hE.2 ρ0 ⟨c, h2⟩
      obtain ⟨m, hm⟩ := hD.2 ρ0 ⟨b, h1⟩
      refine ⟨m + k, fun ρ => ?_⟩
      simp only [tadd, (hk ρ).1, (hk ρ).2, (hm ρ).1, (hm ρ).2, fin_add, fin_inj]
      constructor <;> ring
    | c =>
      refine ⟨hD.1.map2 hE.1 (tadd .c), fun ρ0 ha => ?_⟩
      obtain ⟨h1, h2⟩ := c_add_fin ha
      obtain ⟨k, hk⟩ := hE.2 ρ0 h2
      obtain ⟨m, hm⟩ := hD.2 ρ0 h1
      refine ⟨m + k, fun ρ => ?_⟩
      simp only [tadd, (hk ρ).1, (hk ρ).2, (hm ρ).1, (hm ρ).2, ofC_add, ofC_inj]
      constructor <;> ring
  · rename_i T T'
    split_ifs at h with hs
    cases h
    cases t with
    | r => exact hE.elim
    | c =>
      intro ρ0 ha
      obtain ⟨h1, h2⟩ := c_add_fin ha
      obtain ⟨G, G', hc, hk⟩ := hE ρ0 h2
      obtain ⟨F, F', hf, hm⟩ := hD ρ0 h1
      obtain ⟨hc', hd⟩ := hc.same hs
      refine ⟨_, _, hf.add hc', fun ρ => ?_⟩
      simp only [tadd, (hk ρ).1, (hk ρ).2, (hm ρ).1, (hm ρ).2, ofC_add, ofC_inj, ← hd]
      constructor <;> ring
  · cases h
    cases t with
    | c => exact hE.elim
    | r =>
      intro ρ0 ⟨a, ha⟩
      obtain ⟨b, c, h1, h2⟩ := add_fin ha
      obtain ⟨q, q', hk, hs⟩ := hE ρ0 ⟨c, h2⟩
      obtain ⟨p, p', hm, ht⟩ := hD ρ0 ⟨b, h1⟩
      refine ⟨fun ρ => p ρ + q ρ, fun ρ => p' ρ + q' ρ, fun ρ => ?_, ?_⟩
      · simp [tadd, (hk ρ).1, (hk ρ).2, (hm ρ).1, (hm ρ).2]
      · push_cast
        rw [appAll_add, appAll_add, hs, ht]
  · cases h

theorem den_neg {t : Ty} {v w : VTy} (h : v.neg = some w) {D D' : Asg → t.den XR XC} (hD : Den Γ X t v D D') :
    Den Γ X t w (fun ρ => tneg t (D ρ)) (fun ρ => tneg t (D' ρ)) := by
  unfold VTy.neg at h
  split at h
  · cases h
    cases t with
    | r =>
      refine ⟨hD.1.map (tneg .r), fun ρ0 ⟨a, ha⟩ ρ => ?_⟩
      obtain ⟨b, h1⟩ := neg_fin ha
      obtain ⟨e1, e2⟩ := hD.2 ρ0 ⟨b, h1⟩ ρ
      simp [tneg, e1, e2]
    | c =>
      refine ⟨hD.1.map (tneg .c), fun ρ0 ha ρ => ?_⟩
      obtain ⟨e1, e2⟩ := hD.2 ρ0 (c_neg_fin ha) ρ
      simp [tneg, e1, e2]
  · rename_i d
    cases h
    cases t with
    | r =>
      refine ⟨hD.1.map (tneg .r), fun ρ0 ⟨a, ha⟩ => ?_⟩
      obtain ⟨b, h1⟩ := neg_fin ha
      obtain ⟨k, hk⟩ := hD.2 ρ0 ⟨b, h1⟩
      refine ⟨-k, fun ρ => ?_⟩
      simp [tneg, (hk ρ).1, (hk ρ).2]
    | c =>
      refine ⟨hD.1.map (tneg .c), fun ρ0 ha => ?_⟩
      obtain ⟨k, hk⟩ := hD.2 ρ0 (c_neg_fin ha)
      refine ⟨-k, fun ρ => ?_⟩
      simp [tneg, (hk ρ).1, (hk ρ).2]
  · rename_i T
    cases h
    cases t with
    | r => exact hD.elim
    | c =>
      intro ρ0 ha
      obtain ⟨G, G', hc, hk⟩ := hD ρ0 (c_neg_fin ha)
      refine ⟨_, _, hc.smul (-1), fun ρ => ?_⟩
      simp [tneg, (hk ρ).1, (hk ρ).2]
  · cases h

/-! ### squares -/

omit [FPEnv] in
theorem apart_of_nodup : ∀ (l : List Ext), (l.flatMap Ext.vars).Nodup → Apart l
  | [], _ => trivial
  | s :: l, h => by
    rw [List.flatMap_cons, List.nodup_append] at h
    obtain ⟨h1, h2, h3⟩ := h
    refine ⟨?_, fun s' h' n hn hn' => h3 n hn n (List.mem_flatMap.mpr ⟨s', h', hn'⟩) rfl, apart_of_nodup l h2⟩
    cases s with
    | ferm n p => trivial
    | vec n a b p => simp [Ext.vars] at h1; exact ⟨h1.1.1, h1.1.2, h1.2⟩

omit [FPEnv] in
theorem appAll_id (ferm : List Nat) (p : Nat → Nat) (F : Asg → ℂ) : appAll ((ferm.map fun n => Ext.ferm n (p n)).map Ext.mix) F = F := by
  induction ferm with
  | nil => rfl
  | cons n l ih =>
    show app _ (appAll _ F) = F
    rw [ih]
    funext ρ
    simp [app, Ext.mix]

omit [FPEnv] in
/-- The sum over the spins of the product of two amplitudes, one of them complex conjugated, is the same in both frames. -/
theorem square_key {ds ds' : List (Nat × Nat × Nat)} {T T' : CType} (h : VTy.square X ds T ds' T' = true) {G G' H H' : Asg → ℂ}
    (hG : Cov Γ T G G') (hH : Cov Γ T' H H') :
    appAll ((loopsOf X).map sumOver) (fun ρ => appAll (mixAll ds) G ρ * (starRingEnd ℂ) (appAll (mixAll ds') H ρ)) =
      appAll ((loopsOf X).map sumOver) (fun ρ => appAll (mixAll ds) G' ρ * (starRingEnd ℂ) (appAll (mixAll ds') H' ρ)) := by
  simp only [VTy.square, CType.full, Bool.and_eq_true, decide_eq_true_eq] at h
  obtain ⟨⟨rfl, hs⟩, ⟨hp, hv⟩, hn⟩ := h
  obtain ⟨hH, -⟩ := hH.same hs
  have hp := isPerm_perm hp
  have hv := isPerm_perm hv
  let l : List Ext := X.ferm.map (fun n => Ext.ferm n ((T.X.lookup n).getD 0)) ++ ds.map fun d => Ext.vec d.1 d.2.1 d.2.2 ((T.X.lookup d.2.1).getD 0)
  have hsp : (T.exts X.ferm ds).flatMap (·.2) = l.flatMap Ext.spinors := by
    simp only [l, CType.exts, List.flatMap_append, List.flatMap_map]
    rfl
  have hvars : l.flatMap Ext.vars = X.ferm ++ ds.flatMap fun d => [d.1, d.2.1, d.2.2] := by
    simp only [l, List.flatMap_append, List.flatMap_map]
    congr 1
    simp [Ext.vars]
  have hA : Apart l := apart_of_nodup l (by rw [hvars]; exact hn)
  have hmix : ∀ F, appAll (l.map Ext.mix) F = appAll (mixAll ds) F := by
    intro F
    simp only [l, List.map_append, appAll_append]
    rw [appAll_id]
    simp only [List.map_map]
    rfl
  have hsum : ∀ F, appAll (l.map Ext.sum) F = appAll ((loopsOf X).map sumOver) F := by
    intro F
    simp only [l, loopsOf, List.map_append, appAll_append, List.map_map]
    have e1 : List.map (Ext.sum ∘ fun d : Nat × Nat × Nat => Ext.vec d.1 d.2.1 d.2.2 ((T.X.lookup d.2.1).getD 0)) ds =
        (ds.map (·.1)).map fun n => sumOver (n, vecVals) := by
      rw [List.map_map]; rfl
    rw [e1]
    have e2 : appAll ((ds.map (·.1)).map fun n => sumOver (n, vecVals)) F = appAll (X.vec.map fun n => sumOver (n, vecVals)) F := by
      refine appAll_perm (hv.map _) ?_ F
      intro L hL M hM F
      obtain ⟨n, -, rfl⟩ := List.mem_map.mp hL
      obtain ⟨m, -, rfl⟩ := List.mem_map.mp hM
      by_cases e : n = m
      · rw [e]
      · have supp : ∀ n, Supp [n] (sumOver (n, vecVals)) := by
          intro n t ht
          obtain ⟨x, -, rfl⟩ := List.mem_map.mp ht
          refine ⟨fun _ _ _ => rfl, fun ρ k hk => put_ne _ _ (by simpa using hk), fun ρ ρ' e k hk => ?_⟩
          have : k = n := by simpa using hk
          subst this
          show put ρ _ x _ = put ρ' _ x _
          rw [put_same, put_same]
        exact app_comm (supp n) (supp m) (by simpa using e) F
    rw [e2]
    rfl
  have free : ∀ F : Asg → ℂ, DepOn (T.X.map Prod.fst) F → ∀ s ∈ l, ∀ n a b p, s = .vec n a b p → Free n F := by
    intro F hF s hs n a b p e ρ x
    refine hF _ _ fun k hk => put_ne _ _ ?_
    rintro rfl
    subst e
    have hd : ∃ d ∈ ds, d.1 = k := by
      rcases List.mem_append.mp hs with h | h
      · obtain ⟨_, _, e⟩ := List.mem_map.mp h; cases e
      · obtain ⟨d, hd, e⟩ := List.mem_map.mp h; cases e; exact ⟨d, hd, rfl⟩
    obtain ⟨d, hd, rfl⟩ := hd
    rw [(hp.map Prod.fst).mem_iff, hsp] at hk
    obtain ⟨y, hy, e⟩ := List.mem_map.mp hk
    obtain ⟨s', h', hy⟩ := List.mem_flatMap.mp hy
    rcases List.mem_append.mp h' with h | h
    · obtain ⟨m, hm, rfl⟩ := List.mem_map.mp h
      simp only [Ext.spinors, List.mem_singleton] at hy
      subst hy
      rw [List.nodup_append] at hn
      exact hn.2.2 m hm d.1 (List.mem_flatMap.mpr ⟨d, hd, by simp⟩) e
    · obtain ⟨d', hd', rfl⟩ := List.mem_map.mp h
      rw [List.nodup_append] at hn
      have hn := hn.2.1
      rw [List.nodup_flatMap] at hn
      have hy : y.1 = d'.2.1 ∨ y.1 = d'.2.2 := by
        simp only [Ext.spinors, List.mem_cons, List.not_mem_nil, or_false] at hy
        rcases hy with rfl | rfl
        · exact .inl rfl
        · exact .inr rfl
      by_cases hdd : d = d'
      · subst hdd
        have := hn.1 d hd
        simp only [List.nodup_cons, List.mem_cons, not_or] at this
        rcases hy with h | h
        · exact this.1.1 (e.symm.trans h)
        · exact this.1.2.1 (e.symm.trans h)
      · have : Std.Symm fun a b : Nat × Nat × Nat => List.Disjoint [a.1, a.2.1, a.2.2] [b.1, b.2.1, b.2.2] := ⟨fun a b h x h1 h2 => h h2 h1⟩
        have key := List.Pairwise.forall (R := fun a b : Nat × Nat × Nat => List.Disjoint [a.1, a.2.1, a.2.2] [b.1, b.2.1, b.2.2]) hn.2 hd hd' hdd
        refine key (a := d.1) (by simp) ?_
        rw [← e]
        rcases hy with h | h <;> simp [h]
  have rotE : ∀ F, rotAll Γ.U T.X F = rotAll Γ.U (l.flatMap Ext.spinors) F := by
    intro F; rw [← hsp]; exact rotAll_perm _ hp hG.sep F
  have main := total_key Γ.unitary l hA (free G hG.dep) (free H hH.dep)
  simp only [hmix, hsum] at main
  rw [hG.eq, hH.eq]
  simp only [appAll_smul, rotE]
  rw [← main]
  congr 1
  funext ρ
  have := Γ.zw_conj T.w
  rw [map_mul]
  linear_combination -(appAll (mixAll ds) (rotAll Γ.U (l.flatMap Ext.spinors) G) ρ * (starRingEnd ℂ) (appAll (mixAll ds) (rotAll Γ.U (l.flatMap Ext.spinors) H) ρ)) * this

theorem den_mul {t : Ty} {v v' w : VTy} (h : VTy.mul X v v' = some w) {D D' E E' : Asg → t.den XR XC} (hD : Den Γ X t v D D') (hE : Den Γ X t v' E E') :
    Den Γ X t w (fun ρ => tmul t (D ρ) (E ρ)) (fun ρ => tmul t (D' ρ) (E' ρ)) := by
  unfold VTy.mul at h
  split at h
  · cases h
    cases t with
    | r =>
      refine ⟨hD.1.map2 hE.1 (tmul .r), fun ρ0 ⟨a, ha⟩ ρ => ?_⟩
      obtain ⟨b, c, h1, h2⟩ := mul_fin ha
      obtain ⟨e1, e2⟩ := hD.2 ρ0 ⟨b, h1⟩ ρ
      obtain ⟨k, hk⟩ := hE.2 ρ0 ⟨c, h2⟩
      simp [tmul, e1, e2, (hk ρ).1, (hk ρ).2]
    | c =>
      refine ⟨hD.1.map2 hE.1 (tmul .c), fun ρ0 ha ρ => ?_⟩
      obtain ⟨h1, h2⟩ := c_mul_fin ha
      obtain ⟨e1, e2⟩ := hD.2 ρ0 h1 ρ
      obtain ⟨k, hk⟩ := hE.2 ρ0 h2
      simp [tmul, e1, e2, (hk ρ).1, (hk ρ).2]
  · cases h
    cases t with
    | r =>
      refine ⟨hD.1.map2 hE.1 (tmul .r), fun ρ0 ⟨a, ha⟩ => ?_⟩
      obtain ⟨b, c, h1, h2⟩ := mul_fin ha
      obtain ⟨k, hk⟩ := hE.2 ρ0 ⟨c, h2⟩
      obtain ⟨m, hm⟩ := hD.2 ρ0 ⟨b, h1⟩
      refine ⟨m * k, fun ρ => ?_⟩
      simp only [tmul, (hk ρ).1, (hk ρ).2, (hm ρ).1, (hm ρ).2, fin_mul, fin_inj]
      constructor <;> ring
    | c =>
      refine ⟨hD.1.map2 hE.1 (tmul .c), fun ρ0 ha => ?_⟩
      obtain ⟨h1, h2⟩ := c_mul_fin ha
      obtain ⟨k, hk⟩ := hE.2 ρ0 h2
      obtain ⟨m, hm⟩ := hD.2 ρ0 h1
      refine ⟨m * k, fun ρ => ?_⟩
      simp only [tmul, (hk ρ).1, (hk ρ).2, (hm ρ).1, (hm ρ).2, ofC_mul, ofC_inj]
      constructor <;> ring
  · cases h
    cases t with
    | r => exact hE.elim
    | c =>
      intro ρ0 ha
      obtain ⟨h1, h2⟩ := c_mul_fin ha
      obtain ⟨G, G', hc, hk⟩ := hE ρ0 h2
      obtain ⟨m, hm⟩ := hD.2 ρ0 h1
      refine ⟨_, _, (hc.smul m).deg _, fun ρ => ?_⟩
      simp only [tmul, (hk ρ).1, (hk ρ).2, (hm ρ).1, (hm ρ).2, ofC_mul, ofC_inj]
      constructor <;> ring
  · cases h
    cases t with
    | r => exact hD.elim
    | c =>
      intro ρ0 ha
      obtain ⟨h1, h2⟩ := c_mul_fin ha
      obtain ⟨G, G', hc, hk⟩ := hD ρ0 h1
      obtain ⟨m, hm⟩ := hE.2 ρ0 h2
      refine ⟨_, _, (hc.smul m).deg _, fun ρ => ?_⟩
      simp only [tmul, (hk ρ).1, (hk ρ).2, (hm ρ).1, (hm ρ).2, ofC_mul, ofC_inj]
      constructor <;> ring
  · cases h
    cases t with
    | c => exact hE.elim
    | r =>
      intro ρ0 ⟨a, ha⟩
      obtain ⟨b, c, h1, h2⟩ := mul_fin ha
      obtain ⟨q, q', hk, hs⟩ := hE ρ0 ⟨c, h2⟩
      obtain ⟨m, hm⟩ := hD.2 ρ0 ⟨b, h1⟩
      refine ⟨fun ρ => m * q ρ, fun ρ => m * q' ρ, fun ρ => ?_, ?_⟩
      · simp [tmul, (hk ρ).1, (hk ρ).2, (hm ρ).1, (hm ρ).2]
      · push_cast
        rw [appAll_smul, appAll_smul, hs]
  · cases h
    cases t with
    | c => exact hD.elim
    | r =>
      intro ρ0 ⟨a, ha⟩
      obtain ⟨b, c, h1, h2⟩ := mul_fin ha
      obtain ⟨q, q', hk, hs⟩ := hD ρ0 ⟨b, h1⟩
      obtain ⟨m, hm⟩ := hE.2 ρ0 ⟨c, h2⟩
      refine ⟨fun ρ => m * q ρ, fun ρ => m * q' ρ, fun ρ => ?_, ?_⟩
      · simp [tmul, (hk ρ).1, (hk ρ).2, (hm ρ).1, (hm ρ).2, mul_comm]
      · push_cast
        rw [appAll_smul, appAll_smul, hs]
  · rename_i T T'
    split_ifs at h with hs
    cases h
    cases t with
    | r => exact hE.elim
    | c =>
      intro ρ0 ha
      obtain ⟨h1, h2⟩ := c_mul_fin ha
      obtain ⟨G, G', hc, hk⟩ := hE ρ0 h2
      obtain ⟨F, F', hf, hm⟩ := hD ρ0 h1
      simp only [List.all_eq_true, bne_iff_ne] at hs
      refine ⟨_, _, hf.mul hc hs _, fun ρ => ?_⟩
      simp only [tmul, (hk ρ).1, (hk ρ).2, (hm ρ).1, (hm ρ).2, ofC_mul, ofC_inj]
      constructor <;> ring
  · rename_i ds T ds' T'
    split_ifs at h with hs
    cases h
    cases t with
    | r => exact hE.elim
    | c =>
      intro ρ0 ⟨a, ha⟩
      obtain ⟨h1, h2⟩ := c_mul_fin_re ha
      obtain ⟨G, G', hc, hk⟩ := hE ρ0 h2
      obtain ⟨F, F', hf, hm⟩ := hD ρ0 h1
      refine ⟨_, _, fun ρ => ?_, square_key hs hf hc⟩
      simp only [tmul, (hk ρ).1, (hk ρ).2, (hm ρ).1, (hm ρ).2, ofC_mul, and_self]
  · cases h

theorem den_div {t : Ty} {v v' w : VTy} (h : VTy.div v v' = some w) {D D' E E' : Asg → t.den XR XC} (hD : Den Γ X t v D D') (hE : Den Γ X t v' E E') :
    Den Γ X t w (fun ρ => tdiv t (D ρ) (E ρ)) (fun ρ => tdiv t (D' ρ) (E' ρ)) := by
  unfold VTy.div at h
  split at h
  · cases h
    cases t with
    | r =>
      refine ⟨hD.1.map2 hE.1 (tdiv .r), fun ρ0 ⟨a, ha⟩ ρ => ?_⟩
      obtain ⟨b, c, h1, h2, h3⟩ := div_fin ha
      obtain ⟨e1, e2⟩ := hD.2 ρ0 ⟨b, h1⟩ ρ
      obtain ⟨k, hk⟩ := hE.2 ρ0 ⟨c, h2⟩
      simp only [pow_zero, one_mul] at hk
      rw [(hk ρ0).1, fin_inj] at h2
      subst h2
      simp [tdiv, e1, e2, (hk ρ).1, (hk ρ).2, fin_div h3]
    | c =>
      refine ⟨hD.1.map2 hE.1 (tdiv .c), fun ρ0 ha ρ => ?_⟩
      obtain ⟨h1, c, h2, h3⟩ := c_div_fin ha
      obtain ⟨e1, e2⟩ := hD.2 ρ0 h1 ρ
      obtain ⟨k, hk⟩ := hE.2 ρ0 ⟨c, h2⟩
      simp only [pow_zero, one_mul] at hk
      rw [(hk ρ0).1, ofC_inj] at h2
      subst h2
      simp only [tdiv, e1, e2, (hk ρ).1, (hk ρ).2]
      rw [ofC_div _ h3, zero_div]; exact ⟨rfl, rfl⟩
  · cases h
    cases t with
    | r =>
      refine ⟨hD.1.map2 hE.1 (tdiv .r), fun ρ0 ⟨a, ha⟩ => ?_⟩
      obtain ⟨b, c, h1, h2, h3⟩ := div_fin ha
      obtain ⟨m, hm⟩ := hD.2 ρ0 ⟨b, h1⟩
      obtain ⟨k, hk⟩ := hE.2 ρ0 ⟨c, h2⟩
      simp only [pow_zero, one_mul] at hk
      rw [(hk ρ0).1, fin_inj] at h2
      subst h2
      refine ⟨m / k, fun ρ => ?_⟩
      simp only [tdiv, (hk ρ).1, (hk ρ).2, (hm ρ).1, (hm ρ).2]
      rw [fin_div h3, mul_div_assoc]; exact ⟨rfl, rfl⟩
    | c =>
      refine ⟨hD.1.map2 hE.1 (tdiv .c), fun ρ0 ha => ?_⟩
      obtain ⟨h1, c, h2, h3⟩ := c_div_fin ha
      obtain ⟨m, hm⟩ := hD.2 ρ0 h1
      obtain ⟨k, hk⟩ := hE.2 ρ0 ⟨c, h2⟩
      simp only [pow_zero, one_mul] at hk
      rw [(hk ρ0).1, ofC_inj] at h2
      subst h2
      refine ⟨m / k, fun ρ => ?_⟩
      simp only [tdiv, (hk ρ).1, (hk ρ).2, (hm ρ).1, (hm ρ).2]
      rw [ofC_div _ h3, mul_div_assoc]; exact ⟨rfl, rfl⟩
  · cases h
    cases t with
    | r => exact hD.elim
    | c =>
      intro ρ0 ha
      obtain ⟨h1, c, h2, h3⟩ := c_div_fin ha
      obtain ⟨G, G', hc, hm⟩ := hD ρ0 h1
      obtain ⟨k, hk⟩ := hE.2 ρ0 ⟨c, h2⟩
      simp only [pow_zero, one_mul] at hk
      rw [(hk ρ0).1, ofC_inj] at h2
      subst h2
      refine ⟨_, _, hc.smul k⁻¹, fun ρ => ?_⟩
      simp only [tdiv, (hk ρ).1, (hk ρ).2, (hm ρ).1, (hm ρ).2]
      rw [ofC_div _ h3, ofC_div _ h3, ofC_inj, ofC_inj]
      constructor <;> field_simp
  · cases h
    cases t with
    | c => exact hD.elim
    | r =>
      intro ρ0 ⟨a, ha⟩
      obtain ⟨b, c, h1, h2, h3⟩ := div_fin ha
      obtain ⟨q, q', hm, hs⟩ := hD ρ0 ⟨b, h1⟩
      obtain ⟨k, hk⟩ := hE.2 ρ0 ⟨c, h2⟩
      simp only [pow_zero, one_mul] at hk
      rw [(hk ρ0).1, fin_inj] at h2
      subst h2
      refine ⟨fun ρ => k⁻¹ * q ρ, fun ρ => k⁻¹ * q' ρ, fun ρ => ?_, ?_⟩
      · simp only [tdiv, (hk ρ).1, (hk ρ).2, (hm ρ).1, (hm ρ).2]
        rw [fin_div h3, fin_div h3, fin_inj, fin_inj]
        constructor <;> field_simp
      · push_cast
        rw [appAll_smul, appAll_smul, hs]
  · cases h

/-- `ldouble * cdouble` -/
theorem den_smul {d : Nat} {v' w : VTy} (h : VTy.mul X (.scal d) v' = some w) {D D' : Asg → XR} {E E' : Asg → XC}
    (hD : Den Γ X .r (.scal d) D D') (hE : Den Γ X .c v' E E') :
    Den Γ X .c w (fun ρ => Cplx.smul (D ρ) (E ρ)) (fun ρ => Cplx.smul (D' ρ) (E' ρ)) := by
  cases v' with
  | scal e =>
    cases h
    refine ⟨hD.1.map2 hE.1 Cplx.smul, fun ρ0 ha => ?_⟩
    obtain ⟨⟨b, h1⟩, h2⟩ := c_smul_fin ha
    obtain ⟨k, hk⟩ := hE.2 ρ0 h2
    obtain ⟨m, hm⟩ := hD.2 ρ0 ⟨b, h1⟩
    refine ⟨m * k, fun ρ => ?_⟩
    simp only [(hk ρ).1, (hk ρ).2, (hm ρ).1, (hm ρ).2, c_smul, ofC_inj]
    push_cast
    constructor <;> ring
  | lin T =>
    cases h
    intro ρ0 ha
    obtain ⟨⟨b, h1⟩, h2⟩ := c_smul_fin ha
    obtain ⟨G, G', hc, hk⟩ := hE ρ0 h2
    obtain ⟨m, hm⟩ := hD.2 ρ0 ⟨b, h1⟩
    refine ⟨_, _, (hc.smul m).deg _, fun ρ => ?_⟩
    simp only [(hk ρ).1, (hk ρ).2, (hm ρ).1, (hm ρ).2, c_smul, ofC_inj]
    push_cast
    constructor <;> ring
  | quad => exact hE.elim
  | zero => cases d <;> cases h
  | amp ds T => cases d <;> cases h
  | camp ds T => cases d <;> cases h
  | aamp ds T => cases d <;> cases h
  | quadc => cases d <;> cases h

theorem den_ofR {d : Nat} {D D' : Asg → XR} (hD : Den Γ X .r (.scal d) D D') : Den Γ X .c (.scal d) (fun ρ => ofReal (D ρ)) (fun ρ => ofReal (D' ρ)) := by
  refine ⟨hD.1.map ofReal, fun ρ0 ha => ?_⟩
  obtain ⟨k, hk⟩ := hD.2 ρ0 (c_ofReal_fin ha)
  refine ⟨k, fun ρ => ?_⟩
  simp [(hk ρ).1, (hk ρ).2]

omit [FPEnv] in
/-- A function of frame-independent numbers that needs a finite argument for a finite result. -/
theorem den_map {D D' : Asg → XR} (hD : Den Γ X .r (.scal 0) D D') {g : XR → XR} (hg : ∀ x a, g x = fin a → ∃ b, x = fin b) :
    Den Γ X .r (.scal 0) (fun ρ => g (D ρ)) (fun ρ => g (D' ρ)) := by
  refine ⟨hD.1.map g, fun ρ0 ⟨a, ha⟩ => ?_⟩
  obtain ⟨k, hk⟩ := hD.2 ρ0 (hg _ _ ha)
  simp only [pow_zero, one_mul] at hk ⊢
  simp only [(hk ρ0).1] at ha
  refine ⟨a, fun ρ => ?_⟩
  rw [(hk ρ).1, (hk ρ).2]
  exact ⟨ha, ha⟩

theorem den_sqrt {D D' : Asg → XR} (hD : Den Γ X .r (.scal 0) D D') : Den Γ X .r (.scal 0) (fun ρ => Scalar.sqrt (D ρ)) (fun ρ => Scalar.sqrt (D' ρ)) :=
  den_map hD fun _ _ h => let ⟨b, hb, _⟩ := sqrt_fin h; ⟨b, hb⟩

theorem den_pow {D D' : Asg → XR} (hD : Den Γ X .r (.scal 0) D D') (k : Nat) :
    Den Γ X .r (.scal 0) (fun ρ => HasPow.pow (D ρ) (k + 1)) (fun ρ => HasPow.pow (D' ρ) (k + 1)) := den_map hD fun _ _ h => pow_fin_inv h

omit [FPEnv] in
theorem den_pow_zero {D D' : Asg → XR} (hD : Den Γ X .r .zero D D') : Den Γ X .r .zero (fun ρ => HasPow.pow (D ρ) 2) (fun ρ => HasPow.pow (D' ρ) 2) := by
  refine ⟨hD.1.map (HasPow.pow · 2), fun ρ0 ⟨a, ha⟩ ρ => ?_⟩
  obtain ⟨e1, e2⟩ := hD.2 ρ0 (pow_fin_inv ha) ρ
  simp [e1, e2]

omit [FPEnv] in
theorem den_pow_aamp {ds : List (Nat × Nat × Nat)} {T : CType} (hs : VTy.square X ds T ds T = true) {D D' : Asg → XR} (hD : Den Γ X .r (.aamp ds T) D D') :
    Den Γ X .r .quad (fun ρ => HasPow.pow (D ρ) 2) (fun ρ => HasPow.pow (D' ρ) 2) := by
  intro ρ0 ⟨a, ha⟩
  obtain ⟨G, G', hc, hk⟩ := hD ρ0 (pow_fin_inv ha)
  refine ⟨fun ρ => ‖appAll (mixAll ds) G ρ‖ ^ 2, fun ρ => ‖appAll (mixAll ds) G' ρ‖ ^ 2, fun ρ => by simp [(hk ρ).1, (hk ρ).2], ?_⟩
  have e : ∀ z : ℂ, ((‖z‖ ^ 2 : ℝ) : ℂ) = z * (starRingEnd ℂ) z := fun z => by rw [Complex.mul_conj, Complex.normSq_eq_norm_sq]
  simp only [e]
  exact square_key hs hc hc

theorem den_abs_zero {D D' : Asg → XC} (hD : Den Γ X .c .zero D D') : Den Γ X .r .zero (fun ρ => Cplx.abs (D ρ)) (fun ρ => Cplx.abs (D' ρ)) := by
  refine ⟨hD.1.map Cplx.abs, fun ρ0 ⟨a, ha⟩ ρ => ?_⟩
  obtain ⟨e1, e2⟩ := hD.2 ρ0 (c_abs_fin ha) ρ
  simp [e1, e2]

theorem den_abs_scal {D D' : Asg → XC} (hD : Den Γ X .c (.scal 0) D D') : Den Γ X .r (.scal 0) (fun ρ => Cplx.abs (D ρ)) (fun ρ => Cplx.abs (D' ρ)) := by
  refine ⟨hD.1.map Cplx.abs, fun ρ0 ⟨a, ha⟩ => ?_⟩
  obtain ⟨k, hk⟩ := hD.2 ρ0 (c_abs_fin ha)
  exact ⟨‖k‖, fun ρ => by simp [(hk ρ).1, (hk ρ).2]⟩

theorem den_abs_amp {ds : List (Nat × Nat × Nat)} {T : CType} {D D' : Asg → XC} (hD : Den Γ X .c (.amp ds T) D D') :
    Den Γ X .r (.aamp ds T) (fun ρ => Cplx.abs (D ρ)) (fun ρ => Cplx.abs (D' ρ)) := by
  intro ρ0 ⟨a, ha⟩
  obtain ⟨G, G', hc, hk⟩ := hD ρ0 (c_abs_fin ha)
  exact ⟨G, G', hc, fun ρ => by simp [(hk ρ).1, (hk ρ).2]⟩

theorem den_conj_zero {D D' : Asg → XC} (hD : Den Γ X .c .zero D D') : Den Γ X .c .zero (fun ρ => Cplx.conj (D ρ)) (fun ρ => Cplx.conj (D' ρ)) := by
  refine ⟨hD.1.map Cplx.conj, fun ρ0 ha ρ => ?_⟩
  obtain ⟨e1, e2⟩ := hD.2 ρ0 (c_conj_fin ha) ρ
  simp [e1, e2]

theorem den_conj_amp {ds : List (Nat × Nat × Nat)} {T : CType} {D D' : Asg → XC} (hD : Den Γ X .c (.amp ds T) D D') :
    Den Γ X .c (.camp ds T) (fun ρ => Cplx.conj (D ρ)) (fun ρ => Cplx.conj (D' ρ)) := by
  intro ρ0 ha
  obtain ⟨G, G', hc, hk⟩ := hD ρ0 (c_conj_fin ha)
  exact ⟨G, G', hc, fun ρ => by simp [(hk ρ).1, (hk ρ).2]⟩

omit [FPEnv] in
theorem appAll_re (l : List (Nat × List Int)) (q : Asg → ℂ) :
    appAll (l.map sumOver) (fun ρ => ((q ρ).re : ℂ)) = fun ρ => ((appAll (l.map sumOver) q ρ).re : ℂ) := by
  induction l with
  | nil => rfl
  | cons x l ih =>
    show app (sumOver x) (appAll _ _) = fun ρ => ((app (sumOver x) (appAll _ _) ρ).re : ℂ)
    rw [ih]
    funext ρ
    unfold app sumOver
    simp only [List.map_map]
    induction x.2 with
    | nil => simp
    | cons y ys ih2 => simpa using ih2

theorem den_re {D D' : Asg → XC} (hD : Den Γ X .c .quadc D D') : Den Γ X .r .quad (fun ρ => Cplx.re (D ρ)) (fun ρ => Cplx.re (D' ρ)) := by
  intro ρ0 ⟨a, ha⟩
  obtain ⟨q, q', hk, hs⟩ := hD ρ0 ⟨a, ha⟩
  refine ⟨fun ρ => (q ρ).re, fun ρ => (q' ρ).re, fun ρ => by simp only [(hk ρ).1, (hk ρ).2]; exact ⟨rfl, rfl⟩, ?_⟩
  rw [appAll_re, appAll_re, hs]

omit [FPEnv] in
/-- a number that is the same in both frames -/
theorem den_const {t : Ty} (x : t.den XR XC) : Den Γ X t (.scal 0) (fun _ => x) (fun _ => x) := by
  cases t with
  | r =>
    refine ⟨⟨fun _ => x, fun _ => x, fun _ => rfl, fun _ => rfl⟩, fun _ ⟨a, ha⟩ => ⟨a, fun _ => ?_⟩⟩
    simp only [pow_zero, one_mul]; exact ⟨ha, ha⟩
  | c =>
    refine ⟨⟨fun _ => x, fun _ => x, fun _ => rfl, fun _ => rfl⟩, fun _ ⟨a, ha⟩ => ⟨a, fun _ => ?_⟩⟩
    simp only [pow_zero, one_mul]; exact ⟨ha, ha⟩

theorem den_ofR_zero : Den Γ X .c .zero (fun _ => (ofReal (int 0 : XR) : XC)) (fun _ => ofReal (int 0 : XR)) := by
  refine ⟨⟨fun _ => _, fun _ => _, fun _ => rfl, fun _ => rfl⟩, fun _ _ _ => ?_⟩
  simp

theorem den_norm : Den Γ X .r (.scal 1) (fun ρ => (Process.spinNormalization (X.ns.map ρ) : XR)) (fun ρ => Process.spinNormalization (X.ns.map ρ)) := by
  refine ⟨⟨fin, fin, fun ρ => ?_, fun ρ => ?_⟩, fun _ _ => ⟨1, fun ρ => ?_⟩⟩ <;> simp [Props.spinNorm_fin, nrm]

end Spinas.SM

import Verif.SM.SignSound
import Verif.Props.Processes
import Verif.Spec.Collision

/-! Which squared amplitudes pass the check of `Verif.SM.Sign`, and the three denominators it needs to know about in four classes. -/

namespace Spinas.SM
open XR Spec Props

/-- The classes of a quark pair and two gluons.  Their colour factors are positive only because of `s + t + u = 2 m^2`. -/
def gluonClasses : List String := ["dggd", "ggdd", "gguu", "gugu"]

/-- `pDenS`, `pDenT`, `pDenU` in these classes -/
def gluonTri : List Nat := [2, 3, 4]

theorem all_nonneg : all.all (fun P => ((P.amp2 :: P.others.map Prod.snd).all fun k => P.nonneg (if gluonClasses.contains P.name then gluonTri else []) k)) = true := by
  decide +kernel

theorem square_nonneg {P : Proc} (hP : P ∈ all) {k : Nat} (hk : P.isSquare k = true) :
    P.nonneg (if P.name ∈ gluonClasses then gluonTri else []) k = true := by
  have h := List.all_eq_true.mp (List.all_eq_true.mp all_nonneg P hP) k (by
    simp only [Proc.isSquare, Bool.or_eq_true, beq_iff_eq, List.any_eq_true] at hk
    rcases hk with rfl | ⟨x, hx, rfl⟩
    · exact List.mem_cons_self
    · exact List.mem_cons_of_mem _ (List.mem_map.2 ⟨x, hx, rfl⟩))
  simpa only [List.contains_iff_mem] using h

/-! ### denominators set by `set_momenta` -/

/-- the last assignment of a denominator to the real member `n` -/
def lastDen (n : Nat) : List SInstr → Option (Nat × VExp) → Option (Nat × VExp)
  | [], d => d
  | .den .r n' k v :: is, d => lastDen n is (if n = n' then some (k, v) else d)
  | .set .r n' _ :: is, d => lastDen n is (if n = n' then none else d)
  | .den .c _ _ _ :: is, d => lastDen n is d
  | .set .c _ _ :: is, d => lastDen n is d
  | .part _ _ :: is, d => lastDen n is d
  | .setMass _ _ :: is, d => lastDen n is d
  | .setMom _ _ :: is, d => lastDen n is d
  | .prop _ _ _ :: is, d => lastDen n is d
  | .propMass _ _ :: is, d => lastDen n is d
  | .sprod _ _ :: is, d => lastDen n is d
  | .update _ :: is, d => lastDen n is d

/-- leaves the propagators alone -/
def SInstr.noProp : SInstr → Bool
  | .prop _ _ _ => false
  | .propMass _ _ => false
  | _ => true

section
variable {R C : Type} [Scalar R] [HasPow R] [Cplx R C]

theorem onWorld_members {α : Type} (f : Prog (World R C) α) (o : Obj R C) : (onWorld f o).2.r = o.r ∧ (onWorld f o).2.pr = o.pr := ⟨rfl, rfl⟩

theorem den_sound (junk : Kin R C) (par : Nat → R) (q : Nat → V4 R) (n : Nat) : ∀ (is : List SInstr) (d : Option (Nat × VExp)) (o : Obj R C), is.all SInstr.noProp = true →
    (∀ k v, d = some (k, v) → o.r n = Cplx.re (Propag.denominator (o.pr k) (v.eval q) : C)) → (runSetup junk par q is o).1 = .ok () →
    ∀ k v, lastDen n is d = some (k, v) → (runSetup junk par q is o).2.r n = Cplx.re (Propag.denominator (o.pr k) (v.eval q) : C)
  | [], d, o, _, hd, _, k, v, h => hd k v h
  | i :: is, d, o, hn, hd, hr, k, v, h => by
    rw [List.all_cons, Bool.and_eq_true] at hn
    have step : ∀ (i : SInstr) (d' : Option (Nat × VExp)), (runSetup junk par q (i :: is) o).1 = .ok () →
        (i.exec junk par q o).2.pr = o.pr → (∀ k v, d' = some (k, v) → (i.exec junk par q o).2.r n = Cplx.re (Propag.denominator (o.pr k) (v.eval q) : C)) →
        lastDen n is d' = some (k, v) → (runSetup junk par q (i :: is) o).2.r n = Cplx.re (Propag.denominator (o.pr k) (v.eval q) : C) := by
      intro i d' hr hp hd' h
      rw [runSetup, Prog.bind_run] at hr ⊢
      cases e : i.exec junk par q o with
      | mk a o' =>
        rw [e] at hr hp hd'
        cases a with
        | ok u =>
          simp only at hr hp hd' ⊢
          rw [← hp] at hd' ⊢
          exact den_sound junk par q n is d' o' hn.2 hd' hr k v h
        | throw x => cases hr
        | crash => cases hr
    cases i with
    | set t m e =>
      cases t with
      | r =>
        refine step _ _ hr rfl ?_ h
        intro k v hkv
        split_ifs at hkv with hm
        simp only [SInstr.exec, Obj.setMem, if_neg hm]
        exact hd k v hkv
      | c => exact step _ d hr rfl hd h
    | part i e => exact step _ d hr rfl hd h
    | setMass i e => exact step _ d hr rfl hd h
    | setMom i k => exact step _ d hr rfl hd h
    | prop k m w => cases hn.1
    | propMass k e => cases hn.1
    | sprod a d' => exact step _ d hr rfl hd h
    | update a => exact step _ d hr rfl hd h
    | den t m k' v' =>
      cases t with
      | r =>
        refine step _ _ hr rfl ?_ h
        intro k v hkv
        simp only [SInstr.exec, Obj.setDen, Obj.setMem]
        split_ifs at hkv ⊢ with hm
        · cases hkv; rfl
        · exact hd k v hkv
      | c => exact step _ d hr rfl hd h

end

/-! ### the sum of the denominators -/

section
variable [FPEnv]

/-- the real part of a denominator -/
theorem re_denominator {Q : Propag XR} {a m : ℝ} {w : V4 ℝ} (hm : Q.m = fin m) (ha : (Cplx.re (Propag.denominator Q w.toX : XC) : XR) = fin a) :
    a = w.t * w.t - w.x * w.x - w.y * w.y - w.z * w.z - m * m := by
  have : (Cplx.re (Propag.denominator Q w.toX : XC) : XR) = fin (w.t * w.t - w.x * w.x - w.y * w.y - w.z * w.z - m * m) := by
    show (w.toX.t * w.toX.t - w.toX.x * w.toX.x - w.toX.y * w.toX.y - w.toX.z * w.toX.z - Q.m * Q.m) = _
    simp [V4.toX, hm]
  rw [this, fin_inj] at ha
  exact ha.symm

theorem tri_of {P : Proc} {kS kT kU : Nat} (h2 : lastDen 2 P.setMomenta none = some (kS, .add 0 1)) (h3 : lastDen 3 P.setMomenta none = some (kT, .sub 0 2))
    (h4 : lastDen 4 P.setMomenta none = some (kU, .sub 0 3)) (hn : P.setMomenta.all SInstr.noProp = true) {o : Obj XR XC} {a b c : ℝ}
    (hS : (o.pr kS).m = fin a) (hT : (o.pr kT).m = fin b) (hU : (o.pr kU).m = fin c) {M : Nat → ℝ} {p : Nat → V4 ℝ}
    (hs : ∀ i, i < 4 → OnShell (p i) (M i)) (hb : Balanced p) (hM : a ^ 2 + b ^ 2 + c ^ 2 = M 0 ^ 2 + M 1 ^ 2 + M 2 ^ 2 + M 3 ^ 2)
    (j : Kin XR XC) (hr : (P.runSetMomenta j (fun i => (p i).toX) o).1 = .ok ()) : TriOk gluonTri (P.runSetMomenta j (fun i => (p i).toX) o).2.r := by
  have key : ∀ x y z, (P.runSetMomenta j (fun i => (p i).toX) o).2.r 2 = fin x → (P.runSetMomenta j (fun i => (p i).toX) o).2.r 3 = fin y →
      (P.runSetMomenta j (fun i => (p i).toX) o).2.r 4 = fin z → x + y + z = 0 := by
    intro x y z hx hy hz
    unfold Proc.runSetMomenta at hr hx hy hz
    rw [den_sound j _ _ 2 P.setMomenta none o hn (by simp) hr _ _ h2] at hx
    rw [den_sound j _ _ 3 P.setMomenta none o hn (by simp) hr _ _ h3] at hy
    rw [den_sound j _ _ 4 P.setMomenta none o hn (by simp) hr _ _ h4] at hz
    have eS : (VExp.add 0 1).eval (fun i => (p i).toX) = V4.toX ⟨(p 0).t + (p 1).t, (p 0).x + (p 1).x, (p 0).y + (p 1).y, (p 0).z + (p 1).z⟩ := by
      simp [VExp.eval, V4.toX]
    have eT : (VExp.sub 0 2).eval (fun i => (p i).toX) = V4.toX ⟨(p 0).t - (p 2).t, (p 0).x - (p 2).x, (p 0).y - (p 2).y, (p 0).z - (p 2).z⟩ := by
      simp [VExp.eval, V4.toX]
    have eU : (VExp.sub 0 3).eval (fun i => (p i).toX) = V4.toX ⟨(p 0).t - (p 3).t, (p 0).x - (p 3).x, (p 0).y - (p 3).y, (p 0).z - (p 3).z⟩ := by
      simp [VExp.eval, V4.toX]
    rw [eS] at hx; rw [eT] at hy; rw [eU] at hz
    rw [re_denominator hS hx, re_denominator hT hy, re_denominator hU hz]
    have s0 := (hs 0 (by norm_num)).shell
    have s1 := (hs 1 (by norm_num)).shell
    have s2 := (hs 2 (by norm_num)).shell
    have s3 := (hs 3 (by norm_num)).shell
    have b0 := hb.t; have b1 := hb.x; have b2 := hb.y; have b3 := hb.z
    have c0 : (p 1).t = (p 2).t + (p 3).t - (p 0).t := by linarith
    have c1 : (p 1).x = (p 2).x + (p 3).x - (p 0).x := by linarith
    have c2 : (p 1).y = (p 2).y + (p 3).y - (p 0).y := by linarith
    have c3 : (p 1).z = (p 2).z + (p 3).z - (p 0).z := by linarith
    rw [c0, c1, c2, c3] at s1 ⊢
    linear_combination s0 + s1 + s2 + s3 - hM
  intro a b c hp x y z hx hy hz
  have hmem : ∀ n, n ∈ [a, b, c] ↔ n ∈ gluonTri := fun n => hp.mem_iff
  have hnd : [a, b, c].Nodup := hp.nodup_iff.2 (by decide)
  have ha := (hmem a).1 (by simp)
  have hb := (hmem b).1 (by simp)
  have hc := (hmem c).1 (by simp)
  simp only [gluonTri, List.mem_cons, List.not_mem_nil, or_false] at ha hb hc
  rcases ha with rfl | rfl | rfl <;> rcases hb with rfl | rfl | rfl <;> rcases hc with rfl | rfl | rfl <;>
    first
    | (exfalso; revert hnd; decide)
    | linarith [key x y z hx hy hz]
    | linarith [key x z y hx hz hy]
    | linarith [key y x z hy hx hz]
    | linarith [key y z x hy hz hx]
    | linarith [key z x y hz hx hy]
    | linarith [key z y x hz hy hx]

theorem sym_gm {P : Proc} {S : Sym} {i : Nat} {e : Exp .r} (hS : P.sym = some S) (he : (P.sym.bind fun S => S.gm i) = some e) : S.gm i = some e := by
  rw [hS] at he; exact he

theorem gluonClasses_eq {P : Proc} (hP : P ∈ all) (hg : P.name ∈ gluonClasses) : P = Cls.dggd ∨ P = Cls.ggdd ∨ P = Cls.gguu ∨ P = Cls.gugu := by
  have : (all.filter fun P => gluonClasses.contains P.name) = [Cls.dggd, Cls.ggdd, Cls.gguu, Cls.gugu] := by rfl
  have hm : P ∈ all.filter fun P => gluonClasses.contains P.name := List.mem_filter.2 ⟨hP, by simpa only [List.contains_iff_mem] using hg⟩
  rw [this] at hm
  simpa using hm

set_option maxRecDepth 100000 in
theorem gluon_tri {P : Proc} (hP : P ∈ all) (hg : P.name ∈ gluonClasses) {S : Sym} (hS : P.sym = some S) {par : Nat → XR} {o : Obj XR XC} (h : Inv S par o)
    {m : Nat → ℝ} (hm : ∀ i, i < 4 → (o.w.part i).kin.m = fin (m i)) {p : Nat → V4 ℝ} (hs : ∀ i, i < 4 → OnShell (p i) (m i)) (hb : Balanced p)
    (j : Kin XR XC) (hr : (P.runSetMomenta j (fun i => (p i).toX) o).1 = .ok ()) : TriOk gluonTri (P.runSetMomenta j (fun i => (p i).toX) o).2.r := by
  have mass : ∀ i e, i < 4 → (P.sym.bind fun S => S.gm i) = some e → fin (m i) = e.val0 (C := XC) par := by
    intro i e hi he
    rw [← hm i hi]
    exact h.mass i e (sym_gm hS he)
  have prop : ∀ k e, (P.sym.bind fun S => S.gpm k) = some e → (o.pr k).m = e.val0 (C := XC) par := fun k e he => h.pm k e (sym_gpm hS he)
  rcases gluonClasses_eq hP hg with rfl | rfl | rfl | rfl
  · have m0 := mass 0 (.loc .r 1) (by norm_num) rfl
    have m1 := mass 1 (.lit 0) (by norm_num) rfl
    have m2 := mass 2 (.lit 0) (by norm_num) rfl
    have m3 := mass 3 (.loc .r 1) (by norm_num) rfl
    have p0 := prop 0 (.loc .r 1) rfl
    have p1 := prop 1 (.lit 0) rfl
    simp only [Exp.val0, Exp.val, s_int, Int.cast_zero, Int.ofNat_zero, fin_inj, Nat.cast_zero] at m0 m1 m2 m3 p0 p1
    have e3 : m 3 = m 0 := by rw [← m0] at m3; simpa using m3
    rw [← m0] at p0
    exact tri_of (kS := 0) (kT := 0) (kU := 1) rfl rfl rfl rfl p0 p0 p1 hs hb (by rw [m1, m2, e3]; ring) j hr
  · have m0 := mass 0 (.lit 0) (by norm_num) rfl
    have m1 := mass 1 (.lit 0) (by norm_num) rfl
    have m2 := mass 2 (.loc .r 1) (by norm_num) rfl
    have m3 := mass 3 (.loc .r 1) (by norm_num) rfl
    have p0 := prop 0 (.loc .r 1) rfl
    have p1 := prop 1 (.lit 0) rfl
    simp only [Exp.val0, Exp.val, s_int, Int.cast_zero, Int.ofNat_zero, fin_inj, Nat.cast_zero] at m0 m1 m2 m3 p0 p1
    have e3 : m 3 = m 2 := by rw [← m2] at m3; simpa using m3
    rw [← m2] at p0
    exact tri_of (kS := 1) (kT := 0) (kU := 0) rfl rfl rfl rfl p1 p0 p0 hs hb (by rw [m0, m1, e3]; ring) j hr
  · have m0 := mass 0 (.lit 0) (by norm_num) rfl
    have m1 := mass 1 (.lit 0) (by norm_num) rfl
    have m2 := mass 2 (.loc .r 1) (by norm_num) rfl
    have m3 := mass 3 (.loc .r 1) (by norm_num) rfl
    have p0 := prop 0 (.loc .r 1) rfl
    have p1 := prop 1 (.lit 0) rfl
    simp only [Exp.val0, Exp.val, s_int, Int.cast_zero, Int.ofNat_zero, fin_inj, Nat.cast_zero] at m0 m1 m2 m3 p0 p1
    have e3 : m 3 = m 2 := by rw [← m2] at m3; simpa using m3
    rw [← m2] at p0
    exact tri_of (kS := 1) (kT := 0) (kU := 0) rfl rfl rfl rfl p1 p0 p0 hs hb (by rw [m0, m1, e3]; ring) j hr
  · have m0 := mass 0 (.lit 0) (by norm_num) rfl
    have m1 := mass 1 (.loc .r 1) (by norm_num) rfl
    have m2 := mass 2 (.lit 0) (by norm_num) rfl
    have m3 := mass 3 (.loc .r 1) (by norm_num) rfl
    have p0 := prop 0 (.loc .r 1) rfl
    have p1 := prop 1 (.lit 0) rfl
    simp only [Exp.val0, Exp.val, s_int, Int.cast_zero, Int.ofNat_zero, fin_inj, Nat.cast_zero] at m0 m1 m2 m3 p0 p1
    have e3 : m 3 = m 1 := by rw [← m1] at m3; simpa using m3
    rw [← m1] at p0
    exact tri_of (kS := 0) (kT := 1) (kU := 0) rfl rfl rfl rfl p0 p1 p0 hs hb (by rw [m0, m2, e3]; ring) j hr

end
end Spinas.SM

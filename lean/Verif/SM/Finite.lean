import Verif.SM.Meaning

/-! Finite members: what `set_momenta` computes is finite as long as no propagator is on its pole. -/

namespace Spinas.SM
open Spec Props XR Matrix

section
variable [FPEnv]

/-- The members `M` are finite and those of `D` not zero. -/
structure FinOn (M D : Mems) (mr : Nat → XR) (mc : Nat → XC) : Prop where
  r : ∀ n, (Ty.r, n) ∈ M → ∃ x, mr n = fin x
  c : ∀ n, (Ty.c, n) ∈ M → ∃ z, mc n = ofC z
  dr : ∀ n, (Ty.r, n) ∈ D → mr n ≠ fin 0
  dc : ∀ n, (Ty.c, n) ∈ D → mc n ≠ ofC 0

/-- a number for a real (0 if there is none) -/
noncomputable def xnum : XR → ℝ
  | .fin x => x
  | .nan => 0
noncomputable def znum (z : XC) : ℂ := ⟨xnum z.re, xnum z.im⟩

omit [FPEnv] in
theorem znum_ofC (z : ℂ) : znum (ofC z) = z := rfl

/-- the environment of an object with given values of the products -/
noncomputable def envOf (r : Nat → XR) (c : Nat → XC) (v : Nat → List Int → ℂ) : Env := ⟨fun n => xnum (r n), fun n => znum (c n), v⟩

omit [FPEnv] in
theorem FinOn.lifted {M D : Mems} {r : Nat → XR} {c : Nat → XC} (h : FinOn M D r c) (hD : ∀ x ∈ D, x ∈ M) (v : Nat → List Int → ℂ) :
    Lifted M D (envOf r c v) r c where
  r n hn := by obtain ⟨x, e⟩ := h.r n hn; show r n = fin (xnum (r n)); rw [e]; rfl
  c n hn := by obtain ⟨x, e⟩ := h.c n hn; show c n = ofC (znum (c n)); rw [e]; rfl
  dr n hn := by
    obtain ⟨x, e⟩ := h.r n (hD _ hn)
    have := h.dr n hn
    show xnum (r n) ≠ 0
    rw [e] at this ⊢
    exact fun h0 => this (congrArg fin h0)
  dc n hn := by
    obtain ⟨x, e⟩ := h.c n (hD _ hn)
    have := h.dc n hn
    show znum (c n) ≠ 0
    rw [e] at this ⊢
    exact fun h0 => this (congrArg ofC h0)

/-- Values of tame expressions are finite, and not zero if they are products of members that are not. -/
theorem val_fin {M D : Mems} {r : Nat → XR} {c : Nat → XC} (h : FinOn M D r c) {par : Nat → XR} {ρ : Nat → ℝ} (hp : ∀ n, par n = fin (ρ n)) :
    ∀ {t : Ty} (e : Exp t), e.tame M D = true → ∃ y, e.val r c par = up t y ∧ (e.nz D = true → NonZero t y)
  | _, .lit n, _ => ⟨(n : ℝ), by simp [Exp.val, up], fun hn => by
      simp only [Exp.nz, bne_iff_ne, ne_eq] at hn
      show (n : ℝ) ≠ 0
      exact_mod_cast hn⟩
  | _, .dec m e, _ => ⟨(m / 10 ^ e : ℝ), by simp [Exp.val, up], fun hn => by cases hn⟩
  | _, .mem .r n, hn => by
    obtain ⟨x, e⟩ := h.r n (by simpa [Exp.tame] using hn)
    refine ⟨x, e, fun hz => ?_⟩
    have := h.dr n (by simpa [Exp.nz] using hz)
    rw [e] at this
    exact fun h0 => this (congrArg fin h0)
  | _, .mem .c n, hn => by
    obtain ⟨x, e⟩ := h.c n (by simpa [Exp.tame] using hn)
    refine ⟨x, e, fun hz => ?_⟩
    have := h.dc n (by simpa [Exp.nz] using hz)
    rw [e] at this
    exact fun h0 => this (congrArg ofC h0)
  | _, .loc .r n, _ => ⟨ρ n, hp n, fun hn => by cases hn⟩
  | _, .loc .c n, _ => ⟨(0 : ℂ), by simp [Exp.val, up], fun hn => by cases hn⟩
  | t, .add a b, hn => by
    simp only [Exp.tame, Bool.and_eq_true] at hn
    obtain ⟨x, ex, _⟩ := val_fin h hp a hn.1
    obtain ⟨y, ey, _⟩ := val_fin h hp b hn.2
    refine ⟨madd t x y, ?_, fun hn => by cases t <;> cases hn⟩
    cases t <;> simp [Exp.val, ex, ey, tadd, madd, up]
  | t, .sub a b, hn => by
    simp only [Exp.tame, Bool.and_eq_true] at hn
    obtain ⟨x, ex, _⟩ := val_fin h hp a hn.1
    obtain ⟨y, ey, _⟩ := val_fin h hp b hn.2
    refine ⟨msub t x y, ?_, fun hn => by cases t <;> cases hn⟩
    cases t <;> simp [Exp.val, ex, ey, tsub, msub, up]
  | t, .mul a b, hn => by
    simp only [Exp.tame, Bool.and_eq_true] at hn
    obtain ⟨x, ex, hx⟩ := val_fin h hp a hn.1
    obtain ⟨y, ey, hy⟩ := val_fin h hp b hn.2
    refine ⟨mmul t x y, ?_, fun hn => ?_⟩
    · cases t <;> simp [Exp.val, ex, ey, tmul, mmul, up]
    · cases t <;> (simp only [Exp.nz, Bool.and_eq_true] at hn; exact mul_ne_zero (hx hn.1) (hy hn.2))
  | t, .div a b, hn => by
    simp only [Exp.tame, Bool.and_eq_true] at hn
    obtain ⟨x, ex, _⟩ := val_fin h hp a hn.1.1
    obtain ⟨y, ey, hy⟩ := val_fin h hp b hn.1.2
    have hz := hy hn.2
    refine ⟨mdiv t x y, ?_, fun hn => by cases t <;> cases hn⟩
    cases t
    · simp only [Exp.val, ex, ey]; exact fin_div hz
    · simp only [Exp.val, ex, ey]; exact ofC_div _ hz
  | t, .neg a, hn => by
    obtain ⟨x, ex, hx⟩ := val_fin h hp a hn
    refine ⟨mneg t x, ?_, fun hn => ?_⟩
    · cases t <;> simp [Exp.val, ex, tneg, mneg, up]
    · cases t <;> exact neg_ne_zero.2 (hx hn)
  | _, .ofR a, hn => by
    obtain ⟨x, ex, hx⟩ := val_fin h hp a hn
    exact ⟨((x : ℝ) : ℂ), by simp [Exp.val, ex, up], fun hn => Complex.ofReal_ne_zero.2 (hx hn)⟩
  | _, .smul a b, hn => by
    simp only [Exp.tame, Bool.and_eq_true] at hn
    obtain ⟨x, ex, hx⟩ := val_fin h hp a hn.1
    obtain ⟨y, ey, hy⟩ := val_fin h hp b hn.2
    refine ⟨((x : ℝ) : ℂ) * (y : ℂ), by simp [Exp.val, ex, ey, up], fun hn => ?_⟩
    simp only [Exp.nz, Bool.and_eq_true] at hn
    exact mul_ne_zero (Complex.ofReal_ne_zero.2 (hx hn.1)) (hy hn.2)
  | _, .divr a b, hn => by
    simp only [Exp.tame, Bool.and_eq_true] at hn
    obtain ⟨x, ex, _⟩ := val_fin h hp a hn.1.1
    obtain ⟨y, ey, hy⟩ := val_fin h hp b hn.1.2
    refine ⟨(x : ℂ) / ((y : ℝ) : ℂ), ?_, fun hn => by cases hn⟩
    simp only [Exp.val, ex, ey]
    exact c_divr _ (hy hn.2)
  | _, .pow a k, hn => by
    obtain ⟨x, ex, hx⟩ := val_fin h hp a hn
    exact ⟨(x : ℝ) ^ k, by simp only [Exp.val, ex]; rfl, fun hn => pow_ne_zero k (hx hn)⟩
  | _, .abs a, hn => by
    obtain ⟨x, ex, _⟩ := val_fin h hp a hn
    exact ⟨‖(x : ℂ)‖, by simp [Exp.val, ex, up], fun hn => by cases hn⟩
  | _, .re a, hn => by
    obtain ⟨x, ex, _⟩ := val_fin h hp a hn
    exact ⟨(x : ℂ).re, by simp [Exp.val, ex, up], fun hn => by cases hn⟩
  | _, .conj a, hn => by
    obtain ⟨x, ex, _⟩ := val_fin h hp a hn
    exact ⟨(starRingEnd ℂ) (x : ℂ), by simp [Exp.val, ex, up], fun hn => by cases hn⟩
  | _, .norm _, _ => ⟨(1 : ℝ), by simp [Exp.val, up], fun hn => by cases hn⟩
  | _, .v _ _, _ => ⟨(0 : ℂ), by simp [Exp.val, up], fun hn => by cases hn⟩
  | _, .call _ _, _ => ⟨(0 : ℂ), by simp [Exp.val, up], fun hn => by cases hn⟩

/-! ### set-up code -/

/-- Members that are finite, and not zero, after a list of statements, when all denominators are not zero. -/
def setTame : List SInstr → Mems → Mems → Option (Mems × Mems)
  | [], M, D => some (M, D)
  | .set t n e :: is, M, D => if e.tame M D then setTame is ((t, n) :: M) (D.filter (· ≠ (t, n))) else setTame is (M.filter (· ≠ (t, n))) (D.filter (· ≠ (t, n)))
  | .den t n _ _ :: is, M, D => setTame is ((t, n) :: M) ((t, n) :: D)
  | .prop _ _ _ :: _, _, _ => none
  | .propMass _ _ :: _, _, _ => none
  | .part _ _ :: is, M, D => setTame is M D
  | .setMass _ _ :: is, M, D => setTame is M D
  | .setMom _ _ :: is, M, D => setTame is M D
  | .sprod _ _ :: is, M, D => setTame is M D
  | .update _ :: is, M, D => setTame is M D

/-- the denominator of a propagator of mass `m` and width `w` -/
noncomputable def poleDist (m w : ℝ) (P : V4 ℝ) : ℂ := ⟨msq P - m ^ 2, -(m * w)⟩

/-- sum or difference of two momenta -/
def VExp.sum (p : Nat → V4 ℝ) : VExp → V4 ℝ
  | .add i j => ⟨(p i).t + (p j).t, (p i).x + (p j).x, (p i).y + (p j).y, (p i).z + (p j).z⟩
  | .sub i j => ⟨(p i).t - (p j).t, (p i).x - (p j).x, (p i).y - (p j).y, (p i).z - (p j).z⟩

theorem VExp.eval_sum (p : Nat → V4 ℝ) (v : VExp) : v.eval (fun i => (p i).toX) = (v.sum p).toX := by
  cases v <;> simp [VExp.eval, VExp.sum, V4.toX]

theorem denominator_fin {Q : Propag XR} {m w : ℝ} (hm : Q.m = fin m) (hw : Q.w = fin w) (P : V4 ℝ) : (Propag.denominator Q P.toX : XC) = ofC (poleDist m w P) := by
  unfold Propag.denominator poleDist
  rw [hm, hw]
  simp only [V4.toX, fin_mul, fin_sub, fin_neg, msq]
  show XC.mk _ _ = XC.mk _ _
  congr 2 <;> ring

/-- Every propagator used has a finite mass and width and is not on its pole. -/
def OffPole (is : List SInstr) (pr : Nat → Propag XR) (p : Nat → V4 ℝ) : Prop := ∀ t n k v, SInstr.den t n k v ∈ is → ∃ m w, (pr k).m = fin m ∧ (pr k).w = fin w ∧
  (match t with | .c => poleDist m w (v.sum p) ≠ 0 | .r => (poleDist m w (v.sum p)).re ≠ 0)

omit [FPEnv] in
theorem FinOn.of_sub {M D M' D' : Mems} {r : Nat → XR} {c : Nat → XC} (h : FinOn M D r c) (hM : ∀ x ∈ M', x ∈ M) (hD : ∀ x ∈ D', x ∈ D) : FinOn M' D' r c :=
  ⟨fun n hn => h.r n (hM _ hn), fun n hn => h.c n (hM _ hn), fun n hn => h.dr n (hD _ hn), fun n hn => h.dc n (hD _ hn)⟩

omit [FPEnv] in
/-- assigning to a member -/
theorem FinOn.assign {M D : Mems} {o : Obj XR XC} (h : FinOn M D o.r o.c) (t : Ty) (n : Nat) (x : t.den XR XC) {M' D' : Mems}
    (hM : ∀ y ∈ M', y ∈ M ∧ y ≠ (t, n) ∨ y = (t, n) ∧ ∃ z, x = up t z) (hD : ∀ y ∈ D', y ∈ D ∧ y ≠ (t, n) ∨ y = (t, n) ∧ x ≠ up t (dflt t)) :
    FinOn M' D' (o.setMem t n x).r (o.setMem t n x).c := by
  cases t
  · refine ⟨fun k hk => ?_, fun k hk => ?_, fun k hk => ?_, fun k hk => ?_⟩
    · show ∃ z, (if k = n then x else o.r k) = fin z
      rcases hM _ hk with ⟨h1, h2⟩ | ⟨h1, z, hz⟩
      · rw [if_neg fun e => h2 (by rw [e])]; exact h.r k h1
      · cases h1; rw [if_pos rfl]; exact ⟨z, hz⟩
    · rcases hM _ hk with ⟨h1, _⟩ | ⟨h1, _⟩
      · exact h.c k h1
      · cases h1
    · show (if k = n then x else o.r k) ≠ fin 0
      rcases hD _ hk with ⟨h1, h2⟩ | ⟨h1, hz⟩
      · rw [if_neg fun e => h2 (by rw [e])]; exact h.dr k h1
      · cases h1; rw [if_pos rfl]; exact hz
    · rcases hD _ hk with ⟨h1, _⟩ | ⟨h1, _⟩
      · exact h.dc k h1
      · cases h1
  · refine ⟨fun k hk => ?_, fun k hk => ?_, fun k hk => ?_, fun k hk => ?_⟩
    · rcases hM _ hk with ⟨h1, _⟩ | ⟨h1, _⟩
      · exact h.r k h1
      · cases h1
    · show ∃ z, (if k = n then x else o.c k) = ofC z
      rcases hM _ hk with ⟨h1, h2⟩ | ⟨h1, z, hz⟩
      · rw [if_neg fun e => h2 (by rw [e])]; exact h.c k h1
      · cases h1; rw [if_pos rfl]; exact ⟨z, hz⟩
    · rcases hD _ hk with ⟨h1, _⟩ | ⟨h1, _⟩
      · exact h.dr k h1
      · cases h1
    · show (if k = n then x else o.c k) ≠ ofC 0
      rcases hD _ hk with ⟨h1, h2⟩ | ⟨h1, hz⟩
      · rw [if_neg fun e => h2 (by rw [e])]; exact h.dc k h1
      · cases h1; rw [if_pos rfl]; exact hz

theorem run_cons {junk : Kin XR XC} {par : Nat → XR} {q : Nat → V4 XR} {i : SInstr} {is : List SInstr} {o : Obj XR XC} (h : (runSetup junk par q (i :: is) o).1 = .ok ()) :
    (runSetup junk par q is (i.exec junk par q o).2).1 = .ok () ∧ (runSetup junk par q (i :: is) o).2 = (runSetup junk par q is (i.exec junk par q o).2).2 := by
  rw [runSetup, Prog.bind_run] at h ⊢
  cases e : i.exec junk par q o with
  | mk a o' =>
    rw [e] at h
    cases a with
    | ok u => exact ⟨h, rfl⟩
    | throw x => cases h
    | crash => cases h

theorem setTame_sound (junk : Kin XR XC) {par : Nat → XR} {ρ : Nat → ℝ} (hpar : ∀ n, par n = fin (ρ n)) (p : Nat → V4 ℝ) : ∀ (is : List SInstr) (M D M' D' : Mems) (o : Obj XR XC),
    setTame is M D = some (M', D') → FinOn M D o.r o.c → OffPole is o.pr p → (runSetup junk par (fun i => (p i).toX) is o).1 = .ok () →
    FinOn M' D' (runSetup junk par (fun i => (p i).toX) is o).2.r (runSetup junk par (fun i => (p i).toX) is o).2.c
  | [], M, D, M', D', o, h, hf, _, _ => by cases h; exact hf
  | i :: is, M, D, M', D', o, h, hf, ho, hr => by
    obtain ⟨hr', er⟩ := run_cons hr
    rw [er]
    have ho' : OffPole is o.pr p := fun t n k v hm => ho t n k v (List.mem_cons_of_mem _ hm)
    cases i with
    | set t n e =>
      rw [setTame] at h
      split_ifs at h with ht
      · refine setTame_sound junk hpar p is _ _ _ _ _ h ?_ (by cases t <;> exact ho') hr'
        obtain ⟨y, hy, _⟩ := val_fin hf hpar e ht
        refine hf.assign t n _ (fun x hx => ?_) (fun x hx => ?_)
        · rcases List.mem_cons.1 hx with rfl | hx
          · exact .inr ⟨rfl, y, hy⟩
          · by_cases hxe : x = (t, n)
            · exact .inr ⟨hxe, y, hy⟩
            · exact .inl ⟨hx, hxe⟩
        · rw [List.mem_filter] at hx
          exact .inl ⟨hx.1, by simpa using hx.2⟩
      · refine setTame_sound junk hpar p is _ _ _ _ _ h ?_ (by cases t <;> exact ho') hr'
        refine hf.assign t n _ (fun x hx => ?_) (fun x hx => ?_)
        · rw [List.mem_filter] at hx
          exact .inl ⟨hx.1, by simpa using hx.2⟩
        · rw [List.mem_filter] at hx
          exact .inl ⟨hx.1, by simpa using hx.2⟩
    | den t n k v =>
      rw [setTame] at h
      refine setTame_sound junk hpar p is _ _ _ _ _ h ?_ (by cases t <;> exact ho') hr'
      obtain ⟨m, w, em, ew, hz⟩ := ho t n k v (List.mem_cons_self ..)
      have hd := denominator_fin em ew (v.sum p)
      rw [← VExp.eval_sum] at hd
      cases t
      · have hd : (Cplx.re (Propag.denominator (o.pr k) (v.eval fun i => (p i).toX) : XC) : XR) = fin (poleDist m w (v.sum p)).re := by rw [hd]; rfl
        refine hf.assign .r n _ (fun x hx => ?_) (fun x hx => ?_)
        · by_cases hxe : x = (.r, n)
          · exact .inr ⟨hxe, _, hd⟩
          · exact .inl ⟨(List.mem_cons.1 hx).resolve_left hxe, hxe⟩
        · by_cases hxe : x = (.r, n)
          · exact .inr ⟨hxe, fun h0 => hz (fin_inj.1 (hd.symm.trans h0))⟩
          · exact .inl ⟨(List.mem_cons.1 hx).resolve_left hxe, hxe⟩
      · refine hf.assign .c n _ (fun x hx => ?_) (fun x hx => ?_)
        · by_cases hxe : x = (.c, n)
          · exact .inr ⟨hxe, _, hd⟩
          · exact .inl ⟨(List.mem_cons.1 hx).resolve_left hxe, hxe⟩
        · by_cases hxe : x = (.c, n)
          · refine .inr ⟨hxe, fun h0 => hz ?_⟩
            have := hd.symm.trans h0
            rw [← znum_ofC (poleDist m w (v.sum p)), this]
            rfl
          · exact .inl ⟨(List.mem_cons.1 hx).resolve_left hxe, hxe⟩
    | prop k m w => cases h
    | propMass k e => cases h
    | part i e => exact setTame_sound junk hpar p is _ _ _ _ _ h hf ho' hr'
    | setMass i e => exact setTame_sound junk hpar p is _ _ _ _ _ h hf ho' hr'
    | setMom i k => exact setTame_sound junk hpar p is _ _ _ _ _ h hf ho' hr'
    | sprod a d => exact setTame_sound junk hpar p is _ _ _ _ _ h hf ho' hr'
    | update a => exact setTame_sound junk hpar p is _ _ _ _ _ h hf ho' hr'

/-- the members that `set_momenta` assigns to -/
def assigned : List SInstr → Mems
  | [] => []
  | .set t n _ :: is => (t, n) :: assigned is
  | .den t n _ _ :: is => (t, n) :: assigned is
  | _ :: is => assigned is

/-- the members read by the squared amplitudes and not assigned to by `set_momenta`: set by the constructor or `set_masses` -/
def Proc.consts (P : Proc) : Mems := P.reads.filter fun x => !(assigned P.setMomenta).contains x

/-- Starting from the constants read (those divided by not zero) all members read are finite and all divided by not zero. -/
def Proc.tameSetup (P : Proc) : Bool := match setTame P.setMomenta P.consts (P.consts.filter P.divides.contains) with
  | some (M, D) => P.reads.all M.contains && P.divides.all D.contains && P.divides.all P.reads.contains
  | none => false

theorem all_tameSetup : all.all Proc.tameSetup = true := by decide +kernel

/-- The constants are finite, and those divided by are not zero. -/
def ConstsOk (P : Proc) (o : Obj XR XC) : Prop := FinOn P.consts (P.consts.filter P.divides.contains) o.r o.c

end
end Spinas.SM

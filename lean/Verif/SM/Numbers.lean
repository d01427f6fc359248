import Verif.SM.Closed

/-! Values of the constants of a class as real numbers: the environment of the amplitude methods for given parameters and momenta. -/

namespace Spinas.SM
open Spec Props XR Matrix

/-- value of a constant for the parameters `ρ` -/
noncomputable def Exp.num (ρ : Nat → ℝ) {t : Ty} (e : Exp t) : t.den ℝ ℂ := e.mean ⟨fun _ => 0, fun _ => 0, fun _ _ => 0⟩ (fun _ _ => 0) ⟨fun _ => 0, ρ, fun _ => 0⟩

/-- `1 - x^2` for one of the parameters `E` -/
def Exp.cosine (E : List Nat) : Exp .r → Bool
  | .sub (.lit n) (.mul (.loc _ i) (.loc _ j)) => n == 1 && i == j && E.contains i
  | _ => false

/-- Not zero when the parameters `D` are not zero and those of `E` smaller than one. -/
def Exp.nzc (D E : List Nat) : {t : Ty} → Exp t → Bool
  | .r, .lit n => n != 0
  | .r, .loc _ n => D.contains n
  | .r, .mul a b => a.nzc D E && b.nzc D E
  | .r, .div a b => a.nzc D E && b.nzc D E
  | .r, .neg a => a.nzc D E
  | .r, .sqrt a => (match a with | .lit n => n != 0 | _ => false) || a.cosine E
  | _, _ => false

/-- Built from the parameters `B`, dividing by such only and taking such roots only. -/
def Exp.finc (B D E : List Nat) : {t : Ty} → Exp t → Bool
  | .r, .lit _ => true
  | .r, .dec _ _ => true
  | .r, .loc _ n => B.contains n
  | .r, .add a b => a.finc B D E && b.finc B D E
  | .r, .sub a b => a.finc B D E && b.finc B D E
  | .r, .mul a b => a.finc B D E && b.finc B D E
  | .r, .div a b => a.finc B D E && b.finc B D E && b.nzc D E
  | .r, .neg a => a.finc B D E
  | .r, .sqrt a => (match a with | .lit _ => true | _ => false) || a.cosine E
  | .r, .pow a _ => a.finc B D E
  | _, _ => false

/-- mass of particle `i` -/
noncomputable def Proc.massNum (P : Proc) (ρ : Nat → ℝ) (i : Nat) : ℝ := match P.sym.bind fun S => S.gm i with
  | some e => e.num ρ
  | none => 0

/-- denominator of propagator `k` -/
noncomputable def Proc.denNum (P : Proc) (ρ : Nat → ℝ) (p : Nat → V4 ℝ) : Option (Nat × VExp) → ℂ
  | some (k, v) => match P.sym.bind fun S => S.gpm k, P.sym.bind fun S => S.gpw k with
    | some m, some w => poleDist (m.num ρ) (w.num ρ) (v.sum p)
    | _, _ => 0
  | none => 0

/-- what the methods see -/
noncomputable def Proc.env [FPEnv] (P : Proc) (ρ : Nat → ℝ) (p : Nat → V4 ℝ) : Env where
  r n := match P.sym.bind fun S => S.gr n with
    | some e => e.num ρ
    | none => (P.denNum ρ p (lastDen n P.setMomenta none)).re
  c n := P.denNum ρ p (lastDenC n P.setMomenta none)
  v := braTab (fun a => P.sym.bind fun S => S.gsp a) p (P.massNum ρ)

/-- The propagator `k` has a mass and a width that are finite. -/
def Proc.denFin (P : Proc) (B D E : List Nat) : Option (Nat × VExp) → Bool
  | some (k, _) => match P.sym.bind fun S => S.gpm k, P.sym.bind fun S => S.gpw k with
    | some m, some w => m.finc B D E && w.finc B D E
    | _, _ => false
  | none => false

/-- All constants the methods read, and all masses, are finite when the parameters `B` are real, the parameters `D` are not zero and those of `E` smaller than one. -/
def Proc.numericOnce (P : Proc) (B D E : List Nat) : Bool :=
  P.setMomenta.all SInstr.noProp &&
  (P.reads.all fun x => match x.1 with
    | .r => (match P.sym.bind fun S => S.gr x.2 with
      | some e => e.finc B D E
      | none => P.denFin B D E (lastDen x.2 P.setMomenta none))
    | .c => P.denFin B D E (lastDenC x.2 P.setMomenta none)) &&
  ([0, 1, 2, 3].all fun i => match P.sym.bind fun S => S.gm i with
    | some e => e.finc B D E
    | none => false)

/-- The same, and `set_masses` keeps it so. -/
def Proc.numeric (P : Proc) (B D E : List Nat) : Bool := decide (P.name ∉ staleMasses) && P.numericOnce B D E

section
variable {B D E : List Nat} {ρ : Nat → ℝ}

theorem cosine_num (hE : ∀ n ∈ E, ρ n ^ 2 < 1) : ∀ e : Exp .r, e.cosine E = true → (0 : ℝ) < e.num ρ := by
  intro e h
  unfold Exp.cosine at h
  split at h
  · rename_i n i j
    simp only [Bool.and_eq_true, beq_iff_eq, List.contains_iff_mem] at h
    obtain ⟨⟨rfl, rfl⟩, hi⟩ := h
    have := hE i hi
    show (0 : ℝ) < (1 : Nat) - ρ i * ρ i
    push_cast
    nlinarith
  · cases h

theorem nzc_num (hD : ∀ n ∈ D, ρ n ≠ 0) (hE : ∀ n ∈ E, ρ n ^ 2 < 1) : ∀ e : Exp .r, e.nzc D E = true → (e.num ρ : ℝ) ≠ 0
  | .lit n, h => by
    simp only [Exp.nzc, bne_iff_ne, ne_eq] at h
    show (n : ℝ) ≠ 0
    exact_mod_cast h
  | .loc _ n, h => hD n (by simpa [Exp.nzc] using h)
  | .mul a b, h => by
    simp only [Exp.nzc, Bool.and_eq_true] at h
    exact mul_ne_zero (a := (a.num ρ : ℝ)) (nzc_num hD hE a h.1) (nzc_num hD hE b h.2)
  | .div a b, h => by
    simp only [Exp.nzc, Bool.and_eq_true] at h
    exact div_ne_zero (a := (a.num ρ : ℝ)) (nzc_num hD hE a h.1) (nzc_num hD hE b h.2)
  | .neg a, h => neg_ne_zero (a := (a.num ρ : ℝ)).2 (nzc_num hD hE a h)
  | .sqrt a, h => by
    simp only [Exp.nzc, Bool.or_eq_true] at h
    rcases h with h | h
    · split at h
      · rename_i n
        have : n ≠ 0 := by simpa using h
        have : (0 : ℝ) < (n : ℝ) := by positivity
        exact (Real.sqrt_pos.2 this).ne'
      · cases h
    · exact (Real.sqrt_pos.2 (cosine_num hE a h)).ne'

variable [FPEnv]

theorem finc_val (hB : ∀ n ∈ E, n ∈ B) (hD : ∀ n ∈ D, ρ n ≠ 0) (hE : ∀ n ∈ E, ρ n ^ 2 < 1) {par : Nat → XR} (hpar : ∀ n ∈ B, par n = fin (ρ n)) :
    ∀ e : Exp .r, e.finc B D E = true → e.val (C := XC) (fun _ => int 0) (fun _ => czero) par = fin (e.num ρ : ℝ)
  | .lit n, _ => by simp only [Exp.val, s_int]; rfl
  | .dec m e, _ => by simp only [Exp.val, s_dec]; rfl
  | .loc .r n, h => hpar n (by simpa [Exp.finc] using h)
  | .add a b, h => by
    simp only [Exp.finc, Bool.and_eq_true] at h
    simp only [Exp.val, finc_val hB hD hE hpar a h.1, finc_val hB hD hE hpar b h.2]
    exact fin_add _ _
  | .sub a b, h => by
    simp only [Exp.finc, Bool.and_eq_true] at h
    simp only [Exp.val, finc_val hB hD hE hpar a h.1, finc_val hB hD hE hpar b h.2]
    exact fin_sub _ _
  | .mul a b, h => by
    simp only [Exp.finc, Bool.and_eq_true] at h
    simp only [Exp.val, finc_val hB hD hE hpar a h.1, finc_val hB hD hE hpar b h.2]
    exact fin_mul _ _
  | .div a b, h => by
    simp only [Exp.finc, Bool.and_eq_true] at h
    simp only [Exp.val, finc_val hB hD hE hpar a h.1.1, finc_val hB hD hE hpar b h.1.2]
    exact fin_div (nzc_num hD hE b h.2)
  | .neg a, h => by
    simp only [Exp.val, finc_val hB hD hE hpar a h]
    exact fin_neg _
  | .pow a k, h => by
    simp only [Exp.val, finc_val hB hD hE hpar a h]
    rfl
  | .sqrt a, h => by
    simp only [Exp.finc, Bool.or_eq_true] at h
    rcases h with h | h
    · split at h
      · rename_i n
        simp only [Exp.val, s_int]
        exact s_sqrt (Nat.cast_nonneg n)
      · cases h
    · have hp := cosine_num hE a h
      have : a.finc B D E = true := by
        unfold Exp.cosine at h
        split at h
        · simp only [Bool.and_eq_true, List.contains_iff_mem] at h
          simp only [Exp.finc, Bool.true_and, Bool.and_eq_true, List.contains_iff_mem]
          have := hB _ h.2
          have e := h.1.2
          rw [beq_iff_eq] at e
          exact ⟨this, e ▸ this⟩
        · cases h
      simp only [Exp.val, finc_val hB hD hE hpar a this]
      exact s_sqrt hp.le

/-- What a squared amplitude returns for given parameters and momenta. -/
theorem numericOnce_result {P : Proc} (hP : P ∈ all) (ops : List (ProcOp XR XC)) (hst : P.name ∉ staleMasses ∨ Unset ops) (hn : P.numericOnce B D E = true) (hB : ∀ n ∈ E, n ∈ B) (hD : ∀ n ∈ D, ρ n ≠ 0) (hE : ∀ n ∈ E, ρ n ^ 2 < 1) (mem : Nat → XR) (junk : Kin XR XC) (par : Nat → XR)
    (hpar : ∀ n ∈ B, parAfter P.massPar ops par n = fin (ρ n)) {o : Obj XR XC} (ho : o = runProcOps P ops (P.construct mem junk par).2)
    {p : Nat → V4 ℝ} (hs : ∀ i, i < 4 → OnShell (p i) (P.massNum ρ i)) (hm : ∀ i, i < 4 → P.massless i = false → P.massNum ρ i ≠ 0)
    (hr : ∀ n, (Ty.r, n) ∈ P.divides → (P.env ρ p).r n ≠ 0) (hc : ∀ n, (Ty.c, n) ∈ P.divides → (P.env ρ p).c n ≠ 0)
    (j : Kin XR XC) (xs : List (MCall XR XC)) (l : Loc XR XC) (k : Nat) (hk : P.isSquare k = true) :
    (P.runSetMomenta j (fun i => (p i).toX) o).1 = .ok () ∧
    (P.method l .r k [] (runCalls P xs (P.runSetMomenta j (fun i => (p i).toX) o).2)).1 = .ok (fin (meaning (P.env ρ p) .r P.methods k [])) := by
  simp only [Proc.numericOnce, Bool.and_eq_true] at hn
  obtain ⟨⟨hnp, hrd⟩, hms⟩ := hn
  rw [List.all_eq_true] at hrd hms
  have den : ∀ d, P.denFin B D E d = true → ∃ k v em ew M W, d = some (k, v) ∧ (P.sym.bind fun S => S.gpm k) = some em ∧ em.val0 (C := XC) (parAfter P.massPar ops par) = fin M ∧
      (P.sym.bind fun S => S.gpw k) = some ew ∧ ew.val0 (C := XC) (parAfter P.massPar ops par) = fin W ∧ P.denNum ρ p d = poleDist M W (v.sum p) := by
    intro d hd
    unfold Proc.denFin at hd
    unfold Proc.denNum
    split at hd
    · rename_i k v
      split at hd
      · rename_i m w em ew
        rw [Bool.and_eq_true] at hd
        refine ⟨k, v, m, w, _, _, rfl, em, finc_val hB hD hE hpar m hd.1, ew, finc_val hB hD hE hpar w hd.2, ?_⟩
        simp only [em, ew]
      · cases hd
    · cases hd
  refine Setting.result hP ops hst hnp mem junk par ho (m := P.massNum ρ) ⟨fun i hi => ?_, hm, hs, fun n hn => ?_, fun n hn => ?_, hr, hc, rfl⟩ j xs l k hk
  · have := hms i (by have : i = 0 ∨ i = 1 ∨ i = 2 ∨ i = 3 := by omega
                      rcases this with rfl | rfl | rfl | rfl <;> simp)
    split at this
    · rename_i e he
      refine ⟨e, he, ?_⟩
      rw [Proc.massNum, he]
      exact finc_val hB hD hE hpar e this
    · cases this
  · have := hrd _ hn
    simp only at this
    split at this
    · rename_i e he
      refine .inl ⟨e, he, ?_⟩
      simp only [Proc.env, he]
      exact finc_val hB hD hE hpar e this
    · rename_i he
      obtain ⟨k, v, em, ew, M, W, h1, h2, h3, h4, h5, h6⟩ := den _ this
      refine .inr ⟨k, v, em, ew, M, W, h1, h2, h3, h4, h5, ?_⟩
      simp only [Proc.env, he, h6]
  · have := hrd _ hn
    simp only at this
    exact den _ this

theorem numeric_result {P : Proc} (hP : P ∈ all) (hn : P.numeric B D E = true) (hB : ∀ n ∈ E, n ∈ B) (hD : ∀ n ∈ D, ρ n ≠ 0) (hE : ∀ n ∈ E, ρ n ^ 2 < 1) (mem : Nat → XR) (junk : Kin XR XC) (par : Nat → XR)
    (ops : List (ProcOp XR XC)) (hpar : ∀ n ∈ B, parAfter P.massPar ops par n = fin (ρ n)) {o : Obj XR XC} (ho : o = runProcOps P ops (P.construct mem junk par).2)
    {p : Nat → V4 ℝ} (hs : ∀ i, i < 4 → OnShell (p i) (P.massNum ρ i)) (hm : ∀ i, i < 4 → P.massless i = false → P.massNum ρ i ≠ 0)
    (hr : ∀ n, (Ty.r, n) ∈ P.divides → (P.env ρ p).r n ≠ 0) (hc : ∀ n, (Ty.c, n) ∈ P.divides → (P.env ρ p).c n ≠ 0)
    (j : Kin XR XC) (xs : List (MCall XR XC)) (l : Loc XR XC) (k : Nat) (hk : P.isSquare k = true) :
    (P.runSetMomenta j (fun i => (p i).toX) o).1 = .ok () ∧
    (P.method l .r k [] (runCalls P xs (P.runSetMomenta j (fun i => (p i).toX) o).2)).1 = .ok (fin (meaning (P.env ρ p) .r P.methods k [])) := by
  simp only [Proc.numeric, Bool.and_eq_true, decide_eq_true_eq] at hn
  exact numericOnce_result hP ops (.inl hn.1) hn.2 hB hD hE mem junk par hpar ho hs hm hr hc j xs l k hk

end
end Spinas.SM

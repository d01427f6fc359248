import Verif.SM.Den
import Verif.SM.Pure

/-! Soundness of the types: expressions and statements. -/

set_option linter.unusedSectionVars false

namespace Spinas.SM
open XR Ops Spec Prog

variable [FPEnv]

/-- Values of the local variables, as functions of the spins. -/
abbrev Vals := (t : Ty) → Nat → Asg → t.den XR XC
/-- initial values of accumulators -/
abbrev Accs := (t : Ty) → t.den XR XC

/-- A value, or the accumulator plus a value. -/
noncomputable def accVal (A : Accs) (b : Bool) (t : Ty) (x : t.den XR XC) : t.den XR XC := if b then tadd t (A t) x else x

/-- The local variables for the spins `ρ` are as the environment says. -/
structure Holds (E : TEnv) (Φ : Vals) (A : Accs) (l : Loc XR XC) (ρ : Asg) : Prop where
  i : ∀ n x, E.gi n = some x → l.i n = x.eval ρ
  v : ∀ t n b v, E.g t n = some (b, v) → l.get t n = accVal A b t (Φ t n ρ)

def EnvDen (Γ : Frames) (X : TCtx) (E : TEnv) (Φ Φ' : Vals) : Prop := ∀ t n b v, E.g t n = some (b, v) → Den Γ X t v (Φ t n) (Φ' t n)

/-- The meaning of the calls in the two frames agrees with their types. -/
structure Two (Γ : Frames) (X : TCtx) (S S' : Sem XR XC Unit) : Prop where
  mr : S'.mr = S.mr
  mc : S'.mc = S.mc
  v : ∀ a d xs T, X.sp a = some d → vtype X d xs = some T → ∃ D D', Den Γ X .c (.lin T) D D' ∧
    ∀ ρ : Asg, S.v a (xs.map (·.eval ρ)) () = (.ok (D ρ), ()) ∧ S'.v a (xs.map (·.eval ρ)) () = (.ok (D' ρ), ())
  f : ∀ k xs v, X.f k xs = some v → ∃ D D', Den Γ X .c v D D' ∧
    ∀ ρ : Asg, S.f k (xs.map (·.eval ρ)) () = (.ok (D ρ), ()) ∧ S'.f k (xs.map (·.eval ρ)) () = (.ok (D' ρ), ())

/-! ### integers -/

theorem optMap_length {α β : Type} {f : α → Option β} : ∀ {l : List α} {m : List β}, optMap f l = some m → m.length = l.length
  | [], _, h => by cases h; rfl
  | a :: l, m, h => by
    unfold optMap at h
    split at h
    · rename_i b bs h1 h2; cases h; simp [optMap_length h2]
    · cases h

theorem optMap_map {α β γ : Type} {f : α → Option β} {g : α → γ} {k : β → γ} (hf : ∀ a b, f a = some b → g a = k b) :
    ∀ {l : List α} {m : List β}, optMap f l = some m → l.map g = m.map k
  | [], _, h => by cases h; rfl
  | a :: l, m, h => by
    unfold optMap at h
    split at h
    · rename_i b bs h1 h2; cases h; simp [hf _ _ h1, optMap_map hf h2]
    · cases h

theorem symbol_sound {E : TEnv} {n m : Nat} (h : E.symbol n = some m) : E.gi n = some (.var m) := by
  unfold TEnv.symbol at h
  split at h
  · rename_i h1; cases h; exact h1
  · cases h

theorem isym_sound {E : TEnv} {li ρ : Asg} (hi : ∀ n x, E.gi n = some x → li n = x.eval ρ) : ∀ (e x : IExp), e.sym E = some x → e.eval li = x.eval ρ
  | .lit i, x, h => by cases h; rfl
  | .var n, x, h => hi n x h
  | .mul a b, x, h => by
    unfold IExp.sym at h
    split at h
    · rename_i i j h1 h2; cases h
      simp only [IExp.eval, isym_sound hi a _ h1, isym_sound hi b _ h2]
    · cases h
  | .loops ds, x, h => by
    unfold IExp.sym at h
    split at h
    · rename_i ns h1; cases h
      simp only [IExp.eval]
      rw [optMap_map (g := li) (k := ρ) (fun a b hab => hi a _ (symbol_sound hab)) h1]
    · cases h

theorem bsym_sound {E : TEnv} {li ρ : Asg} (hi : ∀ n x, E.gi n = some x → li n = x.eval ρ) : ∀ (e : BExp) (x : Bool), e.sym E = some x → e.eval li = x
  | .lt a b, x, h => by
    unfold BExp.sym at h
    split at h
    · rename_i i j h1 h2; cases h
      simp only [BExp.eval, isym_sound hi a _ h1, isym_sound hi b _ h2, IExp.eval]
    · cases h
  | .eq a b, x, h => by
    unfold BExp.sym at h
    split at h
    · rename_i i j h1 h2; cases h
      simp only [BExp.eval, isym_sound hi a _ h1, isym_sound hi b _ h2, IExp.eval]
    · cases h
  | .and a b, x, h => by
    unfold BExp.sym at h
    split at h
    · rename_i i j h1 h2; cases h
      simp only [BExp.eval, bsym_sound hi a _ h1, bsym_sound hi b _ h2]
    · cases h
  | .or a b, x, h => by
    unfold BExp.sym at h
    split at h
    · rename_i i j h1 h2; cases h
      simp only [BExp.eval, bsym_sound hi a _ h1, bsym_sound hi b _ h2]
    · cases h

theorem argsTy_sound {E : TEnv} {li ρ : Asg} (hi : ∀ n x, E.gi n = some x → li n = x.eval ρ) {args xs : List IExp} (h : optMap (·.sym E) args = some xs) :
    args.map (·.eval li) = xs.map (·.eval ρ) := optMap_map (isym_sound hi) h

/-! ### expressions -/

/-- The value of the expression. -/
def Ev (S : Sem XR XC Unit) (E : TEnv) (Φ : Vals) {t : Ty} (e : Exp t) (b : Bool) (D : Asg → t.den XR XC) : Prop :=
  ∀ l ρ A, Holds E Φ A l ρ → e.eval S l () = (.ok (accVal A b t (D ρ)), ())

theorem tadd_assoc (t : Ty) (x y z : t.den XR XC) : tadd t (tadd t x y) z = tadd t x (tadd t y z) := by
  cases t
  · exact xr_add_assoc x y z
  · exact xc_add_assoc x y z
theorem tsub_eq (t : Ty) (x y : t.den XR XC) : tsub t x y = tadd t x (tneg t y) := by
  cases t
  · exact xr_sub x y
  · exact xc_sub x y

theorem acc_add (A : Accs) (b : Bool) (t : Ty) (x y : t.den XR XC) : tadd t (accVal A b t x) y = accVal A b t (tadd t x y) := by
  unfold accVal
  cases b
  · rfl
  · exact tadd_assoc t _ _ _

section ev
variable {S : Sem XR XC Unit} {E : TEnv} {Φ : Vals}

theorem Ev.add {t : Ty} {e1 e2 : Exp t} {b : Bool} {D1 D2 : Asg → t.den XR XC} (h1 : Ev S E Φ e1 b D1) (h2 : Ev S E Φ e2 false D2) :
    Ev S E Φ (.add e1 e2) b (fun ρ => tadd t (D1 ρ) (D2 ρ)) := by
  intro l ρ A h
  rw [Exp.eval, bind_ok (h1 l ρ A h), bind_ok (h2 l ρ A h), pure_run, ← acc_add]
  rfl
theorem Ev.sub {t : Ty} {e1 e2 : Exp t} {b : Bool} {D1 D2 : Asg → t.den XR XC} (h1 : Ev S E Φ e1 b D1) (h2 : Ev S E Φ e2 false D2) :
    Ev S E Φ (.sub e1 e2) b (fun ρ => tadd t (D1 ρ) (tneg t (D2 ρ))) := by
  intro l ρ A h
  rw [Exp.eval, bind_ok (h1 l ρ A h), bind_ok (h2 l ρ A h), pure_run, ← acc_add, tsub_eq]
  rfl
theorem Ev.mul {t : Ty} {e1 e2 : Exp t} {D1 D2 : Asg → t.den XR XC} (h1 : Ev S E Φ e1 false D1) (h2 : Ev S E Φ e2 false D2) :
    Ev S E Φ (.mul e1 e2) false (fun ρ => tmul t (D1 ρ) (D2 ρ)) := by
  intro l ρ A h
  rw [Exp.eval, bind_ok (h1 l ρ A h), bind_ok (h2 l ρ A h)]; rfl
theorem Ev.div {t : Ty} {e1 e2 : Exp t} {D1 D2 : Asg → t.den XR XC} (h1 : Ev S E Φ e1 false D1) (h2 : Ev S E Φ e2 false D2) :
    Ev S E Φ (.div e1 e2) false (fun ρ => tdiv t (D1 ρ) (D2 ρ)) := by
  intro l ρ A h
  rw [Exp.eval, bind_ok (h1 l ρ A h), bind_ok (h2 l ρ A h)]; rfl
theorem Ev.smul {e1 : Exp .r} {e2 : Exp .c} {D1 : Asg → XR} {D2 : Asg → XC} (h1 : Ev S E Φ e1 false D1) (h2 : Ev S E Φ e2 false D2) :
    Ev S E Φ (.smul e1 e2) false (fun ρ => Cplx.smul (D1 ρ) (D2 ρ)) := by
  intro l ρ A h
  rw [Exp.eval, bind_ok (h1 l ρ A h), bind_ok (h2 l ρ A h)]; rfl
theorem Ev.neg {t : Ty} {e1 : Exp t} {D1 : Asg → t.den XR XC} (h1 : Ev S E Φ e1 false D1) : Ev S E Φ (.neg e1) false (fun ρ => tneg t (D1 ρ)) := by
  intro l ρ A h
  rw [Exp.eval, bind_ok (h1 l ρ A h)]; rfl
theorem Ev.ofR {e1 : Exp .r} {D1 : Asg → XR} (h1 : Ev S E Φ e1 false D1) : Ev S E Φ (.ofR e1) false (fun ρ => ofReal (D1 ρ)) := by
  intro l ρ A h
  rw [Exp.eval, bind_ok (h1 l ρ A h)]; rfl
theorem Ev.sqrt {e1 : Exp .r} {D1 : Asg → XR} (h1 : Ev S E Φ e1 false D1) : Ev S E Φ (.sqrt e1) false (fun ρ => Scalar.sqrt (D1 ρ)) := by
  intro l ρ A h
  rw [Exp.eval, bind_ok (h1 l ρ A h)]; rfl
theorem Ev.pow {e1 : Exp .r} {D1 : Asg → XR} (h1 : Ev S E Φ e1 false D1) (k : Nat) : Ev S E Φ (.pow e1 k) false (fun ρ => HasPow.pow (D1 ρ) k) := by
  intro l ρ A h
  rw [Exp.eval, bind_ok (h1 l ρ A h)]; rfl
theorem Ev.abs {e1 : Exp .c} {D1 : Asg → XC} (h1 : Ev S E Φ e1 false D1) : Ev S E Φ (.abs e1) false (fun ρ => Cplx.abs (D1 ρ)) := by
  intro l ρ A h
  rw [Exp.eval, bind_ok (h1 l ρ A h)]; rfl
theorem Ev.re {e1 : Exp .c} {D1 : Asg → XC} (h1 : Ev S E Φ e1 false D1) : Ev S E Φ (.re e1) false (fun ρ => Cplx.re (D1 ρ)) := by
  intro l ρ A h
  rw [Exp.eval, bind_ok (h1 l ρ A h)]; rfl
theorem Ev.conj {e1 : Exp .c} {D1 : Asg → XC} (h1 : Ev S E Φ e1 false D1) : Ev S E Φ (.conj e1) false (fun ρ => Cplx.conj (D1 ρ)) := by
  intro l ρ A h
  rw [Exp.eval, bind_ok (h1 l ρ A h)]; rfl

end ev

theorem addA_some {x y : Option (Bool × VTy)} {b : Bool} {v : VTy} (h : addA x y = some (b, v)) :
    ∃ p q, x = some (b, p) ∧ y = some (false, q) ∧ p.add q = some v := by
  unfold addA at h
  split at h
  · rename_i b' p q
    rw [Option.map_eq_some_iff] at h
    obtain ⟨z, h1, h2⟩ := h
    cases h2
    exact ⟨p, q, rfl, rfl, h1⟩
  · cases h

theorem plain1_some {f : VTy → Option VTy} {x : Option (Bool × VTy)} {b : Bool} {v : VTy} (h : plain1 f x = some (b, v)) :
    b = false ∧ ∃ p, x = some (false, p) ∧ f p = some v := by
  unfold plain1 at h
  split at h
  · rename_i p
    rw [Option.map_eq_some_iff] at h
    obtain ⟨z, h1, h2⟩ := h
    cases h2
    exact ⟨rfl, p, rfl, h1⟩
  · cases h

theorem plain2_some {f : VTy → VTy → Option VTy} {x y : Option (Bool × VTy)} {b : Bool} {v : VTy} (h : plain2 f x y = some (b, v)) :
    b = false ∧ ∃ p q, x = some (false, p) ∧ y = some (false, q) ∧ f p q = some v := by
  unfold plain2 at h
  split at h
  · rename_i p q
    rw [Option.map_eq_some_iff] at h
    obtain ⟨z, h1, h2⟩ := h
    cases h2
    exact ⟨rfl, p, q, rfl, rfl, h1⟩
  · cases h

theorem isZero_lit {e : Exp .r} (h : e.isZero = true) : e = .lit 0 := by
  revert h
  cases e <;> intro h <;> simp [Exp.isZero] at h
  rw [h]

section sound
variable {Γ : Frames} {X : TCtx} {S S' : Sem XR XC Unit} (W : Two Γ X S S')
include W

theorem expTy_sound {E : TEnv} {Φ Φ' : Vals} (hE : EnvDen Γ X E Φ Φ') : ∀ {t : Ty} (e : Exp t) {b : Bool} {v : VTy}, e.ty X E = some (b, v) →
    ∃ D D', Den Γ X t v D D' ∧ Ev S E Φ e b D ∧ Ev S' E Φ' e b D'
  | _, .lit n, b, v, h => by
    cases h
    exact ⟨_, _, den_const (t := .r) _, fun _ _ _ _ => rfl, fun _ _ _ _ => rfl⟩
  | _, .dec m e, b, v, h => by
    cases h
    exact ⟨_, _, den_const (t := .r) _, fun _ _ _ _ => rfl, fun _ _ _ _ => rfl⟩
  | _, .mem t n, b, v, h => by
    cases h
    refine ⟨_, _, den_const (S.mem t n), fun _ _ _ _ => rfl, fun _ _ _ _ => ?_⟩
    have : S'.mem t n = S.mem t n := by
      cases t
      · exact congrFun W.mr n
      · exact congrFun W.mc n
    rw [← this]; rfl
  | _, .loc t n, b, v, h => by
    refine ⟨_, _, hE t n b v h, fun l ρ A hl => ?_, fun l ρ A hl => ?_⟩
    · rw [← hl.v t n b v h]; rfl
    · rw [← hl.v t n b v h]; rfl
  | _, .add e1 e2, b, v, h => by
    obtain ⟨p, q, h1, h2, h3⟩ := addA_some h
    obtain ⟨D1, D1', d1, k1, k1'⟩ := expTy_sound hE e1 h1
    obtain ⟨D2, D2', d2, k2, k2'⟩ := expTy_sound hE e2 h2
    exact ⟨_, _, den_add h3 d1 d2, k1.add k2, k1'.add k2'⟩
  | _, .sub e1 e2, b, v, h => by
    unfold Exp.ty at h
    split at h
    · rename_i y h2
      split at h
      · rename_i y' hn
        obtain ⟨p, q, h1, hq, h3⟩ := addA_some h
        cases hq
        obtain ⟨D1, D1', d1, k1, k1'⟩ := expTy_sound hE e1 h1
        obtain ⟨D2, D2', d2, k2, k2'⟩ := expTy_sound hE e2 h2
        exact ⟨_, _, den_add h3 d1 (den_neg hn d2), k1.sub k2, k1'.sub k2'⟩
      · cases h
    · cases h
  | _, .mul e1 e2, b, v, h => by
    obtain ⟨rfl, p, q, h1, h2, h3⟩ := plain2_some h
    obtain ⟨D1, D1', d1, k1, k1'⟩ := expTy_sound hE e1 h1
    obtain ⟨D2, D2', d2, k2, k2'⟩ := expTy_sound hE e2 h2
    exact ⟨_, _, den_mul h3 d1 d2, k1.mul k2, k1'.mul k2'⟩
  | _, .div e1 e2, b, v, h => by
    obtain ⟨rfl, p, q, h1, h2, h3⟩ := plain2_some h
    obtain ⟨D1, D1', d1, k1, k1'⟩ := expTy_sound hE e1 h1
    obtain ⟨D2, D2', d2, k2, k2'⟩ := expTy_sound hE e2 h2
    exact ⟨_, _, den_div h3 d1 d2, k1.div k2, k1'.div k2'⟩
  | _, .neg e1, b, v, h => by
    obtain ⟨rfl, p, h1, h3⟩ := plain1_some h
    obtain ⟨D1, D1', d1, k1, k1'⟩ := expTy_sound hE e1 h1
    exact ⟨_, _, den_neg h3 d1, k1.neg, k1'.neg⟩
  | _, .ofR e1, b, v, h => by
    unfold Exp.ty at h
    split_ifs at h with hz
    · cases h
      rw [isZero_lit hz]
      exact ⟨_, _, den_ofR_zero, fun _ _ _ _ => rfl, fun _ _ _ _ => rfl⟩
    · obtain ⟨rfl, p, h1, h3⟩ := plain1_some h
      obtain ⟨D1, D1', d1, k1, k1'⟩ := expTy_sound hE e1 h1
      cases p <;> cases h3
      exact ⟨_, _, den_ofR d1, k1.ofR, k1'.ofR⟩
  | _, .smul e1 e2, b, v, h => by
    obtain ⟨rfl, p, q, h1, h2, h3⟩ := plain2_some h
    obtain ⟨D1, D1', d1, k1, k1'⟩ := expTy_sound hE e1 h1
    obtain ⟨D2, D2', d2, k2, k2'⟩ := expTy_sound hE e2 h2
    cases p with
    | scal d => exact ⟨_, _, den_smul h3 d1 d2, k1.smul k2, k1'.smul k2'⟩
    | _ => cases h3
  | _, .divr e1 e2, b, v, h => by cases h
  | _, .sqrt e1, b, v, h => by
    obtain ⟨rfl, p, h1, h3⟩ := plain1_some h
    obtain ⟨D1, D1', d1, k1, k1'⟩ := expTy_sound hE e1 h1
    unfold VTy.sqrt at h3
    split at h3 <;> cases h3
    exact ⟨_, _, den_sqrt d1, k1.sqrt, k1'.sqrt⟩
  | _, .pow e1 k, b, v, h => by
    obtain ⟨rfl, p, h1, h3⟩ := plain1_some h
    obtain ⟨D1, D1', d1, k1, k1'⟩ := expTy_sound hE e1 h1
    unfold VTy.pow at h3
    split at h3
    · cases h3
    · cases h3; exact ⟨_, _, den_pow d1 _, k1.pow _, k1'.pow _⟩
    · cases h3; exact ⟨_, _, den_pow_zero d1, k1.pow _, k1'.pow _⟩
    · split_ifs at h3 with hs
      cases h3; exact ⟨_, _, den_pow_aamp hs d1, k1.pow _, k1'.pow _⟩
    · cases h3
  | _, .abs e1, b, v, h => by
    obtain ⟨rfl, p, h1, h3⟩ := plain1_some h
    obtain ⟨D1, D1', d1, k1, k1'⟩ := expTy_sound hE e1 h1
    unfold VTy.abs at h3
    split at h3 <;> cases h3
    · exact ⟨_, _, den_abs_zero d1, k1.abs, k1'.abs⟩
    · exact ⟨_, _, den_abs_scal d1, k1.abs, k1'.abs⟩
    · exact ⟨_, _, den_abs_amp d1, k1.abs, k1'.abs⟩
  | _, .re e1, b, v, h => by
    obtain ⟨rfl, p, h1, h3⟩ := plain1_some h
    obtain ⟨D1, D1', d1, k1, k1'⟩ := expTy_sound hE e1 h1
    unfold VTy.re at h3
    split at h3 <;> cases h3
    exact ⟨_, _, den_re d1, k1.re, k1'.re⟩
  | _, .conj e1, b, v, h => by
    obtain ⟨rfl, p, h1, h3⟩ := plain1_some h
    obtain ⟨D1, D1', d1, k1, k1'⟩ := expTy_sound hE e1 h1
    unfold VTy.conj at h3
    split at h3 <;> cases h3
    · exact ⟨_, _, den_conj_zero d1, k1.conj, k1'.conj⟩
    · exact ⟨_, _, den_conj_amp d1, k1.conj, k1'.conj⟩
  | _, .norm ds, b, v, h => by
    unfold Exp.ty at h
    split at h
    · rename_i ns hns
      split_ifs at h with hX
      cases h
      subst hX
      have key : ∀ (Φ : Vals) l ρ A, Holds E Φ A l ρ → ds.map l.i = X.ns.map ρ := fun Φ l ρ A hl =>
        optMap_map (fun a b hab => hl.i a _ (symbol_sound hab)) hns
      refine ⟨_, _, den_norm, fun l ρ A hl => ?_, fun l ρ A hl => ?_⟩
      · rw [Exp.eval, key _ _ _ _ hl]; rfl
      · rw [Exp.eval, key _ _ _ _ hl]; rfl
    · cases h
  | _, .v a args, b, v, h => by
    unfold Exp.ty at h
    split at h
    · rename_i d xs hd hxs
      rw [Option.map_eq_some_iff] at h
      obtain ⟨T, hT, e⟩ := h
      cases e
      obtain ⟨D, D', hD, hv⟩ := W.v a d xs T hd hT
      refine ⟨D, D', hD, fun l ρ A hl => ?_, fun l ρ A hl => ?_⟩
      · rw [Exp.eval, argsTy_sound hl.i hxs]; exact (hv ρ).1
      · rw [Exp.eval, argsTy_sound hl.i hxs]; exact (hv ρ).2
    · cases h
  | _, .call f args, b, v, h => by
    unfold Exp.ty at h
    split at h
    · rename_i xs hxs
      rw [Option.map_eq_some_iff] at h
      obtain ⟨T, hT, e⟩ := h
      cases e
      obtain ⟨D, D', hD, hv⟩ := W.f f xs _ hT
      refine ⟨D, D', hD, fun l ρ A hl => ?_, fun l ρ A hl => ?_⟩
      · rw [Exp.eval, argsTy_sound hl.i hxs]; exact (hv ρ).1
      · rw [Exp.eval, argsTy_sound hl.i hxs]; exact (hv ρ).2
    · cases h

end sound

/-! ### statements -/

/-- one value replaced -/
def Vals.put (Φ : Vals) (t : Ty) (n : Nat) (D : Asg → t.den XR XC) : Vals := fun t' k => if h : t' = t then (if k = n then h ▸ D else Φ t' k) else Φ t' k

theorem Vals.put_same (Φ : Vals) (t : Ty) (n : Nat) (D : Asg → t.den XR XC) : Φ.put t n D t n = D := by
  unfold Vals.put; rw [dif_pos rfl, if_pos rfl]
theorem Vals.put_other (Φ : Vals) (t : Ty) (n : Nat) (D : Asg → t.den XR XC) {t' : Ty} {k : Nat} (h : ¬(t' = t ∧ k = n)) : Φ.put t n D t' k = Φ t' k := by
  unfold Vals.put
  split_ifs with h1 h2
  · exact absurd ⟨h1, h2⟩ h
  · rfl
  · rfl

theorem TEnv.g_set (E : TEnv) (t : Ty) (n : Nat) (x : Option (Bool × VTy)) (t' : Ty) (k : Nat) :
    (E.set t n x).g t' k = if t' = t ∧ k = n then x else E.g t' k := by
  cases t <;> cases t' <;> simp only [TEnv.set, TEnv.g, getD_upd] <;> simp
theorem TEnv.gi_set (E : TEnv) (t : Ty) (n : Nat) (x : Option (Bool × VTy)) (k : Nat) : (E.set t n x).gi k = E.gi k := by cases t <;> rfl
theorem TEnv.gi_seti (E : TEnv) (n : Nat) (x : Option IExp) (k : Nat) : (E.seti n x).gi k = if k = n then x else E.gi k := by
  simp only [TEnv.seti, TEnv.gi, getD_upd]
theorem TEnv.g_seti (E : TEnv) (n : Nat) (x : Option IExp) (t : Ty) (k : Nat) : (E.seti n x).g t k = E.g t k := by cases t <;> rfl

theorem loc_get_set (l : Loc XR XC) (t : Ty) (n : Nat) (x : t.den XR XC) (t' : Ty) (k : Nat) (h : ¬(t' = t ∧ k = n)) : (l.set t n x).get t' k = l.get t' k := by
  cases t <;> cases t' <;> simp only [Loc.set, Loc.get] <;> simp at h ⊢ <;> intro e <;> exact absurd e h
theorem loc_get_same (l : Loc XR XC) (t : Ty) (n : Nat) (x : t.den XR XC) : (l.set t n x).get t n = x := by
  cases t <;> simp [Loc.set, Loc.get]
theorem loc_set_i (l : Loc XR XC) (t : Ty) (n : Nat) (x : t.den XR XC) : (l.set t n x).i = l.i := by cases t <;> rfl
theorem loc_seti_get (l : Loc XR XC) (n : Nat) (x : Int) (t : Ty) (k : Nat) : (l.seti n x).get t k = l.get t k := by cases t <;> rfl

theorem EnvDen.set {Γ : Frames} {X : TCtx} {E : TEnv} {Φ Φ' : Vals} (h : EnvDen Γ X E Φ Φ') {t : Ty} (n : Nat) {b : Bool} {v : VTy} {D D' : Asg → t.den XR XC}
    (hD : Den Γ X t v D D') : EnvDen Γ X (E.set t n (some (b, v))) (Φ.put t n D) (Φ'.put t n D') := by
  intro t' k b' v' hk
  rw [TEnv.g_set] at hk
  split_ifs at hk with hc
  · obtain ⟨rfl, rfl⟩ := hc
    cases hk
    rw [Vals.put_same, Vals.put_same]; exact hD
  · rw [Vals.put_other _ _ _ _ hc, Vals.put_other _ _ _ _ hc]; exact h t' k b' v' hk

theorem EnvDen.seti {Γ : Frames} {X : TCtx} {E : TEnv} {Φ Φ' : Vals} (h : EnvDen Γ X E Φ Φ') (n : Nat) (x : Option IExp) : EnvDen Γ X (E.seti n x) Φ Φ' := by
  intro t k b v hk
  rw [TEnv.g_seti] at hk
  exact h t k b v hk

theorem Holds.set {E : TEnv} {Φ : Vals} {A : Accs} {l : Loc XR XC} {ρ : Asg} (h : Holds E Φ A l ρ) {t : Ty} (n : Nat) {b : Bool} {v : VTy} {D : Asg → t.den XR XC} :
    Holds (E.set t n (some (b, v))) (Φ.put t n D) A (l.set t n (accVal A b t (D ρ))) ρ := by
  refine ⟨fun k x hk => ?_, fun t' k b' v' hk => ?_⟩
  · rw [TEnv.gi_set] at hk
    rw [loc_set_i]; exact h.i k x hk
  · rw [TEnv.g_set] at hk
    split_ifs at hk with hc
    · obtain ⟨rfl, rfl⟩ := hc
      cases hk
      rw [loc_get_same, Vals.put_same]
    · rw [Vals.put_other _ _ _ _ hc, loc_get_set _ _ _ _ _ _ hc]; exact h.v t' k b' v' hk

theorem Holds.seti {E : TEnv} {Φ : Vals} {A : Accs} {l : Loc XR XC} {ρ : Asg} (h : Holds E Φ A l ρ) {n : Nat} {x : IExp} {y : Int} (hy : y = x.eval ρ) :
    Holds (E.seti n (some x)) Φ A (l.seti n y) ρ := by
  refine ⟨fun k z hk => ?_, fun t' k b' v' hk => ?_⟩
  · rw [TEnv.gi_seti] at hk
    show (if k = n then y else l.i k) = _
    split_ifs at hk ⊢
    · cases hk; exact hy
    · exact h.i k z hk
  · rw [TEnv.g_seti] at hk
    rw [loc_seti_get]; exact h.v t' k b' v' hk

abbrev Exec := Loc XR XC → Prog Unit (Flow XR XC)

/-- The code ends normally, with local variables as described. -/
def Runs (ex : Exec) (E : TEnv) (Φ : Vals) (E2 : TEnv) (Φ2 : Vals) : Prop :=
  ∀ l ρ A, Holds E Φ A l ρ → ∃ l2, ex l () = (.ok (.next l2), ()) ∧ Holds E2 Φ2 A l2 ρ
/-- The code returns a value. -/
def Rets (ex : Exec) (E : TEnv) (Φ : Vals) (t : Ty) (D : Asg → t.den XR XC) : Prop :=
  ∀ l ρ A, Holds E Φ A l ρ → ex l () = (.ok (.ret t (D ρ)), ())

/-- What the type of a statement says about it in the two frames. -/
def FlowOk (Γ : Frames) (X : TCtx) (ex ex' : Exec) (E : TEnv) (Φ Φ' : Vals) : TFlow → Prop
  | .next E2 => ∃ Φ2 Φ2', EnvDen Γ X E2 Φ2 Φ2' ∧ Runs ex E Φ E2 Φ2 ∧ Runs ex' E Φ' E2 Φ2'
  | .ret t v => ∃ D D', Den Γ X t v D D' ∧ Rets ex E Φ t D ∧ Rets ex' E Φ' t D'

theorem unroll_sound {Γ : Frames} {X : TCtx} {n : Nat} {body : TEnv → Option TFlow} {ex ex' : Exec}
    (hb : ∀ E r Φ Φ', body E = some r → EnvDen Γ X E Φ Φ' → FlowOk Γ X ex ex' E Φ Φ' r) :
    ∀ (xs : List Int) (E : TEnv) (r : TFlow) (Φ Φ' : Vals), tyUnroll n body xs E = some r → EnvDen Γ X E Φ Φ' →
      FlowOk Γ X (loopRun n ex xs) (loopRun n ex' xs) E Φ Φ' r
  | [], E, r, Φ, Φ', h, hE => by
    cases h
    exact ⟨Φ, Φ', hE, fun l ρ A hl => ⟨l, rfl, hl⟩, fun l ρ A hl => ⟨l, rfl, hl⟩⟩
  | x :: xs, E, r, Φ, Φ', h, hE => by
    unfold tyUnroll at h
    have start : ∀ (Ψ : Vals) l ρ A, Holds E Ψ A l ρ → Holds (E.seti n (some (.lit x))) Ψ A (l.seti n x) ρ := fun Ψ l ρ A hl => hl.seti rfl
    cases hr : body (E.seti n (some (.lit x))) with
    | none => rw [hr] at h; cases h
    | some r1 =>
      have h1 := hb _ _ _ _ hr (hE.seti n _)
      rw [hr] at h
      cases r1 with
      | ret t v =>
        cases h
        obtain ⟨D, D', hD, k, k'⟩ := h1
        refine ⟨D, D', hD, fun l ρ A hl => ?_, fun l ρ A hl => ?_⟩
        · rw [loopRun, bind_ok (k _ _ _ (start _ _ _ _ hl))]; rfl
        · rw [loopRun, bind_ok (k' _ _ _ (start _ _ _ _ hl))]; rfl
      | next E1 =>
        obtain ⟨Φ1, Φ1', hE1, k, k'⟩ := h1
        have h2 := unroll_sound hb xs E1 r Φ1 Φ1' h hE1
        cases r with
        | ret t v =>
          obtain ⟨D, D', hD, j, j'⟩ := h2
          refine ⟨D, D', hD, fun l ρ A hl => ?_, fun l ρ A hl => ?_⟩
          · obtain ⟨l1, e1, hl1⟩ := k _ _ _ (start _ _ _ _ hl)
            rw [loopRun, bind_ok e1]; exact j _ _ _ hl1
          · obtain ⟨l1, e1, hl1⟩ := k' _ _ _ (start _ _ _ _ hl)
            rw [loopRun, bind_ok e1]; exact j' _ _ _ hl1
        | next E2 =>
          obtain ⟨Φ2, Φ2', hE2, j, j'⟩ := h2
          refine ⟨Φ2, Φ2', hE2, fun l ρ A hl => ?_, fun l ρ A hl => ?_⟩
          · obtain ⟨l1, e1, hl1⟩ := k _ _ _ (start _ _ _ _ hl)
            obtain ⟨l2, e2, hl2⟩ := j _ _ _ hl1
            refine ⟨l2, ?_, hl2⟩
            rw [loopRun, bind_ok e1]; exact e2
          · obtain ⟨l1, e1, hl1⟩ := k' _ _ _ (start _ _ _ _ hl)
            obtain ⟨l2, e2, hl2⟩ := j' _ _ _ hl1
            refine ⟨l2, ?_, hl2⟩
            rw [loopRun, bind_ok e1]; exact e2

theorem seq_ok {Γ : Frames} {X : TCtx} {ex1 ex1' ex2 ex2' : Exec} {E E1 : TEnv} {Φ Φ' Φ1 Φ1' : Vals} {r : TFlow}
    (k : Runs ex1 E Φ E1 Φ1) (k' : Runs ex1' E Φ' E1 Φ1') (h2 : FlowOk Γ X ex2 ex2' E1 Φ1 Φ1' r) {ex ex' : Exec}
    (he : ∀ l l1, ex1 l () = (.ok (.next l1), ()) → ex l () = ex2 l1 ()) (he' : ∀ l l1, ex1' l () = (.ok (.next l1), ()) → ex' l () = ex2' l1 ()) :
    FlowOk Γ X ex ex' E Φ Φ' r := by
  cases r with
  | ret t v =>
    obtain ⟨D, D', hD, j, j'⟩ := h2
    refine ⟨D, D', hD, fun l ρ A hl => ?_, fun l ρ A hl => ?_⟩
    · obtain ⟨l1, e1, hl1⟩ := k _ _ _ hl
      rw [he _ _ e1]; exact j _ _ _ hl1
    · obtain ⟨l1, e1, hl1⟩ := k' _ _ _ hl
      rw [he' _ _ e1]; exact j' _ _ _ hl1
  | next E2 =>
    obtain ⟨Φ2, Φ2', hE2, j, j'⟩ := h2
    refine ⟨Φ2, Φ2', hE2, fun l ρ A hl => ?_, fun l ρ A hl => ?_⟩
    · obtain ⟨l1, e1, hl1⟩ := k _ _ _ hl
      obtain ⟨l2, e2, hl2⟩ := j _ _ _ hl1
      exact ⟨l2, by rw [he _ _ e1]; exact e2, hl2⟩
    · obtain ⟨l1, e1, hl1⟩ := k' _ _ _ hl
      obtain ⟨l2, e2, hl2⟩ := j' _ _ _ hl1
      exact ⟨l2, by rw [he' _ _ e1]; exact e2, hl2⟩

theorem exec_seq (S : Sem XR XC Unit) (a b : Stmt) (l l1 : Loc XR XC) (h : a.exec S l () = (.ok (.next l1), ())) : (Stmt.seq a b).exec S l () = b.exec S l1 () := by
  rw [Stmt.exec, bind_ok h]

/-- code that behaves the same when the environment holds -/
theorem FlowOk.congr {Γ : Frames} {X : TCtx} {ex ex' ex1 ex1' : Exec} {E : TEnv} {Φ Φ' : Vals} {r : TFlow} (h : FlowOk Γ X ex ex' E Φ Φ' r)
    (he : ∀ l ρ A, Holds E Φ A l ρ → ex1 l () = ex l ()) (he' : ∀ l ρ A, Holds E Φ' A l ρ → ex1' l () = ex' l ()) : FlowOk Γ X ex1 ex1' E Φ Φ' r := by
  cases r with
  | ret t v =>
    obtain ⟨D, D', hD, k, k'⟩ := h
    exact ⟨D, D', hD, fun l ρ A hl => by rw [he l ρ A hl]; exact k l ρ A hl, fun l ρ A hl => by rw [he' l ρ A hl]; exact k' l ρ A hl⟩
  | next E2 =>
    obtain ⟨Φ2, Φ2', hE2, k, k'⟩ := h
    exact ⟨Φ2, Φ2', hE2, fun l ρ A hl => by rw [he l ρ A hl]; exact k l ρ A hl, fun l ρ A hl => by rw [he' l ρ A hl]; exact k' l ρ A hl⟩

theorem stmtTy_sound {Γ : Frames} {X : TCtx} {S S' : Sem XR XC Unit} (W : Two Γ X S S') : ∀ (s : Stmt) (E : TEnv) (r : TFlow) (Φ Φ' : Vals),
    s.ty X E = some r → EnvDen Γ X E Φ Φ' → FlowOk Γ X (s.exec S) (s.exec S') E Φ Φ' r
  | .skip, E, r, Φ, Φ', h, hE => by
    cases h
    exact ⟨Φ, Φ', hE, fun l ρ A hl => ⟨l, rfl, hl⟩, fun l ρ A hl => ⟨l, rfl, hl⟩⟩
  | .seq a b, E, r, Φ, Φ', h, hE => by
    unfold Stmt.ty at h
    cases hr : a.ty X E with
    | none => rw [hr] at h; cases h
    | some r1 =>
      have h1 := stmtTy_sound W a E r1 Φ Φ' hr hE
      rw [hr] at h
      cases r1 with
      | ret t v =>
        cases h
        obtain ⟨D, D', hD, k, k'⟩ := h1
        refine ⟨D, D', hD, fun l ρ A hl => ?_, fun l ρ A hl => ?_⟩
        · rw [Stmt.exec, bind_ok (k _ _ _ hl)]; rfl
        · rw [Stmt.exec, bind_ok (k' _ _ _ hl)]; rfl
      | next E1 =>
        obtain ⟨Φ1, Φ1', hE1, k, k'⟩ := h1
        exact seq_ok k k' (stmtTy_sound W b E1 r Φ1 Φ1' h hE1) (exec_seq S a b) (exec_seq S' a b)
  | .seti n e, E, r, Φ, Φ', h, hE => by
    unfold Stmt.ty at h
    split at h
    · rename_i x hx
      cases h
      exact ⟨Φ, Φ', hE.seti n _, fun l ρ A hl => ⟨_, rfl, hl.seti (isym_sound hl.i e x hx)⟩, fun l ρ A hl => ⟨_, rfl, hl.seti (isym_sound hl.i e x hx)⟩⟩
    · cases h
  | .set t n e, E, r, Φ, Φ', h, hE => by
    unfold Stmt.ty at h
    split at h
    · rename_i x hx
      cases h
      obtain ⟨b, v⟩ := x
      obtain ⟨D, D', hD, k, k'⟩ := expTy_sound W hE e hx
      refine ⟨_, _, hE.set n hD, fun l ρ A hl => ⟨_, ?_, hl.set n⟩, fun l ρ A hl => ⟨_, ?_, hl.set n⟩⟩
      · rw [Stmt.exec, bind_ok (k _ _ _ hl)]; rfl
      · rw [Stmt.exec, bind_ok (k' _ _ _ hl)]; rfl
    · cases h
  | .ite b s t, E, r, Φ, Φ', h, hE => by
    unfold Stmt.ty at h
    split at h
    · rename_i hb
      refine (stmtTy_sound W s E r Φ Φ' h hE).congr (fun l ρ A hl => ?_) (fun l ρ A hl => ?_)
      · rw [Stmt.exec, if_pos (bsym_sound hl.i b _ hb)]
      · rw [Stmt.exec, if_pos (bsym_sound hl.i b _ hb)]
    · rename_i hb
      refine (stmtTy_sound W t E r Φ Φ' h hE).congr (fun l ρ A hl => ?_) (fun l ρ A hl => ?_)
      · rw [Stmt.exec, if_neg (by rw [bsym_sound hl.i b _ hb]; decide)]
      · rw [Stmt.exec, if_neg (by rw [bsym_sound hl.i b _ hb]; decide)]
    · cases h
  | .loop n lo incl hi step body, E, r, Φ, Φ', h, hE => by
    unfold Stmt.ty at h
    split at h
    · rename_i x hx
      refine (unroll_sound (fun E r Φ Φ' h hE => stmtTy_sound W body E r Φ Φ' h hE) _ E r Φ Φ' h hE).congr (fun l ρ A hl => ?_) (fun l ρ A hl => ?_)
      · rw [Stmt.exec, isym_sound hl.i hi _ hx]; rfl
      · rw [Stmt.exec, isym_sound hl.i hi _ hx]; rfl
    · cases h
  | .spins ds i, E, r, Φ, Φ', h, hE => by cases h
  | .throw e, E, r, Φ, Φ', h, hE => by cases h
  | .ret t e, E, r, Φ, Φ', h, hE => by
    unfold Stmt.ty at h
    split at h
    · rename_i v hx
      cases h
      obtain ⟨D, D', hD, k, k'⟩ := expTy_sound W hE e hx
      refine ⟨_, _, hD, fun l ρ A hl => ?_, fun l ρ A hl => ?_⟩
      · rw [Stmt.exec, bind_ok (k _ _ _ hl)]; rfl
      · rw [Stmt.exec, bind_ok (k' _ _ _ hl)]; rfl
    · cases h

/-! ### what a statement leaves alone -/

/-- Variables that are not assigned keep their values. -/
def KeepsT (s : Stmt) (l l2 : Loc XR XC) : Prop := (∀ n, n ∉ s.assigned → l2.i n = l.i n) ∧ ∀ t n, n ∉ s.assignedT t → l2.get t n = l.get t n

theorem setSpins_i (l : Loc XR XC) : ∀ (ds : List (Nat × Nat × Nat)) (xs : List (Int × Int)) (n : Nat), n ∉ (ds.flatMap fun d => [d.2.1, d.2.2]) → (setSpins l ds xs).i n = l.i n
  | [], xs, n, h => by cases xs <;> rfl
  | (_, a, b) :: ds, [], n, h => rfl
  | (_, a, b) :: ds, (x, y) :: xs, n, h => by
    simp only [List.flatMap_cons, List.cons_append, List.nil_append, List.mem_cons, not_or] at h
    rw [setSpins, setSpins_i _ ds xs n h.2.2]
    show (if n = b then y else if n = a then x else l.i n) = l.i n
    rw [if_neg h.2.1, if_neg h.1]
theorem setSpins_get (l : Loc XR XC) : ∀ (ds : List (Nat × Nat × Nat)) (xs : List (Int × Int)) (t : Ty) (n : Nat), (setSpins l ds xs).get t n = l.get t n
  | [], xs, t, n => by cases xs <;> rfl
  | (_, a, b) :: ds, [], t, n => rfl
  | (_, a, b) :: ds, (x, y) :: xs, t, n => by
    rw [setSpins, setSpins_get _ ds xs t n, loc_seti_get, loc_seti_get]

theorem keepsT_loop {ex : Exec} {n : Nat} {as : List Nat} {ts : Ty → List Nat}
    (hb : ∀ l l2 σ, ex l () = (.ok (.next l2), σ) → (∀ k, k ∉ as → l2.i k = l.i k) ∧ ∀ t k, k ∉ ts t → l2.get t k = l.get t k) :
    ∀ (xs : List Int) (l l2 : Loc XR XC) σ, loopRun n ex xs l () = (.ok (.next l2), σ) →
      (∀ k, k ∉ n :: as → l2.i k = l.i k) ∧ ∀ t k, k ∉ ts t → l2.get t k = l.get t k
  | [], l, l2, σ, h => by cases h; exact ⟨fun _ _ => rfl, fun _ _ _ => rfl⟩
  | x :: xs, l, l2, σ, h => by
    rw [loopRun, bind_run] at h
    rcases hr : ex (l.seti n x) () with ⟨r | e | _, ⟨⟩⟩ <;> rw [hr] at h
    · cases r with
      | ret t y => cases h
      | next l1 =>
        obtain ⟨h1, h2⟩ := hb _ _ _ hr
        obtain ⟨h3, h4⟩ := keepsT_loop hb xs l1 l2 σ h
        refine ⟨fun k hk => ?_, fun t k hk => ?_⟩
        · rw [h3 k hk, h1 k fun hm => hk (List.mem_cons_of_mem _ hm)]
          show (if k = n then x else l.i k) = l.i k
          rw [if_neg (by rintro rfl; exact hk List.mem_cons_self)]
        · rw [h4 t k hk, h2 t k hk, loc_seti_get]
    · cases h
    · cases h

theorem execT_keeps (S : Sem XR XC Unit) : ∀ (s : Stmt) (l l2 : Loc XR XC) σ, s.exec S l () = (.ok (.next l2), σ) → KeepsT s l l2
  | .skip, l, l2, σ, h => by cases h; exact ⟨fun _ _ => rfl, fun _ _ _ => rfl⟩
  | .seq a b, l, l2, σ, h => by
    rw [Stmt.exec, bind_run] at h
    rcases hr : a.exec S l () with ⟨r | e | _, ⟨⟩⟩ <;> rw [hr] at h
    · cases r with
      | ret t y => cases h
      | next l1 =>
        obtain ⟨h1, h2⟩ := execT_keeps S a l l1 _ hr
        obtain ⟨h3, h4⟩ := execT_keeps S b l1 l2 _ h
        refine ⟨fun n hn => ?_, fun t n hn => ?_⟩
        · rw [Stmt.assigned, List.mem_append, not_or] at hn
          rw [h3 n hn.2, h1 n hn.1]
        · rw [Stmt.assignedT, List.mem_append, not_or] at hn
          rw [h4 t n hn.2, h2 t n hn.1]
    · cases h
    · cases h
  | .seti n e, l, l2, σ, h => by
    cases h
    refine ⟨fun k hk => ?_, fun t k _ => loc_seti_get _ _ _ _ _⟩
    simp only [Stmt.assigned, List.mem_singleton] at hk
    exact if_neg hk
  | .set t n e, l, l2, σ, h => by
    rw [Stmt.exec, bind_run] at h
    rcases hr : e.eval S l () with ⟨r | e | _, ⟨⟩⟩ <;> rw [hr] at h <;> cases h
    refine ⟨fun k hk => by rw [loc_set_i], fun t' k hk => loc_get_set _ _ _ _ _ _ ?_⟩
    rintro ⟨rfl, rfl⟩
    simp [Stmt.assignedT] at hk
  | .ite b s t, l, l2, σ, h => by
    rw [Stmt.exec] at h
    split_ifs at h
    · obtain ⟨h1, h2⟩ := execT_keeps S s l l2 _ h
      refine ⟨fun n hn => ?_, fun t n hn => ?_⟩
      · rw [Stmt.assigned, List.mem_append, not_or] at hn; exact h1 n hn.1
      · rw [Stmt.assignedT, List.mem_append, not_or] at hn; exact h2 t n hn.1
    · obtain ⟨h1, h2⟩ := execT_keeps S t l l2 _ h
      refine ⟨fun n hn => ?_, fun t n hn => ?_⟩
      · rw [Stmt.assigned, List.mem_append, not_or] at hn; exact h1 n hn.2
      · rw [Stmt.assignedT, List.mem_append, not_or] at hn; exact h2 t n hn.2
  | .loop n lo incl hi step body, l, l2, σ, h => by
    exact keepsT_loop (ts := fun t => body.assignedT t) (fun l l2 σ h => execT_keeps S body l l2 σ h) _ l l2 σ h
  | .spins ds i, l, l2, σ, h => by
    cases h
    exact ⟨fun n hn => setSpins_i l ds _ n hn, fun t n _ => setSpins_get l ds _ t n⟩
  | .ret t e, l, l2, σ, h => by
    rw [Stmt.exec, bind_run] at h
    rcases hr : e.eval S l () with ⟨r | e | _, ⟨⟩⟩ <;> rw [hr] at h <;> cases h
  | .throw e, l, l2, σ, h => by cases h

end Spinas.SM

import Verif.SM.SignSound
import Verif.Props.SpinLoops

/-! The amplitude methods over the real and complex numbers: a meaning in terms of Mathlib's arithmetic, and when the computed value is finite and equal to it. -/

namespace Spinas.SM
open XR Props

/-! ### meaning -/

noncomputable section

/-- a default -/
def dflt : (t : Ty) → t.den ℝ ℂ
  | .r => (0 : ℝ)
  | .c => (0 : ℂ)

def madd : (t : Ty) → t.den ℝ ℂ → t.den ℝ ℂ → t.den ℝ ℂ
  | .r, a, b => (a + b : ℝ)
  | .c, a, b => (a + b : ℂ)
def msub : (t : Ty) → t.den ℝ ℂ → t.den ℝ ℂ → t.den ℝ ℂ
  | .r, a, b => (a - b : ℝ)
  | .c, a, b => (a - b : ℂ)
def mmul : (t : Ty) → t.den ℝ ℂ → t.den ℝ ℂ → t.den ℝ ℂ
  | .r, a, b => (a * b : ℝ)
  | .c, a, b => (a * b : ℂ)
def mdiv : (t : Ty) → t.den ℝ ℂ → t.den ℝ ℂ → t.den ℝ ℂ
  | .r, a, b => (a / b : ℝ)
  | .c, a, b => (a / b : ℂ)
def mneg : (t : Ty) → t.den ℝ ℂ → t.den ℝ ℂ
  | .r, a => (-a : ℝ)
  | .c, a => (-a : ℂ)

/-- What a method sees of the object, as numbers. -/
structure Env where
  r : Nat → ℝ
  c : Nat → ℂ
  v : Nat → List Int → ℂ

def Env.mem (N : Env) : (t : Ty) → Nat → t.den ℝ ℂ
  | .r, n => N.r n
  | .c, n => N.c n

def Exp.mean (N : Env) (f : Nat → List Int → ℂ) (l : Loc ℝ ℂ) : {t : Ty} → Exp t → t.den ℝ ℂ
  | _, .lit n => (n : ℝ)
  | _, .dec m e => (m / 10 ^ e : ℝ)
  | _, .mem t n => N.mem t n
  | _, .loc t n => l.get t n
  | t, .add a b => madd t (a.mean N f l) (b.mean N f l)
  | t, .sub a b => msub t (a.mean N f l) (b.mean N f l)
  | t, .mul a b => mmul t (a.mean N f l) (b.mean N f l)
  | t, .div a b => mdiv t (a.mean N f l) (b.mean N f l)
  | t, .neg a => mneg t (a.mean N f l)
  | _, .ofR a => ((a.mean N f l : ℝ) : ℂ)
  | _, .smul a b => ((a.mean N f l : ℝ) : ℂ) * (b.mean N f l : ℂ)
  | _, .divr a b => (a.mean N f l : ℂ) / ((b.mean N f l : ℝ) : ℂ)
  | _, .sqrt a => Real.sqrt (a.mean N f l : ℝ)
  | _, .pow a k => (a.mean N f l : ℝ) ^ k
  | _, .abs a => ‖(a.mean N f l : ℂ)‖
  | _, .re a => (a.mean N f l : ℂ).re
  | _, .conj a => (starRingEnd ℂ) (a.mean N f l : ℂ)
  | _, .norm ds => (Real.sqrt 2)⁻¹ ^ Spec.zeros (ds.map l.i)
  | _, .v a args => N.v a (args.map (·.eval l.i))
  | _, .call g args => f g (args.map (·.eval l.i))

def loopMean (n : Nat) (body : Loc ℝ ℂ → Flow ℝ ℂ) : List Int → Loc ℝ ℂ → Flow ℝ ℂ
  | [], l => .next l
  | x :: xs, l =>
    match body (l.seti n x) with
    | .next l' => loopMean n body xs l'
    | .ret t y => .ret t y

/-- A thrown exception has no meaning (here: nothing happens). -/
def Stmt.mean (N : Env) (f : Nat → List Int → ℂ) : Stmt → Loc ℝ ℂ → Flow ℝ ℂ
  | .skip, l => .next l
  | .seq a b, l =>
    match a.mean N f l with
    | .next l' => b.mean N f l'
    | .ret t x => .ret t x
  | .seti n e, l => .next (l.seti n (e.eval l.i))
  | .set t n e, l => .next (l.set t n (e.mean N f l))
  | .ite b s t, l => if b.eval l.i then s.mean N f l else t.mean N f l
  | .loop n lo incl hi step body, l => loopMean n (body.mean N f) (loopVals lo incl (hi.eval l.i) step) l
  | .spins ds i, l => .next (setSpins l ds (Process.spinorSpins (ds.map fun d => l.i d.1) (i.eval l.i)))
  | .ret t e, l => .ret t (e.mean N f l)
  | .throw _, l => .next l

/-- local variables at the start -/
def zeroLoc : Loc ℝ ℂ := ⟨fun _ => 0, fun _ => 0, fun _ => 0⟩

def Method.mean (N : Env) (f : Nat → List Int → ℂ) (m : Method) (t : Ty) (args : List Int) : t.den ℝ ℂ :=
  match m.body.mean N f (enter zeroLoc args) with
  | .ret t' x => if h : t' = t then h ▸ x else dflt t
  | .next _ => dflt t

def callMean (N : Env) : List Method → Nat → List Int → ℂ
  | [], _, _ => 0
  | m :: ms, k, args => if k = ms.length then m.mean N (callMean N ms) .c args else callMean N ms k args

/-- the meaning of method number `k` -/
def meaning (N : Env) (t : Ty) : List Method → Nat → List Int → t.den ℝ ℂ
  | [], _, _ => dflt t
  | m :: ms, k, args => if k = ms.length then m.mean N (callMean N ms) t args else meaning N t ms k args

end

/-! ### which members are read and divided by -/

/-- members by type and number -/
abbrev Mems := List (Ty × Nat)

/-- Not zero because members are not. -/
def Exp.nz (D : Mems) : {t : Ty} → Exp t → Bool
  | _, .lit n => n != 0
  | _, .mem t n => D.contains (t, n)
  | _, .mul a b => a.nz D && b.nz D
  | _, .smul a b => a.nz D && b.nz D
  | _, .pow a _ => a.nz D
  | _, .neg a => a.nz D
  | _, .ofR a => a.nz D
  | _, _ => false

/-- Reads only the members `M`, divides only by products of literals and of the members `D`, takes no root. -/
def Exp.tame (M D : Mems) : {t : Ty} → Exp t → Bool
  | _, .lit _ => true
  | _, .dec _ _ => true
  | _, .mem t n => M.contains (t, n)
  | _, .loc _ _ => true
  | _, .add a b => a.tame M D && b.tame M D
  | _, .sub a b => a.tame M D && b.tame M D
  | _, .mul a b => a.tame M D && b.tame M D
  | _, .div a b => a.tame M D && b.tame M D && b.nz D
  | _, .neg a => a.tame M D
  | _, .ofR a => a.tame M D
  | _, .smul a b => a.tame M D && b.tame M D
  | _, .divr a b => a.tame M D && b.tame M D && b.nz D
  | _, .sqrt _ => false
  | _, .pow a _ => a.tame M D
  | _, .abs a => a.tame M D
  | _, .re a => a.tame M D
  | _, .conj a => a.tame M D
  | _, .norm _ => true
  | _, .v _ _ => true
  | _, .call _ _ => true

def Stmt.tame (M D : Mems) : Stmt → Bool
  | .skip => true
  | .seq a b => a.tame M D && b.tame M D
  | .seti _ _ => true
  | .set _ _ e => e.tame M D
  | .ite _ s t => s.tame M D && t.tame M D
  | .loop _ _ _ _ _ b => b.tame M D
  | .spins _ _ => true
  | .ret _ e => e.tame M D
  | .throw _ => true

/-- the members occurring in an expression -/
def Exp.mems : {t : Ty} → Exp t → Mems
  | _, .lit _ => []
  | _, .dec _ _ => []
  | _, .mem t n => [(t, n)]
  | _, .loc _ _ => []
  | _, .add a b => a.mems ++ b.mems
  | _, .sub a b => a.mems ++ b.mems
  | _, .mul a b => a.mems ++ b.mems
  | _, .div a b => a.mems ++ b.mems
  | _, .neg a => a.mems
  | _, .ofR a => a.mems
  | _, .smul a b => a.mems ++ b.mems
  | _, .divr a b => a.mems ++ b.mems
  | _, .sqrt a => a.mems
  | _, .pow a _ => a.mems
  | _, .abs a => a.mems
  | _, .re a => a.mems
  | _, .conj a => a.mems
  | _, .norm _ => []
  | _, .v _ _ => []
  | _, .call _ _ => []

/-- the members occurring in divisors -/
def Exp.divisors : {t : Ty} → Exp t → Mems
  | _, .add a b => a.divisors ++ b.divisors
  | _, .sub a b => a.divisors ++ b.divisors
  | _, .mul a b => a.divisors ++ b.divisors
  | _, .div a b => a.divisors ++ b.divisors ++ b.mems
  | _, .neg a => a.divisors
  | _, .ofR a => a.divisors
  | _, .smul a b => a.divisors ++ b.divisors
  | _, .divr a b => a.divisors ++ b.divisors ++ b.mems
  | _, .sqrt a => a.divisors
  | _, .pow a _ => a.divisors
  | _, .abs a => a.divisors
  | _, .re a => a.divisors
  | _, .conj a => a.divisors
  | _, _ => []

/-- everything an expression occurring in a statement gives -/
def Stmt.collect (g : (t : Ty) → Exp t → Mems) : Stmt → Mems
  | .seq a b => a.collect g ++ b.collect g
  | .set t _ e => g t e
  | .ite _ s t => s.collect g ++ t.collect g
  | .loop _ _ _ _ _ b => b.collect g
  | .ret t e => g t e
  | _ => []

/-- the members read by the amplitude methods -/
def Proc.reads (P : Proc) : Mems := (P.methods.flatMap fun m => m.body.collect fun _ e => e.mems).eraseDups
/-- the members the amplitude methods divide by -/
def Proc.divides (P : Proc) : Mems := (P.methods.flatMap fun m => m.body.collect fun _ e => e.divisors).eraseDups

def Proc.tame (P : Proc) : Bool := P.methods.all fun m => m.body.tame P.reads P.divides

/-! ### soundness -/

section
variable [FPEnv]

noncomputable def up : (t : Ty) → t.den ℝ ℂ → t.den XR XC
  | .r, x => fin x
  | .c, z => ofC z

noncomputable def Loc.up (l : Loc ℝ ℂ) : Loc XR XC := ⟨l.i, fun n => fin (l.r n), fun n => ofC (l.c n)⟩

noncomputable def Flow.up : Flow ℝ ℂ → Flow XR XC
  | .next l => .next l.up
  | .ret t x => .ret t (SM.up t x)

/-- The members `M` are finite numbers, given by `N`; those of `D` are not zero. -/
structure Lifted (M D : Mems) (N : Env) (mr : Nat → XR) (mc : Nat → XC) : Prop where
  r : ∀ n, (Ty.r, n) ∈ M → mr n = fin (N.r n)
  c : ∀ n, (Ty.c, n) ∈ M → mc n = ofC (N.c n)
  dr : ∀ n, (Ty.r, n) ∈ D → N.r n ≠ 0
  dc : ∀ n, (Ty.c, n) ∈ D → N.c n ≠ 0

def NonZero : (t : Ty) → t.den ℝ ℂ → Prop
  | .r, x => (x : ℝ) ≠ 0
  | .c, x => (x : ℂ) ≠ 0

omit [FPEnv] in
theorem nz_mean {M D : Mems} {N : Env} {mr : Nat → XR} {mc : Nat → XC} (h : Lifted M D N mr mc) (f : Nat → List Int → ℂ) (l : Loc ℝ ℂ) :
    ∀ {t : Ty} (e : Exp t), e.nz D = true → NonZero t (e.mean N f l)
  | _, .lit n, hn => by
    simp only [Exp.nz, bne_iff_ne, ne_eq] at hn
    show (n : ℝ) ≠ 0
    exact_mod_cast hn
  | _, .mem .r n, hn => h.dr n (by simpa [Exp.nz] using hn)
  | _, .mem .c n, hn => h.dc n (by simpa [Exp.nz] using hn)
  | .r, .mul a b, hn => by
    simp only [Exp.nz, Bool.and_eq_true] at hn
    exact mul_ne_zero (a := (a.mean N f l : ℝ)) (nz_mean h f l a hn.1) (nz_mean h f l b hn.2)
  | .c, .mul a b, hn => by
    simp only [Exp.nz, Bool.and_eq_true] at hn
    exact mul_ne_zero (a := (a.mean N f l : ℂ)) (nz_mean h f l a hn.1) (nz_mean h f l b hn.2)
  | _, .smul a b, hn => by
    simp only [Exp.nz, Bool.and_eq_true] at hn
    exact mul_ne_zero (a := ((a.mean N f l : ℝ) : ℂ)) (Complex.ofReal_ne_zero.2 (nz_mean h f l a hn.1)) (nz_mean h f l b hn.2)
  | _, .pow a k, hn => pow_ne_zero (a := (a.mean N f l : ℝ)) k (nz_mean h f l a hn)
  | .r, .neg a, hn => neg_ne_zero (a := (a.mean N f l : ℝ)).2 (nz_mean h f l a hn)
  | .c, .neg a, hn => neg_ne_zero (a := (a.mean N f l : ℂ)).2 (nz_mean h f l a hn)
  | _, .ofR a, hn => Complex.ofReal_ne_zero.2 (nz_mean h f l a hn)

variable {σ : Type}

/-- The calls available give finite numbers. -/
structure Good (M D : Mems) (N : Env) (f : Nat → List Int → ℂ) (S : Sem XR XC σ) : Prop where
  mem : Lifted M D N S.mr S.mc
  v : ∀ a args, Post (S.v a args) fun x => x = ofC (N.v a args)
  f : ∀ g args, Post (S.f g args) fun x => x = ofC (f g args)

theorem tame_exp {M D : Mems} {N : Env} {f : Nat → List Int → ℂ} {S : Sem XR XC σ} (h : Good M D N f S) (l : Loc ℝ ℂ) :
    ∀ {t : Ty} (e : Exp t), e.tame M D = true → Post (e.eval S l.up) fun x => x = up t (e.mean N f l)
  | _, .lit n, _ => Post.pure (by simp [Exp.mean, up])
  | _, .dec m e, _ => Post.pure (by simp [Exp.mean, up])
  | _, .mem .r n, hn => Post.pure (h.mem.r n (by simpa [Exp.tame] using hn))
  | _, .mem .c n, hn => Post.pure (h.mem.c n (by simpa [Exp.tame] using hn))
  | _, .loc .r n, _ => Post.pure rfl
  | _, .loc .c n, _ => Post.pure rfl
  | t, .add a b, hn => by
    simp only [Exp.tame, Bool.and_eq_true] at hn
    refine (tame_exp h l a hn.1).bind fun x hx => (tame_exp h l b hn.2).bind fun y hy => Post.pure ?_
    subst hx hy
    cases t <;> simp [tadd, madd, up, Exp.mean]
  | t, .sub a b, hn => by
    simp only [Exp.tame, Bool.and_eq_true] at hn
    refine (tame_exp h l a hn.1).bind fun x hx => (tame_exp h l b hn.2).bind fun y hy => Post.pure ?_
    subst hx hy
    cases t <;> simp [tsub, msub, up, Exp.mean]
  | t, .mul a b, hn => by
    simp only [Exp.tame, Bool.and_eq_true] at hn
    refine (tame_exp h l a hn.1).bind fun x hx => (tame_exp h l b hn.2).bind fun y hy => Post.pure ?_
    subst hx hy
    cases t <;> simp [tmul, mmul, up, Exp.mean]
  | t, .div a b, hn => by
    simp only [Exp.tame, Bool.and_eq_true] at hn
    refine (tame_exp h l a hn.1.1).bind fun x hx => (tame_exp h l b hn.1.2).bind fun y hy => Post.pure ?_
    subst hx hy
    have hz := nz_mean h.mem f l b hn.2
    cases t
    · exact fin_div hz
    · exact ofC_div _ hz
  | t, .neg a, hn => by
    refine (tame_exp h l a hn).bind fun x hx => Post.pure ?_
    subst hx
    cases t <;> simp [tneg, mneg, up, Exp.mean]
  | _, .ofR a, hn => by
    refine (tame_exp h l a hn).bind fun x hx => Post.pure ?_
    subst hx
    simp [up, Exp.mean]
  | _, .smul a b, hn => by
    simp only [Exp.tame, Bool.and_eq_true] at hn
    refine (tame_exp h l a hn.1).bind fun x hx => (tame_exp h l b hn.2).bind fun y hy => Post.pure ?_
    subst hx hy
    simp [up, Exp.mean]
  | _, .divr a b, hn => by
    simp only [Exp.tame, Bool.and_eq_true] at hn
    refine (tame_exp h l a hn.1.1).bind fun x hx => (tame_exp h l b hn.1.2).bind fun y hy => Post.pure ?_
    subst hx hy
    exact c_divr _ (nz_mean h.mem f l b hn.2)
  | _, .pow a k, hn => by
    refine (tame_exp h l a hn).bind fun x hx => Post.pure ?_
    subst hx
    rfl
  | _, .abs a, hn => by
    refine (tame_exp h l a hn).bind fun x hx => Post.pure ?_
    subst hx
    simp [up, Exp.mean]
  | _, .re a, hn => by
    refine (tame_exp h l a hn).bind fun x hx => Post.pure ?_
    subst hx
    simp [up, Exp.mean]
  | _, .conj a, hn => by
    refine (tame_exp h l a hn).bind fun x hx => Post.pure ?_
    subst hx
    simp [up, Exp.mean]
  | _, .norm ds, _ => Post.pure (spinNorm_fin _)
  | _, .v a args, _ => h.v a _
  | _, .call g args, _ => h.f g _

omit [FPEnv] in
theorem up_seti (l : Loc ℝ ℂ) (n : Nat) (x : Int) : l.up.seti n x = (l.seti n x).up := rfl
omit [FPEnv] in
theorem up_set (l : Loc ℝ ℂ) (t : Ty) (n : Nat) (x : t.den ℝ ℂ) : l.up.set t n (up t x) = (l.set t n x).up := by
  cases t <;> simp only [Loc.up, Loc.set, up, Loc.mk.injEq, true_and, and_true] <;> funext k <;> split_ifs <;> rfl
omit [FPEnv] in
theorem up_setSpins : ∀ (ds : List (Nat × Nat × Nat)) (xs : List (Int × Int)) (l : Loc ℝ ℂ), setSpins l.up ds xs = (setSpins l ds xs).up
  | [], _, _ => rfl
  | _ :: _, [], _ => rfl
  | (_, a, b) :: ds, (x, y) :: xs, l => by
    rw [setSpins, setSpins, up_seti, up_seti]
    exact up_setSpins ds xs _

omit [FPEnv] in
theorem tame_loop {n : Nat} {body : Loc XR XC → Prog σ (Flow XR XC)} {g : Loc ℝ ℂ → Flow ℝ ℂ} (h : ∀ l : Loc ℝ ℂ, Post (body l.up) fun x => x = (g l).up) :
    ∀ (xs : List Int) (l : Loc ℝ ℂ), Post (loopRun n body xs l.up) fun x => x = (loopMean n g xs l).up
  | [], l => Post.pure rfl
  | x :: xs, l => by
    rw [loopRun, loopMean, up_seti]
    refine (h _).bind fun fl hfl => ?_
    subst hfl
    cases g (l.seti n x) with
    | next l' => exact tame_loop h xs l'
    | ret t y => exact Post.pure rfl

theorem tame_stmt {M D : Mems} {N : Env} {f : Nat → List Int → ℂ} {S : Sem XR XC σ} (h : Good M D N f S) :
    ∀ (s : Stmt) (l : Loc ℝ ℂ), s.tame M D = true → Post (s.exec S l.up) fun x => x = (s.mean N f l).up
  | .skip, l, _ => Post.pure rfl
  | .seq a b, l, hn => by
    simp only [Stmt.tame, Bool.and_eq_true] at hn
    refine (tame_stmt h a l hn.1).bind fun fl hfl => ?_
    subst hfl
    rw [Stmt.mean]
    cases a.mean N f l with
    | next l' => exact tame_stmt h b l' hn.2
    | ret t x => exact Post.pure rfl
  | .seti n e, l, _ => Post.pure rfl
  | .set t n e, l, hn => by
    refine (tame_exp h l e hn).bind fun x hx => Post.pure ?_
    subst hx
    rw [up_set]
    rfl
  | .ite c a b, l, hn => by
    simp only [Stmt.tame, Bool.and_eq_true] at hn
    rw [Stmt.exec, Stmt.mean]
    show Post (if c.eval l.i = true then _ else _) _
    split_ifs
    · exact tame_stmt h a l hn.1
    · exact tame_stmt h b l hn.2
  | .loop n lo incl hi step body, l, hn => tame_loop (fun l' => tame_stmt h body l' hn) _ l
  | .spins ds i, l, _ => Post.pure (by rw [up_setSpins]; rfl)
  | .ret t e, l, hn => by
    refine (tame_exp h l e hn).bind fun x hx => Post.pure ?_
    subst hx
    rfl
  | .throw e, l, _ => Post.throw e _

omit [FPEnv] in
theorem up_enter (args : List Int) : enter zeroLoc.up args = (enter zeroLoc args).up := rfl

theorem tame_run {M D : Mems} {N : Env} {f : Nat → List Int → ℂ} {S : Sem XR XC σ} (h : Good M D N f S) {m : Method} (hm : m.body.tame M D = true) (t : Ty) (args : List Int) :
    Post (m.run S zeroLoc.up t args) fun x => x = up t (m.mean N f t args) := by
  unfold Method.run
  split_ifs
  · rw [up_enter]
    refine (tame_stmt h m.body _ hm).bind fun fl hfl => ?_
    subst hfl
    unfold Method.mean
    cases m.body.mean N f (enter zeroLoc args) with
    | next l => exact Post.crash _
    | ret t' x =>
      by_cases ht : t' = t
      · subst ht
        simp only [Flow.up, dif_pos]
        exact Post.pure rfl
      · simp only [Flow.up, dif_neg ht]
        exact Post.crash _
  · exact Post.crash _

theorem tame_call {M D : Mems} {N : Env} {mr : Nat → XR} {mc : Nat → XC} {v : Nat → List Int → Prog σ XC} (h : Lifted M D N mr mc)
    (hv : ∀ a args, Post (v a args) fun x => x = ofC (N.v a args)) :
    ∀ (ms : List Method), ms.all (fun m => m.body.tame M D) = true → ∀ k args, Post (callable mr mc v zeroLoc.up ms k args) fun x => x = ofC (callMean N ms k args)
  | [], _, _, _ => Post.crash _
  | m :: ms, hm, k, args => by
    rw [List.all_cons, Bool.and_eq_true] at hm
    rw [callable, callMean]
    split_ifs
    · exact tame_run ⟨h, hv, fun g xs => tame_call h hv ms hm.2 g xs⟩ hm.1 .c args
    · exact tame_call h hv ms hm.2 k args

theorem tame_invoke {M D : Mems} {N : Env} {mr : Nat → XR} {mc : Nat → XC} {v : Nat → List Int → Prog σ XC} (h : Lifted M D N mr mc)
    (hv : ∀ a args, Post (v a args) fun x => x = ofC (N.v a args)) (t : Ty) :
    ∀ (ms : List Method), ms.all (fun m => m.body.tame M D) = true → ∀ k args, Post (invoke mr mc v zeroLoc.up t ms k args) fun x => x = up t (meaning N t ms k args)
  | [], _, _, _ => Post.crash _
  | m :: ms, hm, k, args => by
    rw [List.all_cons, Bool.and_eq_true] at hm
    rw [invoke, meaning]
    split_ifs
    · exact tame_run ⟨h, hv, fun g xs => tame_call h hv ms hm.2 g xs⟩ hm.1 t args
    · exact tame_invoke h hv t ms hm.2 k args

end
end Spinas.SM

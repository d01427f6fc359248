import Verif.SM.Scaling
import Mathlib.Algebra.Order.Ring.Pow
import Mathlib.Algebra.Order.Field.Power
import Mathlib.Analysis.Complex.Arg

/-! Soundness of the degrees: in other units every number is multiplied by the power of the units that its degree says. -/

namespace Spinas.SM
open Spec Props XR Matrix

/-- New units: masses, momenta and widths are multiplied by `a`, couplings by `b`. -/
structure Units where
  a : ℝ
  b : ℝ
  pos : 0 < a
  ne : b ≠ 0

namespace Units
variable (U : Units)

/-- factor of a number of degree `d` -/
noncomputable def fac (d : Deg) : ℝ := U.a ^ d.1 * U.b ^ d.2

theorem fac_ne (d : Deg) : U.fac d ≠ 0 := mul_ne_zero (zpow_ne_zero _ U.pos.ne') (zpow_ne_zero _ U.ne)
theorem fac_zero : U.fac (0, 0) = 1 := by simp [fac]
theorem fac_add (d e : Deg) : U.fac (d.1 + e.1, d.2 + e.2) = U.fac d * U.fac e := by
  simp only [fac, zpow_add₀ U.pos.ne', zpow_add₀ U.ne]; ring
theorem fac_sub (d e : Deg) : U.fac (d.1 - e.1, d.2 - e.2) = U.fac d / U.fac e := by
  simp only [fac, zpow_sub₀ U.pos.ne', zpow_sub₀ U.ne]; field_simp
theorem fac_pow (d : Deg) (k : Nat) : U.fac (k * d.1, k * d.2) = U.fac d ^ k := by
  simp only [fac, mul_comm (k : ℤ), zpow_mul, zpow_natCast, mul_pow]
theorem fac_nonneg {d : Deg} (h : d.2 % 2 = 0) : 0 ≤ U.fac d :=
  mul_nonneg (zpow_nonneg U.pos.le _) (Even.zpow_nonneg (Int.even_iff.2 h) _)

/-- `y` is `x` in the new units, for a number of degree `T` -/
def Sc (T : Tag) (x y : ℂ) : Prop := match T with
  | none => x = 0 ∧ y = 0
  | some d => y = (U.fac d : ℂ) * x

variable {U}

theorem Sc.zero (T : Tag) : U.Sc T 0 0 := by cases T <;> simp [Sc]

theorem Sc.weaken {T T' : Tag} {x y : ℂ} (h : U.Sc T x y) (hl : T.le T' = true) : U.Sc T' x y := by
  cases T with
  | none => obtain ⟨rfl, rfl⟩ := h; exact Sc.zero _
  | some d =>
    cases T' with
    | none => cases hl
    | some e =>
      simp only [Tag.le, Bool.and_eq_true, beq_iff_eq] at hl
      rwa [show e = d from Prod.ext hl.1.symm hl.2.symm]

theorem Sc.join {T T' W : Tag} {x y x' y' : ℂ} (h : U.Sc T x y) (h' : U.Sc T' x' y') (hj : T.join T' = some W) : U.Sc W (x + x') (y + y') ∧ U.Sc W (x - x') (y - y') := by
  cases T with
  | none =>
    obtain ⟨rfl, rfl⟩ := h
    cases hj
    cases T' with
    | none => obtain ⟨rfl, rfl⟩ := h'; simp [Sc]
    | some d => simp only [Sc] at h' ⊢; rw [h']; constructor <;> ring
  | some d =>
    cases T' with
    | none => obtain ⟨rfl, rfl⟩ := h'; cases hj; simp only [Sc] at h ⊢; rw [h]; constructor <;> ring
    | some e =>
      simp only [Tag.join] at hj
      split_ifs at hj with hde
      cases hj
      simp only [Bool.and_eq_true, beq_iff_eq] at hde
      have : e = d := Prod.ext hde.1.symm hde.2.symm
      subst this
      simp only [Sc] at h h' ⊢
      rw [h, h']
      constructor <;> ring

theorem Sc.mul {T T' : Tag} {x y x' y' : ℂ} (h : U.Sc T x y) (h' : U.Sc T' x' y') : U.Sc (T.mul T') (x * x') (y * y') := by
  cases T with
  | none => obtain ⟨rfl, rfl⟩ := h; simp [Tag.mul, Sc]
  | some d =>
    cases T' with
    | none => obtain ⟨rfl, rfl⟩ := h'; simp [Tag.mul, Sc]
    | some e =>
      simp only [Tag.mul, Sc, fac_add] at h h' ⊢
      rw [h, h']; push_cast; ring

theorem Sc.div {T T' : Tag} {x y x' y' : ℂ} (h : U.Sc T x y) (h' : U.Sc T' x' y') : U.Sc (T.div T') (x / x') (y / y') := by
  cases T with
  | none => obtain ⟨rfl, rfl⟩ := h; simp [Tag.div, Sc]
  | some d =>
    cases T' with
    | none => obtain ⟨rfl, rfl⟩ := h'; simp [Tag.div, Sc]
    | some e =>
      simp only [Tag.div, Sc, fac_sub] at h h' ⊢
      rw [h, h']; push_cast; exact (div_mul_div_comm _ _ _ _).symm

theorem Sc.neg {T : Tag} {x y : ℂ} (h : U.Sc T x y) : U.Sc T (-x) (-y) := by
  cases T with
  | none => obtain ⟨rfl, rfl⟩ := h; simp [Sc]
  | some d => simp only [Sc] at h ⊢; rw [h]; ring

theorem Sc.pow {T : Tag} {x y : ℂ} (h : U.Sc T x y) (k : Nat) : U.Sc (T.pow k) (x ^ k) (y ^ k) := by
  cases k with
  | zero => cases T <;> simp [Tag.pow, Sc, fac_zero]
  | succ k =>
    cases T with
    | none => obtain ⟨rfl, rfl⟩ := h; simp [Tag.pow, Sc]
    | some d =>
      simp only [Tag.pow, Sc] at h ⊢
      rw [h, fac_pow, mul_pow]; push_cast; rfl

theorem Sc.conj {T : Tag} {x y : ℂ} (h : U.Sc T x y) : U.Sc T ((starRingEnd ℂ) x) ((starRingEnd ℂ) y) := by
  cases T with
  | none => obtain ⟨rfl, rfl⟩ := h; simp [Sc]
  | some d => simp only [Sc] at h ⊢; rw [h, map_mul, Complex.conj_ofReal]

theorem Sc.re {T : Tag} {x y : ℂ} (h : U.Sc T x y) : U.Sc T (x.re : ℂ) (y.re : ℂ) := by
  cases T with
  | none => obtain ⟨rfl, rfl⟩ := h; simp [Sc]
  | some d => simp only [Sc] at h ⊢; rw [h, Complex.re_ofReal_mul]; push_cast; rfl

theorem Sc.abs {T W : Tag} {x y : ℂ} (h : U.Sc T x y) (hW : T.abs = some W) : U.Sc W (‖x‖ : ℂ) (‖y‖ : ℂ) := by
  cases T with
  | none => obtain ⟨rfl, rfl⟩ := h; cases hW; simp [Sc]
  | some d =>
    simp only [Tag.abs] at hW
    split_ifs at hW with hd
    cases hW
    simp only [Sc] at h ⊢
    rw [h, norm_mul, Complex.norm_real, Real.norm_of_nonneg (U.fac_nonneg (by simpa using hd))]
    push_cast; rfl

theorem Sc.root {T W : Tag} {x y : ℝ} (h : U.Sc T x y) (hW : T.root = some W) : U.Sc W (Real.sqrt x : ℂ) (Real.sqrt y : ℂ) ∧ y = x := by
  cases T with
  | none =>
    obtain ⟨h1, h2⟩ := h
    rw [Complex.ofReal_eq_zero] at h1 h2
    subst h1 h2
    cases hW; simp [Sc]
  | some d =>
    simp only [Tag.root] at hW
    split_ifs at hW with hd
    cases hW
    simp only [Bool.and_eq_true, beq_iff_eq] at hd
    have : d = (0, 0) := Prod.ext hd.1 hd.2
    subst this
    simp only [Sc, fac_zero, Complex.ofReal_one, one_mul, Complex.ofReal_inj] at h ⊢
    rw [h]; simp

/-- The numbers vanish together. -/
theorem Sc.zero_iff {T : Tag} {x y : ℂ} (h : U.Sc T x y) : x = 0 ↔ y = 0 := by
  cases T with
  | none => obtain ⟨rfl, rfl⟩ := h; simp
  | some d =>
    simp only [Sc] at h
    rw [h, mul_eq_zero, or_iff_right (Complex.ofReal_ne_zero.2 (U.fac_ne d))]

end Units

/-! ### expressions and statements -/

/-- as a complex number -/
def emb : (t : Ty) → t.den ℝ ℂ → ℂ
  | .r, x => ((x : ℝ) : ℂ)
  | .c, x => x

theorem emb_add (t : Ty) (x y : t.den ℝ ℂ) : emb t (madd t x y) = emb t x + emb t y := by cases t; exacts [Complex.ofReal_add _ _, rfl]
theorem emb_sub (t : Ty) (x y : t.den ℝ ℂ) : emb t (msub t x y) = emb t x - emb t y := by cases t; exacts [Complex.ofReal_sub _ _, rfl]
theorem emb_mul (t : Ty) (x y : t.den ℝ ℂ) : emb t (mmul t x y) = emb t x * emb t y := by cases t; exacts [Complex.ofReal_mul _ _, rfl]
theorem emb_div (t : Ty) (x y : t.den ℝ ℂ) : emb t (mdiv t x y) = emb t x / emb t y := by cases t; exacts [Complex.ofReal_div _ _, rfl]
theorem emb_neg (t : Ty) (x : t.den ℝ ℂ) : emb t (mneg t x) = -emb t x := by cases t; exacts [Complex.ofReal_neg _, rfl]
theorem emb_dflt (t : Ty) : emb t (dflt t) = 0 := by cases t; exacts [Complex.ofReal_zero, rfl]

section
variable {U : Units} {M : Ty → Nat → Option Tag} {V G : Nat → Option Tag}

/-- what the methods see, in the old and the new units -/
structure EnvSc (U : Units) (M : Ty → Nat → Option Tag) (V : Nat → Option Tag) (N N' : Env) : Prop where
  mem : ∀ t n T, M t n = some T → U.Sc T (emb t (N.mem t n)) (emb t (N'.mem t n))
  v : ∀ a T args, V a = some T → U.Sc T (N.v a args) (N'.v a args)

theorem tag_mean {N N' : Env} (h : EnvSc U M V N N') {f f' : Nat → List Int → ℂ} (hf : ∀ g T args, G g = some T → U.Sc T (f g args) (f' g args))
    {L : Ty → Nat → Option Tag} {l l' : Loc ℝ ℂ} (hi : l.i = l'.i) (hl : ∀ t n T, L t n = some T → U.Sc T (emb t (l.get t n)) (emb t (l'.get t n))) :
    ∀ {t : Ty} (e : Exp t) {T : Tag}, e.tag M V G L = some T → U.Sc T (emb t (e.mean N f l)) (emb t (e.mean N' f' l'))
  | _, .lit n, T, hT => by
    simp only [Exp.tag, Option.some.injEq] at hT
    subst hT
    show U.Sc _ (((n : ℝ) : ℂ)) ((n : ℝ) : ℂ)
    split_ifs with h0
    · subst h0; simp [Units.Sc]
    · simp [Units.Sc, Units.fac_zero]
  | _, .dec m e, T, hT => by cases hT; simp [Units.Sc, Units.fac_zero, Exp.mean]
  | _, .mem t n, T, hT => h.mem t n T hT
  | _, .loc t n, T, hT => hl t n T hT
  | t, .add a b, T, hT => by
    simp only [Exp.tag, Option.bind_eq_some_iff] at hT
    obtain ⟨x, hx, y, hy, hj⟩ := hT
    rw [Exp.mean, Exp.mean, emb_add, emb_add]
    exact ((tag_mean h hf hi hl a hx).join (tag_mean h hf hi hl b hy) hj).1
  | t, .sub a b, T, hT => by
    simp only [Exp.tag, Option.bind_eq_some_iff] at hT
    obtain ⟨x, hx, y, hy, hj⟩ := hT
    rw [Exp.mean, Exp.mean, emb_sub, emb_sub]
    exact ((tag_mean h hf hi hl a hx).join (tag_mean h hf hi hl b hy) hj).2
  | t, .mul a b, T, hT => by
    simp only [Exp.tag, Option.bind_eq_some_iff, Option.some.injEq] at hT
    obtain ⟨x, hx, y, hy, rfl⟩ := hT
    rw [Exp.mean, Exp.mean, emb_mul, emb_mul]
    exact (tag_mean h hf hi hl a hx).mul (tag_mean h hf hi hl b hy)
  | t, .div a b, T, hT => by
    simp only [Exp.tag, Option.bind_eq_some_iff, Option.some.injEq] at hT
    obtain ⟨x, hx, y, hy, rfl⟩ := hT
    rw [Exp.mean, Exp.mean, emb_div, emb_div]
    exact (tag_mean h hf hi hl a hx).div (tag_mean h hf hi hl b hy)
  | t, .neg a, T, hT => by
    rw [Exp.mean, Exp.mean, emb_neg, emb_neg]
    exact (tag_mean h hf hi hl a hT).neg
  | _, .ofR a, T, hT => tag_mean h hf hi hl a hT
  | _, .smul a b, T, hT => by
    simp only [Exp.tag, Option.bind_eq_some_iff, Option.some.injEq] at hT
    obtain ⟨x, hx, y, hy, rfl⟩ := hT
    exact (tag_mean h hf hi hl a hx).mul (tag_mean h hf hi hl b hy)
  | _, .divr a b, T, hT => by
    simp only [Exp.tag, Option.bind_eq_some_iff, Option.some.injEq] at hT
    obtain ⟨x, hx, y, hy, rfl⟩ := hT
    exact (tag_mean h hf hi hl a hx).div (tag_mean h hf hi hl b hy)
  | _, .sqrt a, T, hT => by
    simp only [Exp.tag, Option.bind_eq_some_iff] at hT
    obtain ⟨x, hx, hr⟩ := hT
    exact (Units.Sc.root (tag_mean h hf hi hl a hx) hr).1
  | _, .pow a k, T, hT => by
    simp only [Exp.tag, Option.bind_eq_some_iff, Option.some.injEq] at hT
    obtain ⟨x, hx, rfl⟩ := hT
    have := (tag_mean h hf hi hl a hx).pow k
    simp only [emb, ← Complex.ofReal_pow] at this
    exact this
  | _, .abs a, T, hT => by
    simp only [Exp.tag, Option.bind_eq_some_iff] at hT
    obtain ⟨x, hx, hr⟩ := hT
    exact (tag_mean h hf hi hl a hx).abs hr
  | _, .re a, T, hT => (tag_mean h hf hi hl a hT).re
  | _, .conj a, T, hT => (tag_mean h hf hi hl a hT).conj
  | _, .norm ds, T, hT => by cases hT; simp [Units.Sc, Units.fac_zero, Exp.mean, hi]
  | _, .v a args, T, hT => by
    show U.Sc T (N.v a (args.map (·.eval l.i))) (N'.v a (args.map (·.eval l'.i)))
    rw [hi]; exact h.v a T _ hT
  | _, .call g args, T, hT => by
    show U.Sc T (f g (args.map (·.eval l.i))) (f' g (args.map (·.eval l'.i)))
    rw [hi]; exact hf g T _ hT

/-- variables in the old and the new units -/
structure LocSc (U : Units) (L : Ty → Nat → Tag) (l l' : Loc ℝ ℂ) : Prop where
  i : l.i = l'.i
  v : ∀ t n, U.Sc (L t n) (emb t (l.get t n)) (emb t (l'.get t n))

/-- outcomes in the old and the new units -/
def FlowSc (U : Units) (L : Ty → Nat → Tag) (R : Tag) : Flow ℝ ℂ → Flow ℝ ℂ → Prop
  | .next l, .next l' => LocSc U L l l'
  | .ret t x, .ret t' x' => t = t' ∧ U.Sc R (emb t x) (emb t' x')
  | _, _ => False

theorem LocSc.seti {L : Ty → Nat → Tag} {l l' : Loc ℝ ℂ} (h : LocSc U L l l') (n : Nat) (x : Int) : LocSc U L (l.seti n x) (l'.seti n x) :=
  ⟨by simp only [Loc.seti, h.i], fun t n => by cases t <;> exact h.v _ n⟩

theorem LocSc.set {L : Ty → Nat → Tag} {l l' : Loc ℝ ℂ} (h : LocSc U L l l') (t : Ty) (n : Nat) {x y : t.den ℝ ℂ} (hx : U.Sc (L t n) (emb t x) (emb t y)) :
    LocSc U L (l.set t n x) (l'.set t n y) := by
  refine ⟨by cases t <;> exact h.i, fun t' k => ?_⟩
  cases t <;> cases t'
  · show U.Sc _ (emb .r (if k = n then x else l.r k)) (emb .r (if k = n then y else l'.r k))
    split_ifs with e
    · subst e; exact hx
    · exact h.v .r k
  · exact h.v .c k
  · exact h.v .r k
  · show U.Sc _ (emb .c (if k = n then x else l.c k)) (emb .c (if k = n then y else l'.c k))
    split_ifs with e
    · subst e; exact hx
    · exact h.v .c k

theorem LocSc.spins {L : Ty → Nat → Tag} : ∀ (ds : List (Nat × Nat × Nat)) (xs : List (Int × Int)) {l l' : Loc ℝ ℂ}, LocSc U L l l' → LocSc U L (setSpins l ds xs) (setSpins l' ds xs)
  | [], _, _, _, h => h
  | _ :: _, [], _, _, h => h
  | (_, _, _) :: ds, (_, _) :: xs, _, _, h => LocSc.spins ds xs ((h.seti _ _).seti _ _)

theorem loopSc {L : Ty → Nat → Tag} {R : Tag} {n : Nat} {g g' : Loc ℝ ℂ → Flow ℝ ℂ} (h : ∀ l l', LocSc U L l l' → FlowSc U L R (g l) (g' l')) :
    ∀ (xs : List Int) {l l' : Loc ℝ ℂ}, LocSc U L l l' → FlowSc U L R (loopMean n g xs l) (loopMean n g' xs l')
  | [], _, _, hl => hl
  | x :: xs, l, l', hl => by
    have := h _ _ (hl.seti n x)
    rw [loopMean, loopMean]
    cases e : g (l.seti n x) <;> cases e' : g' (l'.seti n x) <;> rw [e, e'] at this
    · exact loopSc h xs this
    · exact this.elim
    · exact this.elim
    · exact this

theorem tagged_mean {N N' : Env} (h : EnvSc U M V N N') {f f' : Nat → List Int → ℂ} (hf : ∀ g T args, G g = some T → U.Sc T (f g args) (f' g args))
    {L : Ty → Nat → Tag} {R : Tag} : ∀ (s : Stmt), s.tagged M V G L R = true → ∀ l l', LocSc U L l l' → FlowSc U L R (s.mean N f l) (s.mean N' f' l')
  | .skip, _, _, _, hl => hl
  | .seq a b, hs, l, l', hl => by
    simp only [Stmt.tagged, Bool.and_eq_true] at hs
    have := tagged_mean h hf a hs.1 l l' hl
    rw [Stmt.mean, Stmt.mean]
    cases e : a.mean N f l <;> cases e' : a.mean N' f' l' <;> rw [e, e'] at this
    · exact tagged_mean h hf b hs.2 _ _ this
    · exact this.elim
    · exact this.elim
    · exact this
  | .seti n e, _, l, l', hl => by
    rw [Stmt.mean, Stmt.mean, hl.i]
    exact hl.seti n _
  | .set t n e, hs, l, l', hl => by
    simp only [Stmt.tagged] at hs
    split at hs
    · rename_i T hT
      exact hl.set t n ((tag_mean h hf hl.i (fun t n T hT => by cases hT; exact hl.v t n) e hT).weaken hs)
    · cases hs
  | .ite c a b, hs, l, l', hl => by
    simp only [Stmt.tagged, Bool.and_eq_true] at hs
    rw [Stmt.mean, Stmt.mean, hl.i]
    split_ifs
    · exact tagged_mean h hf a hs.1 l l' hl
    · exact tagged_mean h hf b hs.2 l l' hl
  | .loop n lo incl hi step body, hs, l, l', hl => by
    rw [Stmt.mean, Stmt.mean, hl.i]
    exact loopSc (fun l l' hl => tagged_mean h hf body hs l l' hl) _ hl
  | .spins ds i, _, l, l', hl => by
    rw [Stmt.mean, Stmt.mean, hl.i]
    exact hl.spins ds _
  | .ret t e, hs, l, l', hl => by
    simp only [Stmt.tagged] at hs
    split at hs
    · rename_i T hT
      exact ⟨rfl, (tag_mean h hf hl.i (fun t n T hT => by cases hT; exact hl.v t n) e hT).weaken hs⟩
    · cases hs
  | .throw e, _, l, l', hl => hl

theorem method_sc {N N' : Env} (h : EnvSc U M V N N') {f f' : Nat → List Int → ℂ} (hf : ∀ g T args, G g = some T → U.Sc T (f g args) (f' g args))
    {m : Method} {T : Tag} (hT : m.tag M V G = some T) (t : Ty) (args : List Int) : U.Sc T (emb t (m.mean N f t args)) (emb t (m.mean N' f' t args)) := by
  simp only [Method.tag] at hT
  split_ifs at hT with hs
  cases hT
  have := tagged_mean h hf m.body hs (enter zeroLoc args) (enter zeroLoc args) ⟨rfl, fun t n => by
    cases t
    · show U.Sc _ (((0 : ℝ) : ℂ)) ((0 : ℝ) : ℂ); rw [Complex.ofReal_zero]; exact Units.Sc.zero _
    · exact Units.Sc.zero _⟩
  unfold Method.mean
  cases e : m.body.mean N f (enter zeroLoc args) <;> cases e' : m.body.mean N' f' (enter zeroLoc args) <;> rw [e, e'] at this
  · simp only [emb_dflt]; exact Units.Sc.zero _
  · exact this.elim
  · exact this.elim
  · obtain ⟨rfl, this⟩ := this
    simp only
    split_ifs with ht
    · subst ht; exact this
    · rw [emb_dflt]; exact Units.Sc.zero _

theorem call_sc {N N' : Env} (h : EnvSc U M V N N') : ∀ (ms : List Method) (k : Nat) (T : Tag) (args : List Int), callTag M V ms k = some T →
    U.Sc T (callMean N ms k args) (callMean N' ms k args)
  | [], _, _, _, hT => by cases hT
  | m :: ms, k, T, args, hT => by
    rw [callTag] at hT
    rw [callMean, callMean]
    split_ifs at hT ⊢
    · exact method_sc h (fun g T args hg => call_sc h ms g T args hg) hT .c args
    · exact call_sc h ms k T args hT

theorem meaning_sc {N N' : Env} (h : EnvSc U M V N N') (t : Ty) : ∀ (ms : List Method) (k : Nat) (T : Tag) (args : List Int), callTag M V ms k = some T →
    U.Sc T (emb t (meaning N t ms k args)) (emb t (meaning N' t ms k args))
  | [], _, _, _, hT => by cases hT
  | m :: ms, k, T, args, hT => by
    rw [callTag] at hT
    rw [meaning, meaning]
    split_ifs at hT ⊢
    · exact method_sc h (fun g T args hg => call_sc h ms g T args hg) hT t args
    · exact meaning_sc h t ms k T args hT

end

/-! ### constants -/

section
variable [FPEnv]

/-- constants in the old and the new units -/
def Units.XSc (U : Units) (T : Tag) (X Y : XR) : Prop := (X = nan ∧ Y = nan) ∨ ∃ x y : ℝ, X = fin x ∧ Y = fin y ∧ U.Sc T x y

theorem simple_sc {U : Units} {K : Nat → Option Tag} {par par' : Nat → XR} (hp : ∀ n T, K n = some T → U.XSc T (par n) (par' n)) :
    ∀ (e : Exp .r) {T : Tag}, e.simple = true → e.ptag K = some T → U.XSc T (e.val0 (C := XC) par) (e.val0 (C := XC) par') := by
  have key : ∀ {t : Ty} (e : Exp t) {T : Tag}, e.simple = true → e.ptag K = some T → ∀ h : t = .r,
      U.XSc T ((h ▸ e : Exp .r).val0 (C := XC) par) ((h ▸ e : Exp .r).val0 (C := XC) par') := by
    intro t e
    induction e with
    | lit n =>
      intro T _ hT _
      simp only [Exp.ptag, Exp.tag, Option.some.injEq] at hT
      subst hT
      refine .inr ⟨n, n, by simp [Exp.val0, Exp.val], by simp [Exp.val0, Exp.val], ?_⟩
      split_ifs with h0
      · subst h0; simp [Units.Sc]
      · simp [Units.Sc, Units.fac_zero]
    | dec m e =>
      intro T _ hT _
      cases hT
      exact .inr ⟨_, _, rfl, rfl, by simp [Units.Sc, Units.fac_zero]⟩
    | loc t n =>
      intro T _ hT h
      subst h
      exact hp n T hT
    | add a b iha ihb =>
      intro T hs hT h
      subst h
      simp only [Exp.simple, Bool.and_eq_true] at hs
      simp only [Exp.ptag, Exp.tag, Option.bind_eq_some_iff] at hT
      obtain ⟨x, hx, y, hy, hj⟩ := hT
      rcases iha hs.1 hx rfl with ⟨e1, e2⟩ | ⟨u, v, e1, e2, hu⟩ <;> rcases ihb hs.2 hy rfl with ⟨e3, e4⟩ | ⟨u', v', e3, e4, hu'⟩ <;>
        simp only [Exp.val0] at e1 e2 e3 e4 <;> simp only [Exp.val0, Exp.val, tadd, e1, e2, e3, e4]
      · exact .inl ⟨rfl, rfl⟩
      · exact .inl ⟨rfl, rfl⟩
      · exact .inl ⟨rfl, rfl⟩
      · refine .inr ⟨_, _, rfl, rfl, ?_⟩
        push_cast
        exact (hu.join hu' hj).1
    | sub a b iha ihb =>
      intro T hs hT h
      subst h
      simp only [Exp.simple, Bool.and_eq_true] at hs
      simp only [Exp.ptag, Exp.tag, Option.bind_eq_some_iff] at hT
      obtain ⟨x, hx, y, hy, hj⟩ := hT
      rcases iha hs.1 hx rfl with ⟨e1, e2⟩ | ⟨u, v, e1, e2, hu⟩ <;> rcases ihb hs.2 hy rfl with ⟨e3, e4⟩ | ⟨u', v', e3, e4, hu'⟩ <;>
        simp only [Exp.val0] at e1 e2 e3 e4 <;> simp only [Exp.val0, Exp.val, tsub, e1, e2, e3, e4]
      · exact .inl ⟨rfl, rfl⟩
      · exact .inl ⟨rfl, rfl⟩
      · exact .inl ⟨rfl, rfl⟩
      · refine .inr ⟨_, _, rfl, rfl, ?_⟩
        push_cast
        exact (hu.join hu' hj).2
    | mul a b iha ihb =>
      intro T hs hT h
      subst h
      simp only [Exp.simple, Bool.and_eq_true] at hs
      simp only [Exp.ptag, Exp.tag, Option.bind_eq_some_iff, Option.some.injEq] at hT
      obtain ⟨x, hx, y, hy, rfl⟩ := hT
      rcases iha hs.1 hx rfl with ⟨e1, e2⟩ | ⟨u, v, e1, e2, hu⟩ <;> rcases ihb hs.2 hy rfl with ⟨e3, e4⟩ | ⟨u', v', e3, e4, hu'⟩ <;>
        simp only [Exp.val0] at e1 e2 e3 e4 <;> simp only [Exp.val0, Exp.val, tmul, e1, e2, e3, e4]
      · exact .inl ⟨rfl, rfl⟩
      · exact .inl ⟨rfl, rfl⟩
      · exact .inl ⟨rfl, rfl⟩
      · refine .inr ⟨_, _, rfl, rfl, ?_⟩
        push_cast
        exact hu.mul hu'
    | div a b iha ihb =>
      intro T hs hT h
      subst h
      simp only [Exp.simple, Bool.and_eq_true] at hs
      simp only [Exp.ptag, Exp.tag, Option.bind_eq_some_iff, Option.some.injEq] at hT
      obtain ⟨x, hx, y, hy, rfl⟩ := hT
      rcases iha hs.1 hx rfl with ⟨e1, e2⟩ | ⟨u, v, e1, e2, hu⟩ <;> rcases ihb hs.2 hy rfl with ⟨e3, e4⟩ | ⟨u', v', e3, e4, hu'⟩ <;>
        simp only [Exp.val0] at e1 e2 e3 e4 <;> simp only [Exp.val0, Exp.val, tdiv, e1, e2, e3, e4]
      · exact .inl ⟨rfl, rfl⟩
      · exact .inl ⟨rfl, rfl⟩
      · exact .inl ⟨rfl, rfl⟩
      · have hz := hu'.zero_iff
        rw [Complex.ofReal_eq_zero, Complex.ofReal_eq_zero] at hz
        rw [fin_div_def, fin_div_def]
        by_cases h0 : u' = 0
        · rw [if_pos h0, if_pos (hz.1 h0)]; exact .inl ⟨rfl, rfl⟩
        · rw [if_neg h0, if_neg (fun h => h0 (hz.2 h))]
          refine .inr ⟨_, _, rfl, rfl, ?_⟩
          push_cast
          exact hu.div hu'
    | neg a iha =>
      intro T hs hT h
      subst h
      rcases iha hs hT rfl with ⟨e1, e2⟩ | ⟨u, v, e1, e2, hu⟩ <;> simp only [Exp.val0] at e1 e2 <;> simp only [Exp.val0, Exp.val, tneg, e1, e2]
      · exact .inl ⟨rfl, rfl⟩
      · refine .inr ⟨_, _, rfl, rfl, ?_⟩
        push_cast
        exact hu.neg
    | sqrt a iha =>
      intro T hs hT _
      simp only [Exp.ptag, Exp.tag, Option.bind_eq_some_iff] at hT
      obtain ⟨x, hx, hr⟩ := hT
      rcases iha hs hx rfl with ⟨e1, e2⟩ | ⟨u, v, e1, e2, hu⟩ <;> simp only [Exp.val0] at e1 e2 <;> simp only [Exp.val0, Exp.val, e1, e2]
      · exact .inl ⟨rfl, rfl⟩
      · obtain ⟨h1, rfl⟩ := hu.root hr
        rw [s_sqrt_def]
        split_ifs
        · exact .inl ⟨rfl, rfl⟩
        · exact .inr ⟨_, _, rfl, rfl, h1⟩
    | pow a k iha =>
      intro T hs hT _
      simp only [Exp.ptag, Exp.tag, Option.bind_eq_some_iff, Option.some.injEq] at hT
      obtain ⟨x, hx, rfl⟩ := hT
      rcases iha hs hx rfl with ⟨e1, e2⟩ | ⟨u, v, e1, e2, hu⟩ <;> simp only [Exp.val0] at e1 e2 <;> simp only [Exp.val0, Exp.val, e1, e2]
      · cases k with
        | zero => exact .inr ⟨1, 1, rfl, rfl, by cases x <;> simp [Tag.pow, Units.Sc, Units.fac_zero]⟩
        | succ k => exact .inl ⟨rfl, rfl⟩
      · refine .inr ⟨_, _, rfl, rfl, ?_⟩
        push_cast
        exact hu.pow k
    | mem t n => intro T hs; cases t <;> cases hs
    | ofR a _ => intro T hs; cases hs
    | smul a b _ _ => intro T hs; cases hs
    | divr a b _ _ => intro T hs; cases hs
    | abs a _ => intro T hs; cases hs
    | re a _ => intro T hs; cases hs
    | conj a _ => intro T hs; cases hs
    | norm ds => intro T hs; cases hs
    | v a args => intro T hs; cases hs
    | call g args => intro T hs; cases hs
  exact fun e T hs hT => key e hs hT rfl

theorem Units.XSc.num {U : Units} {T : Tag} {X Y : XR} (h : U.XSc T X Y) : U.Sc T (xnum X : ℂ) (xnum Y : ℂ) := by
  rcases h with ⟨rfl, rfl⟩ | ⟨x, y, rfl, rfl, h⟩
  · show U.Sc T (((0 : ℝ) : ℂ)) ((0 : ℝ) : ℂ)
    rw [Complex.ofReal_zero]; exact Units.Sc.zero T
  · exact h

theorem Units.XSc.fin {U : Units} {d : Deg} {Y : XR} {x : ℝ} (h : U.XSc (some d) (XR.fin x) Y) : Y = XR.fin (U.fac d * x) := by
  rcases h with ⟨h, _⟩ | ⟨x', y, e, rfl, h⟩
  · cases h
  · cases e
    simp only [Units.Sc] at h
    rw [fin_inj]
    exact_mod_cast h

theorem Units.XSc.weaken {U : Units} {T T' : Tag} {X Y : XR} (h : U.XSc T X Y) (hl : T.le T' = true) : U.XSc T' X Y := by
  rcases h with h | ⟨x, y, e, e', h⟩
  · exact .inl h
  · exact .inr ⟨x, y, e, e', h.weaken hl⟩

theorem ctag_sc {U : Units} {K : Nat → Option Tag} {par par' : Nat → XR} (hp : ∀ n T, K n = some T → U.XSc T (par n) (par' n)) {e : Option (Exp .r)} {T : Tag}
    (h : ctag K e = some T) : ∃ e', e = some e' ∧ U.XSc T (e'.val0 (C := XC) par) (e'.val0 (C := XC) par') := by
  simp only [ctag, Option.bind_eq_some_iff] at h
  obtain ⟨e', rfl, h⟩ := h
  split_ifs at h with hs
  exact ⟨e', rfl, simple_sc hp e' hs h⟩

theorem isMass_sc {U : Units} {K : Nat → Option Tag} {par par' : Nat → XR} (hp : ∀ n T, K n = some T → U.XSc T (par n) (par' n)) {e : Option (Exp .r)}
    (h : isMass K e = true) : ∃ e', e = some e' ∧ U.XSc (some (1, 0)) (e'.val0 (C := XC) par) (e'.val0 (C := XC) par') := by
  unfold isMass at h
  split at h
  · rename_i T hT
    obtain ⟨e', he, hx⟩ := ctag_sc hp hT
    exact ⟨e', he, hx.weaken h⟩
  · cases h

/-! ### spinors -/

/-- a momentum in the new units -/
def V4.scale (a : ℝ) (p : V4 ℝ) : V4 ℝ := ⟨a * p.t, a * p.x, a * p.y, a * p.z⟩

section spinors
variable {a : ℝ} (ha : 0 < a) (p : V4 ℝ)
include ha

omit [FPEnv] in
theorem scale_mag : (V4.scale a p).mag = a * p.mag := by
  simp only [V4.mag, V4.scale]
  rw [show a * p.x * (a * p.x) + a * p.y * (a * p.y) + a * p.z * (a * p.z) = a ^ 2 * (p.x * p.x + p.y * p.y + p.z * p.z) by ring, Real.sqrt_mul (by positivity), Real.sqrt_sq ha.le]

omit [FPEnv] in
theorem scale_tr : (V4.scale a p).tr = a * p.tr := by
  simp only [V4.tr, V4.scale]
  rw [show a * p.x * (a * p.x) + a * p.y * (a * p.y) = a ^ 2 * (p.x * p.x + p.y * p.y) by ring, Real.sqrt_mul (by positivity), Real.sqrt_sq ha.le]

theorem scale_ratan2 (x y : ℝ) : ratan2 (a * y) (a * x) = ratan2 y x := by
  unfold ratan2
  simp only [mul_eq_zero, ha.ne', false_or]
  split_ifs
  · rfl
  · rw [show (⟨a * x, a * y⟩ : ℂ) = (a : ℂ) * ⟨x, y⟩ by apply Complex.ext <;> simp, Complex.arg_real_mul _ ha]

theorem scale_th : (V4.scale a p).th = p.th := by
  unfold V4.th
  rw [scale_tr ha]
  exact scale_ratan2 ha _ _
theorem scale_ph : (V4.scale a p).ph = p.ph := scale_ratan2 ha _ _
theorem scale_s : (V4.scale a p).s = p.s := by simp only [V4.s, V4.sh, V4.ei, scale_th ha, scale_ph ha]
theorem scale_sb : (V4.scale a p).sb = p.sb := by simp only [V4.sb, scale_s ha]
theorem scale_ch : (V4.scale a p).ch = p.ch := by simp only [V4.ch, scale_th ha]
omit [FPEnv] in
theorem scale_a : (V4.scale a p).a = Real.sqrt a * p.a := by
  simp only [V4.a, scale_mag ha]
  rw [show (V4.scale a p).t = a * p.t from rfl, ← mul_add, Real.sqrt_mul ha.le]
omit [FPEnv] in
theorem scale_b : (V4.scale a p).b = Real.sqrt a * p.b := by
  simp only [V4.b, scale_mag ha]
  rw [show (V4.scale a p).t = a * p.t from rfl, ← mul_sub, Real.sqrt_mul ha.le]

theorem scale_hv (b : Br) : hv (V4.scale a p) b = (Real.sqrt a : ℂ) • hv p b := by
  cases b <;> simp only [hv, scale_a ha, scale_ch ha, scale_s ha, scale_sb ha] <;> funext i <;> fin_cases i <;> simp <;> ring

theorem scale_sv (b : Br) (u j : Bool) : sv (V4.scale a p) b u j = (Real.sqrt a : ℂ) • sv p b u j := by
  cases b <;> cases u <;> cases j <;> simp only [sv, scale_a ha, scale_b ha, scale_ch ha, scale_s ha, scale_sb ha] <;> funext i <;> fin_cases i <;> simp <;> ring

theorem scale_zend (m : ℝ) (b : Br) (u : Bool) (j : Int) : zend (V4.scale a p) (a * m) b u j = (Real.sqrt a : ℂ) • zend p m b u j := by
  unfold zend
  by_cases hm : m = 0
  · rw [if_pos hm, if_pos (by rw [hm, mul_zero])]; exact scale_hv ha p b
  · rw [if_neg hm, if_neg (mul_ne_zero ha.ne' hm)]; exact scale_sv ha p b u _

omit ha [FPEnv] in
theorem scale_slashProd (q : Nat → V4 ℝ) : ∀ (is : List Nat) (l : Bool), slashProd (fun i => V4.scale a (q i)) l is = (a ^ is.length : ℂ) • slashProd q l is
  | [], l => by simp [slashProd]
  | i :: is, l => by
    have h1 : slashLower (V4.scale a (q i)) = (a : ℂ) • slashLower (q i) := by
      ext i j; fin_cases i <;> fin_cases j <;> simp [slashLower, V4.scale] <;> ring
    have h2 : slashUpper (V4.scale a (q i)) = (a : ℂ) • slashUpper (q i) := by
      ext i j; fin_cases i <;> fin_cases j <;> simp [slashUpper, V4.scale] <;> ring
    rw [slashProd, slashProd, scale_slashProd q is, h1, h2, List.length_cons, pow_succ]
    cases l <;> simp only [Bool.false_eq_true, if_true, if_false, Matrix.smul_mul, Matrix.mul_smul, smul_smul]

theorem scale_zchain (q : Nat → V4 ℝ) (m : Nat → ℝ) (d : SPDef) (j k : Int) :
    zchain (fun i => V4.scale a (q i)) (fun i => a * m i) d j k = (a ^ (1 + d.mids.length) : ℂ) * zchain q m d j k := by
  have hs : (Real.sqrt a : ℂ) * Real.sqrt a = a := by
    rw [← Complex.ofReal_mul, Real.mul_self_sqrt ha.le]
  simp only [zchain, scale_zend ha, scale_slashProd, Matrix.vecMul_smul, Matrix.smul_vecMul, dotProduct_smul, smul_dotProduct, smul_eq_mul]
  linear_combination (a : ℂ) ^ d.mids.length * ((zend (q d.left) (m d.left) (kindL d.leftAngle) d.leftUpper j ᵥ* slashProd q d.leftAngle d.mids) ⬝ᵥ
    zend (q d.right) (m d.right) (kindR d.leftAngle d.mids.length) d.rightUpper k) * hs

end spinors

theorem braTab_sc (U : Units) (S : Sym) (p : Nat → V4 ℝ) (m : Nat → ℝ) (a : Nat) (T : Tag) (args : List Int) (h : prodTags S a = some T) :
    U.Sc T (braTab S.gsp p m a args) (braTab S.gsp (fun i => V4.scale U.a (p i)) (fun i => U.a * m i) a args) := by
  unfold prodTags at h
  rw [Option.map_eq_some_iff] at h
  obtain ⟨d, hd, rfl⟩ := h
  have hf : (U.fac (1 + d.mids.length, 0) : ℂ) = (U.a : ℂ) ^ (1 + d.mids.length) := by
    simp only [Units.fac, zpow_zero, mul_one]
    rw [show (1 + (d.mids.length : ℤ)) = ((1 + d.mids.length : ℕ) : ℤ) by push_cast; rfl, zpow_natCast]
    push_cast; rfl
  unfold braTab
  rw [hd]
  rcases args with _ | ⟨j, _ | ⟨k, _ | ⟨n, ns⟩⟩⟩ <;> simp only [Units.Sc, hf, scale_zchain U.pos, mul_zero]

omit [FPEnv] in
theorem poleDist_sc (a m w : ℝ) (p : Nat → V4 ℝ) (v : VExp) : poleDist (a * m) (a * w) (v.sum fun i => V4.scale a (p i)) = (a ^ 2 : ℂ) * poleDist m w (v.sum p) := by
  rw [← Complex.ofReal_pow]
  cases v <;> apply Complex.ext <;> simp only [Complex.re_ofReal_mul, Complex.im_ofReal_mul, poleDist, msq, VExp.sum, V4.scale] <;> ring

/-! ### members -/

theorem plain_val {F D : Mems} {N : Env} {r : Nat → XR} {c : Nat → XC} (h : Lifted F D N r c) (par : Nat → XR) (f : Nat → List Int → ℂ) (l : Loc ℝ ℂ) :
    ∀ {t : Ty} (e : Exp t), e.plain = true → e.tame F D = true → e.val r c par = up t (e.mean N f l)
  | _, .lit n, _, _ => by simp [Exp.val, Exp.mean, up]
  | _, .dec m e, _, _ => by simp [Exp.val, Exp.mean, up]
  | _, .mem .r n, _, hn => h.r n (by simpa [Exp.tame] using hn)
  | _, .mem .c n, _, hn => h.c n (by simpa [Exp.tame] using hn)
  | t, .add a b, hp, hn => by
    simp only [Exp.tame, Exp.plain, Bool.and_eq_true] at hp hn
    simp only [Exp.val, plain_val h par f l a hp.1 hn.1, plain_val h par f l b hp.2 hn.2]
    cases t <;> simp [tadd, madd, up, Exp.mean]
  | t, .sub a b, hp, hn => by
    simp only [Exp.tame, Exp.plain, Bool.and_eq_true] at hp hn
    simp only [Exp.val, plain_val h par f l a hp.1 hn.1, plain_val h par f l b hp.2 hn.2]
    cases t <;> simp [tsub, msub, up, Exp.mean]
  | t, .mul a b, hp, hn => by
    simp only [Exp.tame, Exp.plain, Bool.and_eq_true] at hp hn
    simp only [Exp.val, plain_val h par f l a hp.1 hn.1, plain_val h par f l b hp.2 hn.2]
    cases t <;> simp [tmul, mmul, up, Exp.mean]
  | t, .div a b, hp, hn => by
    simp only [Exp.tame, Exp.plain, Bool.and_eq_true] at hp hn
    simp only [Exp.val, plain_val h par f l a hp.1 hn.1.1, plain_val h par f l b hp.2 hn.1.2]
    have hz := nz_mean h f l b hn.2
    cases t
    · exact fin_div hz
    · exact ofC_div _ hz
  | t, .neg a, hp, hn => by
    simp only [Exp.val, plain_val h par f l a hp hn]
    cases t <;> simp [tneg, mneg, up, Exp.mean]
  | _, .ofR a, hp, hn => by simp [Exp.val, plain_val h par f l a hp hn, up, Exp.mean]
  | _, .smul a b, hp, hn => by
    simp only [Exp.tame, Exp.plain, Bool.and_eq_true] at hp hn
    simp [Exp.val, plain_val h par f l a hp.1 hn.1, plain_val h par f l b hp.2 hn.2, up, Exp.mean]
  | _, .divr a b, hp, hn => by
    simp only [Exp.tame, Exp.plain, Bool.and_eq_true] at hp hn
    simp only [Exp.val, plain_val h par f l a hp.1 hn.1.1, plain_val h par f l b hp.2 hn.1.2]
    exact c_divr _ (nz_mean h f l b hn.2)
  | _, .pow a k, hp, hn => by
    simp only [Exp.val, plain_val h par f l a hp hn]
    rfl
  | _, .abs a, hp, hn => by simp [Exp.val, plain_val h par f l a hp hn, up, Exp.mean]
  | _, .re a, hp, hn => by simp [Exp.val, plain_val h par f l a hp hn, up, Exp.mean]
  | _, .conj a, hp, hn => by simp [Exp.val, plain_val h par f l a hp hn, up, Exp.mean]

/-- members in the old and the new units -/
def MemSc (U : Units) (M : Ty → Nat → Option Tag) (o o' : Obj XR XC) : Prop := ∀ t n T, M t n = some T → match t with
  | .r => U.Sc T (xnum (o.r n) : ℂ) (xnum (o'.r n) : ℂ)
  | .c => U.Sc T (znum (o.c n)) (znum (o'.c n))

omit [FPEnv] in
theorem MemSc.env {U : Units} {M : Ty → Nat → Option Tag} {o o' : Obj XR XC} (h : MemSc U M o o') {V : Nat → Option Tag} {v v' : Nat → List Int → ℂ}
    (hv : ∀ a T args, V a = some T → U.Sc T (v a args) (v' a args)) : EnvSc U M V (envOf o.r o.c v) (envOf o'.r o'.c v') :=
  ⟨fun t n T hT => by cases t <;> exact h _ n T hT, hv⟩

/-- a member is assigned -/
theorem MemSc.assign {U : Units} {M : Ty → Nat → Option Tag} {o o' : Obj XR XC} (h : MemSc U M o o') (t : Ty) (n : Nat) {T : Option Tag} {z z' : t.den ℝ ℂ}
    (hz : ∀ T', T = some T' → U.Sc T' (emb t z) (emb t z')) : MemSc U (memTags M t n T) (o.setMem t n (up t z)) (o'.setMem t n (up t z')) := by
  intro t' n' T' hT'
  unfold memTags at hT'
  split_ifs at hT' with e
  · cases e
    cases t
    · show U.Sc T' (xnum (if n = n then up .r z else o.r n) : ℂ) (xnum (if n = n then up .r z' else o'.r n) : ℂ)
      rw [if_pos rfl, if_pos rfl]; exact hz T' hT'
    · show U.Sc T' (znum (if n = n then up .c z else o.c n)) (znum (if n = n then up .c z' else o'.c n))
      rw [if_pos rfl, if_pos rfl]; exact hz T' hT'
  · have := h t' n' T' hT'
    cases t <;> cases t'
    · show U.Sc T' (xnum (if n' = n then up .r z else o.r n') : ℂ) (xnum (if n' = n then up .r z' else o'.r n') : ℂ)
      rw [if_neg (fun h => e (by rw [h])), if_neg (fun h => e (by rw [h]))]; exact this
    · exact this
    · exact this
    · show U.Sc T' (znum (if n' = n then up .c z else o.c n')) (znum (if n' = n then up .c z' else o'.c n'))
      rw [if_neg (fun h => e (by rw [h])), if_neg (fun h => e (by rw [h]))]; exact this

theorem run_one {junk : Kin XR XC} {par : Nat → XR} {q : Nat → V4 XR} {i : SInstr} {is : List SInstr} {o : Obj XR XC} (h : (runSetup junk par q (i :: is) o).1 = .ok ()) :
    (runSetup junk par q [i] o).1 = .ok () ∧ (runSetup junk par q [i] o).2 = (i.exec junk par q o).2 := by
  rw [runSetup, Prog.bind_run] at h ⊢
  cases e : i.exec junk par q o with
  | mk a o' =>
    rw [e] at h
    cases a with
    | ok u => exact ⟨rfl, rfl⟩
    | throw x => cases h
    | crash => cases h

theorem setTags_sound {U : Units} {S : Sym} {K : Nat → Option Tag} (junk junk' : Kin XR XC) (par : Nat → XR) {ρ : Nat → ℝ} (hpar : ∀ n, par n = fin (ρ n)) (p : Nat → V4 ℝ) (pr pr' : Nat → Propag XR)
    (hm : ∀ k, isMass K (S.gpm k) = true → U.XSc (some (1, 0)) (pr k).m (pr' k).m) (hw : ∀ k, isMass K (S.gpw k) = true → U.XSc (some (1, 0)) (pr k).w (pr' k).w) :
    ∀ (is : List SInstr) (F D : Mems) (M M' : Ty → Nat → Option Tag) (o o' : Obj XR XC), setTags S K is F D M = some M' → FinOn F D o.r o.c → FinOn F D o'.r o'.c → (∀ x ∈ D, x ∈ F) →
      o.pr = pr → o'.pr = pr' → OffPole is pr p → OffPole is pr' (fun i => V4.scale U.a (p i)) → MemSc U M o o' →
      (runSetup junk par (fun i => (p i).toX) is o).1 = .ok () → (runSetup junk' par (fun i => (V4.scale U.a (p i)).toX) is o').1 = .ok () →
      MemSc U M' (runSetup junk par (fun i => (p i).toX) is o).2 (runSetup junk' par (fun i => (V4.scale U.a (p i)).toX) is o').2
  | [], F, D, M, M', o, o', h, _, _, _, _, _, _, _, hM, _, _ => by cases h; exact hM
  | i :: is, F, D, M, M', o, o', h, hf, hf', hDF, ep, ep', ho, ho', hM, hr, hr' => by
    obtain ⟨hr1, er⟩ := run_cons hr
    obtain ⟨hr1', er'⟩ := run_cons hr'
    obtain ⟨ok1, e1⟩ := run_one hr
    obtain ⟨ok1', e1'⟩ := run_one hr'
    rw [er, er']
    have hs : OffPole is pr p := fun t n k v hm => ho t n k v (List.mem_cons_of_mem _ hm)
    have hs' : OffPole is pr' (fun i => V4.scale U.a (p i)) := fun t n k v hm => ho' t n k v (List.mem_cons_of_mem _ hm)
    have ho1 : OffPole [i] o.pr p := fun t n k v hm => by rw [ep]; exact ho t n k v (by simp only [List.mem_singleton] at hm; rw [hm]; exact List.mem_cons_self ..)
    have ho1' : OffPole [i] o'.pr (fun i => V4.scale U.a (p i)) := fun t n k v hm => by rw [ep']; exact ho' t n k v (by simp only [List.mem_singleton] at hm; rw [hm]; exact List.mem_cons_self ..)
    have step := fun F' D' h => setTame_sound junk hpar p [i] F D F' D' o h hf ho1 ok1
    have step' := fun F' D' h => setTame_sound junk' hpar (fun i => V4.scale U.a (p i)) [i] F D F' D' o' h hf' ho1' ok1'
    rw [e1] at step
    rw [e1'] at step'
    cases i with
    | set t n e =>
      simp only [setTags] at h
      split_ifs at h with hpt
      rw [Bool.and_eq_true] at hpt
      have st : setTame [.set t n e] F D = some ((t, n) :: F, D.filter (· ≠ (t, n))) := by rw [setTame, if_pos hpt.2, setTame]
      refine setTags_sound junk junk' par hpar p pr pr' hm hw is _ _ _ _ _ _ h (step _ _ st) (step' _ _ st) (fun x hx => List.mem_cons_of_mem _ (hDF x (List.mem_filter.1 hx).1))
        (by rw [← ep]; cases t <;> rfl) (by rw [← ep']; cases t <;> rfl) hs hs' ?_ hr1 hr1'
      have v1 := plain_val (hf.lifted hDF fun _ _ => 0) par (fun _ _ => 0) zeroLoc e hpt.1 hpt.2
      have v2 := plain_val (hf'.lifted hDF fun _ _ => 0) par (fun _ _ => 0) zeroLoc e hpt.1 hpt.2
      show MemSc U _ (o.setMem t n (e.val o.r o.c par)) (o'.setMem t n (e.val o'.r o'.c par))
      rw [v1, v2]
      exact hM.assign t n fun T' hT' => tag_mean (hM.env (V := fun _ => none) (by simp)) (by simp) rfl (by simp) e hT'
    | den t n k v =>
      simp only [setTags] at h
      split_ifs at h with hk
      rw [Bool.and_eq_true] at hk
      have st : setTame [.den t n k v] F D = some ((t, n) :: F, (t, n) :: D) := by rw [setTame, setTame]
      refine setTags_sound junk junk' par hpar p pr pr' hm hw is _ _ _ _ _ _ h (step _ _ st) (step' _ _ st) (fun x hx => ?_)
        (by rw [← ep]; cases t <;> rfl) (by rw [← ep']; cases t <;> rfl) hs hs' ?_ hr1 hr1'
      · rcases List.mem_cons.1 hx with rfl | hx
        · exact List.mem_cons_self ..
        · exact List.mem_cons_of_mem _ (hDF x hx)
      obtain ⟨m, w, em, ew, _⟩ := ho t n k v (List.mem_cons_self ..)
      have em' := hm k hk.1
      have ew' := hw k hk.2
      rw [em] at em'
      rw [ew] at ew'
      have fa : U.fac (1, 0) = U.a := by simp [Units.fac]
      have em'' := em'.fin
      have ew'' := ew'.fin
      rw [fa] at em'' ew''
      have hd := denominator_fin (by rw [ep]; exact em) (by rw [ep]; exact ew) (v.sum p) (Q := o.pr k)
      have hd' := denominator_fin (by rw [ep']; exact em'') (by rw [ep']; exact ew'') (v.sum fun i => V4.scale U.a (p i)) (Q := o'.pr k)
      rw [poleDist_sc] at hd'
      rw [← VExp.eval_sum] at hd hd'
      have f2 : (U.fac (2, 0) : ℂ) = (U.a : ℂ) ^ 2 := by simp [Units.fac]
      cases t
      · show MemSc U _ (o.setMem .r n (Cplx.re (Propag.denominator (o.pr k) (v.eval fun i => (p i).toX) : XC) : XR))
          (o'.setMem .r n (Cplx.re (Propag.denominator (o'.pr k) (v.eval fun i => (V4.scale U.a (p i)).toX) : XC) : XR))
        rw [hd, hd']
        refine hM.assign .r n (z := (poleDist m w (v.sum p)).re) (z' := ((U.a ^ 2 : ℂ) * poleDist m w (v.sum p)).re) fun T' hT' => ?_
        cases hT'
        simp only [Units.Sc, f2, emb]
        rw [← Complex.ofReal_pow, Complex.re_ofReal_mul]; push_cast; rfl
      · show MemSc U _ (o.setMem .c n (Propag.denominator (o.pr k) (v.eval fun i => (p i).toX) : XC)) (o'.setMem .c n (Propag.denominator (o'.pr k) (v.eval fun i => (V4.scale U.a (p i)).toX) : XC))
        rw [hd, hd']
        refine hM.assign .c n (z := poleDist m w (v.sum p)) (z' := (U.a ^ 2 : ℂ) * poleDist m w (v.sum p)) fun T' hT' => ?_
        cases hT'
        simp only [Units.Sc, f2, emb]
    | prop k m w => cases h
    | propMass k e => cases h
    | part i e => exact setTags_sound junk junk' par hpar p pr pr' hm hw is _ _ _ _ _ _ h hf hf' hDF ep ep' hs hs' hM hr1 hr1'
    | setMass i e => exact setTags_sound junk junk' par hpar p pr pr' hm hw is _ _ _ _ _ _ h hf hf' hDF ep ep' hs hs' hM hr1 hr1'
    | setMom i k => exact setTags_sound junk junk' par hpar p pr pr' hm hw is _ _ _ _ _ _ h hf hf' hDF ep ep' hs hs' hM hr1 hr1'
    | sprod a d => exact setTags_sound junk junk' par hpar p pr pr' hm hw is _ _ _ _ _ _ h hf hf' hDF ep ep' hs hs' hM hr1 hr1'
    | update a => exact setTags_sound junk junk' par hpar p pr pr' hm hw is _ _ _ _ _ _ h hf hf' hDF ep ep' hs hs' hM hr1 hr1'

end
end Spinas.SM

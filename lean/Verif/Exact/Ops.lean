import Mathlib.Data.Complex.Basic
import Mathlib.Data.List.Perm.Basic
import Mathlib.Algebra.BigOperators.Group.List.Basic
import Mathlib.Tactic.Ring
import Mathlib.Tactic.LinearCombination
import Mathlib.Analysis.SpecialFunctions.Sqrt
import Mathlib.Algebra.BigOperators.Ring.List

/-! Linear operators on functions of numbered spin variables: rotations of spin indices, symmetrised pairs of spinor indices for
spin 1, sums over spins. -/

namespace Spinas.Ops

/-- values of the spin variables -/
abbrev Asg := Nat → Int

def put (ρ : Asg) (n : Nat) (x : Int) : Asg := fun k => if k = n then x else ρ k

theorem put_same (ρ : Asg) (n : Nat) (x : Int) : put ρ n x n = x := if_pos rfl
theorem put_ne (ρ : Asg) {n k : Nat} (x : Int) (h : k ≠ n) : put ρ n x k = ρ k := if_neg h
theorem put_comm (ρ : Asg) {n m : Nat} (x y : Int) (h : n ≠ m) : put (put ρ n x) m y = put (put ρ m y) n x := by
  funext k; unfold put; split_ifs with h1 h2 <;> simp_all

/-- A linear operator: a finite sum of terms "coefficient times the function at a changed assignment". -/
abbrev Lin := List ((Asg → ℂ) × (Asg → Asg))

def app (L : Lin) (F : Asg → ℂ) (ρ : Asg) : ℂ := (L.map fun t => t.1 ρ * F (t.2 ρ)).sum

/-- The operator acts on the variables `vs` only. -/
def Supp (vs : List Nat) (L : Lin) : Prop := ∀ t ∈ L,
  (∀ ρ ρ' : Asg, (∀ n ∈ vs, ρ n = ρ' n) → t.1 ρ = t.1 ρ') ∧ (∀ ρ n, n ∉ vs → t.2 ρ n = ρ n) ∧
  (∀ ρ ρ' : Asg, (∀ n ∈ vs, ρ n = ρ' n) → ∀ n ∈ vs, t.2 ρ n = t.2 ρ' n)

theorem Supp.mono {vs ws : List Nat} {L : Lin} (h : Supp vs L) (hs : ∀ n ∈ vs, n ∈ ws) : Supp ws L := by
  intro t ht
  obtain ⟨h1, h2, h3⟩ := h t ht
  refine ⟨fun ρ ρ' e => h1 ρ ρ' fun n hn => e n (hs n hn), fun ρ n hn => h2 ρ n fun hm => hn (hs n hm), fun ρ ρ' e n hn => ?_⟩
  by_cases hm : n ∈ vs
  · exact h3 ρ ρ' (fun k hk => e k (hs k hk)) n hm
  · rw [h2 ρ n hm, h2 ρ' n hm]; exact e n hn

theorem app_add (L : Lin) (F G : Asg → ℂ) : app L (fun ρ => F ρ + G ρ) = fun ρ => app L F ρ + app L G ρ := by
  funext ρ
  unfold app
  induction L with
  | nil => simp
  | cons t L ih => simp only [List.map_cons, List.sum_cons, ih]; ring

theorem app_zero (L : Lin) : app L (fun _ => 0) = fun _ => 0 := by
  funext ρ
  unfold app
  induction L with
  | nil => simp
  | cons t L ih => simp only [List.map_cons, List.sum_cons, ih]; ring

theorem app_smul (L : Lin) (c : ℂ) (F : Asg → ℂ) : app L (fun ρ => c * F ρ) = fun ρ => c * app L F ρ := by
  funext ρ
  unfold app
  induction L with
  | nil => simp
  | cons t L ih => simp only [List.map_cons, List.sum_cons, ih]; ring

theorem sum_map_comm {α β : Type} (l : List α) (m : List β) (f : α → β → ℂ) :
    (l.map fun a => (m.map fun b => f a b).sum).sum = (m.map fun b => (l.map fun a => f a b).sum).sum := by
  induction l with
  | nil => simp
  | cons a l ih =>
    simp only [List.map_cons, List.sum_cons, ih]
    rw [← List.sum_map_add]

/-- Operators on disjoint sets of variables commute. -/
theorem app_comm {vs ws : List Nat} {L M : Lin} (hL : Supp vs L) (hM : Supp ws M) (hd : ∀ n ∈ vs, n ∉ ws) (F : Asg → ℂ) :
    app L (app M F) = app M (app L F) := by
  funext ρ
  have e1 : app L (app M F) ρ = (L.map fun t => (M.map fun u => t.1 ρ * (u.1 ρ * F (u.2 (t.2 ρ)))).sum).sum := by
    show (L.map fun t => t.1 ρ * app M F (t.2 ρ)).sum = _
    congr 1
    refine List.map_congr_left fun t ht => ?_
    unfold app
    rw [← List.sum_map_mul_left]
    congr 1
    refine List.map_congr_left fun u hu => ?_
    rw [(hM u hu).1 (t.2 ρ) ρ fun n hn => (hL t ht).2.1 ρ n fun h => hd n h hn]
  have e2 : app M (app L F) ρ = (M.map fun u => (L.map fun t => t.1 ρ * (u.1 ρ * F (u.2 (t.2 ρ)))).sum).sum := by
    show (M.map fun u => u.1 ρ * app L F (u.2 ρ)).sum = _
    congr 1
    refine List.map_congr_left fun u hu => ?_
    unfold app
    rw [← List.sum_map_mul_left]
    congr 1
    refine List.map_congr_left fun t ht => ?_
    have hc : t.1 (u.2 ρ) = t.1 ρ := (hL t ht).1 (u.2 ρ) ρ fun n hn => (hM u hu).2.1 ρ n (hd n hn)
    have hu2 : t.2 (u.2 ρ) = u.2 (t.2 ρ) := by
      funext n
      by_cases h1 : n ∈ vs
      · rw [(hL t ht).2.2 (u.2 ρ) ρ (fun k hk => (hM u hu).2.1 ρ k (hd k hk)) n h1, (hM u hu).2.1 _ n (hd n h1)]
      · rw [(hL t ht).2.1 _ n h1]
        by_cases h2 : n ∈ ws
        · rw [(hM u hu).2.2 (t.2 ρ) ρ (fun k hk => (hL t ht).2.1 ρ k fun h => hd k h hk) n h2]
        · rw [(hM u hu).2.1 _ n h2, (hM u hu).2.1 _ n h2, (hL t ht).2.1 _ n h1]
    rw [hc, hu2]; ring
  rw [e1, e2, sum_map_comm]

/-- the operators one after the other, the last first -/
def appAll (Ls : List Lin) (F : Asg → ℂ) : Asg → ℂ := Ls.foldr app F

theorem appAll_append (Ls Ms : List Lin) (F : Asg → ℂ) : appAll (Ls ++ Ms) F = appAll Ls (appAll Ms F) := by
  unfold appAll; rw [List.foldr_append]

theorem appAll_smul (Ls : List Lin) (c : ℂ) (F : Asg → ℂ) : appAll Ls (fun ρ => c * F ρ) = fun ρ => c * appAll Ls F ρ := by
  induction Ls with
  | nil => rfl
  | cons L Ls ih => show app L (appAll Ls _) = _; rw [ih, app_smul]; rfl

theorem appAll_add (Ls : List Lin) (F G : Asg → ℂ) : appAll Ls (fun ρ => F ρ + G ρ) = fun ρ => appAll Ls F ρ + appAll Ls G ρ := by
  induction Ls with
  | nil => rfl
  | cons L Ls ih => show app L (appAll Ls _) = _; rw [ih, app_add]; rfl

theorem appAll_zero (Ls : List Lin) : appAll Ls (fun _ => 0) = fun _ => 0 := by
  induction Ls with
  | nil => rfl
  | cons L Ls ih => show app L (appAll Ls _) = _; rw [ih, app_zero]

/-- Commuting operators may be permuted. -/
theorem appAll_perm {Ls Ms : List Lin} (hp : Ls.Perm Ms) (hc : ∀ L ∈ Ls, ∀ M ∈ Ls, ∀ F, app L (app M F) = app M (app L F)) (F : Asg → ℂ) :
    appAll Ls F = appAll Ms F := by
  induction hp generalizing F with
  | nil => rfl
  | cons L hp ih =>
    show app L (appAll _ F) = app L (appAll _ F)
    rw [ih fun L hL M hM => hc L (List.mem_cons_of_mem _ hL) M (List.mem_cons_of_mem _ hM)]
  | swap L M l => exact hc _ (by simp) _ (by simp) _
  | trans h1 h2 ih1 ih2 =>
    rw [ih1 hc F, ih2 (fun L hL M hM => hc L (h1.mem_iff.mpr hL) M (h1.mem_iff.mpr hM))]

/-- one operator past several on other variables -/
theorem app_appAll_comm {vs : List Nat} {L : Lin} (hL : Supp vs L) {Ms : List Lin} (hM : ∀ M ∈ Ms, ∃ ws, Supp ws M ∧ ∀ n ∈ vs, n ∉ ws) (F : Asg → ℂ) :
    app L (appAll Ms F) = appAll Ms (app L F) := by
  induction Ms with
  | nil => rfl
  | cons M Ms ih =>
    show app L (app M (appAll Ms F)) = app M (appAll Ms (app L F))
    obtain ⟨ws, h1, h2⟩ := hM M (by simp)
    rw [app_comm hL h1 h2, ih fun M h => hM M (List.mem_cons_of_mem _ h)]

/-! ### functions that depend on some of the variables -/

def DepOn (vs : List Nat) (F : Asg → ℂ) : Prop := ∀ ρ ρ' : Asg, (∀ n ∈ vs, ρ n = ρ' n) → F ρ = F ρ'

theorem DepOn.mono {vs ws : List Nat} {F : Asg → ℂ} (h : DepOn vs F) (hs : ∀ n ∈ vs, n ∈ ws) : DepOn ws F :=
  fun ρ ρ' e => h ρ ρ' fun n hn => e n (hs n hn)

theorem DepOn.app {vs ws : List Nat} {L : Lin} {F : Asg → ℂ} (hF : DepOn vs F) (hL : Supp ws L) (hs : ∀ n ∈ ws, n ∈ vs) : DepOn vs (app L F) := by
  intro ρ ρ' e
  unfold Ops.app
  congr 1
  refine List.map_congr_left fun t ht => ?_
  obtain ⟨h1, h2, h3⟩ := hL t ht
  rw [h1 ρ ρ' fun n hn => e n (hs n hn)]
  congr 1
  refine hF _ _ fun n hn => ?_
  by_cases hm : n ∈ ws
  · exact h3 ρ ρ' (fun k hk => e k (hs k hk)) n hm
  · rw [h2 ρ n hm, h2 ρ' n hm]; exact e n hn

/-- A factor that does not depend on the variables of the operator. -/
theorem app_mul_right {vs ws : List Nat} {L : Lin} {F G : Asg → ℂ} (hG : DepOn vs G) (hL : Supp ws L) (hd : ∀ n ∈ ws, n ∉ vs) :
    app L (fun ρ => F ρ * G ρ) = fun ρ => app L F ρ * G ρ := by
  funext ρ
  unfold app
  rw [← List.sum_map_mul_right]
  congr 1
  refine List.map_congr_left fun t ht => ?_
  have : G (t.2 ρ) = G ρ := hG _ _ fun n hn => (hL t ht).2.1 ρ n fun h => hd n h hn
  dsimp only
  rw [this]; ring

/-! ### rotation of spin indices -/

section rot
variable (U : Nat → Int → Int → ℂ)

/-- rotation of the spin index `x.1` of particle `x.2` -/
def rot (x : Nat × Nat) : Lin := [1, -1].map fun k => (fun ρ => U x.2 k (ρ x.1), fun ρ => put ρ x.1 k)

theorem rot_supp (x : Nat × Nat) : Supp [x.1] (rot U x) := by
  intro t ht
  obtain ⟨k, -, rfl⟩ := List.mem_map.mp ht
  refine ⟨fun ρ ρ' e => ?_, fun ρ n hn => put_ne _ _ (by simpa using hn), fun ρ ρ' _ n hn => ?_⟩
  · show U x.2 k (ρ x.1) = U x.2 k (ρ' x.1); rw [e x.1 (by simp)]
  · have : n = x.1 := by simpa using hn
    subst this
    show put ρ x.1 k x.1 = put ρ' x.1 k x.1
    rw [put_same, put_same]

theorem rot_app (x : Nat × Nat) (F : Asg → ℂ) (ρ : Asg) :
    app (rot U x) F ρ = U x.2 1 (ρ x.1) * F (put ρ x.1 1) + U x.2 (-1) (ρ x.1) * F (put ρ x.1 (-1)) := by
  simp [app, rot]

/-- rotation of several indices -/
def rotAll (X : List (Nat × Nat)) (F : Asg → ℂ) : Asg → ℂ := appAll (X.map (rot U)) F

theorem rotAll_nil (F : Asg → ℂ) : rotAll U [] F = F := rfl
theorem rotAll_cons (x : Nat × Nat) (X : List (Nat × Nat)) (F : Asg → ℂ) : rotAll U (x :: X) F = app (rot U x) (rotAll U X F) := rfl
theorem rotAll_append (X Y : List (Nat × Nat)) (F : Asg → ℂ) : rotAll U (X ++ Y) F = rotAll U X (rotAll U Y F) := by
  unfold rotAll; rw [List.map_append, appAll_append]

/-- Distinct variables. -/
def Sep (X : List (Nat × Nat)) : Prop := (X.map Prod.fst).Nodup

theorem rot_comm {x y : Nat × Nat} (h : x.1 = y.1 → x = y) (F : Asg → ℂ) :
    app (rot U x) (app (rot U y) F) = app (rot U y) (app (rot U x) F) := by
  by_cases e : x.1 = y.1
  · rw [h e]
  · exact app_comm (rot_supp U x) (rot_supp U y) (by simpa using e) F

theorem Sep.inj {X : List (Nat × Nat)} (h : Sep X) {x y : Nat × Nat} (hx : x ∈ X) (hy : y ∈ X) (e : x.1 = y.1) : x = y :=
  List.inj_on_of_nodup_map h hx hy e

theorem rotAll_perm {X Y : List (Nat × Nat)} (hp : X.Perm Y) (hs : Sep X) (F : Asg → ℂ) : rotAll U X F = rotAll U Y F := by
  unfold rotAll
  refine appAll_perm (hp.map _) ?_ F
  intro L hL M hM F
  obtain ⟨x, hx, rfl⟩ := List.mem_map.mp hL
  obtain ⟨y, hy, rfl⟩ := List.mem_map.mp hM
  exact rot_comm U (hs.inj hx hy) F

theorem depOn_rotAll {vs : List Nat} {F : Asg → ℂ} (hF : DepOn vs F) (X : List (Nat × Nat)) (hs : ∀ x ∈ X, x.1 ∈ vs) : DepOn vs (rotAll U X F) := by
  induction X with
  | nil => exact hF
  | cons x X ih =>
    refine (ih fun x h => hs x (List.mem_cons_of_mem _ h)).app (rot_supp U x) ?_
    simpa using hs x (by simp)

theorem rotAll_mul_right {vs : List Nat} {F G : Asg → ℂ} (hG : DepOn vs G) (X : List (Nat × Nat)) (hd : ∀ x ∈ X, x.1 ∉ vs) :
    rotAll U X (fun ρ => F ρ * G ρ) = fun ρ => rotAll U X F ρ * G ρ := by
  induction X with
  | nil => rfl
  | cons x X ih =>
    rw [rotAll_cons, ih fun x h => hd x (List.mem_cons_of_mem _ h), app_mul_right hG (rot_supp U x) (by simpa using hd x (by simp))]
    rfl

/-- the rotation of a product of functions of different indices -/
theorem rotAll_mul {X Y : List (Nat × Nat)} {F G : Asg → ℂ} (hF : DepOn (X.map Prod.fst) F) (hG : DepOn (Y.map Prod.fst) G)
    (hd : ∀ x ∈ X, ∀ y ∈ Y, x.1 ≠ y.1) : rotAll U (X ++ Y) (fun ρ => F ρ * G ρ) = fun ρ => rotAll U X F ρ * rotAll U Y G ρ := by
  rw [rotAll_append]
  have e : rotAll U Y (fun ρ => F ρ * G ρ) = fun ρ => F ρ * rotAll U Y G ρ := by
    have := rotAll_mul_right U (F := G) hF Y (by
      intro y hy h
      obtain ⟨x, hx, e⟩ := List.mem_map.mp h
      exact hd x hx y hy e)
    have e2 : (fun ρ => F ρ * G ρ) = fun ρ => G ρ * F ρ := by funext ρ; ring
    rw [e2, this]; funext ρ; ring
  rw [e, rotAll_mul_right U (depOn_rotAll U hG Y fun y hy => List.mem_map_of_mem hy) X]
  intro x hx h
  obtain ⟨y, hy, e⟩ := List.mem_map.mp h
  exact hd x hx y hy e.symm

theorem rotAll_add (X : List (Nat × Nat)) (F G : Asg → ℂ) : rotAll U X (fun ρ => F ρ + G ρ) = fun ρ => rotAll U X F ρ + rotAll U X G ρ := appAll_add _ F G
theorem rotAll_smul (X : List (Nat × Nat)) (c : ℂ) (F : Asg → ℂ) : rotAll U X (fun ρ => c * F ρ) = fun ρ => c * rotAll U X F ρ := appAll_smul _ c F

end rot

/-! ### external spins -/

/-- the normalisation of spin 0 -/
noncomputable def isq : ℂ := (((Real.sqrt 2)⁻¹ : ℝ) : ℂ)

theorem isq_sq : isq * isq = 1 / 2 := by
  unfold isq
  rw [← Complex.ofReal_mul, ← mul_inv, Real.mul_self_sqrt (by norm_num)]; push_cast; norm_num
theorem conj_isq : (starRingEnd ℂ) isq = isq := Complex.conj_ofReal _

/-- An external spin: the spin `n` of a fermion, or the spin `n` of a massive vector, made of two spinor indices `a`, `b`. -/
inductive Ext where
  | ferm (n p : Nat)
  | vec (n a b p : Nat)

namespace Ext

def vars : Ext → List Nat
  | .ferm n _ => [n]
  | .vec n a b _ => [n, a, b]

/-- the spin variable summed over -/
def idx : Ext → Nat
  | .ferm n _ => n
  | .vec n _ _ _ => n

/-- the spinor indices, with their particle -/
def spinors : Ext → List (Nat × Nat)
  | .ferm n p => [(n, p)]
  | .vec _ a b p => [(a, p), (b, p)]

/-- values of the spin -/
def vals : Ext → List Int
  | .ferm _ _ => [-1, 1]
  | .vec _ _ _ _ => [-2, 0, 2]

/-- sum over the spin -/
def sum (s : Ext) : Lin := s.vals.map fun x => (fun _ => 1, fun ρ => put ρ s.idx x)

/-- from spinor indices to the spin: spin 0 is the normalised sum of (+,-) and (-,+) -/
noncomputable def mix : Ext → Lin
  | .ferm _ _ => [(fun _ => 1, id)]
  | .vec n a b _ =>
    [(fun ρ => if ρ n = 0 then isq else 0, fun ρ => put (put ρ a 1) b (-1)),
     (fun ρ => if ρ n = 0 then isq else 0, fun ρ => put (put ρ a (-1)) b 1),
     (fun ρ => if ρ n < 0 then 1 else 0, fun ρ => put (put ρ a (-1)) b (-1)),
     (fun ρ => if 0 < ρ n then 1 else 0, fun ρ => put (put ρ a 1) b 1)]

theorem put2_supp {n a b : Nat} (x y : Int) (g : Int → ℂ) {t : (Asg → ℂ) × (Asg → Asg)} (ht : t = (fun ρ => g (ρ n), fun ρ => put (put ρ a x) b y)) :
    (∀ ρ ρ' : Asg, (∀ k ∈ [n, a, b], ρ k = ρ' k) → t.1 ρ = t.1 ρ') ∧ (∀ ρ k, k ∉ [n, a, b] → t.2 ρ k = ρ k) ∧
    (∀ ρ ρ' : Asg, (∀ k ∈ [n, a, b], ρ k = ρ' k) → ∀ k ∈ [n, a, b], t.2 ρ k = t.2 ρ' k) := by
  subst ht
  refine ⟨fun ρ ρ' e => ?_, fun ρ k hk => ?_, fun ρ ρ' e k hk => ?_⟩
  · show g (ρ n) = g (ρ' n); rw [e n (by simp)]
  · simp only [List.mem_cons, not_or, List.not_mem_nil] at hk
    show put (put ρ a x) b y k = ρ k
    rw [put_ne _ _ hk.2.2.1, put_ne _ _ hk.2.1]
  · show put (put ρ a x) b y k = put (put ρ' a x) b y k
    unfold put
    split_ifs
    · rfl
    · rfl
    · exact e k hk

theorem mix_supp (s : Ext) : Supp s.vars s.mix := by
  cases s with
  | ferm n p =>
    intro t ht
    simp only [mix, List.mem_singleton] at ht
    subst ht
    exact ⟨fun _ _ _ => rfl, fun _ _ _ => rfl, fun _ _ e => e⟩
  | vec n a b p =>
    intro t ht
    simp only [mix, List.mem_cons, List.not_mem_nil, or_false] at ht
    rcases ht with rfl | rfl | rfl | rfl
    · exact put2_supp 1 (-1) (fun z => if z = 0 then isq else 0) rfl
    · exact put2_supp (-1) 1 (fun z => if z = 0 then isq else 0) rfl
    · exact put2_supp (-1) (-1) (fun z => if z < 0 then 1 else 0) rfl
    · exact put2_supp 1 1 (fun z => if 0 < z then 1 else 0) rfl

theorem sum_supp (s : Ext) : Supp s.vars s.sum := by
  intro t ht
  obtain ⟨x, -, rfl⟩ := List.mem_map.mp ht
  have hm : s.idx ∈ s.vars := by cases s <;> simp [idx, vars]
  refine ⟨fun _ _ _ => rfl, fun ρ n hn => put_ne _ _ fun e => hn (e ▸ hm), fun ρ ρ' e n hn => ?_⟩
  show put ρ s.idx x n = put ρ' s.idx x n
  unfold put
  split_ifs
  · rfl
  · exact e n hn

/-- Distinct variables within the particle. -/
def Ok : Ext → Prop
  | .ferm _ _ => True
  | .vec n a b _ => n ≠ a ∧ n ≠ b ∧ a ≠ b

end Ext

/-- `U` is unitary for every particle. -/
def Unitary (U : Nat → Int → Int → ℂ) : Prop := ∀ p k l, (k = 1 ∨ k = -1) → (l = 1 ∨ l = -1) →
  U p k 1 * (starRingEnd ℂ) (U p l 1) + U p k (-1) * (starRingEnd ℂ) (U p l (-1)) = if k = l then 1 else 0

theorem ferm_key {U : Nat → Int → Int → ℂ} (hU : Unitary U) (n p : Nat) (F G : Asg → ℂ) :
    app (Ext.ferm n p).sum (fun ρ => app (Ext.ferm n p).mix (rotAll U (Ext.ferm n p).spinors F) ρ *
        (starRingEnd ℂ) (app (Ext.ferm n p).mix (rotAll U (Ext.ferm n p).spinors G) ρ)) =
      app (Ext.ferm n p).sum (fun ρ => app (Ext.ferm n p).mix F ρ * (starRingEnd ℂ) (app (Ext.ferm n p).mix G ρ)) := by
  funext ρ
  have h11 := hU p 1 1 (.inl rfl) (.inl rfl)
  have h12 := hU p 1 (-1) (.inl rfl) (.inr rfl)
  have h21 := hU p (-1) 1 (.inr rfl) (.inl rfl)
  have h22 := hU p (-1) (-1) (.inr rfl) (.inr rfl)
  rw [if_pos rfl] at h11 h22
  rw [if_neg (by decide)] at h12 h21
  have e : ∀ x y : Int, put (put ρ n x) n y = put ρ n y := by
    intro x y; funext k; unfold put; split_ifs <;> rfl
  simp only [Ext.sum, Ext.mix, Ext.vals, Ext.idx, Ext.spinors, rotAll_cons, rotAll_nil]
  simp only [app, rot, List.map_cons, List.map_nil, List.sum_cons, List.sum_nil, id_eq, put_same, e, one_mul, add_zero]
  simp only [map_add, map_mul]
  linear_combination F (put ρ n 1) * (starRingEnd ℂ) (G (put ρ n 1)) * h11 + F (put ρ n 1) * (starRingEnd ℂ) (G (put ρ n (-1))) * h12 +
    F (put ρ n (-1)) * (starRingEnd ℂ) (G (put ρ n 1)) * h21 + F (put ρ n (-1)) * (starRingEnd ℂ) (G (put ρ n (-1))) * h22

/-- the scalar product of symmetric two-index tensors is invariant under a rotation of both indices -/
theorem sym_key {a b c d a' b' c' d' r f11 f12 f21 f22 g11 g12 g21 g22 : ℂ} (h11 : a * a' + b * b' = 1) (h12 : a * c' + b * d' = 0)
    (h21 : c * a' + d * b' = 0) (h22 : c * c' + d * d' = 1) (hr : r * r = 1 / 2) :
    (b * b * f11 + b * d * f12 + d * b * f21 + d * d * f22) * (b' * b' * g11 + b' * d' * g12 + d' * b' * g21 + d' * d' * g22) +
      r * ((a * b * f11 + a * d * f12 + c * b * f21 + c * d * f22) + (b * a * f11 + b * c * f12 + d * a * f21 + d * c * f22)) *
        (r * ((a' * b' * g11 + a' * d' * g12 + c' * b' * g21 + c' * d' * g22) + (b' * a' * g11 + b' * c' * g12 + d' * a' * g21 + d' * c' * g22))) +
      (a * a * f11 + a * c * f12 + c * a * f21 + c * c * f22) * (a' * a' * g11 + a' * c' * g12 + c' * a' * g21 + c' * c' * g22) =
    f22 * g22 + r * (f12 + f21) * (r * (g12 + g21)) + f11 * g11 := by
  have e : ∀ x y : ℂ, r * x * (r * y) = 1 / 2 * (x * y) := by intro x y; rw [← hr]; ring
  rw [e, e]
  have key : (b * b * f11 + b * d * f12 + d * b * f21 + d * d * f22) * (b' * b' * g11 + b' * d' * g12 + d' * b' * g21 + d' * d' * g22) +
      1 / 2 * (((a * b * f11 + a * d * f12 + c * b * f21 + c * d * f22) + (b * a * f11 + b * c * f12 + d * a * f21 + d * c * f22)) *
        ((a' * b' * g11 + a' * d' * g12 + c' * b' * g21 + c' * d' * g22) + (b' * a' * g11 + b' * c' * g12 + d' * a' * g21 + d' * c' * g22))) +
      (a * a * f11 + a * c * f12 + c * a * f21 + c * c * f22) * (a' * a' * g11 + a' * c' * g12 + c' * a' * g21 + c' * c' * g22) =
      f11 * g11 * (a * a' + b * b') ^ 2 + f11 * (g12 + g21) * (a * a' + b * b') * (a * c' + b * d') + f11 * g22 * (a * c' + b * d') ^ 2 +
      (f12 + f21) * g11 * (a * a' + b * b') * (c * a' + d * b') +
      1 / 2 * (f12 + f21) * (g12 + g21) * ((a * a' + b * b') * (c * c' + d * d') + (a * c' + b * d') * (c * a' + d * b')) +
      (f12 + f21) * g22 * (a * c' + b * d') * (c * c' + d * d') +
      f22 * g11 * (c * a' + d * b') ^ 2 + f22 * (g12 + g21) * (c * a' + d * b') * (c * c' + d * d') + f22 * g22 * (c * c' + d * d') ^ 2 := by ring
  rw [key, h11, h12, h21, h22]; ring

/-- `F` does not depend on variable `n`. -/
def Free (n : Nat) (F : Asg → ℂ) : Prop := ∀ ρ x, F (put ρ n x) = F ρ

theorem Free.app {n : Nat} {vs : List Nat} {L : Lin} {F : Asg → ℂ} (hF : Free n F) (hL : Supp vs L) (hn : n ∉ vs) : Free n (app L F) := by
  intro ρ x
  unfold Ops.app
  congr 1
  refine List.map_congr_left fun t ht => ?_
  obtain ⟨h1, h2, h3⟩ := hL t ht
  have e : ∀ k ∈ vs, put ρ n x k = ρ k := fun k hk => put_ne _ _ fun e => hn (e ▸ hk)
  have e2 : t.2 (put ρ n x) = put (t.2 ρ) n x := by
    funext k
    by_cases hk : k ∈ vs
    · have hkn : k ≠ n := fun h => hn (h ▸ hk)
      rw [h3 _ ρ e k hk, put_ne _ _ hkn]
    · rw [h2 _ k hk]
      unfold put
      split_ifs
      · rfl
      · rw [h2 _ k hk]
  rw [h1 _ ρ e, e2, hF]

theorem vec_key {U : Nat → Int → Int → ℂ} (hU : Unitary U) {n a b p : Nat} (hna : n ≠ a) (hnb : n ≠ b) (hab : a ≠ b) {F G : Asg → ℂ}
    (hF : Free n F) (hG : Free n G) :
    app (Ext.vec n a b p).sum (fun ρ => app (Ext.vec n a b p).mix (rotAll U (Ext.vec n a b p).spinors F) ρ *
        (starRingEnd ℂ) (app (Ext.vec n a b p).mix (rotAll U (Ext.vec n a b p).spinors G) ρ)) =
      app (Ext.vec n a b p).sum (fun ρ => app (Ext.vec n a b p).mix F ρ * (starRingEnd ℂ) (app (Ext.vec n a b p).mix G ρ)) := by
  funext ρ
  have h11 := hU p 1 1 (.inl rfl) (.inl rfl)
  have h12 := hU p 1 (-1) (.inl rfl) (.inr rfl)
  have h21 := hU p (-1) 1 (.inr rfl) (.inl rfl)
  have h22 := hU p (-1) (-1) (.inr rfl) (.inr rfl)
  rw [if_pos rfl] at h11 h22
  rw [if_neg (by decide)] at h12 h21
  have e3 : ∀ (σ : Asg) (x y z : Int), put (put (put σ a x) b y) a z = put (put σ a z) b y := by
    intro σ x y z; funext k; unfold put; split_ifs <;> simp_all
  have e4 : ∀ (σ : Asg) (x y : Int), put (put σ b x) b y = put σ b y := by
    intro σ x y; funext k; unfold put; split_ifs <;> simp_all
  have ea : ∀ (σ : Asg) (x y : Int), put (put σ a x) b y a = x := by
    intro σ x y; rw [put_ne _ _ hab, put_same]
  have en : ∀ (σ : Asg) (x y z : Int), put (put (put σ n z) a x) b y = put (put (put σ a x) b y) n z := by
    intro σ x y z; rw [put_comm _ _ _ hna, put_comm _ _ _ hnb]
  have key := @sym_key (U p 1 1) (U p 1 (-1)) (U p (-1) 1) (U p (-1) (-1)) _ _ _ _ _ (F (put (put ρ a 1) b 1)) (F (put (put ρ a 1) b (-1)))
    (F (put (put ρ a (-1)) b 1)) (F (put (put ρ a (-1)) b (-1))) ((starRingEnd ℂ) (G (put (put ρ a 1) b 1))) ((starRingEnd ℂ) (G (put (put ρ a 1) b (-1))))
    ((starRingEnd ℂ) (G (put (put ρ a (-1)) b 1))) ((starRingEnd ℂ) (G (put (put ρ a (-1)) b (-1)))) h11 h12 h21 h22 isq_sq
  simp only [Ext.sum, Ext.mix, Ext.vals, Ext.idx, Ext.spinors, rotAll_cons, rotAll_nil]
  simp only [app, rot, List.map_cons, List.map_nil, List.sum_cons, List.sum_nil, put_same, ea, e3, e4, one_mul, add_zero]
  simp only [en, hF _ _, hG _ _]
  norm_num [conj_isq]
  convert key using 1
  · ring
  · ring

theorem ext_key {U : Nat → Int → Int → ℂ} (hU : Unitary U) {s : Ext} (hs : s.Ok) {F G : Asg → ℂ}
    (hF : ∀ n a b p, s = .vec n a b p → Free n F) (hG : ∀ n a b p, s = .vec n a b p → Free n G) :
    app s.sum (fun ρ => app s.mix (rotAll U s.spinors F) ρ * (starRingEnd ℂ) (app s.mix (rotAll U s.spinors G) ρ)) =
      app s.sum (fun ρ => app s.mix F ρ * (starRingEnd ℂ) (app s.mix G ρ)) := by
  cases s with
  | ferm n p => exact ferm_key hU n p F G
  | vec n a b p => exact vec_key hU hs.1 hs.2.1 hs.2.2 (hF _ _ _ _ rfl) (hG _ _ _ _ rfl)

/-- different particles use different variables -/
def Apart : List Ext → Prop
  | [] => True
  | s :: l => s.Ok ∧ (∀ s' ∈ l, ∀ n ∈ s.vars, n ∉ s'.vars) ∧ Apart l

theorem rot_supp_vars {U : Nat → Int → Int → ℂ} {s : Ext} {x : Nat × Nat} (hx : x ∈ s.spinors) : Supp s.vars (rot U x) := by
  refine (rot_supp U x).mono fun n hn => ?_
  have : n = x.1 := by simpa using hn
  subst this
  cases s with
  | ferm n p => simp only [Ext.spinors, List.mem_singleton] at hx; subst hx; simp [Ext.vars]
  | vec n a b p =>
    simp only [Ext.spinors, List.mem_cons, List.not_mem_nil, or_false] at hx
    rcases hx with rfl | rfl <;> simp [Ext.vars]

/-- The sum over all external spins of a product of two amplitudes does not change when the spinor indices are rotated. -/
theorem total_key {U : Nat → Int → Int → ℂ} (hU : Unitary U) (l : List Ext) (hl : Apart l) {F G : Asg → ℂ}
    (hF : ∀ s ∈ l, ∀ n a b p, s = .vec n a b p → Free n F) (hG : ∀ s ∈ l, ∀ n a b p, s = .vec n a b p → Free n G) :
    appAll (l.map Ext.sum) (fun ρ => appAll (l.map Ext.mix) (rotAll U (l.flatMap Ext.spinors) F) ρ *
        (starRingEnd ℂ) (appAll (l.map Ext.mix) (rotAll U (l.flatMap Ext.spinors) G) ρ)) =
      appAll (l.map Ext.sum) (fun ρ => appAll (l.map Ext.mix) F ρ * (starRingEnd ℂ) (appAll (l.map Ext.mix) G ρ)) := by
  induction l generalizing F G with
  | nil => rfl
  | cons s l ih =>
    obtain ⟨hs, hd, hl⟩ := hl
    -- all operators of `s` commute with all operators of the others
    have cMix : ∀ M ∈ l.map Ext.mix, ∃ ws, Supp ws M ∧ ∀ n ∈ s.vars, n ∉ ws := by
      intro M hM; obtain ⟨s', h', rfl⟩ := List.mem_map.mp hM; exact ⟨_, s'.mix_supp, hd s' h'⟩
    have cSum : ∀ M ∈ l.map Ext.sum, ∃ ws, Supp ws M ∧ ∀ n ∈ s.vars, n ∉ ws := by
      intro M hM; obtain ⟨s', h', rfl⟩ := List.mem_map.mp hM; exact ⟨_, s'.sum_supp, hd s' h'⟩
    have cRot : ∀ M ∈ (l.flatMap Ext.spinors).map (rot U), ∃ ws, Supp ws M ∧ ∀ n ∈ s.vars, n ∉ ws := by
      intro M hM; obtain ⟨x, hx, rfl⟩ := List.mem_map.mp hM
      obtain ⟨s', h', hx⟩ := List.mem_flatMap.mp hx
      exact ⟨_, rot_supp_vars hx, hd s' h'⟩
    have swapRot : ∀ H, appAll (l.map Ext.mix) (rotAll U s.spinors H) = rotAll U s.spinors (appAll (l.map Ext.mix) H) := by
      intro H
      have : ∀ X : List (Nat × Nat), (∀ x ∈ X, x ∈ s.spinors) → appAll (l.map Ext.mix) (rotAll U X H) = rotAll U X (appAll (l.map Ext.mix) H) := by
        intro X
        induction X with
        | nil => intro _; rfl
        | cons x X ihX =>
          intro hX
          rw [rotAll_cons, rotAll_cons, ← ihX fun y hy => hX y (List.mem_cons_of_mem _ hy),
            app_appAll_comm (rot_supp_vars (hX x (by simp))) cMix]
      exact this _ fun _ h => h
    have shape : ∀ H, appAll ((s :: l).map Ext.mix) (rotAll U ((s :: l).flatMap Ext.spinors) H) =
        app s.mix (rotAll U s.spinors (appAll (l.map Ext.mix) (rotAll U (l.flatMap Ext.spinors) H))) := by
      intro H
      rw [List.flatMap_cons, rotAll_append, List.map_cons]
      show app s.mix (appAll _ _) = _
      rw [swapRot]
    have free : ∀ H : Asg → ℂ, (∀ s' ∈ s :: l, ∀ n a b p, s' = .vec n a b p → Free n H) → ∀ n a b p, s = .vec n a b p →
        Free n (appAll (l.map Ext.mix) (rotAll U (l.flatMap Ext.spinors) H)) := by
      intro H hH n a b p e
      have hn : n ∈ s.vars := by rw [e]; simp [Ext.vars]
      have gen : ∀ Ms : List Lin, (∀ M ∈ Ms, ∃ ws, Supp ws M ∧ ∀ n ∈ s.vars, n ∉ ws) → ∀ H, Free n H → Free n (appAll Ms H) := by
        intro Ms
        induction Ms with
        | nil => intro _ H hH; exact hH
        | cons M Ms ihM =>
          intro hM H hH
          obtain ⟨ws, h1, h2⟩ := hM M (by simp)
          exact (ihM (fun M h => hM M (List.mem_cons_of_mem _ h)) H hH).app h1 (h2 n hn)
      exact gen _ cMix _ (gen _ cRot _ (hH s (by simp) n a b p e))
    simp only [shape]
    have swapSum : ∀ H, appAll ((s :: l).map Ext.sum) H = appAll (l.map Ext.sum) (app s.sum H) := by
      intro H
      show app s.sum (appAll _ H) = _
      rw [app_appAll_comm s.sum_supp cSum]
    rw [swapSum, ext_key hU hs (free F hF) (free G hG), ← swapSum]
    show app s.sum (appAll _ _) = app s.sum (appAll _ _)
    congr 1
    have swapMix : ∀ H, app s.mix (appAll (l.map Ext.mix) H) = appAll (l.map Ext.mix) (app s.mix H) := app_appAll_comm s.mix_supp cMix
    have swapMR : ∀ H, app s.mix (rotAll U (l.flatMap Ext.spinors) H) = rotAll U (l.flatMap Ext.spinors) (app s.mix H) := app_appAll_comm s.mix_supp cRot
    have e1 : ∀ H, appAll ((s :: l).map Ext.mix) H = appAll (l.map Ext.mix) (app s.mix H) := by
      intro H; exact swapMix H
    simp only [e1, swapMix, swapMR]
    refine ih hl ?_ ?_
    · intro s' h' n a b p e
      exact (hF s' (List.mem_cons_of_mem _ h') n a b p e).app s.mix_supp fun hn => hd s' h' n hn (by rw [e]; simp [Ext.vars])
    · intro s' h' n a b p e
      exact (hG s' (List.mem_cons_of_mem _ h') n a b p e).app s.mix_supp fun hn => hd s' h' n hn (by rw [e]; simp [Ext.vars])

end Spinas.Ops

import Verif.SM.Diagrams

/-! Amplitudes of vector bosons: the loop of the code over the spinors of each state. -/

namespace Spinas
open Spec Matrix Props

noncomputable section

/-! ### the loop -/

namespace SM
open Props

/-- Variables that are assigned, or the same before, are the same after. -/
theorem setSpins_congr : ∀ (ds : List (Nat × Nat × Nat)) (L : List (Int × Int)) (l l' : Loc ℝ ℂ), L.length = ds.length → ∀ q, (l.i q = l'.i q ∨ q ∈ ds.flatMap fun d => [d.2.1, d.2.2]) →
    (setSpins l ds L).i q = (setSpins l' ds L).i q
  | [], [], l, l', _, q, h => by simpa [setSpins] using h
  | [], _ :: _, _, _, h, _, _ => by cases h
  | _ :: _, [], _, _, h, _, _ => by cases h
  | (v, a, b) :: ds, (x, y) :: L, l, l', h, q, hq => by
    refine setSpins_congr ds L _ _ (by simpa using h) q ?_
    simp only [List.flatMap_cons, List.mem_append, List.mem_cons, List.not_mem_nil, or_false] at hq
    simp only [Loc.seti]
    by_cases h1 : q = b
    · left; simp [h1]
    by_cases h2 : q = a
    · left; simp [h2]
    simp only [h1, h2, if_false]
    tauto
theorem setSpins_other : ∀ (ds : List (Nat × Nat × Nat)) (L : List (Int × Int)) (l : Loc ℝ ℂ) (q : Nat), q ∉ (ds.flatMap fun d => [d.2.1, d.2.2]) → (setSpins l ds L).i q = l.i q
  | [], _, _, _, _ => rfl
  | _ :: _, [], _, _, _ => rfl
  | (v, a, b) :: ds, (x, y) :: L, l, q, hq => by
    simp only [List.flatMap_cons, List.mem_append, List.mem_cons, List.not_mem_nil, or_false, not_or] at hq
    show (setSpins ((l.seti a x).seti b y) ds L).i q = _
    rw [setSpins_other ds L _ q hq.2]
    simp [Loc.seti, hq.1.1, hq.1.2]
theorem setSpins_rc : ∀ (ds : List (Nat × Nat × Nat)) (L : List (Int × Int)) (l : Loc ℝ ℂ), (setSpins l ds L).r = l.r ∧ (setSpins l ds L).c = l.c
  | [], _, _ => ⟨rfl, rfl⟩
  | _ :: _, [], _ => ⟨rfl, rfl⟩
  | (v, a, b) :: ds, (x, y) :: L, l => setSpins_rc ds L ((l.seti a x).seti b y)

theorem spinorSpins_length (ds : List Int) (i : Int) : (Process.spinorSpins ds i).length = ds.length := by
  rw [spinorSpins_eq]
  induction ds generalizing i with
  | nil => rfl
  | cons d ds ih => unfold spinsRec; split_ifs <;> simp [ih]

theorem loopVals_range (k : Nat) : loopVals 0 false ((k : Nat) : Int) 1 = (List.range k).map fun q : Nat => (q : Int) := by
  simp [loopVals]

/-- The loop adds up the terms. -/
theorem loop_sum {n : Nat} {body : Loc ℝ ℂ → Flow ℝ ℂ} {I : Loc ℝ ℂ → Prop} {g : Int → ℂ}
    (h : ∀ l x, I l → ∃ l', body (l.seti n x) = .next l' ∧ I l' ∧ l'.c 0 = l.c 0 + g x) :
    ∀ (xs : List Int) (l : Loc ℝ ℂ), I l → ∃ l', loopMean n body xs l = .next l' ∧ l'.c 0 = l.c 0 + (xs.map g).sum
  | [], l, _ => ⟨l, rfl, by simp⟩
  | x :: xs, l, hl => by
    obtain ⟨l', e, hl', hc⟩ := h l x hl
    obtain ⟨l'', e', hc'⟩ := loop_sum h xs l' hl'
    refine ⟨l'', by rw [loopMean, e]; exact e', ?_⟩
    rw [hc', hc, List.map_cons, List.sum_cons]; ring

/-- A method that adds up the terms of the spinors of vector bosons `ds`, where `rest` adds a term. -/
theorem amp_mean (N : Env) (f : Nat → List Int → ℂ) {ar m K k n : Nat} {vs : List Nat} {ds : List (Nat × Nat × Nat)} {rest : Stmt} {args : List Int} {G : (Nat → Int) → ℂ}
    (hrest : ∀ l : Loc ℝ ℂ, ∃ l', rest.mean N f l = .next l' ∧ l'.i = l.i ∧ l'.r = l.r ∧ l'.c 0 = l.c 0 + (l.r 0 : ℂ) * G l.i)
    (hG : ∀ i i' : Nat → Int, (∀ q < K, i q = i' q) → G i = G i') (hv : ds.map (·.1) = vs) (hm : vs.all (· < m) = true)
    (hs : (ds.flatMap fun d => [d.2.1, d.2.2]).all (m ≤ ·) = true) (hK : ((List.range K).all fun q => decide (q < m) || (ds.flatMap fun d => [d.2.1, d.2.2]).contains q) = true) (hk : m ≤ k) (hn : m ≤ n) :
    Method.mean N f ⟨ar, .seq (.set .c 0 (.ofR (.lit 0))) (.seq (.seti k (.loops vs)) (.seq (.set .r 0 (.norm vs)) (.seq (.loop n 0 false (.var k) 1 (.seq (.spins ds (.var n)) rest)) (.ret .c (.loc .c 0)))))⟩ .c args =
      amp' (fun L => G (setSpins (enter zeroLoc args) ds L).i) (vs.map fun v => args.getD v 0) := by
  set a : Nat → Int := fun q => args.getD q 0 with ha
  have ie : (enter zeroLoc args : Loc ℝ ℂ).i = a := rfl
  set w : ℝ := (√2)⁻¹ ^ Spec.zeros (vs.map a) with hw
  have hm' : ∀ v ∈ vs, v < m := fun v h => by simpa using List.all_eq_true.1 hm v h
  have hs' : ∀ q ∈ (ds.flatMap fun d => [d.2.1, d.2.2]), m ≤ q := fun q h => by simpa using List.all_eq_true.1 hs q h
  have hK' : ∀ q < K, q < m ∨ q ∈ (ds.flatMap fun d => [d.2.1, d.2.2]) := fun q h => by
    have := List.all_eq_true.1 hK q (List.mem_range.2 h)
    simpa using this
  have vk : ∀ x : Int, vs.map (fun q => if q = k then x else a q) = vs.map a := fun x => List.map_congr_left fun v h => if_neg (by have := hm' v h; omega)
  let I : Loc ℝ ℂ → Prop := fun l => l.r 0 = w ∧ ∀ q < m, l.i q = a q
  let g : Int → ℂ := fun x => (w : ℂ) * G (setSpins (enter zeroLoc args) ds (Process.spinorSpins (vs.map a) x)).i
  have step : ∀ l x, I l → ∃ l', (Stmt.seq (.spins ds (.var n)) rest).mean N f (l.seti n x) = .next l' ∧ I l' ∧ l'.c 0 = l.c 0 + g x := by
    rintro l x ⟨h1, h2⟩
    have e0 : (ds.map fun d => (l.seti n x).i d.1) = vs.map a := by
      rw [← hv, List.map_map]
      refine List.map_congr_left fun d hd => ?_
      have : d.1 < m := hm' _ (hv ▸ List.mem_map_of_mem hd)
      simp only [Loc.seti, Function.comp]
      rw [if_neg (by omega), h2 _ this]
    obtain ⟨l', e1, e2, e3, e4⟩ := hrest (setSpins (l.seti n x) ds (Process.spinorSpins (vs.map a) x))
    refine ⟨l', ?_, ⟨?_, fun q hq => ?_⟩, ?_⟩
    · show rest.mean N f (setSpins (l.seti n x) ds (Process.spinorSpins (ds.map fun d => (l.seti n x).i d.1) (if n = n then x else l.i n))) = _
      rw [e0, if_pos rfl, e1]
    · rw [e3, (setSpins_rc ..).1]; exact h1
    · rw [e2, setSpins_other _ _ _ _ (fun hc => by have := hs' q hc; omega)]
      simp only [Loc.seti]
      rw [if_neg (by omega), h2 q hq]
    · rw [e4, (setSpins_rc ..).1, (setSpins_rc ..).2]
      show l.c 0 + (l.r 0 : ℂ) * _ = _
      rw [h1]
      congr 2
      refine hG _ _ fun q hq => setSpins_congr _ _ _ _ (by rw [spinorSpins_length, ← hv]; simp) q ?_
      rcases hK' q hq with h | h
      · left
        simp only [Loc.seti, ie]
        rw [if_neg (by omega), h2 q h]
      · exact .inr h
  let l0 : Loc ℝ ℂ := (((enter zeroLoc args : Loc ℝ ℂ).set .c 0 ((((0 : Nat) : ℝ) : ℂ))).seti k (Process.numSpinLoops (vs.map a)).1).set .r 0 ((√2)⁻¹ ^ Spec.zeros (vs.map fun q => if q = k then (Process.numSpinLoops (vs.map a)).1 else a q))
  have hi0 : I l0 := ⟨by show (√2)⁻¹ ^ _ = w; rw [vk], fun q hq => by
    show (if q = k then _ else a q) = a q
    rw [if_neg (by omega)]⟩
  obtain ⟨l', e, hc⟩ := loop_sum step (loopVals 0 false (Process.numSpinLoops (vs.map a)).1 1) l0 hi0
  have main : Method.mean N f ⟨ar, .seq (.set .c 0 (.ofR (.lit 0))) (.seq (.seti k (.loops vs)) (.seq (.set .r 0 (.norm vs)) (.seq (.loop n 0 false (.var k) 1 (.seq (.spins ds (.var n)) rest)) (.ret .c (.loc .c 0)))))⟩ .c args = l'.c 0 := by
    have : Stmt.mean N f (.seq (.set .c 0 (.ofR (.lit 0))) (.seq (.seti k (.loops vs)) (.seq (.set .r 0 (.norm vs)) (.seq (.loop n 0 false (.var k) 1 (.seq (.spins ds (.var n)) rest)) (.ret .c (.loc .c 0))))))
        (enter zeroLoc args) = .ret .c (l'.c 0) := by
      show (match loopMean n ((Stmt.seq (.spins ds (.var n)) rest).mean N f) (loopVals 0 false (if k = k then (Process.numSpinLoops (vs.map a)).1 else a k) 1) l0 with
        | .next l' => Stmt.mean N f (.ret .c (.loc .c 0)) l'
        | .ret t x => .ret t x) = _
      rw [if_pos rfl, e]; rfl
    rw [Method.mean, this]; rfl
  have nl : (Process.numSpinLoops (vs.map a)).1 = ((2 ^ Spec.zeros (vs.map a) : Nat) : Int) := by rw [(C39_num_loops _).1]; push_cast; rfl
  rw [main, hc, nl, loopVals_range, amp']
  have c0 : l0.c 0 = 0 := by show (((0 : Nat) : ℝ) : ℂ) = 0; simp
  rw [c0, zero_add, List.map_map, ← hw, Finset.mul_sum, ← List.sum_toFinset _ (List.nodup_range), List.toFinset_range]
  exact Finset.sum_congr rfl fun i _ => by simp only [Function.comp, g, spinorSpins_eq]

end SM

/-- the states of a vector boson -/
theorem amp'_comb (t : Fin 3) (g : List (Int × Int) → ℂ) (ds : List Int) : amp' g (spinV t :: ds) = comb t (fun a b => amp' (fun l => g ((spinOf a, spinOf b) :: l)) ds) := by
  fin_cases t
  · exact (amp'_two g ds).2
  · show amp' g (0 :: ds) = _
    rw [amp'_zero]
    show _ = ((√2)⁻¹ : ℂ) • (amp' (fun l => g ((-1, 1) :: l)) ds + amp' (fun l => g ((1, -1) :: l)) ds)
    simp only [amp', Finset.mul_sum, ← Finset.sum_add_distrib, smul_eq_mul]
    refine Finset.sum_congr rfl fun i _ => ?_
    push_cast
    ring
  · exact (amp'_two g ds).1
theorem amp'_nil (g : List (Int × Int) → ℂ) : amp' g [] = g [] := by
  simp [amp', zeros, spinsRec]
end

/-! ### states of vector bosons -/

theorem lin_mul {G : Vec → ℂ} (k : ℂ) (h : IsLinearMap ℂ G) : IsLinearMap ℂ (fun E => k * G E) :=
  ⟨fun x y => by rw [h.map_add]; ring, fun a x => by rw [h.map_smul, smul_eq_mul, smul_eq_mul]; ring⟩

section
variable {p p' : V4 ℝ} {m m' : ℝ} {A S A' S' : Fin 2 → V2} (hz : ∀ s, Bold p m (A s, S s))
include hz

/-- one vector boson -/
theorem one_vector {B : Pair → Pair → ℂ} (hl : ∀ x y z, B (x + y) z = B x z + B y z) (hr : ∀ x y z, B z (x + y) = B z x + B z y) {G : Vec → ℂ} (hG : IsLinearMap ℂ G) (k : ℂ)
    (h : ∀ z, Bold p m z → B z z = k * (((√2 / m : ℝ) : ℂ) * G (pv z.1 z.2))) (t : Fin 3) : comb t (fun a b => B (A a, S a) (A b, S b)) = k * G (polE A S m t) :=
  comb_polar hz hl hr (lin_mul k hG) (fun z hb => by rw [h z hb, hG.map_smul, smul_eq_mul]) t

/-- two vector bosons -/
theorem two_vectors (hz' : ∀ s, Bold p' m' (A' s, S' s)) {B : Pair → Pair → Pair → Pair → ℂ} (h1 : ∀ x y u v w, B (x + y) u v w = B x u v w + B y u v w) (h2 : ∀ x y u v w, B u (x + y) v w = B u x v w + B u y v w)
    (h3 : ∀ x y u v w, B u v (x + y) w = B u v x w + B u v y w) (h4 : ∀ x y u v w, B u v w (x + y) = B u v w x + B u v w y) {G : Vec → Vec → ℂ} (g1 : ∀ F, IsLinearMap ℂ (fun E => G E F)) (g2 : ∀ E, IsLinearMap ℂ (G E)) (k : ℂ)
    (h : ∀ z z', Bold p m z → Bold p' m' z' → B z z z' z' = k * (((2 / (m * m') : ℝ) : ℂ) * G (pv z.1 z.2) (pv z'.1 z'.2))) (t t' : Fin 3) :
    comb t (fun a b => comb t' (fun a' b' => B (A a, S a) (A b, S b) (A' a', S' a') (A' b', S' b'))) = k * G (polE A S m t) (polE A' S' m' t') := by
  refine comb_polar hz (B := fun x y => comb t' (fun a' b' => B x y (A' a', S' a') (A' b', S' b'))) (fun x y z => ?_) (fun x y z => ?_) (lin_mul k (g1 _)) (fun z hb => ?_) t
  · simp only [h1]; exact comb_add ..
  · simp only [h2]; exact comb_add ..
  · refine comb_polar hz' (B := fun x y => B z z x y) (fun x y u => h3 ..) (fun x y u => h4 ..) (lin_mul k (g2 _)) (fun z' hb' => ?_) t'
    rw [h z z' hb hb', (g2 _).map_smul, (g1 _).map_smul]
    simp only [smul_eq_mul]
    have e : ((√2 / m' : ℝ) : ℂ) * ((√2 / m : ℝ) : ℂ) = ((2 / (m * m') : ℝ) : ℂ) := by
      rw [← Complex.ofReal_mul, div_mul_div_comm, Real.mul_self_sqrt (by norm_num), mul_comm m']
    rw [← e]; ring
end

theorem comb_zero (t : Fin 3) : comb t (fun _ _ => (0 : ℂ)) = 0 := by fin_cases t <;> simp [comb]
theorem comb_zero_zero (t t' : Fin 3) : comb t (fun _ _ => comb t' (fun _ _ => (0 : ℂ))) = 0 := by simp only [comb_zero]

theorem mb_zero (q : V4 ℝ) (x : V2) : mb 0 q x = 0 ∧ mb x q 0 = 0 := by simp [mb_eq]

namespace Spec.Reaction
/-- without massless bosons -/
def allMassive (S : Reaction) : Bool := [0, 1, 2, 3].all fun n => match S.leg n with
  | .fermion _ _ => true
  | .boson b => b.massive

theorem massive_of {S : Reaction} (h : S.allMassive = true) (n : Fin 4) (b : Boson) (hl : S.leg n = .boson b) : b.massive = true := by
  have := List.all_eq_true.1 h n (by fin_cases n <;> simp)
  rwa [hl] at this
theorem noGluon_of {S : Reaction} (h : S.allMassive = true) (n : Fin 4) : S.boson n ≠ .gluon := by
  unfold boson
  cases hl : S.leg n with
  | fermion f a => simp
  | boson b =>
    rintro rfl
    have := massive_of h n _ hl
    cases this
end Spec.Reaction

end Spinas

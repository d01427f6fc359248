import Verif.SM.TypingCalls

/-! Soundness of the types: the sums over spins in squared amplitudes. -/

set_option linter.unusedSectionVars false

namespace Spinas.SM
open XR Ops Spec Prog Props

variable [FPEnv]

/-! ### sums -/

/-- sum in exact arithmetic; `nan` if any term is -/
noncomputable def xsum : List XR → XR
  | [] => fin 0
  | x :: l => x + xsum l

theorem xsum_add {α : Type} (l : List α) (f g : α → XR) : xsum (l.map fun x => f x + g x) = xsum (l.map f) + xsum (l.map g) := by
  induction l with
  | nil => exact (xr_add_zero _).symm
  | cons x l ih =>
    show f x + g x + _ = f x + _ + (g x + _)
    rw [ih, xr_add_assoc, xr_add_assoc]
    congr 1
    rw [← xr_add_assoc, ← xr_add_assoc, xr_add_comm (g x)]

theorem xsum_zero {α : Type} (l : List α) : xsum (l.map fun _ => fin 0) = fin 0 := by
  induction l with
  | nil => rfl
  | cons x l ih => show fin 0 + _ = _; rw [ih]; exact xr_add_zero _

theorem xsum_comm {α β : Type} (l : List α) (m : List β) (f : α → β → XR) : xsum (l.map fun x => xsum (m.map fun y => f x y)) = xsum (m.map fun y => xsum (l.map fun x => f x y)) := by
  induction l with
  | nil => exact (xsum_zero m).symm
  | cons x l ih =>
    show xsum _ + _ = _
    rw [ih, ← xsum_add]; rfl

theorem xsum_fin {l : List XR} {a : ℝ} (h : xsum l = fin a) : ∀ x ∈ l, ∃ b, x = fin b := by
  induction l generalizing a with
  | nil => simp
  | cons y l ih =>
    obtain ⟨b, c, h1, h2⟩ := add_fin (x := y) h
    intro x hx
    rcases List.mem_cons.mp hx with rfl | hx
    · exact ⟨b, h1⟩
    · exact ih h2 x hx

/-- the sum over the values of the loop variables -/
noncomputable def nestSum : List (Nat × List Int) → (Asg → XR) → Asg → XR
  | [], F, ρ => F ρ
  | (n, xs) :: l, F, ρ => xsum (xs.map fun x => nestSum l F (put ρ n x))

theorem nestSum_append (l m : List (Nat × List Int)) (F : Asg → XR) : nestSum (l ++ m) F = nestSum l (nestSum m F) := by
  induction l with
  | nil => rfl
  | cons a l ih => funext ρ; show xsum (a.2.map fun x => nestSum (l ++ m) F (put ρ a.1 x)) = _; rw [ih]; rfl

theorem nestSum_perm {l m : List (Nat × List Int)} (hp : l.Perm m) (hn : (l.map Prod.fst).Nodup) (F : Asg → XR) : nestSum l F = nestSum m F := by
  induction hp with
  | nil => rfl
  | cons a _ ih =>
    funext ρ
    show xsum _ = xsum _
    rw [ih (List.nodup_cons.mp (by simpa using hn)).2]
  | swap a b l =>
    funext ρ
    show xsum (b.2.map fun x => xsum (a.2.map fun y => nestSum l F (put (put ρ b.1 x) a.1 y))) = xsum (a.2.map fun y => xsum (b.2.map fun x => nestSum l F (put (put ρ a.1 y) b.1 x)))
    rw [xsum_comm]
    have hab : b.1 ≠ a.1 := by
      intro e
      simp [e] at hn
    simp only [put_comm ρ _ _ hab]
  | trans h1 _ ih1 ih2 => rw [ih1 hn, ih2 (((h1.map Prod.fst).nodup_iff).mp hn)]

/-- assignments reached in the loops -/
def Reach : List (Nat × List Int) → Asg → Asg → Prop
  | [], ρ, ρ' => ρ' = ρ
  | (n, xs) :: l, ρ, ρ' => ∃ x ∈ xs, Reach l (put ρ n x) ρ'

theorem reach_other {l : List (Nat × List Int)} {ρ ρ' : Asg} (h : Reach l ρ ρ') {n : Nat} (hn : n ∉ l.map Prod.fst) : ρ' n = ρ n := by
  induction l generalizing ρ with
  | nil => rw [show ρ' = ρ from h]
  | cons a l ih =>
    obtain ⟨x, hx, h⟩ := h
    simp only [List.map_cons, List.mem_cons, not_or] at hn
    rw [ih h hn.2, put_ne _ _ hn.1]

theorem reach_mem {l : List (Nat × List Int)} (hn : (l.map Prod.fst).Nodup) {ρ ρ' : Asg} (h : Reach l ρ ρ') {a : Nat × List Int} (ha : a ∈ l) : ρ' a.1 ∈ a.2 := by
  induction l generalizing ρ with
  | nil => simp at ha
  | cons b l ih =>
    obtain ⟨x, hx, h⟩ := h
    obtain ⟨hb, hn⟩ := List.nodup_cons.mp (by simpa using hn : (b.1 :: l.map Prod.fst).Nodup)
    rcases List.mem_cons.mp ha with rfl | ha
    · rw [reach_other h hb, put_same]; exact hx
    · exact ih hn h ha

theorem nestSum_congr {l : List (Nat × List Int)} {F G : Asg → XR} {ρ : Asg} (h : ∀ ρ', Reach l ρ ρ' → F ρ' = G ρ') : nestSum l F ρ = nestSum l G ρ := by
  induction l generalizing ρ with
  | nil => exact h ρ rfl
  | cons a l ih =>
    show xsum _ = xsum _
    congr 1
    exact List.map_congr_left fun x hx => ih fun ρ' hr => h ρ' ⟨x, hx, hr⟩

theorem nestSum_imp {l : List (Nat × List Int)} {F G : Asg → XR} {ρ : Asg} (h : ∀ ρ', Reach l ρ ρ' → ∀ x, F ρ' = fin x → G ρ' = fin x) {x : ℝ} (hx : nestSum l F ρ = fin x) :
    nestSum l G ρ = fin x := by
  induction l generalizing ρ x with
  | nil => exact h ρ rfl x hx
  | cons a l ih =>
    rw [← hx]
    show xsum _ = xsum _
    congr 1
    refine List.map_congr_left fun y hy => ?_
    obtain ⟨b, hb⟩ := xsum_fin hx _ (List.mem_map_of_mem hy)
    have := ih (fun ρ' hr => h ρ' ⟨y, hy, hr⟩) hb
    show nestSum l G (put ρ a.1 y) = nestSum l F (put ρ a.1 y)
    rw [this]; exact hb.symm

theorem nestSum_some {l : List (Nat × List Int)} (hl : ∀ a ∈ l, a.2 ≠ []) {F : Asg → XR} {ρ : Asg} {x : ℝ} (hx : nestSum l F ρ = fin x) : ∃ ρ' y, F ρ' = fin y := by
  induction l generalizing ρ x with
  | nil => exact ⟨ρ, x, hx⟩
  | cons a l ih =>
    obtain ⟨y, hy⟩ := List.exists_mem_of_ne_nil _ (hl a List.mem_cons_self)
    obtain ⟨b, hb⟩ := xsum_fin hx _ (List.mem_map_of_mem hy)
    exact ih (fun c hc => hl c (List.mem_cons_of_mem _ hc)) hb

theorem nestSum_real (l : List (Nat × List Int)) (q : Asg → ℝ) (ρ : Asg) : nestSum l (fun ρ => fin (q ρ)) ρ = fin (appAll (l.map sumOver) (fun ρ => (q ρ : ℂ)) ρ).re := by
  induction l generalizing ρ with
  | nil => simp [nestSum, appAll]
  | cons a l ih =>
    show xsum (a.2.map fun x => nestSum l _ (put ρ a.1 x)) = fin (app (sumOver a) (appAll (l.map sumOver) _) ρ).re
    simp only [ih]
    unfold app sumOver
    rw [List.map_map]
    generalize a.2 = xs
    induction xs with
    | nil => simp [xsum]
    | cons x xs ih2 =>
      rw [List.map_cons, List.map_cons, xsum, ih2, List.sum_cons, fin_add, Complex.add_re]
      simp

/-! ### the environment in the loops -/

theorem setAll_gi {L : List (Nat × IExp)} {E : TEnv} {m : Nat} {x : IExp} (h : (E.setAll L).gi m = some x) : (m, x) ∈ L ∨ E.gi m = some x := by
  induction L generalizing E with
  | nil => exact .inr h
  | cons a L ih =>
    obtain ⟨n, y⟩ := a
    rcases ih h with h1 | h1
    · exact .inl (List.mem_cons_of_mem _ h1)
    · rw [TEnv.gi_seti] at h1
      split_ifs at h1 with hm
      · cases h1; subst hm; exact .inl List.mem_cons_self
      · exact .inr h1

theorem setAll_g (E : TEnv) (L : List (Nat × IExp)) (t : Ty) (m : Nat) : (E.setAll L).g t m = E.g t m := by
  induction L generalizing E with
  | nil => rfl
  | cons a L ih => obtain ⟨n, y⟩ := a; rw [TEnv.setAll, ih, TEnv.g_seti]

/-- the values of the enumerated variables -/
def pick (en : List (Nat × List Int)) (ρ : Asg) : List (Nat × Int) := en.map fun a => (a.1, ρ a.1)

theorem pick_mem {en : List (Nat × List Int)} {ρ : Asg} (h : ∀ a ∈ en, ρ a.1 ∈ a.2) : pick en ρ ∈ enums en := by
  induction en with
  | nil => simp [pick, enums]
  | cons a en ih =>
    simp only [enums, List.mem_flatMap, List.mem_map]
    exact ⟨_, h a List.mem_cons_self, _, ih fun b hb => h b (List.mem_cons_of_mem _ hb), rfl⟩

/-- nested loops -/
def nestRun (ex : Exec) : List (Nat × List Int) → Exec
  | [] => ex
  | (n, xs) :: l => loopRun n (nestRun ex l) xs

theorem exec_peel (S : Sem XR XC Unit) : ∀ s : Stmt, s.exec S = nestRun ((peel s).2.exec S) (peel s).1
  | .loop n lo incl (.lit hi) step body => by
    funext l
    rw [peel, nestRun, Stmt.exec, ← exec_peel S body]; rfl
  | .loop n lo incl (.var m) step body => rfl
  | .loop n lo incl (.mul a b) step body => rfl
  | .loop n lo incl (.loops ds) step body => rfl
  | .skip => rfl
  | .seq a b => rfl
  | .seti n e => rfl
  | .set t n e => rfl
  | .ite b s t => rfl
  | .spins ds i => rfl
  | .ret t e => rfl
  | .throw e => rfl

theorem peel_assigned : ∀ s : Stmt, (∀ a ∈ (peel s).1, a.1 ∈ s.assigned) ∧ (∀ n ∈ (peel s).2.assigned, n ∈ s.assigned) ∧ ∀ t, (peel s).2.assignedT t = s.assignedT t
  | .loop n lo incl (.lit hi) step body => by
    obtain ⟨h1, h2, h3⟩ := peel_assigned body
    refine ⟨fun a ha => ?_, fun m hm => List.mem_cons_of_mem _ (h2 m hm), h3⟩
    rcases List.mem_cons.mp ha with rfl | ha
    · exact List.mem_cons_self
    · exact List.mem_cons_of_mem _ (h1 a ha)
  | .loop n lo incl (.var m) step body => ⟨by simp [peel], fun _ h => h, fun _ => rfl⟩
  | .loop n lo incl (.mul a b) step body => ⟨by simp [peel], fun _ h => h, fun _ => rfl⟩
  | .loop n lo incl (.loops ds) step body => ⟨by simp [peel], fun _ h => h, fun _ => rfl⟩
  | .skip => ⟨by simp [peel], fun _ h => h, fun _ => rfl⟩
  | .seq a b => ⟨by simp [peel], fun _ h => h, fun _ => rfl⟩
  | .seti n e => ⟨by simp [peel], fun _ h => h, fun _ => rfl⟩
  | .set t n e => ⟨by simp [peel], fun _ h => h, fun _ => rfl⟩
  | .ite b s t => ⟨by simp [peel], fun _ h => h, fun _ => rfl⟩
  | .spins ds i => ⟨by simp [peel], fun _ h => h, fun _ => rfl⟩
  | .ret t e => ⟨by simp [peel], fun _ h => h, fun _ => rfl⟩
  | .throw e => ⟨by simp [peel], fun _ h => h, fun _ => rfl⟩

/-- Nested loops whose body adds a number, depending on the loop variables, to an accumulator. -/
theorem nest_run {ex : Exec} {s : Stmt} {k : Nat} {F : Asg → XR} {l0 : Loc XR XC} {ls : List (Nat × List Int)}
    (hass : ∀ a ∈ ls, a.1 ∈ s.assigned)
    (hbody : ∀ (l : Loc XR XC) (ρ : Asg), KeepsT s l0 l → (∀ a ∈ ls, l.i a.1 = ρ a.1 ∧ ρ a.1 ∈ a.2) →
      ∃ l2, ex l () = (.ok (.next l2), ()) ∧ KeepsT s l0 l2 ∧ (∀ a ∈ ls, l2.i a.1 = l.i a.1) ∧ l2.r k = l.r k + F ρ) :
    ∀ (l2s l1s : List (Nat × List Int)), ls = l1s ++ l2s → (ls.map Prod.fst).Nodup → ∀ (l : Loc XR XC) (ρ : Asg), KeepsT s l0 l →
      (∀ a ∈ l1s, l.i a.1 = ρ a.1 ∧ ρ a.1 ∈ a.2) →
      ∃ l2, nestRun ex l2s l () = (.ok (.next l2), ()) ∧ KeepsT s l0 l2 ∧ (∀ a ∈ l1s, l2.i a.1 = l.i a.1) ∧ l2.r k = l.r k + nestSum l2s F ρ
  | [], l1s, hls, hn, l, ρ, hk, h1 => by
    rw [List.append_nil] at hls
    subst hls
    exact hbody l ρ hk h1
  | (n, xs) :: l2s, l1s, hls, hn, l, ρ, hk, h1 => by
    have hnn : ∀ a ∈ l1s, a.1 ≠ n := by
      intro a ha e
      rw [hls, List.map_append, List.nodup_append] at hn
      exact hn.2.2 a.1 (List.mem_map_of_mem ha) n (by simp) e
    have hmem : (n, xs) ∈ ls := by rw [hls]; simp
    have key : ∀ (ys : List Int), (∀ y ∈ ys, y ∈ xs) → ∀ l : Loc XR XC, KeepsT s l0 l → (∀ a ∈ l1s, l.i a.1 = ρ a.1 ∧ ρ a.1 ∈ a.2) →
        ∃ l2, loopRun n (nestRun ex l2s) ys l () = (.ok (.next l2), ()) ∧ KeepsT s l0 l2 ∧ (∀ a ∈ l1s, l2.i a.1 = l.i a.1) ∧
          l2.r k = l.r k + xsum (ys.map fun x => nestSum l2s F (put ρ n x)) := by
      intro ys
      induction ys with
      | nil => intro _ l hk h1; exact ⟨l, rfl, hk, fun _ _ => rfl, (xr_add_zero _).symm⟩
      | cons y ys ih =>
        intro hys l hk h1
        have hk1 : KeepsT s l0 (l.seti n y) := by
          refine ⟨fun m hm => ?_, fun t m hm => by rw [loc_seti_get]; exact hk.2 t m hm⟩
          show (if m = n then y else l.i m) = l0.i m
          rw [if_neg (by rintro rfl; exact hm (hass _ hmem))]
          exact hk.1 m hm
        obtain ⟨l2, e2, k2, i2, r2⟩ := nest_run hass hbody l2s (l1s ++ [(n, xs)]) (by rw [hls]; simp) hn (l.seti n y) (put ρ n y) hk1 (by
          intro a ha
          rcases List.mem_append.mp ha with ha | ha
          · have := hnn a ha
            rw [put_ne _ _ this]
            show (if a.1 = n then y else l.i a.1) = _ ∧ _
            rw [if_neg this]
            exact h1 a ha
          · rw [List.mem_singleton] at ha
            subst ha
            exact ⟨by rw [put_same]; exact if_pos rfl, by rw [put_same]; exact hys y List.mem_cons_self⟩)
        have i2' : ∀ a ∈ l1s, l2.i a.1 = l.i a.1 := by
          intro a ha
          rw [i2 a (List.mem_append_left _ ha)]
          exact if_neg (hnn a ha)
        obtain ⟨l3, e3, k3, i3, r3⟩ := ih (fun z hz => hys z (List.mem_cons_of_mem _ hz)) l2 k2 (fun a ha => by rw [i2' a ha]; exact h1 a ha)
        refine ⟨l3, ?_, k3, fun a ha => by rw [i3 a ha, i2' a ha], ?_⟩
        · rw [loopRun, bind_ok e2]; exact e3
        · rw [r3, r2]
          show l.r k + _ + _ = _
          rw [xr_add_assoc]; rfl
    exact key xs (fun _ h => h) l hk h1

/-! ### the types -/

theorem loops_perm (cv : List Nat) (sp : Nat → Option SPDef) (massive : Nat → Bool) (f : Nat → List IExp → Option VTy) (l : List (Nat × List Int)) :
    l.Perm (enumLoops cv l ++ loopsOf ⟨sp, massive, [], fermLoops cv l, vecLoops cv l, f⟩) := by
  have e1 : (fermLoops cv l).map (fun n => (n, fermVals)) = l.filter fun x => !cv.contains x.1 && x.2 == fermVals := by
    unfold fermLoops
    rw [List.map_map]
    conv_rhs => rw [← List.map_id (l.filter _)]
    refine List.map_congr_left fun a ha => ?_
    have := (List.mem_filter.mp ha).2
    simp only [Bool.and_eq_true, beq_iff_eq] at this
    exact Prod.ext rfl this.2.symm
  have e2 : (vecLoops cv l).map (fun n => (n, vecVals)) = l.filter fun x => !cv.contains x.1 && x.2 == vecVals := by
    unfold vecLoops
    rw [List.map_map]
    conv_rhs => rw [← List.map_id (l.filter _)]
    refine List.map_congr_left fun a ha => ?_
    have := (List.mem_filter.mp ha).2
    simp only [Bool.and_eq_true, beq_iff_eq] at this
    exact Prod.ext rfl this.2.symm
  unfold loopsOf
  dsimp only
  rw [e1, e2]
  unfold enumLoops
  clear e1 e2
  induction l with
  | nil => rfl
  | cons a l ih =>
    by_cases hc : cv.contains a.1 = true
    · simp only [List.filter_cons, hc, Bool.true_or, if_true, Bool.not_true, Bool.false_and, Bool.false_eq_true, if_false, List.cons_append]
      exact ih.cons a
    · by_cases hf : a.2 = fermVals
      · have hv : ¬ a.2 = vecVals := by rw [hf]; decide
        simp only [List.filter_cons, hc, hf, show (fermVals == vecVals) = false from by decide, Bool.false_or, bne_self_eq_false, Bool.false_and, Bool.false_eq_true, if_false,
          Bool.not_eq_true, Bool.eq_false_iff.mpr hc, Bool.not_false, Bool.true_and, beq_self_eq_true, if_true, List.cons_append]
        exact (ih.cons a).trans List.perm_middle.symm
      · by_cases hv : a.2 = vecVals
        · simp only [List.filter_cons, hv, show (vecVals == fermVals) = false from by decide, Bool.false_or, bne_self_eq_false, Bool.and_false, Bool.false_eq_true, if_false,
            Bool.not_eq_true, Bool.eq_false_iff.mpr hc, Bool.not_false, Bool.true_and, beq_self_eq_true, if_true, List.cons_append]
          refine (ih.cons a).trans ?_
          rw [← List.append_assoc, ← List.append_assoc]
          exact List.perm_middle.symm
        · have b1 : (a.2 == fermVals) = false := beq_eq_false_iff_ne.mpr hf
          have b2 : (a.2 == vecVals) = false := beq_eq_false_iff_ne.mpr hv
          simp only [List.filter_cons, bne, b1, b2, Bool.not_false, Bool.and_true, Bool.or_true, if_true, Bool.and_false, Bool.false_eq_true, if_false, List.cons_append]
          exact ih.cons a

/-- a value of type zero is a special case of a sum that is the same in both frames -/
theorem den_zero_quad {Γ : Frames} {X : TCtx} {D D' : Asg → XR} (h : Den Γ X .r .zero D D') : Den Γ X .r .quad D D' := by
  intro ρ0 h0
  exact ⟨fun _ => 0, fun _ => 0, fun ρ => h.2 ρ0 h0 ρ, rfl⟩

structure NestPre (sp : Nat → Option SPDef) (massive : Nat → Bool) (ms : List Method) (s : Stmt) (E : TEnv) (ls : List (Nat × List Int)) (body : Stmt)
    (en : List (Nat × List Int)) (ferm vec : List Nat) (k : Nat) : Prop where
  peel : SM.peel s = (ls, body)
  perm : ls.Perm (en ++ loopsOf ⟨sp, massive, [], ferm, vec, tyCalls sp massive ms⟩)
  acc : E.g .r k = some (false, .scal 0)
  assigned : k ∈ body.assignedT .r
  nodup : (ls.map Prod.fst).Nodup
  fst : ∀ a ∈ ls, a.1 ∉ body.assigned
  lits : ∀ m x, (E.forget s).gi m = some x → ∃ i, x = .lit i
  body : ∀ e ∈ enums en, ∃ E2 v, body.ty ⟨sp, massive, [], ferm, vec, tyCalls sp massive ms⟩
      (((E.forget s).setAll ((ferm ++ vec).map (fun n => (n, .var n)) ++ e.map (fun x => (x.1, .lit x.2)))).set .r k (some (true, .zero))) = some (.next E2) ∧
    E2.g .r k = some (true, v) ∧ (v = .quad ∨ v = .zero)

theorem tyNest_some {sp : Nat → Option SPDef} {massive : Nat → Bool} {ms : List Method} {s : Stmt} {E E' : TEnv} (h : tyNest sp massive ms s E = some E') :
    ∃ ls body en ferm vec k, NestPre sp massive ms s E ls body en ferm vec k ∧ E' = (E.forget s).set .r k (some (false, .scal 0)) := by
  unfold tyNest at h
  dsimp only at h
  split at h
  · cases h
  · rename_i k hk
    split at h
    · rename_i hz
      split_ifs at h with hc
      obtain ⟨c1, c2, c3, c4⟩ := hc
      cases h
      refine ⟨_, _, _, _, _, k, ⟨rfl, loops_perm (condLoopVars ms s) _ _ _ _, hz, List.mem_of_mem_head? hk, c1, fun a ha => ?_, fun m x hx => ?_, fun e he => ?_⟩, rfl⟩
      · have := List.all_eq_true.mp c2 a ha
        simpa using this
      · have := List.all_eq_true.mp c3 _ (mem_getD hx)
        cases x with
        | lit i => exact ⟨i, rfl⟩
        | var m => cases this
        | mul a b => cases this
        | loops l => cases this
      · have := List.all_eq_true.mp c4 e he
        split at this
        · rename_i E2 hE2
          split at this
          · rename_i hq; exact ⟨E2, _, hE2, hq, .inl rfl⟩
          · rename_i hq; exact ⟨E2, _, hE2, hq, .inr rfl⟩
          · cases this
        · cases this
    · cases h

theorem nest_sound {Γ : Frames} {sp : Nat → Option SPDef} {massive : Nat → Bool} {V V' : Nat → List Int → XC} (hV : VTwo Γ sp massive V V')
    (mr : Nat → XR) (mc : Nat → XC) (junk junk' : Loc XR XC) {ms : List Method} {s : Stmt} {E E' : TEnv} (h : tyNest sp massive ms s E = some E')
    {Φ Φ' : Vals} (hE : EnvDen Γ ⟨sp, massive, [], [], [], tyCalls sp massive ms⟩ E Φ Φ') :
    FlowOk Γ ⟨sp, massive, [], [], [], tyCalls sp massive ms⟩ (s.exec ⟨mr, mc, pureV V, callable mr mc (pureV V) junk ms⟩)
      (s.exec ⟨mr, mc, pureV V', callable mr mc (pureV V') junk' ms⟩) E Φ Φ' (.next E') := by
  obtain ⟨ls, body, en, ferm, vec, k, H, rfl⟩ := tyNest_some h
  generalize hS : (⟨mr, mc, pureV V, callable mr mc (pureV V) junk ms⟩ : Sem XR XC Unit) = S
  generalize hS' : (⟨mr, mc, pureV V', callable mr mc (pureV V') junk' ms⟩ : Sem XR XC Unit) = S'
  have W : Two Γ ⟨sp, massive, [], ferm, vec, tyCalls sp massive ms⟩ S S' := by rw [← hS, ← hS']; exact two_of hV mr mc junk junk' ms ferm vec
  have hE0 : EnvDen Γ ⟨sp, massive, [], [], [], tyCalls sp massive ms⟩ (E.forget s) Φ Φ' := fun t m b v hm => hE t m b v (forget_g hm).2.2.2
  have hconst : ∀ t m d, E.g t m = some (false, .scal d) → (∀ ρ, Φ t m ρ = Φ t m fun _ => 0) ∧ ∀ ρ, Φ' t m ρ = Φ' t m fun _ => 0 := by
    intro t m d hm
    obtain ⟨f, f', h1, h2⟩ := den_via (hE t m _ _ hm)
    exact ⟨fun ρ => by rw [h1, h1, nrm_nil, nrm_nil], fun ρ => by rw [h2, h2, nrm_nil, nrm_nil]⟩
  -- what the body adds
  have hz : Den Γ ⟨sp, massive, [], ferm, vec, tyCalls sp massive ms⟩ .r .zero (fun _ => fin 0) (fun _ => fin 0) :=
    ⟨⟨fun _ => fin 0, fun _ => fin 0, fun _ => rfl, fun _ => rfl⟩, fun _ _ _ => ⟨rfl, rfl⟩⟩
  let Eb : List (Nat × Int) → TEnv := fun e => ((E.forget s).setAll ((ferm ++ vec).map (fun n => (n, .var n)) ++ e.map (fun x => (x.1, .lit x.2)))).set .r k (some (true, .zero))
  have hQ : ∀ e, ∃ Q Q' : Asg → XR, e ∈ enums en → Den Γ ⟨sp, massive, [], ferm, vec, tyCalls sp massive ms⟩ .r .quad Q Q' ∧
      (∀ l ρ A, Holds (Eb e) (Φ.put .r k fun _ => fin 0) A l ρ → ∃ l2, body.exec S l () = (.ok (.next l2), ()) ∧ l2.r k = (A .r : XR) + Q ρ) ∧
      (∀ l ρ A, Holds (Eb e) (Φ'.put .r k fun _ => fin 0) A l ρ → ∃ l2, body.exec S' l () = (.ok (.next l2), ()) ∧ l2.r k = (A .r : XR) + Q' ρ) := by
    intro e
    by_cases he : e ∈ enums en
    · obtain ⟨E2, v, hb, hr, hv⟩ := H.body e he
      have hEb : EnvDen Γ ⟨sp, massive, [], ferm, vec, tyCalls sp massive ms⟩ (Eb e) (Φ.put .r k fun _ => fin 0) (Φ'.put .r k fun _ => fin 0) := by
        refine EnvDen.set (fun t m b v hm => ?_) k hz
        rw [setAll_g] at hm
        obtain ⟨-, rfl, ⟨d, rfl⟩, -⟩ := forget_g hm
        have := hE0 t m _ _ hm
        cases t
        · exact this
        · exact this
      obtain ⟨Φ2, Φ2', hE2, hr1, hr2⟩ := stmtTy_sound W body _ _ _ _ hb hEb
      refine ⟨Φ2 .r k, Φ2' .r k, fun _ => ⟨?_, fun l ρ A hl => ?_, fun l ρ A hl => ?_⟩⟩
      · rcases hv with rfl | rfl
        · exact hE2 _ _ _ _ hr
        · exact den_zero_quad (hE2 _ _ _ _ hr)
      · obtain ⟨l2, e2, hl2⟩ := hr1 l ρ A hl
        exact ⟨l2, e2, hl2.v .r k _ _ hr⟩
      · obtain ⟨l2, e2, hl2⟩ := hr2 l ρ A hl
        exact ⟨l2, e2, hl2.v .r k _ _ hr⟩
    · exact ⟨fun _ => fin 0, fun _ => fin 0, fun h => absurd h he⟩
  choose Q Q' hQ using hQ
  obtain ⟨pa1, pa2, pa3⟩ := peel_assigned s
  rw [H.peel] at pa1 pa2 pa3
  have hmem : ∀ a ∈ en, a ∈ ls := fun a ha => H.perm.mem_iff.mpr (List.mem_append_left _ ha)
  have hferm : ∀ n, n ∈ ferm ++ vec → ∃ xs, (n, xs) ∈ ls := by
    intro n hn
    rcases List.mem_append.mp hn with hn | hn
    · exact ⟨fermVals, H.perm.mem_iff.mpr (List.mem_append_right _ (List.mem_append_left _ (List.mem_map_of_mem hn)))⟩
    · exact ⟨vecVals, H.perm.mem_iff.mpr (List.mem_append_right _ (List.mem_append_right _ (List.mem_map_of_mem hn)))⟩
  -- the loops
  have run : ∀ (σ : Sem XR XC Unit) (Ψ : Vals) (q : List (Nat × Int) → Asg → XR),
      (∀ t m d, E.g t m = some (false, .scal d) → ∀ ρ, Ψ t m ρ = Ψ t m fun _ => 0) →
      (∀ e ∈ enums en, ∀ l ρ A, Holds (Eb e) (Ψ.put .r k fun _ => fin 0) A l ρ → ∃ l2, body.exec σ l () = (.ok (.next l2), ()) ∧ l2.r k = (A .r : XR) + q e ρ) →
      Runs (s.exec σ) E Ψ ((E.forget s).set .r k (some (false, .scal 0)))
        (Ψ.put .r k fun _ => (Ψ .r k (fun _ => 0) : XR) + nestSum ls (fun ρ => q (pick en ρ) ρ) fun _ => 0) := by
    intro σ Ψ q hc hq l0 ρ0 A0 h0
    have hb : ∀ (l : Loc XR XC) (ρ : Asg), KeepsT s l0 l → (∀ a ∈ ls, l.i a.1 = ρ a.1 ∧ ρ a.1 ∈ a.2) →
        ∃ l2, body.exec σ l () = (.ok (.next l2), ()) ∧ KeepsT s l0 l2 ∧ (∀ a ∈ ls, l2.i a.1 = l.i a.1) ∧ l2.r k = l.r k + q (pick en ρ) ρ := by
      intro l ρ hk hl
      have hpick : pick en ρ ∈ enums en := pick_mem fun a ha => (hl a (hmem a ha)).2
      have hH : Holds (Eb (pick en ρ)) (Ψ.put .r k fun _ => fin 0) (fun | .r => l.r k | .c => ofC 0) l ρ := by
        refine ⟨fun m x hm => ?_, fun t m b v hm => ?_⟩
        · rw [TEnv.gi_set] at hm
          rcases setAll_gi hm with h1 | h1
          · rcases List.mem_append.mp h1 with h1 | h1
            · obtain ⟨n, hn, e⟩ := List.mem_map.mp h1
              cases e
              obtain ⟨xs, hxs⟩ := hferm _ hn
              exact (hl _ hxs).1
            · obtain ⟨y, hy, e⟩ := List.mem_map.mp h1
              obtain ⟨a, ha, rfl⟩ := List.mem_map.mp hy
              cases e
              exact (hl _ (hmem a ha)).1
          · obtain ⟨i, rfl⟩ := H.lits m x h1
            obtain ⟨f1, f2, -⟩ := forget_gi h1
            rw [hk.1 m f1]
            exact h0.i m _ f2
        · rw [TEnv.g_set, setAll_g] at hm
          split_ifs at hm with hcnd
          · obtain ⟨rfl, rfl⟩ := hcnd
            cases hm
            rw [Vals.put_same]
            exact (xr_add_zero _).symm
          · rw [Vals.put_other _ _ _ _ hcnd]
            obtain ⟨f1, rfl, ⟨d, rfl⟩, f2⟩ := forget_g hm
            rw [hk.2 t m f1, h0.v t m _ _ f2]
            show Ψ t m ρ0 = Ψ t m ρ
            rw [hc t m d f2 ρ0, hc t m d f2 ρ]
      obtain ⟨l2, e2, hr⟩ := hq _ hpick l ρ _ hH
      obtain ⟨g1, g2⟩ := execT_keeps σ _ _ _ _ e2
      refine ⟨l2, e2, ⟨fun m hm => ?_, fun t m hm => ?_⟩, fun a ha => g1 _ (H.fst a ha), hr⟩
      · rw [g1 m fun hb => hm (pa2 m hb)]; exact hk.1 m hm
      · rw [g2 t m (by rw [pa3]; exact hm)]; exact hk.2 t m hm
    obtain ⟨l2, e2, k2, -, r2⟩ := nest_run (k := k) pa1 hb ls [] rfl H.nodup l0 (fun _ => 0) ⟨fun _ _ => rfl, fun _ _ _ => rfl⟩ (by simp)
    refine ⟨l2, ?_, fun m x hm => ?_, fun t m b v hm => ?_⟩
    · rw [exec_peel, H.peel]; exact e2
    · rw [TEnv.gi_set] at hm
      obtain ⟨f1, f2, -⟩ := forget_gi hm
      rw [k2.1 m f1]; exact h0.i m x f2
    · rw [TEnv.g_set] at hm
      split_ifs at hm with hcnd
      · obtain ⟨rfl, rfl⟩ := hcnd
        cases hm
        rw [Vals.put_same]
        show l2.r m = _
        rw [r2, show l0.r m = Ψ .r m ρ0 from h0.v .r m _ _ H.acc, hc .r m 0 H.acc ρ0]
        rfl
      · rw [Vals.put_other _ _ _ _ hcnd]
        obtain ⟨f1, rfl, ⟨d, rfl⟩, f2⟩ := forget_g hm
        rw [k2.2 t m f1]; exact h0.v t m _ _ f2
  refine ⟨_, _, EnvDen.set hE0 k ?_, run S Φ Q (fun t m d hm => (hconst t m d hm).1) (fun e he => (hQ e he).2.1),
    run S' Φ' Q' (fun t m d hm => (hconst t m d hm).2) (fun e he => (hQ e he).2.2)⟩
  -- the sums
  have key : ∀ x, nestSum ls (fun ρ => Q (pick en ρ) ρ) (fun _ => 0) = fin x → nestSum ls (fun ρ => Q' (pick en ρ) ρ) (fun _ => 0) = fin x := by
    intro x hx
    have hn2 := ((H.perm.map Prod.fst).nodup_iff).mp H.nodup
    rw [List.map_append, List.nodup_append] at hn2
    rw [nestSum_perm H.perm H.nodup, nestSum_append] at hx ⊢
    refine nestSum_imp (fun ρ' hr y hy => ?_) hx
    have hpick : pick en ρ' ∈ enums en := pick_mem fun a ha => reach_mem hn2.1 hr ha
    have hsame : ∀ ρ'', Reach (loopsOf ⟨sp, massive, [], ferm, vec, tyCalls sp massive ms⟩) ρ' ρ'' → pick en ρ'' = pick en ρ' := by
      intro ρ'' hr'
      refine List.map_congr_left fun a ha => ?_
      rw [reach_other hr' fun hm => hn2.2.2 a.1 (List.mem_map_of_mem ha) a.1 hm rfl]
    rw [nestSum_congr (G := Q (pick en ρ')) fun ρ'' hr' => by rw [hsame ρ'' hr']] at hy
    rw [nestSum_congr (G := Q' (pick en ρ')) fun ρ'' hr' => by rw [hsame ρ'' hr']]
    obtain ⟨hd, -, -⟩ := hQ _ hpick
    obtain ⟨ρ1, y1, hy1⟩ := nestSum_some (by
      intro a ha
      rcases List.mem_append.mp ha with ha | ha
      · obtain ⟨n, -, rfl⟩ := List.mem_map.mp ha; exact List.cons_ne_nil _ _
      · obtain ⟨n, -, rfl⟩ := List.mem_map.mp ha; exact List.cons_ne_nil _ _) hy
    obtain ⟨q, q', hk, hs⟩ := hd ρ1 ⟨y1, hy1⟩
    have e1 : Q (pick en ρ') = fun ρ => fin (q ρ) := funext fun ρ => (hk ρ).1
    have e2 : Q' (pick en ρ') = fun ρ => fin (q' ρ) := funext fun ρ => (hk ρ).2
    rw [e1, nestSum_real] at hy
    rw [e2, nestSum_real, ← hs]
    exact hy
  refine ⟨⟨fun _ => _, fun _ => _, fun _ => rfl, fun _ => rfl⟩, fun ρ0 ⟨a, ha⟩ => ?_⟩
  obtain ⟨b, c, hb, hc⟩ := add_fin ha
  obtain ⟨d, hd⟩ := (hE .r k _ _ H.acc).2 (fun _ => 0) ⟨b, hb⟩
  refine ⟨d + c, fun ρ => ?_⟩
  have := hd fun _ => 0
  simp only [pow_zero, one_mul] at this ⊢
  rw [this.1, this.2, hc, key c hc]
  exact ⟨rfl, rfl⟩

/-- The type of a squared amplitude: it is the same number in both frames. -/
theorem sqTy_sound {Γ : Frames} {sp : Nat → Option SPDef} {massive : Nat → Bool} {V V' : Nat → List Int → XC} (hV : VTwo Γ sp massive V V')
    (mr : Nat → XR) (mc : Nat → XC) (junk junk' : Loc XR XC) {ms : List Method} : ∀ (s : Stmt) (E : TEnv) (Φ Φ' : Vals), s.tySq sp massive ms E = true →
      EnvDen Γ ⟨sp, massive, [], [], [], tyCalls sp massive ms⟩ E Φ Φ' →
      ∃ v, (v = .scal 0 ∨ v = .quad) ∧ FlowOk Γ ⟨sp, massive, [], [], [], tyCalls sp massive ms⟩ (s.exec ⟨mr, mc, pureV V, callable mr mc (pureV V) junk ms⟩)
        (s.exec ⟨mr, mc, pureV V', callable mr mc (pureV V') junk' ms⟩) E Φ Φ' (.ret .r v) := by
  have W := two_of hV mr mc junk junk' ms [] []
  have single : ∀ (s : Stmt) (E : TEnv) (Φ Φ' : Vals), (match s.ty ⟨sp, massive, [], [], [], tyCalls sp massive ms⟩ E with
      | some (.ret .r (.scal 0)) => true | some (.ret .r .quad) => true | _ => false) = true → EnvDen Γ ⟨sp, massive, [], [], [], tyCalls sp massive ms⟩ E Φ Φ' →
      ∃ v, (v = .scal 0 ∨ v = .quad) ∧ FlowOk Γ ⟨sp, massive, [], [], [], tyCalls sp massive ms⟩ (s.exec ⟨mr, mc, pureV V, callable mr mc (pureV V) junk ms⟩)
        (s.exec ⟨mr, mc, pureV V', callable mr mc (pureV V') junk' ms⟩) E Φ Φ' (.ret .r v) := by
    intro s E Φ Φ' h hE
    split at h
    · rename_i h1; exact ⟨_, .inl rfl, stmtTy_sound W s E _ Φ Φ' h1 hE⟩
    · rename_i h1; exact ⟨_, .inr rfl, stmtTy_sound W s E _ Φ Φ' h1 hE⟩
    · cases h
  intro s
  induction s with
  | seq a b iha ihb =>
    intro E Φ Φ' h hE
    unfold Stmt.tySq at h
    split at h
    · rename_i n lo incl hi step body rest heq
      cases heq
      split at h
      · rename_i E' hE'
        obtain ⟨Φ1, Φ1', hE1, k, k'⟩ := nest_sound hV mr mc junk junk' hE' hE
        obtain ⟨v, hv, hf⟩ := ihb E' Φ1 Φ1' h hE1
        exact ⟨v, hv, seq_ok k k' hf (exec_seq _ _ _) (exec_seq _ _ _)⟩
      · cases h
    · rename_i heq
      cases heq
      split at h
      · rename_i E' hE'
        obtain ⟨Φ1, Φ1', hE1, k, k'⟩ := stmtTy_sound W a _ _ Φ Φ' hE' hE
        obtain ⟨v, hv, hf⟩ := ihb E' Φ1 Φ1' h hE1
        exact ⟨v, hv, seq_ok k k' hf (exec_seq _ _ _) (exec_seq _ _ _)⟩
      · cases h
    · rename_i hne; exact (hne a b rfl).elim
  | _ => intro E Φ Φ' h hE; exact single _ E Φ Φ' h hE

/-- A squared amplitude computed from products that agree with their types in two frames. -/
theorem square_sound {Γ : Frames} {sp : Nat → Option SPDef} {massive : Nat → Bool} {V V' : Nat → List Int → XC} (hV : VTwo Γ sp massive V V')
    (mr : Nat → XR) (mc : Nat → XC) (junk junk' : Loc XR XC) : ∀ (ms : List Method) (k : Nat), tySquare sp massive ms k = true →
      ∃ x x' : XR, invoke mr mc (pureV V) junk .r ms k [] () = (.ok x, ()) ∧ invoke mr mc (pureV V') junk' .r ms k [] () = (.ok x', ()) ∧ ∀ a, x = fin a → x' = fin a
  | [], k, h => by cases h
  | m :: ms, k, h => by
    unfold tySquare at h
    unfold invoke
    split_ifs at h ⊢ with hk
    · simp only [Bool.and_eq_true, decide_eq_true_eq] at h
      obtain ⟨ha, h⟩ := h
      have hE : EnvDen Γ ⟨sp, massive, [], [], [], tyCalls sp massive ms⟩ ⟨[], [], []⟩ (fun | .r => fun _ _ => fin 0 | .c => fun _ _ => ofC 0) (fun | .r => fun _ _ => fin 0 | .c => fun _ _ => ofC 0) := by
        intro t n b v hv
        cases t <;> simp [TEnv.g] at hv
      have hh : ∀ (junk : Loc XR XC), Holds ⟨[], [], []⟩ (fun | .r => fun _ _ => fin 0 | .c => fun _ _ => ofC 0) (fun | .r => fin 0 | .c => ofC 0) (enter junk []) (fun _ => 0) := by
        intro junk
        refine ⟨fun n x hx => by simp [TEnv.gi] at hx, fun t n b v hv => ?_⟩
        cases t <;> simp [TEnv.g] at hv
      obtain ⟨v, hv, D, D', hD, k1, k2⟩ := sqTy_sound hV mr mc junk junk' m.body _ _ _ h hE
      refine ⟨D fun _ => 0, D' fun _ => 0, ?_, ?_, fun a hx => ?_⟩
      · rw [Method.run, if_pos (by rw [ha]; rfl), bind_ok (k1 _ _ _ (hh junk))]; rfl
      · rw [Method.run, if_pos (by rw [ha]; rfl), bind_ok (k2 _ _ _ (hh junk'))]; rfl
      · rcases hv with rfl | rfl
        · obtain ⟨c, hc⟩ := hD.2 _ ⟨a, hx⟩
          rw [(hc _).2, ← (hc _).1]; exact hx
        · obtain ⟨q, q', hq, hs⟩ := hD _ ⟨a, hx⟩
          have : q' = q := by
            have h2 : (fun ρ => (q ρ : ℂ)) = fun ρ => (q' ρ : ℂ) := hs
            funext ρ
            exact (Complex.ofReal_injective (congrFun h2 ρ)).symm
          rw [(hq _).2, this, ← (hq _).1]; exact hx
    · exact square_sound hV mr mc junk junk' ms k h

end Spinas.SM

import Verif.SM.Calls

/-! What `set_momenta` leaves behind when it throws. -/

namespace Spinas.SM

variable {R C : Type} [Scalar R] [HasPow R] [Cplx R C]

/-- the object after `set_momentum` has been called for the particles `k`, ..., `n - 1`; the last of these calls may have thrown -/
def moved (q : Nat → V4 R) (k n : Nat) (o : Obj R C) : Obj R C :=
  { o with w := { o.w with part := fun i => if k ≤ i ∧ i < n then (Particle.setMomentum (q i) (o.w.part i)).2 else o.w.part i } }

omit [HasPow R] in
theorem setMom_cases (p : V4 R) (P : Particle R C) : (Particle.setMomentum p P).1 = .ok () ∨ (Particle.setMomentum p P).1 = .throw .massShell := by
  cases h : accepts C P.kin P.kin.m p with
  | true => exact .inl (setMom_ok h rfl).1
  | false => exact .inr (setMom_throw h rfl)

theorem moved_next (junk : Kin R C) (par' : Nat → R) (q : Nat → V4 R) (k : Nat) (o : Obj R C) : (SInstr.exec junk par' q (.setMom k k) o).2 = moved q k (k + 1) o := by
  show ({ o with w := (onPart k (Particle.setMomentum (q k)) o.w).2 } : Obj R C) = _
  unfold moved
  congr 1
  show ({ o.w with part := fun j => if j = k then (Particle.setMomentum (q k) (o.w.part k)).2 else o.w.part j } : World R C) = _
  dsimp only
  congr 1
  funext i
  by_cases h : i = k
  · subst h; simp
  · rw [if_neg h, if_neg (by omega)]

omit [HasPow R] in
theorem moved_moved (q : Nat → V4 R) {k n : Nat} (h : k < n) (o : Obj R C) : moved q (k + 1) n (moved q k (k + 1) o) = moved q k n o := by
  unfold moved
  dsimp only
  congr 2
  funext i
  by_cases h1 : i = k
  · subst h1; rw [if_neg (by omega), if_pos (by omega), if_pos ⟨le_refl _, h⟩]
  · by_cases h2 : k ≤ i ∧ i < n
    · rw [if_pos (by omega), if_neg (by omega), if_pos h2]
    · rw [if_neg (by omega), if_neg (by omega), if_neg h2]

/-- the calls of `set_momentum` stop at the first momentum that is rejected -/
theorem momenta_stop (junk : Kin R C) (par' : Nat → R) (q : Nat → V4 R) (rest : List SInstr) (n : Nat) : ∀ (k : Nat) (o : Obj R C),
    (∃ i, k ≤ i ∧ i < k + n ∧ (∀ l, k ≤ l → l < i → (Particle.setMomentum (q l) (o.w.part l)).1 = .ok ()) ∧ (Particle.setMomentum (q i) (o.w.part i)).1 = .throw .massShell ∧
      runSetup junk par' q (((List.range' k n).map fun i => SInstr.setMom i i) ++ rest) o = (.throw .massShell, moved q k (i + 1) o)) ∨
    ∀ l, k ≤ l → l < k + n → (Particle.setMomentum (q l) (o.w.part l)).1 = .ok () := by
  induction n with
  | zero => exact fun k o => .inr fun l h1 h2 => absurd h2 (by omega)
  | succ n ih =>
    intro k o
    have e0 := moved_next junk par' q k o
    have e1 : (SInstr.exec junk par' q (.setMom k k) o).1 = (Particle.setMomentum (q k) (o.w.part k)).1 := rfl
    have hcons : runSetup junk par' q (((List.range' k (n + 1)).map fun i => SInstr.setMom i i) ++ rest) o =
        (SInstr.exec junk par' q (.setMom k k) >>= fun _ => runSetup junk par' q (((List.range' (k + 1) n).map fun i => SInstr.setMom i i) ++ rest)) o := rfl
    rcases setMom_cases (q k) (o.w.part k) with ht | ht
    · have e : SInstr.exec junk par' q (.setMom k k) o = (.ok (), moved q k (k + 1) o) := Prod.ext (e1.trans ht) e0
      have hp : ∀ l, k + 1 ≤ l → (moved q k (k + 1) o).w.part l = o.w.part l := by
        intro l hl
        show (if k ≤ l ∧ l < k + 1 then _ else o.w.part l) = _
        rw [if_neg (by omega)]
      rcases ih (k + 1) (moved q k (k + 1) o) with ⟨i, h1, h2, h3, h4, h5⟩ | h
      · refine .inl ⟨i, by omega, by omega, fun l hl hi => ?_, ?_, ?_⟩
        · by_cases hlk : l = k
          · subst hlk; exact ht
          · have := h3 l (by omega) hi
            rwa [hp l (by omega)] at this
        · rwa [hp i h1] at h4
        · rw [hcons, Prog.bind_ok e, h5, moved_moved q (by omega)]
      · refine .inr fun l hl hn => ?_
        by_cases hlk : l = k
        · subst hlk; exact ht
        · have := h l (by omega) (by omega)
          rwa [hp l (by omega)] at this
    · have e : SInstr.exec junk par' q (.setMom k k) o = (.throw .massShell, moved q k (k + 1) o) := Prod.ext (e1.trans ht) e0
      exact .inl ⟨k, le_refl k, by omega, fun l h1 h2 => absurd h2 (by omega), ht, by rw [hcons, Prog.bind_throw e]⟩

/-- If `set_momenta` does not return, it has stopped at the momentum of one of the particles. -/
theorem rejected {P : Proc} {strict : Bool} {S : Sym} {ks : List (Ty × Nat × List AI)} (hc : P.check strict S ks = true) {par : Nat → R} {o : Obj R C} (h : Inv S par o) (j : Kin R C) (q : Nat → V4 R)
    (hq : (P.runSetMomenta j q o).1 ≠ .ok ()) : ∃ n, n < 4 ∧ (∀ i, i < n → (Particle.setMomentum (q i) (o.w.part i)).1 = .ok ()) ∧ (Particle.setMomentum (q n) (o.w.part n)).1 = .throw .massShell ∧
      P.runSetMomenta j q o = (.throw .massShell, moved q 0 (n + 1) o) := by
  rcases (setMomenta_sound hc h h j j j q (fun i => (o.w.part i).kin.m) (fun _ _ => rfl)).2 with ⟨⟨i, hi, hacc⟩, _⟩ | ⟨_, e, _⟩
  · have hpre : isPrefix P.setMomenta = true := by
      unfold Proc.check at hc
      simp only [Bool.and_eq_true] at hc
      exact hc.1.1
    have hsm : P.setMomenta = ((List.range' 0 4).map fun i => SInstr.setMom i i) ++ P.rest := by
      unfold Proc.rest
      revert hpre
      unfold isPrefix
      split
      · rename_i l heq; intro _; rw [heq]; rfl
      · intro hpre; cases hpre
    rcases momenta_stop j (fun _ => int 0) q P.rest 4 0 o with ⟨n, _, h2, h3, h4, h5⟩ | h1
    · refine ⟨n, by omega, fun i hi => h3 i (by omega) hi, h4, ?_⟩
      unfold Proc.runSetMomenta
      rw [hsm]
      exact h5
    · have := h1 i (by omega) (by omega)
      rw [setMom_throw hacc rfl] at this; cases this
  · exact absurd e hq

end Spinas.SM

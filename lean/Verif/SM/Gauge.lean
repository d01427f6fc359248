import Verif.Exact.Ward
import Verif.SM.Light
import Verif.SM.BosonRow

/-! Gauge invariance of the reactions with one fermion line. -/

namespace Spinas
open Spec Props Matrix

/-! ### reactions -/

namespace Spec.Reaction
variable {S : Reaction} {c : Constants} {p : Nat → V4 ℝ}

theorem along_balanced {i j a b : Fin 4} (he : S.isEnd i = true) (hs : S.isStart j = true) (hn : [i, j, a, b].Nodup) (hb : Balanced p) (ε : Fin 4 → Vec) :
    S.along p i = plus (plus (S.along p j) (S.line p ε a).k) (S.line p ε b).k := by
  have perm : ∀ i j a b : Fin 4, [i, j, a, b].Nodup → [i, j, a, b].Perm [0, 1, 2, 3] := by decide
  have P := perm i j a b hn
  let σ : Fin 4 → ℝ := fun n => if arrives n then 1 else -1
  have total : ∀ F : Fin 4 → ℝ, F i + (F j + (F a + (F b + 0))) = F 0 + (F 1 + (F 2 + (F 3 + 0))) := fun F => by
    have := (P.map F).sum_eq
    simpa using this
  have σ0 : σ 0 = 1 := rfl
  have σ1 : σ 1 = 1 := rfl
  have σ2 : σ 2 = -1 := rfl
  have σ3 : σ 3 = -1 := rfl
  have al : ∀ n, (S.isEnd n = true → S.along p n = if arrives n then backward (p n) else p n) ∧ (S.isStart n = true → S.along p n = if arrives n then p n else backward (p n)) := by
    intro n
    unfold isEnd isStart along antifermion
    cases S.leg n with
    | boson b => simp
    | fermion f a => cases a <;> cases arrives n <;> simp
  have hl : ∀ n, (S.line p ε n).k = if arrives n then p n else backward (p n) := fun n => by unfold line; split_ifs <;> rfl
  obtain ⟨t, x, y, z⟩ := hb
  have t4 := total fun n => σ n * (p n).t
  have x4 := total fun n => σ n * (p n).x
  have y4 := total fun n => σ n * (p n).y
  have z4 := total fun n => σ n * (p n).z
  rw [(al i).1 he, (al j).2 hs, hl, hl]
  simp only [σ0, σ1, σ2, σ3, Fin.val_zero, Fin.val_one, Fin.val_two, show ((3 : Fin 4) : Nat) = 3 from rfl] at t4 x4 y4 z4
  have s : ∀ n, σ n = if arrives n then 1 else -1 := fun _ => rfl
  rw [s, s, s, s] at t4 x4 y4 z4
  cases hi : arrives i <;> cases hj : arrives j <;> cases ha : arrives a <;> cases hb : arrives b <;> simp only [hi, hj, ha, hb, Bool.false_eq_true, if_true, if_false, plus, backward] at t4 x4 y4 z4 ⊢ <;>
    generalize p i = q at t4 x4 y4 z4 ⊢ <;> cases q <;> simp only [V4.mk.injEq] <;> refine ⟨?_, ?_, ?_, ?_⟩ <;> linarith

/-- the boson of a leg, taken as coming in -/
def inBoson (S : Reaction) (n : Fin 4) : Boson := if arrives n then S.boson n else (S.boson n).anti

theorem line_boson (ε : Fin 4 → Vec) (n : Fin 4) : (S.line p ε n).boson = S.inBoson n := by unfold line inBoson; split_ifs <;> rfl
theorem line_k (ε ε' : Fin 4 → Vec) (n : Fin 4) : (S.line p ε n).k = (S.line p ε' n).k := by unfold line; split_ifs <;> rfl
theorem line_msq (ε : Fin 4 → Vec) (n : Fin 4) : msq (S.line p ε n).k = msq (p n) := by unfold line; split_ifs <;> simp [backward, msq]
theorem four_backward (k : V4 ℝ) : four (backward k) = -four k := by ext μ; fin_cases μ <;> simp [four, backward]

/-- a photon or gluon with its momentum as polarisation vector -/
theorem line_light {n : Fin 4} (hn : (S.boson n).massive = false) (ε : Fin 4 → Vec) : ∃ s : ℂ, S.line p (Function.update ε n (four (p n))) n = (⟨S.boson n, (S.line p ε n).k, s • four (S.line p ε n).k⟩ : Line) := by
  rw [line_self]
  unfold line
  split_ifs with h
  · exact ⟨1, by simp [Line.put]⟩
  · refine ⟨-1, ?_⟩
    rw [star_four, four_backward, neg_smul, one_smul, neg_neg]
    have : (S.boson n).anti = S.boson n := by cases hb : S.boson n <;> rw [hb] at hn <;> first | rfl | cases hn
    simp [Line.put, this]

theorem joined_scale (f g : Flavour) (l : V4 ℝ) (w w' : Spinor) (x y z t : ℂ) {a : Boson} (ha : a.massive = false) (k : V4 ℝ) (s : ℂ) (v : Vec) (B : Line) (h : joined c f g l w w' x y z t ⟨a, k, v⟩ B = 0) : joined c f g l w w' x y z t ⟨a, k, s • v⟩ B = 0 := by
  have := ((joined_fine₁ c f g l w w' x y z t ⟨a, k, 0⟩ B).1 (by rintro rfl; cases ha)).map_smul s v
  simp only [Line.put] at this
  rw [this, h, smul_zero]

section
variable {i j a b : Fin 4} (he : S.ends = [i]) (hs : S.starts = [j]) (hb : S.bosons = [a, b])
include he hs hb

/-- the momentum of one of the bosons, `a`, as polarisation vector; `b` is the other one -/
theorem gauge_leg (hc : c.Heavy) (hn : [i, j, a, b].Nodup) (hm : ∀ n : Fin 4, msq (p n) = S.mass c n ^ 2) (hbal : Balanced p) (hr : S.Regular c p)
    (hW : ∀ n m, S.boson m = .photon → S.boson n = .wPlus ∨ S.boson n = .wMinus → c.WW = 0) {n m : Fin 4} (hnm : (n = a ∧ m = b) ∨ (n = b ∧ m = a)) (hl : (S.boson n).massive = false)
    (h1 : Spec.after (S.boson n) (S.flavour j) = some (S.flavour j)) (h2 : Spec.after (S.inBoson m) (S.flavour j) = some (S.flavour i))
    (κ : Fin 4 → Fin 3) (γ : Fin 4 → Fin 8) (w : Fin 4 → Spinor) (ε : Fin 4 → Vec) (hε : ∀ m, m ≠ n → S.Shell c p m (w m) (ε m)) :
    S.amplitude c p κ γ w (Function.update ε n (four (p n))) = 0 := by
  have ei : S.isEnd i := (S.mem_ends i).1 (by rw [he]; simp)
  have ej : S.isStart j := (S.mem_starts j).1 (by rw [hs]; simp)
  have hba : ∀ m, m = a ∨ m = b → ∃ x, S.leg m = .boson x := by
    intro m hm
    have : S.isBoson m := (S.mem_bosons m).1 (by rw [hb]; rcases hm with rfl | rfl <;> simp)
    unfold isBoson at this
    cases hl : S.leg m <;> simp_all
  simp only [List.nodup_cons, List.mem_cons, not_or, List.not_mem_nil, not_false_eq_true, List.nodup_nil, and_true] at hn
  obtain ⟨⟨nij, nia, nib⟩, ⟨nja, njb⟩, nab⟩ := hn
  have hmn : m ≠ n := by rcases hnm with ⟨rfl, rfl⟩ | ⟨rfl, rfl⟩ <;> [exact fun e => nab e.symm; exact nab]
  have hin : i ≠ n := by rcases hnm with ⟨rfl, rfl⟩ | ⟨rfl, rfl⟩ <;> assumption
  have hjn : j ≠ n := by rcases hnm with ⟨rfl, rfl⟩ | ⟨rfl, rfl⟩ <;> assumption
  have hij : [i, j, m, n].Nodup := by
    have hji : ∀ k, k ≠ n → k ≠ m → i ≠ j → i ≠ m → i ≠ n → j ≠ m → j ≠ n → [i, j, m, n].Nodup := fun _ _ _ h1 h2 h3 h4 h5 => by simp [h1, h2, h3, h4, h5, hmn]
    have him : i ≠ m := by rcases hnm with ⟨rfl, rfl⟩ | ⟨rfl, rfl⟩ <;> assumption
    have hjm : j ≠ m := by rcases hnm with ⟨rfl, rfl⟩ | ⟨rfl, rfl⟩ <;> assumption
    exact hji i hin him nij him hin hjm hjn
  obtain ⟨x, hx⟩ := hba m (by tauto)
  obtain ⟨y, hy⟩ := hba n (by tauto)
  have dj : Dirac (S.along p j) (c.mass (S.flavour j)) (w j) := by
    have := hε j hjn
    unfold Shell at this
    unfold isStart at ej
    cases hlj : S.leg j with
    | boson b => rw [hlj] at ej; cases ej
    | fermion f a => rw [hlj] at this; simpa [flavour, hlj] using this
  have di : Dirac (S.along p i) (c.mass (S.flavour i)) (w i) := by
    have := hε i hin
    unfold Shell at this
    unfold isEnd at ei
    cases hlj : S.leg i with
    | boson b => rw [hlj] at ei; cases ei
    | fermion f a => rw [hlj] at this; simpa [flavour, hlj] using this
  rw [along_balanced ei ej hij hbal ε] at di
  have cm : S.boson m = x := by simp [boson, hx]
  have cn : S.boson n = y := by simp [boson, hy]
  have mm : msq (p m) = c.bosonMass (S.boson m) ^ 2 := by rw [hm m, mass, hx, cm]
  have mn : msq (p n) = 0 := by
    rw [hm n, mass, hy]
    rw [cn] at hl
    cases y <;> simp [Constants.bosonMass, Boson.massive] at hl ⊢
  have bm : c.bosonMass (S.inBoson m) = c.bosonMass (S.boson m) := by
    unfold inBoson; split_ifs
    · rfl
    · cases S.boson m <;> rfl
  have nn : S.inBoson n = S.boson n := by
    unfold inBoson; split_ifs
    · rfl
    · cases hb : S.boson n <;> rw [hb] at hl <;> first | rfl | cases hl
  have tr : S.inBoson m ≠ .higgs → contract (four (S.line p ε m).k) (S.line p ε m).ε = 0 := by
    intro hh
    have := hε m hmn
    unfold Shell at this
    rw [hx] at this
    have hh' : x ≠ .higgs := by
      rintro rfl
      exact hh (by unfold inBoson; rw [cm]; simp [Boson.anti])
    have := this hh'
    unfold line
    split_ifs
    · exact this
    · simp only
      rw [four_backward]
      have e : contract (-four (p m)) (star (ε m)) = -contract (four (p m)) (star (ε m)) := by
        rw [contract_swap, (Lin.contract_right (star (ε m))).map_neg, contract_swap]
      rw [e, ← star_star (contract (four (p m)) (star (ε m))), star_contract_four, this]
      simp
  obtain ⟨r1, r2, r3⟩ := S.regular_line he hs hb hr
  have F : S.Fermionic c p i j n m ∧ S.Fermionic c p i j m n := by rcases hnm with ⟨rfl, rfl⟩ | ⟨rfl, rfl⟩ <;> exact ⟨by assumption, by assumption⟩
  have h1' : Spec.after (S.boson n) (S.flavour i) = some (S.flavour i) := after_light hl h1 h2
  have D1 := F.1
  have D2 := F.2
  unfold Fermionic at D1 D2
  simp only [line_boson, nn] at D1 D2
  have D1 := D1 (S.flavour j) h1 h2
  have D2 := D2 (S.flavour i) h2 h1'
  have hB : ∀ x, meets (S.boson n) (S.inBoson m) x.anti = true → Spec.after x (S.flavour j) = some (S.flavour i) → denominator c x (plus (S.line p ε n).k (S.line p ε m).k) ≠ 0 := by
    unfold Bosonic at r3
    simp only [line_boson] at r3
    rcases hnm with ⟨rfl, rfl⟩ | ⟨rfl, rfl⟩
    · intro x
      have := r3 x
      rwa [nn, line_k (fun _ => 0) ε n, line_k (fun _ => 0) ε m] at this
    · intro x hx hx'
      rw [plus_comm, line_k ε (fun _ => 0) n, line_k ε (fun _ => 0) m]
      refine r3 x ?_ hx'
      rw [nn]
      revert hx
      cases S.boson n <;> cases S.inBoson m <;> cases x <;> simp [meets, Boson.anti]
  have cases_in : S.inBoson m = .wPlus ∨ S.inBoson m = .wMinus → S.boson m = .wPlus ∨ S.boson m = .wMinus := by
    unfold inBoson; split_ifs
    · exact id
    · cases S.boson m <;> simp [Boson.anti]
  have gl : ∀ k, S.inBoson k = .gluon ↔ S.boson k = .gluon := by
    intro k; unfold inBoson; split_ifs
    · exact Iff.rfl
    · cases S.boson k <;> simp [Boson.anti]
  have main : ∀ x y z t : ℂ, (¬(S.boson n = .gluon ∧ S.boson m = .gluon) → x = y) → (S.boson n ≠ .gluon → S.boson m ≠ .gluon → x = z) → t = x - y →
      joined c (S.flavour j) (S.flavour i) (S.along p j) (w j) (w i) x y z t (S.line p (Function.update ε n (four (p n))) n) (S.line p ε m) = 0 := by
    intro x y z t hxy hxz ht
    obtain ⟨s, e⟩ := line_light (S := S) (p := p) hl ε
    rw [e]
    refine joined_scale _ _ _ _ _ _ _ _ _ hl _ _ _ _ ?_
    refine joined_ward c hl h1 (by rw [line_boson]; exact h2) dj di (by rw [line_msq, mn]) (by rw [line_msq, line_boson, bm, mm]) (by rw [line_boson]; exact tr)
      (by rw [line_k ε (fun _ => 0)]; exact D1) (by rw [line_k ε (fun _ => 0)]; exact D2) (by rw [line_boson, gl]; exact hxy) (by rw [line_boson, ne_eq, ne_eq, gl]; exact hxz) ht ?_ ?_
    · rw [line_boson]
      intro hw hp
      refine ⟨hc.MW.ne', hW m n hp (cases_in hw), hB _ ?_ h2⟩
      rw [hp]
      rcases hw with hw | hw <;> rw [hw] <;> rfl
    · rw [line_boson]
      intro hn hm
      refine hB .gluon (by rw [hn, hm]; rfl) ?_
      rw [← hm]; exact h2
  have colours : ∀ k l, ¬(S.boson k = .gluon ∧ S.boson l = .gluon) → (S.colour γ l * S.colour γ k) (κ i) (κ j) = (S.colour γ k * S.colour γ l) (κ i) (κ j) := by
    intro k l h
    by_cases hk : S.boson k = .gluon
    · rw [S.colour_one (fun e => h ⟨hk, e⟩)]; simp
    · rw [S.colour_one hk]; simp
  have one : ∀ k l, S.boson k ≠ .gluon → S.boson l ≠ .gluon → (S.colour γ l * S.colour γ k) (κ i) (κ j) = delta (κ i) (κ j) := by
    intro k l hk hl
    rw [S.colour_one hk, S.colour_one hl, Matrix.mul_one, Matrix.one_apply, delta]
  unfold amplitude
  rw [he, hs, hb]
  simp only [oneLine_eq]
  rcases hnm with ⟨rfl, rfl⟩ | ⟨rfl, rfl⟩
  · rw [line_ne S p ε hmn]
    exact main _ _ _ _ (colours n m) (one n m) rfl
  · rw [line_ne S p ε hmn, joined_swap]
    exact main _ _ _ _ (colours n m) (one n m) (by simp)

/-- The amplitudes are gauge invariant. -/
theorem gauge_line (hc : c.Heavy) (hn : [i, j, a, b].Nodup) (hm : ∀ n : Fin 4, msq (p n) = S.mass c n ^ 2) (hbal : Balanced p) (hr : S.Regular c p)
    (hW : ∀ n m, S.boson m = .photon → S.boson n = .wPlus ∨ S.boson n = .wMinus → c.WW = 0)
    (ha : (S.boson a).massive = false → Spec.after (S.boson a) (S.flavour j) = some (S.flavour j) ∧ Spec.after (S.inBoson b) (S.flavour j) = some (S.flavour i))
    (hb' : (S.boson b).massive = false → Spec.after (S.boson b) (S.flavour j) = some (S.flavour j) ∧ Spec.after (S.inBoson a) (S.flavour j) = some (S.flavour i)) : S.Gauge c p := by
  intro n x hl hx κ γ w ε hε
  have hn' : n ∈ S.bosons := (S.mem_bosons n).2 (by simp [isBoson, hl])
  rw [hb] at hn'
  have hx' : (S.boson n).massive = false := by simpa [boson, hl] using hx
  rcases List.mem_cons.1 hn' with rfl | hn'
  · exact gauge_leg he hs hb hc hn hm hbal hr hW (.inl ⟨rfl, rfl⟩) hx' (ha hx').1 (ha hx').2 κ γ w ε hε
  · rw [List.mem_singleton] at hn'
    subst hn'
    exact gauge_leg he hs hb hc hn hm hbal hr hW (.inr ⟨rfl, rfl⟩) hx' (hb' hx').1 (hb' hx').2 κ γ w ε hε
end

end Spec.Reaction
end Spinas

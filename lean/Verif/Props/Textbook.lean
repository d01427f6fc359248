import Verif.SM.Bosons.TextbookIn
import Verif.SM.Bosons.TextbookOut
import Verif.SM.Bosons.TextbookCompton
import Verif.SM.TextbookMassless
import Verif.Props.FeynmanGluons

/-! C76: the formulas of textbooks for two massless vector bosons and two fermions (exact arithmetic). -/

namespace Spinas.Props
open SM Spec Spec.Reaction XR Matrix

noncomputable section

/-- A class, when its momenta are off the poles, and the formula for its squared amplitude. -/
structure Closed where
  row : BRow
  apart : (Nat → V4 ℝ) → Prop
  formula : Constants → (Nat → V4 ℝ) → ℝ

/-- The classes for two photons or gluons and two fermions. The charge of the quarks is 2/3 or -1/3 of `c.e`. -/
def closedForms : List Closed :=
  [-- photons: pairs of fermions
    ⟨Rows.AAee, fun p => dot (p 0) (p 2) ≠ 0 ∧ dot (p 0) (p 3) ≠ 0, fun c p => c.e ^ 4 * breitWheeler (c.mass .e) (dot (p 0) (p 2)) (dot (p 0) (p 3))⟩,
    ⟨Rows.AAuu, fun p => dot (p 0) (p 2) ≠ 0 ∧ dot (p 0) (p 3) ≠ 0, fun c p => 3 * (2 / 3 * c.e) ^ 4 * breitWheeler (c.mass .u) (dot (p 0) (p 2)) (dot (p 0) (p 3))⟩,
    ⟨Rows.AAdd, fun p => dot (p 0) (p 2) ≠ 0 ∧ dot (p 0) (p 3) ≠ 0, fun c p => 3 * (1 / 3 * c.e) ^ 4 * breitWheeler (c.mass .d) (dot (p 0) (p 2)) (dot (p 0) (p 3))⟩,
    -- pairs of fermions: photons (half of it for two photons alike)
    ⟨Rows.eeAA, fun p => dot (p 0) (p 2) ≠ 0 ∧ dot (p 0) (p 3) ≠ 0, fun c p => c.e ^ 4 / 2 * breitWheeler (c.mass .e) (dot (p 0) (p 2)) (dot (p 0) (p 3))⟩,
    ⟨Rows.uuAA, fun p => dot (p 0) (p 2) ≠ 0 ∧ dot (p 0) (p 3) ≠ 0, fun c p => (2 / 3 * c.e) ^ 4 / 6 * breitWheeler (c.mass .u) (dot (p 0) (p 2)) (dot (p 0) (p 3))⟩,
    ⟨Rows.ddAA, fun p => dot (p 0) (p 2) ≠ 0 ∧ dot (p 0) (p 3) ≠ 0, fun c p => (1 / 3 * c.e) ^ 4 / 6 * breitWheeler (c.mass .d) (dot (p 0) (p 2)) (dot (p 0) (p 3))⟩,
    -- Compton scattering
    ⟨Rows.eAAe, fun p => dot (p 0) (p 1) ≠ 0 ∧ dot (p 0) (p 2) ≠ 0, fun c p => c.e ^ 4 * kleinNishina (c.mass .e) (dot (p 0) (p 1)) (dot (p 0) (p 2))⟩,
    ⟨Rows.uAAu, fun p => dot (p 0) (p 1) ≠ 0 ∧ dot (p 0) (p 2) ≠ 0, fun c p => (2 / 3 * c.e) ^ 4 * kleinNishina (c.mass .u) (dot (p 0) (p 1)) (dot (p 0) (p 2))⟩,
    ⟨Rows.dAAd, fun p => dot (p 0) (p 1) ≠ 0 ∧ dot (p 0) (p 2) ≠ 0, fun c p => (1 / 3 * c.e) ^ 4 * kleinNishina (c.mass .d) (dot (p 0) (p 1)) (dot (p 0) (p 2))⟩,
    -- a gluon and a photon: quarks
    ⟨Rows.gAuu, fun p => dot (p 0) (p 2) ≠ 0 ∧ dot (p 0) (p 3) ≠ 0, fun c p => (2 / 3 * c.e) ^ 2 * c.gs ^ 2 / 2 * breitWheeler (c.mass .u) (dot (p 0) (p 2)) (dot (p 0) (p 3))⟩,
    ⟨Rows.gAdd, fun p => dot (p 0) (p 2) ≠ 0 ∧ dot (p 0) (p 3) ≠ 0, fun c p => (1 / 3 * c.e) ^ 2 * c.gs ^ 2 / 2 * breitWheeler (c.mass .d) (dot (p 0) (p 2)) (dot (p 0) (p 3))⟩,
    -- a gluon from a photon, a photon from a gluon
    ⟨Rows.dAgd, fun p => dot (p 0) (p 1) ≠ 0 ∧ dot (p 0) (p 2) ≠ 0, fun c p => 4 / 3 * (1 / 3 * c.e) ^ 2 * c.gs ^ 2 * kleinNishina (c.mass .d) (dot (p 0) (p 1)) (dot (p 0) (p 2))⟩,
    ⟨Rows.guAu, fun p => dot (p 0) (p 1) ≠ 0 ∧ dot (p 1) (p 2) ≠ 0, fun c p => (2 / 3 * c.e) ^ 2 * c.gs ^ 2 / 6 * kleinNishina (c.mass .u) (dot (p 0) (p 1)) (dot (p 1) (p 2))⟩,
    -- two gluons
    ⟨Rows.gguu, fun p => dot (p 0) (p 2) ≠ 0 ∧ dot (p 0) (p 3) ≠ 0 ∧ dot (p 0) (p 1) ≠ 0, fun c p => quarkPair c.gs (c.mass .u) (dot (p 0) (p 2)) (dot (p 0) (p 3))⟩,
    ⟨Rows.ggdd, fun p => dot (p 0) (p 2) ≠ 0 ∧ dot (p 0) (p 3) ≠ 0 ∧ dot (p 0) (p 1) ≠ 0, fun c p => quarkPair c.gs (c.mass .d) (dot (p 0) (p 2)) (dot (p 0) (p 3))⟩,
    ⟨Rows.dggd, fun p => dot (p 0) (p 1) ≠ 0 ∧ dot (p 0) (p 2) ≠ 0 ∧ dot (p 1) (p 2) ≠ 0, fun c p => quarkCompton c.gs (c.mass .d) (dot (p 0) (p 1)) (dot (p 0) (p 2))⟩,
    ⟨Rows.gugu, fun p => dot (p 0) (p 1) ≠ 0 ∧ dot (p 1) (p 2) ≠ 0 ∧ dot (p 0) (p 2) ≠ 0, fun c p => quarkCompton c.gs (c.mass .u) (dot (p 0) (p 1)) (dot (p 1) (p 2))⟩]

/-- the parameters for given constants -/
def parOf (R : BRow) (c : Constants) (n : Nat) : XR := match R.pars[n]? with
  | some (some q) => fin (c.get q)
  | _ => fin 0

theorem parOf_get {R : BRow} {c : Constants} {n : Nat} {q : Quantity} (h : R.pars[n]? = some (some q)) : parOf R c n = fin (c.get q) := by
  simp [parOf, h]

theorem closed_fresh : ∀ x ∈ closedForms, x.row.proc.name ∉ staleMasses := by
  unfold closedForms
  simp only [List.forall_mem_cons, List.not_mem_nil, false_implies, implies_true, and_true]
  decide

theorem unset_nil : Unset ([] : List (ProcOp XR XC)) := fun _ _ h => by cases h

variable [FPEnv]

theorem closed_returns : ∀ x ∈ closedForms, x.row.Returns x.row.proc.amp2 x.apart x.formula := by
  unfold closedForms
  simp only [List.forall_mem_cons, List.not_mem_nil, false_implies, implies_true, and_true]
  exact ⟨Rows.AAee.returns, Rows.AAuu.returns, Rows.AAdd.returns, Rows.eeAA.returns, Rows.uuAA.returns, Rows.ddAA.returns, Rows.eAAe.returns, Rows.uAAu.returns, Rows.dAAd.returns, Rows.gAuu.returns,
    Rows.gAdd.returns, Rows.dAgd.returns, Rows.guAu.returns, Rows.gguu.returns, Rows.ggdd.returns, Rows.dggd.returns, Rows.gugu.returns⟩

theorem closed_agrees : ∀ x ∈ closedForms, x.row.Agrees ∧ x.row.absent = [] := by
  unfold closedForms
  simp only [List.forall_mem_cons, List.not_mem_nil, false_implies, implies_true, and_true]
  exact ⟨⟨Rows.AAee.agrees, rfl⟩, ⟨Rows.AAuu.agrees, rfl⟩, ⟨Rows.AAdd.agrees, rfl⟩, ⟨Rows.eeAA.agrees, rfl⟩, ⟨Rows.uuAA.agrees, rfl⟩, ⟨Rows.ddAA.agrees, rfl⟩, ⟨Rows.eAAe.agrees, rfl⟩, ⟨Rows.uAAu.agrees, rfl⟩,
    ⟨Rows.dAAd.agrees, rfl⟩, ⟨Rows.gAuu.agrees, rfl⟩, ⟨Rows.gAdd.agrees, rfl⟩, ⟨Rows.dAgd.agrees, rfl⟩, ⟨Rows.guAu.agrees, rfl⟩, ⟨Rows.gguu.agrees, rfl⟩, ⟨Rows.ggdd.agrees, rfl⟩, ⟨Rows.dggd.agrees, rfl⟩,
    ⟨Rows.gugu.agrees, rfl⟩⟩

/-- C76. Each of these classes returns the formula of textbooks: for any object of the class, whatever was done to it before, any constants, any momenta on the mass
shell off the poles, and whatever was called in between. -/
theorem C76_textbook {x : Closed} (hx : x ∈ closedForms) (mem : Nat → XR) (junk : Kin XR XC) (par : Nat → XR) (ops : List (ProcOp XR XC)) {c : Constants}
    (hpar : ∀ n q, x.row.pars[n]? = some (some q) → parAfter x.row.proc.massPar ops par n = fin (c.get q)) (hc : c.Physical) (hh : c.Heavy)
    {o : Obj XR XC} (ho : o = runProcOps x.row.proc ops (x.row.proc.construct mem junk par).2) {p : Nat → V4 ℝ} (hs : ∀ i : Fin 4, OnShell (p i) (x.row.react.mass c i)) (hb : Balanced p) (ha : x.apart p)
    (j : Kin XR XC) (xs : List (MCall XR XC)) (l : Loc XR XC) :
    (x.row.proc.runSetMomenta j (fun i => (p i).toX) o).1 = .ok () ∧
    (x.row.proc.method l .r x.row.proc.amp2 [] (runCalls x.row.proc xs (x.row.proc.runSetMomenta j (fun i => (p i).toX) o).2)).1 = .ok (fin (x.formula c p)) :=
  closed_returns x hx mem junk par ops c p o j xs l (fun h => absurd h (closed_fresh x hx)) hpar hc hh ho hs hb ha

/-- The Feynman rules give the same formula, for any polarisation vectors and spinors that describe the states. -/
theorem C76_rules {x : Closed} (hx : x ∈ closedForms) {c : Constants} (hc : c.Physical) (hh : c.Heavy) {p : Nat → V4 ℝ} (hs : ∀ i : Fin 4, OnShell (p i) (x.row.react.mass c i)) (hb : Balanced p) (ha : x.apart p)
    (hr : x.row.react.Regular c p) {u : Fin 4 → Fin 3 → Spinor} {ε : Fin 4 → Fin 3 → Vec} (hu : ∀ i, x.row.react.Complete c p i (u i) (ε i)) : x.row.react.squared c p u ε = x.formula c p := by
  have hw : ∀ q ∈ x.row.absent, c.get q = 0 := by rw [(closed_agrees x hx).2]; exact List.forall_mem_nil _
  have un : x.row.proc.name ∈ staleMasses → Unset ([] : List (ProcOp XR XC)) := fun _ => unset_nil
  have hp : ∀ n q, x.row.pars[n]? = some (some q) → parAfter x.row.proc.massPar ([] : List (ProcOp XR XC)) (parOf x.row c) n = fin (c.get q) := fun n q h => parOf_get h
  have a := ((closed_agrees x hx).1.2.2 (fun _ => fin 0) junkK (parOf x.row c) [] c p u ε _ junkK [] ⟨fun _ => 0, fun _ => fin 0, fun _ => ofC 0⟩ un hp hc hh hw rfl hs hb hr hu).2
  have b := (closed_returns x hx (fun _ => fin 0) junkK (parOf x.row c) [] c p _ junkK [] ⟨fun _ => 0, fun _ => fin 0, fun _ => ofC 0⟩ un hp hc hh rfl hs hb ha).2
  have e := a.symm.trans b
  simpa using e

omit [FPEnv] in
/-- Moving a photon and a fermion to the other side turns one formula into the other. -/
theorem C76_crossing (m a b : ℝ) : kleinNishina m a b = -breitWheeler m (-a) b := by
  simp only [kleinNishina, breitWheeler, div_neg]
  ring

/-! ### the formula for quarks without mass -/

/-- What `amp2_Feynman` of `ggdd` and `gguu` returns: the formula without the mass of the quarks. -/
theorem C76_massless : Rows.ggdd.Returns 1 (fun p => dot (p 0) (p 2) ≠ 0 ∧ dot (p 0) (p 3) ≠ 0 ∧ dot (p 0) (p 1) ≠ 0) (fun c p => |quarkPair c.gs 0 (dot (p 0) (p 2)) (dot (p 0) (p 3))|) ∧
    Rows.gguu.Returns 1 (fun p => dot (p 0) (p 2) ≠ 0 ∧ dot (p 0) (p 3) ≠ 0 ∧ dot (p 0) (p 1) ≠ 0) (fun c p => |quarkPair c.gs 0 (dot (p 0) (p 2)) (dot (p 0) (p 3))|) :=
  ⟨Rows.ggdd.massless_returns, Rows.gguu.massless_returns⟩

omit [FPEnv] in
theorem C76_names : ("amp2_Feynman", 1) ∈ Cls.ggdd.others ∧ ("amp2_Feynman", 1) ∈ Cls.gguu.others := by decide

omit [FPEnv] in
/-- products of momenta of a massless particle and a particle are not negative -/
theorem dot_nonneg_of {k p : V4 ℝ} {m : ℝ} (hk : OnShell k 0) (hp : OnShell p m) : 0 ≤ dot k p := by
  obtain ⟨ek, sk⟩ := hk
  obtain ⟨ep, sp⟩ := hp
  have h : (k.x * p.x + k.y * p.y + k.z * p.z) ^ 2 ≤ (k.t * p.t) ^ 2 := by
    rw [mul_pow, sk, sp]
    nlinarith [sq_nonneg (k.x * p.y - k.y * p.x), sq_nonneg (k.x * p.z - k.z * p.x), sq_nonneg (k.y * p.z - k.z * p.y), mul_nonneg (add_nonneg (add_nonneg (sq_nonneg k.x) (sq_nonneg k.y)) (sq_nonneg k.z)) (sq_nonneg m)]
  have := abs_le_of_sq_le_sq' h (mul_nonneg ek ep)
  simp only [dot]
  linarith [this.2]

/-- the momenta of the quarks are real -/
theorem quark_gap {p : Nat → V4 ℝ} {m : ℝ} (hb : Balanced p) (h0 : OnShell (p 0) 0) (h1 : OnShell (p 1) 0) (h2 : OnShell (p 2) m) (h3 : OnShell (p 3) m) :
    m ^ 2 * (dot (p 0) (p 2) + dot (p 0) (p 3)) ≤ 2 * (dot (p 0) (p 2) * dot (p 0) (p 3)) := by
  obtain ⟨k1, k2, k3, k4⟩ := dots_in hb (onShell_msq h0) (onShell_msq h1) (onShell_msq h2) (onShell_msq h3)
  have h := (ray_code h0).mb_norm (ray_code h1) (p 2)
  have n : 0 ≤ ‖mb (legA (p 0) 0 0, legS (p 0) 0 1).2 (p 2) (legA (p 1) 0 0, legS (p 1) 0 1).1‖ ^ 2 := sq_nonneg _
  rw [h, k2, k3, onShell_msq h2] at n
  linarith

omit [FPEnv] in
theorem quark_excess (g m : ℝ) {a b : ℝ} (ha : 0 < a) (hb : 0 < b) :
    quarkPair g m a b - quarkPair g 0 a b = g ^ 4 * ((a + b) ^ 2 / (6 * (a * b)) - 3 / 8) * (2 * m ^ 2 / (a + b)) * ((2 * (a * b) - m ^ 2 * (a + b)) / (2 * (a * b))) := by
  have : a + b ≠ 0 := (add_pos ha hb).ne'
  have := ha.ne'
  have := hb.ne'
  simp only [quarkPair]
  field_simp
  ring

omit [FPEnv] in
theorem quark_factor {a b : ℝ} (ha : 0 < a) (hb : 0 < b) : 0 < (a + b) ^ 2 / (6 * (a * b)) - 3 / 8 := by
  have h : 0 < a * b := mul_pos ha hb
  rw [sub_pos, lt_div_iff₀ (by linarith)]
  nlinarith [sq_nonneg (a - b)]

/-- The formula without the mass is never above the one with it, and for interacting quarks with a mass it is below unless the quarks leave along the beam. -/
theorem C76_below {c : Constants} {m : ℝ} (hm : 0 < m) {p : Nat → V4 ℝ} (hb : Balanced p) (h0 : OnShell (p 0) 0) (h1 : OnShell (p 1) 0) (h2 : OnShell (p 2) m) (h3 : OnShell (p 3) m)
    (ha : dot (p 0) (p 2) ≠ 0) (hb' : dot (p 0) (p 3) ≠ 0) :
    |quarkPair c.gs 0 (dot (p 0) (p 2)) (dot (p 0) (p 3))| ≤ quarkPair c.gs m (dot (p 0) (p 2)) (dot (p 0) (p 3)) ∧
    (c.gs ≠ 0 → (|quarkPair c.gs 0 (dot (p 0) (p 2)) (dot (p 0) (p 3))| = quarkPair c.gs m (dot (p 0) (p 2)) (dot (p 0) (p 3)) ↔ m ^ 2 * (dot (p 0) (p 2) + dot (p 0) (p 3)) = 2 * (dot (p 0) (p 2) * dot (p 0) (p 3)))) := by
  have gap := quark_gap hb h0 h1 h2 h3
  have a0 := lt_of_le_of_ne (dot_nonneg_of h0 h2) ha.symm
  have b0 := lt_of_le_of_ne (dot_nonneg_of h0 h3) hb'.symm
  generalize dot (p 0) (p 2) = a at *
  generalize dot (p 0) (p 3) = b at *
  have e := quark_excess c.gs m a0 b0
  have f := quark_factor a0 b0
  have s : 0 < a + b := add_pos a0 b0
  have ab : 0 < a * b := mul_pos a0 b0
  have z : 0 ≤ quarkPair c.gs 0 a b := by
    have : quarkPair c.gs 0 a b = c.gs ^ 4 * ((a + b) ^ 2 / (6 * (a * b)) - 3 / 8) * ((a ^ 2 + b ^ 2) / (a + b) ^ 2) := by
      simp only [quarkPair]
      field_simp
      ring
    rw [this]
    positivity
  rw [abs_of_nonneg z]
  have r : 0 < 2 * m ^ 2 / (a + b) := by positivity
  constructor
  · have : 0 ≤ (2 * (a * b) - m ^ 2 * (a + b)) / (2 * (a * b)) := div_nonneg (by linarith) (by positivity)
    have : 0 ≤ quarkPair c.gs m a b - quarkPair c.gs 0 a b := by
      rw [e]
      have : 0 ≤ c.gs ^ 4 := by positivity
      positivity
    linarith
  · intro g0
    rw [eq_comm, ← sub_eq_zero, e, mul_eq_zero, mul_eq_zero, mul_eq_zero, div_eq_zero_iff (a := 2 * (a * b) - m ^ 2 * (a + b)), sub_eq_zero (a := 2 * (a * b))]
    have : c.gs ^ 4 ≠ 0 := pow_ne_zero _ g0
    constructor
    · rintro (((h | h) | h) | h | h)
      · exact absurd h this
      · exact absurd h f.ne'
      · exact absurd h r.ne'
      · exact h.symm
      · exact absurd h (by positivity)
    · exact fun h => .inr (.inl h.symm)

/-! ### the hypotheses can be met -/

/-- two photons of energy 13 make an electron and a positron of mass 5 -/
example (mem : Nat → XR) (junk : Kin XR XC) (l : Loc XR XC) :
    (Cls.AAee.method l .r Cls.AAee.amp2 [] (Cls.AAee.runSetMomenta junk (fun i => (exPair i).toX) (Cls.AAee.construct mem junk fun n => if n = 0 then fin 1 else fin 5).2).2).1 = .ok (fin (143044 / 28561)) := by
  have hb : Balanced exPair := by constructor <;> norm_num [exPair]
  have hs : ∀ i : Fin 4, OnShell (exPair i) (Rows.AAee.react.mass exMass i) := by
    intro i
    have : Rows.AAee.react.mass exMass i = (![0, 0, 5, 5] : Fin 4 → ℝ) i := by fin_cases i <;> rfl
    rw [this]
    fin_cases i <;> constructor <;> norm_num [exPair]
  have h := (C76_textbook (x := closedForms[0]) (List.getElem_mem _) mem junk (fun n => if n = 0 then fin 1 else fin 5) [] (c := exMass) (fun n q h => by
    match n with
    | 0 => cases h; rfl
    | 1 => cases h; rfl
    | n + 2 => cases h) exMass_physical exMass_heavy rfl (p := exPair) hs hb ⟨by norm_num [dot, exPair], by norm_num [dot, exPair]⟩ junk [] l).2
  have e : closedForms[0].formula exMass exPair = 143044 / 28561 := by
    show exMass.e ^ 4 * breitWheeler (exMass.mass .e) (dot (exPair 0) (exPair 2)) (dot (exPair 0) (exPair 3)) = _
    have m : exMass.mass .e = 5 := rfl
    rw [m]
    norm_num [breitWheeler, exPair, dot, exMass]
  rw [e] at h
  exact h

/-- two gluons of energy 13 make quarks of mass 5: the formula without the mass is below -/
example : |quarkPair exMass.gs 0 (dot (exPair 0) (exPair 2)) (dot (exPair 0) (exPair 3))| = 7 / 3 ∧ quarkPair exMass.gs 5 (dot (exPair 0) (exPair 2)) (dot (exPair 0) (exPair 3)) = 250327 / 85683 := by
  constructor <;> norm_num [quarkPair, exPair, dot, exMass, abs_of_pos]

end
end Spinas.Props

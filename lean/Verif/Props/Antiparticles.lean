import Verif.Props.FeynmanLight
import Verif.Props.FeynmanBosons
import Verif.SM.Bosons.WdWd
import Verif.Props.Mandelstam
import Verif.Exact.Conjugate

/-! C70: the classes give the squared amplitudes of the antiparticles as well (exact arithmetic). -/

namespace Spinas.Props
open SM Spec Spec.Reaction XR Matrix Process

noncomputable section

/-- in the rest frame of a collision there is some energy -/
theorem msq_plus {p q : V4 ℝ} {m n : ℝ} (hp : OnShell p m) (hq : OnShell q n) : m ^ 2 + n ^ 2 ≤ msq ⟨p.t + q.t, p.x + q.x, p.y + q.y, p.z + q.z⟩ := by
  have h : p.x * q.x + p.y * q.y + p.z * q.z ≤ p.t * q.t := by
    refine abs_le_of_sq_le_sq' ?_ (mul_nonneg hp.energy hq.energy) |>.2
    rw [mul_pow, hp.shell, hq.shell]
    nlinarith [sq_nonneg (p.x * q.y - p.y * q.x), sq_nonneg (p.y * q.z - p.z * q.y), sq_nonneg (p.z * q.x - p.x * q.z), sq_nonneg (m * n), sq_nonneg (m * q.x), sq_nonneg (m * q.y), sq_nonneg (m * q.z),
      sq_nonneg (n * p.x), sq_nonneg (n * p.y), sq_nonneg (n * p.z)]
  have h1 := hp.shell
  have h2 := hq.shell
  unfold msq
  nlinarith

theorem mandelstamS_pos {p : Nat → V4 ℝ} {m : Fin 4 → ℝ} (hs : ∀ i : Fin 4, OnShell (p i) (m i)) (hb : Balanced p) (h : ∃ i, m i ≠ 0) : 0 < mandelstamS p := by
  have e : mandelstamS p = msq ⟨(p 2).t + (p 3).t, (p 2).x + (p 3).x, (p 2).y + (p 3).y, (p 2).z + (p 3).z⟩ := by
    unfold mandelstamS
    rw [hb.t, hb.x, hb.y, hb.z]
  have h1 : m 0 ^ 2 + m 1 ^ 2 ≤ mandelstamS p := msq_plus (hs 0) (hs 1)
  have h2 : m 2 ^ 2 + m 3 ^ 2 ≤ mandelstamS p := e ▸ msq_plus (hs 2) (hs 3)
  obtain ⟨i, hi⟩ := h
  have hi := sq_pos_of_ne_zero hi
  have := sq_nonneg (m 0)
  have := sq_nonneg (m 1)
  have := sq_nonneg (m 2)
  have := sq_nonneg (m 3)
  fin_cases i <;> simp only [Fin.zero_eta, Fin.mk_one, Fin.reduceFinMk] at hi <;> linarith

variable [FPEnv]

theorem agrees_conj {R : BRow} (hm : ∃ i, BRow.heavy (R.react.leg i) = true) (h : R.Agrees) (mem : Nat → XR) (junk : Kin XR XC) (par : Nat → XR)
    (ops : List (ProcOp XR XC)) (hst : R.proc.name ∈ staleMasses → Unset ops) {c : Constants}
    (hpar : ∀ n q, R.pars[n]? = some (some q) → parAfter R.proc.massPar ops par n = fin (c.get q)) (hc : c.Physical) (hh : c.Heavy) (hz : ∀ q ∈ R.absent, c.get q = 0)
    {o : Obj XR XC} (ho : o = runProcOps R.proc ops (R.proc.construct mem junk par).2) {q : Mom4 ℝ} (hs : ∀ i : Fin 4, OnShell (legs q i) (R.react.conj.mass c i)) (hb : Balanced (legs q))
    (hr : R.react.conj.Regular c (legs q)) {u : Fin 4 → Fin 3 → Spinor} {ε : Fin 4 → Fin 3 → Vec} (hu : ∀ i, R.react.conj.Complete c (legs q) i (u i) (ε i)) (j : Kin XR XC) (xs : List (MCall XR XC)) (l : Loc XR XC) :
    (R.proc.runSetMomenta j (fun i => (legs q i).toX) o).1 = .ok () ∧
    (R.proc.method l .r R.proc.amp2 [] (runCalls R.proc xs (R.proc.runSetMomenta j (fun i => (legs q i).toX) o).2)).1 = .ok (fin (R.react.conj.squared c (legs q) u ε)) := by
  obtain ⟨⟨hP, hk⟩, h1, h2⟩ := h
  obtain ⟨hM, hN⟩ := h1 mem junk par ops c o hst hpar hc hh ho
  have hl : (fun i => mirror (legs q i)) = legs ⟨mirror q.p1, mirror q.p2, mirror q.p3, mirror q.p4⟩ := by
    funext i
    match i with
    | 0 | 1 | 2 | _ + 3 => rfl
  have mass : ∀ i, R.react.conj.mass c i = R.react.mass c i := R.react.mass_conj c
  have hs1 : ∀ i, i < 4 → OnShell (legs q i) (R.react.mass c (Fin.ofNat 4 i)) := fun i hi => by
    have := hs (Fin.ofNat 4 i)
    rw [mass] at this
    simpa [Nat.mod_eq_of_lt hi] using this
  have onm : ∀ {p : V4 ℝ} {m : ℝ}, OnShell p m → OnShell (mirror p) m := fun h => ⟨h.energy, by have := h.shell; simpa [mirror] using this⟩
  have hb' : Balanced (fun i => mirror (legs q i)) := ⟨hb.t, by have := hb.x; simp only [mirror]; linarith, by have := hb.y; simp only [mirror]; linarith, by have := hb.z; simp only [mirror]; linarith⟩
  have hpos : 0 < mandelstamS (legs q) := mandelstamS_pos (m := R.react.conj.mass c) hs hb (by
    obtain ⟨i, hi⟩ := hm
    exact ⟨i, by rw [mass]; exact (BRow.leg_pos hc hh hi).ne'⟩)
  have hq : ∀ i : Fin 4, OnShell (mirror (legs q i)) (R.react.mass c i) := fun i => by have := hs i; rw [mass] at this; exact onm this
  have hC : ∀ i, R.react.Complete c (fun i => mirror (legs q i)) i (fun s => conjSpinor (u i s)) (fun s => mirrorV (ε i s)) := fun i => by
    have := R.react.conj.complete_conj c (hu i)
    rwa [conj_conj] at this
  have hR : R.react.Regular c (fun i => mirror (legs q i)) := by
    have := R.react.conj.regular_conj c hb hr
    rwa [conj_conj] at this
  have hsq := R.react.conj.squared_conj c hb u ε
  rw [conj_conj] at hsq
  have key := h2 mem junk par ops c _ _ _ o j xs l hst hpar hc hh hz ho hq hb' hR hC
  rw [hsq] at key
  simp only [show ∀ i, mirror (legs q i) = legs ⟨mirror q.p1, mirror q.p2, mirror q.p3, mirror q.p4⟩ i from congrFun hl] at key
  have c62 := C62_mandelstam R.proc hP (o := o) (o' := o) ⟨mem, mem, junk, junk, par, ops, ops, ho, ho, rfl⟩ (m := fun i => R.react.mass c (Fin.ofNat 4 i))
    (fun i hi => by have := hM (Fin.ofNat 4 i); simpa [Nat.mod_eq_of_lt hi] using this) hN hs1 (q' := ⟨mirror q.p1, mirror q.p2, mirror q.p3, mirror q.p4⟩) (fun i hi => by
      rw [← hl]; exact onm (hs1 i hi)) hb (hl ▸ hb') hpos (by rw [← hl]; simp only [mandelstamS, mirror, msq]; ring) (by rw [← hl]; simp only [mandelstamT, mirror, msq]; ring)
  exact ⟨c62.1 j, (c62.2.2 j j xs xs l l _ hk).trans key.2⟩

omit [FPEnv] in
theorem withBosons_heavy : ∀ R ∈ withBosons, ∃ i, BRow.heavy (R.react.leg i) = true := by decide
omit [FPEnv] in
theorem withLight_heavy : ∀ R ∈ withLight, ∃ i, BRow.heavy (R.react.leg i) = true := by decide

/-- C70. `R` is one of the classes of C67 and C68. What it returns is also the squared amplitude of the Feynman rules for the antiparticles of the particles it is for, with the same momenta. -/
theorem C70_antiparticles {R : BRow} (hR : R ∈ withBosons ∨ R ∈ withLight) (mem : Nat → XR) (junk : Kin XR XC) (par : Nat → XR) (ops : List (ProcOp XR XC)) (hst : R.proc.name ∈ staleMasses → Unset ops) {c : Constants}
    (hpar : ∀ n q, R.pars[n]? = some (some q) → parAfter R.proc.massPar ops par n = fin (c.get q)) (hc : c.Physical) (hh : c.Heavy) (hz : ∀ q ∈ R.absent, c.get q = 0)
    {o : Obj XR XC} (ho : o = runProcOps R.proc ops (R.proc.construct mem junk par).2) {q : Mom4 ℝ} (hs : ∀ i : Fin 4, OnShell (legs q i) (R.react.conj.mass c i)) (hb : Balanced (legs q))
    (hr : R.react.conj.Regular c (legs q)) {u : Fin 4 → Fin 3 → Spinor} {ε : Fin 4 → Fin 3 → Vec} (hu : ∀ i, R.react.conj.Complete c (legs q) i (u i) (ε i)) (j : Kin XR XC) (xs : List (MCall XR XC)) (l : Loc XR XC) :
    (R.proc.runSetMomenta j (fun i => (legs q i).toX) o).1 = .ok () ∧
    (R.proc.method l .r R.proc.amp2 [] (runCalls R.proc xs (R.proc.runSetMomenta j (fun i => (legs q i).toX) o).2)).1 = .ok (fin (R.react.conj.squared c (legs q) u ε)) :=
  agrees_conj (hR.elim (withBosons_heavy R) (withLight_heavy R)) (hR.elim (withBosons_agrees R) (withLight_agrees R)) mem junk par ops hst hpar hc hh hz ho hs hb hr hu j xs l

omit [FPEnv] in
theorem WdWd_conj : Rows.WdWd.react.conj = ⟨![.boson .wPlus, .fermion .d false, .boson .wPlus, .fermion .d false]⟩ := by
  refine congrArg Reaction.mk (funext fun i => ?_)
  fin_cases i <;> rfl

/-- C70. The class `WdWd` returns the squared amplitude of W⁺ d → W⁺ d, though its amplitudes are those of the antiparticles. -/
theorem C70_WdWd (mem : Nat → XR) (junk : Kin XR XC) (par : Nat → XR) (ops : List (ProcOp XR XC)) {c : Constants}
    (hpar : ∀ n q, Rows.WdWd.pars[n]? = some (some q) → parAfter Cls.WdWd.massPar ops par n = fin (c.get q)) (hc : c.Physical) (hh : c.Heavy)
    {o : Obj XR XC} (ho : o = runProcOps Cls.WdWd ops (Cls.WdWd.construct mem junk par).2) {S : Reaction} (hS : S = ⟨![.boson .wPlus, .fermion .d false, .boson .wPlus, .fermion .d false]⟩)
    {q : Mom4 ℝ} (hs : ∀ i : Fin 4, OnShell (legs q i) (S.mass c i)) (hb : Balanced (legs q))
    (hr : S.Regular c (legs q)) {u : Fin 4 → Fin 3 → Spinor} {ε : Fin 4 → Fin 3 → Vec} (hu : ∀ i, S.Complete c (legs q) i (u i) (ε i)) (j : Kin XR XC) (xs : List (MCall XR XC)) (l : Loc XR XC) :
    (Cls.WdWd.runSetMomenta j (fun i => (legs q i).toX) o).1 = .ok () ∧
    (Cls.WdWd.method l .r Cls.WdWd.amp2 [] (runCalls Cls.WdWd xs (Cls.WdWd.runSetMomenta j (fun i => (legs q i).toX) o).2)).1 = .ok (fin (S.squared c (legs q) u ε)) := by
  obtain rfl : S = Rows.WdWd.react.conj := hS.trans WdWd_conj.symm
  exact agrees_conj (R := Rows.WdWd) ⟨0, rfl⟩ Rows.WdWd.agrees mem junk par ops (fun h => absurd h (by decide)) hpar hc hh (by simp [Rows.WdWd]) ho hs hb hr hu j xs l

/-! ### the hypotheses can be met -/

section examples

/-- all masses are 4 -/
def exFour : Constants := ⟨1, 2, 3 / 5, 4, 1 / 10, 1 / 10, 3, 1 / 10, fun f => if f.kind = .neutrino then 0 else 4⟩
omit [FPEnv] in
theorem exFour_physical : exFour.Physical := ⟨by norm_num [exFour], by norm_num [exFour], by norm_num [exFour], fun g => by simp [exFour], fun f hf => by simp [exFour, hf]⟩
omit [FPEnv] in
theorem exFour_heavy : exFour.Heavy := ⟨by norm_num [exFour], by norm_num [exFour]⟩

def exLegs : Mom4 ℝ := ⟨⟨5, 0, 0, 3⟩, ⟨5, 0, 0, -3⟩, ⟨5, 3, 0, 0⟩, ⟨5, -3, 0, 0⟩⟩

example (mem : Nat → XR) (junk : Kin XR XC) (l : Loc XR XC) : ∃ (S : Reaction) (u : Fin 4 → Fin 3 → Spinor) (ε : Fin 4 → Fin 3 → Vec), S = ⟨![.boson .wPlus, .fermion .d false, .boson .wPlus, .fermion .d false]⟩ ∧
    (∀ n, S.Complete exFour (legs exLegs) n (u n) (ε n)) ∧
    (Cls.WdWd.method l .r Cls.WdWd.amp2 [] (Cls.WdWd.runSetMomenta junk (fun i => (legs exLegs i).toX)
      (Cls.WdWd.construct mem junk fun n => if n = 0 then fin 1 else if n = 1 then fin 4 else if n = 2 then fin 4 else if n = 3 then fin 3 else if n = 4 then fin (1 / 10) else if n = 5 then fin 4 else
        if n = 6 then fin (3 / 5) else fin (1 / 10)).2).2).1 = .ok (fin (S.squared exFour (legs exLegs) u ε)) := by
  have hc := exFour_physical
  have hh := exFour_heavy
  obtain ⟨S, hS⟩ : ∃ S : Reaction, S = ⟨![.boson .wPlus, .fermion .d false, .boson .wPlus, .fermion .d false]⟩ := ⟨_, rfl⟩
  have hb : Balanced (legs exLegs) := by constructor <;> norm_num [legs, exLegs]
  have hs : ∀ i : Fin 4, OnShell (legs exLegs i) (S.mass exFour i) := by
    intro i
    have : S.mass exFour i = 4 := by subst hS; fin_cases i <;> rfl
    rw [this]
    fin_cases i <;> constructor <;> norm_num [legs, exLegs]
  have hr : S.Regular exFour (legs exLegs) := by
    subst hS
    refine ⟨fun x h _ => ?_, fun x h _ => ?_, fun x h1 _ h => ?_⟩
    · cases h
      show msq (plus (legs exLegs 1) (legs exLegs 0)) - (4 : ℝ) ^ 2 ≠ 0
      norm_num [msq, plus, legs, exLegs, backward]
    · cases h
    · have := congrArg Complex.re h
      have h' := sq_nonneg (exFour.bosonMass x)
      change msq (plus (legs exLegs 0) (backward (legs exLegs 2))) - exFour.bosonMass x ^ 2 = 0 at this
      norm_num [msq, plus, legs, exLegs, backward] at this
      linarith
  obtain ⟨u, ε, hu⟩ := C67_states (S := S) (by subst hS; decide) hc hh hs
  refine ⟨S, u, ε, hS, hu, (C70_WdWd mem junk _ [] (c := exFour) ?_ hc hh (by rw [runProcOps]) hS hs hb hr hu junk [] l).2⟩
  intro n q h
  match n with
  | 0 => cases h; rfl
  | 1 => cases h; rfl
  | 2 => cases h; rfl
  | 3 => cases h; rfl
  | 4 => cases h; rfl
  | 5 => cases h; rfl
  | 6 => cases h; rfl
  | 7 => cases h; rfl
  | n + 8 => cases h

/-- Compton scattering of a positron -/
example (mem : Nat → XR) (junk : Kin XR XC) (l : Loc XR XC) : ∃ (S : Reaction) (q : Mom4 ℝ) (u : Fin 4 → Fin 3 → Spinor) (ε : Fin 4 → Fin 3 → Vec),
    S = ⟨![.fermion .e true, .boson .photon, .boson .photon, .fermion .e true]⟩ ∧ (∀ n, S.Complete exMass (legs q) n (u n) (ε n)) ∧
    (Cls.eAAe.method l .r Cls.eAAe.amp2 [] (Cls.eAAe.runSetMomenta junk (fun i => (legs q i).toX) (Cls.eAAe.construct mem junk fun n => if n = 0 then fin 1 else fin 5).2).2).1 =
    .ok (fin (S.squared exMass (legs q) u ε)) := by
  have hc := exMass_physical
  have hh := exMass_heavy
  obtain ⟨q, hq⟩ : ∃ q : Mom4 ℝ, q = ⟨⟨13, 0, 0, 12⟩, ⟨12, 0, 0, -12⟩, ⟨12, 12, 0, 0⟩, ⟨13, -12, 0, 0⟩⟩ := ⟨_, rfl⟩
  have hb : Balanced (legs q) := by subst hq; constructor <;> norm_num [legs]
  have hs : ∀ i : Fin 4, OnShell (legs q i) (Rows.eAAe.react.conj.mass exMass i) := by
    intro i
    have : Rows.eAAe.react.conj.mass exMass i = (![5, 0, 0, 5] : Fin 4 → ℝ) i := by fin_cases i <;> rfl
    rw [this]
    subst hq
    fin_cases i <;> constructor <;> norm_num [legs]
  have hr : Rows.eAAe.react.conj.Regular exMass (legs q) := by
    subst hq
    refine ⟨?_, ?_, ?_⟩
    · intro x h _
      cases h
      show msq (plus (backward (legs _ 3)) (legs _ 1)) - (5 : ℝ) ^ 2 ≠ 0
      norm_num [msq, plus, legs, backward]
    · intro x h _
      cases h
      show msq (plus (backward (legs _ 3)) (backward (legs _ 2))) - (5 : ℝ) ^ 2 ≠ 0
      norm_num [msq, plus, legs, backward]
    · intro x h1 h2 h
      cases x <;> first | cases h1 | cases h2
  obtain ⟨u, ε, hu⟩ := C68_states Rows.eAAe.react.conj hc hh hs (by intro n h; subst hq; fin_cases n <;> norm_num [legs])
  refine ⟨_, q, u, ε, ?_, hu, (C70_antiparticles (R := Rows.eAAe) (.inr (by simp [withLight])) mem junk _ [] (fun _ _ _ => List.not_mem_nil) (c := exMass) ?_ hc hh (by simp [Rows.eAAe]) (by rw [runProcOps]; rfl) hs hb hr hu junk [] l).2⟩
  · refine congrArg Reaction.mk (funext fun i => ?_)
    fin_cases i <;> rfl
  intro n q h
  match n with
  | 0 => cases h; rfl
  | 1 => cases h; rfl
  | n + 2 => cases h

end examples

end
end Spinas.Props

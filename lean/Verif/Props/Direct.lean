import Verif.SM.DirectQED
import Verif.SM.DirectEEAA
import Verif.SM.DirectWitness
import Verif.SM.DirectKeep
import Verif.Spec.Textbook
import Verif.Spec.Parton

/-! C84: squared amplitudes for given momenta, `amp2(mom1, mom2, mom3, mom4)` (exact arithmetic). -/

namespace Spinas.Props
open SM Spec XR Matrix

section
variable [FPEnv]

/-- Calls of the overload do not spoil the object: after any calls it is as good as a new one (in every arithmetic). -/
theorem C84_reuse {R C : Type} [Scalar R] [HasPow R] [Cplx R C] {x : Proc × ((Nat → V4 R) → Prog (Obj R C) R)} (hx : x ∈ Direct.overloads) (mem mem' : Nat → R) (junk junk' : Kin R C) (par : Nat → R) (ops : List (Direct.Call R C)) :
    Alike x.1 (Direct.run x.1 x.2 ops (x.1.construct mem junk par).2) (x.1.construct mem' junk' (parAfter x.1.massPar (Direct.others ops) par)).2 := by
  obtain ⟨S, hS, hc⟩ := fresh_check (Direct.overload_all hx).1
  exact alike_of_inv hc (Direct.run_inv hx hS ops (construct_inv hS mem junk par).2) (construct_inv hS mem' junk' _).2

theorem known_run {x : Proc × ((Nat → V4 XR) → Prog (Obj XR XC) XR)} (hx : x ∈ Direct.overloads) (mem : Nat → XR) (junk : Kin XR XC) (par : Nat → XR) (ops : List (Direct.Call XR XC)) :
    Direct.Known x.1 (parAfter x.1.massPar (Direct.others ops) par) (Direct.run x.1 x.2 ops (x.1.construct mem junk par).2) := by
  obtain ⟨S, hS, -⟩ := fresh_check (Direct.overload_all hx).1
  exact ⟨S, hS, Direct.run_inv hx hS ops (construct_inv hS mem junk par).2⟩

/-- what `set_momenta` and `amp2()` do is found on a new object -/
theorem alike_amp2 {P : Proc} {o o' : Obj XR XC} (h : Alike P o o') {q : Nat → V4 XR} {x : XR} (hs : ∀ (j : Kin XR XC) (xs : List (MCall XR XC)) (l : Loc XR XC), (P.runSetMomenta j q o').1 = .ok () ∧
    (P.method l .r P.amp2 [] (runCalls P xs (P.runSetMomenta j q o').2)).1 = .ok x) (j : Kin XR XC) (xs : List (MCall XR XC)) (l : Loc XR XC) : (P.runSetMomenta j q o).1 = .ok () ∧
    (P.method l .r P.amp2 [] (runCalls P xs (P.runSetMomenta j q o).2)).1 = .ok x := by
  have ha := h q j j
  have ok := ha.1.trans (hs j xs l).1
  exact ⟨ok, (ha.2.2.2 ok xs xs .r P.amp2 [] (.inl ⟨rfl, by simp [Proc.isSquare], rfl⟩) l l).trans (hs j xs l).2⟩

/-- Given the momenta, the overload returns `x`; and so does `amp2()` (after other calls `xs`) when they are given to `set_momenta`. -/
def BothReturn (P : Proc) (direct : (Nat → V4 XR) → Prog (Obj XR XC) XR) (o : Obj XR XC) (p : Nat → V4 ℝ) (x : ℝ) : Prop :=
  (direct (fun i => (p i).toX) o).1 = .ok (fin x) ∧ ∀ (j : Kin XR XC) (xs : List (MCall XR XC)) (l : Loc XR XC), (P.runSetMomenta j (fun i => (p i).toX) o).1 = .ok () ∧
    (P.method l .r P.amp2 [] (runCalls P xs (P.runSetMomenta j (fun i => (p i).toX) o).2)).1 = .ok (fin x)

theorem C84_eemmQED (mem : Nat → XR) (junk : Kin XR XC) (par : Nat → XR) (ops : List (Direct.Call XR XC)) {e me mm : ℝ} (h0 : parAfter Cls.eemmQED.massPar (Direct.others ops) par 0 = fin e) (h1 : parAfter Cls.eemmQED.massPar (Direct.others ops) par 1 = fin me)
    (h2 : parAfter Cls.eemmQED.massPar (Direct.others ops) par 2 = fin mm) (he : me ≠ 0) (hm : mm ≠ 0) {p : Nat → V4 ℝ} (p0 : OnShell (p 0) me) (p1 : OnShell (p 1) me) (p2 : OnShell (p 2) mm) (p3 : OnShell (p 3) mm) (hS : mandelstamS p ≠ 0) :
    ∃ x, BothReturn Cls.eemmQED Direct.eemmQED.amp2 (Direct.run Cls.eemmQED Direct.eemmQED.amp2 ops (Cls.eemmQED.construct mem junk par).2) p x := by
  have hP : Cls.eemmQED ∈ all := by simp [all]
  let ρ : Nat → ℝ := fun n => if n = 0 then e else if n = 1 then me else mm
  have hpar : ∀ n ∈ [0, 1, 2], parAfter Cls.eemmQED.massPar (Direct.others ops) par n = fin (ρ n) := by simpa [ρ] using ⟨h0, h1, h2⟩
  have hs : ∀ i, i < 4 → OnShell (p i) (Cls.eemmQED.massNum ρ i) := by
    intro i hi
    have : i = 0 ∨ i = 1 ∨ i = 2 ∨ i = 3 := by omega
    rcases this with rfl | rfl | rfl | rfl <;> assumption
  have hz : ∀ i, i < 4 → Cls.eemmQED.massNum ρ i ≠ 0 := by
    intro i hi
    have : i = 0 ∨ i = 1 ∨ i = 2 ∨ i = 3 := by omega
    rcases this with rfl | rfl | rfl | rfl <;> assumption
  refine ⟨_, Direct.eemmQED.result (known_run (x := (Cls.eemmQED, Direct.eemmQED.amp2)) (by simp [Direct.overloads]) mem junk par ops) hpar hz hs hS, fun j xs l => ?_⟩
  refine alike_amp2 (P := Cls.eemmQED) (C84_reuse (x := (Cls.eemmQED, Direct.eemmQED.amp2)) (by simp [Direct.overloads]) mem mem junk junk par ops) (fun j xs l => ?_) j xs l
  refine numeric_result (B := [0, 1, 2]) (D := []) (E := []) hP (by decide +kernel) (by simp) (by simp) (by simp) mem junk _ [] hpar rfl hs (fun i hi _ => hz i hi) (fun n hn => ?_) (fun n hn => ?_) j xs l _ (by decide +kernel)
  · have hd : Cls.eemmQED.divides = [(Ty.c, 0)] := by decide +kernel
    simp [hd] at hn
  · have hd : Cls.eemmQED.divides = [(Ty.c, 0)] := by decide +kernel
    simp [hd] at hn
    subst hn
    show poleDist ((0 : Nat) : ℝ) ((0 : Nat) : ℝ) ((VExp.add 0 1).sum p) ≠ 0
    rw [Nat.cast_zero, Direct.poleDist_real]
    have : msq ((VExp.add 0 1).sum p) ≠ 0 := hS
    simpa using this

theorem C84_eeeeQED (mem : Nat → XR) (junk : Kin XR XC) (par : Nat → XR) (ops : List (Direct.Call XR XC)) {e me : ℝ} (h0 : parAfter Cls.eeeeQED.massPar (Direct.others ops) par 0 = fin e) (h1 : parAfter Cls.eeeeQED.massPar (Direct.others ops) par 1 = fin me)
    (he : me ≠ 0) {p : Nat → V4 ℝ} (hp : ∀ i, i < 4 → OnShell (p i) me) (hS : mandelstamS p ≠ 0) (hT : mandelstamT p ≠ 0) :
    ∃ x, BothReturn Cls.eeeeQED Direct.eeeeQED.amp2 (Direct.run Cls.eeeeQED Direct.eeeeQED.amp2 ops (Cls.eeeeQED.construct mem junk par).2) p x := by
  have hP : Cls.eeeeQED ∈ all := by simp [all]
  let ρ : Nat → ℝ := fun n => if n = 0 then e else me
  have hpar : ∀ n ∈ [0, 1], parAfter Cls.eeeeQED.massPar (Direct.others ops) par n = fin (ρ n) := by simpa [ρ] using ⟨h0, h1⟩
  have hs : ∀ i, i < 4 → OnShell (p i) (Cls.eeeeQED.massNum ρ i) := by
    intro i hi
    have : i = 0 ∨ i = 1 ∨ i = 2 ∨ i = 3 := by omega
    rcases this with rfl | rfl | rfl | rfl <;> exact hp _ hi
  have hz : ∀ i, i < 4 → Cls.eeeeQED.massNum ρ i ≠ 0 := by
    intro i hi
    have : i = 0 ∨ i = 1 ∨ i = 2 ∨ i = 3 := by omega
    rcases this with rfl | rfl | rfl | rfl <;> assumption
  refine ⟨_, Direct.eeeeQED.result (known_run (x := (Cls.eeeeQED, Direct.eeeeQED.amp2)) (by simp [Direct.overloads]) mem junk par ops) hpar hz hs hS hT, fun j xs l => ?_⟩
  refine alike_amp2 (P := Cls.eeeeQED) (C84_reuse (x := (Cls.eeeeQED, Direct.eeeeQED.amp2)) (by simp [Direct.overloads]) mem mem junk junk par ops) (fun j xs l => ?_) j xs l
  refine numeric_result (B := [0, 1]) (D := []) (E := []) hP (by decide +kernel) (by simp) (by simp) (by simp) mem junk _ [] hpar rfl hs (fun i hi _ => hz i hi) (fun n hn => ?_) (fun n hn => ?_) j xs l _ (by decide +kernel)
  · have hd : Cls.eeeeQED.divides.all (fun x => decide (x = (Ty.c, 0) ∨ x = (Ty.c, 1))) = true := by decide +kernel
    simpa using List.all_eq_true.mp hd _ hn
  · have hd : Cls.eeeeQED.divides.all (fun x => decide (x = (Ty.c, 0) ∨ x = (Ty.c, 1))) = true := by decide +kernel
    have := List.all_eq_true.mp hd _ hn
    simp at this
    rcases this with rfl | rfl
    · first
        | (show poleDist ((0 : Nat) : ℝ) ((0 : Nat) : ℝ) ((VExp.sub 0 2).sum p) ≠ 0
           rw [Nat.cast_zero, Direct.poleDist_real]
           have : msq ((VExp.sub 0 2).sum p) ≠ 0 := hT
           simpa using this)
        | (show poleDist ((0 : Nat) : ℝ) ((0 : Nat) : ℝ) ((VExp.add 0 1).sum p) ≠ 0
           rw [Nat.cast_zero, Direct.poleDist_real]
           have : msq ((VExp.add 0 1).sum p) ≠ 0 := hS
           simpa using this)
    · first
        | (show poleDist ((0 : Nat) : ℝ) ((0 : Nat) : ℝ) ((VExp.sub 0 2).sum p) ≠ 0
           rw [Nat.cast_zero, Direct.poleDist_real]
           have : msq ((VExp.sub 0 2).sum p) ≠ 0 := hT
           simpa using this)
        | (show poleDist ((0 : Nat) : ℝ) ((0 : Nat) : ℝ) ((VExp.add 0 1).sum p) ≠ 0
           rw [Nat.cast_zero, Direct.poleDist_real]
           have : msq ((VExp.add 0 1).sum p) ≠ 0 := hS
           simpa using this)

theorem C84_eeAA (mem : Nat → XR) (junk : Kin XR XC) (par : Nat → XR) (ops : List (Direct.Call XR XC)) {e me : ℝ} (h0 : parAfter Cls.eeAA.massPar (Direct.others ops) par 0 = fin e) (h1 : parAfter Cls.eeAA.massPar (Direct.others ops) par 1 = fin me)
    (he : me ≠ 0) {p : Nat → V4 ℝ} (p0 : OnShell (p 0) me) (p1 : OnShell (p 1) me) (p2 : OnShell (p 2) 0) (p3 : OnShell (p 3) 0) (hT : mandelstamT p ≠ me ^ 2) (hU : mandelstamU p ≠ me ^ 2) :
    ∃ x, BothReturn Cls.eeAA Direct.eeAA.amp2 (Direct.run Cls.eeAA Direct.eeAA.amp2 ops (Cls.eeAA.construct mem junk par).2) p x := by
  have hP : Cls.eeAA ∈ all := by simp [all]
  let ρ : Nat → ℝ := fun n => if n = 0 then e else me
  have hpar : ∀ n ∈ [0, 1], parAfter Cls.eeAA.massPar (Direct.others ops) par n = fin (ρ n) := by simpa [ρ] using ⟨h0, h1⟩
  have m2 : Cls.eeAA.massNum ρ 2 = 0 := Nat.cast_zero
  have m3 : Cls.eeAA.massNum ρ 3 = 0 := Nat.cast_zero
  have hs : ∀ i, i < 4 → OnShell (p i) (Cls.eeAA.massNum ρ i) := by
    intro i hi
    have : i = 0 ∨ i = 1 ∨ i = 2 ∨ i = 3 := by omega
    rcases this with rfl | rfl | rfl | rfl
    · exact p0
    · exact p1
    · rw [m2]; exact p2
    · rw [m3]; exact p3
  have hz : ∀ i, i < 4 → Cls.eeAA.massless i = false → Cls.eeAA.massNum ρ i ≠ 0 := by
    intro i hi hl
    have : i = 0 ∨ i = 1 ∨ i = 2 ∨ i = 3 := by omega
    rcases this with rfl | rfl | rfl | rfl
    · exact he
    · exact he
    · exact absurd hl (by decide +kernel)
    · exact absurd hl (by decide +kernel)
  have kT : msq ((VExp.sub 0 2).sum p) - me ^ 2 ≠ 0 := sub_ne_zero.mpr hT
  have kU : msq ((VExp.sub 0 3).sum p) - me ^ 2 ≠ 0 := sub_ne_zero.mpr hU
  refine ⟨_, Direct.eeAA.result (known_run (x := (Cls.eeAA, Direct.eeAA.amp2)) (by simp [Direct.overloads]) mem junk par ops) hpar he hs kT kU, fun j xs l => ?_⟩
  refine alike_amp2 (P := Cls.eeAA) (C84_reuse (x := (Cls.eeAA, Direct.eeAA.amp2)) (by simp [Direct.overloads]) mem mem junk junk par ops) (fun j xs l => ?_) j xs l
  refine numeric_result (B := [0, 1]) (D := []) (E := []) hP (by decide +kernel) (by simp) (by simp) (by simp) mem junk _ [] hpar rfl hs hz (fun n hn => ?_) (fun n hn => ?_) j xs l _ (by decide +kernel)
  · have hd : Cls.eeAA.divides.all (fun x => decide (x = (Ty.c, 0) ∨ x = (Ty.c, 1))) = true := by decide +kernel
    simpa using List.all_eq_true.mp hd _ hn
  · have hd : Cls.eeAA.divides.all (fun x => decide (x = (Ty.c, 0) ∨ x = (Ty.c, 1))) = true := by decide +kernel
    have := List.all_eq_true.mp hd _ hn
    simp at this
    rcases this with rfl | rfl
    · show poleDist me ((0 : Nat) : ℝ) ((VExp.sub 0 2).sum p) ≠ 0
      rw [Nat.cast_zero, Direct.poleDist_real]
      exact_mod_cast kT
    · show poleDist me ((0 : Nat) : ℝ) ((VExp.sub 0 3).sum p) ≠ 0
      rw [Nat.cast_zero, Direct.poleDist_real]
      exact_mod_cast kU

/-- two particles of energy 5 and mass 4 (or of mass 3, annihilating into massless ones) meet on the z axis and leave along the x axis -/
def crossing (m : Nat) (i : Nat) : V4 ℝ := match i with
  | 0 => ⟨5, 0, 0, if m = 3 then 4 else 3⟩
  | 1 => ⟨5, 0, 0, if m = 3 then -4 else -3⟩
  | 2 => ⟨5, if m = 3 then 5 else 3, 0, 0⟩
  | _ => ⟨5, if m = 3 then -5 else -3, 0, 0⟩

/-- the hypotheses are met: after construction with charge 1/3 and masses 4 -/
example (mem : Nat → XR) (junk : Kin XR XC) : ∃ x, BothReturn Cls.eemmQED Direct.eemmQED.amp2 (Cls.eemmQED.construct mem junk fun n => if n = 0 then fin (1 / 3) else fin 4).2 (crossing 4) x :=
  C84_eemmQED mem junk (fun n => if n = 0 then fin (1 / 3) else fin 4) [] rfl rfl rfl (by norm_num) (by norm_num) ⟨by norm_num [crossing], by norm_num [crossing]⟩ ⟨by norm_num [crossing], by norm_num [crossing]⟩
    ⟨by norm_num [crossing], by norm_num [crossing]⟩ ⟨by norm_num [crossing], by norm_num [crossing]⟩ (by norm_num [mandelstamS, crossing, msq])
/-- after construction, a call of the overload with wrong momenta and `set_masses` with mass 4 -/
example (mem : Nat → XR) (junk : Kin XR XC) : ∃ x, BothReturn Cls.eeeeQED Direct.eeeeQED.amp2 (Direct.run Cls.eeeeQED Direct.eeeeQED.amp2 [.amp2 fun _ => (crossing 3 0).toX, .other (.setMasses junk fun _ => fin 4)] (Cls.eeeeQED.construct mem junk fun _ => fin (1 / 3)).2) (crossing 4) x :=
  C84_eeeeQED mem junk (fun _ => fin (1 / 3)) [.amp2 fun _ => (crossing 3 0).toX, .other (.setMasses junk fun _ => fin 4)] (e := 1 / 3) (me := 4) rfl rfl (by norm_num) (fun i hi => by
    have : i = 0 ∨ i = 1 ∨ i = 2 ∨ i = 3 := by omega
    rcases this with rfl | rfl | rfl | rfl <;> exact ⟨by norm_num [crossing], by norm_num [crossing]⟩) (by norm_num [mandelstamS, crossing, msq]) (by norm_num [mandelstamT, crossing, msq])
example (mem : Nat → XR) (junk : Kin XR XC) : ∃ x, BothReturn Cls.eeAA Direct.eeAA.amp2 (Cls.eeAA.construct mem junk fun n => if n = 0 then fin (1 / 3) else fin 3).2 (crossing 3) x :=
  C84_eeAA mem junk (fun n => if n = 0 then fin (1 / 3) else fin 3) [] (e := 1 / 3) (me := 3) rfl rfl (by norm_num) ⟨by norm_num [crossing], by norm_num [crossing]⟩ ⟨by norm_num [crossing], by norm_num [crossing]⟩
    ⟨by norm_num [crossing], by norm_num [crossing]⟩ ⟨by norm_num [crossing], by norm_num [crossing]⟩ (by norm_num [mandelstamT, crossing, msq]) (by norm_num [mandelstamU, crossing, msq])

/-- An electron of mass 15 and energy 17 moving up the z axis meets a photon of energy 25/2 and goes back; a Higgs boson of mass 12 is made. -/
noncomputable def headOn (i : Nat) : V4 ℝ := match i with
  | 0 => ⟨17, 0, 0, 8⟩
  | 1 => ⟨25 / 2, 0, 0, -25 / 2⟩
  | 2 => ⟨17, 0, 0, -8⟩
  | _ => ⟨25 / 2, 0, 0, 7 / 2⟩

/-- the reaction is possible: momenta are on shell and balance -/
theorem headOn_possible : OnShell (headOn 0) 15 ∧ OnShell (headOn 1) 0 ∧ OnShell (headOn 2) 15 ∧ OnShell (headOn 3) 12 ∧ Spec.Balanced headOn := by
  refine ⟨⟨?_, ?_⟩, ⟨?_, ?_⟩, ⟨?_, ?_⟩, ⟨?_, ?_⟩, ⟨?_, ?_, ?_, ?_⟩⟩ <;> norm_num [headOn]

/-- In eAeh the two forms disagree: for this reaction the overload returns (34/25)^2 times the value of `amp2()`, which is not zero. -/
theorem C84_eAeh (mem : Nat → XR) (junk : Kin XR XC) (par : Nat → XR) (ops : List (Direct.Call XR XC)) {e v : ℝ} (h0 : parAfter Cls.eAeh.massPar (Direct.others ops) par 0 = fin e) (h1 : parAfter Cls.eAeh.massPar (Direct.others ops) par 1 = fin 15)
    (h2 : parAfter Cls.eAeh.massPar (Direct.others ops) par 2 = fin 12) (h3 : parAfter Cls.eAeh.massPar (Direct.others ops) par 3 = fin v) (he : e ≠ 0) (hv : v ≠ 0) {o : Obj XR XC} (ho : o = Direct.run Cls.eAeh Direct.eAeh.amp2 ops (Cls.eAeh.construct mem junk par).2) :
    ∃ x : ℝ, x ≠ 0 ∧ (Direct.eAeh.amp2 (C := XC) (fun i => (headOn i).toX) o).1 = .ok (fin ((34 / 25) ^ 2 * x)) ∧
      ∀ (j : Kin XR XC) (xs : List (MCall XR XC)) (l : Loc XR XC), (Cls.eAeh.runSetMomenta j (fun i => (headOn i).toX) o).1 = .ok () ∧
        (Cls.eAeh.method l .r Cls.eAeh.amp2 [] (runCalls Cls.eAeh xs (Cls.eAeh.runSetMomenta j (fun i => (headOn i).toX) o).2)).1 = .ok (fin x) := by
  have hP : Cls.eAeh ∈ all := by simp [all]
  have hh : headOn = Direct.eAeh.momenta := rfl
  have hpar : ∀ n ∈ [0, 1, 2, 3], parAfter Cls.eAeh.massPar (Direct.others ops) par n = fin (Direct.eAeh.numbers e v n) := by simpa [Direct.eAeh.numbers] using ⟨h0, h1, h2, h3⟩
  have m1 : Cls.eAeh.massNum (Direct.eAeh.numbers e v) 1 = 0 := Nat.cast_zero
  have hs : ∀ i, i < 4 → OnShell (headOn i) (Cls.eAeh.massNum (Direct.eAeh.numbers e v) i) := by
    intro i hi
    have : i = 0 ∨ i = 1 ∨ i = 2 ∨ i = 3 := by omega
    rcases this with rfl | rfl | rfl | rfl
    · exact headOn_possible.1
    · rw [m1]; exact headOn_possible.2.1
    · exact headOn_possible.2.2.1
    · exact headOn_possible.2.2.2.1
  have hz : ∀ i, i < 4 → Cls.eAeh.massless i = false → Cls.eAeh.massNum (Direct.eAeh.numbers e v) i ≠ 0 := by
    intro i hi hl
    have : i = 0 ∨ i = 1 ∨ i = 2 ∨ i = 3 := by omega
    rcases this with rfl | rfl | rfl | rfl
    · show (15 : ℝ) ≠ 0; norm_num
    · exact absurd hl (by decide +kernel)
    · show (15 : ℝ) ≠ 0; norm_num
    · show (12 : ℝ) ≠ 0; norm_num
  have eS : msq ((VExp.add 0 1).sum headOn) - Direct.eAeh.numbers e v 1 ^ 2 = 625 := by norm_num [VExp.sum, msq, headOn, Direct.eAeh.numbers, plus]
  have eU : msq ((VExp.sub 0 3).sum headOn) - Direct.eAeh.numbers e v 1 ^ 2 = -225 := by norm_num [VExp.sum, msq, headOn, Direct.eAeh.numbers]
  have c0 : (Cls.eAeh.env (Direct.eAeh.numbers e v) headOn).c 0 = ((625 : ℝ) : ℂ) := by
    rw [← eS]
    show poleDist (Direct.eAeh.numbers e v 1) ((0 : Nat) : ℝ) ((VExp.add 0 1).sum headOn) = _
    rw [Nat.cast_zero, Direct.poleDist_real]
  have c1 : (Cls.eAeh.env (Direct.eAeh.numbers e v) headOn).c 1 = ((-225 : ℝ) : ℂ) := by
    rw [← eU]
    show poleDist (Direct.eAeh.numbers e v 1) ((0 : Nat) : ℝ) ((VExp.sub 0 3).sum headOn) = _
    rw [Nat.cast_zero, Direct.poleDist_real]
  have r4 : (Cls.eAeh.env (Direct.eAeh.numbers e v) headOn).r 4 = √2 := by show √(((2 : Nat) : ℝ)) = √2; norm_num
  have A := Direct.eAeh.meaning_total (N := Cls.eAeh.env (Direct.eAeh.numbers e v) headOn) (e := e) (me := 15) (mh := 12) (v := v) rfl rfl rfl rfl r4 c0 c1
  have B := Direct.eAeh.meaning_total (N := Direct.eAeh.dropped (Cls.eAeh.env (Direct.eAeh.numbers e v) headOn)) (e := e) (me := 15) (mh := 12) (v := v) rfl rfl rfl rfl r4 c0 c1
  have T := Direct.eAeh.totals e v
  rw [← hh] at T
  have A' : meaning (Cls.eAeh.env (Direct.eAeh.numbers e v) headOn) .r Cls.eAeh.methods Cls.eAeh.amp2 [] = 2 * e * e * 15 * 15 * (2 * 150000 ^ 2) / v / v / 625 / 625 / (-225) / (-225) / 4 := by rw [← T.1]; exact A
  have B' : meaning (Direct.eAeh.dropped (Cls.eAeh.env (Direct.eAeh.numbers e v) headOn)) .r Cls.eAeh.methods Cls.eAeh.amp2 [] = 2 * e * e * 15 * 15 * (2 * 204000 ^ 2) / v / v / 625 / 625 / (-225) / (-225) / 4 := by rw [← T.2]; exact B
  refine ⟨2 * e * e * 15 * 15 * (2 * 150000 ^ 2) / v / v / 625 / 625 / (-225) / (-225) / 4, ?_, ?_, fun j xs l => ?_⟩
  · have : e ^ 2 / v ^ 2 ≠ 0 := div_ne_zero (pow_ne_zero 2 he) (pow_ne_zero 2 hv)
    intro h
    apply this
    field_simp at h
    simp [he] at h
  · rw [Direct.eAeh.result (p := headOn) (ho ▸ known_run (x := (Cls.eAeh, Direct.eAeh.amp2)) (by simp [Direct.overloads]) mem junk par ops) hpar (by norm_num [Direct.eAeh.numbers]) (by simpa [Direct.eAeh.numbers] using hv) hs (by rw [eS]; norm_num) (by rw [eU]; norm_num)]
    rw [show Direct.eAeh.P = Cls.eAeh from rfl, B']
    congr 2
    field_simp
    norm_num
  · rw [← A']
    subst ho
    refine alike_amp2 (P := Cls.eAeh) (C84_reuse (x := (Cls.eAeh, Direct.eAeh.amp2)) (by simp [Direct.overloads]) mem mem junk junk par ops) (fun j xs l => ?_) j xs l
    refine numeric_result (B := [0, 1, 2, 3]) (D := []) (E := []) hP (by decide +kernel) (by simp) (by simp) (by simp) mem junk _ [] hpar rfl hs hz (fun n hn => ?_) (fun n hn => ?_) j xs l _ (by decide +kernel)
    · have hd : Cls.eAeh.divides.all (fun x => decide (x = (Ty.c, 0) ∨ x = (Ty.c, 1) ∨ x = (Ty.r, 3))) = true := by decide +kernel
      have := List.all_eq_true.mp hd _ hn
      simp at this
      subst this
      exact hv
    · have hd : Cls.eAeh.divides.all (fun x => decide (x = (Ty.c, 0) ∨ x = (Ty.c, 1) ∨ x = (Ty.r, 3))) = true := by decide +kernel
      have := List.all_eq_true.mp hd _ hn
      simp at this
      rcases this with rfl | rfl
      · rw [c0]; norm_num
      · rw [c1]; norm_num

end
end Spinas.Props

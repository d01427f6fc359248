import Verif.Props.Drivers
import Verif.Props.Positive
import Verif.Exact.Standard

/-! C62: the squared amplitudes are functions of `s` and `t` (exact arithmetic). -/

namespace Spinas.Props
open SM Spec Matrix XR Process

noncomputable section
variable [FPEnv]

/-- Two collisions with the same `s` and `t`, given to two objects with the same setup. -/
theorem C62_mandelstam (P : Proc) (hP : P ∈ all) {o o' : Obj XR XC} (h : SameSetup P o o') {m : Nat → ℝ} (hm : ∀ i, i < 4 → (o.w.part i).kin.m = fin (m i))
    (hn : MassesNonzero P o) {q q' : Mom4 ℝ} (hs : ∀ i, i < 4 → OnShell (legs q i) (m i)) (hs' : ∀ i, i < 4 → OnShell (legs q' i) (m i))
    (hb : Balanced (legs q)) (hb' : Balanced (legs q')) (h0 : 0 < mandelstamS (legs q)) (es : mandelstamS (legs q') = mandelstamS (legs q))
    (et : mandelstamT (legs q') = mandelstamT (legs q)) :
    Accepted P o (legs q) ∧ Accepted P o' (legs q') ∧ SameSquares P o o' (legs q) (legs q') := by
  have h3 : ∀ (q : Mom4 ℝ) i, 3 ≤ i → legs q i = legs q 3 := by
    intro q i hi
    match i, hi with
    | _ + 3, _ => rfl
  obtain ⟨A, hA, hp⟩ := rel_of_mandelstam (h3 q) (h3 q') hs hs' hb hb' h0 es et
  exact squares_shell hP h hm hn hs hA hp

end

/-! ### the hypotheses can be met -/

section examples
attribute [local instance] doubleEnv

/-- `exHit`: along z, out along x -/
def exHit4 : Mom4 ℝ := ⟨⟨5, 0, 0, 4⟩, ⟨4, 0, 0, -4⟩, ⟨4, 4, 0, 0⟩, ⟨5, -4, 0, 0⟩⟩

/-- The same seen by an observer moving along y with velocity 3/5, and with other axes. -/
noncomputable def exHit4' : Mom4 ℝ := ⟨⟨25/4, -4, 15/4, 0⟩, ⟨5, 4, 3, 0⟩, ⟨5, 0, 3, -4⟩, ⟨25/4, 0, 15/4, 4⟩⟩

theorem exHit4_onShell (i : Nat) (hi : i < 4) : OnShell (legs exHit4 i) (if i = 0 ∨ i = 3 then 3 else 0) ∧ OnShell (legs exHit4' i) (if i = 0 ∨ i = 3 then 3 else 0) := by
  have : i = 0 ∨ i = 1 ∨ i = 2 ∨ i = 3 := by omega
  rcases this with rfl | rfl | rfl | rfl <;> refine ⟨?_, ?_⟩ <;> constructor <;> norm_num [legs, exHit4, exHit4']

theorem exGlu_nonzero (mem : Nat → XR) : MassesNonzero Cls.dggd (Cls.dggd.construct mem junkK exGlu).2 := by
  intro i hi hm
  rw [exGlu_mass mem i hi]
  have : i = 0 ∨ i = 1 ∨ i = 2 ∨ i = 3 := by omega
  rcases this with rfl | rfl | rfl | rfl
  · simp [Scalar.ne]
  · exact absurd hm (by decide +kernel)
  · exact absurd hm (by decide +kernel)
  · simp [Scalar.ne]

example (mem mem' : Nat → XR) : SameSquares Cls.dggd (Cls.dggd.construct mem junkK exGlu).2 (Cls.dggd.construct mem' junkK exGlu).2 (legs exHit4) (legs exHit4') :=
  (C62_mandelstam Cls.dggd (by simp [all]) ⟨mem, mem', junkK, junkK, exGlu, [], [], by rw [runProcOps], by rw [runProcOps], rfl⟩ (exGlu_mass mem) (exGlu_nonzero mem)
    (fun i hi => (exHit4_onShell i hi).1) (fun i hi => (exHit4_onShell i hi).2)
    (by constructor <;> norm_num [legs, exHit4]) (by constructor <;> norm_num [legs, exHit4'])
    (by norm_num [mandelstamS, msq, legs, exHit4]) (by norm_num [mandelstamS, msq, legs, exHit4, exHit4'])
    (by norm_num [mandelstamT, msq, legs, exHit4, exHit4'])).2.2

/-- here `s = 81` and `t = -31` -/
example : mandelstamS (legs exHit4) = 81 ∧ mandelstamT (legs exHit4) = -31 := by norm_num [mandelstamS, mandelstamT, msq, legs, exHit4]
end examples

end Spinas.Props

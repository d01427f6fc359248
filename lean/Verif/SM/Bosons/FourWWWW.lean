import Verif.SM.BosonRows

/-! Four W bosons, equal before. Generated by tools/bosons/emit.py: for each class its amplitude as a formula in spinors, and the proof that `amp2` is the squared amplitude of the Feynman rules. -/

set_option linter.unusedSimpArgs false
set_option linter.unusedVariables false
set_option linter.unreachableTactic false
set_option linter.unusedTactic false

namespace Spinas.SM.Rows
open Spec Spec.Reaction Props XR Matrix BRow

/-! ### WWWW -/

/-- what the methods of the class see -/
noncomputable abbrev WWWW.N [FPEnv] (c : Constants) (p : Nat → V4 ℝ) : Env := WWWW.proc.env (WWWW.rho c) p
/-- the term that `amp` adds for a choice of spinors (SM/WWWW.cpp) -/
noncomputable def WWWW.term (N : Env) (w : ℝ) (x : ℂ) (a0 b0 a1 b1 a2 b2 a3 b3 : Int) : ℂ :=
  ((((((x + (((((((((-w) * N.r 8) : ℝ) : ℂ) * N.v 11 [a0, a2]) * N.v 10 [b0, b2]) * N.v 4 [a1, a3]) * N.v 5 [b1, b3]) / N.c 0)) + (((((((((-w) * N.r 8) : ℝ) : ℂ) * N.v 9 [a0, a3]) * N.v 8 [b0, b3]) * N.v 6 [a1, a2]) * N.v 7 [b1, b2]) / N.c 1)) + (((((w * N.r 9) : ℝ) : ℂ) * (((((((((((((((((((((((((((((((2 : Nat) : ℝ) * N.r 3) : ℝ) : ℂ) * N.v 5 [a1, a3]) * N.v 2 [a2, b3]) * N.v 0 [a0, b1]) * N.v 11 [b0, b2]) - ((((((N.r 3 : ℝ) : ℂ) * N.v 10 [a0, a2]) * N.v 7 [a1, b2]) * N.v 5 [b1, a3]) * N.v 9 [b0, b3])) + (((((((((2 : Nat) : ℝ) * N.r 3) : ℝ) : ℂ) * N.v 7 [a1, a2]) * N.v 5 [b1, a3]) * N.v 11 [a0, b2]) * N.v 9 [b0, b3])) + ((((((N.r 3 : ℝ) : ℂ) * N.v 1 [a0, b1]) * N.v 2 [a2, a3]) * N.v 11 [b0, b2]) * N.v 4 [a1, b3])) + ((((((N.r 3 : ℝ) : ℂ) * N.v 8 [a0, a3]) * N.v 5 [a1, b3]) * N.v 11 [b0, a2]) * N.v 6 [b1, b2])) + (((((((((2 : Nat) : ℝ) * N.r 3) : ℝ) : ℂ) * N.v 10 [a0, a2]) * N.v 5 [a1, a3]) * N.v 9 [b0, b3]) * N.v 6 [b1, b2])) - ((((((N.r 3 : ℝ) : ℂ) * N.v 5 [a1, a3]) * N.v 11 [a0, a2]) * N.v 9 [b0, b3]) * N.v 6 [b1, b2])) - ((((((N.r 3 : ℝ) : ℂ) * N.v 10 [a0, a2]) * N.v 8 [b0, a3]) * N.v 7 [a1, b2]) * N.v 4 [b1, b3])) + (((((((((2 : Nat) : ℝ) * N.r 3) : ℝ) : ℂ) * N.v 8 [a0, a3]) * N.v 7 [a1, a2]) * N.v 11 [b0, b2]) * N.v 4 [b1, b3])) - (((((((((2 : Nat) : ℝ) * N.r 3) : ℝ) : ℂ) * N.v 10 [a0, a2]) * N.v 5 [a1, a3]) * N.v 11 [b0, b2]) * N.v 4 [b1, b3])) + ((((((N.r 3 : ℝ) : ℂ) * N.v 10 [a0, a2]) * N.v 7 [a1, b2]) * N.v 9 [b0, a3]) * N.v 4 [b1, b3])) + (((((((((2 : Nat) : ℝ) * N.r 3) : ℝ) : ℂ) * N.v 10 [a0, a2]) * N.v 8 [b0, a3]) * N.v 6 [a1, b2]) * N.v 4 [b1, b3])) - ((((((N.r 3 : ℝ) : ℂ) * N.v 8 [a0, a3]) * N.v 11 [b0, a2]) * N.v 6 [a1, b2]) * N.v 4 [b1, b3])) + ((((((N.r 3 : ℝ) : ℂ) * N.v 10 [a0, b2]) * N.v 5 [a1, a3]) * N.v 0 [b0, b1]) * N.v 3 [a2, b3])) + (((((((((2 : Nat) : ℝ) * N.r 3) : ℝ) : ℂ) * N.v 1 [a0, b1]) * N.v 10 [b0, b2]) * N.v 4 [a1, a3]) * N.v 3 [a2, b3])) + (((N.v 10 [a0, a2] * N.v 5 [a1, a3]) * N.v 6 [b1, b2]) * N.v 13 [b0, b3])) + (((N.v 10 [a0, a2] * N.v 7 [a1, b2]) * N.v 4 [b1, a3]) * N.v 13 [b0, b3])) - (((N.v 7 [a1, a2] * N.v 11 [a0, b2]) * N.v 4 [b1, a3]) * N.v 13 [b0, b3])) - (((N.v 10 [a0, a2] * N.v 6 [a1, b2]) * N.v 4 [b1, a3]) * N.v 13 [b0, b3])) - (((N.v 7 [a1, a2] * N.v 5 [b1, a3]) * N.v 11 [a0, b2]) * N.v 12 [b3, b0])) - (((N.v 10 [a0, a2] * N.v 5 [a1, a3]) * N.v 6 [b1, b2]) * N.v 12 [b3, b0])) + (((N.v 5 [a1, a3] * N.v 11 [a0, a2]) * N.v 6 [b1, b2]) * N.v 12 [b3, b0])) + (((N.v 7 [a1, a2] * N.v 11 [a0, b2]) * N.v 4 [b1, a3]) * N.v 12 [b3, b0]))) / N.c 4)) + (((((w * N.r 9) : ℝ) : ℂ) * (((((((((((((((((((((((((((((-N.r 3) : ℝ) : ℂ) * N.v 8 [a0, a3]) * N.v 7 [a1, a2]) * N.v 5 [b1, b3]) * N.v 11 [b0, b2]) - (((((((((2 : Nat) : ℝ) * N.r 3) : ℝ) : ℂ) * N.v 7 [a1, b2]) * N.v 2 [a2, a3]) * N.v 0 [a0, b1]) * N.v 9 [b0, b3])) + (((((((((2 : Nat) : ℝ) * N.r 3) : ℝ) : ℂ) * N.v 7 [a1, a2]) * N.v 5 [b1, a3]) * N.v 11 [a0, b2]) * N.v 9 [b0, b3])) - ((((((N.r 3 : ℝ) : ℂ) * N.v 1 [a0, b1]) * N.v 2 [a2, a3]) * N.v 9 [b0, b3]) * N.v 6 [a1, b2])) - ((((((N.r 3 : ℝ) : ℂ) * N.v 10 [a0, a2]) * N.v 8 [b0, a3]) * N.v 5 [a1, b3]) * N.v 6 [b1, b2])) + ((((((N.r 3 : ℝ) : ℂ) * N.v 8 [a0, a3]) * N.v 5 [a1, b3]) * N.v 11 [b0, a2]) * N.v 6 [b1, b2])) - (((((((((2 : Nat) : ℝ) * N.r 3) : ℝ) : ℂ) * N.v 8 [a0, a3]) * N.v 7 [a1, a2]) * N.v 9 [b0, b3]) * N.v 6 [b1, b2])) + (((((((((2 : Nat) : ℝ) * N.r 3) : ℝ) : ℂ) * N.v 10 [a0, a2]) * N.v 5 [a1, a3]) * N.v 9 [b0, b3]) * N.v 6 [b1, b2])) + (((((((((2 : Nat) : ℝ) * N.r 3) : ℝ) : ℂ) * N.v 8 [a0, a3]) * N.v 7 [a1, a2]) * N.v 11 [b0, b2]) * N.v 4 [b1, b3])) + ((((((N.r 3 : ℝ) : ℂ) * N.v 10 [a0, a2]) * N.v 7 [a1, b2]) * N.v 9 [b0, a3]) * N.v 4 [b1, b3])) - ((((((N.r 3 : ℝ) : ℂ) * N.v 7 [a1, a2]) * N.v 11 [a0, b2]) * N.v 9 [b0, a3]) * N.v 4 [b1, b3])) + (((((((((2 : Nat) : ℝ) * N.r 3) : ℝ) : ℂ) * N.v 10 [a0, a2]) * N.v 8 [b0, a3]) * N.v 6 [a1, b2]) * N.v 4 [b1, b3])) - ((((((N.r 3 : ℝ) : ℂ) * N.v 10 [a0, a2]) * N.v 9 [b0, a3]) * N.v 6 [a1, b2]) * N.v 4 [b1, b3])) - ((((((N.r 3 : ℝ) : ℂ) * N.v 8 [a0, a3]) * N.v 7 [a1, b2]) * N.v 0 [b0, b1]) * N.v 3 [a2, b3])) - (((((((((2 : Nat) : ℝ) * N.r 3) : ℝ) : ℂ) * N.v 1 [a0, b1]) * N.v 8 [b0, a3]) * N.v 6 [a1, b2]) * N.v 3 [a2, b3])) + (((N.v 8 [a0, a3] * N.v 5 [a1, b3]) * N.v 6 [b1, a2]) * N.v 15 [b0, b2])) - (((N.v 5 [a1, a3] * N.v 9 [a0, b3]) * N.v 6 [b1, a2]) * N.v 15 [b0, b2])) + (((N.v 8 [a0, a3] * N.v 7 [a1, a2]) * N.v 4 [b1, b3]) * N.v 15 [b0, b2])) - (((N.v 8 [a0, a3] * N.v 6 [a1, a2]) * N.v 4 [b1, b3]) * N.v 15 [b0, b2])) - (((N.v 7 [a1, a2] * N.v 5 [b1, a3]) * N.v 9 [a0, b3]) * N.v 14 [b2, b0])) + (((N.v 5 [a1, a3] * N.v 9 [a0, b3]) * N.v 6 [b1, a2]) * N.v 14 [b2, b0])) - (((N.v 8 [a0, a3] * N.v 7 [a1, a2]) * N.v 4 [b1, b3]) * N.v 14 [b2, b0])) + (((N.v 7 [a1, a2] * N.v 9 [a0, a3]) * N.v 4 [b1, b3]) * N.v 14 [b2, b0]))) / N.c 5)) + ((((((-w) * N.r 10) : ℝ) : ℂ) * ((((N.r 7 : ℝ) : ℂ) * (((((((((((2 : Nat) : ℝ) : ℝ) : ℂ) * N.v 1 [a0, b1]) * N.v 2 [a2, a3]) * N.v 11 [b0, b2]) * N.v 4 [a1, b3]) - (((N.v 10 [a0, a2] * N.v 5 [a1, a3]) * N.v 9 [b0, b3]) * N.v 6 [b1, b2])) - (((N.v 8 [a0, a3] * N.v 7 [a1, a2]) * N.v 11 [b0, b2]) * N.v 4 [b1, b3])) + (((N.r 6 : ℝ) : ℂ) * (((N.r 6 : ℝ) : ℂ) * ((((((((((((((((((((-((4 : Nat) : ℝ)) : ℝ) : ℂ) * N.v 5 [a1, a3]) * N.v 2 [a2, b3]) * N.v 0 [a0, b1]) * N.v 11 [b0, b2]) + ((((((((3 : Nat) : ℝ) : ℝ) : ℂ) * N.v 10 [a0, a2]) * N.v 7 [a1, b2]) * N.v 5 [b1, a3]) * N.v 9 [b0, b3])) - ((((((((4 : Nat) : ℝ) : ℝ) : ℂ) * N.v 7 [a1, a2]) * N.v 5 [b1, a3]) * N.v 11 [a0, b2]) * N.v 9 [b0, b3])) - ((((((((2 : Nat) : ℝ) : ℝ) : ℂ) * N.v 1 [a0, b1]) * N.v 2 [a2, a3]) * N.v 11 [b0, b2]) * N.v 4 [a1, b3])) - ((((((((3 : Nat) : ℝ) : ℝ) : ℂ) * N.v 8 [a0, a3]) * N.v 5 [a1, b3]) * N.v 11 [b0, a2]) * N.v 6 [b1, b2])) - ((((((((3 : Nat) : ℝ) : ℝ) : ℂ) * N.v 10 [a0, a2]) * N.v 5 [a1, a3]) * N.v 9 [b0, b3]) * N.v 6 [b1, b2])) + (((N.v 5 [a1, a3] * N.v 11 [a0, a2]) * N.v 9 [b0, b3]) * N.v 6 [b1, b2])) + ((((((((3 : Nat) : ℝ) : ℝ) : ℂ) * N.v 10 [a0, a2]) * N.v 8 [b0, a3]) * N.v 7 [a1, b2]) * N.v 4 [b1, b3])) - ((((((((3 : Nat) : ℝ) : ℝ) : ℂ) * N.v 8 [a0, a3]) * N.v 7 [a1, a2]) * N.v 11 [b0, b2]) * N.v 4 [b1, b3])) + ((((((((2 : Nat) : ℝ) : ℝ) : ℂ) * N.v 10 [a0, a2]) * N.v 5 [a1, a3]) * N.v 11 [b0, b2]) * N.v 4 [b1, b3])) - (((N.v 10 [a0, a2] * N.v 7 [a1, b2]) * N.v 9 [b0, a3]) * N.v 4 [b1, b3])) - ((((((((4 : Nat) : ℝ) : ℝ) : ℂ) * N.v 10 [a0, a2]) * N.v 8 [b0, a3]) * N.v 6 [a1, b2]) * N.v 4 [b1, b3])) + (((N.v 8 [a0, a3] * N.v 11 [b0, a2]) * N.v 6 [a1, b2]) * N.v 4 [b1, b3])) - ((((((((4 : Nat) : ℝ) : ℝ) : ℂ) * N.v 1 [a0, b1]) * N.v 10 [b0, b2]) * N.v 4 [a1, a3]) * N.v 3 [a2, b3])))))) + (((N.r 6 : ℝ) : ℂ) * ((((((((((((((-((3 : Nat) : ℝ)) : ℝ) : ℂ) * N.v 10 [a0, a2]) * N.v 5 [a1, a3]) * N.v 6 [b1, b2]) * N.v 13 [b0, b3]) - ((((((((3 : Nat) : ℝ) : ℝ) : ℂ) * N.v 10 [a0, a2]) * N.v 7 [a1, b2]) * N.v 4 [b1, a3]) * N.v 13 [b0, b3])) + (((N.v 7 [a1, a2] * N.v 11 [a0, b2]) * N.v 4 [b1, a3]) * N.v 13 [b0, b3])) + (((N.v 10 [a0, a2] * N.v 6 [a1, b2]) * N.v 4 [b1, a3]) * N.v 13 [b0, b3])) + ((((((((3 : Nat) : ℝ) : ℝ) : ℂ) * N.v 7 [a1, a2]) * N.v 5 [b1, a3]) * N.v 11 [a0, b2]) * N.v 12 [b3, b0])) + ((((((((3 : Nat) : ℝ) : ℝ) : ℂ) * N.v 10 [a0, a2]) * N.v 5 [a1, a3]) * N.v 6 [b1, b2]) * N.v 12 [b3, b0])) - (((N.v 5 [a1, a3] * N.v 11 [a0, a2]) * N.v 6 [b1, b2]) * N.v 12 [b3, b0])) - (((N.v 7 [a1, a2] * N.v 11 [a0, b2]) * N.v 4 [b1, a3]) * N.v 12 [b3, b0]))))) / N.c 2)) + ((((((-w) * N.r 10) : ℝ) : ℂ) * ((((N.r 7 : ℝ) : ℂ) * ((((((((((-((2 : Nat) : ℝ)) : ℝ) : ℂ) * N.v 1 [a0, b1]) * N.v 2 [a2, a3]) * N.v 9 [b0, b3]) * N.v 6 [a1, b2]) - (((N.v 10 [a0, a2] * N.v 5 [a1, a3]) * N.v 9 [b0, b3]) * N.v 6 [b1, b2])) - (((N.v 8 [a0, a3] * N.v 7 [a1, a2]) * N.v 11 [b0, b2]) * N.v 4 [b1, b3])) + (((N.r 6 : ℝ) : ℂ) * (((N.r 6 : ℝ) : ℂ) * (((((((((((((((((((((3 : Nat) : ℝ) : ℝ) : ℂ) * N.v 8 [a0, a3]) * N.v 7 [a1, a2]) * N.v 5 [b1, b3]) * N.v 11 [b0, b2]) + ((((((((4 : Nat) : ℝ) : ℝ) : ℂ) * N.v 7 [a1, b2]) * N.v 2 [a2, a3]) * N.v 0 [a0, b1]) * N.v 9 [b0, b3])) - ((((((((4 : Nat) : ℝ) : ℝ) : ℂ) * N.v 7 [a1, a2]) * N.v 5 [b1, a3]) * N.v 11 [a0, b2]) * N.v 9 [b0, b3])) + ((((((((2 : Nat) : ℝ) : ℝ) : ℂ) * N.v 1 [a0, b1]) * N.v 2 [a2, a3]) * N.v 9 [b0, b3]) * N.v 6 [a1, b2])) + ((((((((3 : Nat) : ℝ) : ℝ) : ℂ) * N.v 10 [a0, a2]) * N.v 8 [b0, a3]) * N.v 5 [a1, b3]) * N.v 6 [b1, b2])) - (((N.v 8 [a0, a3] * N.v 5 [a1, b3]) * N.v 11 [b0, a2]) * N.v 6 [b1, b2])) + ((((((((2 : Nat) : ℝ) : ℝ) : ℂ) * N.v 8 [a0, a3]) * N.v 7 [a1, a2]) * N.v 9 [b0, b3]) * N.v 6 [b1, b2])) - ((((((((3 : Nat) : ℝ) : ℝ) : ℂ) * N.v 10 [a0, a2]) * N.v 5 [a1, a3]) * N.v 9 [b0, b3]) * N.v 6 [b1, b2])) - ((((((((3 : Nat) : ℝ) : ℝ) : ℂ) * N.v 8 [a0, a3]) * N.v 7 [a1, a2]) * N.v 11 [b0, b2]) * N.v 4 [b1, b3])) - ((((((((3 : Nat) : ℝ) : ℝ) : ℂ) * N.v 10 [a0, a2]) * N.v 7 [a1, b2]) * N.v 9 [b0, a3]) * N.v 4 [b1, b3])) + (((N.v 7 [a1, a2] * N.v 11 [a0, b2]) * N.v 9 [b0, a3]) * N.v 4 [b1, b3])) - ((((((((4 : Nat) : ℝ) : ℝ) : ℂ) * N.v 10 [a0, a2]) * N.v 8 [b0, a3]) * N.v 6 [a1, b2]) * N.v 4 [b1, b3])) + (((N.v 10 [a0, a2] * N.v 9 [b0, a3]) * N.v 6 [a1, b2]) * N.v 4 [b1, b3])) + ((((((((4 : Nat) : ℝ) : ℝ) : ℂ) * N.v 1 [a0, b1]) * N.v 8 [b0, a3]) * N.v 6 [a1, b2]) * N.v 3 [a2, b3])))))) + (((N.r 6 : ℝ) : ℂ) * ((((((((((((((-((3 : Nat) : ℝ)) : ℝ) : ℂ) * N.v 8 [a0, a3]) * N.v 5 [a1, b3]) * N.v 6 [b1, a2]) * N.v 15 [b0, b2]) + (((N.v 5 [a1, a3] * N.v 9 [a0, b3]) * N.v 6 [b1, a2]) * N.v 15 [b0, b2])) - ((((((((3 : Nat) : ℝ) : ℝ) : ℂ) * N.v 8 [a0, a3]) * N.v 7 [a1, a2]) * N.v 4 [b1, b3]) * N.v 15 [b0, b2])) + (((N.v 8 [a0, a3] * N.v 6 [a1, a2]) * N.v 4 [b1, b3]) * N.v 15 [b0, b2])) + ((((((((3 : Nat) : ℝ) : ℝ) : ℂ) * N.v 7 [a1, a2]) * N.v 5 [b1, a3]) * N.v 9 [a0, b3]) * N.v 14 [b2, b0])) - (((N.v 5 [a1, a3] * N.v 9 [a0, b3]) * N.v 6 [b1, a2]) * N.v 14 [b2, b0])) + ((((((((3 : Nat) : ℝ) : ℝ) : ℂ) * N.v 8 [a0, a3]) * N.v 7 [a1, a2]) * N.v 4 [b1, b3]) * N.v 14 [b2, b0])) - (((N.v 7 [a1, a2] * N.v 9 [a0, a3]) * N.v 4 [b1, b3]) * N.v 14 [b2, b0]))))) / N.c 3))
/-- the same with spinors in place of their spins -/
noncomputable def WWWW.form (N : Env) (p : Nat → V4 ℝ) (x0 y0 x1 y1 x2 y2 x3 y3 : Pair) : ℂ :=
  ((((((0 + (((((((((-((1 : Nat) : ℝ)) * N.r 8) : ℝ) : ℂ) * (sb x0.2 x2.2)) * (ab y0.1 y2.1)) * (sb x1.2 x3.2)) * (ab y1.1 y3.1)) / N.c 0)) + (((((((((-((1 : Nat) : ℝ)) * N.r 8) : ℝ) : ℂ) * (sb x0.2 x3.2)) * (ab y0.1 y3.1)) * (sb x1.2 x2.2)) * (ab y1.1 y2.1)) / N.c 1)) + (((((((1 : Nat) : ℝ) * N.r 9) : ℝ) : ℂ) * (((((((((((((((((((((((((((((((2 : Nat) : ℝ) * N.r 3) : ℝ) : ℂ) * (ab x1.1 x3.1)) * (ab x2.1 y3.1)) * (sb x0.2 y1.2)) * (sb y0.2 y2.2)) - ((((((N.r 3 : ℝ) : ℂ) * (ab x0.1 x2.1)) * (ab x1.1 y2.1)) * (ab y1.1 x3.1)) * (sb y0.2 y3.2))) + (((((((((2 : Nat) : ℝ) * N.r 3) : ℝ) : ℂ) * (ab x1.1 x2.1)) * (ab y1.1 x3.1)) * (sb x0.2 y2.2)) * (sb y0.2 y3.2))) + ((((((N.r 3 : ℝ) : ℂ) * (ab x0.1 y1.1)) * (ab x2.1 x3.1)) * (sb y0.2 y2.2)) * (sb x1.2 y3.2))) + ((((((N.r 3 : ℝ) : ℂ) * (ab x0.1 x3.1)) * (ab x1.1 y3.1)) * (sb y0.2 x2.2)) * (sb y1.2 y2.2))) + (((((((((2 : Nat) : ℝ) * N.r 3) : ℝ) : ℂ) * (ab x0.1 x2.1)) * (ab x1.1 x3.1)) * (sb y0.2 y3.2)) * (sb y1.2 y2.2))) - ((((((N.r 3 : ℝ) : ℂ) * (ab x1.1 x3.1)) * (sb x0.2 x2.2)) * (sb y0.2 y3.2)) * (sb y1.2 y2.2))) - ((((((N.r 3 : ℝ) : ℂ) * (ab x0.1 x2.1)) * (ab y0.1 x3.1)) * (ab x1.1 y2.1)) * (sb y1.2 y3.2))) + (((((((((2 : Nat) : ℝ) * N.r 3) : ℝ) : ℂ) * (ab x0.1 x3.1)) * (ab x1.1 x2.1)) * (sb y0.2 y2.2)) * (sb y1.2 y3.2))) - (((((((((2 : Nat) : ℝ) * N.r 3) : ℝ) : ℂ) * (ab x0.1 x2.1)) * (ab x1.1 x3.1)) * (sb y0.2 y2.2)) * (sb y1.2 y3.2))) + ((((((N.r 3 : ℝ) : ℂ) * (ab x0.1 x2.1)) * (ab x1.1 y2.1)) * (sb y0.2 x3.2)) * (sb y1.2 y3.2))) + (((((((((2 : Nat) : ℝ) * N.r 3) : ℝ) : ℂ) * (ab x0.1 x2.1)) * (ab y0.1 x3.1)) * (sb x1.2 y2.2)) * (sb y1.2 y3.2))) - ((((((N.r 3 : ℝ) : ℂ) * (ab x0.1 x3.1)) * (sb y0.2 x2.2)) * (sb x1.2 y2.2)) * (sb y1.2 y3.2))) + ((((((N.r 3 : ℝ) : ℂ) * (ab x0.1 y2.1)) * (ab x1.1 x3.1)) * (sb y0.2 y1.2)) * (sb x2.2 y3.2))) + (((((((((2 : Nat) : ℝ) * N.r 3) : ℝ) : ℂ) * (ab x0.1 y1.1)) * (ab y0.1 y2.1)) * (sb x1.2 x3.2)) * (sb x2.2 y3.2))) + ((((ab x0.1 x2.1) * (ab x1.1 x3.1)) * (sb y1.2 y2.2)) * (mb y0.2 (p 2) y3.1))) + ((((ab x0.1 x2.1) * (ab x1.1 y2.1)) * (sb y1.2 x3.2)) * (mb y0.2 (p 2) y3.1))) - ((((ab x1.1 x2.1) * (sb x0.2 y2.2)) * (sb y1.2 x3.2)) * (mb y0.2 (p 2) y3.1))) - ((((ab x0.1 x2.1) * (sb x1.2 y2.2)) * (sb y1.2 x3.2)) * (mb y0.2 (p 2) y3.1))) - ((((ab x1.1 x2.1) * (ab y1.1 x3.1)) * (sb x0.2 y2.2)) * (mb y3.2 (p 2) y0.1))) - ((((ab x0.1 x2.1) * (ab x1.1 x3.1)) * (sb y1.2 y2.2)) * (mb y3.2 (p 2) y0.1))) + ((((ab x1.1 x3.1) * (sb x0.2 x2.2)) * (sb y1.2 y2.2)) * (mb y3.2 (p 2) y0.1))) + ((((ab x1.1 x2.1) * (sb x0.2 y2.2)) * (sb y1.2 x3.2)) * (mb y3.2 (p 2) y0.1)))) / N.c 4)) + (((((((1 : Nat) : ℝ) * N.r 9) : ℝ) : ℂ) * (((((((((((((((((((((((((((((-N.r 3) : ℝ) : ℂ) * (ab x0.1 x3.1)) * (ab x1.1 x2.1)) * (ab y1.1 y3.1)) * (sb y0.2 y2.2)) - (((((((((2 : Nat) : ℝ) * N.r 3) : ℝ) : ℂ) * (ab x1.1 y2.1)) * (ab x2.1 x3.1)) * (sb x0.2 y1.2)) * (sb y0.2 y3.2))) + (((((((((2 : Nat) : ℝ) * N.r 3) : ℝ) : ℂ) * (ab x1.1 x2.1)) * (ab y1.1 x3.1)) * (sb x0.2 y2.2)) * (sb y0.2 y3.2))) - ((((((N.r 3 : ℝ) : ℂ) * (ab x0.1 y1.1)) * (ab x2.1 x3.1)) * (sb y0.2 y3.2)) * (sb x1.2 y2.2))) - ((((((N.r 3 : ℝ) : ℂ) * (ab x0.1 x2.1)) * (ab y0.1 x3.1)) * (ab x1.1 y3.1)) * (sb y1.2 y2.2))) + ((((((N.r 3 : ℝ) : ℂ) * (ab x0.1 x3.1)) * (ab x1.1 y3.1)) * (sb y0.2 x2.2)) * (sb y1.2 y2.2))) - (((((((((2 : Nat) : ℝ) * N.r 3) : ℝ) : ℂ) * (ab x0.1 x3.1)) * (ab x1.1 x2.1)) * (sb y0.2 y3.2)) * (sb y1.2 y2.2))) + (((((((((2 : Nat) : ℝ) * N.r 3) : ℝ) : ℂ) * (ab x0.1 x2.1)) * (ab x1.1 x3.1)) * (sb y0.2 y3.2)) * (sb y1.2 y2.2))) + (((((((((2 : Nat) : ℝ) * N.r 3) : ℝ) : ℂ) * (ab x0.1 x3.1)) * (ab x1.1 x2.1)) * (sb y0.2 y2.2)) * (sb y1.2 y3.2))) + ((((((N.r 3 : ℝ) : ℂ) * (ab x0.1 x2.1)) * (ab x1.1 y2.1)) * (sb y0.2 x3.2)) * (sb y1.2 y3.2))) - ((((((N.r 3 : ℝ) : ℂ) * (ab x1.1 x2.1)) * (sb x0.2 y2.2)) * (sb y0.2 x3.2)) * (sb y1.2 y3.2))) + (((((((((2 : Nat) : ℝ) * N.r 3) : ℝ) : ℂ) * (ab x0.1 x2.1)) * (ab y0.1 x3.1)) * (sb x1.2 y2.2)) * (sb y1.2 y3.2))) - ((((((N.r 3 : ℝ) : ℂ) * (ab x0.1 x2.1)) * (sb y0.2 x3.2)) * (sb x1.2 y2.2)) * (sb y1.2 y3.2))) - ((((((N.r 3 : ℝ) : ℂ) * (ab x0.1 x3.1)) * (ab x1.1 y2.1)) * (sb y0.2 y1.2)) * (sb x2.2 y3.2))) - (((((((((2 : Nat) : ℝ) * N.r 3) : ℝ) : ℂ) * (ab x0.1 y1.1)) * (ab y0.1 x3.1)) * (sb x1.2 y2.2)) * (sb x2.2 y3.2))) + ((((ab x0.1 x3.1) * (ab x1.1 y3.1)) * (sb y1.2 x2.2)) * (mb y0.2 (p 3) y2.1))) - ((((ab x1.1 x3.1) * (sb x0.2 y3.2)) * (sb y1.2 x2.2)) * (mb y0.2 (p 3) y2.1))) + ((((ab x0.1 x3.1) * (ab x1.1 x2.1)) * (sb y1.2 y3.2)) * (mb y0.2 (p 3) y2.1))) - ((((ab x0.1 x3.1) * (sb x1.2 x2.2)) * (sb y1.2 y3.2)) * (mb y0.2 (p 3) y2.1))) - ((((ab x1.1 x2.1) * (ab y1.1 x3.1)) * (sb x0.2 y3.2)) * (mb y2.2 (p 3) y0.1))) + ((((ab x1.1 x3.1) * (sb x0.2 y3.2)) * (sb y1.2 x2.2)) * (mb y2.2 (p 3) y0.1))) - ((((ab x0.1 x3.1) * (ab x1.1 x2.1)) * (sb y1.2 y3.2)) * (mb y2.2 (p 3) y0.1))) + ((((ab x1.1 x2.1) * (sb x0.2 x3.2)) * (sb y1.2 y3.2)) * (mb y2.2 (p 3) y0.1)))) / N.c 5)) + ((((((-((1 : Nat) : ℝ)) * N.r 10) : ℝ) : ℂ) * ((((N.r 7 : ℝ) : ℂ) * (((((((((((2 : Nat) : ℝ) : ℝ) : ℂ) * (ab x0.1 y1.1)) * (ab x2.1 x3.1)) * (sb y0.2 y2.2)) * (sb x1.2 y3.2)) - ((((ab x0.1 x2.1) * (ab x1.1 x3.1)) * (sb y0.2 y3.2)) * (sb y1.2 y2.2))) - ((((ab x0.1 x3.1) * (ab x1.1 x2.1)) * (sb y0.2 y2.2)) * (sb y1.2 y3.2))) + (((N.r 6 : ℝ) : ℂ) * (((N.r 6 : ℝ) : ℂ) * ((((((((((((((((((((-((4 : Nat) : ℝ)) : ℝ) : ℂ) * (ab x1.1 x3.1)) * (ab x2.1 y3.1)) * (sb x0.2 y1.2)) * (sb y0.2 y2.2)) + ((((((((3 : Nat) : ℝ) : ℝ) : ℂ) * (ab x0.1 x2.1)) * (ab x1.1 y2.1)) * (ab y1.1 x3.1)) * (sb y0.2 y3.2))) - ((((((((4 : Nat) : ℝ) : ℝ) : ℂ) * (ab x1.1 x2.1)) * (ab y1.1 x3.1)) * (sb x0.2 y2.2)) * (sb y0.2 y3.2))) - ((((((((2 : Nat) : ℝ) : ℝ) : ℂ) * (ab x0.1 y1.1)) * (ab x2.1 x3.1)) * (sb y0.2 y2.2)) * (sb x1.2 y3.2))) - ((((((((3 : Nat) : ℝ) : ℝ) : ℂ) * (ab x0.1 x3.1)) * (ab x1.1 y3.1)) * (sb y0.2 x2.2)) * (sb y1.2 y2.2))) - ((((((((3 : Nat) : ℝ) : ℝ) : ℂ) * (ab x0.1 x2.1)) * (ab x1.1 x3.1)) * (sb y0.2 y3.2)) * (sb y1.2 y2.2))) + ((((ab x1.1 x3.1) * (sb x0.2 x2.2)) * (sb y0.2 y3.2)) * (sb y1.2 y2.2))) + ((((((((3 : Nat) : ℝ) : ℝ) : ℂ) * (ab x0.1 x2.1)) * (ab y0.1 x3.1)) * (ab x1.1 y2.1)) * (sb y1.2 y3.2))) - ((((((((3 : Nat) : ℝ) : ℝ) : ℂ) * (ab x0.1 x3.1)) * (ab x1.1 x2.1)) * (sb y0.2 y2.2)) * (sb y1.2 y3.2))) + ((((((((2 : Nat) : ℝ) : ℝ) : ℂ) * (ab x0.1 x2.1)) * (ab x1.1 x3.1)) * (sb y0.2 y2.2)) * (sb y1.2 y3.2))) - ((((ab x0.1 x2.1) * (ab x1.1 y2.1)) * (sb y0.2 x3.2)) * (sb y1.2 y3.2))) - ((((((((4 : Nat) : ℝ) : ℝ) : ℂ) * (ab x0.1 x2.1)) * (ab y0.1 x3.1)) * (sb x1.2 y2.2)) * (sb y1.2 y3.2))) + ((((ab x0.1 x3.1) * (sb y0.2 x2.2)) * (sb x1.2 y2.2)) * (sb y1.2 y3.2))) - ((((((((4 : Nat) : ℝ) : ℝ) : ℂ) * (ab x0.1 y1.1)) * (ab y0.1 y2.1)) * (sb x1.2 x3.2)) * (sb x2.2 y3.2))))))) + (((N.r 6 : ℝ) : ℂ) * ((((((((((((((-((3 : Nat) : ℝ)) : ℝ) : ℂ) * (ab x0.1 x2.1)) * (ab x1.1 x3.1)) * (sb y1.2 y2.2)) * (mb y0.2 (p 2) y3.1)) - ((((((((3 : Nat) : ℝ) : ℝ) : ℂ) * (ab x0.1 x2.1)) * (ab x1.1 y2.1)) * (sb y1.2 x3.2)) * (mb y0.2 (p 2) y3.1))) + ((((ab x1.1 x2.1) * (sb x0.2 y2.2)) * (sb y1.2 x3.2)) * (mb y0.2 (p 2) y3.1))) + ((((ab x0.1 x2.1) * (sb x1.2 y2.2)) * (sb y1.2 x3.2)) * (mb y0.2 (p 2) y3.1))) + ((((((((3 : Nat) : ℝ) : ℝ) : ℂ) * (ab x1.1 x2.1)) * (ab y1.1 x3.1)) * (sb x0.2 y2.2)) * (mb y3.2 (p 2) y0.1))) + ((((((((3 : Nat) : ℝ) : ℝ) : ℂ) * (ab x0.1 x2.1)) * (ab x1.1 x3.1)) * (sb y1.2 y2.2)) * (mb y3.2 (p 2) y0.1))) - ((((ab x1.1 x3.1) * (sb x0.2 x2.2)) * (sb y1.2 y2.2)) * (mb y3.2 (p 2) y0.1))) - ((((ab x1.1 x2.1) * (sb x0.2 y2.2)) * (sb y1.2 x3.2)) * (mb y3.2 (p 2) y0.1)))))) / N.c 2)) + ((((((-((1 : Nat) : ℝ)) * N.r 10) : ℝ) : ℂ) * ((((N.r 7 : ℝ) : ℂ) * ((((((((((-((2 : Nat) : ℝ)) : ℝ) : ℂ) * (ab x0.1 y1.1)) * (ab x2.1 x3.1)) * (sb y0.2 y3.2)) * (sb x1.2 y2.2)) - ((((ab x0.1 x2.1) * (ab x1.1 x3.1)) * (sb y0.2 y3.2)) * (sb y1.2 y2.2))) - ((((ab x0.1 x3.1) * (ab x1.1 x2.1)) * (sb y0.2 y2.2)) * (sb y1.2 y3.2))) + (((N.r 6 : ℝ) : ℂ) * (((N.r 6 : ℝ) : ℂ) * (((((((((((((((((((((3 : Nat) : ℝ) : ℝ) : ℂ) * (ab x0.1 x3.1)) * (ab x1.1 x2.1)) * (ab y1.1 y3.1)) * (sb y0.2 y2.2)) + ((((((((4 : Nat) : ℝ) : ℝ) : ℂ) * (ab x1.1 y2.1)) * (ab x2.1 x3.1)) * (sb x0.2 y1.2)) * (sb y0.2 y3.2))) - ((((((((4 : Nat) : ℝ) : ℝ) : ℂ) * (ab x1.1 x2.1)) * (ab y1.1 x3.1)) * (sb x0.2 y2.2)) * (sb y0.2 y3.2))) + ((((((((2 : Nat) : ℝ) : ℝ) : ℂ) * (ab x0.1 y1.1)) * (ab x2.1 x3.1)) * (sb y0.2 y3.2)) * (sb x1.2 y2.2))) + ((((((((3 : Nat) : ℝ) : ℝ) : ℂ) * (ab x0.1 x2.1)) * (ab y0.1 x3.1)) * (ab x1.1 y3.1)) * (sb y1.2 y2.2))) - ((((ab x0.1 x3.1) * (ab x1.1 y3.1)) * (sb y0.2 x2.2)) * (sb y1.2 y2.2))) + ((((((((2 : Nat) : ℝ) : ℝ) : ℂ) * (ab x0.1 x3.1)) * (ab x1.1 x2.1)) * (sb y0.2 y3.2)) * (sb y1.2 y2.2))) - ((((((((3 : Nat) : ℝ) : ℝ) : ℂ) * (ab x0.1 x2.1)) * (ab x1.1 x3.1)) * (sb y0.2 y3.2)) * (sb y1.2 y2.2))) - ((((((((3 : Nat) : ℝ) : ℝ) : ℂ) * (ab x0.1 x3.1)) * (ab x1.1 x2.1)) * (sb y0.2 y2.2)) * (sb y1.2 y3.2))) - ((((((((3 : Nat) : ℝ) : ℝ) : ℂ) * (ab x0.1 x2.1)) * (ab x1.1 y2.1)) * (sb y0.2 x3.2)) * (sb y1.2 y3.2))) + ((((ab x1.1 x2.1) * (sb x0.2 y2.2)) * (sb y0.2 x3.2)) * (sb y1.2 y3.2))) - ((((((((4 : Nat) : ℝ) : ℝ) : ℂ) * (ab x0.1 x2.1)) * (ab y0.1 x3.1)) * (sb x1.2 y2.2)) * (sb y1.2 y3.2))) + ((((ab x0.1 x2.1) * (sb y0.2 x3.2)) * (sb x1.2 y2.2)) * (sb y1.2 y3.2))) + ((((((((4 : Nat) : ℝ) : ℝ) : ℂ) * (ab x0.1 y1.1)) * (ab y0.1 x3.1)) * (sb x1.2 y2.2)) * (sb x2.2 y3.2))))))) + (((N.r 6 : ℝ) : ℂ) * ((((((((((((((-((3 : Nat) : ℝ)) : ℝ) : ℂ) * (ab x0.1 x3.1)) * (ab x1.1 y3.1)) * (sb y1.2 x2.2)) * (mb y0.2 (p 3) y2.1)) + ((((ab x1.1 x3.1) * (sb x0.2 y3.2)) * (sb y1.2 x2.2)) * (mb y0.2 (p 3) y2.1))) - ((((((((3 : Nat) : ℝ) : ℝ) : ℂ) * (ab x0.1 x3.1)) * (ab x1.1 x2.1)) * (sb y1.2 y3.2)) * (mb y0.2 (p 3) y2.1))) + ((((ab x0.1 x3.1) * (sb x1.2 x2.2)) * (sb y1.2 y3.2)) * (mb y0.2 (p 3) y2.1))) + ((((((((3 : Nat) : ℝ) : ℝ) : ℂ) * (ab x1.1 x2.1)) * (ab y1.1 x3.1)) * (sb x0.2 y3.2)) * (mb y2.2 (p 3) y0.1))) - ((((ab x1.1 x3.1) * (sb x0.2 y3.2)) * (sb y1.2 x2.2)) * (mb y2.2 (p 3) y0.1))) + ((((((((3 : Nat) : ℝ) : ℝ) : ℂ) * (ab x0.1 x3.1)) * (ab x1.1 x2.1)) * (sb y1.2 y3.2)) * (mb y2.2 (p 3) y0.1))) - ((((ab x1.1 x2.1) * (sb x0.2 x3.2)) * (sb y1.2 y3.2)) * (mb y2.2 (p 3) y0.1)))))) / N.c 3))
set_option maxHeartbeats 8000000 in
theorem WWWW.key {c : Constants} {p : Nat → V4 ℝ} {N : Env} (hc : c.Physical) (hb : Balanced p) (r3 : N.r 3 = c.MW) (r6 : N.r 6 = c.CW) (r7 : N.r 7 = (c.MW / c.CW)) (r8 : N.r 8 = ((c.e * c.e) / (((c.MW * c.MW) * c.SW) * c.SW))) (r9 : N.r 9 = ((c.e * c.e) / ((c.MW * c.MW) * c.MW))) (r10 : N.r 10 = ((c.e * c.e) / (((((((2 : Nat) : ℝ) * c.MW) * c.MW) * (c.MW / c.CW)) * c.SW) * c.SW))) (d0 : pole c.MH c.WH (plus (p 0) (backward (p 2))) = N.c 0) (n0 : N.c 0 ≠ 0) (d1 : pole c.MH c.WH (plus (p 0) (backward (p 3))) = N.c 1) (n1 : N.c 1 ≠ 0) (d2 : pole c.MZ c.WZ (plus (p 0) (backward (p 2))) = N.c 2) (n2 : N.c 2 ≠ 0) (d3 : pole c.MZ c.WZ (plus (p 0) (backward (p 3))) = N.c 3) (n3 : N.c 3 ≠ 0) (d4 : pole 0 0 (plus (p 0) (backward (p 2))) = N.c 4) (n4 : N.c 4 ≠ 0) (d5 : pole 0 0 (plus (p 0) (backward (p 3))) = N.c 5) (n5 : N.c 5 ≠ 0) {z0 z1 z2 z3 : Pair} (b0 : Bold (p 0) c.MW z0) (b1 : Bold (p 1) c.MW z1) (b2 : Bold (p 2) c.MW z2) (b3 : Bold (p 3) c.MW z3) (q0 : msq (p 0) = c.MW ^ 2) (q1 : msq (p 1) = c.MW ^ 2) (q2 : msq (p 2) = c.MW ^ 2) (q3 : msq (p 3) = c.MW ^ 2) (hWZ : c.WZ = 0) :
    WWWW.form N p z0 z0 z1 z1 z2 z2 z3 z3 = ((4 / (c.MW * c.MW * c.MW * c.MW) : ℝ) : ℂ) * WWWW.react.bare4 c p (pv z0.1 z0.2) (pv z1.1 z1.2) (pv z2.1 z2.2) (pv z3.1 z3.2) := by
  rw [WWWW.react.bare4_parts c p (b₀ := .wPlus) (b₁ := .wPlus) (b₂ := .wMinus) (b₃ := .wMinus) rfl rfl rfl rfl, WWWW.form]
  have Y0 := b0; have Q0 := q0
  have Y1 := b1; have Q1 := q1
  have Y2 := b2.back; have Q2 : msq (backward (p 2)) = (-c.MW) ^ 2 := by rw [msq_backward, q2, neg_sq]
  have Y3 := b3.back; have Q3 : msq (backward (p 3)) = (-c.MW) ^ 2 := by rw [msq_backward, q3, neg_sq]
  generalize hS : msq (plus (p 0) (p 1)) = tS
  generalize hT : msq (plus (p 0) (backward (p 2))) = tT
  obtain ⟨e01, e23, e02, e13, e03, e12, hU⟩ := dots_balanced hb q0 q1 q2 q3 hS hT
  have x2 : N.c 2 = ((tT - c.MZ ^ 2 : ℝ) : ℂ) := by rw [← d2, pole_narrow hWZ hT]
  have x3 : N.c 3 = (((c.MW ^ 2 + c.MW ^ 2 + c.MW ^ 2 + c.MW ^ 2 - tS - tT) - c.MZ ^ 2 : ℝ) : ℂ) := by rw [← d3, pole_narrow hWZ hU]
  have x4 : N.c 4 = ((tT - (0 : ℝ) ^ 2 : ℝ) : ℂ) := by rw [← d4, pole_narrow rfl hT]
  have x5 : N.c 5 = (((c.MW ^ 2 + c.MW ^ 2 + c.MW ^ 2 + c.MW ^ 2 - tS - tT) - (0 : ℝ) ^ 2 : ℝ) : ℂ) := by rw [← d5, pole_narrow rfl hU]
  have i0 := ab_schouten z1.1 z2.1 z3.1 z0.1
  have i1 := sb_schouten z1.2 z2.2 z3.2 z0.2
  have i2 := mb_schouten_right z0.2 (p 1) z0.1 z1.1 z2.1
  have i3 := mb_schouten_left z0.2 z1.2 z2.2 (p 1) z0.1
  have i4 := mb_schouten_right z0.2 (p 1) z0.1 z1.1 z3.1
  have i5 := mb_schouten_left z0.2 z1.2 z3.2 (p 1) z0.1
  have i6 := mb_schouten_right z0.2 (p 1) z0.1 z2.1 z3.1
  have i7 := mb_schouten_left z0.2 z2.2 z3.2 (p 1) z0.1
  have i8 := mb_schouten_right z0.2 (p 1) z1.1 z2.1 z3.1
  have i9 := mb_schouten_left z1.2 z2.2 z3.2 (p 1) z0.1
  have i10 := mb_schouten_right z0.2 (p 2) z0.1 z1.1 z2.1
  have i11 := mb_schouten_left z0.2 z1.2 z2.2 (p 2) z0.1
  have i12 := mb_schouten_right z0.2 (p 2) z0.1 z1.1 z3.1
  have i13 := mb_schouten_left z0.2 z1.2 z3.2 (p 2) z0.1
  have i14 := mb_schouten_right z0.2 (p 2) z0.1 z2.1 z3.1
  have i15 := mb_schouten_left z0.2 z2.2 z3.2 (p 2) z0.1
  have i16 := mb_schouten_right z0.2 (p 2) z1.1 z2.1 z3.1
  have i17 := mb_schouten_left z1.2 z2.2 z3.2 (p 2) z0.1
  have i18 := mb_schouten_right z1.2 (p 0) z0.1 z1.1 z2.1
  have i19 := mb_schouten_left z0.2 z1.2 z2.2 (p 0) z1.1
  have i20 := mb_schouten_right z1.2 (p 0) z0.1 z1.1 z3.1
  have i21 := mb_schouten_left z0.2 z1.2 z3.2 (p 0) z1.1
  have i22 := mb_schouten_right z1.2 (p 0) z0.1 z2.1 z3.1
  have i23 := mb_schouten_left z0.2 z2.2 z3.2 (p 0) z1.1
  have i24 := mb_schouten_left z1.2 z2.2 z3.2 (p 0) z1.1
  have i25 := mb_schouten_right z1.2 (p 2) z0.1 z1.1 z2.1
  have i26 := mb_schouten_left z0.2 z1.2 z2.2 (p 2) z1.1
  have i27 := mb_schouten_right z1.2 (p 2) z0.1 z1.1 z3.1
  have i28 := mb_schouten_left z0.2 z1.2 z3.2 (p 2) z1.1
  have i29 := mb_schouten_right z1.2 (p 2) z0.1 z2.1 z3.1
  have i30 := mb_schouten_left z0.2 z2.2 z3.2 (p 2) z1.1
  have i31 := mb_schouten_left z1.2 z2.2 z3.2 (p 2) z1.1
  have i32 := mb_schouten_right z2.2 (p 0) z0.1 z1.1 z2.1
  have i33 := mb_schouten_left z0.2 z1.2 z2.2 (p 0) z2.1
  have i34 := mb_schouten_right z2.2 (p 0) z0.1 z2.1 z3.1
  have i35 := mb_schouten_right z2.2 (p 1) z0.1 z1.1 z2.1
  have i36 := mb_schouten_left z0.2 z1.2 z2.2 (p 1) z2.1
  have i37 := mb_schouten_right z2.2 (p 1) z0.1 z2.1 z3.1
  have i38 := mb_schouten_right z3.2 (p 0) z0.1 z1.1 z3.1
  have i39 := mb_schouten_left z0.2 z1.2 z3.2 (p 0) z3.1
  have i40 := mb_schouten_right z3.2 (p 0) z0.1 z2.1 z3.1
  have i41 := mb_schouten_right z3.2 (p 1) z0.1 z1.1 z3.1
  have i42 := mb_schouten_left z0.2 z1.2 z3.2 (p 1) z3.1
  have i43 := mb_schouten_right z3.2 (p 1) z0.1 z2.1 z3.1
  have i44 := mb_det z0.2 z1.2 (plus (p 0) (p 1)) z0.1 z2.1
  have i45 := mb_det z0.2 z2.2 (plus (p 0) (p 1)) z0.1 z1.1
  have i46 := mb_det z0.2 z2.2 (plus (p 0) (p 1)) z0.1 z2.1
  have i47 := mb_det z0.2 z1.2 (plus (p 0) (backward (p 2))) z0.1 z1.1
  have i48 := mb_det z0.2 z1.2 (plus (p 0) (backward (p 2))) z0.1 z2.1
  have i49 := mb_det z0.2 z2.2 (plus (p 0) (backward (p 2))) z0.1 z1.1
  try simp only [mb_plus, mb_backward, hS, hT, hU, q0, q1, q2, q3] at i0 i1 i2 i3 i4 i5 i6 i7 i8 i9 i10 i11 i12 i13 i14 i15 i16 i17 i18 i19 i20 i21 i22 i23 i24 i25 i26 i27 i28 i29 i30 i31 i32 i33 i34 i35 i36 i37 i38 i39 i40 i41 i42 i43 i44 i45 i46 i47 i48 i49
  simp only [b0.mb_left, b0.mb_right, b1.mb_left, b1.mb_right, b2.mb_left, b2.mb_right, b3.mb_left, b3.mb_right, mb_three hb z0.2 z0.1, mb_three hb z0.2 z1.1, mb_three hb z0.2 z2.1, mb_two hb z0.2 z3.1, mb_three hb z1.2 z0.1, mb_three hb z1.2 z1.1, mb_three hb z1.2 z2.1, mb_two hb z1.2 z3.1, mb_three hb z2.2 z0.1, mb_three hb z2.2 z1.1, mb_three hb z2.2 z2.1, mb_one hb z2.2 z3.1, mb_two hb z3.2 z0.1, mb_two hb z3.2 z1.1, mb_one hb z3.2 z2.1, mb_two hb z3.2 z3.1, ab_self, sb_self] at i0 i1 i2 i3 i4 i5 i6 i7 i8 i9 i10 i11 i12 i13 i14 i15 i16 i17 i18 i19 i20 i21 i22 i23 i24 i25 i26 i27 i28 i29 i30 i31 i32 i33 i34 i35 i36 i37 i38 i39 i40 i41 i42 i43 i44 i45 i46 i47 i48 i49
  try simp only [ab_swap z0.1 z1.1, sb_swap z0.2 z1.2, ab_swap z0.1 z2.1, sb_swap z0.2 z2.2, ab_swap z0.1 z3.1, sb_swap z0.2 z3.2, ab_swap z1.1 z2.1, sb_swap z1.2 z2.2, ab_swap z1.1 z3.1, sb_swap z1.2 z3.2, ab_swap z2.1 z3.1, sb_swap z2.2 z3.2] at i0 i1 i2 i3 i4 i5 i6 i7 i8 i9 i10 i11 i12 i13 i14 i15 i16 i17 i18 i19 i20 i21 i22 i23 i24 i25 i26 i27 i28 i29 i30 i31 i32 i33 i34 i35 i36 i37 i38 i39 i40 i41 i42 i43 i44 i45 i46 i47 i48 i49
  push_cast at i0 i1 i2 i3 i4 i5 i6 i7 i8 i9 i10 i11 i12 i13 i14 i15 i16 i17 i18 i19 i20 i21 i22 i23 i24 i25 i26 i27 i28 i29 i30 i31 i32 i33 i34 i35 i36 i37 i38 i39 i40 i41 i42 i43 i44 i45 i46 i47 i48 i49
  simp only [contact, seagull, gauge4, between, carriers, List.map_cons, List.map_nil, List.sum_cons, List.sum_nil, carry_massive c .z (hx := (rfl : Boson.massive .z = true)), carry_massive c .wPlus (hx := (rfl : Boson.massive .wPlus = true)), carry_massive c .wMinus (hx := (rfl : Boson.massive .wMinus = true)), carry_massless c .photon (hx := rfl)]
  simp only [toHiggs, toVector, higgs2, gauge3, Boson.anti, Constants.bosonMass, Constants.bosonWidth, reduceCtorEq, and_self, and_true, and_false, true_and, false_and, if_true, if_false, Complex.ofReal_zero, zero_smul, zero_mul, mul_zero, zero_div, neg_zero, add_zero, zero_add, sub_zero, sub_self, contract_zero, contract_zero_left, contract_smul, contract_smul_left, d0, d1, d2, d3, d4, d5, four_yangMills Y0 Y1 Q0 Q1, four_yangMills Y0 Y2 Q0 Q2, four_yangMills Y0 Y3 Q0 Q3, four_yangMills Y1 Y2 Q1 Q2, four_yangMills Y1 Y3 Q1 Q3, four_yangMills Y2 Y3 Q2 Q3]
  try simp only [yangMills_pv Y0 Y1, yangMills_pv Y0 Y2, yangMills_pv Y0 Y3, yangMills_pv Y1 Y2, yangMills_pv Y1 Y3, yangMills_pv Y2 Y3, contract_add, contract_add_left, contract_smul, contract_smul_left, contract_four_four, dot_backward_left, dot_backward_right, dot_plus_left, dot_same, q0, q1, q2, q3, dot_comm (p 1) (p 0), dot_comm (p 2) (p 0), dot_comm (p 3) (p 0), dot_comm (p 2) (p 1), dot_comm (p 3) (p 1), dot_comm (p 3) (p 2), e01, e23, e02, e13, e03, e12]
  try simp only [contract_four_pv, contract_pv_four, contract_pv, mb_plus, mb_backward]
  try simp only [b0.mb_left, b0.mb_right, b1.mb_left, b1.mb_right, b2.mb_left, b2.mb_right, b3.mb_left, b3.mb_right, mb_three hb z0.2 z0.1, mb_three hb z0.2 z1.1, mb_three hb z0.2 z2.1, mb_two hb z0.2 z3.1, mb_three hb z1.2 z0.1, mb_three hb z1.2 z1.1, mb_three hb z1.2 z2.1, mb_two hb z1.2 z3.1, mb_three hb z2.2 z0.1, mb_three hb z2.2 z1.1, mb_three hb z2.2 z2.1, mb_one hb z2.2 z3.1, mb_two hb z3.2 z0.1, mb_two hb z3.2 z1.1, mb_one hb z3.2 z2.1, mb_two hb z3.2 z3.1, ab_self, sb_self]
  try simp only [ab_swap z0.1 z1.1, sb_swap z0.2 z1.2, ab_swap z0.1 z2.1, sb_swap z0.2 z2.2, ab_swap z0.1 z3.1, sb_swap z0.2 z3.2, ab_swap z1.1 z2.1, sb_swap z1.2 z2.2, ab_swap z1.1 z3.1, sb_swap z1.2 z3.2, ab_swap z2.1 z3.1, sb_swap z2.2 z3.2]
  simp only [r3, r6, r7, r8, r9, r10, Constants.invVev, ← c.mz]
  have xMW : (c.MW : ℂ) ≠ 0 := by exact_mod_cast hc.MW
  have xSW : (c.SW : ℂ) ≠ 0 := by exact_mod_cast hc.SW
  have xCW : (c.CW : ℂ) ≠ 0 := by exact_mod_cast hc.CW
  have y2 : ((√2 : ℝ) : ℂ) ≠ 0 := by exact_mod_cast (Real.sqrt_pos.2 two_pos).ne'
  have y22 : ((√2 : ℝ) : ℂ) ^ 2 = 2 := by rw [← Complex.ofReal_pow, Real.sq_sqrt two_pos.le]; norm_num
  push_cast
  push_cast at x2
  push_cast at x3
  push_cast at x4
  push_cast at x5
  generalize ab z0.1 z1.1 = a01 at i0 i1 i2 i3 i4 i5 i6 i7 i8 i9 i10 i11 i12 i13 i14 i15 i16 i17 i18 i19 i20 i21 i22 i23 i24 i25 i26 i27 i28 i29 i30 i31 i32 i33 i34 i35 i36 i37 i38 i39 i40 i41 i42 i43 i44 i45 i46 i47 i48 i49 ⊢
  generalize ab z0.1 z2.1 = a02 at i0 i1 i2 i3 i4 i5 i6 i7 i8 i9 i10 i11 i12 i13 i14 i15 i16 i17 i18 i19 i20 i21 i22 i23 i24 i25 i26 i27 i28 i29 i30 i31 i32 i33 i34 i35 i36 i37 i38 i39 i40 i41 i42 i43 i44 i45 i46 i47 i48 i49 ⊢
  generalize ab z0.1 z3.1 = a03 at i0 i1 i2 i3 i4 i5 i6 i7 i8 i9 i10 i11 i12 i13 i14 i15 i16 i17 i18 i19 i20 i21 i22 i23 i24 i25 i26 i27 i28 i29 i30 i31 i32 i33 i34 i35 i36 i37 i38 i39 i40 i41 i42 i43 i44 i45 i46 i47 i48 i49 ⊢
  generalize ab z1.1 z2.1 = a12 at i0 i1 i2 i3 i4 i5 i6 i7 i8 i9 i10 i11 i12 i13 i14 i15 i16 i17 i18 i19 i20 i21 i22 i23 i24 i25 i26 i27 i28 i29 i30 i31 i32 i33 i34 i35 i36 i37 i38 i39 i40 i41 i42 i43 i44 i45 i46 i47 i48 i49 ⊢
  generalize ab z1.1 z3.1 = a13 at i0 i1 i2 i3 i4 i5 i6 i7 i8 i9 i10 i11 i12 i13 i14 i15 i16 i17 i18 i19 i20 i21 i22 i23 i24 i25 i26 i27 i28 i29 i30 i31 i32 i33 i34 i35 i36 i37 i38 i39 i40 i41 i42 i43 i44 i45 i46 i47 i48 i49 ⊢
  generalize ab z2.1 z3.1 = a23 at i0 i1 i2 i3 i4 i5 i6 i7 i8 i9 i10 i11 i12 i13 i14 i15 i16 i17 i18 i19 i20 i21 i22 i23 i24 i25 i26 i27 i28 i29 i30 i31 i32 i33 i34 i35 i36 i37 i38 i39 i40 i41 i42 i43 i44 i45 i46 i47 i48 i49 ⊢
  generalize mb z0.2 (p 1) z0.1 = m010 at i0 i1 i2 i3 i4 i5 i6 i7 i8 i9 i10 i11 i12 i13 i14 i15 i16 i17 i18 i19 i20 i21 i22 i23 i24 i25 i26 i27 i28 i29 i30 i31 i32 i33 i34 i35 i36 i37 i38 i39 i40 i41 i42 i43 i44 i45 i46 i47 i48 i49 ⊢
  generalize mb z0.2 (p 1) z2.1 = m012 at i0 i1 i2 i3 i4 i5 i6 i7 i8 i9 i10 i11 i12 i13 i14 i15 i16 i17 i18 i19 i20 i21 i22 i23 i24 i25 i26 i27 i28 i29 i30 i31 i32 i33 i34 i35 i36 i37 i38 i39 i40 i41 i42 i43 i44 i45 i46 i47 i48 i49 ⊢
  generalize mb z0.2 (p 1) z3.1 = m013 at i0 i1 i2 i3 i4 i5 i6 i7 i8 i9 i10 i11 i12 i13 i14 i15 i16 i17 i18 i19 i20 i21 i22 i23 i24 i25 i26 i27 i28 i29 i30 i31 i32 i33 i34 i35 i36 i37 i38 i39 i40 i41 i42 i43 i44 i45 i46 i47 i48 i49 ⊢
  generalize mb z0.2 (p 2) z0.1 = m020 at i0 i1 i2 i3 i4 i5 i6 i7 i8 i9 i10 i11 i12 i13 i14 i15 i16 i17 i18 i19 i20 i21 i22 i23 i24 i25 i26 i27 i28 i29 i30 i31 i32 i33 i34 i35 i36 i37 i38 i39 i40 i41 i42 i43 i44 i45 i46 i47 i48 i49 ⊢
  generalize mb z0.2 (p 2) z1.1 = m021 at i0 i1 i2 i3 i4 i5 i6 i7 i8 i9 i10 i11 i12 i13 i14 i15 i16 i17 i18 i19 i20 i21 i22 i23 i24 i25 i26 i27 i28 i29 i30 i31 i32 i33 i34 i35 i36 i37 i38 i39 i40 i41 i42 i43 i44 i45 i46 i47 i48 i49 ⊢
  generalize mb z1.2 (p 0) z1.1 = m101 at i0 i1 i2 i3 i4 i5 i6 i7 i8 i9 i10 i11 i12 i13 i14 i15 i16 i17 i18 i19 i20 i21 i22 i23 i24 i25 i26 i27 i28 i29 i30 i31 i32 i33 i34 i35 i36 i37 i38 i39 i40 i41 i42 i43 i44 i45 i46 i47 i48 i49 ⊢
  generalize mb z1.2 (p 0) z2.1 = m102 at i0 i1 i2 i3 i4 i5 i6 i7 i8 i9 i10 i11 i12 i13 i14 i15 i16 i17 i18 i19 i20 i21 i22 i23 i24 i25 i26 i27 i28 i29 i30 i31 i32 i33 i34 i35 i36 i37 i38 i39 i40 i41 i42 i43 i44 i45 i46 i47 i48 i49 ⊢
  generalize mb z1.2 (p 0) z3.1 = m103 at i0 i1 i2 i3 i4 i5 i6 i7 i8 i9 i10 i11 i12 i13 i14 i15 i16 i17 i18 i19 i20 i21 i22 i23 i24 i25 i26 i27 i28 i29 i30 i31 i32 i33 i34 i35 i36 i37 i38 i39 i40 i41 i42 i43 i44 i45 i46 i47 i48 i49 ⊢
  generalize mb z1.2 (p 2) z0.1 = m120 at i0 i1 i2 i3 i4 i5 i6 i7 i8 i9 i10 i11 i12 i13 i14 i15 i16 i17 i18 i19 i20 i21 i22 i23 i24 i25 i26 i27 i28 i29 i30 i31 i32 i33 i34 i35 i36 i37 i38 i39 i40 i41 i42 i43 i44 i45 i46 i47 i48 i49 ⊢
  generalize mb z1.2 (p 2) z1.1 = m121 at i0 i1 i2 i3 i4 i5 i6 i7 i8 i9 i10 i11 i12 i13 i14 i15 i16 i17 i18 i19 i20 i21 i22 i23 i24 i25 i26 i27 i28 i29 i30 i31 i32 i33 i34 i35 i36 i37 i38 i39 i40 i41 i42 i43 i44 i45 i46 i47 i48 i49 ⊢
  generalize mb z2.2 (p 0) z1.1 = m201 at i0 i1 i2 i3 i4 i5 i6 i7 i8 i9 i10 i11 i12 i13 i14 i15 i16 i17 i18 i19 i20 i21 i22 i23 i24 i25 i26 i27 i28 i29 i30 i31 i32 i33 i34 i35 i36 i37 i38 i39 i40 i41 i42 i43 i44 i45 i46 i47 i48 i49 ⊢
  generalize mb z2.2 (p 0) z2.1 = m202 at i0 i1 i2 i3 i4 i5 i6 i7 i8 i9 i10 i11 i12 i13 i14 i15 i16 i17 i18 i19 i20 i21 i22 i23 i24 i25 i26 i27 i28 i29 i30 i31 i32 i33 i34 i35 i36 i37 i38 i39 i40 i41 i42 i43 i44 i45 i46 i47 i48 i49 ⊢
  generalize mb z2.2 (p 0) z3.1 = m203 at i0 i1 i2 i3 i4 i5 i6 i7 i8 i9 i10 i11 i12 i13 i14 i15 i16 i17 i18 i19 i20 i21 i22 i23 i24 i25 i26 i27 i28 i29 i30 i31 i32 i33 i34 i35 i36 i37 i38 i39 i40 i41 i42 i43 i44 i45 i46 i47 i48 i49 ⊢
  generalize mb z2.2 (p 1) z0.1 = m210 at i0 i1 i2 i3 i4 i5 i6 i7 i8 i9 i10 i11 i12 i13 i14 i15 i16 i17 i18 i19 i20 i21 i22 i23 i24 i25 i26 i27 i28 i29 i30 i31 i32 i33 i34 i35 i36 i37 i38 i39 i40 i41 i42 i43 i44 i45 i46 i47 i48 i49 ⊢
  generalize mb z2.2 (p 1) z2.1 = m212 at i0 i1 i2 i3 i4 i5 i6 i7 i8 i9 i10 i11 i12 i13 i14 i15 i16 i17 i18 i19 i20 i21 i22 i23 i24 i25 i26 i27 i28 i29 i30 i31 i32 i33 i34 i35 i36 i37 i38 i39 i40 i41 i42 i43 i44 i45 i46 i47 i48 i49 ⊢
  generalize mb z3.2 (p 0) z1.1 = m301 at i0 i1 i2 i3 i4 i5 i6 i7 i8 i9 i10 i11 i12 i13 i14 i15 i16 i17 i18 i19 i20 i21 i22 i23 i24 i25 i26 i27 i28 i29 i30 i31 i32 i33 i34 i35 i36 i37 i38 i39 i40 i41 i42 i43 i44 i45 i46 i47 i48 i49 ⊢
  generalize mb z3.2 (p 0) z2.1 = m302 at i0 i1 i2 i3 i4 i5 i6 i7 i8 i9 i10 i11 i12 i13 i14 i15 i16 i17 i18 i19 i20 i21 i22 i23 i24 i25 i26 i27 i28 i29 i30 i31 i32 i33 i34 i35 i36 i37 i38 i39 i40 i41 i42 i43 i44 i45 i46 i47 i48 i49 ⊢
  generalize mb z3.2 (p 0) z3.1 = m303 at i0 i1 i2 i3 i4 i5 i6 i7 i8 i9 i10 i11 i12 i13 i14 i15 i16 i17 i18 i19 i20 i21 i22 i23 i24 i25 i26 i27 i28 i29 i30 i31 i32 i33 i34 i35 i36 i37 i38 i39 i40 i41 i42 i43 i44 i45 i46 i47 i48 i49 ⊢
  generalize mb z3.2 (p 1) z0.1 = m310 at i0 i1 i2 i3 i4 i5 i6 i7 i8 i9 i10 i11 i12 i13 i14 i15 i16 i17 i18 i19 i20 i21 i22 i23 i24 i25 i26 i27 i28 i29 i30 i31 i32 i33 i34 i35 i36 i37 i38 i39 i40 i41 i42 i43 i44 i45 i46 i47 i48 i49 ⊢
  generalize mb z3.2 (p 1) z3.1 = m313 at i0 i1 i2 i3 i4 i5 i6 i7 i8 i9 i10 i11 i12 i13 i14 i15 i16 i17 i18 i19 i20 i21 i22 i23 i24 i25 i26 i27 i28 i29 i30 i31 i32 i33 i34 i35 i36 i37 i38 i39 i40 i41 i42 i43 i44 i45 i46 i47 i48 i49 ⊢
  generalize sb z0.2 z1.2 = s01 at i0 i1 i2 i3 i4 i5 i6 i7 i8 i9 i10 i11 i12 i13 i14 i15 i16 i17 i18 i19 i20 i21 i22 i23 i24 i25 i26 i27 i28 i29 i30 i31 i32 i33 i34 i35 i36 i37 i38 i39 i40 i41 i42 i43 i44 i45 i46 i47 i48 i49 ⊢
  generalize sb z0.2 z2.2 = s02 at i0 i1 i2 i3 i4 i5 i6 i7 i8 i9 i10 i11 i12 i13 i14 i15 i16 i17 i18 i19 i20 i21 i22 i23 i24 i25 i26 i27 i28 i29 i30 i31 i32 i33 i34 i35 i36 i37 i38 i39 i40 i41 i42 i43 i44 i45 i46 i47 i48 i49 ⊢
  generalize sb z0.2 z3.2 = s03 at i0 i1 i2 i3 i4 i5 i6 i7 i8 i9 i10 i11 i12 i13 i14 i15 i16 i17 i18 i19 i20 i21 i22 i23 i24 i25 i26 i27 i28 i29 i30 i31 i32 i33 i34 i35 i36 i37 i38 i39 i40 i41 i42 i43 i44 i45 i46 i47 i48 i49 ⊢
  generalize sb z1.2 z2.2 = s12 at i0 i1 i2 i3 i4 i5 i6 i7 i8 i9 i10 i11 i12 i13 i14 i15 i16 i17 i18 i19 i20 i21 i22 i23 i24 i25 i26 i27 i28 i29 i30 i31 i32 i33 i34 i35 i36 i37 i38 i39 i40 i41 i42 i43 i44 i45 i46 i47 i48 i49 ⊢
  generalize sb z1.2 z3.2 = s13 at i0 i1 i2 i3 i4 i5 i6 i7 i8 i9 i10 i11 i12 i13 i14 i15 i16 i17 i18 i19 i20 i21 i22 i23 i24 i25 i26 i27 i28 i29 i30 i31 i32 i33 i34 i35 i36 i37 i38 i39 i40 i41 i42 i43 i44 i45 i46 i47 i48 i49 ⊢
  generalize sb z2.2 z3.2 = s23 at i0 i1 i2 i3 i4 i5 i6 i7 i8 i9 i10 i11 i12 i13 i14 i15 i16 i17 i18 i19 i20 i21 i22 i23 i24 i25 i26 i27 i28 i29 i30 i31 i32 i33 i34 i35 i36 i37 i38 i39 i40 i41 i42 i43 i44 i45 i46 i47 i48 i49 ⊢
  generalize (tS : ℂ) = vS at i0 i1 i2 i3 i4 i5 i6 i7 i8 i9 i10 i11 i12 i13 i14 i15 i16 i17 i18 i19 i20 i21 i22 i23 i24 i25 i26 i27 i28 i29 i30 i31 i32 i33 i34 i35 i36 i37 i38 i39 i40 i41 i42 i43 i44 i45 i46 i47 i48 i49 x2 x3 x4 x5 ⊢; generalize (tT : ℂ) = vT at i0 i1 i2 i3 i4 i5 i6 i7 i8 i9 i10 i11 i12 i13 i14 i15 i16 i17 i18 i19 i20 i21 i22 i23 i24 i25 i26 i27 i28 i29 i30 i31 i32 i33 i34 i35 i36 i37 i38 i39 i40 i41 i42 i43 i44 i45 i46 i47 i48 i49 x2 x3 x4 x5 ⊢
  generalize N.c 0 = D0 at n0 ⊢
  generalize N.c 1 = D1 at n1 ⊢
  generalize N.c 2 = D2 at n2 x2 ⊢
  generalize N.c 3 = D3 at n3 x3 ⊢
  generalize N.c 4 = D4 at n4 x4 ⊢
  generalize N.c 5 = D5 at n5 x5 ⊢
  have w4 : (2)*(c.MW : ℂ)^2*a13*a23*s01*s02 + (-1)*(c.MW : ℂ)^2*a02*a12*a13*s03 + (c.MW : ℂ)^2*a12*a13*s02*s03 + (c.MW : ℂ)^2*a01*a23*s02*s13 + (2)*(c.MW : ℂ)^2*a03*a13*s02*s12 + (2)*(c.MW : ℂ)^2*a02*a13*s03*s12 + (2)*(c.MW : ℂ)^2*a03*a12*s02*s13 + (2)*(c.MW : ℂ)^2*a02*a13*s02*s13 + (2)*(c.MW : ℂ)^2*a02*a12*s03*s13 + (c.MW : ℂ)^2*a02*a03*s12*s13 + (-1)*(c.MW : ℂ)^2*a03*s02*s12*s13 + (c.MW : ℂ)^2*a02*a13*s01*s23 + (2)*(c.MW : ℂ)^2*a01*a02*s13*s23 + (c.MW : ℂ)*a02*a13*m013*s12 + (c.MW : ℂ)*a02*a12*m013*s13 + (-1)*(c.MW : ℂ)*a12*m013*s02*s13 + (-1)*(c.MW : ℂ)*a02*m013*s12*s13 + (-1)*(c.MW : ℂ)^2*a02*s03*s12*s13 + (-1)*(c.MW : ℂ)*a12*a13*m310*s02 + (-1)*(c.MW : ℂ)^2*a03*a12*a13*s02 + (-1)*(c.MW : ℂ)*a02*a13*m310*s12 + (c.MW : ℂ)*a13*m310*s02*s12 + (c.MW : ℂ)*a12*m310*s02*s13 + (-2)*vS*a02*a13*s02*s13 + (-1)*vT*a02*a13*s02*s13 + (-2)*a02*m101*m303*s02 + (2)*a02*m121*m303*s02 + (-2)*a02*m101*m313*s02 + (-2)*a13*m020*m212*s13 + (2)*a23*m020*m101*s23 + (-2)*a23*m020*m121*s23 + (2)*a12*m020*m313*s12 + (-2)*a13*m010*m202*s13 + (2)*a03*m101*m202*s03 + (-2)*a03*m121*m202*s03 + (2)*a01*m202*m313*s01 = D4 * (a02*a13*s01*s23 + a01*a23*s02*s13 + (-1)*a02*a13*s02*s13) := by
    rw [x4]
    linear_combination ((2)*(c.MW : ℂ)*a13*s02 + a02*m103 + a23*m120 + (-1)*(c.MW : ℂ)*a02*s13 + (c.MW : ℂ)*a02*a13 + (-2)*m120*s23 + (2)*(c.MW : ℂ)*s01*s23 + (-2)*m210*s13 + (-1)*(c.MW : ℂ)*a03*s12 + m021*s23) * i22 + ((c.MW : ℂ)*m103*s02 + (c.MW : ℂ)*a13*m012 + (c.MW : ℂ)^2*a02*a13 + m012*m103 + (3)*(c.MW : ℂ)*m012*s13 + (c.MW : ℂ)*a02*m103 + (3)*(c.MW : ℂ)*m120*s23 + (-5)*(c.MW : ℂ)^2*s01*s23 + (-1)*(c.MW : ℂ)^2*s03*s12 + (c.MW : ℂ)^2*a13*s02 + (-2)*(c.MW : ℂ)*m021*s23 + (2)*(c.MW : ℂ)^2*a01*s23 + (2)*(c.MW : ℂ)*m210*s13 + (2)*(c.MW : ℂ)^2*a02*s13) * i0 + ((c.MW : ℂ)*a23*s03 + (-2)*m013*s23 + (c.MW : ℂ)*a03*a23 + (-3)*(c.MW : ℂ)*a03*s23 + (-2)*(c.MW : ℂ)*s03*s23 + (-2)*m303*s02) * i25 + ((-2)*(c.MW : ℂ)*s12*s23 + (3)*(c.MW : ℂ)*a23*s12 + (-2)*(c.MW : ℂ)*a12*s23 + (-2)*m202*s13 + (-2)*m212*s13 + (-1)*m102*s23) * i12 + ((-2)*(c.MW : ℂ)*a13*s23 + (-5)*(c.MW : ℂ)*a23*s13 + (-1)*(c.MW : ℂ)*a13*a23 + (-2)*a12*m303) * i11 + ((-1)*(c.MW : ℂ)*s01*s23 + m210*s13 + (-1)*a02*m103 + a03*m102 + a13*m012 + a23*m021 + m120*s23 + (c.MW : ℂ)*a02*a13 + (-1)*m301*s02 + (c.MW : ℂ)*a02*s13 + (c.MW : ℂ)*a03*s12) * i29 + ((c.MW : ℂ)^2*a03*s12 + (5)*(c.MW : ℂ)*a23*m120 + (-1)*(c.MW : ℂ)*a02*m103 + (c.MW : ℂ)^2*a02*s13 + (2)*(c.MW : ℂ)*a03*m102 + (5)*(c.MW : ℂ)^2*a01*a23 + (-2)*(c.MW : ℂ)*a13*m012 + (-4)*(c.MW : ℂ)*a13*m210 + (2)*(c.MW : ℂ)^2*a02*a13 + (-4)*(c.MW : ℂ)^2*a23*s01 + (-3)*(c.MW : ℂ)^2*a13*s02 + (-2)*(c.MW : ℂ)*a23*m021) * i1 + ((c.MW : ℂ)*a02*a13 + (-1)*a02*m103 + a23*m120 + (2)*a03*m102 + (-2)*a23*m021 + (2)*(c.MW : ℂ)*a01*a23 + (c.MW : ℂ)*a03*s12 + (c.MW : ℂ)*a02*s13 + (-2)*a13*m012) * i9 + ((-3)*(c.MW : ℂ)*a23*s13 + (-1)*a23*m103 + (-1)*(c.MW : ℂ)*a13*a23 + (-2)*(c.MW : ℂ)*a13*s23) * i2 + (a23*m120 + (-2)*(c.MW : ℂ)*s01*s23 + (2)*m120*s23 + (4)*(c.MW : ℂ)*s02*s13 + (4)*m210*s13) * i8 + (a12*m103 + (3)*(c.MW : ℂ)*a12*s13 + (c.MW : ℂ)*a12*a13 + (-2)*(c.MW : ℂ)*s12*s13 + (3)*(c.MW : ℂ)*a13*s12) * i6 + ((-1)*(c.MW : ℂ)*a02*a23 + (3)*(c.MW : ℂ)*a02*s23 + (-1)*(c.MW : ℂ)*s02*s23 + (2)*m202*s03) * i27 + ((-2)*(c.MW : ℂ)*a13*s12 + (-1)*(c.MW : ℂ)*a12*a13 + (-2)*(c.MW : ℂ)*a12*s13 + (-1)*a12*m103 + m101*s23 + (c.MW : ℂ)*s12*s13 + (-2)*m121*s23) * i14 + ((c.MW : ℂ)*a13*a23 + (c.MW : ℂ)*a23*s13 + a23*m103 + (3)*(c.MW : ℂ)*a13*s23 + (-1)*(c.MW : ℂ)*s13*s23 + (2)*m303*s12 + (2)*m313*s12) * i10 + (a02*m103 + (-1)*a23*m120 + (-2)*a03*m102 + (-3)*(c.MW : ℂ)*a01*a23 + (-1)*(c.MW : ℂ)*a03*s12 + (-1)*(c.MW : ℂ)*a02*s13 + (2)*a13*m012) * i17 + (a23*m120 + (2)*a02*m103) * i23 + ((c.MW : ℂ)*a02*a13 + (-1)*a02*m103 + (c.MW : ℂ)*a02*s13 + (c.MW : ℂ)*a03*s12) * i30 + ((4)*(c.MW : ℂ)*a13*s23 + (6)*(c.MW : ℂ)*a23*s13) * i3 + ((3)*(c.MW : ℂ)*a03*s23 + (c.MW : ℂ)*s03*s23 + m013*s23) * i18 + ((c.MW : ℂ)*s01*s23 + (-1)*a23*m120 + (-3)*(c.MW : ℂ)*s02*s13 + (-4)*m210*s13) * i16 + ((-1)*(c.MW : ℂ)*a03*s23) * i26 + (a23*m101 + (-1)*(c.MW : ℂ)*a12*a13 + (3)*(c.MW : ℂ)*a13*s12 + (3)*(c.MW : ℂ)*a12*s13) * i15 + ((c.MW : ℂ)*a23*s03 + a23*m310 + (c.MW : ℂ)*a03*a23 + (2)*a02*m303 + (2)*a02*m313) * i19 + ((-6)*(c.MW : ℂ)*a02*s23 + (c.MW : ℂ)*s02*s23 + (-2)*m202*s03) * i20 + ((-2)*(c.MW : ℂ)*a12*s13 + (-4)*(c.MW : ℂ)*a13*s12) * i7 + ((2)*(c.MW : ℂ)*a02*a03) * i31 + ((-4)*(c.MW : ℂ)*a02*a03) * i24 + ((-1)*a23*m201 + (-2)*(c.MW : ℂ)*a12*s23 + (4)*(c.MW : ℂ)*a23*s12 + (2)*a13*m202) * i13 + ((-1)*(c.MW : ℂ)*a02*a23) * i28 + ((c.MW : ℂ)*a02*a23) * i21 + ((-4)*(c.MW : ℂ)*a23*s12 + (2)*(c.MW : ℂ)*a12*s23 + (-4)*a13*m202) * i5 + ((-3)*(c.MW : ℂ)*a23*s12 + (2)*(c.MW : ℂ)*a12*s23 + (4)*m202*s13 + (2)*m212*s13) * i4 + ((-2)*(c.MW : ℂ)*a03*s13 + (-2)*(c.MW : ℂ)*a03*a13) * i33 + ((2)*(c.MW : ℂ)*a13*s03 + (2)*(c.MW : ℂ)*a03*s13 + (-2)*m013*s13) * i32 + ((2)*m021*s13) * i34 + ((2)*(c.MW : ℂ)*a03*s13 + (2)*(c.MW : ℂ)*s03*s13) * i35 + ((-2)*(c.MW : ℂ)*a03*s13) * i36 + ((2)*m021*s13) * i37 + ((-2)*(c.MW : ℂ)*a02*a12 + (-2)*a02*m201) * i39 + ((-2)*a13*s13) * i46 + ((-1)*a13*s23) * i48 + ((2)*(c.MW : ℂ)*s02*s12 + (-2)*(c.MW : ℂ)*a02*s12 + (2)*m202*s01) * i41 + ((-1)*a23*s13) * i49 + ((-2)*(c.MW : ℂ)*a02*s12) * i38 + ((2)*m021*s12) * i40 + ((-2)*a02*m201) * i42 + ((2)*m021*s12) * i43
  have w5 : (-4)*(c.MW : ℂ)^2*a03*a12*a13*s02 + (-8)*(c.MW : ℂ)^2*a12*a23*s01*s03 + (4)*(c.MW : ℂ)^2*a12*a13*s02*s03 + (-4)*(c.MW : ℂ)^2*a01*a23*s03*s12 + (8)*(c.MW : ℂ)^2*a03*a13*s02*s12 + (-8)*(c.MW : ℂ)^2*a03*a12*s03*s12 + (8)*(c.MW : ℂ)^2*a02*a13*s03*s12 + (8)*(c.MW : ℂ)^2*a03*a12*s02*s13 + (8)*(c.MW : ℂ)^2*a02*a12*s03*s13 + (4)*(c.MW : ℂ)^2*a02*a03*s12*s13 + (-4)*(c.MW : ℂ)^2*a02*s03*s12*s13 + (-4)*(c.MW : ℂ)^2*a03*a12*s01*s23 + (-8)*(c.MW : ℂ)^2*a01*a03*s12*s23 + (4)*(c.MW : ℂ)*a03*a13*m012*s12 + (-4)*(c.MW : ℂ)*a13*m012*s03*s12 + (4)*(c.MW : ℂ)*a03*a12*m012*s13 + (-4)*(c.MW : ℂ)*a03*m012*s12*s13 + (-4)*(c.MW : ℂ)^2*a03*s02*s12*s13 + (-4)*(c.MW : ℂ)*a12*a13*m210*s03 + (-4)*(c.MW : ℂ)^2*a02*a12*a13*s03 + (4)*(c.MW : ℂ)*a13*m210*s03*s12 + (-4)*(c.MW : ℂ)*a03*a12*m210*s13 + (4)*(c.MW : ℂ)*a12*m210*s03*s13 + (-4)*vS*a03*a12*s03*s12 + (4)*vT*a03*a12*s03*s12 + (-8)*a03*m121*m202*s03 + (-8)*a03*m101*m212*s03 + (-8)*a12*m010*m313*s12 + (8)*a12*m020*m313*s12 + (-8)*a12*m010*m303*s12 + (8)*a23*m010*m121*s23 + (-8)*a23*m020*m121*s23 + (8)*a13*m010*m212*s13 + (-8)*a13*m020*m212*s13 + (8)*a02*m121*m303*s02 + (8)*a01*m212*m303*s01 = D5 * (a03*a12*a13*s02 + a01*a23*s03*s12 + (-6)*a03*a12*s01*s23 + a02*a03*a12*a13 + (3)*a02*a13*s03*s12 + (-3)*a13*s01*s02*s23 + (-3)*a13*s02*s03*s12 + (-2)*a02^2*a13*s13 + (3)*a13*s02^2*s13 + (-1)*a02*a13^2*s02 + (-4)*a02*a13*s02*s13 + a03*s01*s12*s23 + (2)*a01*a02*a23*s13 + (2)*a02*a03*a12*s13 + (-4)*a23*s01*s03*s12 + a01*a13*a23*s02 + (-4)*a01*a23*s02*s13 + (4)*a23*s01*s02*s13 + (-4)*a23*s01^2*s23 + (-1)*a02*s02*s13^2 + (-1)*a02^2*a13^2 + a01*a02*a13*a23 + (-1)*a03*s02*s12*s13 + (-3)*a03*a12*s03*s12 + a02*s01*s13*s23 + a02*s03*s12*s13 + a03*s03*s12^2 + (6)*a02*a13*s01*s23 + (2)*a01*a23*s01*s23) := by
    rw [x5]
    linear_combination ((-8)*(c.MW : ℂ)*a23*s02 + (12)*m012*s23 + (12)*(c.MW : ℂ)*s02*s23 + (-8)*m202*s03 + (-8)*(c.MW : ℂ)*a02*s23) * i20 + ((4)*(c.MW : ℂ)*a03*a23 + (-4)*(c.MW : ℂ)*a23*s03 + (-8)*(c.MW : ℂ)*s03*s23 + (-4)*(c.MW : ℂ)*a03*s23 + (-4)*m013*s23 + (-8)*m303*s02) * i25 + ((-4)*a23*m120 + (-12)*(c.MW : ℂ)*s02*s13 + (-4)*(c.MW : ℂ)*s01*s23 + (-16)*m210*s13 + (8)*m120*s23) * i16 + ((4)*(c.MW : ℂ)*a13*m012 + (-6)*vT*s01*s23 + (-6)*vS*s01*s23 + (4)*m012*m103 + (12)*(c.MW : ℂ)*m210*s13 + (2)*vT*a02*s13 + (2)*vS*a02*s13 + vT*a13*s02 + vS*a13*s02 + (12)*(c.MW : ℂ)*m012*s13 + (4)*(c.MW : ℂ)*m103*s02 + vT*a02*a13 + vS*a02*a13 + (4)*(c.MW : ℂ)*a02*m103 + vT*s03*s12 + (-7)*vS*s03*s12 + (-4)*(c.MW : ℂ)*m120*s23) * i0 + ((8)*vS*a01*a23 + (4)*vT*a02*a13 + (-4)*vS*a02*a13 + (-3)*vT*a13*s02 + (-3)*vS*a13*s02 + (-8)*(c.MW : ℂ)*a03*m201 + (20)*(c.MW : ℂ)*a23*m120 + vT*a03*s12 + vS*a03*s12 + (-12)*(c.MW : ℂ)*a13*m012 + (-16)*(c.MW : ℂ)*a13*m210 + (16)*(c.MW : ℂ)*a03*m102 + (-8)*(c.MW : ℂ)*a23*m021 + (-4)*vT*a23*s01 + (-4)*vS*a23*s01 + (-4)*(c.MW : ℂ)*a02*m103 + vT*a02*s13 + vS*a02*s13 + (-8)*(c.MW : ℂ)*a02*m301) * i1 + ((8)*(c.MW : ℂ)*a13*s02 + (4)*m021*s23 + (4)*a02*m103 + (4)*a23*m120 + (4)*(c.MW : ℂ)*a02*a13 + (12)*(c.MW : ℂ)*s01*s23 + (-16)*m120*s23 + (-16)*m210*s13 + (-12)*(c.MW : ℂ)*a02*s13 + (-12)*(c.MW : ℂ)*a03*s12 + (8)*m301*s02) * i22 + ((-4)*(c.MW : ℂ)*a12*a13 + (20)*m101*s23 + (-8)*(c.MW : ℂ)*a13*s12 + (-8)*(c.MW : ℂ)*a12*s13 + (-4)*a12*m103 + (4)*(c.MW : ℂ)*s12*s13 + (-8)*m201*s13 + (8)*m301*s12 + (-16)*m121*s23) * i14 + ((-8)*(c.MW : ℂ)*a13*s23 + (12)*(c.MW : ℂ)*s13*s23 + (-12)*(c.MW : ℂ)*a23*s13 + (-4)*a23*m103 + (-4)*(c.MW : ℂ)*a13*a23 + (-8)*m313*s12) * i2 + ((8)*(c.MW : ℂ)*a13*s12 + (-12)*m101*s23 + (12)*m121*s23 + (4)*a12*m103 + (8)*(c.MW : ℂ)*a12*s13 + (4)*(c.MW : ℂ)*a12*a13 + (-20)*(c.MW : ℂ)*s12*s13 + (-8)*m301*s12) * i6 + ((12)*(c.MW : ℂ)*a13*s12 + (-4)*(c.MW : ℂ)*a12*a13 + (12)*(c.MW : ℂ)*a12*s13 + (-12)*a23*m101) * i15 + ((-20)*(c.MW : ℂ)*a13*s12 + (4)*(c.MW : ℂ)*a12*a13 + (-4)*a23*m121 + (-12)*(c.MW : ℂ)*a12*s13 + (12)*a23*m101) * i7 + ((-4)*(c.MW : ℂ)*a02*s23 + (-12)*m012*s23 + (-4)*(c.MW : ℂ)*a02*a23 + (-12)*(c.MW : ℂ)*s02*s23 + (8)*(c.MW : ℂ)*a23*s02 + (8)*m202*s03) * i27 + ((16)*(c.MW : ℂ)*a02*s23 + (-12)*a23*m210 + (-12)*(c.MW : ℂ)*a02*a23 + (-8)*(c.MW : ℂ)*a23*s02 + (8)*a03*m202 + (8)*a03*m212) * i21 + ((-8)*(c.MW : ℂ)*a02*s23 + (4)*a23*m210 + (4)*(c.MW : ℂ)*a02*a23) * i28 + ((8)*a23*m301 + (-4)*(c.MW : ℂ)*a13*a23 + (16)*(c.MW : ℂ)*a13*s23 + (32)*(c.MW : ℂ)*a23*s13 + (-8)*a12*m303) * i3 + ((8)*(c.MW : ℂ)*a03*s23 + (-4)*(c.MW : ℂ)*a03*a23 + (-4)*(c.MW : ℂ)*a23*s03) * i19 + ((4)*(c.MW : ℂ)*a12*a23 + (-16)*(c.MW : ℂ)*a23*s12 + (-4)*a23*m201 + (-8)*a13*m202) * i5 + ((-4)*a23*m310 + (-4)*(c.MW : ℂ)*a03*s23 + (-8)*(c.MW : ℂ)*a03*a23) * i26 + ((-4)*a23*m021 + (-16)*a13*m012 + (16)*a03*m102 + (-12)*a02*m103 + (-4)*(c.MW : ℂ)*a01*a23 + (4)*a23*m120 + (4)*(c.MW : ℂ)*a02*s13 + (4)*(c.MW : ℂ)*a03*s12) * i9 + ((4)*a23*m120 + (24)*m210*s13 + (20)*(c.MW : ℂ)*s02*s13 + (-4)*m120*s23 + (-4)*(c.MW : ℂ)*s01*s23) * i8 + ((4)*a03*m102 + (-4)*a02*m103 + (-8)*(c.MW : ℂ)*s01*s23 + (4)*(c.MW : ℂ)*a02*a13 + (4)*a23*m021 + (4)*a13*m012 + (4)*m120*s23 + (4)*(c.MW : ℂ)*a03*s12 + (4)*(c.MW : ℂ)*a02*s13 + (4)*m210*s13 + (-4)*m301*s02) * i29 + ((4)*(c.MW : ℂ)*a13*a23 + (-20)*(c.MW : ℂ)*a23*s13 + (-8)*(c.MW : ℂ)*a13*s23 + (-8)*a23*m301 + (-8)*a12*m303) * i11 + ((8)*a13*m012 + (-16)*a03*m102 + (12)*a02*m103 + (4)*(c.MW : ℂ)*a01*a23 + (-4)*a23*m120 + (-4)*(c.MW : ℂ)*a02*s13 + (-4)*(c.MW : ℂ)*a03*s12) * i17 + ((16)*(c.MW : ℂ)*a23*s12 + (-8)*(c.MW : ℂ)*a12*a23 + (4)*a23*m201 + (8)*a13*m202) * i13 + ((4)*(c.MW : ℂ)*a23*s12 + (-8)*(c.MW : ℂ)*s12*s23 + (-8)*m202*s13 + (-8)*m212*s13 + (-4)*m102*s23) * i12 + ((20)*(c.MW : ℂ)*a03*s23 + (4)*(c.MW : ℂ)*s03*s23 + (8)*m013*s23) * i18 + ((-4)*(c.MW : ℂ)*a23*s12 + (4)*(c.MW : ℂ)*s12*s23 + (16)*m202*s13 + (16)*m212*s13 + (-4)*m102*s23) * i4 + ((12)*(c.MW : ℂ)*a23*s13 + (4)*(c.MW : ℂ)*a13*a23 + (4)*a23*m103 + (-12)*(c.MW : ℂ)*s13*s23 + (4)*(c.MW : ℂ)*a13*s23 + (8)*m313*s12 + (8)*m303*s12) * i10 + ((4)*(c.MW : ℂ)*a02*a13 + (4)*(c.MW : ℂ)*a02*s13 + (4)*(c.MW : ℂ)*a03*s12 + (-4)*a02*m103 + (-4)*(c.MW : ℂ)*a01*a23) * i30 + ((-4)*(c.MW : ℂ)*a01*a23 + (-8)*(c.MW : ℂ)*a03*s12 + (-8)*(c.MW : ℂ)*a02*s13 + (-4)*a23*m120) * i23 + ((-8)*(c.MW : ℂ)*a02*a03) * i24 + ((8)*(c.MW : ℂ)*a13*s03 + (-8)*m013*s13 + (8)*a01*m303 + (-8)*a03*m301) * i32 + ((-8)*(c.MW : ℂ)*a03*a13 + (-8)*a03*m301 + (-16)*(c.MW : ℂ)*a03*s13) * i33 + ((8)*(c.MW : ℂ)*a02*a03) * i31 + ((8)*m021*s13) * i34 + ((-8)*a03*m301 + (-16)*(c.MW : ℂ)*a03*s13) * i36 + ((-8)*m013*s13 + (8)*(c.MW : ℂ)*s03*s13 + (8)*m303*s01) * i35 + ((8)*m021*s13) * i37 + ((-8)*(c.MW : ℂ)*a02*a12 + (8)*(c.MW : ℂ)*a02*s12) * i39 + ((4)*a13*s23) * i44 + ((4)*a23*s13) * i45 + ((-8)*a13*s13) * i46 + ((8)*a23*s23) * i47 + ((-4)*a13*s23) * i48 + ((-4)*a23*s13) * i49 + ((8)*m012*s12 + (8)*(c.MW : ℂ)*s02*s12) * i41 + ((8)*(c.MW : ℂ)*a02*s12) * i42 + ((8)*m021*s12) * i43 + ((8)*m021*s12) * i40 + ((8)*a02*m201 + (-8)*a01*m202) * i38
  have w2 : (-2)*(c.MZ : ℂ)^2*a01*a23*s02*s13 + (c.MZ : ℂ)^2*a02*a13*s03*s12 + (c.MZ : ℂ)^2*a03*a12*s02*s13 + (4)*(c.MW : ℂ)^2*a13*a23*s01*s02 + (-3)*(c.MW : ℂ)^2*a02*a12*a13*s03 + (c.MW : ℂ)^2*a12*a13*s02*s03 + (2)*(c.MW : ℂ)^2*a01*a23*s02*s13 + (4)*(c.MW : ℂ)^2*a03*a13*s02*s12 + (3)*(c.MW : ℂ)^2*a02*a13*s03*s12 + (3)*(c.MW : ℂ)^2*a03*a12*s02*s13 + (6)*(c.MW : ℂ)^2*a02*a13*s02*s13 + (4)*(c.MW : ℂ)^2*a02*a12*s03*s13 + (3)*(c.MW : ℂ)^2*a02*a03*s12*s13 + (-1)*(c.MW : ℂ)^2*a03*s02*s12*s13 + (4)*(c.MW : ℂ)^2*a01*a02*s13*s23 + (3)*(c.MW : ℂ)*a02*a13*m013*s12 + (3)*(c.MW : ℂ)*a02*a12*m013*s13 + (-1)*(c.MW : ℂ)*a12*m013*s02*s13 + (-1)*(c.MW : ℂ)*a02*m013*s12*s13 + (-1)*(c.MW : ℂ)^2*a02*s03*s12*s13 + (-3)*(c.MW : ℂ)*a12*a13*m310*s02 + (-3)*(c.MW : ℂ)^2*a03*a12*a13*s02 + (-3)*(c.MW : ℂ)*a02*a13*m310*s12 + (c.MW : ℂ)*a13*m310*s02*s12 + (c.MW : ℂ)*a12*m310*s02*s13 + (-4)*vS*a02*a13*s02*s13 + (-2)*vT*a02*a13*s02*s13 + (-4)*a02*m101*m303*s02 + (4)*a02*m121*m303*s02 + (-4)*a02*m101*m313*s02 + (-4)*a13*m020*m212*s13 + (4)*a23*m020*m101*s23 + (-4)*a23*m020*m121*s23 + (4)*a12*m020*m313*s12 + (-4)*a13*m010*m202*s13 + (4)*a03*m101*m202*s03 + (-4)*a03*m121*m202*s03 + (4)*a01*m202*m313*s01 = D2 * ((2)*a01*a23*s02*s13 + (-1)*a03*a12*s02*s13 + (-1)*a02*a13*s03*s12) := by
    rw [x2]
    linear_combination (vT*s02*s13 + (3)*(c.MW : ℂ)*m103*s02 + (3)*(c.MW : ℂ)*a13*m012 + (3)*(c.MW : ℂ)^2*a02*a13 + (-1)*(c.MW : ℂ)^2*s02*s13 + (3)*m012*m103 + (7)*(c.MW : ℂ)*m012*s13 + (3)*(c.MW : ℂ)*a02*m103 + (7)*(c.MW : ℂ)*m120*s23 + (-11)*(c.MW : ℂ)^2*s01*s23 + (-3)*(c.MW : ℂ)^2*s03*s12 + (3)*(c.MW : ℂ)^2*a13*s02 + (-4)*(c.MW : ℂ)*m021*s23 + (4)*(c.MW : ℂ)^2*a01*s23 + (4)*(c.MW : ℂ)*m210*s13 + (4)*(c.MW : ℂ)^2*a02*s13) * i0 + ((4)*(c.MW : ℂ)*a13*s02 + (3)*a02*m103 + (3)*a23*m120 + (-1)*(c.MW : ℂ)*a02*s13 + (3)*(c.MW : ℂ)*a02*a13 + (-4)*m120*s23 + (4)*(c.MW : ℂ)*s01*s23 + (-4)*m210*s13 + (-1)*(c.MW : ℂ)*a03*s12 + m021*s23) * i22 + ((3)*(c.MW : ℂ)*a23*s03 + (-4)*m013*s23 + (3)*(c.MW : ℂ)*a03*a23 + (-7)*(c.MW : ℂ)*a03*s23 + (-4)*(c.MW : ℂ)*s03*s23 + (-4)*m303*s02) * i25 + ((-4)*(c.MW : ℂ)*s12*s23 + (7)*(c.MW : ℂ)*a23*s12 + (-4)*(c.MW : ℂ)*a12*s23 + (-4)*m202*s13 + (-4)*m212*s13 + (-1)*m102*s23) * i12 + ((-2)*(c.MW : ℂ)*a13*s23 + (-11)*(c.MW : ℂ)*a23*s13 + (-3)*(c.MW : ℂ)*a13*a23 + (-4)*a12*m303) * i11 + ((-3)*(c.MW : ℂ)*s01*s23 + (3)*m210*s13 + (-3)*a02*m103 + (3)*a03*m102 + (3)*a13*m012 + (3)*a23*m021 + (3)*m120*s23 + (3)*(c.MW : ℂ)*a02*a13 + (-3)*m301*s02 + (3)*(c.MW : ℂ)*a02*s13 + (3)*(c.MW : ℂ)*a03*s12) * i29 + ((3)*(c.MW : ℂ)^2*a03*s12 + (11)*(c.MW : ℂ)*a23*m120 + (-1)*(c.MW : ℂ)*a02*m103 + (3)*(c.MW : ℂ)^2*a02*s13 + (4)*(c.MW : ℂ)*a03*m102 + (11)*(c.MW : ℂ)^2*a01*a23 + (-4)*(c.MW : ℂ)*a13*m012 + (-8)*(c.MW : ℂ)*a13*m210 + (5)*(c.MW : ℂ)^2*a02*a13 + (-8)*(c.MW : ℂ)^2*a23*s01 + (-5)*(c.MW : ℂ)^2*a13*s02 + vT*a02*a13 + (-4)*(c.MW : ℂ)*a23*m021) * i1 + ((-2)*(c.MW : ℂ)*a02*a13 + a02*m103 + (-3)*a23*m120 + (-4)*a03*m102 + (-7)*(c.MW : ℂ)*a01*a23 + (-3)*(c.MW : ℂ)*a03*s12 + (-3)*(c.MW : ℂ)*a02*s13 + (4)*a13*m012) * i17 + ((3)*(c.MW : ℂ)*a02*a13 + (-1)*a02*m103 + (3)*a23*m120 + (4)*a03*m102 + (-4)*a23*m021 + (4)*(c.MW : ℂ)*a01*a23 + (3)*(c.MW : ℂ)*a03*s12 + (3)*(c.MW : ℂ)*a02*s13 + (-4)*a13*m012) * i9 + ((-7)*(c.MW : ℂ)*a23*s13 + (-3)*a23*m103 + (-3)*(c.MW : ℂ)*a13*a23 + (-4)*(c.MW : ℂ)*a13*s23) * i2 + ((3)*a23*m120 + (-4)*(c.MW : ℂ)*s01*s23 + (4)*m120*s23 + (8)*(c.MW : ℂ)*s02*s13 + (8)*m210*s13) * i8 + ((3)*a12*m103 + (7)*(c.MW : ℂ)*a12*s13 + (3)*(c.MW : ℂ)*a12*a13 + (-4)*(c.MW : ℂ)*s12*s13 + (7)*(c.MW : ℂ)*a13*s12) * i6 + ((-3)*(c.MW : ℂ)*a02*a23 + (7)*(c.MW : ℂ)*a02*s23 + (-1)*(c.MW : ℂ)*s02*s23 + (4)*m202*s03) * i27 + ((-4)*(c.MW : ℂ)*a13*s12 + (-3)*(c.MW : ℂ)*a12*a13 + (-4)*(c.MW : ℂ)*a12*s13 + (-3)*a12*m103 + m101*s23 + (3)*(c.MW : ℂ)*s12*s13 + (-4)*m121*s23) * i14 + ((3)*(c.MW : ℂ)*a13*a23 + (c.MW : ℂ)*a23*s13 + (3)*a23*m103 + (7)*(c.MW : ℂ)*a13*s23 + (-1)*(c.MW : ℂ)*s13*s23 + (4)*m303*s12 + (4)*m313*s12) * i10 + ((3)*a23*m120 + (4)*a02*m103) * i23 + ((3)*(c.MW : ℂ)*a02*a13 + (-1)*a02*m103 + (3)*(c.MW : ℂ)*a02*s13 + (3)*(c.MW : ℂ)*a03*s12) * i30 + ((8)*(c.MW : ℂ)*a13*s23 + (12)*(c.MW : ℂ)*a23*s13) * i3 + ((5)*(c.MW : ℂ)*a03*s23 + (c.MW : ℂ)*s03*s23 + m013*s23) * i18 + ((3)*(c.MW : ℂ)*s01*s23 + (-3)*a23*m120 + (-5)*(c.MW : ℂ)*s02*s13 + (-8)*m210*s13) * i16 + ((-3)*(c.MW : ℂ)*a03*s23) * i26 + ((3)*a23*m101 + (-3)*(c.MW : ℂ)*a12*a13 + (5)*(c.MW : ℂ)*a13*s12 + (5)*(c.MW : ℂ)*a12*s13) * i15 + ((3)*(c.MW : ℂ)*a23*s03 + (3)*a23*m310 + (3)*(c.MW : ℂ)*a03*a23 + (4)*a02*m303 + (4)*a02*m313) * i19 + ((-12)*(c.MW : ℂ)*a02*s23 + (c.MW : ℂ)*s02*s23 + (-4)*m202*s03) * i20 + ((-4)*(c.MW : ℂ)*a12*s13 + (-8)*(c.MW : ℂ)*a13*s12) * i7 + ((4)*(c.MW : ℂ)*a02*a03) * i31 + ((-8)*(c.MW : ℂ)*a02*a03) * i24 + ((-3)*a23*m201 + (-4)*(c.MW : ℂ)*a12*s23 + (8)*(c.MW : ℂ)*a23*s12 + (4)*a13*m202) * i13 + ((-3)*(c.MW : ℂ)*a02*a23) * i28 + ((3)*(c.MW : ℂ)*a02*a23) * i21 + ((-8)*(c.MW : ℂ)*a23*s12 + (4)*(c.MW : ℂ)*a12*s23 + (-8)*a13*m202) * i5 + ((-7)*(c.MW : ℂ)*a23*s12 + (4)*(c.MW : ℂ)*a12*s23 + (8)*m202*s13 + (4)*m212*s13) * i4 + ((-4)*(c.MW : ℂ)*a03*s13 + (-4)*(c.MW : ℂ)*a03*a13) * i33 + ((4)*(c.MW : ℂ)*a13*s03 + (4)*(c.MW : ℂ)*a03*s13 + (-4)*m013*s13) * i32 + ((4)*m021*s13) * i34 + ((4)*(c.MW : ℂ)*a03*s13 + (4)*(c.MW : ℂ)*s03*s13) * i35 + ((-4)*(c.MW : ℂ)*a03*s13) * i36 + ((4)*m021*s13) * i37 + ((-4)*(c.MW : ℂ)*a02*a12 + (-4)*a02*m201) * i39 + ((-4)*a13*s13) * i46 + ((-1)*a13*s23) * i48 + ((4)*(c.MW : ℂ)*s02*s12 + (-4)*(c.MW : ℂ)*a02*s12 + (4)*m202*s01) * i41 + ((-3)*a23*s13) * i49 + ((-4)*(c.MW : ℂ)*a02*s12) * i38 + ((4)*m021*s12) * i40 + ((-4)*a02*m201) * i42 + ((4)*m021*s12) * i43
  have w3 : (8)*(c.MZ : ℂ)^2*a01*a23*s03*s12 + (4)*(c.MZ : ℂ)^2*a02*a13*s03*s12 + (4)*(c.MZ : ℂ)^2*a03*a12*s02*s13 + (-12)*(c.MW : ℂ)^2*a03*a12*a13*s02 + (-16)*(c.MW : ℂ)^2*a12*a23*s01*s03 + (4)*(c.MW : ℂ)^2*a12*a13*s02*s03 + (-8)*(c.MW : ℂ)^2*a01*a23*s03*s12 + (16)*(c.MW : ℂ)^2*a03*a13*s02*s12 + (-8)*(c.MW : ℂ)^2*a03*a12*s03*s12 + (12)*(c.MW : ℂ)^2*a02*a13*s03*s12 + (12)*(c.MW : ℂ)^2*a03*a12*s02*s13 + (16)*(c.MW : ℂ)^2*a02*a12*s03*s13 + (12)*(c.MW : ℂ)^2*a02*a03*s12*s13 + (-4)*(c.MW : ℂ)^2*a02*s03*s12*s13 + (-16)*(c.MW : ℂ)^2*a01*a03*s12*s23 + (12)*(c.MW : ℂ)*a03*a13*m012*s12 + (-4)*(c.MW : ℂ)*a13*m012*s03*s12 + (12)*(c.MW : ℂ)*a03*a12*m012*s13 + (-4)*(c.MW : ℂ)*a03*m012*s12*s13 + (-4)*(c.MW : ℂ)^2*a03*s02*s12*s13 + (-12)*(c.MW : ℂ)*a12*a13*m210*s03 + (-12)*(c.MW : ℂ)^2*a02*a12*a13*s03 + (4)*(c.MW : ℂ)*a13*m210*s03*s12 + (-12)*(c.MW : ℂ)*a03*a12*m210*s13 + (4)*(c.MW : ℂ)*a12*m210*s03*s13 + (-8)*vS*a03*a12*s03*s12 + (8)*vT*a03*a12*s03*s12 + (-16)*a03*m121*m202*s03 + (-16)*a03*m101*m212*s03 + (-16)*a12*m010*m313*s12 + (16)*a12*m020*m313*s12 + (-16)*a12*m010*m303*s12 + (16)*a23*m010*m121*s23 + (-16)*a23*m020*m121*s23 + (16)*a13*m010*m212*s13 + (-16)*a13*m020*m212*s13 + (16)*a02*m121*m303*s02 + (16)*a01*m212*m303*s01 = D3 * ((3)*a03*a12*a13*s02 + (2)*a01*a23*s03*s12 + (-11)*a03*a12*s01*s23 + (3)*a02*a03*a12*a13 + (8)*a02*a13*s03*s12 + (-5)*a13*s01*s02*s23 + (-5)*a13*s02*s03*s12 + (-4)*a02^2*a13*s13 + (-1)*a03*a12*s02*s13 + (5)*a13*s02^2*s13 + (-3)*a02*a13^2*s02 + (-10)*a02*a13*s02*s13 + (3)*a03*s01*s12*s23 + (4)*a01*a02*a23*s13 + (4)*a02*a03*a12*s13 + (-8)*a23*s01*s03*s12 + (3)*a01*a13*a23*s02 + (-12)*a01*a23*s02*s13 + (8)*a23*s01*s02*s13 + (-8)*a23*s01^2*s23 + (-3)*a02*s02*s13^2 + (-3)*a02^2*a13^2 + (3)*a01*a02*a13*a23 + (-3)*a03*s02*s12*s13 + (-5)*a03*a12*s03*s12 + (3)*a02*s01*s13*s23 + (3)*a02*s03*s12*s13 + (3)*a03*s03*s12^2 + (18)*a02*a13*s01*s23 + (4)*a01*a23*s01*s23) := by
    rw [x3]
    linear_combination ((-5)*(c.MZ : ℂ)^2*s03*s12 + (12)*(c.MW : ℂ)*a13*m012 + (-11)*vT*s01*s23 + (-11)*vS*s01*s23 + (-11)*(c.MZ : ℂ)^2*s01*s23 + (12)*m012*m103 + (-1)*vT*s02*s13 + (-1)*vS*s02*s13 + (3)*(c.MZ : ℂ)^2*s02*s13 + (20)*(c.MW : ℂ)*m210*s13 + (4)*vT*a02*s13 + (4)*vS*a02*s13 + (4)*(c.MZ : ℂ)^2*a02*s13 + (3)*vT*a13*s02 + (3)*vS*a13*s02 + (3)*(c.MZ : ℂ)^2*a13*s02 + (28)*(c.MW : ℂ)*m012*s13 + (12)*(c.MW : ℂ)*m103*s02 + (3)*vT*a02*a13 + (3)*vS*a02*a13 + (3)*(c.MZ : ℂ)^2*a02*a13 + (12)*(c.MW : ℂ)*a02*m103 + (3)*vT*s03*s12 + (-13)*vS*s03*s12 + (-4)*(c.MW : ℂ)*m120*s23) * i0 + ((-16)*(c.MW : ℂ)*a23*s02 + (20)*m012*s23 + (20)*(c.MW : ℂ)*s02*s23 + (-16)*m202*s03 + (-16)*(c.MW : ℂ)*a02*s23) * i20 + ((12)*(c.MW : ℂ)*a03*a23 + (-4)*(c.MW : ℂ)*a23*s03 + (-16)*(c.MW : ℂ)*s03*s23 + (-12)*(c.MW : ℂ)*a03*s23 + (-12)*m013*s23 + (-16)*m303*s02) * i25 + ((-12)*a23*m120 + (-20)*(c.MW : ℂ)*s02*s13 + (-4)*(c.MW : ℂ)*s01*s23 + (-32)*m210*s13 + (16)*m120*s23) * i16 + ((-1)*vT*a01*a23 + (15)*vS*a01*a23 + (15)*(c.MZ : ℂ)^2*a01*a23 + (11)*vT*a02*a13 + (-5)*vS*a02*a13 + (7)*(c.MZ : ℂ)^2*a02*a13 + (-5)*vT*a13*s02 + (-5)*vS*a13*s02 + (-5)*(c.MZ : ℂ)^2*a13*s02 + (-16)*(c.MW : ℂ)*a03*m201 + (44)*(c.MW : ℂ)*a23*m120 + (3)*vT*a03*s12 + (3)*vS*a03*s12 + (3)*(c.MZ : ℂ)^2*a03*s12 + (-20)*(c.MW : ℂ)*a13*m012 + (-32)*(c.MW : ℂ)*a13*m210 + (32)*(c.MW : ℂ)*a03*m102 + (-16)*(c.MW : ℂ)*a23*m021 + (-8)*vT*a23*s01 + (-8)*vS*a23*s01 + (-8)*(c.MZ : ℂ)^2*a23*s01 + (-4)*(c.MW : ℂ)*a02*m103 + (3)*vT*a02*s13 + (3)*vS*a02*s13 + (3)*(c.MZ : ℂ)^2*a02*s13 + (-16)*(c.MW : ℂ)*a02*m301) * i1 + ((16)*(c.MW : ℂ)*a13*s02 + (4)*m021*s23 + (12)*a02*m103 + (12)*a23*m120 + (12)*(c.MW : ℂ)*a02*a13 + (20)*(c.MW : ℂ)*s01*s23 + (-32)*m120*s23 + (-32)*m210*s13 + (-20)*(c.MW : ℂ)*a02*s13 + (-20)*(c.MW : ℂ)*a03*s12 + (16)*m301*s02) * i22 + ((-12)*(c.MW : ℂ)*a12*a13 + (36)*m101*s23 + (-16)*(c.MW : ℂ)*a13*s12 + (-16)*(c.MW : ℂ)*a12*s13 + (-12)*a12*m103 + (12)*(c.MW : ℂ)*s12*s13 + (-16)*m201*s13 + (16)*m301*s12 + (-32)*m121*s23) * i14 + ((-24)*(c.MW : ℂ)*a13*s23 + (20)*(c.MW : ℂ)*s13*s23 + (-28)*(c.MW : ℂ)*a23*s13 + (-12)*a23*m103 + (-12)*(c.MW : ℂ)*a13*a23 + (-16)*m313*s12) * i2 + ((16)*(c.MW : ℂ)*a13*s12 + (-20)*m101*s23 + (20)*m121*s23 + (12)*a12*m103 + (16)*(c.MW : ℂ)*a12*s13 + (12)*(c.MW : ℂ)*a12*a13 + (-44)*(c.MW : ℂ)*s12*s13 + (-16)*m301*s12) * i6 + ((20)*(c.MW : ℂ)*a13*s12 + (-12)*(c.MW : ℂ)*a12*a13 + (20)*(c.MW : ℂ)*a12*s13 + (-20)*a23*m101) * i15 + ((-36)*(c.MW : ℂ)*a13*s12 + (12)*(c.MW : ℂ)*a12*a13 + (-4)*a23*m121 + (-20)*(c.MW : ℂ)*a12*s13 + (20)*a23*m101) * i7 + ((-4)*(c.MW : ℂ)*a02*s23 + (-20)*m012*s23 + (-12)*(c.MW : ℂ)*a02*a23 + (-20)*(c.MW : ℂ)*s02*s23 + (16)*(c.MW : ℂ)*a23*s02 + (16)*m202*s03) * i27 + ((32)*(c.MW : ℂ)*a02*s23 + (-20)*a23*m210 + (-20)*(c.MW : ℂ)*a02*a23 + (-16)*(c.MW : ℂ)*a23*s02 + (16)*a03*m202 + (16)*a03*m212) * i21 + ((-16)*(c.MW : ℂ)*a02*s23 + (4)*a23*m210 + (4)*(c.MW : ℂ)*a02*a23) * i28 + ((16)*a23*m301 + (-4)*(c.MW : ℂ)*a13*a23 + (32)*(c.MW : ℂ)*a13*s23 + (72)*(c.MW : ℂ)*a23*s13 + (-16)*a12*m303) * i3 + ((16)*(c.MW : ℂ)*a03*s23 + (-4)*(c.MW : ℂ)*a03*a23 + (-4)*(c.MW : ℂ)*a23*s03) * i19 + ((12)*(c.MW : ℂ)*a12*a23 + (-32)*(c.MW : ℂ)*a23*s12 + (-4)*a23*m201 + (-16)*a13*m202) * i5 + ((-4)*a23*m310 + (-12)*(c.MW : ℂ)*a03*s23 + (-16)*(c.MW : ℂ)*a03*a23) * i26 + ((-12)*a23*m021 + (-32)*a13*m012 + (32)*a03*m102 + (8)*(c.MW : ℂ)*a02*a13 + (-20)*a02*m103 + (-4)*(c.MW : ℂ)*a01*a23 + (12)*a23*m120 + (12)*(c.MW : ℂ)*a02*s13 + (12)*(c.MW : ℂ)*a03*s12) * i9 + ((12)*a23*m120 + (48)*m210*s13 + (36)*(c.MW : ℂ)*s02*s13 + (-4)*m120*s23 + (-12)*(c.MW : ℂ)*s01*s23) * i8 + ((12)*a03*m102 + (-12)*a02*m103 + (-16)*(c.MW : ℂ)*s01*s23 + (12)*(c.MW : ℂ)*a02*a13 + (12)*a23*m021 + (12)*a13*m012 + (12)*m120*s23 + (12)*(c.MW : ℂ)*a03*s12 + (12)*(c.MW : ℂ)*a02*s13 + (12)*m210*s13 + (-12)*m301*s02) * i29 + ((4)*(c.MW : ℂ)*a13*a23 + (-44)*(c.MW : ℂ)*a23*s13 + (-8)*(c.MW : ℂ)*a13*s23 + (-16)*a23*m301 + (-16)*a12*m303) * i11 + ((16)*a13*m012 + (-32)*a03*m102 + (-8)*(c.MW : ℂ)*a02*a13 + (20)*a02*m103 + (4)*(c.MW : ℂ)*a01*a23 + (-12)*a23*m120 + (-12)*(c.MW : ℂ)*a02*s13 + (-12)*(c.MW : ℂ)*a03*s12) * i17 + ((32)*(c.MW : ℂ)*a23*s12 + (-16)*(c.MW : ℂ)*a12*a23 + (4)*a23*m201 + (16)*a13*m202) * i13 + ((12)*(c.MW : ℂ)*a23*s12 + (-16)*(c.MW : ℂ)*s12*s23 + (-16)*m202*s13 + (-16)*m212*s13 + (-4)*m102*s23) * i12 + ((36)*(c.MW : ℂ)*a03*s23 + (4)*(c.MW : ℂ)*s03*s23 + (16)*m013*s23) * i18 + ((-12)*(c.MW : ℂ)*a23*s12 + (4)*(c.MW : ℂ)*s12*s23 + (32)*m202*s13 + (32)*m212*s13 + (-12)*m102*s23) * i4 + ((20)*(c.MW : ℂ)*a23*s13 + (12)*(c.MW : ℂ)*a13*a23 + (12)*a23*m103 + (-20)*(c.MW : ℂ)*s13*s23 + (12)*(c.MW : ℂ)*a13*s23 + (16)*m313*s12 + (16)*m303*s12) * i10 + ((12)*(c.MW : ℂ)*a02*a13 + (12)*(c.MW : ℂ)*a02*s13 + (12)*(c.MW : ℂ)*a03*s12 + (-4)*a02*m103 + (-12)*(c.MW : ℂ)*a01*a23) * i30 + ((-4)*(c.MW : ℂ)*a01*a23 + (-16)*(c.MW : ℂ)*a03*s12 + (-16)*(c.MW : ℂ)*a02*s13 + (-4)*a23*m120) * i23 + ((-16)*(c.MW : ℂ)*a02*a03) * i24 + ((16)*(c.MW : ℂ)*a13*s03 + (-16)*m013*s13 + (16)*a01*m303 + (-16)*a03*m301) * i32 + ((-16)*(c.MW : ℂ)*a03*a13 + (-16)*a03*m301 + (-32)*(c.MW : ℂ)*a03*s13) * i33 + ((16)*(c.MW : ℂ)*a02*a03) * i31 + ((16)*m021*s13) * i34 + ((-16)*a03*m301 + (-32)*(c.MW : ℂ)*a03*s13) * i36 + ((-16)*m013*s13 + (16)*(c.MW : ℂ)*s03*s13 + (16)*m303*s01) * i35 + ((16)*m021*s13) * i37 + ((-16)*(c.MW : ℂ)*a02*a12 + (16)*(c.MW : ℂ)*a02*s12) * i39 + ((12)*a13*s23) * i44 + ((4)*a23*s13) * i45 + ((-16)*a13*s13) * i46 + ((16)*a23*s23) * i47 + ((-4)*a13*s23) * i48 + ((-12)*a23*s13) * i49 + ((16)*m012*s12 + (16)*(c.MW : ℂ)*s02*s12) * i41 + ((16)*(c.MW : ℂ)*a02*s12) * i42 + ((16)*m021*s12) * i43 + ((16)*m021*s12) * i40 + ((16)*a02*m201 + (-16)*a01*m202) * i38
  have hZ : (c.MZ : ℂ) = c.MW / c.CW := by rw [← c.mz, Complex.ofReal_div]
  try simp only [hZ] at w4 w5 w2 w3 i0 i1
  have hcs : (c.SW : ℂ) ^ 2 + (c.CW : ℂ) ^ 2 = 1 := by rw [← Complex.ofReal_pow, ← Complex.ofReal_pow, ← Complex.ofReal_add, hc.mix, Complex.ofReal_one]
  linear_combination (norm := (field_simp; first | ring1 | (ring_nf; simp only [y22]; ring1))) ((c.e : ℂ)^2/((c.MW : ℂ)^4)) * w4 / D4 + ((c.e : ℂ)^2/(4*(c.MW : ℂ)^4)) * w5 / D5 + ((c.e : ℂ)^2/(2*(c.MW : ℂ)^2*((c.MW : ℂ) / (c.CW : ℂ))^2*(c.SW : ℂ)^2)) * w2 / D2 + ((c.e : ℂ)^2/(8*(c.MW : ℂ)^2*((c.MW : ℂ) / (c.CW : ℂ))^2*(c.SW : ℂ)^2)) * w3 / D3 + ((-3)*(c.e : ℂ)^2*a01*a23*s01*s23/(2*(c.CW : ℂ)^4*((c.MW : ℂ) / (c.CW : ℂ))^4*(c.SW : ℂ)^2) + (c.e : ℂ)^2*a03*a12*s03*s12/(4*(c.CW : ℂ)^4*((c.MW : ℂ) / (c.CW : ℂ))^4*(c.SW : ℂ)^2) + (-1)*(c.e : ℂ)^2*a02*a13*s02*s13/((c.CW : ℂ)^4*((c.MW : ℂ) / (c.CW : ℂ))^4*(c.SW : ℂ)^2) + (5)*(c.e : ℂ)^2*a02*a13*s01*s23/(2*(c.CW : ℂ)^4*((c.MW : ℂ) / (c.CW : ℂ))^4*(c.SW : ℂ)^2) + (c.e : ℂ)^2*a03*a12*a13*s02/(4*(c.CW : ℂ)^4*((c.MW : ℂ) / (c.CW : ℂ))^4*(c.SW : ℂ)^2) + (c.e : ℂ)^2*a01*a23*s03*s12/(4*(c.CW : ℂ)^4*((c.MW : ℂ) / (c.CW : ℂ))^4*(c.SW : ℂ)^2) + (-3)*(c.e : ℂ)^2*a03*a12*s01*s23/(2*(c.CW : ℂ)^4*((c.MW : ℂ) / (c.CW : ℂ))^4*(c.SW : ℂ)^2) + (c.e : ℂ)^2*a02*a03*a12*a13/(4*(c.CW : ℂ)^4*((c.MW : ℂ) / (c.CW : ℂ))^4*(c.SW : ℂ)^2) + (3)*(c.e : ℂ)^2*a02*a13*s03*s12/(4*(c.CW : ℂ)^4*((c.MW : ℂ) / (c.CW : ℂ))^4*(c.SW : ℂ)^2) + (-3)*(c.e : ℂ)^2*a13*s01*s02*s23/(4*(c.CW : ℂ)^4*((c.MW : ℂ) / (c.CW : ℂ))^4*(c.SW : ℂ)^2) + (-3)*(c.e : ℂ)^2*a13*s02*s03*s12/(4*(c.CW : ℂ)^4*((c.MW : ℂ) / (c.CW : ℂ))^4*(c.SW : ℂ)^2) + (-1)*(c.e : ℂ)^2*a02^2*a13*s13/(2*(c.CW : ℂ)^4*((c.MW : ℂ) / (c.CW : ℂ))^4*(c.SW : ℂ)^2) + (3)*(c.e : ℂ)^2*a13*s02^2*s13/(4*(c.CW : ℂ)^4*((c.MW : ℂ) / (c.CW : ℂ))^4*(c.SW : ℂ)^2) + (-1)*(c.e : ℂ)^2*a02*a13^2*s02/(4*(c.CW : ℂ)^4*((c.MW : ℂ) / (c.CW : ℂ))^4*(c.SW : ℂ)^2) + (c.e : ℂ)^2*a03*s01*s12*s23/(4*(c.CW : ℂ)^4*((c.MW : ℂ) / (c.CW : ℂ))^4*(c.SW : ℂ)^2) + (c.e : ℂ)^2*a01*a02*a23*s13/(2*(c.CW : ℂ)^4*((c.MW : ℂ) / (c.CW : ℂ))^4*(c.SW : ℂ)^2) + (c.e : ℂ)^2*a02*a03*a12*s13/(2*(c.CW : ℂ)^4*((c.MW : ℂ) / (c.CW : ℂ))^4*(c.SW : ℂ)^2) + (-1)*(c.e : ℂ)^2*a23*s01*s03*s12/((c.CW : ℂ)^4*((c.MW : ℂ) / (c.CW : ℂ))^4*(c.SW : ℂ)^2) + (c.e : ℂ)^2*a01*a13*a23*s02/(4*(c.CW : ℂ)^4*((c.MW : ℂ) / (c.CW : ℂ))^4*(c.SW : ℂ)^2) + (c.e : ℂ)^2*a23*s01*s02*s13/((c.CW : ℂ)^4*((c.MW : ℂ) / (c.CW : ℂ))^4*(c.SW : ℂ)^2) + (-1)*(c.e : ℂ)^2*a23*s01^2*s23/((c.CW : ℂ)^4*((c.MW : ℂ) / (c.CW : ℂ))^4*(c.SW : ℂ)^2) + (-1)*(c.e : ℂ)^2*a02*s02*s13^2/(4*(c.CW : ℂ)^4*((c.MW : ℂ) / (c.CW : ℂ))^4*(c.SW : ℂ)^2) + (-1)*(c.e : ℂ)^2*a02^2*a13^2/(4*(c.CW : ℂ)^4*((c.MW : ℂ) / (c.CW : ℂ))^4*(c.SW : ℂ)^2) + (c.e : ℂ)^2*a01*a02*a13*a23/(4*(c.CW : ℂ)^4*((c.MW : ℂ) / (c.CW : ℂ))^4*(c.SW : ℂ)^2) + (-1)*(c.e : ℂ)^2*a03*s02*s12*s13/(4*(c.CW : ℂ)^4*((c.MW : ℂ) / (c.CW : ℂ))^4*(c.SW : ℂ)^2) + (c.e : ℂ)^2*a02*s01*s13*s23/(4*(c.CW : ℂ)^4*((c.MW : ℂ) / (c.CW : ℂ))^4*(c.SW : ℂ)^2) + (c.e : ℂ)^2*a02*s03*s12*s13/(4*(c.CW : ℂ)^4*((c.MW : ℂ) / (c.CW : ℂ))^4*(c.SW : ℂ)^2) + (c.e : ℂ)^2*a03*s03*s12^2/(4*(c.CW : ℂ)^4*((c.MW : ℂ) / (c.CW : ℂ))^4*(c.SW : ℂ)^2)) * hcs + ((c.e : ℂ)*(c.e : ℂ)*s03*s12/(4*(c.MW : ℂ)^4*(c.SW : ℂ)*(c.SW : ℂ)) + (c.e : ℂ)*(c.e : ℂ)*s01*s23/(8*(c.MW : ℂ)^2*((c.MW : ℂ) / (c.CW : ℂ))^2*(c.SW : ℂ)*(c.SW : ℂ)) + (c.e : ℂ)*(c.e : ℂ)*a02*a13/(8*(c.MW : ℂ)^2*((c.MW : ℂ) / (c.CW : ℂ))^2*(c.SW : ℂ)*(c.SW : ℂ)) + (c.e : ℂ)*(c.e : ℂ)*a13*s02/(8*(c.MW : ℂ)^2*((c.MW : ℂ) / (c.CW : ℂ))^2*(c.SW : ℂ)*(c.SW : ℂ)) + (c.e : ℂ)*(c.e : ℂ)*s03*s12/(8*(c.MW : ℂ)^2*((c.MW : ℂ) / (c.CW : ℂ))^2*(c.SW : ℂ)*(c.SW : ℂ)) + (-5)*(c.e : ℂ)*(c.e : ℂ)*s02*s13/(8*(c.MW : ℂ)^2*((c.MW : ℂ) / (c.CW : ℂ))^2*(c.SW : ℂ)*(c.SW : ℂ)) + (-3)*(c.e : ℂ)*(c.e : ℂ)*s01*s23/(2*(c.MW : ℂ)^4*(c.SW : ℂ)*(c.SW : ℂ)) + (c.e : ℂ)*(c.e : ℂ)*a02*s13/(2*(c.MW : ℂ)^4*(c.SW : ℂ)*(c.SW : ℂ)) + (c.e : ℂ)*(c.e : ℂ)*a13*s02/(4*(c.MW : ℂ)^4*(c.SW : ℂ)*(c.SW : ℂ)) + (c.e : ℂ)*(c.e : ℂ)*a02*a13/(4*(c.MW : ℂ)^4*(c.SW : ℂ)*(c.SW : ℂ))) * i0 + ((c.e : ℂ)*(c.e : ℂ)*a02*a13/((c.MW : ℂ)^4*(c.SW : ℂ)*(c.SW : ℂ)) + (-1)*(c.e : ℂ)*(c.e : ℂ)*a02*a13/(8*(c.MW : ℂ)^2*((c.MW : ℂ) / (c.CW : ℂ))^2*(c.SW : ℂ)*(c.SW : ℂ)) + (-1)*(c.e : ℂ)*(c.e : ℂ)*a01*a23/(8*(c.MW : ℂ)^2*((c.MW : ℂ) / (c.CW : ℂ))^2*(c.SW : ℂ)*(c.SW : ℂ)) + (c.e : ℂ)*(c.e : ℂ)*a02*s13/(8*(c.MW : ℂ)^2*((c.MW : ℂ) / (c.CW : ℂ))^2*(c.SW : ℂ)*(c.SW : ℂ)) + (c.e : ℂ)*(c.e : ℂ)*a03*s12/(8*(c.MW : ℂ)^2*((c.MW : ℂ) / (c.CW : ℂ))^2*(c.SW : ℂ)*(c.SW : ℂ)) + (c.e : ℂ)*(c.e : ℂ)*a13*s02/(8*(c.MW : ℂ)^2*((c.MW : ℂ) / (c.CW : ℂ))^2*(c.SW : ℂ)*(c.SW : ℂ)) + (-3)*(c.e : ℂ)*(c.e : ℂ)*a13*s02/(4*(c.MW : ℂ)^4*(c.SW : ℂ)*(c.SW : ℂ)) + (c.e : ℂ)*(c.e : ℂ)*a03*s12/(4*(c.MW : ℂ)^4*(c.SW : ℂ)*(c.SW : ℂ)) + (-1)*(c.e : ℂ)*(c.e : ℂ)*a23*s01/((c.MW : ℂ)^4*(c.SW : ℂ)*(c.SW : ℂ)) + (c.e : ℂ)*(c.e : ℂ)*a02*s13/(4*(c.MW : ℂ)^4*(c.SW : ℂ)*(c.SW : ℂ))) * i1
set_option maxRecDepth 8000 in
theorem WWWW.amp2_eq (N : Env) (f : Nat → List Int → ℂ) : Cls.WWWW.m_amp2.mean N f .r [] =
    ((sumV (fun x a => (sumV (fun x b => (sumV (fun x c => (sumV (fun x d => (x + (‖(f 0 [a, b, c, d])‖ ^ 2))) x)) x)) x)) ((0 : Nat) : ℝ)) / ((18 : Nat) : ℝ)) := by rfl
set_option maxRecDepth 8000 in
theorem WWWW.value (N : Env) : meaning N .r Cls.WWWW.methods Cls.WWWW.amp2 [] =
    ((sumV (fun x a => (sumV (fun x b => (sumV (fun x c => (sumV (fun x d => (x + (‖(Cls.WWWW.m_amp.mean N (callMean N []) .c [a, b, c, d])‖ ^ 2))) x)) x)) x)) ((0 : Nat) : ℝ)) / ((18 : Nat) : ℝ)) :=
  WWWW.amp2_eq N (callMean N [Cls.WWWW.m_amp])
set_option maxRecDepth 8000 in
theorem WWWW.term_lin (N : Env) (w : ℝ) (x : ℂ) (a0 b0 a1 b1 a2 b2 a3 b3 : Int) : WWWW.term N w x a0 b0 a1 b1 a2 b2 a3 b3 = x + (w : ℂ) * WWWW.term N 1 0 a0 b0 a1 b1 a2 b2 a3 b3 := by
  simp only [WWWW.term]; push_cast; ring
theorem WWWW.amp_eq (N : Env) (f : Nat → List Int → ℂ) (t0 t1 t2 t3 : Fin 3) : Cls.WWWW.m_amp.mean N f .c [spinV t0, spinV t1, spinV t2, spinV t3] = comb t0 (fun a0 b0 => comb t1 (fun a1 b1 => comb t2 (fun a2 b2 => comb t3 (fun a3 b3 => WWWW.term N 1 0 (spinOf a0) (spinOf b0) (spinOf a1) (spinOf b1) (spinOf a2) (spinOf b2) (spinOf a3) (spinOf b3))))) := by
  refine (amp_mean N f (m := 4) (K := 12) (G := fun i => WWWW.term N 1 0 (i 4) (i 5) (i 6) (i 7) (i 8) (i 9) (i 10) (i 11)) (fun l => ?_) (fun i i' h => ?_) rfl (by decide) (by decide) (by decide) (by decide) (by decide)).trans ?_
  · refine ⟨_, rfl, rfl, rfl, Eq.trans ?_ (WWWW.term_lin N (l.r 0) (l.c 0) (l.i 4) (l.i 5) (l.i 6) (l.i 7) (l.i 8) (l.i 9) (l.i 10) (l.i 11))⟩
    rw [WWWW.term]
    with_reducible simp only [Exp.mean, madd, msub, mmul, mdiv, mneg, Env.mem]
    rfl
  · simp only [h 4 (by decide), h 5 (by decide), h 6 (by decide), h 7 (by decide), h 8 (by decide), h 9 (by decide), h 10 (by decide), h 11 (by decide)]
  · show amp' _ [spinV t0, spinV t1, spinV t2, spinV t3] = _
    simp only [amp'_comb, amp'_nil]
    rfl
theorem WWWW.form_x0 (N : Env) (p : Nat → V4 ℝ) (y0 x1 y1 x2 y2 x3 y3 x y : Pair) : WWWW.form N p (x + y) y0 x1 y1 x2 y2 x3 y3 = WWWW.form N p x y0 x1 y1 x2 y2 x3 y3 + WWWW.form N p y y0 x1 y1 x2 y2 x3 y3 := by
  simp only [WWWW.form, Prod.fst_add, Prod.snd_add, ab_add_left, ab_add_right, sb_add_left, sb_add_right, mb_add_left, mb_add_right]
  ring
theorem WWWW.form_y0 (N : Env) (p : Nat → V4 ℝ) (x0 x1 y1 x2 y2 x3 y3 x y : Pair) : WWWW.form N p x0 (x + y) x1 y1 x2 y2 x3 y3 = WWWW.form N p x0 x x1 y1 x2 y2 x3 y3 + WWWW.form N p x0 y x1 y1 x2 y2 x3 y3 := by
  simp only [WWWW.form, Prod.fst_add, Prod.snd_add, ab_add_left, ab_add_right, sb_add_left, sb_add_right, mb_add_left, mb_add_right]
  ring
theorem WWWW.form_x1 (N : Env) (p : Nat → V4 ℝ) (x0 y0 y1 x2 y2 x3 y3 x y : Pair) : WWWW.form N p x0 y0 (x + y) y1 x2 y2 x3 y3 = WWWW.form N p x0 y0 x y1 x2 y2 x3 y3 + WWWW.form N p x0 y0 y y1 x2 y2 x3 y3 := by
  simp only [WWWW.form, Prod.fst_add, Prod.snd_add, ab_add_left, ab_add_right, sb_add_left, sb_add_right, mb_add_left, mb_add_right]
  ring
theorem WWWW.form_y1 (N : Env) (p : Nat → V4 ℝ) (x0 y0 x1 x2 y2 x3 y3 x y : Pair) : WWWW.form N p x0 y0 x1 (x + y) x2 y2 x3 y3 = WWWW.form N p x0 y0 x1 x x2 y2 x3 y3 + WWWW.form N p x0 y0 x1 y x2 y2 x3 y3 := by
  simp only [WWWW.form, Prod.fst_add, Prod.snd_add, ab_add_left, ab_add_right, sb_add_left, sb_add_right, mb_add_left, mb_add_right]
  ring
theorem WWWW.form_x2 (N : Env) (p : Nat → V4 ℝ) (x0 y0 x1 y1 y2 x3 y3 x y : Pair) : WWWW.form N p x0 y0 x1 y1 (x + y) y2 x3 y3 = WWWW.form N p x0 y0 x1 y1 x y2 x3 y3 + WWWW.form N p x0 y0 x1 y1 y y2 x3 y3 := by
  simp only [WWWW.form, Prod.fst_add, Prod.snd_add, ab_add_left, ab_add_right, sb_add_left, sb_add_right, mb_add_left, mb_add_right]
  ring
theorem WWWW.form_y2 (N : Env) (p : Nat → V4 ℝ) (x0 y0 x1 y1 x2 x3 y3 x y : Pair) : WWWW.form N p x0 y0 x1 y1 x2 (x + y) x3 y3 = WWWW.form N p x0 y0 x1 y1 x2 x x3 y3 + WWWW.form N p x0 y0 x1 y1 x2 y x3 y3 := by
  simp only [WWWW.form, Prod.fst_add, Prod.snd_add, ab_add_left, ab_add_right, sb_add_left, sb_add_right, mb_add_left, mb_add_right]
  ring
theorem WWWW.form_x3 (N : Env) (p : Nat → V4 ℝ) (x0 y0 x1 y1 x2 y2 y3 x y : Pair) : WWWW.form N p x0 y0 x1 y1 x2 y2 (x + y) y3 = WWWW.form N p x0 y0 x1 y1 x2 y2 x y3 + WWWW.form N p x0 y0 x1 y1 x2 y2 y y3 := by
  simp only [WWWW.form, Prod.fst_add, Prod.snd_add, ab_add_left, ab_add_right, sb_add_left, sb_add_right, mb_add_left, mb_add_right]
  ring
theorem WWWW.form_y3 (N : Env) (p : Nat → V4 ℝ) (x0 y0 x1 y1 x2 y2 x3 x y : Pair) : WWWW.form N p x0 y0 x1 y1 x2 y2 x3 (x + y) = WWWW.form N p x0 y0 x1 y1 x2 y2 x3 x + WWWW.form N p x0 y0 x1 y1 x2 y2 x3 y := by
  simp only [WWWW.form, Prod.fst_add, Prod.snd_add, ab_add_left, ab_add_right, sb_add_left, sb_add_right, mb_add_left, mb_add_right]
  ring

theorem WWWW.mass_eq {c : Constants} (hc : c.Physical) (i : Fin 4) : WWWW.proc.massNum (WWWW.rho c) i = WWWW.react.mass c i := by
  fin_cases i <;> first | rfl | (show c.MW / √(((1 : Nat) : ℝ) - c.SW * c.SW) = c.MZ; rw [c.root, c.mz])

variable [FPEnv] in
theorem WWWW.agrees : WWWW.Agrees := by
  refine agrees_of (D := [3, 5]) (E := [5]) (by simp [all, WWWW]) (by decide +kernel) (by decide) (by decide +kernel) (fun c hc hh => ⟨List.forall_mem_cons.2 ⟨hc.MW, List.forall_mem_cons.2 ⟨hc.SW, List.forall_mem_nil _⟩⟩, List.forall_mem_cons.2 ⟨hc.SW_lt, List.forall_mem_nil _⟩⟩) (fun c hc i => WWWW.mass_eq hc i) (by decide +kernel) ?_
  intro c p u ε hc hh hw h0 hs hb hr hu
  have he : WWWW.react.ends = [] := by decide
  have ht : WWWW.react.starts = [] := by decide
  have hB : WWWW.react.bosons = [0, 1, 2, 3] := by decide
  have hM : WWWW.react.allMassive = true := by decide
  obtain ⟨f1, f2, f3⟩ := WWWW.react.regular_four he ht hB hr
  have hWZ : c.WZ = 0 := hw .WZ (by simp [WWWW])
  have r3 : (WWWW.N c p).r 3 = c.MW := rfl
  have r6 : (WWWW.N c p).r 6 = √((((1 : Nat) : ℝ) - (c.SW * c.SW))) := rfl
  simp only [c.root] at r6
  have r7 : (WWWW.N c p).r 7 = (c.MW / √((((1 : Nat) : ℝ) - (c.SW * c.SW)))) := rfl
  simp only [c.root] at r7
  have r8 : (WWWW.N c p).r 8 = ((c.e * c.e) / (((c.MW * c.MW) * c.SW) * c.SW)) := rfl
  have r9 : (WWWW.N c p).r 9 = ((c.e * c.e) / ((c.MW * c.MW) * c.MW)) := rfl
  have r10 : (WWWW.N c p).r 10 = ((c.e * c.e) / (((((((2 : Nat) : ℝ) * c.MW) * c.MW) * (c.MW / √((((1 : Nat) : ℝ) - (c.SW * c.SW))))) * c.SW) * c.SW)) := rfl
  simp only [c.root] at r10
  have c0 : (WWWW.N c p).c 0 = poleDist c.MH c.WH ((VExp.sub 0 2).sum p) := rfl
  rw [pole_congr (msq_t hb (plus (p 0) (backward (p 2))) (by simp)).symm] at c0
  have d0 : pole c.MH c.WH (plus (p 0) (backward (p 2))) = (WWWW.N c p).c 0 := by rw [c0]
  have n0 : (WWWW.N c p).c 0 ≠ 0 := by rw [← d0]; exact star_ne_zero.2 (f2 .higgs rfl rfl)
  have c1 : (WWWW.N c p).c 1 = poleDist c.MH c.WH ((VExp.sub 0 3).sum p) := rfl
  rw [pole_congr (msq_u hb (plus (p 0) (backward (p 3))) (by simp)).symm] at c1
  have d1 : pole c.MH c.WH (plus (p 0) (backward (p 3))) = (WWWW.N c p).c 1 := by rw [c1]
  have n1 : (WWWW.N c p).c 1 ≠ 0 := by rw [← d1]; exact star_ne_zero.2 (f3 .higgs rfl rfl)
  have c2 : (WWWW.N c p).c 2 = poleDist (c.MW / √((((1 : Nat) : ℝ) - (c.SW * c.SW)))) c.WZ ((VExp.sub 0 2).sum p) := rfl
  rw [c.root, c.mz, pole_congr (msq_t hb (plus (p 0) (backward (p 2))) (by simp)).symm] at c2
  have d2 : pole c.MZ c.WZ (plus (p 0) (backward (p 2))) = (WWWW.N c p).c 2 := by rw [c2]
  have n2 : (WWWW.N c p).c 2 ≠ 0 := by rw [← d2]; exact star_ne_zero.2 (f2 .z rfl rfl)
  have c3 : (WWWW.N c p).c 3 = poleDist (c.MW / √((((1 : Nat) : ℝ) - (c.SW * c.SW)))) c.WZ ((VExp.sub 0 3).sum p) := rfl
  rw [c.root, c.mz, pole_congr (msq_u hb (plus (p 0) (backward (p 3))) (by simp)).symm] at c3
  have d3 : pole c.MZ c.WZ (plus (p 0) (backward (p 3))) = (WWWW.N c p).c 3 := by rw [c3]
  have n3 : (WWWW.N c p).c 3 ≠ 0 := by rw [← d3]; exact star_ne_zero.2 (f3 .z rfl rfl)
  have c4 : (WWWW.N c p).c 4 = poleDist ((0 : Nat) : ℝ) ((0 : Nat) : ℝ) ((VExp.sub 0 2).sum p) := rfl
  rw [Nat.cast_zero, pole_congr (msq_t hb (plus (p 0) (backward (p 2))) (by simp)).symm] at c4
  have d4 : pole 0 0 (plus (p 0) (backward (p 2))) = (WWWW.N c p).c 4 := by rw [c4]
  have n4 : (WWWW.N c p).c 4 ≠ 0 := by rw [← d4]; exact star_ne_zero.2 (f2 .photon rfl rfl)
  have c5 : (WWWW.N c p).c 5 = poleDist ((0 : Nat) : ℝ) ((0 : Nat) : ℝ) ((VExp.sub 0 3).sum p) := rfl
  rw [Nat.cast_zero, pole_congr (msq_u hb (plus (p 0) (backward (p 3))) (by simp)).symm] at c5
  have d5 : pole 0 0 (plus (p 0) (backward (p 3))) = (WWWW.N c p).c 5 := by rw [c5]
  have n5 : (WWWW.N c p).c 5 ≠ 0 := by rw [← d5]; exact star_ne_zero.2 (f3 .photon rfl rfl)
  have m0 : WWWW.react.mass c 0 ≠ 0 := (leg_pos hc hh (by decide)).ne'
  have m1 : WWWW.react.mass c 1 ≠ 0 := (leg_pos hc hh (by decide)).ne'
  have m2 : WWWW.react.mass c 2 ≠ 0 := (leg_pos hc hh (by decide)).ne'
  have m3 : WWWW.react.mass c 3 ≠ 0 := (leg_pos hc hh (by decide)).ne'
  have hd : WWWW.proc.divides = [(Ty.c, 0), (Ty.c, 1), (Ty.c, 4), (Ty.c, 5), (Ty.c, 2), (Ty.c, 3)] := by decide +kernel
  refine ⟨fun n hn => ?_, fun n hn => ?_, ?_⟩
  · simp [hd] at hn
  · simp [hd] at hn
    rcases hn with rfl | rfl | rfl | rfl | rfl | rfl
    · exact n0
    · exact n1
    · exact n4
    · exact n5
    · exact n2
    · exact n3
  have st : ∀ (t0 t1 t2 t3 : Fin 3), comb t0 (fun a0 b0 => comb t1 (fun a1 b1 => comb t2 (fun a2 b2 => comb t3 (fun a3 b3 => WWWW.form (WWWW.N c p) p (WWWW.react.codePair c p 0 a0) (WWWW.react.codePair c p 0 b0) (WWWW.react.codePair c p 1 a1) (WWWW.react.codePair c p 1 b1) (WWWW.react.codePair c p 2 a2) (WWWW.react.codePair c p 2 b2) (WWWW.react.codePair c p 3 a3) (WWWW.react.codePair c p 3 b3))))) = 1 * WWWW.react.bare4 c p (WWWW.react.codeVec c p 0 t0) (WWWW.react.codeVec c p 1 t1) (WWWW.react.codeVec c p 2 t2) (WWWW.react.codeVec c p 3 t3) := by
    intro t0 t1 t2 t3
    refine four_vectors (p₀ := p 0) (m₀ := WWWW.react.mass c 0) (p₁ := p 1) (m₁ := WWWW.react.mass c 1) (p₂ := p 2) (m₂ := WWWW.react.mass c 2) (p₃ := p 3) (m₃ := WWWW.react.mass c 3) (fun s => WWWW.react.codePair_bold hs h0 0 s) (fun s => WWWW.react.codePair_bold hs h0 1 s) (fun s => WWWW.react.codePair_bold hs h0 2 s) (fun s => WWWW.react.codePair_bold hs h0 3 s) (B := fun x0 x0b x1 x1b x2 x2b x3 x3b => WWWW.form (WWWW.N c p) p x0 x0b x1 x1b x2 x2b x3 x3b) (fun _ _ _ _ _ _ _ _ _ => ?_) (fun _ _ _ _ _ _ _ _ _ => ?_) (fun _ _ _ _ _ _ _ _ _ => ?_) (fun _ _ _ _ _ _ _ _ _ => ?_) (fun _ _ _ _ _ _ _ _ _ => ?_) (fun _ _ _ _ _ _ _ _ _ => ?_) (fun _ _ _ _ _ _ _ _ _ => ?_) (fun _ _ _ _ _ _ _ _ _ => ?_) (G := fun E F G H => WWWW.react.bare4 c p E F G H) (fun _ _ _ => WWWW.react.bare4_lin₀ c p (by decide) _ _ _) (fun _ _ _ => WWWW.react.bare4_lin₁ c p (by decide) _ _ _) (fun _ _ _ => WWWW.react.bare4_lin₂ c p (by decide) _ _ _) (fun _ _ _ => WWWW.react.bare4_lin₃ c p (by decide) _ _ _) 1 (fun z0 z1 z2 z3 b0 b1 b2 b3 => ?_) t0 t1 t2 t3
    · exact WWWW.form_x0 ..
    · exact WWWW.form_y0 ..
    · exact WWWW.form_x1 ..
    · exact WWWW.form_y1 ..
    · exact WWWW.form_x2 ..
    · exact WWWW.form_y2 ..
    · exact WWWW.form_x3 ..
    · exact WWWW.form_y3 ..
    · rw [one_mul]; exact WWWW.key hc hb r3 r6 r7 r8 r9 r10 d0 n0 d1 n1 d2 n2 d3 n3 d4 n4 d5 n5 b0 b1 b2 b3 (onShell_msq (hs 0)) (onShell_msq (hs 1)) (onShell_msq (hs 2)) (onShell_msq (hs 3)) hWZ 
  have am : ∀ (t0 t1 t2 t3 : Fin 3), Cls.WWWW.m_amp.mean (WWWW.N c p) (callMean (WWWW.N c p) []) .c [spinV t0, spinV t1, spinV t2, spinV t3] = 1 * WWWW.react.bare4 c p (WWWW.react.codeVec c p 0 t0) (WWWW.react.codeVec c p 1 t1) (WWWW.react.codeVec c p 2 t2) (WWWW.react.codeVec c p 3 t3) := by
    intro t0 t1 t2 t3
    rw [WWWW.amp_eq, ← st t0 t1 t2 t3]
    refine congrArg (comb t0) (funext fun a0 => funext fun b0 => ?_)
    refine congrArg (comb t1) (funext fun a1 => funext fun b1 => ?_)
    refine congrArg (comb t2) (funext fun a2 => funext fun b2 => ?_)
    refine congrArg (comb t3) (funext fun a3 => funext fun b3 => ?_)
    have v11x0x2 : (WWWW.N c p).v 11 [spinOf a0, spinOf a2] = sb (WWWW.react.codePair c p 0 a0).2 (WWWW.react.codePair c p 2 a2).2 := bra_square (p := p) (m := WWWW.proc.massNum (WWWW.rho c)) (WWWW.mass_eq hc 0) (WWWW.mass_eq hc 2) (.inl ⟨m0, rfl⟩) (.inl ⟨m2, rfl⟩)
    have v10y0y2 : (WWWW.N c p).v 10 [spinOf b0, spinOf b2] = ab (WWWW.react.codePair c p 0 b0).1 (WWWW.react.codePair c p 2 b2).1 := bra_angle (p := p) (m := WWWW.proc.massNum (WWWW.rho c)) (WWWW.mass_eq hc 0) (WWWW.mass_eq hc 2) (.inl ⟨m0, rfl⟩) (.inl ⟨m2, rfl⟩)
    have v4x1x3 : (WWWW.N c p).v 4 [spinOf a1, spinOf a3] = sb (WWWW.react.codePair c p 1 a1).2 (WWWW.react.codePair c p 3 a3).2 := bra_square (p := p) (m := WWWW.proc.massNum (WWWW.rho c)) (WWWW.mass_eq hc 1) (WWWW.mass_eq hc 3) (.inl ⟨m1, rfl⟩) (.inl ⟨m3, rfl⟩)
    have v5y1y3 : (WWWW.N c p).v 5 [spinOf b1, spinOf b3] = ab (WWWW.react.codePair c p 1 b1).1 (WWWW.react.codePair c p 3 b3).1 := bra_angle (p := p) (m := WWWW.proc.massNum (WWWW.rho c)) (WWWW.mass_eq hc 1) (WWWW.mass_eq hc 3) (.inl ⟨m1, rfl⟩) (.inl ⟨m3, rfl⟩)
    have v9x0x3 : (WWWW.N c p).v 9 [spinOf a0, spinOf a3] = sb (WWWW.react.codePair c p 0 a0).2 (WWWW.react.codePair c p 3 a3).2 := bra_square (p := p) (m := WWWW.proc.massNum (WWWW.rho c)) (WWWW.mass_eq hc 0) (WWWW.mass_eq hc 3) (.inl ⟨m0, rfl⟩) (.inl ⟨m3, rfl⟩)
    have v8y0y3 : (WWWW.N c p).v 8 [spinOf b0, spinOf b3] = ab (WWWW.react.codePair c p 0 b0).1 (WWWW.react.codePair c p 3 b3).1 := bra_angle (p := p) (m := WWWW.proc.massNum (WWWW.rho c)) (WWWW.mass_eq hc 0) (WWWW.mass_eq hc 3) (.inl ⟨m0, rfl⟩) (.inl ⟨m3, rfl⟩)
    have v6x1x2 : (WWWW.N c p).v 6 [spinOf a1, spinOf a2] = sb (WWWW.react.codePair c p 1 a1).2 (WWWW.react.codePair c p 2 a2).2 := bra_square (p := p) (m := WWWW.proc.massNum (WWWW.rho c)) (WWWW.mass_eq hc 1) (WWWW.mass_eq hc 2) (.inl ⟨m1, rfl⟩) (.inl ⟨m2, rfl⟩)
    have v7y1y2 : (WWWW.N c p).v 7 [spinOf b1, spinOf b2] = ab (WWWW.react.codePair c p 1 b1).1 (WWWW.react.codePair c p 2 b2).1 := bra_angle (p := p) (m := WWWW.proc.massNum (WWWW.rho c)) (WWWW.mass_eq hc 1) (WWWW.mass_eq hc 2) (.inl ⟨m1, rfl⟩) (.inl ⟨m2, rfl⟩)
    have v5x1x3 : (WWWW.N c p).v 5 [spinOf a1, spinOf a3] = ab (WWWW.react.codePair c p 1 a1).1 (WWWW.react.codePair c p 3 a3).1 := bra_angle (p := p) (m := WWWW.proc.massNum (WWWW.rho c)) (WWWW.mass_eq hc 1) (WWWW.mass_eq hc 3) (.inl ⟨m1, rfl⟩) (.inl ⟨m3, rfl⟩)
    have v2x2y3 : (WWWW.N c p).v 2 [spinOf a2, spinOf b3] = ab (WWWW.react.codePair c p 2 a2).1 (WWWW.react.codePair c p 3 b3).1 := bra_angle (p := p) (m := WWWW.proc.massNum (WWWW.rho c)) (WWWW.mass_eq hc 2) (WWWW.mass_eq hc 3) (.inl ⟨m2, rfl⟩) (.inl ⟨m3, rfl⟩)
    have v0x0y1 : (WWWW.N c p).v 0 [spinOf a0, spinOf b1] = sb (WWWW.react.codePair c p 0 a0).2 (WWWW.react.codePair c p 1 b1).2 := bra_square (p := p) (m := WWWW.proc.massNum (WWWW.rho c)) (WWWW.mass_eq hc 0) (WWWW.mass_eq hc 1) (.inl ⟨m0, rfl⟩) (.inl ⟨m1, rfl⟩)
    have v11y0y2 : (WWWW.N c p).v 11 [spinOf b0, spinOf b2] = sb (WWWW.react.codePair c p 0 b0).2 (WWWW.react.codePair c p 2 b2).2 := bra_square (p := p) (m := WWWW.proc.massNum (WWWW.rho c)) (WWWW.mass_eq hc 0) (WWWW.mass_eq hc 2) (.inl ⟨m0, rfl⟩) (.inl ⟨m2, rfl⟩)
    have v10x0x2 : (WWWW.N c p).v 10 [spinOf a0, spinOf a2] = ab (WWWW.react.codePair c p 0 a0).1 (WWWW.react.codePair c p 2 a2).1 := bra_angle (p := p) (m := WWWW.proc.massNum (WWWW.rho c)) (WWWW.mass_eq hc 0) (WWWW.mass_eq hc 2) (.inl ⟨m0, rfl⟩) (.inl ⟨m2, rfl⟩)
    have v7x1y2 : (WWWW.N c p).v 7 [spinOf a1, spinOf b2] = ab (WWWW.react.codePair c p 1 a1).1 (WWWW.react.codePair c p 2 b2).1 := bra_angle (p := p) (m := WWWW.proc.massNum (WWWW.rho c)) (WWWW.mass_eq hc 1) (WWWW.mass_eq hc 2) (.inl ⟨m1, rfl⟩) (.inl ⟨m2, rfl⟩)
    have v5y1x3 : (WWWW.N c p).v 5 [spinOf b1, spinOf a3] = ab (WWWW.react.codePair c p 1 b1).1 (WWWW.react.codePair c p 3 a3).1 := bra_angle (p := p) (m := WWWW.proc.massNum (WWWW.rho c)) (WWWW.mass_eq hc 1) (WWWW.mass_eq hc 3) (.inl ⟨m1, rfl⟩) (.inl ⟨m3, rfl⟩)
    have v9y0y3 : (WWWW.N c p).v 9 [spinOf b0, spinOf b3] = sb (WWWW.react.codePair c p 0 b0).2 (WWWW.react.codePair c p 3 b3).2 := bra_square (p := p) (m := WWWW.proc.massNum (WWWW.rho c)) (WWWW.mass_eq hc 0) (WWWW.mass_eq hc 3) (.inl ⟨m0, rfl⟩) (.inl ⟨m3, rfl⟩)
    have v7x1x2 : (WWWW.N c p).v 7 [spinOf a1, spinOf a2] = ab (WWWW.react.codePair c p 1 a1).1 (WWWW.react.codePair c p 2 a2).1 := bra_angle (p := p) (m := WWWW.proc.massNum (WWWW.rho c)) (WWWW.mass_eq hc 1) (WWWW.mass_eq hc 2) (.inl ⟨m1, rfl⟩) (.inl ⟨m2, rfl⟩)
    have v11x0y2 : (WWWW.N c p).v 11 [spinOf a0, spinOf b2] = sb (WWWW.react.codePair c p 0 a0).2 (WWWW.react.codePair c p 2 b2).2 := bra_square (p := p) (m := WWWW.proc.massNum (WWWW.rho c)) (WWWW.mass_eq hc 0) (WWWW.mass_eq hc 2) (.inl ⟨m0, rfl⟩) (.inl ⟨m2, rfl⟩)
    have v1x0y1 : (WWWW.N c p).v 1 [spinOf a0, spinOf b1] = ab (WWWW.react.codePair c p 0 a0).1 (WWWW.react.codePair c p 1 b1).1 := bra_angle (p := p) (m := WWWW.proc.massNum (WWWW.rho c)) (WWWW.mass_eq hc 0) (WWWW.mass_eq hc 1) (.inl ⟨m0, rfl⟩) (.inl ⟨m1, rfl⟩)
    have v2x2x3 : (WWWW.N c p).v 2 [spinOf a2, spinOf a3] = ab (WWWW.react.codePair c p 2 a2).1 (WWWW.react.codePair c p 3 a3).1 := bra_angle (p := p) (m := WWWW.proc.massNum (WWWW.rho c)) (WWWW.mass_eq hc 2) (WWWW.mass_eq hc 3) (.inl ⟨m2, rfl⟩) (.inl ⟨m3, rfl⟩)
    have v4x1y3 : (WWWW.N c p).v 4 [spinOf a1, spinOf b3] = sb (WWWW.react.codePair c p 1 a1).2 (WWWW.react.codePair c p 3 b3).2 := bra_square (p := p) (m := WWWW.proc.massNum (WWWW.rho c)) (WWWW.mass_eq hc 1) (WWWW.mass_eq hc 3) (.inl ⟨m1, rfl⟩) (.inl ⟨m3, rfl⟩)
    have v8x0x3 : (WWWW.N c p).v 8 [spinOf a0, spinOf a3] = ab (WWWW.react.codePair c p 0 a0).1 (WWWW.react.codePair c p 3 a3).1 := bra_angle (p := p) (m := WWWW.proc.massNum (WWWW.rho c)) (WWWW.mass_eq hc 0) (WWWW.mass_eq hc 3) (.inl ⟨m0, rfl⟩) (.inl ⟨m3, rfl⟩)
    have v5x1y3 : (WWWW.N c p).v 5 [spinOf a1, spinOf b3] = ab (WWWW.react.codePair c p 1 a1).1 (WWWW.react.codePair c p 3 b3).1 := bra_angle (p := p) (m := WWWW.proc.massNum (WWWW.rho c)) (WWWW.mass_eq hc 1) (WWWW.mass_eq hc 3) (.inl ⟨m1, rfl⟩) (.inl ⟨m3, rfl⟩)
    have v11y0x2 : (WWWW.N c p).v 11 [spinOf b0, spinOf a2] = sb (WWWW.react.codePair c p 0 b0).2 (WWWW.react.codePair c p 2 a2).2 := bra_square (p := p) (m := WWWW.proc.massNum (WWWW.rho c)) (WWWW.mass_eq hc 0) (WWWW.mass_eq hc 2) (.inl ⟨m0, rfl⟩) (.inl ⟨m2, rfl⟩)
    have v6y1y2 : (WWWW.N c p).v 6 [spinOf b1, spinOf b2] = sb (WWWW.react.codePair c p 1 b1).2 (WWWW.react.codePair c p 2 b2).2 := bra_square (p := p) (m := WWWW.proc.massNum (WWWW.rho c)) (WWWW.mass_eq hc 1) (WWWW.mass_eq hc 2) (.inl ⟨m1, rfl⟩) (.inl ⟨m2, rfl⟩)
    have v8y0x3 : (WWWW.N c p).v 8 [spinOf b0, spinOf a3] = ab (WWWW.react.codePair c p 0 b0).1 (WWWW.react.codePair c p 3 a3).1 := bra_angle (p := p) (m := WWWW.proc.massNum (WWWW.rho c)) (WWWW.mass_eq hc 0) (WWWW.mass_eq hc 3) (.inl ⟨m0, rfl⟩) (.inl ⟨m3, rfl⟩)
    have v4y1y3 : (WWWW.N c p).v 4 [spinOf b1, spinOf b3] = sb (WWWW.react.codePair c p 1 b1).2 (WWWW.react.codePair c p 3 b3).2 := bra_square (p := p) (m := WWWW.proc.massNum (WWWW.rho c)) (WWWW.mass_eq hc 1) (WWWW.mass_eq hc 3) (.inl ⟨m1, rfl⟩) (.inl ⟨m3, rfl⟩)
    have v9y0x3 : (WWWW.N c p).v 9 [spinOf b0, spinOf a3] = sb (WWWW.react.codePair c p 0 b0).2 (WWWW.react.codePair c p 3 a3).2 := bra_square (p := p) (m := WWWW.proc.massNum (WWWW.rho c)) (WWWW.mass_eq hc 0) (WWWW.mass_eq hc 3) (.inl ⟨m0, rfl⟩) (.inl ⟨m3, rfl⟩)
    have v6x1y2 : (WWWW.N c p).v 6 [spinOf a1, spinOf b2] = sb (WWWW.react.codePair c p 1 a1).2 (WWWW.react.codePair c p 2 b2).2 := bra_square (p := p) (m := WWWW.proc.massNum (WWWW.rho c)) (WWWW.mass_eq hc 1) (WWWW.mass_eq hc 2) (.inl ⟨m1, rfl⟩) (.inl ⟨m2, rfl⟩)
    have v10x0y2 : (WWWW.N c p).v 10 [spinOf a0, spinOf b2] = ab (WWWW.react.codePair c p 0 a0).1 (WWWW.react.codePair c p 2 b2).1 := bra_angle (p := p) (m := WWWW.proc.massNum (WWWW.rho c)) (WWWW.mass_eq hc 0) (WWWW.mass_eq hc 2) (.inl ⟨m0, rfl⟩) (.inl ⟨m2, rfl⟩)
    have v0y0y1 : (WWWW.N c p).v 0 [spinOf b0, spinOf b1] = sb (WWWW.react.codePair c p 0 b0).2 (WWWW.react.codePair c p 1 b1).2 := bra_square (p := p) (m := WWWW.proc.massNum (WWWW.rho c)) (WWWW.mass_eq hc 0) (WWWW.mass_eq hc 1) (.inl ⟨m0, rfl⟩) (.inl ⟨m1, rfl⟩)
    have v3x2y3 : (WWWW.N c p).v 3 [spinOf a2, spinOf b3] = sb (WWWW.react.codePair c p 2 a2).2 (WWWW.react.codePair c p 3 b3).2 := bra_square (p := p) (m := WWWW.proc.massNum (WWWW.rho c)) (WWWW.mass_eq hc 2) (WWWW.mass_eq hc 3) (.inl ⟨m2, rfl⟩) (.inl ⟨m3, rfl⟩)
    have v13y0y3 : (WWWW.N c p).v 13 [spinOf b0, spinOf b3] = mb (WWWW.react.codePair c p 0 b0).2 (p 2) (WWWW.react.codePair c p 3 b3).1 := bra_mid_square (p := p) (m := WWWW.proc.massNum (WWWW.rho c)) (WWWW.mass_eq hc 0) (WWWW.mass_eq hc 3) (.inl ⟨m0, rfl⟩) (.inl ⟨m3, rfl⟩)
    have v4y1x3 : (WWWW.N c p).v 4 [spinOf b1, spinOf a3] = sb (WWWW.react.codePair c p 1 b1).2 (WWWW.react.codePair c p 3 a3).2 := bra_square (p := p) (m := WWWW.proc.massNum (WWWW.rho c)) (WWWW.mass_eq hc 1) (WWWW.mass_eq hc 3) (.inl ⟨m1, rfl⟩) (.inl ⟨m3, rfl⟩)
    have v12y3y0 : (WWWW.N c p).v 12 [spinOf b3, spinOf b0] = mb (WWWW.react.codePair c p 3 b3).2 (p 2) (WWWW.react.codePair c p 0 b0).1 := bra_mid_square (p := p) (m := WWWW.proc.massNum (WWWW.rho c)) (WWWW.mass_eq hc 3) (WWWW.mass_eq hc 0) (.inl ⟨m3, rfl⟩) (.inl ⟨m0, rfl⟩)
    have v6y1x2 : (WWWW.N c p).v 6 [spinOf b1, spinOf a2] = sb (WWWW.react.codePair c p 1 b1).2 (WWWW.react.codePair c p 2 a2).2 := bra_square (p := p) (m := WWWW.proc.massNum (WWWW.rho c)) (WWWW.mass_eq hc 1) (WWWW.mass_eq hc 2) (.inl ⟨m1, rfl⟩) (.inl ⟨m2, rfl⟩)
    have v15y0y2 : (WWWW.N c p).v 15 [spinOf b0, spinOf b2] = mb (WWWW.react.codePair c p 0 b0).2 (p 3) (WWWW.react.codePair c p 2 b2).1 := bra_mid_square (p := p) (m := WWWW.proc.massNum (WWWW.rho c)) (WWWW.mass_eq hc 0) (WWWW.mass_eq hc 2) (.inl ⟨m0, rfl⟩) (.inl ⟨m2, rfl⟩)
    have v9x0y3 : (WWWW.N c p).v 9 [spinOf a0, spinOf b3] = sb (WWWW.react.codePair c p 0 a0).2 (WWWW.react.codePair c p 3 b3).2 := bra_square (p := p) (m := WWWW.proc.massNum (WWWW.rho c)) (WWWW.mass_eq hc 0) (WWWW.mass_eq hc 3) (.inl ⟨m0, rfl⟩) (.inl ⟨m3, rfl⟩)
    have v14y2y0 : (WWWW.N c p).v 14 [spinOf b2, spinOf b0] = mb (WWWW.react.codePair c p 2 b2).2 (p 3) (WWWW.react.codePair c p 0 b0).1 := bra_mid_square (p := p) (m := WWWW.proc.massNum (WWWW.rho c)) (WWWW.mass_eq hc 2) (WWWW.mass_eq hc 0) (.inl ⟨m2, rfl⟩) (.inl ⟨m0, rfl⟩)
    simp only [WWWW.term, WWWW.form, v11x0x2, v10y0y2, v4x1x3, v5y1y3, v9x0x3, v8y0y3, v6x1x2, v7y1y2, v5x1x3, v2x2y3, v0x0y1, v11y0y2, v10x0x2, v7x1y2, v5y1x3, v9y0y3, v7x1x2, v11x0y2, v1x0y1, v2x2x3, v4x1y3, v8x0x3, v5x1y3, v11y0x2, v6y1y2, v8y0x3, v4y1y3, v9y0x3, v6x1y2, v10x0y2, v0y0y1, v3x2y3, v13y0y3, v4y1x3, v12y3y0, v6y1x2, v15y0y2, v9x0y3, v14y2y0]
    push_cast
    ring
  show meaning (WWWW.N c p) .r Cls.WWWW.methods Cls.WWWW.amp2 [] = _
  have s0 : WWWW.react.states 0 = 3 := by decide
  have s1 : WWWW.react.states 1 = 3 := by decide
  have sy : WWWW.react.symmetry = 2 := by decide
  have p0 : WWWW.react.spins 0 = Finset.univ := rfl
  have p1 : WWWW.react.spins 1 = Finset.univ := rfl
  have p2 : WWWW.react.spins 2 = Finset.univ := rfl
  have p3 : WWWW.react.spins 3 = Finset.univ := rfl
  rw [WWWW.value, WWWW.react.squared_four he ht hB (noGluon_of hM) hs h0 (fun _ b _ hb _ => (boson_pos hc hh hb).ne') (WWWW.react.gauge_massive (massive_of hM)) (E := WWWW.react.codeVec c p) (fun n b hl => WWWW.react.codeVec_polarised hs h0 hl (massive_of hM n b hl) (fun _ => (boson_pos hc hh (massive_of hM n b hl)).ne')) hu, sum_colours, s0, s1, sy]
  simp only [bareFour_eq, sumV_sum, am, norm_mul, norm_neg, norm_one, one_mul, p0, p1, p2, p3, Finset.sum_singleton, Matrix.cons_val_zero, Matrix.cons_val_one, Matrix.cons_val]
  push_cast
  first | ring1 | ring_nf

end Spinas.SM.Rows

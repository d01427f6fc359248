import Verif.SM.BosonRows

/-! Two Z and two W bosons, one of each before. Generated by tools/bosons/emit.py: for each class its amplitude as a formula in spinors, and the proof that `amp2` is the squared amplitude of the Feynman rules. -/

set_option linter.unusedSimpArgs false
set_option linter.unusedVariables false
set_option linter.unreachableTactic false
set_option linter.unusedTactic false

namespace Spinas.SM.Rows
open Spec Spec.Reaction Props XR Matrix BRow

/-! ### ZWZW -/

/-- what the methods of the class see -/
noncomputable abbrev ZWZW.N [FPEnv] (c : Constants) (p : Nat → V4 ℝ) : Env := ZWZW.proc.env (ZWZW.rho c) p
/-- the term that `amp` adds for a choice of spinors (SM/ZWZW.cpp) -/
noncomputable def ZWZW.term (N : Env) (w : ℝ) (x : ℂ) (a0 b0 a1 b1 a2 b2 a3 b3 : Int) : ℂ :=
  (((x + ((((((((w * N.r 8) : ℝ) : ℂ) * N.v 0 [a0, a2]) * N.v 1 [b0, b2]) * N.v 3 [a3, a1]) * N.v 2 [b3, b1]) / N.c 1)) + (((((w * N.r 9) : ℝ) : ℂ) * ((((((((((((2 : Nat) : ℝ) * N.r 3) : ℝ) : ℂ) * N.v 10 [a0, a3]) * N.v 5 [a2, a1]) * N.v 11 [b0, b3]) * N.v 4 [b2, b1]) + (((N.r 6 : ℝ) : ℂ) * (((N.r 6 : ℝ) : ℂ) * (((((((((((((-((4 : Nat) : ℝ)) * N.r 3) : ℝ) : ℂ) * N.v 7 [a2, a3]) * N.v 5 [b2, a1]) * N.v 9 [a0, b1]) * N.v 11 [b0, b3]) + (((((((((2 : Nat) : ℝ) * N.r 3) : ℝ) : ℂ) * N.v 1 [a0, b2]) * N.v 2 [a3, a1]) * N.v 11 [b0, b3]) * N.v 4 [a2, b1])) + (((((((((3 : Nat) : ℝ) * N.r 3) : ℝ) : ℂ) * N.v 8 [a0, b1]) * N.v 7 [a2, a3]) * N.v 11 [b0, b3]) * N.v 4 [b2, a1])) - (((((((((4 : Nat) : ℝ) * N.r 3) : ℝ) : ℂ) * N.v 8 [a0, b1]) * N.v 10 [b0, a3]) * N.v 6 [a2, b3]) * N.v 4 [b2, a1])) - (((((((((6 : Nat) : ℝ) * N.r 3) : ℝ) : ℂ) * N.v 10 [a0, a3]) * N.v 5 [a2, a1]) * N.v 11 [b0, b3]) * N.v 4 [b2, b1])) + (((((((((3 : Nat) : ℝ) * N.r 3) : ℝ) : ℂ) * N.v 10 [a0, a3]) * N.v 5 [a2, a1]) * N.v 9 [b0, b1]) * N.v 6 [b2, b3]))))) + (((N.r 6 : ℝ) : ℂ) * (((N.r 6 : ℝ) : ℂ) * (((N.r 6 : ℝ) : ℂ) * ((((((((((((((((((3 : Nat) : ℝ) * N.r 3) : ℝ) : ℂ) * N.v 10 [a0, a3]) * N.v 7 [a2, b3]) * N.v 5 [b2, a1]) * N.v 9 [b0, b1]) - (((((((((4 : Nat) : ℝ) * N.r 3) : ℝ) : ℂ) * N.v 5 [a2, a1]) * N.v 2 [a3, b1]) * N.v 0 [a0, b2]) * N.v 11 [b0, b3])) - (((((((((3 : Nat) : ℝ) * N.r 3) : ℝ) : ℂ) * N.v 8 [a0, b1]) * N.v 10 [b0, a3]) * N.v 7 [a2, b3]) * N.v 4 [b2, a1])) + ((((((N.r 3 : ℝ) : ℂ) * N.v 8 [a0, b1]) * N.v 11 [b0, a3]) * N.v 6 [a2, b3]) * N.v 4 [b2, a1])) - ((((((N.r 3 : ℝ) : ℂ) * N.v 5 [a2, a1]) * N.v 9 [a0, b1]) * N.v 11 [b0, a3]) * N.v 6 [b2, b3])) - (((((((((4 : Nat) : ℝ) * N.r 3) : ℝ) : ℂ) * N.v 1 [a0, b2]) * N.v 10 [b0, b3]) * N.v 4 [a2, a1]) * N.v 3 [a3, b1])) - (((N.v 7 [a2, a3] * N.v 11 [a0, b3]) * N.v 4 [b2, a1]) * N.v 13 [b0, b1])) + (((N.v 10 [a0, a3] * N.v 6 [a2, b3]) * N.v 4 [b2, a1]) * N.v 13 [b0, b1])) + ((((((((3 : Nat) : ℝ) : ℝ) : ℂ) * N.v 7 [a2, a3]) * N.v 5 [b2, a1]) * N.v 11 [a0, b3]) * N.v 12 [b1, b0])) - ((((((((3 : Nat) : ℝ) : ℝ) : ℂ) * N.v 10 [a0, a3]) * N.v 5 [a2, a1]) * N.v 6 [b2, b3]) * N.v 12 [b1, b0])))))) + (((N.r 6 : ℝ) : ℂ) * (((N.r 6 : ℝ) : ℂ) * (((N.r 6 : ℝ) : ℂ) * (((N.r 6 : ℝ) : ℂ) * (((((((((((((((((-((2 : Nat) : ℝ)) * N.r 3) : ℝ) : ℂ) * N.v 1 [a0, b2]) * N.v 2 [a3, a1]) * N.v 11 [b0, b3]) * N.v 4 [a2, b1]) - ((((((N.r 3 : ℝ) : ℂ) * N.v 10 [a0, a3]) * N.v 7 [a2, b3]) * N.v 9 [b0, b1]) * N.v 4 [b2, a1])) + ((((((N.r 3 : ℝ) : ℂ) * N.v 8 [a0, b1]) * N.v 7 [a2, a3]) * N.v 11 [b0, b3]) * N.v 4 [b2, a1])) + (((((((((2 : Nat) : ℝ) * N.r 3) : ℝ) : ℂ) * N.v 10 [a0, a3]) * N.v 5 [a2, a1]) * N.v 11 [b0, b3]) * N.v 4 [b2, b1])) + ((((((N.r 3 : ℝ) : ℂ) * N.v 10 [a0, a3]) * N.v 5 [a2, a1]) * N.v 9 [b0, b1]) * N.v 6 [b2, b3])) - (((((((((3 : Nat) : ℝ) * N.r 3) : ℝ) : ℂ) * N.v 8 [a0, b1]) * N.v 5 [a2, a1]) * N.v 11 [b0, a3]) * N.v 6 [b2, b3])) + ((((((((3 : Nat) : ℝ) : ℝ) : ℂ) * N.v 10 [a0, a3]) * N.v 7 [a2, b3]) * N.v 4 [b2, a1]) * N.v 13 [b0, b1])) - ((((((((3 : Nat) : ℝ) : ℝ) : ℂ) * N.v 10 [a0, a3]) * N.v 5 [a2, a1]) * N.v 6 [b2, b3]) * N.v 13 [b0, b1])) - (((N.v 7 [a2, a3] * N.v 11 [a0, b3]) * N.v 4 [b2, a1]) * N.v 12 [b1, b0])) + (((N.v 5 [a2, a1] * N.v 11 [a0, a3]) * N.v 6 [b2, b3]) * N.v 12 [b1, b0])))))))) / N.c 2)) + (((((w * N.r 9) : ℝ) : ℂ) * ((((((((((((2 : Nat) : ℝ) * N.r 3) : ℝ) : ℂ) * N.v 8 [a0, a1]) * N.v 7 [a2, a3]) * N.v 9 [b0, b1]) * N.v 6 [b2, b3]) + (((N.r 6 : ℝ) : ℂ) * (((N.r 6 : ℝ) : ℂ) * (((((((((((((-((4 : Nat) : ℝ)) * N.r 3) : ℝ) : ℂ) * N.v 7 [a2, a3]) * N.v 5 [b2, a1]) * N.v 9 [a0, b1]) * N.v 11 [b0, b3]) - (((((((((2 : Nat) : ℝ) * N.r 3) : ℝ) : ℂ) * N.v 1 [a0, b2]) * N.v 2 [a3, a1]) * N.v 9 [b0, b1]) * N.v 6 [a2, b3])) + (((((((((3 : Nat) : ℝ) * N.r 3) : ℝ) : ℂ) * N.v 8 [a0, b1]) * N.v 7 [a2, a3]) * N.v 11 [b0, b3]) * N.v 4 [b2, a1])) - (((((((((4 : Nat) : ℝ) * N.r 3) : ℝ) : ℂ) * N.v 8 [a0, b1]) * N.v 10 [b0, a3]) * N.v 6 [a2, b3]) * N.v 4 [b2, a1])) + (((((((((3 : Nat) : ℝ) * N.r 3) : ℝ) : ℂ) * N.v 10 [a0, a3]) * N.v 5 [a2, a1]) * N.v 9 [b0, b1]) * N.v 6 [b2, b3])) - (((((((((6 : Nat) : ℝ) * N.r 3) : ℝ) : ℂ) * N.v 8 [a0, a1]) * N.v 7 [a2, a3]) * N.v 9 [b0, b1]) * N.v 6 [b2, b3]))))) + (((N.r 6 : ℝ) : ℂ) * (((N.r 6 : ℝ) : ℂ) * (((N.r 6 : ℝ) : ℂ) * (((((((((((((((((-((4 : Nat) : ℝ)) * N.r 3) : ℝ) : ℂ) * N.v 7 [a2, b3]) * N.v 2 [a3, a1]) * N.v 9 [a0, b1]) * N.v 0 [b0, b2]) - (((((((((3 : Nat) : ℝ) * N.r 3) : ℝ) : ℂ) * N.v 8 [a0, b1]) * N.v 7 [a2, a3]) * N.v 5 [b2, a1]) * N.v 11 [b0, b3])) + ((((((N.r 3 : ℝ) : ℂ) * N.v 7 [a2, a3]) * N.v 9 [a0, b1]) * N.v 11 [b0, b3]) * N.v 4 [b2, a1])) - ((((((N.r 3 : ℝ) : ℂ) * N.v 10 [a0, a3]) * N.v 9 [b0, b1]) * N.v 6 [a2, b3]) * N.v 4 [b2, a1])) + (((((((((3 : Nat) : ℝ) * N.r 3) : ℝ) : ℂ) * N.v 8 [a0, b1]) * N.v 10 [b0, a3]) * N.v 5 [a2, a1]) * N.v 6 [b2, b3])) - (((((((((4 : Nat) : ℝ) * N.r 3) : ℝ) : ℂ) * N.v 8 [a0, b1]) * N.v 1 [b0, b2]) * N.v 6 [a2, b3]) * N.v 3 [a3, a1])) - (((N.v 8 [a0, b1] * N.v 6 [a2, a3]) * N.v 4 [b2, a1]) * N.v 15 [b0, b3])) + (((N.v 5 [a2, a1] * N.v 9 [a0, b1]) * N.v 6 [b2, a3]) * N.v 15 [b0, b3])) - ((((((((3 : Nat) : ℝ) : ℝ) : ℂ) * N.v 7 [a2, a3]) * N.v 5 [b2, a1]) * N.v 9 [a0, b1]) * N.v 14 [b3, b0])) + ((((((((3 : Nat) : ℝ) : ℝ) : ℂ) * N.v 8 [a0, b1]) * N.v 7 [a2, a3]) * N.v 4 [b2, a1]) * N.v 14 [b3, b0])))))) + (((N.r 6 : ℝ) : ℂ) * (((N.r 6 : ℝ) : ℂ) * (((N.r 6 : ℝ) : ℂ) * (((N.r 6 : ℝ) : ℂ) * ((((((((((((((((((2 : Nat) : ℝ) * N.r 3) : ℝ) : ℂ) * N.v 1 [a0, b2]) * N.v 2 [a3, a1]) * N.v 9 [b0, b1]) * N.v 6 [a2, b3]) - (((((((((3 : Nat) : ℝ) * N.r 3) : ℝ) : ℂ) * N.v 10 [a0, a3]) * N.v 7 [a2, b3]) * N.v 9 [b0, b1]) * N.v 4 [b2, a1])) + ((((((N.r 3 : ℝ) : ℂ) * N.v 8 [a0, b1]) * N.v 7 [a2, a3]) * N.v 11 [b0, b3]) * N.v 4 [b2, a1])) + ((((((N.r 3 : ℝ) : ℂ) * N.v 10 [a0, a3]) * N.v 5 [a2, a1]) * N.v 9 [b0, b1]) * N.v 6 [b2, b3])) + (((((((((2 : Nat) : ℝ) * N.r 3) : ℝ) : ℂ) * N.v 8 [a0, a1]) * N.v 7 [a2, a3]) * N.v 9 [b0, b1]) * N.v 6 [b2, b3])) - ((((((N.r 3 : ℝ) : ℂ) * N.v 8 [a0, b1]) * N.v 5 [a2, a1]) * N.v 11 [b0, a3]) * N.v 6 [b2, b3])) - ((((((((3 : Nat) : ℝ) : ℝ) : ℂ) * N.v 8 [a0, b1]) * N.v 7 [a2, a3]) * N.v 4 [b2, a1]) * N.v 15 [b0, b3])) + ((((((((3 : Nat) : ℝ) : ℝ) : ℂ) * N.v 8 [a0, b1]) * N.v 5 [a2, a1]) * N.v 6 [b2, a3]) * N.v 15 [b0, b3])) + (((N.v 7 [a2, a3] * N.v 9 [a0, b1]) * N.v 4 [b2, a1]) * N.v 14 [b3, b0])) - (((N.v 5 [a2, a1] * N.v 9 [a0, b1]) * N.v 6 [b2, a3]) * N.v 14 [b3, b0])))))))) / N.c 0))
/-- the same with spinors in place of their spins -/
noncomputable def ZWZW.form (N : Env) (p : Nat → V4 ℝ) (x0 y0 x1 y1 x2 y2 x3 y3 : Pair) : ℂ :=
  (((0 + ((((((((((1 : Nat) : ℝ) * N.r 8) : ℝ) : ℂ) * (sb x0.2 x2.2)) * (ab y0.1 y2.1)) * (sb x3.2 x1.2)) * (ab y3.1 y1.1)) / N.c 1)) + (((((((1 : Nat) : ℝ) * N.r 9) : ℝ) : ℂ) * ((((((((((((2 : Nat) : ℝ) * N.r 3) : ℝ) : ℂ) * (ab x0.1 x3.1)) * (ab x2.1 x1.1)) * (sb y0.2 y3.2)) * (sb y2.2 y1.2)) + (((N.r 6 : ℝ) : ℂ) * (((N.r 6 : ℝ) : ℂ) * (((((((((((((-((4 : Nat) : ℝ)) * N.r 3) : ℝ) : ℂ) * (ab x2.1 x3.1)) * (ab y2.1 x1.1)) * (sb x0.2 y1.2)) * (sb y0.2 y3.2)) + (((((((((2 : Nat) : ℝ) * N.r 3) : ℝ) : ℂ) * (ab x0.1 y2.1)) * (ab x3.1 x1.1)) * (sb y0.2 y3.2)) * (sb x2.2 y1.2))) + (((((((((3 : Nat) : ℝ) * N.r 3) : ℝ) : ℂ) * (ab x0.1 y1.1)) * (ab x2.1 x3.1)) * (sb y0.2 y3.2)) * (sb y2.2 x1.2))) - (((((((((4 : Nat) : ℝ) * N.r 3) : ℝ) : ℂ) * (ab x0.1 y1.1)) * (ab y0.1 x3.1)) * (sb x2.2 y3.2)) * (sb y2.2 x1.2))) - (((((((((6 : Nat) : ℝ) * N.r 3) : ℝ) : ℂ) * (ab x0.1 x3.1)) * (ab x2.1 x1.1)) * (sb y0.2 y3.2)) * (sb y2.2 y1.2))) + (((((((((3 : Nat) : ℝ) * N.r 3) : ℝ) : ℂ) * (ab x0.1 x3.1)) * (ab x2.1 x1.1)) * (sb y0.2 y1.2)) * (sb y2.2 y3.2)))))) + (((N.r 6 : ℝ) : ℂ) * (((N.r 6 : ℝ) : ℂ) * (((N.r 6 : ℝ) : ℂ) * ((((((((((((((((((3 : Nat) : ℝ) * N.r 3) : ℝ) : ℂ) * (ab x0.1 x3.1)) * (ab x2.1 y3.1)) * (ab y2.1 x1.1)) * (sb y0.2 y1.2)) - (((((((((4 : Nat) : ℝ) * N.r 3) : ℝ) : ℂ) * (ab x2.1 x1.1)) * (ab x3.1 y1.1)) * (sb x0.2 y2.2)) * (sb y0.2 y3.2))) - (((((((((3 : Nat) : ℝ) * N.r 3) : ℝ) : ℂ) * (ab x0.1 y1.1)) * (ab y0.1 x3.1)) * (ab x2.1 y3.1)) * (sb y2.2 x1.2))) + ((((((N.r 3 : ℝ) : ℂ) * (ab x0.1 y1.1)) * (sb y0.2 x3.2)) * (sb x2.2 y3.2)) * (sb y2.2 x1.2))) - ((((((N.r 3 : ℝ) : ℂ) * (ab x2.1 x1.1)) * (sb x0.2 y1.2)) * (sb y0.2 x3.2)) * (sb y2.2 y3.2))) - (((((((((4 : Nat) : ℝ) * N.r 3) : ℝ) : ℂ) * (ab x0.1 y2.1)) * (ab y0.1 y3.1)) * (sb x2.2 x1.2)) * (sb x3.2 y1.2))) - ((((ab x2.1 x3.1) * (sb x0.2 y3.2)) * (sb y2.2 x1.2)) * (mb y0.2 (p 3) y1.1))) + ((((ab x0.1 x3.1) * (sb x2.2 y3.2)) * (sb y2.2 x1.2)) * (mb y0.2 (p 3) y1.1))) + ((((((((3 : Nat) : ℝ) : ℝ) : ℂ) * (ab x2.1 x3.1)) * (ab y2.1 x1.1)) * (sb x0.2 y3.2)) * (mb y1.2 (p 3) y0.1))) - ((((((((3 : Nat) : ℝ) : ℝ) : ℂ) * (ab x0.1 x3.1)) * (ab x2.1 x1.1)) * (sb y2.2 y3.2)) * (mb y1.2 (p 3) y0.1))))))) + (((N.r 6 : ℝ) : ℂ) * (((N.r 6 : ℝ) : ℂ) * (((N.r 6 : ℝ) : ℂ) * (((N.r 6 : ℝ) : ℂ) * (((((((((((((((((-((2 : Nat) : ℝ)) * N.r 3) : ℝ) : ℂ) * (ab x0.1 y2.1)) * (ab x3.1 x1.1)) * (sb y0.2 y3.2)) * (sb x2.2 y1.2)) - ((((((N.r 3 : ℝ) : ℂ) * (ab x0.1 x3.1)) * (ab x2.1 y3.1)) * (sb y0.2 y1.2)) * (sb y2.2 x1.2))) + ((((((N.r 3 : ℝ) : ℂ) * (ab x0.1 y1.1)) * (ab x2.1 x3.1)) * (sb y0.2 y3.2)) * (sb y2.2 x1.2))) + (((((((((2 : Nat) : ℝ) * N.r 3) : ℝ) : ℂ) * (ab x0.1 x3.1)) * (ab x2.1 x1.1)) * (sb y0.2 y3.2)) * (sb y2.2 y1.2))) + ((((((N.r 3 : ℝ) : ℂ) * (ab x0.1 x3.1)) * (ab x2.1 x1.1)) * (sb y0.2 y1.2)) * (sb y2.2 y3.2))) - (((((((((3 : Nat) : ℝ) * N.r 3) : ℝ) : ℂ) * (ab x0.1 y1.1)) * (ab x2.1 x1.1)) * (sb y0.2 x3.2)) * (sb y2.2 y3.2))) + ((((((((3 : Nat) : ℝ) : ℝ) : ℂ) * (ab x0.1 x3.1)) * (ab x2.1 y3.1)) * (sb y2.2 x1.2)) * (mb y0.2 (p 3) y1.1))) - ((((((((3 : Nat) : ℝ) : ℝ) : ℂ) * (ab x0.1 x3.1)) * (ab x2.1 x1.1)) * (sb y2.2 y3.2)) * (mb y0.2 (p 3) y1.1))) - ((((ab x2.1 x3.1) * (sb x0.2 y3.2)) * (sb y2.2 x1.2)) * (mb y1.2 (p 3) y0.1))) + ((((ab x2.1 x1.1) * (sb x0.2 x3.2)) * (sb y2.2 y3.2)) * (mb y1.2 (p 3) y0.1))))))))) / N.c 2)) + (((((((1 : Nat) : ℝ) * N.r 9) : ℝ) : ℂ) * ((((((((((((2 : Nat) : ℝ) * N.r 3) : ℝ) : ℂ) * (ab x0.1 x1.1)) * (ab x2.1 x3.1)) * (sb y0.2 y1.2)) * (sb y2.2 y3.2)) + (((N.r 6 : ℝ) : ℂ) * (((N.r 6 : ℝ) : ℂ) * (((((((((((((-((4 : Nat) : ℝ)) * N.r 3) : ℝ) : ℂ) * (ab x2.1 x3.1)) * (ab y2.1 x1.1)) * (sb x0.2 y1.2)) * (sb y0.2 y3.2)) - (((((((((2 : Nat) : ℝ) * N.r 3) : ℝ) : ℂ) * (ab x0.1 y2.1)) * (ab x3.1 x1.1)) * (sb y0.2 y1.2)) * (sb x2.2 y3.2))) + (((((((((3 : Nat) : ℝ) * N.r 3) : ℝ) : ℂ) * (ab x0.1 y1.1)) * (ab x2.1 x3.1)) * (sb y0.2 y3.2)) * (sb y2.2 x1.2))) - (((((((((4 : Nat) : ℝ) * N.r 3) : ℝ) : ℂ) * (ab x0.1 y1.1)) * (ab y0.1 x3.1)) * (sb x2.2 y3.2)) * (sb y2.2 x1.2))) + (((((((((3 : Nat) : ℝ) * N.r 3) : ℝ) : ℂ) * (ab x0.1 x3.1)) * (ab x2.1 x1.1)) * (sb y0.2 y1.2)) * (sb y2.2 y3.2))) - (((((((((6 : Nat) : ℝ) * N.r 3) : ℝ) : ℂ) * (ab x0.1 x1.1)) * (ab x2.1 x3.1)) * (sb y0.2 y1.2)) * (sb y2.2 y3.2)))))) + (((N.r 6 : ℝ) : ℂ) * (((N.r 6 : ℝ) : ℂ) * (((N.r 6 : ℝ) : ℂ) * (((((((((((((((((-((4 : Nat) : ℝ)) * N.r 3) : ℝ) : ℂ) * (ab x2.1 y3.1)) * (ab x3.1 x1.1)) * (sb x0.2 y1.2)) * (sb y0.2 y2.2)) - (((((((((3 : Nat) : ℝ) * N.r 3) : ℝ) : ℂ) * (ab x0.1 y1.1)) * (ab x2.1 x3.1)) * (ab y2.1 x1.1)) * (sb y0.2 y3.2))) + ((((((N.r 3 : ℝ) : ℂ) * (ab x2.1 x3.1)) * (sb x0.2 y1.2)) * (sb y0.2 y3.2)) * (sb y2.2 x1.2))) - ((((((N.r 3 : ℝ) : ℂ) * (ab x0.1 x3.1)) * (sb y0.2 y1.2)) * (sb x2.2 y3.2)) * (sb y2.2 x1.2))) + (((((((((3 : Nat) : ℝ) * N.r 3) : ℝ) : ℂ) * (ab x0.1 y1.1)) * (ab y0.1 x3.1)) * (ab x2.1 x1.1)) * (sb y2.2 y3.2))) - (((((((((4 : Nat) : ℝ) * N.r 3) : ℝ) : ℂ) * (ab x0.1 y1.1)) * (ab y0.1 y2.1)) * (sb x2.2 y3.2)) * (sb x3.2 x1.2))) - ((((ab x0.1 y1.1) * (sb x2.2 x3.2)) * (sb y2.2 x1.2)) * (mb y0.2 (p 1) y3.1))) + ((((ab x2.1 x1.1) * (sb x0.2 y1.2)) * (sb y2.2 x3.2)) * (mb y0.2 (p 1) y3.1))) - ((((((((3 : Nat) : ℝ) : ℝ) : ℂ) * (ab x2.1 x3.1)) * (ab y2.1 x1.1)) * (sb x0.2 y1.2)) * (mb y3.2 (p 1) y0.1))) + ((((((((3 : Nat) : ℝ) : ℝ) : ℂ) * (ab x0.1 y1.1)) * (ab x2.1 x3.1)) * (sb y2.2 x1.2)) * (mb y3.2 (p 1) y0.1))))))) + (((N.r 6 : ℝ) : ℂ) * (((N.r 6 : ℝ) : ℂ) * (((N.r 6 : ℝ) : ℂ) * (((N.r 6 : ℝ) : ℂ) * ((((((((((((((((((2 : Nat) : ℝ) * N.r 3) : ℝ) : ℂ) * (ab x0.1 y2.1)) * (ab x3.1 x1.1)) * (sb y0.2 y1.2)) * (sb x2.2 y3.2)) - (((((((((3 : Nat) : ℝ) * N.r 3) : ℝ) : ℂ) * (ab x0.1 x3.1)) * (ab x2.1 y3.1)) * (sb y0.2 y1.2)) * (sb y2.2 x1.2))) + ((((((N.r 3 : ℝ) : ℂ) * (ab x0.1 y1.1)) * (ab x2.1 x3.1)) * (sb y0.2 y3.2)) * (sb y2.2 x1.2))) + ((((((N.r 3 : ℝ) : ℂ) * (ab x0.1 x3.1)) * (ab x2.1 x1.1)) * (sb y0.2 y1.2)) * (sb y2.2 y3.2))) + (((((((((2 : Nat) : ℝ) * N.r 3) : ℝ) : ℂ) * (ab x0.1 x1.1)) * (ab x2.1 x3.1)) * (sb y0.2 y1.2)) * (sb y2.2 y3.2))) - ((((((N.r 3 : ℝ) : ℂ) * (ab x0.1 y1.1)) * (ab x2.1 x1.1)) * (sb y0.2 x3.2)) * (sb y2.2 y3.2))) - ((((((((3 : Nat) : ℝ) : ℝ) : ℂ) * (ab x0.1 y1.1)) * (ab x2.1 x3.1)) * (sb y2.2 x1.2)) * (mb y0.2 (p 1) y3.1))) + ((((((((3 : Nat) : ℝ) : ℝ) : ℂ) * (ab x0.1 y1.1)) * (ab x2.1 x1.1)) * (sb y2.2 x3.2)) * (mb y0.2 (p 1) y3.1))) + ((((ab x2.1 x3.1) * (sb x0.2 y1.2)) * (sb y2.2 x1.2)) * (mb y3.2 (p 1) y0.1))) - ((((ab x2.1 x1.1) * (sb x0.2 y1.2)) * (sb y2.2 x3.2)) * (mb y3.2 (p 1) y0.1))))))))) / N.c 0))
set_option maxHeartbeats 8000000 in
theorem ZWZW.key {c : Constants} {p : Nat → V4 ℝ} {N : Env} (hc : c.Physical) (hb : Balanced p) (r3 : N.r 3 = c.MW) (r6 : N.r 6 = c.CW) (r8 : N.r 8 = ((c.e * c.e) / (((c.MW * c.MW) * c.SW) * c.SW))) (r9 : N.r 9 = ((c.e * c.e) / (((((((2 : Nat) : ℝ) * c.MW) * c.MW) * c.MW) * c.SW) * c.SW))) (d0 : pole c.MW c.WW (plus (p 0) (p 1)) = N.c 0) (n0 : N.c 0 ≠ 0) (d1 : pole c.MH c.WH (plus (p 0) (backward (p 2))) = N.c 1) (n1 : N.c 1 ≠ 0) (d2 : pole c.MW c.WW (plus (p 0) (backward (p 3))) = N.c 2) (n2 : N.c 2 ≠ 0) {z0 z1 z2 z3 : Pair} (b0 : Bold (p 0) c.MZ z0) (b1 : Bold (p 1) c.MW z1) (b2 : Bold (p 2) c.MZ z2) (b3 : Bold (p 3) c.MW z3) (q0 : msq (p 0) = c.MZ ^ 2) (q1 : msq (p 1) = c.MW ^ 2) (q2 : msq (p 2) = c.MZ ^ 2) (q3 : msq (p 3) = c.MW ^ 2) (hWW : c.WW = 0) :
    ZWZW.form N p z0 z0 z1 z1 z2 z2 z3 z3 = -(((4 / (c.MZ * c.MW * c.MZ * c.MW) : ℝ) : ℂ) * ZWZW.react.bare4 c p (pv z0.1 z0.2) (pv z1.1 z1.2) (pv z2.1 z2.2) (pv z3.1 z3.2)) := by
  rw [ZWZW.react.bare4_parts c p (b₀ := .z) (b₁ := .wPlus) (b₂ := .z) (b₃ := .wMinus) rfl rfl rfl rfl, ZWZW.form]
  have Y0 := b0; have Q0 := q0
  have Y1 := b1; have Q1 := q1
  have Y2 := b2.back; have Q2 : msq (backward (p 2)) = (-c.MZ) ^ 2 := by rw [msq_backward, q2, neg_sq]
  have Y3 := b3.back; have Q3 : msq (backward (p 3)) = (-c.MW) ^ 2 := by rw [msq_backward, q3, neg_sq]
  generalize hS : msq (plus (p 0) (p 1)) = tS
  generalize hT : msq (plus (p 0) (backward (p 2))) = tT
  obtain ⟨e01, e23, e02, e13, e03, e12, hU⟩ := dots_balanced hb q0 q1 q2 q3 hS hT
  have x0 : N.c 0 = ((tS - c.MW ^ 2 : ℝ) : ℂ) := by rw [← d0, pole_narrow hWW hS]
  have x2 : N.c 2 = (((c.MZ ^ 2 + c.MW ^ 2 + c.MZ ^ 2 + c.MW ^ 2 - tS - tT) - c.MW ^ 2 : ℝ) : ℂ) := by rw [← d2, pole_narrow hWW hU]
  have i0 := ab_schouten z1.1 z2.1 z3.1 z0.1
  have i1 := sb_schouten z1.2 z2.2 z3.2 z0.2
  have i2 := mb_schouten_right z0.2 (p 1) z0.1 z1.1 z2.1
  have i3 := mb_schouten_left z0.2 z1.2 z2.2 (p 1) z0.1
  have i4 := mb_schouten_right z0.2 (p 1) z0.1 z1.1 z3.1
  have i5 := mb_schouten_left z0.2 z1.2 z3.2 (p 1) z0.1
  have i6 := mb_schouten_right z0.2 (p 1) z0.1 z2.1 z3.1
  have i7 := mb_schouten_left z0.2 z2.2 z3.2 (p 1) z0.1
  have i8 := mb_schouten_right z0.2 (p 1) z1.1 z2.1 z3.1
  have i9 := mb_schouten_left z1.2 z2.2 z3.2 (p 1) z0.1
  have i10 := mb_schouten_right z0.2 (p 2) z0.1 z1.1 z2.1
  have i11 := mb_schouten_left z0.2 z1.2 z2.2 (p 2) z0.1
  have i12 := mb_schouten_right z0.2 (p 2) z0.1 z1.1 z3.1
  have i13 := mb_schouten_left z0.2 z1.2 z3.2 (p 2) z0.1
  have i14 := mb_schouten_right z0.2 (p 2) z0.1 z2.1 z3.1
  have i15 := mb_schouten_left z0.2 z2.2 z3.2 (p 2) z0.1
  have i16 := mb_schouten_right z0.2 (p 2) z1.1 z2.1 z3.1
  have i17 := mb_schouten_left z1.2 z2.2 z3.2 (p 2) z0.1
  have i18 := mb_schouten_right z1.2 (p 0) z0.1 z1.1 z2.1
  have i19 := mb_schouten_left z0.2 z1.2 z2.2 (p 0) z1.1
  have i20 := mb_schouten_right z1.2 (p 0) z0.1 z1.1 z3.1
  have i21 := mb_schouten_left z0.2 z1.2 z3.2 (p 0) z1.1
  have i22 := mb_schouten_right z1.2 (p 0) z0.1 z2.1 z3.1
  have i23 := mb_schouten_left z0.2 z2.2 z3.2 (p 0) z1.1
  have i24 := mb_schouten_left z1.2 z2.2 z3.2 (p 0) z1.1
  have i25 := mb_schouten_right z1.2 (p 2) z0.1 z1.1 z2.1
  have i26 := mb_schouten_left z0.2 z1.2 z2.2 (p 2) z1.1
  have i27 := mb_schouten_right z1.2 (p 2) z0.1 z1.1 z3.1
  have i28 := mb_schouten_left z0.2 z1.2 z3.2 (p 2) z1.1
  have i29 := mb_schouten_right z1.2 (p 2) z0.1 z2.1 z3.1
  have i30 := mb_schouten_left z0.2 z2.2 z3.2 (p 2) z1.1
  have i31 := mb_schouten_right z1.2 (p 2) z1.1 z2.1 z3.1
  have i32 := mb_schouten_left z1.2 z2.2 z3.2 (p 2) z1.1
  have i33 := mb_schouten_right z2.2 (p 0) z0.1 z1.1 z2.1
  have i34 := mb_schouten_left z0.2 z1.2 z2.2 (p 0) z2.1
  have i35 := mb_schouten_right z2.2 (p 0) z0.1 z2.1 z3.1
  have i36 := mb_schouten_right z2.2 (p 1) z0.1 z1.1 z2.1
  have i37 := mb_schouten_left z0.2 z1.2 z2.2 (p 1) z2.1
  have i38 := mb_schouten_right z2.2 (p 1) z0.1 z2.1 z3.1
  have i39 := mb_schouten_right z3.2 (p 0) z0.1 z1.1 z3.1
  have i40 := mb_schouten_left z0.2 z1.2 z3.2 (p 0) z3.1
  have i41 := mb_schouten_right z3.2 (p 0) z0.1 z2.1 z3.1
  have i42 := mb_schouten_right z3.2 (p 1) z0.1 z1.1 z3.1
  have i43 := mb_schouten_left z0.2 z1.2 z3.2 (p 1) z3.1
  have i44 := mb_schouten_right z3.2 (p 1) z0.1 z2.1 z3.1
  have i45 := mb_det z0.2 z1.2 (plus (p 0) (p 1)) z0.1 z2.1
  have i46 := mb_det z0.2 z2.2 (plus (p 0) (p 1)) z0.1 z1.1
  have i47 := mb_det z0.2 z2.2 (plus (p 0) (p 1)) z0.1 z2.1
  have i48 := mb_det z0.2 z1.2 (plus (p 0) (backward (p 2))) z0.1 z1.1
  have i49 := mb_det z0.2 z1.2 (plus (p 0) (backward (p 2))) z0.1 z2.1
  have i50 := mb_det z0.2 z2.2 (plus (p 0) (backward (p 2))) z0.1 z1.1
  try simp only [mb_plus, mb_backward, hS, hT, hU, q0, q1, q2, q3] at i0 i1 i2 i3 i4 i5 i6 i7 i8 i9 i10 i11 i12 i13 i14 i15 i16 i17 i18 i19 i20 i21 i22 i23 i24 i25 i26 i27 i28 i29 i30 i31 i32 i33 i34 i35 i36 i37 i38 i39 i40 i41 i42 i43 i44 i45 i46 i47 i48 i49 i50
  simp only [b0.mb_left, b0.mb_right, b1.mb_left, b1.mb_right, b2.mb_left, b2.mb_right, b3.mb_left, b3.mb_right, mb_three hb z0.2 z0.1, mb_three hb z0.2 z1.1, mb_three hb z0.2 z2.1, mb_two hb z0.2 z3.1, mb_three hb z1.2 z0.1, mb_three hb z1.2 z1.1, mb_three hb z1.2 z2.1, mb_two hb z1.2 z3.1, mb_three hb z2.2 z0.1, mb_three hb z2.2 z1.1, mb_three hb z2.2 z2.1, mb_one hb z2.2 z3.1, mb_two hb z3.2 z0.1, mb_two hb z3.2 z1.1, mb_one hb z3.2 z2.1, mb_two hb z3.2 z3.1, ab_self, sb_self] at i0 i1 i2 i3 i4 i5 i6 i7 i8 i9 i10 i11 i12 i13 i14 i15 i16 i17 i18 i19 i20 i21 i22 i23 i24 i25 i26 i27 i28 i29 i30 i31 i32 i33 i34 i35 i36 i37 i38 i39 i40 i41 i42 i43 i44 i45 i46 i47 i48 i49 i50
  try simp only [ab_swap z0.1 z1.1, sb_swap z0.2 z1.2, ab_swap z0.1 z2.1, sb_swap z0.2 z2.2, ab_swap z0.1 z3.1, sb_swap z0.2 z3.2, ab_swap z1.1 z2.1, sb_swap z1.2 z2.2, ab_swap z1.1 z3.1, sb_swap z1.2 z3.2, ab_swap z2.1 z3.1, sb_swap z2.2 z3.2] at i0 i1 i2 i3 i4 i5 i6 i7 i8 i9 i10 i11 i12 i13 i14 i15 i16 i17 i18 i19 i20 i21 i22 i23 i24 i25 i26 i27 i28 i29 i30 i31 i32 i33 i34 i35 i36 i37 i38 i39 i40 i41 i42 i43 i44 i45 i46 i47 i48 i49 i50
  push_cast at i0 i1 i2 i3 i4 i5 i6 i7 i8 i9 i10 i11 i12 i13 i14 i15 i16 i17 i18 i19 i20 i21 i22 i23 i24 i25 i26 i27 i28 i29 i30 i31 i32 i33 i34 i35 i36 i37 i38 i39 i40 i41 i42 i43 i44 i45 i46 i47 i48 i49 i50
  simp only [contact, seagull, gauge4, between, carriers, List.map_cons, List.map_nil, List.sum_cons, List.sum_nil, carry_massive c .z (hx := (rfl : Boson.massive .z = true)), carry_massive c .wPlus (hx := (rfl : Boson.massive .wPlus = true)), carry_massive c .wMinus (hx := (rfl : Boson.massive .wMinus = true)), carry_massless c .photon (hx := rfl)]
  simp only [toHiggs, toVector, higgs2, gauge3, Boson.anti, Constants.bosonMass, Constants.bosonWidth, reduceCtorEq, and_self, and_true, and_false, true_and, false_and, if_true, if_false, Complex.ofReal_zero, zero_smul, zero_mul, mul_zero, zero_div, neg_zero, add_zero, zero_add, sub_zero, sub_self, contract_zero, contract_zero_left, contract_smul, contract_smul_left, d0, d1, d2, four_yangMills Y0 Y1 Q0 Q1, four_yangMills Y0 Y2 Q0 Q2, four_yangMills Y0 Y3 Q0 Q3, four_yangMills Y1 Y2 Q1 Q2, four_yangMills Y1 Y3 Q1 Q3, four_yangMills Y2 Y3 Q2 Q3]
  try simp only [yangMills_pv Y0 Y1, yangMills_pv Y0 Y2, yangMills_pv Y0 Y3, yangMills_pv Y1 Y2, yangMills_pv Y1 Y3, yangMills_pv Y2 Y3, contract_add, contract_add_left, contract_smul, contract_smul_left, contract_four_four, dot_backward_left, dot_backward_right, dot_plus_left, dot_same, q0, q1, q2, q3, dot_comm (p 1) (p 0), dot_comm (p 2) (p 0), dot_comm (p 3) (p 0), dot_comm (p 2) (p 1), dot_comm (p 3) (p 1), dot_comm (p 3) (p 2), e01, e23, e02, e13, e03, e12]
  try simp only [contract_four_pv, contract_pv_four, contract_pv, mb_plus, mb_backward]
  try simp only [b0.mb_left, b0.mb_right, b1.mb_left, b1.mb_right, b2.mb_left, b2.mb_right, b3.mb_left, b3.mb_right, mb_three hb z0.2 z0.1, mb_three hb z0.2 z1.1, mb_three hb z0.2 z2.1, mb_two hb z0.2 z3.1, mb_three hb z1.2 z0.1, mb_three hb z1.2 z1.1, mb_three hb z1.2 z2.1, mb_two hb z1.2 z3.1, mb_three hb z2.2 z0.1, mb_three hb z2.2 z1.1, mb_three hb z2.2 z2.1, mb_one hb z2.2 z3.1, mb_two hb z3.2 z0.1, mb_two hb z3.2 z1.1, mb_one hb z3.2 z2.1, mb_two hb z3.2 z3.1, ab_self, sb_self]
  try simp only [ab_swap z0.1 z1.1, sb_swap z0.2 z1.2, ab_swap z0.1 z2.1, sb_swap z0.2 z2.2, ab_swap z0.1 z3.1, sb_swap z0.2 z3.2, ab_swap z1.1 z2.1, sb_swap z1.2 z2.2, ab_swap z1.1 z3.1, sb_swap z1.2 z3.2, ab_swap z2.1 z3.1, sb_swap z2.2 z3.2]
  simp only [r3, r6, r8, r9, Constants.invVev, ← c.mz]
  have xMW : (c.MW : ℂ) ≠ 0 := by exact_mod_cast hc.MW
  have xSW : (c.SW : ℂ) ≠ 0 := by exact_mod_cast hc.SW
  have xCW : (c.CW : ℂ) ≠ 0 := by exact_mod_cast hc.CW
  have y2 : ((√2 : ℝ) : ℂ) ≠ 0 := by exact_mod_cast (Real.sqrt_pos.2 two_pos).ne'
  have y22 : ((√2 : ℝ) : ℂ) ^ 2 = 2 := by rw [← Complex.ofReal_pow, Real.sq_sqrt two_pos.le]; norm_num
  push_cast
  push_cast at x0
  push_cast at x2
  generalize ab z0.1 z1.1 = a01 at i0 i1 i2 i3 i4 i5 i6 i7 i8 i9 i10 i11 i12 i13 i14 i15 i16 i17 i18 i19 i20 i21 i22 i23 i24 i25 i26 i27 i28 i29 i30 i31 i32 i33 i34 i35 i36 i37 i38 i39 i40 i41 i42 i43 i44 i45 i46 i47 i48 i49 i50 ⊢
  generalize ab z0.1 z2.1 = a02 at i0 i1 i2 i3 i4 i5 i6 i7 i8 i9 i10 i11 i12 i13 i14 i15 i16 i17 i18 i19 i20 i21 i22 i23 i24 i25 i26 i27 i28 i29 i30 i31 i32 i33 i34 i35 i36 i37 i38 i39 i40 i41 i42 i43 i44 i45 i46 i47 i48 i49 i50 ⊢
  generalize ab z0.1 z3.1 = a03 at i0 i1 i2 i3 i4 i5 i6 i7 i8 i9 i10 i11 i12 i13 i14 i15 i16 i17 i18 i19 i20 i21 i22 i23 i24 i25 i26 i27 i28 i29 i30 i31 i32 i33 i34 i35 i36 i37 i38 i39 i40 i41 i42 i43 i44 i45 i46 i47 i48 i49 i50 ⊢
  generalize ab z1.1 z2.1 = a12 at i0 i1 i2 i3 i4 i5 i6 i7 i8 i9 i10 i11 i12 i13 i14 i15 i16 i17 i18 i19 i20 i21 i22 i23 i24 i25 i26 i27 i28 i29 i30 i31 i32 i33 i34 i35 i36 i37 i38 i39 i40 i41 i42 i43 i44 i45 i46 i47 i48 i49 i50 ⊢
  generalize ab z1.1 z3.1 = a13 at i0 i1 i2 i3 i4 i5 i6 i7 i8 i9 i10 i11 i12 i13 i14 i15 i16 i17 i18 i19 i20 i21 i22 i23 i24 i25 i26 i27 i28 i29 i30 i31 i32 i33 i34 i35 i36 i37 i38 i39 i40 i41 i42 i43 i44 i45 i46 i47 i48 i49 i50 ⊢
  generalize ab z2.1 z3.1 = a23 at i0 i1 i2 i3 i4 i5 i6 i7 i8 i9 i10 i11 i12 i13 i14 i15 i16 i17 i18 i19 i20 i21 i22 i23 i24 i25 i26 i27 i28 i29 i30 i31 i32 i33 i34 i35 i36 i37 i38 i39 i40 i41 i42 i43 i44 i45 i46 i47 i48 i49 i50 ⊢
  generalize mb z0.2 (p 1) z0.1 = m010 at i0 i1 i2 i3 i4 i5 i6 i7 i8 i9 i10 i11 i12 i13 i14 i15 i16 i17 i18 i19 i20 i21 i22 i23 i24 i25 i26 i27 i28 i29 i30 i31 i32 i33 i34 i35 i36 i37 i38 i39 i40 i41 i42 i43 i44 i45 i46 i47 i48 i49 i50 ⊢
  generalize mb z0.2 (p 1) z2.1 = m012 at i0 i1 i2 i3 i4 i5 i6 i7 i8 i9 i10 i11 i12 i13 i14 i15 i16 i17 i18 i19 i20 i21 i22 i23 i24 i25 i26 i27 i28 i29 i30 i31 i32 i33 i34 i35 i36 i37 i38 i39 i40 i41 i42 i43 i44 i45 i46 i47 i48 i49 i50 ⊢
  generalize mb z0.2 (p 1) z3.1 = m013 at i0 i1 i2 i3 i4 i5 i6 i7 i8 i9 i10 i11 i12 i13 i14 i15 i16 i17 i18 i19 i20 i21 i22 i23 i24 i25 i26 i27 i28 i29 i30 i31 i32 i33 i34 i35 i36 i37 i38 i39 i40 i41 i42 i43 i44 i45 i46 i47 i48 i49 i50 ⊢
  generalize mb z0.2 (p 2) z0.1 = m020 at i0 i1 i2 i3 i4 i5 i6 i7 i8 i9 i10 i11 i12 i13 i14 i15 i16 i17 i18 i19 i20 i21 i22 i23 i24 i25 i26 i27 i28 i29 i30 i31 i32 i33 i34 i35 i36 i37 i38 i39 i40 i41 i42 i43 i44 i45 i46 i47 i48 i49 i50 ⊢
  generalize mb z0.2 (p 2) z1.1 = m021 at i0 i1 i2 i3 i4 i5 i6 i7 i8 i9 i10 i11 i12 i13 i14 i15 i16 i17 i18 i19 i20 i21 i22 i23 i24 i25 i26 i27 i28 i29 i30 i31 i32 i33 i34 i35 i36 i37 i38 i39 i40 i41 i42 i43 i44 i45 i46 i47 i48 i49 i50 ⊢
  generalize mb z1.2 (p 0) z1.1 = m101 at i0 i1 i2 i3 i4 i5 i6 i7 i8 i9 i10 i11 i12 i13 i14 i15 i16 i17 i18 i19 i20 i21 i22 i23 i24 i25 i26 i27 i28 i29 i30 i31 i32 i33 i34 i35 i36 i37 i38 i39 i40 i41 i42 i43 i44 i45 i46 i47 i48 i49 i50 ⊢
  generalize mb z1.2 (p 0) z2.1 = m102 at i0 i1 i2 i3 i4 i5 i6 i7 i8 i9 i10 i11 i12 i13 i14 i15 i16 i17 i18 i19 i20 i21 i22 i23 i24 i25 i26 i27 i28 i29 i30 i31 i32 i33 i34 i35 i36 i37 i38 i39 i40 i41 i42 i43 i44 i45 i46 i47 i48 i49 i50 ⊢
  generalize mb z1.2 (p 0) z3.1 = m103 at i0 i1 i2 i3 i4 i5 i6 i7 i8 i9 i10 i11 i12 i13 i14 i15 i16 i17 i18 i19 i20 i21 i22 i23 i24 i25 i26 i27 i28 i29 i30 i31 i32 i33 i34 i35 i36 i37 i38 i39 i40 i41 i42 i43 i44 i45 i46 i47 i48 i49 i50 ⊢
  generalize mb z1.2 (p 2) z0.1 = m120 at i0 i1 i2 i3 i4 i5 i6 i7 i8 i9 i10 i11 i12 i13 i14 i15 i16 i17 i18 i19 i20 i21 i22 i23 i24 i25 i26 i27 i28 i29 i30 i31 i32 i33 i34 i35 i36 i37 i38 i39 i40 i41 i42 i43 i44 i45 i46 i47 i48 i49 i50 ⊢
  generalize mb z1.2 (p 2) z1.1 = m121 at i0 i1 i2 i3 i4 i5 i6 i7 i8 i9 i10 i11 i12 i13 i14 i15 i16 i17 i18 i19 i20 i21 i22 i23 i24 i25 i26 i27 i28 i29 i30 i31 i32 i33 i34 i35 i36 i37 i38 i39 i40 i41 i42 i43 i44 i45 i46 i47 i48 i49 i50 ⊢
  generalize mb z2.2 (p 0) z1.1 = m201 at i0 i1 i2 i3 i4 i5 i6 i7 i8 i9 i10 i11 i12 i13 i14 i15 i16 i17 i18 i19 i20 i21 i22 i23 i24 i25 i26 i27 i28 i29 i30 i31 i32 i33 i34 i35 i36 i37 i38 i39 i40 i41 i42 i43 i44 i45 i46 i47 i48 i49 i50 ⊢
  generalize mb z2.2 (p 0) z2.1 = m202 at i0 i1 i2 i3 i4 i5 i6 i7 i8 i9 i10 i11 i12 i13 i14 i15 i16 i17 i18 i19 i20 i21 i22 i23 i24 i25 i26 i27 i28 i29 i30 i31 i32 i33 i34 i35 i36 i37 i38 i39 i40 i41 i42 i43 i44 i45 i46 i47 i48 i49 i50 ⊢
  generalize mb z2.2 (p 0) z3.1 = m203 at i0 i1 i2 i3 i4 i5 i6 i7 i8 i9 i10 i11 i12 i13 i14 i15 i16 i17 i18 i19 i20 i21 i22 i23 i24 i25 i26 i27 i28 i29 i30 i31 i32 i33 i34 i35 i36 i37 i38 i39 i40 i41 i42 i43 i44 i45 i46 i47 i48 i49 i50 ⊢
  generalize mb z2.2 (p 1) z0.1 = m210 at i0 i1 i2 i3 i4 i5 i6 i7 i8 i9 i10 i11 i12 i13 i14 i15 i16 i17 i18 i19 i20 i21 i22 i23 i24 i25 i26 i27 i28 i29 i30 i31 i32 i33 i34 i35 i36 i37 i38 i39 i40 i41 i42 i43 i44 i45 i46 i47 i48 i49 i50 ⊢
  generalize mb z2.2 (p 1) z2.1 = m212 at i0 i1 i2 i3 i4 i5 i6 i7 i8 i9 i10 i11 i12 i13 i14 i15 i16 i17 i18 i19 i20 i21 i22 i23 i24 i25 i26 i27 i28 i29 i30 i31 i32 i33 i34 i35 i36 i37 i38 i39 i40 i41 i42 i43 i44 i45 i46 i47 i48 i49 i50 ⊢
  generalize mb z3.2 (p 0) z1.1 = m301 at i0 i1 i2 i3 i4 i5 i6 i7 i8 i9 i10 i11 i12 i13 i14 i15 i16 i17 i18 i19 i20 i21 i22 i23 i24 i25 i26 i27 i28 i29 i30 i31 i32 i33 i34 i35 i36 i37 i38 i39 i40 i41 i42 i43 i44 i45 i46 i47 i48 i49 i50 ⊢
  generalize mb z3.2 (p 0) z2.1 = m302 at i0 i1 i2 i3 i4 i5 i6 i7 i8 i9 i10 i11 i12 i13 i14 i15 i16 i17 i18 i19 i20 i21 i22 i23 i24 i25 i26 i27 i28 i29 i30 i31 i32 i33 i34 i35 i36 i37 i38 i39 i40 i41 i42 i43 i44 i45 i46 i47 i48 i49 i50 ⊢
  generalize mb z3.2 (p 0) z3.1 = m303 at i0 i1 i2 i3 i4 i5 i6 i7 i8 i9 i10 i11 i12 i13 i14 i15 i16 i17 i18 i19 i20 i21 i22 i23 i24 i25 i26 i27 i28 i29 i30 i31 i32 i33 i34 i35 i36 i37 i38 i39 i40 i41 i42 i43 i44 i45 i46 i47 i48 i49 i50 ⊢
  generalize mb z3.2 (p 1) z0.1 = m310 at i0 i1 i2 i3 i4 i5 i6 i7 i8 i9 i10 i11 i12 i13 i14 i15 i16 i17 i18 i19 i20 i21 i22 i23 i24 i25 i26 i27 i28 i29 i30 i31 i32 i33 i34 i35 i36 i37 i38 i39 i40 i41 i42 i43 i44 i45 i46 i47 i48 i49 i50 ⊢
  generalize mb z3.2 (p 1) z3.1 = m313 at i0 i1 i2 i3 i4 i5 i6 i7 i8 i9 i10 i11 i12 i13 i14 i15 i16 i17 i18 i19 i20 i21 i22 i23 i24 i25 i26 i27 i28 i29 i30 i31 i32 i33 i34 i35 i36 i37 i38 i39 i40 i41 i42 i43 i44 i45 i46 i47 i48 i49 i50 ⊢
  generalize sb z0.2 z1.2 = s01 at i0 i1 i2 i3 i4 i5 i6 i7 i8 i9 i10 i11 i12 i13 i14 i15 i16 i17 i18 i19 i20 i21 i22 i23 i24 i25 i26 i27 i28 i29 i30 i31 i32 i33 i34 i35 i36 i37 i38 i39 i40 i41 i42 i43 i44 i45 i46 i47 i48 i49 i50 ⊢
  generalize sb z0.2 z2.2 = s02 at i0 i1 i2 i3 i4 i5 i6 i7 i8 i9 i10 i11 i12 i13 i14 i15 i16 i17 i18 i19 i20 i21 i22 i23 i24 i25 i26 i27 i28 i29 i30 i31 i32 i33 i34 i35 i36 i37 i38 i39 i40 i41 i42 i43 i44 i45 i46 i47 i48 i49 i50 ⊢
  generalize sb z0.2 z3.2 = s03 at i0 i1 i2 i3 i4 i5 i6 i7 i8 i9 i10 i11 i12 i13 i14 i15 i16 i17 i18 i19 i20 i21 i22 i23 i24 i25 i26 i27 i28 i29 i30 i31 i32 i33 i34 i35 i36 i37 i38 i39 i40 i41 i42 i43 i44 i45 i46 i47 i48 i49 i50 ⊢
  generalize sb z1.2 z2.2 = s12 at i0 i1 i2 i3 i4 i5 i6 i7 i8 i9 i10 i11 i12 i13 i14 i15 i16 i17 i18 i19 i20 i21 i22 i23 i24 i25 i26 i27 i28 i29 i30 i31 i32 i33 i34 i35 i36 i37 i38 i39 i40 i41 i42 i43 i44 i45 i46 i47 i48 i49 i50 ⊢
  generalize sb z1.2 z3.2 = s13 at i0 i1 i2 i3 i4 i5 i6 i7 i8 i9 i10 i11 i12 i13 i14 i15 i16 i17 i18 i19 i20 i21 i22 i23 i24 i25 i26 i27 i28 i29 i30 i31 i32 i33 i34 i35 i36 i37 i38 i39 i40 i41 i42 i43 i44 i45 i46 i47 i48 i49 i50 ⊢
  generalize sb z2.2 z3.2 = s23 at i0 i1 i2 i3 i4 i5 i6 i7 i8 i9 i10 i11 i12 i13 i14 i15 i16 i17 i18 i19 i20 i21 i22 i23 i24 i25 i26 i27 i28 i29 i30 i31 i32 i33 i34 i35 i36 i37 i38 i39 i40 i41 i42 i43 i44 i45 i46 i47 i48 i49 i50 ⊢
  generalize (tS : ℂ) = vS at i0 i1 i2 i3 i4 i5 i6 i7 i8 i9 i10 i11 i12 i13 i14 i15 i16 i17 i18 i19 i20 i21 i22 i23 i24 i25 i26 i27 i28 i29 i30 i31 i32 i33 i34 i35 i36 i37 i38 i39 i40 i41 i42 i43 i44 i45 i46 i47 i48 i49 i50 x0 x2 ⊢; generalize (tT : ℂ) = vT at i0 i1 i2 i3 i4 i5 i6 i7 i8 i9 i10 i11 i12 i13 i14 i15 i16 i17 i18 i19 i20 i21 i22 i23 i24 i25 i26 i27 i28 i29 i30 i31 i32 i33 i34 i35 i36 i37 i38 i39 i40 i41 i42 i43 i44 i45 i46 i47 i48 i49 i50 x0 x2 ⊢
  generalize N.c 0 = D0 at n0 x0 ⊢
  generalize N.c 1 = D1 at n1 ⊢
  generalize N.c 2 = D2 at n2 x2 ⊢
  have w2 : (c.MZ : ℂ)^2*a12*a23*s01*s03 + (2)*(c.MZ : ℂ)^2*a02*a13*s03*s12 + (-2)*(c.MZ : ℂ)^2*a01*a23*s03*s12 + (3)*(c.MZ : ℂ)^2*a01*a03*s12*s23 + (-2)*(c.MZ : ℂ)^2*a03*a12*s03*s12 + (-3)*(c.MW : ℂ)*(c.MZ : ℂ)*a03*a12*a23*s01 + (-4)*(c.MW : ℂ)*(c.MZ : ℂ)*a12*a13*s02*s03 + (-1)*(c.MW : ℂ)*(c.MZ : ℂ)*a01*s03*s12*s23 + (-4)*(c.MW : ℂ)*(c.MZ : ℂ)*a02*a03*s12*s13 + (-1)*(c.MZ : ℂ)*a23*m021*s03*s12 + (c.MW : ℂ)*(c.MZ : ℂ)*a03*s01*s12*s23 + (c.MZ : ℂ)*a03*m021*s12*s23 + (3)*(c.MW : ℂ)*(c.MZ : ℂ)*a01*a12*a23*s03 + (3)*(c.MZ : ℂ)*a12*a23*m120*s03 + (-3)*(c.MZ : ℂ)*a03*a12*m120*s23 + (-2)*(c.MW : ℂ)^2*a02*a13*s03*s12 + (4)*(c.MW : ℂ)^2*a03*a23*s01*s12 + (-2)*(c.MW : ℂ)^2*a01*a23*s03*s12 + (-4)*(c.MW : ℂ)^2*a03*a12*s01*s23 + (4)*(c.MW : ℂ)^2*a01*a12*s03*s23 + (3)*(c.MW : ℂ)*a03*a23*m021*s12 + (-3)*(c.MW : ℂ)*a03*a12*m021*s23 + (-1)*(c.MW : ℂ)*a23*m120*s03*s12 + (c.MW : ℂ)*a12*m120*s03*s23 + (2)*vS*a03*a12*s03*s12 + (-2)*vT*a03*a12*s03*s12 + (4)*a03*m121*m202*s03 + (4)*a03*m101*m212*s03 + (4)*a12*m010*m313*s12 + (-4)*a12*m020*m313*s12 + (4)*a12*m010*m303*s12 + (-4)*a23*m010*m121*s23 + (4)*a23*m020*m121*s23 + (-4)*a13*m010*m212*s13 + (4)*a13*m020*m212*s13 + (-4)*a02*m121*m303*s02 + (-4)*a01*m212*m303*s01 = D2 * ((-4)*a02*a13*s02*s13 + (-7)*a02*a13*s01*s23 + (-6)*a02*a13*s03*s12 + (-4)*a02*a13^2*s02 + (4)*a03*a12*a13*s02 + (11)*a01*a23*s02*s13 + (12)*a03*a12*s02*s13 + (4)*a01*a13*a23*s02 + (2)*a01*a23*s03*s12) := by
    rw [x2]
    linear_combination ((7)*(c.MZ : ℂ)*a12*s03 + (5)*(c.MW : ℂ)*s01*s23 + (7)*(c.MW : ℂ)*a13*s02 + (7)*m301*s02 + (3)*(c.MW : ℂ)*s02*s13 + (4)*m021*s23) * i29 + ((-28)*(c.MZ : ℂ)^2*s02*s13 + (c.MZ : ℂ)*m120*s23 + (2)*(c.MZ : ℂ)^2*s01*s23 + (-8)*(c.MZ : ℂ)^2*a13*s02 + (-4)*(c.MZ : ℂ)^2*a02*s13 + (-6)*(c.MZ : ℂ)^2*s03*s12 + (12)*vT*s02*s13 + (12)*vS*s02*s13 + (4)*vT*a13*s02 + (4)*vS*a13*s02 + (-8)*(c.MZ : ℂ)*m210*s13 + (-3)*(c.MW : ℂ)*(c.MZ : ℂ)*a01*s23 + (4)*(c.MW : ℂ)*m301*s02 + (-2)*vT*s03*s12 + (2)*vS*s03*s12) * i0 + ((5)*m120*s23 + (2)*(c.MZ : ℂ)*s01*s23 + (-8)*(c.MZ : ℂ)*s02*s13 + (-8)*m210*s13) * i8 + ((2)*(c.MW : ℂ)*a13*s23 + (-5)*(c.MW : ℂ)*s13*s23 + (4)*m313*s12 + (4)*m303*s12) * i2 + ((-8)*m120*s23 + (2)*(c.MZ : ℂ)*s01*s23 + (4)*(c.MZ : ℂ)*s02*s13 + (4)*m210*s13) * i16 + ((-2)*(c.MZ : ℂ)*a13*s23 + (3)*(c.MW : ℂ)*a23*s13 + (3)*(c.MW : ℂ)*a13*a23 + (8)*a23*m301 + (4)*a12*m303) * i11 + ((16)*(c.MZ : ℂ)^2*a02*a13 + (-8)*vT*a02*a13 + (-4)*vS*a02*a13 + (4)*(c.MZ : ℂ)*a13*m012 + (-6)*(c.MZ : ℂ)^2*a01*a23 + (4)*(c.MZ : ℂ)*a03*m201 + (-1)*(c.MW : ℂ)*(c.MZ : ℂ)*a23*s01 + (4)*(c.MZ : ℂ)*a13*m210 + (4)*(c.MZ : ℂ)^2*a13*s02 + (4)*vT*a01*a23 + (-8)*(c.MW : ℂ)*a02*m103 + (8)*(c.MW : ℂ)*a02*m301 + (3)*(c.MZ : ℂ)*a23*m021) * i1 + ((3)*(c.MW : ℂ)*a23*s12 + (3)*m102*s23 + (-3)*(c.MW : ℂ)*a12*s23 + (-4)*(c.MZ : ℂ)*s12*s23 + (-8)*m202*s13 + (-8)*m212*s13) * i4 + ((-5)*a23*m101 + a23*m121 + (4)*(c.MW : ℂ)*a12*a13 + (4)*(c.MW : ℂ)*a12*s13 + (8)*(c.MZ : ℂ)*a13*s12) * i7 + ((5)*a23*m210 + (-8)*(c.MW : ℂ)*a02*s23 + (5)*(c.MZ : ℂ)*a02*a23 + (-4)*a03*m202 + (4)*(c.MZ : ℂ)*a23*s02 + (-8)*a03*m212) * i21 + ((3)*(c.MZ : ℂ)*a03*s23 + a23*m310 + (4)*(c.MW : ℂ)*a03*a23) * i26 + ((8)*m121*s23 + (-4)*(c.MW : ℂ)*s12*s13 + (-9)*m101*s23 + (4)*m201*s13 + (-8)*m301*s12) * i14 + ((-5)*m121*s23 + (12)*(c.MW : ℂ)*s12*s13 + (5)*m101*s23 + (8)*m301*s12) * i6 + ((-10)*(c.MW : ℂ)*a23*s13 + (-8)*a23*m301 + (-3)*(c.MW : ℂ)*a13*a23 + (-4)*(c.MZ : ℂ)*a13*s23) * i3 + ((3)*(c.MW : ℂ)*s01*s23 + (-1)*m021*s23 + (-4)*(c.MW : ℂ)*a13*s02 + (-8)*(c.MW : ℂ)*s02*s13 + (-4)*m301*s02) * i22 + ((5)*(c.MZ : ℂ)*s02*s23 + (4)*(c.MZ : ℂ)*a02*s23 + (-4)*(c.MW : ℂ)*a23*s02 + (5)*m012*s23 + (-4)*m202*s03) * i27 + ((-5)*(c.MZ : ℂ)*s02*s23 + (-5)*m012*s23 + (4)*(c.MW : ℂ)*a23*s02 + (-4)*(c.MZ : ℂ)*a02*s23 + (4)*m202*s03 + (4)*m212*s03) * i20 + ((c.MW : ℂ)*a13*s23 + (2)*(c.MZ : ℂ)*a23*s13 + (5)*(c.MW : ℂ)*s13*s23 + (-4)*m313*s12 + (-4)*m303*s12) * i10 + ((4)*a13*m012 + (-2)*(c.MZ : ℂ)*a01*a23 + (3)*a23*m021 + (4)*(c.MZ : ℂ)*a02*a13) * i9 + ((c.MW : ℂ)*a01*a23 + a23*m120 + (4)*(c.MZ : ℂ)*a03*s12 + (4)*(c.MW : ℂ)*a02*s13) * i23 + ((4)*(c.MZ : ℂ)*a03*s23 + (8)*(c.MW : ℂ)*s03*s23 + (-3)*(c.MZ : ℂ)*a23*s03 + (3)*m013*s23 + (4)*m303*s02) * i25 + ((-1)*a23*m201 + (c.MZ : ℂ)*a12*a23 + (c.MW : ℂ)*a23*s12 + (-1)*(c.MW : ℂ)*a12*s23 + (-4)*a13*m202) * i13 + ((-4)*(c.MZ : ℂ)*a03*s23 + (c.MW : ℂ)*a03*a23 + (c.MZ : ℂ)*a23*s03) * i19 + ((3)*(c.MZ : ℂ)*a02*a23 + (3)*a23*m210) * i28 + ((7)*(c.MZ : ℂ)*s12*s23 + m102*s23 + (-3)*(c.MW : ℂ)*a23*s12 + (3)*(c.MW : ℂ)*a12*s23 + (4)*m202*s13 + (4)*m212*s13) * i12 + ((3)*(c.MW : ℂ)*a01*a23 + (-3)*(c.MW : ℂ)*a02*a13 + (-3)*a02*m103 + (-3)*(c.MW : ℂ)*a02*s13 + (-3)*(c.MZ : ℂ)*a03*s12) * i30 + ((-1)*(c.MW : ℂ)*s03*s23 + (-1)*(c.MZ : ℂ)*a03*s23 + (-4)*m013*s23) * i18 + ((-4)*(c.MW : ℂ)*a12*a13 + (-4)*(c.MZ : ℂ)*a13*s12 + (5)*a23*m101 + (-4)*(c.MW : ℂ)*a12*s13) * i15 + ((-1)*(c.MW : ℂ)*a23*s12 + (c.MW : ℂ)*a12*s23 + (4)*a13*m202 + a23*m201) * i5 + ((2)*(c.MZ : ℂ)*a01*a23 + (-4)*(c.MZ : ℂ)*a02*a13) * i17 + ((4)*m210*s03) * i31 + ((4)*m013*s13) * i33 + ((4)*(c.MW : ℂ)*a03*a13 + (8)*(c.MW : ℂ)*a03*s13 + (4)*a03*m301) * i34 + ((4)*(c.MZ : ℂ)*a02*a03) * i24 + ((-4)*(c.MW : ℂ)*s03*s13 + (-4)*m103*s03 + (4)*m013*s13 + (4)*(c.MZ : ℂ)*a03*s13) * i36 + ((4)*a03*m301 + (8)*(c.MW : ℂ)*a03*s13) * i37 + ((-4)*m021*s13) * i38 + ((-4)*m021*s13) * i35 + ((4)*(c.MZ : ℂ)*a02*a12 + (-4)*(c.MW : ℂ)*a02*s12) * i40 + ((-4)*m012*s12 + (-4)*(c.MZ : ℂ)*s02*s12) * i42 + ((-3)*a13*s23) * i45 + ((-1)*a23*s13) * i46 + ((4)*a13*s13) * i47 + ((-4)*a23*s23) * i48 + (a13*s23) * i49 + ((3)*a23*s13) * i50 + ((-4)*(c.MW : ℂ)*a02*s12) * i43 + ((-4)*m021*s12) * i44 + ((-4)*m012*s12 + (-4)*m212*s01) * i39 + ((-4)*m021*s12) * i41
  have w0 : (4)*(c.MZ : ℂ)^2*a12*a23*s01*s03 + (2)*(c.MZ : ℂ)^2*a02*a13*s01*s23 + (-3)*(c.MZ : ℂ)^2*a01*a23*s03*s12 + (4)*(c.MZ : ℂ)^2*a01*a03*s12*s23 + (-3)*(c.MZ : ℂ)^2*a03*a12*s01*s23 + (2)*(c.MZ : ℂ)^2*a01*a23*s01*s23 + (4)*(c.MW : ℂ)*(c.MZ : ℂ)*a13*a23*s01*s02 + (3)*(c.MW : ℂ)*(c.MZ : ℂ)*a01*a12*a23*s03 + (-1)*(c.MW : ℂ)*(c.MZ : ℂ)*a23*s01*s03*s12 + (c.MW : ℂ)*(c.MZ : ℂ)*a03*s01*s12*s23 + (-3)*(c.MW : ℂ)*(c.MZ : ℂ)*a01*a03*a12*s23 + (4)*(c.MW : ℂ)*(c.MZ : ℂ)*a01*a02*s13*s23 + (c.MZ : ℂ)*a01*m013*s12*s23 + (-1)*(c.MZ : ℂ)*a12*m013*s01*s23 + (3)*(c.MZ : ℂ)*a12*a23*m310*s01 + (-3)*(c.MZ : ℂ)*a01*a23*m310*s12 + (-2)*(c.MW : ℂ)^2*a02*a13*s01*s23 + (3)*(c.MW : ℂ)^2*a03*a23*s01*s12 + (-1)*(c.MW : ℂ)^2*a01*a23*s03*s12 + (-1)*(c.MW : ℂ)^2*a03*a12*s01*s23 + (4)*(c.MW : ℂ)^2*a01*a23*s01*s23 + (c.MW : ℂ)^2*a01*a12*s03*s23 + (3)*(c.MW : ℂ)*a01*a23*m013*s12 + (-3)*(c.MW : ℂ)*a01*a12*m013*s23 + (-1)*(c.MW : ℂ)*a23*m310*s01*s12 + (c.MW : ℂ)*a12*m310*s01*s23 + (-4)*vT*a01*a23*s01*s23 + (-2)*vS*a01*a23*s01*s23 + (-4)*a01*m212*m303*s01 + (4)*a01*m202*m313*s01 + (-4)*a23*m010*m121*s23 + (-4)*a13*m010*m202*s13 + (-4)*a13*m010*m212*s13 + (4)*a12*m010*m303*s12 + (4)*a12*m010*m313*s12 + (4)*a23*m020*m101*s23 + (4)*a03*m101*m202*s03 + (4)*a03*m101*m212*s03 + (-4)*a02*m101*m303*s02 + (-4)*a02*m101*m313*s02 = D0 * ((-4)*a01*a13*a23*s02 + (4)*a02*a13^2*s02 + (-4)*a03*a12*a13*s02 + (5)*a02*a13*s01*s23 + (-4)*a03*a12*s02*s13 + (4)*a02*a13*s02*s13 + (-3)*a01*a23*s02*s13 + (-4)*a01*a23*s01*s23 + (-2)*a03*a12*s01*s23) := by
    rw [x0]
    linear_combination ((-4)*(c.MZ : ℂ)*a13*s23 + (8)*a23*m301 + (-4)*(c.MW : ℂ)*a23*s13) * i11 + ((3)*(c.MW : ℂ)*s01*s23 + (-4)*(c.MW : ℂ)*s02*s13 + (-4)*m301*s02) * i22 + ((4)*(c.MW : ℂ)*a23*m120 + (-4)*(c.MZ : ℂ)*a13*m210 + (5)*(c.MZ : ℂ)^2*a01*a23 + (-5)*(c.MW : ℂ)*(c.MZ : ℂ)*a23*s01 + (-8)*(c.MW : ℂ)*a02*m103 + (8)*(c.MW : ℂ)*a02*m301 + (4)*(c.MZ : ℂ)*a03*m201) * i1 + ((-4)*m210*s13 + (-8)*m120*s23 + (4)*(c.MZ : ℂ)*s01*s23) * i16 + ((-4)*(c.MW : ℂ)*a13*s12 + (-8)*m101*s23 + (-4)*(c.MZ : ℂ)*a12*s13 + (-8)*m301*s12 + (4)*m201*s13 + (4)*m121*s23) * i14 + ((-5)*m121*s23 + (5)*m101*s23 + (4)*(c.MZ : ℂ)*a12*s13 + (4)*(c.MW : ℂ)*a13*s12 + (8)*(c.MW : ℂ)*s12*s13 + (8)*m301*s12) * i6 + ((-8)*(c.MW : ℂ)*a02*s23 + (8)*(c.MZ : ℂ)*a02*a23 + (-4)*a03*m202 + (4)*(c.MZ : ℂ)*a23*s02 + (5)*a23*m210 + (-8)*a03*m212) * i21 + ((4)*(c.MZ : ℂ)*a13*s23 + (-2)*(c.MW : ℂ)*a23*s13 + (-3)*(c.MW : ℂ)*a13*a23 + (-8)*a23*m301) * i3 + ((4)*vS*a13*s02 + (-7)*(c.MZ : ℂ)^2*s01*s23 + (c.MW : ℂ)*(c.MZ : ℂ)*a01*s23 + (4)*vS*s02*s13 + (4)*(c.MZ : ℂ)*m012*s13 + (-4)*(c.MZ : ℂ)*m210*s13 + (-4)*(c.MZ : ℂ)^2*s03*s12 + (8)*(c.MZ : ℂ)*m120*s23 + (4)*(c.MW : ℂ)*m301*s02 + (-4)*(c.MW : ℂ)*m021*s23 + (2)*vS*s01*s23) * i0 + ((5)*(c.MW : ℂ)*s01*s23 + (4)*(c.MW : ℂ)*a13*s02 + (4)*m021*s23 + (4)*m301*s02 + (4)*(c.MZ : ℂ)*a12*s03) * i29 + (a23*m201 + (5)*(c.MW : ℂ)*a12*s23 + (-4)*a13*m202 + (-5)*(c.MW : ℂ)*a23*s12) * i5 + ((4)*(c.MW : ℂ)*a02*s13 + (4)*a02*m103 + (4)*a23*m120 + (4)*(c.MZ : ℂ)*a03*s12 + (c.MW : ℂ)*a01*a23) * i23 + ((4)*(c.MZ : ℂ)*a02*a13 + (-1)*a23*m021 + (2)*(c.MZ : ℂ)*a01*a23) * i9 + ((8)*a23*m101 + (-4)*(c.MW : ℂ)*a12*a13) * i15 + ((4)*(c.MZ : ℂ)*a23*s03 + (3)*a23*m310 + (4)*(c.MW : ℂ)*a03*a23 + (-4)*(c.MZ : ℂ)*a03*s23 + (4)*a02*m303 + (4)*a02*m313) * i19 + ((-1)*m013*s23 + (4)*(c.MW : ℂ)*s03*s23) * i25 + ((4)*(c.MZ : ℂ)*s12*s23 + (-4)*(c.MW : ℂ)*a12*s23 + (4)*(c.MW : ℂ)*a23*s12) * i12 + ((-5)*m012*s23 + (-12)*(c.MZ : ℂ)*a02*s23 + (-4)*(c.MZ : ℂ)*s02*s23 + (4)*m212*s03 + (4)*(c.MW : ℂ)*a23*s02) * i20 + ((-4)*(c.MZ : ℂ)*a23*s13 + (-2)*(c.MW : ℂ)*a13*s23 + (-5)*(c.MW : ℂ)*s13*s23 + (4)*m303*s12 + (4)*m313*s12) * i2 + ((-2)*(c.MZ : ℂ)*s01*s23 + (9)*m120*s23) * i8 + ((8)*(c.MW : ℂ)*a13*s23 + (4)*(c.MW : ℂ)*s13*s23) * i10 + ((-4)*a23*m201 + (4)*(c.MZ : ℂ)*a12*a23 + (4)*(c.MW : ℂ)*a23*s12 + (-4)*(c.MW : ℂ)*a12*s23) * i13 + ((c.MW : ℂ)*a12*s23 + (-4)*(c.MZ : ℂ)*s12*s23 + (-1)*(c.MW : ℂ)*a23*s12 + (-4)*m212*s13 + (3)*m102*s23) * i4 + ((4)*(c.MZ : ℂ)*s02*s23 + (-4)*(c.MW : ℂ)*a23*s02 + (8)*(c.MZ : ℂ)*a02*s23 + (5)*m012*s23) * i27 + (a23*m310 + (4)*(c.MW : ℂ)*a03*a23) * i26 + (a23*m121 + (4)*(c.MW : ℂ)*a12*a13 + (-5)*a23*m101) * i7 + ((4)*m210*s03) * i31 + ((4)*(c.MZ : ℂ)*a02*a03) * i32 + ((-4)*(c.MZ : ℂ)*a02*a03) * i24 + ((4)*a13*m012 + (-8)*(c.MZ : ℂ)*a01*a23) * i17 + ((4)*a03*m301 + (4)*(c.MW : ℂ)*a03*s13) * i34 + ((4)*(c.MZ : ℂ)*a03*s13 + (4)*(c.MW : ℂ)*a13*s03) * i33 + ((3)*a23*m210) * i28 + ((3)*(c.MW : ℂ)*a01*a23 + (-4)*a02*m103) * i30 + ((4)*a03*m301 + (4)*(c.MW : ℂ)*a03*s13) * i37 + ((-4)*m103*s03 + (8)*(c.MZ : ℂ)*a03*s13 + (4)*m013*s13) * i36 + ((-3)*a13*s23) * i45 + ((-3)*m013*s23) * i18 + ((-1)*a23*s13) * i46 + ((-4)*a23*s23) * i48 + ((-4)*m212*s01 + (-4)*m012*s12 + (-4)*(c.MZ : ℂ)*a02*s12) * i39 + ((4)*m202*s01 + (-4)*m012*s12 + (-4)*(c.MZ : ℂ)*a02*s12) * i42 + ((-4)*(c.MW : ℂ)*a02*s12 + (-4)*a02*m201) * i40 + ((-4)*(c.MW : ℂ)*a02*s12 + (-4)*a02*m201) * i43
  have hZ : (c.MZ : ℂ) = c.MW / c.CW := by rw [← c.mz, Complex.ofReal_div]
  try simp only [hZ] at w2 w0 i0 i1
  linear_combination (norm := (field_simp; first | ring1 | (ring_nf; simp only [y22]; ring1))) ((c.e : ℂ)^2/(2*((c.MW : ℂ) / (c.CW : ℂ))^4*(c.SW : ℂ)^2)) * w2 / D2 + ((c.e : ℂ)^2/(2*((c.MW : ℂ) / (c.CW : ℂ))^4*(c.SW : ℂ)^2)) * w0 / D0 + ((4)*(c.e : ℂ)^2*s02*s13/(((c.MW : ℂ) / (c.CW : ℂ))^4*(c.SW : ℂ)^2) + (c.e : ℂ)^2*s03*s12/(((c.MW : ℂ) / (c.CW : ℂ))^4*(c.SW : ℂ)^2) + (-1)*(c.e : ℂ)^2*s01*s23/(((c.MW : ℂ) / (c.CW : ℂ))^4*(c.SW : ℂ)^2)) * i0 + ((-2)*(c.e : ℂ)^2*a02*a13/(((c.MW : ℂ) / (c.CW : ℂ))^4*(c.SW : ℂ)^2)) * i1
set_option maxRecDepth 8000 in
theorem ZWZW.amp2_eq (N : Env) (f : Nat → List Int → ℂ) : Cls.ZWZW.m_amp2.mean N f .r [] =
    ((sumV (fun x a => (sumV (fun x b => (sumV (fun x c => (sumV (fun x d => (x + (‖(f 0 [a, b, c, d])‖ ^ 2))) x)) x)) x)) ((0 : Nat) : ℝ)) / ((9 : Nat) : ℝ)) := by rfl
set_option maxRecDepth 8000 in
theorem ZWZW.value (N : Env) : meaning N .r Cls.ZWZW.methods Cls.ZWZW.amp2 [] =
    ((sumV (fun x a => (sumV (fun x b => (sumV (fun x c => (sumV (fun x d => (x + (‖(Cls.ZWZW.m_amp.mean N (callMean N []) .c [a, b, c, d])‖ ^ 2))) x)) x)) x)) ((0 : Nat) : ℝ)) / ((9 : Nat) : ℝ)) :=
  ZWZW.amp2_eq N (callMean N [Cls.ZWZW.m_amp])
set_option maxRecDepth 8000 in
theorem ZWZW.term_lin (N : Env) (w : ℝ) (x : ℂ) (a0 b0 a1 b1 a2 b2 a3 b3 : Int) : ZWZW.term N w x a0 b0 a1 b1 a2 b2 a3 b3 = x + (w : ℂ) * ZWZW.term N 1 0 a0 b0 a1 b1 a2 b2 a3 b3 := by
  simp only [ZWZW.term]; push_cast; ring
theorem ZWZW.amp_eq (N : Env) (f : Nat → List Int → ℂ) (t0 t1 t2 t3 : Fin 3) : Cls.ZWZW.m_amp.mean N f .c [spinV t0, spinV t1, spinV t2, spinV t3] = comb t0 (fun a0 b0 => comb t1 (fun a1 b1 => comb t2 (fun a2 b2 => comb t3 (fun a3 b3 => ZWZW.term N 1 0 (spinOf a0) (spinOf b0) (spinOf a1) (spinOf b1) (spinOf a2) (spinOf b2) (spinOf a3) (spinOf b3))))) := by
  refine (amp_mean N f (m := 4) (K := 12) (G := fun i => ZWZW.term N 1 0 (i 4) (i 5) (i 6) (i 7) (i 8) (i 9) (i 10) (i 11)) (fun l => ?_) (fun i i' h => ?_) rfl (by decide) (by decide) (by decide) (by decide) (by decide)).trans ?_
  · refine ⟨_, rfl, rfl, rfl, Eq.trans ?_ (ZWZW.term_lin N (l.r 0) (l.c 0) (l.i 4) (l.i 5) (l.i 6) (l.i 7) (l.i 8) (l.i 9) (l.i 10) (l.i 11))⟩
    rw [ZWZW.term]
    with_reducible simp only [Exp.mean, madd, msub, mmul, mdiv, mneg, Env.mem]
    rfl
  · simp only [h 4 (by decide), h 5 (by decide), h 6 (by decide), h 7 (by decide), h 8 (by decide), h 9 (by decide), h 10 (by decide), h 11 (by decide)]
  · show amp' _ [spinV t0, spinV t1, spinV t2, spinV t3] = _
    simp only [amp'_comb, amp'_nil]
    rfl
theorem ZWZW.form_x0 (N : Env) (p : Nat → V4 ℝ) (y0 x1 y1 x2 y2 x3 y3 x y : Pair) : ZWZW.form N p (x + y) y0 x1 y1 x2 y2 x3 y3 = ZWZW.form N p x y0 x1 y1 x2 y2 x3 y3 + ZWZW.form N p y y0 x1 y1 x2 y2 x3 y3 := by
  simp only [ZWZW.form, Prod.fst_add, Prod.snd_add, ab_add_left, ab_add_right, sb_add_left, sb_add_right, mb_add_left, mb_add_right]
  ring
theorem ZWZW.form_y0 (N : Env) (p : Nat → V4 ℝ) (x0 x1 y1 x2 y2 x3 y3 x y : Pair) : ZWZW.form N p x0 (x + y) x1 y1 x2 y2 x3 y3 = ZWZW.form N p x0 x x1 y1 x2 y2 x3 y3 + ZWZW.form N p x0 y x1 y1 x2 y2 x3 y3 := by
  simp only [ZWZW.form, Prod.fst_add, Prod.snd_add, ab_add_left, ab_add_right, sb_add_left, sb_add_right, mb_add_left, mb_add_right]
  ring
theorem ZWZW.form_x1 (N : Env) (p : Nat → V4 ℝ) (x0 y0 y1 x2 y2 x3 y3 x y : Pair) : ZWZW.form N p x0 y0 (x + y) y1 x2 y2 x3 y3 = ZWZW.form N p x0 y0 x y1 x2 y2 x3 y3 + ZWZW.form N p x0 y0 y y1 x2 y2 x3 y3 := by
  simp only [ZWZW.form, Prod.fst_add, Prod.snd_add, ab_add_left, ab_add_right, sb_add_left, sb_add_right, mb_add_left, mb_add_right]
  ring
theorem ZWZW.form_y1 (N : Env) (p : Nat → V4 ℝ) (x0 y0 x1 x2 y2 x3 y3 x y : Pair) : ZWZW.form N p x0 y0 x1 (x + y) x2 y2 x3 y3 = ZWZW.form N p x0 y0 x1 x x2 y2 x3 y3 + ZWZW.form N p x0 y0 x1 y x2 y2 x3 y3 := by
  simp only [ZWZW.form, Prod.fst_add, Prod.snd_add, ab_add_left, ab_add_right, sb_add_left, sb_add_right, mb_add_left, mb_add_right]
  ring
theorem ZWZW.form_x2 (N : Env) (p : Nat → V4 ℝ) (x0 y0 x1 y1 y2 x3 y3 x y : Pair) : ZWZW.form N p x0 y0 x1 y1 (x + y) y2 x3 y3 = ZWZW.form N p x0 y0 x1 y1 x y2 x3 y3 + ZWZW.form N p x0 y0 x1 y1 y y2 x3 y3 := by
  simp only [ZWZW.form, Prod.fst_add, Prod.snd_add, ab_add_left, ab_add_right, sb_add_left, sb_add_right, mb_add_left, mb_add_right]
  ring
theorem ZWZW.form_y2 (N : Env) (p : Nat → V4 ℝ) (x0 y0 x1 y1 x2 x3 y3 x y : Pair) : ZWZW.form N p x0 y0 x1 y1 x2 (x + y) x3 y3 = ZWZW.form N p x0 y0 x1 y1 x2 x x3 y3 + ZWZW.form N p x0 y0 x1 y1 x2 y x3 y3 := by
  simp only [ZWZW.form, Prod.fst_add, Prod.snd_add, ab_add_left, ab_add_right, sb_add_left, sb_add_right, mb_add_left, mb_add_right]
  ring
theorem ZWZW.form_x3 (N : Env) (p : Nat → V4 ℝ) (x0 y0 x1 y1 x2 y2 y3 x y : Pair) : ZWZW.form N p x0 y0 x1 y1 x2 y2 (x + y) y3 = ZWZW.form N p x0 y0 x1 y1 x2 y2 x y3 + ZWZW.form N p x0 y0 x1 y1 x2 y2 y y3 := by
  simp only [ZWZW.form, Prod.fst_add, Prod.snd_add, ab_add_left, ab_add_right, sb_add_left, sb_add_right, mb_add_left, mb_add_right]
  ring
theorem ZWZW.form_y3 (N : Env) (p : Nat → V4 ℝ) (x0 y0 x1 y1 x2 y2 x3 x y : Pair) : ZWZW.form N p x0 y0 x1 y1 x2 y2 x3 (x + y) = ZWZW.form N p x0 y0 x1 y1 x2 y2 x3 x + ZWZW.form N p x0 y0 x1 y1 x2 y2 x3 y := by
  simp only [ZWZW.form, Prod.fst_add, Prod.snd_add, ab_add_left, ab_add_right, sb_add_left, sb_add_right, mb_add_left, mb_add_right]
  ring

theorem ZWZW.mass_eq {c : Constants} (hc : c.Physical) (i : Fin 4) : ZWZW.proc.massNum (ZWZW.rho c) i = ZWZW.react.mass c i := by
  fin_cases i <;> first | rfl | (show c.MW / √(((1 : Nat) : ℝ) - c.SW * c.SW) = c.MZ; rw [c.root, c.mz])

variable [FPEnv] in
theorem ZWZW.agrees : ZWZW.Agrees := by
  refine agrees_of (D := [3, 5]) (E := [5]) (by simp [all, ZWZW]) (by decide +kernel) (by decide) (by decide +kernel) (fun c hc hh => ⟨List.forall_mem_cons.2 ⟨hc.MW, List.forall_mem_cons.2 ⟨hc.SW, List.forall_mem_nil _⟩⟩, List.forall_mem_cons.2 ⟨hc.SW_lt, List.forall_mem_nil _⟩⟩) (fun c hc i => ZWZW.mass_eq hc i) (by decide +kernel) ?_
  intro c p u ε hc hh hw h0 hs hb hr hu
  have he : ZWZW.react.ends = [] := by decide
  have ht : ZWZW.react.starts = [] := by decide
  have hB : ZWZW.react.bosons = [0, 1, 2, 3] := by decide
  have hM : ZWZW.react.allMassive = true := by decide
  obtain ⟨f1, f2, f3⟩ := ZWZW.react.regular_four he ht hB hr
  have hWW : c.WW = 0 := hw .WW (by simp [ZWZW])
  have r3 : (ZWZW.N c p).r 3 = c.MW := rfl
  have r6 : (ZWZW.N c p).r 6 = √((((1 : Nat) : ℝ) - (c.SW * c.SW))) := rfl
  simp only [c.root] at r6
  have r8 : (ZWZW.N c p).r 8 = ((c.e * c.e) / (((c.MW * c.MW) * c.SW) * c.SW)) := rfl
  have r9 : (ZWZW.N c p).r 9 = ((c.e * c.e) / (((((((2 : Nat) : ℝ) * c.MW) * c.MW) * c.MW) * c.SW) * c.SW)) := rfl
  have c0 : (ZWZW.N c p).c 0 = poleDist c.MW c.WW ((VExp.add 0 1).sum p) := rfl
  rw [pole_congr (msq_s hb (plus (p 0) (p 1)) (by simp)).symm] at c0
  have d0 : pole c.MW c.WW (plus (p 0) (p 1)) = (ZWZW.N c p).c 0 := by rw [c0]
  have n0 : (ZWZW.N c p).c 0 ≠ 0 := by rw [← d0]; exact star_ne_zero.2 (f1 .wPlus rfl rfl)
  have c1 : (ZWZW.N c p).c 1 = poleDist c.MH c.WH ((VExp.sub 0 2).sum p) := rfl
  rw [pole_congr (msq_t hb (plus (p 0) (backward (p 2))) (by simp)).symm] at c1
  have d1 : pole c.MH c.WH (plus (p 0) (backward (p 2))) = (ZWZW.N c p).c 1 := by rw [c1]
  have n1 : (ZWZW.N c p).c 1 ≠ 0 := by rw [← d1]; exact star_ne_zero.2 (f2 .higgs rfl rfl)
  have c2 : (ZWZW.N c p).c 2 = poleDist c.MW c.WW ((VExp.sub 0 3).sum p) := rfl
  rw [pole_congr (msq_u hb (plus (p 0) (backward (p 3))) (by simp)).symm] at c2
  have d2 : pole c.MW c.WW (plus (p 0) (backward (p 3))) = (ZWZW.N c p).c 2 := by rw [c2]
  have n2 : (ZWZW.N c p).c 2 ≠ 0 := by rw [← d2]; exact star_ne_zero.2 (f3 .wMinus rfl rfl)
  have m0 : ZWZW.react.mass c 0 ≠ 0 := (leg_pos hc hh (by decide)).ne'
  have m1 : ZWZW.react.mass c 1 ≠ 0 := (leg_pos hc hh (by decide)).ne'
  have m2 : ZWZW.react.mass c 2 ≠ 0 := (leg_pos hc hh (by decide)).ne'
  have m3 : ZWZW.react.mass c 3 ≠ 0 := (leg_pos hc hh (by decide)).ne'
  have hd : ZWZW.proc.divides = [(Ty.c, 1), (Ty.c, 2), (Ty.c, 0)] := by decide +kernel
  refine ⟨fun n hn => ?_, fun n hn => ?_, ?_⟩
  · simp [hd] at hn
  · simp [hd] at hn
    rcases hn with rfl | rfl | rfl
    · exact n1
    · exact n2
    · exact n0
  have st : ∀ (t0 t1 t2 t3 : Fin 3), comb t0 (fun a0 b0 => comb t1 (fun a1 b1 => comb t2 (fun a2 b2 => comb t3 (fun a3 b3 => ZWZW.form (ZWZW.N c p) p (ZWZW.react.codePair c p 0 a0) (ZWZW.react.codePair c p 0 b0) (ZWZW.react.codePair c p 1 a1) (ZWZW.react.codePair c p 1 b1) (ZWZW.react.codePair c p 2 a2) (ZWZW.react.codePair c p 2 b2) (ZWZW.react.codePair c p 3 a3) (ZWZW.react.codePair c p 3 b3))))) = (-1) * ZWZW.react.bare4 c p (ZWZW.react.codeVec c p 0 t0) (ZWZW.react.codeVec c p 1 t1) (ZWZW.react.codeVec c p 2 t2) (ZWZW.react.codeVec c p 3 t3) := by
    intro t0 t1 t2 t3
    refine four_vectors (p₀ := p 0) (m₀ := ZWZW.react.mass c 0) (p₁ := p 1) (m₁ := ZWZW.react.mass c 1) (p₂ := p 2) (m₂ := ZWZW.react.mass c 2) (p₃ := p 3) (m₃ := ZWZW.react.mass c 3) (fun s => ZWZW.react.codePair_bold hs h0 0 s) (fun s => ZWZW.react.codePair_bold hs h0 1 s) (fun s => ZWZW.react.codePair_bold hs h0 2 s) (fun s => ZWZW.react.codePair_bold hs h0 3 s) (B := fun x0 x0b x1 x1b x2 x2b x3 x3b => ZWZW.form (ZWZW.N c p) p x0 x0b x1 x1b x2 x2b x3 x3b) (fun _ _ _ _ _ _ _ _ _ => ?_) (fun _ _ _ _ _ _ _ _ _ => ?_) (fun _ _ _ _ _ _ _ _ _ => ?_) (fun _ _ _ _ _ _ _ _ _ => ?_) (fun _ _ _ _ _ _ _ _ _ => ?_) (fun _ _ _ _ _ _ _ _ _ => ?_) (fun _ _ _ _ _ _ _ _ _ => ?_) (fun _ _ _ _ _ _ _ _ _ => ?_) (G := fun E F G H => ZWZW.react.bare4 c p E F G H) (fun _ _ _ => ZWZW.react.bare4_lin₀ c p (by decide) _ _ _) (fun _ _ _ => ZWZW.react.bare4_lin₁ c p (by decide) _ _ _) (fun _ _ _ => ZWZW.react.bare4_lin₂ c p (by decide) _ _ _) (fun _ _ _ => ZWZW.react.bare4_lin₃ c p (by decide) _ _ _) (-1) (fun z0 z1 z2 z3 b0 b1 b2 b3 => ?_) t0 t1 t2 t3
    · exact ZWZW.form_x0 ..
    · exact ZWZW.form_y0 ..
    · exact ZWZW.form_x1 ..
    · exact ZWZW.form_y1 ..
    · exact ZWZW.form_x2 ..
    · exact ZWZW.form_y2 ..
    · exact ZWZW.form_x3 ..
    · exact ZWZW.form_y3 ..
    · rw [neg_one_mul]; exact ZWZW.key hc hb r3 r6 r8 r9 d0 n0 d1 n1 d2 n2 b0 b1 b2 b3 (onShell_msq (hs 0)) (onShell_msq (hs 1)) (onShell_msq (hs 2)) (onShell_msq (hs 3)) hWW 
  have am : ∀ (t0 t1 t2 t3 : Fin 3), Cls.ZWZW.m_amp.mean (ZWZW.N c p) (callMean (ZWZW.N c p) []) .c [spinV t0, spinV t1, spinV t2, spinV t3] = (-1) * ZWZW.react.bare4 c p (ZWZW.react.codeVec c p 0 t0) (ZWZW.react.codeVec c p 1 t1) (ZWZW.react.codeVec c p 2 t2) (ZWZW.react.codeVec c p 3 t3) := by
    intro t0 t1 t2 t3
    rw [ZWZW.amp_eq, ← st t0 t1 t2 t3]
    refine congrArg (comb t0) (funext fun a0 => funext fun b0 => ?_)
    refine congrArg (comb t1) (funext fun a1 => funext fun b1 => ?_)
    refine congrArg (comb t2) (funext fun a2 => funext fun b2 => ?_)
    refine congrArg (comb t3) (funext fun a3 => funext fun b3 => ?_)
    have v0x0x2 : (ZWZW.N c p).v 0 [spinOf a0, spinOf a2] = sb (ZWZW.react.codePair c p 0 a0).2 (ZWZW.react.codePair c p 2 a2).2 := bra_square (p := p) (m := ZWZW.proc.massNum (ZWZW.rho c)) (ZWZW.mass_eq hc 0) (ZWZW.mass_eq hc 2) (.inl ⟨m0, rfl⟩) (.inl ⟨m2, rfl⟩)
    have v1y0y2 : (ZWZW.N c p).v 1 [spinOf b0, spinOf b2] = ab (ZWZW.react.codePair c p 0 b0).1 (ZWZW.react.codePair c p 2 b2).1 := bra_angle (p := p) (m := ZWZW.proc.massNum (ZWZW.rho c)) (ZWZW.mass_eq hc 0) (ZWZW.mass_eq hc 2) (.inl ⟨m0, rfl⟩) (.inl ⟨m2, rfl⟩)
    have v3x3x1 : (ZWZW.N c p).v 3 [spinOf a3, spinOf a1] = sb (ZWZW.react.codePair c p 3 a3).2 (ZWZW.react.codePair c p 1 a1).2 := bra_square (p := p) (m := ZWZW.proc.massNum (ZWZW.rho c)) (ZWZW.mass_eq hc 3) (ZWZW.mass_eq hc 1) (.inl ⟨m3, rfl⟩) (.inl ⟨m1, rfl⟩)
    have v2y3y1 : (ZWZW.N c p).v 2 [spinOf b3, spinOf b1] = ab (ZWZW.react.codePair c p 3 b3).1 (ZWZW.react.codePair c p 1 b1).1 := bra_angle (p := p) (m := ZWZW.proc.massNum (ZWZW.rho c)) (ZWZW.mass_eq hc 3) (ZWZW.mass_eq hc 1) (.inl ⟨m3, rfl⟩) (.inl ⟨m1, rfl⟩)
    have v10x0x3 : (ZWZW.N c p).v 10 [spinOf a0, spinOf a3] = ab (ZWZW.react.codePair c p 0 a0).1 (ZWZW.react.codePair c p 3 a3).1 := bra_angle (p := p) (m := ZWZW.proc.massNum (ZWZW.rho c)) (ZWZW.mass_eq hc 0) (ZWZW.mass_eq hc 3) (.inl ⟨m0, rfl⟩) (.inl ⟨m3, rfl⟩)
    have v5x2x1 : (ZWZW.N c p).v 5 [spinOf a2, spinOf a1] = ab (ZWZW.react.codePair c p 2 a2).1 (ZWZW.react.codePair c p 1 a1).1 := bra_angle (p := p) (m := ZWZW.proc.massNum (ZWZW.rho c)) (ZWZW.mass_eq hc 2) (ZWZW.mass_eq hc 1) (.inl ⟨m2, rfl⟩) (.inl ⟨m1, rfl⟩)
    have v11y0y3 : (ZWZW.N c p).v 11 [spinOf b0, spinOf b3] = sb (ZWZW.react.codePair c p 0 b0).2 (ZWZW.react.codePair c p 3 b3).2 := bra_square (p := p) (m := ZWZW.proc.massNum (ZWZW.rho c)) (ZWZW.mass_eq hc 0) (ZWZW.mass_eq hc 3) (.inl ⟨m0, rfl⟩) (.inl ⟨m3, rfl⟩)
    have v4y2y1 : (ZWZW.N c p).v 4 [spinOf b2, spinOf b1] = sb (ZWZW.react.codePair c p 2 b2).2 (ZWZW.react.codePair c p 1 b1).2 := bra_square (p := p) (m := ZWZW.proc.massNum (ZWZW.rho c)) (ZWZW.mass_eq hc 2) (ZWZW.mass_eq hc 1) (.inl ⟨m2, rfl⟩) (.inl ⟨m1, rfl⟩)
    have v7x2x3 : (ZWZW.N c p).v 7 [spinOf a2, spinOf a3] = ab (ZWZW.react.codePair c p 2 a2).1 (ZWZW.react.codePair c p 3 a3).1 := bra_angle (p := p) (m := ZWZW.proc.massNum (ZWZW.rho c)) (ZWZW.mass_eq hc 2) (ZWZW.mass_eq hc 3) (.inl ⟨m2, rfl⟩) (.inl ⟨m3, rfl⟩)
    have v5y2x1 : (ZWZW.N c p).v 5 [spinOf b2, spinOf a1] = ab (ZWZW.react.codePair c p 2 b2).1 (ZWZW.react.codePair c p 1 a1).1 := bra_angle (p := p) (m := ZWZW.proc.massNum (ZWZW.rho c)) (ZWZW.mass_eq hc 2) (ZWZW.mass_eq hc 1) (.inl ⟨m2, rfl⟩) (.inl ⟨m1, rfl⟩)
    have v9x0y1 : (ZWZW.N c p).v 9 [spinOf a0, spinOf b1] = sb (ZWZW.react.codePair c p 0 a0).2 (ZWZW.react.codePair c p 1 b1).2 := bra_square (p := p) (m := ZWZW.proc.massNum (ZWZW.rho c)) (ZWZW.mass_eq hc 0) (ZWZW.mass_eq hc 1) (.inl ⟨m0, rfl⟩) (.inl ⟨m1, rfl⟩)
    have v1x0y2 : (ZWZW.N c p).v 1 [spinOf a0, spinOf b2] = ab (ZWZW.react.codePair c p 0 a0).1 (ZWZW.react.codePair c p 2 b2).1 := bra_angle (p := p) (m := ZWZW.proc.massNum (ZWZW.rho c)) (ZWZW.mass_eq hc 0) (ZWZW.mass_eq hc 2) (.inl ⟨m0, rfl⟩) (.inl ⟨m2, rfl⟩)
    have v2x3x1 : (ZWZW.N c p).v 2 [spinOf a3, spinOf a1] = ab (ZWZW.react.codePair c p 3 a3).1 (ZWZW.react.codePair c p 1 a1).1 := bra_angle (p := p) (m := ZWZW.proc.massNum (ZWZW.rho c)) (ZWZW.mass_eq hc 3) (ZWZW.mass_eq hc 1) (.inl ⟨m3, rfl⟩) (.inl ⟨m1, rfl⟩)
    have v4x2y1 : (ZWZW.N c p).v 4 [spinOf a2, spinOf b1] = sb (ZWZW.react.codePair c p 2 a2).2 (ZWZW.react.codePair c p 1 b1).2 := bra_square (p := p) (m := ZWZW.proc.massNum (ZWZW.rho c)) (ZWZW.mass_eq hc 2) (ZWZW.mass_eq hc 1) (.inl ⟨m2, rfl⟩) (.inl ⟨m1, rfl⟩)
    have v8x0y1 : (ZWZW.N c p).v 8 [spinOf a0, spinOf b1] = ab (ZWZW.react.codePair c p 0 a0).1 (ZWZW.react.codePair c p 1 b1).1 := bra_angle (p := p) (m := ZWZW.proc.massNum (ZWZW.rho c)) (ZWZW.mass_eq hc 0) (ZWZW.mass_eq hc 1) (.inl ⟨m0, rfl⟩) (.inl ⟨m1, rfl⟩)
    have v4y2x1 : (ZWZW.N c p).v 4 [spinOf b2, spinOf a1] = sb (ZWZW.react.codePair c p 2 b2).2 (ZWZW.react.codePair c p 1 a1).2 := bra_square (p := p) (m := ZWZW.proc.massNum (ZWZW.rho c)) (ZWZW.mass_eq hc 2) (ZWZW.mass_eq hc 1) (.inl ⟨m2, rfl⟩) (.inl ⟨m1, rfl⟩)
    have v10y0x3 : (ZWZW.N c p).v 10 [spinOf b0, spinOf a3] = ab (ZWZW.react.codePair c p 0 b0).1 (ZWZW.react.codePair c p 3 a3).1 := bra_angle (p := p) (m := ZWZW.proc.massNum (ZWZW.rho c)) (ZWZW.mass_eq hc 0) (ZWZW.mass_eq hc 3) (.inl ⟨m0, rfl⟩) (.inl ⟨m3, rfl⟩)
    have v6x2y3 : (ZWZW.N c p).v 6 [spinOf a2, spinOf b3] = sb (ZWZW.react.codePair c p 2 a2).2 (ZWZW.react.codePair c p 3 b3).2 := bra_square (p := p) (m := ZWZW.proc.massNum (ZWZW.rho c)) (ZWZW.mass_eq hc 2) (ZWZW.mass_eq hc 3) (.inl ⟨m2, rfl⟩) (.inl ⟨m3, rfl⟩)
    have v9y0y1 : (ZWZW.N c p).v 9 [spinOf b0, spinOf b1] = sb (ZWZW.react.codePair c p 0 b0).2 (ZWZW.react.codePair c p 1 b1).2 := bra_square (p := p) (m := ZWZW.proc.massNum (ZWZW.rho c)) (ZWZW.mass_eq hc 0) (ZWZW.mass_eq hc 1) (.inl ⟨m0, rfl⟩) (.inl ⟨m1, rfl⟩)
    have v6y2y3 : (ZWZW.N c p).v 6 [spinOf b2, spinOf b3] = sb (ZWZW.react.codePair c p 2 b2).2 (ZWZW.react.codePair c p 3 b3).2 := bra_square (p := p) (m := ZWZW.proc.massNum (ZWZW.rho c)) (ZWZW.mass_eq hc 2) (ZWZW.mass_eq hc 3) (.inl ⟨m2, rfl⟩) (.inl ⟨m3, rfl⟩)
    have v7x2y3 : (ZWZW.N c p).v 7 [spinOf a2, spinOf b3] = ab (ZWZW.react.codePair c p 2 a2).1 (ZWZW.react.codePair c p 3 b3).1 := bra_angle (p := p) (m := ZWZW.proc.massNum (ZWZW.rho c)) (ZWZW.mass_eq hc 2) (ZWZW.mass_eq hc 3) (.inl ⟨m2, rfl⟩) (.inl ⟨m3, rfl⟩)
    have v2x3y1 : (ZWZW.N c p).v 2 [spinOf a3, spinOf b1] = ab (ZWZW.react.codePair c p 3 a3).1 (ZWZW.react.codePair c p 1 b1).1 := bra_angle (p := p) (m := ZWZW.proc.massNum (ZWZW.rho c)) (ZWZW.mass_eq hc 3) (ZWZW.mass_eq hc 1) (.inl ⟨m3, rfl⟩) (.inl ⟨m1, rfl⟩)
    have v0x0y2 : (ZWZW.N c p).v 0 [spinOf a0, spinOf b2] = sb (ZWZW.react.codePair c p 0 a0).2 (ZWZW.react.codePair c p 2 b2).2 := bra_square (p := p) (m := ZWZW.proc.massNum (ZWZW.rho c)) (ZWZW.mass_eq hc 0) (ZWZW.mass_eq hc 2) (.inl ⟨m0, rfl⟩) (.inl ⟨m2, rfl⟩)
    have v11y0x3 : (ZWZW.N c p).v 11 [spinOf b0, spinOf a3] = sb (ZWZW.react.codePair c p 0 b0).2 (ZWZW.react.codePair c p 3 a3).2 := bra_square (p := p) (m := ZWZW.proc.massNum (ZWZW.rho c)) (ZWZW.mass_eq hc 0) (ZWZW.mass_eq hc 3) (.inl ⟨m0, rfl⟩) (.inl ⟨m3, rfl⟩)
    have v10y0y3 : (ZWZW.N c p).v 10 [spinOf b0, spinOf b3] = ab (ZWZW.react.codePair c p 0 b0).1 (ZWZW.react.codePair c p 3 b3).1 := bra_angle (p := p) (m := ZWZW.proc.massNum (ZWZW.rho c)) (ZWZW.mass_eq hc 0) (ZWZW.mass_eq hc 3) (.inl ⟨m0, rfl⟩) (.inl ⟨m3, rfl⟩)
    have v4x2x1 : (ZWZW.N c p).v 4 [spinOf a2, spinOf a1] = sb (ZWZW.react.codePair c p 2 a2).2 (ZWZW.react.codePair c p 1 a1).2 := bra_square (p := p) (m := ZWZW.proc.massNum (ZWZW.rho c)) (ZWZW.mass_eq hc 2) (ZWZW.mass_eq hc 1) (.inl ⟨m2, rfl⟩) (.inl ⟨m1, rfl⟩)
    have v3x3y1 : (ZWZW.N c p).v 3 [spinOf a3, spinOf b1] = sb (ZWZW.react.codePair c p 3 a3).2 (ZWZW.react.codePair c p 1 b1).2 := bra_square (p := p) (m := ZWZW.proc.massNum (ZWZW.rho c)) (ZWZW.mass_eq hc 3) (ZWZW.mass_eq hc 1) (.inl ⟨m3, rfl⟩) (.inl ⟨m1, rfl⟩)
    have v11x0y3 : (ZWZW.N c p).v 11 [spinOf a0, spinOf b3] = sb (ZWZW.react.codePair c p 0 a0).2 (ZWZW.react.codePair c p 3 b3).2 := bra_square (p := p) (m := ZWZW.proc.massNum (ZWZW.rho c)) (ZWZW.mass_eq hc 0) (ZWZW.mass_eq hc 3) (.inl ⟨m0, rfl⟩) (.inl ⟨m3, rfl⟩)
    have v13y0y1 : (ZWZW.N c p).v 13 [spinOf b0, spinOf b1] = mb (ZWZW.react.codePair c p 0 b0).2 (p 3) (ZWZW.react.codePair c p 1 b1).1 := bra_mid_square (p := p) (m := ZWZW.proc.massNum (ZWZW.rho c)) (ZWZW.mass_eq hc 0) (ZWZW.mass_eq hc 1) (.inl ⟨m0, rfl⟩) (.inl ⟨m1, rfl⟩)
    have v12y1y0 : (ZWZW.N c p).v 12 [spinOf b1, spinOf b0] = mb (ZWZW.react.codePair c p 1 b1).2 (p 3) (ZWZW.react.codePair c p 0 b0).1 := bra_mid_square (p := p) (m := ZWZW.proc.massNum (ZWZW.rho c)) (ZWZW.mass_eq hc 1) (ZWZW.mass_eq hc 0) (.inl ⟨m1, rfl⟩) (.inl ⟨m0, rfl⟩)
    have v11x0x3 : (ZWZW.N c p).v 11 [spinOf a0, spinOf a3] = sb (ZWZW.react.codePair c p 0 a0).2 (ZWZW.react.codePair c p 3 a3).2 := bra_square (p := p) (m := ZWZW.proc.massNum (ZWZW.rho c)) (ZWZW.mass_eq hc 0) (ZWZW.mass_eq hc 3) (.inl ⟨m0, rfl⟩) (.inl ⟨m3, rfl⟩)
    have v8x0x1 : (ZWZW.N c p).v 8 [spinOf a0, spinOf a1] = ab (ZWZW.react.codePair c p 0 a0).1 (ZWZW.react.codePair c p 1 a1).1 := bra_angle (p := p) (m := ZWZW.proc.massNum (ZWZW.rho c)) (ZWZW.mass_eq hc 0) (ZWZW.mass_eq hc 1) (.inl ⟨m0, rfl⟩) (.inl ⟨m1, rfl⟩)
    have v0y0y2 : (ZWZW.N c p).v 0 [spinOf b0, spinOf b2] = sb (ZWZW.react.codePair c p 0 b0).2 (ZWZW.react.codePair c p 2 b2).2 := bra_square (p := p) (m := ZWZW.proc.massNum (ZWZW.rho c)) (ZWZW.mass_eq hc 0) (ZWZW.mass_eq hc 2) (.inl ⟨m0, rfl⟩) (.inl ⟨m2, rfl⟩)
    have v6x2x3 : (ZWZW.N c p).v 6 [spinOf a2, spinOf a3] = sb (ZWZW.react.codePair c p 2 a2).2 (ZWZW.react.codePair c p 3 a3).2 := bra_square (p := p) (m := ZWZW.proc.massNum (ZWZW.rho c)) (ZWZW.mass_eq hc 2) (ZWZW.mass_eq hc 3) (.inl ⟨m2, rfl⟩) (.inl ⟨m3, rfl⟩)
    have v15y0y3 : (ZWZW.N c p).v 15 [spinOf b0, spinOf b3] = mb (ZWZW.react.codePair c p 0 b0).2 (p 1) (ZWZW.react.codePair c p 3 b3).1 := bra_mid_square (p := p) (m := ZWZW.proc.massNum (ZWZW.rho c)) (ZWZW.mass_eq hc 0) (ZWZW.mass_eq hc 3) (.inl ⟨m0, rfl⟩) (.inl ⟨m3, rfl⟩)
    have v6y2x3 : (ZWZW.N c p).v 6 [spinOf b2, spinOf a3] = sb (ZWZW.react.codePair c p 2 b2).2 (ZWZW.react.codePair c p 3 a3).2 := bra_square (p := p) (m := ZWZW.proc.massNum (ZWZW.rho c)) (ZWZW.mass_eq hc 2) (ZWZW.mass_eq hc 3) (.inl ⟨m2, rfl⟩) (.inl ⟨m3, rfl⟩)
    have v14y3y0 : (ZWZW.N c p).v 14 [spinOf b3, spinOf b0] = mb (ZWZW.react.codePair c p 3 b3).2 (p 1) (ZWZW.react.codePair c p 0 b0).1 := bra_mid_square (p := p) (m := ZWZW.proc.massNum (ZWZW.rho c)) (ZWZW.mass_eq hc 3) (ZWZW.mass_eq hc 0) (.inl ⟨m3, rfl⟩) (.inl ⟨m0, rfl⟩)
    simp only [ZWZW.term, ZWZW.form, v0x0x2, v1y0y2, v3x3x1, v2y3y1, v10x0x3, v5x2x1, v11y0y3, v4y2y1, v7x2x3, v5y2x1, v9x0y1, v1x0y2, v2x3x1, v4x2y1, v8x0y1, v4y2x1, v10y0x3, v6x2y3, v9y0y1, v6y2y3, v7x2y3, v2x3y1, v0x0y2, v11y0x3, v10y0y3, v4x2x1, v3x3y1, v11x0y3, v13y0y1, v12y1y0, v11x0x3, v8x0x1, v0y0y2, v6x2x3, v15y0y3, v6y2x3, v14y3y0]
    push_cast
    ring
  show meaning (ZWZW.N c p) .r Cls.ZWZW.methods Cls.ZWZW.amp2 [] = _
  have s0 : ZWZW.react.states 0 = 3 := by decide
  have s1 : ZWZW.react.states 1 = 3 := by decide
  have sy : ZWZW.react.symmetry = 1 := by decide
  have p0 : ZWZW.react.spins 0 = Finset.univ := rfl
  have p1 : ZWZW.react.spins 1 = Finset.univ := rfl
  have p2 : ZWZW.react.spins 2 = Finset.univ := rfl
  have p3 : ZWZW.react.spins 3 = Finset.univ := rfl
  rw [ZWZW.value, ZWZW.react.squared_four he ht hB (noGluon_of hM) hs h0 (fun _ b _ hb _ => (boson_pos hc hh hb).ne') (ZWZW.react.gauge_massive (massive_of hM)) (E := ZWZW.react.codeVec c p) (fun n b hl => ZWZW.react.codeVec_polarised hs h0 hl (massive_of hM n b hl) (fun _ => (boson_pos hc hh (massive_of hM n b hl)).ne')) hu, sum_colours, s0, s1, sy]
  simp only [bareFour_eq, sumV_sum, am, norm_mul, norm_neg, norm_one, one_mul, p0, p1, p2, p3, Finset.sum_singleton, Matrix.cons_val_zero, Matrix.cons_val_one, Matrix.cons_val]
  push_cast
  first | ring1 | ring_nf

end Spinas.SM.Rows

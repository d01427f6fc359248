# Formal model of SPINAS in Lean 4

Source: `/repo` (neilthec/spinas, C++).  Properties: `properties.jsonl`.  Claims: `MANIFEST.json`.
Everything machine checked lives in `lean/Verif/`.

## 1. Trusted base

* Lean 4.33.0's kernel, and the Mathlib definitions used in statements (ℝ, ℂ, `Complex.arg`, `Real.sqrt`, trigonometry, matrices, lists, finite sums).
* Axioms: every theorem named in `MANIFEST.json` depends at most on `propext`, `Classical.choice`, `Quot.sound`.
  No own axioms, no `sorry`, no `native_decide`/`bv_decide`.
* The reading of the C++ text by the person who wrote the model.  Each model definition cites the file and lines it renders.

## 2. How the code is modelled

**Arithmetic is a parameter.** The whole library is written once, over an arbitrary scalar type `R` and an arbitrary complex type `C`
that carry operations (`+ - * /`, unary minus, `sqrt`, `abs`, `sin`, `cos`, `atan2`, `polar`, `conj`, comparisons, literals) but *no laws*.
Results about caches, histories, exceptions, staleness and control flow are proved at this level.
They therefore hold for IEEE doubles bit for bit, for long doubles, with NaN, infinities and signed zeros.

**Exact instance.** Algebraic identities (Dirac equation, completeness, Lorentz invariance, ...) are proved for one instance: `XR`,
the reals extended by one non-finite value `nan`.  Division by zero and square roots of negative numbers give `nan`, `nan` propagates
through all arithmetic, and every comparison with `nan` is false, as in C++.  A theorem about this instance says that the C++ expression,
evaluated without rounding, is *finite* and equals the stated value; totalised division or square root can never make a statement true by accident.
Complex numbers are pairs of `XR`.

*The floating-point instance* (`Ieee.lean`, used for C88, C90 and C91) has signed zeros, infinities, NaN and overflow; the rounding of results, the elementary functions and complex products and quotients are arbitrary functions.  For C90 rounding is assumed to keep representable numbers and the order, for C91 to be to nearest (ties arbitrary); for C91 cosines are not infinite and NaN times a real number that is not infinite is NaN.  Extended intermediate precision and contraction to fused operations are not modelled.

*Not modelled in the exact instance*: rounding, overflow/underflow, the distinction between NaN and ±infinity (one value `nan`; comparisons with it are false), signed zeros.
The machine epsilon is an arbitrary positive real, so both the `double` and the `long double` build are covered.
The one place where a signed zero matters, `atan2(0, ±0)` and `atan2(±0, ...)` on the z axis, is covered by letting the value of `atan2 0 0`
be an arbitrary real parameter of the environment.

**Float instance.** A third, computable instance over Lean's `Float` exists only to run the model against the reference tables
(`dataCH`) in the repository's tests, as a fidelity check of the translation.  No theorem depends on it.

**Outcomes.** A call returns `ok value` or `throw kind` together with the new state (state changes made before a throw persist, as in C++),
or `crash` when the C++ would follow an indeterminate pointer.
*Undefined behaviour* that does not stop execution (reading an indeterminate `double`, `std::polar` with a negative modulus) is recorded in a sticky ghost
flag, and indeterminate values are universally quantified.

**Particles** carry all fields of the class.  A pair (`xCalculated`, `x`) is one `Option`: `none` = not calculated.  (When the flag is false
the code never reads the stale value, so the merge loses nothing observable.)

**Heap.** `sproduct` holds pointers.  The model has a world with a particle store and a sproduct store indexed by addresses, so
sharing and aliasing (several sproducts over one particle, copies of process objects) are expressible.  Lifetimes (dangling pointers) are not modelled.

**sproduct constructors.** The 28 constructors differ only in the number of internal momenta (0..6) and in which index placements are given.
The model has one constructor taking the list of internal momenta, of any length; the C++ constructors are its instances.

**Text output** (`operator<<`, `usage`, `print_test_message`) is not modelled, except `double_to_Mathematica_string` / `to_Mathematica_string`, over an arbitrary number formatter.

**Random numbers**: `random_device`/`mt19937` are an arbitrary stream of draws; theorems quantify over the stream (and assume only the documented range).

**SM processes** (`SM/*.cpp`, 141 classes): a small typed language (`SM/Lang`) with an interpreter for the C++ used there: real and complex
members, particles, propagators, sproducts, set-up statements, amplitude methods with local variables, loops, branches and calls.
`tools/sm/translate.py` turns each class into a term, one definition per method with file and line citations (`SM/Proc/G01` to `G12`);
`tools/sm/user.py` does it for the example in `user-dir` (`SM/Proc/User`), `tools/sm/kinds.py` lists which parameter is a mass, a width or a coupling (`SM/Kinds`).
What is proved about all 141 classes rests on boolean checks of the terms (`SM/Check`), proved sound in `SM/Sound`, `SM/Object`, `SM/Calls` and evaluated by
the kernel (`decide +kernel`, `SM/Checked`); the checks themselves are not trusted.
For the Lorentz invariance of the squared amplitudes (C58) a second check assigns to every subexpression of an amplitude the way it changes with the frame:
which spin indices it carries, with which little-group representation (helicity phase or spin-1/2 matrix for each particle), or a scalar.
Spin-1 combinations, loops over spins and absolute squares are typing rules; `SM/TypingSound` to `TypingNest` prove them sound.

*Trusted for the claim that a term renders a file*: the translator.  It fixes the following.
* All real arithmetic is done at type `ldouble` (integer literals are converted).
* Operands are evaluated from left to right. C++ leaves the order open; a second interpreter (`SM/Order`) has the outcomes of all orders of the calls in an expression, and C87 proves that they agree.
* `real ± complex` converts the real operand to a complex number with zero imaginary part.
* `constexpr` locals are replaced by their literals, momentum sums filled in by a loop become sums of four-vectors.
* Statements that only print (`std::cout` in AAWW, AWAW, AWWh, AWZW, AZWW, AhWW, disabled by a constant) are left out.
* The overloads `amp2(mom1, ..., mom4)` taking momenta (eAeh, eeAA, eeeeQED, eemmQED) are not part of the table `SM.all`; they are modelled by hand in `SM/Direct.lean` (C84).

*Fidelity check*: `tools/sm/floatcheck.sh` runs the translated terms over Lean's `Float` on the reference tables (`dataCH`, ...) in the `test_*` functions of the
same files, 908 tables.  All agree within the tolerance of the C++ tests, except the four of `eeAZ`, whose `test_eeAZ` is unfinished in the source
(its amplitude is a stub).  No theorem depends on this.

## 3. Modules

| module | content |
|---|---|
| `Verif/Arith` | law-free arithmetic classes, outcomes, state monad |
| `Verif/CMatrix`, `Verif/CVector` | `source/cmatrix.cpp`, `source/cvector.cpp` |
| `Verif/Particle` | `source/particle.cpp` |
| `Verif/SProduct` | `source/sproduct.cpp` |
| `Verif/Propagator`, `Verif/Utilities`, `Verif/Process` | the remaining library files |
| `Verif/Exact/*` | exact instance and lemmas that evaluate the model in it |
| `Verif/Spec/*` | independent specifications (four-vectors, Pauli matrices, chains, histories) |
| `Verif/SM/Lang`, `SM/Proc/*` | the language of the process classes and the translated classes |
| `Verif/SM/Check`, `Sound`, `Object`, `Calls`, `Checked` | static checks on the classes, their soundness, their evaluation |
| `Verif/Exact/Ops`, `Exact/Finite`, `SM/Pure`, `SM/Den` | values of the amplitudes in the exact instance, without caches |
| `Verif/SM/Typing`, `TypingSound`, `TypingCombs`, `TypingCalls`, `TypingNest`, `Typed` | a type system for amplitudes (how a value changes with the frame), its soundness, its evaluation on all classes |
| `Verif/Exact/Covariance`, `Exact/Lorentz`, `Exact/Boosts`, `SM/TwoFrames`, `SM/Frame` | how spinors change under SL(2,C), the covering of the Lorentz group, squared amplitudes in two frames |
| `Verif/SM/Sign`, `SignSound`, `Positive` | a check that a method returns no negative number, its soundness, its evaluation |
| `Verif/Props/*` | the property theorems, with a non-vacuity example beside each |

## 4. Plan per property

| id | model | proof |
|---|---|---|
| C01, C02, C06, C51 | particle state machine, any arithmetic | invariant "every filled cache entry equals the formula on the current kinematic fields", by induction over call sequences |
| C03, C05 | particle, exact / any arithmetic | case analysis |
| C04 | particle, any arithmetic | case analysis, plus a concrete witness that the guarantee fails |
| C07–C15, C50 | particle, exact | half-angle formulas, algebra |
| C16, C17 | generators, exact | algebra |
| C18, C19 | ghost flag | for all momenta; independence of indeterminate values by the C01 invariant |
| C20 | exact | polar coordinates |
| C21–C26 | sproduct over a heap, any arithmetic | invariants over call sequences; refinement to the chain specification |
| C27–C32 | sproduct, exact | induction over the chain, 2x2 algebra |
| C33 | propagator | algebra |
| C34–C38 | utilities, exact | algebra; C35 and C37 are findings about the code |
| C39–C42 | process helpers: spin loops, spin-1 combinations | induction over the list of spins, bijection with bit vectors |
| C43, C44 | test kinematics, exact | algebra; C44 is a finding |
| C45 | random frames, exact | for all streams of draws |
| C46 | test drivers, any arithmetic; tolerances and score exact | induction over the loops, for any process that computes a function of the momenta |
| C47–C49 | matrices and vectors, exact / any arithmetic | algebra |
| C52–C55 | process objects, any arithmetic | static checks with soundness proofs; invariant over histories of calls |
| C56, C57 | strings, any formatting of numbers | induction over characters |
| C58, C59 | process objects, exact | spinors of the transformed momenta are A times the old spinors times a little-group element; type checking shows that sums over spins and absolute squares remove the latter |
| C60 | test drivers on process objects, exact | C46 and C59 |
| C61 | process objects, exact | abstract interpretation: the result is a sum of squares and of quadratic forms in the amplitudes, positive by elimination; the colour factor of the gluon classes by s + t + u = 2m² |
| C62 | process objects, exact | every collision is taken by one SL(2,C) matrix to a standard one that depends on the masses, s and t only (rest frame, then an orthonormal triad); C58 does the rest |
| C63 | process objects, exact | the amplitude language has a second meaning over the real and complex numbers (`SM/Real.lean`); a syntactic check of all 141 classes shows that every divisor is a product of literals, propagator denominators and constants of the object, hence the computed value is finite and equal to that meaning |
| C64 | process objects, exact | closed form of `gggg` derived from its source (`Props/Gluons.lean`), specification in `Spec/Parton.lean` |
| C65 | process objects, exact | specification from scratch in `Spec/Feynman.lean` (gamma matrices, propagators, colour); closed forms in `Exact/Dirac.lean`, `Exact/Fermions.lean`, `SM/FourFermion.lean`, `SM/Exchanges.lean`; one generated proof per class in `SM/Fermions/` (tools/fermions) |
| C66 | process objects, exact | degrees of expressions computed for all classes (`SM/Scaling.lean`, evaluated by the kernel), soundness over the meaning of the methods (`SM/ScalingSound.lean`) |
| C67 | process objects, exact | specification in `Spec/Bosons.lean` (all vertices of the Standard Model with bosons); independence of the basis in `Exact/Bosons.lean`; loops over the spinors of vector bosons in `SM/SpinLoops.lean`; one generated proof per class in `SM/Bosons/` (tools/bosons); classes with four bosons: both sides as polynomials in spinor products in `SM/FourBosons.lean`, equal because of Schouten identities and momentum conservation with coefficients found by tools/bosons/cert.py |
| C68 | process objects, exact | Ward identities for reactions with one fermion line in `Exact/Ward.lean`, `SM/Gauge.lean`; colour sums over gluons in `SM/GluonLine.lean`; `SM/LightLine.lean` for photons with the spinors of the code; `SM/SetMembers.lean` for members computed from denominators; one generated proof per class (tools/bosons/lemit.py) |
| C69 | process objects, exact | as C68; `SM/VevRows.lean`, `SM/Electron.lean` for the parameters |
| C70 | process objects, exact | charge conjugation and parity acting on the rules of `Spec/Bosons.lean`: `Exact/Conjugate.lean` |
| C71 | process objects, exact | the two-gluon amplitude in terms of the photon-gluon amplitude: `Exact/Jacobi.lean` (the third diagram), `Exact/Colours.lean` (colour sums), `SM/TwoGluons.lean`; generated: `SM/Bosons/GluonPairs.lean` (tools/bosons/gluons.py) |
| C72 | process objects, exact | Ward identities for four bosons in `SM/PhotonBosons.lean`; the proof for a photon of given helicity uses a polarisation vector whose reference spinor is made from a W momentum, and gauge invariance; generated: `SM/Bosons/PhotonWh.lean`, `PhotonWW.lean`, `PhotonZW.lean` (tools/bosons/photons.py) |
| C73 | process objects | `eeAZ.amp2` runs to a closed term by evaluation; witness with rational spinors and linear polarisations, `squared_basis` for all others |
| C74 | process objects, exact | `Spec/Helicity.lean` says what circular polarisation is (magnetic field = ∓i electric field); `Exact/Helicity.lean`: it is unique up to phase and gauge; `SM/Polar.lean`: the polarisation vectors of the code have it; per method generated by tools/bosons/polar.py in `SM/Bosons/Polar*.lean` |
| C75 | process objects, exact | rules for four gluons in `Spec/Bosons.lean`; colour sums with structure constants in `Exact/Adjoint.lean`; gauge invariance and helicity amplitudes in terms of the fields of the four gluons in `Exact/FourGluons.lean` (the amplitude times two poles is the same invariant for all pairs of channels); `SM/FourGluons.lean` |
| C76 | process objects, exact | formulas in `Spec/Textbook.lean`; sums over spins of squares of brackets in `SM/Compton.lean`; for each class in `SM/Bosons/Textbook*.lean` (written by `tools/bosons/textbook.py`); equality with the Feynman rules through the result of the same program |
| C77 | process objects, exact | formulas in `Spec/Exchange.lean`; sums over spins of products of two currents by the Gram matrix of six products of brackets in `SM/SpinSums.lean` and `SM/OneBoson.lean`, with colours in `SM/OneBosonRows.lean`; `SM/Proc/User.lean` is the example for users, written by `tools/sm/user.py` |
| C78 | process objects, any arithmetic; exact for the formula | `SM/Copy.lean`: an object and its copy with the particles the products of the copy point at; the rest of `set_momenta` runs on what the copy uses |
| C79 | process objects, exact | `SM/HelicityMean.lean`: a mean over spins is one over the two helicities of a photon or gluon |
| C80 | process objects, exact | `SM/Mirror.lean`: the complex conjugate of an amplitude is the amplitude for opposite helicities and the same momenta (reflection and reversal of time) |
| C81 | process objects, exact | `SM/Identical.lean`: the amplitudes of the Feynman rules with two identical particles exchanged |
| C82 | process objects, exact | `Props/Reversal.lean`: C62 for reversed momenta; detailed balance from the formulas of C76 |
| C83 | process objects, exact | `Spec/ChargedCurrent.lean` (formula), `SM/OneW.lean` (spin sums with the longitudinal part), `Props/ChargedCurrent.lean` |
| C84 | process objects, exact | `SM/Direct.lean` (the overloads), `SM/DirectLemmas.lean`, `SM/DirectQED.lean`, `SM/DirectEEAA.lean`, `SM/DirectEAeh.lean`, `SM/DirectWitness.lean`, `SM/DirectKeep.lean` (histories), `Props/Direct.lean` |
| C85 | process objects, exact | `SM/DirectStale.lean`, `Props/Stale.lean` |
| C86 | process objects, any arithmetic | `SM/Stored.lean` (stored values only grow, repeated calls), `Props/Stored.lean` |
| C87 | process objects, any arithmetic | `SM/Order.lean` (interpreter with all orders), `Props/Order.lean` |
| C88 | process objects, any arithmetic that respects signs | `SM/Plus.lean` (check and its soundness), `Props/Plus.lean`, `Props/PlusIeee.lean` |
| C89 | process objects after an exception, any arithmetic; nnZh exactly | `SM/Rejected.lean`, `SM/Mixture.lean`, `Props/Rejected.lean`, `Props/Mixture.lean` |
| C90 | particle, floating-point arithmetic with any rounding | `Ieee.lean` (the arithmetic), `Props/GateIeee.lean` |
| C91 | particle, floating-point arithmetic rounding to nearest | `Ieee.lean`, `Props/NanIeee.lean` |

## 5. Disagreements between the code and the natural property

Each is proved, usually with a concrete witness; the theorem that does hold is stated beside it.

| id | natural property | what the code does |
|---|---|---|
| C03 | only momenta on the mass shell are accepted | NaN components pass (the comparison is false); negative energies pass; momenta slightly below the shell pass and give non-finite spinors |
| C04 | a rejected `set_momentum` changes nothing | the momentum is already replaced, the caches are the old ones |
| C06 | after `set_mass` the accessors use the new mass | cached spinors are kept: the outcome depends on what was called before |
| C18 | the generators are well defined | `std::polar` is called with a negative modulus unless the particle moves along +z |
| C19 | no uninitialised memory is read | `particle(mass)` followed by `umat()`/`lmat()` reads it; so does the constructor of a sproduct with internal momenta |
| C24 | `update()` that throws leaves a usable or unusable product | mass flags are new, values are old: wrong values are returned for the new arity |
| C26 | invalid spins are rejected | only if the entry of the same sign is not cached yet |
| C35 | `rotate_momentum` rotates by theta | it rotates by arccos(cos theta): in the other direction for sin theta < 0 |
| C37 | a boost with v = 0 is the identity | 0/0 in the space components |
| C44 | impossible kinematics are reported | below `abs(m3-m4)` finite momenta that violate energy conservation are returned |
| C45 | random frames give finite momenta | not for the draws u = 0 or v = 0 |
| C48 | `==` is an equivalence | not transitive; NaN equals everything |
| C55 | `set_masses` is as good as constructing anew | ten classes miss a member (two more only reorder the factors of a coupling) |
| C57 | Mathematica strings of matrices are Mathematica input | the C++ exponent marker is left in |
| C65 | the width of the Z is used | in all classes for four fermions but `dddd` the parameter is stored and never passed to the propagator; for `nenenmnm` a width 1 gives a result above the Feynman rules |
| C69 | the electron exchanged between neutrinos and W bosons has the mass the constructor is given | it has mass 0 until `set_masses` is called (nnWW, nWWn) |
| C70 | the amplitudes of `WdWd` are those of W⁺ d → W⁺ d | they are those of W⁻ and anti-d; the squared amplitude is the same by CP |
| C73 | `eeAZ` follows the Feynman rules like all other classes | `amp` never assigns its result: the squared amplitude is 0 for all momenta |
| C76 | `amp2_Feynman` of `ggdd` and `gguu` is another way to compute `amp2` | it is the formula for quarks without mass (as its comment says) and smaller for quarks with mass |
| C84 | `amp2(mom1, ..., mom4)` is another way to compute `amp2()` | in `eAeh` two arrays of products are declared, used and never assigned: another number is returned. 36 more headers declare such an overload, which no file defines |
| C85 | `amp2()` belongs to the momenta of the last `set_momenta` | after the overload for other momenta `eemmQED::amp2()` multiplies the new spinors and divides by the old denominator: the value belongs to neither momenta. In `eeeeQED`, whose overload assigns the denominators, it belongs to the new ones. If `amp2()` was called before the overload, its products are stored and it still belongs to the momenta of `set_momenta` (C86) |
| C89 | `set_momenta` that throws changes nothing | the particles before the rejected one have their new momenta, the products and denominators are old: values returned before are returned again, others mix both momenta (a formula for nnZh) |
| C90 | momenta on the mass shell are accepted, others rejected | in floating point the tolerance 10^9 epsilon is absolute: from about 50 TeV representable momenta on the shell are rejected; when E*E and \|p\|*\|p\| (or m*m) overflow everything is accepted |
| C91 | the spinors of an accepted momentum are numbers | the sign of E-\|p\| is not looked at before the square root: with rounding to nearest, in `double` and in `long double`, there are accepted momenta exactly on the shell whose brackets are NaN |
| C78 | a copy of a process object works like the original | its spinor products go on using the particles of the original: `set_momenta` of the copy changes only the denominators |

{
 "C01": {
  "note": "any arithmetic; any prior state and call history"
 },
 "C02": {
  "note": "any arithmetic, any state"
 },
 "C03": {
  "note": "exact arithmetic; the gate lets NaN, negative energies and E slightly below |p| through, proved as separate theorems"
 },
 "C04": {
  "note": "any arithmetic; plus a witness that set_momentum gives no strong exception guarantee"
 },
 "C05": {
  "note": "any arithmetic"
 },
 "C06": {
  "note": "any arithmetic; plus a witness that the result depends on the accessor history"
 },
 "C18": {
  "note": "finding: undefined behaviour for every momentum not along +z"
 },
 "C19": {
  "note": "finding (1),(2); (3) holds for any arithmetic"
 },
 "C52": {
  "note": "any arithmetic; the 12 excluded classes are in staleMasses (C55); methods of type cdouble: spins passed on to a product must be +1 or -1 (otherwise the outcome depends on the cache, C26)"
 },
 "C53": {
  "note": "any arithmetic, all 141 classes"
 },
 "C54": {
  "note": "any arithmetic with 0 == 0"
 },
 "C55": {
  "note": "finding; the remaining two excluded classes (ddWW, uuAh) write the same coupling with differently associated factors"
 },
 "C57": {
  "note": "finding; holds for every formatting of numbers"
 },
 "C58": {
  "note": "exact arithmetic; C58_lorentz also covers momenta whose masses differ from the particle masses within the tolerance of set_momenta, provided both vanish or neither does; hypothesis: particles not constructed as massless have nonzero mass"
 },
 "C59": {
  "note": "exact arithmetic; v = 0 is excluded (C37), the angle is arbitrary (C35)"
 },
 "C60": {
  "note": "exact arithmetic; for the boost drivers the statement is about runs whose velocity loop ends"
 },
 "C61": {
  "note": "exact arithmetic; a non-finite result is possible (a denominator may vanish)"
 },
 "C62": {
  "note": "exact arithmetic; where the formula divides by zero the value is the same 'not finite' on both sides"
 },
 "C63": {
  "note": "exact arithmetic (no overflow); the members read and divided by are computed from the modelled source of each class"
 },
 "C64": {
  "note": "exact arithmetic; spinor products by C29, members by the invariant of the object"
 },
 "C65": {
  "note": "exact arithmetic. C65_z_width is the counterexample with a width of the Z (nenenmnm); the theorem therefore asks for width 0 where the class ignores the parameter"
 },
 "C66": {
  "note": "exact arithmetic. Which constructor parameter is a mass, width, coupling is read off the parameter names (SM/Kinds.lean); C66_kinds: every parameter of every class has a kind"
 },
 "C67": {
  "note": "exact arithmetic; the specification (Spec/Bosons.lean) is built from gamma matrices, vertices and propagators without the code. C67_basis: independent of the basis; C67_states: there are such bases"
 },
 "C68": {
  "note": "exact arithmetic; specification as for C67. C68_gauge: the amplitude of the rules is gauge invariant (Ward identities); C68_basis: independent of the basis and of the gauge; C68_states: there are such bases. See C69, C71, C72 for further classes; eeAZ is a stub"
 },
 "C69": {
  "note": "exact arithmetic; finding: the constructors of nnWW and nWWn ignore the mass of the electron (propagator constructed with mass 0), C55"
 },
 "C70": {
  "note": "exact arithmetic; hypothesis shared with C67, C68: momenta on shell, balanced, no exchanged particle on its pole"
 },
 "C71": {
  "note": "exact arithmetic; specification as for C67"
 },
 "C72": {
  "note": "exact arithmetic; specification as for C67. C72_gauge: Ward identities with contact vertices; with a width of the W in the propagators these fail, hence the hypothesis"
 },
 "C73": {
  "note": "negative result: witness that this class does not follow the rules (all other classes do: C61-C72, C64)"
 },
 "C74": {
  "note": "gggg: see C75; amp2_Feynman of ggdd/gguu: see C76. Photon and W: no W width, as in C68, C72."
 },
 "C75": {
  "note": ""
 },
 "C76": {
  "note": ""
 },
 "C77": {
  "note": "C77_user_object, C77_user_ops and C77_user_calls: any arithmetic. Condition of the 12 classes with gluons: electric charge 0, so that only the gluon is exchanged."
 },
 "C78": {
  "note": "C78_copy, C78_copy_before, C78_same: any arithmetic. C78_wrong: exact arithmetic."
 },
 "C79": {
  "note": "C79_mean; C79_classes: the classes this is about."
 },
 "C80": {
  "note": "C80_one, C80_two, C80_vev; C80_one_classes, C80_two_classes: the methods and classes this is about."
 },
 "C81": {
  "note": "C81_bosons, C81_fermions; C81_classes: the classes and pairs of legs this is about."
 },
 "C82": {
  "note": "C82_elastic, C82_cross, C82_pairs for all classes; C82_balance with C82_classes (these are all pairs of classes for a reaction and its reverse)."
 },
 "C83": {
  "note": "C83_textbook (the program), C83_rules (the Feynman rules give the same formula), C83_classes (the table has exactly the classes of four fermions with a W only), limits C83_massless, C83_neutrinos, C83_symmetric."
 },
 "C84": {
  "note": "C84_eemmQED, C84_eeeeQED, C84_eeAA: same number. C84_eAeh: the disagreement, for a possible reaction (headOn_possible). C84_reuse: histories with calls of the overload."
 },
 "C85": {
  "note": "C85_eemmQED, C85_eeeeQED: the values, for all momenta. C85_neither: a reaction for which the value of eemmQED differs from both."
 },
 "C86": {
  "note": "C86_particles: all classes. C86_overload: with calls of the overload in between (not eeeeQED, whose overload assigns the denominators)."
 },
 "C87": {
  "note": "C87_any_order: the number is the same. C87_left_to_right: the left-to-right order is among those considered."
 },
 "C88": {
  "note": "C88_no_minus_sign: any arithmetic with the rules; C88_exact: exact arithmetic has them; C88_ieee_rules and C88_ieee: floating-point arithmetic with any rounding (Verif/Ieee.lean)."
 },
 "C89": {
  "note": "C89_left_behind and C89_returned: any arithmetic, all classes and histories; C89_mixed: the value for nnZh in exact arithmetic."
 },
 "C90": {
  "note": "Proved in the floating-point model Verif/Ieee.lean (signed zeros, infinities, NaN, any rounding), for particle(momentum, mass) and for set_momentum in any state. The premise of all rounding modes is `Faithful`; rounding towards zero is shown to meet it."
 },
 "C91": {
  "note": "Proved in the floating-point model Verif/Ieee.lean for two families of momenta, one for double and one for long double. This is a disagreement between the code and what one expects, see DESIGN.md section 5. A rounding to nearest that meets the hypotheses is constructed."
 }
}
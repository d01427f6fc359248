{
 "claims": [
  {
   "property": "C01",
   "status": "proved",
   "theorems": [
    "Spinas.Props.C01_particle_history"
   ],
   "note": "any arithmetic; any prior state and call history"
  },
  {
   "property": "C02",
   "status": "proved",
   "theorems": [
    "Spinas.Props.C02_accessors_independent",
    "Spinas.Props.C02_accessor_program"
   ],
   "note": "any arithmetic, any state"
  },
  {
   "property": "C03",
   "status": "proved",
   "theorems": [
    "Spinas.Props.C03_mass_shell_gate",
    "Spinas.Props.C03_on_shell_accepted",
    "Spinas.Props.C03_nan_accepted",
    "Spinas.Props.C03_spinors_finite_iff"
   ],
   "note": "exact arithmetic; the gate lets NaN, negative energies and E slightly below |p| through, proved as separate theorems"
  },
  {
   "property": "C04",
   "status": "proved",
   "theorems": [
    "Spinas.Props.C04_rejected_momentum",
    "Spinas.Props.C04_no_strong_guarantee"
   ],
   "note": "any arithmetic; plus a witness that set_momentum gives no strong exception guarantee"
  },
  {
   "property": "C05",
   "status": "proved",
   "theorems": [
    "Spinas.Props.C05_guards_fresh",
    "Spinas.Props.C05_bad_spin"
   ],
   "note": "any arithmetic"
  },
  {
   "property": "C06",
   "status": "proved",
   "theorems": [
    "Spinas.Props.C06_set_mass_values",
    "Spinas.Props.C06_set_mass_stale"
   ],
   "note": "any arithmetic; plus a witness that the result depends on the accessor history"
  },
  {
   "property": "C07",
   "status": "proved",
   "theorems": [
    "Spinas.Props.C07_momentum_matrices"
   ],
   "note": ""
  },
  {
   "property": "C08",
   "status": "proved",
   "theorems": [
    "Spinas.Props.C08_determinant"
   ],
   "note": ""
  },
  {
   "property": "C09",
   "status": "proved",
   "theorems": [
    "Spinas.Props.C09_clifford"
   ],
   "note": ""
  },
  {
   "property": "C10",
   "status": "proved",
   "theorems": [
    "Spinas.Props.C10_massless"
   ],
   "note": ""
  },
  {
   "property": "C11",
   "status": "proved",
   "theorems": [
    "Spinas.Props.C11_conjugation"
   ],
   "note": ""
  },
  {
   "property": "C12",
   "status": "proved",
   "theorems": [
    "Spinas.Props.C12_self_products"
   ],
   "note": ""
  },
  {
   "property": "C13",
   "status": "proved",
   "theorems": [
    "Spinas.Props.C13_completeness"
   ],
   "note": ""
  },
  {
   "property": "C14",
   "status": "proved",
   "theorems": [
    "Spinas.Props.C14_dirac"
   ],
   "note": ""
  },
  {
   "property": "C15",
   "status": "proved",
   "theorems": [
    "Spinas.Props.C15_lowering",
    "Spinas.Props.C15_matrices"
   ],
   "note": ""
  },
  {
   "property": "C16",
   "status": "proved",
   "theorems": [
    "Spinas.Props.C16_massive",
    "Spinas.Props.C16_massless"
   ],
   "note": ""
  },
  {
   "property": "C17",
   "status": "proved",
   "theorems": [
    "Spinas.Props.C17_su2"
   ],
   "note": ""
  },
  {
   "property": "C18",
   "status": "proved",
   "theorems": [
    "Spinas.Props.C18_polar_domain"
   ],
   "note": "finding: undefined behaviour for every momentum not along +z"
  },
  {
   "property": "C19",
   "status": "proved",
   "theorems": [
    "Spinas.Props.C19_reads_indeterminate",
    "Spinas.Props.C19_value_depends",
    "Spinas.Props.C19_forgotten"
   ],
   "note": "finding (1),(2); (3) holds for any arithmetic"
  },
  {
   "property": "C20",
   "status": "proved",
   "theorems": [
    "Spinas.Props.C20_test_angles"
   ],
   "note": ""
  },
  {
   "property": "C21",
   "status": "proved",
   "theorems": [
    "Spinas.Props.C21_value"
   ],
   "note": ""
  },
  {
   "property": "C22",
   "status": "proved",
   "theorems": [
    "Spinas.Props.C22_history"
   ],
   "note": ""
  },
  {
   "property": "C23",
   "status": "proved",
   "theorems": [
    "Spinas.Props.C23_stale",
    "Spinas.Props.C23_resync"
   ],
   "note": ""
  },
  {
   "property": "C24",
   "status": "proved",
   "theorems": [
    "Spinas.Props.C24_lower_index",
    "Spinas.Props.C24_failed_update"
   ],
   "note": ""
  },
  {
   "property": "C25",
   "status": "proved",
   "theorems": [
    "Spinas.Props.C25_arity"
   ],
   "note": ""
  },
  {
   "property": "C26",
   "status": "proved",
   "theorems": [
    "Spinas.Props.C26_bad_spin_fresh",
    "Spinas.Props.C26_bad_spin_cached"
   ],
   "note": ""
  },
  {
   "property": "C27",
   "status": "proved",
   "theorems": [
    "Spinas.Props.C27_reversal"
   ],
   "note": ""
  },
  {
   "property": "C28",
   "status": "proved",
   "theorems": [
    "Spinas.Props.C28_conjugation"
   ],
   "note": ""
  },
  {
   "property": "C29",
   "status": "proved",
   "theorems": [
    "Spinas.Props.C29_modulus"
   ],
   "note": ""
  },
  {
   "property": "C30",
   "status": "proved",
   "theorems": [
    "Spinas.Props.C30_trace",
    "Spinas.Props.C30_table"
   ],
   "note": ""
  },
  {
   "property": "C31",
   "status": "proved",
   "theorems": [
    "Spinas.Props.C31_insertion",
    "Spinas.Props.C31_massless"
   ],
   "note": ""
  },
  {
   "property": "C32",
   "status": "proved",
   "theorems": [
    "Spinas.Props.C32_schouten",
    "Spinas.Props.C32_momentum_conservation"
   ],
   "note": ""
  },
  {
   "property": "C33",
   "status": "proved",
   "theorems": [
    "Spinas.Props.C33_history",
    "Spinas.Props.C33_denominator"
   ],
   "note": ""
  },
  {
   "property": "C34",
   "status": "proved",
   "theorems": [
    "Spinas.Props.C34_rotation",
    "Spinas.Props.C34_conservation"
   ],
   "note": ""
  },
  {
   "property": "C35",
   "status": "proved",
   "theorems": [
    "Spinas.Props.C35_direction",
    "Spinas.Props.C35_wrong_direction"
   ],
   "note": ""
  },
  {
   "property": "C36",
   "status": "proved",
   "theorems": [
    "Spinas.Props.C36_boost",
    "Spinas.Props.C36_conservation"
   ],
   "note": ""
  },
  {
   "property": "C37",
   "status": "proved",
   "theorems": [
    "Spinas.Props.C37_degenerate"
   ],
   "note": ""
  },
  {
   "property": "C38",
   "status": "proved",
   "theorems": [
    "Spinas.Props.C38_random"
   ],
   "note": ""
  },
  {
   "property": "C39",
   "status": "proved",
   "theorems": [
    "Spinas.Props.C39_num_loops"
   ],
   "note": ""
  },
  {
   "property": "C40",
   "status": "proved",
   "theorems": [
    "Spinas.Props.C40_normalization"
   ],
   "note": ""
  },
  {
   "property": "C41",
   "status": "proved",
   "theorems": [
    "Spinas.Props.C41_bijection"
   ],
   "note": ""
  },
  {
   "property": "C42",
   "status": "proved",
   "theorems": [
    "Spinas.Props.C42_polarisation_sum"
   ],
   "note": ""
  },
  {
   "property": "C43",
   "status": "proved",
   "theorems": [
    "Spinas.Props.C43_test_kinematics"
   ],
   "note": ""
  },
  {
   "property": "C44",
   "status": "proved",
   "theorems": [
    "Spinas.Props.C44_below_threshold"
   ],
   "note": ""
  },
  {
   "property": "C45",
   "status": "proved",
   "theorems": [
    "Spinas.Props.C45_random_rotation",
    "Spinas.Props.C45_random_boost",
    "Spinas.Props.C45_exceptional"
   ],
   "note": ""
  },
  {
   "property": "C46",
   "status": "proved",
   "theorems": [
    "Spinas.Props.C46_frames",
    "Spinas.Props.C46_angles",
    "Spinas.Props.C46_score",
    "Spinas.Props.C46_score_nan",
    "Spinas.Props.C46_count",
    "Spinas.Props.C46_frames_bound",
    "Spinas.Props.C46_point"
   ],
   "note": ""
  },
  {
   "property": "C47",
   "status": "proved",
   "theorems": [
    "Spinas.Props.C47_aliasing",
    "Spinas.Props.C47_det_guard",
    "Spinas.Props.C47_operators",
    "Spinas.Props.C47_laws"
   ],
   "note": ""
  },
  {
   "property": "C48",
   "status": "proved",
   "theorems": [
    "Spinas.Props.C48_negation",
    "Spinas.Props.C48_equality",
    "Spinas.Props.C48_not_transitive"
   ],
   "note": ""
  },
  {
   "property": "C49",
   "status": "proved",
   "theorems": [
    "Spinas.Props.C49_index_guards"
   ],
   "note": ""
  },
  {
   "property": "C50",
   "status": "proved",
   "theorems": [
    "Spinas.Props.C50_norms",
    "Spinas.Props.C50_massless_limit"
   ],
   "note": ""
  },
  {
   "property": "C51",
   "status": "proved",
   "theorems": [
    "Spinas.Props.C51_getters"
   ],
   "note": ""
  },
  {
   "property": "C52",
   "status": "proved",
   "theorems": [
    "Spinas.Props.C52_reuse"
   ],
   "note": "any arithmetic; the 12 excluded classes are in staleMasses (C55); methods of type cdouble: spins passed on to a product must be +1 or -1 (otherwise the outcome depends on the cache, C26)"
  },
  {
   "property": "C53",
   "status": "proved",
   "theorems": [
    "Spinas.Props.C53_last_masses"
   ],
   "note": "any arithmetic, all 141 classes"
  },
  {
   "property": "C54",
   "status": "proved",
   "theorems": [
    "Spinas.Props.C54_no_exception"
   ],
   "note": "any arithmetic with 0 == 0"
  },
  {
   "property": "C55",
   "status": "proved",
   "theorems": [
    "Spinas.Props.C55_massW_ignored",
    "Spinas.Props.C55_stale_Z",
    "Spinas.Props.C55_electron_mass"
   ],
   "note": "finding; the remaining two excluded classes (ddWW, uuAh) write the same coupling with differently associated factors"
  },
  {
   "property": "C56",
   "status": "proved",
   "theorems": [
    "Spinas.Props.C56_first",
    "Spinas.Props.C56_faithful"
   ],
   "note": ""
  },
  {
   "property": "C57",
   "status": "proved",
   "theorems": [
    "Spinas.Props.C57_marker_left"
   ],
   "note": "finding; holds for every formatting of numbers"
  },
  {
   "property": "C58",
   "status": "proved",
   "theorems": [
    "Spinas.Props.C58_lorentz",
    "Spinas.Props.C58_onShell"
   ],
   "note": "exact arithmetic; C58_lorentz also covers momenta whose masses differ from the particle masses within the tolerance of set_momenta, provided both vanish or neither does; hypothesis: particles not constructed as massless have nonzero mass"
  },
  {
   "property": "C59",
   "status": "proved",
   "theorems": [
    "Spinas.Props.C59_rotate",
    "Spinas.Props.C59_boost"
   ],
   "note": "exact arithmetic; v = 0 is excluded (C37), the angle is arbitrary (C35)"
  },
  {
   "property": "C60",
   "status": "proved",
   "theorems": [
    "Spinas.Props.C60_drivers"
   ],
   "note": "exact arithmetic; for the boost drivers the statement is about runs whose velocity loop ends"
  },
  {
   "property": "C61",
   "status": "proved",
   "theorems": [
    "Spinas.Props.C61_any",
    "Spinas.Props.C61_collision"
   ],
   "note": "exact arithmetic; a non-finite result is possible (a denominator may vanish)"
  },
  {
   "property": "C62",
   "status": "proved",
   "theorems": [
    "Spinas.Props.C62_mandelstam"
   ],
   "note": "exact arithmetic; where the formula divides by zero the value is the same 'not finite' on both sides"
  },
  {
   "property": "C63",
   "status": "proved",
   "theorems": [
    "Spinas.Props.C63_finite"
   ],
   "note": "exact arithmetic (no overflow); the members read and divided by are computed from the modelled source of each class"
  },
  {
   "property": "C64",
   "status": "proved",
   "theorems": [
    "Spinas.Props.C64_gluons",
    "Spinas.Props.C64_average"
   ],
   "note": "exact arithmetic; spinor products by C29, members by the invariant of the object"
  },
  {
   "property": "C65",
   "status": "proved",
   "theorems": [
    "Spinas.Props.C65_feynman",
    "Spinas.Props.C65_basis",
    "Spinas.Props.C65_spinors",
    "Spinas.Props.C65_z_width"
   ],
   "note": "exact arithmetic. C65_z_width is the counterexample with a width of the Z (nenenmnm); the theorem therefore asks for width 0 where the class ignores the parameter"
  },
  {
   "property": "C66",
   "status": "proved",
   "theorems": [
    "Spinas.Props.C66_units",
    "Spinas.Props.C66_kinds"
   ],
   "note": "exact arithmetic. Which constructor parameter is a mass, width, coupling is read off the parameter names (SM/Kinds.lean); C66_kinds: every parameter of every class has a kind"
  },
  {
   "property": "C67",
   "status": "proved",
   "theorems": [
    "Spinas.Props.C67_feynman",
    "Spinas.Props.C67_basis",
    "Spinas.Props.C67_states"
   ],
   "note": "exact arithmetic; the specification (Spec/Bosons.lean) is built from gamma matrices, vertices and propagators without the code. C67_basis: independent of the basis; C67_states: there are such bases"
  },
  {
   "property": "C68",
   "status": "proved",
   "theorems": [
    "Spinas.Props.C68_feynman",
    "Spinas.Props.C68_gauge",
    "Spinas.Props.C68_basis",
    "Spinas.Props.C68_states"
   ],
   "note": "exact arithmetic; specification as for C67. C68_gauge: the amplitude of the rules is gauge invariant (Ward identities); C68_basis: independent of the basis and of the gauge; C68_states: there are such bases. See C69, C71, C72 for further classes; eeAZ is a stub"
  },
  {
   "property": "C69",
   "status": "proved",
   "theorems": [
    "Spinas.Props.C69_vev",
    "Spinas.Props.C69_basis",
    "Spinas.Props.C69_neutrino",
    "Spinas.Props.C69_states"
   ],
   "note": "exact arithmetic; finding: the constructors of nnWW and nWWn ignore the mass of the electron (propagator constructed with mass 0), C55"
  },
  {
   "property": "C70",
   "status": "proved",
   "theorems": [
    "Spinas.Props.C70_antiparticles",
    "Spinas.Props.C70_WdWd"
   ],
   "note": "exact arithmetic; hypothesis shared with C67, C68: momenta on shell, balanced, no exchanged particle on its pole"
  },
  {
   "property": "C71",
   "status": "proved",
   "theorems": [
    "Spinas.Props.C71_feynman",
    "Spinas.Props.C71_gauge",
    "Spinas.Props.C71_basis",
    "Spinas.Props.C71_antiparticles"
   ],
   "note": "exact arithmetic; specification as for C67"
  },
  {
   "property": "C72",
   "status": "proved",
   "theorems": [
    "Spinas.Props.C72_feynman",
    "Spinas.Props.C72_gauge",
    "Spinas.Props.C72_basis",
    "Spinas.Props.C72_antiparticles"
   ],
   "note": "exact arithmetic; specification as for C67. C72_gauge: Ward identities with contact vertices; with a width of the W in the propagators these fail, hence the hypothesis"
  },
  {
   "property": "C73",
   "status": "proved",
   "theorems": [
    "Spinas.Props.C73_idle",
    "Spinas.Props.C73_zero",
    "Spinas.Props.C73_rules",
    "Spinas.Props.C73_unfinished"
   ],
   "note": "negative result: witness that this class does not follow the rules (all other classes do: C61-C72, C64)"
  },
  {
   "property": "C74",
   "status": "proved",
   "theorems": [
    "Spinas.Props.C74_names",
    "Spinas.Props.C74_complete",
    "Spinas.Props.C74_feynman",
    "Spinas.Props.C74_vev",
    "Spinas.Props.C74_states"
   ],
   "note": "gggg: see C75; amp2_Feynman of ggdd/gguu: see C76. Photon and W: no W width, as in C68, C72."
  },
  {
   "property": "C75",
   "status": "proved",
   "theorems": [
    "Spinas.Props.C75_structure",
    "Spinas.Props.C75_feynman",
    "Spinas.Props.C75_names",
    "Spinas.Props.C75_polarised",
    "Spinas.Props.C75_textbook",
    "Spinas.Props.C75_complete"
   ],
   "note": ""
  },
  {
   "property": "C76",
   "status": "proved",
   "theorems": [
    "Spinas.Props.C76_textbook",
    "Spinas.Props.C76_rules",
    "Spinas.Props.C76_crossing",
    "Spinas.Props.C76_massless",
    "Spinas.Props.C76_names",
    "Spinas.Props.C76_below"
   ],
   "note": ""
  },
  {
   "property": "C77",
   "status": "proved",
   "theorems": [
    "Spinas.Props.C77_user_object",
    "Spinas.Props.C77_user_ops",
    "Spinas.Props.C77_user_calls",
    "Spinas.Props.C77_textbook",
    "Spinas.Props.C77_rules",
    "Spinas.Props.C77_user",
    "Spinas.Props.C77_massless"
   ],
   "note": "C77_user_object, C77_user_ops and C77_user_calls: any arithmetic. Condition of the 12 classes with gluons: electric charge 0, so that only the gluon is exchanged."
  },
  {
   "property": "C78",
   "status": "proved",
   "theorems": [
    "Spinas.Props.C78_copy",
    "Spinas.Props.C78_copy_before",
    "Spinas.Props.C78_same",
    "Spinas.Props.C78_wrong"
   ],
   "note": "C78_copy, C78_copy_before, C78_same: any arithmetic. C78_wrong: exact arithmetic."
  },
  {
   "property": "C79",
   "status": "proved",
   "theorems": [
    "Spinas.Props.C79_classes",
    "Spinas.Props.C79_mean"
   ],
   "note": "C79_mean; C79_classes: the classes this is about."
  },
  {
   "property": "C80",
   "status": "proved",
   "theorems": [
    "Spinas.Props.C80_one_classes",
    "Spinas.Props.C80_two_classes",
    "Spinas.Props.C80_one",
    "Spinas.Props.C80_two",
    "Spinas.Props.C80_vev"
   ],
   "note": "C80_one, C80_two, C80_vev; C80_one_classes, C80_two_classes: the methods and classes this is about."
  },
  {
   "property": "C81",
   "status": "proved",
   "theorems": [
    "Spinas.Props.C81_classes",
    "Spinas.Props.C81_bosons",
    "Spinas.Props.C81_fermions"
   ],
   "note": "C81_bosons, C81_fermions; C81_classes: the classes and pairs of legs this is about."
  },
  {
   "property": "C82",
   "status": "proved",
   "theorems": [
    "Spinas.Props.C82_elastic",
    "Spinas.Props.C82_cross",
    "Spinas.Props.C82_pairs",
    "Spinas.Props.C82_classes",
    "Spinas.Props.C82_balance"
   ],
   "note": "C82_elastic, C82_cross, C82_pairs for all classes; C82_balance with C82_classes (these are all pairs of classes for a reaction and its reverse)."
  },
  {
   "property": "C83",
   "status": "proved",
   "theorems": [
    "Spinas.Props.C83_classes",
    "Spinas.Props.C83_textbook",
    "Spinas.Props.C83_rules",
    "Spinas.Props.C83_massless",
    "Spinas.Props.C83_neutrinos",
    "Spinas.Props.C83_symmetric"
   ],
   "note": "C83_textbook (the program), C83_rules (the Feynman rules give the same formula), C83_classes (the table has exactly the classes of four fermions with a W only), limits C83_massless, C83_neutrinos, C83_symmetric."
  },
  {
   "property": "C84",
   "status": "proved",
   "theorems": [
    "Spinas.Props.C84_reuse",
    "Spinas.Props.C84_eemmQED",
    "Spinas.Props.C84_eeeeQED",
    "Spinas.Props.C84_eeAA",
    "Spinas.Props.C84_eAeh"
   ],
   "note": "C84_eemmQED, C84_eeeeQED, C84_eeAA: same number. C84_eAeh: the disagreement, for a possible reaction (headOn_possible). C84_reuse: histories with calls of the overload."
  },
  {
   "property": "C85",
   "status": "proved",
   "theorems": [
    "Spinas.Props.C85_eemmQED",
    "Spinas.Props.C85_eeeeQED",
    "Spinas.Props.C85_neither"
   ],
   "note": "C85_eemmQED, C85_eeeeQED: the values, for all momenta. C85_neither: a reaction for which the value of eemmQED differs from both."
  },
  {
   "property": "C86",
   "status": "proved",
   "theorems": [
    "Spinas.Props.C86_particles",
    "Spinas.Props.C86_overload"
   ],
   "note": "C86_particles: all classes. C86_overload: with calls of the overload in between (not eeeeQED, whose overload assigns the denominators)."
  },
  {
   "property": "C87",
   "status": "proved",
   "theorems": [
    "Spinas.Props.C87_any_order",
    "Spinas.Props.C87_left_to_right"
   ],
   "note": "C87_any_order: the number is the same. C87_left_to_right: the left-to-right order is among those considered."
  },
  {
   "property": "C88",
   "status": "proved",
   "theorems": [
    "Spinas.Props.C88_classes",
    "Spinas.Props.C88_no_minus_sign",
    "Spinas.Props.C88_exact",
    "Spinas.Props.C88_ieee_rules",
    "Spinas.Props.C88_ieee"
   ],
   "note": "C88_no_minus_sign: any arithmetic with the rules; C88_exact: exact arithmetic has them; C88_ieee_rules and C88_ieee: floating-point arithmetic with any rounding (Verif/Ieee.lean)."
  },
  {
   "property": "C89",
   "status": "proved",
   "theorems": [
    "Spinas.Props.C89_mixed",
    "Spinas.Props.C89_amp2",
    "Spinas.Props.C89_left_behind",
    "Spinas.Props.C89_returned"
   ],
   "note": "C89_left_behind and C89_returned: any arithmetic, all classes and histories; C89_mixed: the value for nnZh in exact arithmetic."
  },
  {
   "property": "C90",
   "status": "proved",
   "theorems": [
    "Spinas.Props.C90_overflow",
    "Spinas.Props.C90_overflow_accepted",
    "Spinas.Props.C90_on_shell_rejected",
    "Spinas.Props.C90_on_shell_accepted"
   ],
   "note": "Proved in the floating-point model Verif/Ieee.lean (signed zeros, infinities, NaN, any rounding), for particle(momentum, mass) and for set_momentum in any state. The premise of all rounding modes is `Faithful`; rounding towards zero is shown to meet it."
  },
  {
   "property": "C91",
   "status": "proved",
   "theorems": [
    "Spinas.Props.C91_double",
    "Spinas.Props.C91_long_double"
   ],
   "note": "Proved in the floating-point model Verif/Ieee.lean for two families of momenta, one for double and one for long double. This is a disagreement between the code and what one expects, see DESIGN.md section 5. A rounding to nearest that meets the hypotheses is constructed."
  }
 ]
}
import json
P=[]
def p(title,statement,quant,why,anchors):
    P.append(dict(id="C%02d"%(len(P)+1),title=title,statement=statement,quantifier=quant,why_tests_cant=why,anchors=anchors))
PA="source/particle.cpp"; SP="source/sproduct.cpp"; PR="source/process.cpp"; UT="source/utilities.cpp"; CM="source/cmatrix.cpp"; CV="source/cvector.cpp"
p("Particle caches never change a result",
 "After any history of constructor, set_mass, set_momentum, explicit update and accessor calls whose last momentum-changing call succeeded and after which the mass was not changed, every accessor (umat, lmat, the massless and massive spinors, the spinor matrices, the generators) returns exactly the value, or throws exactly the exception, that the same accessor returns on a freshly constructed particle with the same momentum and mass.",
 "all finite sequences of public calls on a particle, all masses and momenta, any arithmetic (including IEEE rounding)",
 "There are 22 independent lazily filled caches and unboundedly many call orders; a test exercises one order.",
 [PA+": particle::update, umat, lmat, rangle, langle, lsquare, rsquare","include/particle.h"])
p("Accessor calls do not influence one another",
 "Between two state-changing calls, inserting extra accessor calls (even ones that throw) does not change the value or exception of any later accessor call (set_mass is the exception across which this fails, see C06).",
 "all particles states reachable by the API, all pairs and sequences of accessor calls, any arithmetic",
 "Order dependence of memoised values can hide in any of the factorially many interleavings.",
 [PA+": umat, lmat, rangle, langle, lsquare, rsquare"])
p("Mass-shell gate",
 "particle(momentum, mass) and set_momentum succeed exactly when |E^2-|p|^2-m^2| does not exceed the documented tolerance, and throw otherwise; in particular every exactly on-shell momentum is accepted, and a momentum whose violation exceeds the tolerance is rejected.",
 "all real momenta and masses, all machine epsilons",
 "The boundary is a hypersurface in a five dimensional continuum.",
 [PA+":67-73"])
p("What a rejected momentum leaves behind",
 "When set_momentum throws, the mass is unchanged, get_momentum already reports the rejected momentum, and all cached spinors and matrices keep the values of the previous momentum; the object is therefore not rolled back (no strong exception guarantee).",
 "all particle states and all rejected momenta, any arithmetic",
 "Exception paths with prior cache contents are a product of histories; no test calls a particle after a failed set_momentum.",
 [PA+":51-54, 67-102"])
p("Misuse guards of the spinor accessors",
 "On a particle just constructed from a momentum, the helicity accessors throw iff the mass is nonzero, the spin accessors throw iff the mass is zero or the spin argument is not +1 or -1; a spin argument other than +1 and -1 throws in every state.",
 "all accessors, all integer spin arguments, all masses, every reachable state for the last clause",
 "Integer arguments and states are unbounded.",
 [PA+":153-415"])
p("set_mass does not invalidate anything",
 "After set_mass the accessors keep returning cached values computed for the old mass, so the misuse guards and values depend on which accessors were called before; the dependence is limited to cached entries: whenever both the used and the fresh particle return a value for an accessor, the values agree.",
 "all histories with set_mass calls, any arithmetic",
 "Needs a comparison of all histories with set_mass in any position.",
 [PA+":48-50, 153-415"])
p("Momentum matrices have the documented entries",
 "For every accepted finite momentum umat() and lmat() equal the matrices cmatrix(momentum, UPPER) and cmatrix(momentum, LOWER), entry by entry.",
 "all real momenta and masses accepted by the constructor, including momenta along the axes and the zero momentum",
 "umat is computed through angles (atan2, polar) while cmatrix is computed from components; equality holds on a continuum with special cases on the axes.",
 [PA+":134-150", CM+":38-52"])
p("Determinant is the invariant mass squared",
 "det of umat() and of lmat() is E^2-|p|^2 and get_det does not throw; umat*lmat and lmat*umat are (E^2-|p|^2) times the identity.",
 "all accepted real momenta",
 "Continuum of momenta.",
 [CM+":68-77", PA+":134-150"])
p("Clifford relation",
 "umat1*lmat2 + umat2*lmat1 = 2 p1.p2 times the identity, and the same with the roles of umat and lmat exchanged.",
 "all pairs of accepted momenta, any masses",
 "Random samples only touch finitely many pairs; tolerance hides structural errors.",
 [PA+":125-150","tests/particle.cpp"])
p("Massless spinors solve the Weyl equations",
 "For a massless particle: p|1>=0, [1|p=0, p|1]=0, <1|p=0, <11>=[11]=0, |1>[1| = lmat, |1]<1| = umat, |1> = [1|^*, <1| = |1]^*.",
 "all massless momenta (positive energy), including along +z, -z and zero",
 "Poles of the spherical angles are measure zero and not hit by random tests.",
 [PA+":153-196","tests/particle.cpp"])
p("Massive spinors: conjugation relations",
 "|1>^I = ([1|_I)^*, <1|^I = (|1]_I)^*, |1>_I = -([1|^I)^*, <1|_I = -(|1]^I)^* for both spins.",
 "all accepted momenta of massive particles",
 "Continuum of momenta, 16 component formulas typed in by hand.",
 [PA+":201-415","tests/particle.cpp"])
p("Massive spinors: self products",
 "The products <11> and [11] with all four index placements equal -m eps^{IJ}, -m delta, m delta, m eps_{IJ} and their square-bracket counterparts as tabulated in tests/particle.cpp.",
 "all accepted on-shell momenta with E >= |p| of particles with m > 0, all spin pairs and index placements",
 "32 sign conventions over a continuum.",
 [PA+":201-415","tests/particle.cpp"])
p("Massive spinors: completeness",
 "Summed over the spin index, |1>^I[1|_I = lmat, |1>_I[1|^I = -lmat, |1]_I<1|^I = umat and |1]^I<1|_I = -umat.",
 "all accepted momenta with E >= |p|, m != 0",
 "Continuum of momenta.",
 [PA+":201-415",CV+":104-107","tests/particle.cpp"])
p("Massive spinors solve the Dirac equation",
 "umat|1>^I = -m|1]^I, lmat|1]^I = -m|1>^I, <1|^I lmat = m[1|^I, [1|^I umat = m<1|^I, and the same with lower spin indices.",
 "all accepted on-shell momenta with E >= |p|, m > 0, both spins, upper and lower indices",
 "16 vector equations over a continuum.",
 [PA+":134-150, 201-415","tests/particle.cpp"])
p("Index lowering is epsilon contraction",
 "Spinors with a lower spin index are the epsilon contraction of those with an upper index, with one fixed sign convention for each of the four spinor kinds.",
 "all accepted momenta with m != 0, any arithmetic in which -(-x)=x",
 "Eight sign choices hard coded separately.",
 [PA+":227-253, 281-307, 335-361, 389-415"])
p("Lorentz generators act as spin generators",
 "For J in {J3, J+, J-}: lorentz J acting on the two-spin spinor matrix from the left equals the spin J acting from the right, for <1|,|1>,[1|,|1], upper and lower; for massless particles J3 has eigenvalue -1/2 or +1/2 and J+- annihilate as tabulated in the tests.",
 "all accepted momenta with E > |p| (massive) or E=|p| (massless), all directions",
 "24 matrix equations over a continuum of directions; the code calls polar with a negative modulus, which tests on one library cannot judge.",
 [PA+":478-623","tests/particle.cpp"])
p("Generators form the su(2) algebra",
 "The commutators satisfy [J+,J-]=2 J3 and [J3,J+-]=+-J+- for the Lorentz generators of a massive particle, and the corresponding relations for the spin generators.",
 "all accepted momenta with E > |p|",
 "Not tested at all; continuum of momenta.",
 [PA+":478-623"])
p("Generators call polar outside its domain",
 "lorentz_jp_lu and the other ladder generators evaluate std::polar with modulus cos(theta)-1, which is negative unless the momentum points along +z; by the C++ standard this is undefined behaviour for every particle not moving along +z.",
 "all accepted momenta",
 "Undefined behaviour that happens to work on the tested library cannot be observed by running.",
 [PA+":485-580"])
p("Reading indeterminate values after particle(mass)",
 "particle(mass) leaves the magnitude and angle fields uninitialised; umat/lmat (and hence the constructor of any sproduct with internal momenta, as done by the SM processes) read them before any set_momentum. After the first successful set_momentum no result depends on those indeterminate values.",
 "all masses, all indeterminate contents, all later histories",
 "A test sees one particular garbage value; independence must hold for all.",
 [PA+":35-39, 134-150", SP+":251-282"])
p("test_angles accepts every valid particle",
 "test_angles() returns true for every accepted momentum with E >= |p|.",
 "all accepted real momenta with E>=|p|",
 "Continuum with polar coordinate singularities.",
 [PA+":105-121"])
p("Spinor product evaluates the documented chain",
 "After update(), v(), v(j), v(jL,jR) return <L|p0 p1 ... |R> (or the bracket kind given by the number of internal momenta) with lmat/umat alternating, starting with lmat after an angle bracket and umat after a square bracket.",
 "all numbers of internal momenta, all mass patterns, all index placements, any arithmetic",
 "The test fixes a handful of chains; the alternation and parity logic must hold for each length.",
 [SP+":251-420"])
p("Spinor product caches never change a result",
 "After update(), for any interleaving of v calls with valid arguments on any sproducts sharing the particles, each v returns the same value as a freshly constructed sproduct over fresh particles.",
 "all interleavings of v calls, any arithmetic",
 "Four cached entries per product times the particle caches; orders are unbounded.",
 [SP+":287-420"])
p("Spinor products are stale until update",
 "After the momentum of a participating particle changes and before update() is called, an already evaluated entry keeps its old value; calling update() always resynchronises all entries.",
 "all histories, any arithmetic",
 "Temporal property over histories.",
 [SP+":250-282","include/sproduct.h"])
p("Lower index on a massless end is rejected",
 "Constructing or updating a sproduct throws iff an end with a lower index belongs to a massless particle; when update throws, previously cached values are still returned for the arity matching the new mass flags.",
 "all particles, index placements and histories",
 "Exception path combined with prior cache contents.",
 [SP+":251-264"])
p("Arity guard of v",
 "v() succeeds only if both ends are massless, v(j) only if exactly one end is massive, v(jL,jR) only if both are massive; otherwise it throws and changes nothing.",
 "all states, all integer arguments",
 "Arguments and states unbounded.",
 [SP+":287-420"])
p("Invalid spin arguments of v are history dependent",
 "For a spin other than +1 and -1, v(j) throws on a fresh product but returns the cached value of the spin of the same sign once that has been evaluated; for spins +1 and -1 there is no such dependence.",
 "all integers, all cache states",
 "Requires particular call order and argument that no test uses.",
 [SP+":318-420"])
p("Spinor products are antisymmetric / reversal identity",
 "<ij> = -<ji> and [ij] = -[ji]; for longer chains reversing the order of the whole chain multiplies the value by (-1)^(N+1) for N internal momenta.",
 "all lists of internal momenta (any length), all particles and spins",
 "Induction over chain length.",
 [SP+":251-420"])
p("Complex conjugation exchanges brackets",
 "For massless particles <ij>^* = [ji]; for massive ones conj of a product equals the product with the other brackets and lowered indices, with the sign fixed by the index placement.",
 "all particles with E >= |p|, all index placements, all chain lengths",
 "Continuum and induction over chain length.",
 [SP+":251-420", PA+":153-415"])
p("Modulus of massless products",
 "|<ij>|^2 = |[ij]|^2 = 2 pi.pj and <ij>[ji] = 2 pi.pj.",
 "all pairs of massless momenta",
 "Continuum including collinear momenta.",
 [SP,"tests/sproduct.cpp"])
p("Spin sums of products",
 "Summed over spins: [12][12]^* = 2p1.p2, <12><12>^* = 2p1.p2, [12]<12>^* = -2 m1 m2, [132>... as tabulated in tests/sproduct.cpp (0 to 2 internal momenta on each factor).",
 "all on-shell particles with E >= |p|, masses positive",
 "The tests compare a few random points with tolerance.",
 [SP,"tests/sproduct.cpp"])
p("Summing over a repeated particle inserts its momentum",
 "Summing <1|..|2_I>[2^I|..|3> over I inserts the momentum of particle 2 in the chain, with the sign determined by the index placement.",
 "all particles, all chains",
 "Continuum; sign table.",
 [SP,"tests/sproduct.cpp"])
p("Schouten identity and momentum conservation",
 "<ij><kl> + <ik><lj> + <il><jk> = 0 for any spinors; if the momenta of k=1..n sum to zero (with signs for incoming/outgoing) then the corresponding signed sum of <i|k|j] vanishes.",
 "all particles and spins, all numbers of particles",
 "Continuum; used silently to simplify amplitudes.",
 [SP])
p("Propagator denominator",
 "denominator(p) = p.p - m^2 - i m w; it is zero iff p.p=m^2 and m w = 0, has modulus at least |m w|, does not depend on earlier calls except the last set_mass/set_width, and depends on p only through p.p.",
 "all momenta, masses, widths, call histories",
 "Continuum.",
 ["source/propagator.cpp:30-47"])
p("Rotations preserve scalar products",
 "rotate_momentum with a unit axis keeps the energy and all Minkowski products of simultaneously rotated momenta, keeps momentum conservation, and fixes momenta along the axis.",
 "all momenta, unit axes and angles",
 "Continuum.",
 [UT+":57-70"])
p("rotate_momentum rotates by theta only for theta in [0,pi] mod 2pi",
 "rotate_momentum is the right-handed rotation by arccos(cos theta): equal to the rotation by theta when sin theta >= 0 and to the rotation by -theta when sin theta < 0.",
 "all momenta, unit axes and angles",
 "Dot-product based tests cannot see the direction of rotation.",
 [UT+":57-70"])
p("Boosts preserve scalar products",
 "For 0<|v|<1 boost_momentum preserves all Minkowski products and momentum conservation, is inverted by the boost with -v, maps (1,v)-proportional momenta to rest, and keeps positive energies positive.",
 "all momenta and velocities with 0<|v|<1",
 "Continuum.",
 [UT+":72-86"])
p("Degenerate boosts give no finite momentum",
 "boost_momentum with v=0 or |v|>=1 does not produce finite momentum components (division 0/0, square root of a negative number, or division by zero).",
 "all momenta, velocities with |v|=0 or |v|>=1",
 "The random tests never draw these velocities.",
 [UT+":72-86"])
p("Random momenta are on shell",
 "Whatever the random draws, choose_random_momentum returns a momentum/mass pair and choose_random_massless_momentum a momentum that the particle constructor accepts, with E >= |p|.",
 "all random outcomes, all ranges",
 "All outcomes of the generator.",
 [UT+":106-125"])
p("Number of spin loops",
 "get_num_spin_loops returns 2^k for k zero entries, for every overload; with 31 or more zero entries the int computation overflows.",
 "all lists of spins, all lengths",
 "Unbounded lists.",
 [PR+":49-78"])
p("Spin normalisation",
 "get_spin_normalization squared times get_num_spin_loops is 1.",
 "all lists of spins",
 "Unbounded lists.",
 [PR+":80-110"])
p("Spinor spins enumerate every decomposition exactly once",
 "For iterator = 0..loops-1 get_spinor_spins yields pairs (a,b) in {+1,-1} with a+b equal to the spin for spins -2,0,+2, independent of the previous contents of the output variables, and enumerates all such decompositions exactly once.",
 "all lists of spins of length below 32, all iterators",
 "Combinatorial; needs bijection for all lengths.",
 [PR+":112-183"])
p("Massive spin-1 polarisation sums",
 "Symmetrising two spinors of a massive particle with get_spinor_spins and get_spin_normalization yields, summed over the three polarisations -2,0,2, the projection of the full double spin sum on its symmetric part.",
 "all bilinear functions of two spinor indices",
 "Holds for every amplitude, not for one.",
 [PR+":80-183"])
p("Test kinematics conserve momentum and are on shell",
 "Above threshold set_test_initializations and set_test_momenta produce four on-shell momenta with p1+p2=p3+p4, accepted by the particle constructor.",
 "all nonnegative masses, all Pin with sqrt(s) >= m3+m4, sqrt(s)>0, all |cos|<=1",
 "Continuum.",
 [PR+":333-365"])
p("Test kinematics below threshold",
 "Below threshold (sqrt s < m3+m4) no energy-conserving momenta exist: between |m3-m4| and m3+m4 the outgoing momentum is not finite, but below |m3-m4| finite momenta that violate energy conservation are returned without any error.",
 "all masses and Pin below threshold",
 "Test authors only use kinematics above threshold.",
 [PR+":333-365"])
p("Random frames are Lorentz frames",
 "rotate_random_test_momenta and boost_random_test_momenta, whenever they return, preserve all Minkowski products of the four momenta and momentum conservation, except for the exceptional draws u=0 or v=0 which give non-finite momenta.",
 "all random outcomes, all momenta",
 "All outcomes of the generator.",
 [PR+":367-390"])
p("Test result counts the failing points",
 "test_2to2_amp2 returns the number of the 20 angles whose amplitude is non-finite or differs from the data by more than the absolute and relative tolerances; it returns 0 iff every angle passes and it never exceeds 20. The variants in random frames count the failures among ten evaluations per angle: each after one more rotation of the previous momenta (rotations), or after a new boost, or rotation, boost and rotation, of the lab momenta (boosts). score_2to2_amp2 returns the sum of the relative deviations of the deviating angles.",
 "all amplitude functions, all data tables, all random outcomes",
 "A test driver is what tests rely on; it is not itself tested.",
 [PR+":214-331"])
p("Matrix and vector algebra",
 "cmatrix and cvector operators are the usual 2x2 matrix algebra: associative product, distributive, product is not changed by aliasing of operands, v*M and M*v associate with products, det is multiplicative, outer products satisfy outer(a,b)*c = a (b.c).",
 "all finite matrices and vectors",
 "Continuum.",
 [CM+":68-182",CV+":45-107"])
p("Tolerant equality",
 "operator== on matrices and vectors is reflexive on finite values and symmetric, != is its negation, but == is not transitive; a pair of entries whose distance is NaN is never reported as different.",
 "all matrices and vectors",
 "Universally quantified laws and existence of counterexamples.",
 [CM+":186-195",CV+":112-121"])
p("Index guards",
 "cmatrix::get and cvector::get return the entry for indices 0,1 and throw out_of_range for every other integer.",
 "all integers, all values, any arithmetic",
 "All integers.",
 [CM+":59-63",CV+":45-49"])
p("Massive spinors at threshold of masslessness",
 "For a massive particle the spin -1 |1> and the spin +1 [1| are given by the same formulas as the helicity spinors, while the opposite spin components have squared norm E-|p|, which vanishes when the mass does.",
 "all accepted momenta",
 "Limit statement.",
 [PA+":153-415"])
p("Mass and momentum getters",
 "get_mass and get_momentum(0..3) report the mass and the momentum components most recently passed to a constructor, set_mass or set_momentum, in that order and whether or not the call that passed them threw; get_momentum with any other index reads outside the array.",
 "all call histories, all integers, any arithmetic",
 "Unbounded histories.",
 [PA+":59-64"])
p("A used process object is as good as a new one",
 "For 129 of the 141 process classes: after any sequence of set_masses, set_momenta and amplitude calls, including calls that threw, set_momenta succeeds or throws on the used object exactly as on a new object constructed with the current masses (it throws iff one of the four momenta is not accepted by particle(momentum, mass)), and after success amp2, the polarised squares and amp give the same outcome as on the new object, whatever amplitude calls come in between and whatever uninitialised memory contains.",
 "all histories, all parameters and momenta, any arithmetic",
 "Unbounded histories; tests construct one object per configuration.",
 ["SM/*.cpp"])
p("Only the last set_masses counts",
 "In all 141 process classes an object after any history behaves (in the sense of the previous property) like a new object with the same constructor parameters on which only the last set_masses call was made.",
 "all histories, all parameters and momenta, any arithmetic",
 "Unbounded histories.",
 ["SM/*.cpp"])
p("Amplitude calls do not throw after set_momenta",
 "In all 141 process classes, once set_momenta has returned, amp2 and the polarised squares return a value (no wrong-arity exception from a spinor product, no missing return, no undefined behaviour) provided the particles that the class does not construct as massless have nonzero mass; the same for amp with spins +-1 wherever a spin is passed directly to a spinor product, except in gggg.",
 "all histories, all parameters and momenta, all spin arguments",
 "Tests exercise a few parameter points per class; the claim is for all.",
 ["SM/*.cpp","source/sproduct.cpp"])
p("Incomplete set_masses",
 "Six classes (dAdh, dgdh, hgdd, hguu, uAuh, uguh) ignore the massW argument of set_masses: the object behaves as one constructed with the old massW. ZWWh and ZhWW never update the mass of the Z propagator. nnWW and nWWn use a massless electron propagator until set_masses is called.",
 "all histories, all parameters",
 "The shipped tests of these classes change other masses only, or start from a negligible electron mass.",
 ["SM/dAdh.cpp:54-62","SM/dgdh.cpp:54-62","SM/hgdd.cpp:54-62","SM/hguu.cpp:54-62","SM/uAuh.cpp:54-62","SM/uguh.cpp:54-62","SM/ZWWh.cpp:67-80","SM/ZhWW.cpp:67-80","SM/nnWW.cpp:32-67","SM/nWWn.cpp:32-67"])
p("Mathematica strings of numbers",
 "double_to_Mathematica_string returns the printed number with the first exponent marker e replaced by ' 10^' and nothing else changed; for numbers printed in the default notation no e remains and different printed numbers give different strings.",
 "all numbers, any text the stream may print",
 "Tests check a handful of numbers.",
 ["source/utilities.cpp:38-52"])
p("Mathematica strings of matrices and vectors keep the C++ exponent",
 "cmatrix::to_Mathematica_string and cvector::to_Mathematica_string do not apply that replacement: whenever a component is printed with an exponent marker e, the string contains it (Mathematica reads 1e-05 as 1*e-5), and for matrices the string is the same as to_string.",
 "all matrices and vectors, any text the stream may print",
 "Finding; the shipped tests do not look at these strings.",
 ["source/cmatrix.cpp:218-225","source/cvector.cpp:144-151"])
p("Squared amplitudes are Lorentz invariant",
 "In exact arithmetic, for every one of the 141 process classes and each of its squared amplitudes (amp2 and the polarised amp2_...): if all four momenta are subjected to one proper orthochronous Lorentz transformation, set_momenta accepts on-shell momenta in both frames, and the squared amplitude has the same value (or is non-finite in both frames). The two evaluations may be on one object or on two, constructed with the same arguments and the same last set_masses, with arbitrary other calls in between.",
 "all on-shell momenta (conserved or not), all masses and couplings, all Lorentz transformations, all call histories",
 "Tests sample a few random rotations and boosts of a few configurations; the claim is for the continuum.",
 ["SM/*.cpp","source/sproduct.cpp","source/particle.cpp:153-415"])
p("Squared amplitudes do not see rotate_momentum and boost_momentum",
 "In exact arithmetic, applying rotate_momentum with one unit axis and one angle, or boost_momentum with one velocity 0<|v|<1, to all four momenta changes no squared amplitude of any process class.",
 "all on-shell momenta, all unit axes and angles, all velocities, all 141 classes",
 "Continuum.",
 ["SM/*.cpp",UT+":57-95"])
p("Verdict of the test drivers on the process classes",
 "In exact arithmetic and above threshold, test_2to2_amp2 on any object of the 141 classes returns the number of angles whose squared amplitude fails the comparison with the data; test_2to2_amp2_rotations returns exactly ten times that number, and the boost drivers ten times the number at their looser tolerance, whatever the random draws (as long as no zero axis or velocity is drawn) and whatever was called on the object before.",
 "all classes, parameters, data, incoming momenta, random draws, histories",
 "It says what a passing or failing random test run can mean.",
 [PR+":214-331","SM/*.cpp"])
p("Squared amplitudes are not negative",
 "In exact arithmetic no squared amplitude (amp2 or a polarised amp2_...) of any process class returns a negative number. In 137 of the 141 classes this holds in any state of the object whatsoever; in dggd, ggdd, gguu, gugu (whose colour factor is a difference) for on-shell momenta that conserve energy and momentum.",
 "all classes, squared amplitudes, object states / momenta, parameters, histories",
 "Cancellation in interference terms can be negative in some corner of phase space that no test visits.",
 ["SM/*.cpp"])
p("Squared amplitudes are functions of s and t",
 "Two collisions whose momenta are on shell, conserve energy and momentum and have the same s = (p1+p2)^2 > 0 and the same t = (p1-p3)^2 give the same value of every squared amplitude, in exact arithmetic, for objects with the same parameters; nothing else about the eight vectors matters (orientation, frame, azimuth, mirror image), nor does the objects' history.",
 "all 141 classes, squared amplitudes, momenta, parameters, histories",
 "Each side ranges over a six-parameter family of momenta for a given s and t; tests use a handful of rotations and boosts.",
 ["SM/*.cpp", "source/particle.cpp", "source/process.cpp:346-470"])
p("Squared amplitudes are finite away from poles",
 "After set_momenta with momenta on the particles' mass shells, every squared amplitude of every class returns a finite number, in exact arithmetic, provided that no propagator used is exactly on its pole (P^2 - m^2 - i m w is not zero; for the classes that keep only its real part, P^2 is not m^2), that the coupling constants and masses stored by the constructor or set_masses and read by the amplitudes are finite, and that those of them the amplitudes divide by are not zero. In particular there is no other division by zero, no uninitialised value and no root of a negative number in any amplitude. A propagator with mass and width is never on its pole.",
 "all 141 classes, squared amplitudes, momenta, parameters, histories",
 "A division by zero shows up only at the particular momenta that cause it (for example forward scattering or a threshold); tests sample 20 angles.",
 ["SM/*.cpp", "source/propagator.cpp:45-47"])
p("Gluon-gluon scattering is the textbook result",
 "After set_momenta with four massless momenta that conserve energy and momentum (s, t, u not zero), amp2() of gggg returns exactly 9/4 gs^4 (3 - tu/s^2 - su/t^2 - st/u^2), the leading-order QCD result (Ellis, Stirling, Webber, table 7.1, with the factor 1/2 for identical particles), and so does amp2_Feynman(). amp2_gplus_gplus() and amp2_gminus_gminus() return 9/8 gs^4 s^4 (s^2+t^2+u^2)/(stu)^2, amp2_gplus_gminus() and amp2_gminus_gplus() 9/8 gs^4 (t^4+u^4)(s^2+t^2+u^2)/(stu)^2; the unpolarised result is their average.",
 "all couplings, momenta, histories of the object",
 "The tests compare with 20 numbers of another program to a relative error; the source itself says 'Not confident of color factor'.",
 ["SM/gggg.cpp:56-89", "SM/gggg.cpp:103-270"])
p("Two fermions into two fermions: the Feynman rules of the Standard Model",
 "For each of the 40 process classes with four external fermions (eemm, emem, eeee, eeee2, eemmQED, eeeeQED, neutrinos, quarks with leptons, four quarks): after construction and any calls of set_masses, set_momenta with on-shell momenta that conserve energy and momentum and put no exchanged boson on its pole succeeds, and amp2() returns exactly the squared amplitude of the tree-level Feynman rules for the process the class is named after: Dirac spinors and gamma matrices, photon, Z, W and Higgs exchange in unitary gauge, gluon exchange with the Gell-Mann matrices, relative sign for exchanged fermions, sum over final and average over initial spins and colours, 1/2 for identical particles. The result does not depend on the choice of spinors. The width of the Z given to the constructor must be 0, except for dddd: the other classes never pass it to the propagator, so that with a width the result differs.",
 "40 classes, all couplings, masses, widths, momenta, spinor bases, histories of the object",
 "The tests compare with about 20 numbers per phase-space point of another program, to a relative error, for particular masses.",
 ["SM/eemm.cpp", "SM/emem.cpp", "SM/eeee.cpp", "SM/eeee2.cpp", "SM/eemmQED.cpp", "SM/eeeeQED.cpp", "SM/eenmnm.cpp", "SM/enmenm.cpp", "SM/eenene.cpp", "SM/enenee.cpp", "SM/menn.cpp", "SM/mnen.cpp", "SM/nenenene.cpp", "SM/nenenene2.cpp", "SM/nenenmnm.cpp", "SM/nenmnenm.cpp", "SM/ddee.cpp", "SM/uuee.cpp", "SM/deed.cpp", "SM/ueeu.cpp", "SM/ddnn.cpp", "SM/uunn.cpp", "SM/dnnd.cpp", "SM/unnu.cpp", "SM/udnl.cpp", "SM/ulnd.cpp", "SM/ddss.cpp", "SM/uucc.cpp", "SM/uuss.cpp", "SM/dsds.cpp", "SM/ucuc.cpp", "SM/usus.cpp", "SM/uudd.cpp", "SM/udud.cpp", "SM/dddd.cpp", "SM/dddd2.cpp", "SM/uuuu.cpp", "SM/uuuu2.cpp", "SM/udtb.cpp", "SM/ubdt.cpp"])
p("Units: squared amplitudes are dimensionless and of fourth order in the couplings",
 "For each of the 141 process classes: take an object (after any history of calls), on-shell momenta and no propagator on its pole. Multiply all masses and widths (constructor arguments and those of the last set_masses), and all momenta, by a > 0 and the couplings by b (of either sign; the parameter vev of eeAh and eAeh by a/b, the sine of the mixing angle not at all). Then set_momenta accepts the new momenta as it did the old, and amp2 and every other squared amplitude returns exactly b^4 times what it returned before. In particular no term of any amplitude has a wrong power of a mass, of a propagator or of a coupling.",
 "141 classes, all squared amplitudes, all a > 0 and b, all parameters, momenta, histories of the object",
 "The tests never evaluate one process in two systems of units.",
 ["SM/*.cpp", "source/sproduct.cpp", "source/propagator.cpp:45-47"])
p("Reactions with bosons follow the Feynman rules",
 "For 47 process classes (35 with two fermions and two massive bosons, all 12 with four massive bosons; Higgs, Z, W): take an object (after any history of calls), on-shell momenta that balance and no exchanged particle on its pole; for 8 of the classes with four bosons the width of the exchanged Z or W is 0 (these classes spread the four-boson vertex over the propagators, which is right only without width). Then set_momenta succeeds and amp2 returns exactly the squared amplitude of the Feynman rules of the Standard Model at tree level in unitary gauge: the sum over diagrams (fermion exchange in both orders and a Higgs, photon, Z or W produced by or decaying into the bosons; for four bosons the exchange of a boson in each channel and the four-boson vertex), squared, summed over final and averaged over initial spins and colours, divided by 2 for identical particles in the final state. The spinors and polarisation vectors of the rules can be any with the right completeness relation; the result does not depend on the choice. Couplings, propagators (with the widths that are given), helicity factors, signs between diagrams and colour factors of these classes are all right.",
 "47 classes, all parameters, histories of the object, momenta off the poles, bases of spin states",
 "The tests compare a few numbers with CalcHEP; a formula wrong at other parameters or momenta goes unseen.",
 ["SM/*.cpp", "source/process.cpp", "source/sproduct.cpp", "source/propagator.cpp:45-47"])
p("Reactions with photons and gluons follow the Feynman rules",
"For 37 process classes with two fermions, at least one photon or gluon, and possibly a Higgs, Z or W (Compton scattering, annihilation into photons, photon and gluon fusion and emission of Higgs, Z and W): take an object (after any history of calls), on-shell momenta that balance, no exchanged particle on its pole, massless bosons of nonzero energy, and for the four classes with a photon and a W a W without width (with a width the amplitude is not gauge invariant). Then set_momenta succeeds and amp2 returns exactly the squared amplitude of the Feynman rules of the Standard Model at tree level, summed over final and averaged over initial spins and colours (8 gluons, colour matrices of Gell-Mann), divided by 2 for identical particles in the final state. The spinors and polarisation vectors of the rules can be any with the right completeness relation, in any light-cone gauge; the amplitude of the rules is gauge invariant, so the result does not depend on the choice.",
"37 classes, all parameters, histories of the object, momenta off the poles, bases of spin states and gauges",
"The tests compare a few numbers with CalcHEP; a formula wrong at other parameters or momenta goes unseen.",
["SM/*.cpp","source/process.cpp","source/sproduct.cpp","source/propagator.cpp:45-47"])
p("Electrons with photon and Higgs, neutrinos with W pairs follow the Feynman rules",
"For the classes eeAh and eAeh, which take the vacuum expectation value as a parameter: if that parameter times e is 2 MW sin(theta), amp2 returns the squared amplitude of the Feynman rules, for all parameters, histories, momenta off the poles and spin bases. For nnWW and nWWn the same holds with an electron whose mass is 0 as long as set_masses has not been called, whatever mass the constructor was given, and the mass last given to set_masses afterwards.",
"4 classes, all parameters, histories of the object, momenta off the poles, bases of spin states and gauges",
"The tests compare a few numbers with CalcHEP, always right after set_masses or with an electron mass too small to matter.",
["SM/eeAh.cpp","SM/eAeh.cpp","SM/nnWW.cpp","SM/nWWn.cpp"])
p("What a class returns also holds for the antiparticles",
"For the classes of C67 and C68: what amp2 returns at given momenta is also the squared amplitude of the Feynman rules for the reaction with every particle replaced by its antiparticle, at the same momenta (at tree level, without mixing of generations, CP is conserved and spins are summed over). The class WdWd, whose amplitudes are those of W- and anti-d, hence returns the right result for W+ d -> W+ d.",
"85 classes, all parameters, histories of the object, momenta off the poles, bases of spin states and gauges",
"No test calls a class for the conjugate reaction; that one class implements the conjugate reaction is not visible in numbers.",
["SM/*.cpp","SM/WdWd.cpp"])
p("Two quarks and two gluons follow the Feynman rules",
"For ggdd, gguu, dggd and gugu (three diagrams, one of them with the vertex of three gluons): for every object and history, on-shell momenta that balance and no exchanged particle on its pole, set_momenta succeeds and amp2 returns the squared amplitude of the Feynman rules summed and averaged over spins and over the colours of quarks and gluons, with the structure constants of the Gell-Mann matrices. The result does not depend on the basis of the spins or the gauge of the polarisation vectors, and also holds with quarks and antiquarks exchanged.",
"4 classes, all parameters, histories of the object, momenta off the poles, bases of spin states and gauges",
"The tests compare a few numbers with CalcHEP; the weights of the three colour structures cannot be told apart from a few numbers.",
["SM/ggdd.cpp","SM/gguu.cpp","SM/dggd.cpp","SM/gugu.cpp"])
p("Four bosons with photons follow the Feynman rules",
"For AhWW, AWWh, AAWW, AWAW, AZWW and AWZW (photons scattering off or producing W bosons, with four-boson vertices): for every object and history, on-shell momenta that balance, no exchanged W on its pole, photons of nonzero energy and a W without width, set_momenta succeeds and amp2 returns the squared amplitude of the Feynman rules summed and averaged over spins. The amplitude of the rules is gauge invariant (it vanishes when the polarisation vector of a photon is its momentum), so the result does not depend on the gauge of the polarisation vectors; it also holds with W+ and W- exchanged.",
"6 classes, all parameters, histories of the object, momenta off the poles, polarisation vectors and gauges",
"The tests compare a few numbers with CalcHEP; the formulas of the code have no trace of the contact diagram, which only comes back from identities of spinors.",
["SM/AhWW.cpp","SM/AWWh.cpp","SM/AAWW.cpp","SM/AWAW.cpp","SM/AZWW.cpp","SM/AWZW.cpp"])
p("eeAZ always returns zero, the Feynman rules do not",
"The class eeAZ (electron, positron -> photon, Z) is unfinished: amp2() returns a quarter of a sum of 36 squares of zero, in any arithmetic and in any state of the object, hence 0 in exact arithmetic whatever the parameters, the momenta and the calls before. The Feynman rules give a positive squared amplitude, shown at explicit momenta for every choice of spinors and polarisation vectors.",
"all states of the object; all spinors and polarisation vectors at the momenta of the witness",
"The test of this class is unfinished as well (it passes two Z masses and its rotations and boosts are commented out), and no other test asks that an amplitude be different from zero.",
["SM/eeAZ.cpp:107-171","SM/include/eeAZ.h"])
p("Methods for photons and gluons of given helicity follow the Feynman rules",
"The methods amp2_Aplus, amp2_Aminus, amp2_Aplus_Aplus, amp2_gplus, amp2_gplus_Aminus and so on (65 methods of 40 classes) return the squared amplitude of the Feynman rules for incoming photons and gluons of the helicities in their names: circular polarisation vectors of the given handedness (in any gauge), summed over the other spins and all colours of the final state, averaged over those of the initial state. The table of methods is complete except for gggg (C75) and the massless formulas amp2_Feynman.",
"all objects of the classes, however constructed and used before; all parameters, momenta on the mass shells off the poles, spinors and polarisation vectors",
"Tests compare these methods with numbers for some momenta, often only with one helicity; a wrong average or exchanged helicities show only against numbers for the same helicity, and where parity makes both equal not even then.",
["SM/eAAe.cpp:155-168","SM/AWud.cpp","SM/ggdd.cpp","SM/dggd.cpp"])
p("Two gluons into two gluons: the class gggg follows the Feynman rules",
"amp2() of gggg returns the squared amplitude of the Feynman rules of quantum chromodynamics for two gluons into two gluons (exchange of a gluon in three channels and the vertex of four gluons, structure constants of the Gell-Mann matrices), summed over colours and helicities, averaged over those of the initial state, with the factor 1/2 for identical outgoing gluons; amp2_gplus_gplus, amp2_gplus_gminus, amp2_gminus_gplus and amp2_gminus_gminus return it for gluons of these helicities. The rules give the textbook formula. Together with C65, C67-C72 all classes but eeAZ are covered.",
"all objects of the class, however constructed and used before; all couplings, massless momenta off the poles, polarisation vectors (in any gauge)",
"The code has neither colour nor polarisation vectors: it adds squared numerators with a weight for each pair of channels. That this equals the coherent sum over colours and diagrams is a theorem about the structure constants; tests only compare with one formula at some momenta.",
["SM/gggg.cpp","SM/include/gggg.h"])
p("Photons and gluons on a fermion line: the formulas of textbooks",
"amp2() of the 17 classes for two photons or gluons and two charged leptons or quarks returns the closed formula of textbooks with the mass of the fermion: Breit and Wheeler for a pair from two photons (AAee, AAuu, AAdd), the same with the factor for two photons alike for their inverse (eeAA, uuAA, ddAA), Klein and Nishina for Compton scattering (eAAe, uAAu, dAAd), these with colour factors for one gluon (gAuu, gAdd, dAgd, guAu), Combridge for two gluons (gguu, ggdd, and dggd, gugu by crossing). The Feynman rules of C67, C68 and C71 give the same formulas. amp2_Feynman of ggdd and gguu returns the formula without the quark mass: never above amp2(), and below it for interacting quarks unless they leave along the beam.",
"all objects of these classes, however constructed and used before, all constants, all momenta on the mass shell off the poles",
"The code sums squares of spinor products over spins; that this is a rational function of two invariants is an identity for all momenta, masses and couplings. Tests compare 20 angles at a few energies and masses; the one test of amp2_Feynman with heavy quarks is commented out.",
["SM/AAee.cpp","SM/eeAA.cpp","SM/eAAe.cpp","SM/gAuu.cpp","SM/dAgd.cpp","SM/guAu.cpp","SM/gguu.cpp:127-139","SM/ggdd.cpp:130-139","SM/dggd.cpp","SM/gugu.cpp"])
p("Four fermions and one exchanged boson: the formulas of textbooks",
"amp2() of 22 classes for two fermions into two fermions returns the closed formula of textbooks with the masses of the fermions: a photon into a pair (eemmQED) and Bhabha scattering (eeeeQED) in QED; the exchange of a gluon between quarks, different or the same, in the s, t or u channel, if the electric charge is 0 (ddss, uucc, uuss, uudd, dsds, ucuc, usus, udud, dddd, uuuu, dddd2, uuuu2); the exchange of a Z with a neutrino (eenmnm, enmenm, nenenmnm, nenmnenm, ddnn, uunn, dnnd, unnu). The Feynman rules of C65 give the same formulas, and without masses the formulas are those of the tables for scattering of partons. The example for users in user-dir, of which only the order of the constructor differs, does in any arithmetic the same as eemmQED, so its amp2() returns the formula for muon pairs.",
"all objects of these classes, however constructed and used before, all constants with quarks and charged leptons massive, all momenta on the mass shell off the poles",
"The code adds up squares of spinor products; that the sum is a rational function of two invariants is an identity for all momenta, masses and couplings. Tests compare 20 angles at a few energies and masses with numbers of another program.",
["user-dir/eemm.cpp:34-110","SM/eemmQED.cpp","SM/eeeeQED.cpp","SM/ddss.cpp","SM/udud.cpp","SM/dddd.cpp","SM/uuuu2.cpp","SM/eenmnm.cpp","SM/enmenm.cpp","SM/ddnn.cpp","SM/dnnd.cpp"])
p("A copy of a process object follows the momenta of the original",
"No class defines a copy constructor or an assignment operator, so the implicit ones copy the pointers inside the spinor products. If an object of any class (SM/ and user-dir/) is copied, before or after it is given momenta p, and the copy is then given momenta q, set_momenta of the copy succeeds; every amplitude and squared amplitude of the copy is then computed with the spinor products of p and the denominators of q, whatever methods of either are called in between; the original goes on returning its values for p. If p and q have the same denominators the copy ignores q completely: a copy of the example for users returns the squared amplitude for p for all q with the same s (2 instead of 2.2304 in the example).",
"all 142 classes, all histories of the object before it is copied (and, without set_masses, after), all arithmetics, all accepted momenta, all later calls of methods of either object; the original alive",
"Tests never copy an object, and construct each from a temporary whose copy the compiler leaves out. A copy that gets the same momenta as its original passes every test.",
["include/sproduct.h:31-32","include/process.h","source/sproduct.cpp","user-dir/eemm.cpp:34-81","user-dir/eemm.cpp:123"])
p("amp2() is the mean of the methods for the two helicities",
"17 classes with one incoming photon or gluon have a method for either of its helicities (amp2_Aplus and amp2_Aminus, amp2_gplus and amp2_gminus). In exact arithmetic amp2() is the mean of what the two return, whatever other methods are called in between.",
"all 17 classes, all histories of the object (without set_masses where that forgets to update something), all parameters that are physical, all momenta on the mass shells off the poles, photons and gluons of nonzero energy",
"Tests compare each method with its own table of numbers at a few momenta; no test compares the methods with each other.",
["SM/uAAu.cpp:118-177","SM/AeZe.cpp","SM/guAu.cpp","SM/dggd.cpp","SM/AWAW.cpp"])
p("Without weak interactions of fermions amp2() follows from some of the helicities",
"Where no fermion meets a W or Z boson the squared amplitude stays the same when all helicities are reversed. So in exact arithmetic the 25 methods for one helicity of the one incoming photon or gluon (of 18 classes), and amp2_Aplus of eAeh, return the same as amp2(); and in the 8 classes with two incoming photons or gluons amp2() is the mean of the methods for like and unlike helicities.",
"all these classes and methods, all histories of the object (without set_masses where that forgets to update something), all parameters that are physical (width of the W 0 where a photon meets a W), all momenta on the mass shells off the poles, photons and gluons of nonzero energy",
"The tables of numbers for the helicities and for amp2() are separate and cover a few momenta in the center-of-mass frame.",
["SM/AAuu.cpp:118-190","SM/gguu.cpp","SM/uAuh.cpp","SM/hgdd.cpp","SM/AZWW.cpp","SM/eAeh.cpp"])
p("Exchanging identical particles does not change amp2()",
"Where both incoming or both outgoing particles of a class are of the same type (23 classes with bosons, 4 with four fermions), amp2() returns the same in exact arithmetic after set_momenta with the momenta of the two exchanged: the amplitude is symmetric for bosons and changes at most its sign for fermions. This is so although the code treats the two differently (t- and u-channel terms, colour factors, and denominators are written out separately).",
"all these classes and pairs, all histories of the object (without set_masses where that forgets to update something), all parameters that are physical, all momenta on the mass shells that are balanced and off the poles, photons and gluons of nonzero energy, any calls in between",
"The tables of numbers have a few angles; they are compared with CalcHEP and not with each other, and never with the incoming particles exchanged.",
["SM/gggg.cpp","SM/AAuu.cpp","SM/ZZZZ.cpp","SM/WWWW.cpp","SM/dddd2.cpp","SM/eeee2.cpp"])
p("Reversed reactions",
"In exact arithmetic all squared amplitudes of a class are the same backwards: if particles 1 and 3, and 2 and 4, have equal masses, after set_momenta(p3,p4,p1,p2); if 1 and 4, and 2 and 3, after set_momenta(p4,p3,p2,p1); and if 1 and 2, and 3 and 4, after set_momenta(p2,p1,p4,p3). For the classes whose reverse is another class (AAee and eeAA, AAuu and uuAA, AAdd and ddAA) detailed balance holds: amp2() times the number of states averaged over and the factor for identical particles is the same for both.",
"all 141 classes and all their squared amplitudes, all histories of the objects, all momenta on the mass shells with positive s; for detailed balance all physical parameters and momenta off the poles",
"No test has reversed momenta or compares two classes with each other.",
["SM/emem.cpp","SM/eheh.cpp","SM/dggd.cpp","SM/AAee.cpp","SM/eeAA.cpp","SM/AAuu.cpp","SM/uuAA.cpp"])
p("Textbook formula for W exchange",
"For the six classes in which four fermions exchange a W and nothing else, udtb, ubdt, udnl, ulnd, menn and mnen, amp2() returns in exact arithmetic the closed formula with all masses and the width: the square of the coupling over the square of the Breit-Wigner denominator, times 4(s-a^2-c^2)(s-b^2-d^2) and the terms in 1/MW^2 and 1/MW^4 of the longitudinal part, averaged over the incoming spins and colours. Without masses it is the 4s^2 of the four-fermion theory.",
"the six classes, all histories of the objects, all physical parameters, all momenta on the mass shells, conserved and off the poles",
"The tests compare with numbers from another program at a few masses and always with a width of zero, so the width is never tested.",
["SM/udtb.cpp","SM/ubdt.cpp","SM/udnl.cpp","SM/ulnd.cpp","SM/menn.cpp","SM/mnen.cpp"])
p("Squared amplitude for given momenta",
"The overload amp2(mom1, mom2, mom3, mom4), which multiplies the spinors of the particles itself and needs no call of set_momenta, returns for eemmQED, eeeeQED and eeAA in exact arithmetic the number that amp2() returns after set_momenta(mom1, mom2, mom3, mom4). For eAeh it does not: two arrays of spinor products are never assigned; for an electron of mass 15 meeting a photon head-on and making a Higgs boson of mass 12 it returns (34/25)^2 times the value of amp2(), whatever the charge and the vacuum expectation value. In every arithmetic an object on which the overload was called is as good as a new one once set_momenta is called.",
"all histories of the objects (construction, set_masses, set_momenta, the overload, other calls, with or without exceptions), all real parameters with masses that are not zero, all momenta on the mass shells (conserved or not) off the poles; one reaction for eAeh",
"No test calls the overloads.",
["SM/eemmQED.cpp:100-144","SM/eeeeQED.cpp:116-169","SM/eeAA.cpp:137-189","SM/eAeh.cpp:144-195"])
p("Squared amplitude after one for given momenta",
"After set_momenta(p) and amp2(p'), that is the overload for the momenta p', amp2() without arguments uses the spinors of p' and the denominators of the propagators that the members hold. For eemmQED, in exact arithmetic, it returns x*(s'/s)^2, where x is the value for p' and s, s' are the squares of the total momenta of p and p': neither the value for p nor the one for p' (witness). For eeeeQED, whose overload assigns the members, it returns the value for p'.",
"all histories of the objects (construction, set_masses, set_momenta, overloads, other calls), all real parameters with masses that are not zero, all momenta p and p' on the mass shells off the poles",
"No test calls the overloads, and none calls amp2() for momenta set by another function.",
["SM/eemmQED.cpp:44-144","SM/eeeeQED.cpp:52-169","source/sproduct.cpp:251-425","source/particle.cpp:49-66"])

p("Amplitudes returned once are returned again",
"The values of spinor products are stored when they are first found. Once amp(...) or amp2() has returned a number after set_momenta, the same call returns the same number, although the particles have got other momenta meanwhile. For eemmQED, eeAA and eAeh this holds in particular when, between the two calls, the overload amp2(mom1, mom2, mom3, mom4) was called for any momenta, any number of times, along with other calls that are not set_momenta or set_masses. In any arithmetic, and for any contents of the local variables before they are assigned.",
"all 141 classes, all histories before set_momenta, all momenta accepted by set_momenta, all calls of methods before and in between, all states of the particles",
"Tests compare values that are computed after set_momenta; no test changes the particles behind an amplitude.",
["source/sproduct.cpp:251-425","SM/eemmQED.cpp:100-144","SM/eeAA.cpp:137-189","SM/eAeh.cpp:144-195"])
p("Order of evaluation",
"C++ leaves open in which order the calls within an expression happen, and v() and amp() fill caches. A method amp(...) or amp2() that returns a number when operands are evaluated from left to right returns the same number for every order of the calls in every expression it evaluates, including those of the methods it calls, after calls that were themselves evaluated in any orders. In any arithmetic: the sums and products themselves are the ones written.",
"all 141 classes, all histories of the object, all accepted momenta, all calls of methods after set_momenta, all interleavings of the calls in each expression",
"A compiler fixes one order; a test sees only that one.",
["source/sproduct.cpp:287-425","source/particle.cpp:140-415","SM/eemmQED.cpp:75-98","SM/WWWW.cpp:124-290"])
p("Squared amplitudes have no minus sign, whatever the rounding",
"In 131 of the 141 classes amp2() and the squared amplitudes for given helicities are, as written, sums of squares of moduli times and divided by positive literals. The number they return has no minus sign in any arithmetic in which moduli and even powers have none and sums, products, quotients and roots of numbers without a minus sign have none: in particular in exact arithmetic and in floating-point arithmetic (signed zeros, infinities, NaN) under any rounding, where the result is NaN, or it is not less than 0 and its sign bit is 0. It holds for objects in any state, also before set_momenta. In the other ten classes (four quarks with two colour structures, two quarks and two gluons) real parts of products of amplitudes are added and the sign depends on cancellations.",
"all arithmetics with these rules, 131 classes, all states of the object, all contents of memory",
"Tests compare with tolerances at some momenta; none looks at signs, rounding modes or states.",
["SM/eemmQED.cpp:83-97","SM/WWWW.cpp:272-290","SM/uuuu.cpp:220-245","source/process.cpp:80-110"])
p("What a rejected set_momenta leaves behind",
"When set_momenta of a process class throws, it has stopped at the first particle whose momentum is off shell: the particles before it have their new momenta, set_momentum has thrown for this one, the particles after it, the products, the denominators and all other members are as before. What a method has returned since the last set_momenta that returned, it therefore returns again, however many calls of set_momenta have thrown in between. A method that has not been called in between mixes the momenta: in nnZh, when the momentum of the Higgs boson is rejected, amp2() has the spinors of the new momenta and the denominator of the old ones, its value is the one for the new momenta times the square of the ratio of the distances from the Z pole.",
"all 141 classes, all objects after any calls, all momenta, any arithmetic; the formula for nnZh: exact arithmetic, all parameters, all momenta on shell",
"No test calls a method after set_momenta has thrown; in the tests every exception ends the program.",
["SM/nnZh.cpp:56-70","source/particle.cpp:51-54","source/particle.cpp:67-73","SM/eemmQED.cpp:50-75"])
p("The mass-shell gate in floating-point arithmetic",
"The tolerance of particle::update is absolute (10^9 epsilon). Floating-point arithmetic with any rounding that keeps representable numbers and the order (all modes of IEEE 754): momenta on the mass shell whose components and mass are representable can be rejected at high energy, because the square of the energy is rounded by more than the tolerance. For t digits, E^2 = p^2 + m^2 in multiples of 2^-j with E odd, p divisible by 4 and E^2 having t+1 digits, the momentum along the third axis is rejected if 2j+31 <= t: in double for example E = 98014001/1024 (96 TeV), in long double E = 5000100001/65536 (76 TeV). If E^2 has at most t digits, it is accepted. When one of E*E, |p|*|p|, m*m overflows, the momentum is accepted if and only if E*E and one of the others overflow, since infinity minus infinity is not a number and the comparison is false: then energy, momentum and mass need not match at all.",
"all rounding modes, all precisions from 30 digits and ranges of exponents, all such momenta and masses, all signs; all states of the particle",
"The tests use energies of some thousand GeV, where the rounding of the squares stays below the tolerance.",
["source/particle.cpp:67-73","source/particle.cpp:51-54","source/particle.cpp:41-45","include/types.h:26-33"])
p("An accepted momentum on the mass shell can have spinors that are not numbers",
"The constructor and set_momentum of particle calculate sqrt(E-|p|) without looking at the sign of E-|p|, and |p| is rounded several times. With rounding to nearest there are momenta exactly on the mass shell of a mass that is not zero, all components and the mass representable, for which the calculated |p| exceeds the energy: the momentum is accepted and each of rangle, langle, lsquare, rsquare, with upper and with lower index, is NaN for one of the spins. In double: (E,x,y,z) = (379640315, 379640313, 27504, 27606) and mass 2 in units of 2^-j for every j from 14 (23 TeV) to 500. In long double, the default: (12155162519, 12155162517, 151812, 159918) and mass 2 for every j from 19 to 8000.",
"all roundings to nearest whatever is done with ties; all units 2^-j in these ranges, all signs of the spatial components and of the mass; all previous states of the particle; elementary functions arbitrary, except that cosines are not infinite and NaN times a real number that is not infinite is NaN",
"Only rare momenta with m*m/E*E near epsilon are affected; the tests compare amplitudes for some fixed momenta.",
["source/particle.cpp:67-81","source/particle.cpp:41-45","source/particle.cpp:51-54","source/particle.cpp:201-415","include/types.h:26-33","CMakeLists.txt:18-23"])
for x in P: pass
open('properties.jsonl','w').write(''.join(json.dumps(x,ensure_ascii=False)+'\n' for x in P))
print(len(P))

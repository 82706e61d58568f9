{"id": "C01", "title": "Packed cubic force constants: one slot per unordered triple", "statement": "Reading a packed cubic force-constant table at (a,b,c) reads the same slot for every ordering of a,b,c; two triples read the same slot only if they are reorderings of each other; and for indices below n the slots used are exactly 0,1,...,n(n+1)(n+2)/6-1, with no gap.", "quantifier": "every triple of mode indices and every table size n", "why_tests_cant": "A test checks a few literal triples (the repo checks one); collision-freedom and density are statements about all pairs of triples for all n.", "anchors": ["spectro/src/utils.rs:find3", "spectro/src/f3qcm.rs:F3qcm::index"]}
{"id": "C02", "title": "Packed quartic force constants: one slot per unordered quadruple", "statement": "Reading or writing a packed quartic table at (a,b,c,d) addresses the same slot for every ordering; different multisets of indices address different slots; for indices below n the slots are exactly 0,...,n(n+1)(n+2)(n+3)/24-1. Consequently a value written at one ordering is read back at every ordering, and no other entry changes.", "quantifier": "every quadruple of mode indices, every table size n, every stored value", "why_tests_cant": "Collision-freedom quantifies over all pairs of quadruples and all sizes.", "anchors": ["spectro/src/utils.rs:find4", "spectro/src/f4qcm.rs:F4qcm::index", "spectro/src/f4qcm.rs:F4qcm::index_mut"]}
{"id": "C03", "title": "Packed pairs: triangular offset is a bijection onto the i2vib slots", "statement": "The triangular slot of an unordered pair {i,j} (offset of the larger index plus the smaller) is independent of the order, different for different pairs, and for indices below n covers exactly 0,...,n(n+1)/2-1, which is the number of pair slots computed for n modes. Asking for the offset of 0 underflows (panics in a debug build).", "quantifier": "every pair of indices and every n", "why_tests_cant": "All pairs, all sizes.", "anchors": ["spectro/src/utils.rs:ioff", "spectro/src/load.rs:process_geom (i2vib)", "spectro/src/resonance.rs:Restst::new"]}
{"id": "C04", "title": "Loading cubic constants gives a fully symmetric tensor that contains exactly the file's values", "statement": "Building the Cartesian cubic tensor from a slice of exactly n(n+1)(n+2)/6 values (or with two leading header values, which are ignored) never fails, gives at every (a,b,c) the value listed for the sorted triple in the file order, and is therefore invariant under all six permutations. Any other length panics.", "quantifier": "every n, every slice of values, every index triple", "why_tests_cant": "The value at all n^3 positions for all n and all slices; the failing lengths are infinitely many.", "anchors": ["spectro/src/load.rs:new_fc3", "spectro/src/load.rs:load_fc3"]}
{"id": "C05", "title": "Loading quartic constants gives a fully symmetric tensor that contains exactly the file's values", "statement": "Same as the cubic case for four indices: length n(n+1)(n+2)(n+3)/24 (or that plus a two-value header) is accepted, every entry is the listed value of the sorted quadruple, the tensor is invariant under all 24 permutations, every other length panics.", "quantifier": "every n, every slice of values, every index quadruple", "why_tests_cant": "All n^4 positions for all n; in particular all 24 assignment statements in the source have to be right.", "anchors": ["spectro/src/load.rs:new_fc4", "spectro/src/load.rs:load_fc4"]}
{"id": "C06", "title": "The Hessian file reads the same with and without its two-number header", "statement": "Loading a file of n*n numbers and loading the same numbers preceded by the two-number header give the same matrix. (Violated for unsymmetric data: the two branches use opposite storage orders, so the results are transposes of each other; they agree exactly when the data are symmetric.) Files of any other length panic.", "quantifier": "every n and every list of numbers", "why_tests_cant": "The test files are symmetric Hessians, for which the difference is invisible.", "anchors": ["spectro/src/load.rs:load_fc2"]}
{"id": "C07", "title": "Rotating the Hessian is the tensor rotation by the principal axes", "statement": "The rotated Hessian H' of an N-atom molecule is the tensor transform of H by the block-diagonal axis matrix: the quadratic form is preserved, H'(u,v)=H(Ru,Rv) for all displacement vectors u,v where R applies the axes atom by atom. Symmetric input gives symmetric output, identity axes change nothing, and for orthogonal axes rotating with the transposed axes undoes the rotation.", "quantifier": "every atom count, every Hessian, every 3x3 axis matrix (orthogonal where stated)", "why_tests_cant": "All matrices and all molecule sizes.", "anchors": ["spectro/src/lib.rs:Spectro::rot2nd"]}
{"id": "C08", "title": "Rotating the cubic tensor is the tensor rotation by the principal axes", "statement": "Each of the three indices of the cubic tensor is contracted once with the axis matrix, for any tensor, symmetric or not: T'(u,v,w)=T(Ru,Rv,Rw). In particular the rotated tensor of a fully symmetric tensor is fully symmetric, identity axes change nothing, and the transposed orthogonal axes undo it.", "quantifier": "every atom count, every cubic tensor, every axis matrix", "why_tests_cant": "In-place two-pass update; aliasing bugs only show for general tensors and all atom blocks.", "anchors": ["spectro/src/lib.rs:Spectro::rot3rd"]}
{"id": "C09", "title": "Rotating the quartic tensor is the tensor rotation by the principal axes", "statement": "T'(u,v,w,z)=T(Ru,Rv,Rw,Rz) for any quartic tensor; full symmetry is preserved, identity axes change nothing, and the transposed orthogonal axes undo it.", "quantifier": "every atom count, every quartic tensor, every axis matrix", "why_tests_cant": "In-place second pass over all atom blocks; all tensors.", "anchors": ["spectro/src/lib.rs:Spectro::rot4th"]}
{"id": "C10", "title": "The secular matrix is the symmetric mass-weighted Hessian", "statement": "The secular matrix is exactly symmetric (bit for bit, whatever the arithmetic), its (i,j) entry for i<=j is the Hessian entry scaled by the inverse root masses of the two atoms, and it does not depend on the entries below the diagonal.", "quantifier": "every atom count, Hessian and mass vector", "why_tests_cant": "Exact symmetry for all inputs is what the eigensolver assumes; tests look at one matrix within a tolerance.", "anchors": ["spectro/src/lib.rs:Spectro::form_sec"]}
{"id": "C11", "title": "Eigenpairs stay paired and come out sorted", "statement": "Given any eigenvalues and eigenvectors from the eigensolver, the sorted decomposition returns the same eigenvalues in descending order (ascending when asked), column i of the returned matrix is an eigenvector column belonging to returned eigenvalue i, no pair is lost or duplicated, and orthonormal columns stay orthonormal. Hence any (value, vector) relation that held for every pair of the eigensolver's output (for example A v = lambda v) holds for every returned pair.", "quantifier": "every matrix size, every eigensolver output, both orders", "why_tests_cant": "Needs all permutations and all sizes, including ties.", "anchors": ["spectro/src/utils/linalg.rs:symm_eigen_decomp"]}
{"id": "C12", "title": "Wavenumber conversion is odd, strictly increasing and sign preserving", "statement": "Converting eigenvalues to wavenumbers maps negative eigenvalues to negative numbers, zero to zero, positive to positive, is odd and strictly increasing, and squares back to the eigenvalue up to the constant factor. Hence frequencies inherit the descending order of the eigenvalues.", "quantifier": "every real eigenvalue vector", "why_tests_cant": "All reals, both signs.", "anchors": ["spectro/src/utils.rs:to_wavenumbers"]}
{"id": "C13", "title": "Normal-coordinate cubic constants are the triple contraction", "statement": "For a fully symmetric Cartesian cubic tensor, the table entry read at modes (i,j,k) in any order equals FACT3*FUNIT3/sqrt(wi wj wk) times the contraction of the tensor with normal-mode columns i, j and k, and the table has one entry per unordered triple of vibrational modes. For a tensor that is not symmetric in its first two indices the result can differ (the intermediate is stored transposed).", "quantifier": "every number of Cartesian coordinates and modes, every symmetric tensor, every mode matrix and frequency vector", "why_tests_cant": "In-place plane updates plus a push order that has to match the packed index for all mode counts.", "anchors": ["spectro/src/utils.rs:force3", "spectro/src/f3qcm.rs:F3qcm"]}
{"id": "C14", "title": "Normal-coordinate quartic constants are the quadruple contraction", "statement": "For a fully symmetric Cartesian quartic tensor, the table entry read at modes (i,j,k,l) in any order equals FACT4*FUNIT4/sqrt(wi wj wk wl) times the contraction with mode columns i,j,k,l. Several loop iterations write the same slot; they all write the same value, so the order of the loop does not matter.", "quantifier": "every number of coordinates and modes, every symmetric tensor, mode matrix and frequency vector", "why_tests_cant": "Last-write-wins overwriting of shared slots for all sizes.", "anchors": ["spectro/src/utils.rs:force4", "spectro/src/f4qcm.rs:F4qcm"]}
{"id": "C15", "title": "Coriolis zeta constants are antisymmetric and bounded", "statement": "zeta(k,l,axis) = -zeta(l,k,axis), zeta(k,k,axis)=0, and if the mode columns are orthonormal then |zeta| <= 1 for each axis, and zeta about each axis is the value of the molecule's angular-momentum form on the two mode vectors.", "quantifier": "every number of modes and atoms, every mode matrix (orthonormal where stated)", "why_tests_cant": "All matrices; the bound is a theorem (Cauchy-Schwarz), not a sampled fact.", "anchors": ["spectro/src/lib.rs:make_zmat", "spectro/src/lib.rs:Spectro::zeta"]}
{"id": "C16", "title": "Cartesian mode vectors diagonalise kinetic and potential energy", "statement": "If the mass-weighted mode matrix is orthonormal and diagonalises the secular matrix, then the Cartesian mode matrix returned to the user is orthonormal with respect to the masses (LX^T M LX = 1) and diagonalises the Hessian with the same eigenvalues (LX^T F LX = diag).", "quantifier": "every atom count, positive masses, every symmetric Hessian and every eigenvector matrix", "why_tests_cant": "All matrices.", "anchors": ["spectro/src/lib.rs:Spectro::make_lx", "spectro/src/lib.rs:Spectro::form_sec"]}
{"id": "C17", "title": "Every vibrational mode is classified, and only once", "statement": "The list of non-degenerate, doubly and triply degenerate modes mentions every vibrational index; for an asymmetric top each index is its own non-degenerate mode in increasing order. For symmetric tops each index belongs to exactly one mode. (The last part is violated when near-degenerate frequencies form a chain or a group of four: an index then appears in two modes.) Non-degenerate never overlaps with degenerate, and doubly never with triply degenerate.", "quantifier": "every rotor type, every frequency vector, every number of modes", "why_tests_cant": "Chains such as f, f+0.06, f+0.12 or four equal frequencies are not in the test set.", "anchors": ["spectro/src/resonance.rs:deg_modes"]}
{"id": "C18", "title": "Mode counting and mode partitioning agree", "statement": "The counts of non-degenerate, doubly and triply degenerate modes equal the lengths of the three partition lists, the lists keep the order of the modes, and together they contain exactly the given modes.", "quantifier": "every list of modes", "why_tests_cant": "All lists.", "anchors": ["spectro/src/mode.rs:Mode::count", "spectro/src/mode.rs:Mode::partition"]}
{"id": "C19", "title": "State enumeration is complete and duplicate free", "statement": "With n1, n2, n3 modes of each kind, the state list starts with the ground state, then holds the n1+n2+n3 fundamentals, n1+n2 overtones and the combination bands of every pair of distinct modes of the first two kinds, in that order; its length is 1+(n1+n2+n3)+(n1+n2)+C(n1+n2,2), and all states are different.", "quantifier": "every mode list whose counts fit the number of vibrations", "why_tests_cant": "All n1,n2,n3.", "anchors": ["spectro/src/resonance.rs:Restst::new", "spectro/src/state.rs:State"]}
{"id": "C20", "title": "Fundamental, overtone and combination lookups point at the right state", "statement": "For every mode index the fundamental table gives the position of the state with exactly one quantum in that mode, the overtone table the one with two quanta, and the pair table the one with one quantum in each of the two modes; all positions are within the state list and none is the ground state.", "quantifier": "every mode list in which each index occurs once, every pair of modes", "why_tests_cant": "Pointers for all mode counts, through the packed pair index.", "anchors": ["spectro/src/resonance.rs:Restst::new"]}
{"id": "C21", "title": "State table construction does not panic for clustered frequencies", "statement": "Building the resonance/state tables succeeds for every frequency vector. (Violated: five or more vibrations within the degeneracy tolerance of a symmetric top give more triples than vibrations and the construction indexes out of bounds.) It does succeed whenever the number of modes of each kind is at most the number of vibrations, in particular for every asymmetric top.", "quantifier": "every rotor type and frequency vector", "why_tests_cant": "Needs a molecule with five mutually near-degenerate modes.", "anchors": ["spectro/src/resonance.rs:Restst::new", "spectro/src/resonance.rs:deg_modes"]}
{"id": "C22", "title": "Asymmetric-top Coriolis resonances: exactly the qualifying pairs, once each", "statement": "For an asymmetric top (i,j,axis) is reported if and only if j<i, |wi-wj|<=200 and |zeta(i,j,axis)|>=0.25; nothing is reported twice.", "quantifier": "every number of modes, every frequency vector and zeta tensor", "why_tests_cant": "If-and-only-if over all pairs and all real inputs, including the boundary values.", "anchors": ["spectro/src/rotor.rs:coriolis"]}
{"id": "C23", "title": "Type-1 Fermi resonances: exactly the qualifying pairs", "statement": "For an asymmetric top (i,j) is reported if and only if |2wi-wj|<=200 and |phi_iij|>=10, once each. A resonance relates two different modes. (Violated: a mode below 200 cm-1 with a large diagonal cubic constant is reported as resonant with itself.)", "quantifier": "every number of modes, every frequency vector and cubic table", "why_tests_cant": "No test molecule has such a low mode with a large cubic constant.", "anchors": ["spectro/src/rotor.rs:fermi1", "spectro/src/rotor.rs:ferm1_test"]}
{"id": "C24", "title": "Type-2 Fermi resonances: exactly the qualifying triples", "statement": "For an asymmetric top (i,j,k) is reported if and only if k<j<i, |phi_ijk|>=10 and either the product of the four frequency combinations is at most 1000 in magnitude or the largest of the three differences is at most 200 in magnitude. When frequencies are positive and descending the largest difference is wk-wi-wj, so the reported triple always means wk = wi+wj with i,j the two lower modes; every triple is reported at most once.", "quantifier": "every number of modes, every frequency vector and cubic table", "why_tests_cant": "The claim that the code's 'maximum of three differences' is the physically meaningful one needs the ordering argument for all inputs.", "anchors": ["spectro/src/rotor.rs:fermi2", "spectro/src/rotor.rs:ferm2_test", "spectro/src/rotor.rs:aminjm"]}
{"id": "C25", "title": "Darling-Dennison resonances: exactly the qualifying pairs", "statement": "For an asymmetric top (i,j) is reported if and only if j<i and |2wi-2wj|<=300, once each.", "quantifier": "every number of modes and frequency vector", "why_tests_cant": "All pairs.", "anchors": ["spectro/src/rotor.rs:darling", "spectro/src/rotor.rs:darling_test"]}
{"id": "C26", "title": "Symmetric-top resonances are sound", "statement": "For symmetric tops every reported Coriolis, Fermi and Darling-Dennison resonance satisfies its numerical criterion, refers to existing modes, and uses the first component of degenerate pairs (except the second component allowed for degenerate-degenerate Coriolis pairs). Each resonance is reported once. (The last sentence is violated by type-2 Fermi resonances between degenerate modes, and Coriolis pairs are reported in both orders.)", "quantifier": "every mode list, frequency vector, zeta tensor and cubic table", "why_tests_cant": "All inputs.", "anchors": ["spectro/src/rotor.rs:coriolis", "spectro/src/rotor.rs:fermi1", "spectro/src/rotor.rs:fermi2", "spectro/src/rotor.rs:darling"]}
{"id": "C27", "title": "Resonance lookup tables contain what was detected", "statement": "The cubic check table is non-zero at (i,j,k) if and only if a listed resonance couples modes i and j to k (in either order of i,j). The single-valued lookups return, for each overtone or pair, the partner of the last listed resonance with that key and nothing for keys never listed. Earlier partners of the same key are lost.", "quantifier": "every list of type-1 and type-2 resonances", "why_tests_cant": "All lists, including repeated keys.", "anchors": ["spectro/src/lib.rs:Spectro::make_fermi_checks", "spectro/src/ifrm1.rs:Ifrm1", "spectro/src/ifrm2.rs:Ifrm2"]}
{"id": "C28", "title": "Every detected Coriolis resonance removes its near-singular term", "statement": "The rotational-constant correction of an asymmetric top replaces the near-singular denominator by the regular one for every pair and axis reported as Coriolis resonant, and only for these. (Violated: the lookup keeps a single axis per pair, so when two axes are resonant for the same pair only the last one is treated.) The lookup is symmetric in the two modes, and with at most one axis per pair the property holds.", "quantifier": "every list of Coriolis resonances, every pair and axis", "why_tests_cant": "Needs a molecule with two resonant axes for one pair.", "anchors": ["spectro/src/lib.rs:make_icorol", "spectro/src/lib.rs:Spectro::alpha"]}
{"id": "C29", "title": "Prolate tops: a resonance about an axis is treated about that axis", "statement": "For symmetric tops a Coriolis resonance detected from zeta about a given axis switches the correction for that same axis to the regular form, and nothing else does. (Violated for prolate tops: detection renames the axes but the correction compares with the unrenamed axes. Violated for two degenerate modes about the unique axis: the resonance is stored under the second component and looked up under the first. It holds for the non-degenerate modes of oblate and linear tops.)", "quantifier": "every mode list, zeta tensor and frequency vector", "why_tests_cant": "Only one prolate molecule is tested, against the Fortran program's numbers.", "anchors": ["spectro/src/rotor.rs:coriolis", "spectro/src/alphas.rs:Spectro::alphas", "spectro/src/alphas.rs:Spectro::make_alpha"]}
{"id": "C30", "title": "Anharmonic constants are symmetric", "statement": "The matrix of anharmonic constants is exactly symmetric (x_ij and x_ji are the same number, whatever the arithmetic), for asymmetric and symmetric tops, for the first components of the modes; fundamentals computed from rows equal those computed from columns.", "quantifier": "every input to the anharmonic-constant calculation", "why_tests_cant": "Exact equality for all inputs.", "anchors": ["spectro/src/lib.rs:Spectro::xcalc", "spectro/src/xcals.rs:Spectro::xcals"]}
{"id": "C31", "title": "Asymmetric tops: resonant terms and only they are removed from the anharmonic constants", "statement": "Without resonances x_kk and x_kl are the second-order perturbation formulas with denominators 1/(wk+wl+wm), 1/(wk-wl+wm), 1/(wk+wl-wm), 1/(-wk+wl+wm). Listing a Fermi resonance changes exactly the constants of the modes involved, by removing the one fraction whose denominator is the resonant combination and nothing else; the removed denominators never appear in the result.", "quantifier": "every frequency vector with non-vanishing denominators, every cubic and quartic table, every resonance table in which at most one of the three combinations of a triple of modes is listed (proved to hold for the tables the program detects for asymmetric tops with positive frequencies)", "why_tests_cant": "An algebraic identity between a rational formula and its partial fractions for all real frequencies, in eight branches.", "anchors": ["spectro/src/lib.rs:Spectro::xcalc"]}
{"id": "C32", "title": "Zero-point constant E0: resonant terms and only they are removed", "statement": "The anharmonic zero-point constant without resonances is the textbook sum, and listing a resonance removes exactly the resonant fraction. (Violated: in the two-mode terms the remaining fraction has the wrong sign, in the three-mode terms the remaining fractions have the wrong sign and twice the weight, a second overtone resonance of a mode overwrites the first in the table consulted, and for two degenerate modes the frequencies are squared so the term has the wrong dimension.)", "quantifier": "every frequency vector with non-vanishing denominators, every cubic and quartic table", "why_tests_cant": "The identity is between rational functions for all frequencies; the tests compare with the Fortran program, which has the same terms.", "anchors": ["spectro/src/utils.rs:make_e0", "spectro/src/xcals.rs:make_e2", "spectro/src/xcals.rs:make_e3"]}
{"id": "C33", "title": "Symmetric tops: resonant terms and only they are removed from the anharmonic constants", "statement": "Same statement as for asymmetric tops for the non-degenerate, mixed and degenerate blocks. (Violated: several resonant branches keep the fraction 1/(wk+wl-wm) with the wrong sign, and the non-degenerate block uses the two-index formula for three different modes.) The branches without resonance and those with the third index resonant are right.", "quantifier": "every frequency vector with non-vanishing denominators, every cubic table", "why_tests_cant": "Only a handful of molecules, few resonances.", "anchors": ["spectro/src/xcals.rs:Spectro::nondeg_nondeg", "spectro/src/xcals.rs:Spectro::nondeg_deg", "spectro/src/xcals.rs:Spectro::deg_deg", "spectro/src/xcals.rs:Spectro::make_gcnst"]}
{"id": "C34", "title": "Symmetric tops: every mode combination contributes to E0", "statement": "The third part of the zero-point constant of a symmetric top or linear molecule contains the contribution of every pair of degenerate modes with every non-degenerate mode and of every triple of degenerate modes. (Violated: the accumulators are reset to zero inside the loops, so triples of degenerate modes never contribute and pairs contribute only for the last degenerate mode; and for linear molecules the third part is left out altogether. Exactly those terms are missing, whatever the number of degenerate modes.)", "quantifier": "every list of degenerate and non-degenerate modes, every frequency vector and cubic table", "why_tests_cant": "Needs three degenerate modes with the relevant cubic constants; the tests compare final numbers with the Fortran program.", "anchors": ["spectro/src/xcals.rs:make_e3"]}
{"id": "C35", "title": "State energies follow the anharmonic expansion", "statement": "Before resonance mixing the energy of every state is E0 + sum wi(vi+di/2) + sum_{i<=j} xij(vi+di/2)(vj+dj/2) + sum gij li lj over the modes with degeneracies di, so differences do not depend on E0: shifting E0 shifts the zero-point energy by the same amount and leaves every corrected fundamental unchanged.", "quantifier": "every mode list, state list, anharmonic matrix and E0", "why_tests_cant": "All states and all inputs.", "anchors": ["spectro/src/enrgy.rs:part1", "spectro/src/enrgy.rs:Spectro::enrgy", "spectro/src/run.rs:Spectro::finish"]}
{"id": "C36", "title": "Without Fermi resonances the corrected fundamentals are the fundamentals (asymmetric tops)", "statement": "If no Fermi resonance is listed, the list of resonance-corrected fundamentals equals the list of fundamentals, entry by entry, for an asymmetric top.", "quantifier": "every frequency vector, symmetric anharmonic matrix and E0, any number of modes", "why_tests_cant": "Identity of two differently organised sums for all inputs.", "anchors": ["spectro/src/run.rs:Spectro::finish", "spectro/src/enrgy.rs:Spectro::enrgy", "spectro/src/utils.rs:make_funds"]}
{"id": "C37", "title": "Without Fermi resonances the corrected fundamentals are the fundamentals (symmetric tops)", "statement": "Same for symmetric tops with non-degenerate and doubly degenerate modes.", "quantifier": "every mode list without triply degenerate modes and without repeated mode numbers, every frequency vector, symmetric anharmonic matrix, symmetric g matrix and E0", "why_tests_cant": "Identity of two differently organised sums for all inputs.", "anchors": ["spectro/src/run.rs:Spectro::finish", "spectro/src/enrgy.rs:Spectro::enrgy", "spectro/src/lib.rs:make_sym_funds"]}
{"id": "C38", "title": "Resonance mixing is a two-level problem", "statement": "Treating one Fermi resonance changes only the two states involved; the sum of their energies is unchanged; the product of the shifted levels changes by exactly the squared coupling; the two levels move apart (never closer), the upper one never goes down and the lower never up; with zero coupling and distinct levels nothing changes; the state that is higher before stays higher (the assignment follows the dominant component).", "quantifier": "every energy list, every pair of different states, every coupling", "why_tests_cant": "All real energies and couplings; the eigensolver is characterised by its defining equations only.", "anchors": ["spectro/src/utils.rs:rsfrm1", "spectro/src/utils.rs:rsfrm2"]}
{"id": "C39", "title": "Final energies do not depend on what the polyad step left behind", "statement": "The energies computed are a function of the frequencies, constants and resonances only: the initial contents of the energy array (zeros, or whatever the optional polyad step wrote there) never influence the result.", "quantifier": "every initial energy array of the right length and every input", "why_tests_cant": "All initial contents.", "anchors": ["spectro/src/enrgy.rs:Spectro::enrgy", "spectro/src/run.rs:Spectro::finish", "spectro/src/polyads.rs:resona"]}
{"id": "C40", "title": "Asymmetric tops: ground state and fundamentals of the rotational constants", "statement": "The vibrationally averaged constant of the ground state is the equilibrium constant plus half the sum of all vibration-rotation constants, the one of each fundamental differs from the ground state by exactly that mode's vibration-rotation constant, and one set of constants is reported for the ground state and each fundamental.", "quantifier": "every number of modes, every input", "why_tests_cant": "All sizes and inputs.", "anchors": ["spectro/src/lib.rs:Spectro::alphaa", "spectro/src/lib.rs:Spectro::rota"]}
{"id": "C41", "title": "Coriolis deperturbation of the vibration-rotation constants removes exactly the singular part", "statement": "For every pair of different frequencies the regular Coriolis term plus (wi+wj)^2/(2 wj (wi-wj)) equals the full perturbation term (3wi^2+wj^2)/(wi^2-wj^2), so listing a Coriolis resonance removes exactly the part with the vanishing denominator.", "quantifier": "every pair of frequencies with wj, wi+wj and wi-wj non-zero", "why_tests_cant": "Identity of rational functions for all frequencies.", "anchors": ["spectro/src/lib.rs:Spectro::alpha", "spectro/src/alphas.rs:Spectro::make_alpha"]}
{"id": "C42", "title": "Asymmetric tops: A, B, C are reported on the right axes", "statement": "The reported (a,b,c) of a state are the averaged constants of axes 0,1,2 plus the centrifugal correction (+16 T004, -8(sigma+1) T004, +8(sigma-1) T004), i.e. the axis permutations used on the way cancel.", "quantifier": "every input", "why_tests_cant": "All inputs; a swapped permutation entry gives plausible numbers.", "anchors": ["spectro/src/lib.rs:Spectro::rota", "spectro/src/quartic.rs:Quartic::new", "spectro/src/consts.rs:IPTOC", "spectro/src/consts.rs:ICTOP"]}
{"id": "C43", "title": "Symmetric tops: the unique constant gets the unique-axis correction", "statement": "The vibrational correction about the unique axis is added to the unique rotational constant and the perpendicular correction to the perpendicular ones. (Holds for oblate tops; violated for prolate tops, where the unique correction is added to a perpendicular constant and a perpendicular one to the unique constant.) For linear molecules the printed B is the averaged constant.", "quantifier": "every symmetric top, every state reported, every input", "why_tests_cant": "The only prolate test reproduces the Fortran program's swapped numbers.", "anchors": ["spectro/src/lib.rs:Spectro::rots", "spectro/src/output.rs:Output::fmt", "spectro/src/quartic.rs:Quartic::new"]}
{"id": "C44", "title": "Distortion tau constants: symmetry and sign", "statement": "tau(i,j,k,l) is unchanged by exchanging i with j, k with l, and the pair (i,j) with (k,l); tau(i,j,i,j) <= 0 and the Wilson DJ and the linear-molecule De are >= 0 for positive moments and non-zero frequencies; tau-prime is symmetric.", "quantifier": "every number of modes, frequency vector, moments and A matrix", "why_tests_cant": "All inputs; sign claims over the reals.", "anchors": ["spectro/src/utils.rs:make_tau", "spectro/src/utils.rs:tau_prime", "spectro/src/quartic.rs:Quartic::new"]}
{"id": "C45", "title": "Watson A and S reductions agree on the rotation about the unique axis", "statement": "DeltaJ+DeltaJK+DeltaK = DJ+DJK+DK = minus the (z,z) tau-prime over four, and the two reductions and the Nielsen constants are related by the standard expressions through T004 and T022; subtracting two constant sets subtracts every field.", "quantifier": "every asymmetric top (A reduction), every input with non-zero sigma", "why_tests_cant": "Identity for all inputs; catches any coefficient typo.", "anchors": ["spectro/src/quartic.rs:Quartic::new", "spectro/src/quartic.rs:Sub"]}
{"id": "C46", "title": "Sextic constants: both reductions sum to the same value", "statement": "PhiJ+PhiJK+PhiKJ+PhiK = HJ+HJK+HKJ+HK = the sextic coefficient of the z axis; the sextic coefficient tensor is invariant under every permutation of its three indices, before and after the axes are relabelled, and the relabelled tensor holds the same values under the new labels.", "quantifier": "every asymmetric top and every input with non-zero denominators", "why_tests_cant": "Identity for all inputs; catches any coefficient typo.", "anchors": ["spectro/src/sextic.rs:Sextic::new", "spectro/src/sextic.rs:scc", "spectro/src/sextic.rs:make_phi"]}
{"id": "C47", "title": "Axis relabelling tables are inverse permutations", "statement": "For each of the six representations the principal-to-Cartesian and Cartesian-to-principal tables are permutations of the three axes and inverse to each other.", "quantifier": "all six representations and all axes (the whole table)", "why_tests_cant": "It is a finite table, but every downstream mapping claim (rotational constants, tau, phi) rests on it for all inputs.", "anchors": ["spectro/src/consts.rs:IPTOC", "spectro/src/consts.rs:ICTOP", "spectro/src/utils.rs:princ_cart"]}
{"id": "C48", "title": "Sizes derived from the geometry", "statement": "For an N-atom molecule (N>=2) the number of vibrations is 3N-6, or 3N-5 for linear molecules, and the table sizes are the numbers of unordered pairs, triples and quadruples of vibrations (and of Cartesian coordinates), i.e. exactly the number of slots the packed indices use. With fewer than two atoms the size computation underflows.", "quantifier": "every molecule", "why_tests_cant": "All N.", "anchors": ["spectro/src/load.rs:process_geom"]}
{"id": "C49", "title": "Alignment of symmetric tops is a rigid rotation", "statement": "The extra rotation of symmetric tops puts the chosen off-axis atom on the positive x side of the xz plane (y=0, x = distance from the z axis), preserves all distances, heights and distances from the z axis, and updates the axes by the same rotation, so that coordinates in the new axes agree with rotating the old ones.", "quantifier": "every molecule, every chosen atom off the z axis", "why_tests_cant": "All real geometries.", "anchors": ["spectro/src/load.rs:process_geom"]}
{"id": "C50", "title": "Aligning degenerate modes keeps an orthonormal mode set", "statement": "Mixing two near-degenerate modes rotates the two columns by an angle and possibly flips the second: orthonormality of all columns is preserved, the plane spanned by the two columns is unchanged, columns of non-degenerate modes are untouched, and the Cartesian matrix stays the mass-scaled version of the mode matrix.", "quantifier": "every mode matrix, frequency vector and angle", "why_tests_cant": "All matrices, all angles, all sequences of pairs.", "anchors": ["spectro/src/lib.rs:Spectro::bdegnl"]}
{"id": "C51", "title": "Aligned degenerate modes lie in the intended planes", "statement": "After aligning a degenerate pair, the second mode has no x component on the reference atom (exactly none if the first mode had one, at most twice the tolerance otherwise); if both modes had no x component there, the first mode has no y component; for out-of-plane pairs the first mode has no z component; for linear molecules the x component of the first and the y component of the second mode do not have the same sign. (Violated where both x components vanish and the second y component does not: the angle is computed by dividing by the vanishing x component, and the first mode keeps its y component.)", "quantifier": "every pair of columns, every reference atom", "why_tests_cant": "Branch not reached by the tests.", "anchors": ["spectro/src/lib.rs:Spectro::bdegnl"]}
{"id": "C52", "title": "Input sections can come in any order and text outside sections is ignored", "statement": "Reading an input file gives the header numbers, atoms, weights, curvilinear coordinates and degenerate modes of the respective sections, independent of the order of the sections and of lines before the first section keyword or after an ignored section keyword; the count lines after the GEOM and WEIGHT keywords are skipped.", "quantifier": "every list of input lines", "why_tests_cant": "All files.", "anchors": ["spectro/src/load.rs:read"]}
{"id": "C53", "title": "A written input file reads back", "statement": "Writing a Spectro input and reading it back gives the same header, curvilinear coordinates, degenerate modes and atomic numbers, the same atom numbers of the weights, and the coordinates and weights rounded to the printed 8 and 6 decimals; an input already at printed precision and without dummy atoms is read back unchanged. This is for numbers that fit the columns (integers of at most four characters, non-empty lists of degenerate modes). (Violated for integers of five or more digits, whose fields run together, and for an empty list of degenerate modes, which is lost.)", "quantifier": "every input whose numbers fit the columns", "why_tests_cant": "Round-trip for all values.", "anchors": ["spectro/src/utils.rs:Display for Spectro", "spectro/src/load.rs:read", "spectro/src/lib.rs:Spectro::write"]}
{"id": "C54", "title": "Dummy atoms keep their coordinates", "statement": "A dummy atom in the input has the coordinates given for it: each coordinate is either the literal number or taken from an atom having that same coordinate on that same axis. (Violated: the lookup ignores the axis, so a coordinate equal to another axis's value of some atom is replaced by a different number.)", "quantifier": "every geometry block with dummy atoms", "why_tests_cant": "The test only compares the internal reference, not the value.", "anchors": ["spectro/src/load.rs:read", "spectro/src/dummy.rs:Dummy::get_vals"]}
{"id": "C55", "title": "Isotope weights are applied exactly when requested", "statement": "Weights from the weight section are assigned to the atoms with the given one-based numbers if and only if the second header entry is -1; the last weight given for an atom wins, atoms not mentioned keep their default; numbers outside 1..N, or a header with fewer than two entries, panic.", "quantifier": "every header, weight list and atom list", "why_tests_cant": "All lists.", "anchors": ["spectro/src/load.rs:read"]}
{"id": "C56", "title": "Irrep assignment returns one irrep per mode at the tightest working tolerance", "statement": "The irrep list has one entry per vibration (limited by the number of mode columns); each entry is the symmetry code's answer at the first of the tolerances eps, 10 eps, 100 eps, ... at which it succeeds, where the first tolerance of at least 0.1 is the last one tried, and A if it fails there too; the search always terminates for positive eps.", "quantifier": "every symmetry oracle, every eps > 0, every number of modes", "why_tests_cant": "Termination and first-success for all oracles.", "anchors": ["spectro/src/run.rs:compute_irreps_in", "spectro/src/run.rs:compute_irreps"]}
{"id": "C57", "title": "Harmonic and full runs report the same harmonic frequencies", "statement": "A harmonic-only run and a full quartic run from the same Hessian report the same irreps, mode matrices and equilibrium constants, and unless the molecule is a symmetric top the same harmonic frequencies; whenever the quartic run completes so does the harmonic one; a cubic-only derivative always panics.", "quantifier": "every Spectro input and every set of force constants", "why_tests_cant": "All inputs.", "anchors": ["spectro/src/run.rs:Spectro::run", "spectro/src/run.rs:Spectro::finish"]}
{"id": "C58", "title": "Output lists are aligned", "statement": "Harmonic frequencies, fundamentals and corrected fundamentals have the same length and entry i of each belongs to the same mode; the irrep printed beside them belongs to that mode too; the table printer never indexes past the end of a list. (Violated: the irreps are in frequency order, so for symmetric tops with degenerate modes the printed symmetry label can belong to a different mode; with triply degenerate modes the lengths differ; printing a harmonic-only result panics.)", "quantifier": "every completed run", "why_tests_cant": "All mode lists.", "anchors": ["spectro/src/run.rs:Spectro::finish", "spectro/src/output.rs:Output::fmt", "spectro/src/lib.rs:make_sym_funds"]}
{"id": "C59", "title": "Reported mode vectors are the matrix columns", "statement": "The mode matrix in the output is a list of columns: entry c of the list is the c-th mode vector, its r-th entry the r-th Cartesian component; the conversion panics exactly for matrices that are not square and for the empty matrix.", "quantifier": "every matrix", "why_tests_cant": "All sizes and indices.", "anchors": ["spectro/src/run.rs:to_vec"]}
{"id": "C60", "title": "Polyad denominators are zero exactly for deleted resonances", "statement": "The table-based inverse denominator for signs (si,sj,sk) is 1/(si wi + sj wj + sk wk) when no listed resonance matches and exactly 0 when it does; it is antisymmetric under flipping all signs and symmetric under permuting the signed indices.", "quantifier": "every frequency vector, resonance list and signed index triple", "why_tests_cant": "All sign patterns and all lists.", "anchors": ["spectro/src/polyads.rs:init_res_denom", "spectro/src/polyads.rs:Denom::denom"]}
{"id": "C61", "title": "Polyad coupling of two states is symmetric", "statement": "The coupling element between two states of a polyad is the same from either side, is zero when the states differ by more than four quanta, by more than four modes or in only one mode, and cubic couplings are included only for resonances that were deleted from perturbation theory. (The last part is violated: the direction of the changes is not looked at, so deleting 2a = b also couples the ground state to 2a + b.)", "quantifier": "every pair of states, every input for which the element is implemented", "why_tests_cant": "All states.", "anchors": ["spectro/src/polyads.rs:genrsa", "spectro/src/polyads.rs:res2a"]}
{"id": "C62", "title": "Inertia-derivative (Wilson A) vectors are the derivatives of the inertia tensor", "statement": "Up to the root mass, 2 times the accumulated sums are the first derivatives of the inertia tensor components along each normal mode; the trace relation A_xx+A_yy-A_zz = 4 sum sqrt(m) z l_z (and cyclic) holds.", "quantifier": "every geometry, masses and mode matrix", "why_tests_cant": "All inputs.", "anchors": ["spectro/src/lib.rs:Spectro::zeta"]}
{"id": "C63", "title": "Symmetric-top Darling-Dennison detection is complete", "statement": "Every pair of different modes (degenerate pairs represented by their first component) whose overtones are within the tolerance is reported as a Darling-Dennison pair. (Violated: the loop over non-degenerate modes starts at the second one, so the first non-degenerate mode is never compared with the degenerate modes. Every other pair is found.)", "quantifier": "every mode list and frequency vector of an oblate, prolate or linear top", "why_tests_cant": "All mode lists; the missing pair only shows for particular frequencies.", "anchors": ["spectro/src/rotor.rs:darling"]}
{"id": "C64", "title": "A type-2 Fermi resonance relates three different modes, listed once", "statement": "Each reported type-2 resonance names three different modes, and no triple of modes is reported in more than one order. (Proved for asymmetric tops. Violated for symmetric tops: the third index runs over all modes, so a 2:1 resonance is reported as a type-2 resonance that names one mode twice, and a resonance of three non-degenerate modes is reported in three orders.)", "quantifier": "every mode list, frequency vector and cubic table", "why_tests_cant": "All inputs; no symmetric-top test has three resonant non-degenerate modes.", "anchors": ["spectro/src/rotor.rs:fermi2"]}
{"id": "C65", "title": "Both components of a degenerate mode have the same anharmonic constants", "statement": "For a symmetric top the rows and columns of the x and g matrices belonging to the two components of a doubly degenerate mode hold the same constants, for the diagonal, mixed and degenerate blocks alike.", "quantifier": "every list of modes with distinct numbers, all force constants, frequencies and resonance lists", "why_tests_cant": "The matrices are filled in several passes that overwrite entries; the claim concerns every entry for every list of modes.", "anchors": ["spectro/src/xcals.rs:Spectro::nondeg_deg", "spectro/src/xcals.rs:Spectro::deg_deg", "spectro/src/xcals.rs:Spectro::make_gcnst"]}
{"id": "C66", "title": "Symmetric tops: resonant terms and only they are removed from the g constants", "statement": "The vibrational angular momentum constants g_kk and g_kl are the textbook sums of partial fractions, and listing a resonance removes exactly the resonant fraction. (Violated: for a listed resonance between degenerate modes the remaining fractions get the wrong sign, and off the diagonal also twice the weight.) Without listed resonances, and on the diagonal for a resonance with a non-degenerate mode, the constants are right.", "quantifier": "every list of modes with distinct numbers, every frequency vector with non-vanishing denominators, every cubic table, every resonance list", "why_tests_cant": "An identity between rational functions in many branches; the tests compare a few molecules with the Fortran program.", "anchors": ["spectro/src/xcals.rs:Spectro::make_gcnst", "spectro/src/xcals.rs:Spectro::gcnst1"]}
{"id": "C67", "title": "The zero-point energy is unaffected by Fermi resonances", "statement": "The zero-point energy reported is the energy of the ground state from the anharmonic expansion: the treatment of listed Fermi resonances never touches the ground state, because every table entry it uses points to an overtone, combination or fundamental.", "quantifier": "every mode list without repeated numbers, every list of Fermi resonances whose final mode belongs to the molecule, every eigensolver", "why_tests_cant": "All mode lists and resonance lists; a test sees one table layout.", "anchors": ["spectro/src/enrgy.rs:Spectro::enrgy", "spectro/src/utils.rs:rsfrm1", "spectro/src/utils.rs:rsfrm2", "spectro/src/resonance.rs:Restst::new"]}
{"id": "C68", "title": "Equilibrium rotational constants are inverse moments of inertia", "statement": "For every axis whose moment of inertia exceeds 0.01 the equilibrium rotational constant is positive and its product with the moment is the same fixed conversion constant; for smaller moments (the axis of a linear molecule) it is exactly zero.", "quantifier": "every triple of moments of inertia", "why_tests_cant": "The tests check a handful of molecules; the relation has to hold for every geometry, and the cutoff decides whether linear molecules divide by zero.", "anchors": ["spectro/src/load.rs:process_geom"]}
{"id": "C69", "title": "The axis adjustment of linear molecules keeps the axes orthonormal", "statement": "The adjustment of the x and y axes of linear molecules never changes the third axis, keeps orthonormal axes orthonormal, and leaves the coordinates of a molecule lying along the third axis unchanged; without the check on the third column two columns could coincide.", "quantifier": "every orthonormal axes matrix, linear or not", "why_tests_cant": "Tests cover the axis matrices that occur for their molecules; the guard has to work for every possible axes matrix.", "anchors": ["spectro/src/load.rs:process_geom"]}
{"id": "C70", "title": "Modes treated as degenerate are aligned", "statement": "Every pair of modes that the mode list treats as one doubly degenerate mode passes the test for being aligned. (Holds for linear molecules; violated for symmetric tops, whose alignment uses a cutoff of 0.05 where the mode list uses 0.1.)", "quantifier": "every frequency vector", "why_tests_cant": "The cutoffs sit in different files and only frequencies in the gap between them show the difference; no test molecule has such frequencies.", "anchors": ["spectro/src/lib.rs:Spectro::bdegnl", "spectro/src/resonance.rs:Restst::deg_modes"]}
{"id": "C71", "title": "Polyad constants do not depend on the order of equivalent modes", "statement": "The quartic resonance constants are unchanged when modes playing the same part are exchanged: the two modes of a Darling-Dennison resonance, the two modes of a 1-1 resonance through a third one, and the two singly changed modes of the resonance 2a = b + c.", "quantifier": "every set of constants with symmetric force constants and antisymmetric Coriolis constants, every resonance list and choice of modes", "why_tests_cant": "Symmetry for all inputs; the test has one molecule.", "anchors": ["spectro/src/polyads.rs:res2a"]}
{"id": "C72", "title": "The resonance matrix holds deperturbed energies and couplings", "statement": "The matrix returned by the polyad code has on its diagonal the energy of each state above the ground state, sum of w n plus x terms of pairs counted once, below the diagonal the coupling elements, and zeros above; the ground state lies at zero; with the built-in table of states, more than twelve modes or fewer than seven energies panic.", "quantifier": "every table of states, mode list and set of constants", "why_tests_cant": "All tables and constants.", "anchors": ["spectro/src/polyads.rs:resona"]}
{"id": "C73", "title": "The polyad lists both sides of every resonance once", "statement": "The rows of the polyad matrix are exactly the states 2i, j of every listed type 1 resonance and i + j, k of every listed type 2 resonance, each once, whatever the order of the hash set; a mode number past the end or an empty mode list panics.", "quantifier": "every resonance list, number of modes and iteration order", "why_tests_cant": "All lists and all hash orders; the test sorts rows of one example.", "anchors": ["spectro/src/polyads.rs:make_resin"]}
{"id": "C74", "title": "Asymmetric-top runs never panic", "statement": "For an asymmetric top with at least one vibration, whose Spectro has consistent dimensions and announces at least three derivatives in the header, the full quartic run completes, provided the eigensolver returns as many values as the matrix has rows; with fewer derivatives announced in the header every such run panics at its end.", "quantifier": "every Hessian, every cubic and quartic force field, every set of resonances arising from them, every answer of the eigensolvers and of the symmetry code", "why_tests_cant": "A panic may hide behind any combination of resonances; the tests run a handful of molecules.", "anchors": ["spectro/src/run.rs:Spectro::run", "spectro/src/run.rs:Spectro::finish", "spectro/src/enrgy.rs:enrgy"]}
{"id": "C75", "title": "Reported frequencies and displacements are the normal modes of the input Hessian", "statement": "Unless the molecule is a symmetric top, each reported harmonic frequency w with its reported displacement d solves the equations of motion in the axes of the input: c H(u, R d) = w|w| M(u, R d) for every displacement u, with H the Hessian given, M the mass-weighted scalar product, R the rotation from principal to input axes and c the unit conversion; the displacements are orthonormal in M.", "quantifier": "every symmetric Hessian, all positive masses, every orthogonal set of axes, every correct eigensolver", "why_tests_cant": "The composition of rotation, mass weighting, diagonalisation, sorting and unit conversion for all inputs.", "anchors": ["spectro/src/run.rs:Spectro::run", "spectro/src/lib.rs:Spectro::rot2nd", "spectro/src/lib.rs:form_sec", "spectro/src/lib.rs:make_lx"]}
{"id": "C76", "title": "Splitting states by degeneracy loses no quanta", "statement": "State::partition gives, for each state and in the order of the states, three vectors holding exactly its quanta in the non-degenerate, doubly and triply degenerate modes, all of the length of the state; every state built by the enumeration has as many entries as there are vibrations, so State::len never fails its assertion on them.", "quantifier": "every list of states; every mode list for which the enumeration runs", "why_tests_cant": "All state lists; triply degenerate states occur in no test.", "anchors": ["spectro/src/state.rs:State::partition", "spectro/src/state.rs:State::len", "spectro/src/resonance.rs:Restst::new"]}
{"id": "C77", "title": "Force-constant files read as their numbers and packed tables survive writing", "statement": "A force-constant file is read as the list of its whitespace-separated numbers in order, and rejected if any field is not a number. A packed table of cubic or quartic constants printed with any width and precision reads back as the same values rounded to that precision, and loading it as a tensor gives at every index tuple, in any order, the value the table holds for that tuple. The three files of a run are accepted exactly when each holds numbers only and has the right count, with or without a two-number header.", "quantifier": "all texts; all tables, widths, precisions and numbers of coordinates; any arithmetic for the tensor", "why_tests_cant": "the tests read a few fixed files; agreement of the printing order, the reading order and the packed index for every size, and rejection of every malformed file, is beyond samples", "anchors": ["spectro/src/utils.rs:load_vec", "spectro/src/f3qcm.rs:fmt", "spectro/src/f4qcm.rs:fmt", "spectro/src/load.rs:load_fc2", "spectro/src/load.rs:load_fc3", "spectro/src/load.rs:load_fc4", "spectro/src/run.rs:run_files"]}
{"id": "C78", "title": "The Gaussian listing shows every non-negligible constant of the run once", "statement": "For every saved state that finish can complete, to_gauss lists exactly the cubic and quartic constants larger than 1e-6 in absolute value, once each, with mode numbers counted from one in falling order, rows in rising order, and each line reads back as the mode numbers and the constant to twelve decimals.", "quantifier": "all saved states, any number of modes and any tables", "why_tests_cant": "needs all sizes of tables; a saved state as run produces it is never listed by a test", "anchors": ["spectro/src/run.rs:to_gauss"]}
{"id": "C79", "title": "The dump of force constants is complete", "statement": "dump_fcs prints the lower triangle of the Hessian, every normal coordinate, and every cubic and quartic constant exactly once, in rising order of indices counted from one and padded with zeros, every line reading back as its indices and its value to twelve decimals; it panics exactly when the Hessian is not square, has no more rows than there are modes, or a table is too short.", "quantifier": "all shapes, numbers of modes and tables", "why_tests_cant": "no test calls it; completeness and the exact panic condition quantify over all sizes", "anchors": ["spectro/src/run.rs:dump_fcs"]}
{"id": "C80", "title": "Asymmetric tops, from the input to the reported vibrational numbers", "statement": "A completed run of an asymmetric top reports, each exactly once, the Coriolis, Fermi and Darling-Dennison resonances of its own reported harmonic frequencies and modes and of the third derivatives it was given (thresholds 200 / 300 cm-1, 0.25, 10 cm-1); the reported fundamentals are w_i + 2 x_ii + 1/2 sum x_ij with the anharmonic constants of second-order perturbation theory computed from the reported frequencies, modes and resonances, the given derivatives taken along the modes in the axes of the input, and the rotational constants; without Fermi resonances the reported zero-point energy is the constant term of perturbation theory plus 1/2 sum w_i + 1/4 sum_{i<=j} x_ij.", "quantifier": "every asymmetric top, every symmetric set of derivatives, every eigensolver result, every completed run with non-vanishing denominators", "why_tests_cant": "The tests compare the final numbers of a dozen molecules with another program to a few decimals; a wrong array handed from one stage to the next only shows if one of them is sensitive to it.", "anchors": ["spectro/src/run.rs:Spectro::run", "spectro/src/run.rs:Spectro::finish", "spectro/src/lib.rs:Spectro::xcalc", "spectro/src/resonance.rs:Restst::new"]}
{"id": "C81", "title": "Asymmetric tops: corrected fundamentals are the two-level problems of the listed resonances", "statement": "For every mode of an asymmetric top the corrected fundamental of a completed run is the fundamental pushed, one after the other, by the overtones and combinations listed as resonant with it: each push is the exact solution of the two-level problem with the anharmonic levels 2 nu_i + 2 x_ii or nu_i + nu_j + x_ij and the matrix element phi_iik/4 or phi_ijk/(2 sqrt 2); a mode without listed resonances keeps its fundamental, and every listed resonance takes part. (The last clause is violated: of the resonances of one overtone or combination only the one with the highest mode is applied.)", "quantifier": "every asymmetric top, every completed run with non-vanishing denominators and an exact 2x2 eigensolver", "why_tests_cant": "The order of the pushes and which resonances take part only show for molecules with several resonances per mode.", "anchors": ["spectro/src/enrgy.rs:enrgy", "spectro/src/utils.rs:rsfrm1", "spectro/src/utils.rs:rsfrm2", "spectro/src/run.rs:Spectro::finish"]}
{"id": "C82", "title": "Asymmetric tops, from the input to the reported rotational numbers", "statement": "In a completed run of an asymmetric top in which no pair of modes is listed as Coriolis resonant about two axes, the reported constants of the ground state are the equilibrium constants plus half the sum of the vibration-rotation constants plus the A-reduction correction, those of the fundamental of mode k differ from it by the vibration-rotation constants of k, and these are the formula of perturbation theory for the reported frequencies, modes and Coriolis resonances; the reported quartic constants (Nielsen, A and S reduction) follow from the tau constants of the reported frequencies and modes.", "quantifier": "every asymmetric top, every symmetric set of derivatives, every completed run", "why_tests_cant": "Same as C80.", "anchors": ["spectro/src/run.rs:Spectro::finish", "spectro/src/lib.rs:Spectro::alphaa", "spectro/src/lib.rs:Spectro::rota", "spectro/src/quartic.rs:Quartic::new"]}
{"id": "C83", "title": "Symmetric tops: vibration-rotation constants are component averages, averaged constants follow from them", "statement": "For a symmetric top whose data have the symmetry of an axis of order three or more, and without Coriolis resonances, the vibration-rotation constant of a non-degenerate mode is that of the general (asymmetric-top) formula, and that of a degenerate mode is the average of the general formula over its two components, the coupling inside the mode left out; a linear molecule is the same with the moment about its axis left out. (Violated for fourfold axes: a vibration that distinguishes the two perpendicular axes contributes to degenerate modes though its contributions to the components cancel. Violated also for oblate tops that are not planar: with degenerate modes aligned to the plane of symmetry as the code aligns them, the derivative of the wrong product of inertia is taken and the constants lack exactly one term.) With Coriolis resonances the constants are explicit sums in which exactly the looked-up pairs use the regular form. The averaged rotational constants of every enumerated state are B + sum alpha (v + 1/2) over non-degenerate modes + sum alpha (v + 1) over degenerate modes, for both distinct axes (linear molecules: the perpendicular one only); hence the ground state and the fundamentals differ by exactly the mode's constant.", "quantifier": "every rotor type, list of distinct modes, set of frequencies, moments, inertia derivatives, Coriolis and cubic constants; every enumerated state", "why_tests_cant": "The reference values of symmetric tops are few and mostly threefold; a factor or component index in one of the four nearly identical loops changes small corrections only.", "anchors": ["spectro/src/alphas.rs:Spectro::alphas", "spectro/src/alphas.rs:Spectro::make_alpha"]}
{"id": "C84", "title": "The text report shows the result", "statement": "Printing the report fails only when a list of the frequency table is too short, a state of triply degenerate modes is among the rotational constants, or a resonance has no axis; no completed quartic run of an asymmetric or linear molecule with at least as many coordinates as vibrations is affected. In the report, between the titles of its parts, the frequency table has one row per mode with its number, irrep, harmonic, anharmonic and corrected frequency to one decimal under their titles, followed by the zero-point energy; the table of rotational constants has one row per state with its quanta and the constants to seven decimals under their titles (for linear molecules only B, with the equilibrium value added).", "quantifier": "every result, every geometry text without the titles, every irrep text of at most eight characters; numbers that fit the columns (frequencies -99999..999999, constants -999..9999); every completed quartic run", "why_tests_cant": "tests compare numbers of the Output structure, none looks at the printed text", "anchors": ["spectro/src/output.rs:Display for Output", "spectro/src/state.rs:Display for State", "spectro/src/rot.rs:Display for Rot"]}
{"id": "C85", "title": "Resonance lists use the mode numbers of the frequency table", "statement": "Every Coriolis, type 1 and type 2 Fermi resonance is listed in the report in its order, with the mode numbers that the frequency table gives these modes, and the letter of the axis. (Violated: the lists number modes from zero, the frequency table from one.)", "quantifier": "every report with at least one resonance and mode numbers below 100000", "why_tests_cant": "tests compare the resonance structures, not what is printed", "anchors": ["spectro/src/output.rs:Display for Output", "spectro/src/resonance.rs:Display for Axis"]}
{"id": "C86", "title": "Distortion constants are printed under their names with all their digits", "statement": "For every quartic and sextic distortion constant exactly one line of its part of the report starts with its name, and the number there is that constant; it has thirteen significant digits however small it is. (Violated for the quartic constants, printed with twelve decimals: a constant below 5e-13 is printed as zero.)", "quantifier": "every report", "why_tests_cant": "tests do not look at the printed text", "anchors": ["spectro/src/quartic.rs:Display for Quartic", "spectro/src/sextic.rs:Display for Sextic"]}
{"id": "C87", "title": "The verbose listing shows every state", "statement": "The verbose listing of vibrational states has one row per energy with its number, the energy and the energy above the first to four decimals, the kind of the state and its quanta. (Violated: it panics for every molecule with a triply degenerate mode, and it calls the states of degenerate modes non-degenerate.)", "quantifier": "every list of energies and states; energies that fit the columns; the states of every list of modes", "why_tests_cant": "the option is not used in any test", "anchors": ["spectro/src/utils.rs:print_vib_states", "spectro/src/state.rs:Display for State", "spectro/src/run.rs:Spectro::finish"]}
{"id": "C88", "title": "The equilibrium constants are printed in front of the report", "statement": "The full output is the equilibrium rotational constants to twelve decimals under their names (only B for a linear molecule), followed by the report and a blank line.", "quantifier": "every result and every three constants in -999999..9999999", "why_tests_cant": "no test calls write_output", "anchors": ["spectro/src/lib.rs:Spectro::write_output"]}
{"id": "C89", "title": "The flags of the program do what they say", "statement": "Without --json and --to-gauss the program ends its output with the report, of the run or, with --finish, of the saved state, with the dump of force constants and the listing of states in front of it as asked for; with --json it writes the JSON text and nothing else; --dump-fcs writes the dump. (Violated: with --json and --dump-fcs the dump is written in front of the JSON text; with --finish or --to-gauss the flag --dump-fcs is ignored.)", "quantifier": "every combination of flags and every outcome of the computations", "why_tests_cant": "no test runs the program", "anchors": ["spectro_bin/src/main.rs:main", "spectro/src/run.rs:Spectro::run"]}
{"id": "C90", "title": "Sextic coefficients are those of a transformed Hamiltonian", "statement": "The coefficients tau'/4 and the tensor of sextic coefficients describe the rotational Hamiltonian of the molecule after a canonical transformation that removes every quartic and sextic term odd in some component: there are generators of order three and five that take the quartic part (the tau constants) and the sextic part (second order in tau, second order in the Coriolis coupling, first order in the cubic force constants) to exactly these coefficients, without changing the rotational constants.", "quantifier": "every asymmetric top with pairwise different rotational constants, every number of modes, frequencies, inertia derivatives, Coriolis couplings and symmetric cubic force constants", "why_tests_cant": "The formula has about a hundred terms, most of which vanish in any molecule with symmetry, so test molecules do not exercise them.", "anchors": ["spectro/src/sextic.rs:scc", "spectro/src/sextic.rs:cc_tensor", "spectro/src/sextic.rs:c_mat", "spectro/src/sextic.rs:Sextic::new"]}
{"id": "C91", "title": "A-reduced quartic and sextic constants are those of a transformed Hamiltonian", "statement": "The quartic and sextic constants reported for Watson's A reduction are the coefficients of the A-reduced Hamiltonian that a canonical transformation with generators of order three and five makes of the Hamiltonian with the coefficients tau'/4 and the sextic coefficient tensor.", "quantifier": "every asymmetric top with rotational constants B and C different, every input", "why_tests_cant": "An identity of polynomials for all coefficients; a wrong coefficient shows only in molecules where its term is large.", "anchors": ["spectro/src/sextic.rs:Sextic::new", "spectro/src/quartic.rs:Quartic::new"]}
{"id": "C92", "title": "S-reduced quartic and sextic constants are those of a transformed Hamiltonian", "statement": "The quartic and sextic constants reported for Watson's S reduction are the coefficients of the S-reduced Hamiltonian that a canonical transformation with generators of order three and five makes of the Hamiltonian with the coefficients tau'/4 and the sextic coefficient tensor. The rigid rotor has the asymmetry of the rotational constants, and the difference between the z axis and the mean of the others is corrected by 10 T004.", "quantifier": "every asymmetric top with non-zero asymmetry parameter sigma and non-zero corrected difference", "why_tests_cant": "An identity of polynomials for all coefficients; a wrong coefficient shows only in molecules where its term is large.", "anchors": ["spectro/src/sextic.rs:Sextic::new", "spectro/src/quartic.rs:Quartic::new"]}
{"id": "C93", "title": "Results do not depend on the choices of the eigensolver", "statement": "The harmonic frequencies, fundamentals, corrected fundamentals, zero-point energy, rotational constants, quartic and sextic constants and resonances of an asymmetric top are the same whichever way the eigensolver orders the eigenvalues and whichever sign it gives to each eigenvector.", "quantifier": "every asymmetric top with non-degenerate frequencies and symmetric force constants, any two exact eigensolvers; for solvers that differ only in the signs of the eigenvectors also with degenerate frequencies", "why_tests_cant": "A test runs with one eigensolver, whose signs are fixed for the molecule tested.", "anchors": ["spectro/src/run.rs:run", "spectro/src/utils.rs:force3", "spectro/src/utils.rs:force4", "spectro/src/utils.rs:make_tau", "spectro/src/sextic.rs:scc", "spectro/src/utils/linalg.rs:symm_eigen_decomp"]}
{"id": "C94", "title": "Distortion constants of a whole run", "statement": "The quartic and sextic constants a run reports for Watson's A and S reductions are the coefficients of reduced forms of the rotational Hamiltonian of the molecule. This Hamiltonian is given by the input and the reported harmonic frequencies and modes: derivatives of the inertia tensor, Coriolis constants and cubic force constants along the modes. Two canonical transformations lead from it to each reduced form.", "quantifier": "every completed run of an asymmetric top whose rotational constants differ pairwise by more than 0.005 and which does not have two atoms, every force field; for the S reduction the corrected asymmetry does not vanish", "why_tests_cant": "Connects six intermediate arrays and two hundred formula terms; a test molecule with symmetry leaves most of them zero.", "anchors": ["spectro/src/run.rs:finish", "spectro/src/sextic.rs:Sextic::new", "spectro/src/quartic.rs:Quartic::new", "spectro/src/utils.rs:make_tau"]}
{"id": "C95", "title": "Distortion constants of linear and diatomic molecules", "statement": "For a linear or diatomic molecule that does not rotate about its axis (axis 2), let the rotational Hamiltonian of fourth and sixth order be computed from the frequencies, rotational constants, derivatives of the inertia tensor, Coriolis constants and cubic constants as in Spec/Sextic. If both are unchanged by rotations about the molecular axis and the derivatives that turn the axis vanish (Eckart condition), then on the plane of the two perpendicular components H4 = -De (x^2+y^2)^2 and H6 = He (x^2+y^2)^3 with the reported constants De and He. For diatomic molecules the moments and constants are in the opposite order.", "quantifier": "for every number of vibrations, all rotational constants, moments, frequencies, derivatives, Coriolis constants and cubic constants with these symmetries; linear: nfreq other than 6, diatomic: nfreq = 6 and the two perpendicular constants equal", "why_tests_cant": "Tests compare De and He with numbers for a few molecules; the agreement with the Hamiltonian is an identity in all force constants.", "anchors": ["spectro/src/quartic.rs:new", "spectro/src/sextic.rs:new", "spectro/src/sextic.rs:scc"]}
{"id": "C96", "title": "Distortion constants of symmetric tops describe their Hamiltonian", "statement": "For a symmetric top whose rotational Hamiltonian has its symmetry (a plane of symmetry that contains the unique axis, and a rotation about it), the reported quartic and sextic constants are the coefficients, in Watson's S-reduced form with the unique axis as z, of the Hamiltonian that a canonical transformation makes of the one of the molecule (tau constants; second order in tau and in the Coriolis coupling, first order in the cubic force constants). This holds although the constants of the other two axes are equal.", "quantifier": "every symmetric top, prolate or oblate, every number of modes, frequencies, inertia derivatives, Coriolis couplings and symmetric cubic force constants with the symmetry", "why_tests_cant": "The formulas are written for asymmetric tops and divide by the difference of the constants of the other two axes; a test molecule has constants that differ by rounding, and does not show what happens when they are equal or which of the tens of constants belong to another axis.", "anchors": ["spectro/src/quartic.rs:Quartic::new", "spectro/src/sextic.rs:Sextic::new", "spectro/src/sextic.rs:scc", "spectro/src/utils.rs:make_tau"]}
{"id": "C97", "title": "Results do not depend on the orientation of the input frame", "statement": "A run whose principal axes and force constants are given in a turned coordinate system returns the same output, in every field, as the run in the original one.", "quantifier": "every rotor, every eigensolver and symmetry oracle, every number of atoms, harmonic and quartic runs, every change of coordinates of the principal axes under which the energies of corresponding displacements agree", "why_tests_cant": "A test has its force constants in one frame; that all three rotations of the force constants use the axes in the same sense shows only when the frame is turned.", "anchors": ["spectro/src/run.rs:run", "spectro/src/lib.rs:Spectro::rot2nd", "spectro/src/lib.rs:Spectro::rot3rd", "spectro/src/lib.rs:Spectro::rot4th"]}
{"id": "C98", "title": "Results depend only on the molecule", "statement": "Two inputs that describe the same asymmetric top, in differently turned coordinate systems, with the atoms in another order and with principal axes that point in other directions, lead to the same harmonic frequencies, fundamentals, corrected fundamentals, zero-point energy, rotational constants, quartic and sextic constants and resonances, whichever exact eigensolver each of them uses. The moments of inertia and the rotational constants are the same in both.", "quantifier": "every asymmetric top with non-degenerate frequencies and symmetric force constants, every change of coordinates, order of the atoms and direction of the axes, any two exact eigensolvers", "why_tests_cant": "A test gives each molecule in one order and one frame; the direction of an axis is chosen by the eigensolver of the inertia tensor and enters the Coriolis constants, the inertia derivatives and the tensors of the sextic constants with different signs.", "anchors": ["spectro/src/run.rs:run", "spectro/src/utils.rs:force3", "spectro/src/utils.rs:force4", "spectro/src/utils.rs:make_tau", "spectro/src/sextic.rs:scc", "spectro/src/sextic.rs:Sextic::new"]}
{"id": "C99", "title": "Runs of symmetric tops, linear and diatomic molecules complete", "statement": "A run from second, third and fourth derivatives of a symmetric top, a linear or a diatomic molecule completes without a panic. For diatomic molecules it always does. For the others, when near-degenerate modes come in separate pairs, it completes exactly when in each pair that is aligned the reference atom moves (and, unless the molecule is linear, an equivalent atom is known), whatever force constants and resonances there are.", "quantifier": "all symmetric tops, linear and diatomic molecules with at least one vibration, all force constants, all answers of the eigensolver and of the symmetry code, all resonances", "why_tests_cant": "The panics depend on which atom is listed first, on accidental degeneracies and on the eigenvectors chosen inside a degenerate pair; tests run a few well-behaved molecules.", "anchors": ["spectro/src/run.rs:run", "spectro/src/run.rs:finish", "spectro/src/lib.rs:bdegnl", "spectro/src/resonance.rs:new", "spectro/src/enrgy.rs:enrgy", "spectro/src/xcals.rs:xcals"]}
{"id": "C100", "title": "Results of symmetric tops and linear molecules do not depend on the choices of the eigensolver", "statement": "For a symmetric top or a linear molecule whose modes, when close enough to be aligned, have equal frequencies, the reported displacements are normal modes: they solve the equations of motion given by the Hessian with the reported frequencies and are orthonormal with respect to the masses. Reversing displacements (both components of a degenerate pair together) changes no reported number. If the frequencies are at most twofold and otherwise well apart, any two eigensolvers that solve the secular equations exactly - whatever vectors they choose inside a twofold eigenspace - lead to the same harmonic and fundamental frequencies, zero-point energy, rotational and distortion constants, provided the reference atom moves along x in the first component of each pair but not in the second after the alignment, and the rule fixing the relative sign of the components is decisive.", "quantifier": "all symmetric tops and linear molecules, all symmetric Hessians and force constants, all pairs of exact eigensolvers, all twofold degeneracies meeting the stated conditions", "why_tests_cant": "Each test runs one eigensolver, which always picks the same vectors inside a degenerate eigenspace; a rotation of the pair that leaks into the results would never show.", "anchors": ["spectro/src/lib.rs:bdegnl", "spectro/src/lib.rs:make_lx", "spectro/src/run.rs:run", "spectro/src/run.rs:finish", "spectro/src/xcals.rs:xcals", "spectro/src/alphas.rs:alphas"]}
{"id": "C101", "title": "Finite force constants give finite results", "statement": "For an asymmetric top with positive frequencies and rotational constants, a run whose input consists of finite numbers reports finite numbers only: no division by a vanishing denominator puts an infinity or NaN into the fundamental frequencies, the zero-point energy, the rotational or the distortion constants. In particular exact Fermi and Coriolis resonances do not.", "quantifier": "all asymmetric tops, all finite second, third and fourth derivatives, all answers of the eigensolver, all resonances, arithmetic with the infinities and NaN of IEEE 754", "why_tests_cant": "Denominators vanish only for exact coincidences of frequencies (equal, double, sum), which random or fitted test inputs do not contain, and a NaN that arises passes silently through every later step.", "anchors": ["spectro/src/run.rs:run", "spectro/src/run.rs:finish", "spectro/src/lib.rs:xcalc", "spectro/src/lib.rs:alpha", "spectro/src/lib.rs:alphaa", "spectro/src/resonance.rs:new", "spectro/src/sextic.rs:new"]}
{"id": "C102", "title": "Reported frequencies are second-order energies of the vibrational Schr\u00f6dinger equation", "statement": "Take the vibrational Hamiltonian of the molecule in its normal coordinates: harmonic oscillators with the reported frequencies, first-order perturbation the cubic potential, second-order perturbation the quartic potential plus the rotational energy of the vibrational angular momentum. For an asymmetric top without Fermi resonances, the fundamental frequency the program reports for a mode is the difference between the energies, to second order of perturbation theory, of the state with one quantum in that mode and the ground state; and for any number of quanta in each mode, the anharmonic constants and the constant term computed by xcalc give the energy of the state, except for one term that is the same for all states (-1/2 sum over axes of B times the squared Coriolis constants of all pairs). The reported zero-point energy is the energy of the ground state without that term. The energies are those of the Schr\u00f6dinger equation itself, not of a formula from the literature: a wave function and an energy that satisfy it order by order.", "quantifier": "all numbers of modes, all frequencies without exact resonance of three, all symmetric cubic and quartic constants, all antisymmetric Coriolis constants, all rotational constants, all numbers of quanta; all completed runs of asymmetric tops without Fermi resonances", "why_tests_cant": "Tests compare with reference output of another program that uses the same formulas; whether the formulas solve the Schr\u00f6dinger equation for every force field and state is not a matter of examples.", "anchors": ["spectro/src/lib.rs:xcalc", "spectro/src/utils.rs:make_e0", "spectro/src/run.rs:finish", "spectro/src/utils.rs:make_funds"]}
{"id": "C103", "title": "Reported rotational and distortion constants are second-order energies of the rotating molecule", "statement": "Take Watson's Hamiltonian of the vibrating and rotating molecule in its normal coordinates, with the components of the total angular momentum J as numbers: harmonic oscillators; in first order the cubic potential, the part of the rotational energy linear in the coordinates and the coupling of J to the vibrational angular momentum; in second order the quartic potential, the rotational energy of the vibrational angular momentum, the rigid rotational energy, its part quadratic in the coordinates and the linear part of the coupling. For every vibrational state and every J, the energy to second order is the vibrational energy of C102, plus a quadratic form in J with the diagonal B_a plus the sum of alpha (n + 1/2) with the alpha of the code, plus a quarter of the sum of the code's tau times four components of J. In a run of an asymmetric top without Coriolis resonances the rotational constants reported for the state with one quantum in a mode differ from those of the ground state by what this energy gives for the two states. The only differences are two constants which the code rounds, 0.086112 for 1/sqrt(8 kappa) and 38333.84078 for 8 kappa^3, where kappa is the constant with B = kappa / I; they are within 2e-6 and 0.03 percent.", "quantifier": "all numbers of modes, all different positive frequencies without exact resonance of three, all moments of inertia, all derivatives of the inertia tensor, all symmetric cubic and quartic and antisymmetric Coriolis constants, all numbers of quanta, all angular momenta; all completed runs of asymmetric tops without Coriolis resonances", "why_tests_cant": "The vibration-rotation and distortion constants are sums of several terms with factors and signs from the literature; tests compare them with another program that has the same formulas and the same rounded constants for a few molecules.", "anchors": ["spectro/src/lib.rs:alpha", "spectro/src/utils.rs:make_tau", "spectro/src/lib.rs:xcalc", "spectro/src/lib.rs:rota"]}
{"id": "C104", "title": "Fermi resonances: reported frequencies are levels of the effective Hamiltonian of the two resonating states", "statement": "In an asymmetric top with Fermi resonances, let no mode be listed as resonating with its own overtone (C23) and let no exact resonance be missing from the lists. (1) The fundamental the program reports before resonance corrections is, to second order of perturbation theory, the energy of the state with one quantum in the mode, for the vibrational Hamiltonian without exactly those terms of the cubic potential that turn a quantum of the one resonance partner into the quanta of the other, less the energy of the ground state; likewise the anharmonic constants computed with the lists give the energy of every state relative to the ground state. (2) If a fundamental resonates with one overtone or combination, neither takes part in another resonance, and no third state has the same harmonic energy, the corrected fundamental is an eigenvalue of the effective Hamiltonian of the two states, less the energy of the ground state. The effective Hamiltonian is that of the complete vibrational Hamiltonian, to second order, on the plane of wave functions that grows out of the two states. The eigenvalue is the lower one if the fundamental does not lie above its partner, otherwise the upper one.", "quantifier": "all numbers of modes, all positive frequencies, all symmetric cubic and quartic and antisymmetric Coriolis constants, all rotational constants, all lists of resonances and all numbers of quanta; all completed runs of asymmetric tops under the stated conditions", "why_tests_cant": "The treatment of a resonance changes denominators in some places and adds a two-by-two matrix in another; that both fit together, with the right matrix element and without counting a term twice or not at all, shows only for force fields with resonances, and a comparison with another program of the same formulas cannot show it at all.", "anchors": ["spectro/src/lib.rs:xcalc", "spectro/src/utils.rs:make_funds", "spectro/src/utils.rs:rsfrm1", "spectro/src/utils.rs:rsfrm2", "spectro/src/run.rs:finish"]}
{"id": "C105", "title": "Symmetric tops: reported fundamentals come out of the vibrational Schr\u00f6dinger equation", "statement": "Let a symmetric top or linear molecule have no listed Fermi resonances and no exact resonance, and let its frequencies, its cubic, quartic and Coriolis constants and its rotational constants have a threefold axis and, in addition, a half-turn about a perpendicular axis or a mirror plane through the threefold axis. Then the fundamentals the program reports are, to second order of perturbation theory for the complete vibrational Hamiltonian in all normal coordinates, the differences between the energies of the states with one quantum and that of the ground state: first one for each non-degenerate mode, then one for each degenerate mode, the same for both of its components. The formulas for degenerate modes, which use only the first component of each pair and the g constants, therefore lose nothing. The states with one quantum in a degenerate mode have such energies: the two components do not mix.", "quantifier": "all numbers of non-degenerate and degenerate modes, all positive frequencies, all force constants, Coriolis constants and rotational constants with the symmetry; all completed runs of symmetric tops and linear molecules whose normal modes have it", "why_tests_cant": "The formulas for symmetric tops replace sums over all modes by sums over first components with other factors; whether this is right for every combination of modes shows only when the couplings in question are present, and the couplings of the usual test molecules are few. A comparison with another program of the same formulas shows nothing.", "anchors": ["spectro/src/xcals.rs:xcals", "spectro/src/xcals.rs:nondeg_nondeg", "spectro/src/xcals.rs:nondeg_deg", "spectro/src/xcals.rs:deg_deg", "spectro/src/xcals.rs:make_gcnst", "spectro/src/lib.rs:make_sym_funds", "spectro/src/run.rs:finish"]}
{"id": "C106", "title": "Molecules with a threefold axis: the symmetry of the geometry and of the force constants reaches the fundamentals", "statement": "Let a molecule have a threefold axis along its third principal axis, and a mirror plane through it or a perpendicular half-turn: operations which bring every atom to the place of an atom of the same mass and leave the force constants of second, third and fourth order, in the axes of the input, as they are. Let the eigensolver solve the equations of motion, with any choice of vectors in a twofold eigenspace; let the frequencies be at most twofold, equal if they are close, and not accidentally so; and let the reference atom for the alignment of the pairs lie on the mirror plane or the axis of the half-turn and move in one component of each pair only. Then the normal modes of a run carry the symmetry: a third of a turn leaves every non-degenerate mode as it is and turns the two components of every pair by a third of a turn in one sense or the other, the flip takes every mode to itself or its negative, to itself for first components and to its negative for second ones; the frequencies, cubic, quartic and Coriolis constants of the run have the symmetry that C105 asks for. Without Fermi resonances the reported fundamentals are therefore, to second order of perturbation theory, the differences between the energies of the states with one quantum and that of the ground state.", "quantifier": "all numbers of atoms, all positions and masses with the symmetry, all force constants with the symmetry in any axes, all eigensolvers that solve the equations of motion; all completed runs of symmetric tops", "why_tests_cant": "That the modes which the program aligns are the symmetry-adapted ones depends on the geometry, on the choice of the reference atom and on the eigensolver; a test checks one geometry and one solver, and shows the final numbers only.", "anchors": ["spectro/src/run.rs:run", "spectro/src/run.rs:finish", "spectro/src/lib.rs:bdegnl", "spectro/src/lib.rs:make_lx", "spectro/src/lib.rs:zeta", "spectro/src/lib.rs:rot2nd", "spectro/src/xcals.rs:setup_xcals", "spectro/src/xcals.rs:xcals", "spectro/src/lib.rs:make_sym_funds"]}
{"id": "C107", "title": "Rounding errors of anharmonic constants and fundamentals of asymmetric tops stay in proportion to the terms", "statement": "Let every arithmetic operation of the calculation of the anharmonic constants and fundamentals of an asymmetric top be rounded with relative error at most u, as those of double precision are with u = 2^-53 when nothing overflows or underflows. Let the frequencies be positive, and let no combination w_k + w_l - w_m of them that is not listed as a Fermi resonance be closer to zero than the \u03ba-th part of w_k + w_l + w_m. Then each anharmonic constant differs from that of exact second-order perturbation theory for the same frequencies, force constants, Coriolis and rotational constants by at most (2 n + 32 + 48 \u03ba) u times the sum of the absolute values of the terms of its formula, and each fundamental by at most (4 n + 36 + 48 \u03ba) u times the sum of the absolute values of its terms, where n is the number of modes and (2 n + 18 + 24 \u03ba) u \u2264 1/2. Without Fermi resonances the same bound holds for the difference between the computed fundamental and the difference of the energies of the vibrational Hamiltonian to second order of perturbation theory. It holds for the fundamentals which a whole run in rounded arithmetic reports, with respect to the frequencies and constants that run has computed. Rounding to nearest with p binary digits has u = 2^-p.", "quantifier": "all numbers of modes, frequencies, force constants, Coriolis constants, rotational constants and lists of resonances with at most one entry per combination of three modes; all roundings with relative error u; all \u03ba \u2265 1; all runs of asymmetric tops in which the eigensolver is arbitrary", "why_tests_cant": "Tests compare with reference values to some digits for a few molecules. They cannot show that cancellation in the denominators never magnifies rounding errors beyond a bound for the next molecule.", "anchors": ["spectro/src/lib.rs:xcalc", "spectro/src/utils.rs:make_funds", "spectro/src/run.rs:finish"]}
{"id": "C108", "title": "Polyad couplings are the matrix elements of perturbation theory", "statement": "The interaction that the polyad code puts between two states of the oscillators is the matrix element of the vibrational Hamiltonian between them, divided by the norms of the states, for every scalar product of wave functions in which the coordinates are symmetric and the slopes antisymmetric. For a listed Fermi resonance of either type it is the matrix element of the cubic potential. For states that differ by two quanta in one mode against two in another, by two against one in each of two others, or by one against one, it is the mean of the two matrix elements of second order: the quartic potential, the Coriolis term, and the cubic potential acting on the first-order change of the one or the other state, from which the states in a listed resonance are left out. Without resonances and for two states which share no energy with a third, the interaction is the off-diagonal element of the effective Hamiltonian, to second order, of the space that the two states span.", "quantifier": "all numbers of modes, positive frequencies with no resonances but the listed ones, symmetric force constants, antisymmetric Coriolis constants, rotational constants, lists of resonances, all pairs of states of the given difference with any numbers of quanta, and all scalar products", "why_tests_cant": "A test of a polyad compares the eigenvalues with those of another program for a few molecules; it cannot show that square roots, signs and denominators in eight branches are right for all numbers of quanta, nor that a listed resonance is left out of every intermediate state and of no other.", "anchors": ["spectro/src/polyads.rs:genrsa", "spectro/src/polyads.rs:res2a", "spectro/src/polyads.rs:init_res_denom"]}
{"id": "C109", "title": "Symmetric tops: the reported zero-point energy comes out of the vibrational Schr\u00f6dinger equation", "statement": "Let a symmetric top or linear molecule be as in C105: no listed Fermi resonances, no exact resonance, and a threefold axis with a perpendicular half-turn or a mirror plane. Then the zero-point energy the program reports is, to second order of perturbation theory for the complete vibrational Hamiltonian in all normal coordinates, the energy of the ground state, but for a multiple of the squares of the Coriolis constants: \u00bd \u03a3_a B_a \u03a3_{l<k} \u03b6_kl\u00b2, where the two components of a degenerate mode do not count as a pair. (Holds for at most two degenerate modes, or one for linear molecules; violated for linear molecules with two degenerate modes, like acetylene, and for three or more degenerate modes, because of C34; in every case the difference is that Coriolis term and the terms missing by C34.)", "quantifier": "all numbers of non-degenerate modes, all positive frequencies, all force constants, Coriolis constants and rotational constants with the symmetry; all completed runs of symmetric tops and linear molecules whose normal modes have it", "why_tests_cant": "The zero-point constant enters no fundamental, so that errors in it show in no comparison with spectra; the terms concerned are small and need two or more degenerate modes which are coupled with each other.", "anchors": ["spectro/src/xcals.rs:make_e0", "spectro/src/xcals.rs:make_e2", "spectro/src/xcals.rs:make_e3", "spectro/src/xcals.rs:xcals", "spectro/src/enrgy.rs:enrgy", "spectro/src/run.rs:finish"]}
{"id": "C110", "title": "The rotational constants of symmetric tops are those of the Schr\u00f6dinger equation", "statement": "For a symmetric top the rotational constants reported for a state (ground state, fundamentals, overtones and combinations as enumerated; unique axis and perpendicular axis) are the coefficients of j\u00b2 in the energy which angular momentum j about the axis adds to the state, in second-order perturbation theory of Watson's Hamiltonian with the anharmonic force field. A degenerate mode has two components: about a perpendicular axis the reported value is the mean over the two states that the code lists as one; about the unique axis the states with definite energies are |k> \u00b1 i|k2>, split in first order by 2B\u03b6j, and the reported value is their second-order coefficient. A linear molecule has one reported constant, for the perpendicular axis, which is related in the same way to Watson's Hamiltonian of a linear molecule. The coefficient of j\u2074 is a quarter of the distortion constant \u03c4. The same holds for the constants a whole run prints, computed from Cartesian force constants, masses and geometry: for a linear molecule the printed constant itself, for an oblate top the differences between the constants of any two reported states. It also holds for a molecule given by geometry, masses and an invariant force field: if the molecule has a three-fold axis and a mirror plane through it or a half-turn across it, then the normal modes, Coriolis constants, inertia derivatives and force constants that a run computes have the symmetry used above.", "quantifier": "all linear molecules and symmetric tops, all lists of modes, all positive frequencies where only the components of a degenerate mode coincide and no exact resonance of three occurs, all moments of inertia, inertia derivatives, Coriolis, cubic and quartic constants with the symmetry of the axis of a linear molecule, or of a three-fold or six-fold axis and a plane through it, all enumerated states, all angular momenta", "why_tests_cant": "the claim relates the computed numbers to solutions of a differential equation for every molecule; tests compare a few molecules with another program using the same formulas, and the averages over components cannot be seen in the output", "anchors": ["spectro/src/alphas.rs:Spectro::alphas", "spectro/src/alphas.rs:Spectro::make_alpha", "spectro/src/utils.rs:make_tau"]}
{"id": "C111", "title": "The polyad feature changes no reported number", "statement": "Compiled with the cargo feature polyad, a run reports exactly what it reports without the feature, although resona writes into the array of energies; the only difference is that a molecule which is not a symmetric top panics unless it has between three and twelve vibrations, because the table of polyad states is written into the code for twelve vibrations. The element between two states is unimplemented exactly if they are four quanta apart, in at least two modes, and either differ in four modes or in the total number of quanta. Harmonic runs are the same with and without the feature, and cubic runs panic in both.", "quantifier": "every input molecule and force field, every behaviour of the eigensolver, every pair of states, every arithmetic", "why_tests_cant": "the feature is off by default and its only test uses one molecule with twelve vibrations; that the written energies are always overwritten, and that no combination of rows of the table is unimplemented when cut to fewer modes, needs all cases", "anchors": ["spectro/src/run.rs:Spectro::finish", "spectro/src/polyads.rs:resona", "spectro/src/polyads.rs:genrsa"]}
{"id": "C112", "title": "Listings of states tell the states apart", "statement": "The text printed for a list of states determines the list: no two different lists of states have the same listing. (Holds for all lists of states of doubly degenerate modes, and for states of non-degenerate modes with the same number of modes and less than 100000 quanta in each; violated for states of different lengths, between which nothing is printed, and for larger numbers of quanta.)", "quantifier": "all lists of states of any number, lengths and quanta", "why_tests_cant": "Tests print the listings only when they fail; a finite number of listings cannot show that no two coincide.", "anchors": ["spectro/src/state.rs:I1states", "spectro/src/state.rs:I2states", "spectro/src/state.rs:fmt"]}
{"id": "C113", "title": "Rounding errors of Coriolis constants and derivatives of the inertia tensor stay in proportion to the terms", "statement": "Let every arithmetic operation be rounded with relative error at most u, as in double precision with u = 2^-53 when nothing overflows or underflows, and let (N + 8) u <= 1/2 for N atoms. Then each Coriolis constant computed from a mode matrix differs from the exact value of the angular-momentum form on the two columns by at most 2 (N + 2) u times the sum of the absolute values of the products in it, hence by at most 2 (N + 2) u if the two columns are normalised. Each component of the derivative of the inertia tensor along a mode differs from its exact value by at most 2 (N + 6) u times the sum of the absolute values of its terms; the exact value is the derivative of the inertia tensor if the masses are positive and the displacement carries no angular momentum.", "quantifier": "all numbers of atoms and modes, mode matrices, geometries, masses, components, and all rounding functions of relative error at most u", "why_tests_cant": "Tests compare a few molecules to a tolerance; they do not bound the error for all matrices and all rounding behaviours.", "anchors": ["spectro/src/lib.rs:make_zmat", "spectro/src/lib.rs:Spectro::zeta"]}
{"id": "C114", "title": "Rounding errors of vibrationally averaged rotational constants of asymmetric tops stay in proportion to the terms", "statement": "Let every arithmetic operation, including x^(3/2), be rounded with relative error at most u. Let the frequencies be positive, no pair of modes be listed as Coriolis resonant about two axes, and let the squares of two frequencies whose modes are not listed as resonant about the axis in question differ by at least the \u03ba-th part of their sum. Then each vibration-rotation constant of n modes differs from that of perturbation theory, for the same frequencies, moments of inertia, inertia derivatives, rotational, Coriolis and cubic constants, by at most (2 n + 34 + 16 \u03ba) u times the sum of the absolute values of the terms of its formula, if (n + 17 + 8 \u03ba) u <= 1/2. The rotational constant of a vibrational state differs from B + sum of alpha_k (v_k + 1/2) by at most (4 n + 42 + 16 \u03ba) u times the sum of the absolute values of its terms, if (2 n + 21 + 8 \u03ba) u <= 1/2. In a whole run of an asymmetric top every rotational constant that is reported, for the ground state and each fundamental, differs from the computed constant of the reduced Hamiltonian at equilibrium plus the sum of alpha_k (v_k + 1/2), for the computed frequencies, force constants, Coriolis constants and inertia derivatives, by at most (4 n + 46 + 16 \u03ba) u times the sum of the absolute values of the terms, B counted twice, if (2 n + 23 + 8 \u03ba) u <= 1/2.", "quantifier": "all numbers of modes, frequencies, constants, resonance lists, states and rounding functions of relative error at most u that meet the hypotheses", "why_tests_cant": "Tests compare a few molecules to a tolerance; they bound no error for near-resonant frequencies or other rounding behaviours.", "anchors": ["spectro/src/lib.rs:Spectro::alpha", "spectro/src/lib.rs:Spectro::alphaa", "spectro/src/lib.rs:Spectro::rota"]}
{"id": "C115", "title": "Rounding errors of the distortion constants tau stay in proportion to the terms", "statement": "Let every arithmetic operation be rounded with relative error at most u, and let (n + 14) u <= 1/2 for n modes. Then tau_ijkl computed from inertia derivatives, frequencies and moments of inertia differs from -K/2 sum_v A_ij A_kl / (w_v^2 I_i I_j I_k I_l), K = 38333.84078, by at most 2 (n + 11) u times the sum of the absolute values of the terms; tau_ijij, whose terms have one sign, has a relative error of at most 2 (n + 11) u; and tau'_ij = tau_iijj + 2 tau_ijij has an error of at most 2 (n + 14) u times the sum of the absolute values of its terms. For asymmetric tops the five quartic distortion constants and the three rotational constants of the A reduction differ from their formulas, for the same inertia derivatives, frequencies, moments of inertia and rotational constants, by at most 2 (n + 32) u times the sum of the absolute values of their terms, if (n + 32) u <= 1/2. If moreover 2|A| + |B| + |C| <= k |2A - B - C| with 2A different from B + C, the five constants and the three rotational constants of the S reduction differ from their formulas by at most 2 (n + 28 + 8k) u times the sum of the absolute values of their terms, if (n + 28 + 8k) u <= 1/2. The centrifugal distortion constant of linear and diatomic molecules has a relative error of at most 2 (n + 13) u.", "quantifier": "all numbers of modes, frequencies, moments, inertia derivatives, indices, and all rounding functions of relative error at most u", "why_tests_cant": "Tests compare the constants of a few molecules to a tolerance; they bound no error for all inputs.", "anchors": ["spectro/src/utils.rs:make_tau", "spectro/src/utils.rs:tau_prime", "spectro/src/quartic.rs:Quartic::new"]}
{"id": "C116", "title": "Rounding errors of the energies of vibrational states stay in proportion to the terms", "statement": "Let every arithmetic operation be rounded with relative error at most u, let K be the number of modes, degenerate pairs counted once, and (K^2 + 13) u <= 1/2. Then the energy which every state gets before resonances are treated differs from E0 + sum w (v + d/2) + sum x (v + d/2)(v' + d'/2) + sum g l l' for the same frequencies and symmetric anharmonic constants by at most 2 (K^2 + 13) u times the same expression with all frequencies and constants replaced by their absolute values.", "quantifier": "all mode lists, frequencies, constants, state lists of every molecule, and all rounding functions of relative error at most u", "why_tests_cant": "Tests compare the energies of a few molecules to a tolerance; they bound no error for all states and inputs.", "anchors": ["spectro/src/enrgy.rs:part1"]}
{"id": "C117", "title": "Rounding errors of reported energy levels of asymmetric tops stay in proportion to the terms", "statement": "Let every arithmetic operation be rounded with relative error at most u, and let every denominator w_k +- w_l +- w_m of three frequencies be at least (w_k + w_l + w_m) / kappa in size. For asymmetric tops without Fermi resonances and with n modes: the zero-point constant differs from its exact formula by at most 2 (n^3 + 13 + 24 kappa) u times the sum of the sizes of the terms of that formula; every state energy computed from the frequencies, force constants and Coriolis constants differs from the energy of second-order perturbation theory (plus a constant common to all states) by at most 2 (n^3 + n^2 + n + 28 + 24 kappa) u times the sum of the sizes of its terms; and in a whole run the reported zero-point energy and every corrected fundamental differ from the formula, evaluated for the computed frequencies, force constants and Coriolis constants, by at most 2 (n^3 + n^2 + n + 29 + 24 kappa) u times the sizes, whatever the solver of two-level problems returns.", "quantifier": "all numbers of modes, all frequencies with denominators kept away from zero, all force constants, Coriolis constants and rotational constants, and all rounding functions of relative error at most u", "why_tests_cant": "Tests compare energies of a few molecules to a tolerance; they bound no error for all inputs.", "anchors": ["spectro/src/utils.rs:make_e0", "spectro/src/lib.rs:xcalc", "spectro/src/enrgy.rs:part1", "spectro/src/run.rs:finish"]}
{"id": "C118", "title": "The comparisons used by the tests look at every constant", "statement": "Comparing two sets of quartic constants, of sextic constants or two lines of rotational constants with a tolerance succeeds exactly if every constant differs by at most the tolerance (and, for rotational constants, the states are the same). No constant is left out: sets that agree in all the constants compared are equal. The difference of two sets of quartic constants is taken constant by constant. A constant that is not a number is never accepted, on either side and with any tolerance.", "quantifier": "all sets of constants, all tolerances, and not-a-number in any field", "why_tests_cant": "The comparisons are themselves part of the test suite; a field left out of them or compared with the wrong field makes tests pass that should fail, and no test checks them.", "anchors": ["spectro/src/quartic.rs:abs_diff_eq", "spectro/src/quartic.rs:sub", "spectro/src/sextic.rs:abs_diff_eq", "spectro/src/rot.rs:abs_diff_eq"]}

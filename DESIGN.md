# Design

Model of [ntBre/spectro] (sources in `/repo`) in Lean 4 + Mathlib, and proofs of the
properties in `properties.jsonl`.

## Trusted base

* Lean 4.33.0's kernel.
* Axioms: every theorem depends on a subset of Lean's three standard axioms
  `propext`, `Classical.choice`, `Quot.sound`. No axiom is added, no `sorry`, no
  `native_decide`, no `bv_decide`.
* The reading of the Rust source: the definitions in `lean/Verif/Model` follow the
  source function by function (each carries file and lines) but nothing connects
  them to the Rust compiler mechanically.

## How the code is modelled

* **Arithmetic.** `f64` is an abstract type `α` with operations (`+ - * / neg`, `sqrt`,
  `abs`, `powf 1.5`, `atan`, `sin`, `cos`, literals, boolean comparisons) and *no laws*
  (`Verif/Arith.lean`). Structural results – which slot is read, which value is written last,
  exact symmetry, which states and resonances are listed – are proved for this lawless
  arithmetic and so hold for IEEE doubles as well. Algebraic results (identities, signs,
  bounds, rotations) are proved for the instance `α = ℝ`; rounding is modelled in C107 and C113 to C117 only.
* **Arrays.** Vectors and matrices that are only indexed inside loops over their own
  dimensions are functions `Nat → α`, `Nat → Nat → α`; where an out-of-bounds access is
  possible and matters (state tables, headers, weights, packed tables), lists with an
  explicit error are used.
* **Panics** (`unwrap`, `panic!`, `todo!`, index out of bounds, `usize` underflow in a debug
  build) are explicit error values where a property mentions them.
* **Loops** are folds over `List.range`, in the order of the source; `&mut` arguments are
  returned.
* **Text.** Files are lists of lines, lines are lists of characters; `split_whitespace`,
  `trim`, `parse` and the fixed-width `Display` of numbers are modelled on characters.
  Numbers read from or written to text are exact rationals (`ℚ`); the conversion between
  decimal text and `f64` is assumed exact, rounding to the printed decimals is to the
  nearest with ties to even.
* **Not modelled (parameters or out of scope):** the eigensolver (`nalgebra`
  `SymmetricEigen`) is an arbitrary function, constrained by its defining equations
  where a theorem says so (`eigen_exists` shows that the constraint can be met); the crates
  `symm` (unit conversion, centre of mass, principal axes, point groups, irreps, matching of
  atoms) and `tensor`; overflow, underflow and NaN (except in the
  properties about `Ext`), rounding except in C107 and C113 to C117; serde/JSON; file
  system; command line. The assumptions about those crates are: `Rotor::is_sym_top` is
  true for linear, spherical, oblate and prolate tops and false for diatomics and
  asymmetric tops; `nalgebra::from_iterator` and `as_slice` are column major and
  `from_row_slice` row major; `tensor` stores what is written at an index triple.
* `usize` is an unbounded natural number: overflow of `usize` is not modelled, underflow is.

### Which files are modelled

| source | model | left out |
|---|---|---|
| `f3qcm.rs`, `f4qcm.rs` | `Index`, `Files` (Display) | conversions to `nalgebra` vectors |
| `utils.rs` | `Index`, `Normal`, `Mode`, `Energy`, `Input`, `Xcalc`, `Quartic`, `Files`, `Print` | – |
| `utils/linalg.rs` | `Normal` | the eigensolver |
| `load.rs`, `dummy.rs` | `Geom`, `Input`, `Load`, `Files` | opening files, `symm` |
| `lib.rs`, `consts.rs` | `Rotate`, `Normal`, `Geom`, `Align`, `Alpha`, `Fermi`, `Quartic`, `Xcalc`, `Xcals`, `Run`, `Input`, `Print`, `Listing` (`nocurvil`) | serde |
| `run.rs` | `Run`, `PolyadRun`, `Energy`, `Files` (listings), `Print`, `Main` | serde; `run` is the default build, `PolyadRun` the build with the cargo feature `polyad` |
| `mode.rs`, `rotor.rs` | `Mode`, `Resonance` | – |
| `state.rs` | `State`, `Print`, `Listing` | – |
| `resonance.rs` | `State`, `Mode`, `Resonance`, `Print` | – |
| `ifrm1.rs`, `ifrm2.rs` | `Fermi` | – |
| `enrgy.rs` | `Energy` | – |
| `polyads.rs` | `Polyad` | printed eigenvalues |
| `alphas.rs`, `rot.rs` | `Alpha`, `Quartic`, `Print` | – |
| `xcals.rs` | `Xcals` | – |
| `quartic.rs`, `sextic.rs` | `Quartic`, `Sextic`, `Print` | `Debug` output |
| `output.rs` | `Run`, `Quartic`, `Print` | text of the geometry (`Display for Molecule`, crate `symm`), a parameter |
| `bin/prof.rs`, `spectro_bin` | `Main` | parsing of the command line (`clap`), `prof.rs` |

## Layout

* `lean/Verif/Arith.lean` – arithmetic class, the real instance, loops.
* `lean/Verif/Rounded.lean` – a third instance: every result is rounded; only the relative error of the rounding is known (C107, C113 to C117).
* `lean/Verif/Extended.lean` – a second instance: the reals with infinities and NaN, following IEEE 754 without rounding,
  overflow and signed zeros; used where a division by zero matters (C96).
* `lean/Verif/Model/*.lean` – the model, with citations.
* `lean/Verif/Spec/*.lean` – specifications that do not use the model's helpers.
* `lean/Verif/Lemmas/*.lean` – auxiliary lemmas.
* `lean/Verif/Props/*.lean` – the property theorems, each followed by an `example`
  with a concrete non-trivial case.
* `MANIFEST.json` – property → theorems and status.
* `seeded/LOG.jsonl` – seeded-bug experiments.

## Properties

Theorem names are in `MANIFEST.json`; `_partial` marks parts, `_violated` the negations.

| id | modelled | proof |
|---|---|---|
| C01 | `find3` on naturals (debug-build arithmetic; no underflow possible since every argument is incremented first). Spec: an independent count – the slot of a sorted triple is the number of sorted triples that precede it – and multiset equality of the index lists. | hockey-stick arithmetic (`Nat.choose`), injectivity by a gap argument, surjectivity by counting. |
| C02 | `find4`, `F4qcm` as a list with `get`/`set` through `find4` (out-of-range = `none`). | same for four indices; write/read laws from injectivity. |
| C03 | `ioff` with explicit underflow error, pair slot `ioff(max+1)+min`. | as C01 for pairs. |
| C04 | `new_fc3` as the loop nest with its six assignments per iteration over a mutable tensor and the header arithmetic (underflow = error). | loop invariant: after processing a prefix, an entry holds the listed value iff its sorted triple is in the prefix. |
| C05 | `new_fc4` with its 24 assignments. | same invariant with permutations of four indices. |
| C06 | `load_fc2`: both branches; nalgebra's `from_iterator` (column major) and `from_row_slice` (row major) are modelled. | transposition theorem, agreement iff symmetric, counterexample witness. |
| C07 | `rot2nd` loop nest over 3x3 blocks. | ring identities over R; sums over `Finset.range`. |
| C08 | `rot3rd`: both passes with the in-place second pass. | disjoint-block loop lemma, then sums. |
| C09 | `rot4th`: both passes. | same. |
| C10 | `form_sec` loop nest with assignment and mirrored assignment, any arithmetic. | loop invariant; arithmetic is an uninterpreted class, so the result covers IEEE doubles. |
| C11 | `symm_eigen_decomp`: the eigensolver is an arbitrary function; the sorting of (value, index) pairs and the column gather are modelled. | permutation and sortedness of a comparison sort; spec in terms of pairs. |
| C12 | `to_wavenumbers` over R. | sqrt monotonicity. |
| C13 | `force3`: plane transforms, the push loop and `find3` lookup. | contraction identity + push-order lemma. |
| C14 | `force4`: the loop nest with overwriting. | all writes to a slot carry the same value for symmetric tensors. |
| C15 | `make_zmat`/`zeta` over R. | algebra, Cauchy–Schwarz. |
| C16 | `make_lx`, `form_sec` over R. | finite sums. |
| C17 | `Mode::new`/`deg_modes` with its three passes; the arithmetic is lawless for coverage, ℝ for the rest. | list membership reasoning. `c17_exactly_once_partial` covers tolerance-transitive clusters of at most three; the chain and four-fold witnesses are evaluated. |
| C18 | `Mode::count`, `Mode::partition`. | list induction. |
| C19 | `Restst::new` state pushing. | list reasoning, `Nodup`. |
| C20 | `Restst::new` tables `ifunda`, `iovrtn`, `icombn` with bounds-checked writes. | last-write-wins table lemma and injectivity of the pair slot. |
| C21 | `Restst::new` with bounds-checked writes. | success is characterised exactly (`c21_states_iff`, `c21_restst_iff`); always for asymmetric tops; five equal frequencies fail (`c21_violated`). |
| C22 | `coriolis`, asymmetric branch. | list membership, `Nodup`. |
| C23 | `fermi1`. | membership; self-resonance witness. |
| C24 | `fermi2`, `ferm2_test`, `aminjm`. | membership; ordering lemma over R. |
| C25 | `darling`. | membership. |
| C26 | symmetric-top branches of the four detectors. | membership, in both directions for all four detectors (`Props/ResonanceSym` for type-2 Fermi and Darling–Dennison); duplicate witness. |
| C27 | `make_fermi_checks`, `Ifrm1`, `Ifrm2` (hash maps as functions/association lists). | fold induction, last write wins. |
| C28 | `make_icorol`, `alpha`. | fold induction; two-axis witness. |
| C29 | `coriolis` + `make_alpha` axis constants. | evaluation of the axis maps, witness. |
| C30 | write patterns of `xcalc` and `xcals`, any arithmetic. | write/overwrite reasoning over the blocks of the matrices. |
| C31 | `xcalc` over ℝ. | partial fractions, `field_simp`/`ring` per branch; `c31_detected` discharges the hypothesis on the tables for tables built by the detector. |
| C32 | `make_e0` and `make_e1`/`make_e2` over ℝ. | textbook sum when nothing is listed (`c32_partial`); for listed resonances five witnesses show that the result is not the sum without the resonant fraction. |
| C33 | the three blocks of `xcals` over ℝ. | diagonal blocks proved; off-diagonal entries proved when only the third index is resonant; witnesses for the other branches. |
| C34 | `make_e3`. | proved for at most two degenerate modes, for linear molecules at most one; otherwise refuted (triples never contribute, for every molecule; linear molecules get no third part); `c34_exact` says for any number of degenerate modes exactly which terms the result lacks (`e3Missing`). The factor of the triples in the specification is the one that follows from the Schrödinger equation (C109); the code's is twice that, but never reaches the result. |
| C35 | `enrgy` with `part1`/`part2`. | sums over the mode list; the shift holds through resonance mixing, for any eigensolver. |
| C36 | `enrgy`, `make_funds`, extraction of `corrs`. | difference of two expansions, sums over ℝ. |
| C37 | `enrgy`, `make_sym_funds`. | same, any mode list without triply degenerate modes. |
| C38 | `rsfrm1`, `rsfrm2`; the 2x2 eigensolver is any function satisfying `IsEigen2`. | trace and determinant of 2x2 matrices. |
| C39 | `enrgy`, any arithmetic. | every entry is written before it is read. |
| C40 | `alphaa`, `rota`. | sums over R. |
| C41 | term of `alpha`/`make_alpha`. | `field_simp`. |
| C42 | `rota`, axis tables. | case analysis. |
| C43 | `rots`, `Output::fmt` for linear. | case analysis, witness. |
| C44 | `make_tau`, `tau_prime`. | sums over R, sign of sums of squares. |
| C45 | `Quartic::new`. | `field_simp`/`ring`. |
| C46 | `Sextic::new`, `scc`, `make_phi`. | `field_simp`/`ring`; permutation invariance. |
| C47 | `IPTOC`, `ICTOP`. | `decide` over the whole table. |
| C48 | sizes computed in `process_geom`, underflow as error. | cardinality of `Sym`, agreement with C01–C03. |
| C49 | `make_iatl`, the symmetric-top block of `process_geom`. | plane rotation algebra over ℝ. |
| C50 | `bdegnl` including the choice of pairs. | each pair step is a rotation/reflection in a plane; fold over pairs. |
| C51 | angle branches of `bdegnl`. | trigonometry of `atan` over ℝ; witness for vanishing x on both modes. |
| C52 | `Spectro::read`, character level. | the file decomposes uniquely into sections; the fold over lines equals the row-wise spec of each section. |
| C53 | `Display for Spectro` and `read`, character level. | fields of fixed-width output; the proof needs the values to fit the columns (`Fits`), witnesses show why. |
| C54 | dummy handling in `read`, `get_vals`. | exact value of every dummy coordinate; the claim under the condition that the coordinate text was last shown on the same axis; witness. |
| C55 | weight handling in `read`. | fold, last write wins; panics characterised. |
| C56 | `compute_irreps` with an arbitrary symmetry function and fuel. | termination over ℝ for eps > 0, answer at the first working tolerance. |
| C57 | `run`, `finish`, `harmonic` branch. | shared harmonic stage. |
| C58 | assembly of `Output` and its table printer. | list lengths; witnesses. |
| C59 | `to_vec`. | chunk arithmetic. |
| C60 | `init_res_denom`, `Denom::denom`. | table lemma. |
| C61 | `genrsa`, `res2a`. | case analysis over the differences; witness for the ignored direction. |
| C62 | `zeta` (Wilson A part). | finite sums. |
| C63 | `darling` for symmetric tops. | membership; the first non-degenerate mode is skipped (witness). |
| C64 | `fermi2`. | membership; witnesses for symmetric tops. |
| C65 | `xcals` block copies. | write/overwrite reasoning. |
| C66 | g constants of `xcals` over ℝ. | identities without listed resonances, witnesses with. |
| C67 | `enrgy` with `rsfrm1`, `rsfrm2`. | every table entry used is positive (C20). |
| C68 | `rotcon` in `process_geom`. | algebra. |
| C69 | axes adjustment of linear molecules. | case analysis. |
| C70 | `bdegnl` pairing against `Mode::new`. | comparison of cutoffs; witness between 0.05 and 0.1. |
| C71 | `res2a` constants. | `ring`-type identities with denominators from tables. |
| C72 | `resona`. | matrix entries after the loop nest; the hard-coded table panics for other sizes. |
| C73 | `make_resin`, with the hash set as any list order. | membership and `Nodup`. |
| C74 | whole run, `finish`. | every bounds check and size discharged from dimensions; the header panic characterised. `c74_any` is the version for every arithmetic, with the end of the search for irreps as a hypothesis; over ℝ it is proved (C56). |
| C75 | `rot2nd`, `form_sec`, `make_lx`, output matrices composed. | composition of C07, C10, C11, C12, C16 and C59. |
| C76 | `State::partition`, `State::len`. | structural; added because a seeded change of the third vector went unnoticed. |
| C77 | `load_vec`, `load_fc2/3/4`, `run_files`, `Display for F3qcm/F4qcm`, character level. | fields of the printed text; position in the file = packed slot (C01, C02, C04, C05). |
| C78 | `to_gauss`, rows and text. | the fold over the loop nest is a filtered map; sortedness of the nest; panics from C01/C02 density. |
| C79 | `dump_fcs`, rows and text. | same. |
| C80 | `run` of an asymmetric top from derivatives to resonances, fundamentals, zero-point energy. | composition of C07–C15, C22–C25, C31, C32, C35, C57; the data flow of `finish` is in the proof (`asym_parts`). The example is a family of runs with prescribed frequencies and cubic constants (`equal_run`). |
| C81 | `enrgy` with `rsfrm1`, `rsfrm2`, corrected fundamentals. | induction over the list of mixing steps (`mix_fold`), C27 for the tables, C36 for one step. |
| C82 | `alpha`, `alphaa`, `rota`, `Quartic::new` in a run. | composition of C28, C40, C42, C44, C45. |
| C83 | `make_alpha`, `alphas`. | every matrix entry is written by one loop only; folds as sums; the symmetry relations of the data (`VibRot.Axial`) turn the general formula into the four special ones. |
| C84 | `Display for Output`, `State`, `Rot`: lines of characters, numbers printed as correctly rounded decimals. | cells between two columns of a line; parts of the report between its titles; the states of a run come from `State::states`, the axes from the `Axis` of a resonance. |
| C85 | resonance lists of `Display for Output`, `Display for Axis`. | as C84; a cell cannot show two different numbers. |
| C86 | `Display for Quartic`, `Display for Sextic`. | exactly one line starts with each name; the exponent form has one digit before the point. |
| C87 | `print_vib_states`. | as C84. |
| C88 | `write_output`. | as C84. |
| C89 | `main` of `spectro_bin`: the pieces of text written, in order; the computations are parameters. | cases of the flags. |
| C90 | `c_mat`, `cc_tensor`, `scc`, `make_tau` for asymmetric tops. The spec (`Spec/Sextic`) writes the Hamiltonian as a polynomial in the three components, with the Poisson bracket; operator ordering (terms of lower degree in the components) is not modelled. | The even terms of each polynomial are computed, the generators are given explicitly (`Lemmas/SexticRaw` to `SexticEnd`). The violation evaluates on the x axis, for any generators. |
| C91 | `Quartic::new`, `Sextic::new` for asymmetric tops, A reduction. | Explicit generators, brackets of the cylindrical forms (`Lemmas/Sextic`). |
| C92 | The same, S reduction. | The same; `mu`, `nu`, `lamda` of the code are the coefficients of the generator of order five. |
| C93 | Whole run of an asymmetric top with two different oracles. | `c93_signs`: each quantity computed from the modes is even in the sign of each mode (`Lemmas/Flip.lean`). `c93_solver`: two exact solvers give the same sorted eigenvalues, and by C75 modes that differ by a sign. |
| C94 | Whole run of an asymmetric top. | C90 applied to the arrays inside `run`, which are the fields of the input and the reported modes (`AsymParts`), then C91 or C92. |
| C95 | `Quartic::new` and `Sextic::new` for linear and diatomic molecules. | The Hamiltonians of Spec/Sextic on the plane of rotation are fixed by their values on one axis; there they are the diagonal entries of `τ` and of `scc` (`sccDiag_axis`). Freedom from rotation about the axis is the plane z = 0. |
| C96 | `Quartic::new`, `Sextic::new`, `scc` for symmetric tops. `Spec/Symmetry` states the symmetry of a Hamiltonian (a polynomial) as invariance of its values. | The plane of symmetry removes the terms odd in y, so the tests of `scc` for close constants do not matter (`Lemmas/SexticFlat`, `SexticMirror`, `SexticSym`); invariance under the rotation fixes the even coefficients (`SexticTurn`), for which `sigma` drops out of the formulas (`SexticTop`). The NaN of exactly equal constants is proved for `Ext`, the reals with infinities and NaN (`Extended`). |
| C97 | Whole run with turned axes and force constants, harmonic and quartic. | The rotated force constants are determined by their forms on unit displacements (C07–C09), which are the same in both frames. |
| C98 | Whole run of an asymmetric top for two descriptions of a molecule; the relation of the descriptions is stated in `Spec/Molecule` by masses, positions and energies. Moments of inertia and rotational constants are taken to be equal. | The secular matrices agree up to the names of the coordinates and signs, hence the eigenvalues; the modes correspond by C75. `Lemmas/Molecule` carries this to the force constants, Coriolis constants and inertia derivatives, `Lemmas/AxisFlip` shows that all results are even in the direction of each axis, `Lemmas/Flip` in the sign of each mode. |
| C99 | Whole run of a symmetric top, linear or diatomic molecule. "The reference atom moves" (`Alignable`) and "the modes form separate pairs" (`Paired`) are stated on the eigenvectors and wavenumbers before the alignment. | The alignment of one pair does not touch the columns of another, so success can be read off the original eigenvectors. All table entries name listed states (`newStates_slots`), so the resonance loops never leave their bounds (`Lemmas/SymRun`). The violations are runs with diagonal Hessians. |
| C100 | Whole run of a symmetric top or linear molecule with two different oracles; sign rule of the alignment restated in `Spec/Turn`. | `c100_normal_modes`: C50 on the exact eigenvectors (aligned pairs are rotations inside an eigenspace). `c100_signs`: every quantity is even in the sign of each mode, in degenerate pairs when both change together (`Lemmas/SymFlip`). `c100_linear`, `c100_symmetric_top`: inside a twofold eigenspace the vanishing x component fixes the pair up to signs, and the sign rule (`fixSign_rule`) ties the two signs together. Hypotheses about the reference atom are on the reported displacements. |
| C101 | Whole run of an asymmetric top, once over ℝ and once over `Ext` (real numbers, two infinities, NaN; rules of IEEE 754, no rounding, one zero). Exact coincidences are described by `NoZeroGap` in `Spec/Finite`. | Every function of the run takes numbers to numbers (`Lemmas/Finite*`): each denominator is shown to be nonzero, or its term is shown to be skipped by the resonance lists. Hypothesis left: one combination of rotational constants in the sextic reduction. The violations compute the term with denominator zero and show that nothing later removes an infinity or NaN. |
| C102 | `xcalc`, `make_e0`, `make_funds` and the whole run of an asymmetric top. `Spec/Perturb` writes the Hamiltonian as operators on wave functions polynomial × Gaussian (Mathlib's multivariate polynomials, partial derivatives and Hermite polynomials) and says what an energy to second order is. Watson's term that depends on the inertia only and the state-independent Coriolis term are not part of what the program computes. | `Lemmas/Hermite*`: products of Hermite polynomials are the eigenfunctions, the amplitudes in this basis turn coordinates and derivatives into shift operators on functions of the occupation numbers, the equations of first and second order are solved there. `Lemmas/Ladder*`: the matrix elements, sorted by which indices agree, give the formulas with partial fractions; `Lemmas/PerturbList` identifies them with the sums of C31 and C32. `c102_exists` shows that the energies exist for states not degenerate in the harmonic approximation. |
| C103 | `alpha`, `make_tau`, `xcalc`, `rota` and the whole run of an asymmetric top. `Spec/Rovib` adds rotation to the Hamiltonian of `Spec/Perturb`: Watson's reciprocal inertia tensor to second order in the coordinates (`c103_tensor` derives the coefficients from its definition), complex wave functions as pairs, the components of `J` as numbers. Terms that only arise because the components of `J` do not commute are outside. The code's constants 0.086112 and 38333.84078 belong to slightly different values of `κ = ħ²/2hc` than the one it computes rotational constants with; the theorems keep `κ` general and state the difference (`roundedPart`, `8κ³/38333.84078`), `c103_constants` bounds it. | The matrix elements of the additional operators are computed on occupation numbers (`Lemmas/RovibLadder`), the equations are solved and their solution is shown to be unique (`RovibSolve`), the sum is arranged as quadratic and quartic form in `J` (`RovibForm`); `c103_run` combines it with C82. |
| C104 | `xcalc`, `make_funds`, `rsfrm1`, `rsfrm2` and the whole run of an asymmetric top with Fermi resonances. `Spec/Coupled` writes the resonant terms of the cubic potential with raising and lowering operators on the wave functions of `Spec/Perturb`, and says what the effective Hamiltonian of two states is: the matrix, to second order, of the complete Hamiltonian on an invariant plane. Several resonances of the same states (polyads) and resonances of a mode with its own overtone are outside (C23, C81); only energy differences are covered since the constant term is wrong with listed resonances (C32). | The ladder lemmas of C102 are stated for partial fractions in which listed denominators are dropped (`LadderG`, `LadderEnergy`, `LadderForm`, `LadderRes`); `Mask` shows that taking the resonant terms out of the operator drops exactly these denominators; `TwoState`, `TwoStateRes` solve the equations of the effective Hamiltonian and show that its diagonal is the energies without resonant terms and its off-diagonal element the code's; `CoupledList` compares with the formulas of C80 and C81. `c104_exists`, `c104_effective_exists` show that the energies and the effective Hamiltonian exist. |
| C105 | `xcals` with all its parts, `make_sym_funds` and the whole run of a symmetric top or linear molecule. `Spec/Threefold` says what it means that frequencies, force constants and Coriolis constants have a threefold axis and a flip (perpendicular half-turn or mirror plane through the axis): the multilinear forms are invariant. The energies are those of `Spec/Perturb` (C102) in all normal coordinates, both components of each pair included. The symmetry is a hypothesis about the force constants in normal coordinates; C106 derives it from the symmetry of the molecule. For the zero-point energy see C109. | The invariance gives the relations between constants with first and second components (`Lemmas/Threefold`: pair by pair, from the third turn and the flip); with them the sums over all modes in `xSpec` become the sums over first components (`ThreefoldX`); C33 and C66 connect these with the code. `ThreefoldState`: the two states of a pair have different parity under the flip, so the effective Hamiltonian of C104 is diagonal and each state has an energy. |
| C106 | The whole run of a symmetric top, as in C105, from positions, masses and force constants in the axes of the input. `Spec/Equivalent`: a symmetry operation is a matrix and a renumbering of the atoms which bring atoms to places of atoms of the same mass and leave the multilinear forms of the force constants as they are. Assumed: the threefold axis is principal axis 2, the reference atom lies on the mirror plane or the axis of the half-turn, frequencies are twofold only by symmetry, the alignment of each pair is not degenerate (the reference atom moves in one component only). | A mode carried along by an operation solves the equation of motion for the same frequency (C100), so it is a combination of the at most two modes of this frequency (`TwoFold`); a third turn whose cube is the identity and a flip which inverts it act on two modes as a third turn and a reflection, and the alignment makes the reflection diagonal (`Lemmas/Equivalent`, `EquivalentModes`). Forms of carried displacements give the invariance of the constants in normal coordinates (`EquivalentFields`), and C105 does the rest. |
| C107 | `xcalc`, `make_funds` and the run of an asymmetric top, in the instance `Fl rnd` of the arithmetic (`lean/Verif/Rounded.lean`): the result of every operation and every literal is rounded by a function `rnd` of which only the relative error is known (`Rounds`, `Spec/Rounding`). `nearest p` is rounding to nearest with `p` binary digits and unbounded exponent; `p = 53` is `f64` without overflow and underflow (and with ties upwards; ties to even satisfy the same bound). | Error propagation by two predicates: `Acc` (absolute error in proportion to the sum of the sizes of the terms) for numerators and sums, `Rel` (relative error) for denominators, with one rule per operation (`Lemmas/Rounding`); a denominator with cancellation has a small relative error because it is at least the `κ`-th part of its terms. The exponents count operations. The exact values are those of C31, the energies those of C102. `c107_run` uses that the resonance lists of a run have one entry per combination in any arithmetic (`c31_detected`). |
| C108 | `genrsa`, `res2a` and `init_res_denom` with the modes in their own order (`i1mode = range n`), the denominators those of `init_res_denom`, force constants symmetric and Coriolis constants antisymmetric. The differences of quanta for which the code stops (`todo!`) are outside; the states may have any numbers of quanta. `Spec/VanVleck` states what a scalar product of wave functions is (bilinear, symmetric, positive on the ground state, the coordinates symmetric and the slopes antisymmetric), the first-order change of a state with the listed resonances left out, and the matrix elements; it does not refer to the code. `c108_scalar_product` and `c108_response_exists` show that these exist. | The wave functions are expanded in oscillator states, so that a matrix element is a sum over lattice paths (`Lemmas/Legs*`): the four vertices of the quartic, the two of the Coriolis term and the pairs of cubic vertices with a denominator between them. Each is evaluated for the given difference of quanta, and the sums over the intermediate mode compared with the code's loops term by term (`VanVleckCode`, `VanVleckGen`); norms give the square roots (`Lemmas/VanVleck`). The theorems on the effective Hamiltonian use uniqueness of `VibEffective` (C104). |
| C109 | As C105, with `make_e0`, `make_e2`, `make_e3`, the energy of the ground state in `enrgy` and the reported zero-point energy. The energy of the ground state is that of `Spec/Perturb` (C102), both components of each pair included. Stated for the ground state as the code evaluates it (`stateEnergy` with no quanta) and for whole runs. | `Lemmas/ZeroPoint`: the energy of the ground state as a sum over pairs and triples of all modes. `Lemmas/ThreefoldZero`: with the relations between first and second components (C105) this becomes a sum over non-degenerate modes and first components, which is compared with C34 and the x constants term by term. C67 connects the reported value with the ground state; the order of the degenerate modes, which `make_e3` relies on, is proved of `deg_modes`. `c109_exact` and `c109_run_exact` need no bound on the number of degenerate modes: the difference from the Schrödinger equation is the Coriolis term and `e3Missing`. |
| C110 | `alphas`, `make_alpha` (symmetric tops) and `make_tau`. The Hamiltonian is that of C103 (`Spec/Rovib`), in all normal coordinates, both components of each pair included; `RotPairEnergy` is the same eigenvalue problem for a wave function which is `|n⟩ + iσ|n'⟩` at zeroth order. What symmetry gives (`Axial`, from C83) is a hypothesis on force constants, Coriolis constants and inertia derivatives. Linear molecules have their own Hamiltonian (`Spec/RovibLinear`: axes 0 and 1 only). Four-fold axes (refuted in C83) and spherical tops are missing. | `Lemmas/RovibSolve`, `RovibForm`: the second-order energy of C103 now only needs that coupled vibrations with quanta have different frequencies. `Lemmas/RovibPair`: degenerate perturbation theory for the two components; a grading by parity shows that mixed matrix elements vanish. The formula for a molecule without symmetry, averaged over the components, is what the code reports by C83. `Lemmas/RovibPairExist`: the energies exist for a molecule with a plane of symmetry; used for the examples. `Props/RovibLinear`: the Hamiltonian of a linear molecule is the general one without the terms of the molecular axis, so the same formula applies. `Props/RovibRun` composes this with `run`: force field, Coriolis constants and inertia derivatives are those of the input and the printed normal modes; runs of prolate tops are left out because they print constants of other axes (C43). `Lemmas/EquivalentInertia` and `Props/EquivalentRovib` derive the hypothesis `Axial` for every molecule with a three-fold axis and a mirror plane or a half-turn (symmetry of geometry, masses and Cartesian force field as in C106, rotation of the molecule meets no force), and for linear molecules; the products of inertia need the Eckart condition, which is derived from the rotational invariance. |
| C111 | `finish` and `run` with the feature `polyad` (`Model/PolyadRun`), `resona`, `genrsa`. What `resona` prints is left out; the matrix it returns is dropped by the caller. | the element is analysed by the list of differing modes; the rows of the table are a constant of the program, checked exhaustively for every number of modes up to twelve (`table_elements`); the energies written are overwritten (C39). |
| C112 | `Display` of `I1states` and `I2states` (`Model/Listing`; used by the tests of the repository only). | cutting at the first delimiter for pairs, columns of width five for single quanta; witnesses for the rest. |
| C113 | `make_zmat` and the inertia derivatives of `zeta` (`makeZmat`, `wilsonA`) in the instance `Fl rnd`, as for C107. The entries of mode matrix, geometry and masses are taken as given numbers. | the error calculus of C107 without denominators (`κ = 1`); the exact value by C15 and C62; for normalised columns the sizes sum to at most 1 by `2ab ≤ a² + b²`. |
| C114 | `alpha` and an entry of `alphaa` in the instance `Fl rnd`, as for C107. `f64::powf` is assumed to have relative error at most `u`, which need not be that of the basic operations; `u = 2⁻⁵²` leaves room for it. For `c114_run` also `alphaa`, `rota` and `run` of asymmetric tops, from the computed frequencies, force constants, Coriolis constants and inertia derivatives on. | the error calculus of C107 with one denominator with cancellation, `w_i² - w_j²`; the exact value by `alpha_closed` and the symmetry of the lookup (C28). |
| C115 | `make_tau`, `tau_prime` and, in `Quartic::new`, the A and S reductions of asymmetric tops and the constant of linear and diatomic molecules, in the instance `Fl rnd`, as for C107; not the constants of symmetric tops. | the error calculus of C107; only the S reduction has a cancellation in a denominator, measured by `κ`. |
| C116 | `part1` of `enrgy` (`part1Eng`, `stateEnergy`) in the instance `Fl rnd`, as for C107; the mixing of resonant levels with the external eigensolver is not included. | the error calculus of C107; the exact value and the size are both `levelEnergy` of C35. |
| C117 | `make_e0` and its two sums, `xcalc`, `part1` and, for `c117_run`, all of `run` for asymmetric tops, in the instance `Fl rnd`, as for C107. Frequencies, force constants and Coriolis constants are those the run computed: the rounding errors of the normal modes and of the transformations of the force constants are not bounded (nalgebra sums matrix products in an order the model does not reproduce). Only runs without Fermi resonances. | the error calculus of C107 for the terms of the zero-point constant (denominators bounded below by `κ`), composed with the anharmonic constants of C107 and the energies of C116; the exact value is `secondOrder` plus a constant by C102 in `c117_levels`, and the formula `e0Spec`, `xSpec` in `c117_run`. |
| C118 | `AbsDiffEq` for `Quartic`, `Sextic` and `Rot` and `Sub` for `Quartic`, over exact reals and over `Ext`. `f64::abs_diff_eq` of the crate `approx`, not part of /repo, is taken to be `\|x - y\| <= epsilon`. | by cases on the fields. |

## Violations found

Each has a theorem with a concrete witness (named in brackets).

* C06 – `load_fc2` reads column major without header, row major with header; the
  results are transposes of each other (`c06_violated`).
* C17 – chains a~b~c with a≁c and clusters of four put an index in several modes
  (`c17_exactly_once_violated_chain`, `_four`).
* C21 – five equal frequencies of a symmetric top: the state tables are indexed out of
  bounds (`c21_violated`).
* C23 – a mode below the tolerance is in type 1 resonance with itself (`c23_self_violated`).
* C26, C64 – symmetric tops: resonances listed twice, in several orders, and type 2
  resonances with repeated modes (`c26_fermi2_duplicate_violated`,
  `c64_repeated_violated`, `c64_orders_violated`).
* C28 – a pair resonant about two axes is deperturbed about one only (`c28_violated`).
* C29 – prolate tops: resonances found about one axis are applied about another; pairs of
  degenerate modes: applied about no axis (`c29_prolate_violated`, `c29_degenerate_violated`).
* C32, C33, C66 – resonant branches of E0, x and g keep fractions with wrong signs or the
  two-index formula (`c32_*_violated`, `c33_*_violated`, `c66_*_violated`).
* C34 – accumulators reset inside the loops: triples of degenerate modes never contribute,
  pairs only for the last degenerate mode (`c34_triples_violated`, `c34_pairs_violated`).
* C43 – prolate tops: parallel and perpendicular corrections are swapped
  (`c43_prolate_violated`).
* C51 – both x components vanish: the angle divides by the vanishing component
  (`c51_violated`, lib.rs:570-574).
* C53 – integers of five or more characters run together; an empty list of degenerate
  modes disappears (`c53_violated`, `c53_violated_degmode`).
* C54 – the dummy coordinate lookup ignores the axis (`c54_violated`).
* C58 – printing any harmonic-only result panics; irreps of symmetric tops are in frequency
  order while the frequencies are not (`c58_harmonic_print_violated`, `c58_label_violated`).
* C61 – cubic couplings ignore the direction of the changes of quanta (`c61_violated`).
* C63 – the first non-degenerate mode is never tested against degenerate ones
  (`c63_violated`).
* C70 – alignment uses a cutoff of 0.05, the mode list 0.1 (`c70_violated`).
* C78 – `to_gauss` takes the number of modes from the number of frequencies; a state with
  all 3N frequencies, as `run` hands them to `finish`, makes it panic
  (`c78_all_frequencies_violated`).
* C81 – an overtone or combination listed with several fundamentals is mixed with the
  highest one only (`c81_every_violated`).
* C83 – tops with a fourfold axis: non-degenerate vibrations that distinguish the two perpendicular axes
  add to the constants of degenerate modes a term whose average over the components is zero
  (`c83_fourfold_violated`, alphas.rs:263-268).
* C83 – oblate tops that are not planar (ammonia): `bdegnl` makes the first component of a degenerate mode even
  with respect to the plane of the axes 2 and 0, so the product of inertia that changes is that of the axes 2 and 0,
  but alphas.rs:26-31 takes that of 2 and 1 unless the top is prolate. The constants lack a term
  (`c83_plane_deficit` gives it, `c83_plane_violated`).
* C85 – the resonance lists of the report number modes from zero, its frequency table from one
  (`c85_violated`).
* C86 – quartic distortion constants are printed with twelve decimals, so one below 5e-13 is printed as
  zero (`c86_small_violated`).
* C87 – the verbose listing panics for every molecule with a triply degenerate mode
  (`c87_triple_violated`) and calls states of degenerate modes `NON-DEG` (`c87_label_violated`).
* C89 – with `--json` and `--dump-fcs` the dump precedes the JSON text, so standard output is no JSON text
  (`c89_json_violated`); `--dump-fcs` is ignored with `--finish` and `--to-gauss` (`c89_dump_violated`).
* C90 – `scc` leaves out terms for rotational constants that are close, with four different tests of the same
  tolerance (|ΔB|, 8|ΔB|, 4ΔB² and 8ΔB² against 1e-4), so between 1e-4 and 5e-3 some terms of the transformation
  are kept and others dropped. The witness has two constants 5e-5 apart (`c90_violated`).
* C96 – for prolate tops `Quartic::new` takes axis 0 for the unique axis, which is axis 2, in all quartic constants except
  those named after Wilson (`c96_prolate_violated`). For an oblate top with exactly equal constants `sigma` is 1/0, and all
  the sextic constants of the S reduction are NaN (`c96_oblate_violated`).
* C99 – for a linear molecule the reference atom is the first one. If it is at rest in a degenerate vibration (such as the
  bending modes of OCCCO that leave the central atom in place, when that atom is listed first) the run stops at the `todo!`
  in `bdegnl` (`c99_violated`). Six equal frequencies overflow the tables of states (`c99_cluster_violated`).
* C101 – a term with an exactly vanishing denominator is left out only for the resonances in the lists. If 2ω_k = ω_l or
  ω_i + ω_j = ω_k holds exactly and the cubic constant is below 10 (for instance zero by symmetry), the fundamentals of these
  modes are ±∞ or NaN (`c101_weak_type1_violated`, `c101_weak_type2_violated`). If two modes resonate with the same overtone, only
  the last is found by the look-up in the zero-point sum, and if the other one is exact the zero-point constant is not a number
  (`c101_shadowed_violated`). Exactly equal frequencies of an asymmetric top put an infinity or NaN into a rotational constant of
  every state (`c101_equal_violated`).
* C105 – `nondeg_deg` and `deg_deg` sum only over first components. A non-degenerate mode that is odd under the flip (A2)
  couples the first component of one degenerate mode with the second of another; this coupling is left out. Witness: one
  A2 mode and two E modes; the fundamental of the A2 mode is reported as its harmonic frequency (`c105_violated`). The Coriolis coupling of
  two degenerate modes is taken about one perpendicular axis for all pairs, y as soon as one second component does not change the
  product of inertia xz; if it is the first components that couple about x, the coupling is left out
  (`c105_axis_violated`). Planar molecules are concerned: a second component in the plane never changes xz, while `bdegnl`
  aligns pairs in the plane by x and pairs out of the plane by z. The output for the project's test molecule c3h3+
  (testfiles/c3h3+/spectro2.out) shows both: ζ of modes 8 and 5 is −0.386 about x, yet "ROT CON & ZETA" of the constant
  8 5* is 0.0000000.
* C106 – as C105, of which it is the version for molecules: odd non-degenerate modes that couple with two degenerate ones,
  and planar molecules with pairs in and out of the plane, are not covered because the code is wrong for them.
* C109 – `xcals` sets the third part of the zero-point constant to zero for linear molecules, though pairs of degenerate modes
  couple with non-degenerate ones in every linear molecule of four or more atoms; witness with two degenerate modes, like acetylene
  (`c109_linear_violated`). With three degenerate modes the resets of C34 make the zero-point energy wrong (`c109_violated`).
* C112 – nothing is printed between states of non-degenerate modes, so states of different lengths, or with 100000 quanta and
  more, cannot be told apart.

Other observations proved on the way: four-mode couplings always panic
(`c61_four_modes_unimplemented`), the polyad code uses a hard-coded table
(`c72_table_panics`), cubic-only runs always panic (`c57_cubic`), a header announcing at
most two derivatives makes an asymmetric-top run panic at its end (`c74_header_panics`),
the irrep search does not end for a non-positive tolerance when the symmetry code never
succeeds (`c56_nonpositive_stuck`).

## Seeded bugs

`seeded/LOG.jsonl` has one line per experiment: the model definition edited in a scratch
copy, the edit, the claim it breaks, the theorems that then fail to build, and what was
tightened when none did.

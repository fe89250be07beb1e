# Formal model of peps-torch in Lean 4: design

## Scope and method

The model is a set of small total functions mirroring, branch by branch, the pure / state-machine core of the
Python code in /repo. Tensors are modelled as a shape together with an index function (or directly as functions of
their indices); entries live in an arbitrary commutative (star) ring or ordered field, so every theorem holds for
exact real and complex arithmetic. Exceptions are values (`Except`/`Option`). Loops are folds or structural
recursions. External numerical kernels (SVD, eigensolvers, the user's loss function) are parameters; what is assumed
of them (e.g. "U, S, V is an exact SVD") is an explicit hypothesis of the theorem.

Layout of `lean/Verif`: each area has `Model` (definitions, each citing file and lines in /repo), `Spec` (small
independent specifications), `Lemmas` (helpers) and `Props` (the property theorems, each followed by an `example`
showing a concrete non-trivial instance of its hypotheses).

## Properties: what is modelled and how it is proved

- **C01 Default tiling is the periodic reduction of the plane** — Model the default closure over Int; prove it equals Euclidean remainder, hence range, periodicity, idempotence and uniqueness.
- **C02 from_pattern accepts exactly the well-formed tilings** — Model from_pattern branch by branch on association lists / row lists with errors as values; prove acceptance iff an independent predicate (rectangle + unique neighbourhood) and characterise the result.
- **C03 A pattern-built tiling is translation consistent** — Compose C02 with the pattern closure; prove totality, label-faithfulness and neighbour consistency for all integer vertices.
- **C04 Elementary-cell size and tiling precedence of the constructor** — Model the constructor's decision tree over optional arguments; prove the table of outcomes.
- **C05 Saving and loading a state preserves every tensor** — Model both JSON layouts (entry list, flat list) over tensors = shape + index function; prove read(write t) = t by induction on the shape.
- **C06 Saving and loading a state preserves the tiling** — Model the written pattern and the reader's fallback; prove preservation for tilings with period (lX,lY), and refute the general claim with the bipartite tiling.
- **C07 aux_seq relabels auxiliary directions on reading** — Model permute on tensors; prove the relabelling; refute the write/read round trip for non-default aux_seq because the writer ignores it.
- **C08 Growing the bond dimension embeds the same wavefunction** — Model the loop over sites with in-place update and error; prove embedding and equality of sums; refute atomicity of the error path.
- **C09 Bond weights are shared by the two ends of each bond** — Model the weight dictionary keyed by (site,direction); prove sharing and the sqrt-absorption identity.
- **C10 SU(2) spin operators satisfy the spin algebra in every representation** — Model get_op as matrices over Fin m with real entries; prove the commutators entrywise for all m.
- **C11 The isotropic exchange operator is the SU(2)-invariant S.S** — Two-site operator as a 4-index function; prove it equals the sum of products and commutes with total spin.
- **C12 The anisotropic exchange operator follows its documented couplings** — Same; prove equality when Jx=Jy, refute otherwise (m=2 witness).
- **C13 The sublattice rotation flips the spin axis** — Rotation matrix res[i,m-1-i]=(-1)^i; prove the conjugation identities entrywise.
- **C14 C4v symmetrisation is a projection onto its irrep (A1, A2, B1)** — Tensors as functions of 5 indices; permutations as index maps; prove projector laws by algebra.
- **C15 C4v symmetrisation into B2 is a projection onto the B2 irrep** — Same model; refute with a concrete tensor and prove what the routine does compute.
- **C16 Permutation parity is the sign of the permutation** — Model cycleDecomp on permutation lists; relate to Equiv.Perm.sign.
- **C17 Truncation never splits a multiplet when told to keep multiplets** — Model the gap array and backward search on real lists; prove prefix/gap postcondition; refute the edge case where the multiplet reaches the first value.
- **C18 Every truncated decomposition returns at most chi values** — Model slicing of each backend; prove length bound; refute for the propack wrapper.
- **C19 Sign fixing does not change the decomposed matrix and is canonical** — Matrices over a star field; prove invariance of the product and phase independence.
- **C20 SVD of a symmetric matrix through its eigendecomposition is a valid SVD** — Given any eigendecomposition, model sorting and sign transfer; prove the SVD laws.
- **C21 The backward pass of the symmetric eigensolver is the adjoint of its differential** — Matrix algebra; prove the adjoint identity.
- **C22 The regularised inverse is a bounded, odd approximation of 1/x** — Real analysis of x/(x^2+eps).
- **C23 CTMRG projectors are biorthogonal on the kept space and exact without truncation** — Matrix algebra with an SVD as hypothesis; prove biorthogonality and exactness.
- **C24 A CTM move updates exactly the tensors of its direction** — Environment as function of (site,direction key); model the two-phase update; prove exact frame condition.
- **C25 CTMRG run performs the documented sequence of moves and stops** — Model loops as recursion with a trace of moves; prove counts, order, stopping.
- **C26 Corner-spectrum convergence means two consecutive spectra agree** — Model history state machine; prove the iff.
- **C27 Changing chi of an environment embeds or truncates it** — Model slice-copy into zeros; prove agreement, zero padding and retraction.
- **C28 Enlarged corners equal their tensor network in double-layer and single-layer mode** — Literal model of tensordot/permute/view with the code's axis lists over Option Tensor; prove equality with explicit network sums for all dimensions.
- **C29 Unrolled contraction equals the plain contraction** — Slicing, constants of the contraction expression, the buffer from torch.empty (arbitrary contents), the loop over unrolled values and the final contraction are modelled for any list of tensors and labels. `Tensor/Einsum.lean` gives a contraction as a sum over label assignments; the loop invariant says which entry each turn writes; the sums over unrolled and other labels are joined. Also the older routine. Repeated entries of unroll and axes of size zero in constants are left out; the cuquantum variants stop in a debugger and are not modelled.
- **C30 Reduced density matrices are Hermitian, trace one and, on request, positive** — Matrix of a tensor as a Mathlib matrix; Hermiticity, trace and idempotence directly; positivity from an eigen-decomposition backend contract, shown satisfiable by the spectral theorem. With sym_pos_def the trace of the raw matrix must have positive real part.
- **C31 Single-site expectation values equal Tr(rho O)** — Both modes denote the network of the ten tensors with the two physical indices open; with an operator they denote its contraction with O. FitsState/FitsEnv provide all shapes.
- **C32 Two-site density matrices agree between contraction modes** — Both modes denote the network drawn in the code; equality of networks gives equal tensors, and symmetrisation depends on the entries only.
- **C33 Closing sites of the plaquette density matrix is a partial trace** — `ptrace` is an independent partial trace. The labelled contraction with closed sites (16 subsets, any order and list) denotes the network whose bra shares the physical label of the ket; relabelling turns it into the partial trace of the open one. Without sym_pos_def also for the normalised matrices. An empty list of sites is left out (the reshape of a scalar in torch is not modelled).
- **C34 Three-site MPO expectation values contract the drawn network** — Both routines are modelled with the code's labels and compared with the drawn networks. 3x1: proved when the right bonds of the second and third site agree, else the call raises (third right tensor is split by the bond of the second site). 1x3: the upper index of the third ket has the label of the bra; proved for a bond of size one, refuted with a concrete state otherwise.
- **C35 An operator given as an MPS meets the density matrix in the right index order** — `getMpsTn` and `getIdTn` are modelled for any number of sites and attached to an arbitrary labelled network. `Spec.chain` is the matrix product of the operator, `expect` and `trace` the double sums. Proved for one and two sites and instantiated for the three routines that use it; for three sites a wrong value is shown on a concrete density matrix, for four or more an exception always.
- **C36 Correlation functions insert the operator in the documented orientation** — Edge, transfer matrix and closing edge denote the one-site network of C31 with the operator inserted; equality with rdm1x1 holds for symmetric operators and for the transposed operator; refuted on a complex product state with a raising operator.
- **C37 Two-site operators inserted by factorisation are inserted completely** — Backend contracts `Factors` (the matrix is the product of the factors) and `IsSvd`. One-row channel: the sum over the bond restores the operator (transposed, as in C36). Two-row channel: the singular values are not multiplied in; what is inserted is proved in general, exactness for isometries, and a refutation with 2*swap for every SVD backend.
- **C38 Intermediate rescaling does not change correlation functions** — Loop invariant: both edges equal the exact strips divided by the same non-zero number. A vanishing normalisation gives a non-finite result. The length dist+1 contradicts the documented length.
- **C39 Backtracking line search returns a sufficiently decreasing step or reports failure** — Model the search as a recursion over an ordered field; prove the postcondition and a bound on trials.
- **C40 Trial evaluations leave the parameters as they were** — Model parameters as state with an Except result; prove restoration on success, refute on failure.
- **C41 L-BFGS search directions are descent directions** — Model two-loop recursion over an inner product space; prove positive definiteness by induction; history invariants by induction over updates.
- **C42 The saved state file is the best state seen** — State machine of closures; refute with a concrete history; prove it for runs without line search.
- **C43 A checkpoint pairs the parameters with their own loss** — State machine; refute with a concrete history.
- **C44 Resuming with a different history size keeps a consistent optimiser state** — Model list resizing; prove for lbfgs_mod, refute for ad_optim.
- **C45 Momentum SGD with line search keeps the momentum recursion** — Model aliasing of the buffer; prove without line search, refute with it.
- **C46 Finite-difference gradients leave the state unchanged** — Model the perturb/restore loop; prove by induction.
- **C47 Command-line options reach the right configuration group** — Strings are lists of characters; the substring grouping, the cut of the prefix and the two derived attributes are modelled as written. `Spec.Tidy`: no double underscore, and the name of a group occurs only as the prefix. Proved for all tidy distinct names; refuted for `my_CTMARGS_tol` (stored in CTMARGS under a mangled name) and names with a double underscore (lost).
- **C48 C4v environments stay Hermitian under every move** — Literal model of the three moves (dl, sl, QR) and of the loops; Hermitian part and diagonal corner by computation, then an invariant of the loop for every number of iterations and every convergence check. Enlarged corner Hermitian by relabelling the network with the reflection. Violated for QR with complex tensors: `P.t()` instead of the adjoint; refuted for every QR backend, with existence of such backends by Gram-Schmidt.
- **C49 C4v single-layer and double-layer enlarged corners agree** — Literal tensordot models, both equal to the same network; then moves and whole runs give the same result.
- **C50 Plaquette energies add up to the Hamiltonian** — Operators and einsums of `energy_per_site` modelled literally on top of the `rdm2x2` model; value of the plaquette operator entry by entry; re-summation over the cell as a permutation of its sites. Violated for the field along y: the contraction 'ijklabcd,ijklabcd' is Tr(rho h^T); witness is a product state.
- **C51 Third-neighbour energy is averaged over the cell** — `get_nnnn` through the C38 model; the value at (0,0) is proved, the average over the cell refuted with a 3x1 product state.
- **C52 The Ising plaquette term enters with its documented sign** — Plaquette operator entry by entry; energy for every state; refuted with the ferromagnet.
- **C53 Complex C4v symmetrisation is idempotent and preserves the wavefunction class** — Corollary of the C14 model.
- **C54 The backward pass of the SVD is the adjoint of its differential** — Differentiate the factorisation along a curve (Mathlib HasDerivAt), reduce to matrix algebra and prove the adjoint identity for all shapes.
- **C55 The sign-fixed SVD accepts every matrix** — Model column scaling with broadcasting; prove acceptance for square factors, refute for rectangular ones.
- **C56 A step performs up to max_iter quasi-Newton iterations** — Model the loop body; prove that with a positive tolerance_change no second pass is made (refutation).
- **C57 A backtracking step lowers the loss** — Compose the Armijo theorem with the step model over reachable optimizer states; refute for small starting steps.
- **C58 Resuming from a checkpoint continues the run** — Split the epoch loop at the checkpoint; prove by induction over epochs that the resumed state machine simulates the uninterrupted one.
- **C59 Resuming keeps the best state file** — State machine with the file; refute with a concrete interrupted run.
- **C60 Absorption contracts the documented network** — Same tensor engine as C28: each absorption denotes a network sum; refute the single-layer RIGHT case for unequal left/right bonds.
- **C61 A move keeps the environment consistent** — Invariant `FitsEnv` over assignments of bond sizes to lattice edges; prove projectors, absorption and assignment preserve it; induction over moves. Refute for the 4X2 method with non-uniform bonds.
- **C62 Single-layer and double-layer moves agree** — Corners, projectors and absorptions of the two modes denote the same networks; induction over moves.
- **C63 CTM convergence measure is the documented one** — Compare the modelled measure with an independent formula over lists of spectra; proved for the Frobenius norm, refuted for the default infinity norm.
- **C64 A freshly initialised environment fits the state** — Generic lemma: a table entry (einsum labels, legs) denotes a network determined by the geometry of the legs relative to the vector; a vanishing norm forces a zero site tensor because the diagonal is a sum of squares. Compose with C61.
- **C65 The initial environment uses the conjugated bra** — Refute for CTMRG_OBC with a one-site complex state; prove for real entries (and CTMRG through C64).
- **C66 Density matrices at equivalent vertices are identical** — All reads go through vertexToSite except in rdm1x1_dl; refuted there: it uses the coordinate as a key and raises outside the cell.
- **C67 The plaquette density-matrix routines agree with each other** — Every routine denotes the same labelled network. The call of rdm2x2_legacy from rdm2x2 (only without opt_einsum) passes an unknown keyword force_cpu and raises; this dispatch is not modelled.
- **C68 The plaquette MPO expectation value is a trace with the density matrix** — The contraction denotes the plaquette network times the MPO tensors; sums over auxiliary and inner labels factorise.
- **C69 Correlation functions of two-site operators are ratios of strips** — As C38, for pairs of sites in a row and for strips of two rows; the operators of the two-row strip are those without singular values (C37).
- **C70 Every configuration attribute has exactly its command-line option** — Parser, argparse actions and defaults are modelled; induction over the command line; composed with C47. The hypotheses are checked for all options of the library itself.
- **C71 A C4v move renormalises corner and half-row tensor with the same projector** — From the networks of C49 and the contract of the eigendecomposition.
- **C72 The single-site bipartite energy is the energy of the checkerboard** — The plaquette density matrix of the checkerboard is the one of the single site with two diagonal sites rotated; every term of the plaquette operator is compared under the two rotations; strips of the correlation functions are equal because the rotation drops out of sites without operators.
- **C73 C4v density matrices of the plaquette and of neighbours agree with the general code** — Networks of the open corners by the label engine; the four copies are relabelled to the plaquette of C33, closed corners by a trace lemma; sites are turned back within bounds, the phases cancel between ket and bra.
- **C74 C4v density matrices of one, two and three sites in a row agree with the general code** — As C73 with the networks of C31 and C32 and the three-site row of C34. Refuted for `rdm1x1_sl`: `tensordot(T,rdm,([0,2],[0,2]))` (L377) attaches the upper half-row with its ends exchanged, unlike `rdm1x1` (L250) and the drawing above the line; witness chi=2, D=1, C=1, T=1+sigma_y.
- **C75 One-site correlations of C4v states equal the general ones in every direction** — Each contraction by the label engine, entry by entry the strip of C36/C38 on the unfolded environment to the right; induction over the distance on pairs of edges with equal entries; the strips of the four directions are equal by turning site and environment (specification level).
- **C76 Dimer correlations of C4v states equal the strip with the two-site operators** — The C4v functions equal the general ones of C69 with the backend's V replaced by its conjugate (row) or by its conjugate times the singular values (two rows). Refuted: complex operators with an argument for every SVD of a rank-one matrix (product state, |value| 16/9 instead of 16), two rows with the Hermitian half-row 1+sigma_y (division by zero although the strip is 256).
- **C77 Saving and loading states built from elementary tensors** — Literal model of writer and reader on top of the number format of C05; loops of assignments to distinct positions; what is read is characterised for every order of the axes. Refuted: `asq` is computed but never used by the reader (chiral state comes back complex conjugated); a complex number is printed as one word while the reader expects two.
- **C78 Site tensors are the documented combination and have the symmetry of their irreps** — Stack and einsum modelled with broadcasting and dtype promotion; the combination for lists with A_1 first, refuted for A_2 first (the stack is sorted by irrep, the coefficients are not); symmetry through the group action of C14, entry by entry for every stack.
- **C79 States built from elementary tensors stay consistent over their history** — Inductive set of reachable states, invariant by induction over the history. Refuted: `move_to` assigns into a tuple (and always into element 0); `load_checkpoint_lc_1site_pg` passes keywords the constructor lacks.
- **C80 Orbits of index tuples under the symmetries of the square lattice** — Sets as Finsets, the `while` loop as a recursion that terminates because an orbit contains its seed; orbit by cases on which generator fixes the seed; partition by induction on the bond dimension.
- **C81 Basis of U(1) and C4v symmetric tensors is complete** — The iteration order is a function picking an element of every non-empty set; charges are constant on orbits. Tensors supported on disjoint orbits which cover all allowed elements are a basis (general lemma). Refuted: `np.zeros((2,)+...)` makes the call raise for every d >= 3 with an allowed element at physical index >= 2, and return tensors of the wrong shape for d = 1.
- **C82 Basis of C4v symmetric tensors without charges is complete** — Loop invariant: the rows are symmetrised unit tensors of pairwise unrelated elements, and every element seen is related to one of them; overlaps are 0 or at least 1/64, far above the tolerance 1e-8, which is kept in the model.
- **C83 Change of basis keeps the state** — Overlap matrix of a subset is a scaled partial permutation; the list of its non-zero positions is in row order; assignment to distinct positions. The subset hypothesis is proved for the bases of C81 with growing bond dimension. Refuted: two vectors, the first overlapping with both reference vectors, the second with none.
- **C84 A basis survives conversion to a dictionary and back** — Non-zero positions without repetition; the loop of `+=` on zeros by induction; row-major position and multi-index are inverse.
- **C85 Kagome states are the contraction of their triangle and bond tensors** — The einsum of the five tensors through the general einsum lemma; the torus amplitude as a sum over all bond variables, reorganised cell by cell; division by the largest absolute value over the complex numbers, NaN as an error value.
- **C86 Kagome tensors are projected on the declared irreps** — The averages over cyclic shifts and over the exchange with conjugation computed entrywise; idempotence from the law itself.
- **C87 Symmetric Kagome states have the symmetry of the lattice** — The site tensor replaced by the network (C85); rotations, reflections and inversion act on cells and spins, and the sum over bond variables is reindexed.
- **C88 Point-group symmetric Kagome states stay consistent over their history** — Invariant over all histories, established by construction and by every rebuild. Refuted: old checkpoints with three bond tensors hit an undefined name; releasing the identification looks up a tensor that was dropped.
- **C89 Kagome states as linear combinations of basis tensors** — Stack and einsum computed entrywise; the factor i exchanges the two transformation laws. Invariant over histories. Refuted: selection order of the irreps against listing order; `update_` stores tensors next to the cell instead of inside it, so every update fails unless both flags are set.
- **C90 Growing the bond dimension of a Kagome state keeps the state** — Growing each tensor by zeros commutes with the contraction (sums over the larger range collapse); maximum unchanged. Refuted for generic states: the constructor is called with an undefined name.
- **C91 A Kagome state written to a file and read back is the same state** — Numbers as rationals with an abstract lawful text format (an instance is given); the reader applied to the writer's output computed symbolically; the pattern of a periodic tiling reproduces it. Refuted: tiling argument (the constructor replaces it by the default tiling), old format, real dtype.
- **C92 A Kagome state of linear combinations written to a file and read back is the same state** — Fold over the entries of the sparse format; equal coefficients and basis tensors give equal combinations; the constructor succeeds on the parsed data because it succeeded on the written state.
- **C93 Spectrum of the transfer operator of width one** — The function handed to the solver is shown to be multiplication by the transfer matrix of the specification (sums over cuts, induction over the cell). The solver is a parameter that returns leading eigenvalues (roots of the characteristic polynomial with multiplicity) in any order; sorting and scaling are then followed. Shifts and reversal by charpoly(AB)=charpoly(BA) up to zeros.
- **C94 Spectrum of the transfer operator of width zero** — As C93 with two rows of half-row tensors. Directions left and up in full (if the second bond has the size of the neighbouring one), all directions for cells of at most two sites. Refuted in a cell of three sites with Pauli matrices: the operator is the identity, the code multiplies by minus the identity.
- **C95 Spectrum of the boundary operators of a cylinder** — Induction over the ring: after i tensors the intermediate tensor is a sum over paths of environment indices; closing it gives a trace. Matrix elements are traces of products; for directions whose ring is traversed backwards the order of sites is reversed, a permutation that keeps the characteristic polynomial. Order: proved for solvers that return values by increasing modulus, refuted for another solver.
- **C96 Spectra of transfer operators of one-site C4v states** — The C4v functions against the specification of C93, C95 on the unfolded environment (C75). Order as in C95.
- **C97 The boundary operators give the entanglement spectrum** — Nonzero eigenvalues of the reduced density operator are those of the transposed left times the right boundary operator; proved if the left one is symmetric. Refuted by a complex state with flat entanglement spectrum, for every solver.
- **C98 Energy per site of one-site C4v states** — The plaquette density matrix of the unfolded environment is invariant under quarter turns (the networks are related by a relabelling of the summed indices), so the four plaquettes of the checkerboard give the same expectation values up to the exchange of the sublattices; the rotated operators are computed entrywise. Positivity of the plaquette alone suffices if there is no third-neighbour coupling: smaller density matrices are partial traces.
- **C99 The low-memory energy of one-site C4v states is the energy** — Nearest and diagonal pairs are partial traces of the plaquette; each bond, site and diagonal term of the plaquette Hamiltonian is carried to one representative by a turn. Result: the low-memory energy is the energy for the opposite staggered field. Refuted with the Neel state in a staggered field (-1/2 against 1/2).
- **C100 eval_corrf_SS returns the spin correlations of the state** — Each of the three lists is a list of two-point functions of the strip of C38 (C75 for one site) with transposed operators; Sz, Sx are symmetric and the transposed -(S+ - S-)/2 is iSy. Rotating the operator at odd distances equals rotating the site tensors of the other sublattice, because the norm of a rotated site is unchanged (induction over the strip).
- **C101 eval_corrf_SpSm labels its correlations correctly** — Transposition exchanges S+ and S-: spsm is proved to be <S- S+> for all states (C101_swapped). Refuted on a product of columns with spins along x and y; partial theorem for states symmetric under the exchange and for the sum.
- **C102 canonical=True only changes the frame of the spin correlations** — The rotation matrix uses the z and x components of the normalised three-component vector and leaves y alone: bilinearity of the two-point function gives ss = (mz^2+mx^2)/m^2 (zz+xx) + yy for all states (C102_value). Equality iff no y component: partial theorem; refuted on a product state with my != 0; zero magnetisation gives nan.
- **C103 eval_obs reports the observables its labels name** — The density matrices of one and two sites with an operator are strips of one and two sites (C31, C32 and the index surgery of `Rdm/PairStrip`); the Hermitian part divided by the real part of its trace gives the quotient of real parts for Hermitian operators. The dictionary is followed through both loops by induction over the sites with a frame condition for the labels of other sites, which needs no assumption on repeated sites beyond the tiling.
- **C104 eval_obs of one-site C4v states reports the observables of the checkerboard** — The strip of two sites (C74) for the spin and the bond, the strip of three sites for SS3x1, the plaquette of the checkerboard for SS_nnn and ChiralT (C73, C98); the partial trace `ijaj->ia` already has trace one, so the second normalisation does nothing.
- **C105 energy_2x1_1x2 of the models with nearest-neighbour interactions is their energy per site** — Density matrices of two sites are strips of two sites for any physical dimension (`PairLemmas`); reshaping to a matrix and multiplying is the product of operators on the pair; Hermitian operators with `H^T` entries real give the quotient of real parts; induction over the sites. The rotation is `(R^T x 1) H (R x 1)`.
- **C106 energy_2x2_4site returns the energy per site** — Each of the four contractions is the sum of two bonds; consistency of the plaquettes carries them to one bond to the right and one below each site. Result: HB returns four times the energy per site (the division is computed and dropped), COUPLEDCHAINS half of it (divided by eight). Refuted on the state with all spins up.
- **C107 The AKLT model of spin two: Hamiltonian and energy of one-site states** — The exchange of two spins two has entries in the integers with sqrt(6); its minimal polynomial is checked on literal tables by the kernel and carried to the complex numbers by a ring homomorphism. Hence h^2 = 2h and h v = 2v iff the total spin of v is four. The energy: density matrix of two sites (C74) with the rotated operator; all bonds are equivalent by C4v symmetry, so the result is half of the energy per site. Refuted by the Neel state (1/35 against 2/35).
- **C108 COUPLEDCHAINS.eval_obs returns its observables** — The dictionary is followed through both loops; the label `anti_fm` is never stored, so the lookup raises for all states.
- **C109 eval_dimer_operator is the dimer order parameter in the direction** — Value for all states: difference of the bonds of the first two sites of the dictionary; correct if the second is the neighbour of the first; refuted on a 2x2 cell for the vertical direction; one-site states raise.
- **C110 The energies of the J-Q models are the energies of the J-Q Hamiltonian per site** — The Hamiltonian of a plaquette is evaluated entry by entry (indices of eight spins), its expectation in the density matrix of the plaquette (C73 and the rotation lemmas for C4v states) is a sum of bonds and rings; the four cells cover every bond and plaquette once. Concrete cases: antiferromagnetic 2x2 cell with energy -j/2-q/2, and a one-site product state.
- **C111 JQ_C4V_PLAQUETTE.energy_1x1 is the energy per spin of the J-Q model** — Operators of eight spins as tensors with sixteen indices of size two: a calculus of permutations and sums of such tensors gives h1 and h2 entry by entry; the density matrices of one and two sites (C74) and the symmetry of the state give the value for all states. The plaquette of the corner is absent: equality if q = 0 or its expectation vanishes, refuted by the Neel state of spins (-j/2-3q/8 against -j/2-q/2).
- **C112 JQ_C4V_PLAQUETTE.eval_obs returns the documented observables of the four spins** — The contraction with one operator and three traced spins is evaluated for each of the four positions; with the density matrix of C74 the values are those of the components of the spins for all states. The operator is contracted transposed: sp holds <S^->. Correct if no spin has a y-component; refuted by a tilted product state.
- **C113 The Kagome density matrices are partial traces of the density matrices of the site tensors** — The double-layer tensors with open spins are sums of double-layer entries over the closed spins; the corners and halves denote the network with one fused index per tensor; the network is linear in each double-layer tensor, so the opened network is the sum over all configurations that agree on the spins which are not kept. The splitting of the fused indices and _expand_perm are evaluated for lists of any length. Symmetrisation and normalisation commute with the partial trace. Concrete case: bonds of sizes 1 to 4, three spins one half.
- **C115 Expectation values of three-spin operators on the triangles of the Kagome lattice** — The raw network with the operator in one tensor is linear in that double-layer tensor, so it is the sum over spins of the network of the plaquette with the matrix elements of the operator. The up triangle follows from C113: the marginal of three spins is the matrix whose product with the operator is traced. Concrete case: the state of C113 and an operator that is not symmetric.
- **C116 S_HALF_KAGOME: energies of the triangles are those of the documented Hamiltonian** — Operators of three spins as matrices; a predicate says that a tensor with six indices holds an operator, and is preserved by permutations, linear combinations and the einsums of the constructor; so h_triangle holds the Hamiltonian for all couplings and spin dimensions. With C115 the energies are its expectation values. The code has +J_trip where the documentation has -J_trip: equality if J_trip = 0, refuted by a product state with chirality 72/625.
- **C114 Kagome: one-site density matrices and traces are those of the three spins of the tensor** — The one-site network is linear in the double-layer tensor, so the network with open spins is the partial trace of the network of the site tensor (as C113). rdm1x1_kagome reshapes the site tensor as if the physical index were the last: it is proved to return the partial trace for the state with reshuffled site tensors, which agrees with the state if all bonds have size one; refuted by a state with a vertical bond of size two, spins 0, 0, 1 come out as 1, 0, 0. trace1x1_dn_kagome reads one corner with the coordinate that was passed as key: proved for sites of the cell, refuted outside.
- **C117 S_HALF_KAGOME.eval_obs: magnetisations, correlations and permutations under their labels** — With C114, C115 and the operator tensors of C116: the on-site values are traces with the one-site network, and expectation values in the density matrix if the network is Hermitian; S^+ and S^- give the length. The bond operators are proved to hold j1 S_i.S_j + JD (S_i x S_j)_z, and the up triangle to have its spins in the order 1, 2, 0. So the correlations are multiplied by j1 and the labels of the up triangle are shifted: refuted with a product state up, up, down. disp_corre_len and P_dn raise for every input.
- **C118 The SU(3) generators and Casimir operators** — Matrices over the complex numbers with the real square root of three. The entries of the generators are compared one by one; completeness sum_a F_a F_a = (exchange - 1/3)/2 gives C1, and used three times in the trace of a product gives C2 in terms of permutations; permutations commute with U x U x U.
- **C119 KAGOME_SU3: Hamiltonian and energies of the triangles** — 2 C1 + 1/3 is the exchange of two spins (C118); the einsums of two exchanges are the two cyclic permutations; so h_tri holds the Hamiltonian in the sense of C116. Permutations commute with U x U x U. Energies by C113, C115 and, for one site, by the real parts of the traces with the network of the site. Concrete case: a product state with chirality 288/625.
- **C120 KAGOME_SU3: observables under their labels** — As C117. The contraction in eval_obs of the up triangle is with the transposed operator: the sign of chirality_up is proved to be the opposite of the chirality, refuted by a product state. C1_AB_dn is the bond of the spins 0, 1 although A, B are 2, 1: refuted by the product state a, a, b. energy_1site adds the triangles of one site and divides by the number of spins of the cell: refuted by a cell of two sites. What each function returns is proved for all states.
- **C121 SU3_CHIRAL: energies and observables** — The operators are filled entry by entry; a general lemma on repeated assignment gives their matrices: the cyclic exchanges, the exchange of a bond, and for exchange_bond_triangle the sum of the three exchanges minus twice the projector on equal spins. With the density matrices of C113-C115 the values are expectation values. Refuted: on the state with all spins equal the energy is 1 instead of 3 for j1 = 1; eval_su3_gens prints 0 where the generator has the value 1; energy_triangle_dn, P_dn, energy_nnn with j2 and the methods added in S1_KAGOME raise for every input.
- **C122 SU3_AKLT: energies, generators and correlation functions** — As C121 for the density matrix of one site (C31); correlation functions by C74-C76 with the symmetric matrices of the operators. energy_triangle_up calls a function that does not exist and raises for every input.
- **C123 Energies of spirals on the triangular lattice** — Rotations are matrix exponentials. Operators on n spins are matrices on functions Fin n -> Fin p. S.S and the triple product commute with the generator of a common rotation, so expectation values in the spiral depend only on differences of positions; each einsum of the code is shown to hold the trace of such a matrix. Refuted for the documented pitch vector: the code reads q[0] only and realises (-q[0], q[0]); for q = (0,1/2) and the product state with all spins up the energy 3/4 is returned, the documented spiral has -1/4. Proved (partial) for the pitch (-q[0], q[0]).
- **C124 Observables of the triangular models** — Density matrices are Hermitian (C30), so the components of the spin are real and the root of the code is the length of their vector; bonds as in C123, the pair (0,0), (1,-1) by C67.
- **C125 Spin correlations of the triangular models** — The spiral is the state with a rotation applied to the physical index of every site tensor; its double layers are those of the state with the operators rotated back, and the identity stays. With C38 each list holds two-point functions of the spiral (the transposition of C38 changes the sign of iS^y only, twice). S.S is invariant under a common rotation entry by entry, so the choice of the site that is not rotated does not matter. canonical=True: the rotation matrix mixes S^z and S^x only, so the decomposition is proved for magnetisations in the x-z plane and spins one half, refuted for one with a y component; other spins raise. eval_corrf_SId rotates by x+y instead of x-y: proved for that spiral, refuted at (0,1).
- **C126 Density matrices of patches of six sites** — The einsum over all 26 tensors is the network by the theorem on einsum (as C33). The semimanual functions contract two halves and then join them: a lemma on the einsum of two einsums whose inner labels do not overlap gives the same sum for every list of open sites at once; the conditions on labels depend on which of the twelve physical labels are open and are decided once for all 64 subsets in the kernel. Repeated sites raise by the assertion.
- **C127 Energies of next-nearest neighbours of spirals on the triangular lattice** — The density matrices are those of C126; each einsum holds the trace with an operator on two spins, one of them turned by three steps. Conjugation by the exponential multiplies the ladder operators of S^y by phases, so turning a spin in the opposite sense adds 2 sin(angle) times the component y of the cross product. The code turns the second spin of (x+2,y)-(x,y+1) by R^3 instead of its inverse: proved (C127_energy) that the energy deviates by exactly this term, (partial) that it is right if sin(6 pi q) = 0, refuted for three rows of spins (up, tilted, down) and q = 1/4, where the energy is too low by 8/25.
- **C128 Energies with the interaction on rhombi of spirals on the triangular lattice** — The four-spin operators are read off the einsums entry by entry (Holds4), permutations of axes are relabelings of the spins, under which traces, products, S.S and the triple product are natural, so each of the three rhombi reduces to the same list of operators. The rotations are those of the spiral around one of the sites, and a common rotation does not matter for invariant operators (as C123). C128_classical evaluates the energy for the spiral over the ferromagnet for all couplings and angles: it is the classical energy.
- **C129 Density matrices of rhombi with a loop over one bond** — Every step of the routine (corners, tensordots, views, the three-tensor and two-tensor einsums of the loop body) is a Denotes step with generated labels; fixing the index of the cut bond is the network with two labels held fixed, and the loop over n with i = n/D, ip = n%D sums these labels (loopSum_denotes). The result is the network of C126 with permuted axes; symmetrisation commutes with the permutation because the trace is invariant.
- **C130 Index unrolling does not change the energy with the interaction on rhombi** — By C129 the density matrix of the default routine at coord is that of the other routine at coord+(0,-1) or coord+(0,-2) with permuted axes, the terms depend on the rhombus only up to translations (rhombus_eq), and translations permute the cell (sum_shift).
- **C131 Point-group symmetric states on the triangular lattice have the declared symmetry** — The projections are averages of permuted tensors; entries in closed form give membership and idempotence. The amplitude on the torus is rewritten as a sum over the bonds of the honeycomb lattice of triangles and sites (square_simplex), on which the rotation and the reflection act by permuting bonds. VIOLATED in the last sentence: the models couple the neighbours (1,0), (0,1), (1,-1), the triangles of the ansatz join (1,0), (0,1), (1,1); C131_model_rotation_violated exhibits a symmetric A_1 state on the 3 x 3 torus whose wavefunction changes under the rotation by 120 degrees of the lattice of the models.
- **C132 Every sequence of operations keeps a symmetric triangular state consistent** — Hist generates all histories with a flag for states whose on-site tensor is out of date; the invariant build kind el = ok site is proved by induction. Padding with zeros and division by the maximum are followed entry by entry. VIOLATED: add_noise changes the elementary tensors of self without rebuilding its site (C132_noise_violated), extend_bond_dim of the second class drops the irreps (C132_extend_violated), the checkpoint of the optimizers keeps the tensors one level deeper than load_checkpoint looks (C132_checkpoint_violated); C132_checkpoint_partial is the round trip of get_checkpoint itself.
- **C133 Symmetric triangular states survive files** — From the round trip of one tensor in both formats (read_serialized) and the fact that equal elementary tensors give equal sites. VIOLATED: write_to_file of the second class calls an undefined name (C133_write_method_violated) and its writer ignores pg_symmetrize (C133_write_symmetrized_violated).
- **C134 Bipartite states from elementary tensors: tiling, site tensors, symmetry** — Parity of x+y by arithmetic with absolute values. The nested sums of the einsum are turned into one sum over assignments of the four directions; a lattice symmetry permutes the assignments and leaves the product of matrix elements alone. VIOLATED: states with an A_2 tensor and real bond tensors cannot be built, since the bond coefficients become complex and the bond tensors do not (C134_chiral_violated); get_aux_bond_dims raises if the physical dimension is 1 (C134_bond_dims_violated). The combination is proved if A_1 tensors are listed first, as in C78.
- **C135 Bipartite states from elementary tensors: histories** — Induction over histories. VIOLATED: load_checkpoint calls values() of dense tensors (C135_checkpoint_violated), move_to indexes the dictionary of tensors with 0 (C135_move_violated), load_checkpoint_lc_1site_pg of this file uses a name that is not defined (C135_load_function_violated).
- **C136 Bipartite states from elementary tensors survive files** — Round trip of one bond tensor by the lemma on loops of assignments; equal inputs give equal stacks, combinations and dressed tensors. VIOLATED: aux_seq is applied when writing and ignored when reading (C136_order_violated), complex tensors cannot be read back (C136_complex_violated).
- **C137 Initial environments of C4v symmetric states** — The computed blocks denote the traced networks (lemmas of C64); relabelling by a reflection conjugates them; change of basis by finite sums and unitarity of the eigenvectors (an existence proof by the spectral theorem shows the hypothesis is met). VIOLATED: RANDOM draws a half-row tensor that is not Hermitian (C137_random_violated); PROD fails for bond dimension one (C137_prod_violated) and for sites without physical index (C137_prod_single_violated). For PROD with complex tensors Hermiticity depends on the phase chosen by the eigensolver and is proved for real tensors only.
- **C138 Larger C4v environments and given tensors** — Lemmas on slices and assignments. VIOLATED: environments of sites without physical index cannot be extended, since extend assumes the squared bond dimension (C138_extend_violated); given tensors in a used environment leave the old corner outside the block (C138_given_violated).
- **C139 Multiplets of the corner spectrum** — Induction over the loop, generalised over the running count; uniqueness of sorted lists.
- **C140 Gauging a weighted state does not change its wavefunction** — Amplitudes are sums over all bond indices of a torus of arbitrary shape (any finite set with two permutations). Invariant of the loop over bonds: the entries of both ends come from one decomposition. Matrix algebra for one bond, a change of variables for the whole torus, induction over rounds. VIOLATED: eigenvalues below 1e-14 of the first are cut even if they are not zero; a state with relative amplitude 1e-8 loses a physical configuration for every backend (C140_gauge_violated).
- **C141 States of coupled ladders stay mirror images of one tensor** — Consistency (the state is the one the constructor makes from its parent) as an invariant of all histories; the rest follows from the invariant.
- **C142 Files of states of coupled ladders restore the parent tensor** — From the invariant of C141, the theorem on files of general states (C06). VIOLATED for any other index order, because it is ignored on writing (C142_order_violated).
- **C143 Operators: the reduced network is the trace, and files restore them** — Trace: exchange of sums and products on an arbitrary finite set with two permutations. Files: induction over the sites as in C05. VIOLATED: read_ipepo ignores the pattern in the file, so tilings other than the default are lost unless given again (C143_pattern_violated).
- **C144 One-site states keep tensor and wave vector through histories and files** — One tensor at the origin with the default tiling as an invariant of histories; files from C06. VIOLATED: the index order is ignored on writing (C144_order_violated); a wave vector that cannot be read is silently replaced by the argument (C144_damaged_violated).
- **C145 gen_3site produces a spiral** — Matrix exponential of Mathlib. Combinations of S^z and S^x are ladder operators of S^y, so a full turn commutes with all spin matrices; irreducibility makes it a scalar, orthogonality a sign. Then arithmetic modulo three.
- **C146 Files of symmetric tensors are read as written** — State machines over characters: one lemma per state, induction over the tensors; int and eval are parameters that may fail. Observation: a missing comma between entries, as in u1sym/D2_U1_B.txt, merges two entries without an error (C146_missing_comma).
- **C147 Importing symmetric tensors selects by irrep and fills zeros** — Induction over the elements (last one counts) and over the tensors (selection), on top of C146.
- **C148 Gradient descent visits the right states and keeps the best one** — Invariant of the loop over epochs: state, momentum buffer, losses, checkpoints and file as functions of the ideal trajectory; for crashes an invariant of the file that needs no assumption on the loss.
- **C149 A resumed gradient descent continues the run** — The invariant of C148 with a shifted start. VIOLATED: the loss in a checkpoint is that of the state before (C149_checkpoint_loss_violated); a resumed run overwrites a better state (C149_best_lost_violated); a new run ignores the dampening (C149_dampening_ignored) and a resumed one with overridden parameters uses it and leaves the trajectory (C149_dampening_violated).
- **C150 The energy of the J1-J2-lambda model is that of its Hamiltonian** — Expectation values of the rotated operators, on top of C98. VIOLATED for a staggered field: the constructor multiplies the four spin operators of a plaquette instead of adding them (C150_field says exactly what is added); the Neel state in a field 1 has energy -1/2, the value returned is -1/64 (C150_violated).
- **C151 The Ising energies of C4v states are those of the documented Hamiltonian** — Expectation values of two neighbours (C74) and of the plaquette (C73, C52). VIOLATED for a plaquette term: the sign of q is reversed (C151_plaquette_value); the ferromagnet with q = 1 has energy -1, the value returned is -3 (C151_violated).
- **C152 Randomised SVD returns singular triples of a projection, exact if the sample spans the range** — Mathlib matrices; torch's QR and SVD are parameters with their documented contract, shown satisfiable (exists_backend). Loop invariants: the columns span the range of M (normal equations, by rank) and contain (M M^H)^i M RN. Exact arithmetic; the backward pass is not modelled. The method for vnum = 2 that the comment announces is absent: the result is zero (C152_vnum_zero).
- **C153 Partial decompositions through scipy return sorted leading triples** — Mathlib matrices; eigsh, svds, scipy.linalg.svd and torch.sort are parameters with their documented behaviour. VIOLATED: right vectors of SVDSYMARNOLDI vanish for zero eigenvalues, so they are not orthonormal whenever k exceeds the rank (C153_sym_violated); SVDARNOLDI passes on the order of svds, which is not descending (C153_order_violated), and returns different numbers of vectors and values for rectangular matrices with k above the smaller dimension (C153_ragged_violated). That no larger value is left out by svds is its own contract and is not restated.

## Where the code does not satisfy the property (or only part is proved)

- **C06** (partial): Holds when the tiling is a period-cell tiling or when the tiling is passed explicitly; refuted (C06_bipartite_lost) for tilings that are not lX x lY periodic.
- **C07** (partial): Reading side proved; writing side refuted: write_ipeps ignores aux_seq.
- **C08** (partial): Growth and invariance of the state proved; 'unchanged on error' refuted for later offending sites and proved when the first site offends.
- **C101** (partial): Refuted: spsm and smsp are exchanged for every state, visible when the correlation is not symmetric; partial theorem for symmetric correlations and for the sum.
- **C102** (partial): Proved when the magnetisation has no y component; refuted for a product state with a y component, where ss changes; zero magnetisation gives nan.
- **C106** (partial): Refuted: HB returns the energy of the cell (four times the energy per site), COUPLEDCHAINS half of the energy per site; both factors proved for all states.
- **C107** (partial): The projector is proved. The energy is refuted: energy_1x1 returns the energy of one bond, half of the energy per site, proved for all states.
- **C108** (partial): Refuted: eval_obs raises for every state (the label anti_fm is never stored). The measured numbers are parameters of the model.
- **C109** (partial): Proved if the second site of the dictionary is the neighbour of the first; refuted on a 2x2 cell; one-site states raise.
- **C111** (partial): Refuted: the plaquettes at the corner of four tensors are missing. What is returned is proved for all states.
- **C112** (partial): Refuted: the values under sp and sm are exchanged. All other observables proved for all states.
- **C114** (partial): Refuted: rdm1x1_kagome reshapes the site tensor with the physical index in the wrong place (bonds larger than one); trace1x1_dn_kagome raises outside the cell. _old_rdm1x1_kagome is proved in full (C114_old); what rdm1x1_kagome returns is proved in full (C114_new).
- **C116** (partial): Refuted: the scalar chirality enters with the opposite sign. What is returned is proved for all couplings, spin dimensions, states and environments (C116_down, C116_up); complex dtype.
- **C117** (partial): Refuted: correlations contain j1 and JD, labels of the up triangle are shifted, disp_corre_len and P_dn raise. What is returned is proved for all couplings, spin dimensions, states and environments; complex dtype.
- **C12** (partial): Correct when Jx = Jy; refuted otherwise (C12_violated): the result is not Hermitian.
- **C120** (partial): Refuted: chirality_up of eval_obs has the wrong sign, labels of eval_C1 on the down triangle, energy_1site for more than one site. What is returned is proved for all couplings, states and environments (values from the one-site network need it to be Hermitian); complex dtype.
- **C121** (partial): Refuted: energy_triangle_up with j1, eval_su3_gens; energy_triangle_dn, P_dn, energy_nnn with j2 and the S1_KAGOME methods raise for every input. What is returned is proved for all couplings, states and environments; complex dtype.
- **C122** (partial): Refuted for energy_triangle_up, which raises for every input; everything else proved for all states, environments, directions and distances.
- **C123** (partial): Refuted: only the first component of the pitch vector is read, the spiral has the pitch (-q_x, q_x). For that pitch the energy is proved for all spins, couplings, states and environments (j2 = j4 = 0).
- **C125** (partial): eval_corrf_SS (canonical=False) and J1J2J4.eval_corrf_SS proved in full. Refuted: canonical=True when the magnetisation has a y component (and it raises for spins other than one half); eval_corrf_SId rotates by x+y instead of x-y. rl_0 is not modelled; complex dtype.
- **C127** (partial): The bond (x+2,y)-(x,y+1) is turned in the wrong sense: the exact deviation is proved for all inputs, the energy is right if sin(6 pi q) = 0, and a state is shown for which it is wrong. The compressed variants (compressed > 0) are not modelled; complex dtype.
- **C131** (partial): Everything except the last sentence is proved; the last sentence is refuted: the rotation of the ansatz is not the rotation of the lattice of the models.
- **C132** (partial): Three clauses are refuted: the state on which add_noise was called has a stale site, the second class loses its irreps in extend_bond_dim, and checkpoints of the optimizers cannot be loaded.
- **C133** (partial): The round trip is proved for both classes; refuted for the second class: write_to_file raises, pg_symmetrize is ignored.
- **C134** (partial): Tiling and symmetry are proved in full; the formula for the sites if A_1 tensors come first. Refuted: building states with both irreps and real bond tensors, bond dimensions for physical dimension 1.
- **C135** (partial): Consistency and clones are proved for all histories; restoring and moving are refuted, they always raise.
- **C136** (partial): Proved for real states and the default order; refuted for other orders and complex tensors. normalize=True is not modelled.
- **C137** (partial): CTMRG and CTMRG_OBC are proved; RANDOM and PROD are refuted in part. PROD is Hermitian for real tensors.
- **C138** (partial): Proved for double-layer environments and fresh environments; refuted for environments of sites without physical index and for used environments.
- **C140** (partial): Everything proved; equality of amplitudes if no eigenvalue was cut, refuted otherwise. Rank-deficient bonds (eigenvalue exactly zero) are excluded by the same hypothesis.
- **C142** (partial): Proved for the default order on reading; refuted for other orders.
- **C143** (partial): Trace proved in full. Files: proved if the tiling is given on reading or is the default one; refuted otherwise. to_fused_ipeps is not modelled.
- **C144** (partial): Histories proved in full. Files: proved for the default order on reading; refuted for other orders and damaged files.
- **C149** (partial): The trajectory continues if the parameters are not overridden or the dampening is zero; the other parts are refuted.
- **C15** (partial): Refuted for B2: the projector annihilates B2 tensors. What the B2 code computes is stated by C15_B2_partial.
- **C150** (partial): Holds without a staggered field; refuted with one: the field term is a product of four spins.
- **C151** (partial): Holds without the plaquette term; its sign is wrong as in C52. energy_1x1_nn is proved for symmetric corners and norms with non-zero real part.
- **C153** (partial): Triples, order and orthonormality hold where stated; refuted: right vectors of SVDSYMARNOLDI beyond the rank, order and shape of SVDARNOLDI.
- **C17** (partial): Holds whenever one of the first chi gaps exceeds eps_multiplet; refuted (C17_violated) when the leading chi+1 values form one multiplet.
- **C18** (partial): Proved for every backend but truncated_svd_propack without keep_multiplets, which returns the untruncated factors (C18_propack_violated).
- **C20** (partial): Proved for non-singular matrices; refuted for singular ones, where sign(0)=0 makes V non-isometric.
- **C27** (partial): Proved when all environment axes have size chi; tensors with smaller axes make extend raise, or are broadcast if the axis has size 1.
- **C34** (partial): 3x1 is correct when two right bonds have the same size and raises otherwise; 1x3 mislabels the upper index of the third ket and is correct only if that bond has size one.
- **C35** (partial): Correct for one and two sites (all the library uses); wrong labels for three sites; IndexError for four or more.
- **C36** (partial): The operator is inserted transposed: proved for symmetric operators, refuted in general.
- **C37** (partial): One row: exact up to the transposition of C36. Two rows: the singular values are dropped, refuted with 2*swap for every SVD backend; up and left raise.
- **C38** (partial): Values proved for every distance, with the transposed operators of C36; the result has dist+1 entries, not dist as documented. The option rl_0 is not modelled.
- **C40** (partial): Holds when no trial evaluation raises; refuted when one does: the parameters stay displaced and the step applied afterwards is not the evaluated one.
- **C42** (partial): The file holds the best state among the evaluations of the gradient closure; refuted when trial evaluations of the line search count, because the two closures keep separate minima.
- **C43** (partial): Refuted: the checkpoint holds the parameters after the step and the loss before it; the partial theorems state what is paired.
- **C44** (partial): Proved for ad_optim_lbfgs_mod and checkpoints that contain the buffer 'al'; refuted for the checkpoint after the first step (KeyError) and for ad_optim.py (ro padded with None).
- **C45** (partial): Proved without line search or with Nesterov; refuted with line search and ordinary momentum.
- **C47** (partial): Proved for tidy names; refuted for script options containing the name of a group or a double underscore.
- **C48** (partial): Proved for moves by eigendecomposition (any tensor) and, for real tensors, by QR; refuted for QR with complex tensors. FPCM acceleration is not modelled.
- **C50** (partial): Exact value proved for every coupling; it is the documented energy except that a uniform field along y enters with the opposite sign.
- **C51** (partial): Only the bonds that start at (0,0) are evaluated: proved as such, right for cells with equivalent sites, refuted for a cell of three columns.
- **C52** (partial): The plaquette term enters with the opposite sign: exact value proved, right without the term, refuted with it.
- **C55** (partial): Refuted for rectangular matrices; proved for square ones.
- **C56** (partial): Refuted: with tolerance_change > 0 every step makes one pass.
- **C57** (partial): Holds when no trial raises and the starting step exceeds line_search_eps; refuted otherwise.
- **C58** (partial): Proved for losses that do not depend on the warm-started environment, without exceptions, with backtracking or at most one iteration per epoch, and no early stop.
- **C59** (partial): Refuted: resuming resets the minimum.
- **C60** (partial): Proved but for the single-layer RIGHT absorption, which unfuses T with the size of the left instead of the right bond of the site: it raises when they differ (C60_rightT_violated).
- **C61** (partial): Proved for the 4X4 projectors in double-layer mode for every bond pattern, and in single-layer mode when no RIGHT move meets unequal left/right bonds; refuted for single-layer RIGHT moves on unequal bonds and for the 4X2 projectors on unequal uncontracted bonds, which raise.
- **C62** (partial): Proved unless a RIGHT move meets a site whose left and right bonds differ, where the single-layer mode raises.
- **C63** (partial): Holds for the Frobenius norm; refuted for the default norm, which takes a maximum and no square root of a sum.
- **C65** (partial): CTMRG conjugates the bra (C64_init); CTMRG_OBC does not (C65_violated), which is harmless for real tensors only.
- **C66** (partial): Proved but for rdm1x1 in double-layer mode, which raises for vertices outside the unit cell.
- **C69** (partial): Operators enter transposed (C36) and, in the two-row version, without their singular values (C37).
- **C74** (partial): Proved for every function except rdm1x1_sl with a half-row tensor that is not symmetric, which is refuted.
- **C75** (partial): Equality with the general function and all directions proved in full. The documented value holds for symmetric operators; other operators are inserted transposed (as in C36), and dist+1 values are returned.
- **C76** (partial): Proved for real decompositions (operators transposed), two rows with a symmetric half-row. Refuted for complex operators and for a Hermitian half-row.
- **C77** (partial): Proved for real states in the default order, normalize=False; other orders relabel the axes, complex states cannot be read back.
- **C78** (partial): Symmetry proved in full; the combination for lists with A_1 before A_2, refuted otherwise.
- **C79** (partial): Proved for constructor, reader, load_checkpoint, add_noise and clone; move_to and load_checkpoint_lc_1site_pg refuted.
- **C81** (partial): Proved in full for physical dimension 2; refuted for 1 and for 3 or more.
- **C83** (partial): Proved for bases that are subsets, including all generated ones; the check that refuses other bases is refuted.
- **C88** (partial): Consistency and symmetry proved in full; old checkpoints with three bond tensors and releasing the identification of triangles are refuted.
- **C89** (partial): Consistency, combination and symmetry proved in full; the meaning of coefficients for lists grouped by irrep; updates without both identifications refuted.
- **C90** (partial): Proved for point-group symmetric states; refuted for generic states, where the call always fails.
- **C91** (partial): Round trip in full for point-group symmetric states and a sufficient dtype; for generic states when the tiling repeats with its cell. Missing: other tilings, old files and real dtype for complex states are refuted.
- **C94** (partial): Proved for left and up, and for all directions in cells of at most two sites along the direction; refuted for right in a cell of three sites.
- **C95** (partial): Values proved in full. Descending order only if the solver returns by increasing modulus; refuted otherwise.
- **C96** (partial): Width one proved in full. Width two and boundary operator: values proved in full, descending order depends on the solver and is refuted for another solver.
- **C97** (partial): Proved if the left boundary operator is symmetric (real states); refuted for a complex state.
- **C99** (partial): Proved without staggered field; with a staggered field the sign is opposite, refuted by the Neel state.

## Modelled files

| Lean area | Code in /repo |
|---|---|
| `Lattice` | `ipeps/ipeps.py` tilings: `from_pattern`, `IPEPS.__init__`, `site`, `vertexToSite` |
| `Tensor` | `torch` shapes, flat order, `permute`, `tensordot`, `view`, `einsum`, `conj` (`Ops`); `Net`: which labelled network sum a tensor denotes. Broadcasting of size-1 axes is not modelled |
| `State` | `ipeps/ipeps.py` read/write/aux order/bond growth/weights, `ipeps/tensor_io.py` |
| `Group` | `groups/pg.py`, `groups/su2.py`, `groups/su3.py` (`Su3*`), `models/j1j2.py: _conjugate_op`, permutation parity / Levi-Civita helpers |
| `Linalg` | `linalg/*` truncation, sign fixing, backward passes |
| `Optim` | `optim/lbfgs_modified.py`, `optim/sgd_modified.py: step_2c`, `optim/ad_optim_lbfgs_mod.py: optimize_state` (closures, state file, checkpoints, stop rules), resume code of `optim/ad_optim.py`, `optim/fd_optim_lbfgs_mod.py: grad_fd` |
| `Ctm` | `ctm/generic/ctm_components.py` corners and halves, `ctm/generic/ctm_projectors.py`, `ctm/generic/ctmrg.py` absorption, normalisation, `ctm_MOVE`, `run`, `run_overlap`; `ctm/generic/env.py` `ctmrg_conv_specC`, `extend`, `init_from_ipeps_pbc`, `init_from_ipeps_obc`; a division by a zero norm is the error `nan` |
| `Rdm` | `ctm/generic/rdm.py` symmetrisation, `rdm1x1`, `rdm2x1`, `rdm1x2` in both modes, `rdm2x2` (all implementations), `rdm2x2_NNN_11`, `rdm2x2_NNN_1n1`, `eval_mpo_rdm2x2_oe`, `eval_mpo_rdm1x3_oe`, `eval_mpo_rdm3x1_oe`, `_get_mps_tn`, `_get_id_tn`, `eval_mpo_rdm2x1`, `eval_mpo_rdm1x2`, `eval_mpo_rdm2x2_NNN_1n1`; `Spec`, `Networks`, `PlaqSpec`, `PlaqNet`, `PlaqNet2`, `TripleSpec`, `TripleNet` are generated (labels follow the drawings in the code) |
| `Oe` | `oe_ext/oe_ext.py` `contract_with_unroll` (opt_einsum backend), `contract_with_unroll_legacy` |
| `Corrf` | `ctm/generic/corrf.py` `get_edge`, `get_edge_2`, `apply_edge`, `apply_TM_1sO`, `apply_TM_2sO_1sChannel`, `apply_TM_2sO_2sChannel`, `corrf_1sO1sO` (without `rl_0`), `corrf_2sOH2sOH_E1`, `corrf_2sOV2sOV_E2`; not `apply_TM_0sO`; `Net`, `Strip`, `Wide` are generated |
| `Config` | `config.py` `get_args_parser`, `configure`, `_storeTrueOrString`, and the actions of argparse they use; not logging, not callable values |
| `C4v` | `ctm/one_site_c4v/ctm_components_c4v.py` `c2x2_dl`, `c2x2_sl`; `ctmrg_c4v.py` `run`, `run_dl`, `ctm_MOVE_dl`, `ctm_MOVE_sl`, `ctm_MOVE_QR_sl`, `_move_normalize_c`; not FPCM; `rdm_c4v.py` `rdm1x1(_sl)`, `rdm2x1(_sl)`, `rdm3x1(_sl)`, `rdm2x2`, `rdm2x2_NN_lowmem(_sl)`, `rdm2x2_NNN_lowmem(_sl)` and their helpers, not `rdm3x2_NNNN`, `ddA_rdm1x1`, `aux_rdm*`; `Net`, `RdmNet`, `RdmNet2`, `RdmNet3` are generated; `corrf_c4v.py` all functions except `rl_0` |
| `Energy` | `models/j1j2.py` class J1J2: `__init__`, `get_h`, `energy_per_site`, `energy_2x2_1site_BP`, `get_nnnn`, `eval_corrf_SS`, `eval_corrf_SpSm`, `eval_obs`, `eval_obs_1site_BP`; class J1J2_C4V_BIPARTITE: `__init__`, `energy_1x1`, `energy_1x1_lowmem`, `eval_corrf_SS` (`rl_0=None`), `eval_obs`; `models/ising.py` class ISING: `get_h`, `energy_1x1`; density matrices come from `Rdm`, correlations from `Corrf`; real parts as in `_cast_to_real` |
| `State/Lc*` | `ipeps/ipeps_lc.py` IPEPS_LC, IPEPS_LC_1SITE_PG, `from_json_str`, `write_ipeps_lc_1site_pg` (`normalize=False`), checkpoints, `clone`, `add_noise` (random vector and rescaling as parameters), `move_to`; complex numbers as pairs |
| `Group/Basis*` | `u1sym/basis.py`, all functions (exact arithmetic; `rebase_params` with the random vector as a parameter) |
| `State/Kagome*` | `ipeps/ipess_kagome.py` IPESS_KAGOME_GENERIC, IPESS_KAGOME_PG, IPESS_KAGOME_PG_LC: constructors, `build_onsite_tensors`, `build_elem_tensors`, `update_`, checkpoints, `add_noise` (random numbers as parameters), `extend_bond_dim`, `symmetrize_`, `to_PG_symmetric`, readers and writers; NaN is an error value; broadcasting of axes of size 1 is not modelled |
| `Transfer` | `ctm/generic/transferops.py` (except `get_full_EH_spec_Ttensor`), `ctm/one_site_c4v/transferops_c4v.py`, `ctm/generic/corrf.py` `apply_TM_0sO`; scipy's `eigs` and numpy's `argsort` are parameters, division by a zero eigenvalue is an error value |
| `Models` | `models/hb.py`, `models/hb_anisotropy.py`, `models/akltS2.py`, `models/coupledLadders.py`, `models/jq.py` (`JQ`, `JQ_C4V`, `JQ_C4V_BIPARTITE`, `JQ_C4V_PLAQUETTE`): Hamiltonians and energies (`energy_2x1_1x2`, `energy_2x2_4site`, `energy_1x1`), `COUPLEDCHAINS.eval_dimer_operator` and the dictionary of `eval_obs`; spins of any size where the class allows it |
| `Kagome` | `ctm/pess_kagome/rdm_kagome.py` `double_layer_a`, `enlarged_corner`, `rdm2x1_kagome`, `rdm1x2_kagome`, `rdm2x2_kagome`, `rdm2x2_up_triangle_open`, `rdm2x2_dn_triangle_with_operator`, `trace1x1_dn_kagome`, `rdm1x1_kagome`, `_old_rdm1x1_kagome`; `models/spin_half_kagome.py` `eval_obs`, `P_dn`, `P_up`, constructor, `energy_triangle_dn`, `energy_triangle_up`; `models/su3_kagome.py` KAGOME_SU3 (all methods; `phys_dim` 3); `models/SU3_chiral.py`, `models/SU3_AKLT.py`, `models/spin1_kagome.py` (all methods; `Chiral*`, `Aklt*`); `ipeps/ipeps_kagome.py` `get_physical_dim` (exact cube root). `Model`: functions; `Spec`: partial traces; `Net`, `Pair`, `Layer`, `Unfuse`, `Block`, `Plaq*`, `Pair2`, `Marginal`: lemmas; `Props`, `Example`: theorems and a concrete state; `Tri*`, `UpProps`: three-spin operators; `Ham*`: Hamiltonian and energies of the triangles; `Su3*`: KAGOME_SU3; `ProductState`: plaquettes of product states |
| `Trgl` | `models/spin_triangular.py`: `eval_nn_per_site`, `eval_nn_and_chirality_per_site`, `eval_obs_chirality`, `eval_nnn_per_site`, `eval_nnn_per_site_semimanual` (`compressed <= 0`), `eval_j1j2j4jX_per_site_legacy` (with index unrolling, and without it in `ManualModel`), `J1J2J4_1SITEQ.get_h`, `energy_per_site`, `eval_obs`, `eval_corrf_SS`, `eval_corrf_SId`, `J1J2J4.eval_corrf_SS` (`rl_0=None`); exact matrix exponentials, complex dtype. `Spec`: spiral states; `Spins`, `Turned`: rotations of n spins; `Nnn*`: next-nearest neighbours; `Hold`: what the contractions hold; `Product`: density matrices of product states for any spin; `Witness`: examples and the refutation |
| `Rdm/Six*` | `ctm/generic/rdm_looped.py` `rdm2x3_loop_oe`, `rdm2x3_loop_oe_semimanual`, `rdm3x2_loop_oe`, `rdm3x2_loop_oe_semimanual`; `SixModel`, `SixSpec`, `SixLabels`, `Six23`, `Six32` are generated |
| `Rdm/Manual*` | `ctm/generic/rdm_looped.py` `rdm2x3_loop_trglringex_manual`, `rdm3x2_loop_trglringex_manual`; `ManualCorners`, `ManualBody23`, `ManualBody32`, `ManualCore` are generated |
| `State/TrglPg*` | `ipeps/ipeps_trgl_pg.py`, both classes: constructors, `build_onsite_tensors`, `_to_PG_symmetric`, `to_PG_symmetric`, `add_noise` (random numbers as parameters), `normalize_`, `extend_bond_dim`, checkpoints, readers and writers; broadcasting of axes of size 1 is not modelled |
| `State/LcBp*` | `ipeps/ipeps_lc_bp.py`: `IPEPS_LC_BP` except `__str__`, `read_ipeps_lc_bp`, `write_ipeps_lc_bp` (`normalize=False`), `load_checkpoint_lc_1site_pg`; broadcasting of axes of size 1 in the contraction of the bonds is not modelled |
| `C4v/Init*` | `ctm/one_site_c4v/env_c4v.py`: `ENV_C4V.__init__`, `extend`, `init_env` with all options, `compute_multiplets`; `clone`, `detach` and `print_env` are not modelled |
| `State/Gauge*` | `ipeps/ipeps.py` `IPEPS_WEIGHTED.gauge`; dictionaries are functions of their keys; `eigh` and `svd` are parameters with contracts; NaN is not modelled |
| `State/D2*` | `ipeps/ipeps_d2.py`: `IPEPS_D2SYM`, `extend_bond_dim`, `read_ipeps_d2`, `write_ipeps_d2` (`normalize=False`); `make_d2_symm` of `groups/pg.py` without broadcasting of axes of size one |
| `State/Ipepo*` | `ipeps/ipeps.py`: `IPEPO` except `to_fused_ipeps` and `__str__`, `read_ipepo`, `write_ipepo` (`normalize=False`) |
| `State/Q1*`, `State/Spiral*` | `ipeps/ipeps_1s_Q.py`: `IPEPS_1S_Q` except `__str__`, `get_parameters`; `read_ipeps_1s_q`, `write_ipeps_1s_q` (`normalize=False`), `gen_3site` with the exact matrix exponential |
| `Sym` | `su2sym/sym_ten_parser.py` and `u1sym/sym_ten_parser.py` except `import_sym_bonds`; `int` and `eval` are parameters |
| `Optim/SgdLoop*` | `optim/ad_optim_sgd_mod.py` `optimize_state`, `store_checkpoint`; torch SGD with momentum and dampening; no logging, no observables |
| `Energy/Lambda*` | `models/j1j2lambda.py`: operators of `__init__`, `energy_1x1`; complex dtype |
| `Energy/IsingC4v*` | `models/ising.py` class ISING_C4V: `get_h`, `energy_1x1_nn`, `energy_1x1_plaqette`; complex dtype |
| `Linalg/Rsvd*` | `linalg/svd_rsvd.py` `rsvd` (forward); the random matrix is an argument, QR and SVD of torch are parameters |
| `Linalg/Arnoldi*` | `linalg/svd_arnoldi.py` SVDSYMARNOLDI, SVDARNOLDI, SVD_PROPACK and `linalg/eig_arnoldi.py` SYMARNOLDI: forward passes; scipy and torch.sort are parameters |

## Trusted base

- Lean 4.33.0's kernel; the axioms `propext`, `Classical.choice`, `Quot.sound` (Mathlib's standard three) at most.
- The reading of the Python source recorded in the definitions' comments (the code is not executed here).
- Exact arithmetic instead of IEEE floating point: rounding, NaN/inf and overflow are not modelled.
- Numerical kernels (LAPACK SVD/eig, torch autograd engine, opt_einsum path finder) are not modelled; they appear as
  parameters with stated hypotheses.
- Text formats of numbers and coordinates are parameters with the hypothesis that printing can be parsed back (`NumFmt.Lawful`,
  `CoordFmt.Lawful`); Kagome files use rational numbers (floats are rational).

## Not modelled

GPU/device placement, logging, timing, memory checkpointing (except where its value-level effect is the identity),
random initialisation, plotting, the `examples/` drivers, and the yastn-based abelian backends.

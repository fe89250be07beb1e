{"id": "C01", "title": "Default tiling is the periodic reduction of the plane", "statement": "An IPEPS built without an explicit vertexToSite or pattern maps every vertex (x,y) of the infinite square lattice, including negative coordinates, to the unique site (x mod lX, y mod lY) of the elementary cell; the map is idempotent, invariant under translations by (lX,0) and (0,lY), and never leaves the cell.", "quantifier": "every integer vertex (x,y) and every cell size lX,lY>=1", "why_tests_cant": "The lattice is infinite in both directions and the cell sizes are unbounded; tests probe a handful of vertices.", "anchors": ["ipeps/ipeps.py: IPEPS.__init__ (default vertexToSite)", "ipeps/ipeps.py: IPEPS.site"]}
{"id": "C02", "title": "from_pattern accepts exactly the well-formed tilings", "statement": "from_pattern succeeds exactly when the pattern is a non-ragged rectangle anchored at (0,0) and every label always sees the same four neighbouring labels under periodic wrap-around; on success it returns one representative per label, the lexicographically smallest position carrying that label, in sorted order, and on every other input it raises an error.", "quantifier": "every pattern: any width, height and assignment of labels, given as a dictionary of positions or as a list of rows", "why_tests_cant": "Patterns of any size with any labelling; the neighbour condition ranges over all pairs of positions.", "anchors": ["ipeps/ipeps.py: from_pattern"]}
{"id": "C03", "title": "A pattern-built tiling is translation consistent", "statement": "For an IPEPS built from an accepted pattern, vertexToSite is defined for every vertex, always returns one of the listed sites, maps two vertices to the same tensor iff they carry the same label, and if two vertices map to the same site then so do their left, right, upper and lower neighbours.", "quantifier": "every accepted pattern and every pair of integer vertices", "why_tests_cant": "Infinite lattice and unbounded patterns; CTMRG moves silently rely on this for every vertex.", "anchors": ["ipeps/ipeps.py: from_pattern", "ipeps/ipeps.py: IPEPS.__init__ (pattern branch)"]}
{"id": "C04", "title": "Elementary-cell size and tiling precedence of the constructor", "statement": "The IPEPS constructor takes the tiling from vertexToSite if given, else from the pattern, else the periodic default; the cell size comes from the pattern if given, else from explicit lX and lY, else from the extent of the site coordinates (max-min+1 along each axis); combinations with no way to determine them raise instead of producing a state.", "quantifier": "every combination of given/omitted arguments and every set of site coordinates", "why_tests_cant": "Decision logic over all argument combinations and all coordinate sets.", "anchors": ["ipeps/ipeps.py: IPEPS.__init__"]}
{"id": "C05", "title": "Saving and loading a state preserves every tensor", "statement": "read_ipeps applied to the file produced by write_ipeps returns sites at the same coordinates with the same dimensions and, entry by entry, the same real or complex values, both for the entry-list (legacy) and for the flat (1D) on-disk format.", "quantifier": "every finite set of sites, every tensor shape and content, real or complex, both file formats", "why_tests_cant": "Round trip over all shapes and contents; the two formats linearise indices differently.", "anchors": ["ipeps/ipeps.py: write_ipeps, _write_ipeps_json, read_ipeps", "ipeps/tensor_io.py: serialize_bare_tensor_legacy, serialize_bare_tensor_np, read_bare_json_tensor_np_legacy, read_bare_json_tensor_np"]}
{"id": "C06", "title": "Saving and loading a state preserves the tiling", "statement": "The state read back from a written file (without passing vertexToSite) tiles the infinite lattice with the same tensors as the state that was written.", "quantifier": "every tiling function and every vertex of the infinite lattice", "why_tests_cant": "The tiling is a function on an infinite lattice while the file stores a finite rectangle.", "anchors": ["ipeps/ipeps.py: _write_ipeps_json (pattern)", "ipeps/ipeps.py: read_ipeps"]}
{"id": "C07", "title": "aux_seq relabels auxiliary directions on reading", "statement": "read_ipeps with an auxiliary ordering aux_seq returns, for every site, the stored tensor with physical index kept first and auxiliary index k of the result equal to stored auxiliary index aux_seq[k]; writing with a non-default aux_seq and reading with the same one gives back the original tensor.", "quantifier": "every permutation of the auxiliary directions and every tensor", "why_tests_cant": "All permutations and all shapes/contents.", "anchors": ["ipeps/ipeps.py: read_ipeps (aux_seq)", "ipeps/ipeps.py: _write_ipeps_json (aux_seq)"]}
{"id": "C08", "title": "Growing the bond dimension embeds the same wavefunction", "statement": "extend_bond_dim returns a state whose tensors agree with the originals on the old index ranges and vanish elsewhere, so every contraction over auxiliary bonds is unchanged; asking for a smaller dimension raises ValueError and leaves the state unchanged.", "quantifier": "every state, every target dimension, every contraction over bonds", "why_tests_cant": "All shapes and contents; the error path depends on the order in which sites are processed.", "anchors": ["ipeps/ipeps.py: extend_bond_dim"]}
{"id": "C09", "title": "Bond weights are shared by the two ends of each bond", "statement": "For a weighted iPEPS the weight found from a site in direction d and the weight found from its d-neighbour in direction -d are the same object for every bond of the tiling, and absorbing the square roots of the weights into the sites gives an unweighted state whose bond contraction equals the weighted one.", "quantifier": "every tiling, every bond, all non-negative weights", "why_tests_cant": "Every bond of an arbitrary tiling, and all weights and tensors.", "anchors": ["ipeps/ipeps.py: IPEPS_WEIGHTED.generate_weights, weight, absorb_weights"]}
{"id": "C10", "title": "SU(2) spin operators satisfy the spin algebra in every representation", "statement": "For every dimension m the matrices returned by SZ, SP, SM satisfy [Sz,S+]=S+, [Sz,S-]=-S-, [S+,S-]=2Sz, SM is the adjoint of SP, and Sz^2+(S+S- + S-S+)/2 = S(S+1) times the identity with S=(m-1)/2.", "quantifier": "every representation dimension m>=1", "why_tests_cant": "Infinite family of representations; tests check m=2,3.", "anchors": ["groups/su2.py: get_op, SU2.SZ, SU2.SP, SU2.SM"]}
{"id": "C11", "title": "The isotropic exchange operator is the SU(2)-invariant S.S", "statement": "SS() equals SxSx+SySy+SzSz as a two-site operator with indices s0 s1;s0' s1', is Hermitian, and commutes with every component of the total spin.", "quantifier": "every dimension m of the local spin", "why_tests_cant": "Infinite family of representations.", "anchors": ["groups/su2.py: SU2.SS"]}
{"id": "C12", "title": "The anisotropic exchange operator follows its documented couplings", "statement": "SS(xyz=(Jz,Jx,Jy)) equals Jz SzSz + Jx SxSx + Jy SySy, and in particular is Hermitian for real couplings.", "quantifier": "every dimension m and every triple of couplings", "why_tests_cant": "Three real parameters and all representations.", "anchors": ["groups/su2.py: SU2.SS", "models/j1j2.py: SS_delta_zz"]}
{"id": "C13", "title": "The sublattice rotation flips the spin axis", "statement": "The matrix R returned by get_rot_op is orthogonal and satisfies R^T Sz R = -Sz, R^T S+ R = -S-, R^T S- R = -S+ for every spin, so rotating one sublattice maps the Neel pattern to a uniform one.", "quantifier": "every dimension m", "why_tests_cant": "Infinite family of representations.", "anchors": ["groups/su2.py: get_rot_op", "models/j1j2.py: _conjugate_op"]}
{"id": "C14", "title": "C4v symmetrisation is a projection onto its irrep (A1, A2, B1)", "statement": "make_c4v_symm for irrep A1, A2 or B1 is linear, idempotent, its result transforms under every lattice rotation and reflection with the character of that irrep, and it leaves already symmetric tensors unchanged.", "quantifier": "every rank-5 site tensor of every physical and auxiliary dimension", "why_tests_cant": "All dimensions and contents; an operator identity.", "anchors": ["groups/pg.py: make_c4v_symm, make_c4v_symm_A1, make_c4v_symm_A2, make_c4v_symm_B1"]}
{"id": "C15", "title": "C4v symmetrisation into B2 is a projection onto the B2 irrep", "statement": "make_c4v_symm with irrep B2 returns a tensor transforming in the B2 irrep of C4v and leaves B2-symmetric tensors unchanged.", "quantifier": "every rank-5 site tensor", "why_tests_cant": "All dimensions and contents.", "anchors": ["groups/pg.py: make_c4v_symm_B2"]}
{"id": "C16", "title": "Permutation parity is the sign of the permutation", "statement": "The parity computed from the cycle decomposition equals the sign of the permutation for permutations of any length, hence is multiplicative and the Levi-Civita tensors built from it are totally antisymmetric.", "quantifier": "every permutation of every finite length", "why_tests_cant": "Unbounded length; factorially many inputs.", "anchors": ["groups/permutations.py: cycleDecomp, parity", "groups/permutations.py: levi_civita_3D"]}
{"id": "C17", "title": "Truncation never splits a multiplet when told to keep multiplets", "statement": "With keep_multiplets the truncated decomposition keeps a prefix of the spectrum whose end is a genuine gap: either nothing is cut inside a degenerate group, or the whole degenerate group reaching the cut is dropped; at most chi values are non-zero and each kept value is the original one.", "quantifier": "every non-increasing spectrum of any length, every chi, every tolerance", "why_tests_cant": "All spectra, including those degenerate down to the first value.", "anchors": ["linalg/custom_svd.py: truncated_svd_gesdd", "linalg/custom_eig.py: truncated_eig_sym"]}
{"id": "C18", "title": "Every truncated decomposition returns at most chi values", "statement": "Each truncated_svd_* / truncated_eig_* routine returns at most chi singular values (eigenvalues) and correspondingly many vectors.", "quantifier": "every backend, every input size, every chi", "why_tests_cant": "All sizes and backends.", "anchors": ["linalg/custom_svd.py: truncated_svd_gesdd, truncated_svd_symeig, truncated_svd_propack"]}
{"id": "C19", "title": "Sign fixing does not change the decomposed matrix and is canonical", "statement": "After sign fixing, U diag(S) V^dagger is unchanged, the columns keep unit norm, and the result does not depend on the phases the SVD routine happened to choose.", "quantifier": "every factorisation, every choice of column phases", "why_tests_cant": "A continuum of phase choices.", "anchors": ["linalg/svd_gesdd.py: fix_svd_signs (SVDGESDD.forward)"]}
{"id": "C20", "title": "SVD of a symmetric matrix through its eigendecomposition is a valid SVD", "statement": "svd_symeig of a symmetric (Hermitian) matrix returns U,S,V with A = U diag(S) V^dagger, S non-negative and non-increasing, U and V isometric.", "quantifier": "every symmetric matrix of every size and every valid eigendecomposition of it", "why_tests_cant": "All matrices and sizes.", "anchors": ["linalg/svd_symeig.py: SVDSYMEIG.forward", "linalg/eig_sym.py: SYMEIG.forward"]}
{"id": "C21", "title": "The backward pass of the symmetric eigensolver is the adjoint of its differential", "statement": "For a spectrum without degeneracies and zero regularisation, the gradient returned by the eigensolver's backward equals the adjoint of the first-order perturbation map: pairing it with any symmetric perturbation dA gives the same number as pairing the incoming gradients with the induced dD and dU.", "quantifier": "every size, every orthogonal U and distinct eigenvalues, every incoming gradient and perturbation", "why_tests_cant": "An identity over continuous data of any size.", "anchors": ["linalg/eig_sym.py: SYMEIG.backward"]}
{"id": "C22", "title": "The regularised inverse is a bounded, odd approximation of 1/x", "statement": "safe_inverse(x, eps)=x/(x^2+eps) equals 1/x when eps=0 and x!=0, is odd, is finite for every x including 0 when eps>0, and never exceeds 1/(2 sqrt(eps)) in magnitude.", "quantifier": "every real x and every eps>=0", "why_tests_cant": "Continuum of values.", "anchors": ["linalg/svd_gesdd.py: safe_inverse", "linalg/eig_sym.py: safe_inverse"]}
{"id": "C23", "title": "CTMRG projectors are biorthogonal on the kept space and exact without truncation", "statement": "Given an exact SVD of R^T R~, the projectors P, P~ satisfy P~^T P = identity on the kept singular values (and zero on the padded ones), P P~^T acts as identity between R and R~ when no non-zero singular value is dropped, and inserting them then leaves R^T R~ unchanged.", "quantifier": "all matrices R, R~ of all sizes, every chi and tolerance", "why_tests_cant": "All sizes and contents.", "anchors": ["ctm/generic/ctm_projectors.py: ctm_get_projectors_from_matrices"]}
{"id": "C24", "title": "A CTM move updates exactly the tensors of its direction", "statement": "A directional move replaces, for every site of the cell, exactly the two corners and the one half-row/column tensor facing that direction at the site shifted against the direction, each computed from the pre-move environment, and leaves all other environment tensors untouched.", "quantifier": "every tiling whose shift is a bijection of sites, every direction, every environment", "why_tests_cant": "All tilings and all environments; aliasing bugs show only on multi-site cells.", "anchors": ["ctm/generic/ctmrg.py: ctm_MOVE"]}
{"id": "C25", "title": "CTMRG run performs the documented sequence of moves and stops", "statement": "run performs, per iteration, the four directional moves in the configured order, each repeated lX times (horizontal) or lY times (vertical), stops at the first iteration at which the convergence check says so, and never exceeds ctm_max_iter iterations; the history has one entry per convergence check.", "quantifier": "every configuration (order, cell size, iteration limit), every convergence function", "why_tests_cant": "The convergence callback is arbitrary and iteration counts unbounded.", "anchors": ["ctm/generic/ctmrg.py: run, run_overlap"]}
{"id": "C26", "title": "Corner-spectrum convergence means two consecutive spectra agree", "statement": "The corner-spectrum convergence check reports convergence exactly when at least two measurements exist and the latest difference is below tolerance, or the iteration limit has been reached; the first call never reports convergence by tolerance.", "quantifier": "every history of spectra and every tolerance/limit", "why_tests_cant": "All histories.", "anchors": ["ctm/generic/env.py: ctmrg_conv_specC"]}
{"id": "C27", "title": "Changing chi of an environment embeds or truncates it", "statement": "ENV.extend returns an environment over the same sites and directions in which every tensor agrees with the old one on the common index ranges and is zero elsewhere; extending then truncating back is the identity.", "quantifier": "every environment and every pair of environment dimensions", "why_tests_cant": "All shapes and contents.", "anchors": ["ctm/generic/env.py: ENV.extend"]}
{"id": "C28", "title": "Enlarged corners equal their tensor network in double-layer and single-layer mode", "statement": "Each of the four enlarged corners equals the explicit sum over internal bonds of corner x transfer tensors x site x conjugate site drawn in its documentation, and the double-layer and single-layer (memory saving) evaluation agree entry by entry, for open and closed physical indices.", "quantifier": "every set of tensors with matching dimensions, all bond dimensions, real or complex", "why_tests_cant": "All dimensions (including unequal ones on different legs) and contents.", "anchors": ["ctm/generic/ctm_components.py: c2x2_LU, c2x2_RU, c2x2_RD, c2x2_LD"]}
{"id": "C29", "title": "Unrolled contraction equals the plain contraction", "statement": "contract_with_unroll gives the same tensor as the plain einsum contraction of the same network, whatever set of indices is unrolled (including output indices), with and without checkpointing.", "quantifier": "every labelled tensor network, all tensors, all admissible unroll sets", "why_tests_cant": "All networks and all subsets of indices.", "anchors": ["oe_ext/oe_ext.py: contract_with_unroll, _contract_with_unroll_oe, contract_with_unroll_legacy"]}
{"id": "C30", "title": "Reduced density matrices are Hermitian, trace one and, on request, positive", "statement": "The symmetrised reduced density matrix is Hermitian with trace 1 whenever the raw trace has non-zero real part, leaves Hermitian trace-one input unchanged (positive input if sym_pos_def is requested), and is positive semi-definite of trace 1 when sym_pos_def is requested and the raw trace has positive real part.", "quantifier": "every raw matrix of any size", "why_tests_cant": "All matrices and sizes.", "anchors": ["ctm/generic/rdm.py: _sym_pos_def_matrix, _sym_pos_def_rdm"]}
{"id": "C31", "title": "Single-site expectation values equal Tr(rho O)", "statement": "rdm1x1 with an operator returns the same number as contracting the un-normalised density matrix with the operator as sum_{s s'} rho_{s s'} O_{s' s}, for Hermitian and non-Hermitian operators alike, in both contraction modes.", "quantifier": "all environments, states, operators, all dimensions", "why_tests_cant": "All contents; index-order mistakes are invisible on symmetric operators.", "anchors": ["ctm/generic/rdm.py: rdm1x1_dl, rdm1x1_sl"]}
{"id": "C32", "title": "Two-site density matrices agree between contraction modes", "statement": "rdm2x1 and rdm1x2 computed in single-layer and double-layer mode are equal, with physical indices ordered s0 s1; s0' s1'.", "quantifier": "all environments and states of all dimensions", "why_tests_cant": "All contents and dimensions.", "anchors": ["ctm/generic/rdm.py: rdm2x1_dl, rdm2x1_sl, rdm1x2_dl, rdm1x2_sl"]}
{"id": "C33", "title": "Closing sites of the plaquette density matrix is a partial trace", "statement": "rdm2x2 with open_sites a subset of the plaquette returns the partial trace over the closed sites of the fully open one, with the open physical indices in plaquette order.", "quantifier": "all subsets of the four sites, all environments and states", "why_tests_cant": "All contents and all subsets.", "anchors": ["ctm/generic/rdm.py: rdm2x2_oe"]}
{"id": "C34", "title": "Three-site MPO expectation values contract the drawn network", "statement": "eval_mpo_rdm1x3_oe and eval_mpo_rdm3x1_oe contract exactly the network drawn in their documentation: every bond of the ket and bra layer connects to its environment tensor once.", "quantifier": "all environments, states and MPOs of all dimensions", "why_tests_cant": "All contents.", "anchors": ["ctm/generic/rdm.py: eval_mpo_rdm1x3_oe, eval_mpo_rdm3x1_oe"]}
{"id": "C35", "title": "An operator given as an MPS meets the density matrix in the right index order", "statement": "Attaching an N-site operator MPS to a density-matrix network pairs the MPS indices |s0'>,<s0|,|s1'>,<s1|,... with the corresponding physical labels of the density matrix for every number of sites.", "quantifier": "every number of sites N>=1", "why_tests_cant": "Unbounded N; only N=2 is exercised.", "anchors": ["ctm/generic/rdm.py: _get_mps_tn, _get_id_tn"]}
{"id": "C36", "title": "Correlation functions insert the operator in the documented orientation", "statement": "apply_TM_1sO inserts a^dagger op a, i.e. the one-site transfer matrix with operator evaluates <op> with the same orientation as rdm1x1.", "quantifier": "all operators including non-symmetric ones, all tensors", "why_tests_cant": "Orientation errors are invisible for symmetric operators.", "anchors": ["ctm/generic/corrf.py: apply_TM_1sO"]}
{"id": "C37", "title": "Two-site operators inserted by factorisation are inserted completely", "statement": "Applying a transfer matrix with a two-site operator that is factorised by SVD inserts exactly that operator, for both the one-row and the two-row channel.", "quantifier": "every two-site operator", "why_tests_cant": "All operators.", "anchors": ["ctm/generic/corrf.py: apply_TM_2sO_2sChannel, apply_TM_2sO_1sChannel"]}
{"id": "C38", "title": "Intermediate rescaling does not change correlation functions", "statement": "The values returned by corrf_1sO1sO equal the ratio of the network with and without operators, independent of the positive rescalings applied to the edges, and the returned vector has one entry per distance.", "quantifier": "every distance, every sequence of non-zero rescalings", "why_tests_cant": "Unbounded distance.", "anchors": ["ctm/generic/corrf.py: corrf_1sO1sO"]}
{"id": "C39", "title": "Backtracking line search returns a sufficiently decreasing step or reports failure", "statement": "A successful Armijo search returns a step alpha with phi(alpha) <= phi(0) + c1 alpha phi'(0) and the value of phi at that very step; it evaluates phi finitely often (at most logarithmically many trials), and otherwise reports failure.", "quantifier": "every function phi and every starting step and slope", "why_tests_cant": "phi is an arbitrary callback.", "anchors": ["optim/lbfgs_modified.py: _scalar_search_armijo"]}
{"id": "C40", "title": "Trial evaluations leave the parameters as they were", "statement": "Evaluating the loss at a trial point during the line search restores the parameters afterwards, also when the evaluation fails.", "quantifier": "every parameter vector, direction, step and outcome of the evaluation", "why_tests_cant": "Failure can occur at any evaluation.", "anchors": ["optim/lbfgs_modified.py: _directional_evaluate_derivative_free"]}
{"id": "C41", "title": "L-BFGS search directions are descent directions", "statement": "The two-loop recursion applied to a history of curvature pairs with positive curvature yields a direction d with g.d<0 for every non-zero gradient g, whatever the history length; the history never exceeds history_size and its lists stay aligned.", "quantifier": "every gradient, every history, every history size", "why_tests_cant": "All histories of any length.", "anchors": ["optim/lbfgs_modified.py: LBFGS_MOD.step_2c"]}
{"id": "C42", "title": "The saved state file is the best state seen", "statement": "During optimisation the saved state file always holds the state with the lowest loss among all evaluated states.", "quantifier": "every sequence of losses, accepted and rejected trials", "why_tests_cant": "All loss histories.", "anchors": ["optim/ad_optim_lbfgs_mod.py: optimize_state"]}
{"id": "C43", "title": "A checkpoint pairs the parameters with their own loss", "statement": "The loss recorded in a checkpoint is the loss of the parameters stored in the same checkpoint.", "quantifier": "every optimisation history and every checkpoint", "why_tests_cant": "All histories; comment in the code claims it.", "anchors": ["optim/ad_optim_lbfgs_mod.py: optimize_state, store_checkpoint"]}
{"id": "C44", "title": "Resuming with a different history size keeps a consistent optimiser state", "statement": "Resuming from a checkpoint with a smaller or larger history_size keeps the most recent curvature pairs, with all history lists of equal length not exceeding history_size.", "quantifier": "every stored history and every new history size", "why_tests_cant": "All lengths.", "anchors": ["optim/ad_optim_lbfgs_mod.py: load_optimizer_state_", "optim/ad_optim.py: optimize_state (resume)"]}
{"id": "C45", "title": "Momentum SGD with line search keeps the momentum recursion", "statement": "After each step of the modified SGD the momentum buffer equals momentum*old + gradient, whether or not a line search is used.", "quantifier": "every momentum, gradient history and line-search setting", "why_tests_cant": "All histories.", "anchors": ["optim/sgd_modified.py: SGD_MOD.step_2c"]}
{"id": "C46", "title": "Finite-difference gradients leave the state unchanged", "statement": "After computing a finite-difference gradient all parameters have their original values and each gradient entry is the forward difference quotient in that coordinate.", "quantifier": "every parameter set and every loss function", "why_tests_cant": "All losses and sizes.", "anchors": ["optim/fd_optim_lbfgs_mod.py: grad_fd"]}
{"id": "C47", "title": "Command-line options reach the right configuration group", "statement": "configure assigns every parsed option to the configuration group named by its prefix, under the name without the prefix, and options without such a prefix to the main group; no option is lost or assigned to two groups.", "quantifier": "every set of option names and values", "why_tests_cant": "Any option namespace.", "anchors": ["config.py: configure"]}
{"id": "C48", "title": "C4v environments stay Hermitian under every move", "statement": "Starting from Hermitian C and T (T_{ij s}=conj T_{ji s}), every C4v CTM move yields a diagonal real C and a T with the same symmetry, for any number of moves, any chi and any tensor.", "quantifier": "every number of moves, every tensor, every decomposition backend result", "why_tests_cant": "Unbounded iterations.", "anchors": ["ctm/one_site_c4v/ctmrg_c4v.py: ctm_MOVE_dl, ctm_MOVE_sl"]}
{"id": "C49", "title": "C4v single-layer and double-layer enlarged corners agree", "statement": "c2x2_sl of (a,C,T) equals c2x2_dl of the double-layer tensor a a^*, entry by entry.", "quantifier": "all dimensions, real or complex tensors", "why_tests_cant": "All contents and dimensions.", "anchors": ["ctm/one_site_c4v/ctm_components_c4v.py: c2x2_dl, c2x2_sl"]}
{"id": "C50", "title": "Plaquette energies add up to the Hamiltonian", "statement": "Summing the plaquette operator of the J1-J2 model over all plaquettes of the cell counts every nearest-neighbour bond once with weight J1 and every diagonal bond once with weight J2, so energy_per_site is the energy per site.", "quantifier": "every cell size and tiling, every translationally consistent assignment of bond expectation values", "why_tests_cant": "All cells.", "anchors": ["models/j1j2.py: J1J2.get_hp, J1J2.energy_per_site"]}
{"id": "C51", "title": "Third-neighbour energy is averaged over the cell", "statement": "J1J2.energy_per_site with j3 != 0 averages the third-neighbour terms of all inequivalent sites of the cell.", "quantifier": "every cell and every site-dependent correlation", "why_tests_cant": "All cells with inequivalent sites.", "anchors": ["models/j1j2.py: J1J2.energy_per_site, eval_nnnn_per_site"]}
{"id": "C52", "title": "The Ising plaquette term enters with its documented sign", "statement": "ISING.energy_1x1 evaluates H = -sum 4SzSz + q sum 16SzSzSzSz - hx sum 2Sx per site.", "quantifier": "every hx, q and every plaquette density matrix", "why_tests_cant": "Continuum of couplings.", "anchors": ["models/ising.py: ISING.get_h, ISING.energy_1x1"]}
{"id": "C53", "title": "Complex C4v symmetrisation is idempotent and preserves the wavefunction class", "statement": "to_ipeps_c4v maps a real site to its A1 projection and a complex one to A1(re)+i A2(im); applying it twice equals applying it once, and writing then re-reading a symmetrised state symmetrises nothing further.", "quantifier": "every site tensor", "why_tests_cant": "All contents.", "anchors": ["ipeps/ipeps_c4v.py: to_ipeps_c4v"]}
{"id": "C54", "title": "The backward pass of the SVD is the adjoint of its differential", "statement": "For every differentiable family of matrices with distinct positive singular values and every loss that does not depend on the phase of a singular-vector pair, the gradient returned by SVDGESDD.backward paired with a perturbation of the matrix equals the gradients of U, S, V paired with the induced perturbations of U, S, V, for tall, wide and square, real and complex matrices.", "quantifier": "every m x n matrix curve of rank k, every incoming gradient", "why_tests_cant": "Finite-difference tests sample a few matrices; the identity is for all of them.", "anchors": ["linalg/svd_gesdd.py: SVDGESDD.backward"]}
{"id": "C55", "title": "The sign-fixed SVD accepts every matrix", "statement": "SVDGESDD.apply returns sign-fixed factors for every N x L matrix it documents.", "quantifier": "every shape", "why_tests_cant": "Only square inputs occur in the test-suite.", "anchors": ["linalg/svd_gesdd.py: SVDGESDD.forward, fix_svd_signs"]}
{"id": "C56", "title": "A step performs up to max_iter quasi-Newton iterations", "statement": "LBFGS_MOD.step_2c with max_iter=n performs up to n iterations, each using the gradient at the current parameters, and stops early only when an optimality, evaluation or change condition holds at the current point.", "quantifier": "every configuration, loss function and optimizer state", "why_tests_cant": "Depends on all loss functions and histories.", "anchors": ["optim/lbfgs_modified.py: LBFGS_MOD.step_2c"]}
{"id": "C57", "title": "A backtracking step lowers the loss", "statement": "A step of LBFGS_MOD with backtracking either leaves the parameters unchanged (possibly raising) or moves them along a descent direction to a point whose evaluated loss is returned and is strictly below the previous loss by the Armijo amount.", "quantifier": "every loss function, optimizer history and configuration", "why_tests_cant": "All loss functions and reachable histories.", "anchors": ["optim/lbfgs_modified.py: LBFGS_MOD.step_2c, _scalar_search_armijo"]}
{"id": "C58", "title": "Resuming from a checkpoint continues the run", "statement": "If an optimization is stopped after n epochs and restarted from the checkpoint written then, the restarted run visits the same parameters and returns the same result as the uninterrupted run.", "quantifier": "every loss function, configuration, number of epochs before and after the interruption", "why_tests_cant": "Ranges over every crash point and every history of the optimizer.", "anchors": ["optim/ad_optim_lbfgs_mod.py: optimize_state, store_checkpoint"]}
{"id": "C59", "title": "Resuming keeps the best state file", "statement": "When a run is resumed from a checkpoint, the state file left on disk is not overwritten by a state with a higher loss than the one it already holds.", "quantifier": "every loss function, crash point and resumed run", "why_tests_cant": "Every crash point of every run.", "anchors": ["optim/ad_optim_lbfgs_mod.py: optimize_state (min_loss, loss_fn closure)"]}
{"id": "C60", "title": "Absorption contracts the documented network", "statement": "In each directional move the two new corners and the new half-row tensor are the contraction of the old corner/half-row tensor, the on-site double-layer tensor and the projectors drawn in the documentation, whether the double-layer tensor is formed (ctm_force_dl) or the two layers are contracted one by one.", "quantifier": "every direction, every bond dimension of site, environment and projectors, every tensor entry", "why_tests_cant": "Axis bookkeeping errors cancel for uniform or symmetric test tensors; all shapes are needed.", "anchors": ["ctm/generic/ctmrg.py: absorb_truncate_CTM_MOVE_UP_c, absorb_truncate_CTM_MOVE_LEFT_c, absorb_truncate_CTM_MOVE_DOWN_c, absorb_truncate_CTM_MOVE_RIGHT_c"]}
{"id": "C61", "title": "A move keeps the environment consistent", "statement": "Starting from an environment whose tensors fit the state (all bonds match, all bond sizes positive), every sequence of directional moves either ends with a vanishing norm (NaN) or produces an environment that fits the state again; no shape error occurs.", "quantifier": "every tiling, every bond dimension including non-uniform ones, every backend and truncation, every sequence of directions", "why_tests_cant": "Ranges over all unit cells, non-uniform bond dimensions and unbounded sequences of moves.", "anchors": ["ctm/generic/ctmrg.py: ctm_MOVE", "ctm/generic/ctm_projectors.py: ctm_get_projectors_4x4, ctm_get_projectors_4x2", "ctm/generic/env.py: ENV"]}
{"id": "C62", "title": "Single-layer and double-layer moves agree", "statement": "A sequence of moves with ctm_force_dl=True on the double-layer state gives the same environment tensors as with ctm_force_dl=False on the original state.", "quantifier": "every tiling, state, fitting environment, decomposition backend and sequence of directions", "why_tests_cant": "Needs exact equality over unbounded sequences of moves for all inputs.", "anchors": ["ctm/generic/ctmrg.py: run, ctm_MOVE", "ctm/generic/ctm_components.py: c2x2_LU, c2x2_RU, c2x2_RD, c2x2_LD"]}
{"id": "C63", "title": "CTM convergence measure is the documented one", "statement": "The number compared with ctm_conv_tol is the square root of the sum, over all corners, of the squared norm of the difference between the sorted, normalised corner spectra of successive iterations, as documented.", "quantifier": "every environment, history and choice of norm", "why_tests_cant": "Ranges over all spectra and histories.", "anchors": ["ctm/generic/env.py: ctmrg_conv_specC"]}
{"id": "C64", "title": "A freshly initialised environment fits the state", "statement": "init_env with CTMRG (or CTMRG_OBC) succeeds on every state of matching non-zero tensors: every corner and half-row tensor is present, is the normalised contraction of the neighbouring site tensor with its bra over the outer legs, cut or zero-padded to chi, and all bonds match, so that subsequent CTM moves cannot raise.", "quantifier": "every tiling, non-uniform bond dimensions, every chi > 0, every tensor entry", "why_tests_cant": "All unit cells, shapes, values of chi below and above D^2, and subsequent move sequences.", "anchors": ["ctm/generic/env.py: init_env, init_from_ipeps_pbc, init_from_ipeps_obc"]}
{"id": "C65", "title": "The initial environment uses the conjugated bra", "statement": "The tensors of an initial environment are contractions of the site tensors (ket) with their complex conjugates (bra).", "quantifier": "every state, real or complex", "why_tests_cant": "Ranges over all complex tensors; real test states cannot distinguish.", "anchors": ["ctm/generic/env.py: init_from_ipeps_pbc, init_from_ipeps_obc"]}
{"id": "C66", "title": "Density matrices at equivalent vertices are identical", "statement": "rdm1x1, rdm2x1 and rdm1x2 called at two vertices that the tiling maps to the same site return identical results.", "quantifier": "every tiling, every environment, every pair of equivalent vertices, both contraction modes", "why_tests_cant": "All vertices of the infinite lattice; tests use vertices of the unit cell only.", "anchors": ["ctm/generic/rdm.py: rdm1x1_dl, rdm1x1_sl, rdm2x1_dl, rdm2x1_sl, rdm1x2_dl, rdm1x2_sl"]}
{"id": "C67", "title": "The plaquette density-matrix routines agree with each other", "statement": "rdm2x2_NNN_11(coord) equals rdm2x2 at coord with only the upper left and lower right site open; rdm2x2_NNN_1n1(coord), by either of its two implementations, is the density matrix of the site coord and its upper right diagonal neighbour, in this order; rdm2x2_legacy equals rdm2x2 with all sites open.", "quantifier": "all states, environments and vertices, all dimensions, with and without positivity enforced", "why_tests_cant": "Entrywise equality of different contraction orders for all tensors and bond dimensions.", "anchors": ["ctm/generic/rdm.py: rdm2x2_NNN_11, rdm2x2_NNN_1n1_legacy, rdm2x2_NNN_1n1_oe, rdm2x2_legacy, rdm2x2_oe"]}
{"id": "C68", "title": "The plaquette MPO expectation value is a trace with the density matrix", "statement": "eval_mpo_rdm2x2_oe returns the sum over all configurations of the un-normalised plaquette density matrix times the entries of the operator represented by the four MPO tensors (left, ket, right, bra), sites in the order upper left, upper right, lower left, lower right.", "quantifier": "all states, environments, vertices and MPO tensors of all bond dimensions", "why_tests_cant": "All tensors and dimensions; a mislabelled index is invisible for symmetric operators.", "anchors": ["ctm/generic/rdm.py: eval_mpo_rdm2x2_oe"]}
{"id": "C69", "title": "Correlation functions of two-site operators are ratios of strips", "statement": "Entry r of the vector returned by corrf_2sOH2sOH_E1 (corrf_2sOV2sOV_E2) is the strip of one row (two rows) between two edges of the environment with the two two-site operators at the r-th distance, divided by the strip without operators, whatever rescalings are applied on the way; if a normalisation vanishes the result is not finite.", "quantifier": "all states, environments, vertices, directions, operators and distances", "why_tests_cant": "Unbounded distance, all operators; a factor common to all entries or a dropped singular value is invisible in normalised tests.", "anchors": ["ctm/generic/corrf.py: corrf_2sOH2sOH_E1, corrf_2sOV2sOV_E2"]}
{"id": "C70", "title": "Every configuration attribute has exactly its command-line option", "statement": "get_args_parser offers for every attribute of the configuration objects one option (--GROUP_x, or --GROUP_no_x for booleans that are true); after parsing an accepted command line and configure, an attribute whose option was not given has its present value, and one whose option was given has the converted value of its last occurrence.", "quantifier": "every set of attributes and script options with distinct tidy names, every command line, every conversion of texts", "why_tests_cant": "All command lines and all attribute sets, which change with every release.", "anchors": ["config.py: get_args_parser, configure"]}
{"id": "C71", "title": "A C4v move renormalises corner and half-row tensor with the same projector", "statement": "After a successful C4v move by eigendecomposition the corner is, up to a positive factor, the enlarged corner between the leading eigenvectors and their conjugates, and the half-row tensor is, up to a positive factor, the Hermitian part of the network of half-row tensor, ket and bra site between those eigenvectors and their conjugates; the first corner element has magnitude one, and with inf-normalisation no element of the half-row tensor exceeds one.", "quantifier": "every site tensor and environment of matching sizes, every eigendecomposition", "why_tests_cant": "All contents and all sizes.", "anchors": ["ctm/one_site_c4v/ctmrg_c4v.py: ctm_MOVE_dl, ctm_MOVE_sl, _move_normalize_c"]}
{"id": "C72", "title": "The single-site bipartite energy is the energy of the checkerboard", "statement": "J1J2.energy_2x2_1site_BP on a state with one tensor A equals J1J2.energy_per_site on the two-site checkerboard of A and R A (R the spin rotation by pi about y on the physical index) with the environment tensors of A on both sites, for all couplings including the staggered field, the chiral term and the third neighbours; with a field along z or x it raises.", "quantifier": "every single-site tensor with physical dimension two, every environment of matching sizes, all couplings, every eigensolver", "why_tests_cant": "All tensors and couplings; the two routines run different code paths and agree only through a symmetry of every term of the Hamiltonian.", "anchors": ["models/j1j2.py: J1J2.energy_2x2_1site_BP, J1J2.energy_per_site"]}
{"id": "C73", "title": "C4v density matrices of the plaquette and of neighbours agree with the general code", "statement": "For a one-site state whose tensor returns to itself up to a phase when it is turned by 90 degrees, the density matrices rdm2x2, rdm2x2_NN_lowmem(_sl) and rdm2x2_NNN_lowmem(_sl) of the C4v code, computed from one corner and one half-row tensor, equal the density matrices of the general code for the same sites of the plaquette, computed with the eight environment tensors obtained by turning those two. The two memory variants return the same result.", "quantifier": "every rotation-symmetric site tensor, every corner and half-row tensor of matching sizes (no symmetry of them is needed), all sizes, both variants, with and without sym_pos_def", "why_tests_cant": "All contents and sizes, complex tensors included; the routines use different contraction orders and place the rotated tensors differently.", "anchors": ["ctm/one_site_c4v/rdm_c4v.py: rdm2x2, rdm2x2_NN_lowmem, rdm2x2_NN_lowmem_sl, rdm2x2_NNN_lowmem, rdm2x2_NNN_lowmem_sl", "ctm/generic/rdm.py: rdm2x2"]}
{"id": "C74", "title": "C4v density matrices of one, two and three sites in a row agree with the general code", "statement": "For a rotation-symmetric one-site state with a symmetric (for instance diagonal) corner, rdm1x1, rdm1x1_sl, rdm2x1, rdm2x1_sl of the C4v code equal the general density matrices on the environment obtained by turning corner and half-row tensor, and rdm3x1, rdm3x1_sl are both the symmetrised and normalised contraction of the three-site row with the middle site traced.", "quantifier": "every rotation-symmetric site tensor, every environment with symmetric corner, all sizes, double- and single-layer functions, with and without sym_pos_def", "why_tests_cant": "All contents and sizes, complex tensors included. It fails for rdm1x1_sl with a half-row tensor that is not symmetric: the upper half-row is attached reversed.", "anchors": ["ctm/one_site_c4v/rdm_c4v.py: rdm1x1, rdm1x1_sl, rdm2x1, rdm2x1_sl, rdm3x1, rdm3x1_sl", "ctm/generic/rdm.py: rdm1x1, rdm2x1"]}
{"id": "C75", "title": "One-site correlations of C4v states equal the general ones in every direction", "statement": "For a rotation-symmetric one-site state with a symmetric corner, corrf_1sO1sO of the C4v code returns the list the general corrf_1sO1sO returns on the environment obtained by turning corner and half-row tensor, from every site and in each of the four directions: <op1(0) op2_r(r+1)> in the strip divided by the strip without operators; it is not finite exactly when one of these strips vanishes.", "quantifier": "every rotation-symmetric site tensor, environment with symmetric corner, all sizes, operators, distances and directions", "why_tests_cant": "All contents, distances and directions; the operators are inserted transposed, which tests with real symmetric operators cannot see.", "anchors": ["ctm/one_site_c4v/corrf_c4v.py: get_edge, apply_edge, apply_TM_1sO, corrf_1sO1sO", "ctm/generic/corrf.py: corrf_1sO1sO"]}
{"id": "C76", "title": "Dimer correlations of C4v states equal the strip with the two-site operators", "statement": "For a one-site C4v state corrf_2sOH2sOH_E1 returns the correlation of two-site operators in a row and corrf_2sOV2sOV_E2 that of two-site operators across two rows, op1 on the first pair and op2_r on the pair r further, divided by the strip without operators, for every operator and every singular value decomposition of it.", "quantifier": "every rotation-symmetric site tensor, environment as the moves produce them, all sizes, two-site operators, backends of the SVD and distances", "why_tests_cant": "All operators and backends. It fails for complex operators (the factor V of the decomposition is not conjugated) and, across two rows, for a half-row tensor that is Hermitian but not symmetric.", "anchors": ["ctm/one_site_c4v/corrf_c4v.py: apply_TM_2sO, apply_TM_1sO_2, get_edge_L, apply_edge_L, corrf_2sOH2sOH_E1, corrf_2sOV2sOV_E2"]}
{"id": "C77", "title": "Saving and loading states built from elementary tensors", "statement": "Writing an IPEPS_LC_1SITE_PG state to a file and reading it back with the same aux_seq restores meta data, elementary tensors, coefficients, site tensors and geometry.", "quantifier": "every state the constructor accepts, every order aux_seq of the auxiliary indices, every lawful text format of numbers", "why_tests_cant": "All contents, sizes and orders. It fails for complex tensors (the file cannot be read) and for orders other than the default (the axes come back relabelled).", "anchors": ["ipeps/ipeps_lc.py: write_ipeps_lc_1site_pg, from_json_str, read_ipeps_lc_1site_pg"]}
{"id": "C78", "title": "Site tensors are the documented combination and have the symmetry of their irreps", "statement": "The site tensor of an IPEPS_LC_1SITE_PG state is sum_k lambda_k e_k over the listed elementary tensors, with a factor i for those of irrep A_2. With real coefficients and real representatives its real part transforms as A_1 and its imaginary part as A_2, so that it is invariant under rotations, and under reflections combined with complex conjugation, as the C4v routines require. Other irreps are refused.", "quantifier": "every list of elementary tensors in any order, all coefficients and sizes", "why_tests_cant": "All lists and contents. The order fails: with an A_2 tensor listed before an A_1 tensor the coefficients are applied to the wrong tensors.", "anchors": ["ipeps/ipeps_lc.py: IPEPS_LC_1SITE_PG.build_onsite_tensors, IPEPS_LC_1SITE_PG.__init__"]}
{"id": "C79", "title": "States built from elementary tensors stay consistent over their history", "statement": "After any sequence of construction, reading, load_checkpoint, add_noise and clone the site tensors are those built from the current coefficients and elementary tensors; a restored checkpoint gives back coefficients, elementary tensors and sites; a copy equals the original; move_to moves every tensor; load_checkpoint_lc_1site_pg returns the stored state.", "quantifier": "every history of these operations of any length", "why_tests_cant": "Histories are unbounded. move_to and load_checkpoint_lc_1site_pg fail for every input.", "anchors": ["ipeps/ipeps_lc.py: IPEPS_LC_1SITE_PG.load_checkpoint, add_noise, clone, move_to, get_checkpoint, load_checkpoint_lc_1site_pg"]}
{"id": "C80", "title": "Orbits of index tuples under the symmetries of the square lattice", "statement": "The orbit generated from four indices is the set of its images under the eight lattice symmetries. The orbits generated up to a bond dimension D are disjoint and contain every tuple of indices below D and no other, grouped by their largest index.", "quantifier": "every tuple of indices, symmetric or not, and every bond dimension", "why_tests_cant": "The orbit is completed only when the seed is not among its first images; that no image is missed has to be shown for every coincidence of indices and every D.", "anchors": ["u1sym/basis.py: gen_A1_, gen_c4v_symm_A1, gen_t, gen_upto_D"]}
{"id": "C81", "title": "Basis of U(1) and C4v symmetric tensors is complete", "statement": "generate_a_basis with charges returns an orthogonal basis of the space of on-site tensors of physical dimension d invariant under the lattice symmetries whose non-zero entries carry the total charge: every such tensor is a unique combination of the returned ones. It fails exactly when this space is trivial or the list of charges has the wrong length, and does not depend on the iteration order of sets.", "quantifier": "every physical and bond dimension, every assignment of charges, every total charge, every set iteration order", "why_tests_cant": "All dimensions, charges and iteration orders. It fails for physical dimensions other than 2, which is hard-coded.", "anchors": ["u1sym/basis.py: generate_a_basis, get_basis_upto_D, get_u1_filter"]}
{"id": "C82", "title": "Basis of C4v symmetric tensors without charges is complete", "statement": "generate_a_basis without charges returns an orthogonal basis of the space of on-site tensors invariant under the lattice symmetries; the numerical tolerance of its orthogonality test never changes the outcome.", "quantifier": "every physical and bond dimension", "why_tests_cant": "All dimensions: the number of loop iterations grows as d*D^4, and every decision of the tolerance test has to be right.", "anchors": ["u1sym/basis.py: generate_a_basis", "groups/pg.py: make_c4v_symm_A1"]}
{"id": "C83", "title": "Change of basis keeps the state", "statement": "rebase_params maps the parameters of a state to a larger basis, containing the old one up to order, scale and an increase of the bond dimension, so that the on-site tensor is unchanged (embedded by zeros); elements without counterpart get only noise; a basis that is not a subset is refused.", "quantifier": "all bases, orders, scales, parameters and bond dimensions, in particular the bases generated for growing bond dimension", "why_tests_cant": "All orders, scales and dimensions. The refusal fails: only the number of non-zero overlaps is compared.", "anchors": ["u1sym/basis.py: rebase_params, generate_a_basis"]}
{"id": "C84", "title": "A basis survives conversion to a dictionary and back", "statement": "basis_from_dict applied to basis_to_dict of an array returns the same array.", "quantifier": "every array of any rank without empty axes", "why_tests_cant": "All shapes and contents.", "anchors": ["u1sym/basis.py: basis_to_dict, basis_from_dict"]}
{"id": "C85", "title": "Kagome states are the contraction of their triangle and bond tensors", "statement": "The on-site tensor of a Kagome state (IPESS_KAGOME_GENERIC) is, up to a positive factor, the contraction of its five tensors over the four internal legs, with the three spins fused; on a torus of any size the amplitudes of the square-lattice state it defines are those of the Kagome network of triangles and bonds. It is rebuilt after every update and checkpoint. Rescaling the tensors by complex factors multiplies it only by their phase. The construction fails (NaN) exactly when the contraction vanishes.", "quantifier": "all tensors of all dimensions, all tori, all histories", "why_tests_cant": "All dimensions, lattices, spin configurations and histories.", "anchors": ["ipeps/ipess_kagome.py: IPESS_KAGOME_GENERIC, build_onsite_tensors, load_checkpoint, add_noise"]}
{"id": "C86", "title": "Kagome tensors are projected on the declared irreps", "statement": "Symmetrizing a Kagome tensor for an irrep returns a tensor with the transformation law of that irrep: triangles invariant under cyclic shifts and, up to complex conjugation and the sign of the irrep, under exchange of legs, bonds under exchange of their legs. Tensors that already obey it are unchanged. It is defined exactly for tensors with matching leg dimensions. Only the named tensors are changed.", "quantifier": "every tensor of any dimension and every irrep A_1, A_2, A, B", "why_tests_cant": "All tensors and dimensions, real and complex.", "anchors": ["ipeps/ipess_kagome.py: IPESS_KAGOME_PG.symmetrize_, to_PG_symmetric"]}
{"id": "C87", "title": "Symmetric Kagome states have the symmetry of the lattice", "statement": "For a Kagome state with identified triangles and bonds, symmetrized for declared irreps, amplitudes on every torus of equal sides are invariant under rotation by 120 degrees; under reflection they become complex conjugate up to the sign fixed by the irrep of the bonds; with real bond tensors inversion changes them by that sign on every torus.", "quantifier": "all such states, all lattice sizes, all spin configurations", "why_tests_cant": "All sizes and configurations; the invariance of local tensors has to be carried over to the whole lattice.", "anchors": ["ipeps/ipess_kagome.py: IPESS_KAGOME_PG"]}
{"id": "C88", "title": "Point-group symmetric Kagome states stay consistent over their history", "statement": "After construction, load_checkpoint, add_noise, extend_bond_dim and to_PG_symmetric in any order the site tensor is the contraction of the current elementary tensors, where triangles (bonds) declared equal are one tensor. Construction with symmetrization, add_noise and to_PG_symmetric give tensors in the declared irreps. A checkpoint restores the state, also one written by an older version. to_PG_symmetric can release the identification of triangles.", "quantifier": "every history of these operations, every combination of flags and irreps", "why_tests_cant": "Histories are unbounded. Old checkpoints with three bond tensors, and releasing the identification, fail for every input.", "anchors": ["ipeps/ipess_kagome.py: IPESS_KAGOME_PG.__init__, load_checkpoint, get_checkpoint, add_noise, to_PG_symmetric, update_"]}
{"id": "C89", "title": "Kagome states as linear combinations of basis tensors", "statement": "The elementary tensors of IPESS_KAGOME_PG_LC are the combinations of basis tensors with the given coefficients, and the site tensor is their contraction, after any history of construction, load_checkpoint and add_noise. With real coefficients and basis tensors in their irreps, the elementary tensors belong to the declared irreps. Coefficient i multiplies basis tensor i. load_checkpoint and add_noise work for every combination of flags.", "quantifier": "all bases, coefficients, dimensions and histories", "why_tests_cant": "All bases and histories. Coefficients are misassigned when tensors of the other irrep come first, and updates fail unless triangles and bonds are all identified.", "anchors": ["ipeps/ipess_kagome.py: IPESS_KAGOME_PG_LC"]}
{"id": "C90", "title": "Growing the bond dimension of a Kagome state keeps the state", "statement": "extend_bond_dim of a Kagome state writes its site tensor into a larger tensor of zeros, keeps flags and irreps and the symmetry, and succeeds whenever the new dimension is not smaller.", "quantifier": "all states, all bond dimensions", "why_tests_cant": "All states and dimensions. For IPESS_KAGOME_GENERIC it fails for every input.", "anchors": ["ipeps/ipess_kagome.py: IPESS_KAGOME_GENERIC.extend_bond_dim, IPESS_KAGOME_PG.extend_bond_dim"]}
{"id": "C91", "title": "A Kagome state written to a file and read back is the same state", "statement": "write_to_file followed by the matching reader gives a Kagome state (generic or point-group symmetric) with the same elementary tensors, flags, irreps, site tensors and tiling, for every state a program can reach; the reader honours a tiling passed to it and reads files of the older format.", "quantifier": "all reachable states, all cell sizes and tilings, all number formats whose printing can be parsed back, both global dtypes", "why_tests_cant": "All states, tilings and numbers. The reader ignores the tiling passed to it, reads files of the older format into a state without tensors, and drops imaginary parts without complaint when the global dtype is real.", "anchors": ["ipeps/ipess_kagome.py: read_ipess_kagome_generic, write_ipess_kagome_generic, read_ipess_kagome_pg, write_ipess_kagome_pg", "ipeps/tensor_io.py"]}
{"id": "C92", "title": "A Kagome state of linear combinations written to a file and read back is the same state", "statement": "write_to_file followed by read_ipess_kagome_pg_lc gives a state with the same flags, irreps, coefficients, basis tensors with their irreps, elementary tensors and site tensor, each with its number type; entries omitted from the file because they vanish are restored as zeros.", "quantifier": "all reachable states, all bases, all number formats whose printing can be parsed back", "why_tests_cant": "All reachable states and bases.", "anchors": ["ipeps/ipess_kagome.py: read_ipess_kagome_pg_lc, write_ipess_kagome_pg_lc", "ipeps/tensor_io.py: serialize_basis_t, read_basis_t"]}
{"id": "C93", "title": "Spectrum of the transfer operator of width one", "statement": "get_Top_spec returns the n leading eigenvalues, with multiplicity, of the transfer operator of one period of the infinite strip of width one (environment, sites in both layers, environment) in the given direction, by decreasing modulus and divided by the largest modulus; with eigenvectors=True the vectors belong to the values in the same order. It fails only if the eigenvalue solver does or if the operator is nilpotent. The moduli do not depend on the reference site along the strip nor on the sense of the direction.", "quantifier": "every tiling, state, environment, direction, reference site, n, every solver that returns leading eigenvalues in any order", "why_tests_cant": "All cells, tensors and dimensions; the linear map is only given as a function and the order of the solver is not specified.", "anchors": ["ctm/generic/transferops.py: get_Top_spec, _get_chis", "ctm/generic/corrf.py: apply_TM_1sO"]}
{"id": "C94", "title": "Spectrum of the transfer operator of width zero", "statement": "get_Top_w0_spec returns the n leading eigenvalues of the transfer operator formed by one period of two facing rows (columns) of environment tensors, by decreasing modulus and divided by the largest modulus, for each of the four directions.", "quantifier": "every tiling, state, environment, direction, reference site and n", "why_tests_cant": "All cells and tensors. For directions right and down the tensors are multiplied in the wrong order, which matters from three sites on.", "anchors": ["ctm/generic/transferops.py: get_Top_w0_spec", "ctm/generic/corrf.py: apply_TM_0sO"]}
{"id": "C95", "title": "Spectrum of the boundary operators of a cylinder", "statement": "get_EH_spec_Ttensor returns, in descending order and divided by the largest modulus, the n leading eigenvalues of the product of the two boundary operators of a cylinder of circumference L, each formed by a ring of half-row tensors; None exactly if the operator has at most n rows.", "quantifier": "every one-site state, environment, direction, circumference and n", "why_tests_cant": "All circumferences, dimensions and tensors; the order returned by the solver is not specified, and the code only reverses it.", "anchors": ["ctm/generic/transferops.py: get_EH_spec_Ttensor"]}
{"id": "C96", "title": "Spectra of transfer operators of one-site C4v states", "statement": "get_Top_spec_c4v, get_Top2_spec_c4v and get_EH_spec_Ttensor of a C4v state return the leading eigenvalues of the transfer operator of width one, of width two and of the boundary operator of the state and environment unfolded onto the square lattice, in descending order; the first function with optional normalisation and eigenvectors.", "quantifier": "every state, environment, circumference and n", "why_tests_cant": "All dimensions and tensors; two of the functions rely on the order in which the solver returns its values.", "anchors": ["ctm/one_site_c4v/transferops_c4v.py"]}
{"id": "C97", "title": "The boundary operators give the entanglement spectrum", "statement": "If the half-row tensors are exact, the values returned by get_EH_spec_Ttensor are, up to a common factor, the leading eigenvalues of the reduced density operator of half of the cylinder.", "quantifier": "every one-site state with exact environment, every circumference and n", "why_tests_cant": "All states. The code multiplies the two boundary operators without the transposition the reduced density operator requires, which is invisible for real states.", "anchors": ["ctm/generic/transferops.py: get_EH_spec_Ttensor"]}
{"id": "C98", "title": "Energy per site of one-site C4v states", "statement": "J1J2_C4V_BIPARTITE.energy_1x1 of a C4v symmetric tensor and environment equals J1J2.energy_per_site, with the same couplings and fields, of the checkerboard state it stands for (the tensor on even sites, the tensor with rotated physical index on odd sites) in the unfolded environment, whenever the density matrices involved are positive (so that the cut-off of negative eigenvalues does nothing).", "quantifier": "every C4v tensor, every symmetric environment, all couplings and fields", "why_tests_cant": "All dimensions and tensors: a single plaquette with weights stands for four plaquettes, eight bonds and four sites.", "anchors": ["models/j1j2.py: J1J2_C4V_BIPARTITE.__init__, energy_1x1", "models/j1j2.py: J1J2.energy_per_site", "ctm/one_site_c4v/rdm_c4v.py: rdm2x2, rdm3x1"]}
{"id": "C99", "title": "The low-memory energy of one-site C4v states is the energy", "statement": "energy_1x1_lowmem returns the same number as energy_1x1 for every model it accepts, and refuses models with the chiral term.", "quantifier": "every C4v tensor, every symmetric environment, all couplings and fields", "why_tests_cant": "All dimensions and tensors; the two functions use different density matrices and different operators. The staggered field enters them with opposite signs.", "anchors": ["models/j1j2.py: J1J2_C4V_BIPARTITE.energy_1x1, energy_1x1_lowmem"]}
{"id": "C100", "title": "eval_corrf_SS returns the spin correlations of the state", "statement": "For every spin-1/2 iPEPS and environment that fit, every site, direction and distance for which the norms of the strips do not vanish, the dictionary of J1J2.eval_corrf_SS holds <Sz Sz>, <Sx Sx>, <Sy Sy> and their sum <S.S> of the reference site and the sites at the distances 1, ..., dist+1 along the direction; with conjugate=True those of the state whose other sublattice is rotated by -i sigma^y. For every rotation-invariant one-site state J1J2_C4V_BIPARTITE.eval_corrf_SS returns the correlations of the bipartite state made of A and its rotated copy, the same along every direction, and the same dictionary the generic function returns for the two-site cell.", "quantifier": "all states, environments, sites, directions, distances, both values of conjugate", "why_tests_cant": "A statement about all tensors; transposed operators, the factor i in S^y and the sublattice rotation cancel for typical real test states and can hide sign errors.", "anchors": ["models/j1j2.py::J1J2.eval_corrf_SS", "models/j1j2.py::_conjugate_op", "models/j1j2.py::J1J2_C4V_BIPARTITE.eval_corrf_SS", "ctm/generic/corrf.py::corrf_1sO1sO", "ctm/one_site_c4v/corrf_c4v.py::corrf_1sO1sO"]}
{"id": "C101", "title": "eval_corrf_SpSm labels its correlations correctly", "statement": "For every state the entry spsm is <S+(0) S-(r)> and the entry smsp is <S-(0) S+(r)>.", "quantifier": "all states, environments, sites, directions, distances", "why_tests_cant": "The two entries agree for all real symmetric states; only states with complex correlations show a difference.", "anchors": ["models/j1j2.py::J1J2.eval_corrf_SpSm", "ctm/generic/corrf.py::corrf_1sO1sO"]}
{"id": "C102", "title": "canonical=True only changes the frame of the spin correlations", "statement": "With canonical=True the one-site eval_corrf_SS decomposes the correlations with respect to the magnetisation: szsz is the longitudinal correlation, sxsx and sysy the transverse ones, and their sum ss is the same as without canonical.", "quantifier": "all one-site states with a non-zero magnetisation, all distances", "why_tests_cant": "Invariance of <S.S> under the choice of frame must hold for every direction of the magnetisation; test states are real, without a component along y.", "anchors": ["models/j1j2.py::J1J2_C4V_BIPARTITE.eval_corrf_SS"]}
{"id": "C103", "title": "eval_obs reports the observables its labels name", "statement": "For every spin-1/2 iPEPS, unit cell and environment that fit, with norms that do not vanish, J1J2.eval_obs returns the labels avg_m, m(site)..., sz/sp/sm(site)..., SS2x1(site)..., SS1x2(site)... in this order and beside each label its value: sz is <Sz>, sp is <Sx> + i<Sy>, sm is <Sx> - i<Sy>, m is the length of the vector (<Sx>,<Sy>,<Sz>), avg_m the mean of m over the sites, SS2x1 and SS1x2 are <S.S> of the site with its right and lower neighbour. eval_obs_1site_BP returns the same with the bonds measured in the state whose other sublattice is rotated.", "quantifier": "all unit cells, states, environments", "why_tests_cant": "All tensors and all cells; for product or collinear test states wrong pairs of label and value can coincide.", "anchors": ["models/j1j2.py::J1J2.eval_obs", "models/j1j2.py::J1J2.eval_obs_1site_BP", "ctm/generic/rdm.py::rdm1x1, rdm2x1, rdm1x2"]}
{"id": "C104", "title": "eval_obs of one-site C4v states reports the observables of the checkerboard", "statement": "For every rotation-invariant one-site state and symmetric environment J1J2_C4V_BIPARTITE.eval_obs returns m, sz, sp, sm, SS2x1 and, for non-zero couplings, SS_nnn, SS3x1, ChiralT in this order, with the values of the bipartite state made of A and its rotated copy: the spin of a site, <S.S> of nearest, diagonal and third neighbours, and i<P - P^-1> of the plaquette, whatever the values of the couplings.", "quantifier": "all C4v tensors, environments and couplings", "why_tests_cant": "All tensors; the sublattice rotation is applied to the operators for two of the values and not for the others, which is right only because of the parity of the distance.", "anchors": ["models/j1j2.py::J1J2_C4V_BIPARTITE.eval_obs", "ctm/one_site_c4v/rdm_c4v.py::rdm2x1_sl, rdm3x1, rdm2x2, rdm2x2_NNN_lowmem_sl"]}
{"id": "C105", "title": "energy_2x1_1x2 of the models with nearest-neighbour interactions is their energy per site", "statement": "For every iPEPS, unit cell and environment that fit, with norms that do not vanish, energy_2x1_1x2 of HB and COUPLEDCHAINS (spins of any size), AKLTS2, COUPLEDLADDERS and COUPLEDLADDERS_D2_BIPARTITE returns the sum of the expectation values of the documented Hamiltonian on the bonds to the right of and below every site of the cell, divided by the number of sites: j S.S + k (S.S)^2 with one pair of couplings (HB) or one pair for each direction (chains); the polynomial of degree four in S.S (AKLT); S.S on all bonds, scaled by alpha between the ladders, with a staggered field (ladders); for the bipartite ladders the same for the state whose other sublattice is rotated.", "quantifier": "all states, unit cells, environments, couplings; spins of any size for HB and COUPLEDCHAINS", "why_tests_cant": "All tensors, all cells and all spin sizes; products of spin operators reshaped to matrices and back, transposed contractions and the sublattice rotation cancel for symmetric test states.", "anchors": ["models/hb.py::HB.energy_2x1_1x2, get_h", "models/hb_anisotropy.py::COUPLEDCHAINS.energy_2x1_1x2, get_h", "models/akltS2.py::AKLTS2.energy_2x1_1x2, get_h", "models/coupledLadders.py::COUPLEDLADDERS.energy_2x1_1x2, COUPLEDLADDERS_D2_BIPARTITE.energy_2x1_1x2"]}
{"id": "C106", "title": "energy_2x2_4site returns the energy per site", "statement": "For every iPEPS with a cell of two by two sites and every environment whose plaquette density matrices agree on shared bonds, energy_2x2_4site of HB and of COUPLEDCHAINS returns the energy per site, the same number as energy_2x1_1x2 up to the accuracy of the environment.", "quantifier": "all states with a cell of two by two sites, environments, couplings, spins of any size", "why_tests_cant": "The ratio of the returned number to the energy per site is a statement about all states; optimisation converges to the same state whatever the factor.", "anchors": ["models/hb.py::HB.energy_2x2_4site", "models/hb_anisotropy.py::COUPLEDCHAINS.energy_2x2_4site"]}
{"id": "C107", "title": "The AKLT model of spin two: Hamiltonian and energy of one-site states", "statement": "The Hamiltonian of AKLTS2 on a bond is, up to the factor two, the projector to the states of total spin four of the two spins, as its documentation says; AKLTS2_C4V_BIPARTITE.energy_1x1 returns, for every rotation-invariant one-site state and symmetric environment, the energy per site of the bipartite state made of A and its rotated copy, the number AKLTS2.energy_2x1_1x2 returns for the two-site cell.", "quantifier": "all rotation-invariant one-site states and symmetric environments; the projector: all vectors of two spins", "why_tests_cant": "A factor between one bond and the two bonds per site is invisible to an optimisation; the property of the polynomial of degree four concerns all 625 vectors' combinations.", "anchors": ["models/akltS2.py::AKLTS2.get_h", "models/akltS2.py::AKLTS2_C4V_BIPARTITE.get_h, energy_1x1", "ctm/one_site_c4v/rdm_c4v.py::rdm2x1"]}
{"id": "C108", "title": "COUPLEDCHAINS.eval_obs returns its observables", "statement": "For every state and environment for which the density matrices exist, COUPLEDCHAINS.eval_obs returns the list of the observables named in its documentation with their labels.", "quantifier": "all states, environments", "why_tests_cant": "That a function returns at all must hold for every state; there is no test of this method.", "anchors": ["models/hb_anisotropy.py::COUPLEDCHAINS.eval_obs"]}
{"id": "C109", "title": "eval_dimer_operator is the dimer order parameter in the direction", "statement": "For every state, environment and both directions COUPLEDCHAINS.eval_dimer_operator returns the modulus of the difference of S.S on two consecutive bonds along the direction.", "quantifier": "all unit cells, orders of the sites, states, environments, both directions, spins of any size", "why_tests_cant": "Depends on the order of the dictionary of sites and the shape of the cell; agrees for a two-site cell in one direction only.", "anchors": ["models/hb_anisotropy.py::COUPLEDCHAINS.eval_dimer_operator"]}
{"id": "C110", "title": "The energies of the J-Q models are the energies of the J-Q Hamiltonian per site", "statement": "For every state and environment with non-vanishing norms: JQ.energy_2x2_4site, JQ_C4V.energy_1x1 and JQ_C4V_BIPARTITE.energy_1x1 return the expectation per site of J sum S.S over all bonds minus Q sum over all plaquettes of the two products of (S.S-1/4) on opposite edges. The bipartite class measures in the frame where one sublattice is turned by pi about y.", "quantifier": "all couplings, bond dimensions, states, environments; 2x2 cells for the generic class, C4v symmetric states for the others", "why_tests_cant": "Depends on the placement of bond and ring terms in four-site operators; a wrong permutation is invisible on symmetric states.", "anchors": ["models/jq.py::JQ.get_h", "models/jq.py::JQ.energy_2x2_4site", "models/jq.py::JQ_C4V.get_h", "models/jq.py::JQ_C4V.energy_1x1", "models/jq.py::JQ_C4V_BIPARTITE.get_h", "models/jq.py::JQ_C4V_BIPARTITE.energy_1x1"]}
{"id": "C111", "title": "JQ_C4V_PLAQUETTE.energy_1x1 is the energy per spin of the J-Q model", "statement": "For every rotation-invariant one-site state whose tensor holds the four spins of a plaquette, every symmetric environment and couplings j1 and q = q_inter: energy_1x1 returns the energy per spin of J sum S.S over all bonds minus Q sum over all plaquettes of the square lattice of spins: those inside a tensor, between two tensors, and at the corner where four tensors meet.", "quantifier": "all states with 16 physical values, environments, couplings", "why_tests_cant": "Which terms of an infinite lattice are counted cannot be read off the energy of a particular state; without the corner plaquettes the optimisation finds the ground state of another Hamiltonian.", "anchors": ["models/jq.py::JQ_C4V_PLAQUETTE.get_h", "models/jq.py::JQ_C4V_PLAQUETTE.energy_1x1"]}
{"id": "C112", "title": "JQ_C4V_PLAQUETTE.eval_obs returns the documented observables of the four spins", "statement": "For every one-site state with four spins per tensor and every symmetric environment eval_obs returns, for each of the four spins, its z-component, the expectation values of S^+ and S^- under the labels sp and sm, the length m of the vector of its three components, and the average of the four lengths.", "quantifier": "all states with 16 physical values, environments", "why_tests_cant": "The labels of complex-conjugate numbers agree for every real state, so tests on real tensors cannot tell them apart.", "anchors": ["models/jq.py::JQ_C4V_PLAQUETTE.eval_obs"]}
{"id": "C113", "title": "The Kagome density matrices are partial traces of the density matrices of the site tensors", "statement": "For every Kagome state (three spins per site tensor) and environment: rdm2x2_kagome, rdm2x1_kagome and rdm1x2_kagome return, for any spins to be kept in each tensor, the density matrix of exactly these spins: the partial trace over all other spins of the density matrix rdm2x2, rdm2x1 or rdm1x2 of the whole tensors, with one ket and one bra index per kept spin, tensor by tensor, spins C, B, A inside a tensor. rdm2x2_up_triangle_open is the case of the three spins around an up triangle. In particular the density matrices of different choices are consistent with each other.", "quantifier": "all unit cells, bond and environment dimensions, spin dimensions, states, environments, coordinates, all choices of kept spins with at least one spin", "why_tests_cant": "Each choice of kept spins takes another branch and another permutation of up to 24 indices; uniform or symmetric states hide exchanged spins.", "anchors": ["ctm/pess_kagome/rdm_kagome.py::double_layer_a", "ctm/pess_kagome/rdm_kagome.py::enlarged_corner", "ctm/pess_kagome/rdm_kagome.py::rdm2x2_kagome", "ctm/pess_kagome/rdm_kagome.py::rdm2x1_kagome", "ctm/pess_kagome/rdm_kagome.py::rdm1x2_kagome", "ctm/pess_kagome/rdm_kagome.py::rdm2x2_up_triangle_open", "ipeps/ipeps_kagome.py::IPEPS_KAGOME.get_physical_dim"]}
{"id": "C115", "title": "Expectation values of three-spin operators on the triangles of the Kagome lattice", "statement": "For every Kagome state, environment, coordinate and operator on three spins (given with six indices or as a matrix): rdm2x2_dn_triangle_with_operator returns the trace of the operator with the density matrix of the three spins of the upper left tensor of the plaquette divided by the norm of the same network, together with that norm; for a Hermitian operator its real part is the expectation value in the density matrix of the plaquette. Contracting the operator with rdm2x2_up_triangle_open gives the expectation value in the density matrix of the three spins around the up triangle, whose trace is one.", "quantifier": "all unit cells, dimensions, spin dimensions, states, environments, coordinates, operators", "why_tests_cant": "An operator contracted transposed, or in the wrong order of spins, gives the same number for every symmetric real operator that a test would use.", "anchors": ["ctm/pess_kagome/rdm_kagome.py::rdm2x2_dn_triangle_with_operator", "ctm/pess_kagome/rdm_kagome.py::rdm2x2_up_triangle_open", "models/spin_half_kagome.py::S_HALF_KAGOME.energy_triangle_up"]}
{"id": "C116", "title": "S_HALF_KAGOME: energies of the triangles are those of the documented Hamiltonian", "statement": "For all couplings, spin dimensions, states and environments: energy_triangle_dn and energy_triangle_up return, for every site of the cell, the real expectation value in the density matrix of the plaquette of J_1 sum S_i.S_j + J_D (z-component of the vector products) + J_1sq sum (S_i.S_j)^2 - J_trip (S_1 x S_2).S_3 + J_perm P + J_perm^* P^-1 + h sum S^z, the sums running over the three bonds, resp. spins, of the triangle in anti-clockwise order.", "quantifier": "all couplings, spin dimensions, states, environments", "why_tests_cant": "The sign of a chirality, of an oriented coupling or of a cyclic permutation cannot be seen with real states or with symmetric triangles; tests sample a few states.", "anchors": ["models/spin_half_kagome.py::S_HALF_KAGOME.__init__", "models/spin_half_kagome.py::S_HALF_KAGOME.energy_triangle_dn", "models/spin_half_kagome.py::S_HALF_KAGOME.energy_triangle_up"]}
{"id": "C114", "title": "Kagome: one-site density matrices and traces are those of the three spins of the tensor", "statement": "For all states, environments, spin dimensions and sites: rdm1x1_kagome and _old_rdm1x1_kagome return the partial trace, over the spins that are not kept, of the density matrix of the site tensor; trace1x1_dn_kagome returns the trace of an operator on the three spins with the un-normalised density matrix of the site tensor.", "quantifier": "all states with bonds of any sizes, environments, spin dimensions, sets of kept spins, operators and coordinates", "why_tests_cant": "A wrong order of indices in a reshape has no effect for bonds of size one or for symmetric tensors; tests sample a few states.", "anchors": ["ctm/pess_kagome/rdm_kagome.py::rdm1x1_kagome", "ctm/pess_kagome/rdm_kagome.py::_old_rdm1x1_kagome", "ctm/pess_kagome/rdm_kagome.py::trace1x1_dn_kagome"]}
{"id": "C117", "title": "S_HALF_KAGOME.eval_obs: magnetisations, correlations and permutations under their labels", "statement": "For all couplings, spin dimensions, states and environments: eval_obs returns, for every site of the cell, sz_i, sp_i, sm_i as expectation values of S^z, S^+, S^- of spin i, m2_i as the squared length of the magnetisation of spin i, SS_dn_ij and SS_up_ij as the correlations of S_i.S_j on the down and up triangles, and optionally correlation lengths; every label once. P_dn and P_up return the expectation values of the cyclic permutation.", "quantifier": "all couplings, spin dimensions, states, environments, unit cells", "why_tests_cant": "A wrong label of a bond or a scale factor equal to one for the default couplings cannot be seen with symmetric states or default couplings; tests sample a few states.", "anchors": ["models/spin_half_kagome.py::S_HALF_KAGOME.eval_obs", "models/spin_half_kagome.py::S_HALF_KAGOME.P_dn", "models/spin_half_kagome.py::S_HALF_KAGOME.P_up"]}
{"id": "C118", "title": "The SU(3) generators and Casimir operators", "statement": "SU3_DEFINING: J_Gell_Mann are the eight Gell-Mann matrices (Hermitian, traceless, orthogonal, complete) and the Cartan-Weyl matrices the documented combinations of them; C1 is the sum over the generators of the products on two sites, that is half the exchange of the two sites less one sixth; C2 is the sum of the products on three sites with the symmetric structure constants of the anticommutators; both commute with every change of basis that acts on all sites alike.", "quantifier": "all entries of the operators; all 3x3 matrices U for the invariance", "why_tests_cant": "The operators are built by loops over products of floating-point matrices; a test compares entries, the identities with permutations and the invariance under every U are not sampled.", "anchors": ["groups/su3.py::SU3_DEFINING.J_Gell_Mann", "groups/su3.py::SU3_DEFINING.C1", "groups/su3.py::SU3_DEFINING.C2"]}
{"id": "C119", "title": "KAGOME_SU3: Hamiltonian and energies of the triangles", "statement": "For all couplings j, k, h: the operator built by KAGOME_SU3 is J sum P_ij + K (P_ijk + P_ijk^-1) + i h (P_ijk - P_ijk^-1) on the three three-level spins of a triangle, it is Hermitian and commutes with every transformation that acts on all three spins alike (so it is SU(3)-symmetric). energy_triangles_2x2subsystem returns its expectation values in the density matrices of the down and the up triangle of the plaquette at (0,0), energy_per_site_2x2subsystem a third of their sum, energy_down_t_1x1subsystem the expectation value in the density matrix of the site (0,0).", "quantifier": "all couplings, angles, states and environments with non-vanishing norms, all 3x3 matrices for the symmetry", "why_tests_cant": "A transposed permutation, or a missing complex conjugation, is not seen with real states or with h = 0; the symmetry is a statement about a continuous group.", "anchors": ["models/su3_kagome.py::KAGOME_SU3.get_h", "models/su3_kagome.py::KAGOME_SU3.energy_triangles_2x2subsystem", "models/su3_kagome.py::KAGOME_SU3.energy_per_site_2x2subsystem", "models/su3_kagome.py::KAGOME_SU3.energy_down_t_1x1subsystem"]}
{"id": "C120", "title": "KAGOME_SU3: observables under their labels", "statement": "For all couplings, states and environments: eval_obs and eval_obs_2x2subsystem return under their labels the energies, the mean exchange of the bonds, the chiralities i(P - P^-1) of the down and the up triangle and the squared lengths of the eight-component vectors of the generators on the three spins; eval_generators these vectors; eval_C1 and eval_C2 the expectation values of the quadratic Casimir operator on the bonds of the spins named by the label (A, B, C as in sites_to_keep) and of the cubic one on both triangles; energy_1site the energy per site of the unit cell.", "quantifier": "all couplings, states and environments with non-vanishing norms, unit cells", "why_tests_cant": "Signs of chiralities and exchanged labels vanish for real or symmetric states, and the normalisation by the number of sites for cells of one site, which are what a test uses.", "anchors": ["models/su3_kagome.py::KAGOME_SU3.eval_obs", "models/su3_kagome.py::KAGOME_SU3.eval_obs_2x2subsystem", "models/su3_kagome.py::KAGOME_SU3.eval_generators", "models/su3_kagome.py::KAGOME_SU3.eval_C1", "models/su3_kagome.py::KAGOME_SU3.eval_C2", "models/su3_kagome.py::KAGOME_SU3.energy_1site"]}
{"id": "C121", "title": "SU3_CHIRAL: energies and observables", "statement": "For all couplings, states and environments: energy_triangle_dn and energy_triangle_up return the expectation value of K P + K* P^-1 + j1 (P_12 + P_23 + P_13) in the down and up triangle, energy_nnn that of j2 times the exchanges of next-nearest neighbours, P_dn and P_up the cyclic exchange, P_bonds_nn the exchanges of the three bonds, eval_lambdas and eval_obs the two diagonal SU(3) generators on the three spins under their labels, eval_su3_gens all eight generators on the three spins. S1_KAGOME.energy_nnn and P_bonds_nn likewise.", "quantifier": "all couplings, states and environments with non-vanishing norms", "why_tests_cant": "An entry that is assigned instead of added differs only on states with equal spins, and a wrong pairing of indices only for generators on entangled spins; no test reaches the methods that raise.", "anchors": ["models/SU3_chiral.py::SU3_CHIRAL.energy_triangle_dn", "models/SU3_chiral.py::SU3_CHIRAL.energy_triangle_up", "models/SU3_chiral.py::SU3_CHIRAL.energy_nnn", "models/SU3_chiral.py::SU3_CHIRAL.P_dn", "models/SU3_chiral.py::SU3_CHIRAL.P_up", "models/SU3_chiral.py::SU3_CHIRAL.P_bonds_nn", "models/SU3_chiral.py::SU3_CHIRAL.eval_lambdas", "models/SU3_chiral.py::SU3_CHIRAL.eval_su3_gens", "models/SU3_chiral.py::SU3_CHIRAL.eval_obs", "models/spin1_kagome.py::S1_KAGOME.energy_nnn", "models/spin1_kagome.py::S1_KAGOME.P_bonds_nn"]}
{"id": "C122", "title": "SU3_AKLT: energies, generators and correlation functions", "statement": "For all states and environments: energy_triangle and energy_triangle_up return two thirds of the expectation value of P + P^-1 in the down and up triangle, eval_lambdas the two diagonal generators on the three spins, eval_corrf_LL at every distance and in both directions the two-point function of the diagonal generator of the first spin, eval_corrf_PP the connected two-point function of P + P^-1.", "quantifier": "all states and environments with non-vanishing norms, both directions, all distances", "why_tests_cant": "Correlations at every distance are an unbounded family; a test evaluates a few of them for one state.", "anchors": ["models/SU3_AKLT.py::SU3_AKLT.energy_triangle", "models/SU3_AKLT.py::SU3_AKLT.energy_triangle_up", "models/SU3_AKLT.py::SU3_AKLT.eval_lambdas", "models/SU3_AKLT.py::SU3_AKLT.eval_corrf_LL", "models/SU3_AKLT.py::SU3_AKLT.eval_corrf_PP"]}
{"id": "C123", "title": "Energies of spirals on the triangular lattice", "statement": "For the J1-Jchi model on the triangular lattice (j2 = j4 = 0), energy_per_site returns the energy per site of the spiral state that is obtained from the periodic state by rotating the spin at every lattice vertex (x,y) around the y-axis by 2 pi (q_x x + q_y y), the tiling documented for IPEPS_1S_Q: nearest neighbours along rows, columns and one diagonal (weighted by diag), and the scalar chirality of both triangles of every plaquette with spins taken counter-clockwise. eval_nn_per_site and eval_nn_and_chirality_per_site return the contributions of one vertex.", "quantifier": "all spin sizes, couplings, pitch vectors, states and environments for which the density matrices exist", "why_tests_cant": "The angle is a real number and every vertex of the infinite lattice has its own rotation; tests evaluate one pitch vector, usually the 120 degree one, for which wrong signs and the second component do not show.", "anchors": ["models/spin_triangular.py::J1J2J4_1SITEQ.energy_per_site", "models/spin_triangular.py::eval_nn_per_site", "models/spin_triangular.py::eval_nn_and_chirality_per_site", "models/spin_triangular.py::J1J2J4_1SITEQ.get_h", "ipeps/ipeps_1s_Q.py::IPEPS_1S_Q"]}
{"id": "C124", "title": "Observables of the triangular models", "statement": "eval_obs of the triangular models returns, in this order and under these labels, the average length of the magnetisation over the cell, its length and <S^z>, <S^+>, <S^-> on each site, S.S with the right, the lower and the upper right neighbour in the spiral, and the pitch vector; eval_obs_chirality returns the scalar chirality of the two triangles of a plaquette.", "quantifier": "all spin sizes, cells, pitch vectors, states and environments for which the density matrices exist", "why_tests_cant": "The values must belong to their labels for every cell and every rotation angle; a test checks one state and cannot tell the neighbour at (1,-1) from the one at (1,1) when both are equal.", "anchors": ["models/spin_triangular.py::J1J2J4_1SITEQ.eval_obs", "models/spin_triangular.py::eval_obs_chirality"]}
{"id": "C125", "title": "Spin correlations of the triangular models", "statement": "For every state, environment, site, direction, distance and pitch vector: eval_corrf_SS returns the correlations of the three components of the spins and of the spins themselves in the spiral whose energies energy_per_site returns (without conj_s: in the periodic state); with canonical=True the correlations of the components along and across the spontaneous magnetisation, with the same sum; eval_corrf_SId the one-point functions in that spiral; J1J2J4.eval_corrf_SS the correlations of the periodic state, and it raises for a non-zero pitch vector.", "quantifier": "all spin sizes, states, environments with non-vanishing strip norms, sites, four directions, all distances, all pitch vectors", "why_tests_cant": "Correlations at every distance and angle are an unbounded family; a sign of the rotation along columns does not show for 120 degree or collinear order along rows, a missing y component of the magnetisation does not show for real states.", "anchors": ["models/spin_triangular.py::J1J2J4_1SITEQ.eval_corrf_SS", "models/spin_triangular.py::J1J2J4_1SITEQ.eval_corrf_SId", "models/spin_triangular.py::J1J2J4.eval_corrf_SS"]}
{"id": "C126", "title": "Density matrices of patches of six sites", "statement": "For every list of distinct sites of a 2x3 or 3x2 patch, rdm2x3_loop_oe and rdm2x3_loop_oe_semimanual (and the 3x2 functions) return the same tensor: the symmetrised, normalised network of the 6 sites and the 14 environment tensors around them with the physical indices of the chosen sites open, kets in increasing order of the sites, then bras. A list with a repeated site or one outside of the patch raises.", "quantifier": "all states, environments, positions, all subsets of the sites in any order, real and complex tensors", "why_tests_cant": "There are 64 subsets of open sites, each with its own network of 26 tensors and 60 indices, and the two functions contract them along different paths; a test can compare only numbers for a few states, for which symmetric tensors hide swapped legs.", "anchors": ["ctm/generic/rdm_looped.py::rdm2x3_loop_oe", "ctm/generic/rdm_looped.py::rdm2x3_loop_oe_semimanual", "ctm/generic/rdm_looped.py::rdm3x2_loop_oe", "ctm/generic/rdm_looped.py::rdm3x2_loop_oe_semimanual"]}
{"id": "C127", "title": "Energies of next-nearest neighbours of spirals on the triangular lattice", "statement": "With a coupling j2, energy_per_site (j4 = 0) adds to the energy of C123 j2 times the expectation value of S.S on the bonds between next-nearest neighbours, (x,y)-(x+1,y+1), (x+2,y)-(x,y+1) and (x,y+2)-(x+1,y), in the same spiral, per site. eval_nnn_per_site and eval_nnn_per_site_semimanual return the same value for one vertex.", "quantifier": "all spin sizes, couplings, pitch vectors, cells, states and environments for which the density matrices exist", "why_tests_cant": "The sense in which a spin is turned does not show for 120 degree order, for one-site product states or for density matrices that are symmetric under the exchange of the two spins; those are the states a test would use.", "anchors": ["models/spin_triangular.py::J1J2J4_1SITEQ.energy_per_site", "models/spin_triangular.py::eval_nnn_per_site", "models/spin_triangular.py::eval_nnn_per_site_semimanual"]}
{"id": "C128", "title": "Energies with the interaction on rhombi of spirals on the triangular lattice", "statement": "With j4 != 0 and diag = 1, energy_per_site(unroll=True) returns the energy per site of the Hamiltonian of the class, J1 sum S_i.S_j + J2 sum S_i.S_j + J4 sum over rhombi of [(S_i.S_j)(S_k.S_l) + (S_i.S_l)(S_j.S_k) - (S_i.S_k)(S_j.S_l)] + Jchi sum S_i.(S_j x S_k), in the spiral whose spins turn by -2 pi q per step to the right and +2 pi q per step down: the sum over the three rhombi at every vertex of the cell, with the sides counted 1/4 and the triangles 1/3, the triangles oriented counter-clockwise. diag != 1 raises. j4 = 0 is C127.", "quantifier": "all spin sizes, couplings, pitch vectors, cells, states and environments for which the density matrices exist", "why_tests_cant": "The rotation of each of twelve spins, the order of the four axes and the orientation of six triangles enter separately; a wrong one cancels in uniform or 120 degree states, which are what tests use.", "anchors": ["models/spin_triangular.py::J1J2J4_1SITEQ.energy_per_site", "models/spin_triangular.py::J1J2J4_1SITEQ.get_h", "models/spin_triangular.py::eval_j1j2j4jX_per_site_legacy"]}
{"id": "C129", "title": "Density matrices of rhombi with a loop over one bond", "statement": "rdm2x3_loop_trglringex_manual(coord) and rdm3x2_loop_trglringex_manual(coord) return the density matrix of the four sites drawn in their docstrings, kets in the order s0 s1 s2 s3 and then bras: coord, coord+(1,0), coord+(2,-1), coord+(1,-1) for 2x3, and coord, coord+(1,-1), coord+(1,-2), coord+(0,-1) for 3x2. The loop over the D^2 values of the cut bond, of any size, sums to the whole network. Without sym_pos_def the result is entry by entry that of rdm2x3_loop_oe (rdm3x2_loop_oe) at coord+(0,-1) (coord+(0,-2)) with open_sites=[1,2,3,4], up to the order of the sites.", "quantifier": "all states on any tiling with one physical dimension on the four sites, all environments with fitting bonds, all bond dimensions, all vertices", "why_tests_cant": "Tests compare with a reference on one-site states, where the four sites carry the same tensor and many wrong assignments of sites and bonds agree.", "anchors": ["ctm/generic/rdm_looped.py::rdm2x3_loop_trglringex_manual", "ctm/generic/rdm_looped.py::rdm3x2_loop_trglringex_manual"]}
{"id": "C130", "title": "Index unrolling does not change the energy with the interaction on rhombi", "statement": "energy_per_site(unroll=False), the default, returns the same number as energy_per_site(unroll=True) for all couplings with diag = 1, although the two use different routines for the density matrices and take the rhombi at different vertices (coord is the lower left vertex of the patch in one and the upper left vertex in the other).", "quantifier": "all spin sizes, couplings, pitch vectors, tilings, states and environments for which the density matrices exist", "why_tests_cant": "The rhombi are shifted against each other by one or two rows; on cells with several sites only the sums over the cell agree, with the rotations of the spiral taken relative to different vertices.", "anchors": ["models/spin_triangular.py::J1J2J4_1SITEQ.energy_per_site", "models/spin_triangular.py::eval_j1j2j4jX_per_site_legacy", "ctm/generic/rdm_looped.py::rdm2x3_loop_trglringex_manual", "ctm/generic/rdm_looped.py::rdm3x2_loop_trglringex_manual"]}
{"id": "C131", "title": "Point-group symmetric states on the triangular lattice have the declared symmetry", "statement": "For IPEPS_TRGL_1S_TTPHYS_PG and IPEPS_TRGL_1S_TBT_PG: to_PG_symmetric (and pg_symmetrize=True) yields elementary tensors of the declared irreps, leaves tensors without an irrep untouched and is idempotent; it is defined exactly if the irreps exist and the auxiliary legs have one size. The wavefunction of a symmetric state of the first class on every n x n torus is invariant under a rotation by 120 degrees and conjugated (with the sign of the irreps) by a reflection; that of the second class is conjugated by the inversion. These are symmetries of the lattice on which the models of spin_triangular.py are defined.", "quantifier": "all tensors, bond dimensions, dictionaries of irreps, torus sizes and spin configurations", "why_tests_cant": "A test checks a tensor or a small patch; the symmetry is a statement about all configurations on all tori.", "anchors": ["ipeps/ipeps_trgl_pg.py::IPEPS_TRGL_1S_TTPHYS_PG", "ipeps/ipeps_trgl_pg.py::IPEPS_TRGL_1S_TBT_PG", "ipeps/ipeps_trgl_pg.py::to_PG_symmetric", "models/spin_triangular.py::eval_nn_per_site"]}
{"id": "C132", "title": "Every sequence of operations keeps a symmetric triangular state consistent", "statement": "After any sequence of construction, reading, load_checkpoint, normalize_, extend_bond_dim, to_PG_symmetric and add_noise, the on-site tensor is the network of the elementary tensors, and symmetric tensors stay in their irreps; extend_bond_dim succeeds exactly if no bond is larger than the new dimension, embeds the on-site tensor in zeros and keeps the irreps; a checkpoint written by the optimizer can be loaded and restores the state.", "quantifier": "all finite sequences of operations, all tensors, noises, irreps and bond dimensions", "why_tests_cant": "The faults show only after particular sequences (noise before reading the site, extending before symmetrizing, resuming).", "anchors": ["ipeps/ipeps_trgl_pg.py::IPEPS_TRGL_1S_TTPHYS_PG.add_noise", "ipeps/ipeps_trgl_pg.py::IPEPS_TRGL_1S_TBT_PG.extend_bond_dim", "ipeps/ipeps_trgl_pg.py::IPEPS_TRGL_1S_TTPHYS_PG.load_checkpoint", "optim/ad_optim_lbfgs_mod.py::store_checkpoint"]}
{"id": "C133", "title": "Symmetric triangular states survive files", "statement": "A state written in either tensor format and read back has the same irreps, elementary tensors and on-site tensor (promoted to complex if the default dtype is complex); with normalize=True the normalized state is written, with pg_symmetrize=True the symmetrized one; write_to_file of both classes writes the state.", "quantifier": "all states reached by any history, both tensor formats, both default dtypes", "why_tests_cant": "Round trips must hold for all tensors and shapes.", "anchors": ["ipeps/ipeps_trgl_pg.py::write_ipeps_trgl_1s_ttphys_pg", "ipeps/ipeps_trgl_pg.py::read_ipeps_trgl_1s_ttphys_pg", "ipeps/ipeps_trgl_pg.py::write_ipeps_trgl_1s_tbt_pg", "ipeps/ipeps_trgl_pg.py::read_ipeps_trgl_1s_tbt_pg"]}
{"id": "C134", "title": "Bipartite states from elementary tensors: tiling, site tensors, symmetry", "statement": "A state made from elementary site and bond tensors tiles the plane bipartitely: the site tensor at (x,y) depends only on the parity of x+y. The first tensor is the documented combination of elementary tensors, the second is the first with the combination of bond tensors attached to every auxiliary index. If the elementary tensors are representatives of their irreps and everything else is real, both site tensors are symmetric (real part A_1, imaginary part A_2). States with both irreps can be built; the reported bond dimensions are those of the site tensors.", "quantifier": "all integer coordinates, all lists of elementary tensors, coefficients, dimensions", "why_tests_cant": "Negative coordinates, all numbers of tensors and all lattice symmetries have to be covered.", "anchors": ["ipeps/ipeps_lc_bp.py::IPEPS_LC_BP.__init__", "ipeps/ipeps_lc_bp.py::IPEPS_LC_BP.build_onsite_tensors", "ipeps/ipeps_lc_bp.py::IPEPS_LC_BP.get_aux_bond_dims"]}
{"id": "C135", "title": "Bipartite states from elementary tensors: histories", "statement": "After any sequence of construction, reading, restoring, moving, adding noise and cloning, the site tensors are those of the current coefficients and elementary tensors; a clone is the same state; a checkpoint of a state restores it; a state can be moved to another device.", "quantifier": "all histories of operations", "why_tests_cant": "Stale site tensors only show after particular sequences of operations.", "anchors": ["ipeps/ipeps_lc_bp.py::IPEPS_LC_BP.add_noise", "ipeps/ipeps_lc_bp.py::IPEPS_LC_BP.clone", "ipeps/ipeps_lc_bp.py::IPEPS_LC_BP.load_checkpoint", "ipeps/ipeps_lc_bp.py::IPEPS_LC_BP.move_to", "ipeps/ipeps_lc_bp.py::load_checkpoint_lc_1site_pg"]}
{"id": "C136", "title": "Bipartite states from elementary tensors survive files", "statement": "Writing a state to a file and reading it with the same order of auxiliary indices restores elementary tensors, meta data, coefficients, site tensors and tiling.", "quantifier": "all states, all orders of auxiliary indices, real and complex", "why_tests_cant": "Round trips must hold for all tensors and shapes.", "anchors": ["ipeps/ipeps_lc_bp.py::write_ipeps_lc_bp", "ipeps/ipeps_lc_bp.py::read_ipeps_lc_bp"]}
{"id": "C137", "title": "Initial environments of C4v symmetric states", "statement": "For every non-zero site tensor with the reflection symmetries of the square lattice, initialising the environment succeeds for every environment dimension and yields tensors of the documented shapes and symmetry (C and T Hermitian). With CTMRG it is the environment of the traced site in the eigenbasis of its corner, cut or padded with zeros; if the environment dimension is at least the square of the bond dimension, the first enlarged corner is unitarily equivalent to that of the traced site, and all environments reached by moves are Hermitian. PROD gives a product environment for all bond dimensions. Unknown options are rejected.", "quantifier": "all symmetric site tensors, bond, physical and environment dimensions, eigendecompositions, random numbers", "why_tests_cant": "Tests check a few random tensors up to rounding; they cannot cover all dimensions and degenerate spectra.", "anchors": ["ctm/one_site_c4v/env_c4v.py::init_env", "ctm/one_site_c4v/env_c4v.py::_init_from_ipeps_pbc", "ctm/one_site_c4v/env_c4v.py::init_from_ipeps_obc", "ctm/one_site_c4v/env_c4v.py::init_prod", "ctm/one_site_c4v/env_c4v.py::init_random"]}
{"id": "C138", "title": "Larger C4v environments and given tensors", "statement": "Extending an environment pads both tensors with zeros (or cuts them), keeps values and symmetries and never fails; an environment initialised with given C and T contains these tensors, padded with zeros.", "quantifier": "all environments, old and new dimensions, given tensors, with and without physical index of the site", "why_tests_cant": "Depends on all dimensions and on what the environment held before.", "anchors": ["ctm/one_site_c4v/env_c4v.py::ENV_C4V.extend", "ctm/one_site_c4v/env_c4v.py::init_env"]}
{"id": "C139", "title": "Multiplets of the corner spectrum", "statement": "compute_multiplets returns positive sizes of consecutive blocks of the eigenvalues of the corner, ordered by magnitude, and a block ends exactly where a magnitude exceeds the next one (zero after the last) by more than the given gap; the sizes add up to the environment dimension if and only if all magnitudes exceed the gap.", "quantifier": "all spectra and gaps", "why_tests_cant": "Degeneracies and small values of any pattern have to be covered.", "anchors": ["ctm/one_site_c4v/env_c4v.py::compute_multiplets"]}
{"id": "C140", "title": "Gauging a weighted state does not change its wavefunction", "statement": "For every tiling, all bond dimensions and every non-zero state with diagonal weights, IPEPS_WEIGHTED.gauge returns a state with diagonal non-negative weights, each shared by both ends of its bond; every amplitude on every finite periodic piece of the lattice equals that of the given state up to one constant factor per site; the number of rounds respects quasi_gauge_max_iter, and if it is not reached the weights changed by no more than quasi_gauge_tol in the last round.", "quantifier": "all tilings, sizes, site tensors, weights, tolerances, limits, and all results of the eigen- and singular value decompositions that meet their contracts", "why_tests_cant": "Invariance of amplitudes on all system sizes cannot be sampled, and it depends on the order in which bonds are met by the loop.", "anchors": ["ipeps/ipeps.py::IPEPS_WEIGHTED.gauge"]}
{"id": "C141", "title": "States of coupled ladders stay mirror images of one tensor", "statement": "In every history of constructing, loading a checkpoint, adding noise, extending the bond dimension and reading a file, IPEPS_D2SYM keeps on its 1x2 cell the parent tensor and its mirror image with up and down exchanged, consistently with the parent; sites one row apart are mirror images everywhere on the lattice, so bonds always match; noise leaves a parent symmetric under exchange of left and right; extension succeeds exactly if no bond is larger and keeps all entries; a checkpoint restores the state.", "quantifier": "all parent tensors, coordinates, noises and histories of operations", "why_tests_cant": "The relation between parent and cell must survive every history of operations.", "anchors": ["ipeps/ipeps_d2.py::IPEPS_D2SYM", "ipeps/ipeps_d2.py::extend_bond_dim", "groups/pg.py::make_d2_symm"]}
{"id": "C142", "title": "Files of states of coupled ladders restore the parent tensor", "statement": "For every reachable state and every format, write_ipeps_d2 followed by read_ipeps_d2 with the same index order returns a state with the same parent tensor and tiling.", "quantifier": "all reachable states, formats, index orders and dtype settings", "why_tests_cant": "All shapes, entries and index orders.", "anchors": ["ipeps/ipeps_d2.py::read_ipeps_d2", "ipeps/ipeps_d2.py::write_ipeps_d2"]}
{"id": "C143", "title": "Operators: the reduced network is the trace, and files restore them", "statement": "For every IPEPO, to_nophys_ipeps succeeds exactly if all tensors have rank six with equal ancilla and physical dimensions, keeps the tiling, and on every finite periodic piece of the lattice the contraction of the result is the trace of the operator; write_ipepo followed by read_ipepo returns the same tensors and the same tiling.", "quantifier": "all operators, tilings, pieces of the lattice, formats and dtype settings", "why_tests_cant": "All sizes of the lattice, tensors and tilings.", "anchors": ["ipeps/ipeps.py::IPEPO", "ipeps/ipeps.py::read_ipepo", "ipeps/ipeps.py::write_ipepo"]}
{"id": "C144", "title": "One-site states keep tensor and wave vector through histories and files", "statement": "In every history of constructing, loading checkpoints, extending bonds, writing and reading, IPEPS_1S_Q has the same single tensor at every vertex; a checkpoint restores tensor and wave vector; extension succeeds exactly if no bond is larger and keeps entries and wave vector; writing and reading with the same index order returns tensor and wave vector, whatever q is passed, and the q passed is used only if the file has none.", "quantifier": "all histories, tensors, wave vectors, formats, index orders and files", "why_tests_cant": "All histories and all files, including damaged ones.", "anchors": ["ipeps/ipeps_1s_Q.py::IPEPS_1S_Q", "ipeps/ipeps_1s_Q.py::read_ipeps_1s_q", "ipeps/ipeps_1s_Q.py::write_ipeps_1s_q"]}
{"id": "C145", "title": "gen_3site produces a spiral", "statement": "For every spin, every site tensor and every q that is a multiple of 1/3, the state made by gen_3site has at (x,y) the given tensor with its physical index rotated about the y axis by 2 pi q (x-y), up to sign; all neighbours are related by the same orthogonal rotation up to sign, and the state repeats with its 3x3 cell.", "quantifier": "all spins, tensors, multiples of 1/3 and all vertices", "why_tests_cant": "All spins and the whole lattice; rests on the matrix exponential of the spin matrices for every representation.", "anchors": ["ipeps/ipeps_1s_Q.py::gen_3site", "groups/su2.py::SU2"]}
{"id": "C146", "title": "Files of symmetric tensors are read as written", "statement": "For every file that lists any number of symmetric tensors in the documented syntax, with any text between the tokens that does not contain the next token, parse_symten_file returns for each tensor, in the order of the file, its keys with their values and its elements with their indices and values; values may contain matching parentheses.", "quantifier": "all numbers of tensors, keys, values, elements, indices and all text between them", "why_tests_cant": "All files; the parser is a state machine over characters with no grammar.", "anchors": ["su2sym/sym_ten_parser.py::parse_classification", "su2sym/sym_ten_parser.py::parse_meta", "su2sym/sym_ten_parser.py::parse_elems", "u1sym/sym_ten_parser.py::parse_classification"]}
{"id": "C147", "title": "Importing symmetric tensors selects by irrep and fills zeros", "statement": "For every well-formed file whose tensors all name their irrep, and every irrep asked for, import_sym_tensors (also the generic and the FIX variant) returns exactly the tensors of that irrep in the order of the file; an entry is the value of the last element with its indices and zero otherwise; import fails exactly if an index is out of range or their number is wrong. The FIX variant keeps the indices of the first element and lowers all others by one.", "quantifier": "all files, irreps, shapes and lists of elements", "why_tests_cant": "All files and lists of elements, with repeated elements and indices out of range.", "anchors": ["su2sym/sym_ten_parser.py::import_sym_tensors", "su2sym/sym_ten_parser.py::import_sym_tensors_FIX", "su2sym/sym_ten_parser.py::import_sym_tensors_generic", "su2sym/sym_ten_parser.py::fill_from_sparse_coo", "su2sym/sym_ten_parser.py::fill_from_sparse_coo_FIX"]}
{"id": "C148", "title": "Gradient descent visits the right states and keeps the best one", "statement": "For every loss with exact gradient, start, step size, momentum, tolerance and positive number of epochs, optimize_state of ad_optim_sgd_mod makes steps of gradient descent with momentum until two consecutive losses differ by less than the tolerance or the epochs are used up; every state visited is evaluated once, the checkpoints are those of the states visited. At every point where the loss function raises, however it behaved before, the state file holds a best one of the states evaluated, or what it held before if none has a loss below 1e16.", "quantifier": "all losses, starts, parameters, numbers of epochs and crash points", "why_tests_cant": "All losses and all crash points of runs of any length.", "anchors": ["optim/ad_optim_sgd_mod.py::optimize_state", "optim/ad_optim_sgd_mod.py::store_checkpoint"]}
{"id": "C149", "title": "A resumed gradient descent continues the run", "statement": "A run of ad_optim_sgd_mod.optimize_state that crashed in any epoch and is resumed from its last checkpoint with the same arguments visits the states the run would have visited; checkpoints hold a state with its loss, the file of the best state stays the best of both runs, and the configured dampening is used.", "quantifier": "all losses, crash points, arguments and both settings of opt_resume_override_params", "why_tests_cant": "All crash points and all losses.", "anchors": ["optim/ad_optim_sgd_mod.py::optimize_state", "config.py::OPTARGS"]}
{"id": "C150", "title": "The energy of the J1-J2-lambda model is that of its Hamiltonian", "statement": "For every one-site C4v state and environment and all couplings, energy_1x1 of J1J2LAMBDA_C4V_BIPARTITE returns the energy per site of the Hamiltonian with exchanges j1, j2, j3, anisotropy, chiral plaquette term and staggered field: the value J1J2_C4V_BIPARTITE returns for the same couplings.", "quantifier": "all couplings, site tensors, environments and bond dimensions", "why_tests_cant": "Real couplings and tensors of any bond dimension.", "anchors": ["models/j1j2lambda.py::J1J2LAMBDA_C4V_BIPARTITE", "models/j1j2.py::J1J2_C4V_BIPARTITE.energy_1x1"]}
{"id": "C151", "title": "The Ising energies of C4v states are those of the documented Hamiltonian", "statement": "For every one-site C4v state and environment, energy_1x1_nn and energy_1x1_plaqette of ISING_C4V return the energy per site of H = -sum 4SzSz + q sum 16SzSzSzSz - hx sum 2Sx; energy_1x1_nn raises unless q is zero; the plaquette energy is that of ISING.energy_1x1 for the lattice of copies of the site.", "quantifier": "all fields, plaquette couplings, site tensors, environments and bond dimensions", "why_tests_cant": "Real couplings and tensors of any bond dimension.", "anchors": ["models/ising.py::ISING_C4V"]}
{"id": "C152", "title": "Randomised SVD returns singular triples of a projection, exact if the sample spans the range", "statement": "For every matrix, rank k, oversampling p, number of rounds q, re-orthogonalisation period s and every outcome of the random sampling, rsvd returns min(k, rows, columns) singular triples with orthonormal vectors and descending non-negative values: the leading triples of the orthogonal projection of the matrix onto a subspace of at most k+p dimensions that contains the sampled vectors after q-1 applications of M M^H. If the sampled vectors span the range of the matrix, they are the leading singular triples of the matrix. It fails only for s=0 with q>1. This is for vnum equal to 1 or above 2; any other vnum gives zero factors.", "quantifier": "all matrices (real or complex), k, p, q, s, vnum and random samples", "why_tests_cant": "All matrices and all outcomes of the sampling.", "anchors": ["linalg/svd_rsvd.py::rsvd"]}
{"id": "C153", "title": "Partial decompositions through scipy return sorted leading triples", "statement": "For every matrix and k: SYMARNOLDI of a Hermitian matrix returns the k eigenpairs of largest magnitude in order of descending magnitude; SVDSYMARNOLDI of a Hermitian matrix, SVDARNOLDI and SVD_PROPACK of any matrix return as many left vectors as values and right vectors, which are singular triples of the matrix with orthonormal vectors, in descending order, and no larger singular value is left out.", "quantifier": "all matrices, k, thresholds and all results scipy may return within its documentation", "why_tests_cant": "All matrices, among them those of low rank.", "anchors": ["linalg/svd_arnoldi.py::SVDSYMARNOLDI", "linalg/svd_arnoldi.py::SVDARNOLDI", "linalg/svd_arnoldi.py::SVD_PROPACK", "linalg/eig_arnoldi.py::SYMARNOLDI"]}

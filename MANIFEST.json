{
 "claims": [
  {
   "property": "C01",
   "status": "proved",
   "theorems": [
    "Verif.Lattice.C01_default_tiling",
    "Verif.Lattice.C01_zero_cell"
   ],
   "note": ""
  },
  {
   "property": "C02",
   "status": "proved",
   "theorems": [
    "Verif.Lattice.C02_accepts_iff",
    "Verif.Lattice.C02_result",
    "Verif.Lattice.C02_errors",
    "Verif.Lattice.C02_dict"
   ],
   "note": ""
  },
  {
   "property": "C03",
   "status": "proved",
   "theorems": [
    "Verif.Lattice.C03_pattern_tiling",
    "Verif.Lattice.C03_own_sites_construct"
   ],
   "note": ""
  },
  {
   "property": "C04",
   "status": "proved",
   "theorems": [
    "Verif.Lattice.C04_constructor",
    "Verif.Lattice.C04_doc_disagreement"
   ],
   "note": "The code gives an explicit vertexToSite precedence over a pattern, contrary to the docstring; recorded as C04_doc_disagreement."
  },
  {
   "property": "C05",
   "status": "proved",
   "theorems": [
    "Verif.State.C05_roundtrip"
   ],
   "note": "Number formatting/parsing is a parameter with the stated Lawful hypothesis (round trip of numpy's repr); an instance is exhibited."
  },
  {
   "property": "C06",
   "status": "partial",
   "theorems": [
    "Verif.State.C06_tiling_roundtrip_partial",
    "Verif.State.C06_explicit_tiling",
    "Verif.State.C06_bipartite_lost"
   ],
   "note": "Holds when the tiling is a period-cell tiling or when the tiling is passed explicitly; refuted (C06_bipartite_lost) for tilings that are not lX x lY periodic."
  },
  {
   "property": "C07",
   "status": "partial",
   "theorems": [
    "Verif.State.C07_read_state",
    "Verif.State.C07_read_relabels",
    "Verif.State.C07_write_ignores_aux_seq",
    "Verif.State.C07_roundtrip_fails"
   ],
   "note": "Reading side proved; writing side refuted: write_ipeps ignores aux_seq."
  },
  {
   "property": "C08",
   "status": "partial",
   "theorems": [
    "Verif.State.C08_extend",
    "Verif.State.C08_raises_iff",
    "Verif.State.C08_amplitude",
    "Verif.State.C08_error_unchanged_partial",
    "Verif.State.C08_error_not_atomic"
   ],
   "note": "Growth and invariance of the state proved; 'unchanged on error' refuted for later offending sites and proved when the first site offends."
  },
  {
   "property": "C09",
   "status": "proved",
   "theorems": [
    "Verif.State.C09_weights_shared",
    "Verif.State.C09_absorb_entries",
    "Verif.State.C09_absorb_amplitude",
    "Verif.State.C09_absorb_state"
   ],
   "note": ""
  },
  {
   "property": "C10",
   "status": "proved",
   "theorems": [
    "Verif.Su2.C10_spin_algebra",
    "Verif.Su2.C10_sz_spectrum",
    "Verif.Su2.C10_cartesian",
    "Verif.Su2.C10_unknown"
   ],
   "note": "Exact complex arithmetic; floating-point rounding not modelled."
  },
  {
   "property": "C100",
   "status": "proved",
   "theorems": [
    "Verif.Energy.C100_values",
    "Verif.Energy.C100_c4v",
    "Verif.Energy.C100_checker"
   ],
   "note": "For all states, sites, directions and distances with non-vanishing strip norms; complex dtype; the rl_0 argument is not modelled."
  },
  {
   "property": "C101",
   "status": "partial",
   "theorems": [
    "Verif.Energy.C101_swapped",
    "Verif.Energy.C101_values_partial",
    "Verif.Energy.C101_violated"
   ],
   "note": "Refuted: spsm and smsp are exchanged for every state, visible when the correlation is not symmetric; partial theorem for symmetric correlations and for the sum."
  },
  {
   "property": "C102",
   "status": "partial",
   "theorems": [
    "Verif.Energy.C102_value",
    "Verif.Energy.C102_real",
    "Verif.Energy.C102_frame_partial",
    "Verif.Energy.C102_not_finite",
    "Verif.Energy.C102_violated"
   ],
   "note": "Proved when the magnetisation has no y component; refuted for a product state with a y component, where ss changes; zero magnetisation gives nan."
  },
  {
   "property": "C103",
   "status": "proved",
   "theorems": [
    "Verif.Energy.C103_values",
    "Verif.Energy.C103_bipartite"
   ],
   "note": "For all cells, states and environments with non-vanishing real parts of the norms of the strips of one and two sites; complex dtype."
  },
  {
   "property": "C104",
   "status": "proved",
   "theorems": [
    "Verif.Energy.C104_values"
   ],
   "note": "For all C4v states and couplings with non-vanishing real parts of the strip norms and an existing density matrix of the plaquette."
  },
  {
   "property": "C105",
   "status": "proved",
   "theorems": [
    "Verif.Models.C105_heisenberg",
    "Verif.Models.C105_chains",
    "Verif.Models.C105_aklt",
    "Verif.Models.C105_ladders",
    "Verif.Models.C105_rotated_ladders"
   ],
   "note": "For all states and environments with non-vanishing real parts of the norms of two sites; complex dtype, real couplings."
  },
  {
   "property": "C106",
   "status": "partial",
   "theorems": [
    "Verif.Models.C106_heisenberg",
    "Verif.Models.C106_chains",
    "Verif.Models.C106_violated"
   ],
   "note": "Refuted: HB returns the energy of the cell (four times the energy per site), COUPLEDCHAINS half of the energy per site; both factors proved for all states."
  },
  {
   "property": "C107",
   "status": "partial",
   "theorems": [
    "Verif.Models.C107_projector",
    "Verif.Models.C107_energy",
    "Verif.Models.C107_violated"
   ],
   "note": "The projector is proved. The energy is refuted: energy_1x1 returns the energy of one bond, half of the energy per site, proved for all states."
  },
  {
   "property": "C108",
   "status": "partial",
   "theorems": [
    "Verif.Models.C108_violated",
    "Verif.Models.C108_key"
   ],
   "note": "Refuted: eval_obs raises for every state (the label anti_fm is never stored). The measured numbers are parameters of the model."
  },
  {
   "property": "C109",
   "status": "partial",
   "theorems": [
    "Verif.Models.C109_value",
    "Verif.Models.C109_partial",
    "Verif.Models.C109_one_site",
    "Verif.Models.C109_violated"
   ],
   "note": "Proved if the second site of the dictionary is the neighbour of the first; refuted on a 2x2 cell; one-site states raise."
  },
  {
   "property": "C11",
   "status": "proved",
   "theorems": [
    "Verif.Su2.C11_is_dot_product",
    "Verif.Su2.C11_hermitian",
    "Verif.Su2.C11_su2_invariant"
   ],
   "note": ""
  },
  {
   "property": "C110",
   "status": "proved",
   "theorems": [
    "Verif.Models.C110_cell",
    "Verif.Models.C110_uniform",
    "Verif.Models.C110_bipartite"
   ],
   "note": "For all couplings, states and environments with non-vanishing norms; complex dtype."
  },
  {
   "property": "C111",
   "status": "partial",
   "theorems": [
    "Verif.Models.C111_value",
    "Verif.Models.C111_energy_partial",
    "Verif.Models.C111_violated"
   ],
   "note": "Refuted: the plaquettes at the corner of four tensors are missing. What is returned is proved for all states."
  },
  {
   "property": "C112",
   "status": "partial",
   "theorems": [
    "Verif.Models.C112_value",
    "Verif.Models.C112_labels_partial",
    "Verif.Models.C112_violated"
   ],
   "note": "Refuted: the values under sp and sm are exchanged. All other observables proved for all states."
  },
  {
   "property": "C113",
   "status": "proved",
   "theorems": [
    "Verif.KagomeRdm.C113_plaquette",
    "Verif.KagomeRdm.C113_row",
    "Verif.KagomeRdm.C113_column",
    "Verif.KagomeRdm.C113_up"
   ],
   "note": "For all states, environments, spin dimensions and choices of kept spins (at least one); without sym_pos_def."
  },
  {
   "property": "C114",
   "status": "partial",
   "theorems": [
    "Verif.KagomeRdm.C114_trace_partial",
    "Verif.KagomeRdm.C114_old",
    "Verif.KagomeRdm.C114_new",
    "Verif.KagomeRdm.C114_new_partial",
    "Verif.KagomeRdm.C114_violated",
    "Verif.KagomeRdm.C114_trace_violated"
   ],
   "note": "Refuted: rdm1x1_kagome reshapes the site tensor with the physical index in the wrong place (bonds larger than one); trace1x1_dn_kagome raises outside the cell. _old_rdm1x1_kagome is proved in full (C114_old); what rdm1x1_kagome returns is proved in full (C114_new)."
  },
  {
   "property": "C115",
   "status": "proved",
   "theorems": [
    "Verif.KagomeRdm.C115_down",
    "Verif.KagomeRdm.C115_down_hermitian",
    "Verif.KagomeRdm.C115_up"
   ],
   "note": "For all states, environments, spin dimensions and operators; networks with non-vanishing norm."
  },
  {
   "property": "C116",
   "status": "partial",
   "theorems": [
    "Verif.KagomeRdm.C116_down",
    "Verif.KagomeRdm.C116_up",
    "Verif.KagomeRdm.C116_documented_partial",
    "Verif.KagomeRdm.C116_violated"
   ],
   "note": "Refuted: the scalar chirality enters with the opposite sign. What is returned is proved for all couplings, spin dimensions, states and environments (C116_down, C116_up); complex dtype."
  },
  {
   "property": "C117",
   "status": "partial",
   "theorems": [
    "Verif.KagomeRdm.C117_onsite",
    "Verif.KagomeRdm.C117_onsite_hermitian",
    "Verif.KagomeRdm.C117_bonds",
    "Verif.KagomeRdm.C117_down_partial",
    "Verif.KagomeRdm.C117_eval",
    "Verif.KagomeRdm.C117_P_up",
    "Verif.KagomeRdm.C117_violated",
    "Verif.KagomeRdm.C117_labels_violated",
    "Verif.KagomeRdm.C117_corr_violated",
    "Verif.KagomeRdm.C117_P_dn_violated"
   ],
   "note": "Refuted: correlations contain j1 and JD, labels of the up triangle are shifted, disp_corre_len and P_dn raise. What is returned is proved for all couplings, spin dimensions, states and environments; complex dtype."
  },
  {
   "property": "C118",
   "status": "proved",
   "theorems": [
    "Verif.Su3.C118_gellMann",
    "Verif.Su3.C118_cartanWeyl",
    "Verif.Su3.C118_complete",
    "Verif.Su3.C118_basis",
    "Verif.Su3.C118_C1",
    "Verif.Su3.C118_C2",
    "Verif.Su3.C118_C2_sum",
    "Verif.Su3.C118_anticommutator",
    "Verif.Su3.C118_invariant"
   ],
   "note": "Exact arithmetic with the real square root of three."
  },
  {
   "property": "C119",
   "status": "proved",
   "theorems": [
    "Verif.KagomeRdm.C119_hamiltonian",
    "Verif.KagomeRdm.C119_angles",
    "Verif.KagomeRdm.C119_energies",
    "Verif.KagomeRdm.C119_per_site",
    "Verif.KagomeRdm.C119_down_1x1"
   ],
   "note": "For all couplings, states and environments with non-vanishing norms; complex dtype."
  },
  {
   "property": "C12",
   "status": "partial",
   "theorems": [
    "Verif.Su2.C12_equal_xy_partial",
    "Verif.Su2.C12_hermitian_iff",
    "Verif.Su2.C12_violated"
   ],
   "note": "Correct when Jx = Jy; refuted otherwise (C12_violated): the result is not Hermitian."
  },
  {
   "property": "C120",
   "status": "partial",
   "theorems": [
    "Verif.KagomeRdm.C120_generators",
    "Verif.KagomeRdm.C120_obs_2x2",
    "Verif.KagomeRdm.C120_obs",
    "Verif.KagomeRdm.C120_C2",
    "Verif.KagomeRdm.C120_C1",
    "Verif.KagomeRdm.C120_energy_1site",
    "Verif.KagomeRdm.C120_violated",
    "Verif.KagomeRdm.C120_labels_violated",
    "Verif.KagomeRdm.C120_energy_1site_violated"
   ],
   "note": "Refuted: chirality_up of eval_obs has the wrong sign, labels of eval_C1 on the down triangle, energy_1site for more than one site. What is returned is proved for all couplings, states and environments (values from the one-site network need it to be Hermitian); complex dtype."
  },
  {
   "property": "C121",
   "status": "partial",
   "theorems": [
    "Verif.KagomeRdm.C121_energy_up",
    "Verif.KagomeRdm.C121_energy_up_partial",
    "Verif.KagomeRdm.C121_P_up",
    "Verif.KagomeRdm.C121_bonds",
    "Verif.KagomeRdm.C121_lambdas",
    "Verif.KagomeRdm.C121_obs",
    "Verif.KagomeRdm.C121_gens",
    "Verif.KagomeRdm.C121_down_violated",
    "Verif.KagomeRdm.C121_P_down_violated",
    "Verif.KagomeRdm.C121_nnn_violated",
    "Verif.KagomeRdm.C121_violated",
    "Verif.KagomeRdm.C121_gens_violated"
   ],
   "note": "Refuted: energy_triangle_up with j1, eval_su3_gens; energy_triangle_dn, P_dn, energy_nnn with j2 and the S1_KAGOME methods raise for every input. What is returned is proved for all couplings, states and environments; complex dtype."
  },
  {
   "property": "C122",
   "status": "partial",
   "theorems": [
    "Verif.KagomeRdm.C122_energy_down",
    "Verif.KagomeRdm.C122_lambdas",
    "Verif.KagomeRdm.C122_corrf_LL",
    "Verif.KagomeRdm.C122_corrf_PP",
    "Verif.KagomeRdm.C122_up_violated"
   ],
   "note": "Refuted for energy_triangle_up, which raises for every input; everything else proved for all states, environments, directions and distances."
  },
  {
   "property": "C123",
   "status": "partial",
   "theorems": [
    "Verif.Trgl.C123_bonds",
    "Verif.Trgl.C123_triangles",
    "Verif.Trgl.C123_energy_partial",
    "Verif.Trgl.C123_chiral_energy_partial",
    "Verif.Trgl.C123_violated"
   ],
   "note": "Refuted: only the first component of the pitch vector is read, the spiral has the pitch (-q_x, q_x). For that pitch the energy is proved for all spins, couplings, states and environments (j2 = j4 = 0)."
  },
  {
   "property": "C124",
   "status": "proved",
   "theorems": [
    "Verif.Trgl.C124_eval_obs",
    "Verif.Trgl.C124_chirality"
   ],
   "note": "All spins, cells, pitch vectors (bonds in the spiral of pitch (-q_x, q_x), see C123), states and environments for which the density matrices exist; complex dtype."
  },
  {
   "property": "C125",
   "status": "partial",
   "theorems": [
    "Verif.Trgl.C125_values",
    "Verif.Trgl.C125_canonical_partial",
    "Verif.Trgl.C125_canonical_raises",
    "Verif.Trgl.C125_canonical_violated",
    "Verif.Trgl.C125_one_point_partial",
    "Verif.Trgl.C125_one_point_row",
    "Verif.Trgl.C125_one_point_violated",
    "Verif.Trgl.C125_plain"
   ],
   "note": "eval_corrf_SS (canonical=False) and J1J2J4.eval_corrf_SS proved in full. Refuted: canonical=True when the magnetisation has a y component (and it raises for spins other than one half); eval_corrf_SId rotates by x+y instead of x-y. rl_0 is not modelled; complex dtype."
  },
  {
   "property": "C126",
   "status": "proved",
   "theorems": [
    "Verif.Rdm.C126_horizontal",
    "Verif.Rdm.C126_horizontal_raises",
    "Verif.Rdm.C126_vertical",
    "Verif.Rdm.C126_vertical_raises"
   ],
   "note": "All lists of distinct sites, states and environments that fit; unroll (a loop over index values) is covered by C29, memory options are not modelled."
  },
  {
   "property": "C127",
   "status": "partial",
   "theorems": [
    "Verif.Trgl.C127_pairs",
    "Verif.Trgl.C127_energy",
    "Verif.Trgl.C127_energy_partial",
    "Verif.Trgl.C127_violated"
   ],
   "note": "The bond (x+2,y)-(x,y+1) is turned in the wrong sense: the exact deviation is proved for all inputs, the energy is right if sin(6 pi q) = 0, and a state is shown for which it is wrong. The compressed variants (compressed > 0) are not modelled; complex dtype."
  },
  {
   "property": "C128",
   "status": "proved",
   "theorems": [
    "Verif.Trgl.C128_rhombi",
    "Verif.Trgl.C128_energy",
    "Verif.Trgl.C128_diag",
    "Verif.Trgl.C128_without",
    "Verif.Trgl.C128_classical"
   ],
   "note": "unroll=True (rdm2x3_loop_oe, rdm3x2_loop_oe, rdm2x2_oe), compressed <= 0, complex dtype. The sense of the spiral is that of the drawing in the docstring of energy_per_site, see C123. C128_classical is the non-trivial instance: all couplings and angles for the spiral over the ferromagnet."
  },
  {
   "property": "C129",
   "status": "proved",
   "theorems": [
    "Verif.Rdm.C129_horizontal",
    "Verif.Rdm.C129_vertical",
    "Verif.Rdm.C129_horizontal_agrees",
    "Verif.Rdm.C129_vertical_agrees"
   ],
   "note": "The four sites have one physical dimension (the accumulator has the size of the first site on all axes). Checkpointing is not modelled. The comparison of the entries is for sym_pos_def=False."
  },
  {
   "property": "C13",
   "status": "proved",
   "theorems": [
    "Verif.Su2.C13_rotation",
    "Verif.Su2.C13_conjugate_op",
    "Verif.Su2.C13_rotated_exchange"
   ],
   "note": ""
  },
  {
   "property": "C130",
   "status": "proved",
   "theorems": [
    "Verif.Trgl.C130_rhombi",
    "Verif.Trgl.C130_energy",
    "Verif.Trgl.C130_classical"
   ],
   "note": "compressed <= 0, complex dtype. C130_classical is the non-trivial instance."
  },
  {
   "property": "C131",
   "status": "partial",
   "theorems": [
    "Verif.TrglPg.C131_projection",
    "Verif.TrglPg.C131_defined",
    "Verif.TrglPg.C131_rotation",
    "Verif.TrglPg.C131_mirror",
    "Verif.TrglPg.C131_inversion",
    "Verif.TrglPg.C131_model_rotation_violated"
   ],
   "note": "Everything except the last sentence is proved; the last sentence is refuted: the rotation of the ansatz is not the rotation of the lattice of the models."
  },
  {
   "property": "C132",
   "status": "partial",
   "theorems": [
    "Verif.TrglPg.C132_site",
    "Verif.TrglPg.C132_new",
    "Verif.TrglPg.C132_symmetrize",
    "Verif.TrglPg.C132_noise",
    "Verif.TrglPg.C132_normalize",
    "Verif.TrglPg.C132_extend",
    "Verif.TrglPg.C132_extend_defined",
    "Verif.TrglPg.C132_checkpoint_partial",
    "Verif.TrglPg.C132_checkpoint_violated",
    "Verif.TrglPg.C132_noise_violated",
    "Verif.TrglPg.C132_extend_violated"
   ],
   "note": "Three clauses are refuted: the state on which add_noise was called has a stale site, the second class loses its irreps in extend_bond_dim, and checkpoints of the optimizers cannot be loaded."
  },
  {
   "property": "C133",
   "status": "partial",
   "theorems": [
    "Verif.TrglPg.C133_roundtrip",
    "Verif.TrglPg.C133_write_symmetrized",
    "Verif.TrglPg.C133_write_normalized",
    "Verif.TrglPg.C133_read_tbt",
    "Verif.TrglPg.C133_write_method",
    "Verif.TrglPg.C133_write_method_violated",
    "Verif.TrglPg.C133_write_symmetrized_violated"
   ],
   "note": "The round trip is proved for both classes; refuted for the second class: write_to_file raises, pg_symmetrize is ignored."
  },
  {
   "property": "C134",
   "status": "partial",
   "theorems": [
    "Verif.LcBp.C134_tiling",
    "Verif.LcBp.C134_sites_partial",
    "Verif.LcBp.C134_symmetric",
    "Verif.LcBp.C134_bond_dims_partial",
    "Verif.LcBp.C134_chiral_violated",
    "Verif.LcBp.C134_bond_dims_violated"
   ],
   "note": "Tiling and symmetry are proved in full; the formula for the sites if A_1 tensors come first. Refuted: building states with both irreps and real bond tensors, bond dimensions for physical dimension 1."
  },
  {
   "property": "C135",
   "status": "partial",
   "theorems": [
    "Verif.LcBp.C135_consistent",
    "Verif.LcBp.C135_clone",
    "Verif.LcBp.C135_noise",
    "Verif.LcBp.C135_checkpoint_violated",
    "Verif.LcBp.C135_move_violated",
    "Verif.LcBp.C135_load_function_violated"
   ],
   "note": "Consistency and clones are proved for all histories; restoring and moving are refuted, they always raise."
  },
  {
   "property": "C136",
   "status": "partial",
   "theorems": [
    "Verif.LcBp.C136_roundtrip_partial",
    "Verif.LcBp.C136_order_violated",
    "Verif.LcBp.C136_complex_violated"
   ],
   "note": "Proved for real states and the default order; refuted for other orders and complex tensors. normalize=True is not modelled."
  },
  {
   "property": "C137",
   "status": "partial",
   "theorems": [
    "Verif.C4v.C137_ctmrg",
    "Verif.C4v.C137_corner",
    "Verif.C4v.C137_run",
    "Verif.C4v.C137_obc",
    "Verif.C4v.C137_obc_single",
    "Verif.C4v.C137_random_partial",
    "Verif.C4v.C137_random_violated",
    "Verif.C4v.C137_invalid",
    "Verif.C4v.C137_prod_partial",
    "Verif.C4v.C137_prod_violated",
    "Verif.C4v.C137_prod_single_violated"
   ],
   "note": "CTMRG and CTMRG_OBC are proved; RANDOM and PROD are refuted in part. PROD is Hermitian for real tensors."
  },
  {
   "property": "C138",
   "status": "partial",
   "theorems": [
    "Verif.C4v.C138_extend",
    "Verif.C4v.C138_extend_violated",
    "Verif.C4v.C138_given_partial",
    "Verif.C4v.C138_given_large",
    "Verif.C4v.C138_given_violated"
   ],
   "note": "Proved for double-layer environments and fresh environments; refuted for environments of sites without physical index and for used environments."
  },
  {
   "property": "C139",
   "status": "proved",
   "theorems": [
    "Verif.C4v.C139_multiplets",
    "Verif.C4v.C139_cover"
   ],
   "note": "Eigenvalues are exact reals."
  },
  {
   "property": "C14",
   "status": "proved",
   "theorems": [
    "Verif.Pg.C14_is_group_average",
    "Verif.Pg.C14_transforms",
    "Verif.Pg.C14_fixes",
    "Verif.Pg.C14_idempotent",
    "Verif.Pg.C14_linear",
    "Verif.Pg.C14_sum",
    "Verif.Pg.C14_sum_idempotent",
    "Verif.Pg.C14_unknown",
    "Verif.Pg.C14_d2"
   ],
   "note": "For A1, A2, B1; B2 is C15."
  },
  {
   "property": "C140",
   "status": "partial",
   "theorems": [
    "Verif.Gauge.C140_gauge_partial",
    "Verif.Gauge.C140_gauge_violated"
   ],
   "note": "Everything proved; equality of amplitudes if no eigenvalue was cut, refuted otherwise. Rank-deficient bonds (eigenvalue exactly zero) are excluded by the same hypothesis."
  },
  {
   "property": "C141",
   "status": "proved",
   "theorems": [
    "Verif.D2.C141_tiling",
    "Verif.D2.C141_reflection",
    "Verif.D2.C141_noise",
    "Verif.D2.C141_extend",
    "Verif.D2.C141_checkpoint"
   ],
   "note": "Broadcasting of axes of size one in make_d2_symm is not modelled."
  },
  {
   "property": "C142",
   "status": "partial",
   "theorems": [
    "Verif.D2.C142_roundtrip_partial",
    "Verif.D2.C142_order_violated"
   ],
   "note": "Proved for the default order on reading; refuted for other orders."
  },
  {
   "property": "C143",
   "status": "partial",
   "theorems": [
    "Verif.Ipepo.C143_nophys_defined",
    "Verif.Ipepo.C143_nophys_trace",
    "Verif.Ipepo.C143_roundtrip_partial",
    "Verif.Ipepo.C143_pattern_violated"
   ],
   "note": "Trace proved in full. Files: proved if the tiling is given on reading or is the default one; refuted otherwise. to_fused_ipeps is not modelled."
  },
  {
   "property": "C144",
   "status": "partial",
   "theorems": [
    "Verif.Q1.C144_uniform",
    "Verif.Q1.C144_checkpoint",
    "Verif.Q1.C144_extend",
    "Verif.Q1.C144_roundtrip_partial",
    "Verif.Q1.C144_default",
    "Verif.Q1.C144_order_violated",
    "Verif.Q1.C144_damaged_violated"
   ],
   "note": "Histories proved in full. Files: proved for the default order on reading; refuted for other orders and damaged files."
  },
  {
   "property": "C145",
   "status": "proved",
   "theorems": [
    "Verif.Spiral.C145_spiral",
    "Verif.Spiral.C145_neighbours",
    "Verif.Spiral.C145_orthogonal",
    "Verif.Spiral.C145_cell"
   ],
   "note": "torch.linalg.matrix_exp is the exact exponential."
  },
  {
   "property": "C146",
   "status": "proved",
   "theorems": [
    "Verif.SymTen.C146_parse",
    "Verif.SymTen.C146_strip",
    "Verif.SymTen.C146_missing_comma"
   ],
   "note": "int and eval are parameters. A text of an element without \"),\" is an error in the model."
  },
  {
   "property": "C147",
   "status": "proved",
   "theorems": [
    "Verif.SymTen.C147_fill",
    "Verif.SymTen.C147_fill_defined",
    "Verif.SymTen.C147_index",
    "Verif.SymTen.C147_lookup",
    "Verif.SymTen.C147_fix",
    "Verif.SymTen.C147_import"
   ],
   "note": "Too few indices, which address a slice in torch, are an error in the model. import_sym_bonds is not modelled."
  },
  {
   "property": "C148",
   "status": "proved",
   "theorems": [
    "Verif.SgdLoop.C148_trajectory",
    "Verif.SgdLoop.C148_no_epochs",
    "Verif.SgdLoop.C148_crash"
   ],
   "note": "torch.optim.SGD is modelled; with no epochs the code raises (C148_no_epochs)."
  },
  {
   "property": "C149",
   "status": "partial",
   "theorems": [
    "Verif.SgdLoop.C149_resume_partial",
    "Verif.SgdLoop.C149_checkpoint_loss_violated",
    "Verif.SgdLoop.C149_best_lost_violated",
    "Verif.SgdLoop.C149_dampening_ignored",
    "Verif.SgdLoop.C149_dampening_violated"
   ],
   "note": "The trajectory continues if the parameters are not overridden or the dampening is zero; the other parts are refuted."
  },
  {
   "property": "C15",
   "status": "partial",
   "theorems": [
    "Verif.Pg.C15_B2_kills_B2",
    "Verif.Pg.C15_B2_output_not_B2",
    "Verif.Pg.C15_violated",
    "Verif.Pg.C15_B2_partial"
   ],
   "note": "Refuted for B2: the projector annihilates B2 tensors. What the B2 code computes is stated by C15_B2_partial."
  },
  {
   "property": "C150",
   "status": "partial",
   "theorems": [
    "Verif.Energy.C150_energy_partial",
    "Verif.Energy.C150_field",
    "Verif.Energy.C150_violated"
   ],
   "note": "Holds without a staggered field; refuted with one: the field term is a product of four spins."
  },
  {
   "property": "C151",
   "status": "partial",
   "theorems": [
    "Verif.Energy.C151_nn",
    "Verif.Energy.C151_nn_raises",
    "Verif.Energy.C151_plaquette_value",
    "Verif.Energy.C151_plaquette_partial",
    "Verif.Energy.C151_violated"
   ],
   "note": "Holds without the plaquette term; its sign is wrong as in C52. energy_1x1_nn is proved for symmetric corners and norms with non-zero real part."
  },
  {
   "property": "C152",
   "status": "proved",
   "theorems": [
    "Verif.Rsvd.C152_projection",
    "Verif.Rsvd.C152_exact",
    "Verif.Rsvd.C152_count",
    "Verif.Rsvd.C152_raises",
    "Verif.Rsvd.C152_vnum_zero"
   ],
   "note": "Exact arithmetic; QR and SVD of torch by their documented contract, which exists_backend shows can be met."
  },
  {
   "property": "C153",
   "status": "partial",
   "theorems": [
    "Verif.Arnoldi.C153_eig",
    "Verif.Arnoldi.C153_sym_partial",
    "Verif.Arnoldi.C153_sym_orth",
    "Verif.Arnoldi.C153_sym_violated",
    "Verif.Arnoldi.C153_arnoldi_partial",
    "Verif.Arnoldi.C153_order_violated",
    "Verif.Arnoldi.C153_ragged_violated",
    "Verif.Arnoldi.C153_propack"
   ],
   "note": "Triples, order and orthonormality hold where stated; refuted: right vectors of SVDSYMARNOLDI beyond the rank, order and shape of SVDARNOLDI."
  },
  {
   "property": "C16",
   "status": "proved",
   "theorems": [
    "Verif.Permut.C16_parity",
    "Verif.Permut.C16_accepts",
    "Verif.Permut.C16_multiplicative",
    "Verif.Permut.C16_leviCivita"
   ],
   "note": ""
  },
  {
   "property": "C17",
   "status": "partial",
   "theorems": [
    "Verif.Trunc.C17_result",
    "Verif.Trunc.C17_complete_multiplets_partial",
    "Verif.Trunc.C17_eig",
    "Verif.Trunc.C17_arnoldi",
    "Verif.Trunc.C17_violated"
   ],
   "note": "Holds whenever one of the first chi gaps exceeds eps_multiplet; refuted (C17_violated) when the leading chi+1 values form one multiplet."
  },
  {
   "property": "C18",
   "status": "partial",
   "theorems": [
    "Verif.Trunc.C18_svd_partial",
    "Verif.Trunc.C18_eig",
    "Verif.Trunc.C18_leading",
    "Verif.Trunc.C18_propack_violated"
   ],
   "note": "Proved for every backend but truncated_svd_propack without keep_multiplets, which returns the untruncated factors (C18_propack_violated)."
  },
  {
   "property": "C19",
   "status": "proved",
   "theorems": [
    "Verif.Decomp.C19_fix_signs",
    "Verif.Decomp.C19_canonical"
   ],
   "note": ""
  },
  {
   "property": "C20",
   "status": "partial",
   "theorems": [
    "Verif.Decomp.C20_svd_symeig_partial",
    "Verif.Decomp.C20_violated"
   ],
   "note": "Proved for non-singular matrices; refuted for singular ones, where sign(0)=0 makes V non-isometric."
  },
  {
   "property": "C21",
   "status": "proved",
   "theorems": [
    "Verif.Decomp.C21_eigh_backward"
   ],
   "note": "Unregularised formula (reg=0), distinct eigenvalues, gauge-invariant loss."
  },
  {
   "property": "C22",
   "status": "proved",
   "theorems": [
    "Verif.Decomp.C22_safe_inverse"
   ],
   "note": ""
  },
  {
   "property": "C23",
   "status": "proved",
   "theorems": [
    "Verif.Ctm.C23_projectors"
   ],
   "note": "For any backend that returns singular triples of the matrix in decreasing order."
  },
  {
   "property": "C24",
   "status": "proved",
   "theorems": [
    "Verif.Ctm.C24_move"
   ],
   "note": ""
  },
  {
   "property": "C25",
   "status": "proved",
   "theorems": [
    "Verif.Ctm.C25_run",
    "Verif.Ctm.C25_run_no_check",
    "Verif.Ctm.C25_warmup",
    "Verif.Ctm.C25_run_overlap",
    "Verif.Ctm.C25_error"
   ],
   "note": ""
  },
  {
   "property": "C26",
   "status": "proved",
   "theorems": [
    "Verif.Conv.C26_conv",
    "Verif.Conv.C26_first"
   ],
   "note": ""
  },
  {
   "property": "C27",
   "status": "partial",
   "theorems": [
    "Verif.Ctm.C27_extend_partial",
    "Verif.Ctm.C27_extend_back_partial",
    "Verif.Ctm.C27_violated_raises",
    "Verif.Ctm.C27_violated_broadcast"
   ],
   "note": "Proved when all environment axes have size chi; tensors with smaller axes make extend raise, or are broadcast if the axis has size 1."
  },
  {
   "property": "C28",
   "status": "proved",
   "theorems": [
    "Verif.Corner.C28_LU_closed",
    "Verif.Corner.C28_LU_open",
    "Verif.Corner.C28_RU_closed",
    "Verif.Corner.C28_RU_open",
    "Verif.Corner.C28_RD_closed",
    "Verif.Corner.C28_RD_open",
    "Verif.Corner.C28_LD_closed",
    "Verif.Corner.C28_LD_open"
   ],
   "note": ""
  },
  {
   "property": "C29",
   "status": "proved",
   "theorems": [
    "Verif.Oe.C29_unroll",
    "Verif.Oe.C29_refused",
    "Verif.Oe.C29_legacy"
   ],
   "note": "torch backend; unroll without repetitions."
  },
  {
   "property": "C30",
   "status": "proved",
   "theorems": [
    "Verif.Rdm.C30_hermitian",
    "Verif.Rdm.C30_positive",
    "Verif.Rdm.C30_unchanged",
    "Verif.Rdm.C30_any"
   ],
   "note": "For every eigh backend that returns an eigen-decomposition; with sym_pos_def the raw trace needs a positive real part."
  },
  {
   "property": "C31",
   "status": "proved",
   "theorems": [
    "Verif.Rdm.C31_expectation",
    "Verif.Rdm.C31_modes"
   ],
   "note": "In the double-layer mode for the vertices of the unit cell, see C66."
  },
  {
   "property": "C32",
   "status": "proved",
   "theorems": [
    "Verif.Rdm.C32_row",
    "Verif.Rdm.C32_column"
   ],
   "note": ""
  },
  {
   "property": "C33",
   "status": "proved",
   "theorems": [
    "Verif.Rdm.C33_partial_trace",
    "Verif.Rdm.C33_normalised"
   ],
   "note": "For every non-empty list of distinct sites. With sym_pos_def the partial traces are those of the un-normalised network (clipping does not commute with the trace)."
  },
  {
   "property": "C34",
   "status": "partial",
   "theorems": [
    "Verif.Rdm.C34_column_partial",
    "Verif.Rdm.C34_column_violated",
    "Verif.Rdm.C34_row_partial",
    "Verif.Rdm.C34_row_violated"
   ],
   "note": "3x1 is correct when two right bonds have the same size and raises otherwise; 1x3 mislabels the upper index of the third ket and is correct only if that bond has size one."
  },
  {
   "property": "C35",
   "status": "partial",
   "theorems": [
    "Verif.Rdm.C35_value_partial",
    "Verif.Rdm.C35_row",
    "Verif.Rdm.C35_column",
    "Verif.Rdm.C35_antidiagonal",
    "Verif.Rdm.C35_violated",
    "Verif.Rdm.C35_raises"
   ],
   "note": "Correct for one and two sites (all the library uses); wrong labels for three sites; IndexError for four or more."
  },
  {
   "property": "C36",
   "status": "partial",
   "theorems": [
    "Verif.Corrf.C36_symmetric_partial",
    "Verif.Corrf.C36_transposed",
    "Verif.Corrf.C36_identity",
    "Verif.Corrf.C36_network",
    "Verif.Corrf.C36_violated"
   ],
   "note": "The operator is inserted transposed: proved for symmetric operators, refuted in general."
  },
  {
   "property": "C37",
   "status": "partial",
   "theorems": [
    "Verif.Corrf.C37_row_partial",
    "Verif.Corrf.C37_row_transposed",
    "Verif.Corrf.C37_row_identity",
    "Verif.Corrf.C37_two_row_partial",
    "Verif.Corrf.C37_two_row_inserts",
    "Verif.Corrf.C37_two_row_scaled",
    "Verif.Corrf.C37_two_row_identity",
    "Verif.Corrf.C37_two_row_raises",
    "Verif.Corrf.C37_two_row_violated"
   ],
   "note": "One row: exact up to the transposition of C36. Two rows: the singular values are dropped, refuted with 2*swap for every SVD backend; up and left raise."
  },
  {
   "property": "C38",
   "status": "partial",
   "theorems": [
    "Verif.Corrf.C38_values_partial",
    "Verif.Corrf.C38_not_finite",
    "Verif.Corrf.C38_length_violated"
   ],
   "note": "Values proved for every distance, with the transposed operators of C36; the result has dist+1 entries, not dist as documented. The option rl_0 is not modelled."
  },
  {
   "property": "C39",
   "status": "proved",
   "theorems": [
    "Verif.Armijo.C39_armijo",
    "Verif.Armijo.C39_terminates"
   ],
   "note": "Exact real arithmetic; c1 <= 1/12 (the code uses 1e-4)."
  },
  {
   "property": "C40",
   "status": "partial",
   "theorems": [
    "Verif.Lbfgs.C40_trial_partial",
    "Verif.Lbfgs.C40_search_partial",
    "Verif.Lbfgs.C40_terminates",
    "Verif.Lbfgs.C40_violated",
    "Verif.Lbfgs.C40_wrong_step_accepted",
    "Verif.Lbfgs.C40_drift"
   ],
   "note": "Holds when no trial evaluation raises; refuted when one does: the parameters stay displaced and the step applied afterwards is not the evaluated one."
  },
  {
   "property": "C41",
   "status": "proved",
   "theorems": [
    "Verif.Lbfgs.C41_descent",
    "Verif.Lbfgs.C41_update"
   ],
   "note": "Exact arithmetic."
  },
  {
   "property": "C42",
   "status": "partial",
   "theorems": [
    "Verif.Loop.C42_best_partial",
    "Verif.Loop.C42_best_no_line_search",
    "Verif.Loop.C42_violated"
   ],
   "note": "The file holds the best state among the evaluations of the gradient closure; refuted when trial evaluations of the line search count, because the two closures keep separate minima."
  },
  {
   "property": "C43",
   "status": "partial",
   "theorems": [
    "Verif.Loop.C43_stored_step_partial",
    "Verif.Loop.C43_fixed_step_partial",
    "Verif.Loop.C43_violated"
   ],
   "note": "Refuted: the checkpoint holds the parameters after the step and the loss before it; the partial theorems state what is paired."
  },
  {
   "property": "C44",
   "status": "partial",
   "theorems": [
    "Verif.Lbfgs.C44_resume",
    "Verif.Lbfgs.C44_first_checkpoint_raises",
    "Verif.Lbfgs.C44_ad_optim_violated"
   ],
   "note": "Proved for ad_optim_lbfgs_mod and checkpoints that contain the buffer 'al'; refuted for the checkpoint after the first step (KeyError) and for ad_optim.py (ro padded with None)."
  },
  {
   "property": "C45",
   "status": "partial",
   "theorems": [
    "Verif.Sgd.C45_momentum_partial",
    "Verif.Sgd.C45_line_search_violated",
    "Verif.Sgd.C45_violated"
   ],
   "note": "Proved without line search or with Nesterov; refuted with line search and ordinary momentum."
  },
  {
   "property": "C46",
   "status": "proved",
   "theorems": [
    "Verif.Sgd.C46_fd_gradient",
    "Verif.Sgd.C46_exact_affine",
    "Verif.Sgd.C46_error_not_restored"
   ],
   "note": "For loss functions that do not raise; C46_error_not_restored shows what happens otherwise."
  },
  {
   "property": "C47",
   "status": "partial",
   "theorems": [
    "Verif.Config.C47_configure_partial",
    "Verif.Config.C47_dtype",
    "Verif.Config.C47_violated"
   ],
   "note": "Proved for tidy names; refuted for script options containing the name of a group or a double underscore."
  },
  {
   "property": "C48",
   "status": "partial",
   "theorems": [
    "Verif.C4v.C48_move_partial",
    "Verif.C4v.C48_run_partial",
    "Verif.C4v.C48_corner",
    "Verif.C4v.C48_qr_real_partial",
    "Verif.C4v.C48_run_real_partial",
    "Verif.C4v.C48_violated"
   ],
   "note": "Proved for moves by eigendecomposition (any tensor) and, for real tensors, by QR; refuted for QR with complex tensors. FPCM acceleration is not modelled."
  },
  {
   "property": "C49",
   "status": "proved",
   "theorems": [
    "Verif.C4v.C49_corner",
    "Verif.C4v.C49_move",
    "Verif.C4v.C49_run"
   ],
   "note": "Corners entry by entry, moves and runs as results (environment or exception). The eigendecomposition is a parameter with the right shapes."
  },
  {
   "property": "C50",
   "status": "partial",
   "theorems": [
    "Verif.Energy.C50_value",
    "Verif.Energy.C50_partial",
    "Verif.Energy.C50_violated"
   ],
   "note": "Exact value proved for every coupling; it is the documented energy except that a uniform field along y enters with the opposite sign."
  },
  {
   "property": "C51",
   "status": "partial",
   "theorems": [
    "Verif.Energy.C51_value",
    "Verif.Energy.C51_partial",
    "Verif.Energy.C51_violated"
   ],
   "note": "Only the bonds that start at (0,0) are evaluated: proved as such, right for cells with equivalent sites, refuted for a cell of three columns."
  },
  {
   "property": "C52",
   "status": "partial",
   "theorems": [
    "Verif.Energy.C52_value",
    "Verif.Energy.C52_partial",
    "Verif.Energy.C52_violated"
   ],
   "note": "The plaquette term enters with the opposite sign: exact value proved, right without the term, refuted with it."
  },
  {
   "property": "C53",
   "status": "proved",
   "theorems": [
    "Verif.Pg.C53_symmetrize",
    "Verif.Pg.C53_rejects"
   ],
   "note": ""
  },
  {
   "property": "C54",
   "status": "proved",
   "theorems": [
    "Verif.Decomp.C54_svd_backward"
   ],
   "note": "Unregularised formula (eps=0), distinct positive singular values, gauge-invariant loss; any m, n, k."
  },
  {
   "property": "C55",
   "status": "partial",
   "theorems": [
    "Verif.Decomp.C55_square_partial",
    "Verif.Decomp.C55_rectangular_raises"
   ],
   "note": "Refuted for rectangular matrices; proved for square ones."
  },
  {
   "property": "C56",
   "status": "partial",
   "theorems": [
    "Verif.Lbfgs.C56_violated"
   ],
   "note": "Refuted: with tolerance_change > 0 every step makes one pass."
  },
  {
   "property": "C57",
   "status": "partial",
   "theorems": [
    "Verif.Lbfgs.C57_step_decreases_partial",
    "Verif.Lbfgs.C57_violated"
   ],
   "note": "Holds when no trial raises and the starting step exceeds line_search_eps; refuted otherwise."
  },
  {
   "property": "C58",
   "status": "partial",
   "theorems": [
    "Verif.Loop.C58_resume_continues_partial"
   ],
   "note": "Proved for losses that do not depend on the warm-started environment, without exceptions, with backtracking or at most one iteration per epoch, and no early stop."
  },
  {
   "property": "C59",
   "status": "partial",
   "theorems": [
    "Verif.Loop.C59_violated"
   ],
   "note": "Refuted: resuming resets the minimum."
  },
  {
   "property": "C60",
   "status": "partial",
   "theorems": [
    "Verif.Absorb.C60_upC1",
    "Verif.Absorb.C60_upC2",
    "Verif.Absorb.C60_leftC1",
    "Verif.Absorb.C60_leftC2",
    "Verif.Absorb.C60_downC1",
    "Verif.Absorb.C60_downC2",
    "Verif.Absorb.C60_rightC1",
    "Verif.Absorb.C60_rightC2",
    "Verif.Absorb.C60_upT",
    "Verif.Absorb.C60_leftT",
    "Verif.Absorb.C60_downT",
    "Verif.Absorb.C60_rightT_dl",
    "Verif.Absorb.C60_rightT_partial",
    "Verif.Absorb.C60_rightT_violated"
   ],
   "note": "Proved but for the single-layer RIGHT absorption, which unfuses T with the size of the left instead of the right bond of the site: it raises when they differ (C60_rightT_violated)."
  },
  {
   "property": "C61",
   "status": "partial",
   "theorems": [
    "Verif.Ctm.C61_moves",
    "Verif.Ctm.C61_moves_sl_partial",
    "Verif.Ctm.C61_4x2_violated",
    "Verif.Ctm.C62_violated"
   ],
   "note": "Proved for the 4X4 projectors in double-layer mode for every bond pattern, and in single-layer mode when no RIGHT move meets unequal left/right bonds; refuted for single-layer RIGHT moves on unequal bonds and for the 4X2 projectors on unequal uncontracted bonds, which raise."
  },
  {
   "property": "C62",
   "status": "partial",
   "theorems": [
    "Verif.Ctm.C62_moves_partial",
    "Verif.Ctm.C62_violated"
   ],
   "note": "Proved unless a RIGHT move meets a site whose left and right bonds differ, where the single-layer mode raises."
  },
  {
   "property": "C63",
   "status": "partial",
   "theorems": [
    "Verif.Conv.C63_documented_partial",
    "Verif.Conv.C63_violated"
   ],
   "note": "Holds for the Frobenius norm; refuted for the default norm, which takes a maximum and no square root of a sum."
  },
  {
   "property": "C64",
   "status": "proved",
   "theorems": [
    "Verif.Ctm.C64_init",
    "Verif.Ctm.C64_init_moves",
    "Verif.Ctm.C64_init_obc"
   ],
   "note": "CTMRG never fails on non-zero tensors; CTMRG_OBC can divide by a vanishing sum. PROD and RANDOM are not modelled."
  },
  {
   "property": "C65",
   "status": "partial",
   "theorems": [
    "Verif.Ctm.C64_init",
    "Verif.Ctm.C65_obc_partial",
    "Verif.Ctm.C65_violated"
   ],
   "note": "CTMRG conjugates the bra (C64_init); CTMRG_OBC does not (C65_violated), which is harmless for real tensors only."
  },
  {
   "property": "C66",
   "status": "partial",
   "theorems": [
    "Verif.Rdm.C66_equivalent_partial",
    "Verif.Rdm.C66_violated"
   ],
   "note": "Proved but for rdm1x1 in double-layer mode, which raises for vertices outside the unit cell."
  },
  {
   "property": "C67",
   "status": "proved",
   "theorems": [
    "Verif.Rdm.C67_diagonal",
    "Verif.Rdm.C67_antidiagonal",
    "Verif.Rdm.C67_legacy"
   ],
   "note": ""
  },
  {
   "property": "C68",
   "status": "proved",
   "theorems": [
    "Verif.Rdm.C68_mpo"
   ],
   "note": ""
  },
  {
   "property": "C69",
   "status": "partial",
   "theorems": [
    "Verif.Corrf.C69_row_partial",
    "Verif.Corrf.C69_row_not_finite",
    "Verif.Corrf.C69_rows_partial"
   ],
   "note": "Operators enter transposed (C36) and, in the two-row version, without their singular values (C37)."
  },
  {
   "property": "C70",
   "status": "proved",
   "theorems": [
    "Verif.Config.C70_parse_configure"
   ],
   "note": "The derived attribute torch_dtype and fwd_checkpoint_move are treated in C47_dtype. Conversion by type(default) is a parameter."
  },
  {
   "property": "C71",
   "status": "proved",
   "theorems": [
    "Verif.C4v.C71_move"
   ],
   "note": "Eigendecomposition as a parameter."
  },
  {
   "property": "C72",
   "status": "proved",
   "theorems": [
    "Verif.Energy.C72_bipartite",
    "Verif.Energy.C72_refused"
   ],
   "note": "Third neighbours as evaluated by both routines (see C51)."
  },
  {
   "property": "C73",
   "status": "proved",
   "theorems": [
    "Verif.C4v.C73_plaquette",
    "Verif.C4v.C73_neighbours",
    "Verif.C4v.C73_diagonal"
   ],
   "note": "Neighbours are the upper left and lower left site, next-nearest neighbours the upper left and lower right site."
  },
  {
   "property": "C74",
   "status": "partial",
   "theorems": [
    "Verif.C4v.C74_site_partial",
    "Verif.C4v.C74_row",
    "Verif.C4v.C74_ends",
    "Verif.C4v.C74_single_layer_violated"
   ],
   "note": "Proved for every function except rdm1x1_sl with a half-row tensor that is not symmetric, which is refuted."
  },
  {
   "property": "C75",
   "status": "partial",
   "theorems": [
    "Verif.C4v.C75_one_site",
    "Verif.C4v.C75_isotropic",
    "Verif.C4v.C75_transposed",
    "Verif.C4v.C75_values_partial",
    "Verif.C4v.C75_not_finite"
   ],
   "note": "Equality with the general function and all directions proved in full. The documented value holds for symmetric operators; other operators are inserted transposed (as in C36), and dist+1 values are returned."
  },
  {
   "property": "C76",
   "status": "partial",
   "theorems": [
    "Verif.C4v.C76_row_conj",
    "Verif.C4v.C76_rows_conj",
    "Verif.C4v.C76_row_partial",
    "Verif.C4v.C76_rows_partial",
    "Verif.C4v.C76_row_violated",
    "Verif.C4v.C76_rows_violated"
   ],
   "note": "Proved for real decompositions (operators transposed), two rows with a symmetric half-row. Refuted for complex operators and for a Hermitian half-row."
  },
  {
   "property": "C77",
   "status": "partial",
   "theorems": [
    "Verif.Lc.C77_roundtrip_partial",
    "Verif.Lc.C77_relabels",
    "Verif.Lc.C77_order_violated",
    "Verif.Lc.C77_complex_violated",
    "Verif.Lc.C77_complex_coeffs_violated"
   ],
   "note": "Proved for real states in the default order, normalize=False; other orders relabel the axes, complex states cannot be read back."
  },
  {
   "property": "C78",
   "status": "partial",
   "theorems": [
    "Verif.Lc.C78_symmetric",
    "Verif.Lc.C78_fits_c4v",
    "Verif.Lc.C78_rejects",
    "Verif.Lc.C78_combination_partial",
    "Verif.Lc.C78_order_violated"
   ],
   "note": "Symmetry proved in full; the combination for lists with A_1 before A_2, refuted otherwise."
  },
  {
   "property": "C79",
   "status": "partial",
   "theorems": [
    "Verif.Lc.C79_consistent",
    "Verif.Lc.C79_checkpoint",
    "Verif.Lc.C79_checkpoint_rejects",
    "Verif.Lc.C79_clone",
    "Verif.Lc.C79_noise",
    "Verif.Lc.C79_move_violated",
    "Verif.Lc.C79_move_lists_violated",
    "Verif.Lc.C79_load_function_violated"
   ],
   "note": "Proved for constructor, reader, load_checkpoint, add_noise and clone; move_to and load_checkpoint_lc_1site_pg refuted."
  },
  {
   "property": "C80",
   "status": "proved",
   "theorems": [
    "Verif.SymBasis.C80_orbit",
    "Verif.SymBasis.C80_partition",
    "Verif.SymBasis.C80_groups"
   ],
   "note": ""
  },
  {
   "property": "C81",
   "status": "partial",
   "theorems": [
    "Verif.SymBasis.C81_basis_partial",
    "Verif.SymBasis.C81_order_independent",
    "Verif.SymBasis.C81_length",
    "Verif.SymBasis.C81_violated",
    "Verif.SymBasis.C81_single_violated"
   ],
   "note": "Proved in full for physical dimension 2; refuted for 1 and for 3 or more."
  },
  {
   "property": "C82",
   "status": "proved",
   "theorems": [
    "Verif.SymBasis.C82_basis_plain",
    "Verif.SymBasis.C82_total_none",
    "Verif.SymBasis.C82_empty"
   ],
   "note": "Exact arithmetic; the tolerance 1e-8 of np.allclose is part of the model."
  },
  {
   "property": "C83",
   "status": "partial",
   "theorems": [
    "Verif.SymBasis.C83_rebase_partial",
    "Verif.SymBasis.C83_generated",
    "Verif.SymBasis.C83_check_violated"
   ],
   "note": "Proved for bases that are subsets, including all generated ones; the check that refuses other bases is refuted."
  },
  {
   "property": "C84",
   "status": "proved",
   "theorems": [
    "Verif.SymBasis.C84_roundtrip"
   ],
   "note": "The data type and JSON text of the numbers are not modelled."
  },
  {
   "property": "C85",
   "status": "proved",
   "theorems": [
    "Verif.Kagome.C85_sites",
    "Verif.Kagome.C85_defined",
    "Verif.Kagome.C85_amplitude",
    "Verif.Kagome.C85_scale"
   ],
   "note": "Division by zero (NaN) is an error value; broadcasting of axes of size 1 is not modelled."
  },
  {
   "property": "C86",
   "status": "proved",
   "theorems": [
    "Verif.Kagome.C86_irrep",
    "Verif.Kagome.C86_defined",
    "Verif.Kagome.C86_fixed",
    "Verif.Kagome.C86_all"
   ],
   "note": ""
  },
  {
   "property": "C87",
   "status": "proved",
   "theorems": [
    "Verif.Kagome.C87_rotation",
    "Verif.Kagome.C87_mirror",
    "Verif.Kagome.C87_inversion"
   ],
   "note": ""
  },
  {
   "property": "C88",
   "status": "partial",
   "theorems": [
    "Verif.Kagome.C88_consistent",
    "Verif.Kagome.C88_symmetric",
    "Verif.Kagome.C88_noise_free",
    "Verif.Kagome.C88_checkpoint",
    "Verif.Kagome.C88_old_checkpoint_violated",
    "Verif.Kagome.C88_lift_violated"
   ],
   "note": "Consistency and symmetry proved in full; old checkpoints with three bond tensors and releasing the identification of triangles are refuted."
  },
  {
   "property": "C89",
   "status": "partial",
   "theorems": [
    "Verif.Kagome.C89_consistent",
    "Verif.Kagome.C89_combination",
    "Verif.Kagome.C89_defined",
    "Verif.Kagome.C89_irrep",
    "Verif.Kagome.C89_order_partial",
    "Verif.Kagome.C89_order_violated",
    "Verif.Kagome.C89_update_violated"
   ],
   "note": "Consistency, combination and symmetry proved in full; the meaning of coefficients for lists grouped by irrep; updates without both identifications refuted."
  },
  {
   "property": "C90",
   "status": "partial",
   "theorems": [
    "Verif.Kagome.C90_extend_partial",
    "Verif.Kagome.C90_extend_defined",
    "Verif.Kagome.C90_generic_violated"
   ],
   "note": "Proved for point-group symmetric states; refuted for generic states, where the call always fails."
  },
  {
   "property": "C91",
   "status": "partial",
   "theorems": [
    "Verif.Kagome.C91_pg_roundtrip",
    "Verif.Kagome.C91_generic_roundtrip_partial",
    "Verif.Kagome.C91_tiling_ignored",
    "Verif.Kagome.C91_tiling_violated",
    "Verif.Kagome.C91_old_format_violated",
    "Verif.Kagome.C91_dtype_violated"
   ],
   "note": "Round trip in full for point-group symmetric states and a sufficient dtype; for generic states when the tiling repeats with its cell. Missing: other tilings, old files and real dtype for complex states are refuted."
  },
  {
   "property": "C92",
   "status": "proved",
   "theorems": [
    "Verif.Kagome.C92_lc_roundtrip"
   ],
   "note": "normalize=False, as by default."
  },
  {
   "property": "C93",
   "status": "proved",
   "theorems": [
    "Verif.Transfer.C93_leading",
    "Verif.Transfer.C93_defined",
    "Verif.Transfer.C93_reference"
   ],
   "note": "scipy eigs and numpy argsort are parameters with the stated contract."
  },
  {
   "property": "C94",
   "status": "partial",
   "theorems": [
    "Verif.Transfer.C94_leftup_partial",
    "Verif.Transfer.C94_partial",
    "Verif.Transfer.C94_defined",
    "Verif.Transfer.C94_violated"
   ],
   "note": "Proved for left and up, and for all directions in cells of at most two sites along the direction; refuted for right in a cell of three sites."
  },
  {
   "property": "C95",
   "status": "partial",
   "theorems": [
    "Verif.Transfer.C95_values_partial",
    "Verif.Transfer.C95_sorted_partial",
    "Verif.Transfer.C95_direction",
    "Verif.Transfer.C95_none",
    "Verif.Transfer.C95_defined",
    "Verif.Transfer.C95_order_violated"
   ],
   "note": "Values proved in full. Descending order only if the solver returns by increasing modulus; refuted otherwise."
  },
  {
   "property": "C96",
   "status": "partial",
   "theorems": [
    "Verif.Transfer.C96_top",
    "Verif.Transfer.C96_defined",
    "Verif.Transfer.C96_top2_partial",
    "Verif.Transfer.C96_boundary_partial",
    "Verif.Transfer.C96_top2_violated",
    "Verif.Transfer.C96_boundary_violated"
   ],
   "note": "Width one proved in full. Width two and boundary operator: values proved in full, descending order depends on the solver and is refuted for another solver."
  },
  {
   "property": "C97",
   "status": "partial",
   "theorems": [
    "Verif.Transfer.C97_partial",
    "Verif.Transfer.C97_violated"
   ],
   "note": "Proved if the left boundary operator is symmetric (real states); refuted for a complex state."
  },
  {
   "property": "C98",
   "status": "proved",
   "theorems": [
    "Verif.Energy.C98_energy",
    "Verif.Energy.C98_positive"
   ],
   "note": "Stated for density matrices without negative eigenvalues; the one of the plaquette suffices when the third-neighbour coupling vanishes."
  },
  {
   "property": "C99",
   "status": "partial",
   "theorems": [
    "Verif.Energy.C99_sign",
    "Verif.Energy.C99_partial",
    "Verif.Energy.C99_refused",
    "Verif.Energy.C99_violated"
   ],
   "note": "Proved without staggered field; with a staggered field the sign is opposite, refuted by the Neel state."
  }
 ]
}
{
 "claims": [
  {
   "property": "C01",
   "status": "proved",
   "theorems": [
    "MaterSDK.C01_movement_partition",
    "MaterSDK.C01_mvextractor_partition",
    "MaterSDK.C01_no_separator_rejected"
   ],
   "note": "MOVEMENT opened by Movement or MVExtractor; cut into frames is the unique cut at separator rows. Movement is abstract (C197); its methods are those of objects of a derived class."
  },
  {
   "property": "C02",
   "status": "proved",
   "theorems": [
    "MaterSDK.C02_movement_random_eq_sequential",
    "MaterSDK.C02_mvextractor_random_eq_sequential"
   ],
   "note": "Random access equals sequential reading; indices past the end raise IndexError. Movement is abstract (C197); its methods are those of objects of a derived class."
  },
  {
   "property": "C03",
   "status": "proved",
   "theorems": [
    "MaterSDK.C03_line_locator",
    "MaterSDK.C03_list_locator",
    "MaterSDK.C03_locators_offset"
   ],
   "note": "Locators characterised by membership and strict order."
  },
  {
   "property": "C04",
   "status": "proved",
   "theorems": [
    "MaterSDK.C04_lowercase_never_found"
   ],
   "note": "Holds for every row list."
  },
  {
   "property": "C05",
   "status": "proved",
   "theorems": [
    "MaterSDK.C05_specieOf",
    "MaterSDK.C05_numberOf",
    "MaterSDK.C05_inverse",
    "MaterSDK.C05_injective"
   ],
   "note": "Tables compared with an independently written periodic table."
  },
  {
   "property": "C06",
   "status": "proved",
   "theorems": [
    "MaterSDK.C06_read_positional",
    "MaterSDK.C06_coordinate_layout",
    "MaterSDK.C06_missing_block_is_error"
   ],
   "note": "Every text; error branches (missing block) covered."
  },
  {
   "property": "C07",
   "status": "proved",
   "theorems": [
    "MaterSDK.C07_write_read_roundtrip"
   ],
   "note": "Structures of real elements (1..118); the vacancy symbol is written with number 0, which pymatgen refuses on reading."
  },
  {
   "property": "C08",
   "status": "proved",
   "theorems": [
    "MaterSDK.C08_magmoms_roundtrip",
    "MaterSDK.C08_no_block_zeros",
    "MaterSDK.C08_missing_property_is_error"
   ],
   "note": "Moments within 0.005, no block gives zeros, missing property is KeyError."
  },
  {
   "property": "C09",
   "status": "partial",
   "theorems": [
    "MaterSDK.C09_reread_exact",
    "MaterSDK.C09_first_read_partial",
    "MaterSDK.C09_reread_unchanged_partial",
    "MaterSDK.C09_stale_after_rewrite",
    "MaterSDK.C09_reread_violated"
   ],
   "note": "Violated: linecache keeps the first read's rows. Proved: first read and unchanged re-read are right; general stale-read theorem and concrete violation. C09_reread_exact: what the second read gives for every pair of structures, and exactly when it is what was written."
  },
  {
   "property": "C10",
   "status": "proved",
   "theorems": [
    "MaterSDK.C10_reformat_elements_inplace"
   ],
   "note": "In-place sort by atomic number: permutation, order, stability, idempotence."
  },
  {
   "property": "C11",
   "status": "partial",
   "theorems": [
    "MaterSDK.C11_holds_iff",
    "MaterSDK.C11_positions_do_not_travel",
    "MaterSDK.C11_species_reordered_positions_fixed",
    "MaterSDK.C11_already_ordered_partial"
   ],
   "note": "Violated: reformat_elements reorders species and magnetic moments but not positions. Proved: exactly what it does, and correctness when the structure is already ordered. C11_holds_iff: for distinct positions it holds iff the elements were in the requested order already."
  },
  {
   "property": "C12",
   "status": "proved",
   "theorems": [
    "MaterSDK.C12_odd_supercell",
    "MaterSDK.C12_site_count",
    "MaterSDK.C12_even_rejected",
    "MaterSDK.C12_sorted_variant"
   ],
   "note": "Odd factors: exact multiset of translated copies, site count and sorted variant; even or non-positive factors are an AssertionError."
  },
  {
   "property": "C13",
   "status": "proved",
   "theorems": [
    "MaterSDK.C13_key_idxs"
   ],
   "note": "Key indices are the primitive atoms in the sorted supercell, in sorted order."
  },
  {
   "property": "C14",
   "status": "partial",
   "theorems": [
    "MaterSDK.C14_correct_iff",
    "MaterSDK.C14_single_vacancy_partial",
    "MaterSDK.C14_removes_atoms"
   ],
   "note": "Violated: indices shift while removing. Proved: correct exactly when the loop hits no shifted vacancy; single-vacancy case."
  },
  {
   "property": "C15",
   "status": "proved",
   "theorems": [
    "MaterSDK.C15_counts_complete",
    "MaterSDK.C15_explicit_order"
   ],
   "note": "Counts sum to the number of atoms; explicit element order respected."
  },
  {
   "property": "C16",
   "status": "proved",
   "theorems": [
    "MaterSDK.C16_image_maps_back",
    "MaterSDK.C16_zero_means_none",
    "MaterSDK.C16_singular_rejected"
   ],
   "note": "Over any ordered field; singular lattices are an error."
  },
  {
   "property": "C17",
   "status": "proved",
   "theorems": [
    "MaterSDK.C17_table_exact"
   ],
   "note": "Any argsort meeting numpy's contract; real distances."
  },
  {
   "property": "C18",
   "status": "proved",
   "theorems": [
    "MaterSDK.C18_first_entry_is_centre"
   ],
   "note": "Needs that no two supercell atoms coincide (follows from Separated, see supercell_nodup)."
  },
  {
   "property": "C19",
   "status": "proved",
   "theorems": [
    "MaterSDK.C19_supercell_complete",
    "MaterSDK.C19_table_complete"
   ],
   "note": "Infinite crystal over Z^3; also stated for the rows of the table."
  },
  {
   "property": "C20",
   "status": "partial",
   "theorems": [
    "MaterSDK.C20_bounds_iff",
    "MaterSDK.C20_max_exact",
    "MaterSDK.C20_bounds_table_partial",
    "MaterSDK.C20_bound_violated"
   ],
   "note": "Violated at distances equal to the cutoff (count uses <, table uses <=). Proved when no atom sits exactly at the cutoff. C20_bounds_iff: the bound holds iff no centre has more atoms at distance at most r than some centre has strictly closer than r."
  },
  {
   "property": "C21",
   "status": "proved",
   "theorems": [
    "MaterSDK.C21_element_maxima"
   ],
   "note": "Per-element maxima are exact, bounded by the total maximum and add up to at least it."
  },
  {
   "property": "C22",
   "status": "partial",
   "theorems": [
    "MaterSDK.C22_indices_partial",
    "MaterSDK.C22_padding_is_atom",
    "MaterSDK.C22_exact"
   ],
   "note": "Violated when an atom sits on a lattice point: padding slots become that atom. Proved when none does; too small a width is an error. C22_exact: for every structure, the rows with their padding, and the exact condition for the padding to be 0."
  },
  {
   "property": "C23",
   "status": "proved",
   "theorems": [
    "MaterSDK.C23_table",
    "MaterSDK.C23_no_columns",
    "MaterSDK.C23_structure"
   ],
   "note": "Rows of extract_feature_pair: exact multiset, sorted, padded; tables without columns are an IndexError."
  },
  {
   "property": "C24",
   "status": "proved",
   "theorems": [
    "MaterSDK.C24_weight"
   ],
   "note": "The code's weight equals the DeepPot-SE weight below the cutoff."
  },
  {
   "property": "C25",
   "status": "partial",
   "theorems": [
    "MaterSDK.C25_below_partial",
    "MaterSDK.C25_at_cutoff",
    "MaterSDK.C25_atom_at_cutoff",
    "MaterSDK.C25_exact"
   ],
   "note": "Violated: at the cutoff the weight is 1/rcut instead of 0 (proved, and for an atom at the cutoff). Proved continuous below the cutoff. C25_exact: continuous exactly away from the cutoff, positive everywhere."
  },
  {
   "property": "C26",
   "status": "proved",
   "theorems": [
    "MaterSDK.C26_structure",
    "MaterSDK.C26_norm",
    "MaterSDK.C26_too_small"
   ],
   "note": "Rows of the environment matrix of a structure, norms, and the error for widths that are too small."
  },
  {
   "property": "C27",
   "status": "proved",
   "theorems": [
    "MaterSDK.C27_derivative",
    "MaterSDK.C27_structure",
    "MaterSDK.C27_padding"
   ],
   "note": "The twelve hand-written partial derivatives are the Frechet derivative with respect to the centre position."
  },
  {
   "property": "C28",
   "status": "proved",
   "theorems": [
    "MaterSDK.C28_rigid_motion",
    "MaterSDK.C28_translation"
   ],
   "note": "Any orthogonal matrix and translation, through supercell, neighbour table and environment matrix."
  },
  {
   "property": "C29",
   "status": "partial",
   "theorems": [
    "MaterSDK.C29_flat_partial",
    "MaterSDK.C29_not_row_major",
    "MaterSDK.C29_normalizer"
   ],
   "note": "Violated for se.py: the result is a flat vector, pair block after pair block (exact offsets and counterexample proved). Proved for TildeRNormalizer.normalize with equal element lists."
  },
  {
   "property": "C30",
   "status": "partial",
   "theorems": [
    "MaterSDK.C30_floor",
    "MaterSDK.C30_number_iff",
    "MaterSDK.C30_samples_partial",
    "MaterSDK.C30_invertible",
    "MaterSDK.C30_average",
    "MaterSDK.C30_double_nan"
   ],
   "note": "Proved in exact arithmetic. Violated in doubles: three equal weights 0.1 give a negative rounded variance, hence NaN (proved with a model of rounding). feature/deepmd/preprocess.py imports the missing module data/deepmd/data_system.py (for an annotation); the code is taken without this import."
  },
  {
   "property": "C31",
   "status": "partial",
   "theorems": [
    "MaterSDK.C31_covers_partial",
    "MaterSDK.C31_not_all_neighbours",
    "MaterSDK.C31_key_error",
    "MaterSDK.C31_all_columns_iff"
   ],
   "note": "Violated: the second loop runs over the centre elements; other neighbour elements are dropped, and a centre element outside the neighbour list is a KeyError. Exact coverage proved. C31_all_columns_iff: the rows have columns for all neighbour elements iff both lists name the same elements. feature/deepmd/preprocess.py imports the missing module data/deepmd/data_system.py (for an annotation); the code is taken without this import."
  },
  {
   "property": "C32",
   "status": "proved",
   "theorems": [
    "MaterSDK.C32_cbm",
    "MaterSDK.C32_vbm",
    "MaterSDK.C32_metal"
   ],
   "note": "Every table; exact arithmetic with round-half-even. Metals give None and then TypeError."
  },
  {
   "property": "C33",
   "status": "proved",
   "theorems": [
    "MaterSDK.C33_gap"
   ],
   "note": "Every readable run; the Fermi energy is always rounded to 3 decimals by the code."
  },
  {
   "property": "C34",
   "status": "proved",
   "theorems": [
    "MaterSDK.C34_metal",
    "MaterSDK.C34_no_fermi"
   ],
   "note": "Exact iff, with the tolerance 1e-4 of the code; missing OUT.FERMI is a TypeError."
  },
  {
   "property": "C35",
   "status": "proved",
   "theorems": [
    "MaterSDK.C35_type"
   ],
   "note": "The reported k-points. Degenerate edges are the subject of C67."
  },
  {
   "property": "C36",
   "status": "partial",
   "theorems": [
    "MaterSDK.C36_two_spins_iff",
    "MaterSDK.C36_one_spin",
    "MaterSDK.C36_two_spins_partial",
    "MaterSDK.C36_two_spins_error",
    "MaterSDK.C36_missing"
   ],
   "note": "Violated for two spins with numpy >= 1.25 or with one or two bands (ValueError from a wrong assertion), proved. Proved without spin, and with two spins for older numpy and three or more bands. C36_two_spins_iff: exactly when the two-spin table is returned."
  },
  {
   "property": "C37",
   "status": "proved",
   "theorems": [
    "MaterSDK.C37_accepts",
    "MaterSDK.C37_distances",
    "MaterSDK.C37_bohr"
   ],
   "note": "Every file and lattice: exact acceptance condition, exact step at and between labels. A jump is what the code takes for one: two adjacent labelled rows."
  },
  {
   "property": "C38",
   "status": "proved",
   "theorems": [
    "MaterSDK.C38_parts",
    "MaterSDK.C38_files",
    "MaterSDK.C38_default_single_part",
    "MaterSDK.C38_rejected",
    "MaterSDK.C38_negative_size_loses_everything",
    "MaterSDK.C38_part_names",
    "MaterSDK.C38_names"
   ],
   "note": "Every part size >= 1, all arrays; size 0 and existing folders are errors. Negative sizes (outside the range) lose everything silently, proved. C38_names: the folders are numbered from 0 in order and have different names."
  },
  {
   "property": "C39",
   "status": "proved",
   "theorems": [
    "MaterSDK.C39_sets",
    "MaterSDK.C39_zero_rejected",
    "MaterSDK.C39_negative_size_loses_everything",
    "MaterSDK.C39_names"
   ],
   "note": "Every set size >= 1, all arrays with the same bounds; size 0 is an error. Needs sites with force and atomic energy, which no reader of the package sets (C160). C39_names: the folders are numbered from 0 in order and have different names."
  },
  {
   "property": "C40",
   "status": "partial",
   "theorems": [
    "MaterSDK.C40_types_decode_partial",
    "MaterSDK.C40_missing_number_rejected",
    "MaterSDK.C40_duplicates_violated",
    "MaterSDK.C40_collection_type_map_violated",
    "MaterSDK.C40_decodes_iff"
   ],
   "note": "Violated for lists of numbers with repetitions and for StructCollection.to (type_map.raw holds indices). Proved for lists without repetitions and for the default. C40_decodes_iff: for every given list, an index decodes to the atom's element iff no number before its place in the list is repeated."
  },
  {
   "property": "C41",
   "status": "proved",
   "theorems": [
    "MaterSDK.C41_groups",
    "MaterSDK.C41_formula_is_composition"
   ],
   "note": "Groups are concatenations in order; frames conserved; equal formula iff equal composition."
  },
  {
   "property": "C42",
   "status": "partial",
   "theorems": [
    "MaterSDK.C42_stale_composition_violated",
    "MaterSDK.C42_composition_partial"
   ],
   "note": "Violated: merged groups get the composition of the last trajectory read. C42_composition_partial: right exactly for groups with one member or containing the last one."
  },
  {
   "property": "C43",
   "status": "proved",
   "theorems": [
    "MaterSDK.C43_selects",
    "MaterSDK.C43_rejected",
    "MaterSDK.C43_virial_replaced"
   ],
   "note": "Collections with one entry per frame in every array; out of range and empty index lists are errors."
  },
  {
   "property": "C44",
   "status": "partial",
   "theorems": [
    "MaterSDK.C44_energies_agree_partial",
    "MaterSDK.C44_get_frame_energy_partial",
    "MaterSDK.C44_all_frames_reader_raises",
    "MaterSDK.C44_old_format_rejected"
   ],
   "note": "Frame-level agreement of the three energy readers for every header in the current format. Missing: get_all_frame_structures_info as a whole always raises (from_str), proved. Movement is abstract (C197); its methods are those of objects of a derived class."
  },
  {
   "property": "C45",
   "status": "partial",
   "theorems": [
    "MaterSDK.C45_mvextractor_aligned_partial",
    "MaterSDK.C45_missing_stress_raises",
    "MaterSDK.C45_get_frame_virial_partial",
    "MaterSDK.C45_all_frames_list_shifted"
   ],
   "note": "Violated for the list built by get_all_frame_structures_info. Proved for MVExtractor and get_frame_virial. Movement is abstract (C197); its methods are those of objects of a derived class."
  },
  {
   "property": "C46",
   "status": "partial",
   "theorems": [
    "MaterSDK.C46_exact",
    "MaterSDK.C46_short_rows_violated",
    "MaterSDK.C46_forces_read_partial",
    "MaterSDK.C46_malformed_gives_zeros",
    "MaterSDK.C46_malformed_violated"
   ],
   "note": "Violated: malformed blocks give zeros, proved in general and concretely. Proved for well-formed blocks. C46_exact: what is returned for every text; C46_short_rows_violated: rows that all lack their third number give an array of 2 n numbers."
  },
  {
   "property": "C47",
   "status": "partial",
   "theorems": [
    "MaterSDK.C47_magmoms_never_returned",
    "MaterSDK.C47_no_magmoms_array",
    "MaterSDK.C47_magmoms_violated"
   ],
   "note": "Violated on every frame: get_magmoms always raises AttributeError."
  },
  {
   "property": "C48",
   "status": "partial",
   "theorems": [
    "MaterSDK.C48_from_str_never_succeeds",
    "MaterSDK.C48_from_str_violated"
   ],
   "note": "Violated for every text: from_str always raises AttributeError."
  },
  {
   "property": "C49",
   "status": "partial",
   "theorems": [
    "MaterSDK.C49_zero",
    "MaterSDK.C49_mesh_partial",
    "MaterSDK.C49_rejects",
    "MaterSDK.C49_negative",
    "MaterSDK.C49_negative_exact"
   ],
   "note": "Violated for negative densities (negative divisions). Proved for all densities >= 0, with the exact rounding. C49_negative_exact: the mesh for a negative density, and exactly when its divisions are still positive."
  },
  {
   "property": "C50",
   "status": "proved",
   "theorems": [
    "MaterSDK.C50_two_dim",
    "MaterSDK.C50_points",
    "MaterSDK.C50_other_dims"
   ],
   "note": "Every dictionary and path list; the dictionary of pymatgen is an input."
  },
  {
   "property": "C51",
   "status": "partial",
   "theorems": [
    "MaterSDK.C51_segments",
    "MaterSDK.C51_length",
    "MaterSDK.C51_diagonal_partial",
    "MaterSDK.C51_oblique"
   ],
   "note": "Violated: elementwise product instead of a matrix product. Exact condition for the formula to be right proved; right for rectangular cells along the axes."
  },
  {
   "property": "C52",
   "status": "partial",
   "theorems": [
    "MaterSDK.C52_returns_iff",
    "MaterSDK.C52_strain",
    "MaterSDK.C52_negative",
    "MaterSDK.C52_kept",
    "MaterSDK.C52_returns_partial",
    "MaterSDK.C52_left_handed",
    "MaterSDK.C52_large_strain",
    "MaterSDK.C52_no_atoms"
   ],
   "note": "Number, species and fractional coordinates for every call that returns; strain bounds; success for right-handed cells and strain below 1/2. Violated: left-handed cells and some draws at amplitude 2 fail. C52_returns_iff: for amplitudes of any size, copies are made iff every strained cell is right-handed (flat strained cells excluded: there the outcome depends on the signs np.linalg.qr chooses)."
  },
  {
   "property": "C53",
   "status": "partial",
   "theorems": [
    "MaterSDK.C53_accepts_iff",
    "MaterSDK.C53_right_handed_partial",
    "MaterSDK.C53_left_handed"
   ],
   "note": "Violated: left-handed cells make the assertion fail. Proved for right-handed cells, for any QR factorisation. C53_accepts_iff: a cell that is not flat is accepted iff it is right-handed."
  },
  {
   "property": "C54",
   "status": "proved",
   "theorems": [
    "MaterSDK.C54_mean",
    "MaterSDK.C54_between",
    "MaterSDK.C54_no_columns"
   ],
   "note": "Every structure with separated atoms and every odd supercell; exact mean, and between shortest and longest bond. Tables without columns are an IndexError. No AvgBond object can be made (C198); the method is taken for given frames."
  },
  {
   "property": "C55",
   "status": "partial",
   "theorems": [
    "MaterSDK.C55_distinct_partial",
    "MaterSDK.C55_same_element",
    "MaterSDK.C55_self_pairs"
   ],
   "note": "Violated for equal neighbour elements: every neighbour is paired with itself (16/9 each), proved. Proved for different elements."
  },
  {
   "property": "C56",
   "status": "proved",
   "theorems": [
    "MaterSDK.C56_values",
    "MaterSDK.C56_nonneg",
    "MaterSDK.C56_translation"
   ],
   "note": "Exact values, non-negativity, zero for equal frames, count, and translation invariance of the centroid-corrected variant."
  },
  {
   "property": "C57",
   "status": "partial",
   "theorems": [
    "MaterSDK.C57_counts",
    "MaterSDK.C57_small_partial",
    "MaterSDK.C57_not_binary",
    "MaterSDK.C57_negative",
    "MaterSDK.C57_holds_iff"
   ],
   "note": "Violated: entries count periodic images, and a negative cutoff gives -1 on the diagonal. Proved (0/1, symmetric, zero diagonal) for cutoffs below half the shortest lattice translation; exact counts proved for all. C57_holds_iff: the exact geometric condition for entries 0 or 1 and a zero diagonal."
  },
  {
   "property": "C58",
   "status": "partial",
   "theorems": [
    "MaterSDK.C58_dos_values",
    "MaterSDK.C58_dos_partial",
    "MaterSDK.C58_dos_prefix",
    "MaterSDK.C58_dos_no_energy",
    "MaterSDK.C58_fat_values",
    "MaterSDK.C58_fat_partial",
    "MaterSDK.C58_fat_potassium",
    "MaterSDK.C58_dos_exact",
    "MaterSDK.C58_fat_exact"
   ],
   "note": "Violated by prefix matching: Si counted for S, KPOINT counted for K (proved). Exact value proved; right when no symbol is a prefix of another name. C58_dos_exact, C58_fat_exact: right for all numbers iff no symbol begins another name."
  },
  {
   "property": "C59",
   "status": "partial",
   "theorems": [
    "MaterSDK.C59_rows",
    "MaterSDK.C59_first_partial",
    "MaterSDK.C59_joined"
   ],
   "note": "Violated for every job: the last three directives share one row. All rows of the script proved."
  },
  {
   "property": "C60",
   "status": "partial",
   "theorems": [
    "MaterSDK.C60_truncated_accepted",
    "MaterSDK.C60_enough_rows_partial",
    "MaterSDK.C60_count_exact"
   ],
   "note": "Violated: truncated position blocks are silently accepted. C60_count_exact: the number of atoms read is the smaller of announced atoms and rows that follow."
  },
  {
   "property": "C61",
   "status": "partial",
   "theorems": [
    "MaterSDK.C61_every_failure",
    "MaterSDK.C61_moments",
    "MaterSDK.C61_failed_write_leaves_prefix_partial",
    "MaterSDK.C61_failed_write_readable"
   ],
   "note": "Violated: a failing write leaves a readable prefix; the exact content left is proved. C61_every_failure: every write that fails because of an unknown species leaves a file that reads back as the sites before it. C61_moments: a failure with real elements leaves all atoms."
  },
  {
   "property": "C62",
   "status": "proved",
   "theorems": [
    "MaterSDK.C62_no_drift"
   ],
   "note": "One write/read cycle reaches a fixed point."
  },
  {
   "property": "C63",
   "status": "proved",
   "theorems": [
    "MaterSDK.C63_frame_info_is_row",
    "MaterSDK.C63_labels"
   ],
   "note": "Every loaded extractor."
  },
  {
   "property": "C64",
   "status": "proved",
   "theorems": [
    "MaterSDK.C64_readers_agree",
    "MaterSDK.C64_truncated_text_differs"
   ],
   "note": "Both readers find complete blocks; the truncated case differs (proved)."
  },
  {
   "property": "C65",
   "status": "proved",
   "theorems": [
    "MaterSDK.C65_fields",
    "MaterSDK.C65_one_row_per_frame"
   ],
   "note": "All fields; one row per frame."
  },
  {
   "property": "C66",
   "status": "partial",
   "theorems": [
    "MaterSDK.C66_exact",
    "MaterSDK.C66_first_read_partial",
    "MaterSDK.C66_stale"
   ],
   "note": "Violated: counts come from linecache. Proved for the first read. C66_exact: for every file remembered, the counts are those of its row with the same number, right iff that row states the same count, IndexError if it is too short."
  },
  {
   "property": "C67",
   "status": "partial",
   "theorems": [
    "MaterSDK.C67_exact",
    "MaterSDK.C67_unique_partial",
    "MaterSDK.C67_degenerate"
   ],
   "note": "Violated for edges that occur at several k-points. Proved when each edge has one k-point. C67_exact: for energies with at most four decimals the type is 1 exactly when the first occurrences of the two edges are at the same k-point."
  },
  {
   "property": "C68",
   "status": "partial",
   "theorems": [
    "MaterSDK.C68_cbm_iff",
    "MaterSDK.C68_vbm_iff",
    "MaterSDK.C68_cbm_partial",
    "MaterSDK.C68_vbm_partial",
    "MaterSDK.C68_wrong_bands"
   ],
   "note": "Violated: the code looks at the next k-point, and numbers VBM bands from 0. Exact content proved. C68_cbm_iff, C68_vbm_iff: exactly for which tables the claim holds."
  },
  {
   "property": "C69",
   "status": "partial",
   "theorems": [
    "MaterSDK.C69_steps_partial",
    "MaterSDK.C69_new_step",
    "MaterSDK.C69_exact",
    "MaterSDK.C69_holds_iff"
   ],
   "note": "Violated: dropping out-of-plane points joins their neighbours. C69_exact says exactly which steps the returned paths have, C69_holds_iff for which inputs the claim holds."
  },
  {
   "property": "C70",
   "status": "partial",
   "theorems": [
    "MaterSDK.C70_hidden",
    "MaterSDK.C70_images_iff",
    "MaterSDK.C70_meaning",
    "MaterSDK.C70_translation_partial",
    "MaterSDK.C70_images"
   ],
   "note": "Violated for slabs stored across the cell boundary. Meaning and invariance under rigid translation proved. C70_hidden: any two or more atoms can be stored so that a direction shows no vacuum; C70_images_iff: the answer is independent of the images iff there is one atom or no way of storing shows vacuum."
  },
  {
   "property": "C71",
   "status": "partial",
   "theorems": [
    "MaterSDK.C71_large_partial",
    "MaterSDK.C71_small"
   ],
   "note": "Violated with one or two processors (Pool of size <= 0 is a ValueError). Proved with three or more. No AvgBond or PairBond object can be made (C198); the methods are taken for given frames."
  },
  {
   "property": "C72",
   "status": "partial",
   "theorems": [
    "MaterSDK.C72_rejects_partial",
    "MaterSDK.C72_single_atom",
    "MaterSDK.C72_accepts_iff"
   ],
   "note": "Violated when one frame has exactly one atom (broadcasting). Proved otherwise. C72_accepts_iff says exactly which trajectories are accepted."
  },
  {
   "property": "C73",
   "status": "partial",
   "theorems": [
    "MaterSDK.C73_first_partial",
    "MaterSDK.C73_previous_frame",
    "MaterSDK.C73_holds_iff",
    "MaterSDK.C73_drift"
   ],
   "note": "Violated: values are relative to the previous frame. Proved for the first value. C73_holds_iff says for which trajectories a value is the documented one; C73_drift: for a constant drift only the first is."
  },
  {
   "property": "C74",
   "status": "partial",
   "theorems": [
    "MaterSDK.C74_nearest_partial",
    "MaterSDK.C74_wrapped",
    "MaterSDK.C74_one_atom_iff"
   ],
   "note": "Violated for atoms crossing the boundary. Proved when atoms are stored at the nearest image. C74_one_atom_iff: another image of one atom changes nothing exactly when it is equally far away."
  },
  {
   "property": "C75",
   "status": "proved",
   "theorems": [
    "MaterSDK.C75_range",
    "MaterSDK.C75_monotone"
   ],
   "note": "Every trajectory."
  },
  {
   "property": "C76",
   "status": "partial",
   "theorems": [
    "MaterSDK.C76_rejects_partial",
    "MaterSDK.C76_even_accepted",
    "MaterSDK.C76_accepts_iff"
   ],
   "note": "Violated: factors 1 and 2 only are accepted. Proved as soon as some factor is at least 3. C76_accepts_iff: accepted exactly when all factors are positive and all are odd or all at most 2."
  },
  {
   "property": "C77",
   "status": "partial",
   "theorems": [
    "MaterSDK.C77_distance_partial",
    "MaterSDK.C77_rejects",
    "MaterSDK.C77_not_periodic",
    "MaterSDK.C77_accepts_iff"
   ],
   "note": "Violated for pairs through the boundary. Exact value and index errors proved. No AvgBond or PairBond object can be made (C198); the methods are taken for given frames. C77_accepts_iff: exactly which indices are accepted."
  },
  {
   "property": "C78",
   "status": "partial",
   "theorems": [
    "MaterSDK.C78_same_iff",
    "MaterSDK.C78_rows_partial",
    "MaterSDK.C78_once_partial",
    "MaterSDK.C78_self_pairs"
   ],
   "note": "Violated for equal elements when the tolerance reaches angle 0 (self pairs). Exact rows proved otherwise. C78_same_iff: for equal elements the claim holds iff the tolerance does not reach angle 0 or there is no bond. No AvgBond object can be made (C198); the method is taken for given frames."
  },
  {
   "property": "C79",
   "status": "partial",
   "theorems": [
    "MaterSDK.C79_bands_partial",
    "MaterSDK.C79_single_band"
   ],
   "note": "Violated for a single band (IndexError). Proved for two or more bands."
  },
  {
   "property": "C80",
   "status": "partial",
   "theorems": [
    "MaterSDK.C80_file_partial",
    "MaterSDK.C80_tdos",
    "MaterSDK.C80_orbitals",
    "MaterSDK.C80_glued",
    "MaterSDK.C80_glued_always"
   ],
   "note": "Violated when # is glued to the first name. Proved otherwise. C80_glued_always: it fails for every such file."
  },
  {
   "property": "C81",
   "status": "partial",
   "theorems": [
    "MaterSDK.C81_set_partial",
    "MaterSDK.C81_unset",
    "MaterSDK.C81_each_option"
   ],
   "note": "Violated: None is written. Set options proved to appear. C81_each_option: every option by itself, for every job."
  },
  {
   "property": "C82",
   "status": "partial",
   "theorems": [
    "MaterSDK.C82_no_ghosts",
    "MaterSDK.C82_find_info_exact_partial",
    "MaterSDK.C82_fractional_input",
    "MaterSDK.C82_violated_backward_cell",
    "MaterSDK.C82_violated_unwrapped",
    "MaterSDK.C82_violated_close_atoms",
    "MaterSDK.C82_violated_mixed_pbc",
    "MaterSDK.C82_exact"
   ],
   "note": "Proved for cells with atoms wrapped into the cell, a lattice vector with a positive component along every axis, non-periodic vectors orthogonal to the periodic Cartesian axes, images at least 0.032 apart. Violated otherwise: out-of-bounds write for a backward cell and for unwrapped coordinates, atoms closer than 0.0316 dropped, neighbours listed five times under mixed periodicity (all proved). C82_exact: atoms at any distance; images with squared distance up to 1/1000 are left out, exact condition for the counts. C82_no_ghosts: no ghost atoms are reported, one type per atom."
  },
  {
   "property": "C83",
   "status": "partial",
   "theorems": [
    "MaterSDK.C83_same_set",
    "MaterSDK.C83_fine_bins",
    "MaterSDK.C83_multiplicity",
    "MaterSDK.C83_bin_size_irrelevant_partial",
    "MaterSDK.C83_violated_coarse_bins"
   ],
   "note": "Violated for coarse bins: a neighbour listed 27 times. The set of neighbours never depends on the bin sizes (C83_same_set); each is listed once for all bins fine enough (C83_fine_bins); C83_multiplicity counts the repetitions."
  },
  {
   "property": "C84",
   "status": "partial",
   "theorems": [
    "MaterSDK.C84_owned_atoms_partial",
    "MaterSDK.C84_violated_even",
    "MaterSDK.C84_exact",
    "MaterSDK.C84_equal_ends"
   ],
   "note": "Violated for 4 x 1 x 2. C84_exact characterises the factors for which it holds: all odd ones (the neighbour list uses no others), and those with equal first and last factor."
  },
  {
   "property": "C85",
   "status": "proved",
   "theorems": [
    "MaterSDK.C85_supercell_same_crystal"
   ],
   "note": "Every structure and positive factors."
  },
  {
   "property": "C86",
   "status": "proved",
   "theorems": [
    "MaterSDK.C86_sorted_rows",
    "MaterSDK.C86_handled_cells"
   ],
   "note": "For every structure, cutoff, bin size and periodicity for which the list and its tables can be made with enough columns (too few columns: C87); that they can be made is shown for the cells of C82."
  },
  {
   "property": "C87",
   "status": "partial",
   "theorems": [
    "MaterSDK.C87_violated_unchecked_width",
    "MaterSDK.C87_violated_example",
    "MaterSDK.C87_wide_enough_partial",
    "MaterSDK.C87_exact"
   ],
   "note": "Violated whenever the last atom has more neighbours than columns; there is no check. C87_exact: for every row length, success exactly when atom i has at most (n-i)*umax neighbours, and what every place then holds."
  },
  {
   "property": "C88",
   "status": "partial",
   "theorems": [
    "MaterSDK.C88_max_neighbours_partial",
    "MaterSDK.C88_violated_close_atoms",
    "MaterSDK.C88_exact"
   ],
   "note": "Violated: atoms closer than sqrt(0.001) are not counted (witness with two atoms 0.03 apart). Partial: true for the cells of C82. C88_exact: atoms at any distance."
  },
  {
   "property": "C89",
   "status": "partial",
   "theorems": [
    "MaterSDK.C89_symmetric_partial",
    "MaterSDK.C89_violated_backward_cell"
   ],
   "note": "Violated for a cell with a vector pointing backwards along an axis: the bins are not aligned with the atoms and one of two atoms lists the other, but not vice versa (witness). Partial: true for the cells of C82, any separation of atoms."
  },
  {
   "property": "C90",
   "status": "proved",
   "theorems": [
    "MaterSDK.C90_env_values"
   ],
   "note": "Every table with room for all neighbours."
  },
  {
   "property": "C91",
   "status": "proved",
   "theorems": [
    "MaterSDK.C91_env_derivative"
   ],
   "note": "Every non-zero relative position, including both joints of the switching function."
  },
  {
   "property": "C92",
   "status": "partial",
   "theorems": [
    "MaterSDK.C92_violated_spill",
    "MaterSDK.C92_violated_overwrite",
    "MaterSDK.C92_unknown_type_partial",
    "MaterSDK.C92_exact",
    "MaterSDK.C92_places_iff"
   ],
   "note": "Violated: a surplus neighbour is stored in the next type's slot, or overwritten, silently. Unknown types are proved to give no result (out-of-bounds access). C92_exact: for every slot table, the place every neighbour is written to, which write wins, and that an access is out of bounds only behind the last slot of the last centre. C92_places_iff: the places are right iff there is room."
  },
  {
   "property": "C93",
   "status": "proved",
   "theorems": [
    "MaterSDK.C93_se4pw"
   ],
   "note": "Every table with room for all neighbours."
  },
  {
   "property": "C94",
   "status": "partial",
   "theorems": [
    "MaterSDK.C94_exact",
    "MaterSDK.C94_structure_to_env_partial",
    "MaterSDK.C94_violated_atomic_numbers"
   ],
   "note": "Violated for structures with atomic numbers: find_info4mlff hands out atomic numbers as types, find_value_deriv uses types as positions in the slot table, so any neighbour with an atomic number not below the number of types is read and written out of bounds. Partial: true for the cells of C82, atom numbers that are type indices, and enough slots. C94_exact: atoms at any distance."
  },
  {
   "property": "C95",
   "status": "proved",
   "theorems": [
    "MaterSDK.C95_chebyshev"
   ],
   "note": "Real arithmetic, every rmin < rmax, every degree and every distance; rejection included."
  },
  {
   "property": "C96",
   "status": "proved",
   "theorems": [
    "MaterSDK.C96_radial_derivatives"
   ],
   "note": "Real arithmetic, every degree; one-sided at the two ends of the interval."
  },
  {
   "property": "C97",
   "status": "proved",
   "theorems": [
    "MaterSDK.C97_radial_cutoff"
   ],
   "note": "Real arithmetic, every rmin < rmax, every degree and every distance; rejection included."
  },
  {
   "property": "C98",
   "status": "partial",
   "theorems": [
    "MaterSDK.C98_exact",
    "MaterSDK.C98_violated_jump",
    "MaterSDK.C98_mtpq_partial"
   ],
   "note": "Violated at rcut_smooth: every function jumps from 0 to +-1, since the switching function is 0 instead of 1 below rcut_smooth. Everything else proved. C98_exact: every function of MtpQ is differentiable, and continuous, exactly away from rcut_smooth."
  },
  {
   "property": "C99",
   "status": "partial",
   "theorems": [
    "MaterSDK.C99_exact",
    "MaterSDK.C99_backward_partial",
    "MaterSDK.C99_violated_jump"
   ],
   "note": "Violated at distance rcut_smooth, where the outputs jump (C98) and have no gradient. Partial: true at all positions whose distances are not rcut_smooth. C99_exact: right iff the weights of every row at rcut_smooth satisfy two linear equations; otherwise there is no gradient."
  },
  {
   "property": "C100",
   "status": "proved",
   "theorems": [
    "MaterSDK.C100_combinations_complete"
   ],
   "note": "Every max_level; both directions (nothing missing, nothing extra), up to the order inside a combination."
  },
  {
   "property": "C101",
   "status": "partial",
   "theorems": [
    "MaterSDK.C101_violated_duplicates",
    "MaterSDK.C101_no_duplicates_partial",
    "MaterSDK.C101_multiplicity",
    "MaterSDK.C101_once_iff"
   ],
   "note": "Violated from max_level 18 on. Proved for combinations without two different moments of equal level. C101_multiplicity: every combination is listed as often as it can be written with levels that do not decrease. C101_once_iff: once iff it has no two different moments of equal level."
  },
  {
   "property": "C102",
   "status": "proved",
   "theorems": [
    "MaterSDK.C102_nmus"
   ],
   "note": "Every max_level from 2 on."
  },
  {
   "property": "C103",
   "status": "proved",
   "theorems": [
    "MaterSDK.C103_forward_succeeds"
   ],
   "note": "Every max_level from 2 on, arrays with valid atoms and types (padding -1 allowed); the shapes and indices of torch are part of the model."
  },
  {
   "property": "C104",
   "status": "partial",
   "theorems": [
    "MaterSDK.C104_evaluable_iff",
    "MaterSDK.C104_missing_iff",
    "MaterSDK.C104_violated_missing",
    "MaterSDK.C104_listed_partial"
   ],
   "note": "Violated: M02 M01 M01 M01 M01 (level 16) is never listed. Proved for at most four moments. C104_evaluable_iff and C104_missing_iff: exactly which combinations can be evaluated, and which of them are missing from the list."
  },
  {
   "property": "C105",
   "status": "proved",
   "theorems": [
    "MaterSDK.C105_rotation"
   ],
   "note": "Every orthogonal matrix (determinant 1 or -1) and all arrays, bad ones included; real arithmetic."
  },
  {
   "property": "C106",
   "status": "proved",
   "theorems": [
    "MaterSDK.C106_permutation",
    "MaterSDK.C106_padding"
   ],
   "note": "Every permutation of the rows of each centre; rows below rcut_smooth or from rcut on change nothing, hence padding rows when rcut_smooth is positive."
  },
  {
   "property": "C107",
   "status": "proved",
   "theorems": [
    "MaterSDK.C107_moment"
   ],
   "note": "Every mu and nu, all neighbour data, real arithmetic."
  },
  {
   "property": "C108",
   "status": "partial",
   "theorems": [
    "MaterSDK.C108_violated_empty",
    "MaterSDK.C108_violated_lists",
    "MaterSDK.C108_pairs_partial",
    "MaterSDK.C108_exact",
    "MaterSDK.C108_holds_iff"
   ],
   "note": "Violated: undefined behaviour for every list produced by MTPLevel, single moments dropped, longer combinations repeated or kept out of order. Proved for pairs. C108_exact: for every list, how often each combination is kept. C108_holds_iff: the lists for which the claim holds."
  },
  {
   "property": "C109",
   "status": "partial",
   "theorems": [
    "MaterSDK.C109_violated_even",
    "MaterSDK.C109_redundant_partial"
   ],
   "note": "Violated for every even max_level. Proved for odd max_level and for fewer than max_level/2 moments."
  },
  {
   "property": "C110",
   "status": "proved",
   "theorems": [
    "MaterSDK.C110_outer_product"
   ],
   "note": "Every n >= 1 and every vector."
  },
  {
   "property": "C111",
   "status": "partial",
   "theorems": [
    "MaterSDK.C111_one_per_atom_iff",
    "MaterSDK.C111_atomic_energies_partial",
    "MaterSDK.C111_one_per_atom_partial",
    "MaterSDK.C111_truncated_block"
   ],
   "note": "Violated for a text that ends inside the block: fewer energies than atoms, no error. Everything else proved. C111_one_per_atom_iff: exactly when there is one energy per atom."
  },
  {
   "property": "C112",
   "status": "proved",
   "theorems": [
    "MaterSDK.C112_virial",
    "MaterSDK.C112_no_stress"
   ],
   "note": "Every text."
  },
  {
   "property": "C113",
   "status": "proved",
   "theorems": [
    "MaterSDK.C113_number_of_atoms"
   ],
   "note": "Every text."
  },
  {
   "property": "C114",
   "status": "proved",
   "theorems": [
    "MaterSDK.C114_load_exact",
    "MaterSDK.C114_load_sound",
    "MaterSDK.C114_load_throws"
   ],
   "note": "Header lines must be shorter than 4998 characters. Every text for the converse."
  },
  {
   "property": "C115",
   "status": "partial",
   "theorems": [
    "MaterSDK.C115_missing_rows_partial",
    "MaterSDK.C115_rows_dropped",
    "MaterSDK.C115_exact",
    "MaterSDK.C115_refused_iff"
   ],
   "note": "Violated for counts that are too small (rows dropped) or negative. Proved for counts that are too large. C115_exact, C115_refused_iff: a file is refused iff a count is larger than its table or more than 1000 characters are left on one of the first two table lines; otherwise the rows beyond the counts are cut off."
  },
  {
   "property": "C116",
   "status": "partial",
   "theorems": [
    "MaterSDK.C116_value_semantics_partial",
    "MaterSDK.C116_self_assignment",
    "MaterSDK.C116_assign_empty",
    "MaterSDK.C116_move_assignment"
   ],
   "note": "Violated: self-assignment, assignment of an empty table and move assignment lead to a double free. Proved for all programs without these."
  },
  {
   "property": "C117",
   "status": "partial",
   "theorems": [
    "MaterSDK.C117_exact",
    "MaterSDK.C117_all_freed_iff",
    "MaterSDK.C117_all_freed_partial",
    "MaterSDK.C117_block_lost"
   ],
   "note": "Violated when an assignment overwrites an empty table. Proved for all programs without such an assignment. C117_exact: a program of the operations that C116 allows loses one block for each assignment that replaces a table of length 0 that has a block by one that is not empty, and no other; C117_all_freed_iff is the exact condition."
  },
  {
   "property": "C118",
   "status": "partial",
   "theorems": [
    "MaterSDK.C118_aligned_partial",
    "MaterSDK.C118_subset_partial",
    "MaterSDK.C118_fewer_columns",
    "MaterSDK.C118_too_small",
    "MaterSDK.C118_stats_length",
    "MaterSDK.C118_padding_is_atom",
    "MaterSDK.C118_violated_fewer_centres"
   ],
   "note": "Violated when an atom sits on a lattice point (padding then carries the index of that atom), and when a neighbour element is no centre element (environment rows and derivatives then lack its columns). Everything else proved, for odd scaling factors and positive widths. feature/deepmd/preprocess.py imports the missing module data/deepmd/data_system.py (for an annotation); the code is taken without this import."
  },
  {
   "property": "C119",
   "status": "partial",
   "theorems": [
    "MaterSDK.C119_rows_partial",
    "MaterSDK.C119_wrong_row",
    "MaterSDK.C119_exact"
   ],
   "note": "Violated for structures that are not sorted by atomic number. Proved for sorted structures and elements listed in ascending order. feature/deepmd/preprocess.py imports the missing module data/deepmd/data_system.py (for an annotation); the code is taken without this import. C119_exact: for every structure an index names the atom of the structure; it is right exactly when that atom is the centre of the row with the same number."
  },
  {
   "property": "C120",
   "status": "partial",
   "theorems": [
    "MaterSDK.C120_counts_partial",
    "MaterSDK.C120_wrong_counts",
    "MaterSDK.C120_absent_element",
    "MaterSDK.C120_exact"
   ],
   "note": "Violated for structures that are not sorted, and when a listed element has no atoms. Proved otherwise. feature/deepmd/preprocess.py imports the missing module data/deepmd/data_system.py (for an annotation); the code is taken without this import. C120_exact: the counts follow the order in which elements first occur; exact condition for them to describe the rows."
  },
  {
   "property": "C121",
   "status": "partial",
   "theorems": [
    "MaterSDK.C121_holds_iff",
    "MaterSDK.C121_content_partial",
    "MaterSDK.C121_missing_layers",
    "MaterSDK.C121_key_error",
    "MaterSDK.C121_zero_width"
   ],
   "note": "Violated when the numbers of layers differ: the embedding nets are walked with the number of fitting layers, so that layers are dropped silently or a KeyError is raised. Proved for equal numbers of layers, with the error cases. C121_holds_iff: for complete checkpoints it holds iff both kinds of nets have the same number of layers."
  },
  {
   "property": "C122",
   "status": "proved",
   "theorems": [
    "MaterSDK.C122_dict"
   ],
   "note": "File names of a file are distinct (hdf5)."
  },
  {
   "property": "C123",
   "status": "partial",
   "theorems": [
    "MaterSDK.C123_never_saves"
   ],
   "note": "Violated for every collection: the call of DStructure.to uses parameter names it does not have (TypeError), after the folder of frame 0 has been emptied."
  },
  {
   "property": "C124",
   "status": "partial",
   "theorems": [
    "MaterSDK.C124_never_writes"
   ],
   "note": "Violated for every system with at least one copy: the same TypeError; no file is ever written."
  },
  {
   "property": "C125",
   "status": "partial",
   "theorems": [
    "MaterSDK.C125_never_constructed"
   ],
   "note": "Violated for every file: the constructor passes a keyword that DStructure.from_file does not have (TypeError). The theorems of C49 are about get_kmesh for an object whose structure was set otherwise."
  },
  {
   "property": "C126",
   "status": "partial",
   "theorems": [
    "MaterSDK.C126_collection_max_partial",
    "MaterSDK.C126_few_processors"
   ],
   "note": "Violated on machines with at most two processors (ValueError). Proved for three and more, distinct positions, frames with atoms."
  },
  {
   "property": "C127",
   "status": "partial",
   "theorems": [
    "MaterSDK.C127_collection_max_element_partial",
    "MaterSDK.C127_few_processors"
   ],
   "note": "Violated on machines with at most two processors, where the call raises ValueError (as C126)."
  },
  {
   "property": "C128",
   "status": "partial",
   "theorems": [
    "MaterSDK.C128_exact",
    "MaterSDK.C128_values_partial",
    "MaterSDK.C128_self_assignment"
   ],
   "note": "Violated by x = x, which silently empties the structure (num_atoms is zeroed before the right-hand side is read). Proved for all programs without it, error cases included. C128_exact: what every program shows, x = x included."
  },
  {
   "property": "C129",
   "status": "partial",
   "theorems": [
    "MaterSDK.C129_exact",
    "MaterSDK.C129_no_leak_partial",
    "MaterSDK.C129_safe",
    "MaterSDK.C129_zero_factor_leaks",
    "MaterSDK.C129_empty_supercell"
   ],
   "note": "Violated by make_supercell with a factor 0, which leaks the arrays; make_supercell of an empty structure frees pointers that were never set. Proved for all other programs, with x = x. C129_exact: for every program, one block is lost for each supercell with a factor 0 and no other."
  },
  {
   "property": "C130",
   "status": "partial",
   "theorems": [
    "MaterSDK.C130_exact",
    "MaterSDK.C130_values_partial",
    "MaterSDK.C130_self_assignment",
    "MaterSDK.C130_self_assignment_inner"
   ],
   "note": "Violated by x = x: the structure inside is emptied, bins and indices are left uninitialised and all lists are emptied. Proved for all programs without it. C130_exact: what every program shows, x = x included."
  },
  {
   "property": "C131",
   "status": "proved",
   "theorems": [
    "MaterSDK.C131_safe",
    "MaterSDK.C131_no_leak"
   ],
   "note": "Constructors with data are modelled for at least one atom and a nonzero cutoff; the missing return of BasicStructureInfo::operator= is taken to be harmless."
  },
  {
   "property": "C132",
   "status": "partial",
   "theorems": [
    "MaterSDK.C132_contiguous_partial",
    "MaterSDK.C132_layout_violated",
    "MaterSDK.C132_int64_violated",
    "MaterSDK.C132_short_violated"
   ],
   "note": "Violated for every layout that is not row-major contiguous, for 64 bit atomic numbers (numpy's default) and for fewer coordinates than atoms (read past the end). Proved for contiguous double arrays and contiguous 32 bit integers; what the neighbour list itself answers is C82."
  },
  {
   "property": "C133",
   "status": "partial",
   "theorems": [
    "MaterSDK.C133_leak",
    "MaterSDK.C133_result"
   ],
   "note": "Violated by every call with atoms and columns: the buffer of firstneigh (4*inum*umax bytes) is never released, because line 139 sets the ownership flag of numneigh again. All other buffers are released exactly once."
  },
  {
   "property": "C134",
   "status": "proved",
   "theorems": [
    "MaterSDK.C134_tilde_values",
    "MaterSDK.C134_tilde_derivatives"
   ],
   "note": "All neighbour lists with enough slots (too few: C136); both overloads of each static function; real arithmetic."
  },
  {
   "property": "C135",
   "status": "proved",
   "theorems": [
    "MaterSDK.C135_structure_to_tilde",
    "MaterSDK.C135_pair"
   ],
   "note": "Atoms closer than sqrt(1/1000) are excluded by hypothesis, as in C82."
  },
  {
   "property": "C136",
   "status": "partial",
   "theorems": [
    "MaterSDK.C136_pair_given_slots",
    "MaterSDK.C136_static_iff",
    "MaterSDK.C136_member_iff",
    "MaterSDK.C136_static_too_few_partial",
    "MaterSDK.C136_violated_member"
   ],
   "note": "Violated by the member functions, which write past the end of the block of the pair. The static functions assert (proved); a build without assertions would write out of bounds there too. Slot numbers are natural numbers. C136_static_iff and C136_member_iff: a table is returned iff there are enough slots. C136_pair_given_slots: the same for PairTildeR with a given number of slots."
  },
  {
   "property": "C137",
   "status": "proved",
   "theorems": [
    "MaterSDK.C137_member_static"
   ],
   "note": "All neighbour lists with enough slots; real arithmetic."
  },
  {
   "property": "C138",
   "status": "partial",
   "theorems": [
    "MaterSDK.C138_exact",
    "MaterSDK.C138_values_partial",
    "MaterSDK.C138_copies_partial",
    "MaterSDK.C138_violated_copy",
    "MaterSDK.C138_violated_self"
   ],
   "note": "Violated by the copy constructor, which allocates sizeof(int) bytes for the two element lists and writes past their end for two or more elements; and by x = x, which empties the object. Proved for all programs without these, and with copies of at most one element of each kind. Objects with elements of one kind only are excluded (C139). C138_exact: what every program shows, x = x and copies included."
  },
  {
   "property": "C139",
   "status": "partial",
   "theorems": [
    "MaterSDK.C139_no_leak_partial",
    "MaterSDK.C139_violated_no_types",
    "MaterSDK.C139_violated_double_free",
    "MaterSDK.C139_violated_neighbours_only"
   ],
   "note": "Violated by objects without elements (their empty lists are never freed), by objects with centre elements only (assignment to them, then destruction frees twice) and by objects with neighbour elements only (leak). Proved for all programs without copies whose objects have elements of both kinds, x = x included."
  },
  {
   "property": "C140",
   "status": "proved",
   "theorems": [
    "MaterSDK.C140_every_bad_index",
    "MaterSDK.C140_nested_arrays",
    "MaterSDK.C140_out_of_range"
   ],
   "note": "All sizes and all sequences of assignments, in a model of the heap with blocks of pointers. C140_every_bad_index: every index out of range goes outside of a block."
  },
  {
   "property": "C141",
   "status": "proved",
   "theorems": [
    "MaterSDK.C141_any_sizes",
    "MaterSDK.C141_nothing_left_iff",
    "MaterSDK.C141_free_other_size"
   ],
   "note": "All sizes, in every dimension (C141_any_sizes), and exactly when nothing is lost."
  },
  {
   "property": "C142",
   "status": "partial",
   "theorems": [
    "MaterSDK.C142_generate_into_partial",
    "MaterSDK.C142_returned_partial",
    "MaterSDK.C142_violated_deriv_into"
   ],
   "note": "Violated by TildeR::deriv into an array of the caller, which never frees cstart_idxs and nstart_idxs: every call leaves two blocks. Proved for the other three functions. The values of the pairs are C134."
  },
  {
   "property": "C143",
   "status": "proved",
   "theorems": [
    "MaterSDK.C143_radial_basis"
   ],
   "note": "Every inner cutoff below the outer one, every degree, every distance; real arithmetic."
  },
  {
   "property": "C144",
   "status": "partial",
   "theorems": [
    "MaterSDK.C144_bounded_iff",
    "MaterSDK.C144_bounded_partial",
    "MaterSDK.C144_violated_unbounded",
    "MaterSDK.C144_violated_degree"
   ],
   "note": "Violated below the inner cutoff, where the polynomials leave [-1, 1] and the value at a positive distance can be as large as one likes; and for negative degrees, which are not rejected (write past the end of an empty array, or through a null pointer). Proved from the inner cutoff on. C144_bounded_iff: exactly when the values are between -1 and 1."
  },
  {
   "property": "C145",
   "status": "partial",
   "theorems": [
    "MaterSDK.C145_violated_leak"
   ],
   "note": "Violated by every object: there is no destructor, four arrays stay allocated."
  },
  {
   "property": "C146",
   "status": "partial",
   "theorems": [
    "MaterSDK.C146_values_partial",
    "MaterSDK.C146_rows",
    "MaterSDK.C146_violated_self",
    "MaterSDK.C146_violated_empty"
   ],
   "note": "Violated by x = x (the rows are lost and the arrays are freed twice) and by assigning an empty object to one with rows (its arrays are freed twice). Proved for all other programs without objects of size 0."
  },
  {
   "property": "C147",
   "status": "partial",
   "theorems": [
    "MaterSDK.C147_values_partial",
    "MaterSDK.C147_rows",
    "MaterSDK.C147_violated_empty",
    "MaterSDK.C147_violated_moved",
    "MaterSDK.C147_violated_self"
   ],
   "note": "Violated by copying, assigning or building an empty (default constructed or moved-from) object, which uses a null pointer, and by x = x, which loses the rows. Proved for all other programs without objects of size 0. A cutoff pair with rmin = rmax is excluded from the rows."
  },
  {
   "property": "C148",
   "status": "partial",
   "theorems": [
    "MaterSDK.C148_values_partial",
    "MaterSDK.C148_text_partial",
    "MaterSDK.C148_rows",
    "MaterSDK.C148_violated_self",
    "MaterSDK.C148_exact"
   ],
   "note": "Violated by x = x, which loses the rows. Proved for all other programs. C148_exact: what every program shows, x = x included."
  },
  {
   "property": "C149",
   "status": "partial",
   "theorems": [
    "MaterSDK.C149_values_partial",
    "MaterSDK.C149_rows",
    "MaterSDK.C149_violated_dflt",
    "MaterSDK.C149_violated_self",
    "MaterSDK.C149_exact"
   ],
   "note": "Violated by default constructed objects, whose destructor frees pointers without a value, and by x = x, which loses the rows. Proved for all other programs. C149_exact: what every program without default construction shows, x = x included."
  },
  {
   "property": "C150",
   "status": "partial",
   "theorems": [
    "MaterSDK.C150_rb_partial",
    "MaterSDK.C150_rq_partial",
    "MaterSDK.C150_cheb_partial",
    "MaterSDK.C150_mtpq_partial",
    "MaterSDK.C150_violated_cheb",
    "MaterSDK.C150_violated_mtpq"
   ],
   "note": "Violated by copies of empty ChebyshevPoly and MtpQ objects (an empty array is never freed); for RB and RQ see C146, C147. Proved for programs which do not copy empty objects."
  },
  {
   "property": "C151",
   "status": "partial",
   "theorems": [
    "MaterSDK.C151_env_batch_partial",
    "MaterSDK.C151_violated_larger",
    "MaterSDK.C151_violated_smaller"
   ],
   "note": "Violated when frames announce different totals: the total of the first frame is used for all (larger last frame: rows are written outside of the result, no success; smaller one: rows are lost without an error). Proved for batches with one total and frames whose elements are contiguous (C155)."
  },
  {
   "property": "C152",
   "status": "proved",
   "theorems": [
    "MaterSDK.C152_se4pw_batch"
   ],
   "note": "For frames whose elements lie one after the other in memory; others are C155."
  },
  {
   "property": "C153",
   "status": "partial",
   "theorems": [
    "MaterSDK.C153_flat_partial",
    "MaterSDK.C153_violated_flat"
   ],
   "note": "Violated for every batch of two or more frames, where x[ii] of a flat tensor is the ii-th element (witness with two frames). Proved for one frame."
  },
  {
   "property": "C154",
   "status": "proved",
   "theorems": [
    "MaterSDK.C154_kinds"
   ],
   "note": "Batches of at least one frame for Se4pwOp. EnvMatrixOp rejects by assert, which is absent in builds with NDEBUG; data_ptr of torch then throws."
  },
  {
   "property": "C155",
   "status": "partial",
   "theorems": [
    "MaterSDK.C155_storage_partial",
    "MaterSDK.C155_violated_strides"
   ],
   "note": "Violated by frames which are not contiguous: the pointers ignore strides (witness with stride 2). Proved for frames which lie anywhere but are contiguous."
  },
  {
   "property": "C156",
   "status": "partial",
   "theorems": [
    "MaterSDK.C156_violated"
   ],
   "note": "Violated: backward returns eight undefined tensors."
  },
  {
   "property": "C157",
   "status": "proved",
   "theorems": [
    "MaterSDK.C157_slice",
    "MaterSDK.C157_same_as_from_indices",
    "MaterSDK.C157_zero_step"
   ],
   "note": "Collections with one entry per frame in every array."
  },
  {
   "property": "C158",
   "status": "partial",
   "theorems": [
    "MaterSDK.C158_violated",
    "MaterSDK.C158_violated_loop",
    "MaterSDK.C158_single_partial"
   ],
   "note": "Violated for every integer index and every loop: a single structure is handed to the constructor, which expects a list (AttributeError). Proved: the length-one slice [i:i+1] gives what is wanted."
  },
  {
   "property": "C159",
   "status": "partial",
   "theorems": [
    "MaterSDK.C159_counts_partial",
    "MaterSDK.C159_violated",
    "MaterSDK.C159_exact"
   ],
   "note": "Violated for frames of different composition: the first frame is taken for all. Proved for equal compositions. C159_exact: the counts are right for a frame iff its atoms are a permutation of those of the first."
  },
  {
   "property": "C160",
   "status": "partial",
   "theorems": [
    "MaterSDK.C160_violated",
    "MaterSDK.C160_violated_repr",
    "MaterSDK.C160_given_partial"
   ],
   "note": "Violated for every structure read from a file: nothing sets the site properties atomic_force and atomic_energy, so AttributeError, also in print(collection). Proved for sites which were given both."
  },
  {
   "property": "C161",
   "status": "partial",
   "theorems": [
    "MaterSDK.C161_violated"
   ],
   "note": "Violated for every trajectory (the chain of calls passes the broken from_str of C48). Movement is abstract (C197); its methods are those of objects of a derived class."
  },
  {
   "property": "C162",
   "status": "partial",
   "theorems": [
    "MaterSDK.C162_success_partial",
    "MaterSDK.C162_violated",
    "MaterSDK.C162_failure"
   ],
   "note": "Violated: the old folder is removed before the first thing that can fail. Proved for exports that succeed. C162_failure: what every failed export leaves behind."
  },
  {
   "property": "C163",
   "status": "proved",
   "theorems": [
    "MaterSDK.C163_highk"
   ],
   "note": "Labels without white space, formula without line break."
  },
  {
   "property": "C164",
   "status": "proved",
   "theorems": [
    "MaterSDK.C164_gen_kpt"
   ],
   "note": "Labels without white space. The number of points is that of C51; below 10^16."
  },
  {
   "property": "C165",
   "status": "proved",
   "theorems": [
    "MaterSDK.C165_rows",
    "MaterSDK.C165_hsp",
    "MaterSDK.C165_blank_rejected"
   ],
   "note": "Every text of the file; a row without a fourth word makes the weights fail."
  },
  {
   "property": "C166",
   "status": "partial",
   "theorems": [
    "MaterSDK.C166_violated",
    "MaterSDK.C166_number_partial"
   ],
   "note": "Violated: header and rows are never compared (witness). Proved: the header is returned as written."
  },
  {
   "property": "C167",
   "status": "partial",
   "theorems": [
    "MaterSDK.C167_violated",
    "MaterSDK.C167_violated_unit",
    "MaterSDK.C167_fractional_partial"
   ],
   "note": "Violated: iflag is read and not used (witness: in a cell 1, 2, 1 the point (1, 1, 0) comes out in another direction); a non-integer a0 is a ValueError. Proved for fractional coordinates."
  },
  {
   "property": "C168",
   "status": "proved",
   "theorems": [
    "MaterSDK.C168_dos_input"
   ],
   "note": "All settings; the smearing is printed with five decimals."
  },
  {
   "property": "C169",
   "status": "partial",
   "theorems": [
    "MaterSDK.C169_violated",
    "MaterSDK.C169_text_partial",
    "MaterSDK.C169_violated_example"
   ],
   "note": "Violated: numbers of parameters and coordinates are not checked. Proved: the kind is checked, and the file states what was given."
  },
  {
   "property": "C170",
   "status": "partial",
   "theorems": [
    "MaterSDK.C170_exact",
    "MaterSDK.C170_in_atom_partial",
    "MaterSDK.C170_missing_rejected",
    "MaterSDK.C170_stale"
   ],
   "note": "Violated for a REPORT which was written again (stale rows of linecache). Proved for the first read, and that a missing row is refused. C170_exact: the result for every REPORT and every remembered copy of it."
  },
  {
   "property": "C171",
   "status": "partial",
   "theorems": [
    "MaterSDK.C171_agree_partial",
    "MaterSDK.C171_violated_at_cutoff",
    "MaterSDK.C171_agree_iff"
   ],
   "note": "Violated for an atom exactly at the cutoff (Python gives it weight 1/rcut, C++ does not list it; witness: cubic cell of edge 1, cutoff 1). Proved when no atom is exactly at the cutoff, for cells the C++ list handles (CellOk), images more than sqrt(1e-3) apart, and enough slots. C171_agree_iff: under these conditions the two agree iff no atom is exactly at the cutoff."
  },
  {
   "property": "C172",
   "status": "partial",
   "theorems": [
    "MaterSDK.C172_violated_level_nine",
    "MaterSDK.C172_violated_two_moments",
    "MaterSDK.C172_small_partial"
   ],
   "note": "Violated: MtpMCoeffPair::operator= does not return a value, and std::sort uses it. From level 9 on every correct sort has to move an element; a sort that assigns whenever there are two elements, as in libstdc++, is undefined from level 4 on. Partial: levels up to 3 return the combinations of C100, and whenever the constructor returns it has these."
  },
  {
   "property": "C173",
   "status": "partial",
   "theorems": [
    "MaterSDK.C173_aligned_partial",
    "MaterSDK.C173_resize_partial",
    "MaterSDK.C173_violated_negative_size",
    "MaterSDK.C173_negative_exact"
   ],
   "note": "Violated: a negative size is accepted when sizeof(T)*|n| <= 15 (an int array of size -1 takes 11 bytes and reports size -1). Partial: sizes from 0 to 2^31-1, any allocator. The constructors of T are never run, so T has to be a plain type. C173_negative_exact: what happens for every negative size."
  },
  {
   "property": "C174",
   "status": "partial",
   "theorems": [
    "MaterSDK.C174_values_partial",
    "MaterSDK.C174_violated_copy",
    "MaterSDK.C174_violated_assign"
   ],
   "note": "Violated: the class has a destructor but the compiler's copy constructor and assignment, so copies share their elements and the block is freed twice; assignment leaks the old block. Partial: all programs that do not copy, until memory runs out."
  },
  {
   "property": "C175",
   "status": "partial",
   "theorems": [
    "MaterSDK.C175_values_partial",
    "MaterSDK.C175_index_rejected",
    "MaterSDK.C175_zero_divisor",
    "MaterSDK.C175_violated_quotient",
    "MaterSDK.C175_quotient_partial"
   ],
   "note": "Violated: / and /= multiply by the rounded reciprocal, so 49/49 is below 1. Partial: all other operators and division by powers of two in full; for every other divisor a relative error of at most 2^-52 + 2^-106. Doubles without overflow, underflow, NaN; no fused multiply-add."
  },
  {
   "property": "C176",
   "status": "partial",
   "theorems": [
    "MaterSDK.C176_identities_partial",
    "MaterSDK.C176_errors",
    "MaterSDK.C176_violated_orthogonal"
   ],
   "note": "Violated: the cross product is not orthogonal to its factors in doubles (witness (0.1,0.1,0.1) x (0.1,0.3,0.7)). The other identities hold exactly; error bounds proved."
  },
  {
   "property": "C177",
   "status": "partial",
   "theorems": [
    "MaterSDK.C177_features",
    "MaterSDK.C177_missing_element",
    "MaterSDK.C177_too_small_partial",
    "MaterSDK.C177_violated_width"
   ],
   "note": "Violated for the width 0: if every centre has at most one neighbour of the element, it is dropped without an error (witness). Partial: complete blocks for sufficient widths, KeyError for a missing element, ValueError for a too small width other than 0. feature/deepmd/preprocess.py imports the missing module data/deepmd/data_system.py (for an annotation); the code is taken without this import."
  },
  {
   "property": "C178",
   "status": "partial",
   "theorems": [
    "MaterSDK.C178_last_registration_partial",
    "MaterSDK.C178_violated_unknown",
    "MaterSDK.C178_violated_class_name"
   ],
   "note": "Violated: an unknown name raises KeyError (the ValueError branch is only reached for a registered None), and a decorated class is None under its own name. Partial: the last registration wins."
  },
  {
   "property": "C179",
   "status": "partial",
   "theorems": [
    "MaterSDK.C179_same_crystal_partial",
    "MaterSDK.C179_violated_stored_image"
   ],
   "note": "Violated when an atom is stored far outside the cell of the others: its images near them are not in the supercell (witness: Si five cells away, environment matrix zero). Partial: both supercells reach the cutoff beyond every atom."
  },
  {
   "property": "C180",
   "status": "partial",
   "theorems": [
    "MaterSDK.C180_same_crystal_partial",
    "MaterSDK.C180_violated_backward_cell"
   ],
   "note": "Violated for cells with lattice vectors pointing backwards: the cubic crystal written with negated lattice vectors makes the neighbour list read out of bounds, with the usual vectors it works. Partial: both cells satisfy CellOk (proper, atoms wrapped, a forward lattice vector along every axis)."
  },
  {
   "property": "C181",
   "status": "partial",
   "theorems": [
    "MaterSDK.C181_same_crystal_partial",
    "MaterSDK.C181_violated_smooth_zero"
   ],
   "note": "Violated when rcut_smooth is not positive: padding rows (index -1, position 0) then count as neighbours of the type of the last atom, and an atom without neighbours gets the number of slots as its first basis function. Partial: rcut_smooth > 0, and both cells satisfy CellOk (otherwise see C180)."
  },
  {
   "property": "C182",
   "status": "partial",
   "theorems": [
    "MaterSDK.C182_smooth_partial",
    "MaterSDK.C182_violated_jump"
   ],
   "note": "Violated at the distance rcut_smooth: two atoms in a cubic cell have basis function 0 at every distance below rcut_smooth and 1 at rcut_smooth. Partial: no atom of the crystal at the distance rcut_smooth of the centre; rcut_smooth > 0."
  },
  {
   "property": "C183",
   "status": "partial",
   "theorems": [
    "MaterSDK.C183_exact",
    "MaterSDK.C183_orbital_partial",
    "MaterSDK.C183_violated_contains",
    "MaterSDK.C183_violated_substring",
    "MaterSDK.C183_single_band"
   ],
   "note": "Violated: the name is searched anywhere in the column names, so asking for S-4Py in a file with arsenic also returns As-4Py (and Mo-4Dx also Mo-4Dxy); files with one band cannot be read. Partial: two or more bands, no other column contains the name. C183_exact: which columns come out for every name, and exactly when only the one asked for does."
  },
  {
   "property": "C184",
   "status": "proved",
   "theorems": [
    "MaterSDK.C184_forces",
    "MaterSDK.C184_energy",
    "MaterSDK.C184_interior"
   ],
   "note": "Frechet derivative within the set of positions the list handles (atoms wrapped, images apart, room in the slots), from the structure through the neighbour list and the tables; C184_energy is the consequence for energies. C184_interior: where all atoms lie strictly inside the cell and there are slots for a slightly larger cutoff, the derivative is one without restriction."
  },
  {
   "property": "C185",
   "status": "partial",
   "theorems": [
    "MaterSDK.C185_violated",
    "MaterSDK.C185_bins_in_range_partial"
   ],
   "note": "C185_violated: cubic cell of edge 1, cutoff 1, third coordinate 1 - 2^-53: the image in the next cell rounds to the upper face and the head array is written past its end. C185_bins_in_range_partial covers atoms that keep off the upper faces by the tolerance."
  },
  {
   "property": "C186",
   "status": "proved",
   "theorems": [
    "MaterSDK.C186_find_info_double"
   ],
   "note": "Double arithmetic without overflow, underflow or fused operations; the same functions as C82 with a rounding after every operation. CellOkD excludes the inputs on which C185 fails."
  },
  {
   "property": "C187",
   "status": "partial",
   "theorems": [
    "MaterSDK.C187_violated",
    "MaterSDK.C187_weight_partial"
   ],
   "note": "C187_violated: rcut_smooth 1, rcut 2: negative at the double 2 - 2^-26, positive at the larger double 2 - 2^-27. C187_weight_partial: error at most 2^-46 / d everywhere, hence sign and monotonicity up to that margin, exact zero from the cutoff on."
  },
  {
   "property": "C188",
   "status": "proved",
   "theorems": [
    "MaterSDK.C188_env_double"
   ],
   "note": "Double arithmetic without overflow, underflow or fused operations; std::pow correctly rounded. The tolerance is envTol = 32 nbrTol (1/(rcut - rcut_smooth) + 1/d) / d."
  },
  {
   "property": "C189",
   "status": "proved",
   "theorems": [
    "MaterSDK.C189_env_deriv_double"
   ],
   "note": "As C188; the tolerance is envDerivTol = 256 nbrTol (1/(rcut - rcut_smooth) + 1/d)^2 / d."
  },
  {
   "property": "C190",
   "status": "partial",
   "theorems": [
    "MaterSDK.C190_violated_open",
    "MaterSDK.C190_violated_wide",
    "MaterSDK.C190_filed_partial",
    "MaterSDK.C190_exact"
   ],
   "note": "C190_violated_open: without periodicity the numbers of voxels are never set. C190_violated_wide: voxels more than twice as wide as the box, no voxels at all. C190_filed_partial covers the rest. The class is taken with a VoxelIndex that compiles. C190_exact: what happens for every box, size and periodicity."
  },
  {
   "property": "C191",
   "status": "partial",
   "theorems": [
    "MaterSDK.C191_violated",
    "MaterSDK.C191_contains_partial",
    "MaterSDK.C191_holds_iff"
   ],
   "note": "C191_violated: the constructor assigns voxelSizeY twice and voxelSizeZ never. C191_contains_partial: square voxels that divide the box. C191_holds_iff: it holds iff the requested size along z divides the box and the voxels are as wide along y as along z, directions with one voxel not counted."
  },
  {
   "property": "C192",
   "status": "proved",
   "theorems": [
    "MaterSDK.C192_images"
   ],
   "note": "Exact arithmetic; reduced form: box[0][1] = box[0][2] = box[1][2] = 0."
  },
  {
   "property": "C193",
   "status": "proved",
   "theorems": [
    "MaterSDK.C193_search",
    "MaterSDK.C193_part"
   ],
   "note": "The comments of the header promise <= for findLowerBound and >= for findUpperBound; the code finds the first x >= a and the first x > b, as in OpenMM."
  },
  {
   "property": "C194",
   "status": "proved",
   "theorems": [
    "MaterSDK.C194_tables",
    "MaterSDK.C194_forces"
   ],
   "note": "Frechet derivative within the set of positions the list handles; arguments of Se4pw prepared as in demo_se4pw.cc."
  },
  {
   "property": "C195",
   "status": "proved",
   "theorems": [
    "MaterSDK.C195_newton",
    "MaterSDK.C195_forces_at"
   ],
   "note": "C195_newton: within the set of positions the list handles. C195_forces_at: without restriction where all atoms lie strictly inside the cell and there are slots for a slightly larger cutoff."
  },
  {
   "property": "C196",
   "status": "proved",
   "theorems": [
    "MaterSDK.C196_tables",
    "MaterSDK.C196_virial",
    "MaterSDK.C196_virial_at"
   ],
   "note": "C196_virial: within the set of deformations after which the list handles the structure. C196_virial_at: without restriction where there are slots for a slightly larger cutoff."
  },
  {
   "property": "C197",
   "status": "partial",
   "theorems": [
    "MaterSDK.C197_violated",
    "MaterSDK.C197_subclass_partial",
    "MaterSDK.C197_others"
   ],
   "note": "C197_violated: Movement leaves get_frame_volume and get_max_num_nbrs_real of Trajectory abstract, so every call is a TypeError. C197_subclass_partial: derived classes with the two methods open exactly the files with a separator row."
  },
  {
   "property": "C198",
   "status": "partial",
   "theorems": [
    "MaterSDK.C198_violated",
    "MaterSDK.C198_violated_derived"
   ],
   "note": "C198_violated: TypeError for every file (C197). C198_violated_derived: with a derived class that adds the missing methods still an error for every file (from_str, C48)."
  },
  {
   "property": "C199",
   "status": "proved",
   "theorems": [
    "MaterSDK.C199_loads_iff",
    "MaterSDK.C199_round_trip",
    "MaterSDK.C199_rejects"
   ],
   "note": "A data set is the value it was given; the bytes of hdf5 are not modelled. A data set of another kind than to() writes is refused in the model, where h5py hands it out."
  },
  {
   "property": "C200",
   "status": "partial",
   "theorems": [
    "MaterSDK.C200_statistics_partial",
    "MaterSDK.C200_returns_iff",
    "MaterSDK.C200_index",
    "MaterSDK.C200_order",
    "MaterSDK.C200_violated_counts"
   ],
   "note": "Violated for frames with different numbers of atoms of a centre element: np.concatenate refuses them (ValueError; witness, and C200_returns_iff says exactly when). Partial: equal numbers. feature/deepmd/preprocess.py imports the missing module data/deepmd/data_system.py (for an annotation); the code is taken without this import."
  },
  {
   "property": "C201",
   "status": "proved",
   "theorems": [
    "MaterSDK.C201_standardised"
   ],
   "note": "Exact arithmetic. The neighbour list must equal the centre list, see C31. feature/deepmd/preprocess.py imports the missing module data/deepmd/data_system.py (for an annotation); the code is taken without this import."
  },
  {
   "property": "C202",
   "status": "partial",
   "theorems": [
    "MaterSDK.C202_sets_partial",
    "MaterSDK.C202_parts_partial",
    "MaterSDK.C202_frames",
    "MaterSDK.C202_violated"
   ],
   "note": "Names different and numbered in order (C39_names, C38_names), always. Sorted as texts they are in order iff there are at most 1000 folders (C202_sets_partial, C202_parts_partial), that is at most 1000 p frames (C202_frames); violated beyond, where set.1000 comes before set.101."
  },
  {
   "property": "C203",
   "status": "proved",
   "theorems": [
    "MaterSDK.C203_every_frame_once",
    "MaterSDK.C203_default",
    "MaterSDK.C203_written_iff",
    "MaterSDK.C203_rejected"
   ],
   "note": "Every list of files and part size >= 1 (C203_every_frame_once), without a part size (C203_default). C203_written_iff: writing succeeds iff no folder is there; size 0 and existing folders are errors (C203_rejected). What a frame states is what the frame reader reads (C10, C45, C46)."
  },
  {
   "property": "C204",
   "status": "partial",
   "theorems": [
    "MaterSDK.C204_optional_exact_partial",
    "MaterSDK.C204_violated"
   ],
   "note": "Exact: the file is in all parts of a folder, with the right rows, iff every frame merged into the folder states the quantity; one frame without it removes the file from the folder. Violated: the values of the other frames are then lost without an error."
  },
  {
   "property": "C205",
   "status": "proved",
   "theorems": [
    "MaterSDK.C205_box",
    "MaterSDK.C205_planes",
    "MaterSDK.C205_supercell",
    "MaterSDK.C205_no_atoms"
   ],
   "note": "Every cell, real arithmetic (rounding: C185). Structures without atoms: null pointers for widths and distances, undefined reads for the box (C205_no_atoms)."
  },
  {
   "property": "C206",
   "status": "partial",
   "theorems": [
    "MaterSDK.C206_batch_partial",
    "MaterSDK.C206_violated_wide",
    "MaterSDK.C206_violated_narrow",
    "MaterSDK.C206_different_sizes",
    "MaterSDK.C206_no_structures"
   ],
   "note": "C206_batch_partial: contiguous arrays of doubles and 32 bit integers, types instead of atomic numbers, enough slots, and as many columns as slots. Nothing checks the last condition: with more columns, or with fewer under the bound stated, the operator reads the type of atom -1 (C206_violated_wide, C206_violated_narrow). Rounding to float32 is not modelled. Unequal or no structures: C206_different_sizes, C206_no_structures."
  },
  {
   "property": "C207",
   "status": "proved",
   "theorems": [
    "MaterSDK.C207_shows"
   ],
   "note": "Every cell of C82, images closer than sqrt(1/1000) left out as there; real arithmetic. Number formats and the line with the cutoff are not modelled."
  },
  {
   "property": "C208",
   "status": "proved",
   "theorems": [
    "MaterSDK.C208_table_doubles",
    "MaterSDK.C208_same_atoms",
    "MaterSDK.C208_crystal",
    "MaterSDK.C208_cutoff_missed"
   ],
   "note": "Rounding after every operation, correctly rounded sqrt, no overflow or underflow. Scaling factors 2m+1 with m at most 2^52. pymatgen's way of storing Cartesian coordinates (through fractional ones) is any function with an error of at most delta per coordinate, 2 delta <= M. Errors: delta + 9 M 2^-53 per coordinate, 6 delta + 126 M 2^-53 per distance; not claimed to be the best. C208_cutoff_missed: the margin cannot be dropped; an atom exactly at the cutoff is lost though all data are exact doubles."
  },
  {
   "property": "C209",
   "status": "proved",
   "theorems": [
    "MaterSDK.C209_env_doubles",
    "MaterSDK.C209_cutoff_jump"
   ],
   "note": "Rounding after every operation in the order of the source, correctly rounded sqrt and powers, no overflow or underflow; storing of coordinates as in C208. Bounds with tau = 2 delta + 400 M 2^-53: 32 tau (1/(rcut-rs) + 1/rho)/rho for the values, 256 tau (1/(rcut-rs) + 1/rho)^2/rho for the derivatives; 64 tau <= rho and 64 tau <= rcut - rs are assumed; not claimed to be the best. C209_cutoff_jump: the margin at the cutoff cannot be dropped (the code gives 1/d, not 0, at d = rcut)."
  },
  {
   "property": "C210",
   "status": "proved",
   "theorems": [
    "MaterSDK.C210_agree_doubles"
   ],
   "note": "Tolerances: pyEnvTol and pyDerivTol (as C209), envTol and envDerivTol (as C188, C189). In the example, a skew cell with cutoff 3, they add up to less than 1e-8 and 1e-7. Agreement is up to the order of the slots. At the cutoff the codes differ already without rounding (C171_violated_at_cutoff); C209_cutoff_jump shows that the margin is needed."
  },
  {
   "property": "C211",
   "status": "proved",
   "theorems": [
    "MaterSDK.C211_stable"
   ],
   "note": "Exact arithmetic. eps is also at least 2^-48 rcut; this restricts only the bound, since eps may be taken larger. The order of the slots may change: equally distant neighbours can swap places. At the cutoff the features do jump (C209_cutoff_jump)."
  },
  {
   "property": "C212",
   "status": "proved",
   "theorems": [
    "MaterSDK.C212_saved"
   ],
   "note": "Positions in the file are taken exactly as printed (C07); elements are numbered by an arbitrary function of the species text. In the example, lithium and oxygen in a skew cell with cutoff 3, the bounds are 1/40 and 3/5: they are worst-case bounds, not the typical change."
  },
  {
   "property": "C213",
   "status": "proved",
   "theorems": [
    "MaterSDK.C213_twice",
    "MaterSDK.C213_even"
   ],
   "note": "Exact arithmetic; two negative factors whose product is positive and odd are the only case in which one way is refused and the other is not, and it is excluded by positivity."
  },
  {
   "property": "C214",
   "status": "proved",
   "theorems": [
    "MaterSDK.C214_copies",
    "MaterSDK.C214_sum"
   ],
   "note": "Exact arithmetic. C214_copies asks that both supercells reach the cutoff (`Reaches`, C179); C214_sum derives this for atoms stored inside the cell from the plane distances, as C19 does."
  },
  {
   "property": "C215",
   "status": "partial",
   "theorems": [
    "MaterSDK.C215_copies_partial",
    "MaterSDK.C215_violated"
   ],
   "note": "Violated. make_supercell puts the copies around the original cell, so with a factor of three or more some lie below it, while the bins of the neighbour list start at the lower faces of the supercell it makes itself. With c parallel to z and perpendicular to a and b, every factor of three or more along c writes outside the bin array, whatever the atoms and the cutoff (C215_violated). With factors 1 and 2 all copies stay inside and the claim holds (C215_copies_partial)."
  },
  {
   "property": "C216",
   "status": "partial",
   "theorems": [
    "MaterSDK.C216_stable_partial",
    "MaterSDK.C216_violated"
   ],
   "note": "Violated. An atom on a face of the cell can be moved out of it by an arbitrarily small displacement. In an upright cell (c along z, a and b perpendicular to z) the neighbour list then writes outside the bin array, for every cutoff and however small the move (C216_violated). When the atoms stay inside the cell the claim holds with explicit constants (C216_stable_partial)."
  },
  {
   "property": "C217",
   "status": "proved",
   "theorems": [
    "MaterSDK.C217_labels",
    "MaterSDK.C217_counts"
   ],
   "note": "Proved without hypotheses, for exact arithmetic and any rounding."
  },
  {
   "property": "C218",
   "status": "proved",
   "theorems": [
    "MaterSDK.C218_agree"
   ],
   "note": "Proved. The cell must be one the neighbour list handles (`CellOk`) and no two atoms may be closer than the tolerance of the code; the list of elements has no repetition and covers the structure."
  },
  {
   "property": "C219",
   "status": "proved",
   "theorems": [
    "MaterSDK.C219_agree"
   ],
   "note": "Proved. The only hypothesis is that the relative positions belong to the positions (`RelOf`), which includes that the positions of the centres and of the listed neighbours exist."
  },
  {
   "property": "C220",
   "status": "proved",
   "theorems": [
    "MaterSDK.C220_rows",
    "MaterSDK.C220_accuracy"
   ],
   "note": "Proved. As in C188, doubles have no overflow or underflow, and std::pow and std::sqrt round correctly. The exact derivatives are those of C194."
  },
  {
   "property": "C221",
   "status": "proved",
   "theorems": [
    "MaterSDK.C221_pair",
    "MaterSDK.C221_values",
    "MaterSDK.C221_derivatives",
    "MaterSDK.C221_fill_values",
    "MaterSDK.C221_fill_derivatives"
   ],
   "note": "Proved for the static functions: those that allocate their result and those that fill an array of the caller, whatever its size and contents. As in C188, doubles have no overflow or underflow, and std::pow and std::sqrt round correctly. The exact values are those of C134."
  },
  {
   "property": "C222",
   "status": "proved",
   "theorems": [
    "MaterSDK.C222_normalized"
   ],
   "note": "Proved for equal centre and neighbour element lists (otherwise C31). The averages and deviations are any given doubles with positive deviations; how calc_stats computes them is C30, where also a deviation that is not a number occurs (C30_double_nan). Rounding, storing of coordinates and the bounds before normalisation as in C209."
  },
  {
   "property": "C223",
   "status": "proved",
   "theorems": [
    "MaterSDK.C223_average",
    "MaterSDK.C223_deviation",
    "MaterSDK.C223_floor",
    "MaterSDK.C223_no_samples",
    "MaterSDK.C223_violated_constant"
   ],
   "note": "Proved. C223_floor: every deviation that is a number is above 1/101, which is the hypothesis on the deviations in C222. No overflow and no underflow. The constants 176 and 9616 are not the best possible ones. The exact statistics are C30, the use of the deviations C222."
  },
  {
   "property": "C224",
   "status": "proved",
   "theorems": [
    "MaterSDK.C224_values",
    "MaterSDK.C224_at_rest",
    "MaterSDK.C224_zero_iff",
    "MaterSDK.C224_errors"
   ],
   "note": "Proved. No overflow and no underflow; np.power(x, 2) is x * x rounded once. Coordinates are the ones the structures hold. At least three processors, as in C56, which has the exact values."
  }
 ]
}
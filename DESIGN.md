# Formal model of MaterSDK: design

## Trusted base

* The Lean 4.33.0 kernel. `vcheck` replays every module.
* Axioms: every theorem depends on at most `propext`, `Classical.choice` and `Quot.sound`. There are no
  own axioms, no `sorry`, no `native_decide` and no `bv_decide`.
* Mathlib definitions used in statements (reals, matrices, limits, derivatives, permutations).
* The model. It is a hand translation of the Python and C++ text in `/repo`; nothing in `/repo` is executed. Every
  definition cites file and lines.
* The contracts of library functions whose result is not determined: `ArgSort` (numpy `argsort`,
  unstable), `QR` (`np.linalg.qr`), `SetOrder` (`list(set(...))`), `NuSort` (`std::sort`). They are structures, so theorems hold for
  every function that meets the contract; each is inhabited.

## Layout

* `lean/Verif/Py`      Python and numpy behaviour: strings, slices, number parsing and printing, errors.
* `lean/Verif/Model`   models, function by function.
* `lean/Verif/Spec`    independent specifications used in the statements.
* `lean/Verif/Lemmas`  helper lemmas.
* `lean/Verif/Props`   the property theorems, each with a concrete example that meets its hypotheses.
  `Props/Instances.lean` applies the theorems with the most hypotheses to one cell and its supercell.
* `seeded/LOG.jsonl`   mutation tests: realistic bugs put into the model and the theorems that failed.

## Global simplifications

* C++ assertions, exceptions, undefined behaviour and accesses outside arrays are values of `Except CErr`.
* Exceptions are values of `Except PyErr`. Which class of exception is raised is modelled; its text is not.
* `float` is an exact rational (parsing, printing, tables) or real (geometry, calculus). Rounding of binary
  floating point is outside the model, except in `Model/Float64`, used for C30.
* NaN and infinities are `none` where the code can produce them and nothing else is done with them.
* Text is ASCII, rows end with `\n`.
* `int` and `float` of a text reject `inf`, `nan` and digits grouped by `_`, which Python accepts.
* pymatgen's `Structure` is a lattice and a list of sites. Its element table is taken to be the table of
  parameters.py for 1..118.
* `linecache` is a dictionary filled by the first read of a path.
* Process pools run their tasks in order.
* Ragged `np.array` input raises `ValueError` (numpy 1.24 and later).

## Code that is modelled

| file (under /repo/matersdk) | model |
|---|---|
| io/pwmat/utils/lineLocator.py | `Model/Locator` |
| io/pwmat/utils/parameters.py | `Model/Elements` |
| io/pwmat/utils/acextractor.py | `Model/ACExtractor` |
| io/pwmat/utils/mvextractor.py | `Model/Movement`, `Model/Trajectory` |
| io/pwmat/output/movement.py | `Model/Movement`, `Model/Trajectory` |
| io/pwmat/output/report.py, outfermi.py | `Model/Report` |
| io/pwmat/output/dostotalspin.py, fatabandstructureTxt.py | `Model/Dos` |
| io/pwmat/input/inkpt.py | `Model/Kpoints` |
| io/publicLayer/structure.py | `Model/StructIO`, `Model/Structure` |
| io/publicLayer/neigh.py | `Model/Neigh`, `Model/Infer`; in doubles `Model/NeighD` |
| abstract methods in io/publicLayer/traj.py, neigh.py, acextractor.py, movement.py; constructors in feature/avg/avgbond.py | `Model/AbstractClass` |
| feature/deepmd/*.py | `Model/DeepMD`, `Model/DeepMDD`, `Model/DeepMDNormD` and `Model/NormStatsD` (the same in doubles), `Model/NormFile` (`to`, `from_file`), `Model/NormBuild` (`from_dp_labeled_system`) |
| infer/pwmatmlff/deepmd/preprocess.py, inference.py (`_preprocess`) | `Model/Infer` |
| infer/pwmatmlff/deepmd/extractor.py | `Model/Extractor` |
| data/struct_collection.py (`save_all_info` up to its first failing call, maxima), adalearn/generator/perturbation.py (`batch_perturb`), kmesh.py (`__init__`) | `Model/Batch` |
| feature/avg/*.py, feature/graph/edge.py | `Model/Averages`, `Model/MsdD` (displacements in doubles) |
| data/infoset.py, infosets.py, struct_collection.py | `Model/Dataset` |
| data/struct_collection.py (objects, slices, export), structure.py (`get_atomic_force`, `get_atomic_energy`) | `Model/Collection` |
| kpathSampler.py (texts), inkpt.py (weights, labels, Bohr), dos_input.py, gen_vext.py, report.py (`get_in_atom`) | `Model/KptFile` |
| calculation/kpoints/kmesh.py, kpath/kpathSampler.py | `Model/Kpoints` |
| adalearn/generator/perturbation.py | `Model/Perturb` |
| hpc/slurm/job.py | `Model/Dos` |
| ../source/nblist/include/{structure,binLinkedList,neighborList}.h | `Model/CellList`; in doubles `Model/CellListD` |
| the same headers: construction, copying, assignment, destruction | `Model/StructObj` |
| ../source/nblist/src/CpuNeighborList.cc (`Voxels`; commented out in its CMakeLists.txt) | `Model/Voxels` |
| ../source/nblist/bind/nblist_bind.cc | `Model/Bind` |
| ../source/descriptor/deepmd/include/{se,envMatrix,se4pw}.h | `Model/EnvMatrix`; in doubles `Model/EnvMatrixD`, `Model/Se4pwD`, `Model/TildeRD` |
| ../source/descriptor/deepmd/test/demo_se4pw.cc (lines 113-151: from a neighbour list to the arguments of `Se4pw`) | `Model/Se4pwInput` |
| ../source/descriptor/deepmd/src/{envMatrixOp,se4pw_op}.cc | `Model/EnvOp` |
| ../source/descriptor/deepmd/include/se.h (`PairTildeR`, `TildeR`) | `Model/TildeR` |
| the same: construction, copying, assignment, destruction of `TildeR` | `Model/TildeRHeap` |
| the same: memory used by the static functions of `TildeR` | `Model/TildeRMem` |
| ../source/core/include/arrayUtils.h | `Model/ArrayUtils` |
| ../source/core/include/AlignedArray.h | `Model/AlignedArray` |
| ../source/core/include/vecx.h | `Model/Vec3` (without `operator<<`) |
| infer/pwmatmlff/deepmd/inference_depre.py 69-138 | `Model/FFInfer` |
| factories in io/publicLayer/neigh.py, feature/deepmd/{premise,se_pair,se}.py | `Model/Factory` |
| ../source/descriptor/mtp/include/mtpMRadial_de.h | `Model/RbcRadial` |
| ../source/descriptor/mtpr/include/basis.h, mtp/include/mtpMRadial.h: construction, copying, moving, assignment, destruction | `Model/BasisHeap` |
| ../source/descriptor/mtpr/include/basis.h, mtp/include/mtpMRadial.h, mtp/src/mtpMRadialOp.cc | `Model/MtpRadial` |
| ../source/descriptor/mtp/src/mtpLevel.cc, mtp/include/level.h | `Model/MtpLevel` |
| ../source/descriptor/mtp/src/{mtpMAngularOp,mtpMModule,mtpBModule}.cc, core/include/vec3Operation.h | `Model/MtpMoment` |
| ../source/descriptor/mtpr/src/mtpParam.cc | `Model/MtpParam` |

Not modelled: the network itself (torch), pymatgen itself (symmetry, k-path tables, other file formats), hdf5 and
npy byte layouts, process management, reference counts and argument conversion of the bindings, the scripts in demo/,
and the thin wrappers `KPointsSampler`, `DOutcar`, `DMolecule`, `Atom` and `getNumProcessorsOnln`, which only hand on
what pymatgen or the operating system returns. Copying and freeing of C++ objects is modelled for MtpParam, TildeR,
the neighbour list classes, the radial basis classes and AlignedArray only.

## Disagreements found between code, documentation and properties

Violations that are the subject of a property are listed there ("Violated" in its entry). Further ones:

* `Movement` does not define two of the abstract methods of `Trajectory`, so no object can be made (C197). The
  properties of its methods are those of objects of a derived class.
* feature/deepmd/preprocess.py imports data/deepmd/data_system.py, which is not in the repository. Importing it, or
  infer/pwmatmlff/deepmd/{preprocess,inference,inference_depre}.py, is a `ModuleNotFoundError`. The name is only used
  in annotations; C30, C31, C118 - C120 and C177 take the code without this import.
* At distance exactly `rcut` the derivative block is 0 while the environment row is `(1/rcut, ...)` (C25, C27).
* A requested width 0 with a real width of 1 silently drops the neighbours (numpy broadcasting, C26).
* The docstring of `get_natoms` gives another order than the code (C15).
* `se.py` returns a flat vector, pair block after pair block; the documentation describes a matrix (C29).
* `TildeRNormalizer.normalize` loops over the centre elements where the neighbour elements are meant (C31).
* In doubles the variance of three equal weights 0.1 is negative, so the deviation is NaN (C30).
* Spin-polarised REPORT files are always rejected with numpy >= 1.25, and with one or two bands on any
  version (C36). setup.py asks for numpy >= 1.23.5.
* `raise("text")` is a `TypeError`, not the intended exception (C34).
* For a metal `get_bandgap` subscripts `None` (C32).
* Step 5 of `get_cbm`/`get_vbm` uses the one-based k-point as a zero-based index (C68).
* `linecache` is never cleared: acextractor.py, report.py, outfermi.py and inkpt.py all read stale rows
  after a file is rewritten (C09, C66).
* The embedding loop of `save_hdf5_file` runs over the number of fitting layers (C121).
* `save_all_info`, `batch_perturb` and the constructor of `KMesh` pass keywords their callees do not have and
  raise `TypeError` on every input (C123-C125). `save_all_info` empties the folder of frame 0 first.
* `mp.Pool(os.cpu_count()-2)` raises on machines with one or two processors (C126, C127).
* Copy assignment of every neighbour list class destroys the object in `x = x` (C128, C130).
* `BasicStructureInfo::operator=` has no `return`, which is undefined behaviour in every constructor of
  `Supercell`; the model takes the call to come back (C130, C131).
* `make_supercell` leaks with a factor 0 and is undefined on an empty structure (C129).
* `get_kmesh` accepts negative densities and returns negative divisions (C49).
* `output_gen_kpt` uses `*` (elementwise) where a matrix product is meant (C51).
* A k-path jump is any two adjacent labelled rows, even if they are neighbours on one path (C37).
* A two-dimensional system without paths reads an unbound variable (C50).
* `_get_adjacent_matrix` asserts `x / 2 != 0` where `x % 2` is meant (C76).
* In doubles the cosine of a vector with itself may exceed 1; the NaN angle is then dropped (C55).
* `perturb` with `pert_num <= 0` returns `[]` even for negative amplitudes (C52).
* `get_virial` needs the word STRESS in every lattice row, `get_frame_virial` only three more numbers (C45).
* The slurm writer forgets line ends and writes `None` (C59, C81).
* The C++ neighbour list uses `pbc_xyz[p]` both for lattice vector `p` and for Cartesian axis `p` (C82).
* `find_info4mlff` returns atomic numbers as `types`; the environment-matrix operator uses them as indices.
* nblist_bind.cc sets the ownership flag of `numneigh` twice and never that of `firstneigh` (C133). It ignores
  strides and integer types (C132); the checks were commented out.
* `EnvMatrixFunction::backward` (envMatrixOp.cc) returns only undefined tensors, so no gradient reaches the
  coordinates; the derivatives of C91 are handed out but not used by autograd (C156).
* In se4pw_op.cc the results of `ilist.to(int_dtype)` and similar conversions are discarded (C154).
* EnvMatrixOp sizes its result by the first row of `umax_num_neigh_atoms_lst` (C151).
* The copy and move assignments of RB_Chebyshev, RQ_Chebyshev, SwitchFunction, MtpQ and others lack `return`
  (undefined behaviour); copying a default-constructed RQ_Chebyshev dereferences a null pointer.
* With `rcut_smooth <= 0` padding rows contribute to the moments with nu = 0 (C106).
* In MtpMModule::forward padding rows use the type of the last atom (torch indexing with -1).
* The comment of MtpSwitchFunc2 promises 1 below `rcut_smooth`; the code returns 0 (C98).
* The move assignment of MtpParam lacks `return`; a constructor that throws while loading leaks its tables;
  loading twice into one object leaks the first tables.
* The static functions of TildeR index `numneigh` and `firstneigh` by the position in `ilist`; LAMMPS indexes them
  by the atom. They agree only if `ilist` is the identity (C134).
* The copy constructor of TildeR uses `malloc(sizeof(this->num_center_atomic_numbers))`, four bytes for any number
  of elements (C138). Its destructor and assignment test `num_center_atomic_numbers` and
  `num_neigh_atomic_numbers` separately or together, so that objects with one kind of elements leak or are freed
  twice (C139).
* `TildeR::deriv` into an array of the caller leaks two blocks per call (C142).
* RadialBasisChebyshev has no destructor (C145); its `hmju` is a signed int and never checked (C144).
* Several `operator=` of basis.h and mtpMRadial.h end without `return`; this is undefined behaviour in C++, taken
  here as coming back (C146 - C150).
* `RQ_Chebyshev::operator=` and its copy constructor use `*(rhs._rb_ptr)` without a test for null (C147); the default
  constructor of MtpQ leaves its pointers without a value (C149).
* struct_collection.py: `collection[i]` and loops always raise; `print(collection)`, `to` and
  `get_atomic_force` raise for every structure read from a file, because no reader sets the site
  properties they need (C158, C160); `to` removes the old folder before it can fail (C162).
* inkpt.py reads `iflag` and never uses it: Cartesian k-points are taken for fractional ones (C167).
* The Python neighbour table keeps atoms at distance exactly `rcut`, the C++ list drops them; the Python weight is
  then `1/rcut` instead of 0 (C25, C171).
* `MtpMCoeffPair::operator=` and `MtpMCoeffPairCombs::operator=` (mtpLevel.cc 44-48, 96-100) have no `return`;
  `std::sort` in `get_all_schemes4lev` uses the former.
* If `resize` of an AlignedArray runs out of memory, the object keeps a pointer to the block it has given back, and
  its destructor frees it again (C174 stops at the first `bad_alloc`).
* `MtpBModule` on the tables of `find_info4mlff`: padding rows have position 0 and are only ignored because the
  distance 0 is below `rcut_smooth`. With `rcut_smooth = 0` every padding row counts as a neighbour (C181).
* Python `str.split` and `strip` also take the characters 0x1c - 0x1f for white space and text files translate
  `\r\n`; neither is modelled.
* CpuNeighborList.cc does not compile (`VoxelIndex` has private members and no matching constructor) and is commented
  out in CMakeLists.txt. It assigns voxelSizeY twice and never adjusts voxelSizeZ (C191).

## Properties

Each entry: what is modelled, how it is proved, what is missing, and the theorems. "Violated" means
that the code does not have the property; the negation is then proved on a concrete input, together
with the part of the claim that does hold (suffix `_partial`).

### C01 MOVEMENT frames partition the trajectory file (proved)

* Model: `Model/Movement` (mvextractor.py, movement.py), `Model/Locator`
* Proof: induction over the rows; the specification is the unique list of texts that each end with their only separator row.
* Result: MOVEMENT opened by Movement or MVExtractor; cut into frames is the unique cut at separator rows. Movement is abstract (C197); its methods are those of objects of a derived class.
* Theorems: `C01_movement_partition`, `C01_mvextractor_partition`, `C01_no_separator_rejected`

### C02 Random access and sequential reading give the same frame (proved)

* Model: `Model/Movement` (mvextractor.py, movement.py), `Model/Locator`
* Proof: the prefix sums of the chunk sizes are the start rows; induction over the chunks.
* Result: Random access equals sequential reading; indices past the end raise IndexError. Movement is abstract (C197); its methods are those of objects of a derived class.
* Theorems: `C02_movement_random_eq_sequential`, `C02_mvextractor_random_eq_sequential`

### C03 Row locators are sound, complete and ordered (proved)

* Model: `Model/Locator` (lineLocator.py)
* Proof: induction over the rows with the running counter generalised.
* Result: Locators characterised by membership and strict order.
* Theorems: `C03_line_locator`, `C03_list_locator`, `C03_locators_offset`

### C04 A search string with a lower-case letter is never found (proved)

* Model: `Model/Locator`, `Py/Str`
* Proof: an upper-cased row has no lower-case letter, so the text cannot be a part of it.
* Result: Holds for every row list.
* Theorems: `C04_lowercase_never_found`

### C05 Element symbol and atomic number tables are inverse bijections (proved)

* Model: `Model/Elements` (parameters.py), transcribed
* Proof: kernel evaluation over the two finite tables, lifted to all numbers and symbols.
* Result: Tables compared with an independently written periodic table.
* Theorems: `C05_specieOf`, `C05_numberOf`, `C05_inverse`, `C05_injective`

### C06 Reading an atom.config returns what the file says, positionally (proved)

* Model: `Model/ACExtractor` (acextractor.py)
* Proof: unfolding along the error monad; rows are described by an independent "first row containing" specification.
* Result: Every text; error branches (missing block) covered.
* Theorems: `C06_read_positional`, `C06_coordinate_layout`, `C06_missing_block_is_error`

### C07 Write then read of an atom.config is faithful to the printed precision (proved)

* Model: `Model/StructIO` (structure.py 27-180), `Model/ACExtractor`, `Py/Str` (number formatting)
* Proof: printing and parsing of decimals are inverse up to half a unit of the last digit; text is split back into its tokens.
* Result: Structures of real elements (1..118); the vacancy symbol is written with number 0, which pymatgen refuses on reading.
* Theorems: `C07_write_read_roundtrip`

### C08 Magnetic moments survive write and read (proved)

* Model: `Model/StructIO` (structure.py 27-180), `Model/ACExtractor`
* Proof: as C07, for the block of moments.
* Result: Moments within 0.005, no block gives zeros, missing property is KeyError.
* Theorems: `C08_magmoms_roundtrip`, `C08_no_block_zeros`, `C08_missing_property_is_error`

### C09 Re-reading a rewritten file returns the new content (partial)

* Model: `Model/StructIO` (structure.py 27-180), `Model/ACExtractor`; `World` holds files and the line cache
* Proof: symbolic execution of two reads around a write. Exact form: the reader run on the cached rows of the first structure and the rows of the second.
* Result: Violated: linecache keeps the first read's rows. Proved: first read and unchanged re-read are right; general stale-read theorem and concrete violation. C09_reread_exact: what the second read gives for every pair of structures, and exactly when it is what was written.
* Theorems: `C09_reread_exact`, `C09_first_read_partial`, `C09_reread_unchanged_partial`, `C09_stale_after_rewrite`, `C09_reread_violated`

### C10 Sorting by element keeps sites intact (proved)

* Model: `Model/Structure` (structure.py 183-636)
* Proof: insertion sort is a permutation, sorted and stable.
* Result: In-place sort by atomic number: permutation, order, stability, idempotence.
* Theorems: `C10_reformat_elements_inplace`

### C11 Reordering by a list of elements moves positions together with species (partial)

* Model: `Model/Structure` (structure.py 183-636)
* Proof: unfolding; counterexample with two atoms. Exact form: the positions keep their order, so equal sets of sites with distinct positions force equal species lists.
* Result: Violated: reformat_elements reorders species and magnetic moments but not positions. Proved: exactly what it does, and correctness when the structure is already ordered. C11_holds_iff: for distinct positions it holds iff the elements were in the requested order already.
* Theorems: `C11_holds_iff`, `C11_positions_do_not_travel`, `C11_species_reordered_positions_fixed`, `C11_already_ordered_partial`

### C12 Odd supercells contain every lattice translate exactly once (proved)

* Model: `Model/Structure` (structure.py 183-636)
* Proof: the ravelled grid is the box of integer triples; the zero shift is moved to the front.
* Result: Odd factors: exact multiset of translated copies, site count and sorted variant; even or non-positive factors are an AssertionError.
* Theorems: `C12_odd_supercell`, `C12_site_count`, `C12_even_rejected`, `C12_sorted_variant`

### C13 Key indices locate the primitive cell inside the sorted supercell (proved)

* Model: `Model/Structure` (structure.py 183-636)
* Proof: stability of the sort and the permutation of indices.
* Result: Key indices are the primitive atoms in the sorted supercell, in sorted order.
* Theorems: `C13_key_idxs`

### C14 Removing vacancies removes only vacancies (partial)

* Model: `Model/Structure` (structure.py 183-636)
* Proof: induction over the removal rounds.
* Result: Violated: indices shift while removing. Proved: correct exactly when the loop hits no shifted vacancy; single-vacancy case.
* Theorems: `C14_correct_iff`, `C14_single_vacancy_partial`, `C14_removes_atoms`

### C15 Atom counts are complete (proved)

* Model: `Model/Structure` (structure.py 183-636)
* Proof: counts over the list of distinct elements.
* Result: Counts sum to the number of atoms; explicit element order respected.
* Theorems: `C15_counts_complete`, `C15_explicit_order`

### C16 Periodic images map back to their primitive atom (proved)

* Model: `Model/Structure` (structure.py 183-636)
* Proof: linear algebra with the inverse lattice; rounding within the tolerance.
* Result: Over any ordered field; singular lattices are an error.
* Theorems: `C16_image_maps_back`, `C16_zero_means_none`, `C16_singular_rejected`

### C17 The neighbour table lists exactly the atoms within the cutoff (proved)

* Model: `Model/Neigh` (neigh.py), `Model/Structure`
* Proof: from the contract of argsort: taking the first n of a sorted permutation gives exactly the entries within the cutoff.
* Result: Any argsort meeting numpy's contract; real distances.
* Theorems: `C17_table_exact`

### C18 The first neighbour entry is the centre itself (proved)

* Model: `Model/Neigh` (neigh.py), `Model/Structure`
* Proof: the only distance 0 is the centre.
* Result: Needs that no two supercell atoms coincide (follows from Separated, see supercell_nodup).
* Theorems: `C18_first_entry_is_centre`

### C19 A large enough supercell misses no periodic neighbour (proved)

* Model: `Model/Neigh` (neigh.py), `Model/Structure`
* Proof: plane distances bound the integer shift (Cauchy-Schwarz).
* Result: Infinite crystal over Z^3; also stated for the rows of the table.
* Theorems: `C19_supercell_complete`, `C19_table_complete`

### C20 The reported maximum neighbour count bounds every centre (partial)

* Model: `Model/Neigh` (neigh.py), `Model/Structure`
* Proof: comparison of the strict and the non-strict count. The exact condition compares the two maxima, by C17_table_exact and maxNum_spec.
* Result: Violated at distances equal to the cutoff (count uses <, table uses <=). Proved when no atom sits exactly at the cutoff. C20_bounds_iff: the bound holds iff no centre has more atoms at distance at most r than some centre has strictly closer than r.
* Theorems: `C20_bounds_iff`, `C20_max_exact`, `C20_bounds_table_partial`, `C20_bound_violated`

### C21 Per-element maxima are exact and consistent with the total (proved)

* Model: `Model/Neigh` (neigh.py), `Model/Structure`
* Proof: counts per element against the total count.
* Result: Per-element maxima are exact, bounded by the total maximum and add up to at least it.
* Theorems: `C21_element_maxima`

### C22 Padding in the neighbour index list is never an atom (partial)

* Model: `Model/Neigh` (neigh.py), `Model/Structure`
* Proof: padding coordinates are 0; C16 is applied to every entry. Exact form from `nbrsIndices_spec`, which knows the padding.
* Result: Violated when an atom sits on a lattice point: padding slots become that atom. Proved when none does; too small a width is an error. C22_exact: for every structure, the rows with their padding, and the exact condition for the padding to be 0.
* Theorems: `C22_indices_partial`, `C22_padding_is_atom`, `C22_exact`

### C23 Feature pairs contain exactly the requested element's neighbours (proved)

* Model: `Model/DeepMD` (premise.py, se_pair.py, se.py, preprocess.py), `Model/Neigh`
* Proof: filtering of the neighbour row, combined with C17 and C18.
* Result: Rows of extract_feature_pair: exact multiset, sorted, padded; tables without columns are an IndexError.
* Theorems: `C23_table`, `C23_no_columns`, `C23_structure`

### C24 The smooth weight is bounded, non-negative and monotone (proved)

* Model: `Model/DeepMD` (premise.py, se_pair.py, se.py, preprocess.py), `Model/Neigh`
* Proof: sign of the derivative of the switching polynomial.
* Result: The code's weight equals the DeepPot-SE weight below the cutoff.
* Theorems: `C24_weight`

### C25 The smooth weight vanishes continuously at the cutoff (partial)

* Model: `Model/DeepMD` (premise.py, se_pair.py, se.py, preprocess.py), `Model/Neigh`
* Proof: limits of the polynomial; value at the cutoff. Exact form: beyond the cutoff the weight is 1/r.
* Result: Violated: at the cutoff the weight is 1/rcut instead of 0 (proved, and for an atom at the cutoff). Proved continuous below the cutoff. C25_exact: continuous exactly away from the cutoff, positive everywhere.
* Theorems: `C25_below_partial`, `C25_at_cutoff`, `C25_atom_at_cutoff`, `C25_exact`

### C26 Environment-matrix rows are weight times unit vector (proved)

* Model: `Model/DeepMD` (premise.py, se_pair.py, se.py, preprocess.py), `Model/Neigh`
* Proof: unfolding and C23.
* Result: Rows of the environment matrix of a structure, norms, and the error for widths that are too small.
* Theorems: `C26_structure`, `C26_norm`, `C26_too_small`

### C27 Reported derivatives are the true derivatives (proved)

* Model: `Model/DeepMD` (premise.py, se_pair.py, se.py, preprocess.py), `Model/Neigh`
* Proof: Mathlib derivative calculus for each of the twelve entries.
* Result: The twelve hand-written partial derivatives are the Frechet derivative with respect to the centre position.
* Theorems: `C27_derivative`, `C27_structure`, `C27_padding`

### C28 Environment matrix respects translation and rotation (proved)

* Model: `Model/DeepMD` (premise.py, se_pair.py, se.py, preprocess.py), `Model/Neigh`
* Proof: distances are invariant; the map on tables commutes with sort and filter.
* Result: Any orthogonal matrix and translation, through supercell, neighbour table and environment matrix.
* Theorems: `C28_rigid_motion`, `C28_translation`

### C29 Whole-structure environment matrix places each pair block at its fixed slot (partial)

* Model: `Model/DeepMD` (premise.py, se_pair.py, se.py, preprocess.py), `Model/Neigh`
* Proof: offsets of a flattened list of blocks.
* Result: Violated for se.py: the result is a flat vector, pair block after pair block (exact offsets and counterexample proved). Proved for TildeRNormalizer.normalize with equal element lists.
* Theorems: `C29_flat_partial`, `C29_not_row_major`, `C29_normalizer`

### C30 Normalisation never divides by (nearly) zero and is invertible (partial)

* Model: `Model/DeepMD` (premise.py, se_pair.py, se.py, preprocess.py), `Model/Neigh`, `Model/Float64` for the rounding counterexample
* Proof: Cauchy-Schwarz for the variance; kernel evaluation of rounded arithmetic for the violation.
* Result: Proved in exact arithmetic. Violated in doubles: three equal weights 0.1 give a negative rounded variance, hence NaN (proved with a model of rounding). feature/deepmd/preprocess.py imports the missing module data/deepmd/data_system.py (for an annotation); the code is taken without this import.
* Theorems: `C30_floor`, `C30_number_iff`, `C30_samples_partial`, `C30_invertible`, `C30_average`, `C30_double_nan`

### C31 The full normaliser covers every neighbour element of every centre (partial)

* Model: `Model/DeepMD` (premise.py, se_pair.py, se.py, preprocess.py), `Model/Neigh`
* Proof: membership in the dictionary built by the first loop.
* Result: Violated: the second loop runs over the centre elements; other neighbour elements are dropped, and a centre element outside the neighbour list is a KeyError. Exact coverage proved. C31_all_columns_iff: the rows have columns for all neighbour elements iff both lists name the same elements. feature/deepmd/preprocess.py imports the missing module data/deepmd/data_system.py (for an annotation); the code is taken without this import.
* Theorems: `C31_covers_partial`, `C31_not_all_neighbours`, `C31_key_error`, `C31_all_columns_iff`

### C32 Conduction-band minimum is the minimum above the Fermi level (proved)

* Model: `Model/Report` (report.py, outfermi.py)
* Proof: the fold keeps the rounded extremum; rounding is monotone.
* Result: Every table; exact arithmetic with round-half-even. Metals give None and then TypeError.
* Theorems: `C32_cbm`, `C32_vbm`, `C32_metal`

### C33 The band gap is non-negative (proved)

* Model: `Model/Report` (report.py, outfermi.py)
* Proof: C32 and monotone rounding.
* Result: Every readable run; the Fermi energy is always rounded to 3 decimals by the code.
* Theorems: `C33_gap`

### C34 A system is called metallic iff some band crosses the Fermi level (proved)

* Model: `Model/Report` (report.py, outfermi.py)
* Proof: unfolding against a statement over bands and k-points.
* Result: Exact iff, with the tolerance 1e-4 of the code; missing OUT.FERMI is a TypeError.
* Theorems: `C34_metal`, `C34_no_fermi`

### C35 Direct gap is reported iff the band edges share a k-point (proved)

* Model: `Model/Report` (report.py, outfermi.py)
* Proof: unfolding of the reported lists.
* Result: The reported k-points. Degenerate edges are the subject of C67.
* Theorems: `C35_type`

### C36 Eigen-energy blocks are assigned to the right k-point and spin (partial)

* Model: `Model/Report` (report.py, outfermi.py)
* Proof: parsing of a generated REPORT text for arbitrary tables.
* Result: Violated for two spins with numpy >= 1.25 or with one or two bands (ValueError from a wrong assertion), proved. Proved without spin, and with two spins for older numpy and three or more bands. C36_two_spins_iff: exactly when the two-spin table is returned.
* Theorems: `C36_two_spins_iff`, `C36_one_spin`, `C36_two_spins_partial`, `C36_two_spins_error`, `C36_missing`

### C37 k-path distances start at zero and never decrease (proved)

* Model: `Model/Kpoints` (inkpt.py, kmesh.py, kpathSampler.py)
* Proof: prefix sums of non-negative distances; the join removes the jump.
* Result: Every file and lattice: exact acceptance condition, exact step at and between labels. A jump is what the code takes for one: two adjacent labelled rows.
* Theorems: `C37_accepts`, `C37_distances`, `C37_bohr`

### C38 Exported dataset parts partition the frames (proved)

* Model: `Model/Dataset` (infoset.py, infosets.py, struct_collection.py), `Model/Trajectory`
* Proof: arithmetic of the part bounds; slices concatenate.
* Result: Every part size >= 1, all arrays; size 0 and existing folders are errors. Negative sizes (outside the range) lose everything silently, proved. C38_names: the folders are numbered from 0 in order and have different names.
* Theorems: `C38_parts`, `C38_files`, `C38_default_single_part`, `C38_rejected`, `C38_negative_size_loses_everything`, `C38_part_names`, `C38_names`

### C39 Exported structure-collection sets partition the frames (proved)

* Model: `Model/Dataset` (infoset.py, infosets.py, struct_collection.py), `Model/Trajectory`
* Proof: as C38 for the sets.
* Result: Every set size >= 1, all arrays with the same bounds; size 0 is an error. Needs sites with force and atomic energy, which no reader of the package sets (C160). C39_names: the folders are numbered from 0 in order and have different names.
* Theorems: `C39_sets`, `C39_zero_rejected`, `C39_negative_size_loses_everything`, `C39_names`

### C40 Type indices decode to the original atomic numbers (partial)

* Model: `Model/Dataset` (infoset.py, infosets.py, struct_collection.py), `Model/Trajectory`
* Proof: index in a list without repetitions is inverse to look-up. Exact form: the keys of the composition are the symbols in order of first occurrence, and a key is at the place of its first occurrence iff nothing before is repeated.
* Result: Violated for lists of numbers with repetitions and for StructCollection.to (type_map.raw holds indices). Proved for lists without repetitions and for the default. C40_decodes_iff: for every given list, an index decodes to the atom's element iff no number before its place in the list is repeated.
* Theorems: `C40_types_decode_partial`, `C40_missing_number_rejected`, `C40_duplicates_violated`, `C40_collection_type_map_violated`, `C40_decodes_iff`

### C41 Merging trajectories conserves frames (proved)

* Model: `Model/Dataset` (infoset.py, infosets.py, struct_collection.py), `Model/Trajectory`
* Proof: filter by formula keeps order; sums over groups; formula text is injective on compositions.
* Result: Groups are concatenations in order; frames conserved; equal formula iff equal composition.
* Theorems: `C41_groups`, `C41_formula_is_composition`

### C42 Every merged group carries its own composition (partial)

* Model: `Model/Dataset` (infoset.py, infosets.py, struct_collection.py), `Model/Trajectory`
* Proof: unfolding; concrete trajectories for the violation.
* Result: Violated: merged groups get the composition of the last trajectory read. C42_composition_partial: right exactly for groups with one member or containing the last one.
* Theorems: `C42_stale_composition_violated`, `C42_composition_partial`

### C43 Selecting frames by index returns those frames (proved)

* Model: `Model/Dataset` (infoset.py, infosets.py, struct_collection.py), `Model/Trajectory`
* Proof: pointwise along the error monad.
* Result: Collections with one entry per frame in every array; out of range and empty index lists are errors.
* Theorems: `C43_selects`, `C43_rejected`, `C43_virial_replaced`

### C44 Energies parsed by the different readers agree (partial)

* Model: `Model/Trajectory`, `Model/Movement`, `Model/ACExtractor`
* Proof: tokens of a generated header row.
* Result: Frame-level agreement of the three energy readers for every header in the current format. Missing: get_all_frame_structures_info as a whole always raises (from_str), proved. Movement is abstract (C197); its methods are those of objects of a derived class.
* Theorems: `C44_energies_agree_partial`, `C44_get_frame_energy_partial`, `C44_all_frames_reader_raises`, `C44_old_format_rejected`

### C45 Virials stay aligned with their frames (partial)

* Model: `Model/Trajectory`, `Model/Movement`, `Model/ACExtractor`
* Proof: pointwise along the frames.
* Result: Violated for the list built by get_all_frame_structures_info. Proved for MVExtractor and get_frame_virial. Movement is abstract (C197); its methods are those of objects of a derived class.
* Theorems: `C45_mvextractor_aligned_partial`, `C45_missing_stress_raises`, `C45_get_frame_virial_partial`, `C45_all_frames_list_shifted`

### C46 Forces are the file's forces or an error (partial)

* Model: `Model/Trajectory`, `Model/Movement`, `Model/ACExtractor`
* Proof: unfolding of both branches. Exact form: the body of the try succeeds iff all words are readable and the rows are equally long.
* Result: Violated: malformed blocks give zeros, proved in general and concretely. Proved for well-formed blocks. C46_exact: what is returned for every text; C46_short_rows_violated: rows that all lack their third number give an array of 2 n numbers.
* Theorems: `C46_exact`, `C46_short_rows_violated`, `C46_forces_read_partial`, `C46_malformed_gives_zeros`, `C46_malformed_violated`

### C47 Magnetic moments of a frame are retrievable (partial)

* Model: `Model/Trajectory`, `Model/Movement`, `Model/ACExtractor`
* Proof: list + int raises on every input.
* Result: Violated on every frame: get_magmoms always raises AttributeError.
* Theorems: `C47_magmoms_never_returned`, `C47_no_magmoms_array`, `C47_magmoms_violated`

### C48 Loading a structure from a trajectory frame string succeeds (partial)

* Model: `Model/StructIO` (structure.py 27-180), `Model/ACExtractor`
* Proof: missing attributes on every input.
* Result: Violated for every text: from_str always raises AttributeError.
* Theorems: `C48_from_str_never_succeeds`, `C48_from_str_violated`

### C49 k-mesh divisions are at least one (partial)

* Model: `Model/Kpoints` (inkpt.py, kmesh.py, kpathSampler.py)
* Proof: rounding of non-negative numbers. Negative densities: Python rounding of minus x is 0 iff x is at most 1/2.
* Result: Violated for negative densities (negative divisions). Proved for all densities >= 0, with the exact rounding. C49_negative_exact: the mesh for a negative density, and exactly when its divisions are still positive.
* Theorems: `C49_zero`, `C49_mesh_partial`, `C49_rejects`, `C49_negative`, `C49_negative_exact`

### C50 Two-dimensional k-paths only use existing in-plane points (proved)

* Model: `Model/Kpoints` (inkpt.py, kmesh.py, kpathSampler.py)
* Proof: membership in filtered lists.
* Result: Every dictionary and path list; the dictionary of pymatgen is an input.
* Theorems: `C50_two_dim`, `C50_points`, `C50_other_dims`

### C51 k-path segment density uses the reciprocal-space length (partial)

* Model: `Model/Kpoints` (inkpt.py, kmesh.py, kpathSampler.py)
* Proof: sum of squares against the matrix product.
* Result: Violated: elementwise product instead of a matrix product. Exact condition for the formula to be right proved; right for rectangular cells along the axes.
* Theorems: `C51_segments`, `C51_length`, `C51_diagonal_partial`, `C51_oblique`

### C52 Perturbed cells keep fractional coordinates and atom count (partial)

* Model: `Model/Perturb` (perturbation.py)
* Proof: symmetric matrix and determinants; the rotation is orthogonal, so fractional coordinates stay. Exact form by the sign of the determinant of each strained cell.
* Result: Number, species and fractional coordinates for every call that returns; strain bounds; success for right-handed cells and strain below 1/2. Violated: left-handed cells and some draws at amplitude 2 fail. C52_returns_iff: for amplitudes of any size, copies are made iff every strained cell is right-handed (flat strained cells excluded: there the outcome depends on the signs np.linalg.qr chooses).
* Theorems: `C52_returns_iff`, `C52_strain`, `C52_negative`, `C52_kept`, `C52_returns_partial`, `C52_left_handed`, `C52_large_strain`, `C52_no_atoms`

### C53 Lower-triangular rotation preserves the cell geometry (partial)

* Model: `Model/Perturb` (perturbation.py)
* Proof: orthogonal factor from the QR contract; sign of the determinant. Exact form by the sign of the determinant.
* Result: Violated: left-handed cells make the assertion fail. Proved for right-handed cells, for any QR factorisation. C53_accepts_iff: a cell that is not flat is accepted iff it is right-handed.
* Theorems: `C53_accepts_iff`, `C53_right_handed_partial`, `C53_left_handed`

### C54 Average bond length lies between the shortest and longest bond (proved)

* Model: `Model/Averages` (avgbond.py, avgangle.py, msd.py, edge.py)
* Proof: C17/C18 and bounds of a mean.
* Result: Every structure with separated atoms and every odd supercell; exact mean, and between shortest and longest bond. Tables without columns are an IndexError. No AvgBond object can be made (C198); the method is taken for given frames.
* Theorems: `C54_mean`, `C54_between`, `C54_no_columns`

### C55 Tetrahedrality averages run over distinct neighbour pairs (partial)

* Model: `Model/Averages` (avgbond.py, avgangle.py, msd.py, edge.py)
* Proof: explicit sum; the self pair has cosine 1.
* Result: Violated for equal neighbour elements: every neighbour is paired with itself (16/9 each), proved. Proved for different elements.
* Theorems: `C55_distinct_partial`, `C55_same_element`, `C55_self_pairs`

### C56 Mean-square displacement is non-negative and translation invariant (proved)

* Model: `Model/Averages` (avgbond.py, avgangle.py, msd.py, edge.py)
* Proof: sums of squares; the centroid moves with the frame.
* Result: Exact values, non-negativity, zero for equal frames, count, and translation invariance of the centroid-corrected variant.
* Theorems: `C56_values`, `C56_nonneg`, `C56_translation`

### C57 The adjacency matrix is symmetric with zero diagonal (partial)

* Model: `Model/Averages` (avgbond.py, avgangle.py, msd.py, edge.py)
* Proof: counts of shifts; two images within the cutoff would give a short lattice vector. Exact form from the counts of images.
* Result: Violated: entries count periodic images, and a negative cutoff gives -1 on the diagonal. Proved (0/1, symmetric, zero diagonal) for cutoffs below half the shortest lattice translation; exact counts proved for all. C57_holds_iff: the exact geometric condition for entries 0 or 1 and a zero diagonal.
* Theorems: `C57_counts`, `C57_small_partial`, `C57_not_binary`, `C57_negative`, `C57_holds_iff`

### C58 Projected DOS of an element sums only that element's columns (partial)

* Model: `Model/Dos` (dostotalspin.py, fatabandstructureTxt.py, job.py)
* Proof: sum over the masked columns; prefix test against equality. Exact form: in a row of ones any stranger shows in the sum.
* Result: Violated by prefix matching: Si counted for S, KPOINT counted for K (proved). Exact value proved; right when no symbol is a prefix of another name. C58_dos_exact, C58_fat_exact: right for all numbers iff no symbol begins another name.
* Theorems: `C58_dos_values`, `C58_dos_partial`, `C58_dos_prefix`, `C58_dos_no_energy`, `C58_fat_values`, `C58_fat_partial`, `C58_fat_potassium`, `C58_dos_exact`, `C58_fat_exact`

### C59 Every scheduler directive stands on its own line (partial)

* Model: `Model/Dos` (dostotalspin.py, fatabandstructureTxt.py, job.py)
* Proof: splitting of the generated text into rows.
* Result: Violated for every job: the last three directives share one row. All rows of the script proved.
* Theorems: `C59_rows`, `C59_first_partial`, `C59_joined`

### C60 A truncated position block is rejected (partial)

* Model: `Model/ACExtractor` (acextractor.py)
* Proof: slices past the end are short.
* Result: Violated: truncated position blocks are silently accepted. C60_count_exact: the number of atoms read is the smaller of announced atoms and rows that follow.
* Theorems: `C60_truncated_accepted`, `C60_enough_rows_partial`, `C60_count_exact`

### C61 A failed write never leaves a readable shortened structure (partial)

* Model: `Model/StructIO` (structure.py 27-180), `Model/ACExtractor`
* Proof: prefix of the list of writes. General form: the rows written before the failure are a prefix of the file, and the reader looks only at those.
* Result: Violated: a failing write leaves a readable prefix; the exact content left is proved. C61_every_failure: every write that fails because of an unknown species leaves a file that reads back as the sites before it. C61_moments: a failure with real elements leaves all atoms.
* Theorems: `C61_every_failure`, `C61_moments`, `C61_failed_write_leaves_prefix_partial`, `C61_failed_write_readable`

### C62 Repeated write/read cycles do not drift (proved)

* Model: `Model/StructIO` (structure.py 27-180), `Model/ACExtractor`
* Proof: printing a printed decimal is the identity.
* Result: One write/read cycle reaches a fixed point.
* Theorems: `C62_no_drift`

### C63 Frame record equals the row of the trajectory arrays (proved)

* Model: `Model/Trajectory`, `Model/Movement`, `Model/ACExtractor`
* Proof: both readers compute the same record; stacking keeps rows.
* Result: Every loaded extractor.
* Theorems: `C63_frame_info_is_row`, `C63_labels`

### C64 File reader and frame-string reader agree (proved)

* Model: `Model/ACExtractor` (acextractor.py)
* Proof: row numbers of the two locators differ by one.
* Result: Both readers find complete blocks; the truncated case differs (proved).
* Theorems: `C64_readers_agree`, `C64_truncated_text_differs`

### C65 Data set fields hold the like-named data of every frame (proved)

* Model: `Model/Dataset` (infoset.py, infosets.py, struct_collection.py), `Model/Trajectory`
* Proof: C63 and positions of the optional arrays.
* Result: All fields; one row per frame.
* Theorems: `C65_fields`, `C65_one_row_per_frame`

### C66 Re-reading an overwritten REPORT uses the numbers now in the file (partial)

* Model: `Model/Report` (report.py, outfermi.py)
* Proof: two texts for one path; concrete witness. Exact form from the number found by `searchAim`.
* Result: Violated: counts come from linecache. Proved for the first read. C66_exact: for every file remembered, the counts are those of its row with the same number, right iff that row states the same count, IndexError if it is too short.
* Theorems: `C66_exact`, `C66_first_read_partial`, `C66_stale`

### C67 A gap is called direct whenever some k-point holds both band edges (partial)

* Model: `Model/Report` (report.py, outfermi.py)
* Proof: uniqueness of the extremal entry; concrete witness. Exact condition: the searches stop at the first entry with the extreme energy (`cbm_first`, `vbm_first`, `allEntries_ordered`).
* Result: Violated for edges that occur at several k-points. Proved when each edge has one k-point. C67_exact: for energies with at most four decimals the type is 1 exactly when the first occurrences of the two edges are at the same k-point.
* Theorems: `C67_exact`, `C67_unique_partial`, `C67_degenerate`

### C68 The bands sharing a band edge are listed with their own k-point and band number (partial)

* Model: `Model/Report` (report.py, outfermi.py)
* Proof: exact content of the appended lists.
* Result: Violated: the code looks at the next k-point, and numbers VBM bands from 0. Exact content proved. C68_cbm_iff, C68_vbm_iff: exactly for which tables the claim holds.
* Theorems: `C68_cbm_iff`, `C68_vbm_iff`, `C68_cbm_partial`, `C68_vbm_partial`, `C68_wrong_bands`

### C69 Two-dimensional k-paths contain no step that is absent from the three-dimensional path (partial)

* Model: `Model/Kpoints` (inkpt.py, kmesh.py, kpathSampler.py)
* Proof: the steps of a filtered list are the pairs of kept elements with only dropped ones between.
* Result: Violated: dropping out-of-plane points joins their neighbours. C69_exact says exactly which steps the returned paths have, C69_holds_iff for which inputs the claim holds.
* Theorems: `C69_steps_partial`, `C69_new_step`, `C69_exact`, `C69_holds_iff`

### C70 Vacuum detection does not depend on the stored periodic images (partial)

* Model: `Model/Kpoints` (inkpt.py, kmesh.py, kpathSampler.py)
* Proof: max and min of translated lists. Exact form: one atom is moved by a large enough multiple of the lattice vector.
* Result: Violated for slabs stored across the cell boundary. Meaning and invariance under rigid translation proved. C70_hidden: any two or more atoms can be stored so that a direction shows no vacuum; C70_images_iff: the answer is independent of the images iff there is one atom or no way of storing shows vacuum.
* Theorems: `C70_hidden`, `C70_images_iff`, `C70_meaning`, `C70_translation_partial`, `C70_images`

### C71 Per-frame analyses run on every machine (partial)

* Model: `Model/Averages` (avgbond.py, avgangle.py, msd.py, edge.py)
* Proof: size of the pool.
* Result: Violated with one or two processors (Pool of size <= 0 is a ValueError). Proved with three or more. No AvgBond or PairBond object can be made (C198); the methods are taken for given frames.
* Theorems: `C71_large_partial`, `C71_small`

### C72 Frames with different numbers of atoms are rejected by the mean-square displacement (partial)

* Model: `Model/Averages` (avgbond.py, avgangle.py, msd.py, edge.py)
* Proof: shapes of the subtraction. Exact condition: when two blocks of rows can be subtracted (`npSubRows_iff`).
* Result: Violated when one frame has exactly one atom (broadcasting). Proved otherwise. C72_accepts_iff says exactly which trajectories are accepted.
* Theorems: `C72_rejects_partial`, `C72_single_atom`, `C72_accepts_iff`

### C73 Mean-square displacement is measured from the initial frame (partial)

* Model: `Model/Averages` (avgbond.py, avgangle.py, msd.py, edge.py)
* Proof: concrete trajectory. Exact condition from C56.
* Result: Violated: values are relative to the previous frame. Proved for the first value. C73_holds_iff says for which trajectories a value is the documented one; C73_drift: for a constant drift only the first is.
* Theorems: `C73_first_partial`, `C73_previous_frame`, `C73_holds_iff`, `C73_drift`

### C74 Mean-square displacement does not depend on the stored periodic image (partial)

* Model: `Model/Averages` (avgbond.py, avgangle.py, msd.py, edge.py)
* Proof: concrete trajectory; minimality of the stored image. Exact condition for one atom: the sums differ by one term.
* Result: Violated for atoms crossing the boundary. Proved when atoms are stored at the nearest image. C74_one_atom_iff: another image of one atom changes nothing exactly when it is equally far away.
* Theorems: `C74_nearest_partial`, `C74_wrapped`, `C74_one_atom_iff`

### C75 Diffraction intensities are Debye-Waller factors (proved)

* Model: `Model/Averages` (avgbond.py, avgangle.py, msd.py, edge.py)
* Proof: properties of exp.
* Result: Every trajectory.
* Theorems: `C75_range`, `C75_monotone`

### C76 Even supercell factors are rejected by the adjacency matrix (partial)

* Model: `Model/Averages` (avgbond.py, avgangle.py, msd.py, edge.py)
* Proof: number of shifts against number of copies. Exact condition from the rejections and the odd case.
* Result: Violated: factors 1 and 2 only are accepted. Proved as soon as some factor is at least 3. C76_accepts_iff: accepted exactly when all factors are positive and all are odd or all at most 2.
* Theorems: `C76_rejects_partial`, `C76_even_accepted`, `C76_accepts_iff`

### C77 The reported bond of an atom pair is the shortest periodic distance (partial)

* Model: `Model/Averages` (avgbond.py, avgangle.py, msd.py, edge.py)
* Proof: unfolding; concrete cell. Exact form by cases on both indices and induction on the frames.
* Result: Violated for pairs through the boundary. Exact value and index errors proved. No AvgBond or PairBond object can be made (C198); the methods are taken for given frames. C77_accepts_iff: exactly which indices are accepted.
* Theorems: `C77_distance_partial`, `C77_rejects`, `C77_not_periodic`, `C77_accepts_iff`

### C78 Bond lengths selected by angle list exactly the distinct neighbour pairs (partial)

* Model: `Model/Averages` (avgbond.py, avgangle.py, msd.py, edge.py)
* Proof: pairs of positions of the neighbour list.
* Result: Violated for equal elements when the tolerance reaches angle 0 (self pairs). Exact rows proved otherwise. C78_same_iff: for equal elements the claim holds iff the tolerance does not reach angle 0 or there is no bond. No AvgBond object can be made (C198); the method is taken for given frames.
* Theorems: `C78_same_iff`, `C78_rows_partial`, `C78_once_partial`, `C78_self_pairs`

### C79 Every fat-band table belongs to one band (partial)

* Model: `Model/Dos` (dostotalspin.py, fatabandstructureTxt.py, job.py)
* Proof: array_split of equal blocks.
* Result: Violated for a single band (IndexError). Proved for two or more bands.
* Theorems: `C79_bands_partial`, `C79_single_band`

### C80 DOS tables hold the like-named columns of the file (partial)

* Model: `Model/Dos` (dostotalspin.py, fatabandstructureTxt.py, job.py)
* Proof: header words and column look-up.
* Result: Violated when # is glued to the first name. Proved otherwise. C80_glued_always: it fails for every such file.
* Theorems: `C80_file_partial`, `C80_tdos`, `C80_orbitals`, `C80_glued`, `C80_glued_always`

### C81 Unset job options leave no trace in the script (partial)

* Model: `Model/Dos` (dostotalspin.py, fatabandstructureTxt.py, job.py)
* Proof: infix of the generated text. General form: the text is the concatenation of one row per option.
* Result: Violated: None is written. Set options proved to appear. C81_each_option: every option by itself, for every job.
* Theorems: `C81_set_partial`, `C81_unset`, `C81_each_option`

### C82 find_info4mlff lists every periodic image within the cutoff exactly once (partial)

* Model: `Model/CellList`: structure, supercell, bin lists and neighbour list of source/nblist over the reals; arrays are lists with explicit out-of-bounds errors.
* Proof: linked bins are walked completely (invariant of the fill loop); an image within the cutoff is at most ceil(rcut/size) bins away; wrapped bins are visited once because the supercell has more than 2 rcut of projected length; the supercell covers the cutoff by the plane-distance bound; rows of the flat arrays by induction. Exact form from `nbr_exact`, which does not assume atoms apart. C82_no_ghosts: the remaining fields of the result.
* Result: Proved for cells with atoms wrapped into the cell, a lattice vector with a positive component along every axis, non-periodic vectors orthogonal to the periodic Cartesian axes, images at least 0.032 apart. Violated otherwise: out-of-bounds write for a backward cell and for unwrapped coordinates, atoms closer than 0.0316 dropped, neighbours listed five times under mixed periodicity (all proved). C82_exact: atoms at any distance; images with squared distance up to 1/1000 are left out, exact condition for the counts. C82_no_ghosts: no ghost atoms are reported, one type per atom.
* Theorems: `C82_no_ghosts`, `C82_find_info_exact_partial`, `C82_fractional_input`, `C82_violated_backward_cell`, `C82_violated_unwrapped`, `C82_violated_close_atoms`, `C82_violated_mixed_pbc`, `C82_exact`

### C83 The neighbours found do not depend on the bin size (partial)

* Model: `Model/CellList`: structure, supercell, bin lists and neighbour list of source/nblist over the reals; arrays are lists with explicit out-of-bounds errors.
* Proof: visits of a bin are counted; the sum over offsets is positive for every near atom, and 1 without wrapping twice.
* Result: Violated for coarse bins: a neighbour listed 27 times. The set of neighbours never depends on the bin sizes (C83_same_set); each is listed once for all bins fine enough (C83_fine_bins); C83_multiplicity counts the repetitions.
* Theorems: `C83_same_set`, `C83_fine_bins`, `C83_multiplicity`, `C83_bin_size_irrelevant_partial`, `C83_violated_coarse_bins`

### C84 Owned atoms of a supercell are the atoms of the original cell (partial)

* Model: `Model/CellList`: structure, supercell, bin lists and neighbour list of source/nblist over the reals; arrays are lists with explicit out-of-bounds errors.
* Proof: the index formula of the code and the storage index of the zero displacement are compared as polynomials; concrete witness for even factors.
* Result: Violated for 4 x 1 x 2. C84_exact characterises the factors for which it holds: all odd ones (the neighbour list uses no others), and those with equal first and last factor.
* Theorems: `C84_owned_atoms_partial`, `C84_violated_even`, `C84_exact`, `C84_equal_ends`

### C85 make_supercell describes the same crystal (proved)

* Model: `Model/CellList`: structure, supercell, bin lists and neighbour list of source/nblist over the reals; arrays are lists with explicit out-of-bounds errors.
* Proof: the replica range is a complete residue system.
* Result: Every structure and positive factors.
* Theorems: `C85_supercell_same_crystal`

### C86 Sorted neighbour rows run from near to far (proved)

* Model: `Model/CellList`: structure, supercell, bin lists and neighbour list of source/nblist over the reals; arrays are lists with explicit out-of-bounds errors.
* Proof: the sort returns stored atoms in order of distance, the writer copies a row that fits; no property of the cell is used.
* Result: For every structure, cutoff, bin size and periodicity for which the list and its tables can be made with enough columns (too few columns: C87); that they can be made is shown for the cells of C82.
* Theorems: `C86_sorted_rows`, `C86_handled_cells`

### C87 Too narrow arrays are rejected (partial)

* Model: `Model/CellList`: structure, supercell, bin lists and neighbour list of source/nblist over the reals; arrays are lists with explicit out-of-bounds errors.
* Proof: the last row leaves the array; concrete cell with six neighbours. Exact form by following every write of a narrow row through the flat array (Lemmas/CellListNarrow).
* Result: Violated whenever the last atom has more neighbours than columns; there is no check. C87_exact: for every row length, success exactly when atom i has at most (n-i)*umax neighbours, and what every place then holds.
* Theorems: `C87_violated_unchecked_width`, `C87_violated_example`, `C87_wide_enough_partial`, `C87_exact`

### C88 get_max_num_neigh_atoms_ssss is the true maximum (partial)

* Model: `Model/CellList`: structure, supercell, bin lists and neighbour list of source/nblist over the reals; arrays are lists with explicit out-of-bounds errors.
* Proof: running maximum over counts of duplicate-free lists. Exact form from `nbr_exact`.
* Result: Violated: atoms closer than sqrt(0.001) are not counted (witness with two atoms 0.03 apart). Partial: true for the cells of C82. C88_exact: atoms at any distance.
* Theorems: `C88_max_neighbours_partial`, `C88_violated_close_atoms`, `C88_exact`

### C89 The neighbour list is symmetric (partial)

* Model: `Model/CellList`: structure, supercell, bin lists and neighbour list of source/nblist over the reals; arrays are lists with explicit out-of-bounds errors.
* Proof: the map t to -t is a bijection between the two sets of images.
* Result: Violated for a cell with a vector pointing backwards along an axis: the bins are not aligned with the atoms and one of two atoms lists the other, but not vice versa (witness). Partial: true for the cells of C82, any separation of atoms.
* Theorems: `C89_symmetric_partial`, `C89_violated_backward_cell`

### C90 The C++ environment matrix holds the DeepPot-SE rows of the neighbours (proved)

* Model: `Model/EnvMatrix`: the loops over centres and neighbours with explicit out-of-bounds errors; switching function and derivative formulas over the reals.
* Proof: invariant of the slot loop: the row is the block form of the neighbours seen so far.
* Result: Every table with room for all neighbours.
* Theorems: `C90_env_values`

### C91 The C++ environment derivatives are derivatives (proved)

* Model: `Model/EnvMatrix`: the loops over centres and neighbours with explicit out-of-bounds errors; switching function and derivative formulas over the reals.
* Proof: the pieces of the switching function are glued by one-sided derivatives; chain rule for the norm.
* Result: Every non-zero relative position, including both joints of the switching function.
* Theorems: `C91_env_derivative`

### C92 Neighbours without a slot are rejected by the environment matrix (partial)

* Model: `Model/EnvMatrix`: the loops over centres and neighbours with explicit out-of-bounds errors; switching function and derivative formulas over the reals.
* Proof: concrete tables; an unknown type reads outside nstart_idxs. Exact form: the fill is a sequence of writes to computed places (Lemmas/EnvSlots); a place holds its last write.
* Result: Violated: a surplus neighbour is stored in the next type's slot, or overwritten, silently. Unknown types are proved to give no result (out-of-bounds access). C92_exact: for every slot table, the place every neighbour is written to, which write wins, and that an access is out of bounds only behind the last slot of the last centre. C92_places_iff: the places are right iff there is room.
* Theorems: `C92_violated_spill`, `C92_violated_overwrite`, `C92_unknown_type_partial`, `C92_exact`, `C92_places_iff`

### C93 Se4pw and its index table use the same slots (proved)

* Model: `Model/EnvMatrix`: the loops over centres and neighbours with explicit out-of-bounds errors; switching function and derivative formulas over the reals.
* Proof: the same slot invariant for all four arrays; derivative formulas are the negatives of those of C91.
* Result: Every table with room for all neighbours.
* Theorems: `C93_se4pw`

### C94 From a structure to its environment matrix (partial)

* Model: `Model/EnvMatrix`: the loops over centres and neighbours with explicit out-of-bounds errors; switching function and derivative formulas over the reals. `Model/CellList`.
* Proof: C82 gives the tables; a row has at most as many neighbours as slots; then C90. Exact form from `env_core_far`.
* Result: Violated for structures with atomic numbers: find_info4mlff hands out atomic numbers as types, find_value_deriv uses types as positions in the slot table, so any neighbour with an atomic number not below the number of types is read and written out of bounds. Partial: true for the cells of C82, atom numbers that are type indices, and enough slots. C94_exact: atoms at any distance.
* Theorems: `C94_exact`, `C94_structure_to_env_partial`, `C94_violated_atomic_numbers`

### C95 RB_Chebyshev::build evaluates Chebyshev polynomials (proved)

* Model: `Model/MtpRadial`: the recurrences and switching functions over the reals, forward and backward of MtpQ.
* Proof: the recurrence is that of Mathlib's Chebyshev polynomials.
* Result: Real arithmetic, every rmin < rmax, every degree and every distance; rejection included.
* Theorems: `C95_chebyshev`

### C96 Radial derivatives are derivatives (proved)

* Model: `Model/MtpRadial`: the recurrences and switching functions over the reals, forward and backward of MtpQ.
* Proof: derivative of the polynomial by the derivative recurrence, product and chain rule; switching function as in C91.
* Result: Real arithmetic, every degree; one-sided at the two ends of the interval.
* Theorems: `C96_radial_derivatives`

### C97 RQ_Chebyshev goes smoothly to zero at the cutoff (proved)

* Model: `Model/MtpRadial`: the recurrences and switching functions over the reals, forward and backward of MtpQ.
* Proof: factorisation of the quintic.
* Result: Real arithmetic, every rmin < rmax, every degree and every distance; rejection included.
* Theorems: `C97_radial_cutoff`

### C98 MtpQ is a differentiable function of the distance (partial)

* Model: `Model/MtpRadial`: the recurrences and switching functions over the reals, forward and backward of MtpQ.
* Proof: as C96; the two joints separately. Exact form: limit 0 from below against the value (-1)^k.
* Result: Violated at rcut_smooth: every function jumps from 0 to +-1, since the switching function is 0 instead of 1 below rcut_smooth. Everything else proved. C98_exact: every function of MtpQ is differentiable, and continuous, exactly away from rcut_smooth.
* Theorems: `C98_exact`, `C98_violated_jump`, `C98_mtpq_partial`

### C99 MtpQOp backpropagates the true gradient (partial)

* Model: `Model/MtpRadial`: the recurrences and switching functions over the reals, forward and backward of MtpQ.
* Proof: chain rule with the norm, sum over neighbours and functions. Exact form: the one-sided derivatives at the jump are compared, using the values and derivatives of the Chebyshev polynomials at -1.
* Result: Violated at distance rcut_smooth, where the outputs jump (C98) and have no gradient. Partial: true at all positions whose distances are not rcut_smooth. C99_exact: right iff the weights of every row at rcut_smooth satisfy two linear equations; otherwise there is no gradient.
* Theorems: `C99_exact`, `C99_backward_partial`, `C99_violated_jump`

### C100 MtpMCoeffPairCombs lists all contractible combinations (proved)

* Model: `Model/MtpLevel`: the recursive listing, the contraction rule and level.h; `std::sort` is any sort by nu.
* Proof: soundness and completeness of the recursion: take out a moment of least level.
* Result: Every max_level; both directions (nothing missing, nothing extra), up to the order inside a combination.
* Theorems: `C100_combinations_complete`

### C101 No combination is listed twice (partial)

* Model: `Model/MtpLevel`: the recursive listing, the contraction rule and level.h; `std::sort` is any sort by nu.
* Proof: concrete duplicate, carried to every sort; uniqueness of the first branch otherwise. Exact form: the recursion without the sort lists every sequence with non-decreasing levels once, and sorting permutes each.
* Result: Violated from max_level 18 on. Proved for combinations without two different moments of equal level. C101_multiplicity: every combination is listed as often as it can be written with levels that do not decrease. C101_once_iff: once iff it has no two different moments of equal level.
* Theorems: `C101_violated_duplicates`, `C101_no_duplicates_partial`, `C101_multiplicity`, `C101_once_iff`

### C102 nmus is the number of radial channels (proved)

* Model: `Model/MtpLevel`: the recursive listing, the contraction rule and level.h; `std::sort` is any sort by nu.
* Proof: from C100.
* Result: Every max_level from 2 on.
* Theorems: `C102_nmus`

### C103 MtpBModule evaluates every listed combination (proved)

* Model: `Model/MtpMoment`: coefficient look-up, moments, contraction loop with its assertion and torch errors; tensors are functions of index lists.
* Proof: the number of open indices: sorted equal nu come in pairs, or the first absorbs the rest.
* Result: Every max_level from 2 on, arrays with valid atoms and types (padding -1 allowed); the shapes and indices of torch are part of the model.
* Theorems: `C103_forward_succeeds`

### C104 Every combination that forward can evaluate is listed (partial)

* Model: `Model/MtpMoment`: coefficient look-up, moments, contraction loop with its assertion and torch errors; tensors are functions of index lists.
* Proof: concrete combination; case analysis for up to four moments. Evaluable combinations: the running tensor order returns to 0 iff the orders can be cut into pieces with first order equal to the sum of the others.
* Result: Violated: M02 M01 M01 M01 M01 (level 16) is never listed. Proved for at most four moments. C104_evaluable_iff and C104_missing_iff: exactly which combinations can be evaluated, and which of them are missing from the list.
* Theorems: `C104_evaluable_iff`, `C104_missing_iff`, `C104_violated_missing`, `C104_listed_partial`

### C105 MTP basis functions are invariant under rotations and reflections (proved)

* Model: `Model/MtpMoment`: coefficient look-up, moments, contraction loop with its assertion and torch errors; tensors are functions of index lists.
* Proof: each step of the loop maps rotated tensors to rotated tensors; contraction by R^T R = 1.
* Result: Every orthogonal matrix (determinant 1 or -1) and all arrays, bad ones included; real arithmetic.
* Theorems: `C105_rotation`

### C106 MTP basis functions do not depend on the order of neighbours or on padding (proved)

* Model: `Model/MtpMoment`: coefficient look-up, moments, contraction loop with its assertion and torch errors; tensors are functions of index lists.
* Proof: the moments are sums over rows; radial functions vanish on padding.
* Result: Every permutation of the rows of each centre; rows below rcut_smooth or from rcut on change nothing, hence padding rows when rcut_smooth is positive.
* Theorems: `C106_permutation`, `C106_padding`

### C107 MtpMModule computes the moment tensors (proved)

* Model: `Model/MtpMoment`: coefficient look-up, moments, contraction loop with its assertion and torch errors; tensors are functions of index lists.
* Proof: position of a block in the flattened table.
* Result: Every mu and nu, all neighbour data, real arithmetic.
* Theorems: `C107_moment`

### C108 Combinations(mark_tiny) keeps one ordering of each contractible combination (partial)

* Model: `Model/MtpLevel`: the recursive listing, the contraction rule and level.h; `std::sort` is any sort by nu.
* Proof: evaluation; induction over the list of pairs. Exact form: `remove_duplicates` pushes a combination once per neighbouring pair that does not descend.
* Result: Violated: undefined behaviour for every list produced by MTPLevel, single moments dropped, longer combinations repeated or kept out of order. Proved for pairs. C108_exact: for every list, how often each combination is kept. C108_holds_iff: the lists for which the claim holds.
* Theorems: `C108_violated_empty`, `C108_violated_lists`, `C108_pairs_partial`, `C108_exact`, `C108_holds_iff`

### C109 MTPLevel lists every sequence of moments of allowed level once (partial)

* Model: `Model/MtpLevel`: the recursive listing, the contraction rule and level.h; `std::sort` is any sort by nu.
* Proof: membership and duplicate-freeness of the recursion; parity.
* Result: Violated for every even max_level. Proved for odd max_level and for fewer than max_level/2 moments.
* Theorems: `C109_violated_even`, `C109_redundant_partial`

### C110 RecursionOuterProduct computes outer powers (proved)

* Model: `Model/MtpMoment`: coefficient look-up, moments, contraction loop with its assertion and torch errors; tensors are functions of index lists.
* Proof: induction, base-3 digits.
* Result: Every n >= 1 and every vector.
* Theorems: `C110_outer_product`

### C111 Atomic energies of a frame are those of its Atomic-Energy block (partial)

* Model: `Model/ACExtractor`: ACstrExtractor on lists of characters.
* Proof: the located row is the first one; element-wise characterisation of the row loop. Exact form from the number of rows left after the heading.
* Result: Violated for a text that ends inside the block: fewer energies than atoms, no error. Everything else proved. C111_one_per_atom_iff: exactly when there is one energy per atom.
* Theorems: `C111_one_per_atom_iff`, `C111_atomic_energies_partial`, `C111_one_per_atom_partial`, `C111_truncated_block`

### C112 The virial of a frame is taken from the stress columns or refused (proved)

* Model: `Model/ACExtractor`: ACstrExtractor on lists of characters.
* Proof: both loops over the three rows, in both directions.
* Result: Every text.
* Theorems: `C112_virial`, `C112_no_stress`

### C113 The number of atoms of a frame is the number in front of the word atoms (proved)

* Model: `Model/ACExtractor`: ACstrExtractor on lists of characters.
* Proof: induction over the text: a match at the first position, or none there.
* Result: Every text.
* Theorems: `C113_number_of_atoms`

### C114 An MTP parameter file is read exactly (proved)

* Model: `Model/MtpParam`: the stream as the list of characters left, the heap as the list of blocks handed out.
* Proof: print and read back piece by piece; suffix lemmas for the converse.
* Result: Header lines must be shorter than 4998 characters. Every text for the converse.
* Theorems: `C114_load_exact`, `C114_load_sound`, `C114_load_throws`

### C115 An MTP parameter file whose counts disagree with its tables is refused (partial)

* Model: `Model/MtpParam`: the stream as the list of characters left, the heap as the list of blocks handed out.
* Proof: the next row begins in the next table, where no number or keyword follows. Exact form: `readQuads` on the first rows of a table, and `ignore` with its limit of 1000 characters.
* Result: Violated for counts that are too small (rows dropped) or negative. Proved for counts that are too large. C115_exact, C115_refused_iff: a file is refused iff a count is larger than its table or more than 1000 characters are left on one of the first two table lines; otherwise the rows beyond the counts are cut off.
* Theorems: `C115_missing_rows_partial`, `C115_rows_dropped`, `C115_exact`, `C115_refused_iff`

### C116 MtpParam objects behave like values (partial)

* Model: `Model/MtpParam`: the stream as the list of characters left, the heap as the list of blocks handed out.
* Proof: simulation of a program on values by the program on the heap; ownership invariant.
* Result: Violated: self-assignment, assignment of an empty table and move assignment lead to a double free. Proved for all programs without these.
* Theorems: `C116_value_semantics_partial`, `C116_self_assignment`, `C116_assign_empty`, `C116_move_assignment`

### C117 Destroying all MtpParam objects releases all their memory (partial)

* Model: `Model/MtpParam`: the stream as the list of characters left, the heap as the list of blocks handed out.
* Proof: the same simulation with the invariant that every live block is owned. The exact number of lost blocks comes from counting live blocks and pointers in every step (`step_count`, `run_count`).
* Result: Violated when an assignment overwrites an empty table. Proved for all programs without such an assignment. C117_exact: a program of the operations that C116 allows loses one block for each assignment that replaces a table of length 0 that has a block by one that is not empty, and no other; C117_all_freed_iff is the exact condition.
* Theorems: `C117_exact`, `C117_all_freed_iff`, `C117_all_freed_partial`, `C117_block_lost`

### C118 The arrays handed to the network describe the same neighbours at the same places (partial)

* Model: `Model/Infer`: the double loops over element pairs around the pair functions of `Model/DeepMD` and `Model/Neigh`.
* Proof: every pair block is a map over the rows of the neighbour table; the blocks are joined cell by cell.
* Result: Violated when an atom sits on a lattice point (padding then carries the index of that atom), and when a neighbour element is no centre element (environment rows and derivatives then lack its columns). Everything else proved, for odd scaling factors and positive widths. feature/deepmd/preprocess.py imports the missing module data/deepmd/data_system.py (for an annotation); the code is taken without this import.
* Theorems: `C118_aligned_partial`, `C118_subset_partial`, `C118_fewer_columns`, `C118_too_small`, `C118_stats_length`, `C118_padding_is_atom`, `C118_violated_fewer_centres`

### C119 The neighbour list refers to rows of the same arrays (partial)

* Model: `Model/Infer`: the double loops over element pairs around the pair functions of `Model/DeepMD` and `Model/Neigh`.
* Proof: from the lemma of C118; the atoms element by element are the atoms of a sorted structure. Exact condition: separated atoms have no common image.
* Result: Violated for structures that are not sorted by atomic number. Proved for sorted structures and elements listed in ascending order. feature/deepmd/preprocess.py imports the missing module data/deepmd/data_system.py (for an annotation); the code is taken without this import. C119_exact: for every structure an index names the atom of the structure; it is right exactly when that atom is the centre of the row with the same number.
* Theorems: `C119_rows_partial`, `C119_wrong_row`, `C119_exact`

### C120 The atom counts handed to the network describe the rows (partial)

* Model: `Model/Infer`: the double loops over element pairs around the pair functions of `Model/DeepMD` and `Model/Neigh`.
* Proof: the order of first appearance in a sorted structure is ascending. Exact condition: the keys of a counter come in the order of first occurrence (`counterKeys_first`).
* Result: Violated for structures that are not sorted, and when a listed element has no atoms. Proved otherwise. feature/deepmd/preprocess.py imports the missing module data/deepmd/data_system.py (for an annotation); the code is taken without this import. C120_exact: the counts follow the order in which elements first occur; exact condition for them to describe the rows.
* Theorems: `C120_counts_partial`, `C120_wrong_counts`, `C120_absent_element`, `C120_exact`

### C121 A force field file holds all parameters of the checkpoint (partial)

* Model: `Model/Extractor`: the file is the list of its data sets in the order of creation.
* Proof: names are injective in net, number, group and layer; the loops append the entries of a flat list. Exact form: a file that is written holds the embedding layers up to the number of fitting layers, too many if there are fewer embedding layers.
* Result: Violated when the numbers of layers differ: the embedding nets are walked with the number of fitting layers, so that layers are dropped silently or a KeyError is raised. Proved for equal numbers of layers, with the error cases. C121_holds_iff: for complete checkpoints it holds iff both kinds of nets have the same number of layers.
* Theorems: `C121_holds_iff`, `C121_content_partial`, `C121_missing_layers`, `C121_key_error`, `C121_zero_width`

### C122 A force field file reads back to what was stored (proved)

* Model: `Model/Extractor`: the file is the list of its data sets in the order of creation.
* Proof: sorting is a permutation and distinct keys are inserted one after the other.
* Result: File names of a file are distinct (hdf5).
* Theorems: `C122_dict`

### C123 save_all_info writes one folder per frame (partial)

* Model: `Model/Batch`: argument binding of python calls; folders as lists; the pool as a map.
* Proof: the call is rejected by the binding of keywords, for every input.
* Result: Violated for every collection: the call of DStructure.to uses parameter names it does not have (TypeError), after the folder of frame 0 has been emptied.
* Theorems: `C123_never_saves`

### C124 batch_perturb writes the perturbed structures (partial)

* Model: `Model/Batch`: argument binding of python calls; folders as lists; the pool as a map.
* Proof: as C123; the files are unchanged.
* Result: Violated for every system with at least one copy: the same TypeError; no file is ever written.
* Theorems: `C124_never_writes`

### C125 A k-mesh object can be made from every readable structure file (partial)

* Model: `Model/Batch`: argument binding of python calls; folders as lists; the pool as a map.
* Proof: as C123.
* Result: Violated for every file: the constructor passes a keyword that DStructure.from_file does not have (TypeError). The theorems of C49 are about get_kmesh for an object whose structure was set otherwise.
* Theorems: `C125_never_constructed`

### C126 The largest neighbour number of a collection is the maximum over its frames (partial)

* Model: `Model/Batch`: argument binding of python calls; folders as lists; the pool as a map.
* Proof: the maximum of the maxima of C20.
* Result: Violated on machines with at most two processors (ValueError). Proved for three and more, distinct positions, frames with atoms.
* Theorems: `C126_collection_max_partial`, `C126_few_processors`

### C127 The largest neighbour numbers per element of a collection are the maxima over its frames (partial)

* Model: `Model/Batch`: argument binding of python calls; folders as lists; the pool as a map.
* Proof: the fold keeps the key set and the running maximum of every key; maxima of C21.
* Result: Violated on machines with at most two processors, where the call raises ValueError (as C126).
* Theorems: `C127_collection_max_element_partial`, `C127_few_processors`

### C128 C++ structures behave like values (partial)

* Model: `Model/StructObj`: heap in which freed blocks stay visible, objects as chains of levels with addresses, statements and programs.
* Proof: simulation of the program on values (`Spec/StructObj`); invariant: the addresses held by the living objects are distinct and are exactly the allocated blocks, up to leaked ones.
* Result: Violated by x = x, which silently empties the structure (num_atoms is zeroed before the right-hand side is read). Proved for all programs without it, error cases included. C128_exact: what every program shows, x = x included.
* Theorems: `C128_exact`, `C128_values_partial`, `C128_self_assignment`

### C129 C++ structures free what they allocate (partial)

* Model: `Model/StructObj`: heap in which freed blocks stay visible, objects as chains of levels with addresses, statements and programs.
* Proof: the invariant of C128 without leaked blocks; counterexample for the factor 0.
* Result: Violated by make_supercell with a factor 0, which leaks the arrays; make_supercell of an empty structure frees pointers that were never set. Proved for all other programs, with x = x. C129_exact: for every program, one block is lost for each supercell with a factor 0 and no other.
* Theorems: `C129_exact`, `C129_no_leak_partial`, `C129_safe`, `C129_zero_factor_leaks`, `C129_empty_supercell`

### C130 Neighbour lists and the objects inside them behave like values (partial)

* Model: `Model/StructObj`: heap in which freed blocks stay visible, objects as chains of levels with addresses, statements and programs.
* Proof: the simulation of C128 for objects of any number of levels; what x = x leaves behind by evaluation of the simulation.
* Result: Violated by x = x: the structure inside is emptied, bins and indices are left uninitialised and all lists are emptied. Proved for all programs without it. C130_exact: what every program shows, x = x included.
* Theorems: `C130_exact`, `C130_values_partial`, `C130_self_assignment`, `C130_self_assignment_inner`

### C131 Neighbour lists and the objects inside them free what they allocate (proved)

* Model: `Model/StructObj`: heap in which freed blocks stay visible, objects as chains of levels with addresses, statements and programs.
* Proof: the invariant of C128; the value program fails only on objects which are not alive.
* Result: Constructors with data are modelled for at least one atom and a nonzero cutoff; the missing return of BasicStructureInfo::operator= is taken to be harmless.
* Theorems: `C131_safe`, `C131_no_leak`

### C132 The Python neighbour list uses the arrays Python shows (partial)

* Model: `Model/Bind`: numpy arrays as memory with strides, the reads of the entry point, and the buffers of its result.
* Proof: for contiguous arrays the places read are the places shown; for any other strides a counterexample whose memory holds its own indices.
* Result: Violated for every layout that is not row-major contiguous, for 64 bit atomic numbers (numpy's default) and for fewer coordinates than atoms (read past the end). Proved for contiguous double arrays and contiguous 32 bit integers; what the neighbour list itself answers is C82.
* Theorems: `C132_contiguous_partial`, `C132_layout_violated`, `C132_int64_violated`, `C132_short_violated`

### C133 The Python neighbour list keeps no memory of dropped results (partial)

* Model: `Model/Bind`: numpy arrays as memory with strides, the reads of the entry point, and the buffers of its result.
* Proof: explicit heap after one call and after dropping its result; induction on the calls.
* Result: Violated by every call with atoms and columns: the buffer of firstneigh (4*inum*umax bytes) is never released, because line 139 sets the ownership flag of numneigh again. All other buffers are released exactly once.
* Theorems: `C133_leak`, `C133_result`

### C134 TildeR tables hold the rows of the neighbours and their derivatives (proved)

* Model: `Model/TildeR`: the loops over centres, neighbours and pairs of elements on lists of rows, with bounds checks and assertions.
* Proof: the table is the specification `tildeTable`; induction over centres, neighbours, then over the blocks copied into the result; derivative as in C93.
* Result: All neighbour lists with enough slots (too few: C136); both overloads of each static function; real arithmetic.
* Theorems: `C134_tilde_values`, `C134_tilde_derivatives`

### C135 From a structure to its TildeR table (proved)

* Model: `Model/TildeR`: the loops over centres, neighbours and pairs of elements on lists of rows, with bounds checks and assertions.
* Proof: the neighbour list presents the periodic images (`nbr_reads`, from the proof of C82); then the loops of C134.
* Result: Atoms closer than sqrt(1/1000) are excluded by hypothesis, as in C82.
* Theorems: `C135_structure_to_tilde`, `C135_pair`

### C136 Too few slots are reported by TildeR (partial)

* Model: `Model/TildeR`: the loops over centres, neighbours and pairs of elements on lists of rows, with bounds checks and assertions.
* Proof: the first block without room stops the loops: assertion in the static functions, write outside of the block in the member functions. C136_pair_given_slots: the same for one pair of elements.
* Result: Violated by the member functions, which write past the end of the block of the pair. The static functions assert (proved); a build without assertions would write out of bounds there too. Slot numbers are natural numbers. C136_static_iff and C136_member_iff: a table is returned iff there are enough slots. C136_pair_given_slots: the same for PairTildeR with a given number of slots.
* Theorems: `C136_pair_given_slots`, `C136_static_iff`, `C136_member_iff`, `C136_static_too_few_partial`, `C136_violated_member`

### C137 Member and static functions of TildeR agree (proved)

* Model: `Model/TildeR`: the loops over centres, neighbours and pairs of elements on lists of rows, with bounds checks and assertions.
* Proof: both present the same centres to the loops of C134.
* Result: All neighbour lists with enough slots; real arithmetic.
* Theorems: `C137_member_static`

### C138 TildeR objects behave like values (partial)

* Model: `Model/TildeRHeap`: a heap of integer blocks, objects with four addresses, statements and programs.
* Proof: simulation of the program on values (`Spec/TildeRHeap`) with the invariant of C128; counterexamples by evaluation of the simulation.
* Result: Violated by the copy constructor, which allocates sizeof(int) bytes for the two element lists and writes past their end for two or more elements; and by x = x, which empties the object. Proved for all programs without these, and with copies of at most one element of each kind. Objects with elements of one kind only are excluded (C139). C138_exact: what every program shows, x = x and copies included.
* Theorems: `C138_exact`, `C138_values_partial`, `C138_copies_partial`, `C138_violated_copy`, `C138_violated_self`

### C139 TildeR objects free what they allocate (partial)

* Model: `Model/TildeRHeap`: a heap of integer blocks, objects with four addresses, statements and programs.
* Proof: the invariant of C138 counts the blocks; counterexamples by evaluation.
* Result: Violated by objects without elements (their empty lists are never freed), by objects with centre elements only (assignment to them, then destruction frees twice) and by objects with neighbour elements only (leak). Proved for all programs without copies whose objects have elements of both kinds, x = x included.
* Theorems: `C139_no_leak_partial`, `C139_violated_no_types`, `C139_violated_double_free`, `C139_violated_neighbours_only`

### C140 Nested arrays are arrays (proved)

* Model: `Model/ArrayUtils`: blocks of pointers and of numbers on a heap; allocation, zeroing, access and freeing by recursion on the sizes.
* Proof: `IsNested`: the blocks of the parts are disjoint and hold the contents; kept by every assignment, used up by freeing. Induction on the sizes. Indices out of range: induction on the sizes.
* Result: All sizes and all sequences of assignments, in a model of the heap with blocks of pointers. C140_every_bad_index: every index out of range goes outside of a block.
* Theorems: `C140_every_bad_index`, `C140_nested_arrays`, `C140_out_of_range`

### C141 Freeing a nested array with other sizes (proved)

* Model: `Model/ArrayUtils`: blocks of pointers and of numbers on a heap; allocation, zeroing, access and freeing by recursion on the sizes.
* Proof: the loop of C140 stopped early or run one step too far. All sizes: the loop with an invariant which counts the blocks left behind.
* Result: All sizes, in every dimension (C141_any_sizes), and exactly when nothing is lost.
* Theorems: `C141_any_sizes`, `C141_nothing_left_iff`, `C141_free_other_size`

### C142 TildeR functions keep no memory (partial)

* Model: `Model/TildeRMem`: what the functions allocate, write, copy and free, on the arrays of C140.
* Proof: invariant over the loops over pairs: the large array is whole and the finished pairs are in place; induction on the calls.
* Result: Violated by TildeR::deriv into an array of the caller, which never frees cstart_idxs and nstart_idxs: every call leaves two blocks. Proved for the other three functions. The values of the pairs are C134.
* Theorems: `C142_generate_into_partial`, `C142_returned_partial`, `C142_violated_deriv_into`

### C143 The Chebyshev radial functions and their derivatives (proved)

* Model: `Model/RbcRadial`: the constructor and `build` on real numbers with bounds checks; the arrays on a heap.
* Proof: closed form of the recurrences (`chebLoop_eq`), `Polynomial.Chebyshev` of Mathlib, derivative of the switching function glued at the cutoffs.
* Result: Every inner cutoff below the outer one, every degree, every distance; real arithmetic.
* Theorems: `C143_radial_basis`

### C144 The Chebyshev radial functions are bounded and bad degrees are rejected (partial)

* Model: `Model/RbcRadial`: the constructor and `build` on real numbers with bounds checks; the arrays on a heap.
* Proof: cosine form of the polynomials; explicit witnesses for the failures. Exact form: below the inner cutoff the polynomial of degree 1 is below -1.
* Result: Violated below the inner cutoff, where the polynomials leave [-1, 1] and the value at a positive distance can be as large as one likes; and for negative degrees, which are not rejected (write past the end of an empty array, or through a null pointer). Proved from the inner cutoff on. C144_bounded_iff: exactly when the values are between -1 and 1.
* Theorems: `C144_bounded_iff`, `C144_bounded_partial`, `C144_violated_unbounded`, `C144_violated_degree`

### C145 RadialBasisChebyshev objects free their arrays (partial)

* Model: `Model/RbcRadial`: the constructor and `build` on real numbers with bounds checks; the arrays on a heap.
* Proof: induction on the objects: four blocks each.
* Result: Violated by every object: there is no destructor, four arrays stay allocated.
* Theorems: `C145_violated_leak`

### C146 RB_Chebyshev objects behave like values (partial)

* Model: `Model/BasisHeap`: a heap of row blocks, objects with addresses (possibly null or without a value), statements and programs for the four classes.
* Proof: `ClassOK` (`Lemmas/BasisPool`): simulation of any program on values (`Spec/BasisHeap`) from the behaviour of single operations; distinct addresses own all blocks. Counterexamples by evaluation.
* Result: Violated by x = x (the rows are lost and the arrays are freed twice) and by assigning an empty object to one with rows (its arrays are freed twice). Proved for all other programs without objects of size 0.
* Theorems: `C146_values_partial`, `C146_rows`, `C146_violated_self`, `C146_violated_empty`

### C147 RQ_Chebyshev objects behave like values (partial)

* Model: `Model/BasisHeap`: a heap of row blocks, objects with addresses (possibly null or without a value), statements and programs for the four classes.
* Proof: as C146; the inner object and its block belong to the outer one.
* Result: Violated by copying, assigning or building an empty (default constructed or moved-from) object, which uses a null pointer, and by x = x, which loses the rows. Proved for all other programs without objects of size 0. A cutoff pair with rmin = rmax is excluded from the rows.
* Theorems: `C147_values_partial`, `C147_rows`, `C147_violated_empty`, `C147_violated_moved`, `C147_violated_self`

### C148 ChebyshevPoly objects behave like values (partial)

* Model: `Model/BasisHeap`: a heap of row blocks, objects with addresses (possibly null or without a value), statements and programs for the four classes.
* Proof: as C146, with a list of lost blocks. Exact form: the simulation is extended by the effect of x = x on a value.
* Result: Violated by x = x, which loses the rows. Proved for all other programs. C148_exact: what every program shows, x = x included.
* Theorems: `C148_values_partial`, `C148_text_partial`, `C148_rows`, `C148_violated_self`, `C148_exact`

### C149 MtpQ objects behave like values (partial)

* Model: `Model/BasisHeap`: a heap of row blocks, objects with addresses (possibly null or without a value), statements and programs for the four classes.
* Proof: as C148; the member object has its own block. Exact form as for C148.
* Result: Violated by default constructed objects, whose destructor frees pointers without a value, and by x = x, which loses the rows. Proved for all other programs. C149_exact: what every program without default construction shows, x = x included.
* Theorems: `C149_values_partial`, `C149_rows`, `C149_violated_dflt`, `C149_violated_self`, `C149_exact`

### C150 Radial basis objects free what they allocate (partial)

* Model: `Model/BasisHeap`: a heap of row blocks, objects with addresses (possibly null or without a value), statements and programs for the four classes.
* Proof: the simulation of C146 without lost blocks counts the blocks of the living objects.
* Result: Violated by copies of empty ChebyshevPoly and MtpQ objects (an empty array is never freed); for RB and RQ see C146, C147. Proved for programs which do not copy empty objects.
* Theorems: `C150_rb_partial`, `C150_rq_partial`, `C150_cheb_partial`, `C150_mtpq_partial`, `C150_violated_cheb`, `C150_violated_mtpq`

### C151 EnvMatrixOp treats every frame of a batch on its own (partial)

* Model: `Model/EnvOp`: tensors as memory, offset, sizes and strides with element types; the loops of C90 and C93 on the part of the result which belongs to a frame.
* Proof: the loops on longer arrays do the same as on the arrays of the frame (`slotFillOn_of_ok`); induction on the frames (`frames_fold`); then C90 and C91.
* Result: Violated when frames announce different totals: the total of the first frame is used for all (larger last frame: rows are written outside of the result, no success; smaller one: rows are lost without an error). Proved for batches with one total and frames whose elements are contiguous (C155).
* Theorems: `C151_env_batch_partial`, `C151_violated_larger`, `C151_violated_smaller`

### C152 Se4pwOp treats every frame of a batch on its own (proved)

* Model: `Model/EnvOp`: tensors as memory, offset, sizes and strides with element types; the loops of C90 and C93 on the part of the result which belongs to a frame.
* Proof: as C151, with C93.
* Result: For frames whose elements lie one after the other in memory; others are C155.
* Theorems: `C152_se4pw_batch`

### C153 Flattened tensors give the same result (partial)

* Model: `Model/EnvOp`: tensors as memory, offset, sizes and strides with element types; the loops of C90 and C93 on the part of the result which belongs to a frame.
* Proof: the first frame starts at the same place; evaluation of the counterexample.
* Result: Violated for every batch of two or more frames, where x[ii] of a flat tensor is the ii-th element (witness with two frames). Proved for one frame.
* Theorems: `C153_flat_partial`, `C153_violated_flat`

### C154 Tensors of another element type are rejected (proved)

* Model: `Model/EnvOp`: tensors as memory, offset, sizes and strides with element types; the loops of C90 and C93 on the part of the result which belongs to a frame.
* Proof: all pointers are taken before anything is read; the first with a wrong type ends the call.
* Result: Batches of at least one frame for Se4pwOp. EnvMatrixOp rejects by assert, which is absent in builds with NDEBUG; data_ptr of torch then throws.
* Theorems: `C154_kinds`

### C155 Results do not depend on how tensors are stored (partial)

* Model: `Model/EnvOp`: tensors as memory, offset, sizes and strides with element types; the loops of C90 and C93 on the part of the result which belongs to a frame.
* Proof: as C151: the result is a function of the frames; evaluation of the counterexample.
* Result: Violated by frames which are not contiguous: the pointers ignore strides (witness with stride 2). Proved for frames which lie anywhere but are contiguous.
* Theorems: `C155_storage_partial`, `C155_violated_strides`

### C156 EnvMatrixOp can be differentiated (partial)

* Model: `Model/EnvOp`: tensors as memory, offset, sizes and strides with element types; the loops of C90 and C93 on the part of the result which belongs to a frame.
* Proof: the derivative of C91 at one point is not zero.
* Result: Violated: backward returns eight undefined tensors.
* Theorems: `C156_violated`

### C157 Slices of a collection keep frames, energies and virials together (proved)

* Model: `Model/Collection`: sites with optional force and energy, collections with their arrays, Python slice objects, the output folder.
* Proof: the indices of CPython slicing are shown to be the arithmetic progression of the slice (`sliceIndices_selects`); then the arrays are compared position by position.
* Result: Collections with one entry per frame in every array.
* Theorems: `C157_slice`, `C157_same_as_from_indices`, `C157_zero_step`

### C158 A single frame of a collection can be picked (partial)

* Model: `Model/Collection`: sites with optional force and energy, collections with their arrays, Python slice objects, the output folder.
* Proof: the attribute access fails whatever the structure; for slices C157.
* Result: Violated for every integer index and every loop: a single structure is handed to the constructor, which expects a list (AttributeError). Proved: the length-one slice [i:i+1] gives what is wanted.
* Theorems: `C158_violated`, `C158_violated_loop`, `C158_single_partial`

### C159 Atom counts of a collection describe all of its frames (partial)

* Model: `Model/Collection`: sites with optional force and energy, collections with their arrays, Python slice objects, the output folder.
* Proof: the counts of the first frame; witness with two frames. Exact form: equal counts for the numbers of the first frame and equal lengths give a permutation.
* Result: Violated for frames of different composition: the first frame is taken for all. Proved for equal compositions. C159_exact: the counts are right for a frame iff its atoms are a permutation of those of the first.
* Theorems: `C159_counts_partial`, `C159_violated`, `C159_exact`

### C160 Structures give the forces and energies of their atoms (partial)

* Model: `Model/Collection`: sites with optional force and energy, collections with their arrays, Python slice objects, the output folder.
* Proof: the first site fails; position by position otherwise.
* Result: Violated for every structure read from a file: nothing sets the site properties atomic_force and atomic_energy, so AttributeError, also in print(collection). Proved for sites which were given both.
* Theorems: `C160_violated`, `C160_violated_repr`, `C160_given_partial`

### C161 A trajectory can be loaded as a collection (partial)

* Model: `Model/Collection`: sites with optional force and energy, collections with their arrays, Python slice objects, the output folder.
* Proof: every frame goes through the failing call of C48.
* Result: Violated for every trajectory (the chain of calls passes the broken from_str of C48). Movement is abstract (C197); its methods are those of objects of a derived class.
* Theorems: `C161_violated`

### C162 An export replaces the folder completely or not at all (partial)

* Model: `Model/Collection`: sites with optional force and energy, collections with their arrays, Python slice objects, the output folder.
* Proof: the effects in order; the sets by C39.
* Result: Violated: the old folder is removed before the first thing that can fail. Proved for exports that succeed. C162_failure: what every failed export leaves behind.
* Theorems: `C162_success_partial`, `C162_violated`, `C162_failure`

### C163 HIGHK lists every k-point once (proved)

* Model: `Model/KptFile`: the rows written and read, as character lists.
* Proof: splitting of padded words; rounding error of the format.
* Result: Labels without white space, formula without line break.
* Theorems: `C163_highk`

### C164 gen.kpt states every segment of every path (proved)

* Model: `Model/KptFile`: the rows written and read, as character lists.
* Proof: C51 for the segments; then as C163; whole numbers with `.0` read back.
* Result: Labels without white space. The number of points is that of C51; below 10^16.
* Theorems: `C164_gen_kpt`

### C165 The readers of IN.KPT agree row by row (proved)

* Model: `Model/KptFile`: the rows written and read, as character lists.
* Proof: position by position through the two filters.
* Result: Every text of the file; a row without a fourth word makes the weights fail.
* Theorems: `C165_rows`, `C165_hsp`, `C165_blank_rejected`

### C166 The number of k-points announced is the number listed (partial)

* Model: `Model/KptFile`: the rows written and read, as character lists.
* Proof: evaluation of the counterexample; digits read back.
* Result: Violated: header and rows are never compared (witness). Proved: the header is returned as written.
* Theorems: `C166_violated`, `C166_number_partial`

### C167 Cartesian k-points are converted or refused (partial)

* Model: `Model/KptFile`: the rows written and read, as character lists.
* Proof: uniqueness of reciprocal vectors; comparison of two components.
* Result: Violated: iflag is read and not used (witness: in a cell 1, 2, 1 the point (1, 1, 0) comes out in another direction); a non-integer a0 is a ValueError. Proved for fractional coordinates.
* Theorems: `C167_violated`, `C167_violated_unit`, `C167_fractional_partial`

### C168 DOS.input holds the settings (proved)

* Model: `Model/KptFile`: the rows written and read, as character lists.
* Proof: splitting row by row; rounding error of the format.
* Result: All settings; the smearing is printed with five decimals.
* Theorems: `C168_dos_input`

### C169 gen.vext states the potential which was asked for (partial)

* Model: `Model/KptFile`: the rows written and read, as character lists.
* Proof: splitting row by row.
* Result: Violated: numbers of parameters and coordinates are not checked. Proved: the kind is checked, and the file states what was given.
* Theorems: `C169_violated`, `C169_text_partial`, `C169_violated_example`

### C170 get_in_atom names the structure file of the REPORT (partial)

* Model: `Model/KptFile`: the rows written and read, as character lists.
* Proof: search for the first row, as C45; evaluation for the stale case. Exact form by the cases of the remembered row.
* Result: Violated for a REPORT which was written again (stale rows of linecache). Proved for the first read, and that a missing row is refused. C170_exact: the result for every REPORT and every remembered copy of it.
* Theorems: `C170_exact`, `C170_in_atom_partial`, `C170_missing_rejected`, `C170_stale`

### C171 The Python and the C++ environment matrices agree (partial)

* Model: both models side by side (Model/Neigh, DeepMD and Model/CellList, EnvMatrix); Spec/Cross.lean
* Proof: both lists are the images within the cutoff (C17/C19 and C94), so the rows are permutations of each other; sorted lists without ties are equal. Exact form: an atom at the cutoff gives the Python code one more row with a positive weight than the C++ code has.
* Result: Violated for an atom exactly at the cutoff (Python gives it weight 1/rcut, C++ does not list it; witness: cubic cell of edge 1, cutoff 1). Proved when no atom is exactly at the cutoff, for cells the C++ list handles (CellOk), images more than sqrt(1e-3) apart, and enough slots. C171_agree_iff: under these conditions the two agree iff no atom is exactly at the cutoff.
* Theorems: `C171_agree_partial`, `C171_violated_at_cutoff`, `C171_agree_iff`

### C172 MtpMCoeffPairCombs can be built for every level (partial)

* Model: `combsMake`, `schemesRun` (Model/MtpLevel.lean); std::sort is any sort together with its number of assignments
* Proof: exhibit two moments the sort has to exchange; induction on the recursion for the partial result.
* Result: Violated: MtpMCoeffPair::operator= does not return a value, and std::sort uses it. From level 9 on every correct sort has to move an element; a sort that assigns whenever there are two elements, as in libstdc++, is undefined from level 4 on. Partial: levels up to 3 return the combinations of C100, and whenever the constructor returns it has these.
* Theorems: `C172_violated_level_nine`, `C172_violated_two_moments`, `C172_small_partial`

### C173 An AlignedArray of n elements is aligned and has room for them (partial)

* Model: `aAlloc`, `aResize`, `aAddr` (Model/AlignedArray.lean) over an arbitrary allocator
* Proof: bit by bit: masking with ~15 rounds down to a multiple of 16; linear arithmetic. Negative sizes: the wrapped number of bytes is at least 2^63 and no allocator has it, unless sizeof(T)*|n| is at most 15.
* Result: Violated: a negative size is accepted when sizeof(T)*|n| <= 15 (an int array of size -1 takes 11 bytes and reports size -1). Partial: sizes from 0 to 2^31-1, any allocator. The constructors of T are never run, so T has to be a plain type. C173_negative_exact: what happens for every negative size.
* Theorems: `C173_aligned_partial`, `C173_resize_partial`, `C173_violated_negative_size`, `C173_negative_exact`

### C174 AlignedArrays behave like values and can be kept in collections (partial)

* Model: `aRun` (Model/AlignedArray.lean) against lists as values (Spec/AlignedArray.lean)
* Proof: simulation: blocks are disjoint, each owned by one name, and hold its list; induction over the program.
* Result: Violated: the class has a destructor but the compiler's copy constructor and assignment, so copies share their elements and the block is freed twice; assignment leaks the old block. Partial: all programs that do not copy, until memory runs out.
* Theorems: `C174_values_partial`, `C174_violated_copy`, `C174_violated_assign`

### C175 Vec3 operators act componentwise with correct rounding (partial)

* Model: `v3Step`, `v3Run` (Model/Vec3.lean) over doubles as rationals with rounding `fl` (Model/Float64.lean), against `v3Ref` (Spec/Vec3.lean)
* Proof: induction over the program; scaling by powers of two commutes with rounding; relative error of one rounding at most 2^-53.
* Result: Violated: / and /= multiply by the rounded reciprocal, so 49/49 is below 1. Partial: all other operators and division by powers of two in full; for every other divisor a relative error of at most 2^-52 + 2^-106. Doubles without overflow, underflow, NaN; no fused multiply-add.
* Theorems: `C175_values_partial`, `C175_index_rejected`, `C175_zero_divisor`, `C175_violated_quotient`, `C175_quotient_partial`

### C176 Dot and cross products of Vec3 keep their identities in doubles (partial)

* Model: `v3Dot`, `v3Cross` (Model/Vec3.lean)
* Proof: rounding is odd and monotone at 0; error propagation; kernel computation for the witness.
* Result: Violated: the cross product is not orthogonal to its factors in doubles (witness (0.1,0.1,0.1) x (0.1,0.3,0.7)). The other identities hold exactly; error bounds proved.
* Theorems: `C176_identities_partial`, `C176_errors`, `C176_violated_orthogonal`

### C177 FFInfer.calc_tildeR gives one complete feature block per ordered pair of elements (partial)

* Model: `ffTildeR` (Model/FFInfer.lean) on top of the neighbour table and `getTildeR`
* Proof: C26 for each pair; keys are injective; induction over the pairs.
* Result: Violated for the width 0: if every centre has at most one neighbour of the element, it is dropped without an error (witness). Partial: complete blocks for sufficient widths, KeyError for a missing element, ValueError for a too small width other than 0. feature/deepmd/preprocess.py imports the missing module data/deepmd/data_system.py (for an annotation); the code is taken without this import.
* Theorems: `C177_features`, `C177_missing_element`, `C177_too_small_partial`, `C177_violated_width`

### C178 The descriptor factories create what was registered and refuse other names (partial)

* Model: `factoryStep`, `factoryCreate` (Model/Factory.lean), classes are arbitrary values
* Proof: induction over the registrations.
* Result: Violated: an unknown name raises KeyError (the ValueError branch is only reached for a registered None), and a decorated class is None under its own name. Partial: the last registration wins.
* Theorems: `C178_last_registration_partial`, `C178_violated_unknown`, `C178_violated_class_name`

### C179 Environment matrices depend only on the crystal (partial)

* Model: `neighborTable`, `getTildeR` against the infinite crystal (Spec/Crystal.lean)
* Proof: both supercells contain exactly the points of the crystal around a centre (bound on lattice coefficients); lists without repetition and equal members are permutations of each other; sorted distances are equal.
* Result: Violated when an atom is stored far outside the cell of the others: its images near them are not in the supercell (witness: Si five cells away, environment matrix zero). Partial: both supercells reach the cutoff beyond every atom.
* Theorems: `C179_same_crystal_partial`, `C179_violated_stored_image`

### C180 The C++ environment matrix depends only on the crystal, up to rotation (partial)

* Model: `NbrLists.make`, `findInfo`, `envFind` against the infinite crystal (Spec/CrystalCpp.lean)
* Proof: the neighbour list holds every image near a centre once; positions relative to the centre of both inputs are lists without repetition with members related by the rotation, so they are permutations; rows and derivatives of a rotated vector are the rotated rows and derivatives.
* Result: Violated for cells with lattice vectors pointing backwards: the cubic crystal written with negated lattice vectors makes the neighbour list read out of bounds, with the usual vectors it works. Partial: both cells satisfy CellOk (proper, atoms wrapped, a forward lattice vector along every axis).
* Theorems: `C180_same_crystal_partial`, `C180_violated_backward_cell`

### C181 The basis functions of the moment tensor potentials depend only on the crystal (partial)

* Model: `NbrLists.make`, `findInfo`, `mtpForward` (Spec/MtpCrystal.lean copies the tables into tensors as the test of the module does)
* Proof: the basis functions of an atom are a function of its type and of the types and relative positions of its neighbours (Lemmas/MtpCrystal.lean); these lists are permutations of each other up to the rotation once rows beyond the cutoff, which contribute nothing, are dropped; rotation invariance as in C105.
* Result: Violated when rcut_smooth is not positive: padding rows (index -1, position 0) then count as neighbours of the type of the last atom, and an atom without neighbours gets the number of slots as its first basis function. Partial: rcut_smooth > 0, and both cells satisfy CellOk (otherwise see C180).
* Theorems: `C181_same_crystal_partial`, `C181_violated_smooth_zero`

### C182 The basis functions of the moment tensor potentials change smoothly when atoms move (partial)

* Model: as C181
* Proof: the basis functions are a function of the relative positions (C181); near a given arrangement the neighbours inside the cutoff are, up to order, among the images of a fixed list (those within cutoff + 1 of the given arrangement), images beyond the cutoff contribute 0, and the resulting fixed finite sum of products is differentiable because each radial factor is (Lemmas/MtpSmooth.lean).
* Result: Violated at the distance rcut_smooth: two atoms in a cubic cell have basis function 0 at every distance below rcut_smooth and 1 at rcut_smooth. Partial: no atom of the crystal at the distance rcut_smooth of the centre; rcut_smooth > 0.
* Theorems: `C182_smooth_partial`, `C182_violated_jump`

### C183 The fat-band tables of an orbital hold the weights of that orbital (partial)

* Model: Model/Dos.lean `fatOrbitalDfs`
* Proof: reading and splitting as for C79; the mask of the code is unfolded to "contains, ignoring case" and, when no stranger contains the name, coincides with equality ignoring case (Props/FatOrbital.lean). Exact form: the mask is the stated containment of names.
* Result: Violated: the name is searched anywhere in the column names, so asking for S-4Py in a file with arsenic also returns As-4Py (and Mo-4Dx also Mo-4Dxy); files with one band cannot be read. Partial: two or more bands, no other column contains the name. C183_exact: which columns come out for every name, and exactly when only the one asked for does.
* Theorems: `C183_exact`, `C183_orbital_partial`, `C183_violated_contains`, `C183_violated_substring`, `C183_single_band`

### C184 Energies built on the C++ environment matrix have the forces its derivative table gives (proved)

* Model: as C94, `typedCrystal`, `CrystalRoom` of C180
* Proof: near given positions the slots of a type are, up to order, among a fixed list of images (those within rcut + 1); an image beyond rcut has row 0 and block 0 and so counts like padding; the fixed finite sum is differentiated with C91 and the chain rule (Lemmas/EnvSmooth.lean, Props/EnvSmooth.lean).
* Result: Frechet derivative within the set of positions the list handles (atoms wrapped, images apart, room in the slots), from the structure through the neighbour list and the tables; C184_energy is the consequence for energies. C184_interior: where all atoms lie strictly inside the cell and there are slots for a slightly larger cutoff, the derivative is one without restriction.
* Theorems: `C184_forces`, `C184_energy`, `C184_interior`

### C185 In doubles the C++ neighbour list files wrapped atoms into existing bins (partial)

* Model: `BinList.makeD flR`, `NbrLists.makeD flR` (Model/CellListD.lean: the functions of Model/CellList.lean with a rounding after every operation; with `R := id` they are those functions, `makeD_id`)
* Proof: the failing crystal is evaluated with the rounding lemmas of Lemmas/FloatR.lean; for the rest, error bounds of the image positions, the lower limit and the projected length (Lemmas/CellListDErr.lean) are absorbed by the distance to the faces.
* Result: C185_violated: cubic cell of edge 1, cutoff 1, third coordinate 1 - 2^-53: the image in the next cell rounds to the upper face and the head array is written past its end. C185_bins_in_range_partial covers atoms that keep off the upper faces by the tolerance.
* Theorems: `C185_violated`, `C185_bins_in_range_partial`

### C186 In doubles the C++ neighbour tables are complete and accurate up to rounding (proved)

* Model: as C185, `findInfoD flR`
* Proof: the lists hold exactly the stored images that pass the rounded distance test, once (Lemmas/CellListD.lean, CellListDInfo.lean); the rounded interplanar distances give a supercell that holds all images within the cutoff less the tolerance (CellListDPlane.lean, CellListDWidth.lean); rounded distances and bin indices are compared with the exact ones (CellListDClose.lean, CellListDMain.lean).
* Result: Double arithmetic without overflow, underflow or fused operations; the same functions as C82 with a rounding after every operation. CellOkD excludes the inputs on which C185 fails.
* Theorems: `C186_find_info_double`

### C187 In doubles the smoothing weight is never negative and never grows with the distance (partial)

* Model: `smoothD flR` (Model/EnvMatrixD.lean: the functions of Model/EnvMatrix.lean with a rounding after every operation; with `R := id` they are those functions, `envRowD_id`, `envDerivD_id`)
* Proof: the witness is evaluated in rationals by the kernel (`smoothD_cast`); the bound follows the roundings through the polynomial (`near_smoothD`), the exact weight is antitone by the sign of its derivative.
* Result: C187_violated: rcut_smooth 1, rcut 2: negative at the double 2 - 2^-26, positive at the larger double 2 - 2^-27. C187_weight_partial: error at most 2^-46 / d everywhere, hence sign and monotonicity up to that margin, exact zero from the cutoff on.
* Theorems: `C187_violated`, `C187_weight_partial`

### C188 In doubles the environment matrix has the rows of the images of the crystal up to rounding (proved)

* Model: `NbrLists.makeD flR`, `findInfoD flR`, `envFindD flR`
* Proof: C186 gives the images and relative coordinates up to rounding (`nbr_double_core`); the roundings of one row and the Lipschitz bounds of the exact row add up to the tolerance (Lemmas/EnvMatrixD.lean, EnvMatrixDRow.lean), and the slots are filled as in C94 (`env_fill`).
* Result: Double arithmetic without overflow, underflow or fused operations; std::pow correctly rounded. The tolerance is envTol = 32 nbrTol (1/(rcut - rcut_smooth) + 1/d) / d.
* Theorems: `C188_env_double`

### C189 In doubles the derivative table is the derivative of the exact rows up to rounding (proved)

* Model: as C188
* Proof: as C188 with the bounds of the second derivative of the switching function (`cSwitchDeriv_lip`, `CloseVec.deriv`); `hasFDerivAt_envRow` identifies the exact blocks with the derivative.
* Result: As C188; the tolerance is envDerivTol = 256 nbrTol (1/(rcut - rcut_smooth) + 1/d)^2 / d.
* Theorems: `C189_env_deriv_double`

### C190 Voxels file each particle exactly once (partial)

* Model: `Voxels.make`, `Voxels.insert` (Model/Voxels.lean)
* Proof: the table keeps its shape and each bin is the filtered list of particles (`Voxels.fill_ok`), by induction. Exact form by the cases of the constructor; with no voxels along a direction the clamped index is outside the table.
* Result: C190_violated_open: without periodicity the numbers of voxels are never set. C190_violated_wide: voxels more than twice as wide as the box, no voxels at all. C190_filed_partial covers the rest. The class is taken with a VoxelIndex that compiles. C190_exact: what happens for every box, size and periodicity.
* Theorems: `C190_violated_open`, `C190_violated_wide`, `C190_filed_partial`, `C190_exact`

### C191 The voxel of a particle contains its location (partial)

* Model: `Voxels.make`, `Voxels.index`
* Proof: witness computed; otherwise the wrapped coordinates lie in the box (`wrap_one`), so the index is not clamped (`clamp_floor`). Exact form: the first boundary between two cells of a wrong size is filed wrongly.
* Result: C191_violated: the constructor assigns voxelSizeY twice and voxelSizeZ never. C191_contains_partial: square voxels that divide the box. C191_holds_iff: it holds iff the requested size along z divides the box and the voxels are as wide along y as along z, directions with one voxel not counted.
* Theorems: `C191_violated`, `C191_contains_partial`, `C191_holds_iff`

### C192 Periodic images of a particle are filed into the same voxel (proved)

* Model: `Voxels.index`, `Voxels.insert`
* Proof: the floors shift by the integers of the lattice vector (`Voxels.wrapped_image`).
* Result: Exact arithmetic; reduced form: box[0][1] = box[0][2] = box[1][2] = 0.
* Theorems: `C192_images`

### C193 Binary search in a voxel delimits the particles of a range of x (proved)

* Model: `Voxels.sortItems`, `Voxels.findLower`, `Voxels.findUpper`
* Proof: insertion sort by the order of pairs; loop invariant of the binary search (`lowerLoop_spec`, `upperLoop_spec`).
* Result: The comments of the header promise <= for findLowerBound and >= for findUpperBound; the code finds the first x >= a and the first x > b, as in OpenMM.
* Theorems: `C193_search`, `C193_part`

### C194 The tables of Se4pw give the derivatives of energies by the positions of all atoms (proved)

* Model: `NbrLists.make`, `NbrLists.toSe4pw` (Model/Se4pwInput.lean), `se4pwGenerate`, `primIndices`
* Proof: the slots hold the images within the cutoff and the index of their atom (`se4pw_slots`); near a structure the sum is one over a fixed finite set of images with a differentiable extension by the padding value (`slots_deriv`).
* Result: Frechet derivative within the set of positions the list handles; arguments of Se4pw prepared as in demo_se4pw.cc.
* Theorems: `C194_tables`, `C194_forces`

### C195 The forces assembled from the tables of Se4pw are those of the energy and add up to zero (proved)

* Model: as C194
* Proof: chain rule on C194 along displacements of one atom; a slot contributes once with each sign. Interior: distances of images change little uniformly (`positions_nhds`).
* Result: C195_newton: within the set of positions the list handles. C195_forces_at: without restriction where all atoms lie strictly inside the cell and there are slots for a slightly larger cutoff.
* Theorems: `C195_newton`, `C195_forces_at`

### C196 The tables of Se4pw give the virial (proved)

* Model: as C194
* Proof: the same with positions of images that depend linearly on the deformation (`slots_deriv_gen`, `strain_deriv`, `strains_nhds`).
* Result: C196_virial: within the set of deformations after which the list handles the structure. C196_virial_at: without restriction where there are slots for a slightly larger cutoff.
* Theorems: `C196_tables`, `C196_virial`, `C196_virial_at`

### C197 A MOVEMENT file can be opened (partial)

* Model: `abstractNames`, `construct`, `openMovement` (Model/AbstractClass.lean)
* Proof: the abstract names of a class are the names whose lookup gives an abstract method (`mem_abstractNames`), by induction over the bases.
* Result: C197_violated: Movement leaves get_frame_volume and get_max_num_nbrs_real of Trajectory abstract, so every call is a TypeError. C197_subclass_partial: derived classes with the two methods open exactly the files with a separator row.
* Theorems: `C197_violated`, `C197_subclass_partial`, `C197_others`

### C198 Bond statistics can be set up for every trajectory (partial)

* Model: `newAvgBond`, `newPairBond`
* Proof: from C197 and C44_all_frames_reader_raises.
* Result: C198_violated: TypeError for every file (C197). C198_violated_derived: with a derived class that adds the missing methods still an error for every file (from_str, C48).
* Theorems: `C198_violated`, `C198_violated_derived`

### C199 A normaliser survives being saved and loaded (proved)

* Model: `SavedNormalizer.to`, `normalizerFromFile` (Model/NormFile.lean)
* Proof: exact condition for a file to load (`C199_loads_iff`), then the written file meets it.
* Result: A data set is the value it was given; the bytes of hdf5 are not modelled. A data set of another kind than to() writes is refused in the model, where h5py hands it out.
* Theorems: `C199_loads_iff`, `C199_round_trip`, `C199_rejects`

### C200 Normalisation statistics come from every environment row of the selected frames (partial)

* Model: `systemStats`, `systemTildeR`, `frameTildeR` (Model/NormBuild.lean)
* Proof: the flattened matrix is, up to order and rows of zeros, the list of environment rows (`PadPerm`), on which the statistics depend only through sums.
* Result: Violated for frames with different numbers of atoms of a centre element: np.concatenate refuses them (ValueError; witness, and C200_returns_iff says exactly when). Partial: equal numbers. feature/deepmd/preprocess.py imports the missing module data/deepmd/data_system.py (for an annotation); the code is taken without this import.
* Theorems: `C200_statistics_partial`, `C200_returns_iff`, `C200_index`, `C200_order`, `C200_violated_counts`

### C201 Normalising the frames a normaliser was made from standardises them (proved)

* Model: `systemStats` (Model/NormBuild.lean), `Normalizer.normalize` (Model/DeepMD.lean)
* Proof: the rows of a centre element in the normalised matrices are the rows of the statistics under an affine map; the moments follow.
* Result: Exact arithmetic. The neighbour list must equal the centre list, see C31. feature/deepmd/preprocess.py imports the missing module data/deepmd/data_system.py (for an annotation); the code is taken without this import.
* Theorems: `C201_standardised`

### C202 Sorted folder names give back the order of the frames (partial)

* Model: `StructCollection.to`, `InfoSet.toDir`, `setName`, `partName` (Model/Dataset.lean)
* Proof: digit strings of the same length are ordered like their values; beyond 1000 folders the names of numbers 999 and 1000 are compared.
* Result: Names different and numbered in order (C39_names, C38_names), always. Sorted as texts they are in order iff there are at most 1000 folders (C202_sets_partial, C202_parts_partial), that is at most 1000 p frames (C202_frames); violated beyond, where set.1000 comes before set.101.
* Theorems: `C202_sets_partial`, `C202_parts_partial`, `C202_frames`, `C202_violated`

### C203 A data set made from a folder of trajectories holds every frame once (proved)

* Model: `infoSetsFromDir`, `infoSetsToDir`, `infoSetFromFile`, `InfoSet.toDir` (Model/Dataset.lean)
* Proof: the reading of every file, the grouping by formula text and the slicing of every array are composed; sublists by formula give a permutation of the files.
* Result: Every list of files and part size >= 1 (C203_every_frame_once), without a part size (C203_default). C203_written_iff: writing succeeds iff no folder is there; size 0 and existing folders are errors (C203_rejected). What a frame states is what the frame reader reads (C10, C45, C46).
* Theorems: `C203_every_frame_once`, `C203_default`, `C203_written_iff`, `C203_rejected`

### C204 Virials and atomic energies stated by a frame reach the data set (partial)

* Model: same as C203
* Proof: the mark of a file, taken from its first frame, is set iff all its frames state the quantity, since otherwise the file is not read; a group keeps an optional array iff all members have it.
* Result: Exact: the file is in all parts of a folder, with the right rows, iff every frame merged into the folder states the quantity; one frame without it removes the file from the folder. Violated: the values of the other frames are then lost without an error.
* Theorems: `C204_optional_exact_partial`, `C204_violated`

### C205 Box, widths and plane distances of a C++ cell (proved)

* Model: `CStruct.limitXyz`, `CStruct.projectedLengths`, `CStruct.interplanarDistances` (Model/CellLimits.lean), `CStruct.vertexes`, `CStruct.minLimit`, `CStruct.maxLimit`, `CStruct.makeSupercell` (Model/CellList.lean)
* Proof: a coordinate is linear in the three parameters, so extremal at a vertex; the foot of the perpendicular to the plane attains the plane distance.
* Result: Every cell, real arithmetic (rounding: C185). Structures without atoms: null pointers for widths and distances, undefined reads for the box (C205_no_atoms).
* Theorems: `C205_box`, `C205_planes`, `C205_supercell`, `C205_no_atoms`

### C206 From numpy arrays to the descriptors of a batch (partial)

* Model: `npToEnv`, `stackInfos`, `stackTen`, `denseStrides` (Model/NumpyPipe.lean), `bindFindInfo` (Model/Bind.lean), `envOp` (Model/EnvOp.lean)
* Proof: contiguous stacked tensors hold the frames (C132, the shapes of the arrays), every frame alone is C94, and the operator is the frames one after the other (C151); for a wrong number of columns the position of a visited neighbour is computed to be padding.
* Result: C206_batch_partial: contiguous arrays of doubles and 32 bit integers, types instead of atomic numbers, enough slots, and as many columns as slots. Nothing checks the last condition: with more columns, or with fewer under the bound stated, the operator reads the type of atom -1 (C206_violated_wide, C206_violated_narrow). Rounding to float32 is not modelled. Unequal or no structures: C206_different_sizes, C206_no_structures.
* Theorems: `C206_batch_partial`, `C206_violated_wide`, `C206_violated_narrow`, `C206_different_sizes`, `C206_no_structures`

### C207 Printouts of a neighbour list (proved)

* Model: `NbrLists.showIndex`, `NbrLists.showPrimIndex`, `NbrLists.showAn`, `NbrLists.showDistances` (Model/NbrShow.lean)
* Proof: every entry of a list is the place of an image in the supercell (as for C82); the printouts read that place.
* Result: Every cell of C82, images closer than sqrt(1/1000) left out as there; real arithmetic. Number formats and the line with the cutoff are not modelled.
* Theorems: `C207_shows`

### C208 Python neighbour table in doubles (proved)

* Model: `neighborTableD`, `Struct.makeSupercellD`, `Struct.getKeyIdxsD`, `nbrEntriesD` (Model/NeighD.lean)
* Proof: the sorted supercell is built once as a list of pairs (exact site, stored site); sorting and the choice of the centres look at elements only, so both supercells have the same order; rounding errors of positions and distances are added up and the two filters compared. Without rounding the model is that of C17 (`neighborTableD_id`).
* Result: Rounding after every operation, correctly rounded sqrt, no overflow or underflow. Scaling factors 2m+1 with m at most 2^52. pymatgen's way of storing Cartesian coordinates (through fractional ones) is any function with an error of at most delta per coordinate, 2 delta <= M. Errors: delta + 9 M 2^-53 per coordinate, 6 delta + 126 M 2^-53 per distance; not claimed to be the best. C208_cutoff_missed: the margin cannot be dropped; an atom exactly at the cutoff is lost though all data are exact doubles.
* Theorems: `C208_table_doubles`, `C208_same_atoms`, `C208_crystal`, `C208_cutoff_missed`

### C209 Python environment matrix and derivatives in doubles (proved)

* Model: `extractFeaturePairD`, `getTildeRD`, `calcDerivativeD`, `envRowPyD`, `derivBlockD` (Model/DeepMDD.lean), `neighborTableD` (Model/NeighD.lean)
* Proof: the computed distance is the rounded length of the same rounded difference that is the relative position; below the cutoff the Python row is then the C++ row in doubles, whose error bounds are those of C188; the derivative block has its own error analysis because the order of the operations differs; the centre is the first entry of its row because every other atom is at least rho away. Without rounding the model is the one in reals (`getTildeRD_id`, `calcDerivativeD_id`).
* Result: Rounding after every operation in the order of the source, correctly rounded sqrt and powers, no overflow or underflow; storing of coordinates as in C208. Bounds with tau = 2 delta + 400 M 2^-53: 32 tau (1/(rcut-rs) + 1/rho)/rho for the values, 256 tau (1/(rcut-rs) + 1/rho)^2/rho for the derivatives; 64 tau <= rho and 64 tau <= rcut - rs are assumed; not claimed to be the best. C209_cutoff_jump: the margin at the cutoff cannot be dropped (the code gives 1/d, not 0, at d = rcut).
* Theorems: `C209_env_doubles`, `C209_cutoff_jump`

### C210 Python and C++ environment matrices agree in doubles (proved)

* Model: `neighborTableD`, `getTildeRD`, `calcDerivativeD` (Model/NeighD.lean, DeepMDD.lean), `NbrLists.makeD`, `findInfoD`, `envFindD` (Model/CellListD.lean, EnvMatrixD.lean)
* Proof: with the margin at the cutoff both codes list exactly the images within the cutoff; the atoms of the supercell and the images of the C++ list are matched by position (`crystal_perm_nodup`), and both values are compared with the exact row and derivative of the same image.
* Result: Tolerances: pyEnvTol and pyDerivTol (as C209), envTol and envDerivTol (as C188, C189). In the example, a skew cell with cutoff 3, they add up to less than 1e-8 and 1e-7. Agreement is up to the order of the slots. At the cutoff the codes differ already without rounding (C171_violated_at_cutoff); C209_cutoff_jump shows that the margin is needed.
* Theorems: `C210_agree_doubles`

### C211 Features change little when atoms move little (proved)

* Model: `makeSupercell`, `neighborTable`, `getTildeR`, `calcDerivative` (Model/Neigh.lean, DeepMD.lean)
* Proof: the sites of both supercells are listed as pairs (stable sorting by element moves pairs, `movedSorted_fst`, `movedSorted_snd`); the margin at the cutoff makes both filters keep the same pairs (`moved_nbrs`); one slot changes by the bound of `env_move`, from the error bounds of C188 and C189.
* Result: Exact arithmetic. eps is also at least 2^-48 rcut; this restricts only the bound, since eps may be taken larger. The order of the slots may change: equally distant neighbours can swap places. At the cutoff the features do jump (C209_cutoff_jump).
* Theorems: `C211_stable`

### C212 Saving and loading a structure changes its features only by the dropped digits (proved)

* Model: as C211, and `toPwmat`, `fromFile` (Model/StructIO.lean)
* Proof: C07 bounds the change of lattice and fractional coordinates, `displaced_saved` turns it into a displacement of every image, and C211 does the rest.
* Result: Positions in the file are taken exactly as printed (C07); elements are numbered by an arbitrary function of the species text. In the example, lithium and oxygen in a skew cell with cutoff 3, the bounds are 1/40 and 3/5: they are worst-case bounds, not the typical change.
* Theorems: `C212_saved`

### C213 Supercells compose (proved)

* Model: `makeSupercell` (Model/Structure.lean)
* Proof: every shift of the product cell is n + (2k+1) n' for exactly one pair of shifts (`shiftsZ_twice`, division with centred remainder); the sites follow as a permutation (`superSites_twice`); sorted lists with the same elements have the same element column. `makeSupercell_reject` gives the refusals.
* Result: Exact arithmetic; two negative factors whose product is positive and odd are the only case in which one way is refused and the other is not, and it is excluded by positivity.
* Theorems: `C213_twice`, `C213_even`

### C214 Features of a supercell are copies of those of the cell (proved)

* Model: `makeSupercell`, `neighborTable`, `getTildeR`, `calcDerivative` (Model/Neigh.lean, DeepMD.lean)
* Proof: the supercell describes the same crystal (`crystal_super`), so the neighbours of every copy are those of the original atom (`relNbrs_perm_of_nodup`); C213 shows that no two atoms of the larger supercell coincide; `env_multiset` writes the features as a multiset over the centres, and the sum over shifts gives the factor.
* Result: Exact arithmetic. C214_copies asks that both supercells reach the cutoff (`Reaches`, C179); C214_sum derives this for atoms stored inside the cell from the plane distances, as C19 does.
* Theorems: `C214_copies`, `C214_sum`

### C215 C++ features of a supercell are copies of those of the cell (partial)

* Model: `CStruct.makeSupercell`, `NbrLists.make`, `findInfo`, `envFind` (Model/CellList.lean, EnvMatrix.lean)
* Proof: the supercell describes the same crystal (`typedCrystal_super`, from C85) and keeps images apart (`supercell_apart`); for factors 1 and 2 the atoms stay inside (`supercell_ok`) and C180 compares the rows. For a factor of three or more the lowest copy has a negative bin number along z, so the linear bin number is negative (`make_oob`).
* Result: Violated. make_supercell puts the copies around the original cell, so with a factor of three or more some lie below it, while the bins of the neighbour list start at the lower faces of the supercell it makes itself. With c parallel to z and perpendicular to a and b, every factor of three or more along c writes outside the bin array, whatever the atoms and the cutoff (C215_violated). With factors 1 and 2 all copies stay inside and the claim holds (C215_copies_partial).
* Theorems: `C215_copies_partial`, `C215_violated`

### C216 C++ features change little when atoms move little (partial)

* Model: `CStruct.make`, `NbrLists.make`, `findInfo`, `envFind` (Model/CellList.lean, EnvMatrix.lean)
* Proof: images within the cutoff have small cell indices (`near_small`), so the same images are within the cutoff before and after (`SmallMove.nearBy`); each slot moves by `env_move` of C211; the match of the slots gives the sorted weights by counting (`decreasing_close`). An atom below an upright cell has a negative bin number along z (`below_cell`).
* Result: Violated. An atom on a face of the cell can be moved out of it by an arbitrarily small displacement. In an upright cell (c along z, a and b perpendicular to z) the neighbour list then writes outside the bin array, for every cutoff and however small the move (C216_violated). When the atoms stay inside the cell the claim holds with explicit constants (C216_stable_partial).
* Theorems: `C216_stable_partial`, `C216_violated`

### C217 Neighbour lists depend on positions only, not on element numbers (proved)

* Model: `CStruct.makeD`, `BinList.makeD`, `NbrLists.makeD`, `findInfoD` (Model/CellListD.lean), `maxNumOf`, `maxNbrsOf`
* Proof: every step commutes with the renumbering (`binsD_relabel`, `buildD_relabel`, `findInfoD_relabel`), errors included; counts by injectivity.
* Result: Proved without hypotheses, for exact arithmetic and any rounding.
* Theorems: `C217_labels`, `C217_counts`

### C218 TildeR and EnvMatrix agree slot by slot (proved)

* Model: `Tilde.ofStructure`, `Tilde.generate`, `Tilde.deriv` (Model/TildeR.lean), `NbrLists.make`, `findInfo`, `envFind`
* Proof: both run on the same lists by C217; both results are written in terms of the images behind the lists (`nbr_reads_lists`, `env_core_lists`), and the slots of the elements are the slots of the types (`slots_blocks`).
* Result: Proved. The cell must be one the neighbour list handles (`CellOk`) and no two atoms may be closer than the tolerance of the code; the list of elements has no repetition and covers the structure.
* Theorems: `C218_agree`

### C219 Se4pw and EnvMatrix agree on the same neighbour tables (proved)

* Model: `envFind`, `se4pwGenerate` (Model/EnvMatrix.lean)
* Proof: the slot loop commutes with a map on the values, errors included (`slotStep_map`, `slotFill_map`); the derivative blocks are negatives of each other (`se4pwDeriv_neg`).
* Result: Proved. The only hypothesis is that the relative positions belong to the positions (`RelOf`), which includes that the positions of the centres and of the listed neighbours exist.
* Theorems: `C219_agree`

### C220 Se4pw in doubles (proved)

* Model: `se4pwGenerateD`, `se4pwDerivD` (Model/Se4pwD.lean), `envFindD`
* Proof: rows: both loops are maps of one loop (`slotFill_map`); accuracy: the rounded and the exact loop run side by side (`se4pw_pairs`), every written pair is close (`CloseVec.row`, `CloseVec.seDeriv`) and the loop keeps what holds for all values (`slotFill_forall`).
* Result: Proved. As in C188, doubles have no overflow or underflow, and std::pow and std::sqrt round correctly. The exact derivatives are those of C194.
* Theorems: `C220_rows`, `C220_accuracy`

### C221 TildeR in doubles (proved)

* Model: `pairGenerateLmpD`, `pairDerivLmpD`, `tildeGenerateLmpD`, `tildeDerivLmpD`, `tildeGenerateIntoD`, `tildeDerivIntoD` (Model/TildeRD.lean)
* Proof: the rounded and the exact loops run side by side on pairs of values (`pairBoth`, `pairBothD`, `table_mapped`), every written pair is close (`slotNear_val`, shared with C220) and the loops keep what holds for all values (`pairLmp_allIn`, `table_allIn`).
* Result: Proved for the static functions: those that allocate their result and those that fill an array of the caller, whatever its size and contents. As in C188, doubles have no overflow or underflow, and std::pow and std::sqrt round correctly. The exact values are those of C134.
* Theorems: `C221_pair`, `C221_values`, `C221_derivatives`, `C221_fill_values`, `C221_fill_derivatives`

### C222 Normalised features of a structure in doubles (proved)

* Model: `normalizeRowD`, `normalizeDerivD`, `Normalizer.blockD`, `normalizeWith`, `Normalizer.normalizeD` (Model/DeepMDNormD.lean)
* Proof: the blocks of each pair are those of C209 (`pyD_rows`); two relative errors for the standardised entry (`norm_err`), one for the derivative (`norm_deriv_err`); the place of the blocks in the assembled rows from `normalizeWith_core`, which also serves C29 and C31. Without rounding the model is `Normalizer.normalize` (`normalizeD_id`).
* Result: Proved for equal centre and neighbour element lists (otherwise C31). The averages and deviations are any given doubles with positive deviations; how calc_stats computes them is C30, where also a deviation that is not a number occurs (C30_double_nan). Rounding, storing of coordinates and the bounds before normalisation as in C209.
* Theorems: `C222_normalized`

### C223 Averages and deviations of the normaliser in doubles (proved)

* Model: `SumsTo`, `NpSum`, `calcStdD`, `calcPairStatsD` (Model/NormStatsD.lean)
* Proof: induction over the brackets of a sum bounds its error by 2 n u times the sum of the absolute values (`SumsTo.err`); the error of the variance follows from those of the two sums (`var_err`), that of the floored root because the root is Lipschitz above 1e-4 (`sqrt_floor_lip`). The witness of the limit is computed in rationals (`three_nan`).
* Result: Proved. C223_floor: every deviation that is a number is above 1/101, which is the hypothesis on the deviations in C222. No overflow and no underflow. The constants 176 and 9616 are not the best possible ones. The exact statistics are C30, the use of the deviations C222.
* Theorems: `C223_average`, `C223_deviation`, `C223_floor`, `C223_no_samples`, `C223_violated_constant`

### C224 Mean-square displacements in doubles (proved)

* Model: `meanSquareD`, `calcMsdSD`, `calcMsdD` (Model/MsdD.lean)
* Proof: the errors of the rounded differences (`sumSq_flR`), of the sum in any order (`list_sums`) and of the division are put together in `meanSquareD_err`; the exact values are those of `calcMsdS_same`. The errors agree call by call (`calcMsdSD_error`, `mapM_error_congr`).
* Result: Proved. No overflow and no underflow; np.power(x, 2) is x * x rounded once. Coordinates are the ones the structures hold. At least three processors, as in C56, which has the exact values.
* Theorems: `C224_values`, `C224_at_rest`, `C224_zero_iff`, `C224_errors`

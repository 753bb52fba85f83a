{"id": "C01", "title": "MOVEMENT frames partition the trajectory file", "statement": "For every MOVEMENT text that has at least one separator row (a row containing 38 dashes), opening it with MVExtractor or with a class derived from Movement (which is abstract, C197) yields (if the constructor accepts the file; the one of Movement accepts every such file, MVExtractor additionally parses the first frame) as many frames as separator rows; the texts of frames 0..n-1, concatenated in order, are exactly the file's text up to and including its last separator row; every frame text ends with a separator row and contains no other. A text with no separator row is rejected at construction.", "quantifier": "every file text (any number of rows, any frame sizes, trailing rows after the last separator, missing final newline)", "why_tests_cant": "Frame boundaries depend on arbitrary row counts and cumulative sums; a test fixes a handful of frame sizes, an off-by-one that moves one row to the neighbouring frame only shows for particular layouts.", "anchors": ["matersdk/io/pwmat/utils/mvextractor.py::MVExtractor.get_chunksizes", "matersdk/io/pwmat/utils/mvextractor.py::MVExtractor.get_chunkslices", "matersdk/io/pwmat/utils/mvextractor.py::MVExtractor.get_frame_str", "matersdk/io/pwmat/output/movement.py::Movement.get_chunksize", "matersdk/io/pwmat/output/movement.py::Movement.get_chunkslice", "matersdk/io/pwmat/output/movement.py::Movement._get_frame_str"]}
{"id": "C02", "title": "Random access and sequential reading give the same frame", "statement": "For every MOVEMENT text and every frame index, the frame text obtained by random access (get_frame_info / _get_frame_str) equals the text consumed for that frame by the sequential readers (get_frames_info / get_all_frame_structures); an index past the last frame is rejected with an error.", "quantifier": "every file text and every frame index (in range and out of range)", "why_tests_cant": "Two independent loops (range test on line numbers, counted readline calls) must agree for all layouts, including when rows follow the last separator.", "anchors": ["matersdk/io/pwmat/utils/mvextractor.py::MVExtractor.get_frame_str", "matersdk/io/pwmat/utils/mvextractor.py::MVExtractor.get_frames_info", "matersdk/io/pwmat/output/movement.py::Movement._get_frame_str", "matersdk/io/pwmat/output/movement.py::Movement.get_all_frame_structures"]}
{"id": "C03", "title": "Row locators are sound, complete and ordered", "statement": "For every text and every search string, the located row numbers are exactly the rows whose upper-cased content contains the search string, each reported once, in increasing order; the file locator counts from 1 and the list locator from 0, so on the same rows their answers differ by exactly one.", "quantifier": "every list of rows and every search string", "why_tests_cant": "Soundness and completeness quantify over all rows; a test only observes chosen rows.", "anchors": ["matersdk/io/pwmat/utils/lineLocator.py::LineLocator.locate_all_lines", "matersdk/io/pwmat/utils/lineLocator.py::ListLocator.locate_all_lines"]}
{"id": "C04", "title": "A search string with a lower-case letter is never found", "statement": "A locator called with a search string that contains a lower-case ASCII letter reports no row at all, whatever the file contains.", "quantifier": "every list of rows and every search string containing a lower-case letter", "why_tests_cant": "It is a statement about all possible files.", "anchors": ["matersdk/io/pwmat/utils/lineLocator.py::LineLocator.locate_all_lines", "matersdk/io/pwmat/utils/lineLocator.py::ListLocator.locate_all_lines"]}
{"id": "C05", "title": "Element symbol and atomic number tables are inverse bijections", "statement": "Looking up a symbol for an atomic number and then the number for that symbol returns the original number, and conversely; no two elements share a symbol or a number; the tables cover exactly 0..118 and any other number or symbol is a lookup error.", "quantifier": "every atomic number (all naturals) and every string", "why_tests_cant": "The negative part (everything else is an error) ranges over infinitely many strings and numbers.", "anchors": ["matersdk/io/pwmat/utils/parameters.py::atomic_number2specie", "matersdk/io/pwmat/utils/parameters.py::specie2atomic_number"]}
{"id": "C06", "title": "Reading an atom.config returns what the file says, positionally", "statement": "For every atom.config text, reading it returns the count in the first row, the three lattice rows that follow the first LATTICE row, and for atom k the atomic number and the three coordinates of the k-th row after the first POSITION row; a file without a LATTICE or POSITION row is an error, never a default.", "quantifier": "every atom.config text (any header spacing, any number of rows between or after the blocks)", "why_tests_cant": "Row arithmetic mixes 1-based and 0-based numbers (linecache rows vs slices of readlines); correctness for all block positions needs a proof.", "anchors": ["matersdk/io/pwmat/utils/acextractor.py::ACExtractor.get_num_atoms", "matersdk/io/pwmat/utils/acextractor.py::ACExtractor.get_basis_vectors", "matersdk/io/pwmat/utils/acextractor.py::ACExtractor.get_types", "matersdk/io/pwmat/utils/acextractor.py::ACExtractor.get_coords"]}
{"id": "C07", "title": "Write then read of an atom.config is faithful to the printed precision", "statement": "Writing any structure made of real elements (atomic numbers 1..118) to a fresh path in pwmat format and reading it back succeeds and gives the same number of atoms, the same atomic numbers in the same order, each fractional coordinate changed by at most 5e-7, and each lattice entry changed by at most 5e-7 times its absolute value (E format with 6 decimals).", "quantifier": "every number of atoms, every atomic number 1..118, every rational lattice entry and fractional coordinate (negative, zero, large, tiny)", "why_tests_cant": "Field widths, sign handling, digit counts and exponent carries vary with the value; a column that runs into its neighbour only appears for particular magnitudes.", "anchors": ["matersdk/io/publicLayer/structure.py::DStructure.to", "matersdk/io/publicLayer/structure.py::DStructure.from_file", "matersdk/io/pwmat/utils/acextractor.py::ACExtractor"]}
{"id": "C08", "title": "Magnetic moments survive write and read", "statement": "Writing a structure with include_magnetic_moments=True and then asking the reader for magnetic moments returns, for atom k, the moment of atom k up to 0.005; for a file with no magnetic block the reader returns one zero per atom.", "quantifier": "every structure and every list of rational moments of matching length", "why_tests_cant": "The fallback-to-zeros branch hides parse errors, so agreement on a sample does not exclude silent zeros elsewhere.", "anchors": ["matersdk/io/publicLayer/structure.py::DStructure.to", "matersdk/io/pwmat/utils/acextractor.py::ACExtractor.get_magmoms"]}
{"id": "C09", "title": "Re-reading a rewritten file returns the new content", "statement": "After a path has been read once, rewriting it and reading it again with the same API returns the structure now stored in the file.", "quantifier": "every history of writes and reads on one path", "why_tests_cant": "It is a property of histories: a process-wide line cache keeps rows from the first read, so only particular read-write-read sequences expose stale atom counts and lattices.", "anchors": ["matersdk/io/pwmat/utils/acextractor.py::ACExtractor.get_num_atoms", "matersdk/io/pwmat/utils/acextractor.py::ACExtractor.get_basis_vectors", "matersdk/io/publicLayer/structure.py::DStructure.from_file"]}
{"id": "C10", "title": "Sorting by element keeps sites intact", "statement": "reformat_elements_ leaves the multiset of (element, position) sites unchanged, orders them by non-decreasing atomic number, keeps the relative order of sites of the same element, and calling it twice equals calling it once.", "quantifier": "every structure (any number and order of sites)", "why_tests_cant": "Stability and multiset preservation quantify over all site lists.", "anchors": ["matersdk/io/publicLayer/structure.py::DStructure.reformat_elements_"]}
{"id": "C11", "title": "Reordering by a list of elements moves positions together with species", "statement": "reformat_elements(elements) returns a structure with the same set of (element, position) sites, grouped in the order of the given list.", "quantifier": "every structure and every duplicate-free element list covering it", "why_tests_cant": "Whether positions travel with species is invisible on structures already grouped in the requested order.", "anchors": ["matersdk/io/publicLayer/structure.py::DStructure.reformat_elements"]}
{"id": "C12", "title": "Odd supercells contain every lattice translate exactly once", "statement": "For positive odd scaling factors (a,b,c), make_supercell_ returns n*a*b*c sites: for every integer triple (i,j,k) with |i|<=(a-1)/2, |j|<=(b-1)/2, |k|<=(c-1)/2 and every original site, exactly one site of the same element at the position shifted by i*A+j*B+k*C, and nothing else; the original cell comes first, unshifted and in the original order; the lattice rows are multiplied by a, b, c. Any even factor is rejected.", "quantifier": "every structure, every lattice and every triple of positive scaling factors", "why_tests_cant": "The translate enumeration, the removal and re-insertion of the zero shift, and the pairing of species with coordinates must be right for all factor triples.", "anchors": ["matersdk/io/publicLayer/structure.py::DStructure.make_supercell_"]}
{"id": "C13", "title": "Key indices locate the primitive cell inside the sorted supercell", "statement": "For odd scaling factors, the indices returned by get_key_idxs are strictly increasing, have one entry per primitive site, are valid in the element-sorted supercell, and the sites found there are exactly the primitive cell's own sites (as sorted by element).", "quantifier": "every structure and every triple of odd scaling factors", "why_tests_cant": "It composes two stable sorts and an inverse permutation over arbitrary site lists.", "anchors": ["matersdk/io/publicLayer/structure.py::DStructure.get_key_idxs", "matersdk/io/publicLayer/structure.py::DStructure._get_bidx2aidx_supercell", "matersdk/io/publicLayer/structure.py::DStructure.make_supercell_"]}
{"id": "C14", "title": "Removing vacancies removes only vacancies", "statement": "remove_vacanies deletes every site of the vacancy species and no other site.", "quantifier": "every structure with any number and placement of vacancies", "why_tests_cant": "With at most one vacancy the code works; only structures with two or more vacancies expose the repeated deletion of shifted indices.", "anchors": ["matersdk/io/publicLayer/structure.py::DStructure.remove_vacanies"]}
{"id": "C15", "title": "Atom counts are complete", "statement": "get_natoms() returns the total number of sites followed by per-element counts that are each positive, one entry per distinct element, and sum to the total; with an explicit element order the entries are the counts in that order, 0 for absent elements.", "quantifier": "every structure and every element order", "why_tests_cant": "Completeness (entries sum to total, one per distinct element) ranges over all species multisets.", "anchors": ["matersdk/io/publicLayer/structure.py::DStructure.get_natoms"]}
{"id": "C16", "title": "Periodic images map back to their primitive atom", "statement": "For every structure with an invertible lattice in which no two atoms are periodic images of each other (within the tolerance), get_site_index applied to atom k shifted by any integer combination of lattice vectors returns k+1; a returned 0 means that no atom is within tolerance of being an image.", "quantifier": "every lattice, every atom list, every integer shift", "why_tests_cant": "The shift ranges over all of Z^3 and the lattice over all invertible matrices.", "anchors": ["matersdk/io/publicLayer/structure.py::DStructure.get_site_index"]}
{"id": "C17", "title": "The neighbour table lists exactly the atoms within the cutoff", "statement": "For every structure, odd scaling factors and cutoff r>=0, row i of the neighbour table (atomic numbers, distances, coordinates) lists, sorted by non-decreasing distance, every supercell atom whose distance to the i-th centre is <= r, each exactly once, followed by zeros only; all rows have the same length, which is the largest number of atoms within r over all centres.", "quantifier": "every structure, every odd scaling triple, every real cutoff, every admissible tie-breaking of the sort", "why_tests_cant": "Set equality with the geometric neighbourhood must hold for all inputs; ties are broken by an unstable sort so even a golden test is implementation dependent.", "anchors": ["matersdk/io/publicLayer/neigh.py::StructureNeighborsV1._get_key_neighs_info"]}
{"id": "C18", "title": "The first neighbour entry is the centre itself", "statement": "If no two supercell atoms coincide and r>=0, entry 0 of each row is the centre atom: its own atomic number, distance 0 and its own coordinates; every other real entry has positive distance.", "quantifier": "every structure without coincident atoms", "why_tests_cant": "Downstream code drops column 0 blindly; that column 0 is the centre for all inputs is an invariant.", "anchors": ["matersdk/io/publicLayer/neigh.py::StructureNeighborsV1._get_key_neighs_info"]}
{"id": "C19", "title": "A large enough supercell misses no periodic neighbour", "statement": "If all fractional coordinates lie in [0,1) and for each axis the odd factor s satisfies r <= ((s-1)/2)*h, where h is the distance between the lattice planes of that axis, then every atom of the infinite crystal within distance r of a primitive atom occurs in the supercell.", "quantifier": "every lattice, every atom list, every cutoff", "why_tests_cant": "It is a geometric statement about infinitely many periodic images.", "anchors": ["matersdk/io/publicLayer/structure.py::DStructure.make_supercell_", "matersdk/io/publicLayer/neigh.py::StructureNeighborsV1._get_key_neighs_info"]}
{"id": "C20", "title": "The reported maximum neighbour count bounds every centre", "statement": "get_max_num_nbrs_real returns the maximum over centres of the number of other atoms strictly closer than the cutoff, and therefore is an upper bound for the number of neighbours the neighbour table lists for any centre.", "quantifier": "every structure and cutoff, including atoms exactly at the cutoff distance", "why_tests_cant": "The two functions use < and <= respectively; the claim only breaks when an atom sits exactly on the cutoff.", "anchors": ["matersdk/io/publicLayer/neigh.py::StructureNeighborsUtils.get_max_num_nbrs_real", "matersdk/io/publicLayer/neigh.py::StructureNeighborsV1._get_key_neighs_info"]}
{"id": "C21", "title": "Per-element maxima are exact and consistent with the total", "statement": "get_max_num_nbrs_real_element returns, for each requested element, the maximum over centres of the number of atoms of that element strictly within the cutoff other than the centre; each entry is at most the all-element maximum, which is at most the sum of the entries when every element present is requested.", "quantifier": "every structure, cutoff and element list", "why_tests_cant": "Relations between two different counting functions over all structures.", "anchors": ["matersdk/io/publicLayer/neigh.py::StructureNeighborsUtils.get_max_num_nbrs_real_element", "matersdk/io/publicLayer/neigh.py::StructureNeighborsUtils.get_max_num_nbrs_real"]}
{"id": "C22", "title": "Padding in the neighbour index list is never an atom", "statement": "In the list of neighbour indices for PWmat-MLFF, entry j of a centre's row is a valid 1-based primitive index for each real neighbour of the requested element and 0 for every padding slot.", "quantifier": "every structure, centre element and neighbour element", "why_tests_cant": "Padding slots pass through the coordinate lookup as (0,0,0); they are only mistaken for an atom when some atom sits on a lattice point.", "anchors": ["matersdk/io/publicLayer/neigh.py::StructureNeighborsUtils._get_nbrs_indices", "matersdk/io/publicLayer/structure.py::DStructure.get_site_index"]}
{"id": "C23", "title": "Feature pairs contain exactly the requested element's neighbours", "statement": "Extracting the feature pair (centre element, neighbour element) keeps exactly the rows whose centre has the requested element, and in each row exactly the non-centre neighbours of the requested neighbour element, in their original (distance) order with their own distance and coordinates relative to the centre, padded with zeros to the requested width; a width smaller than the real maximum is rejected.", "quantifier": "every neighbour table, pair of elements and width", "why_tests_cant": "Boolean masks, repeated axes and padding interact; only a proof covers all mask patterns.", "anchors": ["matersdk/feature/deepmd/premise.py::DpFeaturePairPremiseDescriptor", "matersdk/feature/deepmd/premise.py::DpFeaturePairPremiseV1.extract_feature_pair", "matersdk/feature/deepmd/premise.py::DpFeaturePairPremiseV1.expand_rc"]}
{"id": "C24", "title": "The smooth weight is bounded, non-negative and monotone", "statement": "For 0 < rs < rcut and every neighbour distance 0 < r < rcut, the weight s(r) of the environment matrix satisfies 0 <= s(r) <= 1/r, equals 1/r for r <= rs, and decreases as r grows; for distance 0 (padding) it is 0.", "quantifier": "every rs < rcut and every real distance", "why_tests_cant": "Bounds of a quintic polynomial over an interval cannot be established by sampling.", "anchors": ["matersdk/feature/deepmd/se_pair.py::DpseTildeRPairV1._get_s"]}
{"id": "C25", "title": "The smooth weight vanishes continuously at the cutoff", "statement": "The weight s(r) tends to 0 as r approaches rcut from below and is 0 for all r >= rcut, so that an atom entering or leaving the cutoff sphere does not change the features discontinuously.", "quantifier": "every rs < rcut and every distance, including exactly rcut", "why_tests_cant": "Continuity is a limit statement; the jump at exactly r = rcut is a single point that random tests miss.", "anchors": ["matersdk/feature/deepmd/se_pair.py::DpseTildeRPairV1._get_s", "matersdk/io/publicLayer/neigh.py::StructureNeighborsV1._get_key_neighs_info"]}
{"id": "C26", "title": "Environment-matrix rows are weight times unit vector", "statement": "Every real row of the environment matrix is (s, s*x/r, s*y/r, s*z/r) for the neighbour's relative coordinates (x,y,z) and distance r, so its last three entries have Euclidean norm s; padding rows are all zero; the number of rows equals the requested width.", "quantifier": "every feature pair and every width", "why_tests_cant": "Quantifies over all neighbour sets; division by zero on padding must be masked for all of them.", "anchors": ["matersdk/feature/deepmd/se_pair.py::DpseTildeRPairV1._get_tildeR", "matersdk/feature/deepmd/se_pair.py::DpseTildeRPairV1.get_tildeR"]}
{"id": "C27", "title": "Reported derivatives are the true derivatives", "statement": "For every neighbour with 0 < r < rcut (r different from rs), the 4x3 derivative block returned for it is the derivative of its environment-matrix row with respect to the centre atom's coordinates; for padding it is zero.", "quantifier": "every relative position and every rs < rcut", "why_tests_cant": "Finite differences only approximate; equality with the analytic derivative for all positions needs calculus.", "anchors": ["matersdk/feature/deepmd/se_pair.py::DpseTildeRPairV1._calc_derivative", "matersdk/feature/deepmd/se_pair.py::DpseTildeRPairV1.calc_derivative"]}
{"id": "C28", "title": "Environment matrix respects translation and rotation", "statement": "Translating all atoms by the same vector leaves every environment-matrix row unchanged; applying an orthogonal matrix to the relative coordinates leaves s unchanged and rotates the remaining three entries by the same matrix.", "quantifier": "every structure, translation vector and orthogonal matrix", "why_tests_cant": "Symmetry under a continuous group cannot be sampled exhaustively.", "anchors": ["matersdk/feature/deepmd/se_pair.py::DpseTildeRPairV1._get_tildeR"]}
{"id": "C29", "title": "Whole-structure environment matrix places each pair block at its fixed slot", "statement": "The assembled environment matrix has one row per centre atom grouped by centre element, and within a row the block of neighbour element k occupies the columns from the sum of widths before k, so a network can rely on column position to identify the neighbour element.", "quantifier": "every list of centre elements, neighbour elements and widths", "why_tests_cant": "Offsets depend on all preceding widths.", "anchors": ["matersdk/feature/deepmd/se.py::DpseTildeRPairV1.get_tildeR", "matersdk/feature/deepmd/preprocess.py::TildeRNormalizer.normalize"]}
{"id": "C30", "title": "Normalisation never divides by (nearly) zero and is invertible", "statement": "The standard deviation used by the normaliser is always at least 1e-2, and un-normalising a normalised environment matrix gives back the original values.", "quantifier": "every set of sample statistics, including constant or empty channels", "why_tests_cant": "Degenerate statistics (all equal, rounding below zero variance) are exactly the inputs tests omit.", "anchors": ["matersdk/feature/deepmd/preprocess.py::TildeRPairNormalizer._calc_std", "matersdk/feature/deepmd/preprocess.py::TildeRPairNormalizer.normalize", "matersdk/feature/deepmd/preprocess.py::TildeRPairNormalizer.calc_stats"]}
{"id": "C31", "title": "The full normaliser covers every neighbour element of every centre", "statement": "TildeRNormalizer.normalize applies, for each centre element, the statistics to the block of every neighbour element, whatever the two element lists are.", "quantifier": "every pair of centre and neighbour element lists", "why_tests_cant": "When the two lists coincide the wrong loop variable is invisible.", "anchors": ["matersdk/feature/deepmd/preprocess.py::TildeRNormalizer.normalize"]}
{"id": "C32", "title": "Conduction-band minimum is the minimum above the Fermi level", "statement": "For a non-metal, the CBM energy returned is the smallest eigen-energy at or above the Fermi energy, rounded to 4 decimals, over all k-points, bands and spins; the VBM energy is the largest at or below it, rounded likewise.", "quantifier": "every eigen-energy table (any number of k-points, bands, spins) and Fermi energy", "why_tests_cant": "Running-minimum loops over arbitrary tables; rounding inside the comparison changes the selected entry only for close values.", "anchors": ["matersdk/io/pwmat/output/report.py::Report.get_cbm", "matersdk/io/pwmat/output/report.py::Report.get_vbm"]}
{"id": "C33", "title": "The band gap is non-negative", "statement": "Whenever a band gap is returned it is >= 0, and it equals CBM minus VBM up to rounding.", "quantifier": "every eigen-energy table and Fermi energy given to 3 decimals", "why_tests_cant": "Rounding of both band edges could in principle cross; excluding it needs monotonicity of rounding for all values.", "anchors": ["matersdk/io/pwmat/output/report.py::Report.get_bandgap"]}
{"id": "C34", "title": "A system is called metallic iff some band crosses the Fermi level", "statement": "The metal test returns true exactly when some band has, over all k-points of a spin channel, both an energy strictly above and an energy strictly below (as the code compares) the Fermi energy.", "quantifier": "every eigen-energy table", "why_tests_cant": "Quantifier over all bands, k-points and spins.", "anchors": ["matersdk/io/pwmat/output/report.py::Report._is_metal"]}
{"id": "C35", "title": "Direct gap is reported iff the band edges share a k-point", "statement": "The band-gap type is 1 (direct) iff the k-point of the reported VBM and that of the reported CBM coincide, and 0 otherwise, including when several bands or k-points are degenerate at the edge.", "quantifier": "every eigen-energy table, including degenerate band edges", "why_tests_cant": "Degenerate edges at different k-points are rare in fixtures.", "anchors": ["matersdk/io/pwmat/output/report.py::Report.get_bandgap_type", "matersdk/io/pwmat/output/report.py::Report.get_cbm", "matersdk/io/pwmat/output/report.py::Report.get_vbm"]}
{"id": "C36", "title": "Eigen-energy blocks are assigned to the right k-point and spin", "statement": "For a REPORT whose eigen-energy section has one block per k-point and spin with five values per row, the parsed tables contain, for k-point k and band b, the b-th value of block k (first spin) or of block num_kpts+k (second spin).", "quantifier": "every number of bands (multiple of five or not), k-points and spins", "why_tests_cant": "Row arithmetic with ceil(num_bands/5) must be right for all band counts.", "anchors": ["matersdk/io/pwmat/output/report.py::Report.get_eigen_energies"]}
{"id": "C37", "title": "k-path distances start at zero and never decrease", "statement": "The accumulated distance along a k-path starts at 0, is non-decreasing, and has one entry per k-point; within a continuous segment, consecutive values differ by the reciprocal-space distance of the two k-points; at a jump between path segments the value does not advance.", "quantifier": "every k-point list, labelling and segment structure", "why_tests_cant": "Segment detection and shift accumulation must be right for any number of segments.", "anchors": ["matersdk/io/pwmat/input/inkpt.py::Inkpt.get_distance_from_gamma_A", "matersdk/io/pwmat/input/inkpt.py::Inkpt._split_distances_from_gamma_lst", "matersdk/io/pwmat/input/inkpt.py::Inkpt.get_distance_from_gamma_bohr"]}
{"id": "C38", "title": "Exported dataset parts partition the frames", "statement": "Writing an InfoSet to a directory in parts of size p creates consecutive parts, none empty, each of p frames except possibly the last, whose concatenation in order is the list of all frames, for every kind of data written.", "quantifier": "every number of frames and part size >= 1", "why_tests_cant": "Exact multiples, fewer frames than the part size, and zero frames are boundary cases of an integer division plus one.", "anchors": ["matersdk/data/infoset.py::InfoSet.to_dir"]}
{"id": "C39", "title": "Exported structure-collection sets partition the frames", "statement": "StructCollection.to writes sets of set_size frames (the last possibly smaller, none empty) whose concatenation is the collection, and each frame's energy, force, virial, box and coordinates land at the same position of the same set.", "quantifier": "every number of frames and set size >= 1", "why_tests_cant": "Alignment across arrays must hold for all sizes.", "anchors": ["matersdk/data/struct_collection.py::StructCollection.to"]}
{"id": "C40", "title": "Type indices decode to the original atomic numbers", "statement": "Each stored type index, looked up in the stored list of atomic numbers, gives the original atomic number of that atom; an atom whose number is missing from the list is an error.", "quantifier": "every list of atomic numbers and every type map", "why_tests_cant": "Inverse relation between a search and an indexing over arbitrary lists (duplicates included).", "anchors": ["matersdk/data/infoset.py::InfoSet.from_file", "matersdk/data/infosets.py::InfoSets.from_dir"]}
{"id": "C41", "title": "Merging trajectories conserves frames", "statement": "InfoSets.from_dir groups trajectories by composition without losing or duplicating frames: the number of frames of the groups sums to that of the inputs, and every group contains exactly the frames of its members, in order.", "quantifier": "every list of trajectories and compositions", "why_tests_cant": "Conservation over arbitrary groupings.", "anchors": ["matersdk/data/infosets.py::InfoSets.from_dir", "matersdk/data/infosets.py::InfoSets.get_num_frames"]}
{"id": "C42", "title": "Every merged group carries its own composition", "statement": "The composition stored with a merged group is the composition of its frames.", "quantifier": "every list of trajectories with at least two different compositions", "why_tests_cant": "With a single composition the stale loop variable happens to be right.", "anchors": ["matersdk/data/infosets.py::InfoSets.from_dir"]}
{"id": "C43", "title": "Selecting frames by index returns those frames", "statement": "StructCollection.from_indices(indices) returns a collection whose k-th frame is frame indices[k] of the source, for every index list within range; an index out of range is an error.", "quantifier": "every trajectory and index list (repeats and any order)", "why_tests_cant": "Order and multiplicity for all index lists; the off-by-one range check only matters for index = number of frames.", "anchors": ["matersdk/data/struct_collection.py::StructCollection.from_indices", "matersdk/data/struct_collection.py::StructCollection.__getitem__"]}
{"id": "C44", "title": "Energies parsed by the different readers agree", "statement": "For a trajectory header row in PWmat's current format, the total energy returned by the per-frame reader, by the all-frames reader and by the frame-string extractor is the same number, namely the first of the three values after the Etot,Ep,Ek label.", "quantifier": "every atom count, iteration time and energy triple", "why_tests_cant": "Three independent token-position conventions must agree on all values.", "anchors": ["matersdk/io/pwmat/output/movement.py::Movement.get_frame_energy", "matersdk/io/pwmat/output/movement.py::Movement.get_all_frame_structures_info", "matersdk/io/pwmat/utils/acextractor.py::ACstrExtractor.get_etot"]}
{"id": "C45", "title": "Virials stay aligned with their frames", "statement": "The i-th virial tensor returned for a trajectory belongs to the i-th frame.", "quantifier": "every trajectory in which each frame may or may not carry stress", "why_tests_cant": "Only trajectories mixing frames with and without stress expose the shift.", "anchors": ["matersdk/io/pwmat/output/movement.py::Movement.get_all_frame_structures_info", "matersdk/io/pwmat/output/movement.py::Movement.get_frame_virial"]}
{"id": "C46", "title": "Forces are the file's forces or an error", "statement": "The forces returned for a frame are the three numbers following the atomic number in each row of its force block; a frame with a malformed or truncated force block is reported as an error rather than as zero forces.", "quantifier": "every frame text", "why_tests_cant": "The blanket exception handler makes malformed blocks look like valid zero forces.", "anchors": ["matersdk/io/pwmat/utils/acextractor.py::ACstrExtractor.get_fatoms"]}
{"id": "C47", "title": "Magnetic moments of a frame are retrievable", "statement": "If a frame contains a magnetic block, the frame extractor returns its moments.", "quantifier": "every frame text with a magnetic block", "why_tests_cant": "The property fails for all inputs because of a type error swallowed by an exception handler; the fallback hides it.", "anchors": ["matersdk/io/pwmat/utils/acextractor.py::ACstrExtractor.get_magmoms", "matersdk/io/pwmat/utils/mvextractor.py::MVExtractor._find_extra_properties"]}
{"id": "C48", "title": "Loading a structure from a trajectory frame string succeeds", "statement": "DStructure.from_str on a well-formed frame text in pwmat format returns the structure described by the text.", "quantifier": "every well-formed frame text", "why_tests_cant": "The attribute access fails for all inputs; a proof shows no input can succeed.", "anchors": ["matersdk/io/publicLayer/structure.py::DStructure.from_str", "matersdk/io/pwmat/utils/acextractor.py::ACstrExtractor.__init__", "matersdk/io/pwmat/output/movement.py::Movement.get_frame_structure"]}
{"id": "C49", "title": "k-mesh divisions are at least one", "statement": "Every division of the generated k-mesh is an integer >= 1; it is 1 along vacuum directions and when the requested density is 0.", "quantifier": "every lattice, vacuum pattern and density", "why_tests_cant": "Rounding to zero happens only for long axes or small densities.", "anchors": ["matersdk/calculation/kpoints/kmesh.py::KMesh.get_kmesh"]}
{"id": "C50", "title": "Two-dimensional k-paths only use existing in-plane points", "statement": "For a two-dimensional system every label used in a returned path is one of the returned k-points, every returned k-point has zero third coordinate, and every returned path has at least two points; consecutive labels keep their original order.", "quantifier": "every k-point dictionary and path list", "why_tests_cant": "Filtering nested lists for all dictionaries.", "anchors": ["matersdk/calculation/kpath/kpathSampler.py::KpathSampler._get_kpoints", "matersdk/calculation/kpath/kpathSampler.py::KpathSampler._get_kpaths"]}
{"id": "C51", "title": "k-path segment density uses the reciprocal-space length", "statement": "The number of points written for a path segment is the ceiling of its reciprocal-space Euclidean length divided by the density.", "quantifier": "every reciprocal lattice and pair of end points", "why_tests_cant": "For orthogonal lattices the elementwise formula coincides with the right one.", "anchors": ["matersdk/calculation/kpath/kpathSampler.py::KpathSampler.output_gen_kpt"]}
{"id": "C52", "title": "Perturbed cells keep fractional coordinates and atom count", "statement": "Perturbing a structure yields the requested number of structures, each with the same species in the same order; a strain perturbation alone leaves the fractional coordinates unchanged, and the strain matrix is symmetric with diagonal in [1-f,1+f]. A negative amplitude is rejected.", "quantifier": "every structure, amplitude and random draw", "why_tests_cant": "Quantifies over all random draws.", "anchors": ["matersdk/adalearn/generator/perturbation.py::PerturbStructure.perturb", "matersdk/adalearn/generator/perturbation.py::PerturbStructure.get_cell_perturb_matrix", "matersdk/adalearn/generator/perturbation.py::PerturbStructure.get_atom_perturb_vector"]}
{"id": "C53", "title": "Lower-triangular rotation preserves the cell geometry", "statement": "Rotating a cell to lower-triangular form preserves all lattice-vector lengths and mutual angles (the Gram matrix) and works for every non-singular cell.", "quantifier": "every non-singular 3x3 cell, left- and right-handed", "why_tests_cant": "Left-handed cells make the determinant assertion fail; typical fixtures are right-handed.", "anchors": ["matersdk/adalearn/generator/perturbation.py::PerturbStructure.rot_lower_triangular"]}
{"id": "C54", "title": "Average bond length lies between the shortest and longest bond", "statement": "Whenever at least one bond of the requested element pair exists within the cutoff, the average bond length is between the smallest and the largest such bond length; when none exists no number is returned.", "quantifier": "every structure, element pair and cutoff", "why_tests_cant": "Zero-padding must not enter the average for any structure.", "anchors": ["matersdk/feature/avg/avgbond.py::AvgBond.get_avg_bond_length"]}
{"id": "C55", "title": "Tetrahedrality averages run over distinct neighbour pairs", "statement": "The angle-based order parameter sums over pairs of distinct neighbours only.", "quantifier": "every structure and element triple", "why_tests_cant": "Self pairs are only included when the two neighbour elements are equal.", "anchors": ["matersdk/feature/avg/avgangle.py::AvgAngle.get_avg_bond"]}
{"id": "C56", "title": "Mean-square displacement is non-negative and translation invariant", "statement": "Every mean-square displacement value is >= 0, is 0 when consecutive frames coincide, and the centroid-corrected variant is unchanged when each frame is rigidly translated by its own vector; the number of values is the number of frames minus one.", "quantifier": "every trajectory", "why_tests_cant": "Invariance under arbitrary translations.", "anchors": ["matersdk/feature/avg/msd.py::Msd.calc_msd", "matersdk/feature/avg/msd.py::Msd.calc_msd_sub_centroid"]}
{"id": "C57", "title": "The adjacency matrix is symmetric with zero diagonal", "statement": "The periodic-image adjacency matrix is symmetric, has entries 0 or 1 and a zero diagonal for every odd supercell.", "quantifier": "every structure and cutoff", "why_tests_cant": "Symmetry over all structures.", "anchors": ["matersdk/feature/graph/edge.py::AdjacentMatrix.get_adjacent_matrix"]}
{"id": "C58", "title": "Projected DOS of an element sums only that element's columns", "statement": "The partial density of states of an element is the sum of the columns belonging to that element.", "quantifier": "every set of column labels", "why_tests_cant": "Prefix matching is right unless one symbol is a prefix of another (S, Si, Se, Sn, ...).", "anchors": ["matersdk/io/pwmat/output/dostotalspin.py::Dostotalspin.get_pdos_elements", "matersdk/io/pwmat/output/fatabandstructureTxt.py::FatbandStructure.get_element_dfs_lst"]}
{"id": "C59", "title": "Every scheduler directive stands on its own line", "statement": "In the generated Slurm script every #SBATCH directive is on a line of its own.", "quantifier": "every job parameter set", "why_tests_cant": "It is a statement on all generated scripts; missing newlines make the scheduler ignore directives silently.", "anchors": ["matersdk/hpc/slurm/job.py::Job.to"]}
{"id": "C60", "title": "A truncated position block is rejected", "statement": "Reading an atom.config whose position block has fewer rows than the announced number of atoms is an error; a file with enough rows yields exactly the announced number of atoms.", "quantifier": "every atom.config text, every announced count and every number of rows actually present", "why_tests_cant": "Truncation can happen at any row; a test only sees the lengths it tries, and slicing hides the loss silently.", "anchors": ["matersdk/io/pwmat/utils/acextractor.py::ACExtractor", "matersdk/io/publicLayer/structure.py::DStructure.from_file"]}
{"id": "C61", "title": "A failed write never leaves a readable shortened structure", "statement": "If writing a structure raises an exception (for example because a species label carries an oxidation state), the target file is not left in a state that a later read accepts as a structure with fewer atoms.", "quantifier": "every structure, every position of the offending site, every earlier file content", "why_tests_cant": "The state left behind after an exception depends on how many rows were written before it; a test asserting the exception never looks at the file.", "anchors": ["matersdk/io/publicLayer/structure.py::DStructure.to"]}
{"id": "C62", "title": "Repeated write/read cycles do not drift", "statement": "After one write/read cycle of a structure, any further write/read cycle returns exactly the same structure.", "quantifier": "every structure of real elements with rational entries", "why_tests_cant": "Idempotence of the printed precision (fixed and scientific formats with half-even rounding) must hold for every value, including those that carry into the next decade.", "anchors": ["matersdk/io/publicLayer/structure.py::DStructure.to", "matersdk/io/publicLayer/structure.py::DStructure.from_file"]}
{"id": "C63", "title": "Frame record equals the row of the trajectory arrays", "statement": "Whenever MVExtractor.get_frames_info returns, get_info_labels names its arrays in order, every array has one row per frame, and for every frame index i get_frame_info(i) returns exactly row i of each array in the same order.", "quantifier": "every trajectory text, every frame index", "why_tests_cant": "Relates two readers that consume the file differently, over all files and all combinations of optional blocks.", "anchors": ["matersdk/io/pwmat/utils/mvextractor.py::MVExtractor.get_frame_info", "matersdk/io/pwmat/utils/mvextractor.py::MVExtractor.get_frames_info", "matersdk/io/pwmat/utils/mvextractor.py::MVExtractor.get_info_labels"]}
{"id": "C64", "title": "File reader and frame-string reader agree", "statement": "For a text with a count row and complete lattice and position blocks, ACExtractor on a file with that text and ACstrExtractor on the text itself return the same number of atoms, lattice, types and coordinates.", "quantifier": "every such text", "why_tests_cant": "The two classes are separate implementations (1-based rows with newlines and linecache versus 0-based rows without); agreement must hold for every layout.", "anchors": ["matersdk/io/pwmat/utils/acextractor.py::ACExtractor", "matersdk/io/pwmat/utils/acextractor.py::ACstrExtractor"]}
{"id": "C65", "title": "Data set fields hold the like-named data of every frame", "statement": "InfoSet.from_file returns arrays whose i-th row is the box, coordinates, total energy, forces, and (when the first frame has them) virial and atomic energies of the i-th frame of the trajectory; optional arrays absent from the first frame are reported as absent, and every array has one row per frame.", "quantifier": "every trajectory text and list of atomic numbers for which the reader returns", "why_tests_cant": "The arrays are picked by position from a list whose length depends on three optional marks; each combination and any number of frames matter.", "anchors": ["matersdk/data/infoset.py::InfoSet.from_file", "matersdk/io/pwmat/utils/mvextractor.py::MVExtractor.get_frames_info"]}
{"id": "C66", "title": "Re-reading an overwritten REPORT uses the numbers now in the file", "statement": "Whenever a Report is created for a path, the numbers of bands and k-points and the eigen-energies are those of the file as it is at that moment, even if another REPORT at the same path was read earlier in the process.", "quantifier": "every pair of old and new file contents at one path", "why_tests_cant": "Tests read each fixture once, so process-wide caching of file rows is invisible.", "anchors": ["matersdk/io/pwmat/output/report.py::Report.get_num_bands", "matersdk/io/pwmat/output/report.py::Report.get_num_kpts", "matersdk/io/pwmat/output/report.py::Report.get_eigen_energies"]}
{"id": "C67", "title": "A gap is called direct whenever some k-point holds both band edges", "statement": "If some k-point has a band at the conduction-band minimum and a band at the valence-band maximum, the band-gap type is 1 (direct); otherwise it is 0.", "quantifier": "every eigen-energy table, including edges that occur at several k-points", "why_tests_cant": "Needs tables in which an edge is degenerate between k-points, in every order.", "anchors": ["matersdk/io/pwmat/output/report.py::Report.get_bandgap_type", "matersdk/io/pwmat/output/report.py::Report.get_cbm", "matersdk/io/pwmat/output/report.py::Report.get_vbm"]}
{"id": "C68", "title": "The bands sharing a band edge are listed with their own k-point and band number", "statement": "Besides the edge itself, get_cbm and get_vbm list exactly the other bands of the same k-point whose energy is within 0.001 eV of the edge, numbered from 1.", "quantifier": "every eigen-energy table and spin", "why_tests_cant": "One-based and zero-based indices agree in length, so results look plausible on any fixture.", "anchors": ["matersdk/io/pwmat/output/report.py::Report.get_cbm", "matersdk/io/pwmat/output/report.py::Report.get_vbm"]}
{"id": "C69", "title": "Two-dimensional k-paths contain no step that is absent from the three-dimensional path", "statement": "For a two-dimensional system every pair of consecutive labels in a returned path is a pair of consecutive labels in one of the original paths.", "quantifier": "every k-point dictionary and path list", "why_tests_cant": "Only paths that leave the plane and come back show the difference.", "anchors": ["matersdk/calculation/kpath/kpathSampler.py::KpathSampler._get_kpaths"]}
{"id": "C70", "title": "Vacuum detection does not depend on the stored periodic images", "statement": "judge_vacuum_exist reports, per direction, whether the lattice vector exceeds the extent of the atoms by more than 10; moving the whole structure, or storing an atom at another periodic image, does not change the answer.", "quantifier": "every structure, rigid translation and choice of periodic images", "why_tests_cant": "Tests use slabs that do not cross the cell boundary.", "anchors": ["matersdk/io/publicLayer/structure.py::DStructure.judge_vacuum_exist"]}
{"id": "C71", "title": "Per-frame analyses run on every machine", "statement": "The analyses that treat the frames of a trajectory in a process pool (average bond lengths, mean-square displacements) return one result per frame (or pair of frames) in order on a machine with any number of processors.", "quantifier": "every trajectory and every number of processors >= 1", "why_tests_cant": "The pool size is computed from the machine the tests run on.", "anchors": ["matersdk/feature/avg/avgbond.py::AvgBond.get_frames_avg_bond", "matersdk/feature/avg/msd.py::Msd.calc_msd", "matersdk/feature/avg/msd.py::Msd.calc_msd_sub_centroid"]}
{"id": "C72", "title": "Frames with different numbers of atoms are rejected by the mean-square displacement", "statement": "If two consecutive frames have different numbers of atoms, calc_msd and calc_msd_sub_centroid fail instead of returning numbers.", "quantifier": "every trajectory", "why_tests_cant": "Array broadcasting accepts some mismatched shapes silently.", "anchors": ["matersdk/feature/avg/msd.py::Msd.calc_msd", "matersdk/feature/avg/msd.py::Msd.calc_msd_sub_centroid"]}
{"id": "C73", "title": "Mean-square displacement is measured from the initial frame", "statement": "As documented, the k-th value is the mean over the atoms of |x_i(t_k) - x_i(t_0)|^2, the displacement from the initial frame.", "quantifier": "every trajectory", "why_tests_cant": "With two frames, or with drifting atoms, wrong reference frames give plausible numbers.", "anchors": ["matersdk/feature/avg/msd.py::Msd.calc_msd"]}
{"id": "C74", "title": "Mean-square displacement does not depend on the stored periodic image", "statement": "Storing an atom of some frame at another of its periodic images does not change the mean-square displacement.", "quantifier": "every trajectory and choice of periodic images", "why_tests_cant": "Only atoms that cross a cell boundary during the run show the difference.", "anchors": ["matersdk/feature/avg/msd.py::Msd.calc_msd", "matersdk/feature/avg/msd.py::Msd.calc_msd_sub_centroid"]}
{"id": "C75", "title": "Diffraction intensities are Debye-Waller factors", "statement": "Every diffraction intensity is exp(-q^2 msd/3): positive, at most 1, equal to 1 exactly when q or the displacement is 0, and never larger for a longer scattering vector.", "quantifier": "every trajectory and scattering vector length", "why_tests_cant": "Range and monotonicity over all inputs.", "anchors": ["matersdk/feature/avg/msd.py::DiffractionIntensity.calc_Di"]}
{"id": "C76", "title": "Even supercell factors are rejected by the adjacency matrix", "statement": "The adjacency matrix is only computed for odd supercell factors, as documented; any even factor is an error.", "quantifier": "every structure and supercell", "why_tests_cant": "The guard expression is true for odd and even factors alike.", "anchors": ["matersdk/feature/graph/edge.py::AdjacentMatrix.__init__", "matersdk/feature/graph/edge.py::AdjacentMatrix.get_adjacent_matrix"]}
{"id": "C77", "title": "The reported bond of an atom pair is the shortest periodic distance", "statement": "PairBond.get_frames_pair_bond returns, for every frame, the smallest distance between periodic images of the two atoms; indices outside the frame are rejected.", "quantifier": "every trajectory and pair of atom indices", "why_tests_cant": "Only pairs bonded through a cell boundary show the difference.", "anchors": ["matersdk/feature/avg/avgbond.py::PairBond.get_frames_pair_bond"]}
{"id": "C78", "title": "Bond lengths selected by angle list exactly the distinct neighbour pairs", "statement": "get_bond_lengths_lst_according2angle returns one row (angle, shorter length, longer length) for every centre of the first element and every unordered pair of distinct neighbours of the other two elements whose angle is within the tolerance, and no other row.", "quantifier": "every structure, element triple, angle and tolerance", "why_tests_cant": "Self pairs have angle 0 and only show up for tolerances that reach 0.", "anchors": ["matersdk/feature/avg/avgbond.py::AvgBond.get_bond_lengths_lst_according2angle"]}
{"id": "C79", "title": "Every fat-band table belongs to one band", "statement": "get_total_dfs_lst and get_element_dfs_lst return one table per band, in the order of the file, holding exactly the k-points of that band.", "quantifier": "every fat-band file with any number of bands and k-points", "why_tests_cant": "The split into bands is by count only, on files of any size.", "anchors": ["matersdk/io/pwmat/output/fatabandstructureTxt.py::FatbandStructure.get_total_dfs_lst", "matersdk/io/pwmat/output/fatabandstructureTxt.py::FatbandStructure.get_element_dfs_lst", "matersdk/io/pwmat/output/fatabandstructureTxt.py::FatbandStructure._get_num_kpoints"]}
{"id": "C80", "title": "DOS tables hold the like-named columns of the file", "statement": "get_tdos returns the energy and total columns and get_pdos_orbitals all columns except the total, whether the header is marked with '#' or not and whether or not a blank follows the mark.", "quantifier": "every DOS file", "why_tests_cant": "The header is rewritten word by word; only some spellings are in fixtures.", "anchors": ["matersdk/io/pwmat/output/dostotalspin.py::Dostotalspin.get_tdos", "matersdk/io/pwmat/output/dostotalspin.py::Dostotalspin.get_pdos_orbitals", "matersdk/io/pwmat/output/dostotalspin.py::Dostotalspin._preprocess"]}
{"id": "C81", "title": "Unset job options leave no trace in the script", "statement": "An optional parameter that is None produces no directive, and a job without command writes no command; a set one appears with its value.", "quantifier": "every job parameter set", "why_tests_cant": "Formatting None gives a plausible-looking text that no parser in the tests reads.", "anchors": ["matersdk/hpc/slurm/job.py::Job.to", "matersdk/hpc/slurm/job.py::Job.attach_command"]}
{"id": "C82", "title": "find_info4mlff lists every periodic image within the cutoff exactly once", "statement": "For every atom of a structure, find_info4mlff writes exactly the images (atom index and relative position) of atoms whose distance is below rcut, other than the atom itself, each once, in the periodic directions only; numneigh is their number; the rest of the row is -1 and 0; ilist and types follow the input order.", "quantifier": "every structure, cutoff, periodicity, sort flag and array width that is large enough", "why_tests_cant": "The binning depends on the shape and orientation of the cell and on where atoms sit in it; the tests use a few fixed cells.", "anchors": ["source/nblist/include/neighborList.h::NeighborList::find_info4mlff", "source/nblist/include/binLinkedList.h::BinLinkedList::get_neigh_atoms", "source/nblist/bind/nblist_bind.cc::find_info4mlff"]}
{"id": "C83", "title": "The neighbours found do not depend on the bin size", "statement": "Two neighbour lists of the same structure and cutoff with different bin sizes hold the same neighbours, each once.", "quantifier": "every structure, cutoff and pair of bin sizes", "why_tests_cant": "The bin size is a tuning parameter; agreement has to hold for all real sizes.", "anchors": ["source/nblist/include/neighborList.h::NeighborList::NeighborList", "source/nblist/include/binLinkedList.h::BinLinkedList::get_neigh_bins"]}
{"id": "C84", "title": "Owned atoms of a supercell are the atoms of the original cell", "statement": "The atoms that get_owned_atom_idxs names are the unshifted atoms of the cell the supercell was made from, in order.", "quantifier": "every structure and positive scaling factors", "why_tests_cant": "The index formula agrees by accident for odd or equal factors.", "anchors": ["source/nblist/include/binLinkedList.h::Supercell::calc_prim_cell_idx", "source/nblist/include/binLinkedList.h::Supercell::calc_owned_atom_idxs"]}
{"id": "C85", "title": "make_supercell describes the same crystal", "statement": "The supercell has the scaled lattice vectors and, for every atom and every lattice displacement modulo the new lattice, exactly one atom of the same element.", "quantifier": "every structure and positive scaling factors", "why_tests_cant": "Holds for all factors, odd and even, and all lattices.", "anchors": ["source/nblist/include/structure.h::Structure::make_supercell"]}
{"id": "C86", "title": "Sorted neighbour rows run from near to far", "statement": "With sort=true the relative positions written by find_info4mlff for one atom have non-decreasing length.", "quantifier": "every structure, cutoff and periodicity", "why_tests_cant": "Ties and cell shapes are unbounded.", "anchors": ["source/nblist/include/neighborList.h::NeighborList::_build", "source/nblist/include/neighborList.h::NeighborList::find_info4mlff"]}
{"id": "C87", "title": "Too narrow arrays are rejected", "statement": "When an atom has more neighbours than umax_num_neigh_atoms, find_info4mlff reports an error instead of writing outside the arrays.", "quantifier": "every structure, cutoff and width", "why_tests_cant": "Memory behind the array is not visible to a test.", "anchors": ["source/nblist/include/neighborList.h::NeighborList::find_info4mlff", "source/nblist/bind/nblist_bind.cc::find_info4mlff"]}
{"id": "C88", "title": "get_max_num_neigh_atoms_ssss is the true maximum", "statement": "It returns the largest number of neighbours of the second element that any atom of the first element has within the cutoff, 0 if there is no such atom.", "quantifier": "every structure, cutoff, periodicity and pair of elements", "why_tests_cant": "Depends on all images of all atoms.", "anchors": ["source/nblist/include/neighborList.h::NeighborList::get_max_num_neigh_atoms_ssss"]}
{"id": "C89", "title": "The neighbour list is symmetric", "statement": "Atom j occurs among the neighbours of atom i as often as atom i occurs among those of atom j.", "quantifier": "every structure, cutoff and pair of atoms", "why_tests_cant": "Force symmetry rests on this; a test compares few pairs.", "anchors": ["source/nblist/include/neighborList.h::NeighborList::find_info4mlff"]}
{"id": "C90", "title": "The C++ environment matrix holds the DeepPot-SE rows of the neighbours", "statement": "EnvMatrix::find_value_deriv writes for every centre and every type the rows s(r)(1, x/r, y/r, z/r) of exactly the neighbours of that type, in the order of the neighbour list, in the slots reserved for the type, and zeros in the other slots.", "quantifier": "every neighbour table, slot table with room for all neighbours, cutoffs", "why_tests_cant": "Slot arithmetic over three flat arrays; any number of centres, types and neighbours.", "anchors": ["source/descriptor/deepmd/include/envMatrix.h::EnvMatrix::find_value_deriv", "source/descriptor/deepmd/include/se.h::smooth_func", "source/descriptor/deepmd/include/se.h::recip"]}
{"id": "C91", "title": "The C++ environment derivatives are derivatives", "statement": "tilde_r_deriv holds, slot by slot, the Jacobian of the environment row with respect to the relative position, at every non-zero relative position, including the switching radius and the cutoff.", "quantifier": "every neighbour table and all cutoffs rcut_smooth < rcut", "why_tests_cant": "Twelve formulas, three pieces and two joints; finite differences cannot settle the joints.", "anchors": ["source/descriptor/deepmd/include/envMatrix.h::EnvMatrix::find_value_deriv", "source/descriptor/deepmd/include/se.h::SwitchFunc"]}
{"id": "C92", "title": "Neighbours without a slot are rejected by the environment matrix", "statement": "When a centre has more neighbours of a type than slots reserved for it, or a neighbour has an unknown type, find_value_deriv reports an error and never stores a neighbour in the slot of another type or drops one.", "quantifier": "every neighbour and slot table", "why_tests_cant": "Results of an overfull table look plausible.", "anchors": ["source/descriptor/deepmd/include/envMatrix.h::EnvMatrix::find_value_deriv"]}
{"id": "C93", "title": "Se4pw and its index table use the same slots", "statement": "Se4pw::generate and Se4pw::get_prim_indices_from_matersdk put each neighbour in the same slot: row, derivative with respect to the centre, relative position, and index of the cell atom it is an image of; empty slots hold zeros and -1.", "quantifier": "every neighbour table and positions, slot table with room for all neighbours", "why_tests_cant": "Forces are summed through the index table, so a shift by one slot shows only in totals.", "anchors": ["source/descriptor/deepmd/include/se4pw.h::Se4pw::generate", "source/descriptor/deepmd/include/se4pw.h::Se4pw::get_prim_indices_from_matersdk"]}
{"id": "C94", "title": "From a structure to its environment matrix", "statement": "The tables of find_info4mlff passed to find_value_deriv give, for every atom and type, the DeepPot-SE rows of exactly the periodic images of that type closer than the cutoff, each once, then zeros.", "quantifier": "every structure, cutoff and periodicity, slot table with room for all neighbours", "why_tests_cant": "Combines supercells, bins, padding and slots.", "anchors": ["source/nblist/include/neighborList.h::NeighborList::find_info4mlff", "source/descriptor/deepmd/include/envMatrix.h::EnvMatrix::find_value_deriv"]}
{"id": "C95", "title": "RB_Chebyshev::build evaluates Chebyshev polynomials", "statement": "The k-th value at the distance with scaled value cos(t) is cos(k t); values never exceed 1 in size; distances outside [rmin, rmax] are rejected.", "quantifier": "every size, rmin < rmax and distance", "why_tests_cant": "A recurrence over any number of functions and all real distances.", "anchors": ["source/descriptor/mtpr/include/basis.h::RB_Chebyshev::build"]}
{"id": "C96", "title": "Radial derivatives are derivatives", "statement": "The derivatives handed out by RB_Chebyshev and RQ_Chebyshev are the derivatives of their values with respect to the distance on the whole closed interval.", "quantifier": "every size, rmin < rmax and distance in [rmin, rmax]", "why_tests_cant": "Recurrence and product rule for any number of functions; finite differences cannot settle the ends.", "anchors": ["source/descriptor/mtpr/include/basis.h::RB_Chebyshev::build", "source/descriptor/mtpr/include/basis.h::RQ_Chebyshev::build", "source/descriptor/mtpr/include/basis.h::SwitchFunction::der2r"]}
{"id": "C97", "title": "RQ_Chebyshev goes smoothly to zero at the cutoff", "statement": "RQ_Chebyshev is the Chebyshev polynomial times a quintic that falls from 1 to 0; values never exceed 1 in size; at rmax values and derivatives are 0; distances outside are rejected.", "quantifier": "every size, rmin < rmax and distance", "why_tests_cant": "All real distances and any number of functions.", "anchors": ["source/descriptor/mtpr/include/basis.h::RQ_Chebyshev::build", "source/descriptor/mtpr/include/basis.h::SwitchFunction::val"]}
{"id": "C98", "title": "MtpQ is a differentiable function of the distance", "statement": "MtpQ::build gives the Chebyshev polynomials times a switching function, continuous with a continuous derivative for all distances, zero from rcut on, and its derivatives are the derivatives of its values.", "quantifier": "every size, rcut_smooth < rcut and distance", "why_tests_cant": "The joints at rcut_smooth and rcut are single points of the real line.", "anchors": ["source/descriptor/mtp/include/mtpMRadial.h::MtpQ::build", "source/descriptor/mtp/include/mtpMRadial.h::MtpSwitchFunc2::get_result", "source/descriptor/mtp/include/mtpMRadial.h::MtpSwitchFunc2::get_deriv2r", "source/descriptor/mtp/include/mtpMRadial.h::ChebyshevPoly::build"]}
{"id": "C99", "title": "MtpQOp backpropagates the true gradient", "statement": "MtpQFunction::backward applied to the derivatives saved by forward returns the gradient of the weighted sum of all outputs with respect to all relative positions, padding rows included.", "quantifier": "every number of neighbours and functions, all positions and weights", "why_tests_cant": "Gradient of a vector function of any number of variables.", "anchors": ["source/descriptor/mtp/src/mtpMRadialOp.cc::MtpQFunction::forward", "source/descriptor/mtp/src/mtpMRadialOp.cc::MtpQFunction::backward"]}
{"id": "C100", "title": "MtpMCoeffPairCombs lists all contractible combinations", "statement": "Up to order, the combinations built for max_level are exactly the non-empty multisets of moments M_{mu,nu} whose levels 2+4mu+nu add up to at most max_level and for which one nu is the sum of the others or every non-zero nu occurs an even number of times.", "quantifier": "every max_level and every multiset of moments", "why_tests_cant": "The number of combinations grows exponentially with max_level.", "anchors": ["source/descriptor/mtp/src/mtpLevel.cc::MtpMCoeffPairCombs::_build", "source/descriptor/mtp/src/mtpLevel.cc::MtpMCoeffPairCombs::get_all_schemes4lev", "source/descriptor/mtp/src/mtpLevel.cc::MtpMCoeffPairCombs::get_contracted_combs"]}
{"id": "C101", "title": "No combination is listed twice", "statement": "MtpMCoeffPairCombs lists each multiset of moments at most once.", "quantifier": "every max_level", "why_tests_cant": "Duplicates appear only from max_level 18 on.", "anchors": ["source/descriptor/mtp/src/mtpLevel.cc::MtpMCoeffPairCombs::get_all_schemes4lev"]}
{"id": "C102", "title": "nmus is the number of radial channels", "statement": "nmus() equals nmus_check(), and the values of mu in the listed combinations are exactly 0..nmus-1.", "quantifier": "every max_level >= 2", "why_tests_cant": "Sizes the coefficient table; a mistake shows only for some residues of max_level.", "anchors": ["source/descriptor/mtp/src/mtpLevel.cc::MtpMCoeffPairCombs::nmus", "source/descriptor/mtp/src/mtpLevel.cc::MtpMCoeffPairCombs::nmus_check"]}
{"id": "C103", "title": "MtpBModule evaluates every listed combination", "statement": "forward returns one number per batch, centre and listed combination: no assertion, shape or index error occurs.", "quantifier": "every max_level >= 2, every arrays of existing atoms and types with padding -1", "why_tests_cant": "All combinations of all levels must contract to a scalar.", "anchors": ["source/descriptor/mtp/src/mtpBModule.cc::MtpBModuleImpl::forward", "source/descriptor/mtp/src/mtpMModule.cc::MtpMModuleImpl::forward"]}
{"id": "C104", "title": "Every combination that forward can evaluate is listed", "statement": "If the contraction loop of MtpBModule::forward turns a sorted combination of allowed level into a scalar, the combination is listed.", "quantifier": "every combination and max_level", "why_tests_cant": "Needs all combinations that are not listed.", "anchors": ["source/descriptor/mtp/src/mtpBModule.cc::MtpBModuleImpl::forward", "source/descriptor/mtp/src/mtpLevel.cc::MtpMCoeffPairCombs::get_contracted_combs"]}
{"id": "C105", "title": "MTP basis functions are invariant under rotations and reflections", "statement": "Applying an orthogonal matrix to all relative positions leaves the output of MtpBModule::forward unchanged.", "quantifier": "every orthogonal matrix, all arrays, any combinations of moments", "why_tests_cant": "All rotations, all positions and contractions of tensors of any rank.", "anchors": ["source/descriptor/mtp/src/mtpBModule.cc::MtpBModuleImpl::forward", "source/descriptor/mtp/src/mtpMModule.cc::MtpMModuleImpl::forward", "source/descriptor/mtp/src/mtpMAngularOp.cc::MtpMAngularOp"]}
{"id": "C106", "title": "MTP basis functions do not depend on the order of neighbours or on padding", "statement": "Permuting the neighbour rows of a centre, and adding rows beyond the cutoff or, for positive rcut_smooth, padding rows (index -1, position 0), leaves the basis functions unchanged.", "quantifier": "every permutation, number of padding rows and arrays", "why_tests_cant": "Padding is indexed as if it were an atom; all permutations of any number of rows.", "anchors": ["source/descriptor/mtp/src/mtpBModule.cc::MtpBModuleImpl::forward", "source/descriptor/mtp/src/mtpMModule.cc::MtpMModuleImpl::forward"]}
{"id": "C107", "title": "MtpMModule computes the moment tensors", "statement": "forward(mu, nu, i) returns the tensor sum_j f_mu(|r_j|, z_i, z_j) r_j x ... x r_j with f_mu the Chebyshev series whose coefficients belong to exactly (mu, z_i, z_j).", "quantifier": "every number of types, channels, neighbours and nu", "why_tests_cant": "A flat table of any size; a wrong stride is invisible with one type.", "anchors": ["source/descriptor/mtp/src/mtpMModule.cc::MtpMModuleImpl::forward", "source/descriptor/mtp/src/mtpMAngularOp.cc::MtpMAngularOp"]}
{"id": "C108", "title": "Combinations(mark_tiny) keeps one ordering of each contractible combination", "statement": "With mark_tiny, of all orderings of a combination exactly the one with non-decreasing levels is kept, once, if every non-zero nu occurs an even number of times.", "quantifier": "every list of combinations, in particular those of MTPLevel", "why_tests_cant": "Lengths and orders of combinations are unbounded.", "anchors": ["source/descriptor/mtp/include/level.h::Combinations::remove_duplicates", "source/descriptor/mtp/include/level.h::Combinations::remove_cannot_contract"]}
{"id": "C109", "title": "MTPLevel lists every sequence of moments of allowed level once", "statement": "calc_redundant_combinations lists exactly the sequences of moments with total level at most max_level, each once.", "quantifier": "every max_level and sequence", "why_tests_cant": "Exponentially many sequences.", "anchors": ["source/descriptor/mtp/include/level.h::MTPLevel::calc_redundant_combinations", "source/descriptor/mtp/include/level.h::MTPLevel::get_max_num_M"]}
{"id": "C110", "title": "RecursionOuterProduct computes outer powers", "statement": "RecursionOuterProduct(n, v) has 3^(n-1) rows of three numbers; entry (i, j) is the product of the components of v selected by the base-3 digits of 3i+j.", "quantifier": "every n >= 1 and vector", "why_tests_cant": "3^n entries for any n.", "anchors": ["source/core/include/vec3Operation.h::RecursionOuterProduct"]}
{"id": "C111", "title": "Atomic energies of a frame are those of its Atomic-Energy block", "statement": "ACstrExtractor.get_eatoms returns one energy per atom, the second word of each row after the first row containing 'Atomic-Energy, '; a missing or malformed block raises AttributeError.", "quantifier": "every frame text", "why_tests_cant": "Frames are arbitrary text; other blocks carry numbers in the same columns.", "anchors": ["matersdk/io/pwmat/utils/acextractor.py::ACstrExtractor.get_eatoms"]}
{"id": "C112", "title": "The virial of a frame is taken from the stress columns or refused", "statement": "ACstrExtractor.get_virial returns the last three numbers of each of the three lattice rows, and only if all three rows carry the word stress; otherwise it raises.", "quantifier": "every frame text", "why_tests_cant": "Lattice vectors and stress share the rows, and a test file has either all or no stress.", "anchors": ["matersdk/io/pwmat/utils/acextractor.py::ACstrExtractor.get_virial"]}
{"id": "C113", "title": "The number of atoms of a frame is the number in front of the word atoms", "statement": "ACstrExtractor reads the first number directly followed by ' atoms' (any case) and raises AttributeError if there is none; other numbers before it do not matter.", "quantifier": "every text", "why_tests_cant": "A regular expression search over arbitrary text.", "anchors": ["matersdk/io/pwmat/utils/acextractor.py::ACstrExtractor.get_num_atoms"]}
{"id": "C114", "title": "An MTP parameter file is read exactly", "statement": "MtpParam(filename) returns exactly the counts and tables written in a file of the template layout; a load that succeeds found all seven keywords in order and as many rows as the counts say, any other file raises MtpException.", "quantifier": "every header, line end, count, table and trailing text; every text for the second part", "why_tests_cant": "Templates hold up to 180069 rows of arbitrary integers; tests load the shipped files only.", "anchors": ["source/descriptor/mtpr/src/mtpParam.cc::MtpParam::_load"]}
{"id": "C115", "title": "An MTP parameter file whose counts disagree with its tables is refused", "statement": "If a count differs from the number of rows of its table, loading the file raises MtpException.", "quantifier": "every file of the template layout", "why_tests_cant": "A wrong count can be combined with tables of any content and length.", "anchors": ["source/descriptor/mtpr/src/mtpParam.cc::MtpParam::_load"]}
{"id": "C116", "title": "MtpParam objects behave like values", "statement": "After any sequence of constructions, copies, moves, assignments and destructions every object shows the tables that were loaded into or assigned to it, and nothing is freed twice or used after it was freed.", "quantifier": "every program over any number of objects", "why_tests_cant": "Programs are unbounded; a double free need not show in a test.", "anchors": ["source/descriptor/mtpr/src/mtpParam.cc::MtpParam::MtpParam", "source/descriptor/mtpr/src/mtpParam.cc::MtpParam::operator=", "source/descriptor/mtpr/src/mtpParam.cc::MtpParam::~MtpParam"]}
{"id": "C117", "title": "Destroying all MtpParam objects releases all their memory", "statement": "A program that destroys all its MtpParam objects leaves no block allocated.", "quantifier": "every program over any number of objects", "why_tests_cant": "Programs are unbounded; a leak is invisible in the results.", "anchors": ["source/descriptor/mtpr/src/mtpParam.cc::MtpParam::operator=", "source/descriptor/mtpr/src/mtpParam.cc::MtpParam::~MtpParam"]}
{"id": "C118", "title": "The arrays handed to the network describe the same neighbours at the same places", "statement": "DpInfer._preprocess returns four arrays with one row per atom of the listed elements; in every row the columns of a neighbour element hold one neighbour each, by non-decreasing distance: its relative position, its normalised environment row, the derivative of that row and the index of the atom it is an image of. The remaining columns are padding: zero, the normalised zero row, zero and index 0. Widths that are too small are refused.", "quantifier": "every structure, cutoff, list of elements, widths, averages and deviations", "why_tests_cant": "Four functions arrange their blocks independently; a shift between them does not change any shape.", "anchors": ["matersdk/infer/pwmatmlff/deepmd/inference.py::DpInfer._preprocess", "matersdk/infer/pwmatmlff/deepmd/preprocess.py::InferPreprocessor.expand_rc", "matersdk/infer/pwmatmlff/deepmd/preprocess.py::InferPreprocessor.expand_tildeR", "matersdk/infer/pwmatmlff/deepmd/preprocess.py::InferPreprocessor.expand_list_neigh", "matersdk/io/publicLayer/neigh.py::StructureNeighborsUtils.get_nbrs_indices"]}
{"id": "C119", "title": "The neighbour list refers to rows of the same arrays", "statement": "An entry q + 1 of the neighbour list returned by DpInfer._preprocess means that row q of the arrays belongs to that neighbour.", "quantifier": "every structure, cutoff and list of elements", "why_tests_cant": "Forces are added to the wrong atoms only for some orders of the atoms.", "anchors": ["matersdk/infer/pwmatmlff/deepmd/inference.py::DpInfer._preprocess", "matersdk/io/publicLayer/neigh.py::StructureNeighborsUtils.get_nbrs_indices"]}
{"id": "C120", "title": "The atom counts handed to the network describe the rows", "statement": "The counts returned by DpInfer._preprocess are the number of rows, followed by the number of rows of every listed element in the order of the rows.", "quantifier": "every structure and list of elements", "why_tests_cant": "The order of the counts depends on the order of the atoms.", "anchors": ["matersdk/infer/pwmatmlff/deepmd/inference.py::DpInfer._preprocess", "matersdk/infer/pwmatmlff/deepmd/preprocess.py::InferPreprocessor.expand_natoms_img"]}
{"id": "C121", "title": "A force field file holds all parameters of the checkpoint", "statement": "FFExtractor.save_hdf5_file stores every weight, bias and resnet parameter of all embedding and fitting nets under its own name, M1, M2 and the layer sizes, and nothing else; a checkpoint without a needed parameter is refused.", "quantifier": "every checkpoint, number of nets and numbers of layers of the two kinds of nets", "why_tests_cant": "The shipped checkpoints use equal numbers of layers for both kinds of nets.", "anchors": ["matersdk/infer/pwmatmlff/deepmd/extractor.py::FFExtractor.save_hdf5_file"]}
{"id": "C122", "title": "A force field file reads back to what was stored", "statement": "FFExtractor.get_hdf5_dict returns a dictionary with exactly the names of the file, each with the value stored under it.", "quantifier": "every file", "why_tests_cant": "The file lists its names in another order than they were written, for any number of names.", "anchors": ["matersdk/infer/pwmatmlff/deepmd/extractor.py::FFExtractor.get_hdf5_dict"]}
{"id": "C123", "title": "save_all_info writes one folder per frame", "statement": "StructCollection.save_all_info stores every frame of the collection in a folder of its own.", "quantifier": "every collection and every state of the output folder", "why_tests_cant": "Needs every collection; a test of one collection would show the failure only for that one.", "anchors": ["matersdk/data/struct_collection.py::StructCollection.save_all_info", "matersdk/io/publicLayer/structure.py::DStructure.to"]}
{"id": "C124", "title": "batch_perturb writes the perturbed structures", "statement": "BatchPerturbStructure.batch_perturb writes the i-th perturbed structure of a system to structures/i.config.", "quantifier": "every structure, number of copies, strain and displacement", "why_tests_cant": "The structures are random.", "anchors": ["matersdk/adalearn/generator/perturbation.py::BatchPerturbStructure.batch_perturb", "matersdk/io/publicLayer/structure.py::DStructure.to"]}
{"id": "C125", "title": "A k-mesh object can be made from every readable structure file", "statement": "KMesh(file_format, file_path) returns an object for the structure of the file whenever DStructure.from_file reads the file.", "quantifier": "every file", "why_tests_cant": "Needs every file.", "anchors": ["matersdk/calculation/kpoints/kmesh.py::KMesh.__init__", "matersdk/io/publicLayer/structure.py::DStructure.from_file"]}
{"id": "C126", "title": "The largest neighbour number of a collection is the maximum over its frames", "statement": "StructCollection.get_max_num_nbrs_real returns the largest number of other atoms strictly inside the cutoff of any atom of any frame.", "quantifier": "every collection, cutoff and odd scaling, on every machine", "why_tests_cant": "The maximum may be attained in any frame and atom; the number of processors of the test machine is fixed.", "anchors": ["matersdk/data/struct_collection.py::StructCollection.get_max_num_nbrs_real"]}
{"id": "C127", "title": "The largest neighbour numbers per element of a collection are the maxima over its frames", "statement": "StructCollection.get_max_num_nbrs_real_element returns for every requested element the largest number of other atoms of that element strictly inside the cutoff of any atom of any frame.", "quantifier": "every collection, cutoff, list of elements and odd scaling, on every machine", "why_tests_cant": "The maxima of different elements may be attained in different frames.", "anchors": ["matersdk/data/struct_collection.py::StructCollection.get_max_num_nbrs_real_element"]}
{"id": "C128", "title": "C++ structures behave like values", "statement": "After any sequence of constructions, copies, assignments, make_supercell calls and destructions, every living matersdk::Structure shows the data it would have if structures were plain values; in particular a copy does not change when its original is changed or destroyed.", "quantifier": "every program over any number of structures", "why_tests_cant": "Aliasing and use after free show only for particular orders of operations, and often not at all on the test machine.", "anchors": ["source/nblist/include/structure.h::Structure::Structure", "source/nblist/include/structure.h::Structure::operator=", "source/nblist/include/structure.h::Structure::~Structure", "source/nblist/include/structure.h::Structure::make_supercell"]}
{"id": "C129", "title": "C++ structures free what they allocate", "statement": "At every point of a program exactly the arrays of the living nonempty structures are allocated; nothing is freed twice or read after it was freed, and nothing is left when all structures are destroyed.", "quantifier": "every program over any number of structures", "why_tests_cant": "A leak or a double free changes no result that a test looks at.", "anchors": ["source/nblist/include/structure.h::Structure::operator=", "source/nblist/include/structure.h::Structure::~Structure", "source/nblist/include/structure.h::Structure::make_supercell"]}
{"id": "C130", "title": "Neighbour lists and the objects inside them behave like values", "statement": "After any sequence of constructions, copies, assignments and destructions, every living Supercell, BinLinkedList and NeighborList shows the data it would have if these objects were plain values, with everything inside it.", "quantifier": "every program over any number of objects of one class", "why_tests_cant": "Aliasing shows only for particular orders of operations.", "anchors": ["source/nblist/include/binLinkedList.h::Supercell::operator=", "source/nblist/include/binLinkedList.h::BinLinkedList::operator=", "source/nblist/include/neighborList.h::NeighborList::operator=", "source/nblist/include/neighborList.h::NeighborList::NeighborList"]}
{"id": "C131", "title": "Neighbour lists and the objects inside them free what they allocate", "statement": "A program over Supercell, BinLinkedList or NeighborList objects which uses only living objects frees nothing twice and reads nothing after it was freed; at every point exactly the arrays of the living objects are allocated.", "quantifier": "every program over any number of objects of one class", "why_tests_cant": "A leak or a double free changes no result that a test looks at.", "anchors": ["source/nblist/include/binLinkedList.h::Supercell::~Supercell", "source/nblist/include/binLinkedList.h::BinLinkedList::~BinLinkedList", "source/nblist/include/neighborList.h::NeighborList::~NeighborList"]}
{"id": "C132", "title": "The Python neighbour list uses the arrays Python shows", "statement": "nblist.find_info4mlff returns the neighbour list of the lattice, atomic numbers and coordinates that its array arguments show in Python, whatever their memory layout and integer type.", "quantifier": "all arrays, layouts and integer types", "why_tests_cant": "A test passes freshly made contiguous arrays; transposes, slices and default integers look the same in Python.", "anchors": ["source/nblist/bind/nblist_bind.cc::find_info4mlff"]}
{"id": "C133", "title": "The Python neighbour list keeps no memory of dropped results", "statement": "When the result of nblist.find_info4mlff is dropped, all memory the call has allocated is released, each buffer once.", "quantifier": "any number of calls with any sizes", "why_tests_cant": "A leak changes no result; it is noticed only in long runs.", "anchors": ["source/nblist/bind/nblist_bind.cc::find_info4mlff"]}
{"id": "C134", "title": "TildeR tables hold the rows of the neighbours and their derivatives", "statement": "When there are enough slots, the static TildeR::generate returns, for the centres grouped by element in the order asked for, per element of the neighbours the DeepPot-SE rows of exactly the neighbours of that element in list order followed by zeros; the static TildeR::deriv returns in the same slots the derivatives of these rows with respect to the position of the centre. The versions which fill an array of the caller give the same table whatever the array held before.", "quantifier": "all lists of centres, neighbours, elements, slot numbers and cutoffs", "why_tests_cant": "Slot positions depend on all counts before them; derivatives need every real position.", "anchors": ["source/descriptor/deepmd/include/se.h::TildeR::generate", "source/descriptor/deepmd/include/se.h::TildeR::deriv", "source/descriptor/deepmd/include/se.h::PairTildeR::generate", "source/descriptor/deepmd/include/se.h::PairTildeR::deriv"]}
{"id": "C135", "title": "From a structure to its TildeR table", "statement": "Building TildeR (or PairTildeR) from a structure and a cutoff never fails; the number of slots of an element is the largest number of its atoms around any atom (any centre of the pair), and generate and deriv hold the rows and derivatives of exactly the other periodic images closer than the cutoff.", "quantifier": "all proper cells with wrapped atoms further apart than sqrt(1/1000), cutoffs, periodicities and elements", "why_tests_cant": "Needs every cell and every image inside the cutoff.", "anchors": ["source/descriptor/deepmd/include/se.h::TildeR::TildeR", "source/descriptor/deepmd/include/se.h::TildeR::generate", "source/descriptor/deepmd/include/se.h::TildeR::deriv", "source/descriptor/deepmd/include/se.h::TildeR::calc_num_neigh_atoms_lst", "source/descriptor/deepmd/include/se.h::PairTildeR::get_max_num_neigh_atoms"]}
{"id": "C136", "title": "Too few slots are reported by TildeR", "statement": "When some centre has more neighbours of an element than there are slots, generate and deriv do not return a table and do not write outside of their arrays; the call is rejected.", "quantifier": "all lists and slot numbers", "why_tests_cant": "Writing past the end of an array often goes unnoticed in a test.", "anchors": ["source/descriptor/deepmd/include/se.h::TildeR::generate", "source/descriptor/deepmd/include/se.h::TildeR::deriv", "source/descriptor/deepmd/include/se.h::PairTildeR::generate", "source/descriptor/deepmd/include/se.h::PairTildeR::deriv"]}
{"id": "C137", "title": "Member and static functions of TildeR agree", "statement": "With enough slots, the member functions generate and deriv of a TildeR object return the same tables as the static functions called with the arrays of the neighbour list of the object.", "quantifier": "all proper cells whose atoms lie further apart than sqrt(1/1000), cutoffs, elements and slot numbers", "why_tests_cant": "Six copies of the same loops must agree on every input.", "anchors": ["source/descriptor/deepmd/include/se.h::TildeR::generate", "source/descriptor/deepmd/include/se.h::TildeR::deriv"]}
{"id": "C138", "title": "TildeR objects behave like values", "statement": "After any sequence of constructions, copies, assignments and destructions, every living TildeR object shows the element lists, counts and scalars it would show if it were a plain value; a statement fails only if it uses an object which is not alive.", "quantifier": "every program over any number of objects", "why_tests_cant": "Buffer overruns and aliasing show only for particular numbers of elements and orders of operations, and often not at all on the test machine.", "anchors": ["source/descriptor/deepmd/include/se.h::TildeR::TildeR", "source/descriptor/deepmd/include/se.h::TildeR::operator=", "source/descriptor/deepmd/include/se.h::TildeR::~TildeR"]}
{"id": "C139", "title": "TildeR objects free what they allocate", "statement": "At every point of a program exactly the element and count lists of the living TildeR objects are allocated; nothing is freed twice, and nothing is left when all objects are destroyed.", "quantifier": "every program over any number of objects, any numbers of elements", "why_tests_cant": "A leak or a double free changes no result that a test looks at.", "anchors": ["source/descriptor/deepmd/include/se.h::TildeR::operator=", "source/descriptor/deepmd/include/se.h::TildeR::~TildeR"]}
{"id": "C140", "title": "Nested arrays are arrays", "statement": "An array from allocate3dArray, allocate4dArray or allocate5dArray: every assignment to an index in range succeeds; reading an index gives the value assigned to it last, or zero if there is none and the array was made with init_mark; nothing outside the array changes; and the matching free function, called with the sizes the array was made with, gives back exactly its memory.", "quantifier": "all sizes, all contents of memory, all sequences of assignments", "why_tests_cant": "Overlapping parts or a forgotten part show only for particular sizes; a leak changes no result.", "anchors": ["source/core/include/arrayUtils.h::allocate3dArray", "source/core/include/arrayUtils.h::free3dArray", "source/core/include/arrayUtils.h::allocate4dArray", "source/core/include/arrayUtils.h::free4dArray", "source/core/include/arrayUtils.h::allocate5dArray", "source/core/include/arrayUtils.h::free5dArray"]}
{"id": "C141", "title": "Freeing a nested array with other sizes", "statement": "Freeing a nested array with a size larger than it was made with reads outside of the array as soon as the part is visited; with sizes which are not larger the call succeeds and exactly the parts which were not counted stay allocated. Nothing stays allocated exactly when every size up to the first zero is the right one.", "quantifier": "all sizes", "why_tests_cant": "Reading past the end may go unnoticed and a leak changes no result.", "anchors": ["source/core/include/arrayUtils.h::free3dArray", "source/core/include/arrayUtils.h::free4dArray", "source/core/include/arrayUtils.h::free5dArray"]}
{"id": "C142", "title": "TildeR functions keep no memory", "statement": "The static generate and deriv of TildeR, whether they return a new array or fill one of the caller, can be called any number of times: the only memory that stays allocated is the returned array, everything else in memory is unchanged, and the array holds for every pair of elements the values computed for it.", "quantifier": "all numbers of calls, elements, centres and slots, all contents of memory", "why_tests_cant": "A leak changes no result; it is noticed only in long simulations.", "anchors": ["source/descriptor/deepmd/include/se.h::TildeR::generate", "source/descriptor/deepmd/include/se.h::TildeR::deriv", "source/descriptor/deepmd/include/se.h::PairTildeR::generate", "source/descriptor/deepmd/include/se.h::PairTildeR::deriv", "source/core/include/arrayUtils.h::allocate3dArray", "source/core/include/arrayUtils.h::free3dArray"]}
{"id": "C143", "title": "The Chebyshev radial functions and their derivatives", "statement": "For an inner cutoff below the outer one RadialBasisChebyshev holds, per degree, the Chebyshev polynomial of the scaled distance and its product with a quintic that falls from 1 to 0 between the cutoffs, together with the derivatives of both with respect to the distance at every distance, cutoffs included. Below the inner cutoff the two agree; from the outer cutoff on the product and its derivative vanish. Other cutoffs are rejected.", "quantifier": "all degrees, real cutoffs and distances", "why_tests_cant": "Needs every real distance and every degree.", "anchors": ["source/descriptor/mtp/include/mtpMRadial_de.h::RadialBasisChebyshev::build", "source/descriptor/mtp/include/mtpMRadial_de.h::SwitchFunc::get_result", "source/descriptor/mtp/include/mtpMRadial_de.h::SwitchFunc::get_deriv2r"]}
{"id": "C144", "title": "The Chebyshev radial functions are bounded and bad degrees are rejected", "statement": "The radial functions of RadialBasisChebyshev never exceed 1 in absolute value, and a negative degree is rejected.", "quantifier": "all degrees (also negative), real cutoffs and distances", "why_tests_cant": "The bound must hold at every distance; a negative size may go unnoticed.", "anchors": ["source/descriptor/mtp/include/mtpMRadial_de.h::RadialBasisChebyshev::RadialBasisChebyshev", "source/descriptor/mtp/include/mtpMRadial_de.h::RadialBasisChebyshev::build"]}
{"id": "C145", "title": "RadialBasisChebyshev objects free their arrays", "statement": "When an object of RadialBasisChebyshev reaches the end of its life, the arrays it allocated are released.", "quantifier": "all programs which make any number of objects", "why_tests_cant": "A leak changes no result; it is noticed only in long runs.", "anchors": ["source/descriptor/mtp/include/mtpMRadial_de.h::RadialBasisChebyshev::RadialBasisChebyshev"]}
{"id": "C146", "title": "RB_Chebyshev objects behave like values", "statement": "After any sequence of constructions, copies, moves, assignments, builds and destructions every living RB_Chebyshev object shows the cutoffs, values and derivatives it would show if it were a plain value; a statement fails only if it uses an object which is not alive or builds at a distance outside the cutoffs.", "quantifier": "every program over any number of objects and sizes", "why_tests_cant": "Aliasing and freed arrays show only for particular orders of operations.", "anchors": ["source/descriptor/mtpr/include/basis.h::RB_Chebyshev::RB_Chebyshev", "source/descriptor/mtpr/include/basis.h::RB_Chebyshev::operator=", "source/descriptor/mtpr/include/basis.h::RB_Chebyshev::build", "source/descriptor/mtpr/include/basis.h::RB_Chebyshev::~RB_Chebyshev"]}
{"id": "C147", "title": "RQ_Chebyshev objects behave like values", "statement": "After any sequence of constructions, copies, moves, assignments, builds and destructions every living RQ_Chebyshev object shows the cutoffs, values and derivatives it would show if it were a plain value; a statement fails only if it uses an object which is not alive or builds at a distance outside the cutoffs.", "quantifier": "every program over any number of objects and sizes", "why_tests_cant": "The inner object must follow every copy and move; null pointers show only for empty objects.", "anchors": ["source/descriptor/mtpr/include/basis.h::RQ_Chebyshev::RQ_Chebyshev", "source/descriptor/mtpr/include/basis.h::RQ_Chebyshev::operator=", "source/descriptor/mtpr/include/basis.h::RQ_Chebyshev::build", "source/descriptor/mtpr/include/basis.h::RQ_Chebyshev::~RQ_Chebyshev"]}
{"id": "C148", "title": "ChebyshevPoly objects behave like values", "statement": "After any sequence of constructions, copies, moves, assignments, builds and destructions every living ChebyshevPoly object shows the values and derivatives it would show if it were a plain value; a statement fails only if it uses an object which is not alive.", "quantifier": "every program over any number of objects and sizes", "why_tests_cant": "Aliasing and freed arrays show only for particular orders of operations.", "anchors": ["source/descriptor/mtp/include/mtpMRadial.h::ChebyshevPoly::ChebyshevPoly", "source/descriptor/mtp/include/mtpMRadial.h::ChebyshevPoly::operator=", "source/descriptor/mtp/include/mtpMRadial.h::ChebyshevPoly::build", "source/descriptor/mtp/include/mtpMRadial.h::ChebyshevPoly::~ChebyshevPoly"]}
{"id": "C149", "title": "MtpQ objects behave like values", "statement": "After any sequence of constructions, copies, moves, assignments, builds and destructions every living MtpQ object shows the values and derivatives it would show if it were a plain value; a statement fails only if it uses an object which is not alive.", "quantifier": "every program over any number of objects and sizes", "why_tests_cant": "Aliasing, freed arrays and pointers without a value show only for particular orders of operations.", "anchors": ["source/descriptor/mtp/include/mtpMRadial.h::MtpQ::MtpQ", "source/descriptor/mtp/include/mtpMRadial.h::MtpQ::operator=", "source/descriptor/mtp/include/mtpMRadial.h::MtpQ::build", "source/descriptor/mtp/include/mtpMRadial.h::MtpQ::~MtpQ"]}
{"id": "C150", "title": "Radial basis objects free what they allocate", "statement": "At every point of a program exactly the arrays (and inner objects) of the living RB_Chebyshev, RQ_Chebyshev, ChebyshevPoly and MtpQ objects with rows are allocated; nothing is freed twice, and nothing is left when all objects are destroyed.", "quantifier": "every program over any number of objects and sizes", "why_tests_cant": "A leak changes no result that a test looks at.", "anchors": ["source/descriptor/mtpr/include/basis.h::RB_Chebyshev::operator=", "source/descriptor/mtpr/include/basis.h::RQ_Chebyshev::operator=", "source/descriptor/mtp/include/mtpMRadial.h::ChebyshevPoly::operator=", "source/descriptor/mtp/include/mtpMRadial.h::MtpQ::operator="]}
{"id": "C151", "title": "EnvMatrixOp treats every frame of a batch on its own", "statement": "For a batch of frames EnvMatrixOp returns, frame after frame and centre after centre, the environment rows of the neighbours of that frame sorted by type, and their derivatives; the other frames of the batch, and the maximal neighbour numbers they announce, have no influence.", "quantifier": "all batch sizes, numbers of atoms, types, neighbours and real coordinates", "why_tests_cant": "A batch of equal frames, as in the tests, hides any mixing of frames.", "anchors": ["source/descriptor/deepmd/src/envMatrixOp.cc::EnvMatrixFunction::forward"]}
{"id": "C152", "title": "Se4pwOp treats every frame of a batch on its own", "statement": "For a batch of frames Se4pwOp::forward returns, frame after frame, the environment rows of the neighbours sorted by type, their derivatives with respect to the centre and the relative coordinates, and get_prim_indices_from_matersdk the indices of these neighbours in the cell; the other frames of the batch have no influence.", "quantifier": "all batch sizes, numbers of atoms, types, neighbours and real coordinates", "why_tests_cant": "The offsets of the frames differ for every size.", "anchors": ["source/descriptor/deepmd/src/se4pw_op.cc::Se4pwOp::forward", "source/descriptor/deepmd/src/se4pw_op.cc::Se4pwOp::get_prim_indices_from_matersdk"]}
{"id": "C153", "title": "Flattened tensors give the same result", "statement": "As the note on Se4pwOp::forward says, it does not matter whether the input tensors are flattened or not.", "quantifier": "all batch sizes and tensors", "why_tests_cant": "The tests use one frame.", "anchors": ["source/descriptor/deepmd/src/se4pw_op.cc::Se4pwOp::forward", "source/descriptor/deepmd/src/se4pw_op.cc::Se4pwOp::get_prim_indices_from_matersdk"]}
{"id": "C154", "title": "Tensors of another element type are rejected", "statement": "EnvMatrixOp, Se4pwOp::forward and get_prim_indices_from_matersdk reject every batch with a tensor whose element type is not the documented one (32 bit integers, 32 or 64 bit floats), instead of reading its bytes as something else.", "quantifier": "all tensors, sizes and element types", "why_tests_cant": "Tests pass tensors of the right type.", "anchors": ["source/descriptor/deepmd/src/envMatrixOp.cc::EnvMatrixFunction::forward", "source/descriptor/deepmd/src/se4pw_op.cc::Se4pwOp::forward", "source/descriptor/deepmd/src/se4pw_op.cc::Se4pwOp::get_prim_indices_from_matersdk"]}
{"id": "C155", "title": "Results do not depend on how tensors are stored", "statement": "Two sets of tensors which show the same elements give the same result in EnvMatrixOp and Se4pwOp, whether they are contiguous or views.", "quantifier": "all sizes, strides and offsets", "why_tests_cant": "Tests pass freshly made, contiguous tensors.", "anchors": ["source/descriptor/deepmd/src/envMatrixOp.cc::EnvMatrixFunction::forward", "source/descriptor/deepmd/src/se4pw_op.cc::Se4pwOp::forward"]}
{"id": "C156", "title": "EnvMatrixOp can be differentiated", "statement": "The backward pass of EnvMatrixOp hands the derivative of the environment rows on to the relative coordinates.", "quantifier": "all inputs", "why_tests_cant": "The tests never call backward; a missing gradient gives no error by itself.", "anchors": ["source/descriptor/deepmd/src/envMatrixOp.cc::EnvMatrixFunction::backward"]}
{"id": "C157", "title": "Slices of a collection keep frames, energies and virials together", "statement": "A slice of a StructCollection holds exactly the frames a Python slice of a list selects, in that order (also for negative or large steps and bounds), each with its own total, potential and kinetic energy and its own virial; it is the collection from_indices gives for these positions. A slice which selects nothing, and a step of 0, are refused.", "quantifier": "all collections, bounds and steps, given or left out", "why_tests_cant": "Tests use one or two slices with positive steps.", "anchors": ["matersdk/data/struct_collection.py::StructCollection.__getitem__", "matersdk/data/struct_collection.py::StructCollection.from_indices"]}
{"id": "C158", "title": "A single frame of a collection can be picked", "statement": "collection[i] gives the collection of the one frame i (negative numbers count from the end), and a loop over a collection visits every frame.", "quantifier": "all collections and indices", "why_tests_cant": "Needs every index of every collection.", "anchors": ["matersdk/data/struct_collection.py::StructCollection.__getitem__", "matersdk/data/struct_collection.py::StructCollection.__init__"]}
{"id": "C159", "title": "Atom counts of a collection describe all of its frames", "statement": "The number of atoms and the number of atoms of each element a collection reports hold for every frame, or the collection is refused.", "quantifier": "all lists of structures", "why_tests_cant": "Tests use frames of one run, which are all alike.", "anchors": ["matersdk/data/struct_collection.py::StructCollection.__init__"]}
{"id": "C160", "title": "Structures give the forces and energies of their atoms", "statement": "get_atomic_force and get_atomic_energy of a structure return one entry per atom, in the order of the atoms, for every structure read from a file; a collection of such structures can be printed.", "quantifier": "all structure files", "why_tests_cant": "Tests can only try some files.", "anchors": ["matersdk/io/publicLayer/structure.py::DStructure.get_atomic_force", "matersdk/io/publicLayer/structure.py::DStructure.get_atomic_energy", "matersdk/data/struct_collection.py::StructCollection.__repr__"]}
{"id": "C161", "title": "A trajectory can be loaded as a collection", "statement": "StructCollection.from_trajectory_s gives, for every MOVEMENT file, a collection with its frames, energies and virials.", "quantifier": "all trajectories", "why_tests_cant": "One file shows one failure; the claim is that no file at all works.", "anchors": ["matersdk/data/struct_collection.py::StructCollection.from_trajectory_s"]}
{"id": "C162", "title": "An export replaces the folder completely or not at all", "statement": "After StructCollection.to has succeeded the folder holds exactly the exported sets, whatever was in it before; when it fails the folder is as it was.", "quantifier": "all collections, set sizes and former folders", "why_tests_cant": "Depends on where in the middle of writing an error occurs.", "anchors": ["matersdk/data/struct_collection.py::StructCollection.to"]}
{"id": "C163", "title": "HIGHK lists every k-point once", "statement": "The file HIGHK written for a structure has a header and one row per high-symmetry point, in order, with its coordinates to within 5e-7 and its label; nothing of a file found there before is left.", "quantifier": "all dictionaries of k-points, all former files", "why_tests_cant": "All coordinates and all labels.", "anchors": ["matersdk/calculation/kpath/kpathSampler.py::KpathSampler.output_HIGHK_file"]}
{"id": "C164", "title": "gen.kpt states every segment of every path", "statement": "The file gen.kpt has a header and then, for every path and every pair of neighbouring points in order, three rows: the number of points, the start and the end, with coordinates to within 5e-7 and labels; nothing of a former file is left.", "quantifier": "all paths, cells, densities and k-points", "why_tests_cant": "All paths and cells.", "anchors": ["matersdk/calculation/kpath/kpathSampler.py::KpathSampler.output_gen_kpt"]}
{"id": "C165", "title": "The readers of IN.KPT agree row by row", "statement": "Fractional coordinates and weights have one entry for every row after the second, from the first three words and the fourth; the high-symmetry points are the rows with a label, in order, the same as those numbered by get_idx2hsp, with the coordinates of these numbers. A row without weight makes the weights fail.", "quantifier": "all files for which the readers succeed", "why_tests_cant": "Labelled and plain rows can be mixed in any way.", "anchors": ["matersdk/io/pwmat/input/inkpt.py::Inkpt.get_kpt_coords_frac", "matersdk/io/pwmat/input/inkpt.py::Inkpt.get_kpt_weights", "matersdk/io/pwmat/input/inkpt.py::Inkpt.get_hsp", "matersdk/io/pwmat/input/inkpt.py::Inkpt.get_idx2hsp"]}
{"id": "C166", "title": "The number of k-points announced is the number listed", "statement": "Inkpt returns as number of k-points the number of rows from which it reads coordinates and weights, or refuses the file.", "quantifier": "all IN.KPT files", "why_tests_cant": "Tests use consistent files.", "anchors": ["matersdk/io/pwmat/input/inkpt.py::Inkpt.get_num_kpts", "matersdk/io/pwmat/input/inkpt.py::Inkpt.get_kpt_weights"]}
{"id": "C167", "title": "Cartesian k-points are converted or refused", "statement": "For an IN.KPT file with Cartesian coordinates (iflag 1, in units of 2 pi / a0) the coordinates returned are those points, or the file is refused; for fractional ones they are the combinations of the reciprocal vectors, and in 1/Bohr 0.529177249 times those in 1/Angstrom.", "quantifier": "all files and cells", "why_tests_cant": "Tests have files with iflag 2 only.", "anchors": ["matersdk/io/pwmat/input/inkpt.py::Inkpt.__init__", "matersdk/io/pwmat/input/inkpt.py::Inkpt.get_kpt_coords_A", "matersdk/io/pwmat/input/inkpt.py::Inkpt.get_kpt_coords_Bohr"]}
{"id": "C168", "title": "DOS.input holds the settings", "statement": "The five rows of DOS.input start with the mark for atoms, the mark for the method, the smearing to within 5e-6 and the number of energies, the interpolation grid, and 0; the comments follow behind.", "quantifier": "all settings", "why_tests_cant": "All numbers.", "anchors": ["matersdk/io/pwmat/input/dos_input.py::DosInput.to"]}
{"id": "C169", "title": "gen.vext states the potential which was asked for", "statement": "GenVext accepts the three kinds of potential, each with its number of parameters (3, 6, 2) and a centre of three coordinates, and refuses everything else; the file states centre, kind, parameters and ADD_VR as given.", "quantifier": "all kinds, centres and parameters", "why_tests_cant": "All numbers of parameters.", "anchors": ["matersdk/io/pwmat/input/gen_vext.py::GenVext.__init__", "matersdk/io/pwmat/input/gen_vext.py::GenVext.to"]}
{"id": "C170", "title": "get_in_atom names the structure file of the REPORT", "statement": "get_in_atom returns the last word of the first row with IN.ATOM in the REPORT file as it is now, and fails when there is none.", "quantifier": "all REPORT files", "why_tests_cant": "A test reads a file once; a file which is written again is the case that goes wrong.", "anchors": ["matersdk/io/pwmat/output/report.py::Report.get_in_atom"]}
{"id": "C171", "title": "The Python and the C++ environment matrices agree", "statement": "For one crystal, one cutoff and the same numbers of slots, the Python descriptor (StructureNeighborsV1, DpseTildeRPairV1) and the C++ one (NeighborList, EnvMatrix) give for every centre and every neighbour element the same rows and, up to the sign convention, the same derivatives; only the order of equally distant neighbours may differ.", "quantifier": "all crystals, cutoffs, supercells large enough for the cutoff, and slot numbers", "why_tests_cant": "The two implementations are in different languages and no test compares them.", "anchors": ["matersdk/feature/deepmd/se_pair.py::DpseTildeRPairV1", "source/descriptor/deepmd/include/envMatrix.h::EnvMatrix::find_value_deriv"]}
{"id": "C172", "title": "MtpMCoeffPairCombs can be built for every level", "statement": "MtpMCoeffPairCombs(max_level) returns for every level, with the combinations of moments of level at most max_level, and does nothing undefined.", "quantifier": "all levels and all correct implementations of std::sort", "why_tests_cant": "Flowing off the end of a function that should return a value often works by luck with one compiler and optimisation level.", "anchors": ["source/descriptor/mtp/src/mtpLevel.cc::MtpMCoeffPair::operator=", "source/descriptor/mtp/src/mtpLevel.cc::MtpMCoeffPairCombs::get_all_schemes4lev"]}
{"id": "C173", "title": "An AlignedArray of n elements is aligned and has room for them", "statement": "AlignedArray<T>(n) and resize(n) give an array that starts at a multiple of 16 bytes, reports n elements, and whose elements 0..n-1 lie inside memory of its own; a negative n is refused.", "quantifier": "all element sizes, numbers of elements, states of memory and allocators", "why_tests_cant": "A test gets whatever address the allocator happens to return, usually already aligned.", "anchors": ["source/core/include/AlignedArray.h::AlignedArray::allocate", "source/core/include/AlignedArray.h::AlignedArray::resize"]}
{"id": "C174", "title": "AlignedArrays behave like values and can be kept in collections", "statement": "In any program that makes, copies, assigns, resizes, reads, writes and destroys AlignedArrays with valid indices, every array holds what was stored in it, changing one never changes another, all memory is given back exactly once, and nothing else is accessed.", "quantifier": "all programs, element sizes and allocators", "why_tests_cant": "All sequences of operations on any number of arrays.", "anchors": ["source/core/include/AlignedArray.h::AlignedArray"]}
{"id": "C175", "title": "Vec3 operators act componentwise with correct rounding", "statement": "In any program over Vec3 variables, every operator gives the componentwise exact result rounded once to the nearest double; x op= y leaves x as x = x op y would, also when y is x; == and != compare all components; an index other than 0, 1, 2 stops the program.", "quantifier": "all programs, values without overflow and underflow, and indices", "why_tests_cant": "A test tries a few vectors with short decimals, for which many roundings are exact.", "anchors": ["source/core/include/vecx.h::Vec3"]}
{"id": "C176", "title": "Dot and cross products of Vec3 keep their identities in doubles", "statement": "v.dot(w) = w.dot(v); v.dot(v) >= 0 with 0 only for v = 0; v.cross(w) = -(w.cross(v)); v.cross(v) = 0; v.cross(w) is orthogonal to v; and both products are as close to the exact ones as three (two) roundings allow.", "quantifier": "all vectors of doubles without overflow and underflow", "why_tests_cant": "Rounding errors depend on the values; samples cannot show that an identity is exact.", "anchors": ["source/core/include/vecx.h::Vec3::dot", "source/core/include/vecx.h::Vec3::cross"]}
{"id": "C177", "title": "FFInfer.calc_tildeR gives one complete feature block per ordered pair of elements", "statement": "calc_tildeR(structure, scaling_matrix) returns for every ordered pair of elements of the structure one block under the key centre_neighbour, with one row per centre atom that lists all neighbours of the neighbour element within rcut by distance, filled with zeros to the width of the neighbour element; an element without width and a width below the number of neighbours are refused.", "quantifier": "all structures, cutoffs, odd scaling factors, orders of the set of elements and widths", "why_tests_cant": "All structures; the order of a python set is not fixed; too small widths are rare in test data.", "anchors": ["matersdk/infer/pwmatmlff/deepmd/inference_depre.py::FFInfer.calc_tildeR"]}
{"id": "C178", "title": "The descriptor factories create what was registered and refuse other names", "statement": "F.create(name, ...) makes an object of the class last registered with F under name, whatever else was registered; an unknown name is refused with the ValueError the code announces; a registered class can still be used by its own name.", "quantifier": "all sequences of registrations, factories, names and classes", "why_tests_cant": "All sequences of registrations; the existing tests only use the one registered name.", "anchors": ["matersdk/io/publicLayer/neigh.py::StructureNeighborsDescriptor", "matersdk/feature/deepmd/premise.py::DpFeaturePairPremiseDescriptor", "matersdk/feature/deepmd/se_pair.py::DpseTildeRPairDescriptor", "matersdk/feature/deepmd/se.py::DpseTildeRDescriptor"]}
{"id": "C179", "title": "Environment matrices depend only on the crystal", "statement": "Two structures that describe the same infinite crystal, whatever cell, periodic images and order of atoms they are stored with, get the same environment matrices for corresponding atoms (the order of neighbours at equal distance excepted), for supercells at least as wide as the cutoff.", "quantifier": "all pairs of structures of the same crystal, cutoffs, element pairs and odd scaling factors", "why_tests_cant": "There are infinitely many ways to store a crystal; tests use one file each.", "anchors": ["matersdk/io/publicLayer/neigh.py::StructureNeighborsV1", "matersdk/feature/deepmd/se_pair.py::DpseTildeRPairV1.get_tildeR", "matersdk/io/publicLayer/structure.py::DStructure.make_supercell_"]}
{"id": "C180", "title": "The C++ environment matrix depends only on the crystal, up to rotation", "statement": "Two inputs of the C++ neighbour list whose infinite crystals differ by a rigid motion (or not at all), whatever cells and order of atoms they are stored with, get environment matrices that agree for corresponding atoms: per type the same slots with the three vector entries and the derivatives rotated, up to the order of neighbours; with sorted lists the weights come in the same order.", "quantifier": "all pairs of inputs, proper and improper rotations, translations, cutoffs, slot counts with enough room", "why_tests_cant": "There are infinitely many ways to store a crystal and infinitely many motions; tests use one file each.", "anchors": ["source/nblist/include/neighborList.h::NeighborList::find_info4mlff", "source/nblist/include/binLinkedList.h::BinLinkedList::get_neigh_atoms", "source/descriptor/deepmd/include/envMatrix.h::EnvMatrix::find_value_deriv"]}
{"id": "C181", "title": "The basis functions of the moment tensor potentials depend only on the crystal", "statement": "MtpBModule::forward on the tables of NeighborList::find_info4mlff gives the same numbers for corresponding atoms of two inputs whose infinite crystals differ by a rigid motion (or not at all), whatever cells and order of atoms they are stored with, whatever cutoff not below that of the potential the neighbour list is built with, and whatever number of slots, as long as all neighbours fit.", "quantifier": "all pairs of inputs, proper and improper rotations, translations, list cutoffs, slot counts with enough room, max_level, coefficients", "why_tests_cant": "There are infinitely many ways to store a crystal and infinitely many motions; the test of the module only checks the shape of the result.", "anchors": ["source/nblist/include/neighborList.h::NeighborList::find_info4mlff", "source/descriptor/mtp/src/mtpBModule.cc::MtpBModuleImpl::forward", "source/descriptor/mtp/src/mtpMModule.cc::MtpMModuleImpl::forward"]}
{"id": "C182", "title": "The basis functions of the moment tensor potentials change smoothly when atoms move", "statement": "The numbers MtpBModule::forward computes from the tables of NeighborList::find_info4mlff are differentiable functions of the positions of all atoms of the cell, also at positions where atoms enter or leave the neighbour list or the cutoff sphere of the potential or change their order in the tables, so energies and forces built on them have no jumps.", "quantifier": "all cells, numbers of atoms, types, positions with room in the tables, max_level, coefficients, list cutoffs not below the cutoff of the potential", "why_tests_cant": "Differentiability is a limit statement at every point of a continuum; finite differences at sample positions cannot see the measure-zero set where neighbours enter or leave.", "anchors": ["source/nblist/include/neighborList.h::NeighborList::find_info4mlff", "source/descriptor/mtp/src/mtpBModule.cc::MtpBModuleImpl::forward", "source/descriptor/mtp/include/mtpMRadial.h::MtpSwitchFunc2"]}
{"id": "C183", "title": "The fat-band tables of an orbital hold the weights of that orbital", "statement": "FatbandStructure.get_orbital_dfs_lst returns one table per band, in the order of the file, with the k-points, the energies, the total weight and the column of the orbital asked for, whatever the case of the letters of its name, with the numbers of the file.", "quantifier": "all fat-band files in the layout of the tool, orbital names, numbers of bands and k-points", "why_tests_cant": "The selection is a pattern searched in every column name; whether it picks a stranger depends on the names of all orbitals of all elements, of which a test tries one compound.", "anchors": ["matersdk/io/pwmat/output/fatabandstructureTxt.py::FatbandStructure.get_orbital_dfs_lst"]}
{"id": "C184", "title": "Energies built on the C++ environment matrix have the forces its derivative table gives", "statement": "A sum of a differentiable function over the slots of a type in the rows EnvMatrix::find_value_deriv makes from NeighborList::find_info4mlff, padding included, is a differentiable function of the positions of all atoms, also where neighbours enter or leave the cutoff sphere or change their order, and its derivative is the one the chain rule gives with the derivative table: every occupied slot holds one periodic image and contributes its block times the change of the relative position.", "quantifier": "all cells the neighbour list handles, numbers of atoms, type indices, positions with room in the slots, functions of rows (also not zero at zero), rcut > rcut_smooth, rcut > 0", "why_tests_cant": "Differentiability is a limit at every point of a continuum; the places where neighbours enter, leave or change order have measure zero and are not hit by samples.", "anchors": ["source/nblist/include/neighborList.h::NeighborList::find_info4mlff", "source/descriptor/deepmd/include/envMatrix.h::EnvMatrix::find_value_deriv", "source/descriptor/deepmd/include/se.h::smooth_func"]}
{"id": "C185", "title": "In doubles the C++ neighbour list files wrapped atoms into existing bins", "statement": "Building a BinLinkedList or a NeighborList from a cell with wrapped atoms, computed in IEEE 754 doubles, never addresses a bin outside the allocated arrays: the index of every atom of the supercell along every axis is at least 0 and below the number of bins.", "quantifier": "all cells the list handles in exact arithmetic, atoms with double coordinates inside the cell, cutoffs, bin sizes, periodicity flags", "why_tests_cant": "The failing inputs are a few of 2^64 doubles next to the faces; the write past the end usually goes unnoticed.", "anchors": ["source/nblist/include/binLinkedList.h::BinLinkedList::_build", "source/nblist/include/structure.h::Structure::make_supercell", "source/nblist/include/structure.h::Structure::get_limit_xyz"]}
{"id": "C186", "title": "In doubles the C++ neighbour tables are complete and accurate up to rounding", "statement": "Computed in IEEE 754 doubles, find_info4mlff lists for every atom each periodic image nearer than the cutoff by a stated tolerance exactly once, and no image farther than the cutoff by the tolerance; indices, counts and padding are exact, each relative coordinate is accurate to the tolerance, and with sort the listed distances increase up to the tolerance. The tolerance is 2^-46 times the skewness of the cell times the size of the supercell, about 1e-11 for an ordinary cell.", "quantifier": "all cells of moderate size and skewness that the list handles, whose atoms (double coordinates) keep off the upper faces by the tolerance and whose images are at least 1/20 apart; all double cutoffs, periodicity flags, table widths, sort on or off", "why_tests_cant": "Rounding errors of a chain of operations depend on every bit of the input; testing samples neither bounds the error nor shows that no image near a bin boundary is lost.", "anchors": ["source/nblist/include/neighborList.h::NeighborList::find_info4mlff", "source/nblist/include/binLinkedList.h::BinLinkedList::get_neigh_atoms", "source/nblist/include/binLinkedList.h::BinLinkedList::_build", "source/nblist/include/structure.h::Structure::make_supercell"]}
{"id": "C187", "title": "In doubles the smoothing weight is never negative and never grows with the distance", "statement": "The weight s(r) that multiplies a row of the C++ environment matrix, computed in IEEE 754 doubles, is at least 0 at every distance and does not increase when the distance increases.", "quantifier": "all rcut_smooth < rcut and all positive distances", "why_tests_cant": "The polynomial cancels near the cutoff; whether the rounded result changes sign depends on the last bits of the distance, among 2^52 values.", "anchors": ["source/descriptor/deepmd/include/se.h::smooth_func", "source/descriptor/deepmd/include/se.h::SwitchFunc::get_result"]}
{"id": "C188", "title": "In doubles the environment matrix has the rows of the images of the crystal up to rounding", "statement": "From a Structure through NeighborList and EnvMatrix::find_value_deriv, all computed in IEEE 754 doubles, each slot of tilde_r holds the DeepPot-SE row (s(r), s(r)x/r, s(r)y/r, s(r)z/r) of one periodic image of the cutoff sphere up to a stated tolerance, images of each type in the block of that type, no image twice and the remaining slots zero; an image that rounding makes the list miss has a row within the tolerance of zero. The tolerance is about 1e-9 for an ordinary cell.", "quantifier": "all cells as in C186 with types 0..n-1, block sizes that hold the neighbours, images at least d >= 1/20 apart, rcut_smooth below rcut by at least 64 tolerances", "why_tests_cant": "A chain of several dozen roundings per entry; tests compare a few structures with a fixed tolerance and cannot bound the error or the effect of an image missed at the cutoff.", "anchors": ["source/descriptor/deepmd/include/envMatrix.h::EnvMatrix::find_value_deriv", "source/nblist/include/neighborList.h::NeighborList::find_info4mlff", "source/descriptor/deepmd/include/se.h::smooth_func"]}
{"id": "C189", "title": "In doubles the derivative table is the derivative of the exact rows up to rounding", "statement": "In the same computation each block of tilde_r_deriv agrees, entry by entry and up to a stated tolerance, with the Frechet derivative of the exact DeepPot-SE row with respect to the relative position of its image; padding is zero, and an image that the rounded list misses has a derivative within the tolerance of zero. The tolerance is about 1e-8 for an ordinary cell.", "quantifier": "as C188", "why_tests_cant": "Finite differences of a rounded function cannot separate its rounding noise from an error of the derivative.", "anchors": ["source/descriptor/deepmd/include/envMatrix.h::EnvMatrix::find_value_deriv", "source/descriptor/deepmd/include/se.h::SwitchFunc::get_deriv2r"]}
{"id": "C190", "title": "Voxels file each particle exactly once", "statement": "A Voxels object can be constructed for every box, and insert files each particle into exactly one existing voxel, which depends on its location alone; each voxel lists its particles in the order they came.", "quantifier": "all boxes with positive diagonal, periodic or not, positive voxel sizes, and sequences of particles", "why_tests_cant": "The tests insert two or three particles into one periodic box of four voxels.", "anchors": ["source/nblist/src/CpuNeighborList.cc::Voxels::Voxels", "source/nblist/src/CpuNeighborList.cc::Voxels::insert"]}
{"id": "C191", "title": "The voxel of a particle contains its location", "statement": "In a periodic box divided into ny by nz equal voxels, getVoxelIndex returns the voxel that contains an image of the location.", "quantifier": "all periodic boxes, voxel sizes and locations", "why_tests_cant": "The error shows only if the voxels are not squares; the tests use squares of side 1.", "anchors": ["source/nblist/src/CpuNeighborList.cc::Voxels::Voxels", "source/nblist/src/CpuNeighborList.cc::Voxels::getVoxelIndex"]}
{"id": "C192", "title": "Periodic images of a particle are filed into the same voxel", "statement": "Two particles whose locations differ by a lattice vector of the box are inserted into the same voxel.", "quantifier": "all periodic boxes in reduced form, all lattice vectors and locations, in exact arithmetic", "why_tests_cant": "There are infinitely many images; the shear of the box enters only for images along the third vector.", "anchors": ["source/nblist/src/CpuNeighborList.cc::Voxels::getVoxelIndex", "source/nblist/src/CpuNeighborList.cc::Voxels::insert"]}
{"id": "C193", "title": "Binary search in a voxel delimits the particles of a range of x", "statement": "After sortItems each voxel holds the particles it held, ordered by x; findLowerBound for a and findUpperBound for b over the voxel delimit exactly the particles with a <= x <= b, and over part of it they stay in that part.", "quantifier": "all boxes with voxels, sequences of particles, numbers a and b, and parts of a voxel", "why_tests_cant": "Off-by-one errors of a binary search show for some lengths, positions and ties only.", "anchors": ["source/nblist/src/CpuNeighborList.cc::Voxels::findLowerBound", "source/nblist/src/CpuNeighborList.cc::Voxels::findUpperBound", "source/nblist/src/CpuNeighborList.cc::Voxels::sortItems"]}
{"id": "C194", "title": "The tables of Se4pw give the derivatives of energies by the positions of all atoms", "statement": "A sum of a differentiable function over the slots of a type in the rows Se4pw::generate makes from a neighbour list, padding included, is a differentiable function of the positions of all atoms. Its derivative can be read off the tables alone: a slot of centre i with derivative block M and index j of get_prim_indices_from_matersdk contributes the derivative of the function at its row times M times the displacement of atom i minus that of atom j, padding nothing.", "quantifier": "all cells the neighbour list handles, numbers of atoms, type indices, positions with room in the slots, functions of rows (also not zero at zero), rcut > rcut_smooth, rcut > 0", "why_tests_cant": "Agreement of three tables for every function and every structure, in the limit of small displacements, also where neighbours enter or leave or change their order.", "anchors": ["source/descriptor/deepmd/include/se4pw.h::Se4pw::generate", "source/descriptor/deepmd/include/se4pw.h::Se4pw::get_prim_indices_from_matersdk", "source/descriptor/deepmd/test/demo_se4pw.cc", "source/nblist/include/neighborList.h::NeighborList"]}
{"id": "C195", "title": "The forces assembled from the tables of Se4pw are those of the energy and add up to zero", "statement": "For an energy that is a differentiable function of sums over the slots of Se4pw, the force on an atom is assembled from the tables: each slot acts on its centre and with the opposite sign on the atom its index names. These forces are minus the slopes of the energy, and they add up to zero.", "quantifier": "all cells the neighbour list handles, numbers of atoms, type indices, positions with room in the slots, energies, rcut > rcut_smooth, rcut > 0", "why_tests_cant": "An index that names the wrong atom in one slot of one structure breaks it.", "anchors": ["source/descriptor/deepmd/include/se4pw.h::Se4pw::generate", "source/descriptor/deepmd/include/se4pw.h::Se4pw::get_prim_indices_from_matersdk", "source/nblist/include/neighborList.h::NeighborList"]}
{"id": "C196", "title": "The tables of Se4pw give the virial", "statement": "When cell and positions are deformed together, an energy that is a differentiable function of sums over the slots of Se4pw changes with minus the sum over all slots of its derivative by the row times the derivative block times the deformed relative coordinates of the slot.", "quantifier": "all cells the neighbour list handles, numbers of atoms, type indices, positions with room in the slots, energies, deformations, rcut > rcut_smooth, rcut > 0", "why_tests_cant": "Derivatives in all directions of deformation; the number of periodic images within the cutoff changes with the cell.", "anchors": ["source/descriptor/deepmd/include/se4pw.h::Se4pw::generate", "source/nblist/include/neighborList.h::NeighborList"]}
{"id": "C197", "title": "A MOVEMENT file can be opened", "statement": "Movement(path) gives an object for every MOVEMENT file with a separator row and refuses the others with an error about the file. Classes of the package with abstract bases can be instantiated.", "quantifier": "all file texts; all classes derived from Movement", "why_tests_cant": "Whether a class is abstract depends on its base in another file; tests that stub the base or a subclass do not see it.", "anchors": ["matersdk/io/pwmat/output/movement.py::Movement", "matersdk/io/publicLayer/traj.py::Trajectory", "matersdk/io/pwmat/utils/acextractor.py::ACExtractorBase", "matersdk/io/publicLayer/neigh.py::StructureNeighborsBase"]}
{"id": "C198", "title": "Bond statistics can be set up for every trajectory", "statement": "AvgBond(path, element_1, element_2, rcut) and PairBond(path, i, j) give an object for every MOVEMENT file with at least one frame and elements of the table.", "quantifier": "all file texts, elements and indices", "why_tests_cant": "A test with one file shows one failure; here it is every file, also after the abstract methods are added.", "anchors": ["matersdk/feature/avg/avgbond.py::AvgBond.__init__", "matersdk/feature/avg/avgbond.py::PairBond.__init__", "matersdk/io/pwmat/output/movement.py::Movement.get_all_frame_structures_info"]}
{"id": "C199", "title": "A normaliser survives being saved and loaded", "statement": "TildeRNormalizer.from_file of a path that TildeRNormalizer.to has written gives a normaliser with the same radii, elements, widths, scaling factors, averages and deviations, which normalises every structure as the saved one does. Saving replaces what was at the path and changes no other file. A file is accepted exactly when it has the eight data sets and both tables have one row per centre element; otherwise OSError, KeyError or AssertionError is raised.", "quantifier": "all normalisers the constructor accepts, all paths, all earlier contents of the disk, all files", "why_tests_cant": "Averages and deviations have the same shape and the two radii and the two lists of elements the same type, so an exchanged name in one of the two methods goes unnoticed for the values of most tests; all values are quantified over.", "anchors": ["matersdk/feature/deepmd/preprocess.py::TildeRNormalizer.to", "matersdk/feature/deepmd/preprocess.py::TildeRNormalizer.from_file", "matersdk/feature/deepmd/preprocess.py::TildeRNormalizer.__init__"]}
{"id": "C200", "title": "Normalisation statistics come from every environment row of the selected frames", "statement": "TildeRNormalizer.from_dp_labeled_system uses for every centre element the average weight and the standard deviations (not below 1e-2) of the environment rows of all atoms of that element in all selected frames: each neighbour of a listed element within the cutoff once, each empty slot as a row of zeros. The order of the selected frames has no influence, and frames may have different numbers of atoms. An index outside the system is an IndexError.", "quantifier": "all systems, lists of indices, cutoffs, odd scaling factors, element lists and sufficient widths", "why_tests_cant": "A frame, a neighbour element or the padding left out, or counted twice, changes the statistics by amounts a test does not notice; tests use one system whose frames have equal compositions.", "anchors": ["matersdk/feature/deepmd/preprocess.py::TildeRNormalizer.from_dp_labeled_system", "matersdk/feature/deepmd/preprocess.py::TildeRNormalizer.calc_stats", "matersdk/feature/deepmd/preprocess.py::NormalizerPremise.concat_tildeRs4calc_stats", "matersdk/feature/deepmd/preprocess.py::TildeRPairNormalizer.calc_stats"]}
{"id": "C201", "title": "Normalising the frames a normaliser was made from standardises them", "statement": "With one list of elements for centres and neighbours, normalising the frames from which the normaliser was made gives for every centre element weights with mean zero (up to 1e-13 of the mean weight before) and variance one, and angular entries with variance one, taken over all atoms, frames and slots, if the variance before was at least 1e-4; a smaller variance is multiplied by 1e4. The mean of the angular entries is scaled, not subtracted.", "quantifier": "all systems, lists of indices, cutoffs, odd scaling factors, element lists and sufficient widths for which the normaliser is made", "why_tests_cant": "The two methods assemble the environment matrix separately; a difference in padding, order or choice of the statistics shows up only in the moments over all frames, which tests do not form.", "anchors": ["matersdk/feature/deepmd/preprocess.py::TildeRNormalizer.normalize", "matersdk/feature/deepmd/preprocess.py::TildeRNormalizer.from_dp_labeled_system", "matersdk/feature/deepmd/preprocess.py::TildeRPairNormalizer.normalize"]}
{"id": "C202", "title": "Sorted folder names give back the order of the frames", "statement": "The folders set.000, set.001, ... written by StructCollection.to and part.000, part.001, ... written by InfoSet.to_dir have different names, numbered in the order of the frames, and sorting the names as texts gives that order.", "quantifier": "every number of frames and every set or part size", "why_tests_cant": "Test data sets have a handful of folders; names of different lengths, for which the order of texts and of numbers differ, appear only from the 1001st folder on.", "anchors": ["matersdk/data/struct_collection.py::StructCollection.to", "matersdk/data/infoset.py::InfoSet.to_dir"]}
{"id": "C203", "title": "A data set made from a folder of trajectories holds every frame once", "statement": "InfoSets.from_dir followed by to_dir with part size p distributes the trajectory files found over the data set folders, every file into exactly one; the part folders of a data set folder cut the frames of its files, in order, into non-empty pieces of p frames (the last possibly shorter), and row i of each array file of a part folder is what frame i of that piece states: box, coordinates, total energy, forces, elements. No folder is written twice or over an existing one, and without a part size each data set folder has one part with all its frames.", "quantifier": "every list of trajectory files, every part size >= 1", "why_tests_cant": "A test sees a few small files; that no frame is lost, doubled or given the data of another one for any grouping of files and any part size is a claim about all inputs.", "anchors": ["matersdk/data/infosets.py::InfoSets.from_dir", "matersdk/data/infosets.py::InfoSets.to_dir", "matersdk/data/infoset.py::InfoSet.from_file", "matersdk/data/infoset.py::InfoSet.to_dir"]}
{"id": "C204", "title": "Virials and atomic energies stated by a frame reach the data set", "statement": "In a data set made with InfoSets.from_dir and to_dir, a virial or atomic energies stated by a frame are written at the row of that frame.", "quantifier": "every list of trajectory files, every part size >= 1", "why_tests_cant": "Test folders hold trajectories which all state the same quantities; the merged files with and without a stress are the case in which values are dropped.", "anchors": ["matersdk/data/infosets.py::InfoSets.from_dir", "matersdk/data/infosets.py::InfoSets.to_dir", "matersdk/data/infoset.py::InfoSet.from_file"]}
{"id": "C205", "title": "Box, widths and plane distances of a C++ cell", "statement": "For a Structure with atoms get_limit_xyz returns along every axis the smallest and the largest coordinate of the points of the cell, get_projected_lengths returns their differences, and get_interplanar_distances returns for each lattice vector the least distance between the plane of the two others and the same plane one lattice vector further; make_supercell multiplies the plane distances by its factors.", "quantifier": "every lattice, origin and positive supercell factors; lattices with non-zero volume for the plane distances", "why_tests_cant": "Tests compare the numbers of one hexagonal cell; that no point of a slanted cell with negative components lies outside the box, and that the distance is the least one, are claims about infinitely many points.", "anchors": ["source/nblist/include/structure.h::get_limit_xyz", "source/nblist/include/structure.h::get_vertexes", "source/nblist/include/structure.h::get_projected_lengths", "source/nblist/include/structure.h::get_interplanar_distances"]}
{"id": "C206", "title": "From numpy arrays to the descriptors of a batch", "statement": "Stacking the arrays nblist.find_info4mlff returns for several structures with the same number of atoms and handing them to envMatrixOp gives, for atom i of structure b, the DeepPot-SE rows (and their derivatives) of exactly the periodic images atom i of structure b sees within the cutoff, ordered by type, followed by zeros.", "quantifier": "every number of structures, every cell the neighbour list handles, every number of atoms and slots per type, cartesian and fractional coordinates, sorted or not", "why_tests_cant": "The demo shows one structure and prints times only; whether rows of different structures are mixed up, and what happens when umax_num_neigh_atoms differs from the sum of umax_num_neigh_atoms_lst, depends on memory layouts no test enumerates.", "anchors": ["demo/v2/fromcc/nblist_demo.py", "source/nblist/bind/nblist_bind.cc::find_info4mlff", "source/descriptor/deepmd/src/envMatrixOp.cc::EnvMatrixFunction::forward"]}
{"id": "C207", "title": "Printouts of a neighbour list", "statement": "show_in_index, show_in_prim_index, show_in_an and show_in_distances print one line per atom of the cell; line i of each has one number for every periodic image atom i sees within the cutoff, all four in the same order and nearest first if the list is sorted: place in the supercell, atom of the cell, atomic number, distance.", "quantifier": "every cell the neighbour list handles, every cutoff and periodicity, sorted or not", "why_tests_cant": "Tests print the lists for the eye; that the four printouts describe the same images in the same order, and that the distances are those of all images within the cutoff, is a claim about every cell.", "anchors": ["source/nblist/include/neighborList.h::show_in_index", "source/nblist/include/neighborList.h::show_in_prim_index", "source/nblist/include/neighborList.h::show_in_an", "source/nblist/include/neighborList.h::show_in_distances"]}
{"id": "C208", "title": "Python neighbour table in doubles", "statement": "In double arithmetic StructureNeighborsV1 still lists, for each atom, every atom of the crystal that is closer than rcut by more than the rounding error and none that is farther by more than it, each once, with its element and with distance and position correct up to rounding; if no atom is that close to rcut, the neighbours are exactly those within rcut. Only an atom right at rcut can be lost.", "quantifier": "every cell whose coordinates in the supercell stay below a bound M, every cutoff covered by odd scaling factors, every way of storing coordinates that changes none by more than a given amount", "why_tests_cant": "A test compares a few distances with a tolerance; how far rounding can move an atom across the cutoff, and that it cannot lose or invent any other neighbour, is a claim about all doubles.", "anchors": ["matersdk/io/publicLayer/neigh.py::StructureNeighborsV1", "matersdk/io/publicLayer/structure.py::make_supercell_", "matersdk/io/publicLayer/structure.py::get_key_idxs"]}
{"id": "C209", "title": "Python environment matrix and derivatives in doubles", "statement": "Computed in double arithmetic, from the structure through the neighbour table to get_tildeR and calc_derivative, the row of a centre atom has one entry for each neighbour within rcut; the four values and the twelve derivatives of the entry differ from those of the exact positions by at most a small multiple of the coordinate error divided by the smallest distance and the width of the switching zone, and the filled up entries are zero. This needs every atom to keep a distance from rcut: an atom a little closer than rcut whose computed distance is rcut gets the value 1/rcut where the exact value is nearly 0.", "quantifier": "every cell whose coordinates in the supercell stay below a bound M and whose atoms are at least rho apart, every rcut_smooth < rcut, every way of storing coordinates that changes none by more than a given amount", "why_tests_cant": "A test compares a few matrices with a tolerance; how large the tolerance has to be for any structure, and that the switch breaks it in a tiny zone at the cutoff, no sample shows.", "anchors": ["matersdk/feature/deepmd/se_pair.py::DpseTildeRPairV1", "matersdk/feature/deepmd/premise.py::DpFeaturePairPremiseV1", "matersdk/io/publicLayer/neigh.py::StructureNeighborsV1"]}
{"id": "C210", "title": "Python and C++ environment matrices agree in doubles", "statement": "Run in double arithmetic on the same crystal, the Python code (neighbour table, get_tildeR, calc_derivative) and the C++ code (NeighborList, find_info4mlff, EnvMatrix) both succeed, and for every centre atom and every neighbour element the Python rows and derivative blocks can be paired with the slots of the C++ code, each with exactly one, such that the values of a pair differ by at most the sum of the tolerances of the two codes and so do the derivatives (which have opposite signs). No atom may be as close to the cutoff as the rounding errors.", "quantifier": "every crystal the neighbour lists handle (C82, C185) with no atom within the tolerance of the cutoff, every supercell of odd factors that covers the cutoff, every way of storing coordinates that changes none by more than a given amount, enough slots, sorted or not", "why_tests_cant": "The two implementations live in two languages and round in different orders; a test compares them on a few structures with a guessed tolerance.", "anchors": ["matersdk/feature/deepmd/se_pair.py::DpseTildeRPairV1", "source/descriptor/deepmd/include/envMatrix.h::EnvMatrix::find_value_deriv", "source/nblist/include/neighborList.h::NeighborList::find_info4mlff"]}
{"id": "C211", "title": "Features change little when atoms move little", "statement": "Take two structures with the same elements in the same order whose atoms (and the images used in the supercell) differ by at most eps in every coordinate. If atoms are at least d apart and no atom is within 6 eps of the cutoff, the neighbour table, get_tildeR and calc_derivative succeed on both, and centre by centre the rows and derivative blocks of one are those of the other up to the order of the slots, the values differing by at most 256 eps (1/(rcut-rs) + 2/d)/d and the derivatives by at most 2048 eps (1/(rcut-rs) + 2/d)^2/d.", "quantifier": "every pair of structures with displacements that are small against d and rcut - rs, every cutoff, every supercell of odd factors, every pair of elements, every sufficient width, every tie-breaking of the sort", "why_tests_cant": "A test moves some atoms by some amounts; the bound is over all structures and displacements and depends on which neighbours enter or leave the list.", "anchors": ["matersdk/feature/deepmd/se_pair.py::DpseTildeRPairV1.get_tildeR", "matersdk/feature/deepmd/se_pair.py::DpseTildeRPairV1.calc_derivative", "matersdk/io/publicLayer/neigh.py::StructureNeighborsV1"]}
{"id": "C212", "title": "Saving and loading a structure changes its features only by the dropped digits", "statement": "Write a structure with fractional coordinates between -1 and 1 to atom.config, read the file back and compute features of both. With M bounding sum over i of (m_i + 3)|lattice_ip| the atoms move by at most 5e-7 M, and if no atom is as close to the cutoff as that, every row and derivative block of the loaded structure equals that of the saved one up to the order of the slots and a change proportional to 5e-7 M.", "quantifier": "every structure of real elements whose atoms are far apart compared with 5e-7 M, every cutoff, every supercell of odd factors, every pair of elements and sufficient width", "why_tests_cant": "The claim links the text format, its rounding, the reader and the whole feature chain; a test sees single files.", "anchors": ["matersdk/io/publicLayer/structure.py::DStructure.to", "matersdk/io/publicLayer/structure.py::DStructure.from_file", "matersdk/feature/deepmd/se_pair.py::DpseTildeRPairV1.get_tildeR", "matersdk/io/publicLayer/neigh.py::StructureNeighborsV1"]}
{"id": "C213", "title": "Supercells compose", "statement": "Making a supercell with odd factors a and then a supercell of the result with odd factors b gives the same lattice and the same atoms as one supercell with the products a*b, and if the result is sorted by element, the same elements in the same order. If some factor of either step is even, both ways are refused.", "quantifier": "every nonempty structure over every field of characteristic zero, all positive factors, sorted or not at each step", "why_tests_cant": "Two nested loops of centred displacements must fit together without gaps or overlaps for all factors; tests build a few supercells.", "anchors": ["matersdk/io/publicLayer/structure.py::DStructure.make_supercell_"]}
{"id": "C214", "title": "Features of a supercell are copies of those of the cell", "statement": "Compute features of a structure and of its supercell with odd factors a, b, c, each with a supercell large enough for the cutoff. The environments of the atoms of the supercell, each taken as the collection of its weight rows and derivative blocks, are those of the atoms of the cell, every one a*b*c times. So every sum over the atoms of a function of the environment, such as a model energy, is a*b*c times as large.", "quantifier": "every structure with a nonsingular cell and no coinciding atoms, every odd supercell, every cutoff, every pair of elements, every sufficient width, every function of the environment, every tie-breaking of the sort", "why_tests_cant": "It compares two runs of the whole chain on different structures; a test can only compare single crystals with sorting artefacts hidden or not.", "anchors": ["matersdk/io/publicLayer/structure.py::DStructure.make_supercell_", "matersdk/feature/deepmd/se_pair.py::DpseTildeRPairV1.get_tildeR", "matersdk/feature/deepmd/se_pair.py::DpseTildeRPairDerivativeV1", "matersdk/io/publicLayer/neigh.py::StructureNeighborsV1"]}
{"id": "C215", "title": "C++ features of a supercell are copies of those of the cell", "statement": "Multiply a structure with Structure::make_supercell and hand the result to NeighborList and EnvMatrix: there is one row for every copy of every atom, and it holds the values and derivatives of the row of that atom in the original cell.", "quantifier": "every cell the neighbour list handles, every supercell, every cutoff, all atoms and copies, every tie-breaking of the sort", "why_tests_cant": "It compares two runs of the whole chain; where copies are stored relative to the cell decides whether the second run works at all, and unit tests do not feed supercells to the neighbour list.", "anchors": ["source/nblist/include/structure.h::Structure::make_supercell", "source/nblist/include/binLinkedList.h::BinLinkedList::_build", "source/nblist/include/neighborList.h::NeighborList::find_info4mlff", "source/descriptor/deepmd/include/envMatrix.h::EnvMatrix::find_value_deriv"]}
{"id": "C216", "title": "C++ features change little when atoms move little", "statement": "Move the atoms of a structure a little, or change its lattice a little, such that no atom crosses the cutoff: NeighborList and EnvMatrix still succeed, and every value and derivative changes at most in proportion to the displacement, up to the order of the slots; with sorted lists the weights agree slot by slot up to that change.", "quantifier": "every structure, every small displacement of its atoms and lattice, every cutoff, all atoms and types, every tie-breaking of the sort", "why_tests_cant": "The bins, the order of the lists and the slots jump when atoms move; a unit test compares one structure with one reference and does not see whether an arbitrarily small move breaks the run.", "anchors": ["source/nblist/include/structure.h::Structure", "source/nblist/include/binLinkedList.h::BinLinkedList::_build", "source/nblist/include/neighborList.h::NeighborList::find_info4mlff", "source/descriptor/deepmd/include/envMatrix.h::EnvMatrix::find_value_deriv"]}
{"id": "C217", "title": "Neighbour lists depend on positions only, not on element numbers", "statement": "Give the atoms of a structure other element numbers: NeighborList::find_info4mlff returns the same indices, counts and relative coordinates in the same order, only the types change; an input on which the code fails still fails in the same way. If different elements keep different numbers, the largest neighbour counts per element stay the same too. This holds in exact arithmetic and in doubles.", "quantifier": "every lattice, atoms, renumbering, cutoff, periodicity, sorting, slot number and rounding, including inputs on which the code fails", "why_tests_cant": "A unit test runs one structure with its real element numbers; it never compares two numberings.", "anchors": ["source/nblist/include/structure.h::Structure", "source/nblist/include/binLinkedList.h::BinLinkedList", "source/nblist/include/neighborList.h::NeighborList::find_info4mlff", "source/nblist/include/neighborList.h::NeighborList::get_max_num_neigh_atoms_ssss", "source/nblist/include/neighborList.h::NeighborList::_build"]}
{"id": "C218", "title": "TildeR and EnvMatrix agree slot by slot", "statement": "Build TildeR from a structure, and EnvMatrix from the same structure with elements numbered by their place in the list of elements and as many slots per element as TildeR chose: nothing fails, the rows of every atom are the same in every slot including the padding, and the derivatives are the same with opposite sign (with respect to the atom in TildeR, to the neighbour in EnvMatrix).", "quantifier": "every cell the neighbour list handles with atoms further apart than its tolerance, every cutoff and smoothing radius, every periodicity, sorted or not, every list of distinct elements that covers the structure, every list of centre elements, every tie-breaking of the sort", "why_tests_cant": "The two classes fill their arrays by different loops, and the tests of each compare with its own printed reference.", "anchors": ["source/descriptor/deepmd/include/envMatrix.h::EnvMatrix::find_value_deriv", "source/nblist/include/neighborList.h::NeighborList::find_info4mlff", "source/descriptor/deepmd/include/se.h::TildeR::generate", "source/descriptor/deepmd/include/se.h::TildeR::deriv"]}
{"id": "C219", "title": "Se4pw and EnvMatrix agree on the same neighbour tables", "statement": "Give Se4pw::generate a neighbour table and positions, and EnvMatrix::find_value_deriv the same table with the relative positions that belong to them: both fill the same slots with the same rows, and the derivatives differ only in sign. With too few slots both let the same neighbours overwrite each other, and where one fails the other fails with the same error.", "quantifier": "every number of centres, every neighbour table, types, slot numbers, positions, cutoff and smoothing radius for which the positions of the listed neighbours exist, including tables with too few slots and tables that make the code read or write out of bounds", "why_tests_cant": "The two classes are tested apart, each on one structure with enough slots and against its own printed output.", "anchors": ["source/descriptor/deepmd/include/envMatrix.h::EnvMatrix::find_value_deriv", "source/descriptor/deepmd/include/se4pw.h::Se4pw::generate"]}
{"id": "C220", "title": "Se4pw in doubles", "statement": "In double arithmetic Se4pw::generate fills its slots with exactly the rows, bit for bit, that EnvMatrix::find_value_deriv computes from the rounded relative positions. It succeeds and fails exactly as in real arithmetic. For neighbours between rho and B away, every row, derivative block and relative position differs from the exact one by a stated multiple of the rounding unit only; for distances, cutoff and switching width of a few Angstrom this is below 1e-11.", "quantifier": "every neighbour table, types, slot numbers (too few included), positions, cutoff and smoothing radius with B at most 2^41 times rho and 2^41 times rcut - rcut_smooth; the equality of the rows for every rounding", "why_tests_cant": "A test compares a few printed digits of one structure, and the derivative formulas of the two classes round in different orders.", "anchors": ["source/descriptor/deepmd/include/envMatrix.h::EnvMatrix::find_value_deriv", "source/descriptor/deepmd/include/se4pw.h::Se4pw::generate", "source/core/include/vec3Operation.h::norm"]}
{"id": "C221", "title": "TildeR in doubles", "statement": "In double arithmetic the static functions PairTildeR::generate, PairTildeR::deriv, TildeR::generate and TildeR::deriv succeed and fail exactly as in real arithmetic, return arrays of the same shape with the same entries written (both when they allocate the array and when they fill one of the caller), and for neighbours between rho and B away every row and derivative block differs from the exact one by a stated multiple of the rounding unit only.", "quantifier": "all arrays of atoms and neighbours (malformed ones included), element lists and slot numbers (too few included), cutoff and smoothing radius with B at most 2^41 times rho and 2^41 times rcut - rcut_smooth", "why_tests_cant": "A test compares a few printed digits for one structure; it cannot bound the rounding of the derivative formulas for all distances, nor show that rounding never changes which entries are written or which input is rejected.", "anchors": ["source/descriptor/deepmd/include/se.h::PairTildeR::generate", "source/descriptor/deepmd/include/se.h::PairTildeR::deriv", "source/descriptor/deepmd/include/se.h::TildeR::generate", "source/descriptor/deepmd/include/se.h::TildeR::deriv"]}
{"id": "C222", "title": "Normalised features of a structure in doubles", "statement": "Computed in double arithmetic from the structure through the neighbour table, TildeRNormalizer.normalize gives one row per atom of the listed elements, grouped by element, in which the columns of an element hold each neighbour of that element within rcut once; every entry differs from the standardised exact entry, and every derivative block from the derivative of the standardised row with respect to the centre, by at most a stated bound that grows like 1 over the deviation; unused slots hold the standardised zero up to rounding, with derivative exactly zero.", "quantifier": "every cell, cutoff and storing of coordinates as for the environment matrix in doubles; every list of distinct elements with slots for all neighbours; every average, every positive deviation", "why_tests_cant": "A test compares one normalised matrix with a tolerance; it cannot say how small deviations (the floor is 1e-2) enlarge the error, nor that rounding never moves an entry into the column of another element.", "anchors": ["matersdk/feature/deepmd/preprocess.py::TildeRNormalizer.normalize", "matersdk/feature/deepmd/preprocess.py::TildeRPairNormalizer.normalize", "matersdk/feature/deepmd/preprocess.py::TildeRPairNormalizer.normalize_derivative"]}
{"id": "C223", "title": "Averages and deviations of the normaliser in doubles", "statement": "In double arithmetic and for every order in which np.sum may add, the average that calc_stats returns for the weights differs from their mean by at most 19 * 2^-53 times the sum of their absolute values. If the variance of the samples is at least 176 n 2^-53 times their mean square, each deviation is a number, not below the double next to 1e-2, and differs from the larger one of the root of the variance and 1e-2 by at most 9616 n 2^-53 times the mean square plus one rounding; without samples it is the double next to 1e-2. The condition on the variance cannot be dropped: three equal weights 0.1 added from left to right give a deviation that is not a number.", "quantifier": "every list of at most 2^45 rows of real numbers; every order and bracketing of the additions, each followed by rounding to double", "why_tests_cant": "The order of additions in np.sum depends on length, layout and processor; a test sees one order on one machine and one list, and a deviation that is not a number shows only for samples that hardly vary.", "anchors": ["matersdk/feature/deepmd/preprocess.py::TildeRPairNormalizer.calc_stats", "matersdk/feature/deepmd/preprocess.py::TildeRPairNormalizer._calc_std"]}
{"id": "C224", "title": "Mean-square displacements in doubles", "statement": "In double arithmetic and for every order in which np.sum may add, Msd.calc_msd on a trajectory whose frames all have n atoms returns one number for each frame but the first, and it differs from the mean squared distance of the atoms to their places in the frame before by at most 17 n 2^-53 times that mean. No number is negative, and a number is 0 exactly if no atom has moved since the frame before. Rounding makes no call fail and saves none.", "quantifier": "every list of frames of n atoms with real coordinates, 0 < n <= 2^45; every order and bracketing of the additions, each followed by rounding to double; for errors, every list of frames and number of processors", "why_tests_cant": "The order of additions in np.sum depends on length, layout and processor; a test sees one order on one machine and one trajectory.", "anchors": ["matersdk/feature/avg/msd.py::MsdParallelFunction.calc_msd_s", "matersdk/feature/avg/msd.py::Msd.calc_msd"]}

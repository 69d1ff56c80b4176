{
 "C01": {
  "note": "Every valid layout (TapeL.Valid), any TEND ending, any trailing text. Concrete tape: exTape_valid."
 },
 "C02": {
  "note": "Every accepted buffer."
 },
 "C03": {
  "note": "Every buffer; ub, fuel, int are separate outcomes of the model, all excluded. Memory exhaustion is not modelled."
 },
 "C05": {
  "note": "The condition that neighbouring numbers differ is Chained."
 },
 "C08": {
  "status": "partial",
  "note": "The code does not compare the MAT of a HEAD with that of its file: C08_section_mat_differs is a counterexample for s.MAT(). Everything else is proved for every accepted buffer (C08_keys_partial), and the full statement for buffers whose HEAD lines are consistent (C08_keys_consistent_heads)."
 },
 "C09": {
  "note": "For every consistent tape (GoodTape); trees from buffers and trees built by calls are shown to be consistent. Empty files and materials disappear and the tape number becomes 0 (printed as 0 by the code): prune. A buffer with inconsistent MAT (see C08) or a HEAD with MAT -1 is excluded by hypothesis: FEND would throw."
 },
 "C13": {
  "status": "partial",
  "note": "False for Material::insert(Section)/insertOrReplace(Section) with a section of another MAT and an absent MF: an empty file stays behind (C13_material_section_wrong_mat, C13_failed_insert_changes_material). Proved for all other calls."
 },
 "C16": {
  "note": "Hypothesis Consistent: all lines but the last carry the numbers, MAT, MF >= 1, less than 2^31 lines (NC is narrowed to int)."
 },
 "C17": {
  "status": "partial",
  "note": "Refuted: C17_clean_loses_content gives the exact state after the exception for every section with a first bad line; C17_lost_lines is concrete. Only the numbers survive (C17_numbers_kept_partial)."
 },
 "C18": {
  "note": "NC() is unsigned 32 bit, so the line count must be less than 2^32."
 },
 "C31": {
  "status": "partial",
  "note": "Refuted by C31_negative_index_accepted, C31_reads_next_line, C31_past_the_end. For lines that are full the reading is confined to the line (C31_intg_full_line_partial)."
 },
 "C33": {
  "status": "partial",
  "note": "INTG: only for full lines (C33_intg_partial), since a short line makes the code read on (C31)."
 },
 "C35": {
  "status": "partial",
  "note": "Objects read from text satisfy all invariants. The constructor from vectors compares N2 modulo 2^32 (C35_boundary_wraps) and evaluates back() of an empty vector (C35_empty_boundaries): C35_tab1_make_partial has the two hypotheses."
 },
 "C36": {
  "note": "LIST, TAB1, TAB2 and MT451."
 },
 "C38": {
  "note": "All record types, all 33 section types of C41, files, materials and tapes without file 32; every text. False for 32/151: the counter advances once more per resonance range (C55_line_counter)."
 },
 "C40": {
  "status": "partial",
  "note": "The comparison with N2 is modulo 2^32: C40_boundary_wraps. Proved with the bound as hypothesis."
 },
 "C19": {
  "status": "partial",
  "note": "False for NWD = 0 (C19_no_description): the code adds a blank descriptive line and lists NC of MT451 one too small. C19_listed gives the exact content of the directory for every NWD; C19_directory_partial is the property for NWD > 0. MT451 must be the first section (C19_not_first). Hypotheses bundled in Ready; C19_ready_of_buffer derives them for trees read from buffers; C19_tape lifts to tapes. Concrete case: exReady."
 },
 "C20": {
  "status": "partial",
  "note": "False for NWD = 0 (C20_no_description). All other fields for every NWD: C20_fields."
 },
 "C21": {
  "status": "partial",
  "note": "False for NWD = 0 (C21_no_description); proved for every other material, both values of copyMod, and any old directory (ordered or not)."
 },
 "C22": {
  "note": "For old directories in which MT does not decrease within a file (as the code assumes); C22_unordered shows that others lose MOD numbers."
 },
 "C23": {
  "note": "C23_unchanged: any exception leaves the material as it was; C23_tape: the materials before the failing one have been updated."
 },
 "C41": {
  "status": "partial",
  "note": "All 33 section types of Material.hpp except 32/151 (see C53, C54), for every text; false for 2/151 when the isotope's LFW is 2^32 (C41_mf2mt151_counterexample), so 2/151 has the hypothesis of C41_mf2mt151_partial. Objects that the constructors accept but that cannot be read back: C41_mf6_defined_elsewhere, C41_mf13_total_and_one_partial. The unit test texts of all types are kernel-checked in SectionExamples."
 },
 "C42": {
  "note": "All 33 modelled section types, for every parsed section and every section satisfying the invariants of its class."
 },
 "C43": {
  "note": "All 33 modelled section types."
 },
 "C44": {
  "status": "partial",
  "note": "ZA, AWR and MT are checked by all types. MAT and MF of the HEAD record are compared by 18 of the 33 modelled types (C44_wrong_head_partial); the others accept any MF in the HEAD line: C44_head_mf_ignored. 1/452 and 1/456 accept each other's text: C44_nubar_mt_ignored."
 },
 "C49": {
  "status": "partial",
  "note": "Proved for 17 of the 33 modelled types (C49_std_only_partial). For the other sixteen C49_exactly_these gives texts that reach undefined behaviour (a precondition of a range-v3 view, a division by zero, or signed overflow in a size check), C49_std_or_ub shows that nothing else can happen, and C49_blame that then a line of the text shows a record as in Culprit (e.g. for 8/454 only counts above 300000000); C49_safe_texts is the resulting positive statement for all types. C49_file_blame, C49_material_blame, C49_tape_blame and C49_safe_tape lift this to files, materials and tapes (C49_safe_mf: tapes without certain MF numbers are always safe). C49_parsed: the same for files, materials and tapes, which also shows that all loops end. Not modelled: effects of lists with more than 2^31 numbers. C49_tree_section/file/material/tape and C49_python_file state the same for parse() of the tree: a section or file whose MF is not in riskyFiles never reaches undefined behaviour, and if parsing a material or tape does, a line of its content is to blame."
 },
 "C46": {
  "status": "partial",
  "note": "Files: every valid file and every file read. Materials: false if a file is empty (C46_empty_file; the code makes empty files of MF8 unless it begins with MT 454, 457, 459: C46_skipped_file8) and file 30 is lost (C46_file30_lost); proved for all other materials. Tapes: the tape number is not printed (C46_tape_number_lost); everything else round trips. 2/151 as in C41 and 32/151 as in C54 (hypothesis AnySection.Faithful)."
 },
 "C47": {
  "note": "Both the constructors and reading; C47_*_is_read_from show that the described texts are exactly those accepted (for file 8 when sections are kept). C47_material_lookup: hasMFMT and section( MF, MT ). C47_skipped_file8: what may end a file 8 that is skipped. File 32 is included (for it the line counter is not given)."
 },
 "C50": {
  "note": "All records but INTG (see C31), all 33 section types of C41 and 32/151, files, materials, tapes. With file 32 the line counter is not advanced by the number of lines, but always by the same amount."
 },
 "C45": {
  "status": "proved",
  "note": "Sections, files, materials and tapes: toSection/toFile/toMaterial and parse are inverse, the inserting calls store what is parsed back, parsing a file, material or tape of the tree gives what parsing its parts gives, and reading a text directly agrees with going through the tree. Validity of 2/151 as in C41_mf2mt151_partial; 32/151 is included: its correlation matrices must be printable without loss (C56) and, when parsing the tree, its SEND record must have 66 columns (LongSend; INTG records read across shorter lines). Finding: toFile of a file without sections gives MF 0 (C45_empty_file)."
 },
 "C48": {
  "status": "proved",
  "note": "Every component that keeps its data in a LIST record: constructor from arrays, acceptance condition (C48_*_accepts: accepted exactly if sizes fit), getters return the arrays given, validity of the result (so C31/C41 apply to it), and for components that were read, the getters are the columns of the data (C48_*_columns). Findings proved as theorems: undefined getters of empty components (C48_fissionYields_empty, C48_subshell_empty, C48_covariancePairs_noSecond), RectangularMatrix.columnEnergies also returns the values, bounds of file 35 truncated to int, stable nuclides have one decay mode, LTY unverified."
 },
 "C51": {
  "note": "The formats of all 33 section types are written down as sequences of records in Verif/Format/Spec.lean (Fmt.body), what is printed in Verif/Format/Print.lean (Fmt.printed), both independent of the readers and printers of the model; acceptance is an equivalence. 32/151: see C58."
 },
 "C52": {
  "status": "partial",
  "note": "Exactly the same records for 25 of the 33 section types (C52_same_records); for six others the LIST, TAB1, TAB2 records are the same and CONT records are in the same places, but lose the fields the classes do not keep (C52_same_data_records). For 1/458 (LFC = 1) and 2/151 (LRF = 7) records are printed in the order of IFC or of the channels, so that the claim as stated does not hold for them (C52_order_changes: a concrete text); proved instead: for 1/458 a permutation of the records read (C52_same_records_458), and for every section type no record is lost or added (C52_no_record_lost)."
 },
 "C53": {
  "status": "partial",
  "note": "C53_round_trip holds for every section that satisfies the invariants of its classes and whose compact matrices are printable. Missing: sections with NDIGIT = 3 or unsorted rows, for which the claim is false (C56_ndigit3, C56_unsorted); the line counter is advanced too far (stated exactly)."
 },
 "C54": {
  "status": "partial",
  "note": "For all sections whose compact matrices are printable (NDIGIT other than 3, coordinates below 100000, values that fit). For NDIGIT = 3 the claim is false (C56_ndigit3)."
 },
 "C55": {
  "status": "partial",
  "note": "Invariants, sizes, own SEND proved for every text (with compact matrices: if lines have 66 columns). Missing: undefined behaviour is reached on some texts (C55_undefined; C55_blame: only on texts with a line of less than 66 columns or with a record as in Culprit32, so C55_safe_texts holds for all others), the MF of HEAD is not checked (C55_head_mf_ignored), LRF of unresolved ranges and NLRS for LRF 7 are not checked; the line counter is wrong (C55_line_counter)."
 },
 "C56": {
  "status": "partial",
  "note": "Proved for matrices whose rows are sorted, with NDIGIT 2, 4, 5, 6. For others the claim is false: C56_unsorted, C56_ndigit3."
 },
 "C57": {
  "status": "proved",
  "note": "Over the rationals, for every function that rounds with relative error at most 2^-53."
 },
 "C58": {
  "status": "proved",
  "note": "Format and printed records are written down in Verif/Format/Spec32.lean. What is accepted as a compact correlation matrix is the reader of the model (its properties: C56)."
 },
 "C59": {
  "status": "proved",
  "note": "Complements C48: C48 says that getters return what the constructor got, C59 says where in the record (and so in the file) each named getter reads, for the 32 components whose data are kept in a LIST record. RectangularMatrix::columnEnergies() also returns the matrix (C59_rectangularMatrix)."
 },
 "C60": {
  "status": "partial",
  "note": "Proved for all sizes, except where the code does not verify what the property says: a DJDF array that is too short is read out of bounds and a longer one is truncated (C60_limited_djdf), arrays of uncertainties of R-matrix parameters of other sizes are accepted and the getters mix the values (C60_compactParameters_sizes), and records that are read with NCH larger than the row, without resonances or without values make the getters undefined (C60_unverified, C60_*_layout). The parameters of the compact R-matrix format are returned with the zeros that complete a line. C60_order_rounded (Props/RootRounding): the order computed with doubles, (-1 + sqrt(1 + 8 n)) / 2, truncates to the integer computation of the model for every 32 bit n, whatever the rounding (monotone, exact on integers, relative error 2^-53)."
 },
 "C61": {
  "status": "partial",
  "note": "Proved for all section types. The full claim is false of the code where a constructor accepts what the reader cannot read (the *_partial theorems exclude exactly these cases, and C61_total_one_partial, C61_mf14_order, C61_mf6_elsewhere, C61_mf7mt4_law, C61_mf1mt451_empty_index, C61_mf1mt451_long_line, C61_mf1mt458_order_zero, C61_derived_lty, C61_mf34_other_mt, C61_mf2mt151_lfw, C61_cov_long_range, C61_cov_spin_groups, C61_cov_rml_radius, C56_ndigit3, C56_unsorted show them), and for compact correlation matrices, whose correlations are rounded to NDIGIT digits."
 },
 "C62": {
  "status": "partial",
  "note": "Proved for all section types (32/151: the number of lines of a correlation matrix is known if its lines have 66 columns or more). The full claim is false of the code for EG() and ES() of anisotropic photons in file 14 (truncated to an integer), isStable() of 1/451 (inverted), the mixed distributions of file 4 (the common energy is counted twice), numberBackgroundChannels() of spin groups (NCH), EUNR() of 2/152 for NREAC other than 5, SPI() and AP() without an elastic pair or channel (undefined), LRF() of unresolved resonances in 32/151 (always 1); C62_lrf_lost, C62_photon_energy_truncated, C62_isStable_inverted, C62_mixed_energy_twice, C62_numberBackgroundChannels, C62_energies_five_reactions, C62_rmatrix_SPI, C62_rmatrix_AP show these."
 },
 "C63": {
  "status": "proved",
  "note": ""
 },
 "C64": {
  "status": "proved",
  "note": "Sections, files and materials as in C41, C46, C53 (AnySection.Valid, PFile.Valid, PMaterial.Valid). The names of the 2190 properties of the Python classes were compared with the names of the C++ functions they call with a script; they are not in the model."
 },
 "C65": {
  "status": "partial",
  "note": "Proved for consistent tapes (GoodTape) except for the last part, which the code refutes: to_file does not look at the state of the stream (C65_silent), and it empties the file before content() is called, so that a call that throws destroys the old file (C65_content_lost, C65_file_emptied). Disk is a map from names to contents; a write is interrupted after any number of characters (in order); fsync and directories are not modelled."
 },
 "C66": {
  "status": "partial",
  "note": "Printing: proved for every valid file, material and tape (C66_file_lines, C66_material_lines, C66_tape_lines), whatever its reals. Reading: the claim is false; the code compares MAT only within a section (C43, C44): C66_file_mixes_materials, C66_material_mixes_materials, C66_other_fend, and any line with MAT = -1 ends a parsed tape (C66_tape_ends_early)."
 },
 "C67": {
  "status": "proved",
  "note": "Under the assumption D9 on disco's real numbers (class Rounding; instance tenths). C67_section for every section type, C67_mf32mt151, C67_file, C67_material, C67_tape; C67_parsed_section, C67_read_material, C67_read_tape for objects that were read. Unlike C41 and C46 no assumption that the reals survive 11 columns."
 },
 "C68": {
  "status": "proved",
  "note": "One theorem per constructor (files 1, 2, 6, 7, 8, 12, 26, 28, 31 to 40: Props/Written, Written2; file 32: Written3). C68_text: the printed text. Triangular matrices: fewer than 2^29 - 1 values (the code computes in unsigned int). C68_compactParameters has the hypothesis that the arrays of uncertainties have the sizes of the parameters, which the code does not verify (C60_compactParameters_sizes). Concrete cases in WrittenExamples."
 },
 "C69": {
  "status": "proved",
  "note": "That == of doubles is symmetric and transitive is a hypothesis (DoubleEquality); reflexivity is proved to hold exactly for records without NaN, and identity for records without NaN and zeros (0.0 == -0.0). C69_short_text: the exception for text records of fewer than 66 characters."
 },
 "C70": {
  "status": "partial",
  "note": "Proved for all records whose number of values is a multiple of the number of rows (verified by the code except in TransitionProbabilities). The full statement is false: C70_transitions_extra and C70_ragged (more transitions than announced), C70_subshell_no_values (a subshell with NTR = -1). GX, GF, AMUG, AMUF, AMUX of the J values of 2/151 are constants 0 in the code."
 },
 "C71": {
  "status": "proved",
  "note": "Lines must have at least 75 columns, and columns 76-80 must be readable as an integer (blank and missing columns are): C71_unreadable shows that an unreadable line number is an exception. C71_cut and C71_no_line_numbers build texts that meet the hypothesis; Props/LineNumbersExamples.lean has concrete ones."
 },
 "C72": {
  "status": "proved",
  "note": "VerifiedBySmall (records of fewer than 2^31 numbers) is stated where the length of the list enters an arithmetic expression of type int; VerifiedBy has no such hypothesis. `NPL / 12. != NPP` compares doubles: it is stated as the exact relation of integers it is equivalent to. The theorems fix exactly when the behaviour is undefined."
 }
}
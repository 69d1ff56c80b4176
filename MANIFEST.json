{
 "claims": [
  {
   "property": "C01",
   "status": "proved",
   "theorems": [
    "ENDFtk.Props.C01_byte_exact",
    "ENDFtk.Props.C01_text"
   ],
   "note": "Every valid layout (TapeL.Valid), any TEND ending, any trailing text. Concrete tape: exTape_valid."
  },
  {
   "property": "C02",
   "status": "proved",
   "theorems": [
    "ENDFtk.Props.C02_nothing_lost"
   ],
   "note": "Every accepted buffer."
  },
  {
   "property": "C03",
   "status": "proved",
   "theorems": [
    "ENDFtk.Props.C03_total"
   ],
   "note": "Every buffer; ub, fuel, int are separate outcomes of the model, all excluded. Memory exhaustion is not modelled."
  },
  {
   "property": "C04",
   "status": "proved",
   "theorems": [
    "ENDFtk.Props.C04_repeated_ends"
   ],
   "note": ""
  },
  {
   "property": "C05",
   "status": "proved",
   "theorems": [
    "ENDFtk.Props.C05_missing_ends"
   ],
   "note": "The condition that neighbouring numbers differ is Chained."
  },
  {
   "property": "C06",
   "status": "proved",
   "theorems": [
    "ENDFtk.Props.C06_duplicate_MT",
    "ENDFtk.Props.C06_duplicate_MF"
   ],
   "note": ""
  },
  {
   "property": "C07",
   "status": "proved",
   "theorems": [
    "ENDFtk.Props.C07_truncated",
    "ENDFtk.Props.C07_no_tend"
   ],
   "note": ""
  },
  {
   "property": "C08",
   "status": "partial",
   "theorems": [
    "ENDFtk.Props.C08_section_mat_differs",
    "ENDFtk.Props.C08_keys_partial",
    "ENDFtk.Props.C08_keys_consistent_heads"
   ],
   "note": "The code does not compare the MAT of a HEAD with that of its file: C08_section_mat_differs is a counterexample for s.MAT(). Everything else is proved for every accepted buffer (C08_keys_partial), and the full statement for buffers whose HEAD lines are consistent (C08_keys_consistent_heads)."
  },
  {
   "property": "C09",
   "status": "proved",
   "theorems": [
    "ENDFtk.Props.C09_reindex",
    "ENDFtk.Props.C09_from_buffer",
    "ENDFtk.Props.C09_empty_file",
    "ENDFtk.Props.C09_file_ops",
    "ENDFtk.Props.C09_material_ops",
    "ENDFtk.Props.C09_tape_ops",
    "ENDFtk.Props.C09_empty"
   ],
   "note": "For every consistent tape (GoodTape); trees from buffers and trees built by calls are shown to be consistent. Empty files and materials disappear and the tape number becomes 0 (printed as 0 by the code): prune. A buffer with inconsistent MAT (see C08) or a HEAD with MAT -1 is excluded by hypothesis: FEND would throw."
  },
  {
   "property": "C10",
   "status": "proved",
   "theorems": [
    "ENDFtk.Props.C10_file_map",
    "ENDFtk.Props.C10_empty"
   ],
   "note": ""
  },
  {
   "property": "C11",
   "status": "proved",
   "theorems": [
    "ENDFtk.Props.C11_material_map",
    "ENDFtk.Props.C11_empty",
    "ENDFtk.Props.C11_constructed"
   ],
   "note": ""
  },
  {
   "property": "C12",
   "status": "proved",
   "theorems": [
    "ENDFtk.Props.C12_tape_multimap",
    "ENDFtk.Props.C12_empty",
    "ENDFtk.Props.C12_constructed"
   ],
   "note": ""
  },
  {
   "property": "C13",
   "status": "partial",
   "theorems": [
    "ENDFtk.Props.C13_failed_insert_changes_material",
    "ENDFtk.Props.C13_file",
    "ENDFtk.Props.C13_material_file",
    "ENDFtk.Props.C13_material_section_partial",
    "ENDFtk.Props.C13_material_section_wrong_mat"
   ],
   "note": "False for Material::insert(Section)/insertOrReplace(Section) with a section of another MAT and an absent MF: an empty file stays behind (C13_material_section_wrong_mat, C13_failed_insert_changes_material). Proved for all other calls."
  },
  {
   "property": "C14",
   "status": "proved",
   "theorems": [
    "ENDFtk.Props.C14_end_records",
    "ENDFtk.Props.C14_file",
    "ENDFtk.Props.C14_file_invalid_MAT",
    "ENDFtk.Props.C14_material",
    "ENDFtk.Props.C14_tape"
   ],
   "note": ""
  },
  {
   "property": "C15",
   "status": "proved",
   "theorems": [
    "ENDFtk.Props.C15_empty_file",
    "ENDFtk.Props.C15_empty_material",
    "ENDFtk.Props.C15_insert_file",
    "ENDFtk.Props.C15_insert_material"
   ],
   "note": ""
  },
  {
   "property": "C16",
   "status": "proved",
   "theorems": [
    "ENDFtk.Props.C16_section",
    "ENDFtk.Props.C16_idempotent",
    "ENDFtk.Props.C16_file",
    "ENDFtk.Props.C16_material",
    "ENDFtk.Props.C16_tape"
   ],
   "note": "Hypothesis Consistent: all lines but the last carry the numbers, MAT, MF >= 1, less than 2^31 lines (NC is narrowed to int)."
  },
  {
   "property": "C17",
   "status": "partial",
   "theorems": [
    "ENDFtk.Props.C17_clean_loses_content",
    "ENDFtk.Props.C17_numbers_kept_partial",
    "ENDFtk.Props.C17_lost_lines"
   ],
   "note": "Refuted: C17_clean_loses_content gives the exact state after the exception for every section with a first bad line; C17_lost_lines is concrete. Only the numbers survive (C17_numbers_kept_partial)."
  },
  {
   "property": "C18",
   "status": "proved",
   "theorems": [
    "ENDFtk.Props.C18_nc",
    "ENDFtk.Props.C18_clean"
   ],
   "note": "NC() is unsigned 32 bit, so the line count must be less than 2^32."
  },
  {
   "property": "C19",
   "status": "partial",
   "theorems": [
    "ENDFtk.Props.C19_listed",
    "ENDFtk.Props.C19_directory_partial",
    "ENDFtk.Props.C19_ready_of_buffer",
    "ENDFtk.Props.C19_tape",
    "ENDFtk.Props.C19_no_description",
    "ENDFtk.Props.C19_not_first"
   ],
   "note": "False for NWD = 0 (C19_no_description): the code adds a blank descriptive line and lists NC of MT451 one too small. C19_listed gives the exact content of the directory for every NWD; C19_directory_partial is the property for NWD > 0. MT451 must be the first section (C19_not_first). Hypotheses bundled in Ready; C19_ready_of_buffer derives them for trees read from buffers; C19_tape lifts to tapes. Concrete case: exReady."
  },
  {
   "property": "C20",
   "status": "partial",
   "theorems": [
    "ENDFtk.Props.C20_fields",
    "ENDFtk.Props.C20_keeps_partial",
    "ENDFtk.Props.C20_no_description"
   ],
   "note": "False for NWD = 0 (C20_no_description). All other fields for every NWD: C20_fields."
  },
  {
   "property": "C21",
   "status": "partial",
   "theorems": [
    "ENDFtk.Props.C21_idempotent_partial",
    "ENDFtk.Props.C21_no_description"
   ],
   "note": "False for NWD = 0 (C21_no_description); proved for every other material, both values of copyMod, and any old directory (ordered or not)."
  },
  {
   "property": "C22",
   "status": "proved",
   "theorems": [
    "ENDFtk.Props.C22_mod",
    "ENDFtk.Props.C22_unordered"
   ],
   "note": "For old directories in which MT does not decrease within a file (as the code assumes); C22_unordered shows that others lose MOD numbers."
  },
  {
   "property": "C23",
   "status": "proved",
   "theorems": [
    "ENDFtk.Props.C23_absent",
    "ENDFtk.Props.C23_unparsable",
    "ENDFtk.Props.C23_unchanged",
    "ENDFtk.Props.C23_tape"
   ],
   "note": "C23_unchanged: any exception leaves the material as it was; C23_tape: the materials before the failing one have been updated."
  },
  {
   "property": "C24",
   "status": "proved",
   "theorems": [
    "ENDFtk.Props.C24_at_most_one",
    "ENDFtk.Props.C24_classes",
    "ENDFtk.Props.C24_send",
    "ENDFtk.Props.C24_fend",
    "ENDFtk.Props.C24_mend_tend",
    "ENDFtk.Props.C24_refuse",
    "ENDFtk.Props.C24_head"
   ],
   "note": ""
  },
  {
   "property": "C25",
   "status": "proved",
   "theorems": [
    "ENDFtk.Props.C25_division_valid"
   ],
   "note": ""
  },
  {
   "property": "C26",
   "status": "proved",
   "theorems": [
    "ENDFtk.Props.C26_cont_round_trip"
   ],
   "note": ""
  },
  {
   "property": "C27",
   "status": "proved",
   "theorems": [
    "ENDFtk.Props.C27_text_round_trip",
    "ENDFtk.Props.C27_dir_round_trip",
    "ENDFtk.Props.C27_tpid_round_trip",
    "ENDFtk.Props.C27_tpid_66"
   ],
   "note": ""
  },
  {
   "property": "C28",
   "status": "proved",
   "theorems": [
    "ENDFtk.Props.C28_list_round_trip"
   ],
   "note": ""
  },
  {
   "property": "C29",
   "status": "proved",
   "theorems": [
    "ENDFtk.Props.C29_tab1_round_trip",
    "ENDFtk.Props.C29_tab2_round_trip"
   ],
   "note": ""
  },
  {
   "property": "C30",
   "status": "proved",
   "theorems": [
    "ENDFtk.Props.C30_intg_round_trip"
   ],
   "note": ""
  },
  {
   "property": "C31",
   "status": "partial",
   "theorems": [
    "ENDFtk.Props.C31_intg_full_line_partial",
    "ENDFtk.Props.C31_intg_make_partial",
    "ENDFtk.Props.C31_negative_index_accepted",
    "ENDFtk.Props.C31_reads_next_line",
    "ENDFtk.Props.C31_past_the_end"
   ],
   "note": "Refuted by C31_negative_index_accepted, C31_reads_next_line, C31_past_the_end. For lines that are full the reading is confined to the line (C31_intg_full_line_partial)."
  },
  {
   "property": "C32",
   "status": "proved",
   "theorems": [
    "ENDFtk.Props.C32_cont",
    "ENDFtk.Props.C32_text",
    "ENDFtk.Props.C32_dir",
    "ENDFtk.Props.C32_tpid",
    "ENDFtk.Props.C32_list",
    "ENDFtk.Props.C32_tab1",
    "ENDFtk.Props.C32_tab2",
    "ENDFtk.Props.C32_intg",
    "ENDFtk.Props.C32_division"
   ],
   "note": ""
  },
  {
   "property": "C33",
   "status": "partial",
   "theorems": [
    "ENDFtk.Props.C33_cont",
    "ENDFtk.Props.C33_text",
    "ENDFtk.Props.C33_dir",
    "ENDFtk.Props.C33_list",
    "ENDFtk.Props.C33_tab2",
    "ENDFtk.Props.C33_tab1",
    "ENDFtk.Props.C33_intg_partial",
    "ENDFtk.Props.C33_list_wrong_tail"
   ],
   "note": "INTG: only for full lines (C33_intg_partial), since a short line makes the code read on (C31)."
  },
  {
   "property": "C34",
   "status": "proved",
   "theorems": [
    "ENDFtk.Props.C34_list_padding",
    "ENDFtk.Props.C34_list_fields",
    "ENDFtk.Props.C34_tab2_fields",
    "ENDFtk.Props.C34_tab1_fields"
   ],
   "note": ""
  },
  {
   "property": "C35",
   "status": "partial",
   "theorems": [
    "ENDFtk.Props.C35_tab1_read",
    "ENDFtk.Props.C35_tab2_read",
    "ENDFtk.Props.C35_tab1_make_partial",
    "ENDFtk.Props.C35_boundary_wraps",
    "ENDFtk.Props.C35_empty_boundaries"
   ],
   "note": "Objects read from text satisfy all invariants. The constructor from vectors compares N2 modulo 2^32 (C35_boundary_wraps) and evaluates back() of an empty vector (C35_empty_boundaries): C35_tab1_make_partial has the two hypotheses."
  },
  {
   "property": "C36",
   "status": "proved",
   "theorems": [
    "ENDFtk.Props.C36_list",
    "ENDFtk.Props.C36_tab2",
    "ENDFtk.Props.C36_tab1",
    "ENDFtk.Props.C36_mt451"
   ],
   "note": "LIST, TAB1, TAB2 and MT451."
  },
  {
   "property": "C37",
   "status": "proved",
   "theorems": [
    "ENDFtk.Props.C37_std_only"
   ],
   "note": ""
  },
  {
   "property": "C38",
   "status": "proved",
   "theorems": [
    "ENDFtk.Props.C38_parsed",
    "ENDFtk.Props.C38_records",
    "ENDFtk.Props.C38_sections"
   ],
   "note": "All record types, all 33 section types of C41, files, materials and tapes without file 32; every text. False for 32/151: the counter advances once more per resonance range (C55_line_counter)."
  },
  {
   "property": "C39",
   "status": "proved",
   "theorems": [
    "ENDFtk.Props.C39_regions"
   ],
   "note": ""
  },
  {
   "property": "C40",
   "status": "partial",
   "theorems": [
    "ENDFtk.Props.C40_read_partial",
    "ENDFtk.Props.C40_make_partial",
    "ENDFtk.Props.C40_round_trip",
    "ENDFtk.Props.C40_make_exact",
    "ENDFtk.Props.C40_boundary_wraps"
   ],
   "note": "The comparison with N2 is modulo 2^32: C40_boundary_wraps. Proved with the bound as hypothesis."
  },
  {
   "property": "C41",
   "status": "partial",
   "theorems": [
    "ENDFtk.Props.C41_mf2mt151_counterexample",
    "ENDFtk.Props.C41_mf6_defined_elsewhere",
    "ENDFtk.Props.C41_mf13_total_and_one_partial",
    "ENDFtk.Props.C41_parsed_round_trip",
    "ENDFtk.Props.C41_mf2mt151_partial",
    "ENDFtk.Props.C41_valid_round_trip",
    "ENDFtk.Props.C41_print_injective",
    "ENDFtk.Props.C41_print_throws"
   ],
   "note": "All 33 section types of Material.hpp except 32/151 (see C53, C54), for every text; false for 2/151 when the isotope's LFW is 2^32 (C41_mf2mt151_counterexample), so 2/151 has the hypothesis of C41_mf2mt151_partial. Objects that the constructors accept but that cannot be read back: C41_mf6_defined_elsewhere, C41_mf13_total_and_one_partial. The unit test texts of all types are kernel-checked in SectionExamples."
  },
  {
   "property": "C42",
   "status": "proved",
   "theorems": [
    "ENDFtk.Props.C42_printed_lines",
    "ENDFtk.Props.C42_valid_printed_lines",
    "ENDFtk.Props.C42_consumed_lines"
   ],
   "note": "All 33 modelled section types, for every parsed section and every section satisfying the invariants of its class."
  },
  {
   "property": "C43",
   "status": "proved",
   "theorems": [
    "ENDFtk.Props.C43_own_send",
    "ENDFtk.Props.C43_own_send_ctor",
    "ENDFtk.Props.C43_missing_send"
   ],
   "note": "All 33 modelled section types."
  },
  {
   "property": "C44",
   "status": "partial",
   "theorems": [
    "ENDFtk.Props.C44_bad_values",
    "ENDFtk.Props.C44_wrong_head_partial",
    "ENDFtk.Props.C44_head_mf_ignored",
    "ENDFtk.Props.C44_nubar_mt_ignored"
   ],
   "note": "ZA, AWR and MT are checked by all types. MAT and MF of the HEAD record are compared by 18 of the 33 modelled types (C44_wrong_head_partial); the others accept any MF in the HEAD line: C44_head_mf_ignored. 1/452 and 1/456 accept each other's text: C44_nubar_mt_ignored."
  },
  {
   "property": "C45",
   "status": "proved",
   "theorems": [
    "ENDFtk.Props.C45_to_section",
    "ENDFtk.Props.C45_to_section_rejects",
    "ENDFtk.Props.C45_section_round_trip",
    "ENDFtk.Props.C45_file_insert",
    "ENDFtk.Props.C45_file_insert_or_replace",
    "ENDFtk.Props.C45_insert_rejects",
    "ENDFtk.Props.C45_material_insert",
    "ENDFtk.Props.C45_material_insert_or_replace",
    "ENDFtk.Props.C45_file_parse",
    "ENDFtk.Props.C45_material_parse",
    "ENDFtk.Props.C45_to_file",
    "ENDFtk.Props.C45_to_material",
    "ENDFtk.Props.C45_empty_file",
    "ENDFtk.Props.C45_material_insert_file",
    "ENDFtk.Props.C45_material_insert_or_replace_file",
    "ENDFtk.Props.C45_tape_insert",
    "ENDFtk.Props.C45_tape_parse",
    "ENDFtk.Props.C45_direct_tape"
   ],
   "note": "Sections, files, materials and tapes: toSection/toFile/toMaterial and parse are inverse, the inserting calls store what is parsed back, parsing a file, material or tape of the tree gives what parsing its parts gives, and reading a text directly agrees with going through the tree. Validity of 2/151 as in C41_mf2mt151_partial; 32/151 is included: its correlation matrices must be printable without loss (C56) and, when parsing the tree, its SEND record must have 66 columns (LongSend; INTG records read across shorter lines). Finding: toFile of a file without sections gives MF 0 (C45_empty_file)."
  },
  {
   "property": "C46",
   "status": "partial",
   "theorems": [
    "ENDFtk.Props.C46_file_round_trip",
    "ENDFtk.Props.C46_material_round_trip_partial",
    "ENDFtk.Props.C46_tape_round_trip_partial",
    "ENDFtk.Props.C46_read_file_round_trip",
    "ENDFtk.Props.C46_read_material_round_trip_partial",
    "ENDFtk.Props.C46_read_tape_round_trip_partial",
    "ENDFtk.Props.C46_empty_file",
    "ENDFtk.Props.C46_file30_lost",
    "ENDFtk.Props.C46_tape_number_lost",
    "ENDFtk.Props.C46_skipped_file8"
   ],
   "note": "Files: every valid file and every file read. Materials: false if a file is empty (C46_empty_file; the code makes empty files of MF8 unless it begins with MT 454, 457, 459: C46_skipped_file8) and file 30 is lost (C46_file30_lost); proved for all other materials. Tapes: the tape number is not printed (C46_tape_number_lost); everything else round trips. 2/151 as in C41 and 32/151 as in C54 (hypothesis AnySection.Faithful)."
  },
  {
   "property": "C47",
   "status": "proved",
   "theorems": [
    "ENDFtk.Props.C47_file_make",
    "ENDFtk.Props.C47_material_make",
    "ENDFtk.Props.C47_read_file",
    "ENDFtk.Props.C47_file_is_read_from",
    "ENDFtk.Props.C47_read_material",
    "ENDFtk.Props.C47_material_is_read_from",
    "ENDFtk.Props.C47_read_tape",
    "ENDFtk.Props.C47_tape_is_read_from",
    "ENDFtk.Props.C47_tape_number",
    "ENDFtk.Props.C47_tape_material",
    "ENDFtk.Props.C47_material_lookup",
    "ENDFtk.Props.C47_file_lookup",
    "ENDFtk.Props.C47_skipped_file8"
   ],
   "note": "Both the constructors and reading; C47_*_is_read_from show that the described texts are exactly those accepted (for file 8 when sections are kept). C47_material_lookup: hasMFMT and section( MF, MT ). C47_skipped_file8: what may end a file 8 that is skipped. File 32 is included (for it the line counter is not given)."
  },
  {
   "property": "C48",
   "status": "proved",
   "theorems": [
    "ENDFtk.Props.C48_decayConstants",
    "ENDFtk.Props.C48_decayConstants_accepts",
    "ENDFtk.Props.C48_decayConstants_columns",
    "ENDFtk.Props.C48_breitWigner",
    "ENDFtk.Props.C48_reichMoore",
    "ENDFtk.Props.C48_breitWigner_accepts",
    "ENDFtk.Props.C48_reichMoore_accepts",
    "ENDFtk.Props.C48_resonances_columns",
    "ENDFtk.Props.C48_unresolvedA",
    "ENDFtk.Props.C48_unresolvedA_accepts",
    "ENDFtk.Props.C48_unresolvedA_columns",
    "ENDFtk.Props.C48_unresolvedC",
    "ENDFtk.Props.C48_unresolvedC_accepts",
    "ENDFtk.Props.C48_unresolvedC_columns",
    "ENDFtk.Props.C48_unresolvedB",
    "ENDFtk.Props.C48_unresolvedB_accepts",
    "ENDFtk.Props.C48_particlePairs",
    "ENDFtk.Props.C48_particlePairs_accepts",
    "ENDFtk.Props.C48_particlePairs_columns",
    "ENDFtk.Props.C48_resonanceChannels",
    "ENDFtk.Props.C48_resonanceChannels_one_radius",
    "ENDFtk.Props.C48_resonanceChannels_accepts",
    "ENDFtk.Props.C48_resonanceChannels_columns",
    "ENDFtk.Props.C48_resonanceParameters",
    "ENDFtk.Props.C48_resonanceParameters_accepts",
    "ENDFtk.Props.C48_dilutionTables",
    "ENDFtk.Props.C48_dilutionTables_accepts",
    "ENDFtk.Props.C48_dilutionTables_infinite",
    "ENDFtk.Props.C48_polynomialComponents",
    "ENDFtk.Props.C48_polynomialComponents_accepts",
    "ENDFtk.Props.C48_polynomialComponents_empty",
    "ENDFtk.Props.C48_continuumLegendre",
    "ENDFtk.Props.C48_continuumLegendre_accepts",
    "ENDFtk.Props.C48_kalbachMann",
    "ENDFtk.Props.C48_kalbachMann_slope",
    "ENDFtk.Props.C48_kalbachMann_accepts",
    "ENDFtk.Props.C48_continuumTabulated",
    "ENDFtk.Props.C48_continuumTabulated_rejects",
    "ENDFtk.Props.C48_thermalScattering",
    "ENDFtk.Props.C48_twoBodyLegendre",
    "ENDFtk.Props.C48_twoBodyTabulated",
    "ENDFtk.Props.C48_twoBodyTabulated_accepts",
    "ENDFtk.Props.C48_nuclearAmplitudes",
    "ENDFtk.Props.C48_nuclearAmplitudes_accepts",
    "ENDFtk.Props.C48_nuclearPlusInterference",
    "ENDFtk.Props.C48_nuclearPlusInterference_accepts",
    "ENDFtk.Props.C48_scatteringLawConstants",
    "ENDFtk.Props.C48_scatteringLawConstants_accepts",
    "ENDFtk.Props.C48_elementInformation",
    "ENDFtk.Props.C48_elementInformation_accepts",
    "ENDFtk.Props.C48_elementInformation_columns",
    "ENDFtk.Props.C48_fissionYields",
    "ENDFtk.Props.C48_fissionYields_accepts",
    "ENDFtk.Props.C48_fissionYields_columns",
    "ENDFtk.Props.C48_fissionYields_empty",
    "ENDFtk.Props.C48_averageDecayEnergies",
    "ENDFtk.Props.C48_averageDecayEnergies_accepts",
    "ENDFtk.Props.C48_decayModes",
    "ENDFtk.Props.C48_decayModes_accepts",
    "ENDFtk.Props.C48_decayModes_stable",
    "ENDFtk.Props.C48_discreteSpectrum4",
    "ENDFtk.Props.C48_discreteSpectrum6",
    "ENDFtk.Props.C48_discreteSpectrum12",
    "ENDFtk.Props.C48_transitions",
    "ENDFtk.Props.C48_transitions_conditional",
    "ENDFtk.Props.C48_transitions_accepts",
    "ENDFtk.Props.C48_transitions_conditional_accepts",
    "ENDFtk.Props.C48_subshell",
    "ENDFtk.Props.C48_subshell_accepts",
    "ENDFtk.Props.C48_subshell_columns",
    "ENDFtk.Props.C48_subshell_empty",
    "ENDFtk.Props.C48_covariancePairs",
    "ENDFtk.Props.C48_covariancePairs_noSecond",
    "ENDFtk.Props.C48_covariancePairs_accepts",
    "ENDFtk.Props.C48_covariancePairs_two",
    "ENDFtk.Props.C48_covariancePairs_two_accepts",
    "ENDFtk.Props.C48_squareMatrix",
    "ENDFtk.Props.C48_squareMatrix_accepts",
    "ENDFtk.Props.C48_squareMatrix35",
    "ENDFtk.Props.C48_squareMatrix35_accepts",
    "ENDFtk.Props.C48_rectangularMatrix",
    "ENDFtk.Props.C48_rectangularMatrix_accepts",
    "ENDFtk.Props.C48_derivedRedundant",
    "ENDFtk.Props.C48_derivedRedundant_accepts",
    "ENDFtk.Props.C48_derivedRatio",
    "ENDFtk.Props.C48_derivedRatio_accepts"
   ],
   "note": "Every component that keeps its data in a LIST record: constructor from arrays, acceptance condition (C48_*_accepts: accepted exactly if sizes fit), getters return the arrays given, validity of the result (so C31/C41 apply to it), and for components that were read, the getters are the columns of the data (C48_*_columns). Findings proved as theorems: undefined getters of empty components (C48_fissionYields_empty, C48_subshell_empty, C48_covariancePairs_noSecond), RectangularMatrix.columnEnergies also returns the values, bounds of file 35 truncated to int, stable nuclides have one decay mode, LTY unverified."
  },
  {
   "property": "C49",
   "status": "partial",
   "theorems": [
    "ENDFtk.Props.C49_blame",
    "ENDFtk.Props.C49_safe_texts",
    "ENDFtk.Props.C49_file_blame",
    "ENDFtk.Props.C49_material_blame",
    "ENDFtk.Props.C49_tape_blame",
    "ENDFtk.Props.C49_safe_tape",
    "ENDFtk.Props.C49_safe_mf",
    "ENDFtk.Props.C49_tree_section",
    "ENDFtk.Props.C49_tree_file",
    "ENDFtk.Props.C49_python_file",
    "ENDFtk.Props.C49_tree_material",
    "ENDFtk.Props.C49_tree_tape",
    "ENDFtk.Props.C49_parsed",
    "ENDFtk.Props.C49_mf12_no_transitions",
    "ENDFtk.Props.C49_mf26_too_many_discrete",
    "ENDFtk.Props.C49_mf6_too_many_discrete",
    "ENDFtk.Props.C49_mf7mt4_negative_ns",
    "ENDFtk.Props.C49_mf33_no_rows",
    "ENDFtk.Props.C49_mf31_no_rows",
    "ENDFtk.Props.C49_mf34_no_rows",
    "ENDFtk.Props.C49_mf40_no_rows",
    "ENDFtk.Props.C49_mf2mt151_short_jvalue",
    "ENDFtk.Props.C49_mf2mt152_overflow",
    "ENDFtk.Props.C49_mf7mt451_overflow",
    "ENDFtk.Props.C49_mf8mt454_overflow",
    "ENDFtk.Props.C49_mf8mt459_overflow",
    "ENDFtk.Props.C49_mf8mt457_overflow",
    "ENDFtk.Props.C49_mf28_overflow",
    "ENDFtk.Props.C49_mf35_overflow",
    "ENDFtk.Props.C49_exactly_these",
    "ENDFtk.Props.C49_std_only_partial",
    "ENDFtk.Props.C49_std_or_ub"
   ],
   "note": "Proved for 17 of the 33 modelled types (C49_std_only_partial). For the other sixteen C49_exactly_these gives texts that reach undefined behaviour (a precondition of a range-v3 view, a division by zero, or signed overflow in a size check), C49_std_or_ub shows that nothing else can happen, and C49_blame that then a line of the text shows a record as in Culprit (e.g. for 8/454 only counts above 300000000); C49_safe_texts is the resulting positive statement for all types. C49_file_blame, C49_material_blame, C49_tape_blame and C49_safe_tape lift this to files, materials and tapes (C49_safe_mf: tapes without certain MF numbers are always safe). C49_parsed: the same for files, materials and tapes, which also shows that all loops end. Not modelled: effects of lists with more than 2^31 numbers. C49_tree_section/file/material/tape and C49_python_file state the same for parse() of the tree: a section or file whose MF is not in riskyFiles never reaches undefined behaviour, and if parsing a material or tape does, a line of its content is to blame."
  },
  {
   "property": "C50",
   "status": "proved",
   "theorems": [
    "ENDFtk.Props.C50_records",
    "ENDFtk.Props.C50_sections",
    "ENDFtk.Props.C50_mf32mt151",
    "ENDFtk.Props.C50_parsed"
   ],
   "note": "All records but INTG (see C31), all 33 section types of C41 and 32/151, files, materials, tapes. With file 32 the line counter is not advanced by the number of lines, but always by the same amount."
  },
  {
   "property": "C51",
   "status": "proved",
   "theorems": [
    "ENDFtk.Props.C51_accepts",
    "ENDFtk.Props.C51_parse",
    "ENDFtk.Props.C51_prints",
    "ENDFtk.Props.C51_prints_parsed"
   ],
   "note": "The formats of all 33 section types are written down as sequences of records in Verif/Format/Spec.lean (Fmt.body), what is printed in Verif/Format/Print.lean (Fmt.printed), both independent of the readers and printers of the model; acceptance is an equivalence. 32/151: see C58."
  },
  {
   "property": "C52",
   "status": "partial",
   "theorems": [
    "ENDFtk.Props.C52_same_records",
    "ENDFtk.Props.C52_same_data_records",
    "ENDFtk.Props.C52_same_records_458",
    "ENDFtk.Props.C52_no_record_lost",
    "ENDFtk.Props.C52_order_changes"
   ],
   "note": "Exactly the same records for 25 of the 33 section types (C52_same_records); for six others the LIST, TAB1, TAB2 records are the same and CONT records are in the same places, but lose the fields the classes do not keep (C52_same_data_records). For 1/458 (LFC = 1) and 2/151 (LRF = 7) records are printed in the order of IFC or of the channels, so that the claim as stated does not hold for them (C52_order_changes: a concrete text); proved instead: for 1/458 a permutation of the records read (C52_same_records_458), and for every section type no record is lost or added (C52_no_record_lost)."
  },
  {
   "property": "C53",
   "status": "partial",
   "theorems": [
    "ENDFtk.Props.C53_round_trip",
    "ENDFtk.Props.C53_parsed_round_trip_partial",
    "ENDFtk.Props.C53_print_injective"
   ],
   "note": "C53_round_trip holds for every section that satisfies the invariants of its classes and whose compact matrices are printable. Missing: sections with NDIGIT = 3 or unsorted rows, for which the claim is false (C56_ndigit3, C56_unsorted); the line counter is advanced too far (stated exactly)."
  },
  {
   "property": "C54",
   "status": "partial",
   "theorems": [
    "ENDFtk.Props.C54_printed_lines",
    "ENDFtk.Props.C54_print_throws"
   ],
   "note": "For all sections whose compact matrices are printable (NDIGIT other than 3, coordinates below 100000, values that fit). For NDIGIT = 3 the claim is false (C56_ndigit3)."
  },
  {
   "property": "C55",
   "status": "partial",
   "theorems": [
    "ENDFtk.Props.C55_blame",
    "ENDFtk.Props.C55_safe_texts",
    "ENDFtk.Props.C55_total_partial",
    "ENDFtk.Props.C55_own_send",
    "ENDFtk.Props.C55_own_send_full_lines",
    "ENDFtk.Props.C55_line_counter",
    "ENDFtk.Props.C55_bad_head",
    "ENDFtk.Props.C55_sizes",
    "ENDFtk.Props.C55_head_mf_ignored",
    "ENDFtk.Props.C55_unresolved_lrf",
    "ENDFtk.Props.C55_rml_long_range",
    "ENDFtk.Props.C55_undefined"
   ],
   "note": "Invariants, sizes, own SEND proved for every text (with compact matrices: if lines have 66 columns). Missing: undefined behaviour is reached on some texts (C55_undefined; C55_blame: only on texts with a line of less than 66 columns or with a record as in Culprit32, so C55_safe_texts holds for all others), the MF of HEAD is not checked (C55_head_mf_ignored), LRF of unresolved ranges and NLRS for LRF 7 are not checked; the line counter is wrong (C55_line_counter)."
  },
  {
   "property": "C56",
   "status": "partial",
   "theorems": [
    "ENDFtk.Props.C56_read_elements",
    "ENDFtk.Props.C56_matrix_round_trip",
    "ENDFtk.Props.C56_exact_round_trip",
    "ENDFtk.Props.C56_read_exact",
    "ENDFtk.Props.C56_make",
    "ENDFtk.Props.C56_matrix_lines",
    "ENDFtk.Props.C56_unsorted",
    "ENDFtk.Props.C56_ndigit3",
    "ENDFtk.Props.C56_rounding"
   ],
   "note": "Proved for matrices whose rows are sorted, with NDIGIT 2, 4, 5, 6. For others the claim is false: C56_unsorted, C56_ndigit3."
  },
  {
   "property": "C57",
   "status": "proved",
   "theorems": [
    "ENDFtk.Props.C57_exact",
    "ENDFtk.Props.C57_precision",
    "ENDFtk.Props.C57_examples"
   ],
   "note": "Over the rationals, for every function that rounds with relative error at most 2^-53."
  },
  {
   "property": "C58",
   "status": "proved",
   "theorems": [
    "ENDFtk.Props.C58_accepts",
    "ENDFtk.Props.C58_parse",
    "ENDFtk.Props.C58_prints",
    "ENDFtk.Props.C58_same_data_records"
   ],
   "note": "Format and printed records are written down in Verif/Format/Spec32.lean. What is accepted as a compact correlation matrix is the reader of the model (its properties: C56)."
  },
  {
   "property": "C59",
   "status": "proved",
   "theorems": [
    "ENDFtk.Props.C59_breitWigner",
    "ENDFtk.Props.C59_reichMoore",
    "ENDFtk.Props.C59_unresolvedA",
    "ENDFtk.Props.C59_unresolvedC",
    "ENDFtk.Props.C59_unresolvedB",
    "ENDFtk.Props.C59_particlePairs",
    "ENDFtk.Props.C59_resonanceChannels",
    "ENDFtk.Props.C59_resonanceParameters",
    "ENDFtk.Props.C59_dilutionTables",
    "ENDFtk.Props.C59_decayConstants",
    "ENDFtk.Props.C59_polynomialComponents",
    "ENDFtk.Props.C59_polynomialComponents_size",
    "ENDFtk.Props.C59_continuum",
    "ENDFtk.Props.C59_continuumTabulated",
    "ENDFtk.Props.C59_thermalScattering",
    "ENDFtk.Props.C59_twoBody",
    "ENDFtk.Props.C59_nuclearAmplitudes",
    "ENDFtk.Props.C59_nuclearAmplitudes_size",
    "ENDFtk.Props.C59_nuclearPlusInterference",
    "ENDFtk.Props.C59_scatteringLawConstants",
    "ENDFtk.Props.C59_elementInformation",
    "ENDFtk.Props.C59_fissionYields",
    "ENDFtk.Props.C59_averageDecayEnergies",
    "ENDFtk.Props.C59_decayModes",
    "ENDFtk.Props.C59_discreteSpectrum",
    "ENDFtk.Props.C59_transitions",
    "ENDFtk.Props.C59_subshell",
    "ENDFtk.Props.C59_covariancePairs",
    "ENDFtk.Props.C59_squareMatrix",
    "ENDFtk.Props.C59_rectangularMatrix",
    "ENDFtk.Props.C59_derivedRedundant",
    "ENDFtk.Props.C59_derivedRatio"
   ],
   "note": "Complements C48: C48 says that getters return what the constructor got, C59 says where in the record (and so in the file) each named getter reads, for the 32 components whose data are kept in a LIST record. RectangularMatrix::columnEnergies() also returns the matrix (C59_rectangularMatrix)."
  },
  {
   "property": "C60",
   "status": "partial",
   "theorems": [
    "ENDFtk.Props.C60_limited",
    "ENDFtk.Props.C60_limited_accepts",
    "ENDFtk.Props.C60_limited_layout",
    "ENDFtk.Props.C60_shortRangeBreitWigner",
    "ENDFtk.Props.C60_shortRangeReichMoore",
    "ENDFtk.Props.C60_shortRange_accepts",
    "ENDFtk.Props.C60_shortRangeBreitWigner_layout",
    "ENDFtk.Props.C60_shortRangeReichMoore_layout",
    "ENDFtk.Props.C60_breitWigner_resonances",
    "ENDFtk.Props.C60_competitiveWidths",
    "ENDFtk.Props.C60_triangularMatrix",
    "ENDFtk.Props.C60_triangularMatrix_accepts",
    "ENDFtk.Props.C60_triangularMatrix_layout",
    "ENDFtk.Props.C60_compactBreitWigner",
    "ENDFtk.Props.C60_compactReichMoore",
    "ENDFtk.Props.C60_compact_accepts",
    "ENDFtk.Props.C60_compactBreitWigner_layout",
    "ENDFtk.Props.C60_compactReichMoore_layout",
    "ENDFtk.Props.C60_radiusUncertainties",
    "ENDFtk.Props.C60_radiusUncertainties_layout",
    "ENDFtk.Props.C60_unresolved",
    "ENDFtk.Props.C60_unresolved_accepts",
    "ENDFtk.Props.C60_unresolved_layout",
    "ENDFtk.Props.C60_compactParticlePairs",
    "ENDFtk.Props.C60_compactParticlePairs_accepts",
    "ENDFtk.Props.C60_shortRangeParameters",
    "ENDFtk.Props.C60_shortRangeParameters_accepts",
    "ENDFtk.Props.C60_shortRangeParameters_layout",
    "ENDFtk.Props.C60_compactParameters",
    "ENDFtk.Props.C60_compactParameters_accepts",
    "ENDFtk.Props.C60_compactParameters_layout",
    "ENDFtk.Props.C60_limited_djdf",
    "ENDFtk.Props.C60_compactParameters_sizes",
    "ENDFtk.Props.C60_unverified",
    "ENDFtk.Props.C60_order_rounded",
    "ENDFtk.Props.C60_order_of_triangle"
   ],
   "note": "Proved for all sizes, except where the code does not verify what the property says: a DJDF array that is too short is read out of bounds and a longer one is truncated (C60_limited_djdf), arrays of uncertainties of R-matrix parameters of other sizes are accepted and the getters mix the values (C60_compactParameters_sizes), and records that are read with NCH larger than the row, without resonances or without values make the getters undefined (C60_unverified, C60_*_layout). The parameters of the compact R-matrix format are returned with the zeros that complete a line. C60_order_rounded (Props/RootRounding): the order computed with doubles, (-1 + sqrt(1 + 8 n)) / 2, truncates to the integer computation of the model for every 32 bit n, whatever the rounding (monotone, exact on integers, relative error 2^-53)."
  },
  {
   "property": "C61",
   "status": "partial",
   "theorems": [
    "ENDFtk.Props.C61_numbers",
    "ENDFtk.Props.C61_mf3",
    "ENDFtk.Props.C61_mf3_short",
    "ENDFtk.Props.C61_mf23",
    "ENDFtk.Props.C61_mf27",
    "ENDFtk.Props.C61_mf1mt451_fields",
    "ENDFtk.Props.C61_mf1mt451_partial",
    "ENDFtk.Props.C61_mf1mt451_full",
    "ENDFtk.Props.C61_mf1mt452",
    "ENDFtk.Props.C61_mf1mt456",
    "ENDFtk.Props.C61_mf1mt455",
    "ENDFtk.Props.C61_thermalPointComponents",
    "ENDFtk.Props.C61_tabulatedComponents",
    "ENDFtk.Props.C61_tabulatedComponents_accepts",
    "ENDFtk.Props.C61_mf1mt458_partial",
    "ENDFtk.Props.C61_mf1mt460",
    "ENDFtk.Props.C61_distributions",
    "ENDFtk.Props.C61_mf4",
    "ENDFtk.Props.C61_partialDistribution",
    "ENDFtk.Props.C61_mf5",
    "ENDFtk.Props.C61_mf5_empty",
    "ENDFtk.Props.C61_continuumEnergyAngle",
    "ENDFtk.Props.C61_continuumEnergyAngle_empty",
    "ENDFtk.Props.C61_chargedLegendre",
    "ENDFtk.Props.C61_reactionProduct6",
    "ENDFtk.Props.C61_mf6_partial",
    "ENDFtk.Props.C61_reactionProduct26",
    "ENDFtk.Props.C61_mf26",
    "ENDFtk.Props.C61_coherentElastic",
    "ENDFtk.Props.C61_coherentElastic_sizes",
    "ENDFtk.Props.C61_mf7mt2",
    "ENDFtk.Props.C61_scatteringFunction",
    "ENDFtk.Props.C61_scatteringFunction_sizes",
    "ENDFtk.Props.C61_mf7mt4_partial",
    "ENDFtk.Props.C61_mf7mt4_empty_constants",
    "ENDFtk.Props.C61_mf7mt451",
    "ENDFtk.Props.C61_mf7mt451_single",
    "ENDFtk.Props.C61_mf7mt451_empty",
    "ENDFtk.Props.C61_fissionYields",
    "ENDFtk.Props.C61_fissionYields_accepts",
    "ENDFtk.Props.C61_mf8mt454",
    "ENDFtk.Props.C61_mf8mt459",
    "ENDFtk.Props.C61_mf8yields_arrays",
    "ENDFtk.Props.C61_mf8yields_single",
    "ENDFtk.Props.C61_decaySpectrum",
    "ENDFtk.Props.C61_mf8mt457",
    "ENDFtk.Props.C61_mf8mt457_stable",
    "ENDFtk.Props.C61_mf9",
    "ENDFtk.Props.C61_mf10",
    "ENDFtk.Props.C61_mf12_partial",
    "ENDFtk.Props.C61_mf13_partial",
    "ENDFtk.Props.C61_photonDistributions",
    "ENDFtk.Props.C61_mf14_isotropic",
    "ENDFtk.Props.C61_mf14_partial",
    "ENDFtk.Props.C61_mf14_arrays",
    "ENDFtk.Props.C61_mf15",
    "ENDFtk.Props.C61_mf28",
    "ENDFtk.Props.C61_mf2mt152",
    "ENDFtk.Props.C61_mf2mt152_single",
    "ENDFtk.Props.C61_mf31",
    "ENDFtk.Props.C61_mf33",
    "ENDFtk.Props.C61_mf33_lumped",
    "ENDFtk.Props.C61_reactionBlock34",
    "ENDFtk.Props.C61_mf34_partial",
    "ENDFtk.Props.C61_mf35",
    "ENDFtk.Props.C61_mf40",
    "ENDFtk.Props.C61_backgroundChannels",
    "ENDFtk.Props.C61_spinGroup",
    "ENDFtk.Props.C61_resonanceRange",
    "ENDFtk.Props.C61_mf2mt151_partial",
    "ENDFtk.Props.C61_mf2mt151_empty",
    "ENDFtk.Props.C61_mf2mt151_ranges_partial",
    "ENDFtk.Props.C61_mf2mt151_special",
    "ENDFtk.Props.C61_covRange",
    "ENDFtk.Props.C61_mf32mt151_partial",
    "ENDFtk.Props.C61_mf32mt151_exact",
    "ENDFtk.Props.C61_mf32mt151_lines_partial",
    "ENDFtk.Props.C61_mf32mt151_empty",
    "ENDFtk.Props.C61_mf32mt151_ranges",
    "ENDFtk.Props.C61_mf1mt451_empty_index",
    "ENDFtk.Props.C61_mf1mt451_long_line",
    "ENDFtk.Props.C61_mf1mt458_order_zero",
    "ENDFtk.Props.C61_mf6_elsewhere",
    "ENDFtk.Props.C61_mf7mt4_law",
    "ENDFtk.Props.C61_total_one_partial",
    "ENDFtk.Props.C61_mf14_order",
    "ENDFtk.Props.C61_derived_lty",
    "ENDFtk.Props.C61_mf34_other_mt",
    "ENDFtk.Props.C61_mf2mt151_lfw",
    "ENDFtk.Props.C61_cov_long_range",
    "ENDFtk.Props.C61_cov_spin_groups",
    "ENDFtk.Props.C61_cov_rml_radius"
   ],
   "note": "Proved for all section types. The full claim is false of the code where a constructor accepts what the reader cannot read (the *_partial theorems exclude exactly these cases, and C61_total_one_partial, C61_mf14_order, C61_mf6_elsewhere, C61_mf7mt4_law, C61_mf1mt451_empty_index, C61_mf1mt451_long_line, C61_mf1mt458_order_zero, C61_derived_lty, C61_mf34_other_mt, C61_mf2mt151_lfw, C61_cov_long_range, C61_cov_spin_groups, C61_cov_rml_radius, C56_ndigit3, C56_unsorted show them), and for compact correlation matrices, whose correlations are rounded to NDIGIT digits."
  },
  {
   "property": "C62",
   "status": "partial",
   "theorems": [
    "ENDFtk.Props.C62_records",
    "ENDFtk.Props.C62_head",
    "ENDFtk.Props.C62_made_base",
    "ENDFtk.Props.C62_made_mf3",
    "ENDFtk.Props.C62_text_mf3",
    "ENDFtk.Props.C62_made_mf23",
    "ENDFtk.Props.C62_text_mf23",
    "ENDFtk.Props.C62_made_mf27",
    "ENDFtk.Props.C62_text_mf27",
    "ENDFtk.Props.C62_text_mf32mt151",
    "ENDFtk.Props.C62_made_mf1mt451",
    "ENDFtk.Props.C62_text_mf1mt451",
    "ENDFtk.Props.C62_isStable_inverted",
    "ENDFtk.Props.C62_made_polynomial",
    "ENDFtk.Props.C62_made_tabulatedMultiplicity",
    "ENDFtk.Props.C62_text_mf1mt452",
    "ENDFtk.Props.C62_text_mf1mt456",
    "ENDFtk.Props.C62_made_energyIndependentConstants",
    "ENDFtk.Props.C62_made_energyDependentConstants",
    "ENDFtk.Props.C62_text_mf1mt455",
    "ENDFtk.Props.C62_made_energyReleaseComponent",
    "ENDFtk.Props.C62_made_tabulatedComponents",
    "ENDFtk.Props.C62_text_mf1mt458",
    "ENDFtk.Props.C62_made_discretePhoton",
    "ENDFtk.Props.C62_made_photons",
    "ENDFtk.Props.C62_made_continuousPhotons",
    "ENDFtk.Props.C62_text_mf1mt460",
    "ENDFtk.Props.C62_made_legendre4",
    "ENDFtk.Props.C62_made_tabulated4",
    "ENDFtk.Props.C62_text_legendre4",
    "ENDFtk.Props.C62_text_tabulated4",
    "ENDFtk.Props.C62_made_distributions",
    "ENDFtk.Props.C62_made_mixed",
    "ENDFtk.Props.C62_mixed_energy_twice",
    "ENDFtk.Props.C62_made_mf4",
    "ENDFtk.Props.C62_mf4_distributions",
    "ENDFtk.Props.C62_text_mf4",
    "ENDFtk.Props.C62_made_madlandNix",
    "ENDFtk.Props.C62_text_madlandNix",
    "ENDFtk.Props.C62_made_table5",
    "ENDFtk.Props.C62_made_outgoingEnergy",
    "ENDFtk.Props.C62_text_outgoingEnergy",
    "ENDFtk.Props.C62_made_tabulatedSpectrum",
    "ENDFtk.Props.C62_made_probability",
    "ENDFtk.Props.C62_text_probability",
    "ENDFtk.Props.C62_made_partial5",
    "ENDFtk.Props.C62_made_mf5",
    "ENDFtk.Props.C62_text_mf5",
    "ENDFtk.Props.C62_made_multiplicity6",
    "ENDFtk.Props.C62_text_multiplicity6",
    "ENDFtk.Props.C62_made_product6",
    "ENDFtk.Props.C62_made_charged6",
    "ENDFtk.Props.C62_text_charged6",
    "ENDFtk.Props.C62_made_chargedLegendre6",
    "ENDFtk.Props.C62_made_thermal6",
    "ENDFtk.Props.C62_text_thermal6",
    "ENDFtk.Props.C62_made_continuum6",
    "ENDFtk.Props.C62_text_continuum6",
    "ENDFtk.Props.C62_made_twoBody6",
    "ENDFtk.Props.C62_made_nBody6",
    "ENDFtk.Props.C62_text_nBody6",
    "ENDFtk.Props.C62_made_energyDistribution6",
    "ENDFtk.Props.C62_text_energyDistribution6",
    "ENDFtk.Props.C62_made_angularDistribution6",
    "ENDFtk.Props.C62_text_angularDistribution6",
    "ENDFtk.Props.C62_made_laboratory6",
    "ENDFtk.Props.C62_made_mf6",
    "ENDFtk.Props.C62_text_mf6",
    "ENDFtk.Props.C62_made_product26",
    "ENDFtk.Props.C62_made_continuum26",
    "ENDFtk.Props.C62_made_twoBody26",
    "ENDFtk.Props.C62_made_mf26",
    "ENDFtk.Props.C62_text_mf26",
    "ENDFtk.Props.C62_made_coherent",
    "ENDFtk.Props.C62_made_coherent1",
    "ENDFtk.Props.C62_made_incoherent",
    "ENDFtk.Props.C62_made_mf7mt2",
    "ENDFtk.Props.C62_text_mf7mt2",
    "ENDFtk.Props.C62_made_function7",
    "ENDFtk.Props.C62_made_function7_1",
    "ENDFtk.Props.C62_made_functions7",
    "ENDFtk.Props.C62_made_temperature7",
    "ENDFtk.Props.C62_made_mf7mt4",
    "ENDFtk.Props.C62_text_mf7mt4",
    "ENDFtk.Props.C62_made_mf7mt451",
    "ENDFtk.Props.C62_text_mf7mt451",
    "ENDFtk.Props.C62_made_yields",
    "ENDFtk.Props.C62_made_yields_arrays",
    "ENDFtk.Props.C62_text_yields",
    "ENDFtk.Props.C62_made_continuous8",
    "ENDFtk.Props.C62_made_decay_discrete",
    "ENDFtk.Props.C62_made_decay_continuous",
    "ENDFtk.Props.C62_made_decay_both",
    "ENDFtk.Props.C62_made_mf8mt457",
    "ENDFtk.Props.C62_made_mf8mt457_stable",
    "ENDFtk.Props.C62_text_mf8mt457",
    "ENDFtk.Props.C62_text_decay8",
    "ENDFtk.Props.C62_made_product9",
    "ENDFtk.Props.C62_made_product9_short",
    "ENDFtk.Props.C62_made_mf9",
    "ENDFtk.Props.C62_text_mf9",
    "ENDFtk.Props.C62_made_partial12",
    "ENDFtk.Props.C62_made_total12",
    "ENDFtk.Props.C62_made_multiplicities",
    "ENDFtk.Props.C62_made_mf12",
    "ENDFtk.Props.C62_made_mf13",
    "ENDFtk.Props.C62_text_mf12",
    "ENDFtk.Props.C62_text_mf13",
    "ENDFtk.Props.C62_made_photon_isotropic",
    "ENDFtk.Props.C62_made_photon_distributions_partial",
    "ENDFtk.Props.C62_photon_energy_truncated",
    "ENDFtk.Props.C62_made_mf14_isotropic",
    "ENDFtk.Props.C62_made_mf14",
    "ENDFtk.Props.C62_text_mf14",
    "ENDFtk.Props.C62_made_mf15",
    "ENDFtk.Props.C62_text_mf15",
    "ENDFtk.Props.C62_made_mf28",
    "ENDFtk.Props.C62_text_mf28",
    "ENDFtk.Props.C62_made_reactionBlock",
    "ENDFtk.Props.C62_made_mf31",
    "ENDFtk.Props.C62_text_mf31",
    "ENDFtk.Props.C62_made_mf33",
    "ENDFtk.Props.C62_made_mf33_lumped",
    "ENDFtk.Props.C62_text_mf33",
    "ENDFtk.Props.C62_made_legendreBlock",
    "ENDFtk.Props.C62_made_reactionBlock34",
    "ENDFtk.Props.C62_made_mf34",
    "ENDFtk.Props.C62_text_mf34",
    "ENDFtk.Props.C62_made_mf35",
    "ENDFtk.Props.C62_text_mf35",
    "ENDFtk.Props.C62_made_levelBlock",
    "ENDFtk.Props.C62_made_mf40",
    "ENDFtk.Props.C62_text_mf40",
    "ENDFtk.Props.C62_made_singleLevel",
    "ENDFtk.Props.C62_made_multiLevel",
    "ENDFtk.Props.C62_made_reichMoore",
    "ENDFtk.Props.C62_made_caseA",
    "ENDFtk.Props.C62_made_caseC",
    "ENDFtk.Props.C62_made_caseB",
    "ENDFtk.Props.C62_made_lvalue",
    "ENDFtk.Props.C62_made_backgrounds",
    "ENDFtk.Props.C62_made_tabulatedBackground",
    "ENDFtk.Props.C62_made_backgroundChannels",
    "ENDFtk.Props.C62_made_spinGroup",
    "ENDFtk.Props.C62_numberBackgroundChannels",
    "ENDFtk.Props.C62_made_rMatrixLimited",
    "ENDFtk.Props.C62_rmatrix_SPI",
    "ENDFtk.Props.C62_rmatrix_AP",
    "ENDFtk.Props.C62_made_resonanceRange",
    "ENDFtk.Props.C62_made_scatteringRadius",
    "ENDFtk.Props.C62_made_isotope",
    "ENDFtk.Props.C62_made_mf2mt151",
    "ENDFtk.Props.C62_made_mf2mt151_ranges",
    "ENDFtk.Props.C62_made_mf2mt151_special",
    "ENDFtk.Props.C62_made_mf2mt152",
    "ENDFtk.Props.C62_text_mf2mt151",
    "ENDFtk.Props.C62_text_mf2mt152",
    "ENDFtk.Props.C62_energies_five_reactions",
    "ENDFtk.Props.C62_made_limitedSingle",
    "ENDFtk.Props.C62_made_limitedMulti",
    "ENDFtk.Props.C62_made_general",
    "ENDFtk.Props.C62_made_shortRml",
    "ENDFtk.Props.C62_made_correlations",
    "ENDFtk.Props.C62_made_compactSpin",
    "ENDFtk.Props.C62_made_compact",
    "ENDFtk.Props.C62_made_unresolved32",
    "ENDFtk.Props.C62_made_radius32",
    "ENDFtk.Props.C62_made_covRange",
    "ENDFtk.Props.C62_made_covIsotope",
    "ENDFtk.Props.C62_made_mf32mt151",
    "ENDFtk.Props.C62_made_mf32mt151_ranges",
    "ENDFtk.Props.C62_rmatrix_AP_ub",
    "ENDFtk.Props.C62_photon_energy_lost",
    "ENDFtk.Props.C62_isStable_of_unstable",
    "ENDFtk.Props.C62_lrf_lost"
   ],
   "note": "Proved for all section types (32/151: the number of lines of a correlation matrix is known if its lines have 66 columns or more). The full claim is false of the code for EG() and ES() of anisotropic photons in file 14 (truncated to an integer), isStable() of 1/451 (inverted), the mixed distributions of file 4 (the common energy is counted twice), numberBackgroundChannels() of spin groups (NCH), EUNR() of 2/152 for NREAC other than 5, SPI() and AP() without an elastic pair or channel (undefined), LRF() of unresolved resonances in 32/151 (always 1); C62_lrf_lost, C62_photon_energy_truncated, C62_isStable_inverted, C62_mixed_energy_twice, C62_numberBackgroundChannels, C62_energies_five_reactions, C62_rmatrix_SPI, C62_rmatrix_AP show these."
  },
  {
   "property": "C63",
   "status": "proved",
   "theorems": [
    "ENDFtk.Props.C63_mf6",
    "ENDFtk.Props.C63_mf26",
    "ENDFtk.Props.C63_mf9"
   ],
   "note": ""
  },
  {
   "property": "C64",
   "status": "proved",
   "theorems": [
    "ENDFtk.Props.C64_section_strings",
    "ENDFtk.Props.C64_file_strings",
    "ENDFtk.Props.C64_material_strings",
    "ENDFtk.Props.C64_record_strings",
    "ENDFtk.Props.C64_parse",
    "ENDFtk.Props.C64_parse_rejects",
    "ENDFtk.Props.C64_section_tree",
    "ENDFtk.Props.C64_file_tree",
    "ENDFtk.Props.C64_parse_file",
    "ENDFtk.Props.C64_rest_ignored",
    "ENDFtk.Props.C64_tape_material"
   ],
   "note": "Sections, files and materials as in C41, C46, C53 (AnySection.Valid, PFile.Valid, PMaterial.Valid). The names of the 2190 properties of the Python classes were compared with the names of the C++ functions they call with a script; they are not in the model."
  },
  {
   "property": "C65",
   "status": "partial",
   "theorems": [
    "ENDFtk.Props.C65_read",
    "ENDFtk.Props.C65_other_files",
    "ENDFtk.Props.C65_write_read",
    "ENDFtk.Props.C65_interrupted",
    "ENDFtk.Props.C65_rewrite",
    "ENDFtk.Props.C65_history",
    "ENDFtk.Props.C65_silent",
    "ENDFtk.Props.C65_content_lost",
    "ENDFtk.Props.C65_file_emptied"
   ],
   "note": "Proved for consistent tapes (GoodTape) except for the last part, which the code refutes: to_file does not look at the state of the stream (C65_silent), and it empties the file before content() is called, so that a call that throws destroys the old file (C65_content_lost, C65_file_emptied). Disk is a map from names to contents; a write is interrupted after any number of characters (in order); fsync and directories are not modelled."
  },
  {
   "property": "C66",
   "status": "partial",
   "theorems": [
    "ENDFtk.Props.C66_file_lines",
    "ENDFtk.Props.C66_material_lines",
    "ENDFtk.Props.C66_tape_lines",
    "ENDFtk.Props.C66_read_material_lines",
    "ENDFtk.Props.C66_file_mixes_materials",
    "ENDFtk.Props.C66_material_mixes_materials",
    "ENDFtk.Props.C66_other_fend",
    "ENDFtk.Props.C66_tape_ends_early"
   ],
   "note": "Printing: proved for every valid file, material and tape (C66_file_lines, C66_material_lines, C66_tape_lines), whatever its reals. Reading: the claim is false; the code compares MAT only within a section (C43, C44): C66_file_mixes_materials, C66_material_mixes_materials, C66_other_fend, and any line with MAT = -1 ends a parsed tape (C66_tape_ends_early)."
  },
  {
   "property": "C67",
   "status": "proved",
   "theorems": [
    "ENDFtk.Props.C67_section",
    "ENDFtk.Props.C67_parsed_section",
    "ENDFtk.Props.C67_fixpoint",
    "ENDFtk.Props.C67_mf32mt151",
    "ENDFtk.Props.C67_file",
    "ENDFtk.Props.C67_material",
    "ENDFtk.Props.C67_tape",
    "ENDFtk.Props.C67_read_tape",
    "ENDFtk.Props.C67_read_material"
   ],
   "note": "Under the assumption D9 on disco's real numbers (class Rounding; instance tenths). C67_section for every section type, C67_mf32mt151, C67_file, C67_material, C67_tape; C67_parsed_section, C67_read_material, C67_read_tape for objects that were read. Unlike C41 and C46 no assumption that the reals survive 11 columns."
  },
  {
   "property": "C68",
   "status": "proved",
   "theorems": [
    "ENDFtk.Props.C68_decayConstants",
    "ENDFtk.Props.C68_polynomialComponents",
    "ENDFtk.Props.C68_breitWigner",
    "ENDFtk.Props.C68_reichMoore",
    "ENDFtk.Props.C68_unresolvedA",
    "ENDFtk.Props.C68_unresolvedB",
    "ENDFtk.Props.C68_unresolvedC",
    "ENDFtk.Props.C68_particlePairs",
    "ENDFtk.Props.C68_resonanceChannels",
    "ENDFtk.Props.C68_resonanceChannels_one_radius",
    "ENDFtk.Props.C68_resonanceParameters",
    "ENDFtk.Props.C68_dilutionTables",
    "ENDFtk.Props.C68_dilutionTables_infinite",
    "ENDFtk.Props.C68_continuumLegendre",
    "ENDFtk.Props.C68_kalbachMann",
    "ENDFtk.Props.C68_kalbachMann_slope",
    "ENDFtk.Props.C68_continuumTabulated",
    "ENDFtk.Props.C68_thermalScattering",
    "ENDFtk.Props.C68_twoBodyLegendre",
    "ENDFtk.Props.C68_twoBodyTabulated",
    "ENDFtk.Props.C68_nuclearAmplitudes",
    "ENDFtk.Props.C68_nuclearPlusInterference",
    "ENDFtk.Props.C68_scatteringLawConstants",
    "ENDFtk.Props.C68_elementInformation",
    "ENDFtk.Props.C68_fissionYields",
    "ENDFtk.Props.C68_averageDecayEnergies",
    "ENDFtk.Props.C68_decayModes",
    "ENDFtk.Props.C68_decayModes_stable",
    "ENDFtk.Props.C68_discreteSpectrum",
    "ENDFtk.Props.C68_transitions",
    "ENDFtk.Props.C68_transitions_conditional",
    "ENDFtk.Props.C68_subshell",
    "ENDFtk.Props.C68_covariancePairs",
    "ENDFtk.Props.C68_covariancePairs_two",
    "ENDFtk.Props.C68_squareMatrix",
    "ENDFtk.Props.C68_squareMatrix35",
    "ENDFtk.Props.C68_rectangularMatrix",
    "ENDFtk.Props.C68_derivedRedundant",
    "ENDFtk.Props.C68_derivedRatio",
    "ENDFtk.Props.C68_limited",
    "ENDFtk.Props.C68_shortRangeBreitWigner",
    "ENDFtk.Props.C68_shortRangeReichMoore",
    "ENDFtk.Props.C68_triangularMatrix",
    "ENDFtk.Props.C68_shortRangeParameters",
    "ENDFtk.Props.C68_compactBreitWigner",
    "ENDFtk.Props.C68_compactReichMoore",
    "ENDFtk.Props.C68_compactParticlePairs",
    "ENDFtk.Props.C68_compactParameters",
    "ENDFtk.Props.C68_radiusUncertainties",
    "ENDFtk.Props.C68_unresolvedCovariances",
    "ENDFtk.Props.C68_text"
   ],
   "note": "One theorem per constructor (files 1, 2, 6, 7, 8, 12, 26, 28, 31 to 40: Props/Written, Written2; file 32: Written3). C68_text: the printed text. Triangular matrices: fewer than 2^29 - 1 values (the code computes in unsigned int). C68_compactParameters has the hypothesis that the arrays of uncertainties have the sizes of the parameters, which the code does not verify (C60_compactParameters_sizes). Concrete cases in WrittenExamples."
  },
  {
   "property": "C69",
   "status": "proved",
   "theorems": [
    "ENDFtk.Props.C69_cont",
    "ENDFtk.Props.C69_dir",
    "ENDFtk.Props.C69_text",
    "ENDFtk.Props.C69_list",
    "ENDFtk.Props.C69_tab2",
    "ENDFtk.Props.C69_tab1",
    "ENDFtk.Props.C69_not_equal",
    "ENDFtk.Props.C69_symmetric",
    "ENDFtk.Props.C69_transitive",
    "ENDFtk.Props.C69_reflexive",
    "ENDFtk.Props.C69_identical",
    "ENDFtk.Props.C69_same_lines",
    "ENDFtk.Props.C69_read_again",
    "ENDFtk.Props.C69_short_text"
   ],
   "note": "That == of doubles is symmetric and transitive is a hypothesis (DoubleEquality); reflexivity is proved to hold exactly for records without NaN, and identity for records without NaN and zeros (0.0 == -0.0). C69_short_text: the exception for text records of fewer than 66 characters."
  },
  {
   "property": "C70",
   "status": "partial",
   "theorems": [
    "ENDFtk.Props.C70_fissionProducts",
    "ENDFtk.Props.C70_fissionProducts_made",
    "ENDFtk.Props.C70_subshell_transitions",
    "ENDFtk.Props.C70_subshell_no_values",
    "ENDFtk.Props.C70_transitions",
    "ENDFtk.Props.C70_transitions_columns",
    "ENDFtk.Props.C70_transitions_extra",
    "ENDFtk.Props.C70_jValuesA",
    "ENDFtk.Props.C70_jValuesCov",
    "ENDFtk.Props.C70_jValues_columns",
    "ENDFtk.Props.C70_mf4_distributions",
    "ENDFtk.Props.RowViewsExamples.C70_ragged"
   ],
   "note": "Proved for all records whose number of values is a multiple of the number of rows (verified by the code except in TransitionProbabilities). The full statement is false: C70_transitions_extra and C70_ragged (more transitions than announced), C70_subshell_no_values (a subshell with NTR = -1). GX, GF, AMUG, AMUF, AMUX of the J values of 2/151 are constants 0 in the code."
  },
  {
   "property": "C71",
   "status": "proved",
   "theorems": [
    "ENDFtk.Props.C71_records",
    "ENDFtk.Props.C71_intg",
    "ENDFtk.Props.C71_section",
    "ENDFtk.Props.C71_file",
    "ENDFtk.Props.C71_material",
    "ENDFtk.Props.C71_tape",
    "ENDFtk.Props.C71_python",
    "ENDFtk.Props.C71_tree",
    "ENDFtk.Props.C71_tree_numbers",
    "ENDFtk.Props.C71_tree_section",
    "ENDFtk.Props.C71_tree_parse",
    "ENDFtk.Props.C71_clean",
    "ENDFtk.Props.C71_clean_section",
    "ENDFtk.Props.C71_cut",
    "ENDFtk.Props.C71_no_line_numbers",
    "ENDFtk.Props.C71_text",
    "ENDFtk.Props.C71_unreadable"
   ],
   "note": "Lines must have at least 75 columns, and columns 76-80 must be readable as an integer (blank and missing columns are): C71_unreadable shows that an unreadable line number is an exception. C71_cut and C71_no_line_numbers build texts that meet the hypothesis; Props/LineNumbersExamples.lean has concrete ones."
  },
  {
   "property": "C72",
   "status": "proved",
   "theorems": [
    "ENDFtk.Props.C72_fission_yields",
    "ENDFtk.Props.C72_decay_modes",
    "ENDFtk.Props.C72_decay_energies",
    "ENDFtk.Props.C72_discrete_spectrum",
    "ENDFtk.Props.C72_element",
    "ENDFtk.Props.C72_subshell",
    "ENDFtk.Props.C72_thermal",
    "ENDFtk.Props.C72_lvalue",
    "ENDFtk.Props.C72_unresolved_lvalue",
    "ENDFtk.Props.C72_particle_pairs",
    "ENDFtk.Props.C72_channels",
    "ENDFtk.Props.C72_limited_lvalue",
    "ENDFtk.Props.C72_compact",
    "ENDFtk.Props.C72_two_body",
    "ENDFtk.Props.C72_tabulated",
    "ENDFtk.Props.C72_charged",
    "ENDFtk.Props.C72_parameters",
    "ENDFtk.Props.C72_compact_parameters",
    "ENDFtk.Props.C72_self_shielding",
    "ENDFtk.Props.C72_triangle",
    "ENDFtk.Props.C72_short_range",
    "ENDFtk.Props.C72_explicit_covariance",
    "ENDFtk.Props.C72_square_matrix_35",
    "ENDFtk.Props.C72_long_range",
    "ENDFtk.Props.C72_transitions",
    "ENDFtk.Props.C72_reaction_block"
   ],
   "note": "VerifiedBySmall (records of fewer than 2^31 numbers) is stated where the length of the list enters an arithmetic expression of type int; VerifiedBy has no such hypothesis. `NPL / 12. != NPP` compares doubles: it is stated as the exact relation of integers it is equivalent to. The theorems fix exactly when the behaviour is undefined."
  }
 ]
}
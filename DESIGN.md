# Formal model of njoy/ENDFtk in Lean 4 - design

## 1. What is modelled

ENDFtk is a reader/writer for ENDF-6 "tapes". The model follows the layers of the code:

| layer | code | Lean |
|---|---|---|
| field I/O (dependency `njoy::tools::disco`, not in /repo) | used by every record | `Verif/Basic`, `Verif/Disco` |
| records | `record/*`, `*Record*`, `StructureDivision`, `HeadRecord`, `TapeIdentification` | `Verif/Record/*` |
| tree (index without parsing) | `tree/*` | `Verif/Tree/*` |
| parsed sections/files/material/tape | `section/*`, `file/*`, `Material`, `Tape` | `Verif/Section/*`, `Verif/Parsed/*` |
| properties | properties.jsonl | `Verif/Props/*` |

* Text is `List Char`; an iterator into a buffer is the remaining suffix (`position >= end` is "suffix empty",
  `std::string(begin, position)` is the prefix of `begin` up to `position`).
* A reading constructor is `Parser a = St -> Except Err (a x St)` with `St = {rest, line}` (`line` is `lineNumber`).
* C++ exceptions are values of `Err`: `exc` (anything derived from `std::exception`), `int n` (the `throw position+6` of
  TailVerification), `illegalN2`, `inconsistentN2`, plus `ub` for executions the C++ standard leaves undefined
  (reading past `end`, `back()` of an empty vector, iterator before `begin`). `catch` clauses are modelled explicitly.
* A loop whose length depends on the text takes fuel `length of text + 1`; running out of fuel is the separate error
  `fuel`, and a theorem shows it cannot happen (that is the termination proof).
* `std::map<int,X>` is a key-sorted association list, `std::multimap` likewise with equal keys in insertion order;
  sortedness is proved as an invariant, never assumed by a subtype.
* `int`/`long` are unbounded `Int`, except where the code's behaviour at a narrowing is part of a property
  (`verifyNP`/`verifyNZ` compare as `unsigned int`, `verifyUnsigned` converts to `unsigned int`): there the model
  reduces modulo 2^32.

## 2. Trusted base

* Lean's kernel; axioms at most `propext`, `Classical.choice`, `Quot.sound` (checked by `vcheck`, `#print axioms`).
* The reading of the C++ code: every model definition cites file and lines.
* The dependency `disco` is not in /repo. Its behaviour enters through the type class `Disco R` (`R` = type of reals):
  - D1 a field of width w takes the next w characters of the line; a newline inside the field ends it (and is not
    consumed, so the remaining fields of the line are empty); the end of the buffer inside a field throws
    (`record/test/record.test.cpp`, `Tail/test`, `StructureDivision/test`);
  - D2 a blank (or empty) integer or real field reads as 0 / 0.0; an unreadable one throws;
  - D3 `disco::Record::read` without `RetainCarriage` consumes the rest of the line with its newline; the fourth field
    of `Tail::Format` (NS, 5 columns) is read although there are only three sinks;
  - D4 `Integer<w>` writes an integer whose decimal representation fits in w columns right justified, and reads it
    back; a field of w columns reads as a number that fits w columns (`parseInt_fits`); what is written for a number that
    does not fit is left unspecified (hypothesis `fits`);
  - D5 `ENDF` writes a real in exactly 11 columns without newline; whether a real survives writing and reading is a
    *predicate* (`Rep x`), not an assumption: round-trip theorems carry it as a hypothesis on the data;
  - D6 `Character<w>` reads at most w characters of the line, padded with blanks to w; it writes the string padded with blanks on the
    right to w columns (only used by theorems for strings of exactly w characters unless stated);
  - D7 `Column<w>` writes w blanks, `Record::write` ends with a newline.
  - D8 (not disco, but `double` arithmetic) class `CorrOps`: converting an integer of at most seven digits to a correlation and back
    gives the integer. C57 proves this over the rationals for every rounding with relative error at most 2^-53, which IEEE 754 guarantees
    for these magnitudes.
  - D9 (only C67; class `Rounding` in Verif/Rounded/Base.lean) any real that `ENDF::write` writes can be read, which gives the rounded real; writing that gives the same 11 columns; rounding is monotone, keeps 0 and integers of up to seven digits, and only 0 becomes 0. Infinities and NaN, which cannot be read, are excluded by this. Instance: `tenths` in Verif/Rounded/Instance.lean.
  The class is shown consistent by a concrete instance (decimal reals in ENDF 11-column notation), which is also used
  for all concrete examples and counterexamples.
* D10: `range-v3` views are modelled by their list meaning; `views::split` of text on newline yields no trailing empty piece
  (as `section/1/451/test/451.test.cpp` shows).
* `range-v3` views with preconditions (`drop_exactly`, `take_exactly`, `stride`, `chunk`, `[]`) yield `Err.ub` when the
  precondition is violated (`Verif/Section/Getters.lean`, first section).
* Conversion of a `double` to an integer (`int(x)`) is `Disco.trunc`, with the law that it inverts the conversion of an
  integer of the range of `int` and `unsigned int`; `std::round` is `Disco.round` likewise.
* Not modelled: the names in the Python bindings (only `from_string`, `to_string`, `to_tree`, `parse`, `MAT`, `to_file`, `from_file` are in the model), pybind11, logging, memory exhaustion, concurrency, aliasing
  (`insert(std::move(x))` of an element of the same tree), `\r` line ends, integer overflow other than in the size checks of sections
  and the narrowings listed above (lists with 2^31 or more numbers), the message and the moment of an
  exception when several checks fail at once (ZA/AWR are checked first in the model).

### How the model was validated

* Every test vector of the unit tests in /repo (`section/*/test`, `file/*/test`, `Material/test`, `Tape/test`, `tree/*/test`,
  `record/test`) that fits the kernel's memory is parsed by the model and printed as the same text, and every vector that the
  tests expect to be rejected is rejected (`Props/SectionExamples`, `Props/ParsedExamples`, `Props/TreeExamples`, generated by
  `tools/*.py`); these are computations in the kernel, used as evidence for the model, not as proofs of properties.
* Seeded bugs: `tools/mutate.py` applies edits to a scratch copy and lists the theorems that fail (`seeded/LOG.jsonl`).

### Framework for sections

* `Comp α` (Section/Comp.lean): a component with `read`, `print`, `nc` (NC()), `Valid` (class invariant), `reals`. Its law
  `Comp.Law`: printed text is read back, has NC() lines of 80 columns, and reading any text gives a valid component from NC() lines
  or fails with an allowed error (`StdErr`, or `UbErr` which adds undefined behaviour).
* `SecDef β` (Section/Base.lean): a section type: HEAD flags, reading between HEAD and SEND, body, NC. `readSect`, `parse`, `print`
  are written once, as the C++ constructors all follow the same pattern. `strict`/`mtOk` distinguish what can be constructed from
  what can be read back.
* `SectionType` (Section/All.lean): the 33 alternatives of `Material.hpp` other than 32/151; `SecType` (Parsed/Model.lean) adds `cov` for 32/151
  (`mf32mt151`, Section/MF32*), which needs weaker laws because of its INTG records.
* `Local` (Section/Local.lean): the outcome of reading depends only on the lines consumed; `LocalW`/`LocalP` without the line counter.
* `Parsed/*`: `AnySection` = section type with data; files, materials, tapes as maps; `Parsed/Agree*` relate them to the tree.
* `Section/Getters.lean`, `Section/Getters32.lean`: constructors from arrays and getters of list based components.
* `Section/Build.lean`, `Build2.lean` to `Build5.lean`: the other public constructors from data, of components and of sections.

## 3. Plan per property

| id | model | proof |
|---|---|---|
| C01 | Tape/Material/File/Section indexing on characters | layout grammar `Layout` rendered to text; induction over the layout |
| C02 | same | invariant "text consumed so far = contents interleaved with end records", induction on fuel, every accepted buffer |
| C03 | same, with `ub`, `fuel`, `int` outcomes | each read consumes a character; induction on fuel |
| C04, C05 | same | layout grammar with repetition counts / omission flags |
| C06 | same | invariant: keys seen so far are distinct in any accepted run |
| C07 | same | every accepted run ends with a TEND; prefixes |
| C08 | same | invariant for MF/MT; counterexample for MAT, `_partial` with the missing hypothesis |
| C09 | content/re-index | C01 applied to the canonical layout of a tree |
| C10-C12 | tree operations as state machines | refinement to abstract maps, induction on histories |
| C13 | same | case analysis; counterexample for Material::insert(Section) |
| C14, C15 | content functions | induction |
| C16-C18 | Section::clean, NC | induction over lines; counterexample for C17 |
| C19-C23 | updateDirectory on top of the MT451 section model | computation + round trip of MT451; counterexamples NWD = 0, MT < 451 |
| C24-C30 | record read/print | field lemmas, chunking lemmas for 6 and 3 per line, induction on length |
| C31 | INTG reading with `ub` | counterexamples; `_partial` for full lines |
| C32 | print functions | induction on length |
| C33-C38 | read functions on arbitrary text | inversion lemmas, induction on counts |
| C39, C40 | regions, InterpolationSequenceRecord | arithmetic; induction |
| C41, C42 | section types as compositions of components | `Comp.Law`, `SecDef.Law` per type by composing record round trips |
| C43, C44 | same | inversion of `readSect` (SEND and HEAD checks) |
| C45 | tree and parsed layers | `MapRel` between the two kinds of maps, locality (C50), round trips |
| C46, C47 | file/material/tape parsers | induction over sections/files/materials |
| C48 | list based components with views | chunk/stride lemmas on `rows` |
| C49 | same as C41 with `ub` (violated preconditions of views, division by zero, signed overflow in the size checks) | the law's error set; counterexamples for the sixteen types that can reach `ub`; compositional tracing of `ub` to a line of the text (`Blames`, C49_blame, C49_safe_texts), lifted through the loops of files, materials and tapes (Props/BlameTape) |
| C50 | all parsers | `Local`: closed under sequencing, loops and exceptions |
| C51 | all section types against `Fmt.body` / `Fmt.printed` (Verif/Format), written as sequences of records | `Is p t G`: the reader `p` succeeds exactly on record sequences of format `G`; closed under sequencing, loops, checks |
| C52 | the records read (`Fmt.body`) against the records printed (`Fmt.records`) | cases of the section types, induction over sequences |
| C53-C55 | 32/151 with its own program logic (`ReadsW`, `Comp.WLaw`: the line counter runs ahead, INTG records can cross lines) | composition as for C41-C43 |
| C56 | compact matrix: INTG lines against the list of elements | induction over the elements (`compactRev_spec`) |
| C57 | the two conversions over the rationals with an arbitrary rounding | error bounds |
| C58 | section 32/151 against `Fmt32.body` / `Fmt32.printed` (Verif/Format/Spec32.lean) | as C51: `Is32` closed under the combinators |
| C59 | the named getters of the components of C48 against literal positions in the LIST record (`Columns`, `Blocks`, `Value`, Verif/Props/Layout.lean) | the size invariant of the component gives the number of entries; stride, chunk and drop views give list positions |
| C60 | constructors from arrays, getters and `resonances()` of the components of 32/151, `resonances()` and competitive widths of 2/151 (Verif/Section/Getters32.lean) | as C48 and C59; the order of a triangular matrix from the integer square root |
| C61 | the public constructors from data of components and sections (Verif/Section/Build*.lean); `ReadsBack` (Verif/Props/Build.lean) is the round trip of the section that was made | what a constructor accepts satisfies the validity predicate of its component, then C41_valid_round_trip; for 32/151 (Build6, MF32Rounded) the section that is read has its correlations rounded to NDIGIT digits (`roundedSect`) |
| C62 | the getters (Verif/Section/Access*.lean, one definition per getter); `lineAt`, `LineShows` (line k of the text has these values in its columns), `TableSays`, `RegionsSay` (Verif/Props/Access.lean) | `C62_made_*`: from the equations of the constructors (C61); `C62_text_*`: `C62_records` places every record of a parsed section on its line, from C51; section 32/151: `C62_text_mf32mt151` from C58, `MatrixAt` for the correlation matrices (the INTG records are on the lines after the CONT record if these have 66 columns or more; otherwise they can cross line ends) |
| C63 | `std::find_if` over the products; `LooksUp` (Verif/Props/Access3.lean) | the result is the first product with the number: list induction |
| C64 | the readers and the `switch` statements of python/src (Verif/Python/Model.lean); `IsFor` (the MF and MT that a type is for) | from C41, C45, C46, C50, C53 and case analysis of the switch |
| C65 | the disk as a map from names to texts, `to_file` with a parameter for what the operating system does (`Write`), `fromFile` | from C07 (truncated tapes are rejected), C09; histories by induction |
| C66 | `print` of files, materials, tapes against the lines (`SectionLines`, `FileLines`, `MaterialLines`, `TapeLines`, Verif/Props/Numbers.lean) | C42 and induction over the maps; reading is refuted by concrete texts |
| C67 | the rounded version of every object (Verif/Rounded), `RoundsTo`, `Small` (Verif/Rounded/Spec.lean) | the rounded object is valid, printed alike, and all of its reals survive; C41, C46, C53 applied to it |
| C68 | constructors of Section/Getters.lean and Getters32.lean; `Head`, `Table`, `Stack` (Props/Written.lean) | inversion of the constructor; lengths of tables and stacks of rows; C28 and C34 for the text |
| C69 | operator== and != of the records (Record/Equal.lean); `SameReals`, `Plain`, `Sharp` (Props/Equal.lean) | induction on the vectors; the laws of == of doubles are hypotheses (`DoubleEquality`); C26 to C29 for reading again |
| C70 | row views (Section/RowViews.lean): products, transitions, J values | `chunk` into rows of equal size; `RowGetters`; arithmetic of NPL / NT for the records whose size is not a multiple |
| C71 | all readers; `SameText`, `SameLines`, `SameBlock` (SameText.lean) | class `Blind` (Section/Blind.lean): a parser gives the same result on texts that agree in columns 1-75; closed under bind, loops and tests; instances for all records, sections, files, materials, tapes; the tree by simulation (Tree/Same.lean) |
| C72 | components of sections that are a LIST record; the specification is a small language of C++ `int` expressions (`CppInt.lean`: `Val`, `Verdict`, `throwIf`) in which the `verifySize` functions of the source are transcribed (`Verify.*`) | `VerifiedBy`: reading equals reading the LIST and then the verdict; case distinction on overflow, the tests and `…Ov` predicates of the model |

## 4. Findings (places where the code does not do what the property says)

| where | what | theorem |
|---|---|---|
| tree::File | MAT of a HEAD is not compared with the file's | C08_section_mat_differs |
| tree::Material::insert( Section ) | a failed insertion leaves an empty file | C13_material_section_wrong_mat |
| tree::Section::clean | content is lost if it throws | C17_clean_loses_content |
| updateDirectory | NWD = 0: a blank line is added, NC of MT451 is one too small; MT < 451 in file 1; unordered directory | C19_no_description, C19_not_first, C22_unordered |
| INTG reading | negative index accepted; reads the next line; reads past the end | C31_* |
| TAB1/TAB2/InterpolationBase | boundaries compared modulo 2^32; `back()` of empty vector | C35_*, C40_boundary_wraps |
| section types | HEAD's MF ignored by 15 types; 452/456 accept each other's text | C44_head_mf_ignored, C44_nubar_mt_ignored |
| 2/151 | LFW 2^32 | C41_mf2mt151_counterexample |
| 6 | "defined elsewhere" multiplicities accepted by constructors, unreadable | C41_mf6_* |
| 2/151, 6, 7/4, 12, 26, 31, 33, 34, 40 | texts that reach undefined behaviour (ND out of range, NS out of range, NT = 0, NER = 0, division by zero) | C49_exactly_these |
| 2/151, 2/152, 6, 7/451, 8/454, 8/457, 8/459, 26, 28, 31, 33, 34, 35, 40, 32/151 | the size checks (`verifySize`) compute with `int`, so that counts in the text can make them overflow (e.g. N2 = 715827883: 6 * N2 does not fit; with the usual wrapping it would be 2, and a LIST record with NPL = 2 would be accepted although it has no resonance) | C49_exactly_these, C49_mf8mt454_overflow, ... |
| file 8, 30 | empty or skipped files; file 30 is lost; such materials cannot be read back | C46_empty_file, C46_skipped_file8, C46_file30_lost |
| Tape | the tape number is not printed | C46_tape_number_lost |
| TextRecord | a record made from fewer than 66 characters is not == to what is read from the line it prints | C69_short_text |
| TransitionProbabilities | only the quotient NPL / NT is verified: with NPL not a multiple of NT there are more transitions than NT, and the last may have no probability (undefined) | C70_transitions_extra, C70_ragged |
| toFile of an empty file | MF 0 | C45_empty_file |
| getters | empty FissionYieldData, SubshellData, CovariancePairs second array: undefined; columnEnergies of RectangularMatrix returns the values as well; energy bounds of file 35 truncated to int; stable nuclide has one mode; LTY unverified; GAM includes padding zeros; no transitions: division by zero | C48_* |
| 32/151 | readParameters counts the line it looks ahead to; NDIGIT = 3 printed with 3 columns per value; unsorted rows are moved; HEAD's MF ignored; LRF of unresolved ranges lost; LRF 7 with long range blocks accepted | C55_line_counter, C56_ndigit3, C56_unsorted, C55_head_mf_ignored, C55_unresolved_lrf, C55_rml_long_range |
| 32/151, components | size of DJDF and of the uncertainties of compact R-matrix parameters not verified; NCH, NRSA = 0 and an empty list of radius uncertainties not verified when read | C60_limited_djdf, C60_compactParameters_sizes, C60_unverified |
| constructors from data | accepted and written, but not readable: 32/151: long range blocks with LB 3, 4, 8 or 9, compact R-matrix limited parameters with another number of spin groups than NJSX or with uncertainties of the scattering radius (C61_cov_*), compact matrices with NDIGIT = 3 or unordered rows (C56_*); a total with exactly one partial (12, 13), photons in another order (14), products defined elsewhere for MT other than 18 (6), a law that does not match B(1) (7/4), an empty directory and description lines longer than 66 characters (1/451); polynomial components of order 0 are read as thermal point components (1/458); derived ratio data with an LTY that does not exist (31, 33, 40), blocks made for another MT than the section's (34), an LFW flag that is not the one of the unresolved parameters (2/151); too few interpolation flags of coherent elastic scattering: undefined | C61_total_one_partial, C61_mf14_order, C61_mf6_elsewhere, C61_mf7mt4_law, C61_mf1mt451_empty_index, C61_mf1mt451_long_line, C61_mf1mt458_order_zero, C61_derived_lty, C61_mf34_other_mt, C61_mf2mt151_lfw, C61_coherentElastic_sizes |
| getters of sections | EG() and ES() of photons with Legendre or tabulated distributions truncated to an integer (14; `AngularDistributions::C1()`, `C2()` return a `long`); isStable() of 1/451 is true for STA = 1, which means unstable; the common energy of mixed distributions is counted twice (4); numberBackgroundChannels() of a spin group is NCH (2/151); EUNR() assumes NREAC = 5 (2/152); LRF() of unresolved resonances in 32/151 is 1 whatever the text says, and is written back as 1; SPI() and AP() of R-matrix limited parameters read past the end if there is no elastic pair or the first spin group has no elastic channel | C62_photon_energy_truncated, C62_photon_energy_lost, C62_isStable_inverted, C62_isStable_of_unstable, C62_mixed_energy_twice, C62_numberBackgroundChannels, C62_energies_five_reactions, C62_rmatrix_SPI, C62_rmatrix_AP, C62_rmatrix_AP_ub |
| file::Type, Material, Tape | MAT is not compared between sections and end records; any line with MAT = -1 ends the tape | C66_file_mixes_materials, C66_material_mixes_materials, C66_other_fend, C66_tape_ends_early |
| tree.Tape.to_file (Python) | a stream that cannot be opened or written is not noticed; the file is emptied before `content()` is called, which may throw | C65_silent, C65_content_lost, C65_file_emptied |

Nothing in the list is inexpressible; what the model cannot carry (floating point value of a real after an 11 column
round trip, memory safety of iterators beyond the modelled `ub` outcomes) is stated in the notes of MANIFEST.json.

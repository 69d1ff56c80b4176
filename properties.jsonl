{"id": "C01", "title": "Tree indexing is byte exact", "statement": "If a buffer is a TPID line followed by materials, files and sections laid out with SEND/FEND/MEND/TEND records (distinct MF per material, distinct MT per file), constructing tree::Tape succeeds, and material(MAT)/file(MF)/section(MT).content() is exactly the bytes of that section in the buffer, from its HEAD line through its SEND line, sequence numbers included.", "quantifier": "all tape layouts: any number of materials/files/sections, any line contents, any line lengths >= 75 columns", "why_tests_cant": "tests index a handful of fixed tapes; the claim is about every layout and every byte", "anchors": ["src/ENDFtk/tree/Tape/src/createMap.hpp createMap", "src/ENDFtk/tree/Material/src/createMap.hpp createMap", "src/ENDFtk/tree/File/src/createMap.hpp createMap", "src/ENDFtk/tree/Section/src/findEnd.hpp findEnd"]}
{"id": "C02", "title": "Tree indexing loses and invents nothing", "statement": "Whenever tree::Tape construction from a buffer succeeds, the buffer is the TPID line, followed by the contents of the indexed sections in order of appearance, interleaved only with structural end records (SEND/FEND/MEND), followed by a TEND record and whatever comes after it. No other bytes are skipped.", "quantifier": "all buffers (arbitrary text) on which the constructor returns", "why_tests_cant": "requires reasoning about every accepted input, including malformed ones nobody thought to test", "anchors": ["src/ENDFtk/tree/Tape/src/createMap.hpp", "src/ENDFtk/tree/Material/src/createMap.hpp", "src/ENDFtk/tree/File/src/createMap.hpp", "src/ENDFtk/tree/Section/src/ctor.hpp"]}
{"id": "C03", "title": "Tape construction is total: a tree or a std::exception", "statement": "For any buffer whatsoever tree::Tape( buffer ) terminates, either with a tree or by throwing something derived from std::exception; it never loops forever, never lets a non-std exception escape and never dereferences past the end of the buffer.", "quantifier": "all buffers, including truncated, empty and malformed ones", "why_tests_cant": "termination and absence of stray exceptions over all texts cannot be sampled", "anchors": ["src/ENDFtk/tree/Tape/src/ctor.hpp", "src/ENDFtk/tree/Tape/src/createMap.hpp", "src/ENDFtk/tree/File/src/createMap.hpp", "src/ENDFtk/StructureDivision.hpp"]}
{"id": "C04", "title": "Redundant SEND/FEND/MEND records do not change the tree", "statement": "Repeating any SEND, FEND or MEND record any number of times in a well formed tape gives the same tree as the tape without the repetitions.", "quantifier": "all tape layouts and all repetition counts for each end record", "why_tests_cant": "tests repeat one record once or twice in one place", "anchors": ["src/ENDFtk/tree/File/src/createMap.hpp skip any duplicate SEND records", "src/ENDFtk/tree/Material/src/createMap.hpp", "src/ENDFtk/tree/Tape/src/createMap.hpp"]}
{"id": "C05", "title": "Missing FEND/MEND records are recovered", "statement": "Leaving out FEND records between files and MEND records between materials of a well formed tape (as long as the neighbouring MF resp. MAT numbers differ so the boundary is still visible) gives the same tree as with the records present.", "quantifier": "all tape layouts, all subsets of omitted FEND/MEND records", "why_tests_cant": "combinatorially many omissions", "anchors": ["src/ENDFtk/tree/File/src/createMap.hpp warn for missing FEND record", "src/ENDFtk/tree/Material/src/createMap.hpp warn for missing MEND record"]}
{"id": "C06", "title": "Duplicate MT in a file and duplicate MF in a material are rejected", "statement": "A tape in which a file lists the same MT twice, or in which a material lists the same MF twice, never yields a tree: construction throws std::exception.", "quantifier": "all tape layouts containing such a duplicate at any position, whatever follows it", "why_tests_cant": "the duplicate can be anywhere", "anchors": ["src/ENDFtk/tree/File/src/createMap.hpp check for duplicate mt", "src/ENDFtk/tree/Material/src/createMap.hpp check for duplicate mf"]}
{"id": "C07", "title": "Truncated tapes are rejected", "statement": "A buffer that is cut off - anywhere before its TEND record - never yields a tree: construction throws std::exception. In particular any proper prefix of a well formed tape that stops before the end of the TEND line's MAT/MF/MT/NS columns throws.", "quantifier": "all well formed tapes and all cut positions", "why_tests_cant": "every byte position of every tape is a crash point", "anchors": ["src/ENDFtk/tree/Tape/src/createMap.hpp not division.isTend()", "src/ENDFtk/tree/Section/src/findEnd.hpp", "src/ENDFtk/tree/File/src/createMap.hpp check for end of stream"]}
{"id": "C08", "title": "A tree built from a buffer is keyed consistently", "statement": "In a tree constructed from a buffer, the section found under (MAT,MF,MT) reports exactly those MAT(), MF() and MT() numbers, and the file found under (MAT,MF) reports that MAT() and MF().", "quantifier": "all buffers accepted by the tree::Tape constructor", "why_tests_cant": "must hold for all accepted inputs (it turns out to fail for MAT when both FEND and MEND are missing)", "anchors": ["src/ENDFtk/tree/File/src/createMap.hpp while ( division.isHead() && ( division.tail.MF() == mf ) )"]}
{"id": "C09", "title": "content() of a tape can be re-indexed to the same tree", "statement": "For any tree obtained from a buffer (or built by valid insertions), constructing a tree::Tape from tape.content() gives the same materials, files, sections and section contents; content() of the result is identical (a fixed point).", "quantifier": "all trees reachable by construction, with consistent keys", "why_tests_cant": "round trip over all trees", "anchors": ["src/ENDFtk/tree/Tape.hpp content", "src/ENDFtk/tree/Material.hpp content", "src/ENDFtk/tree/File.hpp content"]}
{"id": "C10", "title": "tree::File behaves as a finite map from MT to section", "statement": "After any sequence of insert, insertOrReplace and remove calls (throwing calls included), hasMT, section, size, sectionNumbers and sections agree with an abstract map MT -> section updated by the successful calls; section(mt) throws out_of_range exactly when hasMT(mt) is false.", "quantifier": "all finite histories of operations from an empty or constructed file", "why_tests_cant": "unbounded histories", "anchors": ["src/ENDFtk/tree/File/src/insert.hpp", "src/ENDFtk/tree/File/src/insertOrReplace.hpp", "src/ENDFtk/tree/File/src/remove.hpp", "src/ENDFtk/tree/File/src/section.hpp", "src/ENDFtk/tree/File.hpp hasMT"]}
{"id": "C11", "title": "tree::Material behaves as a map of maps", "statement": "After any sequence of section/file insert, insertOrReplace and remove calls on a tree::Material, hasMF, hasMFMT, file and section agree with an abstract two level map updated by the calls.", "quantifier": "all finite histories of operations on a material", "why_tests_cant": "unbounded histories", "anchors": ["src/ENDFtk/tree/Material/src/insert.hpp", "src/ENDFtk/tree/Material/src/insertOrReplace.hpp", "src/ENDFtk/tree/Material/src/remove.hpp", "src/ENDFtk/tree/Material/src/file.hpp"]}
{"id": "C12", "title": "tree::Tape behaves as an ordered multimap from MAT to material", "statement": "After any sequence of insert, replace and remove calls: material(mat) yields the materials with that MAT in insertion order and throws out_of_range iff there are none; numberMAT(mat) counts them; hasMAT agrees; materialNumbers() is the strictly increasing list of MATs present; remove(mat) removes all of them and nothing else; replace leaves exactly one.", "quantifier": "all finite histories of operations on a tape", "why_tests_cant": "unbounded histories", "anchors": ["src/ENDFtk/tree/Tape/src/insert.hpp", "src/ENDFtk/tree/Tape/src/replace.hpp", "src/ENDFtk/tree/Tape/src/remove.hpp", "src/ENDFtk/tree/Tape/src/material.hpp", "src/ENDFtk/tree/Tape.hpp materialNumbers"]}
{"id": "C13", "title": "A failed modification leaves the tree unchanged", "statement": "If insert or insertOrReplace on a tree::File or tree::Material throws, the observable state (hasMF, hasMT, size, numbers, contents) is the same as before the call.", "quantifier": "all trees and all arguments for which the call throws", "why_tests_cant": "strong exception safety over all states (it fails for Material::insert( Section ) with a wrong MAT: an empty file is left behind)", "anchors": ["src/ENDFtk/tree/Material/src/insert.hpp", "src/ENDFtk/tree/Material/src/insertOrReplace.hpp", "src/ENDFtk/tree/File/src/insertOrReplace.hpp"]}
{"id": "C14", "title": "content() lists sections in ascending order with canonical end records", "statement": "File content() is the contents of its sections in ascending MT followed by one FEND record of the file's MAT; material content() is its file contents in ascending MF followed by one MEND; tape content() is the TPID line, material contents in ascending MAT (insertion order for equal MAT) and one TEND.", "quantifier": "all trees reachable by any history", "why_tests_cant": "ordering after arbitrary histories", "anchors": ["src/ENDFtk/tree/File.hpp content", "src/ENDFtk/tree/Material.hpp content", "src/ENDFtk/tree/Tape.hpp content"]}
{"id": "C15", "title": "Empty nodes produce no text", "statement": "A file without sections has empty content (no lone FEND); a material all of whose files are empty has empty content (no lone MEND); inserting an empty file or material does not change content().", "quantifier": "all trees", "why_tests_cant": "all shapes of trees", "anchors": ["src/ENDFtk/tree/File.hpp content", "src/ENDFtk/tree/Material.hpp content"]}
{"id": "C16", "title": "clean() normalises without losing data", "statement": "On a section whose lines all carry its MAT/MF/MT, clean() succeeds and afterwards every line has exactly 80 columns, columns 76-80 are blank, columns 1-66 are those of the original line, columns 67-75 hold MAT, MF, MT, the last line is the SEND record, and the number of lines is unchanged. clean() is idempotent.", "quantifier": "all sections, files, materials and tapes with consistent lines", "why_tests_cant": "all contents", "anchors": ["src/ENDFtk/tree/Section/src/clean.hpp", "src/ENDFtk/TextRecord/src/print.hpp"]}
{"id": "C17", "title": "clean() is all or nothing", "statement": "If clean() throws (because some line carries other MAT/MF/MT numbers), the section's content is what it was before the call.", "quantifier": "all sections and all positions of the offending line", "why_tests_cant": "every failing position (the property fails: content is cleared first)", "anchors": ["src/ENDFtk/tree/Section/src/clean.hpp this->content_.clear()"]}
{"id": "C18", "title": "tree::Section::NC counts the lines before SEND", "statement": "For a section obtained from a buffer, NC() is the number of its lines not counting the SEND line; clean() does not change it.", "quantifier": "all sections obtained from a buffer", "why_tests_cant": "all contents", "anchors": ["src/ENDFtk/tree/Section.hpp NC"]}
{"id": "C19", "title": "updateDirectory produces the correct directory", "statement": "If a material holds a valid MF1 MT451 section, then after updateDirectory the parsed MT451 index lists every section of the material exactly once in ascending (MF,MT) order, with NC equal to that section's line count - including MT451's own, updated, line count - and no other section's content changes.", "quantifier": "all materials with a parsable MF1 MT451 that is the first section", "why_tests_cant": "all materials, all old directories", "anchors": ["src/ENDFtk/tree/updateDirectory.hpp updateDirectory"]}
{"id": "C20", "title": "updateDirectory keeps the descriptive data", "statement": "updateDirectory leaves every field of MT451 other than the directory unchanged, including all descriptive lines and their number NWD.", "quantifier": "all materials with a parsable MF1 MT451", "why_tests_cant": "all descriptions including the empty one (where it fails)", "anchors": ["src/ENDFtk/tree/updateDirectory.hpp", "src/ENDFtk/section/1/451/src/description.hpp", "src/ENDFtk/section/1/451/src/makeDescription.hpp"]}
{"id": "C21", "title": "updateDirectory is idempotent", "statement": "Calling updateDirectory twice (with the same copyMod) gives the same material as calling it once.", "quantifier": "all materials with a parsable MF1 MT451", "why_tests_cant": "fixed point over all materials", "anchors": ["src/ENDFtk/tree/updateDirectory.hpp"]}
{"id": "C22", "title": "updateDirectory copies modification numbers when asked", "statement": "With copyMod the MOD of every section that is listed in the old directory is copied from it and the MOD of other sections is 0; without copyMod every MOD is 0.", "quantifier": "all materials and old directories ordered by (MF,MT)", "why_tests_cant": "all directories; for unordered directories the forward search misses entries", "anchors": ["src/ENDFtk/tree/updateDirectory.hpp copyMod"]}
{"id": "C23", "title": "updateDirectory refuses materials without MT451", "statement": "If MF1 or MT451 is absent, or MT451 cannot be parsed, updateDirectory throws std::exception and the material is unchanged.", "quantifier": "all materials", "why_tests_cant": "all materials", "anchors": ["src/ENDFtk/tree/updateDirectory.hpp"]}
{"id": "C24", "title": "Structure divisions are classified unambiguously", "statement": "A structure division is at most one of HEAD, SEND, FEND, MEND, TEND; SEND(MAT,MF), FEND(MAT), MEND(), TEND() printed and read back are classified as such with the same numbers; SEND and FEND refuse MAT < 1 and MF < 1.", "quantifier": "all field values and all admissible MAT, MF", "why_tests_cant": "all numbers", "anchors": ["src/ENDFtk/StructureDivision.hpp isHead isSend isFend isMend isTend SEND FEND MEND TEND"]}
{"id": "C25", "title": "A structure division read from text is valid or an exception is thrown", "statement": "Reading a StructureDivision from any text yields MAT >= -1, MF >= 0 and MT >= 0, or throws std::exception.", "quantifier": "all texts", "why_tests_cant": "all texts", "anchors": ["src/ENDFtk/StructureDivision.hpp StructureDivision"]}
{"id": "C26", "title": "CONT records round trip", "statement": "Printing a ControlRecord with MAT, MF, MT and reading it back with the same numbers gives an equal record, consumes exactly the printed line and advances the line counter by one, for reals that are exactly representable in 11 columns and integers that fit their columns.", "quantifier": "all such values and any text following the record", "why_tests_cant": "all values", "anchors": ["src/ENDFtk/ControlRecord.hpp", "src/ENDFtk/ControlRecord/src/print.hpp"]}
{"id": "C27", "title": "TEXT, DIR and TPID records round trip", "statement": "TextRecord (66 column text), DirectoryRecord and TapeIdentification printed and read back give equal records and consume exactly the printed line. TapeIdentification pads or truncates its text to 66 columns.", "quantifier": "all texts without newline, all numbers that fit", "why_tests_cant": "all values", "anchors": ["src/ENDFtk/TextRecord.hpp", "src/ENDFtk/DirectoryRecord.hpp", "src/ENDFtk/TapeIdentification.hpp executeOrder66"]}
{"id": "C28", "title": "LIST records round trip", "statement": "Printing a ListRecord of any length and reading it back gives an equal record, consumes exactly the printed lines and advances the line counter by NC().", "quantifier": "all list lengths and all representable values", "why_tests_cant": "all lengths including 0, multiples of 6 and others", "anchors": ["src/ENDFtk/ListRecord.hpp", "src/ENDFtk/ListRecord/src/print.hpp", "src/ENDFtk/record/Zipper/src/unzip.hpp"]}
{"id": "C29", "title": "TAB1 and TAB2 records round trip", "statement": "Printing a TabulationRecord or InterpolationRecord and reading it back gives an equal record, consumes exactly the printed lines and advances the line counter by NC().", "quantifier": "all valid records of any size", "why_tests_cant": "all sizes", "anchors": ["src/ENDFtk/TabulationRecord.hpp", "src/ENDFtk/InterpolationRecord.hpp", "src/ENDFtk/record/InterpolationBase.hpp"]}
{"id": "C30", "title": "INTG records round trip up to trailing zeros", "statement": "Printing an INTG record (NDIGIT 2 to 6) and reading it back gives the same I, J and the same K values up to trailing zeros, and consumes exactly one line.", "quantifier": "all NDIGIT in 2..6, all K lists of at most N entries whose values fit", "why_tests_cant": "all values", "anchors": ["src/ENDFtk/record/IntegerBase.hpp", "src/ENDFtk/record/IntegerBase/src/readIntegers.hpp", "src/ENDFtk/record/IntegerBase/src/print.hpp"]}
{"id": "C31", "title": "INTG reading rejects non-positive indices and short lines", "statement": "Reading an INTG record whose I or J is zero or negative throws; reading one from a line that ends early throws or yields zeros, but never reads into the next line or past the end of the buffer.", "quantifier": "all texts", "why_tests_cant": "all texts (both parts fail in the code)", "anchors": ["src/ENDFtk/record/IntegerBase/src/verifyUnsigned.hpp", "src/ENDFtk/record/IntegerBase/src/readIntegers.hpp"]}
{"id": "C32", "title": "Every printed line has 80 columns and NC() counts the lines", "statement": "Printing any record (CONT, TEXT of 66 columns, DIR, TPID, LIST, TAB1, TAB2, INTG, structure division) emits exactly NC() lines, each of exactly 80 columns plus a newline, with MAT, MF, MT in columns 67-75 and blanks in columns 76-80.", "quantifier": "all records with numbers that fit their columns", "why_tests_cant": "all sizes and values", "anchors": ["src/ENDFtk/*/src/print.hpp", "src/ENDFtk/ListRecord.hpp NC", "src/ENDFtk/TabulationRecord.hpp NC"]}
{"id": "C33", "title": "A record with the wrong MAT, MF or MT is rejected", "statement": "Reading any verified record type (CONT, TEXT, DIR, LIST, TAB1, TAB2, INTG) from text in which any of its lines carries a MAT, MF or MT different from the expected one throws std::exception (never an int, never a record).", "quantifier": "all texts, all record types, all positions of the offending line", "why_tests_cant": "all positions", "anchors": ["src/ENDFtk/record/TailVerifying.hpp", "src/ENDFtk/record/Zipper/src/verifyTail.hpp"]}
{"id": "C34", "title": "Unused columns of a partial data line must be empty", "statement": "If the last line of a LIST, TAB1 or TAB2 has a non zero value in a column beyond the announced number of entries, reading throws std::exception.", "quantifier": "all texts and counts", "why_tests_cant": "all column positions", "anchors": ["src/ENDFtk/record/Zipper/src/readPartialLine.hpp"]}
{"id": "C35", "title": "TAB1/TAB2 objects always satisfy their invariants", "statement": "Every TabulationRecord that was constructed (from vectors or from text) has x sorted, as many x as y, as many boundaries as interpolants, sorted boundaries, and its last boundary equal to NP; vectors or texts violating this throw std::exception.", "quantifier": "all constructor arguments and all texts", "why_tests_cant": "all inputs", "anchors": ["src/ENDFtk/TabulationRecord/src/ctor.hpp", "src/ENDFtk/record/InterpolationBase/src/ctor.hpp", "src/ENDFtk/TabulationRecord/src/verifyNP.hpp"]}
{"id": "C36", "title": "Negative counts are rejected", "statement": "A LIST with NPL < 0, a TAB1/TAB2 with NR < 1 or N2 < 0, and an MT451 with NWD < 0 or NXC < 1 are rejected with std::exception.", "quantifier": "all texts", "why_tests_cant": "all texts", "anchors": ["src/ENDFtk/ListRecord/src/readMetadata.hpp", "src/ENDFtk/record/InterpolationBase/src/readMetadata.hpp", "src/ENDFtk/section/1/451/src/readParameters.hpp"]}
{"id": "C37", "title": "Only std::exception escapes from record constructors", "statement": "Reading any record from any text either succeeds or throws an exception derived from std::exception; the internal int, IllegalN2 and InconsistentN2 exceptions never reach the caller.", "quantifier": "all texts", "why_tests_cant": "all texts", "anchors": ["src/ENDFtk/record/TailVerifying.hpp throw (position + 6)", "src/ENDFtk/TabulationRecord/src/ctor.hpp", "src/ENDFtk/InterpolationRecord/src/ctor.hpp"]}
{"id": "C38", "title": "The line counter counts lines", "statement": "Whenever reading a record, a section, a parsed file, material or tape succeeds, the line counter has advanced by exactly the number of lines consumed.", "quantifier": "all texts on which reading succeeds", "why_tests_cant": "all texts", "anchors": ["src/ENDFtk/record/Tail.hpp ++lineNumber"]}
{"id": "C39", "title": "TAB1 regions cover the table", "statement": "For a TabulationRecord with strictly positive boundaries, regions() consists of NR contiguous pieces of the x and y vectors that share their end points, start at the first and end at the last point; every index stays within the vectors.", "quantifier": "all valid records", "why_tests_cant": "all boundary lists (with a zero or negative first boundary the code indexes before the vector)", "anchors": ["src/ENDFtk/TabulationRecord.hpp regions"]}
{"id": "C40", "title": "Interpolation sequences are consistent", "statement": "An InterpolationSequenceRecord has as many records as the last boundary of its TAB2 and at least one; printing and reading it back gives an equal object.", "quantifier": "all sequences", "why_tests_cant": "all lengths", "anchors": ["src/ENDFtk/InterpolationSequenceRecord.hpp", "src/ENDFtk/InterpolationSequenceRecord/src/verifyNZ.hpp"]}
{"id": "C41", "title": "Parsed sections round trip", "statement": "For every section type: parsing a section and printing it with any MAT in 1..9999 gives a text that is parsed again as an equal section, wherever it stands, consuming exactly the printed lines including SEND; the same holds for every section satisfying the invariants of its class. Different sections print differently.", "quantifier": "all valid sections with representable values", "why_tests_cant": "all sizes", "anchors": ["src/ENDFtk/section/*/src/ctor.hpp", "src/ENDFtk/section/*/src/print.hpp", "src/ENDFtk/tree/Section/src/parse.hpp"]}
{"id": "C42", "title": "Section NC() is the number of lines printed before SEND", "statement": "For every section type NC() is exactly the number of lines that print() emits before the SEND record, i.e. what the directory must list, each of 80 columns with the right MAT, MF, MT; and parsing consumes NC() lines and SEND.", "quantifier": "all valid sections", "why_tests_cant": "all sizes", "anchors": ["src/ENDFtk/section/*/src/NC.hpp", "src/ENDFtk/section/3.hpp NC"]}
{"id": "C43", "title": "A parsed section must be terminated by its own SEND", "statement": "Parsing a section succeeds only if the data is followed by a SEND record with the same MAT and MF; otherwise std::exception is thrown.", "quantifier": "all texts", "why_tests_cant": "all texts", "anchors": ["src/ENDFtk/section/BaseWithoutMT/src/readSEND.hpp"]}
{"id": "C44", "title": "Section identity is checked", "statement": "Constructing a section from a head record with a different MAT or MF than expected, with ZA < 1, AWR < 0 or MT < 1 throws std::exception.", "quantifier": "all head records", "why_tests_cant": "all values", "anchors": ["src/ENDFtk/section/Base/src/ctor.hpp", "src/ENDFtk/section/BaseWithoutMT/src/ctor.hpp"]}
{"id": "C45", "title": "Tree and parsed layers agree", "statement": "A tree section, file or material made from a parsed one has its numbers, its printed text and (for a section) its line count, and parsing it gives the parsed one back; inserting (or replacing) a parsed section, file or material in the tree stores something that is parsed back as it and leaves the rest as it was, and fails, without changing the stored sections, exactly when the MF is wrong or (insert only) the number is taken. Parsing a file, material or tape of the tree gives what parsing its parts one by one gives, and succeeds exactly if all of them can be parsed; reading a tape directly gives the same as going through the tree.", "quantifier": "all valid values of the modelled section types, all files, materials and tapes of them, all trees that can be indexed again (C09), all texts without redundant end records", "why_tests_cant": "all values", "anchors": ["src/ENDFtk/tree/toSection.hpp", "src/ENDFtk/tree/toFile.hpp", "src/ENDFtk/tree/toMaterial.hpp", "src/ENDFtk/tree/Section/src/parse.hpp", "src/ENDFtk/tree/File/src", "src/ENDFtk/tree/Material/src", "src/ENDFtk/tree/Tape/src"]}
{"id": "C46", "title": "Parsed files, materials and tapes round trip", "statement": "Printing a parsed file, material or tape (made by the user or read from any text) and parsing the text gives an equal object.", "quantifier": "all valid objects over the modelled section types", "why_tests_cant": "all sizes", "anchors": ["src/ENDFtk/file/Base.hpp", "src/ENDFtk/Material.hpp", "src/ENDFtk/Tape.hpp"]}
{"id": "C47", "title": "Parsed files and materials reject duplicates and stay ordered", "statement": "Parsing or constructing a file with two sections of the same MT, or a material with two files of the same MF, throws std::exception; otherwise all of them are kept, sections() and files() are in ascending order, and section( MT ) and file( MF ) find each of them. A tape keeps its materials in the order of the text.", "quantifier": "all inputs", "why_tests_cant": "all inputs", "anchors": ["src/ENDFtk/file/Base/src", "src/ENDFtk/Material/src"]}
{"id": "C48", "title": "Column getters recover what the constructor stored", "statement": "For each component that stores its data as one list (decay constants, resonances, unresolved resonances, channels, dilution tables, continuum and two-body distributions, scattering law constants, fission yields, decay modes and spectra, transition probabilities, subshell data, covariance pairs and matrices): arrays of sizes that do not fit together are rejected with std::exception, otherwise the arrays given to the constructor are the arrays returned by the getters; for a component that was read the getters return the columns of the list.", "quantifier": "all array lengths and values", "why_tests_cant": "all lengths", "anchors": ["src/ENDFtk/section/1/455/DecayConstants.hpp", "src/ENDFtk/section/1/455/DecayConstants/src/generateList.hpp", "src/ENDFtk/section/2/151", "src/ENDFtk/section/6", "src/ENDFtk/section/8", "src/ENDFtk/section/CovariancePairs.hpp"]}
{"id": "C49", "title": "Parsing a section never does anything but succeed or throw std::exception", "statement": "For every section type and every text, parsing either returns a section or throws an exception derived from std::exception; no internal exception type escapes, no precondition of a library function is violated and no integer operation overflows.", "quantifier": "all section types and all texts", "why_tests_cant": "all texts, including counts that are zero, negative or do not match the data", "anchors": ["src/ENDFtk/section/*/src/ctor.hpp", "src/ENDFtk/section/6/ContinuumEnergyAngle", "src/ENDFtk/section/12/TransitionProbabilities/src/verifyLG.hpp", "src/ENDFtk/section/RectangularMatrix/src/verifySize.hpp"]}
{"id": "C50", "title": "Reading depends only on the lines consumed", "statement": "Whenever a record, a section, a parsed file, material or tape is read successfully, it has consumed whole lines, and reading these same lines gives the same object wherever they stand: independently of the text that follows and of the line number.", "quantifier": "all texts on which reading succeeds, all continuations, all line numbers", "why_tests_cant": "all continuations of a text", "anchors": ["src/ENDFtk/ListRecord/src/ctor.hpp", "src/ENDFtk/section/Base/src/ctor.hpp", "src/ENDFtk/file/Base/src/ctor.hpp", "src/ENDFtk/Material/src/ctor.hpp", "src/ENDFtk/Tape/src/ctor.hpp"]}
{"id": "C51", "title": "A text is accepted as a section exactly if it has the format of the section", "statement": "For every section type, parsing a section succeeds exactly if the text consists of a HEAD record with ZA >= 1, AWR >= 0 and acceptable numbers, the sequence of records the ENDF format prescribes for the flags and counts in it (with consistent counts, allowed flags and matching sizes), and a SEND record; the members of the object are then the fields at their positions in the format. Printing writes exactly the HEAD record with the flags and counts, these records, and SEND.", "quantifier": "all section types except 32/151, all texts, all objects", "why_tests_cant": "all combinations of flags, counts and sizes; both directions: nothing else is accepted, nothing of the format is rejected", "anchors": ["src/ENDFtk/section/*/src/ctor.hpp", "src/ENDFtk/section/*/src/print.hpp", "src/ENDFtk/section/*/src/verify*.hpp", "src/ENDFtk/readSequence.hpp", "src/ENDFtk/tree/Section/src/parse.hpp"]}
{"id": "C52", "title": "The records that are printed for a parsed section are those that were read", "statement": "A parsed section is printed with the same records between HEAD and SEND as it was read from, one by one and in the same order; nothing is lost, duplicated or reordered.", "quantifier": "all section types, all texts that are accepted", "why_tests_cant": "all texts", "anchors": ["src/ENDFtk/section/*/src/ctor.hpp", "src/ENDFtk/section/*/src/print.hpp"]}
{"id": "C53", "title": "Round trip of covariances of resonance parameters (32/151)", "statement": "A section 32/151 that was read, or made from data satisfying the same invariants, and whose compact correlation matrices have sorted rows, values that fit and NDIGIT other than 3, is printed, and parsing that text gives the same section and consumes exactly the printed text; the line counter is advanced by the number of lines (and once more per resonance range, which is a defect). Different sections print differently.", "quantifier": "all sections of the eleven types of parameters, any number of isotopes and ranges, all continuations of the text", "why_tests_cant": "all sections and combinations of LRU, LRF, LCOMP; the unit tests have no test of the whole section", "anchors": ["src/ENDFtk/section/32/151/src/ctor.hpp", "src/ENDFtk/section/32/151/Isotope/src/readParameters.hpp", "src/ENDFtk/section/32/151/ResonanceRange/src/print.hpp"]}
{"id": "C54", "title": "32/151: NC() is the number of printed lines", "statement": "A section 32/151 with printable matrices prints NC() lines of 80 columns, each with MAT, MF 32 and MT 151, followed by the SEND line; printing with MAT < 1 or MF < 1 throws.", "quantifier": "all sections, all material numbers", "why_tests_cant": "all sizes of all blocks", "anchors": ["src/ENDFtk/section/32/151/src/NC.hpp", "src/ENDFtk/section/32/151/CompactCorrelationMatrix/src/NC.hpp"]}
{"id": "C55", "title": "32/151: reading any text", "statement": "Parsing any text as section 32/151 gives a section that satisfies the invariants of its classes (sizes of all LIST records, flags, options) and has consumed whole lines up to its own SEND, or throws std::exception.", "quantifier": "all texts", "why_tests_cant": "all texts, including lines that are too short", "anchors": ["src/ENDFtk/section/32/151/src/ctor.hpp", "src/ENDFtk/section/32/151/*/src/verifySize.hpp", "src/ENDFtk/section/32/151/ResonanceRange/src/verifyOptions.hpp"]}
{"id": "C56", "title": "Compact correlation matrices are printed and read back", "statement": "A compact correlation matrix that is printed and read back has the same coordinates, and its correlations rounded to NDIGIT digits; one that was read is unchanged.", "quantifier": "all matrices of any size, NDIGIT from 2 to 6", "why_tests_cant": "all matrices: any number of elements, any order, gaps and line breaks at any place", "anchors": ["src/ENDFtk/section/32/151/CompactCorrelationMatrix/src/compact.hpp", "src/ENDFtk/section/32/151/CompactCorrelationMatrix/src/readMatrixElements.hpp", "src/ENDFtk/section/32/151/CompactCorrelationMatrix/src/print.hpp"]}
{"id": "C57", "title": "Conversion between integers and correlations is stable under rounding", "statement": "With any floating point rounding of 53 bits, an integer of at most seven digits is converted to a correlation and back to the same integer; a correlation changes by at most half a unit of the last digit when it is converted to an integer and back, unless it is at most one unit (then it disappears).", "quantifier": "all integers of at most seven digits, all correlations in [-1, 1], all roundings with relative error at most 2^-53", "why_tests_cant": "all integers and all roundings", "anchors": ["src/ENDFtk/section/32/151/CompactCorrelationMatrix/src/compact.hpp", "src/ENDFtk/section/32/151/CompactCorrelationMatrix/src/readMatrixElements.hpp"]}
{"id": "C58", "title": "The format of section 32/151", "statement": "Reading section 32/151 after a HEAD record succeeds exactly if ZA is at least 1, AWR is not negative, and the text consists of the sequence of records ENDF prescribes (isotopes; resonance ranges with LRU, LRF, NRO, NAPS; the parameters for LRU, LRF and LCOMP with the sizes their counts announce; compact matrices), with the numbers of the section, followed by the SEND record; the object contains the fields of these records. Printing writes the same matrices, LIST and other data records in the same order, and CONT records with counts and flags that follow from the data.", "quantifier": "all texts, all HEAD records, all MAT numbers, all objects", "why_tests_cant": "equivalence between acceptance and a grammar over all texts; there are no unit tests of the complete section", "anchors": ["src/ENDFtk/section/32/151.hpp", "src/ENDFtk/section/32/151/src/ctor.hpp", "src/ENDFtk/section/32/151/Isotope/src/readRanges.hpp", "src/ENDFtk/section/32/151/Isotope/src/readParameters.hpp", "src/ENDFtk/section/32/151/ResonanceRange/src/verifyOptions.hpp"]}
{"id": "C59", "title": "Getters read the positions of the ENDF-6 format", "statement": "For every component whose data are kept in a LIST record, each named getter returns the values that the ENDF-6 format has at a fixed place of that record: for instance resonanceEnergies(), spinValues(), totalWidths(), neutronWidths(), gammaWidths(), fissionWidths() are the values 1 to 6 of every resonance, and the scalar getters are the named fields C1, C2, L1, L2, N2.", "quantifier": "all records of the sizes the component accepts, all numbers of entries", "why_tests_cant": "any number of entries, and a constructor and a getter that exchange two arrays consistently are not noticed by a test that builds the component from arrays", "anchors": ["src/ENDFtk/section/2/151/BreitWignerLValue.hpp", "src/ENDFtk/section/2/151/RMatrixLimited/ParticlePairs.hpp", "src/ENDFtk/section/6/ContinuumEnergyAngle", "src/ENDFtk/section/7/4/ScatteringLawConstants.hpp", "src/ENDFtk/section/8", "src/ENDFtk/section/CovariancePairs.hpp"]}
{"id": "C60", "title": "Components of section 32/151: constructors, getters, resonances", "statement": "For each component of section 32/151 whose data are kept in a LIST record (limited Breit-Wigner l values, short range blocks, triangular covariance matrices, R-matrix limited parameters, compact uncertainties, scattering radius uncertainties, unresolved l values): a component built from arrays returns these arrays, every getter of a component that was read returns the values the ENDF-6 format has at that place, the rows of resonances() (also those of 2/151, and the competitive widths) contain the same values, and the constructor throws exactly for arrays of inconsistent sizes or a covariance matrix that is not the triangle of the right order.", "quantifier": "all arrays, all numbers of resonances and channels, all records of the sizes the component accepts", "why_tests_cant": "any number of resonances and channels and any sizes of the arrays; the order of a matrix is computed from a square root", "anchors": ["src/ENDFtk/section/32/151/LimitedBreitWignerLValue", "src/ENDFtk/section/32/151/ShortRangeBreitWignerReichMooreBlockBase.hpp", "src/ENDFtk/section/32/151/ShortRangeRMatrixLimitedBlock", "src/ENDFtk/section/32/151/CompactBreitWignerUncertainties.hpp", "src/ENDFtk/section/32/151/CompactReichMooreUncertainties.hpp", "src/ENDFtk/section/32/151/CompactRMatrixLimitedUncertainties", "src/ENDFtk/section/32/151/UnresolvedRelativeCovariances", "src/ENDFtk/section/2/151/BreitWignerLValue/Resonance.hpp"]}
{"id": "C61", "title": "Sections made from data can be written and read back", "statement": "A section made with the public constructors from data (components first, then the section) has the ZA, AWR, MT and data that were given; the constructor throws for a ZA below 1, a negative AWR, an MT below 1 and for data that violate the documented rules (sizes, sorted abscissae, last boundary, LF/LAW flags, duplicate components); and if its integers fit their columns and its reals survive 11 columns, printing it for any valid MAT and parsing the text gives the same section, whatever follows (32/151: with the correlations rounded to NDIGIT digits).", "quantifier": "all arguments of all data constructors of the section types and their components, all sizes, all MAT numbers, all following text", "why_tests_cant": "any number of components, points and interpolation ranges, any combination of components, any values of the arguments", "anchors": ["src/ENDFtk/section/1/451/src/ctor.hpp", "src/ENDFtk/section/1/458/TabulatedComponents/src/ctor.hpp", "src/ENDFtk/section/3/src/ctor.hpp", "src/ENDFtk/section/4/src/ctor.hpp", "src/ENDFtk/section/5/src/ctor.hpp", "src/ENDFtk/section/6/src/ctor.hpp", "src/ENDFtk/section/7", "src/ENDFtk/section/8", "src/ENDFtk/section/12/src/ctor.hpp", "src/ENDFtk/section/13/src/ctor.hpp", "src/ENDFtk/section/14/src/ctor.hpp", "src/ENDFtk/section/26/src/ctor.hpp", "src/ENDFtk/section/32/151/src/ctor.hpp"]}
{"id": "C62", "title": "Getters return what was given and what the text says", "statement": "The getters of a section and of its components return the values that were given to the constructor it was made with (energies, Q values, flags, interpolation regions, numbers of components, tables); and for a section that was parsed they return the values that are in the ENDF columns of the line of the text where the format has them: ZA and AWR and the flags on the HEAD line, and each record on exactly the line that follows the HEAD line and the lines of the records before it.", "quantifier": "all arguments of the constructors, all texts that are parsed, all numbers of components, points and interpolation regions", "why_tests_cant": "every value of every argument, every text, any number of components; a getter that returns the wrong one of two fields passes a round trip test", "anchors": ["src/ENDFtk/section/1/451.hpp", "src/ENDFtk/section/3.hpp", "src/ENDFtk/section/4.hpp", "src/ENDFtk/section/4/AngularDistributions.hpp", "src/ENDFtk/section/5", "src/ENDFtk/section/6", "src/ENDFtk/section/26.hpp", "src/ENDFtk/record/InterpolationBase.hpp", "src/ENDFtk/section/2/151.hpp", "src/ENDFtk/section/2/152.hpp", "src/ENDFtk/section/7", "src/ENDFtk/section/8", "src/ENDFtk/section/12.hpp", "src/ENDFtk/section/14.hpp", "src/ENDFtk/section/33.hpp", "src/ENDFtk/section/34.hpp", "src/ENDFtk/section/40.hpp", "src/ENDFtk/section/32/151.hpp"]}
{"id": "C63", "title": "Looking up reaction products", "statement": "hasReactionProduct( zap ) (files 6 and 26) and hasExcitedState( lfs ) (files 9 and 10) are true exactly if a product with this number exists, reactionProduct( n ) returns the first such product, and throws if there is none.", "quantifier": "all sections, all numbers", "why_tests_cant": "any number of products in any order, with repeated numbers, and any argument", "anchors": ["src/ENDFtk/section/6.hpp", "src/ENDFtk/section/9.hpp", "src/ENDFtk/section/10.hpp", "src/ENDFtk/section/26.hpp"]}
{"id": "C64", "title": "The Python interface reads what it writes", "statement": "from_string( x.to_string( ... ) ) is x for every record, section, file and material, whatever text follows in the string; parse() of a tree section picks the type that is for its MF and MT (and throws if there is none), so that x.to_tree( mat ).parse() is x for sections of every type, and likewise for files; MAT( mat ) of a tape returns the material if there is one, all of them if there are several, and throws if there is none.", "quantifier": "all valid sections of all 34 types, all files, materials, records, all MAT numbers, all tree sections with any MF and MT, all following text", "why_tests_cant": "every pair MF, MT, every content of every type, every text that follows", "anchors": ["python/src/read.hpp", "python/src/print.hpp", "python/src/definitions.hpp", "python/src/Material.python.cpp", "python/src/tree/Section.python.cpp", "python/src/tree/File.python.cpp", "python/src/tree/Tape.python.cpp"]}
{"id": "C65", "title": "Tapes in files on disk", "statement": "A tape that was written with to_file is read back by fromFile / from_file; other files are not touched; whatever happens during a call to to_file (the file cannot be opened, a crash or full disk after any number of characters) and in whatever order calls are made, a file is afterwards read as the tape of the last call that opened it or is rejected with an exception, never as another tape; and a call that does not write the tape throws and leaves the old file as it was.", "quantifier": "all consistent tapes, all points of interruption, all histories of calls, all other files", "why_tests_cant": "every crash point and every history of calls", "anchors": ["src/ENDFtk/tree/fromFile.hpp", "python/src/tree/Tape.python.cpp to_file, from_file", "src/ENDFtk/tree/Tape.hpp content"]}
{"id": "C66", "title": "Every line of a file, material or tape carries the numbers of what it belongs to", "statement": "Printing a file, material or tape puts the MAT of the material, the MF of the file and the MT of the section on every line, closes every section, file, material and the tape with its SEND, FEND, MEND and TEND record, and lists sections and files in ascending order. Conversely, reading a parsed file, material or tape rejects a text in which a section or an end record has the MAT of another material, or in which something other than a TEND record ends the tape.", "quantifier": "all files, materials and tapes; all texts", "why_tests_cant": "all objects and all texts", "anchors": ["src/ENDFtk/file/Base/src/print.hpp", "src/ENDFtk/file/Base/src/read.hpp", "src/ENDFtk/Material/src/print.hpp", "src/ENDFtk/Material/src/read.hpp", "src/ENDFtk/Tape/src/print.hpp", "src/ENDFtk/Tape/src/readMaterials.hpp"]}
{"id": "C67", "title": "Writing loses digits only once", "statement": "Take any valid section, file, material or tape (sections as in C41 and C53: unresolved regions match LFW, compact correlation matrices can be printed; no empty files; the integers that are written as reals have at most seven digits), whatever its reals. It can be printed; the printed text is read, wherever it stands and consuming exactly that text, as an object with the same numbers and integers whose reals are those of the original rounded to 11 columns; and that object is printed as the same text. So a tape that was written by the library is read and written again without any change.", "quantifier": "all section types, all valid objects with arbitrary reals", "why_tests_cant": "all objects and all reals", "anchors": ["src/ENDFtk/section", "src/ENDFtk/record", "src/ENDFtk/file/Base/src/print.hpp", "src/ENDFtk/Material/src/print.hpp", "src/ENDFtk/Tape/src/print.hpp"]}
{"id": "C68", "title": "Constructed components are written as the ENDF-6 format says", "statement": "For each component that keeps its data in a LIST record, and for all arrays its constructor accepts: the record that is written has in its first line exactly the six numbers of the ENDF-6 format (the numbers given by the user in their places, the counts NRS, NX, NPP, NEP, NT, ... derived from the sizes of the arrays, zeros in the fields the format does not use, and the number of values), followed by the numbers of the arrays in the order of the format (row by row, with the padding zeros at the end of the lines of R-matrix parameters), six to a line.", "quantifier": "all arrays of all sizes accepted by the constructors of the LIST based components", "why_tests_cant": "all sizes and contents of the arrays; a unit test shows one record", "anchors": ["src/ENDFtk/section/*/*/src/generateList.hpp", "src/ENDFtk/section/2/151", "src/ENDFtk/section/32/151", "src/ENDFtk/section/6", "src/ENDFtk/section/8/457", "src/ENDFtk/section/CovariancePairs", "src/ENDFtk/ListRecord/src/print.hpp"]}
{"id": "C69", "title": "Comparison of records", "statement": "Two records compare equal (==, in Python too for directory entries) exactly if all their numbers are equal: the six fields of a control record; MF, MT, NC and MOD of a directory entry; the text of a text record; C1, C2, L1, L2, N2 and the values of a LIST; C1, C2, L1, L2 and the regions of a TAB2, and the x and y of a TAB1. != is the opposite. If == of double is symmetric and transitive, so is == of records; a record is equal to itself exactly if it has no NaN; equal records without zeros are identical, so that they print the same text, and equal records always have the same number of lines. A record that is printed and read again is equal to the original, except a text record made from fewer than 66 characters.", "quantifier": "all pairs of records of any size", "why_tests_cant": "equality must hold or fail for all pairs, a unit test compares a few that differ in one field", "anchors": ["src/ENDFtk/record/Base.hpp operator==", "src/ENDFtk/ControlRecord.hpp", "src/ENDFtk/DirectoryRecord.hpp", "src/ENDFtk/TextRecord.hpp", "src/ENDFtk/ListRecord.hpp", "src/ENDFtk/record/InterpolationBase.hpp", "src/ENDFtk/InterpolationRecord.hpp", "src/ENDFtk/TabulationRecord.hpp", "python/src/record/DirectoryRecord.python.cpp"]}
{"id": "C70", "title": "Row by row getters agree with the record", "statement": "fissionProducts() (8/454, 8/459), transitions() (12 and 28), jValues() (2/151 case A, 32/151) and angularDistributions() (4) have as many elements as the record announces, and the getters of element i return the values of row i of the record at the places of the ENDF-6 format, so that the columns (spinValues(), energies(), ...) are the columns of these rows; for products made from arrays they are the i-th elements of these arrays.", "quantifier": "all records the constructors accept, of all sizes, and every row", "why_tests_cant": "all numbers of rows and all rows; a test shows one record", "anchors": ["src/ENDFtk/section/8/FissionYieldData.hpp", "src/ENDFtk/section/8/FissionYieldData/FissionProduct.hpp", "src/ENDFtk/section/28/SubshellData.hpp", "src/ENDFtk/section/28/SubshellData/Transition.hpp", "src/ENDFtk/section/12/TransitionProbabilities.hpp", "src/ENDFtk/section/12/TransitionProbabilities/Transition.hpp", "src/ENDFtk/section/2/151/UnresolvedEnergyIndependent", "src/ENDFtk/section/32/151/UnresolvedRelativeCovariances"]}
{"id": "C71", "title": "Line numbers, and whatever follows them, are ignored", "statement": "Two texts whose lines agree in columns 1-75 (so that they differ only in the line numbers NS of columns 76-80, which may be missing, and in what follows column 80) are read alike: every record, section, file, material and tape gives the same value and consumes the same number of lines, or the same exception is thrown; from_string of the Python bindings gives the same result; the trees made of them have the same materials, files and sections in the same order with the same numbers and line counts, whose contents agree in columns 1-75 and are parsed to the same objects; and cleaning the trees makes them equal. (The line number has to be readable as an integer or blank: otherwise an exception is thrown.)", "quantifier": "all pairs of texts that agree in columns 1-75, of any number of lines, valid or not", "why_tests_cant": "all texts, all line numbers and comments, at every line of every type of record; a test shows a few", "anchors": ["src/ENDFtk/record/Tail.hpp", "src/ENDFtk/record/TailVerifying.hpp", "src/ENDFtk/record/helper.hpp", "src/ENDFtk/tree/Tape.hpp", "src/ENDFtk/tree/Section/src/clean.hpp"]}
{"id": "C72", "title": "The sizes of records within sections are verified as the format says", "statement": "Each component of a section that consists of a LIST record (fission yields, decay modes and energies, discrete spectra, element information, subshells, thermal point energy release, L-values and J-values of files 2 and 32, particle pairs, channels, R-matrix parameters, compact and short/long range covariances, two-body and charged particle angular distributions, self-shielding, covariance matrices, transition probabilities), and the blocks of file 34, are accepted by the constructor from text exactly if the record can be read and its numbers (NPL, N2, L1, L2 narrowed to int) satisfy the size relation, evaluated with the int arithmetic of C++: if they do not satisfy it a std::exception is thrown, and exactly if the evaluation, in the order and with the short circuits of the source, overflows or divides by zero is the behaviour undefined.", "quantifier": "all texts, all MAT/MF/MT, all values of the numbers of the records (records of fewer than 2^31 values where the length of the list is involved in an arithmetic expression)", "why_tests_cant": "all combinations of announced and actual sizes, including those at the limits of int; a test shows one wrong size for each component", "anchors": ["src/ENDFtk/section/8/FissionYieldData/src/verifySize.hpp", "src/ENDFtk/section/8/457", "src/ENDFtk/section/7/451/ElementInformation/src/verifySize.hpp", "src/ENDFtk/section/28/SubshellData/src/verifySize.hpp", "src/ENDFtk/section/2/151", "src/ENDFtk/section/32/151", "src/ENDFtk/section/6", "src/ENDFtk/section/26", "src/ENDFtk/section/34/ReactionBlock/src/verifySize.hpp", "src/ENDFtk/section/ExplicitCovariance.hpp", "src/ENDFtk/section/SquareMatrix.hpp", "src/ENDFtk/section/RectangularMatrix.hpp", "src/ENDFtk/section/CovariancePairs.hpp"]}

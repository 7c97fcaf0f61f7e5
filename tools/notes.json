{
 "C03": {
  "note": "Element access and every in-range access proved exactly; refusal of ranges is partial because a range one word past the end passes the check (C03_range_overrun, C03_range_refused_false)."
 },
 "C04": {
  "note": "Element access exact for all six accessors; the range accessor is partial because an empty range at index 1 throws while other empty ranges are accepted (C04_empty_range) and index+length can overflow 64 bits (C04_range_overflow)."
 },
 "C21": {
  "note": "Lookups are exact on ranges that hold just their entries; partial because a reading range longer than its entries is searched as a whole (negation proved beside it)."
 },
 "C22": {
  "note": "As C21, for the located cross section blocks."
 },
 "C10": {
  "note": "All three electron blocks, all sizes; C10_lengths_array records the array accessor that returns the wrong column."
 },
 "C13": {
  "note": "Holds for every kind of data except law 67, which reports 61: the negation is proved with a witness, the rest is C13_partial."
 },
 "C16": {
  "note": "Proved for every list of reactions whose entries stay clear of the defects proved beside it: law 67 reports 61 (C16_law67), one law wrapped as several is read as a plain law (C16_one_of_several), a tabulated multiplicity is recognised by TYR > 100 so a threshold locator of 100 is lost (C16_hundred, C16_threshold)."
 },
 "C17": {
  "note": "Proved for every list of defined distributions; an undefined distribution is never given back as undefined (C17_undefined_false, C17_undefined_after) and too few frames is undefined behaviour (C17_few_frames)."
 },
 "C18": {
  "note": "Proved for every list of laws other than 67 without nested relocation; law 67 falls through, nested data are not relocated and an empty list is undefined behaviour: negations proved. Reading terminates on every input (C18_terminates)."
 },
 "C20": {
  "note": "Exact except for multiplicity 0 in the centre of mass frame, which is stored as -0 and read as laboratory (C20_zero_false)."
 },
 "C19": {
  "note": "Both directions for every layout of prompt, total and single multiplicity data."
 },
 "C23": {
  "note": "Everything but the group number, which is renumbered by position (C23_number_lost)."
 },
 "C24": {
  "note": "Exact for every rectangular table; unequal numbers of bins are not refused, an overlong range is read, an empty list is undefined behaviour: negations proved."
 },
 "C25": {
  "note": "Production data; C25_yield_13 records the unchecked reaction type 13 handling."
 },
 "C27": {
  "note": "All three modes for every list of entries with a common cosine count; different cosine counts are not refused (C27_unequal_cosines), an empty block is undefined behaviour (C27_empty)."
 },
 "C28": {
  "note": "For every set of blocks that read back and whose locator ends are found (Clear); C28_false and the cases of C28Cases show tables where the block-end search of the code finds the wrong end."
 },
 "C29": {
  "note": "For every list of secondary particles of a clear set of blocks; C29_index/C29_false: the IXS block is read one word too long and an HPD energy index is taken for a locator."
 },
 "C31": {
  "note": "Refusals proved for all block sets; C31_sigp, C31_gpd, C31_sigh, C31_false: three counts are not compared."
 },
 "C32": {
  "note": "For all sound block sets with matching subshell counts; the remaining theorems are the counterexamples (lost or corrupted blocks, undefined behaviour) of the unchecked constructor."
 },
 "C33": {
  "note": "For all sound block sets whose types and reaction counts do not look like locators (Small); C33_type, C33_outside, C33_false show the block-end search running into the next particle; C33_short, C33_dropped, C33_counts record unchecked vector sizes and counts."
 },
 "C34": {
  "note": "For all sound block sets in the supported combinations; the remaining theorems are counterexamples of the unchecked constructor."
 },
 "C38": {
  "note": "Every version 1 header whose strings fit (ZAID, date, material <= 10, title <= 70) is printed in fixed columns and returned; number formatting is a parameter (Formats). Strings that do not fit: undefined behaviour (C38_long_*) or cut (C38_long_title)."
 },
 "C39": {
  "note": "Proved for a date that is one word (C39_round_trip_partial). Without a date the count of comments is read as the date and an uninitialised int is used (C39_false, C39_no_date)."
 },
 "C40": {
  "note": "For every content and every XSS length. C40_wrong_count and C40_ten_digits show the hypotheses are needed."
 },
 "C41": {
  "note": "For every list of tables; reading any file ends (C41_ends). C41_zaid: the condition on the ZAID is needed."
 },
 "C42": {
  "note": "C42_read: what is read from the printed form of every printable entry, on one or several lines, anywhere in a stream. C42_round_trip_partial: equal to the entry when no value is the one that stands for 'not given' and the record length is followed by something. C42_false/C42_record: record length and entries without temperature or ptable are printed but cannot be read."
 },
 "C43": {
  "note": "C43_lines_partial for names of at most 95 characters; C43_endless/C43_false: longer names make printing loop forever."
 },
 "C44": {
  "note": "C44_read_partial for every file made of the described lines (entries ending with a newline, no blank line between the directory line and the first entry); C44_entry/C44_found: lookups for every xsdir. C44_last_line, C44_no_entry, C44_blank, C44_title, C44_false: what goes wrong otherwise."
 },
 "C45": {
  "note": "Every terminating read: C45_entry_partial, C45_file_partial. The rest are counterexamples: end of the stream (C45_unfinished, C45_false), undefined behaviour (C45_empty), endless loops (C45_comment, C45_failed_stream), files not rewound (C45_not_rewound, C45_file_false), stream failed after success (C45_success_failed)."
 },
 "C50": {
  "note": "For every xsdir with at least one printable entry and ZA numbers of at most seven digits; C50_no_entries and C50_long_za show the hypotheses are needed."
 },
 "C48": {
  "note": "False as stated (C48_false): the checks compute in unsigned int. Proved for each class either with no hypothesis on the words (C48_tabulated, C48_by_energy, C48_angular, C48_bins, C48_located, C48_numbers, C48_two_parameters, C48_cosines, C48_cosine_bins, C48_inelastic) or for counts whose required number of words is below 2^32 (the _partial theorems). Findings: C48_*_wrap, C48_*_negative, C48_columns_empty, C48_tabulated_short, C48_kalbach (five columns, three checked), C48_nbody, C48_evaporation_empty."
 },
 "C51": {
  "note": "For the conversions of the model Decimal.std (nearest, ties to even, unbounded exponents: underflow and overflow are not modelled, so the doubles are restricted to zero and the normal range). C51_not_exact shows that the data are in general not returned exactly."
 },
 "C52": {
  "note": "C52_shared: elements of laws 4 and 44 with equal consecutive locators are read from the same words; C52_shared_sig: a SIG block with equal consecutive locators is never accepted (its end is the following locator)."
 },
 "C30": {
  "note": "C30_CE for continuous energy tables of sound blocks; C30_photoatomic, C30_thermal and C30_dosimetry for every table that is made at all; C30_photonuclear for sound blocks. JXS(4) of a photoatomic table is set even when there are no fluorescence data."
 },
 "C53": {
  "note": "The number formats are Decimal.std for C53_made and C53_second (any formats in C53_file). That a table can be made and what its blocks are is C28, C32-C35. The mutable header() and data() of a table are not modelled."
 },
 "C54": {
  "note": "C54_continuous_partial is for blocks that are Clear (see C28): without that the end of a block is searched wrongly, C54_false (witness of C28_false). C54_written shows that the hypotheses hold of every table the library makes from sound blocks. C54_dosimetry, C54_thermal and C54_photoatomic are unconditional; C54_photonuclear_partial is for particle types and numbers of reactions below the locators (see C33: the search for the end of a secondary particle block also looks at those columns; C33_false)."
 },
 "C55": {
  "note": "C55_table_partial: a version 2 header whose second line has fewer than four values is the exception, because the variables it should set are not initialised (C55_false). Version 1 tables are unconditional (C55_version1, C55_body, C55_header). C55_long_date: the date of a version 2 header is a word of any length, and then printing it is undefined. C55_concatenated: reading all tables of a file is never endless, whatever the file contains."
 },
 "C56": {
  "note": "C56_arrays and C56_columns are unconditional. The others, down to the energy laws, several laws and the blocks DLW, DLWH, SIGD, SIGH and SIGP, and the blocks read without a check of their size (NU, BDD, UNR, HPD, electron data: C56_unchecked_partial, C56_electrons_partial), are for moderate words (nearest integers and lengths below 2^30), counts that are not negative and locators in order where the code needs them, in builds with index checks; C56_false, C56_truncated and C56_laws_false show undefined behaviour otherwise."
 },
 "C60": {
  "note": "The statement is false (C60_false); C60_outside_* show for each class that every table with its first locator outside of the XSS array is undefined behaviour. The partial theorems are for tables whose locators are inside and in order and whose blocks are what their readers need, in builds with index checks, for all five classes with all their blocks; complete tables meet their hypotheses (beside the theorems and in Props/C60Case.lean)."
 },
 "C61": {
  "note": "C61_columns and C61_address are for any number formats whose texts fit their fields; C61_printable and C61_word are for Decimal.std and normal doubles."
 },
 "C62": {
  "note": "C62_body, C62_header, C62_header201, C62_table and C62_concatenated are for any number format; C62_number is about Decimal.std. A real in a field has no inner white space. The numbers on the second line of a version 2 header are words, as in the code."
 },
 "C63": {
  "note": "Proved in full for the counts of all five classes and for the indexed members of dosimetry tables and of the particle type members. Partial for the secondary particle members of continuous energy and photonuclear tables, which are documented to throw out_of_range but index a vector without a check (C63_false, C63_photonuclear_false), and for EION of photoatomic tables (C63_photoatomic_false). C63_numbers_*: each number reported is the one at its place in the NXS array."
 },
 "C64": {
  "note": "In full for dosimetry and thermal tables. Missing: two members of continuous energy tables bound to another member, nine members of photoatomic tables (static members bound as properties, members without attribute), one misnamed attribute of photonuclear tables; each is proved wrong (C64_continuous_photons, C64_continuous_particles, C64_photoatomic_static, C64_photoatomic_missing, C64_photonuclear_name, C64_false)."
 },
 "C65": {
  "note": "Properties that refer to blocks are safe in every program; ranges and blocks obtained with an index are safe while the table is kept (C65_while_kept). The full statement is false (C65_range_false, C65_item_false). The rules of pybind11 for returned references are part of the model."
 },
 "C66": {
  "note": "In full for dosimetry tables. Continuous energy, thermal, photoatomic and photonuclear tables under the conditions in which the table has the blocks it was made from (C28, C32, C33, C34); false in general: C66_refused, C66_false, C66_photonuclear_empty. C66_continuous_nuclide_partial takes Z, A and S from the table too; C66_replaced_partial replaces the unresolved resonance block."
 },
 "C67": {
  "note": "All block classes with an index. Partial because of code defects, each with a counterexample: YP with count -1 (C67_yields_minus_one), probability(index) with law 67 (C67_laws_probability), NIEB unchecked without probabilities (C67_NIEB), IXS/IXSU locators unchecked (C67_particle_locators, C67_photonuclear_locators), NTRO.NP checked against the words (C67_particle_reactions). Size products below 2^32 are assumed for arrays."
 },
 "C68": {
  "note": "Partial because of code defects: C68_eighth_ignored (an eighth word that is no number is ignored with everything behind it), C68_eighth_large (record length of 2^32 or more becomes 4294967295), C68_negative (negative numbers wrap). Words like 12abc are outside the spec (WholeNumber/NoNumber). With C68_entry_text the theorems about files (C44) apply to hand-written entries."
 },
 "C69": {
  "note": "Proved for every block class and all data in it (no hypotheses, or a range of at least one word). Partial because the claim is false for empty ranges (C69_empty_range), for hasMT/hasIP/index of MTR, PTYPE and YP (C69_MTR_false, C69_YP_false) and for JINC, JCOH and TRAN, whose number of values is derived from the size (C69_JINC_false, C69_JCOH_false, C69_TRAN_false, for all words)."
 },
 "C70": {
  "note": "Proved for 420 functions (C70_core ... C70_ident, one theorem per group of classes; C70_tables and C70_meaning say it in plain terms). Functions of the release build are those of the model with the #ifndef NDEBUG sections left out (Model/Release.lean, Model/ReleaseBuild.lean). Findings for refused indices: C70_next_array, C70_array_zero, C70_locator; C70_no_element."
 },
 "C71": {
  "note": "Unconditional for dosimetry tables. Partial because of code defects: C71_photonuclear_false (an appended word is taken for the end of the last block of a particle when JXS has no locator behind JXS(10)), C71_photoatomic_false (JINC, JCOH, XPROB sized by the end of XSS), C71_thermal_false and C71_continuous_false (an empty block at the end is read as no values). The hypotheses of the partial theorems exclude exactly these cases."
 },
 "C72": {
  "note": "Partial. Continuous energy: tables without secondary particles (the locators of their blocks are words of XSS, which a move has to change), when the delayed neutron data are before the photon production data (C72_continuous_false otherwise) and the YP and UNR blocks are not empty. Dosimetry: when the reaction numbers are before the cross sections (C72_dosimetry_false otherwise). Thermal scattering: when no block of cross sections is empty (C72_thermal_false otherwise); ITXE stays where it is when IFENG is 2, because its locators count from the first word of XSS. Photoatomic: when nothing is between the scattering functions, the form factors or the transitions and the block of the next locator (C72_photoatomic_false otherwise), and the subshells are before SPHEL; the locators of the electroionisation data are words of XSS and are other words in the other table. Photonuclear: tables without secondary particles, when the principal cross sections are before the reaction numbers (C72_photonuclear_false otherwise)."
 },
 "C73": {
  "note": "The range of words of a block is that of the iterators the table computes from JXS (CE.block, PA.block, PN.block, TS.block, and IXS and IXSU for the particles); C30 and C63 say which words these are. A range that does not exist makes no demand: then the block is the same because the locators are."
 },
 "C74": {
  "note": "The full claim is false (C74_false: the last number 3.25, cut after 3, is read as 3). C74_cut_partial is what holds for fromFile: the same table, or the same except for the words of the last line (Table.CutLine), with the text cut inside of this line. C74_concatenated says the same for concatenated files; that a file cut between two tables gives fewer tables without an error is C74_fewer. Rests on what the model takes from disco: blank columns behind the end of a line, a record at the end of the text is refused."
 },
 "C75": {
  "note": "C75_file and C75_files include errors: the same exception or undefined behaviour. Blanks only, no tabs or carriage returns. Rests on what the model takes from disco: columns behind the end of a line are blank."
 },
 "C76": {
  "note": "C76_table and C76_xsdir: read back after a call that opened the file and wrote everything (with the conditions of C41 and C50 for the numbers). C76_cut_partial: after a call that was cut off the table, a table with a cut last line, or an exception. That failures are reported is false (C76_false, C76_silent), as is that a replaced file has the former or the new content (C76_replace_false). The file system is reduced to contents by name."
 }
}
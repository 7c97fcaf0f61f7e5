{
 "claims": [
  {
   "property": "C01",
   "status": "proved",
   "theorems": [
    "ACE.Props.C01_value_semantics",
    "ACE.Props.C01_exclusive_storage",
    "ACE.Props.C01_no_leak"
   ],
   "note": ""
  },
  {
   "property": "C02",
   "status": "proved",
   "theorems": [
    "ACE.Props.C02_view_reads_table",
    "ACE.Props.C02_copy_is_view",
    "ACE.Props.C02_move_keeps_array",
    "ACE.Props.C02_destroy_dangles"
   ],
   "note": ""
  },
  {
   "property": "C03",
   "status": "partial",
   "theorems": [
    "ACE.Props.C03_element",
    "ACE.Props.C03_element_refused",
    "ACE.Props.C03_range",
    "ACE.Props.C03_range_refused_partial",
    "ACE.Props.C03_range_overrun",
    "ACE.Props.C03_range_refused_false",
    "ACE.Props.C03_integer",
    "ACE.Props.C03_integer_total",
    "ACE.Props.C03_integer_exact"
   ],
   "note": "Element access and every in-range access proved exactly; refusal of ranges is partial because a range one word past the end passes the check (C03_range_overrun, C03_range_refused_false)."
  },
  {
   "property": "C04",
   "status": "partial",
   "theorems": [
    "ACE.Props.C04_element",
    "ACE.Props.C04_integer",
    "ACE.Props.C04_element_refused",
    "ACE.Props.C04_write",
    "ACE.Props.C04_range_partial",
    "ACE.Props.C04_empty_range",
    "ACE.Props.C04_range_overflow"
   ],
   "note": "Element access exact for all six accessors; the range accessor is partial because an empty range at index 1 throws while other empty ranges are accepted (C04_empty_range) and index+length can overflow 64 bits (C04_range_overflow)."
  },
  {
   "property": "C05",
   "status": "proved",
   "theorems": [
    "ACE.Props.C05_accepts",
    "ACE.Props.C05_refuses",
    "ACE.Props.C05_built",
    "ACE.Props.C05_read",
    "ACE.Props.C05_refused_access",
    "ACE.Props.C05_integers",
    "ACE.Props.C05_ESZ",
    "ACE.Props.C05_ESZG",
    "ACE.Props.C05_ESZU4",
    "ACE.Props.C05_ESZU3",
    "ACE.Props.C05_ProbabilityTable",
    "ACE.Props.C05_noFission_zero",
    "ACE.Props.C05_noFission_swapped",
    "ACE.Props.C05_noFission_refused",
    "ACE.Props.C05_JFLO",
    "ACE.Props.C05_single",
    "ACE.Props.C05_pair",
    "ACE.Props.C05_EPS",
    "ACE.Props.C05_SUBSH",
    "ACE.Props.C05_many",
    "ACE.Props.C05_TRAN_lengths",
    "ACE.Props.C05_TRAN"
   ],
   "note": ""
  },
  {
   "property": "C06",
   "status": "proved",
   "theorems": [
    "ACE.Props.C06_accepts",
    "ACE.Props.C06_built",
    "ACE.Props.C06_read",
    "ACE.Props.C06_short",
    "ACE.Props.C06_fractional_count",
    "ACE.Props.C06_ITIE"
   ],
   "note": ""
  },
  {
   "property": "C07",
   "status": "proved",
   "theorems": [
    "ACE.Props.C07_accepts",
    "ACE.Props.C07_built",
    "ACE.Props.C07_read",
    "ACE.Props.C07_interpolation"
   ],
   "note": ""
  },
  {
   "property": "C08",
   "status": "proved",
   "theorems": [
    "ACE.Props.C08_accepts",
    "ACE.Props.C08_roundtrip",
    "ACE.Props.C08_energy",
    "ACE.Props.C08_kalbach",
    "ACE.Props.C08_angular"
   ],
   "note": ""
  },
  {
   "property": "C09",
   "status": "proved",
   "theorems": [
    "ACE.Props.C09_generic",
    "ACE.Props.C09_built",
    "ACE.Props.C09_SIG",
    "ACE.Props.C09_SIGD",
    "ACE.Props.C09_SIGH",
    "ACE.Props.C09_SWD",
    "ACE.Props.C09_XPROB"
   ],
   "note": ""
  },
  {
   "property": "C10",
   "status": "proved",
   "theorems": [
    "ACE.Props.C10_electron",
    "ACE.Props.C10_lengths_array"
   ],
   "note": "All three electron blocks, all sizes; C10_lengths_array records the array accessor that returns the wrong column."
  },
  {
   "property": "C11",
   "status": "proved",
   "theorems": [
    "ACE.Props.C11_law4",
    "ACE.Props.C11_law44",
    "ACE.Props.C11_mismatch"
   ],
   "note": ""
  },
  {
   "property": "C12",
   "status": "proved",
   "theorems": [
    "ACE.Props.C12_law67",
    "ACE.Props.C12_law61"
   ],
   "note": ""
  },
  {
   "property": "C13",
   "status": "partial",
   "theorems": [
    "ACE.Props.C13_partial",
    "ACE.Props.C13_distinct",
    "ACE.Props.C13_law67",
    "ACE.Props.C13_false"
   ],
   "note": "Holds for every kind of data except law 67, which reports 61: the negation is proved with a witness, the rest is C13_partial."
  },
  {
   "property": "C14",
   "status": "proved",
   "theorems": [
    "ACE.Props.C14_roundtrip",
    "ACE.Props.C14_refused"
   ],
   "note": ""
  },
  {
   "property": "C15",
   "status": "proved",
   "theorems": [
    "ACE.Props.C15_secondary",
    "ACE.Props.C15_elastic"
   ],
   "note": ""
  },
  {
   "property": "C16",
   "status": "partial",
   "theorems": [
    "ACE.Props.C16_built_partial",
    "ACE.Props.C16_read_partial",
    "ACE.Props.C16_mismatch",
    "ACE.Props.C16_threshold",
    "ACE.Props.C16_law67",
    "ACE.Props.C16_one_of_several",
    "ACE.Props.C16_hundred"
   ],
   "note": "Proved for every list of reactions whose entries stay clear of the defects proved beside it: law 67 reports 61 (C16_law67), one law wrapped as several is read as a plain law (C16_one_of_several), a tabulated multiplicity is recognised by TYR > 100 so a threshold locator of 100 is lost (C16_hundred, C16_threshold)."
  },
  {
   "property": "C17",
   "status": "partial",
   "theorems": [
    "ACE.Props.C17_built_partial",
    "ACE.Props.C17_read_partial",
    "ACE.Props.C17_undefined_read",
    "ACE.Props.C17_undefined_false",
    "ACE.Props.C17_undefined_after",
    "ACE.Props.C17_few_frames"
   ],
   "note": "Proved for every list of defined distributions; an undefined distribution is never given back as undefined (C17_undefined_false, C17_undefined_after) and too few frames is undefined behaviour (C17_few_frames)."
  },
  {
   "property": "C18",
   "status": "partial",
   "theorems": [
    "ACE.Props.C18_built_partial",
    "ACE.Props.C18_read_partial",
    "ACE.Props.C18_relocated_partial",
    "ACE.Props.C18_terminates",
    "ACE.Props.C18_law67_twice",
    "ACE.Props.C18_nested_not_relocated",
    "ACE.Props.C18_false",
    "ACE.Props.C18_none",
    "ACE.Props.C18_mismatch",
    "ACE.Props.C18_law_number",
    "ACE.Props.C18_law_wraps"
   ],
   "note": "Proved for every list of laws other than 67 without nested relocation; law 67 falls through, nested data are not relocated and an empty list is undefined behaviour: negations proved. Reading terminates on every input (C18_terminates)."
  },
  {
   "property": "C19",
   "status": "proved",
   "theorems": [
    "ACE.Props.C19_accepts",
    "ACE.Props.C19_one",
    "ACE.Props.C19_both",
    "ACE.Props.C19_illegal"
   ],
   "note": "Both directions for every layout of prompt, total and single multiplicity data."
  },
  {
   "property": "C20",
   "status": "partial",
   "theorems": [
    "ACE.Props.C20_built_partial",
    "ACE.Props.C20_read_partial",
    "ACE.Props.C20_frames",
    "ACE.Props.C20_mismatch",
    "ACE.Props.C20_short",
    "ACE.Props.C20_index",
    "ACE.Props.C20_zero_false"
   ],
   "note": "Exact except for multiplicity 0 in the centre of mass frame, which is stored as -0 and read as laboratory (C20_zero_false)."
  },
  {
   "property": "C21",
   "status": "partial",
   "theorems": [
    "ACE.Props.C21_objects",
    "ACE.Props.C21_values",
    "ACE.Props.C21_lookup_partial",
    "ACE.Props.C21_present",
    "ACE.Props.C21_longer_range"
   ],
   "note": "Lookups are exact on ranges that hold just their entries; partial because a reading range longer than its entries is searched as a whole (negation proved beside it)."
  },
  {
   "property": "C22",
   "status": "partial",
   "theorems": [
    "ACE.Props.C22_PTYPE_partial",
    "ACE.Props.C22_PTYPE_present",
    "ACE.Props.C22_PTYPE_longer_range",
    "ACE.Props.C22_YP_values",
    "ACE.Props.C22_YP_partial",
    "ACE.Props.C22_YP_searches_beyond",
    "ACE.Props.C22_YP_empty",
    "ACE.Props.C22_IXSU"
   ],
   "note": "As C21, for the located cross section blocks."
  },
  {
   "property": "C23",
   "status": "proved",
   "theorems": [
    "ACE.Props.C23_BDD",
    "ACE.Props.C23_accepts",
    "ACE.Props.C23_number_lost"
   ],
   "note": "Everything but the group number, which is renumbered by position (C23_number_lost)."
  },
  {
   "property": "C24",
   "status": "partial",
   "theorems": [
    "ACE.Props.C24_equal_partial",
    "ACE.Props.C24_unequal_false",
    "ACE.Props.C24_unequal_overrun",
    "ACE.Props.C24_empty",
    "ACE.Props.C24_absent"
   ],
   "note": "Exact for every rectangular table; unequal numbers of bins are not refused, an overlong range is read, an empty list is undefined behaviour: negations proved."
  },
  {
   "property": "C25",
   "status": "proved",
   "theorems": [
    "ACE.Props.C25_SIGP",
    "ACE.Props.C25_yield_13"
   ],
   "note": "Production data; C25_yield_13 records the unchecked reaction type 13 handling."
  },
  {
   "property": "C26",
   "status": "proved",
   "theorems": [
    "ACE.Props.C26_IXS",
    "ACE.Props.C26_IXSU",
    "ACE.Props.C26_IXSU_refused"
   ],
   "note": ""
  },
  {
   "property": "C27",
   "status": "partial",
   "theorems": [
    "ACE.Props.C27_discrete_partial",
    "ACE.Props.C27_discrete_refuses",
    "ACE.Props.C27_probability_partial",
    "ACE.Props.C27_locators",
    "ACE.Props.C27_unequal_cosines",
    "ACE.Props.C27_empty"
   ],
   "note": "All three modes for every list of entries with a common cosine count; different cosine counts are not refused (C27_unequal_cosines), an empty block is undefined behaviour (C27_empty)."
  },
  {
   "property": "C28",
   "status": "partial",
   "theorems": [
    "ACE.Props.C28_blocks_partial",
    "ACE.Props.C28_built_ESZ",
    "ACE.Props.C28_built_LQR",
    "ACE.Props.C28_built_GPD",
    "ACE.Props.C28_built_MTR",
    "ACE.Props.C28_built_PTYPE",
    "ACE.Props.C28_built_SIG",
    "ACE.Props.C28_built_SIGP",
    "ACE.Props.C28_built_SIGH",
    "ACE.Props.C28_built_AND",
    "ACE.Props.C28_built_ANDP",
    "ACE.Props.C28_built_DLW",
    "ACE.Props.C28_built_DLWH",
    "ACE.Props.C28_built_NU",
    "ACE.Props.C28_built_NU2",
    "ACE.Props.C28_built_BDD",
    "ACE.Props.C28_built_UNR",
    "ACE.Props.C28_built_YP",
    "ACE.Props.C28_built_HPD",
    "ACE.Props.C28_false",
    "ACE.Props.C28_unr_false",
    "ACE.Props.C28_yp_false",
    "ACE.Props.C28_photons_lost",
    "ACE.Props.C28_groups_lost",
    "ACE.Props.C28_types_lost"
   ],
   "note": "For every set of blocks that read back and whose locator ends are found (Clear); C28_false and the cases of C28Cases show tables where the block-end search of the code finds the wrong end."
  },
  {
   "property": "C29",
   "status": "partial",
   "theorems": [
    "ACE.Props.C29_production",
    "ACE.Props.C29_information",
    "ACE.Props.C29_particles_partial",
    "ACE.Props.C29_none_partial",
    "ACE.Props.C29_index",
    "ACE.Props.C29_false"
   ],
   "note": "For every list of secondary particles of a clear set of blocks; C29_index/C29_false: the IXS block is read one word too long and an HPD energy index is taken for a locator."
  },
  {
   "property": "C30",
   "status": "proved",
   "theorems": [
    "ACE.Props.C30_CE",
    "ACE.Props.C30_dosimetry",
    "ACE.Props.C30_thermal",
    "ACE.Props.C30_photonuclear",
    "ACE.Props.C30_photoatomic"
   ],
   "note": "C30_CE for continuous energy tables of sound blocks; C30_photoatomic, C30_thermal and C30_dosimetry for every table that is made at all; C30_photonuclear for sound blocks. JXS(4) of a photoatomic table is set even when there are no fluorescence data."
  },
  {
   "property": "C31",
   "status": "partial",
   "theorems": [
    "ACE.Props.C31_built_DLW",
    "ACE.Props.C31_refused",
    "ACE.Props.C31_matching_partial",
    "ACE.Props.C31_accepted",
    "ACE.Props.C31_sigp",
    "ACE.Props.C31_gpd",
    "ACE.Props.C31_sigh",
    "ACE.Props.C31_false"
   ],
   "note": "Refusals proved for all block sets; C31_sigp, C31_gpd, C31_sigh, C31_false: three counts are not compared."
  },
  {
   "property": "C32",
   "status": "partial",
   "theorems": [
    "ACE.Props.C32_blocks_partial",
    "ACE.Props.C32_built_JINC_fixed",
    "ACE.Props.C32_built_JINC_tabulated",
    "ACE.Props.C32_built_JCOH_fixed",
    "ACE.Props.C32_built_JCOH_tabulated",
    "ACE.Props.C32_built_electron",
    "ACE.Props.C32_built_electrons",
    "ACE.Props.C32_built",
    "ACE.Props.C32_refused",
    "ACE.Props.C32_targets",
    "ACE.Props.C32_lost_electrons",
    "ACE.Props.C32_missing_electrons",
    "ACE.Props.C32_shells",
    "ACE.Props.C32_shell_count",
    "ACE.Props.C32_empty_jflo",
    "ACE.Props.C32_sphel",
    "ACE.Props.C32_false"
   ],
   "note": "For all sound block sets with matching subshell counts; the remaining theorems are the counterexamples (lost or corrupted blocks, undefined behaviour) of the unchecked constructor."
  },
  {
   "property": "C33",
   "status": "partial",
   "theorems": [
    "ACE.Props.C33_blocks_partial",
    "ACE.Props.C33_target_partial",
    "ACE.Props.C33_refused",
    "ACE.Props.C33_built_ESZU3",
    "ACE.Props.C33_built_ESZU4",
    "ACE.Props.C33_built_cross_sections",
    "ACE.Props.C33_type",
    "ACE.Props.C33_outside",
    "ACE.Props.C33_false",
    "ACE.Props.C33_short",
    "ACE.Props.C33_missing",
    "ACE.Props.C33_dropped",
    "ACE.Props.C33_dropped_second",
    "ACE.Props.C33_counts"
   ],
   "note": "For all sound block sets whose types and reaction counts do not look like locators (Small); C33_type, C33_outside, C33_false show the block-end search running into the next particle; C33_short, C33_dropped, C33_counts record unchecked vector sizes and counts."
  },
  {
   "property": "C34",
   "status": "partial",
   "theorems": [
    "ACE.Props.C34_general",
    "ACE.Props.C34_discrete_partial",
    "ACE.Props.C34_probability_partial",
    "ACE.Props.C34_refused",
    "ACE.Props.C34_lost_cosines",
    "ACE.Props.C34_lost_incoherent",
    "ACE.Props.C34_missing_cosines",
    "ACE.Props.C34_targets",
    "ACE.Props.C34_locb",
    "ACE.Props.C34_empty_cosines",
    "ACE.Props.C34_unchecked_cosines",
    "ACE.Props.C34_false"
   ],
   "note": "For all sound block sets in the supported combinations; the remaining theorems are counterexamples of the unchecked constructor."
  },
  {
   "property": "C35",
   "status": "proved",
   "theorems": [
    "ACE.Props.C35_blocks",
    "ACE.Props.C35_refused"
   ],
   "note": ""
  },
  {
   "property": "C36",
   "status": "proved",
   "theorems": [
    "ACE.Props.C36_derive",
    "ACE.Props.C36_derive_szaid",
    "ACE.Props.C36_derive_unphysical",
    "ACE.Props.C36_zaid",
    "ACE.Props.C36_szaid",
    "ACE.Props.C36_stored",
    "ACE.Props.C36_not_a_number",
    "ACE.Props.C36_written",
    "ACE.Props.C36_too_large",
    "ACE.Props.C36_short",
    "ACE.Props.C36_negative_false"
   ],
   "note": ""
  },
  {
   "property": "C37",
   "status": "proved",
   "theorems": [
    "ACE.Props.C37_accepts",
    "ACE.Props.C37_exclusive"
   ],
   "note": ""
  },
  {
   "property": "C38",
   "status": "proved",
   "theorems": [
    "ACE.Props.C38_printed",
    "ACE.Props.C38_round_trip",
    "ACE.Props.C38_trimmed",
    "ACE.Props.C38_again",
    "ACE.Props.C38_lines",
    "ACE.Props.C38_long_zaid",
    "ACE.Props.C38_long_date",
    "ACE.Props.C38_long_material",
    "ACE.Props.C38_long_title",
    "ACE.Props.C38_negative"
   ],
   "note": "Every version 1 header whose strings fit (ZAID, date, material <= 10, title <= 70) is printed in fixed columns and returned; number formatting is a parameter (Formats). Strings that do not fit: undefined behaviour (C38_long_*) or cut (C38_long_title)."
  },
  {
   "property": "C39",
   "status": "partial",
   "theorems": [
    "ACE.Props.C39_printed",
    "ACE.Props.C39_round_trip_partial",
    "ACE.Props.C39_count",
    "ACE.Props.C39_no_date",
    "ACE.Props.C39_false",
    "ACE.Props.C39_two_words",
    "ACE.Props.C39_long_comment",
    "ACE.Props.C39_blank_end",
    "ACE.Props.C39_long_szaid"
   ],
   "note": "Proved for a date that is one word (C39_round_trip_partial). Without a date the count of comments is read as the date and an uninitialised int is used (C39_false, C39_no_date)."
  },
  {
   "property": "C40",
   "status": "proved",
   "theorems": [
    "ACE.Props.C40_printed",
    "ACE.Props.C40_round_trip",
    "ACE.Props.C40_exact",
    "ACE.Props.C40_wrong_count",
    "ACE.Props.C40_ten_digits"
   ],
   "note": "For every content and every XSS length. C40_wrong_count and C40_ten_digits show the hypotheses are needed."
  },
  {
   "property": "C41",
   "status": "proved",
   "theorems": [
    "ACE.Props.C41_table",
    "ACE.Props.C41_concatenated",
    "ACE.Props.C41_first",
    "ACE.Props.C41_ends",
    "ACE.Props.C41_number",
    "ACE.Props.C41_zaid"
   ],
   "note": "For every list of tables; reading any file ends (C41_ends). C41_zaid: the condition on the ZAID is needed."
  },
  {
   "property": "C42",
   "status": "partial",
   "theorems": [
    "ACE.Props.C42_read",
    "ACE.Props.C42_round_trip_partial",
    "ACE.Props.C42_record",
    "ACE.Props.C42_false"
   ],
   "note": "C42_read: what is read from the printed form of every printable entry, on one or several lines, anywhere in a stream. C42_round_trip_partial: equal to the entry when no value is the one that stands for 'not given' and the record length is followed by something. C42_false/C42_record: record length and entries without temperature or ptable are printed but cannot be read."
  },
  {
   "property": "C43",
   "status": "partial",
   "theorems": [
    "ACE.Props.C43_lines_partial",
    "ACE.Props.C43_steps",
    "ACE.Props.C43_short",
    "ACE.Props.C43_endless",
    "ACE.Props.C43_false"
   ],
   "note": "C43_lines_partial for names of at most 95 characters; C43_endless/C43_false: longer names make printing loop forever."
  },
  {
   "property": "C44",
   "status": "partial",
   "theorems": [
    "ACE.Props.C44_entry",
    "ACE.Props.C44_found",
    "ACE.Props.C44_read_partial",
    "ACE.Props.C44_last_line",
    "ACE.Props.C44_no_entry",
    "ACE.Props.C44_blank",
    "ACE.Props.C44_title",
    "ACE.Props.C44_false"
   ],
   "note": "C44_read_partial for every file made of the described lines (entries ending with a newline, no blank line between the directory line and the first entry); C44_entry/C44_found: lookups for every xsdir. C44_last_line, C44_no_entry, C44_blank, C44_title, C44_false: what goes wrong otherwise."
  },
  {
   "property": "C45",
   "status": "partial",
   "theorems": [
    "ACE.Props.C45_entry_partial",
    "ACE.Props.C45_unfinished",
    "ACE.Props.C45_empty",
    "ACE.Props.C45_comment",
    "ACE.Props.C45_false",
    "ACE.Props.C45_file_partial",
    "ACE.Props.C45_not_rewound",
    "ACE.Props.C45_success_failed",
    "ACE.Props.C45_failed_stream",
    "ACE.Props.C45_file_false"
   ],
   "note": "Every terminating read: C45_entry_partial, C45_file_partial. The rest are counterexamples: end of the stream (C45_unfinished, C45_false), undefined behaviour (C45_empty), endless loops (C45_comment, C45_failed_stream), files not rewound (C45_not_rewound, C45_file_false), stream failed after success (C45_success_failed)."
  },
  {
   "property": "C46",
   "status": "proved",
   "theorems": [
    "ACE.Props.C46_jinc_fixed",
    "ACE.Props.C46_jinc_tabulated",
    "ACE.Props.C46_jcoh_fixed",
    "ACE.Props.C46_jcoh_tabulated",
    "ACE.Props.C46_grids",
    "ACE.Props.C46_momenta"
   ],
   "note": ""
  },
  {
   "property": "C47",
   "status": "proved",
   "theorems": [
    "ACE.Props.C47_accepts",
    "ACE.Props.C47_sums",
    "ACE.Props.C47_read"
   ],
   "note": ""
  },
  {
   "property": "C48",
   "status": "partial",
   "theorems": [
    "ACE.Props.C48_arrays_partial",
    "ACE.Props.C48_arrays_wrap",
    "ACE.Props.C48_esz_wrap",
    "ACE.Props.C48_columns_partial",
    "ACE.Props.C48_columns_empty",
    "ACE.Props.C48_tabulated",
    "ACE.Props.C48_tabulated_short",
    "ACE.Props.C48_tabulated_wrap",
    "ACE.Props.C48_cross_sections_partial",
    "ACE.Props.C48_cross_sections_negative",
    "ACE.Props.C48_photon_partial",
    "ACE.Props.C48_photon_wrap",
    "ACE.Props.C48_production_partial",
    "ACE.Props.C48_distribution_partial",
    "ACE.Props.C48_kalbach",
    "ACE.Props.C48_yp_partial",
    "ACE.Props.C48_yp_negative",
    "ACE.Props.C48_locators_partial",
    "ACE.Props.C48_photonuclear_locators_partial",
    "ACE.Props.C48_numbers",
    "ACE.Props.C48_polynomial_partial",
    "ACE.Props.C48_polynomial_negative",
    "ACE.Props.C48_located",
    "ACE.Props.C48_evaporation_partial",
    "ACE.Props.C48_evaporation_empty",
    "ACE.Props.C48_nbody",
    "ACE.Props.C48_two_parameters",
    "ACE.Props.C48_watt_partial",
    "ACE.Props.C48_general_partial",
    "ACE.Props.C48_by_energy",
    "ACE.Props.C48_angular",
    "ACE.Props.C48_bins",
    "ACE.Props.C48_cosine_bins",
    "ACE.Props.C48_cosines",
    "ACE.Props.C48_inelastic",
    "ACE.Props.C48_inelastic_wrap",
    "ACE.Props.C48_false"
   ],
   "note": "False as stated (C48_false): the checks compute in unsigned int. Proved for each class either with no hypothesis on the words (C48_tabulated, C48_by_energy, C48_angular, C48_bins, C48_located, C48_numbers, C48_two_parameters, C48_cosines, C48_cosine_bins, C48_inelastic) or for counts whose required number of words is below 2^32 (the _partial theorems). Findings: C48_*_wrap, C48_*_negative, C48_columns_empty, C48_tabulated_short, C48_kalbach (five columns, three checked), C48_nbody, C48_evaporation_empty."
  },
  {
   "property": "C49",
   "status": "proved",
   "theorems": [
    "ACE.Props.C49_bins",
    "ACE.Props.C49_built",
    "ACE.Props.C49_read",
    "ACE.Props.C49_unknown",
    "ACE.Props.C49_photon"
   ],
   "note": ""
  },
  {
   "property": "C50",
   "status": "proved",
   "theorems": [
    "ACE.Props.C50_round_trip",
    "ACE.Props.C50_lines",
    "ACE.Props.C50_no_entries",
    "ACE.Props.C50_long_za"
   ],
   "note": "For every xsdir with at least one printable entry and ZA numbers of at most seven digits; C50_no_entries and C50_long_za show the hypotheses are needed."
  },
  {
   "property": "C51",
   "status": "proved",
   "theorems": [
    "ACE.Props.C51_word",
    "ACE.Props.C51_temperature",
    "ACE.Props.C51_awr",
    "ACE.Props.C51_aw",
    "ACE.Props.C51_integer",
    "ACE.Props.C51_table",
    "ACE.Props.C51_integers",
    "ACE.Props.C51_nearest",
    "ACE.Props.C51_not_exact"
   ],
   "note": "For the conversions of the model Decimal.std (nearest, ties to even, unbounded exponents: underflow and overflow are not modelled, so the doubles are restricted to zero and the normal range). C51_not_exact shows that the data are in general not returned exactly."
  },
  {
   "property": "C52",
   "status": "proved",
   "theorems": [
    "ACE.Props.C52_by_energy",
    "ACE.Props.C52_angle_energy",
    "ACE.Props.C52_energy_angle",
    "ACE.Props.C52_located",
    "ACE.Props.C52_angular",
    "ACE.Props.C52_angular_block",
    "ACE.Props.C52_energy_block",
    "ACE.Props.C52_shared",
    "ACE.Props.C52_shared_sig"
   ],
   "note": "C52_shared: elements of laws 4 and 44 with equal consecutive locators are read from the same words; C52_shared_sig: a SIG block with equal consecutive locators is never accepted (its end is the following locator)."
  },
  {
   "property": "C53",
   "status": "proved",
   "theorems": [
    "ACE.Props.C53_copy",
    "ACE.Props.C53_file",
    "ACE.Props.C53_made_regular",
    "ACE.Props.C53_exact_integer",
    "ACE.Props.C53_exact_read",
    "ACE.Props.C53_exact_aw",
    "ACE.Props.C53_header",
    "ACE.Props.C53_made",
    "ACE.Props.C53_same",
    "ACE.Props.C53_second"
   ],
   "note": "The number formats are Decimal.std for C53_made and C53_second (any formats in C53_file). That a table can be made and what its blocks are is C28, C32-C35. The mutable header() and data() of a table are not modelled."
  },
  {
   "property": "C54",
   "status": "partial",
   "theorems": [
    "ACE.Props.C54_continuous_partial",
    "ACE.Props.C54_written",
    "ACE.Props.C54_false",
    "ACE.Props.C54_dosimetry",
    "ACE.Props.C54_dosimetry_written",
    "ACE.Props.C54_thermal",
    "ACE.Props.C54_thermal_written",
    "ACE.Props.C54_photoatomic",
    "ACE.Props.C54_photoatomic_written",
    "ACE.Props.C54_photonuclear_partial",
    "ACE.Props.C54_photonuclear_written"
   ],
   "note": "C54_continuous_partial is for blocks that are Clear (see C28): without that the end of a block is searched wrongly, C54_false (witness of C28_false). C54_written shows that the hypotheses hold of every table the library makes from sound blocks. C54_dosimetry, C54_thermal and C54_photoatomic are unconditional; C54_photonuclear_partial is for particle types and numbers of reactions below the locators (see C33: the search for the end of a secondary particle block also looks at those columns; C33_false)."
  },
  {
   "property": "C55",
   "status": "partial",
   "theorems": [
    "ACE.Props.C55_body",
    "ACE.Props.C55_integers",
    "ACE.Props.C55_header",
    "ACE.Props.C55_header201_partial",
    "ACE.Props.C55_table_partial",
    "ACE.Props.C55_version1",
    "ACE.Props.C55_concatenated",
    "ACE.Props.C55_printed",
    "ACE.Props.C55_false",
    "ACE.Props.C55_long_date"
   ],
   "note": "C55_table_partial: a version 2 header whose second line has fewer than four values is the exception, because the variables it should set are not initialised (C55_false). Version 1 tables are unconditional (C55_version1, C55_body, C55_header). C55_long_date: the date of a version 2 header is a word of any length, and then printing it is undefined. C55_concatenated: reading all tables of a file is never endless, whatever the file contains."
  },
  {
   "property": "C56",
   "status": "partial",
   "theorems": [
    "ACE.Props.C56_arrays",
    "ACE.Props.C56_counted_partial",
    "ACE.Props.C56_columns",
    "ACE.Props.C56_tabulated_partial",
    "ACE.Props.C56_distributions_partial",
    "ACE.Props.C56_angular_partial",
    "ACE.Props.C56_angular_block_partial",
    "ACE.Props.C56_blocks_partial",
    "ACE.Props.C56_false",
    "ACE.Props.C56_truncated",
    "ACE.Props.C56_cosines_partial",
    "ACE.Props.C56_laws_partial",
    "ACE.Props.C56_law_partial",
    "ACE.Props.C56_reaction_partial",
    "ACE.Props.C56_several_laws_partial",
    "ACE.Props.C56_energy_data_partial",
    "ACE.Props.C56_DLW_partial",
    "ACE.Props.C56_DLWH_partial",
    "ACE.Props.C56_tables_partial",
    "ACE.Props.C56_laws_false",
    "ACE.Props.C56_unchecked_partial",
    "ACE.Props.C56_electrons_partial"
   ],
   "note": "C56_arrays and C56_columns are unconditional. The others, down to the energy laws, several laws and the blocks DLW, DLWH, SIGD, SIGH and SIGP, and the blocks read without a check of their size (NU, BDD, UNR, HPD, electron data: C56_unchecked_partial, C56_electrons_partial), are for moderate words (nearest integers and lengths below 2^30), counts that are not negative and locators in order where the code needs them, in builds with index checks; C56_false, C56_truncated and C56_laws_false show undefined behaviour otherwise."
  },
  {
   "property": "C57",
   "status": "proved",
   "theorems": [
    "ACE.Props.C57_content",
    "ACE.Props.C57_outcome",
    "ACE.Props.C57_values"
   ],
   "note": ""
  },
  {
   "property": "C58",
   "status": "proved",
   "theorems": [
    "ACE.Props.C58_file",
    "ACE.Props.C58_steady",
    "ACE.Props.C58_made",
    "ACE.Props.C58_unsteady"
   ],
   "note": ""
  },
  {
   "property": "C59",
   "status": "proved",
   "theorems": [
    "ACE.Props.C59_value_semantics",
    "ACE.Props.C59_all_words",
    "ACE.Props.C59_write_seen",
    "ACE.Props.C59_others_unchanged",
    "ACE.Props.C59_copy_is_fresh",
    "ACE.Props.C59_blocks_stay"
   ],
   "note": ""
  },
  {
   "property": "C60",
   "status": "partial",
   "theorems": [
    "ACE.Props.C60_dosimetry_partial",
    "ACE.Props.C60_photoatomic_partial",
    "ACE.Props.C60_thermal_partial",
    "ACE.Props.C60_outside_dosimetry",
    "ACE.Props.C60_outside_photoatomic",
    "ACE.Props.C60_outside_photonuclear",
    "ACE.Props.C60_outside_thermal",
    "ACE.Props.C60_outside_continuous",
    "ACE.Props.C60_false",
    "ACE.Props.C60_continuous_partial",
    "ACE.Props.C60_photonuclear_partial"
   ],
   "note": "The statement is false (C60_false); C60_outside_* show for each class that every table with its first locator outside of the XSS array is undefined behaviour. The partial theorems are for tables whose locators are inside and in order and whose blocks are what their readers need, in builds with index checks, for all five classes with all their blocks; complete tables meet their hypotheses (beside the theorems and in Props/C60Case.lean)."
  },
  {
   "property": "C61",
   "status": "proved",
   "theorems": [
    "ACE.Props.C61_body",
    "ACE.Props.C61_columns",
    "ACE.Props.C61_address",
    "ACE.Props.C61_printable",
    "ACE.Props.C61_word"
   ],
   "note": "C61_columns and C61_address are for any number formats whose texts fit their fields; C61_printable and C61_word are for Decimal.std and normal doubles."
  },
  {
   "property": "C62",
   "status": "proved",
   "theorems": [
    "ACE.Props.C62_body",
    "ACE.Props.C62_number",
    "ACE.Props.C62_header",
    "ACE.Props.C62_header201",
    "ACE.Props.C62_table",
    "ACE.Props.C62_concatenated"
   ],
   "note": "C62_body, C62_header, C62_header201, C62_table and C62_concatenated are for any number format; C62_number is about Decimal.std. A real in a field has no inner white space. The numbers on the second line of a version 2 header are words, as in the code."
  },
  {
   "property": "C63",
   "status": "partial",
   "theorems": [
    "ACE.Props.C63_continuous_partial",
    "ACE.Props.C63_continuous_particles",
    "ACE.Props.C63_dosimetry",
    "ACE.Props.C63_photonuclear_partial",
    "ACE.Props.C63_photoatomic_partial",
    "ACE.Props.C63_thermal",
    "ACE.Props.C63_false",
    "ACE.Props.C63_photonuclear_false",
    "ACE.Props.C63_photoatomic_false",
    "ACE.Props.C63_numbers_continuous",
    "ACE.Props.C63_numbers_dosimetry",
    "ACE.Props.C63_numbers_photoatomic",
    "ACE.Props.C63_numbers_photonuclear",
    "ACE.Props.C63_numbers_thermal",
    "ACE.Props.C63_numbers_thermal_signed"
   ],
   "note": "Proved in full for the counts of all five classes and for the indexed members of dosimetry tables and of the particle type members. Partial for the secondary particle members of continuous energy and photonuclear tables, which are documented to throw out_of_range but index a vector without a check (C63_false, C63_photonuclear_false), and for EION of photoatomic tables (C63_photoatomic_false). C63_numbers_*: each number reported is the one at its place in the NXS array."
  },
  {
   "property": "C64",
   "status": "partial",
   "theorems": [
    "ACE.Props.C64_dosimetry",
    "ACE.Props.C64_thermal",
    "ACE.Props.C64_continuous_partial",
    "ACE.Props.C64_photoatomic_partial",
    "ACE.Props.C64_photonuclear_partial",
    "ACE.Props.C64_manual",
    "ACE.Props.C64_nothing_else",
    "ACE.Props.C64_continuous_photons",
    "ACE.Props.C64_continuous_particles",
    "ACE.Props.C64_photoatomic_static",
    "ACE.Props.C64_photoatomic_missing",
    "ACE.Props.C64_photonuclear_name",
    "ACE.Props.C64_false",
    "ACE.Props.C64_python_index"
   ],
   "note": "In full for dosimetry and thermal tables. Missing: two members of continuous energy tables bound to another member, nine members of photoatomic tables (static members bound as properties, members without attribute), one misnamed attribute of photonuclear tables; each is proved wrong (C64_continuous_photons, C64_continuous_particles, C64_photoatomic_static, C64_photoatomic_missing, C64_photonuclear_name, C64_false)."
  },
  {
   "property": "C65",
   "status": "partial",
   "theorems": [
    "ACE.Props.C65_parts_partial",
    "ACE.Props.C65_owners_kept_partial",
    "ACE.Props.C65_while_kept",
    "ACE.Props.C65_range_false",
    "ACE.Props.C65_item_false",
    "ACE.Props.C65_false"
   ],
   "note": "Properties that refer to blocks are safe in every program; ranges and blocks obtained with an index are safe while the table is kept (C65_while_kept). The full statement is false (C65_range_false, C65_item_false). The rules of pybind11 for returned references are part of the model."
  },
  {
   "property": "C66",
   "status": "partial",
   "theorems": [
    "ACE.Props.C66_continuous_partial",
    "ACE.Props.C66_continuous_nuclide_partial",
    "ACE.Props.C66_refused",
    "ACE.Props.C66_false",
    "ACE.Props.C66_replaced_partial",
    "ACE.Props.C66_dosimetry",
    "ACE.Props.C66_thermal_discrete_partial",
    "ACE.Props.C66_thermal_probability_partial",
    "ACE.Props.C66_photoatomic_partial",
    "ACE.Props.C66_photonuclear_partial",
    "ACE.Props.C66_photonuclear_empty"
   ],
   "note": "In full for dosimetry tables. Continuous energy, thermal, photoatomic and photonuclear tables under the conditions in which the table has the blocks it was made from (C28, C32, C33, C34); false in general: C66_refused, C66_false, C66_photonuclear_empty. C66_continuous_nuclide_partial takes Z, A and S from the table too; C66_replaced_partial replaces the unresolved resonance block."
  },
  {
   "property": "C67",
   "status": "partial",
   "theorems": [
    "ACE.Props.C67_arrays",
    "ACE.Props.C67_reaction_numbers",
    "ACE.Props.C67_shells",
    "ACE.Props.C67_by_array",
    "ACE.Props.C67_transitions",
    "ACE.Props.C67_electroionisation",
    "ACE.Props.C67_yields_partial",
    "ACE.Props.C67_yields_minus_one",
    "ACE.Props.C67_locators",
    "ACE.Props.C67_cross_sections",
    "ACE.Props.C67_angular_block",
    "ACE.Props.C67_distributions",
    "ACE.Props.C67_angle_energy",
    "ACE.Props.C67_energy_angle",
    "ACE.Props.C67_angular_data",
    "ACE.Props.C67_bins",
    "ACE.Props.C67_frames",
    "ACE.Props.C67_energy_block",
    "ACE.Props.C67_secondary_block",
    "ACE.Props.C67_groups",
    "ACE.Props.C67_tables",
    "ACE.Props.C67_electron_block",
    "ACE.Props.C67_laws_partial",
    "ACE.Props.C67_laws_probability",
    "ACE.Props.C67_cosines_partial",
    "ACE.Props.C67_NIEB",
    "ACE.Props.C67_particle_locators",
    "ACE.Props.C67_photonuclear_locators",
    "ACE.Props.C67_particle_reactions"
   ],
   "note": "All block classes with an index. Partial because of code defects, each with a counterexample: YP with count -1 (C67_yields_minus_one), probability(index) with law 67 (C67_laws_probability), NIEB unchecked without probabilities (C67_NIEB), IXS/IXSU locators unchecked (C67_particle_locators, C67_photonuclear_locators), NTRO.NP checked against the words (C67_particle_reactions). Size products below 2^32 are assumed for arrays."
  },
  {
   "property": "C68",
   "status": "partial",
   "theorems": [
    "ACE.Props.C68_seven",
    "ACE.Props.C68_ten",
    "ACE.Props.C68_ptable",
    "ACE.Props.C68_other_word",
    "ACE.Props.C68_incomplete_partial",
    "ACE.Props.C68_short",
    "ACE.Props.C68_numbers_partial",
    "ACE.Props.C68_eighth_ignored",
    "ACE.Props.C68_eighth_large",
    "ACE.Props.C68_negative",
    "ACE.Props.C68_entry_text"
   ],
   "note": "Partial because of code defects: C68_eighth_ignored (an eighth word that is no number is ignored with everything behind it), C68_eighth_large (record length of 2^32 or more becomes 4294967295), C68_negative (negative numbers wrap). Words like 12abc are outside the spec (WholeNumber/NoNumber). With C68_entry_text the theorems about files (C44) apply to hand-written entries."
  },
  {
   "property": "C69",
   "status": "partial",
   "theorems": [
    "ACE.Props.C69_arrays_partial",
    "ACE.Props.C69_columns_partial",
    "ACE.Props.C69_tabulated",
    "ACE.Props.C69_secondary",
    "ACE.Props.C69_YP_partial",
    "ACE.Props.C69_located",
    "ACE.Props.C69_electrons",
    "ACE.Props.C69_angular",
    "ACE.Props.C69_laws",
    "ACE.Props.C69_energyData",
    "ACE.Props.C69_energyBlocks",
    "ACE.Props.C69_fission",
    "ACE.Props.C69_UNR_partial",
    "ACE.Props.C69_thermal",
    "ACE.Props.C69_empty_range",
    "ACE.Props.C69_MTR_false",
    "ACE.Props.C69_YP_false",
    "ACE.Props.C69_JINC_false",
    "ACE.Props.C69_JCOH_false",
    "ACE.Props.C69_TRAN_false"
   ],
   "note": "Proved for every block class and all data in it (no hypotheses, or a range of at least one word). Partial because the claim is false for empty ranges (C69_empty_range), for hasMT/hasIP/index of MTR, PTYPE and YP (C69_MTR_false, C69_YP_false) and for JINC, JCOH and TRAN, whose number of values is derived from the size (C69_JINC_false, C69_JCOH_false, C69_TRAN_false, for all words)."
  },
  {
   "property": "C70",
   "status": "proved",
   "theorems": [
    "ACE.Props.C70_meaning",
    "ACE.Props.C70_tables",
    "ACE.Props.C70_next_array",
    "ACE.Props.C70_array_zero",
    "ACE.Props.C70_locator",
    "ACE.Props.C70_no_element",
    "ACE.Props.C70_core",
    "ACE.Props.C70_arrays",
    "ACE.Props.C70_array_blocks",
    "ACE.Props.C70_tables_of_values",
    "ACE.Props.C70_data",
    "ACE.Props.C70_print",
    "ACE.Props.C70_format_blocks",
    "ACE.Props.C70_lookup",
    "ACE.Props.C70_located",
    "ACE.Props.C70_distributions",
    "ACE.Props.C70_angular",
    "ACE.Props.C70_laws",
    "ACE.Props.C70_energy_blocks",
    "ACE.Props.C70_fission",
    "ACE.Props.C70_thermal",
    "ACE.Props.C70_secondary",
    "ACE.Props.C70_continuous",
    "ACE.Props.C70_dosimetry",
    "ACE.Props.C70_thermal_table",
    "ACE.Props.C70_photoatomic",
    "ACE.Props.C70_photonuclear",
    "ACE.Props.C70_members",
    "ACE.Props.C70_typed",
    "ACE.Props.C70_ident"
   ],
   "note": "Proved for 420 functions (C70_core ... C70_ident, one theorem per group of classes; C70_tables and C70_meaning say it in plain terms). Functions of the release build are those of the model with the #ifndef NDEBUG sections left out (Model/Release.lean, Model/ReleaseBuild.lean). Findings for refused indices: C70_next_array, C70_array_zero, C70_locator; C70_no_element."
  },
  {
   "property": "C71",
   "status": "partial",
   "theorems": [
    "ACE.Props.C71_dosimetry",
    "ACE.Props.C71_thermal_partial",
    "ACE.Props.C71_continuous_partial",
    "ACE.Props.C71_photonuclear_partial",
    "ACE.Props.C71_photoatomic_partial",
    "ACE.Props.C71_photonuclear_false",
    "ACE.Props.C71_photoatomic_false",
    "ACE.Props.C71_thermal_false",
    "ACE.Props.C71_continuous_false"
   ],
   "note": "Unconditional for dosimetry tables. Partial because of code defects: C71_photonuclear_false (an appended word is taken for the end of the last block of a particle when JXS has no locator behind JXS(10)), C71_photoatomic_false (JINC, JCOH, XPROB sized by the end of XSS), C71_thermal_false and C71_continuous_false (an empty block at the end is read as no values). The hypotheses of the partial theorems exclude exactly these cases."
  },
  {
   "property": "C72",
   "status": "partial",
   "theorems": [
    "ACE.Props.C72_continuous_partial",
    "ACE.Props.C72_dosimetry_partial",
    "ACE.Props.C72_thermal_partial",
    "ACE.Props.C72_photoatomic_partial",
    "ACE.Props.C72_photonuclear_partial",
    "ACE.Props.C72_dosimetry_false",
    "ACE.Props.C72_continuous_false",
    "ACE.Props.C72_thermal_false",
    "ACE.Props.C72_photoatomic_false",
    "ACE.Props.C72_photonuclear_false"
   ],
   "note": "Partial. Continuous energy: tables without secondary particles (the locators of their blocks are words of XSS, which a move has to change), when the delayed neutron data are before the photon production data (C72_continuous_false otherwise) and the YP and UNR blocks are not empty. Dosimetry: when the reaction numbers are before the cross sections (C72_dosimetry_false otherwise). Thermal scattering: when no block of cross sections is empty (C72_thermal_false otherwise); ITXE stays where it is when IFENG is 2, because its locators count from the first word of XSS. Photoatomic: when nothing is between the scattering functions, the form factors or the transitions and the block of the next locator (C72_photoatomic_false otherwise), and the subshells are before SPHEL; the locators of the electroionisation data are words of XSS and are other words in the other table. Photonuclear: tables without secondary particles, when the principal cross sections are before the reaction numbers (C72_photonuclear_false otherwise)."
  },
  {
   "property": "C73",
   "status": "proved",
   "theorems": [
    "ACE.Props.C73_edit",
    "ACE.Props.C73_continuous",
    "ACE.Props.C73_continuous_particles",
    "ACE.Props.C73_photonuclear",
    "ACE.Props.C73_photonuclear_particles",
    "ACE.Props.C73_photoatomic",
    "ACE.Props.C73_dosimetry",
    "ACE.Props.C73_thermal"
   ],
   "note": "The range of words of a block is that of the iterators the table computes from JXS (CE.block, PA.block, PN.block, TS.block, and IXS and IXSU for the particles); C30 and C63 say which words these are. A range that does not exist makes no demand: then the block is the same because the locators are."
  },
  {
   "property": "C74",
   "status": "partial",
   "theorems": [
    "ACE.Props.C74_cut_partial",
    "ACE.Props.C74_lines",
    "ACE.Props.C74_tables",
    "ACE.Props.C74_concatenated",
    "ACE.Props.C74_false",
    "ACE.Props.C74_lost",
    "ACE.Props.C74_fewer"
   ],
   "note": "The full claim is false (C74_false: the last number 3.25, cut after 3, is read as 3). C74_cut_partial is what holds for fromFile: the same table, or the same except for the words of the last line (Table.CutLine), with the text cut inside of this line. C74_concatenated says the same for concatenated files; that a file cut between two tables gives fewer tables without an error is C74_fewer. Rests on what the model takes from disco: blank columns behind the end of a line, a record at the end of the text is refused."
  },
  {
   "property": "C75",
   "status": "proved",
   "theorems": [
    "ACE.Props.C75_file",
    "ACE.Props.C75_files",
    "ACE.Props.C75_rest",
    "ACE.Props.C75_lines",
    "ACE.Props.C75_last",
    "ACE.Props.C75_newline",
    "ACE.Props.C75_blanks",
    "ACE.Props.C75_append",
    "ACE.Props.C75_first",
    "ACE.Props.C75_empty_line"
   ],
   "note": "C75_file and C75_files include errors: the same exception or undefined behaviour. Blanks only, no tabs or carriage returns. Rests on what the model takes from disco: columns behind the end of a line are blank."
  },
  {
   "property": "C76",
   "status": "partial",
   "theorems": [
    "ACE.Props.C76_history",
    "ACE.Props.C76_content",
    "ACE.Props.C76_table",
    "ACE.Props.C76_cut_partial",
    "ACE.Props.C76_lost",
    "ACE.Props.C76_missing",
    "ACE.Props.C76_typed_files",
    "ACE.Props.C76_xsdir",
    "ACE.Props.C76_silent",
    "ACE.Props.C76_false",
    "ACE.Props.C76_replace_false",
    "ACE.Props.C76_xsdir_cut"
   ],
   "note": "C76_table and C76_xsdir: read back after a call that opened the file and wrote everything (with the conditions of C41 and C50 for the numbers). C76_cut_partial: after a call that was cut off the table, a table with a cut last line, or an exception. That failures are reported is false (C76_false, C76_silent), as is that a replaced file has the former or the new content (C76_replace_false). The file system is reduced to contents by name."
  }
 ]
}
# A Lean 4 model of njoy/ACEtk

Contents: 1 what is modelled and how; 2 trusted base; 3 what is not modelled; 4 plan and result per
property; 5 findings (defects of the code that the proofs exposed); 6 how the theorems are tested.

## 1. What is modelled and how

ACEtk turns lists of numbers into the blocks of an ACE file and back. Every block object is a name, a range
of `double`s (its words) and sub-objects that are ranges inside that range. The logic is therefore

* *encoders* (`generateXSS`, `generateData`): values -> words, with locators that are running sums;
* *decoders* (`generateBlocks`, `block(index)`, accessors): words -> values;
* *ownership* (copy/move of `Base`): which storage a range points into;
* the *text layer* (header/data/xsdir printing and parsing).

The model follows that structure, function by function. Every definition cites the file and lines it models
and names its simplifications.

| module (`lean/Verif/Model/`) | content |
|---|---|
| `Core` | doubles, outcomes, integer conversions, `Base` accessors |
| `Memory` | storage, copy/move/assign/destroy histories of `Base` |
| `Arrays`, `TabDist`, `ArrayBlocks`, `FormatBlocks` | `base::ArrayData`, `ColumnData`, `TabulatedData`, `TabulatedProbability`..., and the classes that are one of these (ESZ, ESZG, ESZU, ESZE, JINC, JCOH, LQR, EPS, SUBSH, ...) |
| `Located` | `base::BlockWithLocators` (SIG, SIGH, SIGP, SIGD, XPROB, SWD), electron blocks (ELAS, EION, BREME) |
| `Lookup` | MTR, PTYPE, YP, IXS, IXSU |
| `Distribution`, `Sort`, `Angular` | distribution tables (laws 4, 44, 61, 67), `std::sort`, AND/ANDP/ANDH |
| `EnergyData`, `EnergyBlock` | the thirteen energy laws, several laws in one, TYR, DLW, DLWH/DLWP/DNED |
| `Fission`, `Thermal`, `Secondary` | NU/DNU/BDD/UNR, ITIE/ITXE/ITCA, HPD/NTRO |
| `Ident`, `TableData` | `verifyType`, `setSZA`, `Table::Data` accessors |
| `Continuous`, `Dosimetry`, `ThermalTable`, `Photoatomic`, `Photonuclear` | `generateData` and `generateBlocks` of the five table classes |
| `Text`, `Decimal`, `Header`, `TableText` | columns, number formats, the two headers, table text, concatenated files |
| `Stream`, `XsdirEntry`, `Xsdir` | `std::istream`, xsdir entries and files |
| `ReleaseBuild`, `Release` | the same program compiled with `NDEBUG`: the functions with an `#ifndef NDEBUG` section written without it; the command `release_build` makes all other functions by replacing the calls (a new term the kernel checks; it refuses a function with a check of its own) |

`Verif/Lemmas/*` are helper lemmas; `Verif/Props/Cnn*.lean` hold the property theorems `ACE.Props.Cnn_...`
with a small specification (`Sound`, `Clear`, `Fits`, `Reads`, ... written with lists and numbers, not with
model helpers) and a concrete `example` for the hypotheses of each.

### Outcomes

A C++ function becomes a Lean function into `Res a = Except Err a` with

* `Err.thrown` - an exception in every build;
* `Err.range`  - an index check (`verifyIndex`) fails: `std::out_of_range` when `NDEBUG` is not defined;
  what happens when it is defined is the subject of C70;
* `Err.ub`     - undefined behaviour in every build (an iterator outside of the range of the block, `front()`
  of an empty vector, a `double` -> `int` conversion that does not fit, ...);
* `Err.endless` - the loop never ends.

A theorem that says `= .ok v` therefore also says: no exception, no undefined behaviour, terminates.

### Doubles

`Dbl` is `(-1)^s * m * 2^e`, an infinity or a NaN. The code never computes with the words it stores (one
exception, the ESZE sums, takes the addition as a parameter, so the theorems hold for every addition); it
converts integers to words (`static_cast<double>`), converts words to `int` (`std::round` then cast, or a
truncating cast) and compares. These conversions are defined on `Dbl`. `static_cast<double>(n)` is modelled
as exact, which is what IEEE-754 gives for |n| <= 2^53.

### Integers

`std::size_t` values are natural numbers; where the code converts a negative `int` to `std::size_t` or
`unsigned int` the conversion is modelled modulo 2^64 / 2^32 (`sizeOfInt`, `u32OfInt`). `int` results of
`IXSS` are checked against the 32-bit range (outside: undefined). The size checks, whose products are
`unsigned int` arithmetic, wrap around at 2^32 in the model as in the code. Other index arithmetic on
`std::size_t` is not reduced modulo 2^64 (each such place is marked "Simplification").

### `std::sort`

A parameter (`StdSort`): any function that returns a sorted permutation. Theorems hold for all of them.

### Text

Strings are lists of characters. disco (fixed column records) and the standard streams are not in /repo: the
model states what they do (`Model/Text.lean`, `Model/Stream.lean`). The formatting of reals is a parameter
(`Formats`): the round trip theorems C38-C44, C50 are about every way of writing reals whose output fits its
column and is read back as a stated value; `Model/Decimal.lean` gives the usual one (`%.12E`, `strtod`, round
to nearest even), and `Props/C51.lean` proves that it meets these conditions.

## 2. Trusted base

* Lean 4.33.0's kernel. No `native_decide`, `bv_decide`, `implemented_by`, `unsafe`, and no axioms of our own.
* Axioms: every theorem in MANIFEST.json depends at most on `propext`, `Quot.sound` and `Classical.choice`
  (Lean's standard three). `AXIOMS.md` (generated by `tools/axioms.py` from `#print axioms`) lists them per
  theorem.
* The correspondence of the model with /repo, by reading: every definition cites the lines it models. Nothing
  was compiled or run.
* The assumptions about what is not in /repo: C++ language rules (conversions, `std::vector`, `std::optional`,
  `std::variant`, `std::sort`), disco, iostreams, range-v3/`views` (a range is a list of its elements).

## 3. What is not modelled

* Log messages, exception texts, `State.lineNumber`; the Python bindings of the block classes (those of
  the table classes are modelled for C64, the life of the objects for C65; pybind11 itself is not in /repo, its rules
  are written down in `Model/PyLife.lean`).
* Default constructed, empty blocks (the `ACEtk` classes have them for python only), with the exception of the
  moved-from `Base` in `Memory`.
* `src/legacy` (43 files), which no source or CMake target of this commit includes.
* Allocation failure, sizes above 2^53, aliasing of caller's iterators other than what `Memory` has.
* `interpretation` of data (no physics): sampling, `depletion` views and the `interpolate` of `Xsdir` do not
  exist at this commit.
* The file system, except for contents by name (`Model/Files.lean`): no directories, permissions or links; opening a
  file for writing can be refused, and writing can stop anywhere.
* Floating point formatting inside disco: a parameter, see "Text".
* Range of binary exponents in `Decimal`: nothing underflows or overflows.
* `Table::Data` copy/move (a plain aggregate of arrays), and copy/move of tables: C01 and C02 cover `Base`,
  which every block is built on; that every composite class regenerates its sub-blocks for the new owner in all
  of its copy and move operations was checked by reading (`*/src/ctor.hpp` of each class).

## 4. Per property: model and proof

Status and exact theorem names are in MANIFEST.json; below is the method.

| id | method |
|---|---|
| C01, C02 | heap model with object histories (construct, copy, move, assign, destroy in any order): invariant by induction over the list of operations |
| C03, C04 | direct characterisation of the accessors for all indices and lengths |
| C05-C08 | encode/decode round trips over lists of any length, arbitrary trailing words, refusals of unequal lengths |
| C09, C10 | induction over the locator loop: the k-th locator is a running sum, decoders recover each slice |
| C11, C12 | the same for distribution tables at every base location, and the relocation theorem for nested tables |
| C13 | case analysis over all kinds of data |
| C14, C15 | locator induction with three kinds of entries, for every `StdSort` |
| C16-C18 | locator induction over (distribution, multiplicity) lists; negations for the defects |
| C19-C27 | round trips built from the previous layers; lookups by induction over the list searched |
| C28-C35 | (C30: also `C30Tables.lean` for the other table types) the XSS array of `generateData` as an append of blocks, `block(index)` as a search over JXS/IXS, for every combination of optional blocks |
| C36 | termination and inversion of the MCNP encoding of S, Z, A; the written forms of a ZAID (`ZaidText`); finding: a negative number is not refused |
| C37 | case analysis over characters |
| C38-C41 | columns by `take`/`drop`; induction over lines, words and tables |
| C42-C45, C50 | token level model of `operator>>`/`<<`; loops with fuel and a theorem that the fuel suffices or that the loop is endless |
| C46, C47 | arithmetic over all sizes; folds for every addition |
| C48 | for every class: what the size check accepts, all accessors read inside the range (or the counterexample) |
| C49 | case analysis over the laws, from the round trips of the parts |
| C51 | `Decimal` proved correct: rounding within half a unit and unique (`Lemmas/Decimal.lean`), text parsed back (`DecimalText`), hence error bounds, exact integers and print∘read∘print = print for whole tables |
| C53 | `Model/Typed.lean`: header, data and blocks of the five classes as one type; reading again is idempotent (`setSZA` too); composed with C41 and C51; `C53_same`: header, data and blocks of a copy, part by part |
| C54 | `StandardTable`: words and locators of a table as a list of numbered parts, independent of the assembly; equal to the table the library would make up to NXS(1), NXS(2), NXS(9-16), IZ and AW, so the proof of C28 applies; in `Props/C54Tables.lean` the same for dosimetry, thermal scattering, photoatomic and photonuclear tables (proofs of C32-C35) |
| C55 | `Ends`: returned or thrown; structural induction over the parsers of header and body, whatever the text; fit of the integers read (`readInt_fits`) composed with C40/C41 for printing |
| C56 | `EndsChecked`: returned, thrown or refused by an index check; per reader, with `Moderate` and `Counted` words; locator searches give ordered ranges because the next locator is greater; `Props/C56Laws.lean` goes on to the energy laws, several laws, DLW, DLWH, SIGD, SIGH and SIGP (`LawReady`, `LawsReady`, `DataReady`: what their words must satisfy), `Props/C56Unchecked.lean` to NU, BDD, UNR, HPD and electron data (`NuReady`, `GroupsReady`, `TablesReady`, `ElectronReady`) |
| C57 | `Props/MapSpec.lean`: `Keeps r` and the same object with every word replaced; `Content.ofTable` commutes with it, by commutation of every reader; two lists of words with the same integers through a representative of each class |
| C58 | the words of the file are `printedAs` of the words (C51, C41); the replacement that is `printedAs` on steady words satisfies `Keeps`, so C57 applies; `C58_steady` gives a sufficient condition by comparing floors in ℚ; `C58_unsteady` shows that some condition is needed |
| C59 | `Model/Memory.lean` with an operation `write`; the specification gives every object the words it was delimited from and its present words; invariant `InvR SameSize` (delimited from words of the same number) and simulation over all histories |
| C60 | the five `ofTable` models; `InPlace`/`Regular` and order hypotheses bound the iterators of every block (`PA_place`, `TS_place`), the readers of the blocks are those of C56; `Props/C60Continuous.lean` does continuous energy tables (`PrincipalReady`, `PhotonsReady`, `DelayedReady`, `SecondariesReady`), `Props/C60Case.lean` a complete case, `Props/C60Photonuclear.lean` photonuclear tables; `C60_outside_*` and `C60_false` show undefined behaviour for locators outside of the XSS array |
| C61 | `print` models; `InColumns`/`HeaderInColumns` describe the format by line, column and width only (`fieldAt`); proved by splitting the text into rows of fields of equal width; `C61_address` by induction over the tables of a file |
| C62 | `parse` models against `IntIn`, `RealIn`, `StringIn`: a value anywhere in its field; rows by induction over the lines; `C62_number` from the rounding bound of `ofDecimal`; version 2 lines by `words` |
| C63 | `Model/Members.lean` (the count and index members of the table classes) over the five `ofTable` models; the counts of each block from the reader that made it, the particle lists by `mapM` length; unchecked vector access is `ub`, shown by concrete tables; `Props/C63Numbers.lean` compares the members with a dictionary of NXS positions |
| C64 | `Model/Python.lean` (written by `tools/pymodel.py`): member functions and bindings of the five classes as lists with their lines; the last binding of a name is in force; the names are resolved by the kernel (`decide +kernel` over the finite lists), the values for every table by `faithful_of_check`; wrong bindings by their values |
| C65 | `Model/PyLife.lean`: Python objects, names, keep-alive links and owners of words; invariant: an object reads inside of its owner and the links end at the owner; induction over the program; concrete programs for the negation |
| C66 | `CE.taken`, `TS.taken`, `PA.taken`, `PN.taken` collect the blocks with the accessors of `Model/Members.lean`; they are again `Sound` and generate the same words (`back_sound`, `data_back`), so `CE.mk_eq` and the corresponding theorems of C32-C35 apply twice |
| C67 | every block class with a member function of an index, from the words its constructor accepts | `Indexed` (value exactly for first..last, `std::out_of_range` otherwise) and `Refuses`; from the loops of the constructors, which evaluated the same functions for each index; counterexamples for the unchecked members |
| C68 | `XsdirEntry.parse` on any text of lines | `EntryLines` (comment lines, continued lines, words), `WholeNumber`, `Seven`; the loops over comments and continued lines by induction on the lines, then word by word; theorems for what is wrongly accepted |
| C69 | every reading constructor of a block, distribution or law, on a range with words appended | `≼` (AgreeSpec: every member function that returns a value returns the same value, recursively through the objects returned); a calculus of `Up` (monotone in the range) for the primitive accesses, then class by class, the last part of each located block ending at the end of the range |
| C70 | every function of the model that contains or reaches an index check, in both builds | `Compares` (ReleaseSpec: the same outcome unless the debug build fails an index check or is undefined; never out_of_range), proved for each function from those it calls by the commands `release_keeps` and `release_never` (they build proof terms; the kernel checks each), the functions with checks and the loops by hand; C70Functions lists the statements |
| C71 | the constructors of the five table classes from a generic table, with words appended to XSS | `≼` for tables (TableSpec); the range of every block of the longer table is that of the shorter one or that one with the appended words (`Padded.Ends`, `Padded.Ext`), then C69 block by block; `EndedByJXS` where a block must not reach the end of XSS |
| C72 | the constructors of the five table classes from a generic table with its blocks at other places | specification in PlaceSpec (`CE.Moved`, `Dosimetry.Moved`, `TS.Moved`, `PA.Moved`, `PN.Moved`: the words of each block are where the JXS array of the other table says, and no other locator points into them); each block of the other table starts with the words of the block of the first and C69 says that more words do not matter; partial, with counterexamples for the orders the code does not read |
| C73 | the constructors of the five table classes from two generic tables with the same NXS and JXS arrays and as many words | specification in LocalSpec (`SameFrame`, `SameBlock`, `SamePair`, `SameUpTo`, `SameShell`: the words of a range are the same in both); every block is shown to be the value of one function of its range of words (`CEMade`, `PNMade`, `PAMade`, `DosMade`, `TSMade` in Lemmas/Local), the ranges depend on NXS and JXS only; C73_edit is the case of one word |
| C74 | `fromFile` and `fromConcatenatedFile` of any beginning of a content that is read | specification in CutSpec (`Table.CutLine`: what the last line of the text can change). A reader of the text is shown to be cut only in its last line (`Cuts.Cut`: everything is there and the rest is cut, or it is refused, or its last line is cut and nothing is left), readers in a row keep this (`Cut.bind`), so the whole table does (`table_cut`); induction over the tables of a concatenated file; the full claim is false (C74_false) |
| C75 | the same functions for two texts with the same lines (LineSpec: `linesOf`, `SameLines`), and for a text and the same with more behind it | a relation of texts that is kept by reading a line (`Lines.Next`) is kept by every reader (`Alike.bind`, `Alike.line`), with the same results, because only columns of lines are used (`column_same`); two instances of the relation: the same lines, more text behind |
| C76 | `Model/Files.lean`: files as contents by name, `to_file`, `from_file`, `from_concatenated_file` of the Python classes and `fromFile` of /repo over them, each write with a fate (not opened, cut after n characters, whole) | `LastCall`/`NoCall` say which call of a history decides; induction over the history (`C76_history`, `C76_content`), then C41, C50 and C74 for the content; counterexamples by the printed example tables |
| C52 | from an accepted `ofRange` (any words): the element k is its reader applied to the words between its locator and the next greater / the following one; consequences for shared locators |

No property is not applicable a priori. Properties that the code violates are kept: the negation is proved
with a concrete witness (usually named `..._false` or after the defect) and the part that holds is proved under
a name that ends in `_partial`.

## 5. Findings

Each line is proved by the theorem named (in `Props`); the witness is a concrete input.

Blocks
* A range access one word past the end passes the check (`C03_range_overrun`, `C03_range_refused_false`).
* `Table::Data::XSS(1, 0)` throws while other empty ranges are accepted; index + length can overflow
  (`C04_empty_range`, `C04_range_overflow`).
* The `ProbabilityTable` constructor without fission reads the size of a moved-from vector
  (`C05_noFission_refused`).
* Column data with a fractional count are accepted (`C06_fractional_count`).
* The (unused) whole-array accessor of lengths in located electron data gives energies (`C10_lengths_array`).
* Law 67 reports `LAW() = 61` (`C13_law67`), so a DLW block with law 67 is read back as law 61 (`C16_law67`).
* DLW: a tabulated multiplicity for the first reaction is at the boundary 100 of the two tests `< 100` and
  `> 100`; integer multiplicities above 100 are taken for locators (`C16_threshold`, `C16_hundred`); one law
  wrapped as "several" comes back as a plain law (`C16_one_of_several`).
* DLWH: an undefined distribution is not given back (`C17_undefined_false`), too few frames is undefined
  behaviour (`C17_few_frames`).
* Members of an index that do not check it: `IXS::LLOC( p, 11 )` is locator 1 of the next particle and `LLOC( 0, 11 )` locator 1 of the first (`C67_particle_locators`, photonuclear: `C67_photonuclear_locators`); `NTRO::NP` accepts any index inside of the words (`C67_particle_reactions`); `ITXE::NIEB` accepts any index without probabilities (`C67_NIEB`); `MultiDistributionData::probability( 2 )` reads behind the list when the one law is 67 (`C67_laws_probability`); a yield block `[-1]` has 4294967295 reactions (`C67_yields_minus_one`).
* With `NDEBUG` an index that is refused without it can be answered with another value: `dvalue(a, N+i)` is value i of array a+1 (`C70_next_array`), `dvalue(0, N+i)` is value i of the first array (`C70_array_zero`), `LLOC(N+1)` is the first word of the data (`C70_locator`). ("Undefined" in the model of the release build is a word outside of the block; where the block is a view of the XSS array of a table it is a word of another block.)
* The constructor of `ProbabilityTable` without fission takes the total cross section before the probabilities, but its documentation and its Python keyword arguments say probabilities before total: given in that order the two are exchanged (`C05_noFission_swapped`).
* Words behind the last word of a table matter for photonuclear tables without a locator behind JXS(10): the last block of the last particle ends at the first word of the rest of the XSS array, data or padding, that is not less than its start (`C71_photonuclear_false`); for photoatomic tables that end with JINC, JCOH or XPROB (`C71_photoatomic_false`); and for an empty block at the end (`C71_thermal_false`, `C71_continuous_false`).
* The order of the blocks matters in five places: the delayed neutron data are ended by JXS(12), so behind the photon production data they end before they start (`C72_continuous_false`); the reaction numbers of a dosimetry table are ended by JXS(6) (`C72_dosimetry_false`); an empty block with words behind it is read as if these were its words (`C72_thermal_false`); in a photoatomic table a block between the scattering functions and the form factors is read as scattering functions, without an error (`C72_photoatomic_false`); the principal cross sections of a photonuclear table are ended by JXS(6), so behind the reaction numbers they end before they start (`C72_photonuclear_false`).
* A file that was cut off inside of the last line of a table is read without an error: a number whose last digits or exponent are lost is another number (`C74_false`: 3.25 becomes 3), numbers that are lost become zero (`C74_lost`), and a concatenated file that ends between two tables has fewer tables (`C74_fewer`). An empty line at the end of a concatenated file makes all its tables unreadable (`C75_empty_line`).
* `to_file` never looks at the state of its stream: a file that cannot be opened and a disk that is full are silent (`C76_false`, `C76_silent`), and the file is emptied before it is written, so a crash leaves neither the former nor the new table (`C76_replace_false`, `C76_lost`). An xsdir that was cut off in its last entry is read without an error with an entry without ZAID and file name (`C76_xsdir_cut`).
* Words behind the end of a block matter in three places: an object is made from an empty range (`C69_empty_range`), reaction and particle numbers are searched up to the end of the range (`C69_MTR_false`, `C69_YP_false`), and JINC, JCOH and the transitions of a subshell have as many values as fit the range, or are refused when it is not a multiple of 2, 3 or 4 words (`C69_JINC_false`, `C69_JCOH_false`, `C69_TRAN_false`).
* Several laws: law 67 falls through to law 1 (`C18_law67_twice`), nested tables are not relocated
  (`C18_nested_not_relocated`), an empty list is undefined (`C18_none`).
* TYR: multiplicity 0 in the centre of mass frame comes back as laboratory (`C20_zero_false`).
* MTR, PTYPE, YP lookups search the whole range, not its entries (`C21_longer_range`, `C22_PTYPE_longer_range`,
  `C22_YP_searches_beyond`); an empty YP is undefined (`C22_YP_empty`).
* BDD renumbers the groups (`C23_number_lost`); UNR accepts tables of different sizes and reads them wrongly
  (`C24_unequal_false`, `C24_unequal_overrun`), empty is undefined (`C24_empty`).
* SIGP: yields built with MFTYPE 13 come back as cross sections (`C25_yield_13`).
* ITXE: different numbers of cosines are not refused (`C27_unequal_cosines`), empty is undefined (`C27_empty`).

Tables
* Continuous energy: the search for the end of a block finds a wrong end for several combinations of optional
  blocks (`C28_false`, `C28_unr_false`, `C28_yp_false`, `C28_photons_lost`, `C28_groups_lost`,
  `C28_types_lost`); the IXS block is read one word too long (`C29_index`, `C29_false`); the counts of SIGP,
  GPD and SIGH are not compared (`C31_sigp`, `C31_gpd`, `C31_sigh`).
* Photoatomic: electron blocks lost or dereferenced when absent, subshell counts unchecked (`C32_*`).
* Photonuclear: block-end search runs into the next particle; vectors of different sizes (`C33_*`).
* Thermal: more than 16 targets, missing cosines and others (`C34_*`).
* Identification: a negative number in a ZAID is not refused, a target is derived from its unsigned value
  (`C36_negative_false`).
* Rebuilding: the blocks of a table with delayed neutrons but no precursor groups are refused by the constructor
  (`C66_refused`, `C66_false`); an empty list of particles of a photonuclear table is not given back
  (`C66_photonuclear_empty`).
* Shared locators are understood where the code looks for the next greater locator (`C52_shared`) but make a
  block unreadable where it takes the following one (`C52_shared_sig`).
* All size checks compute in 32 bits and can wrap around; negative counts are accepted; some classes check less
  than they read (`C48_*_wrap`, `C48_*_negative`, `C48_kalbach`, `C48_nbody`, `C48_evaporation_empty`,
  `C48_tabulated_short`, `C48_columns_empty`).

Text
* Header 1.0.0: overlong ZAID, date or material is undefined behaviour (`C38_long_zaid`, ...), titles are cut at
  70, a negative ratio is printed but refused when read (`C38_negative`).
* Header 2.0.1: without a date an uninitialised `int` is used (`C39_no_date`, `C39_false`); two-word dates,
  comments over 80 characters, trailing blanks (`C39_two_words`, `C39_long_comment`, `C39_blank_end`).
* Body: NXS(1) is replaced by the size (`C40_wrong_count`), ten-digit integers shift columns
  (`C40_ten_digits`); a ZAID "2.0.0" makes an old table a new one (`C41_zaid`).
* Xsdir entries: record length without temperature cannot be read (`C42_record`), values that mean "none" are
  lost (`C42_false`); names of 96 characters make printing loop forever (`C43_endless`). In entries written
  by hand an eighth word that is no number is ignored with everything behind it (`C68_eighth_ignored`), a record
  length of 2^32 or more becomes 4294967295 (`C68_eighth_large`), and a negative address wraps (`C68_negative`).
* Xsdir files: last entry without newline lost, files without entries undefined, blank line after "directory"
  undefined (`C44_last_line`, `C44_no_entry`, `C44_blank`); failed reads: `C45_unfinished`, `C45_empty`,
  `C45_comment`, `C45_not_rewound`, `C45_success_failed`, `C45_failed_stream`; `C50_no_entries`, `C50_long_za`.
* Malformed files: a version 2 header whose second line has fewer than four values uses uninitialised variables
  (`C55_false`); a date of more than ten characters is accepted and cannot be printed (`C55_long_date`).
* Editing: counts and locators edited in place are not read again, so a table and its own copy may return different
  blocks (`C59_blocks_stay`).
* Malformed words: negative or wrapping counts of tabulated data (`C56_false`); probability tables, fission
  multiplicities, delayed neutron data and elastic electron data are read without any size check, so words that end
  too early are read behind their end (`C56_truncated`). Energy laws: the size check of law 1 wraps modulo 2^64, a
  locator of law 61 outside of the data, a header cut short, `IDAT` before the law, a law number that is no `short` and
  DLW locators in decreasing order are undefined behaviour; a law that leads to itself is read behind its end
  (`C56_laws_false`). Among several laws the number is taken modulo 2^16, so 65539 is read as law 3
  (`C18_law_wraps`).
* Malformed tables: no table class checks its JXS locators against the length of the XSS array; a locator outside of it
  is undefined behaviour instead of an exception (`C60_outside_*`, `C60_false`).
* Members with an index: the secondary particle members of continuous energy and photonuclear tables are documented to
  throw `std::out_of_range` but index a `std::vector` with `[]` (`C63_false`, `C63_photonuclear_false`); `EION(i)` of a
  photoatomic table is undefined when NXS(7) > 0 but there are no subshell data (`C63_photoatomic_false`).

Python
* `photon_production_cross_section_block` of a continuous energy table is SIG instead of SIGP and
  `secondary_particle_production_cross_section_block` is TYRH instead of SIGH (`C64_continuous_photons`,
  `C64_continuous_particles`); `S`, `A` and their long names of a photoatomic table always fail
  (`C64_photoatomic_static`), five members have no attribute (`C64_photoatomic_missing`), one attribute of a
  photonuclear table is misspelt (`C64_photonuclear_name`); an index out of range is undefined behaviour
  (`C64_python_index`).
* A range or a block obtained with an index does not keep its table alive: `from_file( f ).ESZ.energies` reads freed
  memory (`C65_range_false`, `C65_item_false`).

## 6. Tests of the theorems

`tools/mutate.py` applies an edit to a scratch copy of the model, rebuilds everything and records which theorems
fail (`seeded/LOG.jsonl`). An edit that survives means that a theorem is too weak; the line then says which
theorem was tightened.

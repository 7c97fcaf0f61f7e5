{"id": "C01", "title": "Blocks built from values own their data through every history of copies, moves and assignments", "statement": "After any sequence of constructions from values, copy/move constructions, copy/move assignments (including self assignment) and destructions, every live block that has not been moved from and that was (transitively) built from values reads its data from storage it owns itself, and its data are exactly the values originally supplied; no operation on another object can change or invalidate them.", "quantifier": "every finite history of object operations over any number of objects", "why_tests_cant": "the aliasing bugs depend on the order of copies, moves and destructions; a test fixes one order", "anchors": ["src/ACEtk/base/Base.hpp Base", "src/ACEtk/base/Base/src/ctor.hpp", "src/ACEtk/base/Base/src/generateData.hpp"]}
{"id": "C02", "title": "A block taken out of a table is a view of that table and nothing else", "statement": "A block built from iterators into a table array, and every copy of it, reads exactly the table's words of its range as long as that array is alive (also after the table object is moved), never owns storage, and reads freed storage once the array is destroyed: copying a block out of a table does not make it independent of the table.", "quantifier": "every history of copies/moves of views and lifetimes of the underlying table", "why_tests_cant": "a dangling view usually still shows the old values in a test run", "anchors": ["src/ACEtk/base/Base/src/ctor.hpp", "src/ACEtk/base/Base/src/generateData.hpp", "src/ACEtk/ContinuousEnergyTable/src/ctor.hpp"]}
{"id": "C03", "title": "One-based element and range access of a block is exact and range checked", "statement": "For a block of length n, XSS(i) is the i-th word iff 1<=i<=n, XSS(i,m) is words i..i+m-1 iff these lie in the block (m=0 is allowed for 1<=i<=n+1), IXSS rounds the word to the nearest integer; every other index is reported as out_of_range when checks are compiled in.", "quantifier": "every block content, every index and length", "why_tests_cant": "boundary indices exist for every length", "anchors": ["src/ACEtk/base/Base.hpp iterator,XSS,IXSS", "src/ACEtk/base/Base/src/verifyIndex.hpp"]}
{"id": "C04", "title": "NXS/JXS/IZ/AW/XSS access of table data is one-based, exact and range checked", "statement": "Data::IZ/AW(1..16), NXS(1..16), JXS(1..32), XSS(1..length) return the stored word; any other index throws when checks are compiled in; XSS(index,length) returns that sub range when it lies in the array, and otherwise throws (an empty range is accepted at any index of the array).", "quantifier": "every table content, index and length", "why_tests_cant": "boundary indices exist for every length; a zero length is a special case", "anchors": ["src/ACEtk/Table/Data.hpp", "src/ACEtk/Table/Data/src/verifyIndex.hpp"]}
{"id": "C05", "title": "Array blocks give back the arrays they were built from", "statement": "A block made of m arrays of n values (ESZ, ESZG, LHNM, JFLO, EPS, SUBSH, SELAS, EXCIT, BREML, SPHEL, ITCA, electron distributions, ...) returns, for every array index a and position i, exactly the supplied value; unequal array lengths are refused; a reader over the same words with the same n and m returns the same arrays.", "quantifier": "every number of arrays, every length, every content", "why_tests_cant": "index arithmetic (a-1)*n+i must be right for all n and m", "anchors": ["src/ACEtk/base/ArrayData.hpp", "src/ACEtk/base/ArrayData/src/generateXSS.hpp", "src/ACEtk/base/ArrayData/src/ctor.hpp"]}
{"id": "C06", "title": "Column data (count followed by columns) round trips", "statement": "Column data built from columns of equal length stores the count first and returns each column unchanged, both from the built object and from a reader over the same words, also when the words are followed by further words; unequal columns are refused; a range that is too short for its own count is refused.", "quantifier": "every number of columns, length, content and trailing words", "why_tests_cant": "all counts and boundaries", "anchors": ["src/ACEtk/base/ColumnData.hpp", "src/ACEtk/base/ColumnData/src"]}
{"id": "C07", "title": "Interpolation tables and tabulated data (NR,NBT,INT,NE,x,y) round trip", "statement": "Tabulated data built from interpolation boundaries, interpolants, x and y returns exactly those four lists and the right counts, and a reader given the words plus any trailing words finds the same lists.", "quantifier": "every number of interpolation regions (including none), points, content, trailing words", "why_tests_cant": "offsets depend on two data-dependent counts", "anchors": ["src/ACEtk/base/TabulatedData.hpp", "src/ACEtk/base/TabulatedData/src", "src/ACEtk/continuous/InterpolationData.hpp"]}
{"id": "C08", "title": "Tabulated probability distributions and their packed interpolation flag round trip", "statement": "A tabulated distribution built from an interpolation type, values, pdf, cdf and extra columns returns all of them; the outgoing energy and Kalbach-Mann distributions also return the separately supplied number of discrete lines, for every interpolation type below 10.", "quantifier": "every interpolation type, number of discrete lines, number of points and content", "why_tests_cant": "INTT'=10*ND+INTT must be inverted for all pairs", "anchors": ["src/ACEtk/base/TabulatedProbabilityDistribution.hpp", "src/ACEtk/continuous/TabulatedEnergyDistribution.hpp", "src/ACEtk/continuous/TabulatedKalbachMannDistribution.hpp"]}
{"id": "C09", "title": "Blocks with locators find every data sub block at its locator", "statement": "A locator based block (SIG, SIGD, SIGP, SIGH, SWD, XPROB, DNED/DLWP style) built from n data sub blocks has n locators, each pointing at its sub block; reading the same words back yields the same sub blocks in the same order with the same extents.", "quantifier": "every number of sub blocks and every sub block size (including empty data arrays)", "why_tests_cant": "locators are running sums over all preceding sizes", "anchors": ["src/ACEtk/base/BlockWithLocators.hpp", "src/ACEtk/base/BlockWithLocators/src"]}
{"id": "C10", "title": "Electron blocks with energies, lengths and locators round trip", "statement": "An electron distribution block (ELAS, BREME, EION) built from distributions returns the incident energies, the per-distribution lengths, locators and the distributions themselves, one by one and as arrays, also when read back from its words.", "quantifier": "every number and size of distributions", "why_tests_cant": "running offsets; whole-array accessors", "anchors": ["src/ACEtk/base/ElectronBlockWithLocators.hpp", "src/ACEtk/base/ElectronBlockWithLocators/src"]}
{"id": "C11", "title": "Distribution tables with absolute locators round trip at every base location", "statement": "Energy-dependent distribution data (laws 4, 44 and the like) built for a base locator locb return the supplied interpolation table, incident energies and distributions; reading the words back with the same locb yields the same; every stored locator equals locb plus the relative position of its distribution.", "quantifier": "every locb, interpolation table, number and size of distributions", "why_tests_cant": "locators depend on locb, NR, NE and all sizes", "anchors": ["src/ACEtk/base/DistributionData.hpp", "src/ACEtk/base/DistributionData/src"]}
{"id": "C12", "title": "Nested distribution tables (laws 61 and 67) are relocated correctly", "statement": "Energy-angle and angle-energy distribution data built for any base locator from distributions that were themselves built for any other base locators return the same inner tables, with all inner locators absolute with respect to the new base.", "quantifier": "every base locator, every nesting size, every original locator of the inner data", "why_tests_cant": "two levels of running offsets", "anchors": ["src/ACEtk/continuous/EnergyAngleDistributionData/src/generateXSS.hpp", "src/ACEtk/continuous/AngleEnergyDistributionData/src/generateXSS.hpp", "src/ACEtk/base/DistributionDataWithInterpolationType/src"]}
{"id": "C13", "title": "Every energy distribution law is identified by its own law number", "statement": "The law number reported by each kind of energy distribution data equals the ACE law under which the readers would decode that data, so that data written under its own law number are decoded as the same kind.", "quantifier": "every kind of energy distribution data", "why_tests_cant": "a law written under a wrong number decodes as another kind silently", "anchors": ["src/ACEtk/EnergyDistributionType.hpp", "src/ACEtk/continuous/AngleEnergyDistributionData.hpp LAW", "src/ACEtk/continuous/EnergyDistributionBlock/src/generateBlocks.hpp"]}
{"id": "C14", "title": "Angular distribution data round trip, including isotropic, equiprobable and tabulated entries", "statement": "Angular distribution data built for a base locator from any mix of isotropic, 32-equiprobable-bin and tabulated distributions report, per incident energy, the right type, sign and locator and return the same distributions sorted by incident energy, also when read back.", "quantifier": "every list of distributions in any order, every base locator", "why_tests_cant": "sign encoded types and running locators", "anchors": ["src/ACEtk/continuous/AngularDistributionData.hpp", "src/ACEtk/continuous/AngularDistributionData/src"]}
{"id": "C15", "title": "Angular distribution blocks (AND, ANDP, ANDH) round trip", "statement": "An angular distribution block built from fully isotropic, given-elsewhere and tabulated entries returns the same kind of entry for each reaction, with the data relocated to the right base, also when read back; the block with an elastic entry indexes elastic as 0.", "quantifier": "every list of entries", "why_tests_cant": "LAND is 0, -1 or a locator depending on all previous entries", "anchors": ["src/ACEtk/base/AngularDistributionBlock.hpp", "src/ACEtk/base/AngularDistributionBlock/src", "src/ACEtk/continuous/AngularDistributionBlock.hpp"]}
{"id": "C16", "title": "Energy distribution block (DLW) round trips laws and multiplicities", "statement": "A DLW block built from energy distributions, reference frames and multiplicities (integer or tabulated) gives back, for each reaction, the same distribution, law, probability range, frame and multiplicity, both directly and when read back with the TYR block derived from it.", "quantifier": "every list of reactions, laws, multiplicities below the tabulated threshold", "why_tests_cant": "locators interleave multiplicity tables, headers and data; TYR encodes locators above 100", "anchors": ["src/ACEtk/continuous/EnergyDistributionBlock.hpp", "src/ACEtk/continuous/EnergyDistributionBlock/src"]}
{"id": "C17", "title": "Secondary particle energy distribution block (DLWH) round trips", "statement": "A DLWH block built from energy distributions gives back the same distributions in order, also when read back; an undefined distribution is given back as undefined.", "quantifier": "every list of distributions", "why_tests_cant": "running locators; undefined entries are encoded by locator 0", "anchors": ["src/ACEtk/continuous/SecondaryParticleEnergyDistributionBlock.hpp", "src/ACEtk/continuous/SecondaryParticleEnergyDistributionBlock/src"]}
{"id": "C18", "title": "Multi-law distribution data round trip", "statement": "A reaction with several laws returns as many probabilities and distributions as were supplied, in order and of the same kind, both directly and when read back.", "quantifier": "every list of (probability, law data) pairs", "why_tests_cant": "linked list of locators", "anchors": ["src/ACEtk/continuous/MultiDistributionData.hpp", "src/ACEtk/continuous/MultiDistributionData/src"]}
{"id": "C19", "title": "Fission multiplicity block (NU) round trips prompt, total, polynomial and tabulated data", "statement": "A NU block built from one or two multiplicity sets, each polynomial or tabulated, reports whether prompt and total are both present and returns the same sets, also when read back.", "quantifier": "all four combinations, every size and content", "why_tests_cant": "the negative KNU length encoding", "anchors": ["src/ACEtk/continuous/FissionMultiplicityBlock.hpp", "src/ACEtk/continuous/FissionMultiplicityBlock/src"]}
{"id": "C20", "title": "Frame and multiplicity block (TYR) returns the frames and multiplicities given", "statement": "A TYR block built from reference frames and multiplicities returns for each reaction exactly the given frame and multiplicity.", "quantifier": "every list of frames and multiplicities", "why_tests_cant": "the frame is the sign of the multiplicity", "anchors": ["src/ACEtk/continuous/FrameAndMultiplicityBlock.hpp", "src/ACEtk/continuous/FrameAndMultiplicityBlock/src"]}
{"id": "C21", "title": "Reaction number lookup is exact", "statement": "For a reaction number block with n reactions, hasReactionNumber(mt) is true iff mt is among the n reactions, index(mt) is the smallest one-based index of mt and throws when mt is absent - whatever words follow the block's n entries in its range.", "quantifier": "every list of reaction numbers, every query, every trailing content", "why_tests_cant": "the range may be longer than n", "anchors": ["src/ACEtk/continuous/ReactionNumberBlock.hpp hasMT,index"]}
{"id": "C22", "title": "Particle type and multiplicity reaction number lookups are exact", "statement": "The same exactness holds for the secondary particle type block (hasIP, index), the photonuclear locator block and the YP/YH blocks, whose own count delimits the entries.", "quantifier": "every list, every query, every trailing content", "why_tests_cant": "as above", "anchors": ["src/ACEtk/continuous/SecondaryParticleTypeBlock.hpp", "src/ACEtk/continuous/MultiplicityReactionNumberBlock.hpp", "src/ACEtk/photonuclear/SecondaryParticleLocatorBlock.hpp"]}
{"id": "C23", "title": "Delayed neutron precursor block (BDD) round trips", "statement": "A BDD block built from precursor group data returns each group's decay constant and tabulated probabilities, and a reader of its words finds the same groups.", "quantifier": "every number of groups and group sizes", "why_tests_cant": "groups are stored back to back without locators", "anchors": ["src/ACEtk/continuous/DelayedNeutronPrecursorBlock.hpp", "src/ACEtk/continuous/DelayedNeutronPrecursorBlock/src"]}
{"id": "C24", "title": "Probability table block (UNR) round trips", "statement": "A UNR block built from probability tables with equal numbers of bins returns the flags, incident energies and tables; tables with different numbers of bins are refused.", "quantifier": "every number of tables and bins", "why_tests_cant": "6*m words per table without locators", "anchors": ["src/ACEtk/continuous/ProbabilityTableBlock.hpp", "src/ACEtk/continuous/ProbabilityTable.hpp"]}
{"id": "C25", "title": "Photon production cross section data (SIGP) round trip both representations", "statement": "SIGP entries given as yields (MFTYPE 12/16) or as cross sections (MFTYPE 13) are returned with the same representation and content.", "quantifier": "every list of entries", "why_tests_cant": "type tag decides the layout of the following words", "anchors": ["src/ACEtk/continuous/PhotonProductionCrossSectionBlock.hpp"]}
{"id": "C26", "title": "Secondary particle locator blocks (IXS, IXSU) return the locators given", "statement": "Locators supplied per particle type are returned for every (particle, index) pair, and the particle types and reaction counts of the photonuclear variant as well.", "quantifier": "every number of particle types and all locator indices", "why_tests_cant": "row-major index arithmetic", "anchors": ["src/ACEtk/continuous/SecondaryParticleLocatorBlock.hpp", "src/ACEtk/photonuclear/SecondaryParticleLocatorBlock.hpp"]}
{"id": "C27", "title": "Thermal inelastic angular distributions (ITXE) round trip in both modes", "statement": "ITXE data built in discrete mode or with probabilities return, for each incident and outgoing energy, the same cosine set, also when read back at the same base locator.", "quantifier": "every number of incident energies, outgoing energies and cosines, every base locator", "why_tests_cant": "off-by-one historical locators and running offsets", "anchors": ["src/ACEtk/thermal/InelasticAngularDistributionBlock.hpp", "src/ACEtk/thermal/InelasticAngularDistributionBlock/src"]}
{"id": "C28", "title": "A continuous energy table built from blocks returns those blocks", "statement": "For a continuous energy table constructed from blocks, each block accessor returns a block with exactly the words of the block supplied (ESZ, NU, MTR, LQR, TYR, SIG, AND, DLW, photon, UNR and delayed neutron blocks), and absent optional blocks stay absent.", "quantifier": "every combination of optional blocks and every block size", "why_tests_cant": "block ends are inferred by scanning JXS; combinations of absent blocks are exponential", "anchors": ["src/ACEtk/ContinuousEnergyTable/src/generateData.hpp", "src/ACEtk/ContinuousEnergyTable/src/generateBlocks.hpp"]}
{"id": "C29", "title": "Secondary particle blocks of a continuous energy table are returned unchanged", "statement": "For each secondary particle type the HPD, MTRH, TYRH, SIGH, ANDH, DLWH and YH blocks retrieved have exactly the words supplied.", "quantifier": "every number of particle types and every block size", "why_tests_cant": "block ends are inferred by scanning the locator block", "anchors": ["src/ACEtk/ContinuousEnergyTable/src/generateData.hpp", "src/ACEtk/ContinuousEnergyTable/src/generateBlocks.hpp"]}
{"id": "C30", "title": "NXS and JXS of generated tables describe the XSS array", "statement": "In every table generated from blocks NXS(1) equals the XSS length, each non-zero JXS locator is one plus the number of words before its block, and the counts in NXS equal the counts of the blocks.", "quantifier": "every combination of blocks of every table type", "why_tests_cant": "locators are running sums", "anchors": ["src/ACEtk/ContinuousEnergyTable/src/generateData.hpp", "src/ACEtk/PhotoatomicTable/src/generateData.hpp", "src/ACEtk/PhotonuclearTable/src/generateData.hpp", "src/ACEtk/ThermalScatteringTable/src/generateData.hpp", "src/ACEtk/DosimetryTable/src/generateData.hpp"]}
{"id": "C31", "title": "Inconsistent block sets are refused by the continuous energy table", "statement": "Construction from blocks succeeds only if NTR agrees between MTR, LQR and SIG, NR between AND and DLW, fission implies NU, and the photon, delayed neutron and secondary particle groups are each complete or absent with matching counts; otherwise it throws before producing a table.", "quantifier": "every combination of blocks", "why_tests_cant": "exponential number of combinations", "anchors": ["src/ACEtk/ContinuousEnergyTable/src/generateData.hpp"]}
{"id": "C32", "title": "A photoatomic table built from blocks returns those blocks", "statement": "Each block accessor of a photoatomic (or electron-photon) table built from blocks returns the words supplied, including each electroionisation block; absent optional blocks stay absent.", "quantifier": "every combination of optional blocks and sizes", "why_tests_cant": "as for the continuous energy table", "anchors": ["src/ACEtk/PhotoatomicTable/src/generateData.hpp", "src/ACEtk/PhotoatomicTable/src/generateBlocks.hpp"]}
{"id": "C33", "title": "A photonuclear table built from blocks returns those blocks", "statement": "Each block accessor of a photonuclear table built from blocks returns the words supplied, for the main blocks and all secondary particles.", "quantifier": "every combination and size", "why_tests_cant": "as above", "anchors": ["src/ACEtk/PhotonuclearTable/src/generateData.hpp", "src/ACEtk/PhotonuclearTable/src/generateBlocks.hpp"]}
{"id": "C34", "title": "A thermal scattering table built from blocks returns those blocks", "statement": "Each accessor of a thermal scattering table built from blocks returns the words supplied, and the elastic mode and dimensioning parameters are consistent with which elastic blocks are present.", "quantifier": "all presence combinations and sizes", "why_tests_cant": "as above", "anchors": ["src/ACEtk/ThermalScatteringTable/src/generateData.hpp", "src/ACEtk/ThermalScatteringTable/src/generateBlocks.hpp"]}
{"id": "C35", "title": "A dosimetry table built from blocks returns those blocks", "statement": "The MTR and SIGD blocks retrieved from a dosimetry table built from them have the words supplied; different NTR are refused.", "quantifier": "every size and content", "why_tests_cant": "as above", "anchors": ["src/ACEtk/DosimetryTable/src/generateData.hpp", "src/ACEtk/DosimetryTable.hpp generateBlocks"]}
{"id": "C36", "title": "Target identification from the ZAID follows the MCNP rules", "statement": "When S, Z and A are not stored, they are derived from the ZAID: for every MCNP-encoded ZAID of a nuclide (Z, A, S) with plausible mass the derived values are (Z, A, S), Am-242 and Am-242m1 are swapped, the derivation terminates, and stored values are never overwritten. Blanks or a plus sign before the number and the length of the suffix (.80c or the .800nc of a version 2 header) do not matter, and a ZAID without a number or with one too large for an int is refused.", "quantifier": "every ZA number in a ZAID, however the ZAID is written", "why_tests_cant": "thousands of encodings and a loop", "anchors": ["src/ACEtk/ContinuousEnergyTable/src/setSZA.hpp"]}
{"id": "C37", "title": "A table type accepts exactly its own ZAID suffixes", "statement": "Each table type accepts a generic table iff the last ZAID character is one of its class letters, and no generic table is accepted by two different types.", "quantifier": "every ZAID", "why_tests_cant": "all characters", "anchors": ["src/ACEtk/ContinuousEnergyTable/src/verifyType.hpp", "src/ACEtk/DosimetryTable/src/verifyType.hpp", "src/ACEtk/PhotoatomicTable/src/verifyType.hpp", "src/ACEtk/PhotonuclearTable/src/verifyType.hpp", "src/ACEtk/ThermalScatteringTable/src/verifyType.hpp"]}
{"id": "C38", "title": "Version 1 headers survive printing and parsing", "statement": "A header whose strings fit their columns and carry no outer white space is parsed back from its printed form with the same ZAID, date, title and material, and atomic weight ratio and temperature as rounded to the printed precision; the printed header consists of two lines with fixed columns.", "quantifier": "every header whose fields fit", "why_tests_cant": "fixed column arithmetic for all string lengths", "anchors": ["src/ACEtk/Table/Header.hpp", "src/ACEtk/Table/Header/src"]}
{"id": "C39", "title": "Version 2 headers survive printing and parsing", "statement": "A version 2.0.x header is parsed back from its printed form with the same fields and comment lines, the number of comments printed equals the number of comments stored.", "quantifier": "every header whose fields fit", "why_tests_cant": "free-format and fixed-format mix", "anchors": ["src/ACEtk/Table/Header201.hpp", "src/ACEtk/Table/Header201/src"]}
{"id": "C40", "title": "The table body (IZ/AW, NXS, JXS, XSS) survives printing and parsing", "statement": "Printing the data of a table and parsing the result gives the same IZ, NXS, JXS and XSS (numbers up to print precision), with four pairs, eight integers or four reals per line and a short last line, provided NXS(1) is the XSS length; nothing after the body is consumed.", "quantifier": "every XSS length and content", "why_tests_cant": "the last incomplete line; every length modulo 4", "anchors": ["src/ACEtk/Table/Data/src/print.hpp", "src/ACEtk/Table/Data/Parse.hpp", "src/ACEtk/Table/Data/Parse/src"]}
{"id": "C41", "title": "A printed table is read back as the same header version and data, also from a concatenated file", "statement": "Printing a table and parsing it selects the same header version (for a version 1 header whose ZAID does not begin with a version number) and the same data; a file made of any number of printed tables is split into exactly these tables in order.", "quantifier": "every list of tables", "why_tests_cant": "any number of tables", "anchors": ["src/ACEtk/Table/src/parse.hpp", "src/ACEtk/Table/src/print.hpp", "src/ACEtk/fromFile.hpp"]}
{"id": "C42", "title": "Xsdir entries survive printing and parsing", "statement": "An xsdir entry whose strings contain no white space is parsed back from its printed form with the same fields (numbers up to print precision), whether or not the entry was split over several lines.", "quantifier": "every entry, every combination of optional fields and every length", "why_tests_cant": "combinations of optional trailing fields and split positions", "anchors": ["src/ACEtk/XsdirEntry/src/print.hpp", "src/ACEtk/XsdirEntry/src/parse.hpp"]}
{"id": "C43", "title": "Printing an xsdir entry always terminates with lines of at most 100 characters", "statement": "For every entry, printing terminates and each printed line except for the continuation sign stays within the limit.", "quantifier": "every entry, every file name length", "why_tests_cant": "a long file name is needed", "anchors": ["src/ACEtk/XsdirEntry/src/print.hpp"]}
{"id": "C44", "title": "Xsdir files: reading returns every entry and lookup returns the right one", "statement": "Reading a directory file returns all entries in order and all atomic weight ratios, irrespective of blank and comment lines and of a final newline; entry(zaid) returns an entry with that ZAID iff one is present.", "quantifier": "every file content", "why_tests_cant": "line-ending and comment combinations", "anchors": ["src/ACEtk/Xsdir/src/parse.hpp", "src/ACEtk/Xsdir/src/indices.hpp", "src/ACEtk/Xsdir.hpp entry"]}
{"id": "C45", "title": "A failed stream read leaves the object unchanged and the stream rewound and failed", "statement": "operator>> for xsdir entries and files either succeeds, or leaves the target object unchanged, the stream positioned where it was and in the fail state.", "quantifier": "every input text", "why_tests_cant": "each failure point", "anchors": ["src/ACEtk/XsdirEntry/src/stream.hpp", "src/ACEtk/XsdirEntry/src/parse.hpp", "src/ACEtk/Xsdir/src/stream.hpp"]}
{"id": "C46", "title": "Incoherent and coherent photoatomic blocks recognise their format from their size", "statement": "A JINC or JCOH block built in the fixed-grid or the tabulated format is recognised as the same format when read back, for every number of tabulated points, and returns the same values and momentum grid.", "quantifier": "every number of points", "why_tests_cant": "size ambiguity between formats (21 and 110 words)", "anchors": ["src/ACEtk/photoatomic/IncoherentScatteringFunctionBlock.hpp", "src/ACEtk/photoatomic/CoherentFormFactorBlock.hpp"]}
{"id": "C47", "title": "Principal electron cross sections are summed consistently", "statement": "The ESZE block stores total electroionisation as the sum of the subshell cross sections and total as the sum of elastic, bremsstrahlung, excitation and electroionisation, and returns each component unchanged.", "quantifier": "every number of subshells and energies", "why_tests_cant": "array insertion positions", "anchors": ["src/ACEtk/electron/PrincipalCrossSectionBlock/src/generateArrays.hpp"]}
{"id": "C48", "title": "Size checks accept a range only if all accessors stay inside it", "statement": "When a reading constructor accepts a range of words with given counts (arrays, columns, tabulated data, cross sections, photon production, particle production, probability distributions, locator blocks, energy laws, angular distributions, thermal cosines), every accessor called with an index in the advertised bounds stays within the range.", "quantifier": "every range of words, every 32-bit count and every index", "why_tests_cant": "the check is computed in 32-bit unsigned arithmetic", "anchors": ["src/ACEtk/base/ArrayData/src/verifySize.hpp", "src/ACEtk/base/ColumnData/src/verifySize.hpp", "src/ACEtk/thermal/InelasticAngularDistributionBlock/src/verifySize.hpp"]}
{"id": "C49", "title": "Every energy law gives back the values it was built from", "statement": "Data of each of the thirteen energy laws (1-5, 7, 9, 11, 33, 44, 61, 66, 67), built from values, return those values (interpolation table, incident energies, parameters, distributions sorted by energy where the constructor sorts); reading the same words back under the law number of the format gives the same, whatever words follow; an unknown law number is refused.", "quantifier": "every law, every list of values, every number and size of distributions, every base locator and every trailing words", "why_tests_cant": "thirteen layouts whose offsets depend on data-dependent counts", "anchors": ["src/ACEtk/continuous/EquiprobableOutgoingEnergyBinData.hpp", "src/ACEtk/continuous/GeneralEvaporationSpectrum.hpp", "src/ACEtk/continuous/EnergyDependentWattSpectrum.hpp", "src/ACEtk/continuous/NBodyPhaseSpaceDistribution.hpp", "src/ACEtk/continuous/EvaporationSpectrum.hpp", "src/ACEtk/continuous/OutgoingEnergyDistributionData.hpp", "src/ACEtk/continuous/KalbachMannDistributionData.hpp", "src/ACEtk/continuous/EnergyDistributionBlock/src/generateBlocks.hpp"]}
{"id": "C50", "title": "Xsdir files survive printing and reading", "statement": "Reading the printed form of an xsdir returns its data path, its atomic weight ratios and its entries in order (numbers up to print precision), and leaves the stream at its end; in the printed form the neutron and each natural element begin a line of four ratios, continued on lines of three.", "quantifier": "every data path, every map of ratios and every list of entries", "why_tests_cant": "the line breaks depend on the ZA numbers and their count, and the entries on their length", "anchors": ["src/ACEtk/Xsdir/src/print.hpp", "src/ACEtk/Xsdir/src/parse.hpp", "src/ACEtk/XsdirEntry/src/print.hpp"]}
{"id": "C51", "title": "Printing a table that was read from its printed form gives the same text", "statement": "For every table whose strings and integers fit their columns and whose numbers are zero or normal doubles of printable size, printing succeeds, reading the printed text gives a table with the same strings and integers, with data within a relative error of 1e-12 (atomic weights 1e-7 absolute, atomic weight ratio 1e-6 absolute, temperature 1e-4 relative), and printing that table gives the same text character by character; integers of up to 13 digits in the data are returned exactly.", "quantifier": "every table of printable size: every number of words, every double in the normal range", "why_tests_cant": "a decimal round trip over all doubles, with data-dependent carries and exponents", "anchors": ["src/ACEtk/Table/src/print.hpp", "src/ACEtk/Table/src/parse.hpp", "src/ACEtk/Table/Data/src/print.hpp", "src/ACEtk/Table/Data/src/ctor.hpp", "src/ACEtk/Table/Header/src/print.hpp", "src/ACEtk/Table/Header201/src/print.hpp"]}
{"id": "C52", "title": "Each element of an accepted block is read from its own locator", "statement": "When a range of words is accepted as a block or as data with locators (energy distributions by incident energy, laws 61 and 67, SIG-like blocks, angular distributions and their blocks, energy distribution blocks), each element is read from exactly the words from its locator to the next greater locator (laws 4 and 44, 67, angular data and their blocks: elements that share a locator share their words), to the following locator (law 61, SIG, energy distribution blocks) or to the end of the range for the last one; the interpretation depends only on those words, the locator and the incident energy.", "quantifier": "every range of words that is accepted, every number of elements and every choice of locators, shared or not", "why_tests_cant": "locators are arbitrary data in files that this library did not write", "anchors": ["src/ACEtk/base/DistributionData/src/generateBlocks.hpp", "src/ACEtk/base/DistributionDataWithInterpolationType/src/generateBlocks.hpp", "src/ACEtk/base/BlockWithLocators/src/generateBlocks.hpp", "src/ACEtk/continuous/AngularDistributionData/src/generateBlocks.hpp", "src/ACEtk/base/AngularDistributionBlock/src/generateBlocks.hpp", "src/ACEtk/continuous/EnergyDistributionBlock/src/generateBlocks.hpp", "src/ACEtk/continuous/TabulatedEnergyAngleDistribution/src/generateBlocks.hpp"]}
{"id": "C53", "title": "A table is the same after copying, and after writing and reading", "statement": "For each of the five table classes: copying, moving or assigning a table (which reads every block again from the data) gives an equal table; a table made from blocks whose numbers survive the print format (integers up to 13 digits and every number that was itself read from a printed file do) is written to a file, and constructing the same class from the table read from that file gives the same data and the same blocks, with the same header strings; a table read from a file that the library wrote is returned exactly, header included, by writing it and reading it once more.", "quantifier": "every table of the five classes, however it was made (from any generic table or from any blocks), and whatever follows it in the file", "why_tests_cant": "it composes the assembly of the data, the search for the blocks, printing and parsing over all tables", "anchors": ["src/ACEtk/ContinuousEnergyTable/src/ctor.hpp", "src/ACEtk/DosimetryTable/src/ctor.hpp", "src/ACEtk/PhotoatomicTable/src/ctor.hpp", "src/ACEtk/PhotonuclearTable/src/ctor.hpp", "src/ACEtk/ThermalScatteringTable/src/ctor.hpp", "src/ACEtk/Table/src/ctor.hpp", "src/ACEtk/Table/src/print.hpp", "src/ACEtk/Table/src/parse.hpp", "src/ACEtk/ContinuousEnergyTable/src/setSZA.hpp"]}
{"id": "C54", "title": "A table in the standard layout is read as its blocks, whoever wrote it", "statement": "For each of the five table classes: when the words of a table are the blocks of the ACE format one after the other in the standard order, each NXS count is the one of its block and each JXS locator is the position of the first word of its block (zero for a block that is absent), constructing the class from it gives exactly those blocks and leaves XSS and JXS as they are, whatever the other entries of IZ, AW and NXS are; the tables this library writes are in that layout.", "quantifier": "every set of blocks (any numbers of reactions, optional blocks, photon production, delayed neutrons, secondary particles, shells, elastic modes), every table in the layout", "why_tests_cant": "tables are mostly written by other codes; the ends of the blocks are found by searching the locators", "anchors": ["src/ACEtk/ContinuousEnergyTable/src/generateBlocks.hpp", "src/ACEtk/ContinuousEnergyTable/src/ctor.hpp", "src/ACEtk/ContinuousEnergyTable/src/setSZA.hpp", "src/ACEtk/DosimetryTable.hpp", "src/ACEtk/ThermalScatteringTable/src/generateBlocks.hpp", "src/ACEtk/PhotoatomicTable/src/generateBlocks.hpp", "src/ACEtk/PhotonuclearTable/src/generateBlocks.hpp"]}
{"id": "C55", "title": "Reading any text ends with a table or with an exception", "statement": "Reading a table from any text, whatever it contains, returns a table or throws an exception; it never runs into undefined behaviour or an endless loop. A table that is returned has 16 IZ, AW and NXS values and 32 JXS values, as many words as NXS(1) says, integers and header strings that fit the columns in which they are printed, and what is left of the text is its end; so a version 1 table that was read can be printed. Reading all tables of a file always comes to an end.", "quantifier": "every text (any characters, any length, truncated or corrupted files)", "why_tests_cant": "the inputs are all strings; a test shows a few malformed files", "anchors": ["src/ACEtk/Table/src/ctor.hpp", "src/ACEtk/Table/src/parse.hpp", "src/ACEtk/Table/Header/src/parse.hpp", "src/ACEtk/Table/Header201/src/parse.hpp", "src/ACEtk/Table/Data/src/ctor.hpp", "src/ACEtk/fromFile.hpp"]}
{"id": "C56", "title": "Reading a block from any words ends with the block or with an exception", "statement": "The reading constructors of the blocks, given any words, return the block or throw an exception: array blocks and data of fixed size in every build, column data exactly when the first word is a size, and data with counts or locators in their words when index checks are compiled in.", "quantifier": "every list of words, every count and locator passed as an argument", "why_tests_cant": "corrupted or truncated tables have arbitrary words where counts and locators are expected", "anchors": ["src/ACEtk/base/ArrayData/src/verifySize.hpp", "src/ACEtk/base/ColumnData/src/verifySize.hpp", "src/ACEtk/base/TabulatedData/src/verifySize.hpp", "src/ACEtk/base/DistributionData/src/generateBlocks.hpp", "src/ACEtk/base/BlockWithLocators/src/generateBlocks.hpp", "src/ACEtk/base/AngularDistributionBlock/src/generateBlocks.hpp", "src/ACEtk/continuous/ProbabilityTableBlock/src/generateBlocks.hpp", "src/ACEtk/continuous/FissionMultiplicityBlock/src/generateBlocks.hpp"]}
{"id": "C57", "title": "The structure of a table does not depend on its physical values", "statement": "Constructing a table of any of the five classes from data in which words are replaced by words that round and truncate to the same integers and have the same sign gives the table read from the original data with the same replacement made in all its blocks: the same outcome or error, the same blocks, kinds, counts and locators. Array and column accessors return the replaced numbers and the same integers.", "quantifier": "every generic table, readable or not, every replacement of words that keeps their integers", "why_tests_cant": "no test varies all the values of all tables; a single comparison with a physical value would break it for some inputs", "anchors": ["src/ACEtk/ContinuousEnergyTable/src/generateBlocks.hpp", "src/ACEtk/DosimetryTable.hpp", "src/ACEtk/ThermalScatteringTable/src/generateBlocks.hpp", "src/ACEtk/PhotoatomicTable/src/generateBlocks.hpp", "src/ACEtk/PhotonuclearTable/src/generateBlocks.hpp", "src/ACEtk/base/ArrayData.hpp", "src/ACEtk/base/ColumnData.hpp"]}
{"id": "C58", "title": "Rounding in a file does not change the structure of a table", "statement": "A table of any of the five classes with arbitrary doubles, written to a file and read again as a table of the same class, has the same header strings, blocks, kinds, counts and locators; every word differs by at most one part in 10^12 (AW values by 10^-7), provided its words keep the integers they stand for, which integers up to 13 digits and numbers further than one part in 10^12 from integers and half-integers do.", "quantifier": "every table of the five classes however made, all doubles in the normal range, whatever follows in the file", "why_tests_cant": "it composes decimal rounding over all doubles with the parsing of every block", "anchors": ["src/ACEtk/Table/src/print.hpp", "src/ACEtk/Table/src/parse.hpp", "src/ACEtk/Table/Data/src/print.hpp", "src/ACEtk/Table/Data/src/ctor.hpp", "src/ACEtk/ContinuousEnergyTable/src/generateBlocks.hpp", "src/ACEtk/DosimetryTable.hpp", "src/ACEtk/ThermalScatteringTable/src/generateBlocks.hpp", "src/ACEtk/PhotoatomicTable/src/generateBlocks.hpp", "src/ACEtk/PhotonuclearTable/src/generateBlocks.hpp"]}
{"id": "C59", "title": "Editing a table in place", "statement": "A table whose words are changed through its mutable data accessor reads, through itself, its blocks and every view of them, the changed words; no other table or block built from values changes. Whatever the history of copies, moves, assignments, destructions and edits, every table holds exactly the words the user put into it, its blocks are those delimited when it was made, copied or moved, and a copy reads as a table freshly made from the edited words.", "quantifier": "every history of any length of constructions, copies, moves, assignments, destructions, views and edits of any word to any value", "why_tests_cant": "aliasing between tables, blocks and views depends on the whole history of operations", "anchors": ["src/ACEtk/Table.hpp", "src/ACEtk/Table/Data.hpp", "src/ACEtk/ContinuousEnergyTable.hpp", "src/ACEtk/ContinuousEnergyTable/src/ctor.hpp", "src/ACEtk/ContinuousEnergyTable/src/generateBlocks.hpp"]}
{"id": "C60", "title": "Interpreting any generic table as a typed table ends with the table or with an exception", "statement": "Constructing a typed table of any of the five classes from any generic table returns the table or throws an exception. As the code stands this holds when the locators lie inside of the XSS array and are in order (per class); a locator outside of it is undefined behaviour.", "quantifier": "every header, every NXS, JXS and XSS array, every class of table", "why_tests_cant": "files with wrong locators or a short XSS array are unlimited; a test shows a few of them", "anchors": ["src/ACEtk/DosimetryTable.hpp", "src/ACEtk/PhotoatomicTable/src/generateBlocks.hpp", "src/ACEtk/PhotonuclearTable/src/generateBlocks.hpp", "src/ACEtk/ThermalScatteringTable/src/generateBlocks.hpp", "src/ACEtk/ContinuousEnergyTable/src/generateBlocks.hpp", "src/ACEtk/ContinuousEnergyTable/src/ctor.hpp", "src/ACEtk/Table/Data.hpp"]}
{"id": "C61", "title": "Printed tables follow the fixed lines and columns of the ACE format", "statement": "The text of a table has as many lines as its size says (header, ten lines of IZ/AW, NXS and JXS, and one line for every four XSS words); every number stands in its own fixed columns on its own line, whatever the other numbers are, and in a concatenated file a table starts at the sum of the numbers of lines before it. Each word is written as [-]d.ddddddddddddE+-dd[d].", "quantifier": "every table whose numbers and strings fit their fields (in particular every table of normal doubles), every XSS length, every sequence of tables in a file", "why_tests_cant": "a column is wrong only for particular lengths, signs and magnitudes of neighbouring values; the number of tables and words is unlimited", "anchors": ["src/ACEtk/Table/Data/src/print.hpp", "src/ACEtk/Table/Header/src/print.hpp", "src/ACEtk/Table/Header201/src/print.hpp", "src/ACEtk/Table/src/print.hpp"]}
{"id": "C62", "title": "A file in the columns of the ACE format is read as its numbers, whoever wrote it", "statement": "Reading depends on the columns only: if each number or string stands somewhere in its field (justified either way, with any number of digits, with or without sign, point and exponent, or blank for zero) and lines may be short, reading returns exactly these numbers, in version 1 and version 2 files and in files of several tables; a decimal number is read as a double within one rounding of it.", "quantifier": "every placement of every number in its field, every number of digits, every XSS length, every sequence of tables", "why_tests_cant": "the ways other codes justify and write numbers are unlimited", "anchors": ["src/ACEtk/Table/Data/src/parse.hpp", "src/ACEtk/Table/Header/src/parse.hpp", "src/ACEtk/Table/Header201/src/parse.hpp", "src/ACEtk/Table/src/parse.hpp", "src/ACEtk/fromFile.hpp"]}
{"id": "C63", "title": "The counts an accepted table reports are the sizes of its blocks, and its indexed members accept exactly those indices", "statement": "For a table of any of the five classes that was accepted, every count it reports (length, energies, reactions, particle types, groups, subshells, electron points, ...) equals the number of entries of the block it describes, and a member taking an index returns a value exactly for the indices from 1 up to that count and throws for all others. As the code stands the secondary particle members of continuous energy and photonuclear tables and EION of photoatomic tables are unchecked: an index outside is undefined behaviour instead of the documented exception.", "quantifier": "every accepted table of every class, every index", "why_tests_cant": "it relates the counts to all blocks of all tables, for all indices, including out of range ones that a test run cannot observe safely", "anchors": ["src/ACEtk/ContinuousEnergyTable.hpp", "src/ACEtk/PhotonuclearTable.hpp", "src/ACEtk/PhotoatomicTable.hpp", "src/ACEtk/ThermalScatteringTable.hpp", "src/ACEtk/DosimetryTable.hpp", "src/ACEtk/ContinuousEnergyTable/src/generateBlocks.hpp", "src/ACEtk/PhotonuclearTable/src/generateBlocks.hpp", "src/ACEtk/PhotoatomicTable/src/generateBlocks.hpp", "src/ACEtk/ThermalScatteringTable/src/generateBlocks.hpp"]}
{"id": "C64", "title": "The Python attributes of a table are its C++ members", "statement": "For every table of the five classes and every public member function, the Python attribute with the corresponding name (same abbreviation, or lower case with underscores) gives exactly what the member function gives, without and with any index; descriptive names give what their abbreviation gives; there are no other attributes. As the code stands twelve attributes are wrong or missing.", "quantifier": "every table of every class, every member function, every index", "why_tests_cant": "the Python tests do not use the table classes; a wrong binding is only visible for tables in which the two blocks differ", "anchors": ["python/src/ContinuousEnergyTable.python.cpp", "python/src/DosimetryTable.python.cpp", "python/src/PhotoatomicTable.python.cpp", "python/src/PhotonuclearTable.python.cpp", "python/src/ThermalScatteringTable.python.cpp", "src/ACEtk/ContinuousEnergyTable.hpp", "src/ACEtk/DosimetryTable.hpp", "src/ACEtk/PhotoatomicTable.hpp", "src/ACEtk/PhotonuclearTable.hpp", "src/ACEtk/ThermalScatteringTable.hpp"]}
{"id": "C65", "title": "What a Python program obtains from a table stays valid while it holds it", "statement": "Whatever a Python program does with tables, their blocks and ranges, and in whatever order its names go away, using an object that a name still refers to gives the words of the table it was obtained from. As the code stands this holds for the blocks that are properties of a table; a range of values or a block obtained with an index reads freed memory once the table is gone.", "quantifier": "every program: every sequence of constructions, accesses, uses and names going away", "why_tests_cant": "freed memory often still holds the old values, so a test passes by accident; the orders of destruction are unlimited", "anchors": ["python/src/definitions.hpp", "python/src/ContinuousEnergyTable.python.cpp", "python/src/continuous/PrincipalCrossSectionBlock.python.cpp", "python/src/continuous/CrossSectionBlock.python.cpp", "src/ACEtk/base/Base/src/ctor.hpp"]}
{"id": "C66", "title": "A table made again from its own blocks is the same table", "statement": "Take every block of a table through its accessors, give these blocks back to the constructor: the result is the same table (all words, counts, locators and blocks). Replacing one block on the way changes that block and no other. As the code stands a continuous energy table with delayed neutrons but without precursor groups gives back blocks that its constructor refuses, and a photonuclear table made with an empty list of particles loses its particle locators.", "quantifier": "every table of every class made by its constructor, every choice of optional blocks, every size", "why_tests_cant": "the blocks of a table are views whose ends are found by searching; whether they are complete depends on the combination and size of all other blocks", "anchors": ["src/ACEtk/ContinuousEnergyTable/src/ctor.hpp", "src/ACEtk/ContinuousEnergyTable/src/generateData.hpp", "src/ACEtk/ContinuousEnergyTable/src/generateBlocks.hpp", "src/ACEtk/DosimetryTable.hpp", "src/ACEtk/ThermalScatteringTable/src/generateData.hpp", "src/ACEtk/PhotoatomicTable/src/generateData.hpp", "src/ACEtk/PhotonuclearTable/src/generateData.hpp"]}
{"id": "C67", "title": "A member function of an index accepts exactly the indices there are", "statement": "When a block is made from a range of words that its constructor accepts, each member function that takes a one-based index (element of an array, locator, data of a reaction, incident energy, distribution, precursor group, probability table, transition, pair of incident and outgoing energy) refuses with std::out_of_range exactly the indices outside 1..count, where count is what the block itself reports, and never reads outside of the block; for the others it has a value unless a word that is used as an integer is none. Members that violate this are named: a yield block with the word -1, the probability of a law in a list with law 67, NIEB without probabilities, the locators of secondary particles (IXS) and NTRO.", "quantifier": "all words, all counts given to the constructors, all indices, all block classes", "why_tests_cant": "The claim is about every index for every accepted range of words, including words no test writer thinks of; the failures are at indices just behind the count or 0", "anchors": ["src/ACEtk/base/ArrayData.hpp: dvalue, ivalue, darray", "src/ACEtk/base/BlockWithLocators.hpp: LLOC, data", "src/ACEtk/base/DistributionData.hpp", "src/ACEtk/base/AngularDistributionBlock.hpp", "src/ACEtk/continuous/EnergyDistributionBlock.hpp", "src/ACEtk/continuous/MultiDistributionData.hpp: probability", "src/ACEtk/base/ElectronBlockWithLocators.hpp", "src/ACEtk/thermal/InelasticAngularDistributionBlock.hpp: NIEB, discreteCosineData", "src/ACEtk/continuous/SecondaryParticleLocatorBlock.hpp: LLOC", "src/ACEtk/continuous/SecondaryParticleInformationBlock.hpp: NP"]}
{"id": "C68", "title": "An xsdir entry written by hand is read as its words, or refused", "statement": "For every text of lines (comment lines, blanks, tabs, words of any length, lines continued anywhere with a plus sign), wherever it is in a stream: an entry whose words are a ZAID, a real, a file name, an access route and three whole numbers is read as exactly these values; with a record length, a number of entries and a temperature, and with ptable, it is read with them, zero standing for none; the stream is then behind the last line. Other words are refused with an exception, and the stream has failed and is where it was. As the code stands an eighth word that is no number is ignored with everything behind it, a record length of 2^32 or more becomes 4294967295, and negative numbers are accepted.", "quantifier": "all texts of lines, all words and values, all places in a stream", "why_tests_cant": "hand-written files differ in blanks, comments, continuation and number formats in ways no finite set of files covers", "anchors": ["src/ACEtk/XsdirEntry/src/parse.hpp"]}
{"id": "C69", "title": "Words behind the last word of a block do not change what it gives", "statement": "A block, or the data of a reaction or distribution in it, that can be made from a range of words can be made from the same range followed by any other words, and every member function that returned a value (at any index, at any depth) returns the same value. So it does not matter whether a table hands a block exactly its words or everything up to the next block. As the code stands it does matter for an empty range, for the functions that search a number up to the end of the range, and for the classes that derive their number of values from the size of the range.", "quantifier": "all block classes, all words they are made from, all words behind them, all indices", "why_tests_cant": "a table decides by searching locators where a block ends; the words behind a block are those of any other block or of no block at all", "anchors": ["src/ACEtk/base/ArrayData.hpp", "src/ACEtk/base/ColumnData.hpp", "src/ACEtk/base/BlockWithLocators/src/generateBlocks.hpp", "src/ACEtk/base/DistributionData/src/generateBlocks.hpp", "src/ACEtk/base/AngularDistributionBlock/src/generateBlocks.hpp", "src/ACEtk/continuous/EnergyDistributionBlock/src/generateBlocks.hpp", "src/ACEtk/base/EnergyDistributionBlock.hpp", "src/ACEtk/continuous/FissionMultiplicityBlock/src/generateBlocks.hpp", "src/ACEtk/thermal/InelasticAngularDistributionBlock/src/generateBlocks.hpp", "src/ACEtk/photoatomic/IncoherentScatteringFunctionBlock/src/ctor.hpp", "src/ACEtk/electron/SubshellTransitionData/src/ctor.hpp"]}
{"id": "C70", "title": "Compiled with NDEBUG, every call ends as it does without", "statement": "Every constructor and member function of the block and table classes, compiled with NDEBUG, returns the value it returns compiled without NDEBUG, and throws where that throws, unless an index check fails (or the behaviour is undefined) there; compiled with NDEBUG nothing throws for an index. An index of a data set, or of NXS, JXS and XSS, that the debug build refuses is undefined in the release build; an index in an array block that the debug build refuses can be answered with a value of another array, and a locator index behind the last with a word of the data.", "quantifier": "all constructors and member functions, all words, objects and indices, both builds", "why_tests_cant": "tests run in one build, usually with the checks; that no checked call has another effect than the check has to hold for every input of every function", "anchors": ["src/ACEtk/base/Base.hpp: iterator, XSS", "src/ACEtk/base/Base/src/verifyIndex.hpp", "src/ACEtk/base/ArrayData.hpp", "src/ACEtk/base/BlockWithLocators.hpp", "src/ACEtk/base/DistributionData.hpp", "src/ACEtk/base/AngularDistributionBlock.hpp", "src/ACEtk/Table/Data/src/fetch.hpp", "src/ACEtk/Table/Data/src/XSS.hpp", "src/ACEtk/thermal/InelasticAngularDistributionBlock.hpp", "src/ACEtk/PhotoatomicTable.hpp: EION"]}
{"id": "C71", "title": "Words behind the last word of a table do not change the table", "statement": "When a table of one of the five classes can be made from a generic table, it can be made from the generic table with any words appended to its XSS array; the identification, the arrays but XSS and the optional blocks present are the same, and whatever a member function of any block returned it still returns. As the code stands this is false for photonuclear tables whose block of particle locators is ended by the end of XSS (an appended word can be taken for the end of a block), for photoatomic tables in which a block that derives its size from the number of words is the last, and for an empty block at the end.", "quantifier": "all generic tables, all words appended, all five table classes", "why_tests_cant": "which words of XSS a constructor looks at depends on searches for locators; the words a file may carry behind its data are arbitrary", "anchors": ["src/ACEtk/ContinuousEnergyTable/src/generateBlocks.hpp", "src/ACEtk/DosimetryTable.hpp", "src/ACEtk/ThermalScatteringTable/src/generateBlocks.hpp", "src/ACEtk/PhotoatomicTable/src/generateBlocks.hpp", "src/ACEtk/PhotonuclearTable/src/generateBlocks.hpp"]}
{"id": "C72", "title": "The blocks of a table may be anywhere in XSS", "statement": "When a table of any of the five classes can be made from a generic table, it can be made from a generic table with the same NXS array that has the same blocks at other places, in another order and with other words between them, if its JXS array says where they are and no locator points into another block; whatever a member function of any block returned it still returns. As the code stands this is false for delayed neutron data behind the photon production data, for dosimetry tables with the reaction numbers behind the cross sections, for photonuclear tables with the reaction numbers before the principal cross sections, for photoatomic tables with another block between the scattering functions and the form factors, and for an empty block that has words behind it.", "quantifier": "all generic tables, all arrangements of their blocks", "why_tests_cant": "which words belong to a block is decided by a search through JXS that has exceptions for particular blocks; tests use files of one processing code, which have one order", "anchors": ["src/ACEtk/ContinuousEnergyTable/src/generateBlocks.hpp", "src/ACEtk/DosimetryTable.hpp: generateBlocks", "src/ACEtk/ThermalScatteringTable/src/generateBlocks.hpp", "src/ACEtk/PhotoatomicTable/src/generateBlocks.hpp", "src/ACEtk/PhotonuclearTable/src/generateBlocks.hpp", "src/ACEtk/Table/Data.hpp: JXS"]}
{"id": "C73", "title": "A block of a table is made from its own words", "statement": "Two tables of one class, made from generic tables with the same NXS and JXS arrays and as many words: where the words of a block (from its locator to where the table ends it) are the same in both, the block is the same, whatever the other words of XSS are. So setting a word through data().XSS( i ) and making the table again changes the block it belongs to and no other. What a block is made from besides its own words is exactly: DLW and DLWH the TYR and TYRH block of the table or particle, the blocks of secondary particles the NTRO and IXS (IXSU) blocks, SELAS the BREML block, the electroionisation data of a subshell the lengths and locators of all subshells, and the thermal ITXE, ITCA and ITCAI blocks the energies of ITIE, ITCE and ITCEI.", "quantifier": "all pairs of generic tables with the same NXS and JXS arrays and as many words, all blocks, all particles and subshells", "why_tests_cant": "any word of XSS can be different; a test changes a few words and looks at a few blocks", "anchors": ["src/ACEtk/ContinuousEnergyTable/src/generateBlocks.hpp", "src/ACEtk/PhotonuclearTable/src/generateBlocks.hpp", "src/ACEtk/PhotoatomicTable/src/generateBlocks.hpp", "src/ACEtk/DosimetryTable.hpp: generateBlocks", "src/ACEtk/ThermalScatteringTable/src/generateBlocks.hpp", "src/ACEtk/Table/Data.hpp: XSS"]}
{"id": "C74", "title": "A file that ends too early is not another table", "statement": "When only the beginning of a file is there (the writer crashed, the disk was full, a transfer broke off), fromFile refuses it or gives the table of the whole file; fromConcatenatedFile gives the first tables of the whole file. What holds: nothing but the numbers of the last line can differ, a file that lacks a whole line of the table is refused, numbers of the last line of which no column is left are read as zero.", "quantifier": "all contents of files that are read, every point at which the content is cut off", "why_tests_cant": "a crash can happen at any character; tests read whole files", "anchors": ["src/ACEtk/fromFile.hpp: fromFile, fromConcatenatedFile", "src/ACEtk/Table/src/parse.hpp", "src/ACEtk/Table/Data/src/ctor.hpp", "src/ACEtk/Table/Data/Parse/src/XSS.hpp"]}
{"id": "C75", "title": "Ends of lines mean nothing, and files can be appended", "statement": "Blanks at the ends of lines and the last newline of a file do not change what fromFile and fromConcatenatedFile answer, table or error. Files one behind the other are read as the tables of the first and then the tables of the second; what is behind the first table does not change what fromFile gives. An empty line at the end of a file is an exception.", "quantifier": "all texts, all numbers of blanks at the ends of their lines, all pairs of files", "why_tests_cant": "tests read a few texts, in the form this library prints them", "anchors": ["src/ACEtk/fromFile.hpp: fromFile, fromConcatenatedFile", "src/ACEtk/Table/src/parse.hpp", "src/ACEtk/Table/Header/src/parse.hpp", "src/ACEtk/Table/Header201/src/parse.hpp", "src/ACEtk/Table/Data/src/ctor.hpp"]}
{"id": "C76", "title": "A file holds what was written to it last", "statement": "After any history of to_file calls (tables, tables of a class, xsdir), from_file of a name gives what the last call for this name wrote, whatever the file had before and whatever was written to other files; a file that is never written to keeps its content; a file that is not there is an exception. The full claim has to_file report what could not be written: it does not (the stream is never looked at), and a file that is replaced is emptied first, so that a crash leaves neither the former nor the new table.", "quantifier": "all histories of calls on any names, each of which can fail to open the file or stop after any number of characters", "why_tests_cant": "tests write one table to a file that can be written; a failure can happen at any character of any call", "anchors": ["python/src/Table.python.cpp: to_file, from_file", "python/src/definitions.hpp: addStandardTableDefinitions", "python/src/Xsdir.python.cpp: to_file, from_file", "src/ACEtk/fromFile.hpp: readContentFromFile, fromFile, fromConcatenatedFile", "src/ACEtk/Xsdir/src/fromFile.hpp"]}

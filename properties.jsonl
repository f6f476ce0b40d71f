{"id": "C01", "title": "date2mjd counts calendar days", "statement": "For every valid Gregorian calendar date from 1901-01-01 to 2099-12-31, date2mjd(y,m,d) equals the Modified Julian Day of that date, i.e. the number of days between 1858-11-17 and the date counted by the calendar's own successor rule; in particular it grows by exactly one from each day to the next. Outside years 1901..2099 the call aborts.", "quantifier": "all integers year, month, day forming a valid date in 1901..2099 (and all years outside it for the abort)", "why_tests_cant": "72,684 dates and an arithmetic formula with truncating divisions; the unit test samples three dates.", "anchors": ["src/oifitslib/datemjd.c:date2mjd"]}
{"id": "C02", "title": "date to MJD and back is the identity", "statement": "For every valid calendar date in 1901..2099, mjd2date(date2mjd(y,m,d)) gives back (y,m,d).", "quantifier": "all valid dates in the supported range", "why_tests_cant": "A round trip over the whole range; an off-by-one at a single month or leap boundary escapes sampling.", "anchors": ["src/oifitslib/datemjd.c:date2mjd", "src/oifitslib/datemjd.c:mjd2date"]}
{"id": "C03", "title": "mjd2date yields a valid date and inverts date2mjd", "statement": "For every MJD from 15385 to 88068, mjd2date returns a valid Gregorian date in 1901..2099 and date2mjd of that date is the same MJD.", "quantifier": "all integer MJDs in the range", "why_tests_cant": "Range of 72,684 values; tests sample three.", "anchors": ["src/oifitslib/datemjd.c:date2mjd", "src/oifitslib/datemjd.c:mjd2date"]}
{"id": "C04", "title": "Check results report level, count and locations exactly", "statement": "After any sequence of n breaches reported to one check result with one description, the result's level is the most severe of the levels reported, the breach count is n, the description is the reported one, the first min(n,9) locations are stored verbatim in report order, and if n>=10 the tenth stored line is the truncation marker and nothing else is stored. If descriptions differ, the process aborts.", "quantifier": "all sequences of breach reports of any length", "why_tests_cant": "Unbounded sequences; a boundary error at the reporting limit appears only for particular lengths.", "anchors": ["src/oifitslib/oicheck.c:set_result", "src/oifitslib/oicheck.c:init_check_result", "src/oifitslib/oicheck.c:format_check_result"]}
{"id": "C05", "title": "check_unique_targets detects exactly the repeated targets", "statement": "check_unique_targets returns NONE with zero breaches if and only if all target names in OI_TARGET are pairwise distinct; otherwise it returns WARNING with exactly one breach per record that repeats an earlier name. (Repeated TARGET_IDs are not detected.)", "quantifier": "all OI_TARGET tables of any size", "why_tests_cant": "Pairwise property over tables of any size and any placement of the duplicate.", "anchors": ["src/oifitslib/oicheck.c:check_unique_targets"]}
{"id": "C06", "title": "check_targets_present detects exactly the dangling TARGET_IDs", "statement": "check_targets_present returns OK iff every record of every OI_VIS/OI_VIS2/OI_T3/OI_FLUX table has a TARGET_ID that occurs in OI_TARGET; the breach count is the number of offending records and the level is NOT_OIFITS.", "quantifier": "all datasets", "why_tests_cant": "Universal over tables, records and ids.", "anchors": ["src/oifitslib/oicheck.c:check_targets_present"]}
{"id": "C07", "title": "check_elements_present detects exactly the dangling STA_INDEX values", "statement": "check_elements_present returns OK iff every record of every data table with a non-empty ARRNAME only uses STA_INDEX values found in the array table that lookup by ARRNAME returns, and OI_INSPOL has ARRNAMEs and station indices that resolve.", "quantifier": "all datasets", "why_tests_cant": "Universal over tables, records and station indices; also involves an abort path (two descriptions) that tests do not reach.", "anchors": ["src/oifitslib/oicheck.c:check_elements_present"]}
{"id": "C08", "title": "check_arrname flags exactly the tables lacking ARRNAME", "statement": "check_arrname returns NONE iff the file is not version 2 or every OI_INSPOL, OI_VIS, OI_VIS2, OI_T3 and uncalibrated OI_FLUX table has a non-empty ARRNAME; one breach per offending table; the location names the offending table's type and 1-based position.", "quantifier": "all datasets", "why_tests_cant": "Universal over all tables; the location text for OI_INSPOL tables is never examined by the tests.", "anchors": ["src/oifitslib/oicheck.c:check_arrname"]}
{"id": "C09", "title": "check_corr_present detects exactly the unresolved CORRNAMEs", "statement": "check_corr_present returns OK iff each non-empty CORRNAME in a data table resolves by lookup to an OI_CORR table; one breach per offending table.", "quantifier": "all datasets", "why_tests_cant": "Universal over tables and names, and depends on how reading fills the lookup table.", "anchors": ["src/oifitslib/oicheck.c:check_corr_present", "src/oifitslib/oifile.c:read_oi_fits"]}
{"id": "C10", "title": "check_tables detects missing mandatory tables and bad revisions", "statement": "check_tables returns OK iff mandatory tables are present and every table has a legal revision number for the version of the file; it never aborts.", "quantifier": "all datasets", "why_tests_cant": "The combination of a missing table and a bad revision number is a point in a product space not covered by tests (it aborts).", "anchors": ["src/oifitslib/oicheck.c:check_tables"]}
{"id": "C11", "title": "check_header and check_keywords flag exactly the bad keyword values", "statement": "check_header reports exactly the mandatory primary-header keywords which are empty in a version-2 file; check_keywords reports exactly the tables whose enumerated keywords have values outside the lists of the standard.", "quantifier": "all datasets", "why_tests_cant": "Universal over keyword values.", "anchors": ["src/oifitslib/oicheck.c:check_header", "src/oifitslib/oicheck.c:check_keywords"]}
{"id": "C12", "title": "check_flagging finds exactly the unflagged data with negative errors", "statement": "check_flagging returns OK iff no unflagged datum in OI_VIS/OI_VIS2/OI_T3 has a negative error value; otherwise NOT_OIFITS with one breach per offending datum.", "quantifier": "all datasets and all floating-point implementations", "why_tests_cant": "Universal over channels and values including NaN.", "anchors": ["src/oifitslib/oicheck.c:check_flagging"]}
{"id": "C13", "title": "check_t3amp, check_waveorder, check_time and check_flux decide their stated conditions", "statement": "Each of check_t3amp, check_waveorder, check_time, check_flux and check_visrefmap returns OK iff its stated condition holds of the whole dataset, and otherwise reports the documented severity.", "quantifier": "all datasets", "why_tests_cant": "Universal over tables, records and channels.", "anchors": ["src/oifitslib/oicheck.c:check_t3amp", "src/oifitslib/oicheck.c:check_waveorder", "src/oifitslib/oicheck.c:check_time", "src/oifitslib/oicheck.c:check_flux", "src/oifitslib/oicheck.c:check_visrefmap"]}
{"id": "C14", "title": "No check modifies the dataset or aborts on a readable dataset", "statement": "Running any of the check functions on any well-formed dataset (one whose array lengths match its counts and which has at least one row per table, as after reading a file) terminates with a result: no abort, no out-of-bounds access.", "quantifier": "all well-formed datasets", "why_tests_cant": "Absence of abort over all combinations of breaches; tests exercise each breach alone.", "anchors": ["src/oifitslib/oicheck.c:set_result", "src/oifitslib/oicheck.c:check_tables", "src/oifitslib/oicheck.c:check_elements_present"]}
{"id": "C15", "title": "oifits-check reports what the checks find", "statement": "Given a readable file, oifits-check prints the summary of the dataset, then what each of the fourteen checks found, in order, and 'All checks passed' iff none found anything; it ends with status 0. If a check finds breaches of different kinds, the process is aborted at this check. With an unreadable file the status is 1, with a wrong number of arguments 2. It never changes a file.", "quantifier": "all files and datasets", "why_tests_cant": "Universal over the outcome vectors of the checks.", "anchors": ["src/util/oifits-check.c:main"]}
{"id": "C16", "title": "Lookups return the first match and NULL iff there is none", "statement": "Looking up a target by id or by name, or a station by ARRNAME and STA_INDEX, returns the first record with that key, and NULL exactly if no record has it.", "quantifier": "all datasets and keys", "why_tests_cant": "Universal over tables and keys.", "anchors": ["src/oifitslib/oifile.c:oi_fits_lookup_target", "src/oifitslib/oifile.c:oi_fits_lookup_target_by_name", "src/oifitslib/oifile.c:oi_fits_lookup_element"]}
{"id": "C17", "title": "After reading, references by name resolve to the first table with that name", "statement": "In a dataset produced by read_oi_fits, for each ARRNAME, INSNAME and CORRNAME referenced by a table of the file, lookup by name returns the first table in the file of that name if one exists.", "quantifier": "all files", "why_tests_cant": "Universal over files and reference patterns; OI_INSPOL and OI_FLUX references are not exercised by tests.", "anchors": ["src/oifitslib/oifile.c:read_oi_fits", "src/oifitslib/oifile.c:find_oi_array", "src/oifitslib/oifile.c:find_oi_wavelength", "src/oifitslib/oifile.c:find_oi_corr", "src/oifitslib/oifile.c:oi_fits_lookup_array", "src/oifitslib/oifile.c:oi_fits_lookup_wavelength", "src/oifitslib/oifile.c:oi_fits_lookup_corr"]}
{"id": "C18", "title": "count_oi_fits_data counts the unflagged data", "statement": "The three counts returned equal the number of (table, record, channel) triples whose flag is not set in OI_VIS, OI_VIS2 and OI_T3 respectively.", "quantifier": "all well-formed datasets", "why_tests_cant": "Universal over shapes.", "anchors": ["src/oifitslib/oifile.c:count_oi_fits_data"]}
{"id": "C19", "title": "is_atomic means one target, one instrument, bounded time span", "statement": "is_atomic(d, maxDays) holds iff there is exactly one OI_WAVELENGTH table, one target, at most one OI_ARRAY table, and (for MJDs in the library's nominal range) any two data records are at most maxDays apart in MJD. An empty dataset is not atomic.", "quantifier": "all datasets and all maxDays", "why_tests_cant": "Universal over pairs of records across four table types.", "anchors": ["src/oifitslib/oifile.c:is_atomic", "src/oifitslib/oifile.c:get_min_mjd", "src/oifitslib/oifile.c:get_max_mjd"]}
{"id": "C20", "title": "Observation time span and wavelength range are exact bounds", "statement": "The minimum and maximum MJD (and wavelength) computed for a dataset are attained by a record (channel) and bound all others, provided the values lie in the nominal range used as starting value.", "quantifier": "all datasets, any totally ordered number type", "why_tests_cant": "Universal over records; the sentinel start values are a boundary tests do not cover.", "anchors": ["src/oifitslib/oifile.c:get_min_mjd", "src/oifitslib/oifile.c:get_max_mjd", "src/oifitslib/oifile.c:get_min_wavelength", "src/oifitslib/oifile.c:get_max_wavelength"]}
{"id": "C21", "title": "set_oi_header derives the header from the tables", "statement": "set_oi_header sets TELESCOP/INSTRUME/OBJECT to the single array/instrument/target name when there is exactly one and to MULTIPLE (or UNKNOWN for no array) otherwise, DATE-OBS to the calendar date of the earliest MJD, ORIGIN/OBSERVER/INSMODE to UNKNOWN, and changes nothing else.", "quantifier": "all datasets", "why_tests_cant": "Universal over table counts and dates.", "anchors": ["src/oifitslib/oifile.c:set_oi_header"]}
{"id": "C22", "title": "Duplicating a table gives an equal table", "statement": "dup_oi_X(t) yields a table with all the same contents as t, for each table type X.", "quantifier": "all tables of every type", "why_tests_cant": "Universal over contents; one wrongly copied column shows only when that column differs from its neighbour.", "anchors": ["src/oifitslib/oifile.c:dup_oi_array", "src/oifitslib/oifile.c:dup_oi_wavelength", "src/oifitslib/oifile.c:dup_oi_corr", "src/oifitslib/oifile.c:dup_oi_inspol", "src/oifitslib/oifile.c:dup_oi_vis", "src/oifitslib/oifile.c:dup_oi_vis2", "src/oifitslib/oifile.c:dup_oi_t3", "src/oifitslib/oifile.c:dup_oi_flux"]}
{"id": "C23", "title": "Upgrading a table changes only what version 2 requires", "statement": "upgrade_oi_X sets the revision of a version-1 table to the version-2 number and zeroes TIME, leaves all other content as it was, is idempotent, and does nothing to a version-2 table.", "quantifier": "all tables", "why_tests_cant": "Universal over contents.", "anchors": ["src/oifitslib/oifile.c:upgrade_oi_target", "src/oifitslib/oifile.c:upgrade_oi_array", "src/oifitslib/oifile.c:upgrade_oi_wavelength", "src/oifitslib/oifile.c:upgrade_oi_vis", "src/oifitslib/oifile.c:upgrade_oi_vis2", "src/oifitslib/oifile.c:upgrade_oi_t3"]}
{"id": "C24", "title": "An iterator visits exactly the accepted data, once each, in order", "statement": "From initialisation, successive oi_X_iter_next calls return TRUE once for each (table, record, channel) of the dataset that satisfies the filter (flagged data being accepted only if the filter accepts flagged data), in table, record, channel order, reporting the right EXTVER, record index, channel index, and then return FALSE.", "quantifier": "all well-formed datasets, all filters, all floating-point implementations", "why_tests_cant": "Universal over shapes, filters and call histories.", "anchors": ["src/oifitslib/oiiter.c:oi_vis_iter_init", "src/oifitslib/oiiter.c:oi_vis_iter_next", "src/oifitslib/oiiter.c:oi_vis2_iter_next", "src/oifitslib/oiiter.c:oi_t3_iter_next"]}
{"id": "C25", "title": "An exhausted iterator stays exhausted and never reads out of bounds", "statement": "Once an iterator returns FALSE all later calls return FALSE; on datasets whose tables are non-empty and whose instruments resolve to wavelength tables of matching length, no call reads out of bounds.", "quantifier": "all call histories of any length", "why_tests_cant": "Unbounded call histories.", "anchors": ["src/oifitslib/oiiter.c:oi_vis_iter_next", "src/oifitslib/oiiter.c:oi_vis2_iter_next", "src/oifitslib/oiiter.c:oi_t3_iter_next"]}
{"id": "C26", "title": "Iterator uv coordinates are baseline over wavelength", "statement": "oi_X_iter_get_uv returns UCOORD, VCOORD (and the second baseline for triples) of the current record divided by the effective wavelength of the current channel in the instrument the table refers to.", "quantifier": "all datasets and iterator positions", "why_tests_cant": "Universal over positions.", "anchors": ["src/oifitslib/oiiter.c:oi_vis_iter_get_uv", "src/oifitslib/oiiter.c:oi_vis2_iter_get_uv", "src/oifitslib/oiiter.c:oi_t3_iter_get_uv"]}
{"id": "C27", "title": "Unfiltered iteration agrees with count_oi_fits_data", "statement": "With flagged data not accepted and the other criteria excluding nothing, the number of TRUE results of an iterator equals the unflagged count returned by count_oi_fits_data.", "quantifier": "all well-formed datasets", "why_tests_cant": "Relates two independent traversals on all inputs.", "anchors": ["src/oifitslib/oiiter.c:oi_vis_iter_next", "src/oifitslib/oifile.c:count_oi_fits_data"]}
{"id": "C28", "title": "Filtering keeps exactly the records that satisfy the criteria, in order", "statement": "For each data table accepted by the name patterns whose instrument keeps some channel, apply_oi_filter outputs the subsequence of the records that match TARGET_ID, MJD range, baseline range and (if all-flagged records are not accepted) have an acceptable unflagged datum; a table that would be empty is omitted; no other record appears.", "quantifier": "all filters and all datasets with tables as allocated, unique INSNAMEs and channel counts that agree with OI_WAVELENGTH", "why_tests_cant": "Universal over datasets and the product of the filter criteria.", "anchors": ["src/oifitslib/oifilter.c:apply_oi_filter", "src/oifitslib/oifilter.c:filter_oi_vis", "src/oifitslib/oifilter.c:filter_oi_vis2", "src/oifitslib/oifilter.c:filter_oi_t3", "src/oifitslib/oifilter.c:filter_oi_flux"]}
{"id": "C29", "title": "Filtering keeps exactly the channels in the wavelength range", "statement": "In each output table every channel array is the subsequence of the input array at the channels whose effective wavelength is in range, so data, errors, flags and VISREFMAP stay aligned with the filtered OI_WAVELENGTH table of the same INSNAME.", "quantifier": "all filters and all datasets with tables as allocated, unique INSNAMEs and channel counts that agree with OI_WAVELENGTH", "why_tests_cant": "Alignment of parallel arrays for every mask.", "anchors": ["src/oifitslib/oifilter.c:filter_oi_wavelength", "src/oifitslib/oifilter.c:filter_all_oi_wavelength", "src/oifitslib/oifilter.c:filter_oi_vis", "src/oifitslib/oifilter.c:filter_oi_vis2", "src/oifitslib/oifilter.c:filter_oi_t3", "src/oifitslib/oifilter.c:filter_oi_flux"]}
{"id": "C30", "title": "Filtering only ever sets flags, exactly for out-of-range data", "statement": "An output datum is flagged iff its input datum was flagged or its UV radius or SNR is out of range; flags are never cleared and no data value is altered (except T3AMP/T3PHI and flux values nulled as documented).", "quantifier": "all filters and all datasets with tables as allocated, unique INSNAMEs and channel counts that agree with OI_WAVELENGTH", "why_tests_cant": "Universal over channels, including NaN handling.", "anchors": ["src/oifitslib/oifilter.c:filter_oi_vis_record", "src/oifitslib/oifilter.c:filter_oi_vis2_record", "src/oifitslib/oifilter.c:filter_oi_t3_record", "src/oifitslib/oifilter.c:filter_oi_flux_record"]}
{"id": "C31", "title": "Rejecting flagged records leaves no all-flagged record and never aborts", "statement": "With accept_flagged off, every output OI_VIS/OI_VIS2/OI_T3 record has an unflagged datum, and the internal assertion of that never fails.", "quantifier": "all filters and all datasets with tables as allocated, unique INSNAMEs and channel counts that agree with OI_WAVELENGTH, with accept_flagged = 0", "why_tests_cant": "Two separately coded tests (record selection and channel flagging) must agree on all inputs.", "anchors": ["src/oifitslib/oifilter.c:any_vis_chan_ok", "src/oifitslib/oifilter.c:any_vis2_chan_ok", "src/oifitslib/oifilter.c:any_t3_chan_ok", "src/oifitslib/oifilter.c:filter_oi_vis_record", "src/oifitslib/oifilter.c:filter_oi_vis2_record", "src/oifitslib/oifilter.c:filter_oi_t3_record"]}
{"id": "C32", "title": "Filtered datasets have no orphan tables and no new dangling references", "statement": "After apply_oi_filter each OI_ARRAY, OI_WAVELENGTH and OI_CORR table is referenced by some data table, each data table's INSNAME resolves in the output, and each ARRNAME or CORRNAME which resolved in the input resolves in the output.", "quantifier": "all filters and all datasets with tables as allocated, unique INSNAMEs and channel counts that agree with OI_WAVELENGTH", "why_tests_cant": "Universal over reference graphs.", "anchors": ["src/oifitslib/oifilter.c:apply_oi_filter", "src/oifitslib/oifilter.c:prune_oi_array", "src/oifitslib/oifilter.c:prune_oi_wavelength", "src/oifitslib/oifilter.c:prune_oi_corr", "src/oifitslib/oifilter.c:prune_oi_inspol"]}
{"id": "C33", "title": "A target filter selects one target and renumbers it consistently", "statement": "With target_id >= 0, the output OI_TARGET has at most one record, the input record of that id renumbered 1, and all output data records have TARGET_ID 1; with target_id < 0 targets are unchanged.", "quantifier": "all filters and all datasets with tables as allocated, unique INSNAMEs and channel counts that agree with OI_WAVELENGTH", "why_tests_cant": "Universal over ids and data.", "anchors": ["src/oifitslib/oifilter.c:filter_oi_target", "src/oifitslib/oifilter.c:filter_oi_vis", "src/oifitslib/oifilter.c:filter_oi_inspol"]}
{"id": "C34", "title": "The initial filter accepts all data", "statement": "apply_oi_filter with the filter from init_oi_filter changes no data, provided the data are within the nominal ranges the filter starts with.", "quantifier": "all datasets with tables as allocated, unique INSNAMEs and channel counts that agree with OI_WAVELENGTH", "why_tests_cant": "Universal; the claim in the header ('accept all data') hides range assumptions that tests do not probe.", "anchors": ["src/oifitslib/oifilter.c:init_oi_filter", "src/oifitslib/oifilter.c:apply_oi_filter"]}
{"id": "C35", "title": "Filtering is idempotent", "statement": "Applying the same filter (without a target restriction) to a filtered dataset changes nothing further.", "quantifier": "all well-formed datasets and filters", "why_tests_cant": "Relates two runs on all inputs.", "anchors": ["src/oifitslib/oifilter.c:apply_oi_filter"]}
{"id": "C36", "title": "Filtering an OI_INSPOL table stays within its buffers", "statement": "filter_oi_inspol never writes outside the arrays it allocates and gives each kept record one Jones value per accepted channel of the record's instrument.", "quantifier": "all OI_INSPOL tables, including those naming several instruments", "why_tests_cant": "Needs tables with records of different instruments with different channel masks.", "anchors": ["src/oifitslib/oifilter.c:filter_oi_inspol"]}
{"id": "C37", "title": "Name patterns mean * and ? globs", "statement": "A table passes a name pattern iff the whole name matches the pattern with * standing for any string and ? for any one character.", "quantifier": "all names and patterns", "why_tests_cant": "Infinite domain of strings.", "anchors": ["src/oifitslib/oifilter.c:ACCEPT_ARRNAME", "src/oifitslib/oifilter.c:ACCEPT_INSNAME", "src/oifitslib/oifilter.c:ACCEPT_CORRNAME"]}
{"id": "C38", "title": "Merged targets are unique by name and numbered 1..n", "statement": "The merged OI_TARGET has one record for each distinct target name among the inputs, in order of first appearance, with the content of the first record of that name and TARGET_IDs 1,2,...,n.", "quantifier": "all lists of datasets (with fewer than 100 distinct targets)", "why_tests_cant": "Universal over lists of inputs and overlaps of names.", "anchors": ["src/oifitslib/oimerge.c:merge_oi_target"]}
{"id": "C39", "title": "Merging preserves which target each record observed", "statement": "For each record of each input data table, the corresponding merged record's TARGET_ID denotes a merged target with the same name as the target the input record referred to in its own dataset.", "quantifier": "all lists of datasets whose TARGET_IDs resolve", "why_tests_cant": "Universal over renumberings.", "anchors": ["src/oifitslib/oimerge.c:merge_all_oi_vis", "src/oifitslib/oimerge.c:merge_all_oi_vis2", "src/oifitslib/oimerge.c:merge_all_oi_t3", "src/oifitslib/oimerge.c:merge_all_oi_flux", "src/oifitslib/oimerge.c:merge_all_oi_inspol"]}
{"id": "C40", "title": "Merging preserves all data in order", "statement": "The merged data tables are the concatenation of the inputs' data tables, in input order, each with its records and measured values unchanged (apart from references, revision and TIME).", "quantifier": "all lists of datasets", "why_tests_cant": "Universal over lists of inputs.", "anchors": ["src/oifitslib/oimerge.c:merge_all_oi_vis", "src/oifitslib/oimerge.c:merge_all_oi_vis2", "src/oifitslib/oimerge.c:merge_all_oi_t3", "src/oifitslib/oimerge.c:merge_all_oi_flux", "src/oifitslib/oimerge.c:merge_all_oi_inspol"]}
{"id": "C41", "title": "Merging preserves instrument references", "statement": "For each input data table whose INSNAME resolves in its dataset, the merged table's INSNAME names a merged OI_WAVELENGTH table with the same number of channels and effective wavelengths equal within tolerance.", "quantifier": "all lists of datasets", "why_tests_cant": "Universal over sequences of clashing and matching tables.", "anchors": ["src/oifitslib/oimerge.c:merge_all_oi_wavelength", "src/oifitslib/oimerge.c:match_oi_wavelength"]}
{"id": "C42", "title": "Merging preserves array references", "statement": "For each input table whose ARRNAME resolves, the merged table's ARRNAME names a merged OI_ARRAY table containing all its stations with the same geometry within tolerance.", "quantifier": "all lists of datasets", "why_tests_cant": "Universal over sequences of clashing and matching tables.", "anchors": ["src/oifitslib/oimerge.c:merge_all_oi_array", "src/oifitslib/oimerge.c:match_oi_array"]}
{"id": "C43", "title": "Merged table names are unique", "statement": "No two merged OI_ARRAY tables share an ARRNAME, no two OI_WAVELENGTH tables an INSNAME, no two OI_CORR tables a CORRNAME, provided that holds of each input.", "quantifier": "all lists of datasets", "why_tests_cant": "Name generation may collide with names occurring later or earlier; a test would have to guess the generated name.", "anchors": ["src/oifitslib/oimerge.c:merge_all_oi_array", "src/oifitslib/oimerge.c:merge_all_oi_wavelength", "src/oifitslib/oimerge.c:merge_all_oi_corr"]}
{"id": "C44", "title": "Merged header keywords summarise the inputs", "statement": "Each merged header keyword is the common value if all inputs which set it agree, MULTIPLE if they disagree, and UNKNOWN (mandatory) or empty (optional) if none sets it; CONTENT is OIFITS2.", "quantifier": "all lists of datasets", "why_tests_cant": "Universal over lists of keyword values.", "anchors": ["src/oifitslib/oimerge.c:merge_oi_header"]}
{"id": "C45", "title": "Merged DATE-OBS is the earliest input date", "statement": "The merged primary DATE-OBS is the calendar-earliest of the inputs' parseable DATE-OBS values.", "quantifier": "all lists of datasets with valid dates", "why_tests_cant": "Universal over lists and dates; compounds a parse, a date conversion and its inverse.", "anchors": ["src/oifitslib/oimerge.c:files_min_mjd", "src/oifitslib/oimerge.c:merge_oi_header"]}
{"id": "C46", "title": "Merge output is a version-2 dataset", "statement": "Every table in the merge output has a revision number of at least the version-2 value and the header identifies it as OIFITS2, whatever the versions of the inputs.", "quantifier": "all lists of datasets", "why_tests_cant": "Universal over mixtures of versions.", "anchors": ["src/oifitslib/oimerge.c:merge_oi_fits_list"]}
{"id": "C47", "title": "Table counts agree with the table lists", "statement": "In every dataset produced by init_oi_fits, read_oi_fits, apply_oi_filter or merge_oi_fits_list, numArray, numVis etc. equal the lengths of the respective lists.", "quantifier": "all outputs of those functions", "why_tests_cant": "An invariant over all operation histories.", "anchors": ["src/oifitslib/oifile.c:init_oi_fits", "src/oifitslib/oifile.c:read_oi_fits", "src/oifitslib/oifilter.c:apply_oi_filter", "src/oifitslib/oimerge.c:merge_oi_fits_list"]}
{"id": "C48", "title": "Lookup tables agree with the table lists", "statement": "In every dataset produced by filter or merge, looking a name up returns a table of that name from the list, and returns NULL only if the list has none.", "quantifier": "all outputs of those functions", "why_tests_cant": "An invariant over all operation histories.", "anchors": ["src/oifitslib/oifile.c:oi_fits_lookup_array", "src/oifitslib/oifile.c:oi_fits_lookup_wavelength", "src/oifitslib/oifile.c:oi_fits_lookup_corr"]}
{"id": "C49", "title": "Writing then reading a table gives the table back", "statement": "For each table type, reading the HDU written by write_oi_X returns the same contents (with the revision number of version 2, TIME zero, and values which the format cannot hold normalised).", "quantifier": "all well-formed tables within the limits of the FITS column types", "why_tests_cant": "Universal over optional-column combinations and contents.", "anchors": ["src/oifitslib/write_fits.c:write_oi_array", "src/oifitslib/write_fits.c:write_oi_target", "src/oifitslib/write_fits.c:write_oi_wavelength", "src/oifitslib/write_fits.c:write_oi_corr", "src/oifitslib/write_fits.c:write_oi_inspol", "src/oifitslib/write_fits.c:write_oi_vis", "src/oifitslib/write_fits.c:write_oi_vis2", "src/oifitslib/write_fits.c:write_oi_t3", "src/oifitslib/write_fits.c:write_oi_flux", "src/oifitslib/read_fits.c:read_oi_target", "src/oifitslib/read_fits.c:read_next_oi_array", "src/oifitslib/read_fits.c:read_next_oi_vis", "src/oifitslib/read_fits.c:read_next_oi_vis2", "src/oifitslib/read_fits.c:read_next_oi_t3", "src/oifitslib/read_fits.c:read_next_oi_flux"]}
{"id": "C50", "title": "Writing then reading a file gives the dataset back", "statement": "read_oi_fits of the file written by write_oi_fits returns the same tables of each type in the same order.", "quantifier": "all well-formed datasets", "why_tests_cant": "Universal over numbers of tables of each type.", "anchors": ["src/oifitslib/oifile.c:write_oi_fits", "src/oifitslib/oifile.c:read_oi_fits"]}
{"id": "C51", "title": "A pending error makes every I/O call a no-op", "statement": "Every read_*/write_* function called with a non-zero status returns that status and neither writes to the file, nor changes its output argument.", "quantifier": "all functions, statuses and arguments", "why_tests_cant": "Universal over states at the point of failure.", "anchors": ["src/oifitslib/read_fits.c:read_oi_header", "src/oifitslib/read_fits.c:read_next_oi_vis", "src/oifitslib/write_fits.c:write_oi_vis", "src/oifitslib/oifile.c:read_oi_fits", "src/oifitslib/oifile.c:write_oi_fits"]}
{"id": "C52", "title": "EXTVER numbers tables of each type from 1", "statement": "write_oi_fits gives the k-th table of each type EXTVER = k.", "quantifier": "all datasets", "why_tests_cant": "Universal over counts.", "anchors": ["src/oifitslib/oifile.c:WRITE_OI_LIST", "src/oifitslib/oifile.c:write_oi_fits"]}
{"id": "C53", "title": "Reading by name finds the named table", "statement": "read_oi_array/read_oi_wavelength/read_oi_corr read the first binary table of the right EXTNAME with the requested name, and fail if there is none.", "quantifier": "all files, including those with other kinds of extension", "why_tests_cant": "Requires files with image extensions at every position.", "anchors": ["src/oifitslib/read_fits.c:specific_named_hdu", "src/oifitslib/read_fits.c:read_oi_array", "src/oifitslib/read_fits.c:read_oi_wavelength", "src/oifitslib/read_fits.c:read_oi_corr"]}
{"id": "C54", "title": "Sequential reading visits each table of a type once, in file order", "statement": "Repeated read_next_oi_X calls from the primary HDU return the tables with that EXTNAME in file order, skipping all other HDUs, then END_OF_FILE; the loop always terminates.", "quantifier": "all files without empty tables (those make the reader abort, see C63)", "why_tests_cant": "Universal over interleavings of HDU kinds.", "anchors": ["src/oifitslib/read_fits.c:next_named_hdu", "src/oifitslib/read_fits.c:read_next_oi_vis"]}
{"id": "C55", "title": "Column format strings are built correctly", "statement": "make_tform replaces the ? of a template by the decimal channel count, leaving other templates as they are, for all counts the format can hold, and aborts instead of overflowing its buffer.", "quantifier": "all templates and channel counts", "why_tests_cant": "Universal over counts; the buffer bound bites only from 10000 channels.", "anchors": ["src/oifitslib/write_fits.c:make_tform"]}
{"id": "C56", "title": "oifits-filter does not overwrite without permission", "statement": "The oifits-filter program leaves an existing output file untouched unless --clobber is given.", "quantifier": "all inputs and options", "why_tests_cant": "Universal over option combinations and file states.", "anchors": ["src/util/oifits-filter.c:main"]}
{"id": "C57", "title": "Iteration with a filter agrees with filtering", "statement": "For any filter f, the data an iterator visits which is given the criteria of f and told not to accept flagged data (with f itself, if f does not accept them) correspond one to one, in order and value, to the unflagged data of the dataset produced by apply_oi_filter with f.", "quantifier": "all filters and all datasets with tables as allocated, unique INSNAMEs and channel counts that agree with OI_WAVELENGTH", "why_tests_cant": "Relates two independently written implementations of the same criteria on all inputs.", "anchors": ["src/oifitslib/oiiter.c:oi_vis2_iter_next", "src/oifitslib/oifilter.c:apply_oi_filter"]}
{"id": "C58", "title": "Merging preserves correlation matrix references", "statement": "For each input data table whose CORRNAME resolves in its dataset, the merged table's CORRNAME names a merged OI_CORR table with the same elements.", "quantifier": "all lists of datasets", "why_tests_cant": "Universal over lists and name clashes.", "anchors": ["src/oifitslib/oimerge.c:merge_all_oi_corr", "src/oifitslib/oimerge.c:merge_all_oi_vis2"]}
{"id": "C59", "title": "Merging does not invent references", "statement": "A data table reference (INSNAME, ARRNAME, CORRNAME) which names no table of its own dataset is left unchanged by merging and does not come to name a table of another dataset.", "quantifier": "all lists of datasets with dangling references", "why_tests_cant": "Universal over combinations of names in several inputs.", "anchors": ["src/oifitslib/oimerge.c:merge_all_oi_wavelength", "src/oifitslib/oimerge.c:merge_all_oi_vis2"]}
{"id": "C60", "title": "Version detection", "statement": "is_oi_fits_two is true exactly for datasets whose primary header says CONTENT = 'OIFITS2'; is_oi_fits_one exactly for those whose header does not and whose OI_TARGET, OI_ARRAY, OI_WAVELENGTH, OI_VIS, OI_VIS2 and OI_T3 tables all have the version 1 revision number; never are both true.", "quantifier": "all datasets", "why_tests_cant": "Universal over lists of tables of any length; a missed table type goes unnoticed in samples.", "anchors": ["src/oifitslib/oifile.c:is_oi_fits_one", "src/oifitslib/oifile.c:is_oi_fits_two"]}
{"id": "C61", "title": "A table lacking a mandatory column or keyword is never read successfully", "statement": "read_oi_X on a table without one of the columns or keywords the format makes mandatory for that table ends with a non-zero status.", "quantifier": "all files and all HDUs of the table's type which lack a mandatory column or keyword", "why_tests_cant": "Universal over which column is missing and over the rest of the file's contents.", "anchors": ["src/oifitslib/read_fits.c:read_next_oi_vis", "src/oifitslib/read_fits.c:read_next_oi_vis2", "src/oifitslib/read_fits.c:read_next_oi_t3", "src/oifitslib/read_fits.c:read_next_oi_flux", "src/oifitslib/read_fits.c:read_oi_target", "src/oifitslib/read_fits.c:read_oi_array_chdu"]}
{"id": "C62", "title": "Files written follow the OIFITS format", "statement": "The file write_oi_fits produces holds exactly a primary HDU, the OI_TARGET table and one table for each table of the dataset, in the order arrays, wavelengths, correlations, polarisation, VIS, VIS2, T3, FLUX, each with all its mandatory keywords and columns, and the contents of the dataset in the respective cells.", "quantifier": "all datasets which the format can store", "why_tests_cant": "Universal over numbers of tables, optional columns and contents.", "anchors": ["src/oifitslib/oifile.c:write_oi_fits", "src/oifitslib/write_fits.c:write_oi_vis", "src/oifitslib/write_fits.c:write_oi_target"]}
{"id": "C63", "title": "Reading any file ends with a dataset or an error", "statement": "read_oi_fits on any sequence of HDUs terminates without undefined behaviour, and returns a dataset and zero status, or no dataset and a non-zero status; it does not abort unless the file has an empty table.", "quantifier": "all files, however malformed", "why_tests_cant": "Universal over malformed files.", "anchors": ["src/oifitslib/oifile.c:read_oi_fits", "src/oifitslib/read_fits.c:next_named_hdu", "src/oifitslib/read_fits.c:read_next_oi_vis"]}
{"id": "C64", "title": "Datasets read are well formed", "statement": "Each array of each table of a dataset read_oi_fits returns has the number of entries the counts in the table promise (numrec, nwave), including the optional arrays whose use flags are set.", "quantifier": "all files", "why_tests_cant": "Universal over files with inconsistent column widths and row counts.", "anchors": ["src/oifitslib/oifile.c:read_oi_fits", "src/oifitslib/read_fits.c:read_next_oi_vis", "src/oifitslib/read_fits.c:read_next_oi_flux"]}
{"id": "C65", "title": "A second round trip changes nothing", "statement": "If a dataset is written, read and written again then the two files have the same contents.", "quantifier": "all datasets which the format can store", "why_tests_cant": "Universal over datasets.", "anchors": ["src/oifitslib/oifile.c:write_oi_fits", "src/oifitslib/oifile.c:read_oi_fits"]}
{"id": "C66", "title": "Datasets read hold the readable tables of the file", "statement": "When read_oi_fits succeeds, the list of tables of each type consists of the results of reading, in file order, the tables of that type; tables of optional types which cannot be read are left out, and an unreadable OI_TARGET, OI_ARRAY or OI_WAVELENGTH table makes it fail.", "quantifier": "all files", "why_tests_cant": "Universal over the positions of unreadable tables.", "anchors": ["src/oifitslib/oifile.c:read_oi_fits"]}
{"id": "C67", "title": "The summary lists every table", "statement": "format_oi_fits_summary returns, whatever was formatted before, the OIFITS version, the header of version 2 data, and one line per table, in order, with its name, numbers of rows and channels and shortest and longest wavelength.", "quantifier": "all datasets and previous calls", "why_tests_cant": "Universal over datasets, and over the contents of the static buffer.", "anchors": ["src/oifitslib/oifile.c:format_oi_fits_summary", "src/oifitslib/oifile.c:format_array_list_summary", "src/oifitslib/oifile.c:format_oi_fits_summary", "src/oifitslib/oifile.c:get_min_wavelength", "src/oifitslib/oifile.c:get_max_wavelength"]}
{"id": "C68", "title": "The text for a filter shows all of its criteria", "statement": "format_oi_filter returns, whatever was formatted before, a text with the names, target, ranges and accepted types of the filter.", "quantifier": "all filters and previous calls", "why_tests_cant": "Universal over filters.", "anchors": ["src/oifitslib/oifilter.c:format_oi_filter"]}
{"id": "C69", "title": "Options of oifits-filter make the filter", "statement": "Each filter option sets one criterion: the last value given counts, the default if there is none. Wavelengths are given in nm. Names are cut off after 70 characters.", "quantifier": "all sequences of options", "why_tests_cant": "Universal over the order and number of options.", "anchors": ["src/oifitslib/oifilter.c:get_user_oi_filter", "src/oifitslib/oifilter.c:filter_pre_parse", "src/oifitslib/oifilter.c:filter_post_parse", "src/oifitslib/oifilter.c:filterEntries"]}
{"id": "C70", "title": "oifits-filter writes the filtered dataset", "statement": "Given a readable input file, oifits-filter prints the summaries of input and output and the filter, writes the filtered dataset to the output file and ends with status 0, if there is no such file or --clobber is given. If it ends with status 0 then the output file holds the result of filtering the dataset in the input file. If the input file is unreadable it ends with status 1 and changes nothing. It changes no other file.", "quantifier": "all files, options and file names not beginning with '!'", "why_tests_cant": "Universal over the contents of the file system.", "anchors": ["src/util/oifits-filter.c:main"]}
{"id": "C71", "title": "oifits-merge writes the merged dataset to a new file", "statement": "oifits-merge reads all input files, prints the summary of the merged dataset, writes it to the output file and ends with status 0; if it ends with status 0 then all files were read and the output file, which did not exist, holds the merged dataset. It changes no existing file. If an input file is unreadable it ends with status 1 and changes nothing.", "quantifier": "all files and any number of inputs; output names not beginning with '!'", "why_tests_cant": "Universal over the number and contents of input files.", "anchors": ["src/util/oifits-merge.c:main"]}
{"id": "C72", "title": "oifits-upgrade adds the keywords version 2 needs", "statement": "oifits-upgrade refuses version 2 data and data without OI_ARRAY, with status 1 and changing nothing. Otherwise it writes the dataset with the given ORIGIN, OBSERVER and INSMODE to a new file and ends with status 0, and only then. It changes no existing file.", "quantifier": "all files and arguments; output names not beginning with '!'", "why_tests_cant": "Universal over the contents of the input file.", "anchors": ["src/util/oifits-upgrade.c:main"]}
{"id": "C73", "title": "The files which the programs make can be read again", "statement": "When oifits-filter, oifits-merge or oifits-upgrade is given readable, consistent input files, and the output file does not exist, it ends with status 0, and the output file can be read again: reading it gives the filtered, merged or upgraded dataset, as reading gives back what was written.", "quantifier": "all files, options and numbers of input files", "why_tests_cant": "Quantifies over the contents of files through three layers: reading, the operation, and writing.", "anchors": ["src/util/oifits-filter.c:main", "src/util/oifits-merge.c:main", "src/util/oifits-upgrade.c:main", "src/oifitslib/write_fits.c", "src/oifitslib/read_fits.c"]}
{"id": "C74", "title": "oifits-check passes exactly the files which conform", "statement": "oifits-check prints, after the summary, just that all checks passed if, and only if, the dataset in the file keeps all rules it examines: mandatory tables, revision numbers, mandatory and permitted keyword values, distinct target names, references to targets, stations and correlation matrices which exist, flags on data with negative errors, normalised T3 amplitudes, ascending wavelengths, TIME zero, and ARRNAME, STA_INDEX and FOVTYPE of spectra according to CALSTAT. Otherwise it is aborted, or the summary is followed by a report.", "quantifier": "all files which can be read", "why_tests_cant": "An equivalence over all datasets: no test set shows that no conforming file is reported and no other file passes.", "anchors": ["src/util/oifits-check.c:main", "src/oifitslib/oicheck.c"]}
{"id": "C75", "title": "Filtering keeps to the rules which oifits-check examines", "statement": "If a dataset keeps all rules which oifits-check examines, then so does the dataset which a filter gives, provided that data other than calibrated spectra remain. With programs: oifits-check passes the file which oifits-filter makes of a conforming file.", "quantifier": "all filters and all conforming datasets with distinct ARRNAMEs and no infinite wavelengths, in which the records of each OI_FLUX table all have a STA_INDEX or all have none", "why_tests_cant": "Quantifies over all datasets and filters, and all rules: which tables, records and channels a filter removes decides which references are still needed.", "anchors": ["src/oifitslib/oifilter.c:apply_oi_filter", "src/oifitslib/oicheck.c", "src/util/oifits-filter.c:main", "src/util/oifits-check.c:main"]}
{"id": "C76", "title": "Writing and reading keep to the rules which oifits-check examines", "statement": "If a version 2 dataset keeps all rules which oifits-check examines, then it can be written, and what is read of the file keeps them too.", "quantifier": "all conforming datasets whose texts fit into FITS keywords and columns and whose names are distinct", "why_tests_cant": "Quantifies over all datasets. Look-up tables are built by different code in the writer, the reader and the programs.", "anchors": ["src/oifitslib/write_fits.c", "src/oifitslib/oifile.c:read_oi_fits", "src/oifitslib/oicheck.c"]}
{"id": "C77", "title": "What is read from a file is what the file holds", "statement": "After read_oi_fits has succeeded, each member of the header, of the targets and of each table of the dataset has the value which the file holds for it: the value of the keyword, or of the element of the column in that row, which the standard assigns to it. OI_ARRAY and OI_WAVELENGTH tables are all read; of the others, those are left out in which something is missing. What version 1 of the format does not have gets the stated defaults. A file which holds a header, targets, and proper OI_ARRAY and OI_WAVELENGTH tables is read without an error.", "quantifier": "all FITS files, whoever wrote them: any order and number of HDUs, columns and keywords, both versions of the format", "why_tests_cant": "Quantifies over all files. Round-trip tests only see files which the library wrote itself, where a swapped or misnamed column on both sides goes unnoticed.", "anchors": ["src/oifitslib/oifile.c:read_oi_fits", "src/oifitslib/read_fits.c", "src/oifitslib/exchange.h"]}
{"id": "C78", "title": "Memory is never misused", "statement": "Whatever sequence of calls a program makes to read, filter, merge, look up in and free datasets, the library reads, writes and frees only blocks of memory which are allocated at that moment, and frees none twice. Datasets share no blocks, so that freeing one leaves the others intact. For each kind of table, freeing a table releases just what allocating it allocated.", "quantifier": "all sequences of calls, all contents of files, filters and datasets", "why_tests_cant": "Quantifies over all histories of calls: what is freed when depends on which tables were read, matched, pruned and copied earlier.", "anchors": ["src/oifitslib/alloc_fits.c", "src/oifitslib/free_fits.c", "src/oifitslib/oifile.c:free_oi_fits", "src/oifitslib/oifile.c:read_oi_fits", "src/oifitslib/oifilter.c:apply_oi_filter", "src/oifitslib/oimerge.c:merge_oi_fits_list"]}
{"id": "C79", "title": "Memory is never lost", "statement": "Whatever sequence of calls a program makes to read, filter, merge, look up in and free datasets, once it has freed all its datasets, all memory which the library allocated has been released.", "quantifier": "all sequences of calls, all contents of files, filters and datasets", "why_tests_cant": "Quantifies over all histories of calls and all contents of files, among them files with damaged tables.", "anchors": ["src/oifitslib/oifile.c:free_oi_fits", "src/oifitslib/oifile.c:read_oi_fits", "src/oifitslib/oifilter.c:apply_oi_filter", "src/oifitslib/oimerge.c:merge_oi_fits_list"]}
{"id": "C80", "title": "Merging keeps to the rules which oifits-check examines", "statement": "If each input dataset passes all checks of oifits-check, then so does the merged dataset, and if oifits-merge is applied to such files, oifits-check passes the file it writes. Inputs of version 1 must have what version 2 requires and version 1 does not (an array for each table, known types of amplitude and phase).", "quantifier": "all lists of datasets, of either version of the standard; all files which hold them", "why_tests_cant": "Quantifies over all combinations of conforming inputs; names, target numbers and revisions are changed on the way and about thirty rules must survive.", "anchors": ["src/oifitslib/oimerge.c:merge_oi_fits_list", "src/oifitslib/oicheck.c:check_arrname", "src/oifitslib/oicheck.c:check_elements_present", "src/oifitslib/oicheck.c:check_targets_present", "src/oifitslib/oicheck.c:check_corr_present", "src/util/oifits-merge.c:main", "src/util/oifits-check.c:main"]}
{"id": "C81", "title": "oifits-upgrade makes files which oifits-check passes", "statement": "If a file of version 1 passes oifits-check and has what version 2 needs (an OI_ARRAY table, an ARRNAME in each data table, names which are not empty), and oifits-upgrade is applied to it with non-empty ORIGIN, OBSERVER and INSMODE, then it reports success, the output file says that it is of version 2, holds the same data and these keywords, and passes oifits-check.", "quantifier": "all files of version 1, all values of the keywords", "why_tests_cant": "Quantifies over all version 1 files; about thirty rules, some stricter than for the input, must hold of the file after writing and reading it.", "anchors": ["src/util/oifits-upgrade.c:main", "src/util/oifits-check.c:main", "src/oifitslib/oifile.c:set_oi_header", "src/oifitslib/oifile.c:write_oi_fits"]}
{"id": "C82", "title": "What is left when writing is cut short", "statement": "If write_oi_fits is cut short between two tables, because the program is killed or because CFITSIO reports an error, then the file holds the first tables of the complete file, unaltered, and after an error nothing more is written and the error is returned. Reading such a file is an error if the target table is missing, and otherwise gives the first tables of what the complete file gives; once there is a table of data, all tables to which data refer are there. Nothing tells that data are missing: such a file passes oifits-check.", "quantifier": "all datasets which can be written, all tables at which writing stops, all errors", "why_tests_cant": "Quantifies over all crash points of all datasets; a test would have to kill the program at each table of each dataset.", "anchors": ["src/oifitslib/oifile.c:write_oi_fits", "src/oifitslib/oifile.c:read_oi_fits", "src/oifitslib/write_fits.c:write_oi_header", "src/oifitslib/write_fits.c:write_oi_target", "src/oifitslib/write_fits.c:write_oi_vis"]}
{"id": "C83", "title": "Two filters one after another are one filter with the criteria of both", "statement": "Filtering a dataset and filtering the result again with another filter gives the same header, targets, tables, counts and name lookups as one filter that accepts what both accept, whatever the tables; so the order of the two filters does not matter. This needs that at most one of the two asks for a target, that both make the same choice of closure amplitudes and phases, and that flagged data are not accepted by the second filter only.", "quantifier": "all datasets that can be filtered, all pairs of filters and all filters whose criteria are those of the pair", "why_tests_cant": "it relates three runs over every dataset and every triple of filters, through channel selection, record selection, flags, NaN values and removal of unreferenced tables", "anchors": ["src/oifitslib/oifilter.c:apply_oi_filter", "src/oifitslib/oifilter.c:filter_all_oi_vis", "src/oifitslib/oifilter.c:filter_all_oi_wavelength", "src/oifitslib/oifilter.c:filter_all_oi_inspol"]}
{"id": "C84", "title": "oitable-demo lists every data table of a file", "statement": "`oitable-demo read FILE` ends with success if and only if the header, the target table, every data table of the file and every table to which a data table refers by ARRNAME, INSNAME or CORRNAME can be read; it then prints one line per data table, with the names which that table has.", "quantifier": "all files whose extensions are binary tables, with any number and order of tables", "why_tests_cant": "The loops over the tables, the second connection to the file and the shared status variable have to be right for every number and order of tables; a test sees a few files.", "anchors": ["src/oifitslib/oitable-demo.c:demo_read", "src/oifitslib/read_fits.c:read_next_oi_vis", "src/oifitslib/read_fits.c:read_oi_array", "src/oifitslib/read_fits.c:read_oi_corr", "src/oifitslib/read_fits.c:read_oi_wavelength"]}
{"id": "C85", "title": "Only the order among tables of one type counts when a file is read", "statement": "Two files with the same primary HDU and, for each type of OIFITS table, the same tables of that type in the same order are read by read_oi_fits with the same result and status, however tables of different types follow each other and whatever other HDUs, such as images or tables unknown to OIFITS, stand between them.", "quantifier": "all pairs of files whose EXTNAME keywords are strings, with any number of HDUs, well-formed or not", "why_tests_cant": "Any interleaving of any number of tables and foreign HDUs is allowed by the format; tests use the few orders which some program happens to write.", "anchors": ["src/oifitslib/oifile.c:read_oi_fits", "src/oifitslib/read_fits.c:read_oi_target", "src/oifitslib/read_fits.c:read_next_oi_array", "src/oifitslib/read_fits.c:read_next_oi_vis", "src/oifitslib/read_fits.c:read_next_oi_flux"]}
{"id": "C86", "title": "Tables written one by one, in any order, are read back", "statement": "A program which calls the functions for the header and for single tables (write_oi_header, write_oi_target, write_oi_array, ...) in any order, with any EXTVER numbers, the header once, makes a file from which read_oi_fits returns the header, the first target table and, for each type, all tables in the order of the calls, unchanged if the format can hold them without loss. Without a target table, reading the file is an error. oitable-demo is such a program.", "quantifier": "all sequences of calls of any length and order, with all tables which the format can hold", "why_tests_cant": "The number of orders in which functions can be called grows without bound; each call moves the current HDU on which the next one depends.", "anchors": ["src/oifitslib/write_fits.c:write_oi_header", "src/oifitslib/write_fits.c:write_oi_target", "src/oifitslib/write_fits.c:write_oi_array", "src/oifitslib/write_fits.c:write_oi_vis", "src/oifitslib/write_fits.c:write_oi_flux", "src/oifitslib/oitable-demo.c:demo_write", "src/oifitslib/oifile.c:read_oi_fits"]}
{"id": "C87", "title": "Python programs do not misuse memory", "statement": "Whatever a Python program does with the modules oifits, oifilter and oimerge (constructing, filtering, merging and deleting OiFits objects, taking out tables, records and columns, looking names up, assigning lists), it never reads or frees memory which is not allocated, and memory is returned when its objects are gone.", "quantifier": "all sequences of operations on objects, tables and records, on files and data of any content", "why_tests_cant": "Memory safety depends on the whole history of the program, in particular on the order in which Python deletes objects.", "anchors": ["src/python-oifits/oifits.i:oi_fits", "src/python-oifits/oifits.i:~oi_fits", "src/python-oifits/oifits.i:get_nelement", "src/python-oifits/oifits.i:get_eff_wave", "src/python-oifits/oifits.i:__getitem__", "src/python-oifits/oifilter.i:apply", "src/python-oifits/oimerge.i:mergelist", "src/python-oifits/oifits_typemaps.i:map_in_glist", "src/python-oifits/oifits_typemaps.i:map_out_glist"]}
{"id": "C88", "title": "Assigning to a tuple attribute stores the values, or raises and changes nothing", "statement": "Assigning a sequence to a Python attribute which stands for a C array of fixed length (sta_index, staxyz, mjd_range, wave_range, ...) stores the values, which are then read back; or, if it is no sequence, or has another length, or an element of another type, raises TypeError or ValueError and leaves the attribute as it was.", "quantifier": "all previous values and all objects that can be assigned", "why_tests_cant": "Any object can be assigned to a Python attribute; integers have no bound.", "anchors": ["src/python-oifits/oifits_typemaps.i:convert_int_array", "src/python-oifits/oifits_typemaps.i:convert_float_array", "src/python-oifits/oifits_typemaps.i:convert_double_array"]}
{"id": "C89", "title": "Check results and texts stay valid as long as promised", "statement": "A program may make any number of checks of any datasets, with any number of result variables, ask for the texts of results, datasets and filters, and free results, in any order. As long as no check finds breaches of two kinds (which aborts the program), a result is only used between the check and its being freed, and a text only until the next one is made, nothing is used after it has gone; each check returns its severity, each text is that of the breaches found by that check (or NULL if there are none), whatever happened in between; and what is allocated at the end is what was not freed.", "quantifier": "all sequences of calls of check functions, format_check_result, free_check_result, format_oi_fits_summary and format_oi_filter, on all datasets", "why_tests_cant": "The texts share one buffer and the strings of a result live in storage of their own: whether a text is right depends on the whole history of calls.", "anchors": ["src/oifitslib/oicheck.c:init_check_result", "src/oifitslib/oicheck.c:set_result", "src/oifitslib/oicheck.c:free_check_result", "src/oifitslib/oicheck.c:format_check_result", "src/oifitslib/oifile.c:pGStr", "src/oifitslib/oifile.c:format_oi_fits_summary", "src/oifitslib/oifilter.c:format_oi_filter"]}
{"id": "C90", "title": "Python checks yield their level and a lasting result", "statement": "In Python, check_xxx(o) yields (level, result); str(result), result.numBreach and result.description are those of that check of that dataset at any later time, whatever else was checked or printed since; str(result) is 'Check passed' exactly if level is 0. str(o) and str(f) are the texts of the dataset and the filter. This holds as long as no check finds breaches of two kinds, which aborts the program. No sequence of such steps misuses memory.", "quantifier": "all Python programs which use check functions and str() of results, datasets and filters, on all datasets", "why_tests_cant": "Depends on the history of the program: all texts are made in one buffer.", "anchors": ["src/python-oifits/oicheck.i:oi_check_result", "src/python-oifits/oicheck.i:__str__", "src/python-oifits/oifits_typemaps.i:OUTPUT", "src/python-oifits/oifits.i:__str__", "src/python-oifits/oifilter.i:__str__"]}
{"id": "C91", "title": "oitable-demo reads the tables a text describes", "statement": "oitable-demo write takes from a text exactly the tables which it describes: every name, number, optional item and row, one table of each type, whatever the white space between the words and whatever the numbers of stations, targets, channels and records; and the FITS file it makes holds these tables.", "quantifier": "all texts of the format of testdata2.txt and testdata_opt.txt: all numbers of rows and channels, all names and numerals, every choice of optional items, all white space", "why_tests_cant": "The text is read by hundreds of fscanf calls whose effect depends on all characters read before; a test covers one text.", "anchors": ["src/oifitslib/oitable-demo.c:demo_write", "src/oifitslib/oitable-demo.c:scan_opt_string", "src/oifitslib/oitable-demo.c:scan_opt_int", "src/oifitslib/oitable-demo.c:scan_opt_double"]}
{"id": "C92", "title": "Datasets may be merged in steps", "statement": "Merging some datasets first and then merging the result with the others gives the same dataset as merging all of them at once, and fails exactly if that does; so datasets may be merged one by one, each with what has been merged so far.", "quantifier": "all lists of datasets and all ways to cut them into a first part and the rest; all numbers of tables, records and channels", "why_tests_cant": "That a merged dataset is treated like the list it was made from depends on every table, name, target and keyword of all the inputs; a test compares one split of one list.", "anchors": ["src/oifitslib/oimerge.c:merge_oi_fits_list", "src/oifitslib/oimerge.c:merge_oi_fits", "src/oifitslib/oimerge.c:files_min_mjd", "src/oifitslib/oimerge.c:merge_all_oi_wavelength", "src/oifitslib/oimerge.c:merge_all_oi_array", "src/oifitslib/oimerge.c:merge_all_oi_corr", "src/oifitslib/oimerge.c:merge_oi_target"]}
{"id": "C93", "title": "Iterating over a merged dataset gives the data of the inputs", "statement": "Iterating over a merged dataset gives, one after the other, exactly the data which iterating over the inputs in turn gives: for each the same target name, time, baseline, stations, wavelength, data, errors and flag; with the same criteria, a target being chosen by name. The numbers of data counted are the sums of those of the inputs.", "quantifier": "all lists of datasets which can be merged, all filters which do not look at names, all numbers of calls", "why_tests_cant": "Targets are renumbered, tables renamed and joined when datasets are merged, and iterators look all of them up again; a test compares a few data.", "anchors": ["src/oifitslib/oimerge.c:merge_oi_fits_list", "src/oifitslib/oiiter.c:oi_vis_iter_next", "src/oifitslib/oiiter.c:oi_vis2_iter_next", "src/oifitslib/oiiter.c:oi_t3_iter_next", "src/oifitslib/oifile.c:count_oi_fits_data"]}
{"id": "C94", "title": "Filtering before or after merging gives the same data", "statement": "Filtering the dataset to which others are merged leaves the same unflagged data, in the same order, as filtering each of the others, and as merging what is then left: for each the same target name, time, baseline, stations, wavelength, data and errors.", "quantifier": "all lists of datasets which can be filtered and merged, all filters which look at neither names nor targets and reject flagged data", "why_tests_cant": "It relates three filtered datasets of any size to two merged ones, with channels removed before or after tables are compared for merging; a test compares a few data.", "anchors": ["src/oifitslib/oimerge.c:merge_oi_fits_list", "src/oifitslib/oifilter.c:apply_oi_filter"]}
{"id": "C95", "title": "Two runs of oifits-filter make the same file as one", "statement": "Running oifits-filter with some options, and then with other options on its output, makes the same file as running it once with options asking for what both ask for. In particular running it again on its own output with the same options changes nothing.", "quantifier": "all input files, all options for the first, second and single run, all dates, file names and contents of uninitialised memory", "why_tests_cant": "The intermediate dataset passes through a file, whose format may change any of its strings and numbers, before the second filter sees it; a test shows this for a few options and files.", "anchors": ["src/util/oifits-filter.c:main", "src/oifitslib/oifilter.c:apply_oi_filter", "src/oifitslib/oifilter.c:get_user_oi_filter", "src/oifitslib/oifile.c:write_oi_fits", "src/oifitslib/oifile.c:read_oi_fits"]}
{"id": "C96", "title": "What the programs do does not depend on what was in memory", "statement": "Run twice on the same files with the same arguments on the same day, oifits-check, oifits-filter, oifits-merge and oifits-upgrade exit alike, print the same and make the same file: nothing which happened to be in the memory they were given, and which reading a file left unset, shows in what they do.", "quantifier": "all input files which have what their tables need (so all files which the library writes), all options and arguments, all contents of uninitialised memory", "why_tests_cant": "Uninitialised memory is usually zero in a test, or the same from run to run, so a result which depends on it looks reproducible; which members of which structures are left unset depends on the columns of each table.", "anchors": ["src/oifitslib/read_fits.c:read_oi_target", "src/oifitslib/read_fits.c:read_next_oi_vis", "src/oifitslib/read_fits.c:read_next_oi_vis2", "src/oifitslib/read_fits.c:read_next_oi_t3", "src/oifitslib/read_fits.c:read_next_oi_flux", "src/oifitslib/oifile.c:read_oi_fits", "src/oifitslib/oifile.c:write_oi_fits", "src/util/oifits-filter.c:main", "src/util/oifits-merge.c:main", "src/util/oifits-check.c:main", "src/util/oifits-upgrade.c:main"]}
{"id": "C97", "title": "Files may be merged in steps with oifits-merge", "statement": "Running oifits-merge on some files, and then on its output and other files, makes the same file as running it once on all the files, and all runs succeed; what the intermediate file cannot hold, or what was in memory, makes no difference.", "quantifier": "all lists of input files and all ways to cut them into a first part and the rest, all file names, dates and contents of uninitialised memory", "why_tests_cant": "The intermediate dataset passes through a file, whose format may change any of its strings and numbers, before the second merge compares them with those of the other files; a test shows this for one split of one list of files.", "anchors": ["src/util/oifits-merge.c:main", "src/oifitslib/oimerge.c:merge_oi_fits_list", "src/oifitslib/oifile.c:write_oi_fits", "src/oifitslib/oifile.c:read_oi_fits"]}
{"id": "C98", "title": "oitable-demo makes the file described and lists it", "statement": "Given the name of a text which describes one table of each type, the name of a file which is not there, and that name again, oitable-demo makes a file which holds what the text describes, lists its five tables of data with the names in the text, and ends with success if and only if the tables refer to tables in the text; otherwise the listing ends with the first table whose names do not match and the program ends with failure; no file which is there is changed, unless a name begins with an exclamation mark.", "quantifier": "all texts and all layouts of them, all file names and ways to enter them, all file systems and contents of uninitialised memory", "why_tests_cant": "The names pass through a buffer which is used twice, and the file is read back by other functions than those which wrote it, looking for tables by name; a test tries one text and one way to enter names.", "anchors": ["src/oifitslib/oitable-demo.c:main", "src/oifitslib/oitable-demo.c:demo_write", "src/oifitslib/oitable-demo.c:demo_read"]}
{"id": "C99", "title": "The order in which datasets are merged makes no difference to the data", "statement": "Merging the same datasets in another order gives a dataset with the same targets, the same tables of data with the same records of the same targets, the same numbers of data and the same header keywords, apart from the order of tables and targets, the numbers of targets and the names of tables; iterators over the two results, with filters which ask for the same, give the same data up to order.", "quantifier": "all lists of datasets and all permutations of them, all filters", "why_tests_cant": "Merging processes its inputs one by one and decides on numbers, names, and which of several similar tables to keep by what came before; a test tries one or two orders of particular files.", "anchors": ["src/oifitslib/oimerge.c:merge_oi_fits_list", "src/oifitslib/oimerge.c:merge_oi_target", "src/oifitslib/oimerge.c:merge_all_oi_wavelength", "src/oifitslib/oimerge.c:merge_all_oi_array", "src/oifitslib/oiiter.c:oi_vis2_iter_next"]}
{"id": "C100", "title": "A narrower filter never gives more data", "statement": "If everything that passes the criteria of one filter passes those of another, and both make the same choice of closure amplitude and phase, then the data an iterator gives with the first filter are a subsequence of those it gives with the second, and the data left unflagged after filtering with the first are, with their values, a subsequence of those left unflagged after filtering with the second.", "quantifier": "all pairs of such filters and all datasets with tables as allocated, instruments found and, for filtering, unique INSNAMEs and channel counts that agree with OI_WAVELENGTH", "why_tests_cant": "Compares two runs on the same data for all pairs of filters; tables, records and channels are dropped, renumbered or flagged at different stages.", "anchors": ["src/oifitslib/oiiter.c:oi_vis_iter_next", "src/oifitslib/oiiter.c:oi_vis2_iter_next", "src/oifitslib/oiiter.c:oi_t3_iter_next", "src/oifitslib/oifilter.c:apply_oi_filter"]}
{"id": "C101", "title": "oitable-demo does not misuse or lose memory", "statement": "Whatever text and file oitable-demo is given and whichever of its calls fail, it never uses or frees memory which is not allocated; when it ends with success it has freed all it has allocated, and while it lists the tables of a file no more memory is in use after a table than before it.", "quantifier": "all sizes in the text, all files with any number of tables of data, with or without references, and all outcomes of the calls which read them", "why_tests_cant": "The program frees a table only if a name was not empty when it was read and no call has failed since; tests would need a leak checker and every combination of references and failures.", "anchors": ["src/oifitslib/oitable-demo.c:demo_write", "src/oifitslib/oitable-demo.c:demo_read", "src/oifitslib/alloc_fits.c:alloc_oi_vis", "src/oifitslib/free_fits.c:free_oi_vis"]}
{"id": "C102", "title": "Data which meet a filter are left alone", "statement": "If everything in a dataset meets the criteria of a filter (no target is asked for, names and kinds of data are accepted, values are within all ranges, and no record is wholly flagged unless flagged data are accepted), filtering changes neither the data nor the targets, and removes only tables to which no data refer. oifits-filter then succeeds and its output file holds the same data; without options it is enough that all values are within the nominal ranges.", "quantifier": "all datasets with tables as allocated and all filters whose criteria the whole dataset meets; for the program, all consistent input files and all options", "why_tests_cant": "Filtering rebuilds every table: a wrong comparison or index anywhere shows only for data at the edge of a range, on some channel of some record of some table.", "anchors": ["src/oifitslib/oifilter.c:apply_oi_filter", "src/oifitslib/oifilter.c:filter_all_oi_vis", "src/oifitslib/oifilter.c:filter_all_oi_vis2", "src/oifitslib/oifilter.c:filter_all_oi_t3", "src/oifitslib/oifilter.c:filter_all_oi_flux", "src/util/oifits-filter.c:main"]}
{"id": "C103", "title": "Iterating over a saved dataset gives the same data", "statement": "If a dataset is written to a file, whoever reads the file and iterates over it, with any filter, sees the same data (targets, times, wavelengths, baselines, values, errors and flags) in the same order as by iterating over the dataset itself.", "quantifier": "all datasets which can be stored, with names short enough for a file, whose instruments are there once, all filters, and all values of memory which reading leaves unset", "why_tests_cant": "Relates writing, reading and iterating for every dataset and filter: data survive only if every name, number and flag by which they are selected does.", "anchors": ["src/oifitslib/oifile.c:write_oi_fits", "src/oifitslib/oifile.c:read_oi_fits", "src/oifitslib/oiiter.c:oi_vis_iter_next", "src/oifitslib/oiiter.c:oi_vis2_iter_next", "src/oifitslib/oiiter.c:oi_t3_iter_next"]}
{"id": "C104", "title": "What iterating over the files which the programs make gives", "statement": "Whoever iterates over the output file of oifits-merge, with a filter which looks at neither names nor targets, sees the data of the input files, one file after the other. If the input files are given in another order the same data are seen in another order. Whoever iterates over the output file of oifits-upgrade, with any filter, sees the data of the input file in the same order. Whoever iterates over the output file of oifits-filter with the criteria it was given, rejecting flagged data, sees what they see in the input file.", "quantifier": "all input files which can be merged and stored, in all orders, with names which leave room for what merging appends, and all such filters", "why_tests_cant": "Runs the whole chain from files through reading, renaming, writing and reading again to the iterator, for all files and filters, and compares two runs.", "anchors": ["src/util/oifits-merge.c:main", "src/oifitslib/oimerge.c:merge_oi_fits_list", "src/util/oifits-filter.c:main", "src/oifitslib/oifilter.c:apply_oi_filter", "src/util/oifits-upgrade.c:main", "src/oifitslib/oiiter.c:oi_vis_iter_next", "src/oifitslib/oiiter.c:oi_vis2_iter_next", "src/oifitslib/oiiter.c:oi_t3_iter_next"]}
{"id": "C105", "title": "Python scripts and programs do the same", "statement": "A Python script which reads files, merges them and writes the result finishes exactly if oifits-merge ends with status 0, and leaves the same files. For any options of oifits-filter there are assignments to the attributes of a Filter object with which a script that reads, applies the filter and writes leaves the same files. A script which reads a file, shows it and makes all checks finishes exactly if oifits-check ends with status 0, and is shown what the program prints.", "quantifier": "all sets of files, names, options and dates of writing, and all values of memory which reading leaves unset", "why_tests_cant": "Compares two front ends of the library on all files and options; tests of either would not notice that they differ.", "anchors": ["src/python-oifits/oifits.i:oi_fits", "src/python-oifits/oifits.i:write", "src/python-oifits/oifilter.i:oi_filter_spec", "src/python-oifits/oifilter.i:apply", "src/python-oifits/oimerge.i:mergelist", "src/python-oifits/oicheck.i:__str__", "src/util/oifits-filter.c:main", "src/util/oifits-merge.c:main", "src/util/oifits-check.c:main"]}
{"id": "C106", "title": "Attributes of a Python Filter", "statement": "Whatever else a script does, each criterion of a Filter object is the value last assigned to its attribute, or the default if there was none. An acceptable value is always accepted; any other raises an exception which tells what is wrong with it, and changes nothing.", "quantifier": "all scripts, any number of filters and assignments, all values", "why_tests_cant": "Assignments may come in any order and number, to several filters, between any other calls.", "anchors": ["src/python-oifits/oifilter.i:oi_filter_spec", "src/python-oifits/oifits_typemaps.i:convert_float_array", "src/python-oifits/oifits_typemaps.i:convert_double_array"]}
{"id": "C107", "title": "What Python calls change", "statement": "However a script ends, datasets it has made are never changed; a filter is only changed by assignments to it; a file is only changed by writing it, and a file that exists only if the name given begins with an exclamation mark. A call which raises an exception makes and changes no object, and changes no file unless it is write. str() of a dataset or filter does not depend on what was done before.", "quantifier": "all scripts, states of a session and files", "why_tests_cant": "Holds for all sequences of calls: a call might keep a reference to data of an earlier one, or a static buffer be used again.", "anchors": ["src/python-oifits/oifits.i:oi_fits", "src/python-oifits/oifits.i:write", "src/python-oifits/oifits.i:__str__", "src/python-oifits/oifilter.i:apply", "src/python-oifits/oifilter.i:__str__", "src/python-oifits/oimerge.i:mergelist", "src/python-oifits/oicheck.i:__str__"]}
{"id": "C108", "title": "What Python tells about targets, stations and wavelengths", "statement": "For a dataset read from a file, numTargets, get_target, get_nelement, get_element, get_nwave, get_eff_wave and get_eff_band tell what is in the tables of the given name, and None or an exception says that there is none.", "quantifier": "all files which can be read, all names, indices and states of a session", "why_tests_cant": "Tables are found through hash tables which are filled from the names in data tables; whether a name is found depends on the whole file.", "anchors": ["src/python-oifits/oifits.i:get_target", "src/python-oifits/oifits.i:get_nelement", "src/python-oifits/oifits.i:get_element", "src/python-oifits/oifits.i:get_nwave", "src/python-oifits/oifits.i:get_eff_wave", "src/python-oifits/oifits.i:get_eff_band", "src/python-oifits/oifits.i:oi_fits_numTargets_get", "src/oifitslib/oifile.c:oi_fits_lookup_array", "src/oifitslib/oifile.c:oi_fits_lookup_wavelength"]}
{"id": "C109", "title": "Merged and filtered files in either order", "statement": "Files can be merged with oifits-merge and the result filtered with oifits-filter, or each file can be filtered first and the results merged: all programs end with status 0, and programs which iterate over the file made last, with the same criteria and rejecting flagged data, see the same data in the same order, namely those seen in the original files one after the other.", "quantifier": "all files, any number of them, options, dates of writing, and values of memory which reading leaves unset", "why_tests_cant": "Compares two chains of programs with any number of steps, each of which renumbers targets, renames and drops tables and goes through files.", "anchors": ["src/util/oifits-merge.c:main", "src/util/oifits-filter.c:main", "src/oifitslib/oimerge.c:merge_oi_fits_list", "src/oifitslib/oifilter.c:apply_oi_filter", "src/oifitslib/oiiter.c:oi_vis_iter_next", "src/oifitslib/oiiter.c:oi_vis2_iter_next", "src/oifitslib/oiiter.c:oi_t3_iter_next"]}
{"id": "C110", "title": "Errors while a file is written are never taken for success", "statement": "Any call of CFITSIO which is made while a file is written, including creating and closing it and writing units and checksums, may fail with any error code and leave anything in the file. If write_oi_fits returns zero, the file is nevertheless the same as if nothing had failed; otherwise it returns the error code of the first call which failed and has written nothing more, and it never crashes because of an error. If oifits-merge, oifits-filter or oifits-upgrade ends with status 0, the output file and what was printed are the same as without errors; otherwise it ends with status 1. Files other than the output file are not changed, and an output file which existed before is not changed unless it was to be replaced.", "quantifier": "all datasets, files, command lines, sets of failing calls, error codes, and contents which failing calls leave", "why_tests_cant": "Hundreds of calls can fail, each alone or with others, and with any result; tests would need a file system which fails at every one of them.", "anchors": ["src/oifitslib/write_fits.c:write_oi_header", "src/oifitslib/write_fits.c:write_oi_target", "src/oifitslib/write_fits.c:write_oi_array", "src/oifitslib/write_fits.c:write_oi_wavelength", "src/oifitslib/write_fits.c:write_oi_corr", "src/oifitslib/write_fits.c:write_oi_inspol", "src/oifitslib/write_fits.c:write_oi_vis", "src/oifitslib/write_fits.c:write_oi_vis2", "src/oifitslib/write_fits.c:write_oi_t3", "src/oifitslib/write_fits.c:write_oi_flux", "src/oifitslib/oifile.c:write_oi_fits", "src/util/oifits-merge.c:main", "src/util/oifits-filter.c:main", "src/util/oifits-upgrade.c:main"]}
{"id": "C111", "title": "Computing dates does not overflow", "statement": "The conversions between dates and Modified Julian Days, which are computed in signed integers of 32 bits or more, give the same as in unbounded integers. Merging datasets never overflows, whatever texts their DATE-OBS keywords hold. Reading a file never overflows, whatever MJDs its tables hold.", "quantifier": "all widths of long from 32 bits, dates, MJDs, texts of DATE-OBS, datasets and files", "why_tests_cant": "Overflow depends on the width of integers of the machine and on single values among all those which a file can hold; overflow is undefined behaviour and may go unnoticed in a test.", "anchors": ["src/oifitslib/datemjd.c:date2mjd", "src/oifitslib/datemjd.c:mjd2date", "src/oifitslib/oimerge.c:merge_oi_header", "src/oifitslib/oimerge.c:merge_oi_fits_list", "src/oifitslib/oifile.c:set_oi_header", "src/oifitslib/oifile.c:read_oi_fits"]}
{"id": "C112", "title": "Errors while a file is read are reported", "statement": "If a call which reads a file fails (the file cannot be opened, an error of the disk, a file cut short), read_oi_fits ends, with an error code; if it gives a dataset with the code of success, the dataset is the one it gives without errors.", "quantifier": "all files, all sets of failing calls, error codes and positions at which calls fail", "why_tests_cant": "Errors of the disk cannot be produced at will, and there are as many places for them as calls; tests read whole files from sound disks.", "anchors": ["src/oifitslib/oifile.c:read_oi_fits", "src/oifitslib/read_fits.c:read_oi_header", "src/oifitslib/read_fits.c:read_oi_target", "src/oifitslib/read_fits.c:read_next_oi_array", "src/oifitslib/read_fits.c:read_next_oi_wavelength", "src/oifitslib/read_fits.c:read_next_oi_vis2"]}
{"id": "C113", "title": "A program which cannot read its input fails and writes nothing", "statement": "If a call which reads an input file fails, oifits-check, oifits-filter, oifits-merge and oifits-upgrade end with an exit code other than zero, and no file is made or changed; a program which ends with exit code zero has done and printed what it does without errors.", "quantifier": "all programs, command lines, files, sets of failing calls, error codes and positions at which calls fail", "why_tests_cant": "Errors of the disk cannot be produced at will, and there are as many places for them as calls, in each of the input files.", "anchors": ["src/util/oifits-check.c:main", "src/util/oifits-filter.c:main", "src/util/oifits-merge.c:main", "src/util/oifits-upgrade.c:main", "src/oifitslib/oifile.c:read_oi_fits"]}
{"id": "C114", "title": "Exit code zero means that nothing failed, in reading or in writing", "statement": "Whatever calls fail, while input files are read and while the output file is written in the same run: if oifits-filter, oifits-merge or oifits-upgrade ends with exit code zero, the run has printed and written the same as if no call had failed. Whatever fails, no file except the output file is changed, and an existing file is changed only by oifits-filter with the option --clobber.", "quantifier": "all command lines, files, sets of failing calls for each input file, sets of failing calls for the output file and error codes", "why_tests_cant": "Combinations of errors while reading and while writing are more numerous than either kind, and none can be produced at will.", "anchors": ["src/util/oifits-filter.c:main", "src/util/oifits-merge.c:main", "src/util/oifits-upgrade.c:main", "src/oifitslib/oifile.c:read_oi_fits", "src/oifitslib/oifile.c:write_oi_fits"]}
{"id": "C115", "title": "Sizes of reference maps are computed without overflow", "statement": "Reading, copying, filtering and writing OI_VIS tables with a reference map (VISREFMAP) do not overflow when the square of the number of channels, or a position in the map, is computed in machine integers. What has been read from a file can be copied, filtered and written without overflow.", "quantifier": "all files, tables, filters and widths of integers", "why_tests_cant": "Overflow needs tables with tens of thousands of channels, whose maps have gigabytes, and its effect is not defined.", "anchors": ["src/oifitslib/read_fits.c:read_next_oi_vis", "src/oifitslib/write_fits.c:write_oi_vis", "src/oifitslib/oifile.c:dup_oi_vis", "src/oifitslib/oifilter.c:filter_oi_vis"]}

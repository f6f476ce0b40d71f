{
 "claims": [
  {
   "property": "C01",
   "status": "proved",
   "theorems": [
    "Verif.C01_date2mjd_counts_days",
    "Verif.C01_date2mjd_next_day",
    "Verif.C01_date2mjd_aborts"
   ],
   "note": "long overflow not modelled"
  },
  {
   "property": "C02",
   "status": "proved",
   "theorems": [
    "Verif.C02_date_roundtrip"
   ],
   "note": ""
  },
  {
   "property": "C03",
   "status": "proved",
   "theorems": [
    "Verif.C03_mjd2date_inverts"
   ],
   "note": ""
  },
  {
   "property": "C04",
   "status": "proved",
   "theorems": [
    "Verif.C04_reports",
    "Verif.C04_aborts",
    "Verif.C04_format"
   ],
   "note": ""
  },
  {
   "property": "C05",
   "status": "proved",
   "theorems": [
    "Verif.C05_check_unique_targets"
   ],
   "note": ""
  },
  {
   "property": "C06",
   "status": "proved",
   "theorems": [
    "Verif.C06_check_targets_present"
   ],
   "note": ""
  },
  {
   "property": "C07",
   "status": "partial",
   "theorems": [
    "Verif.C07_check_elements_present_partial",
    "Verif.C07_abort_iff",
    "Verif.C07_nameless_inspol"
   ],
   "note": "Proved where the code's reports are exact; the counterexample theorems show the remaining cases."
  },
  {
   "property": "C08",
   "status": "partial",
   "theorems": [
    "Verif.C08_check_arrname_partial",
    "Verif.C08_inspol_location_false"
   ],
   "note": "All reports are exact except that OI_INSPOL tables are reported with number 0 (C08_inspol_location_false, defect)."
  },
  {
   "property": "C09",
   "status": "proved",
   "theorems": [
    "Verif.C09_check_corr_present"
   ],
   "note": ""
  },
  {
   "property": "C10",
   "status": "partial",
   "theorems": [
    "Verif.C10_check_tables_partial",
    "Verif.C10_abort_iff"
   ],
   "note": "Exact unless a mandatory table is missing and a revision is wrong too; then check_tables aborts (C10_abort_iff, defect)."
  },
  {
   "property": "C11",
   "status": "proved",
   "theorems": [
    "Verif.C11_check_header",
    "Verif.C11_check_keywords"
   ],
   "note": ""
  },
  {
   "property": "C12",
   "status": "proved",
   "theorems": [
    "Verif.C12_check_flagging"
   ],
   "note": ""
  },
  {
   "property": "C13",
   "status": "proved",
   "theorems": [
    "Verif.C13_check_t3amp",
    "Verif.C13_check_waveorder",
    "Verif.C13_check_time",
    "Verif.C13_check_flux",
    "Verif.C13_check_visrefmap"
   ],
   "note": ""
  },
  {
   "property": "C14",
   "status": "partial",
   "theorems": [
    "Verif.C14_checks_safe_partial",
    "Verif.C14_checks_abort_false"
   ],
   "note": "No check has undefined behaviour and twelve never abort; check_tables and check_elements_present abort exactly in the cases of C10_abort_iff and C07_abort_iff (defect)."
  },
  {
   "property": "C15",
   "status": "proved",
   "theorems": [
    "Verif.C15_report",
    "Verif.C15_abort",
    "Verif.C15_unreadable",
    "Verif.C15_usage",
    "Verif.C15_files"
   ],
   "note": ""
  },
  {
   "property": "C16",
   "status": "proved",
   "theorems": [
    "Verif.C16_lookup_target",
    "Verif.C16_lookup_target_null",
    "Verif.C16_lookup_target_by_name",
    "Verif.C16_lookup_target_by_name_null",
    "Verif.C16_lookup_element",
    "Verif.C16_lookup_element_null"
   ],
   "note": ""
  },
  {
   "property": "C17",
   "status": "partial",
   "theorems": [
    "Verif.C17_partial",
    "Verif.C17_flux_counterexample",
    "Verif.C17_inspol_counterexample"
   ],
   "note": "The CORRNAME of OI_FLUX and the ARRNAME of OI_INSPOL tables are not resolved by read_oi_fits: counterexamples proved (defect)."
  },
  {
   "property": "C18",
   "status": "proved",
   "theorems": [
    "Verif.C18_count_oi_fits_data"
   ],
   "note": ""
  },
  {
   "property": "C19",
   "status": "proved",
   "theorems": [
    "Verif.C19_is_atomic",
    "Verif.C19_empty_not_atomic"
   ],
   "note": ""
  },
  {
   "property": "C20",
   "status": "proved",
   "theorems": [
    "Verif.C20_get_min_mjd",
    "Verif.C20_get_max_mjd",
    "Verif.C20_get_min_wavelength",
    "Verif.C20_get_max_wavelength"
   ],
   "note": ""
  },
  {
   "property": "C21",
   "status": "proved",
   "theorems": [
    "Verif.C21_set_oi_header"
   ],
   "note": ""
  },
  {
   "property": "C22",
   "status": "partial",
   "theorems": [
    "Verif.C22_dup_oi_target",
    "Verif.C22_dup_oi_array",
    "Verif.C22_dup_oi_wavelength",
    "Verif.C22_dup_oi_corr",
    "Verif.C22_dup_oi_inspol",
    "Verif.C22_dup_oi_vis2",
    "Verif.C22_dup_oi_t3",
    "Verif.C22_dup_oi_flux",
    "Verif.C22_dup_oi_vis_false",
    "Verif.C22_dup_oi_vis_partial",
    "Verif.C22_dup_oi_vis_real_partial"
   ],
   "note": "Exact for all tables but OI_VIS, whose IVISERR is copied from RVISERR (C22_dup_oi_vis_false, defect)."
  },
  {
   "property": "C23",
   "status": "proved",
   "theorems": [
    "Verif.C23_upgrade_v1",
    "Verif.C23_upgrade_other",
    "Verif.C23_upgrade_idempotent"
   ],
   "note": ""
  },
  {
   "property": "C24",
   "status": "proved",
   "theorems": [
    "Verif.C24_vis_iter",
    "Verif.C24_vis2_iter",
    "Verif.C24_t3_iter"
   ],
   "note": ""
  },
  {
   "property": "C25",
   "status": "proved",
   "theorems": [
    "Verif.C25_exhausted",
    "Verif.C25_safe",
    "Verif.C25_unsafe_without_hypotheses"
   ],
   "note": ""
  },
  {
   "property": "C26",
   "status": "proved",
   "theorems": [
    "Verif.C26_vis_get_uv",
    "Verif.C26_vis2_get_uv",
    "Verif.C26_t3_get_uv"
   ],
   "note": ""
  },
  {
   "property": "C27",
   "status": "proved",
   "theorems": [
    "Verif.C27_iter_count"
   ],
   "note": ""
  },
  {
   "property": "C28",
   "status": "proved",
   "theorems": [
    "Verif.C28_records",
    "Verif.C28_vis2_record_iff",
    "Verif.C28_completes"
   ],
   "note": ""
  },
  {
   "property": "C29",
   "status": "proved",
   "theorems": [
    "Verif.C29_channels",
    "Verif.C29_vis",
    "Verif.C29_vis2",
    "Verif.C29_t3",
    "Verif.C29_flux"
   ],
   "note": ""
  },
  {
   "property": "C30",
   "status": "proved",
   "theorems": [
    "Verif.C30_vis",
    "Verif.C30_vis2",
    "Verif.C30_t3",
    "Verif.C30_flux",
    "Verif.C30_vis2_unknown",
    "Verif.C30_vis_unknown",
    "Verif.C30_t3_unknown"
   ],
   "note": "C30_*_unknown: if no wavelength table is found by lookup, the limits on UV radius are not applied, and all else is as for other tables; OI_T3 records with all data flagged are then not left out, and make filtering abort (see C31_unhashed_aborts)."
  },
  {
   "property": "C31",
   "status": "proved",
   "theorems": [
    "Verif.C31_unflagged",
    "Verif.C31_no_abort",
    "Verif.C31_unhashed_aborts"
   ],
   "note": ""
  },
  {
   "property": "C32",
   "status": "proved",
   "theorems": [
    "Verif.C32_no_orphans",
    "Verif.C32_references",
    "Verif.C32_inspol_dangling"
   ],
   "note": ""
  },
  {
   "property": "C33",
   "status": "proved",
   "theorems": [
    "Verif.C33_one_target",
    "Verif.C33_all_targets",
    "Verif.C33_category_dropped"
   ],
   "note": ""
  },
  {
   "property": "C34",
   "status": "proved",
   "theorems": [
    "Verif.C34_init",
    "Verif.C34_accepts_all",
    "Verif.C34_negative_flagged"
   ],
   "note": ""
  },
  {
   "property": "C35",
   "status": "partial",
   "theorems": [
    "Verif.C35_idempotent_partial",
    "Verif.C35_idempotent_no_inspol",
    "Verif.C35_inspol_counterexample",
    "Verif.C35_target_counterexample"
   ],
   "note": "Holds if OI_INSPOL tables are uniform and their kept records are of instruments with data; C35_inspol_counterexample and C35_target_counterexample show it fails otherwise."
  },
  {
   "property": "C36",
   "status": "partial",
   "theorems": [
    "Verif.C36_inspol_partial",
    "Verif.C36_inspol_overflow",
    "Verif.C36_overflow_iff",
    "Verif.C36_filled_iff",
    "Verif.C36_unfilled"
   ],
   "note": "Holds for OI_INSPOL tables whose kept records have equally many channels in range. C36_overflow_iff says exactly when there is an out-of-bounds write: when some kept record has more channels in range than the first (defect; witness C36_inspol_overflow). C36_filled_iff: otherwise the tables are as specified, and a record is filled completely if and only if it has as many channels as the first (C36_unfilled: else values stay uninitialised)."
  },
  {
   "property": "C37",
   "status": "proved",
   "theorems": [
    "Verif.C37_pattern",
    "Verif.C37_names",
    "Verif.C37_literal"
   ],
   "note": ""
  },
  {
   "property": "C38",
   "status": "proved",
   "theorems": [
    "Verif.C38_merged_targets",
    "Verif.C38_unique_names",
    "Verif.C38_too_many_targets_abort"
   ],
   "note": ""
  },
  {
   "property": "C39",
   "status": "proved",
   "theorems": [
    "Verif.C39_same_targets",
    "Verif.C39_unknown_target_ub"
   ],
   "note": ""
  },
  {
   "property": "C40",
   "status": "partial",
   "theorems": [
    "Verif.C40_inspol_preserved",
    "Verif.C40_vis2_preserved",
    "Verif.C40_t3_preserved",
    "Verif.C40_flux_preserved",
    "Verif.C40_vis_preserved_partial",
    "Verif.C40_vis_preserved_false",
    "Verif.C40_counts"
   ],
   "note": "Holds for all but OI_VIS IVISERR (C40_vis_preserved_false, defect of dup_oi_vis)."
  },
  {
   "property": "C41",
   "status": "partial",
   "theorems": [
    "Verif.C41_ins_kept",
    "Verif.C41_lookup_partial",
    "Verif.C41_lookup_false"
   ],
   "note": "A merged table of the right name and channels always exists; lookup finds it if names do not look generated; C41_lookup_false proves that it may find another one otherwise (defect)."
  },
  {
   "property": "C42",
   "status": "partial",
   "theorems": [
    "Verif.C42_arr_kept",
    "Verif.C42_lookup_partial"
   ],
   "note": "As C41."
  },
  {
   "property": "C43",
   "status": "partial",
   "theorems": [
    "Verif.C43_unique_partial",
    "Verif.C43_unique_false"
   ],
   "note": "Holds if no input name looks like a generated one; C43_unique_false proves it fails otherwise (defect)."
  },
  {
   "property": "C44",
   "status": "proved",
   "theorems": [
    "Verif.C44_header"
   ],
   "note": ""
  },
  {
   "property": "C45",
   "status": "proved",
   "theorems": [
    "Verif.C45_earliest_date",
    "Verif.C45_no_date",
    "Verif.C45_old_date_abort"
   ],
   "note": ""
  },
  {
   "property": "C46",
   "status": "proved",
   "theorems": [
    "Verif.C46_version_two"
   ],
   "note": ""
  },
  {
   "property": "C47",
   "status": "proved",
   "theorems": [
    "Verif.C47_filter",
    "Verif.C47_merge_counts",
    "Verif.C47_merge_succeeds",
    "Verif.C47_init",
    "Verif.C47_read"
   ],
   "note": ""
  },
  {
   "property": "C48",
   "status": "proved",
   "theorems": [
    "Verif.C48_filter",
    "Verif.C48_merge_lookups"
   ],
   "note": ""
  },
  {
   "property": "C49",
   "status": "partial",
   "theorems": [
    "Verif.C49_array",
    "Verif.C49_array_exact",
    "Verif.C49_wavelength",
    "Verif.C49_wavelength_exact",
    "Verif.C49_corr",
    "Verif.C49_corr_exact",
    "Verif.C49_vis",
    "Verif.C49_vis_exact",
    "Verif.C49_vis2",
    "Verif.C49_vis2_exact",
    "Verif.C49_t3",
    "Verif.C49_t3_exact",
    "Verif.C49_flux",
    "Verif.C49_flux_exact",
    "Verif.C49_inspol_partial",
    "Verif.C49_inspol_counterexample",
    "Verif.C49_target",
    "Verif.C49_target_exact",
    "Verif.C49_header",
    "Verif.C49_header_exact"
   ],
   "note": "Holds for all tables but OI_INSPOL, whose Jones matrices are read with the wrong type (C49_inspol_counterexample, defect)."
  },
  {
   "property": "C50",
   "status": "partial",
   "theorems": [
    "Verif.C50_partial",
    "Verif.C50_exact_partial",
    "Verif.C50_inspol_counterexample",
    "Verif.C50_no_overwrite"
   ],
   "note": "As C49."
  },
  {
   "property": "C51",
   "status": "proved",
   "theorems": [
    "Verif.C51_read",
    "Verif.C51_write"
   ],
   "note": ""
  },
  {
   "property": "C52",
   "status": "proved",
   "theorems": [
    "Verif.C52_extver"
   ],
   "note": ""
  },
  {
   "property": "C53",
   "status": "partial",
   "theorems": [
    "Verif.C53_found_partial",
    "Verif.C53_only",
    "Verif.C53_blocked",
    "Verif.C53_absent_partial",
    "Verif.C53_counterexample"
   ],
   "note": "Holds (C53_found_partial) if only binary tables come before the wanted table. C53_only: nothing else is ever read by name. C53_blocked: if an extension which is not a binary table comes first, reading by name fails whatever tables follow it (defect); C53_counterexample is such a file. Hypothesis of the last two: extensions which are not binary tables have no OI_REVN keyword."
  },
  {
   "property": "C54",
   "status": "proved",
   "theorems": [
    "Verif.C54_sequential"
   ],
   "note": ""
  },
  {
   "property": "C55",
   "status": "proved",
   "theorems": [
    "Verif.C55_make_tform",
    "Verif.C55_too_many"
   ],
   "note": ""
  },
  {
   "property": "C56",
   "status": "partial",
   "theorems": [
    "Verif.C56_partial",
    "Verif.C56_counterexample"
   ],
   "note": "Holds unless the name of the output file begins with '!', which CFITSIO takes as a request to overwrite."
  },
  {
   "property": "C57",
   "status": "proved",
   "theorems": [
    "Verif.C57_vis_any",
    "Verif.C57_vis",
    "Verif.C57_vis2_any",
    "Verif.C57_vis2",
    "Verif.C57_t3_any",
    "Verif.C57_t3"
   ],
   "note": ""
  },
  {
   "property": "C58",
   "status": "partial",
   "theorems": [
    "Verif.C58_corr_kept",
    "Verif.C58_lookup_partial"
   ],
   "note": "As C41."
  },
  {
   "property": "C59",
   "status": "partial",
   "theorems": [
    "Verif.C59_dangling_ins_partial",
    "Verif.C59_dangling_arr_partial",
    "Verif.C59_dangling_corr_partial",
    "Verif.C59_captured"
   ],
   "note": "Holds of names no other input has; C59_captured proves it fails otherwise."
  },
  {
   "property": "C60",
   "status": "proved",
   "theorems": [
    "Verif.C60_is_oi_fits_one",
    "Verif.C60_is_oi_fits_two",
    "Verif.C60_not_both"
   ],
   "note": ""
  },
  {
   "property": "C61",
   "status": "partial",
   "theorems": [
    "Verif.C61_partial",
    "Verif.C61_target",
    "Verif.C61_flux_partial",
    "Verif.C61_flux_counterexample"
   ],
   "note": "Holds for all tables but OI_FLUX, where the test for the optional column STA_INDEX discards the error of a missing mandatory column (C61_flux_counterexample, defect)."
  },
  {
   "property": "C62",
   "status": "proved",
   "theorems": [
    "Verif.C62_contents",
    "Verif.C62_mandatory"
   ],
   "note": ""
  },
  {
   "property": "C63",
   "status": "proved",
   "theorems": [
    "Verif.C63_ends",
    "Verif.C63_unopened",
    "Verif.C63_empty_table"
   ],
   "note": ""
  },
  {
   "property": "C64",
   "status": "proved",
   "theorems": [
    "Verif.C64_wf"
   ],
   "note": ""
  },
  {
   "property": "C65",
   "status": "partial",
   "theorems": [
    "Verif.C65_partial",
    "Verif.C65_inspol_counterexample",
    "Verif.C65_blank_counterexample"
   ],
   "note": "Holds if there are no OI_INSPOL tables and the strings on which optional parts depend are stored without loss; counterexamples for OI_INSPOL (defect) and blank names."
  },
  {
   "property": "C66",
   "status": "proved",
   "theorems": [
    "Verif.C66_tables",
    "Verif.C66_header"
   ],
   "note": ""
  },
  {
   "property": "C67",
   "status": "proved",
   "theorems": [
    "Verif.C67_summary",
    "Verif.C67_wavelengths"
   ],
   "note": ""
  },
  {
   "property": "C68",
   "status": "proved",
   "theorems": [
    "Verif.C68_filter_text"
   ],
   "note": ""
  },
  {
   "property": "C69",
   "status": "proved",
   "theorems": [
    "Verif.C69_options"
   ],
   "note": "The syntax of options (GLib's GOption) is not modelled: a command line is a sequence of options with values."
  },
  {
   "property": "C70",
   "status": "proved",
   "theorems": [
    "Verif.C70_run",
    "Verif.C70_success",
    "Verif.C70_unreadable",
    "Verif.C70_others",
    "Verif.C70_clobber_loses"
   ],
   "note": "C70_clobber_loses: with --clobber an existing file is lost even if the new one cannot be written."
  },
  {
   "property": "C71",
   "status": "proved",
   "theorems": [
    "Verif.C71_run",
    "Verif.C71_success",
    "Verif.C71_unreadable",
    "Verif.C71_files",
    "Verif.C71_others",
    "Verif.C71_usage"
   ],
   "note": ""
  },
  {
   "property": "C72",
   "status": "proved",
   "theorems": [
    "Verif.C72_run",
    "Verif.C72_success",
    "Verif.C72_success_without",
    "Verif.C72_files",
    "Verif.C72_others",
    "Verif.C72_refused",
    "Verif.C72_usage",
    "Verif.C72_insmode_counterexample"
   ],
   "note": "C72_insmode_counterexample: INSMODE may be missing although the usage message demands it (defect: argc < 5); C72_success_without: without INSMODE given, it stays as read."
  },
  {
   "property": "C73",
   "status": "partial",
   "theorems": [
    "Verif.C73_filter_partial",
    "Verif.C73_merge",
    "Verif.C73_upgrade",
    "Verif.C73_target_counterexample"
   ],
   "note": "For oifits-filter the target asked for must be in the file. C73_target_counterexample: otherwise the program ends with status 0, but its output file makes a program reading it abort."
  },
  {
   "property": "C74",
   "status": "proved",
   "theorems": [
    "Verif.C74_passes",
    "Verif.C74_fails"
   ],
   "note": ""
  },
  {
   "property": "C75",
   "status": "partial",
   "theorems": [
    "Verif.C75_partial",
    "Verif.C75_programs_partial",
    "Verif.C75_calibrated_counterexample",
    "Verif.C75_stations_counterexample"
   ],
   "note": "False without the provisos, by counterexamples: if only calibrated spectra remain there is no OI_ARRAY, which version 2 requires (C75_calibrated_counterexample); if some records of an OI_FLUX table have a STA_INDEX and others have none, the filter may leave only those without (C75_stations_counterexample)."
  },
  {
   "property": "C76",
   "status": "partial",
   "theorems": [
    "Verif.C76_partial",
    "Verif.C76_counterexample"
   ],
   "note": "False (C76_counterexample) if only OI_FLUX tables refer to a correlation matrix: the reader does not put it into the look-up table for their sake, and oifits-check reports a missing OI_CORR which is there. Likewise arrays to which only OI_INSPOL tables refer are excluded."
  },
  {
   "property": "C77",
   "status": "partial",
   "theorems": [
    "Verif.C77_header",
    "Verif.C77_targets",
    "Verif.C77_array",
    "Verif.C77_wavelength",
    "Verif.C77_corr",
    "Verif.C77_inspol_partial",
    "Verif.C77_vis_partial",
    "Verif.C77_vis2",
    "Verif.C77_t3",
    "Verif.C77_flux_partial",
    "Verif.C77_succeeds",
    "Verif.C77_cells",
    "Verif.C77_vis_counterexample",
    "Verif.C77_flux_counterexample"
   ],
   "note": "False of OI_VIS tables of version 2 with CORRNAME but without CORRINDX_VISAMP or CORRINDX_VISPHI (C77_vis_counterexample, defect: the test for VISREFMAP discards the error) and of OI_FLUX tables which lack mandatory columns (C77_flux_counterexample, defect); the elements of Jones matrices in OI_INSPOL are not described (see C49_inspol_counterexample)."
  },
  {
   "property": "C78",
   "status": "proved",
   "theorems": [
    "Verif.Mem.C78_safe",
    "Verif.Mem.C78_independent",
    "Verif.Mem.C78_alloc_free"
   ],
   "note": "Not modelled: sizes of blocks (bounds are the subject of C36 and of the other models, in which an access out of bounds is undefined behaviour), GList nodes, CFITSIO's memory, failure of malloc (which ends the program)."
  },
  {
   "property": "C79",
   "status": "partial",
   "theorems": [
    "Verif.Mem.C79_accounted",
    "Verif.Mem.C79_released",
    "Verif.Mem.C79_accounted_partial",
    "Verif.Mem.C79_lost_reading",
    "Verif.Mem.C79_lost_unreadable",
    "Verif.Mem.C79_lost_target",
    "Verif.Mem.C79_lost_inspol"
   ],
   "note": "Proved for histories without damaged tables, duplicate target rows and accepted OI_INSPOL records without channels (C79_released); false otherwise (C79_lost_*). Without those hypotheses, what is held is still accounted for (C79_accounted_partial). Not modelled: GList nodes, CFITSIO's memory, a temporary string which is lost when a text column cannot be read (read_fits.c:211-214)."
  },
  {
   "property": "C80",
   "status": "partial",
   "theorems": [
    "Verif.C80_partial",
    "Verif.C80_programs_partial",
    "Verif.C80_inspol_counterexample",
    "Verif.C80_nameless_counterexample"
   ],
   "note": "Partial: names must be ones which merging can keep apart (not like generated ones, no empty ARRNAME; C80_nameless_counterexample) and short enough for a header card. For the programs, OI_INSPOL records must refer to targets which exist, which oifits-check does not examine (C80_inspol_counterexample: merging files which pass all checks may crash)."
  },
  {
   "property": "C81",
   "status": "partial",
   "theorems": [
    "Verif.C81_partial",
    "Verif.C81_counterexample"
   ],
   "note": "Partial: texts must be ones which a header card can hold. ARRNAME is optional in data tables of version 1; without it oifits-upgrade reports success although the output breaks a rule of version 2 (C81_counterexample)."
  },
  {
   "property": "C82",
   "status": "proved",
   "theorems": [
    "Verif.C82_calls",
    "Verif.C82_killed",
    "Verif.C82_error",
    "Verif.C82_read",
    "Verif.C82_no_targets",
    "Verif.C82_conforms",
    "Verif.C82_unnoticed"
   ],
   "note": "C82_calls ties the list of calls to write_oi_fits. Crash points are between calls: what CFITSIO leaves of a table which it was writing is not modelled. C82_unnoticed: a file with one of five tables of data is read without an error and passes oifits-check, so that a program must keep the status of write_oi_fits."
  },
  {
   "property": "C83",
   "status": "partial",
   "theorems": [
    "Verif.C83_two_filters_partial",
    "Verif.C83_two_filters_no_inspol",
    "Verif.C83_order",
    "Verif.C83_flagged_counterexample",
    "Verif.C83_t3_counterexample"
   ],
   "note": "Proved for datasets without OI_INSPOL tables (C83_two_filters_no_inspol, C83_order) and for those with uniform ones of instruments that data remain of. False where the filters differ in the choice of closure quantities, or the first alone rejects flagged data: C83_t3_counterexample, C83_flagged_counterexample."
  },
  {
   "property": "C84",
   "status": "partial",
   "theorems": [
    "Verif.C84_exact_partial",
    "Verif.C84_partial",
    "Verif.C84_right_iff",
    "Verif.C84_dataset",
    "Verif.C84_unopened",
    "Verif.C84_counterexample_order",
    "Verif.C84_counterexample_corrname",
    "Verif.C84_counterexample_undefined"
   ],
   "note": "C84_exact_partial says exactly when the program succeeds and what it prints. The property holds of files with OI_TARGET before all OI_VIS tables and without OI_VIS2 tables (C84_partial), and the tables listed are those of read_oi_fits (C84_dataset). It fails otherwise: OI_VIS tables before OI_TARGET are left out (C84_counterexample_order), OI_VIS2 tables are listed with the CORRNAME of an OI_VIS table (C84_counterexample_corrname), or uninitialised memory is printed (C84_counterexample_undefined)."
  },
  {
   "property": "C85",
   "status": "proved",
   "theorems": [
    "Verif.C85_order",
    "Verif.C85_other",
    "Verif.C85_exchange",
    "Verif.C85_holds",
    "Verif.C85_within"
   ],
   "note": "Without restriction but that EXTNAME is a string, as FITS demands. C85_order is the statement; C85_other, C85_exchange and C85_holds draw the consequences for foreign HDUs, exchanged tables and the programs."
  },
  {
   "property": "C86",
   "status": "partial",
   "theorems": [
    "Verif.C86_file",
    "Verif.C86_partial",
    "Verif.C86_exact_partial",
    "Verif.C86_no_overwrite",
    "Verif.C86_all_or_none",
    "Verif.C86_no_target",
    "Verif.C86_demo_partial",
    "Verif.C86_inspol_counterexample"
   ],
   "note": "C86_file says which file is made, C86_partial what is read from it, with the changes which writing and reading makes to each table (asRead), C86_exact_partial that nothing changes if the format can hold all of it. Missing: the Jones matrices of OI_INSPOL tables, which change (C86_inspol_counterexample). The text file from which oitable-demo takes its tables is the subject of C91."
  },
  {
   "property": "C87",
   "status": "partial",
   "theorems": [
    "Verif.Mem.C87_safe_partial",
    "Verif.Mem.C87_remains",
    "Verif.Mem.C87_remains_partial",
    "Verif.Mem.C87_table_rule_needed",
    "Verif.Mem.C87_index_rule_needed",
    "Verif.Mem.C87_name_rule_needed",
    "Verif.Mem.C87_list_rule_needed",
    "Verif.Mem.C87_table_outlives_counterexample",
    "Verif.Mem.C87_column_outlives_counterexample",
    "Verif.Mem.C87_assign_counterexample",
    "Verif.Mem.C87_unknown_name_counterexample",
    "Verif.Mem.C87_index_counterexample",
    "Verif.Mem.C87_lost"
   ],
   "note": "C87_safe_partial: no misuse if the program keeps four rules. Missing: programs which break one; each of the rules is needed in every state (C87_*_rule_needed), with concrete programs in C87_*_counterexample. C87_remains says what is still allocated: the struct of every object ever made, and what apply and merge returned, is never freed (C87_lost). The rules of SWIG on ownership are assumed."
  },
  {
   "property": "C88",
   "status": "partial",
   "theorems": [
    "Verif.Py.C88_int_partial",
    "Verif.Py.C88_double",
    "Verif.Py.C88_single",
    "Verif.Py.C88_refused",
    "Verif.Py.C88_length",
    "Verif.Py.C88_int_any",
    "Verif.Py.C88_int_truncated",
    "Verif.Py.C88_int_overflow",
    "Verif.Py.C88_lost"
   ],
   "note": "Proved for floats, for integers of 32 bits, and for everything that must be refused. Missing: larger integers are truncated (C88_int_truncated) or raise an exception after the attribute has changed (C88_int_overflow)."
  },
  {
   "property": "C89",
   "status": "proved",
   "theorems": [
    "Verif.C89_results",
    "Verif.C89_rules",
    "Verif.C89_freed_counterexample",
    "Verif.C89_text_counterexample"
   ],
   "note": "C89_results: everything about programs which keep the rules. C89_rules: a program which breaks one stops or is undefined, except that reading a freed result of a check which found nothing is harmless (C89_freed_counterexample). Datasets in which a check finds breaches of different kinds abort the program (see C04, C10)."
  },
  {
   "property": "C90",
   "status": "proved",
   "theorems": [
    "Verif.C90_python",
    "Verif.C90_kept",
    "Verif.C90_passed"
   ],
   "note": "C90_python, C90_passed. C90_kept: the storage of a result is never freed (defect: the object does not own it). Programs whose checks abort (see C04, C10) are excluded by OneKind."
  },
  {
   "property": "C91",
   "status": "partial",
   "theorems": [
    "Verif.C91_partial",
    "Verif.C91_exact",
    "Verif.C91_file_partial",
    "Verif.C91_no_overwrite",
    "Verif.C91_amporder_counterexample",
    "Verif.C91_phiorder_counterexample",
    "Verif.C91_fovtype_counterexample",
    "Verif.C91_overrun",
    "Verif.C91_no_text"
   ],
   "note": "C91_partial: all texts whose words are those of a description, with counts that agree. C91_exact: under these conditions the program comes to the end exactly if no option left out is taken for the next one; C91_amporder_counterexample, C91_phiorder_counterexample and C91_fovtype_counterexample are texts it cannot read. C91_file_partial: the file. C91_overrun: a long fovtype of a station overruns its array. C91_no_text: a missing text file is not noticed. The values of decimal numerals are a parameter; hexadecimal numerals, infinities and NaN in texts are not modelled."
  },
  {
   "property": "C92",
   "status": "partial",
   "theorems": [
    "Verif.C92_steps_partial",
    "Verif.C92_same_partial",
    "Verif.C92_one_by_one_partial",
    "Verif.C92_again_partial",
    "Verif.C92_first_step",
    "Verif.C92_no_date_abort",
    "Verif.C92_keyword_false",
    "Verif.C92_names_false"
   ],
   "note": "C92_steps_partial: the exact result of merging in two steps, if names in the first result are unique and a date is given; C92_same_partial: it is the same if each mandatory keyword has a value; C92_one_by_one_partial: merging one by one. C92_again_partial: merging a merged dataset again changes nothing. C92_first_step needs no condition. C92_no_date_abort: without a date the second merge aborts; C92_keyword_false: OBSERVER can become MULTIPLE although only one value was given; C92_names_false: tables sharing a name are renamed by the second merge."
  },
  {
   "property": "C93",
   "status": "partial",
   "theorems": [
    "Verif.C93_vis_partial",
    "Verif.C93_vis2_partial",
    "Verif.C93_t3_partial",
    "Verif.C93_counts",
    "Verif.C93_wave_counterexample"
   ],
   "note": "C93_vis_partial, C93_vis2_partial, C93_t3_partial: if names are not of the form merging makes and instruments are there, and wavelengths taken for the same are exactly the same; C93_wave_counterexample shows that the last condition is needed. C93_counts has no such condition."
  },
  {
   "property": "C94",
   "status": "partial",
   "theorems": [
    "Verif.C94_vis_partial",
    "Verif.C94_vis2_partial",
    "Verif.C94_t3_partial",
    "Verif.C94_wave_counterexample",
    "Verif.C94_name_counterexample"
   ],
   "note": "C94_vis_partial, C94_vis2_partial, C94_t3_partial: if names are not of the form merging makes, instruments are there, and wavelengths within the tolerance of merging are the same; C94_wave_counterexample shows that the last condition is needed and C94_name_counterexample that the filter must not look at names."
  },
  {
   "property": "C95",
   "status": "partial",
   "theorems": [
    "Verif.C95_two_runs_partial",
    "Verif.C95_again_partial",
    "Verif.C95_target_counterexample"
   ],
   "note": "C95_two_runs_partial, C95_again_partial: if the input can be written, its names fit on header cards, it is consistent and has no OI_INSPOL tables, and the target asked for is there, by one of the runs only; C95_target_counterexample shows that the last is needed (the target is renumbered by the first run)."
  },
  {
   "property": "C96",
   "status": "partial",
   "theorems": [
    "Verif.C96_read_partial",
    "Verif.C96_use",
    "Verif.C96_check_partial",
    "Verif.C96_filter_partial",
    "Verif.C96_merge_partial",
    "Verif.C96_upgrade_partial",
    "Verif.C96_written",
    "Verif.C96_mjd_counterexample",
    "Verif.C96_index_counterexample"
   ],
   "note": "C96_read_partial, C96_check_partial, C96_filter_partial, C96_merge_partial, C96_upgrade_partial: for files which have what their tables need (Spec.Filled), and C96_written shows that the library writes only such files; C96_use shows that the members left unset have no effect. C96_mjd_counterexample and C96_index_counterexample show files for which the output of oifits-filter depends on memory. One value for each type stands for all uninitialised memory of a run."
  },
  {
   "property": "C97",
   "status": "partial",
   "theorems": [
    "Verif.C97_steps_partial",
    "Verif.C97_keyword_counterexample"
   ],
   "note": "C97_steps_partial: if the inputs can be written and are consistent, names and keywords are as in C92_same_partial, and the intermediate dataset can be held by a file without loss (Spec.Kept; no OI_INSPOL tables). C97_keyword_counterexample shows that a mandatory keyword missing from the first files makes a difference to the final file."
  },
  {
   "property": "C98",
   "status": "partial",
   "theorems": [
    "Verif.C98_partial",
    "Verif.C98_mismatch",
    "Verif.C98_exists",
    "Verif.C98_keeps",
    "Verif.C98_one_file",
    "Verif.C98_last_line",
    "Verif.C98_no_output_name",
    "Verif.C98_no_input",
    "Verif.C98_no_text",
    "Verif.C98_counterexample"
   ],
   "note": "C98_partial: if each name is entered on a line of its own and the text is as in C91. The exact listing and exit code are given for names which match and for names which do not (C98_mismatch). C98_keeps and C98_one_file hold for whatever is entered. C98_counterexample: a name on a last line without newline loses its last character; C98_no_output_name: if the input ends early the file is made under a name which was not entered; C98_no_input and C98_no_text: undefined behaviour."
  },
  {
   "property": "C99",
   "status": "partial",
   "theorems": [
    "Verif.C99_tables",
    "Verif.C99_targets",
    "Verif.C99_header",
    "Verif.C99_counts",
    "Verif.C99_succeeds",
    "Verif.C99_vis_partial",
    "Verif.C99_vis2_partial",
    "Verif.C99_t3_partial",
    "Verif.C99_wave_counterexample"
   ],
   "note": "C99_tables, C99_targets, C99_header, C99_counts and C99_succeeds; C99_vis_partial, C99_vis2_partial and C99_t3_partial under the conditions of C93. C99_wave_counterexample: of wavelengths which differ by less than the tolerance of merging those of the first dataset are kept, so the order makes a difference to what a filter on wavelengths selects."
  },
  {
   "property": "C100",
   "status": "proved",
   "theorems": [
    "Verif.C100_vis_iter",
    "Verif.C100_vis2_iter",
    "Verif.C100_t3_iter",
    "Verif.C100_vis_filter",
    "Verif.C100_vis2_filter",
    "Verif.C100_t3_filter",
    "Verif.C100_t3_counterexample"
   ],
   "note": "C100_vis_iter, C100_vis2_iter, C100_t3_iter; C100_vis_filter, C100_vis2_filter, C100_t3_filter. C100_t3_counterexample: the same choice of closure amplitude and phase is needed; to give up closure amplitudes can give more triple products since their signal-to-noise ratios are not tested any more."
  },
  {
   "property": "C101",
   "status": "proved",
   "theorems": [
    "Verif.Mem.C101_safe",
    "Verif.Mem.C101_released",
    "Verif.Mem.C101_kept",
    "Verif.Mem.C101_constant"
   ],
   "note": "C101_safe, C101_released, C101_kept, C101_constant. When the program ends with exit(EXIT_FAILURE) it leaves memory to the operating system."
  },
  {
   "property": "C102",
   "status": "proved",
   "theorems": [
    "Verif.C102_unchanged",
    "Verif.C102_file",
    "Verif.C102_no_options"
   ],
   "note": "C102_unchanged for datasets, C102_file for oifits-filter, C102_no_options for oifits-filter without options."
  },
  {
   "property": "C103",
   "status": "proved",
   "theorems": [
    "Verif.C103_saved",
    "Verif.C103_file"
   ],
   "note": "C103_saved and, for a file which is there, C103_file."
  },
  {
   "property": "C104",
   "status": "partial",
   "theorems": [
    "Verif.C104_merge_partial",
    "Verif.C104_order_partial",
    "Verif.C104_filter_partial",
    "Verif.C104_upgrade"
   ],
   "note": "C104_merge_partial, C104_order_partial, C104_filter_partial, C104_upgrade. Merging is partial because names are assumed not to clash with those which merging makes (C43) and wavelengths which merging takes for the same to be equal (C99_wave_counterexample); filtering because no target may be asked for, since the target is renumbered (C35_target_counterexample)."
  },
  {
   "property": "C105",
   "status": "partial",
   "theorems": [
    "Verif.C105_filter_script",
    "Verif.C105_filter_partial",
    "Verif.C105_merge",
    "Verif.C105_check"
   ],
   "note": "C105_filter_partial, C105_filter_script, C105_merge, C105_check. Partial because the Python class has no attribute for the UV radius, so that options about it have no counterpart (C106_counterexample)."
  },
  {
   "property": "C106",
   "status": "partial",
   "theorems": [
    "Verif.C106_partial",
    "Verif.C106_counterexample",
    "Verif.C106_assign"
   ],
   "note": "C106_partial for the value of each attribute, C106_assign for what is accepted and refused. Partial: uvrad_range is a criterion without attribute, and assigning it has no effect (C106_counterexample); a name of 71 characters is stored without its end (last part of C106_assign)."
  },
  {
   "property": "C107",
   "status": "proved",
   "theorems": [
    "Verif.C107_step",
    "Verif.C107_run",
    "Verif.C107_existing",
    "Verif.C107_raised",
    "Verif.C107_str"
   ],
   "note": "C107_step for one call, C107_run for scripts, C107_existing for files that exist, C107_raised for exceptions, C107_str for texts."
  },
  {
   "property": "C108",
   "status": "partial",
   "theorems": [
    "Verif.C108_targets",
    "Verif.C108_partial",
    "Verif.C108_unknown",
    "Verif.C108_counterexample"
   ],
   "note": "C108_targets in full; C108_partial for names which a data table refers to. For other names the interpreter crashes (C108_unknown), even if there is a table of that name (C108_counterexample)."
  },
  {
   "property": "C109",
   "status": "partial",
   "theorems": [
    "Verif.C109_merge_filter_partial",
    "Verif.C109_filter_merge_partial",
    "Verif.C109_partial"
   ],
   "note": "C109_partial, from C109_merge_filter_partial and C109_filter_merge_partial, which say for each way that the data are those of the original files. Partial: the criteria are not about names or targets, which merging changes; there are no OI_INSPOL tables, which filtering handles wrongly (C36); names can be told apart after merging (C43), and wavelengths which merging takes for the same are the same (C94_wave_counterexample, C94_name_counterexample)."
  },
  {
   "property": "C110",
   "status": "proved",
   "theorems": [
    "Verif.C110_faultless",
    "Verif.C110_success",
    "Verif.C110_returns",
    "Verif.C110_first",
    "Verif.C110_create",
    "Verif.C110_close",
    "Verif.C110_filter",
    "Verif.C110_merge",
    "Verif.C110_upgrade",
    "Verif.C110_filter_exit",
    "Verif.C110_merge_exit",
    "Verif.C110_upgrade_exit",
    "Verif.C110_merge_files",
    "Verif.C110_upgrade_files",
    "Verif.C110_filter_others",
    "Verif.C110_filter_files",
    "Verif.C110_clobber_loses"
   ],
   "note": "C110_success (status zero), C110_first, C110_create and C110_close (what is reported), C110_returns (no crash), C110_faultless (the calls are those of Write); C110_filter, C110_merge and C110_upgrade for programs which end with status 0, C110_*_exit for the status otherwise, C110_*_files and C110_filter_others for other files. C110_clobber_loses: with --clobber the old output file is lost if writing fails."
  },
  {
   "property": "C111",
   "status": "partial",
   "theorems": [
    "Verif.C111_date2mjd",
    "Verif.C111_mjd2date",
    "Verif.C111_days",
    "Verif.C111_days_long",
    "Verif.C111_merge",
    "Verif.C111_set_oi_header",
    "Verif.C111_read_partial",
    "Verif.C111_read_overflow",
    "Verif.C111_read_error",
    "Verif.C111_read_counterexample"
   ],
   "note": "C111_date2mjd, C111_mjd2date (exact condition), C111_days, C111_days_long, C111_merge (all datasets), C111_set_oi_header; C111_read_partial: files of version 2, and of version 1 if the date of the earliest MJD can be computed; C111_read_overflow and C111_read_counterexample: a file of version 1 with an absurd MJD (beyond 2.3e18 days) makes read_oi_fits overflow. C111_read_error: errors are the same."
  },
  {
   "property": "C112",
   "status": "partial",
   "theorems": [
    "Verif.C112_complete",
    "Verif.C112_faultless",
    "Verif.C112_partial",
    "Verif.C112_reported",
    "Verif.C112_ends",
    "Verif.C112_endless",
    "Verif.C112_skipped_counterexample",
    "Verif.C112_eof_counterexample"
   ],
   "note": "C112_faultless (without failing calls the model is read_oi_fits), C112_reported (errors while the file is opened, its header, targets, arrays and wavelengths are read and it is closed are reported), C112_partial (then these are as without errors, and the other lists are sublists), C112_complete (if only such calls fail, success means the dataset which is read without errors), C112_ends (finitely many failing calls: reading ends). Partial: the code breaks the rest. C112_skipped_counterexample: a table which could not be read because of an error is skipped with a message on stderr and the code of success; C112_eof_counterexample: the code END_OF_FILE (also given for files which were cut short) is taken for the end of the tables; C112_endless: while calls go on failing the loops which skip tables do not end."
  },
  {
   "property": "C113",
   "status": "partial",
   "theorems": [
    "Verif.C113_check_partial",
    "Verif.C113_filter_partial",
    "Verif.C113_merge_partial",
    "Verif.C113_upgrade_partial",
    "Verif.C113_check_noticed",
    "Verif.C113_filter_noticed",
    "Verif.C113_merge_noticed",
    "Verif.C113_upgrade_noticed",
    "Verif.C113_check_counterexample",
    "Verif.C113_filter_counterexample"
   ],
   "note": "C113_check_partial, C113_filter_partial, C113_merge_partial, C113_upgrade_partial: errors only while files are opened and closed, and their headers, targets, arrays and wavelengths are read: the run is the same as without errors, or it ends with exit code 1 (or is aborted, at an empty table) and no file has changed. C113_*_noticed: if one of these calls fails, the second case holds, whatever else fails. Partial: errors while other tables are read are not noticed. C113_check_counterexample: oifits-check says that all checks are passed for a file which does not pass them; C113_filter_counterexample: oifits-filter makes a file which lacks a table and ends with exit code 0. Writing is assumed to succeed here (see C110)."
  },
  {
   "property": "C114",
   "status": "partial",
   "theorems": [
    "Verif.C114_filter_written",
    "Verif.C114_merge_written",
    "Verif.C114_upgrade_written",
    "Verif.C114_filter_partial",
    "Verif.C114_merge_partial",
    "Verif.C114_upgrade_partial",
    "Verif.C114_merge_files",
    "Verif.C114_upgrade_files",
    "Verif.C114_filter_others",
    "Verif.C114_filter_files",
    "Verif.C114_filter_noticed",
    "Verif.C114_merge_noticed",
    "Verif.C114_upgrade_noticed",
    "Verif.C114_filter_counterexample"
   ],
   "note": "C114_*_written: whatever fails, exit code zero means that the run is the one in which only the calls which read fail. C114_filter, C114_merge, C114_upgrade: if the calls which read and fail are those for the header, targets, arrays and wavelengths (and opening and closing), exit code zero means that the run is the one without errors. C114_merge_files, C114_upgrade_files, C114_filter_others, C114_filter_files: what happens to files, whatever fails. C114_*_noticed: such an error while reading ends the program and no file is changed, even with --clobber. Partial: errors while other tables are read are not noticed (C114_filter_counterexample)."
  },
  {
   "property": "C115",
   "status": "partial",
   "theorems": [
    "Verif.C115_read_partial",
    "Verif.C115_read_int_partial",
    "Verif.C115_read_same",
    "Verif.C115_read_overflow",
    "Verif.C115_after_reading",
    "Verif.C115_dup",
    "Verif.C115_filter_partial",
    "Verif.C115_filter_overflow",
    "Verif.C115_write",
    "Verif.C115_write_bits",
    "Verif.C115_read_counterexample",
    "Verif.C115_dup_counterexample"
   ],
   "note": "C115_read_partial, C115_read_int_partial: a file whose OI_VIS tables have few channels (46340 with 32 bits) is read as in unbounded integers. C115_read_same: any file is, or the program overflows. C115_read_overflow: it does if a table read has a map which is too large. C115_after_reading: what has been read can be copied, filtered and written without overflow. C115_dup, C115_write_bits: exactly when copying and writing overflow; C115_write: never, for writing in 32 bits, since tables with 10000 channels are refused before. C115_filter_partial: filtering a table whose map is not too large. C115_filter_overflow: filtering overflows if the map is still too large afterwards. Partial: the claim fails for files with an OI_VIS table of 46341 channels and for copying such a table (C115_read_counterexample, C115_dup_counterexample)."
  }
 ]
}
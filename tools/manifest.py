#!/usr/bin/env python3
"""Writes MANIFEST.json: which theorems settle which property."""
import json, os

P = "Verif.Props."
CLAIMS = [
    ("C01", "proved", ["C01_layout", "C01_same_report"], ""),
    ("C02", "proved", ["C02_no_equals", "C02_trailing_equals"], ""),
    ("C03", "proved", ["C03_normal_form", "C03_reparse", "C03_no_newline",
                       "C03_equals_counterexample"],
     "for texts containing '=' the claim is refuted by a witness"),
    ("C04", "proved", ["C04_assertion_metar", "C04_assertion_taf"], ""),
    ("C05", "proved", ["C05_group_conservation", "C05_count"], ""),
    ("C06", "proved", ["C06_handler_order", "C06_deterministic"], ""),
    ("C07", "proved", ["C07_truncate_metar", "C07_truncate_taf"], ""),
    ("C08", "proved", ["C08_metar_unparsed", "C08_taf_unparsed"], ""),
    ("C09", "proved", ["C09_sections"], ""),
    ("C10", "proved", ["C10_shape"], ""),
    ("C11","proved",["C11_lossless","C11_sections"],"any text (reading _ as a blank) and exact sections for texts of words; counterexamples to the stronger wording beside it"),
    ("C12","proved",["C12_kept","C12_lost"],"C12_lost is the negation of the unrestricted claim: after AMD or COR the station is cut off"),
    ("C13", "proved", ["C13_metar_time", "C13_taf_time"], ""),
    ("C14", "proved", ["C14_metar", "C14_taf"], ""),
    ("C15", "proved", ["C15_metar", "C15_taf", "C15_taf_needs_time", "C15_taf_needs_valid"], ""),
    ("C16", "proved", ["C16_knots", "C16_only", "C16_reports"], ""),
    ("C17", "proved", ["C17_metres_per_second", "C16_only", "C16_reports"], ""),
    ("C18", "proved", ["C18_cardinal", "C18_missing"], ""),
    ("C19", "proved", ["C19_round_trip", "C19_others"], ""),
    ("C20", "proved", ["C20_variation", "C20_report"], ""),
    ("C21", "proved", ["C21_metres", "C21_reports", "C21_taf"], ""),
    ("C22", "proved", ["C22_miles"], ""),
    ("C23", "proved", ["C23_kilometres"], ""),
    ("C24", "proved", ["C24_raises"], ""),
    ("C25", "proved", ["C25_runway_range", "C25_report"],
     "9999 m stands for 10 km as in the visibility"),
    ("C26", "proved", ["C26_weather", "C26_reports"], ""),
    ("C27", "proved", ["C27_cloud_layer", "C27_only_layers", "C27_reports"], ""),
    ("C28", "proved", ["C28_ceiling", "C28_reports"], ""),
    ("C29", "proved", ["C29_flight_rules", "C29_flight_rules_layers", "C29_none_despite_data", "C28_reports"],
     "the claim that None means missing data is refuted"),
    ("C30", "proved", ["C30_monotone"], ""),
    ("C31", "proved", ["C31_should_be_cavok", "C28_reports"], ""),
    ("C32", "proved", ["C32_true_is_stable", "C32_answers_alternate"],
     "stability of the other answers is refuted"),
    ("C33", "proved", ["C33_temperatures", "C33_report"], ""),
    ("C34", "proved", ["C34_pressure", "C34_bare", "C34_report"], ""),
    ("C35", "proved", ["C35_wind_shear", "C35_report"], ""),
    ("C36", "proved", ["C36_sea_state", "C36_report"], ""),
    ("C37", "proved", ["C37_runway_state", "C37_report"], ""),
    ("C38", "proved", ["C38_recent", "C38_report"], ""),
    ("C39", "proved", ["C39_capacity", "C39_add"], ""),
    ("C40", "proved", ["C40_iteration_from_cursor", "C40_iteration",
                       "C40_iteration_repeated", "C40_abandoned_iteration"], ""),
    ("C41", "proved", ["C41_as_dict_labels", "C41_label_limit", "C41_metar_lists", "C41_taf_lists"], ""),
    ("C42", "proved", ["C42_unique", "C42_period", "C42_report", "C42_exact", "C42_midnight_false"],
     "hour 24 is accepted but denotes no clock time; TL2400 is decoded wrongly"),
    ("C43", "proved", ["C43_valid", "C43_report", "C43_change", "C43_two_days_false"],
     "later days than the next one are refuted"),
    ("C44", "proved", ["C44_default", "C44_report", "C44_issue_false"],
     "the library starts from the first day of the current month, not from the time of issue"),
    ("C45", "proved", ["C45_fm", "C45_report"], ""),
    ("C46", "proved", ["C46_add", "C46_succeeds", "C46_report"], ""),
    ("C47", "proved", ["C47_group", "C47_report"], ""),
    ("C48", "proved", ["C48_nil_cnl"], ""),
    ("C49", "proved", ["C49_exact_units", "C49_approximate_units", "C49_temperatures"], ""),
    ("C50", "proved", ["C50_round_trip", "C50_layout", "C50_counterexample"],
     "conditions on the record are stated in MetarRecord.WF and shown to be needed"),
    ("C51", "proved", ["C51_round_trip", "C51_layout", "C51_counterexample"],
     "conditions on the record are stated in TafRecord.WF; five of them are shown to be needed"),
    ("C52", "proved", ["C52_metar", "C52_taf", "C52_metar_reached", "C52_taf_reached"], ""),
    ("C53", "proved", ["C53_metar_codes", "C53_taf_codes", "C53_trend_codes",
                       "C53_change_codes"], "an FM indicator keeps its underscores"),
    ("C54", "proved", ["C54_lookup", "C54_report"], ""),
    ("C55","proved",["C55_visibility","C55_windshear","C55_change_indicator","C55_upTo_unique","C55_everywhere_unique","C55_unchanged","C55_solid","C55_visibility_words","C55_change_indicator_words","C55_windshear_words","C55_metar_groups"],"rules of replacement independent of regular expressions, with uniqueness of the result"),
    ("C56", "proved", ["C56_metar_text", "C56_trend_text", "C56_trend_text_counterexample", "C56_taf_text", "C56_change_text_counterexample"],
     "trends introduced by other words than the three and the contents of TAF changes are refuted"),
    ("C57", "proved", ["C57_metar_described", "C57_taf_described"], ""),
    ("C58", "proved", ["C58_remark"], ""),
    ("C59", "proved", ["C59_metar", "C59_metar_groups", "C59_taf", "C59_trend", "C59_change", "C59_unknown_trailing_word"], ""),
    ("C60", "proved", ["C60_metar_dict", "C60_taf_dict", "C60_code_counterexample"],
     "which groups lack their code is shown by the witness"),
    ("C61", "proved", ["C61_wind_text", "C61_reports", "C61_calm"], ""),
    ("C62", "proved", ["C62_visibility_text", "C62_reports", "C62_zero_high"], ""),
    ("C63", "proved", ["C63_weather_text", "C63_reports"], ""),
    ("C64", "proved", ["C64_cloud_text", "C64_reports", "C64_ground"], ""),
    ("C65", "proved", ["C65_temperature_text", "C65_report", "C65_zero"], ""),
    ("C66", "proved", ["C66_runway_text", "C66_report", "C66_zero"], ""),
    ("C67", "proved", ["C67_round_trip", "C67_layout", "C67_counterexample"],
     "conditions on the trends are stated in TrendsWF and TrendRecord.WF"),
    ("C68", "proved", ["C68_text"], "same conditions as C67"),
    ("C69", "proved", ["C69_text"], "same conditions as C51"),
    ("C70", "proved", ["C70_round_trip", "C70_injective", "C70_unicode", "C70_printable", "C70_metar", "C70_taf", "C70_metar_injective", "C70_counterexample"],
     "surrogate pairs are excluded, with the witness"),
    ("C71", "proved", ["C71_metar", "C71_taf", "C71_library_dict", "C71_library_taf_dict"], ""),
    ("C72", "proved", ["C72_rows", "C72_unique", "C72_found", "C72_country", "C72_report", "C72_metar", "C72_taf", "C72_records",
                       "C72_longitude_counterexample", "C72_iata_counterexample", "C72_country_counterexample"],
     "the rows for which the table is wrong are named in the statements"),
    ("C73", "proved", ["C73_metar", "C73_taf"], ""),
    ("C74", "proved", ["C74_metar", "C74_taf", "C74_trend_clouds_lost", "C74_change_clouds_lost"],
     "The unrestricted claim that as_dict() does not depend on earlier uses is false: see the last two theorems."),
    ("C75", "proved", ["C75_metar", "C75_taf"], ""),
    ("C76", "proved", ["C76_text"], "The model itself passes these numbers as text, so C16, C21, C25 and C36 rest on this."),
    ("C77", "proved", ["C77_metar", "C77_taf"], ""),
    ("C78", "proved", ["C78_metar", "C78_taf"], ""),
    ("C79", "proved", ["C79_metar", "C79_metar_read", "C79_trend", "C79_taf", "C79_taf_read", "C79_change"], "For the METAR the shared words are listed; for the body of a TAF the pairs of kinds are, each with a word."),
    ("C80", "proved", ["C80_back", "C80_round_trip"], "Doubles without overflow."),
    ("C81", "proved", ["C81_access", "C81_metar", "C81_forecasts", "C81_wind_shears", "C81_trends", "C81_changes"], "The capacity is respected in every use (C39)."),
    ("C82", "proved", ["C82_trend", "C82_change"], ""),
    ("C83", "proved", ["C83_report", "C83_change"], "The end of an FM change is that of C46."),
    ("C84", "proved", ["C84_groups", "C84_metar", "C84_trend", "C84_taf", "C84_change", "C84_converted"], "Miles of visibility are counted as 1852 m, as in C22."),
    ("C85", "proved", ["C85_left_spells", "C85_right_spells", "C85_opens", "C85_left_exact", "C85_limit", "C85_counterexample"], "Keywords of capital letters and digits, of which `re.compile` makes literals."),
    ("C86", "proved", ["C86_infix", "C86_entry", "C86_read", "C86_metar", "C86_taf"], "The change indicators, which are not part of the dictionary of a report, are not included."),
    ("C87", "proved", ["C87_section", "C87_metar", "C87_taf", "C87_truncate_metar", "C87_truncate_taf", "C87_not_fewest_counterexample"], "The counterexample refutes the stronger claim that as few groups as possible are left over."),
    ("C88", "proved", ["C88_section", "C88_metar", "C88_taf"], ""),
    ("C89", "proved", ["C89_round", "C89_ops", "C89_signs", "C89_metar", "C89_taf"], ""),
    ("C90", "proved", ["C90_fixed", "C90_nearest", "C90_repr", "C90_zero", "C90_digits", "C90_metar", "C90_taf"], ""),
    ("C91", "proved", ["C91_choices", "C91_match", "C91_group", "C91_search", "C91_sub", "C91_patterns"], ""),
    ("C92", "proved", ["C92_unique", "C92_patterns"], ""),
    ("C93", "proved", ["C93_float", "C93_int", "C93_captured", "C93_fixed", "C93_shortest", "C93_digits", "C93_miles", "C93_word"], ""),
    ("C94", "proved", ["C94_replace", "C94_strip", "C94_join_split", "C94_number", "C94_signed", "C94_get", "C94_compass", "C94_update"], ""),
    ("C95", "proved", ["C95_metar", "C95_metar_refused", "C95_taf", "C95_taf_unused", "C95_taf_refused", "C95_early_counterexample"], ""),
    ("C96", "proved", ["C96_section", "C96_metar_groups", "C96_metar", "C96_taf_groups", "C96_taf", "C96_trend", "C96_change"], ""),
    ("C97", "proved", ["C97_section", "C97_metar", "C97_metar_text", "C97_taf", "C97_trend", "C97_change"], ""),
    ("C98", "proved", ["C98_closed", "C98_open", "C98_tail", "C98_visibility", "C98_digits", "C98_temperature", "C98_indicator", "C98_metar", "C98_trend", "C98_taf", "C98_change"], ""),
    ("C99", "proved", ["C99_metar", "C99_metar_station", "C99_metar_derived", "C99_taf", "C99_taf_station", "C99_trend", "C99_change"], ""),
    ("C100", "proved", ["C100_metar", "C100_metar_kinds", "C100_taf", "C100_trend", "C100_trend_periods", "C100_change", "C100_flight_rules"], ""),
    ("C101", "proved", ["C101_closed", "C101_open", "C101_work", "C101_metar", "C101_taf", "C101_trend", "C101_change"], ""),
    ("C102", "proved", ["C102_closed", "C102_start", "C102_one", "C102_within_false", "C102_order_needed"], ""),
    ("C103", "proved", ["C103_wind", "C103_visibility", "C103_cloud", "C103_range", "C103_temperatures", "C103_taf_temperatures", "C103_sea", "C103_pressure", "C103_metar", "C103_pressure_gap_needed"], ""),
    ("C104", "proved", ["C104_threshold", "C104_reports", "C104_taf", "C104_statute_false"], ""),
    ("C105", "proved", ["C105_trend", "C105_metar", "C105_taf", "C105_change", "C105_taf_changes", "C105_fm_false"], ""),
    ("C106", "proved", ["C106_metar", "C106_taf", "C106_metar_injective", "C106_taf_injective", "C106_equals_false", "C106_taf_false"], ""),
    ("C107", "proved", ["C107_forecast", "C107_derived", "C107_wind_groups", "C107_visibility_groups", "C107_header", "C107_parts_differ"], ""),
    ("C108", "proved", ["C108_metar_left", "C108_taf_left", "C108_strict", "C108_both", "C108_text", "C108_needs"], ""),
    ("C109", "proved", ["C109_section", "C109_metar", "C109_metar_alike", "C109_metar_kinds", "C109_metar_text", "C109_taf", "C109_taf_kinds"], ""),
    ("C110", "proved", ["C110_section", "C110_metar", "C110_taf", "C110_metar_kinds", "C110_taf_kinds", "C110_metar_text", "C110_taf_text", "C110_trend", "C110_change", "C110_needs"], ""),
    ("C111", "proved", ["C111_metar", "C111_taf", "C111_words"], ""),
    ("C112", "proved", ["C112_wind", "C112_variation", "C112_visibility", "C112_range", "C112_temperatures", "C112_taf_temperatures", "C112_sea", "C112_pressure", "C112_cloud", "C112_weather", "C112_weather_decoded", "C112_recent", "C112_metar", "C112_forecast", "C112_pressure_unit_needed"], ""),
    ("C113", "proved", ["C113_result", "C113_lines", "C113_count", "C113_truncate", "C113_any", "C113_main"], ""),
    ("C114", "proved", ["C114_metar", "C114_taf", "C114_dict", "C114_rows"], ""),
    ("C115", "proved", ["C115_metar", "C115_taf", "C115_trend", "C115_change", "C115_library_metar", "C115_library_taf"], ""),
]
here = os.path.dirname(os.path.abspath(__file__))
out = {"claims": [
    {"property": p, "status": s, "theorems": [P + t for t in ts], "note": n}
    for p, s, ts, n in CLAIMS]}
with open(os.path.join(here, "..", "MANIFEST.json"), "w") as f:
    json.dump(out, f, indent=1)
    f.write("\n")

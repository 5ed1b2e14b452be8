{
 "claims": [
  {
   "property": "C01",
   "status": "proved",
   "theorems": [
    "Verif.Props.C01_layout",
    "Verif.Props.C01_same_report"
   ],
   "note": ""
  },
  {
   "property": "C02",
   "status": "proved",
   "theorems": [
    "Verif.Props.C02_no_equals",
    "Verif.Props.C02_trailing_equals"
   ],
   "note": ""
  },
  {
   "property": "C03",
   "status": "proved",
   "theorems": [
    "Verif.Props.C03_normal_form",
    "Verif.Props.C03_reparse",
    "Verif.Props.C03_no_newline",
    "Verif.Props.C03_equals_counterexample"
   ],
   "note": "for texts containing '=' the claim is refuted by a witness"
  },
  {
   "property": "C04",
   "status": "proved",
   "theorems": [
    "Verif.Props.C04_assertion_metar",
    "Verif.Props.C04_assertion_taf"
   ],
   "note": ""
  },
  {
   "property": "C05",
   "status": "proved",
   "theorems": [
    "Verif.Props.C05_group_conservation",
    "Verif.Props.C05_count"
   ],
   "note": ""
  },
  {
   "property": "C06",
   "status": "proved",
   "theorems": [
    "Verif.Props.C06_handler_order",
    "Verif.Props.C06_deterministic"
   ],
   "note": ""
  },
  {
   "property": "C07",
   "status": "proved",
   "theorems": [
    "Verif.Props.C07_truncate_metar",
    "Verif.Props.C07_truncate_taf"
   ],
   "note": ""
  },
  {
   "property": "C08",
   "status": "proved",
   "theorems": [
    "Verif.Props.C08_metar_unparsed",
    "Verif.Props.C08_taf_unparsed"
   ],
   "note": ""
  },
  {
   "property": "C09",
   "status": "proved",
   "theorems": [
    "Verif.Props.C09_sections"
   ],
   "note": ""
  },
  {
   "property": "C10",
   "status": "proved",
   "theorems": [
    "Verif.Props.C10_shape"
   ],
   "note": ""
  },
  {
   "property": "C11",
   "status": "proved",
   "theorems": [
    "Verif.Props.C11_lossless",
    "Verif.Props.C11_sections"
   ],
   "note": "any text (reading _ as a blank) and exact sections for texts of words; counterexamples to the stronger wording beside it"
  },
  {
   "property": "C12",
   "status": "proved",
   "theorems": [
    "Verif.Props.C12_kept",
    "Verif.Props.C12_lost"
   ],
   "note": "C12_lost is the negation of the unrestricted claim: after AMD or COR the station is cut off"
  },
  {
   "property": "C13",
   "status": "proved",
   "theorems": [
    "Verif.Props.C13_metar_time",
    "Verif.Props.C13_taf_time"
   ],
   "note": ""
  },
  {
   "property": "C14",
   "status": "proved",
   "theorems": [
    "Verif.Props.C14_metar",
    "Verif.Props.C14_taf"
   ],
   "note": ""
  },
  {
   "property": "C15",
   "status": "proved",
   "theorems": [
    "Verif.Props.C15_metar",
    "Verif.Props.C15_taf",
    "Verif.Props.C15_taf_needs_time",
    "Verif.Props.C15_taf_needs_valid"
   ],
   "note": ""
  },
  {
   "property": "C16",
   "status": "proved",
   "theorems": [
    "Verif.Props.C16_knots",
    "Verif.Props.C16_only",
    "Verif.Props.C16_reports"
   ],
   "note": ""
  },
  {
   "property": "C17",
   "status": "proved",
   "theorems": [
    "Verif.Props.C17_metres_per_second",
    "Verif.Props.C16_only",
    "Verif.Props.C16_reports"
   ],
   "note": ""
  },
  {
   "property": "C18",
   "status": "proved",
   "theorems": [
    "Verif.Props.C18_cardinal",
    "Verif.Props.C18_missing"
   ],
   "note": ""
  },
  {
   "property": "C19",
   "status": "proved",
   "theorems": [
    "Verif.Props.C19_round_trip",
    "Verif.Props.C19_others"
   ],
   "note": ""
  },
  {
   "property": "C20",
   "status": "proved",
   "theorems": [
    "Verif.Props.C20_variation",
    "Verif.Props.C20_report"
   ],
   "note": ""
  },
  {
   "property": "C21",
   "status": "proved",
   "theorems": [
    "Verif.Props.C21_metres",
    "Verif.Props.C21_reports",
    "Verif.Props.C21_taf"
   ],
   "note": ""
  },
  {
   "property": "C22",
   "status": "proved",
   "theorems": [
    "Verif.Props.C22_miles"
   ],
   "note": ""
  },
  {
   "property": "C23",
   "status": "proved",
   "theorems": [
    "Verif.Props.C23_kilometres"
   ],
   "note": ""
  },
  {
   "property": "C24",
   "status": "proved",
   "theorems": [
    "Verif.Props.C24_raises"
   ],
   "note": ""
  },
  {
   "property": "C25",
   "status": "proved",
   "theorems": [
    "Verif.Props.C25_runway_range",
    "Verif.Props.C25_report"
   ],
   "note": "9999 m stands for 10 km as in the visibility"
  },
  {
   "property": "C26",
   "status": "proved",
   "theorems": [
    "Verif.Props.C26_weather",
    "Verif.Props.C26_reports"
   ],
   "note": ""
  },
  {
   "property": "C27",
   "status": "proved",
   "theorems": [
    "Verif.Props.C27_cloud_layer",
    "Verif.Props.C27_only_layers",
    "Verif.Props.C27_reports"
   ],
   "note": ""
  },
  {
   "property": "C28",
   "status": "proved",
   "theorems": [
    "Verif.Props.C28_ceiling",
    "Verif.Props.C28_reports"
   ],
   "note": ""
  },
  {
   "property": "C29",
   "status": "proved",
   "theorems": [
    "Verif.Props.C29_flight_rules",
    "Verif.Props.C29_flight_rules_layers",
    "Verif.Props.C29_none_despite_data",
    "Verif.Props.C28_reports"
   ],
   "note": "the claim that None means missing data is refuted"
  },
  {
   "property": "C30",
   "status": "proved",
   "theorems": [
    "Verif.Props.C30_monotone"
   ],
   "note": ""
  },
  {
   "property": "C31",
   "status": "proved",
   "theorems": [
    "Verif.Props.C31_should_be_cavok",
    "Verif.Props.C28_reports"
   ],
   "note": ""
  },
  {
   "property": "C32",
   "status": "proved",
   "theorems": [
    "Verif.Props.C32_true_is_stable",
    "Verif.Props.C32_answers_alternate"
   ],
   "note": "stability of the other answers is refuted"
  },
  {
   "property": "C33",
   "status": "proved",
   "theorems": [
    "Verif.Props.C33_temperatures",
    "Verif.Props.C33_report"
   ],
   "note": ""
  },
  {
   "property": "C34",
   "status": "proved",
   "theorems": [
    "Verif.Props.C34_pressure",
    "Verif.Props.C34_bare",
    "Verif.Props.C34_report"
   ],
   "note": ""
  },
  {
   "property": "C35",
   "status": "proved",
   "theorems": [
    "Verif.Props.C35_wind_shear",
    "Verif.Props.C35_report"
   ],
   "note": ""
  },
  {
   "property": "C36",
   "status": "proved",
   "theorems": [
    "Verif.Props.C36_sea_state",
    "Verif.Props.C36_report"
   ],
   "note": ""
  },
  {
   "property": "C37",
   "status": "proved",
   "theorems": [
    "Verif.Props.C37_runway_state",
    "Verif.Props.C37_report"
   ],
   "note": ""
  },
  {
   "property": "C38",
   "status": "proved",
   "theorems": [
    "Verif.Props.C38_recent",
    "Verif.Props.C38_report"
   ],
   "note": ""
  },
  {
   "property": "C39",
   "status": "proved",
   "theorems": [
    "Verif.Props.C39_capacity",
    "Verif.Props.C39_add"
   ],
   "note": ""
  },
  {
   "property": "C40",
   "status": "proved",
   "theorems": [
    "Verif.Props.C40_iteration_from_cursor",
    "Verif.Props.C40_iteration",
    "Verif.Props.C40_iteration_repeated",
    "Verif.Props.C40_abandoned_iteration"
   ],
   "note": ""
  },
  {
   "property": "C41",
   "status": "proved",
   "theorems": [
    "Verif.Props.C41_as_dict_labels",
    "Verif.Props.C41_label_limit",
    "Verif.Props.C41_metar_lists",
    "Verif.Props.C41_taf_lists"
   ],
   "note": ""
  },
  {
   "property": "C42",
   "status": "proved",
   "theorems": [
    "Verif.Props.C42_unique",
    "Verif.Props.C42_period",
    "Verif.Props.C42_report",
    "Verif.Props.C42_exact",
    "Verif.Props.C42_midnight_false"
   ],
   "note": "hour 24 is accepted but denotes no clock time; TL2400 is decoded wrongly"
  },
  {
   "property": "C43",
   "status": "proved",
   "theorems": [
    "Verif.Props.C43_valid",
    "Verif.Props.C43_report",
    "Verif.Props.C43_change",
    "Verif.Props.C43_two_days_false"
   ],
   "note": "later days than the next one are refuted"
  },
  {
   "property": "C44",
   "status": "proved",
   "theorems": [
    "Verif.Props.C44_default",
    "Verif.Props.C44_report",
    "Verif.Props.C44_issue_false"
   ],
   "note": "the library starts from the first day of the current month, not from the time of issue"
  },
  {
   "property": "C45",
   "status": "proved",
   "theorems": [
    "Verif.Props.C45_fm",
    "Verif.Props.C45_report"
   ],
   "note": ""
  },
  {
   "property": "C46",
   "status": "proved",
   "theorems": [
    "Verif.Props.C46_add",
    "Verif.Props.C46_succeeds",
    "Verif.Props.C46_report"
   ],
   "note": ""
  },
  {
   "property": "C47",
   "status": "proved",
   "theorems": [
    "Verif.Props.C47_group",
    "Verif.Props.C47_report"
   ],
   "note": ""
  },
  {
   "property": "C48",
   "status": "proved",
   "theorems": [
    "Verif.Props.C48_nil_cnl"
   ],
   "note": ""
  },
  {
   "property": "C49",
   "status": "proved",
   "theorems": [
    "Verif.Props.C49_exact_units",
    "Verif.Props.C49_approximate_units",
    "Verif.Props.C49_temperatures"
   ],
   "note": ""
  },
  {
   "property": "C50",
   "status": "proved",
   "theorems": [
    "Verif.Props.C50_round_trip",
    "Verif.Props.C50_layout",
    "Verif.Props.C50_counterexample"
   ],
   "note": "conditions on the record are stated in MetarRecord.WF and shown to be needed"
  },
  {
   "property": "C51",
   "status": "proved",
   "theorems": [
    "Verif.Props.C51_round_trip",
    "Verif.Props.C51_layout",
    "Verif.Props.C51_counterexample"
   ],
   "note": "conditions on the record are stated in TafRecord.WF; five of them are shown to be needed"
  },
  {
   "property": "C52",
   "status": "proved",
   "theorems": [
    "Verif.Props.C52_metar",
    "Verif.Props.C52_taf",
    "Verif.Props.C52_metar_reached",
    "Verif.Props.C52_taf_reached"
   ],
   "note": ""
  },
  {
   "property": "C53",
   "status": "proved",
   "theorems": [
    "Verif.Props.C53_metar_codes",
    "Verif.Props.C53_taf_codes",
    "Verif.Props.C53_trend_codes",
    "Verif.Props.C53_change_codes"
   ],
   "note": "an FM indicator keeps its underscores"
  },
  {
   "property": "C54",
   "status": "proved",
   "theorems": [
    "Verif.Props.C54_lookup",
    "Verif.Props.C54_report"
   ],
   "note": ""
  },
  {
   "property": "C55",
   "status": "proved",
   "theorems": [
    "Verif.Props.C55_visibility",
    "Verif.Props.C55_windshear",
    "Verif.Props.C55_change_indicator",
    "Verif.Props.C55_upTo_unique",
    "Verif.Props.C55_everywhere_unique",
    "Verif.Props.C55_unchanged",
    "Verif.Props.C55_solid",
    "Verif.Props.C55_visibility_words",
    "Verif.Props.C55_change_indicator_words",
    "Verif.Props.C55_windshear_words",
    "Verif.Props.C55_metar_groups"
   ],
   "note": "rules of replacement independent of regular expressions, with uniqueness of the result"
  },
  {
   "property": "C56",
   "status": "proved",
   "theorems": [
    "Verif.Props.C56_metar_text",
    "Verif.Props.C56_trend_text",
    "Verif.Props.C56_trend_text_counterexample",
    "Verif.Props.C56_taf_text",
    "Verif.Props.C56_change_text_counterexample"
   ],
   "note": "trends introduced by other words than the three and the contents of TAF changes are refuted"
  },
  {
   "property": "C57",
   "status": "proved",
   "theorems": [
    "Verif.Props.C57_metar_described",
    "Verif.Props.C57_taf_described"
   ],
   "note": ""
  },
  {
   "property": "C58",
   "status": "proved",
   "theorems": [
    "Verif.Props.C58_remark"
   ],
   "note": ""
  },
  {
   "property": "C59",
   "status": "proved",
   "theorems": [
    "Verif.Props.C59_metar",
    "Verif.Props.C59_metar_groups",
    "Verif.Props.C59_taf",
    "Verif.Props.C59_trend",
    "Verif.Props.C59_change",
    "Verif.Props.C59_unknown_trailing_word"
   ],
   "note": ""
  },
  {
   "property": "C60",
   "status": "proved",
   "theorems": [
    "Verif.Props.C60_metar_dict",
    "Verif.Props.C60_taf_dict",
    "Verif.Props.C60_code_counterexample"
   ],
   "note": "which groups lack their code is shown by the witness"
  },
  {
   "property": "C61",
   "status": "proved",
   "theorems": [
    "Verif.Props.C61_wind_text",
    "Verif.Props.C61_reports",
    "Verif.Props.C61_calm"
   ],
   "note": ""
  },
  {
   "property": "C62",
   "status": "proved",
   "theorems": [
    "Verif.Props.C62_visibility_text",
    "Verif.Props.C62_reports",
    "Verif.Props.C62_zero_high"
   ],
   "note": ""
  },
  {
   "property": "C63",
   "status": "proved",
   "theorems": [
    "Verif.Props.C63_weather_text",
    "Verif.Props.C63_reports"
   ],
   "note": ""
  },
  {
   "property": "C64",
   "status": "proved",
   "theorems": [
    "Verif.Props.C64_cloud_text",
    "Verif.Props.C64_reports",
    "Verif.Props.C64_ground"
   ],
   "note": ""
  },
  {
   "property": "C65",
   "status": "proved",
   "theorems": [
    "Verif.Props.C65_temperature_text",
    "Verif.Props.C65_report",
    "Verif.Props.C65_zero"
   ],
   "note": ""
  },
  {
   "property": "C66",
   "status": "proved",
   "theorems": [
    "Verif.Props.C66_runway_text",
    "Verif.Props.C66_report",
    "Verif.Props.C66_zero"
   ],
   "note": ""
  },
  {
   "property": "C67",
   "status": "proved",
   "theorems": [
    "Verif.Props.C67_round_trip",
    "Verif.Props.C67_layout",
    "Verif.Props.C67_counterexample"
   ],
   "note": "conditions on the trends are stated in TrendsWF and TrendRecord.WF"
  },
  {
   "property": "C68",
   "status": "proved",
   "theorems": [
    "Verif.Props.C68_text"
   ],
   "note": "same conditions as C67"
  },
  {
   "property": "C69",
   "status": "proved",
   "theorems": [
    "Verif.Props.C69_text"
   ],
   "note": "same conditions as C51"
  },
  {
   "property": "C70",
   "status": "proved",
   "theorems": [
    "Verif.Props.C70_round_trip",
    "Verif.Props.C70_injective",
    "Verif.Props.C70_unicode",
    "Verif.Props.C70_printable",
    "Verif.Props.C70_metar",
    "Verif.Props.C70_taf",
    "Verif.Props.C70_metar_injective",
    "Verif.Props.C70_counterexample"
   ],
   "note": "surrogate pairs are excluded, with the witness"
  },
  {
   "property": "C71",
   "status": "proved",
   "theorems": [
    "Verif.Props.C71_metar",
    "Verif.Props.C71_taf",
    "Verif.Props.C71_library_dict",
    "Verif.Props.C71_library_taf_dict"
   ],
   "note": ""
  },
  {
   "property": "C72",
   "status": "proved",
   "theorems": [
    "Verif.Props.C72_rows",
    "Verif.Props.C72_unique",
    "Verif.Props.C72_found",
    "Verif.Props.C72_country",
    "Verif.Props.C72_report",
    "Verif.Props.C72_metar",
    "Verif.Props.C72_taf",
    "Verif.Props.C72_records",
    "Verif.Props.C72_longitude_counterexample",
    "Verif.Props.C72_iata_counterexample",
    "Verif.Props.C72_country_counterexample"
   ],
   "note": "the rows for which the table is wrong are named in the statements"
  },
  {
   "property": "C73",
   "status": "proved",
   "theorems": [
    "Verif.Props.C73_metar",
    "Verif.Props.C73_taf"
   ],
   "note": ""
  },
  {
   "property": "C74",
   "status": "proved",
   "theorems": [
    "Verif.Props.C74_metar",
    "Verif.Props.C74_taf",
    "Verif.Props.C74_trend_clouds_lost",
    "Verif.Props.C74_change_clouds_lost"
   ],
   "note": "The unrestricted claim that as_dict() does not depend on earlier uses is false: see the last two theorems."
  },
  {
   "property": "C75",
   "status": "proved",
   "theorems": [
    "Verif.Props.C75_metar",
    "Verif.Props.C75_taf"
   ],
   "note": ""
  },
  {
   "property": "C76",
   "status": "proved",
   "theorems": [
    "Verif.Props.C76_text"
   ],
   "note": "The model itself passes these numbers as text, so C16, C21, C25 and C36 rest on this."
  },
  {
   "property": "C77",
   "status": "proved",
   "theorems": [
    "Verif.Props.C77_metar",
    "Verif.Props.C77_taf"
   ],
   "note": ""
  },
  {
   "property": "C78",
   "status": "proved",
   "theorems": [
    "Verif.Props.C78_metar",
    "Verif.Props.C78_taf"
   ],
   "note": ""
  },
  {
   "property": "C79",
   "status": "proved",
   "theorems": [
    "Verif.Props.C79_metar",
    "Verif.Props.C79_metar_read",
    "Verif.Props.C79_trend",
    "Verif.Props.C79_taf",
    "Verif.Props.C79_taf_read",
    "Verif.Props.C79_change"
   ],
   "note": "For the METAR the shared words are listed; for the body of a TAF the pairs of kinds are, each with a word."
  },
  {
   "property": "C80",
   "status": "proved",
   "theorems": [
    "Verif.Props.C80_back",
    "Verif.Props.C80_round_trip"
   ],
   "note": "Doubles without overflow."
  },
  {
   "property": "C81",
   "status": "proved",
   "theorems": [
    "Verif.Props.C81_access",
    "Verif.Props.C81_metar",
    "Verif.Props.C81_forecasts",
    "Verif.Props.C81_wind_shears",
    "Verif.Props.C81_trends",
    "Verif.Props.C81_changes"
   ],
   "note": "The capacity is respected in every use (C39)."
  },
  {
   "property": "C82",
   "status": "proved",
   "theorems": [
    "Verif.Props.C82_trend",
    "Verif.Props.C82_change"
   ],
   "note": ""
  },
  {
   "property": "C83",
   "status": "proved",
   "theorems": [
    "Verif.Props.C83_report",
    "Verif.Props.C83_change"
   ],
   "note": "The end of an FM change is that of C46."
  },
  {
   "property": "C84",
   "status": "proved",
   "theorems": [
    "Verif.Props.C84_groups",
    "Verif.Props.C84_metar",
    "Verif.Props.C84_trend",
    "Verif.Props.C84_taf",
    "Verif.Props.C84_change",
    "Verif.Props.C84_converted"
   ],
   "note": "Miles of visibility are counted as 1852 m, as in C22."
  },
  {
   "property": "C85",
   "status": "proved",
   "theorems": [
    "Verif.Props.C85_left_spells",
    "Verif.Props.C85_right_spells",
    "Verif.Props.C85_opens",
    "Verif.Props.C85_left_exact",
    "Verif.Props.C85_limit",
    "Verif.Props.C85_counterexample"
   ],
   "note": "Keywords of capital letters and digits, of which `re.compile` makes literals."
  },
  {
   "property": "C86",
   "status": "proved",
   "theorems": [
    "Verif.Props.C86_infix",
    "Verif.Props.C86_entry",
    "Verif.Props.C86_read",
    "Verif.Props.C86_metar",
    "Verif.Props.C86_taf"
   ],
   "note": "The change indicators, which are not part of the dictionary of a report, are not included."
  },
  {
   "property": "C87",
   "status": "proved",
   "theorems": [
    "Verif.Props.C87_section",
    "Verif.Props.C87_metar",
    "Verif.Props.C87_taf",
    "Verif.Props.C87_truncate_metar",
    "Verif.Props.C87_truncate_taf",
    "Verif.Props.C87_not_fewest_counterexample"
   ],
   "note": "The counterexample refutes the stronger claim that as few groups as possible are left over."
  },
  {
   "property": "C88",
   "status": "proved",
   "theorems": [
    "Verif.Props.C88_section",
    "Verif.Props.C88_metar",
    "Verif.Props.C88_taf"
   ],
   "note": ""
  },
  {
   "property": "C89",
   "status": "proved",
   "theorems": [
    "Verif.Props.C89_round",
    "Verif.Props.C89_ops",
    "Verif.Props.C89_signs",
    "Verif.Props.C89_metar",
    "Verif.Props.C89_taf"
   ],
   "note": ""
  },
  {
   "property": "C90",
   "status": "proved",
   "theorems": [
    "Verif.Props.C90_fixed",
    "Verif.Props.C90_nearest",
    "Verif.Props.C90_repr",
    "Verif.Props.C90_zero",
    "Verif.Props.C90_digits",
    "Verif.Props.C90_metar",
    "Verif.Props.C90_taf"
   ],
   "note": ""
  },
  {
   "property": "C91",
   "status": "proved",
   "theorems": [
    "Verif.Props.C91_choices",
    "Verif.Props.C91_match",
    "Verif.Props.C91_group",
    "Verif.Props.C91_search",
    "Verif.Props.C91_sub",
    "Verif.Props.C91_patterns"
   ],
   "note": ""
  },
  {
   "property": "C92",
   "status": "proved",
   "theorems": [
    "Verif.Props.C92_unique",
    "Verif.Props.C92_patterns"
   ],
   "note": ""
  },
  {
   "property": "C93",
   "status": "proved",
   "theorems": [
    "Verif.Props.C93_float",
    "Verif.Props.C93_int",
    "Verif.Props.C93_captured",
    "Verif.Props.C93_fixed",
    "Verif.Props.C93_shortest",
    "Verif.Props.C93_digits",
    "Verif.Props.C93_miles",
    "Verif.Props.C93_word"
   ],
   "note": ""
  },
  {
   "property": "C94",
   "status": "proved",
   "theorems": [
    "Verif.Props.C94_replace",
    "Verif.Props.C94_strip",
    "Verif.Props.C94_join_split",
    "Verif.Props.C94_number",
    "Verif.Props.C94_signed",
    "Verif.Props.C94_get",
    "Verif.Props.C94_compass",
    "Verif.Props.C94_update"
   ],
   "note": ""
  },
  {
   "property": "C95",
   "status": "proved",
   "theorems": [
    "Verif.Props.C95_metar",
    "Verif.Props.C95_metar_refused",
    "Verif.Props.C95_taf",
    "Verif.Props.C95_taf_unused",
    "Verif.Props.C95_taf_refused",
    "Verif.Props.C95_early_counterexample"
   ],
   "note": ""
  },
  {
   "property": "C96",
   "status": "proved",
   "theorems": [
    "Verif.Props.C96_section",
    "Verif.Props.C96_metar_groups",
    "Verif.Props.C96_metar",
    "Verif.Props.C96_taf_groups",
    "Verif.Props.C96_taf",
    "Verif.Props.C96_trend",
    "Verif.Props.C96_change"
   ],
   "note": ""
  },
  {
   "property": "C97",
   "status": "proved",
   "theorems": [
    "Verif.Props.C97_section",
    "Verif.Props.C97_metar",
    "Verif.Props.C97_metar_text",
    "Verif.Props.C97_taf",
    "Verif.Props.C97_trend",
    "Verif.Props.C97_change"
   ],
   "note": ""
  },
  {
   "property": "C98",
   "status": "proved",
   "theorems": [
    "Verif.Props.C98_closed",
    "Verif.Props.C98_open",
    "Verif.Props.C98_tail",
    "Verif.Props.C98_visibility",
    "Verif.Props.C98_digits",
    "Verif.Props.C98_temperature",
    "Verif.Props.C98_indicator",
    "Verif.Props.C98_metar",
    "Verif.Props.C98_trend",
    "Verif.Props.C98_taf",
    "Verif.Props.C98_change"
   ],
   "note": ""
  },
  {
   "property": "C99",
   "status": "proved",
   "theorems": [
    "Verif.Props.C99_metar",
    "Verif.Props.C99_metar_station",
    "Verif.Props.C99_metar_derived",
    "Verif.Props.C99_taf",
    "Verif.Props.C99_taf_station",
    "Verif.Props.C99_trend",
    "Verif.Props.C99_change"
   ],
   "note": ""
  },
  {
   "property": "C100",
   "status": "proved",
   "theorems": [
    "Verif.Props.C100_metar",
    "Verif.Props.C100_metar_kinds",
    "Verif.Props.C100_taf",
    "Verif.Props.C100_trend",
    "Verif.Props.C100_trend_periods",
    "Verif.Props.C100_change",
    "Verif.Props.C100_flight_rules"
   ],
   "note": ""
  },
  {
   "property": "C101",
   "status": "proved",
   "theorems": [
    "Verif.Props.C101_closed",
    "Verif.Props.C101_open",
    "Verif.Props.C101_work",
    "Verif.Props.C101_metar",
    "Verif.Props.C101_taf",
    "Verif.Props.C101_trend",
    "Verif.Props.C101_change"
   ],
   "note": ""
  },
  {
   "property": "C102",
   "status": "proved",
   "theorems": [
    "Verif.Props.C102_closed",
    "Verif.Props.C102_start",
    "Verif.Props.C102_one",
    "Verif.Props.C102_within_false",
    "Verif.Props.C102_order_needed"
   ],
   "note": ""
  },
  {
   "property": "C103",
   "status": "proved",
   "theorems": [
    "Verif.Props.C103_wind",
    "Verif.Props.C103_visibility",
    "Verif.Props.C103_cloud",
    "Verif.Props.C103_range",
    "Verif.Props.C103_temperatures",
    "Verif.Props.C103_taf_temperatures",
    "Verif.Props.C103_sea",
    "Verif.Props.C103_pressure",
    "Verif.Props.C103_metar",
    "Verif.Props.C103_pressure_gap_needed"
   ],
   "note": ""
  },
  {
   "property": "C104",
   "status": "proved",
   "theorems": [
    "Verif.Props.C104_threshold",
    "Verif.Props.C104_reports",
    "Verif.Props.C104_taf",
    "Verif.Props.C104_statute_false"
   ],
   "note": ""
  },
  {
   "property": "C105",
   "status": "proved",
   "theorems": [
    "Verif.Props.C105_trend",
    "Verif.Props.C105_metar",
    "Verif.Props.C105_taf",
    "Verif.Props.C105_change",
    "Verif.Props.C105_taf_changes",
    "Verif.Props.C105_fm_false"
   ],
   "note": ""
  },
  {
   "property": "C106",
   "status": "proved",
   "theorems": [
    "Verif.Props.C106_metar",
    "Verif.Props.C106_taf",
    "Verif.Props.C106_metar_injective",
    "Verif.Props.C106_taf_injective",
    "Verif.Props.C106_equals_false",
    "Verif.Props.C106_taf_false"
   ],
   "note": ""
  },
  {
   "property": "C107",
   "status": "proved",
   "theorems": [
    "Verif.Props.C107_forecast",
    "Verif.Props.C107_derived",
    "Verif.Props.C107_wind_groups",
    "Verif.Props.C107_visibility_groups",
    "Verif.Props.C107_header",
    "Verif.Props.C107_parts_differ"
   ],
   "note": ""
  },
  {
   "property": "C108",
   "status": "proved",
   "theorems": [
    "Verif.Props.C108_metar_left",
    "Verif.Props.C108_taf_left",
    "Verif.Props.C108_strict",
    "Verif.Props.C108_both",
    "Verif.Props.C108_text",
    "Verif.Props.C108_needs"
   ],
   "note": ""
  },
  {
   "property": "C109",
   "status": "proved",
   "theorems": [
    "Verif.Props.C109_section",
    "Verif.Props.C109_metar",
    "Verif.Props.C109_metar_alike",
    "Verif.Props.C109_metar_kinds",
    "Verif.Props.C109_metar_text",
    "Verif.Props.C109_taf",
    "Verif.Props.C109_taf_kinds"
   ],
   "note": ""
  },
  {
   "property": "C110",
   "status": "proved",
   "theorems": [
    "Verif.Props.C110_section",
    "Verif.Props.C110_metar",
    "Verif.Props.C110_taf",
    "Verif.Props.C110_metar_kinds",
    "Verif.Props.C110_taf_kinds",
    "Verif.Props.C110_metar_text",
    "Verif.Props.C110_taf_text",
    "Verif.Props.C110_trend",
    "Verif.Props.C110_change",
    "Verif.Props.C110_needs"
   ],
   "note": ""
  },
  {
   "property": "C111",
   "status": "proved",
   "theorems": [
    "Verif.Props.C111_metar",
    "Verif.Props.C111_taf",
    "Verif.Props.C111_words"
   ],
   "note": ""
  },
  {
   "property": "C112",
   "status": "proved",
   "theorems": [
    "Verif.Props.C112_wind",
    "Verif.Props.C112_variation",
    "Verif.Props.C112_visibility",
    "Verif.Props.C112_range",
    "Verif.Props.C112_temperatures",
    "Verif.Props.C112_taf_temperatures",
    "Verif.Props.C112_sea",
    "Verif.Props.C112_pressure",
    "Verif.Props.C112_cloud",
    "Verif.Props.C112_weather",
    "Verif.Props.C112_weather_decoded",
    "Verif.Props.C112_recent",
    "Verif.Props.C112_metar",
    "Verif.Props.C112_forecast",
    "Verif.Props.C112_pressure_unit_needed"
   ],
   "note": ""
  },
  {
   "property": "C113",
   "status": "proved",
   "theorems": [
    "Verif.Props.C113_result",
    "Verif.Props.C113_lines",
    "Verif.Props.C113_count",
    "Verif.Props.C113_truncate",
    "Verif.Props.C113_any",
    "Verif.Props.C113_main"
   ],
   "note": ""
  },
  {
   "property": "C114",
   "status": "proved",
   "theorems": [
    "Verif.Props.C114_metar",
    "Verif.Props.C114_taf",
    "Verif.Props.C114_dict",
    "Verif.Props.C114_rows"
   ],
   "note": ""
  },
  {
   "property": "C115",
   "status": "proved",
   "theorems": [
    "Verif.Props.C115_metar",
    "Verif.Props.C115_taf",
    "Verif.Props.C115_trend",
    "Verif.Props.C115_change",
    "Verif.Props.C115_library_metar",
    "Verif.Props.C115_library_taf"
   ],
   "note": ""
  }
 ]
}

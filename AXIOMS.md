# Axioms of each theorem

Printed by `#print axioms`; regenerate with `tools/axioms.py`.

| Theorem | Axioms |
|---|---|
| `Verif.Props.C01_layout` | propext, Classical.choice, Quot.sound |
| `Verif.Props.C01_same_report` | propext, Classical.choice, Quot.sound |
| `Verif.Props.C02_no_equals` | propext, Classical.choice, Quot.sound |
| `Verif.Props.C02_trailing_equals` | propext, Classical.choice, Quot.sound |
| `Verif.Props.C03_equals_counterexample` | propext |
| `Verif.Props.C03_no_newline` | propext, Classical.choice, Quot.sound |
| `Verif.Props.C03_normal_form` | propext, Classical.choice, Quot.sound |
| `Verif.Props.C03_reparse` | propext, Classical.choice, Quot.sound |
| `Verif.Props.C04_assertion_metar` | propext, Classical.choice, Quot.sound |
| `Verif.Props.C04_assertion_taf` | propext, Classical.choice, Quot.sound |
| `Verif.Props.C05_count` | propext, Classical.choice, Quot.sound |
| `Verif.Props.C05_group_conservation` | propext, Classical.choice, Quot.sound |
| `Verif.Props.C06_deterministic` | propext, Quot.sound |
| `Verif.Props.C06_handler_order` | propext, Classical.choice, Quot.sound |
| `Verif.Props.C07_truncate_metar` | propext, Classical.choice, Quot.sound |
| `Verif.Props.C07_truncate_taf` | propext, Classical.choice, Quot.sound |
| `Verif.Props.C08_metar_unparsed` | propext, Classical.choice, Quot.sound |
| `Verif.Props.C08_taf_unparsed` | propext, Classical.choice, Quot.sound |
| `Verif.Props.C09_sections` | propext, Classical.choice, Quot.sound |
| `Verif.Props.C100_change` | propext, Classical.choice, Quot.sound |
| `Verif.Props.C100_flight_rules` | propext, Classical.choice, Quot.sound |
| `Verif.Props.C100_metar` | propext, Classical.choice, Quot.sound |
| `Verif.Props.C100_metar_kinds` | propext, Classical.choice, Quot.sound |
| `Verif.Props.C100_taf` | propext, Classical.choice, Quot.sound |
| `Verif.Props.C100_trend` | propext, Classical.choice, Quot.sound |
| `Verif.Props.C100_trend_periods` | propext, Classical.choice, Quot.sound |
| `Verif.Props.C101_change` | propext, Classical.choice, Quot.sound |
| `Verif.Props.C101_closed` | propext, Classical.choice, Quot.sound |
| `Verif.Props.C101_metar` | propext, Classical.choice, Quot.sound |
| `Verif.Props.C101_open` | propext, Classical.choice, Quot.sound |
| `Verif.Props.C101_taf` | propext, Classical.choice, Quot.sound |
| `Verif.Props.C101_trend` | propext, Classical.choice, Quot.sound |
| `Verif.Props.C101_work` | propext, Classical.choice, Quot.sound |
| `Verif.Props.C102_closed` | propext, Classical.choice, Quot.sound |
| `Verif.Props.C102_one` | propext, Classical.choice, Quot.sound |
| `Verif.Props.C102_order_needed` | propext, Classical.choice, Quot.sound |
| `Verif.Props.C102_start` | propext, Classical.choice, Quot.sound |
| `Verif.Props.C102_within_false` | propext, Classical.choice, Quot.sound |
| `Verif.Props.C103_cloud` | propext, Classical.choice, Quot.sound |
| `Verif.Props.C103_metar` | propext, Classical.choice, Quot.sound |
| `Verif.Props.C103_pressure` | propext, Classical.choice, Quot.sound |
| `Verif.Props.C103_pressure_gap_needed` | propext, Classical.choice, Quot.sound |
| `Verif.Props.C103_range` | propext, Classical.choice, Quot.sound |
| `Verif.Props.C103_sea` | propext, Classical.choice, Quot.sound |
| `Verif.Props.C103_taf_temperatures` | propext, Classical.choice, Quot.sound |
| `Verif.Props.C103_temperatures` | propext, Classical.choice, Quot.sound |
| `Verif.Props.C103_visibility` | propext, Classical.choice, Quot.sound |
| `Verif.Props.C103_wind` | propext, Classical.choice, Quot.sound |
| `Verif.Props.C104_reports` | propext, Classical.choice, Quot.sound |
| `Verif.Props.C104_statute_false` | propext, Classical.choice, Quot.sound |
| `Verif.Props.C104_taf` | propext, Classical.choice, Quot.sound |
| `Verif.Props.C104_threshold` | propext, Classical.choice, Quot.sound |
| `Verif.Props.C105_change` | propext, Classical.choice, Quot.sound |
| `Verif.Props.C105_fm_false` | propext, Classical.choice, Quot.sound |
| `Verif.Props.C105_metar` | propext, Classical.choice, Quot.sound |
| `Verif.Props.C105_taf` | propext, Classical.choice, Quot.sound |
| `Verif.Props.C105_taf_changes` | propext, Classical.choice, Quot.sound |
| `Verif.Props.C105_trend` | propext, Classical.choice, Quot.sound |
| `Verif.Props.C106_equals_false` | propext, Classical.choice, Quot.sound |
| `Verif.Props.C106_metar` | propext, Classical.choice, Quot.sound |
| `Verif.Props.C106_metar_injective` | propext, Classical.choice, Quot.sound |
| `Verif.Props.C106_taf` | propext, Classical.choice, Quot.sound |
| `Verif.Props.C106_taf_false` | propext, Classical.choice, Quot.sound |
| `Verif.Props.C106_taf_injective` | propext, Classical.choice, Quot.sound |
| `Verif.Props.C107_derived` | propext, Classical.choice, Quot.sound |
| `Verif.Props.C107_forecast` | propext, Classical.choice, Quot.sound |
| `Verif.Props.C107_header` | propext, Classical.choice, Quot.sound |
| `Verif.Props.C107_parts_differ` | propext, Classical.choice, Quot.sound |
| `Verif.Props.C107_visibility_groups` | propext, Classical.choice, Quot.sound |
| `Verif.Props.C107_wind_groups` | propext, Classical.choice, Quot.sound |
| `Verif.Props.C108_both` | propext, Classical.choice, Quot.sound |
| `Verif.Props.C108_metar_left` | propext, Classical.choice, Quot.sound |
| `Verif.Props.C108_needs` | propext, Classical.choice, Quot.sound |
| `Verif.Props.C108_strict` | propext, Classical.choice, Quot.sound |
| `Verif.Props.C108_taf_left` | propext, Classical.choice, Quot.sound |
| `Verif.Props.C108_text` | propext, Classical.choice, Quot.sound |
| `Verif.Props.C109_metar` | propext, Classical.choice, Quot.sound |
| `Verif.Props.C109_metar_alike` | propext, Classical.choice, Quot.sound |
| `Verif.Props.C109_metar_kinds` | propext, Classical.choice, Quot.sound |
| `Verif.Props.C109_metar_text` | propext, Classical.choice, Quot.sound |
| `Verif.Props.C109_section` | propext, Quot.sound |
| `Verif.Props.C109_taf` | propext, Classical.choice, Quot.sound |
| `Verif.Props.C109_taf_kinds` | propext, Classical.choice, Quot.sound |
| `Verif.Props.C10_shape` | propext, Classical.choice, Quot.sound |
| `Verif.Props.C110_change` | propext, Classical.choice, Quot.sound |
| `Verif.Props.C110_metar` | propext, Classical.choice, Quot.sound |
| `Verif.Props.C110_metar_kinds` | propext, Classical.choice, Quot.sound |
| `Verif.Props.C110_metar_text` | propext, Classical.choice, Quot.sound |
| `Verif.Props.C110_needs` | propext, Classical.choice, Quot.sound |
| `Verif.Props.C110_section` | propext, Classical.choice, Quot.sound |
| `Verif.Props.C110_taf` | propext, Classical.choice, Quot.sound |
| `Verif.Props.C110_taf_kinds` | propext, Classical.choice, Quot.sound |
| `Verif.Props.C110_taf_text` | propext, Classical.choice, Quot.sound |
| `Verif.Props.C110_trend` | propext, Classical.choice, Quot.sound |
| `Verif.Props.C111_metar` | propext, Classical.choice, Quot.sound |
| `Verif.Props.C111_taf` | propext, Classical.choice, Quot.sound |
| `Verif.Props.C111_words` | propext, Classical.choice, Quot.sound |
| `Verif.Props.C112_cloud` | propext, Classical.choice, Quot.sound |
| `Verif.Props.C112_forecast` | propext, Classical.choice, Quot.sound |
| `Verif.Props.C112_metar` | propext, Classical.choice, Quot.sound |
| `Verif.Props.C112_pressure` | propext, Classical.choice, Quot.sound |
| `Verif.Props.C112_pressure_unit_needed` | propext, Classical.choice, Quot.sound |
| `Verif.Props.C112_range` | propext, Classical.choice, Quot.sound |
| `Verif.Props.C112_recent` | propext |
| `Verif.Props.C112_sea` | propext, Classical.choice, Quot.sound |
| `Verif.Props.C112_taf_temperatures` | propext, Classical.choice, Quot.sound |
| `Verif.Props.C112_temperatures` | propext, Classical.choice, Quot.sound |
| `Verif.Props.C112_variation` | propext, Classical.choice, Quot.sound |
| `Verif.Props.C112_visibility` | propext, Classical.choice, Quot.sound |
| `Verif.Props.C112_weather` | propext |
| `Verif.Props.C112_weather_decoded` | propext, Classical.choice, Quot.sound |
| `Verif.Props.C112_wind` | propext, Classical.choice, Quot.sound |
| `Verif.Props.C113_any` | propext, Classical.choice, Quot.sound |
| `Verif.Props.C113_count` | propext, Classical.choice, Quot.sound |
| `Verif.Props.C113_lines` | propext, Classical.choice, Quot.sound |
| `Verif.Props.C113_main` | propext, Classical.choice, Quot.sound |
| `Verif.Props.C113_result` | propext, Classical.choice, Quot.sound |
| `Verif.Props.C113_truncate` | propext, Classical.choice, Quot.sound |
| `Verif.Props.C114_dict` | propext, Classical.choice, Quot.sound |
| `Verif.Props.C114_metar` | propext, Classical.choice, Quot.sound |
| `Verif.Props.C114_rows` | propext, Classical.choice, Quot.sound |
| `Verif.Props.C114_taf` | propext, Classical.choice, Quot.sound |
| `Verif.Props.C115_change` | propext, Classical.choice, Quot.sound |
| `Verif.Props.C115_library_metar` | propext, Classical.choice, Quot.sound |
| `Verif.Props.C115_library_taf` | propext, Classical.choice, Quot.sound |
| `Verif.Props.C115_metar` | propext, Classical.choice, Quot.sound |
| `Verif.Props.C115_taf` | propext, Classical.choice, Quot.sound |
| `Verif.Props.C115_trend` | propext, Classical.choice, Quot.sound |
| `Verif.Props.C11_lossless` | propext, Classical.choice, Quot.sound |
| `Verif.Props.C11_sections` | propext, Classical.choice, Quot.sound |
| `Verif.Props.C12_kept` | propext, Classical.choice, Quot.sound |
| `Verif.Props.C12_lost` | propext, Classical.choice, Quot.sound |
| `Verif.Props.C13_metar_time` | propext, Classical.choice, Quot.sound |
| `Verif.Props.C13_taf_time` | propext, Classical.choice, Quot.sound |
| `Verif.Props.C14_metar` | propext, Classical.choice, Quot.sound |
| `Verif.Props.C14_taf` | propext, Classical.choice, Quot.sound |
| `Verif.Props.C15_metar` | propext, Classical.choice, Quot.sound |
| `Verif.Props.C15_taf` | propext, Classical.choice, Quot.sound |
| `Verif.Props.C15_taf_needs_time` | propext, Classical.choice, Quot.sound |
| `Verif.Props.C15_taf_needs_valid` | propext, Classical.choice, Quot.sound |
| `Verif.Props.C16_knots` | propext, Classical.choice, Quot.sound |
| `Verif.Props.C16_only` | propext, Classical.choice, Quot.sound |
| `Verif.Props.C16_reports` | propext, Classical.choice, Quot.sound |
| `Verif.Props.C17_metres_per_second` | propext, Classical.choice, Quot.sound |
| `Verif.Props.C18_cardinal` | propext, Classical.choice, Quot.sound |
| `Verif.Props.C18_missing` | propext, Classical.choice, Quot.sound |
| `Verif.Props.C19_others` | propext, Classical.choice, Quot.sound |
| `Verif.Props.C19_round_trip` | propext, Classical.choice, Quot.sound |
| `Verif.Props.C20_report` | propext, Classical.choice, Quot.sound |
| `Verif.Props.C20_variation` | propext, Classical.choice, Quot.sound |
| `Verif.Props.C21_metres` | propext, Classical.choice, Quot.sound |
| `Verif.Props.C21_reports` | propext, Classical.choice, Quot.sound |
| `Verif.Props.C21_taf` | propext, Classical.choice, Quot.sound |
| `Verif.Props.C22_miles` | propext, Classical.choice, Quot.sound |
| `Verif.Props.C23_kilometres` | propext, Classical.choice, Quot.sound |
| `Verif.Props.C24_raises` | propext, Classical.choice, Quot.sound |
| `Verif.Props.C25_report` | propext, Classical.choice, Quot.sound |
| `Verif.Props.C25_runway_range` | propext, Classical.choice, Quot.sound |
| `Verif.Props.C26_reports` | propext, Classical.choice, Quot.sound |
| `Verif.Props.C26_weather` | propext, Classical.choice, Quot.sound |
| `Verif.Props.C27_cloud_layer` | propext, Classical.choice, Quot.sound |
| `Verif.Props.C27_only_layers` | propext, Classical.choice, Quot.sound |
| `Verif.Props.C27_reports` | propext, Classical.choice, Quot.sound |
| `Verif.Props.C28_ceiling` | propext, Classical.choice, Quot.sound |
| `Verif.Props.C28_reports` | propext, Classical.choice, Quot.sound |
| `Verif.Props.C29_flight_rules` | propext, Classical.choice, Quot.sound |
| `Verif.Props.C29_flight_rules_layers` | propext, Classical.choice, Quot.sound |
| `Verif.Props.C29_none_despite_data` | propext, Classical.choice, Quot.sound |
| `Verif.Props.C30_monotone` | propext, Classical.choice, Quot.sound |
| `Verif.Props.C31_should_be_cavok` | propext, Classical.choice, Quot.sound |
| `Verif.Props.C32_answers_alternate` | propext, Classical.choice, Quot.sound |
| `Verif.Props.C32_true_is_stable` | propext, Classical.choice, Quot.sound |
| `Verif.Props.C33_report` | propext, Classical.choice, Quot.sound |
| `Verif.Props.C33_temperatures` | propext, Classical.choice, Quot.sound |
| `Verif.Props.C34_bare` | propext, Classical.choice, Quot.sound |
| `Verif.Props.C34_pressure` | propext, Classical.choice, Quot.sound |
| `Verif.Props.C34_report` | propext, Classical.choice, Quot.sound |
| `Verif.Props.C35_report` | propext, Classical.choice, Quot.sound |
| `Verif.Props.C35_wind_shear` | propext, Classical.choice, Quot.sound |
| `Verif.Props.C36_report` | propext, Classical.choice, Quot.sound |
| `Verif.Props.C36_sea_state` | propext, Classical.choice, Quot.sound |
| `Verif.Props.C37_report` | propext, Classical.choice, Quot.sound |
| `Verif.Props.C37_runway_state` | propext, Classical.choice, Quot.sound |
| `Verif.Props.C38_recent` | propext, Classical.choice, Quot.sound |
| `Verif.Props.C38_report` | propext, Classical.choice, Quot.sound |
| `Verif.Props.C39_add` | propext, Quot.sound |
| `Verif.Props.C39_capacity` | propext, Classical.choice, Quot.sound |
| `Verif.Props.C40_abandoned_iteration` | propext, Classical.choice, Quot.sound |
| `Verif.Props.C40_iteration` | propext, Classical.choice, Quot.sound |
| `Verif.Props.C40_iteration_from_cursor` | propext, Classical.choice, Quot.sound |
| `Verif.Props.C40_iteration_repeated` | propext, Classical.choice, Quot.sound |
| `Verif.Props.C41_as_dict_labels` | propext, Quot.sound |
| `Verif.Props.C41_label_limit` | propext |
| `Verif.Props.C41_metar_lists` | propext, Classical.choice, Quot.sound |
| `Verif.Props.C41_taf_lists` | propext, Classical.choice, Quot.sound |
| `Verif.Props.C42_exact` | propext, Classical.choice, Quot.sound |
| `Verif.Props.C42_midnight_false` | propext, Classical.choice, Quot.sound |
| `Verif.Props.C42_period` | propext, Classical.choice, Quot.sound |
| `Verif.Props.C42_report` | propext, Classical.choice, Quot.sound |
| `Verif.Props.C42_unique` | propext, Classical.choice, Quot.sound |
| `Verif.Props.C43_change` | propext, Classical.choice, Quot.sound |
| `Verif.Props.C43_report` | propext, Classical.choice, Quot.sound |
| `Verif.Props.C43_two_days_false` | propext, Classical.choice, Quot.sound |
| `Verif.Props.C43_valid` | propext, Classical.choice, Quot.sound |
| `Verif.Props.C44_default` | propext, Classical.choice, Quot.sound |
| `Verif.Props.C44_issue_false` | propext, Classical.choice, Quot.sound |
| `Verif.Props.C44_report` | propext, Classical.choice, Quot.sound |
| `Verif.Props.C45_fm` | propext, Classical.choice, Quot.sound |
| `Verif.Props.C45_report` | propext, Classical.choice, Quot.sound |
| `Verif.Props.C46_add` | propext, Classical.choice, Quot.sound |
| `Verif.Props.C46_report` | propext, Classical.choice, Quot.sound |
| `Verif.Props.C46_succeeds` | propext, Classical.choice, Quot.sound |
| `Verif.Props.C47_group` | propext, Classical.choice, Quot.sound |
| `Verif.Props.C47_report` | propext, Classical.choice, Quot.sound |
| `Verif.Props.C48_nil_cnl` | propext, Classical.choice, Quot.sound |
| `Verif.Props.C49_approximate_units` | propext, Classical.choice, Quot.sound |
| `Verif.Props.C49_exact_units` | propext, Classical.choice, Quot.sound |
| `Verif.Props.C49_temperatures` | propext, Classical.choice, Quot.sound |
| `Verif.Props.C50_counterexample` | propext, Classical.choice, Quot.sound |
| `Verif.Props.C50_layout` | propext, Classical.choice, Quot.sound |
| `Verif.Props.C50_round_trip` | propext, Classical.choice, Quot.sound |
| `Verif.Props.C51_counterexample` | propext, Classical.choice, Quot.sound |
| `Verif.Props.C51_layout` | propext, Classical.choice, Quot.sound |
| `Verif.Props.C51_round_trip` | propext, Classical.choice, Quot.sound |
| `Verif.Props.C52_metar` | propext, Classical.choice, Quot.sound |
| `Verif.Props.C52_metar_reached` | propext, Classical.choice, Quot.sound |
| `Verif.Props.C52_taf` | propext, Classical.choice, Quot.sound |
| `Verif.Props.C52_taf_reached` | propext, Classical.choice, Quot.sound |
| `Verif.Props.C53_change_codes` | propext, Classical.choice, Quot.sound |
| `Verif.Props.C53_metar_codes` | propext, Classical.choice, Quot.sound |
| `Verif.Props.C53_taf_codes` | propext, Classical.choice, Quot.sound |
| `Verif.Props.C53_trend_codes` | propext, Classical.choice, Quot.sound |
| `Verif.Props.C54_lookup` | propext, Classical.choice, Quot.sound |
| `Verif.Props.C54_report` | propext, Classical.choice, Quot.sound |
| `Verif.Props.C55_change_indicator` | propext, Classical.choice, Quot.sound |
| `Verif.Props.C55_change_indicator_words` | propext, Classical.choice, Quot.sound |
| `Verif.Props.C55_everywhere_unique` | propext |
| `Verif.Props.C55_metar_groups` | propext, Classical.choice, Quot.sound |
| `Verif.Props.C55_solid` | propext, Classical.choice, Quot.sound |
| `Verif.Props.C55_unchanged` | propext, Classical.choice, Quot.sound |
| `Verif.Props.C55_upTo_unique` | propext, Quot.sound |
| `Verif.Props.C55_visibility` | propext, Classical.choice, Quot.sound |
| `Verif.Props.C55_visibility_words` | propext, Classical.choice, Quot.sound |
| `Verif.Props.C55_windshear` | propext, Classical.choice, Quot.sound |
| `Verif.Props.C55_windshear_words` | propext, Classical.choice, Quot.sound |
| `Verif.Props.C56_change_text_counterexample` | propext, Classical.choice, Quot.sound |
| `Verif.Props.C56_metar_text` | propext, Classical.choice, Quot.sound |
| `Verif.Props.C56_taf_text` | propext, Classical.choice, Quot.sound |
| `Verif.Props.C56_trend_text` | propext, Classical.choice, Quot.sound |
| `Verif.Props.C56_trend_text_counterexample` | propext, Classical.choice, Quot.sound |
| `Verif.Props.C57_metar_described` | propext, Classical.choice, Quot.sound |
| `Verif.Props.C57_taf_described` | propext, Classical.choice, Quot.sound |
| `Verif.Props.C58_remark` | propext, Classical.choice, Quot.sound |
| `Verif.Props.C59_change` | propext, Classical.choice, Quot.sound |
| `Verif.Props.C59_metar` | propext, Classical.choice, Quot.sound |
| `Verif.Props.C59_metar_groups` | propext, Classical.choice, Quot.sound |
| `Verif.Props.C59_taf` | propext, Classical.choice, Quot.sound |
| `Verif.Props.C59_trend` | propext, Classical.choice, Quot.sound |
| `Verif.Props.C59_unknown_trailing_word` | propext, Quot.sound |
| `Verif.Props.C60_code_counterexample` | propext, Classical.choice, Quot.sound |
| `Verif.Props.C60_metar_dict` | propext, Classical.choice, Quot.sound |
| `Verif.Props.C60_taf_dict` | propext, Classical.choice, Quot.sound |
| `Verif.Props.C61_calm` | propext, Classical.choice, Quot.sound |
| `Verif.Props.C61_reports` | propext, Classical.choice, Quot.sound |
| `Verif.Props.C61_wind_text` | propext, Classical.choice, Quot.sound |
| `Verif.Props.C62_reports` | propext, Classical.choice, Quot.sound |
| `Verif.Props.C62_visibility_text` | propext, Classical.choice, Quot.sound |
| `Verif.Props.C62_zero_high` | propext, Classical.choice, Quot.sound |
| `Verif.Props.C63_reports` | propext, Classical.choice, Quot.sound |
| `Verif.Props.C63_weather_text` | propext, Classical.choice, Quot.sound |
| `Verif.Props.C64_cloud_text` | propext, Classical.choice, Quot.sound |
| `Verif.Props.C64_ground` | propext, Classical.choice, Quot.sound |
| `Verif.Props.C64_reports` | propext, Classical.choice, Quot.sound |
| `Verif.Props.C65_report` | propext, Classical.choice, Quot.sound |
| `Verif.Props.C65_temperature_text` | propext, Classical.choice, Quot.sound |
| `Verif.Props.C65_zero` | propext, Classical.choice, Quot.sound |
| `Verif.Props.C66_report` | propext, Classical.choice, Quot.sound |
| `Verif.Props.C66_runway_text` | propext, Classical.choice, Quot.sound |
| `Verif.Props.C66_zero` | propext, Classical.choice, Quot.sound |
| `Verif.Props.C67_counterexample` | propext, Classical.choice, Quot.sound |
| `Verif.Props.C67_layout` | propext, Classical.choice, Quot.sound |
| `Verif.Props.C67_round_trip` | propext, Classical.choice, Quot.sound |
| `Verif.Props.C68_text` | propext, Classical.choice, Quot.sound |
| `Verif.Props.C69_text` | propext, Classical.choice, Quot.sound |
| `Verif.Props.C70_counterexample` | propext, Classical.choice, Quot.sound |
| `Verif.Props.C70_injective` | propext, Classical.choice, Quot.sound |
| `Verif.Props.C70_metar` | propext, Classical.choice, Quot.sound |
| `Verif.Props.C70_metar_injective` | propext, Classical.choice, Quot.sound |
| `Verif.Props.C70_printable` | propext, Classical.choice, Quot.sound |
| `Verif.Props.C70_round_trip` | propext, Classical.choice, Quot.sound |
| `Verif.Props.C70_taf` | propext, Classical.choice, Quot.sound |
| `Verif.Props.C70_unicode` | propext, Classical.choice, Quot.sound |
| `Verif.Props.C71_library_dict` | propext, Classical.choice, Quot.sound |
| `Verif.Props.C71_library_taf_dict` | propext, Classical.choice, Quot.sound |
| `Verif.Props.C71_metar` | propext, Classical.choice, Quot.sound |
| `Verif.Props.C71_taf` | propext, Classical.choice, Quot.sound |
| `Verif.Props.C72_country` | propext, Classical.choice, Quot.sound |
| `Verif.Props.C72_country_counterexample` | propext, Classical.choice, Quot.sound |
| `Verif.Props.C72_found` | propext, Classical.choice, Quot.sound |
| `Verif.Props.C72_iata_counterexample` | propext, Quot.sound |
| `Verif.Props.C72_longitude_counterexample` | propext, Classical.choice, Quot.sound |
| `Verif.Props.C72_metar` | propext, Classical.choice, Quot.sound |
| `Verif.Props.C72_records` | propext, Classical.choice, Quot.sound |
| `Verif.Props.C72_report` | propext, Classical.choice, Quot.sound |
| `Verif.Props.C72_rows` | propext, Quot.sound |
| `Verif.Props.C72_taf` | propext, Classical.choice, Quot.sound |
| `Verif.Props.C72_unique` | propext, Quot.sound |
| `Verif.Props.C73_metar` | propext, Classical.choice, Quot.sound |
| `Verif.Props.C73_taf` | propext, Classical.choice, Quot.sound |
| `Verif.Props.C74_change_clouds_lost` | propext, Classical.choice, Quot.sound |
| `Verif.Props.C74_metar` | propext, Classical.choice, Quot.sound |
| `Verif.Props.C74_taf` | propext, Classical.choice, Quot.sound |
| `Verif.Props.C74_trend_clouds_lost` | propext, Classical.choice, Quot.sound |
| `Verif.Props.C75_metar` | propext, Classical.choice, Quot.sound |
| `Verif.Props.C75_taf` | propext, Classical.choice, Quot.sound |
| `Verif.Props.C76_text` | propext, Classical.choice, Quot.sound |
| `Verif.Props.C77_metar` | propext, Classical.choice, Quot.sound |
| `Verif.Props.C77_taf` | propext, Classical.choice, Quot.sound |
| `Verif.Props.C78_metar` | propext, Classical.choice, Quot.sound |
| `Verif.Props.C78_taf` | propext, Classical.choice, Quot.sound |
| `Verif.Props.C79_change` | propext, Classical.choice, Quot.sound |
| `Verif.Props.C79_metar` | propext, Classical.choice, Quot.sound |
| `Verif.Props.C79_metar_read` | propext, Classical.choice, Quot.sound |
| `Verif.Props.C79_taf` | propext, Classical.choice, Quot.sound |
| `Verif.Props.C79_taf_read` | propext, Classical.choice, Quot.sound |
| `Verif.Props.C79_trend` | propext, Classical.choice, Quot.sound |
| `Verif.Props.C80_back` | propext, Classical.choice, Quot.sound |
| `Verif.Props.C80_round_trip` | propext, Classical.choice, Quot.sound |
| `Verif.Props.C81_access` | propext, Classical.choice, Quot.sound |
| `Verif.Props.C81_changes` | propext, Classical.choice, Quot.sound |
| `Verif.Props.C81_forecasts` | propext, Classical.choice, Quot.sound |
| `Verif.Props.C81_metar` | propext, Classical.choice, Quot.sound |
| `Verif.Props.C81_trends` | propext, Classical.choice, Quot.sound |
| `Verif.Props.C81_wind_shears` | propext, Classical.choice, Quot.sound |
| `Verif.Props.C82_change` | propext |
| `Verif.Props.C82_trend` | propext, Classical.choice, Quot.sound |
| `Verif.Props.C83_change` | propext, Classical.choice, Quot.sound |
| `Verif.Props.C83_report` | propext, Classical.choice, Quot.sound |
| `Verif.Props.C84_change` | propext, Classical.choice, Quot.sound |
| `Verif.Props.C84_converted` | propext, Classical.choice, Quot.sound |
| `Verif.Props.C84_groups` | propext, Classical.choice, Quot.sound |
| `Verif.Props.C84_metar` | propext, Classical.choice, Quot.sound |
| `Verif.Props.C84_taf` | propext, Classical.choice, Quot.sound |
| `Verif.Props.C84_trend` | propext, Classical.choice, Quot.sound |
| `Verif.Props.C85_counterexample` | propext |
| `Verif.Props.C85_left_exact` | propext, Classical.choice, Quot.sound |
| `Verif.Props.C85_left_spells` | propext, Classical.choice, Quot.sound |
| `Verif.Props.C85_limit` | propext, Classical.choice, Quot.sound |
| `Verif.Props.C85_opens` | propext, Classical.choice, Quot.sound |
| `Verif.Props.C85_right_spells` | propext, Classical.choice, Quot.sound |
| `Verif.Props.C86_entry` | propext, Classical.choice, Quot.sound |
| `Verif.Props.C86_infix` | propext, Classical.choice, Quot.sound |
| `Verif.Props.C86_metar` | propext, Classical.choice, Quot.sound |
| `Verif.Props.C86_read` | propext, Classical.choice, Quot.sound |
| `Verif.Props.C86_taf` | propext, Classical.choice, Quot.sound |
| `Verif.Props.C87_metar` | propext, Classical.choice, Quot.sound |
| `Verif.Props.C87_not_fewest_counterexample` | propext, Classical.choice, Quot.sound |
| `Verif.Props.C87_section` | propext, Classical.choice, Quot.sound |
| `Verif.Props.C87_taf` | propext, Classical.choice, Quot.sound |
| `Verif.Props.C87_truncate_metar` | propext, Classical.choice, Quot.sound |
| `Verif.Props.C87_truncate_taf` | propext, Classical.choice, Quot.sound |
| `Verif.Props.C88_metar` | propext, Classical.choice, Quot.sound |
| `Verif.Props.C88_section` | propext, Quot.sound |
| `Verif.Props.C88_taf` | propext, Classical.choice, Quot.sound |
| `Verif.Props.C89_metar` | propext, Classical.choice, Quot.sound |
| `Verif.Props.C89_ops` | propext, Classical.choice, Quot.sound |
| `Verif.Props.C89_round` | propext, Classical.choice, Quot.sound |
| `Verif.Props.C89_signs` | propext, Classical.choice, Quot.sound |
| `Verif.Props.C89_taf` | propext, Classical.choice, Quot.sound |
| `Verif.Props.C90_digits` | propext, Classical.choice, Quot.sound |
| `Verif.Props.C90_fixed` | propext, Classical.choice, Quot.sound |
| `Verif.Props.C90_metar` | propext, Classical.choice, Quot.sound |
| `Verif.Props.C90_nearest` | propext, Classical.choice, Quot.sound |
| `Verif.Props.C90_repr` | propext, Classical.choice, Quot.sound |
| `Verif.Props.C90_taf` | propext, Classical.choice, Quot.sound |
| `Verif.Props.C90_zero` | propext, Classical.choice, Quot.sound |
| `Verif.Props.C91_choices` | propext, Quot.sound |
| `Verif.Props.C91_group` | propext, Quot.sound |
| `Verif.Props.C91_match` | propext, Classical.choice, Quot.sound |
| `Verif.Props.C91_patterns` | propext, Quot.sound |
| `Verif.Props.C91_search` | propext, Classical.choice, Quot.sound |
| `Verif.Props.C91_sub` | propext, Classical.choice, Quot.sound |
| `Verif.Props.C92_patterns` | propext, Quot.sound |
| `Verif.Props.C92_unique` | propext, Quot.sound |
| `Verif.Props.C93_captured` | propext, Classical.choice, Quot.sound |
| `Verif.Props.C93_digits` | propext, Classical.choice, Quot.sound |
| `Verif.Props.C93_fixed` | propext, Classical.choice, Quot.sound |
| `Verif.Props.C93_float` | propext, Classical.choice, Quot.sound |
| `Verif.Props.C93_int` | propext, Quot.sound |
| `Verif.Props.C93_miles` | propext, Classical.choice, Quot.sound |
| `Verif.Props.C93_shortest` | propext, Classical.choice, Quot.sound |
| `Verif.Props.C93_word` | propext, Classical.choice, Quot.sound |
| `Verif.Props.C94_compass` | propext, Classical.choice, Quot.sound |
| `Verif.Props.C94_get` | propext, Classical.choice, Quot.sound |
| `Verif.Props.C94_join_split` | propext, Quot.sound |
| `Verif.Props.C94_number` | propext, Classical.choice, Quot.sound |
| `Verif.Props.C94_replace` | propext, Quot.sound |
| `Verif.Props.C94_signed` | propext, Classical.choice, Quot.sound |
| `Verif.Props.C94_strip` | propext, Quot.sound |
| `Verif.Props.C94_update` | propext, Quot.sound |
| `Verif.Props.C95_early_counterexample` | propext, Classical.choice, Quot.sound |
| `Verif.Props.C95_metar` | propext, Classical.choice, Quot.sound |
| `Verif.Props.C95_metar_refused` | propext, Classical.choice, Quot.sound |
| `Verif.Props.C95_taf` | propext, Classical.choice, Quot.sound |
| `Verif.Props.C95_taf_refused` | propext, Classical.choice, Quot.sound |
| `Verif.Props.C95_taf_unused` | propext, Classical.choice, Quot.sound |
| `Verif.Props.C96_change` | propext, Classical.choice, Quot.sound |
| `Verif.Props.C96_metar` | propext, Classical.choice, Quot.sound |
| `Verif.Props.C96_metar_groups` | propext, Classical.choice, Quot.sound |
| `Verif.Props.C96_section` | propext, Classical.choice, Quot.sound |
| `Verif.Props.C96_taf` | propext, Classical.choice, Quot.sound |
| `Verif.Props.C96_taf_groups` | propext, Classical.choice, Quot.sound |
| `Verif.Props.C96_trend` | propext, Classical.choice, Quot.sound |
| `Verif.Props.C97_change` | propext, Classical.choice, Quot.sound |
| `Verif.Props.C97_metar` | propext, Classical.choice, Quot.sound |
| `Verif.Props.C97_metar_text` | propext, Classical.choice, Quot.sound |
| `Verif.Props.C97_section` | propext, Classical.choice, Quot.sound |
| `Verif.Props.C97_taf` | propext, Classical.choice, Quot.sound |
| `Verif.Props.C97_trend` | propext, Classical.choice, Quot.sound |
| `Verif.Props.C98_change` | propext, Classical.choice, Quot.sound |
| `Verif.Props.C98_closed` | propext, Classical.choice, Quot.sound |
| `Verif.Props.C98_digits` | propext, Classical.choice, Quot.sound |
| `Verif.Props.C98_indicator` | propext, Classical.choice, Quot.sound |
| `Verif.Props.C98_metar` | propext, Classical.choice, Quot.sound |
| `Verif.Props.C98_open` | propext, Classical.choice, Quot.sound |
| `Verif.Props.C98_taf` | propext, Classical.choice, Quot.sound |
| `Verif.Props.C98_tail` | propext, Classical.choice, Quot.sound |
| `Verif.Props.C98_temperature` | propext, Classical.choice, Quot.sound |
| `Verif.Props.C98_trend` | propext, Classical.choice, Quot.sound |
| `Verif.Props.C98_visibility` | propext, Classical.choice, Quot.sound |
| `Verif.Props.C99_change` | propext, Classical.choice, Quot.sound |
| `Verif.Props.C99_metar` | propext, Classical.choice, Quot.sound |
| `Verif.Props.C99_metar_derived` | propext, Classical.choice, Quot.sound |
| `Verif.Props.C99_metar_station` | propext, Classical.choice, Quot.sound |
| `Verif.Props.C99_taf` | propext, Classical.choice, Quot.sound |
| `Verif.Props.C99_taf_station` | propext, Classical.choice, Quot.sound |
| `Verif.Props.C99_trend` | propext, Classical.choice, Quot.sound |

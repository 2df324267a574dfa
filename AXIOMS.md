# Axioms of the theorems

Generated by tools/gen_axioms.py from `#print axioms`.

| theorem | axioms |
|---|---|
| Verif.C01_r_trig_rising_edge | propext, Quot.sound |
| Verif.C02_f_trig_falling_edge | propext, Quot.sound |
| Verif.C02_first_call | propext |
| Verif.C03_pulse_balance | propext, Quot.sound |
| Verif.C03_never_both | propext, Quot.sound |
| Verif.C03_no_consecutive_pulses | propext, Quot.sound |
| Verif.C04_sr_set_dominant | propext, Quot.sound |
| Verif.C05_rs_reset_dominant | propext, Quot.sound |
| Verif.C06_ctu_counts_rising_edges | propext, Classical.choice, Quot.sound |
| Verif.C07_ctu_q_and_no_overflow | propext, Classical.choice, Quot.sound |
| Verif.C08_ctd_counts_down | propext, Classical.choice, Quot.sound |
| Verif.C09_ctud_net_edges | propext, Classical.choice, Quot.sound |
| Verif.C10_refuted | propext, Quot.sound |
| Verif.C10_partial | propext, Classical.choice, Quot.sound |
| Verif.C10_partial_ctd | propext, Classical.choice, Quot.sound |
| Verif.C10_refuted_ctd | none |
| Verif.C10_refuted_ctud | none |
| Verif.C10_partial_ctud | propext, Classical.choice, Quot.sound |
| Verif.C11_ton_output | propext, Quot.sound |
| Verif.C12_ton_elapsed_time | propext, Quot.sound |
| Verif.C12_ton_elapsed_bounds | propext, Classical.choice, Quot.sound |
| Verif.C12_ton_elapsed_monotone | propext, Quot.sound |
| Verif.C13_tof_output | propext, Quot.sound |
| Verif.C13_tof_elapsed_time | propext, Quot.sound |
| Verif.C14_refuted | none |
| Verif.C14_partial | propext, Classical.choice, Quot.sound |
| Verif.C15_tp_pulse | propext, Quot.sound |
| Verif.C15_tp_start | propext, Quot.sound |
| Verif.C16_refuted | propext, Quot.sound |
| Verif.C16_partial | propext, Quot.sound |
| Verif.C16_partial_iff | propext, Classical.choice, Quot.sound |
| Verif.C17_ton_tof_never_abort | propext, Quot.sound |
| Verif.C17_q_implies_et | propext, Quot.sound |
| Verif.C17_q_true_with_et_below_pt | none |
| Verif.C18_max_int | propext, Classical.choice, Quot.sound |
| Verif.C18_min_int | propext, Classical.choice, Quot.sound |
| Verif.C18_rejects | propext, Quot.sound |
| Verif.C19_limit_clamps | propext, Quot.sound |
| Verif.C19_limit_closest | propext, Quot.sound |
| Verif.C19_limit_idempotent_monotone | propext, Quot.sound |
| Verif.C19_limit_reversed | propext, Quot.sound |
| Verif.C19_limit_in_type | none |
| Verif.C20_max_float | propext, Classical.choice, Quot.sound |
| Verif.C20_min_float | propext, Classical.choice, Quot.sound |
| Verif.C20_max_min_permutation | propext, Classical.choice, Quot.sound |
| Verif.C21_refuted | propext, Classical.choice, Quot.sound |
| Verif.C21_partial | propext, Classical.choice, Quot.sound |
| Verif.C22_shl_shr | propext |
| Verif.C23_refuted | propext |
| Verif.C23_partial | propext, Quot.sound |
| Verif.C24_rol_bits | propext, Quot.sound |
| Verif.C24_ror_bits | propext, Quot.sound |
| Verif.C24_ror_rol | propext, Quot.sound |
| Verif.C24_rotations_compose | propext, Quot.sound |
| Verif.C24_popcount | propext, Classical.choice, Quot.sound |
| Verif.C25_bcd_digits | propext, Classical.choice, Quot.sound |
| Verif.C25_bcd_encoding | propext, Classical.choice, Quot.sound |
| Verif.C25_bcd_count | propext, Classical.choice, Quot.sound |
| Verif.C26_is_valid | propext |
| Verif.C27_swap | propext, Quot.sound |
| Verif.C27_roles | propext, Quot.sound |
| Verif.C27_memory | propext, Quot.sound |
| Verif.C28_refuted | propext, Quot.sound |
| Verif.C28_partial | propext, Quot.sound |
| Verif.C29_partial | propext, Quot.sound |
| Verif.C29_refuted | none |
| Verif.C30_split_date | propext, Classical.choice, Quot.sound |
| Verif.C30_split_dt | propext, Classical.choice, Quot.sound |
| Verif.C30_calendar | propext, Classical.choice, Quot.sound |
| Verif.C31_split_total | propext, Classical.choice, Quot.sound |
| Verif.C32_refuted | propext |
| Verif.C32_split_concat_partial | propext, Classical.choice, Quot.sound |
| Verif.C32_concat_split | propext, Classical.choice, Quot.sound |
| Verif.C32_any_type_partial | propext, Classical.choice, Quot.sound |
| Verif.C33_concat_date | propext, Classical.choice, Quot.sound |
| Verif.C33_valid_dates | propext, Classical.choice, Quot.sound |
| Verif.C34_date | propext, Classical.choice, Quot.sound |
| Verif.C34_time_of_day | propext, Classical.choice, Quot.sound |
| Verif.C34_concat | propext, Classical.choice, Quot.sound |
| Verif.C34_recombine | propext, Classical.choice, Quot.sound |
| Verif.C34_conversions | propext, Classical.choice, Quot.sound |
| Verif.C35_refuted | propext, Quot.sound |
| Verif.C35_partial | propext, Classical.choice, Quot.sound |
| Verif.C36_refuted | propext |
| Verif.C36_partial | propext, Classical.choice, Quot.sound |
| Verif.C37_day_of_week | propext, Classical.choice, Quot.sound |
| Verif.C38_add_sub_time | propext, Classical.choice, Quot.sound |
| Verif.C39_datetime_arithmetic | propext, Classical.choice, Quot.sound |
| Verif.C39_add_sub_cancel | propext, Classical.choice, Quot.sound |
| Verif.C40_mul | propext, Classical.choice, Quot.sound |
| Verif.C40_div | propext, Classical.choice, Quot.sound |
| Verif.C40_variants_agree | propext, Classical.choice, Quot.sound |
| Verif.C41_refuted | propext |
| Verif.C41_partial | propext, Classical.choice, Quot.sound |
| Verif.C42_negate_time | propext, Classical.choice, Quot.sound |
| Verif.C42_negate_factor | propext, Classical.choice, Quot.sound |
| Verif.C42_sign | propext, Quot.sound |
| Verif.C42_special | propext, Classical.choice, Quot.sound |
| Verif.C43_len_panics_iff | propext, Classical.choice, Quot.sound |
| Verif.C43_malformed_panics | propext, Classical.choice, Quot.sound |
| Verif.C43_malformed_panics_second | propext, Classical.choice, Quot.sound |
| Verif.C43_wellformed | propext, Classical.choice, Quot.sound |
| Verif.C43_malformed_panics_concat | propext, Classical.choice, Quot.sound |
| Verif.C44_len_string | propext, Classical.choice, Quot.sound |
| Verif.C44_len_wstring | propext, Classical.choice, Quot.sound |
| Verif.C44_len_wstring_text | propext, Classical.choice, Quot.sound |
| Verif.C44_tail_irrelevant | propext, Quot.sound |
| Verif.C45_left | propext, Classical.choice, Quot.sound |
| Verif.C45_right | propext, Classical.choice, Quot.sound |
| Verif.C45_mid | propext, Classical.choice, Quot.sound |
| Verif.C46_insert | propext, Classical.choice, Quot.sound |
| Verif.C46_delete | propext, Classical.choice, Quot.sound |
| Verif.C46_replace | propext, Classical.choice, Quot.sound |
| Verif.C47_refuted | propext |
| Verif.C47_delete_partial | propext, Classical.choice, Quot.sound |
| Verif.C47_replace_partial | propext, Classical.choice, Quot.sound |
| Verif.C48_concat | propext, Classical.choice, Quot.sound |
| Verif.C48_concat_none | propext, Quot.sound |
| Verif.C48_concat_null | propext |
| Verif.C49_store | propext, Classical.choice, Quot.sound |
| Verif.C49_writers | propext, Quot.sound |
| Verif.C49_concat | propext, Quot.sound |
| Verif.C50_found | propext, Classical.choice, Quot.sound |
| Verif.C50_not_found | propext, Classical.choice, Quot.sound |
| Verif.C50_total | propext, Classical.choice, Quot.sound |
| Verif.C51_found | propext, Classical.choice, Quot.sound |
| Verif.C51_not_found | propext, Classical.choice, Quot.sound |
| Verif.C51_total | propext, Classical.choice, Quot.sound |
| Verif.C52_gt | propext, Classical.choice, Quot.sound |
| Verif.C52_ge | propext, Classical.choice, Quot.sound |
| Verif.C52_eq | propext, Quot.sound |
| Verif.C52_le | propext, Classical.choice, Quot.sound |
| Verif.C52_lt | propext, Quot.sound |
| Verif.C52_too_few | propext |
| Verif.C52_ne | propext, Quot.sound |
| Verif.C52_trichotomy | propext, Quot.sound |
| Verif.C53_refuted | propext |
| Verif.C53_string_partial | propext, Classical.choice, Quot.sound |
| Verif.C53_wstring_partial | propext, Classical.choice, Quot.sound |
| Verif.C53_wstring_codepoint_partial | propext, Classical.choice, Quot.sound |
| Verif.C54_string_roundtrip_partial | propext, Classical.choice, Quot.sound |
| Verif.C54_refuted | propext |
| Verif.C54_wstring_roundtrip | propext, Classical.choice, Quot.sound |
| Verif.C55_wstring_to_string | propext, Classical.choice, Quot.sound |
| Verif.C55_every_wstring | propext, Classical.choice, Quot.sound |
| Verif.C55_never_panics | propext, Classical.choice, Quot.sound |
| Verif.C56_numbers_refuted | propext, Classical.choice, Quot.sound |
| Verif.C56_numbers_partial | propext, Classical.choice, Quot.sound |
| Verif.C56_string_to_wstring_refuted | propext, Quot.sound |
| Verif.C56_string_to_wstring_partial | propext, Classical.choice, Quot.sound |
| Verif.C56_wstring_to_string | propext, Classical.choice, Quot.sound |
| Verif.C56_times_refuted | propext, Classical.choice, Quot.sound |
| Verif.C56_times_partial | propext, Classical.choice, Quot.sound |
| Verif.C56_time_exact_partial | propext, Classical.choice, Quot.sound |
| Verif.C56_time_success_partial | propext, Classical.choice, Quot.sound |
| Verif.C57_char_to_wchar | propext, Classical.choice, Quot.sound |
| Verif.C57_wchar_to_char | propext, Classical.choice, Quot.sound |
| Verif.C57_refuted | propext |
| Verif.C57_roundtrip_partial | propext, Classical.choice, Quot.sound |
| Verif.C58_find_mid | propext, Classical.choice, Quot.sound |
| Verif.C58_left_right | propext, Classical.choice, Quot.sound |
| Verif.C58_delete_insert | propext, Classical.choice, Quot.sound |
| Verif.C58_replace | propext, Classical.choice, Quot.sound |
| Verif.C58_mid_left | propext, Classical.choice, Quot.sound |
| Verif.C58_len_concat | propext, Classical.choice, Quot.sound |
| Verif.C59_unsigned | propext, Classical.choice, Quot.sound |
| Verif.C59_signed | propext, Classical.choice, Quot.sound |
| Verif.C59_roundtrip | propext, Classical.choice, Quot.sound |
| Verif.C60_value | propext, Classical.choice, Quot.sound |
| Verif.C60_otherwise_panics | propext, Classical.choice, Quot.sound |
| Verif.C60_unambiguous | propext, Classical.choice, Quot.sound |
| Verif.C61_decomposition | propext, Classical.choice, Quot.sound |
| Verif.C61_text | propext, Classical.choice, Quot.sound |
| Verif.C61_injective | propext, Classical.choice, Quot.sound |
| Verif.C62_refuted | propext, Classical.choice, Quot.sound |
| Verif.C62_text_partial | propext, Classical.choice, Quot.sound |
| Verif.C62_collisions_partial | propext, Classical.choice, Quot.sound |
| Verif.C63_date | propext, Classical.choice, Quot.sound |
| Verif.C63_tod | propext, Classical.choice, Quot.sound |
| Verif.C63_dt | propext, Classical.choice, Quot.sound |
| Verif.C63_recoverable | propext, Classical.choice, Quot.sound |
| Verif.C64_value | propext, Classical.choice, Quot.sound |
| Verif.C64_round_trip | propext, Classical.choice, Quot.sound |
| Verif.C65_refuted | propext |
| Verif.C65_partial | propext, Classical.choice, Quot.sound |
| Verif.C66_reinterpret | none |
| Verif.C67_time | propext, Classical.choice, Quot.sound |
| Verif.C68_nearest | propext, Classical.choice, Quot.sound |
| Verif.C68_integers_monotone | propext, Classical.choice, Quot.sound |
| Verif.C68_odd | propext, Classical.choice, Quot.sound |
| Verif.C69_negative_preset_never_expires | propext, Quot.sound |
| Verif.C70_refuted | propext |
| Verif.C70_partial | propext, Classical.choice, Quot.sound |
| Verif.C71_refuted | propext |
| Verif.C71_partial | propext, Classical.choice, Quot.sound |
| Verif.C71_any_type_partial | propext, Classical.choice, Quot.sound |
| Verif.C72_mul_accuracy | propext, Classical.choice, Quot.sound |
| Verif.C73_div_accuracy | propext, Classical.choice, Quot.sound |
| Verif.C74_select | propext, Classical.choice, Quot.sound |
| Verif.C74_insert_replace | propext, Classical.choice, Quot.sound |
| Verif.C75_partial | propext, Classical.choice, Quot.sound |
| Verif.C75_refuted | propext, Classical.choice, Quot.sound |
| Verif.C76_nearest | propext, Classical.choice, Quot.sound |
| Verif.C77_refuted | propext, Classical.choice, Quot.sound |
| Verif.C77_partial | propext, Classical.choice, Quot.sound |
| Verif.C78_nearest | propext, Classical.choice, Quot.sound |
| Verif.C78_monotone | propext, Classical.choice, Quot.sound |
| Verif.C79_refuted | propext |
| Verif.C79_partial | propext, Classical.choice, Quot.sound |
| Verif.C79_exact_partial | propext, Classical.choice, Quot.sound |
| Verif.C79_small_types | propext, Classical.choice, Quot.sound |
| Verif.C80_nearest | propext, Classical.choice, Quot.sound |
| Verif.C80_exact | propext, Classical.choice, Quot.sound |
| Verif.C81_truncates | propext, Classical.choice, Quot.sound |
| Verif.C81_undefined | propext, Classical.choice, Quot.sound |
| Verif.C82_value | propext, Classical.choice, Quot.sound |
| Verif.C82_sign_refuted | propext |
| Verif.C83_lreal | propext, Classical.choice, Quot.sound |
| Verif.C83_real_ext | propext, Classical.choice, Quot.sound |
| Verif.C83_real | propext, Classical.choice, Quot.sound |
| Verif.C83_unique | propext, Classical.choice, Quot.sound |
| Verif.C84_accuracy | propext, Classical.choice, Quot.sound |
| Verif.C84_monotone | propext, Classical.choice, Quot.sound |
| Verif.C85_refuted | propext, Classical.choice, Quot.sound |
| Verif.C85_partial | propext, Classical.choice, Quot.sound |
| Verif.C85_real | propext, Classical.choice, Quot.sound |
| Verif.C86_decimal | propext, Classical.choice, Quot.sound |
| Verif.C86_words | propext, Classical.choice, Quot.sound |
| Verif.C86_otherwise_panics | propext, Classical.choice, Quot.sound |
| Verif.C86_unambiguous | propext, Classical.choice, Quot.sound |
| Verif.C87_refuted | propext, Classical.choice, Quot.sound |
| Verif.C87_partial | propext, Classical.choice, Quot.sound |
| Verif.C87_real_partial | propext, Classical.choice, Quot.sound |
| Verif.C88_refuted | propext |
| Verif.C88_partial | propext, Classical.choice, Quot.sound |
| Verif.C89_nearest | propext, Classical.choice, Quot.sound |
| Verif.C89_special | propext, Classical.choice, Quot.sound |
| Verif.C89_square | propext, Classical.choice, Quot.sound |
| Verif.C89_monotone | propext, Classical.choice, Quot.sound |
| Verif.C89_accuracy | propext, Classical.choice, Quot.sound |
| Verif.C90_constants | propext, Classical.choice, Quot.sound |
| Verif.C91_exact | propext, Classical.choice, Quot.sound |
| Verif.C91_integers | propext, Classical.choice, Quot.sound |
| Verif.C91_special | propext, Classical.choice, Quot.sound |
| Verif.C92_accuracy | propext, Classical.choice, Quot.sound |
| Verif.C93_refuted | propext, Quot.sound |
| Verif.C93_partial | propext, Quot.sound |
| Verif.C94_unsigned | propext, Classical.choice, Quot.sound |
| Verif.C94_signed | propext, Classical.choice, Quot.sound |
| Verif.C94_calendar | propext, Classical.choice, Quot.sound |
| Verif.C94_time | propext, Classical.choice, Quot.sound |
| Verif.C94_float | propext, Classical.choice, Quot.sound |
| Verif.C95_select | propext, Classical.choice, Quot.sound |
| Verif.C95_string_to_wstring | propext, Classical.choice, Quot.sound |
| Verif.C95_refuted | propext, Classical.choice, Quot.sound |
| Verif.C95_grow_partial | propext, Classical.choice, Quot.sound |
| Verif.C95_concat_partial | propext, Classical.choice, Quot.sound |
| Verif.C95_wstring_to_string_partial | propext, Classical.choice, Quot.sound |
| Verif.C96_first_80_partial | propext, Classical.choice, Quot.sound |
| Verif.C96_short_partial | propext, Classical.choice, Quot.sound |
| Verif.C96_refuted | propext |
| Verif.C97_string_to_char | propext |
| Verif.C97_refuted | none |
| Verif.C97_char_to_string_partial | propext, Classical.choice, Quot.sound |
| Verif.C98_real | propext, Classical.choice, Quot.sound |
| Verif.C98_lreal | propext, Classical.choice, Quot.sound |
| Verif.C99_lreal_real | propext, Classical.choice, Quot.sound |
| Verif.C99_real_lreal | propext, Classical.choice, Quot.sound |
| Verif.C100_refuted | none |
| Verif.C100_tagged_partial | none |
| Verif.C100_ton_partial | propext, Quot.sound |
| Verif.C100_tof_partial | propext, Quot.sound |
| Verif.C100_tp_partial | propext, Quot.sound |
| Verif.Abi.C101_struct | propext, Quot.sound |
| Verif.Abi.C101_function_blocks | propext, Quot.sound |
| Verif.Abi.C102_refuted | propext |
| Verif.Abi.C102_partial | propext |
| Verif.C103_flanks_latches | propext, Quot.sound |
| Verif.C103_counters | propext, Quot.sound |
| Verif.C103_ton_tof | propext, Quot.sound |
| Verif.C103_tp_refuted | none |
| Verif.C103_tp_partial | propext, Quot.sound |
| Verif.C104_clock_origin | propext, Quot.sound |
| Verif.C105_refuted | propext |
| Verif.C105_shift_partial | propext |
| Verif.C105_counters | propext, Classical.choice, Quot.sound |
| Verif.C105_delete_replace_partial | propext, Classical.choice, Quot.sound |
| Verif.C105_mid_find | propext, Classical.choice, Quot.sound |
| Verif.C105_time | propext, Classical.choice, Quot.sound |
| Verif.C106_ton_reaction | propext, Classical.choice, Quot.sound |
| Verif.C106_tof_reaction | propext, Classical.choice, Quot.sound |
| Verif.C106_tp_reaction | propext, Classical.choice, Quot.sound |
| Verif.C107_tof_is_dual_of_ton | propext, Quot.sound |
| Verif.C107_f_trig_is_dual_of_r_trig | propext, Quot.sound |
| Verif.C107_rs_is_dual_of_sr | propext, Quot.sound |
| Verif.C107_ctud_is_ctu | propext, Quot.sound |
| Verif.C107_ctud_is_ctd | propext, Quot.sound |
| Verif.C107_edge_before_counter | propext, Quot.sound |
| Verif.C108_time | propext, Classical.choice, Quot.sound |
| Verif.C108_grouping_may_abort | propext |
| Verif.C108_points | propext, Classical.choice, Quot.sound |
| Verif.C108_order | propext, Classical.choice, Quot.sound |
| Verif.C108_mul | propext, Classical.choice, Quot.sound |
| Verif.C108_div_mul | propext, Classical.choice, Quot.sound |
| Verif.C109_mul_magnitude | propext, Classical.choice, Quot.sound |
| Verif.C109_mul_time | propext, Classical.choice, Quot.sound |
| Verif.C109_mul_factor | propext, Classical.choice, Quot.sound |
| Verif.C109_div_magnitude | propext, Classical.choice, Quot.sound |
| Verif.C109_div_time | propext, Classical.choice, Quot.sound |
| Verif.C109_div_divisor | propext, Classical.choice, Quot.sound |
| Verif.C110_date | propext, Classical.choice, Quot.sound |
| Verif.C110_tod | propext, Classical.choice, Quot.sound |
| Verif.C110_dt | propext, Classical.choice, Quot.sound |
| Verif.C111_same_results | propext, Classical.choice, Quot.sound |
| Verif.C111_conversion | propext, Classical.choice, Quot.sound |
| Verif.C112_not_found_partial | propext, Quot.sound |
| Verif.C112_string_partial | propext, Classical.choice, Quot.sound |
| Verif.C112_wstring_partial | propext, Classical.choice, Quot.sound |
| Verif.C112_elements | propext, Classical.choice, Quot.sound |
| Verif.C112_refuted | propext, Classical.choice, Quot.sound |
| Verif.C113_wide | propext, Classical.choice, Quot.sound |
| Verif.C113_same_result | propext, Classical.choice, Quot.sound |
| Verif.C113_value | propext, Classical.choice, Quot.sound |
| Verif.C114_float_float | propext, Classical.choice, Quot.sound |
| Verif.C114_float_int | propext, Classical.choice, Quot.sound |
| Verif.C114_trunc | propext, Classical.choice, Quot.sound |
| Verif.C114_text | propext, Classical.choice, Quot.sound |
| Verif.C115_select | propext, Classical.choice, Quot.sound |
| Verif.C115_insert | propext, Classical.choice, Quot.sound |
| Verif.C115_delete_replace_partial | propext, Classical.choice, Quot.sound |
| Verif.C115_refuted | propext |
| Verif.C115_delete_replace_any_partial | propext, Classical.choice, Quot.sound |
| Verif.C115_concat | propext, Classical.choice, Quot.sound |
| Verif.C115_convert | propext, Classical.choice, Quot.sound |
| Verif.C115_read | propext, Classical.choice, Quot.sound |
| Verif.C115_compare | propext, Quot.sound |
| Verif.C115_behind_terminator | propext, Quot.sound |
| Verif.C115_behind_terminators | propext, Quot.sound |
| Verif.C116_one_scan | propext, Quot.sound |
| Verif.C116_apart | propext, Quot.sound |
| Verif.C116_first | propext, Classical.choice, Quot.sound |
| Verif.C116_next | propext, Classical.choice, Quot.sound |
| Verif.C116_rate | propext, Classical.choice, Quot.sound |
| Verif.C117_not_early | propext, Quot.sound |
| Verif.C117_not_late | propext, Classical.choice, Quot.sound |
| Verif.C118_refuted | propext |
| Verif.C118_partial | propext, Quot.sound |
| Verif.C118_any_signal_partial | propext, Classical.choice, Quot.sound |
| Verif.C119_add_days | propext, Classical.choice, Quot.sound |
| Verif.C119_sub_days | propext, Classical.choice, Quot.sound |
| Verif.C119_days_between | propext, Classical.choice, Quot.sound |
| Verif.C119_order | propext, Classical.choice, Quot.sound |
| Verif.C119_lengths | propext, Classical.choice, Quot.sound |
| Verif.C119_leap_day | propext, Classical.choice, Quot.sound |
| Verif.C120_nested | propext, Classical.choice, Quot.sound |
| Verif.C120_same_values | propext, Classical.choice, Quot.sound |
| Verif.C120_min_le_max | propext, Classical.choice, Quot.sound |
| Verif.C120_monotone | propext, Classical.choice, Quot.sound |
| Verif.C120_limit | propext, Classical.choice, Quot.sound |
| Verif.C120_limit_limit | propext, Quot.sound |
| Verif.C120_lattice | propext, Classical.choice, Quot.sound |
| Verif.C120_limit_float | propext, Classical.choice, Quot.sound |
| Verif.C120_nested_float | propext, Classical.choice, Quot.sound |
| Verif.C120_same_values_float | propext, Classical.choice, Quot.sound |
| Verif.C120_min_le_max_float | propext, Classical.choice, Quot.sound |
| Verif.C120_monotone_float | propext, Classical.choice, Quot.sound |
| Verif.C120_lattice_float | propext, Classical.choice, Quot.sound |
| Verif.C121_shift_twice | propext, Quot.sound |
| Verif.C121_shift_back | propext, Quot.sound |
| Verif.C121_rotate_by_shifts | propext, Quot.sound |
| Verif.C121_rol_ror | propext, Quot.sound |
| Verif.C121_full_turn | propext, Quot.sound |
| Verif.C121_bcd_shift | propext, Classical.choice, Quot.sound |
| Verif.C121_bcd_rotate | propext, Classical.choice, Quot.sound |
| Verif.C121_word_swap | propext, Quot.sound |
| Verif.C122_mid | propext, Classical.choice, Quot.sound |
| Verif.C122_concat_parts | propext, Classical.choice, Quot.sound |
| Verif.C122_replace | propext, Classical.choice, Quot.sound |
| Verif.C122_replace_self | propext, Classical.choice, Quot.sound |
| Verif.C122_delete_insert | propext, Classical.choice, Quot.sound |
| Verif.C122_first | propext, Classical.choice, Quot.sound |
| Verif.C122_absent | propext, Classical.choice, Quot.sound |
| Verif.C122_append | propext, Classical.choice, Quot.sound |
| Verif.C122_trans | propext, Classical.choice, Quot.sound |
| Verif.C122_left | propext, Classical.choice, Quot.sound |
| Verif.C122_remove_all | propext, Classical.choice, Quot.sound |
| Verif.C123_no_abort | propext, Quot.sound |
| Verif.C123_no_glitch | propext, Quot.sound |
| Verif.C123_stays | propext, Quot.sound |
| Verif.C123_follows | propext, Quot.sound |
| Verif.C124_sign | propext, Classical.choice, Quot.sound |
| Verif.C124_monotone | propext, Classical.choice, Quot.sound |
| Verif.C124_reciprocal | propext, Classical.choice, Quot.sound |
| Verif.C124_square | propext, Classical.choice, Quot.sound |
| Verif.C124_root_of_square | propext, Classical.choice, Quot.sound |
| Verif.C124_square_of_root | propext, Classical.choice, Quot.sound |
| Verif.C125_day_number | propext, Classical.choice, Quot.sound |
| Verif.C125_weekday | propext, Classical.choice, Quot.sound |
| Verif.C125_weekday_of_timestamp | propext, Classical.choice, Quot.sound |
| Verif.C125_400_years | propext, Classical.choice, Quot.sound |
| Verif.C125_28_years | propext, Classical.choice, Quot.sound |
| Verif.C125_next_year | propext, Classical.choice, Quot.sound |
| Verif.C126_product | propext, Classical.choice, Quot.sound |
| Verif.C126_order | propext, Classical.choice, Quot.sound |
| Verif.C126_single | propext, Classical.choice, Quot.sound |
| Verif.C127_toggle | propext, Quot.sound |
| Verif.C127_binary_counter | propext, Classical.choice, Quot.sound |
| Verif.C128_refuted | propext, Quot.sound |
| Verif.C128_concat | propext |
| Verif.C128_no_result_partial | propext |
| Verif.C128_empty_partial | propext, Classical.choice, Quot.sound |
| Verif.C128_time_partial | propext, Classical.choice, Quot.sound |
| Verif.C128_compare_partial | propext, Quot.sound |
| Verif.C128_list_partial | propext, Classical.choice, Quot.sound |
| Verif.C128_text_partial | propext, Quot.sound |
| Verif.C129_on_at_least | propext, Classical.choice, Quot.sound |
| Verif.C129_off_at_least | propext, Classical.choice, Quot.sound |
| Verif.C129_first | propext, Classical.choice, Quot.sound |
| Verif.C129_on | propext, Classical.choice, Quot.sound |
| Verif.C129_off | propext, Classical.choice, Quot.sound |
| Verif.C130_refuted | propext, Classical.choice, Quot.sound |
| Verif.C130_mul_partial | propext, Classical.choice, Quot.sound |
| Verif.C130_div_partial | propext, Classical.choice, Quot.sound |
| Verif.C130_mul_seconds | propext, Classical.choice, Quot.sound |
| Verif.C130_div_seconds | propext, Classical.choice, Quot.sound |
| Verif.C131_int | propext, Classical.choice, Quot.sound |
| Verif.C131_float | propext, Classical.choice, Quot.sound |
| Verif.C132_step | propext, Classical.choice, Quot.sound |
| Verif.C132_constant_input | propext, Classical.choice, Quot.sound |
| Verif.C132_reaches | propext, Classical.choice, Quot.sound |
| Verif.C133_split | propext, Classical.choice, Quot.sound |
| Verif.C133_join_split | propext, Classical.choice, Quot.sound |
| Verif.C134_padded | propext, Classical.choice, Quot.sound |
| Verif.C134_read_back | propext, Classical.choice, Quot.sound |
| Verif.C134_order | propext, Classical.choice, Quot.sound |
| Verif.C135_watchdog | propext, Quot.sound |
| Verif.C135_change | propext, Quot.sound |
| Verif.C136_running_light | propext, Quot.sound |
| Verif.C136_shift_register | propext, Quot.sound |
| Verif.C137_locked | propext, Quot.sound |
| Verif.C137_pause | propext, Quot.sound |
| Verif.C137_stop | propext, Quot.sound |
| Verif.C137_starts | propext, Quot.sound |
| Verif.C138_int | propext, Classical.choice, Quot.sound |
| Verif.C138_float | propext, Classical.choice, Quot.sound |
| Verif.C139_replace_all | propext, Classical.choice, Quot.sound |
| Verif.C139_replace_char | propext, Classical.choice, Quot.sound |
| Verif.C139_reverse | propext, Classical.choice, Quot.sound |
| Verif.C140_hour_meter | propext, Classical.choice, Quot.sound |
| Verif.C140_appointments | propext, Classical.choice, Quot.sound |
| Verif.C140_never_early | propext, Classical.choice, Quot.sound |
| Verif.C141_filter | propext, Classical.choice, Quot.sound |
| Verif.C141_short_pulses | propext, Classical.choice, Quot.sound |
| Verif.C141_gaps_bridged | propext, Classical.choice, Quot.sound |
| Verif.C142_write | propext, Classical.choice, Quot.sound |
| Verif.C142_read_back | propext, Classical.choice, Quot.sound |
| Verif.C143_separate | propext, Classical.choice, Quot.sound |
| Verif.C143_left | propext, Classical.choice, Quot.sound |
| Verif.C143_right | propext, Classical.choice, Quot.sound |
| Verif.C143_mid | propext, Classical.choice, Quot.sound |
| Verif.C143_delete | propext, Classical.choice, Quot.sound |
| Verif.C143_insert_partial | propext, Classical.choice, Quot.sound |
| Verif.C143_replace_partial | propext, Classical.choice, Quot.sound |
| Verif.C143_insert_repeats | propext, Classical.choice, Quot.sound |
| Verif.C143_replace_repeats | propext, Classical.choice, Quot.sound |
| Verif.C143_insert_of_self | propext, Classical.choice, Quot.sound |
| Verif.C143_replace_by_self | propext, Classical.choice, Quot.sound |
| Verif.C143_delete_negative | propext, Classical.choice, Quot.sound |
| Verif.C143_delete_partial | propext, Classical.choice, Quot.sound |
| Verif.C143_replace_negative | propext, Classical.choice, Quot.sound |
| Verif.C143_replace_by_self_negative | propext, Classical.choice, Quot.sound |
| Verif.C143_insert_both | propext, Classical.choice, Quot.sound |
| Verif.C143_replace_both | propext, Classical.choice, Quot.sound |
| Verif.C143_concat_exact | propext, Classical.choice, Quot.sound |
| Verif.C143_concat_partial | propext, Classical.choice, Quot.sound |
| Verif.C143_refuted | propext |
| Verif.C144_ton_refuted | propext, Quot.sound |
| Verif.C144_ton_exact | propext, Classical.choice, Quot.sound |
| Verif.C144_ton_partial | propext, Quot.sound |
| Verif.C144_ton_forgets | propext, Quot.sound |
| Verif.C144_tof_refuted | propext, Quot.sound |
| Verif.C144_tof_exact | propext, Classical.choice, Quot.sound |
| Verif.C144_tof_partial | propext, Quot.sound |
| Verif.C144_tof_forgets | propext, Quot.sound |
| Verif.C144_tp_refuted | propext, Quot.sound |
| Verif.C144_tp_exact | propext, Classical.choice, Quot.sound |
| Verif.C144_tp_partial | propext, Classical.choice, Quot.sound |
| Verif.Abi.C145_independent | propext, Classical.choice, Quot.sound |
| Verif.Abi.C145_outside | propext, Classical.choice, Quot.sound |
| Verif.Abi.C145_copy | propext, Quot.sound |
| Verif.Abi.C145_alone | propext, Quot.sound |
| Verif.Abi.C145_zeroed | propext, Quot.sound |
| Verif.Abi.C146_r_trig | propext, Classical.choice, Quot.sound |
| Verif.Abi.C146_f_trig | propext, Classical.choice, Quot.sound |
| Verif.Abi.C146_sr | propext, Classical.choice, Quot.sound |
| Verif.Abi.C146_rs | propext, Classical.choice, Quot.sound |
| Verif.Abi.C146_ctu | propext, Classical.choice, Quot.sound |
| Verif.Abi.C146_ctd | propext, Classical.choice, Quot.sound |
| Verif.Abi.C146_ctud | propext, Classical.choice, Quot.sound |
| Verif.Abi.C146_tp | propext, Classical.choice, Quot.sound |
| Verif.Abi.C146_ton | propext, Classical.choice, Quot.sound |
| Verif.Abi.C146_tof | propext, Classical.choice, Quot.sound |
| Verif.Abi.C146_ton_delay | propext, Classical.choice, Quot.sound |
| Verif.C147_within_81 | propext, Quot.sound |
| Verif.C147_shorter | propext, Quot.sound |
| Verif.C147_refuted | propext, Quot.sound |
| Verif.C147_time_partial | propext, Classical.choice, Quot.sound |
| Verif.C147_time_zero_partial | propext, Classical.choice, Quot.sound |
| Verif.C148_flanks_latches | propext |
| Verif.C148_refuted | propext, Classical.choice, Quot.sound |
| Verif.C148_ton_partial | propext, Quot.sound |
| Verif.C148_tof_partial | propext, Quot.sound |
| Verif.C148_tp_partial | propext, Classical.choice, Quot.sound |
| Verif.C148_ctud_partial | propext, Classical.choice, Quot.sound |
| Verif.C148_ctud_failures_partial | propext, Classical.choice, Quot.sound |
| Verif.C148_ctud_order_partial | propext, Classical.choice, Quot.sound |
| Verif.C148_ctu_partial | propext, Classical.choice, Quot.sound |
| Verif.C148_ctu_failures_partial | propext, Classical.choice, Quot.sound |
| Verif.C148_ctu_never_more_partial | propext, Classical.choice, Quot.sound |
| Verif.C148_ctd_partial | propext, Classical.choice, Quot.sound |
| Verif.C148_ctd_failures_partial | propext, Classical.choice, Quot.sound |
| Verif.C148_ctd_never_less_partial | propext, Classical.choice, Quot.sound |
| Verif.C149_one_output | propext, Quot.sound |
| Verif.C149_refuted | propext, Classical.choice, Quot.sound |
| Verif.C149_order_partial | propext |
| Verif.C149_tp_partial | propext |
| Verif.C149_q_first_partial | propext, Quot.sound |
| Verif.C150_refuted | propext |
| Verif.C150_latches_partial | propext |
| Verif.C150_flanks_partial | propext |
| Verif.C150_ctu_partial | propext, Classical.choice, Quot.sound |
| Verif.C150_ctd_partial | propext, Classical.choice, Quot.sound |
| Verif.C151_flanks_latches | propext |
| Verif.C151_flanks_latches_always | propext |
| Verif.C151_refuted | propext, Quot.sound |
| Verif.C151_release_refuted | propext, Quot.sound |
| Verif.C151_ctu_partial | propext, Classical.choice, Quot.sound |
| Verif.C151_ctd_partial | propext, Classical.choice, Quot.sound |
| Verif.C151_ctud_partial | propext, Classical.choice, Quot.sound |
| Verif.C151_ton_partial | propext, Quot.sound |
| Verif.C151_tof_partial | propext, Quot.sound |
| Verif.C151_tp_partial | propext, Quot.sound |
| Verif.C152_flanks_latches | propext, Quot.sound |
| Verif.C152_refuted | propext, Classical.choice, Quot.sound |
| Verif.C152_release_refuted | propext, Quot.sound |
| Verif.C152_ton_partial | propext, Quot.sound |
| Verif.C152_tof_partial | propext, Quot.sound |
| Verif.C152_tp_partial | propext, Quot.sound |
| Verif.C152_ctu_partial | propext, Classical.choice, Quot.sound |
| Verif.C152_ctd_partial | propext, Classical.choice, Quot.sound |
| Verif.C152_ctud_partial | propext, Classical.choice, Quot.sound |
| Verif.C153_exact | propext, Quot.sound |
| Verif.C154_refuted | propext, Quot.sound |
| Verif.C154_partial | propext, Quot.sound |
| Verif.C154_doors_partial | propext, Quot.sound |
| Verif.C155_latches | propext, Quot.sound |
| Verif.C156_not_delayed | propext |
| Verif.C156_refuted | propext, Classical.choice, Quot.sound |
| Verif.C156_flanks_latches | propext, Quot.sound |
| Verif.C156_ton_partial | propext, Quot.sound |
| Verif.C156_tof_partial | propext, Quot.sound |
| Verif.C156_tp_partial | propext, Quot.sound |
| Verif.C156_ctu_partial | propext, Classical.choice, Quot.sound |
| Verif.C156_ctd_partial | propext, Classical.choice, Quot.sound |
| Verif.C156_ctud_partial | propext, Classical.choice, Quot.sound |
| Verif.C156_latch_forgets | propext, Quot.sound |
| Verif.C157_unique | propext, Classical.choice, Quot.sound |
| Verif.C157_week | propext, Classical.choice, Quot.sound |
| Verif.C157_week_panics | propext, Classical.choice, Quot.sound |
| Verif.C157_long_years | propext, Classical.choice, Quot.sound |
| Verif.C157_last | propext, Classical.choice, Quot.sound |
| Verif.C157_first | propext, Classical.choice, Quot.sound |
| Verif.C158_same_call | propext, Quot.sound |
| Verif.C158_moments | propext, Classical.choice, Quot.sound |
| Verif.C158_terminated_partial | propext, Classical.choice, Quot.sound |
| Verif.C158_reader_partial | propext, Classical.choice, Quot.sound |
| Verif.C158_reads_partial | propext, Classical.choice, Quot.sound |
| Verif.C158_fresh_partial | propext, Classical.choice, Quot.sound |
| Verif.C158_single_units_partial | propext, Classical.choice, Quot.sound |
| Verif.C158_refuted | propext, Quot.sound |
| Verif.C158_malformed | propext, Quot.sound |
| Verif.C158_again | propext, Classical.choice, Quot.sound |
| Verif.C158_any_order | propext, Classical.choice, Quot.sound |
| Verif.C158_text_any_order | propext, Quot.sound |
| Verif.C158_time_refuted | propext, Quot.sound |
| Verif.C158_panic_partial | propext, Quot.sound |
| Verif.C158_panic_refuted | propext, Quot.sound |
| Verif.C158_length | propext, Classical.choice, Quot.sound |
| Verif.C159_delayed | propext, Quot.sound |
| Verif.C159_refuted | propext, Classical.choice, Quot.sound |
| Verif.C159_flanks_latches | propext, Quot.sound |
| Verif.C159_release | propext, Quot.sound |
| Verif.C159_ctu_partial | propext, Classical.choice, Quot.sound |
| Verif.C159_ctd_partial | propext, Classical.choice, Quot.sound |
| Verif.C159_ctud_partial | propext, Classical.choice, Quot.sound |
| Verif.C160_found | propext, Quot.sound |
| Verif.C160_swapped_partial | propext, Quot.sound |
| Verif.C160_right_partial | propext, Quot.sound |
| Verif.C160_refuted | propext, Quot.sound |
| Verif.C160_float_partial | propext, Quot.sound |
| Verif.C161_stores | propext |
| Verif.C161_independent | propext |
| Verif.C161_units | propext, Quot.sound |
| Verif.C161_end | propext, Quot.sound |
| Verif.C161_any_mixture | propext, Classical.choice, Quot.sound |
| Verif.C161_text | propext, Classical.choice, Quot.sound |
| Verif.C161_same_text | propext, Classical.choice, Quot.sound |
| Verif.C161_terminated_partial | propext, Classical.choice, Quot.sound |
| Verif.C161_single_units_partial | propext, Classical.choice, Quot.sound |
| Verif.C161_refuted | propext, Quot.sound |
| Verif.C161_malformed | propext, Quot.sound |
| Verif.C162_unchanged_partial | propext, Classical.choice, Quot.sound |
| Verif.C162_concat_unchanged_partial | propext, Classical.choice, Quot.sound |
| Verif.C162_single_units_partial | propext, Classical.choice, Quot.sound |
| Verif.C162_concat_single_units_partial | propext, Classical.choice, Quot.sound |
| Verif.C162_bounds_partial | propext, Classical.choice, Quot.sound |
| Verif.C162_concat_bounds_partial | propext, Classical.choice, Quot.sound |
| Verif.C162_refuted | propext, Classical.choice, Quot.sound |
| Verif.C162_right | propext, Classical.choice, Quot.sound |
| Verif.C162_malformed | propext, Classical.choice, Quot.sound |
| Verif.C162_overrun | propext, Classical.choice, Quot.sound |
| Verif.C163_time | propext, Classical.choice, Quot.sound |
| Verif.C163_modulo | propext, Classical.choice, Quot.sound |
| Verif.C163_same_day_partial | propext, Classical.choice, Quot.sound |
| Verif.C163_over_midnight | propext, Classical.choice, Quot.sound |
| Verif.C163_offset_change | propext, Classical.choice, Quot.sound |
| Verif.C163_refuted | propext, Classical.choice, Quot.sound |
| Verif.C163_meter | propext, Classical.choice, Quot.sound |
| Verif.C164_sort | propext, Classical.choice, Quot.sound |
| Verif.C164_sort_text | propext, Classical.choice, Quot.sound |
| Verif.C164_search | propext, Classical.choice, Quot.sound |
| Verif.C165_exact | propext, Quot.sound |
| Verif.C165_partial | propext, Classical.choice, Quot.sound |
| Verif.C165_refuted | propext, Quot.sound |
| Verif.C165_too_fast | none |
| Verif.C166_compare_unchanged_partial | propext, Classical.choice, Quot.sound |
| Verif.C166_unequal_unchanged_partial | propext, Classical.choice, Quot.sound |
| Verif.C166_len_unchanged_partial | propext, Classical.choice, Quot.sound |
| Verif.C166_find_unchanged_partial | propext, Classical.choice, Quot.sound |
| Verif.C166_one_unit_partial | propext, Classical.choice, Quot.sound |
| Verif.C166_front_partial | propext, Classical.choice, Quot.sound |
| Verif.C166_len_single_units_partial | propext, Classical.choice, Quot.sound |
| Verif.C166_find_single_units_partial | propext, Classical.choice, Quot.sound |
| Verif.C166_find_lasting_partial | propext, Classical.choice, Quot.sound |
| Verif.C166_refuted_equal | propext |
| Verif.C166_refuted_len | propext |
| Verif.C166_refuted_find | propext |
| Verif.C167_round_trip | propext, Quot.sound |
| Verif.C167_neighbours | propext, Quot.sound |
| Verif.C167_reading | propext, Quot.sound |
| Verif.C167_binary | propext, Quot.sound |
| Verif.C168_total | propext, Quot.sound |
| Verif.C168_burst | propext, Quot.sound |
| Verif.C168_one_bit | propext, Quot.sound |
| Verif.C168_limits | propext, Quot.sound |
| Verif.C169_date_partial | propext, Classical.choice, Quot.sound |
| Verif.C169_tod | propext, Classical.choice, Quot.sound |
| Verif.C169_dt_partial | propext, Classical.choice, Quot.sound |
| Verif.C169_refuted_first_day | propext, Classical.choice, Quot.sound |
| Verif.C169_typed_partial | propext, Classical.choice, Quot.sound |
| Verif.C169_refuted | propext, Classical.choice, Quot.sound |
| Verif.C170_on_not_early | propext, Classical.choice, Quot.sound |
| Verif.C170_on_not_late | propext, Classical.choice, Quot.sound |
| Verif.C170_off_not_early | propext, Classical.choice, Quot.sound |
| Verif.C170_off_not_late | propext, Classical.choice, Quot.sound |
| Verif.C171_first | propext, Quot.sound |
| Verif.C171_total | propext, Quot.sound |
| Verif.C171_starts | propext, Quot.sound |
| Verif.C171_lasts | propext, Classical.choice, Quot.sound |
| Verif.C171_ends | propext, Classical.choice, Quot.sound |
| Verif.C172_queue | propext, Classical.choice, Quot.sound |
| Verif.C172_fifo | propext, Classical.choice, Quot.sound |
| Verif.C172_log | propext, Classical.choice, Quot.sound |
| Verif.C172_bound_sharp | propext, Classical.choice, Quot.sound |
| Verif.C173_left_right | propext, Classical.choice, Quot.sound |
| Verif.C173_mid | propext, Classical.choice, Quot.sound |
| Verif.C173_insert | propext, Classical.choice, Quot.sound |
| Verif.C173_delete | propext, Classical.choice, Quot.sound |
| Verif.C173_replace | propext, Classical.choice, Quot.sound |
| Verif.C174_refuted | propext, Quot.sound |
| Verif.C174_refuted_bound | propext, Quot.sound |
| Verif.C174_same_high_partial | propext, Quot.sound |
| Verif.C174_error_partial | propext, Classical.choice, Quot.sound |
| Verif.C174_short_partial | propext, Classical.choice, Quot.sound |
| Verif.C174_double_read_partial | propext, Classical.choice, Quot.sound |
| Verif.C175_median_int | propext, Classical.choice, Quot.sound |
| Verif.C175_median_float | propext, Classical.choice, Quot.sound |
| Verif.C175_one_defective | propext, Classical.choice, Quot.sound |
| Verif.C175_nan | propext, Classical.choice, Quot.sound |
| Verif.C175_filter_int | propext, Classical.choice, Quot.sound |
| Verif.C175_filter_float | propext, Classical.choice, Quot.sound |
| Verif.C175_filter_monotone | propext, Classical.choice, Quot.sound |
| Verif.C176_equal_parts | propext, Classical.choice, Quot.sound |
| Verif.C176_mul_first | propext, Classical.choice, Quot.sound |
| Verif.C176_mul_first_aborts | none |
| Verif.C176_mean | propext, Classical.choice, Quot.sound |
| Verif.C176_mean_aborts | propext, Classical.choice, Quot.sound |
| Verif.C177_output | propext, Quot.sound |
| Verif.C177_band | propext, Classical.choice, Quot.sound |
| Verif.C177_switching | propext, Classical.choice, Quot.sound |
| Verif.C177_reacts | propext, Classical.choice, Quot.sound |
| Verif.C178_total | propext, Quot.sound |
| Verif.C178_running | propext, Quot.sound |
| Verif.C178_resting | propext, Quot.sound |
| Verif.C178_guarantee | propext, Classical.choice, Quot.sound |
| Verif.C179_ton | propext |
| Verif.C179_tof | propext |
| Verif.C179_tp_lasting | none |
| Verif.C179_ctu | propext, Quot.sound |
| Verif.C179_ctd | propext, Quot.sound |
| Verif.C179_ctud | propext, Quot.sound |
| Verif.C179_load_lasting | none |
| Verif.C180_ton | propext, Classical.choice, Quot.sound |
| Verif.C180_tof | propext, Classical.choice, Quot.sound |
| Verif.C180_sr | propext, Classical.choice, Quot.sound |
| Verif.C180_rs | propext, Classical.choice, Quot.sound |
| Verif.C180_ctu_extra_reset | none |
| Verif.C181_total | propext, Quot.sound |
| Verif.C181_safe | propext, Quot.sound |
| Verif.C181_starts | propext, Quot.sound |
| Verif.C181_tied | propext, Quot.sound |
| Verif.C182_lamp | propext, Classical.choice, Quot.sound |
| Verif.C182_none_lost | propext, Classical.choice, Quot.sound |
| Verif.C182_later_alarms | propext, Classical.choice, Quot.sound |
| Verif.C183_voting | propext, Classical.choice, Quot.sound |
| Verif.C183_one_defective | propext, Classical.choice, Quot.sound |
| Verif.C183_no_false_alarm | propext, Classical.choice, Quot.sound |
| Verif.C184_held | propext, Quot.sound |
| Verif.C184_next | propext, Quot.sound |
| Verif.C184_all_steps | propext, Classical.choice, Quot.sound |
| Verif.Abi.C185_kept | propext, Classical.choice, Quot.sound |
| Verif.Abi.C185_left_out | propext, Classical.choice, Quot.sound |
| Verif.Abi.C186_held | propext, Classical.choice, Quot.sound |
| Verif.Abi.C186_order | propext, Classical.choice, Quot.sound |
| Verif.Abi.C187_r_trig | propext, Classical.choice, Quot.sound |
| Verif.Abi.C187_f_trig | propext, Classical.choice, Quot.sound |
| Verif.Abi.C187_sr | propext, Classical.choice, Quot.sound |
| Verif.Abi.C187_rs | propext, Classical.choice, Quot.sound |
| Verif.Abi.C187_ctu | propext, Classical.choice, Quot.sound |
| Verif.Abi.C187_ctd | propext, Classical.choice, Quot.sound |
| Verif.Abi.C187_ctud | propext, Classical.choice, Quot.sound |
| Verif.Abi.C187_tp | propext, Classical.choice, Quot.sound |
| Verif.Abi.C187_ton | propext, Classical.choice, Quot.sound |
| Verif.Abi.C187_tof | propext, Classical.choice, Quot.sound |
| Verif.Abi.C187_ton_delay | propext, Classical.choice, Quot.sound |

# Axioms per theorem

Output of `#print axioms` for every theorem named in `MANIFEST.json`.

| theorem | axioms |
|---|---|
| `EFX.Props.C01_history_partial` | propext, Classical.choice, Quot.sound |
| `EFX.Props.C01_inverse_partial` | propext, Classical.choice, Quot.sound |
| `EFX.Props.C01_moves_partial` | propext, Classical.choice, Quot.sound |
| `EFX.Props.C01_history_refuted` | propext, Classical.choice, Quot.sound |
| `EFX.Props.C02_cmp_is_order` | propext, Classical.choice, Quot.sound |
| `EFX.Props.C02_operators` | propext, Classical.choice, Quot.sound |
| `EFX.Props.C02_eq_same_digits` | propext, Classical.choice, Quot.sound |
| `EFX.Props.C03_infinities_and_nan_partial` | propext, Classical.choice, Quot.sound |
| `EFX.Props.C03_nan_ordered_refuted` | propext, Classical.choice, Quot.sound |
| `EFX.Props.C04_integer_ctor` | propext, Classical.choice, Quot.sound |
| `EFX.Props.C05_round_trip_signed_partial` | propext, Classical.choice, Quot.sound |
| `EFX.Props.C05_round_trip_unsigned` | propext, Classical.choice, Quot.sound |
| `EFX.Props.C06_extract_signed_partial` | propext, Classical.choice, Quot.sound |
| `EFX.Props.C06_extract_unsigned` | propext, Classical.choice, Quot.sound |
| `EFX.Props.C06_to_int32_partial` | propext, Classical.choice, Quot.sound |
| `EFX.Props.C06_min_is_undefined_refuted` | propext, Classical.choice, Quot.sound |
| `EFX.Props.C07_add_same_sign` | propext, Classical.choice, Quot.sound |
| `EFX.Props.C08_add_opposite_sign` | propext, Classical.choice, Quot.sound |
| `EFX.Props.C09_add_comm_partial` | propext, Classical.choice, Quot.sound |
| `EFX.Props.C09_add_comm_inf_refuted` | propext |
| `EFX.Props.C10_add_zero` | propext, Classical.choice, Quot.sound |
| `EFX.Props.C10_sub` | propext, Classical.choice, Quot.sound |
| `EFX.Props.C100_ln2_partial` | propext, Classical.choice, Quot.sound |
| `EFX.Props.C100_log_partial` | propext, Classical.choice, Quot.sound |
| `EFX.Props.C100_all_partial` | propext, Classical.choice, Quot.sound |
| `EFX.Props.C101_cexp_partial` | propext, Classical.choice, Quot.sound |
| `EFX.Props.C101_clog_partial` | propext, Classical.choice, Quot.sound |
| `EFX.Props.C101_csin_partial` | propext, Classical.choice, Quot.sound |
| `EFX.Props.C102_gamma_real` | propext, Classical.choice, Quot.sound |
| `EFX.Props.C102_integer_refuted` | propext, Classical.choice, Quot.sound |
| `EFX.Props.C102_left_refuted` | propext, Classical.choice, Quot.sound |
| `EFX.Props.C103_gamma_right_partial` | propext, Classical.choice, Quot.sound |
| `EFX.Props.C103_gamma_left_partial` | propext, Classical.choice, Quot.sound |
| `EFX.Props.C104_pochhammer_small` | propext, Classical.choice, Quot.sound |
| `EFX.Props.C104_pochhammer_partial` | propext, Classical.choice, Quot.sound |
| `EFX.Props.C104_pochhammer_refuted` | propext, Classical.choice, Quot.sound |
| `EFX.Props.C105_jpow` | propext, Classical.choice, Quot.sound |
| `EFX.Props.C105_series_partial` | propext, Classical.choice, Quot.sound |
| `EFX.Props.C105_prime_partial` | propext, Classical.choice, Quot.sound |
| `EFX.Props.C105_zeta_partial` | propext, Classical.choice, Quot.sound |
| `EFX.Props.C106_terms_refuted` | propext, Classical.choice, Quot.sound |
| `EFX.Props.C106_large_refuted` | propext, Classical.choice, Quot.sound |
| `EFX.Props.C106_limit` | propext, Classical.choice, Quot.sound |
| `EFX.Props.C106_reflection_partial` | propext, Classical.choice, Quot.sound |
| `EFX.Props.C106_power_partial` | propext, Classical.choice, Quot.sound |
| `EFX.Props.C106_left_partial` | propext, Classical.choice, Quot.sound |
| `EFX.Props.C106_integer_refuted` | propext, Classical.choice, Quot.sound |
| `EFX.Props.C107_minarg` | propext, Classical.choice, Quot.sound |
| `EFX.Props.C107_range` | propext, Classical.choice, Quot.sound |
| `EFX.Props.C107_gamma_partial` | propext, Classical.choice, Quot.sound |
| `EFX.Props.C107_digits_refuted` | propext, Classical.choice, Quot.sound |
| `EFX.Props.C108_accepts` | propext, Classical.choice, Quot.sound |
| `EFX.Props.C108_read` | propext, Classical.choice, Quot.sound |
| `EFX.Props.C108_error_partial` | propext, Classical.choice, Quot.sound |
| `EFX.Props.C108_restore_refuted` | propext, Classical.choice, Quot.sound |
| `EFX.Props.C108_end_refuted` | propext, Classical.choice, Quot.sound |
| `EFX.Props.C108_joined_refuted` | propext, Classical.choice, Quot.sound |
| `EFX.Props.C108_loose_refuted` | propext, Classical.choice, Quot.sound |
| `EFX.Props.C109_roundtrip_partial` | propext, Classical.choice, Quot.sound |
| `EFX.Props.C109_special_refuted` | propext, Classical.choice, Quot.sound |
| `EFX.Props.C11_self_partial` | propext, Classical.choice, Quot.sound |
| `EFX.Props.C11_square_partial` | propext, Quot.sound |
| `EFX.Props.C11_self_refuted` | propext, Classical.choice, Quot.sound |
| `EFX.Props.C110_near_one_partial` | propext, Classical.choice, Quot.sound |
| `EFX.Props.C110_last_step_partial` | propext, Classical.choice, Quot.sound |
| `EFX.Props.C110_log_refuted` | propext, Classical.choice, Quot.sound |
| `EFX.Props.C111_full_partial` | propext, Classical.choice, Quot.sound |
| `EFX.Props.C111_prec_refuted` | propext, Classical.choice, Quot.sound |
| `EFX.Props.C111_cube_refuted` | propext, Classical.choice, Quot.sound |
| `EFX.Props.C112_complex_arithmetic_partial` | propext, Classical.choice, Quot.sound |
| `EFX.Props.C113_complex_functions_partial` | propext, Classical.choice, Quot.sound |
| `EFX.Props.C114_complex_powers_partial` | propext, Classical.choice, Quot.sound |
| `EFX.Props.C115_complex_tangent_partial` | propext, Classical.choice, Quot.sound |
| `EFX.Props.C115_polar_partial` | propext, Classical.choice, Quot.sound |
| `EFX.Props.C116_complex_abs_partial` | propext, Classical.choice, Quot.sound |
| `EFX.Props.C116_complex_sqrt_partial` | propext, Classical.choice, Quot.sound |
| `EFX.Props.C116_sqrt_refuted` | propext, Classical.choice, Quot.sound |
| `EFX.Props.C117_acosh_partial` | propext, Classical.choice, Quot.sound |
| `EFX.Props.C117_atanh_partial` | propext, Classical.choice, Quot.sound |
| `EFX.Props.C117_log1p_partial` | propext, Classical.choice, Quot.sound |
| `EFX.Props.C117_asinh_refuted` | propext, Classical.choice, Quot.sound |
| `EFX.Props.C118_pow_partial` | propext, Classical.choice, Quot.sound |
| `EFX.Props.C118_near_one_partial` | propext, Classical.choice, Quot.sound |
| `EFX.Props.C118_large_refuted` | propext, Classical.choice, Quot.sound |
| `EFX.Props.C118_infinite_refuted` | propext, Classical.choice, Quot.sound |
| `EFX.Props.C119_log_partial` | propext, Classical.choice, Quot.sound |
| `EFX.Props.C119_log_refuted` | propext, Classical.choice, Quot.sound |
| `EFX.Props.C119_branch_refuted` | propext, Classical.choice, Quot.sound |
| `EFX.Props.C12_add_special_partial` | propext, Classical.choice, Quot.sound |
| `EFX.Props.C12_add_special_refuted` | propext |
| `EFX.Props.C120_pow_partial` | propext, Classical.choice, Quot.sound |
| `EFX.Props.C120_pow_refuted` | propext, Classical.choice, Quot.sound |
| `EFX.Props.C13_mul_error_partial` | propext, Classical.choice, Quot.sound |
| `EFX.Props.C13_mul_error_reduced_partial` | propext, Classical.choice, Quot.sound |
| `EFX.Props.C13_reduced_exceeds_refuted` | propext, Classical.choice, Quot.sound |
| `EFX.Props.C14_mul_exact` | propext, Classical.choice, Quot.sound |
| `EFX.Props.C14_mul_integers` | propext, Classical.choice, Quot.sound |
| `EFX.Props.C15_mul_special` | propext, Classical.choice, Quot.sound |
| `EFX.Props.C16_mul_comm_identities_partial` | propext, Classical.choice, Quot.sound |
| `EFX.Props.C16_mul_comm_reduced_refuted` | propext, Classical.choice, Quot.sound |
| `EFX.Props.C16_mul_one_fft_refuted` | propext, Classical.choice, Quot.sound |
| `EFX.Props.C17_add_loop` | propext, Classical.choice, Quot.sound |
| `EFX.Props.C17_sub_loop` | propext, Classical.choice, Quot.sound |
| `EFX.Props.C17_mul_loop` | propext, Classical.choice, Quot.sound |
| `EFX.Props.C17_fft_release` | propext, Classical.choice, Quot.sound |
| `EFX.Props.C17_mul_small` | propext, Classical.choice, Quot.sound |
| `EFX.Props.C17_div_small` | propext, Classical.choice, Quot.sound |
| `EFX.Props.C18_mul_unsigned` | propext, Classical.choice, Quot.sound |
| `EFX.Props.C19_div_unsigned_partial` | propext, Classical.choice, Quot.sound |
| `EFX.Props.C19_stale_limb_refuted` | propext, Classical.choice, Quot.sound |
| `EFX.Props.C19_div_zero_sign_refuted` | propext, Classical.choice, Quot.sound |
| `EFX.Props.C20_div_partial` | propext, Classical.choice, Quot.sound |
| `EFX.Props.C20_div_refuted` | propext, Classical.choice, Quot.sound |
| `EFX.Props.C20_div_nonfinite` | propext, Classical.choice, Quot.sound |
| `EFX.Props.C21_inverse_partial` | propext, Classical.choice, Quot.sound |
| `EFX.Props.C21_quotient_partial` | propext, Classical.choice, Quot.sound |
| `EFX.Props.C22_sqrt_special` | propext, Classical.choice, Quot.sound |
| `EFX.Props.C22_sqrt_partial` | propext, Classical.choice, Quot.sound |
| `EFX.Props.C22_sqrt_full_partial` | propext, Classical.choice, Quot.sound |
| `EFX.Props.C22_sqrt_refuted` | propext, Classical.choice, Quot.sound |
| `EFX.Props.C23_negate` | propext, Classical.choice, Quot.sound |
| `EFX.Props.C23_fabs` | propext, Classical.choice, Quot.sound |
| `EFX.Props.C23_sgn` | propext, Classical.choice, Quot.sound |
| `EFX.Props.C24_parts_partial` | propext, Classical.choice, Quot.sound |
| `EFX.Props.C24_integer_part_refuted` | propext, Classical.choice, Quot.sound |
| `EFX.Props.C25_floor_ceil_partial` | propext, Classical.choice, Quot.sound |
| `EFX.Props.C25_floor_refuted` | propext, Classical.choice, Quot.sound |
| `EFX.Props.C26_predicates_partial` | propext, Classical.choice, Quot.sound |
| `EFX.Props.C26_isone_refuted` | propext, Classical.choice, Quot.sound |
| `EFX.Props.C27_order` | propext, Classical.choice, Quot.sound |
| `EFX.Props.C28_precision` | propext, Classical.choice, Quot.sound |
| `EFX.Props.C29_read_partial` | propext, Classical.choice, Quot.sound |
| `EFX.Props.C29_range_refuted` | propext, Classical.choice, Quot.sound |
| `EFX.Props.C29_max_literal` | propext, Classical.choice, Quot.sound |
| `EFX.Props.C30_state_partial` | propext, Classical.choice, Quot.sound |
| `EFX.Props.C30_state_refuted` | propext, Classical.choice, Quot.sound |
| `EFX.Props.C31_digits` | propext, Classical.choice, Quot.sound |
| `EFX.Props.C32_roundtrip_partial` | propext, Classical.choice, Quot.sound |
| `EFX.Props.C32_precision_refuted` | propext, Classical.choice, Quot.sound |
| `EFX.Props.C33_writes_partial` | propext, Classical.choice, Quot.sound |
| `EFX.Props.C33_writes_refuted` | propext, Classical.choice, Quot.sound |
| `EFX.Props.C34_range_partial` | propext, Classical.choice, Quot.sound |
| `EFX.Props.C34_product_partial` | propext, Classical.choice, Quot.sound |
| `EFX.Props.C34_product_refuted` | propext, Classical.choice, Quot.sound |
| `EFX.Props.C35_one_times_max_refuted` | propext, Classical.choice, Quot.sound |
| `EFX.Props.C35_mul_one_partial` | propext, Classical.choice, Quot.sound |
| `EFX.Props.C36_power_partial` | propext, Classical.choice, Quot.sound |
| `EFX.Props.C36_field_partial` | propext, Classical.choice, Quot.sound |
| `EFX.Props.C36_integers_exact` | propext, Classical.choice, Quot.sound |
| `EFX.Props.C36_pow2_exact` | propext, Classical.choice, Quot.sound |
| `EFX.Props.C36_min_refuted` | propext, Classical.choice, Quot.sound |
| `EFX.Props.C37_sieve` | propext, Classical.choice, Quot.sound |
| `EFX.Props.C37_prime` | propext, Classical.choice, Quot.sound |
| `EFX.Props.C37_limit_refuted` | propext, Classical.choice, Quot.sound |
| `EFX.Props.C38_factors` | propext, Classical.choice, Quot.sound |
| `EFX.Props.C39_ownership` | propext, Classical.choice, Quot.sound |
| `EFX.Props.C39_values` | propext, Classical.choice, Quot.sound |
| `EFX.Props.C40_move_partial` | propext, Classical.choice, Quot.sound |
| `EFX.Props.C40_copy_refuted` | propext, Classical.choice, Quot.sound |
| `EFX.Props.C40_storage_refuted` | propext, Classical.choice, Quot.sound |
| `EFX.Props.C41_transform` | propext, Classical.choice, Quot.sound |
| `EFX.Props.C41_rounding` | propext, Classical.choice, Quot.sound |
| `EFX.Props.C41_product_partial` | propext, Classical.choice, Quot.sound |
| `EFX.Props.C41_large_refuted` | propext, Classical.choice, Quot.sound |
| `EFX.Props.C42_field` | propext, Classical.choice, Quot.sound |
| `EFX.Props.C42_complex` | propext, Classical.choice, Quot.sound |
| `EFX.Props.C42_conj_refuted` | propext, Classical.choice, Quot.sound |
| `EFX.Props.C43_exponents` | propext, Classical.choice, Quot.sound |
| `EFX.Props.C44_add_monotone` | propext, Classical.choice, Quot.sound |
| `EFX.Props.C45_swap_assign` | propext, Classical.choice, Quot.sound |
| `EFX.Props.C46_asin_partial` | propext, Classical.choice, Quot.sound |
| `EFX.Props.C46_asin_refuted` | propext, Classical.choice, Quot.sound |
| `EFX.Props.C46_atan_partial` | propext, Classical.choice, Quot.sound |
| `EFX.Props.C46_atan_refuted` | propext, Classical.choice, Quot.sound |
| `EFX.Props.C47_increment_partial` | propext, Classical.choice, Quot.sound |
| `EFX.Props.C47_increment_refuted` | propext, Classical.choice, Quot.sound |
| `EFX.Props.C48_bisect_partial` | propext, Classical.choice, Quot.sound |
| `EFX.Props.C48_bracket_refuted` | propext, Classical.choice, Quot.sound |
| `EFX.Props.C49_interpolate` | propext, Classical.choice, Quot.sound |
| `EFX.Props.C50_series` | propext, Classical.choice, Quot.sound |
| `EFX.Props.C51_integer_arithmetic` | propext, Classical.choice, Quot.sound |
| `EFX.Props.C52_trapezoid` | propext, Classical.choice, Quot.sound |
| `EFX.Props.C52_affine` | propext, Classical.choice, Quot.sound |
| `EFX.Props.C53_derivative` | propext, Classical.choice, Quot.sound |
| `EFX.Props.C54_newton_interval` | propext, Classical.choice, Quot.sound |
| `EFX.Props.C54_convergence_refuted` | propext, Classical.choice, Quot.sound |
| `EFX.Props.C55_functions` | propext, Classical.choice, Quot.sound |
| `EFX.Props.C55_sqrt_zero_refuted` | propext, Classical.choice, Quot.sound |
| `EFX.Props.C56_inverse` | propext, Classical.choice, Quot.sound |
| `EFX.Props.C57_product` | propext, Classical.choice, Quot.sound |
| `EFX.Props.C57_quotient` | propext, Classical.choice, Quot.sound |
| `EFX.Props.C57_exact` | propext, Classical.choice, Quot.sound |
| `EFX.Props.C58_add_sub` | propext, Classical.choice, Quot.sound |
| `EFX.Props.C58_mul` | propext, Classical.choice, Quot.sound |
| `EFX.Props.C58_div` | propext, Classical.choice, Quot.sound |
| `EFX.Props.C58_nan_refuted` | propext, Classical.choice, Quot.sound |
| `EFX.Props.C59_field` | propext, Classical.choice, Quot.sound |
| `EFX.Props.C59_special` | propext, Classical.choice, Quot.sound |
| `EFX.Props.C60_fmod_partial` | propext, Classical.choice, Quot.sound |
| `EFX.Props.C60_fmod_refuted` | propext, Classical.choice, Quot.sound |
| `EFX.Props.C61_valid` | propext, Classical.choice, Quot.sound |
| `EFX.Props.C61_rootn` | propext, Classical.choice, Quot.sound |
| `EFX.Props.C62_parity` | propext, Classical.choice, Quot.sound |
| `EFX.Props.C63_partial_sums` | propext, Classical.choice, Quot.sound |
| `EFX.Props.C63_remainder` | propext, Classical.choice, Quot.sound |
| `EFX.Props.C63_terminating_refuted` | propext, Classical.choice, Quot.sound |
| `EFX.Props.C64_sin_partial` | propext, Classical.choice, Quot.sound |
| `EFX.Props.C64_cos_partial` | propext, Classical.choice, Quot.sound |
| `EFX.Props.C64_tan_partial` | propext, Classical.choice, Quot.sound |
| `EFX.Props.C64_large_refuted` | propext, Classical.choice, Quot.sound |
| `EFX.Props.C65_exp_partial` | propext, Classical.choice, Quot.sound |
| `EFX.Props.C65_ln2_refuted` | propext, Classical.choice, Quot.sound |
| `EFX.Props.C66_log_partial` | propext, Classical.choice, Quot.sound |
| `EFX.Props.C66_log14_partial` | propext, Classical.choice, Quot.sound |
| `EFX.Props.C67_atan_partial` | propext, Classical.choice, Quot.sound |
| `EFX.Props.C67_negative_refuted` | propext, Classical.choice, Quot.sound |
| `EFX.Props.C68_asin_partial` | propext, Classical.choice, Quot.sound |
| `EFX.Props.C68_acos_partial` | propext, Classical.choice, Quot.sound |
| `EFX.Props.C68_negative_refuted` | propext, Classical.choice, Quot.sound |
| `EFX.Props.C68_one_refuted` | propext, Classical.choice, Quot.sound |
| `EFX.Props.C69_hyperbolic_partial` | propext, Classical.choice, Quot.sound |
| `EFX.Props.C69_small_refuted` | propext, Classical.choice, Quot.sound |
| `EFX.Props.C70_asinh_partial` | propext, Classical.choice, Quot.sound |
| `EFX.Props.C70_acosh_partial` | propext, Classical.choice, Quot.sound |
| `EFX.Props.C70_atanh_partial` | propext, Classical.choice, Quot.sound |
| `EFX.Props.C71_pow_partial` | propext, Classical.choice, Quot.sound |
| `EFX.Props.C71_zero_refuted` | propext, Classical.choice, Quot.sound |
| `EFX.Props.C71_slow_refuted` | propext, Classical.choice, Quot.sound |
| `EFX.Props.C72_rootn_partial` | propext, Classical.choice, Quot.sound |
| `EFX.Props.C72_rootn_refuted` | propext, Classical.choice, Quot.sound |
| `EFX.Props.C73_atan2_partial` | propext, Classical.choice, Quot.sound |
| `EFX.Props.C73_steep_refuted` | propext, Classical.choice, Quot.sound |
| `EFX.Props.C74_bernoulli_table` | propext, Classical.choice, Quot.sound |
| `EFX.Props.C74_valid` | propext, Classical.choice, Quot.sound |
| `EFX.Props.C74_bernoulli_table_refuted` | propext |
| `EFX.Props.C75_constants_partial` | propext, Classical.choice, Quot.sound |
| `EFX.Props.C75_constants_refuted` | propext, Classical.choice, Quot.sound |
| `EFX.Props.C75_valid` | propext, Classical.choice, Quot.sound |
| `EFX.Props.C76_pi_partial` | propext, Classical.choice, Quot.sound |
| `EFX.Props.C77_gamma_poles` | propext, Classical.choice, Quot.sound |
| `EFX.Props.C77_gamma_table` | propext, Classical.choice, Quot.sound |
| `EFX.Props.C77_gamma_partial` | propext, Classical.choice, Quot.sound |
| `EFX.Props.C78_factorials` | propext, Classical.choice, Quot.sound |
| `EFX.Props.C78_double_factorials` | propext, Classical.choice, Quot.sound |
| `EFX.Props.C78_bernoulli` | propext, Classical.choice, Quot.sound |
| `EFX.Props.C78_binomials` | propext, Classical.choice, Quot.sound |
| `EFX.Props.C78_tabBern` | propext, Classical.choice, Quot.sound |
| `EFX.Props.C79_factorial_table` | propext, Classical.choice, Quot.sound |
| `EFX.Props.C79_factorial_partial` | propext, Classical.choice, Quot.sound |
| `EFX.Props.C80_binomial_exact` | propext, Classical.choice, Quot.sound |
| `EFX.Props.C80_binomial_partial` | propext, Classical.choice, Quot.sound |
| `EFX.Props.C80_binomial_refuted` | propext, Classical.choice, Quot.sound |
| `EFX.Props.C81_pochhammer_small` | propext, Classical.choice, Quot.sound |
| `EFX.Props.C81_pochhammer_partial` | propext, Classical.choice, Quot.sound |
| `EFX.Props.C81_pochhammer_refuted` | propext, Classical.choice, Quot.sound |
| `EFX.Props.C82_factorial2` | propext, Classical.choice, Quot.sound |
| `EFX.Props.C82_odd_partial` | propext, Classical.choice, Quot.sound |
| `EFX.Props.C82_negative` | propext, Classical.choice, Quot.sound |
| `EFX.Props.C83_bernoulli` | propext, Classical.choice, Quot.sound |
| `EFX.Props.C83_bernoulli_large_partial` | propext, Classical.choice, Quot.sound |
| `EFX.Props.C84_jpow` | propext, Classical.choice, Quot.sound |
| `EFX.Props.C84_integer` | propext, Classical.choice, Quot.sound |
| `EFX.Props.C84_prime_partial` | propext, Classical.choice, Quot.sound |
| `EFX.Props.C85_one` | propext, Classical.choice, Quot.sound |
| `EFX.Props.C85_even` | propext, Classical.choice, Quot.sound |
| `EFX.Props.C85_even_table` | propext, Classical.choice, Quot.sound |
| `EFX.Props.C85_negative` | propext, Classical.choice, Quot.sound |
| `EFX.Props.C86_series_partial` | propext, Classical.choice, Quot.sound |
| `EFX.Props.C86_integer` | propext, Classical.choice, Quot.sound |
| `EFX.Props.C86_digits_refuted` | propext, Classical.choice, Quot.sound |
| `EFX.Props.C87_primes_partial` | propext, Classical.choice, Quot.sound |
| `EFX.Props.C87_primes_integer` | propext, Classical.choice, Quot.sound |
| `EFX.Props.C87_large_refuted` | propext, Classical.choice, Quot.sound |
| `EFX.Props.C88_reflection_partial` | propext, Classical.choice, Quot.sound |
| `EFX.Props.C89_exp_partial` | propext, Classical.choice, Quot.sound |
| `EFX.Props.C90_sin_cos_partial` | propext, Classical.choice, Quot.sound |
| `EFX.Props.C91_integer_powers_partial` | propext, Classical.choice, Quot.sound |
| `EFX.Props.C92_hyperbolic_partial` | propext, Classical.choice, Quot.sound |
| `EFX.Props.C93_tan_partial` | propext, Classical.choice, Quot.sound |
| `EFX.Props.C94_asin_acos_partial` | propext, Classical.choice, Quot.sound |
| `EFX.Props.C95_atan_partial` | propext, Classical.choice, Quot.sound |
| `EFX.Props.C95_atan2_partial` | propext, Classical.choice, Quot.sound |
| `EFX.Props.C95_atan2_refuted` | propext, Classical.choice, Quot.sound |
| `EFX.Props.C96_pown_partial` | propext, Classical.choice, Quot.sound |
| `EFX.Props.C96_min_refuted` | propext, Classical.choice, Quot.sound |
| `EFX.Props.C97_sqrt_partial` | propext, Classical.choice, Quot.sound |
| `EFX.Props.C97_tiny_refuted` | propext, Classical.choice, Quot.sound |
| `EFX.Props.C98_rootn_partial` | propext, Classical.choice, Quot.sound |
| `EFX.Props.C98_min_refuted` | propext, Classical.choice, Quot.sound |
| `EFX.Props.C98_builtin_refuted` | propext, Classical.choice, Quot.sound |
| `EFX.Props.C99_pi_partial` | propext, Classical.choice, Quot.sound |

# Axioms each property theorem depends on

Output of `#print axioms` for every theorem named in MANIFEST.json, grouped.

## (none)

* `Sdp.C01_element_sizes`
* `Sdp.EsFft.C73_empty_false`
* `Sdp.Flagger.C12_keeps_error`
* `Sdp.GridUtil.C38_add_rows_false`
* `Sdp.GridUtil.C48_shift_not_square_false`
* `Sdp.GridUtil.C81_sumdiff_crash_false`
* `Sdp.Logging.C127_time_false`
* `Verif.Python.Bind.C118_results`

## propext

* `Sdp.BeamCall.C122_output_false`
* `Sdp.BeamCall.C122_short_coefficients_false`
* `Sdp.C06_error_preserved_false`
* `Sdp.C09_weights_metadata_false`
* `Sdp.C10_restart_false`
* `Sdp.C55_alias_same_elements_partial`
* `Sdp.C55_read_only_lost_false`
* `Sdp.C57_scale_read_only_false`
* `Sdp.C58_alloc_failure_false`
* `Sdp.Direct.C45_tall_false`
* `Sdp.EsFft.C47_dims_false`
* `Sdp.EsFft.C47_pixels`
* `Sdp.EsFft.C47_uvw_type_false`
* `Sdp.Examples.C51_empty_false`
* `Sdp.Examples.C51_overlap_false`
* `Sdp.Examples.C51_strided_false`
* `Sdp.Examples.C52_refused`
* `Sdp.Fft.C107_dims_false`
* `Sdp.Flagger.C12_accepted_iff`
* `Sdp.Flagger.C12_flags_shape_false`
* `Sdp.Flagger.C12_short_history_false`
* `Sdp.GridUtil.C81_add_false`
* `Sdp.Height.C43_failed`
* `Sdp.Logging.C127_other_value_false`
* `Sdp.OptWeighting.C95_cpu`
* `Sdp.OptWeighting.C95_unchecked_false`
* `Sdp.OptWeighting.C99_cpu`
* `Sdp.OptWeighting.C99_unchecked_false`
* `Sdp.Station.C53_checks`
* `Sdp.Station.C53_unchecked_false`
* `Sdp.StationCall.C123_element_beams_false`
* `Sdp.StationCall.C123_output_false`
* `Sdp.StationCall.C123_place_false`
* `Sdp.StationCall.C123_precision_false`
* `Sdp.StationCall.C123_short_arrays_false`
* `Sdp.TimerReport.C124_history`
* `Sdp.Width.C115_hogbom_psf_other_false`
* `Sdp.Width.C115_ms_clean_overwrites_false`
* `Sdp.Width.C115_rms_large_false`
* `Sdp.Width.C117_prefix_sum_large_false`
* `Sdp.Width.C121_gpu_empty_false`
* `Sdp.Width.C121_random_integers_false`
* `Sdp.Width.C121_read_only_false`
* `Verif.Python.Array.C118_field_false`
* `Verif.Python.Array.C118_none`
* `Verif.Python.Array.C118_two_arrays_false`
* `Verif.Python.Bind.C118_free_false`
* `Verif.Python.Bind.C118_funcs`
* `Verif.Python.Bind.C118_handles`
* `Verif.Python.Bind.C118_int_false`
* `Verif.Python.Call.C104_status`

## propext, Classical.choice, Quot.sound

* `Sdp.Atomics.C80_add`
* `Sdp.Atomics.C80_bounded`
* `Sdp.Atomics.C80_completes`
* `Sdp.Atomics.C80_linearizable`
* `Sdp.Atomics.C80_max`
* `Sdp.Atomics.C80_min`
* `Sdp.BeamCall.C122_dipole_cpu`
* `Sdp.BeamCall.C122_dipole_gpu`
* `Sdp.BeamCall.C122_gpu_threads_false`
* `Sdp.BeamCall.C122_harp_cpu`
* `Sdp.BeamCall.C122_harp_gpu`
* `Sdp.BeamCall.C122_precision_false`
* `Sdp.BeamCall.C122_short_angles_false`
* `Sdp.C01_alloc_failure`
* `Sdp.C01_create_layout`
* `Sdp.C02_contiguity_exact`
* `Sdp.C02_contiguous_flat`
* `Sdp.C03_slice_accepted_iff`
* `Sdp.C03_slice_addresses_partial`
* `Sdp.C03_slice_inside_partial`
* `Sdp.C03_slice_out_of_parent_false`
* `Sdp.C04_refcount_history`
* `Sdp.C05_copy_contiguous_partial`
* `Sdp.C05_copy_strided_false`
* `Sdp.C06_error_codes`
* `Sdp.C06_first_failure`
* `Sdp.C06_success_iff_all_hold`
* `Sdp.C07_const_view_partial`
* `Sdp.C07_empty_array_refused`
* `Sdp.C07_view_partial`
* `Sdp.C07_view_stride_false`
* `Sdp.C08_clear_contents`
* `Sdp.C08_clear_portion`
* `Sdp.C08_copy_contents`
* `Sdp.C08_set_value`
* `Sdp.C09_check_uvw`
* `Sdp.C09_check_vis`
* `Sdp.C09_check_weights`
* `Sdp.C09_uvw_metadata`
* `Sdp.C09_vis_metadata`
* `Sdp.C10_bounds_partial`
* `Sdp.C57_scale_exact_partial`
* `Sdp.C58_convert_exact_partial`
* `Sdp.Clamp.C34_axis_falling`
* `Sdp.Clamp.C34_axis_false`
* `Sdp.Clamp.C34_axis_guarded`
* `Sdp.Clamp.C34_axis_partial`
* `Sdp.Clamp.C34_guard_false`
* `Sdp.Clamp.C34_inline`
* `Sdp.Clamp.C34_single`
* `Sdp.Clamp.C34_uv`
* `Sdp.Clamp.C35_adjacent_false`
* `Sdp.Clamp.C35_adjacent_partial`
* `Sdp.Clamp.C93_dim_false`
* `Sdp.Clamp.C93_error_false`
* `Sdp.Clamp.C93_refused_partial`
* `Sdp.Clamp.C93_rows_false`
* `Sdp.Clamp.C93_single_partial`
* `Sdp.Clamp.C93_uv_partial`
* `Sdp.Custom.C44_degrid_partial`
* `Sdp.Custom.C44_planes_false`
* `Sdp.Custom.C44_rectangular_false`
* `Sdp.Custom.C44_split`
* `Sdp.Custom.C44_w_false`
* `Sdp.Custom.C44_w_periodic`
* `Sdp.Custom.C96_agree_partial`
* `Sdp.Custom.C96_call_partial`
* `Sdp.Custom.C96_checked`
* `Sdp.Custom.C96_kernel_false`
* `Sdp.Custom.C96_layout_false`
* `Sdp.Custom.C96_nearest`
* `Sdp.Custom.C96_same_rounding`
* `Sdp.Custom.C96_tie_false`
* `Sdp.Dft.C18_linear`
* `Sdp.Dft.C18_source_order`
* `Sdp.Dft.C18_split`
* `Sdp.Dft.C18_v00`
* `Sdp.Dft.C18_v01`
* `Sdp.Dft.C77_dims_false`
* `Sdp.Dft.C77_gpu_v00`
* `Sdp.Dft.C77_gpu_v01`
* `Sdp.Dft.C77_v00`
* `Sdp.Dft.C77_v00_interleaved`
* `Sdp.Dft.C77_v01_interleaved_partial`
* `Sdp.Dft.C77_v01_partial`
* `Sdp.Direct.C111_adjoint_partial`
* `Sdp.Direct.C111_count_partial`
* `Sdp.Direct.C111_count_refused`
* `Sdp.Direct.C111_degrid_float_false`
* `Sdp.Direct.C111_degrid_partial`
* `Sdp.Direct.C111_degrid_zero_false`
* `Sdp.Direct.C111_dft_accepts`
* `Sdp.Direct.C111_dft_partial`
* `Sdp.Direct.C111_dft_refused`
* `Sdp.Direct.C111_dft_rows_false`
* `Sdp.Direct.C111_direct_refused`
* `Sdp.Direct.C111_flmn_partial`
* `Sdp.Direct.C111_flmn_readonly_false`
* `Sdp.Direct.C111_flmn_refused_partial`
* `Sdp.Direct.C111_gpu_refused`
* `Sdp.Direct.C111_grid_partial`
* `Sdp.Direct.C111_grid_tall_false`
* `Sdp.Direct.C111_idft_accepts`
* `Sdp.Direct.C111_idft_partial`
* `Sdp.Direct.C111_idft_refused`
* `Sdp.Direct.C111_idft_window_false`
* `Sdp.Direct.C111_lmn`
* `Sdp.Direct.C111_window_false`
* `Sdp.Direct.C45_count_matches_partial`
* `Sdp.Direct.C45_once`
* `Sdp.Direct.C45_sources`
* `Sdp.Direct.C45_wide_false`
* `Sdp.Direct.C46_adjoint`
* `Sdp.Direct.C46_complex_image_false`
* `Sdp.Direct.C46_dft`
* `Sdp.Direct.C46_direct_adjoint_partial`
* `Sdp.Direct.C46_direct_degrid`
* `Sdp.Direct.C46_direct_grid`
* `Sdp.Direct.C46_idft`
* `Sdp.Direct.C46_inactive_ignored`
* `Sdp.Direct.C49_centre`
* `Sdp.Direct.C49_nearest`
* `Sdp.Direct.C49_no_shear`
* `Sdp.Direct.C49_nonpos`
* `Sdp.Direct.C49_on_sphere`
* `Sdp.Direct.C49_plain`
* `Sdp.Direct.C49_visible_iff`
* `Sdp.Direct.C62_w_step`
* `Sdp.Direct.C62_w_step_default`
* `Sdp.Direct.C62_w_step_largest`
* `Sdp.Direct.C63_full_ranges_partial`
* `Sdp.Direct.C63_range_false`
* `Sdp.Element.C75_axis`
* `Sdp.Element.C75_direction`
* `Sdp.Element.C75_pattern`
* `Sdp.Element.C75_power`
* `Sdp.Element.C75_quarter`
* `Sdp.Element.C75_scalar`
* `Sdp.Element.C75_scalar_pattern`
* `Sdp.Element.C76_directions`
* `Sdp.Element.C76_linear`
* `Sdp.Element.C76_place`
* `Sdp.Element.C76_short_false`
* `Sdp.Element.C76_wave`
* `Sdp.EsFft.C101_adjoint_partial`
* `Sdp.EsFft.C101_cpu`
* `Sdp.EsFft.C101_degrid_partial`
* `Sdp.EsFft.C101_error_partial`
* `Sdp.EsFft.C101_grid_partial`
* `Sdp.EsFft.C101_keep_false`
* `Sdp.EsFft.C101_made`
* `Sdp.EsFft.C101_old_false`
* `Sdp.EsFft.C101_plan_false`
* `Sdp.EsFft.C101_readonly_false`
* `Sdp.EsFft.C101_refused`
* `Sdp.EsFft.C101_weight_false`
* `Sdp.EsFft.C47_buffers_partial`
* `Sdp.EsFft.C70_choice_partial`
* `Sdp.EsFft.C70_defined`
* `Sdp.EsFft.C70_double`
* `Sdp.EsFft.C70_large_false`
* `Sdp.EsFft.C70_single_false`
* `Sdp.EsFft.C70_unmet_false`
* `Sdp.EsFft.C71_descending_false`
* `Sdp.EsFft.C71_edge_false`
* `Sdp.EsFft.C71_planes_partial`
* `Sdp.EsFft.C71_range_partial`
* `Sdp.EsFft.C72_adjoint`
* `Sdp.EsFft.C72_degrid_partial`
* `Sdp.EsFft.C72_fits`
* `Sdp.EsFft.C72_grid_partial`
* `Sdp.EsFft.C72_overflow_false`
* `Sdp.EsFft.C73_adjoint`
* `Sdp.EsFft.C73_launch`
* `Sdp.EsFft.C73_odd_false`
* `Sdp.EsFft.C73_reverse`
* `Sdp.EsFft.C73_scale`
* `Sdp.EsFft.C73_sum`
* `Sdp.Examples.C51_errors`
* `Sdp.Examples.C51_sum_partial`
* `Sdp.Examples.C52_exec_partial`
* `Sdp.Examples.C52_larger_false`
* `Sdp.Fft.C107_agree`
* `Sdp.Fft.C107_create_partial`
* `Sdp.Fft.C107_direction_false`
* `Sdp.Fft.C107_mixed_false`
* `Sdp.Fft.C107_refused`
* `Sdp.Fft.C107_transform_partial`
* `Sdp.Fft.C27_fft_1d`
* `Sdp.Fft.C27_fft_2d`
* `Sdp.Fft.C28_forward_inverse`
* `Sdp.Fft.C28_forward_inverse_1d`
* `Sdp.Fft.C28_phase_involution`
* `Sdp.Fft.C28_shift_centred`
* `Sdp.Fft.C28_shift_roundtrip`
* `Sdp.Fft.C28_shift_square`
* `Sdp.Fft.C91_batch_norm_false`
* `Sdp.Fft.C91_create`
* `Sdp.Fft.C91_direction_false`
* `Sdp.Fft.C91_mixed_false`
* `Sdp.Fft.C91_no_dims_false`
* `Sdp.Fft.C91_norm_gpu`
* `Sdp.Fft.C91_null_false`
* `Sdp.Fft.C91_overflow_false`
* `Sdp.Fft.C91_phase_gpu`
* `Sdp.Fft.C91_plan_partial`
* `Sdp.Fft.C91_shift_error_false`
* `Sdp.Fft.C91_shift_null_false`
* `Sdp.Fft.C91_shift_partial`
* `Sdp.FftConv.C25_fft_convolution_partial`
* `Sdp.FftConv.C25_odd_kernel_false`
* `Sdp.FftConv.C25_odd_output_false`
* `Sdp.FftConv.C25_one_pixel_false`
* `Sdp.FftConv.C25_pad_dim`
* `Sdp.FftConv.C90_cpu_partial`
* `Sdp.FftConv.C90_gpu_edge_false`
* `Sdp.FftConv.C90_gpu_partial`
* `Sdp.FftConv.C90_gpu_pixel_false`
* `Sdp.FftConv.C90_odd_false`
* `Sdp.FftConv.C90_output_false`
* `Sdp.FftConv.C90_place_false`
* `Sdp.FftConv.C90_refused`
* `Sdp.FftConv.C90_refused_gpu`
* `Sdp.FftConv.C90_same_partial`
* `Sdp.FftConv.C90_type_false`
* `Sdp.Flagger.C100_changes_false`
* `Sdp.Flagger.C100_exact_partial`
* `Sdp.Flagger.C100_first_false`
* `Sdp.Flagger.C100_median_false`
* `Sdp.Flagger.C100_scale`
* `Sdp.Flagger.C12_flags_only_added`
* `Sdp.Flagger.C12_independent_partial`
* `Sdp.Flagger.C12_two_runs_partial`
* `Sdp.Flagger.C12_window_exact`
* `Sdp.Flagger.Machine.C120_exact`
* `Sdp.Flagger.Machine.C120_later_times`
* `Sdp.Flagger.Machine.C120_thread_partial`
* `Sdp.GridCorrect.C50_additive`
* `Sdp.GridCorrect.C50_adjoint`
* `Sdp.GridCorrect.C50_modulus`
* `Sdp.GridCorrect.C50_opposite`
* `Sdp.GridCorrect.C50_undone`
* `Sdp.GridCorrect.C50_value`
* `Sdp.GridCorrect.C64_pswf_facet`
* `Sdp.GridCorrect.C64_w_stack_facet`
* `Sdp.GridCorrect.C65_inside_iff`
* `Sdp.GridCorrect.C65_outside_false`
* `Sdp.GridCorrect.C65_value`
* `Sdp.GridCorrect.C94_odd_false`
* `Sdp.GridCorrect.C94_outside_false`
* `Sdp.GridCorrect.C94_pswf_checked`
* `Sdp.GridCorrect.C94_pswf_partial`
* `Sdp.GridCorrect.C94_pswf_refused`
* `Sdp.GridCorrect.C94_size_false`
* `Sdp.GridCorrect.C94_w_checked`
* `Sdp.GridCorrect.C94_w_refused`
* `Sdp.GridCorrect.C94_w_stack`
* `Sdp.GridCorrect.C94_w_zero`
* `Sdp.GridUtil.C119_centre`
* `Sdp.GridUtil.C119_no_size`
* `Sdp.GridUtil.C119_numbers`
* `Sdp.GridUtil.C119_pattern_partial`
* `Sdp.GridUtil.C119_planes`
* `Sdp.GridUtil.C119_refused`
* `Sdp.GridUtil.C119_small_array_false`
* `Sdp.GridUtil.C119_visibility`
* `Sdp.GridUtil.C38_add`
* `Sdp.GridUtil.C38_adjoint`
* `Sdp.GridUtil.C38_cut`
* `Sdp.GridUtil.C39_bounds_false`
* `Sdp.GridUtil.C39_bounds_partial`
* `Sdp.GridUtil.C48_shift_partial`
* `Sdp.GridUtil.C48_shift_times_partial`
* `Sdp.GridUtil.C81_add_partial`
* `Sdp.GridUtil.C81_bounds`
* `Sdp.GridUtil.C81_cut`
* `Sdp.GridUtil.C81_idft`
* `Sdp.GridUtil.C81_shift_partial`
* `Sdp.GridUtil.C81_sumdiff_false`
* `Sdp.GridUtil.C81_sumdiff_partial`
* `Sdp.GridUtil.C82_accum`
* `Sdp.GridUtil.C82_error_false`
* `Sdp.GridUtil.C82_inv`
* `Sdp.GridUtil.C82_inv_refused_partial`
* `Sdp.GridUtil.C82_real_false`
* `Sdp.GridUtil.C82_real_partial`
* `Sdp.GridUtil.C82_refused_partial`
* `Sdp.GridUtil.C82_reported`
* `Sdp.GridUtil.C82_shape_false`
* `Sdp.GridUtil.C83_kernel_edge`
* `Sdp.GridUtil.C83_kernel_false`
* `Sdp.GridUtil.C83_kernel_mirror`
* `Sdp.GridUtil.C83_kernel_partial`
* `Sdp.GridUtil.C83_kernel_sum`
* `Sdp.GridUtil.C83_pswf_false`
* `Sdp.GridUtil.C83_pswf_overflow_false`
* `Sdp.GridUtil.C83_pswf_partial`
* `Sdp.GridUtil.C83_residual_partial`
* `Sdp.GridUtil.C83_residual_refused`
* `Sdp.GridUtil.C83_rms_empty_false`
* `Sdp.GridUtil.C83_rms_partial`
* `Sdp.GridUtil.C83_rms_size_false`
* `Sdp.GridUtil.C83_rms_zero`
* `Sdp.Height.C43_admissible`
* `Sdp.Height.C43_endless_false`
* `Sdp.Height.C43_largest`
* `Sdp.Height.C43_terminates`
* `Sdp.Height.C69_sources_partial`
* `Sdp.Hogbom.C21_every_iteration`
* `Sdp.Hogbom.C21_hogbom_flux`
* `Sdp.Hogbom.C22_empty_image_false`
* `Sdp.Hogbom.C22_hogbom_in_bounds_partial`
* `Sdp.Hogbom.C22_rejected_iff`
* `Sdp.Hogbom.C22_short_output_false`
* `Sdp.Hogbom.C23_hogbom_stops`
* `Sdp.Hogbom.C23_minors_det`
* `Sdp.Hogbom.C88_any_schedule_partial`
* `Sdp.Hogbom.C88_bounds`
* `Sdp.Hogbom.C88_clean_partial`
* `Sdp.Hogbom.C88_flux_partial`
* `Sdp.Hogbom.C88_lockstep_false`
* `Sdp.Hogbom.C88_model_false`
* `Sdp.Hogbom.C88_order_false`
* `Sdp.Hogbom.C88_reproducible_partial`
* `Sdp.Hogbom.C97_cpu_partial`
* `Sdp.Hogbom.C97_gpu_details_false`
* `Sdp.Hogbom.C97_gpu_partial`
* `Sdp.Hogbom.C97_large_beam_false`
* `Sdp.Hogbom.C97_odd_beam_false`
* `Sdp.Hogbom.C97_odd_image_false`
* `Sdp.Hogbom.C97_refused`
* `Sdp.Hogbom.C97_shift_false`
* `Sdp.Legendre.C54_angle`
* `Sdp.Legendre.C54_derivative`
* `Sdp.Legendre.C54_pole_false`
* `Sdp.Legendre.C54_ratio`
* `Sdp.Legendre.C54_value`
* `Sdp.Legendre.C74_decreasing_false`
* `Sdp.Legendre.C74_derivative`
* `Sdp.Legendre.C74_kernel`
* `Sdp.Legendre.C74_steps_partial`
* `Sdp.Legendre.C74_value`
* `Sdp.Legendre.C74_weight`
* `Sdp.Logging.C127_fixed`
* `Sdp.Logging.C127_shown`
* `Sdp.Logging.C127_threads`
* `Sdp.MsClean.C24_ms_clean_partial`
* `Sdp.MsClean.C24_no_scale_false`
* `Sdp.MsClean.C24_psf_side_false`
* `Sdp.MsClean.C24_stop_zero`
* `Sdp.MsClean.C24_threshold_other_scale_false`
* `Sdp.MsClean.C98_call_partial`
* `Sdp.MsClean.C98_diverges_false`
* `Sdp.MsClean.C98_gpu_false`
* `Sdp.MsClean.C98_odd_image_false`
* `Sdp.MsClean.C98_refused`
* `Sdp.MsClean.C98_shift_false`
* `Sdp.MsClean.C98_size_false`
* `Sdp.Mutex.C128_ends`
* `Sdp.Mutex.C128_exclusive`
* `Sdp.Mutex.C128_no_openmp_false`
* `Sdp.Mutex.C128_progress`
* `Sdp.Mutex.C128_serial`
* `Sdp.Mutex.C128_updates`
* `Sdp.Omp.C125_add_false`
* `Sdp.Omp.C125_add_partial`
* `Sdp.Omp.C125_add_race_false`
* `Sdp.Omp.C125_beam`
* `Sdp.Omp.C125_cut`
* `Sdp.Omp.C125_degrid`
* `Sdp.Omp.C125_dft`
* `Sdp.Omp.C125_dft1`
* `Sdp.Omp.C125_fft`
* `Sdp.Omp.C125_fft_serial`
* `Sdp.Omp.C125_grid`
* `Sdp.Omp.C125_norm`
* `Sdp.Omp.C125_pcorrect`
* `Sdp.Omp.C125_phase`
* `Sdp.Omp.C125_rms`
* `Sdp.Omp.C125_shift`
* `Sdp.Omp.C125_tower`
* `Sdp.Omp.C125_wcorrect`
* `Sdp.OptWeighting.C95_block_partial`
* `Sdp.OptWeighting.C95_checked`
* `Sdp.OptWeighting.C95_last_false`
* `Sdp.OptWeighting.C95_nearest`
* `Sdp.OptWeighting.C95_race_false`
* `Sdp.OptWeighting.C95_rest_false`
* `Sdp.OptWeighting.C95_robust_false`
* `Sdp.OptWeighting.C95_step_partial`
* `Sdp.OptWeighting.C95_tile`
* `Sdp.OptWeighting.C99_block_partial`
* `Sdp.OptWeighting.C99_checked`
* `Sdp.OptWeighting.C99_last_false`
* `Sdp.OptWeighting.C99_mean_false`
* `Sdp.OptWeighting.C99_race_false`
* `Sdp.OptWeighting.C99_rest_false`
* `Sdp.OptWeighting.C99_robust_false`
* `Sdp.OptWeighting.C99_step_partial`
* `Sdp.PhaseRotate.C19_identity`
* `Sdp.PhaseRotate.C19_in_place`
* `Sdp.PhaseRotate.C19_length`
* `Sdp.PhaseRotate.C19_rotation`
* `Sdp.PhaseRotate.C19_roundtrip_false`
* `Sdp.PhaseRotate.C19_roundtrip_partial`
* `Sdp.PhaseRotate.C20_identity`
* `Sdp.PhaseRotate.C20_linear`
* `Sdp.PhaseRotate.C20_modulus`
* `Sdp.PhaseRotate.C20_offsets`
* `Sdp.PhaseRotate.C20_roundtrip_false`
* `Sdp.PhaseRotate.C20_roundtrip_partial`
* `Sdp.PhaseRotate.C78_gpu_uvw`
* `Sdp.PhaseRotate.C78_gpu_vis`
* `Sdp.PhaseRotate.C78_layout_false`
* `Sdp.PhaseRotate.C78_uvw_interleaved_partial`
* `Sdp.PhaseRotate.C78_uvw_partial`
* `Sdp.PhaseRotate.C78_vis_interleaved_partial`
* `Sdp.PhaseRotate.C78_vis_partial`
* `Sdp.Plans.C113_account`
* `Sdp.Plans.C113_faults_false`
* `Sdp.Plans.C113_free`
* `Sdp.Plans.C113_generated`
* `Sdp.Plans.C113_handle_and_error_false`
* `Sdp.Plans.C113_lifetime`
* `Sdp.Plans.C113_parameters`
* `Sdp.Plans.C113_released_false`
* `Sdp.Plans.C113_released_partial`
* `Sdp.Plans.C113_reported`
* `Sdp.Plans.C113_tables_false`
* `Sdp.Plans.C113_tables_partial`
* `Sdp.Pswf.C84_call_partial`
* `Sdp.Pswf.C84_copies_false`
* `Sdp.Pswf.C84_copies_partial`
* `Sdp.Pswf.C84_empty_false`
* `Sdp.Pswf.C84_evaluate`
* `Sdp.Pswf.C84_even`
* `Sdp.Pswf.C84_null_false`
* `Sdp.Pswf.C84_power`
* `Sdp.Pswf.C84_refused`
* `Sdp.Pswf.C84_samples_false`
* `Sdp.Pswf.C84_samples_partial`
* `Sdp.Pswf.C85_least_partial`
* `Sdp.Pswf.C85_overflow_false`
* `Sdp.Pswf.C85_tiny`
* `Sdp.Pswf.C85_zero`
* `Sdp.Pswf.C86_expansion_partial`
* `Sdp.Pswf.C86_overflow_false`
* `Sdp.Pswf.C86_safe`
* `Sdp.Pswf.C86_series`
* `Sdp.Pswf.C86_unset_false`
* `Sdp.Pswf.C87_equation_partial`
* `Sdp.Pswf.C87_legendre`
* `Sdp.Sizes.C26_at_most_double`
* `Sdp.Sizes.C26_exists`
* `Sdp.Sizes.C26_overflow_false`
* `Sdp.Sizes.C26_padded_size_partial`
* `Sdp.Sizes.C29_good_size`
* `Sdp.Sizes.C29_small`
* `Sdp.Station.C53_cpu`
* `Sdp.Station.C53_gpu`
* `Sdp.Station.C53_linear`
* `Sdp.Station.C53_linear_pattern`
* `Sdp.Station.C53_order`
* `Sdp.StationCall.C123_station_cpu`
* `Sdp.StationCall.C123_station_gpu`
* `Sdp.Stream.C108_bytes`
* `Sdp.Stream.C108_finished`
* `Sdp.Stream.C108_host_copy_false`
* `Sdp.Stream.C108_no_cuda`
* `Sdp.Stream.C108_one_stream_partial`
* `Sdp.Stream.C108_progress`
* `Sdp.Stream.C108_round_trip`
* `Sdp.Swiftly.C102_adjoint_partial`
* `Sdp.Swiftly.C102_backward_partial`
* `Sdp.Swiftly.C102_exact_partial`
* `Sdp.Swiftly.C102_forward_partial`
* `Sdp.Swiftly.C102_odd_false`
* `Sdp.Swiftly.C102_rule_partial`
* `Sdp.Swiftly.C110_add_rows_false`
* `Sdp.Swiftly.C110_add_to_facet`
* `Sdp.Swiftly.C110_add_to_facet_refused`
* `Sdp.Swiftly.C110_add_to_subgrid`
* `Sdp.Swiftly.C110_add_to_subgrid_2d_partial`
* `Sdp.Swiftly.C110_add_to_subgrid_2d_refused`
* `Sdp.Swiftly.C110_add_to_subgrid_refused`
* `Sdp.Swiftly.C110_exact_2d_partial`
* `Sdp.Swiftly.C110_extract_from_facet`
* `Sdp.Swiftly.C110_extract_from_facet_refused`
* `Sdp.Swiftly.C110_extract_from_subgrid_partial`
* `Sdp.Swiftly.C110_extract_from_subgrid_refused`
* `Sdp.Swiftly.C110_finish_facet`
* `Sdp.Swiftly.C110_finish_facet_refused`
* `Sdp.Swiftly.C110_finish_subgrid`
* `Sdp.Swiftly.C110_finish_subgrid_2d_partial`
* `Sdp.Swiftly.C110_finish_subgrid_2d_refused`
* `Sdp.Swiftly.C110_finish_subgrid_inplace`
* `Sdp.Swiftly.C110_finish_subgrid_inplace_refused`
* `Sdp.Swiftly.C110_finish_subgrid_refused`
* `Sdp.Swiftly.C110_forward_2d_partial`
* `Sdp.Swiftly.C110_prepare_facet`
* `Sdp.Swiftly.C110_prepare_facet_refused`
* `Sdp.Swiftly.C110_prepare_subgrid_2d_refused`
* `Sdp.Swiftly.C110_prepare_subgrid_inplace`
* `Sdp.Swiftly.C110_prepare_subgrid_inplace_refused`
* `Sdp.Swiftly.C116_adjoint_2d_partial`
* `Sdp.Swiftly.C116_backward_2d_partial`
* `Sdp.Swiftly.C116_exact_2d_partial`
* `Sdp.Swiftly.C116_extract_from_subgrid_2d_partial`
* `Sdp.Swiftly.C116_extract_from_subgrid_2d_refused`
* `Sdp.Swiftly.C116_extract_rows_false`
* `Sdp.Swiftly.C116_prepare_subgrid_2d`
* `Sdp.Swiftly.C30_2d_rows_false`
* `Sdp.Swiftly.C30_create_accepts_iff`
* `Sdp.Swiftly.C30_empty_facet_false`
* `Sdp.Swiftly.C30_extract_subgrid_in_range_iff`
* `Sdp.Swiftly.C30_fb_table`
* `Sdp.Swiftly.C30_fn_table`
* `Sdp.Swiftly.C30_negative_offset_false`
* `Sdp.Swiftly.C31_add`
* `Sdp.Swiftly.C31_adjoint`
* `Sdp.Swiftly.C31_extract`
* `Sdp.Swiftly.C31_extract_window`
* `Sdp.Swiftly.C32_add`
* `Sdp.Swiftly.C32_add_2d_partial`
* `Sdp.Swiftly.C32_add_pointwise`
* `Sdp.Swiftly.C32_adjoint_2d_partial`
* `Sdp.Swiftly.C32_adjoint_partial`
* `Sdp.Swiftly.C32_commute`
* `Sdp.Swiftly.C32_extract_2d_partial`
* `Sdp.Swiftly.C32_extract_partial`
* `Sdp.Swiftly.C32_negative_offset_false`
* `Sdp.Swiftly.C33_finish_prepare_partial`
* `Sdp.Swiftly.C33_prepare_finish_partial`
* `Sdp.Swiftly.C33_sign_false`
* `Sdp.Swiftly.C59_finish_facet`
* `Sdp.Swiftly.C59_prepare_facet`
* `Sdp.Swiftly.C59_round_trip`
* `Sdp.Swiftly.C60_finish_crop`
* `Sdp.Swiftly.C61_prepare_finish_2d_partial`
* `Sdp.Swiftly.C61_strided_false`
* `Sdp.Temps.C114_comes_back`
* `Sdp.Temps.C114_count_tiles_false`
* `Sdp.Temps.C114_count_tiles_success_false`
* `Sdp.Temps.C114_errors_stay`
* `Sdp.Temps.C114_kept_only_then`
* `Sdp.Temps.C114_no_fault_false`
* `Sdp.Temps.C114_no_fault_partial`
* `Sdp.Temps.C114_nothing_after_error_false`
* `Sdp.Temps.C114_nothing_after_error_partial`
* `Sdp.Temps.C114_released_false`
* `Sdp.Temps.C114_released_partial`
* `Sdp.Temps.C114_runs`
* `Sdp.Temps.C114_success_partial`
* `Sdp.Temps.C114_undefined_after_errors`
* `Sdp.Tiles.C103_count_check_false`
* `Sdp.Tiles.C103_count_cpu_partial`
* `Sdp.Tiles.C103_count_float_false`
* `Sdp.Tiles.C103_count_gpu_crash_false`
* `Sdp.Tiles.C103_count_gpu_partial`
* `Sdp.Tiles.C103_count_left_false`
* `Sdp.Tiles.C103_count_status_false`
* `Sdp.Tiles.C103_index_coordinates_false`
* `Sdp.Tiles.C103_index_cpu_partial`
* `Sdp.Tiles.C103_index_gpu_partial`
* `Sdp.Tiles.C103_slots`
* `Sdp.Tiles.C103_sort_cpu_partial`
* `Sdp.Tiles.C103_sort_gpu_partial`
* `Sdp.Tiles.C103_sort_pols_false`
* `Sdp.Tiles.C103_sort_twice_false`
* `Sdp.Tiles.C103_sort_vis_false`
* `Sdp.Tiles.C13_bucket_sort`
* `Sdp.Tiles.C14_gpu_scan_partial`
* `Sdp.Tiles.C14_gpu_scan_race_false`
* `Sdp.Tiles.C14_gpu_scan_small`
* `Sdp.Tiles.C14_prefix_sum`
* `Sdp.Tiles.Tiling.C13_items_in_range`
* `Sdp.Tiles.Tiling.C15_cpu_covers_partial`
* `Sdp.Tiles.Tiling.C15_cpu_extra_tiles_false`
* `Sdp.Tiles.Tiling.C15_gpu_exact`
* `Sdp.Tiles.Tiling.C15_gpu_in_range_partial`
* `Sdp.TimerReport.C124_defined`
* `Sdp.TimerReport.C124_empty_set_false`
* `Sdp.TimerReport.C124_every_scope_once`
* `Sdp.TimerReport.C124_figures_partial`
* `Sdp.TimerReport.C124_interquartile_false`
* `Sdp.TimerReport.C124_sections`
* `Sdp.TimerReport.C124_zero_total_false`
* `Sdp.WTower.C109_adjoint_general`
* `Sdp.WTower.C109_adjoint_partial`
* `Sdp.WTower.C109_agree_degrid`
* `Sdp.WTower.C109_agree_grid`
* `Sdp.WTower.C109_bounds_false`
* `Sdp.WTower.C109_checked`
* `Sdp.WTower.C109_count_false`
* `Sdp.WTower.C109_degrid`
* `Sdp.WTower.C109_grid`
* `Sdp.WTower.C109_refused`
* `Sdp.WTower.C126_bounds_false`
* `Sdp.WTower.C126_count_false`
* `Sdp.WTower.C126_degrid_accepted`
* `Sdp.WTower.C126_degrid_success`
* `Sdp.WTower.C126_degrid_unchanged_partial`
* `Sdp.WTower.C126_grid_accepted`
* `Sdp.WTower.C126_grid_success`
* `Sdp.WTower.C126_grid_unchanged_partial`
* `Sdp.WTower.C126_real_image`
* `Sdp.WTower.C126_real_image_false`
* `Sdp.WTower.C126_real_image_witness`
* `Sdp.WTower.C126_refused`
* `Sdp.WTower.C40_adjoint`
* `Sdp.WTower.C40_adjoint_conj`
* `Sdp.WTower.C40_degrid`
* `Sdp.WTower.C40_degrid_linear`
* `Sdp.WTower.C40_grid`
* `Sdp.WTower.C40_grid_linear`
* `Sdp.WTower.C40_grid_order`
* `Sdp.WTower.C41_box_partial`
* `Sdp.WTower.C41_edge_false`
* `Sdp.WTower.C41_exact_partial`
* `Sdp.WTower.C41_falling_false`
* `Sdp.WTower.C41_margin_partial`
* `Sdp.WTower.C41_no_fault_partial`
* `Sdp.WTower.C41_w_partial`
* `Sdp.WTower.C42_degrid`
* `Sdp.WTower.C42_degrid_once_partial`
* `Sdp.WTower.C42_empty_false`
* `Sdp.WTower.C42_grid`
* `Sdp.WTower.C42_rows`
* `Sdp.WTower.C66_uv`
* `Sdp.WTower.C66_w_false`
* `Sdp.WTower.C66_w_partial`
* `Sdp.WTower.C67_flat_partial`
* `Sdp.WTower.C67_one_plane_partial`
* `Sdp.WTower.C67_sweep_partial`
* `Sdp.WTower.C68_adjoint_partial`
* `Sdp.WTower.C68_general`
* `Sdp.WTower.C68_odd_false`
* `Sdp.WTower.C92_degrid_partial`
* `Sdp.WTower.C92_edge_false`
* `Sdp.WTower.C92_grid_partial`
* `Sdp.Weighting.C16_cell_normalised_partial`
* `Sdp.Weighting.C16_grid_pols_unchecked_false`
* `Sdp.Weighting.C16_in_range`
* `Sdp.Weighting.C16_negative_false`
* `Sdp.Weighting.C16_uniform_partial`
* `Sdp.Weighting.C16_wrapped_false`
* `Sdp.Weighting.C17_bounds_monotone_partial`
* `Sdp.Weighting.C17_formula_partial`
* `Sdp.Weighting.C79_briggs_crash_false`
* `Sdp.Weighting.C79_briggs_partial`
* `Sdp.Weighting.C79_fresh_false`
* `Sdp.Weighting.C79_refused`
* `Sdp.Weighting.C79_unchecked_false`
* `Sdp.Weighting.C79_uniform_partial`
* `Sdp.Width.C115_rotate_uvw_gpu_large_false`
* `Sdp.Width.C115_rotate_vis_gpu_large_false`
* `Sdp.Width.C117_es_correct_partial`
* `Sdp.Width.C117_es_reverse_partial`
* `Sdp.Width.C117_es_screen_partial`
* `Sdp.Width.C117_harp_partial`
* `Sdp.Width.C121_fill_cpu_partial`
* `Sdp.Width.C121_fill_gpu_large_false`
* `Sdp.Width.C121_fill_gpu_partial`
* `Sdp.Width.C121_fill_gpu_runs`
* `Sdp.Width.C121_fill_large_false`
* `Sdp.Width.C121_random_partial`
* `Sdp.Width.C121_random_range`
* `Sdp.Width.C121_scale_cpu`
* `Sdp.Width.C121_scale_gpu_large_false`
* `Sdp.Width.C121_scale_gpu_partial`
* `Sdp.Wstack.C36_exactly_once_false`
* `Sdp.Wstack.C36_exactly_once_partial`
* `Sdp.Wstack.C36_no_abort_partial`
* `Sdp.Wstack.C36_plane_completes`
* `Sdp.Wstack.C36_run_exists`
* `Sdp.Wstack.C37_progress`
* `Sdp.Wstack.C37_rows_partitioned`
* `Sdp.Wstack.C37_terminates`
* `Sdp.Wstack.C89_adjoint_partial`
* `Sdp.Wstack.C89_calls_partial`
* `Sdp.Wstack.C89_determined_partial`
* `Sdp.Wstack.Err.C112_ends`
* `Sdp.Wstack.Err.C112_entry`
* `Sdp.Wstack.Err.C112_image_dims_false`
* `Sdp.Wstack.Err.C112_no_loss`
* `Sdp.Wstack.Err.C112_prepare_false`
* `Sdp.Wstack.Err.C112_region`
* `Sdp.Wstack.Err.C112_region_ends`
* `Sdp.Wstack.Err.C112_returns_partial`
* `Sdp.Wstack.Err.C112_schedule_false`
* `Sdp.Wstack.Err.C112_setup`
* `Verif.Python.Array.C118_contiguous_false`
* `Verif.Python.Array.C118_contiguous_partial`
* `Verif.Python.Array.C118_cupy`
* `Verif.Python.Array.C118_numpy`
* `Verif.Python.Array.C118_types`
* `Verif.Python.Life.C105_calls_partial`
* `Verif.Python.Life.C105_freed`
* `Verif.Python.Life.C105_freed_once`
* `Verif.Python.Life.C105_kept_mem_false`
* `Verif.Python.Life.C105_leak_false`
* `Verif.Python.Sky.C106_copy_false`
* `Verif.Python.Wrap.C104_first_use_false`
* `Verif.Python.Wrap.C104_first_use_partial`
* `Verif.Python.Wrap.C104_warm`

## propext, Quot.sound

* `Sdp.C04_borrowed_never_owns`
* `Sdp.C04_ownership`
* `Sdp.C04_release_effect`
* `Sdp.C06_error_preserved_partial`
* `Sdp.C09_weights_metadata_partial`
* `Sdp.C10_elapsed_partial`
* `Sdp.C10_queries_invisible_partial`
* `Sdp.C11_nested_returns`
* `Sdp.C11_single_thread`
* `Sdp.C11_threads`
* `Sdp.C55_alias_of_created_partial`
* `Sdp.C56_matching_exact`
* `Sdp.C58_unsupported_returns_array`
* `Sdp.Direct.C45_count_partial`
* `Sdp.Element.C75_gpu_false`
* `Sdp.Element.C75_gpu_partial`
* `Sdp.Element.C75_stride_false`
* `Sdp.EsFft.C71_equal_false`
* `Sdp.EsFft.C71_no_channel_false`
* `Sdp.Examples.C52_create`
* `Sdp.FftConv.C90_gap`
* `Sdp.Flagger.C12_scratch_read_false`
* `Sdp.Flagger.C12_writes_in_range`
* `Sdp.Flagger.Machine.C120_every_call_false`
* `Sdp.Flagger.Machine.C120_step_zero_false`
* `Sdp.GridUtil.C38_add_rows_partial`
* `Sdp.GridUtil.C38_wrap_ends_iff`
* `Sdp.Height.C69_division_false`
* `Sdp.Height.C69_odd_false`
* `Sdp.Hogbom.C88_bounds_false`
* `Sdp.Legendre.C74_fits`
* `Sdp.Legendre.C74_outside_false`
* `Sdp.Logging.C127_lines_false`
* `Sdp.Logging.C127_time_partial`
* `Sdp.Omp.C125_reduction`
* `Sdp.Omp.C125_sum_diff`
* `Sdp.OptWeighting.C95_empty_false`
* `Sdp.OptWeighting.C99_empty_false`
* `Sdp.Stream.C108_refused`
* `Sdp.Stream.C108_terminates`
* `Sdp.Tiles.C14_prefix_sum_needs_extra`
* `Sdp.Tiles.Tiling.C15_tile_index_negative_false`
* `Sdp.Tiles.Tiling.C15_tile_index_past_end_false`
* `Sdp.WTower.C40_grid_split`
* `Sdp.Width.C115_convolution_large_false`
* `Sdp.Width.C115_convolution_pad`
* `Sdp.Width.C115_convolution_product_partial`
* `Sdp.Width.C115_dft_v00_cpu_partial`
* `Sdp.Width.C115_dft_v00_gpu_large_false`
* `Sdp.Width.C115_dft_v00_gpu_partial`
* `Sdp.Width.C115_dft_v00_gpu_runs`
* `Sdp.Width.C115_dft_v00_large_false`
* `Sdp.Width.C115_dft_v01_cpu_partial`
* `Sdp.Width.C115_flagger_large_false`
* `Sdp.Width.C115_flagger_partial`
* `Sdp.Width.C115_hogbom_large_false`
* `Sdp.Width.C115_hogbom_psf_false`
* `Sdp.Width.C115_hogbom_scan_partial`
* `Sdp.Width.C115_hogbom_subtract_partial`
* `Sdp.Width.C115_ms_clean_scales_false`
* `Sdp.Width.C115_ms_clean_scales_partial`
* `Sdp.Width.C115_rms_reads_partial`
* `Sdp.Width.C115_rms_size_partial`
* `Sdp.Width.C115_rotate_uvw_cpu`
* `Sdp.Width.C115_rotate_uvw_gpu_partial`
* `Sdp.Width.C115_rotate_vis_cpu`
* `Sdp.Width.C115_rotate_vis_gpu_partial`
* `Sdp.Width.C115_weights_cpu`
* `Sdp.Width.C115_weights_gpu_large_false`
* `Sdp.Width.C115_weights_gpu_partial`
* `Sdp.Width.C117_bucket_sort_gpu_large_false`
* `Sdp.Width.C117_bucket_sort_gpu_partial`
* `Sdp.Width.C117_bucket_sort_large_false`
* `Sdp.Width.C117_bucket_sort_partial`
* `Sdp.Width.C117_custom_gpu_partial`
* `Sdp.Width.C117_custom_partial`
* `Sdp.Width.C117_dipole_large_false`
* `Sdp.Width.C117_dipole_partial`
* `Sdp.Width.C117_es_correct_large_false`
* `Sdp.Width.C117_es_grid_large_false`
* `Sdp.Width.C117_es_grid_partial`
* `Sdp.Width.C117_es_reverse_large_false`
* `Sdp.Width.C117_es_screen_large_false`
* `Sdp.Width.C117_es_vis_large_false`
* `Sdp.Width.C117_harp_large_false`
* `Sdp.Width.C117_prefix_sum_partial`
* `Sdp.Width.C117_station_gpu_large_false`
* `Sdp.Width.C117_station_gpu_partial`
* `Sdp.Width.C117_station_large_false`
* `Sdp.Width.C117_station_partial`
* `Sdp.Width.C121_random_gaps_false`
* `Sdp.Width.C121_scale_gpu_runs`
* `Sdp.Wstack.C37_all_chunks_once`
* `Sdp.Wstack.C37_chunk_in_rows`
* `Sdp.Wstack.C37_never_twice`
* `Verif.Python.Array.C118_refused`
* `Verif.Python.Bind.C118_calls_partial`
* `Verif.Python.Call.C104_keywords_false`
* `Verif.Python.Call.C104_positional`
* `Verif.Python.Sky.C106_coord`
* `Verif.Python.Sky.C106_copy_partial`

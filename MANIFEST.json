{
 "claims": [
  {
   "property": "C01",
   "status": "proved",
   "theorems": [
    "Verif.Params.C01_set_get"
   ],
   "note": ""
  },
  {
   "property": "C02",
   "status": "proved",
   "theorems": [
    "Verif.Params.C02_frozen_untouched"
   ],
   "note": ""
  },
  {
   "property": "C03",
   "status": "proved",
   "theorems": [
    "Verif.Params.C03_set_current"
   ],
   "note": ""
  },
  {
   "property": "C04",
   "status": "partial",
   "theorems": [
    "Verif.Params.C04_vectors_aligned_partial",
    "Verif.Params.C04_array_bounds_false",
    "Verif.Params.C04_names"
   ],
   "note": "Proved for objects with complete bound lists; false for NpArrayParams/MogParams, whose bound lists are empty (C04_array_bounds_false)."
  },
  {
   "property": "C05",
   "status": "proved",
   "theorems": [
    "Verif.Params.C05_setParam",
    "Verif.Params.C05_setParam_bad_index"
   ],
   "note": ""
  },
  {
   "property": "C06",
   "status": "proved",
   "theorems": [
    "Verif.Params.C06_all_params",
    "Verif.Params.C06_wrong_length"
   ],
   "note": ""
  },
  {
   "property": "C07",
   "status": "proved",
   "theorems": [
    "Verif.Params.C07_freeze_entry",
    "Verif.Params.C07_freeze_thaw",
    "Verif.Params.C07_sequences",
    "Verif.Params.C07_freezeAllBut"
   ],
   "note": ""
  },
  {
   "property": "C08",
   "status": "proved",
   "theorems": [
    "Verif.Params.C08_recursive_all"
   ],
   "note": ""
  },
  {
   "property": "C09",
   "status": "proved",
   "theorems": [
    "Verif.Params.C09_thawPathsTo"
   ],
   "note": ""
  },
  {
   "property": "C10",
   "status": "proved",
   "theorems": [
    "Verif.Params.C10_index_maps",
    "Verif.Params.C10_thawed_indices"
   ],
   "note": ""
  },
  {
   "property": "C11",
   "status": "proved",
   "theorems": [
    "Verif.Params.C11_edits",
    "Verif.Params.C11_survivors",
    "Verif.Params.C11_raises"
   ],
   "note": ""
  },
  {
   "property": "C12",
   "status": "partial",
   "theorems": [
    "Verif.Params.C12_copy_partial",
    "Verif.Params.C12_copy_bounds_false",
    "Verif.Psf.C12_psf_copy_false"
   ],
   "note": "Values, flags and entries are preserved; bounds/steps/priors are not (C12_copy_bounds_false)."
  },
  {
   "property": "C13",
   "status": "partial",
   "theorems": [
    "Verif.Params.C13_steps_partial",
    "Verif.Params.C13_second_call_false",
    "Verif.Params.C13_steps_tree_partial"
   ],
   "note": "False for a second call with a thawed parameter behind a frozen one (C13_second_call_false)."
  },
  {
   "property": "C14",
   "status": "proved",
   "theorems": [
    "Verif.Params.C14_prior_derivs",
    "Verif.Params.C14_positions",
    "Verif.Params.C14_stack_next"
   ],
   "note": ""
  },
  {
   "property": "C15",
   "status": "proved",
   "theorems": [
    "Verif.Params.C15_prior_linear"
   ],
   "note": ""
  },
  {
   "property": "C16",
   "status": "partial",
   "theorems": [
    "Verif.Params.C16_gaussian_priors_partial",
    "Verif.Params.C16_raw_index_false"
   ],
   "note": "False when a parameter of a list is frozen individually: raw indices are reported (C16_raw_index_false)."
  },
  {
   "property": "C17",
   "status": "partial",
   "theorems": [
    "Verif.Params.C17_arithmetic_partial",
    "Verif.Params.C17_rsub_false"
   ],
   "note": "Everything but number - object, which computes object - number (C17_rsub_false)."
  },
  {
   "property": "C18",
   "status": "proved",
   "theorems": [
    "Verif.Cache.C18_bounded",
    "Verif.Cache.C18_size_zero"
   ],
   "note": ""
  },
  {
   "property": "C19",
   "status": "proved",
   "theorems": [
    "Verif.Cache.C19_last_write",
    "Verif.Cache.C19_no_loss"
   ],
   "note": ""
  },
  {
   "property": "C20",
   "status": "partial",
   "theorems": [
    "Verif.Cache.C20_evicts_lru_partial",
    "Verif.Cache.C20_overwrite_evicts_false",
    "Verif.Cache.C20_overwrite_not_refreshed_false"
   ],
   "note": "Refinement to an LRU map holds for histories that never overwrite a cached key; overwriting evicts another entry and does not refresh the key."
  },
  {
   "property": "C21",
   "status": "proved",
   "theorems": [
    "Verif.Cache.C21_counters"
   ],
   "note": ""
  },
  {
   "property": "C22",
   "status": "partial",
   "theorems": [
    "Verif.Cache.C22_cached_patch_partial",
    "Verif.Cache.C22_mask_change_false",
    "Verif.Cache.C22_disabled_false"
   ],
   "note": "Holds while the model mask is unchanged and the cache enabled; see the _false theorems for both."
  },
  {
   "property": "C23",
   "status": "proved",
   "theorems": [
    "Verif.Patches.C23_add_sub",
    "Verif.Patches.C23_none_raises"
   ],
   "note": ""
  },
  {
   "property": "C24",
   "status": "proved",
   "theorems": [
    "Verif.Patches.C24_addTo"
   ],
   "note": ""
  },
  {
   "property": "C25",
   "status": "partial",
   "theorems": [
    "Verif.Patches.C25_clipTo_partial",
    "Verif.Patches.C25_true_though_empty_false"
   ],
   "note": "Footprint and pixels exact; the return value is True for a patch entirely left of or above the image (C25_true_though_empty_false)."
  },
  {
   "property": "C26",
   "status": "proved",
   "theorems": [
    "Verif.Patches.C26_clipToRoi"
   ],
   "note": ""
  },
  {
   "property": "C27",
   "status": "partial",
   "theorems": [
    "Verif.Patches.C27_trim_partial",
    "Verif.Patches.C27_single_zero_false"
   ],
   "note": "Exact except for a single-pixel zero patch (C27_single_zero_false)."
  },
  {
   "property": "C28",
   "status": "proved",
   "theorems": [
    "Verif.Patches.C28_pixel_indices",
    "Verif.Patches.C28_int32_overflow_false"
   ],
   "note": ""
  },
  {
   "property": "C29",
   "status": "proved",
   "theorems": [
    "Verif.Engine.C29_model_image",
    "Verif.Engine.C29_additive",
    "Verif.Engine.C29_order",
    "Verif.Engine.C29_setModelMasks",
    "Verif.Engine.C29_foreign_image",
    "Verif.Engine.C29_rejected_masks_stay"
   ],
   "note": ""
  },
  {
   "property": "C30",
   "status": "proved",
   "theorems": [
    "Verif.Engine.C30_loglikelihood",
    "Verif.Engine.C30_nonpos",
    "Verif.Engine.C30_masked_pixels",
    "Verif.Engine.C30_insensitive"
   ],
   "note": ""
  },
  {
   "property": "C31",
   "status": "proved",
   "theorems": [
    "Verif.Engine.C31_logprob",
    "Verif.Engine.C31_finite"
   ],
   "note": ""
  },
  {
   "property": "C32",
   "status": "proved",
   "theorems": [
    "Verif.Engine.C32_getDerivs",
    "Verif.Engine.C32_wrong_number",
    "Verif.Engine.C32_image_none"
   ],
   "note": ""
  },
  {
   "property": "C33",
   "status": "proved",
   "theorems": [
    "Verif.Opt.C33_tryUpdates",
    "Verif.Opt.C33_moved"
   ],
   "note": ""
  },
  {
   "property": "C34",
   "status": "proved",
   "theorems": [
    "Verif.Opt.C34_getParameterSteps",
    "Verif.Opt.C34_not_increasing",
    "Verif.Opt.C34_start_outside"
   ],
   "note": ""
  },
  {
   "property": "C35",
   "status": "proved",
   "theorems": [
    "Verif.Opt.C35_tryUpdates",
    "Verif.Opt.C35_missing_bounds"
   ],
   "note": ""
  },
  {
   "property": "C36",
   "status": "proved",
   "theorems": [
    "Verif.Opt.C36_optimize_loop",
    "Verif.Opt.C36_optimize_loop_constrained"
   ],
   "note": ""
  },
  {
   "property": "C37",
   "status": "proved",
   "theorems": [
    "Verif.Lsq.C37_layout"
   ],
   "note": ""
  },
  {
   "property": "C38",
   "status": "partial",
   "theorems": [
    "Verif.Lsq.C38_detects",
    "Verif.Lsq.C38_update_partial",
    "Verif.Lsq.C38_scaled_false",
    "Verif.Lsq.C38_no_effect_false"
   ],
   "note": "Detection exact. Equal updates and constrained minimum proved for unscaled columns or equal norms and effective last value; C38_scaled_false and C38_no_effect_false show that both conditions are needed."
  },
  {
   "property": "C39",
   "status": "proved",
   "theorems": [
    "Verif.Lsq.C39_minimises"
   ],
   "note": ""
  },
  {
   "property": "C40",
   "status": "partial",
   "theorems": [
    "Verif.Lsq.C40_dense_minimises_partial",
    "Verif.Lsq.C40_same_objective_partial",
    "Verif.Lsq.C40_repeated_image_false"
   ],
   "note": "Same objective and minimiser for the dense optimizer when no image repeats within a parameter (C40_repeated_image_false otherwise)."
  },
  {
   "property": "C41",
   "status": "partial",
   "theorems": [
    "Verif.Src.C41_point",
    "Verif.Src.C41_galaxy",
    "Verif.Src.C41_composite",
    "Verif.Src.C41_fixed_partial",
    "Verif.Src.C41_constant",
    "Verif.Src.C41_frozen_brightness_false",
    "Verif.Src.C41_frac_clipped_false"
   ],
   "note": "All kinds of source except fixed-composite galaxies with frozen brightness and a thawed shape, where the list is too long (C41_frozen_brightness_false); the fraction entry is wrong outside [0,1] (C41_frac_clipped_false)."
  },
  {
   "property": "C42",
   "status": "partial",
   "theorems": [
    "Verif.Coords.C42_inverse",
    "Verif.Coords.C42_wrapper_inverse",
    "Verif.Coords.C42_wrapped_subimage",
    "Verif.Coords.C42_shifted_partial",
    "Verif.Coords.C42_compose",
    "Verif.Coords.C42_shifted_twice",
    "Verif.Coords.C42_null_false"
   ],
   "note": "Inverse for every sky WCS under any wrapping; NullWCS false (C42_null_false); ScaledWcs has no pixelToPosition."
  },
  {
   "property": "C43",
   "status": "proved",
   "theorems": [
    "Verif.Bright.C43_nanomaggies",
    "Verif.Bright.C43_reference",
    "Verif.Bright.C43_order",
    "Verif.Bright.C43_zeropoint",
    "Verif.Bright.C43_counts",
    "Verif.Bright.C43_counts_back",
    "Verif.Bright.C43_sum",
    "Verif.Bright.C43_scale"
   ],
   "note": "Reals with NaN and infinities; rounding and overflow not represented."
  },
  {
   "property": "C44",
   "status": "partial",
   "theorems": [
    "Verif.Ell.C44_fromRAbPhi",
    "Verif.Ell.C44_zero_axis",
    "Verif.Ell.C44_soft_range",
    "Verif.Ell.C44_soft_fromRAbPhi",
    "Verif.Ell.C44_plain_soft_partial",
    "Verif.Ell.C44_round_false",
    "Verif.Ell.C44_soft_plain",
    "Verif.Ell.C44_covariance",
    "Verif.Ell.C44_soft_covariance",
    "Verif.Ell.C44_from_covariance_partial",
    "Verif.Ell.C44_from_covariance_false"
   ],
   "note": "Over the reals. Round ellipses cannot be softened (C44_round_false); covariances only for SVDs whose left factor is a reflection (C44_from_covariance_false). Overflow and NaN not represented."
  },
  {
   "property": "C45",
   "status": "proved",
   "theorems": [
    "Verif.Mog.C45_layout",
    "Verif.Mog.C45_set_one",
    "Verif.Mog.C45_new",
    "Verif.Mog.C45_refines",
    "Verif.Mog.C45_roundtrip",
    "Verif.Mog.C45_names",
    "Verif.Mog.C45_args",
    "Verif.Mog.C45_copy",
    "Verif.Mog.C45_ellipse"
   ],
   "note": ""
  },
  {
   "property": "C46",
   "status": "proved",
   "theorems": [
    "Verif.IntImg.C46_rect",
    "Verif.IntImg.C46_rects",
    "Verif.IntImg.C46_integral",
    "Verif.IntImg.C46_empty_refused"
   ],
   "note": "Rectangles with x0 < x1, y0 < y1 are sums; empty ones are refused by the assertions (C46_empty_refused)."
  },
  {
   "property": "C47",
   "status": "proved",
   "theorems": [
    "Verif.IntImg.C47_rect",
    "Verif.IntImg.C47_rects",
    "Verif.IntImg.C47_ref",
    "Verif.IntImg.C47_empty_differs"
   ],
   "note": "Non-empty rectangles; for an empty rectangle the symmetric query returns a number where the plain one fails (C47_empty_differs)."
  },
  {
   "property": "C48",
   "status": "proved",
   "theorems": [
    "Verif.Psf.C48_bijection",
    "Verif.Psf.C48_terms",
    "Verif.Psf.C48_at"
   ],
   "note": ""
  },
  {
   "property": "C49",
   "status": "proved",
   "theorems": [
    "Verif.Psf.C49_pad"
   ],
   "note": ""
  },
  {
   "property": "C50",
   "status": "partial",
   "theorems": [
    "Verif.Psf.C50_exact",
    "Verif.Psf.C50_radius_partial",
    "Verif.Psf.C50_large_radius_false"
   ],
   "note": "Odd stamps (the constructor asserts them). The cut keeps |i|,|j| <= R except that the last row and column of the stamp are always lost (C50_exact, C50_large_radius_false)."
  },
  {
   "property": "C51",
   "status": "proved",
   "theorems": [
    "Verif.Roi.C51_size",
    "Verif.Roi.C51_box",
    "Verif.Roi.C51_given",
    "Verif.Roi.C51_negative_size_false"
   ],
   "note": "Negative half-sizes give non-None empty regions (C51_negative_size_false)."
  },
  {
   "property": "C52",
   "status": "proved",
   "theorems": [
    "Verif.Mog.C52_transform",
    "Verif.Mog.C52_convolve",
    "Verif.Mog.C52_counts"
   ],
   "note": ""
  },
  {
   "property": "C53",
   "status": "partial",
   "theorems": [
    "Verif.Sky.C53_consistent",
    "Verif.Sky.C53_adjacent_partial",
    "Verif.Sky.C53_non_square_false"
   ],
   "note": "Nothing frozen (the code ignores frozenness). Adjacency holds exactly for square grids (C53_adjacent_partial, C53_non_square_false), given that scipy lists coefficients with the x index outermost."
  },
  {
   "property": "C54",
   "status": "partial",
   "theorems": [
    "Verif.Sky.C54_cover_partial",
    "Verif.Sky.C54_mask_none_false"
   ],
   "note": "With a mask; mask=None raises NameError (C54_mask_none_false)."
  },
  {
   "property": "C55",
   "status": "partial",
   "theorems": [
    "Verif.Ceres.C55_residuals",
    "Verif.Ceres.C55_priors",
    "Verif.Ceres.C55_derivs",
    "Verif.Ceres.C55_result",
    "Verif.Ceres.C55_variance",
    "Verif.Ceres.C55_bounds_partial",
    "Verif.Ceres.C55_negative_step_false",
    "Verif.Ceres.C55_no_params_false",
    "Verif.Ceres.C55_dynamic"
   ],
   "note": "Bounds need positive scales (C55_negative_step_false); without free parameters optimize raises TypeError (C55_no_params_false)."
  },
  {
   "property": "C56",
   "status": "proved",
   "theorems": [
    "Verif.Ceres.C56_dice",
    "Verif.Ceres.C56_jacobian"
   ],
   "note": ""
  },
  {
   "property": "C57",
   "status": "partial",
   "theorems": [
    "Verif.Multi.C57_order_partial",
    "Verif.Multi.C57_shipped_false",
    "Verif.Multi.C57_pickled_false",
    "Verif.Multi.C57_no_sources_false",
    "Verif.Multi.C57_model_images_false"
   ],
   "note": "Order proved for a repaired module (names defined, shared memory, no masks); as shipped no call returns: C57_shipped_false, C57_pickled_false, C57_no_sources_false, C57_model_images_false. Process scheduling is not represented."
  },
  {
   "property": "C58",
   "status": "partial",
   "theorems": [
    "Verif.Ceres.C58_indices_partial",
    "Verif.Ceres.C58_chi_partial",
    "Verif.Ceres.C58_frozen_catalog_false"
   ],
   "note": "Catalog thawed; otherwise AssertionError as soon as a source has a thawed parameter (C58_frozen_catalog_false)."
  },
  {
   "property": "C59",
   "status": "partial",
   "theorems": [
    "Verif.Forced.C59_improves_partial",
    "Verif.Forced.C59_start_below_false",
    "Verif.Forced.C59_prior_false",
    "Verif.Forced.C59_sky_step_false",
    "Verif.Forced.C59_images_false",
    "Verif.Forced.C59_one_step",
    "Verif.Forced.C59_round",
    "Verif.Forced.C59_ends",
    "Verif.Forced.C59_endless_false"
   ],
   "note": "Termination for mindlnp > 0 (C59_ends); improvement under the conditions named in C59_improves_partial; false otherwise (C59_start_below_false, C59_prior_false, C59_sky_step_false, C59_images_false, C59_endless_false)."
  },
  {
   "property": "C60",
   "status": "partial",
   "theorems": [
    "Verif.Bright.C60_brightness",
    "Verif.Multi.C60_state_partial",
    "Verif.Multi.C60_settings_false",
    "Verif.Multi.C60_render_false",
    "Verif.Multi.C60_old_state"
   ],
   "note": "All but the settings is restored; C60_settings_false, C60_render_false. Brightnesses: C60_brightness."
  },
  {
   "property": "C61",
   "status": "proved",
   "theorems": [
    "Verif.Patches.C61_getSlices"
   ],
   "note": ""
  },
  {
   "property": "C62",
   "status": "partial",
   "theorems": [
    "Verif.Patches.C62_overlap_partial",
    "Verif.Patches.C62_cancel_false",
    "Verif.Patches.C62_empty_false"
   ],
   "note": "Bbox test exact; product test exact for non-negative pixels (C62_cancel_false, C62_empty_false)."
  },
  {
   "property": "C63",
   "status": "proved",
   "theorems": [
    "Verif.Opt.C63_hit_limit"
   ],
   "note": ""
  },
  {
   "property": "C64",
   "status": "proved",
   "theorems": [
    "Verif.Lsq.C64_scales_only_empty"
   ],
   "note": ""
  },
  {
   "property": "C65",
   "status": "partial",
   "theorems": [
    "Verif.Lsq.C65_variance_partial",
    "Verif.Lsq.C65_shared_false"
   ],
   "note": "Exact without shared parameters; C65_shared_false with them."
  },
  {
   "property": "C66",
   "status": "partial",
   "theorems": [
    "Verif.Coords.C66_jacobian_partial",
    "Verif.Coords.C66_derivative",
    "Verif.Coords.C66_null_iff",
    "Verif.Coords.C66_null_false",
    "Verif.Coords.C66_wrappers_missing"
   ],
   "note": "Exact for affine projections without the cos(dec) factor; NullWCS is right only for pixscale 3600 (C66_null_iff); wrappers lack the method."
  },
  {
   "property": "C67",
   "status": "partial",
   "theorems": [
    "Verif.Coords.C67_positions",
    "Verif.Coords.C67_compose",
    "Verif.Coords.C67_cd_partial",
    "Verif.Coords.C67_cd_false"
   ],
   "note": "Positions exact; CD matrix right only if it does not depend on y (C67_cd_false)."
  },
  {
   "property": "C68",
   "status": "partial",
   "theorems": [
    "Verif.Coords.C68_shifted_psf_partial",
    "Verif.Coords.C68_compose",
    "Verif.Coords.C68_mask_false"
   ],
   "note": "With Patch masks or none; a ModelMask raises AttributeError (C68_mask_false)."
  },
  {
   "property": "C69",
   "status": "partial",
   "theorems": [
    "Verif.Params.C69_header_partial",
    "Verif.Params.C69_list",
    "Verif.Params.C69_frozen_false"
   ],
   "note": "Nothing frozen and at most 100 parameters; C69_list says what is read otherwise, C69_frozen_false is a witness."
  },
  {
   "property": "C70",
   "status": "proved",
   "theorems": [
    "Verif.Psf.C70_shifted",
    "Verif.Psf.C70_twice",
    "Verif.Psf.C70_fwhm_false"
   ],
   "note": "Positions and composition proved; the lost fwhm attribute is C70_fwhm_false."
  },
  {
   "property": "C71",
   "status": "proved",
   "theorems": [
    "Verif.Psf.C71_unmasked",
    "Verif.Psf.C71_masked",
    "Verif.Psf.C71_agree"
   ],
   "note": ""
  },
  {
   "property": "C72",
   "status": "partial",
   "theorems": [
    "Verif.Psf.C72_derivs_partial",
    "Verif.Psf.C72_derivs_y_partial",
    "Verif.Psf.C72_no_mask_false"
   ],
   "note": "With a mask and a rounding that commutes with +1; without a mask the derivs argument is ignored (C72_no_mask_false)."
  },
  {
   "property": "C73",
   "status": "proved",
   "theorems": [
    "Verif.Sky.C73_succeeds_iff"
   ],
   "note": ""
  },
  {
   "property": "C74",
   "status": "partial",
   "theorems": [
    "Verif.Ceres.C74_zeroed_partial",
    "Verif.Ceres.C74_left_false"
   ],
   "note": "Sources without model, with an empty one, or right of/below every image; sources left of or above keep their flux (C74_left_false)."
  },
  {
   "property": "C75",
   "status": "proved",
   "theorems": [
    "Verif.Ceres.C75_minimiser",
    "Verif.Ceres.C75_start"
   ],
   "note": ""
  },
  {
   "property": "C76",
   "status": "partial",
   "theorems": [
    "Verif.Ceres.C76_jacobian_partial",
    "Verif.Ceres.C76_unwritten_false"
   ],
   "note": "Columns of parameters that occur; the others are not written (C76_unwritten_false)."
  },
  {
   "property": "C77",
   "status": "partial",
   "theorems": [
    "Verif.Ceres.C77_all_images_partial",
    "Verif.Ceres.C77_numeric_first_only_false",
    "Verif.Ceres.C77_numeric_endless_false"
   ],
   "note": "Analytic derivatives; false with numeric=True (C77_numeric_*_false)."
  },
  {
   "property": "C78",
   "status": "proved",
   "theorems": [
    "Verif.Ceres.C78_nonneg"
   ],
   "note": ""
  },
  {
   "property": "C79",
   "status": "partial",
   "theorems": [
    "Verif.Mog.C79_zero_mean_partial",
    "Verif.Mog.C79_ignored_false"
   ],
   "note": "With the C library, or centred mixtures; the Python code ignores zero_mean (C79_ignored_false). exp is a homomorphism from sums to products."
  },
  {
   "property": "C80",
   "status": "partial",
   "theorems": [
    "Verif.Mog.C80_affine_partial",
    "Verif.Mog.C80_means_false",
    "Verif.Mog.C80_sum"
   ],
   "note": "Centred mixtures; means are not transformed by the matrix (C80_means_false)."
  },
  {
   "property": "C81",
   "status": "partial",
   "theorems": [
    "Verif.Mog.C81_copy_partial",
    "Verif.Mog.C81_scale",
    "Verif.Mog.C81_frozen_copy_false",
    "Verif.Mog.C81_frozen_key_false"
   ],
   "note": "Nothing frozen; false with frozen values (C81_frozen_*_false)."
  },
  {
   "property": "C82",
   "status": "proved",
   "theorems": [
    "Verif.Psf.C82_shift",
    "Verif.Psf.C82_flux",
    "Verif.Psf.C82_in_bounds"
   ],
   "note": ""
  },
  {
   "property": "C83",
   "status": "partial",
   "theorems": [
    "Verif.Psf.C83_inplace_partial",
    "Verif.Psf.C83_inplace_false"
   ],
   "note": "With inplace=True only where the C code runs (C83_inplace_false)."
  },
  {
   "property": "C84",
   "status": "partial",
   "theorems": [
    "Verif.Forced.C84_chi_partial",
    "Verif.Forced.C84_roi_data_false",
    "Verif.Forced.C84_roi_false",
    "Verif.Forced.C84_roi_broadcast_false",
    "Verif.Forced.C84_roi_error_false"
   ],
   "note": "Without region of interest; with one it is false (C84_roi_data_false, C84_roi_false, C84_roi_error_false). Infinite and NaN values not represented."
  },
  {
   "property": "C85",
   "status": "proved",
   "theorems": [
    "Verif.Ell.C85_same_ellipse",
    "Verif.Ell.C85_position_angle",
    "Verif.Ell.C85_east_of_north_false"
   ],
   "note": "Orientation contradicts the docstring (C85_east_of_north_false)."
  },
  {
   "property": "C86",
   "status": "proved",
   "theorems": [
    "Verif.Ell.C86_towards_round",
    "Verif.Ell.C86_step_sizes_false",
    "Verif.Ell.C86_soft_false"
   ],
   "note": "Only for getAllStepSizes; getStepSizes and the soft form are covered by the negations C86_step_sizes_false, C86_soft_false."
  },
  {
   "property": "C87",
   "status": "proved",
   "theorems": [
    "Verif.Bright.C87_init",
    "Verif.Bright.C87_set",
    "Verif.Bright.C87_others",
    "Verif.Bright.C87_missing",
    "Verif.Bright.C87_missing_false",
    "Verif.Bright.C87_copy",
    "Verif.Bright.C87_copy_frozen_false"
   ],
   "note": "Missing bands and frozen flags: C87_missing_false, C87_copy_frozen_false. Band names assumed distinct from other attributes of the class."
  },
  {
   "property": "C88",
   "status": "proved",
   "theorems": [
    "Verif.Bright.C88_mags_add",
    "Verif.Bright.C88_add_missing",
    "Verif.Bright.C88_mags_mul",
    "Verif.Bright.C88_mags_offset",
    "Verif.Bright.C88_fluxes",
    "Verif.Bright.C88_counts_add",
    "Verif.Bright.C88_cutoff_false",
    "Verif.Bright.C88_linear_mags",
    "Verif.Bright.C88_magzp",
    "Verif.Bright.C88_nmgy_negative_false",
    "Verif.Bright.C88_attribute"
   ],
   "note": "Cut-off at magnitude 50: C88_cutoff_false; negative fluxes: C88_nmgy_negative_false."
  },
  {
   "property": "C89",
   "status": "proved",
   "theorems": [
    "Verif.Bright.C89_errors",
    "Verif.Bright.C89_arrays"
   ],
   "note": "Finite inputs; conversion to 32-bit floats not represented."
  },
  {
   "property": "C90",
   "status": "partial",
   "theorems": [
    "Verif.Multi.C90_render_partial",
    "Verif.Multi.C90_minsb_false",
    "Verif.Multi.C90_chi_false",
    "Verif.Multi.C90_derivs_false",
    "Verif.Multi.C90_derivs_partial"
   ],
   "note": "Model and chi images get every setting but minsb; negations C90_minsb_false, C90_chi_false, C90_derivs_false."
  },
  {
   "property": "C91",
   "status": "partial",
   "theorems": [
    "Verif.Lsq.C91_minimises_partial",
    "Verif.Lsq.C91_two_boxes_false",
    "Verif.Lsq.C91_no_overlap_false",
    "Verif.Lsq.C91_left_false"
   ],
   "note": "For derivatives that all cover the same box of an image; negations C91_two_boxes_false, C91_no_overlap_false, C91_left_false."
  },
  {
   "property": "C92",
   "status": "partial",
   "theorems": [
    "Verif.Lsq.C92_covariance_partial",
    "Verif.Lsq.C92_unscaled_false"
   ],
   "note": "With column scaling and one box per image; C92_unscaled_false: zero without scaling."
  },
  {
   "property": "C93",
   "status": "partial",
   "theorems": [
    "Verif.Forced.C93_information_partial",
    "Verif.Forced.C93_curvature_partial",
    "Verif.Forced.C93_sky_false"
   ],
   "note": "For the flux parameters; C93_sky_false: ValueError whenever sky variances are asked for."
  },
  {
   "property": "C94",
   "status": "partial",
   "theorems": [
    "Verif.Forced.C94_fitstats_partial",
    "Verif.Forced.C94_frozen_false",
    "Verif.Forced.C94_edge_false",
    "Verif.Forced.C94_masked_false",
    "Verif.Forced.C94_sky_false"
   ],
   "note": "For catalogs with the thawed sources first, skies with a val and models that do not begin outside the image; negations C94_frozen_false, C94_edge_false, C94_masked_false, C94_sky_false."
  },
  {
   "property": "C95",
   "status": "partial",
   "theorems": [
    "Verif.Gal.C95_masked_partial",
    "Verif.Gal.C95_subpixel",
    "Verif.Gal.C95_independent",
    "Verif.Gal.C95_outside",
    "Verif.Gal.C95_outside_false",
    "Verif.Gal.C95_subpixel_false"
   ],
   "note": "For masks containing the centre where the C library interpolates; C95_subpixel gives the remaining sizes, C95_outside the other centres; negations C95_outside_false, C95_subpixel_false."
  },
  {
   "property": "C96",
   "status": "partial",
   "theorems": [
    "Verif.Gal.C96_free_partial",
    "Verif.Gal.C96_gauss",
    "Verif.Gal.C96_hogg",
    "Verif.Gal.C96_offimage_false"
   ],
   "note": "Pixelized PSF: for centres at most the half size beyond the image and half sizes in (4, 2048]; negation C96_offimage_false."
  },
  {
   "property": "C97",
   "status": "proved",
   "theorems": [
    "Verif.Gal.C97_split",
    "Verif.Gal.C97_total",
    "Verif.Gal.C97_hybrid",
    "Verif.Gal.C97_order_false"
   ],
   "note": "Negation for equal or reversed thresholds: C97_order_false."
  },
  {
   "property": "C98",
   "status": "partial",
   "theorems": [
    "Verif.Approx.C98_grid",
    "Verif.Approx.C98_slice_partial",
    "Verif.Approx.C98_near",
    "Verif.Approx.C98_falling",
    "Verif.Approx.C98_slice_false",
    "Verif.Approx.C98_margin",
    "Verif.Approx.C98_outside",
    "Verif.Approx.C98_dark",
    "Verif.Approx.C98_dark_false"
   ],
   "note": "Slicing: exact extent proved, negation of the documented bounding box in C98_slice_false; out-of-bounds start in C98_dark_false."
  },
  {
   "property": "C99",
   "status": "proved",
   "theorems": [
    "Verif.Gauss.C99_evaluate",
    "Verif.Gauss.C99_grid",
    "Verif.Gauss.C99_numpy",
    "Verif.Gauss.C99_all",
    "Verif.Gauss.C99_masked",
    "Verif.Gauss.C99_minval",
    "Verif.Gauss.C99_nomin",
    "Verif.Gauss.C99_derivs"
   ],
   "note": "Over the real numbers: rounding and single precision are not modelled."
  },
  {
   "property": "C100",
   "status": "proved",
   "theorems": [
    "Verif.Gauss.C100_transform",
    "Verif.Gauss.C100_total"
   ],
   "note": "Over the complex numbers, iterated integrals."
  },
  {
   "property": "C101",
   "status": "proved",
   "theorems": [
    "Verif.Gauss.C101_convolve",
    "Verif.Gauss.C101_proper",
    "Verif.Gauss.C101_comm"
   ],
   "note": ""
  },
  {
   "property": "C102",
   "status": "partial",
   "theorems": [
    "Verif.Tile.C102_subimage_partial",
    "Verif.Tile.C102_edge_false",
    "Verif.Tile.C102_rounding_false",
    "Verif.Tile.C102_bounds_false",
    "Verif.Tile.C102_varying_false"
   ],
   "note": "Partial: point sources; pixelized, PsfEx and constant mixture PSFs, FITS WCS, modelMinval 0, bounds inside the image; false (C102_edge_false, C102_rounding_false, C102_bounds_false, C102_varying_false) for sources in narrow strips outside the tile, half-integer positions with odd offsets, negative bounds, NullWCS, varying mixtures."
  },
  {
   "property": "C103",
   "status": "partial",
   "theorems": [
    "Verif.Tile.C103_tiles_partial"
   ],
   "note": "Partial: under the conditions of C102; where C102 fails chi-squared does not add up either."
  },
  {
   "property": "C104",
   "status": "proved",
   "theorems": [
    "Verif.Em.C104_step",
    "Verif.Em.C104_ascent",
    "Verif.Em.C104_strong",
    "Verif.Em.C104_plain"
   ],
   "note": "Over the reals; images without negative pixels (fromStamp sets them to zero first)."
  },
  {
   "property": "C105",
   "status": "partial",
   "theorems": [
    "Verif.Em.C105_fit",
    "Verif.Em.C105_stamp_partial",
    "Verif.Em.C105_unit_false",
    "Verif.Em.C105_collapse_false",
    "Verif.Em.C105_nan_false"
   ],
   "note": "Partial: the flux of a PSF is 1 only for stamps without negative pixels (C105_unit_false) whose light is all within ten standard deviations of the components; negations C105_collapse_false (alpha = 0, light on a line) and C105_nan_false (component ten sigma from all light)."
  },
  {
   "property": "C106",
   "status": "proved",
   "theorems": [
    "Verif.Em.C106_step",
    "Verif.Em.C106_fit",
    "Verif.Em.C106_ascent",
    "Verif.Em.C106_negative_false"
   ],
   "note": "Over the reals; images of positive sum; approx > 0; negation C106_negative_false for images with negative pixels, whose absolute values are added to the sky."
  },
  {
   "property": "C107",
   "status": "proved",
   "theorems": [
    "Verif.Gpu.C107_layout",
    "Verif.Gpu.C107_six",
    "Verif.Gpu.C107_recache_false",
    "Verif.Gpu.C107_outside_false"
   ],
   "note": "Images with a mask inside them; negations C107_recache_false and C107_outside_false. Rounding in single precision is not modelled."
  },
  {
   "property": "C108",
   "status": "partial",
   "theorems": [
    "Verif.Gpu.C108_interpolation",
    "Verif.Gpu.C108_models",
    "Verif.Gpu.C108_cached_partial",
    "Verif.Gpu.C108_cpu",
    "Verif.Gpu.C108_moved_false"
   ],
   "note": "Point sources. Partial: with cached arrays for moves of up to three pixels (six if the arrays are as large as the PSF); negation C108_moved_false beyond."
  },
  {
   "property": "C109",
   "status": "partial",
   "theorems": [
    "Verif.Gpu.C109_search_partial",
    "Verif.Gpu.C109_cpu_partial",
    "Verif.Gpu.C109_cached_partial",
    "Verif.Gpu.C109_background",
    "Verif.Gpu.C109_far",
    "Verif.Gpu.C109_limit_false",
    "Verif.Gpu.C109_prior_false",
    "Verif.Gpu.C109_far_false"
   ],
   "note": "Point sources and constant surface brightness; finite starting prior. Partial: steps that move the source by up to three pixels (six if the arrays are as large as the PSF); negations C109_far_false, C109_limit_false, C109_prior_false. Plots are not modelled."
  },
  {
   "property": "C110",
   "status": "proved",
   "theorems": [
    "Verif.Gpu.C110_profiles",
    "Verif.Gpu.C110_batch",
    "Verif.Gpu.C110_cpu",
    "Verif.Gpu.C110_dark",
    "Verif.Gpu.C110_search"
   ],
   "note": "irfft2(F * P) is any linear map of F. Covariances of profiles are semidefinite, those of the PSF mixtures have determinants of at least 1e-30 (the floor in the code); PSF means are zero (asserted in get_vectorized_psfs). The line search is that without cached arrays."
  },
  {
   "property": "C111",
   "status": "partial",
   "theorems": [
    "Verif.Gpu.C111_star_partial",
    "Verif.Gpu.C111_cached_partial",
    "Verif.Gpu.C111_galaxy_partial",
    "Verif.Gpu.C111_glow_partial",
    "Verif.Gpu.C111_flux_partial",
    "Verif.Gpu.C111_unseen_false",
    "Verif.Gpu.C111_band_false",
    "Verif.Gpu.C111_matrix_false",
    "Verif.Gpu.C111_calibration_false"
   ],
   "note": "Partial: calibration factor 1, images in bands of the source, priors on bands with images, one prior row per column (as getLogPriorDerivatives gives, C14), all fluxes and shape parameters thawed; cached arrays for point sources only for small or very large moves. What happens otherwise is proved in the theorems that end in _false."
  },
  {
   "property": "C112",
   "status": "partial",
   "theorems": [
    "Verif.Sky.C112_offset",
    "Verif.Sky.C112_scale",
    "Verif.Sky.C112_between",
    "Verif.Sky.C112_param",
    "Verif.Sky.C112_copy",
    "Verif.Sky.C112_table_partial",
    "Verif.Sky.C112_again",
    "Verif.Sky.C112_copy_prior_false",
    "Verif.Sky.C112_table_false"
   ],
   "note": "Tables only for whole grid points (C112_table_false) and values that fit single precision; the copy loses the smoothness prior (C112_copy_prior_false). scipy's fit is a parameter: unique interpolation is assumed of it (shown for degree 1, two by two points)."
  },
  {
   "property": "C113",
   "status": "partial",
   "theorems": [
    "Verif.Gal.C113_profile",
    "Verif.Gal.C113_shape",
    "Verif.Gal.C113_forced",
    "Verif.Gal.C113_minsb_false",
    "Verif.Gal.C113_same",
    "Verif.Gal.C113_region",
    "Verif.Gal.C113_soft",
    "Verif.Gal.C113_deriv_partial",
    "Verif.Gal.C113_clip_false"
   ],
   "note": "Derivative for a FracDev outside (0, 1) false (C113_clip_false); composite models ignore minsb=0 (C113_minsb_false), so the sum holds for renderers that do not use the limit."
  },
  {
   "property": "C114",
   "status": "partial",
   "theorems": [
    "Verif.Gal.Sersic.C114_profile",
    "Verif.Gal.Sersic.C114_clamp",
    "Verif.Gal.Sersic.C114_continuous_partial",
    "Verif.Gal.Sersic.C114_table",
    "Verif.Gal.Sersic.C114_jump_false"
   ],
   "note": "Continuity holds at every index but 0.51 and 0.57, where it is false (C114_jump_false)."
  },
  {
   "property": "C115",
   "status": "partial",
   "theorems": [
    "Verif.Src.C115_derivs_partial",
    "Verif.Src.C115_restored",
    "Verif.Src.C115_none_false",
    "Verif.Src.C115_vanish_false",
    "Verif.Src.C115_limit_false",
    "Verif.Src.C115_copy_partial",
    "Verif.Src.C115_copy_false",
    "Verif.Src.C115_index",
    "Verif.Src.C115_profiles"
   ],
   "note": "False when the galaxy does not render (C115_none_false), when the stepped one does not (C115_vanish_false), and without mask when modelMinval cuts the patch (C115_limit_false); copies lose frozen flags (C115_copy_false)."
  },
  {
   "property": "C116",
   "status": "partial",
   "theorems": [
    "Verif.Src.C116_position",
    "Verif.Src.C116_uniform",
    "Verif.Src.C116_displacement",
    "Verif.Src.C116_yearly",
    "Verif.Src.C116_derivs_partial",
    "Verif.Src.C116_restored",
    "Verif.Src.C116_none_false",
    "Verif.Src.C116_no_time",
    "Verif.Src.C116_copy_false",
    "Verif.Src.C116_years",
    "Verif.Src.C116_prior_false"
   ],
   "note": "False when nothing is rendered at one of the positions (C116_none_false) and of copies (C116_copy_false); the log-prior of ParallaxWithPrior is +inf at zero (C116_prior_false)."
  },
  {
   "property": "C117",
   "status": "partial",
   "theorems": [
    "Verif.Psf.C117_grid",
    "Verif.Psf.C117_size",
    "Verif.Psf.C117_radius_partial",
    "Verif.Psf.C117_radius_false",
    "Verif.Psf.C117_normalized",
    "Verif.Psf.C117_mask_false",
    "Verif.Psf.C117_flux",
    "Verif.Psf.C117_fourier",
    "Verif.Psf.C117_constant",
    "Verif.Psf.C117_varying_ignored",
    "Verif.Psf.C117_varying_false",
    "Verif.Psf.C117_history",
    "Verif.Psf.C117_sign_false"
   ],
   "note": "False of radii (C117_radius_false), of masks with normalised PSFs (C117_mask_false), of transforms of oversampled varying PSFs (C117_varying_false) and of images with negative sum (C117_sign_false)."
  },
  {
   "property": "C118",
   "status": "partial",
   "theorems": [
    "Verif.Psf.Varying.C118_nodes",
    "Verif.Psf.Varying.C118_history",
    "Verif.Psf.Varying.C118_saved",
    "Verif.Psf.Varying.C118_cached",
    "Verif.Psf.Varying.C118_cell",
    "Verif.Psf.Varying.C118_cell_false",
    "Verif.Psf.Varying.C118_from_partial",
    "Verif.Psf.Varying.C118_from_false"
   ],
   "note": "False for negative positions (C118_cell_false) and for fromPsfEx of a PSF that is not fitted yet (C118_from_false)."
  },
  {
   "property": "C119",
   "status": "partial",
   "theorems": [
    "Verif.Circ.C119_history_partial",
    "Verif.Circ.C119_float_radius_false",
    "Verif.Circ.C119_failed_false",
    "Verif.Circ.C119_value",
    "Verif.Circ.C119_covers",
    "Verif.Circ.C119_source",
    "Verif.Circ.C119_fixed_radius_false",
    "Verif.Circ.C119_normalized_false",
    "Verif.Circ.C119_apply_partial",
    "Verif.Circ.C119_apply_false"
   ],
   "note": "False after a call that raised an exception (C119_failed_false, C119_float_radius_false, C119_fixed_radius_false); weights are not normalised (C119_normalized_false); applyTo ignores frozen values (C119_apply_false)."
  },
  {
   "property": "C120",
   "status": "partial",
   "theorems": [
    "Verif.Img.C120_roundtrip_partial",
    "Verif.Img.C120_readable_partial",
    "Verif.Img.C120_components_false",
    "Verif.Img.C120_null_wcs_false",
    "Verif.Img.C120_frozen_false",
    "Verif.Img.C120_header_reused_false",
    "Verif.Img.C120_incomplete_false",
    "Verif.Img.C120_copy_partial",
    "Verif.Img.C120_copy_false"
   ],
   "note": "Proved for plain images (C120_roundtrip_partial, C120_copy_partial). False for most calibration classes (C120_readable_partial), NullWCS with an offset (C120_null_wcs_false, C120_copy_false), frozen PSF parameters (C120_frozen_false, C120_components_false), reused headers (C120_header_reused_false)."
  },
  {
   "property": "C121",
   "status": "partial",
   "theorems": [
    "Verif.Wise.C121_nearest_partial",
    "Verif.Wise.C121_order_partial",
    "Verif.Wise.C121_whole",
    "Verif.Wise.C121_blocked_false",
    "Verif.Wise.C121_composite_false",
    "Verif.Wise.C121_stale_false"
   ],
   "note": "Proved for sources with one flux and tiles in which a source inside is nearer than one in the margin, which holds for whole tiles (C121_whole). False for regions (C121_blocked_false), composite galaxies (C121_composite_false) and statistics (C121_stale_false)."
  },
  {
   "property": "C122",
   "status": "partial",
   "theorems": [
    "Verif.Sfd.C122_interp_partial",
    "Verif.Sfd.C122_linear",
    "Verif.Sfd.C122_edge_false",
    "Verif.Sfd.C122_each",
    "Verif.Sfd.C122_hemisphere",
    "Verif.Sfd.C122_extinction",
    "Verif.Sfd.C122_unknown",
    "Verif.Sfd.C122_raises"
   ],
   "note": "Interpolation proved from the centres of the first pixels to the outer edges of the last; false nearer than half a pixel to the left or lower edge (C122_edge_false)."
  },
  {
   "property": "C123",
   "status": "partial",
   "theorems": [
    "Verif.Hashed.C123_key_partial",
    "Verif.Hashed.C123_cached_partial",
    "Verif.Hashed.C123_collision_partial",
    "Verif.Hashed.C123_hash_false",
    "Verif.Hashed.C123_bands_false",
    "Verif.Hashed.C123_photocal_false",
    "Verif.Hashed.C123_pixscale_false",
    "Verif.Hashed.C123_tan_false",
    "Verif.Hashed.C123_psf_false",
    "Verif.Hashed.C123_psfex_false",
    "Verif.Hashed.C123_wrapper_false",
    "Verif.Hashed.C123_attributes_false"
   ],
   "note": "Proved for objects that keep to stated conventions (one set of bands per class, one pixel scale, WCS content fixed, square unsampled PSFs, unshifted PsfEx files) and hashes without collisions; false without them (nine negations)."
  },
  {
   "property": "C124",
   "status": "partial",
   "theorems": [
    "Verif.Coords.C124_python3_false",
    "Verif.Coords.C124_history",
    "Verif.Coords.C124_raises",
    "Verif.Coords.C124_round",
    "Verif.Coords.C124_matrix_partial",
    "Verif.Coords.C124_matrix_false",
    "Verif.Coords.C124_copy_partial",
    "Verif.Coords.C124_copy_false",
    "Verif.Coords.C124_bounds_false",
    "Verif.Coords.C124_names"
   ],
   "note": "Conversions, parameters and errors proved for all histories where the Python 2 name exists; matrix and pixel scale only with the matrix frozen; copies lose flags; no bounds; in Python 3 the constructor raises (four negations)."
  },
  {
   "property": "C125",
   "status": "partial",
   "theorems": [
    "Verif.Src.C125_dev",
    "Verif.Src.C125_sersic_partial",
    "Verif.Src.C125_sersic_false",
    "Verif.Src.C125_forced",
    "Verif.Src.C125_limit_partial",
    "Verif.Src.C125_kwargs_false",
    "Verif.Src.C125_limit_false"
   ],
   "note": "Derivatives for all flags, de Vaucouleurs completely, Sersic where its part returns one entry per parameter; sums and limits proved; three negations."
  },
  {
   "property": "C126",
   "status": "partial",
   "theorems": [
    "Verif.Bin.C126_python3_false",
    "Verif.Bin.C126_mean_partial",
    "Verif.Bin.C126_chi_partial",
    "Verif.Bin.C126_centre",
    "Verif.Bin.C126_intensity"
   ],
   "note": "Pixels and chi-squared as under Python 2 (integer division), positions and intensities; under Python 3 every call fails."
  },
  {
   "property": "C127",
   "status": "proved",
   "theorems": [
    "Verif.Atlas.C127_complete",
    "Verif.Atlas.C127_tan",
    "Verif.Atlas.C127_rows"
   ],
   "note": "Completeness on the sphere for all targets; rows returned with and without polygons."
  },
  {
   "property": "C128",
   "status": "partial",
   "theorems": [
    "Verif.Params.C128_table_partial",
    "Verif.Params.C128_thawed_partial",
    "Verif.Params.C128_unnamed_false",
    "Verif.Params.C128_parent_false",
    "Verif.Params.C128_missing_false",
    "Verif.Params.C128_index_partial",
    "Verif.Params.C128_index_false",
    "Verif.Params.C128_split"
   ],
   "note": "The table for all trees without None parts, names for named values, index for lists; four negations."
  },
  {
   "property": "C129",
   "status": "partial",
   "theorems": [
    "Verif.Sdss.C129_rows",
    "Verif.Sdss.C129_align",
    "Verif.Sdss.C129_shape",
    "Verif.Sdss.C129_bands",
    "Verif.Sdss.C129_flux",
    "Verif.Sdss.C129_mags",
    "Verif.Sdss.C129_extra_partial",
    "Verif.Sdss.C129_extra_false"
   ],
   "note": "Everything but the start values of the extra bands, for which the documented value is refuted and the actual one proved."
  },
  {
   "property": "C130",
   "status": "partial",
   "theorems": [
    "Verif.Sext.C130_rows_partial",
    "Verif.Sext.C130_nan_false",
    "Verif.Sext.C130_first_false"
   ],
   "note": "All tables without NaN magnitudes of disks and spheroids; negations for those."
  },
  {
   "property": "C131",
   "status": "partial",
   "theorems": [
    "Verif.Sdss.C131_roundtrip",
    "Verif.Sdss.C131_part",
    "Verif.Sdss.C131_params",
    "Verif.Sdss.C131_inverse",
    "Verif.Sdss.C131_matrix_partial",
    "Verif.Sdss.C131_constant_false",
    "Verif.Sdss.C131_bounds_false",
    "Verif.Sdss.C131_steps",
    "Verif.Sdss.C131_steps_false",
    "Verif.Sdss.C131_all_steps_false",
    "Verif.Sdss.C131_copy_false"
   ],
   "note": "Positions, parts, parameters, inverses; matrix until setConstantCd; five negations."
  },
  {
   "property": "C132",
   "status": "partial",
   "theorems": [
    "Verif.Cfht.C132_agree",
    "Verif.Cfht.C132_header",
    "Verif.Cfht.C132_order",
    "Verif.Cfht.C132_param",
    "Verif.Cfht.C132_copy_partial",
    "Verif.Cfht.C132_copy_false",
    "Verif.Cfht.C132_step_false",
    "Verif.Cfht.C132_key_partial",
    "Verif.Cfht.C132_key_false",
    "Verif.Cfht.C132_sdss",
    "Verif.Cfht.C132_import_false"
   ],
   "note": "Both calibrations agree and follow the header; order; parameter; copies; four negations."
  },
  {
   "property": "C133",
   "status": "partial",
   "theorems": [
    "Verif.Odict.C133_refines",
    "Verif.Odict.C133_copy",
    "Verif.Odict.C133_eq",
    "Verif.Odict.C133_fromkeys",
    "Verif.Odict.C133_loop_partial",
    "Verif.Odict.C133_cache",
    "Verif.Odict.C133_loop_false"
   ],
   "note": "Refinement for all sequences of operations; copies, equality, fromkeys; loops that remove the keys they are given; the cache on top; loops that remove other keys can be given a removed key (negation)."
  },
  {
   "property": "C134",
   "status": "partial",
   "theorems": [
    "Verif.Em1.C134_step",
    "Verif.Em1.C134_ascent_partial",
    "Verif.Em1.C134_strong",
    "Verif.Em1.C134_amplitudes",
    "Verif.Em1.C134_moments",
    "Verif.Em1.C134_range",
    "Verif.Em1.C134_single",
    "Verif.Em1.C134_equal",
    "Verif.Em1.C134_args",
    "Verif.Em1.C134_far_false",
    "Verif.Em1.C134_collapse_false"
   ],
   "note": "Ascent per step with the cut at ten standard deviations; whole fits while no sample is cut, always so with strong regularisation; moments, ranges, one component, equal components, arguments; 0 is returned although nothing is a number for components out of reach and for collapsed ones (negations)."
  },
  {
   "property": "C135",
   "status": "partial",
   "theorems": [
    "Verif.Linmod.C135_model_partial",
    "Verif.Linmod.C135_start_partial",
    "Verif.Linmod.C135_affine",
    "Verif.Linmod.C135_start_false",
    "Verif.Linmod.C135_band_false",
    "Verif.Linmod.C135_mask_false",
    "Verif.Linmod.C135_align_false",
    "Verif.Linmod.C135_composite_false"
   ],
   "note": "Equality of the fitted model with the model image and independence of the start when each part has one thawed flux of the band of the image, masks are there if expected and models are not cut; affine without these; one negation for each condition."
  },
  {
   "property": "C136",
   "status": "partial",
   "theorems": [
    "Verif.Sbright.C136_weights",
    "Verif.Sbright.C136_blend_partial",
    "Verif.Sbright.C136_args",
    "Verif.Sbright.C136_image_false",
    "Verif.Sbright.C136_equal_false",
    "Verif.Sbright.C136_unit_false",
    "Verif.Sbright.C136_bright",
    "Verif.Sbright.C136_tail_partial",
    "Verif.Sbright.C136_tail_false"
   ],
   "note": "Weights, blend and flux for images that have getMedianPixelNoise (none has: negation), radius and total of the bright patch, cut-off below a thousandth of the noise if the profile adds to at least one (negation otherwise); equal thresholds and unit-flux models (negations)."
  },
  {
   "property": "C137",
   "status": "partial",
   "theorems": [
    "Verif.Fpfit.C137_likelihood_partial",
    "Verif.Fpfit.C137_best_partial",
    "Verif.Fpfit.C137_start_false"
   ],
   "note": "Likelihood never lower, and highest for a least-squares direction without minimum flux, for all images and catalogs under the conditions of C135 and C59; sources beginning without flux: negation."
  },
  {
   "property": "C138",
   "status": "partial",
   "theorems": [
    "Verif.Fpfit.C138_best_partial",
    "Verif.Fpfit.C138_shared_false"
   ],
   "note": "Most likely fluxes and sky levels after one round with an exact solver, for all images and catalogs under the conditions of C135; last parameter without effect and shared_params=True: negation. Damping, priors and shared parameters not covered."
  },
  {
   "property": "C139",
   "status": "proved",
   "theorems": [
    "Verif.Read.C139_image",
    "Verif.Read.C139_centre"
   ],
   "note": "Image, weights, exposure counts, positions and the region asked for; PSF, photometric calibration, sky and names are left out."
  },
  {
   "property": "C140",
   "status": "partial",
   "theorems": [
    "Verif.Read.C140_image_partial",
    "Verif.Read.C140_whole_false",
    "Verif.Read.C140_centre_partial",
    "Verif.Read.C140_centre_false"
   ],
   "note": "Everything but the centring is proved when a region is given; the centring is off by half a pixel (negation), bounded by one pixel; invvarAtCenterImage without a region: negation."
  },
  {
   "property": "C141",
   "status": "partial",
   "theorems": [
    "Verif.Prof.C141_total",
    "Verif.Prof.C141_light",
    "Verif.Prof.C141_half_partial",
    "Verif.Prof.C141_half_false",
    "Verif.Prof.C141_extent",
    "Verif.Prof.C141_psf",
    "Verif.Prof.C141_core_false"
   ],
   "note": "Light within any number of effective radii for all shapes in closed form; half light to 1% (exp) and 4% (dev), not exactly and not for GaussianGalaxy (negation)."
  },
  {
   "property": "C142",
   "status": "proved",
   "theorems": [
    "Verif.Prof.C142_exp",
    "Verif.Prof.C142_dev"
   ],
   "note": "Real arithmetic."
  },
  {
   "property": "C143",
   "status": "partial",
   "theorems": [
    "Verif.Fit.C143_best_partial",
    "Verif.Fit.C143_any_start",
    "Verif.Fit.C143_loop_partial",
    "Verif.Fit.C143_no_effect_false",
    "Verif.Fit.C143_no_rounds_false",
    "Verif.Fit.C143_none_false"
   ],
   "note": "Not covered: damping, parameters shared between objects, limits on parameters (isLegal), calibrations of images that report None, elements dropped as tiny with scale_columns, rounding; false with shared_params if the last parameter has no effect (negation proved)."
  },
  {
   "property": "C144",
   "status": "proved",
   "theorems": [
    "Verif.Cons.C144_segment",
    "Verif.Cons.C144_best",
    "Verif.Cons.C144_loop",
    "Verif.Cons.C144_default_false",
    "Verif.Cons.C144_at_bound",
    "Verif.Cons.C144_allowed_maximum_false",
    "Verif.Cons.C144_no_rounds_false"
   ],
   "note": "Not covered: damping, shared parameters, alphas that do not contain 1 or are smaller than tiny, elements dropped as tiny with scale_columns, rounding; the constrained maximum itself is not reached in general (negation proved)."
  },
  {
   "property": "C145",
   "status": "proved",
   "theorems": [
    "Verif.Pfile.C145_read",
    "Verif.Pfile.C145_constant",
    "Verif.Pfile.C145_row",
    "Verif.Pfile.C145_roundtrip",
    "Verif.Pfile.C145_shifted",
    "Verif.Pfile.C145_copy_false",
    "Verif.Pfile.C145_window_false"
   ],
   "note": "fitsio and fits_table are taken to return what was written, float32 conversion to be idempotent; degrees that are not integers and negative degrees are not covered for at(x, y)."
  },
  {
   "property": "C146",
   "status": "proved",
   "theorems": [
    "Verif.Pfile.C146_plain",
    "Verif.Pfile.C146_merged",
    "Verif.Pfile.C146_names",
    "Verif.Pfile.C146_merge_limit_false",
    "Verif.Pfile.C146_read_false"
   ],
   "note": "The rest of fromFits after the line that always raises is not modelled; names of classes with 10 or more components enter only as a list of distinct names."
  },
  {
   "property": "C147",
   "status": "proved",
   "theorems": [
    "Verif.Wcat.C147_box",
    "Verif.Wcat.C147_wrap_false",
    "Verif.Wcat.C147_field",
    "Verif.Wcat.C147_sky"
   ],
   "note": "Files are taken to hold the parts they are named for, in the same order in both files; columns (cols) are part of what a row is."
  },
  {
   "property": "C148",
   "status": "proved",
   "theorems": [
    "Verif.Fpfit.C148_unbiased",
    "Verif.Fpfit.C148_exact",
    "Verif.Fpfit.C148_min_flux_false"
   ],
   "note": "Exact recovery and zero bias for all images and catalogs that satisfy the conditions in the statement; minimum flux: negation."
  },
  {
   "property": "C149",
   "status": "proved",
   "theorems": [
    "Verif.Fpfit.C149_scatter",
    "Verif.Fpfit.C149_blend_false"
   ],
   "note": "Mean squared error times reported inverse variance: at least one for all fits that satisfy the conditions, one for isolated sources; blended sources: negation. With skyvariance=True there is no IV (C93_sky_false)."
  },
  {
   "property": "C150",
   "status": "proved",
   "theorems": [
    "Verif.Fpfit.C150_apart",
    "Verif.Fpfit.C150_frozen",
    "Verif.Fpfit.C150_sky_false"
   ],
   "note": "Fitted along, frozen or absent: the same fluxes for the group, for all fits that satisfy the conditions; with the sky fitted: negation."
  },
  {
   "property": "C151",
   "status": "proved",
   "theorems": [
    "Verif.Fpfit.C151_images",
    "Verif.Fpfit.C151_units",
    "Verif.Fpfit.C151_sources"
   ],
   "note": "Permuted images and sources, images without information, units: the same fluxes for all fits that satisfy the conditions."
  },
  {
   "property": "C152",
   "status": "proved",
   "theorems": [
    "Verif.Fit.C152_unbiased",
    "Verif.Fit.C152_exact",
    "Verif.Fit.C152_prior_false"
   ],
   "note": "Exact recovery and zero bias for all linear tractors that satisfy the conditions in the statement; other priors: negation."
  },
  {
   "property": "C153",
   "status": "proved",
   "theorems": [
    "Verif.Fit.C153_scatter",
    "Verif.Fit.C153_loop_false",
    "Verif.Fit.C153_blend_false"
   ],
   "note": "Lower bound for all parameters, equality for those that share no pixels; equality in general: negation."
  },
  {
   "property": "C154",
   "status": "proved",
   "theorems": [
    "Verif.Fit.C154_ascent",
    "Verif.Fit.C154_improves",
    "Verif.Fit.C154_fixed",
    "Verif.Fit.C154_difference_false"
   ],
   "note": "Derivatives from differences: negation."
  },
  {
   "property": "C155",
   "status": "proved",
   "theorems": [
    "Verif.Fit.C155_logprob",
    "Verif.Fit.C155_best",
    "Verif.Fit.C155_unique",
    "Verif.Fit.C155_optimize"
   ],
   "note": ""
  },
  {
   "property": "C156",
   "status": "proved",
   "theorems": [
    "Verif.Fit.C156_logprob",
    "Verif.Fit.C156_optimize",
    "Verif.Fit.C156_loop",
    "Verif.Fit.C156_variance",
    "Verif.Fit.C156_constrained"
   ],
   "note": "Numbers are finite in the model: a NaN in a masked pixel makes the residual NaN in numpy."
  },
  {
   "property": "C157",
   "status": "proved",
   "theorems": [
    "Verif.Fit.C157_step",
    "Verif.Fit.C157_rate",
    "Verif.Fit.C157_not_reached",
    "Verif.Fit.C157_loop",
    "Verif.Fit.C157_shorter",
    "Verif.Fit.C157_ascent",
    "Verif.Fit.C157_fixed"
   ],
   "note": "Exact arithmetic and an exact damped solver."
  },
  {
   "property": "C158",
   "status": "proved",
   "theorems": [
    "Verif.Fit.C158_logprob",
    "Verif.Fit.C158_best",
    "Verif.Fit.C158_optimize",
    "Verif.Fit.C158_loop",
    "Verif.Fit.C158_variance",
    "Verif.Fit.C158_mean_false"
   ],
   "note": "Exact arithmetic and exact solvers."
  },
  {
   "property": "C159",
   "status": "proved",
   "theorems": [
    "Verif.Fit.C159_logprob",
    "Verif.Fit.C159_optimize",
    "Verif.Fit.C159_loop",
    "Verif.Fit.C159_variance",
    "Verif.Fit.C159_nonlinear_false"
   ],
   "note": "Exact arithmetic and exact solvers; damping and bounds are not covered."
  },
  {
   "property": "C160",
   "status": "proved",
   "theorems": [
    "Verif.Fit.C160_agree",
    "Verif.Fit.C160_either",
    "Verif.Fit.C160_fails",
    "Verif.Fit.C160_variance"
   ],
   "note": "Other exceptions of lsqr are not caught by the code and not modelled."
  },
  {
   "property": "C161",
   "status": "proved",
   "theorems": [
    "Verif.Fit.C161_never_worse",
    "Verif.Fit.C161_turn",
    "Verif.Fit.C161_stationary",
    "Verif.Fit.C161_pass",
    "Verif.Fit.C161_apart",
    "Verif.Fit.C161_blend_false"
   ],
   "note": "Groups are of whole images and sources; single parameters of a source are not frozen by a turn."
  },
  {
   "property": "C162",
   "status": "proved",
   "theorems": [
    "Verif.Fit.C162_rate",
    "Verif.Fit.C162_converges",
    "Verif.Fit.C162_parameters",
    "Verif.Fit.C162_reached_false"
   ],
   "note": "The factor is shown to exist; it is not computed."
  },
  {
   "property": "C163",
   "status": "proved",
   "theorems": [
    "Verif.Coords.C163_jacobian",
    "Verif.Coords.C163_equator",
    "Verif.Coords.C163_derivative",
    "Verif.Coords.C163_step",
    "Verif.Coords.C163_variance"
   ],
   "note": "At the tangent point only; the TAN projection is written down from the FITS standard and stands for astrometry.net's Tan (not in /repo). Variances without priors."
  },
  {
   "property": "C164",
   "status": "proved",
   "theorems": [
    "Verif.Fit.C164_add",
    "Verif.Fit.C164_gaussian",
    "Verif.Fit.C164_same",
    "Verif.Fit.C164_nights",
    "Verif.Fit.C164_overlap_false"
   ],
   "note": "The loop over the nights is the user's; the square root of the variances is assumed exact."
  },
  {
   "property": "C165",
   "status": "proved",
   "theorems": [
    "Verif.Star.C165_star",
    "Verif.Star.C165_mask",
    "Verif.Star.C165_five_sigma",
    "Verif.Star.C165_galaxy",
    "Verif.Star.C165_minval",
    "Verif.Star.C165_guess",
    "Verif.Star.C165_guess_false",
    "Verif.Star.C165_default_false",
    "Verif.Star.C165_means_false"
   ],
   "note": "Real numbers in place of floating point (single precision in evaluate_grid_masked); derivs=False only."
  },
  {
   "property": "C166",
   "status": "proved",
   "theorems": [
    "Verif.Star.C166_masked",
    "Verif.Star.C166_steps",
    "Verif.Star.C166_rectangle"
   ],
   "note": "With a minimum surface brightness and no mask the derivatives come from evaluate_grid_approx3, which is a parameter here: nothing is claimed about that case. That the WCS's matrix is the matrix of derivatives is a hypothesis of (1); C163 shows that it fails for right ascension away from the equator. Patches are represented by what they show in each pixel."
  },
  {
   "property": "C167",
   "status": "proved",
   "theorems": [
    "Verif.Star.C167_mask",
    "Verif.Star.C167_free",
    "Verif.Star.C167_flux",
    "Verif.Star.C167_classes"
   ],
   "note": "The C routines that evaluate the mixture are those of Gauss (C99); that Env's value functions are these routines is a hypothesis and what the wrappers do. The size of the galaxy must not be zero (C165_galaxy has that case). With minval > 0 and no mask (evaluate_grid_approx3) see C98."
  },
  {
   "property": "C168",
   "status": "proved",
   "theorems": [
    "Verif.Star.C168_shape",
    "Verif.Star.C168_position",
    "Verif.Star.C168_mask_false"
   ],
   "note": "Calls without a model mask, for which the code makes a mask from the extent of the patch, are not covered (C41 has what their entries are). Patches are represented by what they show in each pixel, in a world with one mask. That the C routines are those of Gauss (C99) is a hypothesis."
  },
  {
   "property": "C169",
   "status": "proved",
   "theorems": [
    "Verif.Star.C169_mixture",
    "Verif.Star.C169_convolve",
    "Verif.Star.C169_galaxy",
    "Verif.Star.C169_size",
    "Verif.Star.C169_size_ellipse",
    "Verif.Star.C169_classes"
   ],
   "note": "The moments are integrals over the plane of the density which the rendered pixels sample (C99, C167), not sums over the pixels of a patch."
  },
  {
   "property": "C170",
   "status": "proved",
   "theorems": [
    "Verif.Star.C170_image",
    "Verif.Star.C170_masks"
   ],
   "note": "Pixelized PSFs, modelMinval other than 0 without masks, and stars outside the image by more than their radius in a mask (which show nothing) are not covered."
  },
  {
   "property": "C171",
   "status": "proved",
   "theorems": [
    "Verif.Star.C171_chi",
    "Verif.Star.C171_truth",
    "Verif.Star.C171_wrong"
   ],
   "note": "As in C170; in addition every source has a mask in every image. Priors (getLogProb) are not part of the claim."
  },
  {
   "property": "C172",
   "status": "proved",
   "theorems": [
    "Verif.Star.C172_linear",
    "Verif.Star.C172_fixed",
    "Verif.Star.C172_same"
   ],
   "note": "As in C170: Gaussian mixture PSF, exact real arithmetic. An exception in _getAffineProfile would appear as an empty mixture in the model; C113 proves that there is none."
  },
  {
   "property": "C173",
   "status": "proved",
   "theorems": [
    "Verif.Star.C173_free",
    "Verif.Star.C173_masks",
    "Verif.Star.C173_same"
   ],
   "note": "As in C170. Pixels that a source without mask does not reach are outside the claim: the code leaves light there out or not, depending on rounding of the rectangle."
  },
  {
   "property": "C174",
   "status": "proved",
   "theorems": [
    "Verif.Star.C174_pixel",
    "Verif.Star.C174_image",
    "Verif.Star.C174_likelihood"
   ],
   "note": "Over the reals. As in C170; FixedCompositeGalaxy only in a mask, because without one the half sizes of the patches differ. With modelMinval above 0 and no mask the patches are cut by brightness and the claim is not made."
  },
  {
   "property": "C175",
   "status": "proved",
   "theorems": [
    "Verif.GpuPick.C175_friendly",
    "Verif.GpuPick.C175_icov",
    "Verif.GpuPick.C175_fallback",
    "Verif.GpuPick.C175_gpu",
    "Verif.GpuPick.C175_variance",
    "Verif.GpuPick.C175_constrained"
   ],
   "note": "In C175_fallback and C175_gpu the derivatives, the solver and the GPU update are assumed not to change which sources the catalog holds. just_variance is not modelled in optimize_loop."
  },
  {
   "property": "C176",
   "status": "partial",
   "theorems": [
    "Verif.Scal.C176_order",
    "Verif.Scal.C176_nan",
    "Verif.Scal.C176_other",
    "Verif.Scal.C176_extremes_partial",
    "Verif.Scal.C176_max_false",
    "Verif.Scal.C176_index"
   ],
   "note": "The classes of the two operands are taken to be the same or unrelated (Python prefers the method of a strict subclass, which matters only with NaN). C176_extremes_partial is for lists without NaN; for lists with NaN the statement is false (C176_max_false)."
  },
  {
   "property": "C177",
   "status": "proved",
   "theorems": [
    "Verif.Galex.C177_whole",
    "Verif.Galex.C177_empty",
    "Verif.Galex.C177_image",
    "Verif.Galex.C177_scale_false"
   ],
   "note": "Conversions of the WCS are taken to have finite results. The construction of the Image object itself is not part of this model."
  },
  {
   "property": "C178",
   "status": "partial",
   "theorems": [
    "Verif.Wmask.C178_pixels",
    "Verif.Wmask.C178_weights_partial",
    "Verif.Wmask.C178_nan_partial",
    "Verif.Wmask.C178_nan_false",
    "Verif.Wmask.C178_sigma_false",
    "Verif.Wmask.C178_masked"
   ],
   "note": "Overflow of floats is left out. C178_weights_partial is for constantInvvar=False (false otherwise: C178_sigma_false); C178_nan_partial is for finite data (false otherwise: C178_nan_false)."
  },
  {
   "property": "C179",
   "status": "proved",
   "theorems": [
    "Verif.Wgrid.C179_grid",
    "Verif.Wgrid.C179_cache",
    "Verif.Wgrid.C179_again"
   ],
   "note": "Rational arithmetic in place of floats for the grid. The files are taken not to change between calls (C179_cache)."
  },
  {
   "property": "C180",
   "status": "proved",
   "theorems": [
    "Verif.Wcut.C180_slice",
    "Verif.Wcut.C180_no_cut"
   ],
   "note": "Slices with float bounds raise TypeError in numpy since version 1.12. The columns of the corners are parameters."
  },
  {
   "property": "C181",
   "status": "proved",
   "theorems": [
    "Verif.Wroi.C181_whole",
    "Verif.Wroi.C181_roi",
    "Verif.Wroi.C181_radius",
    "Verif.Wroi.C181_sky",
    "Verif.Wroi.C181_wrong_order"
   ],
   "note": "Finite pixel coordinates; a pixel scale of zero is left out."
  },
  {
   "property": "C182",
   "status": "proved",
   "theorems": [
    "Verif.Hyb.C182_write",
    "Verif.Hyb.C182_own",
    "Verif.Hyb.C182_gauss",
    "Verif.Hyb.C182_pix",
    "Verif.Hyb.C182_moved",
    "Verif.Hyb.C182_shared",
    "Verif.Hyb.C182_copy",
    "Verif.Hyb.C182_unfinished"
   ],
   "note": "Names that python gives every object are left out; the Gaussian is a value that is not None."
  }
 ]
}

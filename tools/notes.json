{
"C04": {"note": "Proved for objects with complete bound lists; false for NpArrayParams/MogParams, whose bound lists are empty (C04_array_bounds_false)."},
"C12": {"note": "Values, flags and entries are preserved; bounds/steps/priors are not (C12_copy_bounds_false)."},
"C13": {"note": "False for a second call with a thawed parameter behind a frozen one (C13_second_call_false)."},
"C16": {"note": "False when a parameter of a list is frozen individually: raw indices are reported (C16_raw_index_false)."},
"C17": {"note": "Everything but number - object, which computes object - number (C17_rsub_false)."},
"C20": {"note": "Refinement to an LRU map holds for histories that never overwrite a cached key; overwriting evicts another entry and does not refresh the key."},
"C22": {"note": "Holds while the model mask is unchanged and the cache enabled; see the _false theorems for both."},
"C25": {"note": "Footprint and pixels exact; the return value is True for a patch entirely left of or above the image (C25_true_though_empty_false)."},
"C27": {"note": "Exact except for a single-pixel zero patch (C27_single_zero_false)."},
"C38": {"note": "Detection exact. Equal updates and constrained minimum proved for unscaled columns or equal norms and effective last value; C38_scaled_false and C38_no_effect_false show that both conditions are needed."},
"C40": {"note": "Same objective and minimiser for the dense optimizer when no image repeats within a parameter (C40_repeated_image_false otherwise)."},
"C41": {"note": "All kinds of source except fixed-composite galaxies with frozen brightness and a thawed shape, where the list is too long (C41_frozen_brightness_false); the fraction entry is wrong outside [0,1] (C41_frac_clipped_false)."},
"C42": {"note": "Inverse for every sky WCS under any wrapping; NullWCS false (C42_null_false); ScaledWcs has no pixelToPosition."},
"C43": {"note": "Reals with NaN and infinities; rounding and overflow not represented."},
"C44": {"note": "Over the reals. Round ellipses cannot be softened (C44_round_false); covariances only for SVDs whose left factor is a reflection (C44_from_covariance_false). Overflow and NaN not represented."},
"C46": {"note": "Rectangles with x0 < x1, y0 < y1 are sums; empty ones are refused by the assertions (C46_empty_refused)."},
"C47": {"note": "Non-empty rectangles; for an empty rectangle the symmetric query returns a number where the plain one fails (C47_empty_differs)."},
"C50": {"note": "Odd stamps (the constructor asserts them). The cut keeps |i|,|j| <= R except that the last row and column of the stamp are always lost (C50_exact, C50_large_radius_false)."},
"C51": {"note": "Negative half-sizes give non-None empty regions (C51_negative_size_false)."},
"C53": {"note": "Nothing frozen (the code ignores frozenness). Adjacency holds exactly for square grids (C53_adjacent_partial, C53_non_square_false), given that scipy lists coefficients with the x index outermost."},
"C54": {"note": "With a mask; mask=None raises NameError (C54_mask_none_false)."},
"C55": {"note": "Bounds need positive scales (C55_negative_step_false); without free parameters optimize raises TypeError (C55_no_params_false)."},
"C58": {"note": "Catalog thawed; otherwise AssertionError as soon as a source has a thawed parameter (C58_frozen_catalog_false)."},
"C59": {"note": "Termination for mindlnp > 0 (C59_ends); improvement under the conditions named in C59_improves_partial; false otherwise (C59_start_below_false, C59_prior_false, C59_sky_step_false, C59_images_false, C59_endless_false)."},
"C62": {"note": "Bbox test exact; product test exact for non-negative pixels (C62_cancel_false, C62_empty_false)."},
"C65": {"note": "Exact without shared parameters; C65_shared_false with them."},
"C66": {"note": "Exact for affine projections without the cos(dec) factor; NullWCS is right only for pixscale 3600 (C66_null_iff); wrappers lack the method."},
"C67": {"note": "Positions exact; CD matrix right only if it does not depend on y (C67_cd_false)."},
"C68": {"note": "With Patch masks or none; a ModelMask raises AttributeError (C68_mask_false)."},
"C69": {"note": "Nothing frozen and at most 100 parameters; C69_list says what is read otherwise, C69_frozen_false is a witness."},
"C70": {"note": "Positions and composition proved; the lost fwhm attribute is C70_fwhm_false."},
"C72": {"note": "With a mask and a rounding that commutes with +1; without a mask the derivs argument is ignored (C72_no_mask_false)."},
"C74": {"note": "Sources without model, with an empty one, or right of/below every image; sources left of or above keep their flux (C74_left_false)."},
"C76": {"note": "Columns of parameters that occur; the others are not written (C76_unwritten_false)."},
"C77": {"note": "Analytic derivatives; false with numeric=True (C77_numeric_*_false)."},
"C79": {"note": "With the C library, or centred mixtures; the Python code ignores zero_mean (C79_ignored_false). exp is a homomorphism from sums to products."},
"C80": {"note": "Centred mixtures; means are not transformed by the matrix (C80_means_false)."},
"C81": {"note": "Nothing frozen; false with frozen values (C81_frozen_*_false)."},
"C83": {"note": "With inplace=True only where the C code runs (C83_inplace_false)."},
"C84": {"note": "Without region of interest; with one it is false (C84_roi_data_false, C84_roi_false, C84_roi_error_false). Infinite and NaN values not represented."},
"C85": {"note": "Orientation contradicts the docstring (C85_east_of_north_false)."},
"C86": {"note": "Only for getAllStepSizes; getStepSizes and the soft form are covered by the negations C86_step_sizes_false, C86_soft_false."},
"C87": {"note": "Missing bands and frozen flags: C87_missing_false, C87_copy_frozen_false. Band names assumed distinct from other attributes of the class."},
"C57": {"note": "Order proved for a repaired module (names defined, shared memory, no masks); as shipped no call returns: C57_shipped_false, C57_pickled_false, C57_no_sources_false, C57_model_images_false. Process scheduling is not represented."},
"C60": {"note": "All but the settings is restored; C60_settings_false, C60_render_false. Brightnesses: C60_brightness."},
"C88": {"note": "Cut-off at magnitude 50: C88_cutoff_false; negative fluxes: C88_nmgy_negative_false."},
"C89": {"note": "Finite inputs; conversion to 32-bit floats not represented."},
"C90": {"note": "Model and chi images get every setting but minsb; negations C90_minsb_false, C90_chi_false, C90_derivs_false."},
"C91": {"note": "For derivatives that all cover the same box of an image; negations C91_two_boxes_false, C91_no_overlap_false, C91_left_false."},
"C92": {"note": "With column scaling and one box per image; C92_unscaled_false: zero without scaling."},
"C93": {"note": "For the flux parameters; C93_sky_false: ValueError whenever sky variances are asked for."},
"C94": {"note": "For catalogs with the thawed sources first, skies with a val and models that do not begin outside the image; negations C94_frozen_false, C94_edge_false, C94_masked_false, C94_sky_false."},
"C95": {"note": "For masks containing the centre where the C library interpolates; C95_subpixel gives the remaining sizes, C95_outside the other centres; negations C95_outside_false, C95_subpixel_false."},
"C96": {"note": "Pixelized PSF: for centres at most the half size beyond the image and half sizes in (4, 2048]; negation C96_offimage_false."},
"C97": {"note": "Negation for equal or reversed thresholds: C97_order_false."},
"C98": {"note": "Slicing: exact extent proved, negation of the documented bounding box in C98_slice_false; out-of-bounds start in C98_dark_false."},
"C99": {"note": "Over the real numbers: rounding and single precision are not modelled."},
"C100": {"note": "Over the complex numbers, iterated integrals."},
"C102": {"note": "Partial: point sources; pixelized, PsfEx and constant mixture PSFs, FITS WCS, modelMinval 0, bounds inside the image; false (C102_edge_false, C102_rounding_false, C102_bounds_false, C102_varying_false) for sources in narrow strips outside the tile, half-integer positions with odd offsets, negative bounds, NullWCS, varying mixtures."},
"C103": {"note": "Partial: under the conditions of C102; where C102 fails chi-squared does not add up either."},
"C104": {"note": "Over the reals; images without negative pixels (fromStamp sets them to zero first)."},
"C105": {"note": "Partial: the flux of a PSF is 1 only for stamps without negative pixels (C105_unit_false) whose light is all within ten standard deviations of the components; negations C105_collapse_false (alpha = 0, light on a line) and C105_nan_false (component ten sigma from all light)."},
"C106": {"note": "Over the reals; images of positive sum; approx > 0; negation C106_negative_false for images with negative pixels, whose absolute values are added to the sky."},
"C107": {"note": "Images with a mask inside them; negations C107_recache_false and C107_outside_false. Rounding in single precision is not modelled."},
"C108": {"note": "Point sources. Partial: with cached arrays for moves of up to three pixels (six if the arrays are as large as the PSF); negation C108_moved_false beyond."},
"C109": {"note": "Point sources and constant surface brightness; finite starting prior. Partial: steps that move the source by up to three pixels (six if the arrays are as large as the PSF); negations C109_far_false, C109_limit_false, C109_prior_false. Plots are not modelled."},
"C110": {"note": "irfft2(F * P) is any linear map of F. Covariances of profiles are semidefinite, those of the PSF mixtures have determinants of at least 1e-30 (the floor in the code); PSF means are zero (asserted in get_vectorized_psfs). The line search is that without cached arrays."},
"C111": {"note": "Partial: calibration factor 1, images in bands of the source, priors on bands with images, one prior row per column (as getLogPriorDerivatives gives, C14), all fluxes and shape parameters thawed; cached arrays for point sources only for small or very large moves. What happens otherwise is proved in the theorems that end in _false."},
"C112": {"note": "Tables only for whole grid points (C112_table_false) and values that fit single precision; the copy loses the smoothness prior (C112_copy_prior_false). scipy's fit is a parameter: unique interpolation is assumed of it (shown for degree 1, two by two points)."},
"C113": {"note": "Derivative for a FracDev outside (0, 1) false (C113_clip_false); composite models ignore minsb=0 (C113_minsb_false), so the sum holds for renderers that do not use the limit."},
"C114": {"note": "Continuity holds at every index but 0.51 and 0.57, where it is false (C114_jump_false)."},
"C115": {"note": "False when the galaxy does not render (C115_none_false), when the stepped one does not (C115_vanish_false), and without mask when modelMinval cuts the patch (C115_limit_false); copies lose frozen flags (C115_copy_false)."},
"C116": {"note": "False when nothing is rendered at one of the positions (C116_none_false) and of copies (C116_copy_false); the log-prior of ParallaxWithPrior is +inf at zero (C116_prior_false)."},
"C117": {"note": "False of radii (C117_radius_false), of masks with normalised PSFs (C117_mask_false), of transforms of oversampled varying PSFs (C117_varying_false) and of images with negative sum (C117_sign_false)."},
"C118": {"note": "False for negative positions (C118_cell_false) and for fromPsfEx of a PSF that is not fitted yet (C118_from_false)."},
"C119": {"note": "False after a call that raised an exception (C119_failed_false, C119_float_radius_false, C119_fixed_radius_false); weights are not normalised (C119_normalized_false); applyTo ignores frozen values (C119_apply_false)."},
"C120": {"note": "Proved for plain images (C120_roundtrip_partial, C120_copy_partial). False for most calibration classes (C120_readable_partial), NullWCS with an offset (C120_null_wcs_false, C120_copy_false), frozen PSF parameters (C120_frozen_false, C120_components_false), reused headers (C120_header_reused_false)."},
"C121": {"note": "Proved for sources with one flux and tiles in which a source inside is nearer than one in the margin, which holds for whole tiles (C121_whole). False for regions (C121_blocked_false), composite galaxies (C121_composite_false) and statistics (C121_stale_false)."},
"C122": {"note": "Interpolation proved from the centres of the first pixels to the outer edges of the last; false nearer than half a pixel to the left or lower edge (C122_edge_false)."},
"C123": {"note": "Proved for objects that keep to stated conventions (one set of bands per class, one pixel scale, WCS content fixed, square unsampled PSFs, unshifted PsfEx files) and hashes without collisions; false without them (nine negations)."},
"C124": {"note": "Conversions, parameters and errors proved for all histories where the Python 2 name exists; matrix and pixel scale only with the matrix frozen; copies lose flags; no bounds; in Python 3 the constructor raises (four negations)."},
"C125": {"note": "Derivatives for all flags, de Vaucouleurs completely, Sersic where its part returns one entry per parameter; sums and limits proved; three negations."},
"C126": {"note": "Pixels and chi-squared as under Python 2 (integer division), positions and intensities; under Python 3 every call fails."},
"C127": {"note": "Completeness on the sphere for all targets; rows returned with and without polygons."},
"C128": {"note": "The table for all trees without None parts, names for named values, index for lists; four negations."},
"C129": {"note": "Everything but the start values of the extra bands, for which the documented value is refuted and the actual one proved."},
"C130": {"note": "All tables without NaN magnitudes of disks and spheroids; negations for those."},
"C131": {"note": "Positions, parts, parameters, inverses; matrix until setConstantCd; five negations."},
"C132": {"note": "Both calibrations agree and follow the header; order; parameter; copies; four negations."},
"C133": {"note": "Refinement for all sequences of operations; copies, equality, fromkeys; loops that remove the keys they are given; the cache on top; loops that remove other keys can be given a removed key (negation)."},
"C134": {"note": "Ascent per step with the cut at ten standard deviations; whole fits while no sample is cut, always so with strong regularisation; moments, ranges, one component, equal components, arguments; 0 is returned although nothing is a number for components out of reach and for collapsed ones (negations)."},
"C135": {"note": "Equality of the fitted model with the model image and independence of the start when each part has one thawed flux of the band of the image, masks are there if expected and models are not cut; affine without these; one negation for each condition."},
"C136": {"note": "Weights, blend and flux for images that have getMedianPixelNoise (none has: negation), radius and total of the bright patch, cut-off below a thousandth of the noise if the profile adds to at least one (negation otherwise); equal thresholds and unit-flux models (negations)."},
"C137": {"note": "Likelihood never lower, and highest for a least-squares direction without minimum flux, for all images and catalogs under the conditions of C135 and C59; sources beginning without flux: negation."},
"C138": {"note": "Most likely fluxes and sky levels after one round with an exact solver, for all images and catalogs under the conditions of C135; last parameter without effect and shared_params=True: negation. Damping, priors and shared parameters not covered."},
"C139": {"note": "Image, weights, exposure counts, positions and the region asked for; PSF, photometric calibration, sky and names are left out."},
"C140": {"note": "Everything but the centring is proved when a region is given; the centring is off by half a pixel (negation), bounded by one pixel; invvarAtCenterImage without a region: negation."},
"C141": {"note": "Light within any number of effective radii for all shapes in closed form; half light to 1% (exp) and 4% (dev), not exactly and not for GaussianGalaxy (negation)."},
"C142": {"note": "Real arithmetic."},
"C143": {"note": "Not covered: damping, parameters shared between objects, limits on parameters (isLegal), calibrations of images that report None, elements dropped as tiny with scale_columns, rounding; false with shared_params if the last parameter has no effect (negation proved)."},
"C144": {"note": "Not covered: damping, shared parameters, alphas that do not contain 1 or are smaller than tiny, elements dropped as tiny with scale_columns, rounding; the constrained maximum itself is not reached in general (negation proved)."},
"C145": {"note": "fitsio and fits_table are taken to return what was written, float32 conversion to be idempotent; degrees that are not integers and negative degrees are not covered for at(x, y)."},
"C146": {"note": "The rest of fromFits after the line that always raises is not modelled; names of classes with 10 or more components enter only as a list of distinct names."},
"C147": {"note": "Files are taken to hold the parts they are named for, in the same order in both files; columns (cols) are part of what a row is."},
"C148": {"note": "Exact recovery and zero bias for all images and catalogs that satisfy the conditions in the statement; minimum flux: negation."},
"C149": {"note": "Mean squared error times reported inverse variance: at least one for all fits that satisfy the conditions, one for isolated sources; blended sources: negation. With skyvariance=True there is no IV (C93_sky_false)."},
"C150": {"note": "Fitted along, frozen or absent: the same fluxes for the group, for all fits that satisfy the conditions; with the sky fitted: negation."},
"C151": {"note": "Permuted images and sources, images without information, units: the same fluxes for all fits that satisfy the conditions."},
"C152": {"note": "Exact recovery and zero bias for all linear tractors that satisfy the conditions in the statement; other priors: negation."},
"C153": {"note": "Lower bound for all parameters, equality for those that share no pixels; equality in general: negation."},
"C154": {"note": "Derivatives from differences: negation."},
"C156": {"note": "Numbers are finite in the model: a NaN in a masked pixel makes the residual NaN in numpy."},
"C157": {"note": "Exact arithmetic and an exact damped solver."},
"C158": {"note": "Exact arithmetic and exact solvers."},
"C159": {"note": "Exact arithmetic and exact solvers; damping and bounds are not covered."},
"C160": {"note": "Other exceptions of lsqr are not caught by the code and not modelled."},
"C161": {"note": "Groups are of whole images and sources; single parameters of a source are not frozen by a turn."},
"C162": {"note": "The factor is shown to exist; it is not computed."},
"C163": {"note": "At the tangent point only; the TAN projection is written down from the FITS standard and stands for astrometry.net's Tan (not in /repo). Variances without priors."},
"C164": {"note": "The loop over the nights is the user's; the square root of the variances is assumed exact."},
"C165": {"note": "Real numbers in place of floating point (single precision in evaluate_grid_masked); derivs=False only."},
"C166": {"note": "With a minimum surface brightness and no mask the derivatives come from evaluate_grid_approx3, which is a parameter here: nothing is claimed about that case. That the WCS's matrix is the matrix of derivatives is a hypothesis of (1); C163 shows that it fails for right ascension away from the equator. Patches are represented by what they show in each pixel."},
"C167": {"note": "The C routines that evaluate the mixture are those of Gauss (C99); that Env's value functions are these routines is a hypothesis and what the wrappers do. The size of the galaxy must not be zero (C165_galaxy has that case). With minval > 0 and no mask (evaluate_grid_approx3) see C98."},
"C168": {"note": "Calls without a model mask, for which the code makes a mask from the extent of the patch, are not covered (C41 has what their entries are). Patches are represented by what they show in each pixel, in a world with one mask. That the C routines are those of Gauss (C99) is a hypothesis."},
"C169": {"note": "The moments are integrals over the plane of the density which the rendered pixels sample (C99, C167), not sums over the pixels of a patch."},
"C170": {"note": "Pixelized PSFs, modelMinval other than 0 without masks, and stars outside the image by more than their radius in a mask (which show nothing) are not covered."},
"C171": {"note": "As in C170; in addition every source has a mask in every image. Priors (getLogProb) are not part of the claim."},
"C172": {"note": "As in C170: Gaussian mixture PSF, exact real arithmetic. An exception in _getAffineProfile would appear as an empty mixture in the model; C113 proves that there is none."},
"C173": {"note": "As in C170. Pixels that a source without mask does not reach are outside the claim: the code leaves light there out or not, depending on rounding of the rectangle."},
"C174": {"note": "Over the reals. As in C170; FixedCompositeGalaxy only in a mask, because without one the half sizes of the patches differ. With modelMinval above 0 and no mask the patches are cut by brightness and the claim is not made."},
"C175": {"note": "In C175_fallback and C175_gpu the derivatives, the solver and the GPU update are assumed not to change which sources the catalog holds. just_variance is not modelled in optimize_loop."},
"C176": {"note": "The classes of the two operands are taken to be the same or unrelated (Python prefers the method of a strict subclass, which matters only with NaN). C176_extremes_partial is for lists without NaN; for lists with NaN the statement is false (C176_max_false)."},
"C177": {"note": "Conversions of the WCS are taken to have finite results. The construction of the Image object itself is not part of this model."},
"C178": {"note": "Overflow of floats is left out. C178_weights_partial is for constantInvvar=False (false otherwise: C178_sigma_false); C178_nan_partial is for finite data (false otherwise: C178_nan_false)."},
"C179": {"note": "Rational arithmetic in place of floats for the grid. The files are taken not to change between calls (C179_cache)."},
"C180": {"note": "Slices with float bounds raise TypeError in numpy since version 1.12. The columns of the corners are parameters."},
"C181": {"note": "Finite pixel coordinates; a pixel scale of zero is left out."},
"C182": {"note": "Names that python gives every object are left out; the Gaussian is a value that is not None."}
}

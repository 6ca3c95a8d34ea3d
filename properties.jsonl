{"id": "C01", "title": "setParams then getParams returns the vector written", "statement": "For any parameter object (scalar, list or arbitrarily nested container, with any pattern of frozen/thawed entries and missing sub-objects), calling setParams(v) with len(v) == numberOfParams() and then getParams() returns exactly v.", "quantifier": "every parameter tree of any depth and width, every frozen/thawed pattern, every vector of the right length", "why_tests_cant": "The space of trees and freeze patterns is infinite; tests exercise a handful of source/catalog layouts.", "anchors": ["tractor/utils.py:ParamList.setParams", "tractor/utils.py:MultiParams.setParams", "tractor/utils.py:MultiParams.getParams", "tractor/utils.py:ScalarParam.setParams"]}
{"id": "C02", "title": "Frozen parameters are never changed by setParams or setParam", "statement": "setParams(v) and setParam(i, v) leave every frozen parameter value, every parameter inside a frozen sub-object, every frozen/thawed flag and the tree structure exactly as they were.", "quantifier": "every parameter tree, every freeze pattern, every argument", "why_tests_cant": "Needs all freeze patterns at all depths; an optimizer silently moving a \"held fixed\" parameter is only visible in rare layouts.", "anchors": ["tractor/utils.py:ParamList.setParams", "tractor/utils.py:MultiParams.setParams", "tractor/utils.py:MultiParams.setParam"]}
{"id": "C03", "title": "setParams(getParams()) is the identity", "statement": "Reading the current parameter vector and writing it back leaves the whole object (thawed and frozen values, flags, structure) unchanged; this is what the optimizers rely on to revert a rejected step.", "quantifier": "every parameter tree and freeze pattern", "why_tests_cant": "Universally quantified over object trees; tests check few.", "anchors": ["tractor/utils.py:MultiParams.setParams", "tractor/utils.py:MultiParams.getParams", "tractor/optimize.py:Optimizer.tryUpdates"]}
{"id": "C04", "title": "All per-parameter vectors agree in length with numberOfParams()", "statement": "len(getParams()), len(getParamNames()), len(getStepSizes()), len(getLowerBounds()), len(getUpperBounds()) and len(getMaxStep()) all equal numberOfParams(), so that zipping them together pairs each parameter with its own name, step and bound.", "quantifier": "every parameter tree and freeze pattern, including parameter classes that keep their values outside the generic list", "why_tests_cant": "A misalignment in one rarely-combined class silently pairs bounds with the wrong parameter.", "anchors": ["tractor/utils.py:MultiParams.getLowerBounds", "tractor/utils.py:ParamList.getLowerBounds", "tractor/utils.py:MogParams", "tractor/utils.py:NpArrayParams", "tractor/constrained_optimizer.py:ConstrainedOptimizer.getParameterSteps"]}
{"id": "C05", "title": "setParam(i, v) updates exactly slot i and returns the old value; restoring undoes it", "statement": "For 0 <= i < numberOfParams(), setParam(i, v) returns getParams()[i], afterwards getParams() is the old vector with slot i replaced by v, and a second setParam(i, old) restores the original object exactly. For i >= numberOfParams() it raises and changes nothing.", "quantifier": "every parameter tree, freeze pattern, index and value", "why_tests_cant": "Finite-difference derivative code steps and restores every parameter; correctness must hold for all trees and all i.", "anchors": ["tractor/utils.py:MultiParams.setParam", "tractor/utils.py:ParamList.setParam", "tractor/utils.py:ScalarParam.setParam"]}
{"id": "C06", "title": "setAllParams/getAllParams address every parameter regardless of freezing", "statement": "getAllParams() does not depend on the frozen flags; setAllParams(v) with the full length followed by getAllParams() returns v; flags are untouched; getParams() is the sub-vector of getAllParams() at the thawed positions.", "quantifier": "every parameter tree, freeze pattern and vector", "why_tests_cant": "Infinite family of trees.", "anchors": ["tractor/utils.py:MultiParams.getAllParams", "tractor/utils.py:MultiParams.setAllParams", "tractor/utils.py:ParamList.setAllParams"]}
{"id": "C07", "title": "Freezing/thawing one entry removes/restores exactly its parameters", "statement": "freezeParam(k) makes getParams() lose exactly the block of parameters belonging to entry k (all other entries keep value and order); thawParam(k) afterwards restores the original object if entry k was thawed before; freezing is idempotent; freezeAllBut(names) leaves exactly the named entries thawed.", "quantifier": "every container, every entry index/name, every prior freeze pattern, every sequence of freeze/thaw operations", "why_tests_cant": "Sequences of freeze/thaw calls are unbounded.", "anchors": ["tractor/utils.py:NamedParams.freezeParam", "tractor/utils.py:NamedParams.thawParam", "tractor/utils.py:NamedParams.freezeAllBut"]}
{"id": "C08", "title": "Recursive freeze-all leaves no parameters, recursive thaw-all exposes all of them", "statement": "After freezeParamsRecursive('*') numberOfParams() is 0 and getParams() is empty; after thawParamsRecursive('*') getParams() equals getAllParams(); neither changes any value.", "quantifier": "every parameter tree and prior freeze pattern", "why_tests_cant": "Depth of nesting is unbounded.", "anchors": ["tractor/utils.py:MultiParams.freezeParamsRecursive", "tractor/utils.py:MultiParams.thawParamsRecursive", "tractor/utils.py:NamedParams.freezeParamsRecursive"]}
{"id": "C09", "title": "thawPathsTo(names) thaws exactly the named entries and the containers leading to them", "statement": "thawPathsTo(names) thaws an entry if and only if it was already thawed, its name is listed, or it contains (at any depth) an entry with a listed name; it returns True iff some listed name occurs in the tree; no value changes.", "quantifier": "every parameter tree, freeze pattern and set of names", "why_tests_cant": "Depends on arbitrary nested paths.", "anchors": ["tractor/utils.py:MultiParams.thawPathsTo", "tractor/utils.py:NamedParams.thawPathsTo"]}
{"id": "C10", "title": "Liquid index maps are mutually inverse", "statement": "getLiquidIndexOfIndex(j) is -1 exactly for frozen j, otherwise the position at which entry j appears in the thawed sequence; setParam at that position addresses entry j; getThawedParamIndices()[getLiquidIndexOfIndex(j)] == j.", "quantifier": "every flag list and every raw index", "why_tests_cant": "All 2^n flag patterns for every n.", "anchors": ["tractor/utils.py:NamedParams.getLiquidIndexOfIndex", "tractor/utils.py:NamedParams._indexLiquid", "tractor/utils.py:NamedParams.getThawedParamIndices"]}
{"id": "C11", "title": "Adding and removing sub-objects keeps flags attached to their own sub-object", "statement": "Under any sequence of append, prepend, extend and remove on a container (e.g. a Catalog), the number of flags equals the number of sub-objects, every surviving sub-object keeps its own frozen/thawed state, and newly added ones are thawed.", "quantifier": "every history of append/prepend/extend/remove/freeze/thaw operations", "why_tests_cant": "Histories are unbounded; a flag shifted by one slot freezes the wrong source.", "anchors": ["tractor/utils.py:MultiParams.append", "tractor/utils.py:MultiParams.prepend", "tractor/utils.py:MultiParams.extend", "tractor/utils.py:MultiParams.remove"]}
{"id": "C12", "title": "copy() reproduces the object", "statement": "copy() of a parameter object returns an object with the same values and the same frozen/thawed state for every parameter; for calibration objects it also preserves the attributes that determine rendering (PSF sampling, WCS offset).", "quantifier": "every parameter tree and every calibration object", "why_tests_cant": "All classes times all attribute states.", "anchors": ["tractor/utils.py:ParamList.copy", "tractor/utils.py:MultiParams.copy", "tractor/utils.py:ScalarParam.copy", "tractor/psf.py:PixelizedPSF.copy", "tractor/wcs.py:NullWCS.shifted"]}
{"id": "C13", "title": "setStepSizes then getStepSizes returns the steps written", "statement": "For a parameter list, setStepSizes(ss) with one step per thawed parameter followed by getStepSizes() returns ss, however often it is called and whatever is frozen.", "quantifier": "every parameter list, freeze pattern, and sequence of calls", "why_tests_cant": "Bug only visible on the second call with a frozen parameter.", "anchors": ["tractor/utils.py:NamedParams.setStepSizes", "tractor/utils.py:NamedParams.getStepSizes", "tractor/utils.py:MultiParams.setStepSizes"]}
{"id": "C14", "title": "Stacked log-prior derivatives are block diagonal and addressed to the right parameters", "statement": "In the sparse matrix returned by getLogPriorDerivatives() of a container, prior rows coming from different sub-objects never collide, every column is a valid index < numberOfParams(), and the column of each entry is the position in getParams() of the parameter the prior is on.", "quantifier": "every container, number of sub-objects with or without priors, freeze patterns", "why_tests_cant": "Row/column offset errors appear only for particular combinations of priors and freezing.", "anchors": ["tractor/utils.py:MultiParams.getLogPriorDerivatives", "tractor/utils.py:_GaussianPriors.getDerivs"]}
{"id": "C15", "title": "Gaussian-prior linearisation is exact", "statement": "For Gaussian priors the returned (A, b) satisfy logPrior(params + d) = -1/2 || b - A d ||^2 for every step d when all parameters with priors are thawed.", "quantifier": "every set of Gaussian prior terms, every parameter vector and step", "why_tests_cant": "Identity over all real vectors.", "anchors": ["tractor/utils.py:_GaussianPriors.getDerivs", "tractor/utils.py:_GaussianPriors.getLogPrior"]}
{"id": "C16", "title": "getGaussianPriors reports the position of the parameter in getParams()", "statement": "Each (index, mean, sigma) returned by getGaussianPriors() of a container names the index in the full thawed parameter vector of the parameter carrying that prior (used by the Ceres optimizer).", "quantifier": "every container, freeze pattern and prior set", "why_tests_cant": "Fails only when something before or inside is frozen.", "anchors": ["tractor/utils.py:MultiParams.getGaussianPriors", "tractor/utils.py:_GaussianPriors.getGaussianPriors", "tractor/ceres_optimizer.py:CeresOptimizer._ceres_opt"]}
{"id": "C17", "title": "Arithmetic on parameter objects is elementwise on all parameters", "statement": "For parameter vectors a, b of the same class: (a+b)-b has the values of a, a*s scales every parameter, in-place and out-of-place forms agree, the operands are unchanged, and s - a is the elementwise difference s - a_i.", "quantifier": "every pair of parameter objects, scalars, freeze patterns", "why_tests_cant": "All vectors and freeze patterns.", "anchors": ["tractor/utils.py:ArithmeticParams"]}
{"id": "C18", "title": "The LRU cache never exceeds its maximum size and holds at most one value per key", "statement": "For any sequence of set/get/clear operations on a cache of maximum size m >= 1, the number of entries never exceeds m and keys are unique.", "quantifier": "every operation history, every m >= 1", "why_tests_cant": "Histories are unbounded.", "anchors": ["tractor/cache.py:Cache.__setitem__", "tractor/cache.py:Cache.__getitem__"]}
{"id": "C19", "title": "A cache hit returns the most recently stored value for that key", "statement": "Whatever the history, if a lookup succeeds it returns the value of the last store to that key; a lookup never returns a value stored under another key or before a clear.", "quantifier": "every operation history", "why_tests_cant": "Refinement over unbounded histories.", "anchors": ["tractor/cache.py:Cache"]}
{"id": "C20", "title": "The cache evicts the least recently used entry, and only when a new key needs the room", "statement": "Storing a new key into a full cache removes exactly the entry whose last store/lookup is oldest; storing into a non-full cache, or overwriting a key already present, removes nothing else.", "quantifier": "every reachable cache state and key", "why_tests_cant": "Eviction order depends on the whole history.", "anchors": ["tractor/cache.py:Cache.__setitem__"]}
{"id": "C21", "title": "Hit and miss counters count lookups", "statement": "After any history, hits + misses equals the number of lookups since the last counter reset and hits equals the number of lookups that found the key.", "quantifier": "every operation history", "why_tests_cant": "Unbounded histories.", "anchors": ["tractor/cache.py:Cache.get"]}
{"id": "C22", "title": "A cached model patch equals the freshly rendered one", "statement": "With caching enabled, getModelPatch(img, src, minsb) returns what rendering afresh would return for the current parameters, accuracy and model mask.", "quantifier": "every history of parameter changes and model-mask changes between calls", "why_tests_cant": "Stale cache entries depend on the history of changes.", "anchors": ["tractor/cache.py:TractorCacheMixin.getModelPatch"]}
{"id": "C23", "title": "Patch addition and subtraction are pixelwise sums of the zero-extended images", "statement": "For patches a and b that hold an image, at arbitrary integer offsets, every pixel of a+b (a-b) equals the sum (difference) of the two patches at that pixel, where a patch is zero outside its footprint; the footprint of the result is the bounding box of both. A patch without image cannot be combined with a patch at another place: the operation raises.", "quantifier": "every pair of patches: all offsets, sizes, overlaps or gaps, all pixel values", "why_tests_cant": "All relative placements.", "anchors": ["tractor/patch.py:Patch.performArithmetic", "tractor/patch.py:Patch.__add__", "tractor/patch.py:Patch.__sub__"]}
{"id": "C24", "title": "Patch.addTo adds exactly the overlapping pixels", "statement": "p.addTo(img, scale) adds scale * p(x,y) to img at each pixel inside both the image and the patch, and changes no other pixel and not the image shape, wherever the patch lies (including completely outside).", "quantifier": "every patch placement and image size", "why_tests_cant": "All offsets.", "anchors": ["tractor/patch.py:Patch.addTo"]}
{"id": "C25", "title": "clipTo keeps exactly the part of the patch inside the image", "statement": "After p.clipTo(W,H), the patch footprint lies inside [0,W)x[0,H), pixels inside the image are unchanged, and the return value is False exactly when nothing is left.", "quantifier": "every patch placement, size and image size", "why_tests_cant": "All offsets including negative ones (Python slice semantics).", "anchors": ["tractor/patch.py:Patch.clipTo"]}
{"id": "C26", "title": "clipToRoi cuts to the region of interest", "statement": "After p.clipToRoi(x0,x1,y0,y1) the patch covers exactly the pixels it covered inside the ROI, at the same image coordinates with unchanged values, and the return value is False exactly when no image is left (for a nonempty patch and ROI: exactly when none of its pixels was inside).", "quantifier": "every patch and ROI", "why_tests_cant": "All offsets.", "anchors": ["tractor/patch.py:Patch.clipToRoi"]}
{"id": "C27", "title": "trimToNonZero does not change the rendered image and leaves a tight box", "statement": "trimToNonZero() never changes the value of any pixel of the zero-extended patch, and afterwards the first and last row and column each contain a nonzero pixel, or the patch is empty.", "quantifier": "every patch content and size", "why_tests_cant": "All zero/nonzero patterns.", "anchors": ["tractor/patch.py:Patch.trimToNonZero"]}
{"id": "C28", "title": "getPixelIndices enumerates the image pixels under the patch", "statement": "For a patch inside an image of width W with fewer than 2^31 pixels, getPixelIndices returns, in the row-major order of the patch pixels, the flattened index of each covered image pixel; the indices are pairwise distinct and < W*H, and agree with getSlice.", "quantifier": "every patch inside every image", "why_tests_cant": "Index arithmetic over all sizes.", "anchors": ["tractor/patch.py:Patch.getPixelIndices", "tractor/patch.py:Patch.getSlice"]}
{"id": "C29", "title": "The model image is sky plus the sum of the source patches", "statement": "getModelImage(img, srcs, sky) has the shape of the data and equals, at each pixel, the sky level (if sky=True) plus the sum of the pixels of the patches the sources render with their own model mask; None sources, None patches and, if masks are expected, sources without a mask contribute nothing; the result is additive in the source list and independent of its order; by default the whole catalog is rendered whatever is frozen; with masks set, an image that is not the tractor's raises ValueError.", "quantifier": "every list of sources, renderer, sky model, mask list, image size", "why_tests_cant": "All source lists, permutations, patch positions and mask dictionaries.", "anchors": ["tractor/engine.py:Tractor.getModelImage", "tractor/engine.py:Tractor.getModelPatch", "tractor/engine.py:Tractor._getModelMaskFor", "tractor/engine.py:Tractor.setModelMasks"]}
{"id": "C30", "title": "Log-likelihood only sees pixels with nonzero inverse error", "statement": "getLogLikelihood() = -1/2 sum over all images and pixels of ((data-model)*inverr)^2 with model = getModelImage(img); pixels with zero inverse error do not influence it, and it is never positive.", "quantifier": "every list of images, pixel values, weights, renderer", "why_tests_cant": "All images.", "anchors": ["tractor/engine.py:Tractor.getChiImage", "tractor/engine.py:Tractor.getLogLikelihood"]}
{"id": "C31", "title": "getLogProb never returns NaN and is -inf exactly on illegal parameters or non-finite likelihood", "statement": "getLogProb() returns -inf without evaluating the likelihood when the prior is -inf, returns -inf when the sum is NaN, and otherwise prior + likelihood.", "quantifier": "every prior/likelihood value including infinities and NaN", "why_tests_cant": "All combinations of special values.", "anchors": ["tractor/engine.py:Tractor.getLogProb"]}
{"id": "C32", "title": "getDerivs returns one entry per thawed parameter in getParams() order and restores all parameters", "statement": "getDerivs() has length numberOfParams(); entry k holds derivatives with respect to the k-th thawed parameter (image parameters first, then sources): for an image parameter one pair of the reported derivative, or of the finite difference (model at p_k + step minus model)/step with every other parameter unchanged, and the image; for a source parameter the non-None derivatives the source reports with its own mask, image by image; the tractor is the same before and after.", "quantifier": "every set of images and sources, every freeze pattern, every renderer", "why_tests_cant": "Ordering must hold for all freeze patterns.", "anchors": ["tractor/engine.py:Tractor.getDerivs", "tractor/image.py:Image.getParamDerivatives", "tractor/engine.py:Tractor._getSourceDerivatives"]}
{"id": "C33", "title": "Line search never makes things worse and reports the true improvement", "statement": "tryUpdates(X, alphas): afterwards logprob(current params) >= logprob before; the returned improvement is exactly the difference; when no step improves, parameters are exactly restored and (0,0) is returned; when a step is accepted the parameters are p0 + alpha*X for the returned alpha, which is one of those offered.", "quantifier": "every objective function (including NaN/inf values), start point, direction and alpha list", "why_tests_cant": "Arbitrary objective functions.", "anchors": ["tractor/optimize.py:Optimizer.tryUpdates"]}
{"id": "C34", "title": "Constrained steps respect bounds and maximum step sizes", "statement": "From a start point within its bounds, every candidate parameter vector produced by getParameterSteps is p0+alpha*X, lies within the lower/upper bounds, moves each parameter by no more than its maximum step, and uses the largest admissible fraction alpha up to the offered one (at least tiny_alpha); it never raises for strictly increasing fractions and refuses others with an AssertionError. (From a start point outside its bounds, the maximum step can be violated.)", "quantifier": "every start point within bounds, step vector, bounds, nonnegative max-steps and increasing alpha list", "why_tests_cant": "All combinations of active limits.", "anchors": ["tractor/constrained_optimizer.py:ConstrainedOptimizer.getParameterSteps"]}
{"id": "C35", "title": "Constrained line search ends at the best visited point", "statement": "For a tractor with a bound entry for every parameter and parameters within bounds, the constrained tryUpdates leaves the parameters at the best of the start point and the visited candidates, so log-probability never decreases, reports the true improvement, restores the start exactly (returning (0,0)) when nothing improves, and ends within bounds. (With fewer bound entries than parameters it raises IndexError with parameters half set.)", "quantifier": "every objective function (NaN/inf included), start point within bounds, direction, bounds, alphas, check_step callback", "why_tests_cant": "Arbitrary objective functions.", "anchors": ["tractor/constrained_optimizer.py:ConstrainedOptimizer.tryUpdates"]}
{"id": "C36", "title": "optimize_loop is monotone and terminates", "statement": "optimize_loop performs at least one and at most `steps` iterations and reports the number of the last one; log-probability never decreases across it; every iteration but the last gained more than dchisq, and the loop ends before `steps` only after an iteration gaining at most dchisq (for the constrained optimizer: at most dchisq or dchisq_limited, or rejected by check_step), so final >= initial + (iterations-1)*dchisq. Constrained: all intermediate states are within bounds.", "quantifier": "every objective function, direction oracle and step limit", "why_tests_cant": "Arbitrary histories.", "anchors": ["tractor/lsqr_optimizer.py:LsqrOptimizer.optimize_loop", "tractor/constrained_optimizer.py:ConstrainedOptimizer.optimize_loop"]}
{"id": "C37", "title": "The sparse least-squares matrix assigns each (image pixel, parameter) its own cell", "statement": "In the matrix built for the update direction, derivative pixels of different images go to disjoint row ranges, the row of an image pixel is the same for all parameters and for the residual vector, and column k belongs to parameter k.", "quantifier": "every list of derivative patches and images", "why_tests_cant": "Index layout over all inputs.", "anchors": ["tractor/lsqr_optimizer.py:LsqrOptimizer.getUpdateDirection"]}
{"id": "C38", "title": "Shared parameters are detected exactly and receive one common update", "statement": "When several slots of the parameter vector refer to the same underlying value, getUpdateDirection maps exactly those slots to one column and restores the parameter values; with an exact solver the returned update has equal entries for slots of one value and minimises the linearised chi-squared among all such updates. (True when columns are not scaled or slots of a value have equal column norms, and when the value of the last slot has some effect; otherwise false: unequal entries, respectively IndexError.)", "quantifier": "every aliasing pattern between parameter slots, all derivatives, images and priors", "why_tests_cant": "All partitions of the slots and all real matrices.", "anchors": ["tractor/lsqr_optimizer.py:LsqrOptimizer.getUpdateDirection"]}
{"id": "C39", "title": "Column scaling does not change the least-squares solution", "statement": "With or without column scaling, if the solver minimises the problem it is given, the update returned by the sparse optimizer minimises the unscaled linearised chi-squared (pixels of all images plus prior terms) over all parameter changes, provided no non-zero matrix element falls below the cut-off relative to its column norm; if no parameter has any effect the empty list is returned.", "quantifier": "every derivative list, image set, prior list and exact solver", "why_tests_cant": "All real matrices.", "anchors": ["tractor/lsqr_optimizer.py:LsqrOptimizer.getUpdateDirection"]}
{"id": "C40", "title": "Dense and sparse optimizers solve the same least-squares problem", "statement": "For derivatives in which no image repeats for a parameter, the dense optimizer's problem has the same objective ||A x - b||^2 as the sparse optimizer's for every x, and with an exact solver its result minimises the same linearised chi-squared, with or without column scaling. With a repeated image they differ: the dense matrix keeps the last derivative, the sparse one the sum.", "quantifier": "all derivative lists, images and prior lists", "why_tests_cant": "All inputs.", "anchors": ["tractor/dense_optimizer.py:ConstrainedDenseOptimizer.getUpdateDirection", "tractor/lsqr_optimizer.py:LsqrOptimizer.getUpdateDirection"]}
{"id": "C41", "title": "Source derivative lists have one correct entry per thawed parameter and leave the source unchanged", "statement": "For point sources, constant surface brightness, single-profile, composite and fixed-composite galaxies, getParamDerivatives returns a list of length numberOfParams(), in the order of getParams(), whatever is frozen, and leaves the source as it was; for a rendered source entry k is the difference quotient of the model image for parameter k (None standing for zero), position entries obtained from pixel derivatives following the chain rule with the inverse CD matrix and profiles of composites being summed with their weights.", "quantifier": "every freeze pattern of position, brightness, shape, fraction and of their components; every renderer, photometric calibration and WCS", "why_tests_cant": "All freeze patterns and renderers.", "anchors": ["tractor/pointsource.py:PointSource.getParamDerivatives", "tractor/galaxy.py:Galaxy.getParamDerivatives", "tractor/galaxy.py:FixedCompositeGalaxy.getParamDerivatives", "tractor/galaxy.py:CompositeGalaxy.getParamDerivatives", "tractor/basics.py:ConstantSurfaceBrightness.getParamDerivatives"]}
{"id": "C42", "title": "WCS wrappers: pixel and sky conversions stay mutually inverse under shifting", "statement": "If the conversions of the underlying WCS are inverse to each other then so are positionToPixel/pixelToPosition of every wrapped or shifted WCS; shifting by (a,b) then (c,d) equals shifting by (a+c,b+d); a position at pixel (x,y) of the full image is at (x-x0,y-y0) in the shifted WCS. False for NullWCS: shifted() returns an unshifted WCS and pixelToPosition returns a tuple that positionToPixel rejects.", "quantifier": "every base WCS, every sequence of shifts, every position", "why_tests_cant": "All shifts and positions.", "anchors": ["tractor/wcs.py:ConstantFitsWcs", "tractor/shifted.py:ShiftedWcs", "tractor/shifted.py:ScaledWcs", "tractor/wcs.py:NullWCS"]}
{"id": "C43", "title": "Magnitude and flux conversions are inverse to each other", "statement": "NanoMaggies.magToNanomaggies and nanomaggiesToMag are mutually inverse on positive fluxes; zeropointToScale/scaleToZeropoint likewise; MagsPhotoCal.countsToMag inverts brightnessToCounts (for magnitudes the latter does not cut off); adding magnitudes adds fluxes.", "quantifier": "every real magnitude and every positive flux", "why_tests_cant": "All reals.", "anchors": ["tractor/brightness.py:NanoMaggies", "tractor/brightness.py:MagsPhotoCal", "tractor/brightness.py:Mags"]}
{"id": "C44", "title": "Ellipse parametrisations convert back and forth consistently", "statement": "Converting (radius, axis ratio, position angle) to the ellipticity form and reading the axis ratio, angle and radius back returns the input; soft ellipticities always give |e| < 1; converting between the soft and plain forms, and to a covariance matrix and back, is a round trip; the covariance has the axes of the ellipse as principal axes. False for converting a round ellipse to the soft form (division by zero) and for covariances whose singular value decomposition returns a rotation.", "quantifier": "every radius > 0, axis ratio in (0,1], angle, and soft ellipticity", "why_tests_cant": "All reals, including the round ellipse; every legitimate answer of the SVD.", "anchors": ["tractor/ellipses.py:EllipseE", "tractor/ellipses.py:EllipseESoft"]}
{"id": "C45", "title": "Mixture-of-Gaussians parameters: vector layout, names and single-parameter setter agree", "statement": "For K Gaussian components, getAllParams/setAllParams round-trip; setting parameter i through the single-parameter setter has the same effect as replacing entry i in the vector; each name addresses the quantity it names; covariance matrices stay symmetric.", "quantifier": "every K, every parameter values, every index", "why_tests_cant": "All K and i.", "anchors": ["tractor/utils.py:MogParams"]}
{"id": "C46", "title": "Integral-image rectangle query returns the rectangle sum", "statement": "intimg_rect(integral_image(I), x0,x1,y0,y1) = sum of I over columns x0+1..x1 and rows y0+1..y1, including when x0 or y0 is -1.", "quantifier": "every image and every valid rectangle", "why_tests_cant": "All images and rectangles.", "anchors": ["tractor/integral_image.py"]}
{"id": "C47", "title": "Symmetric integral-image queries agree with the full image", "statement": "For a mirror-symmetric (2m+1)x(2m+1) image, symm_intimg_rect / symm_intimg_ref evaluated on the quadrant integral image return the rectangle sum / integral value of the full image for every rectangle straddling any midlines.", "quantifier": "every symmetric image, every rectangle", "why_tests_cant": "Nine straddling cases for every m.", "anchors": ["tractor/symmetric_integral_image.py"]}
{"id": "C48", "title": "PsfEx polynomial terms: each basis image gets exactly one monomial", "statement": "For degree n, the index used for monomial x^j y^k (j+k <= n) is a bijection onto 0..(n+1)(n+2)/2-1, so that every basis image is used exactly once with its own monomial.", "quantifier": "every degree", "why_tests_cant": "All degrees.", "anchors": ["tractor/psfex.py:PsfExModel.polynomials"]}
{"id": "C49", "title": "Padding/cropping a PSF image keeps its centre", "statement": "Embedding a PSF stamp in an H x W image (larger or smaller) returns (cx,cy) such that pixel (cx+i,cy+j) of the result equals stamp pixel (centre + (i,j)) whenever both are in range, and other pixels are zero.", "quantifier": "every stamp size and target size", "why_tests_cant": "All size parities.", "anchors": ["tractor/psf.py:PixelizedPSF._padInImage"]}
{"id": "C50", "title": "Limiting the PSF radius keeps all pixels within the radius", "statement": "getPointSourcePatch(radius=R) of a pixelized PSF produces the stamp restricted to the (2R+1)-wide box around its centre, centred on the same pixel.", "quantifier": "every stamp size and radius", "why_tests_cant": "Boundary radius values.", "anchors": ["tractor/psf.py:PixelizedPSF.getPointSourcePatch"]}
{"id": "C51", "title": "interpret_roi returns a non-empty in-image region containing what was asked", "statement": "A region requested by sky position and half-size is returned clipped to the image, non-empty, contains exactly the requested pixels inside the image, and the flag tells whether it differs from the full image; None iff no requested pixel is in the image.", "quantifier": "every position, size and image shape", "why_tests_cant": "All clipping combinations.", "anchors": ["tractor/imageutils.py:interpret_roi"]}
{"id": "C52", "title": "Convolving Gaussian mixtures multiplies their Fourier transforms", "statement": "The mixture returned by a.convolve(b) has Fourier transform equal to the product of those of a and b at every frequency (and K_a*K_b components, total amplitude the product).", "quantifier": "every pair of mixtures and every frequency", "why_tests_cant": "All real parameters.", "anchors": ["tractor/mixture_profiles.py:MixtureOfGaussians.convolve", "tractor/mixture_profiles.py:MixtureOfGaussians.getFourierTransform"]}
{"id": "C53", "title": "Spline-sky smoothness prior: derivative matrix is consistent with the log-prior and couples only neighbours", "statement": "The (A,b) returned for the smoothness prior satisfies logPrior(p+d) = -1/2||b - A d||^2, and each term couples two control points that are adjacent on the grid.", "quantifier": "every grid size and coefficient vector", "why_tests_cant": "All grid shapes including non-square.", "anchors": ["tractor/splinesky.py:SplineSky.getLogPriorDerivatives", "tractor/splinesky.py:SplineSky.getLogPrior"]}
{"id": "C54", "title": "Sky grid boxes cover the image", "statement": "The boxes used to estimate the sky on a grid cover every image pixel for every image and grid size.", "quantifier": "every W, H, gridsize >= 2", "why_tests_cant": "All sizes.", "anchors": ["tractor/splinesky.py:SplineSky.BlantonMethod"]}
{"id": "C55", "title": "Ceres scaling: solving in scaled parameters is equivalent", "statement": "The affine reparametrisation used for Ceres maps start parameters to 1, transforms residuals, Gaussian priors, bounds and derivatives consistently, maps the result and the variances back, and leaves parameters unchanged when the solver changes nothing. False for bounds of parameters with negative step sizes (fixed scales); without free parameters optimize() raises TypeError.", "quantifier": "every parameter vector, scale, priors and bounds", "why_tests_cant": "All reals.", "anchors": ["tractor/ceres_optimizer.py:CeresOptimizer._ceres_opt", "tractor/ceres_optimizer.py:CeresTractorAdapter"]}
{"id": "C56", "title": "Forced-photometry dicing: the sum over blocks is chi-squared over images", "statement": "Dicing the images and attaching clipped, trimmed, scaled unit-flux models (and sky derivatives) never fails; the parameters that occur are numbered 0, 1, 2, ... injectively; for every parameter vector the squared residuals of all blocks add up to chi-squared over all pixels of all images; the Jacobian columns are exactly the derivatives of the residuals.", "quantifier": "every set of images, block size, sky derivatives, model placements, scales and parameter vectors", "why_tests_cant": "All placements.", "anchors": ["tractor/ceres_optimizer.py:CeresOptimizer._ceres_forced_photom"]}
{"id": "C57", "title": "Parallel derivative gathering returns results in the same order as the serial loop", "statement": "TractorMultiprocMixin.getDerivs, which submits reversed work lists to worker processes and pops the results, returns exactly the list the serial getDerivs returns: for each parameter in turn the derivative patches computed for it, each with its image. (Fails as shipped: the pool is never stored, several names are not imported, and workers get a tractor without its settings.)", "quantifier": "every number of images, sources and parameters, every pattern of frozen images and sources", "why_tests_cant": "Pairing of results with parameters must hold for all sizes and all patterns of derivatives left to the tractor.", "anchors": ["tractor/multiproc.py:TractorMultiprocMixin.getDerivs", "tractor/multiproc.py:TractorMultiprocMixin.getModelImages"]}
{"id": "C58", "title": "Per-image derivative lists for Ceres use the global parameter numbering", "statement": "For every image, the list of derivatives handed to Ceres contains exactly the derivatives that getDerivs() returns for that image, multiplied by minus the inverse error and cut to the image, each tagged with the index of its parameter in tractor.getParams(), each index at most once. False when the catalog is frozen in the tractor while a source has thawed parameters: AssertionError.", "quantifier": "every freeze pattern of images and catalog", "why_tests_cant": "All freeze patterns.", "anchors": ["tractor/ceres_optimizer.py:CeresOptimizer._getOneImageDerivs"]}
{"id": "C59", "title": "Forced-photometry line search keeps the best fluxes and restores on failure", "statement": "The forced-photometry loop ends, never decreases log-probability, applies the same accepted step to fluxes and sky, keeps fluxes above the minimum, and leaves the tractor image list as it was. False for fluxes starting below the minimum, priors on fluxes, sky fitting with a minimum flux, regions of interest without direction, and mindlnp=0.", "quantifier": "every objective and direction sequence", "why_tests_cant": "Arbitrary objectives; termination.", "anchors": ["tractor/lsqr_optimizer.py:LsqrOptimizer._lsqr_forced_photom"]}
{"id": "C60", "title": "Pickling a Tractor restores its state", "statement": "Reading back a pickled Tractor gives copies of the same images and sources in the same order, with the same pixels, parameters, frozen flags, masks, data type, optimizer and settings, so that every model image of the copy is the one of the original; brightnesses keep their bands. (Fails for model_kwargs, which are not saved.)", "quantifier": "every tractor state, every assignment of new identities", "why_tests_cant": "All states.", "anchors": ["tractor/engine.py:Tractor.__getstate__", "tractor/engine.py:Tractor.__setstate__", "tractor/brightness.py:MultiBandBrightness.__setstate__"]}
{"id": "C61", "title": "getSlices returns matching in-range slices of patch and image", "statement": "p.getSlices((H,W)) returns a slice pair into the patch and one into the image, both in range and of equal size, that select exactly the image pixels covered by the patch and correspond pixel by pixel.", "quantifier": "every patch placement and size, every image shape", "why_tests_cant": "All relative placements, including no overlap.", "anchors": ["tractor/patch.py:Patch.getSlices"]}
{"id": "C62", "title": "Overlap tests between patches are exact", "statement": "hasBboxOverlapWith is True exactly when the two footprints share a pixel; hasNonzeroOverlapWith is True exactly when some pixel is nonzero in both patches.", "quantifier": "every pair of patches", "why_tests_cant": "All placements and pixel values.", "anchors": ["tractor/patch.py:Patch.overlapsBbox", "tractor/patch.py:Patch.hasBboxOverlapWith", "tractor/patch.py:Patch.hasNonzeroOverlapWith"]}
{"id": "C63", "title": "hit_limit implies ever_hit_limit", "statement": "In the result of the constrained optimize_loop, hit_limit (the last accepted step ran into a bound) is only true if ever_hit_limit is.", "quantifier": "every objective function, direction oracle, start point within bounds and number of steps", "why_tests_cant": "Flags are carried as object state across arbitrarily many line searches.", "anchors": ["tractor/constrained_optimizer.py:ConstrainedOptimizer.optimize_loop", "tractor/constrained_optimizer.py:ConstrainedOptimizer.tryUpdates"]}
{"id": "C64", "title": "scales_only never yields column scales", "statement": "getUpdateDirection(scales_only=True), documented to return the column scalings, returns the empty list whenever it returns.", "quantifier": "every derivative list, image set and prior list", "why_tests_cant": "A test shows one input; the claim is that no input works.", "anchors": ["tractor/lsqr_optimizer.py:LsqrOptimizer.getUpdateDirection"]}
{"id": "C65", "title": "The reported variance of a parameter is the inverse of its weighted squared derivative", "statement": "With variance=True the second result holds for each parameter 1 / (sum of squared derivative times inverse error over all pixels plus squared prior elements). False with shared_params when slots are shared: values of other slots are reported.", "quantifier": "every derivative list, image set and prior list", "why_tests_cant": "All inputs and aliasing patterns.", "anchors": ["tractor/lsqr_optimizer.py:LsqrOptimizer.getUpdateDirection"]}
{"id": "C66", "title": "Position derivatives use the Jacobian of the position-to-pixel map", "statement": "The matrix used to turn pixel-space derivatives into derivatives by position coordinates (cdInverseAtPosition with the position's derivative hook) is the Jacobian of positionToPixel, for FITS and constant WCS. For NullWCS this holds only at one pixel scale; shifted and scaled WCS lack the method and raise AttributeError.", "quantifier": "every WCS object and position, every Jacobian of the external projection", "why_tests_cant": "Universally quantified over WCS objects and positions; tests use pixscale 1.", "anchors": ["tractor/ducks.py:WCS.pixelDerivsToPositionDerivs", "tractor/wcs.py:NullWCS", "tractor/wcs.py:BaseWCS", "tractor/shifted.py:ShiftedWcs", "tractor/shifted.py:ScaledWcs"]}
{"id": "C67", "title": "A scaled WCS has consistent positions and CD matrix", "statement": "ScaledWcs.positionToPixel multiplies the distance from the image edge (-1/2) by the factor, scalings compose, and cdAtPixel at the pixel of a position is the base matrix at that position divided by the factor. The last part is false if the matrix depends on y: cdAtPixel evaluates the base matrix at y multiplied, not divided, by the factor.", "quantifier": "every base WCS, nonzero factor and position", "why_tests_cant": "Tests use constant CD matrices, for which the evaluation point does not matter.", "anchors": ["tractor/shifted.py:ScaledWcs"]}
{"id": "C68", "title": "A shifted PSF renders what the full PSF renders at shifted coordinates", "statement": "ShiftedPsf.getPointSourcePatch at (px,py) returns the patch of the full PSF at (px+x0,py+y0), moved by (-x0,-y0); shifting twice is shifting by the sum. With a ModelMask argument the call raises AttributeError.", "quantifier": "every base PSF, shift, position, mask argument", "why_tests_cant": "All PSFs, shifts and positions.", "anchors": ["tractor/shifted.py:ShiftedPsf"]}
{"id": "C69", "title": "Calibration parameters survive the FITS header", "statement": "Writing a calibration object with toFitsHeader and reading it with fromFitsHeader gives the same parameter values, provided nothing is frozen and there are at most 100 parameters. Otherwise only as many leading parameters as there are thawed ones (at most 100) are restored; the rest silently keep constructor defaults.", "quantifier": "every parameter tree, freeze state and fresh object of the same size", "why_tests_cant": "All shapes, sizes and freeze states.", "anchors": ["tractor/ducks.py:ImageCalibration.toFitsHeader", "tractor/ducks.py:ImageCalibration.fromFitsHeader"]}
{"id": "C70", "title": "A shifted PsfEx model is the model at shifted positions", "statement": "PsfExModel.shifted(dx,dy) has at every (x,y) the PSF image the original has at (x+dx,y+dy), and shifting twice is shifting by the sum. The shifted (or copied) model has no fwhm attribute, so writing it to FITS fails.", "quantifier": "every model, shift and position", "why_tests_cant": "All degrees, scalings and shifts.", "anchors": ["tractor/psfex.py:PsfExModel.shifted", "tractor/psfex.py:PsfExModel.at"]}
{"id": "C71", "title": "Rendering a pixelized PSF into a ModelMask gives the unmasked pixels", "statement": "PixelizedPSF.getPointSourcePatch with a modelMask returns a patch covering exactly the mask whose pixels are those of the rendering without mask (interpolated as if the stamp were continued by zeros), and None exactly when mask and stamp have no pixel in common.", "quantifier": "every PSF image, position and mask box", "why_tests_cant": "All relative positions of stamp and mask.", "anchors": ["tractor/psf.py:PixelizedPSF.getPointSourcePatch"]}
{"id": "C72", "title": "PSF position derivatives are difference quotients", "statement": "With derivs=True the derivative patches of a pixelized PSF equal the symmetric difference (step one pixel) of the renderings at positions moved by one pixel, inside the rendered box. Without a modelMask the derivs argument is ignored and only one patch is returned.", "quantifier": "every PSF image, position and mask box", "why_tests_cant": "All positions.", "anchors": ["tractor/psf.py:PixelizedPSF.getPointSourcePatch"]}
{"id": "C73", "title": "When a sky can be estimated on a grid", "statement": "SplineSky.BlantonMethod with a mask returns a sky exactly when gridsize >= 4 and gridsize is no larger than the image height and width (one more if odd); otherwise it raises.", "quantifier": "every image size, gridsize, mask and estimator", "why_tests_cant": "All sizes.", "anchors": ["tractor/splinesky.py:SplineSky.BlantonMethod"]}
{"id": "C74", "title": "Ceres forced photometry zeroes the flux of sources without a model", "statement": "After forced photometry with Ceres, a source that has no model pixels in any image has flux 0 (if anything was fit). False for a source whose model lies left of or above an image: it takes part in the fit without effect and keeps its old flux.", "quantifier": "every set of images, models and parameters, every solver", "why_tests_cant": "All placements and solvers.", "anchors": ["tractor/ceres_optimizer.py:CeresOptimizer._ceres_forced_photom"]}
{"id": "C75", "title": "Ceres forced photometry ends at the least-squares fluxes", "statement": "If the solver returns a minimiser of the sum of squares it is given, then the fluxes and sky levels set by forced photometry minimise chi-squared over all pixels of all images; the solver starts from the present parameters; the number of parameters does not change.", "quantifier": "every set of images, models, parameters and every minimising solver", "why_tests_cant": "A statement about all inputs and all competing parameter vectors.", "anchors": ["tractor/ceres_optimizer.py:CeresOptimizer._ceres_forced_photom", "tractor/optimize.py:Optimizer.forced_photometry"]}
{"id": "C76", "title": "Jacobian columns handed to Ceres are the derivatives at their place", "statement": "For each image, column k of the Jacobian is the derivative image of parameter k, zero outside the derivative's patch. False for a parameter without derivative in the image: its column is left unwritten.", "quantifier": "every list of derivatives", "why_tests_cant": "All placements; unwritten memory often happens to be zero.", "anchors": ["tractor/ceres-tractor.cc"]}
{"id": "C77", "title": "Every image takes part in a Ceres fit", "statement": "The Ceres problem contains exactly one residual block per image. False with numeric=True: an inner loop reuses the loop variable, so only the first image takes part, or the loop never ends.", "quantifier": "every number of images and parameters", "why_tests_cant": "All numbers of images and parameters; non-termination.", "anchors": ["tractor/ceres-tractor.cc", "tractor/ceres.i"]}
{"id": "C78", "title": "Ceres forced photometry with nonneg=True never fits anything", "statement": "With nonneg=True the call raises AssertionError as soon as some model has a nonzero pixel in an image; it never returns changed parameters.", "quantifier": "every set of images, models, parameters and solver", "why_tests_cant": "The claim is that no input works.", "anchors": ["tractor/ceres_optimizer.py:CeresOptimizer._ceres_forced_photom"]}
{"id": "C79", "title": "zero_mean Fourier transforms are those of the mixture moved to the origin", "statement": "getFourierTransform(v, w, zero_mean=True) of a mixture is the transform of the mixture with its means set to zero, whether the C library or the Python code computes it. False: the Python code (library missing or use_mp_fourier=False) ignores zero_mean.", "quantifier": "every mixture and frequency, both implementations", "why_tests_cant": "All real parameters; tests have the C library.", "anchors": ["tractor/mixture_profiles.py:MixtureOfGaussians.getFourierTransform", "tractor/mp_fourier.i:gaussian_fourier_transform_zero_mean"]}
{"id": "C80", "title": "Affine transformations of mixtures transform the Fourier transform", "statement": "After apply_shear(S) the Fourier transform at f is the one before at S^T f; after apply_affine(shift, S) it is that times the phase of the shift; extend adds transforms and a + b is the sum normalised. False for mixtures with means, which S does not transform.", "quantifier": "every mixture, matrix, shift, frequency", "why_tests_cant": "All real parameters.", "anchors": ["tractor/mixture_profiles.py:MixtureOfGaussians.apply_affine", "tractor/mixture_profiles.py:MixtureOfGaussians.apply_shear", "tractor/mixture_profiles.py:MixtureOfGaussians.extend"]}
{"id": "C81", "title": "Copies, scalings and hash keys of NCircularGaussianPSF", "statement": "copy() returns the same PSF, scale(f) multiplies the variances by f^2, and equal hash keys mean equal mixtures. False with frozen sigmas or weights: copy() drops them or raises, and PSFs differing in a frozen value share a hash key.", "quantifier": "every number of components, values, frozen flags, factor", "why_tests_cant": "All values and frozen patterns.", "anchors": ["tractor/psf.py:NCircularGaussianPSF"]}
{"id": "C82", "title": "The C and Python image shifts agree", "statement": "lanczos_shift_image by at most half a pixel returns an image of the same shape whose pixels are the normalised Lanczos-3 weighted sums of the image continued by zeros, whatever the image size and whether or not the C library is used; the result does not depend on leftovers in scratch memory, and the C code writes only inside the output image and the scratch array.", "quantifier": "every image, size, shift, library availability, memory content", "why_tests_cant": "All sizes (edges are handled by separate loops) and all memory contents.", "anchors": ["tractor/psf.py:lanczos_shift_image", "tractor/mp_fourier.i:correlate7f_inout", "tractor/mp_fourier.i:lanczos_shift_3f"]}
{"id": "C83", "title": "inplace=True of lanczos_shift_image changes the image, inplace=False does not", "statement": "With inplace=True the caller's image holds the shifted image afterwards, otherwise it is unchanged. False with inplace=True when the Python code runs (small images, library missing, force_python).", "quantifier": "every image, shift, library availability", "why_tests_cant": "All sizes.", "anchors": ["tractor/psf.py:lanczos_shift_image"]}
{"id": "C84", "title": "Chi images of forced photometry are (data - model) * inverse error", "statement": "The chi image forced photometry minimises is, at every pixel, the data minus the frozen model minus sky minus the sum over sources of flux (raised to minFlux) times scale times unit-flux model, times the inverse error. False with regions of interest: the data are ignored.", "quantifier": "every image, list of fluxes and unit-flux models, region of interest", "why_tests_cant": "All images, overlaps and regions.", "anchors": ["tractor/optimize.py:Optimizer._getims"]}
{"id": "C85", "title": "GalaxyShape and EllipseE describe the same ellipse for the same radius, axis ratio and angle", "statement": "GalaxyShape(r, ab, phi) and EllipseE.fromRAbPhi(r, ab, phi) are the same ellipse on the sky, with the major axis at position angle phi. The documented orientation (East of North) is false: phi runs from North through West.", "quantifier": "every radius of at least 1/30 arcsec, axis ratio in [1/1000, 1], angle", "why_tests_cant": "All reals.", "anchors": ["tractor/galaxy.py:GalaxyShape", "tractor/ellipses.py:EllipseE.fromRAbPhi"]}
{"id": "C86", "title": "Finite-difference steps of ellipses point towards the round ellipse", "statement": "The step sizes of an ellipse decrease its ellipticity components, so that stepping keeps it legal. True of EllipseE.getAllStepSizes; false of getStepSizes, which derivatives use; EllipseESoft.getAllStepSizes always fails.", "quantifier": "every ellipse", "why_tests_cant": "All reals.", "anchors": ["tractor/ellipses.py:EllipseE.getAllStepSizes"]}
{"id": "C87", "title": "Multi-band brightnesses keep their bands apart, whatever other objects exist", "statement": "A MultiBandBrightness accepts exactly the orders that rearrange its bands, lists its parameters in that order, and getting or setting a band affects that band only, independent of other brightness objects and of pickling; copies have the same values. False for bands the object lacks (setBand succeeds silently unless another object has the band), and for the frozen flags of copies.", "quantifier": "every set of bands and order, every history of other objects, every value", "why_tests_cant": "All histories of the shared class.", "anchors": ["tractor/brightness.py:MultiBandBrightness", "tractor/utils.py:NamedParams._addNamedParams"]}
{"id": "C88", "title": "Counts of brightnesses add, scale and agree between magnitudes and nanomaggies", "statement": "In each band the sum of brightnesses has the sum of their fluxes, a multiple the multiple of the flux (absolute value for magnitudes); image counts of a sum are the sum of counts; NanoMaggies.fromMag with LinearPhotoCal(zeropointToScale(zp)) makes the counts of MagsPhotoCal(zp); MAGZP headers hold that zeropoint. False beyond magnitude 50 and for negative nanomaggies with MagsPhotoCal.", "quantifier": "every brightness, zeropoint, scale", "why_tests_cant": "All reals and band sets.", "anchors": ["tractor/brightness.py:Mags", "tractor/brightness.py:Fluxes", "tractor/brightness.py:MagsPhotoCal", "tractor/brightness.py:LinearPhotoCal"]}
{"id": "C89", "title": "Magnitude errors follow from flux errors to first order", "statement": "fluxErrorsToMagErrors returns for positive fluxes the magnitude and, if the inverse variance is positive, the flux error times the absolute slope of the magnitude as a function of flux; NaN otherwise.", "quantifier": "every array of fluxes and inverse variances", "why_tests_cant": "All reals.", "anchors": ["tractor/brightness.py:NanoMaggies.fluxErrorsToMagErrors"]}
{"id": "C90", "title": "Settings of a Tractor apply to all its rendering", "statement": "Every keyword given as model_kwargs reaches each source rendering of model images and chi images and each source derivative, unless the call overrides it; chi images are (data - model image) times inverse errors with default arguments. (Fails for minsb, for chi images with minsb, and for derivatives.)", "quantifier": "every tractor, settings dictionary, call arguments and external rendering code", "why_tests_cant": "All settings and all sources; a test fixes one keyword.", "anchors": ["tractor/engine.py:Tractor.__init__", "tractor/engine.py:Tractor.getModelPatch", "tractor/engine.py:Tractor.getModelImage", "tractor/engine.py:Tractor.getChiImage", "tractor/engine.py:Tractor.getDerivs"]}
{"id": "C91", "title": "The box optimizer minimises the chi-squared of whole images", "statement": "SmarterDenseOptimizer.getUpdateDirection, which builds its matrix only from the pixels covered by derivatives and only for parameters with derivatives or priors, returns (with an exact solver) a minimiser of the linearised chi-squared over all pixels of the images and all parameters, with or without column scaling, leaving parameters without derivatives and priors unchanged. Holds when all overlapping derivatives of an image cover one box; otherwise it raises RuntimeError, or KeyError for an image no derivative overlaps, where the dense optimizer succeeds.", "quantifier": "all derivative lists, images, boxes, prior lists and exact solvers", "why_tests_cant": "All matrices, box positions and patterns of live columns.", "anchors": ["tractor/smarter_dense_optimizer.py:SmarterDenseOptimizer.getUpdateDirection"]}
{"id": "C92", "title": "get_cov returns the inverse covariance matrix", "statement": "With get_cov=True SmarterDenseOptimizer returns the numbers of the parameters with derivatives or priors in increasing order, their update, and the matrix whose element for parameters k and l is the sum over all pixels of the product of the two derivatives times the inverse variance, plus the prior terms. Fails with scale_columns=False, where the matrix is always zero.", "quantifier": "all derivative lists, images, boxes and prior lists", "why_tests_cant": "All matrices and all pairs of parameters.", "anchors": ["tractor/smarter_dense_optimizer.py:SmarterDenseOptimizer.getUpdateDirection"]}
{"id": "C93", "title": "Inverse variances of forced photometry", "statement": "With variance=True forced photometry reports for each flux parameter the sum over all images and pixels of (unit-flux model x photometric scale x inverse error) squared, wherever the models lie relative to the image edges; this is half the second derivative of the chi-square that forced photometry minimises with respect to that flux. Asking for sky variances as well (sky=True, skyvariance=True) fails with a ValueError.", "quantifier": "all images, inverse errors, unit-flux models (missing, overlapping an edge, off the image), scales, data and fluxes", "why_tests_cant": "A reused work array and slices trimmed at the edges: all positions and orders of patches matter.", "anchors": ["tractor/optimize.py:_get_iv", "tractor/optimize.py:_getims"]}
{"id": "C94", "title": "Fit statistics of forced photometry", "statement": "With fitstats=True each thawed source gets the profile-weighted sums over all images that the names say (chi-squared, pixels, masked pixels, flux of other sources, number of pixels, fraction of the flux inside, extra images), its profile being its own components weighted by their counts, the images get their chi-squared and number of good pixels, and the model images are unchanged afterwards. Holds if thawed sources precede frozen ones, every sky has a val and no unit-flux model begins left of or below its image; each of these conditions is necessary, and images in which a source is completely masked count for nothing.", "quantifier": "all catalogs, images, numbers of components, unit-flux models, counts, masks and extra images", "why_tests_cant": "Shared work arrays couple all sources and images; all catalogs and positions.", "anchors": ["tractor/optimize.py:_get_fitstats", "tractor/optimize.py:_get_umodels"]}
{"id": "C95", "title": "Galaxies with a pixelized PSF in a model mask", "statement": "Rendering a galaxy with a pixelized PSF in a model mask that contains its centre raises no error and gives a model with exactly the mask's origin and shape, whose value in pixel (x, y) is the convolution of profile and PSF interpolated at the sub-pixel position of the centre, at the right distance from the centre, never outside the transformed image; masks that call for the same transform size agree where they overlap. If the C library is missing or stamp and mask are small the sub-pixel position is ignored. If the centre is outside the mask there is no model when the mask is farther away than the galaxy's radius, and otherwise a RuntimeError (hybrid PSF: the analytic model); outside begins at the centres of the outermost pixels.", "quantifier": "all stamps of odd size, profiles, masks, centres (any real numbers)", "why_tests_cant": "All combinations of mask, stamp size and sub-pixel centre matter for the index arithmetic and the assertions.", "anchors": ["tractor/galaxy.py:ProfileGalaxy._realGetUnitFluxModelPatch", "tractor/psf.py:PixelizedPSF.getFourierTransform", "tractor/psf.py:lanczos_shift_image"]}
{"id": "C96", "title": "Galaxies rendered without a mask", "statement": "Without a model mask the model of a galaxy lies inside the image, contains every pixel of the image within its patch half size (less one pixel with a pixelized PSF) of the centre and has the right value in each pixel; if no model is returned then no pixel of the image is that close. The half size is such that every pixel of the image within the galaxy's radius less one pixel is included. With a pixelized PSF this needs a centre not more than the half size beyond the last row and column; otherwise the model may lie outside the image.", "quantifier": "all image sizes, centres, half sizes, stamps of odd size, profiles", "why_tests_cant": "Clipping with numpy slices depends on all relative positions of image, patch and transform.", "anchors": ["tractor/galaxy.py:ProfileGalaxy._realGetUnitFluxModelPatch", "tractor/galaxy.py:HoggGalaxy._getUnitFluxPatchSize"]}
{"id": "C97", "title": "Galaxies with a hybrid PSF", "statement": "With a hybrid PSF the components of a galaxy profile are divided between the analytic and the Fourier rendering in shares s and 1 - s, where s is 1 for components whose inner_real_nsigma sigmas reach the edge of the transform, 0 for those whose outer_real_nsigma sigmas do not, and linear between; no assertion fails, no flux is lost or counted twice, and the model is the sum of the two renderings. This needs inner < outer: otherwise components are lost.", "quantifier": "all profiles with non-negative sizes, transform sizes, thresholds 0 <= inner < outer, masks, centres", "why_tests_cant": "Boundary cases of two thresholds for arbitrary mixtures; assertions on computed weights.", "anchors": ["tractor/galaxy.py:ProfileGalaxy._realGetUnitFluxModelPatch"]}
{"id": "C98", "title": "Mixtures rendered down to a minimum value", "statement": "evaluate_grid_approx3 ends for every mixture and box. For a centre in the box the array holds the value of the mixture in exactly the pixels reached from the centre by steps outwards, one ring at a time, that leave only pixels within minradius or not below minval, and zero elsewhere; every pixel of the box up to one ring beyond minradius is returned with its value. For a mixture that falls off along rows and columns no pixel at or above minval is lost, sliced or not. A centre outside the box gives the rendering from the brightest pixel of the facing edges, and None if it is more than maxmargin outside. With slicing, pixels of narrow tilted sources at or above minval that were evaluated are cut off: the slice is not the bounding box of the non-zero pixels.", "quantifier": "all functions giving pixel values, boxes, centres, minval, minradius, maxmargin", "why_tests_cant": "Which pixels are visited depends on the whole image; the marks of four sides and eight edge cases interact.", "anchors": ["tractor/approx3.c:c_gauss_2d_approx3", "tractor/mixture_profiles.py:MixtureOfGaussians.evaluate_grid_approx3"]}
{"id": "C99", "title": "Evaluating mixtures of Gaussians", "statement": "For positive definite covariances evaluate, evaluate_grid, evaluate_3, evaluate_grid_masked and the pixels of evaluate_grid_approx3 give the density of the mixture (amplitude times normal density, summed) at the position, less (fx, fy) on grids. Components are left out only where negligible: the total error is at most exp(-50), exp(-50), exp(-350), exp(-30) times the sum of the peaks; for non-negative amplitudes and a minimum value, evaluated pixels of evaluate_grid_approx3 fall short by at most minval plus exp(-100) times the peaks and never exceed the density. Pixels outside the mask are zero. The derivatives returned are the derivatives of the density of the components kept as fx and fy move.", "quantifier": "all mixtures with positive definite covariances, positions, offsets, masks, minimum values", "why_tests_cant": "Real-analytic identities and error bounds over all covariances and positions; five separately written implementations.", "anchors": ["tractor/mix.i:c_gauss_2d", "tractor/mix.i:c_gauss_2d_grid", "tractor/mix.i:eval_all_dxy", "tractor/approx3.c:c_gauss_2d_approx3", "tractor/gauss_masked.c:c_gauss_2d_masked", "tractor/mixture_profiles.py:MixtureOfGaussians.evaluate_3"]}
{"id": "C100", "title": "The Fourier transform of a mixture is that of its density", "statement": "getFourierTransform(v, w) of a mixture with positive definite covariances is the integral over the plane of its density times exp(-2 pi i (v x + w y)), at every real frequency; the density integrates to the sum of the amplitudes. So the analytic and the Fourier rendering of a galaxy are of the same profile.", "quantifier": "all non-empty mixtures with positive definite covariances, all real frequencies", "why_tests_cant": "Integrals over the plane for arbitrary means and covariances.", "anchors": ["tractor/mixture_profiles.py:MixtureOfGaussians.getFourierTransform", "tractor/mixture_profiles.py:MixtureOfGaussians.evaluate"]}
{"id": "C101", "title": "convolve convolves", "statement": "The density of a.convolve(b) is at every position the convolution integral of the densities of a and b, in either order; the integrals converge and the result again has positive definite covariances.", "quantifier": "all mixtures with positive definite covariances, all positions", "why_tests_cant": "Integrals over the plane for arbitrary means and covariances.", "anchors": ["tractor/mixture_profiles.py:MixtureOfGaussians.convolve"]}
{"id": "C102", "title": "A subimage models what the image models there", "statement": "im.subimage(x0, x1, y0, y1) with bounds inside the image has the pixels and inverse errors of the rectangle, and its model image for any list of point sources (on or off the tile) equals the model image of the whole in that rectangle, pixel by pixel; subimages can be cut again. Holds for FITS WCS, pixelized, PsfEx and constant mixture PSFs, null, constant and spline skies and exact rendering, except: sources in a narrow strip outside the tile whose patch just reaches it are dropped; stamps exactly half-way between pixels move with odd offsets; negative bounds, NullWCS and modelMinval are mistreated; VaryingGaussianPSF tiles that start beyond their own width show no point source at all.", "quantifier": "all images, tiles, lists of point sources, interpolation kernels, stamps, mixtures", "why_tests_cant": "Relates two renderings through shifted WCS, PSF and sky for all offsets, positions and sizes; the exceptions are measure-zero or in narrow strips.", "anchors": ["tractor/image.py:Image.subimage", "tractor/shifted.py:ShiftedPsf.getPointSourcePatch", "tractor/psf.py:GaussianMixturePSF.getPointSourcePatch", "tractor/psf.py:PixelizedPSF.getPointSourcePatch", "tractor/pointsource.py:PointSource.getUnitFluxModelPatch", "tractor/psfex.py:PsfExModel", "tractor/splinesky.py:SplineSky.shifted", "tractor/wcs.py:ConstantFitsWcs.shifted"]}
{"id": "C103", "title": "Chi-squared adds up over tiles", "statement": "If rectangles cover every pixel of an image exactly once, then the chi-squared of the image for a list of point sources is the sum of the chi-squareds of its subimages, each of which can be computed; so an image may be cut up without changing the likelihood. Under the conditions of C102.", "quantifier": "all images, tilings by rectangles of any number and shape, lists of point sources", "why_tests_cant": "Arbitrary tilings; sources spread over several tiles.", "anchors": ["tractor/image.py:Image.subimage", "tractor/engine.py:Tractor.getChiImage", "tractor/engine.py:Tractor.getLogLikelihood"]}
{"id": "C104", "title": "Each step of a mixture fit improves the posterior", "statement": "Every step of em_fit_2d_reg on an image without negative pixels gives a mixture whose log posterior (Poisson likelihood of the image, inverse Wishart prior of strength alpha on the covariances) is at least that of the mixture before without what the code cuts off at ten standard deviations, over the pixels within reach; while all the light is within ten standard deviations of every component a fit with alpha > 0 succeeds, keeps amplitudes positive and covariances positive definite, and any number of steps never makes the posterior worse. If (width^2 + height^2)(flux + alpha) <= 100 alpha this holds without a condition on later steps.", "quantifier": "all images, numbers of components, starting mixtures, numbers of steps, alpha", "why_tests_cant": "Monotonicity of an iteration over real parameters, for all images and all starts; needs Gibbs' inequality and the optimality of weighted moments.", "anchors": ["tractor/emfit.i:em_fit_2d_reg", "tractor/psf.py:GaussianMixturePSF.fromStamp"]}
{"id": "C105", "title": "What a fitted mixture looks like", "statement": "After one or more steps of em_fit_2d_reg that end with numbers: every amplitude is positive, every mean is inside the image, every covariance is symmetric and at least alpha/(flux+alpha) in every direction, and the amplitudes add up to the light within reach of the mixture before the last step. The amplitudes of GaussianMixturePSF.fromStamp add up to the positive light of the stamp divided by its sum: 1 without negative pixels, more than 1 with them. Without regularisation (the default) light on a line makes all covariances singular, which fromStamp does not notice; a component ten sigma from all light turns everything into NaN although success is reported.", "quantifier": "all images, starting mixtures, numbers of steps, alpha >= 0", "why_tests_cant": "Bounds on all components after any number of steps; the failures need degenerate or noisy stamps.", "anchors": ["tractor/emfit.i:em_fit_2d_reg", "tractor/psf.py:GaussianMixturePSF.fromStamp", "tractor/fitpsf.py:em_init_params"]}
{"id": "C106", "title": "Mixture fits with a sky", "statement": "em_fit_2d_reg2 on an image of positive sum keeps amplitudes and sky positive, and amplitudes plus sky times number of pixels add up to the sum of absolute values of the pixels. On images without negative pixels each step makes the log posterior (with the sky as a constant background) worse by at most approx * flux^2 / sky, the effect of the approximation. Negative pixels count as light of the sky: it is at least their absolute sum divided by the number of pixels.", "quantifier": "all images, starting mixtures, numbers of steps, alpha, approx > 0", "why_tests_cant": "An error bound for all inputs of an iteration that updates the covariances about the old means; monotone only in the exact limit.", "anchors": ["tractor/emfit2.c:em_fit_2d_reg2"]}
{"id": "C107", "title": "Layout of the GPU optimizer's arrays", "statement": "GpuOptimizer.get_image_params places the mask of every image in square arrays of one size, a power of two, the source's rounded position at the centre, zeros outside the mask, at least six pixels around it, the PSF stamp centred in the same way; its limits of dx, dy are exactly the shifts for which every pixel of positive weight stays covered, and allow at least six pixels each way.", "quantifier": "all images, masks inside them, PSF stamps and positions, also outside the mask", "why_tests_cant": "Sizes, parities and positions relative to the mask interact; a test sees a few combinations.", "anchors": ["tractor/gpu_optimizer.py:get_image_params", "tractor/gpu_optimizer.py:gpu_setup_image_params", "tractor/gpu_optimizer.py:get_vectorized_psfs"]}
{"id": "C108", "title": "Point sources rendered on the GPU", "statement": "gpu_one_source_models returns for a point source patches that cover exactly the masks and agree in every pixel with the model the CPU code makes (PixelizedPSF.getPointSourcePatch times counts), whatever uninitialised memory contains; with cached arrays the same holds for moves of up to three pixels, six if the arrays are as large as the PSF. The GPU's interpolation of an image equals that of the CPU.", "quantifier": "all images, masks, stamps, positions, counts, Lanczos windows", "why_tests_cant": "Equality of two differently organised computations with special cases at six edges, for every size.", "anchors": ["tractor/gpu_optimizer.py:gpu_one_source_models", "tractor/gpu_optimizer.py:correlate7_2d_gpu", "tractor/gpu_optimizer.py:lanczos_shift_images_gpu"]}
{"id": "C109", "title": "Line search on the GPU", "statement": "gpu_one_source_try_updates for a point source (or constant surface brightness) leaves the tractor at the best of the steps it visits, or where it was if none is better, for the log-prior minus half chi-squared of the masked images; the gain returned is the exact difference; bounds stay respected. It stops early only at a step beyond a million pixels, without finite log-probability, or worse by more than 1. If no step is too far, parameters, gain and fraction are those of the CPU line search. Cached arrays do not change this and are kept. From a position beyond a million pixels nothing moves.", "quantifier": "all images, masks, weights, PSF stamps, parameter trees, update directions, fractions, priors finite at the start; steps of up to three pixels (six if the arrays are as large as the PSF)", "why_tests_cant": "Equality of the differences of chi-squared computed on shifted padded arrays with the CPU's objective, for every shift and every course of the search.", "anchors": ["tractor/gpu_optimizer.py:gpu_one_source_try_updates", "tractor/gpu_optimizer.py:_gpu_checks", "tractor/constrained_optimizer.py:tryUpdates"]}
{"id": "C110", "title": "Galaxy models computed on the GPU in batches are those of the galaxies", "statement": "gpu_get_unitflux_galaxy_profiles, for any number of images and profiles whose mixtures have any numbers of components in any order of size, fails no assertion and returns for every image and profile the mixture convolved with the PSF of that image: each component is split between the analytic method (convolved with the PSF's mixture) and the Fourier method (with the PSF's transform) in shares that add up to one and are those of the CPU code, and the sum is moved by the subpixel shift with the Lanczos-3 filter. The result for one image and profile does not depend on the others in the batch. With these models gpu_one_source_try_updates ends at the best of the steps it visits. A batch without any light raises an exception.", "quantifier": "all batches of mixtures with semidefinite covariances, PSF mixtures with determinants above 1e-30, array sizes of at least 6, subpixel shifts, and for the line search all images, masks, parameters and updates", "why_tests_cant": "the code cuts the components of the whole batch into two overlapping blocks whose position depends on the largest and smallest components of any galaxy in any image; a test sees a few batches, and whether a ramp is used in one galaxy depends on the others", "anchors": ["tractor/gpu_optimizer.py:927-1102", "tractor/gpu_optimizer.py:184-465", "tractor/gpu_optimizer.py:1104-1169", "tractor/galaxy.py:412-455"]}
{"id": "C111", "title": "Update direction on the GPU", "statement": "gpu_one_source_update for a point source or galaxy, with or without a constant surface brightness, or for a surface brightness alone, returns a change of the tractor's parameters, in their order, that minimises chi-squared of the masked pixels with the model replaced by its first-order expansion (central differences of pixels for the position, exact derivatives for fluxes and surface brightnesses, difference quotients for the shape) plus the linear form of the priors. Parameters that change no weighted pixel and have no prior stay as they are; None is returned only if all are such. If only fluxes are free, one update reaches the minimum of chi-squared itself. Cached arrays do not change this and are kept.", "quantifier": "all images, bands, masks, weights, PSF stamps, sources, shapes, priors on parameters seen by some image, photometric calibrations with factor 1, all solvers that solve least-squares problems; for cached arrays and point sources moves of up to two pixels (five if the arrays are as large as the PSF) or beyond the arrays", "why_tests_cant": "the matrix is assembled from padded, shifted arrays with columns renumbered by band, cut to live columns and rows, scaled, and the solution scattered back; only for all sizes and band orders together is it clear that nothing is misplaced", "anchors": ["tractor/gpu_optimizer.py:467-811"]}
{"id": "C112", "title": "Spline skies move, scale and copy as a whole", "statement": "offset(d) raises a SplineSky by d in every pixel, within the control points and outside, and leaves the smoothness prior unchanged; scale(b) multiplies it. The sky never leaves the range of its parameters. Changing one parameter changes pixels in proportion, by a share between 0 and 1 of the change that depends on no value, and only in the rectangle of knots of the parameter. copy() and shifted() give the same sky (moved), with the same parameters frozen. A sky with whole grid points and single-precision values survives to_fits_table and from_fits_row; what was read from a table is written and read again unchanged.", "quantifier": "all degrees, knots, coefficients, offsets, factors, pixels; all fits that interpolate uniquely", "why_tests_cant": "that all shares add up to one at every position, for every degree and every spacing of knots, and nowhere exceed the range of the coefficients, is a property of B-splines in general; examples show it for some grids", "anchors": ["tractor/splinesky.py:SplineSky.offset", "tractor/splinesky.py:SplineSky.scale", "tractor/splinesky.py:SplineSky.copy", "tractor/splinesky.py:SplineSky.shifted", "tractor/splinesky.py:SplineSky.addTo", "tractor/splinesky.py:SplineSky.to_fits_table", "tractor/splinesky.py:SplineSky.from_fits_row"]}
{"id": "C113", "title": "Composite galaxies are the weighted sum of their parts", "statement": "The profile of a FixedCompositeGalaxy has total one and is fracDev times the de Vaucouleurs profile plus (1 - fracDev) times the exponential profile, each in its own shape, with fracDev brought to [0, 1]; the region rendered contains what is within the radius of each part. Its model image with counts c is that of the CompositeGalaxy with counts (1 - f) c and f c. The model image of a CompositeGalaxy is the sum of counts times unit-flux patches in the order of getBrightnesses(). SoftenedFracDev lies strictly between 0 and 1, increases, and derivative() is its derivative; the fracDev entry of getParamDerivatives is the derivative of the model in every pixel.", "quantifier": "all fractions, shapes, WCS matrices, profiles of total one, counts, masks, renderers; any quantity that adds over Gaussians", "why_tests_cant": "sums over arbitrary mixtures and every value of the fraction, including the ends where a part is left out; derivatives are limits", "anchors": ["tractor/galaxy.py:FixedCompositeGalaxy._getAffineProfile", "tractor/galaxy.py:FixedCompositeGalaxy._getShearedProfile", "tractor/galaxy.py:FixedCompositeGalaxy._getUnitFluxPatchSize", "tractor/galaxy.py:FixedCompositeGalaxy.getParamDerivatives", "tractor/galaxy.py:CompositeGalaxy.getModelPatch", "tractor/galaxy.py:CompositeGalaxy.getUnitFluxModelPatches", "tractor/galaxy.py:SoftenedFracDev", "tractor/pointsource.py:SingleProfileSource.getModelPatch"]}
{"id": "C114", "title": "Sersic profiles exist for every index, have total one, follow the table and vary continuously except at two indices", "statement": "SersicMixture.getProfile(n) returns for every number n a mixture of round Gaussians about the origin, ordered by variance, with total one. Indices below 0.29 or above 6.3 give the profile for the nearest end. At a tabulated index the profile is the tabulated mixture, and above 1 it has a point-like core with the tabulated fraction. Every quantity that adds over Gaussians and is continuous in the variance changes continuously with n, also where the number of components changes and where the core begins, except at n = 0.51 and n = 0.57, where the rows of neighbouring ranges differ and profiles jump.", "quantifier": "all Sersic indices, all interpolating splines whose amplitudes do not add up to zero, all quantities", "why_tests_cant": "continuity is a statement about limits at every index, and the interpolation is not evaluated here", "anchors": ["tractor/sersic.py:SersicMixture.__init__", "tractor/sersic.py:SersicMixture._getProfile", "tractor/sersic.py:SersicMixture.getProfile", "tractor/mixture_profiles.py:MixtureOfGaussians.set_var"]}
{"id": "C115", "title": "Derivatives of Sersic galaxies are aligned with their parameters and belong to the step taken", "statement": "SersicGalaxy.getParamDerivatives returns one entry for each thawed parameter, the last one for the Sersic index being the difference quotient of the model image, taken towards smaller indices when a step up would exceed the upper bound. getDerivativeShearedProfiles returns for each thawed shape parameter and for the index the profile belonging to the step returned with it; the step for the index does not exceed the upper bound, and the number of Gaussians is kept if a step up or down within the bounds keeps it. Both leave the galaxy unchanged, also after an exception. copy() of a fully thawed galaxy has the same values and flags.", "quantifier": "all galaxies, freeze patterns, renderers, calibrations, indices, bounds and step sizes", "why_tests_cant": "arbitrary renderers and component counts on both sides of the index; exceptions in the middle of a step", "anchors": ["tractor/sersic.py:SersicGalaxy.getParamDerivatives", "tractor/sersic.py:SersicGalaxy.getDerivativeShearedProfiles", "tractor/sersic.py:SersicGalaxy.copy", "tractor/sersic.py:SersicIndex", "tractor/galaxy.py:HoggGalaxy.getDerivativeShearedProfiles"]}
{"id": "C116", "title": "Moving point sources are rendered where they are at the time of the image", "statement": "MovingPointSource.getPositionAtTime(t) is the position moved by the proper motion times the Julian years since the epoch (a number of seconds or a TAITime), displaced by the parallax times a vector in the plane of the ecliptic whose length is one arcsecond; so it is the position itself at the epoch without parallax, uniform motion without parallax, and periodic with a year without proper motion. getParamDerivatives returns one entry for each thawed parameter (position, brightness, proper motion, parallax), the difference quotient of the model image at the time of the image, and leaves the source unchanged, also after an exception. TAITime converts between seconds, MJD and years. Like other sources a moving source can be copied, and has None derivatives where it is not rendered.", "quantifier": "all sources, epochs, times, freeze patterns, step sizes, calibrations, WCS, PSFs and coordinate conversions", "why_tests_cant": "all times, arbitrary renderers; exceptions in the middle of a step", "anchors": ["tractor/motion.py:MovingPointSource.getPositionAtTime", "tractor/motion.py:MovingPointSource.getParamDerivatives", "tractor/motion.py:ParallaxWithPrior", "tractor/tractortime.py:TAITime"]}
{"id": "C117", "title": "Oversampled and normalised PSF images", "statement": "A point source rendered with an oversampled pixelized PSF (sampling != 1) is the PSF image interpolated at (pixel - source)/sampling from its centre, in exactly the pixels of the model mask, or of the native stamp around the nearest pixel, restricted to the radius if one is given. Its Fourier transform is that of the PSF in the middle of an image of the asked size, centred on the returned position. NormalizedPixelizedPsf and NormalizedPixelizedPsfEx divide by the sum: images, transforms and unmasked point sources have flux one. A varying PSF and its constantPsfAt(x,y) have the same image, point source and transform at (x,y). What a PSF returns does not depend on what was asked before, although transforms are cached and normalised in place.", "quantifier": "all images, samplings, positions, masks, radii, sizes, eigen-images and histories of calls; any homogeneous interpolation and linear transform", "why_tests_cant": "all histories of calls on a mutable object; all parities of the stamp sizes; arbitrary interpolation", "anchors": ["tractor/psf.py:PixelizedPSF._sampleImage", "tractor/psf.py:PixelizedPSF._getOversampledPointSourcePatch", "tractor/psf.py:PixelizedPSF._getOversampledFourierTransform", "tractor/psf.py:PixelizedPSF.getFourierTransform", "tractor/psf.py:NormalizedPsf", "tractor/psfex.py:PixelizedPsfEx.getFourierTransform", "tractor/psfex.py:NormalizedPixelizedPsfEx.constantPsfAt"]}
{"id": "C118", "title": "PSFs fitted on a grid and cached give the PSF at the position", "statement": "A VaryingGaussianPSF fitted lazily on an nx by ny grid over the image has, at each node of the grid, exactly the parameters fitted to the PSF image there (the fit starting from the neighbouring node), and its answers do not depend on which positions were asked for before; splines restored from saved data are the same. CachingPsfEx.psfAt(x,y) is the PSF at the centre of the cell of (x,y), for any history of calls, cache evictions and pickling, and that centre is at most half a cell (and half a pixel more for cells of odd size) away. A CachingPsfEx made with fromPsfEx agrees with the PSF it was made from.", "quantifier": "all subclasses (any instantiateAt), fitting routines and interpolating splines, grid sizes, image sizes, histories of calls, positions and cell sizes", "why_tests_cant": "all histories of calls with cache evictions; arbitrary fits and positions", "anchors": ["tractor/psfex.py:VaryingGaussianPSF._fitParamGrid", "tractor/psfex.py:VaryingGaussianPSF.fitSavedData", "tractor/psfex.py:VaryingGaussianPSF.psfParamsAt", "tractor/psfex.py:CachingPsfEx.psfAt", "tractor/psfex.py:CachingPsfEx.fromPsfEx"]}
{"id": "C119", "title": "PSFs of concentric Gaussians render themselves, whatever was rendered before", "statement": "NCircularGaussianPSF.getPointSourcePatch returns the sum of the circular Gaussians with the PSF's weights and sigmas at the position, on all pixels within getRadius() of it that are inside the clipping rectangle (or on the extent of the model mask). The mixture objects, which PSFs with equal values share through an lru_cache and whose means are moved during rendering, do not carry anything over from one call to the next. Point sources outside the image do not make rendering fail. The weights are normalised.", "quantifier": "all PSFs, positions, radii, masks, clipping rectangles and histories of calls on any PSFs", "why_tests_cant": "all histories of calls on shared mutable objects; arbitrary positions", "anchors": ["tractor/psf.py:NCircularGaussianPSF.getPointSourcePatch", "tractor/psf.py:getCircularMog", "tractor/psf.py:NCircularGaussianPSF.getRadius", "tractor/psf.py:NCircularGaussianPSF.applyTo", "tractor/mixture_profiles.py:mixture_to_patch", "tractor/pointsource.py:PointSource.getUnitFluxModelPatch"]}
{"id": "C120", "title": "Images survive FITS files and copies", "statement": "Image.readFromFits applied to what Image.toFits wrote, under any prefix and into any header, gives an image with the same pixels, inverse errors, PSF, WCS, sky and photometric calibration; if that is impossible writing fails rather than reading, and no image with different calibrations is ever read. Image.copy() gives an image with the same pixels, inverse errors, calibrations, name and time.", "quantifier": "all images of the modelled calibration classes with any frozen/thawed states, all prefixes and headers", "why_tests_cant": "arbitrary numbers of PSF components, frozen states, prefixes and existing headers", "anchors": ["tractor/image.py:Image.toFits", "tractor/image.py:Image.getFitsHeader", "tractor/image.py:Image.readFromFits", "tractor/image.py:Image.copy", "tractor/ducks.py:ImageCalibration.toFitsHeader", "tractor/ducks.py:ImageCalibration.fromFitsHeader", "tractor/psf.py:GaussianMixturePSF.fromFitsHeader"]}
{"id": "C121", "title": "Forced photometry on overlapping tiles reports the fit of the nearest tile", "statement": "unwise_forcedphot returns, for every source and band, the flux, inverse variance, fit statistics and tile from the fit of the tile whose centre is nearest to the source among the tiles whose image contains it; sources inside no image have flux and inverse variance zero. The result for a source does not depend on the order in which the tiles are given, on other bands or on the fluxes in the catalogue before the call.", "quantifier": "all catalogues (points and galaxies, in any order), tiles (whole or cut to a region, in any order), bands and outcomes of the fits", "why_tests_cant": "arbitrary overlaps of tiles and orders of processing; state kept in the sources and arrays from one tile and band to the next", "anchors": ["wise/forcedphot.py:unwise_forcedphot", "wise/unwise.py:unwise_tile_wcs", "wise/unwise.py:get_unwise_tractor_image"]}
{"id": "C122", "title": "Reddening is interpolated from the pixels around the position", "statement": "SFDMap.ebv gives each source, independently of the others in the call, the reddening interpolated from the map of its Galactic hemisphere at its position: between the least and greatest of the non-zero pixels around it, zero only if they all are zero, the bilinear value where none is zero; it raises only for positions outside the map. extinction multiplies it by the coefficient of each filter and raises KeyError for filters without one.", "quantifier": "all maps without negative pixels, all arrays of positions in either hemisphere and lists of filters", "why_tests_cant": "every position between pixels, patterns of zero pixels, the edges of the maps and mixtures of hemispheres", "anchors": ["tractor/sfd.py:SFDMap.bilinear_interp_nonzero", "tractor/sfd.py:SFDMap.ebv", "tractor/sfd.py:SFDMap.extinction"]}
{"id": "C123", "title": "Equal cache keys mean equal models", "statement": "Model patches are cached under the hash of the hash keys of the image and the source. Two images and sources with equal keys render equally, so a cached patch is never that of another source, image, PSF, WCS or calibration, nor of an earlier state of the same objects.", "quantifier": "all images and sources built from parameter lists, containers, WCS, PSFs, photometric calibrations and their shifted and scaled wrappers, all histories of requests", "why_tests_cant": "collisions between states of nested objects of many classes; only particular pairs of values collide", "anchors": ["tractor/utils.py:BaseParams.hashkey", "tractor/utils.py:MultiParams.hashkey", "tractor/wcs.py:ConstantFitsWcs.hashkey", "tractor/psf.py:PixelizedPSF.hashkey", "tractor/psfex.py:PixelizedPsfEx.hashkey", "tractor/image.py:Image.hashkey", "tractor/cache.py:TractorCacheMixin.getModelPatch"]}
{"id": "C124", "title": "A TanWcs is its ten parameters", "statement": "A TanWcs behaves as ten numbers (crval, crpix, CD matrix, pixel offset), each frozen or thawed: after any sequence of setting parameters, freezing, thawing and moving the offset, the parameters read back, the pixel conversions, the CD matrix and pixel scale used by renderers, the bounds and steps, and copies are those of these numbers.", "quantifier": "all tangent projections, all histories of setParam, setParams, freezing, thawing and setX0Y0, all positions", "why_tests_cant": "what is derived from the parameters must follow them through every sequence of optimizer steps; a test sees the object once after construction", "anchors": ["tractor/wcs.py:TanWcs", "tractor/wcs.py:ConstantFitsWcs", "tractor/utils.py:ParamList"]}
{"id": "C125", "title": "Galaxies with a central point source are the sum of galaxy and point source", "statement": "A DevCoreGalaxy or SersicCoreGalaxy renders as the sum of its galaxy and of a point source at the same position, each with its own brightness, and its unit-flux patches go with getBrightnesses(), with any limit and keyword arguments a Tractor passes and an error of at most the limit; getParamDerivatives has one entry per thawed parameter in their order, the position entries being the sums of both, and leaves the source unchanged.", "quantifier": "all positions, brightnesses and shapes with all combinations of frozen parameters, all images, masks and limits, parts rendered or not", "why_tests_cant": "the alignment of derivatives with parameters depends on which parts are rendered and which parameters are frozen; tests render one centred galaxy with everything thawed", "anchors": ["tractor/devcore.py:DevCoreGalaxy", "tractor/sercore.py:SersicCoreGalaxy"]}
{"id": "C126", "title": "A rebinned image has the information and the intensities of the original", "statement": "scale_sdss_image(tim, S) returns an image with one pixel per whole S x S block: its inverse variance is the sum of those of the block and its value the mean weighted with them (zero if there is no information), so that any model constant on blocks differs in chi-squared between rebinned and original image by a constant; the position of the middle of a block is the middle of the new pixel and positions in a block fall in that pixel; and a point source with a Gaussian-mixture PSF has, in the new pixel, the intensity that the original model has at the middle of the block.", "quantifier": "all images and inverse variances (any shape, also those not multiples of S), all S > 0, all models, projections, PSF mixtures and positions", "why_tests_cant": "the claim is about all shapes and remainders and about exact sums; a test would rebin one image by two", "anchors": ["tractor/sdss.py:scale_sdss_image", "tractor/psf.py:GaussianMixturePSF.scaleBy", "tractor/shifted.py:ScaledPhotoCal", "tractor/shifted.py:ScaledWcs"]}
{"id": "C127", "title": "No unWISE tile that overlaps the target image is missed", "statement": "unwise_tiles_touching_wcs(wcs, polygons=False) returns, in the order of the table, every tile of the atlas that shares a direction on the sky with the target image, anywhere on the sky including the poles and ra = 0, for every tangent-plane target with square pixels in any orientation and with its reference pixel anywhere; with polygons=True it returns those of them whose polygon intersects that of the target.", "quantifier": "all tables of tiles, all targets (centre, radius, set of directions), all positions on the sphere", "why_tests_cant": "a missed tile shows only where corners just touch, near the poles or across ra = 0; the claim is about all pairs of tile and target", "anchors": ["wise/unwise.py:unwise_tiles_touching_wcs", "wise/unwise.py:unwise_tile_wcs"]}
{"id": "C128", "title": "The table of thawed parameters agrees with what is fitted", "statement": "getParamStateRecursive() of an object lists every value and every sub-object below it exactly once with its own state and whether its full path is thawed; the values whose full path is thawed are, by name and in order, those of getParamNames() and getParams(); getLiquidIndex(name) is the place of the named parameter among them; getThawedParams() and getFrozenParams() split the entries.", "quantifier": "all nested parameter objects with all combinations of frozen entries, missing parts and unnamed values, all names", "why_tests_cant": "the doctest shows one catalog with one source; agreement of two recursive traversals is a property of all trees", "anchors": ["tractor/utils.py:NamedParams.getParamStateRecursive", "tractor/utils.py:MultiParams.getParamStateRecursive", "tractor/utils.py:NamedParams.getLiquidIndex", "tractor/utils.py:NamedParams.getThawedParams"]}
{"id": "C129", "title": "Sources from an SDSS catalog are the objects asked for, each with its own flux, kind and shape", "statement": "get_tractor_sources_dr8/dr9(...) with a table returns one source for each object within the cuts that is a star or a galaxy, no others, in order, and the index returned beside them gives the row of each; a source is at the position of its row, a point source just if the row is a star, else with a de Vaucouleurs and/or exponential part as the fraction of de Vaucouleurs light says; its parts add up to the catalog's flux of that kind in each band; shapes are those of bandname with the angle reversed and a radius of at least 1/30; bands and extrabands appear in order, extra bands starting at the flux of the first band.", "quantifier": "all tables, all combinations of cuts, bands, extra bands and options (nanomaggies or magnitudes, fixed composites, forced point sources, useObjcType)", "why_tests_cant": "needs SDSS files; row alignment after several cuts and skipped rows is a statement about all tables", "anchors": ["tractor/sdss.py:_get_sources", "tractor/sdss.py:get_tractor_sources_dr8", "tractor/sdss.py:get_tractor_sources_dr9"]}
{"id": "C130", "title": "Sources from a SourceExtractor catalog are those of their own rows", "statement": "get_se_modelfit_cat(T, maglim, bands) returns a catalog and an index: the index lists, in order, the rows with a fit no fainter than maglim; the k-th source belongs to the k-th row of the index: a point source at (ra, dec) with the PSF magnitude if that fits better, else a galaxy at the model position with a de Vaucouleurs part for a spheroid and an exponential part for a disk no fainter than maglim, with their own shapes, the sum of their fluxes and the spheroid's share.", "quantifier": "all tables, limits and lists of bands, including magnitudes that are NaN", "why_tests_cant": "variables kept from earlier rows matter only in particular orders of rows; alignment and shapes are statements about all tables", "anchors": ["tractor/source_extractor.py:get_se_modelfit_cat"]}
{"id": "C131", "title": "The calibration of an SDSS image behaves as a WCS with parameters", "statement": "For an SdssWcs: pixelToPosition and positionToPixel are inverse to each other if those of the frame are, for every offset; in a part of a frame (roi) every pixel has the position and matrix it has in the whole frame; setParams then getParams gives what was written and keeps frozen values; cdInverseAtPixel is the inverse of cdAtPixel in every state; cdAtPixel is the frame's matrix, or that of the pixel last given to setConstantCd; bounds and step sizes go with the parameters; copy() gives an equal object.", "quantifier": "all calibrations (as functions of their parameters), offsets, pixels, positions, sets of frozen parameters and sequences of calls", "why_tests_cant": "needs SDSS files; statements about all states and positions", "anchors": ["tractor/sdss.py:SdssWcs", "tractor/sdss.py:_get_tractor_image_dr8"]}
{"id": "C132", "title": "Photometric calibrations from headers (CFHT, SDSS DR7)", "statement": "CfhtPhotoCal for magnitudes and CfhtLinearPhotoCal for fluxes made from one header give a star the same counts, those of the formula in the header; brighter stars have more counts; setting phot_c to q is read back and multiplies counts by 10^((q-p)/2.5); copies give equal counts; a finite-difference step as the optimizer takes it leaves the parameter as it was; equal hashkeys mean equal counts; SdssMagsPhotoCal gives exptime*10^(-0.4(mag+aa+kk*airmass)), and 0 beyond magnitude 50 or for a magnitude that is not finite, and can be imported.", "quantifier": "all headers with positive exposure time, magnitudes, parameter values and bands", "why_tests_cant": "identities over all real headers and magnitudes", "anchors": ["tractor/cfht.py:CfhtPhotoCal", "tractor/cfht.py:CfhtLinearPhotoCal", "tractor/sdss_dr7.py:SdssMagsPhotoCal", "tractor/engine.py:Tractor.getDerivs"]}
{"id": "C133", "title": "The ordered dictionary is a list of items in order of insertion", "statement": "For tractor.ordereddict.OrderedDict and every sequence of assignments, removals, lookups, pop, popitem, setdefault, update and clear: each call returns or raises what it would for a list of items in order of first insertion; iteration and reversed iteration end and give the keys in that order, items() and len() agree; copies and unpickled objects have the same items and behave the same from then on; == compares items and order; a loop that removes keys during iteration is given each key that is still there once; the Cache over it answers every history of calls as the Cache over collections.OrderedDict.", "quantifier": "all keys and values, all sequences of operations, all predicates for removal", "why_tests_cant": "a pointer structure whose invariant must survive every sequence of calls", "anchors": ["tractor/ordereddict.py:OrderedDict", "tractor/cache.py:Cache"]}
{"id": "C134", "title": "Fitting a mixture to samples never makes the posterior worse and keeps the moments of the samples", "statement": "For tractor.emfit.em_fit_1d_samples_reg(x, amp, mean, var, alpha, steps) and em_fit_1d_samples: when 0 is returned the arrays hold a mixture with positive amplitudes and variances, whose posterior (likelihood times inverse Wishart prior of strength alpha) is at least that of the starting values, for any number of steps; after each step the amplitudes add to the fraction of samples within ten standard deviations of a component, the mean of the mixture is that of the samples and without regularisation so is its variance; means are within the range of the samples and variances at least alpha/(N+alpha); one component is fitted in one step; components that start equal stay equal; arrays of different lengths are refused and left alone.", "quantifier": "all samples, starting values, strengths alpha >= 0, numbers of components and steps", "why_tests_cant": "an inequality between sums of logarithms for all data, and an invariant of every step", "anchors": ["tractor/emfit.i:em_fit_1d_samples_reg", "tractor/emfit.i:em_fit_1d_samples"]}
{"id": "C135", "title": "Forced photometry compares the data with the model image of the Tractor", "statement": "In Optimizer.forced_photometry without regions of interest, for all fluxes p that the optimizer may try, the model image that is compared with the data of an image (frozen sources plus p times scale times the unit-flux models, plus the sky) has the shape and the pixels of tractor.getModelImage(img, minsb=minsb) after catalog.setParams(p); it is affine in p, and does not depend on the fluxes from which the fit starts.", "quantifier": "all images, catalogs of thawed and frozen sources with one or two brightnesses, unit-flux models, masks, thresholds, starting fluxes and fluxes", "why_tests_cant": "equality of two different renderings for every catalog, every flux and every pixel", "anchors": ["tractor/optimize.py:Optimizer.forced_photometry", "tractor/optimize.py:Optimizer._get_umodels", "tractor/engine.py:Tractor.getModelImage", "tractor/engine.py:Tractor.getModelPatch", "tractor/galaxy.py:CompositeGalaxy.getUnitFluxModelPatches", "tractor/galaxy.py:CompositeGalaxy._getModelPatches", "tractor/pointsource.py:SingleProfileSource.getModelPatch"]}
{"id": "C136", "title": "Bright SDSS point sources keep their flux and blend smoothly between the two PSF models", "statement": "SdssPointSource.getModelPatch renders counts times a weighted mean of the PSF of the image and of the bright PSF (two Gaussians and a power law): the weights add to one, the bright one is 0 up to thresh2 and 1 from thresh on, rises linearly in between, without jumps; so where both models hold their whole flux the source has its counts. SdssBrightPSF.getBrightPointSourcePatch has total one, contains all pixels within a radius of 25 to 200 pixels, chosen such that the power law that is left out is less than a thousandth of the pixel noise.", "quantifier": "all thresholds, counts, noise levels, parameters of the bright PSF, positions, patches of the two models and pixels", "why_tests_cant": "continuity and conservation of flux for all counts, and a bound on infinitely many pixels outside the patch", "anchors": ["tractor/sdss.py:SdssPointSource.getModelPatch", "tractor/sdss.py:SdssPointSource.__init__", "tractor/sdss.py:SdssBrightPSF.getBrightPointSourcePatch"]}
{"id": "C137", "title": "Forced photometry never lowers the log-likelihood of the Tractor and ends at the best fluxes", "statement": "Tractor.optimize_forced_photometry (LSQR optimizer, no priors, no regions of interest) on any images and catalog: when it returns, getLogLikelihood() of the tractor with the fluxes (and sky levels) it has set is higher than before the call, or nothing has changed; fluxes are not below minFlux. Without minFlux and with the sky left alone, if the first direction solves the normal equations of least squares, it returns, and no other fluxes have a higher getLogLikelihood().", "quantifier": "all lists of images (data, inverse errors, scales, sky levels), catalogs with frozen and thawed sources, unit-flux models, arguments and sequences of directions, any number of rounds", "why_tests_cant": "optimality over all flux vectors, for all images and all results of the sparse solver; the objective of the fit and the likelihood are computed by different code", "anchors": ["tractor/lsqr_optimizer.py:LsqrOptimizer._lsqr_forced_photom", "tractor/lsqr_optimizer.py:LsqrOptimizer._lnp_for_update", "tractor/optimize.py:Optimizer.forced_photometry", "tractor/optimize.py:Optimizer._getims", "tractor/engine.py:Tractor.getLogLikelihood", "tractor/engine.py:Tractor.getChiImage"]}
{"id": "C138", "title": "With an exact solver forced photometry returns the most likely fluxes and sky levels after one round", "statement": "Tractor.optimize_forced_photometry (LSQR optimizer, no priors, no damping, no minimum flux, no regions of interest, sky=False or True) on any images and catalog: if the sparse solver solves the least-squares problems it is given, the call returns after one round, and no fluxes (and, with sky=True, no sky levels) have a higher getLogLikelihood() than those it has set.", "quantifier": "all lists of images (data, inverse errors, scales, sky levels), catalogs with frozen and thawed sources, unit-flux models, exact solvers, shared_params False, or True with distinct parameters", "why_tests_cant": "optimality over all flux and sky vectors, through the assembly of the sparse matrix from patches of all images; the model that is fitted and the likelihood are computed by different code", "anchors": ["tractor/lsqr_optimizer.py:LsqrOptimizer._optimize_forcedphot_core", "tractor/lsqr_optimizer.py:LsqrOptimizer._lsqr_forced_photom", "tractor/lsqr_optimizer.py:LsqrOptimizer.getUpdateDirection", "tractor/optimize.py:Optimizer.forced_photometry", "tractor/sky.py:ConstantSky.getParamDerivatives", "tractor/engine.py:Tractor.getLogLikelihood"]}
{"id": "C139", "title": "An image read from unWISE coadds shows its region of the files of one directory", "statement": "For wise.unwise.get_unwise_tractor_image(basedir, tile, band, masked, roiradecsize / roiradecbox / roi, ...): the files are those of the first directory that has all of them, a plane that is not compressed being used only when there is no compressed one; data, weights, exposure counts and sky positions of a pixel of the result are those of one and the same pixel of the coadd; pixels without exposures have no weight; in band 4 weights are a quarter of the file's; sig1 is computed from the weights of the pixels with weight; the MJD fields are the header's or their mean; asked for a position and half-size, the image has exactly the coadd's pixels around the position up to half a pixel; None is returned only if the coadd has no pixel of the region asked for, and IOError raised only if no directory has all files.", "quantifier": "all lists of directories, sets of files, coadds, WCSs, bands, masked or not, and requests (regions given directly lie in the coadd)", "why_tests_cant": "all combinations of missing files and of regions over the edges of the coadd", "anchors": ["wise/unwise.py:get_unwise_tractor_image", "tractor/image.py:Image", "tractor/sdss.py:interpret_roi"]}
{"id": "C140", "title": "An image read from an SDSS frame shows the part of the frame that was asked for", "statement": "For tractor.sdss.get_tractor_image_dr8(run, camcol, field, band, roi / roiradecsize / roiradecbox, invvarAtCenter, invvarAtCenterImage, invvarIgnoresSourceFlux, ...): data, positions and the point at which the PSF is evaluated are those of the region; weights are the frame's (0 at masked pixels), with invvarAtCenter the weight at the middle of the region, with invvarAtCenterImage that number at all unmasked pixels; None only if the frame has no pixel of the region asked for; asked for a position and half-size the image is centred on the position.", "quantifier": "all frames, masks, positions, regions, flags", "why_tests_cant": "all regions over edges of frames and positions within pixels", "anchors": ["tractor/sdss.py:_get_tractor_image_dr8", "tractor/sdss.py:interpret_roi", "tractor/sdss.py:SdssWcs.setX0Y0"]}
{"id": "C141", "title": "Galaxies of the fixed profiles keep all their light and have half of it within the effective radius", "statement": "For ExpGalaxy, DevGalaxy and GaussianGalaxy: the profile (getProfile()) has positive amplitudes adding to one; for every shape, orientation and place (apply_affine with any invertible matrix) the light within the ellipse of r effective radii is the same function of r alone; half of the light is within the effective radius (shape.re); more than 99% is within nre effective radii, the radius up to which the galaxy is rendered; seen through any Gaussian-mixture PSF all covariances are positive definite.", "quantifier": "all invertible transformations, places, radii, and PSF mixtures", "why_tests_cant": "integrals over ellipses for all shapes; a test renders particular galaxies in particular pixels", "anchors": ["tractor/mixture_profiles.py:get_exp_mixture", "tractor/mixture_profiles.py:get_dev_mixture", "tractor/mixture_profiles.py:MixtureOfGaussians.apply_affine", "tractor/galaxy.py:ExpGalaxy", "tractor/galaxy.py:DevGalaxy", "tractor/galaxy.py:GaussianGalaxy", "tractor/galaxy.py:HoggGalaxy.getRadius"]}
{"id": "C142", "title": "The galaxy profiles of photo decrease continuously to zero at their outer radius", "statement": "tractor.galaxy_profiles.profile_exp(r) and profile_dev(r), r >= 0 a number or an array: results are element by element one function of the radius, which is positive below the outer radius (4 and 8 effective radii), zero from there on, strictly decreasing until there and continuous, and equal to the exponential (softened deVaucouleurs) law up to the radius where the taper starts (3 and 7).", "quantifier": "all radii and arrays of radii", "why_tests_cant": "continuity and monotonicity over all radii, across both limits of the taper", "anchors": ["tractor/galaxy_profiles.py:profile_dev", "tractor/galaxy_profiles.py:profile_exp"]}
{"id": "C143", "title": "Optimizing a tractor whose model is linear ends at the maximum of the log-probability", "statement": "If the model images are linear in the thawed parameters (brightnesses, linear sky, ...), the derivatives reported or estimated are the derivatives of them, and the priors are Gaussian, then tractor.optimize(alphas) with alpha = 1 among the steps tried ends with parameters for which getLogProb() is not lower than for any other parameter values; the start does not matter for the best value; images, frozen parameters, masks and everything else stay as they were; optimize_loop ends at the maximum too, after at most two rounds.", "quantifier": "all tractors (images, sources, missing and frozen parameters, priors, masks, inverse variances), all starting values, all lists of alphas that reach 1, all numbers of rounds, exact solvers", "why_tests_cant": "a test compares one fit with known answers; the claim compares with all parameter values for all images and catalogs", "anchors": ["tractor/lsqr_optimizer.py:LsqrOptimizer.optimize", "tractor/lsqr_optimizer.py:LsqrOptimizer.optimize_loop", "tractor/lsqr_optimizer.py:LsqrOptimizer.getLinearUpdateDirection", "tractor/lsqr_optimizer.py:LsqrOptimizer.getUpdateDirection", "tractor/engine.py:Tractor.getDerivs", "tractor/engine.py:Tractor.getLogProb", "tractor/engine.py:Tractor.optimize", "tractor/optimize.py:Optimizer.tryUpdates"]}
{"id": "C144", "title": "Optimizing a linear tractor with limits stays within them and goes as far towards the maximum as they allow", "statement": "If the model images are linear in the thawed parameters, the derivatives are right and the priors Gaussian, then optimize(alphas) of ConstrainedOptimizer, ConstrainedDenseOptimizer or SmarterDenseOptimizer (this one: with the same box for all derivatives that overlap an image), started within the bounds with alpha = 1 among the alphas, ends within the bounds and not farther than the maximum steps from the start, with a log-probability not lower than at the start and not lower than at any allowed point on the way to an unconstrained maximum; the change of the log-probability is returned; a tractor at its maximum is left as it is; if the limits allow the maxima, one call ends at one of them, and optimize_loop does so in two rounds at most.", "quantifier": "all tractors with linear models, all lower and upper bounds and maximum steps, all starting values within the bounds, all increasing lists of alphas that contain 1, all numbers of rounds, dense and sparse exact solvers", "why_tests_cant": "a test fixes bounds and data; the claim compares with all allowed points on the way for all bounds, steps and images", "anchors": ["tractor/constrained_optimizer.py:ConstrainedOptimizer.optimize_loop", "tractor/constrained_optimizer.py:ConstrainedOptimizer.tryUpdates", "tractor/constrained_optimizer.py:ConstrainedOptimizer.getParameterSteps", "tractor/dense_optimizer.py:ConstrainedDenseOptimizer.getUpdateDirection", "tractor/smarter_dense_optimizer.py:SmarterDenseOptimizer.getUpdateDirection", "tractor/lsqr_optimizer.py:LsqrOptimizer.optimize"]}
{"id": "C145", "title": "PsfEx files are read as the polynomial they describe and written back without loss", "statement": "PsfExModel(fn) of a file whose header describes a polynomial of degree d in the image coordinates, with (d+1)(d+2)/2 images, succeeds, and at(x, y) is then the sum over the terms of the image (as float32) times the powers of (x - POLZERO1)/POLSCAL1 and (y - POLZERO2)/POLSCAL2; a file with POLNGRP = 0 and one image gives that image everywhere; a row of a merged table gives the model its columns describe; a model that was read can be written, and the written file is read as the same model; the same holds of the model of PixelizedPsfEx.getShifted(dx, dy), whose PSF at (x, y) is that of the original at (x + dx, y + dy).", "quantifier": "all headers, degrees, images, positions and shifts; all files and rows that can be read", "why_tests_cant": "a test reads one file; the claim is for every degree and set of images, including the order of the terms, and for every model that was read", "anchors": ["tractor/psfex.py:PsfExModel.__init__", "tractor/psfex.py:PsfExModel.writeto", "tractor/psfex.py:PsfExModel.copy", "tractor/psfex.py:PsfExModel.shifted", "tractor/psfex.py:PixelizedPsfEx.getShifted"]}
{"id": "C146", "title": "The file of a fitted PsfEx model holds every parameter at every grid point under its own name", "statement": "VaryingGaussianPsfEx.toFits(fn), with a saved grid (savesplinedata) of ny x nx lists of parameters, writes for each parameter name a column with the image of that parameter's values, the grid coordinates as xx and yy, and the names, the size, K, nx and ny in the header; with merge=True and fewer than 10 components, the parameters whose names differ in the last digit share a column of K images, image k holding the parameter of component k; the names of GaussianMixturePSF and GaussianMixtureEllipsePSF are such names.", "quantifier": "all grids, all parameter values, all PSF classes whose names are distinct (and, for merge, end in the component number with as many names for each component)", "why_tests_cant": "a test writes one grid of one class; the claim is for every grid size, number of components and list of names, and says that no name is left out or mixed up", "anchors": ["tractor/psfex.py:VaryingGaussianPsfEx.toFits", "tractor/psfex.py:VaryingGaussianPsfEx.fromFits", "tractor/psfex.py:typestring"]}
{"id": "C147", "title": "Reading WISE catalogs gives every object of the box or field, once", "statement": "wise_catalog_radecbox and allwise_catalog_radecbox(r0, r1, d0, d1) return the rows of all objects whose right ascension is in [r0, r1] and declination in [d0, d1], once each and in the order of the catalog, or None if there are none, and need only the files of parts whose declinations meet the box; allwise_catalog_wcs(wcs, pixelmargin) returns the rows of all objects that the WCS puts into the image enlarged by the margin; the tables of declination ranges of both catalogs cover the sky from pole to pole without gap or overlap.", "quantifier": "all catalogs cut by declination, all boxes with r0 <= r1, all WCS whose declination bounds hold for the enlarged image, all declinations", "why_tests_cant": "a test has a few objects; the claim is that no object at any declination, on any edge or in any number of parts is lost or repeated", "anchors": ["wise/wisecat.py:_read_wise_cats", "wise/wisecat.py:_read_wise_cats_wcs", "wise/wisecat.py:wise_catalog_radecbox", "wise/allwisecat.py:allwise_catalog_wcs", "wise/allwisecat.py:allwise_catalog_radecbox"]}
{"id": "C148", "title": "Forced photometry recovers true fluxes and sky levels: exactly without noise, on average with it", "statement": "optimize_forced_photometry (LSQR optimizer with an exact solver, no priors, damping, minimum flux or regions of interest; sky=False or True; one thawed flux per source part, of the band of the images, unit-flux models that do not depend on the flux): if the images are the model with some true fluxes (and sky levels) at all pixels with non-zero inverse error, the model images after the fit are the images at those pixels, and the fluxes (and levels) are the true ones if no others give these images. If the pixels differ by noise whose mean is zero, the mean over the noise of the fluxes (and levels) found is the true fluxes (and levels). With a minimum flux this is false.", "quantifier": "all images, inverse errors, catalogs with frozen and thawed sources, true fluxes and sky levels, exact solvers, starting values, finite families of noises with any probabilities", "why_tests_cant": "an average over all noises of a fit of any size; a test has a few images and noises and a tolerance", "anchors": ["tractor/engine.py:Tractor.optimize_forced_photometry", "tractor/optimize.py:Optimizer.forced_photometry", "tractor/lsqr_optimizer.py:LsqrOptimizer._optimize_forcedphot_core", "tractor/lsqr_optimizer.py:LsqrOptimizer.getUpdateDirection", "tractor/engine.py:Tractor.getModelImage", "tractor/engine.py:Tractor.getLogLikelihood"]}
{"id": "C149", "title": "Reported inverse variances of forced photometry are right for isolated sources and never too small", "statement": "optimize_forced_photometry(variance=True) with an exact solver (conditions as in C148): if the noise in pixels with non-zero inverse error is uncorrelated and has the variance that the inverse error says, then for every flux the mean squared difference between the flux found and the true flux, times the reported IV, is at least one; with sky=False it is one for a source that shares no pixels with other thawed sources. For blended sources it can be larger: IV ignores that other fluxes are fitted.", "quantifier": "all images, inverse errors, catalogs, true fluxes and sky levels, exact solvers, finite families of noises with any probabilities", "why_tests_cant": "a statement about the average over all noises for fits of any size, linking two separate computations (the fit and _get_iv)", "anchors": ["tractor/optimize.py:Optimizer._get_iv", "tractor/optimize.py:Optimizer.forced_photometry", "tractor/lsqr_optimizer.py:LsqrOptimizer._optimize_forcedphot_core", "tractor/lsqr_optimizer.py:LsqrOptimizer.getUpdateDirection", "tractor/engine.py:Tractor.getModelImage"]}
{"id": "C150", "title": "Sources that share no pixels can be fitted apart", "statement": "optimize_forced_photometry with sky=False and an exact solver (other conditions as in C148): if some sources of the catalog share no pixels of non-zero inverse error with the other sources, and their fluxes can be told from the pixels, then they end up with the same fluxes whether the other sources are fitted along, are frozen at whatever fluxes, or are not in the catalog. With sky=True this does not hold: all sources of an image share its sky.", "quantifier": "all images, inverse errors, catalogs (in any order, with thawed and frozen sources), divisions of the catalog, exact solvers", "why_tests_cant": "compares fits of different sizes for every catalog and every division of it; a test fits a few catalogs and compares up to tolerances", "anchors": ["tractor/optimize.py:Optimizer.forced_photometry", "tractor/optimize.py:Optimizer._get_umodels", "tractor/lsqr_optimizer.py:LsqrOptimizer._optimize_forcedphot_core", "tractor/lsqr_optimizer.py:LsqrOptimizer.getUpdateDirection", "tractor/engine.py:Tractor.getModelImage", "tractor/engine.py:Tractor.getLogLikelihood"]}
{"id": "C151", "title": "Forced photometry depends neither on the order of images and sources nor on the units of the images, and ignores images without information", "statement": "optimize_forced_photometry with an exact solver (conditions as in C148; fluxes and sky levels can be told from the pixels) finds the same fluxes, and with sky=True the same sky levels, if the images come in another order, if images are added of which all inverse errors are zero, if the sources of the catalog come in another order, or if each image is in other units: data, sky, calibration and modelMinval multiplied, inverse errors divided by a positive number per image (minsb=0), where the sky levels are multiplied by the same numbers.", "quantifier": "all images, inverse errors, catalogs, orders, added images, factors, exact solvers", "why_tests_cant": "quantifies over all permutations, all added images and all factors, for fits of any size; floating-point tests can only compare up to tolerances", "anchors": ["tractor/optimize.py:Optimizer.forced_photometry", "tractor/lsqr_optimizer.py:LsqrOptimizer._optimize_forcedphot_core", "tractor/lsqr_optimizer.py:LsqrOptimizer.getUpdateDirection", "tractor/engine.py:Tractor.getModelImage", "tractor/engine.py:Tractor.getLogLikelihood", "tractor/brightness.py:LinearPhotoCal.brightnessToCounts"]}
{"id": "C152", "title": "Optimizing a linear tractor recovers the true parameters: exactly without noise, on average with it", "statement": "Tractor.optimize (LSQR optimizer with an exact solver, model images linear in the thawed parameters such as fluxes and sky levels, Gaussian priors on any of them, frozen objects, masks, any scale_columns and shared_params): if the pixels with non-zero inverse error are those of the model with some true values of the thawed parameters, the priors are centred on the true values, and no other values give these pixels (and agree where there are priors), one call of optimize ends at the true values. If the pixels differ by noise whose mean is zero, the mean over the noise of the values found is the true values, whatever values each run starts from. With a prior centred elsewhere this is false.", "quantifier": "all tractors with linear model images, pixel values, inverse errors, masks, priors, frozen flags, true values, starting values, exact solvers, step fractions that increase to 1, finite families of noises with any probabilities", "why_tests_cant": "an average over all noises of a fit of any size; a test has a few images and noises and a tolerance", "anchors": ["tractor/engine.py:Tractor.optimize", "tractor/lsqr_optimizer.py:LsqrOptimizer.optimize", "tractor/lsqr_optimizer.py:LsqrOptimizer.getLinearUpdateDirection", "tractor/lsqr_optimizer.py:LsqrOptimizer.getUpdateDirection", "tractor/engine.py:Tractor.getDerivs", "tractor/engine.py:Tractor.getModelImage", "tractor/engine.py:Tractor.getLogProb"]}
{"id": "C153", "title": "The variances of optimize(variance=True) are the scatter of the values found for parameters that share no pixels, and too small otherwise", "statement": "Tractor.optimize(variance=True) with scale_columns=True (LSQR optimizer with an exact solver, model images linear in the thawed parameters, no priors, masks, frozen objects, parameters that can be told from the pixels): if the noise of the pixels is uncorrelated and has the size that the inverse errors say (any noise in pixels with zero inverse error), all runs, from any starting values, report the same variances, one per thawed parameter in their order; the mean over the noise of the squared difference of a value found from its true value is at least the reported variance, and is the reported variance for a parameter that shares no pixels with the others. just_variance=True gives the same variances and leaves the tractor as it is. For parameters that share pixels the reported variance can be too small (the diagonal of the inverse covariance is inverted, not the matrix). optimize_loop(variance=True) moves the parameters as the first round does and then raises ValueError.", "quantifier": "all tractors with linear model images, pixel values, inverse errors, masks, frozen flags, true values, starting values, exact solvers, step fractions that increase to 1, finite families of noises with any probabilities", "why_tests_cant": "a statement about the scatter over all noises of a fit of any size; a test has a few images and a Monte-Carlo tolerance", "anchors": ["tractor/engine.py:Tractor.optimize", "tractor/engine.py:Tractor.optimize_loop", "tractor/lsqr_optimizer.py:LsqrOptimizer.optimize", "tractor/lsqr_optimizer.py:LsqrOptimizer.optimize_loop", "tractor/lsqr_optimizer.py:LsqrOptimizer.getLinearUpdateDirection", "tractor/lsqr_optimizer.py:LsqrOptimizer.getUpdateDirection", "tractor/engine.py:Tractor.getDerivs"]}
{"id": "C154", "title": "The direction in which optimize moves the parameters of non-linear models is uphill; a short step improves the fit", "statement": "Tractor.optimize (LSQR optimizer with an exact solver) of any tractor whose model images are differentiable in the thawed parameters (positions, shapes, fluxes, calibrations) at their present values and whose sources and calibrations report the true derivatives, any masks, frozen objects and Gaussian priors: the update direction is one in which getLogProb does not fall, and in which it rises unless its slope is zero in all directions; no direction is found only in that case. With any list of step fractions optimize ends normally, changes only thawed parameters, never lowers getLogProb and returns its change; unless the slope is zero in all directions it raises getLogProb if the first step fraction is small enough. If the slope is zero in all directions and the parameters have independent effects on the pixels, the tractor stays as it is. A calibration that leaves its derivative to be computed from a difference over its step size can be moved downhill.", "quantifier": "all tractors with differentiable model images, images, inverse errors, masks, frozen flags, priors, parameter values, exact solvers, lists of step fractions", "why_tests_cant": "a statement about slopes in all directions of any differentiable model and about all sufficiently small steps; a test has one model, one start and one list of steps", "anchors": ["tractor/engine.py:Tractor.optimize", "tractor/lsqr_optimizer.py:LsqrOptimizer.optimize", "tractor/lsqr_optimizer.py:LsqrOptimizer.getLinearUpdateDirection", "tractor/lsqr_optimizer.py:LsqrOptimizer.getUpdateDirection", "tractor/optimize.py:Optimizer.tryUpdates", "tractor/engine.py:Tractor.getDerivs", "tractor/engine.py:Tractor.getLogProb"]}
{"id": "C155", "title": "The order of images and sources in a tractor does not matter", "statement": "A Tractor with the same images and the same catalog entries in another order, each source with the same mask in each image: getLogLikelihood and getLogProb are the same, and the same parameter values are the best ones. If the model images are linear in the thawed parameters and the parameters can be told from the model (in pixels with non-zero inverse error, and priors), only one set of values has the largest getLogProb, and Tractor.optimize (LSQR optimizer with an exact solver) gives every image and every source the same parameters in any order, from any start values, and with any options (scaled columns, shared parameters) and step fractions including 1.", "quantifier": "all tractors, orders of images and sources, masks, frozen flags, priors, start values, options, exact solvers; for optimize: all linear models", "why_tests_cant": "all permutations of any number of images and sources with any parameters; the parameter vectors of the two tractors have different orders, a test compares one pair", "anchors": ["tractor/engine.py:Tractor.getLogProb", "tractor/engine.py:Tractor.getLogLikelihood", "tractor/engine.py:Tractor.getModelImage", "tractor/engine.py:Tractor.optimize", "tractor/lsqr_optimizer.py:LsqrOptimizer.optimize"]}
{"id": "C156", "title": "Pixels with zero inverse error have no influence", "statement": "Two tractors that differ only in the values of pixels whose inverse error is zero: the model images, getLogLikelihood and getLogProb are the same for the current and for all other parameter values; Tractor.optimize and optimize_loop (LSQR optimizer, and the constrained sparse, dense and smarter-dense optimizers) end in the same parameters and return the same change of log-probability, step fraction, number of steps, flags and variances, or raise the same exception. Sources, skies and derivative hooks must not read those pixels themselves. Any values allowed there are finite numbers (a NaN times zero is NaN).", "quantifier": "all tractors, masks, values of masked pixels, solvers, options, step fractions, numbers of rounds; linear or not, successful or not", "why_tests_cant": "all values in all sets of masked pixels, through finite differences, residuals, line searches and repeated rounds of four optimizers; a test masks one pixel", "anchors": ["tractor/engine.py:Tractor.getLogLikelihood", "tractor/engine.py:Tractor.getChiImage", "tractor/engine.py:Tractor.getDerivs", "tractor/lsqr_optimizer.py:LsqrOptimizer.optimize", "tractor/lsqr_optimizer.py:LsqrOptimizer.optimize_loop", "tractor/dense_optimizer.py:ConstrainedDenseOptimizer.getUpdateDirection", "tractor/smarter_dense_optimizer.py:SmarterDenseOptimizer.getUpdateDirection"]}
{"id": "C157", "title": "Damping makes the steps of optimize shorter but leads to the same maximum", "statement": "Tractor.optimize(damp=d) (LSQR optimizer with an exact solver of the damped problem) of a tractor whose model images are linear in the thawed parameters, any masks, frozen objects and Gaussian priors, step fractions that increase to 1 and go on in any way: it ends normally, changes only thawed parameters, never lowers getLogProb, returns its change, and leaves a tractor that is at the maximum as it is. If getLogProb falls away from its maximum at least like the squared distance over 2 C (distances in units of the inverse column norms with scale_columns), one call leaves at most the fraction d^2 C / (1 + d^2 C) of what is missing to the maximum; optimize_loop leaves at most that fraction to the power of the number of its rounds, and if it stops before the last round at most d^2 C dchisq is missing. With d not zero and no step fraction above 1 a call ends at the maximum only if it starts there. For models that are differentiable instead of linear: the larger d, the shorter the change that is tried; the slope of getLogProb along it is at least d^2 times its squared length, and zero only if it is zero in all directions; with d not zero a tractor where the slope is zero in all directions stays as it is, also with degenerate parameters.", "quantifier": "all tractors with linear (or differentiable) model images, images, inverse errors, masks, frozen flags, priors, parameter values, dampings, exact solvers, step fractions, thresholds and numbers of rounds", "why_tests_cant": "a rate of convergence that holds for every tractor, damping and start, and a statement about all numbers of rounds; a test has one tractor and one damping", "anchors": ["tractor/engine.py:Tractor.optimize", "tractor/lsqr_optimizer.py:LsqrOptimizer.optimize", "tractor/lsqr_optimizer.py:LsqrOptimizer.optimize_loop", "tractor/lsqr_optimizer.py:LsqrOptimizer.getLinearUpdateDirection", "tractor/lsqr_optimizer.py:LsqrOptimizer.getUpdateDirection", "tractor/optimize.py:Optimizer.tryUpdates"]}
{"id": "C158", "title": "Fitting the weighted sum of exposures, or images cut and rearranged, gives what fitting the single pixels gives", "statement": "Two tractors with the same thawed parameters and priors, and a map that sends every pixel of the first with non-zero inverse error to a pixel of the second one where the model image has the same value for all parameter values; the inverse variance of a pixel of the second is the sum of the inverse variances of the pixels sent there, its value their mean weighted with these (exposures added up, images cut into pieces, put in another order, masked pixels left out). Then getLogProb of the two differ, for all parameter values, by half the chi-squared of the single pixels about the pooled ones; the same parameter values are best. If the reported derivatives (right or wrong, of any model) agree in these pixels and determine the update, optimize from the same values, with any exact solvers, options and step fractions, ends at the same values and returns the same change of getLogProb and step fraction; optimize_loop does the same number of rounds and ends at the same values; the variances for linear models are the same. With a mean without weights this is false: the best values are other ones.", "quantifier": "all pairs of tractors, worlds (profiles, PSFs, skies), maps of pixels, images, inverse errors, priors, parameter values, exact solvers, options, step fractions, thresholds and numbers of rounds", "why_tests_cant": "an equality of two whole optimizations for every way to cut or add up images, every model and every number of rounds; a test compares one coadd with its exposures, up to rounding", "anchors": ["tractor/engine.py:Tractor.getLogProb", "tractor/engine.py:Tractor.getLogLikelihood", "tractor/engine.py:Tractor.optimize", "tractor/engine.py:Tractor.optimize_loop", "tractor/lsqr_optimizer.py:LsqrOptimizer.optimize", "tractor/lsqr_optimizer.py:LsqrOptimizer.getLinearUpdateDirection", "tractor/optimize.py:Optimizer.tryUpdates"]}
{"id": "C159", "title": "The units of images and parameters, and linear mixtures of parameters, do not matter for a fit", "statement": "Two tractors; data and models of image i of the second are those of the first times a non-zero factor c_i (another photometric calibration), inverse errors are divided by it; values p of the thawed parameters of the second mean the values B p + b of the first, with an invertible matrix B (other units, zero points, sums and differences of parameters), and the priors agree up to a constant factor. Then getLogProb at corresponding values differs by that constant only. If the reported derivatives (right or wrong, of any model) are related by the chain rule and determine the update, optimize from corresponding values, with any exact solvers, options and step fractions, ends at corresponding values and returns the same change of getLogProb and the same step fraction; optimize_loop does the same number of rounds and ends at corresponding values. If only units change (B diagonal), the variances for linear models are divided by the squares of the factors. For changes of parameters that are not linear (the flux is the square of the parameter) this is false: one call of optimize finds the best value with one, and does not move with the other.", "quantifier": "all pairs of tractors, worlds (profiles, PSFs, skies), factors, invertible matrices, images, inverse errors, priors, parameter values, exact solvers, options, step fractions, thresholds and numbers of rounds", "why_tests_cant": "an equality of two whole optimizations for every calibration and every linear change of the parameters; a test compares two fits in one pair of units, up to rounding", "anchors": ["tractor/engine.py:Tractor.getLogProb", "tractor/engine.py:Tractor.optimize", "tractor/engine.py:Tractor.optimize_loop", "tractor/lsqr_optimizer.py:LsqrOptimizer.optimize", "tractor/lsqr_optimizer.py:LsqrOptimizer.getLinearUpdateDirection", "tractor/lsqr_optimizer.py:LsqrOptimizer.getUpdateDirection", "tractor/optimize.py:Optimizer.tryUpdates"]}
{"id": "C160", "title": "A solver failure never changes the tractor; without variances it is reported as no improvement", "statement": "scipy's lsqr may raise ZeroDivisionError, which getUpdateDirection catches. For tractors in order with any reported derivatives: if lsqr always fails, optimize (any options and step fractions) leaves every parameter unchanged, raises nothing and returns change 0 and step fraction 0, also where the log-probability is NaN or infinite; optimize_loop ends in the first round if the threshold is not negative, and otherwise goes through all rounds without an effect. If lsqr fails at some problems and solves the others, optimize does what it does with a solver that never fails, or leaves the tractor unchanged and returns zeros. If it never fails, optimize, its variances and optimize_loop are those of the other properties. With variance=True, though, a failure is not handled: unless no parameter has an effect, optimize raises a ValueError, with exactly two thawed parameters a TypeError, and with just_variance=True and two thawed parameters it returns the number 0 in place of the variances; the tractor is left unchanged.", "quantifier": "all tractors in order, worlds (profiles, PSFs, skies), reported derivatives, solvers that may fail, options, step fractions, thresholds and numbers of rounds", "why_tests_cant": "tests do not make the external solver fail, least of all at chosen problems of a fit, with each option and number of parameters", "anchors": ["tractor/lsqr_optimizer.py:LsqrOptimizer.optimize", "tractor/lsqr_optimizer.py:LsqrOptimizer.optimize_loop", "tractor/lsqr_optimizer.py:LsqrOptimizer.getLinearUpdateDirection", "tractor/lsqr_optimizer.py:LsqrOptimizer.getUpdateDirection", "tractor/optimize.py:Optimizer.tryUpdates"]}
{"id": "C161", "title": "Fitting objects in turns, the others frozen, never makes the whole fit worse, and ends where fitting all at once does", "statement": "A turn freezes all images and sources but a group (catalog.freezeAllBut for thawed members), calls optimize and thaws what was thawed before. For tractors in order, any model and any reported derivatives, with an exact solver: a turn raises nothing, leaves every object outside the group unchanged, and returns the change of the log-probability of the whole tractor, which is not negative. For models linear in the thawed parameters: after a turn no values of the group's parameters give a larger log-probability with the others as they are. If no group can be improved and the groups cover all thawed objects with parameters, the fit is the best one for all parameters together. So a pass of turns over covering groups makes the fit strictly better, unless it is the best one already, and then changes nothing. If no two groups share a pixel with non-zero inverse error, one turn each reaches the best fit of the whole; for overlapping sources one pass does not in general.", "quantifier": "all tractors in order, worlds, groups and lists of groups, starting values, options with the conditions of C143, step fractions that reach one", "why_tests_cant": "tests fit a few scenes to convergence and compare within tolerances; they cannot show that no arrangement of groups, frozen objects, priors and shared pixels makes a turn spoil the rest", "anchors": ["tractor/utils.py:NamedParams.freezeAllBut", "tractor/utils.py:NamedParams.freezeParam", "tractor/utils.py:NamedParams.thawParam", "tractor/engine.py:Tractor.getLogProb", "tractor/lsqr_optimizer.py:LsqrOptimizer.optimize"]}
{"id": "C162", "title": "Fitting overlapping objects in turns, over and over, converges to the joint fit at a geometric rate", "statement": "Passes of turns as in C161 (all but a group frozen, optimize, thawed again, one turn per group), repeated. For models linear in the thawed parameters, with an exact solver and groups that cover all thawed objects with parameters, whether or not they share pixels: a largest log-probability of the whole tractor exists, and there is a factor below one, the same for all starting values, such that what is missing to it shrinks at least by this factor with every pass. So for every tolerance there is a number of passes from which on the log-probability is within it. If the parameters can be told from the model, the squared distance of all parameters from the only best fit shrinks by the same kind of rate. No pass raises an error or makes the fit worse. In general no number of passes reaches the joint fit exactly.", "quantifier": "all tractors in order, worlds with models linear in the thawed parameters, lists of groups, starting values, numbers of passes, options with the conditions of C143, step fractions that reach one", "why_tests_cant": "tests run a fixed number of passes on a few scenes; a rate that holds from every starting point, for every overlap of the objects and with degenerate directions, is a statement about infinitely many runs", "anchors": ["tractor/utils.py:NamedParams.freezeAllBut", "tractor/utils.py:NamedParams.freezeParam", "tractor/utils.py:NamedParams.thawParam", "tractor/engine.py:Tractor.getLogProb", "tractor/lsqr_optimizer.py:LsqrOptimizer.optimize"]}
{"id": "C163", "title": "Derivatives by right ascension lack the cosine of the declination; what that does to steps and variances", "statement": "For an image whose WCS is a FITS header in the TAN projection (ConstantFitsWcs), at the tangent point: the derivative of the model image by declination is the one reported, but its derivative by right ascension is the reported one times cos(dec). The matrix the code uses is the derivative of the pixel by the position exactly if the declination of the tangent point is zero. When derivatives are off by nonzero factors, the step computed, multiplied by the factors, is the least-squares step for the right derivatives: a step in right ascension is cos(dec) times the one needed. The variance reported by optimize(variance=True) is the right one divided by the squared factor: for a right ascension cos(dec)^2 times too small.", "quantifier": "all tangent points, reference pixels, invertible CD matrices, subimage offsets, differentiable renderings, counts; all factors, images, derivative patches and exact solvers for the consequences", "why_tests_cant": "a test compares one position on one header with a tolerance, and steps still go in the right direction, so fits converge and the error hides; the exact factor for every header and what it does to variances needs the derivative of the projection", "anchors": ["tractor/ducks.py:WCS.pixelDerivsToPositionDerivs", "tractor/ducks.py:WCS.cdInverseAtPosition", "tractor/wcs.py:ConstantFitsWcs", "tractor/lsqr_optimizer.py:LsqrOptimizer.getUpdateDirection"]}
{"id": "C164", "title": "A fit passed on to the next night as Gaussian priors equals the fit to all nights at once, if and only as far as the parameters share no pixels", "statement": "addGaussianPrior(name, mu, sigma) puts one term on the named parameter and on no other, changes no value, and lowers the log-prior by half the squared deviation in units of sigma; an unknown name raises KeyError. A user fits the images of one night with optimize(variance=True) and gives the values and the roots of the variances as Gaussian priors to the tractor with the images of the next night. For model images of the first night linear in the thawed parameters, and parameters that share no pixels there, with an exact solver: the log-probability of the first night is everywhere that of independent Gaussians with the values and variances returned; the log-probability of the second night with the priors is that of both nights together up to a constant, for all values, even if the model of the second night is not linear; and for any number of nights, one after the other, the last fit returns the same values and the same variances as one fit to the images of all nights. If the parameters share pixels this is false: the variances returned ignore the correlations, and no values are best both for the last night with the priors and for all nights.", "quantifier": "all parameter lists, names, means and non-zero widths; all tractors in order with priors of their own, worlds, images, numbers of nights, options with the conditions of C143, step fractions that reach one", "why_tests_cant": "tests compare one sequence of nights with one joint fit to within a tolerance; equality for every number of nights and every value of the parameters needs the exact form of the log-probability", "anchors": ["tractor/utils.py:GaussianPriorsMixin.addGaussianPrior", "tractor/utils.py:_GaussianPriors.add", "tractor/utils.py:_GaussianPriors.getLogPrior", "tractor/utils.py:_GaussianPriors.getDerivs", "tractor/engine.py:Tractor.getLogProb", "tractor/lsqr_optimizer.py:LsqrOptimizer.optimize"]}
{"id": "C165", "title": "A star in an image whose PSF is a mixture of Gaussians is the PSF's density, within its radius", "statement": "For a PointSource in an image with a GaussianMixturePSF of positive definite components: without a mask and a minimum value getUnitFluxModelPatch returns a patch that does not leave the image; each pixel of the image within the radius (fixedRadius, else the radius of the PSF) of the star along both axes has the density of the PSF around the star, up to exp(-50) of the peaks of the components, and pixels more than one pixel beyond the radius have nothing. With a model mask the patch covers exactly the rectangle of the mask whatever the radius, with the density in all pixels that are set (up to exp(-30) of the peaks) and nothing in the others. With the radius from computeRadius, and components centred on the star, no pixel of the image lacks more than exp(-12.5) of the peaks. With a minimum value, for components of a common centre that lies in the image, with positive amplitudes and axes along rows and columns, no pixel within the radius lacks more than twice the minimum value and none has too much. The radius estimated when there is none covers all pixels above the minimum value if the determinants are at most 1; the source calls it an overestimate, but for wider components it is not: a PSF of three pixels' standard deviation is rendered as one pixel although its neighbours are eight times the minimum value. The default radius of 25 cuts off wider PSFs, and computeRadius does not take account of the means. A galaxy of effective radius zero in a mask has the pixels of a star there.", "quantifier": "all mixtures with positive definite covariances, positions, image shapes, radii, minimum values, masks", "why_tests_cant": "tests render a few stars and compare them with a stored image or a picture; the bound for each pixel, for all mixtures and positions between pixels and at the edges of the image, needs a proof over the reals", "anchors": ["tractor/psf.py:GaussianMixturePSF.getPointSourcePatch", "tractor/psf.py:GaussianMixturePSF.computeRadius", "tractor/psf.py:GaussianMixturePSF.getRadius", "tractor/pointsource.py:PointSource.getUnitFluxModelPatch", "tractor/mixture_profiles.py:MixtureOfGaussians.evaluate_grid_dstn", "tractor/mixture_profiles.py:MixtureOfGaussians.evaluate_grid_masked", "tractor/mixture_profiles.py:MixtureOfGaussians.evaluate_grid_approx3", "tractor/galaxy.py:HoggGalaxy._getAffineProfile"]}
{"id": "C166", "title": "Position derivatives of a star with a PSF of Gaussians are the derivatives of its model image", "statement": "For a star whose position has two thawed coordinates, in an image whose PSF is a mixture of Gaussians, with the image within the star's radius: getParamDerivatives succeeds and leaves the star as it was, and its first two entries are the derivatives by the two coordinates of counts times the density of the PSF around the star. (1) With a model mask that has an array they are exact in every pixel that is set and within sqrt(60) standard deviations of all components, and zero in pixels not set, provided that the WCS's cdInverseAtPosition is the matrix of derivatives of positionToPixel. (2) Without a model mask and without a minimum surface brightness, and in a rectangular model mask, they are difference quotients that tend to the derivative as the step size goes to zero, whatever the WCS's matrix says (pixels of the image strictly within the radius of the star and 10 standard deviations of all components, or in the rectangle and within sqrt(60) standard deviations).", "quantifier": "for all PSF mixtures with positive definite covariances, all pixel positions, WCS functions (differentiable, or continuous, at the position), masks, pixels, brightnesses and step sizes", "why_tests_cant": "Which of three ways the derivatives come about depends on the mask and the minimum value. A test compares one star at one position with a difference quotient and a tolerance; the claim is about the exact derivative in all pixels, and about a limit, for all mixtures and WCS.", "anchors": ["tractor/pointsource.py:142-244", "tractor/psf.py:458-528", "tractor/mixture_profiles.py:305-342"]}
{"id": "C167", "title": "A galaxy with a PSF of Gaussians is its profile, stretched onto the image and seen through the PSF", "statement": "For a galaxy with an affine profile (HoggGalaxy: ExpGalaxy, DevGalaxy, GaussianGalaxy) of non-zero size, in an image whose PSF is a mixture of Gaussians, each pixel of the unit-flux model patch is the integral over the galaxy's own plane of its light times the PSF between the place where that light falls on the image and the pixel, where a point u of the plane falls on T u + (px, py) and T is the inverse CD matrix times the galaxy's basis; components without extent (the core of a deVaucouleurs profile) contribute as points. (1) In a model mask: the patch is the rectangle of the mask, pixels not set are zero and all others agree up to exp(-30) of the peaks of the PSF. (2) Without a mask and with minval None or 0: the patch lies inside the image, has every pixel of the image within the patch's half size of the centre, and its pixels agree up to exp(-50) of the peaks; there is none only if no pixel of the image is that close. (3) All that is seen over the plane adds up to the light of the galaxy times that of the PSF. (4) The profiles of the three classes consist of round Gaussians, one of them possibly a point, and have light 1.", "quantifier": "for all profiles of round Gaussians, inverse CD matrices and bases whose product has an inverse, pixel positions, PSF mixtures (also varying with position) with positive definite covariances, masks and pixels", "why_tests_cant": "A test renders one galaxy and compares with a stored or numerically convolved image. The claim is equality with a double integral, with an error bound, for every orientation, size, position and PSF.", "anchors": ["tractor/galaxy.py:648-657", "tractor/galaxy.py:270-420", "tractor/mixture_profiles.py:apply_affine", "tractor/mixture_profiles.py:convolve", "tractor/mixture_profiles.py:evaluate_grid"]}
{"id": "C168", "title": "Derivatives of a galaxy with a PSF of Gaussians: exact difference quotients for its shape, derivatives within a pixel for its position", "statement": "For a HoggGalaxy of non-zero size in an image whose PSF is a mixture of Gaussians, getParamDerivatives with a model mask succeeds, leaves the galaxy as it was and has one entry for each thawed parameter. (1) The entry of a shape parameter is, in every pixel that is set in the mask, the difference quotient over the parameter's step size of counts times the light that arrives there (the integral of C167), up to |counts / step| times twice exp(-30) of the peaks of the PSF; it is zero in all other pixels. (2) The entry of a position coordinate is zero on the border of the mask's rectangle. In every other pixel whose four neighbours are set it is counts times the chain rule (column of the WCS's matrix) applied to the derivatives of that light by the pixel position, each taken with the galaxy displaced by less than one pixel from where it is, up to exp(-30) of the peaks. (3) Next to pixels that are not set the position entries are wrong: in the centre of a round galaxy, where the derivative is zero, the entry is a large part of the model.", "quantifier": "for all profiles of round Gaussians, shapes, bases, inverse CD matrices, positions, PSF mixtures, masks (with and without array), brightnesses, step sizes and pixels; (3) is a concrete witness", "why_tests_cant": "A test compares derivatives with a numerical derivative up to a loose tolerance that hides the width of the difference and the pixels along the edges of a mask; the claim says in every pixel what the entries are.", "anchors": ["tractor/galaxy.py:137-227", "tractor/galaxy.py:648-657", "tractor/wcs.py:pixelDerivsToPositionDerivs"]}
{"id": "C169", "title": "Where the light of a mixture, of convolved mixtures and of a galaxy is, and how far it is spread", "statement": "(1) For a mixture of Gaussians, the light (the integral of its density), the displacement of the light from any point and its spread about it (the integrals against dx, dy, dx^2, dx dy, dy^2) are the sums over components that amplitudes, means and covariances promise. (2) convolve of two mixtures multiplies the light, adds the displacements and adds the spreads about the two centres. (3) The mixture with which a HoggGalaxy at pixel position (px, py) is rendered (affine profile convolved with the PSF's mixture) has the light of the profile times that of the PSF, is displaced from (px, py) exactly as the PSF is from its origin, and is spread as the PSF plus V T T^t, where T is the inverse of the CD matrix times the shape's basis and V the spread of the profile along an axis. (4) With square pixels, k of them in a degree, the mean square of the distance from the centre is that of the PSF plus V times the squares of the two half axes r and ab r in pixels: for GalaxyShape (with re at least 1/30 arcsecond) at any position angle, and for EllipseE with axis ratio of at least 1/1000. (5) V is 1 for GaussianGalaxy, between 0.9497 and 0.9498 for ExpGalaxy and between 2.6367 and 2.6368 for DevGalaxy, whose light is 1.", "quantifier": "for all mixtures with positive definite covariances (the profile: round Gaussians about the origin, also without extent), all reference points, positions, matrices, shapes, position angles and PSF mixtures", "why_tests_cant": "A test measures moments of a few rendered images, where the finite image and its pixels spoil them; the claim is about the light itself and every shape and PSF.", "anchors": ["tractor/mixture_profiles.py:132-172", "tractor/galaxy.py:640-691", "tractor/galaxy.py:73-89", "tractor/ellipses.py:126-157", "tractor/mixture_profiles.py:20-45"]}
{"id": "C170", "title": "The model image of a field of stars, galaxies and composite galaxies, with a PSF of Gaussians", "statement": "For an image whose PSF is a GaussianMixturePSF, Tractor.getModelImage raises nothing and gives in every pixel the sky plus one contribution of every source in the list, missing ones (None) and those without a mask where masks are expected contributing nothing. (1) A source with a model mask contributes, in the pixels set in its mask, its counts times the light that arrives there, up to exp(-30) of counts times peaks of the PSF times the light of the profile, and nothing anywhere else; so the image is the sky plus the sum of the light of all sources whose mask has the pixel, up to the sum of those tolerances. (2) Without a mask and with modelMinval 0, it contributes its counts times the light that arrives up to the same tolerance, or nothing, and that only in pixels further away than the radius (a star) or the half size of the patch (a galaxy) along an axis. The light of a star is the PSF's density around it; that of a galaxy the integral of its profile against the PSF; a CompositeGalaxy is the sum of its two galaxies, each with its own counts; a FixedCompositeGalaxy has the light of its two galaxies weighted by fracDev and 1 - fracDev (C172). Counts that are zero or not finite in single precision contribute nothing.", "quantifier": "for all images, skies, tractors, catalogs or lists of sources, masks, positions, profiles of round Gaussians, invertible shapes, brightnesses and PSF mixtures with positive definite covariances; stars without minRadius and, in a mask, not further outside the image than their radius", "why_tests_cant": "A test renders a few sources; the claim is about every pixel of every field, with any number of overlapping sources, masks over the edge of the image, and the rectangles the code cuts without masks.", "anchors": ["tractor/engine.py:414-445", "tractor/pointsource.py:35-58", "tractor/pointsource.py:102-126", "tractor/galaxy.py:256-331", "tractor/galaxy.py:1075-1091", "tractor/psf.py:426-427", "tractor/galaxy.py:798-931"]}
{"id": "C171", "title": "Residuals and log-likelihood compare the data with the true scene", "statement": "Call scene of an image the sky plus, in every pixel, the sum of the light (counts times what arrives through the PSF) of all sources of the catalog whose model mask the pixel is set in; and tolerance exp(-30) of the sum of counts times light of the profile times peaks of the PSF. (1) Every pixel of getChiImage is (data - scene) times the inverse error, up to the tolerance times the inverse error. (2) getLogLikelihood raises nothing and is at most zero; if in all images the data equal the scene where the inverse error is not zero, it is at least minus one half of the sum over all pixels of the squared product of tolerance and inverse error: no other catalog can be more likely by more than that. (3) If in some pixel data and scene differ by more than the tolerance, the log-likelihood is at most minus one half of the square of that excess times the inverse error.", "quantifier": "for all tractors whose images have Gaussian mixture PSFs and inverse errors of the shape of the data, all catalogs of point sources, HoggGalaxy, CompositeGalaxy and FixedCompositeGalaxy in which every source has a mask in every image, all skies, data and inverse errors", "why_tests_cant": "A test fits a simulated image made with the renderer itself; the claim ties the likelihood to the physical scene, an integral that the code never computes, for every catalog.", "anchors": ["tractor/engine.py:424-479", "tractor/pointsource.py:35-58", "tractor/galaxy.py:256-331", "tractor/galaxy.py:1075-1091", "tractor/galaxy.py:798-931"]}
{"id": "C172", "title": "A fixed composite galaxy shows the light of its two parts, weighted by the fraction", "statement": "With a Gaussian mixture PSF, getModelPatch of a FixedCompositeGalaxy raises nothing. Let f be fracDev brought to [0, 1]. In every set pixel of its model mask the value is counts times (f times the light of the de Vaucouleurs galaxy + (1 - f) times the light of the exponential galaxy), each light the integral of the sheared profile seen through the PSF at that pixel, up to |counts| exp(-30) times the correspondingly weighted tolerance; elsewhere it is zero. Without mask and with modelMinval zero the same holds in the patch, which has every pixel of the image within the half size of the centre. In a mask the image is exactly that of the CompositeGalaxy with counts (1 - f) c and f c.", "quantifier": "for all positions, brightnesses, fractions (both FracDev and SoftenedFracDev), shapes and WCS matrices with non-zero determinant, profiles of round Gaussians of total one, Gaussian mixture PSFs, masks and images", "why_tests_cant": "The light is an integral over the sky that the code never computes, and the ends of the fraction leave out a part; a test sees single galaxies.", "anchors": ["tractor/galaxy.py:798-931", "tractor/galaxy.py:256-331", "tractor/pointsource.py:35-58", "tractor/mix.i:452", "tractor/gauss_masked.c:1"]}
{"id": "C173", "title": "Model masks change the model image only by the light they cut off", "statement": "For an image with a GaussianMixturePSF and modelMinval 0, take a pixel that every source reaches (within the radius of a star, within the half size of the patch of a galaxy, along both axes). (1) Without model masks getModelImage gives there the sky plus the light of all sources (counts times what arrives through the PSF), up to the sum of the tolerances of C170. (2) With a model mask for every source it gives the same, less the light of those sources whose mask the pixel is not set in, up to twice that sum. (3) So in pixels that are set in the masks of all sources, setting model masks, which is meant only to save time, changes nothing but twice the tolerance.", "quantifier": "for all tractors, images, skies, lists of point sources, HoggGalaxy, CompositeGalaxy and FixedCompositeGalaxy, all masks (rectangles or arrays, also over the edge of the image)", "why_tests_cant": "The two calls run different C routines over different rectangles; a test compares them for a few sources and masks, with a tolerance of its own.", "anchors": ["tractor/engine.py:372-445", "tractor/pointsource.py:35-58", "tractor/galaxy.py:256-331", "tractor/gauss_masked.c:1", "tractor/mix.i:452"]}
{"id": "C174", "title": "Catalogs that describe the same light have exactly the same model image", "statement": "For an image with a GaussianMixturePSF, call two lists of drawn sources (each with its model mask, or without masks and with modelMinval 0) the same light if one becomes the other by any number of these steps, anywhere in the list and in both directions: changing the order; leaving out a point source or galaxy with zero counts; replacing a point source or a galaxy by two at the same place, of the same shape and with the same mask, whose counts add up to its counts; replacing a CompositeGalaxy by its ExpGalaxy and its DevGalaxy; replacing a FixedCompositeGalaxy in a mask by the CompositeGalaxy whose brightnesses divide the counts by fracDev. Then no source raises an exception and getModelImage gives for both lists, with or without the sky, images of the same size with exactly equal pixels (no tolerance), also outside the masks and far from the sources. Sources that are None, or have no mask where masks are expected, do not matter. Two tractors with the same images whose catalogs describe the same light in each image have the same getLogLikelihood().", "quantifier": "for all tractors, images, skies, masks and all pairs of lists of point sources, HoggGalaxy, CompositeGalaxy and FixedCompositeGalaxy related by any number of steps", "why_tests_cant": "The steps can be combined in unboundedly many ways, and the code cuts patches by brightness, position and mask, so that the patches of the parts need not be those of the whole.", "anchors": ["tractor/engine.py:372-445", "tractor/pointsource.py:35-58", "tractor/galaxy.py:256-331", "tractor/galaxy.py:1088-1110", "tractor/patch.py:1"]}
{"id": "C175", "title": "GpuFriendlyOptimizer does exactly what SmarterDenseOptimizer does; GpuOptimizer leaves the CPU code only for single sources, and misreads a request for variances", "statement": "(1) For every tractor and all options, GpuFriendlyOptimizer.optimize and optimize_loop end with the same tractor and optimizer attributes and the same result or exception as those of SmarterDenseOptimizer, so that what C144 proves holds for it too. (2) GpuOptimizer.optimize does the same as SmarterDenseOptimizer.optimize unless the images are frozen and the catalog is one ProfileGalaxy or PointSource, or one of these or None followed by a ConstantSurfaceBrightness. (3) For these tractors it uses the GPU code for the direction and the line search, whatever damp, scale_columns and shared_params are, although SmarterDenseOptimizer raises RuntimeError for damping and for the default shared_params=True. (4) get_icov=True raises AssertionError without any effect for these tractors and is silently forgotten for all others. (5) optimize(variance=True), RuntimeError in SmarterDenseOptimizer, makes no step in GpuOptimizer for these tractors: ValueError for an update of more or fewer than two components, TypeError for two, and with just_variance=True and two components it returns the second component of the update in place of the variances.", "quantifier": "for all tractors, catalogs, options, step fractions, and all behaviours (results, exceptions, effects) of the derivatives, the solvers and the line searches", "why_tests_cant": "Equality of two optimizers for all tractors, options and exceptions cannot be sampled; the wrong value for the variances only shows for two thawed parameters, without any exception.", "anchors": ["tractor/gpu_optimizer.py:24-62", "tractor/gpu_optimizer.py:133-137", "tractor/lsqr_optimizer.py:253-315", "tractor/smarter_dense_optimizer.py:37-52", "tractor/constrained_optimizer.py:12-34"]}
{"id": "C176", "title": "Scalar parameters are ordered by their values, whatever their classes, except that NaN is greater than everything and everything is greater than NaN", "statement": "(1) For two scalar parameters (Mag, Flux, ConstantSky, SersicIndex, ...) whose values are numbers or infinities, ==, !=, <, <=, > and >= are those of the values on the extended line, whatever the classes of the two. (2) If one of the values is NaN, ==, < and <= are False and != is True, as for floats, but > and >= are True in both directions. (3) max and min of a non-empty list of scalar parameters without NaN are members of the list with the largest and the smallest value. (4) With a NaN in the list max forgets what stands before it: max of x, NaN, y is y, even if x is larger. (5) All six operators raise AttributeError against an object without getValue, such as None. (6) `x in list` and list.index(x) find the first entry that is x or has the same value, even of another class, if the entries before it are scalar parameters, and raise AttributeError if None or another object comes before.", "quantifier": "for all values (finite, infinite, NaN) over any linear order, all classes, lists and places in the list", "why_tests_cant": "The derived operators are added by total_ordering and have to agree with the order for all pairs of values and all lists; the failures need NaN or foreign entries at particular places.", "anchors": ["tractor/utils.py:17-20", "tractor/utils.py:306-332"]}
{"id": "C177", "title": "galex_read_image returns exactly the pixels near the region, with a consistent WCS, but takes the PSF width from pixels elsewhere and cannot read whole images", "statement": "(1) galex_read_image without radecroi (the default) raises NameError (UnboundLocalError). (2) With a region, None is returned exactly if no pixel of the file is less than one pixel, in both directions, from the rectangle around the four corners of the region in pixels; this also for unknown bands and nanomaggies=False. (3) Otherwise nanomaggies=False is an AssertionError and a band other than NUV and FUV a KeyError; the internal assertions never fail. (4) Otherwise the image has exactly the pixels of the file near the rectangle; each is at its place in the file less the offset, each position of the sky is at its place in the file less the same offset, extent gives the offset and size, and the zeropoint is 20.08 for NUV and 18.82 for FUV. (5) The width of the PSF is 6 arcseconds over 2.35 in pixels of the size at twice the offset, and not at the offset: WcslibWcs.pixel_scale gives its offset to cdAtPixel, which adds it once more.", "quantifier": "for all files (image sizes and pixels), all WCS functions with finite results, regions, bands and options", "why_tests_cant": "The rounding and clipping of the region has to be right for every WCS and every region, also partly or wholly outside of the image; the wrong pixel size only shows for a WCS with distortion, not as an error.", "anchors": ["tractor/galex.py:18-130", "tractor/wcs.py:52-147"]}
{"id": "C178", "title": "read_wise_level1b gives masked pixels no weight and good pixels theirs; but one NaN in the data makes all masked pixels NaN, and one NaN uncertainty all constant weights", "statement": "(1) A pixel with one of the mask bits 0-7, 9-18, 21, 26-28, and a pixel whose uncertainty is zero or NaN, has the sky level as its data and weight 0 in the image, in cinvvar and in vinvvar. (2) Any other pixel keeps its data; its weight is the inverse square of its uncertainty (0 if that is infinite) or, with constantInvvar, that of sigma1, even if its uncertainty is infinite. (3) Without constantInvvar all weights are finite and not negative. (4) If all data are finite, all data of the image are. (5) If one pixel of the data is NaN, masked or not, the sky level is NaN, and so are the data of all masked pixels and of those without valid uncertainty, although the code sets them 'to avoid NaNs'. (6) If the uncertainty of one unmasked pixel is NaN, sigma1 is NaN, and with constantInvvar the weight of every good pixel is NaN. (7) sigma1 and the weights of both kinds do not depend on the data and uncertainties of masked pixels.", "quantifier": "for all images, uncertainties (finite, infinite, NaN), masks and both values of constantInvvar, and every median that is NaN for lists with NaN and finite for finite lists", "why_tests_cant": "The claim is about every pixel for every combination of the bits of its mask and of special values in data and uncertainty, and about the effect of one pixel on all others.", "anchors": ["wise/wise.py:146-232"]}
{"id": "C179", "title": "get_psf_model of wise.py: the cache never changes a result, but nearly all positions are refused under Python 3", "statement": "(1) With xy, a coordinate whose whole part n is from 1 to 899 and not a multiple of 100 raises AssertionError; all others give the centre of their cell of the grid of 100 pixels, 50 for those below and 950 for those above. (2) In any sequence of calls with one cache that was empty at first, whatever the arguments and whichever calls fail, each result or exception is that of the same call without a cache, and no model is kept twice. (3) A call that had a result is answered from the cache when it is repeated, after any further calls, also failing ones: nothing is read or fitted and the cache does not change, even if reading or fitting would fail then.", "quantifier": "for all coordinates, all sequences of calls, and all behaviours of reading and fitting that depend only on band, pixpsf, cell and positive", "why_tests_cant": "All sequences of calls with all interleavings of failures; the failing coordinates are 891 of 899 and no test uses xy.", "anchors": ["wise/wise.py:349-397"]}
{"id": "C180", "title": "read_wise_level3 (read_wise_coadd) cannot cut out a region: TypeError unless the region covers the image", "statement": "(1) With radecroi, read_wise_level3 raises TypeError if the smallest column of the corners of the region is in (0, W-1], the largest in (0, W], or the same for rows with H: the bounds are then numpy floats, which slices refuse. (2) Otherwise the slice takes the columns from 0 (smallest column not positive) or W-1 to 0 (largest not positive) or W, and the same for rows. (3) So if it takes any pixels, it takes in each direction the whole image, and then the region covers it, or the last column or row only.", "quantifier": "for all image sizes of at least one pixel and all pixel coordinates of the corners", "why_tests_cant": "That no region at all gives a proper cut-out is a statement about all regions.", "anchors": ["wise/wise.py:289-312"]}
{"id": "C181", "title": "read_wise_level1b reads exactly the pixels of the region that was asked for, with radecroi before radecrad before roi", "statement": "(1) Without region all pixels of the image are read. (2) With roi=(x0, x1, y0, y1), x0 <= x1 and y0 <= y1, the pixels (i, j) of the image with x0-1 < i < x1 and y0-1 < j < y1 are read, exactly those, and None is returned exactly if there is none. (3) The same with radecrad=(ra, dec, radius), whatever roi is, for the pixels less than the radius plus one pixel from the position in each direction. (4) The same with radecroi, whatever radecrad and roi are, for the pixels less than one pixel, in each direction, from the rectangle around the four corners. (5) A roi with bounds in the wrong order raises AssertionError if its upper column bound is in the image, before the lower one, and its rows are not empty.", "quantifier": "for all image sizes, WCS functions with finite results, pixel scales, positions, radii (not negative in pixels) and rectangles", "why_tests_cant": "Rounding and clipping have to be right for all regions, inside, outside and across the edges of the image, and for all combinations of the three arguments.", "anchors": ["wise/wise.py:62-112"]}
{"id": "C182", "title": "What is written through a hybrid PSF is seen through exactly the hybrid PSFs with the same pixelized PSF", "statement": "(1) Setting an attribute (not pix, gauss or shape) of a HybridPixelizedPSF never fails, and is seen through all hybrid PSFs that have the same pixelized PSF, and no other attribute of any hybrid PSF changes (shape apart, which is computed from H and W). (2) Setting a name of one of its own methods has no effect on the hybrid PSF: the method is still found, and the value is on the pixelized PSF. (3) Setting gauss changes no other attribute, so two hybrid PSFs with the same pixelized PSF and different Gaussians have the same hashkey; after setting pix all attributes that are passed on are those of the new pixelized PSF. (4) If the pixelized PSF is constant, what is set on the result of getShifted or constantPsfAt is set on the original too, and the other way round; if it varies, the result has the attributes of the new pixelized PSF and the same Gaussian, and no hybrid PSF there was changes. (5) A copy (or a pickled and unpickled one) has a pixelized PSF of its own: making it changes nothing that was there, and neither side sees what is set on the other later. (6) Reading any attribute other than those of the class from an object whose pix and gauss have not been set ends in RecursionError, and setting one other than pix and gauss in KeyError.", "quantifier": "for all heaps of pixelized PSFs, all hybrid PSFs sharing them in any way, all attribute names (but those python gives every object) and values", "why_tests_cant": "The effect of one assignment on all other objects and all other attributes is a statement over all heaps and names.", "anchors": ["tractor/psf.py:64-65", "tractor/psf.py:107-129", "tractor/psf.py:600-656"]}

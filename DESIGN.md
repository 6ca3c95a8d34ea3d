# Formal model of tractor: design

The properties are in `properties.jsonl` (C01..C182, more appended as the model grows).
The Lean 4 project is in `lean/`.  `MANIFEST.json` maps properties to theorems and
`seeded/LOG.jsonl` records wrong-program experiments against the theorems.

## Layout

Each area has two kinds of file under `lean/Verif/`:

* `*/Model.lean` – definitions mirroring the Python, each with a comment citing file and
  lines in `/repo` and noting simplifications;
* `*/Props.lean` – small independent specifications, the property theorems, and beside each
  an `example` showing that the hypotheses hold in a non-trivial case.
  Helper lemmas live in `*/Lemmas.lean`.

## Common modelling decisions

* **Values instead of mutation.**  A method that mutates `self` becomes a function returning
  the new object.  Python exceptions become values (`Except PyErr α`, or `Option`), and the
  state left behind by a failing call is modelled where a property is about it.
* **Aliasing.**  Parameter trees are modelled as values, hence without aliasing between two
  slots of one tree, except in the shared-parameter model (C38), where slots are references
  into a store.
* **Numbers.**  Machine floats are replaced by an arbitrary type / ordered field / ℝ.
  Rounding is *not* modelled.  Where the code tests for NaN or infinities (line searches,
  log-probabilities) the model uses an extended number type with `nan`, `+inf`, `-inf`
  and Python's comparison semantics.
* **numpy arrays.**  Images are functions `Int → Int → α` with explicit sizes, or lists
  (of lists).  Basic slicing follows Python semantics, including negative starts.
* **External code** (astrometry.net `get_overlapping_region`, WCS, scipy, LSQR/lstsq, Ceres, C
  extensions) appears as a parameter or as a definition of its documented behaviour, which is
  recorded in the trusted base.

## Plan per property

| id | model | proof |
|---|---|---|
| C01–C03, C05, C06 | mutual inductive `Par`/`Subs` for scalar, list, nested containers with flags and missing subs; get/set functions as in utils.py | mutual structural induction |
| C04 | the same tree with bounds/steps/names; separate class of objects whose bound lists are empty (MogParams, NpArrayParams) | induction; negation witness for the latter |
| C07–C09 | freeze/thaw, recursive and path versions on the tree | induction; characterisation of flags |
| C10 | flag lists | list induction |
| C11 | container operations as a state machine over (flags, subs) | invariant over operation lists |
| C12 | copy functions of each class as records of attributes | equational; negation witnesses |
| C13 | `setStepSizes` both branches | induction + negation witness |
| C14–C16 | sparse prior matrices as lists of (row, col, val) | induction over subs, sums over ℝ |
| C17 | ArithmeticParams on value/flag lists | list lemmas + negation witness for reflected minus |
| C18–C21 | cache as association list in recency order plus counters | invariants over operation histories; refinement to `Key → Option Val` |
| C22 | cache mixin over an abstract renderer and hash keys | invariant + negation witness for masks |
| C23–C28 | patches with integer offsets, list-of-rows pixels, Python slices | index arithmetic |
| C29–C31 | fold of `addTo` over sources; chi; extended numbers | induction |
| C32, C41, C57, C58 | derivative lists tagged with parameter identity, over the freeze flags | case analysis / induction |
| C33, C35, C36, C59 | line searches as folds over alphas with an arbitrary objective | loop invariants |
| C34 | getParameterSteps over a linear ordered field | loop invariant |
| C37, C38, C40 | sparse triplets; row-offset dictionaries; store with aliasing | induction |
| C39 | matrices over ℝ | algebra |
| C42 | WCS wrappers over abstract base conversions | algebra |
| C43, C44, C85, C86, C88, C89 | real numbers with Mathlib's power, logarithm, trigonometric functions | algebra |
| C45 | K-component vectors | index arithmetic |
| C46, C47 | images over an additive commutative group; sums over intervals | induction |
| C48 | index formula | arithmetic |
| C49–C51, C54, C56 | integer geometry | omega |
| C52 | mixtures over a field, transform with an abstract exponential (a homomorphism from sums to products) | algebra |
| C53 | grid of coefficients | algebra + negation witness |
| C55 | affine maps | field arithmetic |
| C56, C74, C75, C78 | images, models and blocks as lists; the dicing as a state machine with a slot table | invariant over attached models; sums over pixels |
| C79–C81 | as C52; lists of values with frozen flags | algebra + negation witnesses |
| C82, C83 | C arrays as flat memory, the loops of each pass as a list of writes | every address is written, always with the same value |
| C84 | images with numpy broadcasting, fold of `addTo` | induction + negation witnesses |
| C93 | work array, trimmed slices | loop invariant (the work array is zero between models), sums over slices = sums over images; negation by `rfl` |
| C94 | work arrays reused by all sources, boxes, slices with numpy's negative bounds | loop invariants over components, images and sources; negation witnesses |
| C95 | rounding, transform size, offsets, cutting out | the geometry: stamp centre at n/2 - 1, offsets in range, Lanczos results of C82; negation witnesses |
| C96 | floors and ceilings, clipping | the same, clipping axis by axis |
| C98 | loop over rings with four arrays of marks | invariant: marks are the pixels of the ring reached in an inductive specification; folds described by the set of pixels evaluated; counterexample followed with the specification |
| C99 | five implementations of a sum over components | each term equals the density or is skipped; sums over filtered lists; bounds on what is skipped; `HasDerivAt` |
| C100 | loop of getFourierTransform over the complex numbers | iterated Gaussian integrals (Mathlib `integral_cexp_quadratic`), induction over components with integrability |
| C101 | convolve | completing squares about the minimum of the sum of two quadratic forms, two Gaussian integrals, induction over both mixtures |
| C102 | an image with its PSF, WCS and sky, sources rendered one by one | the patch in the tile is the patch of the whole image moved by the offset, or both miss the tile; induction over sources; negation witnesses and a general negation for varying PSFs |
| C103 | sum over pixels | C102 for every tile, exchange of sums over tiles and pixels |
| C104 | log posterior over the reals (Gibbs' inequality, weighted mean and covariance optimal) | one step never decreases it; induction over steps; strong regularisation keeps all light within reach |
| C105 | bounds by weighted moments | amplitudes, means, covariances after any number of steps; negation witnesses and general negations |
| C106 | the same with a sky, covariance about the old mean first, then the mean | loss by the cut bounded by `approx`; sums of shares of every pixel |
| C107 | images padded to a power of two | index arithmetic axis by axis; limits of shifts from the first and last weighted row and column |
| C108 | seven-point filters with edge cases, cutting out of the mask | the filter of every row equals the CPU's correlation; shift of the padded stamp = shift of the stamp; negation witness |
| C109 | steps, chi images of shifted models, search loop | chi-squared of the padded arrays = chi-squared of the masks; the loop with differences refines the CPU loop (C35); negation witnesses |
| C110 | galaxy profiles of a batch, padding, the two methods, the ramp | sums over padded components = sums over the mixture, case split on the ramp; then the line search of C109 |
| C111 | rows and columns of the GPU least-squares problem | columns paired with parameters by an inductive relation; residuals of the cut and scaled system = linearised chi-squared; models from C108 and C110 |
| C112 | B-splines by the Cox-de Boor recursion over an ordered field | support, sign and sum of all B-splines by induction on the degree; negation witnesses with bilinear splines |
| C113 | mixtures as lists, kernels into any module; patches with footprints; real exponential for the softened fraction | linearity by induction over mixtures, calculus from Mathlib; negation witnesses for minsb and clipped fractions |
| C114 | the table copied as rationals; splines, exp and log as parameters; selection, ramp, core and sorting as functions on lists | contiguous ranges by induction; rows checked by kernel evaluation of the table; continuity glued at the borders; jump from one-sided limits |
| C115 | a fourth parameter added to the galaxy of C41; renderers and profiles as functions of the index | C41 for the first entries, case analysis of the step; negation witnesses by evaluation |
| C116 | the position with ArithmeticParams of C17 and an abstract coordinate conversion; the derivative loops with stepEach of C41 | trigonometric identities; stepEach with an invariant of the stepped object |
| C117 | the object as a state (image, cache) with three operations; interpolation and transform abstract | an invariant of reachable objects: the image is the first one or its normalisation, the cache holds what a fresh object would return |
| C118 | the object as a state (splines fitted or not), fit and spline abstract; the cache of C18 | induction over rows and columns of the grid; an invariant over histories: every entry is what would be computed afresh |
| C119 | the lru_cache as a list of mixtures by weights and sigmas, changed in place; bounds of patches as integers or floats; values over the reals | an invariant over histories: every cached mixture is centred; C99 for the values; integer geometry with rounding |
| C120 | headers as lists of records; calibrations as inductive types with the parameters that are written; copies as in C12, C45 | injectivity of record names; induction over the written parameters; setting all parameters of a fresh mixture restores it (C45) |
| C121 | arrays over the catalogue as functions, the loops over tiles and bands with exceptions; fits as a parameter | an invariant of the loop over tiles: the distance kept is the least so far, what is saved is from the nearest tile so far |
| C122 | images with Python's indexing (negative indices from the end), arrays of positions as lists with masks | case analysis on zero pixels and convexity; induction over the sources for masks |
| C123 | objects as trees with all attributes, keys as nested tuples, Python's hash as a function of the hashes of elements | injectivity of the key by mutual induction under stated conventions; negations for each attribute missing in a key |
| C124 | ten numbers with the attributes cached by the constructor; the library's projection as functions of the eight numbers | simulation of any history by a list of flagged numbers; negations for the stale matrix, lost flags, missing bounds and the Python 2 name |
| C125 | the two parts with shared position; lists of derivatives joined at the position | alignment of the joined list with the parameters for all flags; pixelwise sum and error bound; negations for a Sersic part that is not rendered, keyword arguments, and the default limit |
| C126 | arrays cut, strided and added in a loop over offsets within the block | invariant of the loop over offsets; sums over blocks; scaling of Gaussian densities over the reals; negation for Python 3 |
| C127 | indices of a table filtered twice; directions and angles on the sphere for the specification | triangle inequality of angles, declination against angle, tangent plane against angle; over the reals |
| C128 | the tree of parameter objects with another traversal | mutual induction on trees; permutation and sublists; negations for None parts, unnamed values, third column, containers |
| C129 | rows of the table, options, sources made in a loop | filters composed into one; alignment of filterMap and selection by index; case analysis on kinds; negation for extra bands |
| C130 | loop over the rows with the variables that survive an iteration | induction on the rows with arbitrary leftover shapes; negation for NaN magnitudes (stale shapes, UnboundLocalError) |
| C131 | object with a table of values, offset, constant matrix; transformation as parameter | algebra; induction over the flags for setParams; invariant over call histories; negations by evaluation |
| C132 | real numbers; parameter that can become None; names bound at the top level of a module | laws of powers and logarithms; negations by evaluation |
| C133 | cells in a heap with prev and next, sentinel, map and builtin dictionary | segment predicate for doubly linked lists with frame lemma; refinement of a list by induction over operations; simulation of the cache model |
| C134 | E and M step over lists of samples and components with not-a-number as none | Gibbs inequality per sample, optimality of mean and variance per component, exchange of sums; induction over steps |
| C135 | both renderings over catalogs of sources with parts, unit-flux models as a function of threshold and mask | induction over the catalog and the parts with the list of parameters that is left; pixel sums of patches |
| C136 | weights and blend over any ordered field, bright profile over the reals | order and absolute value lemmas for clip; arith_ok of patches; rpow calculus for the radius; floor and ceiling for the grid |
| C137 | objective of the loop of `Forced` built from the images of `Linmod`; likelihood built from `modelImage` | equality of the two objectives from C135, then C59; chi images are affine, so stationary points are minima of a convex quadratic |
| C138 | derivative lists of `_optimize_forcedphot_core` built from `Linmod.umods`, handed to `Lsq.getUpdateDirection`; loop of `Forced` | the chi-squared of the fit is the linearised chi-squared of `Lsq` and a constant; C39/C38 give its minimum, `forced_round` the step |
| C139 | file system as a function; loop over directories; `interpretRoi` of `Roi`; cut-outs of `Arr` | induction over directories; cut-outs of regions inside the image; C51 for the pixels asked for |
| C140 | `sdssImage` on the cut-outs of `Read`; masks as a predicate; scalar or array inverse variance | cut-outs inside the frame; C51; explicit frames for the negations |
| C141 | the tables as rational numbers, normalised as at import | polar coordinates for the light within a disc, change of variables for the ellipse, powers as bounds of exponentials |
| C142 | array passes with masks, as in numpy | one lemma about tapered decreasing functions, instantiated twice |
| C143 | the models of getDerivs, getUpdateDirection, tryUpdates and getLogProb put together as one function of the tractor | a quadratic log-probability along every line; the solution of the normal equations is the maximum |
| C144 | the models of getDerivs, the dense or sparse direction and the limited step search put together as one function of the tractor | the log-probability rises along the way to the maximum; the last feasible step reaches at least as far as every allowed point |
| C145 | files as header cards and a list of images; reading and writing as functions that may raise | the model read is determined by the cards; the written cards satisfy all assertions of the reader |
| C146 | the saved grid as nested lists, the table as named columns | a counting argument shows that every component number occurs with every name |
| C147 | parts as files of positions and of rows; the loop over the parts as one function of two tests | induction over the parts; the tables are checked to be chains from -90 to 90 |
| C148 | images of `Fpfit` with other pixel values (`withPixels`), pixels of `getModelImage` | the log-likelihood is a weighted sum of squares of an affine model; C138 gives its maximum, there the residuals are orthogonal to all changes of the model; linear in the data |
| C149 | `_get_iv` of `Forced` with the unit-flux models of `Fpfit`; the fits of C148 | normal equations from the maximum of C138; covariance of the right-hand sides; Cauchy-Schwarz; for isolated sources the equations separate |
| C150 | `Fpfit` of C137 and C138, catalogs divided by the numbers of their sources | the log-likelihood is a sum over pixels that separates into a function of either group; maxima of the whole are maxima of the groups; the maximum is unique where fluxes can be told from the pixels |
| C151 | `Fpfit` of C137 and C138 for two tractors | the log-likelihood is a sum over images, each invariant under units; permutations by induction; uniqueness of the maximum |
| C152 | the tractor of C143 with other pixel values (`withData`) | the log-probability is a weighted sum of squares over pixels and priors of an affine model; C143 gives its maximum, there the residuals are orthogonal to all changes of the model; linear in the data |
| C153 | `optimize` with `variance` and `just_variance` | C65 gives the variances, 1 / the effect of the parameter; the residuals at the maximum as in C152, with the Cauchy-Schwarz argument of C149 |
| C154 | no new code; the model images as differentiable functions of the thawed parameters (over the reals) | the log-probability has the same slope as minus half the linearised chi-squared; a minimiser of that is uphill (as in C143), then C33 |
| C155 | no new code; tractors that are reorderings of each other | setting parameters commutes with reordering (induction on the permutation); C29 and C30 as sums; two minima of a sum of squares give the same models; then C143 |
| C156 | no new code; two tractors alike but for masked pixels | the relation is kept by every step of getDerivs (finite differences of image parameters), the residuals are equal, so is the matrix problem; induction on the rounds |
| C157 | no new code; the solver is one that minimises the squared residual plus d^2 times the squared norm (the argument damp of lsqr, lsqr_optimizer.py 584) | the direction minimises the linearised chi-squared plus d^2 times the squared length; compare with a part of the step to the maximum; induction over the rounds |
| C158 | no new code; two tractors of the model and a map of pixels | sums over pixels are collected along the map; the linearised problems differ by a constant and have one minimum; the line search sees only differences; induction over the rounds |
| C159 | no new code; two tractors of the model | the linearised problems are the same after the linear map, up to a constant, and have one minimum; the line search sees only differences of the log-probability; induction over the rounds |
| C160 | getUpdateDirection, optimize and optimize_loop with a solver that may raise | the direction agrees up to the solver; zeros leave the line search at the start, whatever the step fractions; induction over the rounds |
| C161 | freezing all but a group of images and sources, optimize, flags set back | parameters of the group as a mask over all parameters; frozen priors are constant; gradient of the sum of squares is zero on every group; pixels that are not shared leave it so |
| C162 | the model of C161, turns repeated | the gain of a turn is the squared change of the model; the gradient before a pass is bounded by the gains; the distance to the maximum is bounded by the gradient (generalised inverse of the Gram matrix, any ordered field) |
| C163 | the WCS model of C42/C66 with the external header function replaced by the gnomonic projection over the reals | derivatives of sine and cosine at the tangent point; scaling of columns in the least-squares problem and in the variances |
| C164 | `addGaussianPrior` as a function on parameter lists; the loop over nights as a user's program over `optimizeVar` | the log-probability about the best fit is a quadratic form, diagonal for parameters that share no pixels; the prior terms add the same form; induction over the nights |
| C165 | `getPointSourcePatch` and `getUnitFluxModelPatch` over the reals, on the routines of C98 and C99 | the box against the floors and ceilings; the Mahalanobis distance is at least the distance over the larger standard deviation; monotone values for C98; sums over components for the galaxy |
| C166 | C41's chain rule (or quotient) with the world of a star in an image with a mixture PSF; the slopes of evaluate_grid_masked are those of the density (C99), and the density along a curve of pixel positions is differentiated | difference quotients: near the position what is shown is the density (C165), so that the limit is that of the density's difference quotients |
| C167 | the affine image of a round Gaussian is the density of the placed component (change of variables), the convolution integral of two Gaussians is a Gaussian (C101), sums over components exchanged with the integral; Fubini from integrability of the absolute values | the values computed differ from the density by less than exp(-30) or exp(-50) of the peaks (C99), and spreading a profile over the image lowers the peaks: the determinant of a sum of a non-negative and a positive matrix is at least that of the second |
| C168 | C41's theorem for galaxies in the world of a galaxy with a PSF of Gaussians in one mask; the pixels are those of C167 | moving a galaxy by a pixel is moving the pixel the other way, so the central differences of pixels are differences of the light of the moved galaxy; the mean value theorem gives the place in between |
| C169 | one Gaussian against any polynomial of degree two, by splitting the distance into two squares and the moments of a normal distribution along a line; then sums | the sums over the components of a convolution factor; a round profile about the origin has no displacement |
| C170 | one unit-flux patch by C165 and C167, scaled by the counts and added for composites (C113), then summed over the catalog (C29) | what a source shows is stated as a relation, with and without a mask, so that the rectangle the code cuts without a mask need not be named |
| C171 | C170 in every pixel, times the inverse error; sums of squares over pixels and images (C30) | a single square is at most the sum of all |
| C172 | the routines in C add over the components of a mixture (C172_linear), which is what C113 asks of the environment | C170 for each of the two parts, C113 for the sum; without mask C96 and C99 on the whole mixture |
| C173 | C170 for both tractors: each source shows its light in the masked and in the free image | sums over the list of sources, by induction |
| C174 | each source in a pixel is its counts times a number that does not depend on them; composite patches add (C96, C172) | induction over the steps; C29 for the image |
| C175 | the methods of the classes as a record (`optimize` calls them through it), `super()` as the record of the parent class | equality of the methods gives equality of `optimize`, and of the loop by induction over the rounds |
| C176 | values as `Num R`, the operators that total_ordering derives from `__lt__` and `__eq__` as functions that may raise, `max`, `min` and `index` as folds over the list | place on `WithBot (WithTop R)` as the spec; induction over the list with the best so far |
| C177 | the region as four corners, clipped integer bounds, the returned image as offset, size and functions | floor and ceiling against the order of the field; the spec (`Near`) has no rounding or clipping |
| C178 | pixels as triples with `Num K` values, the result of a pixel given the two medians | bitwise and against `testBit`; cases of the uncertainty |
| C179 | the grid over rational numbers, the cache as an association list, reading and fitting as a function that may raise | invariant of the cache (entries are what would be built, keys differ), induction over the calls |
| C180 | Python numbers as ints or floats; `min` and `max` return one of their arguments with its type | cases of the order of a bound to 0 and the size |
| C181 | the three arguments to one rectangle, then rounding and clipping; the outcome as bounds, None or AssertionError | floor and ceiling against the order of the field, with the lemmas of C177; the spec (`Takes`) is a set of pixels without rounding |
| C182 | a heap of pixelized PSFs with attributes by name; hybrid PSFs as an address and a Gaussian | frame property of one write, stated for every hybrid PSF and every name; sharing and copies follow from it |
| C97 | filters and weights of mixture components | case analysis of one component against a closed-form share; sums over filtered lists |
| C76, C77 | Jacobian as a list of columns, some unwritten; block loop with fuel | induction + negation witnesses |
| C87 | class-wide property names plus objects; reachable states | invariant over histories |
| C60, C90 | state tuples, keyword dictionaries | equational + negation witness |

None is judged inexpressible; what cannot be exhibited (rounding, memory,
process scheduling) is noted per property in `MANIFEST.json`.

## Modelled code

| module | code modelled | properties |
|---|---|---|
| `Py`, `Arr`, `Num` | Python exceptions, slices, 2-d arrays, floats with NaN/inf and their comparison | used by the others |
| `Params` | utils.py: BaseParams, ScalarParam, NamedParams, ParamList, ArithmeticParams, MultiParams, NpArrayParams, GaussianPriors | C01–C17 |
| `Ceres` | ceres_optimizer.py CeresTractorAdapter, _ceres_opt (scaling, priors, bounds, results), getDynamicScales, optimize, _getOneImageDerivs, _ceres_forced_photom with optimize.py forced_photometry's sky/model lists; ceres-tractor.cc ImageCostFunction Jacobian and ForcedPhotCostFunction; ceres.i loops over images | C55, C56, C58, C74–C78 |
| `Cache` | cache.py; the cache mixin of sources | C18–C22 |
| `Patch` | patch.py: ModelMask, Patch | C23–C28, C61, C62 |
| `Engine` | engine.py: model images, chi, likelihood, derivatives; image.py derivatives; catalog | C29–C32 |
| `Opt` | optimize.py tryUpdates, engine/optimizer loops, line searches, getParameterSteps | C33–C36, C63 |
| `Lsq` | lsqr_optimizer.py getUpdateDirection; dense_optimizer.py getUpdateDirection; smarter_dense_optimizer.py getUpdateDirection (without get_A) | C37–C40, C64, C65, C91, C92 |
| `Coords` | wcs.py NullWCS, WcslibWcs, ConstantFitsWcs, TanWcs (conversions, CD, shifted); shifted.py ShiftedWcs, ScaledWcs, ShiftedPsf; basics.py TractorWCSWrapper | C42, C66–C68 |
| `Params/Header` | ducks.py toFitsHeader, fromFitsHeader | C69 |
| `IntImg` | integral_image.py, symmetric_integral_image.py | C46, C47 |
| `Psf` | psf.py PixelizedPSF (sampling 1): constructor, copy, getPointSourcePatch with radius, mask, derivs; _padInImage; psfex.py PsfExModel polynomials, at, shifted, copy | C12, C48–C50, C70–C72 |
| `Psf/Lanczos` | psf.py lanczos_shift_image; mp_fourier.i correlate7f_inout, lanczos_filter_3, lanczos_shift_3f | C82, C83 |
| `Mog` | utils.py MogParams; psf.py GaussianMixtureEllipsePSF parameters, NCircularGaussianPSF (copy, scale, hashkey, mixture); mixture_profiles.py MixtureOfGaussians algebra and getFourierTransform; mp_fourier.i gaussian_fourier_transform_zero_mean | C45, C52, C79–C81 |
| `Forced` | lsqr_optimizer.py _lsqr_forced_photom, _lnp_for_update; optimize.py _getims, _get_umodels (positions and shifts of the unit-flux models), _get_iv, _get_fitstats | C59, C84, C93, C94 |
| `Gal` | galaxy.py ProfileGalaxy.getUnitFluxModelPatch, _realGetUnitFluxModelPatch (without force_halfsize, warnings and debug plots), HoggGalaxy._getUnitFluxPatchSize; psf.py PixelizedPSF.getFourierTransform for sampling 1.  Fourier transforms and the evaluation of mixtures are parameters | C95-C97 |
| `Approx` | approx3.c c_gauss_2d_approx3 (rings, marks, extents, starting pixel; derivative images, filled where the values are, left out); mixture_profiles.py evaluate_grid_approx3.  The value in a pixel is a parameter | C98 |
| `Gauss` | mix.i c_gauss_2d, c_gauss_2d_grid, eval_g, eval_all, eval_all_dxy, eval_all_dxy_f; preparation of components in approx3.c and gauss_masked.c; mixture_profiles.py evaluate_2, evaluate_3, evaluate_grid_dstn, evaluate_grid_masked; over the real numbers (no rounding, no infinities; eval_all_dxy_f works in single precision).  With `Mog`: getFourierTransform over the complex numbers, convolve | C99, C100, C101 |
| `Tile` | image.py subimage; getShifted of the PSF, WCS and sky classes; shifted.py ShiftedPsf; GaussianMixturePSF and PixelizedPSF.getPointSourcePatch, pointsource.py getUnitFluxModelPatch, getModelPatch; engine.py getModelImage, chi-squared of an image, without masks.  Values of mixtures and the spline fit are parameters; photometric calibration copies are taken to be faithful | C102, C103 |
| `Em` | emfit.i em_fit_2d_reg; emfit2.c em_fit_2d_reg2; fitpsf.py em_init_params; psf.py GaussianMixturePSF.fromStamp, over the reals; division by zero gives `none` (not a number), which spreads as NaN does | C104–C106 |
| `Gpu` | gpu_optimizer.py get_image_params, cache_image_params, gpu_setup_image_params, get_vectorized_psfs (padded stamps), lanczos_shift_images_gpu, correlate7_2d_gpu, lanczos_filter, gpu_get_unitflux_psf, gpu_one_source_models for point sources, gpu_one_source_try_updates and _gpu_checks for point sources, galaxies and constant surface brightness, gpu_get_unitflux_galaxy_profiles (the inverse FFT of a product with the transform of the PSF is a linear map; float32 is exact arithmetic), gpu_one_source_update (lstsq is any solver of least-squares problems).  `cupy` is taken to behave as `numpy`; single precision is not modelled; each image and model is an array of its own | C107, C108, C109, C110, C111 |
| `Ell` | ellipses.py EllipseE, EllipseESoft (conversions, basis, covariance, step sizes); galaxy.py GalaxyShape.getRaDecBasis | C44, C85, C86 |
| `Bright` | brightness.py: conversions, MultiBandBrightness, Mags, Fluxes, NanoMaggies, photometric calibrations; utils.py _addNamedParams (properties on the class) | C43, C60, C87–C89 |
| `Roi` | imageutils.py interpret_roi | C51 |
| `Sky` | splinesky.py BlantonMethod, getParamGrid, getLogPrior, getLogPriorDerivatives; constructor, copy, get_grid, shift, shifted, offset, scale, addTo, setParam, to_fits_table, from_fits_row (`Sky/Spline`).  scipy's fit is a parameter (unique interpolation is assumed of it in the theorems on copies and tables); its evaluation is taken to be that of tensor-product B-splines | C53, C54, C73, C112 |
| `Multi` | multiproc.py; engine.py __getstate__, __setstate__, model_kwargs | C57, C60, C90 |
| `Src` | getParamDerivatives of PointSource, Galaxy, FixedCompositeGalaxy, CompositeGalaxy, ConstantSurfaceBrightness; ducks.py pixelDerivsToPositionDerivs | C41 |
| `Gal/Composite` | galaxy.py FracDev, SoftenedFracDev, FixedCompositeGalaxy (profiles, patch size, fracDev derivative), CompositeGalaxy (getBrightnesses, getModelPatch, getUnitFluxModelPatches); pointsource.py SingleProfileSource.getModelPatch.  Renderers of unit-flux patches are parameters (C113_same uses those of `Gal`); NaN fractions and patches with pixels that are not finite are left out | C113 |
| `Gal/Sersic`, `Gal/SersicTable` | sersic.py SersicMixture (table of fits and cores, selection of the range, ramp, core, sorting).  scipy's splines, exp and log are parameters; NaN indices are left out; the order of components of equal variance is one of those numpy may give | C114 |
| `Src/Sersic` | sersic.py SersicIndex (constructor), SersicGalaxy.copy, getParamDerivatives, getDerivativeShearedProfiles; galaxy.py HoggGalaxy.getDerivativeShearedProfiles.  Renderers and sheared profiles are parameters; that a sheared profile has as many Gaussians as the profile is assumed | C115 |
| `Src/Moving` | motion.py Parallax, ParallaxWithPrior, MovingPointSource (parameters, copy, getPositionAtTime, getUnitFluxModelPatch, getParamDerivatives); tractortime.py TAITime without dates.  The coordinate conversions of astrometry.net, WCS and PSF are parameters | C116 |
| `Psf/Over` | psf.py PixelizedPSF with sampling != 1 (_sampleImage, _getOversampledPointSourcePatch, _getOversampledFourierTransform), getFourierTransform with its cache, NormalizedPsf, NormalizedPixelizedPsf; psfex.py PixelizedPsfEx.getImage, getFourierTransform, constantPsfAt, NormalizedPixelizedPsfEx.  lanczos3_interpolate_grid of astrometry.net and np.fft are parameters; rounding to float32 and complex64 is not modelled | C117 |
| `Psf/Varying` | psfex.py VaryingGaussianPSF (ensureFit, ensureSplines, fitSavedData, psfParamsAt, psfAt, _fitParamGrid with the default arguments), CachingPsfEx (psfAt, __getstate__, fromPsfEx).  instantiateAt, fromStamp and the scipy splines are parameters; the files of VaryingGaussianPsfEx are not modelled here | C118 |
| `Circ` | psf.py NCircularGaussianPSF.getRadius, getPointSourcePatch, applyTo, getCircularMog with its lru_cache; mixture_profiles.py mixture_to_patch; pointsource.py PointSource.getUnitFluxModelPatch for these PSFs.  evaluate_grid_approx3 (minimum values) and scipy's gaussian_filter are parameters; float32 is left out | C119 |
| `Img` | image.py Image constructor, copy, setInvvar, getInvvar, getFitsHeader, toFits, readFromFits; ducks.py ImageCalibration.toFitsHeader, fromFitsHeader for NullWCS, ConstantFitsWcs, NullSky, ConstantSky, the PhotoCal classes of brightness.py, NCircularGaussianPSF, PixelizedPSF; psf.py GaussianMixturePSF.fromFitsHeader.  fitsio itself (case of names, types of values) is left out; the square root is a parameter | C120 |
| `Wise` | wise/forcedphot.py unwise_forcedphot (selection of sources, distances, saving of results, zeroing).  Reading of images, coordinate conversions and Tractor.optimize_forced_photometry are parameters; models, plots, PSF options, numbers of exposures, dates and magnitudes are left out | C121 |
| `Sfd` | tractor/sfd.py bilinear_interp_nonzero, ebv, extinction.  Reading of maps, their WCS and the conversion to Galactic coordinates are parameters; float32 is left out | C122 |
| `Key` | hashkey of utils.py BaseParams, MultiParams; wcs.py NullWCS, ConstantFitsWcs, TanWcs; psf.py PixelizedPSF; psfex.py PixelizedPsfEx (with getShifted, shift); shifted.py; image.py Image; cache.py 25-26 on top of `Cache`.  Keys of SDSS and CFHT calibrations, hybrid PSFs and splines are left out | C123 |
| `Coords.Tan` | wcs.py TanWcs 258-371 with ConstantFitsWcs 151-245 (constructor, copy, shifted, things, conversions, step sizes); utils.py ParamList setParam, setParams, getParams, bounds.  `toStandardFitsHeader` and sharing of one library object are left out | C124 |
| `Src.Core` | devcore.py (all), sercore.py (all): getModelPatch, getUnitFluxModelPatches, getBrightnesses, getParamDerivatives, on top of the galaxies, Sersic galaxies and point sources modelled elsewhere.  `getBrightness` (sum of brightness objects) and names are left out | C125 |
| `Bin` | sdss.py 604-640 (`scale_sdss_image`: data and inverse variance), psf.py 432-437 (`GaussianMixturePSF.scaleBy`), shifted.py 121-131 (`ScaledPhotoCal`); ScaledWcs is in `Coords`.  The copied sky, the name and `zr` are left out; in-place addition of arrays of different shape is an error (no broadcasting) | C126 |
| `Atlas` | wise/unwise.py 14-62: `unwise_tile_wcs`, `unwise_tiles_touching_wcs`.  `degrees_between`, `radius`, `radec_center` and `polygons_intersect` (astrometry.util) are parameters, in the specification the first is the angle between directions and the second half the diagonal; what the table class does with an empty float index (no polygon intersects) is left out, as are the file names and images of the rest of the file | C127 |
| `Params.State` | utils.py 529-536, 1088-1101 (`getParamStateRecursive`), 610-614 (`getFrozenParams`, `getThawedParams`), 651-667 (`getLiquidIndex`); names are looked up in the order of the entries (in the code they are keys of a dictionary) | C128 |
| `Sdss.Model` | sdss.py 197-513 (`_get_sources`) with a table, after DR7; not the files, DR7, `classmap`, NaN, nor what tables do with an empty index | C129 |
| `Sext.Model` | source_extractor.py 7-65; magnitude to flux any positive function; NaN only in magnitudes | C130 |
| `Sdss.Wcs` | sdss.py 909-1022 (`SdssWcs`) and 769; inherited methods of utils.py (`ParamList`, `NamedParams`); `AsTrans` of astrometry is a parameter | C131 |
| `Cfht` | cfht.py 31-107; sdss_dr7.py 207-275 (counts; names at its top level); the step of engine.py 318-320 | C132 |
| `Odict` | ordereddict.py 26-124; the methods from `DictMixin` as in UserDict; cache.py 65-122 over it | C133 |
| `Em1` | emfit.i 30-262 `em_fit_1d_samples_reg`, `em_fit_1d_samples` | C134 |
| `Linmod` | optimize.py 50-93, 147-222, 465-501; engine.py 414-447; pointsource.py 34-60; galaxy.py 1073-1106: linear model and model image (`model_kwargs` empty, no regions of interest) | C135 |
| `Sbright` | sdss.py 32-157 `SdssBrightPSF`, `SdssPointSource` (without `copy`) | C136 |
| `Fpfit` | engine.py 451-479 `getChiImages`, `getChiImage`, `getLogLikelihood`; lsqr_optimizer.py 223-247 with optimize.py 465-520 for lists of images | C137 |
| `Fpfit` (Dir) | lsqr_optimizer.py 11-41 `_optimize_forcedphot_core`; optimize.py 93-107 sky derivatives; sky.py 24-28 `ConstantSky.getParamDerivatives` | C138 |
| `Read` | wise/unwise.py 68-197 `get_unwise_tractor_image` (PSF, sky, photocal and name left out; files are parameters) | C139 |
| `Read` | tractor/sdss.py 706-897 `_get_tractor_image_dr8` (PSF model, sky, photocal, names and file access left out) | C140 |
| `Prof` | mixture_profiles.py 16-46 tables and `get_exp_mixture`, `get_dev_mixture`, 50-91 constructor; galaxy.py 645-657, 711-766 profiles and `nre` of the classes | C141 |
| `Prof` | galaxy_profiles.py 8-74 `profile_dev`, `profile_exp` | C142 |
| `Fit` | lsqr_optimizer.py 253-326 `getLinearUpdateDirection`, `optimize`, `optimize_loop`, with engine.py 481-497 `getLogProb` and `getDerivs`, optimize.py `tryUpdates` | C143 |
| `Cons` | constrained_optimizer.py 12-34, 36-160 `optimize_loop`, `tryUpdates`, `getParameterSteps`; dense_optimizer.py and smarter_dense_optimizer.py `getUpdateDirection`; lsqr_optimizer.py `optimize`, put together for a tractor | C144 |
| `Pfile` | psfex.py 166-257 `PsfExModel.__init__`, `writeto`, 273-291 `copy`, `shifted`, 453-457 `PixelizedPsfEx.getShifted` | C145 |
| `Pfile` | psfex.py 560-690 `VaryingGaussianPsfEx.toFits`, `fromFits` (as far as it can get), `typestring`; names of utils.py 1348-1360, psf.py 703-712 | C146 |
| `Wcat` | wise/wisecat.py, wise/allwisecat.py (whole files) | C147 |
| `Fpfit` (Recover) | the code of C135, C137 and C138 | C148 |
| `Fpfit` (Scatter) | the code of C93, C135, C137 and C138; optimize.py 129-132 | C149 |
| `Fpfit` (Groups) | the code of C135, C137 and C138 | C150 |
| `Fpfit` (Units) | the code of C135, C137 and C138 | C151 |
| `Fit` (Truth) | the code of C143 | C152 |
| `Fit` (Var) | `tractor/lsqr_optimizer.py` 280-325 `optimize(variance=True)`, `optimize_loop` | C153 |
| `Fit` (Smooth) | no new code (C143 for models that are not linear) | C154 |
| `Fit` (Order) | no new code (reordered tractors) | C155 |
| `Fit` (Masked) | no new code (two tractors that differ in masked pixels) | C156 |
| `Lsq`, `Fit` (Damped) | no new code: `damp` of `optimize`, lsqr_optimizer.py 253-326, 584, as a property of the solver | C157 |
| `Fit` (Pool) | no new code: engine.py 440-497, lsqr_optimizer.py 253-326, optimize.py 425-470 for two tractors | C158 |
| `Fit` (Recast) | no new code: engine.py 440-497, lsqr_optimizer.py 253-326, optimize.py 425-470 for two tractors | C159 |
| `Fit` (Fail) | lsqr_optimizer.py 280-326, 584-606 (a ZeroDivisionError of lsqr) | C160 |
| `Fit` (Turns, Turns2) | utils.py 560-605, lsqr_optimizer.py 120-326 (groups of objects in turns) | C161 |
| `Fit` (Passes) | utils.py 560-605, lsqr_optimizer.py 120-326 (passes of turns) | C162 |
| `Coords` (Tangent) | ducks.py 403-424, wcs.py 151-234 for a TAN header; consequences for lsqr_optimizer.py 328-586 | C163 |
| `Fit` (Chain) | utils.py 66-147 (Gaussian priors, `add`), lsqr_optimizer.py 120-326 (results passed on) | C164 |
| `Star` | psf.py 369-528 (`GaussianMixturePSF`: radius, `computeRadius`, `getPointSourcePatch` without derivatives), pointsource.py 101-126 | C165 |
| `Star` (Derivs) | tractor/psf.py 458-528 with `derivs=True`, mixture_profiles.py 305-342, as used by pointsource.py 142-244; the derivatives of `evaluate_grid_approx3` and the test whether the patch overlaps the image are parameters | C166 |
| `Star` (Seen) | tractor/galaxy.py 648-657 and the branches for mixture PSFs of `_realGetUnitFluxModelPatch`, through `Gal` (C96), `Mog`, `Gauss` (C99-C101) and `Prof` (C141) | C167 |
| `Star` (GalDerivs) | tractor/galaxy.py 137-227 (through `Src`), with the central differences of 167-170 spelled out, for a `HoggGalaxy` (640-691) in a model mask and a mixture PSF | C168 |
| `Star` (Moment) | no further code: the densities of `Mog` and `Gal` (mixture_profiles.py 132-172, galaxy.py 640-691, 73-89, ellipses.py 126-157) against polynomials of degree two | C169 |
| `Star` (Whole) | engine.py 414-445, pointsource.py 35-58, galaxy.py 1075-1091 put together: the model image of stars, `HoggGalaxy`s, `CompositeGalaxy`s and `FixedCompositeGalaxy`s with a `GaussianMixturePSF` | C170 |
| `Star` (Truth) | engine.py 455-479 on the images of `Star` (Whole) | C171 |
| `Star` (Mixed) | galaxy.py 798-931 (FixedCompositeGalaxy), a source of `Star` (Whole) | C172 |
| `Star` (Unmasked) | no new code: engine.py 372-445 for a tractor with and without `modelMasks` | C173 |
| `Star` (Same) | no new code: engine.py 372-445 for two catalogs | C174 |
| `Gpu` (Choose) | gpu_optimizer.py 24-62, 133-137 and the inherited lsqr_optimizer.py 253-315, smarter_dense_optimizer.py 47-52, constrained_optimizer.py 12-34, over any derivatives, solver and line search | C175 |
| `Scal` | utils.py 306-332 (`ScalarParam.__eq__`, `__lt__`), the operators of functools.total_ordering, `max`, `min`, `in` and `index` of Python for them | C176 |
| `Galex` | galex.py 18-130 (`galex_read_image` without files, name and `zr`), wcs.py 109-124, 132-147 (`WcslibWcs`); finite pixel coordinates | C177 |
| `Wmask` | wise/wise.py 146, 186-232 (`read_wise_level1b`: mask, sky level, weights); `np.median` is a parameter | C178 |
| `Wgrid` | wise/wise.py 349-397 (`get_psf_model`: grid and cache); reading of files and fits are parameters | C179 |
| `Wcut` | wise/wise.py 289-312 (`read_wise_level3`: bounds of the region and slices) | C180 |
| `Wroi` | wise/wise.py 62-112 (`read_wise_level1b`: regions); `positionToPixel` and `pixel_scale` are parameters | C181 |
| `Hyb` | tractor/psf.py 600-656 (`HybridPixelizedPSF`: attributes, shifts, copies, pickling) over 107-129; the class of the pixelized PSF, its `shape` and its constructor are parameters | C182 |

Not modelled: plotting and I/O, the C extensions (mix, the rest of emfit, and of mp_fourier and ceres what is not listed above), SDSS/GALEX/… specific
readers, floating-point rounding, memory, process scheduling.

## Findings (property false of the code, negation proved)

| theorem | finding |
|---|---|
| `C04_array_bounds_false` | array parameters report empty bound lists |
| `C12_copy_bounds_false` | `copy()` drops bounds and step sizes |
| `C13_second_call_false` | second `setStepSizes`/thawed parameter behind a frozen one assigns wrong step |
| `C16_raw_index_false` | prior derivatives of a list with a frozen element use raw indices |
| `C17_rsub_false` | `number - object` computes `object - number` |
| `C20_overwrite_*_false` | overwriting a cached key evicts another entry and does not refresh |
| `C22_*_false` | cached models ignore mask changes |
| `C25_true_though_empty_false` | clipping left of/above the image reports True though nothing is left |
| `C27_single_zero_false` | trimming a single zero pixel |
| `C28_int32_overflow_false` | 32-bit pixel indices overflow |
| `C38_scaled_false` | with column scaling (default) slots of one shared value get unequal updates |
| `C38_no_effect_false` | if the value of the last slot has no effect, shared parameters (default) raise IndexError |
| `C40_repeated_image_false` | dense and sparse matrices differ when an image repeats |
| `C41_frozen_brightness_false` | fixed-composite galaxies with frozen brightness and a thawed shape return too many derivatives |
| `C41_frac_clipped_false` | the `fracDev` derivative is not zero where the fraction is clipped |
| `C42_null_false` | NullWCS.shifted does not shift; its positions do not convert back |
| `C12_psf_copy_false` | the copy of a pixelized PSF with sampling other than 1, or other Lanczos order, is a different PSF |
| `C44_round_false` | `EllipseESoft.fromEllipseE` of a round ellipse raises ZeroDivisionError |
| `C44_from_covariance_false` | `fromCovariance` mirrors the ellipse when the SVD returns a rotation |
| `C47_empty_differs` | the symmetric rectangle query refuses some empty rectangles and answers 0 for others |
| `C50_large_radius_false` | a radius argument always cuts off the last row and column of the stamp |
| `C51_negative_size_false` | negative sizes give empty regions instead of None |
| `C53_non_square_false` | the smoothness prior couples coefficients that are not neighbours unless the grid is square |
| `C54_mask_none_false` | `BlantonMethod(mask=None)` raises NameError |
| `C55_negative_step_false` | bounds of a parameter with negative step size are not turned around |
| `C55_no_params_false` | `CeresOptimizer.optimize` without free parameters raises TypeError |
| `C58_frozen_catalog_false` | Ceres derivatives with a catalog frozen in the tractor raise AssertionError |
| `C59_start_below_false`, `C59_prior_false`, `C59_sky_step_false` | forced photometry can lower the log-probability: sources that start below the minimum flux, priors on fluxes, sky levels making another step than fluxes |
| `C59_images_false` | with regions of interest and no direction the tractor is left with the cut-out images |
| `C59_endless_false` | with `mindlnp=0` forced photometry may never end |
| `C62_*_false` | overlap tests |
| `C65_shared_false` | variances of shared parameters are those of other slots |
| `C66_null_false` | position derivatives with NullWCS are 3600 times too large at pixscale 1 |
| `C66_wrappers_missing` | shifted and scaled WCS cannot convert derivatives (AttributeError) |
| `C67_cd_false` | ScaledWcs.cdAtPixel multiplies y by the factor instead of dividing |
| `C68_mask_false` | ShiftedPsf raises AttributeError for a ModelMask |
| `C69_frozen_false` | calibrations with frozen parameters are truncated in FITS headers |
| `C70_fwhm_false` | shifted and copied PsfEx models lose `fwhm`, writing them fails |
| `C72_no_mask_false` | `derivs=True` is ignored without a ModelMask |
| `C74_left_false` | forced photometry keeps the flux of a source left of or above the image, zeroes it right of or below |
| `C76_unwritten_false` | Jacobian columns of parameters without derivative in an image are left unwritten |
| `C77_numeric_*_false` | numeric differentiation uses the first image only, or never ends |
| `C79_ignored_false` | without the C library `zero_mean=True` is ignored in Fourier transforms of mixtures |
| `C80_means_false` | `apply_shear`/`apply_affine` do not transform the means |
| `C81_frozen_copy_false`, `C81_frozen_key_false` | copies of an NCircularGaussianPSF drop frozen values or fail; its hash key ignores them |
| `C84_roi_data_false`, `C84_roi_false`, `C84_roi_broadcast_false`, `C84_roi_error_false` | forced photometry with regions of interest compares the model with the inverse errors instead of the data, or fails |
| `C85_east_of_north_false` | position angles of GalaxyShape run through West, not East as documented |
| `C86_step_sizes_false`, `C86_soft_false` | `EllipseE.getStepSizes` ignores `getAllStepSizes`; that of EllipseESoft always fails |
| `C87_missing_false` | setting a band an object lacks succeeds silently or raises KeyError, depending on other objects; such values are no parameters and get lost |
| `C87_copy_frozen_false` | copies of brightnesses thaw frozen bands |
| `C57_shipped_false` | TractorMultiprocMixin never stores mp; logverb, Patch, np, Images are not imported |
| `C57_pickled_false` | workers get the tractor through a pickle, which loses model_kwargs: AttributeError |
| `C57_no_sources_false` | getDerivs of the mixin uses the loop variable of the sources when naming image derivatives |
| `C57_model_images_false` | getModelImages of the mixin returns None; a failing worker leaves the tractor without images |
| `C60_settings_false`, `C60_render_false` | an unpickled Tractor has no model_kwargs: it can neither render nor optimize |
| `C90_minsb_false` | minsb in model_kwargs is always overridden |
| `C90_chi_false` | getChiImage uses minsb=0, getModelImage minsb=None |
| `C90_derivs_false` | model_kwargs with a thawed image: TypeError in getDerivs; source derivatives ignore model_kwargs |
| `C91_two_boxes_false`, `C91_no_overlap_false`, `C91_left_false` | SmarterDenseOptimizer raises RuntimeError for derivatives that cover different boxes of an image (also for one left of or above the image), KeyError for an image none of whose derivatives overlap it |
| `C92_unscaled_false` | the inverse covariance of SmarterDenseOptimizer is zero with `scale_columns=False` |
| `C93_sky_false` | forced photometry with `sky=True, variance=True, skyvariance=True` always ends with a ValueError (a one-element list is unpacked into two values) |
| `C94_frozen_false`, `C94_edge_false`, `C94_masked_false`, `C94_sky_false` | fit statistics: a frozen source in front shifts the brightnesses by one source; a model that begins left of or below the image is not measured and spoils the following sources; a completely masked source has `promasked` 0; a sky without `val` is an AttributeError that leaves the sky subtracted |
| `C95_outside_false` | a galaxy whose centre lies in the outer half of an outermost pixel of its mask (or outside, within its radius) is a RuntimeError with a pixelized PSF that is not a hybrid |
| `C95_subpixel`, `C95_subpixel_false` | without the C library, or if mask and stamp are small (transform of at most 8 pixels), galaxies are drawn at whole-pixel positions: the shift is requested in place, and only the C code works in place |
| `C96_offimage_false` | a galaxy just over its half size beyond the right or upper edge gets a model outside the image (negative slice bound) |
| `C97_order_false` | components are lost if `inner_real_nsigma >= outer_real_nsigma` |
| `C98_slice_false` | evaluate_grid_approx3 with `doslice=True` cuts off pixels above `minval` of narrow tilted sources |
| `C98_dark_false` | for a box one pixel wide at negative coordinates and a source without positive values on its edge the C code writes outside its array (truncating division) |
| `C102_edge_false` | subimage: sources just outside a tile are dropped although their patch reaches it |
| `C102_rounding_false` | subimage: a star exactly between two pixels moves by a pixel in tiles with an odd offset |
| `C102_bounds_false` | subimage: negative bounds count from the end for pixels but not for the WCS; NullWCS is not shifted; `modelMinval` is reset to 0 |
| `C102_varying_false` | subimage with VaryingGaussianPSF: ShiftedPsf passes the clipping limits on unshifted, so tiles that start beyond their own width show no point source |
| `C105_unit_false` | GaussianMixturePSF.fromStamp: stamps are normalised before negative pixels are set to zero, so the flux of the PSF exceeds 1 |
| `C105_collapse_false` | em_fit_2d_reg with alpha=0: light on a line makes all covariances singular; fromStamp ignores the return value -1 |
| `C105_nan_false` | em_fit_2d_reg: a component without light within ten sigma gives NaN everywhere and return value 0 |
| `C106_negative_false` | em_fit_2d_reg2: absolute values of negative pixels are added to the sky |
| `C107_recache_false` | GpuOptimizer.cache_image_params called again keeps the arrays of the first position |
| `C107_outside_false` | GPU: a mask that reaches beyond the image is a ValueError |
| `C108_moved_false` | gpu_one_source_models with cached arrays: ValueError if the source has moved far in x (an empty list as column index exchanges the axes), zeros if it has moved as far in y |
| `C109_limit_false` | gpu_one_source_try_updates never reports a limit when no step is possible (CPU sets all three flags) |
| `C109_prior_false` | gpu_one_source_try_updates from parameters of zero prior stays there and returns NaN (CPU moves to allowed ones) |
| `C109_far_false` | gpu_one_source_try_updates without cached arrays does not check shifts against their limits: a step by nine pixels drops the source from the pixel and reports a gain where there is none |
| `C111_calibration_false` | gpu_one_source_update takes the derivatives by fluxes for those of a calibration with factor 1 (a FIXME says so for the surface brightness); with factor 2 the flux update is twice what it should be |
| `C111_unseen_false` | a prior on a flux in a band without images is a KeyError in gpu_one_source_update |
| `C111_band_false` | an image in a band the source has no flux for is a KeyError in gpu_one_source_update |
| `C111_matrix_false` | `get_A=True` returns a matrix of zeros: `sA[goodrows,:][:,I] = A` assigns to a copy |
| `C112_copy_prior_false` | the copy of a spline sky (so every shifted one) has no smoothness prior |
| `C112_table_false` | to_fits_table cuts grid positions to integers, so a sky with other positions is read back distorted |
| `C113_minsb_false` | CompositeGalaxy.getModelPatch(minsb=0.), the default, renders its parts with the limit modelMinval of the image, because 0 is taken for not given |
| `C113_clip_false` | the fracDev entry of getParamDerivatives is not zero for a FracDev beyond 1, where the model does not change |
| `C114_jump_false` | the row for index 0.57 in the range 0.57-0.62 has other amplitudes than the row for 0.57 in the range 0.51-0.57 (the comment says it has the same), so Sersic profiles jump there, by about 0.3 percent of the flux from one component to another; the rows for 0.51 differ in the last digits |
| `C115_none_false` | when a Sersic galaxy does not render, getParamDerivatives returns one None more than there are parameters |
| `C115_vanish_false` | when the galaxy with the stepped index does not render, getParamDerivatives raises TypeError: the None is appended and then used |
| `C115_limit_false` | the stepped galaxy is rendered with minval=0 and not with the limit of the first rendering, so without a mask everything beyond the limit counts as derivative |
| `C115_copy_false` | SersicGalaxy.copy() thaws all parameters |
| `C116_none_false` | where the PSF gives no patch, MovingPointSource.getParamDerivatives raises TypeError instead of returning None |
| `C116_copy_false` | MovingPointSource.copy() always raises AttributeError: the constructor skips that of PointSource, so fixedRadius does not exist |
| `C116_prior_false` | ParallaxWithPrior.getLogPrior is plus infinity at a parallax of zero, which is legal |
| `C117_radius_false` | a radius larger than the stamp drops the last row and column of an oversampled PSF (as C50 without oversampling) |
| `C117_mask_false` | the point source of a normalised oversampled PSF is normalised to flux one inside the model mask, so that a pixel changes with the mask |
| `C117_varying_false` | with oversampling, PixelizedPsfEx.getFourierTransform transforms the first eigen-image only (C117_varying_ignored): galaxies are convolved with another PSF than point sources, and than with constantPsfAt |
| `C117_sign_false` | the transform of a normalised PSF whose image has a negative sum changes its sign once the image was asked for |
| `C118_cell_false` | int() truncates towards zero, so a CachingPsfEx uses the PSF of the first cell of the image for positions up to a whole cell left of or below it, up to one and a half cells away |
| `C118_from_false` | CachingPsfEx.fromPsfEx of a PSF that has not been fitted yet raises AttributeError whenever it is used: the PsfEx model is not copied |
| `C119_failed_false` | if getPointSourcePatch of an NCircularGaussianPSF raises an exception (source outside the clipping rectangle), everything rendered later with an equal PSF is displaced by the position of the failed call |
| `C119_float_radius_false` | the same after a radius argument that is not an integer |
| `C119_fixed_radius_false` | the same after a PointSource with a fixedRadius that is not an integer |
| `C119_normalized_false` | the weights of an NCircularGaussianPSF are not normalised although documented |
| `C119_apply_false` | NCircularGaussianPSF.applyTo pairs weights with the wrong sigmas when some are frozen |
| `C120_readable_partial` | images with a LinearPhotoCal, MagsPhotoCal, FluxesPhotoCal, ConstantFitsWcs, NCircularGaussianPSF or PixelizedPSF are written to FITS without complaint and cannot be read |
| `C120_null_wcs_false` | an offset or pixel scale of a NullWCS is lost in FITS files, silently |
| `C120_components_false` | Gaussian-mixture PSFs of more than 16 components are written but cannot be read (only 100 parameters are looked at), nor ones with frozen parameters |
| `C120_frozen_false` | with six of twelve PSF parameters frozen a different PSF is read silently |
| `C120_header_reused_false` | toFits changes the header given to it; used for the next image that one is read with a wrong PSF or not at all |
| `C120_incomplete_false` | images without PSF or without inverse errors can be neither written nor copied |
| `C120_copy_false` | Image.copy() resets the offset and pixel scale of a NullWCS, modelMinval, the plotting range and what was frozen |
| `C121_blocked_false` | unwise_forcedphot: a source in the margin of a tile cut to the region asked for gets no photometry from a farther tile that contains it, if the nearer tile comes first |
| `C121_composite_false` | unwise_forcedphot: after a CompositeGalaxy in the catalogue all inverse variances are those of other parameters |
| `C121_stale_false` | unwise_forcedphot: statistics of an earlier tile stay if the fit of the nearest tile found no improvement (use_ceres=False) |
| `C122_edge_false` | SFDMap.ebv: within half a pixel of the left or lower edge of a map the index is -1 and the result mixes in the opposite edge of the map |
| `C123_hash_false` | TractorCacheMixin: the hash of the key is used as key; hash(-1.) == hash(-2.) in Python, so a star at x = -2 gets the cached model of one at x = -1 |
| `C123_bands_false` | hash keys of Mags, Fluxes and NanoMaggies have no bands: the same numbers in other bands have the same key |
| `C123_photocal_false` | hash keys of LinearPhotoCal and MagsPhotoCal have no band |
| `C123_pixscale_false` | the hash key of NullWCS has no pixel scale |
| `C123_tan_false` | the hash key of a TanWcs does not change when its parameters are set: models cached before a step are used after it |
| `C123_psf_false` | the hash key of PixelizedPSF has no shape, sampling or normalisation |
| `C123_psfex_false` | shifted copies of all PsfEx models have one hash key; shifting in place keeps the key |
| `C123_wrapper_false` | SdssBrightPSF has the hash key of the PSF it wraps |
| `C123_attributes_false` | hash keys of sources do not contain fixedRadius, minRadius or halfsize |
| `C124_python3_false` | TanWcs.__init__ uses `basestring`: in Python 3 every construction, copy and shift raises NameError (C123_tan_false and the rest of C124 then concern subclasses or Python 2) |
| `C124_matrix_false` | TanWcs.setParam of a CD entry leaves cd, cd_inverse and pixscale as they were: galaxies are rendered with the old matrix, copies with the new one |
| `C124_copy_false` | TanWcs.copy and shifted forget which parameters are frozen |
| `C124_bounds_false` | TanWcs.getLowerBounds, getUpperBounds and getMaxStep are empty whatever is thawed: bounds in an image are then misaligned |
| `C125_sersic_false` | SersicCoreGalaxy.getParamDerivatives returns one entry too many when the Sersic part is not rendered and the point source is: the derivative of the brightness of the point source is one place off, and the last one makes Tractor.getDerivs raise IndexError |
| `C125_kwargs_false` | DevCoreGalaxy and SersicCoreGalaxy accept no keyword arguments: with a Tractor that has model_kwargs rendering and derivatives raise TypeError |
| `C125_limit_false` | without minsb both parts are rendered with the whole modelMinval of the image, so the error can be twice that; only an explicit minsb is divided |
| `C126_python3_false` | scale_sdss_image passes H / S and W / S to np.zeros: under Python 3 these are floats and every call raises TypeError |
| `C128_missing_false` | getParamStateRecursive raises AttributeError for an object with a None part, which all other methods skip |
| `C128_unnamed_false` | unnamed values have different names in getParamStateRecursive (numbered among all) and getParamNames (numbered among thawed ones) |
| `C128_parent_false` | the third column of getParamStateRecursive is not the state of the parents, as doc/intro.rst labels it: for values it includes their own state |
| `C128_index_false` | getLiquidIndex on a MultiParams counts thawed sub-objects, not thawed parameters as its documentation says |
| `C129_extra_false` | extrabands are documented to start at the SDSS flux of the first of bands (or of bandname): beside other bands they start at 0 nanomaggies or at badmag, and in magnitudes without other bands only the first gets a magnitude |
| `C130_nan_false` | get_se_modelfit_cat gives a galaxy with a NaN disk or spheroid magnitude the shape of an earlier row's galaxy and NaN flux |
| `C130_first_false` | in the first row, such a magnitude makes get_se_modelfit_cat raise UnboundLocalError |
| `C131_constant_false` | a second setConstantCd for another pixel has no effect: it stores the constant of the first call again |
| `C131_bounds_false` | getLowerBounds, getUpperBounds and getMaxStep of an SdssWcs have 3 entries for 20 parameters |
| `C131_steps_false` | step sizes set on an SdssWcs are ignored by getStepSizes |
| `C131_all_steps_false` | getAllStepSizes of an SdssWcs gives ones, not the step sizes of getStepSizes |
| `C131_copy_false` | SdssWcs.copy() always raises TypeError (20 arguments for a constructor of one) |
| `C132_step_false` | CfhtPhotoCal.setParam returns None, not the old value: after a derivative with respect to phot_c the parameter is None and brightnessToCounts raises TypeError |
| `C132_copy_false` | CfhtLinearPhotoCal.copy() raises AttributeError for an object made from a scale |
| `C132_key_false` | CfhtPhotoCal.hashkey() leaves out the band |
| `C132_import_false` | tractor/sdss_dr7.py cannot be imported: BaseParams is not a name there |
| `C133_loop_false` | a loop over an OrderedDict of ordereddict.py that removes the present and the following key is given the removed key (a removed node still leads to it) |
| `C134_far_false` | em_fit_1d_samples_reg returns 0 although no entry of the arrays is a number once one component has no sample within ten standard deviations |
| `C134_collapse_false` | em_fit_1d_samples (alpha = 0) of samples that are all equal returns 0 and no entry of the arrays is a number |
| `C135_start_false` | forced photometry with minsb = 0 cuts the models of sources that start with no or negative counts at 1e-3 of the flux, so that the result depends on the starting fluxes |
| `C135_band_false` | forced photometry does not look at the band: in an image of another band the thawed flux is fitted as if it were of that band |
| `C135_mask_false` | forced photometry fits sources that have no model mask although expectModelMasks is set; getModelImage leaves them out |
| `C135_align_false` | only the total number of unit-flux models is asserted; with a source of two thawed bands and one of none, a flux of the first is fitted with the model of the second |
| `C135_composite_false` | CompositeGalaxy.getModelPatch takes minsb = 0 as not given and cuts at img.modelMinval |
| `C136_image_false` | SdssPointSource calls img.getMedianPixelNoise(), which no class in the repository has: sources above thresh2 end with an AttributeError |
| `C136_equal_false` | SdssPointSource accepts thresh2 = thresh, but sources at or above it divide by zero |
| `C136_unit_false` | the unit-flux model of a bright SdssPointSource, used by forced photometry and derivatives, is not the model that getModelPatch renders |
| `C136_tail_false` | getBrightPointSourcePatch cuts the power law at dc before normalising; for profiles of small total what is cut off exceeds the noise |
| `C137_start_false` | forced photometry of a source that begins with flux 0 fits a model cut at 0.001 of its flux; getLogLikelihood() can be lower after the fit than before |
| `C138_shared_false` | with the default shared_params=True, forced photometry raises IndexError if the last parameter (for example the flux of a source outside all images) changes no pixel |
| `C140_centre_false` | `interpret_roi` is called before the WCS is shifted by half a pixel, so images of SDSS frames asked for with roiradecsize are centred half a pixel off the position; with half-size 0 the position can be outside the one-pixel image |
| `C140_whole_false` | with invvarAtCenterImage and no region the inverse variance stays one number: TypeError if any pixel is masked |
| `C141_half_false` | the effective radius is not exactly the half-light radius of what is rendered: ExpGalaxy 50-51%, DevGalaxy 53-54% of the light within it, GaussianGalaxy (re is sigma) less than 40% |
| `C141_core_false` | the DevGalaxy profile has a component of zero variance, so it has no density (and cannot be evaluated) unless convolved with a PSF |
| `C143_no_effect_false` | with `shared_params=True` (the default) `optimize` raises IndexError if the last thawed parameter has no effect on the images, for example a source outside all images at the end of the catalog |
| `C144_allowed_maximum_false` | `ConstrainedOptimizer` does not end at the best allowed parameters: the whole step is cut at the first bound, so a parameter at its bound whose update points outwards stops all others, at any later round too (`C144_at_bound`) |
| `C144_default_false` | `optimize` and `optimize_loop` of `ConstrainedDenseOptimizer` and `SmarterDenseOptimizer` with their default `shared_params=True` raise RuntimeError |
| `C144_no_rounds_false` | `ConstrainedOptimizer.optimize_loop(steps=0)` raises NameError (`step` is not defined) |
| `C145_copy_false` | `PsfExModel.copy()` and `shifted()` do not copy `fwhm`, so `writeto` of a copy raises AttributeError |
| `C145_window_false` | a model in XWIN_IMAGE, YWIN_IMAGE coordinates is read from its file, but its row in a merged table is refused (AssertionError) |
| `C146_read_false` | `VaryingGaussianPsfEx.fromFits` can read no file: it wants the type `tractor.psfex.PsfEx`, while `toFits` writes `tractor.psfex.VaryingGaussianPsfEx` (AssertionError), and for files of the old type the name `GaussianMixtureEllipsePSF` is not imported (NameError) |
| `C146_merge_limit_false` | `toFits(merge=True)` with 10 or more components raises AssertionError |
| `C147_wrap_false` | a box across right ascension 0 given with r0 > r1 finds nothing, without warning |
| `C148_min_flux_false` | with a minimum flux the mean of the fluxes found is not the true flux (noise of 1 and -1 on a star of flux 0: 1 and 0) |
| `C149_blend_false` | the inverse variances of forced photometry are those for fixed other fluxes: for blended sources they are too large (two stars sharing a pixel: reported 1, true 1/2) |
| `C150_sky_false` | with sky=True sources that share no pixels still depend on each other through the sky level (pixels 8, 3, 1 with stars in the first two: without the second star in the catalog the first has another flux) |
| `C152_prior_false` | a prior not centred on the truth pulls the values found away from it, also without noise |
| `C153_blend_false` | two parameters in shared pixels: the variances reported are 1 and 1/5, the mean squared errors 5/4 and 1/4 |
| `C153_loop_false` | `optimize_loop(variance=True)` unpacks four values into three and raises ValueError after moving the parameters |
| `C154_difference_false` | a calibration parameter whose derivative is a difference over its step size: the model curves within the step, the direction is downhill |
| `C157_not_reached` | one call with damping does not reach the maximum of a linear problem (if no step fraction is above 1), unlike C143 |
| `C158_mean_false` | exposures averaged without weights (inverse variances added up) have other best values |
| `C159_nonlinear_false` | with the square root of the flux as parameter optimize does not move where with the flux it reaches the best value |
| `C160_variance` | optimize(variance=True) after a caught solver failure raises a ValueError (two thawed parameters: TypeError, or the number 0 with just_variance), since getUpdateDirection then returns the zeros without variances |
| `C161_blend_false` | one pass of turns over overlapping sources is not the joint fit |
| `C162_reached_false` | for two overlapping sources no number of passes of turns reaches the joint fit exactly |
| `C163_equator` | the matrix used for position derivatives is the Jacobian only on the equator: derivatives by right ascension are 1/cos(dec) too large |
| `C163_variance` | variances reported for right ascensions are cos(dec)^2 times the right ones |
| `C164_overlap_false` | with overlapping sources a fit passed on as Gaussian priors is not the fit to all images: the variances returned leave out the correlations |
| `C165_guess_false` | the radius estimated from the minimum value for a GaussianMixturePSF with `radius = None` is documented as an overestimate but uses the determinant of the covariance for its root: bright pixels of wide PSFs are cut off |
| `C165_default_false` | the default radius of a GaussianMixturePSF is 25 pixels whatever its width |
| `C165_means_false` | `computeRadius` of a GaussianMixturePSF leaves out the means of the components |
| `C168_mask_false` | galaxy.py 167-170: position derivatives are differences of neighbouring pixels of the patch; pixels that are not set in the model mask count as zero there, so that along the edges of a mask (and nowhere else) the derivatives are of the size of the model itself |
| `C169_classes` | mixture_profiles.py 20-45: the mixture for an exponential galaxy is spread by 0.950 squares of the effective radius along an axis, 11 percent less than an exponential disc (1.065), as its wings are left out |
| `C175_variance` | `GpuOptimizer.optimize(variance=True, just_variance=True)` with two thawed parameters returns the second component of the update direction in place of the variances (`X, var = X` unpacks the array); with `variance=True` it raises ValueError or TypeError otherwise |
| `C175_icov` | `getLinearUpdateDirection(get_icov=True)` of `GpuFriendlyOptimizer` raises AssertionError for single sources and is silently ignored for all other tractors |
| `C176_nan, C176_max_false` | `Flux(5) > Flux(nan)` and `Flux(nan) > Flux(5)` are both True (total_ordering derives `>` from `not <`), so `max([Flux(5), Flux(nan), Flux(1)])` is `Flux(1)` |
| `C176_other, C176_index` | a scalar parameter `== None` raises AttributeError, also inside `x in list` |
| `C177_whole` | `galex_read_image` without `radecroi` raises UnboundLocalError: `roi` is only assigned with `radecroi` |
| `C177_image, C177_scale_false` | `WcslibWcs.pixel_scale()` gives `x0, y0` to `cdAtPixel`, which adds them again: the scale is that at twice the offset, so the PSF width of a cut-out is wrong if the WCS has distortion |
| `C178_nan_false` | `read_wise_level1b` takes the sky level by `np.median` of all pixels before masking: one NaN pixel, even masked, makes the sky and all masked pixels NaN, in spite of the comment `avoid NaNs` |
| `C178_sigma_false` | one unmasked pixel with NaN uncertainty makes `sigma1` and, with `constantInvvar`, the weights of all good pixels NaN |
| `C179_grid` | `get_psf_model(band, xy=(x, y))` of wise/wise.py raises AssertionError under Python 3 for nearly all positions: `int(x) / 100` is a true division |
| `C180_slice, C180_no_cut` | `read_wise_level3(radecroi=...)` (and `read_wise_coadd`) of wise/wise.py does not round the bounds of the region: numpy refuses the float bounds, for every region that does not cover the image |
| `C182_own` | psf.py 644-648 sends `h.getShifted = f` (or any other method of its own) to the pixelized PSF, but reading finds the method of the class: such an assignment has no effect on the hybrid PSF and raises nothing. |
| `C182_shared` | psf.py 632-638: `getShifted` and `constantPsfAt` of a constant PSF give a hybrid PSF with the same pixelized PSF, so that an attribute set on the PSF of a subimage is set on that of the whole image. |
| `C182_unfinished` | psf.py 640-642: `__getattr__` reads `self.pix`, which calls it again if `pix` is not set: RecursionError instead of AttributeError, so that `hasattr` of an unfinished object raises. |
| `C88_cutoff_false` | counts of magnitudes fainter than 50 are not additive |
| `C88_nmgy_negative_false` | MagsPhotoCal drops negative nanomaggies |
| `C83_inplace_false` | `lanczos_shift_image(inplace=True)` does not change small images |

C78 states outright that forced photometry with `nonneg=True` cannot fit anything.

C64 states outright that `scales_only=True` cannot return scales.

## Trusted base

* Lean's kernel.  No theorem depends on an axiom other than `propext`, `Classical.choice`, `Quot.sound`
  (checked with `#print axioms` for every theorem listed in `MANIFEST.json`); there is no `sorry`,
  `native_decide` or `bv_decide`.
* The reading of the Python recorded in the model comments (each cites file and lines).
* The behaviour of external code where it enters as a parameter with hypotheses: least-squares solvers
  (`Solves`, `DenseSolves`: they return a minimiser of the problem they are given), `sqrt` (positive on
  positive numbers), `numpy.linalg.svd` (C44: a decomposition of the matrix), `numpy.unique(return_inverse)` (ranks of the sorted distinct values), renderers
  (arbitrary functions; for C41 a galaxy rendered with `force_sourceOut` in a mask is never None and agrees
  with the first rendering, and PSF renderings with and without derivatives agree), hash keys (equal keys stand for equal inputs, see C22),
  Lanczos kernels and rounding to the nearest pixel (arbitrary functions; C72 needs rounding to commute with adding 1),
  the Ceres solver (C75: it returns a minimiser of the sum of squares it is given; C55 holds for whatever it returns),
  the complex exponential (C52, C79, C80: a homomorphism from sums to products), the Lanczos window (C82, C83: zero at ±1, ±2),
  `cupy` (as `numpy`; an integer and a list as indices around a slice put the list's axis first),
  scipy `RectBivariateSpline` (strictly increasing coordinates, more of them than the order; coefficients listed with the
  x index outermost).

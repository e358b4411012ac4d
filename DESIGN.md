# Design: Lean 4 model and proofs for tools21cm

## Conventions

* Source under `/repo/src/tools21cm` (Python, read as text, never executed here).
* One topic per directory-free module group under `lean/Verif/`:
  `Model/X.lean` (shallow model, each definition cites file and lines),
  `Lemmas/X.lean` (helper lemmas), `Props/X.lean` (specification, property
  theorems, and an `example` per theorem with concrete inputs).
* Python exceptions are values (`Except String`, `Option`); a branch of the code
  that raises is a branch of the model that returns an error.
* Arrays are functions from index tuples plus an explicit shape, or lists in
  the memory order the code writes. Loops are folds over the index ranges the code uses.
* Floating point is modelled by exact rationals or reals. Rounding, overflow,
  NaN/inf and `astype(float32)` loss are *not* modelled, except in the file round trips where
  the payload is kept as opaque bit patterns.
* Where the code is wrong the model reproduces the error. The English property
  is then refuted by a theorem with a concrete witness and the largest true part is
  kept as a `..._partial` theorem.

## Trusted base

* Lean's kernel (and `lake build` elaboration producing the terms it checks).
* Axioms: at most `propext`, `Classical.choice`, `Quot.sound` (checked with
  `#print axioms`, and by the gate). No own axioms, no `sorry`, no `native_decide`.
* The model's faithfulness to the Python text, i.e. the cited lines.
* Library semantics taken as given: Python integer `%` and `//` are floor
  operations (`Int.emod`/`Int.ediv` for positive divisors), numpy indexing,
  `np.roll`, `np.fft.fftshift`, `np.histogram`, `np.searchsorted`, `flatten/reshape` orders,
  `np.pad`, `struct`-like little endian storage.
  `ifftn(fftn a * fftn b)` = circular convolution is proved in any dimension over ℂ from the
  defining sums (`Lemmas/DFT.lean`, `ifft_fft_mul`); that numpy computes these sums is taken as given.
* Not modelled at all: plotting, random number generation (rays and directions
  are universally quantified inputs), scikit-image/scikit-learn/scipy algorithms
  (labelling, k-means, SLIC, splines), astropy cosmology integration, network code.

## Modelled code

The line numbers of every modelled function stand with its definition.  Code of the package not named there is not modelled.

<!-- models -->
| model file | definitions citing code | files of the repository |
|---|---|---|
| `Model/Angular.lean` | 8 | angular_coordinates.py |
| `Model/Augment.lean` | 25 | segmentation.py |
| `Model/Beam.lean` | 12 | primary_beam.py |
| `Model/Beams.lean` | 8 | beam_convolve.py, cosmo.py, power_spect_fast.py, radio_telescope_noise.py, smoothing.py |
| `Model/Binning.lean` | 11 | angular_coordinates.py, cosmo.py |
| `Model/Bispectrum.lean` | 12 | bispectrum.py |
| `Model/Blob.lean` | 5 | Friends_of_Friends.py |
| `Model/BubbleModel.lean` | 19 | test_case.py |
| `Model/Calibration.lean` | 14 | ViteBetti.py, radio_telescope_calibration.py, radio_telescope_noise.py |
| `Model/Calls.lean` | 5 | power_legendre.py, power_spectrum.py |
| `Model/CallsTable.lean` | 113 | Friends_of_Friends.py, ViteBetti.py, angular_coordinates.py, apply_mpi_lya_c.py, beam_convolve.py, bispectrum.py, box_counting.py, bubble_stats.py, compare_constraints.py, conv.py, corr_function.py, cosmo.py, density_file.py, deprecated.py, fft_functions.py, fitting_methods.py, foreground_model.py, gaussian_random_field.py, halo_list.py, helper_functions.py, identify_regions.py, irate_file.py, lightcone.py, line_intensity.py, lyman_alpha_coupling.py, lyman_alpha_transmission.py, mfp_np.py, model_21cmfast.py, morph.py, nbody_file.py, nbody_pkdgrav.py, nbody_tools.py, numba_functions.py, percolation.py, plotting.py, position_dependent_power_spectrum.py, power_legendre.py, power_spect_fast.py, power_spectrum.py, power_spectrum_noise.py, primary_beam.py, pv_mpm.py, radio_telescope_calibration.py, radio_telescope_layout.py, radio_telescope_noise.py, radio_telescope_sensitivity.py, read_files.py, scipy_func.py, segmentation.py, smoothing.py, source_file.py, spa_np.py, statistics.py, superpixels.py, tau.py, temper_file.py, temperature.py, test_case.py, topology.py, usefuls.py, vel_file.py, xfrac_file.py |
| `Model/Coeval.lean` | 7 | read_files.py, usefuls.py |
| `Model/ConeCells.lean` | 1 | lightcone.py |
| `Model/Constants.lean` | 19 | const.py, conv.py, helper_functions.py |
| `Model/Constraints.lean` | 11 | compare_constraints.py |
| `Model/Conversions.lean` | 53 | const.py, conv.py, cosmo.py, helper_functions.py, nbody_tools.py, radio_telescope_sensitivity.py, usefuls.py |
| `Model/Convolve.lean` | 17 | fft_functions.py |
| `Model/CornerPlot.lean` | 17 | plotting.py |
| `Model/CorrFunction.lean` | 6 | corr_function.py |
| `Model/Correlation.lean` | 15 | corr_function.py |
| `Model/CosmoNames.lean` | 9 | nbody_tools.py |
| `Model/CrossSpectrum.lean` | 3 | power_spectrum.py |
| `Model/CubeInputs.lean` | 10 | lightcone.py |
| `Model/CubeMap.lean` | 28 | ViteBetti.py, topology.py |
| `Model/CubeMapJoblib.lean` | 21 | ViteBetti.py, topology.py |
| `Model/CubeP3M.lean` | 24 | conv.py, halo_list.py, nbody_file.py |
| `Model/Curvature.lean` | 7 | cosmo.py, helper_functions.py |
| `Model/Diagnostics.lean` | 29 | plotting.py |
| `Model/DictFiles.lean` | 20 | read_files.py |
| `Model/Distort.lean` | 12 | helper_functions.py, pv_mpm.py |
| `Model/Edges.lean` | 2 | power_spectrum.py |
| `Model/Equilateral.lean` | 9 | bispectrum.py |
| `Model/Erosion.lean` | 3 | morph.py |
| `Model/Estimates.lean` | 6 | superpixels.py |
| `Model/Fast21cm.lean` | 15 | model_21cmfast.py |
| `Model/FastSpectrum.lean` | 39 | power_spect_fast.py |
| `Model/FieldLike.lean` | 5 | gaussian_random_field.py |
| `Model/Files.lean` | 24 | density_file.py, helper_functions.py, temper_file.py, vel_file.py, xfrac_file.py |
| `Model/FitFunction.lean` | 19 | fitting_methods.py |
| `Model/Foreground.lean` | 16 | foreground_model.py |
| `Model/Forest.lean` | 10 | plotting.py |
| `Model/FullConvolve.lean` | 9 | box_counting.py, radio_telescope_noise.py, smoothing.py |
| `Model/Gains.lean` | 16 | radio_telescope_calibration.py |
| `Model/Genus.lean` | 21 | topology.py |
| `Model/HTransform.lean` | 7 | bubble_stats.py |
| `Model/Halo.lean` | 32 | halo_list.py |
| `Model/HaloGrid.lean` | 21 | nbody_file.py |
| `Model/Helpers.lean` | 25 | helper_functions.py, lightcone.py |
| `Model/Ident.lean` | 3 | __init__.py, const.py |
| `Model/Identify.lean` | 6 | identify_regions.py |
| `Model/Interpolate.lean` | 5 | smoothing.py |
| `Model/IonRates.lean` | 4 | irate_file.py |
| `Model/Lanczos.lean` | 6 | smoothing.py |
| `Model/Layout.lean` | 17 | radio_telescope_layout.py |
| `Model/Lightcone.lean` | 28 | cosmo.py, lightcone.py |
| `Model/LineIntensity.lean` | 20 | line_intensity.py |
| `Model/Locals.lean` | 9 | ViteBetti.py, lightcone.py, power_spectrum.py, read_files.py |
| `Model/LocalsTable1.lean` | 22 | Friends_of_Friends.py, ViteBetti.py, angular_coordinates.py, apply_mpi_lya_c.py, astro_tools.py, beam_convolve.py, bispectrum.py, box_counting.py, bubble_stats.py, compare_constraints.py, const.py, conv.py, corr_function.py, cosmo.py, density_file.py, deprecated.py, fft_functions.py, fitting_methods.py, foreground_model.py, gaussian_random_field.py, halo_list.py |
| `Model/LocalsTable2.lean` | 17 | helper_functions.py, identify_regions.py, irate_file.py, lightcone.py, line_intensity.py, lyman_alpha_coupling.py, lyman_alpha_transmission.py, mfp_np.py, model_21cmfast.py, morph.py, nbody_file.py, nbody_pkdgrav.py, nbody_tools.py, numba_functions.py, percolation.py, plotting.py |
| `Model/LocalsTable3.lean` | 13 | position_dependent_power_spectrum.py, power_legendre.py, power_spect_fast.py, power_spectrum.py, power_spectrum_noise.py, primary_beam.py, pv_mpm.py, radio_telescope_calibration.py, radio_telescope_layout.py, radio_telescope_noise.py, radio_telescope_sensitivity.py, read_files.py |
| `Model/LocalsTable4.lean` | 16 | scipy_func.py, segmentation.py, smoothing.py, source_file.py, spa_np.py, statistics.py, superpixels.py, tau.py, temper_file.py, temperature.py, test_case.py, topology.py, usefuls.py, vel_file.py, xfrac_file.py |
| `Model/Lyman.lean` | 19 | lyman_alpha_transmission.py |
| `Model/Magnitudes.lean` | 12 | astro_tools.py |
| `Model/Metrics.lean` | 9 | segmentation.py |
| `Model/Morphology.lean` | 16 | bubble_stats.py, morph.py |
| `Model/Multipoles.lean` | 15 | power_legendre.py, power_spectrum.py |
| `Model/NameRedshifts.lean` | 14 | helper_functions.py |
| `Model/Namespace.lean` | 9 | __init__.py |
| `Model/NamespaceTable.lean` | 130 | Friends_of_Friends.py, ViteBetti.py, __init__.py, angular_coordinates.py, apply_mpi_lya_c.py, astro_tools.py, beam_convolve.py, bispectrum.py, box_counting.py, bubble_stats.py, compare_constraints.py, const.py, conv.py, corr_function.py, cosmo.py, density_file.py, deprecated.py, fft_functions.py, fitting_methods.py, foreground_model.py, gaussian_random_field.py, halo_list.py, helper_functions.py, identify_regions.py, irate_file.py, lightcone.py, line_intensity.py, lyman_alpha_coupling.py, lyman_alpha_transmission.py, mfp_np.py, model_21cmfast.py, morph.py, nbody_file.py, nbody_pkdgrav.py, nbody_tools.py, numba_functions.py, percolation.py, plotting.py, position_dependent_power_spectrum.py, power_legendre.py, power_spect_fast.py, power_spectrum.py, power_spectrum_noise.py, primary_beam.py, pv_mpm.py, radio_telescope_calibration.py, radio_telescope_layout.py, radio_telescope_noise.py, radio_telescope_sensitivity.py, read_files.py, scipy_func.py, segmentation.py, smoothing.py, source_file.py, spa_np.py, statistics.py, superpixels.py, tau.py, temper_file.py, temperature.py, test_case.py, topology.py, usefuls.py, vel_file.py, xfrac_file.py |
| `Model/NdArray.lean` | 13 |  |
| `Model/Noise.lean` | 33 | radio_telescope_noise.py, radio_telescope_sensitivity.py |
| `Model/NoiseError.lean` | 6 | power_spectrum_noise.py |
| `Model/NumbaUV.lean` | 11 | cosmo.py, numba_functions.py |
| `Model/PackageValues.lean` | 12 | __init__.py, const.py, conv.py |
| `Model/PadCone.lean` | 6 | angular_coordinates.py |
| `Model/Padding.lean` | 9 | angular_coordinates.py |
| `Model/Phase.lean` | 2 | helper_functions.py |
| `Model/PhysicalCone.lean` | 4 | angular_coordinates.py |
| `Model/Pkdgrav.lean` | 16 | nbody_pkdgrav.py |
| `Model/PkdgravFiles.lean` | 9 | nbody_file.py, nbody_pkdgrav.py |
| `Model/Plots.lean` | 8 | plotting.py |
| `Model/PowerCylinder.lean` | 17 | power_spectrum.py |
| `Model/PowerSpectrum.lean` | 36 | power_spectrum.py |
| `Model/Progress.lean` | 6 | numba_functions.py, pv_mpm.py, radio_telescope_noise.py |
| `Model/PvBox.lean` | 4 | pv_mpm.py |
| `Model/RandomField.lean` | 4 | gaussian_random_field.py |
| `Model/RayPoint.lean` | 10 | bubble_stats.py, mfp_np.py |
| `Model/RaySizes.lean` | 17 | bubble_stats.py, mfp_np.py |
| `Model/Rebin.lean` | 5 | bubble_stats.py |
| `Model/RegionSizes.lean` | 19 | Friends_of_Friends.py, bubble_stats.py, spa_np.py |
| `Model/Response.lean` | 2 | position_dependent_power_spectrum.py |
| `Model/RollingWedge.lean` | 12 | foreground_model.py |
| `Model/SaveData.lean` | 11 | helper_functions.py |
| `Model/Scope.lean` | 5 |  |
| `Model/SharpFeatures.lean` | 12 | radio_telescope_noise.py |
| `Model/SimReaders.lean` | 18 | const.py, conv.py, read_files.py, usefuls.py, vel_file.py |
| `Model/SizeDistribution.lean` | 15 | bubble_stats.py |
| `Model/SlideBoxes.lean` | 7 | position_dependent_power_spectrum.py |
| `Model/Smoothing.lean` | 23 | angular_coordinates.py, smoothing.py |
| `Model/Sources.lean` | 14 | density_file.py, source_file.py, vel_file.py |
| `Model/Statistics.lean` | 9 | statistics.py |
| `Model/StepCell.lean` | 9 | lightcone.py |
| `Model/SubBoxes.lean` | 11 | position_dependent_power_spectrum.py |
| `Model/Subvolume.lean` | 9 | cosmo.py, lightcone.py, statistics.py |
| `Model/SuperpixelStats.lean` | 13 | superpixels.py |
| `Model/Superpixels.lean` | 14 | numba_functions.py, superpixels.py |
| `Model/Tau.lean` | 19 | const.py, tau.py |
| `Model/Temperature.lean` | 30 | const.py, helper_functions.py, temperature.py |
| `Model/Thresholds.lean` | 8 | identify_regions.py |
| `Model/Tipsy.lean` | 17 | nbody_pkdgrav.py |
| `Model/Topology.lean` | 14 | percolation.py, topology.py |
| `Model/UVCache.lean` | 21 | read_files.py |
| `Model/UVDaily.lean` | 5 | radio_telescope_layout.py |
| `Model/UVGrid.lean` | 15 | radio_telescope_layout.py |
| `Model/UVResponse.lean` | 18 | foreground_model.py, radio_telescope_noise.py |
| `Model/UVSmooth.lean` | 23 | const.py, cosmo.py, smoothing.py |
| `Model/VelocityCone.lean` | 6 | lightcone.py |
| `Model/Visibility.lean` | 5 | radio_telescope_sensitivity.py |
| `Model/ZsList.lean` | 2 | lightcone.py, usefuls.py |
<!-- end models -->

## Method per property

| id | model | how proved |
|----|-------|-----------|
| C01 | `CubeMap` as four folds over all cells of an `Int`-indexed periodic memory; `EulerCharacteristic` counts | characterise the memory after each pass by parity of the coordinates; count by a bijection (cell ↔ base vertex × odd-axis set) |
| C02 | workers as programs of single reads and writes; scheduler picks any worker at each step; barrier between stages | invariant: predicates tested in a stage are constant during it; every complete run ends in the characterised memory |
| C03 | roll-based masks | both equal the same characterisation |
| C04 | spec-level counts | bijections on the index set; transfer by C01 |
| C05 | spec-level counts | disjoint sums; transfer by C01 |
| C06 | record of module globals, one function per setter | induction over histories; negation by a two-call history |
| C07 | record of module globals, set_sim_constants with early assignments before `raise` | induction over histories; negation by one failing call |
| C08 | loop of make_lightcone with the cached upper snapshot; loop of the velocity version | loop invariant; negation by an output step skipping a snapshot |
| C09 | `_get_interp_slice` | algebra over ℝ/ℚ |
| C10, C11 | while loops as fuel-free recursion on a proved measure, or as `Nat`-indexed iteration with first-exit characterisation | induction |
| C12, C13 | list filters, argmin | list lemmas |
| C14–C19 | file = list of bytes/words; header and payload writers and readers | parse ∘ print = id, with Fortran/C index permutations |
| C20 | list search + clamp | case analysis over ℚ |
| C21 | sums over lists over ℚ | algebra, induction |
| C22 | scan over characters | longest-run specification |
| C23 | filters | list lemmas |
| C24–C26 | index-level convolution over `ZMod`/`Int`; roll by `(-s2)//2` | change of variables; negation for odd kernels |
| C27 | int/floor/ceil arithmetic over ℚ | case analysis, sums |
| C28 | 3-D functions with axis | sums over Finset |
| C29, C35 | rounded integer baselines, mask, bincount, fftshift | modular arithmetic; negation for odd n |
| C30 | 3×3 matrices over ℝ, sin/cos | ring identities with sin²+cos²=1 |
| C31, C32 | cache file as `Option` of absent/valid/torn; run as a list of save steps; crash = prefix | induction over chunks; negations: torn write, key collision |
| C33, C34 | loop with counter; ranges | induction; negations |
| C36 | loop over steps with filtered ray list | induction |
| C37 | BFS with the exhausted iterator | computation of the actual result; negation; the algorithm with a re-iterable list as `_partial` |
| C38 | counts of a labelling | sum over fibres; negation for the full box |
| C39 | erosion/dilation on ℤ³ sets inside a box | order theory |
| C52 | the same record of globals as C06 | history of calls; negation |
| C53–C56 | file system as a function from names to contents | parse/print lemmas; negations |
| C57 | arguments as mutable arrays | effects returned by the model |
| C58–C62 | index-level convolution, half-open windows | reuse of C24–C26; sums; negations |
| C63, C64 | lists of planes, weighted sums over ℚ | algebra; negations |
| C65–C68 | integer UV cells, lists of pairs, rotations | modular arithmetic, list counting, determinants |
| C69–C71 | loops over baselines with counters and clipped stamps | loop invariants; negations |
| C72, C73 | as C40; `argsort` as insertion sort of indices | counting cells; uniqueness of sorted lists |
| C74 | the wrapper `mfp` with the draws as arguments | case analysis |
| C75–C77 | `np.unique`, fold over radii, distances | list lemmas; negations |
| C78–C80 | integrals over ℝ, tables as lists, the spline as a parameter that passes through its points | fundamental theorem of calculus, interval estimates, counting table entries in a window; negations |
| C81 | direct | algebra; negation |
| C82 | as C46, loop over the first side | case analysis of the three copies; witness of shape (2,3,3) |
| C83 | closed form and integral over ℝ | fundamental theorem of calculus; witnesses for a non-flat cosmology and num_points=0 |
| C84 | both loops as list updates | induction over the loop; witness of decreasing redshifts |
| C85 | setters folded over the constants record | induction over the calls; witnesses |
| C44 | skewer as particles on a grid of nodes with linear interpolation, wrap and half-open bins over the reals | every particle proved to lie in exactly one bin, sums exchanged |
| C86 | the same skewer | the bin of every displaced particle computed exactly, including the one at the far edge |
| C47 | the reading loop generic in what a line contributes | induction over the lines gives the first `limit` contributions; the line parser evaluated on nineteen symbolic fields |
| C48 | case distinction on the coordinate, over the rationals | direct |
| C87 | the line-numbered loop on token lists | `float` on text is a parameter; specification by column names |
| C49, C88, C89, C90 | flattened arrays as lists | argsort as a parameter satisfying its specification; specification by filtering the cells of a label |
| C51, C91 | a directory as a list of (redshift, cube) in `glob` order | specification by the greatest redshift below and the least above |
| C50, C92, C93, C95 | power spectra through the discrete transform of `Convolve` over the complex numbers | Parseval, translation and conjugation lemmas in `Lemmas/Spectrum.lean`; bins as lists of edges, counting through an assignment of modes to bins; `_get_dims`, `_get_kbins` with their exceptions as values |
| C94 | `mu_binning` with cosines as options (undefined for small `k`) | half-open bins; index test for the excluded modes |
| C96, C97 | windows as functions of the cell with the changed array of the caller in the result | cylindrical bins with `binned_statistic_2d` closed at the last edge, logarithm of zero as no value |
| C98 | `meandt` computed from the constants at import, `mean_dt` from the current ones; constants as rationals cast to reals | against a formula for the mean signal from h, the densities and the helium abundance; growth from the square of the ratio; ratios of the formula for the negation |
| C99, C100 | NumPy broadcasting of three-dimensional arrays, smallest density by a quantifier over the cells, kind of argument as a sum type | cell by cell; redshift by cases over the names |
| C101 | redshifts of the slices as a vector that broadcasts along the last axis; distances by arbitrary functions | each slice against `sliceRedshift`; other axes by computation of the axis |
| C102, C103 | cells that are not finite as no value; average redshift of a lightcone; cell volume from the first axis | limits in Mathlib's filters; two-phase gas inverted; average over the cells of the mesh |
| C104 | the two arrays of random numbers are arguments; wave numbers, shifts and transforms of the power-spectrum model | random numbers independent and standard normal in Mathlib's probability theory; the field's transform is the Hermitian part of the amplitudes, whose expected square is the mean of the requested powers at two cells; these are the same mode or its opposite for even numbers of cells |
| C105 | scikit-image's `label` by its documentation: connected components of a graph on the cells; Euler characteristic of the `CubeMap` model | paths in Mathlib's graphs; components of separate sets by a bijection; the box without one cell is connected by descent to a corner |
| C106 | label image as any function with the documented properties; `np.unique`, `np.roll` | one region has label one; neighbouring cells overlap when rolled |
| C107 | clusters found by k-means as an argument | specification: clusters at rest (no cell nearer to another centre) or of least inertia; nearest centres are ordered as the cells; the witness is shown to be optimal |
| C40, C41, C42, C43 | direct | algebra / modular arithmetic |
| C45 | sort + fold | induction |
| C46 | rot90/flip as index maps on ℤ | group identities |
| C108 | per line of sight; `fftconvolve` is the exact linear convolution, `cdist_to_z` a parameter | lookup in the strictly decreasing frequencies gives the last slice not below the channel; witness with distances exact by the intermediate value theorem |
| C109 | as C108, mode `'same'` is the middle of the full convolution | lookup in the increasing distances; floor against ceiling of the depth in cells |
| C110 | the loop over channels, `physical_slice_to_angular`, padding (C42) and cropping; resampling is a parameter | cell counts reduce to ratios of comoving distances by C79; then C42; witness by the intermediate value theorem |
| C111 | `psToCorr`, `trapz`, `npSinc`, `RBins.resolve` | The recursion of the trapezoidal rule is shown equal to a sum over neighbouring points; `np.sinc(x) = sin(pi x)/(pi x)` moves the factor pi to the radius. Radii from `linspace`/`logspace`. Negation: a flat spectrum at k = 1, 2 and r = 1, where the code gives 0. |
| C112 | `landySzalay`, `pairHistogram`, `crossHistogram` | Points enter through their distances only. The data-random histogram is the number of pairs in a half-open interval of distances. The data-data histogram is computed in closed form when all points are within `rmax`: twice the share of the points whose index is in the bin. Negation: two points 3 Mpc apart and a bin from 3 to 4 Mpc. |
| C113 | `getSEFD`, `interp`, `sigmaNoise` | The SEFD is specified by the power it delivers on the effective area. Tables: the sorted table is taken apart at the frequency, two neighbours determine the value, which is a weighted geometric mean. The rms are specified by their squares times bandwidth, time and number of pairs. |
| C114 | `noiseMap`, `response`, `window2` | The random numbers are independent standard normal variables on a probability space. A pixel is a linear form in them; the expectation of a product of two linear forms is the sum of the products of the coefficients, which gives the cosine of the phase difference. The taper is specified without the shift and the sign convention of the code. Negation: even coverage, where the sum of the squared taper is below the number of cells. |
| C115 | `noiseCube`, `noiseLightcone`, `noiseCubeLightcone` | Independent variables for all slices; linear forms with coefficients that vanish outside their slice. The flux of one mK is the specification of C81. The numbers of parameters and arguments are those of the signature and the call. |
| C116 | `noisePower`, `averageInf` | Reduced to `radial_average` of C50 if no cell is empty. `np.histogram` subtracts cumulative sums of the weights, so that an infinite weight spoils all bins above; the wave number of the central cell is below the first automatic edge for odd and even sizes. |
| C117 | `applyImage`, `applyCoeval` | The transform of the real part of an inverse transform is the mean of opposite amplitudes (`fftn_re`), so that the mask of a wave and of its opposite are averaged; the second pass by injectivity of the transform (Parseval). |
| C118 | `maxK`, `cutAxis`, `cutMap` | `np.linspace(-n/2, n/2, n)` places the cell `m` between 0 and 1 cells too far; the bound of √2 cells is the triangle inequality in the plane. The UV map is any function; how it is made is C65 to C68. |
| C119 | `briggs`, `meanWeight` | Limits and monotonicity in `robust` for every map with a positive count. |
| C120 | `diabolo`, `barrel`, `filterAt`, `removeWith`, `removeWedge` | Two `fftshift`s are the identity for even sizes and a shift of the frequencies by one for odd ones, which multiplies the cube by a phase. Arrays of unequal shapes are not broadcast in the model. |
| C121 | `Model/Beam.lean`: the four patterns, the division by the maximum, `primary_beam` of images and of 3-D arrays with the redshift as number, array or list; `j1` is an arbitrary function, axes of length one are not broadcast | the maximum over the box is attained at the cell `n/2` if the number of cells is even; monotonicity of each pattern in the distance; the errors of the loop over slices follow from the first failing slice |
| C122 | `Model/Foreground.lean`: both random arrays are arguments; the redshift as float, array or integer; NaN of an odd number of cells (the mode zero over zero) is an error; the seed is not modelled | the modulus does not see the missing shift of the spectrum, which multiplies the field by a phase; moments of independent standard normal variables |
| C123 | `Model/Foreground.lean`: the drawn sources are a function of their number; the flux grid, its trapezoidal integral, the loop which assigns to the pixels; `random_integers`, `trapz` and `copy=False` behave as in numpy 1 | the trapezoidal sum of a convex decreasing function is near its integral; Chebyshev's inequality for sums gives the mean flux |
| C124 | `Model/RollingWedge.lean`: the taper, the buffer from its power, the mask `W`, the chunk of each channel with zeros outside, and the errors of odd lengths; the transform across the sky is done after cutting the chunk, with which it commutes | the transform of a product splits; the power of the taper is greatest at zero and zero at the Nyquist frequency, so that a buffer exists; the removed modes are estimated by the taper |
| C125 | `Model/Bispectrum.lean`: `fft_nd`, the shell mask, the reuse of shells, the three inverse transforms and the normalisation; a sum of zero over the shells gives no number (in floating point, rounding noise). `BispectrumPylians` calls an external package and is not modelled | one inverse transform is a sum over waves with a phase shifted by twice `n//2`; the sum over the grid of three of them selects the triples with `p+q+r+6(n//2)` divisible by `n` (`sum_three`); opposite waves are conjugate, so that the sum is real; a bound on the components turns divisibility into equality |
| C126 | `Model/HaloGrid`: binned_statistic_dd with edges, digitize and the last-edge rule; units | The number of edges below a sample is a floor; cells against a specification by inequalities, the total by counting every halo once |
| C127 | `Model/HaloGrid`: the class as a state with setters | The cells with positive totals against the grid of C126; a total of non-negative masses that is not positive is zero |
| C128 | `Model/LineIntensity`: recipe with real powers, reading of units, gridding of C126 | Code against the recipe by laws of real powers; order by writing the mass as a power of M/pivot times an exponential of -1/M |
| C129 | `Model/LineIntensity`: rates, coefficients, luminosity | Powers of ten of logarithms are powers; the default rate is a product of four increasing factors |
| C130 | `Model/Magnitudes`: kinds of arguments, rules of astropy for adding numbers to quantities | Laws of real powers and logarithms; the zero point by 25th powers |
| C131 | `paint_kernel`, `spherical_bubble_model` with cubes as functions on cells, rolling by remainders, the random choices as an arbitrary function of iteration and cube (required only to choose candidates), the distance transform by its definition | the painted kernel is located by arithmetic of remainders and identified with the periodic ball; induction over batches carries a region marked by the cube; the overshoot is a count of the cells of one batch |
| C132 | `noise_error_ps` with the distances of `Model/Conversions`; options as optional values | the code is brought to an independent formula in SI units; scaling by algebra of square roots; the bandwidth by convexity of the distance in frequency (derivative monotone, secants) |
| C133 | `power_spectrum_multipoles` up to the call that raises; the estimator behind it on a finite set of modes | case analysis; completing the square; bounds on polynomials over [-1, 1] |
| C134 | `dimensionless_ps` on `power1d`, with linear interpolation as `np.interp` | uniqueness of the interval in a strictly increasing list; the chord of a convex function lies above it |
| C135 | `anisotropy_ratio_r_mu` on `muBinning` | means over lists become sums over finite sets |
| C136 | `Model/SizeDistribution`: automatic histogram range, logarithms, fractions, dummies, labels | Every value of a histogram is counted once; logarithms turn equal steps into a geometric progression; the radius of a ball is an increasing power so both histograms agree bin by bin. Witness families for the displaced distribution, the sum, regions of one size and the resolution. |
| C137 | `Model/SizeDistribution`: count times lower edge, normalisations, dummy | As C136; the sum over a filtered list lies between count times the edges. |
| C138 | `Model/PhysicalCone`: cell size, odd cell numbers, cut-out, loop over channels, then `binMpc` of `Model/Binning` | Angles at a distance from C79, monotone distances from C78, the binning from C109; cell numbers from floors. The witness of the falsity uses nearest-cell resampling of four cells. |
| C139 | `Model/Layout`: columns, units as powers of a length, the argument after the call | The point is characterised by distance, height over the equator and half-plane of the meridian (unique); arcsine and complex argument invert it. |
| C140 | `Model/Layout`: names to files, units to transformations; contents of files and the centre (astropy) are parameters | Positions expressed with east, north and zenith vectors; rotation to the meridian by the identity of sine and cosine; strings decided. |
| C141 | `Model/FieldLike`: linear interpolation through the non-empty bins; the draws are any with the moments of independent standard normals | Expected power from the generator (C104) and an explicit interpolation formula; for the failure, bin centres are strictly above the smallest wave number of a cube. |
| C142 | `Model/FieldLike.phaseShuffled`: the outcome of the shuffling is a permutation (any function) of the first axis | Transform of the real part as half the sum of opposite modes; Parseval; sums of roots of unity for the constant field. |
| C143 | `Model/Lyman`: padding and windows as lists, lengths and units, exchange of axes, names of methods; the cosmology is a parameter | Entries of the padded list by position modulo the box; Jensen's inequality for the bounds. |
| C144 | `Model/Lyman.fgpa` | Formula of the specification in Angstrom, overdensity and density. |
| C145 | `Model/Lyman.voigt`, `crossSection` | The profile is the convolution of a Gaussian and a Lorentz profile; integrals of convolutions and of the factors; substitution. |
| C146 | `Model/Lyman.depth` | Comparison with the cross section, constants to four digits. |
| C147 | `Model/Diagnostics.metrics`, `average`, `cov`: samples as lists of rows, `np.cov` with its factor, errors | Weighted sums by induction on the samples; the factor vanishes exactly for a single weight. |
| C148 | `Model/Diagnostics.credible`, `interp`, `cumsum`; `np.argsort` is any function that sorts | Position of the interpolated value in the sorted list; weights below and not above it counted by the cut; permutation to the given order. |
| C149 | `Model/Diagnostics.metrics` | Sums over the expanded list. |
| C150 | `Model/Diagnostics.truthMetrics`; `inv` and `det` are those of Mathlib | Covariance of mapped samples is A C Aᵀ; inverse and determinant of products. |
| C151 | `Model/Diagnostics.addSampled`, `write`, `distributionLabel`, `paramLabels`: the dictionary as a list of pairs | Induction on the sequence; decimal numerals are injective. |
| C152 | `Model/Diagnostics.addGrid`, `gridPoints`, `flatten`: flattened arrays by position | The positions of a cube of cells correspond to the indices (digits in base n). |
| C153 | `Model/Diagnostics.chainStats`: rows and the weights afterwards | As C148. |
| C154 | `Model/UVSmooth.uvThreshold`: inverse transform over ℂ, real part taken as in the code | The real part averages the map with its mirror image; Parseval for the power. |
| C155 | `Model/UVSmooth.convolveUvmap`, `removeBaselines`, `applyMap` | As C154; the four copies of the distance grid are the distance to the nearest corner. |
| C156 | `Model/UVSmooth.convolveCoeval`, `swap`, `stack` | Composition of C60's average and C155; indices of permuted axes. |
| C157 | `Model/UVSmooth.smoothLightcone`, `smoothCoeval`, `tophatCone`, `gaussSlices`; cosmological functions are arguments | Windows of first positions (C61) and the circular convolution (C25); sums over planes. |
| C158 | Model/Genus: `genus`, `count_neighbors`, `count_neighbors_once`, the four structuring elements and their eight orientations, the periodic convolution of scipy with the element type of its input. | A cell is counted when its 27 neighbours are exactly an orientation of a structuring element; the neighbours of a cell of a block are a product of three patterns, of which the elements D, E and F match none (kernel-checked finite statement over the 512 products) and A matches exactly the eight corners. Blocks, boxes and positions are arbitrary. |
| C159 | Model/CrossSpectrum: `cross_power_spectrum_1d`, on the spectra and the averaging of Model/PowerSpectrum. | Averaging fails for all arrays of a shape with the same exception or averages over the same modes; the inequality is that of Cauchy and Schwarz for the real and imaginary parts of the modes of a bin. |
| C160 | Model/CrossSpectrum: `power_spectrum_mu`, `cross_power_spectrum_mu`, on the binning of Model/PowerSpectrum. | As C159; the mode zero, which is set to zero, is counted but does not contribute. |
| C161 | Model/Lanczos.lean: kernel on its stretched coordinates, normalisation, convolution | kernel against the window of the specification; sums and displacement by the lemmas on circular convolutions; values are exact reals, so the sine of a multiple of pi is 0 |
| C162 | Model/Interpolate.lean: orders 0 and 1 for any number of axes; the wrapping of coordinates by map_coordinates is a transcription of scipy from knowledge of its source (scipy is not in the sandbox), arrays with at least one cell | the values at cells and linearity along every axis, which determine the interpolation; one axis is taken out of the sum over corners |
| C163 | Model/FitFunction.lean: the object with its dictionaries, the loop over splits and r2_score; optimiser and splits are arguments; samples are pairs, the function is evaluated sample by sample | stored parameters against sums of squares and coefficients of determination of the specification; invariant of the order of the names over all sequences of calls, also ones that raise |
| C164 | Model/Equilateral.lean: bins, angles and collected results; Pk_library.Bk is an argument | bins against closed forms, third side from the sum of the two vectors |
| C165 | Model/Phase.lean: the transform of numpy and arctan of the quotient with its infinite and undefined values; zeros are positive | modes against a sum of exponentials; cosine and sine of arctan |
| C166 | Model/SaveData.lean: the branches and the name that is written; the contents are left out | last five characters of a name with an extension; case split over formats |
| C167 | Model/SaveData.lean: files as lists of units; conversion to double precision is an argument | the state after saving is read |
| C168 | Model/FullConvolve.lean: the zero padded convolution of scipy and the kernel of Model/Smoothing | sums exchanged, kernel against the Gaussian of the specification |
| C169 | Model/FullConvolve.lean: kernel cells, normalisation, middle part of the convolution; sizes at least 1, natural exponents; interpolation is an argument | the convolution turned into a sum over offsets of the window |
| C170 | Model/RayPoint.lean on top of Model/RaySizes: the check of the point, rays and fractions; directions are arguments; points are cells of the box | counts of C36_bins against the number of directions that leave at each step |
| C171 | Model/RayPoint.lean: means, selection, histogram of logarithms with density; draws are arguments; three dimensions | bins of C36_bins, histogram lemmas of Props/SizeDistribution |
| C172 | Model/Rebin.lean: limits, sizes, range of interp1d with values that are not numbers; the spline is an argument | closed form of the sizes, bounds of their powers |
| C173 | Model/SuperpixelStats.lean: the permutation of the lists; argsort is an argument; ratios with deviation zero are infinite or nan | gather along a permutation of the indices |
| C174 | Model/SuperpixelStats.lean on top of combined of Model/Superpixels | sums do not depend on the order; the selection in closed form |
| C175 | Model/SuperpixelStats.lean: peaks, line, threshold, marking; the counts, edges and the threshold of Otsu are arguments | uniqueness of the first maximum |
| C176 | Model/FastSpectrum.lean: wave numbers, scales, centres, widths, averages; phase_spect_nd raises UnboundLocalError for all inputs and is not claimed | edges in closed form; every mode above the first edge lies in one bin; membership in centre and half width turned into edges |
| C177 | Model/FastSpectrum.lean: wave numbers across and along, ranges, tables | as C176 in both directions |
| C178 | Model/FastSpectrum.lean: spect2d returns the table and the array of the caller; the windows of scipy are arguments | comparison with an independently tapered array |
| C179 | Model/FastSpectrum.lean: modes in C order, cosines with 0/0 dropped, positions looked up in the full arrays | even: no 0/0, so that positions agree; odd: a column of five cells |
| C180 | Model/Metrics.lean: tensors as functions on a finite set of cells | cardinalities of intersection and union |
| C181 | Model/Metrics.lean | numerator and denominator differ by a sum of squares |
| C182 | Model/Metrics.lean; K.epsilon() is an argument, 1e-7 in the witness | closed form of the clipped sums |
| C183 | Model/Metrics.lean | bounds on quotients |
| C184 | Model/Metrics.lean: logits, weights and clipping | both branches in terms of log p and log(1 - p) |
| C185 | Model/Gains.lean (factor, applyGains); the square root of numpy is the principal power 1/2 | linear filters of Fourier amplitudes (seen_of) |
| C186 | Model/Gains.lean (loop, renew); draws are an arbitrary sequence, times are rational numbers | invariant of the loop; number of fresh steps so far |
| C187 | Model/Gains.lean (gains, products, withGains) | pairs of a list, complex products |
| C188 | Model/Gains.lean (withStamps, fullStamps) | chunks of the time steps (C34), stamps of one step (C71) |
| C189 | Model/Pkdgrav.lean (cubeRoot, transposed, loadDensity); bytes are numbers | sums over blocks |
| C190 | Model/Pkdgrav.lean (readFof, arrayFof) | concatenation of lists, periodic places |
| C191 | Model/Pkdgrav.lean (hmf) with the histogram of Model/SizeDistribution.lean | counts of geometric bins (hist_count) |
| C192 | Model/Pkdgrav.lean (rolling, smoothPk); the spline of ks is not modelled | means of logarithms, arithmetic progressions |
| C193 | Model/Thresholds.lean (mark, slices, median, triangle2D) | order statistics of sorted lists; permutations of double loops |
| C194 | Model/NameRedshifts.lean (globbed, text, getRedshifts) with Model/Helpers.lean | strings as lists of characters; counts of filterMap |
| C195 | Model/SimReaders.lean (velconvert, velRedshift, getKms, readC2ray) | algebra of units |
| C196 | Model/SimReaders.lean (dim21, read21) | bounds of logarithms and exponentials, rounding |
| C197 | Model/SimReaders.lean (coeval21, coeval21C2ray, coevalOverdens) with Model/Coeval.lean; calc_dt is an argument | sums over cells |
| C198 | Model/Beams.lean (signalWindow), Model/Noise.lean (window2) | symmetry of the window modulo the number of cells |
| C199 | Model/Beams.lean (beamW, beamConvolve) | algebra; case analysis |
| C200 | Model/Beams.lean (smoothingNames, horizonWedge) | algebra; the names of the module |
| C201 | Model/NumbaUV.lean (rounded, kept, coverage) | counts over cells; rounding away from ties |
| C202 | Model/NumbaUV.lean (steps, daily) | sums over intervals |
| C203 | Model/NumbaUV.lean (fromConfig, wavelength, rotate) | trigonometry; lists of pairs |
| C204 | Model/StepCell.lean (transitions, stepSlice); the random numbers and the smoothed slice are arguments | monotonicity of piecewise linear interpolation; sorted lists |
| C205 | Model/SlideBoxes.lean (number, slide, slideCentres, crossSlide), windows of Model/SubBoxes.lean | sums over sub-boxes; covering by division with remainder |
| C206 | Model/CubeP3M.lean (tenLog, wrap, convert, readHalo, readHalos, readCatalogue, haloCubeP3M) | encoder of records in the specification; induction over haloes and nodes |
| C207 | Model/CubeP3M.lean (sameRedshift, particles, readNode, readNodes, readFromFile, getNpart, nbodyFile) | columns of the specification; induction over nodes |
| C208 | Model/Namespace.lean (exec, execAll, runModules, package) and the statements in Model/NamespaceTable.lean | evaluation of the complete table by the kernel; shapes of convolutions |
| C209 | Model/Namespace.lean (resolves), names read in Model/NamespaceTable.lean | evaluation of the complete table by the kernel |
| C210 | Model/Calls.lean (bind), signatures and calls in Model/CallsTable.lean | binding succeeds iff the call fits, by cases on the four checks; evaluation of the table by the kernel |
| C211 | Model/SharpFeatures.lean (reflect, filterAxis, gaussianFilter, suppress, response) | finite sums with positive weights, mirrored indices by integer arithmetic, greatest entries |
| C212 | Model/CorrFunction.lean (binsOf, correlate, correlationFunction, crossCorrelationFunction) on the models of C111 and C159 | linearity of the trapezoidal rule over the bins with modes; bilinearity of the cross spectrum |
| C213 | Model/PkdgravFiles.lean (catalogue, densityGrid) on Model/Pkdgrav | spec of the mass of a part of the critical mass in both units; C189 for the densities |
| C214 | Model/PkdgravFiles.lean (save) | infixes of the last five characters |
| C215 | Model/PackageValues.lean (Package, attr, hz, velconvert, gridposToMpc, gridvelToKms, gridmassToMsol) on Model/Constants | induction on the history; that no later import replaces the names is computed from Model/Namespace |
| C216 | Model/HTransform.lean (step, iter, reconstruction, hTransform) | the dilations come to an end since their values are among finitely many; invariants of the dilations |
| C217 | Model/IonRates.lean (read, second, baseName, redshift) on Model/Files.lean | round trips of words and of reshape; splitting of names |
| C218 | Model/Response.lean (powerSpectrumResponse, integratedBispectrum) on Model/SubBoxes.lean | averages over sub-boxes described by their cells; linearity of the average, and the average of the sub-box means is the mean of the cube |
| C219 | Model/CubeInputs.lean (getFileRedshifts, paired, scalarCubes, velocityCubes) | sorted keys and look-ups; zip |
| C220 | Model/Plots.lean (histArgs, image, plotSlice) | keyword arguments as names with values; membership |
| C221 | Model/Forest.lean (errorbar, colorOf, bars, panels, plotForest); matplotlib is trusted to share the inversion of the axis between panels made with sharey=True | inductions over distributions and panels |
| C222 | Model/Locals.lean (Stmt, check, kill), Model/LocalsTable1-4.lean (the bodies of all 488 functions, generated from the syntax trees); the generation of the table is trusted | soundness of the definite-assignment check by induction over runs (Lemmas/Locals.lean), evaluation of the check on the table by the kernel; for the exceptions explicit ways through the bodies |
| C223 | the bodies of C222 (Model/LocalsTable1-4.lean), with returns of a value told from bare ones | the ways in which a body can end are computed (flow) and proved complete by induction over runs; evaluation on the table by the kernel; for the exceptions explicit ways through the bodies |
| C224 | Model/Constraints.lean (the tables, generated from the text of the file, decimal numbers taken exactly); the generation of the tables is trusted | evaluation of the whole tables by the kernel |
| C225 | Model/Blob.lean (gaussian, the reduction, the loops over the cells), over the reals | the loops give a table of the cell values; injectivity and monotonicity of the exponential |
| C226 | Model/Tipsy.lean (the types of the records, big-endian words, np.fromfile on an open file with its behaviour at the end and for negative counts); numbers as bit patterns | an encoder of snapshots written independently; induction over bytes, fields and records |
| C227 | Model/Progress.lean (the three loops with the numbers in their messages, over the rationals; get_uv_map is a parameter) | induction over the loops; the distance of a number from its rounding |
| C228 | Model/Estimates.lean (massEstimate, volumeEstimate) and calc_dt of Model/Temperature.lean | the average of C99; comparing the squares of the mean signals at two redshifts |
| C229 | Model/Estimates.lean (seeLabel, boundaries; the marked pixels are a parameter) | case analysis, the maximum as a fold |
| C230 | Model/Edges.lean (get_kbins and _get_kbins, on top of Model/PowerSpectrum.lean) | laws of real powers; the filtered lists of the mixed binning |
| C231 | Model/Visibility.lean (the two loops with their writes, IndexError, roots of negative numbers) | induction over the visited cells |
| C232 | Model/CosmoNames.lean (the dictionary, upper, the message; the functions of Model/Conversions.lean) | comparison of letters by arithmetic on code points; laws of real powers |
| C233 | Model/CubeMap.lean and Model/CubeMapJoblib.lean with multi_marker=False | invariant: ones on full positions only, and on all with at most t odd coordinates; a marked pair of neighbours along one axis implies a full position, so marks seen early are right |
| C234 | Model/Curvature.lean: luminosity_distance with k, arrays, outputify and NaN | radius by uniqueness of the solution of S''=kS; Mattig's formula by explicit primitives (logarithm, power, arctangent) |
| C235 | Model/Fast21cm.lean: the three drivers over an arbitrary library | invariant of dictionaries filled in order |
| C236 | Model/PadCone.lean: np.pad of every plane, axis by axis, over an ordered field | arithmetic of remainders for the continuations, induction over the folds |
| C237 | Model/VelocityCone.lean: slices of vector fields and their interpolation on top of the snapshot search of Model/Lightcone.lean | the snapshot search theorem of C11, induction over the output redshifts |
| C238 | Model/Subvolume.lean: limits, slices, means, dimensions; distances are open functions, the choice of slices is that of C13 | uniqueness of the limits from monotony, C13_partial for the slices, sums over a slice |
| C239 | Model/PvBox.lean: the defaults of get_distorted_dt on top of Model/Distort | C44 and C86 for the component that is used, a wall moved by one cell as witness |
| C240 | Model/ZsList.lean: the files listed, the redshift of each, sorting | runs of digits as in C22, decimal numbers by Nat.ofDigits, mergeSort of the redshifts |
| C241 | Model/DictFiles.lean: the choice of the format, the name of the file, groups and datasets of HDF5 with recursive_save and recursively_load | lookups along a path of keys, induction on the dictionary and on the path |
| C242 | Model/Erosion.lean: inversion, padding, convolution (Model/Morphology) and the slice | the sums over the element as counts of cells (C39), arithmetic of the slice |
| C243 | Model/CornerPlot.lean: order of drawing, colours, legend, true values; the figure as a list of drawings | stable sorting by the number of parameters: the first has the most; sorting by places is unique |
| C244 | Model/Augment.lean: prediction with an arbitrary network on planes | the operations as signed permutations of the axes; composing the table with a mirror image permutes it; networks commuting with the symmetries of a plane commute with the cube's up to the order of the axes |
| C245 | Model/Bispectrum.lean: bispectrum_fast | the product of the three filtered fields is symmetric once the shells are those of their own sides; reversing conjugates the amplitudes of a real field |
| C246 | Model/Distort.lean: distorted | the cells of a line of sight are computed from that line of sight only; the histogram is linear in its weights; witness of two cells of which one moves |
| C247 | Model/PowerSpectrum.lean, Model/CrossSpectrum.lean: power1d, cross1d, powerMu | wave numbers, edges (linear, logarithmic and mixed) and limits of the bins scale alike, so that the sets of modes are equal; below 2000 pi every mode but the mean reaches 0.001 |
| C248 | Model/UVDaily.lean: daily | pairs in both orders are a permutation of each other for permuted lists; rotation and rounding are odd; with C29 and C65 |
| C249 | Model/Lightcone.lean: makeLightcone, outputZ, stepScalar, stepVelocity | the bracketing snapshots and the cube of a redshift depend on the set of snapshots only; induction over the loop |
| C250 | Model/ConeCells.lean: coneCells | the choice of the files does not depend on their contents (the loop over the file numbers determines that over the cubes), then cell by cell |
| C251 | Model/HaloGrid.lean: haloListToGrid | the range of the bins depends on the set of coordinates only; sums over filtered lists |
| C252 | Model/Bispectrum.lean: fast | the shells are the same sets of waves; the volume enters as a square; with C247 |
| C253 | Model/Smoothing.lean, Model/Convolve.lean | each filter is a periodic convolution with a kernel that depends only on the size of the map; double sum exchanged |
| C254 | Model/Multipoles.lean: dimensionlessPs | bins and powers scale by C247; linear interpolation is homogeneous in nodes and values; witnesses computed from the edges |
| C255 | Model/PowerSpectrum.lean, Model/PowerCylinder.lean, Model/CrossSpectrum.lean | the exchange of axes maps the cells, the waves and the modes of every bin one to one; the values are compared through it |
| C256 | Model/PowerSpectrum.lean, Model/PowerCylinder.lean | mirroring turns the sign of a component of every wave and changes a phase; modes are compared through the reflection of the shifted grid, which keeps the Nyquist waves in place |
| C257 | Model/PowerSpectrum.lean, Model/PowerCylinder.lean | the transform of a constant vanishes away from the zero mode (sums of roots of unity); the zero mode has the wave number zero and lies below the edges of all bins |
| C258 | Model/Smoothing.lean, Model/Convolve.lean | the periodic convolution (C24) with a kernel that is even about its centre; the reflection of the offsets keeps the outermost row of an even kernel in place |
| C259 | Model/RaySizes.lean | the interpolated mask grows with the region, so that a ray is inside wherever it was; ended and surviving rays add up (C36), and the mean is a sum of the numbers of survivors |
| C260 | Model/Tau.lean | the depths are sums with weights that depend on the sorted redshifts only and are not negative |
| C261 | Model/Interpolate.lean | wherever the coordinates are, the wrapped ones are inside; the weights of the corners are not negative, add up to 1, and vanish for a corner outside |
| C262 | Model/PowerSpectrum.lean, Model/CrossSpectrum.lean | the bins in mu divide the modes of a bin in k among them; both averages are sums over the same modes |
| C263 | Model/PowerSpectrum.lean, Model/CrossSpectrum.lean | the modes between the outer edges are those of the one bin and of the other; the upper edge belongs to the last bin before and after |
| C264 | Model/Metrics.lean | iou and dice_coef of sets of cells (C180, C181); the triangle inequality from that of the numbers of differing cells |
| C265 | Model/UVResponse.lean | the waves of the result are known from C120; cubes with the same waves agree by Parseval's theorem |
| C266 | Model/Correlation.lean | the integral by the trapezoidal rule (C111_partial), by induction over the points; |sin x| <= |x| |
| C267 | Model/UVSmooth.lean | the amplitudes of every wave after each threshold (C154_mirrored); cones with the same amplitudes agree |
| C268 | Model/Metrics.lean | sums over rearranged cells; the regulariser in the denominator of r2score compared with the scatter |

## Status of every property

`partial` means that the full statement of `properties.jsonl` is refuted by a theorem with a witness, or only a part of it is proved; the
note says which.

<!-- index -->
| id | title | status | where | note |
|----|-------|--------|-------|------|
| C01 | Euler characteristic is the alternating cell count of the periodic cubical complex | proved | `CubeMap` (3 theorems) | every box size, every data array, every threshold |
| C02 | Parallel CubeMap is schedule independent | proved | `CubeMap` (2 theorems) | every interleaving of single reads and writes; n_jobs >= 1 |
| C03 | All CubeMap backends agree | proved | `CubeMap` (3 theorems) | n_jobs below -1 creates no task and silently returns 0 (euler_negative_jobs) |
| C04 | Euler characteristic is invariant under the symmetries of the periodic box | proved | `CubeMap` (3 theorems) |  |
| C05 | Euler characteristic of well separated structures adds; trivial boxes give zero | proved | `CubeMap` (2 theorems) |  |
| C06 | Cosmological constants stay mutually consistent | partial | `Constants` (4 theorems) | False of the code: set_omega_lambda assigns OmegaL locally and leaves q0 stale; set_omega_matter leaves OmegaL stale. Partial theorems hold for every history. |
| C07 | Simulation constants are all-or-nothing | partial | `Constants` (4 theorems) | False of the code: boxsize and LB are assigned before validation; set_hubble_h leaves LB stale. |
| C08 | Lightcone slices interpolate between the neighbouring snapshots | partial | `Lightcone` (5 theorems) | velocity version proved for all inputs; make_lightcone proved when no output step spans two snapshots and refuted otherwise (cached upper snapshot reused) |
| C09 | Lightcone interpolation is a convex combination and hits the snapshots | partial | `Lightcone` (8 theorems) | linear and sigmoid proved; step refuted (switch at half the bracket width); slice index refuted for non-cubic boxes |
| C10 | Equal-frequency redshift vector is evenly spaced | proved | `Lightcone` (3 theorems) |  |
| C11 | Comoving-distance redshift vector advances monotonically and stays in range | proved | `Lightcone` (2 theorems) | assumes one cell is smaller than the Hubble radius (otherwise the code's formula divides by a non-positive frequency) |
| C12 | Output redshifts are confined to the snapshots' range | partial | `Lightcone` (4 theorems) | frequency mode with the default z_high always raises |
| C13 | Lightcone sub-volume selection | partial | `Lightcone` (7 theorems) | slice closest to the upper bound is left out when the index difference is odd; IndexError at the last slice |
| C14 | cbin files round trip | partial | `Files` (3 theorems) | 3-D round trip proved at byte level for both orders and every word size; 4-D and 2-D arrays are silently corrupted. |
| C15 | Raw binary cubes round trip | proved | `Files` (3 theorems) | Round trip for every cube, rejection of every non-cube file length. |
| C16 | Ionisation fraction files round trip | partial | `Files` (4 theorems) | Round trip with equal flags proved; mismatching flags: precision mismatch is detected, header mismatch is not. |
| C17 | Velocity files round trip | proved | `Files` (1 theorems) | Byte-level round trip of the (3,nx,ny,nz) array. |
| C18 | Density files round trip and carry a constant unit conversion | partial | `Files` (4 theorems) | Raw densities round trip and the cgs factor is constant; writing from cgs densities uses an attribute that does not exist (C18_false). |
| C19 | Source lists round trip and grid onto the mesh without losing mass | partial | `Sources` (6 theorems) | Positions round trip; masses do not, other mass modes fail; gridding overwrites sources sharing a cell. |
| C20 | find_idx inverts linear interpolation | proved | `Helpers` (5 theorems) | For every monotone table with two different entries; constant tables give nan (findIdx_constant). |
| C21 | Combined mean and variance equal those of the pooled data | proved | `Helpers` (2 theorems) | Exact arithmetic, any number of groups. |
| C22 | Redshift parsed from a file name | partial | `Helpers` (3 theorems) | Characterised for every name; when the longest run is not a number (for instance a single dot) the code raises instead of returning -1. |
| C23 | Snapshots bracketing a redshift interval | proved | `Helpers` (4 theorems) | Exact selection with multiplicity and order; the default limits cannot be combined with bracket (bracket_none_raises). |
| C24 | Circular FFT convolution is the centred periodic convolution | partial | `Convolve` (5 theorems) | True for kernels with even sizes; for odd kernels the result is moved by one cell along every axis (refuted for all maps). |
| C25 | Smoothing conserves the total, fixes constants and respects bounds | proved | `Convolve` (5 theorems) | Kernels not larger than the map, any dimension. |
| C26 | Non-circular convolution modes | partial | `Convolve` (9 theorems) | Constant and valid modes hold; padded boundaries are off by one cell for even kernels and 'mirror' depends on the backend (both refuted). |
| C27 | Smoothing kernels are normalised | partial | `Smoothing` (8 theorems) | Proved for widths from 1 to the size; for wider tophats the negative slice index wraps (refuted). |
| C28 | Mean subtraction along the line of sight | partial | `Statistics` (7 theorems) | subtract_mean_signal fully; signal_overdensity ignores negative axes (refuted). |
| C29 | UV gridding puts each baseline in its FFT cell | partial | `UVGrid` (4 theorems) | Cell placement holds on even grids; on odd grids the map is shifted by one cell (C29_false). The total holds on all grids. |
| C30 | Earth rotation and coordinate changes preserve baselines | proved | `UVGrid` (3 theorems) | Scalar products and signed volumes are preserved for all angles. |
| C31 | UV map cache survives a crash at any point | partial | `UVCache` (5 theorems) | Holds for crashes between writes, different keys and formats that store arrays; false for a crash during a write, for json/yaml, and for caches without recorded parameters. |
| C32 | UV map cache key identifies the redshift | partial | `UVCache` (4 theorems) | Holds for different keys (redshifts more than 0.001 apart); false for redshifts with equal keys. |
| C33 | Antenna tracks stay attached to their antenna pair | partial | `Calibration` (2 theorems) | Rows are right before the first baseline outside the grid; false after it. |
| C34 | Parallel time chunks cover the observation exactly once | partial | `Calibration` (3 theorems) | Holds with at least one step per job; more jobs than steps raise. CubeMap_joblib always partitions. |
| C35 | Baseline cut keeps the UV map's layout | partial | `Calibration` (3 theorems) | Even grids: cells stay in place and the cut is right up to one cell; false on odd grids and next to the cut. |
| C36 | Mean-free-path ray counts are conserved | partial | `RaySizes` (7 theorems) | Bins and conservation proved for every structure and set of rays; every 2D ray is counted. In 3D rays can outlast the number of steps and are then in no bin although the result is called normalised (witness in every fully ionised box of 4 or more cells). |
| C37 | Friends-of-friends search labels connected regions | partial | `RegionSizes` (2 theorems) | False: the zip iterator is exhausted before the loop, the map is always zero. Partial: the search loop run over all cells above the threshold terminates and labels exactly the face-connected components with their sizes. |
| C38 | fof sizes add up to the ionised volume | partial | `RegionSizes` (2 theorems) | scikit-image labelling is characterised by its documented output. True if some cell is below the threshold, false otherwise: the first region is dropped. |
| C39 | Morphological opening | partial | `Morphology` (6 theorems) | Monotone for every element; anti-extensive and idempotent for elements symmetric about a centre cell (all discs and balls), false for even-sized or asymmetric elements; the documented default element raises. FFT rounding not modelled. |
| C40 | Granulometry spectrum telescopes | proved | `Morphology` (3 theorems) | Includes that the early exit leaves all areas as if computed and the cases in which no spectrum exists. |
| C41 | Unit and cosmology conversions are mutually inverse | partial | `Conversions` (12 theorems) | All pairs proved mutually inverse on their physical domains. halo_mass_to_particle_number returns a mass instead of a number. |
| C42 | Periodic padding | partial | `Padding` (8 theorems) | Periodic up to twice the size; larger sizes raise for slices of two or more cells. |
| C43 | Sub-boxes of the position-dependent power spectrum partition the box | proved | `SubBoxes` (5 theorems) | Windows cover every cell once with equal volume, the mean of the sub-box means is the mean. |
| C44 | Redshift-space distortion conserves the signal | partial | `Distort` (7 theorems) | Identity without velocities proved for equal perpendicular sides. Conservation proved for periodic float boxes and displacements up to one box length; false for larger displacements, open boundaries, integer boxes and unequal sides. |
| C45 | Optical depth grows with redshift | partial | `Tau` (5 theorems) | Length, errors, values (trapezoidal rule) and monotonicity are proved for num_points >= 1; the order of the input is irrelevant for distinct redshifts and matters for equal ones. |
| C46 | Test-time augmentations are undone exactly | proved | `Augment` (4 theorems) | Exact inverses for arrays of any shape; identity network returns the rounded cube for every size; the table of operations is complete and free of repetitions for every size. |
| C47 | Halo selection | partial | `Halo` (8 theorems) | Proved for HaloList and HaloCubeP3MFull on files of nineteen columns with a non-zero upper bound, and that True means all were read, False that the limit was reached. False: False is returned when only unselected lines follow; with 22 columns the wrong field is compared; an upper bound of zero raises; the Rockstar limit reads nothing. |
| C48 | Periodic repositioning | proved | `Halo` (3 theorems) | Both versions of _reposition, any list of positions; positions further away are moved once only. |
| C49 | Label-wise reductions | partial | `Superpixels` (5 theorems) | Proved for the labels 0..k-1, for every operator indifferent to order and every argsort; the map preserves the total. Other labels raise IndexError or give the values of other labels. |
| C50 | Spherically averaged power spectrum bins every mode once | partial | `PowerSpectrum` (9 theorems) | Counting proved for all edges and all numbers of bins. The alignment of k with the FFT is proved in three dimensions and for odd sizes; it is false for even sizes in one and two dimensions, where k is half a step off. In one dimension the modes below zero are never counted. |
| C51 | Snapshot chosen for a coeval cube | partial | `Coeval` (5 theorems) | The weights are those of the adjacent redshifts and the result lies between the two cubes read. False for every directory: at least one of the two cubes is not that of the adjacent snapshot. A redshift that is present raises TypeError; the velocity reader always raises. |
| C52 | Derived cosmological densities follow the parameters | partial | `Constants` (2 theorems) | False of the code: derived densities are computed once at import. |
| C54 | write_to_file without data writes what was loaded | partial | `Sources` (2 theorems) | write_to_file without data drops the loaded data. |
| C55 | get_data_and_type honours the requested density unit | partial | `Files` (2 theorems) | raw_density flag ignored for density file names. |
| C56 | get_mesh_size reports the stored mesh | partial | `Files` (2 theorems) | Wrong mesh for temperature files. |
| C53 | File lists given as a directory or text file | partial | `Helpers` (2 theorems) | Strings are iterable in Python 3, so directories and list files are never expanded. |
| C57 | find_idx does not change its arguments | partial | `Helpers` (2 theorems) | find_idx clamps in place in the caller's array. |
| C58 | smooth_tophat averages around each cell | partial | `Smoothing` (5 theorems) | The mean is taken around the next cell; even maps count the first row twice at the edge. |
| C59 | Smoothed maps keep the shape of the map | partial | `Smoothing` (2 theorems) | False when the first axis is the longer one. |
| C60 | Coeval tophat smoothing acts along the frequency axis only | partial | `Smoothing` (3 theorems) | A square two-dimensional kernel is used, which also smooths one angular axis. |
| C61 | Frequency smoothing of a lightcone averages the slices inside the window | partial | `Smoothing` (3 theorems) | The slice above the window is included as well. |
| C62 | smooth_line keeps length and level | partial | `Smoothing` (8 theorems) | True away from the ends for normalised windows not longer than the line. |
| C63 | apply_func_along_los gives one value per slice | partial | `Statistics` (2 theorems) | Vector fields: the count is taken from the component axis. |
| C64 | Weighted mean and moments | proved | `Statistics` (3 theorems) | Skewness through its numerator and denominator (the power 3/2 is applied to the denominator). |
| C65 | Mirrored UV maps are Hermitian | partial | `UVGrid` (3 theorems) | Holds on even grids off the Nyquist row and column; false there and on odd grids. |
| C66 | Daily UV map is the time average of the snapshots | partial | `UVGrid` (3 theorems) | Average holds for three or more antennas on even grids; two antennas raise; the hour angles are off centre by half a step. |
| C67 | Baseline lists contain every antenna pair once | proved | `UVGrid` (2 theorems) |  |
| C68 | Coordinate axes point in the documented directions | partial | `UVGrid` (3 theorems) | enu_to_ecef and the meridian case hold; the documented X axis of ecef_to_xyz is false (east is Y). |
| C69 | Gain maps accumulate hits and gain products per UV cell | proved | `Calibration` (2 theorems) |  |
| C70 | Declination argument of the calibration functions | partial | `Calibration` (3 theorems) | Only rigidity holds; the declination is passed as the observation time. |
| C71 | Antenna stamps list exactly the baselines of a cell | proved | `Calibration` (2 theorems) |  |
| C72 | Pattern spectrum is a distribution | partial | `Morphology` (2 theorems) | Partial sums lie in [0,1]; single entries can be negative because a discrete disc of radius 3 is not a union of discs of radius 2. |
| C73 | granulometry_CDF returns areas in order of size | proved | `Morphology` (1 theorems) |  |
| C74 | Mean free path without a region of interest | partial | `RaySizes` (2 theorems) | True for thresholds up to 1; above, the draw of start cells raises. |
| C75 | Watershed sizes are region volumes | partial | `RegionSizes` (2 theorems) | One entry per region, but the volumes are the label numbers 1..n. |
| C76 | Spherical average counts each cell once | partial | `RegionSizes` (3 theorems) | Proved for distinct positive radii; in a box of four cells all radii coincide and cells are counted at each. |
| C77 | put_sphere respects periodicity | partial | `RegionSizes` (2 theorems) | Non-periodic exact; periodic labels only cells of the periodic sphere but misses images displaced along fewer than three axes. |
| C78 | Distances and ages follow the Friedmann equation for every number type | partial | `Conversions` (8 theorems) | Proved for float redshifts. Integer redshifts give distances truncated to whole Mpc and ages of zero. |
| C79 | Luminosity distance, angular size and comoving distance agree | partial | `Conversions` (4 theorems) | Proved for every history of setters without set_omega_lambda (both the integral and the closed form); false after set_omega_lambda. |
| C80 | cdist_to_z inverts z_to_cdist | partial | `Conversions` (5 theorems) | Exact at table redshifts inside the search window; a single distance with guessed redshift of 29 or more leaves fewer than four points and raises. The spline is a parameter that passes through its points. Every tabulated distance is within two per cent of the default cosmology. |
| C81 | kelvin_2_jansky returns jansky | partial | `Conversions` (3 theorems) | The result is the flux in micro-jansky, 10^6 times the documented unit. |
| C82 | Every voxel of an image is segmented | partial | `Augment` (3 theorems) | True for cubes (C46). Without augmentation, planes beyond the length of the first side are never predicted and enter the mean as zeros; with augmentation non-cubes raise. |
| C83 | Optical depth below the first redshift is that of a fully ionised universe | partial | `Tau` (4 theorems) | True in a flat universe; after set_omega_lambda the values are off by a constant and can be negative, with num_points=0 the first value is negative. |
| C84 | tau_map agrees with tau on every line of sight | partial | `Tau` (3 theorems) | True for increasing redshifts; tau_map does not sort. |
| C85 | Optical depth follows the cosmology | partial | `Tau` (3 theorems) | True for the density setters; the Hubble constant and the helium abundance have no effect. |
| C86 | A uniform velocity translates the box | partial | `Distort` (2 theorems) | Exact output proved: the translated box, except that one of the P particles of the last cell lands one cell too far. The unqualified claim is false. |
| C87 | Rockstar catalogues are read by column name | partial | `Halo` (4 theorems) | Columns by name, order and count proved for every successful read without a limit, for the haloes added. False with a limit (nothing is read) and for an object read twice (haloes accumulate). Another extension raises UnboundLocalError on the third line. |
| C88 | Stitching superpixels into a binary map | partial | `Superpixels` (3 theorems) | Proved for labels 0..k-1 and thresholds other than zero; a threshold of zero is replaced by the mean, labels from 1 raise IndexError. |
| C89 | Pooled mean and deviation of superpixels | partial | `Superpixels` (2 theorems) | Proved for deviations with Bessel's correction; false for those get_superpixel_sigmas returns. |
| C90 | Under-segmentation error | partial | `Superpixels` (3 theorems) | Zero for refinements proved for every b below one; non-negative if b times the number of objects is below one; with five objects and the default b=0.25 the error is -1. |
| C91 | Density between snapshots is diluted by the expansion | partial | `Coeval` (4 theorems) | Which snapshot is used is proved for files listed in decreasing redshift; the factor applied is the inverse of the dilution, so the density rises. |
| C92 | Power spectrum conserves the variance | proved | `PowerSpectrum` (3 theorems) | Parseval's identity for the shifted transform of the model. |
| C93 | Symmetries of the power spectrum | proved | `PowerSpectrum` (5 theorems) | Real arithmetic. |
| C94 | Binning in k and mu counts every mode once | partial | `PowerSpectrum` (9 theorems) | Holds below the last edges, for k of at least 0.001 and, with exclusion, for even grids. False for modes on the last edge, hence for all modes along the line of sight and the modes with the largest k; false for k below 0.001; on odd grids nothing is excluded. |
| C95 | Documented forms of box_dims and kbins are equivalent | partial | `PowerSpectrum` (5 theorems) | A number and a list of lengths agree. An array of lengths and a list of edges raise. |
| C96 | Power spectra with a window leave the data unchanged | partial | `PowerSpectrum` (4 theorems) | Without a window the data are unchanged. A named window is multiplied into the array of the caller; a window given as an array raises. |
| C97 | Cylindrical power spectrum counts every mode once | partial | `PowerSpectrum` (3 theorems) | Proved for one number and for a tuple of two, with at least four cells along the line of sight and another axis. The documented list of two numbers raises, and so do fewer than four cells along the line of sight. |
| C98 | Mean signal of the current cosmology | partial | `Temperature` (3 theorems) | Proved that mean_dt is positive and grows for every cosmology of at most critical density, and that it is the signal of the current cosmology as long as h, OmegaB and the helium abundance keep their values. False after set_omega_baryon and set_abundance_helium, which have no effect, and after set_hubble_h, with which it goes the wrong way, because meandt is computed at import. |
| C99 | Signal of a cube cell by cell | partial | `Temperature` (5 theorems) | Proved for densities that are nowhere negative. The signal of a cell is not independent of the others: one negative value makes all densities relative ones. |
| C100 | Redshift of the signal from the file | partial | `Temperature` (5 theorems) | Proved for names of files. With an array or an object of the file classes as ionised fractions the call raises a type error. |
| C101 | Signal of a lightcone at the redshifts of its slices | partial | `Temperature` (6 theorems) | Proved for the last axis, for any functions z_to_cdist and cdist_to_z. For other axes a cubic lightcone is treated as if the line of sight were the last axis and others raise. |
| C102 | Signal for finite spin temperatures | partial | `Temperature` (6 theorems) | Proved for cubes, except that completely ionised cells at 20000 K or more give no number with the correction. Lightcones get the signal at the average redshift of their slices. |
| C103 | Signal from halo masses | partial | `Temperature` (3 theorems) | Proved for meshes with equally many cells along all axes; the volume of a cell is wrong otherwise. |
| C104 | Power of Gaussian random fields | partial | `RandomField` (4 theorems) | Proved for three dimensions with even numbers of cells. False in three dimensions for odd numbers of cells (fftshift where ifftshift is needed) and in two dimensions (centre of _get_k between cells). |
| C105 | Betti numbers | partial | `Topology` (7 theorems) | Proved of betti0 in open boxes with 6 neighbours. False of betti1 and betti2: the surroundings count as a cavity; 26 neighbours leave out the corners; components are not periodic although the Euler characteristic is. |
| C106 | Percolation cluster | partial | `Topology` (4 theorems) | Proved if the cells above the threshold form one region with at least two cells, or none, or all. False otherwise: any two neighbouring cells count as percolating, and only the first region is examined. |
| C107 | Regions by k-means | partial | `Identify` (5 theorems) | Proved for three clusters, for data with two values and data with one value. False for two clusters: the threshold is the mean of the largest values of the clusters. k-means itself is taken by its result. |
| C108 | Frequency channels average the slices they cover | partial | `Binning` (3 theorems) | Proved: the channels, which slice each one takes, and that it is the sum of the up to w slices ending there over w; fewer than two channels raise. False in full: fftconvolve is called in its default mode 'full', so the average is one-sided and the first channels lose signal (C108_false). cdist_to_z is a parameter. |
| C109 | Slices in Mpc and their redshifts | partial | `Binning` (4 theorems) | Proved: number of slices, which input slice each takes and the centred average; cells thinner than half the spacing raise. False in full: one redshift too many unless the cells fit exactly, and edge slices lose signal. |
| C110 | Observational lightcones have the same angular cells in every channel | partial | `Angular` (5 theorems) | Proved for lightcones whose box fills more than half of the field of view in every channel. Where it fills less than half the padding raises (C110_raises, C110_false). The resampling and cdist_to_z are parameters. |
| C111 | The correlation function belongs to the radii returned with it | partial | `Correlation` (5 theorems) | Proved: the values are the integral at pi times the radius, leaving out bins with no finite power; the radii for a number of bins. False of the code: the values belong to the radii returned (np.sinc contains a factor pi); without a box size a number of bins raises; a list of radii raises. |
| C112 | The Landy-Szalay estimator counts pairs by their distance | partial | `Correlation` (5 theorems) | Proved: the bins, their centres and the data-random counts. False of the code: the data-data and random-random counts are histograms of the indices of the points, not of their distances; given edges raise. |
| C113 | The antenna sensitivity and the thermal noise follow the radiometer equation | partial | `Noise` (6 theorems) | Proved: the SEFD without a table if temperature or efficiency varies with the frequency, the geometric interpolation of tables in any order, both rms of the radiometer equation. False of the code: with both given as numbers one frequency raises and several give a single number; an array of one frequency gives a number. |
| C114 | Noise maps have the covariance of the sampled visibilities | partial | `Noise` (3 theorems) | Proved: mean and covariance of all pairs of pixels for natural and uniform weighting, with the Blackman-Harris taper the code applies. False of the code: the taper lowers the rms below sigma for even coverage; fft_wrap=True and suppress_sharp_features_uv_map=True raise. The methods 'gaussian' and 'binned' are not modelled. |
| C115 | Noise cubes are made of independent slices with the noise of their frequency | partial | `Noise` (4 theorems) | Proved: mean, covariance and independence of the slices of noise_lightcone and noise_cube_coeval. False of the code: noise_cube_lightcone always raises (21 arguments for 20 parameters); a single redshift or equal neighbours give nothing finite. |
| C116 | The noise power spectrum averages the noise power of the UV cells | partial | `Noise` (4 theorems) | Proved: the radial average of the noise power for natural weighting if every cell is sampled. False of the code: the observing time does not enter; an empty cell leaves nothing finite in the bins above, an empty zero baseline in none of the automatic bins; uniform weighting raises. |
| C117 | An image is seen through the sampled UV cells only | partial | `UVResponse` (8 theorems) | Proved for every map: the amplitude of a wave is kept, halved or removed as both, one or none of the two directions are sampled; for maps with mirrored baselines the property holds. False of the code for other maps: a wave which is not sampled survives at half its amplitude if its opposite is sampled. Without uv_map an array which is not a cube raises. |
| C118 | max_baseline removes the longer baselines from the UV map | partial | `UVResponse` (4 theorems) | Proved for even numbers of cells: the cut is at max_baseline up to sqrt 2 cells. False of the code: of two opposite cells of the length max_baseline one is removed and one kept; for odd numbers of cells the map is rolled by one cell; max_baseline_to_max_k gives half the wave number. |
| C119 | Briggs weights run from uniform to natural | partial | `UVResponse` (4 theorems) | Proved: the noise lies between that of natural weighting and that without baselines and grows with robust, and where the weight is halved. False of the code: robust runs the other way, natural weighting is the limit of robust to minus infinity. For maps with at least one positive and no negative count. |
| C120 | remove_wedge_image removes the foreground wedge | partial | `UVResponse` (7 theorems) | Proved for even numbers of cells: every wave is multiplied by the mean of the filter at the wave and its opposite, and what the default filter is. False of the code: the default filter keeps the waves of the wedge and removes those along the line of sight; for odd numbers of cells a filter of ones multiplies the cube by a cosine; without array, and barrel_filter always, raise. |
| C121 | The primary beam is a normalised, centred, circular pattern | partial | `Beam` (13 theorems) | Proved: values from 0 to 1, monotone (but for Bessel), exact patterns for even numbers of cells, images and lightcones. False of the code: sigmoid beams take r to the power sqrt 2; odd numbers of cells are centred between two cells and may give NaN; 2-D arrays ignore l_null; step and Bessel beams disagree whether l_null is a diameter. The Bessel function is abstract. |
| C122 | Synchrotron foregrounds have the requested angular power | partial | `Foreground` (5 theorems) | Proved for even numbers of cells: each map is the modulus of the complex field with the requested mode powers (half a cell off), maps of two redshifts are multiples of each other, and the expected square of the pixels. False of the code: the modulus has no negative pixel and a positive mean; odd numbers of cells give NaN; integer redshifts raise. |
| C123 | Point source foregrounds hold all sources of the counts | partial | `Foreground` (4 theorems) | Proved: the number of sources is near that of the counts in the field of the least redshift, and the maps are the sums if no two sources share a pixel. False of the code: of sources in the same pixel only the last one counts; the fluxes are drawn uniformly and not like the counts. The random numbers are an argument of the model. |
| C124 | The rolling wedge removal removes the wedge of each channel | partial | `RollingWedge` (8 theorems) | Proved for even chunk lengths: emission which does not depend on frequency is removed and waves far from the wedge are kept, both up to the threshold, in channels whose chunk lies in the lightcone; linearity, locality and independence of the cell size. False of the code: waves just outside lose amplitude by the taper, the slope is that of another channel, odd chunk lengths (also the default) raise. |
| C125 | The bispectrum is the mean over closed triangles | partial | `Bispectrum` (13 theorems) | Proved for even numbers of cells and sides below the aliasing limit; for all numbers of cells the set of triples actually summed is given. False of the code: odd numbers of cells (fftshift used as its own inverse), large sides (triples closing modulo the grid), equal sides with different widths, a number as box_dims, the shell mask from components; the two methods users call raise UnboundLocalError. |
| C126 | Every halo is put into the cell that contains it | partial | `HaloGrid` (8 theorems) | True when haloes reach both ends of the box along each axis; the total is always right. False otherwise: the cells are those of the least cuboid that contains the haloes, so that the box length and a common displacement have no effect. |
| C127 | Halo2Grid returns the occupied cells with their totals | partial | `HaloGrid` (6 theorems) | True when the masses are an argument of halo_mass_on_grid and not negative. False otherwise: the masses set before are not used (the positions are taken for masses, which raises) and cells with negative totals are dropped. |
| C128 | The map of neutral hydrogen follows the recipe of Padmanabhan et al. | partial | `LineIntensity` (9 theorems) | Proved with 1/h for h in the pivot and 24.4/54.4 for h^2 in the circular velocity, in the cells of the least cuboid that contains the haloes; false with the right pivot, velocity or cells, and for masses with and positions without units. |
| C129 | The map of ionised carbon follows the recipes of Silva et al. | partial | `LineIntensity` (7 theorems) | Luminosities, totals, order and units proved; the cells are those of the least cuboid that contains the haloes, and a dictionary of parameters raises. |
| C130 | Magnitudes, fluxes and fields of view convert consistently | partial | `Magnitudes` (9 theorems) | Proved for arrays (Muv_to_muv), numbers and quantities (mag_to_flux, muv_to_Muv) and quantities (FoV_cMpc2); the other kinds of arguments raise or, for a field given as a number, are taken for square radians. Muv_to_L1500 always raises. |
| C131 | The bubble model fills the box with spheres up to the target | partial | `BubbleModel` (11 theorems) | For all choices of centres: region, freshness, stopping and overshoot, for bubbles that fit and cubes of zeros and ones. False: bubbles wider than the box raise, partial ionisation is doubled by painting, paint_kernel doubles the cube, the given cube is changed, non-overlapping bubbles overlap across the faces of the box. |
| C132 | The analytical noise error follows the radiometer equation | partial | `NoiseError` (8 theorems) | All laws are proved for numbers and arrays. False: a list of modes, although array-like, raises TypeError. |
| C133 | Power spectrum multipoles are Legendre coefficients | partial | `Multipoles` (6 theorems) | False: every call raises, because _get_mu is called without its last argument. Proved about the lines behind: the estimate is the least-squares factor of the polynomial; the hexadecapole is approximate; the estimates mix and the number of modes is the number of dimensions. |
| C134 | The dimensionless spectrum is k^3 P(k)/(2 pi^2) | partial | `Multipoles` (5 theorems) | Proved: values on the chords between fine bins, wave numbers spaced as asked from the second fine bin on. False between bins (overestimated) and next to fine bins without modes (not a number). |
| C135 | The anisotropy ratio compares the spectrum above and below a cut in mu | partial | `Multipoles` (3 theorems) | Proved without return_n_modes; with it the call raises. |
| C136 | Distributions of region sizes count every region once, by volume and by radius | partial | `SizeDistribution` (9 theorems) | False as stated: the shares stand at the lower edges of volumes but at the upper edges of radii, dummies make both sums exceed one, regions of one size give radii that are not those of the volumes, and get_distribution multiplies volumes by the resolution instead of its cube. Proved: edges, shares, errors. |
| C137 | The volume fraction in regions of a size | partial | `SizeDistribution` (4 theorems) | False as stated: every region in a bin counts with the lower edge of the bin. Proved: what is returned, bounds on the error, errors. |
| C138 | Converting a lightcone from angle and frequency to lengths | partial | `PhysicalCone` (4 theorems) | Proved for any resampling of slices: cell size, numbers of cells, which channels are averaged, errors. False: a slice of an even number of cells that already has the right resolution is resampled to one more cell, the last of which is cut off; at the ends channels outside count as zero (C109). |
| C139 | Geographic and Cartesian positions of antennas | partial | `Layout` (6 theorems) | True in one direction. The other direction works only for Quantities without dimension: plain arrays and lengths raise, because `not` is missing before isinstance, and the unit of the argument is changed in place. |
| C140 | Layouts of SKA-Low | partial | `Layout` (5 theorems) | False for unknown names (another layout is returned) and for geographic coordinates (always raises). |
| C141 | Random fields with the power spectrum of a given field | partial | `FieldLike` (2 theorems) | Each mode has the linear interpolation of the binned spectrum between the mean wave numbers of non-empty neighbouring bins. False at the smallest wave number, where every even cube gets no power at all. |
| C142 | Fields with shuffled phases | partial | `FieldLike` (5 theorems) | Proved: power is never gained, per mode for even sizes and in total for all. False: modes lose power, since opposite modes no longer have opposite phases; odd sizes are shifted twice the same way, a constant becomes a cosine; the amplitudes are kept, not removed. |
| C143 | Effective Lyman-alpha depth along the line of sight | partial | `Lyman` (6 theorems) | Proved along the last axis for windows up to twice the box. False for other axes (the result stays transposed, the overdensity is not transposed), for longer windows, for units different from those of the box; method 'smith2015' raises NameError. |
| C144 | Gunn-Peterson depth of a cell | proved | `Lyman` (3 theorems) |  |
| C145 | Line profile and cross section of Lyman alpha | partial | `Lyman` (3 theorems) | Shape and temperature independence hold; the integral of the cross section is too small by the square root of two because the Doppler width lacks this factor. The Faddeeva function of scipy is taken as the integral it stands for; the numerical quadrature as exact. |
| C146 | Lyman-alpha depth of a comoving path | partial | `Lyman` (2 theorems) | True for the mean density of today; the redshift is ignored, while the depth of a comoving path grows with (1+z)^2. |
| C147 | Summary of weighted samples | partial | `Diagnostics` (5 theorems) | Proved for every number of parameters but one: with a single parameter np.cov has no axes and np.diag raises, so no such distribution can be added. |
| C148 | Credible intervals, coverage and PIT of weighted samples | partial | `Diagnostics` (6 theorems) | True up to the weight of one sample. The cumulative weights are not centred: the limits are biased low, a value below all samples has the PIT of the first weight, and the order of tied samples changes the limits. |
| C149 | A weight is a number of repetitions | partial | `Diagnostics` (2 theorems) | True for the means; the covariance uses reliability weights and differs by a known factor. |
| C150 | Comparison of a distribution with the true values | partial | `Diagnostics` (4 theorems) | True with at least as many true values as parameters. A single true value is compared with all parameters; other shorter lists raise. |
| C151 | Collection of distributions and labels | partial | `Diagnostics` (4 theorems) | True if no label is given, or all are; a default name can coincide with a label given before and replaces that distribution. |
| C152 | Distributions on a grid | partial | `Diagnostics` (4 theorems) | Means are right for grids with as many cells along each axis as coordinates; other shapes of the same size are accepted and mixed up; the covariance has the factor of a finite sample. |
| C153 | Table of a chain | partial | `Diagnostics` (5 theorems) | The numbers are right up to one weight; the distances can be negative, integer weights raise, float weights of the caller are normalised in place, and the default param_names=None raises. |
| C154 | Denoising with a UV threshold | partial | `UVSmooth` (7 theorems) | True for maps that are symmetric about zero; otherwise a mode with only its mirror image above the threshold keeps half its amplitude. Negative and integer thresholds return an exception object in the place of the lightcone. |
| C155 | Observing an image with a UV map | partial | `UVSmooth` (7 theorems) | The filter and the cut are as stated; after a cut the map is divided by the largest value that is left, which changes the modes that were to be kept. |
| C156 | Observing a coeval cube with a UV map | partial | `UVSmooth` (5 theorems) | The slices are observed as stated, but the axes of the result are permuted, and leaving out uv_map or max_baseline raises. |
| C157 | Smoothing to the resolution of a telescope | partial | `UVSmooth` (8 theorems) | Proved for increasing and decreasing arrays of redshifts and slices with at least as many columns as rows, and for cubes with equal sides. A number as z_array raises AttributeError; slices with more rows than columns raise ValueError. |
| C158 | Genus of a cube | partial | `Genus` (6 theorems) | Holes in the form of a block (at least two cells wide) have the genus 0 at every place in the periodic box, and the value depends only on the phases up to a shift. Bubbles of the same form have the genus 1, and so have sheets of one cell; other shapes give fractions that depend on the orientation. |
| C159 | The cross spectrum and the two spectra agree bin by bin | proved | `CrossSpectrum` (8 theorems) | Proved for every number of dimensions and all forms of the arguments, including those which are refused (with the same exception). |
| C160 | The cross spectrum in k and mu agrees with the two spectra bin by bin | proved | `CrossSpectrum` (8 theorems) | Proved for all cubes and all forms of the arguments, including those which are refused (with the same exception). |
| C161 | Smoothing with a Lanczos kernel | partial | `Lanczos` (6 theorems) | False of the code: the result is displaced by one cell for odd sizes and half a cell for even sizes, and the kernel is stretched by n/(n-1). Proved: kernel, shape, total, constant maps and the displacement itself. |
| C162 | Interpolation of arrays at fractional indices | partial | `Interpolate` (7 theorems) | False of the code: the default order=0 is the nearest cell, and the period of the coordinates is one cell too small. Proved for order=1 inside the array. Orders above 1 are not modelled. |
| C163 | Fitting a function to samples | partial | `FitFunction` (8 theorems) | False of the code: the number of splits of one call is used by all later calls that give none. Proved: both kinds of fit, the order of the names after any sequence of calls, and that the number of splits persists. |
| C164 | The equilateral bispectrum measures equilateral triangles | partial | `Equilateral` (3 theorems) | False of the code: the angle pi/3 between k1 and k2 gives a third side that is longer by the root of three. Proved: the first two sides, their bins and what is returned. |
| C165 | Amplitude and phase describe the Fourier modes | partial | `Phase` (5 theorems) | False of the code: arctan(b/a) loses the quadrant. Proved: amplitudes of all modes, phases of modes with positive real part or purely imaginary ones; modes with negative real part come back with the opposite sign, vanishing ones have no phase. |
| C166 | Saving data in the wanted format | partial | `SaveData` (6 theorems) | False of the code: an extension in the name wins over filetype, np.save changes the name, some filetypes must be lower case. Proved: names with an extension and no filetype, names without extension and any filetype, names with neither. |
| C167 | FITS files are read back | partial | `SaveData` (3 theorems) | False of the code without pyfits and for header=False. Proved: with pyfits data is read back and other files are unchanged. |
| C168 | Smoothing of noise cubes | partial | `FullConvolve` (3 theorems) | False of the code: the full convolution is returned, which is larger than the array and displaced by half the kernel. Proved: weights, total and sign; a width of zero gives nan. |
| C169 | Box counting | partial | `FullConvolve` (5 theorems) | False of the code: the mask of the ball has two axes, so that cylinders are counted, and Renyi_diemsnions always raises. Proved: cubes of all sizes, cylinders for odd sizes. |
| C170 | Rays from a given point | partial | `RayPoint` (4 theorems) | False of the code: in three dimensions a point with numpy integers is not looked at, and rays longer than the box are in no bin. Proved: both dimensions with integers of python, with the sum 1 in two dimensions; data without a region. |
| C171 | Distribution of mean ray lengths | partial | `RayPoint` (4 theorems) | False of the code: points with mean zero and points whose rays are all longer than the box are left out; without others the density is not a number. Proved: the density of the positive means, with sum 1; data without a region raises for thresholds above 1. |
| C172 | Rebinning a size distribution | partial | `Rebin` (6 theorems) | False of the code: the default limits are the smallest size plus 1 and the largest minus 10. Proved: given limits and lists of sizes; the default limits cut the range, give nan or raise. |
| C173 | Signal-to-noise ratios of superpixels | partial | `SuperpixelStats` (2 theorems) | False of the code: with pixels=True a list is indexed with an array, a TypeError. Proved: order and agreement of the four lists for every argsort. |
| C174 | Mean of the significant superpixels | partial | `SuperpixelStats` (2 theorems) | False of the code: data and labels are not passed on, so that all three statistics have to be given. Proved: mean and deviation of the significant superpixels, independent of their order. |
| C175 | Threshold from the histogram of superpixels | partial | `SuperpixelStats` (3 theorems) | False of the code: a histogram largest in the first bin without another peak raises. Proved: the threshold otherwise, Otsu's with another number of peaks, zeros for equal means. |
| C176 | Spherically averaged spectrum of power_spect_fast | partial | `FastSpectrum` (8 theorems) | False of the code: the first bin overlaps the second (log: contains all modes) and with an even number of cells the wave numbers are half a step off. Proved: all bins after the first for odd numbers of cells, the first linear bin as it is, and dimensional_power. |
| C177 | Cylindrically averaged spectrum of power_spect_fast | partial | `FastSpectrum` (5 theorems) | False of the code: modes with one of the wave numbers zero are in no bin; given edges all use the first width and leave a row and a column of nan; the documented scale 'mixed' raises. Proved: each bin has the average over all its modes for odd numbers of cells, and exactly which modes are in some bin. |
| C178 | Windows of power_spect_2d | partial | `FastSpectrum` (6 theorems) | False of the code: the data of the caller are multiplied in place, always along the last axis, and arrays raise an AttributeError. Proved: named windows for the last axis. |
| C179 | Spectrum in wave number and cosine of power_spect_fast | partial | `FastSpectrum` (3 theorems) | False of the code: if all numbers of cells are odd the cosine of the mean (0/0) is dropped before the comparison, so that the cosines of all later modes are those of their neighbours; otherwise the wave vectors are half a step off. Proved: averages and numbers for those wave vectors if a number of cells is even. |
| C180 | Intersection over union of segmented maps | proved | `Metrics` (3 theorems) |  |
| C181 | Dice coefficient of segmented maps | proved | `Metrics` (3 theorems) |  |
| C182 | Precision and recall of segmented maps | partial | `Metrics` (4 theorems) | False of the code: clipping makes every cell a fraction of a prediction, so that with 10^8 cells a single cell found has a precision below 1/10, and an empty prediction has a precision near the fraction of true cells. Proved: the fractions up to 8 n eps divided by the number of cells counted. |
| C183 | r2score of a prediction | proved | `Metrics` (3 theorems) |  |
| C184 | Balanced cross entropy | partial | `Metrics` (3 theorems) | False of the code: the part of the loss that is linear in the logit has the weight 1 - beta for true cells too, so that missed true cells weigh less than they should when they are a minority. Proved: the exact loss, and the cross entropy if no true cell is missed or half of the cells are true. |
| C185 | Images seen with gains | partial | `Gains` (5 theorems) | False of the code: the factor is the square root of the mean of rr + i*ii, products of two real and of two imaginary parts, instead of (rr + ii) + i(ir - ri). Gains of 2 scale the image by 2 instead of 4, and a common phase of 90 degrees, which should not matter, scales it by sqrt(2)/2. Proved: one real gain g in all antennas gives /g/ times the image seen through the map of hits, which is right for g = 1. |
| C186 | When gains change | partial | `Gains` (3 theorems) | False of the code: gains are drawn only at steps whose time is an exact multiple of a scale. With int_time=7 and gain_timescale=[10] the gains at 14 s are those of the start. Proved for scales that are multiples of the integration time. |
| C187 | Baselines with gains | partial | `Gains` (3 theorems) | False of the code: amplitudes and phases are used as real and imaginary parts, and complex arrays raise IndexError. Proved for the other forms. |
| C188 | Maps of antenna stamps per time step | partial | `Gains` (2 theorems) | False of the code: with more jobs than time steps (by default more processors than time steps) the step of the range is zero and the call raises. Proved for all other numbers of jobs. |
| C189 | Density field of pkdgrav | proved | `Pkdgrav` (2 theorems) |  |
| C190 | Halo catalogues of pkdgrav | partial | `Pkdgrav` (4 theorems) | False of the code: positions are not wrapped into the box; coordinates of pkdgrav run from -1/2 to 1/2, so that half of the haloes get negative positions. Proved: masses, order, and positions of haloes whose coordinates lie between 0 and 1. |
| C191 | Halo mass function | partial | `Pkdgrav` (3 theorems) | False of the code: the counts per volume are not divided by the width of the bins in ln m, so that the values depend on the number of bins. Proved: bins, centres, counts per volume and their sum. |
| C192 | Smoothed power spectra of pkdgrav | partial | `Pkdgrav` (4 theorems) | False of the code: the window is not centred, so that a power law is shifted by half a window to larger k. Proved: bounds, and the exact shift. |
| C193 | Regions below or above a threshold | partial | `Thresholds` (6 theorems) | False of the code: a value of loc_axis that is not an axis means the last one, and a cell at the threshold belongs to both regions. threshold_triangle of scikit-image is an argument. |
| C194 | Redshifts of the files in a directory | partial | `NameRedshifts` (5 theorems) | False of the code: two xfrac files of one redshift give it twice, and a density file counts if the text before its first n_ is a number. Proved: multiplicities, order and limits otherwise. float is an argument. |
| C195 | Velocities in km/s | partial | `SimReaders` (3 theorems) | False of the code: if the name does not begin with a redshift, all velocities are zero; read_c2ray_files with 'vel' always raises. |
| C196 | Cubes of 21cmFAST | partial | `SimReaders` (3 theorems) | False of the code for axes of 100000 cells and more; proved up to 45000 cells. np.fromstring is taken to work. |
| C197 | Mean subtraction of coeval cubes | partial | `SimReaders` (5 theorems) | False of the code: coeval_21cm_c2ray subtracts the mean of each slice along the last axis, which removes differences between slices; a redshift that is present raises. |
| C198 | Windows of UV maps | partial | `Beams` (4 theorems) | False of the code: the window of noise_map is centred on the frequency -1/2 (even) or -1 (odd number of cells). The windows of scipy are an argument. |
| C199 | Beam of an interferometer | partial | `Beams` (2 theorems) | False of the code: beam_convolve always raises, as the bounds of its last slice are not integers. |
| C200 | Line of the horizon wedge | partial | `Beams` (2 theorems) | False of the code: the module smoothing has no hubble_parameter, so that the returned function always raises AttributeError. |
| C201 | UV coverage of the numba module | partial | `NumbaUV` (4 theorems) | False of the code: the cells are twice too large, and baselines with a long third coordinate are dropped; an empty list raises. numba's compilation is ignored. |
| C202 | Daily observation of the numba module | partial | `NumbaUV` (3 theorems) | False of the code: the first map of the average is that of the unrotated baselines, and the last interval is missing. |
| C203 | Baselines and rotation of the numba module | proved | `NumbaUV` (3 theorems) | Sines and cosines over the real numbers; reading of the file is not modelled. |
| C204 | Step interpolation of light cones | partial | `StepCell` (5 theorems) | False of the code: equal slices raise IndexError, and a random number that lifts the least perturbed value above the least cell spoils the equal steps. Smoothing is an argument. |
| C205 | Sliding sub-boxes of the position-dependent power spectrum | partial | `SlideBoxes` (3 theorems) | False of the code: the step between sub-boxes is rounded, so that the last cells may be in no sub-box (cube of 11, sub-boxes of 4). The power spectrum is an argument that depends on the cells only. |
| C206 | Catalogues of CubeP3M | partial | `CubeP3M` (4 theorems) | False of the code: negative components of the angular momentum become nan, and the redshift zero is refused. Bytes are not modelled; single precision is replaced by real numbers. |
| C207 | Particles of CubeP3M | partial | `CubeP3M` (4 theorems) | False of the code: without a node the constructor reads no particle, and a second read_from_file appends while npart is that of the second. The layout of the file is the one the code expects, six columns. |
| C208 | Names of the package | partial | `Namespace` (4 theorems) | False of the code: t2c.fftconvolve is scipy.signal's, whose result has another shape. The statements are extracted from the syntax trees of all modules; the check of the whole table is evaluated by the kernel. |
| C209 | No global name is missing | partial | `Namespace` (2 theorems) | False of the code for one function of the package (tau_nu_lyA_los with method 'smith2015') and for functions of two modules outside of it. Attributes of modules and names that are bound too late are not part of it. |
| C210 | Calls fit the signatures | partial | `Calls` (4 theorems) | False of the code: seven calls do not fit. The calls are extracted from the syntax trees; the check of the table is evaluated by the kernel, the rules of binding are proved for all signatures and calls. Three calls with * or ** arguments are not in the table. |
| C211 | Suppressing sharp features of UV maps | partial | `SharpFeatures` (8 theorems) | False of the code: the filter mirrors the map at its edges although the map is periodic with the origin in the corner, so the symmetry is lost; and the root of the filtered map is used, so that even a filter without effect changes the map. The method 'binned' is an argument of the model. |
| C212 | Correlation functions of arrays | partial | `CorrFunction` (8 theorems) | False of the code: box_dims None or a list raises with a number of radii; kbins=None takes ten times the radii as edges in wavenumber, which makes the result at two radii zero. The defaults of kbins of the two functions differ (10 and 100). The factor of pi in the radii is C111. |
| C213 | Catalogues of pkdgrav haloes | partial | `PkdgravFiles` (4 theorems) | False of the code: box_dim*hlittle is computed and not used, so that masses are in solar masses, or solar masses over h, only if h is one. |
| C214 | Saving haloes of pkdgrav | partial | `PkdgravFiles` (2 theorems) | False of the code: without verbose the message is that of an unknown extension; .txt with one more character counts as text; without data .npy files are written all the same. |
| C215 | Constants of the package follow the setters | partial | `PackageValues` (4 theorems) | The functions follow the setters after every history. False of the code: the numbers of the package are copies made at the import and never change. |
| C216 | The h-transform smooths out local peaks | partial | `HTransform` (4 theorems) | False of the code: the difference of the image and its reconstruction is used instead of the reconstruction; every peak of the image is a peak of it, for every positive h. |
| C217 | Files of ionisation rates | partial | `IonRates` (6 theorems) | False of the code for old_format, which gives one axis with the closing record marker as a further value, and for names with a second underscore, where four characters of the redshift are cut off. |
| C218 | Response of the power spectrum to large-scale fluctuations | partial | `Response` (3 theorems) | False of the code for a cube2 whose mean is not zero: the mean is not subtracted, so the response to a constant a is 1/a, and sub-boxes with equal spectra have a response that is not zero. |
| C219 | Redshifts of the cubes of a light cone | partial | `CubeInputs` (4 theorems) | False of the code for redshifts given as the name of a file or as a list, which raise: a string has __iter__ in Python 3, and a list is indexed with an array of truth values. |
| C220 | Plots show the data that were asked for | partial | `Plots` (4 theorems) | False of the code for the bins of plot_hist: they are replaced by 30 whenever the caller gives them, for all types of data. |
| C221 | Forest plots | partial | `Forest` (3 theorems) | False of the code for an even number of parameters: the vertical axis that all panels share is inverted once per panel, so that the first distribution is at the bottom. |
| C222 | No read of a local variable before it has a value | partial | `Locals` (3 theorems) | False of the code for 42 functions, each with a way to a read without a value; five of them raise in every run (C222_always).  Proved for the other 446 functions.  Values and conditions are left out, so that for some of the 42 the way needs an argument that the function does not know, and for a few the conditions of the body rule it out. |
| C223 | A function that returns a value returns one in every run | partial | `Locals` (2 theorems) | False of the code for 20 functions, which give None instead of raising for arguments that they do not know (for example _get_k for more than three dimensions, signal_window for an unknown window).  Proved for the other 468. |
| C224 | The compilation of constraints on reionisation is consistent | partial | `Constraints` (7 theorems) | False of the code: the interval of one entry reaches below zero, one history is not monotonic, the redshifts of another are not in order, and the 16th percentile of one model lies above its value at seven redshifts.  The tables are finite and the proofs evaluate them in full. |
| C225 | halo3d makes a Gaussian blob | partial | `Blob` (3 theorems) | False of the code: the squared distance is squared again, so that the blob is a*exp(-d**4/(2*sigma**2)).  Proved: the size, the values at the distances 0 and 1 (and no others) are right, the values fall with the distance and lie between 0 and the amplitude; a zero deviation raises unless the array is empty. |
| C226 | Particles of PKDGRAV3 are read back | partial | `Tipsy` (5 theorems) | False of the code: a file cut off anywhere after its header gives fewer particles than the header says without raising (how many exactly is proved), and a negative number of gas particles takes the rest of the file for gas.  Proved for complete files with anything after them; fewer than 32 bytes raise. |
| C227 | UV maps of a light cone, and the progress of loops | partial | `Progress` (6 theorems) | False of the code: the step of make_uv_map_lightcone is rounded to two decimals before it is multiplied, so that 180 slices are reported to be done to 100.24 per cent and more than 20000 to 0; the reports of get_distorted_dt end at 90.  Proved: the slices, the number of antennas and the errors; reports within half a hundredth per slice of the part before the slice; the reports with numba rise to 100; those of the skewers are the multiples of ten that are passed, once each. |
| C228 | Ionised fractions estimated from the signal | partial | `Estimates` (3 theorems) | False of the code: the estimate takes the mean signal of neutral gas to be 27 sqrt((1+z)/10) mK whatever the cosmology; it is wrong for at least one of any two redshifts, unless the universe holds matter only or everything is ionised.  Proved: exactly when the estimate is right; estimating and averaging commute; the fraction by volume. |
| C229 | Labels and boundaries of superpixels | partial | `Estimates` (4 theorems) | False of the code: boundaries are set to the maximum times a factor and do not stand out if the maximum is not positive; mark=False overwrites the first pixel.  Proved: labels; other pixels unchanged; boundaries above the maximum exactly if it is positive.  Which pixels are boundaries is skimage's. |
| C230 | Edges of the bins of spectra | partial | `Edges` (4 theorems) | False of the code: k without an array passes the assertion and raises AttributeError; the mixed binning may have fewer bins than asked for; for a plane of 2x2 cells the edges fall.  Proved with an array, for wave numbers above the first edge: spacing, limits, order, membership for the mixed binning, agreement with the edges of the spectra. |
| C231 | Visibilities are divided by the root of the number of baselines | partial | `Visibility` (4 theorems) | False of the code: both loops run over the length of the first axis, so the columns beyond it stay zero without an exception.  Proved for square arrays and maps of their shape; for all shapes with enough columns what the result is; fewer columns than rows, or a smaller map, raise IndexError. |
| C232 | Cosmologies may be named | partial | `CosmoNames` (5 theorems) | False of the code: any other text, for instance a misspelt name, gives Planck18, and the message has a literal {} in place of the name.  Proved for the eight names in any case and for objects. |
| C233 | One marker shows the whole complex, whatever the schedule | proved | `CubeMap` (4 theorems) | Loops, simultaneous updates, and workers under every interleaving; the number of ones is the number of all cells of the complex. |
| C234 | The luminosity distance is that of the Friedmann model, in curved space too | partial | `Curvature` (8 theorems) | Holds when q0 = Omega0/2 - Lambda and k is the curvature parameter; without cosmological constant for every k (open, flat and closed).  After set_omega_lambda q0 is stale unless the universe is flat, and distances can be NaN; the default k=0 is off in a definite direction; without cosmological constant a number gives an array. |
| C235 | Running 21cmFAST gives one simulation per redshift | partial | `Fast21cm` (6 theorems) | run_21cmfast_matter raises TypeError for a number; run_21cmfast_coeval raises TypeError for NumPy numbers other than float64. |
| C236 | Padding a lightcone keeps it in the middle and fills the border in the way of the mode | proved | `PadCone` (13 theorems) | The modes median and empty of np.pad are not modelled.  Without planes nothing is checked: neither a negative padding nor an unknown mode raises then (C236_error). |
| C237 | Every cell of a velocity lightcone interpolates the two snapshots around its redshift | partial | `VelocityCone` (4 theorems) | False for boxes whose sides differ: the slice position wraps at shape[1], which for an array of vectors is the first side of the box whatever the axis (C237_false).  C237_partial holds for cubic boxes and along the first axis.  Boxes with a side of length one (squeezed by the code) are not modelled. |
| C238 | A sub-volume of a lightcone is the part asked for, with its redshifts and dimensions | partial | `Subvolume` (6 theorems) | False in three ways: both depths are accepted and the one in MHz is ignored (C238_false_both; the assertion of line 382 never fails), redshifts in decreasing order give an empty sub-volume (C238_false_order), and the third dimension is the depth asked for, not the depth of the slices returned (C238_false_depth).  C238_partial states the rest for increasing redshifts.  cdist_to_z is taken as the exact inverse of z_to_cdist in the theorems; the code interpolates a table. |
| C239 | make_pv_box displaces along the line of sight by the velocities along it | partial | `PvBox` (5 theorems) | False of the code for the second and third axis: velocity_axis is not handed on and stays 0, so the box is displaced along los by the velocities along the first axis (C239_component), and velocities along los have no effect (C239_unmoved).  C239_false proves the claim equivalent to los = 0.  Displacements by whole cells and sums of skewers, as in C44 and C86. |
| C240 | get_zs_list lists the redshifts of the files in increasing order | partial | `ZsList` (4 theorems) | False of the code for redshifts of one digit and files without a redshift in the name: the longest run of digits and dots is then the 3 of xfrac3d, the first of equal length (C240_false).  A name such as xfrac3d_6.45.old.bin makes the whole call raise (C240_raises).  Holds for redshifts of two or more characters, and for densities always.  Patterns with one star and directories without characters special to glob. |
| C241 | Dictionaries come back from the files they were written to | partial | `DictFiles` (11 theorems) | False of the code: a key with a slash comes back as a dictionary within the dictionary (C241_false) or clashes with another key (C241_clash), bytes come back as a string, None raises, a format in capitals is read but not written (C241_capitals), and np.savez appends .npz to other names (C241_target).  Proved: HDF5 for plain keys and kept values at any depth, and the choice of the library for every name and extension.  The contents of the other formats are left to their libraries. |
| C242 | The two erosions agree | partial | `Erosion` (4 theorems) | False of the code for R = 0, where the slice 0:-0 is empty and the result has no cells (C242_false), and for elements wider than 2 R + 1, whose cells beyond the padding count as set (C242_wide).  Proved for R >= 1 and elements within the radius; the second erosion for every element.  The convolution is exact, as in C39. |
| C243 | A corner plot shows every distribution and the true values | partial | `CornerPlot` (7 theorems) | False of the code with corner: the truth value of an array of true values is taken, so two or more raise (C243_false) and a single 0 is not marked (C243_zero); a list shorter than the largest number of parameters raises in corner (C243_short); with the keyword color the legend shows other colours (C243_colour); another backend returns None without an error (C243_none).  Proved otherwise, and for getdist always: the distributions are drawn with falling numbers of parameters, so there is a figure before others are transplanted into it.  How the libraries draw is not modelled. |
| C244 | The augmented segmentation turns with the image | partial | `Orientation` (5 theorems) | False of the code: the table holds 28 of the 48 symmetries of a cube (C244_missing) and is no group, so the prediction does not follow mirror images along the third axis nor any quarter turn (C244_false).  Proved: it follows mirror images along the first two axes and both together for every network (C244_partial); for networks that treat the sides of a plane alike it follows all of them with and without augmentation (C244_even), and then augmentation changes nothing (C244_idle).  Non-cubes raise (C82). |
| C245 | The sides of a triangle have no order | partial | `TriangleSides` (4 theorems) | False of the code for equal sides with different widths: the shell of the first is used for both, so that one order gives a value and the other none (C245_false).  Proved where equal sides have equal widths: any order (C245_partial), and the reversed field (C245_reversed), for every number of cells, even or odd. |
| C246 | A periodic box may be rolled before it is distorted | partial | `Distort` (4 theorems) | False of the code along the line of sight: the padding of the velocities with those of the last cell (np.insert) is discarded, and the particles run from one side of the box to the other, so that the result depends on where the box begins (C246_false).  Proved: rolls across the line of sight (C246_partial), equal lines of sight give equal results whatever the rest of the boxes holds (C246_alike), and linearity in the signal, with the same errors (C246_linear). |
| C247 | Spectra carry the unit of length | partial | `LengthUnits` (4 theorems) | False of the code for power_spectrum_mu: _get_mu leaves out wave numbers below 0.001 in whatever unit, so that a box of 200 Mpc in kpc loses all its large scales (C247_false; every mode is lost in the witness).  Proved for power_spectrum_1d and cross_power_spectrum_1d in all forms of the arguments, errors included (C247_partial, C247_cross), and for power_spectrum_mu while the sides are at most 2000 pi in both units (C247_mu_partial). |
| C248 | The UV map knows the antennas by their relative positions only | partial | `UVDaily` (5 theorems) | False of the code without mirrored baselines, the default: each pair of antennas is gridded once, in the direction given by their order in the list (C248_false).  Proved: translations in all cases (C248_moved), any order with include_mirror_baselines=True (C248_mirror), and, without, that the same calls fail and that on even grids a cell and the opposite one together do not depend on the order, off the Nyquist row and column (C248_partial). |
| C249 | The order of the snapshots and spare snapshots do not change a lightcone | proved | `Lightcone` (3 theorems) | The grid of the output redshifts is taken from the first file of the list, so the cubes are supposed to be of one shape.  C249_twice shows that one cube for each redshift is needed.  The spare snapshots are for explicit z_low and z_high, since the default range is that of the snapshots. |
| C250 | Lightcones of combined and of rearranged boxes | proved | `Lightcone` (3 theorems) | Exact arithmetic; the result of the code is rounded to 32 bits.  All slices are selected before the first is interpolated, so a bad axis and a redshift outside the snapshots in one call may be reported in the other order. |
| C251 | Grids of halo catalogues add up | partial | `HaloGrid` (4 theorems) | The third part is false of the code: the bins span the haloes of the catalogue, not the box, so that the cells of a halo depend on the other haloes (C251_false).  Proved for catalogues which reach equally far in each direction (C251_partial); order (C251_order) and masses (C251_linear) in all cases. |
| C252 | The bispectrum follows the unit of length | partial | `BispectrumUnits` (3 theorems) | False for a box given by one number, although fft_nd takes it as the length of each side: the product of a number is the number itself, so the value carries the unit of an area (C252_number, C252_false).  Proved for a box given by its sides (C252_partial). |
| C253 | Two smoothings can be done in either order | partial | `SmoothOrder` (4 theorems) | False for top-hats of maps with an even number of cells: smooth_tophat repeats the first row and column at the end before it smooths and cuts the last ones off afterwards, so what the second filter repeats is already changed (C253_false, a map of 2x2 cells). Proved for maps with an odd number of cells and for two Gaussian filters of any square map (C253_partial), and for any two kernels with periodic boundaries (C253_circular). With the constant boundary of fftconvolve the order matters too (C253_constant_false). |
| C254 | The dimensionless spectrum is free of units | partial | `DeltaUnits` (4 theorems) | False for maps (k^3 P of a 2-D spectrum carries the inverse of a length: C254_false, 3x3 cells; in general the factor is that of C254_factor) and for mixed bins (the breakpoint is 0.1 in whatever unit and cannot be passed on: C254_mixed_false, 2x2x2 cells). Proved for cubes with linear and logarithmic bins (C254_partial). |
| C255 | A box may be turned before its spectrum is taken | partial | `TurnedSpectra` (5 theorems) | Proved for all spectra without a window. False with a window: apply_window does not know the line of sight and tapers the last axis (C255_window_false, for every taper that is not constant). |
| C256 | A box may be mirrored before its spectrum is taken | partial | `MirroredSpectra` (4 theorems) | Proved for sequences, for cubes and for all arrays with odd numbers of cells. False for maps with even numbers of cells, where _get_k puts the origin between two cells while the transform is shifted to a cell (C256_false). |
| C257 | A constant added to the data shows in the zero mode only | partial | `ConstantSpectra` (5 theorems) | Proved for cubes and for all arrays with odd numbers of cells. False for maps with even numbers of cells, whose zero mode is given a positive wave number by _get_k and falls into a bin (C257_false). |
| C258 | Gaussian smoothing follows the symmetries of the map | partial | `SmoothSymmetry` (3 theorems) | Exchanged rows and columns: proved for all square maps. Mirrored maps: proved for even numbers of cells; false for odd ones, where the smoothed map is moved by one cell (C258_false). |
| C259 | Rays in larger regions are longer | partial | `RayGrowth` (3 theorems) | The order of the histograms is proved in two and three dimensions and the order of the means in two. The means are in the wrong order in three dimensions when a ray does not end within the longest side of the box, since it is not counted (C259_false). |
| C260 | The optical depth grows with the ionised fraction | proved | `TauGrowth` (2 theorems) | For num_points of at least 1. Fractions need not be between 0 and 1. |
| C261 | Interpolated values stay within the range of the cells | proved | `InterpolateRange` (3 theorems) | For order 0 and 1; higher orders need the spline filter of scipy, which is not modelled. |
| C262 | The spectrum in k and mu averages to the spherical one | partial | `MuMean` (2 theorems) | Proved for edges in mu that reach above 1, for the bins in k from 0.001 on, but for a last bin with a mode exactly on its upper edge. False with the bins in mu made from a number: the modes along the line of sight are missing (C262_false). |
| C263 | Neighbouring bins of a spectrum may be merged | proved | `MergedBins` (2 theorems) | The edges are given as an array. |
| C264 | Scores of segmentations rank the predictions | proved | `ScoreOrder` (3 theorems) | For dice_coef along one row, which is what it returns for each row. |
| C265 | remove_wedge_image is a projection | partial | `WedgeAgain` (5 theorems) | For even numbers of cells (odd ones shift the waves, C120_odd_false). The second removal changes nothing only if the filter has the same entry for every wave and the opposite one. |
| C266 | Range, units and gaps of ps_to_corr | proved | `CorrRange` (3 theorems) | Distances given as an array. |
| C267 | UV thresholds one after the other | partial | `ThresholdTwice` (2 theorems) | For UV boxes with the same value for every wave and the opposite one; false of others. |
| C268 | Scores do not depend on the order of the cells or on units | partial | `ScoreCells` (4 theorems) | r2score is the same in other units only up to the regulariser: larger values lower it, by at most epsilon over the scatter of its distance from one. |
<!-- end index -->

## What cannot be expressed

* Floating-point error bounds: the model is exact.
* Physical correctness of fitted constants and of third-party libraries.

## Disagreements between the code and the properties

Every entry names the theorem that refutes the property and the lines responsible.

| id | what the code does | theorem |
|----|--------------------|---------|
| C03 | `EulerCharacteristic` with `n_jobs < -1` creates no task and silently returns 0 whatever the data | `euler_negative_jobs` |
| C06 | `const.OmegaL` is frozen at its import value; `set_omega_lambda` leaves the old `q0` behind | `C06_false`, `C06_false_matter` |
| C52 | `rho_crit_0`, `rho_matter`, `H0cgs` are not recomputed by the setters | `C52_false` |
| C07 | `conv.set_sim_constants` changes globals before raising, and keeps lengths of the old `h` | `C07_false`, `C07_false_hubble` |
| C08 | `data_low = data_high` (lightcone.py 136) is wrong when an output step skips a snapshot interval | `C08_false` |
| C09 | `transition_z = (z_high - z_low)/2` (443) is half the width, not the middle; the slice index uses `shape[1]` whatever the axis (436) | `C09_false_step`, `C09_false_axis` |
| C12 | frequency mode with default `z_high`: the last redshift has no snapshot above it, `min()` of an empty array raises (126) | `C12_false` (for all inputs) |
| C13 | `low_n:high_n` excludes the slice nearest to the upper bound when `high_n - low_n` is odd; the verbose message reads `redshifts[high_n]` beyond the end (422) | `C13_false_upper`, `C13_false_verbose` |
| C14 | `read_cbin` uses three mesh sizes whatever `dimensions` is (helper_functions.py 181-190): 4-D arrays come back without their last axis, 2-D arrays are misread | `C14_false_4d`, `C14_false_2d` |
| C16 | reading with the wrong `binary_format` flag is not detected when the record marker can be taken for a mesh size | `C16_false_header` |
| C18 | `write_to_file(cgs_density=…)` uses `self.conv_factor`, which does not exist (density_file.py 98) | `C18_false` |
| C19 | masses are written as a logarithm but read as masses (source_file.py 70); `mass='lm'` cannot read a written list, both masses cannot read any; `grid_sources` overwrites instead of adding (88) | `C19_false_mass`, `C19_false_modes`, `C19_false_grid` |
| C54 | `write_to_file` assigns its argument before testing it, so the loaded data is lost and nothing is written | `C54_false` |
| C55 | `get_data_and_type` ignores `raw_density` for file names (helper_functions.py 388-392) | `C55_false` |
| C56 | `get_mesh_size` of a temperature file reads three numbers, drops the record marker and returns only two dimensions (helper_functions.py 422-450) | `C56_false` |
| C22 | when the first longest run of digits and dots is not a number (`"halo.catalogue.dat"`), `float` raises instead of returning -1 (helper_functions.py 511) | `C22_false` |
| C53 | `hasattr(x, '__iter__')` holds for strings in Python 3 (lightcone.py 525), directories and text files are never expanded | `C53_false` |
| C57 | `find_idx` clamps in place in the caller's array (helper_functions.py 528-530) | `C57_false` |
| C24 | the roll `-s2 // 2` (fft_functions.py 157) is `-(s2+1)/2` for odd kernels: the smoothed map is moved by one cell along every axis, also by `smooth_gauss` on odd maps and by `smooth_tophat` | `C24_false_odd`, `C24_false` |
| C26 | padded boundaries centre even kernels on cell `s/2 - 1` instead of `s/2` (74, 161); `'mirror'` means `reflect` in torch and `symmetric` in numpy and jax (91, 119, 141) | `C26_false_even`, `C26_false_mirror` |
| C27 | a tophat wider than the map by two or more has a negative lower index, which Python counts from the end: a single cell is left (smoothing.py 101-103) | `C27_false` |
| C28 | `signal_overdensity` tests `los_axis == 0, 1, 2` only; negative axes return `signal - 1` (statistics.py 103-108) | `C28_false` |
| C58 | `smooth_tophat` is moved by one cell (C24) and, on even maps, counts the first row and column twice at the edge (smoothing.py 202-206) | `C58_false`, `C58_false_seam` |
| C59 | `smooth_gauss` takes the kernel size from the first axis; a shorter second axis is enlarged | `C59_false` |
| C60 | `smooth_coeval_tophat` applies a square 2-D kernel in planes that contain one angular axis | `C60_false` |
| C61 | `idx_high` is rounded up and then included (smoothing.py 459-461): the first slice above the window enters the mean | `C61_false` |
| C62 | `np.convolve(mode='same')` takes the line as 0 beyond its ends and returns the length of the longer argument; Hamming and Hanning windows are not normalised; integer windows raise | `C62_false_ends`, `C62_false_long`, `C62_false_hamming`, `customWindow_spec` |
| C63 | `apply_func_along_los` counts `shape[los_axis]` values but slices axis `los_axis + 1` of vector fields (statistics.py 138-141, 166-170) | `C63_false` |
| C29 | On odd grids `fftshift` moves the zero baseline to the last cell instead of `[0, 0]` (`ifftshift` is needed) | `UVGrid.C29_false`, `gridUV_odd` |
| C65 | The mirrored map is not point symmetric in the Nyquist row of even grids (the mirror image is dropped) and on odd grids | `UVGrid.C65_false_nyquist`, `C65_false_odd` |
| C66 | Two antennas: `squeeze` removes the baseline axis and `grid_uv_tracks` raises; hour angles of slices 1..T are not centred | `UVGrid.C66_false_two_antennas`, `C66_false_centred` |
| C68 | `ecef_to_xyz` documents X as east; east is Y | `UVGrid.C68_false_xyz` |
| C31 | A crash while the cache is written leaves a file that every later call refuses; `.json`/`.yaml` caches always end like this; caches without recorded parameters are accepted | `UVCache.C31_false_torn`, `C31_false_format`, `C31_false_unrecorded` |
| C32 | Redshifts that agree to three decimals share one map | `UVCache.C32_false`, `C32_false_witness` |
| C33 | Positions are written to compacted rows, so all rows after a baseline outside the grid belong to another pair | `Calibration.C33_false` |
| C34 | More jobs than time steps: chunk size 0, `range` raises | `Calibration.C34_false` |
| C35 | Odd grids: the map is displaced by one cell; the wavenumber axis is stretched and off centre, so cells inside the cut are removed and cells beyond it kept | `Calibration.C35_false_odd`, `C35_false_cut` |
| C70 | `earth_rotation_effect` receives the declination as `total_int_time` and always uses -30 degrees | `Calibration.C70_false_declination`, `C70_false_default` |
| C36 | 3D rays are followed for as many steps as the longest side, shorter than the diagonal: in a fully ionised box rays are counted in no bin and the "normalised" curve does not sum to one | `RaySizes.C36_false_3d` |
| C37 | `set(possibilities)` exhausts the `zip` iterator: `FoF_search` always returns an empty map and no sizes | `RegionSizes.C37_false` |
| C38 | Box entirely above the threshold: the first region is dropped instead of the background | `RegionSizes.C38_false` |
| C39 | Even-sized or asymmetric elements displace the image; `structure=None` raises instead of using a cross | `Morphology.C39_false_even`, `C39_false_asymmetric`, `C39_none` |
| C72 | The area of the opening can grow with the radius (disc of radius 3: 25 cells at radius 2, 29 at radius 3), the spectrum is then negative | `Morphology.C72_false` |
| C74 | No region of interest and threshold above 1: `randint(0, 0)` raises | `RaySizes.C74_false` |
| C75 | The radii are computed from the label numbers instead of the counts | `RegionSizes.C75_false` |
| C76 | Box of four cells: all radii coincide, each cell is counted at all of them | `RegionSizes.C76_false` |
| C77 | Only the image displaced along all three axes is labelled | `RegionSizes.C77_false` |
| C41 | `halo_mass_to_particle_number` calls the mass function with a mass as particle number and returns a mass | `Conversions.C41_false_halo` |
| C78 | `np.zeros_like` keeps the integer type: distances at integer redshifts are truncated to whole Mpc in every cosmology | `Conversions.C78_false_distance` |
| C78 | The age at an integer redshift is zero | `Conversions.C78_false_age` |
| C79 | After `set_omega_lambda` the luminosity distance (stale `q0`) and the comoving distance disagree | `Conversions.C79_false_lambda` |
| C80 | `cdist_to_z` of a single distance raises from redshift about 29 on (fewer than four table points in the window), documented up to 100 | `Conversions.C80_false` |
| C81 | `kelvin_2_jansky` returns micro-jansky, not jansky | `Conversions.C81_false` |
| C42 | `_get_padded_slice` raises for a padded size beyond twice the slice (two or more cells) | `Padding.C42_false` |
| C82 | `prediction` loops over the first side only: further planes of a non-cubic image are averaged as zeros | `Augment.C82_false` |
| C45 | With equal redshifts the result of `tau` depends on the order of the input | `Tau.C45_false` |
| C83 | After `set_omega_lambda` the optical depth to redshift zero is not zero and can be negative (the subtracted 1 assumes a flat universe) | `Tau.C83_false` |
| C83 | `num_points=0` starts the loop at the last redshift: the first value is negative | `Tau.C83_false_points` |
| C84 | `tau_map` does not sort the redshifts as `tau` does: its optical depth can decrease | `Tau.C84_false` |
| C85 | `set_hubble_h` and `set_abundance_helium` leave the Thomson coefficient unchanged | `Tau.C85_false`, `Tau.C85_stale` |
| C44 | A displacement beyond one box length is wrapped once only and its signal dropped | `Distort.C44_false_far` |
| C44 | `periodic=False` (advised for lightcones) drops what leaves the box | `Distort.C44_false_open` |
| C44 | An integer box is truncated (`zeros_like`) and loses its signal | `Distort.C44_false_int` |
| C44 | The requirement of equal perpendicular sides is asserted for any two sides: part of the box is returned as zero, or IndexError | `Distort.C44_false_sides`, `Distort.C44_raises` |
| C86 | The last particle sits on the far edge of the box and lands one cell too far | `Distort.C86_false` |
| C47 | `False` is returned although all selected haloes were read, if any line follows | `Halo.C47_false_flag` |
| C47 | The mass compared is `vals[-3]`, the mass stored `vals[16]`: with the 22 columns the reader expects these differ | `Halo.C47_false_columns` |
| C47 | `max_select_mass=0` raises UnboundLocalError | `Halo.C47_raises_zero` |
| C47, C87 | `HaloRockstar` with a limit reads no halo and returns True (`len > max_select_number` inverted) | `Halo.C87_limit`, `Halo.C47_false_rockstar` |
| C87 | `HaloRockstar.read_from_file` does not empty the list of haloes | `Halo.C87_false_again` |
| C87 | The error for a wrong extension is created but not raised | `Halo.C87_raises` |
| C49 | Labels are used as positions in the array of counts: other labels than 0..k-1 raise or mix the superpixels | `Superpixels.C49_raises`, `Superpixels.C49_false`, `Superpixels.C49_map_false` |
| C88 | `if not thres` replaces a threshold of zero by the mean of the data | `Superpixels.C88_false` |
| C88 | Labels from one raise IndexError | `Superpixels.C88_raises` |
| C89 | `get_superpixel_sigmas` uses `np.std` without Bessel's correction, which the pooling formula assumes | `Superpixels.C89_false` |
| C90 | Overlaps of all objects above the threshold are counted for the same superpixel, minus one full size only: negative error | `Superpixels.C90_false` |
| C51 | Positions in the filtered array of redshifts are used in the unfiltered list of files: for every directory a wrong snapshot is read | `Coeval.C51_false`, `Coeval.C51_false_order` |
| C51 | A redshift that is present raises TypeError (list indexed with an array) | `Coeval.C51_raises` |
| C51 | `coeval_vel`: a parameter shadows the function it should call | `Coeval.C51_raises_velocity` |
| C91 | The dilution factor is inverted | `Coeval.C91_false` |
| C91 | Files in increasing redshift: another snapshot is scaled | `Coeval.C91_false_order` |
| C50 | On even grids in one and two dimensions `k` is half a step off the modes of the FFT, no mode has `k = 0` | `PowerSpectrum.C50_aligned_false` |
| C94 | Modes along the line of sight (`mu = 1`) are never counted: the last bin is half open, `exclude_zero_modes` has no effect | `PowerSpectrum.C94_false_los`, `PowerSpectrum.C94_exclude` |
| C94 | Modes with the largest `k` are dropped | `PowerSpectrum.C94_false_last` |
| C94 | Modes with `k < 0.001` are dropped whatever the edges | `PowerSpectrum.C94_false_large` |
| C94 | On odd grids the modes along the line of sight are not excluded | `PowerSpectrum.C94_false_odd` |
| C94 | Documented exclusion of modes with any zero component: only those with both components across zero | `PowerSpectrum.C94_false_any` |
| C94 | A list of `mu` edges and weights raise | `PowerSpectrum.C94_raises` |
| C95 | An array as `box_dims` raises, a list as `kbins` raises | `PowerSpectrum.C95_false_array`, `PowerSpectrum.C95_false_edges` |
| C96 | The window is multiplied into the array of the caller | `PowerSpectrum.C96_false` |
| C96 | A window given as an array raises | `PowerSpectrum.C96_raises` |
| C97 | The documented list of two numbers of bins raises | `PowerSpectrum.C97_false` |
| C97 | Fewer than four cells along the line of sight, or a negative axis, raise | `PowerSpectrum.C97_raises` |
| C50 | In one dimension `k` has a sign and the modes below zero are never counted | `PowerSpectrum.C50_false_line` |
| C98 | `mean_dt` does not follow `set_omega_baryon` and `set_abundance_helium` and follows `set_hubble_h` the wrong way | `Temperature.C98_false` |
| C99 | A negative density in one cell changes the signal of all others | `Temperature.C99_false` |
| C100 | Without a redshift, arrays and objects of the file classes raise a type error | `Temperature.C100_false` |
| C101 | `los_axis` of `calc_dt_lightcone` is ignored for cubes; other shapes raise | `Temperature.C101_false`, `C101_ignored`, `C101_raises` |
| C102 | Completely ionised cells at 20000 K or more give no number | `Temperature.C102_false` |
| C102 | `calc_dt_full_lightcone` uses the average redshift for all slices | `Temperature.C102_lightcone_false` |
| C103 | `calc_dt_halo` has the wrong cell volume unless the mesh is cubic | `Temperature.C103_false` |
| C104 | Fields in three dimensions with odd numbers of cells have the power of other modes: `fftshift` is not its own inverse | `RandomField.C104_false` |
| C104 | Planes with even numbers of cells: the wave numbers of `_get_k` are off by half a cell | `RandomField.C104_false_plane` |
| C105 | `betti2` counts the surroundings as a cavity, so a single cell has Betti numbers 1, 1, 1 | `Topology.C105_false`, `C105_false_outside` |
| C105 | Empty and full boxes have one tunnel | `Topology.C105_false_trivial` |
| C105 | `neighbors=26` does not join cells with a common corner | `Topology.C105_false_corner` |
| C105 | `betti0` changes when the data are rolled, `EulerCharacteristic` does not | `Topology.C105_false_rolled` |
| C106 | Two neighbouring cells count as a percolation cluster | `Topology.C106_false` |
| C106 | Only the region labelled first is examined; also the documented -1 is never returned | `Topology.C106_false_first` |
| C107 | With two clusters, cells of the upper cluster below the mean of the two maxima are marked | `Identify.C107_false` |
| C108 | `fftconvolve(lightcone, tophat3d)` runs in mode `'full'`: a channel averages slices on its high-frequency side only, and the first channels are too faint | `Binning.C108_false` |
| C109 | `output_redshifts` has one entry more than there are slices unless the cells fit exactly | `Binning.C109_false` |
| C109 | Slices within half a tophat of the ends lose signal | `Binning.C109_false_edge` |
| C110 | Lightcones that reach to more than about twice their lowest comoving distance raise, because the padding repeats the box at most once | `Angular.C110_false` |
| C111 | `np.sinc(k*r)` is `sin(pi k r)/(pi k r)`: the correlation function is returned at `pi r` for radius `r` | `C111_false` |
| C111 | a number of bins without a box size raises although the current box should be used; a list of radii raises | `C111_raises` |
| C112 | `np.histogram` is given the array of index pairs from `query_pairs`, so DD and RR count indices | `C112_false`, `C112_indices` |
| C112 | bin edges given as an array raise (`rmax` is undefined) | `C112_raises` |
| C113 | `T_sys` and `ep_aperture` both numbers: a single frequency raises (a float is indexed), several frequencies give one number | `C113_false` |
| C114 | the noise map is tapered with a Blackman-Harris window, so that its rms is below the `sigma` of `sigma_noise_radio` | `C114_false` |
| C114 | `fft_wrap=True` slices with floats and raises; `suppress_sharp_features_uv_map=True` calls `lower` on a bool | `C114_false` |
| C115 | `noise_cube_lightcone` passes `N_ant` to `noise_lightcone`, which has no such parameter: 21 positional arguments for 20 parameters | `C115_false` |
| C115 | `noise_lightcone` of one redshift takes the difference of the redshift to itself as bandwidth and divides by zero | `C115_false` |
| C116 | `noise_coeval_power_spectrum_1d` does not use `obs_time` | `C116_false` |
| C116 | UV cells without visibilities make the bins above them infinite or not a number | `C116_false`, `C116_empty` |
| C116 | uniform weighting raises, since the noise is a number and not a map | `C116_false` |
| C117 | for UV maps without mirrored baselines, waves which are not sampled survive at half their amplitude | `C117_false` |
| C117 | without `uv_map` the map is made for the last axis, and other boxes than cubes raise | `C117_coeval_raises` |
| C118 | the cut of `max_baseline` is not symmetric: of two opposite cells at the cut one is kept | `C118_false` |
| C118 | for odd numbers of cells `max_baseline` rolls the UV map by one cell | `C118_odd_false` |
| C118 | `max_baseline_to_max_k` returns half the wave number of the baseline | `C118_half` |
| C119 | `robust` of the Briggs weights runs from natural to uniform instead of the other way | `C119_false` |
| C120 | the default filter keeps the foreground wedge and removes the modes along the line of sight | `C120_false` |
| C120 | for odd numbers of cells `remove_wedge_image` multiplies the cube by a cosine | `C120_odd_false` |
| C120 | `diabolo_filter(ncells=...)` and `barrel_filter` raise | `C120_raises` |
| C121 | `rr**2**0.5` is `rr**(2**0.5)`: the sigmoid beam is a function of the distance to the power 1.414 | `C121_sigmoid_false` |
| C121 | for odd numbers of cells the centre of the beam lies between two cells; a narrow step beam has no cell inside and becomes NaN | `C121_odd_false`, `C121_step_false` |
| C121 | `primary_beam` of a 2-D array ignores `l_null` | `C121_null_false` |
| C121 | `l_null` is called a diameter, and used as one by the step and sigmoid beams, but is the radius of the first null of the Bessel beam | `C121_step`, `C121_bessel` |
| C121 | with `nu_axis` other than 2, arrays which are not cubes raise, as `beam` has the shape before the swap; a list of redshifts raises; too few redshifts blank the remaining slices | `C121_raises`, `C121_lightcone` |
| C122 | the map is the modulus of the complex field: no pixel is negative and the mean is positive, so that the fluctuations are not those of the requested spectrum | `C122_false` |
| C122 | odd `ncells` give NaN: the mode at zero has infinite power; an integer `z` raises | `C122_raises` |
| C123 | sources in the same pixel overwrite each other | `C123_false` |
| C123 | fluxes are drawn uniformly from the grid instead of in proportion to the counts | `C123_flux_false` |
| C124 | the taper moves power of waves outside of the wedge into it: with chunks of 4 channels less than a third of the amplitude is left | `C124_false` |
| C124 | the slope of the wedge of channel `i` is that of channel `i + chunk_length/2 - 1` | `C124_slope_false` |
| C124 | odd `chunk_length` raises; the default, the least axis, may be odd | `C124_raises` |
| C125 | with an odd number of cells the second `fftshift` does not undo the first: the triples summed have `p+q+r = 3` modulo the grid along that axis; on `5³` cells no number for right-angled triangles | `C125_any`, `C125_false` |
| C125 | sides above two thirds of the Nyquist wave number: triples closing modulo the grid are counted as triangles | `C125_alias_false` |
| C125 | for equal sides the width of the second and third shell is ignored | `C125_width_false` |
| C125 | `box_dims` as a number is taken for the volume | `C125_number_false` |
| C125 | `spherical_shell_mask(k_comp=...)` compares the square of the wave number | `C125_mask_false` |
| C125 | `bispectrum_k1k2` and `bispectrum_k` raise UnboundLocalError | `C125_raises` |
| C126 | `value_on_grid` calls `binned_statistic_dd` without a range (line 251): the bins span the haloes and not the box, so that `box_dim` has no effect, moving all haloes has no effect and a single halo is put in the middle of the grid | `C126_box_false`, `C126_single_false`, `C126_false` |
| C126 | The unit of the positions is looked for in the masses (line 311): masses with a unit and positions without raise an AttributeError | `C126_raises` |
| C127 | `halo_mass_on_grid()` takes `self.pos_grid` for the masses (line 259); the masses set before are never used and the call raises | `C127_false` |
| C127 | `halo_value_on_grid` drops the cells with negative totals (line 278), for instance of velocities | `C127_negative_false` |
| C127 | The default `unit=None` of `set_halo_pos` and `set_halo_mass` raises; an unknown unit of mass leaves the masses unset | `C127_raises` |
| C128 | The pivot mass is `10^11 h` (`Mh/hlittle/1e11`, line 70) and not `10^11/h` of the recipe: all masses of hydrogen are too small by `h^1.16`, less than two thirds | `C128_false`, `C128_factor_false` |
| C128 | The circular velocity (line 68) has `Omega_m/54.4` instead of `Omega_m h^2/24.4`: it does not depend on `h` and is right for `h = 0.67` only | `C128_velocity_false` |
| C128 | The unit of the positions is looked for in the masses (line 51): masses with a unit and positions without raise | `C128_raises` |
| C129 | A dictionary as `SFR`, which the documentation allows, is called like a function and raises a TypeError (line 162) | `C129_false` |
| C130 | `Muv_to_muv` adds the distance modulus without its unit (line 89): numbers and quantities raise | `C130_false` |
| C130 | `Muv_to_L1500` reads the undefined local variable `Muv` (line 144) and always raises | `C130_luminosity_false` |
| C130 | `FoV_cMpc2` takes numbers for square radians (line 32), documented are square degrees | `C130_field_false` |
| C130 | `muv_to_Muv` and `mag_to_flux` raise for arrays | `C130_array_false` |
| C131 | `paint_kernel` adds the rolled cube, which contains the cube, to the cube: everything is doubled at every position. The threshold hides this for zeros and ones, but a cell of value 0.3 outside all bubbles becomes ionised, and the array given by the caller is left with values of two | `C131_paint_false`, `C131_grey_false`, `C131_argument_false` |
| C131 | bubbles wider than the box but smaller than the target volume raise ValueError (n = 10, r = 5, x_ion = 0.6) | `C131_size_false` |
| C131 | 'non-overlapping' uses a distance which is not periodic, but the bubbles are painted periodically: they overlap across faces | `C131_overlap_false` |
| C132 | `k` is documented as array-like; a list raises TypeError in `k**(3./2.)` | `C132_list_false` |
| C133 | `power_spectrum_multipoles` never returns: `_get_mu(k_comp, k, los_axis)` misses the argument `absolute_mus` (TypeError). Behind it `nmodes` would be the number of dimensions and the multipoles would not be orthogonal on a bin | `C133_false`, `C133_raises`, `C133_mixing_false` |
| C134 | between fine bins a flat spectrum is overestimated; next to a fine bin without modes the value is NaN, which is common since ten times as many bins are used as asked for | `C134_bias_false`, `C134_nan_false` |
| C135 | `return_n_modes=True` raises ValueError: four values are unpacked into three names | `C135_modes_false` |
| C136 | The probability at a radius is that of the *previous* volume: the first radius gets a thousandth of the smallest share although its volume gets the share of the first bin. | `C136_false` |
| C136 | With the default dummies both distributions add up to more than one. | `C136_sum_false` |
| C136 | For regions of one size volumes and radii both span a factor of ten, so the radii are not those of the volumes. | `C136_same_false` |
| C136 | `get_distribution` multiplies volumes by `resolution`, not its cube. | `C136_resolution_false` |
| C137 | Regions of sizes 1 and 999 in one bin fill a box of 1000, but are given as a fraction of 0.002. | `C137_false` |
| C138 | A slice with an even number of cells of the right size is resampled to one more cell and cut, instead of being left as it is. | `C138_even_false` |
| C139 | `cartesian_to_geographic_coordinate_system` raises for plain arrays (AttributeError) and for positions in metres (UnitConversionError), and multiplies the unit of its argument by metres in place. | `C139_false`, `C139_false_twice` |
| C140 | Any unknown name of a subarray returns the old SKA1 layout; `unit='latlon'` always raises UnboundLocalError. | `C140_false`, `C140_false_geodetic` |
| C141 | `make_gaussian_random_field_like_field`: modes of the smallest wave number 2π/l lie below the first bin centre and get zero power. | `C141_false` |
| C142 | `fourier_phase_shuffled` changes the power spectrum: symmetry of the phases is not kept; `fftshift` is used where `ifftshift` is needed, so odd sizes lose the mean; and the documentation describes another function. | `C142_false`, `C142_odd_false`, `C142_amplitude_false` |
| C143 | `tau_nu_lyA_los`: for `los_axis` other than 2 the result has its axes exchanged and is computed with an overdensity that was not exchanged; windows longer than 2n+1 cells are filled up with too few cells; `los_len` is rounded before its unit is converted; method 'smith2015' calls an undefined function. | `C143_false_axis`, `C143_false_long`, `C143_false_unit`, `C143_raises` |
| C145 | `lyA_scattering_cross_section` (and `tau_nu_lyA`): the Doppler width is ν√(kT/mc²) instead of ν√(2kT/mc²), so that the cross section integrates to less than 0.0079 instead of 0.011 cm² Hz. | `C145_false` |
| C146 | `tau_nu_lyA` does not use its redshift. | `C146_false` |
| C147 | `_calculate_base_metrics` raises ValueError for every distribution of one parameter (`np.diag` of a 0-d array), although `plot_forest` provides for it. | `C147_false` |
| C148 | Quantiles interpolate the cumulative weight that includes the sample itself: the median of {0, 1} is 0, of {0, -1} is -1; the 68 per cent interval of two samples holds half of the weight; the PIT below all samples is the first weight; tied samples with different weights give different limits in different order. | `C148_false`, `C148_reflection_false`, `C148_pit_false`, `C148_order_false` |
| C149 | Sigmas of a chain with multiplicities differ from those of the expanded chain. | `C149_false` |
| C150 | A single true value is broadcast to all parameters. | `C150_false` |
| C151 | A distribution added without a label takes the name "Distribution n+1" even if the caller used that name, and replaces it. | `C151_false` |
| C152 | A grid of 2 x 8 cells is accepted with 4 coordinates; the variance of a uniform distribution on four corners is stored as 1/3 instead of 1/4. | `C152_false`, `C152_cov_false` |
| C153 | `plot_triangle` raises TypeError with `param_names=None` (the default) because of `show_stats=True`; weights are divided in place; the error printed after the plus sign can be negative. | `C153_default_false`, `C153_weights_false`, `C153_false` |
| C154 | the product with the map is not Hermitian for a map without mirror symmetry, `np.real` leaves half of the amplitude (smoothing.py 500) | `C154_false` |
| C154 | `return ValueError(...)` instead of `raise`; the test also refuses integers (smoothing.py 492-494) | `C154_refused_false` |
| C155 | the map is divided by its maximum after the cut (smoothing.py 544-546) | `C155_false` |
| C156 | without `uv_map` the name `array` is numpy's function: AttributeError; `max_baseline=None`: TypeError (smoothing.py 575-582) | `C156_default_false` |
| C156 | `np.array` over the slices puts the frequency first; the swap back is only done for axes 0 and 1 (smoothing.py 585-594) | `C156_false` |
| C157 | `z_array.shape` of a number raises AttributeError although a float is documented (smoothing.py 357) | `C157_false` |
| C157 | the kernel has the size of the first axis of a slice; a shorter second axis gives a larger result (smoothing.py 479) | `C157_shape_false` |
| C158 | The array of the phase above the threshold is boolean, so scipy stores the counts as 0 or 1, which never equal the size of a structuring element: a bubble has the genus 1 (a hole has 0). | Verif.Genus.C158_false |
| C158 | A hole one cell wide has the genus 1 (the elements need a width of two cells). | Verif.Genus.C158_thin_false |
| C158 | Only 8 of the 24 orientations are counted: the genus of an L-shaped hole is -1/4 or -1/8 depending on the axis of its thickness. | Verif.Genus.C158_shape_false |
| C161 | The result of smooth_lanczos is displaced by one cell (odd sizes) or half a cell (even sizes) | C161_false, C161_displaced |
| C161 | The coordinates of the Lanczos kernel are stretched by n/(n-1), so that the weights at a distance of one cell are not zero | C161_scale_false |
| C162 | The default order=0 of interpolate2d and interpolate3d, documented as linear interpolation, returns the nearest cell | C162_default_false, C162_nearest |
| C162 | Beyond the last cell the coordinates repeat with the period n-1: coordinate n is cell 1 | C162_periodic_false, C162_wrap |
| C163 | After fit(X, y, cv=n) every fit(X, y) and fit_predict(X, y) of the object uses splits as well | C163_false, C163_persists |
| C164 | The triangles of bispectrum_equilateral are not equilateral: the third side is sqrt(3) k (the angle between the vectors should be 2 pi/3) | C164_false |
| C164 | The default box_dims=None of bispectrum_equilateral raises a TypeError | C164_raises |
| C165 | The phase is arctan(b/a): modes with negative real part come back with the opposite sign | C165_false, C165_opposite |
| C165 | Modes that vanish give nan | C165_nan |
| C166 | filetype is ignored when the name has an extension of an earlier branch; np.save appends .npy to other names; 'FITS' is not accepted although 'PKL' is | C166_false, C166_ignored, C166_filetype |
| C166 | FITS files raise an UnboundLocalError without pyfits | C166_fits |
| C167 | Without pyfits save_fits raises an UnboundLocalError and read_fits looks in the test data of astropy | C167_false |
| C167 | read_fits(header=False) returns the header all the same | C167_header_false |
| C168 | smooth_gauss_3d returns the full convolution: longer by n-1 cells along every axis (n the first length) and displaced by n/2 | C168_false, C168_partial |
| C168 | fwhm=0 gives nan | C168_nan |
| C169 | The window 'ball' is a cylinder along the third axis | C169_false, C169_cylinder |
| C169 | Renyi_diemsnions passes floating point sizes and always raises a TypeError | C169_renyi_false |
| C170 | mfp_from_point does not check a 3D point given as numpy integers and returns a distribution for a point outside of the region | C170_false |
| C170 | Without a region and with a threshold above 1 None is returned instead of zeros | C170_empty |
| C171 | Points of single-cell regions have mean length 0 and are left out; if there are no others the density is nan | C171_false |
| C171 | Points whose rays are all longer than the longest side are left out | C171_lost |
| C171 | Without a region and with a threshold above 1 a ValueError is raised | C171_empty |
| C172 | The default limits of rebin_bsd are min+1 and max-10 in whatever unit: both ends are cut, nan below 10, ValueError for ranges shorter than 10 | C172_false, C172_nan, C172_raises |
| C172 | A list of one size raises a TypeError | C172_single_false |
| C173 | get_superpixel_SNRs(pixels=True) raises a TypeError for all inputs | C173_false |
| C174 | mean_estimate without means, sigmas or n_pix calls slic with None | C174_false |
| C175 | A histogram that falls from its first bin raises a ValueError (argmax of an empty array) | C175_false |
| C176 | The first bin is wider than the others and its modes are counted twice; with log and odd numbers of cells it has all modes; with even numbers of cells the wave numbers are those of points half a step from the modes | C176_false, C176_log_false, C176_even_false |
| C177 | Modes with kpar = 0 or kperp = 0 are in no bin; given edges: all widths are the first one, last row and column nan; 'mixed' raises UnboundLocalError | C177_false, C177_edges, C177_raises |
| C178 | The window is multiplied into the caller's array, always along the last axis; arrays as windows raise AttributeError | C178_false, C178_axis_false, C178_array_false |
| C179 | With odd numbers of cells the cosines are shifted by one after the mean | C179_false |
| C182 | precision and recall of few cells among many are far too small; of an empty prediction the precision is nearly the fraction of true cells | C182_false, C182_empty_false |
| C184 | The loss of missed true cells is weighted with 1 - beta instead of beta | C184_false, C184_exact |
| C185 | The response to gains is the square root of rr + i*ii: gains of 2 scale an image by 2 and not by 4, common phases change it | C185_false |
| C186 | Gains are renewed only at steps that are exact multiples of a time scale | C186_false |
| C187 | Amplitude and phase are used as real and imaginary part; complex arrays raise | C187_false, C187_raises |
| C188 | More jobs than time steps raise ValueError | C188_false |
| C190 | Positions of haloes are not wrapped into the box and may be negative | C190_false |
| C191 | get_hmf_data returns counts per volume, not m dn/dm | C191_false |
| C192 | The moving average of power spectra is not centred and shifts power laws | C192_false, C192_exact |
| C193 | Unknown values of loc_axis mean the last axis; cells at the threshold are in both regions | C193_false, C193_false_both |
| C194 | Redshifts appear once per file, and badly named density files count | C194_false_twice, C194_false |
| C195 | Files without a redshift in the name give velocities of zero; read_c2ray_files cannot read velocities | C195_false, C195_false_reader |
| C196 | Cubes with axes of 100000 cells are refused | C196_false |
| C197 | coeval_21cm_c2ray subtracts the mean slice by slice | C197_false |
| C198 | The window of noise_map is not centred on the zero frequency | C198_centre, C198_false |
| C199 | beam_convolve always raises | C199_false |
| C200 | horizon_wedge_equation returns a function that always raises | C200_false |
| C201 | UV cells of the numba module are twice too large; long third coordinates drop baselines | C201_false, C201_false_w |
| C202 | The unrotated baselines are part of the average | C202_false |
| C204 | Slices without a change raise IndexError; steps are not equal once random numbers lift the smallest value | C204_false, C204_false_even |
| C205 | Sub-boxes do not cover the cube when the rounded step does not fit | C205_false |
| C206 | Negative angular momenta become nan; redshift zero counts as none | C206_false, C206_false_zero |
| C207 | The constructor without a node reads nothing; reading twice appends. (Not proved: CubeP3M writes six numbers per particle, the code reshapes with order='F' as if there were six columns.) | C207_false, C207_false_again |
| C208 | t2c.fftconvolve is that of scipy.signal (imported by box_counting), not the periodic one of fft_functions | C208_false, C208_false_shape |
| C209 | tau_nu_lyA_los calls tau_nu_lyA_Smith2015, which does not exist; names of Python 2 and a missing import in Friends_of_Friends and lyman_alpha_coupling | C209_false |
| C210 | power_spectrum_multipoles, noise_cube_lightcone, convolve_uvmap, convolve_uvmap_coeval, freq_box, Lya_coupling_coeff and Lya_coupling_coeff_ call functions with arguments that do not fit their signatures | C210_false |
| C211 | the smoothed map is the root of the filtered one (rescaled), and the filter mirrors instead of wrapping, which breaks uv[i,j] = uv[-i,-j] | C211_false, C211_false_narrow |
| C212 | box_dims=None and lists raise TypeError with a number of radii; kbins=None with an array uses the radii as wavenumbers | C212_false, C212_false_edges |
| C213 | read_pkdgrav_fof_halo_catalogue ignores hlittle | C213_false |
| C214 | save_fof_data with verbose=False says that the extension is unknown though the file is written; names and data are not checked | C214_false |
| C215 | t2c.h, t2c.H0, t2c.boxsize, t2c.LB ... keep the values of the import, so that t2c.Hz(0) differs from t2c.H0 after set_hubble_h | C215_false, C215_false_inconsistent |
| C216 | h_transform returns the domes, which keep every peak of the image, so that h removes no marker of watershed_bsd | C216_peaks, C216_false |
| C217 | old_format gives a one-dimensional array whose last value is the closing record marker; IonRates3_10.110_v2.bin has z = 10 | C217_false, C217_false_redshift |
| C218 | power_spectrum_response does not subtract the mean of cube2: the response to a constant a is 1/a | C218_false |
| C219 | file_redshifts given as a file name or as a list raises, although documented ('str or array-like') | C219_false |
| C220 | plot_hist never uses the bins of the caller: the else branch sets 30 | C220_false |
| C221 | plot_forest inverts the shared axis once for each parameter, so the order of the rows is reversed for even numbers only | C221_false |
| C222 | Muv_to_L1500, Bispectrum.bispectrum_k1k2, Bispectrum.bispectrum_k, _get_xc and phase_spect_nd read a local variable that has no value in every run; HaloRockstar.get, HaloCubeP3M.get and HaloCubeP3MFull.get do when called without the name of a quantity | C222_false, C222_always |
| C223 | averaged_mfp, mfp_from_point, M_HI_on_grid, L_CII_on_grid, mfp3d, mfp2d, the functions of model_21cmfast, Halo2Grid.halo_mass_on_grid and halo_value_on_grid, array_fof_data, plot_triangle, plot_corner, both _get_k, from_antenna_config_with_gains, get_latest_SKA_Low_layout and signal_window give None for some arguments | C223_false |
| C224 | the interval of Yang+2020 at z=6.2 reaches below zero | C224_false |
| C224 | the history of Hutter+2025 falls with the redshift at three places | C224_false_history |
| C224 | the lower errors of the model of Qin+2025 are positive at seven redshifts | C224_false_errors |
| C224 | the redshifts of the history of Garaldi+2022 go back up at three places, so that the list is not in order (the plot in the file sorts them, `np.interp` would not) | C224_false_order |
| C225 | halo3d squares the squared distance: a*exp(-d**4/(2*sigma**2)) instead of a Gaussian | C225_false |
| C226 | a file cut off after its header is read without an error, with fewer particles than its header says | C226_false |
| C227 | make_uv_map_lightcone reports more than 100 per cent (180 slices) | C227_false |
| C227 | make_uv_map_lightcone with more than 20000 slices always reports 0 per cent | C227_false_zero |
| C228 | xfrac_mass_estimate assumes a mean signal that calc_dt does not use | C228_false |
| C229 | boundaries do not stand out in a slice whose maximum is not positive | C229_false |
| C229 | boundaries with mark=False overwrites the first pixel | C229_false_first |
| C230 | get_kbins with k but without an array passes the assertion and raises AttributeError | C230_false |
| C230 | the mixed binning makes one bin where two are asked for | C230_false_mixed |
| C230 | the edges for a plane of 2x2 cells fall | C230_false_small |
| C231 | apply_uv_response of radio_telescope_sensitivity loses the columns beyond the number of rows | C231_false |
| C231 | apply_uv_response of radio_telescope_sensitivity raises for arrays with fewer columns than rows | C231_raises |
| C232 | an unknown name of a cosmology is replaced by Planck18 | C232_false |
| C232 | the message about an unknown cosmology does not name it | C232_false_message |
| C234 | set_omega_lambda does not update q0, so luminosity_distance in a curved universe belongs to other densities; set_omega_lambda(0) with the default matter gives NaN at z=1 | Verif.Curvature.C234_false |
| C234 | Without cosmological constant a single redshift gives an array of one number (no outputify) | Verif.Curvature.C234_false_type |
| C234 | With k<0 the distance can be negative (the original IDL routine clips at zero) | Verif.Curvature.C234_false_negative |
| C235 | run_21cmfast_matter cannot take a single redshift as a number | Verif.Fast21cm.C235_false |
| C235 | run_21cmfast_coeval cannot take a NumPy integer (or float32) as redshift | Verif.Fast21cm.C235_false_scalar |
| C237 | for velocities the slice position is taken modulo the first side of the box, not the side along the line of sight: a 2 x 2 x 3 box along axis 2 never shows its last plane | C237_false |
| C238 | giving both depths is accepted and depth_mhz is ignored; giving none raises TypeError, not AssertionError | C238_false_both |
| C238 | redshifts in decreasing order give an empty sub-volume without an error | C238_false_order |
| C238 | the third dimension is the depth asked for and not that of the slices returned | C238_false_depth |
| C239 | make_pv_box uses the velocities along the first axis for every line of sight | C239_false, C239_unmoved |
| C240 | get_zs_list gives redshift 3 to xfrac3d_7.bin and xfrac3d_mean.bin | C240_false |
| C241 | Keys with a slash, bytes and None do not come back; formats in capitals cannot be written; np.savez writes to another name | C241_false, C241_bytes, C241_object, C241_capitals, C241_target |
| C242 | _erode_v1 with R = 0 returns an empty array; elements wider than the padding keep cells at the faces | C242_false, C242_wide |
| C243 | plot_corner with corner raises for arrays of true values and for short lists; the keyword color changes the plot but not the legend | C243_false, C243_short, C243_colour |
| C244 | IndependentOperations composes one flip with turns about one axis: 28 of 48 symmetries; the augmented prediction depends on the orientation of the image | C244_false, C244_missing |
| C245 | bispectrum_fast reuses the shell of an equal side whatever its width, so the value depends on the order of the sides | C245_false |
| C246 | get_distorted_dt discards the result of np.insert, so the velocities are not interpolated periodically and a box rolled along the line of sight gives another distorted box | C246_false |
| C247 | _get_mu leaves out modes with k < 0.001 in whatever unit the box is given | C247_false |
| C248 | get_uv_daily_observation grids each pair of antennas in one direction by default, so the UV map depends on the order of the antennas | C248_false |
| C251 | halo_list_to_grid of two catalogues is not the sum of their grids, as the bins span the haloes of each call | C251_false |
| C252 | bispectrum_fast with one number for the box uses the side in place of the volume, so that its values change with the unit of length | C252_false |
| C253 | two top-hats of different widths do not commute on maps with an even number of cells | C253_false |
| C254 | dimensionless_ps of a 2-D map depends on the unit of length | C254_false |
| C254 | dimensionless_ps with mixed bins depends on the unit of length | C254_mixed_false |
| C255 | windows taper the last axis, also when nu_axis is another one | C255_window_false |
| C256 | power_spectrum_1d of a map with even numbers of cells changes when the map is mirrored | C256_false |
| C257 | the mean of a map with even numbers of cells appears in power_spectrum_1d at positive wave numbers | C257_false |
| C258 | smooth_gauss of a mirrored map with an odd number of cells is not the mirrored smoothed map | C258_false |
| C259 | rays that do not end within the longest side of a cube are left out, so that a larger region can have shorter rays | C259_false |
| C262 | `power_spectrum_mu` with a number of bins in mu leaves out the modes along the line of sight, which `power_spectrum_1d` counts, so that its mean over mu is not the spherical spectrum (any array of 4 x 4 x 4 cells in the unit box) | C262_false |
| C265 | a filter of zeros and ones which treats a wave and the opposite one differently halves that wave at every call, because only the real part of the inverse transform is kept: removing the wedge twice removes more than once | C265_false |
| C267 | a wave whose cell is below the threshold while the opposite cell is not is halved at every call, because only the real part of the inverse transform is kept | C267_false |
| C268 | the regulariser added to the scatter is not small in units in which the values are: exchanged values 0 and 1 score below -2, the same maps times 1e-5 score above 0.9 | C268_false |

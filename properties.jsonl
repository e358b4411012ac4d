{"id": "C01", "title": "Euler characteristic is the alternating cell count of the periodic cubical complex", "statement": "EulerCharacteristic(data, thres) equals V-E+F-C, where V counts the cells with data>thres, E the (periodic) face-adjacent pairs of such cells, F the 2x2 squares all four of whose cells are such, and C the 2x2x2 blocks all eight of whose cells are such. The marker array CubeMap builds in four in-place passes never marks anything else.", "quantifier": "every 3-D boolean grid of every size (including sides of length 1 and 2, where the periodic wrap identifies neighbours)", "why_tests_cant": "the four passes write in place into the array they read; absence of cross-talk for every occupation pattern and every (tiny) box size is a statement about 2^(nx*ny*nz) inputs", "anchors": ["src/tools21cm/ViteBetti.py: CubeMap", "src/tools21cm/topology.py: EulerCharacteristic"]}
{"id": "C02", "title": "Parallel CubeMap is schedule independent", "statement": "CubeMap_joblib returns exactly the array the sequential CubeMap returns, for every n_jobs>=1 and whatever order the operating system interleaves the individual memory reads and writes of the workers that share the array inside each stage.", "quantifier": "every grid, every n_jobs>=1, every interleaving of the workers' shared-memory reads and writes", "why_tests_cant": "tests only ever see the schedules the machine happens to produce; a race that needs a particular interleaving goes unseen", "anchors": ["src/tools21cm/ViteBetti.py: CubeMap_joblib", "src/tools21cm/ViteBetti.py: _CubeMap_joblib_worker"]}
{"id": "C03", "title": "All CubeMap backends agree", "statement": "The torch (roll-based, simultaneous) construction returns the same marker array as the sequential in-place loops, so EulerCharacteristic does not depend on the backend.", "quantifier": "every grid of every size", "why_tests_cant": "sequential in-place update and simultaneous masks differ in general; agreement depends on an invariant that must hold for every grid", "anchors": ["src/tools21cm/ViteBetti.py: CubeMap_torch", "src/tools21cm/ViteBetti.py: CubeMap"]}
{"id": "C04", "title": "Euler characteristic is invariant under the symmetries of the periodic box", "statement": "Rolling the data cyclically along any axis, mirroring an axis, or exchanging axes leaves EulerCharacteristic unchanged.", "quantifier": "every grid, every shift, every axis", "why_tests_cant": "symmetry must hold for all grids and all shifts", "anchors": ["src/tools21cm/topology.py: EulerCharacteristic", "src/tools21cm/ViteBetti.py: CubeMap"]}
{"id": "C05", "title": "Euler characteristic of well separated structures adds; trivial boxes give zero", "statement": "If no 2x2x2 block of the periodic box contains cells of both A and B, the Euler characteristic of the union is the sum of the two. The empty and the completely filled periodic box both give 0.", "quantifier": "every pair of separated cell sets in every box", "why_tests_cant": "universally quantified over pairs of sets", "anchors": ["src/tools21cm/topology.py: EulerCharacteristic", "src/tools21cm/ViteBetti.py: CubeMap"]}
{"id": "C06", "title": "Cosmological constants stay mutually consistent", "statement": "After any sequence of calls to the set_* functions of the const module: H0 = 100 h; the vacuum density used by the Hubble rate (lam), the one used by the virial formulae (OmegaL) and Omega0 satisfy lam = OmegaL and q0 = Omega0/2 - lam.", "quantifier": "every finite history of setter calls with arbitrary values", "why_tests_cant": "the defect is in the accumulated module state after particular call histories", "anchors": ["src/tools21cm/const.py: set_hubble_h, set_omega_matter, set_omega_lambda, set_omega_baryon, set_ns, set_sigma_8, set_abundance_helium"]}
{"id": "C07", "title": "Simulation constants are all-or-nothing", "statement": "After any history of set_sim_constants calls (including calls that raise) and set_hubble_h calls, the box size, LB, fine-mesh size, grid mass and length scale of the conv module all describe one and the same simulation box.", "quantifier": "every finite history of successful and failing calls", "why_tests_cant": "exception safety over all histories", "anchors": ["src/tools21cm/conv.py: set_sim_constants", "src/tools21cm/const.py: set_hubble_h"]}
{"id": "C08", "title": "Lightcone slices interpolate between the neighbouring snapshots", "statement": "For every output redshift make_lightcone uses exactly the two snapshots that bracket it (the largest snapshot redshift <= z and the smallest > z), reading both from the right files.", "quantifier": "every list of snapshot redshifts and every list of output redshifts, in particular output steps that jump over several snapshots", "why_tests_cant": "the reader caches the previous upper snapshot; whether the cache is right depends on the whole output-redshift history", "anchors": ["src/tools21cm/lightcone.py: make_lightcone", "src/tools21cm/lightcone.py: make_velocity_lightcone"]}
{"id": "C09", "title": "Lightcone interpolation is a convex combination and hits the snapshots", "statement": "With interpolation='linear', each lightcone cell lies between the values of the two snapshots at the same transverse position and line-of-sight index (slice position modulo the box), equals the lower snapshot at its redshift, and approaches the upper one; with interpolation='step' the switch happens halfway between the two redshifts.", "quantifier": "every pair of snapshots, redshift in the bracket, slice index and line-of-sight axis", "why_tests_cant": "a numeric law over a continuum of redshifts", "anchors": ["src/tools21cm/lightcone.py: _get_interp_slice", "src/tools21cm/lightcone.py: _get_slice"]}
{"id": "C10", "title": "Equal-frequency redshift vector is evenly spaced", "statement": "redshifts_at_equal_frequncy_width(z_low, z_high, dnu) terminates for every positive width and returns a strictly ascending list that ends in z_high, lies above z_low, whose neighbouring frequencies nu0/(1+z) differ by exactly dnu, and that cannot be extended (one more channel would reach or pass the frequency of z_low); z_low >= z_high is rejected.", "quantifier": "every z_low < z_high and every positive channel width", "why_tests_cant": "termination and spacing over unbounded loops", "anchors": ["src/tools21cm/lightcone.py: redshifts_at_equal_frequncy_width"]}
{"id": "C11", "title": "Comoving-distance redshift vector advances monotonically and stays in range", "statement": "redshifts_at_equal_comoving_distance starts at z_low, is strictly increasing, every entry is below z_high, and each step changes the frequency by nu0*H(z)*dx/(c(1+z)^2).", "quantifier": "every z_low, z_high, box size and grid size for which the loop makes progress", "why_tests_cant": "unbounded while loop", "anchors": ["src/tools21cm/lightcone.py: redshifts_at_equal_comoving_distance"]}
{"id": "C12", "title": "Output redshifts are confined to the snapshots' range", "statement": "The output redshift list used by make_lightcone is the sublist of the requested redshifts inside the range of the snapshot files; if none is left an error is raised; and every redshift in it can be bracketed by two snapshots, so that the call succeeds, also when z_low and z_high are left at their defaults.", "quantifier": "every list of snapshot redshifts and of requested redshifts", "why_tests_cant": "quantified over lists; the boundary case z = max snapshot redshift is a single point tests miss", "anchors": ["src/tools21cm/lightcone.py: _get_output_z", "src/tools21cm/lightcone.py: make_lightcone"]}
{"id": "C13", "title": "Lightcone sub-volume selection", "statement": "get_lightcone_subvolume returns the slices from the one closest to the lower bound to the one closest to the upper bound of the requested depth around the centre; with odd_num_cells the number of cells is odd; a requested range that leaves the lightcone raises instead of returning.", "quantifier": "every monotone redshift grid, central redshift and depth", "why_tests_cant": "parity and boundary behaviour over all inputs", "anchors": ["src/tools21cm/lightcone.py: get_lightcone_subvolume"]}
{"id": "C14", "title": "cbin files round trip", "statement": "read_cbin(save_cbin(data)) returns data with the same shape and bit-identical values whenever the same bits and order are given, for 3-D arrays; other dimensionalities are not silently corrupted.", "quantifier": "every 3-D array of every shape and both memory orders and precisions", "why_tests_cant": "all shapes/orders; index permutations only show on non-cubic arrays", "anchors": ["src/tools21cm/helper_functions.py: save_cbin", "src/tools21cm/helper_functions.py: read_cbin"]}
{"id": "C15", "title": "Raw binary cubes round trip", "statement": "read_raw_binary(save_raw_binary(data)) returns data for every cubic array with matching bits and order; a file whose length is not a cube raises.", "quantifier": "every cubic array, both memory orders", "why_tests_cant": "all sizes", "anchors": ["src/tools21cm/helper_functions.py: save_raw_binary", "src/tools21cm/helper_functions.py: read_raw_binary"]}
{"id": "C16", "title": "Ionisation fraction files round trip", "statement": "Reading an xfrac file written by write_to_file with the same format flags returns the same mesh and the same values.", "quantifier": "every mesh, values, and each of the four combinations of header/precision flags; also mismatched flags", "why_tests_cant": "format flags interact with header length, precision and Fortran order", "anchors": ["src/tools21cm/xfrac_file.py: XfracFile.read_from_file, XfracFile.write_to_file"]}
{"id": "C17", "title": "Velocity files round trip", "statement": "Reading a velocity file written by write_to_file gives the same (3,nx,ny,nz) array.", "quantifier": "every mesh and values", "why_tests_cant": "index order over all shapes", "anchors": ["src/tools21cm/vel_file.py: VelocityFile.read_from_file, VelocityFile.write_to_file"]}
{"id": "C18", "title": "Density files round trip and carry a constant unit conversion", "statement": "Reading a density file written from raw densities gives the same raw densities, and cgs densities are proportional to them with a factor depending only on mesh and module constants; writing from cgs densities works likewise.", "quantifier": "every mesh and values, both input kinds", "why_tests_cant": "all inputs; one input kind has no working path at all", "anchors": ["src/tools21cm/density_file.py: DensityFile.read_from_file, DensityFile.write_to_file"]}
{"id": "C19", "title": "Source lists round trip and grid onto the mesh without losing mass", "statement": "Reading back a source list written by write_to_file gives the same positions and masses, and the gridded sources hold the total mass of the list.", "quantifier": "every list of sources including several sources in one cell", "why_tests_cant": "collisions and unit conversions only show on particular lists", "anchors": ["src/tools21cm/source_file.py: SourceFile.read_from_file, SourceFile.write_to_file, SourceFile.grid_sources"]}
{"id": "C20", "title": "find_idx inverts linear interpolation", "statement": "For a strictly monotone (increasing or decreasing) table ar and any value v in its range, linear interpolation of ar at the fractional index find_idx(ar, v) returns v; values outside the range are clamped to the ends; non-monotone tables are rejected.", "quantifier": "every strictly monotone table and every value", "why_tests_cant": "continuum of values, both directions, end points", "anchors": ["src/tools21cm/helper_functions.py: find_idx"]}
{"id": "C21", "title": "Combined mean and variance equal those of the pooled data", "statement": "combined_mean_variance(means, variances, sizes) of groups equals the mean and the (ddof=1) variance of the concatenated data.", "quantifier": "every finite family of groups with at least the degrees of freedom required", "why_tests_cant": "algebraic identity over arbitrary data", "anchors": ["src/tools21cm/helper_functions.py: combined_mean_variance"]}
{"id": "C22", "title": "Redshift parsed from a file name", "statement": "determine_redshift_from_filename returns the number written by the longest run of digits and dots in the base name (without directory and extension), the first one among equally long runs, and -1 when there is none; in particular every name of the form prefix_<z>.ext, with digit-free prefix, gives z.", "quantifier": "every file name", "why_tests_cant": "all strings", "anchors": ["src/tools21cm/helper_functions.py: determine_redshift_from_filename"]}
{"id": "C23", "title": "Snapshots bracketing a redshift interval", "statement": "Selecting simulation redshifts for a lightcone keeps exactly those inside the interval plus the nearest one on each side.", "quantifier": "every list of redshifts and every interval", "why_tests_cant": "quantified over lists", "anchors": ["src/tools21cm/helper_functions.py: _get_redshifts_in_range"]}
{"id": "C24", "title": "Circular FFT convolution is the centred periodic convolution", "statement": "fftconvolve(a, k, boundary='circular') returns out[x] = sum_j k[j] a[x + c - j] (indices periodic) with c the centre cell of the kernel, so that a symmetric kernel leaves a point source where it is.", "quantifier": "every array and kernel, every dimension, odd and even kernel sizes", "why_tests_cant": "off-by-one shifts depend on the parity of the kernel size; convolution is over all arrays", "anchors": ["src/tools21cm/fft_functions.py: fftconvolve", "src/tools21cm/smoothing.py: smooth_with_kernel"]}
{"id": "C25", "title": "Smoothing conserves the total, fixes constants and respects bounds", "statement": "Smoothing with a circular boundary and a kernel that sums to 1 preserves the sum (mean) of the map, leaves constant maps unchanged, commutes with cyclic shifts, is linear, and, for a non-negative kernel, keeps every value between the minimum and maximum of the map.", "quantifier": "every map and kernel", "why_tests_cant": "laws over all arrays", "anchors": ["src/tools21cm/fft_functions.py: fftconvolve", "src/tools21cm/smoothing.py: smooth_with_kernel, smooth_gauss, smooth_tophat"]}
{"id": "C26", "title": "Non-circular convolution modes", "statement": "fftconvolve with boundary 'constant' and mode 'full'/'same'/'valid' returns the full linear convolution, its centred crop of the size of the first array, and exactly the part without boundary contributions; padded boundaries return, in 'same' mode, the convolution of the extended array at the same positions, independently of the backend.", "quantifier": "every array and kernel size (even and odd) and boundary", "why_tests_cant": "index arithmetic over all sizes and parities", "anchors": ["src/tools21cm/fft_functions.py: fftconvolve"]}
{"id": "C27", "title": "Smoothing kernels are normalised", "statement": "tophat_kernel and gauss_kernel are non-negative and sum to 1; the tophat's non-zero cells are exactly the requested width, contiguous.", "quantifier": "every size and width", "why_tests_cant": "floor/ceil boundary arithmetic", "anchors": ["src/tools21cm/smoothing.py: tophat_kernel, gauss_kernel"]}
{"id": "C28", "title": "Mean subtraction along the line of sight", "statement": "subtract_mean_signal makes every slice perpendicular to the line of sight average to zero, is idempotent, does not change within-slice differences, and treats axis -1,-2,-3 as 2,1,0; signal_overdensity divides every slice by its mean for every valid axis.", "quantifier": "every cube and axis (including negative axes)", "why_tests_cant": "all arrays and axes; the negative-axis path differs silently", "anchors": ["src/tools21cm/statistics.py: subtract_mean_signal, signal_overdensity"]}
{"id": "C29", "title": "UV gridding puts each baseline in its FFT cell", "statement": "grid_uv_tracks adds one count for each baseline (u,v) with rounded coordinates inside the grid at array index (u mod n, v mod n) (the FFT layout in which the zero baseline sits at [0,0]) and nothing else; the total equals the number of baselines inside the grid.", "quantifier": "every set of baselines and every grid size, even and odd", "why_tests_cant": "odd grid sizes shift differently; every baseline set", "anchors": ["src/tools21cm/radio_telescope_layout.py: grid_uv_tracks"]}
{"id": "C30", "title": "Earth rotation and coordinate changes preserve baselines", "statement": "earth_rotation_effect, enu_to_ecef and ecef_to_xyz are rigid: all baseline lengths and angles are preserved at every hour angle, declination, latitude and longitude.", "quantifier": "every baseline set and all angles", "why_tests_cant": "continuum of angles", "anchors": ["src/tools21cm/radio_telescope_layout.py: earth_rotation_effect, enu_to_ecef, ecef_to_xyz"]}
{"id": "C31", "title": "UV map cache survives a crash at any point", "statement": "If get_uv_map_lightcone is stopped at any point and run again with the same arguments, the final cache and the returned maps are the ones an uninterrupted run produces, no stored redshift is recomputed, and a cache written with other parameters is refused.", "quantifier": "every crash point (including in the middle of writing the cache file), every n_jobs/checkpoint setting, every earlier cache content", "why_tests_cant": "crash points and cache histories cannot be enumerated by tests", "anchors": ["src/tools21cm/radio_telescope_noise.py: get_uv_map_lightcone", "src/tools21cm/read_files.py: write_dictionary_data, read_dictionary_data"]}
{"id": "C32", "title": "UV map cache key identifies the redshift", "statement": "Every redshift passed to get_uv_map_lightcone gets the UV map computed for that redshift.", "quantifier": "every list of redshifts", "why_tests_cant": "keys are rounded to three decimals; collisions need particular redshifts", "anchors": ["src/tools21cm/radio_telescope_noise.py: get_uv_map_lightcone, noise_lightcone"]}
{"id": "C33", "title": "Antenna tracks stay attached to their antenna pair", "statement": "In get_full_uv_lagrangian_with_antenna_stamp row b of the position array always holds the grid position of the baseline whose antennas are listed in row b of the pair list, NaN when the baseline is outside the grid.", "quantifier": "every baseline set and time step", "why_tests_cant": "needs a baseline outside the grid before another one inside", "anchors": ["src/tools21cm/radio_telescope_calibration.py: _grid_uv_lagrangian_tracks_with_antenna_stamp"]}
{"id": "C34", "title": "Parallel time chunks cover the observation exactly once", "statement": "The chunks into which get_full_uv_map_with_antenna_stamp splits the observation partition the time steps 0..T-1 in order, whatever n_jobs is.", "quantifier": "every number of time steps and jobs", "why_tests_cant": "division corner cases (more jobs than steps)", "anchors": ["src/tools21cm/radio_telescope_calibration.py: get_full_uv_map_with_antenna_stamp, get_full_uv_lagrangian_with_antenna_stamp", "src/tools21cm/ViteBetti.py: CubeMap_joblib"]}
{"id": "C35", "title": "Baseline cut keeps the UV map's layout", "statement": "get_uv_map with max_baseline only zeroes cells beyond the cut and leaves all other cells where and what they were.", "quantifier": "every grid size, map and cut", "why_tests_cant": "double fftshift is the identity for even sizes only", "anchors": ["src/tools21cm/radio_telescope_noise.py: get_uv_map"]}
{"id": "C36", "title": "Mean-free-path ray counts are conserved", "statement": "Each ray cast by mfp is counted in exactly one length bin, the one of the first step that leaves the structure, unless it never leaves within the maximum length; counts plus surviving rays equal the number of rays, and no bin is negative.", "quantifier": "every structure, every set of start points and directions", "why_tests_cant": "ray histories are arbitrary", "anchors": ["src/tools21cm/mfp_np.py: _ray3d, mfp2d, mfp3d"]}
{"id": "C37", "title": "Friends-of-friends search labels connected regions", "statement": "FoF_search(array, xth) gives two cells above the threshold the same positive label iff they are linked by a chain of face-adjacent cells above threshold, and returns the region sizes.", "quantifier": "every array and threshold", "why_tests_cant": "all arrays", "anchors": ["src/tools21cm/Friends_of_Friends.py: FoF_search", "src/tools21cm/bubble_stats.py: fof"]}
{"id": "C38", "title": "fof sizes add up to the ionised volume", "statement": "The size list returned by fof (with scikit-image labelling) sums to the number of cells at or above the threshold, one entry per region.", "quantifier": "every array and threshold, including a box entirely above the threshold", "why_tests_cant": "the label-0 entry is dropped by position", "anchors": ["src/tools21cm/bubble_stats.py: fof"]}
{"id": "C39", "title": "Morphological opening", "statement": "binary_opening with a structuring element never adds cells, is monotone and idempotent.", "quantifier": "every image and structuring element", "why_tests_cant": "all images", "anchors": ["src/tools21cm/morph.py: binary_opening, binary_erosion, binary_dilation"]}
{"id": "C40", "title": "Granulometry spectrum telescopes", "statement": "The differential pattern spectrum of _granulometry sums to the fraction of area removed by the largest opening and, together with the remaining area, to one.", "quantifier": "every sequence of opened areas", "why_tests_cant": "all sequences", "anchors": ["src/tools21cm/bubble_stats.py: _granulometry"]}
{"id": "C41", "title": "Unit and cosmology conversions are mutually inverse", "statement": "z_to_nu/nu_to_z, c_to_p/p_to_c, Msolar_2_Mgrid/Mgrid_2_Msolar, jansky_2_kelvin/kelvin_2_jansky, M_to_Tvir/Tvir_to_M, and particle number/mass conversions are inverse to each other.", "quantifier": "every physical argument", "why_tests_cant": "continuum of inputs", "anchors": ["src/tools21cm/cosmo.py: z_to_nu, nu_to_z, c_to_p, p_to_c, M_to_Tvir, Tvir_to_M", "src/tools21cm/usefuls.py: Mgrid_2_Msolar, Msolar_2_Mgrid", "src/tools21cm/radio_telescope_sensitivity.py: jansky_2_kelvin, kelvin_2_jansky", "src/tools21cm/nbody_tools.py"]}
{"id": "C42", "title": "Periodic padding", "statement": "Padding a transverse slice to a larger size continues it periodically, so cell (i,j) of the padded slice is cell (i mod n, j mod n) of the original.", "quantifier": "every slice and every padded size", "why_tests_cant": "size-dependent failure", "anchors": ["src/tools21cm/angular_coordinates.py: _get_padded_slice"]}
{"id": "C43", "title": "Sub-boxes of the position-dependent power spectrum partition the box", "statement": "The sub-box windows of integrated_bispectrum_cross cover every cell of the box exactly once, each with the same number of cells.", "quantifier": "every box size and number of cuts dividing it", "why_tests_cant": "all sizes", "anchors": ["src/tools21cm/position_dependent_power_spectrum.py: integrated_bispectrum_cross, _W_L"]}
{"id": "C44", "title": "Redshift-space distortion conserves the signal", "statement": "get_distorted_dt keeps the summed brightness temperature of every skewer and is the identity for vanishing velocities.", "quantifier": "every skewer, velocity field, box and particle number", "why_tests_cant": "shift sizes beyond a box and cell edges are measure-zero cases", "anchors": ["src/tools21cm/pv_mpm.py: get_distorted_dt"]}
{"id": "C45", "title": "Optical depth grows with redshift", "statement": "tau returns a list of length (number of redshifts + num_points), non-decreasing for non-negative ionised fractions, independent of the order in which the (redshift, fraction) pairs are given, and raises when the lists differ in length.", "quantifier": "every list of redshifts and fractions", "why_tests_cant": "all lists and permutations", "anchors": ["src/tools21cm/tau.py: tau"]}
{"id": "C46", "title": "Test-time augmentations are undone exactly", "statement": "Each rotated/flipped copy that segunet21cm evaluates is mapped back by the inverse transformation, so that with an identity network every copy returns the input.", "quantifier": "every image cube, each augmentation", "why_tests_cant": "all arrays", "anchors": ["src/tools21cm/segmentation.py: IndependentOperations, prediction"]}
{"id": "C47", "title": "Halo selection", "statement": "Reading a halo list returns the first max_select_number haloes in file order whose mass lies strictly between the bounds, and reports whether the file was exhausted.", "quantifier": "every file content and selection parameters", "why_tests_cant": "all files", "anchors": ["src/tools21cm/halo_list.py: HaloList.read_from_file, HaloRockstar.read_from_file"]}
{"id": "C48", "title": "Periodic repositioning", "statement": "_reposition moves haloes displaced by up to one box length back into the box without changing positions modulo the box.", "quantifier": "every position list and box", "why_tests_cant": "continuum", "anchors": ["src/tools21cm/halo_list.py: _reposition"]}
{"id": "C49", "title": "Label-wise reductions", "statement": "apply_operator_labelled_data gives each cell the operator's value over its label's cells; superpixel_map preserves the total signal.", "quantifier": "every data and label array, including labels that are not 0..k-1", "why_tests_cant": "label sets are arbitrary", "anchors": ["src/tools21cm/superpixels.py: apply_operator_labelled_data, superpixel_map", "src/tools21cm/numba_functions.py: apply_operator_labelled_data_numba"]}
{"id": "C50", "title": "Spherically averaged power spectrum bins every mode once", "statement": "radial_average assigns every mode with kmin<=k<=kmax to exactly one bin; the mode counts add up to the number of such modes; the bin centres of the frequencies align with the FFT layout of the power spectrum.", "quantifier": "every grid size (even and odd), dimension and bin edges", "why_tests_cant": "parities and bin edges", "anchors": ["src/tools21cm/power_spectrum.py: radial_average, _get_k, power_spectrum_nd"]}
{"id": "C51", "title": "Snapshot chosen for a coeval cube", "statement": "coeval_xfrac, coeval_dens and the corresponding readers interpolate linearly between the two snapshots adjacent in redshift to the requested one.", "quantifier": "every directory content and redshift", "why_tests_cant": "index arithmetic on filtered lists", "anchors": ["src/tools21cm/usefuls.py: coeval_xfrac, coeval_dens, coeval_vel", "src/tools21cm/read_files.py: coeval_xfrac_c2ray, coeval_dens_c2ray"]}
{"id": "C52", "title": "Derived cosmological densities follow the parameters", "statement": "After any sequence of calls to the set_* functions of the const module, the critical density, the mean matter density and the cgs Hubble constant are those of the current h and Omega0.", "quantifier": "every finite history of setter calls with arbitrary values", "why_tests_cant": "the state depends on the whole call history", "anchors": ["src/tools21cm/const.py: set_hubble_h, set_omega_matter, rho_crit_0, rho_matter, H0cgs"]}
{"id": "C54", "title": "write_to_file without data writes what was loaded", "statement": "After read_from_file, calling write_to_file(filename) on a VelocityFile, ClumpingFile or SourceFile without a data argument writes the loaded data to the file, as the error message of the method promises; with a data argument exactly that data is written and any later read of the file loads it.", "quantifier": "all histories of read and write calls, all file names and data", "why_tests_cant": "the object's state after an arbitrary history of calls matters, not one call", "anchors": ["src/tools21cm/vel_file.py:VelocityFile.write_to_file", "src/tools21cm/density_file.py:ClumpingFile.write_to_file", "src/tools21cm/source_file.py:SourceFile.write_to_file"]}
{"id": "C55", "title": "get_data_and_type honours the requested density unit", "statement": "get_data_and_type(indata, cbin_bits, cbin_order, raw_density) returns the raw density when raw_density is true and the cgs density otherwise, whether indata is a density object or the name of a density file.", "quantifier": "all inputs of both kinds and both flags", "why_tests_cant": "the value returned depends on the combination of input kind and flag for all data", "anchors": ["src/tools21cm/helper_functions.py:get_data_and_type"]}
{"id": "C56", "title": "get_mesh_size reports the stored mesh", "statement": "get_mesh_size(filename) returns the mesh dimensions of the data stored in the file for every file type determine_filetype recognises.", "quantifier": "all meshes and all recognised file types", "why_tests_cant": "it is a statement about every mesh and every byte layout", "anchors": ["src/tools21cm/helper_functions.py:get_mesh_size", "src/tools21cm/helper_functions.py:determine_filetype"]}
{"id": "C53", "title": "File lists given as a directory or text file", "statement": "make_lightcone and make_velocity_lightcone accept, instead of a list of file names, the name of a directory containing files of one type (all its files are used) or of a text file listing them (its lines are used); directories with several file types and other strings are refused.", "quantifier": "all file systems and all strings or lists passed", "why_tests_cant": "depends on every possible directory content and on the Python version's string semantics", "anchors": ["src/tools21cm/lightcone.py:_get_filenames", "src/tools21cm/lightcone.py:make_lightcone"]}
{"id": "C57", "title": "find_idx does not change its arguments", "statement": "Looking up values in a table with find_idx leaves the arrays passed by the caller unchanged.", "quantifier": "all tables and all arrays of values", "why_tests_cant": "a test of returned values does not look at the caller's arrays, and only out-of-range values are affected", "anchors": ["src/tools21cm/helper_functions.py:find_idx"]}
{"id": "C58", "title": "smooth_tophat averages around each cell", "statement": "smooth_tophat(map, w) returns, for every cell, the mean of the map over the w x w square centred on that cell (periodic), so that the total is conserved and width 1 changes nothing.", "quantifier": "every square map, odd and even size, every odd width up to the map size", "why_tests_cant": "A shift by one cell does not change any statistic usually tested (mean, variance, spectrum); the claim is about every cell of every map size and parity.", "anchors": ["src/tools21cm/smoothing.py:186-209", "src/tools21cm/smoothing.py:88-105", "src/tools21cm/fft_functions.py:156-157", "src/tools21cm/angular_coordinates.py:328-335"]}
{"id": "C59", "title": "Smoothed maps keep the shape of the map", "statement": "smooth_gauss returns an array with the dimensions of its input.", "quantifier": "every two-dimensional map, square or not", "why_tests_cant": "Tests use square maps; the claim is over all shapes.", "anchors": ["src/tools21cm/smoothing.py:165-183", "src/tools21cm/smoothing.py:229-247", "src/tools21cm/fft_functions.py:65-68"]}
{"id": "C60", "title": "Coeval tophat smoothing acts along the frequency axis only", "statement": "smooth_coeval (through smooth_coeval_tophat) applies the tophat along the frequency axis only: cells at different angular positions are not mixed.", "quantifier": "every cube, width and frequency axis", "why_tests_cant": "Needs the response of every cell to every other cell.", "anchors": ["src/tools21cm/smoothing.py:404-425"]}
{"id": "C61", "title": "Frequency smoothing of a lightcone averages the slices inside the window", "statement": "smooth_lightcone_tophat replaces every slice by the mean of exactly the slices whose redshift lies within dz/2 of its own.", "quantifier": "every increasing redshift list, every non-negative dz per slice, every lightcone", "why_tests_cant": "The bounds depend on where the window ends fall relative to the slices; all alignments must be covered.", "anchors": ["src/tools21cm/smoothing.py:443-462", "src/tools21cm/helper_functions.py:514-554"]}
{"id": "C62", "title": "smooth_line keeps length and level", "statement": "smooth_line returns a line of the same length in which constant lines are unchanged, for every window kind and custom windows.", "quantifier": "every line, window length and kind", "why_tests_cant": "Quantifies over all lines and windows including those longer than the line.", "anchors": ["src/tools21cm/smoothing.py:597-657"]}
{"id": "C63", "title": "apply_func_along_los gives one value per slice", "statement": "apply_func_along_los(signal, func, axis) returns shape-along-the-line-of-sight many values, the i-th being func of the i-th slice, for scalar and vector fields; illegal axes raise.", "quantifier": "every mesh, axis, scalar and vector fields", "why_tests_cant": "Quantifies over all shapes and both kinds of field.", "anchors": ["src/tools21cm/statistics.py:114-170"]}
{"id": "C64", "title": "Weighted mean and moments", "statement": "mass_weighted_mean_xi is a weighted mean: it lies between the smallest and the largest ionised fraction; kurtosis is unchanged by an affine change of unit, skewness changes sign under reflection and is otherwise unchanged.", "quantifier": "every array", "why_tests_cant": "Universally quantified algebraic identities.", "anchors": ["src/tools21cm/statistics.py:8-59"]}
{"id": "C65", "title": "Mirrored UV maps are Hermitian", "statement": "With include_mirror_baselines=True the map returned by grid_uv_tracks is unchanged under (i,j) -> (-i,-j) mod n, as the sampling function of a real sky must be, and equals the mean of the map and its mirror image.", "quantifier": "every baseline set, every grid size, every cell", "why_tests_cant": "the boundary row and odd grids behave differently; every baseline set", "anchors": ["src/tools21cm/radio_telescope_layout.py: grid_uv_tracks"]}
{"id": "C66", "title": "Daily UV map is the time average of the snapshots", "statement": "get_uv_daily_observation returns, for any array of at least two antennas and any observation with at least one time slice, the mean over the time slices of the gridded snapshots, with hour angles centred on the meridian.", "quantifier": "every antenna number, baseline set, slice number and grid", "why_tests_cant": "two-antenna arrays hit a squeeze; centring is a statement about all slice numbers", "anchors": ["src/tools21cm/radio_telescope_layout.py: get_uv_daily_observation, earth_rotation_effect"]}
{"id": "C67", "title": "Baseline lists contain every antenna pair once", "statement": "from_antenna_config returns N(N-1)/2 baselines, one for each unordered pair of antennas; antenna_positions_to_baselines returns N(N-1), one for each ordered pair, so that the set is symmetric.", "quantifier": "every antenna list", "why_tests_cant": "all array sizes", "anchors": ["src/tools21cm/radio_telescope_layout.py: from_antenna_config, antenna_positions_to_baselines"]}
{"id": "C68", "title": "Coordinate axes point in the documented directions", "statement": "enu_to_ecef sends east, north and up to the geographic east, north and zenith directions at the given latitude and longitude; ecef_to_xyz has X pointing to the local east; at hour angle 0 earth_rotation_effect gives u the east component and w the source direction.", "quantifier": "every latitude, longitude, declination and array centre", "why_tests_cant": "continuum of angles", "anchors": ["src/tools21cm/radio_telescope_layout.py: enu_to_ecef, ecef_to_xyz, earth_rotation_effect"]}
{"id": "C69", "title": "Gain maps accumulate hits and gain products per UV cell", "statement": "_grid_uv_tracks_with_gains (used by get_uv_map_with_gains) adds, for each baseline inside the grid, one hit and its four gain products to the cell (u mod n, v mod n) and nothing else; with mirrored baselines the map keeps the symmetry (i,j) -> (-i,-j) mod n.", "quantifier": "every grid size (even and odd), baseline set, gains and earlier map", "why_tests_cant": "all grids and baseline sets", "anchors": ["src/tools21cm/radio_telescope_calibration.py: _grid_uv_tracks_with_gains, get_uv_map_with_gains"]}
{"id": "C70", "title": "Declination argument of the calibration functions", "statement": "get_uv_map_with_gains, get_full_uv_map_with_antenna_stamp and get_full_uv_lagrangian_with_antenna_stamp rotate the baselines as for an observation of total_int_time hours at the given declination.", "quantifier": "every declination, observation time and time step", "why_tests_cant": "continuum of angles and times", "anchors": ["src/tools21cm/radio_telescope_calibration.py: get_uv_map_with_gains, _process_chunk_get_full_uv_map_with_antenna_stamp, _process_chunk_get_full_uv_lagrangian_with_antenna_stamp"]}
{"id": "C71", "title": "Antenna stamps list exactly the baselines of a cell", "statement": "The map of get_full_uv_map_with_antenna_stamp lists, for each time step and cell, the antenna pairs of exactly the baselines in that cell, in baseline order; full_uv_map_with_antenna_stamp_to_uv_map then counts the baselines per cell over all time steps.", "quantifier": "every grid size, baseline set and number of time steps", "why_tests_cant": "all grids and baseline sets", "anchors": ["src/tools21cm/radio_telescope_calibration.py: _grid_uv_tracks_with_antenna_stamp, full_uv_map_with_antenna_stamp_to_uv_map"]}
{"id": "C72", "title": "Pattern spectrum is a distribution", "statement": "The pattern spectrum returned by granulometry_bsd (dFdR) is a probability distribution over radii: no entry is negative and every partial sum lies in [0, 1].", "quantifier": "every 0/1 image in any number of dimensions", "why_tests_cant": "all images and radii; negativity depends on the shape of discrete discs", "anchors": ["src/tools21cm/bubble_stats.py: _granulometry, granulometry_bsd", "src/tools21cm/morph.py: binary_opening"]}
{"id": "C73", "title": "granulometry_CDF returns areas in order of size", "statement": "granulometry_CDF shuffles the radii before the work is distributed; the returned areas are nevertheless in increasing order of radius, whatever the shuffle.", "quantifier": "every list of sizes and every shuffle", "why_tests_cant": "all permutations", "anchors": ["src/tools21cm/bubble_stats.py: granulometry_CDF"]}
{"id": "C74", "title": "Mean free path without a region of interest", "statement": "When no cell reaches the threshold, mfp returns radii and a size distribution that is zero everywhere, for every threshold.", "quantifier": "every data array and threshold", "why_tests_cant": "all thresholds, the replacement data are compared with the threshold again", "anchors": ["src/tools21cm/bubble_stats.py: mfp", "src/tools21cm/mfp_np.py: mfp2d, mfp3d"]}
{"id": "C75", "title": "Watershed sizes are region volumes", "statement": "The size distribution of watershed_bsd is built from one radius per region, the radius of the sphere with as many cells as the region.", "quantifier": "every labelled image", "why_tests_cant": "all label images", "anchors": ["src/tools21cm/bubble_stats.py: watershed_bsd"]}
{"id": "C76", "title": "Spherical average counts each cell once", "statement": "spa assigns to each cell the largest radius at which the average over the sphere reaches the threshold; each such cell is counted at exactly one radius and the returned fractions sum to one.", "quantifier": "every smoothed field, threshold and list of radii produced by the code", "why_tests_cant": "all fields", "anchors": ["src/tools21cm/spa_np.py: spa_np", "src/tools21cm/bubble_stats.py: spa"]}
{"id": "C77", "title": "put_sphere respects periodicity", "statement": "put_sphere with periodic=True labels exactly the cells within the radius of the centre or of one of its periodic images; without it exactly those within the radius; all other cells keep their value.", "quantifier": "every box shape, centre and radius", "why_tests_cant": "all centres near faces, edges and corners", "anchors": ["src/tools21cm/spa_np.py: put_sphere"]}
{"id": "C78", "title": "Distances and ages follow the Friedmann equation for every number type", "statement": "z_to_cdist is the distance that vanishes at z=0 and grows as c/H(z); z_to_age is the age that decreases as 1/((1+z)H(z)) and tends to zero; a whole redshift may be given as an integer.", "quantifier": "every cosmology with matter and non-negative Lambda, every redshift, integer or float", "why_tests_cant": "continuum of redshifts and cosmologies; the result depends on the dtype of the argument", "anchors": ["src/tools21cm/cosmo.py: z_to_cdist, z_to_age, hubble_parameter"]}
{"id": "C79", "title": "Luminosity distance, angular size and comoving distance agree", "statement": "luminosity_distance(z) = (1+z) z_to_cdist(z), angular_size_comoving is length over comoving distance in degrees, and deg_to_cdist is its inverse, in every cosmology the setters can produce.", "quantifier": "every history of setter calls, every redshift and length", "why_tests_cant": "two different integrals plus a closed form, over all histories of parameters", "anchors": ["src/tools21cm/cosmo.py: luminosity_distance, _ldist, angular_size, angular_size_comoving, deg_to_cdist"]}
{"id": "C80", "title": "cdist_to_z inverts z_to_cdist", "statement": "For 0 <= z < 100 (the documented range) cdist_to_z(z_to_cdist(z)) returns z at the redshifts of the table the interpolation is built from.", "quantifier": "every table redshift, every cosmology, every interpolating spline", "why_tests_cant": "window of the search depends on the argument; fails only at high redshift", "anchors": ["src/tools21cm/cosmo.py: cdist_to_z, precalc_table_z, precalc_table_cdist"]}
{"id": "C81", "title": "kelvin_2_jansky returns jansky", "statement": "kelvin_2_jansky turns a brightness temperature in mK into the Rayleigh-Jeans flux per pixel in Jy, as documented; missing box size and cell number default to the simulation box and the first axis.", "quantifier": "every array, redshift, box size and number of cells", "why_tests_cant": "a round trip through the inverse cannot see a common factor", "anchors": ["src/tools21cm/radio_telescope_sensitivity.py: kelvin_2_jansky, jansky_2_kelvin, kelvin_jansky_conversion"]}
{"id": "C82", "title": "Every voxel of an image is segmented", "statement": "The prediction of segunet21cm applies the network to every plane of the image along the three axes, so with an identity network the segmentation is the rounded image; shapes that cannot be processed raise.", "quantifier": "every image shape (cubic or not), with and without augmentation", "why_tests_cant": "all image shapes; the loop bound is the length of the first side only", "anchors": ["src/tools21cm/segmentation.py: prediction"]}
{"id": "C83", "title": "Optical depth below the first redshift is that of a fully ionised universe", "statement": "The first num_points values of tau are the Thomson optical depth of a fully ionised universe integrated from redshift zero, and no value of tau is negative.", "quantifier": "every cosmology set through the constants module, every list of redshifts and fractions, every num_points", "why_tests_cant": "relates a closed form to an integral for all cosmologies; the failing cases need a non-flat cosmology or num_points=0", "anchors": ["src/tools21cm/tau.py: tau", "src/tools21cm/const.py: set_omega_lambda"]}
{"id": "C84", "title": "tau_map agrees with tau on every line of sight", "statement": "For an array of ionised fractions tau_map returns on each line of sight the values tau returns for the fractions along it, and the same redshifts.", "quantifier": "every lightcone, list of redshifts and num_points", "why_tests_cant": "equivalence of two programs for all inputs", "anchors": ["src/tools21cm/tau.py: tau, tau_map"]}
{"id": "C85", "title": "Optical depth follows the cosmology", "statement": "After calling the setters of the constants module, tau uses the Thomson coefficient of the cosmology that was set (Hubble constant, matter and baryon density, helium abundance).", "quantifier": "every sequence of setter calls", "why_tests_cant": "all sequences of state changes", "anchors": ["src/tools21cm/tau.py: tau", "src/tools21cm/const.py: set_hubble_h, set_abundance_helium"]}
{"id": "C86", "title": "A uniform velocity translates the box", "statement": "If every cell is displaced by the same whole number of cells, get_distorted_dt with periodic boundaries returns the box translated periodically by that number of cells along the line of sight.", "quantifier": "every box, displacement in whole cells, line of sight and particle number", "why_tests_cant": "cell edges and the particle at the far edge are measure-zero cases; all boxes", "anchors": ["src/tools21cm/pv_mpm.py: get_distorted_dt"]}
{"id": "C87", "title": "Rockstar catalogues are read by column name", "statement": "HaloRockstar.read_from_file gives the object exactly the haloes of the file, in order and at most max_select_number of them if that is not negative; each halo carries the values in the columns named in the header (position, velocity, angular momentum, dispersion, radius and mass of the chosen mass definition) and the number of particles nearest to mass over particle mass. Files of another format are refused.", "quantifier": "every header, column order, file content, mass definition, limit and previous content of the object", "why_tests_cant": "column orders and limits are unbounded; the state of the object matters", "anchors": ["src/tools21cm/halo_list.py: HaloRockstar.read_from_file"]}
{"id": "C88", "title": "Stitching superpixels into a binary map", "statement": "binary_stitch (with the default stitching) marks a cell exactly if the mean of its superpixel is below the threshold, the threshold being the one given or else the mean of the data.", "quantifier": "every data array, labelling and threshold, zero included", "why_tests_cant": "labellings and thresholds are arbitrary", "anchors": ["src/tools21cm/superpixels.py: binary_stitch"]}
{"id": "C89", "title": "Pooled mean and deviation of superpixels", "statement": "get_combined_mean_std, given the means, deviations and sizes that the module's functions return for the superpixels, yields the mean and standard deviation of all their cells together.", "quantifier": "every partition of every data array into non-empty superpixels", "why_tests_cant": "algebraic identity over all partitions of all arrays", "anchors": ["src/tools21cm/superpixels.py: get_combined_mean_std, get_superpixel_sigmas"]}
{"id": "C90", "title": "Under-segmentation error", "statement": "under_segmentation_error is zero if every superpixel lies within one true object, and is never negative.", "quantifier": "every labelling, truth and overlap threshold b in [0,1)", "why_tests_cant": "all pairs of partitions", "anchors": ["src/tools21cm/superpixels.py: under_segmentation_error"]}
{"id": "C91", "title": "Density between snapshots is diluted by the expansion", "statement": "coeval_dens_c2ray returns, for a redshift between two snapshots, the density of the earlier snapshot diluted by the cube of the ratio of scale factors; it never exceeds the density of the earlier snapshot.", "quantifier": "every directory content and redshift", "why_tests_cant": "all directories, orders of files and redshifts", "anchors": ["src/tools21cm/read_files.py: coeval_dens_c2ray"]}
{"id": "C92", "title": "Power spectrum conserves the variance", "statement": "The sum over all modes of power_spectrum_nd (cross_power_spectrum_nd) divided by the volume of the box is the mean square of the array (the mean product of the two arrays), up to the single rescaling by the box volume; arrays of different shapes raise an error.", "quantifier": "every array of every dimension and shape, even and odd, and every box", "why_tests_cant": "an identity between sums over all cells and all modes for every shape and field", "anchors": ["src/tools21cm/power_spectrum.py: power_spectrum_nd, cross_power_spectrum_nd"]}
{"id": "C93", "title": "Symmetries of the power spectrum", "statement": "The power spectrum does not change if the array is moved periodically, is the same for opposite modes, is never negative and scales with the square of the array; the cross power spectrum of an array with itself is its power spectrum and the cross power spectrum does not depend on the order of the arrays.", "quantifier": "every array, shift, mode and factor", "why_tests_cant": "all fields and all shifts", "anchors": ["src/tools21cm/power_spectrum.py: power_spectrum_nd, cross_power_spectrum_nd"]}
{"id": "C94", "title": "Binning in k and mu counts every mode once", "statement": "power_spectrum_mu counts every mode between the first and the last edges, in k and in mu, in exactly one bin, the one around it, except the modes along the line of sight if they are to be excluded; the values are the means over the modes of the bin.", "quantifier": "every grid, box, line of sight and bin edges", "why_tests_cant": "all modes of all grids, in particular those on the edges and along the axes", "anchors": ["src/tools21cm/power_spectrum.py: mu_binning, _get_mu, _get_nonzero_idx"]}
{"id": "C95", "title": "Documented forms of box_dims and kbins are equivalent", "statement": "power_spectrum_1d gives the same result for a box given as a number and as the list or array of its lengths, and accepts the bins as a number, a list or an array of edges.", "quantifier": "every array, box and bins", "why_tests_cant": "equality of results for every field and argument", "anchors": ["src/tools21cm/power_spectrum.py: _get_dims, _get_kbins, power_spectrum_1d"]}
{"id": "C96", "title": "Power spectra with a window leave the data unchanged", "statement": "power_spectrum_1d with a window is the power spectrum of the windowed data, and the array of the caller is not changed; without a window likewise. A window may be given by name or as an array.", "quantifier": "every array and window", "why_tests_cant": "absence of side effects for every argument", "anchors": ["src/tools21cm/power_spectrum.py: apply_window, power_spectrum_1d"]}
{"id": "C97", "title": "Cylindrical power spectrum counts every mode once", "statement": "power_spectrum_2d with numbers of bins, one for both directions or a list of two, counts every mode with components across and along the line of sight in exactly one bin, the one around it, and returns the means over the modes of the bin.", "quantifier": "every grid, box, axis, numbers of bins and kind of binning", "why_tests_cant": "all modes of all grids, in particular the smallest and the largest, and all numbers of bins", "anchors": ["src/tools21cm/power_spectrum.py: power_spectrum_2d"]}
{"id": "C98", "title": "Mean signal of the current cosmology", "statement": "mean_dt(z) is the mean 21-cm signal of neutral gas for the cosmological parameters that are currently set (3 lambda^3 A10 T* n_H (1+z)^2/(32 pi H(z))); it is positive and grows with redshift.", "quantifier": "every sequence of calls of the setters of const and every redshift above -1", "why_tests_cant": "all sequences of setters and all redshifts; meandt is computed once at import", "anchors": ["src/tools21cm/temperature.py: mean_dt", "src/tools21cm/const.py: meandt, set_hubble_h, set_omega_baryon, set_abundance_helium"]}
{"id": "C99", "title": "Signal of a cube cell by cell", "statement": "calc_dt(xfrac, dens, z) returns a cube of the same shape in which the signal of a cell is mean_dt(z) times its neutral fraction times its density relative to the mean: zero in ionised and in empty cells, at most that of neutral gas, independent of the other cells; its average is mean_dt(z) times the mass-weighted neutral fraction.", "quantifier": "all cubes of ionised fractions and densities and all redshifts", "why_tests_cant": "all cubes; the unit of the densities is guessed from the sign of the smallest one", "anchors": ["src/tools21cm/temperature.py: calc_dt, _dt"]}
{"id": "C100", "title": "Redshift of the signal from the file", "statement": "If no redshift is given, calc_dt and calc_dt_full use that of the file of ionised fractions, else that of the densities (else that of the temperatures), and refuse the call if there is none; a given redshift is used as it is.", "quantifier": "every kind of argument (array, object of the file classes, name) and every name", "why_tests_cant": "all names and combinations of kinds of arguments", "anchors": ["src/tools21cm/temperature.py: calc_dt, calc_dt_full", "src/tools21cm/helper_functions.py: determine_redshift_from_filename"]}
{"id": "C101", "title": "Signal of a lightcone at the redshifts of its slices", "statement": "calc_dt_lightcone(xfrac, dens, lowest_z, los_axis) gives every cell the signal at the redshift of its slice, which is that of the comoving distance of lowest_z plus the number of cells along los_axis times the cell size.", "quantifier": "all lightcones and all lines of sight", "why_tests_cant": "all shapes and axes; a cubic lightcone with another axis is processed without complaint", "anchors": ["src/tools21cm/temperature.py: calc_dt_lightcone, _dt"]}
{"id": "C102", "title": "Signal for finite spin temperatures", "statement": "calc_dt_full gives (1-Tcmb/Ts) times the signal of calc_dt: emission for gas hotter than the background, absorption for colder gas, growing with Ts to the limit of calc_dt; with the correction Ts is that of the neutral part of the cell, not below the adiabatic limit; completely ionised cells give zero. For lightcones the redshift of the slice is used.", "quantifier": "all cubes of densities, ionised fractions and temperatures, all redshifts, with and without correction", "why_tests_cant": "limits and bounds over all temperatures and ionised fractions, completely ionised cells included", "anchors": ["src/tools21cm/temperature.py: calc_dt_full, calc_dt_full_lightcone, _dt_full"]}
{"id": "C103", "title": "Signal from halo masses", "statement": "calc_dt_halo(mhalo, box_dim, z) gives a cube whose average is mean_dt(z) times the mass in units of the mean baryonic mass of the box of length box_dim; a cell with the mean mass has the mean signal, an empty cell none.", "quantifier": "all meshes of masses, boxes and redshifts", "why_tests_cant": "all shapes of meshes", "anchors": ["src/tools21cm/temperature.py: calc_dt_halo"]}
{"id": "C104", "title": "Power of Gaussian random fields", "statement": "The fields that make_gaussian_random_field(dims, box_dims, P) returns have, averaged over the random numbers, at every mode with a wave number k > 0 the power P(k), as power_spectrum_nd measures it; at k = 0 it is the power at a tenth of the smallest wave number. dims with other than two or three axes, or box_dims with another length, raise.", "quantifier": "all shapes, box sizes, nonnegative power spectra and modes; expectation over all random numbers", "why_tests_cant": "an expectation over a continuous distribution for every mode and shape; tests see a few realisations binned in k", "anchors": ["src/tools21cm/gaussian_random_field.py: make_gaussian_random_field"]}
{"id": "C105", "title": "Betti numbers", "statement": "For cells above a threshold, betti0 is the number of connected structures (0 iff there are none, 1 iff all are joined by paths, additive for separate structures), betti2 the number of cavities they enclose and betti1 the number of their tunnels; a single cell has 1, 0 and 0, a box without structures has 0, 0 and 0. Connectivity and periodicity are those of EulerCharacteristic.", "quantifier": "all shapes, data, thresholds and numbers of neighbours", "why_tests_cant": "connectivity of arbitrary sets of cells in arbitrary boxes", "anchors": ["src/tools21cm/topology.py: betti0, betti1, betti2"]}
{"id": "C106", "title": "Percolation cluster", "statement": "find_percolation_cluster returns the number of cells of the region above the threshold that spans the box, and otherwise 0.", "quantifier": "all shapes and data", "why_tests_cant": "spanning paths of arbitrary regions", "anchors": ["src/tools21cm/percolation.py: find_percolation_cluster"]}
{"id": "C107", "title": "Regions by k-means", "statement": "bubbles_from_kmeans(data, upper_lim, n_clusters) marks exactly the cells that k-means puts into the cluster with the lowest (upper_lim) or the highest centre; data with one value are one region.", "quantifier": "all data, clusters found by k-means, and both limits", "why_tests_cant": "all distributions of the data; tests use well-separated peaks", "anchors": ["src/tools21cm/identify_regions.py: bubbles_from_kmeans, threshold_kmeans, threshold_kmeans_3cluster"]}
{"id": "C108", "title": "Frequency channels average the slices they cover", "statement": "bin_lightcone_in_frequency(lightcone, z_low, box, dnu) returns channels that start at the frequency of the first slice, are dnu apart and stay above the frequency of the last slice, and every channel is the average of the input slices it covers: weights sum to one, so a uniform lightcone stays uniform, and two channels or more are needed.", "quantifier": "every physical cosmology, lightcone, lowest redshift, box size and channel width, and every number of slices", "why_tests_cant": "whether the average is centred, one-sided or loses weight at the ends depends on the ratio of channel to cell width and on the position along the line of sight; tests compare shapes", "anchors": ["src/tools21cm/angular_coordinates.py:259-301", "src/tools21cm/helper_functions.py:514-554"]}
{"id": "C109", "title": "Slices in Mpc and their redshifts", "statement": "bin_lightcone_in_mpc(lightcone, frequencies, cell) returns one redshift for every slice of its output, slice i lies at i cells behind the first input slice, and is the average of the input slices around that distance, so a uniform lightcone stays uniform.", "quantifier": "every physical cosmology, lightcone, strictly decreasing list of positive frequencies and cell size", "why_tests_cant": "lengths agree only for cell sizes that divide the depth exactly, which test data may or may not hit; edge slices lose weight only for wide averages", "anchors": ["src/tools21cm/angular_coordinates.py:303-325"]}
{"id": "C110", "title": "Observational lightcones have the same angular cells in every channel", "statement": "physical_lightcone_to_observational converts every lightcone: in the padding modes each channel has int(field of view at the lowest redshift / dtheta) cells along both axes, cell (x, y) of a channel is cell (x mod n, y mod n) of the binned slice resampled to the n cells the box fills at the redshift of the channel, and the cropping modes return the middle int(field of view at the highest redshift / dtheta) cells.", "quantifier": "every flat physical cosmology, lightcone, lowest redshift, channel width, angular resolution, box size and mode", "why_tests_cant": "whether a conversion fails depends on the ratio of the distances at the two ends of the lightcone, and the size of the padding on rounding in every channel", "anchors": ["src/tools21cm/angular_coordinates.py:17-108", "src/tools21cm/angular_coordinates.py:166-201", "src/tools21cm/angular_coordinates.py:328-335"]}
{"id": "C111", "title": "The correlation function belongs to the radii returned with it", "statement": "ps_to_corr returns radii and, for every one of them, the integral of 4 pi k^2 P(k) sin(kr)/(kr) over the given wavenumbers by the trapezoidal rule, leaving out the bins with no finite power. A number of bins gives that many radii from two cells to half the box, in equal steps of the radius or of its logarithm; without a box size the current one is used, and a list of radii is accepted like an array.", "quantifier": "for all power spectra, wavenumbers, radii, numbers of bins, box sizes and both kinds of binning", "why_tests_cant": "A test compares the result at a few radii with a stored or plotted curve; a constant factor in the argument of the kernel changes the shape smoothly and is only visible when the value at every radius is related to the integral itself.", "anchors": ["src/tools21cm/corr_function.py:8-32"]}
{"id": "C112", "title": "The Landy-Szalay estimator counts pairs by their distance", "statement": "landy_szalay_estimator counts in every bin the pairs of data points, of random points, and of one data and one random point whose distance lies in the bin, each divided by the number of such pairs, and returns (DD - 2 DR + RR)/RR with the centres of the bins. The bins can be a number, giving edges in equal steps of the radius or of its logarithm, or the edges themselves.", "quantifier": "for all sets of data and random points, numbers of bins, edges, smallest and largest radii and both kinds of binning", "why_tests_cant": "The counts of random points have no known value a test could compare with, and a histogram of the wrong quantity still returns non-negative counts of the right length for every catalogue.", "anchors": ["src/tools21cm/corr_function.py:106-177"]}
{"id": "C113", "title": "The antenna sensitivity and the thermal noise follow the radiometer equation", "statement": "get_SEFD returns, in the shape of the frequencies, 2 k T_sys / (efficiency times area) in jansky, whether the system temperature and the aperture efficiency are defaults, numbers or functions; given a table it interpolates the logarithm linearly, whatever the order of the table, and extrapolates beyond its ends. sigma_noise_radio returns the rms of one visibility, SEFD over the square root of twice bandwidth and integration time, and of the image, the same over the square root of the number of baselines and of the integrations, in micro-jansky; the latter does not depend on the integration time.", "quantifier": "for all frequencies, temperatures, efficiencies, diameters, tables, bandwidths, observing and integration times and numbers of antennas", "why_tests_cant": "The argument can take many forms in combination (numbers, functions, arrays, tables in any order) and a test checks one combination at one frequency; a wrong power of the bandwidth or of the number of antennas only shows when the arguments are varied over all values.", "anchors": ["src/tools21cm/radio_telescope_sensitivity.py:10-96", "src/tools21cm/radio_telescope_sensitivity.py:98-164"]}
{"id": "C114", "title": "Noise maps have the covariance of the sampled visibilities", "statement": "The pixels of noise_map have mean zero and the covariance of independent visibility noise in the sampled cells of the UV map: with natural weighting a cell counts with the inverse of its number of visibilities, with uniform weighting equally, cells that are not sampled not at all. All pixels have the same variance, inversely proportional to bandwidth and observing time and independent of the integration time, and for even coverage equal to the square of the sigma of sigma_noise_radio.", "quantifier": "for all UV maps, sizes, telescopes, weightings, options and pairs of pixels, in the mean over the random numbers", "why_tests_cant": "The statement is about expectations over random maps; a test sees single realisations with a seed and can only bound the variance statistically, for one UV map.", "anchors": ["src/tools21cm/radio_telescope_noise.py:320-397", "src/tools21cm/radio_telescope_noise.py:435-473", "src/tools21cm/radio_telescope_noise.py:504-526", "src/tools21cm/radio_telescope_noise.py:49-76"]}
{"id": "C115", "title": "Noise cubes are made of independent slices with the noise of their frequency", "statement": "noise_cube_coeval, noise_lightcone and noise_cube_lightcone return as many slices as cells or redshifts, in mK. Different slices are uncorrelated; each has mean zero and the covariance of noise_map for its redshift, UV map and bandwidth, divided by the square of the flux of one mK in a pixel. The bandwidth of a slice of a lightcone is the frequency difference to the next one, for the last to the one before.", "quantifier": "for all redshifts, UV maps, telescopes, box sizes and pairs of pixels, in the mean over the random numbers", "why_tests_cant": "Correlations between slices and the dependence of the variance on the position along the line of sight are properties of the distribution; a test sees one realisation, and end effects appear at the last slice or at special lists of redshifts only.", "anchors": ["src/tools21cm/radio_telescope_noise.py:683-727", "src/tools21cm/radio_telescope_noise.py:729-766", "src/tools21cm/radio_telescope_noise.py:768-868"]}
{"id": "C116", "title": "The noise power spectrum averages the noise power of the UV cells", "statement": "noise_coeval_power_spectrum_1d returns for every bin the mean over its modes of the noise power of the UV cells, the square of the visibility rms over the number of visibilities times the area of the box over the number of pixels squared. It falls with the observing time, leaves out cells without visibilities and can be had for natural and uniform weighting.", "quantifier": "for all UV maps, numbers of bins, edges, box sizes, telescopes and observing times", "why_tests_cant": "A test with a UV map without empty cells never meets the cumulative sums in the histogram becoming infinite, and a missing dependence on an argument is not visible in a single value.", "anchors": ["src/tools21cm/radio_telescope_noise.py:78-180", "src/tools21cm/power_spectrum.py:98-134"]}
{"id": "C117", "title": "An image is seen through the sampled UV cells only", "statement": "apply_uv_response_on_image keeps the Fourier amplitudes of an image at the sampled cells of the UV map and removes all others; it is linear, keeps the total flux exactly if the zero baseline is sampled, and a second pass changes nothing. apply_uv_response_on_coeval does this for every slice of a cube. Images and maps of unequal shape raise.", "quantifier": "for all images, cubes and UV maps and all waves", "why_tests_cant": "Removal of all unsampled modes and of nothing else is a statement about every Fourier mode of every image; with a symmetric map, as tests use, taking the real part is harmless, with another one it mixes opposite modes.", "anchors": ["src/tools21cm/radio_telescope_noise.py:528-552", "src/tools21cm/radio_telescope_noise.py:656-681"]}
{"id": "C118", "title": "max_baseline removes the longer baselines from the UV map", "statement": "With max_baseline, get_uv_map keeps the counts of the cells whose baseline is at most max_baseline and sets those of longer baselines to zero. max_baseline_to_max_k gives the wave number 2 pi u / D of the longest baseline, u being its length in wavelengths and D the comoving distance.", "quantifier": "for all UV maps, numbers of cells, box sizes, redshifts and maximal baselines", "why_tests_cant": "An offset of the grid of wave numbers by a fraction of a cell and the parity of the number of cells show in a few cells near the cut only.", "anchors": ["src/tools21cm/radio_telescope_noise.py:554-575", "src/tools21cm/radio_telescope_noise.py:615-623"]}
{"id": "C119", "title": "Briggs weights run from uniform to natural", "statement": "apply_uv_response_noise_briggs gives no noise to cells without baselines. For robust = -2 the noise of the sampled cells is near that of uniform weighting, independent of the number of baselines, and for robust = +2 near that of natural weighting, falling with the square root of the number of baselines.", "quantifier": "for all UV maps, noise arrays and values of robust", "why_tests_cant": "The limits are statements about a continuous parameter; a test of one value only compares numbers.", "anchors": ["src/tools21cm/radio_telescope_noise.py:475-502"]}
{"id": "C120", "title": "remove_wedge_image removes the foreground wedge", "statement": "remove_wedge_image removes the Fourier modes of a cube inside the foreground wedge, those with a small wave number along the line of sight compared to the one across it, and keeps those outside; with a filter given by the user it multiplies the modes by the filter, and a filter of ones changes nothing. diabolo_filter and barrel_filter return a filter for ncells or for the shape of an array.", "quantifier": "for all cubes, box sizes, slopes, filters and all waves", "why_tests_cant": "It is a statement about every Fourier mode; the reversal of the wedge, the parity of the number of cells and the offset of the wave numbers need the amplitudes of the result for arbitrary cubes.", "anchors": ["src/tools21cm/foreground_model.py:96-123", "src/tools21cm/foreground_model.py:125-142", "src/tools21cm/foreground_model.py:144-149"]}
{"id": "C121", "title": "The primary beam is a normalised, centred, circular pattern", "statement": "circular_beam returns a beam with values from 0 to 1 which is 1 at the centre of the map, does not grow with the distance from it and has the width set by l_null (by default 1.22 wavelengths over the diameter of the station): the step beam is 1 within half of the diameter of the first null, the Gaussian beam has the full width at half maximum l_null / 1.186, the Bessel beam is the Airy disk and the sigmoid beam falls to a half at half of l_null. primary_beam multiplies an image, or every slice of a lightcone, by the beam of its redshift.", "quantifier": "for all numbers of cells, box sizes, nulls, redshifts, images and lightcones", "why_tests_cant": "Monotonicity, symmetry and the width are statements about all distances and grids; tests compare a few pixels of one even grid.", "anchors": ["src/tools21cm/primary_beam.py:13-50", "src/tools21cm/primary_beam.py:52-60", "src/tools21cm/primary_beam.py:62-104"]}
{"id": "C122", "title": "Synchrotron foregrounds have the requested angular power", "statement": "galactic_synch_fg returns, for every redshift, a map of Gaussian fluctuations of the brightness temperature about zero whose angular power spectrum is 513 mK^2 (1000/l)^2.34 (nu/150 MHz)^(-5.6-0.2 log(nu/150 MHz)) and with the same pattern at all redshifts.", "quantifier": "for all redshifts, box sizes, numbers of cells and all random numbers", "why_tests_cant": "Power and mean are statements about the distribution of the maps; a test sees one realisation of one size and cannot tell a modulus from a fluctuation about zero.", "anchors": ["src/tools21cm/foreground_model.py:12-51"]}
{"id": "C123", "title": "Point source foregrounds hold all sources of the counts", "statement": "extragalactic_pointsource_fg draws as many sources as the counts 10^3.75 S^-1.6 predict for the field of view and S_max, with fluxes distributed like these counts and spectral indices from 0.7 to 0.8, and returns for every redshift the map of the sum of their brightness temperatures.", "quantifier": "for all redshifts, box sizes, numbers of cells, maximal fluxes and all draws", "why_tests_cant": "The number of sources, the distribution of their fluxes and shared pixels are statements about all draws and grids; a test of one seed sees a map without a reference.", "anchors": ["src/tools21cm/foreground_model.py:53-93"]}
{"id": "C124", "title": "The rolling wedge removal removes the wedge of each channel", "statement": "rolling_wedge_removal_lightcone returns a lightcone of the same shape in which, for every frequency channel, the modes along the line of sight inside the foreground wedge of the redshift of the channel and its buffer are removed and those outside are kept; the result is linear in the lightcone, does not depend on the unit of length and depends on the chunk_length neighbouring channels only.", "quantifier": "for all lightcones, redshifts, chunk lengths, thresholds and all waves", "why_tests_cant": "It is a statement about every wave and every channel; a test compares a power spectrum of one lightcone before and after.", "anchors": ["src/tools21cm/foreground_model.py:152-207"]}
{"id": "C125", "title": "The bispectrum is the mean over closed triangles", "statement": "Bispectrum(a, box_dims).bispectrum_fast with the transform and magnitudes of fft_nd returns the mean, over all closed triangles of waves of the grid with sides in the three shells, of the product of the three amplitudes, divided by the volume; bispectrum_k1k2 and bispectrum_k return these for a range of sides. Moving the field around the box or adding a constant changes nothing, and multiplying it by c multiplies the value by c cubed.", "quantifier": "for all fields, box lengths, side lengths and shell widths", "why_tests_cant": "The estimator uses products of three inverse transforms; that these count exactly the closed triangles is a statement about all triples of waves of all grids, and it depends on the parity of the grid.", "anchors": ["src/tools21cm/bispectrum.py:17-37", "src/tools21cm/bispectrum.py:39-205"]}
{"id": "C126", "title": "Every halo is put into the cell that contains it", "statement": "halo_list_to_grid(mass, pos_xyz, box_dim, n_grid) returns an array whose cell (i, j, k) holds the sum of the masses of the haloes with coordinates between i and i+1 (j, k likewise) in units of box_dim/n_grid; haloes on the upper face belong to the last cell. The sum over the cells is the sum over the haloes. Masses and positions may carry units of astropy.", "quantifier": "for all lists of haloes, box lengths and numbers of cells", "why_tests_cant": "A test with haloes spread over the whole box finds them in nearly the right cells; that the cells are those of the box for any list of haloes is a statement about all positions.", "anchors": ["src/tools21cm/nbody_file.py:196-252", "src/tools21cm/nbody_file.py:282-321"]}
{"id": "C127", "title": "Halo2Grid returns the occupied cells with their totals", "statement": "After set_halo_pos and set_halo_mass, halo_mass_on_grid() returns the indices of the cells which contain haloes and the mass in each; halo_value_on_grid(value) does the same for any other property of the haloes. Positions may be given in cm or Mpc and masses in kg, gram or solar masses, without an effect on the result, and the totals add up to the mass of all haloes.", "quantifier": "for all lists of haloes, values and units", "why_tests_cant": "Whether masses set before are used, whether no cell is lost and whether units agree are statements about all lists of haloes and values, of either sign.", "anchors": ["src/tools21cm/nbody_file.py:196-280"]}
{"id": "C128", "title": "The map of neutral hydrogen follows the recipe of Padmanabhan et al.", "statement": "M_HI_on_grid(z, mass, pos_xyz, box_dim, n_grid, cosmo) gives every halo of mass M the mass of neutral hydrogen alpha f M (M / (10^11 / h))^beta exp(-(v_c0/v_c)^3), where f is the cosmic fraction of hydrogen and v_c = 96.6 km/s (178 Omega_m h^2/24.4)^(1/6) ((1+z)/3.3)^(1/2) (M/10^11)^(1/3) its circular velocity, and adds these up in the cells of the box. Heavier haloes have more hydrogen, the total on the grid is the total over the haloes, and masses and positions may independently have units.", "quantifier": "for all haloes, cosmologies, redshifts and parameters", "why_tests_cant": "The recipe has real exponents and depends on the cosmology; a test compares a few maps against stored ones, and a pivot or velocity wrong by powers of h looks plausible.", "anchors": ["src/tools21cm/line_intensity.py:9-74"]}
{"id": "C129", "title": "The map of ionised carbon follows the recipes of Silva et al.", "statement": "L_CII_on_grid(z, mass, pos_xyz, box_dim, n_grid, SFR, recipe) gives every halo the luminosity 10^b SFR^a with the coefficients of the recipe m1 to m4, or those given, and adds these up in the cells of the box. SFR is a function of mass and redshift, a dictionary of parameters or nothing; with the default rate heavier haloes are brighter. The total on the grid is the total over the haloes, and masses and positions may independently have units.", "quantifier": "for all haloes, redshifts, rates and recipes", "why_tests_cant": "That the luminosity grows with mass follows from the signs of a product of four real powers for all masses; the kinds of the argument SFR include one that no test calls.", "anchors": ["src/tools21cm/line_intensity.py:76-164"]}
{"id": "C130", "title": "Magnitudes, fluxes and fields of view convert consistently", "statement": "mag_to_flux(m) is the flux density of AB magnitude m, with the zero point 3631 Jy; Muv_to_muv(M, z) is the magnitude of the flux received from a source that has the magnitude M at 10 pc, with the luminosity distance and the stretching of frequency intervals by 1 + z; muv_to_Muv is its inverse; Muv_to_L1500 gives the luminosity; FoV_cMpc2 gives the comoving area of a field given in square degrees. Numbers, arrays and quantities are accepted.", "quantifier": "for all magnitudes, redshifts, cosmologies and kinds of arguments", "why_tests_cant": "Consistency of the conversions is a set of laws of real powers and logarithms over all magnitudes and distances, and the kinds of arguments that are refused include the documented ones.", "anchors": ["src/tools21cm/astro_tools.py:7-35", "src/tools21cm/astro_tools.py:38-58", "src/tools21cm/astro_tools.py:61-147"]}
{"id": "C131", "title": "The bubble model fills the box with spheres up to the target", "statement": "spherical_bubble_model(n, x_ion, r, ...) returns a cube of zeros and ones in which the ionised region is that of the cube given and the periodic balls of radius r around randomly chosen centres. Every centre is neutral when its batch is chosen; for the non-overlapping distributions no ionised cell lies within r of it. Bubbles are added until the filling fraction reaches x_ion, or for max_iter batches; the target is exceeded by less than one batch. If what is missing is smaller than one batch the cube is returned as it is. paint_kernel adds the kernel to the cube at the positions. The array given as cube is not changed and may hold partial ionisation.", "quantifier": "for all box sizes, radii, targets, batch sizes, initial cubes and random choices", "why_tests_cant": "The choices are random: only a proof over all choices says where bubbles may lie and by how much the target is exceeded; tests with one seed and small bubbles do not see wrong periodicity or doubled values.", "anchors": ["src/tools21cm/test_case.py:10-32", "src/tools21cm/test_case.py:34-122"]}
{"id": "C132", "title": "The analytical noise error follows the radiometer equation", "statement": "noise_error_ps(nu_c, k, t, ...) is equation 11 of Mellema et al. (2013) in mK^2: inversely proportional to the time and to the square of the number of stations, proportional to the square of the system temperature and of the radius of the core, to k^(3/2), to the power -3/2 of the area of a station and -1/2 of the width of the bins, and larger by sqrt(2l+1) for the multipole l. It is positive and decreases with the bandwidth. Without options it describes a LOFAR-like array with 10 MHz and bins of width k; area and temperature may be functions of the frequency; k may be a number or array-like.", "quantifier": "for all frequencies, modes, times, arrays and cosmologies", "why_tests_cant": "Scaling laws relate infinitely many pairs of calls; that the error decreases with the bandwidth needs the convexity of the comoving distance as a function of frequency.", "anchors": ["src/tools21cm/power_spectrum_noise.py:10-66"]}
{"id": "C133", "title": "Power spectrum multipoles are Legendre coefficients", "statement": "power_spectrum_multipoles(input_array, kbins, box_dims, los_axis, output) returns the Legendre multipoles P0, P2 and P4 of the power spectrum in every bin of k, and the number of Fourier modes of the bin.", "quantifier": "for all arrays, bins, boxes and lines of sight", "why_tests_cant": "That an estimate is a Legendre coefficient is a statement about all spectra and all sets of modes; no example of the test suite calls the function.", "anchors": ["src/tools21cm/power_legendre.py:4-91"]}
{"id": "C134", "title": "The dimensionless spectrum is k^3 P(k)/(2 pi^2)", "statement": "dimensionless_ps(data, kbins, box_dims, binning, factor) returns k^3 P(k)/(2 pi^2) at kbins wave numbers spaced as asked, with P the spectrum of power_spectrum_1d.", "quantifier": "for all data, boxes, numbers of bins and factors", "why_tests_cant": "Interpolation errors and missing bins depend on the set of modes of the box and on the number of bins; the claim is over all of them.", "anchors": ["src/tools21cm/power_spectrum.py:536-561"]}
{"id": "C135", "title": "The anisotropy ratio compares the spectrum above and below a cut in mu", "statement": "anisotropy_ratio_r_mu(input_array, los_axis, mu_cut, ...) returns for every bin of k the mean of P(k, mu) over mu >= mu_cut, divided by the mean over mu < mu_cut, minus one, leaving out bins without modes; it vanishes for spectra that do not depend on mu. With return_n_modes it also returns the number of modes.", "quantifier": "for all arrays, cuts, bins and boxes", "why_tests_cant": "Which bins are without modes depends on box and bins; that isotropy gives zero is a statement about all spectra.", "anchors": ["src/tools21cm/power_spectrum.py:577-613"]}
{"id": "C136", "title": "Distributions of region sizes count every region once, by volume and by radius", "statement": "dist_from_volumes(sizes, resolution, bins) returns volumes v in cMpc^3, the probability of each, the effective radii r of balls of these volumes and the probability of each; the probability at a volume is the share of regions with sizes from it to the next volume, the probability of a radius is that of its volume, and each distribution adds up to one. get_distribution(array, resolution, bins) gives the same for an array of labels, or for sizes.", "quantifier": "for all lists of sizes, resolutions, numbers of bins and labellings", "why_tests_cant": "Agreement of the two histograms and the sum over all bins are statements about all lists of sizes; sample output looks like a smooth distribution whichever edge it is attached to.", "anchors": ["src/tools21cm/bubble_stats.py:342-382", "src/tools21cm/bubble_stats.py:385-400"]}
{"id": "C137", "title": "The volume fraction in regions of a size", "statement": "plot_fof_sizes(sizes, bins, boxsize, normalize) returns sizes, the fraction of the volume of the box (or with normalize='ionized' of the volume of the regions) in regions with sizes from each to the next, and the value used for empty bins.", "quantifier": "for all lists of sizes, numbers of bins, boxes and normalisations", "why_tests_cant": "Whether the volume of the regions in a bin is reproduced depends on all sizes within it.", "anchors": ["src/tools21cm/bubble_stats.py:402-414"]}
{"id": "C138", "title": "Converting a lightcone from angle and frequency to lengths", "statement": "observational_lightcone_to_physical(cone, freqs, dtheta) returns a volume with cubic cells of the coarser one of the angular and the frequency resolution, the redshifts along the line of sight and that cell size; every slice shows the field of view of the lowest redshift, cut from the slice resampled to that cell size, so that a slice which already has this resolution is unchanged. angular_slice_to_physical does this for one slice. Frequencies that do not decrease and slices that are not square are refused.", "quantifier": "for all lightcones, frequencies, angular resolutions and cosmologies", "why_tests_cant": "Cell counts follow from distances, rounding and parity; only some sizes show the extra cell.", "anchors": ["src/tools21cm/angular_coordinates.py:113-162", "src/tools21cm/angular_coordinates.py:203-234"]}
{"id": "C139", "title": "Geographic and Cartesian positions of antennas", "statement": "geographic_to_cartesian_coordinate_system(antll) returns the points of the sphere of 6371 km with the given longitudes and latitudes (degrees, or the unit of a Quantity), and cartesian_to_geographic_coordinate_system(antxyz) returns longitude, latitude and height of positions in metres, given as a plain array or a Quantity, without changing its argument; one undoes the other.", "quantifier": "for all arrays of positions and units", "why_tests_cant": "Units, quadrants of the longitude and the poles are cases of real numbers; a round trip on samples does not show which kinds of arguments work.", "anchors": ["src/tools21cm/radio_telescope_layout.py:270-308", "src/tools21cm/radio_telescope_layout.py:311-356"]}
{"id": "C140", "title": "Layouts of SKA-Low", "statement": "get_SKA_Low_layout(name, unit) returns the antennas of the named subarray in the system asked for (local east-north-up, Earth-centred, axes at the meridian of the array, or geographic) and refuses other names and units; subarray_type_to_antxyz returns these positions for a name, an array itself, and the old configuration otherwise, with the number of antennas.", "quantifier": "for all names, units, layout files and positions of the centre", "why_tests_cant": "Names and units are arbitrary strings, positions arbitrary vectors.", "anchors": ["src/tools21cm/radio_telescope_layout.py:12-40", "src/tools21cm/radio_telescope_layout.py:381-510"]}
{"id": "C141", "title": "Random fields with the power spectrum of a given field", "statement": "make_gaussian_random_field_like_field(input_field, box_dims, kbins) returns a random field of the same shape whose expected power spectrum is that of input_field.", "quantifier": "for all fields, boxes, numbers of bins and random draws with the stated moments", "why_tests_cant": "An expectation over random numbers and a claim about every mode; sample averages cannot separate an interpolation failure from noise.", "anchors": ["src/tools21cm/gaussian_random_field.py:65-105"]}
{"id": "C142", "title": "Fields with shuffled phases", "statement": "fourier_phase_shuffled(input_array) returns a real field of the same shape whose Fourier modes have the amplitudes of the input (hence the same power spectrum) and exchanged phases; the documentation says it removes the amplitude information.", "quantifier": "for all fields, shapes and outcomes of the shuffling", "why_tests_cant": "All permutations of the phases and all shapes; the failure depends on the parity of the shape and on the permutation.", "anchors": ["src/tools21cm/gaussian_random_field.py:107-125"]}
{"id": "C143", "title": "Effective Lyman-alpha depth along the line of sight", "statement": "tau_nu_lyA_los(z, xHI, dn, los_len, box_len, los_axis, method) returns an array of the shape of xHI whose entries are the effective optical depth, minus the logarithm of the mean transmission, of the stretch of length los_len around each cell along los_axis in the periodic box; los_len may be a number of cells or a length, and the documented methods work.", "quantifier": "for all fields, shapes, redshifts, window lengths, units, axes and methods", "why_tests_cant": "Windows that wrap around, even and odd lengths, every axis and unit: all combinations of shapes and windows.", "anchors": ["src/tools21cm/lyman_alpha_transmission.py:268-337"]}
{"id": "C144", "title": "Gunn-Peterson depth of a cell", "statement": "tau_nu_lyA_FGPA(z, xHI, dn, ...) returns for every cell the fluctuating Gunn-Peterson depth, proportional to oscillator strength, wavelength (in any unit), neutral fraction, one plus overdensity and (1+z)^3/H(z); arrays all above one are taken as densities.", "quantifier": "for all fields, cosmologies and options", "why_tests_cant": "A formula for all real parameters and units.", "anchors": ["src/tools21cm/lyman_alpha_transmission.py:140-200"]}
{"id": "C145", "title": "Line profile and cross section of Lyman alpha", "statement": "The Voigt profile is positive, symmetric and has the area of the Gaussian it broadens, whatever the damping; lyA_scattering_cross_section is symmetric around the line centre and its integral over frequency is pi e^2 f/(m_e c), independent of temperature.", "quantifier": "for all offsets, dampings, frequencies and temperatures", "why_tests_cant": "Integrals over all frequencies, for every temperature.", "anchors": ["src/tools21cm/lyman_alpha_transmission.py:11-98", "src/tools21cm/lyman_alpha_transmission.py:100-138"]}
{"id": "C146", "title": "Lyman-alpha depth of a comoving path", "statement": "tau_nu_lyA(z, xHI, Tk, dr, nu) returns cross section times column density of the neutral atoms along the comoving path dr at redshift z.", "quantifier": "for all redshifts, fractions, temperatures, lengths and frequencies", "why_tests_cant": "A relation between two functions for all real arguments, including the redshift.", "anchors": ["src/tools21cm/lyman_alpha_transmission.py:202-266"]}
{"id": "C147", "title": "Summary of weighted samples", "statement": "For every set of samples of any number of parameters with non-negative weights, SampledDistribution/GriddedProbabilities.add_distribution stores the weighted mean (within the range of the samples) and the weighted covariance, which for equal weights is the usual unbiased one; sigmas are the roots of its diagonal; the common scale of the weights does not matter; invalid weights raise.", "quantifier": "for all numbers of parameters, samples and weights", "why_tests_cant": "All dimensions, sample sizes and weights, including the degenerate ones.", "anchors": ["src/tools21cm/plotting.py:323-331", "src/tools21cm/plotting.py:535-546"]}
{"id": "C148", "title": "Credible intervals, coverage and PIT of weighted samples", "statement": "The stored median and the 68 and 95 per cent intervals divide the weight of the samples as their names say; the intervals are nested and within the samples; they follow a reflection of the parameter and do not depend on the order of the samples; the PIT of a value is the fraction of the weight not above it; coverage is membership in the interval.", "quantifier": "for all samples, weights, ties, orders of equal values and true values", "why_tests_cant": "A statement on every list of samples, including ties, for which the sort may choose any order.", "anchors": ["src/tools21cm/plotting.py:332-349", "src/tools21cm/plotting.py:364-366"]}
{"id": "C149", "title": "A weight is a number of repetitions", "statement": "A sample with the weight k counts like k equal samples of weight one: means, sigmas and intervals of a chain with multiplicities are those of the expanded chain.", "quantifier": "for all samples and natural weights", "why_tests_cant": "A relation between two inputs of different size, for all chains.", "anchors": ["src/tools21cm/plotting.py:325-331"]}
{"id": "C150", "title": "Comparison of a distribution with the true values", "statement": "With true values set, the z scores, RMSE and Mahalanobis distance are those of the parameters that have a true value (extra ones are ignored); the Mahalanobis distance does not change under invertible affine maps of the parameters, and the entropy by log|det|.", "quantifier": "for all samples, weights, true values and affine maps", "why_tests_cant": "An invariance under all invertible matrices in all dimensions.", "anchors": ["src/tools21cm/plotting.py:350-374"]}
{"id": "C151", "title": "Collection of distributions and labels", "statement": "Adding a distribution never loses an earlier one unless the caller repeats its label: distributions without label get distinct names in order; a repeated label replaces in place; missing parameter labels are filled with numbered ones after those given.", "quantifier": "for all sequences of distributions, labels and weights", "why_tests_cant": "All sequences of additions, with and without labels.", "anchors": ["src/tools21cm/plotting.py:302-317", "src/tools21cm/plotting.py:535-546"]}
{"id": "C152", "title": "Distributions on a grid", "statement": "GriddedProbabilities.add_distribution(grid) stores the moments of the distribution on the grid whose cell (i, j, ...) has the coordinates coords_1d[i], coords_1d[j], ...; grids whose axes do not match the coordinates raise.", "quantifier": "for all dimensions, coordinates and grids", "why_tests_cant": "A statement for every dimension and shape, with the order of the flattened array.", "anchors": ["src/tools21cm/plotting.py:514-532"]}
{"id": "C153", "title": "Table of a chain", "statement": "print_chain_stats prints for every named parameter the weighted mean and the non-negative distances to the limits of the central 68 per cent; it accepts integer weights and leaves the caller's weights alone; plot_triangle works with its default arguments.", "quantifier": "for all chains, weights and names", "why_tests_cant": "All samples and weights, and the state of the caller's arrays afterwards.", "anchors": ["src/tools21cm/plotting.py:138-167", "src/tools21cm/plotting.py:169-186"]}
{"id": "C154", "title": "Denoising with a UV threshold", "statement": "smooth_lightcone_uv_threshold(lightcone, uv_box, threshold) removes from every slice exactly the Fourier modes whose UV cell holds less than the threshold and keeps all others; it never adds power; a refused threshold raises.", "quantifier": "for all lightcones, UV maps (one for all slices or one per slice) and thresholds", "why_tests_cant": "A statement about all images, all maps and all modes, including maps without mirror symmetry.", "anchors": ["src/tools21cm/smoothing.py:484-504"]}
{"id": "C155", "title": "Observing an image with a UV map", "statement": "convolve_uvmap multiplies each Fourier mode of the image by the UV map in units of its largest value; with max_baseline the modes of longer baselines and the mean vanish and those that are left are not altered.", "quantifier": "for all images, maps, redshifts, box sizes and baselines", "why_tests_cant": "All images, all maps and all modes; the cut must be the same on all four corners of the map for every size.", "anchors": ["src/tools21cm/smoothing.py:506-549"]}
{"id": "C156", "title": "Observing a coeval cube with a UV map", "statement": "convolve_uvmap_coeval averages the cube along the frequency axis and observes each slice with the UV map; the result has the axes of the cube; the arguments uv_map and max_baseline are optional as documented.", "quantifier": "for all cubes, maps and frequency axes", "why_tests_cant": "The order of the axes has to be right for all cubes and each of the three choices of the frequency axis.", "anchors": ["src/tools21cm/smoothing.py:553-595"]}
{"id": "C157", "title": "Smoothing to the resolution of a telescope", "statement": "smooth_lightcone and smooth_coeval average along the frequency axis over the depth that corresponds to the resolution and convolve each slice with a normalised Gaussian of that width (in cells); the result has the shape of the data and stays between its smallest and largest values; smooth_coeval keeps the total. Redshifts may be given as a number, as an increasing or as a decreasing array.", "quantifier": "for all lightcones and cubes, redshifts, cosmologies, box sizes and baselines", "why_tests_cant": "A composition of two filters with different units, for all data and all widths.", "anchors": ["src/tools21cm/smoothing.py:333-403", "src/tools21cm/smoothing.py:427-482"]}
{"id": "C158", "title": "Genus of a cube", "statement": "genus(data, xth) is the genus of the surface between the cells that reach the threshold and those that do not: 0 for a block-shaped region in either phase, the same for a region and its complement, an integer, and independent of the threshold's value, of shifts of the periodic box and of the orientation of the region.", "quantifier": "for all cubes, thresholds, regions and positions", "why_tests_cant": "A topological invariant has to hold for all shapes, sizes and positions of the regions in both phases.", "anchors": ["src/tools21cm/topology.py:143-205"]}
{"id": "C159", "title": "The cross spectrum and the two spectra agree bin by bin", "statement": "cross_power_spectrum_1d(a, b) has the bins and numbers of modes of power_spectrum_1d(a) and power_spectrum_1d(b) for the same arguments; it is symmetric in the arrays, linear in each, equal to the power spectrum if they are equal, and in every bin its square is at most the product of the two spectra, so that the cross-correlation coefficient is between -1 and 1; the spectrum of a sum is the sum of the spectra and twice the cross spectrum. Arrays of different shapes fail an assertion.", "quantifier": "for all arrays of one to three dimensions, boxes, bins and kinds of binning", "why_tests_cant": "Inequalities and identities in every bin for all pairs of arrays and all forms of the arguments.", "anchors": ["src/tools21cm/power_spectrum.py:257-289", "src/tools21cm/power_spectrum.py:57-134"]}
{"id": "C160", "title": "The cross spectrum in k and mu agrees with the two spectra bin by bin", "statement": "cross_power_spectrum_mu(a, b) has the bins and numbers of modes of power_spectrum_mu(a) and power_spectrum_mu(b) for the same arguments; it is symmetric, linear, equal to the power spectrum for equal arrays, and in every bin of k and mu its square is at most the product of the two spectra.", "quantifier": "for all cubes, lines of sight, bins in k and mu, with and without the modes along the line of sight", "why_tests_cant": "Inequalities and identities in every bin for all pairs of cubes and all forms of the arguments.", "anchors": ["src/tools21cm/power_spectrum.py:292-377", "src/tools21cm/power_spectrum.py:380-435"]}
{"id": "C161", "title": "Smoothing with a Lanczos kernel", "statement": "smooth_lanczos(map, width) convolves the map with the normalised two-dimensional Lanczos kernel of the width in cells: the product of sinc(x) sinc(x/a) along both axes, zero beyond a. It keeps the shape, the total and constant maps, and does not displace the map; a width that is not positive gives no number.", "quantifier": "for all square maps and widths", "why_tests_cant": "Position and weights of the kernel for every size and width; sample maps show only one parity of the size.", "anchors": ["src/tools21cm/smoothing.py:142-164", "src/tools21cm/smoothing.py:213-247"]}
{"id": "C162", "title": "Interpolation of arrays at fractional indices", "statement": "interpolate2d and interpolate3d return an array whose shape is given by the numbers of coordinates, with the multilinear interpolation of the array at them: the values of the cells at integer coordinates and linear along every axis between neighbouring cells; coordinates are periodic with the size of the array, as mode='wrap' is meant, and linear interpolation is the default, as documented.", "quantifier": "for all arrays, numbers of axes and coordinates", "why_tests_cant": "All real coordinates in any number of axes; tests inside the array cannot see the wrong period outside.", "anchors": ["src/tools21cm/smoothing.py:272-303", "src/tools21cm/smoothing.py:306-331"]}
{"id": "C163", "title": "Fitting a function to samples", "statement": "FitFunction.fit(X, y) stores the optimum of the sum of squared errors started at fit_params, under the names of fit_params in their order, and predict evaluates the function at it; fit(X, y, cv=n) stores for every parameter the mean and standard deviation over the random splits whose optimum is finite and predicts the test samples better than their mean, and the scores of all splits with a finite optimum. What a call does depends on its own arguments and not on earlier calls.", "quantifier": "for all functions, parameters, samples, optimisers, splits and sequences of calls", "why_tests_cant": "The object keeps state between calls; the claim is about all sequences of calls, optimisers and random splits.", "anchors": ["src/tools21cm/fitting_methods.py:12-83"]}
{"id": "C164", "title": "The equilateral bispectrum measures equilateral triangles", "statement": "bispectrum_equilateral(array, n_bins, box_dims) measures one triangle with three equal sides for the centre of every one of n_bins bins, linear or logarithmic, between the fundamental mode of the box and the largest mode of the grid, in increasing order, and returns what the library returns for them.", "quantifier": "for all arrays with at least 3 cells along every side, boxes, numbers and kinds of bins, and all results of the library", "why_tests_cant": "The library is not installed in tests; the shape of the triangles is not visible in the numbers that are returned.", "anchors": ["src/tools21cm/bispectrum.py:208-252", "src/tools21cm/bispectrum.py:287-333"]}
{"id": "C165", "title": "Amplitude and phase describe the Fourier modes", "statement": "real_to_fourier_amplitude_phase(data) returns arrays of the shape of data with the amplitude and the phase of every Fourier mode: amplitude*exp(i*phase) gives the Fourier transform of data back.", "quantifier": "for all arrays of any number of axes and all modes", "why_tests_cant": "Wrong quadrants show only for some modes; the claim is about every mode of every array.", "anchors": ["src/tools21cm/helper_functions.py:21-26"]}
{"id": "C166", "title": "Saving data in the wanted format", "statement": "save_data(savefile, data, filetype) writes the data in the format named by filetype, or without one by the extension of the name, under the given name, and returns True; if neither names a format it writes nothing and returns False.", "quantifier": "for all file names and filetypes", "why_tests_cant": "The branches look at parts of the name; the claim is about all combinations of names and filetypes.", "anchors": ["src/tools21cm/helper_functions.py:403-419"]}
{"id": "C167", "title": "FITS files are read back", "statement": "Data saved with save_fits is read back by read_fits in double precision, also when the file existed before; other files are unchanged; the header is returned only when it is wanted.", "quantifier": "for all data, names and states of the file system, with and without pyfits", "why_tests_cant": "The result depends on the installed packages and on which files exist.", "anchors": ["src/tools21cm/helper_functions.py:265-316"]}
{"id": "C168", "title": "Smoothing of noise cubes", "statement": "smooth_gauss_3d(array, fwhm) of radio_telescope_noise returns an array of the shape of its argument in which every cell is the mean around that cell with Gaussian weights that fall to one half at fwhm/2; the total is kept and nonnegative arrays stay nonnegative.", "quantifier": "for all three-dimensional arrays and all widths", "why_tests_cant": "The claim is about all cells of all arrays and about exact conservation, which floating point samples only show approximately.", "anchors": ["src/tools21cm/radio_telescope_noise.py:870-920"]}
{"id": "C169", "title": "Box counting", "statement": "box_count_sliding(data, size, q, window) is the sum over all cells of the power q of the mean of data over a cube or a ball with a diameter of size cells around the cell, with nothing outside the box; other windows are rejected; Renyi_diemsnions extrapolates these counts.", "quantifier": "for all data, sizes of at least 1, natural exponents and windows", "why_tests_cant": "The shape of the window is not visible in the sum that is returned.", "anchors": ["src/tools21cm/box_counting.py:5-31"]}
{"id": "C170", "title": "Rays from a given point", "statement": "mfp_from_point(data, point) returns None if the point is not in the region (data at or above the threshold, at or below it with upper_lim) and otherwise the radii i*boxsize/n and, for each, the fraction of the random rays from the point that are inside for i steps and outside after the next; the fractions of all rays add up to 1.", "quantifier": "for all data in two or three dimensions, thresholds, points of the box, and all random directions", "why_tests_cant": "Rays are random; the claim holds for every draw. The type of the coordinates matters, which is not visible in the values.", "anchors": ["src/tools21cm/bubble_stats.py:255-329", "src/tools21cm/mfp_np.py:7-92", "src/tools21cm/mfp_np.py:94-165"]}
{"id": "C171", "title": "Distribution of mean ray lengths", "statement": "averaged_mfp(data) draws points of the region and returns the probability density per ln r of the mean length of the rays from the points, in 50 bins from the smallest to the largest mean, at the geometric centres of the bins; it integrates to 1 over all points. Without a region the density is zero.", "quantifier": "for all three-dimensional data, thresholds and random draws", "why_tests_cant": "Points and rays are random; the claim holds for every draw.", "anchors": ["src/tools21cm/bubble_stats.py:164-253"]}
{"id": "C172", "title": "Rebinning a size distribution", "statement": "rebin_bsd(rr, pp, bins, r_min, r_max) evaluates the interpolated curve at bins sizes with a constant ratio from r_min to r_max, by default the smallest and the largest of rr, or at the given sizes.", "quantifier": "for all curves, numbers or lists of bins and limits", "why_tests_cant": "The default limits depend on the unit of the sizes; tests use boxes for which they happen to be inside.", "anchors": ["src/tools21cm/bubble_stats.py:332-339"]}
{"id": "C173", "title": "Signal-to-noise ratios of superpixels", "statement": "get_superpixel_SNRs(means, sigmas, n_pix) returns the superpixels in increasing order of the mean: at each index the ratio, the mean, the deviation and the number of pixels of the same superpixel, and with pixels=True its pixels.", "quantifier": "for all lists of superpixels and every sorting of the means", "why_tests_cant": "Four lists have to be permuted in the same way for all inputs, ties included.", "anchors": ["src/tools21cm/superpixels.py:170-182"]}
{"id": "C174", "title": "Mean of the significant superpixels", "statement": "mean_estimate returns the mean depth (minus the mean, weighted with the numbers of pixels) and the standard deviation of the pixels of all superpixels whose ratio is below -|SNR_thres|, and 0, 0 if there are none; means, sigmas and n_pix that are not given are computed from data and labels.", "quantifier": "for all superpixels with deviations that are not negative, and all thresholds of either sign", "why_tests_cant": "The result must not depend on the order of superpixels nor on the sign of the threshold, with deviations of zero too.", "anchors": ["src/tools21cm/superpixels.py:193-205", "src/tools21cm/superpixels.py:207-212"]}
{"id": "C175", "title": "Threshold from the histogram of superpixels", "statement": "stitch_using_histogram marks the cells below a threshold: if the histogram of the means has one peak, the centre of the bin before the peak that is farthest from the line through the first bin and the peak, otherwise the threshold of Otsu; if all means agree no cell is marked.", "quantifier": "for all histograms, data and maps", "why_tests_cant": "The shape of the histogram decides which branch is taken; histograms that fall from the first bin are rare in tests.", "anchors": ["src/tools21cm/superpixels.py:73-110"]}
{"id": "C176", "title": "Spherically averaged spectrum of power_spect_fast", "statement": "power_spect_fast.power_spect_1d puts each mode of the box with a wave number between the smallest bin edge and the largest wave number into exactly one bin, of equal width (linear) or ratio (log), and returns per bin the average power of its modes, the centre and their number; dimensional_power returns k^3 P/(2 pi^2) per bin.", "quantifier": "for all three-dimensional arrays, box sizes (number or three numbers), numbers of bins and scales", "why_tests_cant": "Membership of every mode in exactly one bin is a claim about all shapes and all edges; a total over a few boxes hides an overlap of neighbouring bins.", "anchors": ["src/tools21cm/power_spect_fast.py:81-141", "src/tools21cm/power_spect_fast.py:234-237"]}
{"id": "C177", "title": "Cylindrically averaged spectrum of power_spect_fast", "statement": "power_spect_fast.power_spect_2d returns for each pair of bins across and along the line of sight the average power of all modes whose two wave numbers are within the edges, with every mode different from the mean in one bin; edges given by the user are used as they are.", "quantifier": "for all arrays, box sizes, lines of sight, numbers of bins or edges, and scales", "why_tests_cant": "Which of the modes are in no bin at all depends on the edges, chosen from the data; a table of averages does not show the modes left out.", "anchors": ["src/tools21cm/power_spect_fast.py:143-231"]}
{"id": "C178", "title": "Windows of power_spect_2d", "statement": "power_spect_2d with a window returns the spectrum of the data multiplied with the window along the line of sight, and leaves the data of the caller as they are; a window may be given as a name or as an array.", "quantifier": "for all windows, arrays and lines of sight", "why_tests_cant": "A change of the caller's data shows only in a later call; the tests look at the returned table.", "anchors": ["src/tools21cm/power_spect_fast.py:165-178"]}
{"id": "C179", "title": "Spectrum in wave number and cosine of power_spect_fast", "statement": "power_spect_fast.power_spect_mu returns for each bin of the wave number and of the cosine of the angle to the line of sight the average power of exactly the modes within both bins, and their number.", "quantifier": "for all arrays, box sizes, numbers of bins, both scales for either variable and all lines of sight", "why_tests_cant": "The cosine and the wave number of a mode must belong to the same position of two arrays of which one is compressed; an average over nearly isotropic noise hides a shift by one.", "anchors": ["src/tools21cm/power_spect_fast.py:239-280"]}
{"id": "C180", "title": "Intersection over union of segmented maps", "statement": "iou(y_true, y_pred) of two binary maps is the number of common cells divided by the number of cells of either (1 if both are empty), is 1 for equal maps only, and for maps with values from 0 to 1 lies between 0 and 1 and does not depend on the order of the maps.", "quantifier": "for all maps of any number of cells", "why_tests_cant": "The bounds and the converse (1 only for equal maps) are about all pairs of maps; the empty union is a branch of its own.", "anchors": ["src/tools21cm/segmentation.py:53-59"]}
{"id": "C181", "title": "Dice coefficient of segmented maps", "statement": "dice_coef(y_true, y_pred, smooth) returns for each row along the last axis (2|A and B| + smooth)/(|A| + |B| + smooth) of the two binary rows; for any values it is above 0, at most 1, and 1 only if the rows agree up to signs, and it is symmetric; with smooth=0 only rows that are empty in both maps are not numbers.", "quantifier": "for all tensors and all positive smooth", "why_tests_cant": "An inequality with its case of equality over all real tensors.", "anchors": ["src/tools21cm/segmentation.py:61-66"]}
{"id": "C182", "title": "Precision and recall of segmented maps", "statement": "precision(y_true, y_pred) is the fraction of the predicted cells that are true and recall the fraction of the true cells that are predicted.", "quantifier": "for all binary maps of any number of cells", "why_tests_cant": "The clipping at K.epsilon() adds an error proportional to the number of cells, which small test tensors do not show.", "anchors": ["src/tools21cm/segmentation.py:68-84"]}
{"id": "C183", "title": "r2score of a prediction", "statement": "r2score(y_true, y_pred) is at most 1, is 1 only for the true values, does not change if a constant is added to both, and exceeds the coefficient of determination of a y_true that varies by at most K.epsilon()/scatter of the unexplained fraction.", "quantifier": "for all tensors and all positive epsilon", "why_tests_cant": "Bounds over all tensors, including those that hardly vary.", "anchors": ["src/tools21cm/segmentation.py:86-92"]}
{"id": "C184", "title": "Balanced cross entropy", "statement": "balanced_cross_entropy(y_true, y_pred) is the average of -beta y log p - (1 - beta)(1 - y) log(1 - p) with beta the fraction of cells that are not true and p the clipped prediction.", "quantifier": "for all labels and predictions", "why_tests_cant": "The stable form in logits has to agree with the definition on both branches of the sign, for all weights; balanced samples hide an exchange of the weights.", "anchors": ["src/tools21cm/segmentation.py:22-51"]}
{"id": "C185", "title": "Images seen with gains", "statement": "apply_uv_with_gains_response_on_image(image, gain_uv_map) multiplies each Fourier amplitude of the image by the mean visibility g_i conj(g_j) of the baselines in its cell and removes cells without hits; with gains of one it is the image seen through the map of hits; an image of another shape raises.", "quantifier": "for all square images and all gain maps of their size", "why_tests_cant": "A test with gains of one shows nothing of the square root and of the channel that is taken for the imaginary part; the cells without hits divide zero by zero.", "anchors": ["src/tools21cm/radio_telescope_calibration.py:249-284"]}
{"id": "C186", "title": "When gains change", "statement": "get_uv_map_with_gains grids the baselines of every time step once, with the gains drawn last; the gains of two steps are the same draw if and only if no multiple of one of the gain_timescale lies between their times; without time scales, with a scale of zero or with fewer than two baselines it raises.", "quantifier": "for all grids, time scales, integration times, numbers of steps and sequences of draws", "why_tests_cant": "Gains are random and only their accumulated sums are returned, so that a draw that is missed leaves no trace; the default time scales are multiples of the default integration time.", "anchors": ["src/tools21cm/radio_telescope_calibration.py:106-184"]}
{"id": "C187", "title": "Baselines with gains", "statement": "from_antenna_config_with_gains returns one line for each pair of antennas with the baseline in wavelengths and four products from which the visibility g_i conj(g_j) follows, however the gains are given: by name, by real and imaginary part, by amplitude and phase, as an array of two columns or of complex numbers.", "quantifier": "for all lists of antennas, all wavelengths and all gains", "why_tests_cant": "Random gains have no reference value, and shapes are right even if phases are taken for imaginary parts.", "anchors": ["src/tools21cm/radio_telescope_calibration.py:21-103"]}
{"id": "C188", "title": "Maps of antenna stamps per time step", "statement": "get_full_uv_map_with_antenna_stamp returns one map per time step, in the order of time, which lists in each cell the numbers (from one) of the antennas of exactly the baselines that fall into it, each once, whatever n_jobs is.", "quantifier": "for all antennas, grids, rotations, numbers of steps and of jobs", "why_tests_cant": "The result must not depend on the number of processors of the machine that runs the test.", "anchors": ["src/tools21cm/radio_telescope_calibration.py:286-333", "src/tools21cm/radio_telescope_calibration.py:337-456"]}
{"id": "C189", "title": "Density field of pkdgrav", "statement": "load_density_field(file) returns the density contrast whose cell (i, j, k) belongs to the number i + n j + n^2 k of the file, relative to the mean of the file; its mean is zero and it does not depend on box_len and rho_c; nGrid may be left out; files that are not n^3 numbers raise.", "quantifier": "for all files, sizes of the box and critical densities", "why_tests_cant": "The order of the axes and the cancellation of all units have to hold for every grid; a test with a cubic symmetric field shows nothing of the transposition.", "anchors": ["src/tools21cm/nbody_pkdgrav.py:263-290"]}
{"id": "C190", "title": "Halo catalogues of pkdgrav", "statement": "read_fof_data followed by array_fof_data returns one line per halo of all files in order with its mass, the fraction fMass of the critical mass of the box, and its position in the periodic box from 0 to box_len; an empty list of files raises; dVelFac is 100 (1+z) box_len sqrt(3/(8 pi)).", "quantifier": "for all lists of files and all haloes", "why_tests_cant": "Whether positions lie in the box depends on the coordinates of all haloes.", "anchors": ["src/tools21cm/nbody_pkdgrav.py:24-52", "src/tools21cm/nbody_pkdgrav.py:86-162", "src/tools21cm/nbody_pkdgrav.py:164-200"]}
{"id": "C191", "title": "Halo mass function", "statement": "get_hmf_data(masses, bins) returns the centres of bins that are equal in ln m and the mass function m dn/dm, which times the width of the bins adds up to the number density.", "quantifier": "for all lists of positive masses, not all the same, and all numbers of bins", "why_tests_cant": "Counts per bin look like a mass function; that they scale with the width of the bins shows only in comparing numbers of bins.", "anchors": ["src/tools21cm/nbody_pkdgrav.py:218-222"]}
{"id": "C192", "title": "Smoothed power spectra of pkdgrav", "statement": "read_pk_data(file, window_size=w) smooths the logarithm of the power over w bins; the smoothed power lies between the smallest and the largest of the window, and a power law stays as it is.", "quantifier": "for all positive powers and all windows", "why_tests_cant": "A moving average keeps constants, on which it is usually tested; its effect on slopes is a statement about all power laws and windows.", "anchors": ["src/tools21cm/nbody_pkdgrav.py:229-255"]}
{"id": "C193", "title": "Regions below or above a threshold", "statement": "bubbles_from_fixed_threshold, bubbles_from_triangle3D and bubbles_from_triangle2D mark the cells at most (upper_lim) or at least the threshold: the given one, that of all values, or the median of those of the slices perpendicular to loc_axis. The regions below and above are complements, exchanging axes exchanges the axes of the regions, and an axis the cube does not have is refused.", "quantifier": "for all cubes, thresholds, axes and threshold functions of a slice", "why_tests_cant": "That the median of the slices is used, and no slice of another axis, has to hold for every shape; tests with cubic symmetric cubes do not tell the axes apart.", "anchors": ["src/tools21cm/identify_regions.py:71-94", "src/tools21cm/identify_regions.py:96-123", "src/tools21cm/identify_regions.py:125-155"]}
{"id": "C194", "title": "Redshifts of the files in a directory", "statement": "get_source_redshifts, get_xfrac_redshifts and get_dens_redshifts return the redshifts of the files <z>-coarsest_wsubgrid_sources.dat, xfrac..._<z>.bin and <z>n_all.dat in the directory, each once, in increasing order, within the limits; other files do not count.", "quantifier": "for all directories, names of files and limits", "why_tests_cant": "Names of files and of the directories above them are arbitrary strings; a test checks a few well formed names.", "anchors": ["src/tools21cm/helper_functions.py:28-52", "src/tools21cm/helper_functions.py:55-79", "src/tools21cm/helper_functions.py:82-106", "src/tools21cm/helper_functions.py:109-127"]}
{"id": "C195", "title": "Velocities in km/s", "statement": "get_kms_from_density turns the momenta of a velocity file into peculiar velocities in km/s at the redshift of the file, from a density given as a file, an object or an array; read_c2ray_files(file_type='vel') does the same.", "quantifier": "for all fields of velocities and densities, box sizes, cosmologies and names of files", "why_tests_cant": "A factor of the redshift, of the density or of the box is invisible unless all are varied; and a file with another name has to be refused, not read as velocities of zero.", "anchors": ["src/tools21cm/vel_file.py:35-69", "src/tools21cm/vel_file.py:112-132", "src/tools21cm/conv.py:16-20", "src/tools21cm/read_files.py:37-63"]}
{"id": "C196", "title": "Cubes of 21cmFAST", "statement": "read_21cmfast_files returns the cube of d x d x d cells of a file of d^3 numbers, the last index running fastest, and refuses other files.", "quantifier": "for all sizes and contents of files", "why_tests_cant": "The length of the axes is found from a power with a truncated exponent; whether rounding repairs it depends on the size.", "anchors": ["src/tools21cm/read_files.py:12-35"]}
{"id": "C197", "title": "Mean subtraction of coeval cubes", "statement": "coeval_21cm and coeval_21cm_c2ray with mean_subtract return the signal minus its mean: the mean of the cube is zero and all differences between cells are kept. coeval_overdens is the density contrast: its mean is zero and it is at least -1.", "quantifier": "for all lists of snapshots, redshifts and signals", "why_tests_cant": "Sums over all cells for arbitrary cubes; a test with one cube cannot tell the mean of the cube from the means of slices unless the slices differ.", "anchors": ["src/tools21cm/usefuls.py:39-50", "src/tools21cm/usefuls.py:97-105", "src/tools21cm/read_files.py:76-99"]}
{"id": "C198", "title": "Windows of UV maps", "statement": "signal_window returns the product of the one dimensional window along one, two or three axes, the same for exchanged and reversed axes; unknown names and dimensions give None. In noise_map the window is centred on the zero frequency: opposite modes are damped by the same factor.", "quantifier": "for all numbers of cells, windows and modes", "why_tests_cant": "The centre of the window relative to the Fourier modes depends on the parity of the number of cells; maps of noise look the same.", "anchors": ["src/tools21cm/radio_telescope_noise.py:26-76", "src/tools21cm/radio_telescope_noise.py:391-392"]}
{"id": "C199", "title": "Beam of an interferometer", "statement": "get_beam_w(baseline, z) is the angle, in arc minutes, of the redshifted wavelength over the baseline; beam_convolve returns the array convolved with a beam of that width, of the shape of the input, and raises if neither width nor baseline is given.", "quantifier": "for all baselines, redshifts, arrays and beams", "why_tests_cant": "The units have to combine for all arguments; and there is no argument for which beam_convolve works, which a suite without a test of it does not show.", "anchors": ["src/tools21cm/smoothing.py:251-269", "src/tools21cm/beam_convolve.py:8-55"]}
{"id": "C200", "title": "Line of the horizon wedge", "statement": "horizon_wedge_equation(z, fov_deg) returns the function k_perp -> k_perp sin(fov) D_c(z) H(z)/(c (1+z)).", "quantifier": "for all redshifts, fields of view and wave numbers", "why_tests_cant": "The function is returned without being evaluated, so that calling horizon_wedge_equation never fails; whether the returned function does is a statement about all its arguments.", "anchors": ["src/tools21cm/power_spect_fast.py:335-347"]}
{"id": "C201", "title": "UV coverage of the numba module", "statement": "get_uv_coverage of numba_functions returns the map whose entry (i, j) is the number of baselines whose first two coordinates, in cells of one wavelength over the opening angle of the box, are nearest to the frequencies i and j of a Fourier transform of n cells; baselines outside the plane do not count, and the sum is the number of the others. An empty list gives an empty map.", "quantifier": "for all lists of baselines, numbers of cells and opening angles", "why_tests_cant": "The size of the cell and the treatment of the third coordinate show only in where individual baselines fall; a test compares shapes and sums of one configuration.", "anchors": ["src/tools21cm/numba_functions.py:143-171"]}
{"id": "C202", "title": "Daily observation of the numba module", "statement": "get_uv_daily_observation_numba returns the average, over the integration intervals of a day, of the coverage of the baselines as seen from the source at the hour angle of the interval.", "quantifier": "for all configurations, durations, intervals and declinations", "why_tests_cant": "One wrong map among thousands changes the average by less than a test's tolerance.", "anchors": ["src/tools21cm/numba_functions.py:38-70"]}
{"id": "C203", "title": "Baselines and rotation of the numba module", "statement": "from_antenna_config gives one baseline for each pair of antennas: the difference of their positions on the sphere of the Earth in units of the wavelength of the frequency, or of the redshifted line. earth_rotation_effect keeps the lengths of baselines and repeats after 86400 seconds.", "quantifier": "for all antennas, redshifts, frequencies, intervals and declinations", "why_tests_cant": "Lengths have to be kept for every baseline and every time; a test looks at one file.", "anchors": ["src/tools21cm/numba_functions.py:73-113", "src/tools21cm/numba_functions.py:115-141"]}
{"id": "C204", "title": "Step interpolation of light cones", "statement": "With interpolation='step_cell', each cell of the interpolated slice has the value of the slice at the lower redshift below a redshift between the two and that of the higher one above it. Among the cells that change, those with larger smoothed values change over at larger redshifts, at equal steps from one bracket to the other; equal slices give that slice.", "quantifier": "for all slices, smoothed values, redshifts and random numbers", "why_tests_cant": "The order has to hold for all values, and the random numbers, though tiny, decide which cells fall outside the interpolation; a test sees one draw.", "anchors": ["src/tools21cm/lightcone.py:461-477", "src/tools21cm/lightcone.py:480-490"]}
{"id": "C205", "title": "Sliding sub-boxes of the position-dependent power spectrum", "statement": "integrated_bispectrum_cross_slide averages, over overlapping sub-boxes that together cover the cube, the power spectrum of the first cube in the sub-box times the mean of the second cube over it; with normalize, this is divided by the average power spectrum and the average squared mean.", "quantifier": "for all pairs of cubes, sizes of sub-boxes, overlaps and all power spectra", "why_tests_cant": "Whether the sub-boxes cover the cube depends on how two rounded numbers fit the size of the cube; a test uses sizes that fit.", "anchors": ["src/tools21cm/position_dependent_power_spectrum.py:103-150"]}
{"id": "C206", "title": "Catalogues of CubeP3M", "statement": "HaloCubeP3M reads the haloes of the files of all nodes, or of one, in their order: with cosm_unit the positions are in Mpc/h inside the periodic box, masses in solar masses/h, velocities in km/s, the angular momentum in the product of these units and the dispersion is the norm of the three dispersions; without, everything is as in the file. Missing or truncated files are errors.", "quantifier": "for all files, nodes, units and redshifts", "why_tests_cant": "The alignment of the words has to hold for any number of haloes and both layouts; signs of the angular momentum in a sample file need not be negative where a test looks.", "anchors": ["src/tools21cm/halo_list.py:286-430"]}
{"id": "C207", "title": "Particles of CubeP3M", "statement": "NbodyFile with a path reads the particles, with the identifiers of the files PID, of all nodes or of the given one, in their order; nbody has npart particles. Files of another redshift or with another number of identifiers are refused.", "quantifier": "for all numbers of nodes, particles and all files", "why_tests_cant": "Every coordinate of every particle comes from another place of the file; a test looks at a few particles of one file.", "anchors": ["src/tools21cm/nbody_file.py:11-149"]}
{"id": "C208", "title": "Names of the package", "statement": "After `import tools21cm as t2c`, every public function and class of the modules that the package imports is available as t2c.<name> and is the one that its module defines; all names which the modules import from each other exist.", "quantifier": "for all public functions and classes of all modules of the package", "why_tests_cant": "Star imports replace earlier names silently, and which one wins depends on the order of all modules; tests import the functions that they call from where they expect them.", "anchors": ["src/tools21cm/__init__.py:28-101", "src/tools21cm/fft_functions.py:34-49", "src/tools21cm/box_counting.py:2"]}
{"id": "C209", "title": "No global name is missing", "statement": "Every global name that a function, method or class of the package reads is bound by its module or by Python once the modules have been imported, so that no call raises NameError for it.", "quantifier": "for all functions, methods and classes and all names that they read, on all branches", "why_tests_cant": "The name is looked up only on the branch that reads it.", "anchors": ["src/tools21cm/lyman_alpha_transmission.py:268-345", "src/tools21cm/Friends_of_Friends.py:64-80", "src/tools21cm/lyman_alpha_coupling.py:24-176"]}
{"id": "C210", "title": "Calls fit the signatures", "statement": "Every call that a function of the package makes of another function, method or constructor of the package fits the signature of the called one: all arguments have a place, no parameter gets two values, and every parameter without a default gets one, so that no internal call raises TypeError.", "quantifier": "for all calls between functions of the modules, on all branches; the rules of binding for all signatures and all calls", "why_tests_cant": "A call that does not fit is found only by executing its branch, and many of these are options or old functions.", "anchors": ["src/tools21cm/power_legendre.py:47", "src/tools21cm/power_spectrum.py:481", "src/tools21cm/radio_telescope_noise.py:757-772", "src/tools21cm/smoothing.py:530-585", "src/tools21cm/lyman_alpha_coupling.py:24-110", "src/tools21cm/deprecated.py:100-120"]}
{"id": "C211", "title": "Suppressing sharp features of UV maps", "statement": "With suppress_sharp_features_uv_map='gaussian' the UV map is smoothed before it weights the noise: the smoothed map is not negative, is positive where the map was, keeps the largest entry, a uniform map and the proportionality to the exposure; it stays symmetric under (u,v) -> (-u,-v), and a filter that is too narrow to reach another cell changes nothing. The noise is finite everywhere and zero in cells with less than 0.01 samples.", "quantifier": "for all UV maps that are not negative, all sizes, all widths of the filter", "why_tests_cant": "The symmetry and the limit of narrow filters hold or fail for a continuum of maps and widths; a test compares one map.", "anchors": ["src/tools21cm/radio_telescope_noise.py:399-433", "src/tools21cm/radio_telescope_noise.py:435-473"]}
{"id": "C212", "title": "Correlation functions of arrays", "statement": "correlation_function and cross_correlation_function return the transform of the (cross) power spectrum of the arrays at the radii asked for. For the same arguments the cross-correlation of an array with itself is its correlation function, the order of the arrays does not matter, the function of u*a + v*b is u^2 xi_a + v^2 xi_b + 2uv xi_ab, and a periodic translation changes nothing. As documented, box_dims may be None, a number or a list, and rbins may be an array with kbins=None.", "quantifier": "for all arrays of one to three dimensions, all boxes, radii, bins and coefficients", "why_tests_cant": "Bilinearity and invariance are statements on all arrays; the arguments combine in many ways of which a test uses one.", "anchors": ["src/tools21cm/corr_function.py:34-67", "src/tools21cm/corr_function.py:69-104"]}
{"id": "C213", "title": "Catalogues of pkdgrav haloes", "statement": "read_pkdgrav_fof_halo_catalogue(filename, box_dim, hlittle) returns one line per halo with its position and its mass for a box of box_dim Mpc in a universe with the given hlittle, in one consistent system of units (Mpc and solar masses, or both over h). read_pkdgrav_density_grid does not depend on the unit of the box.", "quantifier": "for all files, boxes and values of hlittle", "why_tests_cant": "The units only show for values of hlittle other than one and against an independent calculation of the masses.", "anchors": ["src/tools21cm/nbody_file.py:152-193"]}
{"id": "C214", "title": "Saving haloes of pkdgrav", "statement": "save_fof_data writes the lines of array_fof_data to a text or numpy file according to the extension of the name, reports that it did, and otherwise writes nothing and reports that the extension is unknown.", "quantifier": "for all names, all haloes read, with and without verbose", "why_tests_cant": "The claim is on all names; the message is only printed.", "anchors": ["src/tools21cm/nbody_pkdgrav.py:202-216"]}
{"id": "C215", "title": "Constants of the package follow the setters", "statement": "After t2c.set_hubble_h, t2c.set_omega_matter, t2c.set_sim_constants and so on, both the functions of the package (Hz, velconvert, gridpos_to_mpc, gridvel_to_kms, gridmass_to_msol) and its numbers (t2c.h, t2c.H0, t2c.LB, t2c.boxsize, ...) are those of the values set; in particular t2c.Hz(0) is t2c.H0 in a flat universe and the fine mesh is t2c.LB long.", "quantifier": "for all histories of calls of the setters and all names", "why_tests_cant": "The state is that of two modules and of the package, and any sequence of calls can lead to it.", "anchors": ["src/tools21cm/__init__.py:24-25", "src/tools21cm/const.py:25-102", "src/tools21cm/conv.py:10-107"]}
{"id": "C216", "title": "The h-transform smooths out local peaks", "statement": "h_transform(image, h), which watershed_bsd uses before looking for peaks when h is given ('parameter for performing h-transform to smooth out local peaks'), has values between 0 and h, does not depend on a constant added to the image, and has no peak where the image has one from which a higher cell is reached without going down by h.", "quantifier": "for all arrays of any dimension and all h", "why_tests_cant": "The reconstruction couples all cells; that no peak survives or that all do is a statement on all images.", "anchors": ["src/tools21cm/bubble_stats.py:544-554", "src/tools21cm/bubble_stats.py:556-567"]}
{"id": "C217", "title": "Files of ionisation rates", "statement": "IonRateFile(filename) gives the rates of the file cell by cell, as an array with the mesh of its header, in all formats, whatever the record markers are; z is the redshift of the file name <head>_<redshift>.bin and -1 if it could not be determined from the name.  A file that is too short raises.", "quantifier": "for all meshes, rates, record markers, directories and names", "why_tests_cant": "The round trip concerns all meshes and bytes, and the order of the axes is seen only on meshes that are not cubes.", "anchors": ["src/tools21cm/irate_file.py:32-70"]}
{"id": "C218", "title": "Response of the power spectrum to large-scale fluctuations", "statement": "power_spectrum_response(cube, cube2, Ncuts) is the response of the power spectrum of the field to the large-scale fluctuations of cube2 (of the field itself if cube2 is not given): if the spectrum in each sub-box is P (1 + R d), where d is the fluctuation of the sub-box mean of cube2, it returns R; it is zero if all sub-boxes have the same spectrum.  integrated_bispectrum is the average over the sub-boxes of the spectrum times the mean.", "quantifier": "for all cubes that Ncuts divides, all P and R per bin and all power spectra", "why_tests_cant": "That the estimator returns the response is a statement on all fields with a linear response; a test has one field and no known answer.", "anchors": ["src/tools21cm/position_dependent_power_spectrum.py:5-22", "src/tools21cm/position_dependent_power_spectrum.py:25-43", "src/tools21cm/position_dependent_power_spectrum.py:45-88"]}
{"id": "C219", "title": "Redshifts of the cubes of a light cone", "statement": "make_lightcone and make_velocity_lightcone use every coeval cube with its own redshift: that of its key if the cubes are given as a dictionary, of its place in file_redshifts if that is an array-like, of the lines of the file if it is a file name, and that of its name if it is left out; velocities and densities of a dictionary are matched by the keys.  Numbers that do not agree raise.", "quantifier": "for all lists and dictionaries of cubes in any order, all redshifts and both functions", "why_tests_cant": "The pairing concerns all orders and numbers of cubes; a test lists them in increasing order.", "anchors": ["src/tools21cm/lightcone.py:92-110", "src/tools21cm/lightcone.py:208-233", "src/tools21cm/lightcone.py:544-561"]}
{"id": "C220", "title": "Plots show the data that were asked for", "statement": "plot_slice(data, los_axis, slice_num, logscale) shows the cells of the slice (their logarithms with logscale), for each of the three axes, and passes all keyword arguments to imshow; plot_hist passes all keyword arguments to hist, in particular bins ('Here, you can specify, for example, the bins keyword'), and uses values of its own only for what the caller leaves out.", "quantifier": "for all cubes, axes, slice numbers and keyword arguments", "why_tests_cant": "A plot is seldom tested at all, and that the arguments are passed on is a statement on all arguments.", "anchors": ["src/tools21cm/plotting.py:24-72", "src/tools21cm/plotting.py:95-136"]}
{"id": "C221", "title": "Forest plots", "statement": "plot_forest draws one panel per parameter; in the row labelled with the name of a distribution each panel shows its 95 and 68 per cent intervals of that parameter, in the same colour in all panels, and the true value if there is one.  The distributions are listed from top to bottom in the order in which they were added, whatever the number of parameters.", "quantifier": "for all collections of distributions with any numbers of parameters, and all true values", "why_tests_cant": "What a figure shows is not tested, and the order of the rows depends on the parity of the number of parameters.", "anchors": ["src/tools21cm/plotting.py:483-511"]}
{"id": "C222", "title": "No read of a local variable before it has a value", "statement": "In every function of the package, however its conditions turn out, however often its loops run and wherever an exception is raised and handled, every local variable that is read (or deleted) has been given a value before.", "quantifier": "for all 488 functions and methods of the package and all runs of their bodies", "why_tests_cant": "A test follows a few paths through some functions; an UnboundLocalError shows only on the one path that skips the assignment, and the number of paths is unbounded because of the loops.", "anchors": ["src/tools21cm/read_files.py:37-63", "src/tools21cm/astro_tools.py:129-151", "src/tools21cm/power_spect_fast.py:46-79", "src/tools21cm/halo_list.py:115-130", "src/tools21cm/lyman_alpha_coupling.py:140-153"]}
{"id": "C223", "title": "A function that returns a value returns one in every run", "statement": "For every function of the package: if some call of it returns a value, then every call that does not raise returns a value; no caller gets None because the end of the body was reached or because of a bare return.", "quantifier": "for all 488 functions and methods of the package and all pairs of runs of their bodies", "why_tests_cant": "A test checks the value of the calls that it makes; the path that falls off the end of the body (an unknown recipe, window or dimension) gives no error that a test would notice.", "anchors": ["src/tools21cm/power_spectrum.py:449-478", "src/tools21cm/radio_telescope_noise.py:26-76", "src/tools21cm/line_intensity.py:9-163", "src/tools21cm/plotting.py:376-391"]}
{"id": "C224", "title": "The compilation of constraints on reionisation is consistent", "statement": "Every entry of ReionizationHistory().neutral_fraction_constraints has a value between 0 and 1, errors that bracket it (lower ones not positive, upper ones not negative) and an interval between 0 and 1.  Every history of neutral_fraction_models has as many values as redshifts, all redshifts different, redshifts listed in order (rising or falling), values between 0 and 1 that do not fall with the redshift, and errors that bracket them.", "quantifier": "for all 80 entries and all five histories, and for all pairs of redshifts of a history", "why_tests_cant": "The tables are finite, so a test could check the same; none does, because the tables are taken for data.  The statement belongs here since every comparison with the compilation relies on it.", "anchors": ["src/tools21cm/compare_constraints.py:14-183", "src/tools21cm/compare_constraints.py:185-345"]}
{"id": "C225", "title": "halo3d makes a Gaussian blob", "statement": "halo3d(x, a, sigma, array_size) is an array of the given size whose cell (i, j, k) has the value a*exp(-d**2/(2*sigma**2)), d being the distance of the cell from x; a zero deviation raises.", "quantifier": "all centres, amplitudes, deviations and sizes of the array", "why_tests_cant": "A test compares one array with stored values, or looks at the centre and the nearest cells, where the distance and its square are the same.", "anchors": ["src/tools21cm/Friends_of_Friends.py:59-80"]}
{"id": "C226", "title": "Particles of PKDGRAV3 are read back", "statement": "ReaderPkdgrav3.read_particles of a file in the tipsy format (a header of 32 bytes with the numbers of particles, then the gas, dark and star particles, most significant bytes first) returns the numbers of the header and three tables whose named columns hold the properties of the particles in their order; a file that does not hold the particles of its header raises.", "quantifier": "all snapshots whose words fit, all bytes after them, all places at which a file may be cut off", "why_tests_cant": "A test reads a sample file or two; an interrupted copy can end at any byte.", "anchors": ["src/tools21cm/nbody_pkdgrav.py:54-79"]}
{"id": "C227", "title": "UV maps of a light cone, and the progress of loops", "statement": "make_uv_map_lightcone returns the UV map of every redshift in order and the number of antennas.  It, the daily observation of the numba module and get_distorted_dt report which part of their work is done: the reports rise, never exceed 100 per cent and end at 100 per cent.", "quantifier": "all lists of redshifts, all numbers of slices, observations and rows, all maps and errors of single slices", "why_tests_cant": "Tests do not read what is printed, and the wrong reports need some 150 slices or more to show.", "anchors": ["src/tools21cm/radio_telescope_noise.py:625-654", "src/tools21cm/numba_functions.py:58-70", "src/tools21cm/pv_mpm.py:89-94"]}
{"id": "C228", "title": "Ionised fractions estimated from the signal", "statement": "Applied to the signal that calc_dt makes of a cube, xfrac_mass_estimate gives the ionised fraction by mass; xfrac_volume_estimate of a binary field is the part of its cells that are set.", "quantifier": "all cubes with densities that are nowhere negative and average to the mean density, all ionised fractions, redshifts and constants", "why_tests_cant": "The two functions are in different modules and each looks right; whether they agree depends on the cosmology and the redshift.", "anchors": ["src/tools21cm/superpixels.py:214-218", "src/tools21cm/temperature.py:196-222"]}
{"id": "C229", "title": "Labels and boundaries of superpixels", "statement": "see_label returns the cells of a label, and prints a message if there are none; boundaries returns the slice with its boundaries above all its values and no other change, and leaves all values as they are with mark=False.", "quantifier": "all maps, labels, slices, marked pixels and factors", "why_tests_cant": "A test shows one picture of positive values; the marks vanish for slices whose maximum is not positive, as those of a signal with its mean subtracted never are, but those in absorption are.", "anchors": ["src/tools21cm/superpixels.py:32-36", "src/tools21cm/superpixels.py:50-56"]}
{"id": "C230", "title": "Edges of the bins of spectra", "statement": "For an integer n, get_kbins returns n+1 increasing edges from 2*pi/min(box_dims) to the largest wave number, which is taken from k if given and from the array otherwise: equally spaced (linear), equally spaced in the logarithm (log), or the first below 0.1 and the second above (any other binning).  They are the edges the spectra use.  Anything else than an integer is returned as it is.", "quantifier": "all numbers of bins, lists of sides, arrays, wave numbers and binnings", "why_tests_cant": "The spacing and the limits are statements about all numbers of bins and boxes; tests call the spectra with a few.", "anchors": ["src/tools21cm/power_spectrum.py:441-445", "src/tools21cm/power_spectrum.py:505-534"]}
{"id": "C231", "title": "Visibilities are divided by the root of the number of baselines", "statement": "apply_uv_response of radio_telescope_sensitivity returns an array of the shape of the signal whose cells are the visibilities divided by the square root of the number of baselines, and zero where there are none, for every array and every map of its shape.", "quantifier": "all complex arrays of two dimensions and all maps", "why_tests_cant": "Tests use square maps; the statement is about all shapes and all cells.", "anchors": ["src/tools21cm/radio_telescope_sensitivity.py:166-184"]}
{"id": "C232", "title": "Cosmologies may be named", "statement": "ParticleMass_to_ParticleNumber and particle_number_to_particle_mass take a cosmology of astropy or the name of one of Planck13, Planck15, Planck18, WMAP1, WMAP3, WMAP5, WMAP7, WMAP9 in any mixture of capital and small letters; with each of them they are inverse to each other.  Any other text is rejected, naming it.", "quantifier": "all texts, objects, box sizes, masses and numbers", "why_tests_cant": "There are infinitely many texts, and a wrong name gives a plausible number.", "anchors": ["src/tools21cm/nbody_tools.py:5-25", "src/tools21cm/nbody_tools.py:27-51"]}
{"id": "C233", "title": "One marker shows the whole complex, whatever the schedule", "statement": "With multi_marker=False, CubeMap, CubeMap_torch and CubeMap_joblib return ones exactly on the cells, edges, faces and cubes of the periodic complex, and zeros elsewhere: the positions which are marked with multi_marker=True.  Although each pass then reads what it has just written, and a worker may or may not see the marks other workers make in the same pass, the result does not depend on the order of the loops, the number of workers or their interleaving.", "quantifier": "every 3-D grid of every size, every number of workers, every interleaving of their reads and writes", "why_tests_cant": "with one marker the passes race on the values they test; tests see a few schedules of a few grids", "anchors": ["src/tools21cm/ViteBetti.py:48-107", "src/tools21cm/ViteBetti.py:113-209", "src/tools21cm/ViteBetti.py:212-263", "src/tools21cm/ViteBetti_cython.pyx:7-68"]}
{"id": "C234", "title": "The luminosity distance is that of the Friedmann model, in curved space too", "statement": "luminosity_distance(z, k) returns for every redshift c(1+z)/H0 times the radius S(d) of the sphere at comoving distance d, where S'' = k S with k the curvature parameter 1 - Omega0 - Lambda; the closed form without cosmological constant is the same distance; a number gives a number; and this holds in every cosmology the setters can produce.", "quantifier": "every cosmology, curvature, redshift and array of redshifts; every history of setter calls", "why_tests_cant": "an equality of an integral with a closed form over continuous families of cosmologies", "anchors": ["src/tools21cm/cosmo.py:77-128", "src/tools21cm/const.py:55-78"]}
{"id": "C235", "title": "Running 21cmFAST gives one simulation per redshift", "statement": "run_21cmfast_coeval and run_21cmfast_matter accept one redshift as a number, a list or an array, and return a dictionary with the simulation of the library at every redshift asked for, made with the arguments that were given (and from the initial conditions given, if any), and nothing else; without the library they return None.", "quantifier": "every library, every set of arguments, every list of redshifts with repetitions", "why_tests_cant": "tests cannot have the library; repeated redshifts and all types of numbers are not sampled", "anchors": ["src/tools21cm/model_21cmfast.py:4-105"]}
{"id": "C236", "title": "Padding a lightcone keeps it in the middle and fills the border in the way of the mode", "statement": "padding_lightcone(lc, padded_n, mode) returns a lightcone with padded_n more cells on each of the four sides of the field of view (by default half the number of cells of the second axis), the same number of planes, and lc unchanged in its middle.  The border is the periodic continuation for 'wrap', the nearest cell for 'edge', zero for 'constant', the mirror image for 'symmetric' and 'reflect' (with and without the outermost cells repeated), the largest, least or mean value of the row or column (of the plane in the corners) for 'maximum', 'minimum', 'mean', and a straight line to zero for 'linear_ramp'.  A negative padding and an unknown mode raise.", "quantifier": "every lightcone, every padding (also wider than the lightcone), every plane and cell", "why_tests_cant": "all sizes, paddings and modes with all cells of the border cannot be sampled", "anchors": ["src/tools21cm/angular_coordinates.py:338-355"]}
{"id": "C237", "title": "Every cell of a velocity lightcone interpolates the two snapshots around its redshift", "statement": "make_velocity_lightcone returns one slice for every output redshift; every component of every cell is the linear interpolation in redshift between the same component in the two snapshots around the redshift of the slice, at the same place across the line of sight and, along the line of sight, at the position of the slice modulo the side of the box along that axis.  The value lies between those of the two snapshots.  A redshift without a snapshot on both sides raises.", "quantifier": "every list of snapshots and output redshifts, every box, every axis, every component and cell", "why_tests_cant": "the arrangement of snapshots, the shape of the boxes and the wrapping of the slices cannot be exhausted by examples", "anchors": ["src/tools21cm/lightcone.py:155-271", "src/tools21cm/lightcone.py:431-441", "src/tools21cm/lightcone.py:493-514"]}
{"id": "C238", "title": "A sub-volume of a lightcone is the part asked for, with its redshifts and dimensions", "statement": "get_lightcone_subvolume takes exactly one of depth_mhz and depth_mpc and returns the slices between the two redshifts that are half the depth (in comoving distance or in frequency) away from the central redshift, the redshifts of exactly these slices, and the dimensions of the sub-volume in Mpc.  Cells are those of the lightcone or, with subtract_mean, those minus one number per slice that makes the mean of the slice zero.", "quantifier": "every lightcone, every monotone grid of redshifts, every central redshift and depth, every combination of options, every cosmology in which distance grows with redshift", "why_tests_cant": "grids, depths and cosmologies are unbounded, and the mismatch of dimensions and slices depends on all of them", "anchors": ["src/tools21cm/lightcone.py:358-428", "src/tools21cm/cosmo.py:242-292", "src/tools21cm/statistics.py:62-85"]}
{"id": "C239", "title": "make_pv_box displaces along the line of sight by the velocities along it", "statement": "make_pv_box(dT, velocities, densities, z, los) returns the box in redshift space: every cell is displaced along the axis los by the component of the velocity along that axis, whichever of the three axes is chosen; the other components have no influence.", "quantifier": "every box with equal sides across the line of sight, every velocity field, every redshift, all three lines of sight, every number of particles and every cosmology", "why_tests_cant": "velocity fields, boxes and cosmologies are unbounded; the default that makes two of three axes wrong is silent", "anchors": ["src/tools21cm/pv_mpm.py: make_pv_box", "src/tools21cm/pv_mpm.py:8-131"]}
{"id": "C240", "title": "get_zs_list lists the redshifts of the files in increasing order", "statement": "get_zs_list(dir, pattern) returns the redshifts written in the names of the files of the directory that match the pattern, one for each file, in increasing order; for the default pattern these are the numbers between xfrac3d_ and .bin.", "quantifier": "every directory with any set of files, every redshift with or without a decimal point, both documented patterns", "why_tests_cant": "the names in a directory are unbounded; a test uses redshifts with a decimal point and misses the names that fall back to the 3 of xfrac3d", "anchors": ["src/tools21cm/usefuls.py: get_zs_list", "src/tools21cm/usefuls.py:23-36", "src/tools21cm/lightcone.py: _get_file_redshifts", "src/tools21cm/helper_functions.py: determine_redshift_from_filename"]}
{"id": "C241", "title": "Dictionaries come back from the files they were written to", "statement": "What write_dictionary_data writes, read_dictionary_data reads under the same name and format: both choose the same library, for every format and every extension, and the file read is the file written; a dictionary of dictionaries written to HDF5 comes back with the same values under the same keys at every level.", "quantifier": "every format name, every extension, every file name, every nested dictionary with string keys", "why_tests_cant": "nested dictionaries, keys and format names are unbounded; a test uses one small dictionary with plain keys", "anchors": ["src/tools21cm/read_files.py: write_dictionary_data, read_dictionary_data", "src/tools21cm/read_files.py:164-316"]}
{"id": "C242", "title": "The two erosions agree", "statement": "_erode_v1(A, B, R) returns the erosion of the binary image A by the element B, with nothing set outside the image, as binary_erosion (_erode_v2) does.", "quantifier": "every binary cube, every binary structuring element, every radius R", "why_tests_cant": "images, elements and radii are unbounded; the slice R:-R is empty only for the radius 0", "anchors": ["src/tools21cm/morph.py: _erode_v1, _erode_v2, binary_erosion", "src/tools21cm/morph.py:13-26"]}
{"id": "C243", "title": "A corner plot shows every distribution and the true values", "statement": "DistributionDiagnostic.plot_corner draws every distribution that was added once, over its own parameters and in its colour; the legend lists the distributions in the order in which they were added, in the colours in which they are drawn; the true values of the parameters are marked, whether they were given as a list or as an array.", "quantifier": "every sequence of distributions with any numbers of parameters and any colours, every list or array of true values, both backends, with and without the keyword color", "why_tests_cant": "sequences of distributions with different numbers of parameters are unbounded, and figures are not compared", "anchors": ["src/tools21cm/plotting.py: DistributionDiagnostic.plot_corner, _plot_corner_backend, _plot_getdist_backend", "src/tools21cm/plotting.py:376-481"]}
{"id": "C244", "title": "The augmented segmentation turns with the image", "statement": "With test-time augmentation (segunet21cm(tta=2)) the orientation of the image does not matter: mirroring the cube along an axis or turning it by a quarter mirrors or turns the segmentation and its error map, whatever the network does with a plane.", "quantifier": "every network, every cube, every mirror image and quarter turn", "why_tests_cant": "a property of all networks and all images; the trained network cannot be varied in a test, and an incomplete set of augmentations is invisible in any single prediction", "anchors": ["src/tools21cm/segmentation.py: IndependentOperations, prediction, UniqueRows", "src/tools21cm/segmentation.py:125-206"]}
{"id": "C245", "title": "The sides of a triangle have no order", "statement": "Bispectrum.bispectrum_fast depends on the triangle only: exchanging the sides, each along with its width, does not change the value, and neither does reversing all axes of the field.", "quantifier": "every field, box, triple of sides with their widths and permutation of them", "why_tests_cant": "all fields and all triples; the sides are compared in a fixed order and shells are reused, which shows only for particular combinations of sides and widths", "anchors": ["src/tools21cm/bispectrum.py: Bispectrum.bispectrum_fast", "src/tools21cm/bispectrum.py:59-97"]}
{"id": "C246", "title": "A periodic box may be rolled before it is distorted", "statement": "get_distorted_dt treats all lines of sight alike, separately and linearly in the signal, and where the first cell of the periodic box lies does not matter: rolling the signal and the velocities along an axis rolls the distorted box.", "quantifier": "every float box, velocity field below the speed of light, line of sight, number of particles, axis and number of cells rolled", "why_tests_cant": "all boxes, velocities and rolls; a test with a single velocity or with a box that does not change along the line of sight sees nothing of the edge of the box", "anchors": ["src/tools21cm/pv_mpm.py: get_distorted_dt", "src/tools21cm/pv_mpm.py:92-128", "src/tools21cm/helper_functions.py: get_interpolated_array"]}
{"id": "C247", "title": "Spectra carry the unit of length", "statement": "A box may be given in any unit of length: in a unit l times smaller, with the bins in that unit, power_spectrum_1d, cross_power_spectrum_1d and power_spectrum_mu average the same modes in the same bins, the wave numbers are l times smaller and the power of d-dimensional arrays is l^d times larger; calls that fail do so in every unit.", "quantifier": "every array with more than one cell, every box with positive sides in every form of the argument, every form and spacing of the bins and every factor l > 0", "why_tests_cant": "all arrays, boxes, bins and factors; the tests use boxes of one size, and limits that hold a hidden unit show only for other sizes", "anchors": ["src/tools21cm/power_spectrum.py: power_spectrum_1d", "src/tools21cm/power_spectrum.py: power_spectrum_mu", "src/tools21cm/power_spectrum.py: _get_mu", "src/tools21cm/power_spectrum.py: _get_kbins", "src/tools21cm/power_spectrum.py:481-519"]}
{"id": "C248", "title": "The UV map knows the antennas by their relative positions only", "statement": "get_uv_daily_observation returns the same UV map for the same telescope: moving the whole array of antennas or listing the antennas in another order changes neither the map nor the errors raised.", "quantifier": "every list of antennas, every permutation and translation of it, every grid, wavelength, field of view, declination, duration and integration time, with and without mirrored baselines", "why_tests_cant": "all layouts and all orders; tests use one layout in one order", "anchors": ["src/tools21cm/radio_telescope_layout.py: get_uv_daily_observation", "src/tools21cm/radio_telescope_layout.py: from_antenna_config", "src/tools21cm/radio_telescope_layout.py: grid_uv_tracks", "src/tools21cm/radio_telescope_layout.py:75-87"]}
{"id": "C249", "title": "The order of the snapshots and spare snapshots do not change a lightcone", "statement": "make_lightcone and make_velocity_lightcone take the snapshots in any order: the same cubes with the same redshifts, one cube for each redshift, give the same output redshifts, slices and errors.  Snapshots that lie below another one at or below every redshift of the lightcone, or above another one that is above them all, change nothing.", "quantifier": "every list of snapshots, every permutation of it and every set of spare snapshots, every range of redshifts and depth of the slices", "why_tests_cant": "all lists and all permutations; tests list a few files in increasing order", "anchors": ["src/tools21cm/lightcone.py: make_lightcone", "src/tools21cm/lightcone.py: make_velocity_lightcone", "src/tools21cm/lightcone.py: _get_output_z", "src/tools21cm/lightcone.py:123-150"]}
{"id": "C250", "title": "Lightcones of combined and of rearranged boxes", "statement": "make_lightcone is linear in the cubes: the lightcone of a*X + b*Y is a times that of X plus b times that of Y, in every interpolation.  It follows the cubes across the line of sight: if every cube is rolled, mirrored, transposed or cut across the line of sight, every slice of the lightcone is rearranged in the same way.  Whether the call succeeds does not depend on the values.", "quantifier": "all sets of snapshots, values, coefficients, rearrangements, axes, output ranges; interpolations linear, step and sigmoid (and step_cell with the same transitions for the first part)", "why_tests_cant": "all values and rearrangements; tests compare one lightcone with stored numbers", "anchors": ["src/tools21cm/lightcone.py: make_lightcone", "src/tools21cm/lightcone.py: _get_interp_slice", "src/tools21cm/lightcone.py: _get_slice", "src/tools21cm/lightcone.py:123-150"]}
{"id": "C251", "title": "Grids of halo catalogues add up", "statement": "halo_list_to_grid does not depend on the order of the haloes, is linear in their masses, and the grid of two catalogues put together is the sum of the grids of the two.", "quantifier": "all catalogues, permutations, masses, coefficients, box lengths and grids", "why_tests_cant": "all catalogues and permutations; a test grids one catalogue", "anchors": ["src/tools21cm/nbody_file.py: halo_list_to_grid", "src/tools21cm/nbody_file.py: Halo2Grid.value_on_grid", "src/tools21cm/nbody_file.py:247-252", "src/tools21cm/nbody_file.py:282-321"]}
{"id": "C252", "title": "The bispectrum follows the unit of length", "statement": "Bispectrum.bispectrum_fast, with the transform and magnitudes of fft_nd for the same box, returns the square of a volume: with all lengths multiplied by l and all wave numbers divided by l, the same triangles are averaged and the value is multiplied by l to the power of twice the number of dimensions, whether the box is given by its sides or by one number.", "quantifier": "every field in any number of dimensions, every box, triangle and widths, every positive factor", "why_tests_cant": "all factors and boxes; a test uses one box in one unit", "anchors": ["src/tools21cm/bispectrum.py: Bispectrum.bispectrum_fast", "src/tools21cm/bispectrum.py: fft_nd", "src/tools21cm/bispectrum.py:59-97", "src/tools21cm/power_spectrum.py: _get_dims"]}
{"id": "C253", "title": "Two smoothings can be done in either order", "statement": "Smoothing a square map with two filters one after the other (smooth_tophat of any width, smooth_gauss of any width, or any two kernels with smooth_with_kernel) gives the same map in either order, or fails in either order.", "quantifier": "every square map, every two filters and widths, every two kernels not larger than the array in any number of dimensions", "why_tests_cant": "all maps, sizes and pairs of filters; the failure for even maps needs two top-hats and is hidden in symmetric maps", "anchors": ["src/tools21cm/smoothing.py: smooth_tophat", "src/tools21cm/smoothing.py: smooth_gauss", "src/tools21cm/smoothing.py: smooth_with_kernel", "src/tools21cm/fft_functions.py: fftconvolve", "src/tools21cm/smoothing.py:165-247"]}
{"id": "C254", "title": "The dimensionless spectrum is free of units", "statement": "dimensionless_ps returns a number without unit: with all lengths of the box multiplied by l (the same box in a smaller unit) it returns the same values at wave numbers divided by l, or the same error.", "quantifier": "every field with at least two cells along some axis, in one to three dimensions, every positive box in every documented form, number of bins, factor and binning, every positive l", "why_tests_cant": "all boxes, bins and units; a test uses one box in one unit", "anchors": ["src/tools21cm/power_spectrum.py: dimensionless_ps", "src/tools21cm/power_spectrum.py:536-561", "src/tools21cm/power_spectrum.py: _get_kbins", "src/tools21cm/power_spectrum.py: power_spectrum_1d"]}
{"id": "C255", "title": "A box may be turned before its spectrum is taken", "statement": "With the axes of the array exchanged, and with them the sides of the box and the line of sight, power_spectrum_1d, cross_power_spectrum_1d, power_spectrum_mu and power_spectrum_2d (also with a window along the line of sight) return the same values, bins and numbers of modes, or the same error.", "quantifier": "every array in one to three dimensions, every exchange of axes, every box in the documented forms, all bins and lines of sight", "why_tests_cant": "all arrays with unequal sides, exchanges of axes and bins; a test turns one cube", "anchors": ["src/tools21cm/power_spectrum.py: power_spectrum_1d", "src/tools21cm/power_spectrum.py: cross_power_spectrum_1d", "src/tools21cm/power_spectrum.py: power_spectrum_mu", "src/tools21cm/power_spectrum.py: power_spectrum_2d", "src/tools21cm/power_spectrum.py: apply_window", "src/tools21cm/power_spectrum.py:12-21"]}
{"id": "C256", "title": "A box may be mirrored before its spectrum is taken", "statement": "With the array read backwards along any of its axes (np.flip), power_spectrum_1d, power_spectrum_2d and power_spectrum_mu (with absolute cosines, or with the line of sight not mirrored) return the same values, bins and numbers of modes, or the same error.", "quantifier": "every array, every set of mirrored axes, every box, all bins and lines of sight", "why_tests_cant": "all arrays with even and odd sides, sets of axes and bins; a test mirrors one cube", "anchors": ["src/tools21cm/power_spectrum.py: power_spectrum_1d", "src/tools21cm/power_spectrum.py: power_spectrum_2d", "src/tools21cm/power_spectrum.py: power_spectrum_mu", "src/tools21cm/power_spectrum.py: _get_k", "src/tools21cm/power_spectrum.py: _get_mu"]}
{"id": "C257", "title": "A constant added to the data shows in the zero mode only", "statement": "Adding a constant to every cell (or subtracting the mean) changes none of the values, bins and numbers of modes of power_spectrum_mu, none of power_spectrum_2d with numbers of bins or with edges that are positive in one direction, and none of power_spectrum_1d with a number of bins of any kind or with positive edges.", "quantifier": "every array, every constant, every box, all bins and lines of sight", "why_tests_cant": "all arrays with even and odd sides, constants and bins; a test subtracts one mean from one cube", "anchors": ["src/tools21cm/power_spectrum.py: power_spectrum_1d", "src/tools21cm/power_spectrum.py: power_spectrum_2d", "src/tools21cm/power_spectrum.py: power_spectrum_mu", "src/tools21cm/power_spectrum.py: mu_binning", "src/tools21cm/power_spectrum.py: _get_k", "src/tools21cm/power_spectrum.py: _get_kbins"]}
{"id": "C258", "title": "Gaussian smoothing follows the symmetries of the map", "statement": "smooth_gauss of a square map that is read backwards along some axes, or whose rows and columns are exchanged, is the smoothed map read backwards or with rows and columns exchanged, or the same error.", "quantifier": "every square map, every set of mirrored axes, every width", "why_tests_cant": "all maps of even and odd sizes and all widths; a test mirrors one map", "anchors": ["src/tools21cm/smoothing.py: smooth_gauss", "src/tools21cm/smoothing.py: gauss_kernel", "src/tools21cm/smoothing.py: smooth_with_kernel", "src/tools21cm/fft_functions.py: fftconvolve"]}
{"id": "C259", "title": "Rays in larger regions are longer", "statement": "For the same starting cells and directions, in a region that contains another (a lower threshold or larger values) the rays of the mean free path method end later: after every number of steps at most as many of them have ended, and the mean of the lengths returned is not smaller.", "quantifier": "every two boxes of at least two cells a side and thresholds with one region inside the other, all starting cells and directions", "why_tests_cant": "all pairs of nested regions, starting cells and directions; a test compares two bubbles", "anchors": ["src/tools21cm/mfp_np.py: mfp2d", "src/tools21cm/mfp_np.py: mfp3d", "src/tools21cm/mfp_np.py: _ray3d", "src/tools21cm/mfp_np.py:129-161", "src/tools21cm/bubble_stats.py: mfp"]}
{"id": "C260", "title": "The optical depth grows with the ionised fraction", "statement": "For the same redshifts tau returns the same redshifts, and an optical depth that is at least as large at every one of them if the ionised fraction is at least as large at every redshift; the optical depth of a mixture of two ionisation histories is the same mixture of their optical depths.", "quantifier": "all lists of fractions and redshifts in any order, all numbers of points from 1, every physical cosmology, every sorting of equal redshifts", "why_tests_cant": "all pairs of histories; a test compares two", "anchors": ["src/tools21cm/tau.py: tau", "src/tools21cm/tau.py:46-64"]}
{"id": "C261", "title": "Interpolated values stay within the range of the cells", "statement": "With order 0 or 1 interpolate2d and interpolate3d are linear in the array, keep the order of two arrays, and return no value below the least or above the greatest cell, wherever the coordinates are: interpolated neutral fractions stay between 0 and 1, and the interpolated ionised fraction is 1 minus the interpolated neutral fraction.", "quantifier": "for all arrays with at least one cell, numbers of axes and real coordinates, inside the array or not", "why_tests_cant": "All arrays and real coordinates; a cell read past the last one shows only at special coordinates, and only if its value stands out.", "anchors": ["src/tools21cm/smoothing.py: interpolate3d", "src/tools21cm/smoothing.py: interpolate2d", "src/tools21cm/smoothing.py:272-331"]}
{"id": "C262", "title": "The spectrum in k and mu averages to the spherical one", "statement": "For the same bins in k and no modes excluded, the numbers of modes of power_spectrum_mu add up over the bins in mu to those of power_spectrum_1d, and its values, averaged over mu with the numbers of modes as weights, are those of power_spectrum_1d.", "quantifier": "every box, grid, line of sight, edges in k and mu, signed and absolute cosines", "why_tests_cant": "all grids and edges; whether a mode is lost depends on whether it lies on an edge", "anchors": ["src/tools21cm/power_spectrum.py: power_spectrum_mu", "src/tools21cm/power_spectrum.py: power_spectrum_1d", "src/tools21cm/power_spectrum.py: mu_binning, radial_average"]}
{"id": "C263", "title": "Neighbouring bins of a spectrum may be merged", "statement": "Leaving out an inner edge of the bins in k merges the two bins beside it: in power_spectrum_1d, and in every bin in mu of power_spectrum_mu, their numbers of modes add up, the value is the mean of the two values with the numbers of modes as weights, not a number only if both bins are empty, and all the other bins keep their values and numbers of modes.", "quantifier": "every array, box, edges in increasing order and inner edge; for power_spectrum_1d one to three dimensions", "why_tests_cant": "all edges, also those that are wave numbers of modes, and repeated ones; a mode counted twice or lost at an inner edge shows only there", "anchors": ["src/tools21cm/power_spectrum.py: power_spectrum_1d", "src/tools21cm/power_spectrum.py: power_spectrum_mu", "src/tools21cm/power_spectrum.py: radial_average, mu_binning"]}
{"id": "C264", "title": "Scores of segmentations rank the predictions", "statement": "For binary maps, one more true cell in the prediction raises iou and dice_coef, and one more cell that is not true lowers them (iou stays at zero where it is zero already); 1 - iou is a distance: two maps are at most as far apart as both their distances to a third map together.", "quantifier": "all pairs and triples of maps of any number of cells, all positive smooth", "why_tests_cant": "strict inequalities over all pairs of maps, and the triangle inequality over all triples", "anchors": ["src/tools21cm/segmentation.py: iou", "src/tools21cm/segmentation.py: dice_coef", "src/tools21cm/segmentation.py:53-66"]}
{"id": "C265", "title": "remove_wedge_image is a projection", "statement": "With a given filter, remove_wedge_image of a weighted sum of cubes is the weighted sum of the results, two filters may be applied in either order, a filter with entries between zero and one raises the power of no wave, and with a filter of zeros and ones removing the wedge a second time changes nothing.", "quantifier": "all cubes, all filters, all weights", "why_tests_cant": "equalities at every cell over all cubes and filters, the last one depending on how the filter treats opposite waves", "anchors": ["src/tools21cm/foreground_model.py: remove_wedge_image", "src/tools21cm/foreground_model.py:144-149"]}
{"id": "C266", "title": "Range, units and gaps of ps_to_corr", "statement": "For increasing wave numbers and powers that are not negative, the correlation from ps_to_corr at no distance exceeds the one at distance zero in absolute value; in other units of length (k times c, P over c cubed, r over c) the correlation is the same; and a bin whose power is not finite may as well be left out of both arrays.", "quantifier": "all spectra with any number of bins, all distances, all units", "why_tests_cant": "an inequality over all spectra and distances, and equalities over all units and positions of the gap", "anchors": ["src/tools21cm/corr_function.py: ps_to_corr", "src/tools21cm/corr_function.py:8-32"]}
{"id": "C267", "title": "UV thresholds one after the other", "statement": "Denoising a lightcone with one UV threshold and then with another gives what the larger threshold gives alone: the order does not matter, and the same threshold a second time changes nothing.", "quantifier": "all lightcones, all UV boxes of fitting shape, all pairs of thresholds", "why_tests_cant": "an equality at every cell over all cones, boxes and pairs of thresholds, depending on how the box treats opposite waves", "anchors": ["src/tools21cm/smoothing.py: smooth_lightcone_uv_threshold", "src/tools21cm/smoothing.py:484-504"]}
{"id": "C268", "title": "Scores do not depend on the order of the cells or on units", "statement": "Rearranging the cells of the true and of the predicted map in the same way, as by turning or mirroring both, changes none of iou, precision, recall, r2score and balanced_cross_entropy, and rearranges the rows of dice_coef only; r2score is the same in any unit.", "quantifier": "all maps of any number of cells, all rearrangements, all units", "why_tests_cant": "equalities over all maps, permutations and units", "anchors": ["src/tools21cm/segmentation.py: iou", "src/tools21cm/segmentation.py: dice_coef", "src/tools21cm/segmentation.py: precision", "src/tools21cm/segmentation.py: recall", "src/tools21cm/segmentation.py: r2score", "src/tools21cm/segmentation.py: balanced_cross_entropy"]}

{"claims": [
{"property": "C01", "status": "proved", "theorems": ["Verif.CubeMap.euler_eq_chi", "Verif.CubeMap.euler_eq_chi_complement", "Verif.CubeMap.cubeMap_marks"], "note": "every box size, every data array, every threshold"},
{"property": "C02", "status": "proved", "theorems": ["Verif.CubeMap.joblib_eq_cubeMap", "Verif.CubeMap.joblib_terminates"], "note": "every interleaving of single reads and writes; n_jobs >= 1"},
{"property": "C03", "status": "proved", "theorems": ["Verif.CubeMap.torch_eq_cubeMap", "Verif.CubeMap.euler_backend_independent", "Verif.CubeMap.euler_negative_jobs"], "note": "n_jobs below -1 creates no task and silently returns 0 (euler_negative_jobs)"},
{"property": "C04", "status": "proved", "theorems": ["Verif.CubeMap.euler_rolled", "Verif.CubeMap.euler_mirrored", "Verif.CubeMap.euler_swapaxes"], "note": ""},
{"property": "C05", "status": "proved", "theorems": ["Verif.CubeMap.euler_add", "Verif.CubeMap.euler_trivial"], "note": ""},
{"property": "C06", "status": "partial", "theorems": ["Verif.Constants.C06_false", "Verif.Constants.C06_false_matter", "Verif.Constants.C06_partial", "Verif.Constants.C06_flat_partial"], "note": "False of the code: set_omega_lambda assigns OmegaL locally and leaves q0 stale; set_omega_matter leaves OmegaL stale. Partial theorems hold for every history."},
{"property": "C07", "status": "partial", "theorems": ["Verif.Constants.C07_false", "Verif.Constants.C07_false_hubble", "Verif.Constants.C07_call_partial", "Verif.Constants.C07_history_partial"], "note": "False of the code: boxsize and LB are assigned before validation; set_hubble_h leaves LB stale."},
{"property": "C08", "status": "partial", "theorems": ["Verif.Lightcone.velocity_slices_correct", "Verif.Lightcone.slices_ok_iff", "Verif.Lightcone.C08_partial", "Verif.Lightcone.C08_false", "Verif.Lightcone.lightcone_comoving_correct"], "note": "velocity version proved for all inputs; make_lightcone proved when no output step spans two snapshots and refuted otherwise (cached upper snapshot reused)"},
{"property": "C09", "status": "partial", "theorems": ["Verif.Lightcone.C09_slice_partial", "Verif.Lightcone.C09_false_axis", "Verif.Lightcone.linear_spec", "Verif.Lightcone.C09_false_step", "Verif.Lightcone.C09_step_partial", "Verif.Lightcone.step_cases", "Verif.Lightcone.stepCell_monotone", "Verif.Lightcone.sigmoid_spec"], "note": "linear and sigmoid proved; step refuted (switch at half the bracket width); slice index refuted for non-cubic boxes"},
{"property": "C10", "status": "proved", "theorems": ["Verif.Lightcone.freqRedshifts_closed", "Verif.Lightcone.freqRedshifts_spec", "Verif.Lightcone.freqRedshifts_rejects"], "note": ""},
{"property": "C11", "status": "proved", "theorems": ["Verif.Lightcone.comovingRedshifts_spec", "Verif.Lightcone.comovingRedshifts_hubble"], "note": "assumes one cell is smaller than the Hubble radius (otherwise the code's formula divides by a non-positive frequency)"},
{"property": "C12", "status": "partial", "theorems": ["Verif.Lightcone.truncate_spec", "Verif.Lightcone.C12_false", "Verif.Lightcone.C12_partial", "Verif.Lightcone.lightcone_comoving_correct"], "note": "frequency mode with the default z_high always raises"},
{"property": "C13", "status": "partial", "theorems": ["Verif.Lightcone.C13_partial", "Verif.Lightcone.C13_false_upper", "Verif.Lightcone.C13_false_verbose", "Verif.Lightcone.subvolume_out_of_range", "Verif.Lightcone.subvolume_ok", "Verif.Lightcone.nearest_mono", "Verif.Lightcone.mhzLimits_spec"], "note": "slice closest to the upper bound is left out when the index difference is odd; IndexError at the last slice"},
{"property": "C14", "status": "partial", "theorems": ["Verif.Files.C14_partial", "Verif.Files.C14_false_4d", "Verif.Files.C14_false_2d"], "note": "3-D round trip proved at byte level for both orders and every word size; 4-D and 2-D arrays are silently corrupted."},
{"property": "C15", "status": "proved", "theorems": ["Verif.Files.raw_roundtrip", "Verif.Files.raw_not_cube", "Verif.Files.roundCbrt_cube"], "note": "Round trip for every cube, rejection of every non-cube file length."},
{"property": "C16", "status": "partial", "theorems": ["Verif.Files.xfrac_roundtrip", "Verif.Files.xfrac_precision_mismatch", "Verif.Files.xfrac_header_mismatch", "Verif.Files.C16_false_header"], "note": "Round trip with equal flags proved; mismatching flags: precision mismatch is detected, header mismatch is not."},
{"property": "C17", "status": "proved", "theorems": ["Verif.Files.vel_roundtrip"], "note": "Byte-level round trip of the (3,nx,ny,nz) array."},
{"property": "C18", "status": "partial", "theorems": ["Verif.Files.density_roundtrip", "Verif.Files.density_roundtrip_old", "Verif.Files.density_write_raw", "Verif.Files.C18_false"], "note": "Raw densities round trip and the cgs factor is constant; writing from cgs densities uses an attribute that does not exist (C18_false)."},
{"property": "C19", "status": "partial", "theorems": ["Verif.Sources.C19_positions_partial", "Verif.Sources.C19_false_mass", "Verif.Sources.C19_false_modes", "Verif.Sources.grid_last", "Verif.Sources.C19_grid_partial", "Verif.Sources.C19_false_grid"], "note": "Positions round trip; masses do not, other mass modes fail; gridding overwrites sources sharing a cell."},
{"property": "C20", "status": "proved", "theorems": ["Verif.Helpers.findIdx_spec", "Verif.Helpers.linAt_unique", "Verif.Helpers.findIdx_entry", "Verif.Helpers.findIdx_rejects", "Verif.Helpers.findIdx_constant"], "note": "For every monotone table with two different entries; constant tables give nan (findIdx_constant)."},
{"property": "C21", "status": "proved", "theorems": ["Verif.Helpers.combined_spec", "Verif.Helpers.combinedDefault_spec"], "note": "Exact arithmetic, any number of groups."},
{"property": "C22", "status": "partial", "theorems": ["Verif.Helpers.redshift_spec", "Verif.Helpers.redshift_prefix", "Verif.Helpers.C22_false"], "note": "Characterised for every name; when the longest run is not a number (for instance a single dot) the code raises instead of returning -1."},
{"property": "C23", "status": "proved", "theorems": ["Verif.Helpers.bracket_spec", "Verif.Helpers.bracket_refused", "Verif.Helpers.range_spec", "Verif.Helpers.bracket_none_raises"], "note": "Exact selection with multiplicity and order; the default limits cannot be combined with bracket (bracket_none_raises)."},
{"property": "C24", "status": "partial", "theorems": ["Verif.Convolve.circular_result", "Verif.Convolve.C24_partial", "Verif.Convolve.C24_false_odd", "Verif.Convolve.C24_false", "Verif.Convolve.point_response"], "note": "True for kernels with even sizes; for odd kernels the result is moved by one cell along every axis (refuted for all maps)."},
{"property": "C25", "status": "proved", "theorems": ["Verif.Convolve.circular_sum", "Verif.Convolve.circular_constant", "Verif.Convolve.circular_shift", "Verif.Convolve.circular_linear", "Verif.Convolve.circular_bounds"], "note": "Kernels not larger than the map, any dimension."},
{"property": "C26", "status": "partial", "theorems": ["Verif.Convolve.constant_full", "Verif.Convolve.constant_same", "Verif.Convolve.valid_spec", "Verif.Convolve.pad_rules", "Verif.Convolve.padded_result", "Verif.Convolve.C26_partial", "Verif.Convolve.C26_false_even", "Verif.Convolve.C26_false_mirror", "Verif.Convolve.unknown_backend"], "note": "Constant and valid modes hold; padded boundaries are off by one cell for even kernels and 'mirror' depends on the backend (both refuted)."},
{"property": "C27", "status": "partial", "theorems": ["Verif.Smoothing.tophat_spec", "Verif.Smoothing.tophat_block", "Verif.Smoothing.sphere_spec", "Verif.Smoothing.gauss_spec", "Verif.Smoothing.gauss_fwhm", "Verif.Smoothing.tophat_zero", "Verif.Smoothing.gauss_zero", "Verif.Smoothing.C27_false"], "note": "Proved for widths from 1 to the size; for wider tophats the negative slice index wraps (refuted)."},
{"property": "C28", "status": "partial", "theorems": ["Verif.Statistics.subtract_zero", "Verif.Statistics.subtract_differences", "Verif.Statistics.subtract_unique", "Verif.Statistics.subtract_idempotent", "Verif.Statistics.subtract_axis_error", "Verif.Statistics.C28_partial", "Verif.Statistics.C28_false"], "note": "subtract_mean_signal fully; signal_overdensity ignores negative axes (refuted)."},
{"property": "C29", "status": "partial", "theorems": ["Verif.UVGrid.C29_partial", "Verif.UVGrid.C29_false", "Verif.UVGrid.C29_total", "Verif.UVGrid.gridUV_odd"], "note": "Cell placement holds on even grids; on odd grids the map is shifted by one cell (C29_false). The total holds on all grids."},
{"property": "C30", "status": "proved", "theorems": ["Verif.UVGrid.C30_earth", "Verif.UVGrid.C30_enu", "Verif.UVGrid.C30_xyz"], "note": "Scalar products and signed volumes are preserved for all angles."},
{"property": "C31", "status": "partial", "theorems": ["Verif.UVCache.C31_partial", "Verif.UVCache.C31_false_torn", "Verif.UVCache.C31_false_format", "Verif.UVCache.C31_refused", "Verif.UVCache.C31_false_unrecorded"], "note": "Holds for crashes between writes, different keys and formats that store arrays; false for a crash during a write, for json/yaml, and for caches without recorded parameters."},
{"property": "C32", "status": "partial", "theorems": ["Verif.UVCache.C32_partial", "Verif.UVCache.C32_false", "Verif.UVCache.C32_false_witness", "Verif.UVCache.C32_separated"], "note": "Holds for different keys (redshifts more than 0.001 apart); false for redshifts with equal keys."},
{"property": "C33", "status": "partial", "theorems": ["Verif.Calibration.C33_partial", "Verif.Calibration.C33_false"], "note": "Rows are right before the first baseline outside the grid; false after it."},
{"property": "C34", "status": "partial", "theorems": ["Verif.Calibration.C34_partial", "Verif.Calibration.C34_false", "Verif.Calibration.C34_cube"], "note": "Holds with at least one step per job; more jobs than steps raise. CubeMap_joblib always partitions."},
{"property": "C35", "status": "partial", "theorems": ["Verif.Calibration.C35_partial", "Verif.Calibration.C35_false_odd", "Verif.Calibration.C35_false_cut"], "note": "Even grids: cells stay in place and the cut is right up to one cell; false on odd grids and next to the cut."},
{"property": "C36", "status": "partial", "theorems": ["Verif.RaySizes.C36_bins", "Verif.RaySizes.C36_total", "Verif.RaySizes.C36_structure", "Verif.RaySizes.C36_unit", "Verif.RaySizes.C36_curve", "Verif.RaySizes.C36_mfp2d", "Verif.RaySizes.C36_false_3d"], "note": "Bins and conservation proved for every structure and set of rays; every 2D ray is counted. In 3D rays can outlast the number of steps and are then in no bin although the result is called normalised (witness in every fully ionised box of 4 or more cells)."},
{"property": "C37", "status": "partial", "theorems": ["Verif.RegionSizes.C37_false", "Verif.RegionSizes.C37_groups_partial"], "note": "False: the zip iterator is exhausted before the loop, the map is always zero. Partial: the search loop run over all cells above the threshold terminates and labels exactly the face-connected components with their sizes."},
{"property": "C38", "status": "partial", "theorems": ["Verif.RegionSizes.C38_sizes_partial", "Verif.RegionSizes.C38_false"], "note": "scikit-image labelling is characterised by its documented output. True if some cell is below the threshold, false otherwise: the first region is dropped."},
{"property": "C39", "status": "partial", "theorems": ["Verif.Morphology.C39_opening_partial", "Verif.Morphology.C39_monotone", "Verif.Morphology.C39_ball", "Verif.Morphology.C39_false_even", "Verif.Morphology.C39_false_asymmetric", "Verif.Morphology.C39_none"], "note": "Monotone for every element; anti-extensive and idempotent for elements symmetric about a centre cell (all discs and balls), false for even-sized or asymmetric elements; the documented default element raises. FFT rounding not modelled."},
{"property": "C40", "status": "proved", "theorems": ["Verif.Morphology.C40_telescopes", "Verif.Morphology.C40_granulometry", "Verif.Morphology.C40_errors"], "note": "Includes that the early exit leaves all areas as if computed and the cases in which no spectrum exists."},
{"property": "C41", "status": "partial", "theorems": ["Verif.Conversions.C41_frequency", "Verif.Conversions.C41_wavelength", "Verif.Conversions.C41_proper", "Verif.Conversions.C41_mass", "Verif.Conversions.C41_virial", "Verif.Conversions.C41_virial_physical", "Verif.Conversions.C41_virial_scaling", "Verif.Conversions.C41_particles", "Verif.Conversions.C41_particles_none", "Verif.Conversions.C41_jansky", "Verif.Conversions.C41_halo_partial", "Verif.Conversions.C41_false_halo"], "note": "All pairs proved mutually inverse on their physical domains. halo_mass_to_particle_number returns a mass instead of a number."},
{"property": "C42", "status": "partial", "theorems": ["Verif.Padding.C42_partial", "Verif.Padding.C42_single", "Verif.Padding.C42_raises", "Verif.Padding.C42_false", "Verif.Padding.C42_square", "Verif.Padding.C42_size", "Verif.Padding.C42_lightcone", "Verif.Padding.C42_default"], "note": "Periodic up to twice the size; larger sizes raise for slices of two or more cells."},
{"property": "C43", "status": "proved", "theorems": ["Verif.SubBoxes.C43_partition", "Verif.SubBoxes.C43_volume", "Verif.SubBoxes.C43_mean", "Verif.SubBoxes.C43_raises", "Verif.SubBoxes.C43_homogeneous"], "note": "Windows cover every cell once with equal volume, the mean of the sub-box means is the mean."},
{"property": "C44", "status": "partial", "theorems": ["Verif.Distort.C44_identity", "Verif.Distort.C44_partial", "Verif.Distort.C44_false_far", "Verif.Distort.C44_false_open", "Verif.Distort.C44_false_int", "Verif.Distort.C44_false_sides", "Verif.Distort.C44_raises"], "note": "Identity without velocities proved for equal perpendicular sides. Conservation proved for periodic float boxes and displacements up to one box length; false for larger displacements, open boundaries, integer boxes and unequal sides."},
{"property": "C45", "status": "partial", "theorems": ["Verif.Tau.C45_partial", "Verif.Tau.C45_length", "Verif.Tau.C45_value", "Verif.Tau.C45_monotone", "Verif.Tau.C45_false"], "note": "Length, errors, values (trapezoidal rule) and monotonicity are proved for num_points >= 1; the order of the input is irrelevant for distinct redshifts and matters for equal ones."},
{"property": "C46", "status": "proved", "theorems": ["Verif.Augment.C46_undone", "Verif.Augment.C46_identity", "Verif.Augment.C46_round", "Verif.Augment.C46_table"], "note": "Exact inverses for arrays of any shape; identity network returns the rounded cube for every size; the table of operations is complete and free of repetitions for every size."},
{"property": "C47", "status": "partial", "theorems": ["Verif.Halo.C47_partial", "Verif.Halo.C47_full_partial", "Verif.Halo.C47_false_flag", "Verif.Halo.C47_false_columns", "Verif.Halo.C47_raises_zero", "Verif.Halo.C47_raises", "Verif.Halo.C47_false_rockstar", "Verif.Halo.C47_raises_short"], "note": "Proved for HaloList and HaloCubeP3MFull on files of nineteen columns with a non-zero upper bound, and that True means all were read, False that the limit was reached. False: False is returned when only unselected lines follow; with 22 columns the wrong field is compared; an upper bound of zero raises; the Rockstar limit reads nothing."},
{"property": "C48", "status": "proved", "theorems": ["Verif.Halo.C48_inside", "Verif.Halo.C48_once", "Verif.Halo.C48_again"], "note": "Both versions of _reposition, any list of positions; positions further away are moved once only."},
{"property": "C49", "status": "partial", "theorems": ["Verif.Superpixels.C49_partial", "Verif.Superpixels.C49_raises", "Verif.Superpixels.C49_false", "Verif.Superpixels.C49_map_partial", "Verif.Superpixels.C49_map_false"], "note": "Proved for the labels 0..k-1, for every operator indifferent to order and every argsort; the map preserves the total. Other labels raise IndexError or give the values of other labels."},
{"property": "C50", "status": "partial", "theorems": ["Verif.PowerSpectrum.C50_partial", "Verif.PowerSpectrum.C50_total", "Verif.PowerSpectrum.C50_int", "Verif.PowerSpectrum.C50_aligned", "Verif.PowerSpectrum.C50_aligned_false", "Verif.PowerSpectrum.C50_raises", "Verif.PowerSpectrum.C50_wavenumber", "Verif.PowerSpectrum.C50_edges", "Verif.PowerSpectrum.C50_false_line"], "note": "Counting proved for all edges and all numbers of bins. The alignment of k with the FFT is proved in three dimensions and for odd sizes; it is false for even sizes in one and two dimensions, where k is half a step off. In one dimension the modes below zero are never counted."},
{"property": "C51", "status": "partial", "theorems": ["Verif.Coeval.C51_partial", "Verif.Coeval.C51_false", "Verif.Coeval.C51_false_order", "Verif.Coeval.C51_raises", "Verif.Coeval.C51_raises_velocity"], "note": "The weights are those of the adjacent redshifts and the result lies between the two cubes read. False for every directory: at least one of the two cubes is not that of the adjacent snapshot. A redshift that is present raises TypeError; the velocity reader always raises."},
{"property": "C52", "status": "partial", "theorems": ["Verif.Constants.C52_false", "Verif.Constants.C52_partial"], "note": "False of the code: derived densities are computed once at import."},
{"property": "C53", "status": "partial", "theorems": ["Verif.Helpers.C53_partial", "Verif.Helpers.C53_false"], "note": "Strings are iterable in Python 3, so directories and list files are never expanded."},
{"property": "C54", "status": "partial", "theorems": ["Verif.Sources.C54_partial", "Verif.Sources.C54_false"], "note": "write_to_file without data drops the loaded data."},
{"property": "C55", "status": "partial", "theorems": ["Verif.Files.C55_partial", "Verif.Files.C55_false"], "note": "raw_density flag ignored for density file names."},
{"property": "C56", "status": "partial", "theorems": ["Verif.Files.C56_partial", "Verif.Files.C56_false"], "note": "Wrong mesh for temperature files."},
{"property": "C57", "status": "partial", "theorems": ["Verif.Helpers.C57_partial", "Verif.Helpers.C57_false"], "note": "find_idx clamps in place in the caller's array."},
{"property": "C58", "status": "partial", "theorems": ["Verif.Smoothing.tophat_odd", "Verif.Smoothing.tophat_even", "Verif.Smoothing.C58_partial", "Verif.Smoothing.C58_false", "Verif.Smoothing.C58_false_seam"], "note": "The mean is taken around the next cell; even maps count the first row twice at the edge."},
{"property": "C59", "status": "partial", "theorems": ["Verif.Smoothing.C59_partial", "Verif.Smoothing.C59_false"], "note": "False when the first axis is the longer one."},
{"property": "C60", "status": "partial", "theorems": ["Verif.Smoothing.coeval_result", "Verif.Smoothing.C60_partial", "Verif.Smoothing.C60_false"], "note": "A square two-dimensional kernel is used, which also smooths one angular axis."},
{"property": "C61", "status": "partial", "theorems": ["Verif.Smoothing.tophat_lightcone", "Verif.Smoothing.C61_partial", "Verif.Smoothing.C61_false"], "note": "The slice above the window is included as well."},
{"property": "C62", "status": "partial", "theorems": ["Verif.Smoothing.smoothLine_spec", "Verif.Smoothing.C62_partial", "Verif.Smoothing.boxWindow_sum", "Verif.Smoothing.triangular_sum", "Verif.Smoothing.customWindow_spec", "Verif.Smoothing.C62_false_ends", "Verif.Smoothing.C62_false_long", "Verif.Smoothing.C62_false_hamming"], "note": "True away from the ends for normalised windows not longer than the line."},
{"property": "C63", "status": "partial", "theorems": ["Verif.Statistics.C63_partial", "Verif.Statistics.C63_false"], "note": "Vector fields: the count is taken from the component axis."},
{"property": "C64", "status": "proved", "theorems": ["Verif.Statistics.massWeighted_bounds", "Verif.Statistics.kurtosis_affine", "Verif.Statistics.skewness_affine"], "note": "Skewness through its numerator and denominator (the power 3/2 is applied to the denominator)."},
{"property": "C65", "status": "partial", "theorems": ["Verif.UVGrid.C65_partial", "Verif.UVGrid.C65_false_nyquist", "Verif.UVGrid.C65_false_odd"], "note": "Holds on even grids off the Nyquist row and column; false there and on odd grids."},
{"property": "C66", "status": "partial", "theorems": ["Verif.UVGrid.C66_partial", "Verif.UVGrid.C66_false_two_antennas", "Verif.UVGrid.C66_false_centred"], "note": "Average holds for three or more antennas on even grids; two antennas raise; the hour angles are off centre by half a step."},
{"property": "C67", "status": "proved", "theorems": ["Verif.UVGrid.C67_pairs", "Verif.UVGrid.C67_perms"], "note": ""},
{"property": "C68", "status": "partial", "theorems": ["Verif.UVGrid.C68_enu", "Verif.UVGrid.C68_false_xyz", "Verif.UVGrid.C68_meridian"], "note": "enu_to_ecef and the meridian case hold; the documented X axis of ecef_to_xyz is false (east is Y)."},
{"property": "C69", "status": "proved", "theorems": ["Verif.Calibration.C69_gains", "Verif.Calibration.C69_mirror"], "note": ""},
{"property": "C70", "status": "partial", "theorems": ["Verif.Calibration.C70_partial", "Verif.Calibration.C70_false_declination", "Verif.Calibration.C70_false_default"], "note": "Only rigidity holds; the declination is passed as the observation time."},
{"property": "C71", "status": "proved", "theorems": ["Verif.Calibration.C71_stamps", "Verif.Calibration.C71_counts"], "note": ""},
{"property": "C72", "status": "partial", "theorems": ["Verif.Morphology.C72_partial_sums_partial", "Verif.Morphology.C72_false"], "note": "Partial sums lie in [0,1]; single entries can be negative because a discrete disc of radius 3 is not a union of discs of radius 2."},
{"property": "C73", "status": "proved", "theorems": ["Verif.Morphology.C73_sorted"], "note": ""},
{"property": "C74", "status": "partial", "theorems": ["Verif.RaySizes.C74_no_roi_partial", "Verif.RaySizes.C74_false"], "note": "True for thresholds up to 1; above, the draw of start cells raises."},
{"property": "C75", "status": "partial", "theorems": ["Verif.RegionSizes.C75_count_partial", "Verif.RegionSizes.C75_false"], "note": "One entry per region, but the volumes are the label numbers 1..n."},
{"property": "C76", "status": "partial", "theorems": ["Verif.RegionSizes.C76_counts_partial", "Verif.RegionSizes.C76_total_partial", "Verif.RegionSizes.C76_false"], "note": "Proved for distinct positive radii; in a box of four cells all radii coincide and cells are counted at each."},
{"property": "C77", "status": "partial", "theorems": ["Verif.RegionSizes.C77_sphere_partial", "Verif.RegionSizes.C77_false"], "note": "Non-periodic exact; periodic labels only cells of the periodic sphere but misses images displaced along fewer than three axes."},
{"property": "C78", "status": "partial", "theorems": ["Verif.Conversions.C78_distance", "Verif.Conversions.C78_monotone", "Verif.Conversions.C78_age", "Verif.Conversions.C78_float", "Verif.Conversions.C78_distance_partial", "Verif.Conversions.C78_age_int", "Verif.Conversions.C78_false_distance", "Verif.Conversions.C78_false_age"], "note": "Proved for float redshifts. Integer redshifts give distances truncated to whole Mpc and ages of zero."},
{"property": "C79", "status": "partial", "theorems": ["Verif.Conversions.C79_flat", "Verif.Conversions.C79_luminosity", "Verif.Conversions.C79_angular", "Verif.Conversions.C79_false_lambda"], "note": "Proved for every history of setters without set_omega_lambda (both the integral and the closed form); false after set_omega_lambda."},
{"property": "C80", "status": "partial", "theorems": ["Verif.Conversions.C80_partial", "Verif.Conversions.C80_int", "Verif.Conversions.C80_raises", "Verif.Conversions.C80_false", "Verif.Conversions.C80_table"], "note": "Exact at table redshifts inside the search window; a single distance with guessed redshift of 29 or more leaves fewer than four points and raises. The spline is a parameter that passes through its points. Every tabulated distance is within two per cent of the default cosmology."},
{"property": "C81", "status": "partial", "theorems": ["Verif.Conversions.C81_partial", "Verif.Conversions.C81_defaults", "Verif.Conversions.C81_false"], "note": "The result is the flux in micro-jansky, 10^6 times the documented unit."},
{"property": "C82", "status": "partial", "theorems": ["Verif.Augment.C82_partial", "Verif.Augment.C82_false", "Verif.Augment.C82_raises"], "note": "True for cubes (C46). Without augmentation, planes beyond the length of the first side are never predicted and enter the mean as zeros; with augmentation non-cubes raise."},
{"property": "C83", "status": "partial", "theorems": ["Verif.Tau.C83_partial", "Verif.Tau.C83_offset", "Verif.Tau.C83_false", "Verif.Tau.C83_false_points"], "note": "True in a flat universe; after set_omega_lambda the values are off by a constant and can be negative, with num_points=0 the first value is negative."},
{"property": "C84", "status": "partial", "theorems": ["Verif.Tau.C84_partial", "Verif.Tau.C84_length", "Verif.Tau.C84_false"], "note": "True for increasing redshifts; tau_map does not sort."},
{"property": "C85", "status": "partial", "theorems": ["Verif.Tau.C85_partial", "Verif.Tau.C85_stale", "Verif.Tau.C85_false"], "note": "True for the density setters; the Hubble constant and the helium abundance have no effect."},
{"property": "C86", "status": "partial", "theorems": ["Verif.Distort.C86_partial", "Verif.Distort.C86_false"], "note": "Exact output proved: the translated box, except that one of the P particles of the last cell lands one cell too far. The unqualified claim is false."},
{"property": "C87", "status": "partial", "theorems": ["Verif.Halo.C87_partial", "Verif.Halo.C87_limit", "Verif.Halo.C87_false_again", "Verif.Halo.C87_raises"], "note": "Columns by name, order and count proved for every successful read without a limit, for the haloes added. False with a limit (nothing is read) and for an object read twice (haloes accumulate). Another extension raises UnboundLocalError on the third line."},
{"property": "C88", "status": "partial", "theorems": ["Verif.Superpixels.C88_partial", "Verif.Superpixels.C88_false", "Verif.Superpixels.C88_raises"], "note": "Proved for labels 0..k-1 and thresholds other than zero; a threshold of zero is replaced by the mean, labels from 1 raise IndexError."},
{"property": "C89", "status": "partial", "theorems": ["Verif.Superpixels.C89_partial", "Verif.Superpixels.C89_false"], "note": "Proved for deviations with Bessel's correction; false for those get_superpixel_sigmas returns."},
{"property": "C90", "status": "partial", "theorems": ["Verif.Superpixels.C90_refines", "Verif.Superpixels.C90_partial", "Verif.Superpixels.C90_false"], "note": "Zero for refinements proved for every b below one; non-negative if b times the number of objects is below one; with five objects and the default b=0.25 the error is -1."},
{"property": "C91", "status": "partial", "theorems": ["Verif.Coeval.C91_partial", "Verif.Coeval.C91_false", "Verif.Coeval.C91_false_order", "Verif.Coeval.C91_raises"], "note": "Which snapshot is used is proved for files listed in decreasing redshift; the factor applied is the inverse of the dilution, so the density rises."},
{"property": "C92", "status": "proved", "theorems": ["Verif.PowerSpectrum.C92_cross", "Verif.PowerSpectrum.C92_power", "Verif.PowerSpectrum.C92_raises"], "note": "Parseval's identity for the shifted transform of the model."},
{"property": "C93", "status": "proved", "theorems": ["Verif.PowerSpectrum.C93_translation", "Verif.PowerSpectrum.C93_even", "Verif.PowerSpectrum.C93_nonneg", "Verif.PowerSpectrum.C93_homogeneous", "Verif.PowerSpectrum.C93_cross"], "note": "Real arithmetic."},
{"property": "C94", "status": "partial", "theorems": ["Verif.PowerSpectrum.C94_partial", "Verif.PowerSpectrum.C94_false_los", "Verif.PowerSpectrum.C94_exclude", "Verif.PowerSpectrum.C94_false_last", "Verif.PowerSpectrum.C94_false_large", "Verif.PowerSpectrum.C94_false_odd", "Verif.PowerSpectrum.C94_false_any", "Verif.PowerSpectrum.C94_raises", "Verif.PowerSpectrum.C94_int"], "note": "Holds below the last edges, for k of at least 0.001 and, with exclusion, for even grids. False for modes on the last edge, hence for all modes along the line of sight and the modes with the largest k; false for k below 0.001; on odd grids nothing is excluded."},
{"property": "C95", "status": "partial", "theorems": ["Verif.PowerSpectrum.C95_partial", "Verif.PowerSpectrum.C95_false_array", "Verif.PowerSpectrum.C95_false_edges", "Verif.PowerSpectrum.C95_raises", "Verif.PowerSpectrum.C95_modes"], "note": "A number and a list of lengths agree. An array of lengths and a list of edges raise."},
{"property": "C96", "status": "partial", "theorems": ["Verif.PowerSpectrum.C96_partial", "Verif.PowerSpectrum.C96_false", "Verif.PowerSpectrum.C96_raises", "Verif.PowerSpectrum.C96_window"], "note": "Without a window the data are unchanged. A named window is multiplied into the array of the caller; a window given as an array raises."},
{"property": "C97", "status": "partial", "theorems": ["Verif.PowerSpectrum.C97_partial", "Verif.PowerSpectrum.C97_false", "Verif.PowerSpectrum.C97_raises"], "note": "Proved for one number and for a tuple of two, with at least four cells along the line of sight and another axis. The documented list of two numbers raises, and so do fewer than four cells along the line of sight."},
{"property": "C98", "status": "partial", "theorems": ["Verif.Temperature.C98_partial", "Verif.Temperature.C98_grows", "Verif.Temperature.C98_false"], "note": "Proved that mean_dt is positive and grows for every cosmology of at most critical density, and that it is the signal of the current cosmology as long as h, OmegaB and the helium abundance keep their values. False after set_omega_baryon and set_abundance_helium, which have no effect, and after set_hubble_h, with which it goes the wrong way, because meandt is computed at import."},
{"property": "C99", "status": "partial", "theorems": ["Verif.Temperature.C99_partial", "Verif.Temperature.C99_average", "Verif.Temperature.C99_relative", "Verif.Temperature.C99_raises", "Verif.Temperature.C99_false"], "note": "Proved for densities that are nowhere negative. The signal of a cell is not independent of the others: one negative value makes all densities relative ones."},
{"property": "C100", "status": "partial", "theorems": ["Verif.Temperature.C100_partial", "Verif.Temperature.C100_full_partial", "Verif.Temperature.C100_uses", "Verif.Temperature.C100_false", "Verif.Temperature.C100_raises"], "note": "Proved for names of files. With an array or an object of the file classes as ionised fractions the call raises a type error."},
{"property": "C101", "status": "partial", "theorems": ["Verif.Temperature.C101_partial", "Verif.Temperature.C101_grows", "Verif.Temperature.C101_ignored", "Verif.Temperature.C101_raises", "Verif.Temperature.C101_false", "Verif.Temperature.C101_raises_axis"], "note": "Proved for the last axis, for any functions z_to_cdist and cdist_to_z. For other axes a cubic lightcone is treated as if the line of sight were the last axis and others raise."},
{"property": "C102", "status": "partial", "theorems": ["Verif.Temperature.C102_partial", "Verif.Temperature.C102_plain", "Verif.Temperature.C102_limit", "Verif.Temperature.C102_lightcone", "Verif.Temperature.C102_false", "Verif.Temperature.C102_lightcone_false"], "note": "Proved for cubes, except that completely ionised cells at 20000 K or more give no number with the correction. Lightcones get the signal at the average redshift of their slices."},
{"property": "C103", "status": "partial", "theorems": ["Verif.Temperature.C103_partial", "Verif.Temperature.C103_average", "Verif.Temperature.C103_false"], "note": "Proved for meshes with equally many cells along all axes; the volume of a cell is wrong otherwise."},
{"property": "C104", "status": "partial", "theorems": ["Verif.RandomField.C104_partial", "Verif.RandomField.C104_false", "Verif.RandomField.C104_false_plane", "Verif.RandomField.C104_raises"], "note": "Proved for three dimensions with even numbers of cells. False in three dimensions for odd numbers of cells (fftshift where ifftshift is needed) and in two dimensions (centre of _get_k between cells)."},
{"property": "C105", "status": "partial", "theorems": ["Verif.Topology.C105_betti0_partial", "Verif.Topology.C105_betti2_partial", "Verif.Topology.C105_false", "Verif.Topology.C105_false_outside", "Verif.Topology.C105_false_trivial", "Verif.Topology.C105_false_corner", "Verif.Topology.C105_false_rolled"], "note": "Proved of betti0 in open boxes with 6 neighbours. False of betti1 and betti2: the surroundings count as a cavity; 26 neighbours leave out the corners; components are not periodic although the Euler characteristic is."},
{"property": "C106", "status": "partial", "theorems": ["Verif.Topology.C106_partial", "Verif.Topology.C106_false", "Verif.Topology.C106_false_first", "Verif.Topology.C106_raises"], "note": "Proved if the cells above the threshold form one region with at least two cells, or none, or all. False otherwise: any two neighbouring cells count as percolating, and only the first region is examined."},
{"property": "C107", "status": "partial", "theorems": ["Verif.Identify.C107_three_partial", "Verif.Identify.C107_two_partial", "Verif.Identify.C107_values_partial", "Verif.Identify.C107_single", "Verif.Identify.C107_false"], "note": "Proved for three clusters, for data with two values and data with one value. False for two clusters: the threshold is the mean of the largest values of the clusters. k-means itself is taken by its result."},
{"property": "C108", "status": "partial", "theorems": ["Verif.Binning.C108_partial", "Verif.Binning.C108_raises", "Verif.Binning.C108_false"], "note": "Proved: the channels, which slice each one takes, and that it is the sum of the up to w slices ending there over w; fewer than two channels raise. False in full: fftconvolve is called in its default mode 'full', so the average is one-sided and the first channels lose signal (C108_false). cdist_to_z is a parameter."},
{"property": "C109", "status": "partial", "theorems": ["Verif.Binning.C109_partial", "Verif.Binning.C109_raises", "Verif.Binning.C109_false", "Verif.Binning.C109_false_edge"], "note": "Proved: number of slices, which input slice each takes and the centred average; cells thinner than half the spacing raise. False in full: one redshift too many unless the cells fit exactly, and edge slices lose signal."},
{"property": "C110", "status": "partial", "theorems": ["Verif.Angular.C110_partial", "Verif.Angular.C110_slice", "Verif.Angular.C110_raises", "Verif.Angular.C110_false", "Verif.Angular.C110_zero"], "note": "Proved for lightcones whose box fills more than half of the field of view in every channel. Where it fills less than half the padding raises (C110_raises, C110_false). The resampling and cdist_to_z are parameters."},
{"property": "C111", "status": "partial", "theorems": ["Verif.Correlation.C111_partial", "Verif.Correlation.C111_linear", "Verif.Correlation.C111_log", "Verif.Correlation.C111_false", "Verif.Correlation.C111_raises"], "note": "Proved: the values are the integral at pi times the radius, leaving out bins with no finite power; the radii for a number of bins. False of the code: the values belong to the radii returned (np.sinc contains a factor pi); without a box size a number of bins raises; a list of radii raises."},
{"property": "C112", "status": "partial", "theorems": ["Verif.Correlation.C112_partial", "Verif.Correlation.C112_indices", "Verif.Correlation.C112_false", "Verif.Correlation.C112_raises", "Verif.Correlation.C112_blind"], "note": "Proved: the bins, their centres and the data-random counts. False of the code: the data-data and random-random counts are histograms of the indices of the points, not of their distances; given edges raise."},
{"property": "C113", "status": "partial", "theorems": ["Verif.Noise.C113_partial", "Verif.Noise.C113_table", "Verif.Noise.C113_noise", "Verif.Noise.C113_false", "Verif.Noise.C113_raises", "Verif.Noise.C113_named"], "note": "Proved: the SEFD without a table if temperature or efficiency varies with the frequency, the geometric interpolation of tables in any order, both rms of the radiometer equation. False of the code: with both given as numbers one frequency raises and several give a single number; an array of one frequency gives a number."},
{"property": "C114", "status": "partial", "theorems": ["Verif.Noise.C114_partial", "Verif.Noise.C114_false", "Verif.Noise.C114_raises"], "note": "Proved: mean and covariance of all pairs of pixels for natural and uniform weighting, with the Blackman-Harris taper the code applies. False of the code: the taper lowers the rms below sigma for even coverage; fft_wrap=True and suppress_sharp_features_uv_map=True raise. The methods 'gaussian' and 'binned' are not modelled."},
{"property": "C115", "status": "partial", "theorems": ["Verif.Noise.C115_partial", "Verif.Noise.C115_coeval", "Verif.Noise.C115_depth", "Verif.Noise.C115_false"], "note": "Proved: mean, covariance and independence of the slices of noise_lightcone and noise_cube_coeval. False of the code: noise_cube_lightcone always raises (21 arguments for 20 parameters); a single redshift or equal neighbours give nothing finite."},
{"property": "C116", "status": "partial", "theorems": ["Verif.Noise.C116_partial", "Verif.Noise.C116_false", "Verif.Noise.C116_empty", "Verif.Noise.C116_raises"], "note": "Proved: the radial average of the noise power for natural weighting if every cell is sampled. False of the code: the observing time does not enter; an empty cell leaves nothing finite in the bins above, an empty zero baseline in none of the automatic bins; uniform weighting raises."},
{"property": "C117", "status": "partial", "theorems": ["Verif.UVResponse.C117_partial", "Verif.UVResponse.C117_flux", "Verif.UVResponse.C117_mirrored", "Verif.UVResponse.C117_linear", "Verif.UVResponse.C117_false", "Verif.UVResponse.C117_raises", "Verif.UVResponse.C117_coeval", "Verif.UVResponse.C117_coeval_raises"], "note": "Proved for every map: the amplitude of a wave is kept, halved or removed as both, one or none of the two directions are sampled; for maps with mirrored baselines the property holds. False of the code for other maps: a wave which is not sampled survives at half its amplitude if its opposite is sampled. Without uv_map an array which is not a cube raises."},
{"property": "C118", "status": "partial", "theorems": ["Verif.UVResponse.C118_partial", "Verif.UVResponse.C118_half", "Verif.UVResponse.C118_false", "Verif.UVResponse.C118_odd_false"], "note": "Proved for even numbers of cells: the cut is at max_baseline up to sqrt 2 cells. False of the code: of two opposite cells of the length max_baseline one is removed and one kept; for odd numbers of cells the map is rolled by one cell; max_baseline_to_max_k gives half the wave number."},
{"property": "C119", "status": "partial", "theorems": ["Verif.UVResponse.C119_partial", "Verif.UVResponse.C119_zero", "Verif.UVResponse.C119_false", "Verif.UVResponse.C119_turnover"], "note": "Proved: the noise lies between that of natural weighting and that without baselines and grows with robust, and where the weight is halved. False of the code: robust runs the other way, natural weighting is the limit of robust to minus infinity. For maps with at least one positive and no negative count."},
{"property": "C120", "status": "partial", "theorems": ["Verif.UVResponse.C120_partial", "Verif.UVResponse.C120_even", "Verif.UVResponse.C120_sigmoid", "Verif.UVResponse.C120_false", "Verif.UVResponse.C120_odd_false", "Verif.UVResponse.C120_raises", "Verif.UVResponse.C120_given"], "note": "Proved for even numbers of cells: every wave is multiplied by the mean of the filter at the wave and its opposite, and what the default filter is. False of the code: the default filter keeps the waves of the wedge and removes those along the line of sight; for odd numbers of cells a filter of ones multiplies the cube by a cosine; without array, and barrel_filter always, raise."},
{"property": "C121", "status": "partial", "theorems": ["Verif.Beam.C121_partial", "Verif.Beam.C121_gaussian", "Verif.Beam.C121_step", "Verif.Beam.C121_bessel", "Verif.Beam.C121_sigmoid_false", "Verif.Beam.C121_odd_false", "Verif.Beam.C121_step_false", "Verif.Beam.C121_null_false", "Verif.Beam.C121_image", "Verif.Beam.C121_lightcone", "Verif.Beam.C121_coeval", "Verif.Beam.C121_raises", "Verif.Beam.C121_axis"], "note": "Proved: values from 0 to 1, monotone (but for Bessel), exact patterns for even numbers of cells, images and lightcones. False of the code: sigmoid beams take r to the power sqrt 2; odd numbers of cells are centred between two cells and may give NaN; 2-D arrays ignore l_null; step and Bessel beams disagree whether l_null is a diameter. The Bessel function is abstract."},
{"property": "C122", "status": "partial", "theorems": ["Verif.Foreground.C122_partial", "Verif.Foreground.C122_frequency", "Verif.Foreground.C122_raises", "Verif.Foreground.C122_power", "Verif.Foreground.C122_false"], "note": "Proved for even numbers of cells: each map is the modulus of the complex field with the requested mode powers (half a cell off), maps of two redshifts are multiples of each other, and the expected square of the pixels. False of the code: the modulus has no negative pixel and a positive mean; odd numbers of cells give NaN; integer redshifts raise."},
{"property": "C123", "status": "partial", "theorems": ["Verif.Foreground.C123_partial", "Verif.Foreground.C123_false", "Verif.Foreground.C123_flux_false", "Verif.Foreground.C123_raises"], "note": "Proved: the number of sources is near that of the counts in the field of the least redshift, and the maps are the sums if no two sources share a pixel. False of the code: of sources in the same pixel only the last one counts; the fluxes are drawn uniformly and not like the counts. The random numbers are an argument of the model."},
{"property": "C124", "status": "partial", "theorems": ["Verif.RollingWedge.C124_partial", "Verif.RollingWedge.C124_signal", "Verif.RollingWedge.C124_linear", "Verif.RollingWedge.C124_cell", "Verif.RollingWedge.C124_local", "Verif.RollingWedge.C124_false", "Verif.RollingWedge.C124_slope_false", "Verif.RollingWedge.C124_raises"], "note": "Proved for even chunk lengths: emission which does not depend on frequency is removed and waves far from the wedge are kept, both up to the threshold, in channels whose chunk lies in the lightcone; linearity, locality and independence of the cell size. False of the code: waves just outside lose amplitude by the taper, the slope is that of another channel, odd chunk lengths (also the default) raise."},
{"property": "C125", "status": "partial", "theorems": ["Verif.Bispectrum.C125_partial", "Verif.Bispectrum.C125_even", "Verif.Bispectrum.C125_any", "Verif.Bispectrum.C125_translate", "Verif.Bispectrum.C125_cubic", "Verif.Bispectrum.C125_constant", "Verif.Bispectrum.C125_cosine", "Verif.Bispectrum.C125_false", "Verif.Bispectrum.C125_alias_false", "Verif.Bispectrum.C125_width_false", "Verif.Bispectrum.C125_number_false", "Verif.Bispectrum.C125_mask_false", "Verif.Bispectrum.C125_raises"], "note": "Proved for even numbers of cells and sides below the aliasing limit; for all numbers of cells the set of triples actually summed is given. False of the code: odd numbers of cells (fftshift used as its own inverse), large sides (triples closing modulo the grid), equal sides with different widths, a number as box_dims, the shell mask from components; the two methods users call raise UnboundLocalError."},
{"property": "C126", "status": "partial", "theorems": ["Verif.HaloGrid.C126_partial", "Verif.HaloGrid.C126_extent", "Verif.HaloGrid.C126_total", "Verif.HaloGrid.C126_units", "Verif.HaloGrid.C126_box_false", "Verif.HaloGrid.C126_single_false", "Verif.HaloGrid.C126_false", "Verif.HaloGrid.C126_raises"], "note": "True when haloes reach both ends of the box along each axis; the total is always right. False otherwise: the cells are those of the least cuboid that contains the haloes, so that the box length and a common displacement have no effect."},
{"property": "C127", "status": "partial", "theorems": ["Verif.HaloGrid.C127_partial", "Verif.HaloGrid.C127_positions", "Verif.HaloGrid.C127_masses", "Verif.HaloGrid.C127_false", "Verif.HaloGrid.C127_negative_false", "Verif.HaloGrid.C127_raises"], "note": "True when the masses are an argument of halo_mass_on_grid and not negative. False otherwise: the masses set before are not used (the positions are taken for masses, which raises) and cells with negative totals are dropped."},
{"property": "C128", "status": "partial", "theorems": ["Verif.LineIntensity.C128_partial", "Verif.LineIntensity.C128_total", "Verif.LineIntensity.C128_false", "Verif.LineIntensity.C128_factor_false", "Verif.LineIntensity.C128_velocity_false", "Verif.LineIntensity.C128_monotone", "Verif.LineIntensity.C128_units", "Verif.LineIntensity.C128_raises", "Verif.LineIntensity.C128_default"], "note": "Proved with 1/h for h in the pivot and 24.4/54.4 for h^2 in the circular velocity, in the cells of the least cuboid that contains the haloes; false with the right pivot, velocity or cells, and for masses with and positions without units."},
{"property": "C129", "status": "partial", "theorems": ["Verif.LineIntensity.C129_partial", "Verif.LineIntensity.C129_default", "Verif.LineIntensity.C129_monotone", "Verif.LineIntensity.C129_units", "Verif.LineIntensity.C129_given", "Verif.LineIntensity.C129_false", "Verif.LineIntensity.C129_raises"], "note": "Luminosities, totals, order and units proved; the cells are those of the least cuboid that contains the haloes, and a dictionary of parameters raises."},
{"property": "C130", "status": "partial", "theorems": ["Verif.Magnitudes.C130_partial", "Verif.Magnitudes.C130_flux", "Verif.Magnitudes.C130_ratio", "Verif.Magnitudes.C130_inverse", "Verif.Magnitudes.C130_field", "Verif.Magnitudes.C130_false", "Verif.Magnitudes.C130_array_false", "Verif.Magnitudes.C130_luminosity_false", "Verif.Magnitudes.C130_field_false"], "note": "Proved for arrays (Muv_to_muv), numbers and quantities (mag_to_flux, muv_to_Muv) and quantities (FoV_cMpc2); the other kinds of arguments raise or, for a field given as a number, are taken for square radians. Muv_to_L1500 always raises."},
{"property": "C131", "status": "partial", "theorems": ["Verif.BubbleModel.C131_partial", "Verif.BubbleModel.C131_small", "Verif.BubbleModel.C131_overlap_partial", "Verif.BubbleModel.C131_overlap_false", "Verif.BubbleModel.C131_size_false", "Verif.BubbleModel.C131_grey_false", "Verif.BubbleModel.C131_paint_false", "Verif.BubbleModel.C131_argument_false", "Verif.BubbleModel.C131_raises", "Verif.BubbleModel.C131_names", "Verif.BubbleModel.C131_range"], "note": "For all choices of centres: region, freshness, stopping and overshoot, for bubbles that fit and cubes of zeros and ones. False: bubbles wider than the box raise, partial ionisation is doubled by painting, paint_kernel doubles the cube, the given cube is changed, non-overlapping bubbles overlap across the faces of the box."},
{"property": "C132", "status": "partial", "theorems": ["Verif.NoiseError.C132_formula", "Verif.NoiseError.C132_default", "Verif.NoiseError.C132_function", "Verif.NoiseError.C132_scaling", "Verif.NoiseError.C132_area", "Verif.NoiseError.C132_positive", "Verif.NoiseError.C132_bandwidth", "Verif.NoiseError.C132_list_false"], "note": "All laws are proved for numbers and arrays. False: a list of modes, although array-like, raises TypeError."},
{"property": "C133", "status": "partial", "theorems": ["Verif.Multipoles.C133_false", "Verif.Multipoles.C133_raises", "Verif.Multipoles.C133_fit_partial", "Verif.Multipoles.C133_polynomials", "Verif.Multipoles.C133_mixing_false", "Verif.Multipoles.C133_assertion"], "note": "False: every call raises, because _get_mu is called without its last argument. Proved about the lines behind: the estimate is the least-squares factor of the polynomial; the hexadecapole is approximate; the estimates mix and the number of modes is the number of dimensions."},
{"property": "C134", "status": "partial", "theorems": ["Verif.Multipoles.C134_partial", "Verif.Multipoles.C134_bins", "Verif.Multipoles.C134_bias_false", "Verif.Multipoles.C134_nan_false", "Verif.Multipoles.C134_raises"], "note": "Proved: values on the chords between fine bins, wave numbers spaced as asked from the second fine bin on. False between bins (overestimated) and next to fine bins without modes (not a number)."},
{"property": "C135", "status": "partial", "theorems": ["Verif.Multipoles.C135_partial", "Verif.Multipoles.C135_isotropic", "Verif.Multipoles.C135_modes_false"], "note": "Proved without return_n_modes; with it the call raises."},
{"property": "C136", "status": "partial", "theorems": ["Verif.SizeDistribution.C136_volumes_partial", "Verif.SizeDistribution.C136_radii_partial", "Verif.SizeDistribution.C136_false", "Verif.SizeDistribution.C136_sum_false", "Verif.SizeDistribution.C136_same_false", "Verif.SizeDistribution.C136_raises", "Verif.SizeDistribution.C136_sizes_partial", "Verif.SizeDistribution.C136_resolution_false", "Verif.SizeDistribution.C136_labels"], "note": "False as stated: the shares stand at the lower edges of volumes but at the upper edges of radii, dummies make both sums exceed one, regions of one size give radii that are not those of the volumes, and get_distribution multiplies volumes by the resolution instead of its cube. Proved: edges, shares, errors."},
{"property": "C137", "status": "partial", "theorems": ["Verif.SizeDistribution.C137_partial", "Verif.SizeDistribution.C137_bounds", "Verif.SizeDistribution.C137_false", "Verif.SizeDistribution.C137_raises"], "note": "False as stated: every region in a bin counts with the lower edge of the bin. Proved: what is returned, bounds on the error, errors."},
{"property": "C138", "status": "partial", "theorems": ["Verif.PhysicalCone.C138_partial", "Verif.PhysicalCone.C138_slice", "Verif.PhysicalCone.C138_even_false", "Verif.PhysicalCone.C138_raises"], "note": "Proved for any resampling of slices: cell size, numbers of cells, which channels are averaged, errors. False: a slice of an even number of cells that already has the right resolution is resampled to one more cell, the last of which is cut off; at the ends channels outside count as zero (C109)."},
{"property": "C139", "status": "partial", "theorems": ["Verif.Layout.C139_cartesian", "Verif.Layout.C139_geographic_partial", "Verif.Layout.C139_round_partial", "Verif.Layout.C139_false", "Verif.Layout.C139_false_twice", "Verif.Layout.C139_raises"], "note": "True in one direction. The other direction works only for Quantities without dimension: plain arrays and lengths raise, because `not` is missing before isinstance, and the unit of the argument is changed in place."},
{"property": "C140", "status": "partial", "theorems": ["Verif.Layout.C140_partial", "Verif.Layout.C140_positions", "Verif.Layout.C140_false", "Verif.Layout.C140_false_geodetic", "Verif.Layout.C140_raises"], "note": "False for unknown names (another layout is returned) and for geographic coordinates (always raises)."},
{"property": "C141", "status": "partial", "theorems": ["Verif.FieldLike.C141_partial", "Verif.FieldLike.C141_false"], "note": "Each mode has the linear interpolation of the binned spectrum between the mean wave numbers of non-empty neighbouring bins. False at the smallest wave number, where every even cube gets no power at all."},
{"property": "C142", "status": "partial", "theorems": ["Verif.FieldLike.C142_partial", "Verif.FieldLike.C142_total", "Verif.FieldLike.C142_amplitude_false", "Verif.FieldLike.C142_false", "Verif.FieldLike.C142_odd_false"], "note": "Proved: power is never gained, per mode for even sizes and in total for all. False: modes lose power, since opposite modes no longer have opposite phases; odd sizes are shifted twice the same way, a constant becomes a cosine; the amplitudes are kept, not removed."},
{"property": "C143", "status": "partial", "theorems": ["Verif.Lyman.C143_partial", "Verif.Lyman.C143_bounds", "Verif.Lyman.C143_raises", "Verif.Lyman.C143_false_long", "Verif.Lyman.C143_false_axis", "Verif.Lyman.C143_false_unit"], "note": "Proved along the last axis for windows up to twice the box. False for other axes (the result stays transposed, the overdensity is not transposed), for longer windows, for units different from those of the box; method 'smith2015' raises NameError."},
{"property": "C144", "status": "proved", "theorems": ["Verif.Lyman.C144", "Verif.Lyman.C144_density", "Verif.Lyman.C144_raises"], "note": ""},
{"property": "C145", "status": "partial", "theorems": ["Verif.Lyman.C145_partial", "Verif.Lyman.C145_false", "Verif.Lyman.C145_raises"], "note": "Shape and temperature independence hold; the integral of the cross section is too small by the square root of two because the Doppler width lacks this factor. The Faddeeva function of scipy is taken as the integral it stands for; the numerical quadrature as exact."},
{"property": "C146", "status": "partial", "theorems": ["Verif.Lyman.C146_partial", "Verif.Lyman.C146_false"], "note": "True for the mean density of today; the redshift is ignored, while the depth of a comoving path grows with (1+z)^2."},
{"property": "C147", "status": "partial", "theorems": ["Verif.Diagnostics.C147_partial", "Verif.Diagnostics.C147_equal", "Verif.Diagnostics.C147_scale", "Verif.Diagnostics.C147_raises", "Verif.Diagnostics.C147_false"], "note": "Proved for every number of parameters but one: with a single parameter np.cov has no axes and np.diag raises, so no such distribution can be added."},
{"property": "C148", "status": "partial", "theorems": ["Verif.Diagnostics.C148_partial", "Verif.Diagnostics.C148_truth", "Verif.Diagnostics.C148_false", "Verif.Diagnostics.C148_reflection_false", "Verif.Diagnostics.C148_pit_false", "Verif.Diagnostics.C148_order_false"], "note": "True up to the weight of one sample. The cumulative weights are not centred: the limits are biased low, a value below all samples has the PIT of the first weight, and the order of tied samples changes the limits."},
{"property": "C149", "status": "partial", "theorems": ["Verif.Diagnostics.C149_partial", "Verif.Diagnostics.C149_false"], "note": "True for the means; the covariance uses reliability weights and differs by a known factor."},
{"property": "C150", "status": "partial", "theorems": ["Verif.Diagnostics.C150_partial", "Verif.Diagnostics.C150_affine", "Verif.Diagnostics.C150_raises", "Verif.Diagnostics.C150_false"], "note": "True with at least as many true values as parameters. A single true value is compared with all parameters; other shorter lists raise."},
{"property": "C151", "status": "partial", "theorems": ["Verif.Diagnostics.C151_partial", "Verif.Diagnostics.C151_named", "Verif.Diagnostics.C151_labels", "Verif.Diagnostics.C151_false"], "note": "True if no label is given, or all are; a default name can coincide with a label given before and replaces that distribution."},
{"property": "C152", "status": "partial", "theorems": ["Verif.Diagnostics.C152_partial", "Verif.Diagnostics.C152_raises", "Verif.Diagnostics.C152_false", "Verif.Diagnostics.C152_cov_false"], "note": "Means are right for grids with as many cells along each axis as coordinates; other shapes of the same size are accepted and mixed up; the covariance has the factor of a finite sample."},
{"property": "C153", "status": "partial", "theorems": ["Verif.Diagnostics.C153_partial", "Verif.Diagnostics.C153_raises", "Verif.Diagnostics.C153_default_false", "Verif.Diagnostics.C153_weights_false", "Verif.Diagnostics.C153_false"], "note": "The numbers are right up to one weight; the distances can be negative, integer weights raise, float weights of the caller are normalised in place, and the default param_names=None raises."},
{"property": "C154", "status": "partial", "theorems": ["Verif.UVSmooth.C154_partial", "Verif.UVSmooth.C154_mirrored", "Verif.UVSmooth.C154_power", "Verif.UVSmooth.C154_zero", "Verif.UVSmooth.C154_false", "Verif.UVSmooth.C154_refused_false", "Verif.UVSmooth.C154_raises"], "note": "True for maps that are symmetric about zero; otherwise a mode with only its mirror image above the threshold keeps half its amplitude. Negative and integer thresholds return an exception object in the place of the lightcone."},
{"property": "C155", "status": "partial", "theorems": ["Verif.UVSmooth.C155_partial", "Verif.UVSmooth.C155_mirrored", "Verif.UVSmooth.C155_default", "Verif.UVSmooth.C155_cut", "Verif.UVSmooth.C155_long", "Verif.UVSmooth.C155_raises", "Verif.UVSmooth.C155_false"], "note": "The filter and the cut are as stated; after a cut the map is divided by the largest value that is left, which changes the modes that were to be kept."},
{"property": "C156", "status": "partial", "theorems": ["Verif.UVSmooth.C156_partial", "Verif.UVSmooth.C156_first", "Verif.UVSmooth.C156_second", "Verif.UVSmooth.C156_default_false", "Verif.UVSmooth.C156_false"], "note": "The slices are observed as stated, but the axes of the result are permuted, and leaving out uv_map or max_baseline raises."},
{"property": "C157", "status": "partial", "theorems": ["Verif.UVSmooth.C157_partial", "Verif.UVSmooth.C157_reverse", "Verif.UVSmooth.C157_bounds", "Verif.UVSmooth.C157_lowest", "Verif.UVSmooth.C157_coeval", "Verif.UVSmooth.C157_false", "Verif.UVSmooth.C157_raises", "Verif.UVSmooth.C157_shape_false"], "note": "Proved for increasing and decreasing arrays of redshifts and slices with at least as many columns as rows, and for cubes with equal sides. A number as z_array raises AttributeError; slices with more rows than columns raise ValueError."},
{"property": "C158", "status": "partial", "theorems": ["Verif.Genus.C158_partial", "Verif.Genus.C158_shift", "Verif.Genus.C158_uniform", "Verif.Genus.C158_false", "Verif.Genus.C158_thin_false", "Verif.Genus.C158_shape_false"], "note": "Holes in the form of a block (at least two cells wide) have the genus 0 at every place in the periodic box, and the value depends only on the phases up to a shift. Bubbles of the same form have the genus 1, and so have sheets of one cell; other shapes give fractions that depend on the orientation."},
{"property": "C159", "status": "proved", "theorems": ["Verif.CrossSpectrum.C159_self", "Verif.CrossSpectrum.C159_symmetric", "Verif.CrossSpectrum.C159_coefficient", "Verif.CrossSpectrum.C159_nonneg", "Verif.CrossSpectrum.C159_linear", "Verif.CrossSpectrum.C159_sum", "Verif.CrossSpectrum.C159_ok", "Verif.CrossSpectrum.C159_raises"], "note": "Proved for every number of dimensions and all forms of the arguments, including those which are refused (with the same exception)."},
{"property": "C160", "status": "proved", "theorems": ["Verif.CrossSpectrum.C160_self", "Verif.CrossSpectrum.C160_symmetric", "Verif.CrossSpectrum.C160_coefficient", "Verif.CrossSpectrum.C160_nonneg", "Verif.CrossSpectrum.C160_linear", "Verif.CrossSpectrum.C160_sum", "Verif.CrossSpectrum.C160_ok", "Verif.CrossSpectrum.C160_raises"], "note": "Proved for all cubes and all forms of the arguments, including those which are refused (with the same exception)."},
{"property": "C161", "status": "partial", "theorems": ["Verif.Lanczos.C161_kernel", "Verif.Lanczos.C161_partial", "Verif.Lanczos.C161_displaced", "Verif.Lanczos.C161_false", "Verif.Lanczos.C161_scale_false", "Verif.Lanczos.C161_raises"], "note": "False of the code: the result is displaced by one cell for odd sizes and half a cell for even sizes, and the kernel is stretched by n/(n-1). Proved: kernel, shape, total, constant maps and the displacement itself."},
{"property": "C162", "status": "partial", "theorems": ["Verif.Interpolate.C162_partial", "Verif.Interpolate.C162_grid", "Verif.Interpolate.C162_nearest", "Verif.Interpolate.C162_default_false", "Verif.Interpolate.C162_wrap", "Verif.Interpolate.C162_periodic_false", "Verif.Interpolate.C162_outside"], "note": "False of the code: the default order=0 is the nearest cell, and the period of the coordinates is one cell too small. Proved for order=1 inside the array. Orders above 1 are not modelled."},
{"property": "C163", "status": "partial", "theorems": ["Verif.FitFunction.C163_partial", "Verif.FitFunction.C163_least", "Verif.FitFunction.C163_splits", "Verif.FitFunction.C163_range", "Verif.FitFunction.C163_order", "Verif.FitFunction.C163_persists", "Verif.FitFunction.C163_false", "Verif.FitFunction.C163_raises"], "note": "False of the code: the number of splits of one call is used by all later calls that give none. Proved: both kinds of fit, the order of the names after any sequence of calls, and that the number of splits persists."},
{"property": "C164", "status": "partial", "theorems": ["Verif.Equilateral.C164_partial", "Verif.Equilateral.C164_false", "Verif.Equilateral.C164_raises"], "note": "False of the code: the angle pi/3 between k1 and k2 gives a third side that is longer by the root of three. Proved: the first two sides, their bins and what is returned."},
{"property": "C165", "status": "partial", "theorems": ["Verif.Phase.C165_amplitude", "Verif.Phase.C165_partial", "Verif.Phase.C165_opposite", "Verif.Phase.C165_false", "Verif.Phase.C165_nan"], "note": "False of the code: arctan(b/a) loses the quadrant. Proved: amplitudes of all modes, phases of modes with positive real part or purely imaginary ones; modes with negative real part come back with the opposite sign, vanishing ones have no phase."},
{"property": "C166", "status": "partial", "theorems": ["Verif.SaveData.C166_partial", "Verif.SaveData.C166_filetype", "Verif.SaveData.C166_unknown", "Verif.SaveData.C166_ignored", "Verif.SaveData.C166_false", "Verif.SaveData.C166_fits"], "note": "False of the code: an extension in the name wins over filetype, np.save changes the name, some filetypes must be lower case. Proved: names with an extension and no filetype, names without extension and any filetype, names with neither."},
{"property": "C167", "status": "partial", "theorems": ["Verif.SaveData.C167_partial", "Verif.SaveData.C167_false", "Verif.SaveData.C167_header_false"], "note": "False of the code without pyfits and for header=False. Proved: with pyfits data is read back and other files are unchanged."},
{"property": "C168", "status": "partial", "theorems": ["Verif.FullConvolve.C168_partial", "Verif.FullConvolve.C168_false", "Verif.FullConvolve.C168_nan"], "note": "False of the code: the full convolution is returned, which is larger than the array and displaced by half the kernel. Proved: weights, total and sign; a width of zero gives nan."},
{"property": "C169", "status": "partial", "theorems": ["Verif.FullConvolve.C169_partial", "Verif.FullConvolve.C169_cylinder", "Verif.FullConvolve.C169_false", "Verif.FullConvolve.C169_renyi_false", "Verif.FullConvolve.C169_window"], "note": "False of the code: the mask of the ball has two axes, so that cylinders are counted, and Renyi_diemsnions always raises. Proved: cubes of all sizes, cylinders for odd sizes."},
{"property": "C170", "status": "partial", "theorems": ["Verif.RayPoint.C170_plane", "Verif.RayPoint.C170_partial", "Verif.RayPoint.C170_false", "Verif.RayPoint.C170_empty"], "note": "False of the code: in three dimensions a point with numpy integers is not looked at, and rays longer than the box are in no bin. Proved: both dimensions with integers of python, with the sum 1 in two dimensions; data without a region."},
{"property": "C171", "status": "partial", "theorems": ["Verif.RayPoint.C171_partial", "Verif.RayPoint.C171_empty", "Verif.RayPoint.C171_false", "Verif.RayPoint.C171_lost"], "note": "False of the code: points with mean zero and points whose rays are all longer than the box are left out; without others the density is not a number. Proved: the density of the positive means, with sum 1; data without a region raises for thresholds above 1."},
{"property": "C172", "status": "partial", "theorems": ["Verif.Rebin.C172_partial", "Verif.Rebin.C172_sizes", "Verif.Rebin.C172_single_false", "Verif.Rebin.C172_false", "Verif.Rebin.C172_nan", "Verif.Rebin.C172_raises"], "note": "False of the code: the default limits are the smallest size plus 1 and the largest minus 10. Proved: given limits and lists of sizes; the default limits cut the range, give nan or raise."},
{"property": "C173", "status": "partial", "theorems": ["Verif.SuperpixelStats.C173_partial", "Verif.SuperpixelStats.C173_false"], "note": "False of the code: with pixels=True a list is indexed with an array, a TypeError. Proved: order and agreement of the four lists for every argsort."},
{"property": "C174", "status": "partial", "theorems": ["Verif.SuperpixelStats.C174_partial", "Verif.SuperpixelStats.C174_false"], "note": "False of the code: data and labels are not passed on, so that all three statistics have to be given. Proved: mean and deviation of the significant superpixels, independent of their order."},
{"property": "C175", "status": "partial", "theorems": ["Verif.SuperpixelStats.C175_partial", "Verif.SuperpixelStats.C175_false", "Verif.SuperpixelStats.C175_same"], "note": "False of the code: a histogram largest in the first bin without another peak raises. Proved: the threshold otherwise, Otsu's with another number of peaks, zeros for equal means."},
{"property": "C176", "status": "partial", "theorems": ["Verif.FastSpectrum.C176_partial", "Verif.FastSpectrum.C176_first", "Verif.FastSpectrum.C176_log_false", "Verif.FastSpectrum.C176_even_false", "Verif.FastSpectrum.C176_false", "Verif.FastSpectrum.C176_dimensional", "Verif.FastSpectrum.C176_auto", "Verif.FastSpectrum.C176_raises"], "note": "False of the code: the first bin overlaps the second (log: contains all modes) and with an even number of cells the wave numbers are half a step off. Proved: all bins after the first for odd numbers of cells, the first linear bin as it is, and dimensional_power."},
{"property": "C177", "status": "partial", "theorems": ["Verif.FastSpectrum.C177_partial", "Verif.FastSpectrum.C177_modes", "Verif.FastSpectrum.C177_false", "Verif.FastSpectrum.C177_edges", "Verif.FastSpectrum.C177_raises"], "note": "False of the code: modes with one of the wave numbers zero are in no bin; given edges all use the first width and leave a row and a column of nan; the documented scale 'mixed' raises. Proved: each bin has the average over all its modes for odd numbers of cells, and exactly which modes are in some bin."},
{"property": "C178", "status": "partial", "theorems": ["Verif.FastSpectrum.C178_partial", "Verif.FastSpectrum.C178_false", "Verif.FastSpectrum.C178_axis_false", "Verif.FastSpectrum.C178_array_false", "Verif.FastSpectrum.C178_raises", "Verif.FastSpectrum.C178_values"], "note": "False of the code: the data of the caller are multiplied in place, always along the last axis, and arrays raise an AttributeError. Proved: named windows for the last axis."},
{"property": "C179", "status": "partial", "theorems": ["Verif.FastSpectrum.C179_partial", "Verif.FastSpectrum.C179_false", "Verif.FastSpectrum.C179_raises"], "note": "False of the code: if all numbers of cells are odd the cosine of the mean (0/0) is dropped before the comparison, so that the cosines of all later modes are those of their neighbours; otherwise the wave vectors are half a step off. Proved: averages and numbers for those wave vectors if a number of cells is even."},
{"property": "C180", "status": "proved", "theorems": ["Verif.Metrics.C180", "Verif.Metrics.C180_equal", "Verif.Metrics.C180_soft"], "note": ""},
{"property": "C181", "status": "proved", "theorems": ["Verif.Metrics.C181", "Verif.Metrics.C181_maps", "Verif.Metrics.C181_empty"], "note": ""},
{"property": "C182", "status": "partial", "theorems": ["Verif.Metrics.C182_partial", "Verif.Metrics.C182_exchange", "Verif.Metrics.C182_false", "Verif.Metrics.C182_empty_false"], "note": "False of the code: clipping makes every cell a fraction of a prediction, so that with 10^8 cells a single cell found has a precision below 1/10, and an empty prediction has a precision near the fraction of true cells. Proved: the fractions up to 8 n eps divided by the number of cells counted."},
{"property": "C183", "status": "proved", "theorems": ["Verif.Metrics.C183", "Verif.Metrics.C183_shift", "Verif.Metrics.C183_average"], "note": ""},
{"property": "C184", "status": "partial", "theorems": ["Verif.Metrics.C184_partial", "Verif.Metrics.C184_exact", "Verif.Metrics.C184_false"], "note": "False of the code: the part of the loss that is linear in the logit has the weight 1 - beta for true cells too, so that missed true cells weigh less than they should when they are a minority. Proved: the exact loss, and the cross entropy if no true cell is missed or half of the cells are true."},
{"property": "C185", "status": "partial", "theorems": ["Verif.Gains.C185_partial", "Verif.Gains.C185_real", "Verif.Gains.C185_constant", "Verif.Gains.C185_raises", "Verif.Gains.C185_false"], "note": "False of the code: the factor is the square root of the mean of rr + i*ii, products of two real and of two imaginary parts, instead of (rr + ii) + i(ir - ri). Gains of 2 scale the image by 2 instead of 4, and a common phase of 90 degrees, which should not matter, scales it by sqrt(2)/2. Proved: one real gain g in all antennas gives |g| times the image seen through the map of hits, which is right for g = 1."},
{"property": "C186", "status": "partial", "theorems": ["Verif.Gains.C186_partial", "Verif.Gains.C186_false", "Verif.Gains.C186_raises"], "note": "False of the code: gains are drawn only at steps whose time is an exact multiple of a scale. With int_time=7 and gain_timescale=[10] the gains at 14 s are those of the start. Proved for scales that are multiples of the integration time."},
{"property": "C187", "status": "partial", "theorems": ["Verif.Gains.C187_partial", "Verif.Gains.C187_false", "Verif.Gains.C187_raises"], "note": "False of the code: amplitudes and phases are used as real and imaginary parts, and complex arrays raise IndexError. Proved for the other forms."},
{"property": "C188", "status": "partial", "theorems": ["Verif.Gains.C188_partial", "Verif.Gains.C188_false"], "note": "False of the code: with more jobs than time steps (by default more processors than time steps) the step of the range is zero and the call raises. Proved for all other numbers of jobs."},
{"property": "C189", "status": "proved", "theorems": ["Verif.Pkdgrav.C189", "Verif.Pkdgrav.C189_raises"], "note": ""},
{"property": "C190", "status": "partial", "theorems": ["Verif.Pkdgrav.C190_partial", "Verif.Pkdgrav.C190_velocity", "Verif.Pkdgrav.C190_raises", "Verif.Pkdgrav.C190_false"], "note": "False of the code: positions are not wrapped into the box; coordinates of pkdgrav run from -1/2 to 1/2, so that half of the haloes get negative positions. Proved: masses, order, and positions of haloes whose coordinates lie between 0 and 1."},
{"property": "C191", "status": "partial", "theorems": ["Verif.Pkdgrav.C191_partial", "Verif.Pkdgrav.C191_raises", "Verif.Pkdgrav.C191_false"], "note": "False of the code: the counts per volume are not divided by the width of the bins in ln m, so that the values depend on the number of bins. Proved: bins, centres, counts per volume and their sum."},
{"property": "C192", "status": "partial", "theorems": ["Verif.Pkdgrav.C192_partial", "Verif.Pkdgrav.C192_exact", "Verif.Pkdgrav.C192_raises", "Verif.Pkdgrav.C192_false"], "note": "False of the code: the window is not centred, so that a power law is shifted by half a window to larger k. Proved: bounds, and the exact shift."},
{"property": "C193", "status": "partial", "theorems": ["Verif.Thresholds.C193_partial", "Verif.Thresholds.C193_fixed", "Verif.Thresholds.C193_cube", "Verif.Thresholds.C193_axes", "Verif.Thresholds.C193_false", "Verif.Thresholds.C193_false_both"], "note": "False of the code: a value of loc_axis that is not an axis means the last one, and a cell at the threshold belongs to both regions. threshold_triangle of scikit-image is an argument."},
{"property": "C194", "status": "partial", "theorems": ["Verif.NameRedshifts.C194_partial", "Verif.NameRedshifts.C194_bracket", "Verif.NameRedshifts.C194_raises", "Verif.NameRedshifts.C194_false", "Verif.NameRedshifts.C194_false_twice"], "note": "False of the code: two xfrac files of one redshift give it twice, and a density file counts if the text before its first n_ is a number. Proved: multiplicities, order and limits otherwise. float is an argument."},
{"property": "C195", "status": "partial", "theorems": ["Verif.SimReaders.C195_partial", "Verif.SimReaders.C195_false", "Verif.SimReaders.C195_false_reader"], "note": "False of the code: if the name does not begin with a redshift, all velocities are zero; read_c2ray_files with 'vel' always raises."},
{"property": "C196", "status": "partial", "theorems": ["Verif.SimReaders.C196_partial", "Verif.SimReaders.C196_raises", "Verif.SimReaders.C196_false"], "note": "False of the code for axes of 100000 cells and more; proved up to 45000 cells. np.fromstring is taken to work."},
{"property": "C197", "status": "partial", "theorems": ["Verif.SimReaders.C197_partial", "Verif.SimReaders.C197_slices", "Verif.SimReaders.C197_contrast", "Verif.SimReaders.C197_false", "Verif.SimReaders.C197_raises"], "note": "False of the code: coeval_21cm_c2ray subtracts the mean of each slice along the last axis, which removes differences between slices; a redshift that is present raises."},
{"property": "C198", "status": "partial", "theorems": ["Verif.Beams.C198_partial", "Verif.Beams.C198_none", "Verif.Beams.C198_centre", "Verif.Beams.C198_false"], "note": "False of the code: the window of noise_map is centred on the frequency -1/2 (even) or -1 (odd number of cells). The windows of scipy are an argument."},
{"property": "C199", "status": "partial", "theorems": ["Verif.Beams.C199_partial", "Verif.Beams.C199_false"], "note": "False of the code: beam_convolve always raises, as the bounds of its last slice are not integers."},
{"property": "C200", "status": "partial", "theorems": ["Verif.Beams.C200_partial", "Verif.Beams.C200_false"], "note": "False of the code: the module smoothing has no hubble_parameter, so that the returned function always raises AttributeError."},
{"property": "C201", "status": "partial", "theorems": ["Verif.NumbaUV.C201_partial", "Verif.NumbaUV.C201_raises", "Verif.NumbaUV.C201_false", "Verif.NumbaUV.C201_false_w"], "note": "False of the code: the cells are twice too large, and baselines with a long third coordinate are dropped; an empty list raises. numba's compilation is ignored."},
{"property": "C202", "status": "partial", "theorems": ["Verif.NumbaUV.C202_partial", "Verif.NumbaUV.C202_raises", "Verif.NumbaUV.C202_false"], "note": "False of the code: the first map of the average is that of the unrotated baselines, and the last interval is missing."},
{"property": "C203", "status": "proved", "theorems": ["Verif.NumbaUV.C203_baselines", "Verif.NumbaUV.C203_wavelength", "Verif.NumbaUV.C203_rotation"], "note": "Sines and cosines over the real numbers; reading of the file is not modelled."},
{"property": "C204", "status": "partial", "theorems": ["Verif.StepCell.C204_partial", "Verif.StepCell.C204_order", "Verif.StepCell.C204_even", "Verif.StepCell.C204_false", "Verif.StepCell.C204_false_even"], "note": "False of the code: equal slices raise IndexError, and a random number that lifts the least perturbed value above the least cell spoils the equal steps. Smoothing is an argument."},
{"property": "C205", "status": "partial", "theorems": ["Verif.SlideBoxes.C205_partial", "Verif.SlideBoxes.C205_raises", "Verif.SlideBoxes.C205_false"], "note": "False of the code: the step between sub-boxes is rounded, so that the last cells may be in no sub-box (cube of 11, sub-boxes of 4). The power spectrum is an argument that depends on the cells only."},
{"property": "C206", "status": "partial", "theorems": ["Verif.CubeP3M.C206_partial", "Verif.CubeP3M.C206_raises", "Verif.CubeP3M.C206_false", "Verif.CubeP3M.C206_false_zero"], "note": "False of the code: negative components of the angular momentum become nan, and the redshift zero is refused. Bytes are not modelled; single precision is replaced by real numbers."},
{"property": "C207", "status": "partial", "theorems": ["Verif.CubeP3M.C207_partial", "Verif.CubeP3M.C207_raises", "Verif.CubeP3M.C207_false", "Verif.CubeP3M.C207_false_again"], "note": "False of the code: without a node the constructor reads no particle, and a second read_from_file appends while npart is that of the second. The layout of the file is the one the code expects, six columns."},
{"property": "C208", "status": "partial", "theorems": ["Verif.Namespace.C208_partial", "Verif.Namespace.C208_false", "Verif.Namespace.C208_false_shape", "Verif.Namespace.C208_twice"], "note": "False of the code: t2c.fftconvolve is scipy.signal's, whose result has another shape. The statements are extracted from the syntax trees of all modules; the check of the whole table is evaluated by the kernel."},
{"property": "C209", "status": "partial", "theorems": ["Verif.Namespace.C209_partial", "Verif.Namespace.C209_false"], "note": "False of the code for one function of the package (tau_nu_lyA_los with method 'smith2015') and for functions of two modules outside of it. Attributes of modules and names that are bound too late are not part of it."},
{"property": "C210", "status": "partial", "theorems": ["Verif.Calls.C210_bind", "Verif.Calls.C210_values", "Verif.Calls.C210_partial", "Verif.Calls.C210_false"], "note": "False of the code: seven calls do not fit. The calls are extracted from the syntax trees; the check of the table is evaluated by the kernel, the rules of binding are proved for all signatures and calls. Three calls with * or ** arguments are not in the table."},
{"property": "C211", "status": "partial", "theorems": ["Verif.SharpFeatures.C211_partial", "Verif.SharpFeatures.C211_uniform", "Verif.SharpFeatures.C211_scale", "Verif.SharpFeatures.C211_noise", "Verif.SharpFeatures.C211_raises", "Verif.SharpFeatures.C211_false", "Verif.SharpFeatures.C211_false_narrow", "Verif.SharpFeatures.C211_weightings"], "note": "False of the code: the filter mirrors the map at its edges although the map is periodic with the origin in the corner, so the symmetry is lost; and the root of the filtered map is used, so that even a filter without effect changes the map. The method 'binned' is an argument of the model."},
{"property": "C212", "status": "partial", "theorems": ["Verif.CorrFunction.C212_partial", "Verif.CorrFunction.C212_self", "Verif.CorrFunction.C212_symmetric", "Verif.CorrFunction.C212_sum", "Verif.CorrFunction.C212_translation", "Verif.CorrFunction.C212_raises", "Verif.CorrFunction.C212_false", "Verif.CorrFunction.C212_false_edges"], "note": "False of the code: box_dims None or a list raises with a number of radii; kbins=None takes ten times the radii as edges in wavenumber, which makes the result at two radii zero. The defaults of kbins of the two functions differ (10 and 100). The factor of pi in the radii is C111."},
{"property": "C213", "status": "partial", "theorems": ["Verif.PkdgravFiles.C213_partial", "Verif.PkdgravFiles.C213_false", "Verif.PkdgravFiles.C213_raises", "Verif.PkdgravFiles.C213_density"], "note": "False of the code: box_dim*hlittle is computed and not used, so that masses are in solar masses, or solar masses over h, only if h is one."},
{"property": "C214", "status": "partial", "theorems": ["Verif.PkdgravFiles.C214_partial", "Verif.PkdgravFiles.C214_false"], "note": "False of the code: without verbose the message is that of an unknown extension; .txt with one more character counts as text; without data .npy files are written all the same."},
{"property": "C215", "status": "partial", "theorems": ["Verif.PackageValues.C215_hubble_partial", "Verif.PackageValues.C215_units_partial", "Verif.PackageValues.C215_false", "Verif.PackageValues.C215_false_inconsistent"], "note": "The functions follow the setters after every history. False of the code: the numbers of the package are copies made at the import and never change."},
{"property": "C216", "status": "partial", "theorems": ["Verif.HTransform.C216_partial", "Verif.HTransform.C216_peaks", "Verif.HTransform.C216_false", "Verif.HTransform.C216_raises"], "note": "False of the code: the difference of the image and its reconstruction is used instead of the reconstruction; every peak of the image is a peak of it, for every positive h."},
{"property": "C217", "status": "partial", "theorems": ["Verif.IonRates.C217_partial", "Verif.IonRates.C217_redshift", "Verif.IonRates.C217_unknown", "Verif.IonRates.C217_raises", "Verif.IonRates.C217_false", "Verif.IonRates.C217_false_redshift"], "note": "False of the code for old_format, which gives one axis with the closing record marker as a further value, and for names with a second underscore, where four characters of the redshift are cut off."},
{"property": "C218", "status": "partial", "theorems": ["Verif.Response.C218_partial", "Verif.Response.C218_average", "Verif.Response.C218_false"], "note": "False of the code for a cube2 whose mean is not zero: the mean is not subtracted, so the response to a constant a is 1/a, and sub-boxes with equal spectra have a response that is not zero."},
{"property": "C219", "status": "partial", "theorems": ["Verif.CubeInputs.C219_partial", "Verif.CubeInputs.C219_velocity", "Verif.CubeInputs.C219_raises", "Verif.CubeInputs.C219_false"], "note": "False of the code for redshifts given as the name of a file or as a list, which raise: a string has __iter__ in Python 3, and a list is indexed with an array of truth values."},
{"property": "C220", "status": "partial", "theorems": ["Verif.Plots.C220_partial", "Verif.Plots.C220_slice", "Verif.Plots.C220_false", "Verif.Plots.C220_raises"], "note": "False of the code for the bins of plot_hist: they are replaced by 30 whenever the caller gives them, for all types of data."},
{"property": "C221", "status": "partial", "theorems": ["Verif.Forest.C221_partial", "Verif.Forest.C221_false", "Verif.Forest.C221_raises"], "note": "False of the code for an even number of parameters: the vertical axis that all panels share is inverted once per panel, so that the first distribution is at the bottom."},
{"property": "C222", "status": "partial", "theorems": ["Verif.Locals.C222_partial", "Verif.Locals.C222_false", "Verif.Locals.C222_always"], "note": "False of the code for 42 functions, each with a way to a read without a value; five of them raise in every run (C222_always).  Proved for the other 446 functions.  Values and conditions are left out, so that for some of the 42 the way needs an argument that the function does not know, and for a few the conditions of the body rule it out."},
{"property": "C223", "status": "partial", "theorems": ["Verif.Locals.C223_partial", "Verif.Locals.C223_false"], "note": "False of the code for 20 functions, which give None instead of raising for arguments that they do not know (for example _get_k for more than three dimensions, signal_window for an unknown window).  Proved for the other 468."},
{"property": "C224", "status": "partial", "theorems": ["Verif.Constraints.C224_partial", "Verif.Constraints.C224_histories", "Verif.Constraints.C224_false", "Verif.Constraints.C224_false_history", "Verif.Constraints.C224_false_errors", "Verif.Constraints.C224_order", "Verif.Constraints.C224_false_order"], "note": "False of the code: the interval of one entry reaches below zero, one history is not monotonic, the redshifts of another are not in order, and the 16th percentile of one model lies above its value at seven redshifts.  The tables are finite and the proofs evaluate them in full."},
{"property": "C225", "status": "partial", "theorems": ["Verif.Blob.C225_partial", "Verif.Blob.C225_false", "Verif.Blob.C225_raises"], "note": "False of the code: the squared distance is squared again, so that the blob is a*exp(-d**4/(2*sigma**2)).  Proved: the size, the values at the distances 0 and 1 (and no others) are right, the values fall with the distance and lie between 0 and the amplitude; a zero deviation raises unless the array is empty."},
{"property": "C226", "status": "partial", "theorems": ["Verif.Tipsy.C226_partial", "Verif.Tipsy.C226_truncated", "Verif.Tipsy.C226_false", "Verif.Tipsy.C226_header", "Verif.Tipsy.C226_negative"], "note": "False of the code: a file cut off anywhere after its header gives fewer particles than the header says without raising (how many exactly is proved), and a negative number of gas particles takes the rest of the file for gas.  Proved for complete files with anything after them; fewer than 32 bytes raise."},
{"property": "C227", "status": "partial", "theorems": ["Verif.Progress.C227_partial", "Verif.Progress.C227_false", "Verif.Progress.C227_false_zero", "Verif.Progress.C227_raises", "Verif.Progress.C227_numba", "Verif.Progress.C227_skewers"], "note": "False of the code: the step of make_uv_map_lightcone is rounded to two decimals before it is multiplied, so that 180 slices are reported to be done to 100.24 per cent and more than 20000 to 0; the reports of get_distorted_dt end at 90.  Proved: the slices, the number of antennas and the errors; reports within half a hundredth per slice of the part before the slice; the reports with numba rise to 100; those of the skewers are the multiples of ten that are passed, once each."},
{"property": "C228", "status": "partial", "theorems": ["Verif.Estimates.C228_partial", "Verif.Estimates.C228_false", "Verif.Estimates.C228_volume"], "note": "False of the code: the estimate takes the mean signal of neutral gas to be 27 sqrt((1+z)/10) mK whatever the cosmology; it is wrong for at least one of any two redshifts, unless the universe holds matter only or everything is ionised.  Proved: exactly when the estimate is right; estimating and averaging commute; the fraction by volume."},
{"property": "C229", "status": "partial", "theorems": ["Verif.Estimates.C229_label", "Verif.Estimates.C229_partial", "Verif.Estimates.C229_false", "Verif.Estimates.C229_false_first"], "note": "False of the code: boundaries are set to the maximum times a factor and do not stand out if the maximum is not positive; mark=False overwrites the first pixel.  Proved: labels; other pixels unchanged; boundaries above the maximum exactly if it is positive.  Which pixels are boundaries is skimage's."},
{"property": "C230", "status": "partial", "theorems": ["Verif.Edges.C230_partial", "Verif.Edges.C230_false", "Verif.Edges.C230_false_mixed", "Verif.Edges.C230_false_small"], "note": "False of the code: k without an array passes the assertion and raises AttributeError; the mixed binning may have fewer bins than asked for; for a plane of 2x2 cells the edges fall.  Proved with an array, for wave numbers above the first edge: spacing, limits, order, membership for the mixed binning, agreement with the edges of the spectra."},
{"property": "C231", "status": "partial", "theorems": ["Verif.Visibility.C231_partial", "Verif.Visibility.C231_columns", "Verif.Visibility.C231_false", "Verif.Visibility.C231_raises"], "note": "False of the code: both loops run over the length of the first axis, so the columns beyond it stay zero without an exception.  Proved for square arrays and maps of their shape; for all shapes with enough columns what the result is; fewer columns than rows, or a smaller map, raise IndexError."},
{"property": "C232", "status": "partial", "theorems": ["Verif.CosmoNames.C232_partial", "Verif.CosmoNames.C232_false", "Verif.CosmoNames.C232_false_message", "Verif.CosmoNames.C232_objects", "Verif.CosmoNames.C232_particles"], "note": "False of the code: any other text, for instance a misspelt name, gives Planck18, and the message has a literal {} in place of the name.  Proved for the eight names in any case and for objects."},
{"property": "C233", "status": "proved", "theorems": ["Verif.CubeMap.C233_loops", "Verif.CubeMap.C233_torch", "Verif.CubeMap.C233_joblib", "Verif.CubeMap.C233_support"], "note": "Loops, simultaneous updates, and workers under every interleaving; the number of ones is the number of all cells of the complex."},
{"property": "C234", "status": "partial", "theorems": ["Verif.Curvature.C234_partial", "Verif.Curvature.C234_closed", "Verif.Curvature.C234_default", "Verif.Curvature.C234_setters", "Verif.Curvature.C234_type", "Verif.Curvature.C234_false", "Verif.Curvature.C234_false_type", "Verif.Curvature.C234_false_negative"], "note": "Holds when q0 = Omega0/2 - Lambda and k is the curvature parameter; without cosmological constant for every k (open, flat and closed).  After set_omega_lambda q0 is stale unless the universe is flat, and distances can be NaN; the default k=0 is off in a definite direction; without cosmological constant a number gives an array."},
{"property": "C235", "status": "partial", "theorems": ["Verif.Fast21cm.C235_partial", "Verif.Fast21cm.C235_matter", "Verif.Fast21cm.C235_error", "Verif.Fast21cm.C235_missing", "Verif.Fast21cm.C235_false", "Verif.Fast21cm.C235_false_scalar"], "note": "run_21cmfast_matter raises TypeError for a number; run_21cmfast_coeval raises TypeError for NumPy numbers other than float64."},
{"property": "C236", "status": "proved", "theorems": ["Verif.PadCone.C236_shape", "Verif.PadCone.C236_default", "Verif.PadCone.C236_inside", "Verif.PadCone.C236_wrap", "Verif.PadCone.C236_edge", "Verif.PadCone.C236_constant", "Verif.PadCone.C236_symmetric", "Verif.PadCone.C236_reflect", "Verif.PadCone.C236_maximum", "Verif.PadCone.C236_minimum", "Verif.PadCone.C236_mean", "Verif.PadCone.C236_ramp", "Verif.PadCone.C236_error"], "note": "The modes median and empty of np.pad are not modelled.  Without planes nothing is checked: neither a negative padding nor an unknown mode raises then (C236_error)."},
{"property": "C237", "status": "partial", "theorems": ["Verif.VelocityCone.C237_partial", "Verif.VelocityCone.C237_between", "Verif.VelocityCone.C237_error", "Verif.VelocityCone.C237_false"], "note": "False for boxes whose sides differ: the slice position wraps at shape[1], which for an array of vectors is the first side of the box whatever the axis (C237_false).  C237_partial holds for cubic boxes and along the first axis.  Boxes with a side of length one (squeezed by the code) are not modelled."},
{"property": "C238", "status": "partial", "theorems": ["Verif.Subvolume.C238_partial", "Verif.Subvolume.C238_depth", "Verif.Subvolume.C238_error", "Verif.Subvolume.C238_false_both", "Verif.Subvolume.C238_false_order", "Verif.Subvolume.C238_false_depth"], "note": "False in three ways: both depths are accepted and the one in MHz is ignored (C238_false_both; the assertion of line 382 never fails), redshifts in decreasing order give an empty sub-volume (C238_false_order), and the third dimension is the depth asked for, not the depth of the slices returned (C238_false_depth).  C238_partial states the rest for increasing redshifts.  cdist_to_z is taken as the exact inverse of z_to_cdist in the theorems; the code interpolates a table."},
{"property": "C239", "status": "partial", "theorems": ["Verif.PvBox.C239_partial", "Verif.PvBox.C239_component", "Verif.PvBox.C239_unmoved", "Verif.PvBox.C239_false", "Verif.PvBox.C239_raises"], "note": "False of the code for the second and third axis: velocity_axis is not handed on and stays 0, so the box is displaced along los by the velocities along the first axis (C239_component), and velocities along los have no effect (C239_unmoved).  C239_false proves the claim equivalent to los = 0.  Displacements by whole cells and sums of skewers, as in C44 and C86."},
{"property": "C240", "status": "partial", "theorems": ["Verif.ZsList.C240_partial", "Verif.ZsList.C240_densities", "Verif.ZsList.C240_false", "Verif.ZsList.C240_raises"], "note": "False of the code for redshifts of one digit and files without a redshift in the name: the longest run of digits and dots is then the 3 of xfrac3d, the first of equal length (C240_false).  A name such as xfrac3d_6.45.old.bin makes the whole call raise (C240_raises).  Holds for redshifts of two or more characters, and for densities always.  Patterns with one star and directories without characters special to glob."},
{"property": "C241", "status": "partial", "theorems": ["Verif.DictFiles.C241_partial", "Verif.DictFiles.C241_false", "Verif.DictFiles.C241_clash", "Verif.DictFiles.C241_bytes", "Verif.DictFiles.C241_object", "Verif.DictFiles.C241_formats", "Verif.DictFiles.C241_capitals", "Verif.DictFiles.C241_extension", "Verif.DictFiles.C241_target", "Verif.DictFiles.C241_decoded", "Verif.DictFiles.C241_shared"], "note": "False of the code: a key with a slash comes back as a dictionary within the dictionary (C241_false) or clashes with another key (C241_clash), bytes come back as a string, None raises, a format in capitals is read but not written (C241_capitals), and np.savez appends .npz to other names (C241_target).  Proved: HDF5 for plain keys and kept values at any depth, and the choice of the library for every name and extension.  The contents of the other formats are left to their libraries."},
{"property": "C242", "status": "partial", "theorems": ["Verif.Erosion.C242_partial", "Verif.Erosion.C242_second", "Verif.Erosion.C242_false", "Verif.Erosion.C242_wide"], "note": "False of the code for R = 0, where the slice 0:-0 is empty and the result has no cells (C242_false), and for elements wider than 2 R + 1, whose cells beyond the padding count as set (C242_wide).  Proved for R >= 1 and elements within the radius; the second erosion for every element.  The convolution is exact, as in C39."},
{"property": "C243", "status": "partial", "theorems": ["Verif.CornerPlot.C243_partial", "Verif.CornerPlot.C243_getdist", "Verif.CornerPlot.C243_false", "Verif.CornerPlot.C243_short", "Verif.CornerPlot.C243_zero", "Verif.CornerPlot.C243_colour", "Verif.CornerPlot.C243_none"], "note": "False of the code with corner: the truth value of an array of true values is taken, so two or more raise (C243_false) and a single 0 is not marked (C243_zero); a list shorter than the largest number of parameters raises in corner (C243_short); with the keyword color the legend shows other colours (C243_colour); another backend returns None without an error (C243_none).  Proved otherwise, and for getdist always: the distributions are drawn with falling numbers of parameters, so there is a figure before others are transplanted into it.  How the libraries draw is not modelled."},
{"property": "C244", "status": "partial", "theorems": ["Verif.Orientation.C244_partial", "Verif.Orientation.C244_false", "Verif.Orientation.C244_even", "Verif.Orientation.C244_idle", "Verif.Orientation.C244_missing"], "note": "False of the code: the table holds 28 of the 48 symmetries of a cube (C244_missing) and is no group, so the prediction does not follow mirror images along the third axis nor any quarter turn (C244_false).  Proved: it follows mirror images along the first two axes and both together for every network (C244_partial); for networks that treat the sides of a plane alike it follows all of them with and without augmentation (C244_even), and then augmentation changes nothing (C244_idle).  Non-cubes raise (C82)."},
{"property": "C245", "status": "partial", "theorems": ["Verif.TriangleSides.C245_partial", "Verif.TriangleSides.C245_false", "Verif.TriangleSides.C245_reversed", "Verif.TriangleSides.C245_ignored"], "note": "False of the code for equal sides with different widths: the shell of the first is used for both, so that one order gives a value and the other none (C245_false).  Proved where equal sides have equal widths: any order (C245_partial), and the reversed field (C245_reversed), for every number of cells, even or odd."},
{"property": "C246", "status": "partial", "theorems": ["Verif.Distort.C246_partial", "Verif.Distort.C246_alike", "Verif.Distort.C246_linear", "Verif.Distort.C246_false"], "note": "False of the code along the line of sight: the padding of the velocities with those of the last cell (np.insert) is discarded, and the particles run from one side of the box to the other, so that the result depends on where the box begins (C246_false).  Proved: rolls across the line of sight (C246_partial), equal lines of sight give equal results whatever the rest of the boxes holds (C246_alike), and linearity in the signal, with the same errors (C246_linear)."},
{"property": "C247", "status": "partial", "theorems": ["Verif.LengthUnits.C247_partial", "Verif.LengthUnits.C247_cross", "Verif.LengthUnits.C247_mu_partial", "Verif.LengthUnits.C247_false"], "note": "False of the code for power_spectrum_mu: _get_mu leaves out wave numbers below 0.001 in whatever unit, so that a box of 200 Mpc in kpc loses all its large scales (C247_false; every mode is lost in the witness).  Proved for power_spectrum_1d and cross_power_spectrum_1d in all forms of the arguments, errors included (C247_partial, C247_cross), and for power_spectrum_mu while the sides are at most 2000 pi in both units (C247_mu_partial)."},
{"property": "C248", "status": "partial", "theorems": ["Verif.UVDaily.C248_partial", "Verif.UVDaily.C248_moved", "Verif.UVDaily.C248_mirror", "Verif.UVDaily.C248_false", "Verif.UVDaily.C248_runs"], "note": "False of the code without mirrored baselines, the default: each pair of antennas is gridded once, in the direction given by their order in the list (C248_false).  Proved: translations in all cases (C248_moved), any order with include_mirror_baselines=True (C248_mirror), and, without, that the same calls fail and that on even grids a cell and the opposite one together do not depend on the order, off the Nyquist row and column (C248_partial)."},
{"property": "C249", "status": "proved", "theorems": ["Verif.Lightcone.C249_order", "Verif.Lightcone.C249_spare", "Verif.Lightcone.C249_twice"], "note": "The grid of the output redshifts is taken from the first file of the list, so the cubes are supposed to be of one shape.  C249_twice shows that one cube for each redshift is needed.  The spare snapshots are for explicit z_low and z_high, since the default range is that of the snapshots."},
{"property": "C250", "status": "proved", "theorems": ["Verif.Lightcone.C250_linear", "Verif.Lightcone.C250_moved", "Verif.Lightcone.C250_cells"], "note": "Exact arithmetic; the result of the code is rounded to 32 bits.  All slices are selected before the first is interpolated, so a bad axis and a redshift outside the snapshots in one call may be reported in the other order."},
{"property": "C251", "status": "partial", "theorems": ["Verif.HaloGrid.C251_partial", "Verif.HaloGrid.C251_order", "Verif.HaloGrid.C251_linear", "Verif.HaloGrid.C251_false"], "note": "The third part is false of the code: the bins span the haloes of the catalogue, not the box, so that the cells of a halo depend on the other haloes (C251_false).  Proved for catalogues which reach equally far in each direction (C251_partial); order (C251_order) and masses (C251_linear) in all cases."},
{"property": "C252", "status": "partial", "theorems": ["Verif.BispectrumUnits.C252_partial", "Verif.BispectrumUnits.C252_number", "Verif.BispectrumUnits.C252_false"], "note": "False for a box given by one number, although fft_nd takes it as the length of each side: the product of a number is the number itself, so the value carries the unit of an area (C252_number, C252_false).  Proved for a box given by its sides (C252_partial)."},
{"property": "C253", "status": "partial", "theorems": ["Verif.SmoothOrder.C253_circular", "Verif.SmoothOrder.C253_partial", "Verif.SmoothOrder.C253_constant_false", "Verif.SmoothOrder.C253_false"], "note": "False for top-hats of maps with an even number of cells: smooth_tophat repeats the first row and column at the end before it smooths and cuts the last ones off afterwards, so what the second filter repeats is already changed (C253_false, a map of 2x2 cells). Proved for maps with an odd number of cells and for two Gaussian filters of any square map (C253_partial), and for any two kernels with periodic boundaries (C253_circular). With the constant boundary of fftconvolve the order matters too (C253_constant_false)."},
{"property": "C254", "status": "partial", "theorems": ["Verif.DeltaUnits.C254_factor", "Verif.DeltaUnits.C254_partial", "Verif.DeltaUnits.C254_false", "Verif.DeltaUnits.C254_mixed_false"], "note": "False for maps (k^3 P of a 2-D spectrum carries the inverse of a length: C254_false, 3x3 cells; in general the factor is that of C254_factor) and for mixed bins (the breakpoint is 0.1 in whatever unit and cannot be passed on: C254_mixed_false, 2x2x2 cells). Proved for cubes with linear and logarithmic bins (C254_partial)."},
{"property": "C255", "status": "partial", "theorems": ["Verif.TurnedSpectra.C255_radial", "Verif.TurnedSpectra.C255_cross", "Verif.TurnedSpectra.C255_mu", "Verif.TurnedSpectra.C255_cylinder", "Verif.TurnedSpectra.C255_window_false"], "note": "Proved for all spectra without a window. False with a window: apply_window does not know the line of sight and tapers the last axis (C255_window_false, for every taper that is not constant)."},
{"property": "C256", "status": "partial", "theorems": ["Verif.MirroredSpectra.C256_partial", "Verif.MirroredSpectra.C256_mu", "Verif.MirroredSpectra.C256_cylinder", "Verif.MirroredSpectra.C256_false"], "note": "Proved for sequences, for cubes and for all arrays with odd numbers of cells. False for maps with even numbers of cells, where _get_k puts the origin between two cells while the transform is shifted to a cell (C256_false)."},
{"property": "C257", "status": "partial", "theorems": ["Verif.ConstantSpectra.C257_partial", "Verif.ConstantSpectra.C257_number", "Verif.ConstantSpectra.C257_mu", "Verif.ConstantSpectra.C257_cylinder", "Verif.ConstantSpectra.C257_false"], "note": "Proved for cubes and for all arrays with odd numbers of cells. False for maps with even numbers of cells, whose zero mode is given a positive wave number by _get_k and falls into a bin (C257_false)."},
{"property": "C258", "status": "partial", "theorems": ["Verif.SmoothSymmetry.C258_partial", "Verif.SmoothSymmetry.C258_exchange", "Verif.SmoothSymmetry.C258_false"], "note": "Exchanged rows and columns: proved for all square maps. Mirrored maps: proved for even numbers of cells; false for odd ones, where the smoothed map is moved by one cell (C258_false)."},
{"property": "C259", "status": "partial", "theorems": ["Verif.RayGrowth.C259_partial", "Verif.RayGrowth.C259_mean", "Verif.RayGrowth.C259_false"], "note": "The order of the histograms is proved in two and three dimensions and the order of the means in two. The means are in the wrong order in three dimensions when a ray does not end within the longest side of the box, since it is not counted (C259_false)."},
{"property": "C260", "status": "proved", "theorems": ["Verif.TauGrowth.C260_monotone", "Verif.TauGrowth.C260_mixed"], "note": "For num_points of at least 1. Fractions need not be between 0 and 1."},
{"property": "C261", "status": "proved", "theorems": ["Verif.InterpolateRange.C261_linear", "Verif.InterpolateRange.C261_between", "Verif.InterpolateRange.C261_order"], "note": "For order 0 and 1; higher orders need the spline filter of scipy, which is not modelled."},
{"property": "C262", "status": "partial", "theorems": ["Verif.MuMean.C262_partial", "Verif.MuMean.C262_false"], "note": "Proved for edges in mu that reach above 1, for the bins in k from 0.001 on, but for a last bin with a mode exactly on its upper edge. False with the bins in mu made from a number: the modes along the line of sight are missing (C262_false)."},
{"property": "C263", "status": "proved", "theorems": ["Verif.MergedBins.C263_radial", "Verif.MergedBins.C263_mu"], "note": "The edges are given as an array."},
{"property": "C264", "status": "proved", "theorems": ["Verif.ScoreOrder.C264_found", "Verif.ScoreOrder.C264_wrong", "Verif.ScoreOrder.C264_distance"], "note": "For dice_coef along one row, which is what it returns for each row."},
{"property": "C265", "status": "partial", "theorems": ["Verif.WedgeAgain.C265_sum", "Verif.WedgeAgain.C265_order", "Verif.WedgeAgain.C265_power", "Verif.WedgeAgain.C265_partial", "Verif.WedgeAgain.C265_false"], "note": "For even numbers of cells (odd ones shift the waves, C120_odd_false). The second removal changes nothing only if the filter has the same entry for every wave and the opposite one."},
{"property": "C266", "status": "proved", "theorems": ["Verif.CorrRange.C266_range", "Verif.CorrRange.C266_units", "Verif.CorrRange.C266_gap"], "note": "Distances given as an array."},
{"property": "C267", "status": "partial", "theorems": ["Verif.ThresholdTwice.C267_partial", "Verif.ThresholdTwice.C267_false"], "note": "For UV boxes with the same value for every wave and the opposite one; false of others."},
{"property": "C268", "status": "partial", "theorems": ["Verif.ScoreCells.C268_cells", "Verif.ScoreCells.C268_rows", "Verif.ScoreCells.C268_partial", "Verif.ScoreCells.C268_false"], "note": "r2score is the same in other units only up to the regulariser: larger values lower it, by at most epsilon over the scatter of its distance from one."}
]}

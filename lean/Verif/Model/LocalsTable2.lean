import Verif.Model.Locals

/-!
# The functions of the package, part 2

Generated from the syntax trees of the files; in each entry the name of the function, the number of its parameters and its statements as far as they concern its local
variables (see `Model/Locals.lean`).  Before each entry are the lines of the function and its local variables in the order of the binary digits of the sets.
-/

namespace Verif.Locals

/-- The functions of `helper_functions.py` (lines 21-639). -/
def helperFunctionsFns : List Fn := [
  -- lines 21-26: data R a b data_fft phi
  ⟨n!"helper_functions.real_to_fourier_amplitude_phase", 1, block [.read 1, .write 16, .read 16, .write 4, .write 8, .read 12, .write 2, .read 12, .write 32, .read
    34, .ret true]⟩,
  -- lines 28-52: source_dir z_low z_high bracket f redshifts source_files z
  ⟨n!"helper_functions.get_source_redshifts", 4, block [.read 1, .write 64, .write 32, .read 64, .loop (block [.write 16, .attempt (block [.read 16, .write 128,
    .read 160]) .skip .skip]) .skip, .read 46, .ret true]⟩,
  -- lines 55-79: xfrac_dir z_low z_high bracket f redshifts xfrac_files z
  ⟨n!"helper_functions.get_xfrac_redshifts", 4, block [.read 1, .write 64, .write 32, .read 64, .loop (block [.write 16, .attempt (block [.read 16, .write 128, .read
    160]) .skip .skip]) .skip, .read 46, .ret true]⟩,
  -- lines 82-106: dens_dir z_low z_high bracket dens_files f redshifts z
  ⟨n!"helper_functions.get_dens_redshifts", 4, block [.read 1, .write 16, .write 64, .read 16, .loop (block [.write 32, .attempt (block [.read 32, .write 128, .read
    192]) .skip .skip]) .skip, .read 78, .ret true]⟩,
  -- lines 109-127: redshifts z_low z_high bracket idx
  ⟨n!"helper_functions._get_redshifts_in_range", 4, block [.read 1, .write 1, .read 1, .read 8, .either (block [.read 7, .either .throw .skip, .read 3, .write 2,
    .read 5, .write 4]) .skip, .read 2, .either (block [.read 1, .write 2]) .skip, .read 4, .either (block [.read 1, .write 4]) .skip, .read 7, .write 16, .read 17,
    .write 1, .read 1, .ret true]⟩,
  -- lines 130-136: message print_time timestr
  ⟨n!"helper_functions.print_msg", 2, .either (block [.read 2, .either (block [.write 4, .read 5, .write 1]) .skip, .read 1]) .skip⟩,
  -- lines 139-141: x y epsilon
  ⟨n!"helper_functions.flt_comp", 3, block [.read 7, .ret true]⟩,
  -- lines 144-159: in_array new_len kind func old_len out_array
  ⟨n!"helper_functions.get_interpolated_array", 3, block [.read 1, .write 16, .read 21, .write 8, .read 10, .write 32, .read 32, .ret true]⟩,
  -- lines 162-192: filename bits order dimensions records counter data datatype f header temp_mesh
  ⟨n!"helper_functions.read_cbin", 5, block [.read 2, .read 1, .write 256, .read 1, .read 24, .write 32, .read 288, .write 512, .read 16, .either (block [.read 512,
    .write 1024]) (block [.read 512, .write 1024]), .read 2, .write 128, .read 1408, .write 64, .read 1092, .write 64, .read 256, .read 64, .ret true]⟩,
  -- lines 195-220: filename bits order data datatype f n
  ⟨n!"helper_functions.read_raw_binary", 3, block [.read 2, .read 1, .write 32, .read 1, .read 2, .write 16, .read 48, .write 8, .read 8, .write 64, .read 64, .read
    76, .write 8, .read 8, .ret true]⟩,
  -- lines 223-239: filename data bits order datatype
  ⟨n!"helper_functions.save_raw_binary", 4, block [.read 10, .write 2, .read 4, .write 16, .read 18, .write 2, .read 3]⟩,
  -- lines 242-262: filename data bits order datatype f mesh
  ⟨n!"helper_functions.save_cbin", 4, block [.read 1, .read 4, .read 1, .write 32, .read 2, .write 64, .read 96, .read 4, .write 16, .read 58, .read 32]⟩,
  -- lines 265-288: filename header data fits fits_image_filename hdul hdulist pf
  ⟨n!"helper_functions.read_fits", 2, block [.attempt (block [.write 128, .read 129, .write 64, .read 64, .write 2, .read 64, .write 4]) (block [.write 8, .read 9,
    .write 16, .read 24, .write 32, .read 32, .write 2, .read 32, .write 4]) .skip, .read 2, .either (block [.read 6, .ret true]) (block [.read 4, .ret true])]⟩,
  -- lines 291-316: data filename header datatype fits hdu hdulist pf save_data
  ⟨n!"helper_functions.save_fits", 3, block [.read 1, .write 256, .write 8, .attempt (block [.write 128, .read 132, .either (.read 390) (.read 386)]) (block [.write
    16, .read 384, .write 32, .read 160, .write 64, .read 66]) .skip]⟩,
  -- lines 320-348: filename
  ⟨n!"helper_functions.determine_filetype", 1, block [.read 1, .write 1, .read 1, .either (.ret true) (block [.read 1, .either (.ret true) (block [.read 1, .either
    (.ret true) (block [.read 1, .either (.ret true) (block [.read 1, .either (.ret true) (block [.read 1, .either (.ret true) .skip])])])])]), .ret true]⟩,
  -- lines 351-401: indata cbin_bits cbin_order raw_density filetype tools21cm
  ⟨n!"helper_functions.get_data_and_type", 4, block [.write 32, .write 32, .write 32, .read 33, .either (block [.read 1, .ret true]) (block [.read 33, .either (block
    [.read 1, .ret true]) (block [.read 33, .either (block [.read 8, .either (block [.read 1, .ret true]) (block [.read 1, .ret true])]) (block [.read 1, .either
    (block [.read 1, .write 16, .read 16, .either (block [.read 33, .ret true]) (block [.read 16, .either (block [.read 33, .ret true]) (block [.read 16, .either
    (block [.read 33, .ret true]) (block [.read 16, .either (block [.read 7, .ret true]) (block [.read 16, .either (block [.read 1, .ret true]) .throw])])])])])
    (block [.read 1, .either (block [.read 1, .ret true]) .skip])])])]), .throw]⟩,
  -- lines 403-419: savefile data filetype kwargs pickle
  ⟨n!"helper_functions.save_data", 4, block [.read 4, .either (.write 4) .skip, .read 5, .either (.read 3) (block [.read 5, .either (block [.write 16, .read 19])
    (block [.read 5, .either (.read 11) (block [.read 5, .either (.read 11) (block [.read 5, .either (.read 11) (.ret true)])])])]), .ret true]⟩,
  -- lines 422-450: filename datatype f mesh_size temp_mesh
  ⟨n!"helper_functions.get_mesh_size", 1, block [.read 1, .write 2, .read 1, .write 4, .read 2, .either (block [.read 4, .write 16, .read 16, .write 8]) (block
    [.read 2, .either (block [.read 4, .write 16, .read 16, .write 8]) (block [.read 2, .either (block [.read 4, .write 8]) (block [.read 2, .either (block [.read 4,
    .write 8]) (block [.read 2, .either (.write 8) (block [.read 2, .throw])])])])]), .read 4, .read 8, .ret true]⟩,
  -- lines 453-471: output
  ⟨n!"helper_functions.outputify", 1, block [.read 1, .either (block [.read 1, .either (block [.read 1, .ret true]) (block [.read 1, .either (block [.read 1, .ret
    true]) .skip])]) .skip, .read 1, .ret true]⟩,
  -- lines 474-511: filename i last_was_char longest_idx number_strs s
  ⟨n!"helper_functions.determine_redshift_from_filename", 1, block [.read 1, .write 1, .read 1, .write 1, .write 16, .write 4, .read 1, .loop (block [.write 32,
    .read 32, .either (block [.read 4, .either (.read 16) .skip, .write 4, .read 48]) (.write 4)]) .skip, .write 8, .read 16, .loop (block [.write 2, .read 26,
    .either (block [.read 2, .write 8]) .skip, .read 18, .read 18]) .skip, .read 16, .either (.ret true) .skip, .read 24, .ret true]⟩,
  -- lines 514-554: ar values decreasing dv fractional_part integer_part out x1 x2
  ⟨n!"helper_functions.find_idx", 2, block [.read 2, .write 2, .read 1, .read 3, .read 1, .read 3, .read 1, .write 8, .read 8, .either .throw .skip, .read 8, .either
    (block [.read 1, .write 1, .write 4]) (.write 4), .read 3, .write 32, .read 33, .write 128, .read 33, .write 256, .read 386, .write 16, .read 48, .write 64,
    .read 4, .either (block [.read 65, .write 64]) .skip, .read 64, .ret true]⟩,
  -- lines 557-564:
  ⟨n!"helper_functions.get_eval", 0, block [.either (.ret true) .skip, .ret true]⟩,
  -- lines 568-579: _verbose
  ⟨n!"helper_functions.set_verbose", 1, .read 1⟩,
  -- lines 581-639: means variances sample_sizes mean_comb var_comb
  ⟨n!"helper_functions.combined_mean_variance", 3, block [.read 1, .either (block [.read 1, .write 1]) .skip, .read 2, .either (block [.read 2, .write 2]) .skip,
    .read 4, .either (block [.read 1, .write 4]) (block [.read 4, .either (block [.read 4, .write 4]) .skip]), .read 5, .write 8, .read 15, .write 16, .read 24, .ret
    true]⟩]

/-- The functions of `identify_regions.py` (lines 12-183). -/
def identifyRegionsFns : List Fn := [
  -- lines 12-36: data n_segments bins verbose bin_sl labels
  ⟨n!"identify_regions.bubbles_from_slic", 4, block [.read 11, .write 32, .read 45, .write 16, .read 16, .ret true]⟩,
  -- lines 38-69: data upper_lim n_jobs n_clusters array t_th
  ⟨n!"identify_regions.bubbles_from_kmeans", 4, block [.read 1, .either (block [.read 1, .ret true]) .skip, .read 1, .either (.write 8) .skip, .read 8, .either
    (block [.read 7, .write 16, .write 32]) (block [.read 7, .write 16]), .read 16, .ret true]⟩,
  -- lines 71-94: data threshold upper_lim
  ⟨n!"identify_regions.bubbles_from_fixed_threshold", 3, block [.read 4, .either (block [.read 3, .ret true]) (block [.read 3, .ret true])]⟩,
  -- lines 96-123: data upper_lim nbins threshold
  ⟨n!"identify_regions.bubbles_from_triangle3D", 3, block [.read 5, .write 8, .read 2, .either (block [.read 9, .ret true]) (block [.read 9, .ret true])]⟩,
  -- lines 125-155: data upper_lim nbins loc_axis threshold threshold_s
  ⟨n!"identify_regions.bubbles_from_triangle2D", 4, block [.read 8, .either (block [.read 5, .write 32]) (block [.read 8, .either (block [.read 5, .write 32]) (block
    [.read 5, .write 32])]), .read 32, .write 16, .read 2, .either (block [.read 17, .ret true]) (block [.read 17, .ret true])]⟩,
  -- lines 158-168: cube upper_lim mean_remove n_jobs X array t_th y
  ⟨n!"identify_regions.threshold_kmeans", 4, block [.read 1, .write 32, .read 1, .write 16, .read 16, .write 128, .read 144, .write 64, .read 2, .either (.read 97)
    (.read 97), .read 96, .ret true]⟩,
  -- lines 170-183: cube upper_lim n_jobs X array centers km true_label y
  ⟨n!"identify_regions.threshold_kmeans_3cluster", 3, block [.write 64, .read 1, .write 8, .read 8, .write 16, .read 72, .read 64, .write 256, .read 64, .write 32,
    .read 2, .either (block [.read 32, .write 128]) (block [.read 32, .write 128]), .read 400, .read 17, .write 16, .read 16, .ret true]⟩]

/-- The functions of `irate_file.py` (lines 17-70). -/
def irateFileFns : List Fn := [
  -- lines 17-30: self filename old_format binary_format
  ⟨n!"irate_file.IonRateFile.__init__", 4, block [.read 2, .either (.read 15) .skip]⟩,
  -- lines 32-70: self filename old_format binary_format f name os temp_mesh
  ⟨n!"irate_file.IonRateFile.read_from_file", 4, block [.read 2, .read 2, .read 1, .read 2, .write 16, .read 8, .either (block [.read 16, .write 128, .read 128,
    .read 1, .read 1, .read 1]) (block [.read 16, .write 128, .read 128, .read 1, .read 1, .read 1]), .read 4, .either (block [.read 16, .read 1]) (block [.read 17,
    .read 1, .read 1, .read 1]), .read 16, .write 64, .attempt (block [.read 66, .write 32, .read 32, .read 1]) (.read 1) .skip]⟩]

/-- The functions of `lightcone.py` (lines 18-566). -/
def lightconeFns : List Fn := [
  -- lines 18-152: filenames z_low z_high depth_mhz file_redshifts cbin_bits cbin_order los_axis raw_density interpolation reading_function box_length_mpc
  -- comoving_pos_idx data_high data_interp data_low datatype file_idx ii lightcone mesh_size output_z z z_bracket_high z_bracket_high_new z_bracket_low
  -- z_bracket_low_new
  ⟨n!"lightcone.make_lightcone", 12, block [.read 512, .either (block [.read 512, .throw]) .skip, .read 1, .either (block [.read 1024, .either (.write 1024) .skip,
    .read 1, .write 16, .read 17, .write 1]) .skip, .read 1024, .either (block [.read 1, .write 1, .read 17, .write 16, .read 1, .write 1048576]) (block [.read 16,
    .read 1025, .write 1048576]), .read 17, .read 1050654, .write 2097152, .read 3145728, .write 524288, .write 4096, .write 33554432, .write 8388608, .write 32768,
    .write 8192, .read 2097152, .read 2097152, .loop (block [.write 262144, .read 2359296, .write 4194304, .read 4194320, .write 67108864, .read 4194320, .write
    16777216, .read 100663296, .either (block [.read 67108864, .write 33554432, .read 33554448, .write 131072, .read 8192, .either (block [.read 1024, .either (block
    [.read 131425, .write 32768, .write 65536]) (block [.read 132097, .write 32768])]) (block [.read 8192, .write 32768])]) .skip, .read 25165824, .either (block
    [.read 16777216, .write 8388608, .read 8388624, .write 131072, .read 1024, .either (block [.read 131425, .write 8192, .write 65536]) (block [.read 132097, .write
    8192])]) .skip, .read 46183040, .write 16384, .read 16384, .read 528384, .read 4096, .write 4096]) .skip, .read 2621440, .ret true]⟩,
  -- lines 155-271: vel_filenames dens_filenames z_low z_high file_redshifts los_axis vel_reading_function dens_reading_function comoving_pos_idx data_high
  -- data_interp data_low dfile file_idx get_kms ii lightcone mesh_size output_z vel_file z z_bracket_high z_bracket_high_new z_bracket_low z_bracket_low_new
  ⟨n!"lightcone.make_velocity_lightcone", 8, block [.read 1, .either (block [.read 1, .write 16, .read 17, .write 1, .read 18, .write 2, .read 64, .either (.write
    64) .skip, .read 128, .either (.write 128) .skip, .read 130, .write 131072, .write 16384]) (block [.read 2, .write 2, .read 18, .write 16, .read 1, .write 1,
    .read 2, .write 131072, .read 64, .either (.write 64) .skip, .read 128, .either (.write 128) .skip, .write 16384]), .read 17, .read 3, .read 131100, .write
    262144, .read 393216, .write 65536, .write 256, .write 8388608, .write 2097152, .read 262144, .read 262144, .loop (block [.write 32768, .read 294912, .write
    1048576, .read 1048592, .write 16777216, .read 1048592, .write 4194304, .read 25165824, .either (block [.read 16777216, .write 8388608, .read 8388624, .write
    8192, .read 8322, .write 4096, .read 8257, .write 524288, .read 544768, .write 2048, .del 4096, .del 524288]) .skip, .read 6291456, .either (block [.read
    4194304, .write 2097152, .read 2097168, .write 8192, .read 8322, .write 4096, .read 8257, .write 524288, .read 544768, .write 512, .del 4096, .del 524288])
    .skip, .read 11537184, .write 1024, .read 1024, .read 65792, .read 256, .write 256]) .skip, .read 327680, .ret true]⟩,
  -- lines 274-297: file_redshifts z_low z_high box_grid_n box_length_mpc dnu output_z
  ⟨n!"lightcone._get_output_z", 6, block [.read 2, .either (block [.read 1, .write 2]) .skip, .read 4, .either (block [.read 1, .write 4]) .skip, .read 32, .either
    (block [.read 38, .write 64]) (block [.read 30, .write 64]), .read 65, .either (block [.read 64, .read 1, .read 65, .write 64, .read 65, .write 64]) .skip, .read
    64, .either .throw .skip, .read 64, .ret true]⟩,
  -- lines 300-330: z_low z_high box_grid_n box_length_mpc dnu nu z z_array
  ⟨n!"lightcone.redshifts_at_equal_comoving_distance", 4, block [.read 8, .either (.write 8) .skip, .read 3, .read 1, .write 64, .write 128, .loop (block [.read 66,
    .read 192, .read 64, .write 32, .read 76, .write 16, .read 48, .write 64]) (.read 66), .read 128, .ret true]⟩,
  -- lines 333-355: z_low z_high dnu z z_array
  ⟨n!"lightcone.redshifts_at_equal_frequncy_width", 3, block [.read 3, .read 2, .write 8, .write 16, .loop (block [.read 9, .read 24, .read 12, .write 8]) (.read 9),
    .read 16, .ret true]⟩,
  -- lines 358-428: lightcone redshifts central_z depth_mhz depth_mpc odd_num_cells subtract_mean fov_Mpc verbose box_depth box_dims central_dist central_nu high_n
  -- high_z low_n low_z max_cdist max_freq min_cdist min_freq subbox
  ⟨n!"lightcone.get_lightcone_subvolume", 9, block [.read 24, .read 128, .either (.write 128) .skip, .read 4, .write 4096, .read 16, .either (block [.read 4096,
    .write 2048, .read 2064, .write 524288, .write 131072, .read 524288, .write 65536, .read 131072, .write 16384, .read 81920, .write 1048576, .write 262144])
    (block [.read 4104, .write 1048576, .write 262144, .read 1310720, .write 524288, .write 131072, .read 262144, .write 65536, .read 1048576, .write 16384]), .read
    65538, .either .throw .skip, .read 16386, .either .throw .skip, .read 65538, .write 32768, .read 16386, .write 8192, .read 40992, .either (block [.read 8192,
    .write 8192]) .skip, .read 40961, .write 2097152, .read 64, .either (block [.read 2097152, .write 2097152]) .skip, .read 655360, .write 512, .read 640, .write
    1024, .read 256, .either (block [.read 40962, .read 1310720, .read 655360, .read 40960, .read 2097792]) .skip, .read 2139138, .ret true]⟩,
  -- lines 431-458: data_high data_low z_bracket_high z_bracket_low z comoving_pos_idx los_axis interpolation beta g slice_high slice_ind slice_interp slice_low
  -- transition_z zp
  ⟨n!"lightcone._get_interp_slice", 8, block [.read 34, .write 2048, .read 2114, .write 8192, .read 2113, .write 1024, .read 128, .either (block [.read 9244, .write
    4096]) (block [.read 128, .either (block [.read 12, .write 16384, .read 16400, .either (block [.read 8192, .write 4096]) (block [.read 1024, .write 4096])])
    (block [.read 128, .either (block [.read 28, .write 32768, .write 256, .read 33024, .write 512, .read 9728, .write 4096]) (block [.read 128, .either (block
    [.read 9244, .write 4096]) (block [.read 128, .throw])])])]), .read 4096, .ret true]⟩,
  -- lines 461-477: slice_low slice_high z_bracket_high z_bracket_low z diff interp_slice smoothed step_transitions
  ⟨n!"lightcone._get_step_weighted_slice", 5, block [.read 2, .write 128, .read 3, .write 32, .read 160, .write 256, .read 268, .write 256, .read 2, .write 64, .read
    273, .read 336, .read 64, .ret true]⟩,
  -- lines 480-490: cell_dist diff_idx f output_values values_flat values_sorted values_uniform
  ⟨n!"lightcone._get_step_transitions", 2, block [.read 3, .write 16, .read 16, .write 32, .read 32, .write 64, .read 96, .write 4, .read 5, .write 8, .read 8,
    .write 8, .read 8, .write 8, .read 8, .ret true]⟩,
  -- lines 493-514: data idx los_axis slice_depth idx1 idx2
  ⟨n!"lightcone._get_slice", 4, block [.read 1, .read 4, .read 2, .write 16, .read 24, .write 32, .read 1, .either (block [.read 4, .either (block [.read 49, .ret
    true]) (block [.read 4, .either (block [.read 49, .ret true]) .skip]), .read 49, .ret true]) (block [.read 4, .either (block [.read 49, .ret true]) (block [.read
    4, .either (block [.read 49, .ret true]) .skip]), .read 49, .ret true])]⟩,
  -- lines 517-541: filenames_in extensions f filenames_out files_in_dir names
  ⟨n!"lightcone._get_filenames", 1, block [.read 1, .either (block [.read 1, .write 8]) (block [.read 1, .either (block [.read 1, .write 16, .read 16, .write 2,
    .read 2, .either .throw .skip, .read 16, .write 8]) (block [.read 1, .either (block [.read 1, .write 4, .read 4, .write 32, .read 4, .read 32, .write 8])
    .throw])]), .read 8, .ret true]⟩,
  -- lines 544-561: redshifts_in filenames redshifts_out
  ⟨n!"lightcone._get_file_redshifts", 2, block [.read 1, .either (block [.read 1, .write 4]) (block [.read 1, .either (block [.read 2, .write 4, .read 4, .write 4])
    (block [.read 1, .either (block [.read 1, .write 4]) .throw])]), .read 4, .ret true]⟩,
  -- lines 565-566: items
  ⟨n!"lightcone._all_same", 1, block [.read 1, .ret true]⟩]

/-- The functions of `line_intensity.py` (lines 9-163). -/
def lineIntensityFns : List Fn := [
  -- lines 9-74: z mass pos_xyz box_dim n_grid cosmo recipe kwargs Delc M_hi Ob Om Y_p alpha beta bin_edges bin_num binned_mhi fHc hlittle mhalo mhi_msun srcpos v_c
  -- v_c0 v_c_Mh
  ⟨n!"line_intensity.M_HI_on_grid", 8, block [.read 64, .read 32, .either (.write 32) .skip, .read 32, .write 1024, .read 32, .write 2048, .read 32, .write 524288,
    .read 2, .either (block [.read 2, .write 1048576]) (block [.read 2, .write 1048576]), .read 2, .either (block [.read 4, .write 4194304]) (block [.read 4, .write
    4194304]), .read 8, .either (block [.read 8, .write 8]) .skip, .read 64, .either (block [.read 128, .write 4096, .read 128, .write 8192, .read 128, .write
    16777216, .read 128, .write 16384, .read 7168, .write 262144, .write 256, .write 8388608, .read 9437185, .write 33554432, .write 512, .read 1049088, .write
    2097152, .read 6291480, .write 131072, .write 32768, .write 65536, .read 131072, .ret true]) .skip]⟩,
  -- lines 76-163: z mass pos_xyz box_dim n_grid SFR cosmo recipe kwargs LCII_lsun Ob Om SFR0 a_LCII a_SFR b_LCII b_SFR bin_edges bin_num binned_Lcii c1_SFR c2_SFR
  -- c3_SFR d_SFR e_SFR hlittle mhalo srcpos
  ⟨n!"line_intensity.L_CII_on_grid", 9, block [.read 128, .read 64, .either (.write 64) .skip, .read 64, .write 1024, .read 64, .write 2048, .read 64, .write
    33554432, .read 2, .either (block [.read 2, .write 67108864]) (block [.read 2, .write 67108864]), .read 4, .either (block [.read 4, .write 134217728]) (block
    [.read 4, .write 134217728]), .read 8, .either (block [.read 8, .write 8]) .skip, .read 32, .either (.write 32) .skip, .read 32, .either (block [.read 32,
    .either (block [.read 256, .write 4096, .read 256, .write 16384, .read 256, .write 65536, .read 256, .write 8388608, .read 256, .write 16777216, .read 256,
    .write 1048576, .read 256, .write 2097152, .read 256, .write 4194304, .write 32]) .skip]) .skip, .read 128, .either (block [.read 256, .write 8192, .read 256,
    .write 32768]) (block [.read 128, .either (block [.read 256, .write 8192, .read 256, .write 32768]) (block [.read 128, .either (block [.read 256, .write 8192,
    .read 256, .write 32768]) (block [.read 128, .either (block [.read 256, .write 8192, .read 256, .write 32768]) (block [.read 128, .ret false])])])]), .read 128,
    .either (block [.read 67149857, .write 512, .read 134218264, .write 524288, .write 131072, .write 262144, .read 524288, .ret true]) .skip]⟩]

/-- The functions of `lyman_alpha_coupling.py` (lines 18-176). -/
def lymanAlphaCouplingFns : List Fn := [
  -- lines 18-22: filename z src
  ⟨n!"lyman_alpha_coupling._read_halofile", 2, block [.read 1, .either (block [.read 1, .write 4]) (block [.read 3, .write 4]), .read 2, .either (block [.read 1,
    .write 2]) .skip, .read 6, .ret true]⟩,
  -- lines 24-40: ncells boxsize sourcelist z SED lum lam mass n_src na_cube s sed_func source_pos src xc_cube
  ⟨n!"lyman_alpha_coupling.Lya_coupling_coeff", 7, block [.read 112, .read 16, .either (block [.read 16, .write 32, .write 64]) (block [.read 16, .either (block
    [.read 16, .write 32, .write 64]) .skip]), .read 96, .either (block [.read 32, .either (block [.read 32, .write 32]) .skip, .read 64, .either (block [.read 64,
    .write 64]) .skip]) .skip, .read 96, .write 2048, .read 1, .write 16384, .read 12, .write 8192, .write 8, .read 8192, .write 256, .read 256, .loop (block [.write
    1024, .read 9216, .write 4096, .write 128, .read 6275, .write 512, .read 16896, .write 16384, .read 1280]) .skip, .read 16384, .ret true]⟩,
  -- lines 43-57: z ncells boxsize source_pos mass sed_func eng i j k lms n_a rp2 rr rr2 start stop xx yy zss zz
  ⟨n!"lyman_alpha_coupling.one_source", 6, block [.write 32768, .read 8, .write 128, .write 256, .write 512, .read 2, .write 131072, .write 262144, .write 1048576,
    .read 1442694, .write 16384, .read 16384, .write 8192, .read 8193, .write 524288, .read 540672, .write 4096, .read 524289, .write 1024, .read 5168, .write 64,
    .read 1088, .read 64, .write 2048, .write 65536, .read 98304, .read 2048, .ret true]⟩,
  -- lines 59-74: ncells boxsize sourcelist_loc z SED_loc n_jobs lum lam dummy_SED_name flname run_prog sed xc_cube
  ⟨n!"lyman_alpha_coupling.Lya_coupling_coeff_MPI", 8, block [.read 4, .read 208, .read 8, .either (block [.read 4, .write 8]) .skip, .read 192, .either (block
    [.read 192, .write 2048, .write 256, .read 2304, .read 256, .write 16]) .skip, .write 512, .read 575, .write 1024, .read 1024, .read 272, .either (.read 256)
    .skip, .read 512, .write 4096, .read 512, .read 4096, .ret true]⟩,
  -- lines 76-101: ncells boxsize sourcelist z SED lum lam eng eng_func lms masses n_src na_cube rp rr s sed_func source_pos src xc_cube xx yy zs zs_HII zz
  ⟨n!"lyman_alpha_coupling.Lya_coupling_coeff_", 7, block [.read 112, .read 16, .either (block [.read 16, .write 32, .write 64]) (block [.read 16, .either (block
    [.read 16, .write 32, .write 64]) .skip]), .read 96, .either (block [.read 32, .either (block [.read 32, .write 32]) .skip, .read 64, .either (block [.read 64,
    .write 64]) .skip]) .skip, .read 96, .write 65536, .read 2, .write 16384, .read 16392, .write 4194304, .read 4194312, .write 512, .read 4194816, .write 8388608,
    .read 4210688, .write 8192, .read 74240, .write 128, .read 4194432, .write 256, .read 12, .write 262144, .write 8, .read 262144, .write 2048, .read 262144,
    .write 1024, .read 1, .write 524288, .read 1, .write 1048576, .write 2097152, .write 16777216, .read 2048, .loop (block [.write 32768, .read 294912, .write
    131072, .read 28443907, .write 4096, .read 528384, .write 524288, .read 34816]) .skip, .read 524288, .ret true]⟩,
  -- lines 103-114: xx yy zz z ncells boxsize source_pos mass eng_func zs_HII eng i j k n_a rr rr2 start stop zss
  ⟨n!"lyman_alpha_coupling.one_source_", 10, block [.write 131072, .read 64, .write 2048, .write 4096, .write 8192, .read 14391, .write 65536, .read 65536, .write
    32768, .read 32768, .read 32776, .write 524288, .read 524544, .write 1024, .read 525824, .read 1152, .write 16384, .write 262144, .read 393216, .read 16384, .ret
    true]⟩,
  -- lines 116-138: z ncells boxsize source_dir source_file SED lum lam tstep engs r_light source_zs sourcelists sources src_zs xc_cube z_max zi zl
  ⟨n!"lyman_alpha_coupling.Lya_coupling_coeff_useprofile", 9, block [.read 224, .read 32, .either (block [.read 32, .write 128, .write 64]) (block [.read 32, .either
    (block [.read 32, .write 64, .write 128]) .skip]), .read 192, .either (block [.read 64, .either (block [.read 64, .write 64]) .skip, .read 128, .either (block
    [.read 128, .write 128]) .skip]) .skip, .read 24, .write 4096, .read 4096, .write 2048, .read 2049, .either (block [.read 2049, .write 1, .read 1]) .skip, .read
    1, .write 65536, .read 2049, .write 16384, .read 81920, .write 16384, .read 256, .write 1024, .read 16384, .loop (block [.write 131072, .read 131073, .either
    (.write 262144) (block [.read 133120, .write 262144]), .read 394439, .write 512, .read 137216, .write 8192, .read 8706, .write 32768]) .skip, .read 32768, .ret
    true]⟩,
  -- lines 140-153: sources engs ncells mass_axis time_taken eng_ i j k mass masses n_src s start stop xc_cube
  ⟨n!"lyman_alpha_coupling._get_xc", 5, block [.write 8192, .read 9, .write 1024, .read 4, .write 32768, .read 1, .write 2048, .read 514, .write 2, .read 2048, .loop
    (block [.write 4096, .read 4097, .write 64, .write 128, .write 256, .read 5120, .write 512, .read 454, .write 32, .read 32800, .write 32768]) .skip, .write
    16384, .read 16, .either (.read 24576) .skip, .read 32768, .ret true]⟩,
  -- lines 156-176: z lam lum boxsize ncells r_min r_max eng eng0 eng1 eng2 eng_func engs lms rp rr rr2 rs rs_HII sed_func xx yy zs zz
  ⟨n!"lyman_alpha_coupling._get_profile", 7, block [.read 6, .write 524288, .read 8, .write 131072, .read 131073, .write 4194304, .read 4194305, .write 8192, .read
    4325376, .write 16384, .read 139264, .write 262144, .read 548864, .write 128, .read 16, .write 1048576, .write 2097152, .write 8388608, .read 11534360, .write
    65536, .read 65536, .write 32768, .read 32768, .read 131200, .write 2048, .read 34816, .write 4096, .read 299008, .read 36896, .read 36928, .read 4112, .write
    256, .read 4112, .write 512, .read 4112, .write 1024, .read 5888, .write 4096, .read 4096, .ret true]⟩]

/-- The functions of `lyman_alpha_transmission.py` (lines 11-337). -/
def lymanAlphaTransmissionFns : List Fn := [
  -- lines 11-51: x a H u
  ⟨n!"lyman_alpha_transmission.approximation_voigt_faddeeva", 2, block [.read 3, .write 8, .read 8, .write 4, .read 4, .ret true]⟩,
  -- lines 53-98: x a Iy out out_func
  ⟨n!"lyman_alpha_transmission.direct_voigt_profile", 2, block [.write 4, .write 16, .read 19, .write 8, .read 8, .ret true]⟩,
  -- lines 95-96: x a
  ⟨n!"lyman_alpha_transmission.direct_voigt_profile.out_func", 2, block [.read 3, .ret true]⟩,
  -- lines 100-138: nu Tk Tk4 a_nu dnu_D nuA phi_xa sigmaA sigmaA0 x_nu
  ⟨n!"lyman_alpha_transmission.lyA_scattering_cross_section", 2, block [.read 2, .either (block [.read 2, .write 4]) (block [.read 2, .write 4, .read 2, .write 2]),
    .read 4, .write 256, .read 4, .write 8, .write 32, .read 34, .write 16, .read 1, .either (block [.read 1, .write 1]) .skip, .read 49, .write 512, .read 520,
    .write 64, .read 320, .write 128, .read 128, .ret true]⟩,
  -- lines 140-200: z xHI dn f_alpha lambda_alpha k_res X_H cosmo nH nHI tau_nu tau_nu0
  ⟨n!"lyman_alpha_transmission.tau_nu_lyA_FGPA", 8, block [.read 128, .either (.write 128) .skip, .read 16, .either (block [.read 16, .write 16]) .skip, .read 16,
    .write 16, .read 4, .either (block [.read 4, .write 4]) .skip, .read 196, .write 256, .read 258, .write 512, .read 56, .write 2048, .read 2689, .write 1024,
    .read 1024, .ret true]⟩,
  -- lines 202-266: z xHI Tk dr nu X_H cosmo H_xa Tk4 a_nu dnu_D nH nHI nuA sigmaA0 tau_nu x_nu
  ⟨n!"lyman_alpha_transmission.tau_nu_lyA", 7, block [.read 64, .either (.write 64) .skip, .read 8, .either (block [.read 8, .write 8]) .skip, .read 4, .either
    (block [.read 4, .write 256]) (block [.read 4, .write 256, .read 4, .write 4]), .read 256, .write 16384, .read 256, .write 512, .write 8192, .read 8196, .write
    1024, .read 16, .either (block [.read 16, .write 16]) .skip, .read 9232, .write 65536, .read 96, .write 2048, .read 2050, .write 4096, .read 66048, .write 128,
    .read 4488, .write 32768, .read 32768, .ret true]⟩,
  -- lines 268-337: z xHI dn los_len box_len los_axis method X_H cosmo kwargs Tk dr exp_tauA_los exp_tauA_padded f_alpha k_res lambda_alpha los_cells nu tauA
  -- tauA_los tauA_padded
  ⟨n!"lyman_alpha_transmission.tau_nu_lyA_los", 10, block [.read 256, .either (.write 256) .skip, .read 16, .either (block [.read 256, .write 16, .read 16]) .skip,
    .read 32, .either (block [.read 34, .write 2]) .skip, .read 8, .either (block [.read 8, .write 131072]) (block [.read 26, .write 131072]), .read 4, .either
    (block [.read 4, .write 4]) .skip, .read 64, .either (block [.read 512, .write 1024, .read 512, .write 2048, .read 512, .write 262144, .read 32, .either (block
    [.read 1056, .write 1024]) .skip, .read 265603, .write 524288]) (block [.read 64, .either (block [.read 512, .write 16384, .read 512, .write 65536, .read 512,
    .write 32768, .read 115079, .write 524288]) .skip]), .read 655360, .write 2097152, .read 2097152, .write 8192, .read 663552, .write 4096, .read 4096, .write
    1048576, .read 1048576, .write 1048576, .read 1048576, .ret true]⟩]

/-- The functions of `mfp_np.py` (lines 7-170). -/
def mfpNpFns : List Fn := [
  -- lines 7-52: ar xs ys zs ls ms ns verbose info interp_func longest num_sz pbar pts rr size_px total_iterations valid vals
  ⟨n!"mfp_np._ray3d", 8, block [.read 1, .write 256, .read 256, .write 1024, .read 1024, .write 2048, .read 14, .write 2, .write 4, .write 8, .read 257, .write 512,
    .read 128, .either .skip .skip, .read 1024, .write 65536, .read 65664, .write 4096, .read 1024, .loop (block [.write 16384, .read 18, .write 2, .read 36, .write
    4, .read 72, .write 8, .read 14, .write 8192, .read 8704, .write 262144, .read 262144, .write 131072, .read 131074, .read 18432, .read 131086, .write 2, .write
    4, .write 8, .read 131184, .write 16, .write 32, .write 64, .read 4096, .read 2, .either (block [.read 4096, .read 4096, .read 4096, .brk]) .skip]) .skip, .read
    1024, .write 32768, .read 34816, .ret true]⟩,
  -- lines 54-92: arr xth iterations verbose point ar cos_phis cos_thetas info loc ls ms ns num_sz phis rand_loc sin_phis sin_thetas size_px thetas xs ys zs
  ⟨n!"mfp_np.mfp3d", 5, block [.read 4, .write 4, .read 8, .either .skip .skip, .read 1, .write 256, .read 256, .write 32, .read 35, .read 4, .write 524288, .read 4,
    .write 16384, .read 524288, .write 131072, .read 524288, .write 128, .read 16384, .write 64, .read 16384, .write 65536, .read 131136, .write 1024, .read 196608,
    .write 2048, .read 128, .write 4096, .read 16, .either (block [.read 32, .write 512, .read 516, .write 32768, .read 33280, .write 1048576, .write 2097152, .write
    4194304]) (block [.read 16, .write 1048576, .write 2097152, .write 4194304, .read 1048576, .either (block [.read 7340064, .either (.ret false) .skip, .read
    7340036, .write 1048576, .write 2097152, .write 4194304]) .skip]), .read 8, .either .skip .skip, .read 7347240, .write 8192, .write 262144, .read 270336, .ret
    true]⟩,
  -- lines 94-165: arr xth iterations verbose point ar cos_thetas info interp_func loc longest ls ms num_sz pbar pts rand_loc rr sin_thetas size_px thetas
  -- total_iterations valid vals xs ys
  ⟨n!"mfp_np.mfp2d", 5, block [.read 4, .write 4, .read 8, .either .skip .skip, .read 1, .write 128, .read 128, .write 1024, .read 1024, .write 8192, .read 128,
    .write 32, .read 35, .read 4, .write 1048576, .read 1048576, .write 262144, .read 1048576, .write 64, .read 262144, .write 2048, .read 64, .write 4096, .read 16,
    .either (block [.read 32, .write 512, .read 516, .write 65536, .read 66048, .write 16777216, .write 33554432]) (block [.read 16, .write 16777216, .write
    33554432, .read 50331680, .either (.ret false) .skip, .read 50331652, .write 16777216, .write 33554432]), .read 50331648, .write 16777216, .write 33554432, .read
    160, .write 256, .read 8, .either .skip .skip, .read 1024, .write 2097152, .read 2097160, .write 16384, .read 1024, .loop (block [.write 131072, .read 16779264,
    .write 16777216, .read 33558528, .write 33554432, .read 50331648, .write 32768, .read 33024, .write 8388608, .read 8388608, .write 4194304, .read 20971520, .read
    139264, .read 54525952, .write 16777216, .write 33554432, .read 4200448, .write 2048, .write 4096, .read 16384, .read 16777216, .either (block [.read 16384,
    .read 16384, .read 16384, .brk]) .skip]) .skip, .read 1024, .write 524288, .read 532480, .ret true]⟩,
  -- lines 167-170: string msg
  ⟨n!"mfp_np.loading_verbose", 1, block [.read 1, .write 2, .read 2]⟩]

/-- The functions of `model_21cmfast.py` (lines 4-105). -/
def model21cmfastFns : List Fn := [
  -- lines 4-10: p21c
  ⟨n!"model_21cmfast._is_py21cmfast_installed", 0, .attempt (block [.write 1, .read 1, .ret true]) (.ret false) .skip⟩,
  -- lines 12-34: user_params cosmo_params write direc random_seed regenerate verbose global_kwargs ic p21c tstart
  ⟨n!"model_21cmfast.run_21cmfast_init", 8, block [.write 512, .read 512, .either (.ret false) .skip, .write 1024, .read 64, .either .skip .skip, .read 703, .write
    256, .read 64, .either (.read 1024) .skip, .read 256, .ret true]⟩,
  -- lines 36-66: redshift init_box user_params cosmo_params random_seed regenerate write direc verbose global_kwargs fieldz out p21c tstart
  ⟨n!"model_21cmfast.run_21cmfast_matter", 10, block [.write 4096, .read 4096, .either (.ret false) .skip, .write 8192, .read 2, .either (block [.read 256, .either
    .skip .skip, .read 4860, .write 2, .read 256, .either (.read 8192) .skip]) .skip, .read 256, .either .skip .skip, .write 1024, .read 256, .either (.read 8192)
    .skip, .read 1025, .write 2048, .read 2048, .ret true]⟩,
  -- lines 68-105: redshift user_params cosmo_params astro_params flag_options regenerate write direc init_box perturb use_interp_perturb_field pt_halos random_seed
  -- verbose global_kwargs coevals out p21c tstart
  ⟨n!"model_21cmfast.run_21cmfast_coeval", 15, block [.write 131072, .read 131072, .either (.ret false) .skip, .write 262144, .read 1, .either (block [.read 1,
    .write 1]) .skip, .read 1, .either (block [.read 1, .write 1]) .skip, .read 8192, .either .skip .skip, .read 155647, .write 32768, .read 8192, .either (.read
    262144) .skip, .read 32769, .write 65536, .read 65536, .ret true]⟩]

/-- The functions of `morph.py` (lines 10-53). -/
def morphFns : List Fn := [
  -- lines 10-11: A B
  ⟨n!"morph.binary_dilation", 2, block [.read 3, .ret true]⟩,
  -- lines 13-14: A B
  ⟨n!"morph.binary_erosion", 2, block [.read 3, .ret true]⟩,
  -- lines 16-22: A B R A_inv tmp
  ⟨n!"morph._erode_v1", 3, block [.read 1, .write 8, .read 12, .write 8, .read 10, .write 16, .read 20, .ret true]⟩,
  -- lines 24-26: A B thresh
  ⟨n!"morph._erode_v2", 2, block [.read 2, .write 4, .read 7, .ret true]⟩,
  -- lines 29-53: image structure eroded out
  ⟨n!"morph.binary_opening", 2, block [.read 3, .write 4, .read 6, .write 8, .read 8, .ret true]⟩]

/-- The functions of `nbody_file.py` (lines 17-321). -/
def nbodyFileFns : List Fn := [
  -- lines 17-20: self
  ⟨n!"nbody_file.NbodyParticle.__init__", 1, block [.read 1, .read 1, .read 1]⟩,
  -- lines 37-67: self filespath z node alt_format pid_file
  ⟨n!"nbody_file.NbodyFile.__init__", 6, block [.read 1, .read 2, .read 1, .read 4, .read 1, .read 8, .read 1, .read 16, .read 1, .read 32, .read 1, .read 4, .either
    .throw .skip, .read 1, .either (block [.read 1, .read 1, .read 1, .read 8, .either (.read 1) .skip]) .throw]⟩,
  -- lines 70-85: self f cur_checkpoint cur_halo cur_proj dt_c_acc dt_f_acc dt_pp_acc mass_p np_local_xv nts t tau
  ⟨n!"nbody_file.NbodyFile._get_header", 2, block [.read 2, .write 512, .read 2, .read 1, .write 2048, .write 4096, .read 1, .read 2, .write 1024, .read 2, .write
    64, .write 128, .write 32, .read 2, .write 4, .write 16, .write 8, .read 2, .write 256, .read 512, .ret true]⟩,
  -- lines 88-98: self filesname_xv fn_xv fxv np_local_xv npart
  ⟨n!"nbody_file.NbodyFile.get_npart", 1, block [.read 1, .write 2, .write 32, .read 2, .loop (block [.write 4, .read 4, .write 8, .read 9, .write 16, .read 48,
    .write 32, .read 8]) .skip, .read 32, .ret true]⟩,
  -- lines 101-149: self node filesname_pid filesname_xv fn_pid fn_xv fpid fxv i nbody np_local_pid np_local_xv npart_pid npart_xv pid_node pos_node
  ⟨n!"nbody_file.NbodyFile.read_from_file", 2, block [.read 2, .either (block [.read 2, .read 1]) (.read 1), .read 1, .either (block [.read 1, .read 1, .write 8,
    .read 1, .write 4]) (block [.read 1, .read 1, .write 8, .read 1, .write 4]), .write 8192, .write 4096, .read 12, .loop (block [.write 32, .write 16, .read 32,
    .write 128, .read 129, .write 2048, .read 10240, .write 8192, .read 2176, .write 32768, .read 128, .read 1, .either (block [.read 16, .write 64, .read 65, .write
    1024, .read 5120, .write 4096, .read 1088, .write 16384, .read 64]) .skip, .read 1, .either (.read 3072) .skip, .read 2048, .loop (block [.write 256, .write 512,
    .read 33024, .read 512, .read 33024, .read 512, .read 1, .either (block [.read 16640, .read 512]) .skip, .read 513]) .skip]) .skip, .read 1, .either (.read
    12288) .skip, .read 8192, .read 1]⟩,
  -- lines 152-173: filename box_dim nGrid hlittle box_len fof_data rd
  ⟨n!"nbody_file.read_pkdgrav_fof_halo_catalogue", 4, block [.read 10, .write 16, .read 6, .write 64, .read 65, .write 32, .read 64, .write 32, .read 32, .ret
    true]⟩,
  -- lines 175-193: filename box_dim nGrid grid_data rd
  ⟨n!"nbody_file.read_pkdgrav_density_grid", 3, block [.read 6, .write 16, .read 17, .write 8, .read 8, .ret true]⟩,
  -- lines 197-203: self box_len n_grid method
  ⟨n!"nbody_file.Halo2Grid.__init__", 4, block [.read 2, .read 1, .read 4, .read 1, .read 1, .read 1, .read 1]⟩,
  -- lines 205-211: self pos unit
  ⟨n!"nbody_file.Halo2Grid.set_halo_pos", 3, block [.read 4, .either (.read 3) (block [.read 4, .either (.read 3) (block [.read 2, .read 1])])]⟩,
  -- lines 213-221: self mass unit
  ⟨n!"nbody_file.Halo2Grid.set_halo_mass", 3, block [.read 4, .either (block [.read 3, .read 1]) (block [.read 4, .either (block [.read 3, .read 1]) (block [.read 4,
    .either (block [.read 2, .read 1]) .skip])])]⟩,
  -- lines 223-228: self pos_cm pos_grid pos_mpc
  ⟨n!"nbody_file.Halo2Grid.pos_cm_to_grid", 2, block [.read 3, .write 8, .read 9, .write 4, .read 4, .read 1, .read 4, .ret true]⟩,
  -- lines 230-234: self pos_mpc pos_grid
  ⟨n!"nbody_file.Halo2Grid.pos_mpc_to_grid", 2, block [.read 3, .write 4, .read 4, .read 1, .read 4, .ret true]⟩,
  -- lines 236-245: self kwargs kdtree pos
  ⟨n!"nbody_file.Halo2Grid.construct_tree", 2, block [.read 3, .write 8, .read 8, .either (.ret false) .skip, .read 8, .write 4, .read 4, .read 1]⟩,
  -- lines 247-252: self positions values kwargs bin_edges bin_num binned_mass bins statistic
  ⟨n!"nbody_file.Halo2Grid.value_on_grid", 4, block [.read 8, .write 256, .read 9, .write 128, .read 390, .write 64, .write 16, .write 32, .read 112, .ret true]⟩,
  -- lines 254-268: self kwargs bin_edges bin_num binned_mass binned_mass_list binned_pos_list mass pos
  ⟨n!"nbody_file.Halo2Grid.halo_mass_on_grid", 2, block [.read 3, .write 256, .read 256, .either (.ret false) .skip, .read 3, .write 128, .read 128, .either (.ret
    false) .skip, .read 2, .write 16, .read 16, .either (block [.read 385, .write 16, .write 4, .write 8]) .skip, .read 16, .write 64, .read 16, .write 32, .read 96,
    .ret true]⟩,
  -- lines 270-280: self value kwargs bin_edges bin_num binned_pos_list binned_value binned_value_list pos
  ⟨n!"nbody_file.Halo2Grid.halo_value_on_grid", 3, block [.read 5, .write 256, .read 256, .either (.ret false) .skip, .read 4, .write 64, .read 64, .either (block
    [.read 259, .write 64, .write 8, .write 16]) .skip, .read 64, .write 32, .read 64, .write 128, .read 160, .ret true]⟩,
  -- lines 282-321: mass pos_xyz box_dim n_grid bin_edges bin_num binned_mhalo hg mhalo_msun srcpos_mpc
  ⟨n!"nbody_file.halo_list_to_grid", 4, block [.read 1, .either (block [.read 1, .write 256]) (block [.read 1, .write 256]), .read 1, .either (block [.read 2, .write
    512]) (block [.read 2, .write 512]), .read 12, .write 128, .read 640, .read 384, .read 384, .write 64, .write 16, .write 32, .read 112, .ret true]⟩]

/-- The functions of `nbody_pkdgrav.py` (lines 13-290). -/
def nbodyPkdgravFns : List Fn := [
  -- lines 13-22: self box_len nGrid Omega_m rho_c verbose
  ⟨n!"nbody_pkdgrav.ReaderPkdgrav3.__init__", 6, block [.read 2, .read 1, .read 4, .read 1, .read 8, .read 1, .read 16, .read 1, .read 32, .read 1, .read 1, .read
    1]⟩,
  -- lines 24-52: self dMpcUnit
  ⟨n!"nbody_pkdgrav.ReaderPkdgrav3.dLightSpeedSim", 2, block [.read 2, .ret true]⟩,
  -- lines 54-79: self filename dark dark_type data gas gas_type header header_type star star_type tipsy
  ⟨n!"nbody_pkdgrav.ReaderPkdgrav3.read_particles", 2, block [.read 2, .write 2048, .write 256, .write 64, .write 8, .write 1024, .read 2304, .write 128, .read 384,
    .write 128, .read 2240, .write 32, .read 32, .write 32, .read 2184, .write 4, .read 4, .write 4, .read 3200, .write 512, .read 512, .write 512, .read 2048,
    .write 16, .read 128, .read 16, .read 32, .read 16, .read 4, .read 16, .read 512, .read 16, .read 16, .ret true]⟩,
  -- lines 82-84: self box_len nGrid Omega_m rho_c verbose
  ⟨n!"nbody_pkdgrav.HaloCataloguePkdgrav3.__init__", 6, .read 62⟩,
  -- lines 86-110: self filename z dtype data ff hl0 ii
  ⟨n!"nbody_pkdgrav.HaloCataloguePkdgrav3.read_fof_data", 4, block [.read 2, .either (block [.read 2, .loop (block [.write 128, .write 32, .read 45, .write 64, .read
    1, .either (.read 96) .skip, .read 208, .write 16]) .skip]) (block [.read 15, .write 16]), .read 8, .read 1, .read 16, .read 1, .read 1, .either (.read 16)
    .skip, .read 16, .ret true]⟩,
  -- lines 113-162: self filename z dtype BOX GRID OMEGA_MAT dMassFac dVelFac data rho_c
  ⟨n!"nbody_pkdgrav.HaloCataloguePkdgrav3._read_fof_data", 4, block [.read 1, .write 16, .read 1, .write 32, .read 1, .write 64, .read 1, .write 1024, .read 1040,
    .write 128, .read 17, .write 256, .read 4, .either (block [.read 4, .either (block [.read 4, .write 4]) .skip, .read 260, .write 256]) .skip, .read 128, .read 1,
    .read 256, .read 1, .read 8, .either (.write 8) .skip, .read 10, .write 512, .read 512, .ret true]⟩,
  -- lines 164-200: self dtype BOX dMassFac dVelFac data fMass g line pos str_data vel
  ⟨n!"nbody_pkdgrav.HaloCataloguePkdgrav3.array_fof_data", 2, block [.read 1, .write 4, .read 1, .write 32, .read 32, .either (block [.read 1, .write 8, .read 1,
    .write 16, .write 1024, .read 32, .loop (block [.write 128, .read 132, .write 512, .read 144, .write 2048, .read 136, .write 64, .read 2, .either (block [.read
    576, .write 256]) (block [.read 578, .write 256]), .read 1280]) .skip, .read 1024, .write 1024, .read 1, .either .skip .skip, .read 1024, .ret true]) (.ret
    false)]⟩,
  -- lines 202-216: self savefile data_arr is_saved
  ⟨n!"nbody_pkdgrav.HaloCataloguePkdgrav3.save_fof_data", 2, block [.read 2, .either (block [.read 1, .write 4, .read 6, .write 8]) (block [.read 2, .either (block
    [.read 1, .write 4, .read 6, .write 8]) (.write 8)]), .read 9, .either (.read 2) (.read 2)]⟩,
  -- lines 218-222: self hl_mass bins box_len ht mdndm mm
  ⟨n!"nbody_pkdgrav.HaloCataloguePkdgrav3.get_hmf_data", 3, block [.read 1, .write 8, .read 6, .write 16, .read 24, .write 64, .write 32, .read 96, .ret true]⟩,
  -- lines 225-227: self box_len nGrid Omega_m rho_c verbose
  ⟨n!"nbody_pkdgrav.PowerSpectrumPkdgrav3.__init__", 6, .read 62⟩,
  -- lines 229-255: self filename ks window_size data file kk line lines pk_data pp rd tck
  ⟨n!"nbody_pkdgrav.PowerSpectrumPkdgrav3.read_pk_data", 4, block [.write 512, .read 2, .write 2048, .read 2048, .write 64, .write 1024, .read 64, .read 512, .read
    1024, .read 512, .read 2, .write 32, .read 32, .write 256, .read 512, .read 256, .loop (block [.write 128, .read 128, .either (block [.read 128, .read 512])
    .skip, .read 640]) .skip, .read 512, .read 1, .read 4, .either (block [.read 1088, .write 4096, .read 4100, .write 1024, .read 4, .write 64]) .skip, .read 8,
    .either (block [.read 1088, .write 16, .read 24, .read 16, .read 16, .write 1024]) .skip, .read 1088, .ret true]⟩,
  -- lines 259-261: self box_len nGrid Omega_m rho_c verbose
  ⟨n!"nbody_pkdgrav.Pkdgrav3data.__init__", 6, .read 62⟩,
  -- lines 263-290: self file LBox V_cell V_total delta_b dens mass nGrid pkd rho_m rhoc0
  ⟨n!"nbody_pkdgrav.Pkdgrav3data.load_density_field", 2, block [.read 1, .write 2048, .read 1, .write 4, .read 1, .write 256, .read 2, .write 64, .read 256, .either
    (block [.read 64, .write 256]) .skip, .read 320, .write 512, .read 512, .write 512, .read 4, .write 16, .read 260, .write 8, .read 2576, .write 128, .read 136,
    .write 1024, .read 1024, .write 32, .read 32, .ret true]⟩]

/-- The functions of `nbody_tools.py` (lines 5-50). -/
def nbodyToolsFns : List Fn := [
  -- lines 5-25: cosmo cosmo_dict hlittle
  ⟨n!"nbody_tools._set_cosmo", 1, block [.attempt (block [.read 1, .write 4]) (block [.write 2, .read 3, .either (block [.read 3, .write 1]) (.write 1)]) .skip,
    .read 1, .ret true]⟩,
  -- lines 27-37: Lbox particle_mass cosmo particle_number
  ⟨n!"nbody_tools.ParticleMass_to_ParticleNumber", 3, block [.read 4, .write 4, .read 2, .either (block [.read 2, .write 2]) .skip, .read 1, .either (block [.read 1,
    .write 1]) .skip, .read 7, .write 8, .read 8, .read 8, .ret true]⟩,
  -- lines 39-41: Lbox halo_mass particles_in_halo cosmo particle_mass
  ⟨n!"nbody_tools.halo_mass_to_particle_number", 4, block [.read 6, .write 16, .read 25, .ret true]⟩,
  -- lines 43-50: Lbox particle_each_direction particle_total cosmo particle_mass particle_number
  ⟨n!"nbody_tools.particle_number_to_particle_mass", 4, block [.read 6, .write 32, .read 8, .write 8, .read 1, .either (block [.read 1, .write 1]) .skip, .read 41,
    .write 16, .read 16, .ret true]⟩]

/-- The functions of `numba_functions.py` (lines 15-171). -/
def numbaFunctionsFns : List Fn := [
  -- lines 15-21: data labels mns get_superpixel_means i sp_map
  ⟨n!"numba_functions.superpixel_map_numba", 3, block [.write 8, .read 4, .either (block [.read 11, .write 4]) .skip, .read 1, .write 32, .read 4, .loop (block
    [.write 16, .read 20, .read 50]) .skip, .read 32, .ret true]⟩,
  -- lines 24-36: data labels operator X X1 elems i idx_high idx_low num out y
  ⟨n!"numba_functions.apply_operator_labelled_data_numba", 3, block [.read 1, .write 8, .read 2, .write 2048, .read 2048, .write 32, .write 512, .read 2056, .write
    16, .write 1024, .write 256, .read 32, .loop (block [.write 64, .read 832, .write 128, .read 1428, .read 128, .write 256]) .skip, .read 1024, .ret true]⟩,
  -- lines 39-70: ncells z filename total_int_time int_time boxsize declination verbose N_ant Nbase i msg new_Nbase perc tot_num_obs uv_map uv_map0 uv_map1
  ⟨n!"numba_functions.get_uv_daily_observation_numba", 8, block [.read 6, .write 512, .write 256, .read 547, .write 65536, .read 65536, .write 32768, .read 24,
    .write 16384, .read 16384, .loop (block [.write 1024, .read 1616, .write 4096, .read 4131, .write 131072, .read 163840, .write 32768, .read 128, .either (block
    [.read 17408, .write 8192, .read 8192, .write 2048, .read 2048]) .skip]) .skip, .read 114688, .write 32768, .read 33024, .ret true]⟩,
  -- lines 73-113: filename z nu N_ant Nbase Re SKA1_LowConfig_Sept2016 antll antxyz ii jj lam pair_comb pp ux uy uz
  ⟨n!"numba_functions.from_antenna_config", 3, block [.read 2, .write 2, .read 1, .either (block [.write 64, .read 64, .write 128]) (block [.read 1, .write 128]),
    .read 128, .write 128, .write 32, .write 8192, .read 4, .either (block [.read 2, .write 4]) .skip, .read 128, .write 256, .read 8352, .read 256, .read 8352,
    .read 256, .read 8352, .read 256, .read 256, .write 8, .read 8, .write 4096, .read 4096, .write 4096, .read 4, .write 2048, .write 16, .read 4096, .loop (block
    [.write 512, .write 1024, .read 3840, .write 16384, .read 3840, .write 32768, .read 3840, .write 65536, .read 16384, .either (.read 1536) .skip, .read 114704])
    .skip, .read 16, .write 16, .read 24, .ret true]⟩,
  -- lines 116-141: Nbase slice_num int_time declination HA delta k new_Nbase p
  ⟨n!"numba_functions.earth_rotation_effect", 4, block [.write 256, .read 264, .write 32, .read 2, .write 64, .read 324, .write 16, .read 1, .write 128, .read 17,
    .read 128, .read 49, .read 128, .read 49, .read 128, .read 128, .ret true]⟩,
  -- lines 144-171: Nbase z ncells boxsize Nb p theta_max uv_map xx yy zz
  ⟨n!"numba_functions.get_uv_coverage", 4, block [.read 2, .write 2, .read 8, .either (.write 8) .skip, .read 4, .write 128, .read 10, .write 64, .read 65, .write
    16, .read 20, .write 16, .read 20, .write 16, .read 20, .write 16, .read 20, .write 16, .read 20, .write 16, .read 20, .write 16, .read 16, .write 256, .write
    512, .write 1024, .read 256, .loop (block [.write 32, .read 928]) .skip, .read 128, .ret true]⟩]

/-- The functions of `percolation.py` (lines 11-43). -/
def percolationFns : List Fn := [
  -- lines 11-43: data xth connectivity isPerc out_label out_map out_uniq size_list
  ⟨n!"percolation.find_percolation_cluster", 3, block [.read 7, .write 32, .write 128, .read 32, .write 64, .read 64, .either (block [.read 64, .either (block [.read
    32, .ret true]) .skip, .ret true]) .skip, .read 32, .write 16, .read 112, .write 8, .read 16, .either (.write 8) .skip, .read 16, .either (.write 8) .skip, .read
    16, .either (.write 8) .skip, .read 8, .either (block [.read 16, .ret true]) .skip, .ret true]⟩]

/-- The functions of `plotting.py` (lines 24-546). -/
def plottingFns : List Fn := [
  -- lines 24-93: data los_axis slice_num logscale kwargs cbar data_slice datatype ext get_slice pl plot_data z_str
  ⟨n!"plotting.plot_slice", 5, block [.write 1024, .read 1, .write 2048, .write 128, .read 2, .read 2, .either (.write 512) (block [.read 2, .either (.write 512)
    (.write 512)]), .read 2564, .write 64, .write 256, .read 8, .either (block [.read 64, .write 64]) .skip, .read 1360, .read 1024, .write 32, .read 1024, .read
    1024, .attempt (block [.read 1, .write 4096]) (.write 4096) .skip, .read 128, .either (block [.read 8, .either (.read 32) (.read 32), .read 5120]) (block [.read
    128, .either (block [.read 8, .either (.read 32) (.read 32), .read 5120]) .skip])]⟩,
  -- lines 95-136: data logscale kwargs datatype pl plot_data
  ⟨n!"plotting.plot_hist", 3, block [.write 16, .read 1, .write 32, .write 8, .read 12, .either (.read 4) (.read 4), .read 4, .either (.read 4) .skip, .read 4,
    .either (.read 4) .skip, .read 54, .read 8, .either (.read 16) (block [.read 8, .either (.read 16) .skip])]⟩,
  -- lines 138-167: samples_dict weights_dict param_names cumulative_weights data high i idx label low mean minus name p_name plus samples sorted_data sorted_weights
  -- weights
  ⟨n!"plotting.print_chain_stats", 3, block [.read 1, .loop (block [.write 4096, .write 32768, .read 36866, .write 262144, .read 262144, .write 262144, .read 4,
    .loop (block [.write 64, .write 8192, .read 32832, .write 16, .read 262160, .write 1024, .read 16, .write 128, .read 144, .write 65536, .read 262272, .write
    131072, .read 131072, .write 8, .read 65544, .write 512, .write 32, .read 1056, .write 16384, .read 1536, .write 2048, .read 8256, .write 256, .read 23808])
    .skip]) .skip]⟩,
  -- lines 169-263: samples_dict weights_dict fig backend levels param_range bins smooth smooth1d colors param_names truths truth_color show_stats kwargs Chain
  -- ChainConsumer MCSamples PlotConfig Truth bbox_to_anchor c color corner custom_settings df extents g handles i internal_labels internal_names internal_ranges
  -- legend_fontsize mcs name names pd plots s truth_dict w
  ⟨n!"plotting.plot_triangle", 15, block [.read 1, .write 68719476736, .read 8, .read 8192, .either (.read 1027) .skip, .read 8, .either (block [.write 8388608,
    .read 68719476736, .loop (block [.write 536870912, .write 34359738368, .read 34359738880, .write 4194304, .read 34909216247, .write 4]) .skip, .read 16384,
    .either (block [.read 68719477248, .write 268435456, .read 16384, .write 1048576, .read 16384, .write 8589934592, .read 8859418628]) .skip, .read 4, .ret true])
    (block [.read 8, .either (block [.write 274878038016, .read 384, .write 16777216, .read 1024, .write 2147483648, .read 1024, .write 1073741824, .read 2147483680,
    .write 4294967296, .read 4294967296, .write 17179869184, .read 68719476736, .loop (block [.write 34359738368, .read 34359738370, .write 2199023255552, .read
    2240916094977, .write 549755813888, .read 566935683072]) .skip, .read 274877906944, .write 134217728, .read 86033582608, .read 134217728, .ret true]) (block
    [.read 8, .either (block [.write 884736, .write 137438953472, .read 65536, .write 2097152, .read 68719476736, .loop (block [.write 34359738368, .read
    34359738880, .write 4194304, .read 171798692865, .write 33554432, .read 34399617026]) .skip, .read 2048, .either (block [.read 3072, .write 1099511627776, .read
    1099514253312]) .skip, .read 1056, .write 67108864, .write 1099511627776, .read 69468352, .read 2113536, .ret true]) .skip])])]⟩,
  -- lines 292-300: self backend true_values param_labels
  ⟨n!"plotting.DistributionDiagnostic.__init__", 4, block [.read 2, .read 1, .read 4, .read 1, .read 8, .read 1, .read 1, .read 1]⟩,
  -- lines 302-311: self num_params extended i
  ⟨n!"plotting.DistributionDiagnostic._get_default_param_labels", 2, block [.read 1, .either (block [.read 2, .ret true]) .skip, .read 3, .either (block [.read 1,
    .write 4, .read 3, .loop (block [.write 8, .read 12]) .skip, .read 4, .ret true]) .skip, .read 1, .ret true]⟩,
  -- lines 313-317: self label
  ⟨n!"plotting.DistributionDiagnostic._get_distribution_label", 2, block [.read 2, .either (block [.read 2, .ret true]) .skip, .read 1, .ret true]⟩,
  -- lines 320-321: self data label color
  ⟨n!"plotting.DistributionDiagnostic.add_distribution", 4, .skip⟩,
  -- lines 323-374: self points weights cdf_at cis cov cum_weights data_p delta idx means metrics num_params p quantile sigmas sorted_data sorted_weights tv_slice
  -- weights_norm
  ⟨n!"plotting.DistributionDiagnostic._calculate_base_metrics", 3, block [.read 4, .write 524288, .read 2, .write 4096, .read 524290, .write 1024, .read 524290,
    .write 32, .read 32, .write 32768, .write 16, .read 4096, .loop (block [.write 8192, .read 8194, .write 128, .read 128, .write 512, .read 640, .write 65536,
    .read 524800, .write 131072, .read 131072, .write 64, .read 65600, .write 16384, .read 65600, .write 8, .read 16408]) .skip, .read 33840, .write 2048, .read 1,
    .either (block [.read 4097, .write 262144, .read 295936, .read 2048, .read 263168, .write 256, .read 256, .read 2048, .attempt (block [.read 288, .read 2048])
    (.read 2048) .skip, .read 262160, .read 2048, .read 262160, .read 2048, .read 262160, .read 2048, .attempt (block [.read 32, .read 2048]) (.read 2048) .skip])
    .skip, .read 2048, .ret true]⟩,
  -- lines 340-340: q _cw _sd
  ⟨n!"plotting.DistributionDiagnostic._calculate_base_metrics.quantile", 3, block [.read 7, .ret true]⟩,
  -- lines 341-341: val _cw _sd
  ⟨n!"plotting.DistributionDiagnostic._calculate_base_metrics.cdf_at", 3, block [.read 7, .ret true]⟩,
  -- lines 376-391: self levels kwargs
  ⟨n!"plotting.DistributionDiagnostic.plot_corner", 3, block [.read 1, .either .throw .skip, .read 2, .either (.write 2) .skip, .read 1, .either (block [.read 7,
    .ret true]) (block [.read 1, .either (block [.read 7, .ret true]) .skip])]⟩,
  -- lines 393-455: self levels kwargs col coll color dist dst extra_kw fig full_labels handle_map handles k ln main_axarr max_params name opts ordered orig_i row
  -- src temp_axarr temp_fig
  ⟨n!"plotting.DistributionDiagnostic._plot_corner_backend", 3, block [.either .throw .skip, .read 2, .either (.write 2) .skip, .write 512, .write 2048, .read 1,
    .write 65536, .read 65537, .write 1024, .read 1, .write 524288, .read 524288, .loop (block [.write 1048576, .write 131072, .write 64, .read 1048641, .write 32,
    .read 64, .write 8192, .read 73728, .either (block [.read 1570, .write 262144, .read 262148, .read 262208, .write 512]) (block [.read 4, .write 256, .read 9570,
    .write 16777216, .read 16785408, .write 8388608, .read 66048, .write 32768, .read 8192, .loop (block [.write 2097152, .read 8192, .loop (block [.write 8, .read
    10485768, .write 4194304, .read 2129928, .write 128, .read 4194304, .loop (block [.write 16, .read 16, .read 144, .read 144]) .skip, .read 2097160, .either
    (block [.read 4194304, .loop (block [.write 16384, .read 16384, .read 16512]) .skip]) .skip]) .skip]) .skip, .read 16777216]), .read 131104, .read 1050624])
    .skip, .read 1, .either (.read 66049) .skip, .read 2048, .write 4096, .read 4608, .read 512, .ret true]⟩,
  -- lines 457-481: self levels kwargs colors dist full_labels g i k line_args max_params name p_names s samples_list
  ⟨n!"plotting.DistributionDiagnostic._plot_getdist_backend", 3, block [.either .throw .skip, .read 2, .either (.write 2) .skip, .write 16384, .read 1, .write 1024,
    .read 1025, .write 32, .write 8, .read 1, .loop (block [.write 128, .write 2048, .write 16, .read 16, .write 256, .read 256, .write 4096, .read 6448, .write
    8192, .read 24576, .read 153]) .skip, .read 8, .write 512, .write 64, .read 16975, .read 64, .ret true]⟩,
  -- lines 483-511: self ax axes ci color dist fig i labels max_params name num_dist p
  ⟨n!"plotting.DistributionDiagnostic.plot_forest", 1, block [.read 1, .write 2048, .read 1, .write 512, .read 513, .write 256, .read 2560, .write 64, .write 4,
    .read 512, .either (block [.read 4, .write 4]) .skip, .read 512, .loop (block [.write 4096, .read 4100, .write 2, .read 1, .loop (block [.write 128, .write 1024,
    .write 32, .read 4128, .either .cont .skip, .read 4128, .write 8, .read 161, .write 16, .read 154, .read 154]) .skip, .read 4097, .either (.read 4099) .skip,
    .read 4354, .read 4096, .either (block [.read 2050, .read 3]) .skip, .read 2]) .skip, .read 64, .ret true]⟩,
  -- lines 516-518: self coords_1d kwargs
  ⟨n!"plotting.GriddedProbabilities.__init__", 3, block [.read 4, .read 2, .read 1]⟩,
  -- lines 520-532: self grid label color axes_coords mesh ndim points weights
  ⟨n!"plotting.GriddedProbabilities.add_distribution", 4, block [.read 5, .write 4, .read 2, .write 64, .read 65, .write 16, .read 16, .write 32, .read 32, .write
    128, .read 2, .write 256, .read 395, .read 5]⟩,
  -- lines 537-546: self samples label weights color
  ⟨n!"plotting.SampledDistribution.add_distribution", 5, block [.read 5, .write 4, .read 8, .either (block [.read 2, .write 8]) .skip, .read 27, .read 5]⟩]

/-- The functions of the files of this part (for example `helper_functions.py` lines 21-26). -/
def part2 : List Fn := helperFunctionsFns ++ identifyRegionsFns ++ irateFileFns ++ lightconeFns ++ lineIntensityFns ++ lymanAlphaCouplingFns ++
  lymanAlphaTransmissionFns ++ mfpNpFns ++ model21cmfastFns ++ morphFns ++ nbodyFileFns ++ nbodyPkdgravFns ++ nbodyToolsFns ++ numbaFunctionsFns ++
  percolationFns ++ plottingFns

end Verif.Locals

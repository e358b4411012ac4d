import Verif.Model.Locals

/-!
# The functions of the package, part 1

Generated from the syntax trees of the files; in each entry the name of the function, the number of its parameters and its statements as far as they concern its local
variables (see `Model/Locals.lean`).  Before each entry are the lines of the function and its local variables in the order of the binary digits of the sets.
-/

namespace Verif.Locals

/-- The functions of `Friends_of_Friends.py` (lines 17-80). -/
def friendsOfFriendsFns : List Fn := [
  -- lines 17-56: array threshold c cycle_through_options group out_map p poss_set possibilities q recursive_search s size_list
  ⟨n!"Friends_of_Friends.FoF_search", 2, block [.write 8, .read 1, .write 32, .read 3, .write 256, .read 256, .write 128, .write 1024, .write 4, .read 4, .write
    4096, .write 512, .read 256, .loop (block [.write 64, .read 96, .either (block [.read 4, .write 16, .read 16, .read 96, .read 576, .write 2048, .loop (block
    [.read 512, .read 3600, .write 2048]) (.read 512), .read 6144]) .skip]) .skip, .read 4128, .ret true]⟩,
  -- lines 24-29: coord i j new_coordinate
  ⟨n!"Friends_of_Friends.FoF_search.cycle_through_options", 1, block [.read 1, .loop (block [.write 2, .loop (block [.write 4, .read 1, .write 8, .read 14, .read 8])
    .skip]) .skip]⟩,
  -- lines 35-41: point current_group currentsize testPoint
  ⟨n!"Friends_of_Friends.FoF_search.recursive_search", 3, block [.read 1, .loop (block [.write 8, .read 8, .either (block [.read 2, .read 8, .read 8, .read 4, .write
    4]) .skip]) .skip, .read 4, .ret true]⟩,
  -- lines 59-61: dx sig
  ⟨n!"Friends_of_Friends.gaussian", 2, block [.read 3, .ret true]⟩,
  -- lines 64-80: x a sigma array_size ar dx i j k
  ⟨n!"Friends_of_Friends.halo3d", 4, block [.read 8, .write 16, .read 8, .loop (block [.write 64, .read 8, .loop (block [.write 128, .read 8, .loop (block [.write
    256, .read 449, .write 32, .read 38, .read 464]) .skip]) .skip]) .skip, .read 16, .ret true]⟩]

/-- The functions of `ViteBetti.py` (lines 13-263). -/
def viteBettiFns : List Fn := [
  -- lines 13-14: func args kwargs
  ⟨n!"ViteBetti.jit", 3, block [.read 1, .ret true]⟩,
  -- lines 48-106: arr multi_marker Nx Ny Nz cubemap i j k markers nx ny nz
  ⟨n!"ViteBetti.CubeMap", 2, block [.read 1, .write 1024, .write 2048, .write 4096, .read 7168, .write 4, .write 8, .write 16, .read 28, .write 32, .write 512, .read
    2, .either (.write 512) .skip, .read 1024, .loop (block [.write 64, .read 2048, .loop (block [.write 128, .read 4096, .loop (block [.write 256, .read 449,
    .either (block [.read 512, .read 480]) .skip]) .skip]) .skip]) .skip, .read 4, .loop (block [.write 64, .read 8, .loop (block [.write 128, .read 16, .loop (block
    [.write 256, .read 480, .either (block [.read 996, .either (block [.read 512, .read 480]) (block [.read 1000, .either (block [.read 512, .read 480]) (block
    [.read 1008, .either (block [.read 512, .read 480]) .skip])])]) .skip]) .skip]) .skip]) .skip, .read 4, .loop (block [.write 64, .read 8, .loop (block [.write
    128, .read 16, .loop (block [.write 256, .read 480, .either (block [.read 1004, .either (block [.read 512, .read 480]) (block [.read 1016, .either (block [.read
    512, .read 480]) (block [.read 1012, .either (block [.read 512, .read 480]) .skip])])]) .skip]) .skip]) .skip]) .skip, .read 4, .loop (block [.write 64, .read 8,
    .loop (block [.write 128, .read 16, .loop (block [.write 256, .read 480, .either (block [.read 1020, .either (block [.read 512, .read 480]) .skip]) .skip])
    .skip]) .skip]) .skip, .read 32, .ret true]⟩,
  -- lines 113-168: shm_name arr_shape i_start i_end arr_for_vertices markers stage Nx Ny Nz cubemap existing_shm i j k nx ny nz
  ⟨n!"ViteBetti._CubeMap_joblib_worker", 7, block [.read 1, .write 2048, .read 2050, .write 1024, .read 2, .write 128, .write 256, .write 512, .read 16, .write
    32768, .write 65536, .write 131072, .read 64, .either (block [.read 12, .loop (block [.write 4096, .read 65536, .loop (block [.write 8192, .read 131072, .loop
    (block [.write 16384, .read 28688, .either (block [.read 32, .read 29696]) .skip]) .skip]) .skip]) .skip]) (block [.read 64, .either (block [.read 12, .loop
    (block [.write 4096, .read 256, .loop (block [.write 8192, .read 512, .loop (block [.write 16384, .read 29696, .either (block [.read 29856, .either (block [.read
    32, .read 29696]) (block [.read 29984, .either (block [.read 32, .read 29696]) (block [.read 30240, .either (block [.read 32, .read 29696]) .skip])])]) .skip])
    .skip]) .skip]) .skip]) (block [.read 64, .either (block [.read 12, .loop (block [.write 4096, .read 256, .loop (block [.write 8192, .read 512, .loop (block
    [.write 16384, .read 29696, .either (block [.read 30112, .either (block [.read 32, .read 29696]) (block [.read 30496, .either (block [.read 32, .read 29696])
    (block [.read 30368, .either (block [.read 32, .read 29696]) .skip])])]) .skip]) .skip]) .skip]) .skip]) (block [.read 64, .either (block [.read 12, .loop (block
    [.write 4096, .read 256, .loop (block [.write 8192, .read 512, .loop (block [.write 16384, .read 29696, .either (block [.read 30624, .either (block [.read 32,
    .read 29696]) .skip]) .skip]) .skip]) .skip]) .skip]) .skip])])]), .read 2048]⟩,
  -- lines 171-209: arr multi_marker n_jobs Nx Ny Nz chunk_size cubemap_shape domain_size markers nx ny nz result_cubemap shared_cubemap shm stage_name tasks
  ⟨n!"ViteBetti.CubeMap_joblib", 3, block [.either .throw .skip, .read 1, .write 1024, .write 2048, .write 4096, .read 7168, .write 8, .write 16, .write 32, .read
    56, .write 128, .read 2, .write 512, .read 56, .write 32768, .read 32896, .write 16384, .read 16384, .read 4, .either (.write 4) .skip, .cleanup (block [.read
    1032, .loop (block [.write 65536, .write 256, .read 260, .write 64, .read 99269, .write 131072, .read 131076]) .skip, .read 16384, .write 8192]) (block [.read
    32768, .read 32768]), .read 8192, .ret true]⟩,
  -- lines 212-263: arr multi_marker verbose Nx Ny Nz arr_tensor coords cube_mask cubemap edge_mask face_mask markers mask nx ny nz
  ⟨n!"ViteBetti.CubeMap_torch", 3, block [.either .throw .skip, .read 1, .write 64, .read 64, .write 16384, .write 32768, .write 65536, .read 114688, .write 8,
    .write 16, .write 32, .read 56, .write 512, .write 4096, .read 2, .either (.write 4096) .skip, .read 64, .write 128, .read 128, .either (block [.read 4096, .read
    640]) .skip, .read 512, .write 8192, .read 4608, .write 1024, .read 4096, .read 9728, .read 512, .write 8192, .read 4608, .write 2048, .read 4096, .read 10752,
    .read 512, .write 8192, .read 4608, .write 256, .read 4096, .read 8960, .read 512, .ret true]⟩]

/-- The functions of `angular_coordinates.py` (lines 17-354). -/
def angularCoordinatesFns : List Fn := [
  -- lines 17-110: physical_lightcone input_z_low output_dnu output_dtheta input_box_size_mpc verbose order mode cell_size distances fov_deg_high fov_deg_low i
  -- input_z_high lightcone_freq n_cells_nu n_cells_theta n_cells_theta_out output_freqs output_volume z
  ⟨n!"angular_coordinates.physical_lightcone_to_observational", 8, block [.read 128, .read 16, .either (.write 16) .skip, .read 2, .either (block [.read 17, .write
    256, .read 259, .write 512, .read 512, .write 8192]) (block [.read 2, .write 2, .write 8192]), .read 18, .write 2048, .read 8208, .write 1024, .read 32, .either
    (block [.read 2050, .read 9216]) .skip, .read 23, .write 16384, .write 262144, .read 2056, .write 65536, .read 262144, .write 32768, .read 32, .either .skip
    .skip, .read 98304, .write 524288, .read 32800, .loop (block [.write 4096, .read 266240, .write 1048576, .read 1071192, .read 528384]) .skip, .read 128, .either
    .skip (block [.read 128, .either (block [.read 1032, .write 131072, .read 720896, .write 524288]) (.read 128)]), .read 786432, .ret true]⟩,
  -- lines 113-162: observational_lightcone input_freqs input_dtheta verbose order cell_size_par cell_size_perp dnu fov_deg fov_mpc i n_cells_perp output_cell_size
  -- output_redshifts output_volume output_volume_par z z_low
  ⟨n!"angular_coordinates.observational_lightcone_to_physical", 5, block [.read 2, .read 1, .read 2, .write 128, .read 2, .write 131072, .read 5, .write 256, .read
    131328, .write 512, .read 513, .write 64, .read 2, .write 32, .read 96, .write 4096, .read 4096, .read 4608, .write 2048, .read 2049, .write 32768, .read 32776,
    .loop (block [.write 1024, .read 1026, .write 65536, .read 71441, .read 33792]) .skip, .read 36866, .write 16384, .write 8192, .read 28672, .ret true]⟩,
  -- lines 165-200: input_slice z slice_size_mpc fov_deg dtheta order cell_size_mpc fov_mpc n_cells_resampled padded_n padded_slice resampled_slice slice_n
  ⟨n!"angular_coordinates.physical_slice_to_angular", 6, block [.read 10, .write 128, .read 152, .write 64, .read 68, .write 256, .read 256, .either (block [.read
    256, .write 256]) .skip, .read 289, .write 2048, .read 2048, .write 4096, .read 24, .write 512, .read 4608, .either (block [.read 4608, .either .skip .skip,
    .read 4096, .write 512]) .skip, .read 2560, .write 1024, .read 1024, .ret true]⟩,
  -- lines 203-234: input_slice z slice_size_deg output_cell_size output_size_mpc order prefilter n_cells_resampled n_cutout_cells resampled_slice slice_cutout
  -- slice_size_mpc
  ⟨n!"angular_coordinates.angular_slice_to_physical", 7, block [.read 6, .write 2048, .read 2056, .write 128, .read 128, .either (block [.read 128, .write 128])
    .skip, .read 225, .write 512, .read 24, .write 256, .read 257, .either (block [.read 257, .either .skip .skip, .read 1, .write 256]) .skip, .read 768, .write
    1024, .read 1024, .ret true]⟩,
  -- lines 237-256: input_slice n_output_cells order prefilter idx output_slice slice_smoothed tophat_width
  ⟨n!"angular_coordinates.resample_slice", 4, block [.read 3, .write 128, .read 136, .either (.write 128) .skip, .read 129, .write 64, .read 66, .write 16, .read 84,
    .write 32, .read 32, .ret true]⟩,
  -- lines 259-300: lightcone z_low box_size_mpc dnu cell_size distances i idx input_frequencies input_redshifts lightcone_smoothed max_cell_size nu nu1 nu2
  -- output_frequencies output_lightcone smooth_scale tophat3d
  ⟨n!"angular_coordinates.bin_lightcone_in_frequency", 4, block [.read 5, .write 16, .read 19, .write 32, .read 32, .write 512, .read 512, .write 256, .read 256,
    .write 8192, .read 256, .write 16384, .read 24584, .write 32768, .read 32769, .write 65536, .read 32768, .write 2048, .read 2064, .write 131072, .read 131072,
    .either (.write 131072) .skip, .read 131072, .read 131072, .write 262144, .read 262144, .write 262144, .read 262145, .write 1024, .read 65536, .loop (block
    [.write 64, .read 32832, .write 4096, .read 4352, .write 128, .read 1152, .read 65600]) .skip, .read 98304, .ret true]⟩,
  -- lines 303-325: lightcone frequencies cell_size_mpc distances i idx lightcone_smoothed n_output_cells output_distances output_lightcone output_redshifts
  -- smooth_scale tophat3d
  ⟨n!"angular_coordinates.bin_lightcone_in_mpc", 3, block [.read 2, .write 8, .read 12, .write 128, .read 12, .write 256, .read 129, .write 512, .read 130, .write
    2048, .read 2048, .write 4096, .read 4096, .write 4096, .read 4097, .write 64, .read 512, .loop (block [.write 16, .read 280, .write 32, .read 96, .read 528])
    .skip, .read 256, .write 1024, .read 1536, .ret true]⟩,
  -- lines 328-335: input_slice padded_n padded_slice slice_n
  ⟨n!"angular_coordinates._get_padded_slice", 2, block [.read 1, .write 8, .read 2, .write 4, .read 1, .read 12, .read 11, .read 12, .read 11, .read 12, .read 11,
    .read 12, .read 4, .ret true]⟩,
  -- lines 337-354: lc padded_n mode verbose i out_lc
  ⟨n!"angular_coordinates.padding_lightcone", 4, block [.read 2, .either (block [.read 1, .write 2]) .skip, .read 3, .write 32, .read 9, .loop (block [.write 16,
    .read 23, .read 48]) .skip, .read 32, .ret true]⟩]

/-- The functions of `apply_mpi_lya_c.py` (lines 33-43). -/
def applyMpiLyaCFns : List Fn := [
  -- lines 33-43: ncells boxsize source_pos mass sed_func eng i j k lms n_a rr rr2 xx yy zss zz
  ⟨n!"apply_mpi_lya_c.one_source", 5, block [.read 4, .write 64, .write 128, .write 256, .read 1, .write 8192, .write 16384, .write 65536, .read 90563, .write 4096,
    .read 4096, .write 2048, .read 2048, .write 32768, .read 32768, .write 512, .read 4632, .write 32, .read 544, .read 32, .write 1024, .read 1024, .ret true]⟩]

/-- The functions of `astro_tools.py` (lines 7-151). -/
def astroToolsFns : List Fn := [
  -- lines 7-36: FoV redshift cosmo D FoV_cMpc2
  ⟨n!"astro_tools.FoV_cMpc2", 3, block [.read 4, .either (.write 4) .skip, .read 1, .either (block [.read 1, .write 1]) .skip, .read 6, .write 8, .read 9, .write 16,
    .read 16, .ret true]⟩,
  -- lines 39-60: mag flux
  ⟨n!"astro_tools.mag_to_flux", 1, block [.read 1, .either (block [.read 1, .write 1]) .skip, .read 1, .write 2, .read 2, .ret true]⟩,
  -- lines 63-93: Muv z cosmo Kcorrection m_uv
  ⟨n!"astro_tools.Muv_to_muv", 3, block [.read 4, .either (.write 4) .skip, .read 1, .either (block [.read 1, .write 1]) .skip, .read 2, .write 8, .read 15, .write
    16, .read 16, .ret true]⟩,
  -- lines 96-126: muv z cosmo Kcorrection Muv
  ⟨n!"astro_tools.muv_to_Muv", 3, block [.read 4, .either (.write 4) .skip, .read 1, .either (block [.read 1, .write 1]) .skip, .read 2, .write 8, .read 15, .write
    16, .read 16, .ret true]⟩,
  -- lines 129-151: M_AB L1500 Muv SI2cgs
  ⟨n!"astro_tools.Muv_to_L1500", 1, block [.read 4, .either (block [.read 4, .write 4]) .skip, .write 8, .read 9, .write 2, .read 2, .ret true]⟩]

/-- The functions of `beam_convolve.py` (lines 8-55). -/
def beamConvolveFns : List Fn := [
  -- lines 8-55: input_array z fov_mpc beam_w max_baseline beamshape angle kernel mx out ox sigma0
  ⟨n!"beam_convolve.beam_convolve", 6, block [.read 24, .either .throw (block [.read 8, .either (block [.read 18, .write 8]) .skip]), .read 6, .write 64, .read 1,
    .write 256, .read 64, .read 40, .read 32, .either (block [.read 328, .write 2048, .read 2304, .write 128]) (block [.read 32, .throw]), .read 129, .write 512,
    .read 512, .write 1024, .read 1536, .ret true]⟩]

/-- The functions of `bispectrum.py` (lines 17-333). -/
def bispectrumFns : List Fn := [
  -- lines 17-37: input_array box_dims verbose ft k k_comp
  ⟨n!"bispectrum.fft_nd", 3, block [.read 3, .write 2, .read 3, .write 32, .write 16, .read 1, .write 8, .read 56, .ret true]⟩,
  -- lines 40-45: self input_array box_dims verbose box_dims_input
  ⟨n!"bispectrum.Bispectrum.__init__", 4, block [.read 6, .write 4, .write 16, .read 24, .either (.read 4) .skip, .read 2, .read 1, .read 4, .read 1, .read 8, .read
    1]⟩,
  -- lines 47-53: self array_shape k_center k_width k_comp k_mag out
  ⟨n!"bispectrum.Bispectrum.spherical_shell_mask", 6, block [.read 48, .read 32, .either (block [.read 16, .write 32]) .skip, .attempt (block [.read 2, .write 64])
    (block [.read 2, .write 64]) .skip, .read 108, .read 64, .ret true]⟩,
  -- lines 55-57: self k1 k2 alpha k3
  ⟨n!"bispectrum.Bispectrum.cosine_rule", 4, block [.read 14, .write 16, .read 16, .ret true]⟩,
  -- lines 59-97: self input_array_fft k1 k2 k3 dk1 dk2 dk3 box_dims k_mag return_n_modes binning b123 box_vol d1 d123 d2 d3 dfft1 dfft2 dfft3 n_pixel s1 s123 s2 s3
  -- shell1 shell2 shell3
  ⟨n!"bispectrum.Bispectrum.bispectrum_fast", 12, block [.read 256, .write 8192, .read 2, .write 2097152, .read 551, .write 67108864, .read 67108866, .write 262144,
    .read 67108864, .write 4194304, .read 262144, .write 16384, .read 12, .either (block [.read 4210688, .write 16777216, .write 65536]) (block [.read 587, .write
    134217728, .read 134217730, .write 524288, .read 134217728, .write 16777216, .read 524288, .write 65536]), .read 20, .either (block [.read 4210688, .write
    33554432, .write 131072]) (block [.read 24, .either (block [.read 16842752, .write 33554432, .write 131072]) (block [.read 659, .write 268435456, .read
    268435458, .write 1048576, .read 268435456, .write 33554432, .read 1048576, .write 131072])]), .read 212992, .write 32768, .read 54525952, .write 8388608, .read
    10526720, .write 4096, .read 4096, .ret true]⟩,
  -- lines 99-153: self k1 k2 dk n_bins box_dims return_n_modes binning verbose window n_jobs B_list alphas box_dims_input input_array input_array_fft input_array_nd
  -- k3_list k_comp k_mag out_dict run_loop tstart
  ⟨n!"bispectrum.Bispectrum.bispectrum_k1k2", 11, block [.write 4194304, .read 1, .write 65536, .read 16896, .write 16384, .read 65568, .write 32, .write 8192, .read
    8448, .either (.read 32) .skip, .read 256, .either (.read 6) .skip, .read 65824, .write 32768, .write 262144, .write 524288, .read 256, .either .skip .skip,
    .read 128, .either (block [.read 16, .write 4096]) (block [.read 16, .write 4096]), .read 4103, .write 131072, .write 2097152, .read 1024, .either (block [.read
    2097168, .write 2048]) (block [.read 2098192, .write 2048]), .read 137222, .write 1048576, .read 256, .either (.read 4194304) .skip, .read 1048576, .ret true]⟩,
  -- lines 125-136: i b123 k3
  ⟨n!"bispectrum.Bispectrum.bispectrum_k1k2.run_loop", 1, block [.read 1, .write 4, .read 4, .write 2, .read 2, .ret true]⟩,
  -- lines 156-205: self dk n_bins box_dims return_n_modes binning verbose window n_jobs B_list box_dims_input input_array input_array_fft input_array_nd k_comp
  -- k_mag kbins out_dict run_loop tstart
  ⟨n!"bispectrum.Bispectrum.bispectrum_k", 9, block [.write 524288, .read 1, .write 8192, .read 2176, .write 2048, .read 8200, .write 8, .write 1024, .read 1088,
    .either (.read 8) .skip, .read 64, .either .skip .skip, .read 8264, .write 4096, .write 16384, .write 32768, .read 64, .either .skip .skip, .read 32812, .write
    65536, .read 65538, .write 2, .write 262144, .read 256, .either (block [.read 262148, .write 512]) (block [.read 262404, .write 512]), .read 66048, .write
    131072, .read 64, .either (.read 524288) .skip, .read 131072, .ret true]⟩,
  -- lines 180-192: i b123 dk1 k1
  ⟨n!"bispectrum.Bispectrum.bispectrum_k.run_loop", 1, block [.read 1, .write 8, .read 1, .write 4, .read 12, .write 2, .read 2, .ret true]⟩,
  -- lines 209-224: self input_array box_dims verbose n_jobs MAS PKL box_dims_input
  ⟨n!"bispectrum.BispectrumPylians.__init__", 6, block [.attempt (block [.write 64, .read 64, .read 1]) .skip .skip, .read 6, .write 4, .write 128, .read 136,
    .either (.read 4) .skip, .read 2, .read 1, .read 4, .read 1, .read 8, .read 1, .read 16, .read 1, .read 32, .read 1]⟩,
  -- lines 226-252: self k1 k2 n_bins BBk Bk BoxSize MAS Pk Qk delta k3 theta threads
  ⟨n!"bispectrum.BispectrumPylians.bispectrum_k1k2", 4, block [.read 1, .write 8192, .read 1, .write 128, .read 1, .write 64, .read 8, .either (block [.read 8,
    .write 4096]) (block [.read 8, .write 4096]), .read 1, .either (block [.read 6, .read 4096]) .skip, .read 1, .write 1024, .read 13511, .write 16, .read 16,
    .write 32, .read 16, .write 512, .read 16, .write 2048, .read 16, .write 256, .read 6950, .ret true]⟩,
  -- lines 254-285: input_array k1 k2 n_bins box_dims window n_jobs kwargs bisp outp
  ⟨n!"bispectrum.bispectrum_k1k2", 8, block [.read 33, .write 1, .read 209, .write 256, .read 270, .write 512, .read 512, .ret true]⟩,
  -- lines 287-333: input_array n_bins box_dims window n_jobs kwargs binning bisp ii kbins ke ki kmax kmin outi outp tstart verbose
  ⟨n!"bispectrum.bispectrum_equilateral", 6, block [.write 65536, .read 9, .write 1, .read 32, .write 64, .read 4, .write 8192, .read 8193, .write 4096, .read 64,
    .either (block [.read 12290, .write 512, .read 512, .write 512]) (block [.read 64, .either (block [.read 12290, .write 512, .read 512, .write 512]) .skip]),
    .read 32, .write 131072, .read 21, .write 128, .write 32768, .read 512, .loop (block [.write 256, .write 2048, .read 131072, .either (.read 2816) .skip, .read
    2176, .write 16384, .loop (block [.write 1024, .read 50176, .read 33792]) .skip]) .skip, .read 131072, .either (.read 65536) .skip, .read 32768, .ret true]⟩]

/-- The functions of `box_counting.py` (lines 5-31). -/
def boxCountingFns : List Fn := [
  -- lines 5-9: data size q window kernel smooth
  ⟨n!"box_counting.box_count_sliding", 4, block [.read 8, .read 10, .write 16, .read 17, .write 32, .read 36, .ret true]⟩,
  -- lines 12-23: size window kern x y
  ⟨n!"box_counting.get_kernel", 2, block [.read 2, .either (block [.read 1, .write 4]) (block [.read 2, .either (block [.read 1, .write 4, .read 1, .either (block
    [.read 1, .write 1, .read 1, .write 8, .write 16]) (block [.read 1, .write 1, .read 1, .write 8, .write 16]), .read 29]) .skip]), .read 4, .ret true]⟩,
  -- lines 25-31: data q Z_r dd fdd rmax rmin rr
  ⟨n!"box_counting.Renyi_diemsnions", 2, block [.read 1, .write 64, .write 32, .read 96, .write 128, .read 131, .write 4, .read 132, .write 8, .read 136, .write 16,
    .read 16, .ret true]⟩]

/-- The functions of `bubble_stats.py` (lines 17-628). -/
def bubbleStatsFns : List Fn := [
  -- lines 17-51: data xth connectivity elements morphology out_map runtime size_list t1 t2 use_skimage
  ⟨n!"bubble_stats.fof", 3, block [.write 1024, .write 256, .read 3, .write 1, .read 1024, .either (block [.write 16, .read 21, .write 32, .read 32, .write 8, .write
    128, .read 128, .write 128]) (block [.read 3, .write 32, .write 128]), .write 512, .read 768, .write 64, .read 64, .read 160, .ret true]⟩,
  -- lines 53-88: data xth boxsize nscales upper_lim binning verbose use_fftconvolve ni ni_ rs rs_
  ⟨n!"bubble_stats.spa", 8, block [.read 4, .either (.write 4) .skip, .read 16, .either (block [.read 1, .write 1, .read 2, .write 2]) .skip, .read 235, .write 1024,
    .write 256, .read 1029, .write 2048, .read 256, .write 512, .read 2560, .ret true]⟩,
  -- lines 91-162: data xth boxsize iterations verbose upper_lim bins r_min r_max check_box dim nn out p0 r0 rr runtime t1 t2
  ⟨n!"bubble_stats.mfp", 9, block [.read 8, .write 8, .read 4, .either (block [.write 4, .read 4]) .skip, .read 1, .write 1024, .write 131072, .read 32, .either
    (block [.read 1, .write 1, .read 2, .write 2]) .skip, .read 3, .write 512, .read 16, .either (.read 513) .skip, .read 512, .either (block [.read 1, .write 1,
    .write 8]) .skip, .read 1024, .either (block [.read 16, .either .skip .skip, .read 27, .write 4096]) (block [.read 1024, .either (block [.read 16, .either .skip
    .skip, .read 27, .write 4096]) (block [.read 16, .either .skip .skip, .ret true])]), .read 4104, .write 2048, .read 4096, .write 32768, .write 262144, .read
    393216, .write 65536, .read 16, .either (.read 65536) .skip, .read 512, .either (block [.read 16, .either .skip .skip, .read 32768, .write 2048]) .skip, .read
    16, .either .skip .skip, .read 16, .either .skip .skip, .read 34821, .write 16384, .write 8192, .read 64, .either (block [.read 25024, .write 16384, .write
    8192]) .skip, .read 24576, .ret true]⟩,
  -- lines 164-253: data xth boxsize iterations rays_per_point verbose upper_lim bins r_min r_max n_jobs ar check_box compute_ray_length dim ht loc nn num_sz out p0
  -- r0 rand_loc ray_list rr runtime size_px t1 t2 xs ys zs
  ⟨n!"bubble_stats.averaged_mfp", 11, block [.read 8, .write 8, .read 16, .write 16, .read 4, .either (block [.write 4, .read 4]) .skip, .read 1, .write 16384,
    .write 134217728, .read 64, .either (block [.read 1, .write 1, .read 2, .write 2]) .skip, .read 3, .write 4096, .read 4096, .either (block [.read 1, .write 1,
    .write 8]) .skip, .read 16384, .either (block [.read 1, .write 2048, .read 2051, .read 2048, .write 65536, .read 65544, .write 4194304, .read 4259840, .write
    536870912, .write 1073741824, .write 2147483648, .write 8192, .read 9256, .write 8388608, .read 8388608, .write 8388608, .read 8388608, .write 67108864, .write
    262144, .read 67371008, .write 524288]) (.ret true), .read 524288, .either (.ret false) .skip, .read 8388608, .write 32768, .read 32768, .write 131072, .write
    16777216, .write 268435456, .read 402653184, .write 33554432, .read 33554432, .read 4096, .either (block [.read 16777216, .write 131072]) .skip, .read 16908293,
    .write 2097152, .write 1048576, .read 128, .either (block [.read 3146624, .write 2097152, .write 1048576]) .skip, .read 3145728, .ret true]⟩,
  -- lines 220-223: j num_szj point size_pxj
  ⟨n!"bubble_stats.averaged_mfp.compute_ray_length", 1, block [.read 1, .write 4, .read 4, .write 2, .write 8, .read 10, .ret true]⟩,
  -- lines 255-329: data point xth boxsize iterations verbose upper_lim bins r_min r_max check_box dim nn out p0 r0 rr runtime t1 t2
  ⟨n!"bubble_stats.mfp_from_point", 10, block [.read 8, .either (block [.write 8, .read 8]) .skip, .read 1, .write 2048, .write 262144, .read 64, .either (block
    [.read 1, .write 1, .read 4, .write 4]) .skip, .read 5, .write 1024, .read 1024, .either (block [.read 1, .write 1, .write 16]) .skip, .read 2048, .either (block
    [.read 55, .write 8192]) (block [.read 2048, .either (block [.read 55, .write 8192]) (.ret true)]), .read 8192, .either (.ret false) .skip, .read 8208, .write
    4096, .read 8192, .write 65536, .write 524288, .read 786432, .write 131072, .read 131072, .read 1024, .either (block [.read 65536, .write 4096]) .skip, .read
    69641, .write 32768, .write 16384, .read 128, .either (block [.read 50048, .write 32768, .write 16384]) .skip, .read 49152, .ret true]⟩,
  -- lines 332-339: rr pp bins r_min r_max fp rs
  ⟨n!"bubble_stats.rebin_bsd", 5, block [.read 3, .write 32, .read 4, .either (block [.read 8, .either (block [.read 1, .write 8]) .skip, .read 16, .either (block
    [.read 1, .write 16]) .skip, .read 28, .write 64]) (block [.read 4, .write 64]), .read 96, .ret true]⟩,
  -- lines 342-382: sizes resolution bins null_factor d_r d_v dummy ht_r ht_v radii rs vols vs
  ⟨n!"bubble_stats.dist_from_volumes", 4, block [.read 1, .write 2048, .read 2048, .write 512, .read 2052, .write 256, .read 516, .write 128, .read 256, .write 4096,
    .write 32, .read 258, .write 4096, .read 256, .read 32, .read 8, .either (block [.read 32, .write 64]) (block [.read 8, .write 64]), .read 64, .read 32, .read
    128, .write 1024, .write 16, .read 130, .write 1024, .read 128, .read 16, .read 8, .either (block [.read 16, .read 16]) (block [.read 8, .read 16]), .read 5168,
    .ret true]⟩,
  -- lines 385-400: array resolution bins sizes dist ht i label mn mx vols
  ⟨n!"bubble_stats.get_distribution", 4, block [.read 8, .either (block [.read 1, .write 8]) (block [.read 1, .write 256, .write 512, .read 512, .write 8, .read 512,
    .loop (block [.write 64, .read 64, .write 128, .read 129, .read 72, .read 128]) .skip]), .read 12, .write 32, .read 32, .write 1024, .write 16, .read 34, .write
    1024, .read 32, .read 16, .read 1048, .ret true]⟩,
  -- lines 402-414: sizes bins boxsize normalize dummy ht lg xx yy zz
  ⟨n!"bubble_stats.plot_fof_sizes", 4, block [.read 1, .write 64, .read 66, .write 32, .read 32, .write 128, .read 160, .write 256, .read 4, .either (.write 4)
    .skip, .read 8, .either (block [.read 256, .write 512]) (block [.read 260, .write 512]), .read 512, .write 16, .read 16, .read 512, .read 528, .write 512, .read
    656, .ret true]⟩,
  -- lines 416-421: n mask struct x y z
  ⟨n!"bubble_stats.disk_structure", 1, block [.read 1, .write 4, .read 1, .write 8, .write 16, .write 32, .read 57, .write 2, .read 6, .read 4, .ret true]⟩,
  -- lines 424-438: data sizes verbose n_jobs arg_sort func granulo s
  ⟨n!"bubble_stats.granulometry_CDF", 4, block [.read 1, .write 128, .read 2, .either (block [.read 128, .write 2]) .skip, .read 2, .write 2, .read 2, .write 4,
    .read 4, .either (block [.write 32, .read 42, .write 64]) .skip, .read 2, .write 16, .read 80, .ret true]⟩,
  -- lines 440-491: data xth boxsize verbose upper_lim sampling log_bins n_jobs R Rs area dFdR dFdlnR mask runtime t1 t2
  ⟨n!"bubble_stats.granulometry_bsd", 8, block [.write 32768, .read 4, .either (.write 4) .skip, .read 16, .either (block [.read 1, .write 1, .read 2, .write 2])
    .skip, .read 3, .write 8192, .read 128, .either .skip .skip, .read 8200, .write 1024, .write 2048, .write 256, .read 261, .write 512, .read 2304, .write 4096,
    .write 65536, .read 98304, .write 16384, .read 8, .either .skip .skip, .read 6656, .ret true]⟩,
  -- lines 494-538: data n_jobs verbose area area0 ball dim disk func n pattern_spectrum pixel s t1
  ⟨n!"bubble_stats._granulometry", 3, block [.write 128, .write 32, .read 1, .write 4096, .read 1, .write 64, .read 4096, .write 2048, .read 1, .write 16, .read
    2048, .write 8, .write 256, .read 2, .either (block [.read 2306, .write 8]) (block [.write 8192, .read 2048, .loop (block [.write 512, .read 4, .either (.read
    8704) .skip, .read 768, .read 520, .read 520, .either .brk .skip]) .skip]), .read 8, .write 8, .read 8, .write 1024, .read 3080, .ret true]⟩,
  -- lines 496-501: n mask struct x y
  ⟨n!"bubble_stats._granulometry.disk", 1, block [.read 1, .write 4, .read 1, .write 8, .write 16, .read 25, .write 2, .read 6, .read 4, .ret true]⟩,
  -- lines 502-507: n mask struct x y z
  ⟨n!"bubble_stats._granulometry.ball", 1, block [.read 1, .write 4, .read 1, .write 8, .write 16, .write 32, .read 57, .write 2, .read 6, .read 4, .ret true]⟩,
  -- lines 515-520: n opened_data
  ⟨n!"bubble_stats._granulometry.func", 1, block [.either (block [.read 1, .write 2]) .skip, .either (block [.read 1, .write 2]) .skip, .read 2, .ret true]⟩,
  -- lines 544-554: image h verbose dilated mask seed
  ⟨n!"bubble_stats.h_transform", 3, block [.read 4, .either .skip .skip, .read 1, .write 32, .read 1, .either (block [.read 1, .read 32]) (block [.read 1, .read
    32]), .read 1, .write 16, .read 3, .write 32, .read 48, .write 8, .read 9, .write 1, .read 4, .either .skip .skip, .read 1, .ret true]⟩,
  -- lines 556-567: image h threshold_rel footprint verbose _ coords distance distance1 labels markers mask
  ⟨n!"bubble_stats._watershed", 5, block [.read 1, .write 128, .read 2, .either (block [.read 146, .write 256]) .skip, .read 8, .either (block [.read 1, .write 8])
    .skip, .read 16, .either .skip .skip, .read 399, .write 64, .read 128, .write 2048, .read 2112, .read 2048, .write 1024, .write 32, .read 1411, .write 512, .read
    16, .either .skip .skip, .read 512, .ret true]⟩,
  -- lines 569-628: data xth boxsize verbose upper_lim h n_jobs R Rs dFdR dFdlnR ht labels mask r_list r_pixl runtime t1 t2 uniq
  ⟨n!"bubble_stats.watershed_bsd", 7, block [.write 131072, .read 4, .either (.write 4) .skip, .read 16, .either (block [.read 1, .write 1, .read 2, .write 2])
    .skip, .read 3, .write 8192, .read 64, .either .skip .skip, .read 8224, .write 4096, .read 4096, .write 524288, .read 524288, .write 16384, .read 16384, .write
    32768, .read 49152, .write 2048, .read 2048, .write 512, .write 128, .read 133, .write 256, .read 640, .write 1024, .write 262144, .read 393216, .write 65536,
    .read 1792, .ret true]⟩]

/-- The functions of `compare_constraints.py` (lines 7-365). -/
def compareConstraintsFns : List Fn := [
  -- lines 7-12: self verbose
  ⟨n!"compare_constraints.ReionizationHistory.__init__", 2, block [.read 2, .read 1, .read 1, .either .skip .skip, .read 1, .read 1]⟩,
  -- lines 14-183: self method
  ⟨n!"compare_constraints.ReionizationHistory._load_constraints", 1, block [.read 1, .write 2, .read 2, .read 1, .read 2, .read 1, .read 2, .read 1, .write 2, .read
    2, .read 1, .read 2, .read 1, .read 2, .read 1, .read 2, .read 1, .read 2, .read 1, .write 2, .read 2, .read 1, .read 2, .read 1, .read 2, .read 1, .read 2,
    .read 1, .write 2, .read 2, .read 1, .read 2, .read 1, .read 2, .read 1, .read 2, .read 1, .read 2, .read 1, .write 2, .read 2, .read 1, .read 2, .read 1, .read
    2, .read 1, .read 2, .read 1, .read 2, .read 1, .read 2, .read 1, .read 2, .read 1, .read 2, .read 1, .read 2, .read 1, .read 2, .read 1, .read 2, .read 1,
    .write 2, .read 2, .read 1, .read 2, .read 1, .read 2, .read 1, .read 2, .read 1, .read 2, .read 1, .write 2, .read 2, .read 1, .read 2, .read 1, .read 2, .read
    1, .read 1, .either (.read 1) .skip]⟩,
  -- lines 185-345: self MAPmod method zs
  ⟨n!"compare_constraints.ReionizationHistory._load_models", 1, block [.read 1, .write 4, .write 8, .read 12, .read 1, .write 4, .read 4, .read 1, .write 4, .read 4,
    .read 1, .write 4, .write 2, .read 6, .read 1, .read 1, .either (.read 1) .skip]⟩,
  -- lines 348-352: self verbose
  ⟨n!"compare_constraints.EscapeFractionLymanAlpha.__init__", 2, block [.read 2, .read 1, .read 1, .either .skip .skip, .read 1]⟩,
  -- lines 354-365: self df filename name pd
  ⟨n!"compare_constraints.EscapeFractionLymanAlpha._load_constraints", 1, block [.write 16, .read 1, .write 4, .write 8, .read 28, .write 2, .read 2, .read 9, .read
    1, .either (.read 1) .skip]⟩]

/-- The functions of `const.py` (lines 26-92). -/
def constFns : List Fn := [
  -- lines 26-29: value
  ⟨n!"const.set_abundance_helium", 1, .read 1⟩,
  -- lines 47-53: value
  ⟨n!"const.set_hubble_h", 1, .read 1⟩,
  -- lines 55-62: value
  ⟨n!"const.set_omega_matter", 1, .read 1⟩,
  -- lines 65-70: value
  ⟨n!"const.set_omega_baryon", 1, .read 1⟩,
  -- lines 72-78: value OmegaL
  ⟨n!"const.set_omega_lambda", 1, block [.read 1, .read 1, .write 2]⟩,
  -- lines 80-85: value
  ⟨n!"const.set_ns", 1, .read 1⟩,
  -- lines 87-92: value
  ⟨n!"const.set_sigma_8", 1, .read 1⟩]

/-- The functions of `conv.py` (lines 22-107). -/
def convFns : List Fn := [
  -- lines 22-67: boxsize_cMpc
  ⟨n!"conv.set_sim_constants", 1, block [.read 1, .either .skip (.either .skip (.either .skip (.either .skip (.either .skip (.either .skip (.either .skip (.either
    .skip (block [.read 1, .throw]))))))))]⟩,
  -- lines 70-80: gridpos
  ⟨n!"conv.gridpos_to_mpc", 1, block [.read 1, .ret true]⟩,
  -- lines 83-94: gridvel z
  ⟨n!"conv.gridvel_to_kms", 2, block [.read 3, .ret true]⟩,
  -- lines 97-107: grid_mass
  ⟨n!"conv.gridmass_to_msol", 1, block [.read 1, .ret true]⟩]

/-- The functions of `corr_function.py` (lines 8-177). -/
def corrFunctionFns : List Fn := [
  -- lines 8-32: ps ks rbins box_dims n_grid binning corr integ knew pnew
  ⟨n!"corr_function.ps_to_corr", 6, block [.read 4, .either (block [.read 60, .write 4]) .skip, .read 3, .write 256, .write 512, .read 772, .write 128, .read 384,
    .write 64, .read 68, .ret true]⟩,
  -- lines 34-67: input_array_nd rbins kbins box_dims binning k_binning ks n_modes ps
  ⟨n!"corr_function.correlation_function", 6, block [.read 47, .write 256, .write 64, .write 128, .read 347, .ret true]⟩,
  -- lines 69-104: input_array1_nd input_array2_nd rbins kbins box_dims binning k_binning ks n_modes ps
  ⟨n!"corr_function.cross_correlation_function", 7, block [.read 95, .write 512, .write 128, .write 256, .read 693, .ret true]⟩,
  -- lines 106-177: data randoms rbins box_dims binning kwargs DD DR RR _ data_tree distances num_data num_random point random_tree rbin_centers rmax rmin xi
  ⟨n!"corr_function.landy_szalay_estimator", 6, block [.read 8, .either (block [.write 8, .read 8]) .skip, .read 1, .either (block [.read 9, .write 1]) .skip, .read
    2, .either (block [.read 1, .write 2]) .skip, .read 4, .either (block [.read 32, .write 262144, .read 32, .write 131072, .read 262144, .either (.write 262144)
    .skip, .read 131072, .either (block [.read 8, .write 131072]) .skip, .read 16, .either (block [.read 393220, .write 4]) (block [.read 393220, .write 4])]) .skip,
    .read 4, .write 65536, .read 1, .write 1024, .read 2, .write 32768, .read 132100, .write 64, .write 512, .read 163844, .write 256, .write 512, .read 4, .write
    128, .read 1, .loop (block [.write 16384, .read 180226, .write 2048, .write 512, .read 133120, .write 2048, .read 2180, .write 128]) .skip, .read 1, .write 4096,
    .read 2, .write 8192, .read 4160, .write 64, .read 8448, .write 256, .read 12416, .write 128, .read 448, .write 524288, .read 589824, .ret true]⟩]

/-- The functions of `cosmo.py` (lines 77-372). -/
def cosmoFns : List Fn := [
  -- lines 77-94: z denom good out term1 term2 term3
  ⟨n!"cosmo._ldist", 1, block [.read 1, .write 16, .read 1, .write 32, .read 1, .write 64, .read 112, .write 2, .read 1, .either (block [.read 1, .write 8, .read 2,
    .write 4, .read 6, .read 12, .read 8, .ret true]) (block [.read 2, .either (block [.read 2, .ret true]) (.ret true)])]⟩,
  -- lines 97-128: z k denom dlum i n
  ⟨n!"cosmo.luminosity_distance", 2, block [.read 1, .either (block [.read 1, .write 1]) .skip, .read 1, .write 32, .either (block [.read 1, .write 4, .read 5,
    .write 8, .read 8, .ret true]) (block [.read 32, .write 8, .read 32, .loop (block [.write 16, .read 17, .either (.read 24) (block [.read 17, .read 24])])
    .skip]), .read 2, .either (block [.read 10, .write 8]) (block [.read 2, .either (block [.read 10, .write 8]) .skip]), .read 9, .ret true]⟩,
  -- lines 131-145: z Ez_func dist i
  ⟨n!"cosmo.z_to_cdist", 1, block [.read 1, .write 1, .read 1, .write 4, .read 1, .loop (block [.write 8, .write 2, .read 11, .read 12]) .skip, .read 4, .ret true]⟩,
  -- lines 148-173: dist func i table_cdist table_z z z_max_guess z_min_guess
  ⟨n!"cosmo.cdist_to_z", 1, block [.read 1, .write 1, .read 1, .write 32, .write 2, .read 3, .write 128, .read 3, .write 64, .read 128, .write 16, .read 80, .write
    16, .read 16, .write 8, .read 24, .write 2, .read 1, .loop (block [.write 4, .read 7, .read 36]) .skip, .read 32, .ret true]⟩,
  -- lines 175-190: z Ea_func a i tage
  ⟨n!"cosmo.z_to_age", 1, block [.read 1, .write 1, .read 1, .write 4, .read 1, .write 16, .read 4, .loop (block [.write 8, .write 2, .read 14, .read 24]) .skip,
    .read 16, .ret true]⟩,
  -- lines 192-206: dl z angle
  ⟨n!"cosmo.angular_size", 2, block [.read 3, .write 4, .read 4, .ret true]⟩,
  -- lines 209-224: cMpc z arcsec pkpc
  ⟨n!"cosmo.angular_size_comoving", 2, block [.read 3, .write 8, .read 10, .write 4, .read 4, .ret true]⟩,
  -- lines 227-239: deg z
  ⟨n!"cosmo.deg_to_cdist", 2, block [.read 3, .ret true]⟩,
  -- lines 242-252: nu21
  ⟨n!"cosmo.nu_to_z", 1, block [.read 1, .ret true]⟩,
  -- lines 255-265: z
  ⟨n!"cosmo.z_to_nu", 1, block [.read 1, .ret true]⟩,
  -- lines 268-278: nu
  ⟨n!"cosmo.nu_to_wavel", 1, block [.read 1, .ret true]⟩,
  -- lines 281-292: nu21 redsh
  ⟨n!"cosmo.nu_to_cdist", 1, block [.read 1, .write 2, .read 2, .ret true]⟩,
  -- lines 295-306: z_to_cdist z
  ⟨n!"cosmo.c_to_p", 2, block [.read 3, .ret true]⟩,
  -- lines 309-321: pdist z
  ⟨n!"cosmo.p_to_c", 2, block [.read 3, .ret true]⟩,
  -- lines 323-328: z part
  ⟨n!"cosmo.hubble_parameter", 1, block [.read 1, .write 2, .read 2, .ret true]⟩,
  -- lines 330-350: Tvir z Delc M Ok Ol Om Omz conv_fact d mu
  ⟨n!"cosmo.Tvir_to_M", 2, block [.write 64, .write 32, .read 96, .write 16, .read 114, .write 128, .read 128, .write 512, .read 512, .write 4, .write 1024, .read
    1222, .write 256, .read 257, .write 8, .read 8, .ret true]⟩,
  -- lines 352-372: M z Delc Ok Ol Om Omz Tvir conv_fact d mu
  ⟨n!"cosmo.M_to_Tvir", 2, block [.write 32, .write 16, .read 48, .write 8, .read 58, .write 64, .read 64, .write 512, .read 512, .write 4, .write 1024, .read 1126,
    .write 256, .read 257, .write 128, .read 128, .ret true]⟩]

/-- The functions of `density_file.py` (lines 20-220). -/
def densityFileFns : List Fn := [
  -- lines 20-33: self filename old_format
  ⟨n!"density_file.DensityFile.__init__", 3, block [.read 2, .either (.read 7) .skip]⟩,
  -- lines 35-72: self filename old_format conv_factor f name os temp_mesh
  ⟨n!"density_file.DensityFile.read_from_file", 3, block [.read 2, .read 2, .read 1, .read 2, .write 16, .read 4, .either (block [.read 1, .read 1, .read 1]) (block
    [.read 16, .write 128, .read 128, .read 1, .read 1, .read 1]), .read 16, .read 1, .read 1, .read 1, .read 16, .read 1, .write 8, .read 9, .read 1, .read 1,
    .attempt (block [.write 64, .read 66, .write 32, .read 4, .either (block [.read 32, .read 1]) (block [.read 32, .read 1])]) (.read 1) .skip]⟩,
  -- lines 74-126: self filename raw_density cgs_density old_format conv_factor e f temp_mesh
  ⟨n!"density_file.DensityFile.write_to_file", 5, block [.read 12, .read 4, .either (block [.read 4, .read 1, .read 1, .read 1, .read 1, .read 1, .read 1, .write 32,
    .read 33, .read 1]) .skip, .read 8, .either (block [.read 8, .read 1, .read 1, .read 1, .read 1, .read 1, .read 1, .write 32, .read 9, .read 1]) .skip, .read 2,
    .read 2, .read 1, .attempt (block [.read 2, .write 128, .read 16, .either (block [.read 1, .either (block [.read 1, .read 1, .read 1, .read 1]) .skip, .read 1,
    .write 256, .read 384]) .skip, .read 129]) (block [.write 64, .read 64, .write 64, .del 64]) .skip]⟩,
  -- lines 143-154: self filename
  ⟨n!"density_file.ClumpingFile.__init__", 2, block [.read 2, .either (.read 3) .skip]⟩,
  -- lines 156-180: self filename f name os temp_mesh
  ⟨n!"density_file.ClumpingFile.read_from_file", 2, block [.read 2, .read 2, .read 1, .read 2, .write 4, .read 4, .write 32, .read 32, .read 1, .read 1, .read 1,
    .read 4, .read 1, .read 1, .read 1, .read 4, .read 1, .read 1, .attempt (block [.write 16, .read 18, .write 8, .read 8, .read 1]) (.read 1) .skip]⟩,
  -- lines 182-220: self filename raw_clumping e f temp_mesh
  ⟨n!"density_file.ClumpingFile.write_to_file", 3, block [.read 4, .read 1, .read 1, .either (.ret false) .skip, .read 2, .read 2, .read 1, .attempt (block [.read 2,
    .write 16, .read 1, .either (block [.read 1, .read 1, .read 1, .read 1]) .skip, .read 1, .write 32, .read 48, .read 17]) (block [.write 8, .read 8, .write 8,
    .del 8]) .skip]⟩]

/-- The functions of `deprecated.py` (lines 20-133). -/
def deprecatedFns : List Fn := [
  -- lines 20-122: xfrac_dir dens_dir z_low z_high comoving_pos_idx dens_file_high dens_file_low dens_lightcone dens_redshifts dt_cube_high dt_cube_low dt_interp
  -- dt_lightcone mesh_size output_z rho_interp slice_ind xfrac_file_high xfrac_file_low xfrac_lightcone xi_interp z z_bracket_high z_bracket_high_new z_bracket_low
  -- z_bracket_low_new
  ⟨n!"deprecated.freq_box", 4, block [.read 6, .write 256, .read 258, .write 8192, .read 8204, .write 16384, .read 16640, .write 16384, .read 16640, .write 16384,
    .read 16384, .either .throw .skip, .write 262144, .write 131072, .write 64, .write 32, .write 16777216, .write 4194304, .write 16, .read 24576, .write 524288,
    .read 524288, .write 128, .read 524288, .write 4096, .read 16384, .loop (block [.write 2097152, .read 2097408, .write 33554432, .read 2097408, .write 8388608,
    .read 50331648, .either (block [.read 33554432, .write 16777216, .read 16777217, .write 262144, .read 16777218, .write 64, .read 262208, .write 1024]) .skip,
    .read 12582912, .either (block [.read 8388608, .write 4194304, .read 4194305, .write 131072, .read 4194306, .write 32, .read 131104, .write 512]) .skip, .read
    131088, .write 65536, .read 23461904, .write 1048576, .read 1048576, .read 524304, .read 23068784, .write 32768, .read 32768, .read 144, .read 23070224, .write
    2048, .read 2048, .read 4112, .read 16400, .read 16, .write 16]) .skip, .read 544896, .ret true]⟩,
  -- lines 125-126: filename bits order
  ⟨n!"deprecated.read_binary_with_meshinfo", 3, block [.read 7, .ret true]⟩,
  -- lines 129-130: filename data bits order
  ⟨n!"deprecated.save_binary_with_meshinfo", 4, .read 15⟩,
  -- lines 132-133: input_array sigma
  ⟨n!"deprecated.smooth", 2, block [.read 3, .ret true]⟩]

/-- The functions of `fft_functions.py` (lines 34-170). -/
def fftFunctionsFns : List Fn := [
  -- lines 34-170: in1 in2 mode boundary backend device F calc_axes do_pad f1 f2 fsize in1_j in1_n in1_t in2_j in2_n in2_t is_complex j_mode n_mode out_size
  -- pad_after pad_before pad_torch r1 r2 ret s1 s2 slices start t_mode target_device
  ⟨n!"fft_functions.fftconvolve", 6, block [.read 16, .write 16, .read 4, .either .throw .skip, .read 8, .either .throw .skip, .read 3, .write 268435456, .write
    536870912, .read 268435456, .write 128, .read 4, .either (block [.read 805306368, .either .throw .skip, .write 8]) .skip, .read 8, .either (block [.write 4,
    .read 805306368, .write 2048, .write 256]) (block [.read 8, .either (block [.read 805306368, .write 2048, .write 256]) (block [.write 256, .read 536870916,
    .write 8388608, .read 536870916, .write 4194304, .read 817889280, .write 2048])]), .read 16, .either (block [.either .throw .skip, .read 32, .write 8589934592,
    .read 3, .write 16384, .write 131072, .read 8589934592, .either (block [.read 16384, .either (block [.read 16384, .write 16384]) (block [.read 16384, .either
    (block [.read 16384, .write 16384]) .skip]), .read 131072, .either (block [.read 131072, .write 131072]) (block [.read 131072, .either (block [.read 131072,
    .write 131072]) .skip])]) .skip, .read 256, .either (block [.read 8, .write 4294967296, .read 12582912, .write 16777216, .write 64, .read 4311760960, .write
    16384]) .skip, .read 8590082048, .write 16384, .write 131072, .read 147456, .write 262144, .read 262144, .either (block [.read 18560, .write 33554432, .read
    133248, .write 67108864, .read 100665472, .write 134217728]) (block [.read 18560, .write 512, .read 133248, .write 1024, .read 3712, .write 134217728]), .read 8,
    .either (block [.read 671088768, .ret true]) .skip]) (block [.read 16, .either (block [.either .throw .skip, .read 33, .write 4096, .read 34, .write 32768, .read
    256, .either (block [.read 8, .write 524288, .read 13111296, .write 4096]) .skip, .read 36864, .write 262144, .read 262144, .either (block [.read 6272, .write
    33554432, .read 34944, .write 67108864, .read 100665472, .write 134217728]) (block [.read 6272, .write 512, .read 34944, .write 1024, .read 3712, .write
    134217728]), .read 8, .either (block [.read 671088768, .ret true]) .skip]) (block [.read 16, .either (block [.read 3, .write 8192, .write 65536, .read 256,
    .either (block [.read 8, .write 1048576, .read 13639680, .write 8192]) .skip, .read 73728, .write 262144, .read 262144, .either (block [.read 10368, .write
    33554432, .read 67712, .write 67108864, .read 100665472, .write 134217728]) (block [.read 10368, .write 512, .read 67712, .write 1024, .read 3712, .write
    134217728]), .read 8, .either (block [.read 671088768, .ret true]) .skip]) .skip])]), .read 256, .either (block [.read 536870912, .write 2147483648]) (block
    [.read 4, .either (block [.read 268435456, .write 2147483648]) (block [.read 4, .either (block [.read 536870912, .write 2147483648]) (block [.read 4, .either
    (block [.read 536870912, .write 2147483648]) .skip])])]), .read 805306372, .write 2097152, .read 2149580800, .write 1073741824, .read 1207959552, .ret true]⟩]

/-- The functions of `fitting_methods.py` (lines 14-83). -/
def fittingMethodsFns : List Fn := [
  -- lines 14-24: self func fit_params cv method
  ⟨n!"fitting_methods.FitFunction.__init__", 5, block [.read 2, .read 1, .read 4, .read 1, .read 8, .read 1, .read 16, .read 1, .read 1, .either .skip .skip, .read
    1]⟩,
  -- lines 26-27: self theta x_train y_train
  ⟨n!"fitting_methods.FitFunction.residual_func", 4, block [.read 15, .ret true]⟩,
  -- lines 29-32: self X y initial soln
  ⟨n!"fitting_methods.FitFunction._optimize", 3, block [.read 1, .write 8, .read 15, .write 16, .read 16, .ret true]⟩,
  -- lines 34-69: self X y cv X_test X_train best_theta bt fitted_params0 kf kk scr scrs sol soln sols test_index train_index y_test y_train
  ⟨n!"fitting_methods.FitFunction.fit", 4, block [.read 8, .either (block [.read 8, .read 1]) .skip, .read 1, .either (block [.read 7, .write 16384, .read 16384,
    .write 64, .read 64, .read 65, .loop (block [.write 128, .write 1024, .read 128, .read 1025]) .skip]) (block [.write 4096, .write 32768, .write 256, .read 1,
    .loop (block [.write 1024, .read 1280]) .skip, .read 1, .write 512, .read 514, .loop (block [.write 131072, .write 65536, .read 196610, .write 32, .write 16,
    .read 196612, .write 524288, .write 262144, .read 524321, .write 8192, .read 8192, .write 64, .read 64, .either (block [.read 65, .loop (block [.write 128,
    .write 1024, .read 1408, .read 128, .read 1025]) .skip, .read 262161, .write 2048, .read 40960, .read 6144]) .skip]) .skip, .read 1, .read 1, .loop (block
    [.write 1024, .read 5376, .read 1025, .read 5376, .read 1025]) .skip, .read 4096, .read 1])]⟩,
  -- lines 71-74: self X best_theta y_model
  ⟨n!"fitting_methods.FitFunction.predict", 2, block [.read 1, .write 4, .read 7, .write 8, .read 8, .ret true]⟩,
  -- lines 76-78: self X y
  ⟨n!"fitting_methods.FitFunction.fit_predict", 3, block [.read 7, .read 3, .ret true]⟩,
  -- lines 80-83: self X_test y_test r2 y_pred
  ⟨n!"fitting_methods.FitFunction.score", 3, block [.read 3, .write 16, .read 20, .write 8, .read 8, .ret true]⟩]

/-- The functions of `foreground_model.py` (lines 12-207). -/
def foregroundModelFns : List Fn := [
  -- lines 12-51: z ncells boxsize rseed A150 AA C_syn Da_syn T_four T_real U_cb X Y a_syn beta_ gf_data i l_cb nu nu_s solid_angle
  ⟨n!"foreground_model.galactic_synch_fg", 4, block [.read 1, .either (block [.read 1, .write 1]) (block [.read 1, .write 1]), .read 3, .write 32768, .read 8,
    .either (.read 8) .skip, .read 2, .write 2048, .read 2, .write 4096, .write 524288, .write 16, .write 16384, .write 8192, .write 128, .read 1, .loop (block
    [.write 65536, .read 65537, .write 262144, .read 65543, .write 1024, .read 1024, .write 131072, .read 942224, .write 64, .read 65541, .write 1048576, .read
    1048640, .write 32, .read 6176, .write 256, .read 256, .write 512, .read 66055, .read 98304]) .skip, .read 32768, .ret true]⟩,
  -- lines 53-93: z ncells boxsize rseed S_max N S_nu S_s Ss alpha_ps dS exgf_data i nu nu_s p solid_angle x y
  ⟨n!"foreground_model.extragalactic_pointsource_fg", 5, block [.read 1, .either (block [.read 1, .write 1]) (block [.read 1, .write 1]), .read 3, .write 2048,
    .write 1024, .write 16384, .read 5, .write 65536, .read 1040, .write 256, .read 66816, .write 32, .read 8, .either (.read 8) .skip, .read 34, .write 131072,
    .write 262144, .read 32, .write 512, .read 288, .write 128, .read 1, .loop (block [.write 4096, .read 4097, .write 8192, .read 25216, .write 64, .read 64, .loop
    (block [.write 32768, .read 36935, .read 432128]) .skip]) .skip, .read 2048, .ret true]⟩,
  -- lines 96-123: z ncells array boxsize mu funct small_base a b filt i k0 k2 kmin kpp kpr ss
  ⟨n!"foreground_model.diabolo_filter", 7, block [.read 32, .read 6, .read 8, .either (.write 8) .skip, .read 4, .either (block [.read 4, .write 2]) .skip, .read 2,
    .write 512, .read 10, .write 2048, .read 2048, .write 128, .read 2048, .loop (block [.write 1024, .read 2176, .write 128]) .skip, .read 2048, .write 256, .read
    2048, .loop (block [.write 1024, .read 2304, .write 256]) .skip, .read 384, .write 4096, .read 65, .write 8192, .read 2, .loop (block [.write 1024, .read 3072,
    .write 16384, .read 16400, .write 32768, .read 32, .either (block [.read 36864, .write 65536]) (block [.read 4096, .write 65536, .read 102400]), .read 77824,
    .read 65536, .read 1536]) .skip, .read 6, .either (block [.read 518, .write 512]) .skip, .read 32, .read 512, .ret true]⟩,
  -- lines 125-142: z ncells array boxsize k_par_min small_base a b filt i k0 k2 ss
  ⟨n!"foreground_model.barrel_filter", 6, block [.read 6, .read 8, .either (.write 8) .skip, .read 4, .either (block [.read 4, .write 2]) .skip, .read 10, .write
    1024, .read 1024, .write 64, .read 1024, .loop (block [.write 512, .read 1088, .write 64]) .skip, .read 1024, .write 128, .read 1024, .loop (block [.write 512,
    .read 1152, .write 128]) .skip, .read 192, .write 2048, .read 16, .either (block [.read 33, .write 16]) .skip, .read 2048, .write 4096, .read 6160, .read 2,
    .write 256, .read 2, .loop (block [.write 512, .read 256, .read 768]) .skip, .read 6, .either (block [.read 262, .write 256]) .skip, .read 256, .ret true]⟩,
  -- lines 144-149: dt z mu funct boxsize filt apply_filt dt_new fft_dt
  ⟨n!"foreground_model.remove_wedge_image", 6, block [.read 32, .either (block [.read 31, .write 32]) .skip, .read 1, .write 256, .read 288, .write 64, .read 64,
    .write 128, .read 128, .ret true]⟩,
  -- lines 152-207: lightcone redshifts cell_size chunk_length OMm buffer_threshold BM Box_final Box_uv MF W bm box_shape buffer delta_k empty_box i k k_cube k_par
  -- k_parallel k_perp multiplicative_factor one_over_E t_box w
  ⟨n!"foreground_model.rolling_wedge_removal_lightcone", 6, block [.write 8388608, .write 4194304, .read 4, .either (block [.read 1, .write 4]) .skip, .read 8,
    .either (block [.read 1, .write 8]) .skip, .read 16, .either (.write 16) .skip, .read 1, .write 256, .read 2, .write 2, .read 4194322, .write 512, .read 5,
    .write 131072, .read 12, .write 1048576, .read 1048576, .write 16384, .read 1179648, .write 262144, .read 262144, .write 2097152, .write 524288, .read 8, .write
    2048, .read 18464, .write 8192, .read 8192, .write 8192, .read 8, .write 64, .read 256, .write 4096, .read 4096, .write 128, .read 262144, .write 32768, .read
    33024, .write 256, .read 4104, .loop (block [.write 65536, .read 65800, .write 16777216, .read 16777280, .write 16777216, .read 2699784, .write 1024, .read 1024,
    .write 33554432, .read 50331656, .read 65672]) .skip, .read 128, .ret true]⟩,
  -- lines 168-169: z OMm
  ⟨n!"foreground_model.rolling_wedge_removal_lightcone.one_over_E", 2, block [.read 3, .ret true]⟩,
  -- lines 170-171: z OMm
  ⟨n!"foreground_model.rolling_wedge_removal_lightcone.multiplicative_factor", 2, block [.read 3, .ret true]⟩]

/-- The functions of `gaussian_random_field.py` (lines 12-121). -/
def gaussianRandomFieldFns : List Fn := [
  -- lines 12-62: dims box_dims power_spectrum random_seed boxvol k k_comp map_ft map_ft_imag map_ft_real map_ift map_real pixelsize scale_factor
  ⟨n!"gaussian_random_field.make_gaussian_random_field", 4, block [.read 1, .read 8, .either (.read 8) .skip, .read 1, .write 512, .read 1, .write 256, .read 768,
    .write 128, .read 514, .write 2, .read 3, .read 514, .write 64, .write 32, .read 32, .read 32, .read 2, .write 16, .read 528, .write 4096, .read 4112, .write
    8192, .read 8356, .write 128, .read 128, .write 1024, .read 1024, .write 2048, .read 2048, .ret true]⟩,
  -- lines 65-89: input_field box_dims kbins random_seed ps_k random_field
  ⟨n!"gaussian_random_field.make_gaussian_random_field_like_field", 4, block [.read 7, .write 16, .read 27, .write 32, .read 32, .ret true]⟩,
  -- lines 92-102: input_field box_dims kbins k_input n_modes ps_input ps_k
  ⟨n!"gaussian_random_field._get_ps_func_for_field", 3, block [.read 7, .write 32, .write 8, .write 16, .read 56, .write 64, .read 64, .ret true]⟩,
  -- lines 104-121: input_array kwargs ft ft_abs ft_new ft_phi output_array
  ⟨n!"gaussian_random_field.fourier_phase_shuffled", 2, block [.read 1, .write 4, .read 4, .write 8, .read 4, .write 32, .read 32, .read 40, .write 16, .read 16,
    .write 64, .read 64, .ret true]⟩]

/-- The functions of `halo_list.py` (lines 13-540). -/
def haloListFns : List Fn := [
  -- lines 13-21: self
  ⟨n!"halo_list.Halo.__init__", 1, block [.read 1, .read 1, .read 1, .read 1, .read 1, .read 1, .read 1, .read 1]⟩,
  -- lines 29-37: self filename mass_def max_select_number startline
  ⟨n!"halo_list.HaloRockstar.__init__", 5, block [.read 1, .read 4, .read 1, .read 2, .either (.read 11) .skip]⟩,
  -- lines 39-113: self filename max_select_number U a cosm fileinput halo header idx_l idx_m idx_pos idx_r idx_vel idx_vrms line linenumber lnr_cosm lnr_part
  -- lnr_vals vals
  ⟨n!"halo_list.HaloRockstar.read_from_file", 3, block [.read 2, .read 2, .read 1, .write 64, .write 8, .read 66, .loop (block [.write 65536, .write 32768, .read
    65536, .either (block [.read 32768, .write 256, .read 1, .either (block [.read 256, .write 2048, .read 256, .write 8192, .read 256, .write 512, .read 256, .write
    16384, .read 257, .write 4096, .read 257, .write 1024, .write 131072, .write 262144, .write 524288]) (block [.read 1, .either (block [.read 256, .write 2048,
    .read 256, .write 8192, .read 256, .write 512, .read 256, .write 16384, .read 257, .write 4096, .read 257, .write 1024, .write 131072, .write 262144, .write
    524288]) .skip])]) (block [.read 65536, .either (block [.read 32768, .write 16, .read 16, .read 1]) (block [.read 196608, .either (block [.read 32768, .write 32,
    .read 32, .read 1, .read 1, .read 1]) (block [.read 327680, .either (block [.read 32768, .read 1]) (block [.read 589824, .either (block [.read 32768, .write
    1048576, .read 5, .either (block [.write 128, .read 1050624, .read 128, .read 1056768, .read 128, .read 128, .read 128, .read 1049088, .read 128, .read 1064960,
    .read 128, .read 1052672, .read 128, .read 1049600, .read 128, .read 129, .read 128, .read 129]) .brk]) .skip])])])])]) .skip, .read 64, .ret true]⟩,
  -- lines 115-130: self var data
  ⟨n!"halo_list.HaloRockstar.get", 2, block [.read 2, .either (block [.read 1, .write 4]) (block [.read 2, .either (block [.read 1, .write 4]) (block [.read 2,
    .either (block [.read 1, .write 4]) (block [.read 2, .either (block [.read 1, .write 4]) (block [.read 2, .either (block [.read 1, .write 4]) (block [.read 2,
    .either (block [.read 1, .write 4]) (block [.read 2, .either (block [.read 1, .write 4]) .skip])])])])])]), .read 4, .ret true]⟩,
  -- lines 141-174: self filename box_len output_len min_select_mass max_select_mass max_select_number startline
  ⟨n!"halo_list.HaloCubeP3MFull.__init__", 8, block [.read 1, .read 4, .either .skip (block [.read 4, .read 4, .read 1, .read 1]), .read 8, .either (block [.read 8,
    .read 1]) .skip, .read 2, .either (block [.read 2, .read 1, .read 243]) .skip]⟩,
  -- lines 176-261: self filename min_select_mass max_select_mass max_select_number startline fileinput grid_mass halo halo_mass_1 line linenumber
  -- max_select_grid_mass min_select_grid_mass name os skipped_lines tstart vals var_x
  ⟨n!"halo_list.HaloCubeP3MFull.read_from_file", 6, block [.read 1, .read 2, .read 2, .read 1, .write 64, .write 32768, .read 32770, .write 16384, .read 16384, .read
    1, .write 2048, .write 65536, .write 131072, .read 4, .write 8192, .read 8, .either (block [.read 8, .read 8, .write 4096]) .skip, .read 66, .loop (block [.write
    1024, .read 2080, .either (block [.read 2048, .write 2048, .cont]) .skip, .read 17, .either (block [.read 64, .ret true]) .skip, .read 2048, .either (.read
    133120) .skip, .read 2048, .write 2048, .read 1024, .write 262144, .read 262144, .either (block [.read 65536, .write 65536, .cont]) .skip, .read 262144, .write
    128, .read 12424, .either (block [.write 256, .read 262145, .read 256, .read 262145, .read 256, .read 262145, .read 256, .read 262145, .read 256, .read 262145,
    .read 256, .read 262144, .read 256, .read 262144, .read 256, .read 262144, .write 512, .read 262144, .write 524288, .read 128, .read 256, .read 257]) .skip])
    .skip, .read 64, .read 2048, .read 65536, .read 131072, .ret true]⟩,
  -- lines 263-276: self var data
  ⟨n!"halo_list.HaloCubeP3MFull.get", 2, block [.read 2, .either (block [.read 1, .write 4]) (block [.read 2, .either (block [.read 1, .write 4]) (block [.read 2,
    .either (block [.read 1, .write 4]) (block [.read 2, .either (block [.read 1, .write 4]) (block [.read 2, .either (block [.read 1, .write 4]) (block [.read 2,
    .either (block [.read 1, .write 4]) .skip])])])])]), .read 4, .ret true]⟩,
  -- lines 278-284: self pos i val
  ⟨n!"halo_list.HaloCubeP3MFull._reposition", 2, block [.read 2, .loop (block [.write 4, .write 8, .read 8, .either (block [.read 9, .read 6]) (block [.read 9,
    .either (block [.read 9, .read 6]) .skip])]) .skip, .read 2, .ret true]⟩,
  -- lines 310-323: self filespath z node mass_def pid_flag cosm_unit
  ⟨n!"halo_list.HaloCubeP3M.__init__", 7, block [.read 1, .read 4, .either .throw .skip, .read 2, .either (block [.read 2, .write 2, .read 127]) .throw]⟩,
  -- lines 325-329: self file halo_odc halo_vir nhalo
  ⟨n!"halo_list.HaloCubeP3M._get_header", 2, block [.read 2, .write 16, .read 2, .write 8, .write 4, .read 28, .ret true]⟩,
  -- lines 332-342: self pos Lbox i new_pos val
  ⟨n!"halo_list.HaloCubeP3M._reposition", 2, block [.write 4, .read 2, .write 16, .read 2, .loop (block [.write 8, .write 32, .read 32, .either (block [.read 36,
    .read 24]) (block [.read 36, .either (block [.read 36, .read 24]) .skip])]) .skip, .read 16, .ret true]⟩,
  -- lines 345-413: self filespath z node mass_def pid_flag cosm_unit _ f filesname fn halo halo_odc halo_vir i mass_odc mass_vir nhalo_node pid_halo_node r_odc
  -- r_vir var_x xv_halo_node
  ⟨n!"halo_list.HaloCubeP3M.read_from_file", 7, block [.read 2, .read 1, .read 4, .read 1, .read 8, .either (block [.read 3, .write 512]) (block [.read 8, .read 11,
    .write 512]), .read 1, .read 512, .loop (block [.write 1024, .read 1024, .write 256, .read 257, .write 131072, .write 8192, .write 4096, .read 131073, .read
    131072, .loop (block [.write 16384, .write 2048, .read 256, .read 2048, .read 256, .write 65536, .write 32768, .write 1048576, .write 524288, .read 16, .either
    (block [.read 65536, .read 2048, .read 1048576, .read 2048]) (block [.read 32768, .read 2048, .read 524288, .read 2048]), .read 2048, .read 256, .read 2048,
    .read 256, .read 2048, .read 256, .read 2048, .read 256, .read 2048, .read 256, .write 2097152, .read 32, .either (block [.read 256, .write 262144, .read 256,
    .write 4194304]) (block [.read 256, .write 128]), .read 64, .either (block [.read 2049, .read 2048, .read 2048, .read 2048, .read 2048, .read 2048, .read 2049,
    .read 2048, .read 2049, .read 2048, .read 2049, .read 2048, .read 2049, .read 2048]) .skip, .read 2049]) .skip]) .skip, .ret true]⟩,
  -- lines 415-430: self var data
  ⟨n!"halo_list.HaloCubeP3M.get", 2, block [.read 2, .either (block [.read 1, .write 4]) (block [.read 2, .either (block [.read 1, .write 4]) (block [.read 2,
    .either (block [.read 1, .write 4]) (block [.read 2, .either (block [.read 1, .write 4]) (block [.read 2, .either (block [.read 1, .write 4]) (block [.read 2,
    .either (block [.read 1, .write 4]) (block [.read 2, .either (block [.read 1, .write 4]) .skip])])])])])]), .read 4, .ret true]⟩,
  -- lines 444-466: self filename min_select_mass max_select_mass max_select_number startline
  ⟨n!"halo_list.HaloList.__init__", 6, block [.read 1, .read 2, .either (.read 63) .skip]⟩,
  -- lines 468-540: self filename min_select_mass max_select_mass max_select_number startline fileinput grid_mass halo halo_mass_1 line linenumber
  -- max_select_grid_mass min_select_grid_mass name os vals var_x
  ⟨n!"halo_list.HaloList.read_from_file", 6, block [.read 1, .read 2, .read 2, .read 1, .write 64, .write 32768, .read 32770, .write 16384, .read 16384, .read 1,
    .write 2048, .read 4, .write 8192, .read 8, .either (block [.read 8, .read 8, .write 4096]) .skip, .read 66, .loop (block [.write 1024, .read 2080, .either
    (block [.read 2048, .write 2048, .cont]) .skip, .read 17, .either (block [.read 64, .ret true]) .skip, .read 2048, .either (.read 2048) .skip, .read 2048, .write
    2048, .read 1024, .write 65536, .read 65536, .write 128, .read 12424, .either (block [.write 256, .read 65536, .read 256, .read 65536, .read 256, .read 65536,
    .read 256, .read 65536, .read 256, .read 65536, .read 256, .read 65536, .read 256, .read 65536, .read 256, .read 65536, .write 512, .read 65536, .write 131072,
    .read 128, .read 256, .read 257]) .skip]) .skip, .read 64, .ret true]⟩]

/-- The functions of the files of this part (for example `Friends_of_Friends.py` lines 17-56). -/
def part1 : List Fn := friendsOfFriendsFns ++ viteBettiFns ++ angularCoordinatesFns ++ applyMpiLyaCFns ++ astroToolsFns ++ beamConvolveFns ++ bispectrumFns ++
  boxCountingFns ++ bubbleStatsFns ++ compareConstraintsFns ++ constFns ++ convFns ++ corrFunctionFns ++ cosmoFns ++ densityFileFns ++ deprecatedFns ++
  fftFunctionsFns ++ fittingMethodsFns ++ foregroundModelFns ++ gaussianRandomFieldFns ++ haloListFns

end Verif.Locals

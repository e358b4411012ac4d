import Verif.Model.Calls
/-!
# The signatures of the functions of the modules, and their calls of each other

Extracted from the syntax trees of `src/tools21cm/*.py`: for each function, method or constructor of a module that another one calls by its name, as an attribute of
a module or of `self`, the parameters (without `self`), the number of those without a default, and whether there are `*args` and `**kwargs`; for each call the function that calls,
the one that is called, the number of positional arguments and the keywords.  The script `apply_mpi_lya_c.py` and the three calls with `*` or `**` arguments are left out.
-/

namespace Verif.Calls

/-- Signatures in `Friends_of_Friends.py` (lines 1-94). -/
def sigs_Friends_of_Friends : List (Ident × Sig) :=
  [(n!"Friends_of_Friends.FoF_search", ⟨[n!"array", n!"threshold"], 2, false, false⟩),
   (n!"Friends_of_Friends.gaussian", ⟨[n!"dx", n!"sig"], 2, false, false⟩)]

/-- Signatures in `ViteBetti.py` (lines 1-263). -/
def sigs_ViteBetti : List (Ident × Sig) :=
  [(n!"ViteBetti.CubeMap", ⟨[n!"arr", n!"multi_marker"], 1, false, false⟩),
   (n!"ViteBetti.CubeMap_joblib", ⟨[n!"arr", n!"multi_marker", n!"n_jobs"], 1, false, false⟩),
   (n!"ViteBetti.CubeMap_torch", ⟨[n!"arr", n!"multi_marker", n!"verbose"], 1, false, false⟩)]

/-- Signatures in `angular_coordinates.py` (lines 1-355). -/
def sigs_angular_coordinates : List (Ident × Sig) :=
  [(n!"angular_coordinates._get_padded_slice", ⟨[n!"input_slice", n!"padded_n"], 2, false, false⟩),
   (n!"angular_coordinates.angular_slice_to_physical", ⟨[n!"input_slice", n!"z", n!"slice_size_deg", n!"output_cell_size", n!"output_size_mpc", n!"order", n!"prefilter"], 5, false, false⟩),
   (n!"angular_coordinates.bin_lightcone_in_frequency", ⟨[n!"lightcone", n!"z_low", n!"box_size_mpc", n!"dnu"], 4, false, false⟩),
   (n!"angular_coordinates.bin_lightcone_in_mpc", ⟨[n!"lightcone", n!"frequencies", n!"cell_size_mpc"], 3, false, false⟩),
   (n!"angular_coordinates.physical_slice_to_angular", ⟨[n!"input_slice", n!"z", n!"slice_size_mpc", n!"fov_deg", n!"dtheta", n!"order"], 5, false, false⟩),
   (n!"angular_coordinates.resample_slice", ⟨[n!"input_slice", n!"n_output_cells", n!"order", n!"prefilter"], 2, false, false⟩)]

/-- Signatures in `bispectrum.py` (lines 1-335). -/
def sigs_bispectrum : List (Ident × Sig) :=
  [
   (n!"bispectrum.Bispectrum.bispectrum_fast", ⟨[n!"input_array_fft", n!"k1", n!"k2", n!"k3", n!"dk1", n!"dk2", n!"dk3", n!"box_dims", n!"k_mag", n!"return_n_modes", n!"binning"], 7, false, false⟩),
   (n!"bispectrum.Bispectrum.cosine_rule", ⟨[n!"k1", n!"k2", n!"alpha"], 3, false, false⟩),
   (n!"bispectrum.Bispectrum.spherical_shell_mask", ⟨[n!"array_shape", n!"k_center", n!"k_width", n!"k_comp", n!"k_mag"], 3, false, false⟩),
   (n!"bispectrum.BispectrumPylians", ⟨[n!"input_array", n!"box_dims", n!"verbose", n!"n_jobs", n!"MAS"], 1, false, false⟩),
   (n!"bispectrum.fft_nd", ⟨[n!"input_array", n!"box_dims", n!"verbose"], 1, false, false⟩)]

/-- Signatures in `box_counting.py` (lines 1-32). -/
def sigs_box_counting : List (Ident × Sig) :=
  [(n!"box_counting.box_count_sliding", ⟨[n!"data", n!"size", n!"q", n!"window"], 3, false, false⟩),
   (n!"box_counting.get_kernel", ⟨[n!"size", n!"window"], 2, false, false⟩)]

/-- Signatures in `bubble_stats.py` (lines 1-630). -/
def sigs_bubble_stats : List (Ident × Sig) :=
  [(n!"bubble_stats._granulometry", ⟨[n!"data", n!"n_jobs", n!"verbose"], 1, false, false⟩),
   (n!"bubble_stats._watershed", ⟨[n!"image", n!"h", n!"threshold_rel", n!"footprint", n!"verbose"], 1, false, false⟩),
   (n!"bubble_stats.disk_structure", ⟨[n!"n"], 1, false, false⟩), (n!"bubble_stats.fof", ⟨[n!"data", n!"xth", n!"connectivity"], 1, false, false⟩),
   (n!"bubble_stats.h_transform", ⟨[n!"image", n!"h", n!"verbose"], 2, false, false⟩),
   (n!"bubble_stats.rebin_bsd", ⟨[n!"rr", n!"pp", n!"bins", n!"r_min", n!"r_max"], 2, false, false⟩)]

/-- Signatures in `compare_constraints.py` (lines 1-467). -/
def sigs_compare_constraints : List (Ident × Sig) :=
  [(n!"compare_constraints.EscapeFractionLymanAlpha._load_constraints", ⟨[], 0, false, false⟩),
   (n!"compare_constraints.ReionizationHistory._load_constraints", ⟨[], 0, false, false⟩),
   (n!"compare_constraints.ReionizationHistory._load_models", ⟨[], 0, false, false⟩)]

/-- Signatures in `conv.py` (lines 1-108). -/
def sigs_conv : List (Ident × Sig) :=
  [(n!"conv.gridmass_to_msol", ⟨[n!"grid_mass"], 1, false, false⟩), (n!"conv.gridpos_to_mpc", ⟨[n!"gridpos"], 1, false, false⟩),
   (n!"conv.gridvel_to_kms", ⟨[n!"gridvel", n!"z"], 2, false, false⟩), (n!"conv.set_sim_constants", ⟨[n!"boxsize_cMpc"], 1, false, false⟩)]

/-- Signatures in `corr_function.py` (lines 1-183). -/
def sigs_corr_function : List (Ident × Sig) :=
  [(n!"corr_function.ps_to_corr", ⟨[n!"ps", n!"ks", n!"rbins", n!"box_dims", n!"n_grid", n!"binning"], 2, false, false⟩)]

/-- Signatures in `cosmo.py` (lines 1-374). -/
def sigs_cosmo : List (Ident × Sig) :=
  [(n!"cosmo.angular_size", ⟨[n!"dl", n!"z"], 2, false, false⟩), (n!"cosmo.angular_size_comoving", ⟨[n!"cMpc", n!"z"], 2, false, false⟩),
   (n!"cosmo.c_to_p", ⟨[n!"z_to_cdist", n!"z"], 2, false, false⟩), (n!"cosmo.cdist_to_z", ⟨[n!"dist"], 1, false, false⟩),
   (n!"cosmo.deg_to_cdist", ⟨[n!"deg", n!"z"], 2, false, false⟩), (n!"cosmo.hubble_parameter", ⟨[n!"z"], 1, false, false⟩),
   (n!"cosmo.luminosity_distance", ⟨[n!"z", n!"k"], 1, false, false⟩), (n!"cosmo.nu_to_cdist", ⟨[n!"nu21"], 1, false, false⟩),
   (n!"cosmo.nu_to_wavel", ⟨[n!"nu"], 1, false, false⟩), (n!"cosmo.nu_to_z", ⟨[n!"nu21"], 1, false, false⟩),
   (n!"cosmo.z_to_cdist", ⟨[n!"z"], 1, false, false⟩), (n!"cosmo.z_to_nu", ⟨[n!"z"], 1, false, false⟩)]

/-- Signatures in `density_file.py` (lines 1-220). -/
def sigs_density_file : List (Ident × Sig) :=
  [(n!"density_file.ClumpingFile.read_from_file", ⟨[n!"filename"], 1, false, false⟩),
   (n!"density_file.DensityFile", ⟨[n!"filename", n!"old_format"], 0, false, false⟩),
   (n!"density_file.DensityFile.read_from_file", ⟨[n!"filename", n!"old_format"], 1, false, false⟩)]

/-- Signatures in `fft_functions.py` (lines 1-251). -/
def sigs_fft_functions : List (Ident × Sig) :=
  [(n!"fft_functions.fftconvolve", ⟨[n!"in1", n!"in2", n!"mode", n!"boundary", n!"backend", n!"device"], 2, false, false⟩)]

/-- Signatures in `fitting_methods.py` (lines 1-83). -/
def sigs_fitting_methods : List (Ident × Sig) :=
  [(n!"fitting_methods.FitFunction._optimize", ⟨[n!"X", n!"y"], 2, false, false⟩),
   (n!"fitting_methods.FitFunction.fit", ⟨[n!"X", n!"y", n!"cv"], 2, false, false⟩), (n!"fitting_methods.FitFunction.predict", ⟨[n!"X"], 1, false, false⟩),
   (n!"fitting_methods.FitFunction.score", ⟨[n!"X_test", n!"y_test"], 2, false, false⟩)]

/-- Signatures in `foreground_model.py` (lines 1-208). -/
def sigs_foreground_model : List (Ident × Sig) :=
  [(n!"foreground_model.diabolo_filter", ⟨[n!"z", n!"ncells", n!"array", n!"boxsize", n!"mu", n!"funct", n!"small_base"], 1, false, false⟩)]

/-- Signatures in `gaussian_random_field.py` (lines 1-121). -/
def sigs_gaussian_random_field : List (Ident × Sig) :=
  [(n!"gaussian_random_field._get_ps_func_for_field", ⟨[n!"input_field", n!"box_dims", n!"kbins"], 2, false, false⟩),
   (n!"gaussian_random_field.make_gaussian_random_field", ⟨[n!"dims", n!"box_dims", n!"power_spectrum", n!"random_seed"], 3, false, false⟩)]

/-- Signatures in `halo_list.py` (lines 1-541). -/
def sigs_halo_list : List (Ident × Sig) :=
  [(n!"halo_list.Halo", ⟨[], 0, false, false⟩), (n!"halo_list.HaloCubeP3M._get_header", ⟨[n!"file"], 1, false, false⟩),
   (n!"halo_list.HaloCubeP3M._reposition", ⟨[n!"pos"], 1, false, false⟩),
   (n!"halo_list.HaloCubeP3M.read_from_file", ⟨[n!"filespath", n!"z", n!"node", n!"mass_def", n!"pid_flag", n!"cosm_unit"], 6, false, false⟩),
   (n!"halo_list.HaloCubeP3MFull._reposition", ⟨[n!"pos"], 1, false, false⟩),
   (n!"halo_list.HaloCubeP3MFull.read_from_file", ⟨[n!"filename", n!"min_select_mass", n!"max_select_mass", n!"max_select_number", n!"startline"], 1, false, false⟩),
   (n!"halo_list.HaloList.read_from_file", ⟨[n!"filename", n!"min_select_mass", n!"max_select_mass", n!"max_select_number", n!"startline"], 1, false, false⟩),
   (n!"halo_list.HaloRockstar.read_from_file", ⟨[n!"filename", n!"max_select_number"], 1, false, false⟩)]

/-- Signatures in `helper_functions.py` (lines 1-640). -/
def sigs_helper_functions : List (Ident × Sig) :=
  [(n!"helper_functions._get_redshifts_in_range", ⟨[n!"redshifts", n!"z_low", n!"z_high", n!"bracket"], 4, false, false⟩),
   (n!"helper_functions.determine_filetype", ⟨[n!"filename"], 1, false, false⟩),
   (n!"helper_functions.determine_redshift_from_filename", ⟨[n!"filename"], 1, false, false⟩),
   (n!"helper_functions.find_idx", ⟨[n!"ar", n!"values"], 2, false, false⟩), (n!"helper_functions.flt_comp", ⟨[n!"x", n!"y", n!"epsilon"], 2, false, false⟩),
   (n!"helper_functions.get_data_and_type", ⟨[n!"indata", n!"cbin_bits", n!"cbin_order", n!"raw_density"], 1, false, false⟩),
   (n!"helper_functions.get_dens_redshifts", ⟨[n!"dens_dir", n!"z_low", n!"z_high", n!"bracket"], 1, false, false⟩),
   (n!"helper_functions.get_eval", ⟨[], 0, false, false⟩),
   (n!"helper_functions.get_interpolated_array", ⟨[n!"in_array", n!"new_len", n!"kind"], 2, false, false⟩),
   (n!"helper_functions.get_mesh_size", ⟨[n!"filename"], 1, false, false⟩), (n!"helper_functions.outputify", ⟨[n!"output"], 1, false, false⟩),
   (n!"helper_functions.print_msg", ⟨[n!"message", n!"print_time"], 1, false, false⟩),
   (n!"helper_functions.read_cbin", ⟨[n!"filename", n!"bits", n!"order", n!"dimensions", n!"records"], 1, false, false⟩),
   (n!"helper_functions.save_cbin", ⟨[n!"filename", n!"data", n!"bits", n!"order"], 2, false, false⟩),
   (n!"helper_functions.save_fits", ⟨[n!"data", n!"filename", n!"header"], 2, false, false⟩),
   (n!"helper_functions.save_raw_binary", ⟨[n!"filename", n!"data", n!"bits", n!"order"], 2, false, false⟩)]

/-- Signatures in `identify_regions.py` (lines 1-184). -/
def sigs_identify_regions : List (Ident × Sig) :=
  [(n!"identify_regions.threshold_kmeans", ⟨[n!"cube", n!"upper_lim", n!"mean_remove", n!"n_jobs"], 1, false, false⟩),
   (n!"identify_regions.threshold_kmeans_3cluster", ⟨[n!"cube", n!"upper_lim", n!"n_jobs"], 1, false, false⟩)]

/-- Signatures in `irate_file.py` (lines 1-71). -/
def sigs_irate_file : List (Ident × Sig) :=
  [(n!"irate_file.IonRateFile.read_from_file", ⟨[n!"filename", n!"old_format", n!"binary_format"], 1, false, false⟩)]

/-- Signatures in `lightcone.py` (lines 1-569). -/
def sigs_lightcone : List (Ident × Sig) :=
  [(n!"lightcone._all_same", ⟨[n!"items"], 1, false, false⟩), (n!"lightcone._get_file_redshifts", ⟨[n!"redshifts_in", n!"filenames"], 2, false, false⟩),
   (n!"lightcone._get_filenames", ⟨[n!"filenames_in"], 1, false, false⟩),
   (n!"lightcone._get_interp_slice", ⟨[n!"data_high", n!"data_low", n!"z_bracket_high", n!"z_bracket_low", n!"z", n!"comoving_pos_idx", n!"los_axis", n!"interpolation"], 7, false, false⟩),
   (n!"lightcone._get_output_z", ⟨[n!"file_redshifts", n!"z_low", n!"z_high", n!"box_grid_n", n!"box_length_mpc", n!"dnu"], 4, false, false⟩),
   (n!"lightcone._get_slice", ⟨[n!"data", n!"idx", n!"los_axis", n!"slice_depth"], 3, false, false⟩),
   (n!"lightcone._get_step_transitions", ⟨[n!"cell_dist", n!"diff_idx"], 2, false, false⟩),
   (n!"lightcone._get_step_weighted_slice", ⟨[n!"slice_low", n!"slice_high", n!"z_bracket_high", n!"z_bracket_low", n!"z"], 5, false, false⟩),
   (n!"lightcone.make_lightcone", ⟨[n!"filenames", n!"z_low", n!"z_high", n!"depth_mhz", n!"file_redshifts", n!"cbin_bits", n!"cbin_order", n!"los_axis", n!"raw_density", n!"interpolation", n!"reading_function", n!"box_length_mpc"], 1, false, false⟩),
   (n!"lightcone.redshifts_at_equal_comoving_distance", ⟨[n!"z_low", n!"z_high", n!"box_grid_n", n!"box_length_mpc"], 2, false, false⟩),
   (n!"lightcone.redshifts_at_equal_frequncy_width", ⟨[n!"z_low", n!"z_high", n!"dnu"], 3, false, false⟩)]

/-- Signatures in `lyman_alpha_coupling.py` (lines 1-181). -/
def sigs_lyman_alpha_coupling : List (Ident × Sig) :=
  [(n!"lyman_alpha_coupling._get_profile", ⟨[n!"z", n!"lam", n!"lum", n!"boxsize", n!"ncells", n!"r_min", n!"r_max"], 7, false, false⟩),
   (n!"lyman_alpha_coupling._get_xc", ⟨[n!"sources", n!"engs", n!"ncells", n!"mass_axis", n!"time_taken"], 3, false, false⟩),
   (n!"lyman_alpha_coupling._read_halofile", ⟨[n!"filename", n!"z"], 1, false, false⟩),
   (n!"lyman_alpha_coupling.one_source", ⟨[n!"z", n!"ncells", n!"boxsize", n!"source_pos", n!"mass", n!"sed_func"], 6, false, false⟩)]

/-- Signatures in `lyman_alpha_transmission.py` (lines 1-338). -/
def sigs_lyman_alpha_transmission : List (Ident × Sig) :=
  [(n!"lyman_alpha_transmission.approximation_voigt_faddeeva", ⟨[n!"x", n!"a"], 2, false, false⟩),
   (n!"lyman_alpha_transmission.tau_nu_lyA_FGPA", ⟨[n!"z", n!"xHI", n!"dn", n!"f_alpha", n!"lambda_alpha", n!"k_res", n!"X_H", n!"cosmo"], 3, false, false⟩)]

/-- Signatures in `mfp_np.py` (lines 1-173). -/
def sigs_mfp_np : List (Ident × Sig) :=
  [(n!"mfp_np._ray3d", ⟨[n!"ar", n!"xs", n!"ys", n!"zs", n!"ls", n!"ms", n!"ns", n!"verbose"], 8, false, false⟩),
   (n!"mfp_np.mfp2d", ⟨[n!"arr", n!"xth", n!"iterations", n!"verbose", n!"point"], 1, false, false⟩),
   (n!"mfp_np.mfp3d", ⟨[n!"arr", n!"xth", n!"iterations", n!"verbose", n!"point"], 1, false, false⟩)]

/-- Signatures in `model_21cmfast.py` (lines 1-108). -/
def sigs_model_21cmfast : List (Ident × Sig) :=
  [(n!"model_21cmfast._is_py21cmfast_installed", ⟨[], 0, false, false⟩)]

/-- Signatures in `morph.py` (lines 1-55). -/
def sigs_morph : List (Ident × Sig) :=
  [(n!"morph._erode_v2", ⟨[n!"A", n!"B"], 2, false, false⟩), (n!"morph.binary_dilation", ⟨[n!"A", n!"B"], 2, false, false⟩),
   (n!"morph.binary_erosion", ⟨[n!"A", n!"B"], 2, false, false⟩), (n!"morph.binary_opening", ⟨[n!"image", n!"structure"], 1, false, false⟩)]

/-- Signatures in `nbody_file.py` (lines 1-321). -/
def sigs_nbody_file : List (Ident × Sig) :=
  [(n!"nbody_file.Halo2Grid", ⟨[n!"box_len", n!"n_grid", n!"method"], 2, false, false⟩),
   (n!"nbody_file.Halo2Grid.pos_cm_to_grid", ⟨[n!"pos_cm"], 1, false, false⟩),
   (n!"nbody_file.Halo2Grid.pos_mpc_to_grid", ⟨[n!"pos_mpc"], 1, false, false⟩),
   (n!"nbody_file.Halo2Grid.value_on_grid", ⟨[n!"positions", n!"values"], 2, false, true⟩),
   (n!"nbody_file.NbodyFile._get_header", ⟨[n!"f"], 1, false, false⟩), (n!"nbody_file.NbodyFile.get_npart", ⟨[], 0, false, false⟩),
   (n!"nbody_file.NbodyFile.read_from_file", ⟨[n!"node"], 0, false, false⟩), (n!"nbody_file.NbodyParticle", ⟨[], 0, false, false⟩),
   (n!"nbody_file.halo_list_to_grid", ⟨[n!"mass", n!"pos_xyz", n!"box_dim", n!"n_grid"], 4, false, false⟩)]

/-- Signatures in `nbody_pkdgrav.py` (lines 1-291). -/
def sigs_nbody_pkdgrav : List (Ident × Sig) :=
  [(n!"nbody_pkdgrav.HaloCataloguePkdgrav3._read_fof_data", ⟨[n!"filename", n!"z", n!"dtype"], 1, false, false⟩),
   (n!"nbody_pkdgrav.HaloCataloguePkdgrav3.array_fof_data", ⟨[n!"dtype"], 0, false, false⟩),
   (n!"nbody_pkdgrav.Pkdgrav3data", ⟨[n!"box_len", n!"nGrid", n!"Omega_m", n!"rho_c", n!"verbose"], 1, false, false⟩),
   (n!"nbody_pkdgrav.ReaderPkdgrav3.dLightSpeedSim", ⟨[n!"dMpcUnit"], 1, false, false⟩)]

/-- Signatures in `nbody_tools.py` (lines 1-51). -/
def sigs_nbody_tools : List (Ident × Sig) :=
  [(n!"nbody_tools._set_cosmo", ⟨[n!"cosmo"], 1, false, false⟩),
   (n!"nbody_tools.particle_number_to_particle_mass", ⟨[n!"Lbox", n!"particle_each_direction", n!"particle_total", n!"cosmo"], 1, false, false⟩)]

/-- Signatures in `numba_functions.py` (lines 1-173). -/
def sigs_numba_functions : List (Ident × Sig) :=
  [(n!"numba_functions.earth_rotation_effect", ⟨[n!"Nbase", n!"slice_num", n!"int_time", n!"declination"], 3, false, false⟩),
   (n!"numba_functions.from_antenna_config", ⟨[n!"filename", n!"z", n!"nu"], 2, false, false⟩),
   (n!"numba_functions.get_uv_coverage", ⟨[n!"Nbase", n!"z", n!"ncells", n!"boxsize"], 3, false, false⟩)]

/-- Signatures in `plotting.py` (lines 1-548). -/
def sigs_plotting : List (Ident × Sig) :=
  [(n!"plotting.DistributionDiagnostic._calculate_base_metrics", ⟨[n!"points", n!"weights"], 2, false, false⟩),
   (n!"plotting.DistributionDiagnostic._get_default_param_labels", ⟨[n!"num_params"], 1, false, false⟩),
   (n!"plotting.DistributionDiagnostic._get_distribution_label", ⟨[n!"label"], 1, false, false⟩),
   (n!"plotting.DistributionDiagnostic._plot_corner_backend", ⟨[n!"levels"], 0, false, true⟩),
   (n!"plotting.DistributionDiagnostic._plot_getdist_backend", ⟨[n!"levels"], 0, false, true⟩),
   (n!"plotting.print_chain_stats", ⟨[n!"samples_dict", n!"weights_dict", n!"param_names"], 3, false, false⟩)]

/-- Signatures in `position_dependent_power_spectrum.py` (lines 1-150). -/
def sigs_position_dependent_power_spectrum : List (Ident × Sig) :=
  [(n!"position_dependent_power_spectrum._W_L", ⟨[n!"array", n!"rL", n!"L"], 3, false, false⟩),
   (n!"position_dependent_power_spectrum.integrated_bispectrum_cross", ⟨[n!"cube1", n!"cube2", n!"Ncuts", n!"kbins", n!"box_dims", n!"binning", n!"normalize", n!"verbose"], 2, false, false⟩)]

/-- Signatures in `power_spect_fast.py` (lines 1-366). -/
def sigs_power_spect_fast : List (Ident × Sig) :=
  [(n!"power_spect_fast._get_k", ⟨[n!"input_array", n!"box_dims"], 2, false, false⟩),
   (n!"power_spect_fast.horizon_wedge_equation", ⟨[n!"z", n!"fov_deg"], 1, false, false⟩),
   (n!"power_spect_fast.power_spect_1d", ⟨[n!"input_array", n!"kbins", n!"binning", n!"box_dims", n!"return_modes", n!"kmin", n!"kmax"], 1, false, false⟩),
   (n!"power_spect_fast.power_spect_nd", ⟨[n!"input_array", n!"box_dims", n!"verbose"], 2, false, false⟩)]

/-- Signatures in `power_spectrum.py` (lines 1-614). -/
def sigs_power_spectrum : List (Ident × Sig) :=
  [(n!"power_spectrum._get_dims", ⟨[n!"box_dims", n!"ashape"], 2, false, false⟩),
   (n!"power_spectrum._get_k", ⟨[n!"input_array", n!"box_dims"], 2, false, false⟩),
   (n!"power_spectrum._get_kbins", ⟨[n!"kbins", n!"box_dims", n!"k", n!"binning", n!"breakpoint", n!"kmin", n!"kmax"], 3, false, false⟩),
   (n!"power_spectrum._get_mu", ⟨[n!"k_comp", n!"k", n!"los_axis", n!"absolute_mus"], 4, false, false⟩),
   (n!"power_spectrum._get_nonzero_idx", ⟨[n!"ps_shape", n!"los_axis"], 2, false, false⟩),
   (n!"power_spectrum.apply_window", ⟨[n!"input_array", n!"window"], 2, false, false⟩),
   (n!"power_spectrum.cross_power_spectrum_1d", ⟨[n!"input_array1_nd", n!"input_array2_nd", n!"kbins", n!"box_dims", n!"return_n_modes", n!"binning", n!"breakpoint"], 2, false, true⟩),
   (n!"power_spectrum.cross_power_spectrum_nd", ⟨[n!"input_array1", n!"input_array2", n!"box_dims"], 3, false, true⟩),
   (n!"power_spectrum.mu_binning", ⟨[n!"powerspectrum", n!"los_axis", n!"mubins", n!"kbins", n!"box_dims", n!"weights", n!"exclude_zero_modes", n!"binning", n!"absolute_mus"], 1, false, false⟩),
   (n!"power_spectrum.power_spectrum_1d", ⟨[n!"input_array_nd", n!"kbins", n!"box_dims", n!"return_n_modes", n!"binning", n!"breakpoint", n!"window"], 1, false, true⟩),
   (n!"power_spectrum.power_spectrum_mu", ⟨[n!"input_array", n!"los_axis", n!"mubins", n!"kbins", n!"box_dims", n!"weights", n!"exclude_zero_modes", n!"return_n_modes", n!"absolute_mus"], 1, false, true⟩),
   (n!"power_spectrum.power_spectrum_nd", ⟨[n!"input_array", n!"box_dims", n!"verbose"], 1, false, true⟩),
   (n!"power_spectrum.radial_average", ⟨[n!"input_array", n!"box_dims", n!"kbins", n!"binning", n!"breakpoint"], 2, false, true⟩)]

/-- Signatures in `primary_beam.py` (lines 1-104). -/
def sigs_primary_beam : List (Ident × Sig) :=
  [(n!"primary_beam.circular_beam", ⟨[n!"ncells", n!"z", n!"D_station", n!"beam_func", n!"boxsize", n!"l_null"], 2, false, false⟩),
   (n!"primary_beam.primary_beam_null", ⟨[n!"z", n!"D_station"], 1, false, false⟩)]

/-- Signatures in `pv_mpm.py` (lines 1-159). -/
def sigs_pv_mpm : List (Ident × Sig) :=
  [(n!"pv_mpm.get_distorted_dt", ⟨[n!"dT", n!"kms", n!"redsh", n!"los_axis", n!"velocity_axis", n!"num_particles", n!"periodic"], 3, false, false⟩)]

/-- Signatures in `radio_telescope_calibration.py` (lines 1-720). -/
def sigs_radio_telescope_calibration : List (Ident × Sig) :=
  [
   (n!"radio_telescope_calibration._grid_uv_lagrangian_tracks_with_antenna_stamp", ⟨[n!"Nbase", n!"ant_tag", n!"ant_tag_uv_map", n!"z", n!"ncells", n!"time_idx", n!"boxsize", n!"include_mirror_baselines", n!"verbose"], 6, false, false⟩),
   (n!"radio_telescope_calibration._grid_uv_tracks_with_antenna_stamp", ⟨[n!"Nbase", n!"ant_tag", n!"ant_tag_uv_map", n!"z", n!"ncells", n!"time_idx", n!"boxsize", n!"include_mirror_baselines", n!"verbose"], 6, false, false⟩),
   (n!"radio_telescope_calibration._grid_uv_tracks_with_gains", ⟨[n!"Nbase", n!"gain_vals", n!"gain_uv_map", n!"z", n!"ncells", n!"boxsize", n!"include_mirror_baselines", n!"verbose"], 5, false, false⟩),
   (n!"radio_telescope_calibration.from_antenna_config_with_antenna_stamp", ⟨[n!"antxyz", n!"z", n!"nu"], 2, false, false⟩),
   (n!"radio_telescope_calibration.from_antenna_config_with_gains", ⟨[n!"antxyz", n!"z", n!"nu", n!"gain_model"], 2, false, false⟩)]

/-- Signatures in `radio_telescope_layout.py` (lines 1-564). -/
def sigs_radio_telescope_layout : List (Ident × Sig) :=
  [(n!"radio_telescope_layout.SKA1_LowConfig_Sept2016", ⟨[], 0, false, false⟩),
   (n!"radio_telescope_layout.earth_rotation_effect", ⟨[n!"Nbase", n!"slice_nums", n!"int_time", n!"total_int_time", n!"declination"], 4, false, false⟩),
   (n!"radio_telescope_layout.ecef_to_xyz", ⟨[n!"ecef", n!"lon_deg", n!"origin_ecef"], 3, false, false⟩),
   (n!"radio_telescope_layout.enu_to_ecef", ⟨[n!"enu", n!"lat_deg", n!"lon_deg", n!"origin_ecef"], 4, false, false⟩),
   (n!"radio_telescope_layout.from_antenna_config", ⟨[n!"antxyz", n!"z", n!"nu"], 2, false, false⟩),
   (n!"radio_telescope_layout.geographic_to_cartesian_coordinate_system", ⟨[n!"antll"], 1, false, false⟩),
   (n!"radio_telescope_layout.get_SKA_Low_layout", ⟨[n!"subarray_type", n!"unit", n!"verbose"], 0, false, false⟩),
   (n!"radio_telescope_layout.get_uv_daily_observation", ⟨[n!"ncells", n!"z", n!"antxyz", n!"total_int_time", n!"int_time", n!"boxsize", n!"declination", n!"include_mirror_baselines", n!"verbose"], 2, false, false⟩),
   (n!"radio_telescope_layout.grid_uv_tracks", ⟨[n!"Nbase", n!"z", n!"ncells", n!"boxsize", n!"include_mirror_baselines"], 3, false, false⟩),
   (n!"radio_telescope_layout.subarray_type_to_antxyz", ⟨[n!"subarray_type", n!"verbose"], 1, false, false⟩)]

/-- Signatures in `radio_telescope_noise.py` (lines 1-921). -/
def sigs_radio_telescope_noise : List (Ident × Sig) :=
  [(n!"radio_telescope_noise._suppress_sharp_features_uv_map", ⟨[n!"uv_map", n!"boxsize", n!"method", n!"filter_param"], 1, false, false⟩),
   (n!"radio_telescope_noise.apply_uv_response_noise", ⟨[n!"noise", n!"uv_map", n!"boxsize", n!"uv_weighting", n!"uv_map_min", n!"suppress_sharp_features_uv_map"], 2, false, false⟩),
   (n!"radio_telescope_noise.apply_uv_response_on_image", ⟨[n!"array", n!"uv_map"], 2, false, false⟩),
   (n!"radio_telescope_noise.gauss_kernel_3d", ⟨[n!"size", n!"sigma", n!"fwhm"], 1, false, false⟩),
   (n!"radio_telescope_noise.get_uv_map", ⟨[n!"ncells", n!"z", n!"subarray_type", n!"total_int_time", n!"int_time", n!"boxsize", n!"declination", n!"include_mirror_baselines", n!"verbose", n!"max_baseline"], 2, false, false⟩),
   (n!"radio_telescope_noise.get_uv_map_lightcone", ⟨[n!"ncells", n!"zs", n!"subarray_type", n!"total_int_time", n!"int_time", n!"boxsize", n!"declination", n!"save_uvmap", n!"n_jobs", n!"verbose", n!"checkpoint"], 2, false, false⟩),
   (n!"radio_telescope_noise.ifft2_wrap", ⟨[n!"nn1"], 1, false, false⟩),
   (n!"radio_telescope_noise.max_baseline_to_max_k", ⟨[n!"redshift", n!"max_baseline"], 2, false, false⟩),
   (n!"radio_telescope_noise.noise_lightcone", ⟨[n!"ncells", n!"zs", n!"obs_time", n!"subarray_type", n!"boxsize", n!"save_uvmap", n!"total_int_time", n!"int_time", n!"declination", n!"uv_weighting", n!"fft_wrap", n!"verbose", n!"n_jobs", n!"checkpoint", n!"T_sys", n!"sefd_data", n!"nu_data", n!"D_station", n!"ep_aperture", n!"suppress_sharp_features_uv_map"], 2, false, false⟩),
   (n!"radio_telescope_noise.noise_map", ⟨[n!"ncells", n!"z", n!"depth_mhz", n!"obs_time", n!"subarray_type", n!"boxsize", n!"total_int_time", n!"int_time", n!"declination", n!"uv_map", n!"N_ant", n!"uv_weighting", n!"T_sys", n!"sefd_data", n!"nu_data", n!"D_station", n!"ep_aperture", n!"fft_wrap", n!"verbose", n!"suppress_sharp_features_uv_map"], 3, false, false⟩),
   (n!"radio_telescope_noise.signal_window", ⟨[n!"ncells", n!"method", n!"ndim", n!"extra_param"], 2, false, false⟩)]

/-- Signatures in `radio_telescope_sensitivity.py` (lines 1-253). -/
def sigs_radio_telescope_sensitivity : List (Ident × Sig) :=
  [
   (n!"radio_telescope_sensitivity.get_SEFD", ⟨[n!"nu_obs", n!"T_sys", n!"sefd_data", n!"nu_data", n!"D_station", n!"ep_aperture", n!"verbose"], 1, false, false⟩),
   (n!"radio_telescope_sensitivity.jansky_2_kelvin", ⟨[n!"array", n!"z", n!"boxsize", n!"ncells"], 2, false, false⟩),
   (n!"radio_telescope_sensitivity.kelvin_jansky_conversion", ⟨[n!"ncells", n!"z", n!"boxsize"], 2, false, false⟩),
   (n!"radio_telescope_sensitivity.sigma_noise_radio", ⟨[n!"z", n!"depth_mhz", n!"obs_time", n!"int_time", n!"uv_map", n!"N_ant", n!"verbose", n!"T_sys", n!"sefd_data", n!"nu_data", n!"D_station", n!"ep_aperture"], 4, false, false⟩)]

/-- Signatures in `read_files.py` (lines 1-380). -/
def sigs_read_files : List (Ident × Sig) :=
  [(n!"read_files._load_binary_data", ⟨[n!"filename", n!"dtype"], 1, false, false⟩),
   (n!"read_files.coeval_dens_c2ray", ⟨[n!"dens_dir", n!"z"], 2, false, false⟩),
   (n!"read_files.coeval_xfrac_c2ray", ⟨[n!"xfrac_dir", n!"z", n!"interpolation"], 2, false, false⟩),
   (n!"read_files.get_package_resource_path", ⟨[n!"package_name", n!"resource_path"], 2, false, false⟩),
   (n!"read_files.read_dictionary_data", ⟨[n!"filename", n!"format"], 1, false, false⟩),
   (n!"read_files.write_dictionary_data", ⟨[n!"data_dict", n!"filename", n!"format"], 2, false, false⟩)]

/-- Signatures in `scipy_func.py` (lines 1-21). -/
def sigs_scipy_func : List (Ident × Sig) :=
  [(n!"scipy_func.numpy_product", ⟨[], 0, true, true⟩)]

/-- Signatures in `segmentation.py` (lines 1-207). -/
def sigs_segmentation : List (Ident × Sig) :=
  [(n!"segmentation.segunet21cm.IndependentOperations", ⟨[n!"verbose"], 0, false, false⟩),
   (n!"segmentation.segunet21cm.UniqueRows", ⟨[n!"arr"], 1, false, false⟩), (n!"segmentation.segunet21cm.load_model", ⟨[], 0, false, false⟩),
   (n!"segmentation.sigmoid_balanced_cross_entropy_with_logits", ⟨[n!"_sentinel", n!"labels", n!"logits", n!"beta", n!"name"], 0, false, false⟩)]

/-- Signatures in `smoothing.py` (lines 1-658). -/
def sigs_smoothing : List (Ident × Sig) :=
  [
   (n!"smoothing.convolve_uvmap", ⟨[n!"array", n!"z", n!"uv_map", n!"max_baseline", n!"box_size_mpc", n!"filename", n!"total_int_time", n!"int_time", n!"declination", n!"verbose"], 1, false, false⟩),
   (n!"smoothing.gauss_kernel", ⟨[n!"size", n!"sigma", n!"fwhm"], 1, false, false⟩), (n!"smoothing.get_beam_w", ⟨[n!"baseline", n!"z"], 2, false, false⟩),
   (n!"smoothing.interpolate2d", ⟨[n!"input_array", n!"x", n!"y", n!"order"], 3, false, false⟩),
   (n!"smoothing.lanczos_kernel", ⟨[n!"size", n!"kernel_width"], 2, false, false⟩),
   (n!"smoothing.remove_baselines_from_uvmap", ⟨[n!"uv_map", n!"z", n!"max_baseline", n!"box_size_mpc"], 2, false, false⟩),
   (n!"smoothing.smooth_coeval_gauss", ⟨[n!"cube", n!"fwhm", n!"nu_axis"], 3, false, false⟩),
   (n!"smoothing.smooth_coeval_tophat", ⟨[n!"cube", n!"width", n!"nu_axis", n!"verbose"], 3, false, false⟩),
   (n!"smoothing.smooth_gauss", ⟨[n!"input_array", n!"sigma", n!"fwhm"], 1, false, false⟩),
   (n!"smoothing.smooth_lightcone_gauss", ⟨[n!"lightcone", n!"fwhm", n!"nu_axis"], 2, false, false⟩),
   (n!"smoothing.smooth_lightcone_tophat", ⟨[n!"lightcone", n!"redshifts", n!"dz", n!"verbose"], 3, false, false⟩),
   (n!"smoothing.smooth_tophat", ⟨[n!"input_array", n!"tophat_width"], 2, false, false⟩),
   (n!"smoothing.smooth_with_kernel", ⟨[n!"input_array", n!"kernel"], 2, false, false⟩),
   (n!"smoothing.tophat_kernel", ⟨[n!"size", n!"tophat_width"], 2, false, false⟩)]

/-- Signatures in `source_file.py` (lines 1-159). -/
def sigs_source_file : List (Ident × Sig) :=
  [(n!"source_file.SourceFile.read_from_file", ⟨[n!"filename", n!"old_format"], 1, false, false⟩)]

/-- Signatures in `spa_np.py` (lines 1-43). -/
def sigs_spa_np : List (Ident × Sig) :=
  [(n!"spa_np.spa_np", ⟨[n!"data", n!"xth", n!"nscales", n!"binning", n!"verbose", n!"use_fftconvolve"], 1, false, false⟩)]

/-- Signatures in `statistics.py` (lines 1-167). -/
def sigs_statistics : List (Ident × Sig) :=
  [(n!"statistics._get_slice", ⟨[n!"data", n!"idx", n!"los_axis", n!"slice_depth"], 3, false, false⟩),
   (n!"statistics.subtract_mean_signal", ⟨[n!"signal", n!"los_axis"], 1, false, false⟩)]

/-- Signatures in `superpixels.py` (lines 1-236). -/
def sigs_superpixels : List (Ident × Sig) :=
  [(n!"superpixels.apply_operator_labelled_data", ⟨[n!"data", n!"labels", n!"operator", n!"verbose"], 2, false, false⟩),
   (n!"superpixels.get_combined_mean_std", ⟨[n!"means", n!"sigmas", n!"ns"], 3, false, false⟩),
   (n!"superpixels.get_superpixel_SNRs", ⟨[n!"means", n!"sigmas", n!"n_pix", n!"data", n!"labels", n!"slic_segments", n!"pixels"], 0, false, false⟩),
   (n!"superpixels.get_superpixel_means", ⟨[n!"data", n!"labels", n!"slic_segments", n!"verbose"], 1, false, false⟩),
   (n!"superpixels.get_superpixel_n_pixels", ⟨[n!"data", n!"labels", n!"slic_segments", n!"verbose"], 1, false, false⟩),
   (n!"superpixels.get_superpixel_pixels", ⟨[n!"data", n!"labels", n!"slic_segments", n!"verbose"], 0, false, false⟩),
   (n!"superpixels.get_superpixel_sigmas", ⟨[n!"data", n!"labels", n!"slic_segments", n!"verbose"], 1, false, false⟩),
   (n!"superpixels.slic_cube", ⟨[n!"cube", n!"n_segments", n!"compactness", n!"max_iter", n!"sigma", n!"min_size_factor", n!"max_size_factor", n!"cmap", n!"verbose"], 1, false, false⟩),
   (n!"superpixels.stitch_superpixels", ⟨[n!"data", n!"labels", n!"bins", n!"binary", n!"on_superpixel_map", n!"verbose"], 2, false, false⟩),
   (n!"superpixels.stitch_using_histogram", ⟨[n!"data", n!"mns", n!"labels", n!"bins", n!"binary", n!"on_superpixel_map", n!"verbose"], 3, false, false⟩),
   (n!"superpixels.superpixel_map", ⟨[n!"data", n!"labels", n!"mns", n!"verbose"], 2, false, false⟩)]

/-- Signatures in `temper_file.py` (lines 1-67). -/
def sigs_temper_file : List (Ident × Sig) :=
  [(n!"temper_file.TemperFile.read_from_file", ⟨[n!"filename", n!"old_format"], 1, false, false⟩)]

/-- Signatures in `temperature.py` (lines 1-275). -/
def sigs_temperature : List (Ident × Sig) :=
  [(n!"temperature._dt", ⟨[n!"rho", n!"xi", n!"z"], 3, false, false⟩), (n!"temperature._dt_full", ⟨[n!"rho", n!"xi", n!"Ts", n!"z", n!"correct"], 5, false, false⟩),
   (n!"temperature.calc_dt", ⟨[n!"xfrac", n!"dens", n!"z"], 2, false, false⟩), (n!"temperature.mean_dt", ⟨[n!"z"], 1, false, false⟩)]

/-- Signatures in `test_case.py` (lines 1-122). -/
def sigs_test_case : List (Ident × Sig) :=
  [(n!"test_case.paint_kernel", ⟨[n!"cube", n!"positions", n!"kernel"], 3, false, false⟩)]

/-- Signatures in `topology.py` (lines 1-209). -/
def sigs_topology : List (Ident × Sig) :=
  [(n!"topology.EulerCharacteristic", ⟨[n!"data", n!"thres", n!"neighbors", n!"speed_up", n!"verbose", n!"n_jobs"], 1, false, false⟩),
   (n!"topology.betti0", ⟨[n!"data", n!"thres", n!"neighbors"], 1, false, false⟩),
   (n!"topology.betti2", ⟨[n!"data", n!"thres", n!"neighbors"], 1, false, false⟩), (n!"topology.count_neighbors", ⟨[n!"data", n!"stela"], 2, false, false⟩),
   (n!"topology.count_neighbors_once", ⟨[n!"data", n!"stela"], 2, false, false⟩)]

/-- Signatures in `usefuls.py` (lines 1-135). -/
def sigs_usefuls : List (Ident × Sig) :=
  [(n!"usefuls.Mgrid_2_Msolar", ⟨[n!"M"], 1, false, false⟩), (n!"usefuls.coeval_dens", ⟨[n!"dens_dir", n!"z", n!"interpolation"], 2, false, false⟩),
   (n!"usefuls.coeval_xfrac", ⟨[n!"xfrac_dir", n!"z", n!"interpolation"], 2, false, false⟩), (n!"usefuls.loading_msg", ⟨[n!"msg"], 1, false, false⟩),
   (n!"usefuls.loading_verbose", ⟨[n!"string"], 1, false, false⟩)]

/-- Signatures in `vel_file.py` (lines 1-133). -/
def sigs_vel_file : List (Ident × Sig) :=
  [(n!"vel_file.VelocityFile", ⟨[n!"filename"], 0, false, false⟩), (n!"vel_file.VelocityFile.read_from_file", ⟨[n!"filename"], 1, false, false⟩)]

/-- Signatures in `xfrac_file.py` (lines 1-138). -/
def sigs_xfrac_file : List (Ident × Sig) :=
  [(n!"xfrac_file.XfracFile", ⟨[n!"filename", n!"old_format", n!"neutral", n!"binary_format"], 0, false, false⟩),
   (n!"xfrac_file.XfracFile.read_from_file", ⟨[n!"filename", n!"old_format", n!"neutral", n!"binary_format"], 1, false, false⟩)]

/-- All signatures. -/
def sigs : List (Ident × Sig) :=
  sigs_Friends_of_Friends ++ sigs_ViteBetti ++ sigs_angular_coordinates ++ sigs_bispectrum ++ sigs_box_counting ++ sigs_bubble_stats ++ sigs_compare_constraints ++ sigs_conv ++ sigs_corr_function ++ sigs_cosmo ++ sigs_density_file ++ sigs_fft_functions ++ sigs_fitting_methods ++ sigs_foreground_model ++ sigs_gaussian_random_field ++ sigs_halo_list ++ sigs_helper_functions ++ sigs_identify_regions ++ sigs_irate_file ++ sigs_lightcone ++ sigs_lyman_alpha_coupling ++ sigs_lyman_alpha_transmission ++ sigs_mfp_np ++ sigs_model_21cmfast ++ sigs_morph ++ sigs_nbody_file ++ sigs_nbody_pkdgrav ++ sigs_nbody_tools ++ sigs_numba_functions ++ sigs_plotting ++ sigs_position_dependent_power_spectrum ++ sigs_power_spect_fast ++ sigs_power_spectrum ++ sigs_primary_beam ++ sigs_pv_mpm ++ sigs_radio_telescope_calibration ++ sigs_radio_telescope_layout ++ sigs_radio_telescope_noise ++ sigs_radio_telescope_sensitivity ++ sigs_read_files ++ sigs_scipy_func ++ sigs_segmentation ++ sigs_smoothing ++ sigs_source_file ++ sigs_spa_np ++ sigs_statistics ++ sigs_superpixels ++ sigs_temper_file ++ sigs_temperature ++ sigs_test_case ++ sigs_topology ++ sigs_usefuls ++ sigs_vel_file ++ sigs_xfrac_file

/-- Calls in `Friends_of_Friends.py` (lines 79-79). -/
def calls_Friends_of_Friends : List Call :=
  [⟨n!"Friends_of_Friends.halo3d", n!"Friends_of_Friends.gaussian", 2, []⟩]

/-- Calls in `angular_coordinates.py` (lines 69-323). -/
def calls_angular_coordinates : List Call :=
  [⟨n!"angular_coordinates.physical_lightcone_to_observational", n!"cosmo.z_to_cdist", 1, []⟩,
   ⟨n!"angular_coordinates.physical_lightcone_to_observational", n!"cosmo.cdist_to_z", 1, []⟩,
   ⟨n!"angular_coordinates.physical_lightcone_to_observational", n!"cosmo.angular_size_comoving", 2, []⟩,
   ⟨n!"angular_coordinates.physical_lightcone_to_observational", n!"angular_coordinates.bin_lightcone_in_frequency", 4, []⟩,
   ⟨n!"angular_coordinates.physical_lightcone_to_observational", n!"cosmo.nu_to_z", 1, []⟩,
   ⟨n!"angular_coordinates.physical_lightcone_to_observational", n!"angular_coordinates.physical_slice_to_angular", 2, [n!"slice_size_mpc", n!"fov_deg", n!"dtheta", n!"order"]⟩,
   ⟨n!"angular_coordinates.observational_lightcone_to_physical", n!"cosmo.nu_to_z", 1, []⟩,
   ⟨n!"angular_coordinates.observational_lightcone_to_physical", n!"cosmo.angular_size_comoving", 2, []⟩,
   ⟨n!"angular_coordinates.observational_lightcone_to_physical", n!"cosmo.nu_to_cdist", 1, []⟩,
   ⟨n!"angular_coordinates.observational_lightcone_to_physical", n!"helper_functions.print_msg", 1, []⟩,
   ⟨n!"angular_coordinates.observational_lightcone_to_physical", n!"angular_coordinates.angular_slice_to_physical", 2, [n!"slice_size_deg", n!"output_cell_size", n!"output_size_mpc", n!"order"]⟩,
   ⟨n!"angular_coordinates.observational_lightcone_to_physical", n!"angular_coordinates.bin_lightcone_in_mpc", 3, []⟩,
   ⟨n!"angular_coordinates.physical_slice_to_angular", n!"cosmo.deg_to_cdist", 2, []⟩,
   ⟨n!"angular_coordinates.physical_slice_to_angular", n!"angular_coordinates.resample_slice", 3, []⟩,
   ⟨n!"angular_coordinates.physical_slice_to_angular", n!"angular_coordinates._get_padded_slice", 2, []⟩,
   ⟨n!"angular_coordinates.angular_slice_to_physical", n!"cosmo.deg_to_cdist", 2, []⟩,
   ⟨n!"angular_coordinates.angular_slice_to_physical", n!"angular_coordinates.resample_slice", 4, []⟩,
   ⟨n!"angular_coordinates.resample_slice", n!"smoothing.smooth_tophat", 2, []⟩,
   ⟨n!"angular_coordinates.resample_slice", n!"smoothing.interpolate2d", 3, [n!"order"]⟩,
   ⟨n!"angular_coordinates.bin_lightcone_in_frequency", n!"cosmo.z_to_cdist", 1, []⟩,
   ⟨n!"angular_coordinates.bin_lightcone_in_frequency", n!"cosmo.cdist_to_z", 1, []⟩,
   ⟨n!"angular_coordinates.bin_lightcone_in_frequency", n!"cosmo.z_to_nu", 1, []⟩,
   ⟨n!"angular_coordinates.bin_lightcone_in_frequency", n!"cosmo.nu_to_cdist", 1, []⟩,
   ⟨n!"angular_coordinates.bin_lightcone_in_frequency", n!"helper_functions.print_msg", 1, []⟩,
   ⟨n!"angular_coordinates.bin_lightcone_in_frequency", n!"helper_functions.find_idx", 2, []⟩,
   ⟨n!"angular_coordinates.bin_lightcone_in_mpc", n!"cosmo.nu_to_cdist", 1, []⟩,
   ⟨n!"angular_coordinates.bin_lightcone_in_mpc", n!"helper_functions.find_idx", 2, []⟩,
   ⟨n!"angular_coordinates.bin_lightcone_in_mpc", n!"cosmo.cdist_to_z", 1, []⟩]

/-- Calls in `beam_convolve.py` (lines 34-46). -/
def calls_beam_convolve : List Call :=
  [⟨n!"beam_convolve.beam_convolve", n!"smoothing.get_beam_w", 2, []⟩, ⟨n!"beam_convolve.beam_convolve", n!"cosmo.angular_size", 2, []⟩,
   ⟨n!"beam_convolve.beam_convolve", n!"helper_functions.print_msg", 1, []⟩,
   ⟨n!"beam_convolve.beam_convolve", n!"smoothing.gauss_kernel", 0, [n!"sigma", n!"size"]⟩]

/-- Calls in `bispectrum.py` (lines 33-323). -/
def calls_bispectrum : List Call :=
  [⟨n!"bispectrum.fft_nd", n!"power_spectrum._get_dims", 2, []⟩, ⟨n!"bispectrum.fft_nd", n!"power_spectrum._get_k", 2, []⟩,
   ⟨n!"bispectrum.Bispectrum.__init__", n!"power_spectrum._get_dims", 2, []⟩,
   ⟨n!"bispectrum.Bispectrum.bispectrum_fast", n!"scipy_func.numpy_product", 1, []⟩,
   ⟨n!"bispectrum.Bispectrum.bispectrum_fast", n!"bispectrum.Bispectrum.spherical_shell_mask", 3, [n!"k_mag"]⟩,
   ⟨n!"bispectrum.Bispectrum.bispectrum_k1k2", n!"power_spectrum.apply_window", 2, []⟩,
   ⟨n!"bispectrum.Bispectrum.bispectrum_k1k2", n!"power_spectrum._get_dims", 2, []⟩,
   ⟨n!"bispectrum.Bispectrum.bispectrum_k1k2", n!"bispectrum.fft_nd", 1, [n!"box_dims", n!"verbose"]⟩,
   ⟨n!"bispectrum.Bispectrum.bispectrum_k1k2", n!"bispectrum.Bispectrum.cosine_rule", 3, []⟩,
   ⟨n!"bispectrum.Bispectrum.bispectrum_k1k2.run_loop", n!"bispectrum.Bispectrum.bispectrum_fast", 7, [n!"k_mag", n!"box_dims", n!"return_n_modes", n!"binning"]⟩,
   ⟨n!"bispectrum.Bispectrum.bispectrum_k", n!"power_spectrum.apply_window", 2, []⟩,
   ⟨n!"bispectrum.Bispectrum.bispectrum_k", n!"power_spectrum._get_dims", 2, []⟩,
   ⟨n!"bispectrum.Bispectrum.bispectrum_k", n!"bispectrum.fft_nd", 1, [n!"box_dims", n!"verbose"]⟩,
   ⟨n!"bispectrum.Bispectrum.bispectrum_k", n!"power_spectrum._get_kbins", 3, [n!"binning", n!"kmax", n!"kmin"]⟩,
   ⟨n!"bispectrum.Bispectrum.bispectrum_k.run_loop", n!"bispectrum.Bispectrum.bispectrum_fast", 7, [n!"k_mag", n!"box_dims", n!"return_n_modes", n!"binning"]⟩,
   ⟨n!"bispectrum.BispectrumPylians.__init__", n!"power_spectrum._get_dims", 2, []⟩,
   ⟨n!"bispectrum.bispectrum_k1k2", n!"power_spectrum.apply_window", 2, []⟩,
   ⟨n!"bispectrum.bispectrum_k1k2", n!"bispectrum.BispectrumPylians", 1, [n!"box_dims", n!"verbose", n!"n_jobs"]⟩,
   ⟨n!"bispectrum.bispectrum_equilateral", n!"power_spectrum.apply_window", 2, []⟩,
   ⟨n!"bispectrum.bispectrum_equilateral", n!"bispectrum.BispectrumPylians", 1, [n!"box_dims", n!"verbose", n!"n_jobs"]⟩]

/-- Calls in `box_counting.py` (lines 7-28). -/
def calls_box_counting : List Call :=
  [⟨n!"box_counting.box_count_sliding", n!"box_counting.get_kernel", 2, []⟩,
   ⟨n!"box_counting.Renyi_diemsnions", n!"box_counting.box_count_sliding", 3, []⟩]

/-- Calls in `bubble_stats.py` (lines 44-612). -/
def calls_bubble_stats : List Call :=
  [⟨n!"bubble_stats.fof", n!"Friends_of_Friends.FoF_search", 2, []⟩,
   ⟨n!"bubble_stats.spa", n!"spa_np.spa_np", 1, [n!"xth", n!"binning", n!"nscales", n!"verbose", n!"use_fftconvolve"]⟩,
   ⟨n!"bubble_stats.mfp", n!"mfp_np.mfp2d", 2, [n!"iterations", n!"verbose"]⟩, ⟨n!"bubble_stats.mfp", n!"mfp_np.mfp3d", 2, [n!"iterations", n!"verbose"]⟩,
   ⟨n!"bubble_stats.mfp", n!"bubble_stats.rebin_bsd", 2, [n!"bins", n!"r_min", n!"r_max"]⟩,
   ⟨n!"bubble_stats.averaged_mfp", n!"bubble_stats.rebin_bsd", 2, [n!"bins", n!"r_min", n!"r_max"]⟩,
   ⟨n!"bubble_stats.averaged_mfp.compute_ray_length", n!"mfp_np.mfp3d", 2, [n!"iterations", n!"verbose", n!"point"]⟩,
   ⟨n!"bubble_stats.mfp_from_point", n!"mfp_np.mfp2d", 2, [n!"iterations", n!"verbose", n!"point"]⟩,
   ⟨n!"bubble_stats.mfp_from_point", n!"mfp_np.mfp3d", 2, [n!"iterations", n!"verbose", n!"point"]⟩,
   ⟨n!"bubble_stats.mfp_from_point", n!"bubble_stats.rebin_bsd", 2, [n!"bins", n!"r_min", n!"r_max"]⟩,
   ⟨n!"bubble_stats.granulometry_CDF", n!"morph.binary_opening", 1, [n!"structure"]⟩,
   ⟨n!"bubble_stats.granulometry_CDF", n!"bubble_stats.disk_structure", 1, []⟩,
   ⟨n!"bubble_stats.granulometry_bsd", n!"bubble_stats._granulometry", 1, [n!"verbose"]⟩, ⟨n!"bubble_stats._granulometry", n!"usefuls.loading_msg", 1, []⟩,
   ⟨n!"bubble_stats._granulometry.func", n!"morph.binary_opening", 1, [n!"structure"]⟩,
   ⟨n!"bubble_stats._watershed", n!"bubble_stats.h_transform", 2, [n!"verbose"]⟩, ⟨n!"bubble_stats.watershed_bsd", n!"bubble_stats._watershed", 1, [n!"h"]⟩]

/-- Calls in `compare_constraints.py` (lines 11-358). -/
def calls_compare_constraints : List Call :=
  [⟨n!"compare_constraints.ReionizationHistory.__init__", n!"compare_constraints.ReionizationHistory._load_constraints", 0, []⟩,
   ⟨n!"compare_constraints.ReionizationHistory.__init__", n!"compare_constraints.ReionizationHistory._load_models", 0, []⟩,
   ⟨n!"compare_constraints.EscapeFractionLymanAlpha.__init__", n!"compare_constraints.EscapeFractionLymanAlpha._load_constraints", 0, []⟩,
   ⟨n!"compare_constraints.EscapeFractionLymanAlpha._load_constraints", n!"read_files.get_package_resource_path", 2, []⟩]

/-- Calls in `conv.py` (lines 36-58). -/
def calls_conv : List Call :=
  [⟨n!"conv.set_sim_constants", n!"helper_functions.flt_comp", 2, []⟩, ⟨n!"conv.set_sim_constants", n!"helper_functions.print_msg", 1, []⟩]

/-- Calls in `corr_function.py` (lines 61-104). -/
def calls_corr_function : List Call :=
  [⟨n!"corr_function.correlation_function", n!"power_spectrum.power_spectrum_1d", 1, [n!"kbins", n!"box_dims", n!"return_n_modes", n!"binning"]⟩,
   ⟨n!"corr_function.correlation_function", n!"corr_function.ps_to_corr", 2, [n!"rbins", n!"box_dims", n!"n_grid", n!"binning"]⟩,
   ⟨n!"corr_function.cross_correlation_function", n!"power_spectrum.cross_power_spectrum_1d", 2, [n!"kbins", n!"box_dims", n!"return_n_modes", n!"binning"]⟩,
   ⟨n!"corr_function.cross_correlation_function", n!"corr_function.ps_to_corr", 2, [n!"rbins", n!"box_dims", n!"n_grid", n!"binning"]⟩]

/-- Calls in `cosmo.py` (lines 128-292). -/
def calls_cosmo : List Call :=
  [⟨n!"cosmo.luminosity_distance", n!"helper_functions.outputify", 1, []⟩, ⟨n!"cosmo.z_to_cdist", n!"helper_functions.outputify", 1, []⟩,
   ⟨n!"cosmo.cdist_to_z", n!"cosmo.z_to_cdist", 1, []⟩, ⟨n!"cosmo.cdist_to_z", n!"helper_functions.outputify", 1, []⟩,
   ⟨n!"cosmo.z_to_age", n!"helper_functions.outputify", 1, []⟩, ⟨n!"cosmo.angular_size", n!"cosmo.luminosity_distance", 1, []⟩,
   ⟨n!"cosmo.angular_size", n!"helper_functions.outputify", 1, []⟩, ⟨n!"cosmo.angular_size_comoving", n!"cosmo.c_to_p", 2, []⟩,
   ⟨n!"cosmo.angular_size_comoving", n!"cosmo.angular_size", 2, []⟩, ⟨n!"cosmo.deg_to_cdist", n!"cosmo.angular_size_comoving", 2, []⟩,
   ⟨n!"cosmo.nu_to_cdist", n!"cosmo.nu_to_z", 1, []⟩, ⟨n!"cosmo.nu_to_cdist", n!"cosmo.z_to_cdist", 1, []⟩]

/-- Calls in `density_file.py` (lines 33-220). -/
def calls_density_file : List Call :=
  [⟨n!"density_file.DensityFile.__init__", n!"density_file.DensityFile.read_from_file", 2, []⟩,
   ⟨n!"density_file.DensityFile.read_from_file", n!"helper_functions.print_msg", 1, []⟩,
   ⟨n!"density_file.DensityFile.write_to_file", n!"helper_functions.print_msg", 1, []⟩,
   ⟨n!"density_file.ClumpingFile.__init__", n!"density_file.ClumpingFile.read_from_file", 1, []⟩,
   ⟨n!"density_file.ClumpingFile.write_to_file", n!"helper_functions.print_msg", 1, []⟩]

/-- Calls in `deprecated.py` (lines 62-133). -/
def calls_deprecated : List Call :=
  [⟨n!"deprecated.freq_box", n!"helper_functions.get_dens_redshifts", 2, []⟩, ⟨n!"deprecated.freq_box", n!"helper_functions.get_mesh_size", 1, []⟩,
   ⟨n!"deprecated.freq_box", n!"lightcone.redshifts_at_equal_comoving_distance", 2, [n!"box_grid_n"]⟩,
   ⟨n!"deprecated.freq_box", n!"xfrac_file.XfracFile", 0, []⟩, ⟨n!"deprecated.freq_box", n!"density_file.DensityFile", 0, []⟩,
   ⟨n!"deprecated.freq_box", n!"xfrac_file.XfracFile", 1, []⟩, ⟨n!"deprecated.freq_box", n!"density_file.DensityFile", 1, []⟩,
   ⟨n!"deprecated.freq_box", n!"temperature.calc_dt", 2, []⟩, ⟨n!"deprecated.freq_box", n!"lightcone._get_interp_slice", 6, []⟩,
   ⟨n!"deprecated.freq_box", n!"helper_functions.print_msg", 1, []⟩, ⟨n!"deprecated.read_binary_with_meshinfo", n!"helper_functions.read_cbin", 3, []⟩,
   ⟨n!"deprecated.save_binary_with_meshinfo", n!"helper_functions.save_cbin", 4, []⟩, ⟨n!"deprecated.smooth", n!"smoothing.smooth_gauss", 2, []⟩]

/-- Calls in `fitting_methods.py` (lines 37-81). -/
def calls_fitting_methods : List Call :=
  [⟨n!"fitting_methods.FitFunction.fit", n!"fitting_methods.FitFunction._optimize", 2, []⟩,
   ⟨n!"fitting_methods.FitFunction.fit", n!"fitting_methods.FitFunction.score", 2, []⟩,
   ⟨n!"fitting_methods.FitFunction.fit_predict", n!"fitting_methods.FitFunction.fit", 2, []⟩,
   ⟨n!"fitting_methods.FitFunction.fit_predict", n!"fitting_methods.FitFunction.predict", 1, []⟩,
   ⟨n!"fitting_methods.FitFunction.score", n!"fitting_methods.FitFunction.predict", 1, []⟩]

/-- Calls in `foreground_model.py` (lines 42-145). -/
def calls_foreground_model : List Call :=
  [⟨n!"foreground_model.galactic_synch_fg", n!"cosmo.z_to_nu", 1, []⟩, ⟨n!"foreground_model.galactic_synch_fg", n!"cosmo.z_to_cdist", 1, []⟩,
   ⟨n!"foreground_model.galactic_synch_fg", n!"radio_telescope_sensitivity.jansky_2_kelvin", 2, [n!"boxsize", n!"ncells"]⟩,
   ⟨n!"foreground_model.extragalactic_pointsource_fg", n!"cosmo.z_to_cdist", 1, []⟩,
   ⟨n!"foreground_model.extragalactic_pointsource_fg", n!"cosmo.z_to_nu", 1, []⟩,
   ⟨n!"foreground_model.extragalactic_pointsource_fg", n!"radio_telescope_sensitivity.jansky_2_kelvin", 2, [n!"boxsize", n!"ncells"]⟩,
   ⟨n!"foreground_model.diabolo_filter", n!"cosmo.z_to_cdist", 1, []⟩, ⟨n!"foreground_model.barrel_filter", n!"cosmo.z_to_cdist", 1, []⟩,
   ⟨n!"foreground_model.remove_wedge_image", n!"foreground_model.diabolo_filter", 1, [n!"array", n!"mu", n!"funct", n!"boxsize"]⟩]

/-- Calls in `gaussian_random_field.py` (lines 41-96). -/
def calls_gaussian_random_field : List Call :=
  [⟨n!"gaussian_random_field.make_gaussian_random_field", n!"power_spectrum._get_dims", 2, []⟩,
   ⟨n!"gaussian_random_field.make_gaussian_random_field", n!"power_spectrum._get_k", 2, []⟩,
   ⟨n!"gaussian_random_field.make_gaussian_random_field", n!"scipy_func.numpy_product", 1, []⟩,
   ⟨n!"gaussian_random_field.make_gaussian_random_field_like_field", n!"gaussian_random_field._get_ps_func_for_field", 2, [n!"kbins"]⟩,
   ⟨n!"gaussian_random_field.make_gaussian_random_field_like_field", n!"gaussian_random_field.make_gaussian_random_field", 2, [n!"power_spectrum", n!"random_seed"]⟩,
   ⟨n!"gaussian_random_field._get_ps_func_for_field", n!"power_spectrum.power_spectrum_1d", 1, [n!"box_dims", n!"kbins", n!"return_n_modes"]⟩]

/-- Calls in `halo_list.py` (lines 37-520). -/
def calls_halo_list : List Call :=
  [⟨n!"halo_list.HaloRockstar.__init__", n!"halo_list.HaloRockstar.read_from_file", 2, []⟩,
   ⟨n!"halo_list.HaloRockstar.read_from_file", n!"helper_functions.print_msg", 1, []⟩,
   ⟨n!"halo_list.HaloRockstar.read_from_file", n!"halo_list.Halo", 0, []⟩,
   ⟨n!"halo_list.HaloCubeP3MFull.__init__", n!"conv.set_sim_constants", 0, [n!"boxsize_cMpc"]⟩,
   ⟨n!"halo_list.HaloCubeP3MFull.__init__", n!"halo_list.HaloCubeP3MFull.read_from_file", 5, []⟩,
   ⟨n!"halo_list.HaloCubeP3MFull.read_from_file", n!"helper_functions.print_msg", 1, []⟩,
   ⟨n!"halo_list.HaloCubeP3MFull.read_from_file", n!"halo_list.Halo", 0, []⟩,
   ⟨n!"halo_list.HaloCubeP3MFull.read_from_file", n!"halo_list.HaloCubeP3MFull._reposition", 1, []⟩,
   ⟨n!"halo_list.HaloCubeP3MFull.read_from_file", n!"conv.gridvel_to_kms", 0, [n!"gridvel", n!"z"]⟩,
   ⟨n!"halo_list.HaloCubeP3MFull.read_from_file", n!"conv.gridmass_to_msol", 1, []⟩,
   ⟨n!"halo_list.HaloCubeP3MFull.read_from_file", n!"conv.gridpos_to_mpc", 1, []⟩,
   ⟨n!"halo_list.HaloCubeP3M.__init__", n!"halo_list.HaloCubeP3M.read_from_file", 6, []⟩,
   ⟨n!"halo_list.HaloCubeP3M.read_from_file", n!"helper_functions.print_msg", 1, []⟩,
   ⟨n!"halo_list.HaloCubeP3M.read_from_file", n!"halo_list.HaloCubeP3M._get_header", 1, []⟩,
   ⟨n!"halo_list.HaloCubeP3M.read_from_file", n!"halo_list.Halo", 0, []⟩,
   ⟨n!"halo_list.HaloCubeP3M.read_from_file", n!"halo_list.HaloCubeP3M._reposition", 0, [n!"pos"]⟩,
   ⟨n!"halo_list.HaloCubeP3M.read_from_file", n!"conv.gridpos_to_mpc", 1, []⟩,
   ⟨n!"halo_list.HaloCubeP3M.read_from_file", n!"conv.gridmass_to_msol", 1, []⟩,
   ⟨n!"halo_list.HaloCubeP3M.read_from_file", n!"conv.gridvel_to_kms", 0, [n!"gridvel", n!"z"]⟩,
   ⟨n!"halo_list.HaloList.__init__", n!"halo_list.HaloList.read_from_file", 5, []⟩,
   ⟨n!"halo_list.HaloList.read_from_file", n!"helper_functions.print_msg", 1, []⟩, ⟨n!"halo_list.HaloList.read_from_file", n!"halo_list.Halo", 0, []⟩]

/-- Calls in `helper_functions.py` (lines 52-554). -/
def calls_helper_functions : List Call :=
  [⟨n!"helper_functions.get_source_redshifts", n!"helper_functions._get_redshifts_in_range", 4, []⟩,
   ⟨n!"helper_functions.get_xfrac_redshifts", n!"helper_functions._get_redshifts_in_range", 4, []⟩,
   ⟨n!"helper_functions.get_dens_redshifts", n!"helper_functions._get_redshifts_in_range", 4, []⟩,
   ⟨n!"helper_functions.read_cbin", n!"helper_functions.print_msg", 1, []⟩,
   ⟨n!"helper_functions.read_raw_binary", n!"helper_functions.print_msg", 1, []⟩,
   ⟨n!"helper_functions.save_cbin", n!"helper_functions.print_msg", 1, []⟩,
   ⟨n!"helper_functions.save_fits", n!"helper_functions.get_data_and_type", 1, []⟩,
   ⟨n!"helper_functions.get_data_and_type", n!"helper_functions.determine_filetype", 1, []⟩,
   ⟨n!"helper_functions.get_data_and_type", n!"helper_functions.get_data_and_type", 1, []⟩,
   ⟨n!"helper_functions.get_data_and_type", n!"helper_functions.read_cbin", 1, [n!"bits", n!"order"]⟩,
   ⟨n!"helper_functions.save_data", n!"helper_functions.save_cbin", 2, [n!"bits", n!"order"]⟩,
   ⟨n!"helper_functions.save_data", n!"helper_functions.save_fits", 2, [n!"header"]⟩,
   ⟨n!"helper_functions.save_data", n!"helper_functions.save_raw_binary", 2, [n!"bits", n!"order"]⟩,
   ⟨n!"helper_functions.get_mesh_size", n!"helper_functions.determine_filetype", 1, []⟩,
   ⟨n!"helper_functions.find_idx", n!"helper_functions.outputify", 1, []⟩]

/-- Calls in `identify_regions.py` (lines 34-68). -/
def calls_identify_regions : List Call :=
  [⟨n!"identify_regions.bubbles_from_slic", n!"superpixels.slic_cube", 1, [n!"n_segments", n!"verbose"]⟩,
   ⟨n!"identify_regions.bubbles_from_slic", n!"superpixels.stitch_superpixels", 2, [n!"bins", n!"binary", n!"verbose"]⟩,
   ⟨n!"identify_regions.bubbles_from_kmeans", n!"identify_regions.threshold_kmeans", 1, [n!"upper_lim", n!"n_jobs"]⟩,
   ⟨n!"identify_regions.bubbles_from_kmeans", n!"identify_regions.threshold_kmeans_3cluster", 1, [n!"upper_lim", n!"n_jobs"]⟩]

/-- Calls in `irate_file.py` (lines 30-69). -/
def calls_irate_file : List Call :=
  [⟨n!"irate_file.IonRateFile.__init__", n!"irate_file.IonRateFile.read_from_file", 3, []⟩,
   ⟨n!"irate_file.IonRateFile.read_from_file", n!"helper_functions.print_msg", 1, []⟩]

/-- Calls in `lightcone.py` (lines 101-554). -/
def calls_lightcone : List Call :=
  [⟨n!"lightcone.make_lightcone", n!"lightcone._get_filenames", 1, []⟩, ⟨n!"lightcone.make_lightcone", n!"lightcone._get_file_redshifts", 2, []⟩,
   ⟨n!"lightcone.make_lightcone", n!"helper_functions.get_mesh_size", 1, []⟩,
   ⟨n!"lightcone.make_lightcone", n!"lightcone._get_output_z", 4, [n!"box_length_mpc", n!"dnu"]⟩,
   ⟨n!"lightcone.make_lightcone", n!"helper_functions.get_data_and_type", 4, []⟩, ⟨n!"lightcone.make_lightcone", n!"lightcone._get_interp_slice", 8, []⟩,
   ⟨n!"lightcone.make_velocity_lightcone", n!"lightcone._get_filenames", 1, []⟩,
   ⟨n!"lightcone.make_velocity_lightcone", n!"lightcone._get_file_redshifts", 2, []⟩,
   ⟨n!"lightcone.make_velocity_lightcone", n!"helper_functions.get_mesh_size", 1, []⟩,
   ⟨n!"lightcone.make_velocity_lightcone", n!"vel_file.VelocityFile", 1, []⟩,
   ⟨n!"lightcone.make_velocity_lightcone", n!"density_file.DensityFile", 1, []⟩,
   ⟨n!"lightcone.make_velocity_lightcone", n!"lightcone._get_output_z", 4, []⟩,
   ⟨n!"lightcone.make_velocity_lightcone", n!"lightcone._get_interp_slice", 7, []⟩,
   ⟨n!"lightcone._get_output_z", n!"lightcone.redshifts_at_equal_frequncy_width", 3, []⟩,
   ⟨n!"lightcone._get_output_z", n!"lightcone.redshifts_at_equal_comoving_distance", 3, [n!"box_length_mpc"]⟩,
   ⟨n!"lightcone.get_lightcone_subvolume", n!"cosmo.z_to_nu", 1, []⟩, ⟨n!"lightcone.get_lightcone_subvolume", n!"cosmo.nu_to_cdist", 1, []⟩,
   ⟨n!"lightcone.get_lightcone_subvolume", n!"cosmo.cdist_to_z", 1, []⟩, ⟨n!"lightcone.get_lightcone_subvolume", n!"cosmo.z_to_cdist", 1, []⟩,
   ⟨n!"lightcone.get_lightcone_subvolume", n!"cosmo.nu_to_z", 1, []⟩,
   ⟨n!"lightcone.get_lightcone_subvolume", n!"statistics.subtract_mean_signal", 1, [n!"los_axis"]⟩,
   ⟨n!"lightcone._get_interp_slice", n!"lightcone._get_slice", 3, []⟩, ⟨n!"lightcone._get_interp_slice", n!"lightcone._get_step_weighted_slice", 5, []⟩,
   ⟨n!"lightcone._get_step_weighted_slice", n!"smoothing.smooth_gauss", 1, [n!"sigma"]⟩,
   ⟨n!"lightcone._get_step_weighted_slice", n!"lightcone._get_step_transitions", 2, []⟩, ⟨n!"lightcone._get_filenames", n!"lightcone._all_same", 1, []⟩,
   ⟨n!"lightcone._get_file_redshifts", n!"helper_functions.determine_redshift_from_filename", 1, []⟩]

/-- Calls in `line_intensity.py` (lines 73-162). -/
def calls_line_intensity : List Call :=
  [⟨n!"line_intensity.M_HI_on_grid", n!"nbody_file.halo_list_to_grid", 4, []⟩,
   ⟨n!"line_intensity.L_CII_on_grid", n!"nbody_file.halo_list_to_grid", 4, []⟩]

/-- Calls in `lyman_alpha_coupling.py` (lines 33-142). -/
def calls_lyman_alpha_coupling : List Call :=
  [⟨n!"lyman_alpha_coupling.Lya_coupling_coeff", n!"lyman_alpha_coupling._read_halofile", 1, [n!"z"]⟩,
   ⟨n!"lyman_alpha_coupling.Lya_coupling_coeff", n!"lyman_alpha_coupling.one_source", 5, []⟩,
   ⟨n!"lyman_alpha_coupling.Lya_coupling_coeff", n!"usefuls.loading_verbose", 1, []⟩,
   ⟨n!"lyman_alpha_coupling.Lya_coupling_coeff_", n!"lyman_alpha_coupling._read_halofile", 1, [n!"z"]⟩,
   ⟨n!"lyman_alpha_coupling.Lya_coupling_coeff_", n!"usefuls.Mgrid_2_Msolar", 1, []⟩,
   ⟨n!"lyman_alpha_coupling.Lya_coupling_coeff_", n!"lyman_alpha_coupling.one_source", 9, []⟩,
   ⟨n!"lyman_alpha_coupling.Lya_coupling_coeff_", n!"usefuls.loading_verbose", 1, []⟩,
   ⟨n!"lyman_alpha_coupling.Lya_coupling_coeff_useprofile", n!"lyman_alpha_coupling._get_profile", 7, []⟩,
   ⟨n!"lyman_alpha_coupling.Lya_coupling_coeff_useprofile", n!"lyman_alpha_coupling._get_xc", 3, []⟩,
   ⟨n!"lyman_alpha_coupling._get_xc", n!"usefuls.Mgrid_2_Msolar", 1, []⟩]

/-- Calls in `lyman_alpha_transmission.py` (lines 136-330). -/
def calls_lyman_alpha_transmission : List Call :=
  [⟨n!"lyman_alpha_transmission.lyA_scattering_cross_section", n!"lyman_alpha_transmission.approximation_voigt_faddeeva", 2, []⟩,
   ⟨n!"lyman_alpha_transmission.tau_nu_lyA", n!"lyman_alpha_transmission.approximation_voigt_faddeeva", 2, []⟩,
   ⟨n!"lyman_alpha_transmission.tau_nu_lyA_los", n!"lyman_alpha_transmission.tau_nu_lyA_FGPA", 3, [n!"f_alpha", n!"lambda_alpha", n!"k_res", n!"X_H", n!"cosmo"]⟩]

/-- Calls in `mfp_np.py` (lines 91-91). -/
def calls_mfp_np : List Call :=
  [⟨n!"mfp_np.mfp3d", n!"mfp_np._ray3d", 8, []⟩]

/-- Calls in `model_21cmfast.py` (lines 21-83). -/
def calls_model_21cmfast : List Call :=
  [⟨n!"model_21cmfast.run_21cmfast_init", n!"model_21cmfast._is_py21cmfast_installed", 0, []⟩,
   ⟨n!"model_21cmfast.run_21cmfast_matter", n!"model_21cmfast._is_py21cmfast_installed", 0, []⟩,
   ⟨n!"model_21cmfast.run_21cmfast_coeval", n!"model_21cmfast._is_py21cmfast_installed", 0, []⟩]

/-- Calls in `morph.py` (lines 14-50). -/
def calls_morph : List Call :=
  [⟨n!"morph.binary_erosion", n!"morph._erode_v2", 2, []⟩, ⟨n!"morph.binary_opening", n!"morph.binary_erosion", 2, []⟩,
   ⟨n!"morph.binary_opening", n!"morph.binary_dilation", 2, []⟩]

/-- Calls in `nbody_file.py` (lines 63-317). -/
def calls_nbody_file : List Call :=
  [⟨n!"nbody_file.NbodyFile.__init__", n!"nbody_file.NbodyFile.get_npart", 0, []⟩,
   ⟨n!"nbody_file.NbodyFile.__init__", n!"nbody_file.NbodyFile.read_from_file", 0, [n!"node"]⟩,
   ⟨n!"nbody_file.NbodyFile.get_npart", n!"nbody_file.NbodyFile._get_header", 1, []⟩,
   ⟨n!"nbody_file.NbodyFile.read_from_file", n!"nbody_file.NbodyFile._get_header", 1, []⟩,
   ⟨n!"nbody_file.NbodyFile.read_from_file", n!"nbody_file.NbodyParticle", 0, []⟩,
   ⟨n!"nbody_file.NbodyFile.read_from_file", n!"helper_functions.print_msg", 1, []⟩,
   ⟨n!"nbody_file.read_pkdgrav_fof_halo_catalogue", n!"nbody_pkdgrav.Pkdgrav3data", 2, [n!"Omega_m", n!"rho_c", n!"verbose"]⟩,
   ⟨n!"nbody_file.read_pkdgrav_density_grid", n!"nbody_pkdgrav.Pkdgrav3data", 2, [n!"Omega_m", n!"rho_c", n!"verbose"]⟩,
   ⟨n!"nbody_file.Halo2Grid.set_halo_pos", n!"nbody_file.Halo2Grid.pos_cm_to_grid", 1, []⟩,
   ⟨n!"nbody_file.Halo2Grid.set_halo_pos", n!"nbody_file.Halo2Grid.pos_mpc_to_grid", 1, []⟩,
   ⟨n!"nbody_file.Halo2Grid.halo_mass_on_grid", n!"nbody_file.Halo2Grid.value_on_grid", 2, [n!"statistic", n!"bins"]⟩,
   ⟨n!"nbody_file.Halo2Grid.halo_value_on_grid", n!"nbody_file.Halo2Grid.value_on_grid", 2, [n!"statistic", n!"bins"]⟩,
   ⟨n!"nbody_file.halo_list_to_grid", n!"nbody_file.Halo2Grid", 0, [n!"box_len", n!"n_grid"]⟩]

/-- Calls in `nbody_pkdgrav.py` (lines 99-208). -/
def calls_nbody_pkdgrav : List Call :=
  [⟨n!"nbody_pkdgrav.HaloCataloguePkdgrav3.read_fof_data", n!"nbody_pkdgrav.HaloCataloguePkdgrav3._read_fof_data", 1, [n!"z", n!"dtype"]⟩,
   ⟨n!"nbody_pkdgrav.HaloCataloguePkdgrav3._read_fof_data", n!"nbody_pkdgrav.ReaderPkdgrav3.dLightSpeedSim", 1, []⟩,
   ⟨n!"nbody_pkdgrav.HaloCataloguePkdgrav3.save_fof_data", n!"nbody_pkdgrav.HaloCataloguePkdgrav3.array_fof_data", 0, []⟩]

/-- Calls in `nbody_tools.py` (lines 28-45). -/
def calls_nbody_tools : List Call :=
  [⟨n!"nbody_tools.ParticleMass_to_ParticleNumber", n!"nbody_tools._set_cosmo", 1, []⟩,
   ⟨n!"nbody_tools.halo_mass_to_particle_number", n!"nbody_tools.particle_number_to_particle_mass", 2, [n!"cosmo"]⟩,
   ⟨n!"nbody_tools.particle_number_to_particle_mass", n!"nbody_tools._set_cosmo", 1, []⟩]

/-- Calls in `numba_functions.py` (lines 55-161). -/
def calls_numba_functions : List Call :=
  [⟨n!"numba_functions.get_uv_daily_observation_numba", n!"numba_functions.from_antenna_config", 2, []⟩,
   ⟨n!"numba_functions.get_uv_daily_observation_numba", n!"numba_functions.get_uv_coverage", 3, [n!"boxsize"]⟩,
   ⟨n!"numba_functions.get_uv_daily_observation_numba", n!"numba_functions.earth_rotation_effect", 3, [n!"declination"]⟩,
   ⟨n!"numba_functions.get_uv_daily_observation_numba", n!"usefuls.loading_verbose", 1, []⟩,
   ⟨n!"numba_functions.from_antenna_config", n!"cosmo.z_to_nu", 1, []⟩, ⟨n!"numba_functions.get_uv_coverage", n!"cosmo.z_to_cdist", 1, []⟩]

/-- Calls in `percolation.py` (lines 28-28). -/
def calls_percolation : List Call :=
  [⟨n!"percolation.find_percolation_cluster", n!"bubble_stats.fof", 1, [n!"xth", n!"connectivity"]⟩]

/-- Calls in `plotting.py` (lines 53-545). -/
def calls_plotting : List Call :=
  [⟨n!"plotting.plot_slice", n!"helper_functions.get_data_and_type", 1, []⟩, ⟨n!"plotting.plot_hist", n!"helper_functions.get_data_and_type", 1, []⟩,
   ⟨n!"plotting.plot_triangle", n!"plotting.print_chain_stats", 3, []⟩,
   ⟨n!"plotting.DistributionDiagnostic._plot_corner_backend", n!"plotting.DistributionDiagnostic._get_default_param_labels", 1, []⟩,
   ⟨n!"plotting.DistributionDiagnostic._plot_getdist_backend", n!"plotting.DistributionDiagnostic._get_default_param_labels", 1, []⟩,
   ⟨n!"plotting.DistributionDiagnostic.plot_forest", n!"plotting.DistributionDiagnostic._get_default_param_labels", 1, []⟩,
   ⟨n!"plotting.GriddedProbabilities.add_distribution", n!"plotting.DistributionDiagnostic._get_distribution_label", 1, []⟩,
   ⟨n!"plotting.GriddedProbabilities.add_distribution", n!"plotting.DistributionDiagnostic._calculate_base_metrics", 2, []⟩,
   ⟨n!"plotting.SampledDistribution.add_distribution", n!"plotting.DistributionDiagnostic._get_distribution_label", 1, []⟩,
   ⟨n!"plotting.SampledDistribution.add_distribution", n!"plotting.DistributionDiagnostic._calculate_base_metrics", 2, []⟩]

/-- Calls in `position_dependent_power_spectrum.py` (lines 22-139). -/
def calls_position_dependent_power_spectrum : List Call :=
  [
   ⟨n!"position_dependent_power_spectrum.power_spectrum_response", n!"position_dependent_power_spectrum.integrated_bispectrum_cross", 2, [n!"Ncuts", n!"kbins", n!"box_dims", n!"binning", n!"normalize", n!"verbose"]⟩,
   ⟨n!"position_dependent_power_spectrum.integrated_bispectrum", n!"position_dependent_power_spectrum.integrated_bispectrum_cross", 2, [n!"Ncuts", n!"kbins", n!"box_dims", n!"binning", n!"normalize", n!"verbose"]⟩,
   ⟨n!"position_dependent_power_spectrum.integrated_bispectrum_cross", n!"position_dependent_power_spectrum._W_L", 3, []⟩,
   ⟨n!"position_dependent_power_spectrum.integrated_bispectrum_cross", n!"power_spectrum.power_spectrum_1d", 1, [n!"kbins", n!"box_dims", n!"binning"]⟩,
   ⟨n!"position_dependent_power_spectrum.integrated_bispectrum_cross_slide", n!"position_dependent_power_spectrum._W_L", 3, []⟩,
   ⟨n!"position_dependent_power_spectrum.integrated_bispectrum_cross_slide", n!"power_spectrum.power_spectrum_1d", 1, [n!"kbins", n!"box_dims", n!"binning"]⟩]

/-- Calls in `power_legendre.py` (lines 40-78). -/
def calls_power_legendre : List Call :=
  [⟨n!"power_legendre.power_spectrum_multipoles", n!"power_spectrum._get_dims", 2, []⟩,
   ⟨n!"power_legendre.power_spectrum_multipoles", n!"power_spectrum.power_spectrum_nd", 2, []⟩,
   ⟨n!"power_legendre.power_spectrum_multipoles", n!"power_spectrum._get_k", 2, []⟩,
   ⟨n!"power_legendre.power_spectrum_multipoles", n!"power_spectrum._get_kbins", 3, []⟩,
   ⟨n!"power_legendre.power_spectrum_multipoles", n!"power_spectrum._get_mu", 3, []⟩,
   ⟨n!"power_legendre.power_spectrum_multipoles", n!"power_spectrum._get_nonzero_idx", 2, []⟩,
   ⟨n!"power_legendre.power_spectrum_multipoles", n!"helper_functions.get_eval", 0, []⟩]

/-- Calls in `power_spect_fast.py` (lines 39-346). -/
def calls_power_spect_fast : List Call :=
  [⟨n!"power_spect_fast.power_spect_nd", n!"scipy_func.numpy_product", 1, []⟩,
   ⟨n!"power_spect_fast.power_spect_1d", n!"power_spect_fast.power_spect_nd", 2, [n!"verbose"]⟩,
   ⟨n!"power_spect_fast.power_spect_1d", n!"power_spect_fast._get_k", 2, []⟩,
   ⟨n!"power_spect_fast.power_spect_2d", n!"power_spect_fast.power_spect_nd", 2, [n!"verbose"]⟩,
   ⟨n!"power_spect_fast.power_spect_2d", n!"power_spect_fast._get_k", 2, []⟩,
   ⟨n!"power_spect_fast.dimensional_power", n!"power_spect_fast.power_spect_1d", 1, [n!"kbins", n!"binning", n!"box_dims", n!"return_modes"]⟩,
   ⟨n!"power_spect_fast.power_spect_mu", n!"power_spect_fast.power_spect_nd", 2, [n!"verbose"]⟩,
   ⟨n!"power_spect_fast.power_spect_mu", n!"power_spect_fast._get_k", 2, []⟩,
   ⟨n!"power_spect_fast.plot_2d_power", n!"power_spect_fast.horizon_wedge_equation", 1, [n!"fov_deg"]⟩,
   ⟨n!"power_spect_fast.horizon_wedge_equation", n!"cosmo.z_to_cdist", 1, []⟩]

/-- Calls in `power_spectrum.py` (lines 42-608). -/
def calls_power_spectrum : List Call :=
  [⟨n!"power_spectrum.power_spectrum_nd", n!"power_spectrum._get_dims", 2, []⟩,
   ⟨n!"power_spectrum.power_spectrum_nd", n!"scipy_func.numpy_product", 1, []⟩,
   ⟨n!"power_spectrum.cross_power_spectrum_nd", n!"power_spectrum._get_dims", 2, []⟩,
   ⟨n!"power_spectrum.cross_power_spectrum_nd", n!"helper_functions.print_msg", 1, []⟩,
   ⟨n!"power_spectrum.cross_power_spectrum_nd", n!"scipy_func.numpy_product", 1, []⟩,
   ⟨n!"power_spectrum.radial_average", n!"power_spectrum._get_k", 2, []⟩,
   ⟨n!"power_spectrum.radial_average", n!"power_spectrum._get_kbins", 3, [n!"binning", n!"breakpoint"]⟩,
   ⟨n!"power_spectrum.radial_average", n!"helper_functions.print_msg", 1, []⟩,
   ⟨n!"power_spectrum.power_spectrum_1d", n!"power_spectrum.apply_window", 2, []⟩,
   ⟨n!"power_spectrum.power_spectrum_1d", n!"power_spectrum._get_dims", 2, []⟩,
   ⟨n!"power_spectrum.power_spectrum_1d", n!"power_spectrum.power_spectrum_nd", 1, [n!"box_dims"]⟩,
   ⟨n!"power_spectrum.power_spectrum_1d", n!"power_spectrum.radial_average", 1, [n!"kbins", n!"box_dims", n!"binning", n!"breakpoint"]⟩,
   ⟨n!"power_spectrum.power_spectrum_2d", n!"power_spectrum.apply_window", 2, []⟩,
   ⟨n!"power_spectrum.power_spectrum_2d", n!"power_spectrum._get_dims", 2, []⟩,
   ⟨n!"power_spectrum.power_spectrum_2d", n!"power_spectrum.power_spectrum_nd", 2, []⟩,
   ⟨n!"power_spectrum.power_spectrum_2d", n!"power_spectrum._get_k", 2, []⟩,
   ⟨n!"power_spectrum.cross_power_spectrum_1d", n!"power_spectrum._get_dims", 2, []⟩,
   ⟨n!"power_spectrum.cross_power_spectrum_1d", n!"power_spectrum.cross_power_spectrum_nd", 2, [n!"box_dims"]⟩,
   ⟨n!"power_spectrum.cross_power_spectrum_1d", n!"power_spectrum.radial_average", 1, [n!"kbins", n!"box_dims", n!"binning", n!"breakpoint"]⟩,
   ⟨n!"power_spectrum.power_spectrum_mu", n!"power_spectrum._get_dims", 2, []⟩,
   ⟨n!"power_spectrum.power_spectrum_mu", n!"power_spectrum.power_spectrum_nd", 1, [n!"box_dims"]⟩,
   ⟨n!"power_spectrum.power_spectrum_mu", n!"power_spectrum.mu_binning", 7, [n!"absolute_mus"]⟩,
   ⟨n!"power_spectrum.cross_power_spectrum_mu", n!"power_spectrum._get_dims", 2, []⟩,
   ⟨n!"power_spectrum.cross_power_spectrum_mu", n!"power_spectrum.cross_power_spectrum_nd", 2, [n!"box_dims"]⟩,
   ⟨n!"power_spectrum.cross_power_spectrum_mu", n!"power_spectrum.mu_binning", 7, [n!"absolute_mus"]⟩,
   ⟨n!"power_spectrum.mu_binning", n!"power_spectrum._get_k", 2, []⟩, ⟨n!"power_spectrum.mu_binning", n!"power_spectrum._get_mu", 4, []⟩,
   ⟨n!"power_spectrum.mu_binning", n!"power_spectrum._get_kbins", 3, [n!"binning"]⟩,
   ⟨n!"power_spectrum.mu_binning", n!"power_spectrum._get_nonzero_idx", 2, []⟩, ⟨n!"power_spectrum.mu_binning", n!"helper_functions.print_msg", 1, []⟩,
   ⟨n!"power_spectrum.get_k", n!"power_spectrum._get_dims", 2, []⟩, ⟨n!"power_spectrum.get_k", n!"power_spectrum._get_k", 2, []⟩,
   ⟨n!"power_spectrum.get_kbins", n!"power_spectrum._get_dims", 2, []⟩, ⟨n!"power_spectrum.get_kbins", n!"power_spectrum._get_k", 2, []⟩,
   ⟨n!"power_spectrum.get_kbins", n!"power_spectrum._get_kbins", 3, [n!"binning"]⟩,
   ⟨n!"power_spectrum.dimensionless_ps", n!"power_spectrum.power_spectrum_1d", 1, [n!"kbins", n!"box_dims", n!"binning"]⟩]

/-- Calls in `power_spectrum_noise.py` (lines 53-54). -/
def calls_power_spectrum_noise : List Call :=
  [⟨n!"power_spectrum_noise.noise_error_ps", n!"cosmo.nu_to_cdist", 1, []⟩]

/-- Calls in `primary_beam.py` (lines 39-71). -/
def calls_primary_beam : List Call :=
  [⟨n!"primary_beam.primary_beam", n!"primary_beam.circular_beam", 2, [n!"D_station", n!"beam_func", n!"boxsize"]⟩,
   ⟨n!"primary_beam.primary_beam", n!"primary_beam.circular_beam", 2, [n!"D_station", n!"beam_func", n!"boxsize", n!"l_null"]⟩,
   ⟨n!"primary_beam.primary_beam_null", n!"cosmo.z_to_cdist", 1, []⟩, ⟨n!"primary_beam.primary_beam_null", n!"cosmo.nu_to_wavel", 1, []⟩,
   ⟨n!"primary_beam.primary_beam_null", n!"cosmo.z_to_nu", 1, []⟩,
   ⟨n!"primary_beam.circular_beam", n!"primary_beam.primary_beam_null", 1, [n!"D_station"]⟩]

/-- Calls in `pv_mpm.py` (lines 76-155). -/
def calls_pv_mpm : List Call :=
  [⟨n!"pv_mpm.get_distorted_dt", n!"helper_functions.print_msg", 1, []⟩,
   ⟨n!"pv_mpm.get_distorted_dt", n!"helper_functions.get_interpolated_array", 3, []⟩,
   ⟨n!"pv_mpm.make_pv_box", n!"helper_functions.read_cbin", 1, [n!"bits", n!"order"]⟩, ⟨n!"pv_mpm.make_pv_box", n!"vel_file.VelocityFile", 1, []⟩,
   ⟨n!"pv_mpm.make_pv_box", n!"density_file.DensityFile", 1, []⟩,
   ⟨n!"pv_mpm.make_pv_box", n!"pv_mpm.get_distorted_dt", 2, [n!"redsh", n!"los_axis", n!"num_particles"]⟩]

/-- Calls in `radio_telescope_calibration.py` (lines 54-703). -/
def calls_radio_telescope_calibration : List Call :=
  [⟨n!"radio_telescope_calibration.from_antenna_config_with_gains", n!"radio_telescope_layout.SKA1_LowConfig_Sept2016", 0, []⟩,
   ⟨n!"radio_telescope_calibration.from_antenna_config_with_gains", n!"radio_telescope_layout.geographic_to_cartesian_coordinate_system", 1, []⟩,
   ⟨n!"radio_telescope_calibration.from_antenna_config_with_gains", n!"cosmo.z_to_nu", 1, []⟩,
   ⟨n!"radio_telescope_calibration.get_uv_map_with_gains", n!"radio_telescope_layout.subarray_type_to_antxyz", 1, []⟩,
   ⟨n!"radio_telescope_calibration.get_uv_map_with_gains", n!"radio_telescope_calibration.from_antenna_config_with_gains", 2, [n!"gain_model"]⟩,
   ⟨n!"radio_telescope_calibration.get_uv_map_with_gains", n!"radio_telescope_layout.earth_rotation_effect", 4, []⟩,
   ⟨n!"radio_telescope_calibration.get_uv_map_with_gains", n!"radio_telescope_calibration._grid_uv_tracks_with_gains", 5, [n!"boxsize", n!"include_mirror_baselines"]⟩,
   ⟨n!"radio_telescope_calibration._grid_uv_tracks_with_gains", n!"cosmo.z_to_cdist", 1, []⟩,
   ⟨n!"radio_telescope_calibration.from_antenna_config_with_antenna_stamp", n!"radio_telescope_layout.SKA1_LowConfig_Sept2016", 0, []⟩,
   ⟨n!"radio_telescope_calibration.from_antenna_config_with_antenna_stamp", n!"radio_telescope_layout.geographic_to_cartesian_coordinate_system", 1, []⟩,
   ⟨n!"radio_telescope_calibration.from_antenna_config_with_antenna_stamp", n!"cosmo.z_to_nu", 1, []⟩,
   ⟨n!"radio_telescope_calibration.get_full_uv_map_with_antenna_stamp", n!"radio_telescope_layout.subarray_type_to_antxyz", 1, []⟩,
   ⟨n!"radio_telescope_calibration.get_full_uv_map_with_antenna_stamp", n!"radio_telescope_calibration.from_antenna_config_with_antenna_stamp", 2, []⟩,
   ⟨n!"radio_telescope_calibration._process_chunk_get_full_uv_map_with_antenna_stamp", n!"radio_telescope_layout.earth_rotation_effect", 4, []⟩,
   ⟨n!"radio_telescope_calibration._process_chunk_get_full_uv_map_with_antenna_stamp", n!"radio_telescope_calibration._grid_uv_tracks_with_antenna_stamp", 6, [n!"boxsize", n!"include_mirror_baselines"]⟩,
   ⟨n!"radio_telescope_calibration._grid_uv_tracks_with_antenna_stamp", n!"cosmo.z_to_cdist", 1, []⟩,
   ⟨n!"radio_telescope_calibration.get_full_uv_lagrangian_with_antenna_stamp", n!"radio_telescope_layout.subarray_type_to_antxyz", 1, []⟩,
   ⟨n!"radio_telescope_calibration.get_full_uv_lagrangian_with_antenna_stamp", n!"radio_telescope_calibration.from_antenna_config_with_antenna_stamp", 2, []⟩,
   ⟨n!"radio_telescope_calibration._process_chunk_get_full_uv_lagrangian_with_antenna_stamp", n!"radio_telescope_layout.earth_rotation_effect", 4, []⟩,
   ⟨n!"radio_telescope_calibration._process_chunk_get_full_uv_lagrangian_with_antenna_stamp", n!"radio_telescope_calibration._grid_uv_lagrangian_tracks_with_antenna_stamp", 6, [n!"boxsize", n!"include_mirror_baselines"]⟩,
   ⟨n!"radio_telescope_calibration._grid_uv_lagrangian_tracks_with_antenna_stamp", n!"cosmo.z_to_cdist", 1, []⟩]

/-- Calls in `radio_telescope_layout.py` (lines 33-504). -/
def calls_radio_telescope_layout : List Call :=
  [⟨n!"radio_telescope_layout.subarray_type_to_antxyz", n!"radio_telescope_layout.get_SKA_Low_layout", 0, [n!"subarray_type", n!"unit", n!"verbose"]⟩,
   ⟨n!"radio_telescope_layout.subarray_type_to_antxyz", n!"radio_telescope_layout.SKA1_LowConfig_Sept2016", 0, []⟩,
   ⟨n!"radio_telescope_layout.subarray_type_to_antxyz", n!"radio_telescope_layout.geographic_to_cartesian_coordinate_system", 1, []⟩,
   ⟨n!"radio_telescope_layout.from_antenna_config", n!"radio_telescope_layout.SKA1_LowConfig_Sept2016", 0, []⟩,
   ⟨n!"radio_telescope_layout.from_antenna_config", n!"radio_telescope_layout.geographic_to_cartesian_coordinate_system", 1, []⟩,
   ⟨n!"radio_telescope_layout.from_antenna_config", n!"cosmo.z_to_nu", 1, []⟩,
   ⟨n!"radio_telescope_layout.get_uv_daily_observation", n!"radio_telescope_layout.from_antenna_config", 2, []⟩,
   ⟨n!"radio_telescope_layout.get_uv_daily_observation", n!"radio_telescope_layout.earth_rotation_effect", 5, []⟩,
   ⟨n!"radio_telescope_layout.get_uv_daily_observation", n!"radio_telescope_layout.grid_uv_tracks", 3, [n!"boxsize", n!"include_mirror_baselines"]⟩,
   ⟨n!"radio_telescope_layout.grid_uv_tracks", n!"cosmo.z_to_cdist", 1, []⟩,
   ⟨n!"radio_telescope_layout.get_SKA_Low_layout", n!"read_files.get_package_resource_path", 2, []⟩,
   ⟨n!"radio_telescope_layout.get_SKA_Low_layout", n!"radio_telescope_layout.enu_to_ecef", 4, []⟩,
   ⟨n!"radio_telescope_layout.get_SKA_Low_layout", n!"radio_telescope_layout.ecef_to_xyz", 3, []⟩]

/-- Calls in `radio_telescope_noise.py` (lines 152-918). -/
def calls_radio_telescope_noise : List Call :=
  [⟨n!"radio_telescope_noise.noise_coeval_power_spectrum_1d", n!"radio_telescope_layout.subarray_type_to_antxyz", 1, [n!"verbose"]⟩,
   ⟨n!"radio_telescope_noise.noise_coeval_power_spectrum_1d", n!"radio_telescope_noise.get_uv_map", 2, [n!"subarray_type", n!"total_int_time", n!"int_time", n!"boxsize", n!"declination"]⟩,
   ⟨n!"radio_telescope_noise.noise_coeval_power_spectrum_1d", n!"radio_telescope_sensitivity.sigma_noise_radio", 4, [n!"uv_map", n!"N_ant", n!"verbose", n!"T_sys", n!"sefd_data", n!"nu_data", n!"D_station", n!"ep_aperture"]⟩,
   ⟨n!"radio_telescope_noise.noise_coeval_power_spectrum_1d", n!"power_spectrum._get_dims", 2, []⟩,
   ⟨n!"radio_telescope_noise.noise_coeval_power_spectrum_1d", n!"scipy_func.numpy_product", 1, []⟩,
   ⟨n!"radio_telescope_noise.noise_coeval_power_spectrum_1d", n!"power_spectrum.radial_average", 2, [n!"kbins", n!"binning"]⟩,
   ⟨n!"radio_telescope_noise.get_uv_map_lightcone", n!"radio_telescope_layout.subarray_type_to_antxyz", 1, [n!"verbose"]⟩,
   ⟨n!"radio_telescope_noise.get_uv_map_lightcone", n!"read_files.read_dictionary_data", 1, []⟩,
   ⟨n!"radio_telescope_noise.get_uv_map_lightcone", n!"radio_telescope_noise.get_uv_map", 2, [n!"subarray_type", n!"total_int_time", n!"int_time", n!"boxsize", n!"declination", n!"verbose"]⟩,
   ⟨n!"radio_telescope_noise.get_uv_map_lightcone", n!"read_files.write_dictionary_data", 2, []⟩,
   ⟨n!"radio_telescope_noise.noise_map", n!"radio_telescope_layout.subarray_type_to_antxyz", 1, [n!"verbose"]⟩,
   ⟨n!"radio_telescope_noise.noise_map", n!"radio_telescope_noise.get_uv_map", 2, [n!"subarray_type", n!"total_int_time", n!"int_time", n!"boxsize", n!"declination"]⟩,
   ⟨n!"radio_telescope_noise.noise_map", n!"radio_telescope_sensitivity.sigma_noise_radio", 4, [n!"uv_map", n!"N_ant", n!"verbose", n!"T_sys", n!"sefd_data", n!"nu_data", n!"D_station", n!"ep_aperture"]⟩,
   ⟨n!"radio_telescope_noise.noise_map", n!"radio_telescope_noise.apply_uv_response_noise", 2, [n!"boxsize", n!"uv_weighting", n!"suppress_sharp_features_uv_map"]⟩,
   ⟨n!"radio_telescope_noise.noise_map", n!"radio_telescope_noise.signal_window", 2, [n!"ndim"]⟩,
   ⟨n!"radio_telescope_noise.noise_map", n!"radio_telescope_noise.ifft2_wrap", 1, []⟩,
   ⟨n!"radio_telescope_noise._suppress_sharp_features_uv_map", n!"power_spectrum.radial_average", 2, [n!"kbins", n!"binning"]⟩,
   ⟨n!"radio_telescope_noise._suppress_sharp_features_uv_map", n!"power_spectrum._get_k", 2, []⟩,
   ⟨n!"radio_telescope_noise.apply_uv_response_noise", n!"radio_telescope_noise._suppress_sharp_features_uv_map", 1, [n!"boxsize", n!"method", n!"filter_param"]⟩,
   ⟨n!"radio_telescope_noise.max_baseline_to_max_k", n!"cosmo.z_to_cdist", 1, []⟩,
   ⟨n!"radio_telescope_noise.get_uv_map", n!"radio_telescope_layout.subarray_type_to_antxyz", 1, [n!"verbose"]⟩,
   ⟨n!"radio_telescope_noise.get_uv_map", n!"radio_telescope_layout.get_uv_daily_observation", 3, [n!"total_int_time", n!"int_time", n!"boxsize", n!"declination", n!"include_mirror_baselines", n!"verbose"]⟩,
   ⟨n!"radio_telescope_noise.get_uv_map", n!"radio_telescope_noise.max_baseline_to_max_k", 2, []⟩,
   ⟨n!"radio_telescope_noise.make_uv_map_lightcone", n!"radio_telescope_noise.get_uv_map", 2, [n!"subarray_type", n!"total_int_time", n!"int_time", n!"boxsize", n!"declination", n!"verbose"]⟩,
   ⟨n!"radio_telescope_noise.apply_uv_response_on_coeval", n!"radio_telescope_noise.get_uv_map", 2, [n!"subarray_type", n!"total_int_time", n!"int_time", n!"boxsize", n!"declination"]⟩,
   ⟨n!"radio_telescope_noise.apply_uv_response_on_coeval", n!"radio_telescope_noise.apply_uv_response_on_image", 1, [n!"uv_map"]⟩,
   ⟨n!"radio_telescope_noise.noise_cube_coeval", n!"radio_telescope_layout.subarray_type_to_antxyz", 1, [n!"verbose"]⟩,
   ⟨n!"radio_telescope_noise.noise_cube_coeval", n!"cosmo.z_to_nu", 1, []⟩, ⟨n!"radio_telescope_noise.noise_cube_coeval", n!"cosmo.cdist_to_z", 1, []⟩,
   ⟨n!"radio_telescope_noise.noise_cube_coeval", n!"cosmo.z_to_cdist", 1, []⟩,
   ⟨n!"radio_telescope_noise.noise_cube_coeval", n!"radio_telescope_noise.get_uv_map", 2, [n!"subarray_type", n!"total_int_time", n!"int_time", n!"boxsize", n!"declination"]⟩,
   ⟨n!"radio_telescope_noise.noise_cube_coeval", n!"radio_telescope_noise.noise_map", 3, [n!"obs_time", n!"subarray_type", n!"boxsize", n!"total_int_time", n!"int_time", n!"declination", n!"uv_map", n!"N_ant", n!"uv_weighting", n!"fft_wrap", n!"T_sys", n!"sefd_data", n!"nu_data", n!"D_station", n!"ep_aperture", n!"suppress_sharp_features_uv_map"]⟩,
   ⟨n!"radio_telescope_noise.noise_cube_coeval", n!"radio_telescope_sensitivity.jansky_2_kelvin", 2, [n!"boxsize"]⟩,
   ⟨n!"radio_telescope_noise.noise_cube_lightcone", n!"radio_telescope_layout.subarray_type_to_antxyz", 1, [n!"verbose"]⟩,
   ⟨n!"radio_telescope_noise.noise_cube_lightcone", n!"cosmo.cdist_to_z", 1, []⟩,
   ⟨n!"radio_telescope_noise.noise_cube_lightcone", n!"cosmo.z_to_cdist", 1, []⟩,
   ⟨n!"radio_telescope_noise.noise_cube_lightcone", n!"radio_telescope_noise.noise_lightcone", 21, []⟩,
   ⟨n!"radio_telescope_noise.noise_lightcone", n!"radio_telescope_noise.get_uv_map_lightcone", 2, [n!"subarray_type", n!"total_int_time", n!"int_time", n!"boxsize", n!"declination", n!"save_uvmap", n!"n_jobs", n!"verbose", n!"checkpoint"]⟩,
   ⟨n!"radio_telescope_noise.noise_lightcone", n!"cosmo.z_to_nu", 1, []⟩,
   ⟨n!"radio_telescope_noise.noise_lightcone", n!"radio_telescope_noise.noise_map", 3, [n!"obs_time", n!"subarray_type", n!"boxsize", n!"total_int_time", n!"int_time", n!"declination", n!"uv_map", n!"N_ant", n!"uv_weighting", n!"verbose", n!"fft_wrap", n!"T_sys", n!"sefd_data", n!"nu_data", n!"D_station", n!"ep_aperture", n!"suppress_sharp_features_uv_map"]⟩,
   ⟨n!"radio_telescope_noise.noise_lightcone", n!"radio_telescope_sensitivity.jansky_2_kelvin", 2, [n!"boxsize"]⟩,
   ⟨n!"radio_telescope_noise.smooth_gauss_3d", n!"radio_telescope_noise.gauss_kernel_3d", 1, [n!"fwhm"]⟩]

/-- Calls in `radio_telescope_sensitivity.py` (lines 52-251). -/
def calls_radio_telescope_sensitivity : List Call :=
  [⟨n!"radio_telescope_sensitivity.get_SEFD", n!"read_files.get_package_resource_path", 2, []⟩,
   ⟨n!"radio_telescope_sensitivity.sigma_noise_radio", n!"radio_telescope_sensitivity.get_SEFD", 2, [n!"sefd_data", n!"nu_data", n!"D_station", n!"ep_aperture"]⟩,
   ⟨n!"radio_telescope_sensitivity.kelvin_jansky_conversion", n!"cosmo.z_to_cdist", 1, []⟩,
   ⟨n!"radio_telescope_sensitivity.kelvin_jansky_conversion", n!"cosmo.z_to_nu", 1, []⟩,
   ⟨n!"radio_telescope_sensitivity.jansky_2_kelvin", n!"radio_telescope_sensitivity.kelvin_jansky_conversion", 2, [n!"boxsize"]⟩,
   ⟨n!"radio_telescope_sensitivity.kelvin_2_jansky", n!"radio_telescope_sensitivity.kelvin_jansky_conversion", 2, [n!"boxsize"]⟩]

/-- Calls in `read_files.py` (lines 33-156). -/
def calls_read_files : List Call :=
  [⟨n!"read_files.read_21cmfast_files", n!"read_files._load_binary_data", 1, []⟩, ⟨n!"read_files.read_c2ray_files", n!"xfrac_file.XfracFile", 1, []⟩,
   ⟨n!"read_files.read_c2ray_files", n!"helper_functions.get_data_and_type", 1, []⟩,
   ⟨n!"read_files.read_grizzly_files", n!"xfrac_file.XfracFile", 1, []⟩,
   ⟨n!"read_files.coeval_21cm_c2ray", n!"read_files.coeval_xfrac_c2ray", 2, [n!"interpolation"]⟩,
   ⟨n!"read_files.coeval_21cm_c2ray", n!"read_files.coeval_dens_c2ray", 2, []⟩, ⟨n!"read_files.coeval_21cm_c2ray", n!"temperature.calc_dt", 2, [n!"z"]⟩,
   ⟨n!"read_files.coeval_xfrac_c2ray", n!"lightcone._get_file_redshifts", 2, []⟩, ⟨n!"read_files.coeval_xfrac_c2ray", n!"xfrac_file.XfracFile", 1, []⟩,
   ⟨n!"read_files.coeval_dens_c2ray", n!"lightcone._get_file_redshifts", 2, []⟩,
   ⟨n!"read_files.coeval_dens_c2ray", n!"helper_functions.get_data_and_type", 1, []⟩]

/-- Calls in `segmentation.py` (lines 51-174). -/
def calls_segmentation : List Call :=
  [⟨n!"segmentation.balanced_cross_entropy", n!"segmentation.sigmoid_balanced_cross_entropy_with_logits", 0, [n!"logits", n!"labels", n!"beta"]⟩,
   ⟨n!"segmentation.segunet21cm.__init__", n!"segmentation.segunet21cm.IndependentOperations", 0, [n!"verbose"]⟩,
   ⟨n!"segmentation.segunet21cm.IndependentOperations", n!"segmentation.segunet21cm.UniqueRows", 1, []⟩,
   ⟨n!"segmentation.segunet21cm.prediction", n!"segmentation.segunet21cm.load_model", 0, []⟩]

/-- Calls in `smoothing.py` (lines 184-593). -/
def calls_smoothing : List Call :=
  [⟨n!"smoothing.smooth_gauss", n!"smoothing.gauss_kernel", 1, [n!"sigma", n!"fwhm"]⟩, ⟨n!"smoothing.smooth_gauss", n!"smoothing.smooth_with_kernel", 2, []⟩,
   ⟨n!"smoothing.smooth_tophat", n!"smoothing.smooth_tophat", 2, []⟩, ⟨n!"smoothing.smooth_tophat", n!"smoothing.tophat_kernel", 2, []⟩,
   ⟨n!"smoothing.smooth_tophat", n!"smoothing.smooth_with_kernel", 2, []⟩, ⟨n!"smoothing.smooth_lanczos", n!"smoothing.lanczos_kernel", 2, []⟩,
   ⟨n!"smoothing.smooth_lanczos", n!"smoothing.smooth_with_kernel", 2, []⟩, ⟨n!"smoothing.smooth_with_kernel", n!"fft_functions.fftconvolve", 2, []⟩,
   ⟨n!"smoothing.smooth_lightcone", n!"cosmo.z_to_cdist", 1, []⟩, ⟨n!"smoothing.smooth_lightcone", n!"cosmo.cdist_to_z", 1, []⟩,
   ⟨n!"smoothing.smooth_lightcone", n!"cosmo.hubble_parameter", 1, []⟩,
   ⟨n!"smoothing.smooth_lightcone", n!"smoothing.smooth_lightcone_tophat", 3, [n!"verbose"]⟩,
   ⟨n!"smoothing.smooth_lightcone", n!"smoothing.smooth_lightcone_gauss", 2, []⟩, ⟨n!"smoothing.smooth_coeval", n!"cosmo.z_to_cdist", 1, []⟩,
   ⟨n!"smoothing.smooth_coeval", n!"smoothing.smooth_coeval_tophat", 2, [n!"nu_axis", n!"verbose"]⟩,
   ⟨n!"smoothing.smooth_coeval", n!"smoothing.smooth_coeval_gauss", 2, [n!"nu_axis"]⟩,
   ⟨n!"smoothing.smooth_coeval_tophat", n!"smoothing.tophat_kernel", 2, []⟩,
   ⟨n!"smoothing.smooth_coeval_tophat", n!"smoothing.smooth_with_kernel", 2, []⟩,
   ⟨n!"smoothing.smooth_coeval_gauss", n!"smoothing.smooth_lightcone_gauss", 2, [n!"nu_axis"]⟩,
   ⟨n!"smoothing.smooth_lightcone_tophat", n!"helper_functions.find_idx", 2, []⟩,
   ⟨n!"smoothing.smooth_lightcone_gauss", n!"smoothing.smooth_gauss", 1, [n!"fwhm"]⟩,
   ⟨n!"smoothing.remove_baselines_from_uvmap", n!"cosmo.z_to_cdist", 1, []⟩,
   ⟨n!"smoothing.convolve_uvmap", n!"radio_telescope_noise.get_uv_map", 2, [n!"filename", n!"total_int_time", n!"int_time", n!"boxsize", n!"declination", n!"verbose"]⟩,
   ⟨n!"smoothing.convolve_uvmap", n!"smoothing.remove_baselines_from_uvmap", 2, [n!"max_baseline", n!"box_size_mpc"]⟩,
   ⟨n!"smoothing.convolve_uvmap_coeval", n!"radio_telescope_noise.get_uv_map", 2, [n!"filename", n!"total_int_time", n!"int_time", n!"boxsize", n!"declination", n!"verbose"]⟩,
   ⟨n!"smoothing.convolve_uvmap_coeval", n!"smoothing.remove_baselines_from_uvmap", 2, [n!"max_baseline", n!"box_size_mpc"]⟩,
   ⟨n!"smoothing.convolve_uvmap_coeval", n!"cosmo.z_to_cdist", 1, []⟩,
   ⟨n!"smoothing.convolve_uvmap_coeval", n!"smoothing.smooth_coeval_tophat", 2, [n!"nu_axis", n!"verbose"]⟩,
   ⟨n!"smoothing.convolve_uvmap_coeval", n!"smoothing.convolve_uvmap", 1, [n!"uv_map", n!"verbose", n!"box_size_mpc"]⟩]

/-- Calls in `source_file.py` (lines 34-159). -/
def calls_source_file : List Call :=
  [⟨n!"source_file.SourceFile.__init__", n!"source_file.SourceFile.read_from_file", 2, []⟩,
   ⟨n!"source_file.SourceFile.read_from_file", n!"helper_functions.print_msg", 1, []⟩,
   ⟨n!"source_file.SourceFile.read_from_file", n!"conv.gridmass_to_msol", 1, []⟩,
   ⟨n!"source_file.SourceFile.grid_sources", n!"helper_functions.print_msg", 1, []⟩,
   ⟨n!"source_file.SourceFile.write_to_file", n!"helper_functions.print_msg", 1, []⟩,
   ⟨n!"source_file.SourceFile.write_to_file", n!"conv.gridmass_to_msol", 1, []⟩]

/-- Calls in `statistics.py` (lines 141-141). -/
def calls_statistics : List Call :=
  [⟨n!"statistics.apply_func_along_los", n!"statistics._get_slice", 3, []⟩]

/-- Calls in `superpixels.py` (lines 96-225). -/
def calls_superpixels : List Call :=
  [⟨n!"superpixels.stitch_using_histogram", n!"superpixels.superpixel_map", 2, [n!"mns", n!"verbose"]⟩,
   ⟨n!"superpixels.stitch_superpixels", n!"superpixels.get_superpixel_means", 1, [n!"labels", n!"verbose"]⟩,
   ⟨n!"superpixels.stitch_superpixels", n!"superpixels.stitch_using_histogram", 3, [n!"bins", n!"binary", n!"on_superpixel_map", n!"verbose"]⟩,
   ⟨n!"superpixels.get_superpixel_means", n!"superpixels.slic_cube", 1, [n!"n_segments", n!"verbose"]⟩,
   ⟨n!"superpixels.get_superpixel_means", n!"superpixels.apply_operator_labelled_data", 2, [n!"operator", n!"verbose"]⟩,
   ⟨n!"superpixels.get_superpixel_sigmas", n!"superpixels.slic_cube", 1, [n!"n_segments", n!"verbose"]⟩,
   ⟨n!"superpixels.get_superpixel_sigmas", n!"superpixels.apply_operator_labelled_data", 2, [n!"operator", n!"verbose"]⟩,
   ⟨n!"superpixels.get_superpixel_n_pixels", n!"superpixels.slic_cube", 1, [n!"n_segments", n!"verbose"]⟩,
   ⟨n!"superpixels.get_superpixel_SNRs", n!"superpixels.get_superpixel_means", 1, [n!"labels", n!"slic_segments"]⟩,
   ⟨n!"superpixels.get_superpixel_SNRs", n!"superpixels.get_superpixel_sigmas", 1, [n!"labels", n!"slic_segments"]⟩,
   ⟨n!"superpixels.get_superpixel_SNRs", n!"superpixels.get_superpixel_n_pixels", 1, [n!"labels", n!"slic_segments"]⟩,
   ⟨n!"superpixels.get_superpixel_SNRs", n!"superpixels.get_superpixel_pixels", 0, [n!"data", n!"labels", n!"slic_segments"]⟩,
   ⟨n!"superpixels.get_superpixel_pixels", n!"superpixels.slic_cube", 1, [n!"n_segments", n!"verbose"]⟩,
   ⟨n!"superpixels.get_superpixel_pixels", n!"superpixels.apply_operator_labelled_data", 2, [n!"operator", n!"verbose"]⟩,
   ⟨n!"superpixels.mean_estimate", n!"superpixels.get_superpixel_SNRs", 0, [n!"means", n!"sigmas", n!"n_pix"]⟩,
   ⟨n!"superpixels.mean_estimate", n!"superpixels.get_combined_mean_std", 3, []⟩,
   ⟨n!"superpixels.superpixel_map", n!"superpixels.get_superpixel_means", 1, [n!"labels", n!"verbose"]⟩]

/-- Calls in `tau.py` (lines 115-115). -/
def calls_tau : List Call :=
  [⟨n!"tau.tau_map", n!"lightcone.make_lightcone", 1, [n!"file_redshifts", n!"reading_function"]⟩]

/-- Calls in `temper_file.py` (lines 30-65). -/
def calls_temper_file : List Call :=
  [⟨n!"temper_file.TemperFile.__init__", n!"temper_file.TemperFile.read_from_file", 2, []⟩,
   ⟨n!"temper_file.TemperFile.read_from_file", n!"helper_functions.print_msg", 1, []⟩]

/-- Calls in `temperature.py` (lines 47-229). -/
def calls_temperature : List Call :=
  [⟨n!"temperature.calc_dt_halo", n!"temperature.mean_dt", 1, []⟩, ⟨n!"temperature.calc_dt", n!"helper_functions.get_data_and_type", 1, []⟩,
   ⟨n!"temperature.calc_dt", n!"helper_functions.determine_redshift_from_filename", 1, []⟩,
   ⟨n!"temperature.calc_dt", n!"helper_functions.print_msg", 1, []⟩, ⟨n!"temperature.calc_dt", n!"temperature._dt", 3, []⟩,
   ⟨n!"temperature.calc_dt_full", n!"helper_functions.get_data_and_type", 1, []⟩,
   ⟨n!"temperature.calc_dt_full", n!"helper_functions.determine_redshift_from_filename", 1, []⟩,
   ⟨n!"temperature.calc_dt_full", n!"helper_functions.print_msg", 1, []⟩, ⟨n!"temperature.calc_dt_full", n!"temperature._dt_full", 5, []⟩,
   ⟨n!"temperature.calc_dt_lightcone", n!"helper_functions.read_cbin", 1, []⟩, ⟨n!"temperature.calc_dt_lightcone", n!"cosmo.z_to_cdist", 1, []⟩,
   ⟨n!"temperature.calc_dt_lightcone", n!"cosmo.cdist_to_z", 1, []⟩, ⟨n!"temperature.calc_dt_lightcone", n!"temperature._dt", 3, []⟩,
   ⟨n!"temperature.calc_dt_full_lightcone", n!"helper_functions.read_cbin", 1, []⟩,
   ⟨n!"temperature.calc_dt_full_lightcone", n!"cosmo.z_to_cdist", 1, []⟩, ⟨n!"temperature.calc_dt_full_lightcone", n!"cosmo.cdist_to_z", 1, []⟩,
   ⟨n!"temperature.calc_dt_full_lightcone", n!"temperature._dt_full", 5, []⟩, ⟨n!"temperature._dt", n!"temperature.mean_dt", 1, []⟩,
   ⟨n!"temperature._dt_full", n!"temperature.mean_dt", 1, []⟩]

/-- Calls in `test_case.py` (lines 100-100). -/
def calls_test_case : List Call :=
  [⟨n!"test_case.spherical_bubble_model", n!"test_case.paint_kernel", 3, []⟩]

/-- Calls in `topology.py` (lines 50-197). -/
def calls_topology : List Call :=
  [⟨n!"topology.EulerCharacteristic", n!"ViteBetti.CubeMap_torch", 1, []⟩, ⟨n!"topology.EulerCharacteristic", n!"ViteBetti.CubeMap", 1, []⟩,
   ⟨n!"topology.EulerCharacteristic", n!"ViteBetti.CubeMap_joblib", 1, [n!"n_jobs"]⟩,
   ⟨n!"topology.betti1", n!"topology.EulerCharacteristic", 1, [n!"thres", n!"neighbors", n!"speed_up", n!"verbose", n!"n_jobs"]⟩,
   ⟨n!"topology.betti1", n!"topology.betti0", 1, [n!"thres", n!"neighbors"]⟩, ⟨n!"topology.betti1", n!"topology.betti2", 1, [n!"thres", n!"neighbors"]⟩,
   ⟨n!"topology.genus", n!"topology.count_neighbors", 2, []⟩, ⟨n!"topology.count_neighbors", n!"topology.count_neighbors_once", 2, []⟩]

/-- Calls in `usefuls.py` (lines 35-120). -/
def calls_usefuls : List Call :=
  [⟨n!"usefuls.get_zs_list", n!"lightcone._get_file_redshifts", 2, []⟩, ⟨n!"usefuls.coeval_21cm", n!"usefuls.coeval_xfrac", 2, [n!"interpolation"]⟩,
   ⟨n!"usefuls.coeval_21cm", n!"usefuls.coeval_dens", 2, [n!"interpolation"]⟩, ⟨n!"usefuls.coeval_21cm", n!"temperature.calc_dt", 2, [n!"z"]⟩,
   ⟨n!"usefuls.coeval_xfrac", n!"lightcone._get_file_redshifts", 2, []⟩, ⟨n!"usefuls.coeval_xfrac", n!"xfrac_file.XfracFile", 1, []⟩,
   ⟨n!"usefuls.coeval_dens", n!"lightcone._get_file_redshifts", 2, []⟩, ⟨n!"usefuls.coeval_dens", n!"helper_functions.get_data_and_type", 1, []⟩,
   ⟨n!"usefuls.coeval_overdens", n!"usefuls.coeval_dens", 2, [n!"interpolation"]⟩, ⟨n!"usefuls.coeval_vel", n!"lightcone._get_file_redshifts", 2, []⟩,
   ⟨n!"usefuls.coeval_vel.get_vel", n!"density_file.DensityFile", 1, []⟩]

/-- Calls in `vel_file.py` (lines 33-127). -/
def calls_vel_file : List Call :=
  [⟨n!"vel_file.VelocityFile.__init__", n!"vel_file.VelocityFile.read_from_file", 1, []⟩,
   ⟨n!"vel_file.VelocityFile.read_from_file", n!"helper_functions.print_msg", 1, []⟩,
   ⟨n!"vel_file.VelocityFile.write_to_file", n!"helper_functions.print_msg", 1, []⟩,
   ⟨n!"vel_file.VelocityFile.get_kms_from_density", n!"density_file.DensityFile", 1, []⟩]

/-- Calls in `xfrac_file.py` (lines 32-136). -/
def calls_xfrac_file : List Call :=
  [⟨n!"xfrac_file.XfracFile.__init__", n!"xfrac_file.XfracFile.read_from_file", 2, [n!"neutral", n!"binary_format"]⟩,
   ⟨n!"xfrac_file.XfracFile.read_from_file", n!"helper_functions.print_msg", 1, []⟩,
   ⟨n!"xfrac_file.XfracFile.write_to_file", n!"helper_functions.print_msg", 1, []⟩]

/-- All calls. -/
def calls : List Call :=
  calls_Friends_of_Friends ++ calls_angular_coordinates ++ calls_beam_convolve ++ calls_bispectrum ++ calls_box_counting ++ calls_bubble_stats ++ calls_compare_constraints ++ calls_conv ++ calls_corr_function ++ calls_cosmo ++ calls_density_file ++ calls_deprecated ++ calls_fitting_methods ++ calls_foreground_model ++ calls_gaussian_random_field ++ calls_halo_list ++ calls_helper_functions ++ calls_identify_regions ++ calls_irate_file ++ calls_lightcone ++ calls_line_intensity ++ calls_lyman_alpha_coupling ++ calls_lyman_alpha_transmission ++ calls_mfp_np ++ calls_model_21cmfast ++ calls_morph ++ calls_nbody_file ++ calls_nbody_pkdgrav ++ calls_nbody_tools ++ calls_numba_functions ++ calls_percolation ++ calls_plotting ++ calls_position_dependent_power_spectrum ++ calls_power_legendre ++ calls_power_spect_fast ++ calls_power_spectrum ++ calls_power_spectrum_noise ++ calls_primary_beam ++ calls_pv_mpm ++ calls_radio_telescope_calibration ++ calls_radio_telescope_layout ++ calls_radio_telescope_noise ++ calls_radio_telescope_sensitivity ++ calls_read_files ++ calls_segmentation ++ calls_smoothing ++ calls_source_file ++ calls_statistics ++ calls_superpixels ++ calls_tau ++ calls_temper_file ++ calls_temperature ++ calls_test_case ++ calls_topology ++ calls_usefuls ++ calls_vel_file ++ calls_xfrac_file

end Verif.Calls

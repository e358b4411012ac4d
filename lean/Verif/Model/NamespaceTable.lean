import Verif.Model.Namespace
/-!
# The top-level statements of the modules, and the global names that their functions read

Extracted from the syntax trees of `src/tools21cm/*.py`: the imports, definitions and assignments at the top level in their order (of `try` and `if` all branches,
except `if __name__ == '__main__'`), and for each function, method or class the names that it reads and does not bind.  The script `apply_mpi_lya_c.py` is left
out.
-/

namespace Verif.Namespace

/-- Top-level statements of `conv.py` (lines 1-108). -/
def body_conv : List Stmt :=
  [.sub n!"const" n!"const", .bring n!"np" n!"numpy", .sub n!"hf" n!"helper_functions", .assign n!"boxsize", .assign n!"LB", .assign n!"nbox_fine",
   .assign n!"M_box", .assign n!"M_grid", .assign n!"lscale", .assign n!"tscale", .assign n!"velconvert", .define n!"set_sim_constants",
   .define n!"gridpos_to_mpc", .define n!"gridvel_to_kms", .define n!"gridmass_to_msol"]

/-- Top-level statements of `const.py` (lines 1-112). -/
def body_const : List Stmt :=
  [.bring n!"np" n!"numpy", .assign n!"abu_he", .assign n!"abu_h", .assign n!"c", .assign n!"pc", .assign n!"Mpc", .assign n!"G_grav", .assign n!"c_light_cgs",
   .assign n!"c_light_SI", .assign n!"KB_SI", .assign n!"janskytowatt", .assign n!"m_p", .assign n!"mean_molecular", .assign n!"abu_he_mass",
   .assign n!"abu_h_mass", .define n!"set_abundance_helium", .assign n!"mean_molecular", .assign n!"solar_masses_per_gram", .assign n!"kms",
   .assign n!"yr_in_sec", .assign n!"h", .assign n!"Omega0", .assign n!"OmegaB", .assign n!"lam", .assign n!"OmegaL", .assign n!"n_s", .assign n!"sigma_8",
   .assign n!"q0", .define n!"set_hubble_h", .define n!"set_omega_matter", .define n!"set_omega_baryon", .define n!"set_omega_lambda", .define n!"set_ns",
   .define n!"set_sigma_8", .assign n!"H0", .assign n!"H0cgs", .assign n!"rho_crit_0", .assign n!"rho_matter", .assign n!"Tcmb0", .assign n!"Hz",
   .assign n!"A10", .assign n!"nu0", .assign n!"Tstar", .assign n!"lambda0", .assign n!"num_h_0", .assign n!"meandt"]

/-- Top-level statements of `scipy_func.py` (lines 1-21). -/
def body_scipy_func : List Stmt :=
  [.bring n!"quad" n!"scipy.integrate", .bring n!"odeint" n!"scipy.integrate", .bring n!"trapz" n!"scipy.integrate", .bring n!"cumtrapz" n!"scipy.integrate",
   .bring n!"simps" n!"scipy.integrate", .bring n!"trapz" n!"scipy.integrate", .bring n!"cumtrapz" n!"scipy.integrate", .bring n!"simps" n!"scipy.integrate",
   .bring n!"splrep" n!"scipy.interpolate", .bring n!"splev" n!"scipy.interpolate", .bring n!"interp1d" n!"scipy.interpolate",
   .bring n!"gamma" n!"scipy.special", .bring n!"erf" n!"scipy.special", .bring n!"savgol_filter" n!"scipy.signal", .bring n!"windows" n!"scipy.signal",
   .bring n!"fsolve" n!"scipy.optimize", .bring n!"gaussian_filter" n!"scipy.ndimage", .bring n!"np" n!"numpy", .define n!"numpy_product"]

/-- Top-level statements of `helper_functions.py` (lines 1-640). -/
def body_helper_functions : List Stmt :=
  [.bring n!"np" n!"numpy", .bring n!"interp1d" n!"scipy.interpolate", .sub n!"const" n!"const", .bring n!"glob" n!"glob", .bring n!"os" n!"os",
   .bring n!"time" n!"time", .bring n!"os" n!"os.path", .bring n!"array" n!"numpy", .bring n!"asarray" n!"numpy", .bring n!"roll" n!"numpy",
   .bring n!"matrix_rank" n!"numpy.linalg", .bring n!"fft" n!"scipy.fftpack", .bring n!"ifft" n!"scipy.fftpack", .bring n!"fftn" n!"scipy.fftpack",
   .bring n!"ifftn" n!"scipy.fftpack", .bring n!"rfftn" n!"numpy.fft", .bring n!"irfftn" n!"numpy.fft", .bring n!"ceil" n!"math", .bring n!"floor" n!"math",
   .bring n!"ne" n!"numexpr", .assign n!"numexpr_available", .assign n!"numexpr_available", .define n!"real_to_fourier_amplitude_phase",
   .define n!"get_source_redshifts", .define n!"get_xfrac_redshifts", .define n!"get_dens_redshifts", .define n!"_get_redshifts_in_range",
   .define n!"print_msg", .define n!"flt_comp", .define n!"get_interpolated_array", .define n!"read_cbin", .define n!"read_raw_binary",
   .define n!"save_raw_binary", .define n!"save_cbin", .define n!"read_fits", .define n!"save_fits", .define n!"determine_filetype",
   .define n!"get_data_and_type", .define n!"save_data", .define n!"get_mesh_size", .define n!"outputify", .define n!"determine_redshift_from_filename",
   .define n!"find_idx", .define n!"get_eval", .assign n!"verbose", .define n!"set_verbose", .define n!"combined_mean_variance"]

/-- Top-level statements of `cosmo.py` (lines 1-374). -/
def body_cosmo : List Stmt :=
  [.sub n!"const" n!"const", .bring n!"np" n!"numpy", .star n!"scipy_func", .take n!"helper_functions" n!"outputify" n!"outputify", .assign n!"precalc_table_z",
   .assign n!"precalc_table_cdist", .define n!"_ldist", .define n!"luminosity_distance", .define n!"z_to_cdist", .define n!"cdist_to_z",
   .define n!"z_to_age", .define n!"angular_size", .define n!"angular_size_comoving", .define n!"deg_to_cdist", .define n!"nu_to_z", .define n!"z_to_nu",
   .define n!"nu_to_wavel", .define n!"nu_to_cdist", .define n!"c_to_p", .define n!"p_to_c", .define n!"hubble_parameter", .define n!"Tvir_to_M",
   .define n!"M_to_Tvir"]

/-- Top-level statements of `usefuls.py` (lines 1-135). -/
def body_usefuls : List Stmt :=
  [.bring n!"np" n!"numpy", .bring n!"sys" n!"sys", .sub n!"conv" n!"conv", .sub n!"const" n!"const", .sub n!"helper_functions" n!"helper_functions",
   .sub n!"lightcone" n!"lightcone", .sub n!"tm" n!"temperature", .sub n!"density_file" n!"density_file", .sub n!"vel_file" n!"vel_file",
   .sub n!"xfrac_file" n!"xfrac_file", .bring n!"glob" n!"glob", .define n!"loading_verbose", .define n!"loading_msg", .define n!"Mgrid_2_Msolar",
   .define n!"Msolar_2_Mgrid", .define n!"get_zs_list", .define n!"coeval_21cm", .define n!"coeval_xfrac", .define n!"coeval_dens",
   .define n!"coeval_overdens", .define n!"coeval_vel"]

/-- Top-level statements of `xfrac_file.py` (lines 1-138). -/
def body_xfrac_file : List Stmt :=
  [.sub n!"const" n!"const", .bring n!"np" n!"numpy", .bring n!"os" n!"os", .sub n!"df" n!"density_file", .take n!"helper_functions" n!"print_msg" n!"print_msg",
   .define n!"XfracFile"]

/-- Top-level statements of `read_files.py` (lines 1-380). -/
def body_read_files : List Stmt :=
  [.bring n!"np" n!"numpy", .bring n!"glob" n!"glob", .take n!"xfrac_file" n!"XfracFile" n!"XfracFile", .sub n!"helper_functions" n!"helper_functions",
   .sub n!"density_file" n!"density_file", .sub n!"vel_file" n!"vel_file", .sub n!"lightcone" n!"lightcone", .sub n!"tm" n!"temperature", .bring n!"sys" n!"sys",
   .bring n!"os" n!"os", .define n!"_load_binary_data", .define n!"read_21cmfast_files", .define n!"read_c2ray_files", .define n!"read_grizzly_files",
   .define n!"coeval_21cm_c2ray", .define n!"coeval_xfrac_c2ray", .define n!"coeval_dens_c2ray", .define n!"read_dictionary_data",
   .define n!"write_dictionary_data", .define n!"get_package_resource_path"]

/-- Top-level statements of `radio_telescope_layout.py` (lines 1-564). -/
def body_radio_telescope_layout : List Stmt :=
  [.bring n!"np" n!"numpy", .bring n!"os" n!"os", .bring n!"pickle" n!"pickle", .bring n!"itertools" n!"itertools", .bring n!"tqdm" n!"tqdm", .sub n!"cm" n!"cosmo",
   .sub n!"conv" n!"conv", .take n!"const" n!"KB_SI" n!"KB_SI", .take n!"const" n!"c_light_cgs" n!"c_light_cgs", .take n!"const" n!"c_light_SI" n!"c_light_SI",
   .take n!"const" n!"janskytowatt" n!"janskytowatt", .take n!"read_files" n!"get_package_resource_path" n!"get_package_resource_path",
   .bring n!"u" n!"astropy.units", .bring n!"EarthLocation" n!"astropy.coordinates", .define n!"subarray_type_to_antxyz", .define n!"from_antenna_config",
   .define n!"earth_rotation_effect", .define n!"get_uv_daily_observation", .define n!"grid_uv_tracks",
   .define n!"geographic_to_cartesian_coordinate_system", .define n!"cartesian_to_geographic_coordinate_system",
   .define n!"antenna_positions_to_baselines", .define n!"enu_to_ecef", .define n!"ecef_to_xyz", .define n!"get_SKA_Low_layout",
   .define n!"get_latest_SKA_Low_layout", .define n!"SKA1_LowConfig_Sept2016"]

/-- Top-level statements of `radio_telescope_sensitivity.py` (lines 1-253). -/
def body_radio_telescope_sensitivity : List Stmt :=
  [.bring n!"np" n!"numpy", .star n!"usefuls", .star n!"scipy_func", .sub n!"cm" n!"cosmo", .sub n!"conv" n!"conv", .take n!"const" n!"KB_SI" n!"KB_SI",
   .take n!"const" n!"c_light_cgs" n!"c_light_cgs", .take n!"const" n!"c_light_SI" n!"c_light_SI", .take n!"const" n!"janskytowatt" n!"janskytowatt",
   .star n!"radio_telescope_layout", .take n!"read_files" n!"get_package_resource_path" n!"get_package_resource_path", .define n!"get_SEFD",
   .define n!"sigma_noise_radio", .define n!"apply_uv_response", .define n!"kelvin_jansky_conversion", .define n!"jansky_2_kelvin",
   .define n!"kelvin_2_jansky"]

/-- Top-level statements of `power_spectrum.py` (lines 1-614). -/
def body_power_spectrum : List Stmt :=
  [.bring n!"np" n!"numpy", .bring n!"gc" n!"gc", .sub n!"const" n!"const", .sub n!"conv" n!"conv", .take n!"helper_functions" n!"print_msg" n!"print_msg",
   .take n!"helper_functions" n!"get_eval" n!"get_eval", .take n!"scipy_func" n!"numpy_product" n!"numpy_product", .bring n!"fftpack" n!"scipy",
   .bring n!"stats" n!"scipy", .define n!"apply_window", .define n!"power_spectrum_nd", .define n!"cross_power_spectrum_nd", .define n!"radial_average",
   .define n!"power_spectrum_1d", .define n!"power_spectrum_2d", .define n!"cross_power_spectrum_1d", .define n!"power_spectrum_mu",
   .define n!"cross_power_spectrum_mu", .define n!"mu_binning", .define n!"get_k", .define n!"get_kbins", .define n!"_get_k", .define n!"_get_mu",
   .define n!"_get_kbins", .define n!"_get_dims", .define n!"dimensionless_ps", .define n!"_get_nonzero_idx", .define n!"anisotropy_ratio_r_mu"]

/-- Top-level statements of `radio_telescope_noise.py` (lines 1-921). -/
def body_radio_telescope_noise : List Stmt :=
  [.bring n!"np" n!"numpy", .bring n!"sys" n!"sys", .star n!"radio_telescope_sensitivity", .star n!"usefuls", .sub n!"conv" n!"conv", .sub n!"cm" n!"cosmo",
   .sub n!"sm" n!"smoothing", .take n!"power_spectrum" n!"radial_average" n!"radial_average", .take n!"power_spectrum" n!"_get_k" n!"_get_k",
   .take n!"power_spectrum" n!"_get_dims" n!"_get_dims", .take n!"read_files" n!"read_dictionary_data" n!"read_dictionary_data",
   .take n!"read_files" n!"write_dictionary_data" n!"write_dictionary_data", .bring n!"scipy" n!"scipy", .star n!"scipy_func", .bring n!"glob" n!"glob",
   .bring n!"time" n!"time", .bring n!"sleep" n!"time", .bring n!"pickle" n!"pickle", .bring n!"u" n!"astropy.units", .bring n!"Parallel" n!"joblib",
   .bring n!"delayed" n!"joblib", .bring n!"tqdm" n!"tqdm", .define n!"signal_window", .define n!"noise_coeval_power_spectrum_1d",
   .define n!"get_uv_map_lightcone", .define n!"noise_map", .define n!"_suppress_sharp_features_uv_map", .define n!"apply_uv_response_noise",
   .define n!"apply_uv_response_noise_briggs", .define n!"ifft2_wrap", .define n!"apply_uv_response_on_image", .define n!"max_baseline_to_max_k",
   .define n!"get_uv_map", .define n!"make_uv_map_lightcone", .define n!"apply_uv_response_on_coeval", .define n!"noise_cube_coeval",
   .define n!"noise_cube_lightcone", .define n!"noise_lightcone", .define n!"gauss_kernel_3d", .define n!"smooth_gauss_3d"]

/-- Top-level statements of `fft_functions.py` (lines 1-251). -/
def body_fft_functions : List Stmt :=
  [.bring n!"np" n!"numpy", .bring n!"torch" n!"torch", .bring n!"torch_fft" n!"torch.fft", .assign n!"torch_available", .assign n!"torch_default_device",
   .assign n!"torch_default_device", .assign n!"torch_default_device", .assign n!"torch_available", .assign n!"torch", .assign n!"torch_fft",
   .assign n!"torch_default_device", .bring n!"jax" n!"jax", .bring n!"jnp" n!"jax.numpy", .assign n!"jax_available", .assign n!"jax_default_device",
   .assign n!"jax_available", .assign n!"jax", .assign n!"jnp", .assign n!"jax_default_device", .define n!"fftconvolve"]

/-- Top-level statements of `smoothing.py` (lines 1-658). -/
def body_smoothing : List Stmt :=
  [.bring n!"np" n!"numpy", .sub n!"const" n!"const", .sub n!"conv" n!"conv", .sub n!"cm" n!"cosmo", .take n!"radio_telescope_noise" n!"get_uv_map" n!"get_uv_map",
   .bring n!"ndimage" n!"scipy.ndimage", .bring n!"scipy" n!"scipy.interpolate", .bring n!"signal" n!"scipy", .bring n!"fft" n!"scipy.fftpack",
   .bring n!"ifft" n!"scipy.fftpack", .bring n!"fftn" n!"scipy.fftpack", .bring n!"ifftn" n!"scipy.fftpack", .bring n!"rfftn" n!"numpy.fft",
   .bring n!"irfftn" n!"numpy.fft", .bring n!"ceil" n!"math", .bring n!"floor" n!"math", .bring n!"array" n!"numpy", .bring n!"asarray" n!"numpy",
   .bring n!"roll" n!"numpy", .take n!"helper_functions" n!"find_idx" n!"find_idx", .take n!"fft_functions" n!"fftconvolve" n!"fftconvolve",
   .bring n!"tqdm" n!"tqdm", .bring n!"u" n!"astropy.units", .define n!"gauss_kernel", .define n!"gauss_kernel_3d", .define n!"tophat_kernel",
   .define n!"tophat_kernel_3d", .define n!"lanczos_kernel", .define n!"smooth_gauss", .define n!"smooth_tophat", .define n!"smooth_lanczos",
   .define n!"smooth_with_kernel", .define n!"get_beam_w", .define n!"interpolate3d", .define n!"interpolate2d", .define n!"smooth_lightcone",
   .define n!"smooth_coeval", .define n!"smooth_coeval_tophat", .define n!"smooth_coeval_gauss", .define n!"smooth_lightcone_tophat",
   .define n!"smooth_lightcone_gauss", .define n!"smooth_lightcone_uv_threshold", .define n!"remove_baselines_from_uvmap", .define n!"convolve_uvmap",
   .define n!"convolve_uvmap_coeval", .define n!"smooth_line"]

/-- Top-level statements of `beam_convolve.py` (lines 1-59). -/
def body_beam_convolve : List Stmt :=
  [.bring n!"np" n!"numpy", .take n!"cosmo" n!"angular_size" n!"angular_size", .bring n!"signal" n!"scipy", .take n!"helper_functions" n!"print_msg" n!"print_msg",
   .take n!"smoothing" n!"gauss_kernel" n!"gauss_kernel", .take n!"smoothing" n!"get_beam_w" n!"get_beam_w",
   .take n!"fft_functions" n!"fftconvolve" n!"fftconvolve", .define n!"beam_convolve"]

/-- Top-level statements of `density_file.py` (lines 1-220). -/
def body_density_file : List Stmt :=
  [.bring n!"np" n!"numpy", .sub n!"const" n!"const", .sub n!"conv" n!"conv", .take n!"helper_functions" n!"print_msg" n!"print_msg", .define n!"DensityFile",
   .define n!"ClumpingFile"]

/-- Top-level statements of `irate_file.py` (lines 1-71). -/
def body_irate_file : List Stmt :=
  [.sub n!"const" n!"const", .bring n!"np" n!"numpy", .take n!"helper_functions" n!"print_msg" n!"print_msg", .define n!"IonRateFile"]

/-- Top-level statements of `nbody_pkdgrav.py` (lines 1-291). -/
def body_nbody_pkdgrav : List Stmt :=
  [.bring n!"np" n!"numpy", .bring n!"splev" n!"scipy.interpolate", .bring n!"splrep" n!"scipy.interpolate", .bring n!"pd" n!"pandas", .bring n!"tqdm" n!"tqdm",
   .take n!"helper_functions" n!"save_data" n!"save_data", .define n!"ReaderPkdgrav3", .define n!"HaloCataloguePkdgrav3", .define n!"PowerSpectrumPkdgrav3",
   .define n!"Pkdgrav3data"]

/-- Top-level statements of `nbody_file.py` (lines 1-321). -/
def body_nbody_file : List Stmt :=
  [.bring n!"np" n!"numpy", .bring n!"glob" n!"glob", .bring n!"astropy" n!"astropy", .bring n!"cKDTree" n!"scipy.spatial",
   .bring n!"binned_statistic_dd" n!"scipy.stats", .sub n!"const" n!"const", .sub n!"conv" n!"conv", .take n!"helper_functions" n!"print_msg" n!"print_msg",
   .star n!"nbody_pkdgrav", .define n!"NbodyParticle", .define n!"NbodyFile", .define n!"read_pkdgrav_fof_halo_catalogue",
   .define n!"read_pkdgrav_density_grid", .define n!"Halo2Grid", .define n!"halo_list_to_grid"]

/-- Top-level statements of `nbody_tools.py` (lines 1-51). -/
def body_nbody_tools : List Stmt :=
  [.bring n!"np" n!"numpy", .bring n!"astropy" n!"astropy", .bring n!"units" n!"astropy", .define n!"_set_cosmo", .define n!"ParticleMass_to_ParticleNumber",
   .define n!"halo_mass_to_particle_number", .define n!"particle_number_to_particle_mass"]

/-- Top-level statements of `temper_file.py` (lines 1-67). -/
def body_temper_file : List Stmt :=
  [.sub n!"const" n!"const", .bring n!"np" n!"numpy", .take n!"helper_functions" n!"print_msg" n!"print_msg", .define n!"TemperFile"]

/-- Top-level statements of `vel_file.py` (lines 1-133). -/
def body_vel_file : List Stmt :=
  [.sub n!"const" n!"const", .sub n!"conv" n!"conv", .take n!"helper_functions" n!"print_msg" n!"print_msg", .sub n!"df" n!"density_file", .bring n!"np" n!"numpy",
   .define n!"VelocityFile"]

/-- Top-level statements of `source_file.py` (lines 1-159). -/
def body_source_file : List Stmt :=
  [.sub n!"const" n!"const", .sub n!"conv" n!"conv", .bring n!"np" n!"numpy", .take n!"helper_functions" n!"print_msg" n!"print_msg", .define n!"SourceFile"]

/-- Top-level statements of `halo_list.py` (lines 1-541). -/
def body_halo_list : List Stmt :=
  [.bring n!"np" n!"numpy", .bring n!"glob" n!"glob", .bring n!"time" n!"time", .bring n!"tqdm" n!"tqdm", .take n!"helper_functions" n!"print_msg" n!"print_msg",
   .sub n!"const" n!"const", .sub n!"conv" n!"conv", .define n!"Halo", .define n!"HaloRockstar", .define n!"HaloCubeP3MFull", .define n!"HaloCubeP3M",
   .define n!"HaloList"]

/-- Top-level statements of `statistics.py` (lines 1-167). -/
def body_statistics : List Stmt :=
  [.bring n!"np" n!"numpy", .define n!"skewness", .define n!"kurtosis", .define n!"mass_weighted_mean_xi", .define n!"subtract_mean_signal",
   .define n!"signal_overdensity", .define n!"apply_func_along_los", .define n!"_get_slice"]

/-- Top-level statements of `lightcone.py` (lines 1-569). -/
def body_lightcone : List Stmt :=
  [.sub n!"const" n!"const", .sub n!"conv" n!"conv", .bring n!"np" n!"numpy", .bring n!"os" n!"os", .bring n!"glob" n!"glob", .bring n!"time" n!"time",
   .take n!"helper_functions" n!"get_mesh_size" n!"get_mesh_size",
   .take n!"helper_functions" n!"determine_redshift_from_filename" n!"determine_redshift_from_filename",
   .take n!"helper_functions" n!"get_data_and_type" n!"get_data_and_type", .take n!"helper_functions" n!"print_msg" n!"print_msg",
   .take n!"helper_functions" n!"find_idx" n!"find_idx", .take n!"density_file" n!"DensityFile" n!"DensityFile",
   .take n!"vel_file" n!"VelocityFile" n!"VelocityFile", .sub n!"cm" n!"cosmo", .sub n!"st" n!"statistics", .sub n!"smoothing" n!"smoothing",
   .bring n!"scipy" n!"scipy.interpolate", .bring n!"tqdm" n!"tqdm", .define n!"make_lightcone", .define n!"make_velocity_lightcone",
   .define n!"_get_output_z", .define n!"redshifts_at_equal_comoving_distance", .define n!"redshifts_at_equal_frequncy_width",
   .define n!"get_lightcone_subvolume", .define n!"_get_interp_slice", .define n!"_get_step_weighted_slice", .define n!"_get_step_transitions",
   .define n!"_get_slice", .define n!"_get_filenames", .define n!"_get_file_redshifts", .define n!"_all_same"]

/-- Top-level statements of `tau.py` (lines 1-140). -/
def body_tau : List Stmt :=
  [.sub n!"const" n!"const", .sub n!"conv" n!"conv", .take n!"lightcone" n!"make_lightcone" n!"make_lightcone", .bring n!"np" n!"numpy", .bring n!"tqdm" n!"tqdm",
   .define n!"tau", .define n!"tau_map"]

/-- Top-level statements of `pv_mpm.py` (lines 1-159). -/
def body_pv_mpm : List Stmt :=
  [.bring n!"np" n!"numpy", .sub n!"const" n!"const", .sub n!"conv" n!"conv", .take n!"helper_functions" n!"print_msg" n!"print_msg",
   .take n!"helper_functions" n!"get_interpolated_array" n!"get_interpolated_array", .take n!"helper_functions" n!"read_cbin" n!"read_cbin",
   .sub n!"vel_file" n!"vel_file", .sub n!"density_file" n!"density_file", .define n!"get_distorted_dt", .define n!"make_pv_box"]

/-- Top-level statements of `temperature.py` (lines 1-275). -/
def body_temperature : List Stmt :=
  [.bring n!"np" n!"numpy", .sub n!"const" n!"const", .sub n!"conv" n!"conv", .sub n!"cosmo" n!"cosmo", .take n!"helper_functions" n!"print_msg" n!"print_msg",
   .take n!"helper_functions" n!"read_cbin" n!"read_cbin", .take n!"helper_functions" n!"get_data_and_type" n!"get_data_and_type",
   .take n!"helper_functions" n!"determine_redshift_from_filename" n!"determine_redshift_from_filename", .bring n!"constants" n!"astropy",
   .bring n!"units" n!"astropy", .bring n!"cosmology" n!"astropy", .define n!"calc_dt_halo", .define n!"calc_dt", .define n!"calc_dt_full",
   .define n!"calc_dt_lightcone", .define n!"calc_dt_full_lightcone", .define n!"mean_dt", .define n!"_dt", .define n!"_dt_full"]

/-- Top-level statements of `plotting.py` (lines 1-548). -/
def body_plotting : List Stmt :=
  [.bring n!"ABC" n!"abc", .bring n!"abstractmethod" n!"abc", .bring n!"np" n!"numpy", .bring n!"plt" n!"matplotlib.pyplot", .bring n!"mlines" n!"matplotlib.lines",
   .bring n!"mcolors" n!"matplotlib", .bring n!"inv" n!"scipy.linalg", .bring n!"entropy" n!"scipy.stats", .bring n!"pd" n!"pandas", .bring n!"corner" n!"corner",
   .assign n!"corner", .bring n!"plots" n!"getdist", .bring n!"MCSamples" n!"getdist", .assign n!"plots", .assign n!"MCSamples", .sub n!"conv" n!"conv",
   .take n!"helper_functions" n!"get_data_and_type" n!"get_data_and_type", .define n!"plot_slice", .define n!"plot_hist", .define n!"print_chain_stats",
   .define n!"plot_triangle", .define n!"DistributionDiagnostic", .define n!"GriddedProbabilities", .define n!"SampledDistribution"]

/-- Top-level statements of `power_legendre.py` (lines 1-101). -/
def body_power_legendre : List Stmt :=
  [.bring n!"np" n!"numpy", .take n!"power_spectrum" n!"_get_dims" n!"_get_dims", .take n!"power_spectrum" n!"power_spectrum_nd" n!"power_spectrum_nd",
   .take n!"power_spectrum" n!"_get_k" n!"_get_k", .take n!"power_spectrum" n!"_get_kbins" n!"_get_kbins", .take n!"power_spectrum" n!"_get_mu" n!"_get_mu",
   .take n!"power_spectrum" n!"get_eval" n!"get_eval", .take n!"power_spectrum" n!"_get_nonzero_idx" n!"_get_nonzero_idx",
   .define n!"power_spectrum_multipoles"]

/-- Top-level statements of `deprecated.py` (lines 1-134). -/
def body_deprecated : List Stmt :=
  [.bring n!"np" n!"numpy", .bring n!"os" n!"os", .take n!"lightcone" n!"redshifts_at_equal_comoving_distance" n!"redshifts_at_equal_comoving_distance",
   .take n!"lightcone" n!"_get_interp_slice" n!"_get_interp_slice", .take n!"xfrac_file" n!"XfracFile" n!"XfracFile",
   .take n!"density_file" n!"DensityFile" n!"DensityFile", .take n!"helper_functions" n!"print_msg" n!"print_msg",
   .take n!"helper_functions" n!"get_dens_redshifts" n!"get_dens_redshifts", .take n!"helper_functions" n!"get_mesh_size" n!"get_mesh_size",
   .take n!"helper_functions" n!"determine_redshift_from_filename" n!"determine_redshift_from_filename",
   .take n!"helper_functions" n!"get_data_and_type" n!"get_data_and_type", .take n!"helper_functions" n!"read_cbin" n!"read_cbin",
   .take n!"helper_functions" n!"save_cbin" n!"save_cbin", .take n!"temperature" n!"calc_dt" n!"calc_dt", .sub n!"smoothing" n!"smoothing", .define n!"freq_box",
   .define n!"read_binary_with_meshinfo", .define n!"save_binary_with_meshinfo", .define n!"smooth"]

/-- Top-level statements of `angular_coordinates.py` (lines 1-355). -/
def body_angular_coordinates : List Stmt :=
  [.bring n!"np" n!"numpy", .take n!"lightcone" n!"redshifts_at_equal_comoving_distance" n!"redshifts_at_equal_comoving_distance", .sub n!"cm" n!"cosmo",
   .sub n!"conv" n!"conv", .sub n!"hf" n!"helper_functions", .sub n!"smoothing" n!"smoothing", .sub n!"const" n!"const", .bring n!"fftconvolve" n!"scipy.signal",
   .bring n!"tqdm" n!"tqdm", .define n!"physical_lightcone_to_observational", .define n!"observational_lightcone_to_physical",
   .define n!"physical_slice_to_angular", .define n!"angular_slice_to_physical", .define n!"resample_slice", .define n!"bin_lightcone_in_frequency",
   .define n!"bin_lightcone_in_mpc", .define n!"_get_padded_slice", .define n!"padding_lightcone"]

/-- Top-level statements of `power_spectrum_noise.py` (lines 1-69). -/
def body_power_spectrum_noise : List Stmt :=
  [.sub n!"const" n!"const", .bring n!"np" n!"numpy", .sub n!"cm" n!"cosmo", .define n!"noise_error_ps"]

/-- Top-level statements of `gaussian_random_field.py` (lines 1-121). -/
def body_gaussian_random_field : List Stmt :=
  [.bring n!"np" n!"numpy", .bring n!"fftpack" n!"scipy", .take n!"power_spectrum" n!"_get_dims" n!"_get_dims", .take n!"power_spectrum" n!"_get_k" n!"_get_k",
   .take n!"power_spectrum" n!"power_spectrum_1d" n!"power_spectrum_1d", .star n!"scipy_func", .define n!"make_gaussian_random_field",
   .define n!"make_gaussian_random_field_like_field", .define n!"_get_ps_func_for_field", .define n!"fourier_phase_shuffled"]

/-- Top-level statements of `corr_function.py` (lines 1-183). -/
def body_corr_function : List Stmt :=
  [.bring n!"np" n!"numpy", .bring n!"splrep" n!"scipy.interpolate", .bring n!"splev" n!"scipy.interpolate", .bring n!"cKDTree" n!"scipy.spatial",
   .bring n!"tqdm" n!"tqdm", .take n!"power_spectrum" n!"power_spectrum_1d" n!"power_spectrum_1d",
   .take n!"power_spectrum" n!"cross_power_spectrum_1d" n!"cross_power_spectrum_1d", .sub n!"conv" n!"conv", .define n!"ps_to_corr",
   .define n!"correlation_function", .define n!"cross_correlation_function", .define n!"landy_szalay_estimator"]

/-- Top-level statements of `line_intensity.py` (lines 1-163). -/
def body_line_intensity : List Stmt :=
  [.bring n!"np" n!"numpy", .bring n!"glob" n!"glob", .bring n!"astropy" n!"astropy", .bring n!"constants" n!"astropy", .bring n!"units" n!"astropy",
   .bring n!"cosmology" n!"astropy", .take n!"nbody_file" n!"halo_list_to_grid" n!"halo_list_to_grid", .define n!"M_HI_on_grid", .define n!"L_CII_on_grid"]

/-- Top-level statements of `lyman_alpha_transmission.py` (lines 1-338). -/
def body_lyman_alpha_transmission : List Stmt :=
  [.bring n!"np" n!"numpy", .bring n!"glob" n!"glob", .bring n!"tqdm" n!"tqdm", .bring n!"integrate" n!"scipy", .bring n!"wofz" n!"scipy.special",
   .bring n!"astropy" n!"astropy", .bring n!"constants" n!"astropy", .bring n!"units" n!"astropy", .bring n!"Planck18" n!"astropy.cosmology",
   .define n!"approximation_voigt_faddeeva", .define n!"direct_voigt_profile", .define n!"lyA_scattering_cross_section", .define n!"tau_nu_lyA_FGPA",
   .define n!"tau_nu_lyA", .define n!"tau_nu_lyA_los"]

/-- Top-level statements of `Friends_of_Friends.py` (lines 1-94). -/
def body_Friends_of_Friends : List Stmt :=
  [.bring n!"np" n!"numpy", .bring n!"count" n!"itertools", .bring n!"Queue" n!"multiprocessing", .define n!"FoF_search", .define n!"gaussian", .define n!"halo3d"]

/-- Top-level statements of `bubble_stats.py` (lines 1-630). -/
def body_bubble_stats : List Stmt :=
  [.bring n!"np" n!"numpy", .take n!"Friends_of_Friends" n!"FoF_search" n!"FoF_search", .bring n!"ndimage" n!"scipy", .bring n!"os" n!"os", .bring n!"sys" n!"sys",
   .bring n!"datetime" n!"datetime", .bring n!"time" n!"time", .sub n!"mfp_np" n!"mfp_np", .sub n!"spa_np" n!"spa_np", .sub n!"conv" n!"conv", .sub n!"morph" n!"morph",
   .star n!"scipy_func", .bring n!"tqdm" n!"tqdm", .bring n!"Parallel" n!"joblib", .bring n!"delayed" n!"joblib", .take n!"usefuls" n!"loading_msg" n!"loading_msg",
   .define n!"fof", .define n!"spa", .define n!"mfp", .define n!"averaged_mfp", .define n!"mfp_from_point", .define n!"rebin_bsd",
   .define n!"dist_from_volumes", .define n!"get_distribution", .define n!"plot_fof_sizes", .define n!"disk_structure", .define n!"granulometry_CDF",
   .define n!"granulometry_bsd", .define n!"_granulometry", .bring n!"watershed" n!"skimage.segmentation", .bring n!"peak_local_max" n!"skimage.feature",
   .bring n!"reconstruction" n!"skimage.morphology", .define n!"h_transform", .define n!"_watershed", .define n!"watershed_bsd"]

/-- Top-level statements of `foreground_model.py` (lines 1-208). -/
def body_foreground_model : List Stmt :=
  [.bring n!"np" n!"numpy", .star n!"scipy_func", .take n!"radio_telescope_sensitivity" n!"jansky_2_kelvin" n!"jansky_2_kelvin",
   .take n!"radio_telescope_sensitivity" n!"from_antenna_config" n!"from_antenna_config", .sub n!"cm" n!"cosmo", .sub n!"const" n!"const", .sub n!"conv" n!"conv",
   .define n!"galactic_synch_fg", .define n!"extragalactic_pointsource_fg", .define n!"diabolo_filter", .define n!"barrel_filter",
   .define n!"remove_wedge_image", .define n!"rolling_wedge_removal_lightcone"]

/-- Top-level statements of `radio_telescope_calibration.py` (lines 1-720). -/
def body_radio_telescope_calibration : List Stmt :=
  [.bring n!"np" n!"numpy", .bring n!"sys" n!"sys", .star n!"radio_telescope_sensitivity", .star n!"usefuls", .sub n!"conv" n!"conv", .sub n!"cm" n!"cosmo",
   .sub n!"sm" n!"smoothing", .bring n!"glob" n!"glob", .bring n!"time" n!"time", .bring n!"sleep" n!"time", .bring n!"pickle" n!"pickle",
   .bring n!"cpu_count" n!"joblib", .bring n!"Parallel" n!"joblib", .bring n!"delayed" n!"joblib", .bring n!"tqdm" n!"tqdm",
   .define n!"from_antenna_config_with_gains", .define n!"get_uv_map_with_gains", .define n!"_grid_uv_tracks_with_gains",
   .define n!"gain_uv_map_to_uv_map", .define n!"apply_uv_with_gains_response_on_image", .define n!"from_antenna_config_with_antenna_stamp",
   .define n!"get_full_uv_map_with_antenna_stamp", .define n!"_process_chunk_get_full_uv_map_with_antenna_stamp",
   .define n!"_grid_uv_tracks_with_antenna_stamp", .define n!"full_uv_map_with_antenna_stamp_to_uv_map",
   .define n!"get_full_uv_lagrangian_with_antenna_stamp", .define n!"_process_chunk_get_full_uv_lagrangian_with_antenna_stamp",
   .define n!"_grid_uv_lagrangian_tracks_with_antenna_stamp"]

/-- Top-level statements of `superpixels.py` (lines 1-236). -/
def body_superpixels : List Stmt :=
  [.bring n!"np" n!"numpy", .bring n!"plt" n!"matplotlib.pyplot", .bring n!"spearmanr" n!"scipy.stats", .bring n!"slic" n!"skimage.segmentation",
   .bring n!"mark_boundaries" n!"skimage.segmentation", .bring n!"threshold_otsu" n!"skimage.filters", .bring n!"argrelextrema" n!"scipy.signal",
   .bring n!"sys" n!"sys", .bring n!"time" n!"time", .bring n!"tqdm" n!"tqdm", .define n!"slic_cube", .define n!"see_label", .define n!"binary_stitch",
   .define n!"boundaries", .define n!"under_segmentation_error", .define n!"stitch_using_histogram", .define n!"stitch_superpixels",
   .define n!"apply_operator_labelled_data", .define n!"get_superpixel_means", .define n!"get_superpixel_sigmas", .define n!"get_superpixel_n_pixels",
   .define n!"get_superpixel_SNRs", .define n!"get_superpixel_pixels", .define n!"mean_estimate", .define n!"get_combined_mean_std",
   .define n!"xfrac_mass_estimate", .define n!"xfrac_volume_estimate", .define n!"superpixel_map"]

/-- Top-level statements of `identify_regions.py` (lines 1-184). -/
def body_identify_regions : List Stmt :=
  [.bring n!"np" n!"numpy", .bring n!"threshold_otsu" n!"skimage.filters", .bring n!"threshold_triangle" n!"skimage.filters",
   .bring n!"argrelextrema" n!"scipy.signal", .bring n!"plt" n!"matplotlib.pyplot", .sub n!"superpixels" n!"superpixels", .bring n!"KMeans" n!"sklearn.cluster",
   .define n!"bubbles_from_slic", .define n!"bubbles_from_kmeans", .define n!"bubbles_from_fixed_threshold", .define n!"bubbles_from_triangle3D",
   .define n!"bubbles_from_triangle2D", .define n!"threshold_kmeans", .define n!"threshold_kmeans_3cluster"]

/-- Top-level statements of `primary_beam.py` (lines 1-104). -/
def body_primary_beam : List Stmt :=
  [.bring n!"np" n!"numpy", .bring n!"tqdm" n!"tqdm", .bring n!"j1" n!"scipy.special", .bring n!"units" n!"astropy", .sub n!"cm" n!"cosmo", .sub n!"conv" n!"conv",
   .define n!"primary_beam", .define n!"primary_beam_null", .define n!"circular_beam"]

/-- Top-level statements of `topology.py` (lines 1-209). -/
def body_topology : List Stmt :=
  [.bring n!"np" n!"numpy", .bring n!"sys" n!"sys", .bring n!"scipy" n!"scipy", .bring n!"os" n!"os", .bring n!"time" n!"time",
   .bring n!"BallTree" n!"sklearn.neighbors", .bring n!"KDTree" n!"sklearn.neighbors", .bring n!"NearestNeighbors" n!"sklearn.neighbors",
   .take n!"bubble_stats" n!"fof" n!"fof", .bring n!"label" n!"skimage.measure", .sub n!"VB" n!"ViteBetti", .define n!"EulerCharacteristic", .define n!"betti0",
   .define n!"betti2", .define n!"betti1", .define n!"genus", .define n!"count_neighbors", .define n!"count_neighbors_once"]

/-- Top-level statements of `box_counting.py` (lines 1-32). -/
def body_box_counting : List Stmt :=
  [.bring n!"np" n!"numpy", .bring n!"fftconvolve" n!"scipy.signal", .bring n!"interpolate" n!"scipy", .define n!"box_count_sliding", .define n!"get_kernel",
   .define n!"Renyi_diemsnions"]

/-- Top-level statements of `fitting_methods.py` (lines 1-83). -/
def body_fitting_methods : List Stmt :=
  [.bring n!"np" n!"numpy", .bring n!"tqdm" n!"tqdm", .bring n!"time" n!"time", .bring n!"sleep" n!"time", .bring n!"curve_fit" n!"scipy.optimize",
   .bring n!"least_squares" n!"scipy.optimize", .bring n!"minimize" n!"scipy.optimize", .bring n!"optimize" n!"scipy",
   .bring n!"train_test_split" n!"sklearn.model_selection", .bring n!"ShuffleSplit" n!"sklearn.model_selection",
   .bring n!"KFold" n!"sklearn.model_selection", .bring n!"GridSearchCV" n!"sklearn.model_selection", .bring n!"LeaveOneOut" n!"sklearn.model_selection",
   .bring n!"r2_score" n!"sklearn.metrics", .define n!"FitFunction"]

/-- Top-level statements of `percolation.py` (lines 1-48). -/
def body_percolation : List Stmt :=
  [.bring n!"np" n!"numpy", .bring n!"os" n!"os", .bring n!"sys" n!"sys", .bring n!"datetime" n!"datetime", .bring n!"time" n!"time",
   .sub n!"bubble_stats" n!"bubble_stats", .bring n!"tqdm" n!"tqdm", .define n!"find_percolation_cluster"]

/-- Top-level statements of `compare_constraints.py` (lines 1-467). -/
def body_compare_constraints : List Stmt :=
  [.bring n!"np" n!"numpy", .bring n!"plt" n!"matplotlib.pyplot", .bring n!"os" n!"os", .bring n!"sys" n!"sys",
   .take n!"read_files" n!"get_package_resource_path" n!"get_package_resource_path", .define n!"ReionizationHistory", .define n!"EscapeFractionLymanAlpha"]

/-- Top-level statements of `astro_tools.py` (lines 1-152). -/
def body_astro_tools : List Stmt :=
  [.bring n!"np" n!"numpy", .bring n!"glob" n!"glob", .bring n!"astropy" n!"astropy", .bring n!"constants" n!"astropy", .bring n!"units" n!"astropy",
   .bring n!"Planck18" n!"astropy.cosmology", .define n!"FoV_cMpc2", .define n!"mag_to_flux", .define n!"Muv_to_muv", .define n!"muv_to_Muv",
   .define n!"Muv_to_L1500"]

/-- Top-level statements of `bispectrum.py` (lines 1-335). -/
def body_bispectrum : List Stmt :=
  [.bring n!"np" n!"numpy", .bring n!"gc" n!"gc", .bring n!"time" n!"time", .bring n!"sleep" n!"time", .bring n!"tqdm" n!"tqdm", .bring n!"fftpack" n!"scipy",
   .bring n!"stats" n!"scipy", .bring n!"Parallel" n!"joblib", .bring n!"delayed" n!"joblib", .sub n!"const" n!"const", .sub n!"conv" n!"conv",
   .take n!"helper_functions" n!"print_msg" n!"print_msg", .take n!"helper_functions" n!"get_eval" n!"get_eval",
   .take n!"scipy_func" n!"numpy_product" n!"numpy_product", .take n!"power_spectrum" n!"_get_dims" n!"_get_dims", .take n!"power_spectrum" n!"_get_k" n!"_get_k",
   .take n!"power_spectrum" n!"_get_kbins" n!"_get_kbins", .take n!"power_spectrum" n!"apply_window" n!"apply_window", .define n!"fft_nd",
   .define n!"Bispectrum", .define n!"BispectrumPylians", .define n!"bispectrum_k1k2", .define n!"bispectrum_equilateral"]

/-- Top-level statements of `position_dependent_power_spectrum.py` (lines 1-150). -/
def body_position_dependent_power_spectrum : List Stmt :=
  [.bring n!"np" n!"numpy", .bring n!"tqdm" n!"tqdm", .star n!"power_spectrum", .define n!"power_spectrum_response", .define n!"integrated_bispectrum",
   .define n!"integrated_bispectrum_cross", .define n!"_W_L", .define n!"integrated_bispectrum_cross_slide"]

/-- Top-level statements of `test_case.py` (lines 1-122). -/
def body_test_case : List Stmt :=
  [.bring n!"np" n!"numpy", .bring n!"tqdm" n!"tqdm", .bring n!"ball" n!"skimage.morphology", .bring n!"ndimage" n!"scipy", .define n!"paint_kernel",
   .define n!"spherical_bubble_model"]

/-- Top-level statements of `ViteBetti.py` (lines 1-263). -/
def body_ViteBetti : List Stmt :=
  [.bring n!"np" n!"numpy", .bring n!"os" n!"os", .bring n!"jit" n!"numba", .assign n!"numba_available", .assign n!"numba_available", .define n!"jit",
   .bring n!"cython_CubeMap" n!"tools21cm.ViteBetti_cython", .assign n!"cython_available", .assign n!"cython_CubeMap", .assign n!"cython_available",
   .bring n!"Parallel" n!"joblib", .bring n!"delayed" n!"joblib", .bring n!"shared_memory" n!"multiprocessing", .assign n!"joblib_available",
   .assign n!"joblib_available", .assign n!"Parallel", .assign n!"delayed", .assign n!"shared_memory", .bring n!"torch" n!"torch", .assign n!"torch_available",
   .assign n!"torch_device", .assign n!"torch_device", .assign n!"torch_device", .assign n!"torch_available", .assign n!"torch", .define n!"CubeMap",
   .assign n!"CubeMap_numba", .assign n!"CubeMap_cython", .define n!"_CubeMap_joblib_worker", .define n!"CubeMap_joblib", .define n!"CubeMap_torch"]

/-- Top-level statements of `lyman_alpha_coupling.py` (lines 1-181). -/
def body_lyman_alpha_coupling : List Stmt :=
  [.bring n!"np" n!"numpy", .bring n!"interp1d" n!"scipy.interpolate", .bring n!"interp2d" n!"scipy.interpolate", .star n!"usefuls", .bring n!"os" n!"os",
   .bring n!"glob" n!"glob", .bring n!"time" n!"time", .bring n!"timeit" n!"timeit", .assign n!"lam_lya", .assign n!"lam_HII", .assign n!"f_esc_lya",
   .assign n!"dlam", .assign n!"h_planck", .assign n!"c_light", .assign n!"nu_lya", .assign n!"E_lya", .assign n!"m2parsec", .assign n!"yr2sec",
   .define n!"_read_halofile", .define n!"Lya_coupling_coeff", .define n!"one_source", .define n!"Lya_coupling_coeff_MPI", .define n!"Lya_coupling_coeff_",
   .define n!"one_source_", .define n!"Lya_coupling_coeff_useprofile", .define n!"_get_xc", .define n!"_get_profile"]

/-- Top-level statements of `mfp_np.py` (lines 1-173). -/
def body_mfp_np : List Stmt :=
  [.bring n!"np" n!"numpy", .bring n!"RegularGridInterpolator" n!"scipy.interpolate", .bring n!"sys" n!"sys", .bring n!"time" n!"time", .bring n!"sleep" n!"time",
   .bring n!"tqdm" n!"tqdm", .define n!"_ray3d", .define n!"mfp3d", .define n!"mfp2d", .define n!"loading_verbose"]

/-- Top-level statements of `model_21cmfast.py` (lines 1-108). -/
def body_model_21cmfast : List Stmt :=
  [.bring n!"np" n!"numpy", .bring n!"time" n!"time", .define n!"_is_py21cmfast_installed", .define n!"run_21cmfast_init", .define n!"run_21cmfast_matter",
   .define n!"run_21cmfast_coeval"]

/-- Top-level statements of `morph.py` (lines 1-55). -/
def body_morph : List Stmt :=
  [.bring n!"np" n!"numpy", .bring n!"fftconvolve" n!"scipy.signal", .define n!"binary_dilation", .define n!"binary_erosion", .define n!"_erode_v1",
   .define n!"_erode_v2", .define n!"binary_opening"]

/-- Top-level statements of `numba_functions.py` (lines 1-173). -/
def body_numba_functions : List Stmt :=
  [.bring n!"np" n!"numpy", .bring n!"jit" n!"numba", .bring n!"prange" n!"numba", .star n!"usefuls", .sub n!"cm" n!"cosmo", .sub n!"conv" n!"conv",
   .bring n!"itertools" n!"itertools", .assign n!"KB_SI", .assign n!"c_light", .assign n!"janskytowatt", .define n!"superpixel_map_numba",
   .define n!"apply_operator_labelled_data_numba", .define n!"get_uv_daily_observation_numba", .define n!"from_antenna_config",
   .define n!"earth_rotation_effect", .define n!"get_uv_coverage"]

/-- Top-level statements of `power_spect_fast.py` (lines 1-366). -/
def body_power_spect_fast : List Stmt :=
  [.bring n!"np" n!"numpy", .bring n!"gc" n!"gc", .bring n!"interpolate" n!"scipy", .bring n!"stats" n!"scipy", .bring n!"tqdm" n!"tqdm", .sub n!"cosmo" n!"cosmo",
   .sub n!"smoothing" n!"smoothing", .sub n!"const" n!"const", .take n!"scipy_func" n!"numpy_product" n!"numpy_product", .define n!"power_spect_nd",
   .define n!"phase_spect_nd", .define n!"_get_k", .define n!"power_spect_1d", .define n!"power_spect_2d", .define n!"dimensional_power",
   .define n!"power_spect_mu", .define n!"plot_2d_power", .define n!"horizon_wedge_equation"]

/-- Top-level statements of `segmentation.py` (lines 1-207). -/
def body_segmentation : List Stmt :=
  [.bring n!"np" n!"numpy", .bring n!"tqdm" n!"tqdm", .bring n!"warnings" n!"warnings", .define n!"sigmoid_balanced_cross_entropy_with_logits",
   .define n!"balanced_cross_entropy", .define n!"iou", .define n!"dice_coef", .define n!"precision", .define n!"recall", .define n!"r2score",
   .define n!"segunet21cm"]

/-- Top-level statements of `spa_np.py` (lines 1-43). -/
def body_spa_np : List Stmt :=
  [.bring n!"np" n!"numpy", .sub n!"usefuls" n!"usefuls", .bring n!"fftconvolve" n!"scipy.signal", .bring n!"convolve" n!"scipy.signal",
   .bring n!"morphology" n!"skimage", .bring n!"tqdm" n!"tqdm", .define n!"spa_np", .define n!"put_sphere"]

/-- The modules in an order in which each one comes after those that it imports. -/
def modules : List (Ident × List Stmt) :=
  [(n!"conv", body_conv), (n!"const", body_const), (n!"scipy_func", body_scipy_func), (n!"helper_functions", body_helper_functions),
   (n!"cosmo", body_cosmo), (n!"usefuls", body_usefuls), (n!"xfrac_file", body_xfrac_file), (n!"read_files", body_read_files),
   (n!"radio_telescope_layout", body_radio_telescope_layout), (n!"radio_telescope_sensitivity", body_radio_telescope_sensitivity),
   (n!"power_spectrum", body_power_spectrum), (n!"radio_telescope_noise", body_radio_telescope_noise), (n!"fft_functions", body_fft_functions),
   (n!"smoothing", body_smoothing), (n!"beam_convolve", body_beam_convolve), (n!"density_file", body_density_file), (n!"irate_file", body_irate_file),
   (n!"nbody_pkdgrav", body_nbody_pkdgrav), (n!"nbody_file", body_nbody_file), (n!"nbody_tools", body_nbody_tools), (n!"temper_file", body_temper_file),
   (n!"vel_file", body_vel_file), (n!"source_file", body_source_file), (n!"halo_list", body_halo_list), (n!"statistics", body_statistics),
   (n!"lightcone", body_lightcone), (n!"tau", body_tau), (n!"pv_mpm", body_pv_mpm), (n!"temperature", body_temperature), (n!"plotting", body_plotting),
   (n!"power_legendre", body_power_legendre), (n!"deprecated", body_deprecated), (n!"angular_coordinates", body_angular_coordinates),
   (n!"power_spectrum_noise", body_power_spectrum_noise), (n!"gaussian_random_field", body_gaussian_random_field),
   (n!"corr_function", body_corr_function), (n!"line_intensity", body_line_intensity), (n!"lyman_alpha_transmission", body_lyman_alpha_transmission),
   (n!"Friends_of_Friends", body_Friends_of_Friends), (n!"bubble_stats", body_bubble_stats), (n!"foreground_model", body_foreground_model),
   (n!"radio_telescope_calibration", body_radio_telescope_calibration), (n!"superpixels", body_superpixels),
   (n!"identify_regions", body_identify_regions), (n!"primary_beam", body_primary_beam), (n!"topology", body_topology),
   (n!"box_counting", body_box_counting), (n!"fitting_methods", body_fitting_methods), (n!"percolation", body_percolation),
   (n!"compare_constraints", body_compare_constraints), (n!"astro_tools", body_astro_tools), (n!"bispectrum", body_bispectrum),
   (n!"position_dependent_power_spectrum", body_position_dependent_power_spectrum), (n!"test_case", body_test_case), (n!"ViteBetti", body_ViteBetti),
   (n!"lyman_alpha_coupling", body_lyman_alpha_coupling), (n!"mfp_np", body_mfp_np), (n!"model_21cmfast", body_model_21cmfast), (n!"morph", body_morph),
   (n!"numba_functions", body_numba_functions), (n!"power_spect_fast", body_power_spect_fast), (n!"segmentation", body_segmentation),
   (n!"spa_np", body_spa_np)]

/-- Top-level statements of `__init__.py` (lines 12-96). -/
def initBody : List Stmt :=
  [.bring n!"sys" n!"sys", .bring n!"importlib" n!"importlib.metadata", .assign n!"__version__", .assign n!"__version__", .star n!"conv", .star n!"const",
   .star n!"beam_convolve", .star n!"density_file", .star n!"irate_file", .star n!"nbody_file", .star n!"nbody_tools", .star n!"xfrac_file",
   .star n!"temper_file", .star n!"vel_file", .star n!"source_file", .star n!"halo_list", .star n!"statistics", .star n!"power_spectrum", .star n!"tau",
   .star n!"lightcone", .star n!"pv_mpm", .star n!"temperature", .star n!"helper_functions", .star n!"fft_functions", .star n!"cosmo", .star n!"plotting",
   .star n!"power_legendre", .star n!"deprecated", .star n!"angular_coordinates", .star n!"smoothing", .star n!"power_spectrum_noise",
   .star n!"gaussian_random_field", .star n!"corr_function", .star n!"line_intensity", .star n!"lyman_alpha_transmission", .star n!"bubble_stats",
   .star n!"foreground_model", .star n!"radio_telescope_sensitivity", .star n!"radio_telescope_layout", .star n!"radio_telescope_calibration",
   .star n!"usefuls", .star n!"radio_telescope_noise", .star n!"superpixels", .sub n!"segmentation" n!"segmentation", .star n!"identify_regions",
   .star n!"read_files", .star n!"primary_beam", .star n!"topology", .star n!"box_counting", .star n!"fitting_methods", .star n!"percolation",
   .star n!"compare_constraints", .star n!"astro_tools", .star n!"bispectrum", .star n!"position_dependent_power_spectrum", .star n!"test_case",
   .sub n!"model_21cmfast" n!"model_21cmfast", .bring n!"numpy" n!"numpy"]

/-- Global names read by the functions of `conv.py` (lines 1-108). -/
def reads_conv : List (Ident × List Ident) :=
  [(n!"lambda", [n!"lscale", n!"tscale"]), (n!"set_sim_constants", [n!"Exception", n!"LB", n!"M_box", n!"boxsize", n!"const", n!"float", n!"hf", n!"nbox_fine", n!"np"]),
   (n!"set_sim_constants.lambda", [n!"lscale", n!"tscale"]), (n!"gridpos_to_mpc", [n!"const", n!"lscale"]), (n!"gridvel_to_kms", [n!"velconvert"]),
   (n!"gridmass_to_msol", [n!"M_grid", n!"const", n!"np"])]

/-- Global names read by the functions of `const.py` (lines 1-112). -/
def reads_const : List (Ident × List Ident) :=
  [(n!"set_abundance_helium", [n!"abu_he_mass"]), (n!"set_hubble_h", [n!"h"]), (n!"set_omega_matter", [n!"Omega0", n!"lam"]),
   (n!"lambda", [n!"H0", n!"Omega0", n!"lam", n!"np"])]

/-- Global names read by the functions of `scipy_func.py` (lines 1-21). -/
def reads_scipy_func : List (Ident × List Ident) :=
  [(n!"numpy_product", [n!"np"])]

/-- Global names read by the functions of `helper_functions.py` (lines 1-640). -/
def reads_helper_functions : List (Ident × List Ident) :=
  [(n!"real_to_fourier_amplitude_phase", [n!"fftn", n!"np"]), (n!"get_source_redshifts", [n!"_get_redshifts_in_range", n!"float", n!"glob", n!"os"]),
   (n!"get_xfrac_redshifts", [n!"_get_redshifts_in_range", n!"float", n!"glob", n!"os"]),
   (n!"get_dens_redshifts", [n!"_get_redshifts_in_range", n!"float", n!"glob", n!"os"]), (n!"_get_redshifts_in_range", [n!"Exception", n!"np"]),
   (n!"print_msg", [n!"print", n!"time", n!"verbose"]), (n!"flt_comp", [n!"abs"]), (n!"get_interpolated_array", [n!"interp1d", n!"len", n!"np"]),
   (n!"read_cbin", [n!"np", n!"open", n!"print_msg"]), (n!"read_raw_binary", [n!"len", n!"np", n!"open", n!"print_msg", n!"round"]), (n!"save_raw_binary", [n!"np"]),
   (n!"save_cbin", [n!"np", n!"open", n!"print_msg"]), (n!"save_fits", [n!"get_data_and_type", n!"type"]), (n!"determine_filetype", [n!"os"]),
   (n!"get_data_and_type", [n!"Exception", n!"determine_filetype", n!"get_data_and_type", n!"isinstance", n!"np", n!"read_cbin", n!"str"]),
   (n!"save_data", [n!"np", n!"open", n!"print", n!"save_cbin", n!"save_fits", n!"save_raw_binary"]),
   (n!"get_mesh_size", [n!"Exception", n!"determine_filetype", n!"np", n!"open"]), (n!"outputify", [n!"hasattr", n!"len", n!"np", n!"type"]),
   (n!"determine_redshift_from_filename", [n!"float", n!"len", n!"os", n!"range"]), (n!"find_idx", [n!"ValueError", n!"len", n!"np", n!"outputify"]),
   (n!"get_eval", [n!"eval", n!"ne", n!"numexpr_available"]), (n!"combined_mean_variance", [n!"dict", n!"isinstance", n!"list", n!"np"])]

/-- Global names read by the functions of `cosmo.py` (lines 1-374). -/
def reads_cosmo : List (Ident × List Ident) :=
  [(n!"_ldist", [n!"const", n!"np", n!"type"]), (n!"luminosity_distance", [n!"_ldist", n!"const", n!"len", n!"np", n!"outputify", n!"quad", n!"range", n!"type"]),
   (n!"z_to_cdist", [n!"const", n!"len", n!"np", n!"outputify", n!"quad", n!"range"]), (n!"z_to_cdist.lambda", [n!"const", n!"np"]),
   (n!"cdist_to_z", [n!"float", n!"interp1d", n!"len", n!"np", n!"outputify", n!"precalc_table_cdist", n!"precalc_table_z", n!"range", n!"type", n!"z_to_cdist"]),
   (n!"z_to_age", [n!"const", n!"len", n!"np", n!"outputify", n!"quad", n!"range"]), (n!"z_to_age.lambda", [n!"const", n!"np"]),
   (n!"angular_size", [n!"luminosity_distance", n!"outputify"]), (n!"angular_size_comoving", [n!"angular_size", n!"c_to_p"]),
   (n!"deg_to_cdist", [n!"angular_size_comoving"]), (n!"nu_to_z", [n!"const"]), (n!"z_to_nu", [n!"const"]), (n!"nu_to_wavel", [n!"const"]),
   (n!"nu_to_cdist", [n!"nu_to_z", n!"z_to_cdist"]), (n!"hubble_parameter", [n!"const", n!"np"]), (n!"Tvir_to_M", [n!"const", n!"np"]),
   (n!"M_to_Tvir", [n!"const", n!"np"])]

/-- Global names read by the functions of `usefuls.py` (lines 1-135). -/
def reads_usefuls : List (Ident × List Ident) :=
  [(n!"loading_verbose", [n!"sys"]), (n!"loading_msg", [n!"sys"]), (n!"Mgrid_2_Msolar", [n!"const", n!"conv"]), (n!"Msolar_2_Mgrid", [n!"const", n!"conv"]),
   (n!"get_zs_list", [n!"glob", n!"lightcone", n!"np"]), (n!"coeval_21cm", [n!"coeval_dens", n!"coeval_xfrac", n!"tm"]),
   (n!"coeval_xfrac", [n!"ValueError", n!"glob", n!"lightcone", n!"np", n!"print", n!"xfrac_file"]),
   (n!"coeval_dens", [n!"ValueError", n!"glob", n!"helper_functions", n!"lightcone", n!"np", n!"print"]), (n!"coeval_overdens", [n!"coeval_dens", n!"np"]),
   (n!"coeval_vel", [n!"ValueError", n!"glob", n!"lightcone", n!"np", n!"print"]), (n!"coeval_vel.get_vel", [n!"density_file"])]

/-- Global names read by the functions of `xfrac_file.py` (lines 1-138). -/
def reads_xfrac_file : List (Ident × List Ident) :=
  [(n!"XfracFile.read_from_file", [n!"float", n!"np", n!"open", n!"print_msg"]), (n!"XfracFile.write_to_file", [n!"np", n!"open", n!"print_msg"])]

/-- Global names read by the functions of `read_files.py` (lines 1-380). -/
def reads_read_files : List (Ident × List Ident) :=
  [(n!"_load_binary_data", [n!"np", n!"open", n!"sys"]), (n!"read_21cmfast_files", [n!"_load_binary_data", n!"round"]),
   (n!"read_c2ray_files", [n!"XfracFile", n!"helper_functions", n!"np"]), (n!"read_grizzly_files", [n!"XfracFile"]),
   (n!"coeval_21cm_c2ray", [n!"coeval_dens_c2ray", n!"coeval_xfrac_c2ray", n!"print", n!"range", n!"tm"]),
   (n!"coeval_xfrac_c2ray", [n!"ValueError", n!"XfracFile", n!"glob", n!"lightcone", n!"np", n!"print"]),
   (n!"coeval_dens_c2ray", [n!"glob", n!"helper_functions", n!"lightcone", n!"np", n!"print"]),
   (n!"read_dictionary_data", [n!"ValueError", n!"dict", n!"np", n!"open", n!"os"]), (n!"read_dictionary_data.recursively_load", [n!"bytes", n!"isinstance"]),
   (n!"write_dictionary_data", [n!"Exception", n!"ValueError", n!"np", n!"open", n!"os"]),
   (n!"write_dictionary_data.recursive_save", [n!"dict", n!"isinstance", n!"str"]),
   (n!"get_package_resource_path", [n!"Exception", n!"FileNotFoundError", n!"ImportError", n!"__import__", n!"str"])]

/-- Global names read by the functions of `radio_telescope_layout.py` (lines 1-564). -/
def reads_radio_telescope_layout : List (Ident × List Ident) :=
  [
   (n!"subarray_type_to_antxyz", [n!"SKA1_LowConfig_Sept2016", n!"geographic_to_cartesian_coordinate_system", n!"get_SKA_Low_layout", n!"isinstance", n!"np", n!"str", n!"u"]),
   (n!"from_antenna_config", [n!"SKA1_LowConfig_Sept2016", n!"c_light_cgs", n!"cm", n!"float", n!"geographic_to_cartesian_coordinate_system", n!"itertools", n!"list", n!"np", n!"print", n!"range"]),
   (n!"earth_rotation_effect", [n!"len", n!"np"]),
   (n!"get_uv_daily_observation", [n!"from_antenna_config", n!"grid_uv_tracks", n!"int", n!"np", n!"print", n!"tqdm"]),
   (n!"get_uv_daily_observation.genexpr", [n!"earth_rotation_effect"]), (n!"grid_uv_tracks", [n!"cm", n!"conv", n!"float", n!"int", n!"np"]),
   (n!"geographic_to_cartesian_coordinate_system", [n!"isinstance", n!"np", n!"u"]),
   (n!"cartesian_to_geographic_coordinate_system", [n!"isinstance", n!"np", n!"u"]), (n!"antenna_positions_to_baselines", [n!"np", n!"tqdm"]),
   (n!"enu_to_ecef", [n!"np"]), (n!"ecef_to_xyz", [n!"np"]),
   (n!"get_SKA_Low_layout", [n!"EarthLocation", n!"ValueError", n!"ecef_to_xyz", n!"enu_to_ecef", n!"get_package_resource_path", n!"np", n!"print", n!"u"]),
   (n!"get_latest_SKA_Low_layout", [n!"print"]), (n!"SKA1_LowConfig_Sept2016", [n!"np"])]

/-- Global names read by the functions of `radio_telescope_sensitivity.py` (lines 1-253). -/
def reads_radio_telescope_sensitivity : List (Ident × List Ident) :=
  [
   (n!"get_SEFD", [n!"KB_SI", n!"ValueError", n!"callable", n!"get_package_resource_path", n!"interp1d", n!"isinstance", n!"janskytowatt", n!"np", n!"print", n!"str"]),
   (n!"get_SEFD.lambda", [n!"np"]), (n!"sigma_noise_radio", [n!"float", n!"get_SEFD", n!"np", n!"print"]), (n!"apply_uv_response", [n!"np", n!"range"]),
   (n!"kelvin_jansky_conversion", [n!"KB_SI", n!"c_light_SI", n!"cm", n!"conv", n!"float", n!"janskytowatt"]),
   (n!"jansky_2_kelvin", [n!"float", n!"kelvin_jansky_conversion"]), (n!"kelvin_2_jansky", [n!"float", n!"kelvin_jansky_conversion"])]

/-- Global names read by the functions of `power_spectrum.py` (lines 1-614). -/
def reads_power_spectrum : List (Ident × List Ident) :=
  [(n!"power_spectrum_nd", [n!"_get_dims", n!"fftpack", n!"np", n!"numpy_product", n!"print"]),
   (n!"cross_power_spectrum_nd", [n!"_get_dims", n!"fftpack", n!"np", n!"numpy_product", n!"print_msg"]),
   (n!"radial_average", [n!"_get_k", n!"_get_kbins", n!"np", n!"print_msg"]),
   (n!"power_spectrum_1d", [n!"_get_dims", n!"apply_window", n!"power_spectrum_nd", n!"radial_average"]),
   (n!"power_spectrum_2d", [n!"_get_dims", n!"_get_k", n!"apply_window", n!"gc", n!"int", n!"isinstance", n!"list", n!"np", n!"power_spectrum_nd", n!"stats", n!"type"]),
   (n!"cross_power_spectrum_1d", [n!"_get_dims", n!"cross_power_spectrum_nd", n!"radial_average"]),
   (n!"power_spectrum_mu", [n!"_get_dims", n!"mu_binning", n!"power_spectrum_nd"]),
   (n!"cross_power_spectrum_mu", [n!"_get_dims", n!"cross_power_spectrum_nd", n!"mu_binning"]),
   (n!"mu_binning", [n!"_get_k", n!"_get_kbins", n!"_get_mu", n!"_get_nonzero_idx", n!"bool", n!"int", n!"isinstance", n!"len", n!"np", n!"print_msg", n!"range", n!"tuple"]),
   (n!"get_k", [n!"_get_dims", n!"_get_k"]), (n!"get_kbins", [n!"_get_dims", n!"_get_k", n!"_get_kbins"]), (n!"_get_k", [n!"len", n!"np"]),
   (n!"_get_mu", [n!"Exception", n!"np"]), (n!"_get_kbins", [n!"int", n!"isinstance", n!"min", n!"np"]), (n!"_get_dims", [n!"conv", n!"hasattr", n!"len"]),
   (n!"dimensionless_ps", [n!"np", n!"power_spectrum_1d"]), (n!"_get_nonzero_idx", [n!"np"]), (n!"anisotropy_ratio_r_mu", [n!"np", n!"power_spectrum_mu"]),
   (n!"anisotropy_ratio_r_mu.listcomp", [n!"np"])]

/-- Global names read by the functions of `radio_telescope_noise.py` (lines 1-921). -/
def reads_radio_telescope_noise : List (Ident × List Ident) :=
  [(n!"signal_window", [n!"print", n!"windows"]),
   (n!"noise_coeval_power_spectrum_1d", [n!"_get_dims", n!"conv", n!"get_uv_map", n!"min", n!"np", n!"numpy_product", n!"print", n!"radial_average", n!"sigma_noise_radio", n!"subarray_type_to_antxyz"]),
   (n!"get_uv_map_lightcone", [n!"Parallel", n!"ValueError", n!"conv", n!"enumerate", n!"isinstance", n!"len", n!"list", n!"np", n!"os", n!"print", n!"range", n!"read_dictionary_data", n!"subarray_type_to_antxyz", n!"tqdm", n!"write_dictionary_data", n!"zip"]),
   (n!"get_uv_map_lightcone.lambda", [n!"get_uv_map"]), (n!"get_uv_map_lightcone.genexpr", [n!"delayed"]),
   (n!"noise_map", [n!"apply_uv_response_noise", n!"get_uv_map", n!"ifft2_wrap", n!"np", n!"sigma_noise_radio", n!"signal_window", n!"subarray_type_to_antxyz"]),
   (n!"_suppress_sharp_features_uv_map", [n!"_get_k", n!"gaussian_filter", n!"interp1d", n!"min", n!"np", n!"print", n!"radial_average"]),
   (n!"apply_uv_response_noise", [n!"_suppress_sharp_features_uv_map", n!"np", n!"print"]), (n!"apply_uv_response_noise_briggs", [n!"np"]),
   (n!"ifft2_wrap", [n!"np"]), (n!"apply_uv_response_on_image", [n!"np"]), (n!"max_baseline_to_max_k", [n!"cm", n!"isinstance", n!"np", n!"u"]),
   (n!"get_uv_map", [n!"conv", n!"get_uv_daily_observation", n!"max_baseline_to_max_k", n!"np", n!"subarray_type_to_antxyz"]),
   (n!"make_uv_map_lightcone", [n!"get_uv_map", n!"np", n!"print", n!"range"]),
   (n!"apply_uv_response_on_coeval", [n!"apply_uv_response_on_image", n!"conv", n!"get_uv_map", n!"np", n!"print", n!"range", n!"tqdm"]),
   (n!"noise_cube_coeval", [n!"cm", n!"conv", n!"get_uv_map", n!"jansky_2_kelvin", n!"noise_map", n!"np", n!"print", n!"range", n!"sleep", n!"subarray_type_to_antxyz", n!"tqdm"]),
   (n!"noise_cube_lightcone", [n!"cm", n!"conv", n!"noise_lightcone", n!"np", n!"subarray_type_to_antxyz"]),
   (n!"noise_lightcone", [n!"cm", n!"enumerate", n!"get_uv_map_lightcone", n!"isinstance", n!"jansky_2_kelvin", n!"list", n!"noise_map", n!"np", n!"print", n!"tqdm"]),
   (n!"gauss_kernel_3d", [n!"int", n!"np"]), (n!"smooth_gauss_3d", [n!"gauss_kernel_3d", n!"scipy"])]

/-- Global names read by the functions of `fft_functions.py` (lines 1-251). -/
def reads_fft_functions : List (Ident × List Ident) :=
  [
   (n!"fftconvolve", [n!"ImportError", n!"ValueError", n!"jax", n!"jax_available", n!"jnp", n!"len", n!"list", n!"np", n!"range", n!"reversed", n!"str", n!"torch", n!"torch_available", n!"torch_default_device", n!"torch_fft", n!"tuple", n!"zip"]),
   (n!"fftconvolve.listcomp", [n!"int"]), (n!"fftconvolve.genexpr", [n!"slice"])]

/-- Global names read by the functions of `smoothing.py` (lines 1-658). -/
def reads_smoothing : List (Ident × List Ident) :=
  [(n!"gauss_kernel", [n!"int", n!"np"]), (n!"gauss_kernel_3d", [n!"int", n!"np"]), (n!"tophat_kernel", [n!"int", n!"np"]), (n!"tophat_kernel_3d", [n!"int", n!"np"]),
   (n!"lanczos_kernel", [n!"np"]), (n!"smooth_gauss", [n!"gauss_kernel", n!"smooth_with_kernel"]),
   (n!"smooth_tophat", [n!"smooth_tophat", n!"smooth_with_kernel", n!"tophat_kernel"]), (n!"smooth_lanczos", [n!"lanczos_kernel", n!"smooth_with_kernel"]),
   (n!"smooth_with_kernel", [n!"fftconvolve", n!"len"]), (n!"get_beam_w", [n!"const", n!"np"]), (n!"interpolate3d", [n!"len", n!"ndimage", n!"np"]),
   (n!"interpolate2d", [n!"len", n!"ndimage", n!"np"]),
   (n!"smooth_lightcone", [n!"cm", n!"const", n!"conv", n!"isinstance", n!"np", n!"smooth_lightcone_gauss", n!"smooth_lightcone_tophat", n!"u"]),
   (n!"smooth_coeval", [n!"cm", n!"conv", n!"isinstance", n!"smooth_coeval_gauss", n!"smooth_coeval_tophat", n!"u"]),
   (n!"smooth_coeval_tophat", [n!"np", n!"range", n!"smooth_with_kernel", n!"tophat_kernel", n!"tqdm"]),
   (n!"smooth_coeval_gauss", [n!"np", n!"smooth_lightcone_gauss"]), (n!"smooth_lightcone_tophat", [n!"find_idx", n!"int", n!"np", n!"range", n!"tqdm"]),
   (n!"smooth_lightcone_gauss", [n!"len", n!"np", n!"range", n!"smooth_gauss"]),
   (n!"smooth_lightcone_uv_threshold", [n!"ValueError", n!"float", n!"isinstance", n!"np"]),
   (n!"remove_baselines_from_uvmap", [n!"cm", n!"conv", n!"isinstance", n!"np", n!"u"]),
   (n!"convolve_uvmap", [n!"conv", n!"get_uv_map", n!"isinstance", n!"np", n!"remove_baselines_from_uvmap", n!"u"]),
   (n!"convolve_uvmap_coeval", [n!"array", n!"cm", n!"conv", n!"get_uv_map", n!"isinstance", n!"np", n!"range", n!"remove_baselines_from_uvmap", n!"smooth_coeval_tophat", n!"tqdm", n!"u"]),
   (n!"convolve_uvmap_coeval.listcomp", [n!"convolve_uvmap"]), (n!"smooth_line", [n!"ValueError", n!"int", n!"isinstance", n!"list", n!"np"])]

/-- Global names read by the functions of `beam_convolve.py` (lines 1-59). -/
def reads_beam_convolve : List (Ident × List Ident) :=
  [(n!"beam_convolve", [n!"Exception", n!"angular_size", n!"gauss_kernel", n!"get_beam_w", n!"np", n!"print_msg", n!"signal"])]

/-- Global names read by the functions of `density_file.py` (lines 1-220). -/
def reads_density_file : List (Ident × List Ident) :=
  [(n!"DensityFile.read_from_file", [n!"const", n!"conv", n!"float", n!"np", n!"open", n!"print_msg"]),
   (n!"DensityFile.write_to_file", [n!"Exception", n!"const", n!"conv", n!"float", n!"np", n!"open", n!"print_msg"]),
   (n!"ClumpingFile.read_from_file", [n!"float", n!"np", n!"open", n!"print"]), (n!"ClumpingFile.write_to_file", [n!"Exception", n!"np", n!"open", n!"print_msg"])]

/-- Global names read by the functions of `irate_file.py` (lines 1-71). -/
def reads_irate_file : List (Ident × List Ident) :=
  [(n!"IonRateFile.read_from_file", [n!"float", n!"np", n!"open", n!"print_msg"])]

/-- Global names read by the functions of `nbody_pkdgrav.py` (lines 1-291). -/
def reads_nbody_pkdgrav : List (Ident × List Ident) :=
  [(n!"ReaderPkdgrav3.read_particles", [n!"dict", n!"np", n!"open", n!"pd", n!"zip"]), (n!"HaloCataloguePkdgrav3", [n!"float"]),
   (n!"HaloCataloguePkdgrav3.__init__", [n!"super"]), (n!"HaloCataloguePkdgrav3.read_fof_data", [n!"enumerate", n!"isinstance", n!"list", n!"np", n!"print"]),
   (n!"HaloCataloguePkdgrav3._read_fof_data", [n!"float", n!"isinstance", n!"np", n!"print", n!"str"]),
   (n!"HaloCataloguePkdgrav3.array_fof_data", [n!"np", n!"print", n!"range", n!"str", n!"tqdm"]), (n!"HaloCataloguePkdgrav3.save_fof_data", [n!"np", n!"print"]),
   (n!"HaloCataloguePkdgrav3.get_hmf_data", [n!"np"]), (n!"PowerSpectrumPkdgrav3.__init__", [n!"super"]),
   (n!"PowerSpectrumPkdgrav3.read_pk_data", [n!"float", n!"np", n!"open", n!"pd", n!"splev", n!"splrep"]), (n!"Pkdgrav3data.__init__", [n!"super"]),
   (n!"Pkdgrav3data.load_density_field", [n!"np", n!"round"])]

/-- Global names read by the functions of `nbody_file.py` (lines 1-321). -/
def reads_nbody_file : List (Ident × List Ident) :=
  [(n!"NbodyFile.__init__", [n!"NameError"]), (n!"NbodyFile._get_header", [n!"np", n!"round"]), (n!"NbodyFile.get_npart", [n!"glob", n!"len", n!"open", n!"range"]),
   (n!"NbodyFile.read_from_file", [n!"NbodyParticle", n!"glob", n!"len", n!"np", n!"open", n!"print", n!"print_msg", n!"range", n!"zip"]),
   (n!"read_pkdgrav_fof_halo_catalogue", [n!"Pkdgrav3data"]), (n!"read_pkdgrav_density_grid", [n!"Pkdgrav3data"]),
   (n!"Halo2Grid.set_halo_mass", [n!"print"]), (n!"Halo2Grid.pos_cm_to_grid", [n!"print"]), (n!"Halo2Grid.pos_mpc_to_grid", [n!"print"]),
   (n!"Halo2Grid.construct_tree", [n!"cKDTree", n!"print"]), (n!"Halo2Grid.value_on_grid", [n!"binned_statistic_dd"]),
   (n!"Halo2Grid.halo_mass_on_grid", [n!"np", n!"print"]), (n!"Halo2Grid.halo_value_on_grid", [n!"np", n!"print"]),
   (n!"halo_list_to_grid", [n!"Halo2Grid", n!"astropy", n!"isinstance", n!"print"])]

/-- Global names read by the functions of `nbody_tools.py` (lines 1-51). -/
def reads_nbody_tools : List (Ident × List Ident) :=
  [(n!"_set_cosmo", [n!"astropy", n!"print"]), (n!"ParticleMass_to_ParticleNumber", [n!"_set_cosmo", n!"isinstance", n!"np", n!"print", n!"units"]),
   (n!"halo_mass_to_particle_number", [n!"particle_number_to_particle_mass"]),
   (n!"particle_number_to_particle_mass", [n!"_set_cosmo", n!"isinstance", n!"np", n!"print", n!"units"])]

/-- Global names read by the functions of `temper_file.py` (lines 1-67). -/
def reads_temper_file : List (Ident × List Ident) :=
  [(n!"TemperFile.read_from_file", [n!"float", n!"np", n!"open", n!"print_msg"])]

/-- Global names read by the functions of `vel_file.py` (lines 1-133). -/
def reads_vel_file : List (Ident × List Ident) :=
  [(n!"VelocityFile.read_from_file", [n!"conv", n!"float", n!"np", n!"open", n!"print_msg"]),
   (n!"VelocityFile.write_to_file", [n!"Exception", n!"np", n!"open", n!"print_msg"]), (n!"VelocityFile.get_kms_from_density", [n!"df", n!"isinstance", n!"str"])]

/-- Global names read by the functions of `source_file.py` (lines 1-159). -/
def reads_source_file : List (Ident × List Ident) :=
  [(n!"SourceFile.read_from_file", [n!"conv", n!"float", n!"int", n!"np", n!"open", n!"print_msg", n!"range"]),
   (n!"SourceFile.grid_sources", [n!"int", n!"np", n!"print_msg", n!"range"]),
   (n!"SourceFile.write_to_file", [n!"Exception", n!"ValueError", n!"conv", n!"int", n!"open", n!"print_msg", n!"range"])]

/-- Global names read by the functions of `halo_list.py` (lines 1-541). -/
def reads_halo_list : List (Ident × List Ident) :=
  [(n!"HaloRockstar.read_from_file", [n!"Halo", n!"ValueError", n!"enumerate", n!"float", n!"int", n!"len", n!"np", n!"print_msg", n!"round", n!"tqdm"]),
   (n!"HaloRockstar.get", [n!"np", n!"tqdm"]), (n!"HaloCubeP3MFull.__init__", [n!"ValueError", n!"conv", n!"float"]),
   (n!"HaloCubeP3MFull.read_from_file", [n!"Halo", n!"const", n!"conv", n!"float", n!"len", n!"np", n!"print", n!"print_msg", n!"time", n!"tqdm"]),
   (n!"HaloCubeP3MFull.read_from_file.listcomp", [n!"float"]), (n!"HaloCubeP3MFull.get", [n!"np", n!"tqdm"]),
   (n!"HaloCubeP3MFull._reposition", [n!"enumerate"]), (n!"HaloCubeP3M.__init__", [n!"NameError"]), (n!"HaloCubeP3M._get_header", [n!"np"]),
   (n!"HaloCubeP3M._reposition", [n!"conv", n!"enumerate"]),
   (n!"HaloCubeP3M.read_from_file", [n!"Halo", n!"const", n!"conv", n!"glob", n!"len", n!"np", n!"open", n!"print_msg", n!"range"]),
   (n!"HaloCubeP3M.get", [n!"np", n!"tqdm"]), (n!"HaloList.read_from_file", [n!"Halo", n!"const", n!"conv", n!"float", n!"len", n!"np", n!"print_msg", n!"tqdm"]),
   (n!"HaloList.read_from_file.listcomp", [n!"float"])]

/-- Global names read by the functions of `statistics.py` (lines 1-167). -/
def reads_statistics : List (Ident × List Ident) :=
  [(n!"skewness", [n!"np"]), (n!"kurtosis", [n!"np"]), (n!"mass_weighted_mean_xi", [n!"np"]), (n!"subtract_mean_signal", [n!"range"]),
   (n!"signal_overdensity", [n!"range"]), (n!"apply_func_along_los", [n!"_get_slice", n!"len", n!"np", n!"range"]), (n!"_get_slice", [n!"len", n!"np"])]

/-- Global names read by the functions of `lightcone.py` (lines 1-569). -/
def reads_lightcone : List (Ident × List Ident) :=
  [
   (n!"make_lightcone", [n!"ValueError", n!"_get_file_redshifts", n!"_get_filenames", n!"_get_interp_slice", n!"_get_output_z", n!"dict", n!"enumerate", n!"get_data_and_type", n!"get_mesh_size", n!"isinstance", n!"len", n!"list", n!"np", n!"print", n!"range", n!"time", n!"tqdm"]),
   (n!"make_velocity_lightcone", [n!"_get_file_redshifts", n!"_get_filenames", n!"_get_interp_slice", n!"_get_output_z", n!"dict", n!"enumerate", n!"get_mesh_size", n!"isinstance", n!"len", n!"list", n!"np", n!"print", n!"range", n!"time", n!"tqdm"]),
   (n!"make_velocity_lightcone.lambda", [n!"DensityFile", n!"VelocityFile"]),
   (n!"_get_output_z", [n!"Exception", n!"len", n!"max", n!"min", n!"print", n!"redshifts_at_equal_comoving_distance", n!"redshifts_at_equal_frequncy_width"]),
   (n!"redshifts_at_equal_comoving_distance", [n!"const", n!"conv", n!"float", n!"np"]), (n!"redshifts_at_equal_frequncy_width", [n!"const", n!"np"]),
   (n!"get_lightcone_subvolume", [n!"Exception", n!"cm", n!"conv", n!"len", n!"np", n!"print", n!"st"]),
   (n!"_get_interp_slice", [n!"Exception", n!"_get_slice", n!"_get_step_weighted_slice", n!"np"]),
   (n!"_get_step_weighted_slice", [n!"_get_step_transitions", n!"np", n!"smoothing"]), (n!"_get_step_transitions", [n!"len", n!"np", n!"scipy", n!"sorted"]),
   (n!"_get_slice", [n!"len", n!"np"]), (n!"_get_filenames", [n!"Exception", n!"_all_same", n!"glob", n!"hasattr", n!"np", n!"open", n!"os"]),
   (n!"_get_filenames.listcomp", [n!"os"]), (n!"_get_file_redshifts", [n!"Exception", n!"hasattr", n!"np", n!"os"]),
   (n!"_get_file_redshifts.listcomp", [n!"determine_redshift_from_filename"]), (n!"_all_same", [n!"all"])]

/-- Global names read by the functions of `tau.py` (lines 1-140). -/
def reads_tau : List (Ident × List Ident) :=
  [(n!"tau", [n!"Exception", n!"const", n!"float", n!"len", n!"np", n!"print", n!"range"]),
   (n!"tau_map", [n!"const", n!"dict", n!"isinstance", n!"len", n!"list", n!"make_lightcone", n!"np", n!"range", n!"tqdm"])]

/-- Global names read by the functions of `pv_mpm.py` (lines 1-159). -/
def reads_pv_mpm : List (Ident × List Ident) :=
  [(n!"get_distorted_dt", [n!"const", n!"conv", n!"float", n!"get_interpolated_array", n!"int", n!"len", n!"np", n!"print_msg", n!"range"]),
   (n!"make_pv_box", [n!"density_file", n!"get_distorted_dt", n!"read_cbin", n!"vel_file"])]

/-- Global names read by the functions of `temperature.py` (lines 1-275). -/
def reads_temperature : List (Ident × List Ident) :=
  [(n!"calc_dt_halo", [n!"constants", n!"cosmology", n!"isinstance", n!"mean_dt", n!"print", n!"units"]),
   (n!"calc_dt", [n!"Exception", n!"_dt", n!"determine_redshift_from_filename", n!"get_data_and_type", n!"print_msg"]),
   (n!"calc_dt_full", [n!"Exception", n!"_dt_full", n!"determine_redshift_from_filename", n!"get_data_and_type", n!"print", n!"print_msg"]),
   (n!"calc_dt_lightcone", [n!"Exception", n!"_dt", n!"conv", n!"cosmo", n!"np", n!"read_cbin"]),
   (n!"calc_dt_full_lightcone", [n!"Exception", n!"_dt_full", n!"conv", n!"cosmo", n!"np", n!"print", n!"read_cbin", n!"str"]), (n!"mean_dt", [n!"const", n!"np"]),
   (n!"_dt", [n!"const", n!"mean_dt"]), (n!"_dt_full", [n!"const", n!"mean_dt", n!"np", n!"print", n!"str"])]

/-- Global names read by the functions of `plotting.py` (lines 1-548). -/
def reads_plotting : List (Ident × List Ident) :=
  [(n!"plot_slice", [n!"Exception", n!"conv", n!"get_data_and_type", n!"np"]), (n!"plot_hist", [n!"get_data_and_type", n!"np"]),
   (n!"print_chain_stats", [n!"enumerate", n!"len", n!"np", n!"print"]),
   (n!"plot_triangle", [n!"dict", n!"enumerate", n!"isinstance", n!"list", n!"mcolors", n!"print", n!"print_chain_stats", n!"zip"]),
   (n!"plot_triangle.listcomp", [n!"dict", n!"isinstance", n!"mlines"]), (n!"plot_triangle.dictcomp", [n!"list"]),
   (n!"DistributionDiagnostic", [n!"abstractmethod"]), (n!"DistributionDiagnostic.__init__", [n!"range"]),
   (n!"DistributionDiagnostic.__init__.listcomp", [n!"plt"]), (n!"DistributionDiagnostic._get_default_param_labels", [n!"len", n!"list", n!"range"]),
   (n!"DistributionDiagnostic._get_distribution_label", [n!"len"]),
   (n!"DistributionDiagnostic._calculate_base_metrics", [n!"float", n!"inv", n!"len", n!"np", n!"range"]),
   (n!"DistributionDiagnostic._calculate_base_metrics.quantile", [n!"float", n!"np"]),
   (n!"DistributionDiagnostic._calculate_base_metrics.cdf_at", [n!"float", n!"np"]), (n!"DistributionDiagnostic.plot_corner", [n!"ValueError"]),
   (n!"DistributionDiagnostic._plot_corner_backend", [n!"ImportError", n!"corner", n!"enumerate", n!"len", n!"list", n!"max", n!"mlines", n!"np", n!"plt", n!"range", n!"sorted"]),
   (n!"DistributionDiagnostic._plot_getdist_backend", [n!"ImportError", n!"MCSamples", n!"enumerate", n!"len", n!"max", n!"plots", n!"range"]),
   (n!"DistributionDiagnostic.plot_forest", [n!"enumerate", n!"len", n!"list", n!"max", n!"plt", n!"range"]),
   (n!"GriddedProbabilities.__init__", [n!"np", n!"super"]), (n!"GriddedProbabilities.add_distribution", [n!"np"]),
   (n!"SampledDistribution.add_distribution", [n!"len", n!"np"])]

/-- Global names read by the functions of `power_legendre.py` (lines 1-101). -/
def reads_power_legendre : List (Ident × List Ident) :=
  [
   (n!"power_spectrum_multipoles", [n!"_get_dims", n!"_get_k", n!"_get_kbins", n!"_get_mu", n!"_get_nonzero_idx", n!"get_eval", n!"len", n!"np", n!"power_spectrum_nd", n!"range"])]

/-- Global names read by the functions of `deprecated.py` (lines 1-134). -/
def reads_deprecated : List (Ident × List Ident) :=
  [
   (n!"freq_box", [n!"DensityFile", n!"Exception", n!"XfracFile", n!"_get_interp_slice", n!"calc_dt", n!"get_dens_redshifts", n!"get_mesh_size", n!"len", n!"np", n!"os", n!"print_msg", n!"redshifts_at_equal_comoving_distance"]),
   (n!"read_binary_with_meshinfo", [n!"read_cbin"]), (n!"save_binary_with_meshinfo", [n!"save_cbin"]), (n!"smooth", [n!"smoothing"])]

/-- Global names read by the functions of `angular_coordinates.py` (lines 1-355). -/
def reads_angular_coordinates : List (Ident × List Ident) :=
  [
   (n!"physical_lightcone_to_observational", [n!"bin_lightcone_in_frequency", n!"cm", n!"conv", n!"float", n!"int", n!"isinstance", n!"len", n!"np", n!"physical_slice_to_angular", n!"print", n!"range", n!"tqdm"]),
   (n!"observational_lightcone_to_physical", [n!"angular_slice_to_physical", n!"bin_lightcone_in_mpc", n!"cm", n!"hf", n!"int", n!"max", n!"np", n!"range", n!"tqdm"]),
   (n!"physical_slice_to_angular", [n!"_get_padded_slice", n!"cm", n!"int", n!"print", n!"resample_slice"]),
   (n!"angular_slice_to_physical", [n!"cm", n!"int", n!"print", n!"resample_slice"]), (n!"resample_slice", [n!"np", n!"smoothing"]),
   (n!"bin_lightcone_in_frequency", [n!"cm", n!"fftconvolve", n!"hf", n!"int", n!"len", n!"np", n!"range"]),
   (n!"bin_lightcone_in_mpc", [n!"cm", n!"fftconvolve", n!"hf", n!"int", n!"len", n!"np", n!"range"]), (n!"_get_padded_slice", [n!"np"]),
   (n!"padding_lightcone", [n!"int", n!"np", n!"range", n!"tqdm"])]

/-- Global names read by the functions of `power_spectrum_noise.py` (lines 1-69). -/
def reads_power_spectrum_noise : List (Ident × List Ident) :=
  [(n!"noise_error_ps", [n!"cm", n!"const", n!"hasattr", n!"np"])]

/-- Global names read by the functions of `gaussian_random_field.py` (lines 1-121). -/
def reads_gaussian_random_field : List (Ident × List Ident) :=
  [(n!"make_gaussian_random_field", [n!"_get_dims", n!"_get_k", n!"fftpack", n!"len", n!"np", n!"numpy_product"]),
   (n!"make_gaussian_random_field.listcomp", [n!"float"]),
   (n!"make_gaussian_random_field_like_field", [n!"_get_ps_func_for_field", n!"make_gaussian_random_field"]),
   (n!"_get_ps_func_for_field", [n!"interp1d", n!"power_spectrum_1d"]), (n!"fourier_phase_shuffled", [n!"fftpack", n!"np"])]

/-- Global names read by the functions of `corr_function.py` (lines 1-183). -/
def reads_corr_function : List (Ident × List Ident) :=
  [(n!"ps_to_corr", [n!"int", n!"isinstance", n!"np"]), (n!"correlation_function", [n!"power_spectrum_1d", n!"ps_to_corr"]),
   (n!"cross_correlation_function", [n!"cross_power_spectrum_1d", n!"ps_to_corr"]),
   (n!"landy_szalay_estimator", [n!"cKDTree", n!"conv", n!"int", n!"isinstance", n!"len", n!"np", n!"print", n!"tqdm"])]

/-- Global names read by the functions of `line_intensity.py` (lines 1-163). -/
def reads_line_intensity : List (Ident × List Ident) :=
  [(n!"M_HI_on_grid", [n!"cosmology", n!"halo_list_to_grid", n!"isinstance", n!"print", n!"units"]), (n!"M_HI_on_grid.lambda", [n!"np", n!"units"]),
   (n!"L_CII_on_grid", [n!"cosmology", n!"halo_list_to_grid", n!"isinstance", n!"np", n!"print", n!"str", n!"units"])]

/-- Global names read by the functions of `lyman_alpha_transmission.py` (lines 1-338). -/
def reads_lyman_alpha_transmission : List (Ident × List Ident) :=
  [(n!"approximation_voigt_faddeeva", [n!"wofz"]), (n!"direct_voigt_profile", [n!"np"]), (n!"direct_voigt_profile.lambda", [n!"np"]),
   (n!"direct_voigt_profile.out_func", [n!"integrate", n!"np"]),
   (n!"lyA_scattering_cross_section", [n!"approximation_voigt_faddeeva", n!"constants", n!"isinstance", n!"np", n!"units"]),
   (n!"tau_nu_lyA_FGPA", [n!"Planck18", n!"constants", n!"isinstance", n!"print", n!"units"]),
   (n!"tau_nu_lyA", [n!"Planck18", n!"approximation_voigt_faddeeva", n!"constants", n!"isinstance", n!"np", n!"print", n!"units"]),
   (n!"tau_nu_lyA_los", [n!"Planck18", n!"int", n!"isinstance", n!"np", n!"print", n!"range", n!"tau_nu_lyA_FGPA", n!"tau_nu_lyA_Smith2015", n!"tqdm", n!"units"])]

/-- Global names read by the functions of `Friends_of_Friends.py` (lines 1-94). -/
def reads_Friends_of_Friends : List (Ident × List Ident) :=
  [(n!"FoF_search", [n!"Queue", n!"count", n!"int", n!"next", n!"np", n!"set", n!"zip"]), (n!"FoF_search.cycle_through_options", [n!"len", n!"range", n!"tuple"]),
   (n!"gaussian", [n!"np"]), (n!"halo3d", [n!"float", n!"gaussian", n!"np", n!"range", n!"reduce"])]

/-- Global names read by the functions of `bubble_stats.py` (lines 1-630). -/
def reads_bubble_stats : List (Ident × List Ident) :=
  [(n!"fof", [n!"FoF_search", n!"datetime", n!"np", n!"print", n!"sys"]), (n!"spa", [n!"conv", n!"np", n!"spa_np"]),
   (n!"mfp", [n!"conv", n!"datetime", n!"int", n!"len", n!"mfp_np", n!"np", n!"print", n!"rebin_bsd"]),
   (n!"averaged_mfp", [n!"Parallel", n!"conv", n!"datetime", n!"int", n!"len", n!"np", n!"print", n!"range", n!"rebin_bsd", n!"tqdm"]),
   (n!"averaged_mfp.compute_ray_length", [n!"mfp_np", n!"np"]), (n!"averaged_mfp.genexpr", [n!"delayed"]),
   (n!"mfp_from_point", [n!"conv", n!"datetime", n!"len", n!"mfp_np", n!"np", n!"print", n!"rebin_bsd"]), (n!"rebin_bsd", [n!"interp1d", n!"np"]),
   (n!"dist_from_volumes", [n!"len", n!"np", n!"print"]), (n!"get_distribution", [n!"int", n!"len", n!"np", n!"print", n!"range"]),
   (n!"plot_fof_sizes", [n!"conv", n!"np", n!"print"]), (n!"disk_structure", [n!"np"]),
   (n!"granulometry_CDF", [n!"Parallel", n!"int", n!"len", n!"max", n!"np", n!"print", n!"range", n!"tqdm"]),
   (n!"granulometry_CDF.lambda", [n!"disk_structure", n!"morph"]), (n!"granulometry_CDF.genexpr", [n!"delayed"]),
   (n!"granulometry_bsd", [n!"_granulometry", n!"conv", n!"datetime", n!"print"]),
   (n!"_granulometry", [n!"Parallel", n!"float", n!"loading_msg", n!"max", n!"np", n!"range", n!"time", n!"tqdm"]), (n!"_granulometry.disk", [n!"np"]),
   (n!"_granulometry.ball", [n!"np"]), (n!"_granulometry.func", [n!"float", n!"morph"]), (n!"_granulometry.genexpr", [n!"delayed"]),
   (n!"h_transform", [n!"np", n!"print", n!"reconstruction"]),
   (n!"_watershed", [n!"bool", n!"h_transform", n!"ndimage", n!"np", n!"peak_local_max", n!"print", n!"tuple", n!"watershed"]),
   (n!"watershed_bsd", [n!"_watershed", n!"conv", n!"datetime", n!"np", n!"print"])]

/-- Global names read by the functions of `foreground_model.py` (lines 1-208). -/
def reads_foreground_model : List (Ident × List Ident) :=
  [(n!"galactic_synch_fg", [n!"cm", n!"float", n!"isinstance", n!"jansky_2_kelvin", n!"np", n!"range"]),
   (n!"extragalactic_pointsource_fg", [n!"cm", n!"float", n!"int", n!"isinstance", n!"jansky_2_kelvin", n!"np", n!"range"]),
   (n!"diabolo_filter", [n!"cm", n!"conv", n!"max", n!"np", n!"print", n!"range"]), (n!"barrel_filter", [n!"cm", n!"conv", n!"max", n!"np", n!"print", n!"range"]),
   (n!"remove_wedge_image", [n!"diabolo_filter", n!"np"]), (n!"rolling_wedge_removal_lightcone", [n!"const", n!"len", n!"min", n!"np", n!"range"]),
   (n!"rolling_wedge_removal_lightcone.one_over_E", [n!"np"]), (n!"rolling_wedge_removal_lightcone.multiplicative_factor", [n!"quad"])]

/-- Global names read by the functions of `radio_telescope_calibration.py` (lines 1-720). -/
def reads_radio_telescope_calibration : List (Ident × List Ident) :=
  [
   (n!"from_antenna_config_with_gains", [n!"SKA1_LowConfig_Sept2016", n!"c_light_cgs", n!"cm", n!"dict", n!"float", n!"geographic_to_cartesian_coordinate_system", n!"isinstance", n!"itertools", n!"list", n!"np", n!"print", n!"range"]),
   (n!"from_antenna_config_with_gains.lambda", [n!"np"]), (n!"lambda", [n!"np"]),
   (n!"get_uv_map_with_gains", [n!"_grid_uv_tracks_with_gains", n!"earth_rotation_effect", n!"from_antenna_config_with_gains", n!"int", n!"np", n!"print", n!"range", n!"subarray_type_to_antxyz", n!"tqdm"]),
   (n!"_grid_uv_tracks_with_gains", [n!"cm", n!"conv", n!"int", n!"np", n!"zip"]), (n!"gain_uv_map_to_uv_map", [n!"int"]),
   (n!"apply_uv_with_gains_response_on_image", [n!"np"]),
   (n!"from_antenna_config_with_antenna_stamp", [n!"SKA1_LowConfig_Sept2016", n!"c_light_cgs", n!"cm", n!"float", n!"geographic_to_cartesian_coordinate_system", n!"itertools", n!"list", n!"np", n!"print", n!"range"]),
   (n!"get_full_uv_map_with_antenna_stamp", [n!"Parallel", n!"cpu_count", n!"enumerate", n!"from_antenna_config_with_antenna_stamp", n!"int", n!"np", n!"print", n!"range", n!"subarray_type_to_antxyz"]),
   (n!"get_full_uv_map_with_antenna_stamp.listcomp", [n!"min"]),
   (n!"get_full_uv_map_with_antenna_stamp.genexpr", [n!"_process_chunk_get_full_uv_map_with_antenna_stamp", n!"delayed"]),
   (n!"_process_chunk_get_full_uv_map_with_antenna_stamp", [n!"_grid_uv_tracks_with_antenna_stamp", n!"earth_rotation_effect", n!"np", n!"object", n!"range", n!"tqdm"]),
   (n!"_grid_uv_tracks_with_antenna_stamp", [n!"cm", n!"conv", n!"int", n!"np", n!"print", n!"zip"]),
   (n!"full_uv_map_with_antenna_stamp_to_uv_map", [n!"int", n!"np", n!"tqdm"]), (n!"full_uv_map_with_antenna_stamp_to_uv_map.listcomp", [n!"np"]),
   (n!"get_full_uv_lagrangian_with_antenna_stamp", [n!"Parallel", n!"cpu_count", n!"enumerate", n!"from_antenna_config_with_antenna_stamp", n!"int", n!"np", n!"print", n!"range", n!"subarray_type_to_antxyz"]),
   (n!"get_full_uv_lagrangian_with_antenna_stamp.listcomp", [n!"min"]),
   (n!"get_full_uv_lagrangian_with_antenna_stamp.genexpr", [n!"_process_chunk_get_full_uv_lagrangian_with_antenna_stamp", n!"delayed"]),
   (n!"_process_chunk_get_full_uv_lagrangian_with_antenna_stamp", [n!"_grid_uv_lagrangian_tracks_with_antenna_stamp", n!"earth_rotation_effect", n!"np", n!"range", n!"tqdm"]),
   (n!"_grid_uv_lagrangian_tracks_with_antenna_stamp", [n!"cm", n!"conv", n!"int", n!"np", n!"print", n!"zip"])]

/-- Global names read by the functions of `superpixels.py` (lines 1-236). -/
def reads_superpixels : List (Ident × List Ident) :=
  [(n!"slic_cube", [n!"np", n!"plt", n!"print", n!"slic"]), (n!"see_label", [n!"np", n!"print"]), (n!"binary_stitch", [n!"np", n!"threshold_otsu"]),
   (n!"boundaries", [n!"mark_boundaries", n!"np"]), (n!"under_segmentation_error", [n!"np", n!"print"]),
   (n!"stitch_using_histogram", [n!"argrelextrema", n!"len", n!"np", n!"range", n!"superpixel_map", n!"sys", n!"threshold_otsu"]),
   (n!"stitch_using_histogram.listcomp", [n!"np"]), (n!"stitch_superpixels", [n!"get_superpixel_means", n!"stitch_using_histogram"]),
   (n!"apply_operator_labelled_data", [n!"np", n!"time", n!"tqdm"]),
   (n!"get_superpixel_means", [n!"apply_operator_labelled_data", n!"np", n!"print", n!"slic_cube"]),
   (n!"get_superpixel_sigmas", [n!"apply_operator_labelled_data", n!"np", n!"print", n!"slic_cube"]),
   (n!"get_superpixel_n_pixels", [n!"np", n!"print", n!"slic_cube"]),
   (n!"get_superpixel_SNRs", [n!"get_superpixel_means", n!"get_superpixel_n_pixels", n!"get_superpixel_pixels", n!"get_superpixel_sigmas", n!"np"]),
   (n!"get_superpixel_pixels", [n!"apply_operator_labelled_data", n!"np", n!"print", n!"slic_cube"]),
   (n!"mean_estimate", [n!"get_combined_mean_std", n!"get_superpixel_SNRs", n!"np"]), (n!"get_combined_mean_std", [n!"np"]), (n!"xfrac_mass_estimate", [n!"np"]),
   (n!"superpixel_map", [n!"get_superpixel_means", n!"np", n!"print", n!"range", n!"time", n!"tqdm"])]

/-- Global names read by the functions of `identify_regions.py` (lines 1-184). -/
def reads_identify_regions : List (Ident × List Ident) :=
  [(n!"bubbles_from_slic", [n!"superpixels"]), (n!"bubbles_from_kmeans", [n!"np", n!"print", n!"threshold_kmeans", n!"threshold_kmeans_3cluster"]),
   (n!"bubbles_from_triangle3D", [n!"threshold_triangle"]), (n!"bubbles_from_triangle2D", [n!"np", n!"range"]),
   (n!"bubbles_from_triangle2D.listcomp", [n!"threshold_triangle"]), (n!"threshold_kmeans", [n!"KMeans", n!"np", n!"print"]),
   (n!"threshold_kmeans_3cluster", [n!"KMeans", n!"np"])]

/-- Global names read by the functions of `primary_beam.py` (lines 1-104). -/
def reads_primary_beam : List (Ident × List Ident) :=
  [(n!"primary_beam", [n!"circular_beam", n!"conv", n!"np", n!"range", n!"tqdm"]), (n!"primary_beam_null", [n!"cm", n!"isinstance", n!"units"]),
   (n!"circular_beam", [n!"ValueError", n!"conv", n!"j1", n!"np", n!"primary_beam_null"])]

/-- Global names read by the functions of `topology.py` (lines 1-209). -/
def reads_topology : List (Ident × List Ident) :=
  [(n!"EulerCharacteristic", [n!"VB", n!"dict", n!"float", n!"np", n!"os", n!"print", n!"sys", n!"time", n!"zip"]), (n!"betti0", [n!"label"]), (n!"betti2", [n!"label"]),
   (n!"betti1", [n!"EulerCharacteristic", n!"betti0", n!"betti2"]), (n!"genus", [n!"count_neighbors", n!"np"]),
   (n!"count_neighbors", [n!"count_neighbors_once", n!"np"]), (n!"count_neighbors_once", [n!"np", n!"scipy"])]

/-- Global names read by the functions of `box_counting.py` (lines 1-32). -/
def reads_box_counting : List (Ident × List Ident) :=
  [(n!"box_count_sliding", [n!"fftconvolve", n!"get_kernel", n!"np"]), (n!"get_kernel", [n!"int", n!"np"]), (n!"Renyi_diemsnions", [n!"interpolate", n!"min", n!"np"]),
   (n!"Renyi_diemsnions.listcomp", [n!"box_count_sliding"])]

/-- Global names read by the functions of `fitting_methods.py` (lines 1-83). -/
def reads_fitting_methods : List (Ident × List Ident) :=
  [(n!"FitFunction.__init__", [n!"print"]), (n!"FitFunction._optimize", [n!"minimize", n!"np"]),
   (n!"FitFunction.fit", [n!"ShuffleSplit", n!"np", n!"print", n!"sleep", n!"tqdm", n!"zip"]), (n!"FitFunction.predict", [n!"np"]),
   (n!"FitFunction.score", [n!"r2_score"])]

/-- Global names read by the functions of `percolation.py` (lines 1-48). -/
def reads_percolation : List (Ident × List Ident) :=
  [(n!"find_percolation_cluster", [n!"bubble_stats", n!"np", n!"print"])]

/-- Global names read by the functions of `compare_constraints.py` (lines 1-467). -/
def reads_compare_constraints : List (Ident × List Ident) :=
  [(n!"ReionizationHistory.__init__", [n!"print"]), (n!"ReionizationHistory._load_constraints", [n!"list", n!"print"]),
   (n!"ReionizationHistory._load_models", [n!"list", n!"np", n!"print"]), (n!"EscapeFractionLymanAlpha.__init__", [n!"print"]),
   (n!"EscapeFractionLymanAlpha._load_constraints", [n!"get_package_resource_path", n!"list", n!"print"])]

/-- Global names read by the functions of `astro_tools.py` (lines 1-152). -/
def reads_astro_tools : List (Ident × List Ident) :=
  [(n!"FoV_cMpc2", [n!"Planck18", n!"float", n!"int", n!"isinstance", n!"print", n!"units"]), (n!"mag_to_flux", [n!"float", n!"int", n!"isinstance", n!"units"]),
   (n!"Muv_to_muv", [n!"Planck18", n!"float", n!"int", n!"isinstance", n!"np", n!"print", n!"units"]),
   (n!"muv_to_Muv", [n!"Planck18", n!"float", n!"int", n!"isinstance", n!"np", n!"print", n!"units"]), (n!"Muv_to_L1500", [n!"float", n!"int", n!"isinstance", n!"units"])]

/-- Global names read by the functions of `bispectrum.py` (lines 1-335). -/
def reads_bispectrum : List (Ident × List Ident) :=
  [(n!"fft_nd", [n!"_get_dims", n!"_get_k", n!"fftpack"]), (n!"Bispectrum.__init__", [n!"_get_dims", n!"print"]), (n!"Bispectrum.spherical_shell_mask", [n!"np"]),
   (n!"Bispectrum.cosine_rule", [n!"np"]), (n!"Bispectrum.bispectrum_fast", [n!"int", n!"np", n!"numpy_product"]),
   (n!"Bispectrum.bispectrum_k1k2", [n!"Parallel", n!"_get_dims", n!"apply_window", n!"fft_nd", n!"np", n!"print", n!"range", n!"time", n!"tqdm"]),
   (n!"Bispectrum.bispectrum_k1k2.genexpr", [n!"delayed"]),
   (n!"Bispectrum.bispectrum_k", [n!"Parallel", n!"_get_dims", n!"_get_kbins", n!"apply_window", n!"fft_nd", n!"float", n!"isinstance", n!"np", n!"print", n!"range", n!"time", n!"tqdm"]),
   (n!"Bispectrum.bispectrum_k.genexpr", [n!"delayed"]), (n!"BispectrumPylians.__init__", [n!"_get_dims", n!"print"]),
   (n!"BispectrumPylians.bispectrum_k1k2", [n!"float", n!"int", n!"isinstance", n!"np", n!"print"]),
   (n!"bispectrum_k1k2", [n!"BispectrumPylians", n!"apply_window", n!"np"]),
   (n!"bispectrum_equilateral", [n!"BispectrumPylians", n!"apply_window", n!"enumerate", n!"len", n!"np", n!"print", n!"time"]),
   (n!"bispectrum_equilateral.dictcomp", [n!"np"])]

/-- Global names read by the functions of `position_dependent_power_spectrum.py` (lines 1-150). -/
def reads_position_dependent_power_spectrum : List (Ident × List Ident) :=
  [(n!"power_spectrum_response", [n!"integrated_bispectrum_cross"]), (n!"integrated_bispectrum", [n!"integrated_bispectrum_cross"]),
   (n!"integrated_bispectrum_cross", [n!"_W_L", n!"np", n!"power_spectrum_1d", n!"print", n!"range", n!"tqdm"]),
   (n!"integrated_bispectrum_cross.listcomp", [n!"range"]), (n!"_W_L", [n!"int", n!"np", n!"range"]),
   (n!"integrated_bispectrum_cross_slide", [n!"_W_L", n!"int", n!"len", n!"np", n!"power_spectrum_1d", n!"print", n!"range", n!"tqdm"]),
   (n!"integrated_bispectrum_cross_slide.listcomp", [n!"range"])]

/-- Global names read by the functions of `test_case.py` (lines 1-122). -/
def reads_test_case : List (Ident × List Ident) :=
  [(n!"paint_kernel", [n!"np"]), (n!"spherical_bubble_model", [n!"ball", n!"float", n!"len", n!"ndimage", n!"np", n!"paint_kernel", n!"print", n!"range", n!"tqdm"])]

/-- Global names read by the functions of `ViteBetti.py` (lines 1-263). -/
def reads_ViteBetti : List (Ident × List Ident) :=
  [(n!"CubeMap", [n!"np", n!"range"]), (n!"_CubeMap_joblib_worker", [n!"np", n!"range", n!"shared_memory"]),
   (n!"CubeMap_joblib", [n!"ImportError", n!"Parallel", n!"joblib_available", n!"np", n!"os", n!"range", n!"shared_memory"]),
   (n!"CubeMap_joblib.listcomp", [n!"_CubeMap_joblib_worker", n!"delayed", n!"min"]),
   (n!"CubeMap_torch", [n!"ImportError", n!"torch", n!"torch_available", n!"torch_device"])]

/-- Global names read by the functions of `lyman_alpha_coupling.py` (lines 1-181). -/
def reads_lyman_alpha_coupling : List (Ident × List Ident) :=
  [(n!"_read_halofile", [n!"float", n!"np", n!"str"]),
   (n!"Lya_coupling_coeff", [n!"_read_halofile", n!"interp1d", n!"loading_verbose", n!"np", n!"one_source", n!"str", n!"type", n!"xrange"]),
   (n!"one_source", [n!"cm", n!"dlam", n!"h_planck", n!"lam_HII", n!"lam_lya", n!"np", n!"nu_lya", n!"print", n!"timeit"]),
   (n!"Lya_coupling_coeff_MPI", [n!"float", n!"np", n!"os", n!"str", n!"time", n!"type"]),
   (n!"Lya_coupling_coeff_", [n!"Mgrid_2_Msolar", n!"_read_halofile", n!"cm", n!"dlam", n!"interp1d", n!"lam_HII", n!"lam_lya", n!"loading_verbose", n!"np", n!"one_source", n!"p", n!"str", n!"type", n!"xrange"]),
   (n!"one_source_", [n!"E_lya", n!"cm", n!"np", n!"print", n!"timeit"]),
   (n!"Lya_coupling_coeff_useprofile", [n!"_get_profile", n!"_get_xc", n!"c_light", n!"glob", n!"lam_HII", n!"lam_lya", n!"m2parsec", n!"np", n!"print", n!"str", n!"type", n!"yr2sec"]),
   (n!"Lya_coupling_coeff_useprofile.listcomp", [n!"float"]), (n!"_get_xc", [n!"E_lya", n!"Mgrid_2_Msolar", n!"np", n!"print", n!"timeit", n!"xrange"]),
   (n!"_get_profile", [n!"cm", n!"dlam", n!"interp1d", n!"lam_HII", n!"lam_lya", n!"np"])]

/-- Global names read by the functions of `mfp_np.py` (lines 1-173). -/
def reads_mfp_np : List (Ident × List Ident) :=
  [(n!"_ray3d", [n!"RegularGridInterpolator", n!"len", n!"max", n!"np", n!"print", n!"range", n!"sleep", n!"tqdm"]),
   (n!"mfp3d", [n!"_ray3d", n!"float", n!"int", n!"isinstance", n!"np", n!"print"]),
   (n!"mfp2d", [n!"RegularGridInterpolator", n!"int", n!"len", n!"max", n!"np", n!"print", n!"range", n!"sleep", n!"tqdm"]), (n!"loading_verbose", [n!"sys"])]

/-- Global names read by the functions of `model_21cmfast.py` (lines 1-108). -/
def reads_model_21cmfast : List (Ident × List Ident) :=
  [(n!"_is_py21cmfast_installed", [n!"print"]), (n!"run_21cmfast_init", [n!"_is_py21cmfast_installed", n!"print", n!"time"]),
   (n!"run_21cmfast_matter", [n!"_is_py21cmfast_installed", n!"enumerate", n!"print", n!"time"]),
   (n!"run_21cmfast_coeval", [n!"_is_py21cmfast_installed", n!"enumerate", n!"float", n!"int", n!"isinstance", n!"list", n!"np", n!"print", n!"time"])]

/-- Global names read by the functions of `morph.py` (lines 1-55). -/
def reads_morph : List (Ident × List Ident) :=
  [(n!"binary_dilation", [n!"fftconvolve"]), (n!"binary_erosion", [n!"_erode_v2"]), (n!"_erode_v1", [n!"fftconvolve", n!"np"]),
   (n!"_erode_v2", [n!"fftconvolve", n!"np"]), (n!"binary_opening", [n!"binary_dilation", n!"binary_erosion"])]

/-- Global names read by the functions of `numba_functions.py` (lines 1-173). -/
def reads_numba_functions : List (Ident × List Ident) :=
  [(n!"superpixel_map_numba", [n!"np", n!"prange", n!"print"]), (n!"apply_operator_labelled_data_numba", [n!"np", n!"print"]),
   (n!"get_uv_daily_observation_numba", [n!"earth_rotation_effect", n!"from_antenna_config", n!"get_uv_coverage", n!"int", n!"loading_verbose", n!"np", n!"prange", n!"print"]),
   (n!"from_antenna_config", [n!"c_light", n!"cm", n!"float", n!"itertools", n!"list", n!"np", n!"print", n!"range", n!"str"]), (n!"earth_rotation_effect", [n!"np"]),
   (n!"get_uv_coverage", [n!"cm", n!"conv", n!"float", n!"int", n!"np", n!"range"])]

/-- Global names read by the functions of `power_spect_fast.py` (lines 1-366). -/
def reads_power_spect_fast : List (Ident × List Ident) :=
  [(n!"power_spect_nd", [n!"np", n!"numpy_product", n!"print"]), (n!"phase_spect_nd", [n!"np", n!"print"]), (n!"_get_k", [n!"len", n!"np"]),
   (n!"power_spect_1d", [n!"_get_k", n!"enumerate", n!"np", n!"power_spect_nd"]), (n!"power_spect_1d.listcomp", [n!"int"]),
   (n!"power_spect_2d", [n!"_get_k", n!"enumerate", n!"int", n!"isinstance", n!"len", n!"np", n!"power_spect_nd", n!"str", n!"tqdm"]),
   (n!"dimensional_power", [n!"np", n!"power_spect_1d"]), (n!"power_spect_mu", [n!"_get_k", n!"enumerate", n!"np", n!"power_spect_nd", n!"str", n!"type"]),
   (n!"plot_2d_power", [n!"horizon_wedge_equation", n!"interpolate", n!"np"]), (n!"horizon_wedge_equation.lambda", [n!"const", n!"cosmo", n!"np", n!"smoothing"])]

/-- Global names read by the functions of `segmentation.py` (lines 1-207). -/
def reads_segmentation : List (Ident × List Ident) :=
  [(n!"sigmoid_balanced_cross_entropy_with_logits", [n!"ValueError"]), (n!"balanced_cross_entropy", [n!"sigmoid_balanced_cross_entropy_with_logits"]),
   (n!"segunet21cm.__init__", [n!"len"]), (n!"segunet21cm.load_model", [n!"balanced_cross_entropy", n!"iou", n!"precision", n!"print", n!"r2score", n!"recall"]),
   (n!"segunet21cm.UniqueRows", [n!"dict", n!"list", n!"np"]),
   (n!"segunet21cm.IndependentOperations", [n!"all", n!"enumerate", n!"int", n!"len", n!"np", n!"print", n!"range"]),
   (n!"segunet21cm.IndependentOperations.lambda", [n!"np"]), (n!"segunet21cm.prediction", [n!"len", n!"np", n!"range", n!"tqdm"])]

/-- Global names read by the functions of `spa_np.py` (lines 1-43). -/
def reads_spa_np : List (Ident × List Ident) :=
  [(n!"spa_np", [n!"convolve", n!"fftconvolve", n!"morphology", n!"np", n!"range", n!"tqdm"]), (n!"put_sphere", [n!"np", n!"print"])]

/-- The global names read by the functions of all modules. -/
def reads : List (Ident × List (Ident × List Ident)) :=
  [(n!"conv", reads_conv), (n!"const", reads_const), (n!"scipy_func", reads_scipy_func), (n!"helper_functions", reads_helper_functions),
   (n!"cosmo", reads_cosmo), (n!"usefuls", reads_usefuls), (n!"xfrac_file", reads_xfrac_file), (n!"read_files", reads_read_files),
   (n!"radio_telescope_layout", reads_radio_telescope_layout), (n!"radio_telescope_sensitivity", reads_radio_telescope_sensitivity),
   (n!"power_spectrum", reads_power_spectrum), (n!"radio_telescope_noise", reads_radio_telescope_noise), (n!"fft_functions", reads_fft_functions),
   (n!"smoothing", reads_smoothing), (n!"beam_convolve", reads_beam_convolve), (n!"density_file", reads_density_file),
   (n!"irate_file", reads_irate_file), (n!"nbody_pkdgrav", reads_nbody_pkdgrav), (n!"nbody_file", reads_nbody_file),
   (n!"nbody_tools", reads_nbody_tools), (n!"temper_file", reads_temper_file), (n!"vel_file", reads_vel_file), (n!"source_file", reads_source_file),
   (n!"halo_list", reads_halo_list), (n!"statistics", reads_statistics), (n!"lightcone", reads_lightcone), (n!"tau", reads_tau),
   (n!"pv_mpm", reads_pv_mpm), (n!"temperature", reads_temperature), (n!"plotting", reads_plotting), (n!"power_legendre", reads_power_legendre),
   (n!"deprecated", reads_deprecated), (n!"angular_coordinates", reads_angular_coordinates), (n!"power_spectrum_noise", reads_power_spectrum_noise),
   (n!"gaussian_random_field", reads_gaussian_random_field), (n!"corr_function", reads_corr_function), (n!"line_intensity", reads_line_intensity),
   (n!"lyman_alpha_transmission", reads_lyman_alpha_transmission), (n!"Friends_of_Friends", reads_Friends_of_Friends),
   (n!"bubble_stats", reads_bubble_stats), (n!"foreground_model", reads_foreground_model),
   (n!"radio_telescope_calibration", reads_radio_telescope_calibration), (n!"superpixels", reads_superpixels),
   (n!"identify_regions", reads_identify_regions), (n!"primary_beam", reads_primary_beam), (n!"topology", reads_topology),
   (n!"box_counting", reads_box_counting), (n!"fitting_methods", reads_fitting_methods), (n!"percolation", reads_percolation),
   (n!"compare_constraints", reads_compare_constraints), (n!"astro_tools", reads_astro_tools), (n!"bispectrum", reads_bispectrum),
   (n!"position_dependent_power_spectrum", reads_position_dependent_power_spectrum), (n!"test_case", reads_test_case),
   (n!"ViteBetti", reads_ViteBetti), (n!"lyman_alpha_coupling", reads_lyman_alpha_coupling), (n!"mfp_np", reads_mfp_np),
   (n!"model_21cmfast", reads_model_21cmfast), (n!"morph", reads_morph), (n!"numba_functions", reads_numba_functions),
   (n!"power_spect_fast", reads_power_spect_fast), (n!"segmentation", reads_segmentation), (n!"spa_np", reads_spa_np)]

/-- The builtin names of Python that occur. -/
def builtins : List Ident :=
  [n!"Exception", n!"FileNotFoundError", n!"ImportError", n!"NameError", n!"ValueError", n!"__import__", n!"abs", n!"all", n!"bool", n!"bytes", n!"callable", n!"dict",
   n!"enumerate", n!"eval", n!"float", n!"hasattr", n!"int", n!"isinstance", n!"len", n!"list", n!"max", n!"min", n!"next", n!"object", n!"open", n!"print", n!"range",
   n!"reversed", n!"round", n!"set", n!"slice", n!"sorted", n!"str", n!"super", n!"tuple", n!"type", n!"zip"]

end Verif.Namespace

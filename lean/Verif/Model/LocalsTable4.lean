import Verif.Model.Locals

/-!
# The functions of the package, part 4

Generated from the syntax trees of the files; in each entry the name of the function, the number of its parameters and its statements as far as they concern its local
variables (see `Model/Locals.lean`).  Before each entry are the lines of the function and its local variables in the order of the binary digits of the sets.
-/

namespace Verif.Locals

/-- The functions of `scipy_func.py` (lines 17-21). -/
def scipyFuncFns : List Fn := [
  -- lines 17-21: args kwargs
  ⟨n!"scipy_func.numpy_product", 2, .attempt (block [.read 3, .ret true]) (block [.read 3, .ret true]) .skip⟩]

/-- The functions of `segmentation.py` (lines 22-206). -/
def segmentationFns : List Fn := [
  -- lines 22-42: _sentinel labels logits beta name array_ops balanced_cross_entropy cond math_ops neg_abs_logits nn_ops ops relu_logits tf zeros
  ⟨n!"segmentation.sigmoid_balanced_cross_entropy_with_logits", 5, block [.write 8192, .write 1024, .write 2048, .write 32, .write 256, .read 1031, .read 2070,
    .write 16, .read 2052, .write 4, .read 2050, .write 2, .attempt (.read 6) (block [.read 6, .throw]) .skip, .read 36, .write 16384, .read 16388, .write 128, .read
    16548, .write 4096, .read 164, .write 512, .read 4878, .write 64, .read 8256, .ret true]⟩,
  -- lines 44-51: y_true y_pred K beta tf
  ⟨n!"segmentation.balanced_cross_entropy", 2, block [.write 16, .write 4, .read 17, .write 8, .read 18, .write 2, .read 6, .write 2, .read 11, .ret true]⟩,
  -- lines 53-59: y_true y_pred K intersection tf union
  ⟨n!"segmentation.iou", 2, block [.write 16, .write 4, .read 7, .write 8, .read 15, .write 32, .read 44, .ret true]⟩,
  -- lines 61-66: y_true y_pred smooth K intersection tf
  ⟨n!"segmentation.dice_coef", 3, block [.write 32, .write 8, .read 11, .write 16, .read 31, .ret true]⟩,
  -- lines 68-75: y_true y_pred FP K TP tf
  ⟨n!"segmentation.precision", 2, block [.write 32, .write 8, .read 11, .write 1, .write 2, .read 11, .write 16, .read 11, .write 4, .read 28, .ret true]⟩,
  -- lines 77-84: y_true y_pred FN K TP tf
  ⟨n!"segmentation.recall", 2, block [.write 32, .write 8, .read 11, .write 1, .write 2, .read 11, .write 16, .read 11, .write 4, .read 28, .ret true]⟩,
  -- lines 86-92: y_true y_pred K SS_res SS_tot tf
  ⟨n!"segmentation.r2score", 2, block [.write 32, .write 4, .read 7, .write 8, .read 5, .write 16, .read 28, .ret true]⟩,
  -- lines 97-107: self tta verbose
  ⟨n!"segmentation.segunet21cm.__init__", 3, block [.read 2, .read 1, .read 4, .read 1, .read 1, .either (block [.read 1, .read 1]) (.read 1), .read 1, .read 1,
    .read 1]⟩,
  -- lines 109-123: self METRICS MODEL_NAME get_package_resource_path tf
  ⟨n!"segmentation.segunet21cm.load_model", 1, block [.write 16, .write 8, .write 2, .read 8, .write 4, .read 22, .read 1, .read 4]⟩,
  -- lines 125-135: self arr new_arr unique_arr
  ⟨n!"segmentation.segunet21cm.UniqueRows", 2, block [.read 2, .write 2, .read 2, .either (block [.read 2, .write 2, .read 2, .write 8, .read 10, .write 4]) (block
    [.read 2, .either (block [.read 2, .write 4]) .skip]), .read 4, .ret true]⟩,
  -- lines 137-170: self verbose angl_rot ax_tup axis cube data f func i itmdf iumdf rot rotax tot_manipl_data_flat tot_mdf tot_operations uniq_manipl_data_flat
  -- uniq_mdf uniq_operations
  ⟨n!"segmentation.segunet21cm.IndependentOperations", 2, block [.write 64, .write 256, .write 16, .write 4, .read 340, .write 16384, .read 276, .write 65536, .write
    512, .read 256, .loop (block [.write 128, .read 192, .write 32, .read 16, .loop (block [.write 8192, .write 8, .read 8200, .read 4, .loop (block [.write 4096,
    .read 4136, .read 16896, .read 12416, .read 66048, .read 512, .write 512]) .skip]) .skip]) .skip, .read 16385, .write 131072, .write 524288, .read 131072, .loop
    (block [.write 2048, .write 262144, .read 16384, .loop (block [.write 1024, .write 32768, .read 294912, .either (block [.read 66560, .read 526336, .brk]) .skip])
    .skip]) .skip, .read 655360, .read 2, .either (.read 524288) .skip, .read 524288, .ret true]⟩,
  -- lines 172-206: self x X X_err X_seg X_tta ax_tup cube img_shape iopt itta j loop opt rot rotax
  ⟨n!"segmentation.segunet21cm.prediction", 2, block [.read 1, .either (.read 1) .skip, .read 2, .write 256, .read 257, .write 32, .read 1, .either (block [.read 1,
    .write 4096]) (block [.read 1, .write 4096]), .read 4096, .loop (block [.write 512, .read 513, .write 8192, .write 32768, .write 16384, .write 64, .read 32832,
    .read 24642, .write 128, .read 128, .write 4, .read 256, .loop (block [.write 2048, .read 2053, .read 2592, .read 2053, .read 2593, .read 2053, .read 2593])
    .skip]) .skip, .read 32, .loop (block [.write 1024, .read 1025, .write 8192, .write 32768, .write 16384, .write 64, .read 32832, .read 25696, .read 1056]) .skip,
    .read 32, .write 16, .read 32, .write 8, .read 24, .ret true]⟩]

/-- The functions of `smoothing.py` (lines 21-657). -/
def smoothingFns : List Fn := [
  -- lines 21-52: size sigma fwhm g x y
  ⟨n!"smoothing.gauss_kernel", 3, block [.read 4, .either (block [.read 4, .write 2]) .skip, .read 1, .either (block [.read 1, .write 1, .read 1, .write 16, .write
    32]) (block [.read 1, .write 1, .read 1, .write 16, .write 32]), .read 50, .write 8, .read 8, .ret true]⟩,
  -- lines 55-85: size sigma fwhm g x y z
  ⟨n!"smoothing.gauss_kernel_3d", 3, block [.read 4, .either (block [.read 4, .write 2]) .skip, .read 1, .either (block [.read 1, .write 1, .read 1, .write 16,
    .write 32, .write 64]) (block [.read 1, .write 1, .read 1, .write 16, .write 32, .write 64]), .read 114, .write 8, .read 8, .ret true]⟩,
  -- lines 88-105: size tophat_width center idx_high idx_low kernel
  ⟨n!"smoothing.tophat_kernel", 2, block [.read 1, .write 32, .read 32, .write 4, .read 6, .write 16, .read 6, .write 8, .read 56, .read 32, .write 32, .read 32,
    .ret true]⟩,
  -- lines 108-139: size tophat_width shape center idx_high idx_low kernel radius x y z
  ⟨n!"smoothing.tophat_kernel_3d", 3, block [.read 1, .write 64, .read 4, .either (block [.read 64, .write 8, .read 10, .write 32, .read 10, .write 16, .read 112])
    (block [.read 1, .either (block [.read 1, .write 1, .read 1, .write 256, .write 512, .write 1024]) (block [.read 1, .write 1, .read 1, .write 256, .write 512,
    .write 1024]), .read 1792, .write 128, .read 194]), .read 64, .write 64, .read 64, .ret true]⟩,
  -- lines 142-164: size kernel_width a kernel x xi y yi
  ⟨n!"smoothing.lanczos_kernel", 2, block [.read 1, .write 32, .read 1, .write 128, .read 160, .write 16, .write 64, .read 2, .write 4, .read 84, .write 8, .read 28,
    .read 76, .read 8, .write 8, .read 8, .ret true]⟩,
  -- lines 167-185: input_array sigma fwhm kernel
  ⟨n!"smoothing.smooth_gauss", 3, block [.read 7, .write 8, .read 9, .ret true]⟩,
  -- lines 188-210: input_array tophat_width _get_padded_slice kernel out padded
  ⟨n!"smoothing.smooth_tophat", 2, block [.read 1, .either (block [.write 4, .read 5, .write 32, .read 34, .write 16, .read 16, .ret true]) .skip, .read 3, .write 8,
    .read 9, .ret true]⟩,
  -- lines 213-227: input_array kernel_width kernel
  ⟨n!"smoothing.smooth_lanczos", 2, block [.read 3, .write 4, .read 5, .ret true]⟩,
  -- lines 230-248: input_array kernel out
  ⟨n!"smoothing.smooth_with_kernel", 2, block [.read 3, .read 3, .write 4, .read 4, .ret true]⟩,
  -- lines 251-269: baseline z beam_w fr lw
  ⟨n!"smoothing.get_beam_w", 2, block [.read 2, .write 8, .read 8, .write 16, .read 17, .write 4, .read 4, .ret true]⟩,
  -- lines 272-303: input_array x y z order inds new_array
  ⟨n!"smoothing.interpolate3d", 5, block [.read 14, .write 32, .read 2, .read 32, .read 4, .read 32, .read 8, .read 32, .read 49, .write 64, .read 64, .ret true]⟩,
  -- lines 306-331: input_array x y order inds new_array
  ⟨n!"smoothing.interpolate2d", 4, block [.read 6, .write 16, .read 2, .read 16, .read 4, .read 16, .read 25, .write 32, .read 32, .ret true]⟩,
  -- lines 333-375: lightcone z_array box_size_mpc max_baseline ratio verbose cell_size decreasing_redshifts distances input_redshifts output_ang_res output_dtheta
  -- output_dz output_lightcone z_low
  ⟨n!"smoothing.smooth_lightcone", 6, block [.read 4, .either (.write 4) .skip, .read 3, .either (block [.read 2, .write 512]) (block [.read 2, .write 16384, .read
    5, .write 64, .read 16449, .write 256, .read 256, .write 512]), .read 8, .either (block [.read 8, .write 8]) .skip, .read 512, .write 128, .read 128, .either
    (block [.read 512, .write 512, .read 1, .write 1]) .skip, .read 520, .write 2048, .read 2560, .write 1024, .read 1552, .write 4096, .read 4641, .write 8192,
    .read 9221, .write 8192, .read 128, .either (block [.read 8704, .ret true]) (block [.read 8704, .ret true])]⟩,
  -- lines 377-403: cube z box_size_mpc max_baseline ratio nu_axis verbose output_ang_res output_cube output_dtheta
  ⟨n!"smoothing.smooth_coeval", 7, block [.read 4, .either (.write 4) .skip, .read 8, .either (block [.read 8, .write 8]) .skip, .read 10, .write 512, .read 519,
    .write 128, .read 241, .write 256, .read 416, .write 256, .read 256, .ret true]⟩,
  -- lines 405-425: cube width nu_axis verbose i kernel output_cube
  ⟨n!"smoothing.smooth_coeval_tophat", 4, block [.read 7, .write 32, .read 1, .write 64, .read 4, .either (block [.read 9, .loop (block [.write 16, .read 49, .read
    80]) .skip]) (block [.read 9, .loop (block [.write 16, .read 49, .read 80]) .skip]), .read 64, .ret true]⟩,
  -- lines 427-441: cube fwhm nu_axis one output_cube
  ⟨n!"smoothing.smooth_coeval_gauss", 3, block [.read 5, .write 8, .read 15, .write 16, .read 16, .ret true]⟩,
  -- lines 443-462: lightcone redshifts dz verbose i idx_high idx_low output_lightcone z_out_high z_out_low
  ⟨n!"smoothing.smooth_lightcone_tophat", 4, block [.read 1, .write 128, .read 136, .loop (block [.write 16, .read 22, .write 512, .read 22, .write 256, .read 514,
    .write 64, .read 258, .write 32, .read 97, .read 144]) .skip, .read 128, .ret true]⟩,
  -- lines 464-482: lightcone fwhm nu_axis i output_lightcone
  ⟨n!"smoothing.smooth_lightcone_gauss", 3, block [.read 7, .read 1, .write 16, .read 20, .loop (block [.write 8, .read 4, .either (block [.read 11, .read 24])
    (block [.read 4, .either (block [.read 11, .read 24]) (block [.read 11, .read 24])])]) .skip, .read 16, .ret true]⟩,
  -- lines 484-504: lightcone uv_box threshold uv_bool
  ⟨n!"smoothing.smooth_lightcone_uv_threshold", 3, block [.read 4, .either (.ret true) .skip, .read 1, .write 1, .read 6, .write 8, .read 9, .read 1, .ret true]⟩,
  -- lines 506-526: uv_map z max_baseline box_size_mpc fft_dk_res_invMpc filt output_dtheta output_dx_Mpc output_dx_res rr1 rr2 rr3 rr4 xx yy
  ⟨n!"smoothing.remove_baselines_from_uvmap", 4, block [.read 8, .either (.write 8) .skip, .read 4, .either (block [.read 4, .write 4]) .skip, .read 6, .write 64,
    .read 66, .write 128, .read 137, .write 256, .read 136, .write 16, .read 1, .write 32, .read 1, .write 8192, .write 16384, .read 24576, .write 512, .read 24577,
    .write 1024, .read 24577, .write 2048, .read 24577, .write 4096, .read 560, .read 1072, .read 2096, .read 4144, .read 32, .read 33, .ret true]⟩,
  -- lines 528-549: array z uv_map max_baseline box_size_mpc filename total_int_time int_time declination verbose N_ant img_arr img_map kernel2d
  ⟨n!"smoothing.convolve_uvmap", 10, block [.read 16, .either (.write 16) .skip, .read 8, .either (block [.read 8, .write 8]) .skip, .read 4, .either (block [.read
    1011, .write 4, .write 1024]) .skip, .read 8, .either (block [.read 30, .write 4]) .skip, .read 1, .write 2048, .read 4, .write 8192, .read 10240, .write 2048,
    .read 2048, .write 4096, .read 4096, .ret true]⟩,
  -- lines 553-595: cube z box_size_mpc max_baseline ratio nu_axis verbose filename total_int_time int_time declination uv_map N_ant output_ang_res output_cube
  -- output_dtheta
  ⟨n!"smoothing.convolve_uvmap_coeval", 12, block [.read 4, .either (.write 4) .skip, .read 8, .either (block [.read 8, .write 8]) .skip, .read 2048, .either (block
    [.read 1990, .write 2048, .write 4096]) .skip, .read 8, .either (block [.read 2062, .write 2048]) .skip, .read 10, .write 32768, .read 32775, .write 8192, .read
    8305, .write 16384, .read 32, .either (block [.read 16416, .write 16384]) .skip, .read 18500, .write 16384, .read 32, .either (block [.read 16416, .write 16384])
    .skip, .read 16384, .ret true]⟩,
  -- lines 597-657: y window kind x y_smooth
  ⟨n!"smoothing.smooth_line", 3, block [.read 2, .either (block [.read 4, .either (block [.read 2, .write 2]) (block [.read 4, .either (block [.read 2, .write 8,
    .read 10, .write 2, .read 2, .write 2]) (block [.read 4, .either (block [.read 2, .write 2, .read 2, .write 2, .read 2, .write 2]) (block [.read 4, .either
    (block [.read 2, .write 2]) (block [.read 4, .either (block [.read 2, .write 2]) (block [.read 4, .throw])])])])])]) (block [.read 2, .either (block [.read 2,
    .write 2, .read 2, .write 2]) .throw]), .read 3, .write 16, .read 16, .ret true]⟩]

/-- The functions of `source_file.py` (lines 18-159). -/
def sourceFileFns : List Fn := [
  -- lines 18-34: self filename mass old_format
  ⟨n!"source_file.SourceFile.__init__", 4, block [.read 4, .read 1, .read 2, .either (.read 11) .skip]⟩,
  -- lines 37-79: self filename old_format f i idx idx_mass lines nr_src text
  ⟨n!"source_file.SourceFile.read_from_file", 3, block [.read 2, .read 2, .read 1, .read 2, .write 8, .read 8, .write 128, .read 128, .write 256, .read 1, .either
    (block [.write 64, .read 256, .read 1]) (block [.read 1, .either (block [.write 64, .read 256, .read 1]) (block [.write 64, .read 256, .read 1])]), .read 256,
    .loop (block [.write 16, .read 16, .write 32, .read 160, .write 512, .read 512, .read 17, .read 576, .read 17]) .skip, .attempt (block [.read 2, .read 1]) (.read
    1) .skip]⟩,
  -- lines 81-89: self mesh i j k n
  ⟨n!"source_file.SourceFile.grid_sources", 2, block [.read 2, .read 1, .read 1, .loop (block [.write 32, .read 33, .write 4, .write 8, .write 16, .read 33, .read
    29]) .skip]⟩,
  -- lines 91-159: self filename sources_list old_format current_mass_msun e f i log10_grid_mass nr_src x y z
  ⟨n!"source_file.SourceFile.write_to_file", 4, block [.read 4, .read 1, .read 1, .either (.ret false) .skip, .read 2, .attempt (block [.read 2, .write 64, .read 1,
    .write 512, .read 576, .read 512, .loop (block [.write 128, .read 129, .write 1024, .write 2048, .write 4096, .write 16, .read 1, .either (block [.read 1,
    .either (block [.read 129, .write 16]) (block [.read 129, .write 16])]) (block [.read 1, .either (block [.read 129, .write 16]) .throw]), .read 16, .write 256,
    .read 7488, .read 64]) .skip]) (block [.write 32, .read 32, .write 32, .del 32]) .skip]⟩]

/-- The functions of `spa_np.py` (lines 7-41). -/
def spaNpFns : List Fn := [
  -- lines 7-26: data xth nscales binning verbose use_fftconvolve Rmx Rs_ i ins kernel ra rad smooth
  ⟨n!"spa_np.spa_np", 6, block [.read 1, .write 64, .read 8, .either (block [.read 68, .write 128]) (block [.read 68, .write 128]), .read 4, .write 512, .read 1,
    .write 4096, .read 20, .loop (block [.write 256, .read 384, .write 2048, .read 2048, .write 1024, .read 1057, .write 8192, .read 2048, .read 12290]) .skip, .read
    4, .loop (block [.write 256, .read 4480, .read 768]) .skip, .read 640, .ret true]⟩,
  -- lines 29-41: array centre radius label periodic verbose RR RR2 aw nx ny nz
  ⟨n!"spa_np.put_sphere", 6, block [.read 1, .read 1, .write 512, .write 1024, .write 2048, .read 1, .write 256, .read 259, .write 64, .read 8, .read 69, .read 16,
    .either (block [.read 3843, .write 128, .read 8, .read 133, .read 32, .either (.read 6) .skip]) (block [.read 32, .either (.read 6) .skip]), .read 1, .ret
    true]⟩]

/-- The functions of `statistics.py` (lines 8-167). -/
def statisticsFns : List Fn := [
  -- lines 8-25: x mx n xdiff
  ⟨n!"statistics.skewness", 1, block [.read 1, .write 2, .read 1, .write 4, .read 3, .write 8, .read 12, .ret true]⟩,
  -- lines 27-43: x mx n xdiff
  ⟨n!"statistics.kurtosis", 1, block [.read 1, .write 2, .read 1, .write 4, .read 3, .write 8, .read 12, .ret true]⟩,
  -- lines 46-59: xi rho
  ⟨n!"statistics.mass_weighted_mean_xi", 2, block [.read 1, .write 1, .read 2, .write 2, .read 3, .ret true]⟩,
  -- lines 62-85: signal los_axis i signal_out
  ⟨n!"statistics.subtract_mean_signal", 2, block [.read 1, .write 8, .read 3, .loop (block [.write 4, .read 2, .either (.read 13) .skip, .read 2, .either (.read 13)
    .skip, .read 2, .either (.read 13) .skip]) .skip, .read 8, .ret true]⟩,
  -- lines 88-111: signal los_axis i signal_out
  ⟨n!"statistics.signal_overdensity", 2, block [.read 1, .write 8, .read 3, .loop (block [.write 4, .read 2, .either (.read 13) .skip, .read 2, .either (.read 13)
    .skip, .read 2, .either (.read 13) .skip]) .skip, .read 8, .ret true]⟩,
  -- lines 114-144: signal func los_axis i output signal_slice
  ⟨n!"statistics.apply_func_along_los", 3, block [.read 5, .read 5, .write 16, .read 16, .loop (block [.write 8, .read 13, .write 32, .read 34, .read 24]) .skip,
    .read 16, .ret true]⟩,
  -- lines 146-167: data idx los_axis slice_depth idx1 idx2
  ⟨n!"statistics._get_slice", 4, block [.read 1, .read 4, .read 2, .write 16, .read 24, .write 32, .read 1, .either (block [.read 4, .either (block [.read 49, .ret
    true]) (block [.read 4, .either (block [.read 49, .ret true]) .skip]), .read 49, .ret true]) (block [.read 4, .either (block [.read 49, .ret true]) (block [.read
    4, .either (block [.read 49, .ret true]) .skip]), .read 49, .ret true])]⟩]

/-- The functions of `superpixels.py` (lines 10-233). -/
def superpixelsFns : List Fn := [
  -- lines 10-30: cube n_segments compactness max_iter sigma min_size_factor max_size_factor cmap verbose color labels multichannel
  ⟨n!"superpixels.slic_cube", 9, block [.read 128, .either (block [.read 128, .write 512, .write 2048, .read 513, .write 1, .read 1, .write 1]) (.write 2048), .read
    256, .either .skip .skip, .attempt (block [.read 2143, .write 1024]) (block [.read 95, .write 1024]) .skip, .read 256, .either (.read 1024) .skip, .read 1024,
    .ret true]⟩,
  -- lines 32-36: out_map label binary
  ⟨n!"superpixels.see_label", 2, block [.read 1, .write 4, .read 3, .either (.read 7) .skip, .read 4, .ret true]⟩,
  -- lines 38-48: data labels stitch thres X1 i y y1 y2
  ⟨n!"superpixels.binary_stitch", 4, block [.read 1, .write 16, .read 2, .write 64, .read 80, .write 128, .read 8, .either (block [.read 4, .either (block [.read
    128, .write 8]) (block [.read 16, .write 8])]) .skip, .read 64, .write 256, .read 64, .loop (block [.write 32, .read 160, .read 352]) .skip, .read 264, .write
    256, .read 257, .ret true]⟩,
  -- lines 50-56: sl lab mark factor bd out
  ⟨n!"superpixels.boundaries", 4, block [.read 3, .read 3, .write 16, .read 1, .write 32, .read 4, .either (block [.read 9, .read 48]) (block [.read 9, .read 32]),
    .read 32, .ret true]⟩,
  -- lines 58-71: labels truths b verbose U gg i inter j nx ny nz ss uu
  ⟨n!"superpixels.under_segmentation_error", 4, block [.read 3, .read 1, .write 512, .write 1024, .write 2048, .write 8192, .read 2, .loop (block [.write 64, .read
    1, .loop (block [.write 256, .read 3584, .write 32, .write 4096, .read 98, .read 4353, .read 4128, .write 128, .read 4228, .either (block [.read 12288, .write
    8192]) .skip, .read 8, .either (.read 320) .skip]) .skip]) .skip, .read 8193, .write 16, .read 16, .ret true]⟩,
  -- lines 73-110: data mns labels bins binary on_superpixel_map verbose bla d2 histogram ht m0 out peaks thres x0 x1 y0 y1
  ⟨n!"superpixels.stitch_using_histogram", 7, block [.read 8, .either (.either (.write 512) (block [.write 8, .write 512])) (.write 512), .read 522, .write 1024,
    .read 1024, .either (block [.read 1024, .write 8192]) (block [.read 1024, .write 8192]), .read 8192, .either (block [.read 1024, .write 65536, .write 262144,
    .read 1024, .write 131072, .read 1024, .write 128, .read 1152, .write 32768, .read 491520, .write 2048, .read 330880, .write 256, .read 1280, .write 16384, .read
    16, .either (block [.read 32, .either (block [.read 71, .write 4096, .read 20480, .write 4096]) (block [.read 16385, .write 4096]), .read 4096, .ret true])
    (block [.read 16384, .ret true])]) (block [.read 2, .either (block [.read 1, .ret true]) .skip, .read 2, .write 16384, .read 16, .either (block [.read 32,
    .either (block [.read 71, .write 4096, .read 20480, .write 4096]) (block [.read 16385, .write 4096]), .read 4096, .ret true]) (block [.read 16384, .ret
    true])])]⟩,
  -- lines 112-115: data labels bins binary on_superpixel_map verbose mns stitched
  ⟨n!"superpixels.stitch_superpixels", 6, block [.read 35, .write 64, .read 127, .write 128, .read 128, .ret true]⟩,
  -- lines 117-139: data labels operator verbose X X1 elems i idx_high idx_low num out y
  ⟨n!"superpixels.apply_operator_labelled_data", 4, block [.read 1, .write 16, .read 2, .write 4096, .read 4096, .write 64, .write 1024, .read 4112, .write 32,
    .write 2048, .write 512, .read 8, .either (block [.read 72, .loop (block [.write 128, .read 1664, .write 256, .read 2852, .read 256, .write 512]) .skip]) (block
    [.read 64, .loop (block [.write 128, .read 1664, .write 256, .read 2852, .read 256, .write 512]) .skip]), .read 2048, .ret true]⟩,
  -- lines 141-149: data labels slic_segments verbose mns
  ⟨n!"superpixels.get_superpixel_means", 4, block [.read 2, .either (block [.read 13, .write 2]) .skip, .read 8, .either .skip .skip, .read 11, .write 16, .read 8,
    .either .skip .skip, .read 16, .ret true]⟩,
  -- lines 151-159: data labels slic_segments verbose sigs
  ⟨n!"superpixels.get_superpixel_sigmas", 4, block [.read 2, .either (block [.read 13, .write 2]) .skip, .read 8, .either .skip .skip, .read 11, .write 16, .read 8,
    .either .skip .skip, .read 16, .ret true]⟩,
  -- lines 161-168: data labels slic_segments verbose X elems n_pixels y
  ⟨n!"superpixels.get_superpixel_n_pixels", 4, block [.read 2, .either (block [.read 13, .write 2]) .skip, .read 1, .write 16, .read 2, .write 128, .read 128, .write
    32, .write 64, .read 64, .ret true]⟩,
  -- lines 170-182: means sigmas n_pix data labels slic_segments pixels pxls sorts
  ⟨n!"superpixels.get_superpixel_SNRs", 7, block [.read 1, .either (block [.read 56, .write 1]) .skip, .read 2, .either (block [.read 56, .write 2]) .skip, .read 4,
    .either (block [.read 56, .write 4]) .skip, .read 1, .write 256, .read 258, .write 2, .read 260, .write 4, .read 257, .write 1, .read 64, .either (block [.read
    56, .write 128, .read 384, .write 128, .read 135, .ret true]) .skip, .read 7, .ret true]⟩,
  -- lines 184-191: data labels slic_segments verbose pxl
  ⟨n!"superpixels.get_superpixel_pixels", 4, block [.read 2, .either (block [.read 13, .write 2]) .skip, .read 8, .either .skip .skip, .read 11, .write 16, .read 8,
    .either .skip .skip, .read 16, .ret true]⟩,
  -- lines 193-205: data means sigmas n_pix labels slic_segments SNR_thres SNRs global_comb global_means global_n_pix global_sigmas locs
  ⟨n!"superpixels.mean_estimate", 7, block [.read 14, .write 128, .write 2, .write 4, .write 8, .read 64, .either (block [.read 192, .write 4096]) (block [.read 192,
    .write 4096]), .read 4098, .write 512, .read 512, .either (.ret true) .skip, .read 4100, .write 2048, .read 4104, .write 1024, .read 3584, .write 256, .read 256,
    .ret true]⟩,
  -- lines 207-212: means sigmas ns mn s_ st
  ⟨n!"superpixels.get_combined_mean_std", 3, block [.read 7, .read 5, .write 8, .read 15, .write 16, .read 16, .write 32, .read 40, .ret true]⟩,
  -- lines 214-215: dT z
  ⟨n!"superpixels.xfrac_mass_estimate", 2, block [.read 3, .ret true]⟩,
  -- lines 217-218: binary
  ⟨n!"superpixels.xfrac_volume_estimate", 1, block [.read 1, .ret true]⟩,
  -- lines 220-233: data labels mns verbose i sp_map
  ⟨n!"superpixels.superpixel_map", 4, block [.read 4, .either (block [.read 11, .write 4]) .skip, .read 1, .write 32, .read 8, .either (block [.read 4, .loop (block
    [.write 16, .read 20, .read 50]) .skip]) (block [.read 4, .loop (block [.write 16, .read 20, .read 50]) .skip]), .read 32, .ret true]⟩]

/-- The functions of `tau.py` (lines 6-140). -/
def tauFns : List Fn := [
  -- lines 6-64: ionfractions redshifts num_points chi1 coeff i sigma_T tau0 tau_z
  ⟨n!"tau.tau", 3, block [.read 3, .either .throw .skip, .read 3, .write 1, .write 2, .write 64, .write 8, .read 72, .write 16, .read 6, .write 256, .read 6, .write
    128, .read 276, .read 132, .read 6, .loop (block [.write 32, .read 437, .read 160]) .skip, .read 384, .ret true]⟩,
  -- lines 66-140: ionfractions redshifts num_points reading_function chi1 coeff delta_tau i integrand_curr integrand_prev lightcone output_z sigma_T tau_0 tau_z
  -- x_e_curr x_e_prev z_curr z_prev
  ⟨n!"tau.tau_map", 4, block [.read 2, .either (block [.read 1, .read 1, .write 2]) .skip, .read 1, .either (block [.read 3, .write 1024, .write 2048]) (block [.read
    11, .write 1024, .write 2048]), .write 4096, .write 16, .read 4112, .write 32, .read 2052, .write 16384, .read 17408, .write 8192, .read 16420, .read 8196, .read
    16388, .loop (block [.write 128, .read 16512, .write 262144, .read 16512, .write 131072, .read 1156, .write 65536, .read 1156, .write 32768, .read 327680, .write
    512, .read 163840, .write 256, .read 394016, .write 64, .read 8384, .read 8320]) .skip, .read 24576, .ret true]⟩]

/-- The functions of `temper_file.py` (lines 17-66). -/
def temperFileFns : List Fn := [
  -- lines 17-30: self filename old_format
  ⟨n!"temper_file.TemperFile.__init__", 3, block [.read 2, .either (.read 7) .skip]⟩,
  -- lines 32-66: self filename old_format f name os temp_mesh
  ⟨n!"temper_file.TemperFile.read_from_file", 3, block [.read 2, .read 2, .read 1, .read 2, .write 8, .read 8, .write 64, .read 64, .read 1, .read 1, .read 1, .read
    4, .either (block [.read 8, .read 1]) (block [.read 9, .read 1, .read 1, .read 1]), .read 8, .write 32, .attempt (block [.read 34, .write 16, .read 16, .read 1])
    (.read 1) .skip]⟩]

/-- The functions of `temperature.py` (lines 13-259). -/
def temperatureFns : List Fn := [
  -- lines 13-49: mhalo box_dim z Y_p cosmo Cdt Vcell dt mu nH nHI xHI
  ⟨n!"temperature.calc_dt_halo", 5, block [.read 16, .either (.write 16) .skip, .read 1, .either (block [.read 1, .write 1]) (block [.read 1, .write 1]), .read 2,
    .either (block [.read 2, .write 2]) .skip, .read 8, .write 256, .read 3, .write 64, .read 321, .write 1024, .read 272, .write 512, .read 1536, .write 2048, .read
    4, .write 32, .read 2080, .write 128, .read 128, .ret true]⟩,
  -- lines 51-80: xfrac dens z rho rho_type xi xi_type
  ⟨n!"temperature.calc_dt", 3, block [.read 1, .write 32, .write 64, .read 2, .write 8, .write 16, .read 32, .write 32, .read 8, .write 8, .read 4, .either (block
    [.read 1, .write 4, .read 4, .either (block [.read 2, .write 4]) .skip, .read 4, .either .throw .skip]) .skip, .read 4, .read 44, .ret true]⟩,
  -- lines 82-116: xfrac dens temp z correct Ts Ts_type rho rho_type xi xi_type
  ⟨n!"temperature.calc_dt_full", 5, block [.read 1, .write 512, .write 1024, .read 4, .write 32, .write 64, .read 2, .write 128, .write 256, .read 512, .write 512,
    .read 32, .write 32, .read 128, .write 128, .read 8, .either (block [.read 1, .write 8, .read 8, .either (block [.read 2, .write 8]) .skip, .read 8, .either
    (block [.read 4, .write 8]) .skip, .read 8, .either .throw .skip]) .skip, .read 8, .read 696, .ret true]⟩,
  -- lines 118-150: xfrac dens lowest_z los_axis cdist cdist_low cell_size z
  ⟨n!"temperature.calc_dt_lightcone", 4, block [.attempt (block [.read 1, .write 1]) .skip .skip, .attempt (block [.read 2, .write 2]) .skip .skip, .read 2, .write
    2, .read 9, .write 64, .read 4, .write 32, .read 105, .write 16, .read 16, .write 128, .read 131, .ret true]⟩,
  -- lines 152-194: xfrac temp dens lowest_z los_axis correct cdist cdist_low cell_size z
  ⟨n!"temperature.calc_dt_full_lightcone", 6, block [.attempt (block [.read 1, .write 1]) .skip .skip, .attempt (block [.read 2, .write 2]) .skip .skip, .attempt
    (block [.read 4, .write 4]) .skip .skip, .read 4, .write 4, .read 17, .write 256, .read 8, .write 128, .read 401, .write 64, .read 64, .write 512, .read 512,
    .read 551, .ret true]⟩,
  -- lines 196-212: z Cdt Ez
  ⟨n!"temperature.mean_dt", 1, block [.read 1, .write 4, .read 5, .write 2, .read 2, .ret true]⟩,
  -- lines 215-222: rho xi z Cdt dt rho_mean
  ⟨n!"temperature._dt", 3, block [.read 1, .write 32, .read 4, .write 8, .read 43, .write 16, .read 16, .ret true]⟩,
  -- lines 224-259: rho xi Ts z correct Cdt T_HII T_min Tcmb Ti Ts_new dt rho_mean zi
  ⟨n!"temperature._dt_full", 5, block [.read 8, .write 8, .read 8, .write 4096, .read 8, .write 256, .read 8, .write 32, .read 16, .either (block [.write 8192, .read
    8192, .write 512, .read 8712, .write 128, .write 64, .read 70, .write 1024, .read 128, .read 1152, .read 1024, .either .skip .skip]) (block [.read 4, .write
    1024]), .read 5411, .write 2048, .read 2048, .ret true]⟩]

/-- The functions of `test_case.py` (lines 10-122). -/
def testCaseFns : List Fn := [
  -- lines 10-32: cube positions kernel kernel_radius kernel_shape pos rolled_cube
  ⟨n!"test_case.paint_kernel", 3, block [.read 4, .write 16, .read 16, .write 8, .read 2, .loop (block [.write 32, .read 41, .write 64, .read 84, .read 105, .write
    1]) .skip, .ret false]⟩,
  -- lines 34-122: n_cells x_ion r source_distribution batch_size max_iter cube _ arg_zero current_fraction edt frac_1bub kernel new_fraction pbar positions
  -- valid_distributions
  ⟨n!"test_case.spherical_bubble_model", 7, block [.write 65536, .read 65544, .read 8, .read 16, .either .skip .skip, .read 64, .either (block [.read 1, .write 64])
    (.read 64), .read 4, .write 2048, .read 2115, .either (block [.read 2114, .read 64, .ret true]) .skip, .read 2131, .either (block [.read 2162, .read 64, .ret
    true]) .skip, .read 4, .write 4096, .read 32, .write 16384, .read 64, .write 512, .read 32, .loop (block [.write 128, .read 64, .either (.read 64) .skip, .read
    8, .either (block [.read 64, .write 256, .read 272, .write 32768]) (block [.read 8, .either (block [.read 64, .write 1024, .read 1028, .write 256, .read 256,
    .either .brk (block [.read 272, .write 32768])]) .skip]), .read 36928, .read 64, .write 64, .read 64, .write 8192, .read 16384, .read 8192, .write 512, .read
    514, .either .brk .skip, .read 16450]) .skip, .read 16384, .read 16384, .read 16384, .read 16384, .read 64, .read 64, .read 64, .read 64, .ret true]⟩]

/-- The functions of `topology.py` (lines 10-205). -/
def topologyFns : List Fn := [
  -- lines 10-74: data thres neighbors speed_up verbose n_jobs A C E F V count counts_dict elem tstart
  ⟨n!"topology.EulerCharacteristic", 6, block [.write 16384, .read 3, .write 64, .read 4, .either (block [.read 64, .write 64]) .skip, .read 16, .either (.read 8)
    .skip, .read 8, .either (block [.read 64, .write 128]) (block [.read 8, .either (block [.read 64, .write 128]) (block [.read 8, .either (block [.read 16, .either
    .skip .skip, .read 64, .write 128]) (block [.read 8, .either (.read 8) .skip, .read 32, .either (.write 32) .skip, .read 32, .either (block [.read 64, .write
    128]) (block [.read 16, .either (.read 32) .skip, .read 96, .write 128])])])]), .read 16, .either (.read 16384) .skip, .read 128, .write 8192, .write 2048, .read
    10240, .write 4096, .read 4096, .write 1024, .read 4096, .write 256, .read 4096, .write 512, .read 4096, .write 128, .read 1920, .ret true]⟩,
  -- lines 76-95: data thres neighbors A b0
  ⟨n!"topology.betti0", 3, block [.read 3, .write 8, .read 4, .either (block [.read 8, .write 16]) (block [.read 8, .write 16]), .read 16, .ret true]⟩,
  -- lines 97-116: data thres neighbors A b2
  ⟨n!"topology.betti2", 3, block [.read 3, .write 8, .read 4, .either (block [.read 8, .write 16]) (block [.read 8, .write 16]), .read 16, .ret true]⟩,
  -- lines 118-141: data thres neighbors b0 b2 chi speed_up verbose n_jobs
  ⟨n!"topology.betti1", 9, block [.read 32, .either (block [.read 455, .write 32]) .skip, .read 8, .either (block [.read 7, .write 8]) .skip, .read 16, .either
    (block [.read 7, .write 16]) .skip, .read 56, .ret true]⟩,
  -- lines 143-186: data xth g ma md me mf stela steld stele stelf
  ⟨n!"topology.genus", 2, block [.read 3, .write 1, .write 128, .read 128, .read 129, .write 8, .write 256, .read 256, .read 256, .read 256, .read 256, .read 256,
    .read 256, .read 256, .read 256, .read 256, .read 256, .read 256, .read 256, .read 256, .read 256, .read 256, .read 256, .read 257, .write 16, .write 512, .read
    512, .read 512, .read 512, .read 512, .read 512, .read 512, .read 512, .read 512, .read 512, .read 512, .read 512, .read 512, .read 512, .read 512, .read 512,
    .read 512, .read 512, .read 512, .read 512, .read 512, .read 513, .write 32, .write 1024, .read 1024, .read 1024, .read 1024, .read 1024, .read 1024, .read 1024,
    .read 1024, .read 1024, .read 1024, .read 1024, .read 1024, .read 1024, .read 1024, .read 1024, .read 1024, .read 1024, .read 1024, .read 1024, .read 1024, .read
    1025, .write 64, .read 120, .write 4, .read 4, .ret true]⟩,
  -- lines 189-198: data stela count stela1 stela2 stela3 stela4 stela5 stela6 stela7
  ⟨n!"topology.count_neighbors", 2, block [.read 3, .write 4, .read 2, .write 8, .read 13, .write 4, .read 2, .write 16, .read 21, .write 4, .read 2, .write 32,
    .read 37, .write 4, .read 2, .write 64, .read 69, .write 4, .read 64, .write 128, .read 133, .write 4, .read 64, .write 256, .read 261, .write 4, .read 64,
    .write 512, .read 517, .write 4, .read 4, .ret true]⟩,
  -- lines 200-205: data stela elem neb26 neba numb stel26
  ⟨n!"topology.count_neighbors_once", 2, block [.write 64, .read 65, .write 8, .read 3, .write 16, .read 24, .write 4, .write 32, .read 38, .ret true]⟩]

/-- The functions of `usefuls.py` (lines 8-133). -/
def usefulsFns : List Fn := [
  -- lines 8-11: string msg
  ⟨n!"usefuls.loading_verbose", 1, block [.read 1, .write 2, .read 2]⟩,
  -- lines 13-15: msg
  ⟨n!"usefuls.loading_msg", 1, .read 1⟩,
  -- lines 17-18: M
  ⟨n!"usefuls.Mgrid_2_Msolar", 1, block [.read 1, .ret true]⟩,
  -- lines 20-21: M
  ⟨n!"usefuls.Msolar_2_Mgrid", 1, block [.read 1, .ret true]⟩,
  -- lines 23-36: xfrac_dir file_type xfrac_files xfrac_zs
  ⟨n!"usefuls.get_zs_list", 2, block [.read 3, .write 4, .write 8, .read 12, .write 8, .read 8, .ret true]⟩,
  -- lines 39-50: xfrac_dir dens_dir z interpolation mean_subtract dens dt xfrac
  ⟨n!"usefuls.coeval_21cm", 5, block [.read 13, .write 128, .read 14, .write 32, .read 164, .write 64, .read 16, .either (block [.read 64, .ret true]) (block [.read
    64, .ret true])]⟩,
  -- lines 53-73: xfrac_dir z interpolation xfrac xfrac_files xfrac_h xfrac_l xfrac_zs z_h z_l
  ⟨n!"usefuls.coeval_xfrac", 3, block [.read 4, .either (block [.read 4, .throw]) .skip, .read 1, .write 16, .write 128, .read 144, .write 128, .read 130, .either
    (block [.read 146, .write 8]) (block [.read 130, .write 512, .read 130, .write 256, .read 146, .write 64, .read 146, .write 32, .read 866, .write 8, .read 4]),
    .read 8, .ret true]⟩,
  -- lines 75-95: dens_dir z interpolation dens dens_files dens_h dens_l dens_zs dtype z_h z_l
  ⟨n!"usefuls.coeval_dens", 3, block [.read 4, .either (block [.read 4, .throw]) .skip, .read 1, .write 16, .write 128, .read 144, .write 128, .read 130, .either
    (block [.read 146, .write 8, .write 256]) (block [.read 130, .write 1024, .read 130, .write 512, .read 146, .write 64, .write 256, .read 146, .write 32, .write
    256, .read 1634, .write 8, .read 4]), .read 8, .ret true]⟩,
  -- lines 97-105: dens_dir z interpolation dens overdens
  ⟨n!"usefuls.coeval_overdens", 3, block [.read 7, .write 8, .read 8, .write 16, .read 16, .ret true]⟩,
  -- lines 107-133: dens_dir vel_dir z interpolation dens_files get_vel vel vel_files vel_h vel_l vel_zs z_h z_l
  ⟨n!"usefuls.coeval_vel", 4, block [.read 8, .either (block [.read 8, .throw]) .skip, .read 1, .write 16, .read 2, .write 128, .write 1024, .read 1152, .write 1024,
    .write 32, .read 1028, .either (block [.read 1204, .write 64]) (block [.read 1028, .write 4096, .read 1028, .write 2048, .read 1204, .write 512, .read 1204,
    .write 256, .read 6916, .write 64, .read 8]), .read 64, .ret true]⟩,
  -- lines 119-123: vel_file dens_file dfile vel
  ⟨n!"usefuls.coeval_vel.get_vel", 2, block [.read 2, .write 4, .read 1, .write 1, .read 5, .write 8, .read 8, .ret true]⟩]

/-- The functions of `vel_file.py` (lines 22-132). -/
def velFileFns : List Fn := [
  -- lines 22-33: self filename
  ⟨n!"vel_file.VelocityFile.__init__", 2, block [.read 2, .either (.read 3) .skip]⟩,
  -- lines 35-69: self filename f name os temp_mesh
  ⟨n!"vel_file.VelocityFile.read_from_file", 2, block [.read 2, .read 2, .read 1, .read 2, .write 4, .read 4, .write 32, .read 32, .read 1, .read 1, .read 1, .read
    4, .read 1, .read 4, .read 1, .read 1, .attempt (block [.write 16, .read 18, .write 8, .read 8, .read 1]) (.read 1) .skip, .read 1, .read 1]⟩,
  -- lines 71-110: self filename raw_velocity _ e f temp_mesh
  ⟨n!"vel_file.VelocityFile.write_to_file", 3, block [.read 4, .read 1, .read 1, .either (.ret false) .skip, .read 2, .read 2, .read 1, .attempt (block [.read 2,
    .write 32, .read 1, .either (block [.read 1, .write 8, .read 1, .read 1, .read 1]) .skip, .read 1, .write 64, .read 96, .read 33]) (block [.write 16, .read 16,
    .write 16, .del 16]) .skip]⟩,
  -- lines 112-132: self density dfile
  ⟨n!"vel_file.VelocityFile.get_kms_from_density", 2, block [.read 2, .either (block [.read 2, .write 4, .read 4, .write 2]) (block [.read 2, .either (block [.read
    2, .write 2]) .skip]), .read 3, .ret true]⟩]

/-- The functions of `xfrac_file.py` (lines 19-136). -/
def xfracFileFns : List Fn := [
  -- lines 19-32: self filename old_format neutral binary_format
  ⟨n!"xfrac_file.XfracFile.__init__", 5, block [.read 2, .either (.read 31) .skip]⟩,
  -- lines 34-77: self filename old_format neutral binary_format f name os temp_mesh
  ⟨n!"xfrac_file.XfracFile.read_from_file", 5, block [.read 2, .read 2, .read 1, .read 2, .write 32, .read 16, .either (block [.read 32, .write 256, .read 256, .read
    1, .read 1, .read 1]) (block [.read 32, .write 256, .read 256, .read 1, .read 1, .read 1]), .read 4, .either (block [.read 32, .read 1]) (block [.read 32, .read
    1]), .read 1, .read 1, .read 8, .either (block [.read 1, .read 1]) .skip, .read 32, .write 128, .attempt (block [.read 130, .write 64, .read 64, .read 1]) (.read
    1) .skip]⟩,
  -- lines 79-136: self filename xi old_format neutral binary_format data_to_write dtype_xi f temp_mesh
  ⟨n!"xfrac_file.XfracFile.write_to_file", 6, block [.read 4, .read 1, .read 2, .read 2, .read 1, .read 2, .write 256, .read 8, .write 128, .read 1, .either (block
    [.read 1, .read 1, .read 1, .read 1]) (block [.read 1, .read 1, .read 1]), .read 32, .either (block [.read 1, .write 512, .read 768]) (block [.write 512, .read
    1, .read 512, .read 1, .read 512, .read 1, .read 512, .read 768]), .read 1, .write 64, .read 16, .either (block [.read 1, .write 64]) .skip, .read 448, .read
    256]⟩]

/-- The functions of the files of this part (for example `scipy_func.py` lines 17-21). -/
def part4 : List Fn := scipyFuncFns ++ segmentationFns ++ smoothingFns ++ sourceFileFns ++ spaNpFns ++ statisticsFns ++ superpixelsFns ++ tauFns ++
  temperFileFns ++ temperatureFns ++ testCaseFns ++ topologyFns ++ usefulsFns ++ velFileFns ++ xfracFileFns

end Verif.Locals

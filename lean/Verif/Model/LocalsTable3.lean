import Verif.Model.Locals

/-!
# The functions of the package, part 3

Generated from the syntax trees of the files; in each entry the name of the function, the number of its parameters and its statements as far as they concern its local
variables (see `Model/Locals.lean`).  Before each entry are the lines of the function and its local variables in the order of the binary digits of the sets.
-/

namespace Verif.Locals

/-- The functions of `position_dependent_power_spectrum.py` (lines 5-150). -/
def positionDependentPowerSpectrumFns : List Fn := [
  -- lines 5-22: cube cube2 Ncuts kbins box_dims binning verbose
  ⟨n!"position_dependent_power_spectrum.power_spectrum_response", 7, block [.read 127, .ret true]⟩,
  -- lines 25-43: cube Ncuts kbins box_dims binning normalize verbose
  ⟨n!"position_dependent_power_spectrum.integrated_bispectrum", 7, block [.read 127, .ret true]⟩,
  -- lines 45-88: cube1 cube2 Ncuts kbins box_dims binning normalize verbose B_k Lx Ly Lz P_k V_L c1 c2 d_mean i ks n_box pk rLs sig2 w1 w2
  ⟨n!"position_dependent_power_spectrum.integrated_bispectrum_cross", 8, block [.read 3, .read 5, .read 5, .write 512, .write 1024, .write 2048, .read 3588, .write
    2097152, .read 8, .write 256, .read 8, .write 4096, .write 4194304, .read 4, .write 524288, .read 3584, .write 8192, .read 524416, .loop (block [.write 131072,
    .read 2231809, .write 8388608, .read 2231810, .write 16777216, .read 8388609, .write 16384, .read 16777218, .write 32768, .read 16440, .write 1048576, .write
    262144, .read 40960, .write 65536, .read 1114368, .write 256, .read 1052672, .write 4096, .read 4259840, .write 4194304]) .skip, .read 524544, .write 256, .read
    528384, .write 4096, .read 4718592, .write 4194304, .read 128, .either (.read 20) .skip, .read 64, .either (block [.read 4460800, .ret true]) .skip, .read
    262400, .ret true]⟩,
  -- lines 90-101: array rL L out xl yl zl
  ⟨n!"position_dependent_power_spectrum._W_L", 3, block [.read 3, .read 1, .write 8, .read 4, .either (block [.read 5, .write 4]) .skip, .read 6, .write 16, .read 6,
    .write 32, .read 6, .write 64, .read 120, .read 8, .ret true]⟩,
  -- lines 103-150: cube1 cube2 L_subbox kbins box_dims binning normalize verbose slide_overlap B_k L L_slide Lx Ly Lz P_k V_L c1 c2 d_mean i ks n_box pk rLs sig2 sn
  -- w1 w2
  ⟨n!"position_dependent_power_spectrum.integrated_bispectrum_cross_slide", 9, block [.read 3, .read 1, .write 1024, .read 4, .write 4096, .write 8192, .write 16384,
    .read 260, .write 2048, .read 3076, .write 67108864, .read 67109892, .write 2048, .read 67110916, .write 16777216, .read 8, .write 512, .read 8, .write 32768,
    .write 33554432, .read 16777216, .write 4194304, .read 28672, .write 65536, .read 4194432, .loop (block [.write 1048576, .read 17854465, .write 134217728, .read
    17854466, .write 268435456, .read 134217729, .write 131072, .read 268435458, .write 262144, .read 131128, .write 8388608, .write 2097152, .read 327680, .write
    524288, .read 8913408, .write 512, .read 8421376, .write 32768, .read 34078720, .write 33554432]) .skip, .read 4194816, .write 512, .read 4227072, .write 32768,
    .read 37748736, .write 33554432, .read 128, .either (.read 4116) .skip, .read 64, .either (block [.read 35684864, .ret true]) .skip, .read 2097664, .ret true]⟩]

/-- The functions of `power_legendre.py` (lines 4-90). -/
def powerLegendreFns : List Fn := [
  -- lines 4-90: input_array kbins box_dims los_axis output exclude_zero_modes P0 P2 P4 dk good_idx i idx k k_comp kmax kmin mu multipoles n_kbins nmodes ps
  ⟨n!"power_legendre.power_spectrum_multipoles", 6, block [.read 9, .read 5, .write 4, .read 5, .write 2097152, .read 5, .write 16384, .write 8192, .read 8198,
    .write 2, .read 2, .write 512, .read 24584, .write 131072, .read 32, .either (block [.read 2097160, .write 1024]) (block [.read 2097152, .write 1024]), .read 16,
    .either (block [.read 131072, .write 64]) .skip, .read 16, .either (block [.read 131072, .write 128]) .skip, .read 16, .either (block [.read 131072, .write 256])
    .skip, .read 2, .write 524288, .write 262144, .read 16, .either (block [.read 524288, .read 262144]) .skip, .read 16, .either (block [.read 524288, .read
    262144]) .skip, .read 16, .either (block [.read 524288, .read 262144]) .skip, .read 524288, .write 1048576, .read 524288, .loop (block [.write 2048, .read 2050,
    .write 65536, .read 2050, .write 32768, .write 4096, .read 5120, .write 4096, .read 4096, .read 1050624, .read 16, .either (block [.read 2101312, .read 264192])
    .skip, .read 16, .either (block [.read 2101376, .read 264192]) .skip, .read 16, .either (block [.read 2101504, .read 264192]) .skip]) .skip, .read 1048576, .read
    262144, .read 262658, .ret true]⟩]

/-- The functions of `power_spect_fast.py` (lines 11-347). -/
def powerSpectFastFns : List Fn := [
  -- lines 11-44: input_array box_dims verbose boxvol ft pixelsize power_spectrum
  ⟨n!"power_spect_fast.power_spect_nd", 3, block [.read 2, .either (block [.read 2, .write 2]) .skip, .read 4, .either .skip .skip, .read 1, .write 16, .read 16,
    .write 64, .read 4, .either .skip .skip, .read 2, .write 8, .read 9, .write 32, .read 104, .write 64, .read 64, .ret true]⟩,
  -- lines 46-79: input_array box_dims verbose boxvol ft phase_spectrum pixelsize power_spectrum
  ⟨n!"power_spect_fast.phase_spect_nd", 3, block [.read 2, .either (block [.read 2, .write 2]) .skip, .read 4, .either .skip .skip, .read 1, .write 16, .read 16,
    .write 32, .read 4, .either .skip .skip, .read 2, .write 8, .read 9, .write 64, .read 200, .write 128, .read 128, .ret true]⟩,
  -- lines 81-110: input_array box_dims center dim k kx ky kz x y z
  ⟨n!"power_spect_fast._get_k", 2, block [.read 2, .either (block [.read 2, .write 2]) .skip, .read 1, .write 8, .read 8, .either (block [.read 1, .write 256, .read
    256, .write 4, .read 262, .write 32, .read 32, .ret true]) (block [.read 8, .either (block [.read 1, .write 256, .write 512, .read 768, .write 4, .read 262,
    .write 32, .read 518, .write 64, .read 96, .write 16, .read 112, .ret true]) (block [.read 8, .either (block [.read 1, .write 256, .write 512, .write 1024, .read
    1792, .write 4, .read 262, .write 32, .read 518, .write 64, .read 1030, .write 128, .read 224, .write 16, .read 240, .ret true]) .skip])])]⟩,
  -- lines 113-141: input_array kbins binning box_dims return_modes kmin kmax a arg i k k_sort k_width kkk ks kx ky kz n_bin n_modes power ps
  ⟨n!"power_spect_fast.power_spect_1d", 7, block [.read 9, .write 1048576, .read 9, .write 32768, .write 65536, .write 131072, .write 1024, .read 32, .either (block
    [.read 8, .write 32]) .skip, .read 64, .either (block [.read 1024, .write 64]) .skip, .read 4, .either (block [.read 98, .write 16384, .read 1024, .write 1024])
    (block [.read 4, .either (block [.read 98, .write 16384]) (block [.read 4, .either (block [.read 1026, .write 262144, .read 1024, .write 2048, .read 265216,
    .write 16384]) .skip])]), .read 4, .either (block [.read 16384, .write 16384]) .skip, .read 17408, .write 8192, .read 8192, .write 4096, .read 2, .write 2097152,
    .read 2, .write 524288, .read 1049600, .write 1024, .write 1048576, .read 16384, .loop (block [.write 512, .write 128, .read 5760, .write 256, .read 1048832,
    .read 2097664, .read 256, .read 524800]) .skip, .read 2621440, .write 2097152, .read 4, .either (block [.read 16384, .write 16384]) .skip, .read 16, .either
    (block [.read 2637824, .ret true]) .skip, .read 2113536, .ret true]⟩,
  -- lines 143-231: input_array kbins binning box_dims return_modes nu_axis window a arg b i j k k_width kdict kp kpar kper kx ky kz n_modes power ps windows
  ⟨n!"power_spect_fast.power_spect_2d", 7, block [.read 64, .either (block [.write 16777216, .read 64, .either (block [.read 16777217, .write 1]) (block [.read 64,
    .either (block [.read 16777217, .write 1]) (block [.read 65, .write 1])])]) .skip, .read 2, .either (block [.read 2, .write 2]) .skip, .read 2, .either (.write
    4) .skip, .read 9, .write 4194304, .read 9, .write 262144, .write 524288, .write 1048576, .write 4096, .write 16384, .read 1835008, .read 16384, .read 16384,
    .read 16384, .del 262144, .del 524288, .del 1048576, .read 16416, .write 1048576, .read 16416, .write 32768, .read 1048576, .write 1048576, .read 4, .either
    (block [.read 2, .write 131072, .read 2, .write 65536, .read 196608, .write 2]) (block [.read 4, .either (block [.read 32770, .write 131072, .read 1048578,
    .write 65536, .read 1081344, .write 32768, .write 1048576]) (block [.read 4, .either (block [.read 32770, .write 131072, .read 1048578, .write 65536]) .skip])]),
    .read 196608, .write 8192, .read 131072, .write 131072, .read 65536, .write 65536, .read 2, .write 8388608, .read 2, .write 2097152, .read 5275648, .write 32768,
    .write 1048576, .write 4194304, .read 131072, .loop (block [.write 1024, .write 128, .read 65536, .loop (block [.write 2048, .write 512, .read 1090176, .write
    256, .read 4194560, .read 8391680, .read 256, .read 2100224]) .skip]) .skip, .read 10485760, .write 8388608, .read 4, .either (block [.read 196608, .write
    131072, .write 65536]) .skip, .read 16, .either (block [.read 10682368, .ret true]) .skip, .read 8585216, .ret true, .read 10485760, .write 8388608, .read 4,
    .either (block [.read 196608, .write 131072, .write 65536]) .skip, .read 16, .either (block [.read 10682368, .ret true]) .skip, .read 8585216, .ret true]⟩,
  -- lines 234-237: input_array kbins binning box_dims return_modes ks n_modes ps
  ⟨n!"power_spect_fast.dimensional_power", 5, block [.read 15, .write 128, .write 32, .write 64, .read 16, .either (block [.read 224, .ret true]) .skip, .read 160,
    .ret true]⟩,
  -- lines 240-281: input_array kbins box_dims return_modes mubins binning nu_axis a arg b i j k k_width kdict kpar kper ks kx ky kz m m1 m_width mu n_modes power ps
  ⟨n!"power_spect_fast.power_spect_mu", 7, block [.read 32, .either (block [.read 32, .write 32]) .skip, .read 5, .write 67108864, .read 5, .write 262144, .write
    524288, .write 1048576, .write 4096, .write 16384, .read 1835008, .read 16384, .read 16384, .read 16384, .del 262144, .del 524288, .del 1048576, .read 16448,
    .write 32768, .read 16448, .write 65536, .read 36864, .write 2097152, .read 32, .either (block [.read 4098, .write 131072, .read 4096, .write 4096]) (block
    [.read 4098, .write 131072]), .read 131072, .write 131072, .read 131072, .write 8192, .read 32, .either (block [.read 2097152, .write 4194304, .read 4194320,
    .write 16777216, .read 2097152, .write 2097152]) (block [.read 16, .write 16777216]), .read 16777216, .write 16777216, .read 16777216, .write 8388608, .read 18,
    .write 134217728, .read 18, .write 33554432, .read 69210112, .write 4096, .write 2097152, .write 67108864, .read 131072, .loop (block [.write 1024, .write 128,
    .read 16777216, .loop (block [.write 2048, .write 512, .read 10498688, .write 256, .read 67109120, .read 134220800, .read 256, .read 33557504]) .skip]) .skip,
    .read 167772160, .write 134217728, .read 32, .either (block [.read 131072, .write 131072]) .skip, .read 32, .either (block [.read 16777216, .write 16777216])
    .skip, .read 8, .either (block [.read 184680448, .ret true]) .skip, .read 151126016, .ret true]⟩,
  -- lines 283-333: ps xlabel ylabel ps_label fig ax plotting_scale draw_wedge kwargs C X Y colors f_kpar fp kpar kper norm pcm plt pp
  ⟨n!"power_spect_fast.plot_2d_power", 9, block [.write 524288, .write 4096, .attempt (block [.read 1, .write 1048576, .write 65536, .write 32768]) (block [.read 1,
    .write 1048576, .write 65536, .write 32768]) .skip, .read 1146880, .write 16384, .read 48, .either (block [.read 524288, .write 16, .write 32]) (block [.read 48,
    .either .skip (block [.read 16, .write 32])]), .read 98304, .write 1024, .write 2048, .read 19456, .write 512, .read 4672, .write 131072, .read 134944, .write
    262144, .read 128, .either (block [.read 128, .write 8192, .read 9376, .read 3104]) .skip, .read 786472, .read 34, .read 36, .read 96, .read 96, .ret true]⟩,
  -- lines 335-347: z fov_deg f_kpar
  ⟨n!"power_spect_fast.horizon_wedge_equation", 2, block [.write 4, .read 4, .ret true]⟩]

/-- The functions of `power_spectrum.py` (lines 12-614). -/
def powerSpectrumFns : List Fn := [
  -- lines 12-21: input_array window windows
  ⟨n!"power_spectrum.apply_window", 2, block [.read 2, .either (block [.read 1, .ret true]) .skip, .write 4, .read 2, .either (block [.read 5, .write 1]) (block
    [.read 2, .either (block [.read 5, .write 1]) (block [.read 3, .write 1])]), .read 1, .ret true]⟩,
  -- lines 24-54: input_array box_dims verbose kwargs boxvol ft pixelsize power_spectrum
  ⟨n!"power_spectrum.power_spectrum_nd", 4, block [.read 8, .either (block [.read 8, .write 2]) .skip, .read 3, .write 2, .read 4, .either .skip .skip, .read 1,
    .write 32, .read 32, .write 128, .read 4, .either .skip .skip, .read 2, .write 16, .read 17, .write 64, .read 208, .write 128, .read 128, .ret true]⟩,
  -- lines 57-95: input_array1 input_array2 box_dims kwargs boxvol ft1 ft2 pixelsize power_spectrum
  ⟨n!"power_spectrum.cross_power_spectrum_nd", 4, block [.read 3, .read 8, .either (block [.read 8, .write 4]) .skip, .read 5, .write 4, .read 1, .write 32, .read 2,
    .write 64, .read 96, .write 256, .read 4, .write 16, .read 17, .write 128, .read 400, .write 256, .read 256, .ret true]⟩,
  -- lines 98-134: input_array box_dims kbins binning breakpoint kwargs dk k k_comp n_modes outdata
  ⟨n!"power_spectrum.radial_average", 6, block [.read 32, .either (block [.read 32, .write 2]) .skip, .read 3, .write 256, .write 128, .read 158, .write 4, .read 4,
    .write 64, .read 133, .write 1024, .read 132, .write 512, .read 1536, .write 1024, .read 1604, .ret true]⟩,
  -- lines 137-174: input_array_nd kbins box_dims return_n_modes binning breakpoint window kwargs bins input_array n_modes ps
  ⟨n!"power_spectrum.power_spectrum_1d", 8, block [.read 65, .write 1, .read 128, .either (block [.read 128, .write 4]) .skip, .read 5, .write 4, .read 5, .write
    512, .read 566, .write 2048, .write 256, .write 1024, .read 8, .either (block [.read 3328, .ret true]) .skip, .read 2304, .ret true]⟩,
  -- lines 177-254: input_array kbins binning box_dims return_modes nu_axis window kwargs k k_xyz kp kpar kpar_mid kper kper_mid kz n_modes power ps xy_axis
  ⟨n!"power_spectrum.power_spectrum_2d", 8, block [.read 65, .write 1, .read 2, .either (.write 4) (block [.read 2, .either (block [.read 2, .write 2]) (block [.read
    2, .either (.write 4) .skip])]), .read 128, .either (block [.read 128, .write 8]) .skip, .read 9, .write 8, .read 9, .write 131072, .read 9, .write 512, .write
    256, .write 524288, .read 524320, .read 544, .write 32768, .read 524800, .write 1024, .del 512, .del 256, .del 524288, .read 4, .either (block [.read 2, .write
    8192, .read 2, .write 2048]) (block [.read 4, .either (block [.read 1026, .write 8192, .read 32770, .write 2048, .read 33792, .write 1024, .write 32768]) (block
    [.read 4, .either (block [.read 1026, .write 8192, .read 32770, .write 2048]) .skip])]), .read 164864, .write 1024, .write 32768, .write 131072, .read 175104,
    .write 262144, .read 4, .either (block [.read 8192, .write 16384, .read 2048, .write 4096]) (block [.read 8192, .write 16384, .read 2048, .write 4096]), .read
    16, .either (block [.read 44032, .write 65536, .read 348160, .ret true]) (block [.read 282624, .ret true])]⟩,
  -- lines 257-289: input_array1_nd input_array2_nd kbins box_dims return_n_modes binning breakpoint kwargs bins input_array n_modes ps
  ⟨n!"power_spectrum.cross_power_spectrum_1d", 8, block [.read 128, .either (block [.read 128, .write 8]) .skip, .read 9, .write 8, .read 11, .write 512, .read 620,
    .write 2048, .write 256, .write 1024, .read 16, .either (block [.read 3328, .ret true]) .skip, .read 2304, .ret true]⟩,
  -- lines 292-332: input_array los_axis mubins kbins box_dims weights exclude_zero_modes return_n_modes absolute_mus kwargs k_bins mu_bins n_modes powerspectrum ps
  ⟨n!"power_spectrum.power_spectrum_mu", 10, block [.read 512, .either (block [.read 512, .write 16]) .skip, .read 17, .write 16, .read 17, .write 8192, .read 8574,
    .write 16384, .write 2048, .write 1024, .write 4096, .read 128, .either (block [.read 23552, .ret true]) .skip, .read 19456, .ret true]⟩,
  -- lines 335-377: input_array1 input_array2 los_axis mubins kbins box_dims weights exclude_zero_modes return_n_modes absolute_mus kwargs k_bins mu_bins n_modes
  -- powerspectrum ps
  ⟨n!"power_spectrum.cross_power_spectrum_mu", 11, block [.read 1024, .either (block [.read 1024, .write 32]) .skip, .read 33, .write 32, .read 35, .write 16384,
    .read 17148, .write 32768, .write 4096, .write 2048, .write 8192, .read 256, .either (block [.read 47104, .ret true]) .skip, .read 38912, .ret true]⟩,
  -- lines 380-435: powerspectrum los_axis mubins kbins box_dims weights exclude_zero_modes binning absolute_mus dk dmu good_idx i idx k k_comp ki kidx kmax kmin
  -- min_mu mu mu_max mu_min n_kbins n_modes n_mubins outdata
  ⟨n!"power_spectrum.mu_binning", 9, block [.read 32, .either (block [.read 33, .write 1]) .skip, .read 1, .read 17, .write 32768, .write 16384, .read 49410, .write
    2097152, .read 16536, .write 8, .read 8, .write 512, .read 8, .write 16777216, .read 64, .either (block [.read 3, .write 2048]) (block [.read 1, .write 2048]),
    .read 256, .write 1048576, .read 4, .either (block [.read 1048580, .write 4]) .skip, .read 4, .write 1024, .read 4, .write 67108864, .read 1, .read 83886080,
    .write 134217728, .read 83886080, .write 33554432, .read 16777216, .loop (block [.write 65536, .read 16842752, .read 65544, .write 524288, .read 65544, .write
    262144, .read 802816, .write 131072, .read 133120, .write 131072, .read 67108864, .loop (block [.write 4096, .read 4100, .write 8388608, .read 4100, .write
    4194304, .read 14811136, .write 8192, .read 8193, .read 134287360, .read 8193, .read 33624064, .read 32, .either (.read 134295584) .skip]) .skip]) .skip, .read
    167773708, .ret true]⟩,
  -- lines 437-439: input_array box_dims
  ⟨n!"power_spectrum.get_k", 2, block [.read 3, .write 2, .read 3, .ret true]⟩,
  -- lines 441-445: kbins box_dims k array binning k_comp
  ⟨n!"power_spectrum.get_kbins", 5, block [.read 12, .read 10, .write 2, .read 4, .either (block [.read 10, .write 32, .write 4]) .skip, .read 23, .ret true]⟩,
  -- lines 449-478: input_array box_dims center dim k kx ky kz nx ny nz x y z
  ⟨n!"power_spectrum._get_k", 2, block [.read 1, .write 8, .read 8, .either (block [.read 1, .write 2048, .read 2048, .write 4, .read 2054, .write 32, .read 32, .ret
    true]) (block [.read 8, .either (block [.read 1, .write 2048, .write 4096, .read 6144, .write 4, .read 2054, .write 32, .read 4102, .write 64, .read 96, .write
    16, .read 112, .ret true]) (block [.read 8, .either (block [.read 1, .write 256, .write 512, .write 1024, .read 1, .write 2048, .write 4096, .write 8192, .read
    1792, .write 4, .read 2054, .write 32, .read 4102, .write 64, .read 8198, .write 128, .read 224, .write 16, .read 240, .ret true]) .skip])])]⟩,
  -- lines 481-502: k_comp k los_axis absolute_mus los_dist mu
  ⟨n!"power_spectrum._get_mu", 4, block [.read 4, .either (block [.read 1, .write 16]) (block [.read 4, .either (block [.read 1, .write 16]) (block [.read 4, .either
    (block [.read 1, .write 16]) (block [.read 4, .throw])])]), .read 26, .write 32, .read 34, .read 32, .ret true]⟩,
  -- lines 505-519: kbins box_dims k binning breakpoint kmin kmax kbins_high kbins_low
  ⟨n!"power_spectrum._get_kbins", 7, block [.read 1, .either (block [.read 34, .write 32, .read 68, .write 64, .read 8, .either (block [.read 97, .write 1]) (block
    [.read 8, .either (block [.read 97, .write 1]) (block [.read 97, .write 256, .read 97, .write 128, .read 400, .write 1])])]) .skip, .read 1, .ret true]⟩,
  -- lines 522-534: box_dims ashape
  ⟨n!"power_spectrum._get_dims", 2, block [.read 1, .either (block [.read 2, .ret true]) .skip, .read 1, .either (block [.read 3, .ret true]) .skip, .read 1, .ret
    true]⟩,
  -- lines 536-561: data kbins box_dims binning factor Pk f_Dlta interp1d knew ks
  ⟨n!"power_spectrum.dimensionless_ps", 5, block [.write 128, .read 31, .write 32, .write 512, .read 672, .write 64, .read 522, .write 256, .read 320, .ret true]⟩,
  -- lines 563-575: ps_shape los_axis good_idx x y z zero_idx
  ⟨n!"power_spectrum._get_nonzero_idx", 2, block [.read 1, .write 8, .write 16, .write 32, .read 2, .either (block [.read 49, .write 64]) (block [.read 2, .either
    (block [.read 41, .write 64]) (block [.read 25, .write 64])]), .read 64, .write 4, .read 4, .ret true]⟩,
  -- lines 578-614: input_array los_axis mu_cut mubins kbins box_dims weights exclude_zero_modes return_n_modes absolute_mus kwargs Pdn Pk Pup rdn rmu rup
  ⟨n!"power_spectrum.anisotropy_ratio_r_mu", 11, block [.read 2043, .write 4096, .write 8, .write 16, .read 4108, .write 8192, .read 4108, .write 2048, .read 8192,
    .write 65536, .read 2048, .write 16384, .read 81920, .write 32768, .read 32784, .ret true]⟩]

/-- The functions of `power_spectrum_noise.py` (lines 10-66). -/
def powerSpectrumNoiseFns : List Fn := [
  -- lines 10-66: nu_c k t kwargs Acoll Acore Aeff Aeff_val B Dc Delta_noise Nstat OmegaFoV Rmax Tsys Tsys_val deltaDc epsilon multipole multipole_factor wavel
  ⟨n!"power_spectrum_noise.noise_error_ps", 4, block [.read 1, .write 1048576, .read 4, .write 4, .read 8, .write 8192, .read 8192, .write 32, .read 8, .write 64,
    .read 64, .either (block [.read 65, .write 128]) (block [.read 64, .write 128]), .read 8, .write 2048, .read 2176, .write 16, .read 8, .write 256, .read 1,
    .write 512, .read 769, .write 65536, .read 1048704, .write 4096, .read 8, .write 16384, .read 16384, .either (block [.read 16385, .write 32768]) (block [.read
    16384, .write 32768]), .read 8, .write 131072, .read 8, .write 262144, .read 262144, .write 524288, .read 234422, .write 1024, .read 525312, .ret true]⟩]

/-- The functions of `primary_beam.py` (lines 13-104). -/
def primaryBeamFns : List Fn := [
  -- lines 13-50: array z nu_axis beam_func boxsize D_station l_null verbose beam beamed i
  ⟨n!"primary_beam.primary_beam", 8, block [.read 1, .read 16, .either (.write 16) .skip, .read 1, .write 256, .read 1, .either (block [.read 59, .write 512]) (block
    [.read 4, .either (block [.read 5, .write 1]) .skip, .read 2, .either (block [.read 3, .write 2]) .skip, .read 130, .loop (block [.write 1024, .read 1147, .read
    1280]) .skip, .read 257, .write 512, .read 4, .either (block [.read 516, .write 512]) .skip]), .read 512, .ret true]⟩,
  -- lines 52-60: z D_station l_null
  ⟨n!"primary_beam.primary_beam_null", 2, block [.read 2, .either (block [.read 2, .write 2]) .skip, .read 3, .write 4, .read 4, .ret true]⟩,
  -- lines 62-104: ncells z D_station beam_func boxsize l_null alpha argument b beam center_idx fwhm r0 r_null rr sigma xx yy
  ⟨n!"primary_beam.circular_beam", 6, block [.read 16, .either (.write 16) .skip, .read 32, .either (block [.read 6, .write 32]) .skip, .read 17, .write 65536,
    .write 131072, .read 196608, .write 16384, .read 8, .either (block [.read 16384, .write 512, .read 16928]) (block [.read 8, .either (block [.read 32, .write
    2048, .read 2048, .write 32768, .read 49152, .write 512]) (block [.read 8, .either (block [.read 32, .write 8192, .read 8192, .write 64, .read 16448, .write 128,
    .read 16384, .write 1024, .read 1152, .read 128, .write 512, .read 1536]) (block [.read 8, .either (block [.read 32, .write 4096, .write 256, .read 20736, .write
    512]) .throw])])]), .read 512, .ret true]⟩]

/-- The functions of `pv_mpm.py` (lines 8-157). -/
def pvMpmFns : List Fn := [
  -- lines 8-131: dT kms redsh los_axis velocity_axis num_particles periodic box_depth dT_skewer dist_skewer distbox dr dr_skewer dr_skewer_pad get_skewer grid_depth
  -- grid_width i j last_percent mx my mz n particle_dT particle_pos percent_done vpar z_obs
  ⟨n!"pv_mpm.get_distorted_dt", 7, block [.read 1, .write 1048576, .write 2097152, .write 4194304, .read 7340032, .read 9, .write 32768, .read 9, .write 65536, .read
    98304, .write 128, .read 8, .read 8, .either (.write 16384) (block [.read 8, .either (.write 16384) (.write 16384)]), .read 4, .write 4, .read 4, .read 18,
    .write 134217728, .read 134217732, .write 268435456, .read 402653184, .write 2048, .read 1, .write 1024, .read 32800, .write 16777216, .write 524288, .read
    65536, .loop (block [.write 131072, .read 196608, .write 67108864, .read 67633152, .either (block [.read 67108864, .read 67108864, .write 524288]) .skip, .read
    65536, .loop (block [.write 262144, .read 409601, .write 256, .read 32928, .write 33554432, .read 32, .loop (block [.write 8388608, .read 288, .read 25165856])
    .skip, .read 411648, .write 8192, .read 8192, .read 33562624, .write 4096, .read 33558528, .write 33554432, .read 64, .either (block [.read 33554560, .read
    33554560]) .skip, .read 50364544, .write 512, .read 8, .either (block [.read 512, .read 394240]) (block [.read 8, .either (block [.read 512, .read 394240])
    (block [.read 512, .read 394240])])]) .skip]) .skip, .read 1, .read 1024, .read 1024, .ret true]⟩,
  -- lines 134-157: dT_filename vel_filename dens_filename z los num_particles dT dT_pv dfile kms vfile
  ⟨n!"pv_mpm.make_pv_box", 6, block [.read 1, .write 64, .read 2, .write 1024, .read 4, .write 256, .read 1280, .write 512, .read 632, .write 128, .read 128, .ret
    true]⟩]

/-- The functions of `radio_telescope_calibration.py` (lines 21-720). -/
def radioTelescopeCalibrationFns : List Fn := [
  -- lines 21-103: antxyz z nu gain_model N_ant Nbase Nbase_with_gains all_gains_i all_gains_r antll gain_model_gen ii jj jm lam mn mu mx pair_comb std ux uy uz
  ⟨n!"radio_telescope_calibration.from_antenna_config_with_gains", 4, block [.read 2, .write 2, .read 1, .either (block [.write 512, .read 512, .write 512, .read
    512, .write 1]) (block [.read 1, .write 1]), .read 4, .either (block [.read 2, .write 4]) .skip, .read 1, .write 16, .read 8, .either (block [.read 8, .either
    (block [.read 8, .either (block [.read 8, .write 65536, .write 524288, .write 1024]) (block [.read 8, .either (block [.read 8, .write 32768, .write 131072,
    .write 1024]) .skip]), .read 1040, .write 256, .read 1040, .write 128]) (block [.read 8, .either (block [.read 24, .write 256, .read 24, .write 128]) (block
    [.read 8, .either (block [.read 24, .write 256, .read 24, .write 128]) (.ret false)])])]) (block [.read 8, .write 256, .write 128]), .read 16, .write 262144,
    .read 262144, .write 262144, .read 4, .write 16384, .write 64, .read 262144, .loop (block [.write 2048, .write 4096, .read 22529, .write 1048576, .read 22529,
    .write 2097152, .read 22529, .write 4194304, .read 6528, .write 8192, .read 1048576, .either (.read 6144) .skip, .read 7348288]) .skip, .read 64, .write 32,
    .read 48, .ret true]⟩,
  -- lines 106-184: ncells z gain_model gain_timescale subarray_type total_int_time int_time boxsize declination include_mirror_baselines verbose N_ant Nbase antxyz
  -- gain_uv_map rotated_Nbase time_idx total_observations
  ⟨n!"radio_telescope_calibration.get_uv_map_with_gains", 11, block [.read 1024, .either .skip .skip, .read 96, .write 131072, .read 1, .write 16384, .read 16,
    .write 8192, .write 2048, .read 1024, .either .skip .skip, .read 132096, .loop (block [.write 65536, .read 65608, .either (block [.read 8198, .write 4096, .write
    2048]) .skip, .read 69952, .write 32768, .read 53891]) .skip, .read 1024, .either .skip .skip, .read 18432, .ret true]⟩,
  -- lines 186-244: Nbase gain_vals gain_uv_map z ncells boxsize include_mirror_baselines verbose Nb gain1 gain2 gain3 gain4 gain_ii gain_ir gain_ri gain_rr
  -- in_bounds theta_max x y
  ⟨n!"radio_telescope_calibration._grid_uv_tracks_with_gains", 8, block [.read 32, .either (.write 32) .skip, .read 40, .write 262144, .read 262145, .write 256,
    .read 272, .write 131072, .read 131074, .write 2, .read 2, .write 65536, .write 8192, .read 2, .write 32768, .write 16384, .read 131328, .write 256, .read
    123136, .loop (block [.write 524288, .write 1048576, .write 512, .write 1024, .write 2048, .write 4096, .read 1572868, .read 1573380, .read 1573892, .read
    1574916, .read 1576964, .read 64, .either (block [.read 1572868, .read 1573380, .read 1573892, .read 1574916, .read 1576964]) .skip]) .skip]⟩,
  -- lines 246-247: gain_uv_map
  ⟨n!"radio_telescope_calibration.gain_uv_map_to_uv_map", 1, block [.read 1, .ret true]⟩,
  -- lines 249-284: array gain_uv_map verbose arr_ft gain_applied_ft img_map
  ⟨n!"radio_telescope_calibration.apply_uv_with_gains_response_on_image", 3, block [.read 3, .read 1, .write 8, .read 10, .write 16, .read 16, .write 32, .read 32,
    .ret true]⟩,
  -- lines 286-333: antxyz z nu N_ant Nbase Nbase_with_gains all_ant_tags antll ii jj lam pair_comb ux uy uz
  ⟨n!"radio_telescope_calibration.from_antenna_config_with_antenna_stamp", 3, block [.read 2, .write 2, .read 1, .either (block [.write 128, .read 128, .write 128,
    .read 128, .write 1]) (block [.read 1, .write 1]), .read 4, .either (block [.read 2, .write 4]) .skip, .read 1, .write 8, .read 8, .write 2048, .read 2048,
    .write 2048, .read 4, .write 1024, .read 8, .write 64, .write 32, .read 2048, .loop (block [.write 256, .write 512, .read 1793, .write 4096, .read 1793, .write
    8192, .read 1793, .write 16384, .read 4096, .either (.read 768) .skip, .read 29536]) .skip, .read 32, .write 16, .read 24, .ret true]⟩,
  -- lines 337-405: ncells z subarray_type total_int_time int_time boxsize declination include_mirror_baselines verbose n_jobs N_ant Nbase ant_tag_uv_map antxyz
  -- chunk_size chunks results total_observations
  ⟨n!"radio_telescope_calibration.get_full_uv_map_with_antenna_stamp", 10, block [.read 4, .write 8192, .write 1024, .read 24, .write 131072, .read 131073, .either
    .skip .skip, .read 256, .either .skip .skip, .read 8194, .write 2048, .write 1024, .read 512, .either (.write 512) .skip, .read 256, .either (.read 512) .skip,
    .read 131584, .write 16384, .read 147456, .write 32768, .read 35827, .write 65536, .read 65536, .write 4096, .read 256, .either .skip .skip, .read 5120, .ret
    true]⟩,
  -- lines 407-456: chunk_start chunk_end ncells z Nbase int_time declination boxsize include_mirror_baselines verbose show_progress ant_tag_uv_map_chunk
  -- rotated_Nbase t time_idx time_indices x y
  ⟨n!"radio_telescope_calibration._process_chunk_get_full_uv_map_with_antenna_stamp", 11, block [.read 7, .write 2048, .read 3, .loop (block [.write 8192, .read 4,
    .loop (block [.write 65536, .read 4, .loop (block [.write 131072, .read 206849]) .skip]) .skip]) .skip, .read 3, .write 32768, .read 1024, .either (block [.read
    33280, .write 32768]) .skip, .read 32768, .loop (block [.write 16384, .read 16496, .write 4096, .read 22941]) .skip, .read 2048, .ret true]⟩,
  -- lines 458-516: Nbase ant_tag ant_tag_uv_map z ncells time_idx boxsize include_mirror_baselines verbose Nb ant1 ant2 ant_tag1 ant_tag2 in_bounds theta_max x y
  ⟨n!"radio_telescope_calibration._grid_uv_tracks_with_antenna_stamp", 9, block [.read 64, .either (.write 64) .skip, .read 72, .write 32768, .read 32769, .write
    512, .read 528, .write 16384, .read 2, .write 4096, .write 8192, .read 29184, .write 512, .write 4096, .write 8192, .read 12800, .loop (block [.write 65536,
    .write 131072, .write 1024, .write 2048, .read 199716, .read 128, .either .skip .skip]) .skip]⟩,
  -- lines 518-522: ant_tag_uv_map verbose gains i j uv_map
  ⟨n!"radio_telescope_calibration.full_uv_map_with_antenna_stamp_to_uv_map", 2, block [.read 1, .write 32, .read 34, .loop (block [.write 8, .write 16, .write 4,
    .read 25, .read 56]) .skip, .read 32, .ret true]⟩,
  -- lines 526-605: ncells z subarray_type total_int_time int_time boxsize declination include_mirror_baselines verbose n_jobs N_ant Nbase ant_pairs ant_tag_uv_lagr
  -- antxyz chunk_size chunks results total_observations
  ⟨n!"radio_telescope_calibration.get_full_uv_lagrangian_with_antenna_stamp", 10, block [.read 4, .write 16384, .write 1024, .read 24, .write 262144, .read 262145,
    .either .skip .skip, .read 256, .either .skip .skip, .read 16386, .write 2048, .write 1024, .read 512, .either (.write 512) .skip, .read 256, .either (.read 512)
    .skip, .read 262656, .write 32768, .read 294912, .write 65536, .read 68595, .write 131072, .read 131072, .write 8192, .read 256, .either .skip .skip, .read 2048,
    .write 4096, .read 12288, .ret true]⟩,
  -- lines 607-657: chunk_start chunk_end ncells z Nbase int_time declination boxsize include_mirror_baselines verbose show_progress ant_tag_uv_map_chunk
  -- rotated_Nbase time_idx time_indices
  ⟨n!"radio_telescope_calibration._process_chunk_get_full_uv_lagrangian_with_antenna_stamp", 11, block [.read 19, .write 2048, .read 3, .write 16384, .read 1024,
    .either (block [.read 16896, .write 16384]) .skip, .read 16384, .loop (block [.write 8192, .read 8304, .write 4096, .read 14749]) .skip, .read 2048, .ret true]⟩,
  -- lines 659-720: Nbase ant_tag ant_tag_uv_map z ncells time_idx boxsize include_mirror_baselines verbose Nb ant1 ant2 ant_tag1 ant_tag2 count in_bounds theta_max
  -- x y
  ⟨n!"radio_telescope_calibration._grid_uv_lagrangian_tracks_with_antenna_stamp", 9, block [.read 64, .either (.write 64) .skip, .read 72, .write 65536, .read 65537,
    .write 512, .read 528, .write 32768, .read 2, .write 4096, .write 8192, .read 45568, .write 512, .write 4096, .write 8192, .write 16384, .read 12800, .loop
    (block [.write 131072, .write 262144, .write 1024, .write 2048, .read 131072, .read 16420, .read 262144, .read 16420, .read 16384, .write 16384, .read 128,
    .either .skip .skip]) .skip]⟩]

/-- The functions of `radio_telescope_layout.py` (lines 12-563). -/
def radioTelescopeLayoutFns : List Fn := [
  -- lines 12-40: subarray_type verbose N_ant antll antxyz
  ⟨n!"radio_telescope_layout.subarray_type_to_antxyz", 2, block [.read 1, .either (block [.read 3, .write 16]) (block [.read 1, .either (block [.read 1, .write 16])
    (block [.write 8, .read 8, .write 16])]), .read 16, .write 4, .read 20, .ret true]⟩,
  -- lines 42-87: antxyz z nu N_ant Nbase antll ii jj lam pair_comb ux uy uz
  ⟨n!"radio_telescope_layout.from_antenna_config", 3, block [.read 2, .write 2, .read 1, .either (block [.write 32, .read 32, .write 32, .read 32, .write 1]) (block
    [.read 1, .write 1]), .read 4, .either (block [.read 2, .write 4]) .skip, .read 1, .write 8, .read 8, .write 512, .read 512, .write 512, .read 4, .write 256,
    .write 16, .read 512, .loop (block [.write 64, .write 128, .read 449, .write 1024, .read 449, .write 2048, .read 449, .write 4096, .read 1024, .either (.read
    192) .skip, .read 7184]) .skip, .read 16, .write 16, .read 24, .ret true]⟩,
  -- lines 89-146: Nbase slice_nums int_time total_int_time declination HA HA0 cos_HA cos_delta delta new_Nbase sin_HA sin_delta
  ⟨n!"radio_telescope_layout.earth_rotation_effect", 5, block [.read 16, .write 512, .read 2, .write 2, .read 14, .write 64, .read 64, .write 32, .read 32, .write
    128, .write 2048, .read 512, .write 256, .write 4096, .read 3, .write 1024, .read 2177, .read 1024, .read 6529, .read 1024, .read 6529, .read 1024, .read 1026,
    .ret true]⟩,
  -- lines 148-205: ncells z antxyz total_int_time int_time boxsize declination include_mirror_baselines verbose N_ant Nbase all_rotated_Nbase rotated_Nbase
  -- time_indices total_observations uv_map
  ⟨n!"radio_telescope_layout.get_uv_daily_observation", 9, block [.read 6, .write 1024, .write 512, .read 1, .write 32768, .read 24, .write 16384, .read 256, .either
    .skip .skip, .read 16384, .write 8192, .read 9304, .write 2048, .read 18688, .loop (block [.write 4096, .read 37027, .write 32768]) .skip, .read 49152, .write
    32768, .read 256, .either .skip .skip, .read 33280, .ret true]⟩,
  -- lines 207-268: Nbase z ncells boxsize include_mirror_baselines Nb mask theta_max uv_map uv_map_flat xx yy
  ⟨n!"radio_telescope_layout.grid_uv_tracks", 5, block [.read 2, .write 2, .read 8, .either (.write 8) .skip, .read 4, .write 256, .read 10, .write 128, .read 16,
    .either (block [.read 1, .write 1]) .skip, .read 129, .write 32, .read 36, .write 64, .read 96, .write 32, .read 36, .write 1024, .read 36, .write 2048, .read
    3076, .write 512, .read 516, .write 256, .read 16, .either (block [.read 256, .write 256]) .skip, .read 256, .ret true]⟩,
  -- lines 270-308: antll Re antxyz lat lon x y z
  ⟨n!"radio_telescope_layout.geographic_to_cartesian_coordinate_system", 1, block [.write 2, .read 1, .either (block [.read 1, .write 1]) .skip, .read 1, .write 16,
    .read 1, .write 8, .read 26, .write 32, .read 26, .write 64, .read 10, .write 128, .read 224, .write 4, .read 4, .ret true]⟩,
  -- lines 311-356: antxyz Re antll height lat lon r x y z
  ⟨n!"radio_telescope_layout.cartesian_to_geographic_coordinate_system", 1, block [.write 2, .read 1, .either (block [.read 1, .write 1]) .skip, .read 1, .write 128,
    .read 1, .write 256, .read 1, .write 512, .read 896, .write 64, .read 384, .write 32, .read 576, .write 16, .read 66, .write 8, .read 56, .write 4, .read 4, .ret
    true]⟩,
  -- lines 358-379: antxyz baselines permutations
  ⟨n!"radio_telescope_layout.antenna_positions_to_baselines", 1, block [.write 4, .read 5, .write 2, .attempt (block [.read 3, .ret true]) (block [.read 2, .ret
    true]) .skip]⟩,
  -- lines 381-411: enu lat_deg lon_deg origin_ecef R ecef_local lat lon
  ⟨n!"radio_telescope_layout.enu_to_ecef", 4, block [.read 2, .write 64, .read 4, .write 128, .read 192, .write 16, .read 17, .write 32, .read 40, .ret true]⟩,
  -- lines 413-442: ecef lon_deg origin_ecef R local lon_rad
  ⟨n!"radio_telescope_layout.ecef_to_xyz", 3, block [.read 2, .write 32, .read 32, .write 8, .read 5, .write 16, .read 28, .ret true]⟩,
  -- lines 444-510: subarray_type unit verbose ant_ecef ant_enu ant_xyz core filename height lat locations lon origin_ecef path_to_file
  ⟨n!"radio_telescope_layout.get_SKA_Low_layout", 3, block [.read 1, .either (.write 128) (block [.read 1, .either (.write 128) (block [.read 1, .either (.write 128)
    (block [.read 1, .either (.write 128) (block [.read 1, .either (.write 128) (.write 128)])])])]), .write 2048, .write 512, .write 256, .read 2816, .write 64,
    .read 64, .write 4096, .read 128, .write 8192, .read 8192, .write 16, .read 4, .either (.read 17) .skip, .read 2, .either (block [.read 16, .ret true]) (block
    [.read 2, .either (block [.read 4, .either .skip .skip, .read 6672, .write 8, .read 8, .ret true]) (block [.read 2, .either (block [.read 4, .either .skip .skip,
    .read 6672, .write 8, .read 6152, .write 32, .read 32, .ret true]) (block [.read 2, .either (block [.read 8, .write 1024, .read 1024, .ret true]) (block [.read
    2, .throw])])])])]⟩,
  -- lines 512-558: subarray_type custom_stations add_stations exclude_stations external_telescopes LowSubArray filter_array_by_distance low_all
  ⟨n!"radio_telescope_layout.get_latest_SKA_Low_layout", 5, block [.attempt (.write 96) (.ret false) .skip, .read 63, .write 128, .read 128, .ret true]⟩,
  -- lines 560-563: X Y
  ⟨n!"radio_telescope_layout.SKA1_LowConfig_Sept2016", 0, block [.write 1, .write 2, .read 3, .ret true]⟩]

/-- The functions of `radio_telescope_noise.py` (lines 26-920). -/
def radioTelescopeNoiseFns : List Fn := [
  -- lines 26-76: ncells method ndim extra_param win
  ⟨n!"radio_telescope_noise.signal_window", 4, block [.read 2, .either (block [.read 1, .write 16]) (block [.read 2, .either (block [.read 1, .write 16]) (block
    [.read 2, .either (block [.read 1, .write 16]) (block [.read 2, .either (block [.read 1, .write 16]) (block [.read 2, .either (block [.read 9, .write 16]) (block
    [.read 2, .either (block [.read 1, .write 16]) (block [.read 2, .either (block [.read 1, .write 16]) (block [.read 2, .either (block [.read 9, .write 16]) (block
    [.read 2, .ret false])])])])])])])]), .read 4, .either .skip (block [.read 4, .either (block [.read 16, .write 16]) (block [.read 4, .either (block [.read 16,
    .write 16]) (block [.read 4, .ret false])])]), .read 16, .ret true]⟩,
  -- lines 78-180: ncells z depth_mhz obs_time subarray_type kbins boxsize binning return_n_modes total_int_time int_time declination uv_map N_ant uv_weighting T_sys
  -- sefd_data nu_data D_station ep_aperture fft_wrap verbose antxyz box_dims boxvol k_nq kn n_modes out pixelsize pn power rms_noi sigma
  ⟨n!"radio_telescope_noise.noise_coeval_power_spectrum_1d", 22, block [.read 64, .either (.write 64) .skip, .read 2097168, .write 4194304, .write 8192, .read 4096,
    .either (block [.read 4197955, .write 4096, .write 8192]) .skip, .read 8192, .either (block [.read 4194304, .write 8192]) .skip, .read 1029134, .write
    8589934592, .write 4294967296, .read 4160, .write 8388608, .read 4160, .write 33554432, .read 16384, .either (block [.read 4294971392, .write 268435456]) (block
    [.read 16384, .either (block [.read 4294967296, .write 268435456]) (.read 16384)]), .read 268435456, .write 2147483648, .read 8388608, .write 16777216, .read
    16781312, .write 536870912, .read 2701131776, .write 2147483648, .read 2155872416, .write 1073741824, .write 67108864, .write 134217728, .read 256, .either
    (block [.read 1275068416, .ret true]) .skip, .read 1140850688, .ret true]⟩,
  -- lines 182-318: ncells zs subarray_type total_int_time int_time boxsize declination save_uvmap n_jobs verbose checkpoint N_ant _uvmap_worker all_errors antxyz
  -- cached_val current_val i is_checkpoint_step is_not_last_step iterator key mismatch_msg mismatches num_chunks params results results_chunk use_chunked_parallel
  -- uv_map uvs z_chunk z_to_run zi
  ⟨n!"radio_telescope_noise.get_uv_map_lightcone", 11, block [.read 516, .write 16384, .write 2048, .read 32, .either (.write 32) .skip, .read 2, .either (block
    [.read 2, .write 2]) .skip, .read 4, .either (.write 4) .skip, .read 2173, .write 33554432, .read 128, .either (block [.read 512, .either (.read 128) .skip,
    .read 128, .write 1073741824, .write 8388608, .read 33554432, .loop (block [.write 2097152, .write 65536, .read 1075838976, .write 32768, .read 98304, .either
    (block [.read 2195456, .write 4194304, .read 12582912]) .skip]) .skip, .read 8388608, .either (block [.read 8388608, .write 8192, .read 8320, .throw]) .skip])
    (block [.read 33554432, .write 1073741824]), .read 1073741826, .write 4294967296, .read 4294967296, .either (block [.read 512, .either (.read 4294967296) .skip,
    .write 4096, .read 1280, .write 268435456, .read 268435456, .either (block [.read 4294968320, .write 16777216, .read 512, .either (.read 16778240) .skip, .read
    4294968832, .loop (block [.write 131072, .read 4295099392, .write 2147483648, .read 2147488000, .write 134217728, .read 2281701376, .loop (block [.write
    8589934592, .write 536870912, .read 536870912, .read 9663676416]) .skip, .read 128, .either (block [.read 512, .either (.read 128) .skip, .read 1073741952])
    .skip]) .skip]) (block [.read 256, .either (block [.read 512, .either (.read 4294967296) .skip, .read 4294972160, .write 67108864, .read 4362076160, .loop (block
    [.write 8589934592, .write 536870912, .read 536870912, .read 9663676416]) .skip]) (block [.read 4294967808, .write 1048576, .read 1048576, .loop (block [.write
    131072, .write 8589934592, .read 8589938688, .read 9663676416, .read 132096, .write 262144, .read 4295098368, .write 524288, .read 786560, .either (block [.read
    512, .either (.read 128) .skip, .read 1073741952]) .skip]) .skip])]), .read 128, .either (block [.read 512, .either (.read 128) .skip, .read 1073741952]) .skip])
    (block [.read 512, .either .skip .skip]), .read 1073741824, .ret true]⟩,
  -- lines 320-397: ncells z depth_mhz obs_time subarray_type boxsize total_int_time int_time declination uv_map N_ant uv_weighting T_sys sefd_data nu_data D_station
  -- ep_aperture fft_wrap verbose suppress_sharp_features_uv_map antxyz noise_arr noise_four noise_imag noise_map noise_real rms_noi sigma win_2d
  ⟨n!"radio_telescope_noise.noise_map", 20, block [.read 262160, .write 1048576, .write 1024, .read 512, .either (block [.read 1049059, .write 512, .write 1024])
    .skip, .read 1024, .either (block [.read 1048576, .write 1024]) .skip, .read 128654, .write 134217728, .write 67108864, .read 67108865, .write 33554432, .read
    67108865, .write 8388608, .read 41943040, .write 2097152, .read 2624032, .write 4194304, .read 1, .write 268435456, .read 272629760, .write 4194304, .read
    131072, .either (block [.read 4194440, .write 16777216]) (block [.read 4194440, .write 16777216]), .read 16777216, .ret true]⟩,
  -- lines 399-433: uv_map boxsize method filter_param box_dims k_comp k_mag k_nq k_rad_avg n_modes uv_map_smooth uv_rad_avg xx yy
  ⟨n!"radio_telescope_noise._suppress_sharp_features_uv_map", 4, block [.read 4, .either (block [.read 9, .write 1024, .read 1025, .write 1024]) (block [.read 4,
    .either (block [.read 2, .read 2, .write 16, .read 3, .write 128, .read 25, .write 2048, .write 256, .write 512, .read 3, .write 32, .write 64, .read 2432,
    .write 4096, .write 8192, .read 12352, .write 1024]) (.read 4)]), .read 1024, .ret true]⟩,
  -- lines 435-473: noise uv_map boxsize uv_weighting uv_map_min suppress_sharp_features_uv_map out uv_map_smooth
  ⟨n!"radio_telescope_noise.apply_uv_response_noise", 6, block [.read 8, .either (block [.read 32, .either (block [.read 38, .write 128]) (block [.read 2, .write
    128]), .read 129, .write 64]) (block [.read 8, .either (block [.read 1, .write 64]) (.read 8)]), .read 82, .read 64, .ret true]⟩,
  -- lines 475-502: noise uv_map robust epsilon briggs_weight noise_out w_mean w_nat
  ⟨n!"radio_telescope_noise.apply_uv_response_noise_briggs", 4, block [.read 2, .write 128, .read 136, .write 64, .read 196, .write 16, .read 25, .write 32, .read
    160, .read 32, .ret true]⟩,
  -- lines 504-526: nn1 bla0 bla1 bla2 bla3 imap
  ⟨n!"radio_telescope_noise.ifft2_wrap", 1, block [.read 1, .read 1, .write 2, .read 3, .write 4, .read 4, .write 8, .read 9, .write 16, .read 16, .write 32, .read
    33, .ret true]⟩,
  -- lines 528-552: array uv_map img_arr img_map
  ⟨n!"radio_telescope_noise.apply_uv_response_on_image", 2, block [.read 3, .read 1, .write 4, .read 6, .read 4, .write 8, .read 8, .ret true]⟩,
  -- lines 554-575: redshift max_baseline kcut lcut
  ⟨n!"radio_telescope_noise.max_baseline_to_max_k", 2, block [.read 2, .either (block [.read 2, .write 2]) .skip, .read 3, .write 8, .read 8, .write 4, .read 4, .ret
    true]⟩,
  -- lines 577-623: ncells z subarray_type total_int_time int_time boxsize declination include_mirror_baselines verbose max_baseline N_ant antxyz kcut kk ksq kx ky
  -- uv_map uv_map_shift
  ⟨n!"radio_telescope_noise.get_uv_map", 10, block [.read 32, .either (.write 32) .skip, .read 260, .write 2048, .write 1024, .read 2555, .write 131072, .write 1024,
    .read 512, .either (block [.read 514, .write 4096, .read 33, .write 8192, .read 8192, .write 32768, .write 65536, .read 98304, .write 16384, .read 131072, .write
    262144, .read 282624, .read 262144, .write 131072]) .skip, .read 132096, .ret true]⟩,
  -- lines 625-654: ncells zs subarray_type total_int_time int_time boxsize declination verbose N_ant i percc uv_lc uv_map z
  ⟨n!"radio_telescope_noise.make_uv_map_lightcone", 8, block [.read 3, .write 2048, .read 2, .write 1024, .read 2, .loop (block [.write 512, .read 514, .write 8192,
    .read 8445, .write 4096, .write 256, .read 4096, .read 2560, .read 1536]) .skip, .read 2304, .ret true]⟩,
  -- lines 656-681: array z subarray_type boxsize total_int_time int_time declination uv_map N_ant data2d data3d k ncells
  ⟨n!"radio_telescope_noise.apply_uv_response_on_coeval", 9, block [.read 1, .write 4096, .read 8, .either (.write 8) .skip, .read 128, .either (block [.read 4222,
    .write 128, .write 256]) .skip, .read 1, .write 1024, .read 4096, .loop (block [.write 2048, .read 2177, .write 512, .read 512, .read 3072]) .skip, .read 1024,
    .ret true]⟩,
  -- lines 683-727: ncells z depth_mhz obs_time subarray_type boxsize total_int_time int_time declination uv_map N_ant uv_weighting verbose fft_wrap T_sys sefd_data
  -- nu_data D_station ep_aperture suppress_sharp_features_uv_map antxyz k noise2d noise3d
  ⟨n!"radio_telescope_noise.noise_cube_coeval", 20, block [.read 4112, .write 1048576, .write 1024, .read 32, .either (.write 32) .skip, .read 4, .either (block
    [.read 35, .write 4]) .skip, .read 512, .either (block [.read 1049059, .write 512, .write 1024]) .skip, .read 1, .write 8388608, .read 4096, .either .skip .skip,
    .read 4097, .loop (block [.write 2097152, .read 2093039, .write 4194304, .read 4194304, .read 10485760]) .skip, .read 4096, .either .skip .skip, .read 8388642,
    .ret true]⟩,
  -- lines 729-766: ncells z obs_time subarray_type boxsize save_uvmap total_int_time int_time declination N_ant uv_weighting fft_wrap verbose n_jobs checkpoint
  -- T_sys sefd_data nu_data D_station ep_aperture suppress_sharp_features_uv_map antxyz zs
  ⟨n!"radio_telescope_noise.noise_cube_lightcone", 21, block [.read 4104, .write 2097152, .write 512, .read 16, .either (.write 16) .skip, .read 19, .write 4194304,
    .read 6291453, .ret true]⟩,
  -- lines 768-868: ncells zs obs_time subarray_type boxsize save_uvmap total_int_time int_time declination uv_weighting fft_wrap verbose n_jobs checkpoint T_sys
  -- sefd_data nu_data D_station ep_aperture suppress_sharp_features_uv_map N_ant depth_mhz k noise2d noise3d uv_map uvs zi
  ⟨n!"radio_telescope_noise.noise_lightcone", 20, block [.read 2, .either (block [.read 2, .write 2]) .skip, .read 14843, .write 67108864, .read 67108864, .write
    1048576, .read 2048, .either .skip .skip, .read 3, .write 16777216, .read 2050, .loop (block [.write 4194304, .write 134217728, .read 4194306, .either (block
    [.read 4194306, .write 2097152]) (block [.read 4194306, .write 2097152]), .read 201326592, .write 33554432, .read 171952093, .write 8388608, .read 142606352,
    .read 20971520]) .skip, .read 16777216, .ret true]⟩,
  -- lines 870-900: size sigma fwhm g x y z
  ⟨n!"radio_telescope_noise.gauss_kernel_3d", 3, block [.read 4, .either (block [.read 4, .write 2]) .skip, .read 1, .either (block [.read 1, .write 1, .read 1,
    .write 16, .write 32, .write 64]) (block [.read 1, .write 1, .read 1, .write 16, .write 32, .write 64]), .read 114, .write 8, .read 8, .ret true]⟩,
  -- lines 902-920: array fwhm gg out
  ⟨n!"radio_telescope_noise.smooth_gauss_3d", 2, block [.read 3, .write 4, .read 5, .write 8, .read 8, .ret true]⟩]

/-- The functions of `radio_telescope_sensitivity.py` (lines 10-252). -/
def radioTelescopeSensitivityFns : List Fn := [
  -- lines 10-96: nu_obs T_sys sefd_data nu_data D_station ep_aperture verbose A_eff T_rcvr T_sky T_sys_val ant_radius_ska ep_aperture_func ep_aperture_val
  -- log10_sefd_fct nu_crit sefd sefd_filename table_data
  ⟨n!"radio_telescope_sensitivity.get_SEFD", 7, block [.read 4, .either (block [.read 4, .either (block [.write 131072, .read 131072, .write 262144, .read 262144,
    .write 8, .read 262144, .write 4, .read 64, .either .skip .skip]) .skip]) .skip, .read 4, .either (block [.read 8, .either .throw .skip, .read 12, .write 16384,
    .read 64, .either .skip .skip, .read 16385, .ret true]) .skip, .read 1, .write 1, .read 2, .either (block [.write 512, .write 256, .write 2]) .skip, .read 3,
    .write 1024, .read 16, .write 2048, .read 32, .either (block [.write 32768, .write 4096, .read 4097, .write 8192]) (block [.read 32, .either (block [.read 33,
    .write 8192]) (block [.read 32, .write 8192])]), .read 10240, .write 128, .read 1152, .write 65536, .read 65537, .ret true]⟩,
  -- lines 98-164: z depth_mhz obs_time int_time uv_map N_ant verbose T_sys sefd_data nu_data D_station ep_aperture effective_baseline nuso rms_noise sefd sigma
  ⟨n!"radio_telescope_sensitivity.sigma_noise_radio", 12, block [.read 1, .write 1, .read 1, .write 8192, .read 12160, .write 32768, .read 32778, .write 16384, .read
    16428, .write 65536, .read 64, .either (block [.read 65536, .read 16, .either (block [.read 16, .write 4096, .read 69664]) .skip, .read 16384]) .skip, .read
    81920, .ret true]⟩,
  -- lines 166-184: array uv_map i j ncells noise_four noise_imag noise_real
  ⟨n!"radio_telescope_sensitivity.apply_uv_response", 2, block [.read 1, .write 128, .read 1, .write 64, .read 128, .write 32, .read 128, .write 16, .read 16, .loop
    (block [.write 4, .read 16, .loop (block [.write 8, .read 14, .either (.read 44) (block [.read 206, .read 44])]) .skip]) .skip, .read 32, .ret true]⟩,
  -- lines 187-210: ncells z boxsize boxsize_pp con_sol dist_z mktomujy_nuc omega_pixel omega_total
  ⟨n!"radio_telescope_sensitivity.kelvin_jansky_conversion", 3, block [.read 2, .write 2, .read 4, .either (.write 4) .skip, .read 2, .write 32, .read 36, .write 8,
    .read 9, .write 128, .read 8, .write 256, .read 2, .write 64, .read 192, .write 16, .read 16, .ret true]⟩,
  -- lines 212-232: array z boxsize ncells con_sol
  ⟨n!"radio_telescope_sensitivity.jansky_2_kelvin", 4, block [.read 2, .write 2, .read 8, .either (block [.read 1, .write 8]) .skip, .read 14, .write 16, .read 17,
    .ret true]⟩,
  -- lines 234-252: array z boxsize ncells con_sol
  ⟨n!"radio_telescope_sensitivity.kelvin_2_jansky", 4, block [.read 2, .write 2, .read 8, .either (block [.read 1, .write 8]) .skip, .read 14, .write 16, .read 17,
    .ret true]⟩]

/-- The functions of `read_files.py` (lines 12-380). -/
def readFilesFns : List Fn := [
  -- lines 12-23: filename dtype _data data f
  ⟨n!"read_files._load_binary_data", 2, block [.read 1, .write 16, .read 16, .write 8, .read 16, .read 10, .write 4, .either (block [.read 4, .write 4]) .skip, .read
    4, .ret true]⟩,
  -- lines 25-35: filename bla dim
  ⟨n!"read_files.read_21cmfast_files", 1, block [.read 1, .write 2, .read 2, .write 4, .read 6, .ret true]⟩,
  -- lines 37-63: filename file_type density_file dens dfile dtype out vel_file
  ⟨n!"read_files.read_c2ray_files", 3, block [.read 2, .read 2, .either (block [.read 1, .write 64]) (block [.read 2, .either (block [.read 1, .write 8, .write 32,
    .read 8, .write 64]) (block [.read 2, .either (block [.read 4, .read 4, .write 16, .read 129, .write 128, .read 144, .write 64]) .skip])]), .read 64, .ret
    true]⟩,
  -- lines 65-73: filename
  ⟨n!"read_files.read_grizzly_files", 1, block [.read 1, .ret true]⟩,
  -- lines 76-99: xfrac_dir dens_dir z interpolation mean_subtract dens dt i xfrac
  ⟨n!"read_files.coeval_21cm_c2ray", 5, block [.read 13, .write 256, .read 6, .write 32, .read 292, .write 64, .read 16, .either (block [.read 64, .loop (block
    [.write 128, .read 192]) .skip]) .skip, .read 64, .ret true]⟩,
  -- lines 102-132: xfrac_dir z interpolation xfrac xfrac_files xfrac_h xfrac_l xfrac_zs z_h z_l
  ⟨n!"read_files.coeval_xfrac_c2ray", 3, block [.read 4, .either (block [.read 4, .throw]) .skip, .read 1, .write 16, .write 128, .read 144, .write 128, .read 130,
    .either (block [.read 146, .write 8]) (block [.read 130, .write 512, .read 130, .write 256, .read 146, .write 64, .read 146, .write 32, .read 866, .write 8,
    .read 4]), .read 8, .ret true]⟩,
  -- lines 134-161: dens_dir z dens dens_files dens_h dens_zs dtype z_h
  ⟨n!"read_files.coeval_dens_c2ray", 2, block [.read 1, .write 8, .write 32, .read 40, .write 32, .read 34, .either (block [.read 42, .write 4, .write 64]) (block
    [.read 34, .write 128, .read 42, .write 16, .write 64, .read 146, .write 4]), .read 4, .ret true]⟩,
  -- lines 164-239: filename format data df ds ext f h5py json npzfile pd pickle recursively_load xr yaml
  ⟨n!"read_files.read_dictionary_data", 2, block [.read 2, .either (block [.read 1, .write 32, .read 32, .write 2]) .skip, .read 2, .write 2, .read 2, .either (block
    [.write 2048, .read 1, .write 64, .read 2112, .ret true]) (block [.read 2, .either (block [.write 256, .read 1, .write 64, .read 320, .ret true]) (block [.read
    2, .either (block [.write 16384, .read 1, .write 64, .read 16448, .ret true]) (block [.read 2, .either (block [.write 128, .write 4, .read 129, .write 64, .write
    4096, .read 4164, .read 4, .ret true]) (block [.read 2, .either (block [.read 1, .write 512, .read 512, .ret true]) (block [.read 2, .either (block [.write 8192,
    .read 8193, .write 16, .read 16, .ret true]) (block [.read 2, .either (block [.write 8192, .read 8193, .write 16, .read 16, .ret true]) (block [.read 2, .either
    (block [.write 1024, .read 1025, .write 8, .read 8, .ret true]) (block [.read 2, .either (block [.write 1024, .read 1025, .write 8, .read 8, .ret true]) (block
    [.read 2, .either (block [.write 1024, .read 1025, .write 8, .read 8, .ret true]) (block [.read 2, .throw])])])])])])])])])])]⟩,
  -- lines 194-205: group out key val value
  ⟨n!"read_files.read_dictionary_data.recursively_load", 2, block [.read 1, .loop (block [.write 4, .write 8, .read 8, .either (block [.read 6, .read 14]) (block
    [.read 8, .write 16, .read 16, .either (block [.read 16, .write 16]) .skip, .read 16, .read 6])]) .skip]⟩,
  -- lines 241-316: data_dict filename format df ds e f h5py json pd pickle recursive_save xr yaml
  ⟨n!"read_files.write_dictionary_data", 3, block [.read 4, .either (block [.read 2, .write 4]) .skip, .read 4, .either (block [.write 1024, .read 2, .write 64,
    .read 1089]) (block [.read 4, .either (block [.write 256, .read 2, .write 64, .read 321]) (block [.read 4, .either (block [.write 8192, .read 2, .write 64, .read
    8257]) (block [.read 4, .either (block [.write 128, .read 130, .write 64, .write 2048, .read 2113]) (block [.read 4, .either (.read 3) (block [.read 4, .either
    (block [.write 4096, .attempt (block [.read 4097, .write 16]) (block [.write 32, .read 32, .throw, .write 32, .del 32]) .skip, .read 18]) (block [.read 4,
    .either (block [.write 4096, .attempt (block [.read 4097, .write 16, .read 18]) (block [.write 32, .read 32, .throw, .write 32, .del 32]) .skip]) (block [.read
    4, .either (block [.write 512, .read 513, .write 8, .read 10]) (block [.read 4, .either (block [.write 512, .read 513, .write 8, .read 10]) (block [.read 4,
    .either (block [.write 512, .read 513, .write 8, .read 10]) (block [.read 4, .throw])])])])])])])])])])]⟩,
  -- lines 267-278: h5obj d grp k v
  ⟨n!"read_files.write_dictionary_data.recursive_save", 2, block [.read 2, .loop (block [.write 8, .write 16, .read 16, .either (block [.read 9, .write 4, .read 20])
    (block [.read 16, .either (.read 25) (.read 25)])]) .skip]⟩,
  -- lines 318-380: package_name resource_path Path e files os package package_dir pkg_resources resource_file
  ⟨n!"read_files.get_package_resource_path", 2, .attempt (block [.write 16, .read 19, .write 512, .read 512, .ret true]) (.attempt (block [.write 16, .read 19,
    .write 512, .read 512, .ret true]) (.attempt (block [.write 256, .read 259, .ret true]) (block [.write 32, .write 4, .attempt (block [.read 1, .write 64, .read
    68, .write 128, .read 130, .write 512, .read 512, .either (block [.read 512, .ret true]) (block [.read 2, .throw])]) (block [.write 8, .read 11, .throw, .write
    8, .del 8]) .skip]) .skip) .skip) .skip⟩]

/-- The functions of the files of this part (for example `position_dependent_power_spectrum.py` lines 5-22). -/
def part3 : List Fn := positionDependentPowerSpectrumFns ++ powerLegendreFns ++ powerSpectFastFns ++ powerSpectrumFns ++ powerSpectrumNoiseFns ++ primaryBeamFns
  ++ pvMpmFns ++ radioTelescopeCalibrationFns ++ radioTelescopeLayoutFns ++ radioTelescopeNoiseFns ++ radioTelescopeSensitivityFns ++ readFilesFns

end Verif.Locals

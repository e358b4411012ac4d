import Verif.Lemmas.Locals
import Verif.Model.LocalsTable1
import Verif.Model.LocalsTable2
import Verif.Model.LocalsTable3
import Verif.Model.LocalsTable4

/-!
# C222: no function reads a local variable before it has a value

Full statement (C222): for every function of the package, however its conditions turn out, however often its loops run and wherever an exception is raised and handled, no
local variable is read before it has a value (Python raises `UnboundLocalError` otherwise).

`Run` (in `Lemmas/Locals.lean`) says what a function body can do, without reference to the check of the model.  `C222_partial` holds for all 488 functions except the 42 in
`exceptions`, and `C222_false` shows that for each of those 42 there is indeed a way through the body on which a variable is read that has no value.  For some of them other
conditions of the body rule that way out (`fftconvolve`, `make_velocity_lightcone`), for many it needs an argument the function does not know, and `C222_always` lists those
that cannot end in any other way than by an exception.  What is missing from the full statement are therefore these 42 functions.
-/

namespace Verif.Locals

/-- The functions of the package. -/
def package : List Fn := part1 ++ part2 ++ part3 ++ part4

/-- At the start of a function its parameters have values. -/
def start (params : Nat) : State := fun x => decide (x < params)

/-- The functions with a way to a read without a value. -/
def exceptions : List Ident := [
  n!"astro_tools.Muv_to_L1500", n!"bispectrum.Bispectrum.bispectrum_k1k2", n!"bispectrum.Bispectrum.bispectrum_k",
  n!"bispectrum.bispectrum_equilateral", n!"box_counting.get_kernel", n!"bubble_stats.granulometry_CDF", n!"bubble_stats._granulometry.func",
  n!"bubble_stats._watershed", n!"corr_function.landy_szalay_estimator", n!"deprecated.freq_box", n!"fft_functions.fftconvolve",
  n!"halo_list.HaloRockstar.read_from_file", n!"halo_list.HaloRockstar.get", n!"halo_list.HaloCubeP3MFull.read_from_file",
  n!"halo_list.HaloCubeP3MFull.get", n!"halo_list.HaloCubeP3M.get", n!"halo_list.HaloList.read_from_file", n!"helper_functions.save_fits",
  n!"lightcone.make_velocity_lightcone", n!"lyman_alpha_coupling.Lya_coupling_coeff_MPI", n!"lyman_alpha_coupling.Lya_coupling_coeff_useprofile",
  n!"lyman_alpha_coupling._get_xc", n!"lyman_alpha_transmission.tau_nu_lyA_los", n!"nbody_file.NbodyFile.read_from_file",
  n!"nbody_pkdgrav.HaloCataloguePkdgrav3.read_fof_data", n!"position_dependent_power_spectrum.integrated_bispectrum_cross",
  n!"position_dependent_power_spectrum.integrated_bispectrum_cross_slide", n!"power_legendre.power_spectrum_multipoles",
  n!"power_spect_fast.phase_spect_nd", n!"power_spect_fast.power_spect_1d", n!"power_spect_fast.power_spect_2d", n!"power_spectrum.power_spectrum_2d",
  n!"radio_telescope_calibration.from_antenna_config_with_gains", n!"radio_telescope_calibration.get_uv_map_with_gains",
  n!"radio_telescope_layout.get_SKA_Low_layout", n!"radio_telescope_noise.noise_coeval_power_spectrum_1d",
  n!"radio_telescope_noise._suppress_sharp_features_uv_map", n!"radio_telescope_noise.apply_uv_response_noise",
  n!"radio_telescope_noise.make_uv_map_lightcone", n!"read_files.read_c2ray_files", n!"segmentation.segunet21cm.UniqueRows",
  n!"test_case.spherical_bubble_model"]

theorem has_start (p : Nat) : Has (2 ^ p - 1) (start p) := by
  intro x hx
  rw [Nat.testBit_two_pow_sub_one] at hx
  exact hx

/-- The functions that pass the check are those that are not exceptions. -/
theorem parts_ok : (∀ f ∈ part1, f.ok = true ∨ f.name ∈ exceptions) ∧ (∀ f ∈ part2, f.ok = true ∨ f.name ∈ exceptions) ∧
    (∀ f ∈ part3, f.ok = true ∨ f.name ∈ exceptions) ∧ (∀ f ∈ part4, f.ok = true ∨ f.name ∈ exceptions) := by
  refine ⟨?_, ?_, ?_, ?_⟩ <;> decide +kernel

/-- **C222** (partial: all functions of the package but 42): no way of running the function reads a local variable that has no value. -/
theorem C222_partial (f : Fn) (hf : f ∈ package) (hn : f.name ∉ exceptions) (o : Out) (h : Run f.body (start f.params) o) (x : Nat) : o ≠ .unbound x := by
  have hok : f.ok = true := by
    obtain ⟨h1, h2, h3, h4⟩ := parts_ok
    rw [package, List.mem_append, List.mem_append, List.mem_append] at hf
    rcases hf with ((hf | hf) | hf) | hf
    · exact (h1 f hf).resolve_right hn
    · exact (h2 f hf).resolve_right hn
    · exact (h3 f hf).resolve_right hn
    · exact (h4 f hf).resolve_right hn
  rw [Fn.ok, Option.isSome_iff_exists] at hok
  obtain ⟨k, hk⟩ := hok
  intro ho
  have := h.good _ k hk (has_start _)
  rw [ho] at this
  exact this

/-! ## The exceptions -/

/-- How a way through a body ends, with the set of variables that have values. -/
inductive End where
  | norm (m : Nat)
  | brk (m : Nat)
  | cont (m : Nat)
  | ret (value : Bool) (m : Nat)
  | thrown (m : Nat)
  | unbound
  deriving DecidableEq

/-- The next choice. -/
def choice : List Bool → Bool × List Bool
  | [] => (false, [])
  | c :: cs => (c, cs)

/-- What a `finally` branch makes of the end of its body. -/
def End.then : End → End → End
  | .norm _, e => e
  | .brk _, .norm m => .brk m
  | .cont _, .norm m => .cont m
  | .ret v _, .norm m => .ret v m
  | .thrown _, .norm m => .thrown m
  | .unbound, _ => .unbound
  | _, e => e

/-- The set of variables at an end. -/
def End.mask : End → Nat
  | .norm m | .brk m | .cont m | .ret _ m | .thrown m => m
  | .unbound => 0

/-- One way through a body, for a list of choices: which branch is taken, whether a loop runs once or not at all, whether the body of a `try` raises at once. -/
def path : Stmt → Nat → List Bool → End × List Bool
  | .skip, m, cs => (.norm m, cs)
  | .read v, m, cs => (if v &&& m = v then .norm m else .unbound, cs)
  | .write v, m, cs => (.norm (m ||| v), cs)
  | .del v, m, cs => (if v &&& m = v then .norm (without m v) else .unbound, cs)
  | .ret v, m, cs => (.ret v m, cs)
  | .throw, m, cs => (.thrown m, cs)
  | .brk, m, cs => (.brk m, cs)
  | .cont, m, cs => (.cont m, cs)
  | .seq a b, m, cs =>
    match path a m cs with
    | (.norm m', cs') => path b m' cs'
    | r => r
  | .either a b, m, cs => if (choice cs).1 then path a m (choice cs).2 else path b m (choice cs).2
  | .loop a b, m, cs =>
    if (choice cs).1 then
      match path a m (choice cs).2 with
      | (.norm m', cs') => path b m' cs'
      | (.cont m', cs') => path b m' cs'
      | (.brk m', cs') => (.norm m', cs')
      | r => r
    else path b m (choice cs).2
  | .forever a, m, cs =>
    match path a m cs with
    | (.norm m', cs') => (.thrown m', cs')
    | (.cont m', cs') => (.thrown m', cs')
    | (.brk m', cs') => (.norm m', cs')
    | r => r
  | .attempt a h b, m, cs =>
    if (choice cs).1 then path h m (choice cs).2
    else
      match path a m (choice cs).2 with
      | (.norm m', cs') => path b m' cs'
      | (.thrown m', cs') => path h m' cs'
      | r => r
  | .cleanup a f, m, cs =>
    ((path a m cs).1.then (path f (path a m cs).1.mask (path a m cs).2).1, (path f (path a m cs).1.mask (path a m cs).2).2)

/-- The state given by a set. -/
def ofMask (m : Nat) : State := fun x => m.testBit x

/-- The end of a way as an end of a run. -/
def Ends (e : End) (P : Out → Prop) : Prop :=
  match e with
  | .norm m => P (.norm (ofMask m))
  | .brk m => P (.brk (ofMask m))
  | .cont m => P (.cont (ofMask m))
  | .ret v m => P (.ret v (ofMask m))
  | .thrown m => P (.thrown (ofMask m))
  | .unbound => ∃ x, P (.unbound x)

theorem run_path (s : Stmt) : ∀ m cs, Ends (path s m cs).1 (Run s (ofMask m)) := by
  induction s with
  | skip => intro m cs; exact .skip _
  | read v =>
    intro m cs
    rw [path]
    split
    · rename_i h; exact .read (subset_iff h)
    · rename_i h
      obtain ⟨x, hx, hm⟩ := not_subset h
      exact ⟨x, .readUnbound hx hm⟩
  | write v =>
    intro m cs
    have : ofMask (m ||| v) = fun x => ofMask m x || v.testBit x := funext fun x => Nat.testBit_or ..
    show Run _ _ (.norm (ofMask (m ||| v)))
    rw [this]
    exact .write _ _
  | del v =>
    intro m cs
    rw [path]
    split
    · rename_i h
      have : ofMask (without m v) = fun x => ofMask m x && !v.testBit x := funext fun x => testBit_without ..
      show Run _ _ (.norm (ofMask (without m v)))
      rw [this]
      exact .del (subset_iff h)
    · rename_i h
      obtain ⟨x, hx, hm⟩ := not_subset h
      exact ⟨x, .delUnbound hx hm⟩
  | ret v => intro m cs; exact .ret _ _
  | throw => intro m cs; exact .throw _
  | brk => intro m cs; exact .brk _
  | cont => intro m cs; exact .cont _
  | seq a b iha ihb =>
    intro m cs
    have ha := iha m cs
    rw [path]
    rcases hp : path a m cs with ⟨e, cs'⟩
    rw [hp] at ha
    cases e with
    | norm m' =>
      have hb := ihb m' cs'
      dsimp only
      generalize (path b m' cs').1 = e at hb ⊢
      cases e <;> first | exact .seq ha hb | exact hb.imp fun x hx => .seq ha hx
    | unbound => exact ha.imp fun x hx => .seqStop hx rfl
    | _ => exact .seqStop ha rfl
  | either a b iha ihb =>
    intro m cs
    rw [path]
    split
    · have ha := iha m (choice cs).2
      generalize (path a m (choice cs).2).1 = e at ha ⊢
      cases e <;> first | exact .yes ha | exact ha.imp fun x hx => .yes hx
    · have hb := ihb m (choice cs).2
      generalize (path b m (choice cs).2).1 = e at hb ⊢
      cases e <;> first | exact .no hb | exact hb.imp fun x hx => .no hx
  | loop a b iha ihb =>
    intro m cs
    rw [path]
    split
    · have ha := iha m (choice cs).2
      rcases hp : path a m (choice cs).2 with ⟨e, cs'⟩
      rw [hp] at ha
      cases e with
      | norm m' =>
        have hb := ihb m' cs'
        dsimp only
        generalize (path b m' cs').1 = e at hb ⊢
        cases e <;> first | exact .loopMore ha (.loopEnd hb) | exact hb.imp fun x hx => .loopMore ha (.loopEnd hx)
      | cont m' =>
        have hb := ihb m' cs'
        dsimp only
        generalize (path b m' cs').1 = e at hb ⊢
        cases e <;> first | exact .loopCont ha (.loopEnd hb) | exact hb.imp fun x hx => .loopCont ha (.loopEnd hx)
      | brk m' => exact .loopBrk ha
      | ret v m' => exact .loopRet ha
      | thrown m' => exact .loopThrown ha
      | unbound => exact ha.imp fun x hx => .loopUnbound hx
    · have hb := ihb m (choice cs).2
      generalize (path b m (choice cs).2).1 = e at hb ⊢
      cases e <;> first | exact .loopEnd hb | exact hb.imp fun x hx => .loopEnd hx
  | forever a iha =>
    intro m cs
    rw [path]
    have ha := iha m cs
    rcases hp : path a m cs with ⟨e, cs'⟩
    rw [hp] at ha
    cases e with
    | norm m' => exact .everMore ha (.fault _ _)
    | cont m' => exact .everCont ha (.fault _ _)
    | brk m' => exact .everBrk ha
    | ret v m' => exact .everRet ha
    | thrown m' => exact .everThrown ha
    | unbound => exact ha.imp fun x hx => .everUnbound hx
  | attempt a h b iha ihh ihb =>
    intro m cs
    rw [path]
    split
    · have hh := ihh m (choice cs).2
      generalize (path h m (choice cs).2).1 = e at hh ⊢
      cases e <;> first | exact .attemptCatch (.fault _ _) hh | exact hh.imp fun x hx => .attemptCatch (.fault _ _) hx
    · have ha := iha m (choice cs).2
      rcases hp : path a m (choice cs).2 with ⟨e, cs'⟩
      rw [hp] at ha
      cases e with
      | norm m' =>
        have hb := ihb m' cs'
        dsimp only
        generalize (path b m' cs').1 = e at hb ⊢
        cases e <;> first | exact .attemptElse ha hb | exact hb.imp fun x hx => .attemptElse ha hx
      | thrown m' =>
        have hh := ihh m' cs'
        dsimp only
        generalize (path h m' cs').1 = e at hh ⊢
        cases e <;> first | exact .attemptCatch ha hh | exact hh.imp fun x hx => .attemptCatch ha hx
      | unbound => exact ha.imp fun x hx => .attemptPass hx rfl
      | _ => exact .attemptPass ha rfl
  | cleanup a f iha ihf =>
    intro m cs
    rw [path]
    dsimp only
    have ha := iha m cs
    generalize (path a m cs).1 = e at ha ⊢
    have hf := ihf e.mask (path a m cs).2
    generalize (path f e.mask (path a m cs).2).1 = e' at hf ⊢
    cases e with
    | unbound => exact ha.imp fun x hx => .cleanupUnbound hx
    | norm m' =>
      cases e' with
      | norm m'' => exact .cleanup ha rfl hf
      | unbound => exact hf.imp fun x hx => .cleanupStop ha rfl hx rfl
      | _ => exact .cleanupStop ha rfl hf rfl
    | brk m' =>
      cases e' with
      | norm m'' => exact .cleanup ha rfl hf
      | unbound => exact hf.imp fun x hx => .cleanupStop ha rfl hx rfl
      | _ => exact .cleanupStop ha rfl hf rfl
    | cont m' =>
      cases e' with
      | norm m'' => exact .cleanup ha rfl hf
      | unbound => exact hf.imp fun x hx => .cleanupStop ha rfl hx rfl
      | _ => exact .cleanupStop ha rfl hf rfl
    | ret v m' =>
      cases e' with
      | norm m'' => exact .cleanup ha rfl hf
      | unbound => exact hf.imp fun x hx => .cleanupStop ha rfl hx rfl
      | _ => exact .cleanupStop ha rfl hf rfl
    | thrown m' =>
      cases e' with
      | norm m'' => exact .cleanup ha rfl hf
      | unbound => exact hf.imp fun x hx => .cleanupStop ha rfl hx rfl
      | _ => exact .cleanupStop ha rfl hf rfl

theorem start_eq (p : Nat) : start p = ofMask (2 ^ p - 1) := funext fun x => (Nat.testBit_two_pow_sub_one ..).symm

/-- The choices that lead to the read, for the exceptions of each part. -/
def ways : List (List (Ident × List Bool)) := [
  [(n!"astro_tools.Muv_to_L1500", []),
  (n!"bispectrum.Bispectrum.bispectrum_k1k2", []),
  (n!"bispectrum.Bispectrum.bispectrum_k", []),
  (n!"bispectrum.bispectrum_equilateral", []),
  (n!"box_counting.get_kernel", []),
  (n!"bubble_stats.granulometry_CDF", []),
  (n!"bubble_stats._granulometry.func", []),
  (n!"bubble_stats._watershed", []),
  (n!"corr_function.landy_szalay_estimator", []),
  (n!"deprecated.freq_box", [false, true]),
  (n!"fft_functions.fftconvolve", []),
  (n!"halo_list.HaloRockstar.read_from_file", [true]),
  (n!"halo_list.HaloRockstar.get", []),
  (n!"halo_list.HaloCubeP3MFull.read_from_file", [false, true]),
  (n!"halo_list.HaloCubeP3MFull.get", []),
  (n!"halo_list.HaloCubeP3M.get", []),
  (n!"halo_list.HaloList.read_from_file", [false, true])],
  [(n!"helper_functions.save_fits", [true]),
  (n!"lightcone.make_velocity_lightcone", [false, false, false, true]),
  (n!"lyman_alpha_coupling.Lya_coupling_coeff_MPI", []),
  (n!"lyman_alpha_coupling.Lya_coupling_coeff_useprofile", []),
  (n!"lyman_alpha_coupling._get_xc", []),
  (n!"lyman_alpha_transmission.tau_nu_lyA_los", []),
  (n!"nbody_file.NbodyFile.read_from_file", [false, false, true, false, true]),
  (n!"nbody_pkdgrav.HaloCataloguePkdgrav3.read_fof_data", [true])],
  [(n!"position_dependent_power_spectrum.integrated_bispectrum_cross", []),
  (n!"position_dependent_power_spectrum.integrated_bispectrum_cross_slide", []),
  (n!"power_legendre.power_spectrum_multipoles", [false, false, false, false, false, false, false, true, true]),
  (n!"power_spect_fast.phase_spect_nd", []),
  (n!"power_spect_fast.power_spect_1d", []),
  (n!"power_spect_fast.power_spect_2d", []),
  (n!"power_spectrum.power_spectrum_2d", []),
  (n!"radio_telescope_calibration.from_antenna_config_with_gains", [false, false, true, true]),
  (n!"radio_telescope_calibration.get_uv_map_with_gains", [false, false, true]),
  (n!"radio_telescope_layout.get_SKA_Low_layout", [false, false, false, false, false, false, false, false, false, true]),
  (n!"radio_telescope_noise.noise_coeval_power_spectrum_1d", []),
  (n!"radio_telescope_noise._suppress_sharp_features_uv_map", []),
  (n!"radio_telescope_noise.apply_uv_response_noise", []),
  (n!"radio_telescope_noise.make_uv_map_lightcone", []),
  (n!"read_files.read_c2ray_files", [])],
  [(n!"segmentation.segunet21cm.UniqueRows", []),
  (n!"test_case.spherical_bubble_model", [false, false, false, false, true])]]

/-- The choices lead to a read without a value. -/
def leads (fs : List Fn) (ws : List (Ident × List Bool)) : Bool :=
  ws.all fun w => fs.any fun f => decide (f.name = w.1) && decide ((path f.body (2 ^ f.params - 1) w.2).1 = .unbound)

theorem leads_spec {fs : List Fn} {ws : List (Ident × List Bool)} (h : leads fs ws = true) (w : Ident × List Bool) (hw : w ∈ ws) :
    ∃ f ∈ fs, f.name = w.1 ∧ ∃ x, Run f.body (start f.params) (.unbound x) := by
  rw [leads, List.all_eq_true] at h
  have := h w hw
  rw [List.any_eq_true] at this
  obtain ⟨f, hf, hp⟩ := this
  rw [Bool.and_eq_true, decide_eq_true_iff, decide_eq_true_iff] at hp
  refine ⟨f, hf, hp.1, ?_⟩
  have hr := run_path f.body (2 ^ f.params - 1) w.2
  rw [hp.2] at hr
  rw [start_eq]
  exact hr

/-- **C222** is false of the code: each of the exceptions is a function of the package with a way through its body on which a local variable is read that has no value. -/
theorem C222_false (n : Ident) (hn : n ∈ exceptions) : ∃ f ∈ package, f.name = n ∧ ∃ x, Run f.body (start f.params) (.unbound x) := by
  have h1 : leads part1 (ways.getD 0 []) = true := by decide +kernel
  have h2 : leads part2 (ways.getD 1 []) = true := by decide +kernel
  have h3 : leads part3 (ways.getD 2 []) = true := by decide +kernel
  have h4 : leads part4 (ways.getD 3 []) = true := by decide +kernel
  have hc : ∀ n ∈ exceptions, n ∈ (ways.getD 0 []).map Prod.fst ∨ n ∈ (ways.getD 1 []).map Prod.fst ∨ n ∈ (ways.getD 2 []).map Prod.fst ∨
      n ∈ (ways.getD 3 []).map Prod.fst := by decide +kernel
  rcases hc n hn with h | h | h | h
  · obtain ⟨w, hw, rfl⟩ := List.mem_map.mp h
    obtain ⟨f, hf, hr⟩ := leads_spec h1 w hw
    exact ⟨f, by simp only [package, List.mem_append]; exact .inl (.inl (.inl hf)), hr⟩
  · obtain ⟨w, hw, rfl⟩ := List.mem_map.mp h
    obtain ⟨f, hf, hr⟩ := leads_spec h2 w hw
    exact ⟨f, by simp only [package, List.mem_append]; exact .inl (.inl (.inr hf)), hr⟩
  · obtain ⟨w, hw, rfl⟩ := List.mem_map.mp h
    obtain ⟨f, hf, hr⟩ := leads_spec h3 w hw
    exact ⟨f, by simp only [package, List.mem_append]; exact .inl (.inr hf), hr⟩
  · obtain ⟨w, hw, rfl⟩ := List.mem_map.mp h
    obtain ⟨f, hf, hr⟩ := leads_spec h4 w hw
    exact ⟨f, by simp only [package, List.mem_append]; exact .inr hf, hr⟩

/-! ## Functions that always raise -/

/-- The variables that a statement may give a value. -/
def writes : Stmt → Nat
  | .write v => v
  | .skip | .read _ | .del _ | .ret _ | .throw | .brk | .cont => 0
  | .seq a b | .either a b | .loop a b | .cleanup a b => writes a ||| writes b
  | .forever a => writes a
  | .attempt a b c => writes a ||| writes b ||| writes c

/-- Values come only from assignments. -/
theorem Run.writes {s : Stmt} {σ : State} {o : Out} (h : Run s σ o) :
    ∀ τ, o.state = some τ → ∀ x, (Locals.writes s).testBit x = false → τ x = true → σ x = true := by
  induction h with
  | fault s σ => intro τ ht x _ hx; cases ht; exact hx
  | skip σ => intro τ ht x _ hx; cases ht; exact hx
  | read h => intro τ ht x _ hx; cases ht; exact hx
  | readUnbound hv h => intro τ ht; cases ht
  | write v σ =>
    intro τ ht x hk hx
    cases ht
    rw [Locals.writes] at hk
    replace hx : (σ x || v.testBit x) = true := hx
    rw [hk, Bool.or_false] at hx
    exact hx
  | del h => intro τ ht x _ hx; cases ht; rw [Bool.and_eq_true] at hx; exact hx.1
  | delUnbound hv h => intro τ ht; cases ht
  | ret v σ => intro τ ht x _ hx; cases ht; exact hx
  | throw σ => intro τ ht x _ hx; cases ht; exact hx
  | brk σ => intro τ ht x _ hx; cases ht; exact hx
  | cont σ => intro τ ht x _ hx; cases ht; exact hx
  | seq _ _ iha ihb =>
    intro τ ht x hk hx
    rw [Locals.writes, Nat.testBit_or, Bool.or_eq_false_iff] at hk
    exact iha _ rfl x hk.1 (ihb τ ht x hk.2 hx)
  | seqStop _ _ ih =>
    intro τ ht x hk hx
    rw [Locals.writes, Nat.testBit_or, Bool.or_eq_false_iff] at hk
    exact ih τ ht x hk.1 hx
  | yes _ ih =>
    intro τ ht x hk hx
    rw [Locals.writes, Nat.testBit_or, Bool.or_eq_false_iff] at hk
    exact ih τ ht x hk.1 hx
  | no _ ih =>
    intro τ ht x hk hx
    rw [Locals.writes, Nat.testBit_or, Bool.or_eq_false_iff] at hk
    exact ih τ ht x hk.2 hx
  | loopEnd _ ih =>
    intro τ ht x hk hx
    rw [Locals.writes, Nat.testBit_or, Bool.or_eq_false_iff] at hk
    exact ih τ ht x hk.2 hx
  | loopMore _ _ iha ihb =>
    intro τ ht x hk hx
    have := ihb τ ht x hk hx
    rw [Locals.writes, Nat.testBit_or, Bool.or_eq_false_iff] at hk
    exact iha _ rfl x hk.1 this
  | loopCont _ _ iha ihb =>
    intro τ ht x hk hx
    have := ihb τ ht x hk hx
    rw [Locals.writes, Nat.testBit_or, Bool.or_eq_false_iff] at hk
    exact iha _ rfl x hk.1 this
  | loopBrk _ ih =>
    intro τ ht x hk hx
    rw [Locals.writes, Nat.testBit_or, Bool.or_eq_false_iff] at hk
    exact ih τ ht x hk.1 hx
  | loopRet _ ih =>
    intro τ ht x hk hx
    rw [Locals.writes, Nat.testBit_or, Bool.or_eq_false_iff] at hk
    exact ih τ ht x hk.1 hx
  | loopThrown _ ih =>
    intro τ ht x hk hx
    rw [Locals.writes, Nat.testBit_or, Bool.or_eq_false_iff] at hk
    exact ih τ ht x hk.1 hx
  | loopUnbound _ _ => intro τ ht; cases ht
  | everMore _ _ iha ihb => intro τ ht x hk hx; exact iha _ rfl x hk (ihb τ ht x hk hx)
  | everCont _ _ iha ihb => intro τ ht x hk hx; exact iha _ rfl x hk (ihb τ ht x hk hx)
  | everBrk _ ih => intro τ ht x hk hx; exact ih τ ht x hk hx
  | everRet _ ih => intro τ ht x hk hx; exact ih τ ht x hk hx
  | everThrown _ ih => intro τ ht x hk hx; exact ih τ ht x hk hx
  | everUnbound _ _ => intro τ ht; cases ht
  | attemptElse _ _ iha ihb =>
    intro τ ht x hk hx
    rw [Locals.writes, Nat.testBit_or, Nat.testBit_or, Bool.or_eq_false_iff, Bool.or_eq_false_iff] at hk
    exact iha _ rfl x hk.1.1 (ihb τ ht x hk.2 hx)
  | attemptCatch _ _ iha ihh =>
    intro τ ht x hk hx
    rw [Locals.writes, Nat.testBit_or, Nat.testBit_or, Bool.or_eq_false_iff, Bool.or_eq_false_iff] at hk
    exact iha _ rfl x hk.1.1 (ihh τ ht x hk.1.2 hx)
  | attemptPass _ _ iha =>
    intro τ ht x hk hx
    rw [Locals.writes, Nat.testBit_or, Nat.testBit_or, Bool.or_eq_false_iff, Bool.or_eq_false_iff] at hk
    exact iha τ ht x hk.1.1 hx
  | @cleanup a f σ τ τ' o _ ho _ iha ihf =>
    intro τ₂ ht x hk hx
    rw [Locals.writes, Nat.testBit_or, Bool.or_eq_false_iff] at hk
    have e : τ₂ = τ' := by cases o <;> first | (cases ht; rfl) | cases ht
    rw [e] at hx
    exact iha _ ho x hk.1 (ihf τ' rfl x hk.2 hx)
  | cleanupStop _ ho _ _ iha ihf =>
    intro τ ht x hk hx
    rw [Locals.writes, Nat.testBit_or, Bool.or_eq_false_iff] at hk
    exact iha _ ho x hk.1 (ihf τ ht x hk.2 hx)
  | cleanupUnbound _ _ => intro τ ht; cases ht

/-- No `return`, `break` or `continue` in a statement. -/
def plain : Stmt → Bool
  | .ret _ | .brk | .cont => false
  | .write _ | .skip | .read _ | .del _ | .throw => true
  | .seq a b | .either a b | .loop a b | .cleanup a b => plain a && plain b
  | .forever a => plain a
  | .attempt a b c => plain a && plain b && plain c

/-- An end by an exception. -/
def Out.Raises : Out → Prop
  | .thrown _ | .unbound _ => True
  | _ => False

theorem Run.plain {s : Stmt} {σ : State} {o : Out} (h : Run s σ o) (hp : Locals.plain s = true) : o.isNorm = true ∨ o.Raises := by
  induction h with
  | fault s σ => exact .inr trivial
  | skip σ => exact .inl rfl
  | read h => exact .inl rfl
  | readUnbound hv h => exact .inr trivial
  | write v σ => exact .inl rfl
  | del h => exact .inl rfl
  | delUnbound hv h => exact .inr trivial
  | ret v σ => cases hp
  | throw σ => exact .inr trivial
  | brk σ => cases hp
  | cont σ => cases hp
  | seq _ _ _ ih => rw [Locals.plain, Bool.and_eq_true] at hp; exact ih hp.2
  | seqStop _ _ ih => rw [Locals.plain, Bool.and_eq_true] at hp; exact ih hp.1
  | yes _ ih => rw [Locals.plain, Bool.and_eq_true] at hp; exact ih hp.1
  | no _ ih => rw [Locals.plain, Bool.and_eq_true] at hp; exact ih hp.2
  | loopEnd _ ih => rw [Locals.plain, Bool.and_eq_true] at hp; exact ih hp.2
  | loopMore _ _ _ ih => exact ih hp
  | loopCont _ _ _ ih => exact ih hp
  | loopBrk _ _ => exact .inl rfl
  | loopRet _ ih => rw [Locals.plain, Bool.and_eq_true] at hp; exact ih hp.1
  | loopThrown _ _ => exact .inr trivial
  | loopUnbound _ _ => exact .inr trivial
  | everMore _ _ _ ih => exact ih hp
  | everCont _ _ _ ih => exact ih hp
  | everBrk _ _ => exact .inl rfl
  | everRet _ ih => exact ih hp
  | everThrown _ _ => exact .inr trivial
  | everUnbound _ _ => exact .inr trivial
  | attemptElse _ _ _ ih => rw [Locals.plain, Bool.and_eq_true, Bool.and_eq_true] at hp; exact ih hp.2
  | attemptCatch _ _ _ ih => rw [Locals.plain, Bool.and_eq_true, Bool.and_eq_true] at hp; exact ih hp.1.2
  | attemptPass _ _ ih => rw [Locals.plain, Bool.and_eq_true, Bool.and_eq_true] at hp; exact ih hp.1.1
  | @cleanup a f σ τ τ' o _ _ _ ih _ =>
    rw [Locals.plain, Bool.and_eq_true] at hp
    have := ih hp.1
    cases o <;> exact this
  | cleanupStop _ _ _ _ _ ih => rw [Locals.plain, Bool.and_eq_true] at hp; exact ih hp.2
  | cleanupUnbound _ _ => exact .inr trivial

/-- A sequence of statements that comes to a read of a variable that nothing before it assigns (at most `m` having values at the start). -/
def doomed : Stmt → Nat → Bool
  | .read v, m => decide (v &&& m ≠ v)
  | .seq a b, m => doomed a m || (plain a && doomed b (m ||| writes a))
  | _, _ => false

theorem Run.doomed {s : Stmt} : ∀ {m : Nat} {σ : State} {o : Out}, Run s σ o → Locals.doomed s m = true → (∀ x, σ x = true → m.testBit x = true) → o.Raises := by
  induction s with
  | read v =>
    intro m σ o h hd hm
    rw [Locals.doomed, decide_eq_true_iff] at hd
    cases h with
    | fault => trivial
    | readUnbound => trivial
    | read h =>
      refine absurd (Nat.eq_of_testBit_eq fun x => ?_) hd
      rw [Nat.testBit_and]
      cases hv : v.testBit x with
      | false => rfl
      | true => rw [hm x (h x hv)]; rfl
  | seq a b iha ihb =>
    intro m σ o h hd hm
    rw [Locals.doomed, Bool.or_eq_true, Bool.and_eq_true] at hd
    cases h with
    | fault => trivial
    | @seq _ _ _ τ _ ha hb =>
      rcases hd with hd | ⟨_, hd⟩
      · exact (iha ha hd hm).elim
      · refine ihb hb hd fun x hx => ?_
        rw [Nat.testBit_or, Bool.or_eq_true]
        cases hw : (Locals.writes a).testBit x with
        | true => exact .inr rfl
        | false => exact .inl (hm x (ha.writes τ rfl x hw hx))
    | seqStop ha hn =>
      rcases hd with hd | ⟨hp, _⟩
      · exact iha ha hd hm
      · rcases ha.plain hp with h | h
        · rw [h] at hn; cases hn
        · exact h
  | _ => intro m σ o h hd; cases hd

/-- Functions that cannot end in any other way than by an exception. -/
def always : List Ident := [n!"astro_tools.Muv_to_L1500", n!"bispectrum.Bispectrum.bispectrum_k1k2", n!"bispectrum.Bispectrum.bispectrum_k",
  n!"lyman_alpha_coupling._get_xc", n!"power_spect_fast.phase_spect_nd"]

/-- **C222** is false of the code, whatever the arguments: these functions of the package raise in every run. -/
theorem C222_always (n : Ident) (hn : n ∈ always) :
    (∃ f ∈ package, f.name = n) ∧ ∀ f ∈ package, f.name = n → ∀ o, Run f.body (start f.params) o → o.Raises := by
  have hex : ∀ n ∈ always, ∃ f ∈ package, f.name = n := by decide +kernel
  have hall : ∀ f ∈ package, f.name ∈ always → doomed f.body (2 ^ f.params - 1) = true := by decide +kernel
  refine ⟨hex n hn, ?_⟩
  rintro f hf rfl o h
  refine h.doomed (hall f hf hn) fun x hx => ?_
  rw [start_eq] at hx
  exact hx

/-! ## Examples -/

/-- `C222_partial` applies to `calc_dt`, which has a branch, and its body can return. -/
example : ∃ f ∈ package, f.name = n!"temperature.calc_dt" ∧ f.name ∉ exceptions ∧ ∃ t, Run f.body (start f.params) (.ret true t) := by
  have h : (package.any fun f => decide (f.name = n!"temperature.calc_dt" ∧ f.name ∉ exceptions) &&
      match (path f.body (2 ^ f.params - 1) [true]).1 with | .ret true _ => true | _ => false) = true := by decide +kernel
  rw [List.any_eq_true] at h
  obtain ⟨f, hf, h⟩ := h
  rw [Bool.and_eq_true, decide_eq_true_iff] at h
  refine ⟨f, hf, h.1.1, h.1.2, ?_⟩
  have hr := run_path f.body (2 ^ f.params - 1) [true]
  rw [start_eq]
  generalize (path f.body (2 ^ f.params - 1) [true]).1 = e at h hr
  cases e with
  | ret v m =>
    cases v with
    | true => exact ⟨_, hr⟩
    | false => exact absurd h.2 Bool.false_ne_true
  | _ => exact absurd h.2 Bool.false_ne_true

/-- `HaloRockstar.get`, called without the name of a quantity, is one of the exceptions of `C222_false`. -/
example : n!"halo_list.HaloRockstar.get" ∈ exceptions := by decide +kernel

/-- `phase_spect_nd` is one of the functions of `C222_always`. -/
example : n!"power_spect_fast.phase_spect_nd" ∈ always := by decide +kernel

/-- The number of functions. -/
example : package.length = 488 ∧ exceptions.length = 42 := by decide +kernel

end Verif.Locals

import Verif.Props.Locals

/-!
# C223: a function that returns a value returns one in every run

Full statement (C223): for every function of the package, either every run that does not raise ends with a `return` of a value, or no run does: a caller never gets `None` in
the place of a value because the end of the body was reached or because of a bare `return`.

The function bodies are those of C222 (`Model/LocalsTable1.lean` to `Model/LocalsTable4.lean`), and `Run` says what they can do.  `C223_partial` holds for all functions except
the 20 of `silent`; `C223_false` shows that each of those has both kinds of runs.
-/

namespace Verif.Locals

/-- A run that returns a value. -/
def Out.Gives : Out → Prop
  | .ret true _ => True
  | _ => False

/-- A run that gives `None`: the end of the body, or a `return` without a value. -/
def Out.GivesNone : Out → Prop
  | .norm _ => True
  | .ret false _ => True
  | _ => False

/-- The functions that give a value in some runs and `None` in others. -/
def silent : List Ident := [
  n!"bubble_stats.averaged_mfp", n!"bubble_stats.mfp_from_point", n!"line_intensity.M_HI_on_grid", n!"line_intensity.L_CII_on_grid", n!"mfp_np.mfp3d",
  n!"mfp_np.mfp2d", n!"model_21cmfast._is_py21cmfast_installed", n!"model_21cmfast.run_21cmfast_init", n!"model_21cmfast.run_21cmfast_matter",
  n!"model_21cmfast.run_21cmfast_coeval", n!"nbody_file.Halo2Grid.halo_mass_on_grid", n!"nbody_file.Halo2Grid.halo_value_on_grid",
  n!"nbody_pkdgrav.HaloCataloguePkdgrav3.array_fof_data", n!"plotting.plot_triangle", n!"plotting.DistributionDiagnostic.plot_corner",
  n!"power_spect_fast._get_k", n!"power_spectrum._get_k", n!"radio_telescope_calibration.from_antenna_config_with_gains",
  n!"radio_telescope_layout.get_latest_SKA_Low_layout", n!"radio_telescope_noise.signal_window"]

/-- The ways in which a statement may end other than by an exception. -/
structure Flow where
  norm : Bool
  brk : Bool
  cont : Bool
  value : Bool
  none : Bool

/-- Either. -/
def Flow.or (a b : Flow) : Flow := ⟨a.norm || b.norm, a.brk || b.brk, a.cont || b.cont, a.value || b.value, a.none || b.none⟩

/-- Never. -/
def Flow.never : Flow := ⟨false, false, false, false, false⟩

/-- The ways in which a statement may end, without looking at its variables. -/
def flow : Stmt → Flow
  | .skip | .read _ | .write _ | .del _ => { Flow.never with norm := true }
  | .ret v => { Flow.never with value := v, none := !v }
  | .throw => .never
  | .brk => { Flow.never with brk := true }
  | .cont => { Flow.never with cont := true }
  | .seq a b => Flow.or { flow a with norm := false } (if (flow a).norm then flow b else .never)
  | .either a b => (flow a).or (flow b)
  | .loop a b => Flow.or { flow a with norm := (flow a).brk, brk := false, cont := false } (flow b)
  | .forever a => { flow a with norm := (flow a).brk, brk := false, cont := false }
  | .attempt a h b => Flow.or { flow a with norm := false } ((flow h).or (if (flow a).norm then flow b else .never))
  | .cleanup a f => Flow.or (if (flow f).norm then flow a else .never) { flow f with norm := false }

/-- The end of a run is among those of the flow. -/
def Flow.Has (f : Flow) : Out → Prop
  | .norm _ => f.norm = true
  | .brk _ => f.brk = true
  | .cont _ => f.cont = true
  | .ret true _ => f.value = true
  | .ret false _ => f.none = true
  | _ => True

theorem or_left {a b : Bool} (h : a = true) : (a || b) = true := by rw [h]; rfl

theorem or_right {a b : Bool} (h : b = true) : (a || b) = true := by rw [h, Bool.or_true]

theorem Flow.has_or_left {f g : Flow} {o : Out} (h : f.Has o) : (f.or g).Has o := by
  cases o with
  | ret v _ => cases v <;> exact or_left h
  | unbound => trivial
  | thrown => trivial
  | _ => exact or_left h

theorem Flow.has_or_right {f g : Flow} {o : Out} (h : g.Has o) : (f.or g).Has o := by
  cases o with
  | ret v _ => cases v <;> exact or_right h
  | unbound => trivial
  | thrown => trivial
  | _ => exact or_right h

theorem Flow.has_less {f : Flow} {o : Out} (h : f.Has o) (ho : o.isNorm = false) : Flow.Has { f with norm := false } o := by
  cases o with
  | norm => cases ho
  | ret v _ => cases v <;> exact h
  | _ => exact h

theorem Run.flow {s : Stmt} {σ : State} {o : Out} (h : Run s σ o) : (Locals.flow s).Has o := by
  induction h with
  | fault s σ => trivial
  | skip σ => rfl
  | read h => rfl
  | readUnbound hv h => trivial
  | write v σ => rfl
  | del h => rfl
  | delUnbound hv h => trivial
  | ret v σ => cases v <;> rfl
  | throw σ => trivial
  | brk σ => rfl
  | cont σ => rfl
  | seq _ _ iha ihb =>
    rw [Locals.flow, if_pos (show (Locals.flow _).norm = true from iha)]
    exact Flow.has_or_right ihb
  | seqStop _ hn ih => exact Flow.has_or_left (Flow.has_less ih hn)
  | yes _ ih => exact Flow.has_or_left ih
  | no _ ih => exact Flow.has_or_right ih
  | loopEnd _ ih => exact Flow.has_or_right ih
  | loopMore _ _ _ ih => exact ih
  | loopCont _ _ _ ih => exact ih
  | loopBrk _ ih => exact Flow.has_or_left (o := .norm _) ih
  | @loopRet _ _ _ _ v _ ih => refine Flow.has_or_left ?_; cases v <;> exact ih
  | loopThrown _ _ => trivial
  | loopUnbound _ _ => trivial
  | everMore _ _ _ ih => exact ih
  | everCont _ _ _ ih => exact ih
  | everBrk _ ih => exact ih
  | @everRet _ _ _ v _ ih => cases v <;> exact ih
  | everThrown _ _ => trivial
  | everUnbound _ _ => trivial
  | attemptElse _ _ iha ihb =>
    rw [Locals.flow, if_pos (show (Locals.flow _).norm = true from iha)]
    exact Flow.has_or_right (Flow.has_or_right ihb)
  | attemptCatch _ _ _ ih => exact Flow.has_or_right (Flow.has_or_left ih)
  | attemptPass _ hn ih => exact Flow.has_or_left (Flow.has_less ih hn)
  | @cleanup a f σ τ τ' o _ _ _ iha ihf =>
    rw [Locals.flow, if_pos (show (Locals.flow _).norm = true from ihf)]
    refine Flow.has_or_left ?_
    cases o with
    | ret v _ => cases v <;> exact iha
    | _ => exact iha
  | cleanupStop _ _ _ hn _ ihf => exact Flow.has_or_right (Flow.has_less ihf hn)
  | cleanupUnbound _ _ => trivial

/-- No run gives a value, or no run gives `None`. -/
def clear (f : Fn) : Bool := !(flow f.body).value || (!(flow f.body).norm && !(flow f.body).none)

theorem parts_clear : (∀ f ∈ part1, clear f = true ∨ f.name ∈ silent) ∧ (∀ f ∈ part2, clear f = true ∨ f.name ∈ silent) ∧
    (∀ f ∈ part3, clear f = true ∨ f.name ∈ silent) ∧ (∀ f ∈ part4, clear f = true ∨ f.name ∈ silent) := by
  refine ⟨?_, ?_, ?_, ?_⟩ <;> decide +kernel

/-- **C223** (partial: all functions of the package but 20): if one run of the function returns a value, then no run gives `None`. -/
theorem C223_partial (f : Fn) (hf : f ∈ package) (hn : f.name ∉ silent) (σ σ' : State) (o o' : Out) (h : Run f.body σ o) (h' : Run f.body σ' o')
    (hv : o.Gives) : ¬o'.GivesNone := by
  have hc : clear f = true := by
    obtain ⟨h1, h2, h3, h4⟩ := parts_clear
    rw [package, List.mem_append, List.mem_append, List.mem_append] at hf
    rcases hf with ((hf | hf) | hf) | hf
    · exact (h1 f hf).resolve_right hn
    · exact (h2 f hf).resolve_right hn
    · exact (h3 f hf).resolve_right hn
    · exact (h4 f hf).resolve_right hn
  have hl := h.flow
  have hl' := h'.flow
  have hval : (flow f.body).value = true := by
    cases o with
    | ret v _ =>
      cases v with
      | true => exact hl
      | false => exact hv.elim
    | _ => exact hv.elim
  rw [clear, hval, Bool.not_true, Bool.false_or, Bool.and_eq_true, Bool.not_eq_true', Bool.not_eq_true'] at hc
  intro hnone
  cases o' with
  | norm _ => exact absurd (hc.1.symm.trans hl') Bool.false_ne_true
  | ret v _ =>
    cases v with
    | true => exact hnone
    | false => exact absurd (hc.2.symm.trans hl') Bool.false_ne_true
  | _ => exact hnone

/-- For each of the silent functions the choices that lead to a value and those that lead to `None`. -/
def bothWays : List (Ident × List Bool × List Bool) := [
  (n!"bubble_stats.averaged_mfp", [], [false, false, false, true, true]),
  (n!"bubble_stats.mfp_from_point", [], [false, false, false, true, true]),
  (n!"line_intensity.M_HI_on_grid", [false, false, false, false, true], []),
  (n!"line_intensity.L_CII_on_grid", [false, false, false, false, false, false, true, true], []),
  (n!"mfp_np.mfp3d", [], [false, false, true, true]),
  (n!"mfp_np.mfp2d", [], [false, false, true]),
  (n!"model_21cmfast._is_py21cmfast_installed", [], [true]),
  (n!"model_21cmfast.run_21cmfast_init", [], [true]),
  (n!"model_21cmfast.run_21cmfast_matter", [], [true]),
  (n!"model_21cmfast.run_21cmfast_coeval", [], [true]),
  (n!"nbody_file.Halo2Grid.halo_mass_on_grid", [], [true]),
  (n!"nbody_file.Halo2Grid.halo_value_on_grid", [], [true]),
  (n!"nbody_pkdgrav.HaloCataloguePkdgrav3.array_fof_data", [true], []),
  (n!"plotting.plot_triangle", [false, true], []),
  (n!"plotting.DistributionDiagnostic.plot_corner", [false, false, true], []),
  (n!"power_spect_fast._get_k", [false, true], []),
  (n!"power_spectrum._get_k", [true], []),
  (n!"radio_telescope_calibration.from_antenna_config_with_gains", [], [false, false, true]),
  (n!"radio_telescope_layout.get_latest_SKA_Low_layout", [], [true]),
  (n!"radio_telescope_noise.signal_window", [true, true], [])]

/-- A way that ends with a value. -/
def End.gives : End → Bool
  | .ret true _ => true
  | _ => false

/-- A way that gives `None`. -/
def End.givesNone : End → Bool
  | .norm _ => true
  | .ret false _ => true
  | _ => false

theorem gives_spec {s : Stmt} {m : Nat} {cs : List Bool} (h : (path s m cs).1.gives = true) : ∃ o, Run s (ofMask m) o ∧ o.Gives := by
  have hr := run_path s m cs
  generalize (path s m cs).1 = e at h hr
  cases e with
  | ret v m' =>
    cases v with
    | true => exact ⟨_, hr, trivial⟩
    | false => cases h
  | _ => cases h

theorem givesNone_spec {s : Stmt} {m : Nat} {cs : List Bool} (h : (path s m cs).1.givesNone = true) : ∃ o, Run s (ofMask m) o ∧ o.GivesNone := by
  have hr := run_path s m cs
  generalize (path s m cs).1 = e at h hr
  cases e with
  | norm m' => exact ⟨_, hr, trivial⟩
  | ret v m' =>
    cases v with
    | true => cases h
    | false => exact ⟨_, hr, trivial⟩
  | _ => cases h

/-- **C223** is false of the code: each of the silent functions has a run that returns a value and a run that gives `None`. -/
theorem C223_false (n : Ident) (hn : n ∈ silent) :
    ∃ f ∈ package, f.name = n ∧ (∃ o, Run f.body (start f.params) o ∧ o.Gives) ∧ ∃ o, Run f.body (start f.params) o ∧ o.GivesNone := by
  have hb : ∀ n ∈ silent, n ∈ bothWays.map Prod.fst := by decide +kernel
  have hw : (bothWays.all fun w => package.any fun f => decide (f.name = w.1) && ((path f.body (2 ^ f.params - 1) w.2.1).1.gives &&
      (path f.body (2 ^ f.params - 1) w.2.2).1.givesNone)) = true := by decide +kernel
  obtain ⟨w, hmem, rfl⟩ := List.mem_map.mp (hb n hn)
  rw [List.all_eq_true] at hw
  have := hw w hmem
  rw [List.any_eq_true] at this
  obtain ⟨f, hf, h⟩ := this
  rw [Bool.and_eq_true, Bool.and_eq_true, decide_eq_true_iff] at h
  refine ⟨f, hf, h.1, ?_, ?_⟩
  · rw [start_eq]; exact gives_spec h.2.1
  · rw [start_eq]; exact givesNone_spec h.2.2

/-- `C223_partial` applies to `calc_dt`, which returns a value. -/
example : ∃ f ∈ package, f.name = n!"temperature.calc_dt" ∧ f.name ∉ silent ∧ ∃ o, Run f.body (start f.params) o ∧ o.Gives := by
  have h : (package.any fun f => decide (f.name = n!"temperature.calc_dt" ∧ f.name ∉ silent) && (path f.body (2 ^ f.params - 1) []).1.gives) = true := by
    decide +kernel
  rw [List.any_eq_true] at h
  obtain ⟨f, hf, h⟩ := h
  rw [Bool.and_eq_true, decide_eq_true_iff] at h
  exact ⟨f, hf, h.1.1, h.1.2, start_eq f.params ▸ gives_spec h.2⟩

/-- `signal_window` is one of the silent functions. -/
example : n!"radio_telescope_noise.signal_window" ∈ silent := by decide +kernel

end Verif.Locals

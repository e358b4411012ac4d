import Verif.Model.NamespaceTable
import Verif.Lemmas.Ident
import Verif.Model.Convolve
import Verif.Model.FullConvolve
/-!
# Names of the package (C208, C209)
-/

namespace Verif.Namespace
open Verif.Convolve

/-! ## Specification -/

/-- The functions and classes of the modules that `__init__.py` imports with a star. -/
def Offered (ms : List (Ident × List Stmt)) (init : List Stmt) (m n : Ident) : Prop :=
  ∃ body, (m, body) ∈ ms ∧ Stmt.star m ∈ init ∧ Stmt.define n ∈ body ∧ isPublic n = true

/-- The global names that a function reads. -/
def Reads (m f n : Ident) : Prop := ∃ fs, (m, fs) ∈ reads ∧ ∃ ns, (f, ns) ∈ fs ∧ n ∈ ns

/-! ## C208 -/

/-- What the check of all names computes. -/
def offeredCheck : Bool :=
  match package modules initBody with
  | none => false
  | some s => (s.lookup n!"fftconvolve" == some (.external n!"scipy.signal") && s.lookup n!"gauss_kernel_3d" == some (.here n!"radio_telescope_noise")) &&
      modules.all fun e => !decide (Stmt.star e.1 ∈ initBody) || e.2.all fun c =>
        match c with
        | .define n => !isPublic n || s.lookup n == some (.here e.1) || (e.1, n) == (n!"fft_functions", n!"fftconvolve") || (e.1, n) == (n!"smoothing", n!"gauss_kernel_3d")
        | _ => true

theorem offeredCheck_true : offeredCheck = true := by decide +kernel

/-- **C208** (partial).  The package can be imported as far as its own names are concerned, and every function and class of the modules that it imports is
available as an attribute of the package, except for `fftconvolve`, see `C208_false`, and for `gauss_kernel_3d`, which two modules define, see `C208_twice`. -/
theorem C208_partial : ∃ s, package modules initBody = some s ∧
    ∀ m n, Offered modules initBody m n → (m, n) ≠ (n!"fft_functions", n!"fftconvolve") → (m, n) ≠ (n!"smoothing", n!"gauss_kernel_3d") →
      s.lookup n = some (.here m) := by
  have h := offeredCheck_true
  unfold offeredCheck at h
  split at h
  · cases h
  · rename_i s hs
    refine ⟨s, hs, ?_⟩
    rintro m n ⟨body, h1, h2, h3, h4⟩ h5 h6
    rw [Bool.and_eq_true] at h
    have a := List.all_eq_true.1 h.2 _ h1
    simp only [decide_eq_true h2, Bool.not_true, Bool.false_or] at a
    have b := List.all_eq_true.1 a _ h3
    simp only [h4, Bool.not_true, Bool.false_or, Bool.or_eq_true, beq_iff_eq] at b
    rcases b with (b | b) | b
    · exact b
    · exact absurd b h5
    · exact absurd b h6

/-- The power spectrum. -/
example : Offered modules initBody n!"power_spectrum" n!"power_spectrum_1d" :=
  ⟨body_power_spectrum, by decide +kernel, by decide +kernel, by decide +kernel, by decide +kernel⟩

/-- The name `fftconvolve` of the package is that of scipy, which `box_counting.py` imports, not the one that `fft_functions.py` offers. -/
theorem C208_false : Offered modules initBody n!"fft_functions" n!"fftconvolve" ∧
    ∃ s, package modules initBody = some s ∧ s.lookup n!"fftconvolve" = some (.external n!"scipy.signal") := by
  refine ⟨⟨body_fft_functions, by decide +kernel, by decide +kernel, by decide +kernel, by decide +kernel⟩, ?_⟩
  have h := offeredCheck_true
  unfold offeredCheck at h
  split at h
  · cases h
  · rename_i s hs
    simp only [Bool.and_eq_true, beq_iff_eq] at h
    exact ⟨s, hs, h.1.1⟩

/-- A call of `t2c.fftconvolve(a, k)` with the default arguments of what the name refers to. -/
noncomputable def callConvolve {ι : Type} [Fintype ι] [DecidableEq ι] (o : Option Origin) (a k : Arr ι ℝ) : Except String (Arr ι ℝ) :=
  match o with
  | some (.external _) => .ok (FullConvolve.full a k)
  | some (.here _) => fftconvolve a k .same .circular .numpy
  | _ => .error "AttributeError"

/-- The result of the package's name is larger than the array by the kernel less one, where that of the module has the shape of the array. -/
theorem C208_false_shape {ι : Type} [Fintype ι] [DecidableEq ι] (a k : Arr ι ℝ) (hk : ∀ i, k.shape i ≤ a.shape i) (i : ι) (h1 : 1 < k.shape i) :
    ∃ s, package modules initBody = some s ∧ ∃ r t, callConvolve (s.lookup n!"fftconvolve") a k = .ok r ∧
      fftconvolve a k .same .circular .numpy = .ok t ∧ t.shape = a.shape ∧ r.shape i = a.shape i + (k.shape i - 1) ∧ r.shape ≠ t.shape := by
  obtain ⟨_, s, hs, h⟩ := C208_false
  refine ⟨s, hs, FullConvolve.full a k,
    ⟨fun i => max (a.shape i) (k.shape i), rolled (fun i => max (a.shape i) (k.shape i)) (fun i => (-(k.shape i : ℤ)) / 2)
      (circ (fun i => max (a.shape i) (k.shape i)) a.ext k.ext)⟩, ?_, ?_, ?_, ?_, ?_⟩
  · rw [h]; rfl
  · unfold fftconvolve
    simp
  · funext j
    exact max_eq_left (hk j)
  · show a.shape i + k.shape i - 1 = _
    omega
  · intro e
    have := congrFun e i
    rw [show (⟨fun i => max (a.shape i) (k.shape i), rolled (fun i => max (a.shape i) (k.shape i)) (fun i => (-(k.shape i : ℤ)) / 2)
      (circ (fun i => max (a.shape i) (k.shape i)) a.ext k.ext)⟩ : Arr ι ℝ).shape i = max (a.shape i) (k.shape i) from rfl, max_eq_left (hk i)] at this
    have h2 : a.shape i + k.shape i - 1 = a.shape i := this
    omega

/-- A kernel of three cells. -/
example : ∀ i : Fin 1, (⟨fun _ => 3, fun _ => 1⟩ : Arr (Fin 1) ℝ).shape i ≤ (⟨fun _ => 8, fun _ => 1⟩ : Arr (Fin 1) ℝ).shape i := fun _ => by
  show 3 ≤ 8
  omega

/-- `gauss_kernel_3d` is the one of the module of the noise (the two compute the same). -/
theorem C208_twice : Offered modules initBody n!"smoothing" n!"gauss_kernel_3d" ∧ Offered modules initBody n!"radio_telescope_noise" n!"gauss_kernel_3d" ∧
    ∃ s, package modules initBody = some s ∧ s.lookup n!"gauss_kernel_3d" = some (.here n!"radio_telescope_noise") := by
  refine ⟨⟨body_smoothing, by decide +kernel, by decide +kernel, by decide +kernel, by decide +kernel⟩,
    ⟨body_radio_telescope_noise, by decide +kernel, by decide +kernel, by decide +kernel, by decide +kernel⟩, ?_⟩
  have h := offeredCheck_true
  unfold offeredCheck at h
  split at h
  · cases h
  · rename_i s hs
    simp only [Bool.and_eq_true, beq_iff_eq] at h
    exact ⟨s, hs, h.1.2⟩

/-! ## C209 -/

/-- The names that are not there when they are read. -/
def missing : List (Ident × Ident × Ident) :=
  [(n!"lyman_alpha_transmission", n!"tau_nu_lyA_los", n!"tau_nu_lyA_Smith2015"), (n!"Friends_of_Friends", n!"halo3d", n!"reduce"),
    (n!"lyman_alpha_coupling", n!"Lya_coupling_coeff", n!"xrange"), (n!"lyman_alpha_coupling", n!"one_source", n!"cm"),
    (n!"lyman_alpha_coupling", n!"Lya_coupling_coeff_", n!"cm"), (n!"lyman_alpha_coupling", n!"Lya_coupling_coeff_", n!"p"),
    (n!"lyman_alpha_coupling", n!"Lya_coupling_coeff_", n!"xrange"), (n!"lyman_alpha_coupling", n!"one_source_", n!"cm"),
    (n!"lyman_alpha_coupling", n!"_get_xc", n!"xrange"), (n!"lyman_alpha_coupling", n!"_get_profile", n!"cm")]

/-- What the check of all global names computes: they resolve if and only if they are not among those. -/
def readsCheck : Bool :=
  match runModules [] modules with
  | none => false
  | some env => reads.all fun e => (env.lookup e.1).isSome && e.2.all fun f => f.2.all fun n => resolves env builtins e.1 n != missing.contains (e.1, f.1, n)

theorem readsCheck_true : readsCheck = true := by decide +kernel

/-- The module has a name, or Python has. -/
def Bound (env : List (Ident × Scope)) (m n : Ident) : Prop := (∃ s o, env.lookup m = some s ∧ s.lookup n = some o) ∨ n ∈ builtins

/-- **C209** (partial).  Every global name that a function reads is bound when the modules have run, by the module or by Python, except for those of `missing`; in
particular for all functions of the package but one. -/
theorem C209_partial : ∃ env, runModules [] modules = some env ∧ ∀ m f n, Reads m f n → (m, f, n) ∉ missing → Bound env m n := by
  have h := readsCheck_true
  unfold readsCheck at h
  split at h
  · cases h
  · rename_i env hs
    refine ⟨env, hs, ?_⟩
    rintro m f n ⟨fs, h1, ns, h2, h3⟩ h4
    have h0 := List.all_eq_true.1 h _ h1
    rw [Bool.and_eq_true] at h0
    have a := List.all_eq_true.1 (List.all_eq_true.1 h0.2 _ h2) _ h3
    have c : missing.contains (m, f, n) = false := by
      cases hc : missing.contains (m, f, n) with
      | false => rfl
      | true => exact absurd (List.contains_iff_mem.1 hc) h4
    simp only [c, bne_iff_ne, ne_eq, Bool.not_eq_false] at a
    unfold resolves at a
    split at a
    · cases a
    · rename_i s hm
      rw [Bool.or_eq_true] at a
      rcases a with a | a
      · obtain ⟨o, ho⟩ := Option.isSome_iff_exists.1 a
        exact Or.inl ⟨s, o, hm, ho⟩
      · exact Or.inr (List.contains_iff_mem.1 a)

/-- The names that are missing are not bound: a call that reads one of them raises a NameError. -/
theorem C209_false : ∃ env, runModules [] modules = some env ∧
    ∀ m f n, Reads m f n → (m, f, n) ∈ missing → ¬ Bound env m n := by
  have h := readsCheck_true
  unfold readsCheck at h
  split at h
  · cases h
  · rename_i env hs
    refine ⟨env, hs, ?_⟩
    rintro m f n ⟨fs, h1, ns, h2, h3⟩ h4
    have h0 := List.all_eq_true.1 h _ h1
    rw [Bool.and_eq_true] at h0
    have a := List.all_eq_true.1 (List.all_eq_true.1 h0.2 _ h2) _ h3
    have c : missing.contains (m, f, n) = true := List.contains_iff_mem.2 h4
    simp only [c, bne_iff_ne, ne_eq, Bool.not_eq_true] at a
    unfold resolves at a
    rintro (⟨s, o, hm, ho⟩ | hb)
    · rw [hm] at a
      simp [ho] at a
    · have : builtins.contains n = true := List.contains_iff_mem.2 hb
      rw [this] at a
      split at a
      · rename_i hm
        have hm' := h0.1
        rw [hm] at hm'
        cases hm'
      · simp at a

/-- `tau_nu_lyA_los` of the package reads a name that does not exist. -/
example : Reads n!"lyman_alpha_transmission" n!"tau_nu_lyA_los" n!"tau_nu_lyA_Smith2015" ∧ Offered modules initBody n!"lyman_alpha_transmission" n!"tau_nu_lyA_los" := by
  refine ⟨⟨reads_lyman_alpha_transmission, by decide +kernel, ?_⟩,
    ⟨body_lyman_alpha_transmission, by decide +kernel, by decide +kernel, by decide +kernel, by decide +kernel⟩⟩
  have h : (reads_lyman_alpha_transmission.any fun e => e.1 == n!"tau_nu_lyA_los" && e.2.contains n!"tau_nu_lyA_Smith2015") = true := by decide +kernel
  obtain ⟨⟨f, ns⟩, h1, h2⟩ := List.any_eq_true.1 h
  simp only [Bool.and_eq_true, beq_iff_eq] at h2
  exact ⟨ns, h2.1 ▸ h1, List.contains_iff_mem.1 h2.2⟩

end Verif.Namespace

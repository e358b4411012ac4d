import Verif.Model.Temperature
import Verif.Lemmas.Convolve
import Verif.Props.Distances
import Mathlib.Algebra.Order.Field.Basic
import Mathlib.Analysis.SpecificLimits.Basic
import Mathlib.Data.Fin.VecNotation
import Mathlib.Tactic.FieldSimp
import Mathlib.Tactic.Positivity
import Mathlib.Tactic.Ring
import Mathlib.Tactic.Linarith
import Mathlib.Tactic.NormNum
/-!
# The differential brightness temperature

C98 mean signal, C99 signal of a cube, C100 redshift from the names, C101 lightcones, C102 signal with
the spin temperature, C103 signal from halo masses.
-/

namespace Verif.Temperature

open Verif.Constants Verif.Convolve Verif.Conversions

/-! ## C98: the mean signal -/

/-- The expansion rate relative to today. -/
noncomputable def expansion (om la z : ℝ) : ℝ :=
  Real.sqrt (om * (1 + z) ^ 3 + la + (1 - om - la) * (1 + z) ^ 2)

/-- The mean signal in mK of neutral gas for the given cosmology: optical depth of the 21-cm line times
the excitation temperature, `3 λ³ A T n (1+z)²/(32 π H)`, where `n` is the number density of hydrogen
today. -/
noncomputable def meanSignal (pi : ℚ) (h om la ob y z : ℝ) : ℝ :=
  let H : ℝ := 100 * h * 10 ^ 5 / (3086 * 10 ^ 21)
  let crit : ℝ := 3 * H ^ 2 / (8 * pi * (66732 / 10 ^ 12))
  let n : ℝ := (1 - y) * (ob * crit) / (1672661 / 10 ^ 30)
  let wave : ℝ := 3 * 10 ^ 10 / (1420 * 10 ^ 6)
  1000 * (3 * wave ^ 3 * (285 / 10 ^ 17) * (68 / 1000) * n * (1 + z) ^ 2) / (32 * pi * H * expansion om la z)

/-- The cosmology has no more than the critical density. -/
structure Open (k : Const) : Prop extends Physical k where
  little : 0 < k.h
  curvature : k.omega0 + k.lam ≤ 1

theorem open_init : Open (Const.init 3) :=
  ⟨physical_init, by norm_num [Const.init], by norm_num [Const.init]⟩

theorem mean_eq (meandt : ℝ) (k : Const) (z : ℝ) :
    meanDt meandt k z = meandt / k.h * ((1 + z) ^ 2 / expansion k.omega0 k.lam z) := by
  unfold meanDt expansion
  rw [mul_div_assoc]

theorem expansion_pos {k : Const} (p : Open k) {z : ℝ} (hz : -1 < z) :
    0 < k.omega0 * (1 + z) ^ 3 + k.lam + (1 - k.omega0 - k.lam) * (1 + z) ^ 2 := by
  have h1 : (0 : ℝ) < k.omega0 := p.toPhysical.matter'
  have h2 : (0 : ℝ) ≤ k.lam := p.toPhysical.lam'
  have h3 : (0 : ℝ) ≤ 1 - k.omega0 - k.lam := by
    have : ((k.omega0 + k.lam : ℚ) : ℝ) ≤ 1 := by exact_mod_cast p.curvature
    push_cast at this
    linarith
  have : 0 < 1 + z := by linarith
  positivity

/-- **C98, growth.**  The mean signal is positive and grows with redshift. -/
theorem C98_grows (meandt : ℝ) (hm : 0 < meandt) (k : Const) (p : Open k) :
    (∀ z, -1 < z → 0 < meanDt meandt k z) ∧ StrictMonoOn (meanDt meandt k) (Set.Ioi (-1)) := by
  have hh : (0 : ℝ) < k.h := by exact_mod_cast p.little
  have h1 : (0 : ℝ) < k.omega0 := p.toPhysical.matter'
  have h2 : (0 : ℝ) ≤ k.lam := p.toPhysical.lam'
  have h3 : (0 : ℝ) ≤ 1 - k.omega0 - k.lam := by
    have : ((k.omega0 + k.lam : ℚ) : ℝ) ≤ 1 := by exact_mod_cast p.curvature
    push_cast at this
    linarith
  have hpos : ∀ z, -1 < z → 0 < meanDt meandt k z := by
    intro z hz
    have e := Real.sqrt_pos.mpr (expansion_pos p hz)
    have : 0 < 1 + z := by linarith
    unfold meanDt
    positivity
  refine ⟨hpos, ?_⟩
  intro x hx y hy hxy
  have hx : (-1 : ℝ) < x := hx
  have hy : (-1 : ℝ) < y := hy
  rw [mean_eq, mean_eq]
  refine mul_lt_mul_of_pos_left ?_ (by positivity)
  have ex := expansion_pos p hx
  have ey := expansion_pos p hy
  have sx := Real.sqrt_pos.mpr ex
  have sy := Real.sqrt_pos.mpr ey
  have hu : 0 < 1 + x := by linarith
  have hv : 0 < 1 + y := by linarith
  have key : ((1 + x) ^ 2 / expansion k.omega0 k.lam x) ^ 2 < ((1 + y) ^ 2 / expansion k.omega0 k.lam y) ^ 2 := by
    unfold expansion
    rw [div_pow, div_pow, Real.sq_sqrt ex.le, Real.sq_sqrt ey.le, div_lt_div_iff₀ ex ey]
    generalize (k.omega0 : ℝ) = a at *
    generalize (k.lam : ℝ) = b at *
    generalize hc : 1 - a - b = c at *
    set u := 1 + x
    set v := 1 + y
    have huv : u < v := by simp only [u, v]; linarith
    have i1 : a * (u ^ 4 * v ^ 3) < a * (v ^ 4 * u ^ 3) := by
      refine mul_lt_mul_of_pos_left ?_ h1
      have : 0 < u ^ 3 * v ^ 3 := by positivity
      nlinarith
    have i2 : b * u ^ 4 ≤ b * v ^ 4 :=
      mul_le_mul_of_nonneg_left (pow_le_pow_left₀ hu.le huv.le 4) h2
    have i3 : c * (u ^ 4 * v ^ 2) ≤ c * (v ^ 4 * u ^ 2) := by
      refine mul_le_mul_of_nonneg_left ?_ h3
      have h4 : u ^ 2 ≤ v ^ 2 := pow_le_pow_left₀ hu.le huv.le 2
      have h5 : 0 < u ^ 2 * v ^ 2 := by positivity
      nlinarith
    nlinarith
  exact lt_of_pow_lt_pow_left₀ 2 (by unfold expansion; positivity) key

example : meanDt 1 (Const.init 3) 6 < meanDt 1 (Const.init 3) 7 :=
  (C98_grows 1 one_pos _ open_init).2 (by norm_num) (by norm_num) (by norm_num)

/-- The setters that `mean_dt` follows. -/
def Followed : ConstOp → Prop
  | .omegaMatter _ => True
  | .omegaLambda _ => True
  | .ns _ => True
  | .sigma8 _ => True
  | _ => False

theorem run_keeps (pi : ℚ) (ops : List ConstOp) (hf : ∀ o ∈ ops, Followed o) (k : Const) :
    (ops.foldl Const.step k).h = k.h ∧ (ops.foldl Const.step k).omegaB = k.omegaB ∧
      (ops.foldl Const.step k).abuHeMass = k.abuHeMass := by
  induction ops generalizing k with
  | nil => exact ⟨rfl, rfl, rfl⟩
  | cons o ops ih =>
    rw [List.foldl_cons]
    obtain ⟨a, b, c⟩ := ih (fun o ho => hf o (List.mem_cons_of_mem _ ho)) (k.step o)
    rw [a, b, c]
    have := hf o List.mem_cons_self
    cases o <;> first | exact ⟨rfl, rfl, rfl⟩ | exact this.elim

theorem mean_init (pi : ℚ) (hpi : pi ≠ 0) (om la z : ℝ) :
    meandtOf pi (Const.init pi) / ((Const.init pi).h : ℝ) * ((1 + z) ^ 2 / expansion om la z) =
      meanSignal pi (7 / 10) om la (44 / 1000) (2486 / 10000) z := by
  have hp : (pi : ℝ) ≠ 0 := by exact_mod_cast hpi
  unfold meandtOf meanSignal lambda0 a10 tStar protonMass Conversions.c Conversions.nu0
  simp only [Const.init, rhoCritOf, H0cgsOf, mpc, gGrav]
  push_cast
  rcases eq_or_ne (expansion om la z) 0 with h | h
  · rw [h]; simp
  · field_simp
    ring

/-- **C98 (part).**  As long as only the densities of matter and of dark energy, the spectral index and
sigma_8 have been set, `mean_dt` is the mean signal of the current cosmology. -/
theorem C98_partial (pi : ℚ) (hpi : pi ≠ 0) (ops : List ConstOp) (hf : ∀ o ∈ ops, Followed o) (z : ℝ) :
    let k := ops.foldl Const.step (Const.init pi)
    meanDt (meandtOf pi (Const.init pi)) k z =
      meanSignal pi k.h k.omega0 k.lam k.omegaB k.abuHeMass z := by
  intro k
  obtain ⟨a, b, c⟩ := run_keeps pi ops hf (Const.init pi)
  have e := mean_init pi hpi k.omega0 k.lam z
  rw [mean_eq, a, b, c, e]
  simp only [Const.init]
  push_cast
  rfl

example : meanDt (meandtOf 3 (Const.init 3)) ((Const.init 3).step (.omegaMatter (3 / 10))) 9 =
    meanSignal 3 ((7 / 10 : ℚ) : ℝ) ((3 / 10 : ℚ) : ℝ) ((1 - 3 / 10 : ℚ) : ℝ) ((44 / 1000 : ℚ) : ℝ)
      ((2486 / 10000 : ℚ) : ℝ) 9 :=
  C98_partial 3 (by norm_num) [.omegaMatter (3 / 10)] (by simp [Followed]) 9

theorem signal_ratio (pi : ℚ) (h om la ob y z : ℝ) (hh : h ≠ 0) :
    meanSignal pi h om la ob y z =
      h / (7 / 10) * (ob / (44 / 1000)) * ((1 - y) / (1 - 2486 / 10000)) *
        meanSignal pi (7 / 10) om la (44 / 1000) (2486 / 10000) z := by
  unfold meanSignal
  rcases eq_or_ne (expansion om la z) 0 with e | e
  · simp [e]
  rcases eq_or_ne (pi : ℝ) 0 with e' | e'
  · simp [e']
  field_simp

theorem signal_ne (pi : ℚ) (hpi : 0 < pi) {z : ℝ} (hz : -1 < z) :
    meanSignal pi (7 / 10) (Const.init pi).omega0 (Const.init pi).lam (44 / 1000) (2486 / 10000) z ≠ 0 := by
  have o : Open (Const.init pi) :=
    ⟨⟨by norm_num [Const.init], by norm_num [Const.init], by norm_num [Const.init]⟩,
      by norm_num [Const.init], by norm_num [Const.init]⟩
  have e := Real.sqrt_pos.mpr (expansion_pos o hz)
  have e : 0 < expansion (Const.init pi).omega0 (Const.init pi).lam z := e
  have hp : (0 : ℝ) < pi := by exact_mod_cast hpi
  have hu : 0 < 1 + z := by linarith
  unfold meanSignal
  have : (0 : ℝ) < 1 - 2486 / 10000 := by norm_num
  positivity

/-- **C98, the code disagrees.**  After `set_omega_baryon` or `set_abundance_helium` with another value
`mean_dt` is what it was, and after `set_hubble_h` it goes with `1/h` instead of with `h`, so that
it is not the mean signal of the current cosmology. -/
theorem C98_false (pi : ℚ) (hpi : 0 < pi) (z : ℝ) (hz : -1 < z) :
    let m := meandtOf pi (Const.init pi)
    let signal (k : Const) := meanSignal pi k.h k.omega0 k.lam k.omegaB k.abuHeMass z
    (∀ v : ℚ, meanDt m ((Const.init pi).step (.omegaBaryon v)) z = meanDt m (Const.init pi) z ∧
      (v ≠ 44 / 1000 → meanDt m ((Const.init pi).step (.omegaBaryon v)) z ≠
        signal ((Const.init pi).step (.omegaBaryon v)))) ∧
    (∀ v : ℚ, meanDt m ((Const.init pi).step (.helium v)) z = meanDt m (Const.init pi) z ∧
      (v ≠ 2486 / 10000 → meanDt m ((Const.init pi).step (.helium v)) z ≠
        signal ((Const.init pi).step (.helium v)))) ∧
    (∀ v : ℚ, 0 < v → v ≠ 7 / 10 → meanDt m ((Const.init pi).step (.hubble v)) z ≠
        signal ((Const.init pi).step (.hubble v))) := by
  intro m signal
  have hn := signal_ne pi hpi hz
  have e := mean_init pi hpi.ne' (Const.init pi).omega0 (Const.init pi).lam z
  set S := meanSignal pi (7 / 10) (Const.init pi).omega0 (Const.init pi).lam (44 / 1000) (2486 / 10000) z with hS
  have e0 : meanDt m (Const.init pi) z = S := by rw [mean_eq]; exact e
  have h07 : ((7 / 10 : ℚ) : ℝ) = 7 / 10 := by norm_num
  refine ⟨fun v => ⟨rfl, fun hv => ?_⟩, fun v => ⟨rfl, fun hv => ?_⟩, fun v hv hv7 => ?_⟩
  · change meanDt m (Const.init pi) z ≠ meanSignal pi ((7 / 10 : ℚ) : ℝ) _ _ (v : ℝ) ((2486 / 10000 : ℚ) : ℝ) z
    rw [signal_ratio pi _ _ _ _ _ _ (by norm_num)]
    have c1 : (((2486 / 10000 : ℚ)) : ℝ) = 2486 / 10000 := by norm_num
    rw [e0, h07, c1]
    change S ≠ _ * S
    intro h
    have h := mul_right_cancel₀ hn (h.symm.trans (one_mul S).symm)
    have : (v : ℝ) = 44 / 1000 := by
      norm_num at h
      linarith
    exact hv (by exact_mod_cast this.trans (by norm_num : (44 / 1000 : ℝ) = ((44 / 1000 : ℚ) : ℝ)))
  · change meanDt m (Const.init pi) z ≠ meanSignal pi ((7 / 10 : ℚ) : ℝ) _ _ ((44 / 1000 : ℚ) : ℝ) (v : ℝ) z
    rw [signal_ratio pi _ _ _ _ _ _ (by norm_num)]
    have c1 : (((44 / 1000 : ℚ)) : ℝ) = 44 / 1000 := by norm_num
    rw [e0, h07, c1]
    change S ≠ _ * S
    intro h
    have h := mul_right_cancel₀ hn (h.symm.trans (one_mul S).symm)
    have : (v : ℝ) = 2486 / 10000 := by
      norm_num at h
      linarith
    exact hv (by exact_mod_cast this.trans (by norm_num : (2486 / 10000 : ℝ) = ((2486 / 10000 : ℚ) : ℝ)))
  · have hv' : (0 : ℝ) < v := by exact_mod_cast hv
    have e1 : meanDt m ((Const.init pi).step (.hubble v)) z = (7 / 10) / v * S := by
      rw [mean_eq, ← e]
      change m / (v : ℝ) * _ = (7 / 10) / (v : ℝ) * (m / ((7 / 10 : ℚ) : ℝ) * _)
      rw [h07]
      change m / (v : ℝ) * ((1 + z) ^ 2 / expansion (Const.init pi).omega0 (Const.init pi).lam z) = _
      field_simp
    rw [e1]
    change _ ≠ meanSignal pi (v : ℝ) _ _ ((44 / 1000 : ℚ) : ℝ) ((2486 / 10000 : ℚ) : ℝ) z
    rw [signal_ratio pi _ _ _ _ _ _ hv'.ne']
    have c1 : (((44 / 1000 : ℚ)) : ℝ) = 44 / 1000 := by norm_num
    have c2 : (((2486 / 10000 : ℚ)) : ℝ) = 2486 / 10000 := by norm_num
    rw [c1, c2]
    change _ ≠ _ * S
    intro h
    have h := mul_right_cancel₀ hn h
    have h : (7 / 10 : ℝ) ^ 2 = v ^ 2 := by
      field_simp at h
      norm_num at h
      linarith
    have : (v : ℝ) = 7 / 10 := by
      have := (sq_eq_sq₀ (by norm_num) hv'.le).mp h
      exact this.symm
    exact hv7 (by exact_mod_cast this.trans h07.symm)

example : meanDt (meandtOf 3 (Const.init 3)) ((Const.init 3).step (.omegaBaryon (49 / 1000))) 8 ≠
    meanSignal 3 ((7 / 10 : ℚ) : ℝ) ((27 / 100 : ℚ) : ℝ) ((1 - 27 / 100 : ℚ) : ℝ) ((49 / 1000 : ℚ) : ℝ)
      ((2486 / 10000 : ℚ) : ℝ) 8 :=
  ((C98_false 3 (by norm_num) 8 (by norm_num)).1 (49 / 1000)).2 (by norm_num)

/-! ## C99: the signal of a cube -/

theorem fits_self (n : ℕ) : fits n n := .inl rfl

theorem clip_mem {s : Fin 3 → ℕ} {i : Fin 3 → ℤ} (hi : i ∈ box s) : clip s i = i := by
  funext j
  have h := (mem_box s i).mp hi j
  unfold clip
  split
  · next e => rw [e] at h; push_cast at h; omega
  · rfl

theorem broadcast_same (f : ℝ → ℝ → ℝ) (a b : Cube) (h : a.shape = b.shape) :
    broadcast f a b = .ok ⟨a.shape, fun i => f (a.val (clip a.shape i)) (b.val (clip a.shape i))⟩ := by
  unfold broadcast
  rw [if_pos (fun j => by rw [h]; exact fits_self _)]
  congr 2
  · funext j
    rw [h, ite_self]
  · rw [h]

theorem broadcast_single (f : ℝ → ℝ → ℝ) (c : ℝ) (b : Cube) :
    broadcast f (single c) b = .ok ⟨b.shape, fun i => f c (b.val (clip b.shape i))⟩ := by
  have h1 : ∀ j, (single c).shape j = 1 := by
    intro j
    match j with
    | 0 => rfl
    | 1 => rfl
    | 2 => rfl
  unfold broadcast
  rw [if_pos (fun j => .inr (.inl (h1 j)))]
  congr 2
  funext j
  rw [if_pos (h1 j)]

/-- What the signal of a cell is relative to: the mean density of baryons today for densities. -/
theorem dt_single (k : Const) (rho xi : Cube) (c : ℝ) (h : xi.shape = rho.shape)
    (hne : box rho.shape ≠ ∅) :
    ∃ out, dt k rho xi (single c) = .ok out ∧ out.shape = xi.shape ∧
      ∀ i ∈ box xi.shape, out.val i = c * (1 - xi.val i) * rho.val i / rhoMean k rho := by
  unfold dt
  rw [if_neg hne, broadcast_single]
  simp only []
  rw [broadcast_same _ _ _ (by exact h)]
  refine ⟨_, rfl, rfl, fun i hi => ?_⟩
  simp only [clip_mem hi]

theorem chooseZ_given (l : List Source) (z : ℚ) (hz : 0 ≤ z) : chooseZ l z = .ok z := by
  unfold chooseZ
  rw [if_neg (not_lt.mpr hz)]

/-- **C99 (part).**  For densities that are nowhere negative and a given redshift, `calc_dt` returns a
cube of the same shape.  The signal of a cell is the mean signal times its neutral fraction times its
density in units of the mean baryon density: it vanishes where the gas is ionised or absent, lies
between zero and that of neutral gas, and for neutral gas of the mean density it is the mean signal. -/
theorem C99_partial (meandt : ℝ) (k : Const) (a b : Source) (xi rho : Cube) (z : ℚ) (hz : 0 ≤ z)
    (hs : xi.shape = rho.shape) (hne : (box rho.shape).Nonempty) (hr : ∀ i ∈ box rho.shape, 0 ≤ rho.val i)
    (hk : 0 < k.rhoCrit0 * k.omegaB) (hm : 0 ≤ meanDt meandt k z) :
    ∃ out, calcDt meandt k a b xi rho z = .ok out ∧ out.shape = xi.shape ∧
      ∀ i ∈ box xi.shape,
        out.val i = meanDt meandt k z * (1 - xi.val i) * (rho.val i / (k.rhoCrit0 * k.omegaB)) ∧
        (xi.val i = 1 → out.val i = 0) ∧
        (rho.val i = 0 → out.val i = 0) ∧
        (0 ≤ xi.val i → xi.val i ≤ 1 →
          0 ≤ out.val i ∧ out.val i ≤ meanDt meandt k z * (rho.val i / (k.rhoCrit0 * k.omegaB))) ∧
        (xi.val i = 0 → rho.val i = k.rhoCrit0 * k.omegaB → out.val i = meanDt meandt k z) := by
  obtain ⟨out, h1, h2, h3⟩ := dt_single k rho xi (meanDt meandt k z) hs hne.ne_empty
  have hk' : (0 : ℝ) < k.rhoCrit0 * k.omegaB := by exact_mod_cast hk
  have hmean : rhoMean k rho = k.rhoCrit0 * k.omegaB := by
    unfold rhoMean
    rw [if_pos hr]
  refine ⟨out, ?_, h2, fun i hi => ?_⟩
  · unfold calcDt
    rw [chooseZ_given _ z hz]
    exact h1
  · have e : out.val i = meanDt meandt k z * (1 - xi.val i) * (rho.val i / (k.rhoCrit0 * k.omegaB)) := by
      rw [h3 i hi, hmean, mul_div_assoc]
    have hri : 0 ≤ rho.val i / (k.rhoCrit0 * k.omegaB) := div_nonneg (hr i (by rw [← hs]; exact hi)) hk'.le
    refine ⟨e, fun h => by rw [e, h]; ring, fun h => by rw [e, h]; ring, fun h0 h1 => ?_, fun h0 h1 => ?_⟩
    · rw [e]
      have : 0 ≤ 1 - xi.val i := by linarith
      refine ⟨by positivity, ?_⟩
      refine mul_le_mul_of_nonneg_right ?_ hri
      nlinarith
    · rw [e, h0, h1, div_self hk'.ne']
      ring

/-- **C99, average.**  If the densities average to the mean baryon density, the average signal is the
mean signal times the neutral fraction by mass. -/
theorem C99_average (meandt : ℝ) (k : Const) (a b : Source) (xi rho : Cube) (z : ℚ) (hz : 0 ≤ z)
    (hs : xi.shape = rho.shape) (hne : (box rho.shape).Nonempty) (hr : ∀ i ∈ box rho.shape, 0 ≤ rho.val i)
    (hk : 0 < k.rhoCrit0 * k.omegaB)
    (hmean : (∑ i ∈ box rho.shape, rho.val i) / (box rho.shape).card = k.rhoCrit0 * k.omegaB) :
    ∃ out, calcDt meandt k a b xi rho z = .ok out ∧
      (∑ i ∈ box xi.shape, out.val i) / (box xi.shape).card =
        meanDt meandt k z *
          ((∑ i ∈ box rho.shape, rho.val i * (1 - xi.val i)) / ∑ i ∈ box rho.shape, rho.val i) := by
  obtain ⟨out, h1, -, h3⟩ := dt_single k rho xi (meanDt meandt k z) hs hne.ne_empty
  refine ⟨out, ?_, ?_⟩
  · unfold calcDt
    rw [chooseZ_given _ z hz]
    exact h1
  · have hk' : (0 : ℝ) < k.rhoCrit0 * k.omegaB := by exact_mod_cast hk
    have hc : (0 : ℝ) < (box rho.shape).card := by exact_mod_cast hne.card_pos
    have hmean' : rhoMean k rho = k.rhoCrit0 * k.omegaB := by
      unfold rhoMean
      rw [if_pos hr]
    rw [Finset.sum_congr rfl h3, hmean', ← hmean, hs]
    have hsum : (∑ i ∈ box rho.shape, rho.val i) ≠ 0 := by
      intro h
      rw [h, zero_div] at hmean
      exact hk'.ne hmean
    rw [← Finset.sum_div, Finset.sum_congr rfl fun i _ =>
      show meanDt meandt k z * (1 - xi.val i) * rho.val i = meanDt meandt k z * (rho.val i * (1 - xi.val i)) by ring,
      ← Finset.mul_sum]
    field_simp

/-- The density and ionised fraction of a cube of eight cells. -/
noncomputable def eight (f : ℤ → ℝ) : Cube := ⟨![2, 2, 2], fun i => f (i 0 + 2 * i 1 + 4 * i 2)⟩

theorem eight_val (f : ℤ → ℝ) (x y z : ℤ) : (eight f).val ![x, y, z] = f (x + 2 * y + 4 * z) := rfl

theorem eight_ne (f : ℤ → ℝ) : (box (eight f).shape).Nonempty :=
  ⟨fun _ => 0, (mem_box _ _).mpr fun j => ⟨le_refl _, by
    match j with
    | 0 => exact (by decide : (0 : ℤ) < ((2 : ℕ) : ℤ))
    | 1 => exact (by decide : (0 : ℤ) < ((2 : ℕ) : ℤ))
    | 2 => exact (by decide : (0 : ℤ) < ((2 : ℕ) : ℤ))⟩⟩

theorem eight_mem (f : ℤ → ℝ) (x y z : ℤ) (hx : 0 ≤ x ∧ x < 2) (hy : 0 ≤ y ∧ y < 2) (hz : 0 ≤ z ∧ z < 2) :
    (![x, y, z] : Fin 3 → ℤ) ∈ box (eight f).shape := by
  rw [mem_box]
  intro j
  match j with
  | 0 => exact hx
  | 1 => exact hy
  | 2 => exact hz

theorem init_density : 0 < (Const.init 3).rhoCrit0 * (Const.init 3).omegaB := by
  norm_num [Const.init, rhoCritOf, H0cgsOf, mpc, gGrav]

example : ∃ out, calcDt 1 (Const.init 3) .array .array (eight fun n => if n = 3 then 1 else 1 / 2)
    (eight fun n => n) 8 = .ok out ∧ out.val ![1, 1, 0] = 0 ∧ 0 ≤ out.val ![1, 0, 0] := by
  have hm := (C98_grows 1 one_pos _ open_init).1 ((8 : ℚ) : ℝ) (by norm_num)
  obtain ⟨out, h1, -, h3⟩ := C99_partial 1 (Const.init 3) .array .array
    (eight fun n => if n = 3 then 1 else 1 / 2) (eight fun n => n) 8 (by norm_num) rfl (eight_ne _)
    (by
      intro i hi
      have h := (mem_box _ i).mp hi
      have h0 := (h 0).1
      have h1 := (h 1).1
      have h2 := (h 2).1
      have : 0 ≤ i 0 + 2 * i 1 + 4 * i 2 := by omega
      show (0 : ℝ) ≤ ((i 0 + 2 * i 1 + 4 * i 2 : ℤ) : ℝ)
      exact_mod_cast this) init_density hm.le
  refine ⟨out, h1, (h3 _ (eight_mem _ 1 1 0 (by decide) (by decide) (by decide))).2.1 ?_,
    ((h3 _ (eight_mem _ 1 0 0 (by decide) (by decide) (by decide))).2.2.2.1 ?_ ?_).1⟩ <;>
    norm_num [eight_val]

example : ∃ out, calcDt 1 (Const.init 3) .array .array (eight fun n => if n = 3 then 1 else 1 / 2)
    (eight fun _ => (Const.init 3).rhoCrit0 * (Const.init 3).omegaB) 8 = .ok out ∧
    (∑ i ∈ box ![2, 2, 2], out.val i) / (box ![2, 2, 2]).card = meanDt 1 (Const.init 3) ((8 : ℚ) : ℝ) *
      ((∑ i ∈ box ![2, 2, 2], ((Const.init 3).rhoCrit0 * (Const.init 3).omegaB) *
        (1 - (eight fun n => if n = 3 then 1 else 1 / 2).val i)) /
        ∑ i ∈ box ![2, 2, 2], ((Const.init 3).rhoCrit0 * (Const.init 3).omegaB : ℝ)) := by
  have h : (0 : ℝ) < (Const.init 3).rhoCrit0 * (Const.init 3).omegaB := by exact_mod_cast init_density
  refine C99_average 1 (Const.init 3) .array .array (eight fun n => if n = 3 then 1 else 1 / 2)
    (eight fun _ => (Const.init 3).rhoCrit0 * (Const.init 3).omegaB) 8 (by norm_num) rfl (eight_ne _)
    (fun _ _ => h.le) init_density ?_
  have hc : ((box (eight fun _ => ((Const.init 3).rhoCrit0 : ℝ) * (Const.init 3).omegaB).shape).card : ℝ) ≠ 0 := by
    exact_mod_cast (eight_ne _).card_pos.ne'
  rw [Finset.sum_congr rfl fun i _ => show (eight fun _ => ((Const.init 3).rhoCrit0 : ℝ) * (Const.init 3).omegaB).val i =
    (Const.init 3).rhoCrit0 * (Const.init 3).omegaB from rfl, Finset.sum_const, nsmul_eq_mul,
    mul_div_cancel_left₀ _ hc]

/-- **C99, the code disagrees.**  The signal of a cell depends on the densities of the other cells: as
soon as one is negative, all densities are taken to be relative to the mean. -/
theorem C99_false (meandt : ℝ) (k : Const) (a b : Source) (z : ℚ) (hz : 0 ≤ z) (hm : meanDt meandt k z ≠ 0)
    (hk : 0 < k.rhoCrit0 * k.omegaB) (hk1 : k.rhoCrit0 * k.omegaB ≠ 1) :
    ∃ xi rho rho' : Cube, ∃ i j out out', i ≠ j ∧ rho.shape = rho'.shape ∧
      (∀ i', i' ≠ j → rho.val i' = rho'.val i') ∧ 0 ≤ rho.val j ∧
      calcDt meandt k a b xi rho z = .ok out ∧ calcDt meandt k a b xi rho' z = .ok out' ∧
      i ∈ box xi.shape ∧ out.val i ≠ out'.val i := by
  let xi : Cube := eight fun _ => 0
  let rho : Cube := eight fun _ => 1
  let rho' : Cube := ⟨![2, 2, 2], fun i => if i = ![0, 0, 0] then -1 else 1⟩
  have hij : (![1, 0, 0] : Fin 3 → ℤ) ≠ ![0, 0, 0] := by decide
  obtain ⟨o, h1, -, h3⟩ := dt_single k rho xi (meanDt meandt k z) rfl (eight_ne _).ne_empty
  obtain ⟨o', h1', -, h3'⟩ := dt_single k rho' xi (meanDt meandt k z) rfl (eight_ne fun _ => 0).ne_empty
  have hi : (![1, 0, 0] : Fin 3 → ℤ) ∈ box xi.shape := eight_mem _ 1 0 0 (by decide) (by decide) (by decide)
  have hi0 : (![0, 0, 0] : Fin 3 → ℤ) ∈ box xi.shape := eight_mem _ 0 0 0 (by decide) (by decide) (by decide)
  refine ⟨xi, rho, rho', ![1, 0, 0], ![0, 0, 0], o, o', hij, rfl, ?_, ?_, ?_, ?_, hi, ?_⟩
  · intro i' h'
    show (1 : ℝ) = if i' = ![0, 0, 0] then -1 else 1
    rw [if_neg h']
  · show (0 : ℝ) ≤ 1
    exact zero_le_one
  · unfold calcDt
    rw [chooseZ_given _ z hz]
    exact h1
  · unfold calcDt
    rw [chooseZ_given _ z hz]
    exact h1'
  · rw [h3 _ hi, h3' _ hi]
    have e1 : rhoMean k rho = k.rhoCrit0 * k.omegaB := by
      unfold rhoMean
      exact if_pos fun i _ => zero_le_one
    have e2 : rhoMean k rho' = 1 := by
      unfold rhoMean
      refine if_neg fun h => ?_
      have := h _ hi0
      have : (0 : ℝ) ≤ if (![0, 0, 0] : Fin 3 → ℤ) = ![0, 0, 0] then -1 else 1 := this
      rw [if_pos rfl] at this
      linarith
    have e3 : rho'.val ![1, 0, 0] = 1 := by
      show (if (![1, 0, 0] : Fin 3 → ℤ) = ![0, 0, 0] then (-1 : ℝ) else 1) = 1
      exact if_neg hij
    have e4 : rho.val ![1, 0, 0] = 1 := rfl
    have e5 : xi.val ![1, 0, 0] = 0 := rfl
    rw [e1, e2, e3, e4, e5]
    have hk' : (0 : ℝ) < k.rhoCrit0 * k.omegaB := by exact_mod_cast hk
    have hk1' : (k.rhoCrit0 * k.omegaB : ℝ) ≠ 1 := by exact_mod_cast hk1
    intro h
    rw [sub_zero, mul_one, mul_one, div_one, div_eq_iff hk'.ne'] at h
    exact hk1' (mul_left_cancel₀ hm (h.symm.trans (mul_one _).symm))

example : ∃ xi rho rho' : Cube, ∃ i j out out', i ≠ j ∧ rho.shape = rho'.shape ∧
    (∀ i', i' ≠ j → rho.val i' = rho'.val i') ∧ 0 ≤ rho.val j ∧
    calcDt 1 (Const.init 3) .array .array xi rho 8 = .ok out ∧
    calcDt 1 (Const.init 3) .array .array xi rho' 8 = .ok out' ∧
    i ∈ box xi.shape ∧ out.val i ≠ out'.val i :=
  C99_false 1 (Const.init 3) .array .array 8 (by norm_num)
    ((C98_grows 1 one_pos _ open_init).1 _ (by norm_num)).ne' init_density
    (by norm_num [Const.init, rhoCritOf, H0cgsOf, mpc, gGrav])

/-- **C99, what negative values mean.**  If a value is negative, all are overdensities: the signal is the
mean signal times the neutral fraction times the value. -/
theorem C99_relative (meandt : ℝ) (k : Const) (a b : Source) (xi rho : Cube) (z : ℚ) (hz : 0 ≤ z)
    (hs : xi.shape = rho.shape) {j : Fin 3 → ℤ} (hj : j ∈ box rho.shape) (hr : rho.val j < 0) :
    ∃ out, calcDt meandt k a b xi rho z = .ok out ∧ out.shape = xi.shape ∧
      ∀ i ∈ box xi.shape, out.val i = meanDt meandt k z * (1 - xi.val i) * rho.val i := by
  obtain ⟨out, h1, h2, h3⟩ := dt_single k rho xi (meanDt meandt k z) hs (Finset.ne_empty_of_mem hj)
  refine ⟨out, ?_, h2, fun i hi => ?_⟩
  · unfold calcDt
    rw [chooseZ_given _ z hz]
    exact h1
  · rw [h3 i hi]
    have : rhoMean k rho = 1 := by
      unfold rhoMean
      exact if_neg fun h => absurd (h j hj) (not_le.mpr hr)
    rw [this, div_one]

example : ∃ out, calcDt 1 (Const.init 3) .array .array (eight fun _ => 0) (eight fun n => n - 1) 8 = .ok out ∧
    out.val ![0, 1, 0] = meanDt 1 (Const.init 3) 8 := by
  obtain ⟨out, h1, -, h3⟩ := C99_relative 1 (Const.init 3) .array .array (eight fun _ => 0)
    (eight fun n => n - 1) 8 (by norm_num) rfl (j := ![0, 0, 0])
    (eight_mem _ 0 0 0 (by decide) (by decide) (by decide)) (by norm_num [eight_val])
  refine ⟨out, h1, ?_⟩
  rw [h3 _ (eight_mem _ 0 1 0 (by decide) (by decide) (by decide))]
  norm_num [eight_val]

/-- **C99, shapes.**  Cubes with an axis along which both have several cells, but not equally many, are
refused; so are empty ones. -/
theorem C99_raises (meandt : ℝ) (k : Const) (a b : Source) (xi rho : Cube) (z : ℚ) (hz : 0 ≤ z)
    (h : box rho.shape = ∅ ∨ ∃ j, xi.shape j ≠ rho.shape j ∧ xi.shape j ≠ 1 ∧ rho.shape j ≠ 1) :
    calcDt meandt k a b xi rho z = .error .value := by
  unfold calcDt
  rw [chooseZ_given _ z hz]
  simp only [dt]
  by_cases hb : box rho.shape = ∅
  · rw [if_pos hb]
  · rw [if_neg hb, broadcast_single]
    simp only [broadcast]
    obtain ⟨j, h1, h2, h3⟩ := h.resolve_left hb
    rw [if_neg]
    intro hf
    rcases hf j with h | h | h
    · exact h1 h
    · exact h2 h
    · exact h3 h

example : calcDt 1 (Const.init 3) .array .array (eight fun _ => 0) ⟨![2, 3, 2], fun _ => 1⟩ 8 = .error .value :=
  C99_raises 1 _ _ _ _ _ 8 (by norm_num) (.inr ⟨1, by decide, by decide, by decide⟩)

/-! ## C100: the redshift -/

/-- **C100 (part).**  A redshift that is not negative is used whatever the names are.  Otherwise the
redshift found in the name of the file of ionised fractions is used, or, if there is none, that found in
the name of the file of densities; without either the call is refused. -/
theorem C100_partial (x d : List Char) (zx zd : ℚ) (hx : Helpers.redshiftFromFilename x = .ok zx)
    (hd : Helpers.redshiftFromFilename d = .ok zd) (z : ℚ) :
    chooseZ [.name x, .name d] z =
      if 0 ≤ z then .ok z else if 0 ≤ zx then .ok zx else if 0 ≤ zd then .ok zd else .error .exception := by
  unfold chooseZ
  by_cases h : z < 0
  · rw [if_pos h, if_neg (not_le.mpr h)]
    simp only [chooseZ.go, Source.redshift, hx, hd]
    by_cases h1 : zx < 0
    · rw [if_pos h1, if_neg (not_le.mpr h1)]
      by_cases h2 : zd < 0
      · rw [if_pos h2, if_neg (not_le.mpr h2)]
      · rw [if_neg h2, if_pos (not_lt.mp h2)]
    · rw [if_neg h1, if_pos (not_lt.mp h1)]
  · rw [if_neg h, if_pos (not_lt.mp h)]

/-- The same for three files, in the order ionised fractions, densities, temperatures. -/
theorem C100_full_partial (x d t : List Char) (zx zd zt : ℚ) (hx : Helpers.redshiftFromFilename x = .ok zx)
    (hd : Helpers.redshiftFromFilename d = .ok zd) (ht : Helpers.redshiftFromFilename t = .ok zt) (z : ℚ) :
    chooseZ [.name x, .name d, .name t] z =
      if 0 ≤ z then .ok z else if 0 ≤ zx then .ok zx else if 0 ≤ zd then .ok zd
        else if 0 ≤ zt then .ok zt else .error .exception := by
  unfold chooseZ
  by_cases h : z < 0
  · rw [if_pos h, if_neg (not_le.mpr h)]
    simp only [chooseZ.go, Source.redshift, hx, hd, ht]
    by_cases h1 : zx < 0
    · rw [if_pos h1, if_neg (not_le.mpr h1)]
      by_cases h2 : zd < 0
      · rw [if_pos h2, if_neg (not_le.mpr h2)]
        by_cases h3 : zt < 0
        · rw [if_pos h3, if_neg (not_le.mpr h3)]
        · rw [if_neg h3, if_pos (not_lt.mp h3)]
      · rw [if_neg h2, if_pos (not_lt.mp h2)]
    · rw [if_neg h1, if_pos (not_lt.mp h1)]
  · rw [if_neg h, if_pos (not_lt.mp h)]

example : chooseZ [.name "xfrac.bin".toList, .name "/data/8.515n_all.dat".toList] (-1) = .ok (8515 / 1000) := by
  decide +kernel

example : chooseZ [.name "xfrac.bin".toList, .name "dens.dat".toList, .name "temper3d_10.1.bin".toList] (-1) =
    .ok (101 / 10) := by
  decide +kernel

/-- **C100, the code disagrees.**  Without a redshift the call is refused with a type error unless the
ionised fractions are given by name, although the objects of the file classes know their redshift and
the densities may be given by name. -/
theorem C100_false (x : Source) (rest : List Source) (h : ∀ s, x ≠ .name s) (z : ℚ) (hz : z < 0) :
    chooseZ (x :: rest) z = .error .type := by
  unfold chooseZ
  rw [if_pos hz]
  match x with
  | .array => rfl
  | .object => rfl
  | .name s => exact absurd rfl (h s)

example : chooseZ [.object, .name "8.515n_all.dat".toList] (-1) = .error .type :=
  C100_false _ _ (by intro s h; cases h) _ (by norm_num)

/-- **C100, malformed names.**  If the first name has a number that cannot be read, such as two points in a row, the call
is refused with a value error. -/
theorem C100_raises (x : List Char) (rest : List Source) {e : String} (hx : Helpers.redshiftFromFilename x = .error e)
    (z : ℚ) (hz : z < 0) : chooseZ (.name x :: rest) z = .error .value := by
  unfold chooseZ
  rw [if_pos hz]
  simp only [chooseZ.go, Source.redshift, hx]

example : Helpers.redshiftFromFilename "xfrac_8.5.1.bin".toList = .error "ValueError" ∧ (-1 : ℚ) < 0 := by
  decide +kernel

/-- **C100, what follows.**  The cube made is the one for the redshift found. -/
theorem C100_uses (meandt : ℝ) (k : Const) (a b : Source) (xi rho : Cube) (z z' : ℚ)
    (h : chooseZ [a, b] z = .ok z') :
    calcDt meandt k a b xi rho z = calcDt meandt k a b xi rho z' ∧ 0 ≤ z' := by
  have h0 : 0 ≤ z' := by
    unfold chooseZ at h
    split at h
    · simp only [chooseZ.go] at h
      split at h
      · cases h
      · split at h
        · split at h
          · cases h
          · split at h
            · cases h
            · next hh => cases h; exact not_lt.mp hh
        · next hh => cases h; exact not_lt.mp hh
    · next hh => cases h; exact not_lt.mp hh
  unfold calcDt
  rw [h, chooseZ_given _ z' h0]
  exact ⟨rfl, h0⟩

example : calcDt 1 (Const.init 3) (.name "xfrac3d_9.5.bin".toList) .array (eight fun _ => 0) (eight fun _ => 1) (-1) =
    calcDt 1 (Const.init 3) (.name "xfrac3d_9.5.bin".toList) .array (eight fun _ => 0) (eight fun _ => 1) (19 / 2) :=
  (C100_uses 1 _ _ _ _ _ _ _ (by decide +kernel)).1

end Verif.Temperature

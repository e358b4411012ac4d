import Verif.Model.CrossSpectrum
import Verif.Model.PowerCylinder
import Verif.Lemmas.DFT
import Mathlib.Data.List.FinRange
import Mathlib.Data.List.GetD
import Mathlib.Algebra.BigOperators.Group.Finset.Basic
import Mathlib.Data.Fin.VecNotation
import Mathlib.Tactic.NormNum
/-!
# C255: a box may be turned before its spectrum is taken

The axes of an array are exchanged together with the sides of the box and the line of sight.
-/

namespace Verif.TurnedSpectra
open Verif.Convolve Verif.PowerSpectrum Verif.CrossSpectrum

variable {d : ℕ}

/-! ## Specification -/

/-- `b` is the array `a` with its axes exchanged: axis `j` of `b` is axis `σ j` of `a`. -/
def Turned (σ : Equiv.Perm (Fin d)) (a b : Arr (Fin d) ℝ) : Prop :=
  (∀ j, b.shape j = a.shape (σ j)) ∧ ∀ x, b.val (fun j => x (σ j)) = a.val x

/-- The sides of the box, in one of the documented forms. -/
inductive Box (d : ℕ)
  | current
  | cube (side : ℝ)
  | sides (L : Fin d → ℝ)

/-- The argument `box_dims`. -/
def Box.dims : Box d → Dims
  | .current => .none
  | .cube x => .number x
  | .sides L => .list (List.ofFn L)

/-- The turned box. -/
def Box.turned (σ : Equiv.Perm (Fin d)) : Box d → Box d
  | .current => .current
  | .cube x => .cube x
  | .sides L => .sides fun j => L (σ j)

/-! ## Proofs -/

/-- The index in the turned array. -/
def turn (σ : Equiv.Perm (Fin d)) : (Fin d → ℤ) ≃ (Fin d → ℤ) where
  toFun x j := x (σ j)
  invFun x j := x (σ.symm j)
  left_inv x := by funext j; simp
  right_inv x := by funext j; simp

theorem mem_turn {σ : Equiv.Perm (Fin d)} {s s' : Fin d → ℕ} (h : ∀ j, s' j = s (σ j)) (x : Fin d → ℤ) :
    x ∈ box s ↔ turn σ x ∈ box s' := by
  rw [mem_box, mem_box]
  constructor
  · intro hx j
    rw [h]
    exact hx (σ j)
  · intro hx j
    have := hx (σ.symm j)
    rw [h] at this
    simpa [turn] using this

theorem sum_turn {M : Type} [AddCommMonoid M] {σ : Equiv.Perm (Fin d)} {s s' : Fin d → ℕ} (h : ∀ j, s' j = s (σ j))
    (f g : (Fin d → ℤ) → M) (hf : ∀ x, g (turn σ x) = f x) : ∑ x ∈ box s', g x = ∑ x ∈ box s, f x :=
  (Finset.sum_equiv (turn σ) (fun x => mem_turn h x) fun x _ => (hf x).symm).symm

theorem fftn_turn {σ : Equiv.Perm (Fin d)} {a b : Arr (Fin d) ℝ} (h : Turned σ a b) (k : Fin d → ℤ) :
    fftn b.shape (fun x => (b.val x : ℂ)) (turn σ k) = fftn a.shape (fun x => (a.val x : ℂ)) k := by
  unfold fftn
  refine sum_turn h.1 _ _ fun x => ?_
  have e1 : b.val (turn σ x) = a.val x := h.2 x
  have e2 : ∑ i, ((turn σ k i : ℤ) : ℂ) * ((turn σ x i : ℤ) : ℂ) / b.shape i = ∑ i, (k i : ℂ) * x i / a.shape i := by
    rw [← Equiv.sum_comp σ fun i => (k i : ℂ) * x i / a.shape i]
    refine Finset.sum_congr rfl fun i _ => ?_
    rw [h.1]
    rfl
  simp only [e1, e2]

theorem shift_turn {α : Type} {σ : Equiv.Perm (Fin d)} {s s' : Fin d → ℕ} (h : ∀ j, s' j = s (σ j)) (f g : (Fin d → ℤ) → α)
    (hf : ∀ x, g (turn σ x) = f x) (i : Fin d → ℤ) : shift s' g (turn σ i) = shift s f i := by
  unfold shift
  rw [← hf]
  congr 1
  funext j
  simp only [md, turn, Equiv.coe_fn_mk, h]

/-- The sides of the box and those of the turned box. -/
structure Sides (σ : Equiv.Perm (Fin d)) (L L' : List ℝ) : Prop where
  length : L.length = d
  perm : L'.Perm L
  get : ∀ j : Fin d, L'.getD j 0 = L.getD (σ j) 0

theorem getD_ofFn (L : Fin d → ℝ) (j : Fin d) : (List.ofFn L).getD j 0 = L j := by
  rw [List.getD_eq_getElem _ _ (by simp)]
  simp

theorem sides_list (σ : Equiv.Perm (Fin d)) (L : Fin d → ℝ) : Sides σ (List.ofFn L) (List.ofFn fun j => L (σ j)) :=
  ⟨by simp, σ.ofFn_comp_perm L, fun j => by rw [getD_ofFn, getD_ofFn]⟩

theorem sides_replicate (σ : Equiv.Perm (Fin d)) (x : ℝ) : Sides σ (List.replicate d x) (List.replicate d x) :=
  ⟨by simp, List.Perm.refl _, fun j => by
    rw [List.getD_eq_getElem _ _ (by simp), List.getD_eq_getElem _ _ (by simp)]
    simp⟩

theorem dims_turned (LB : ℝ) (σ : Equiv.Perm (Fin d)) (B : Box d) :
    ∃ L L', getDims LB d B.dims = .ok L ∧ getDims LB d (B.turned σ).dims = .ok L' ∧ Sides σ L L' := by
  cases B with
  | current => exact ⟨_, _, rfl, rfl, sides_replicate σ LB⟩
  | cube x => exact ⟨_, _, rfl, rfl, sides_replicate σ x⟩
  | sides L => exact ⟨_, _, rfl, rfl, sides_list σ L⟩

variable {σ : Equiv.Perm (Fin d)} {L L' : List ℝ} {s s' : Fin d → ℕ}

theorem scale_turn (hL : Sides σ L L') (h : ∀ j, s' j = s (σ j)) : scale s' L' = scale s L := by
  unfold scale
  have e : ∏ j, (s' j : ℝ) = ∏ j, (s j : ℝ) := by
    rw [← Equiv.prod_comp σ fun j => (s j : ℝ)]
    exact Finset.prod_congr rfl fun j _ => by rw [h]
  rw [hL.perm.prod_eq, e]

theorem power_turn (hL : Sides σ L L') {a b : Arr (Fin d) ℝ} (h : Turned σ a b) (i : Fin d → ℤ) :
    (powerNd L' b).val (turn σ i) = (powerNd L a).val i := by
  simp only [powerNd]
  rw [scale_turn hL h.1, shift_turn h.1 _ _ (fftn_turn h)]

theorem kComp_turn (hL : Sides σ L L') (h : ∀ j, s' j = s (σ j)) (j : Fin d) (i : Fin d → ℤ) :
    kComp s' L' j (turn σ i) = kComp s L (σ j) i := by
  unfold kComp
  rw [hL.get, h]
  rfl

theorem kMag_turn (hL : Sides σ L L') (h : ∀ j, s' j = s (σ j)) (i : Fin d → ℤ) :
    kMag s' L' (turn σ i) = kMag s L i := by
  unfold kMag
  simp only [kComp_turn hL h]
  rw [Equiv.sum_comp σ (fun j => kComp s L j i), Equiv.sum_comp σ (fun j => kComp s L j i ^ 2)]

theorem image_turn {α : Type} [DecidableEq α] (h : ∀ j, s' j = s (σ j)) (f g : (Fin d → ℤ) → α)
    (hf : ∀ x, g (turn σ x) = f x) : (box s').image g = (box s).image f := by
  ext y
  simp only [Finset.mem_image]
  constructor
  · rintro ⟨x, hx, rfl⟩
    refine ⟨(turn σ).symm x, (mem_turn h _).2 (by simpa using hx), ?_⟩
    rw [← hf]
    simp
  · rintro ⟨x, hx, rfl⟩
    exact ⟨turn σ x, (mem_turn h _).1 hx, hf x⟩

theorem kMax_turn (hL : Sides σ L L') (h : ∀ j, s' j = s (σ j)) : kMax s' L' = kMax s L := by
  unfold kMax
  rw [image_turn h _ _ (kMag_turn hL h)]

theorem min_perm {L L' : List ℝ} (h : L'.Perm L) : L'.min? = L.min? := by
  cases hm : L.min? with
  | none =>
    rw [List.min?_eq_none_iff] at hm ⊢
    subst hm
    exact h.eq_nil
  | some m =>
    rw [List.min?_eq_some_iff] at hm ⊢
    exact ⟨h.mem_iff.2 hm.1, fun b hb => hm.2 b (h.mem_iff.1 hb)⟩

theorem getKbins_turn (hL : Sides σ L L') (h : ∀ j, s' j = s (σ j)) (kb : KBins) (bi : Binning) (bp : ℝ) :
    getKbins s' L' kb bi bp = getKbins s L kb bi bp := by
  unfold getKbins
  rw [kMax_turn hL h, min_perm hL.perm]

theorem card_turn (h : ∀ j, s' j = s (σ j)) (p q : (Fin d → ℤ) → Prop) [DecidablePred p] [DecidablePred q] (hp : ∀ x, q (turn σ x) ↔ p x) :
    ((box s').filter q).card = ((box s).filter p).card := by
  refine (Finset.card_equiv (turn σ) fun x => ?_).symm
  rw [Finset.mem_filter, Finset.mem_filter, ← mem_turn h, hp]

theorem sum_filter_turn (h : ∀ j, s' j = s (σ j)) (p q : (Fin d → ℤ) → Prop) [DecidablePred p] [DecidablePred q] (hp : ∀ x, q (turn σ x) ↔ p x)
    (f g : (Fin d → ℤ) → ℝ) (hf : ∀ x, g (turn σ x) = f x) :
    ∑ x ∈ (box s').filter q, g x = ∑ x ∈ (box s).filter p, f x := by
  refine (Finset.sum_equiv (turn σ) (fun x => ?_) fun x _ => (hf x).symm).symm
  rw [Finset.mem_filter, Finset.mem_filter, ← mem_turn h, hp]

theorem nModes_turn (h : ∀ j, s' j = s (σ j)) (k k' : (Fin d → ℤ) → ℝ) (hk : ∀ x, k' (turn σ x) = k x) (e : List ℝ) :
    nModes s' k' e = nModes s k e := by
  classical
  funext b
  unfold nModes
  exact card_turn h _ _ fun x => by rw [hk]

theorem average_turn (h : ∀ j, s' j = s (σ j)) (k k' v v' : (Fin d → ℤ) → ℝ) (hk : ∀ x, k' (turn σ x) = k x)
    (hv : ∀ x, v' (turn σ x) = v x) (e : List ℝ) : average s' k' v' e = average s k v e := by
  classical
  funext b
  unfold average
  rw [nModes_turn h k k' hk, sum_filter_turn h (fun i => inBin e b (k i)) (fun i => inBin e b (k' i)) (fun x => by rw [hk]) v v' hv]

theorem radial_turn (hL : Sides σ L L') {p p' : Arr (Fin d) ℝ} (h : ∀ j, p'.shape j = p.shape (σ j))
    (hv : ∀ x, p'.val (turn σ x) = p.val x) (kb : KBins) (bi : Binning) (bp : ℝ) :
    radialAverage p' (.list L') kb bi bp = radialAverage p (.list L) kb bi bp := by
  classical
  unfold radialAverage
  by_cases hd : d = 1 ∨ d = 2 ∨ d = 3
  · have hl : L'.length = d := hL.perm.length_eq.trans hL.length
    simp only [getK, if_pos hd, boxOf, hl, hL.length, le_refl, if_true]
    rw [getKbins_turn hL h]
    simp only [nModes_turn h _ _ (kMag_turn hL h), average_turn h _ _ _ _ (kMag_turn hL h) hv]
  · simp only [getK, if_neg hd]

/-! ### Line of sight -/

section
variable {σ : Equiv.Perm (Fin 3)} {L L' : List ℝ} {s s' : Fin 3 → ℕ} {los los' : Fin 3}

theorem muAt_turn (hL : Sides σ L L') (h : ∀ j, s' j = s (σ j)) (hl : σ los' = los) (ab : Bool) (i : Fin 3 → ℤ) :
    muAt s' L' los' ab (turn σ i) = muAt s L los ab i := by
  unfold muAt
  rw [kMag_turn hL h, kComp_turn hL h, hl]

theorem nonzero_turn (h : ∀ j, s' j = s (σ j)) (hl : σ los' = los) (i : Fin 3 → ℤ) :
    nonzeroIdx s' los' (turn σ i) ↔ nonzeroIdx s los i := by
  unfold nonzeroIdx
  refine not_congr ⟨fun H j hj => ?_, fun H j hj => ?_⟩
  · have := H (σ.symm j) (fun e => hj (by rw [← hl, ← e, Equiv.apply_symm_apply]))
    rw [h, Equiv.apply_symm_apply] at this
    simpa [turn] using this
  · rw [h]
    exact H (σ j) fun e => hj (σ.injective (e.trans hl.symm))

theorem selected_turn (hL : Sides σ L L') (h : ∀ j, s' j = s (σ j)) (hl : σ los' = los) (ab ex : Bool) (em ek : List ℝ) (mb kb : ℕ)
    (i : Fin 3 → ℤ) : selected s' L' los' ab ex em ek mb kb (turn σ i) ↔ selected s L los ab ex em ek mb kb i := by
  unfold selected
  rw [kMag_turn hL h, muAt_turn hL h hl, nonzero_turn h hl]

theorem muModes_turn (hL : Sides σ L L') (h : ∀ j, s' j = s (σ j)) (hl : σ los' = los) (ab ex : Bool) (em ek : List ℝ) (mb : ℕ) :
    muModes s' L' los' ab ex em ek mb = muModes s L los ab ex em ek mb := by
  classical
  funext kb
  unfold muModes
  exact card_turn h _ _ fun i => selected_turn hL h hl ab ex em ek mb kb i

theorem muAverage_turn (hL : Sides σ L L') {p p' : Arr (Fin 3) ℝ} (h : ∀ j, p'.shape j = p.shape (σ j))
    (hv : ∀ x, p'.val (turn σ x) = p.val x) (hl : σ los' = los) (ab ex : Bool) (em ek : List ℝ) (mb : ℕ) :
    muAverage p' L' los' ab ex em ek mb = muAverage p L los ab ex em ek mb := by
  classical
  funext kb
  unfold muAverage
  simp only []
  rw [muModes_turn hL h hl]
  rw [sum_filter_turn h _ _ (fun i => selected_turn hL h hl ab ex em ek mb kb i)]
  intro x
  have e : (turn σ x = fun j => ((p'.shape j / 2 : ℕ) : ℤ)) ↔ x = fun j => ((p.shape j / 2 : ℕ) : ℤ) := by
    constructor
    · intro hx
      funext j
      have := congrFun hx (σ.symm j)
      rw [h, Equiv.apply_symm_apply] at this
      simpa [turn] using this
    · rintro rfl
      funext j
      rw [h]
      rfl
  rw [hv]
  by_cases hx : x = fun j => ((p.shape j / 2 : ℕ) : ℤ)
  · rw [if_pos hx, if_pos (e.2 hx)]
  · rw [if_neg hx, if_neg (mt e.1 hx)]

theorem muBinning_turn (hL : Sides σ L L') {p p' : Arr (Fin 3) ℝ} (h : ∀ j, p'.shape j = p.shape (σ j))
    (hv : ∀ x, p'.val (turn σ x) = p.val x) (hl : σ los' = los) (mub : MuBins) (kb : KBins) (w : Weights) (ex ab : Bool)
    (bi : Binning) :
    muBinning p' ((los' : ℕ) : ℤ) mub kb (.list L') w ex bi ab = muBinning p ((los : ℕ) : ℤ) mub kb (.list L) w ex bi ab := by
  classical
  have hlen : L'.length = 3 := hL.perm.length_eq.trans hL.length
  have r : ∀ l : Fin 3, 0 ≤ ((l : ℕ) : ℤ) ∧ ((l : ℕ) : ℤ) < 3 := fun l => ⟨by omega, by have := l.2; omega⟩
  have c : ∀ l : Fin 3, (⟨((l : ℕ) : ℤ).toNat, by have := l.2; omega⟩ : Fin 3) = l := fun l => by ext; simp
  unfold muBinning
  simp only [getK, boxOf, hlen, hL.length, le_refl, if_true, or_true, dif_pos (r los'), dif_pos (r los), c]
  rw [getKbins_turn hL h]
  simp only [muModes_turn hL h hl, muAverage_turn hL h hv hl]

/-! ### Cylinders -/

theorem kPar_turn (hL : Sides σ L L') (h : ∀ j, s' j = s (σ j)) (hl : σ los' = los) (i : Fin 3 → ℤ) :
    kPar s' L' los' (turn σ i) = kPar s L los i := by
  unfold kPar
  rw [kComp_turn hL h, hl]

theorem kPerp_turn (hL : Sides σ L L') (h : ∀ j, s' j = s (σ j)) (hl : σ los' = los) (i : Fin 3 → ℤ) :
    kPerp s' L' los' (turn σ i) = kPerp s L los i := by
  unfold kPerp
  congr 1
  refine Finset.sum_equiv σ (fun j => ?_) fun j _ => by rw [kComp_turn hL h]
  simp only [Finset.mem_erase, Finset.mem_univ, and_true]
  rw [← hl, σ.injective.ne_iff]

theorem edges2_turn (h : ∀ j, s' j = s (σ j)) (f g : (Fin 3 → ℤ) → ℝ) (hf : ∀ x, g (turn σ x) = f x) (n : ℕ) (bi : Binning) :
    edges2 s' g n bi = edges2 s f n bi := by
  classical
  have e : ((box s').filter fun i => g i ≠ 0).image g = ((box s).filter fun i => f i ≠ 0).image f := by
    ext y
    simp only [Finset.mem_image, Finset.mem_filter]
    constructor
    · rintro ⟨x, ⟨hx, hn⟩, rfl⟩
      have e : f ((turn σ).symm x) = g x := by rw [← hf]; simp
      exact ⟨(turn σ).symm x, ⟨(mem_turn h _).2 (by simpa using hx), by rw [e]; exact hn⟩, e⟩
    · rintro ⟨x, ⟨hx, hn⟩, rfl⟩
      exact ⟨turn σ x, ⟨(mem_turn h _).1 hx, by rw [hf]; exact hn⟩, hf x⟩
  unfold edges2
  rw [image_turn h f g hf, e]

theorem within_turn (hL : Sides σ L L') (h : ∀ j, s' j = s (σ j)) (hl : σ los' = los) (log : Bool) (e e' : List ℝ) (b b' : ℕ)
    (i : Fin 3 → ℤ) :
    (inBin2 e b (coordinate log (kPerp s' L' los' (turn σ i))) ∧ inBin2 e' b' (coordinate log (kPar s' L' los' (turn σ i)))) ↔
      (inBin2 e b (coordinate log (kPerp s L los i)) ∧ inBin2 e' b' (coordinate log (kPar s L los i))) := by
  rw [kPar_turn hL h hl, kPerp_turn hL h hl]

theorem cylModes_turn (hL : Sides σ L L') (h : ∀ j, s' j = s (σ j)) (hl : σ los' = los) (log : Bool) (e e' : List ℝ) (b : ℕ) :
    cylModes s' L' los' log e e' b = cylModes s L los log e e' b := by
  classical
  funext b'
  unfold cylModes
  exact card_turn h (fun i => inBin2 e b (coordinate log (kPerp s L los i)) ∧
      inBin2 e' b' (coordinate log (kPar s L los i))) (fun i => inBin2 e b (coordinate log (kPerp s' L' los' i)) ∧
      inBin2 e' b' (coordinate log (kPar s' L' los' i))) fun i => within_turn hL h hl log e e' b b' i

theorem cylAverage_turn (hL : Sides σ L L') {p p' : Arr (Fin 3) ℝ} (h : ∀ j, p'.shape j = p.shape (σ j))
    (hv : ∀ x, p'.val (turn σ x) = p.val x) (hl : σ los' = los) (log : Bool) (e e' : List ℝ) (b : ℕ) :
    cylAverage p' L' los' log e e' b = cylAverage p L los log e e' b := by
  classical
  funext b'
  unfold cylAverage
  rw [cylModes_turn hL h hl]
  rw [sum_filter_turn h (fun i => inBin2 e b (coordinate log (kPerp p.shape L los i)) ∧
      inBin2 e' b' (coordinate log (kPar p.shape L los i))) (fun i => inBin2 e b (coordinate log (kPerp p'.shape L' los' i)) ∧
      inBin2 e' b' (coordinate log (kPar p'.shape L' los' i))) (fun i => within_turn hL h hl log e e' b b' i) _ _ hv]

theorem cylinder_turn (hL : Sides σ L L') {p p' : Arr (Fin 3) ℝ} (h : ∀ j, p'.shape j = p.shape (σ j))
    (hv : ∀ x, p'.val (turn σ x) = p.val x) (hl : σ los' = los) (log : Bool) (e e' : List ℝ) :
    cylinder p' L' los' log e e' = cylinder p L los log e e' := by
  classical
  unfold cylinder
  simp only [cylModes_turn hL h hl, cylAverage_turn hL h hv hl]

end

/-! ## Theorems -/

/-- C255 for `power_spectrum_1d`, in one to three dimensions. -/
theorem C255_radial (LB : ℝ) (σ : Equiv.Perm (Fin d)) (a b : Arr (Fin d) ℝ) (h : Turned σ a b) (B : Box d) (kb : KBins)
    (bi : Binning) (bp : ℝ) : power1d LB b (B.turned σ).dims kb bi bp = power1d LB a B.dims kb bi bp := by
  obtain ⟨L, L', e, e', hL⟩ := dims_turned LB σ B
  unfold power1d
  rw [e, e']
  exact radial_turn hL (p := powerNd L a) (p' := powerNd L' b) h.1 (power_turn hL h) kb bi bp

/-- C255 for `cross_power_spectrum_1d`, both arrays being turned. -/
theorem C255_cross (LB : ℝ) (σ : Equiv.Perm (Fin d)) (a b a' b' : Arr (Fin d) ℝ) (h : Turned σ a b) (h' : Turned σ a' b') (B : Box d)
    (kb : KBins) (bi : Binning) (bp : ℝ) :
    cross1d LB b b' (B.turned σ).dims kb bi bp = cross1d LB a a' B.dims kb bi bp := by
  obtain ⟨L, L', e, e', hL⟩ := dims_turned LB σ B
  unfold cross1d
  rw [e, e']
  simp only []
  have hs : b.shape = b'.shape ↔ a.shape = a'.shape := by
    constructor
    · intro hb
      funext j
      have := congrFun hb (σ.symm j)
      rwa [h.1, h'.1, Equiv.apply_symm_apply] at this
    · intro ha
      funext j
      rw [h.1, h'.1, ha]
  unfold crossNd
  by_cases hc : a.shape = a'.shape
  · rw [if_pos hc, if_pos (hs.2 hc)]
    simp only []
    apply radial_turn hL
    · exact h.1
    intro x
    simp only []
    rw [scale_turn hL h.1, shift_turn h.1 _ _ (fftn_turn h), shift_turn h'.1 _ _ (fftn_turn h')]
  · rw [if_neg hc, if_neg (mt hs.1 hc)]

/-- C255 for `power_spectrum_mu`: the line of sight is turned as well. -/
theorem C255_mu (LB : ℝ) (σ : Equiv.Perm (Fin 3)) (a b : Arr (Fin 3) ℝ) (h : Turned σ a b) (B : Box 3) (los los' : Fin 3)
    (hl : σ los' = los) (mub : MuBins) (kb : KBins) (w : Weights) (ex ab : Bool) :
    powerMu LB b ((los' : ℕ) : ℤ) mub kb (B.turned σ).dims w ex ab = powerMu LB a ((los : ℕ) : ℤ) mub kb B.dims w ex ab := by
  obtain ⟨L, L', e, e', hL⟩ := dims_turned LB σ B
  unfold powerMu
  rw [e, e']
  exact muBinning_turn hL (p := powerNd L a) (p' := powerNd L' b) h.1 (power_turn hL h) hl mub kb w ex ab .log

/-- C255 for `power_spectrum_2d` without a window. -/
theorem C255_cylinder (LB : ℝ) (σ : Equiv.Perm (Fin 3)) (a b : Arr (Fin 3) ℝ) (h : Turned σ a b) (B : Box 3) (los los' : Fin 3)
    (hl : σ los' = los) (kb : KBins2) (bi : Binning) :
    power2d LB b kb bi (B.turned σ).dims ((los' : ℕ) : ℤ) = power2d LB a kb bi B.dims ((los : ℕ) : ℤ) := by
  obtain ⟨L, L', e, e', hL⟩ := dims_turned LB σ B
  have hlen : L'.length = 3 := hL.perm.length_eq.trans hL.length
  have r : ∀ l : Fin 3, 0 ≤ ((l : ℕ) : ℤ) ∧ ((l : ℕ) : ℤ) < 3 := fun l => ⟨by omega, by have := l.2; omega⟩
  have c : ∀ l : Fin 3, (⟨((l : ℕ) : ℤ).toNat, by have := l.2; omega⟩ : Fin 3) = l := fun l => by ext; simp
  unfold power2d
  rw [e, e']
  simp only [getK, boxOf, hlen, hL.length, le_refl, if_true, or_true, dif_pos (r los'), dif_pos (r los), c]
  simp only [edges2_turn h.1 _ _ (kPerp_turn hL h.1 hl), edges2_turn h.1 _ _ (kPar_turn hL h.1 hl),
    cylinder_turn hL (p := powerNd L a) (p' := powerNd L' b) h.1 (power_turn hL h) hl]

/-- A box of 2×3×4 cells whose last axis becomes the first. -/
example : Turned (finRotate 3).symm ⟨![2, 3, 4], fun x => (x 0 : ℝ) + 10 * x 1 + 100 * x 2⟩
    ⟨![4, 2, 3], fun x => (x 1 : ℝ) + 10 * x 2 + 100 * x 0⟩ ∧ (finRotate 3).symm 0 = 2 :=
  ⟨⟨by decide, fun _ => rfl⟩, by decide⟩

/-- With a window C255 fails: the taper runs along the last axis, wherever the line of sight is (`nu_axis` is not given to
`apply_window`).  For every taper that is not constant there is a cube that is not turned any more after the tapers. -/
theorem C255_window_false (harris tukey : ℕ → ℤ → ℝ) (n : ℕ) (x y : ℤ) (hw : harris n x ≠ harris n y) :
    ∃ (σ : Equiv.Perm (Fin 3)) (a b a' b' : Arr (Fin 3) ℝ), (∀ j, a.shape j = n) ∧ Turned σ a b ∧
      applyWindow harris tukey true a .blackmanharris = .ok a' ∧ applyWindow harris tukey true b .blackmanharris = .ok b' ∧
      ¬ Turned σ a' b' := by
  have e : ∀ a : Arr (Fin 3) ℝ, applyWindow harris tukey true a .blackmanharris =
      .ok ⟨a.shape, fun x => a.val x * harris (a.shape 2) (x 2)⟩ := by
    intro a
    rfl
  refine ⟨Equiv.swap 0 2, ⟨fun _ => n, fun _ => 1⟩, ⟨fun _ => n, fun _ => 1⟩, _, _, fun _ => rfl, ⟨fun _ => rfl, fun _ => rfl⟩, e _, e _,
    fun h => hw ?_⟩
  have := h.2 ![x, 0, y]
  simpa [Equiv.swap_apply_right] using this

/-- A taper of three cells. -/
example : (fun (_ : ℕ) (i : ℤ) => if i = 1 then (1 : ℝ) else 0) 3 1 ≠ (fun (_ : ℕ) (i : ℤ) => if i = 1 then (1 : ℝ) else 0) 3 0 := by
  norm_num

end Verif.TurnedSpectra

import Verif.Model.FieldLike
import Verif.Props.RandomField
import Verif.Props.Multipoles
/-!
# Fields made after a given field (C141, C142)
-/

namespace Verif.FieldLike
open Verif.Convolve Verif.PowerSpectrum Verif.RandomField Verif.Multipoles MeasureTheory ProbabilityTheory

variable {Ω : Type} [MeasurableSpace Ω] {μ : Measure Ω} [IsProbabilityMeasure μ]

/-! ## The interpolation -/

theorem line_low : ∀ {l : List (ℝ × ℝ)} {x : ℝ}, (∀ p ∈ l, x < p.1) → line l x = 0
  | [], _, _ => rfl
  | [p], x, h => by
    unfold line
    rw [if_neg (h p (by simp)).ne]
  | p :: q :: l, x, h => by
    unfold line
    rw [if_pos (h p (by simp))]

theorem line_high : ∀ {l : List (ℝ × ℝ)} {x : ℝ}, (∀ p ∈ l, p.1 < x) → line l x = 0
  | [], _, _ => rfl
  | [p], x, h => by
    unfold line
    rw [if_neg (h p (by simp)).ne']
  | p :: q :: l, x, h => by
    unfold line
    rw [if_neg (not_lt.2 (h p (by simp)).le), if_neg (not_le.2 (h q (by simp)))]
    exact line_high fun r hr => h r (List.mem_cons_of_mem _ hr)

theorem line_between : ∀ {l₁ l₂ : List (ℝ × ℝ)} {p q : ℝ × ℝ} {x : ℝ},
    (l₁ ++ p :: q :: l₂).Pairwise (fun a b => a.1 < b.1) → p.1 ≤ x → x ≤ q.1 →
    line (l₁ ++ p :: q :: l₂) x = chord p.1 p.2 q.1 q.2 x
  | [], l₂, p, q, x, h, h1, h2 => by
    have hpq : p.1 < q.1 := (List.pairwise_cons.1 h).1 q (by simp)
    have : q.1 - p.1 ≠ 0 := by linarith
    show line (p :: q :: l₂) x = _
    unfold line
    rw [if_neg (not_lt.2 h1), if_pos h2]
    unfold chord
    field_simp
    ring
  | [a], l₂, p, q, x, h, h1, h2 => by
    have hap : a.1 < p.1 := (List.pairwise_cons.1 h).1 p (by simp)
    have ih := line_between (l₁ := []) (List.pairwise_cons.1 h).2 h1 h2
    show line (a :: p :: q :: l₂) x = _
    unfold line
    rw [if_neg (not_lt.2 (by linarith))]
    by_cases hx : x ≤ p.1
    · have hxp : x = p.1 := le_antisymm hx h1
      have hpq : p.1 < q.1 := (List.pairwise_cons.1 (List.pairwise_cons.1 h).2).1 q (by simp)
      have d1 : p.1 - a.1 ≠ 0 := by linarith
      have d2 : q.1 - p.1 ≠ 0 := by linarith
      rw [if_pos hx, hxp]
      unfold chord
      field_simp
      ring
    · rw [if_neg hx]
      exact ih
  | a :: b :: l₁, l₂, p, q, x, h, h1, h2 => by
    have hab : a.1 < p.1 := (List.pairwise_cons.1 h).1 p (by simp)
    have hbp : b.1 < p.1 := (List.pairwise_cons.1 (List.pairwise_cons.1 h).2).1 p (by simp)
    have ih := line_between (l₁ := b :: l₁) (List.pairwise_cons.1 h).2 h1 h2
    show line (a :: b :: (l₁ ++ p :: q :: l₂)) x = _
    unfold line
    rw [if_neg (not_lt.2 (by linarith)), if_neg (not_le.2 (by linarith))]
    exact ih

theorem line_nonneg : ∀ {l : List (ℝ × ℝ)}, (l.Pairwise fun a b => a.1 < b.1) → (∀ p ∈ l, 0 ≤ p.2) → ∀ x, 0 ≤ line l x
  | [], _, _, _ => le_rfl
  | [p], _, h, x => by
    unfold line
    split_ifs
    · exact h p (by simp)
    · exact le_rfl
  | p :: q :: l, hs, h, x => by
    unfold line
    split_ifs with h1 h2
    · exact le_rfl
    · have hp := h p (by simp)
      have hq := h q (by simp)
      have hpq : p.1 < q.1 := (List.pairwise_cons.1 hs).1 q (by simp)
      have e : p.2 + (q.2 - p.2) / (q.1 - p.1) * (x - p.1) =
          ((q.1 - x) * p.2 + (x - p.1) * q.2) / (q.1 - p.1) := by
        have : q.1 - p.1 ≠ 0 := by linarith
        field_simp
        ring
      rw [e]
      exact div_nonneg (add_nonneg (mul_nonneg (by linarith) hp) (mul_nonneg (by linarith [not_lt.1 h1]) hq))
        (by linarith)
    · exact line_nonneg (List.pairwise_cons.1 hs).2 (fun r hr => h r (List.mem_cons_of_mem _ hr)) x

/-! ## The points -/

/-- Specification: bin `b` of a spectrum holds modes, has this centre and this power. -/
structure Holds (r : Radial) (b : ℕ) (k y : ℝ) : Prop where
  centre : r.bins[b]? = some k
  power : r.data[b]? = some (some y)
  modes : ∃ m, r.modes[b]? = some m ∧ m ≠ 0

/-- The value of a bin, as it enters the interpolation. -/
noncomputable def value (p : ℝ × (Option ℝ × ℕ)) : Option (ℝ × ℝ) :=
  if 0 < p.2.2 then p.2.1.map fun y => (p.1, y) else none

theorem zip3_get (r : Radial) (b : ℕ) (p : ℝ × (Option ℝ × ℕ)) :
    (r.bins.zip (r.data.zip r.modes))[b]? = some p ↔
      r.bins[b]? = some p.1 ∧ r.data[b]? = some p.2.1 ∧ r.modes[b]? = some p.2.2 := by
  rw [List.getElem?_zip_eq_some, List.getElem?_zip_eq_some]

theorem value_holds {r : Radial} {b : ℕ} {p : ℝ × (Option ℝ × ℕ)} {k y : ℝ}
    (hp : (r.bins.zip (r.data.zip r.modes))[b]? = some p) (hv : value p = some (k, y)) : Holds r b k y := by
  obtain ⟨h1, h2, h3⟩ := (zip3_get r b p).1 hp
  unfold value at hv
  by_cases h : 0 < p.2.2
  · rw [if_pos h, Option.map_eq_some_iff] at hv
    obtain ⟨y', e1, e2⟩ := hv
    cases e2
    exact ⟨h1, by rw [h2, e1], _, h3, h.ne'⟩
  · rw [if_neg h] at hv
    cases hv

theorem holds_value {r : Radial} {b : ℕ} {k y : ℝ} (h : Holds r b k y) :
    ∃ p, (r.bins.zip (r.data.zip r.modes))[b]? = some p ∧ value p = some (k, y) := by
  obtain ⟨m, hm, h0⟩ := h.modes
  refine ⟨(k, some y, m), (zip3_get r b _).2 ⟨h.centre, h.power, hm⟩, ?_⟩
  unfold value
  rw [if_pos (Nat.pos_of_ne_zero h0)]
  rfl

theorem mem_points {r : Radial} {p : ℝ × ℝ} (hp : p ∈ points r) : ∃ b, Holds r b p.1 p.2 := by
  obtain ⟨z, hz, e⟩ := List.mem_filterMap.1 hp
  obtain ⟨b, hb⟩ := List.mem_iff_getElem?.1 hz
  exact ⟨b, value_holds hb e⟩

theorem points_mem {r : Radial} {b : ℕ} {k y : ℝ} (h : Holds r b k y) : (k, y) ∈ points r := by
  obtain ⟨p, hp, hv⟩ := holds_value h
  exact List.mem_filterMap.2 ⟨p, List.mem_of_getElem? hp, hv⟩

theorem points_sorted {r : Radial} (h : r.bins.Pairwise (· < ·)) : (points r).Pairwise fun a b => a.1 < b.1 := by
  unfold points
  rw [List.pairwise_filterMap]
  rw [List.pairwise_iff_getElem]
  intro i j hi hj hij p hp q hq
  have hp' := value_holds (p := (r.bins.zip (r.data.zip r.modes))[i]) (b := i) (List.getElem?_eq_getElem hi) hp
  have hq' := value_holds (p := (r.bins.zip (r.data.zip r.modes))[j]) (b := j) (List.getElem?_eq_getElem hj) hq
  obtain ⟨i1, e1⟩ := List.getElem?_eq_some_iff.1 hp'.centre
  obtain ⟨j1, e2⟩ := List.getElem?_eq_some_iff.1 hq'.centre
  rw [← e1, ← e2]
  exact List.pairwise_iff_getElem.1 h i j i1 j1 hij

/-- Neighbouring bins with modes are neighbours in the list of points. -/
theorem points_split {r : Radial} {b c : ℕ} (hbc : b < c) {k₀ y₀ k₁ y₁ : ℝ} (h₀ : Holds r b k₀ y₀)
    (h₁ : Holds r c k₁ y₁) (hm : ∀ m k y, b < m → m < c → ¬ Holds r m k y) :
    ∃ l₁ l₂, points r = l₁ ++ (k₀, y₀) :: (k₁, y₁) :: l₂ := by
  obtain ⟨p, hp, hpv⟩ := holds_value h₀
  obtain ⟨q, hq, hqv⟩ := holds_value h₁
  obtain ⟨hbl, hpe⟩ := List.getElem?_eq_some_iff.1 hp
  obtain ⟨hcl, hqe⟩ := List.getElem?_eq_some_iff.1 hq
  set l := r.bins.zip (r.data.zip r.modes) with hl
  have e1 : l = l.take b ++ p :: ((l.drop (b + 1)).take (c - b - 1) ++ q :: l.drop (c + 1)) := by
    conv_lhs => rw [← List.take_append_drop b l, List.drop_eq_getElem_cons hbl, hpe]
    congr 2
    conv_lhs => rw [← List.take_append_drop (c - b - 1) (l.drop (b + 1)), List.drop_drop]
    congr 1
    rw [show b + 1 + (c - b - 1) = c by omega, List.drop_eq_getElem_cons hcl, hqe]
  have e2 : ((l.drop (b + 1)).take (c - b - 1)).filterMap value = [] := by
    rw [List.filterMap_eq_nil_iff]
    intro z hz
    obtain ⟨m, hm1⟩ := List.mem_iff_getElem?.1 hz
    have hmlt : m < c - b - 1 := by
      by_contra hc
      rw [List.getElem?_take, if_neg hc] at hm1
      cases hm1
    rw [List.getElem?_take, if_pos hmlt, List.getElem?_drop] at hm1
    cases hv : value z with
    | none => rfl
    | some w =>
      exact absurd (value_holds (r := r) hm1 hv) (hm (b + 1 + m) _ _ (by omega) (by omega))
  refine ⟨(l.take b).filterMap value, (l.drop (c + 1)).filterMap value, ?_⟩
  show l.filterMap value = _
  conv_lhs => rw [e1]
  rw [List.filterMap_append, List.filterMap_cons_some hpv, List.filterMap_append, e2, List.filterMap_cons_some hqv]
  rfl

/-- A measured power is not negative. -/
theorem power_nonneg {d : ℕ} {LB : ℝ} {f : Arr (Fin d) ℝ} {dims : Dims} {kbins : KBins} {L : List ℝ}
    (hL : getDims LB d dims = .ok L) (hpos : ∀ x ∈ L, 0 < x) {r : Radial}
    (hr : power1d LB f dims kbins .log (1 / 10) = .ok r) {b : ℕ} {y : ℝ} (hy : r.data[b]? = some (some y)) : 0 ≤ y := by
  classical
  unfold power1d at hr
  rw [hL] at hr
  simp only [] at hr
  unfold radialAverage at hr
  cases h1 : getK d (.list L) with
  | error e => rw [h1] at hr; cases hr
  | ok L' =>
    rw [h1] at hr
    simp only [] at hr
    cases h2 : getKbins (powerNd L f).shape L' kbins .log (1 / 10) with
    | error e => rw [h2] at hr; cases hr
    | ok e =>
      rw [h2] at hr
      simp only [] at hr
      split_ifs at hr
      cases hr
      rw [List.getElem?_map] at hy
      obtain ⟨j, -, hj⟩ := Option.map_eq_some_iff.1 hy
      unfold PowerSpectrum.average at hj
      split_ifs at hj
      cases hj
      refine div_nonneg (Finset.sum_nonneg fun i _ => ?_) (by positivity)
      exact C93_nonneg L (List.prod_pos hpos) f i

/-! ## C141 -/

/-- **C141 (part).** In three dimensions with even numbers of cells: on average every mode of the field made after `f` has the power
measured in `f`, interpolated linearly between the centres of the neighbouring bins that hold modes, and none outside of
them. -/
theorem C141_partial (LB : ℝ) (f : Arr (Fin 3) ℝ) (hs : ∀ j, 0 < f.shape j) (he : ∀ j, f.shape j % 2 = 0) (dims : Dims)
    {L : List ℝ} (hL : getDims LB 3 dims = .ok L) (hlen : L.length = 3) (hpos : ∀ x ∈ L, 0 < x) (kbins : KBins) {r : Radial}
    (hr : power1d LB f dims kbins .log (1 / 10) = .ok r) (hsort : r.bins.Pairwise (· < ·))
    (htwo : ∃ b c k₀ y₀ k₁ y₁, b < c ∧ Holds r b k₀ y₀ ∧ Holds r c k₁ y₁)
    {a b : Ω → (Fin 3 → ℤ) → ℝ} (h : Normal μ f.shape a b) :
    ∃ kmin, Least f.shape L kmin ∧ ∃ field : Ω → Arr (Fin 3) ℝ,
      (∀ ω, fieldLike LB (a ω) (b ω) f dims kbins = .ok (field ω) ∧ (field ω).shape = f.shape) ∧
      ∀ i ∈ box f.shape,
        (∀ b c k₀ y₀ k₁ y₁, b < c → Holds r b k₀ y₀ → Holds r c k₁ y₁ → (∀ m k y, b < m → m < c → ¬ Holds r m k y) →
          k₀ ≤ requested f.shape L kmin i → requested f.shape L kmin i ≤ k₁ →
          ∫ ω, (powerNd L (field ω)).val i ∂μ = chord k₀ y₀ k₁ y₁ (requested f.shape L kmin i)) ∧
        ((∀ b k y, Holds r b k y → requested f.shape L kmin i < k) ∨
            (∀ b k y, Holds r b k y → k < requested f.shape L kmin i) →
          ∫ ω, (powerNd L (field ω)).val i ∂μ = 0) := by
  have hsorted := points_sorted hsort
  have hP : ∀ x, 0 ≤ line (points r) x := line_nonneg hsorted fun p hp => by
    obtain ⟨b, hb⟩ := mem_points hp
    exact power_nonneg hL hpos hr hb.power
  obtain ⟨kmin, h1, field, h2, h3⟩ := C104_partial LB f.shape hs he dims hL hlen hpos (line (points r)) hP h
  have hlong : ¬ (points r).length < 2 := by
    obtain ⟨b, c, k₀, y₀, k₁, y₁, hbc, g0, g1⟩ := htwo
    have m0 := points_mem g0
    have m1 := points_mem g1
    have hne : k₀ < k₁ := by
      obtain ⟨i1, e1⟩ := List.getElem?_eq_some_iff.1 g0.centre
      obtain ⟨j1, e2⟩ := List.getElem?_eq_some_iff.1 g1.centre
      rw [← e1, ← e2]
      exact List.pairwise_iff_getElem.1 hsort b c i1 j1 hbc
    rcases hp : points r with _ | ⟨p, _ | ⟨q, l⟩⟩
    · rw [hp] at m0; simp at m0
    · rw [hp, List.mem_singleton] at m0 m1
      rw [← m0] at m1
      cases m1
      exact absurd hne (lt_irrefl _)
    · simp
  refine ⟨kmin, h1, field, fun ω => ⟨?_, (h2 ω).2⟩, fun i hi => ⟨?_, ?_⟩⟩
  · unfold fieldLike psFunc
    rw [hr]
    simp only []
    rw [if_neg hlong]
    exact (h2 ω).1
  · intro b c k₀ y₀ k₁ y₁ hbc g0 g1 hm x0 x1
    obtain ⟨l₁, l₂, hl⟩ := points_split hbc g0 g1 hm
    rw [h3 i hi, hl]
    rw [hl] at hsorted
    exact line_between hsorted x0 x1
  · intro hx
    rw [h3 i hi]
    rcases hx with hx | hx
    · exact line_low fun p hp => by obtain ⟨b, hb⟩ := mem_points hp; exact hx b _ _ hb
    · exact line_high fun p hp => by obtain ⟨b, hb⟩ := mem_points hp; exact hx b _ _ hb

/-! ### Automatic bins -/

theorem linspace_strict {a b : ℝ} (h : a < b) {n : ℕ} (hn : 1 ≤ n) : (linspace a b n).Pairwise (· < ·) := by
  unfold linspace
  rw [List.pairwise_map]
  refine List.pairwise_lt_range.imp fun {i j} hij => ?_
  have h1 : (i : ℝ) < j := by exact_mod_cast hij
  have h2 : 0 < (b - a) / n := div_pos (by linarith) (by positivity)
  nlinarith

theorem logspace_strict {a b : ℝ} (h0 : 0 < a) (h : a < b) {n : ℕ} (hn : 1 ≤ n) : (logspace a b n).Pairwise (· < ·) := by
  unfold logspace
  rw [List.pairwise_map]
  refine (linspace_strict (Real.logb_lt_logb (by norm_num) h0 h) hn).imp fun {x y} hxy => ?_
  exact Real.rpow_lt_rpow_of_exponent_lt (by norm_num) hxy

theorem strict_getD {e : List ℝ} (h : e.Pairwise (· < ·)) {i j : ℕ} (hij : i < j) (hj : j < e.length) :
    e.getD i 0 < e.getD j 0 := by
  rw [List.getD_eq_getElem _ _ hj, List.getD_eq_getElem _ _ (by omega)]
  exact List.pairwise_iff_getElem.1 h i j (by omega) hj hij

theorem centres_strict {e : List ℝ} (h : e.Pairwise (· < ·)) : (centres e).Pairwise (· < ·) := by
  unfold centres
  rw [List.pairwise_map, List.pairwise_iff_getElem]
  intro i j hi hj hij
  rw [List.length_range] at hi hj
  simp only [List.getElem_range]
  have h1 := strict_getD h hij (by omega)
  have h2 := strict_getD h (show i + 1 < j + 1 by omega) (by omega)
  linarith

theorem centres_above {e : List ℝ} (h : e.Pairwise (· < ·)) {b : ℕ} {k : ℝ} (hk : (centres e)[b]? = some k) :
    e.getD 0 0 < k := by
  unfold centres at hk
  rw [List.getElem?_map] at hk
  obtain ⟨j, hj, rfl⟩ := Option.map_eq_some_iff.1 hk
  obtain ⟨hb, rfl⟩ := List.getElem?_eq_some_iff.1 hj
  rw [List.length_range] at hb
  rw [List.getElem_range]
  have h1 := strict_getD h (Nat.lt_succ_self b) (by omega)
  have h2 : e.getD 0 0 ≤ e.getD b 0 := by
    rcases Nat.eq_zero_or_pos b with rfl | hb0
    · exact le_rfl
    · exact (strict_getD h hb0 (by omega)).le
  have h3 : e.getD b 0 < e.getD (b + 1) 0 := h1
  linarith

/-- The wave numbers of a cube with `2 * m` cells along each side `l`. -/
theorem wave_cube (m : ℕ) {l : ℝ} (hl : 0 < l) (i : Fin 3 → ℤ) :
    waveNumber (fun _ => 2 * m) [l, l, l] i =
      2 * Real.pi / l * Real.sqrt (((i 0 : ℝ) - m) ^ 2 + ((i 1 : ℝ) - m) ^ 2 + ((i 2 : ℝ) - m) ^ 2) := by
  unfold waveNumber
  have hp : 0 ≤ 2 * Real.pi / l := by positivity
  rw [Fin.sum_univ_three]
  have e0 : [l, l, l].getD ((0 : Fin 3) : ℕ) 0 = l := rfl
  have e1 : [l, l, l].getD ((1 : Fin 3) : ℕ) 0 = l := rfl
  have e2 : [l, l, l].getD ((2 : Fin 3) : ℕ) 0 = l := rfl
  rw [e0, e1, e2, show 2 * m / 2 = m by omega]
  conv_rhs => rw [← Real.sqrt_sq hp, ← Real.sqrt_mul (sq_nonneg _)]
  congr 1
  field_simp

/-- The spectrum of a cube in automatic bins. -/
theorem power1d_cube (LB : ℝ) (m : ℕ) (hm : 0 < m) {l : ℝ} (hl : 0 < l) (f : (Fin 3 → ℤ) → ℝ) (n : ℕ) (hn : 1 ≤ n) :
    ∃ kmax, 2 * Real.pi / l < kmax ∧ (∃ i ∈ box (fun _ : Fin 3 => 2 * m), waveNumber (fun _ => 2 * m) [l, l, l] i = kmax) ∧
      (∀ i ∈ box (fun _ : Fin 3 => 2 * m), waveNumber (fun _ => 2 * m) [l, l, l] i ≤ kmax) ∧
      power1d LB ⟨fun _ => 2 * m, f⟩ (.number l) (.int n) .log (1 / 10) =
        .ok { data := (List.range n).map (PowerSpectrum.average (fun _ : Fin 3 => 2 * m) (kMag (fun _ => 2 * m) [l, l, l])
                (powerNd [l, l, l] ⟨fun _ => 2 * m, f⟩).val (logspace (2 * Real.pi / l) kmax n))
              bins := centres (logspace (2 * Real.pi / l) kmax n)
              modes := (List.range n).map
                (nModes (fun _ : Fin 3 => 2 * m) (kMag (fun _ => 2 * m) [l, l, l]) (logspace (2 * Real.pi / l) kmax n)) } := by
  have hk : ∀ i, kMag (fun _ : Fin 3 => 2 * m) [l, l, l] i = waveNumber (fun _ => 2 * m) [l, l, l] i :=
    fun i => (C50_wavenumber _ _ (.inl rfl) i).1 (by norm_num)
  obtain ⟨kmax, h1, ⟨i, hi, h2⟩, h3⟩ := kMax_ok (fun _ : Fin 3 => 2 * m) [l, l, l] (fun _ => by omega)
  have h0 : (fun _ => (0 : ℤ)) ∈ box (fun _ : Fin 3 => 2 * m) := (mem_box _ _).mpr fun j => ⟨le_refl _, by
    have : 0 < 2 * m := by omega
    exact_mod_cast this⟩
  have hgt : 2 * Real.pi / l < kmax := by
    refine lt_of_lt_of_le ?_ (h3 _ h0)
    rw [hk, wave_cube m hl]
    have hm1 : (1 : ℝ) ≤ m := by exact_mod_cast hm
    have hp : 0 < 2 * Real.pi / l := by positivity
    have : 1 < Real.sqrt ((((0 : ℤ) : ℝ) - m) ^ 2 + (((0 : ℤ) : ℝ) - m) ^ 2 + (((0 : ℤ) : ℝ) - m) ^ 2) := by
      rw [Real.lt_sqrt (by norm_num)]
      push_cast
      nlinarith
    exact lt_mul_of_one_lt_right hp this
  have hfun : 2 * Real.pi / (([l, l, l] : List ℝ).min?.getD 0) = 2 * Real.pi / l := by
    simp [List.min?]
  refine ⟨kmax, hgt, ⟨i, hi, by rw [← hk, h2]⟩, fun i hi => by rw [← hk]; exact h3 i hi, ?_⟩
  unfold power1d getDims
  simp only [show List.replicate 3 l = [l, l, l] from rfl]
  have hs := logspace_sorted (show 0 < 2 * Real.pi / l by positivity) hgt.le n
  have hgk : getK 3 (.list [l, l, l]) = .ok [l, l, l] := by simp [getK, boxOf]
  have hgb : getKbins (powerNd [l, l, l] (⟨fun _ => 2 * m, f⟩ : Arr (Fin 3) ℝ)).shape [l, l, l] (.int n) .log (1 / 10) =
      .ok (logspace (2 * Real.pi / l) kmax n) := by
    unfold getKbins
    simp only [powerNd, h1, edges, hfun]
  unfold radialAverage
  rw [hgk]
  simp only []
  rw [hgb]
  simp only []
  rw [if_pos hs, logspace_length, Nat.add_sub_cancel]
  rfl

/-- **C141 is false for the largest scales**: in a cube with any even number of cells the modes with the smallest wave number
that is not zero have no power in the field that is made, whatever power they have in the given field. -/
theorem C141_false (LB : ℝ) (m : ℕ) (hm : 0 < m) {l : ℝ} (hl : 0 < l) (f : (Fin 3 → ℤ) → ℝ) (n : ℕ) (hn : 1 ≤ n) {r : Radial}
    (hr : power1d LB ⟨fun _ => 2 * m, f⟩ (.number l) (.int n) .log (1 / 10) = .ok r)
    (htwo : ∃ b c k₀ y₀ k₁ y₁, b < c ∧ Holds r b k₀ y₀ ∧ Holds r c k₁ y₁)
    {a b : Ω → (Fin 3 → ℤ) → ℝ} (h : Normal μ (fun _ => 2 * m) a b) :
    ∃ field : Ω → Arr (Fin 3) ℝ,
      (∀ ω, fieldLike LB (a ω) (b ω) ⟨fun _ => 2 * m, f⟩ (.number l) (.int n) = .ok (field ω)) ∧
      ∀ i ∈ box (fun _ : Fin 3 => 2 * m), waveNumber (fun _ => 2 * m) [l, l, l] i = 2 * Real.pi / l →
        ∫ ω, (powerNd [l, l, l] (field ω)).val i ∂μ = 0 := by
  obtain ⟨kmax, h1, -, -, h2⟩ := power1d_cube LB m hm hl f n hn
  rw [hr] at h2
  cases h2
  have hp : 0 < 2 * Real.pi / l := by positivity
  have hstrict := logspace_strict hp h1 hn
  obtain ⟨kmin, g1, field, g2, g3⟩ := C141_partial LB ⟨fun _ => 2 * m, f⟩ (fun _ => by show 0 < 2 * m; omega)
    (fun _ => by show 2 * m % 2 = 0; omega) (.number l) (L := [l, l, l]) rfl rfl (by simpa using hl) (.int n) hr
    (centres_strict hstrict) htwo h
  refine ⟨field, fun ω => (g2 ω).1, fun i hi hw => (g3 i hi).2 (Or.inl ?_)⟩
  intro b k y hb
  unfold requested
  rw [if_neg (by rw [hw]; exact hp.ne'), hw]
  have := centres_above hstrict hb.centre
  have e : (logspace (2 * Real.pi / l) kmax n).getD 0 0 = 2 * Real.pi / l := logspace_first kmax hp n
  rw [e] at this
  exact this

theorem modes_pos {d : ℕ} {s : Fin d → ℕ} {k : (Fin d → ℤ) → ℝ} {e : List ℝ} {b : ℕ} {i : Fin d → ℤ} (hi : i ∈ box s)
    (h : inBin e b (k i)) : nModes s k e b ≠ 0 := by
  classical
  unfold nModes
  refine Finset.card_ne_zero_of_mem (a := i) ?_
  rw [Finset.mem_filter]
  exact ⟨hi, h⟩

/-- A field that is one in one cell of eight: it has power at the smallest wave number, and the spectrum in two bins can be
interpolated. -/
noncomputable def peak (x : Fin 3 → ℤ) : ℝ := if x = fun _ => 0 then 1 else 0

theorem peak_power (l : ℝ) (hl : 0 < l) (i : Fin 3 → ℤ) : 0 < (powerNd [l, l, l] ⟨fun _ => 2 * 1, peak⟩).val i := by
  have h0 : (fun _ => (0 : ℤ)) ∈ box (fun _ : Fin 3 => 2 * 1) := (mem_box _ _).mpr fun j => ⟨le_refl _, by norm_num⟩
  have e : ∀ k, fftn (fun _ : Fin 3 => 2 * 1) (fun x => (peak x : ℂ)) k = 1 := by
    intro k
    unfold fftn
    rw [Finset.sum_eq_single (fun _ => 0)]
    · simp [peak]
    · intro x _ hx
      simp [peak, hx]
    · intro h
      exact absurd h0 h
  unfold powerNd
  simp only [shift, e]
  have := scale_pos (s := fun _ : Fin 3 => 2 * 1) (fun _ => by norm_num) (L := [l, l, l]) (by simpa using hl)
  simpa using this

theorem peak_bins (LB l : ℝ) (hl : 0 < l) : ∃ r, power1d LB ⟨fun _ => 2 * 1, peak⟩ (.number l) (.int 2) .log (1 / 10) = .ok r ∧
    ∃ b c k₀ y₀ k₁ y₁, b < c ∧ Holds r b k₀ y₀ ∧ Holds r c k₁ y₁ := by
  obtain ⟨kmax, h1, ⟨i, hi, h2⟩, h3, h4⟩ := power1d_cube LB 1 one_pos hl peak 2 (by norm_num)
  have hk : ∀ i, kMag (fun _ : Fin 3 => 2 * 1) [l, l, l] i = waveNumber (fun _ => 2 * 1) [l, l, l] i :=
    fun i => (C50_wavenumber _ _ (.inl rfl) i).1 (by norm_num)
  have hp : 0 < 2 * Real.pi / l := by positivity
  have hstrict := logspace_strict hp h1 (show 1 ≤ 2 by norm_num)
  have hlen := logspace_length (2 * Real.pi / l) kmax 2
  have e0 : (logspace (2 * Real.pi / l) kmax 2).getD 0 0 = 2 * Real.pi / l := logspace_first kmax hp 2
  have e2 : (logspace (2 * Real.pi / l) kmax 2).getD 2 0 = kmax := logspace_last _ (hp.trans h1) (by norm_num)
  have l01 := strict_getD hstrict (show 0 < 1 by norm_num) (by omega)
  have l12 := strict_getD hstrict (show 1 < 2 by norm_num) (by omega)
  have hj : (![0, 1, 1] : Fin 3 → ℤ) ∈ box (fun _ : Fin 3 => 2 * 1) := (mem_box _ _).mpr fun j => by
    match j with
    | 0 => exact ⟨by decide, by decide⟩
    | 1 => exact ⟨by decide, by decide⟩
    | 2 => exact ⟨by decide, by decide⟩
  have hw : waveNumber (fun _ : Fin 3 => 2 * 1) [l, l, l] ![0, 1, 1] = 2 * Real.pi / l := by
    rw [wave_cube 1 hl, show (![0, 1, 1] : Fin 3 → ℤ) 0 = 0 from rfl, show (![0, 1, 1] : Fin 3 → ℤ) 1 = 1 from rfl,
      show (![0, 1, 1] : Fin 3 → ℤ) 2 = 1 from rfl]
    norm_num
  have m0 : nModes (fun _ : Fin 3 => 2 * 1) (kMag (fun _ => 2 * 1) [l, l, l]) (logspace (2 * Real.pi / l) kmax 2) 0 ≠ 0 := by
    refine modes_pos hj ?_
    rw [hk, hw]
    exact ⟨e0.le, Or.inl (by rw [e0] at l01; exact l01)⟩
  have m1 : nModes (fun _ : Fin 3 => 2 * 1) (kMag (fun _ => 2 * 1) [l, l, l]) (logspace (2 * Real.pi / l) kmax 2) 1 ≠ 0 := by
    refine modes_pos hi ?_
    rw [hk, h2]
    exact ⟨by rw [e2] at l12; exact l12.le, Or.inr ⟨by rw [hlen], e2.symm⟩⟩
  have key : ∀ b, b < 2 → nModes (fun _ : Fin 3 => 2 * 1) (kMag (fun _ => 2 * 1) [l, l, l])
      (logspace (2 * Real.pi / l) kmax 2) b ≠ 0 → ∀ r, power1d LB ⟨fun _ => 2 * 1, peak⟩ (.number l) (.int 2) .log (1 / 10) = .ok r →
      ∃ k y, Holds r b k y := by
    intro b hb hm r hr
    rw [h4] at hr
    cases hr
    have c1 : ∃ k, (centres (logspace (2 * Real.pi / l) kmax 2))[b]? = some k := by
      refine ⟨_, List.getElem?_eq_getElem ?_⟩
      unfold centres
      rw [List.length_map, List.length_range, hlen]
      omega
    have c2 : ∃ y, ((List.range 2).map (PowerSpectrum.average (fun _ : Fin 3 => 2 * 1) (kMag (fun _ => 2 * 1) [l, l, l])
        (powerNd [l, l, l] ⟨fun _ => 2 * 1, peak⟩).val (logspace (2 * Real.pi / l) kmax 2)))[b]? = some (some y) := by
      rw [List.getElem?_map, List.getElem?_range hb, Option.map_some]
      unfold PowerSpectrum.average
      rw [if_neg hm]
      exact ⟨_, rfl⟩
    obtain ⟨k, hk'⟩ := c1
    obtain ⟨y, hy⟩ := c2
    refine ⟨k, y, hk', hy, _, ?_, hm⟩
    rw [List.getElem?_map, List.getElem?_range hb]
    rfl
  obtain ⟨k₀, y₀, g0⟩ := key 0 (by norm_num) m0 _ h4
  obtain ⟨k₁, y₁, g1⟩ := key 1 (by norm_num) m1 _ h4
  exact ⟨_, h4, 0, 1, k₀, y₀, k₁, y₁, one_pos, g0, g1⟩

/-- `C141_false` applies to it; random numbers of this kind exist (`normal_exists`). -/
example (LB : ℝ) {a b : Ω → (Fin 3 → ℤ) → ℝ} (h : Normal μ (fun _ => 2 * 1) a b) : ∃ field : Ω → Arr (Fin 3) ℝ,
    (∀ ω, fieldLike LB (a ω) (b ω) ⟨fun _ => 2 * 1, peak⟩ (.number 100) (.int 2) = .ok (field ω)) ∧
    ∀ i ∈ box (fun _ : Fin 3 => 2 * 1), waveNumber (fun _ => 2 * 1) [100, 100, 100] i = 2 * Real.pi / 100 →
      ∫ ω, (powerNd [100, 100, 100] (field ω)).val i ∂μ = 0 := by
  obtain ⟨r, hr, h2⟩ := peak_bins LB 100 (by norm_num)
  exact C141_false LB 1 one_pos (by norm_num) peak 2 (by norm_num) hr h2 h

end Verif.FieldLike

import Verif.Model.Progress
import Verif.Props.SlideBoxes
import Mathlib.Tactic.NormNum
import Mathlib.Tactic.Linarith
import Mathlib.Tactic.FieldSimp
import Mathlib.Tactic.Ring
import Mathlib.Tactic.Positivity

/-!
# C227: UV maps of a light cone, and the progress of loops

Full statement (C227): `make_uv_map_lightcone` returns the map of every redshift in order, and the number of antennas.  It, the observations of a day with numba, and the
redshift-space distortions report which part of their work is done: the reports rise, never exceed 100 per cent and end at 100 per cent.

False of the code: the reports of `make_uv_map_lightcone` multiply a rounded step and count from zero, so that they may exceed 100 per cent or stay at zero; those of the
distortions end at 90 per cent.
-/

namespace Verif.Progress
open Verif.SlideBoxes

theorem uvLoop_ok {Z M E : Type} (getMap : Z → Except E (M × ℕ)) (percc : ℚ) (f : Z → M) (N : ℕ) (zs : List Z) (h : ∀ z ∈ zs, getMap z = .ok (f z, N)) (i : ℕ) (n : Option ℕ) :
    uvLoop getMap percc i n zs = ((List.range zs.length).map fun (k : ℕ) => ((i + k : ℕ) : ℚ) * percc, .ok (zs.map f, if zs = [] then n else some N)) := by
  induction zs generalizing i n with
  | nil => simp [uvLoop]
  | cons z zs ih =>
    rw [uvLoop, h z (by simp)]
    simp only [ih fun y hy => h y (by simp [hy])]
    rw [List.length_cons, List.range_succ_eq_map, List.map_cons, List.map_map]
    congr 1
    · congr 1
      · apply List.map_congr_left
        intro k _
        show _ = ((i + (k + 1) : ℕ) : ℚ) * percc
        push_cast
        ring
    · by_cases hz : zs = [] <;> simp [hz, Except.map]

theorem roundQ_close (x : ℚ) : |(roundQ x : ℚ) - x| ≤ 1 / 2 := by
  have h0 := Int.floor_le x
  have h1 := Int.lt_floor_add_one x
  unfold roundQ
  rw [abs_le]
  split_ifs <;> push_cast <;> constructor <;> linarith

/-- The reports of `make_uv_map_lightcone` for maps that are made without errors. -/
theorem uvCube_ok {Z M E : Type} (getMap : Z → Except E (M × ℕ)) (f : Z → M) (N : ℕ) (zs : List Z) (hz : zs ≠ []) (h : ∀ z ∈ zs, getMap z = .ok (f z, N)) :
    uvCube getMap zs = ((List.range zs.length).map fun (k : ℕ) => (k : ℚ) * (roundQ (100 / zs.length * 100) / 100), .ok (zs.map f, some N)) := by
  have hl : zs.length ≠ 0 := by simpa using hz
  rw [uvCube, if_neg hl, uvLoop_ok getMap _ f N zs h, if_neg hz]
  simp

/-- **C227** (partial: the maps and the number of antennas; the report after the slice `i` is that of the part before it, up to half a hundredth per slice, and the reports
do not fall). -/
theorem C227_partial {Z M E : Type} (getMap : Z → Except E (M × ℕ)) (f : Z → M) (N : ℕ) (zs : List Z) (hz : zs ≠ []) (h : ∀ z ∈ zs, getMap z = .ok (f z, N)) :
    ∃ msgs, uvCube getMap zs = (msgs, .ok (zs.map f, some N)) ∧ msgs.length = zs.length ∧ msgs.Pairwise (· ≤ ·) ∧
      ∀ (i : ℕ) (m : ℚ), msgs[i]? = some m → |m - 100 * (i : ℚ) / zs.length| ≤ (i : ℚ) / 200 := by
  refine ⟨_, uvCube_ok getMap f N zs hz h, by simp, ?_, ?_⟩
  · have h0 : (0 : ℚ) ≤ roundQ (100 / zs.length * 100) / 100 := by
      have : (0 : ℚ) ≤ 100 / zs.length * 100 := by positivity
      have h1 : 0 ≤ ⌊(100 / zs.length * 100 : ℚ)⌋ := Int.floor_nonneg.mpr this
      have h2 : 0 ≤ roundQ (100 / zs.length * 100) := by
        unfold roundQ
        split_ifs <;> omega
      have h3 : (0 : ℚ) ≤ roundQ (100 / zs.length * 100) := by exact_mod_cast h2
      positivity
    rw [List.pairwise_map]
    refine List.Pairwise.imp ?_ (List.pairwise_lt_range (n := zs.length))
    intro a b hab
    exact mul_le_mul_of_nonneg_right (by exact_mod_cast hab.le) h0
  · intro i m hm
    simp only [List.getElem?_map, Option.map_eq_some_iff] at hm
    obtain ⟨k, hk, rfl⟩ := hm
    have hk' : k = i := by
      rw [List.getElem?_eq_some_iff] at hk
      obtain ⟨_, hk⟩ := hk
      simpa using hk.symm
    subst hk'
    have h1 := roundQ_close (100 / zs.length * 100)
    have e : (k : ℚ) * (roundQ (100 / zs.length * 100) / 100) - 100 * k / zs.length = k / 100 * (roundQ (100 / zs.length * 100) - 100 / zs.length * 100) := by ring
    rw [e, abs_mul, abs_of_nonneg (by positivity : (0 : ℚ) ≤ k / 100)]
    calc (k : ℚ) / 100 * _ ≤ k / 100 * (1 / 2) := mul_le_mul_of_nonneg_left h1 (by positivity)
      _ = k / 200 := by ring

/-- **C227** is false of the code: a cube of 180 slices is reported to be done to more than 100 per cent. -/
theorem C227_false {Z M E : Type} (getMap : Z → Except E (M × ℕ)) (f : Z → M) (N : ℕ) (zs : List Z) (hz : zs.length = 180) (h : ∀ z ∈ zs, getMap z = .ok (f z, N)) :
    ∃ m ∈ (uvCube getMap zs).1, m = 10024 / 100 := by
  have hz' : zs ≠ [] := by rintro rfl; simp at hz
  rw [uvCube_ok getMap f N zs hz' h, hz]
  have hr : roundQ (100 / (180 : ℕ) * 100) = 56 := roundQ_near (by norm_num [abs_lt])
  refine ⟨(179 : ℕ) * (56 / 100), ?_, by norm_num⟩
  rw [List.mem_map]
  refine ⟨179, List.mem_range.mpr (by norm_num), ?_⟩
  rw [hr]
  norm_num

/-- **C227** is false of the code: with more than 20000 slices nothing is ever reported to be done. -/
theorem C227_false_zero {Z M E : Type} (getMap : Z → Except E (M × ℕ)) (f : Z → M) (N : ℕ) (zs : List Z) (hz : 20000 < zs.length) (h : ∀ z ∈ zs, getMap z = .ok (f z, N)) :
    ∀ m ∈ (uvCube getMap zs).1, m = 0 := by
  have hz' : zs ≠ [] := by rintro rfl; simp at hz
  rw [uvCube_ok getMap f N zs hz' h]
  have hl : (20000 : ℚ) < zs.length := by exact_mod_cast hz
  have hp : (0 : ℚ) < zs.length := by linarith
  have hr : roundQ (100 / zs.length * 100) = 0 := by
    apply roundQ_near
    have h0 : (0 : ℚ) ≤ 100 / zs.length * 100 := by positivity
    rw [Int.cast_zero, sub_zero, abs_of_nonneg h0, div_mul_eq_mul_div, div_lt_iff₀ hp]
    linarith
  intro m hm
  obtain ⟨k, _, rfl⟩ := List.mem_map.mp hm
  rw [hr]
  simp

/-- **C227**, errors: no redshifts at all raise, and so does a map that cannot be made, after the reports of the slices before it. -/
theorem C227_raises {Z M E : Type} (getMap : Z → Except E (M × ℕ)) :
    uvCube getMap [] = ([], .error .zeroDivision) ∧
      ∀ (f : Z → M) (N : ℕ) (before after : List Z) (z : Z) (e : E), (∀ y ∈ before, getMap y = .ok (f y, N)) → getMap z = .error e →
        ∃ msgs, uvCube getMap (before ++ z :: after) = (msgs, .error (.map e)) ∧ msgs.length = before.length := by
  refine ⟨rfl, fun f N before after z e hb hz => ?_⟩
  have key : ∀ (p : ℚ) (i : ℕ) (n : Option ℕ), (uvLoop getMap p i n (before ++ z :: after)).2 = .error (.map e) ∧
      (uvLoop getMap p i n (before ++ z :: after)).1.length = before.length := by
    intro p
    induction before with
    | nil => intro i n; rw [List.nil_append, uvLoop, hz]; exact ⟨rfl, rfl⟩
    | cons y ys ih =>
      intro i n
      obtain ⟨h1, h2⟩ := ih (fun x hx => hb x (by simp [hx])) (i + 1) (some N)
      rw [List.cons_append, uvLoop, hb y (by simp)]
      refine ⟨?_, ?_⟩
      · show Except.map _ (uvLoop getMap p (i + 1) (some N) (ys ++ z :: after)).2 = _
        rw [h1]; rfl
      · show (_ :: (uvLoop getMap p (i + 1) (some N) (ys ++ z :: after)).1).length = _
        rw [List.length_cons, h2, List.length_cons]
  have hl : ¬(before ++ z :: after).length = 0 := by simp
  rw [uvCube, if_neg hl]
  obtain ⟨h1, h2⟩ := key (roundQ (100 / (before ++ z :: after).length * 100) / 100) 0 none
  exact ⟨_, Prod.ext rfl h1, h2⟩

/-- **C227**, the observations of a day: one report for each but the first, rising to 100 per cent in equal steps; nothing without `verbose`. -/
theorem C227_numba (tot : ℕ) (h : 2 ≤ tot) :
    (numba true tot).length = tot - 1 ∧ (numba true tot).Pairwise (· < ·) ∧ (numba true tot).getLast? = some 100 ∧
      (∀ m ∈ numba true tot, 0 < m ∧ m ≤ 100) ∧ numba false tot = [] := by
  have hp : (0 : ℚ) < tot := by exact_mod_cast (by omega : 0 < tot)
  refine ⟨by simp [numba], ?_, ?_, ?_, rfl⟩
  · simp only [numba, if_true]
    rw [List.pairwise_map]
    refine List.Pairwise.imp ?_ (List.pairwise_lt_range (n := tot - 1))
    intro a b hab
    have hab' : (a : ℚ) < b := by exact_mod_cast hab
    exact div_lt_div_of_pos_right (by linarith) hp
  · obtain ⟨k, rfl⟩ : ∃ k, tot = k + 2 := ⟨tot - 2, by omega⟩
    simp only [numba, if_true]
    rw [show k + 2 - 1 = k + 1 from rfl, List.range_succ, List.map_append, List.map_singleton, List.getLast?_append]
    simp only [List.getLast?_singleton, Option.some_or, Option.some.injEq]
    push_cast at hp ⊢
    field_simp
  · intro m hm
    simp only [numba, if_true, List.mem_map, List.mem_range] at hm
    obtain ⟨i, hi, rfl⟩ := hm
    have hi' : (i : ℚ) + 2 ≤ tot := by exact_mod_cast (by omega : i + 2 ≤ tot)
    refine ⟨by positivity, ?_⟩
    rw [div_le_iff₀ hp]
    linarith

/-- The messages of the skewers from some index on. -/
theorem skewerLoop_mem (width : ℕ) (n k last : ℕ) (hl : last ≤ k * 100 / width) :
    (skewerLoop width last (List.range' k n)).Pairwise (· < ·) ∧
      ∀ p, p ∈ skewerLoop width last (List.range' k n) ↔ p % 10 = 0 ∧ p ≠ last ∧ ∃ i, k ≤ i ∧ i < k + n ∧ i * 100 / width = p := by
  induction n generalizing k last with
  | zero => simp [skewerLoop]; omega
  | succ n ih =>
    have hm : ∀ i, k ≤ i → k * 100 / width ≤ i * 100 / width := fun i hi => Nat.div_le_div_right (Nat.mul_le_mul_right _ hi)
    rw [List.range'_succ, skewerLoop]
    split_ifs with hc
    · obtain ⟨h1, h2⟩ := ih (k + 1) (k * 100 / width) (hm (k + 1) (by omega))
      constructor
      · refine List.pairwise_cons.mpr ⟨fun q hq => ?_, h1⟩
        obtain ⟨_, hq2, i, hi, _, hi2⟩ := (h2 q).mp hq
        have := hm i (by omega)
        omega
      · intro p
        rw [List.mem_cons, h2]
        constructor
        · rintro (rfl | ⟨h3, h4, i, hi, hi', hi2⟩)
          · exact ⟨hc.1, hc.2, k, le_rfl, by omega, rfl⟩
          · have := hm i (by omega)
            exact ⟨h3, by omega, i, by omega, by omega, hi2⟩
        · rintro ⟨h3, h4, i, hi, hi', hi2⟩
          by_cases hp : p = k * 100 / width
          · exact .inl hp
          · refine .inr ⟨h3, hp, i, ?_, by omega, hi2⟩
            rcases Nat.eq_or_lt_of_le hi with e | e
            · subst e; exact absurd hi2.symm hp
            · exact e
    · obtain ⟨h1, h2⟩ := ih (k + 1) last (hl.trans (hm (k + 1) (by omega)))
      refine ⟨h1, fun p => ?_⟩
      rw [h2]
      constructor
      · rintro ⟨h3, h4, i, hi, hi', hi2⟩
        exact ⟨h3, h4, i, by omega, by omega, hi2⟩
      · rintro ⟨h3, h4, i, hi, hi', hi2⟩
        refine ⟨h3, h4, i, ?_, by omega, hi2⟩
        rcases Nat.eq_or_lt_of_le hi with e | e
        · subst e; exact absurd ⟨by omega, by omega⟩ hc
        · exact e

/-- **C227**, the skewers: multiples of ten, each once and in order, reported when that part of the rows is done; all nine of them for 100 rows or more, and never 100. -/
theorem C227_skewers (width : ℕ) :
    (skewers width).Pairwise (· < ·) ∧
      (∀ p, p ∈ skewers width ↔ 10 ∣ p ∧ p ≠ 0 ∧ ∃ i, i < width ∧ (p : ℚ) ≤ 100 * i / width ∧ (100 * i / width : ℚ) < p + 1) ∧
      (100 ≤ width → ∀ p, p ∈ skewers width ↔ 10 ∣ p ∧ 10 ≤ p ∧ p ≤ 90) ∧ ∀ p ∈ skewers width, p < 100 := by
  obtain ⟨h1, h2⟩ := skewerLoop_mem width width 0 0 (Nat.zero_le _)
  rw [← List.range_eq_range'] at h1 h2
  have hlt : ∀ i, i < width → i * 100 / width < 100 := fun i hi => (Nat.div_lt_iff_lt_mul (by omega)).mpr (by nlinarith)
  refine ⟨h1, fun p => ?_, fun hw p => ?_, fun p hp => ?_⟩
  · refine (h2 p).trans ?_
    have key : ∀ i, i < width → (i * 100 / width = p ↔ (p : ℚ) ≤ 100 * i / width ∧ (100 * i / width : ℚ) < p + 1) := by
      intro i hi
      have hw : 0 < width := by omega
      have hw' : (0 : ℚ) < width := by exact_mod_cast hw
      rw [Nat.div_eq_iff hw, le_div_iff₀ hw', div_lt_iff₀ hw']
      have e1 : ((p : ℚ) * width ≤ 100 * i) ↔ p * width ≤ 100 * i := by exact_mod_cast Iff.rfl
      have e2 : ((100 * i : ℚ) < (p + 1) * width) ↔ 100 * i < (p + 1) * width := by exact_mod_cast Iff.rfl
      rw [e1, e2, Nat.add_mul, Nat.mul_comm i 100]
      omega
    constructor
    · rintro ⟨h3, h4, i, _, hi, hi2⟩
      exact ⟨by omega, h4, i, by omega, (key i (by omega)).mp hi2⟩
    · rintro ⟨h3, h4, i, hi, hi2⟩
      exact ⟨by omega, h4, i, by omega, by omega, (key i hi).mpr hi2⟩
  · refine (h2 p).trans ?_
    constructor
    · rintro ⟨h3, h4, i, _, hi, hi2⟩
      have := hlt i (by omega)
      omega
    · rintro ⟨h3, h4, h5⟩
      refine ⟨by omega, by omega, (p * width + 99) / 100, by omega, ?_, ?_⟩
      · have : p * width ≤ 90 * width := Nat.mul_le_mul_right _ h5
        omega
      · rw [Nat.div_eq_iff (by omega)]
        have := Nat.add_mul p 1 width
        constructor <;> omega
  · obtain ⟨_, _, i, _, hi, hi2⟩ := (h2 p).mp hp
    have := hlt i (by omega)
    omega

/-- The hypotheses of `C227_partial`, `C227_false` and `C227_false_zero`: maps that are the redshifts themselves. -/
example (n : ℕ) : (∀ z ∈ List.replicate n 7, (fun z : ℕ => (.ok (z, 512) : Except Unit (ℕ × ℕ))) z = .ok (id z, 512)) ∧ (List.replicate 180 7).length = 180 ∧
    20000 < (List.replicate 20001 7).length :=
  ⟨fun _ _ => rfl, List.length_replicate, by rw [List.length_replicate]; norm_num⟩

/-- The second slice of three cannot be made. -/
example : ∃ msgs, uvCube (fun z : ℕ => if z = 8 then (.error () : Except Unit (ℕ × ℕ)) else .ok (z, 512)) [7, 8, 9] = (msgs, .error (.map ())) ∧ msgs.length = 1 :=
  (C227_raises _).2 id 512 [7] [9] 8 () (by simp) rfl

/-- The hypothesis of `C227_numba`: four observations. -/
example : numba true 4 = [50, 75, 100] := by norm_num [numba, List.range, List.range.loop]

/-- `C227_skewers` for few rows. -/
example : skewers 7 = [] ∧ skewers 20 = [10, 20, 30, 40, 50, 60, 70, 80, 90] ∧ skewers 5 = [20, 40, 60, 80] := by decide

end Verif.Progress

import Verif.Model.Coeval
import Mathlib.Data.List.GetD
import Mathlib.Data.List.Nodup
import Mathlib.Algebra.Order.Field.Basic
import Mathlib.Tactic.Linarith
import Mathlib.Tactic.FieldSimp
import Mathlib.Tactic.NormNum
import Mathlib.Tactic.Ring
/-!
# Properties of the coeval cube readers (C51, C91)
-/

namespace Verif.Coeval

/-! ## Specification -/

/-- `x` is the greatest redshift of the directory below `z`. -/
def Below (zs : List ℚ) (z x : ℚ) : Prop := x ∈ zs ∧ x < z ∧ ∀ y ∈ zs, y < z → y ≤ x

/-- `x` is the least redshift of the directory above `z`. -/
def Above (zs : List ℚ) (z x : ℚ) : Prop := x ∈ zs ∧ z < x ∧ ∀ y ∈ zs, z < y → x ≤ y

/-- Linear interpolation in redshift between `fl` at `zl` and `fh` at `zh`. -/
def between (zl zh z fl fh : ℚ) : ℚ := (zh - z) / (zh - zl) * fl + (z - zl) / (zh - zl) * fh

/-! ## Arrays -/

theorem argmax_ok {l : List ℚ} (h : l ≠ []) : ∃ i x, argmax l = .ok i ∧ l[i]? = some x ∧ ∀ y ∈ l, y ≤ x := by
  have hm : ∃ x ∈ l, ∀ y ∈ l, y ≤ x := by
    induction l with
    | nil => exact absurd rfl h
    | cons a l ih =>
      by_cases e : l = []
      · exact ⟨a, by simp, by simp [e]⟩
      · obtain ⟨x, hx, hy⟩ := ih e
        rcases le_total a x with c | c
        · exact ⟨x, by simp [hx], fun y h => by rcases List.mem_cons.mp h with rfl | h; exacts [c, hy y h]⟩
        · exact ⟨a, by simp, fun y h => by
            rcases List.mem_cons.mp h with rfl | h
            exacts [le_rfl, (hy y h).trans c]⟩
  obtain ⟨x, hx, hy⟩ := hm
  cases e : l.findIdx? fun x => decide (∀ y ∈ l, y ≤ x) with
  | none =>
    rw [List.findIdx?_eq_none_iff] at e
    have := e x hx
    simp only [decide_eq_false_iff_not] at this
    exact absurd hy this
  | some i =>
    obtain ⟨hlt, hi, _⟩ := List.findIdx?_eq_some_iff_getElem.mp e
    refine ⟨i, l[i], by unfold argmax; rw [e], List.getElem?_eq_getElem hlt, by simpa using hi⟩

theorem argmin_ok {l : List ℚ} (h : l ≠ []) : ∃ i x, argmin l = .ok i ∧ l[i]? = some x ∧ ∀ y ∈ l, x ≤ y := by
  have hm : ∃ x ∈ l, ∀ y ∈ l, x ≤ y := by
    induction l with
    | nil => exact absurd rfl h
    | cons a l ih =>
      by_cases e : l = []
      · exact ⟨a, by simp, by simp [e]⟩
      · obtain ⟨x, hx, hy⟩ := ih e
        rcases le_total x a with c | c
        · exact ⟨x, by simp [hx], fun y h => by rcases List.mem_cons.mp h with rfl | h; exacts [c, hy y h]⟩
        · exact ⟨a, by simp, fun y h => by
            rcases List.mem_cons.mp h with rfl | h
            exacts [le_rfl, c.trans (hy y h)]⟩
  obtain ⟨x, hx, hy⟩ := hm
  cases e : l.findIdx? fun x => decide (∀ y ∈ l, x ≤ y) with
  | none =>
    rw [List.findIdx?_eq_none_iff] at e
    have := e x hx
    simp only [decide_eq_false_iff_not] at this
    exact absurd hy this
  | some i =>
    obtain ⟨hlt, hi, _⟩ := List.findIdx?_eq_some_iff_getElem.mp e
    refine ⟨i, l[i], by unfold argmin; rw [e], List.getElem?_eq_getElem hlt, by simpa using hi⟩

/-- Where entry `i` of the selected entries is among all; if at the same place, the list starts
with a selected entry. -/
theorem filter_position (P : ℚ → Bool) : ∀ (l : List ℚ) (i : ℕ) (x : ℚ),
    (l.filter P)[i]? = some x → ∃ p, i ≤ p ∧ l[p]? = some x ∧
      (p = i → ∃ a, l[0]? = some a ∧ P a = true) := by
  intro l
  induction l with
  | nil => intro i x h; simp at h
  | cons a l ih =>
    intro i x h
    by_cases c : P a = true
    · rw [List.filter_cons_of_pos c] at h
      cases i with
      | zero => exact ⟨0, le_rfl, by simpa using h, fun _ => ⟨a, rfl, c⟩⟩
      | succ i =>
        rw [List.getElem?_cons_succ] at h
        obtain ⟨p, h1, h2, _⟩ := ih i x h
        exact ⟨p + 1, by omega, by rwa [List.getElem?_cons_succ], fun _ => ⟨a, rfl, c⟩⟩
    · rw [List.filter_cons_of_neg c] at h
      obtain ⟨p, h1, h2, _⟩ := ih i x h
      exact ⟨p + 1, by omega, by rwa [List.getElem?_cons_succ], fun e => by omega⟩

theorem file_ok {ι : Type*} {files : List (ℚ × (ι → ℚ))} {i : ℕ} (h : i < files.length) :
    ∃ f ∈ files, files[i]? = some f ∧ file files i = .ok f.2 := by
  refine ⟨files[i], List.getElem_mem h, List.getElem?_eq_getElem h, ?_⟩
  unfold file
  rw [List.getElem?_eq_getElem h]

/-- What the reader does when there are snapshots on both sides. -/
theorem coeval_eq {ι : Type*} (files : List (ℚ × (ι → ℚ))) (z : ℚ) (hz : z ∉ files.map Prod.fst)
    (hl : ∃ x ∈ files.map Prod.fst, x < z) (hh : ∃ x ∈ files.map Prod.fst, z < x) :
    ∃ (i j : ℕ) (zl zh : ℚ) (f g : ℚ × (ι → ℚ)) (p q : ℕ), coeval files z = .ok (fun c => between zl zh z (f.2 c) (g.2 c)) ∧
      Below (files.map Prod.fst) z zl ∧ Above (files.map Prod.fst) z zh ∧
      files[i]? = some f ∧ files[j]? = some g ∧ i ≤ p ∧ j ≤ q ∧
      (files.map Prod.fst)[p]? = some zl ∧ (files.map Prod.fst)[q]? = some zh ∧
      ¬ (p = i ∧ q = j) ∧ argmax ((files.map Prod.fst).filter fun x => x < z) = .ok i ∧
      argmin ((files.map Prod.fst).filter fun x => z < x) = .ok j := by
  have hl' : ((files.map Prod.fst).filter fun x => x < z) ≠ [] := by
    obtain ⟨x, hx, h⟩ := hl
    exact List.ne_nil_of_mem (List.mem_filter.mpr ⟨hx, by simpa using h⟩)
  have hh' : ((files.map Prod.fst).filter fun x => z < x) ≠ [] := by
    obtain ⟨x, hx, h⟩ := hh
    exact List.ne_nil_of_mem (List.mem_filter.mpr ⟨hx, by simpa using h⟩)
  obtain ⟨i, zl, e1, e2, e3⟩ := argmax_ok hl'
  obtain ⟨j, zh, e4, e5, e6⟩ := argmin_ok hh'
  obtain ⟨p, p1, p2, p3⟩ := filter_position _ _ i zl e2
  obtain ⟨q, q1, q2, q3⟩ := filter_position _ _ j zh e5
  have ml := List.mem_filter.mp (List.mem_of_getElem? e2)
  have mh := List.mem_filter.mp (List.mem_of_getElem? e5)
  have hli : zl < z := by simpa using ml.2
  have hhi : z < zh := by simpa using mh.2
  have plen : p < files.length := by
    have := (List.getElem?_eq_some_iff.mp p2).1
    simpa using this
  have qlen : q < files.length := by
    have := (List.getElem?_eq_some_iff.mp q2).1
    simpa using this
  obtain ⟨f, _, f1, f2⟩ := file_ok (files := files) (i := i) (by omega)
  obtain ⟨g, _, g1, g2⟩ := file_ok (files := files) (i := j) (by omega)
  refine ⟨i, j, zl, zh, f, g, p, q, ?_, ⟨ml.1, hli, fun y hy hyz => e3 y (List.mem_filter.mpr ⟨hy, by simpa using hyz⟩)⟩,
    ⟨mh.1, hhi, fun y hy hyz => e6 y (List.mem_filter.mpr ⟨hy, by simpa using hyz⟩)⟩, f1, g1, p1, q1, p2, q2, ?_, e1, e4⟩
  · unfold coeval
    simp only
    rw [if_neg hz, e1, e4]
    simp only
    rw [f2, g2]
    simp only
    congr 1
    funext c
    have h1 : ((files.map Prod.fst).filter fun x => x < z).getD i 0 = zl := by
      rw [List.getD_eq_getElem?_getD, e2]; rfl
    have h2 : ((files.map Prod.fst).filter fun x => z < x).getD j 0 = zh := by
      rw [List.getD_eq_getElem?_getD, e5]; rfl
    rw [h1, h2]
    unfold between
    have : zh - zl ≠ 0 := by linarith
    have : zl - zh ≠ 0 := by linarith
    field_simp
    ring
  · rintro ⟨h1, h2⟩
    obtain ⟨a, a1, a2⟩ := p3 h1
    obtain ⟨b, b1, b2⟩ := q3 h2
    rw [a1] at b1
    obtain rfl : a = b := by simpa using b1
    simp only [decide_eq_true_eq] at a2 b2
    linarith

/-! ## C51 -/

/-- The full statement of C51: the cube returned is the linear interpolation between the two
snapshots adjacent in redshift (or the snapshot of that redshift).  Proved: the weights are
those of the adjacent redshifts, applied to two snapshots of the directory, so that the result
lies between these. -/
theorem C51_partial {ι : Type*} (files : List (ℚ × (ι → ℚ))) (z : ℚ) (hz : z ∉ files.map Prod.fst)
    (hl : ∃ x ∈ files.map Prod.fst, x < z) (hh : ∃ x ∈ files.map Prod.fst, z < x) :
    ∃ zl zh, ∃ f ∈ files, ∃ g ∈ files, Below (files.map Prod.fst) z zl ∧
      Above (files.map Prod.fst) z zh ∧ ∃ r, coeval files z = .ok r ∧ ∀ c,
      r c = between zl zh z (f.2 c) (g.2 c) ∧
      min (f.2 c) (g.2 c) ≤ r c ∧ r c ≤ max (f.2 c) (g.2 c) := by
  obtain ⟨i, j, zl, zh, f, g, p, q, h1, h2, h3, h4, h5, _⟩ := coeval_eq files z hz hl hh
  refine ⟨zl, zh, f, List.mem_of_getElem? h4, g, List.mem_of_getElem? h5, h2, h3, _, h1, fun c => ⟨rfl, ?_⟩⟩
  have a := h2.2.1
  have b := h3.2.1
  have hd : 0 < zh - zl := by linarith
  have t0 : 0 ≤ (zh - z) / (zh - zl) := div_nonneg (by linarith) hd.le
  have s0 : 0 ≤ (z - zl) / (zh - zl) := div_nonneg (by linarith) hd.le
  have ts : (zh - z) / (zh - zl) + (z - zl) / (zh - zl) = 1 := by field_simp; ring
  unfold between
  generalize (zh - z) / (zh - zl) = t at *
  generalize (z - zl) / (zh - zl) = s at *
  constructor
  · have k1 := mul_le_mul_of_nonneg_left (min_le_left (f.2 c) (g.2 c)) t0
    have k2 := mul_le_mul_of_nonneg_left (min_le_right (f.2 c) (g.2 c)) s0
    have k3 : t * min (f.2 c) (g.2 c) + s * min (f.2 c) (g.2 c) = min (f.2 c) (g.2 c) := by
      rw [← add_mul, ts, one_mul]
    linarith
  · have k1 := mul_le_mul_of_nonneg_left (le_max_left (f.2 c) (g.2 c)) t0
    have k2 := mul_le_mul_of_nonneg_left (le_max_right (f.2 c) (g.2 c)) s0
    have k3 : t * max (f.2 c) (g.2 c) + s * max (f.2 c) (g.2 c) = max (f.2 c) (g.2 c) := by
      rw [← add_mul, ts, one_mul]
    linarith

example : (8 : ℚ) ∉ [(9 : ℚ), 7, 11, 6] ∧ (∃ x ∈ [(9 : ℚ), 7, 11, 6], x < 8) ∧
    ∃ x ∈ [(9 : ℚ), 7, 11, 6], 8 < x := by decide +kernel

/-- Snapshots at the redshifts `zs` whose cubes of one cell hold `w 0, w 1, ...`. -/
def directory (zs : List ℚ) (w : ℕ → ℚ) : List (ℚ × (Unit → ℚ)) :=
  (List.range zs.length).map fun (n : ℕ) => (zs.getD n 0, fun _ => w n)

theorem directory_fst (zs : List ℚ) (w : ℕ → ℚ) : (directory zs w).map Prod.fst = zs := by
  unfold directory
  rw [List.map_map]
  refine List.ext_getElem (by simp) fun i h1 h2 => ?_
  simp [List.getD_eq_getElem?_getD, h2]

theorem directory_get (zs : List ℚ) (w : ℕ → ℚ) (n : ℕ) (f : ℚ × (Unit → ℚ))
    (h : (directory zs w)[n]? = some f) : f.2 () = w n := by
  unfold directory at h
  rw [List.getElem?_map] at h
  cases e : (List.range zs.length)[n]? with
  | none => rw [e] at h; cases h
  | some m =>
    rw [e] at h
    obtain ⟨h1, h2⟩ := List.getElem?_eq_some_iff.mp e
    rw [List.getElem_range] at h2
    subst h2
    obtain rfl := Option.some.inj h
    rfl

/-- C51 fails for every directory and every redshift between two snapshots: whatever the order
of the files, some cubes are interpolated wrongly. -/
theorem C51_false (zs : List ℚ) (hnd : zs.Nodup) (z : ℚ) (hz : z ∉ zs) (zl zh : ℚ)
    (hl : Below zs z zl) (hh : Above zs z zh) (p q : ℕ) (hp : zs[p]? = some zl)
    (hq : zs[q]? = some zh) :
    ∃ w : ℕ → ℚ, ∃ r, coeval (directory zs w) z = .ok r ∧ r () ≠ between zl zh z (w p) (w q) := by
  have main : ∀ w : ℕ → ℚ, ∃ i j, i ≤ p ∧ j ≤ q ∧ ¬ (p = i ∧ q = j) ∧
      argmax (zs.filter fun x => x < z) = .ok i ∧ argmin (zs.filter fun x => z < x) = .ok j ∧
      coeval (directory zs w) z = .ok (fun _ => between zl zh z (w i) (w j)) := by
    intro w
    obtain ⟨i, j, zl', zh', f, g, p', q', h1, h2, h3, h4, h5, h6, h7, h8, h9, h10, h11, h12⟩ :=
      coeval_eq (directory zs w) z (by rwa [directory_fst])
        (by rw [directory_fst]; exact ⟨zl, hl.1, hl.2.1⟩) (by rw [directory_fst]; exact ⟨zh, hh.1, hh.2.1⟩)
    rw [directory_fst] at h2 h3 h8 h9 h11 h12
    obtain rfl : zl = zl' := le_antisymm (h2.2.2 _ hl.1 hl.2.1) (hl.2.2 _ h2.1 h2.2.1)
    obtain rfl : zh = zh' := le_antisymm (hh.2.2 _ h3.1 h3.2.1) (h3.2.2 _ hh.1 hh.2.1)
    obtain ⟨lp, ep⟩ := List.getElem?_eq_some_iff.mp hp
    obtain ⟨lp', ep'⟩ := List.getElem?_eq_some_iff.mp h8
    obtain ⟨lq, eq⟩ := List.getElem?_eq_some_iff.mp hq
    obtain ⟨lq', eq'⟩ := List.getElem?_eq_some_iff.mp h9
    obtain rfl : p = p' := (List.Nodup.getElem_inj_iff hnd).mp (ep.trans ep'.symm)
    obtain rfl : q = q' := (List.Nodup.getElem_inj_iff hnd).mp (eq.trans eq'.symm)
    refine ⟨i, j, h6, h7, h10, h11, h12, ?_⟩
    rw [h1]
    congr 1
    funext c
    rw [directory_get zs w i f h4, directory_get zs w j g h5]
  have hpq : p ≠ q := by
    rintro rfl
    rw [hp] at hq
    have := Option.some.inj hq
    have h1 := hl.2.1
    have h2 := hh.2.1
    linarith
  have a := hl.2.1
  have b := hh.2.1
  have hd : 0 < zh - zl := by linarith
  have t0 : 0 < (zh - z) / (zh - zl) := div_pos (by linarith) hd
  have s0 : 0 < (z - zl) / (zh - zl) := div_pos (by linarith) hd
  -- cubes that are one in one snapshot only
  obtain ⟨i, j, hi, hj, hij, mi, mj, e⟩ := main fun n => if n = p then 1 else 0
  obtain ⟨i', j', _, _, _, mi', mj', e'⟩ := main fun n => if n = q then 1 else 0
  obtain rfl : i = i' := by rw [mi] at mi'; cases mi'; rfl
  obtain rfl : j = j' := by rw [mj] at mj'; cases mj'; rfl
  by_cases c : i ≠ p ∧ j ≠ p
  · refine ⟨_, _, e, ?_⟩
    unfold between
    simp only [if_neg c.1, if_neg c.2, if_true, if_neg (Ne.symm hpq)]
    intro h
    linarith
  · refine ⟨_, _, e', ?_⟩
    unfold between
    have hiq : i ≠ q := by
      intro h
      apply c
      constructor <;> omega
    have hjq : j ≠ q := by
      intro h
      apply c
      constructor
      · intro h'
        exact hij ⟨h'.symm, h.symm⟩
      · omega
    simp only [if_true, if_neg hpq, if_neg hiq, if_neg hjq]
    intro h
    linarith

example : [(9 : ℚ), 7, 11, 6].Nodup ∧ (8 : ℚ) ∉ [(9 : ℚ), 7, 11, 6] ∧
    [(9 : ℚ), 7, 11, 6][1]? = some 7 ∧ [(9 : ℚ), 7, 11, 6][0]? = some 9 ∧
    (∀ y ∈ [(9 : ℚ), 7, 11, 6], y < 8 → y ≤ 7) ∧ ∀ y ∈ [(9 : ℚ), 7, 11, 6], 8 < y → 9 ≤ y := by
  decide +kernel

/-- The usual directory, in order of decreasing redshift, with a neutral fraction that falls from
`0.9` to `0.1`: half-way between the last two snapshots the reader returns the neutral fraction of
the beginning. -/
theorem C51_false_order :
    coeval (directory [12, 10, 8, 6] fun n => [(9 : ℚ) / 10, 7 / 10, 4 / 10, 1 / 10].getD n 0) 7
      = .ok (fun _ => 13 / 20) ∧
    between 6 8 7 (1 / 10) (4 / 10) = 1 / 4 := by
  constructor
  · obtain ⟨i, j, zl, zh, f, g, p, q, h1, h2, h3, h4, h5, _, _, _, _, _, mi, mj⟩ :=
      coeval_eq (directory [12, 10, 8, 6] fun n => [(9 : ℚ) / 10, 7 / 10, 4 / 10, 1 / 10].getD n 0) 7
        (by rw [directory_fst]; decide +kernel) (by rw [directory_fst]; decide +kernel)
        (by rw [directory_fst]; decide +kernel)
    rw [directory_fst] at h2 h3 mi mj
    have ei : argmax ([(12 : ℚ), 10, 8, 6].filter fun x => x < 7) = .ok 0 := by decide +kernel
    have ej : argmin ([(12 : ℚ), 10, 8, 6].filter fun x => 7 < x) = .ok 2 := by decide +kernel
    rw [ei] at mi
    rw [ej] at mj
    cases mi
    cases mj
    have el : zl = 6 := le_antisymm (by
      have := h2.1; have h := h2.2.1
      simp only [List.mem_cons, List.not_mem_nil, or_false] at this
      rcases this with rfl | rfl | rfl | rfl <;> linarith) (h2.2.2 6 (by simp) (by norm_num))
    have eh : zh = 8 := le_antisymm (h3.2.2 8 (by simp) (by norm_num)) (by
      have := h3.1; have h := h3.2.1
      simp only [List.mem_cons, List.not_mem_nil, or_false] at this
      rcases this with rfl | rfl | rfl | rfl <;> linarith)
    rw [h1]
    congr 1
    funext c
    rw [directory_get _ _ _ f h4, directory_get _ _ _ g h5, el, eh]
    norm_num [between]
  · norm_num [between]

/-- Redshifts at which nothing is read: those of the snapshots themselves, and those outside the
range of the directory. -/
theorem C51_raises {ι : Type*} (files : List (ℚ × (ι → ℚ))) (z : ℚ) :
    (z ∈ files.map Prod.fst → coeval files z = .error .type) ∧
    ((∀ x ∈ files.map Prod.fst, z < x) ∨ (∀ x ∈ files.map Prod.fst, x < z) →
      coeval files z = .error .value) := by
  constructor
  · intro h
    unfold coeval
    simp only
    rw [if_pos h]
  · intro h
    have hz : z ∉ files.map Prod.fst := by
      intro hm
      rcases h with h | h <;> exact lt_irrefl _ (h z hm)
    have nilmax : argmax [] = .error .value := rfl
    have nilmin : argmin [] = .error .value := rfl
    unfold coeval
    simp only
    rw [if_neg hz]
    rcases h with h | h
    · have : ((files.map Prod.fst).filter fun x => x < z) = [] := by
        rw [List.filter_eq_nil_iff]
        intro x hx
        have := h x hx
        simpa using this.le
      rw [this, nilmax]
    · have : ((files.map Prod.fst).filter fun x => z < x) = [] := by
        rw [List.filter_eq_nil_iff]
        intro x hx
        have := h x hx
        simpa using this.le
      rw [this, nilmin]
      by_cases e : ((files.map Prod.fst).filter fun x => x < z) = []
      · rw [e, nilmax]
      · obtain ⟨i, x, e1, _⟩ := argmax_ok e
        rw [e1]

example : coeval (directory [12, 10, 8, 6] fun _ => 1) 8 = .error .type :=
  (C51_raises _ _).1 (by rw [directory_fst]; decide +kernel)

/-- The velocity reader never returns a cube. -/
theorem C51_raises_velocity (vels dens : List ℚ) (z : ℚ) :
    ∃ e, coevalVel vels dens z = .error e := by
  unfold coevalVel
  split
  · exact ⟨_, rfl⟩
  · split
    · split <;> exact ⟨_, rfl⟩
    · exact ⟨_, rfl⟩
    · exact ⟨_, rfl⟩

example : coevalVel [12, 10, 8, 6] [12, 10, 8, 6] 7 = .error .attribute := by
  unfold coevalVel
  have ei : argmax ([(12 : ℚ), 10, 8, 6].filter fun x => x < 7) = .ok 0 := by decide +kernel
  have ej : argmin ([(12 : ℚ), 10, 8, 6].filter fun x => 7 < x) = .ok 2 := by decide +kernel
  rw [if_neg (by decide +kernel), ei, ej]
  rfl

/-! ## C91 -/

/-- A list in decreasing order starts with the entries above `z`. -/
theorem filter_prefix (z : ℚ) : ∀ (l : List ℚ), l.Pairwise (· > ·) → ∀ (i : ℕ) (x : ℚ),
    (l.filter fun x => z < x)[i]? = some x → l[i]? = some x := by
  intro l
  induction l with
  | nil => intro _ i x h; simp at h
  | cons a l ih =>
    intro hp i x h
    obtain ⟨h1, h2⟩ := List.pairwise_cons.mp hp
    by_cases c : z < a
    · rw [List.filter_cons_of_pos (by simpa using c)] at h
      cases i with
      | zero => simpa using h
      | succ i => rw [List.getElem?_cons_succ] at h ⊢; exact ih h2 i x h
    · have : (a :: l).filter (fun x => decide (z < x)) = [] := by
        rw [List.filter_eq_nil_iff]
        intro y hy
        rcases List.mem_cons.mp hy with rfl | hy
        · simpa using c
        · have := h1 y hy
          simp only [decide_eq_true_eq, not_lt]
          linarith [not_lt.mp c]
      rw [this] at h
      simp at h

/-- The full statement of C91: at a redshift between two snapshots the density returned is that of
the last snapshot before it, diluted with the expansion of the universe, i.e. multiplied by
`((1 + z) / (1 + zh)) ^ 3`.  Proved: which snapshot is used when the files are listed in
decreasing redshift, and that the factor applied is the inverse one. -/
theorem C91_partial {ι : Type*} (files : List (ℚ × (ι → ℚ)))
    (hs : (files.map Prod.fst).Pairwise (· > ·)) (z : ℚ) (hz0 : -1 < z)
    (hz : z ∉ files.map Prod.fst) (f : ℚ × (ι → ℚ)) (hf : f ∈ files)
    (hh : Above (files.map Prod.fst) z f.1) :
    ∃ r, coevalDens files z = .ok r ∧ ∀ c, r c * ((1 + z) / (1 + f.1)) ^ 3 = f.2 c := by
  have hne : ((files.map Prod.fst).filter fun x => z < x) ≠ [] :=
    List.ne_nil_of_mem (List.mem_filter.mpr ⟨hh.1, by simpa using hh.2.1⟩)
  obtain ⟨j, zh, e1, e2, e3⟩ := argmin_ok hne
  have hm := List.mem_filter.mp (List.mem_of_getElem? e2)
  have hz1 : z < zh := by simpa using hm.2
  have ezh : zh = f.1 := le_antisymm
    (e3 _ (List.mem_filter.mpr ⟨hh.1, by simpa using hh.2.1⟩)) (hh.2.2 _ hm.1 hz1)
  have pos := filter_prefix z _ hs j zh e2
  obtain ⟨i, hi, ei⟩ := List.getElem_of_mem hf
  have hj : j = i := by
    obtain ⟨hjl, ej⟩ := List.getElem?_eq_some_iff.mp pos
    have nd : (files.map Prod.fst).Nodup := hs.imp fun h => (ne_of_gt h)
    refine (List.Nodup.getElem_inj_iff nd (hi := hjl) (hj := by simpa using hi)).mp ?_
    rw [ej, List.getElem_map, ei, ezh]
  subst hj
  have eg : ((files.map Prod.fst).filter fun x => z < x).getD j 0 = f.1 := by
    rw [List.getD_eq_getElem?_getD, e2, ezh]; rfl
  unfold coevalDens
  simp only
  rw [if_neg hz, e1]
  simp only [file, List.getElem?_eq_getElem hi, ei]
  refine ⟨_, rfl, fun c => ?_⟩
  rw [eg]
  have h1 : (1 + z) ≠ 0 := by linarith
  have h2 : (1 + f.1) ≠ 0 := by have := hh.2.1; linarith
  field_simp

example : ([(12 : ℚ), 10, 8, 6]).Pairwise (· > ·) ∧ (7 : ℚ) ∉ [(12 : ℚ), 10, 8, 6] ∧
    ∀ y ∈ [(12 : ℚ), 10, 8, 6], 7 < y → 8 ≤ y := by decide +kernel

/-- C91 fails at every redshift between snapshots: wherever there is matter the density returned
is higher than that of the earlier snapshot, whereas it must be lower. -/
theorem C91_false {ι : Type*} (files : List (ℚ × (ι → ℚ)))
    (hs : (files.map Prod.fst).Pairwise (· > ·)) (z : ℚ) (hz0 : -1 < z)
    (hz : z ∉ files.map Prod.fst) (f : ℚ × (ι → ℚ)) (hf : f ∈ files)
    (hh : Above (files.map Prod.fst) z f.1) (c : ι) (hc : 0 < f.2 c) :
    ∃ r, coevalDens files z = .ok r ∧ f.2 c * ((1 + z) / (1 + f.1)) ^ 3 < f.2 c ∧ f.2 c < r c := by
  obtain ⟨r, h1, h2⟩ := C91_partial files hs z hz0 hz f hf hh
  have hq0 : 0 < (1 + z) / (1 + f.1) := by
    have := hh.2.1
    exact div_pos (by linarith) (by linarith)
  have hq1 : (1 + z) / (1 + f.1) < 1 := by
    have := hh.2.1
    rw [div_lt_one (by linarith)]
    linarith
  have h3 : ((1 + z) / (1 + f.1)) ^ 3 < 1 := pow_lt_one₀ hq0.le hq1 (by norm_num)
  have h4 : 0 < ((1 + z) / (1 + f.1)) ^ 3 := pow_pos hq0 3
  refine ⟨r, h1, by nlinarith, ?_⟩
  have h5 := h2 c
  generalize ((1 + z) / (1 + f.1)) ^ 3 = k at *
  by_contra hn
  have := not_lt.mp hn
  nlinarith

example : coevalDens (directory [12, 8] fun n => [(2 : ℚ), 1].getD n 0) 7 = .ok (fun _ => 729 / 512) := by
  obtain ⟨r, h1, h2⟩ := C91_partial (directory [12, 8] fun n => [(2 : ℚ), 1].getD n 0)
    (by rw [directory_fst]; decide +kernel) 7 (by norm_num) (by rw [directory_fst]; decide +kernel)
    (8, fun _ => 1) (by unfold directory; simp [List.range_succ])
    ⟨by simp [directory_fst], by norm_num, by rw [directory_fst]; decide +kernel⟩
  rw [h1]
  congr 1
  funext c
  have := h2 c
  norm_num at this
  linarith

/-- In increasing order of redshift the density is that of another snapshot altogether. -/
theorem C91_false_order :
    coevalDens (directory [6, 8, 10] fun n => [(1 : ℚ), 2, 3].getD n 0) 7 =
      .ok (fun _ => 729 / 512) := by
  unfold coevalDens
  simp only [directory_fst]
  have ej : argmin ([(6 : ℚ), 8, 10].filter fun x => 7 < x) = .ok 0 := by decide +kernel
  have ez : ([(6 : ℚ), 8, 10].filter fun x => 7 < x) = [8, 10] := by decide +kernel
  rw [if_neg (by decide +kernel), ej, ez]
  simp [file, directory, List.range_succ]
  funext c
  norm_num

/-- Without an earlier snapshot, or at the redshift of a snapshot, nothing is returned. -/
theorem C91_raises {ι : Type*} (files : List (ℚ × (ι → ℚ))) (z : ℚ) :
    (z ∈ files.map Prod.fst → coevalDens files z = .error .type) ∧
    ((∀ x ∈ files.map Prod.fst, x < z) → coevalDens files z = .error .value) := by
  constructor
  · intro h
    unfold coevalDens
    simp only
    rw [if_pos h]
  · intro h
    have hz : z ∉ files.map Prod.fst := fun hm => lt_irrefl _ (h z hm)
    have : ((files.map Prod.fst).filter fun x => z < x) = [] := by
      rw [List.filter_eq_nil_iff]
      intro x hx
      have := h x hx
      simpa using this.le
    unfold coevalDens
    simp only
    rw [if_neg hz, this]
    rfl

example : coevalDens (directory [6, 8, 10] fun _ => 1) 11 = .error .value :=
  (C91_raises _ _).2 (by rw [directory_fst]; decide +kernel)

end Verif.Coeval

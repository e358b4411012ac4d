import Verif.Props.Augment
import Mathlib.Data.List.Perm.Basic
/-!
# Does the augmented segmentation turn with the image?

C244: with the augmentations (`tta=2`) the orientation of the image does not matter: mirroring or turning the cube mirrors or turns the segmentation and the
map of its error, whatever the network does.
-/

namespace Verif.Orientation

open Verif.Augment

/-! ## Specification -/

/-- The mirror image along axis `k`: the cell whose value goes to the cell `c`. -/
def mirror (k : Fin 3) (n : ℕ) (c : Fin 3 → ℤ) : Fin 3 → ℤ := fun d => if d = k then n - 1 - c d else c d

/-- A quarter turn in the plane of the axes `a` and `b`. -/
def turn (a b : Fin 3) (n : ℕ) (c : Fin 3 → ℤ) : Fin 3 → ℤ := fun d => if d = a then c b else if d = b then n - 1 - c a else c d

/-- The prediction for the image turned by `g` is the prediction for the image, turned by `g`: for all networks of a kind and all cubes. -/
def Follows (kind : (Slice ℚ → Slice ℚ) → Prop) (tta : ℤ) (g : ℕ → (Fin 3 → ℤ) → Fin 3 → ℤ) : Prop :=
  ∀ (net : Slice ℚ → Slice ℚ), kind net → ∀ (n : ℕ) (x y : Arr ℚ), (∀ d, x.shape d = n ∧ y.shape d = n) → (∀ c, y.val c = x.val (g n c)) →
    ∀ seg err, prediction net (manip tta) x = .ok (seg, err) →
      ∃ seg' err', prediction net (manip tta) y = .ok (seg', err') ∧
        ∀ c : Fin 3 → ℤ, (∀ d, 0 ≤ c d ∧ c d < n) → seg' c = seg (g n c) ∧ err' c = err (g n c)

/-- Any network. -/
def Any (_ : Slice ℚ → Slice ℚ) : Prop := True

/-- A network that treats the sides of a plane alike: mirroring or transposing the plane mirrors or transposes what it makes of it. -/
def Even (net : Slice ℚ → Slice ℚ) : Prop :=
  ∀ (s : Slice ℚ) (p q : ℤ),
    (net ⟨s.rows, s.cols, fun p q => s.val (s.rows - 1 - p) q⟩).val p q = (net s).val (s.rows - 1 - p) q ∧
    (net ⟨s.rows, s.cols, fun p q => s.val p (s.cols - 1 - q)⟩).val p q = (net s).val p (s.cols - 1 - q) ∧
    (net ⟨s.cols, s.rows, fun p q => s.val q p⟩).val p q = (net s).val q p

/-! ## Lemmas -/

theorem undo (o : Manip) (y : Arr ℚ) : forward o (backward o y) = y := by
  unfold backward forward
  rw [opt_opt]
  have h := rot_rot (axes_ne o.2.1) (-o.2.2) y
  rwa [neg_neg] at h

/-- The operation that first mirrors along axis 0 (`false`) or 1 (`true`). -/
def star : Bool → Opt → Opt
  | false, .id => .flipud
  | false, .fliplr => .lrud
  | false, .flipud => .id
  | false, .udlr => .fliplr
  | false, .lrud => .fliplr
  | true, .id => .fliplr
  | true, .fliplr => .id
  | true, .flipud => .udlr
  | true, .udlr => .flipud
  | true, .lrud => .flipud

/-- The axis. -/
def ax : Bool → Fin 3
  | false => 0
  | true => 1

theorem star_apply (k : Bool) (o : Opt) (x : Arr ℚ) : o.apply (x.flip (ax k)) = (star k o).apply x := by
  have h01 : ((x.flip 0).flip 1) = (x.flip 1).flip 0 := flip_comm (by decide) x
  cases k <;> cases o <;> simp only [Opt.apply, star, ax] <;> first | rfl | rw [Augment.flip_flip] | (rw [h01, Augment.flip_flip]) | (rw [← h01, Augment.flip_flip])

theorem star_undo (k : Bool) (o : Opt) (y : Arr ℚ) : o.apply y = ((star k o).apply y).flip (ax k) := by
  have h01 : ((y.flip 0).flip 1) = (y.flip 1).flip 0 := flip_comm (by decide) y
  cases k <;> cases o <;> simp only [Opt.apply, star, ax] <;> first | rfl | rw [Augment.flip_flip] | (rw [h01, Augment.flip_flip]) | (rw [← h01, Augment.flip_flip]) | exact h01 | exact h01.symm

/-- The operation with the mirror image before it. -/
def starM (k : Bool) (o : Manip) : Manip := (star k o.1, o.2)

theorem forward_flip (k : Bool) (o : Manip) (x : Arr ℚ) : forward o (x.flip (ax k)) = forward (starM k o) x := by
  unfold forward starM
  rw [star_apply]

theorem backward_flip (k : Bool) (o : Manip) (y : Arr ℚ) : backward o y = (backward (starM k o) y).flip (ax k) := by
  unfold backward starM
  rw [star_undo k]

/-- A signed permutation as a list of numbers. -/
def code (s : Signed) : List (Fin 3 × Bool) := [(s.perm 0, s.neg 0), (s.perm 1, s.neg 1), (s.perm 2, s.neg 2)]

theorem code_inj {s t : Signed} (h : code s = code t) : s = t := by
  obtain ⟨p, a⟩ := s
  obtain ⟨q, b⟩ := t
  simp only [code, List.cons.injEq, Prod.mk.injEq, and_true] at h
  obtain ⟨⟨h0, g0⟩, ⟨h1, g1⟩, h2, g2⟩ := h
  congr 1
  · funext d; match d with
    | 0 => exact h0
    | 1 => exact h1
    | 2 => exact h2
  · funext d; match d with
    | 0 => exact g0
    | 1 => exact g1
    | 2 => exact g2

theorem codes (k : Bool) : (uniqueOps.map fun o => code (sig (starM k o))).Perm (uniqueOps.map fun o => code (sig o)) := by
  cases k <;> decide +kernel

/-- One copy, turned back. -/
def back (net : Slice ℚ → Slice ℚ) (n : ℕ) (x : Arr ℚ) (d : Fin 3) (o : Manip) : Arr ℚ := backward o (copy net n (forward o x) d)

theorem back_congr {net : Slice ℚ → Slice ℚ} {n : ℕ} {x : Arr ℚ} (h : ∀ d, x.shape d = n) (d : Fin 3) {o o' : Manip} (e : sig o = sig o') :
    back net n x d o = back net n x d o' := by
  unfold back
  have hf : forward o x = forward o' x := by rw [forward_act h, forward_act h, e]
  rw [hf]
  have hs : ∀ d', (backward o (copy net n (forward o' x) d)).shape d' = n := by
    intro d'
    have hc : ∀ d', (copy net n (forward o' x) d).shape d' = n := shape_forward h o'
    exact (((agree_refl hc).rot90 _ _ _).opt o.1).1 d'
  have h1 := C46_undone o' (backward o (copy net n (forward o' x) d))
  rw [forward_act hs o', ← e, ← forward_act hs o, undo] at h1
  exact h1.symm

theorem back_perm (net : Slice ℚ → Slice ℚ) {n : ℕ} {x : Arr ℚ} (h : ∀ d, x.shape d = n) (d : Fin 3) (k : Bool) :
    (uniqueOps.map fun o => back net n x d (starM k o)).Perm (uniqueOps.map (back net n x d)) := by
  classical
  let H : List (Fin 3 × Bool) → Arr ℚ := fun s => if e : ∃ o, code (sig o) = s then back net n x d e.choose else x
  have hH : ∀ o, H (code (sig o)) = back net n x d o := by
    intro o
    have e : ∃ o', code (sig o') = code (sig o) := ⟨o, rfl⟩
    simp only [H, dif_pos e]
    exact back_congr h d (code_inj e.choose_spec)
  have := (codes k).map H
  rw [List.map_map, List.map_map] at this
  simpa only [Function.comp_def, hH] using this

theorem shape_back {net : Slice ℚ → Slice ℚ} {n : ℕ} {x : Arr ℚ} (h : ∀ d, x.shape d = n) (d : Fin 3) (o : Manip) (d' : Fin 3) :
    (back net n x d o).shape d' = n := by
  have hc : ∀ d', (copy net n (forward o x) d).shape d' = n := shape_forward h o
  exact (((agree_refl hc).rot90 _ _ _).opt o.1).1 d'

theorem flip_val {n : ℕ} {m : Arr ℚ} (h : ∀ d, m.shape d = n) (k : Fin 3) (c : Fin 3 → ℤ) : (m.flip k).val c = m.val (mirror k n c) := by
  simp only [Arr.flip, h]
  congr 1
  funext d
  by_cases hd : d = k
  · subst hd; simp [mirror]
  · simp [mirror, hd]

theorem values_perm (net : Slice ℚ → Slice ℚ) {n : ℕ} {x : Arr ℚ} (h : ∀ d, x.shape d = n) (k : Bool) (c : Fin 3 → ℤ) :
    ((copies net uniqueOps (x.flip (ax k))).map fun m => m.val c).Perm
      ((copies net uniqueOps x).map fun m => m.val (mirror (ax k) n c)) := by
  have hs : (x.flip (ax k)).shape 0 = n := h 0
  unfold copies
  rw [hs, h 0, List.map_flatMap, List.map_flatMap]
  refine List.Perm.flatMap_left _ fun d _ => ?_
  rw [List.map_map, List.map_map]
  have h1 := (back_perm net h d k).map fun m => m.val (mirror (ax k) n c)
  rw [List.map_map, List.map_map] at h1
  refine (List.Perm.of_eq ?_).trans h1
  refine List.map_congr_left fun o _ => ?_
  simp only [Function.comp_apply]
  rw [forward_flip, backward_flip k o, ← flip_val (shape_back h d _)]
  rfl

theorem mean_eq {l l' : List (Arr ℚ)} {c c' : Fin 3 → ℤ} (h : (l.map fun m => m.val c).Perm (l'.map fun m => m.val c')) : mean l c = mean l' c' := by
  unfold mean
  have hl := h.length_eq
  rw [List.length_map, List.length_map] at hl
  rw [h.sum_eq, hl]

theorem variance_eq {l l' : List (Arr ℚ)} {c c' : Fin 3 → ℤ} (h : (l.map fun m => m.val c).Perm (l'.map fun m => m.val c')) :
    variance l c = variance l' c' := by
  unfold variance
  have hl := h.length_eq
  rw [List.length_map, List.length_map] at hl
  have h2 := h.map fun v => (v - mean l c) ^ 2
  rw [List.map_map, List.map_map] at h2
  have h3 := h2.sum_eq
  simp only [Function.comp_def] at h3
  rw [h3, hl, mean_eq h]

theorem prediction_cube (net : Slice ℚ → Slice ℚ) (ops : List Manip) {n : ℕ} {x : Arr ℚ} (h : ∀ d, x.shape d = n) :
    prediction net ops x = .ok (fun c => roundEven (mean (copies net ops x) c), variance (copies net ops x)) := by
  unfold prediction
  refine if_neg ?_
  rintro ⟨o, _, h1 | ⟨d, h1⟩⟩
  · exact h1 (funext fun d => by rw [shape_forward h, h])
  · rw [shape_forward h, h] at h1
    exact lt_irrefl _ h1

theorem follows_ax (k : Bool) : Follows Any 2 (mirror (ax k)) := by
  intro net _ n x y hs hy seg err hx
  have h : ∀ d, x.shape d = n := fun d => (hs d).1
  have hm : manip 2 = uniqueOps := rfl
  have e : y = x.flip (ax k) := Arr.ext (funext fun d => by rw [(hs d).2]; exact (h d).symm) fun c => by rw [hy, flip_val h]
  rw [hm, prediction_cube net _ h] at hx
  have hx := Except.ok.inj hx
  rw [hm, prediction_cube net _ fun d => (hs d).2]
  refine ⟨_, _, rfl, fun c _ => ?_⟩
  have hp := values_perm net h k c
  rw [← e] at hp
  rw [← (Prod.mk.inj hx).1, ← (Prod.mk.inj hx).2]
  exact ⟨by rw [mean_eq hp], variance_eq hp⟩

/-! ### Networks that treat the sides alike -/

section
variable {net : Slice ℚ → Slice ℚ}

/-- The network plane by plane commutes with `op`, up to the order of the axes. -/
def Good (net : Slice ℚ → Slice ℚ) (n : ℕ) (op : Arr ℚ → Arr ℚ) : Prop :=
  (∀ a b : Arr ℚ, Agree n a b → Agree n (op a) (op b)) ∧
    ∃ σ : Equiv.Perm (Fin 3), ∀ m : Arr ℚ, (∀ d, m.shape d = n) → ∀ d, Agree n (copy net n (op m) d) (op (copy net n m (σ d)))

theorem Agree.trans' {n : ℕ} {a b c : Arr ℚ} (h : Agree n a b) (h' : Agree n b c) : Agree n a c :=
  ⟨h.1, h'.2.1, fun e he => (h.2.2 e he).trans (h'.2.2 e he)⟩

theorem Good.comp {n : ℕ} {f g : Arr ℚ → Arr ℚ} (hf : Good net n f) (hg : Good net n g) : Good net n fun m => f (g m) := by
  obtain ⟨f1, σ, f2⟩ := hf
  obtain ⟨g1, τ, g2⟩ := hg
  refine ⟨fun a b h => f1 _ _ (g1 _ _ h), σ.trans τ, fun m hm d => ?_⟩
  have hgm : ∀ d, (g m).shape d = n := (g1 _ _ (agree_refl hm)).1
  exact Agree.trans' (f2 _ hgm d) (f1 _ _ (g2 m hm (σ d)))

theorem Good.id (n : ℕ) : Good net n fun m => m := by
  refine ⟨fun _ _ h => h, Equiv.refl _, fun m hm d => ?_⟩
  exact agree_refl (a := copy net n m d) hm

theorem copy_val {n : ℕ} (m : Arr ℚ) (d : Fin 3) {c : Fin 3 → ℤ} (h : c d < n) :
    (copy net n m d).val c = (net (m.slice d (c d))).val (within d c).1 (within d c).2 := if_pos h

theorem inBox_mirror {n : ℕ} {c : Fin 3 → ℤ} (hc : ∀ d, 0 ≤ c d ∧ c d < n) (k d : Fin 3) : 0 ≤ mirror k n c d ∧ mirror k n c d < n := by
  unfold mirror
  have := hc d
  split <;> omega

theorem good_flip (he : Even net) (n : ℕ) (a : Fin 3) : Good net n fun m => m.flip a := by
  refine ⟨fun _ _ h => h.flip a, Equiv.refl _, fun m hm d => ?_⟩
  have hm' : ∀ d, (m.flip a).shape d = n := hm
  refine ⟨hm, hm, fun c hc => ?_⟩
  have hcs : ∀ e, (copy net n m d).shape e = n := hm
  have hR := copy_val (net := net) m d (inBox_mirror hc a d).2
  rw [Equiv.refl_apply, flip_val hcs, hR, copy_val _ _ (hc d).2]
  have hs : ∀ j : ℤ, m.slice d j = ⟨n, n, (m.slice d j).val⟩ := by
    intro j
    match d with
    | 0 => simp only [Arr.slice, hm]
    | 1 => simp only [Arr.slice, hm]
    | 2 => simp only [Arr.slice, hm]
  have hs' : ∀ j : ℤ, (m.flip a).slice d j = ⟨n, n, ((m.flip a).slice d j).val⟩ := by
    intro j
    match d with
    | 0 => simp only [Arr.slice, hm']
    | 1 => simp only [Arr.slice, hm']
    | 2 => simp only [Arr.slice, hm']
  have hv : ∀ v : Fin 3 → ℤ, (m.flip a).val v = m.val (mirror a n v) := flip_val hm a
  have hmir : ∀ u v w : ℤ, mirror a n ![u, v, w] = ![if (0 : Fin 3) = a then n - 1 - u else u, if (1 : Fin 3) = a then n - 1 - v else v,
      if (2 : Fin 3) = a then n - 1 - w else w] := by
    intro u v w
    funext i
    match i with
    | 0 => rfl
    | 1 => rfl
    | 2 => rfl
  rw [hs', hs]
  have e1 := fun j p q => (he ⟨n, n, (m.slice d j).val⟩ p q).1
  have e2 := fun j p q => (he ⟨n, n, (m.slice d j).val⟩ p q).2.1
  match d, a with
  | 0, 0 => simp only [Arr.slice, hv, hmir]; rfl
  | 0, 1 => simp only [Arr.slice, hv, hmir]; exact e1 _ _ _
  | 0, 2 => simp only [Arr.slice, hv, hmir]; exact e2 _ _ _
  | 1, 0 => simp only [Arr.slice, hv, hmir]; exact e1 _ _ _
  | 1, 1 => simp only [Arr.slice, hv, hmir]; rfl
  | 1, 2 => simp only [Arr.slice, hv, hmir]; exact e2 _ _ _
  | 2, 0 => simp only [Arr.slice, hv, hmir]; exact e1 _ _ _
  | 2, 1 => simp only [Arr.slice, hv, hmir]; exact e2 _ _ _
  | 2, 2 => simp only [Arr.slice, hv, hmir]; rfl

theorem good_swap (he : Even net) (n : ℕ) (a b : Fin 3) : Good net n fun m => m.swap a b := by
  refine ⟨fun _ _ h => h.swap a b, Equiv.swap a b, fun m hm d => ?_⟩
  have hm' : ∀ d, (m.swap a b).shape d = n := fun d => hm _
  refine ⟨hm', fun _ => hm _, fun c hc => ?_⟩
  have hR := copy_val (net := net) (c := c ∘ Equiv.swap a b) m (Equiv.swap a b d) (hc _).2
  rw [show ((copy net n m (Equiv.swap a b d)).swap a b).val c = (copy net n m (Equiv.swap a b d)).val (c ∘ Equiv.swap a b) from rfl, hR,
    copy_val _ _ (hc d).2]
  have hs : ∀ (d : Fin 3) (j : ℤ), m.slice d j = ⟨n, n, (m.slice d j).val⟩ := by
    intro d j
    match d with
    | 0 => simp only [Arr.slice, hm]
    | 1 => simp only [Arr.slice, hm]
    | 2 => simp only [Arr.slice, hm]
  have hs' : ∀ j : ℤ, (m.swap a b).slice d j = ⟨n, n, ((m.swap a b).slice d j).val⟩ := by
    intro j
    match d with
    | 0 => simp only [Arr.slice, hm']
    | 1 => simp only [Arr.slice, hm']
    | 2 => simp only [Arr.slice, hm']
  have hv : ∀ v : Fin 3 → ℤ, (m.swap a b).val v = m.val (v ∘ Equiv.swap a b) := fun _ => rfl
  have hsw : ∀ u v w : ℤ, ![u, v, w] ∘ Equiv.swap a b = ![![u, v, w] (Equiv.swap a b 0), ![u, v, w] (Equiv.swap a b 1), ![u, v, w] (Equiv.swap a b 2)] := by
    intro u v w
    funext i
    match i with
    | 0 => rfl
    | 1 => rfl
    | 2 => rfl
  rw [hs', hs]
  have e3 := fun (d : Fin 3) j p q => (he ⟨n, n, (m.slice d j).val⟩ p q).2.2
  simp only [Function.comp_apply, Equiv.swap_apply_self]
  match d, a, b with
  | 0, 0, 0 => simp only [Arr.slice, hv, hsw]; rfl
  | 0, 1, 1 => simp only [Arr.slice, hv, hsw]; rfl
  | 0, 2, 2 => simp only [Arr.slice, hv, hsw]; rfl
  | 1, 0, 0 => simp only [Arr.slice, hv, hsw]; rfl
  | 1, 1, 1 => simp only [Arr.slice, hv, hsw]; rfl
  | 1, 2, 2 => simp only [Arr.slice, hv, hsw]; rfl
  | 2, 0, 0 => simp only [Arr.slice, hv, hsw]; rfl
  | 2, 1, 1 => simp only [Arr.slice, hv, hsw]; rfl
  | 2, 2, 2 => simp only [Arr.slice, hv, hsw]; rfl
  | 0, 0, 1 => simp only [Arr.slice, hv, hsw]; rfl
  | 0, 1, 0 => simp only [Arr.slice, hv, hsw]; rfl
  | 1, 0, 1 => simp only [Arr.slice, hv, hsw]; rfl
  | 1, 1, 0 => simp only [Arr.slice, hv, hsw]; rfl
  | 2, 0, 1 => simp only [Arr.slice, hv, hsw]; exact e3 2 _ _ _
  | 2, 1, 0 => simp only [Arr.slice, hv, hsw]; exact e3 2 _ _ _
  | 0, 0, 2 => simp only [Arr.slice, hv, hsw]; exact e3 2 _ _ _
  | 0, 2, 0 => simp only [Arr.slice, hv, hsw]; exact e3 2 _ _ _
  | 1, 0, 2 => simp only [Arr.slice, hv, hsw]; exact e3 1 _ _ _
  | 1, 2, 0 => simp only [Arr.slice, hv, hsw]; exact e3 1 _ _ _
  | 2, 0, 2 => simp only [Arr.slice, hv, hsw]; exact e3 0 _ _ _
  | 2, 2, 0 => simp only [Arr.slice, hv, hsw]; exact e3 0 _ _ _
  | 0, 1, 2 => simp only [Arr.slice, hv, hsw]; exact e3 0 _ _ _
  | 0, 2, 1 => simp only [Arr.slice, hv, hsw]; exact e3 0 _ _ _
  | 1, 1, 2 => simp only [Arr.slice, hv, hsw]; rfl
  | 1, 2, 1 => simp only [Arr.slice, hv, hsw]; rfl
  | 2, 1, 2 => simp only [Arr.slice, hv, hsw]; rfl
  | 2, 2, 1 => simp only [Arr.slice, hv, hsw]; rfl

theorem good_forward (he : Even net) (n : ℕ) (o : Manip) : Good net n (forward o) := by
  have h1 : Good net n fun m => o.1.apply m := by
    cases o.1 with
    | id => exact Good.id n
    | fliplr => exact good_flip he n 1
    | flipud => exact good_flip he n 0
    | udlr => exact (good_flip he n 0).comp (good_flip he n 1)
    | lrud => exact (good_flip he n 1).comp (good_flip he n 0)
  have h2 : ∀ (k : ℤ) (a b : Fin 3), Good net n fun m => m.rot90 k a b := by
    intro k a b
    unfold Arr.rot90
    split_ifs
    · exact Good.id n
    · exact (good_flip he n b).comp (good_flip he n a)
    · exact (good_swap he n a b).comp (good_flip he n b)
    · exact (good_flip he n b).comp (good_swap he n a b)
  exact (h2 o.2.2 (axes o.2.1).1 (axes o.2.1).2).comp h1

theorem axes_perm (σ : Equiv.Perm (Fin 3)) : ([0, 1, 2].map σ).Perm [(0 : Fin 3), 1, 2] := by
  refine (List.perm_ext_iff_of_nodup ?_ (by decide)).2 fun e => ?_
  · exact (List.nodup_map_iff σ.injective).2 (by decide)
  · have he : e ∈ [(0 : Fin 3), 1, 2] := by revert e; decide
    refine ⟨fun _ => he, fun _ => List.mem_map.2 ⟨σ.symm e, ?_, σ.apply_symm_apply e⟩⟩
    generalize σ.symm e = e'
    revert e'
    decide

/-- What the network makes of the three planes through a cell. -/
theorem sum_copies (he : Even net) {n : ℕ} {x : Arr ℚ} (h : ∀ d, x.shape d = n) (ops : List Manip) {c : Fin 3 → ℤ} (hc : ∀ d, 0 ≤ c d ∧ c d < n)
    (f : ℚ → ℚ) : ((copies net ops x).map fun m => f (m.val c)).sum =
      ops.length * ([(0 : Fin 3), 1, 2].map fun d => f ((copy net n x d).val c)).sum := by
  have hval : ∀ o : Manip, ([(0 : Fin 3), 1, 2].map fun d => f ((backward o (copy net n (forward o x) d)).val c)).sum =
      ([(0 : Fin 3), 1, 2].map fun d => f ((copy net n x d).val c)).sum := by
    intro o
    obtain ⟨_, σ, hσ⟩ := good_forward he n o
    have e : ∀ d, (backward o (copy net n (forward o x) d)).val c = (copy net n x (σ d)).val c := by
      intro d
      have h1 : Agree n (backward o (copy net n (forward o x) d)) (backward o (forward o (copy net n x (σ d)))) :=
        ((hσ x h d).rot90 _ _ _).opt o.1
      rw [C46_undone] at h1
      exact h1.2.2 c hc
    simp only [e]
    have := ((axes_perm σ).map fun d => f ((copy net n x d).val c)).sum_eq
    rwa [List.map_map] at this
  unfold copies
  rw [h 0]
  simp only [List.flatMap_cons, List.flatMap_nil, List.append_nil, List.map_append, List.sum_append, List.map_map, Function.comp_def]
  induction ops with
  | nil => simp
  | cons o ops ih =>
    have ho := hval o
    simp only [List.map_cons, List.map_nil, List.sum_cons, List.sum_nil, List.length_cons] at ho ih ⊢
    push_cast
    linarith

theorem length_copies (net : Slice ℚ → Slice ℚ) (ops : List Manip) (x : Arr ℚ) : (copies net ops x).length = ops.length * 3 := by
  simp only [copies, List.flatMap_cons, List.flatMap_nil, List.append_nil, List.length_append, List.length_map]
  omega

theorem manip_pos (tta : ℤ) : ((manip tta).length : ℚ) ≠ 0 := by
  have : manip tta ≠ [] := by
    unfold manip
    split
    · exact uniqueOps_ne
    · simp
  exact_mod_cast (List.length_pos_of_ne_nil this).ne'

theorem mean_even (he : Even net) {n : ℕ} {x : Arr ℚ} (h : ∀ d, x.shape d = n) (tta : ℤ) {c : Fin 3 → ℤ} (hc : ∀ d, 0 ≤ c d ∧ c d < n) :
    mean (copies net (manip tta) x) c = ([(0 : Fin 3), 1, 2].map fun d => (copy net n x d).val c).sum / 3 := by
  have hp := manip_pos tta
  have := sum_copies he h (manip tta) hc fun v => v
  unfold mean
  rw [this, length_copies]
  push_cast
  field_simp

theorem variance_even (he : Even net) {n : ℕ} {x : Arr ℚ} (h : ∀ d, x.shape d = n) (tta : ℤ) {c : Fin 3 → ℤ} (hc : ∀ d, 0 ≤ c d ∧ c d < n) :
    variance (copies net (manip tta) x) c = ([(0 : Fin 3), 1, 2].map fun d =>
      ((copy net n x d).val c - ([(0 : Fin 3), 1, 2].map fun d => (copy net n x d).val c).sum / 3) ^ 2).sum / 3 := by
  have hp := manip_pos tta
  have := sum_copies he h (manip tta) hc fun v => (v - ([(0 : Fin 3), 1, 2].map fun d => (copy net n x d).val c).sum / 3) ^ 2
  unfold variance
  rw [mean_even he h tta hc, this, length_copies]
  push_cast
  rw [mul_div_mul_left _ _ hp]

theorem follows_good {g : ℕ → (Fin 3 → ℤ) → Fin 3 → ℤ} (op : Arr ℚ → Arr ℚ)
    (hop : ∀ (m : Arr ℚ) (n : ℕ), (∀ d, m.shape d = n) → (∀ d, (op m).shape d = n) ∧ ∀ c, (op m).val c = m.val (g n c))
    (hbox : ∀ (n : ℕ) (c : Fin 3 → ℤ), (∀ d, 0 ≤ c d ∧ c d < n) → ∀ d, 0 ≤ g n c d ∧ g n c d < n)
    (hgood : ∀ net, Even net → ∀ n, Good net n op) (tta : ℤ) : Follows Even tta g := by
  intro net he n x y hs hy seg err hx
  have h : ∀ d, x.shape d = n := fun d => (hs d).1
  have h' : ∀ d, y.shape d = n := fun d => (hs d).2
  have e : y = op x := Arr.ext (funext fun d => by rw [h', (hop x n h).1]) fun c => by rw [hy, (hop x n h).2]
  rw [prediction_cube net _ h] at hx
  have hx := Except.ok.inj hx
  rw [prediction_cube net _ h']
  refine ⟨_, _, rfl, fun c hc => ?_⟩
  obtain ⟨_, σ, hσ⟩ := hgood net he n
  have ev : ∀ d, (copy net n y d).val c = (copy net n x (σ d)).val (g n c) := by
    intro d
    rw [e, (hσ x h d).2.2 c hc, (hop (copy net n x (σ d)) n h).2]
  have hsum : ∀ f : ℚ → ℚ, ([(0 : Fin 3), 1, 2].map fun d => f ((copy net n y d).val c)).sum =
      ([(0 : Fin 3), 1, 2].map fun d => f ((copy net n x d).val (g n c))).sum := by
    intro f
    simp only [ev]
    have := ((axes_perm σ).map fun d => f ((copy net n x d).val (g n c))).sum_eq
    rwa [List.map_map] at this
  rw [← (Prod.mk.inj hx).1, ← (Prod.mk.inj hx).2]
  have hm := hsum fun v => v
  refine ⟨?_, ?_⟩
  · show roundEven _ = roundEven _
    rw [mean_even he h' tta hc, mean_even he h tta (hbox n c hc), hm]
  · rw [variance_even he h' tta hc, variance_even he h tta (hbox n c hc), hm]
    rw [hsum fun v => (v - ([(0 : Fin 3), 1, 2].map fun d => (copy net n x d).val (g n c)).sum / 3) ^ 2]

end

/-! ## C244 -/

theorem C244_partial : Follows Any 2 (mirror 0) ∧ Follows Any 2 (mirror 1) ∧ Follows Any 2 (fun n c => mirror 0 n (mirror 1 n c)) := by
  refine ⟨follows_ax false, follows_ax true, ?_⟩
  intro net _ n x y hs hy seg err hx
  obtain ⟨seg1, err1, h1, e1⟩ := follows_ax false net trivial n x ⟨fun _ => n, fun c => x.val (mirror 0 n c)⟩ (fun d => ⟨(hs d).1, rfl⟩) (fun _ => rfl) seg err hx
  obtain ⟨seg2, err2, h2, e2⟩ := follows_ax true net trivial n ⟨fun _ => n, fun c => x.val (mirror 0 n c)⟩ y (fun d => ⟨rfl, (hs d).2⟩) (fun c => hy c) seg1 err1 h1
  refine ⟨seg2, err2, h2, fun c hc => ?_⟩
  have hc' : ∀ d, 0 ≤ mirror 1 n c d ∧ mirror 1 n c d < n := by
    intro d
    unfold mirror
    have := hc d
    split <;> omega
  exact ⟨((e2 c hc).1).trans (e1 _ hc').1, ((e2 c hc).2).trans (e1 _ hc').2⟩

/-- The first column of every plane, repeated. -/
def firstColumn (s : Slice ℚ) : Slice ℚ := ⟨s.rows, s.cols, fun p _ => s.val p 0⟩

/-- A cube with one bright cell. -/
def bright : Arr ℚ := ⟨fun _ => 2, fun c => if c 0 = 0 ∧ c 1 = 0 ∧ c 2 = 0 then 1000 else 0⟩

/-- The prediction exists, and the bright cell stays bright: 11500/21 rounded. -/
example : ∃ seg err, prediction firstColumn (manip 2) bright = .ok (seg, err) ∧ seg (fun _ => 0) = 548 ∧ seg ![0, 0, 1] = 238 ∧ seg ![1, 1, 1] = 0 :=
  ⟨_, _, prediction_cube _ _ fun _ => rfl, by decide +kernel⟩

theorem not_follows {g : ℕ → (Fin 3 → ℤ) → Fin 3 → ℤ}
    (h : roundEven (mean (copies firstColumn uniqueOps ⟨fun _ => 2, fun c => bright.val (g 2 c)⟩) fun _ => 0) ≠
      roundEven (mean (copies firstColumn uniqueOps bright) (g 2 fun _ => 0))) : ¬ Follows Any 2 g := by
  intro hf
  have hm : manip 2 = uniqueOps := rfl
  have h1 := hf firstColumn trivial 2 bright ⟨fun _ => 2, fun c => bright.val (g 2 c)⟩ (fun _ => ⟨rfl, rfl⟩) (fun _ => rfl) _ _
    (by rw [hm]; exact prediction_cube _ _ fun _ => rfl)
  obtain ⟨seg', err', h2, h3⟩ := h1
  rw [hm, prediction_cube _ _ fun _ => rfl] at h2
  have h4 := (h3 (fun _ => 0) fun _ => ⟨le_refl _, by decide⟩).1
  rw [← (Prod.mk.inj (Except.ok.inj h2)).1] at h4
  exact h h4

theorem C244_false : ¬ Follows Any 2 (mirror 2) ∧ ∀ a b : Fin 3, a ≠ b → ¬ Follows Any 2 (turn a b) := by
  refine ⟨not_follows (by decide +kernel), fun a b hab => ?_⟩
  match a, b, hab with
  | 0, 1, _ => exact not_follows (by decide +kernel)
  | 0, 2, _ => exact not_follows (by decide +kernel)
  | 1, 0, _ => exact not_follows (by decide +kernel)
  | 1, 2, _ => exact not_follows (by decide +kernel)
  | 2, 0, _ => exact not_follows (by decide +kernel)
  | 2, 1, _ => exact not_follows (by decide +kernel)
  | 0, 0, h => exact absurd rfl h
  | 1, 1, h => exact absurd rfl h
  | 2, 2, h => exact absurd rfl h

/-- The network smooths along both sides of the plane: an example of a network that treats them alike. -/
def cross (s : Slice ℚ) : Slice ℚ :=
  ⟨s.rows, s.cols, fun p q => s.val (p - 1) q + s.val (p + 1) q + s.val p (q - 1) + s.val p (q + 1)⟩

example : Even cross := by
  intro s p q
  simp only [cross]
  refine ⟨?_, ?_, ?_⟩
  · rw [show (s.rows : ℤ) - 1 - (p - 1) = s.rows - 1 - p + 1 by ring, show (s.rows : ℤ) - 1 - (p + 1) = s.rows - 1 - p - 1 by ring]
    ring
  · rw [show (s.cols : ℤ) - 1 - (q - 1) = s.cols - 1 - q + 1 by ring, show (s.cols : ℤ) - 1 - (q + 1) = s.cols - 1 - q - 1 by ring]
    ring
  · ring

example : ¬ Even firstColumn := by
  intro h
  have := (h ⟨2, 2, fun _ q => q⟩ 0 0).2.1
  simp [firstColumn] at this

/-- For a network that treats the sides of a plane alike the prediction turns with the image, with and without augmentation. -/
theorem C244_even (tta : ℤ) : (∀ k, Follows Even tta (mirror k)) ∧ ∀ a b : Fin 3, a ≠ b → Follows Even tta (turn a b) := by
  refine ⟨fun k => follows_good (fun m => m.flip k) (fun m n h => ⟨h, flip_val h k⟩) (fun n c hc => inBox_mirror hc k)
    (fun net he n => good_flip he n k) tta, fun a b hab => follows_good (fun m => (m.flip b).swap a b) (fun m n h => ⟨fun d => h _, fun c => ?_⟩) ?_
    (fun net he n => (good_swap he n a b).comp (good_flip he n b)) tta⟩
  · rw [show ((m.flip b).swap a b).val c = (m.flip b).val (c ∘ Equiv.swap a b) from rfl, flip_val h]
    congr 1
    funext d
    simp only [mirror, turn, Function.comp_apply]
    by_cases ha : d = a
    · subst ha
      rw [if_neg hab, if_pos rfl, Equiv.swap_apply_left]
    · by_cases hb : d = b
      · subst hb
        rw [if_pos rfl, if_neg ha, if_pos rfl, Equiv.swap_apply_right]
      · rw [if_neg hb, if_neg ha, if_neg hb, Equiv.swap_apply_of_ne_of_ne ha hb]
  · intro n c hc d
    unfold turn
    have h1 := hc a
    have h2 := hc b
    have h3 := hc d
    split
    · exact h2
    · split
      · omega
      · exact h3

/-- For such a network the augmentation changes nothing. -/
theorem C244_idle (net : Slice ℚ → Slice ℚ) (he : Even net) (n : ℕ) (x : Arr ℚ) (h : ∀ d, x.shape d = n) (seg err seg' err')
    (h1 : prediction net (manip 1) x = .ok (seg, err)) (h2 : prediction net (manip 2) x = .ok (seg', err')) (c : Fin 3 → ℤ)
    (hc : ∀ d, 0 ≤ c d ∧ c d < n) : seg' c = seg c ∧ err' c = err c := by
  rw [prediction_cube net _ h] at h1 h2
  have h1 := Prod.mk.inj (Except.ok.inj h1)
  have h2 := Prod.mk.inj (Except.ok.inj h2)
  rw [← h1.1, ← h1.2, ← h2.1, ← h2.2]
  exact ⟨by show roundEven _ = roundEven _; rw [mean_even he h 2 hc, mean_even he h 1 hc], by rw [variance_even he h 2 hc, variance_even he h 1 hc]⟩

/-- For other networks it does. -/
example : roundEven (mean (copies firstColumn (manip 1) bright) fun _ => 0) ≠ roundEven (mean (copies firstColumn (manip 2) bright) fun _ => 0) := by
  decide +kernel

/-- The table has 28 operations of the 48 symmetries of a cube: two quarter turns about different axes are not among them. -/
theorem C244_missing : (manip 2).length = 28 ∧
    ¬ ∃ o ∈ manip 2, ∀ x y : Arr ℚ, (∀ d, x.shape d = 3 ∧ y.shape d = 3) → (∀ c, y.val c = x.val (turn 0 1 3 (turn 1 2 3 c))) →
      ∀ c : Fin 3 → ℤ, (∀ d, 0 ≤ c d ∧ c d < 3) → (forward o x).val c = y.val c := by
  refine ⟨by decide +kernel, ?_⟩
  rintro ⟨o, ho, h⟩
  have h1 := fun c hc => h ⟨fun _ => 3, fun c => 9 * c 0 + 3 * c 1 + c 2⟩ ⟨fun _ => 3, fun c => 9 * turn 0 1 3 (turn 1 2 3 c) 0
    + 3 * turn 0 1 3 (turn 1 2 3 c) 1 + turn 0 1 3 (turn 1 2 3 c) 2⟩ (fun _ => ⟨rfl, rfl⟩) (fun c => rfl) c hc
  have h2 := h1 ![0, 1, 2] (by decide)
  have h3 := h1 ![0, 0, 1] (by decide)
  have h4 := h1 ![1, 0, 0] (by decide)
  clear h h1
  revert o
  decide +kernel

end Verif.Orientation

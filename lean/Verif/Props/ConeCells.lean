import Verif.Model.ConeCells
import Verif.Props.LightconeSlices
import Verif.Props.VelocityCone
import Mathlib.Tactic.Ring
import Mathlib.Tactic.FieldSimp
import Mathlib.Tactic.NormNum
/-!
# Lightcones of sums and of moved boxes (C250)
-/

set_option linter.unusedSectionVars false

namespace Verif.Lightcone

variable {K : Type} [Field K] [LinearOrder K] [IsStrictOrderedRing K] {D : Type}

/-! ## Specification -/

/-- Two cubes of one shape. -/
def Alike (d d' : Cube K) : Prop := d.n0 = d'.n0 ∧ d.n1 = d'.n1 ∧ d.n2 = d'.n2

/-- The lightcones `x` and `y` are made of the same number of slices and `R` holds for the slices at each position; or both calls
raise the same error, or neither comes to an end. -/
def SliceBySlice (R : (ℕ → ℕ → K) → (ℕ → ℕ → K) → Prop) (x y : Option (Except String (List (ℕ → ℕ → K)))) : Prop :=
  match x, y with
  | some (.ok l), some (.ok l') => l.length = l'.length ∧ ∀ (k : ℕ) f g, l[k]? = some f → l'[k]? = some g → R f g
  | some (.error e), some (.error e') => e = e'
  | none, none => True
  | _, _ => False

/-- The cell of a cube at the index `k` along the line of sight and the position `(i, j)` across it. -/
def cell (d : Cube K) (axis k i j : ℕ) : K :=
  if axis = 0 then d.val k i j else if axis = 1 then d.val i k j else d.val i j k

/-- The share of the upper snapshot in a cell of a slice at the redshift `z` between the snapshots at `lo` and `hi` (`step` changes
over at half their distance, counted from redshift zero: see C09). -/
def share (exp : K → K) (s : Scheme K) (lo hi z : K) (i j : ℕ) : K :=
  match s with
  | .linear => (z - lo) / (hi - lo)
  | .step => if 2 * z < hi - lo then 0 else 1
  | .sigmoid => 1 / (1 + exp (20 - 40 * (z - lo) / (hi - lo)))
  | .stepCell t => if z - lo < t i j * (hi - lo) then 0 else 1

/-! ## Lemmas -/

/-- The files read are named by their numbers. -/
def Used.of (read : ℕ → D) (u : Used K ℕ) : Used K D := ⟨read u.dataHigh, read u.dataLow, u.zHigh, u.zLow, u.z, u.pos⟩

def Vars.of (read : ℕ → D) (v : Vars K ℕ) : Vars K D := ⟨v.zLow, v.zHigh, v.dataLow.map read, v.dataHigh.map read⟩

theorem stepScalar_of (read : ℕ → D) (zs : List K) (v : Vars K ℕ) (z : K) (n : ℕ) :
    stepScalar read zs (v.of read) z n = (stepScalar id zs v z n).map fun p => (p.1.of read, p.2.of read) := by
  unfold stepScalar
  cases bracketLow zs z with
  | none => rfl
  | some lo =>
    cases bracketHigh zs z with
    | none => rfl
    | some hi =>
      obtain ⟨a, b, c, d⟩ := v
      simp only [Vars.of]
      by_cases h1 : some lo ≠ a <;> by_cases h2 : some hi ≠ b <;> cases c <;> cases d <;>
        simp [h1, h2, Except.map, Used.of]

theorem loop_of (read : ℕ → D) (zs : List K) : ∀ (out : List K) (v : Vars K ℕ) (n : ℕ),
    loop (stepScalar read zs) (v.of read) n out = (loop (stepScalar id zs) v n out).map fun us => us.map (Used.of read) := by
  intro out
  induction out with
  | nil => intros; rfl
  | cons z out ih =>
    intro v n
    simp only [loop, stepScalar_of]
    cases stepScalar id zs v z n with
    | error e => rfl
    | ok p =>
      simp only [bind, Except.bind, Except.map, ih]
      cases loop (stepScalar id zs) p.1 (n + 1) out with
      | error e => rfl
      | ok r => rfl

theorem scalarSlices_of (read : ℕ → D) (zs out : List K) :
    scalarSlices read zs out = (scalarSlices id zs out).map fun us => us.map (Used.of read) := loop_of read zs out .start 0

theorem mapM_rel {α β γ ε : Type} (R : β → γ → Prop) (f : α → Except ε β) (g : α → Except ε γ)
    (h : ∀ x, (∃ e, f x = .error e ∧ g x = .error e) ∨ ∃ b c, f x = .ok b ∧ g x = .ok c ∧ R b c) : ∀ l : List α,
    (∃ e, l.mapM f = .error e ∧ l.mapM g = .error e) ∨ ∃ bs cs, l.mapM f = .ok bs ∧ l.mapM g = .ok cs ∧ List.Forall₂ R bs cs := by
  intro l
  induction l with
  | nil => exact .inr ⟨[], [], rfl, rfl, .nil⟩
  | cons x l ih =>
    rw [List.mapM_cons, List.mapM_cons]
    rcases h x with ⟨e, e1, e2⟩ | ⟨b, c, e1, e2, hr⟩
    · exact .inl ⟨e, by rw [e1]; rfl, by rw [e2]; rfl⟩
    · rcases ih with ⟨e, i1, i2⟩ | ⟨bs, cs, i1, i2, hrs⟩
      · exact .inl ⟨e, by rw [e1, i1]; rfl, by rw [e2, i2]; rfl⟩
      · exact .inr ⟨b :: bs, c :: cs, by rw [e1, i1]; rfl, by rw [e2, i2]; rfl, .cons hr hrs⟩

/-- Two lightcones are related slice by slice when the interpolated slices are. -/
theorem coneCells_rel (C : Cosmo K) (exp : K → K) (s : Scheme K) (axis : ℕ) (read read' : ℕ → Cube K) (zs : List K)
    (zl zh : Option K) (n L : K) (dnu : Option K) (fuel : ℕ) (R : (ℕ → ℕ → K) → (ℕ → ℕ → K) → Prop)
    (h : ∀ u : Used K ℕ, (∃ e, interpSlice exp s axis (u.of read) = .error e ∧ interpSlice exp s axis (u.of read') = .error e) ∨
      ∃ f g, interpSlice exp s axis (u.of read) = .ok f ∧ interpSlice exp s axis (u.of read') = .ok g ∧ R f g) :
    SliceBySlice R (coneCells C exp s axis read zs zl zh n L dnu fuel) (coneCells C exp s axis read' zs zl zh n L dnu fuel) := by
  unfold coneCells makeLightcone
  rcases outputZ C zs zl zh n L dnu fuel with _ | _ | out
  · exact trivial
  · exact rfl
  · simp only [Option.map_some, Except.bind]
    rw [scalarSlices_of read, scalarSlices_of read']
    cases scalarSlices id zs out with
    | error e => exact rfl
    | ok us =>
      simp only [Except.map, List.mapM_map]
      rcases mapM_rel R _ _ h us with ⟨e, e1, e2⟩ | ⟨bs, cs, e1, e2, hr⟩
      · simp only [Function.comp_def] at e1 e2 ⊢
        rw [e1, e2]
        exact rfl
      · simp only [Function.comp_def] at e1 e2 ⊢
        rw [e1, e2]
        exact ⟨hr.length_eq, fun k f g hf hg => by
          obtain ⟨i1, rfl⟩ := List.getElem?_eq_some_iff.1 hf
          obtain ⟨i2, rfl⟩ := List.getElem?_eq_some_iff.1 hg
          exact (List.forall₂_iff_get.1 hr).2 k i1 i2⟩

theorem getSlice_alike {d d' : Cube K} (h : Alike d d') (idx axis : ℕ) :
    (∃ e, getSlice d idx axis = .error e ∧ getSlice d' idx axis = .error e) ∨
      getSlice d idx axis = .ok (cell d axis idx) ∧ getSlice d' idx axis = .ok (cell d' axis idx) := by
  obtain ⟨h0, h1, h2⟩ := h
  unfold getSlice cell
  rw [h0, h1, h2]
  by_cases a0 : axis = 0
  · simp only [a0, if_true]
    by_cases c : idx < d'.n0
    · exact .inr ⟨by rw [if_pos c], by rw [if_pos c]⟩
    · exact .inl ⟨_, by rw [if_neg c], by rw [if_neg c]⟩
  by_cases a1 : axis = 1
  · simp only [a1, if_true, one_ne_zero, if_false]
    by_cases c : idx < d'.n1
    · exact .inr ⟨by rw [if_pos c], by rw [if_pos c]⟩
    · exact .inl ⟨_, by rw [if_neg c], by rw [if_neg c]⟩
  by_cases a2 : axis = 2
  · subst a2
    simp only [OfNat.ofNat_ne_zero, OfNat.ofNat_ne_one, if_true, if_false]
    by_cases c : idx < d'.n2
    · exact .inr ⟨by rw [if_pos c], by rw [if_pos c]⟩
    · exact .inl ⟨_, by rw [if_neg c], by rw [if_neg c]⟩
  · simp only [a0, a1, a2, if_false]
    exact .inl ⟨_, rfl, rfl⟩

theorem interp_alike (exp : K → K) (s : Scheme K) (axis : ℕ) {read read' : ℕ → Cube K} (h : ∀ i, Alike (read i) (read' i))
    (u : Used K ℕ) :
    (∃ e, interpSlice exp s axis (u.of read) = .error e ∧ interpSlice exp s axis (u.of read') = .error e) ∨
      ∃ f g, interpSlice exp s axis (u.of read) = .ok f ∧ interpSlice exp s axis (u.of read') = .ok g ∧ ∀ k, k = u.pos % (read u.dataLow).n1 → ∀ i j,
        f i j = interpCell exp s (cell (read u.dataHigh) axis k i j) (cell (read u.dataLow) axis k i j) u.zHigh u.zLow u.z i j ∧
        g i j = interpCell exp s (cell (read' u.dataHigh) axis k i j) (cell (read' u.dataLow) axis k i j) u.zHigh u.zLow u.z i j := by
  unfold interpSlice
  simp only [Used.of]
  rw [← (h u.dataLow).2.1]
  rcases getSlice_alike (h u.dataLow) (u.pos % (read u.dataLow).n1) axis with ⟨e, e1, e2⟩ | ⟨e1, e2⟩
  · exact .inl ⟨e, by rw [e1]; rfl, by rw [e2]; rfl⟩
  rcases getSlice_alike (h u.dataHigh) (u.pos % (read u.dataLow).n1) axis with ⟨e, e3, e4⟩ | ⟨e3, e4⟩
  · exact .inl ⟨e, by rw [e1, e3]; rfl, by rw [e2, e4]; rfl⟩
  · exact .inr ⟨_, _, by rw [e1, e3]; rfl, by rw [e2, e4]; rfl, by rintro k rfl i j; exact ⟨rfl, rfl⟩⟩

/-! ## C250 -/

/-- C250, moved boxes: when the cubes are rearranged across the line of sight (rolled, mirrored, transposed or cut, `(i, j)` taken from
`σ i j`), so is every slice of the lightcone, in all interpolations but `step_cell`, which draws a transition for each cell. -/
theorem C250_moved (C : Cosmo K) (exp : K → K) (s : Scheme K) (hs : ∀ t, s ≠ .stepCell t) (axis : ℕ) (read read' : ℕ → Cube K)
    (σ : ℕ → ℕ → ℕ × ℕ) (P : ℕ → ℕ → Prop) (hr : ∀ n, Alike (read n) (read' n) ∧
      ∀ k i j, P i j → cell (read' n) axis k i j = cell (read n) axis k (σ i j).1 (σ i j).2)
    (zs : List K) (zl zh : Option K) (n L : K) (dnu : Option K) (fuel : ℕ) :
    SliceBySlice (fun f g => ∀ i j, P i j → g i j = f (σ i j).1 (σ i j).2)
      (coneCells C exp s axis read zs zl zh n L dnu fuel) (coneCells C exp s axis read' zs zl zh n L dnu fuel) := by
  refine coneCells_rel C exp s axis read read' zs zl zh n L dnu fuel _ fun u => ?_
  rcases interp_alike exp s axis (fun i => (hr i).1) u with h | ⟨f, g, e1, e2, h⟩
  · exact .inl h
  refine .inr ⟨f, g, e1, e2, fun i j hp => ?_⟩
  rw [(h _ rfl i j).2, (h _ rfl _ _).1, (hr _).2 _ i j hp, (hr _).2 _ i j hp]
  cases s with
  | stepCell t => exact absurd rfl (hs t)
  | _ => rfl

theorem interpCell_linear (exp : K → K) (s : Scheme K) (a b hi hi' lo lo' zh zl z : K) (i j : ℕ) :
    interpCell exp s (a * hi + b * hi') (a * lo + b * lo') zh zl z i j =
      a * interpCell exp s hi lo zh zl z i j + b * interpCell exp s hi' lo' zh zl z i j := by
  cases s with
  | linear => simp only [interpCell, div_eq_mul_inv]; ring
  | step => simp only [interpCell]; split_ifs <;> rfl
  | sigmoid => simp only [interpCell]; ring
  | stepCell t => simp only [interpCell]; split_ifs <;> rfl

theorem coneCells_get {C : Cosmo K} {exp : K → K} {s : Scheme K} {axis : ℕ} {read : ℕ → Cube K} {zs : List K} {zl zh : Option K}
    {n L : K} {dnu : Option K} {fuel : ℕ} {l : List (ℕ → ℕ → K)} (h : coneCells C exp s axis read zs zl zh n L dnu fuel = some (.ok l)) :
    ∃ out us, outputZ C zs zl zh n L dnu fuel = some (.ok out) ∧ scalarSlices id zs out = .ok us ∧
      us.mapM (fun u => interpSlice exp s axis (u.of read)) = .ok l := by
  unfold coneCells makeLightcone at h
  rcases ho : outputZ C zs zl zh n L dnu fuel with _ | _ | out
  · rw [ho] at h; cases h
  · rw [ho] at h; cases h
  rw [ho] at h
  simp only [Option.map_some, Except.bind, Option.some.injEq] at h
  rw [scalarSlices_of read] at h
  cases hu : scalarSlices id zs out with
  | error e => rw [hu] at h; cases h
  | ok us =>
    rw [hu] at h
    simp only [Except.map, List.mapM_map] at h
    exact ⟨out, us, rfl, hu, h⟩

/-- C250, sums: the lightcone of a combination of two sets of cubes is that combination of their lightcones, in all interpolations
(with the same transitions in `step_cell`); it exists, has the same number of slices and raises the same errors as theirs. -/
theorem C250_linear (C : Cosmo K) (exp : K → K) (s : Scheme K) (axis : ℕ) (a b : K) (read₁ read₂ read : ℕ → Cube K)
    (hr : ∀ n, Alike (read₁ n) (read n) ∧ Alike (read₂ n) (read n) ∧
      ∀ x y z, (read n).val x y z = a * (read₁ n).val x y z + b * (read₂ n).val x y z)
    (zs : List K) (zl zh : Option K) (n L : K) (dnu : Option K) (fuel : ℕ) :
    SliceBySlice (fun _ _ => True) (coneCells C exp s axis read₁ zs zl zh n L dnu fuel) (coneCells C exp s axis read zs zl zh n L dnu fuel) ∧
    SliceBySlice (fun _ _ => True) (coneCells C exp s axis read₂ zs zl zh n L dnu fuel) (coneCells C exp s axis read zs zl zh n L dnu fuel) ∧
    ∀ l₁ l₂ l, coneCells C exp s axis read₁ zs zl zh n L dnu fuel = some (.ok l₁) →
      coneCells C exp s axis read₂ zs zl zh n L dnu fuel = some (.ok l₂) →
      coneCells C exp s axis read zs zl zh n L dnu fuel = some (.ok l) →
      ∀ (k : ℕ) f₁ f₂ f, l₁[k]? = some f₁ → l₂[k]? = some f₂ → l[k]? = some f → ∀ i j, f i j = a * f₁ i j + b * f₂ i j := by
  have hc : ∀ n k i j, cell (read n) axis k i j = a * cell (read₁ n) axis k i j + b * cell (read₂ n) axis k i j := by
    intro n k i j
    unfold cell
    split_ifs <;> exact (hr n).2.2 _ _ _
  refine ⟨coneCells_rel C exp s axis _ _ zs zl zh n L dnu fuel _ fun u => ?_,
    coneCells_rel C exp s axis _ _ zs zl zh n L dnu fuel _ fun u => ?_, ?_⟩
  · rcases interp_alike exp s axis (fun i => (hr i).1) u with h | ⟨f, g, e1, e2, -⟩
    · exact .inl h
    · exact .inr ⟨f, g, e1, e2, trivial⟩
  · rcases interp_alike exp s axis (fun i => (hr i).2.1) u with h | ⟨f, g, e1, e2, -⟩
    · exact .inl h
    · exact .inr ⟨f, g, e1, e2, trivial⟩
  · intro l₁ l₂ l h₁ h₂ h k f₁ f₂ f k₁ k₂ kf i j
    obtain ⟨out, us, o, q, m⟩ := coneCells_get h
    obtain ⟨out₁, us₁, o₁, q₁, m₁⟩ := coneCells_get h₁
    obtain ⟨out₂, us₂, o₂, q₂, m₂⟩ := coneCells_get h₂
    rw [o] at o₁ o₂
    cases o₁; cases o₂
    rw [q] at q₁ q₂
    cases q₁; cases q₂
    obtain ⟨len, g⟩ := VelocityCone.mapM_get _ _ _ m
    have hk : k < us.length := len ▸ (List.getElem?_eq_some_iff.1 kf).1
    obtain ⟨f', hf, e⟩ := g k _ (List.getElem?_eq_getElem hk)
    obtain ⟨f₁', hf₁, e₁⟩ := (VelocityCone.mapM_get _ _ _ m₁).2 k _ (List.getElem?_eq_getElem hk)
    obtain ⟨f₂', hf₂, e₂⟩ := (VelocityCone.mapM_get _ _ _ m₂).2 k _ (List.getElem?_eq_getElem hk)
    rw [kf] at hf; rw [k₁] at hf₁; rw [k₂] at hf₂
    cases hf; cases hf₁; cases hf₂
    generalize us[k] = u at e e₁ e₂
    rcases interp_alike exp s axis (fun i => (hr i).1) u with ⟨_, h, -⟩ | ⟨p, p', c1, c2, c⟩
    · rw [e₁] at h; cases h
    rcases interp_alike exp s axis (fun i => (hr i).2.1) u with ⟨_, h, -⟩ | ⟨r, r', d1, d2, d⟩
    · rw [e₂] at h; cases h
    rw [e₁] at c1; rw [e] at c2; rw [e₂] at d1
    cases c1; cases c2; cases d1
    have hn : u.pos % (read₁ u.dataLow).n1 = u.pos % (read₂ u.dataLow).n1 := by
      rw [(hr u.dataLow).1.2.1, (hr u.dataLow).2.1.2.1]
    rw [(c _ rfl i j).2, (c _ rfl i j).1, (d _ hn i j).1, hc, hc]
    exact interpCell_linear exp s a b _ _ _ _ _ _ _ i j

/-- C250, the cells: slice `k` of a lightcone of cubes with `N` cells a side, whose output redshifts pass at most one snapshot at a
time, mixes the cells at depth `k mod N` of the two snapshots around its redshift, each with its share. -/
theorem C250_cells (C : Cosmo K) (exp : K → K) (s : Scheme K) (axis : ℕ) (haxis : axis < 3) (read : ℕ → Cube K) (N : ℕ) (hN : 0 < N)
    (hr : ∀ n, (read n).n0 = N ∧ (read n).n1 = N ∧ (read n).n2 = N) (zs : List K) (zl zh : Option K) (n L : K) (dnu : Option K)
    (fuel : ℕ) (out : List K) (ho : outputZ C zs zl zh n L dnu fuel = some (.ok out)) (hb : ∀ z ∈ out, Bracketed zs z)
    (hch : out.IsChain fun z z' => z ≤ z' ∧ AtMostOne zs z z') :
    ∃ l, coneCells C exp s axis read zs zl zh n L dnu fuel = some (.ok l) ∧ l.length = out.length ∧
      ∀ (k : ℕ) z f, out[k]? = some z → l[k]? = some f → ∃ lo hi p q, IsLower zs z lo ∧ IsUpper zs z hi ∧
        zs[p]? = some lo ∧ zs[q]? = some hi ∧ ∀ i j,
          f i j = (1 - share exp s lo hi z i j) * cell (read p) axis (k % N) i j +
            share exp s lo hi z i j * cell (read q) axis (k % N) i j := by
  obtain ⟨us, hus⟩ := ((slices_ok_iff id zs out).1 hb).1
  obtain ⟨hlen, hok⟩ := C08_partial id zs out us hch hus
  have hsl : ∀ (m k : ℕ), getSlice (read m) (k % N) axis = .ok (cell (read m) axis (k % N)) := by
    intro m k
    have hk := Nat.mod_lt k hN
    obtain ⟨h0, h1, h2⟩ := hr m
    unfold getSlice cell
    rw [h0, h1, h2]
    have : axis = 0 ∨ axis = 1 ∨ axis = 2 := by omega
    rcases this with rfl | rfl | rfl <;> simp [hk]
  have hint : ∀ u : Used K ℕ, interpSlice exp s axis (u.of read) = .ok fun i j => interpCell exp s
      (cell (read u.dataHigh) axis (u.pos % N) i j) (cell (read u.dataLow) axis (u.pos % N) i j) u.zHigh u.zLow u.z i j := by
    intro u
    unfold interpSlice
    simp only [Used.of, (hr u.dataLow).2.1, hsl]
    rfl
  have hmap : ∀ us : List (Used K ℕ), us.mapM (fun u => interpSlice exp s axis (u.of read)) = .ok (us.map fun u i j => interpCell exp s
      (cell (read u.dataHigh) axis (u.pos % N) i j) (cell (read u.dataLow) axis (u.pos % N) i j) u.zHigh u.zLow u.z i j) := by
    intro us
    induction us with
    | nil => rfl
    | cons u us ih => rw [List.mapM_cons, hint, ih]; rfl
  refine ⟨us.map fun u i j => interpCell exp s (cell (read u.dataHigh) axis (u.pos % N) i j) (cell (read u.dataLow) axis (u.pos % N) i j)
    u.zHigh u.zLow u.z i j, ?_, ?_, ?_⟩
  · unfold coneCells makeLightcone
    rw [ho]
    simp only [Option.map_some, Except.bind]
    rw [scalarSlices_of read, hus]
    simp only [Except.map, List.mapM_map, Function.comp_def, hmap]
  · rw [List.length_map, hlen]
  · intro k z f hz hf
    rw [List.getElem?_map, Option.map_eq_some_iff] at hf
    obtain ⟨u, hu, rfl⟩ := hf
    obtain ⟨e1, e2, e3, e4, ⟨p, hp, e5⟩, ⟨q, hq, e6⟩⟩ := hok k z u hz hu
    refine ⟨u.zLow, u.zHigh, p, q, e3, e4, hp, hq, fun i j => ?_⟩
    simp only [id] at e5 e6
    rw [e1, e2, e5, e6]
    have hne : u.zHigh - u.zLow ≠ 0 := (sub_pos.2 (e3.2.1.trans_lt e4.2.1)).ne'
    cases s with
    | linear => simp only [interpCell, share]; field_simp; ring
    | step =>
      simp only [interpCell, share]
      have : z < (u.zHigh - u.zLow) / 2 ↔ 2 * z < u.zHigh - u.zLow := by
        rw [lt_div_iff₀ (by norm_num), mul_comm]
      simp only [this]
      split_ifs <;> ring
    | sigmoid =>
      simp only [interpCell, share]
      rw [show -2 * (-10 + 20 * (z - u.zLow) / (u.zHigh - u.zLow)) = 20 - 40 * (z - u.zLow) / (u.zHigh - u.zLow) by ring]
      ring
    | stepCell t =>
      simp only [interpCell, share]
      have : z < u.zLow + t i j * (u.zHigh - u.zLow) ↔ z - u.zLow < t i j * (u.zHigh - u.zLow) := by
        rw [sub_lt_iff_lt_add']
      simp only [this]
      split_ifs <;> ring

/-- The cells of both slices of a lightcone along the last axis of boxes of two cells. -/
private def cellsOf (read : ℕ → Cube ℚ) : Option (Option (List (List ℚ))) :=
  (coneCells ⟨fun _ => 1, 1420, 300000⟩ id .linear 2 read [6, 7, 8, 9] (some 6) (some (17/2)) 2 100 (some (1420 * 8 / 285)) 3).map fun o =>
    o.toOption.map fun l => l.map fun f => [f 0 0, f 0 1, f 1 0, f 1 1]

/-- Boxes rolled by a cell along the first axis, and sums of boxes. -/
example : (∀ n : ℕ, Alike (⟨2, 2, 2, fun i j k => n + i + 2 * j + 4 * k⟩ : Cube ℚ) ⟨2, 2, 2, fun i j k => n + (i + 1) % 2 + 2 * j + 4 * k⟩ ∧
      ∀ k i j, i < 2 → cell (⟨2, 2, 2, fun i j k => n + ((i + 1) % 2 : ℕ) + 2 * j + 4 * k⟩ : Cube ℚ) 2 k i j =
        cell (⟨2, 2, 2, fun i j k => n + i + 2 * j + 4 * k⟩ : Cube ℚ) 2 k ((i + 1) % 2) j) ∧
    cellsOf (fun n => ⟨2, 2, 2, fun i j k => n + i + 2 * j + 4 * k⟩) = some (some [[1/2, 5/2, 3/2, 7/2], [6, 8, 7, 9]]) ∧
    cellsOf (fun n => ⟨2, 2, 2, fun i j k => n + ((i + 1) % 2 : ℕ) + 2 * j + 4 * k⟩) = some (some [[3/2, 7/2, 1/2, 5/2], [7, 9, 6, 8]]) ∧
    cellsOf (fun n => ⟨2, 2, 2, fun i j k => 2 * (n + i + 2 * j + 4 * k) + 3 * 1⟩) = some (some [[4, 8, 6, 10], [15, 19, 17, 21]]) := by
  refine ⟨fun n => ⟨⟨rfl, rfl, rfl⟩, fun k i j _ => rfl⟩, by decide +kernel, by decide +kernel, by decide +kernel⟩

/-- The hypotheses of `C250_cells` hold for snapshots at 6, 7, 8 and 9 and steps by a factor 10/9 in `1 + z`. -/
example : outputZ ⟨fun z => 1 / 10 * (1 + z), 1420, 1⟩ [(6 : ℚ), 7, 8, 9] none none 1 1 none 10 = some (.ok [6, 61/9, 619/81, 6271/729]) ∧
    (∀ z ∈ [(6 : ℚ), 61/9, 619/81, 6271/729], Bracketed [(6 : ℚ), 7, 8, 9] z) ∧
    [(6 : ℚ), 61/9, 619/81, 6271/729].IsChain fun z z' => z ≤ z' ∧ AtMostOne [6, 7, 8, 9] z z' := by
  refine ⟨by decide +kernel, ?_, ?_⟩
  · simp only [Bracketed, List.mem_cons, List.not_mem_nil, or_false, forall_eq_or_imp, forall_eq, exists_eq_or_imp, exists_eq_left]
    norm_num
  · simp only [List.isChain_cons_cons, AtMostOne, List.mem_cons, List.not_mem_nil, or_false, forall_eq_or_imp, forall_eq]
    norm_num

end Verif.Lightcone

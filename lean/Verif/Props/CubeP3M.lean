import Verif.Model.CubeP3M
import Verif.Lemmas.Binning
import Mathlib.Data.List.Forall2
import Mathlib.Data.List.GetD
import Mathlib.Algebra.BigOperators.Group.List.Basic
import Mathlib.Tactic.Linarith
import Mathlib.Tactic.Ring
import Mathlib.Tactic.NormNum
/-!
# Properties of the readers of binary files of CubeP3M (C206, C207)
-/

namespace Verif.CubeP3M

/-! ## Specification of the catalogues -/

/-- A halo in a file: position, virial and overdensity masses and radii, centre of mass, velocity, angular momentum, dispersion, shape, and what
follows. -/
structure Record where
  pos : Fin 3 → ℝ
  mvir : ℝ
  modc : ℝ
  rvir : ℝ
  rodc : ℝ
  cm : Fin 3 → ℝ
  vel : Fin 3 → ℝ
  l : Fin 3 → ℝ
  disp : Fin 3 → ℝ
  shape : Fin 3 → ℝ
  tail : List ℝ

/-- Its words. -/
def Record.words (r : Record) : List ℝ :=
  [r.pos 0, r.pos 1, r.pos 2, r.mvir, r.modc, r.rvir, r.rodc, r.cm 0, r.cm 1, r.cm 2, r.vel 0, r.vel 1, r.vel 2, r.l 0, r.l 1, r.l 2,
    r.disp 0, r.disp 1, r.disp 2, r.shape 0, r.shape 1, r.shape 2] ++ r.tail

/-- A file with the given haloes: 50 particles (an integer of eight bytes and six numbers each) follow every halo if there are particles, otherwise six
numbers. -/
def Holds (pid : Bool) (rs : List Record) (f : HaloFile) : Prop :=
  f.count = rs.length ∧ f.words = rs.flatMap Record.words ∧ ∀ r ∈ rs, r.tail.length = if pid then 50 * (2 + 6) else 6

/-- The position `x` in a periodic box. -/
def IsAt (box x y : ℝ) : Prop := 0 ≤ y ∧ y ≤ box ∧ ∃ k : ℤ, y = x + k * box

/-- The halo of a record in physical units: positions and lengths in Mpc/h, masses in solar masses/h, velocities in km/s. -/
structure IsHalo (u : Units) (vir : Bool) (r : Record) (h : Halo) : Prop where
  pos : ∃ y : Fin 3 → ℝ, h.pos = [y 0, y 1, y 2] ∧ ∀ j, IsAt u.box (r.pos j * (u.len * u.h)) (y j)
  m : h.m = some ((if vir then r.mvir else r.modc) * (u.mass * u.h))
  radius : h.r = (if vir then r.rvir else r.rodc) * (u.len * u.h)
  cm : ∃ y : Fin 3 → ℝ, h.posCm = [y 0, y 1, y 2] ∧ ∀ j, IsAt u.box (r.cm j * (u.len * u.h)) (y j)
  vel : h.vel = [r.vel 0 * u.vel, r.vel 1 * u.vel, r.vel 2 * u.vel]
  l : h.l = [some (r.l 0 * (u.vel * (u.len * u.h) * (u.mass * u.h))), some (r.l 1 * (u.vel * (u.len * u.h) * (u.mass * u.h))),
    some (r.l 2 * (u.vel * (u.len * u.h) * (u.mass * u.h)))]
  disp : h.velDisp = Real.sqrt (r.disp 0 ^ 2 + r.disp 1 ^ 2 + r.disp 2 ^ 2) * u.vel

/-- The halo of a record in the units of the grid. -/
structure IsRaw (vir : Bool) (r : Record) (h : Halo) : Prop where
  pos : h.pos = [r.pos 0, r.pos 1, r.pos 2]
  m : h.m = some (if vir then r.mvir else r.modc)
  radius : h.r = if vir then r.rvir else r.rodc
  cm : h.posCm = [r.cm 0, r.cm 1, r.cm 2]
  vel : h.vel = [r.vel 0, r.vel 1, r.vel 2]
  l : h.l = [some (r.l 0), some (r.l 1), some (r.l 2)]
  disp : h.velDisp = Real.sqrt (r.disp 0 ^ 2 + r.disp 1 ^ 2 + r.disp 2 ^ 2)

/-- Positive units, masses that are not negative, positions at most one box outside, and no negative component of the angular momentum. -/
structure Good (u : Units) (r : Record) : Prop where
  mvir : 0 ≤ r.mvir
  modc : 0 ≤ r.modc
  pos : ∀ j, -u.box ≤ r.pos j * (u.len * u.h) ∧ r.pos j * (u.len * u.h) ≤ 2 * u.box
  cm : ∀ j, -u.box ≤ r.cm j * (u.len * u.h) ∧ r.cm j * (u.len * u.h) ≤ 2 * u.box
  l : ∀ j, 0 ≤ r.l j

/-- Positive units. -/
def Units.Pos (u : Units) : Prop := 0 < u.len ∧ 0 < u.mass ∧ 0 < u.vel ∧ 0 < u.box ∧ 0 < u.h

/-! ## Lemmas -/

theorem tenLog_nonneg {x : ℝ} (h : 0 ≤ x) : tenLog x = some x := by
  unfold tenLog
  rw [if_neg (not_lt.2 h)]
  split_ifs with h0
  · rw [h0]
  · rw [Real.rpow_logb (by norm_num) (by norm_num) (lt_of_le_of_ne h (Ne.symm h0))]

theorem wrap_isAt {box x : ℝ} (h1 : -box ≤ x) (h2 : x ≤ 2 * box) : IsAt box x (wrap box x) := by
  unfold wrap
  split_ifs with h3 h4
  · exact ⟨by linarith, by linarith, 1, by push_cast; ring⟩
  · exact ⟨by linarith, by linarith, -1, by push_cast; ring⟩
  · exact ⟨not_lt.1 h3, not_lt.1 h4, 0, by simp⟩

/-- The fields of a record. -/
theorem readHalo_record (u : Units) (vir pid cosm : Bool) (r : Record) (rest : List ℝ) (ht : r.tail.length = if pid then 50 * (2 + 6) else 6) :
    readHalo u vir pid cosm (r.words ++ rest) = .ok (if cosm then
      convert u [r.pos 0, r.pos 1, r.pos 2] (if vir then r.mvir else r.modc) (if vir then r.rvir else r.rodc) [r.cm 0, r.cm 1, r.cm 2]
        [r.vel 0, r.vel 1, r.vel 2] [r.l 0, r.l 1, r.l 2] (Real.sqrt ([r.disp 0, r.disp 1, r.disp 2].map fun x => x ^ 2).sum)
      else ⟨[r.pos 0, r.pos 1, r.pos 2], some (if vir then r.mvir else r.modc), if vir then r.rvir else r.rodc, [r.cm 0, r.cm 1, r.cm 2],
        [r.vel 0, r.vel 1, r.vel 2], [r.l 0, r.l 1, r.l 2].map some, Real.sqrt ([r.disp 0, r.disp 1, r.disp 2].map fun x => x ^ 2).sum⟩, rest) := by
  unfold Record.words
  rw [List.append_assoc]
  have hd : ∀ n, r.tail.length = n → (r.tail ++ rest).drop n = rest := by
    rintro n rfl
    simp
  generalize ht' : r.tail ++ rest = t at hd
  unfold readHalo
  simp only [List.cons_append, List.nil_append, List.take_succ_cons, List.take_zero, List.drop_succ_cons, List.drop_zero, List.length_cons,
    List.length_nil, zero_add, List.getD_cons_zero, List.getD_cons_succ]
  rw [if_neg (by norm_num)]
  cases pid with
  | true =>
    have h4 : r.tail.length = 400 := ht
    rw [if_pos rfl, if_neg (by rw [← ht']; simp [h4]), hd 400 h4]
  | false =>
    rw [if_neg (by decide), hd 6 ht]

theorem convert_isHalo {u : Units} (hu : u.Pos) (vir : Bool) {r : Record} (hg : Good u r) :
    IsHalo u vir r (convert u [r.pos 0, r.pos 1, r.pos 2] (if vir then r.mvir else r.modc) (if vir then r.rvir else r.rodc)
      [r.cm 0, r.cm 1, r.cm 2] [r.vel 0, r.vel 1, r.vel 2] [r.l 0, r.l 1, r.l 2]
      (Real.sqrt ([r.disp 0, r.disp 1, r.disp 2].map fun x => x ^ 2).sum)) := by
  obtain ⟨h1, h2, h3, h4, h5⟩ := hu
  refine ⟨⟨fun j => wrap u.box (r.pos j * u.len * u.h), rfl, fun j => ?_⟩, ?_, ?_, ⟨fun j => wrap u.box (r.cm j * u.len * u.h), rfl, fun j => ?_⟩, rfl, ?_, ?_⟩
  · rw [← mul_assoc]
    refine wrap_isAt ?_ ?_ <;> rw [mul_assoc]
    exacts [(hg.pos j).1, (hg.pos j).2]
  · show (tenLog ((if vir then r.mvir else r.modc) * u.mass)).map _ = _
    rw [tenLog_nonneg]
    · rw [Option.map_some, mul_assoc]
    · refine mul_nonneg ?_ h2.le
      split_ifs
      exacts [hg.mvir, hg.modc]
  · show (if vir then r.rvir else r.rodc) * u.len * u.h = _
    rw [mul_assoc]
  · rw [← mul_assoc]
    refine wrap_isAt ?_ ?_ <;> rw [mul_assoc]
    exacts [(hg.cm j).1, (hg.cm j).2]
  · have e : ∀ j, (tenLog (r.l j * u.vel * u.len * u.mass)).map (fun y => y * u.h * u.h) =
        some (r.l j * (u.vel * (u.len * u.h) * (u.mass * u.h))) := by
      intro j
      rw [tenLog_nonneg (mul_nonneg (mul_nonneg (mul_nonneg (hg.l j) h3.le) h1.le) h2.le), Option.map_some]
      congr 1
      ring
    show [(tenLog (r.l 0 * u.vel * u.len * u.mass)).map (fun y => y * u.h * u.h), (tenLog (r.l 1 * u.vel * u.len * u.mass)).map (fun y => y * u.h * u.h),
      (tenLog (r.l 2 * u.vel * u.len * u.mass)).map (fun y => y * u.h * u.h)] = _
    rw [e, e, e]
  · show Real.sqrt ([r.disp 0, r.disp 1, r.disp 2].map fun x => x ^ 2).sum * u.vel = _
    simp only [List.map_cons, List.map_nil, List.sum_cons, List.sum_nil, add_zero, ← add_assoc]

/-- The haloes of a file. -/
theorem readHalos_ok (u : Units) (vir pid cosm : Bool) (P : Record → Halo → Prop) (rs : List Record)
    (hP : ∀ r ∈ rs, ∀ rest : List ℝ, ∃ h, readHalo u vir pid cosm (r.words ++ rest) = .ok (h, rest) ∧ P r h) :
    ∃ hs, readHalos u vir pid cosm rs.length (rs.flatMap Record.words) = .ok hs ∧ List.Forall₂ P rs hs := by
  induction rs with
  | nil => exact ⟨[], rfl, .nil⟩
  | cons r rs ih =>
    obtain ⟨hs, h1, h2⟩ := ih fun x hx => hP x (List.mem_cons_of_mem _ hx)
    obtain ⟨h, h3, h4⟩ := hP r (List.mem_cons_self ..) (rs.flatMap Record.words)
    refine ⟨h :: hs, ?_, .cons h4 h2⟩
    rw [List.length_cons, List.flatMap_cons]
    unfold readHalos
    rw [h3]
    dsimp only
    rw [h1]

theorem readCatalogue_ok (u : Units) (vir pid cosm : Bool) (P : Record → Halo → Prop) (files : ℕ → Option HaloFile) (rs : ℕ → List Record) (ks : List ℕ)
    (hf : ∀ k ∈ ks, ∃ f, files k = some f ∧ Holds pid (rs k) f)
    (hP : ∀ k ∈ ks, ∀ r ∈ rs k, ∀ rest : List ℝ, ∃ h, readHalo u vir pid cosm (r.words ++ rest) = .ok (h, rest) ∧ P r h) :
    ∃ hs, readCatalogue u vir pid cosm files ks = .ok ((ks.flatMap rs).length, hs) ∧ List.Forall₂ P (ks.flatMap rs) hs := by
  induction ks with
  | nil => exact ⟨[], rfl, .nil⟩
  | cons k ks ih =>
    obtain ⟨hs, h1, h2⟩ := ih (fun x hx => hf x (List.mem_cons_of_mem _ hx)) fun x hx => hP x (List.mem_cons_of_mem _ hx)
    obtain ⟨f, hfk, hc, hw, _⟩ := hf k (List.mem_cons_self ..)
    obtain ⟨hs', h3, h4⟩ := readHalos_ok u vir pid cosm P (rs k) (hP k (List.mem_cons_self ..))
    refine ⟨hs' ++ hs, ?_, ?_⟩
    · unfold readCatalogue
      rw [hfk]
      dsimp only
      rw [hc, hw, h3]
      dsimp only
      rw [h1]
      dsimp only
      rw [List.flatMap_cons, List.length_append]
    · rw [List.flatMap_cons]
      exact List.rel_append h4 h2

/-- Reading with a path and a redshift. -/
theorem haloCubeP3M_eq (units : ℝ → Units) (dir : String → ℝ → ℕ × (ℕ → Option HaloFile)) {p : String} (hp : p ≠ "") {z : ℝ} (hz : z ≠ 0)
    (node : Option ℕ) (vir pid cosm : Bool) :
    haloCubeP3M units dir (some p) (some z) node vir pid cosm = readCatalogue (units z) vir pid cosm (dir p z).2 (nodesOf (dir p z).1 node) := by
  unfold haloCubeP3M
  dsimp only
  rw [if_neg hz, if_neg hp]

/-! ## C206 -/

/-- The nodes of a catalogue: the given one, or all. -/
def wanted (n : ℕ) : Option ℕ → List ℕ
  | some k => [k]
  | none => List.range n

/-- **C206** (partial).  The catalogue has the haloes of the files of all nodes, or of the given one, in their order, in physical units if these are
asked for and in the units of the grid otherwise.  Angular momenta with a negative component are excluded, see `C206_false`, and so is the redshift zero,
see `C206_false_zero`. -/
theorem C206_partial (units : ℝ → Units) (dir : String → ℝ → ℕ × (ℕ → Option HaloFile)) {p : String} (hp : p ≠ "") {z : ℝ} (hz : z ≠ 0)
    (node : Option ℕ) (vir pid : Bool) (rs : ℕ → List Record)
    (hf : ∀ k ∈ wanted (dir p z).1 node, ∃ f, (dir p z).2 k = some f ∧ Holds pid (rs k) f) :
    (∃ hs, haloCubeP3M units dir (some p) (some z) node vir pid false = .ok (((wanted (dir p z).1 node).flatMap rs).length, hs) ∧
      List.Forall₂ (IsRaw vir) ((wanted (dir p z).1 node).flatMap rs) hs) ∧
    ((units z).Pos → (∀ k ∈ wanted (dir p z).1 node, ∀ r ∈ rs k, Good (units z) r) →
      ∃ hs, haloCubeP3M units dir (some p) (some z) node vir pid true = .ok (((wanted (dir p z).1 node).flatMap rs).length, hs) ∧
        List.Forall₂ (IsHalo (units z) vir) ((wanted (dir p z).1 node).flatMap rs) hs) := by
  have hw : nodesOf (dir p z).1 node = wanted (dir p z).1 node := by cases node <;> rfl
  have ht : ∀ k ∈ wanted (dir p z).1 node, ∀ r ∈ rs k, r.tail.length = if pid then 50 * (2 + 6) else 6 := by
    intro k hk r hr
    obtain ⟨f, _, _, _, h⟩ := hf k hk
    exact h r hr
  rw [haloCubeP3M_eq units dir hp hz, haloCubeP3M_eq units dir hp hz, hw]
  refine ⟨?_, fun hu hg => ?_⟩
  · refine readCatalogue_ok _ _ _ _ _ _ _ _ hf fun k hk r hr rest => ⟨_, readHalo_record _ vir pid false r rest (ht k hk r hr), ?_⟩
    refine ⟨rfl, rfl, rfl, rfl, rfl, rfl, ?_⟩
    show Real.sqrt ([r.disp 0, r.disp 1, r.disp 2].map fun x => x ^ 2).sum = _
    simp only [List.map_cons, List.map_nil, List.sum_cons, List.sum_nil, add_zero, ← add_assoc]
  · exact readCatalogue_ok _ _ _ _ _ _ _ _ hf fun k hk r hr rest => ⟨_, readHalo_record _ vir pid true r rest (ht k hk r hr), convert_isHalo hu vir (hg k hk r hr)⟩

/-- A halo outside of the box by a quarter of it. -/
def sample (l : ℝ) : Record :=
  ⟨![5, 1, 1], 2, 1, 1, 1, ![5, 1, 1], ![1, 0, -1], ![l, 0, 0], ![1, 1, 1], ![0, 0, 0], List.replicate 6 0⟩

/-- Units in which everything is one, and a box of four cells. -/
def one : Units := ⟨1, 1, 1, 4, 1⟩

example : one.Pos ∧ Good one (sample 1) ∧ Holds false [sample 1] ⟨1, (sample 1).words⟩ := by
  refine ⟨by unfold Units.Pos one; norm_num, ⟨by norm_num [sample], by norm_num [sample], fun j => ?_, fun j => ?_, fun j => ?_⟩, rfl, ?_, ?_⟩
  · fin_cases j <;> norm_num [sample, one]
  · fin_cases j <;> norm_num [sample, one]
  · fin_cases j <;> norm_num [sample]
  · simp
  · simp [sample]

/-- A negative component of the angular momentum is lost. -/
theorem C206_false {units : ℝ → Units} {z : ℝ} (hu : (units z).Pos) (hz : z ≠ 0) {l : ℝ} (hl : l < 0) (vir : Bool) :
    ∃ h, haloCubeP3M units (fun _ _ => (1, fun _ => some ⟨1, (sample l).words⟩)) (some "x") (some z) none vir false true = .ok (1, [h]) ∧
      h.l[0]? = some none := by
  obtain ⟨h1, h2, h3, h4, h5⟩ := hu
  have hr := readHalo_record (units z) vir false true (sample l) [] (by simp [sample])
  rw [List.append_nil] at hr
  rw [if_pos rfl] at hr
  refine ⟨convert (units z) [(sample l).pos 0, (sample l).pos 1, (sample l).pos 2] (if vir then (sample l).mvir else (sample l).modc)
    (if vir then (sample l).rvir else (sample l).rodc) [(sample l).cm 0, (sample l).cm 1, (sample l).cm 2]
    [(sample l).vel 0, (sample l).vel 1, (sample l).vel 2] [(sample l).l 0, (sample l).l 1, (sample l).l 2]
    (Real.sqrt ([(sample l).disp 0, (sample l).disp 1, (sample l).disp 2].map fun x => x ^ 2).sum), ?_, ?_⟩
  · rw [haloCubeP3M_eq _ _ (by decide) hz]
    show readCatalogue (units z) vir false true (fun _ => some ⟨1, (sample l).words⟩) [0] = _
    unfold readCatalogue
    dsimp only
    unfold readHalos
    rw [hr]
    rfl
  · show some ((tenLog (l * (units z).vel * (units z).len * (units z).mass)).map _) = _
    unfold tenLog
    rw [if_pos]
    · rfl
    · exact mul_neg_of_neg_of_pos (mul_neg_of_neg_of_pos (mul_neg_of_neg_of_pos hl h3) h1) h2

/-- The redshift zero counts as no redshift. -/
theorem C206_false_zero (units : ℝ → Units) (dir : String → ℝ → ℕ × (ℕ → Option HaloFile)) (path : Option String) (node : Option ℕ) (vir pid cosm : Bool) :
    haloCubeP3M units dir path (some 0) node vir pid cosm = .error .name := by
  unfold haloCubeP3M
  dsimp only
  rw [if_pos rfl]

/-- A file that is missing is an error, and so are particles that are missing from the file, whatever comes after. -/
theorem C206_raises (units : ℝ → Units) (dir : String → ℝ → ℕ × (ℕ → Option HaloFile)) {p : String} (hp : p ≠ "") {z : ℝ} (hz : z ≠ 0)
    (k : ℕ) (vir pid cosm : Bool) :
    ((dir p z).2 k = none → haloCubeP3M units dir (some p) (some z) (some k) vir pid cosm = .error .file) ∧
    ∀ f, (dir p z).2 k = some f → 0 < f.count → f.words.length < 422 →
      haloCubeP3M units dir (some p) (some z) (some k) vir true cosm = .error .value := by
  rw [haloCubeP3M_eq _ _ hp hz, haloCubeP3M_eq _ _ hp hz]
  refine ⟨fun h => ?_, fun f h hc hl => ?_⟩
  · show readCatalogue _ _ _ _ _ [k] = _
    unfold readCatalogue
    rw [h]
  · show readCatalogue _ _ _ _ _ [k] = _
    unfold readCatalogue
    rw [h]
    obtain ⟨n, hn⟩ : ∃ n, f.count = n + 1 := ⟨f.count - 1, by omega⟩
    dsimp only
    rw [hn]
    unfold readHalos
    have : readHalo (units z) vir true cosm f.words = .error .value := by
      unfold readHalo
      dsimp only
      have h2 : (f.words.drop 22).length < 400 := by
        rw [List.length_drop]
        omega
      rw [if_pos rfl, if_pos h2, ite_self]
    rw [this]

/-- A file without haloes has no particles, but one with a halo and no particles is too short. -/
example : 0 < (⟨1, (sample 1).words⟩ : HaloFile).count ∧ (⟨1, (sample 1).words⟩ : HaloFile).words.length < 422 := by
  constructor
  · norm_num
  · simp [sample, Record.words]

/-! ## Specification of the particles -/

/-- The numbers of a file: the three coordinates of the positions of all particles, one after the other, then those of the velocities. -/
def columns (ps : List Particle) : List ℝ :=
  [ps.map fun p => p.pos 0, ps.map fun p => p.pos 1, ps.map fun p => p.pos 2,
    ps.map fun p => p.vel 0, ps.map fun p => p.vel 1, ps.map fun p => p.vel 2].flatten

/-- A file of the redshift: `1 / a - 1` and `z` are closest to the same hundredth. -/
def AtRedshift (z a : ℝ) : Prop := a ≠ 0 ∧ ∃ n : ℤ, |100 * (1 / a - 1) - n| < 1 / 2 ∧ |100 * z - n| < 1 / 2

/-- A file of another redshift: more than a hundredth away. -/
def OtherRedshift (z a : ℝ) : Prop := a = 0 ∨ 1 / 100 < |(1 / a - 1) - z|

/-- A file with the given particles. -/
structure HoldsXv (z : ℝ) (ps : List Particle) (x : XvFile) : Prop where
  redshift : AtRedshift z x.a
  count : x.count = ps.length
  data : x.data = columns ps

/-- A file with the identifiers of the given particles. -/
structure HoldsPid (z : ℝ) (ps : List Particle) (x : PidFile) : Prop where
  redshift : AtRedshift z x.a
  count : x.count = ps.length
  ids : x.ids = ps.map fun p => p.pid

/-- The files of a node: with files of identifiers, these have those of the particles; without, all identifiers are zero. -/
def HoldsNode (z : ℝ) (pidFile : Bool) (d : Dir) (k : ℕ) (ps : List Particle) : Prop :=
  (∃ x, d.xv k = some x ∧ HoldsXv z ps x) ∧
    if pidFile then ∃ x, d.pid k = some x ∧ HoldsPid z ps x else ∀ p ∈ ps, p.pid = 0

/-! ## Lemmas -/

theorem roundEven_unique {x : ℝ} {n : ℤ} (h : |x - n| < 1 / 2) : Binning.roundEven x = n := by
  have h1 := abs_le.1 (Binning.roundEven_near x)
  have h2 := abs_lt.1 h
  have h3 : ((Binning.roundEven x : ℤ) : ℝ) < ((n + 1 : ℤ) : ℝ) := by push_cast; linarith [h1.2, h2.2]
  have h4 : ((n - 1 : ℤ) : ℝ) < ((Binning.roundEven x : ℤ) : ℝ) := by push_cast; linarith [h1.1, h2.1]
  have h5 := Int.cast_lt.1 h3
  have h6 := Int.cast_lt.1 h4
  omega

theorem sameRedshift_of {z a : ℝ} (h : AtRedshift z a) : sameRedshift a z := by
  obtain ⟨h0, n, h1, h2⟩ := h
  exact ⟨h0, by rw [roundEven_unique h1, roundEven_unique h2]⟩

theorem not_sameRedshift_of {z a : ℝ} (h : OtherRedshift z a) : ¬ sameRedshift a z := by
  rintro ⟨h0, h1⟩
  rcases h with h | h
  · exact h0 h
  · have h2 := abs_le.1 (Binning.roundEven_near (100 * (1 / a - 1)))
    have h3 := abs_le.1 (Binning.roundEven_near (100 * z))
    rw [h1] at h2
    have : |(1 / a - 1) - z| ≤ 1 / 100 := abs_le.2 ⟨by linarith [h2.1, h2.2, h3.1, h3.2], by linarith [h2.1, h2.2, h3.1, h3.2]⟩
    linarith

theorem getD_flatten {n i : ℕ} (hi : i < n) (ls : List (List ℝ)) (hl : ∀ l ∈ ls, l.length = n) (j : ℕ) :
    ls.flatten.getD (j * n + i) 0 = (ls.getD j []).getD i 0 := by
  induction ls generalizing j with
  | nil => simp
  | cons l ls ih =>
    have h := hl l (List.mem_cons_self ..)
    rw [List.flatten_cons]
    cases j with
    | zero =>
      rw [Nat.zero_mul, Nat.zero_add, List.getD_append _ _ _ _ (by omega)]
      rfl
    | succ j =>
      rw [List.getD_append_right _ _ _ _ (by rw [h, Nat.succ_mul]; omega), h, show (j + 1) * n + i - n = j * n + i by rw [Nat.succ_mul]; omega,
        ih fun l hl' => hl l (List.mem_cons_of_mem _ hl')]
      rfl

theorem length_columns (ps : List Particle) : (columns ps).length = 6 * ps.length := by
  unfold columns
  simp only [List.length_flatten, List.map_cons, List.map_nil, List.length_map, List.sum_cons, List.sum_nil]
  omega

theorem getD_map_lt {α : Type} (f : Particle → α) (d : α) (ps : List Particle) {i : ℕ} (hi : i < ps.length) : (ps.map f).getD i d = f ps[i] := by
  rw [List.getD_eq_getElem _ _ (by simpa using hi), List.getElem_map]

theorem particles_columns (ps : List Particle) (ids : Option (List ℤ)) (h : match ids with | none => ∀ p ∈ ps, p.pid = 0 | some l => l = ps.map fun p => p.pid) :
    particles ps.length (columns ps) ids = ps := by
  unfold particles
  apply List.ext_getElem
  · simp
  · intro i h1 h2
    rw [List.getElem_map, List.getElem_range]
    have hl : ∀ l ∈ [ps.map fun p => p.pos 0, ps.map fun p => p.pos 1, ps.map fun p => p.pos 2,
        ps.map fun p => p.vel 0, ps.map fun p => p.vel 1, ps.map fun p => p.vel 2], l.length = ps.length := by
      intro l hl
      simp only [List.mem_cons, List.not_mem_nil, or_false] at hl
      rcases hl with rfl | rfl | rfl | rfl | rfl | rfl <;> exact List.length_map ..
    have hp : (fun j : Fin 3 => (columns ps).getD (j * ps.length + i) 0) = ps[i].pos := by
      funext j
      unfold columns
      rw [getD_flatten h2 _ hl]
      fin_cases j
      · exact getD_map_lt (fun p => p.pos 0) 0 ps h2
      · exact getD_map_lt (fun p => p.pos 1) 0 ps h2
      · exact getD_map_lt (fun p => p.pos 2) 0 ps h2
    have hv : (fun j : Fin 3 => (columns ps).getD ((j + 3) * ps.length + i) 0) = ps[i].vel := by
      funext j
      unfold columns
      rw [getD_flatten h2 _ hl]
      fin_cases j
      · exact getD_map_lt (fun p => p.vel 0) 0 ps h2
      · exact getD_map_lt (fun p => p.vel 1) 0 ps h2
      · exact getD_map_lt (fun p => p.vel 2) 0 ps h2
    rw [hp, hv]
    cases ids with
    | none =>
      have := h ps[i] (List.getElem_mem h2)
      dsimp only
      rw [← this]
    | some l =>
      dsimp only at h ⊢
      rw [h, getD_map_lt (fun p => p.pid) 0 ps h2]

theorem readNode_ok {z : ℝ} {pidFile : Bool} {d : Dir} {k : ℕ} {ps : List Particle} (h : HoldsNode z pidFile d k ps) :
    readNode z (d.xv k) (if pidFile then some (d.pid k) else none) = .ok (ps.length, ps) := by
  obtain ⟨⟨x, hx, h1, h2, h3⟩, h4⟩ := h
  unfold readNode
  rw [hx]
  dsimp only
  rw [if_neg (not_not.2 (sameRedshift_of h1)), if_neg (by rw [h3, length_columns, h2]; omega)]
  cases pidFile with
  | false =>
    rw [if_neg (by decide)] at h4 ⊢
    dsimp only
    rw [h2, h3, particles_columns ps none h4]
  | true =>
    rw [if_pos rfl] at h4 ⊢
    obtain ⟨y, hy, h5, h6, h7⟩ := h4
    rw [hy]
    dsimp only
    rw [if_neg (not_not.2 (sameRedshift_of h5)), if_neg (by rw [h6, h2]; simp), if_neg (by rw [h7, h6, h2]; simp), h2, h3,
      particles_columns ps (some y.ids) h7]

theorem readNodes_ok {z : ℝ} {pidFile : Bool} {d : Dir} {ps : ℕ → List Particle} (ks : List ℕ) (h : ∀ k ∈ ks, HoldsNode z pidFile d k (ps k)) :
    readNodes z d pidFile ks = .ok ((ks.flatMap ps).length, ks.flatMap ps) := by
  induction ks with
  | nil => rfl
  | cons k ks ih =>
    unfold readNodes
    rw [readNode_ok (h k (List.mem_cons_self ..))]
    dsimp only
    rw [ih fun x hx => h x (List.mem_cons_of_mem _ hx)]
    dsimp only
    rw [List.flatMap_cons, List.length_append]

theorem getNpart_ok {z : ℝ} {d : Dir} {ps : ℕ → List Particle} (ks : List ℕ) (h : ∀ k ∈ ks, ∃ x, d.xv k = some x ∧ HoldsXv z (ps k) x) :
    getNpart z d ks = .ok (ks.flatMap ps).length := by
  induction ks with
  | nil => rfl
  | cons k ks ih =>
    obtain ⟨x, hx, h1, h2, _⟩ := h k (List.mem_cons_self ..)
    unfold getNpart
    rw [hx]
    dsimp only
    rw [if_neg (not_not.2 (sameRedshift_of h1)), ih fun x hx => h x (List.mem_cons_of_mem _ hx)]
    dsimp only
    rw [List.flatMap_cons, List.length_append, h2]

/-! ## C207 -/

/-- **C207** (partial).  With a node the particles are those of its files; `read_from_file` appends the particles of all nodes, or of the given one,
in their order, and the number of particles is that of the particles just read.  The constructor without a node reads no particles, see `C207_false`. -/
theorem C207_partial (dir : String → ℝ → Dir) {p : String} (hp : p ≠ "") (z : ℝ) (pidFile : Bool) (ps : ℕ → List Particle)
    (hd : ∀ k < (dir p z).nodes, HoldsNode z pidFile (dir p z) k (ps k)) :
    (∀ k < (dir p z).nodes, nbodyFile dir (some p) (some z) (some k) pidFile = .ok ⟨ps k, (ps k).length⟩) ∧
    (∀ k < (dir p z).nodes, ∀ s, readFromFile z (dir p z) pidFile s (some k) = .ok ⟨s.nbody ++ ps k, (ps k).length⟩) ∧
    ∀ s, readFromFile z (dir p z) pidFile s none =
      .ok ⟨s.nbody ++ (List.range (dir p z).nodes).flatMap ps, ((List.range (dir p z).nodes).flatMap ps).length⟩ := by
  have h2 : ∀ k < (dir p z).nodes, ∀ s, readFromFile z (dir p z) pidFile s (some k) = .ok ⟨s.nbody ++ ps k, (ps k).length⟩ := by
    intro k hk s
    unfold readFromFile
    have := readNodes_ok (z := z) (pidFile := pidFile) (d := dir p z) (ps := ps) [k] fun x hx => by
      rw [List.mem_singleton.1 hx]
      exact hd k hk
    rw [List.flatMap_singleton] at this
    unfold nodesOf
    dsimp only
    rw [this]
  refine ⟨fun k hk => ?_, h2, fun s => ?_⟩
  · unfold nbodyFile
    dsimp only
    rw [if_neg hp, getNpart_ok (ps := ps) _ fun k hk => (hd k (List.mem_range.1 hk)).1]
    dsimp only
    rw [h2 k hk]
    rfl
  · unfold readFromFile
    unfold nodesOf
    dsimp only
    rw [readNodes_ok _ fun k hk => hd k (List.mem_range.1 hk)]

/-- Two particles. -/
noncomputable def two : List Particle := [⟨![1, 2, 3], ![4, 5, 6], 7⟩, ⟨![8, 9, 10], ![11, 12, 13], 14⟩]

/-- A directory of one node at redshift one. -/
noncomputable def twoDir : Dir := ⟨1, fun _ => some ⟨2, 1 / 2, [1, 8, 2, 9, 3, 10, 4, 11, 5, 12, 6, 13]⟩, fun _ => some ⟨2, 1 / 2, [7, 14]⟩⟩

theorem twoDir_holds (k : ℕ) : HoldsNode 1 true twoDir k two := by
  have h : AtRedshift 1 (1 / 2) := ⟨by norm_num, 100, by norm_num, by norm_num⟩
  refine ⟨⟨_, rfl, h, rfl, rfl⟩, ?_⟩
  rw [if_pos rfl]
  exact ⟨_, rfl, h, rfl, rfl⟩

example : ∀ k < twoDir.nodes, HoldsNode 1 true twoDir k two := fun k _ => twoDir_holds k

/-- Without a node the constructor counts the particles of all nodes but reads none. -/
theorem C207_false (dir : String → ℝ → Dir) {p : String} (hp : p ≠ "") (z : ℝ) (pidFile : Bool) (ps : ℕ → List Particle)
    (hd : ∀ k < (dir p z).nodes, ∃ x, (dir p z).xv k = some x ∧ HoldsXv z (ps k) x) :
    nbodyFile dir (some p) (some z) none pidFile = .ok ⟨[], ((List.range (dir p z).nodes).flatMap ps).length⟩ := by
  unfold nbodyFile
  dsimp only
  rw [if_neg hp, getNpart_ok (ps := ps) _ fun k hk => hd k (List.mem_range.1 hk)]

/-- Two particles are counted, none is there. -/
example : ∃ s, nbodyFile (fun _ _ => twoDir) (some "x") (some 1) none true = .ok s ∧ s.npart = 2 ∧ s.nbody = [] :=
  ⟨_, C207_false (fun _ _ => twoDir) (by decide) 1 true (fun _ => two) fun k _ => (twoDir_holds k).1, rfl, rfl⟩

/-- Reading twice gives every particle twice, and `npart` is not the number of particles. -/
theorem C207_false_again : ∃ s t, nbodyFile (fun _ _ => twoDir) (some "x") (some 1) (some 0) true = .ok s ∧
    readFromFile 1 twoDir true s (some 0) = .ok t ∧ t.nbody = two ++ two ∧ t.npart = 2 := by
  obtain ⟨h1, h2, _⟩ := C207_partial (fun _ _ => twoDir) (p := "x") (by decide) 1 true (fun _ => two) fun k _ => twoDir_holds k
  exact ⟨_, _, h1 0 (by decide), h2 0 (by decide) _, rfl, rfl⟩

/-- A missing file, a file of another redshift, and a file of identifiers with another number of particles are errors; so are a missing redshift and a
missing path. -/
theorem C207_raises (dir : String → ℝ → Dir) (p : String) (z : ℝ) (pidFile : Bool) :
    (∀ path node, nbodyFile dir path none node pidFile = .error .name) ∧
    (∀ node, nbodyFile dir none (some z) node pidFile = .error .name) ∧
    (∀ k s, (dir p z).xv k = none → readFromFile z (dir p z) pidFile s (some k) = .error .file) ∧
    (∀ k s x, (dir p z).xv k = some x → OtherRedshift z x.a → readFromFile z (dir p z) pidFile s (some k) = .error .assertion) ∧
    (∀ k s x y, (dir p z).xv k = some x → AtRedshift z x.a → 6 * x.count ≤ x.data.length → (dir p z).pid k = some y →
      (OtherRedshift z y.a ∨ (AtRedshift z y.a ∧ y.count ≠ x.count)) → readFromFile z (dir p z) true s (some k) = .error .assertion) ∧
    ∀ ps : ℕ → List Particle, p ≠ "" → ∀ k < (dir p z).nodes, (∀ j < k, ∃ x, (dir p z).xv j = some x ∧ HoldsXv z (ps j) x) →
      ∀ x, (dir p z).xv k = some x → OtherRedshift z x.a → ∀ node, nbodyFile dir (some p) (some z) node pidFile = .error .assertion := by
  have hone : ∀ k s b e, readNode z ((dir p z).xv k) (if b then some ((dir p z).pid k) else none) = .error e →
      readFromFile z (dir p z) b s (some k) = .error e := by
    intro k s b e h
    unfold readFromFile nodesOf
    dsimp only
    unfold readNodes
    rw [h]
  refine ⟨fun _ _ => rfl, fun _ => rfl, fun k s h => hone k s pidFile _ ?_, fun k s x h h1 => hone k s pidFile _ ?_,
    fun k s x y h h1 h2 h3 h4 => hone k s true _ ?_, fun ps hp k hk hj x hx ho node => ?_⟩
  · unfold readNode
    rw [h]
  · unfold readNode
    rw [h]
    dsimp only
    rw [if_pos (not_sameRedshift_of h1)]
  · unfold readNode
    rw [h, h3, if_pos rfl]
    dsimp only
    rw [if_neg (not_not.2 (sameRedshift_of h1)), if_neg (by omega)]
    rcases h4 with h4 | ⟨h4, h5⟩
    · rw [if_pos (not_sameRedshift_of h4)]
    · rw [if_neg (not_not.2 (sameRedshift_of h4)), if_pos h5]
  · have key : ∀ (n m : ℕ), m ≤ k → k < m + n → getNpart z (dir p z) (List.range' m n) = .error .assertion := by
      intro n
      induction n with
      | zero => intro m h1 h2; omega
      | succ n ih =>
        intro m h1 h2
        rw [List.range'_succ]
        unfold getNpart
        rcases Nat.eq_or_lt_of_le h1 with h3 | h3
        · subst h3
          rw [hx]
          dsimp only
          rw [if_pos (not_sameRedshift_of ho)]
        · obtain ⟨y, hy, h4, _, _⟩ := hj m h3
          rw [hy]
          dsimp only
          rw [if_neg (not_not.2 (sameRedshift_of h4)), ih (m + 1) h3 (by omega)]
    unfold nbodyFile
    dsimp only
    rw [if_neg hp, List.range_eq_range', key _ 0 (Nat.zero_le _) (by omega)]

/-- The file at redshift one is not that of redshift two. -/
example : OtherRedshift 2 (1 / 2) := Or.inr (by norm_num [abs_of_neg])

end Verif.CubeP3M

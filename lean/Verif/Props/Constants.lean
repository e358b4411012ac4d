import Verif.Model.Constants
import Mathlib.Data.List.Induction
import Mathlib.Tactic.NormNum
import Mathlib.Tactic.Ring
import Mathlib.Tactic.Linarith
import Mathlib.Tactic.FieldSimp
/-!
# Properties C06, C07, C52: module constants under arbitrary histories of setter calls
-/

namespace Verif.Constants

/-! ## Specification -/

/-- C06 as claimed: `H0` follows `h`, both vacuum densities agree, and `q0` belongs to the
current densities. -/
def CosmologyConsistent (c : Const) : Prop :=
  c.H0 = 100 * c.h ∧ c.lam = c.omegaL ∧ c.q0 = c.omega0 / 2 - c.lam

/-- C52 as claimed: the densities derived at import time belong to the current parameters. -/
def DensitiesConsistent (pi : ℚ) (c : Const) : Prop :=
  c.H0cgs = c.H0 * 10 ^ 5 / mpc ∧ c.rhoCrit0 = 3 * c.H0cgs ^ 2 / (8 * pi * gGrav) ∧
    c.rhoMatter = c.rhoCrit0 * c.omega0

/-- The supported simulation boxes: side in cMpc/h and cells per side of the fine mesh. -/
def supported : List (ℚ × ℕ) :=
  [(425, 10976), (114, 6144), (64, 3456), (37, 2048), (500, 13824), (244, 8000), (47, 3456),
    (200, 3456)]

/-- C07 as claimed: all globals of `conv` describe one supported box, with the Hubble
parameter `h` and the mean matter density `rho`. -/
def DescribesOneBox (h rho : ℚ) (c : Conv) : Prop :=
  (∃ box ∈ supported, |c.boxsize - box.1| < 1 / 10000 ∧ c.nboxFine = box.2) ∧
  c.LB * h = c.boxsize ∧
  c.lscale * c.nboxFine = c.LB * mpc ∧
  c.mGrid * (c.nboxFine : ℚ) ^ 3 = c.mBox ∧
  c.mBox = rho * (c.LB * mpc) ^ 3

/-- Value given by the last call in a history that sets the quantity, else the start value. -/
def lastSet {Op : Type} (f : Op → Option ℚ) (start : ℚ) (ops : List Op) : ℚ :=
  ((ops.filterMap f).getLast?).getD start

/-- Does the call set `h`? -/
def setsHubble : Op → Option ℚ
  | .const (.hubble v) => some v
  | _ => none

/-- Which call sets the vacuum density `lam`: `set_omega_matter(v)` to `1 - v`,
`set_omega_lambda(v)` to `v`. -/
def setsLam : Op → Option ℚ
  | .const (.omegaMatter v) => some (1 - v)
  | .const (.omegaLambda v) => some v
  | _ => none

/-- Which call sets the matter density. -/
def setsMatter : Op → Option ℚ
  | .const (.omegaMatter v) => some v
  | _ => none

/-- A call is `set_omega_lambda`. -/
def isLambda : Op → Prop
  | .const (.omegaLambda _) => True
  | _ => False

/-! ## Lemmas -/

theorem run_concat (sqrt : ℚ → ℚ) (s : State) (ops : List Op) (o : Op) :
    s.run sqrt (ops ++ [o]) = ((s.run sqrt ops).step sqrt o).1 := by
  unfold State.run; simp

theorem setSim_const (sqrt : ℚ → ℚ) (s : State) (b : ℚ) : (setSim sqrt s b).1.const = s.const := by
  unfold setSim
  split_ifs
  · rfl
  · dsimp only; split <;> rfl

theorem lastSet_concat {Op : Type} (f : Op → Option ℚ) (start : ℚ) (ops : List Op) (o : Op) :
    lastSet f start (ops ++ [o]) = (f o).getD (lastSet f start ops) := by
  unfold lastSet
  rw [List.filterMap_append]
  cases h : f o with
  | none => simp [h]
  | some v => simp [h]

/-! ## C06 -/

/-- **C06 is false of the code.** `set_omega_lambda(0.7)` right after import: the vacuum density
used by the virial formulae stays at its import value and `q0` still belongs to the old one. -/
theorem C06_false (pi : ℚ) (sqrt : ℚ → ℚ) :
    ∃ ops, ¬ CosmologyConsistent ((State.init pi sqrt).run sqrt ops).const ∧
      ((State.init pi sqrt).run sqrt ops).const.lam ≠ ((State.init pi sqrt).run sqrt ops).const.omegaL ∧
      ((State.init pi sqrt).run sqrt ops).const.q0 ≠
        ((State.init pi sqrt).run sqrt ops).const.omega0 / 2 -
          ((State.init pi sqrt).run sqrt ops).const.lam := by
  refine ⟨[.const (.omegaLambda (7 / 10))], ?_⟩
  simp only [State.run, List.foldl, State.step, Const.step, State.init, Const.init,
    CosmologyConsistent]
  norm_num

/-- **C06 is false of the code** even without `set_omega_lambda`: `set_omega_matter(0.3)`. -/
theorem C06_false_matter (pi : ℚ) (sqrt : ℚ → ℚ) :
    ¬ CosmologyConsistent ((State.init pi sqrt).run sqrt [.const (.omegaMatter (3 / 10))]).const := by
  simp only [State.run, List.foldl, State.step, Const.step, State.init, Const.init,
    CosmologyConsistent]
  norm_num

/-- **C06, what holds.** For every history: `H0 = 100 h` with the last `h` given; `lam` and
`Omega0` are the last values given; the hydrogen and helium fractions add up to 1; and `OmegaL` is frozen
at its import value, so the two vacuum densities agree exactly when the last value given to
`lam` is 0.73. Missing from the full statement: `lam = OmegaL` and `q0` after
`set_omega_lambda`, both refuted above. -/
theorem C06_partial (pi : ℚ) (sqrt : ℚ → ℚ) (ops : List Op) :
    let c := ((State.init pi sqrt).run sqrt ops).const
    c.H0 = 100 * c.h ∧ c.h = lastSet setsHubble (7 / 10) ops ∧
    c.lam = lastSet setsLam (73 / 100) ops ∧ c.omega0 = lastSet setsMatter (27 / 100) ops ∧
    c.q0 = c.omega0 / 2 - (1 - c.omega0) ∧
    c.abuHMass + c.abuHeMass = 1 ∧ c.omegaL = 73 / 100 := by
  induction ops using List.reverseRecOn with
  | nil =>
    simp only [State.run, List.foldl, State.init, Const.init, lastSet]
    norm_num
  | append_singleton ops o ih =>
    simp only [run_concat, lastSet_concat] at ih ⊢
    obtain ⟨h1, h2, h3, h4, h5, h6, h7⟩ := ih
    cases o with
    | simConstants b =>
      simp only [State.step, setSim_const]
      exact ⟨h1, h2, h3, h4, h5, h6, h7⟩
    | const o =>
      cases o <;> refine ⟨?_, ?_, ?_, ?_, ?_, ?_, ?_⟩ <;>
        first | exact h1 | exact h2 | exact h3 | exact h4 | exact h5 | exact h6 | exact h7 | rfl |
          exact sub_add_cancel _ _

/-- **C06, what holds.** As long as `set_omega_lambda` is not called the model stays flat and
`q0` belongs to the current densities. -/
theorem C06_flat_partial (pi : ℚ) (sqrt : ℚ → ℚ) (ops : List Op) (h : ∀ o ∈ ops, ¬ isLambda o) :
    let c := ((State.init pi sqrt).run sqrt ops).const
    c.lam + c.omega0 = 1 ∧ c.q0 = c.omega0 / 2 - c.lam := by
  induction ops using List.reverseRecOn with
  | nil =>
    simp only [State.run, List.foldl, State.init, Const.init]
    norm_num
  | append_singleton ops o ih =>
    have ih := ih fun o ho => h o (by simp [ho])
    have ho := h o (by simp)
    simp only [run_concat] at ih ⊢
    cases o with
    | simConstants b => simp only [State.step, setSim_const]; exact ih
    | const o =>
      cases o with
      | omegaLambda v => exact absurd trivial ho
      | omegaMatter v =>
        simp only [State.step, Const.step]
        exact ⟨by ring, trivial⟩
      | _ => simp only [State.step, Const.step]; exact ih

example (pi : ℚ) (sqrt : ℚ → ℚ) :
    ((State.init pi sqrt).run sqrt [.const (.hubble (1 / 2)), .simConstants 100,
      .const (.omegaMatter (3 / 10)), .const (.omegaLambda (6 / 10))]).const.lam = 6 / 10 :=
  (C06_partial pi sqrt _).2.2.1.trans rfl

example : ∀ o ∈ [Op.const (.hubble (1 / 2)), .const (.omegaMatter (3 / 10))], ¬ isLambda o := by
  simp [isLambda]

/-! ## C52 -/

/-- **C52 is false of the code.** `set_hubble_h(0.5)` leaves the critical density of `h = 0.7`
behind. -/
theorem C52_false (pi : ℚ) (sqrt : ℚ → ℚ) :
    ¬ DensitiesConsistent pi ((State.init pi sqrt).run sqrt [.const (.hubble (1 / 2))]).const := by
  simp only [State.run, List.foldl, State.step, Const.step, State.init, Const.init,
    DensitiesConsistent, H0cgsOf, mpc]
  norm_num

/-- **C52, what holds.** The derived densities are those of the import-time parameters
`h = 0.7`, `Omega0 = 0.27` after every history. They are right as long as these two parameters
have those values. Missing: following `set_hubble_h` and `set_omega_matter`, refuted above. -/
theorem C52_partial (pi : ℚ) (sqrt : ℚ → ℚ) (ops : List Op) :
    let c := ((State.init pi sqrt).run sqrt ops).const
    c.H0cgs = 70 * 10 ^ 5 / mpc ∧ c.rhoCrit0 = 3 * c.H0cgs ^ 2 / (8 * pi * gGrav) ∧
    c.rhoMatter = c.rhoCrit0 * (27 / 100) ∧
    (c.h = 7 / 10 → c.omega0 = 27 / 100 → DensitiesConsistent pi c) := by
  have key : let c := ((State.init pi sqrt).run sqrt ops).const
      c.H0cgs = 70 * 10 ^ 5 / mpc ∧ c.rhoCrit0 = 3 * c.H0cgs ^ 2 / (8 * pi * gGrav) ∧
      c.rhoMatter = c.rhoCrit0 * (27 / 100) := by
    induction ops using List.reverseRecOn with
    | nil =>
      simp only [State.run, List.foldl, State.init, Const.init, rhoCritOf, H0cgsOf]
      exact ⟨by norm_num, by ring, trivial⟩
    | append_singleton ops o ih =>
      simp only [run_concat] at ih ⊢
      cases o with
      | simConstants b => simp only [State.step, setSim_const]; exact ih
      | const o => cases o <;> simp only [State.step, Const.step] <;> exact ih
  refine ⟨key.1, key.2.1, key.2.2, fun hh ho => ⟨?_, key.2.1, ?_⟩⟩
  · have h1 := (C06_partial pi sqrt ops).1
    rw [h1, hh, key.1]; norm_num
  · rw [ho]; exact key.2.2

example (pi : ℚ) (sqrt : ℚ → ℚ) : DensitiesConsistent pi ((State.init pi sqrt).run sqrt
    [.const (.hubble (1 / 2)), .const (.sigma8 (9 / 10)), .const (.hubble (7 / 10))]).const :=
  (C52_partial pi sqrt _).2.2.2 rfl rfl

/-! ## C07 -/

theorem fineMesh_some {b : ℚ} {n : ℕ} (h : fineMesh b = some n) :
    ∃ box ∈ supported, |b - box.1| < 1 / 10000 ∧ n = box.2 := by
  unfold fineMesh at h
  have mem : ∀ x m, (x, m) ∈ supported → fltComp b x = true → n = m →
      ∃ box ∈ supported, |b - box.1| < 1 / 10000 ∧ n = box.2 := fun x m hm hx hn =>
    ⟨(x, m), hm, of_decide_eq_true hx, hn⟩
  split_ifs at h with h1 h2 h3 h4 h5 h6 h7 h8
  · exact mem _ _ (by simp [supported]) h1 (Option.some.inj h).symm
  · exact mem _ _ (by simp [supported]) h2 (Option.some.inj h).symm
  · exact mem _ _ (by simp [supported]) h3 (Option.some.inj h).symm
  · exact mem _ _ (by simp [supported]) h4 (Option.some.inj h).symm
  · exact mem _ _ (by simp [supported]) h5 (Option.some.inj h).symm
  · exact mem _ _ (by simp [supported]) h6 (Option.some.inj h).symm
  · exact mem 47 _ (by simp [supported]) h7 (Option.some.inj h).symm
  · exact mem 200 _ (by simp [supported]) h8 (Option.some.inj h).symm

theorem fineMesh_none {b : ℚ} (h : fineMesh b = none) :
    ∀ box ∈ supported, ¬ |b - box.1| < 1 / 10000 := by
  unfold fineMesh at h
  simp only [fltComp, decide_eq_true_eq] at h
  simp only [supported, List.mem_cons, List.not_mem_nil, or_false]
  split_ifs at h
  rintro box (rfl | rfl | rfl | rfl | rfl | rfl | rfl | rfl) <;> assumption

theorem supported_pos {box : ℚ × ℕ} (h : box ∈ supported) : box.2 ≠ 0 := by
  simp only [supported, List.mem_cons, List.not_mem_nil, or_false] at h
  rcases h with rfl | rfl | rfl | rfl | rfl | rfl | rfl | rfl <;> norm_num

/-- **C07 is false of the code.** One failing call leaves the box side of the rejected box
with the mesh, masses and length scale of the previous one. -/
theorem C07_false (pi : ℚ) (sqrt : ℚ → ℚ) :
    let s := State.init pi sqrt
    let r := s.step sqrt (.simConstants 100)
    r.2 = .error "Invalid boxsize" ∧
      ¬ ∃ h rho, DescribesOneBox h rho r.1.conv := by
  have hf : fineMesh 100 = none := by unfold fineMesh fltComp; norm_num [abs_lt]
  have h7 : (State.init pi sqrt).const.h = 7 / 10 := rfl
  have hr : (State.init pi sqrt).step sqrt (.simConstants 100) =
      (⟨(State.init pi sqrt).const, { (State.init pi sqrt).conv with
        boxsize := 100, LB := 100 / (7 / 10) }⟩, .error "Invalid boxsize") := by
    simp only [State.step, setSim, h7, hf]
    norm_num
  simp only [hr, true_and]
  rintro ⟨h, rho, ⟨box, hbox, hb, _⟩, _⟩
  exact fineMesh_none hf box hbox hb

/-- **C07 is false of the code** also without a failing call: `set_hubble_h` leaves `LB` and everything
derived from it at the old value. -/
theorem C07_false_hubble (pi : ℚ) (sqrt : ℚ → ℚ) :
    let s := (State.init pi sqrt).run sqrt [.const (.hubble (1 / 2))]
    ¬ DescribesOneBox s.const.h s.const.rhoMatter s.conv := by
  simp only [State.run, List.foldl, State.step, Const.step, State.init, Conv.derive, Const.init,
    DescribesOneBox]
  rintro ⟨_, h, _⟩
  norm_num at h

/-- **C07, what holds.** From every state whatsoever (also one left by a failing call) a
successful call makes all globals describe the requested box; it succeeds exactly for the supported sizes
(and `h ≠ 0`); a failing call changes nothing but the box side and `LB`. -/
theorem C07_call_partial (sqrt : ℚ → ℚ) (s : State) (b : ℚ) :
    ((s.step sqrt (.simConstants b)).2 = .ok () →
      DescribesOneBox s.const.h s.const.rhoMatter (s.step sqrt (.simConstants b)).1.conv ∧
      (s.step sqrt (.simConstants b)).1.conv.boxsize = b) ∧
    ((s.step sqrt (.simConstants b)).2 = .ok () ↔
      s.const.h ≠ 0 ∧ ∃ box ∈ supported, |b - box.1| < 1 / 10000) ∧
    ((s.step sqrt (.simConstants b)).2 ≠ .ok () →
      let c := (s.step sqrt (.simConstants b)).1.conv
      c.nboxFine = s.conv.nboxFine ∧ c.mBox = s.conv.mBox ∧ c.mGrid = s.conv.mGrid ∧
        c.lscale = s.conv.lscale ∧ c.tscale = s.conv.tscale ∧ c.boxsize = b) := by
  simp only [State.step, setSim]
  by_cases hh : s.const.h = 0
  · simp [hh]
  · simp only [hh, if_false]
    cases hf : fineMesh b with
    | none =>
      have := fineMesh_none hf
      simp only [reduceCtorEq, false_implies, true_and, ne_eq, not_false_eq_true, false_iff,
        not_exists, not_and, true_implies]
      exact ⟨fun _ box hb h => this box hb h, trivial⟩
    | some n =>
      obtain ⟨box, hbox, hb, rfl⟩ := fineMesh_some hf
      have hn : ((box.2 : ℕ) : ℚ) ≠ 0 := by exact_mod_cast supported_pos hbox
      simp only [Conv.derive, true_implies, ne_eq, not_true, false_implies, and_true, true_iff]
      refine ⟨⟨⟨box, hbox, hb, rfl⟩, ?_, ?_, ?_, rfl⟩, hh, box, hbox, hb⟩
      · exact div_mul_cancel₀ _ hh
      · field_simp
      · exact div_mul_cancel₀ _ (pow_ne_zero 3 hn)

/-- The Hubble parameter in force when the box was last set successfully. -/
def hubbleAtSet (sqrt : ℚ → ℚ) : State → List Op → ℚ → ℚ
  | _, [], h => h
  | s, o :: ops, h =>
    hubbleAtSet sqrt (s.step sqrt o).1 ops
      (match o with
        | .simConstants _ => s.const.h
        | .const _ => h)

/-- **C07, what holds.** After every history in which each requested box is supported (and `h` is
never set to 0) the globals describe one box, for the `h` in force when that box was set. Missing from the
full statement: histories with a failing call, and following a later `set_hubble_h`; both are
refuted above. -/
theorem C07_history_partial (pi : ℚ) (sqrt : ℚ → ℚ) (ops : List Op)
    (hops : ∀ o ∈ ops, match o with
      | .simConstants b => ∃ box ∈ supported, |b - box.1| < 1 / 10000
      | .const (.hubble v) => v ≠ 0
      | .const _ => True) :
    let s := (State.init pi sqrt).run sqrt ops
    DescribesOneBox (hubbleAtSet sqrt (State.init pi sqrt) ops (7 / 10)) s.const.rhoMatter s.conv := by
  have gen : ∀ (ops : List Op) (s : State) (h : ℚ), s.const.h ≠ 0 →
      DescribesOneBox h s.const.rhoMatter s.conv →
      (∀ o ∈ ops, match o with
        | .simConstants b => ∃ box ∈ supported, |b - box.1| < 1 / 10000
        | .const (.hubble v) => v ≠ 0
        | .const _ => True) →
      DescribesOneBox (hubbleAtSet sqrt s ops h) (s.run sqrt ops).const.rhoMatter
        (s.run sqrt ops).conv := by
    intro ops
    induction ops with
    | nil => intro s h _ hd _; exact hd
    | cons o ops ih =>
      intro s h hh hd hops
      have ho := hops o (by simp)
      replace hops := fun o' h' => hops o' (List.mem_cons_of_mem _ h')
      show DescribesOneBox _ (((s.step sqrt o).1.run sqrt ops)).const.rhoMatter
        ((s.step sqrt o).1.run sqrt ops).conv
      unfold hubbleAtSet
      cases o with
      | simConstants b =>
        have hc := C07_call_partial sqrt s b
        have hok := hc.2.1.2 ⟨hh, ho⟩
        have hconst : (s.step sqrt (.simConstants b)).1.const = s.const := setSim_const sqrt s b
        exact ih _ _ (by rw [hconst]; exact hh) (by rw [hconst]; exact (hc.1 hok).1) hops
      | const o =>
        refine ih _ _ ?_ ?_ hops
        · cases o <;> first | exact hh | exact ho
        · cases o <;> exact hd
  refine gen ops _ _ ?_ ?_ hops
  · simp only [State.init, Const.init]; norm_num
  · refine ⟨⟨(244, 8000), by simp [supported], ?_, rfl⟩, ?_, ?_, ?_, ?_⟩
    all_goals simp only [State.init, Const.init, Conv.derive]
    · norm_num
    · norm_num
    · ring
    · ring

/-- A box of 47 cMpc/h set after changing `h`, from the state left by a rejected call. -/
example (pi : ℚ) (sqrt : ℚ → ℚ) :
    let s := (State.init pi sqrt).run sqrt [.simConstants 100, .const (.hubble (1 / 2))]
    DescribesOneBox (1 / 2) s.const.rhoMatter (s.step sqrt (.simConstants 47)).1.conv := by
  intro s
  have h := C07_call_partial sqrt s 47
  have hh : s.const.h = 1 / 2 := (C06_partial pi sqrt _).2.1
  have hok := h.2.1.2 ⟨by rw [hh]; norm_num, (47, 3456), by simp [supported], by norm_num⟩
  have := (h.1 hok).1
  rwa [hh] at this

end Verif.Constants

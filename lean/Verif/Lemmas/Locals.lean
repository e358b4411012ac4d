import Verif.Model.Locals

/-!
# What function bodies can do, and why the check of `Model/Locals.lean` is right

`Run` says what a body can do with the local variables, without reference to the check.
-/

namespace Verif.Locals

/-- Which local variables have a value. -/
abbrev State := Nat → Bool

/-- How a statement ends: normally, by `break`, `continue`, `return`, an exception, or by reading a local variable that has no value. -/
inductive Out where
  | norm (s : State)
  | brk (s : State)
  | cont (s : State)
  | ret (value : Bool) (s : State)
  | thrown (s : State)
  | unbound (x : Nat)

/-- The state in which a statement ends. -/
def Out.state : Out → Option State
  | .norm s | .brk s | .cont s | .ret _ s | .thrown s => some s
  | .unbound _ => none

/-- The same way of ending in another state. -/
def Out.inState (t : State) : Out → Out
  | .norm _ => .norm t
  | .brk _ => .brk t
  | .cont _ => .cont t
  | .ret v _ => .ret v t
  | .thrown _ => .thrown t
  | .unbound x => .unbound x

/-- Whether a statement ends normally. -/
def Out.isNorm : Out → Bool
  | .norm _ => true
  | _ => false

/-- The ways in which a statement can run. -/
inductive Run : Stmt → State → Out → Prop where
  /-- every statement may raise before it has done anything -/
  | fault (s : Stmt) (σ : State) : Run s σ (.thrown σ)
  | skip (σ : State) : Run .skip σ (.norm σ)
  | read {v : Nat} {σ : State} (h : ∀ x, v.testBit x = true → σ x = true) : Run (.read v) σ (.norm σ)
  | readUnbound {v x : Nat} {σ : State} (hv : v.testBit x = true) (h : σ x = false) : Run (.read v) σ (.unbound x)
  | write (v : Nat) (σ : State) : Run (.write v) σ (.norm fun x => σ x || v.testBit x)
  | del {v : Nat} {σ : State} (h : ∀ x, v.testBit x = true → σ x = true) : Run (.del v) σ (.norm fun x => σ x && !v.testBit x)
  | delUnbound {v x : Nat} {σ : State} (hv : v.testBit x = true) (h : σ x = false) : Run (.del v) σ (.unbound x)
  | ret (v : Bool) (σ : State) : Run (.ret v) σ (.ret v σ)
  | throw (σ : State) : Run .throw σ (.thrown σ)
  | brk (σ : State) : Run .brk σ (.brk σ)
  | cont (σ : State) : Run .cont σ (.cont σ)
  | seq {a b : Stmt} {σ τ : State} {o : Out} (h : Run a σ (.norm τ)) (h' : Run b τ o) : Run (.seq a b) σ o
  | seqStop {a b : Stmt} {σ : State} {o : Out} (h : Run a σ o) (h' : o.isNorm = false) : Run (.seq a b) σ o
  | yes {a b : Stmt} {σ : State} {o : Out} (h : Run a σ o) : Run (.either a b) σ o
  | no {a b : Stmt} {σ : State} {o : Out} (h : Run b σ o) : Run (.either a b) σ o
  /-- the loop is over -/
  | loopEnd {a b : Stmt} {σ : State} {o : Out} (h : Run b σ o) : Run (.loop a b) σ o
  /-- one more time through the body -/
  | loopMore {a b : Stmt} {σ τ : State} {o : Out} (h : Run a σ (.norm τ)) (h' : Run (.loop a b) τ o) : Run (.loop a b) σ o
  | loopCont {a b : Stmt} {σ τ : State} {o : Out} (h : Run a σ (.cont τ)) (h' : Run (.loop a b) τ o) : Run (.loop a b) σ o
  /-- `break` also skips the `else` branch -/
  | loopBrk {a b : Stmt} {σ τ : State} (h : Run a σ (.brk τ)) : Run (.loop a b) σ (.norm τ)
  | loopRet {a b : Stmt} {σ τ : State} {v : Bool} (h : Run a σ (.ret v τ)) : Run (.loop a b) σ (.ret v τ)
  | loopThrown {a b : Stmt} {σ τ : State} (h : Run a σ (.thrown τ)) : Run (.loop a b) σ (.thrown τ)
  | loopUnbound {a b : Stmt} {σ : State} {x : Nat} (h : Run a σ (.unbound x)) : Run (.loop a b) σ (.unbound x)
  | everMore {a : Stmt} {σ τ : State} {o : Out} (h : Run a σ (.norm τ)) (h' : Run (.forever a) τ o) : Run (.forever a) σ o
  | everCont {a : Stmt} {σ τ : State} {o : Out} (h : Run a σ (.cont τ)) (h' : Run (.forever a) τ o) : Run (.forever a) σ o
  | everBrk {a : Stmt} {σ τ : State} (h : Run a σ (.brk τ)) : Run (.forever a) σ (.norm τ)
  | everRet {a : Stmt} {σ τ : State} {v : Bool} (h : Run a σ (.ret v τ)) : Run (.forever a) σ (.ret v τ)
  | everThrown {a : Stmt} {σ τ : State} (h : Run a σ (.thrown τ)) : Run (.forever a) σ (.thrown τ)
  | everUnbound {a : Stmt} {σ : State} {x : Nat} (h : Run a σ (.unbound x)) : Run (.forever a) σ (.unbound x)
  /-- no exception: the `else` branch -/
  | attemptElse {a h b : Stmt} {σ τ : State} {o : Out} (ha : Run a σ (.norm τ)) (hb : Run b τ o) : Run (.attempt a h b) σ o
  /-- an exception that is handled, in the state in which it was raised -/
  | attemptCatch {a h b : Stmt} {σ τ : State} {o : Out} (ha : Run a σ (.thrown τ)) (hh : Run h τ o) : Run (.attempt a h b) σ o
  /-- an exception that is not handled, or `return`, `break`, `continue` -/
  | attemptPass {a h b : Stmt} {σ : State} {o : Out} (ha : Run a σ o) (hn : o.isNorm = false) : Run (.attempt a h b) σ o
  | cleanup {a f : Stmt} {σ τ τ' : State} {o : Out} (ha : Run a σ o) (ho : o.state = some τ) (hf : Run f τ (.norm τ')) : Run (.cleanup a f) σ (o.inState τ')
  | cleanupStop {a f : Stmt} {σ τ : State} {o o' : Out} (ha : Run a σ o) (ho : o.state = some τ) (hf : Run f τ o') (hn : o'.isNorm = false) :
      Run (.cleanup a f) σ o'
  | cleanupUnbound {a f : Stmt} {σ : State} {x : Nat} (ha : Run a σ (.unbound x)) : Run (.cleanup a f) σ (.unbound x)

/-- All variables of the set have values. -/
def Has (m : Nat) (σ : State) : Prop := ∀ x, m.testBit x = true → σ x = true

theorem testBit_without (a b x : Nat) : (without a b).testBit x = (a.testBit x && !b.testBit x) := by
  rw [without, Nat.testBit_xor, Nat.testBit_and]
  cases a.testBit x <;> cases b.testBit x <;> rfl

theorem subset_iff {v m : Nat} (h : v &&& m = v) (x : Nat) (hx : v.testBit x = true) : m.testBit x = true := by
  rw [← h, Nat.testBit_and, Bool.and_eq_true] at hx
  exact hx.2

theorem not_subset {v m : Nat} (h : v &&& m ≠ v) : ∃ x, v.testBit x = true ∧ m.testBit x = false := by
  refine Classical.byContradiction fun hc => h (Nat.eq_of_testBit_eq fun x => ?_)
  rw [Nat.testBit_and]
  cases hv : v.testBit x with
  | false => rfl
  | true =>
    cases hm : m.testBit x with
    | true => rfl
    | false => exact absurd ⟨x, hv, hm⟩ hc

theorem Has.mono {m m' : Nat} {σ : State} (h : Has m σ) (hm : ∀ x, m'.testBit x = true → m.testBit x = true) : Has m' σ :=
  fun x hx => h x (hm x hx)

theorem Has.and_left {m m' : Nat} {σ : State} (h : Has m σ) : Has (m &&& m') σ :=
  h.mono fun x hx => by rw [Nat.testBit_and, Bool.and_eq_true] at hx; exact hx.1

theorem Has.and_right {m m' : Nat} {σ : State} (h : Has m' σ) : Has (m &&& m') σ :=
  h.mono fun x hx => by rw [Nat.testBit_and, Bool.and_eq_true] at hx; exact hx.2

/-- The state, if the end is reached at all, has the variables that are known. -/
def HasO (k : Option Nat) (σ : State) : Prop := ∃ m, k = some m ∧ Has m σ

theorem HasO.meet_left {a b : Option Nat} {σ : State} (h : HasO a σ) : HasO (meet a b) σ := by
  obtain ⟨m, rfl, hm⟩ := h
  cases b with
  | none => exact ⟨m, rfl, hm⟩
  | some n => exact ⟨_, rfl, hm.and_left⟩

theorem HasO.meet_right {a b : Option Nat} {σ : State} (h : HasO b σ) : HasO (meet a b) σ := by
  obtain ⟨m, rfl, hm⟩ := h
  cases a with
  | none => exact ⟨m, rfl, hm⟩
  | some n => exact ⟨_, rfl, hm.and_right⟩

/-- Running a statement takes values only from variables that it may delete. -/
theorem Run.keeps {s : Stmt} {σ : State} {o : Out} (h : Run s σ o) :
    ∀ τ, o.state = some τ → ∀ x, (kill s).testBit x = false → σ x = true → τ x = true := by
  induction h with
  | fault s σ => intro τ ht x _ hx; cases ht; exact hx
  | skip σ => intro τ ht x _ hx; cases ht; exact hx
  | read h => intro τ ht x _ hx; cases ht; exact hx
  | readUnbound hv h => intro τ ht; cases ht
  | write v σ => intro τ ht x _ hx; cases ht; simp [hx]
  | del h => intro τ ht x hk hx; cases ht; rw [kill] at hk; simp [hx, hk]
  | delUnbound hv h => intro τ ht; cases ht
  | ret v σ => intro τ ht x _ hx; cases ht; exact hx
  | throw σ => intro τ ht x _ hx; cases ht; exact hx
  | brk σ => intro τ ht x _ hx; cases ht; exact hx
  | cont σ => intro τ ht x _ hx; cases ht; exact hx
  | seq _ _ iha ihb =>
    intro τ ht x hk hx
    rw [kill, Nat.testBit_or, Bool.or_eq_false_iff] at hk
    exact ihb τ ht x hk.2 (iha _ rfl x hk.1 hx)
  | seqStop _ _ iha =>
    intro τ ht x hk hx
    rw [kill, Nat.testBit_or, Bool.or_eq_false_iff] at hk
    exact iha τ ht x hk.1 hx
  | yes _ ih =>
    intro τ ht x hk hx
    rw [kill, Nat.testBit_or, Bool.or_eq_false_iff] at hk
    exact ih τ ht x hk.1 hx
  | no _ ih =>
    intro τ ht x hk hx
    rw [kill, Nat.testBit_or, Bool.or_eq_false_iff] at hk
    exact ih τ ht x hk.2 hx
  | loopEnd _ ih =>
    intro τ ht x hk hx
    rw [kill, Nat.testBit_or, Bool.or_eq_false_iff] at hk
    exact ih τ ht x hk.2 hx
  | loopMore _ _ iha ihb =>
    intro τ ht x hk hx
    refine ihb τ ht x hk ?_
    rw [kill, Nat.testBit_or, Bool.or_eq_false_iff] at hk
    exact iha _ rfl x hk.1 hx
  | loopCont _ _ iha ihb =>
    intro τ ht x hk hx
    refine ihb τ ht x hk ?_
    rw [kill, Nat.testBit_or, Bool.or_eq_false_iff] at hk
    exact iha _ rfl x hk.1 hx
  | loopBrk _ ih =>
    intro τ ht x hk hx
    rw [kill, Nat.testBit_or, Bool.or_eq_false_iff] at hk
    exact ih τ ht x hk.1 hx
  | loopRet _ ih =>
    intro τ ht x hk hx
    rw [kill, Nat.testBit_or, Bool.or_eq_false_iff] at hk
    exact ih τ ht x hk.1 hx
  | loopThrown _ ih =>
    intro τ ht x hk hx
    rw [kill, Nat.testBit_or, Bool.or_eq_false_iff] at hk
    exact ih τ ht x hk.1 hx
  | loopUnbound _ _ => intro τ ht; cases ht
  | everMore _ _ iha ihb => intro τ ht x hk hx; exact ihb τ ht x hk (iha _ rfl x hk hx)
  | everCont _ _ iha ihb => intro τ ht x hk hx; exact ihb τ ht x hk (iha _ rfl x hk hx)
  | everBrk _ ih => intro τ ht x hk hx; exact ih τ ht x hk hx
  | everRet _ ih => intro τ ht x hk hx; exact ih τ ht x hk hx
  | everThrown _ ih => intro τ ht x hk hx; exact ih τ ht x hk hx
  | everUnbound _ _ => intro τ ht; cases ht
  | attemptElse _ _ iha ihb =>
    intro τ ht x hk hx
    rw [kill, Nat.testBit_or, Nat.testBit_or, Bool.or_eq_false_iff, Bool.or_eq_false_iff] at hk
    exact ihb τ ht x hk.2 (iha _ rfl x hk.1.1 hx)
  | attemptCatch _ _ iha ihh =>
    intro τ ht x hk hx
    rw [kill, Nat.testBit_or, Nat.testBit_or, Bool.or_eq_false_iff, Bool.or_eq_false_iff] at hk
    exact ihh τ ht x hk.1.2 (iha _ rfl x hk.1.1 hx)
  | attemptPass _ _ iha =>
    intro τ ht x hk hx
    rw [kill, Nat.testBit_or, Nat.testBit_or, Bool.or_eq_false_iff, Bool.or_eq_false_iff] at hk
    exact iha τ ht x hk.1.1 hx
  | @cleanup a f σ τ τ' o _ ho _ iha ihf =>
    intro τ₂ ht x hk hx
    rw [kill, Nat.testBit_or, Bool.or_eq_false_iff] at hk
    have h1 := ihf τ' rfl x hk.2 (iha _ ho x hk.1 hx)
    cases o <;> first | (cases ht; exact h1) | cases ht
  | cleanupStop _ ho _ _ iha ihf =>
    intro τ ht x hk hx
    rw [kill, Nat.testBit_or, Bool.or_eq_false_iff] at hk
    exact ihf τ ht x hk.2 (iha _ ho x hk.1 hx)
  | cleanupUnbound _ _ => intro τ ht; cases ht

/-- After running a statement, what it started with is there except what it may delete. -/
theorem Run.has_without {s : Stmt} {σ τ : State} {o : Out} {m : Nat} (h : Run s σ o) (ho : o.state = some τ) (hm : Has m σ) :
    Has (without m (kill s)) τ := by
  intro x hx
  rw [testBit_without, Bool.and_eq_true, Bool.not_eq_true'] at hx
  exact h.keeps τ ho x hx.2 (hm x hx.1)

theorem has_less {m k : Nat} {σ : State} (hm : Has m σ) : Has (without m k) σ :=
  hm.mono fun x hx => by rw [testBit_without, Bool.and_eq_true] at hx; exact hx.1

/-- What the check promises of an end. -/
def Good (k : Known) : Out → Prop
  | .norm τ => HasO k.norm τ
  | .brk τ => HasO k.brk τ
  | .unbound _ => False
  | _ => True

/-- **Soundness of the check.** -/
theorem Run.good {s : Stmt} {σ : State} {o : Out} (h : Run s σ o) : ∀ m k, check s m = some k → Has m σ → Good k o := by
  induction h with
  | fault s σ => intro m k _ _; exact trivial
  | skip σ => intro m k hc hm; cases hc; exact ⟨m, rfl, hm⟩
  | read h =>
    intro m k hc hm
    rw [check] at hc
    split at hc
    · cases hc; exact ⟨m, rfl, hm⟩
    · cases hc
  | readUnbound hv h =>
    intro m k hc hm
    rw [check] at hc
    split at hc
    · rename_i hs
      have := hm _ (subset_iff hs _ hv)
      rw [h] at this; cases this
    · cases hc
  | write v σ =>
    intro m k hc hm
    cases hc
    refine ⟨_, rfl, fun x hx => ?_⟩
    rw [Nat.testBit_or, Bool.or_eq_true] at hx
    rcases hx with hx | hx
    · simp [hm x hx]
    · simp [hx]
  | del h =>
    intro m k hc hm
    rw [check] at hc
    split at hc
    · cases hc
      refine ⟨_, rfl, fun x hx => ?_⟩
      rw [testBit_without, Bool.and_eq_true] at hx
      show (_ && _) = true
      rw [hm x hx.1, hx.2]; rfl
    · cases hc
  | delUnbound hv h =>
    intro m k hc hm
    rw [check] at hc
    split at hc
    · rename_i hs
      have := hm _ (subset_iff hs _ hv)
      rw [h] at this; cases this
    · cases hc
  | ret v σ => intro m k _ _; exact trivial
  | throw σ => intro m k _ _; exact trivial
  | brk σ => intro m k hc hm; cases hc; exact ⟨m, rfl, hm⟩
  | cont σ => intro m k _ _; exact trivial
  | @seq a b σ τ o _ _ iha ihb =>
    intro m k hc hm
    rw [check, Option.bind_eq_some_iff] at hc
    obtain ⟨ka, hka, hc⟩ := hc
    obtain ⟨m', hm', hh⟩ := iha m ka hka hm
    rw [hm'] at hc
    dsimp only at hc
    rw [Option.bind_eq_some_iff] at hc
    obtain ⟨kb, hkb, hc⟩ := hc
    cases hc
    have := ihb m' kb hkb hh
    cases o with
    | norm _ => exact this
    | brk _ => exact HasO.meet_right this
    | unbound _ => exact this
    | cont _ => trivial
    | ret _ _ => trivial
    | thrown _ => trivial
  | @seqStop a b σ o _ hn iha =>
    intro m k hc hm
    rw [check, Option.bind_eq_some_iff] at hc
    obtain ⟨ka, hka, hc⟩ := hc
    have := iha m ka hka hm
    cases hka' : ka.norm with
    | none =>
      rw [hka'] at hc; cases hc; exact this
    | some m' =>
      rw [hka'] at hc
      dsimp only at hc
      rw [Option.bind_eq_some_iff] at hc
      obtain ⟨kb, hkb, hc⟩ := hc
      cases hc
      cases o with
      | norm _ => cases hn
      | brk _ => exact HasO.meet_left this
      | unbound _ => exact this
      | cont _ => trivial
      | ret _ _ => trivial
      | thrown _ => trivial
  | @yes a b σ o _ ih =>
    intro m k hc hm
    rw [check, Option.bind_eq_some_iff] at hc
    obtain ⟨ka, hka, hc⟩ := hc
    rw [Option.bind_eq_some_iff] at hc
    obtain ⟨kb, hkb, hc⟩ := hc
    cases hc
    have := ih m ka hka hm
    cases o with
    | norm _ => exact HasO.meet_left this
    | brk _ => exact HasO.meet_left this
    | unbound _ => exact this
    | cont _ => trivial
    | ret _ _ => trivial
    | thrown _ => trivial
  | @no a b σ o _ ih =>
    intro m k hc hm
    rw [check, Option.bind_eq_some_iff] at hc
    obtain ⟨ka, hka, hc⟩ := hc
    rw [Option.bind_eq_some_iff] at hc
    obtain ⟨kb, hkb, hc⟩ := hc
    cases hc
    have := ih m kb hkb hm
    cases o with
    | norm _ => exact HasO.meet_right this
    | brk _ => exact HasO.meet_right this
    | unbound _ => exact this
    | cont _ => trivial
    | ret _ _ => trivial
    | thrown _ => trivial
  | @loopEnd a b σ o _ ih =>
    intro m k hc hm
    rw [check, Option.bind_eq_some_iff] at hc
    obtain ⟨ka, hka, hc⟩ := hc
    rw [Option.bind_eq_some_iff] at hc
    obtain ⟨kb, hkb, hc⟩ := hc
    cases hc
    have := ih _ kb hkb (has_less hm)
    cases o with
    | norm _ => exact HasO.meet_right this
    | brk _ => exact this
    | unbound _ => exact this
    | cont _ => trivial
    | ret _ _ => trivial
    | thrown _ => trivial
  | @loopMore a b σ τ o ha _ _ ihb =>
    intro m k hc hm
    refine ihb (without m (kill a)) k ?_ (ha.has_without rfl hm)
    rw [check] at hc ⊢
    rwa [show without (without m (kill a)) (kill a) = without m (kill a) from
      Nat.eq_of_testBit_eq fun x => by simp only [testBit_without]; cases m.testBit x <;> cases (kill a).testBit x <;> rfl]
  | @loopCont a b σ τ o ha _ _ ihb =>
    intro m k hc hm
    refine ihb (without m (kill a)) k ?_ (ha.has_without rfl hm)
    rw [check] at hc ⊢
    rwa [show without (without m (kill a)) (kill a) = without m (kill a) from
      Nat.eq_of_testBit_eq fun x => by simp only [testBit_without]; cases m.testBit x <;> cases (kill a).testBit x <;> rfl]
  | loopBrk _ ih =>
    intro m k hc hm
    rw [check, Option.bind_eq_some_iff] at hc
    obtain ⟨ka, hka, hc⟩ := hc
    rw [Option.bind_eq_some_iff] at hc
    obtain ⟨kb, hkb, hc⟩ := hc
    cases hc
    exact HasO.meet_left (ih _ ka hka (has_less hm))
  | loopRet _ _ => intro m k _ _; exact trivial
  | loopThrown _ _ => intro m k _ _; exact trivial
  | loopUnbound _ ih =>
    intro m k hc hm
    rw [check, Option.bind_eq_some_iff] at hc
    obtain ⟨ka, hka, hc⟩ := hc
    exact ih _ ka hka (has_less hm)
  | @everMore a σ τ o ha _ _ ihb =>
    intro m k hc hm
    refine ihb (without m (kill a)) k ?_ (ha.has_without rfl hm)
    rw [check] at hc ⊢
    rwa [show without (without m (kill a)) (kill a) = without m (kill a) from
      Nat.eq_of_testBit_eq fun x => by simp only [testBit_without]; cases m.testBit x <;> cases (kill a).testBit x <;> rfl]
  | @everCont a σ τ o ha _ _ ihb =>
    intro m k hc hm
    refine ihb (without m (kill a)) k ?_ (ha.has_without rfl hm)
    rw [check] at hc ⊢
    rwa [show without (without m (kill a)) (kill a) = without m (kill a) from
      Nat.eq_of_testBit_eq fun x => by simp only [testBit_without]; cases m.testBit x <;> cases (kill a).testBit x <;> rfl]
  | everBrk _ ih =>
    intro m k hc hm
    rw [check, Option.bind_eq_some_iff] at hc
    obtain ⟨ka, hka, hc⟩ := hc
    cases hc
    exact ih _ ka hka (has_less hm)
  | everRet _ _ => intro m k _ _; exact trivial
  | everThrown _ _ => intro m k _ _; exact trivial
  | everUnbound _ ih =>
    intro m k hc hm
    rw [check, Option.bind_eq_some_iff] at hc
    obtain ⟨ka, hka, hc⟩ := hc
    exact ih _ ka hka (has_less hm)
  | @attemptElse a h b σ τ o _ _ iha ihb =>
    intro m k hc hm
    rw [check, Option.bind_eq_some_iff] at hc
    obtain ⟨ka, hka, hc⟩ := hc
    rw [Option.bind_eq_some_iff] at hc
    obtain ⟨kh, hkh, hc⟩ := hc
    obtain ⟨m', hm', hh⟩ := iha m ka hka hm
    rw [hm'] at hc
    dsimp only at hc
    rw [Option.bind_eq_some_iff] at hc
    obtain ⟨kb, hkb, hc⟩ := hc
    cases hc
    have := ihb m' kb hkb hh
    cases o with
    | norm _ => exact HasO.meet_left this
    | brk _ => exact HasO.meet_right (HasO.meet_left this)
    | unbound _ => exact this
    | cont _ => trivial
    | ret _ _ => trivial
    | thrown _ => trivial
  | @attemptCatch a h b σ τ o ha _ _ ihh =>
    intro m k hc hm
    rw [check, Option.bind_eq_some_iff] at hc
    obtain ⟨ka, hka, hc⟩ := hc
    rw [Option.bind_eq_some_iff] at hc
    obtain ⟨kh, hkh, hc⟩ := hc
    have := ihh _ kh hkh (ha.has_without rfl hm)
    cases hka' : ka.norm with
    | none =>
      rw [hka'] at hc; cases hc
      cases o with
      | norm _ => exact this
      | brk _ => exact HasO.meet_right this
      | unbound _ => exact this
      | cont _ => trivial
      | ret _ _ => trivial
      | thrown _ => trivial
    | some m' =>
      rw [hka'] at hc
      dsimp only at hc
      rw [Option.bind_eq_some_iff] at hc
      obtain ⟨kb, hkb, hc⟩ := hc
      cases hc
      cases o with
      | norm _ => exact HasO.meet_right this
      | brk _ => exact HasO.meet_right (HasO.meet_right this)
      | unbound _ => exact this
      | cont _ => trivial
      | ret _ _ => trivial
      | thrown _ => trivial
  | @attemptPass a h b σ o _ hn iha =>
    intro m k hc hm
    rw [check, Option.bind_eq_some_iff] at hc
    obtain ⟨ka, hka, hc⟩ := hc
    rw [Option.bind_eq_some_iff] at hc
    obtain ⟨kh, hkh, hc⟩ := hc
    have := iha m ka hka hm
    cases hka' : ka.norm with
    | none =>
      rw [hka'] at hc; cases hc
      cases o with
      | norm _ => cases hn
      | brk _ => exact HasO.meet_left this
      | unbound _ => exact this
      | cont _ => trivial
      | ret _ _ => trivial
      | thrown _ => trivial
    | some m' =>
      rw [hka'] at hc
      dsimp only at hc
      rw [Option.bind_eq_some_iff] at hc
      obtain ⟨kb, hkb, hc⟩ := hc
      cases hc
      cases o with
      | norm _ => cases hn
      | brk _ => exact HasO.meet_left this
      | unbound _ => exact this
      | cont _ => trivial
      | ret _ _ => trivial
      | thrown _ => trivial
  | @cleanup a f σ τ τ' o ha ho _ iha ihf =>
    intro m k hc hm
    rw [check, Option.bind_eq_some_iff] at hc
    obtain ⟨ka, hka, hc⟩ := hc
    rw [Option.bind_eq_some_iff] at hc
    obtain ⟨kf, hkf, hc⟩ := hc
    have hf := ihf _ kf hkf (ha.has_without ho hm)
    have ha' := iha m ka hka hm
    cases hka' : ka.norm with
    | none =>
      rw [hka'] at hc; cases hc
      cases o with
      | norm _ => obtain ⟨m', hm', _⟩ := ha'; rw [hka'] at hm'; cases hm'
      | brk _ =>
        obtain ⟨m', hm', _⟩ := ha'
        refine HasO.meet_left ?_
        rw [hm']; exact hf
      | unbound _ => exact ha'
      | cont _ => trivial
      | ret _ _ => trivial
      | thrown _ => trivial
    | some m₁ =>
      rw [hka'] at hc
      dsimp only at hc
      rw [Option.bind_eq_some_iff] at hc
      obtain ⟨kn, hkn, hc⟩ := hc
      cases hc
      cases o with
      | norm _ =>
        obtain ⟨m', hm', hh⟩ := ha'
        rw [hka'] at hm'; cases hm'; cases ho
        exact ihf _ kn hkn hh
      | brk _ =>
        obtain ⟨m', hm', _⟩ := ha'
        refine HasO.meet_left ?_
        rw [hm']; exact hf
      | unbound _ => exact ha'
      | cont _ => trivial
      | ret _ _ => trivial
      | thrown _ => trivial
  | @cleanupStop a f σ τ o o' ha ho _ hn _ ihf =>
    intro m k hc hm
    rw [check, Option.bind_eq_some_iff] at hc
    obtain ⟨ka, hka, hc⟩ := hc
    rw [Option.bind_eq_some_iff] at hc
    obtain ⟨kf, hkf, hc⟩ := hc
    have hf := ihf _ kf hkf (ha.has_without ho hm)
    cases hka' : ka.norm with
    | none =>
      rw [hka'] at hc; cases hc
      cases o' with
      | norm _ => cases hn
      | brk _ => exact HasO.meet_right hf
      | unbound _ => exact hf
      | cont _ => trivial
      | ret _ _ => trivial
      | thrown _ => trivial
    | some m₁ =>
      rw [hka'] at hc
      dsimp only at hc
      rw [Option.bind_eq_some_iff] at hc
      obtain ⟨kn, hkn, hc⟩ := hc
      cases hc
      cases o' with
      | norm _ => cases hn
      | brk _ => exact HasO.meet_right (HasO.meet_left hf)
      | unbound _ => exact hf
      | cont _ => trivial
      | ret _ _ => trivial
      | thrown _ => trivial
  | cleanupUnbound _ ih =>
    intro m k hc hm
    rw [check, Option.bind_eq_some_iff] at hc
    obtain ⟨ka, hka, _⟩ := hc
    exact ih m ka hka hm

end Verif.Locals

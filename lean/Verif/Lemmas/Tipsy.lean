import Verif.Model.Tipsy
import Mathlib.Tactic.Ring
import Mathlib.Tactic.Linarith
import Mathlib.Algebra.Order.Ring.Nat

/-!
# Lemmas for the tipsy format
-/

namespace Verif.Tipsy

/-- A number in some bytes, the most significant first. -/
def big : ℕ → ℕ → List ℕ
  | 0, _ => []
  | w + 1, n => n / 256 ^ w % 256 :: big w n

theorem big_length (w n : ℕ) : (big w n).length = w := by
  induction w with
  | zero => rfl
  | succ w ih => simp [big, ih]

theorem foldl_big (w n acc : ℕ) : (big w n).foldl (fun n b => 256 * n + b) acc = acc * 256 ^ w + n % 256 ^ w := by
  induction w generalizing acc with
  | zero => simp [big, Nat.mod_one]
  | succ w ih =>
    rw [big, List.foldl_cons, ih, Nat.mod_pow_succ]
    ring

theorem beWord_big {w n : ℕ} (h : n < 256 ^ w) : beWord (big w n) = n := by
  rw [beWord, foldl_big, Nat.zero_mul, Nat.zero_add, Nat.mod_eq_of_lt h]

/-- The bytes of a record. -/
def enc : DType → List ℕ → List ℕ
  | (_, w) :: t, n :: ws => big w n ++ enc t ws
  | _, _ => []

/-- The words fit the fields of the type. -/
def Fit : DType → List ℕ → Prop
  | [], [] => True
  | (_, w) :: t, n :: ws => n < 256 ^ w ∧ Fit t ws
  | _, _ => False

theorem enc_length {t : DType} {ws : List ℕ} (h : Fit t ws) : (enc t ws).length = itemsize t := by
  induction t generalizing ws with
  | nil => cases ws with
    | nil => rfl
    | cons n ws => exact h.elim
  | cons a t ih =>
    cases ws with
    | nil => exact h.elim
    | cons n ws =>
      obtain ⟨s, w⟩ := a
      simp [enc, itemsize, big_length, ih h.2]

theorem record_enc {t : DType} {ws : List ℕ} (h : Fit t ws) (tail : List ℕ) : record t (enc t ws ++ tail) = ws := by
  induction t generalizing ws with
  | nil => cases ws with
    | nil => rfl
    | cons n ws => exact h.elim
  | cons a t ih =>
    cases ws with
    | nil => exact h.elim
    | cons n ws =>
      obtain ⟨s, w⟩ := a
      simp only [enc, record, List.append_assoc]
      rw [List.take_left' (big_length w n), List.drop_left' (big_length w n), ih h.2, beWord_big h.1]

theorem flatMap_length {t : DType} {l : List (List ℕ)} (h : ∀ ws ∈ l, Fit t ws) : (l.flatMap (enc t)).length = l.length * itemsize t := by
  induction l with
  | nil => simp
  | cons ws l ih =>
    rw [List.flatMap_cons, List.length_append, enc_length (h ws (by simp)), ih fun v hv => h v (by simp [hv]), List.length_cons]
    ring

theorem records_enc {t : DType} {l : List (List ℕ)} (h : ∀ ws ∈ l, Fit t ws) (tail : List ℕ) : records t l.length (l.flatMap (enc t) ++ tail) = l := by
  induction l with
  | nil => rfl
  | cons ws l ih =>
    rw [List.length_cons, records, List.flatMap_cons, List.append_assoc, record_enc (h ws (by simp)), List.drop_left' (enc_length (h ws (by simp))),
      ih fun v hv => h v (by simp [hv])]

/-- What is read of a file that may end early. -/
theorem fromfile_take {t : DType} (ht : 0 < itemsize t) {l : List (List ℕ)} (h : ∀ ws ∈ l, Fit t ws) (rest : List ℕ) (m : ℕ) :
    fromfile t l.length ((l.flatMap (enc t) ++ rest).take m) = (l.take (m / itemsize t), rest.take (m - l.length * itemsize t)) := by
  have hl := flatMap_length h
  have hc : ¬((l.length : ℤ) < 0) := by omega
  simp only [fromfile]
  rw [if_neg hc, Int.toNat_natCast]
  rcases Nat.lt_or_ge m (l.length * itemsize t) with hm | hm
  · have h1 : ((l.flatMap (enc t) ++ rest).take m).length = m := by
      rw [List.length_take, List.length_append, hl]; omega
    have h2 : m / itemsize t < l.length := (Nat.div_lt_iff_lt_mul ht).mpr hm
    rw [h1, if_neg (by omega)]
    have h3 : m - l.length * itemsize t = 0 := by omega
    rw [h3, List.take_zero]
    congr 1
    have h4 : (l.take (m / itemsize t)).length = m / itemsize t := by rw [List.length_take]; omega
    have h5 : ((l.take (m / itemsize t)).flatMap (enc t)).length ≤ m := by
      rw [flatMap_length fun v hv => h v (List.mem_of_mem_take hv), h4]
      exact Nat.div_mul_le_self _ _
    have h6 := records_enc (t := t) (l := l.take (m / itemsize t)) (fun v hv => h v (List.mem_of_mem_take hv))
      (((l.drop (m / itemsize t)).flatMap (enc t) ++ rest).take (m - ((l.take (m / itemsize t)).flatMap (enc t)).length))
    rw [h4] at h6
    have h7 : (l.flatMap (enc t) ++ rest).take m = (l.take (m / itemsize t)).flatMap (enc t) ++
        (((l.drop (m / itemsize t)).flatMap (enc t) ++ rest).take (m - ((l.take (m / itemsize t)).flatMap (enc t)).length)) := by
      conv_lhs => rw [← List.take_append_drop (m / itemsize t) l, List.flatMap_append, List.append_assoc, List.take_append]
      rw [List.take_of_length_le h5]
    rw [h7]
    exact h6
  · have h1 : l.length ≤ ((l.flatMap (enc t) ++ rest).take m).length / itemsize t := by
      rw [Nat.le_div_iff_mul_le ht, List.length_take, List.length_append, hl]; omega
    have h2 : l.length ≤ m / itemsize t := (Nat.le_div_iff_mul_le ht).mpr hm
    rw [if_pos h1, List.take_of_length_le h2, List.take_append, List.take_of_length_le (by omega), hl, records_enc h, List.drop_left' hl]

end Verif.Tipsy

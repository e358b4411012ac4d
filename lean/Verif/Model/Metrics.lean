import Mathlib.Algebra.BigOperators.Field
import Mathlib.Analysis.SpecialFunctions.Log.Basic
/-!
# Model of the losses and scores of `segmentation.py` (lines 22-92)

Tensors of one shape are functions on their finite set of cells; floating point is replaced by the real numbers.  `eps` is `K.epsilon()`.
-/

namespace Verif.Metrics

variable {ι κ : Type} [Fintype ι] [Fintype κ]

open Classical in
/-- `iou` (`segmentation.py` lines 53-59). -/
noncomputable def iou (t p : ι → ℝ) : ℝ :=
  let inter := ∑ i, |t i * p i|
  let union := (∑ i, t i) + (∑ i, p i) - inter
  if union = 0 then 1 else inter / union

open Classical in
/-- `dice_coef` (`segmentation.py` lines 61-66): the last axis is `κ`.  `none` if the denominator is zero. -/
noncomputable def dice (smooth : ℝ) (t p : ι → κ → ℝ) (i : ι) : Option ℝ :=
  let inter := ∑ j, |t i j * p i j|
  let d := (∑ j, t i j ^ 2) + (∑ j, p i j ^ 2) + smooth
  if d = 0 then none else some ((2 * inter + smooth) / d)

/-- `K.clip(x, a, b)`. -/
noncomputable def clip (x a b : ℝ) : ℝ := min (max x a) b

/-- `precision` (`segmentation.py` lines 68-75). -/
noncomputable def precision (eps : ℝ) (t p : ι → ℝ) : ℝ :=
  let t' := fun i => clip (t i) eps (1 - eps)
  let p' := fun i => clip (p i) eps (1 - eps)
  let tp := ∑ i, p' i * t' i
  let fp := ∑ i, p' i * (1 - t' i)
  tp / (tp + fp + eps)

/-- `recall` (`segmentation.py` lines 77-84). -/
noncomputable def recall (eps : ℝ) (t p : ι → ℝ) : ℝ :=
  let t' := fun i => clip (t i) eps (1 - eps)
  let p' := fun i => clip (p i) eps (1 - eps)
  let tp := ∑ i, p' i * t' i
  let fn := ∑ i, (1 - p' i) * t' i
  tp / (tp + fn + eps)

/-- `K.mean(x)` of a tensor that is not empty. -/
noncomputable def mean (x : ι → ℝ) : ℝ := (∑ i, x i) / Fintype.card ι

/-- `r2score` (`segmentation.py` lines 86-92). -/
noncomputable def r2score (eps : ℝ) (t p : ι → ℝ) : ℝ :=
  let res := ∑ i, (t i - p i) ^ 2
  let tot := ∑ i, (t i - mean t) ^ 2
  1 - res / (tot + eps)

open Classical in
/-- One cell of `sigmoid_balanced_cross_entropy_with_logits` (`segmentation.py` lines 37-41). -/
noncomputable def cellLoss (beta label logit : ℝ) : ℝ :=
  let relu := if 0 ≤ logit then logit else 0
  let negAbs := if 0 ≤ logit then -logit else logit
  relu * (1 - beta) - logit * label * (1 - beta) + Real.log (1 + Real.exp negAbs) * ((1 - beta) * (1 - label) + beta * label)

/-- `balanced_cross_entropy` (`segmentation.py` lines 22-51). -/
noncomputable def crossEntropy (eps : ℝ) (t p : ι → ℝ) : ℝ :=
  let beta := max (mean fun i => 1 - t i) eps
  let y := fun i => clip (p i) eps (1 - eps)
  mean fun i => cellLoss beta (t i) (Real.log (y i / (1 - y i)))

end Verif.Metrics

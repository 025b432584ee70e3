import Verif.Model.CGTimes

/-!
# Specification vocabulary for measured steps
-/

set_option autoImplicit false

namespace Caribou.Spec

mutual
/-- No time is negative. -/
def Measured : TimedStep → Prop
  | .mk _ _ own l => 0 ≤ own ∧ AllMeasured l
/-- No time of several steps is negative. -/
def AllMeasured : List TimedStep → Prop
  | [] => True
  | s :: l => Measured s ∧ AllMeasured l
end

/-- A step is another one or is made within it, at any depth. -/
inductive Within : TimedStep → TimedStep → Prop
  | refl (s : TimedStep) : Within s s
  | step (a c s : TimedStep) (hc : c ∈ s.steps) (h : Within a c) : Within a s

end Caribou.Spec

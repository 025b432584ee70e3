import Verif.Model.TimerEvents

/-!
# Specification vocabulary for the timer
-/

set_option autoImplicit false

namespace Caribou.Spec

/-- The steps which are open after the calls, the innermost first; `none` if a step is closed which is not the innermost one. -/
def openSteps : List String → List TimerEvent → Option (List String)
  | s, [] => some s
  | s, TimerEvent.opens n :: l => openSteps (n :: s) l
  | [], TimerEvent.closes _ :: _ => none
  | m :: s, TimerEvent.closes n :: l => if m = n then openSteps s l else none
  | s, TimerEvent.value _ _ :: l => openSteps s l

/-- Whatever is open before, the calls close what they open, in the reverse order, and nothing else. -/
def WellNested (l : List TimerEvent) : Prop := ∀ s, openSteps s l = some s

/-- How often a step is begun. -/
def timesOpened (step : String) (l : List TimerEvent) : ℕ := l.count (TimerEvent.opens step)

/-- The last number which is given for a name. -/
def lastValue (name : String) : List TimerEvent → Option ℕ
  | [] => none
  | e :: l => match lastValue name l with
    | some n => some n
    | none => match e with
      | TimerEvent.value m n => if m = name then some n else none
      | _ => none

/-- The linear solver answers that it did what was asked in an iteration. -/
def Answers (o : NewtonTimed) : Prop := (o.analyze = true → o.analyzed = true) ∧ o.factorized = true ∧ o.solved = true

/-- The events of the components called in an iteration are well nested and have none of the steps in a list. -/
def Foreign (steps : List String) (l : List TimerEvent) : Prop := WellNested l ∧ ∀ s ∈ steps, timesOpened s l = 0

/-- The components called in an iteration of the solver. -/
def NewtonForeign (o : NewtonTimed) : Prop :=
  ∀ l ∈ [o.build, o.analysis, o.factorization, o.solution, o.propagation, o.force], Foreign ["NewtonStep", "UpdateU"] l

/-- The iteration `k` is reached, does its work, and a criterion of convergence ends the loop. -/
def ConvergesAt (o : ℕ → NewtonTimed) (n k : ℕ) : Prop :=
  (∀ i, n ≤ i → i ≤ k → Answers (o i)) ∧ (∀ i, n ≤ i → i < k → (o i).stops = false) ∧ (o k).stops = true ∧ (o k).converges = true

/-- The components called in an iteration of the legacy solver. -/
def LegacyForeign (o : LegacyTimed) : Prop := ∀ l ∈ [o.build, o.solution, o.propagation, o.force], Foreign ["NewtonStep"] l

/-- The iteration `k` of the legacy solver is the first one in which a criterion ends the loop, and it is a criterion of convergence. -/
def LegacyConvergesAt (o : ℕ → LegacyTimed) (n k : ℕ) : Prop := (∀ i, n ≤ i → i < k → (o i).stops = false) ∧ (o k).stops = true ∧ (o k).converges = true

end Caribou.Spec

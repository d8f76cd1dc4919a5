import Verif.Spec.Forge
import Verif.Model.Timing
/-!
# Strategies with a clock
-/
namespace Ergo.Spec

/-- The next event for everything seen so far (newest first), with the times. -/
abbrev TimedStrategy : Type := List (Obs × Nat) → Event

/-- What is seen when the strategy is followed. -/
def FollowsTimed (σ : TimedStrategy) : List (Obs × Nat) → Prop
  | [] => True
  | o :: tr => o.1.event = σ tr ∧ FollowsTimed σ tr

/-- What is seen without a clock. -/
def untimed (tr : List (Obs × Nat)) : List Obs := tr.map (·.1)

end Ergo.Spec

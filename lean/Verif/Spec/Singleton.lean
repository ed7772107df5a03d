import Verif.Model.Singleton

/-! # What is expected of a singleton -/

namespace GTMesh.Singleton

/-- Calls do not overlap: whenever a thread takes a step, no other thread is in a call. -/
def OneAtATime (fails : Nat → Bool) (s : Sys) (schedule : List Nat) : Prop :=
  ∀ before t after, schedule = before ++ t :: after → ∀ u, u ≠ t → (run fails s before).pc u = .idle

/-- All the references that were returned refer to one object, which was not destroyed; no null pointer was used. -/
def Good (s : Sys) : Prop :=
  s.ub = false ∧ ∃ n, ∀ t m, (t, some m) ∈ s.ended → m = n ∧ n ∉ s.destroyed

end GTMesh.Singleton

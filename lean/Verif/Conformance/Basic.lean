import Verif.Model.Rust

/-!
# The project's tests, run on the model

Each `example` of the modules in this directory is one `#[test]` function of the project, translated
statement by statement; the comment names the function and its lines. They are no proofs of
properties: they check the model against what the project's authors expect of the code, because the
code itself cannot be run here.
-/

namespace Verif.Conformance

open Verif

/-- `assert!(c)`; `assert_eq!(x, y)` is `check (decide (x = y))`. -/
def check (c : Bool) : Res Unit := if c then .ok () else .error (.explicit "assertion failed")

/-- The test passes, with and without overflow checks. -/
def passes (t : Build → Res Unit) : Prop :=
  (t .debug).toBool = true ∧ (t .release).toBool = true

instance (t : Build → Res Unit) : Decidable (passes t) := by unfold passes; infer_instance

/-- The test panics (`#[should_panic]`) in a build with overflow checks. -/
def panics (t : Build → Res Unit) : Prop := (t .debug).toBool = false

instance (t : Build → Res Unit) : Decidable (panics t) := by unfold panics; infer_instance

end Verif.Conformance

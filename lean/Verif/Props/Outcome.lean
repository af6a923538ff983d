import Verif.Props.Plan
import Verif.Props.Accepted
/-
C28, C50: what becomes of a script, told from the script alone.
-/
namespace Verif.Build
open Verif

/-- C28: A script that passes on only ids it was given makes a model, and whether the reader takes what is written depends only
on whether there is a shading device in the script. -/
theorem script_outcome {W : World} {sc : ProjectScript} (hW : W.Fair) (hc : W.GoodClock) (ht : sc.Tidy) (ho : Honest sc.plan.2)
    (hn : sc.plan.1 ≤ usizeMax) : ∃ f, run W sc = .val (f, sc.plan.2) ∧
      (fromStr (showIfc f) = .ok f.reread ↔ ¬ Shaded sc.plan.2) ∧ (fromStr (showIfc f) = .verifyError ↔ Shaded sc.plan.2) := by
  obtain ⟨f, h, -⟩ := run_ends hW ho hn
  refine ⟨f, h, ?_⟩
  by_cases hs : Shaded sc.plan.2
  · have := shaded_rejected hW h ho ht hc hs
    simp [this, hs]
  · have := built_loads hW h ho ht hc hs
    simp [this, hs]

/-- the sample meets the hypotheses, whatever the order of hash tables -/
example : ∃ f, run turnedWorld sampleScript = .val (f, sampleLog) ∧ fromStr (showIfc f) = .ok f.reread := by
  have e : sampleScript.plan = (151, sampleLog) := by decide +kernel
  have ho : Honest sampleScript.plan.2 := by rw [e]; decide +kernel
  have hs : ¬ Shaded sampleScript.plan.2 := by
    rw [e]
    rintro ⟨mat, ty, id, h⟩
    simp [sampleLog] at h
  obtain ⟨f, h, h1, -⟩ := script_outcome turnedWorld_fair ⟨by decide, by decide⟩ sample_tidy ho (by rw [e]; decide)
  rw [e] at h
  exact ⟨f, h, h1.2 hs⟩

end Verif.Build

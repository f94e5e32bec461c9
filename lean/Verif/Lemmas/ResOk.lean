import Verif.Model.Res
/-
Every pattern of castep_res.py is accepted by the model of `re.compile`, and every repeated body
consumes input (so the engine's treatment of empty iterations never matters).
-/
namespace Verif

theorem res_all_compile : ∀ p ∈ Res.all, p.re ≠ Res.bad := by decide +kernel
theorem res_all_progressive : ∀ p ∈ Res.all, p.re.progressive = true := by decide +kernel

end Verif

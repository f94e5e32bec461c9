import Verif.Lemmas.PsEnergy
import Verif.Lemmas.FloatOps
import Verif.Props.DeltaScf
/-
C107: energies and charge spilling of pseudoatoms in `.castep` files.
-/
namespace Verif.Props
open Verif Spec Castep

/-- C107.  The report on a pseudoatom gives its energy under the species of the title (the second number of the line after the
empty one, the first is the number of iterations), and for each line on charge spilling, in order, its percentage times 0.01. -/
theorem C107 (title spec empty conv : Str) (rest : List Str) (i e : Numeral) (es ns : List Numeral)
    (ht : PsEnergy.Title title spec) (hs : PsEnergy.Species spec) (hc : HasNumbers conv (i :: e :: es))
    (hv : ∀ n ∈ i :: e :: es, n.Valid) (he : e.InRange) (hr : PsEnergy.Spills rest ns) :
    ∃ fl : Numeral → F64, (∀ n : Numeral, n.Valid → n.InRange → F64.Nearest n.value (fl n)) ∧ ∃ c, F64.Nearest (1 / 100) c ∧
      (∀ x : F64, x.Finite → (F64.mul c x).Finite → F64.Nearest (c.toRat * x.toRat) (F64.mul c x)) ∧
      process_ps_energy (title :: empty :: conv :: rest) = .ok (.str spec, (.str (py"pseudo_atomic_energy"), .float (fl e)) ::
        if ns = [] then [] else [(.str (py"charge_spilling"), .tuple (ns.map fun n => .float (F64.mul c (fl n))))]) := by
  obtain ⟨rd, fl, hrd⟩ := readings
  have hcv : (⟨none, py"0", some (py"01"), none⟩ : Numeral).Valid := by decide
  have hcr : (⟨none, py"0", some (py"01"), none⟩ : Numeral).InRange := by decide +kernel
  have h01 := (hrd _ hcv hcr).2
  refine ⟨fl, fun n h1 h2 => (hrd n h1 h2).2.2, fl ⟨none, py"0", some (py"01"), none⟩, ?_, ?_, ?_⟩
  · have : (⟨none, py"0", some (py"01"), none⟩ : Numeral).value = 1 / 100 := by decide +kernel
    rw [← this]
    exact h01.2
  · intro x hx hm
    exact F64.mul_nearest h01.2.1 hx hm
  · obtain ⟨x, hx1, hx2⟩ := PsEn.title ht hs
    have hsp := PsEn.spills (c := fl ⟨none, py"0", some (py"01"), none⟩) h01.1 (fun n h1 h2 => (hrd n h1 h2).2.1) hr []
    have hen : floatAt conv 1 = .ok (.float (fl e)) := by
      rw [floatAt, Elastic.get_numbers_of hc hv, at_]
      simp only [List.map_cons, List.getElem?_cons_succ, List.getElem?_cons_zero, Delta.ok_bind]
      exact LineTab.floatV_ok (hrd e (hv e (by simp)) he).2.1
    rw [process_ps_energy]
    simp only [nextLine, Delta.ok_bind, hx1, hx2, hen, hsp, List.nil_append]
    cases ns with
    | nil => rfl
    | cons n ns => rfl

/-! ### The hypotheses can be met -/

example : PsEnergy.Title (py" Pseudo atomic calculation performed for Fe 3d6 4s2\n") (py"Fe") ∧ PsEnergy.Species (py"Fe") ∧
    HasNumbers (py" Converged in 29 iterations to a total energy of -490.5382 eV\n")
      [⟨none, py"29", none, none⟩, ⟨some true, py"490", some (py"5382"), none⟩] ∧
    (∀ n ∈ [(⟨none, py"29", none, none⟩ : Numeral), ⟨some true, py"490", some (py"5382"), none⟩], n.Valid) ∧
    (⟨some true, py"490", some (py"5382"), none⟩ : Numeral).InRange ∧
    PsEnergy.Spills [py"Charge spilling parameter for spin component 1 = 0.09%\n", py"\n"] [⟨none, py"0", some (py"09"), none⟩] := by
  refine ⟨⟨py" ", py" ", c!"3", c!"d", py"6 4s2\n", rfl, by decide, by decide, by decide, by decide⟩,
    ⟨c!"F", py"e", rfl, by decide, by decide, by decide⟩,
    hasNumbers_of (holds_of _ (py" Converged in ") [(⟨none, py"29", none, none⟩, py" iterations to a total energy of "),
      (⟨some true, py"490", some (py"5382"), none⟩, py" eV\n")] (by decide +kernel) (by decide +kernel)) (by simp), by decide, by decide +kernel,
    .line (ms := [⟨none, py"1", none, none⟩]) (occurs_of (by decide +kernel)) (hasNumbers_of (holds_of _ (py"Charge spilling parameter for spin component ")
      [(⟨none, py"1", none, none⟩, py" = "), (⟨none, py"0", some (py"09"), none⟩, py"%\n")] (by decide +kernel) (by decide +kernel)) (by simp))
      (by decide) (by decide +kernel) (.other ?_ .nil)⟩
  intro h
  exact absurd (Delta.occ h) (by decide +kernel)

end Verif.Props

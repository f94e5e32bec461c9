import Verif.Lemmas.PairParams
import Verif.Props.NmrTables
/-
C112: parameters of pair potentials.
-/
namespace Verif.Props
open Verif Spec Castep

/-- C112, for parameters with a unit: every parameter is reported under its potential and its name. Missing: parameters without a unit (see `C112_false`), and
the blocks of terms of two and three bodies. -/
theorem C112_partial (ls : List Str) (rows : List PairRow) (h : Interleaved PairRow.Other PairRow.Line ls rows) (hok : ∀ r ∈ rows, r.Ok ∧ r.unit ≠ none) :
    ∃ rd : Numeral → F64, (∀ n : Numeral, n.Valid → n.InRange → F64.Nearest n.value (rd n)) ∧
      process_pair_params ls = .ok (.dict (nested (rows.map (PairRow.entry rd)))) := by
  obtain ⟨rd, fl, hrd⟩ := readings
  exact ⟨rd, fun n h1 h2 => (hrd n h1 h2).1.2, PairPot.table h hok fun n h1 h2 => (hrd n h1 h2).1.1⟩

/-! ### A parameter without a unit -/

def exPairBare : PairRow := ⟨none, py"a", exDec (py"1") (py"5"), none, py"MORS"⟩
def exPairBareLine : Str := py"     *      a         1.5       * <-- MORS\n"

theorem exPair_parsed : process_pair_params [exPairBareLine] = .ok (.dict [(.str (py"MORS"), .dict [(.str (py"a"), .float ⟨0x3FF0000000000000⟩)])]) := by
  decide +kernel

theorem exPairBare_line : PairRow.Line exPairBareLine exPairBare ∧ exPairBare.Ok := by
  refine ⟨⟨py"     ", py"      ", py"         1.5       * <-- MORS\n", [], by decide +kernel, by decide +kernel, by decide +kernel, by decide +kernel, (fields_iff _ _).2 (by decide +kernel), ?_⟩, ?_⟩
  · rintro (h | h)
    · exact not_occurs _ _ (by decide +kernel) h
    · exact not_occurs _ _ (by decide +kernel) h
  · refine ⟨by simp [exPairBare], by decide +kernel, by decide +kernel, by decide +kernel, by simp [exPairBare]⟩

/-- Without a unit the last digit of the value is taken for the unit: 1.5 is reported as 1. -/
theorem C112_false : ¬ ∀ (ls : List Str) (rows : List PairRow), Interleaved PairRow.Other PairRow.Line ls rows → (∀ r ∈ rows, r.Ok) →
    ∃ rd : Numeral → F64, (∀ n : Numeral, n.Valid → n.InRange → F64.Nearest n.value (rd n)) ∧
      process_pair_params ls = .ok (.dict (nested (rows.map (PairRow.entry rd)))) := by
  intro h
  obtain ⟨rd, h1, h2⟩ := h [exPairBareLine] [exPairBare] (.row exPairBare_line.1 .nil) (by simpa using exPairBare_line.2)
  rw [exPair_parsed] at h2
  have e : rd (exDec (py"1") (py"5")) = ⟨0x3FF0000000000000⟩ := by
    have h3 : nested ([exPairBare].map (PairRow.entry rd)) = [(.str (py"MORS"), .dict [(.str (py"a"), .float (rd (exDec (py"1") (py"5"))))])] := rfl
    rw [h3] at h2
    simp only [Except.ok.injEq, PyVal.dict.injEq, List.cons.injEq, Prod.mk.injEq, PyVal.float.injEq] at h2
    exact h2.1.2.1.2.symm
  have h4 := h1 (exDec (py"1") (py"5")) (by decide +kernel) (by decide +kernel)
  rw [e] at h4
  have e2 := nearest_exact ⟨0x3FF8000000000000⟩ (by decide) (by decide +kernel) h4
  revert e2
  decide +kernel

/-! ### Examples -/

def exPairTwo : PairRow := ⟨some (py"w1"), py"C6", exDec (py"12") (py"25"), some (py"eV/A^6"), py"DZ"⟩
def exPairCut : PairRow := ⟨none, py"R_cut", exDec (py"10") (py"0"), some (py"A"), py"LJ"⟩

/-- The hypotheses of `C112_partial` hold for parameters of two potentials, one with a tag. -/
example : ∃ rd : Numeral → F64, (∀ n : Numeral, n.Valid → n.InRange → F64.Nearest n.value (rd n)) ∧
    process_pair_params [py"     ***********************************\n", py"w1 *     C6     12.25    eV/A^6    * <-- DZ\n", py"   * R_cut   10.0  A  * <-- LJ\n"] =
      .ok (.dict (nested ([exPairTwo, exPairCut].map (PairRow.entry rd)))) := by
  refine C112_partial _ _ (.skip ⟨not_occurs _ _ (by decide +kernel), ?_⟩ (.row ?_ (.row ?_ .nil))) ?_
  · rintro (h | h)
    · exact not_occurs _ _ (by decide +kernel) h
    · exact not_occurs _ _ (by decide +kernel) h
  · refine ⟨py" ", py"     ", py"     12.25    eV/A^6    * <-- DZ\n", [], by decide +kernel, by decide +kernel, by decide +kernel, by decide +kernel, (fields_iff _ _).2 (by decide +kernel), ?_⟩
    rintro (h | h)
    · exact not_occurs _ _ (by decide +kernel) h
    · exact not_occurs _ _ (by decide +kernel) h
  · refine ⟨py"   ", py" ", py"   10.0  A  * <-- LJ\n", [], by decide +kernel, by decide +kernel, by decide +kernel, by decide +kernel, (fields_iff _ _).2 (by decide +kernel), ?_⟩
    rintro (h | h)
    · exact not_occurs _ _ (by decide +kernel) h
    · exact not_occurs _ _ (by decide +kernel) h
  · simp only [List.forall_mem_cons, PairRow.Ok, exPairTwo, exPairCut]
    refine ⟨⟨⟨?_, by decide +kernel, by decide +kernel, by decide +kernel, ?_⟩, by simp⟩, ⟨⟨by simp, by decide +kernel, by decide +kernel, by decide +kernel, ?_⟩, by simp⟩, by simp⟩
    · rintro t ⟨⟩; exact ⟨by decide, by decide +kernel⟩
    · rintro t ⟨⟩; exact ⟨by decide, by decide +kernel⟩
    · rintro t ⟨⟩; exact ⟨by decide, by decide +kernel⟩

end Verif.Props

import Verif.Lemmas.GeomTable
import Verif.Props.LineTables
import Verif.Props.Scf
/-
C85: the tables of a geometry optimisation in a `.castep` file.
-/
namespace Verif.Props
open Verif Verif.Spec Verif.Castep

/-- C85: every row of the table under its own key, with exactly the numbers printed between its bars; rows without
numbers, such as titles and rulers, leave nothing behind. -/
theorem C85 (lines : List Str) (rows : List GeomRow) (hl : Interleaved NoDigit GeomRow.Line lines rows)
    (hok : ∀ r ∈ rows, ∀ n ∈ r.nums, n.Valid ∧ n.InRange) :
    ∃ (rd : Numeral → F64) (d : List (Key × PyVal)), (∀ r ∈ rows, Reads rd r.nums) ∧
      LastWins (rows.map fun r => (r.key, r.info rd)) d ∧ process_geom_table lines = .ok (.dict d) := by
  obtain ⟨rd, fl, hrd⟩ := readings
  refine ⟨rd, Dict.ofList (rows.map fun r => (r.key, r.info rd)), fun r hr n hn => (hrd n (hok r hr n hn).1 (hok r hr n hn).2).1.2,
    LineTab.lastWins _, ?_⟩
  rw [geom_block hl fun r hr n hn => ⟨(hok r hr n hn).1, (hrd n (hok r hr n hn).1 (hok r hr n hn).2).1.1⟩, Dict.ofList, List.foldl_map]

/-- The criteria of the test of the parser, with a row already converged. -/
def exCriteria : List Str :=
  [py" +-----------+-----------------+-----------------+------------+-----+ <-- LBFGS\n",
   py" | Parameter |      value      |    tolerance    |    units   | OK? | <-- LBFGS\n",
   py" +-----------+-----------------+-----------------+------------+-----+ <-- LBFGS\n",
   py" |  dE/ion   |   0.000000E+000 |   2.500000E-005 |         eV | No  | <-- LBFGS\n",
   py" |  |F|max   |   4.266993E-001 |   5.000000E-002 |       eV/A | Yes | <-- LBFGS\n",
   py" +-----------+-----------------+-----------------+------------+-----+ <-- LBFGS\n"]

def exCriteriaRows : List GeomRow :=
  [.param (py"de_ion") (exExp none (py"0") (py"000000") false (py"000")) (exExp none (py"2") (py"500000") true (py"005")) false,
   .param (py"f_max") (exExp none (py"4") (py"266993") true (py"001")) (exExp none (py"5") (py"000000") true (py"002")) true]

/-- The line search of the test. -/
def exSearch : List Str :=
  [py" +------------+-------------+-------------+-----------------+ <-- min LBFGS\n",
   py" |    Step    |   lambda    |   F.delta'  |    enthalpy     | <-- min LBFGS\n",
   py" +------------+-------------+-------------+-----------------+ <-- min LBFGS\n",
   py" |  previous  |    0.000000 |    0.306114 |    -2293.743561 | <-- min LBFGS\n",
   py" | trial step |    1.000000 |   -0.064103 |    -2293.757852 | <-- min LBFGS\n",
   py" +------------+-------------+-------------+-----------------+ <-- min LBFGS\n"]

def exSearchRows : List GeomRow :=
  [.step [py"previous"] (exDec (py"0") (py"000000")) (exDec (py"0") (py"306114")) (neg (py"2293") (py"743561")),
   .step [py"trial", py"step"] (exDec (py"1") (py"000000")) (neg (py"0") (py"064103")) (neg (py"2293") (py"757852"))]

theorem exCriteria_lines : Interleaved NoDigit GeomRow.Line exCriteria exCriteriaRows := by
  refine .skip (by decide +kernel) (.skip (by decide +kernel) (.skip (by decide +kernel) (.row ?_ (.row ?_ (.skip (by decide +kernel) .nil)))))
  · exact ⟨py" ", py"  ", py"dE/ion", py"   ", py"   ", py" ", py"   ", py" ", py"         ", py"eV", py" ", py" ", py"  ", py" <-- LBFGS\n",
      by decide +kernel, by decide, by decide, by decide, by decide, by decide, by decide, by decide, keyName_of (by decide +kernel),
      Or.inl ⟨by decide, by decide, by decide⟩⟩
  · exact ⟨py" ", py"  ", py"|F|max", py"   ", py"   ", py" ", py"   ", py" ", py"       ", py"eV/A", py" ", py" ", py" ", py" <-- LBFGS\n",
      by decide +kernel, by decide, by decide, by decide, by decide, by decide, by decide, by decide, keyName_of (by decide +kernel),
      Or.inr ⟨py"F", py"max", rfl, by decide, by decide⟩⟩

theorem exSearch_lines : Interleaved NoDigit GeomRow.Line exSearch exSearchRows := by
  refine .skip (by decide +kernel) (.skip (by decide +kernel) (.skip (by decide +kernel) (.row ?_ (.row ?_ (.skip (by decide +kernel) .nil)))))
  · exact ⟨py" ", py"  ", py"previous  ", py"    ", py" ", py"    ", py" ", py"    ", py" ", py" <-- min LBFGS\n",
      by decide +kernel, by decide, by decide, ⟨_, _, rfl, by decide⟩, (fields_iff _ _).2 (by decide +kernel)⟩
  · exact ⟨py" ", py" ", py"trial step ", py"    ", py" ", py"   ", py" ", py"    ", py" ", py" <-- min LBFGS\n",
      by decide +kernel, by decide, by decide, ⟨_, _, rfl, by decide⟩, (fields_iff _ _).2 (by decide +kernel)⟩

example : ∃ (rd : Numeral → F64) (d : List (Key × PyVal)), (∀ r ∈ exCriteriaRows, Reads rd r.nums) ∧
    LastWins (exCriteriaRows.map fun r => (r.key, r.info rd)) d ∧ process_geom_table exCriteria = .ok (.dict d) :=
  C85 _ _ exCriteria_lines (by decide +kernel)

example : ∃ (rd : Numeral → F64) (d : List (Key × PyVal)), (∀ r ∈ exSearchRows, Reads rd r.nums) ∧
    LastWins (exSearchRows.map fun r => (r.key, r.info rd)) d ∧ process_geom_table exSearch = .ok (.dict d) :=
  C85 _ _ exSearch_lines (by decide +kernel)

end Verif.Props

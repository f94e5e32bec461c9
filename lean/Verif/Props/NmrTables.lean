import Verif.Lemmas.NmrTables
import Verif.Props.Berry
/-
C111: tables of NMR properties.
-/
namespace Verif.Props
open Verif Spec Castep

/-- C111: every value of every atom of a table of shieldings, field gradients, couplings or hyperfine tensors is reported. -/
theorem C111 (t : NmrTask) (ls : List Str) (rows : List NmrRow) (h : Interleaved NmrRow.Other (NmrRow.Line t) ls rows) (hok : ∀ r ∈ rows, r.Ok t) :
    ∃ fl : Numeral → F64, (∀ n : Numeral, n.Valid → n.InRange → F64.Nearest n.value (fl n)) ∧
      ∃ d, LastWins ((.str (py"task"), .str t.title) :: rows.map (NmrRow.entry fl t)) d ∧ parse_magres_block t.number ls = .ok (.dict d) := by
  obtain ⟨rd, fl, hrd⟩ := readings
  exact ⟨fl, fun n h1 h2 => (hrd n h1 h2).2.2, _, LineTab.lastWins _, Nmr.table h hok fun n h1 h2 => (hrd n h1 h2).2.1⟩

/-! ### Examples -/

def exNmrH1 : NmrRow := ⟨⟨c!"H", [], none, none⟩, py"1", [exDec (py"28") (py"24"), exDec (py"8") (py"55")], some (exDec (py"0") (py"11")), [exExp none (py"1") (py"968") true (py"01"), exDec (py"0") (py"02")]⟩
def exNmrH3 : NmrRow := ⟨⟨c!"H", [], some (py"T1"), none⟩, py"3", [exDec (py"28") (py"71"), exDec (py"7") (py"26")], none, [exExp none (py"1") (py"996") true (py"01"), exDec (py"0") (py"01")]⟩

def exNmrLines : List Str :=
  [py"  |    Species            Ion    Iso(ppm)   Aniso(ppm)  Asym    Cq(MHz)    Eta  |\n",
   py"  |    H                  1       28.24       8.55      0.11   1.968E-01   0.02 |\n",
   py"  |    H:T1               3       28.71       7.26      N/A    1.996E-01   0.01 |\n",
   py"  ===============================================================================\n"]

theorem noWordDigit_of {p : Str} (h : NoDigit p) : NmrRow.NoWordDigit p := fun _ _ d _ e _ => h d (by rw [e]; simp)

theorem other_of {l : Str} (h : NoDigit l) : NmrRow.Other l :=
  ⟨[], [], l, rfl, noWordDigit_of (fun c hc => by cases hc), by decide, h⟩

theorem exNmr_rows : Interleaved NmrRow.Other (NmrRow.Line .both) exNmrLines [exNmrH1, exNmrH3] := by
  refine .skip (other_of (by decide +kernel)) (.row ?_ (.row ?_ (.skip (other_of (by decide +kernel)) .nil)))
  · exact ⟨py"  ", [], py"    H                  1       28.24       8.55      0.11   1.968E-01   0.02 |\n", [], by decide +kernel, by decide +kernel, by decide, fun _ => rfl,
      ⟨c!" ", py"   H                  1       28.24       8.55      0.11   1.968E-01   0.02 |\n", rfl, by decide⟩,
      py"    ", py"                  1       28.24       8.55      0.11   1.968E-01   0.02 |\n", by decide +kernel, by decide +kernel, by decide +kernel, (fields_iff _ _).2 (by decide +kernel)⟩
  · exact ⟨py"  ", [], py"    H:T1               3       28.71       7.26      N/A    1.996E-01   0.01 |\n", [], by decide +kernel, by decide +kernel, by decide, fun _ => rfl,
      ⟨c!" ", py"   H:T1               3       28.71       7.26      N/A    1.996E-01   0.01 |\n", rfl, by decide⟩,
      py"    ", py"               3       28.71       7.26      N/A    1.996E-01   0.01 |\n", by decide +kernel, by decide +kernel, by decide +kernel, (fields_iff _ _).2 (by decide +kernel)⟩

/-- The hypotheses of `C111` hold for a table of shieldings and field gradients, one asymmetry of which is not available. -/
example : ∃ fl : Numeral → F64, (∀ n : Numeral, n.Valid → n.InRange → F64.Nearest n.value (fl n)) ∧
    ∃ d, LastWins ((.str (py"task"), .str (py"Chemical Shielding and Electric Field Gradient")) :: [exNmrH1, exNmrH3].map (NmrRow.entry fl .both)) d ∧
      parse_magres_block 1 exNmrLines = .ok (.dict d) :=
  C111 .both _ _ exNmr_rows (by
    simp only [List.forall_mem_cons, NmrRow.Ok]
    refine ⟨⟨by decide +kernel, by decide +kernel, by decide +kernel, rfl, rfl, by decide +kernel, by decide +kernel⟩,
      ⟨by decide +kernel, by decide +kernel, by decide +kernel, rfl, rfl, by decide +kernel, by decide +kernel⟩, by simp⟩)

def exCouplingC : NmrRow := ⟨⟨c!"C", [], none, none⟩, py"2", [exDec (py"128") (py"25"), exDec (py"3") (py"20"), neg (py"1") (py"22"), neg (py"0") (py"48"), exDec (py"129") (py"75")], none, []⟩

def exCouplingLines : List Str :=
  [py"  |** C                 1     --.--       --.--       --.--      --.--       --.-- |\n",
   py"  |   C                 2    128.25        3.20       -1.22      -0.48      129.75 |\n"]

/-- A table of couplings with a perturbing nucleus. -/
example : ∃ fl : Numeral → F64, (∀ n : Numeral, n.Valid → n.InRange → F64.Nearest n.value (fl n)) ∧
    ∃ d, LastWins ((.str (py"task"), .str (py"(An)Isotropic J-coupling")) :: [exCouplingC].map (NmrRow.entry fl .coupling)) d ∧
      parse_magres_block 3 exCouplingLines = .ok (.dict d) := by
  refine C111 .coupling _ _ (.skip ?_ (.row ?_ .nil)) ?_
  · exact ⟨py"  |** C                 ", py"1", py"     --.--       --.--       --.--      --.--       --.-- |\n", by decide +kernel, noWordDigit_of (by decide +kernel), by decide +kernel, by decide +kernel⟩
  · exact ⟨py"  ", [], py"   C                 2    128.25        3.20       -1.22      -0.48      129.75 |\n", [], by decide +kernel, by decide +kernel, by decide, fun _ => rfl,
      ⟨c!" ", py"  C                 2    128.25        3.20       -1.22      -0.48      129.75 |\n", rfl, by decide⟩,
      py"   ", py"                 2    128.25        3.20       -1.22      -0.48      129.75 |\n", by decide +kernel, by decide +kernel, by decide +kernel, (fields_iff _ _).2 (by decide +kernel)⟩
  · simp only [List.forall_mem_cons, NmrRow.Ok]
    exact ⟨⟨by decide +kernel, by decide +kernel, by decide +kernel, rfl, rfl, by decide +kernel, by decide +kernel⟩, by simp⟩

end Verif.Props

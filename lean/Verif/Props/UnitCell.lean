import Verif.Lemmas.UnitCell
import Verif.Props.CastepMatrix
import Verif.Props.Header
/-
C65: the unit cell.
-/
namespace Verif.Props
open Verif Verif.Spec Verif.Castep

/-- C65. -/
theorem C65_cell (items : List CellLine) (lines : List Str) (h : List.Forall₂ CellLine.Line items lines) :
    ∃ rd fl : Numeral → F64, (∀ i ∈ items, Reads rd i.nums ∧ Reads fl i.nums) ∧
      process_unit_cell lines = .ok (unitCell rd fl items) := by
  obtain ⟨rd, fl, hrd⟩ := readings
  have hv : ∀ i ∈ items, ∀ n ∈ i.nums, n.Valid ∧ n.InRange := by
    induction h with
    | nil => intro i hi; cases hi
    | cons h1 _ ih =>
      intro i hi
      rcases List.mem_cons.1 hi with rfl | hi
      · exact h1.2.1
      · exact ih i hi
  refine ⟨rd, fl, fun i hi => ⟨fun n hn => (hrd n (hv i hi n hn).1 (hv i hi n hn).2).1.2,
    fun n hn => (hrd n (hv i hi n hn).1 (hv i hi n hn).2).2.2⟩, ?_⟩
  exact unit_cell h (fun i hi n hn => (hrd n (hv i hi n hn).1 (hv i hi n hn).2).1.1)
    fun i hi n hn => (hrd n (hv i hi n hn).1 (hv i hi n hn).2).2.1

/-! ### An example -/

/-- The two ways to say which numbers a line has. -/
theorem hasNumbers_of {line : Str} {ns : List Numeral} (h : HoldsNumbers line ns) (h0 : ns ≠ []) : HasNumbers line ns := by
  obtain ⟨lead, l, e, h1, h2, h3, h4⟩ := h
  exact .inr ⟨lead, l, fun hl => h0 (by rw [h2, hl]; rfl), h2.symm, e, h1, h3, h4⟩

def exUnit : List CellLine :=
  [.other [exInt (py"1")],
   .lattice (exDec (py"2") (py"5")) (exDec (py"0") (py"0")) (exDec (py"0") (py"3")) (exDec (py"1") (py"25")) (exDec (py"0") (py"0")) (exDec (py"0") (py"5")),
   .angle (exDec (py"3") (py"5")) (exDec (py"60") (py"0")), .prop (exDec (py"39") (py"25")) (exInt (py"3")), .other []]

def exUnitLines : List Str :=
  [py"    Real Lattice(A)              Reciprocal Lattice(1/A)\n",
   py"   2.5   0.0   0.3      1.25  0.0  0.5\n",
   py"     a =      3.5          alpha =   60.0\n",
   py"     Current cell volume =            39.25 A**3\n", py"\n"]

example : ∃ rd fl : Numeral → F64, (∀ i ∈ exUnit, Reads rd i.nums ∧ Reads fl i.nums) ∧
    process_unit_cell exUnitLines = .ok (unitCell rd fl exUnit) := by
  refine C65_cell exUnit exUnitLines (.cons ⟨hasNumbers_of (holds_of _ (py"    Real Lattice(A)              Reciprocal Lattice(")
      [(exInt (py"1"), py"/A)\n")] (by decide +kernel) (by decide +kernel)) (by decide), by decide +kernel, by decide⟩
    (.cons ⟨hasNumbers_of (holds_of _ (py"   ") [(exDec (py"2") (py"5"), py"   "), (exDec (py"0") (py"0"), py"   "), (exDec (py"0") (py"3"), py"      "),
      (exDec (py"1") (py"25"), py"  "), (exDec (py"0") (py"0"), py"  "), (exDec (py"0") (py"5"), py"\n")] (by decide +kernel) (by decide +kernel)) (by decide),
      by decide +kernel, trivial⟩
    (.cons ⟨hasNumbers_of (holds_of _ (py"     a =      ") [(exDec (py"3") (py"5"), py"          alpha =   "), (exDec (py"60") (py"0"), py"\n")]
      (by decide +kernel) (by decide +kernel)) (by decide), by decide +kernel, .inl ((Str.contains_iff _ _).1 (by decide +kernel))⟩
    (.cons ⟨hasNumbers_of (holds_of _ (py"     Current cell volume =            ") [(exDec (py"39") (py"25"), py" A**"), (exInt (py"3"), py"\n")]
      (by decide +kernel) (by decide +kernel)) (by decide), by decide +kernel, ?_⟩
    (.cons ⟨.inl ⟨rfl, by decide +kernel⟩, (fun n hn => by cases hn), by decide⟩ .nil)))))
  show ¬ (_ ∨ _ ∨ _)
  rw [← Str.contains_iff, ← Str.contains_iff, ← Str.contains_iff]
  decide +kernel

end Verif.Props

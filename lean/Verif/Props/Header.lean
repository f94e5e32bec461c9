import Verif.Lemmas.Header
import Verif.Props.Grids
import Verif.Model.Spectra
/-
C59: the header shared by the smaller output files.
-/
namespace Verif.Props
open Verif Spec

/-- C59, for band structure files.  A header made of counts, the cell, ions and other lines gives exactly
its counts, its cell vectors, the numbers of the `Fermi energy` line and the table of its ions. -/
theorem C59_header (items : List HeadItem) (lines : List (List Str))
    (hl : List.Forall₂ (HeadItem.Lines (py"Fermi energy")) items lines) (hn : ∀ i ∈ items, ∀ n ∈ i.nums, n.Valid ∧ n.InRange) :
    ∃ rd : Numeral → F64, (∀ i ∈ items, Reads rd i.nums) ∧
      parse_regular_header Bands.EXTRA_RE lines.flatten = .ok (headerOf (py"Fermi energy") rd items) := by
  obtain ⟨rd, fl, hrd⟩ := readings
  refine ⟨rd, fun i hi n h => (hrd n (hn i hi n h).1 (hn i hi n h).2).1.2, ?_⟩
  exact regular_header _ _ (looks_lit _ _ (by decide +kernel)) rd items lines hl
    fun i hi n h => (hrd n (hn i hi n h).1 (hn i hi n h).2).1.1

/-- C59, for phonon and electric field files, which look for no option.  The same, but every line
that is no count, cell vector or ion is stored under the empty name, the last one winning. -/
theorem C59_header_no_option (items : List HeadItem) (lines : List (List Str))
    (hl : List.Forall₂ (HeadItem.Lines []) items lines) (hn : ∀ i ∈ items, ∀ n ∈ i.nums, n.Valid ∧ n.InRange) :
    ∃ rd : Numeral → F64, (∀ i ∈ items, Reads rd i.nums) ∧
      parse_regular_header NO_EXTRA_RE lines.flatten = .ok (headerOf [] rd items) := by
  obtain ⟨rd, fl, hrd⟩ := readings
  refine ⟨rd, fun i hi n h => (hrd n (hn i hi n h).1 (hn i hi n h).2).1.2, ?_⟩
  exact regular_header _ _ (looks_lit _ _ (by decide +kernel)) rd items lines hl
    fun i hi n h => (hrd n (hn i hi n h).1 (hn i hi n h).2).1.1

/-! ### A header -/

def exIon1 : IonPos := ⟨exInt (py"1"), exDec (py"0") (py"0"), exDec (py"0") (py"5"), ⟨some true, py"0", some (py"25"), none⟩, py"Si", exDec (py"28") (py"0855")⟩
def exIon2 : IonPos := { exIon1 with idx := exInt (py"2"), spec := py"O", mass := exDec (py"15") (py"9994") }

/-- Counts, an energy, the cell and two ions. -/
def exHead : List HeadItem :=
  [.count [py"ions"] (exInt (py"2")), .note true [exDec (py"0") (py"25")],
   .cell [[exDec (py"5") (py"4"), exDec (py"0") (py"0"), exDec (py"0") (py"0")],
          [exDec (py"0") (py"0"), exDec (py"5") (py"4"), exDec (py"0") (py"0")],
          [exDec (py"0") (py"0"), exDec (py"0") (py"0"), exDec (py"5") (py"4")]],
   .note false [], .ion exIon1, .ion exIon2]

def exHeadLines : List (List Str) :=
  [[py"Number of ions      2\n"], [py"Fermi energy (in atomic units)     0.25\n"],
   [py"Unit cell vectors\n", py"   5.4  0.0  0.0\n", py"   0.0 5.4 0.0\n", py"  0.0 0.0 5.4\n"],
   [py" Fractional Co-ordinates\n"], [py"  1  0.0 0.5  -0.25  Si   28.0855\n"], [py"  2  0.0 0.5  -0.25  O   15.9994\n"]]

theorem plain_of_split (s : Str) (h : ((Str.split s).filter hasDigit).length < 3) : Plain s := ⟨_, split_fields s, h⟩

theorem not_count (s : Str) (h : Str.startsWith (Str.strip s) (py"Number of") = false) : ¬ IsCount s := by
  rw [← isCount_iff, h]; simp

theorem not_occurs (w s : Str) (h : Str.contains w s = false) : ¬ Occurs w s := by
  rw [← Str.contains_iff, h]; simp

theorem exIon_ok : exIon1.Ok ∧ exIon2.Ok :=
  ⟨⟨by decide +kernel, by decide +kernel, by decide +kernel, c!"S", py"i", rfl, by decide +kernel⟩,
    by decide +kernel, by decide +kernel, by decide +kernel, c!"O", [], rfl, by decide +kernel⟩

theorem exHead_lines : List.Forall₂ (HeadItem.Lines (py"Fermi energy")) exHead exHeadLines := by
  refine .cons ⟨_, rfl, (isCount_iff _).1 (by decide +kernel), plain_of_split _ (by decide +kernel),
    (fields_iff _ _).2 (by decide +kernel), by decide +kernel, by decide +kernel, by decide +kernel⟩ ?_
  refine .cons ⟨_, rfl, not_count _ (by decide +kernel), not_occurs _ _ (by decide +kernel), plain_of_split _ (by decide +kernel),
    ⟨fun _ => (Str.contains_iff _ _).1 (by decide +kernel), fun _ => rfl⟩,
    .inr ⟨py"Fermi energy (in atomic units)     ", [(exDec (py"0") (py"25"), py"\n")], by decide, rfl, by decide +kernel,
      ⟨by decide +kernel, by intro c hc; cases hc; decide +kernel⟩, by simp,
      by intro p hp; cases hp; exact ⟨by decide +kernel, by intro c hc; cases hc; decide +kernel⟩⟩, by decide +kernel⟩ ?_
  refine .cons ⟨_, _, _, _, _, _, _, rfl, rfl, (Str.contains_iff _ _).1 (by decide +kernel), not_count _ (by decide +kernel),
    plain_of_split _ (by decide +kernel), ?_⟩ ?_
  · intro p hp
    simp only [List.mem_cons, List.not_mem_nil, or_false] at hp
    rcases hp with rfl | rfl | rfl <;> exact ⟨(fields_iff _ _).2 (by decide +kernel), by decide +kernel⟩
  refine .cons ⟨_, rfl, not_count _ (by decide +kernel), not_occurs _ _ (by decide +kernel), plain_of_split _ (by decide +kernel),
    ⟨fun h => (by cases h), fun h => absurd h (not_occurs _ _ (by decide +kernel))⟩, .inl ⟨rfl, by decide +kernel⟩, by simp⟩ ?_
  exact .cons ⟨_, rfl, exIon_ok.1, (fields_iff _ _).2 (by decide +kernel)⟩
    (.cons ⟨_, rfl, exIon_ok.2, (fields_iff _ _).2 (by decide +kernel)⟩ .nil)

example : ∃ rd : Numeral → F64, (∀ i ∈ exHead, Reads rd i.nums) ∧
    parse_regular_header Bands.EXTRA_RE exHeadLines.flatten = .ok (headerOf (py"Fermi energy") rd exHead) :=
  C59_header exHead exHeadLines exHead_lines (by decide +kernel)

/-- The same header without the option. -/
def exHead0 : List HeadItem := [.count [py"ions"] (exInt (py"2")), .note true [], .ion exIon1]

example : ∃ rd : Numeral → F64, (∀ i ∈ exHead0, Reads rd i.nums) ∧
    parse_regular_header NO_EXTRA_RE [[py"Number of ions      2\n"], [py" Fractional Co-ordinates\n"],
      [py"  1  0.0 0.5  -0.25  Si   28.0855\n"]].flatten = .ok (headerOf [] rd exHead0) :=
  C59_header_no_option exHead0 _ (.cons ⟨_, rfl, (isCount_iff _).1 (by decide +kernel), plain_of_split _ (by decide +kernel),
    (fields_iff _ _).2 (by decide +kernel), by decide +kernel, by decide +kernel, by decide +kernel⟩
    (.cons ⟨_, rfl, not_count _ (by decide +kernel), not_occurs _ _ (by decide +kernel), plain_of_split _ (by decide +kernel),
      ⟨fun _ => ⟨[], _, rfl⟩, fun _ => rfl⟩, .inl ⟨rfl, by decide +kernel⟩, by simp⟩
    (.cons ⟨_, rfl, exIon_ok.1, (fields_iff _ _).2 (by decide +kernel)⟩ .nil))) (by decide +kernel)

end Verif.Props

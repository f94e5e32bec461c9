import Verif.Lemmas.Elastic
import Verif.Props.PhononDos
import Verif.Props.CastepMatrix
/-
C73: `.elastic` files.
-/
namespace Verif.Props
open Verif Verif.Spec

/-- What an `.elastic` file gives: the header, every matrix with its unit, and for every atom its rows of the internal strain in order, the number of the atom
being reported as the first of seven components. -/
theorem C73_exact (parts : List ElPart) (ls : List (List Str)) (h : List.Forall₂ ElPart.Lines parts ls) (hok : ∀ p ∈ parts, p.Ok) :
    ∃ rd : Numeral → F64, (∀ n : Numeral, n.Valid → n.InRange → F64.Nearest n.value (rd n)) ∧
      parse_elastic_file ls.flatten = .ok (.dict (parts.foldl (ElPart.put rd fun r => r.num :: r.comps) [])) := by
  obtain ⟨rd, _, hrd⟩ := readings
  refine ⟨rd, fun n h1 h2 => (hrd n h1 h2).1.2, ?_⟩
  have hn : ∀ p ∈ parts, ∀ n ∈ Elastic.nums p, n.Valid ∧ n.InRange := by
    intro p hp n hn
    have := hok p hp
    cases p with
    | header items =>
      obtain ⟨i, hi, hn⟩ := List.mem_flatMap.1 hn
      exact this.1 i hi n hn
    | matrix words unit rows =>
      obtain ⟨r, hr, hn⟩ := List.mem_flatten.1 hn
      exact this r hr n hn
    | strain words unit rows =>
      obtain ⟨r, hr, hn⟩ := List.mem_flatMap.1 hn
      rw [List.mem_cons] at hn
      rcases hn with rfl | hn
      · exact ⟨Elastic.num_valid (this r hr).1, (this r hr).2⟩
      · exact (this r hr).1.2.2.2.2.2.2.2 n hn
    | other => cases hn
  rw [parse_elastic_file, Elastic.loop_parts rd parts ls h hok (fun p hp n h' => (hrd n (hn p hp n h').1 (hn p hp n h').2).1.1) [] _ (by omega)]
  rfl

/-- C73 for files without rows of the internal strain: the header, and every matrix with its unit. -/
theorem C73_partial (parts : List ElPart) (ls : List (List Str)) (h : List.Forall₂ ElPart.Lines parts ls) (hok : ∀ p ∈ parts, p.Ok)
    (hr : ∀ words unit rows, ElPart.strain words unit rows ∈ parts → rows = []) :
    ∃ rd : Numeral → F64, (∀ n : Numeral, n.Valid → n.InRange → F64.Nearest n.value (rd n)) ∧
      parse_elastic_file ls.flatten = .ok (.dict (parts.foldl (ElPart.put rd StrainRow.comps) [])) := by
  obtain ⟨rd, hrd, e⟩ := C73_exact parts ls h hok
  refine ⟨rd, hrd, ?_⟩
  rw [e]
  have : ∀ (l : List ElPart) (d : Dict Key PyVal), (∀ p ∈ l, p ∈ parts) →
      l.foldl (ElPart.put rd fun r => r.num :: r.comps) d = l.foldl (ElPart.put rd StrainRow.comps) d := by
    intro l
    induction l with
    | nil => intro d _; rfl
    | cons p l ih =>
      intro d hl
      rw [List.foldl_cons, List.foldl_cons, ih _ fun q hq => hl q (by simp [hq])]
      congr 1
      cases p with
      | strain words unit rows => rw [hr words unit rows (hl _ (by simp))]; rfl
      | _ => rfl
  rw [this _ _ fun _ h => h]

/-- C73 is false for every internal strain: whatever its rows, not their components are reported. -/
theorem C73_violated (words : List Str) (unit : Option Str) (rows : List StrainRow) (ls : List Str) (h : ElPart.Lines (.strain words unit rows) ls)
    (hok : ElPart.Ok (.strain words unit rows)) (hne : rows ≠ []) :
    ∀ rd : Numeral → F64, parse_elastic_file ls ≠ .ok (.dict (ElPart.put rd StrainRow.comps [] (.strain words unit rows))) := by
  intro rd he
  obtain ⟨rd', -, e⟩ := C73_exact [.strain words unit rows] [ls] (.cons h .nil) (by
    intro p hp; simp only [List.mem_singleton] at hp; subst hp; exact hok)
  rw [List.flatten_cons, List.flatten_nil, List.append_nil, he] at e
  cases rows with
  | nil => exact hne rfl
  | cons r rows =>
    simp only [List.foldl_cons, List.foldl_nil, ElPart.put, Dict.set, Except.ok.injEq, PyVal.dict.injEq, List.cons.injEq, Prod.mk.injEq, and_true, true_and,
      grouped, List.map_cons, List.eraseDups_cons, decide_true, List.filter_cons_of_pos, PyVal.list.injEq] at e
    have := e.1.1
    simp only [ElPart.tuple, PyVal.tuple.injEq] at this
    have := congrArg List.length this
    simp at this

/-! ### A file -/

def exStrain : List StrainRow :=
  [⟨py"1", ⟨c!"A", py"l", none, none⟩, c!"X", [exDec (py"0") (py"5"), neg (py"8") (py"1"), exDec (py"1") (py"0"), exDec (py"2") (py"0"), exDec (py"3") (py"0"), neg (py"4") (py"0")]⟩,
   ⟨py"3", ⟨c!"P", [], some (py"a"), none⟩, c!"Z", [exDec (py"0") (py"5"), neg (py"8") (py"1"), exDec (py"1") (py"0"), exDec (py"2") (py"0"), exDec (py"3") (py"0"), neg (py"4") (py"0")]⟩,
   ⟨py"1", ⟨c!"A", py"l", none, none⟩, c!"Y", [exDec (py"0") (py"5"), neg (py"8") (py"1"), exDec (py"1") (py"0"), exDec (py"2") (py"0"), exDec (py"3") (py"0"), neg (py"4") (py"0")]⟩]

def exStrainLines : List Str :=
  [py" BEGIN Internal Strain (eV/A)\n", py"     1   Al      X    0.5   -8.1  1.0  2.0  3.0 -4.0   \n", py"     3   P:a     Z    0.5   -8.1  1.0  2.0  3.0 -4.0   \n",
   py"     1   Al      Y    0.5   -8.1  1.0  2.0  3.0 -4.0   \n", py" END Internal Strain\n"]

def exMatrix : List (List Numeral) := [[exDec (py"156") (py"3"), neg (py"8") (py"0")], [⟨none, py"0", some (py"5"), some (true, some true, py"13")⟩]]

def exMatrixLines : List Str := [py" BEGIN Elastic Constants [Frozen Ion] (GPa)\n", py"   156.3    -8.0   \n", py"\n", py"    0.5E-13   \n", py" END Elastic Constants\n"]

def exElastic : List ElPart :=
  [.header exDos.exEfHead', .matrix [py"Elastic", py"Constants", py"Frozen", py"Ion"] (some (py"GPa")) exMatrix, .other,
    .strain [py"Internal", py"Strain"] (some (py"eV/A")) exStrain]

def exElasticLines : List (List Str) :=
  [[py" BEGIN header\n", py"  Number of ions   2\n", py" END header\n"], exMatrixLines, [py"\n"], exStrainLines]

theorem exStrain_lines : ElPart.Lines (.strain [py"Internal", py"Strain"] (some (py"eV/A")) exStrain) exStrainLines := by
  refine ⟨starts_none (by decide +kernel), exStrainLines.tail.dropLast, _, _, rfl, ⟨py" ", py" (eV/A)\n", by decide +kernel⟩,
    ⟨py" ", py"Internal Strain ", by decide, by decide, by decide, (fields_iff _ _).2 (by decide +kernel), by decide, by decide, py"\n", by decide +kernel⟩, ?_,
    ⟨py" ", py" Internal Strain\n", by decide +kernel⟩, ?_⟩
  · intro l hl
    have : ∀ l ∈ exStrainLines.tail.dropLast, Str.contains (py"END") l = false := by decide +kernel
    exact not_occurs _ _ (this l hl)
  · exact .cons ⟨py"     ", py"   ", py"      ", py"    ", py"0.5   -8.1  1.0  2.0  3.0 -4.0   \n", by decide +kernel, by decide, by decide, by decide, by decide,
      (fields_iff _ _).2 (by decide +kernel)⟩
      (.cons ⟨py"     ", py"   ", py"     ", py"    ", py"0.5   -8.1  1.0  2.0  3.0 -4.0   \n", by decide +kernel, by decide, by decide, by decide, by decide,
        (fields_iff _ _).2 (by decide +kernel)⟩
      (.cons ⟨py"     ", py"   ", py"      ", py"    ", py"0.5   -8.1  1.0  2.0  3.0 -4.0   \n", by decide +kernel, by decide, by decide, by decide, by decide,
        (fields_iff _ _).2 (by decide +kernel)⟩ .nil))

theorem exStrain_ok : ElPart.Ok (.strain [py"Internal", py"Strain"] (some (py"eV/A")) exStrain) := by
  intro r hr
  simp only [exStrain, List.mem_cons, List.not_mem_nil, or_false] at hr
  rcases hr with rfl | rfl | rfl
  · exact ⟨⟨by decide +kernel, by decide, by decide +kernel, rfl, by decide +kernel, by decide, rfl, by decide +kernel⟩, by decide +kernel⟩
  · exact ⟨⟨by decide +kernel, by decide, by decide +kernel, rfl, by decide +kernel, by decide, rfl, by decide +kernel⟩, by decide +kernel⟩
  · exact ⟨⟨by decide +kernel, by decide, by decide +kernel, rfl, by decide +kernel, by decide, rfl, by decide +kernel⟩, by decide +kernel⟩

theorem exMatrix_lines : ElPart.Lines (.matrix [py"Elastic", py"Constants", py"Frozen", py"Ion"] (some (py"GPa")) exMatrix) exMatrixLines := by
  refine ⟨starts_none (by decide +kernel), exMatrixLines.tail.dropLast, _, _, rfl,
    ⟨py" ", py"Elastic Constants [Frozen Ion] ", by decide, by decide, by decide, (fields_iff _ _).2 (by decide +kernel), by decide, by decide, py"\n", by decide +kernel⟩, ?_,
    ⟨py" ", py" Elastic Constants\n", by decide +kernel⟩, ?_, by decide +kernel⟩
  · intro l hl
    have : ∀ l ∈ exMatrixLines.tail.dropLast, Str.contains (py"END") l = false := by decide +kernel
    exact not_occurs _ _ (this l hl)
  · exact .row ⟨.inr ⟨py"   ", [(exDec (py"156") (py"3"), py"    "), (neg (py"8") (py"0"), py"   \n")], by decide, rfl, by decide +kernel,
      ⟨by decide, by decide⟩, (by simp; exact ⟨by decide, by decide, by decide, by decide⟩), (by simp; exact ⟨by decide, by decide⟩)⟩, by decide⟩
      (.skip (by decide) (.row ⟨.inr ⟨py"    ", [(⟨none, py"0", some (py"5"), some (true, some true, py"13")⟩, py"   \n")], by decide, rfl, by decide +kernel,
      ⟨by decide, by decide⟩, by simp, (by simp; exact ⟨by decide, by decide⟩)⟩, by decide⟩ .nil))

theorem exMatrix_ok : ElPart.Ok (.matrix [py"Elastic", py"Constants", py"Frozen", py"Ion"] (some (py"GPa")) exMatrix) := by
  show ∀ r ∈ exMatrix, NumsOk r
  decide +kernel

theorem exElHead_lines : ElPart.Lines (.header exDos.exEfHead') [py" BEGIN header\n", py"  Number of ions   2\n", py" END header\n"] := by
  refine ⟨⟨[py"  Number of ions   2\n"], enclosed_of (first := py" BEGIN header\n") (last := py" END header\n") (inner := [py"  Number of ions   2\n"])
      (by decide +kernel) (by decide +kernel) (by decide +kernel)⟩,
    [[py" BEGIN header\n"], [py"  Number of ions   2\n"], [py" END header\n"]], ?_, rfl⟩
  exact .cons (dosNote_lines (by decide +kernel) (by decide +kernel) (by decide +kernel) (by decide +kernel))
      (.cons ⟨_, rfl, (isCount_iff _).1 (by decide +kernel), plain_of_split _ (by decide +kernel),
        (fields_iff _ _).2 (by decide +kernel), by decide +kernel, by decide +kernel, by decide +kernel⟩
      (.cons (dosNote_lines (by decide +kernel) (by decide +kernel) (by decide +kernel) (by decide +kernel)) .nil))

theorem exElHead_ok : ElPart.Ok (.header exDos.exEfHead') := ⟨by decide +kernel, [], by decide⟩

example : List.Forall₂ ElPart.Lines exElastic exElasticLines ∧ ∀ p ∈ exElastic, p.Ok := by
  refine ⟨.cons exElHead_lines (.cons exMatrix_lines (.cons ⟨starts_none (by decide +kernel), rfl⟩ (.cons exStrain_lines .nil))), ?_⟩
  intro p hp
  simp only [exElastic, List.mem_cons, List.not_mem_nil, or_false] at hp
  rcases hp with rfl | rfl | rfl | rfl
  · exact exElHead_ok
  · exact exMatrix_ok
  · trivial
  · exact exStrain_ok

example : ElPart.Lines (.strain [py"Internal", py"Strain"] (some (py"eV/A")) exStrain) exStrainLines ∧
    ElPart.Ok (.strain [py"Internal", py"Strain"] (some (py"eV/A")) exStrain) ∧ exStrain ≠ [] := ⟨exStrain_lines, exStrain_ok, by decide⟩

example : (∀ words unit rows, ElPart.strain words unit rows ∈ exElastic.dropLast → rows = []) := by
  intro words unit rows h
  simp [exElastic] at h

example : ElPart.key [py"Elastic", py"Constants", py"Frozen", py"Ion"] = py"elastic_constants_frozen_ion" ∧
    ElPart.key [py"A", py"xx", py"yy", py"zz", py"yz", py"zx", py"xy"] = py"a" := by decide +kernel

end Verif.Props

import Verif.Spec.CastepDoc
import Verif.Spec.LineTables
/-
The Berry phase polarisation in a `.castep` file.
-/
namespace Verif.Spec
open Verif

/-- A row of a table: its first word and its numbers. -/
structure BerryRow where
  word : Str
  nums : List Numeral

namespace BerryRow
def Line (r : BerryRow) (l : Str) : Prop := (∃ ws, Fields l (r.word :: ws)) ∧ HasNumbers l r.nums ∧ c!"=" ∉ l
def Ok (r : BerryRow) : Prop := ∀ n ∈ r.nums, n.Valid ∧ n.InRange
def entry (rd : Numeral → F64) (r : BerryRow) : Key × PyVal := (.str r.word, .tuple (r.nums.map fun n => .float (rd n)))
end BerryRow

/-- A row of the table with the quanta: the number of the row, the direction and four numbers. -/
structure QuantumRow where
  number : Numeral
  direction : List Numeral
  elec : Numeral
  ionic : Numeral
  total : Numeral
  quantum : Numeral

namespace QuantumRow
def nums (r : QuantumRow) : List Numeral := r.number :: (r.direction ++ [r.elec, r.ionic, r.total, r.quantum])
def Line (r : QuantumRow) (l : Str) : Prop := HasNumbers l r.nums ∧ c!"=" ∉ l
def Ok (r : QuantumRow) : Prop := ∀ n ∈ r.nums, n.Valid ∧ n.InRange
/-- The direction is a key; a float in a key is represented by its bits. -/
def entry (rd : Numeral → F64) (unit : Str) (r : QuantumRow) : Key × PyVal :=
  (.tup (r.direction.map fun n => .int (rd n).bits.val),
   .dict [(.str (py"elec"), .float (rd r.elec)), (.str (py"ionic"), .float (rd r.ionic)), (.str (py"total"), .float (rd r.total)),
     (.str (py"quantum"), .float (rd r.quantum)), (.str (py"units"), .str unit)])
end QuantumRow

/-- A row of the ionic contributions: the ion, its charge, its position and its polarisation. -/
structure PolIonRow where
  index : Str
  species : Str
  charge : Str
  coords : Numeral × Numeral × Numeral
  pol : List Numeral

namespace PolIonRow
def nums (r : PolIonRow) : List Numeral := [r.coords.1, r.coords.2.1, r.coords.2.2] ++ r.pol
def Line (r : PolIonRow) (l : Str) : Prop := Fields l (r.index :: r.species :: r.charge :: r.nums.map Numeral.text) ∧ c!"=" ∉ l
def Ok (r : PolIonRow) : Prop := (∀ n ∈ r.nums, n.Valid ∧ n.InRange) ∧ ∀ s ∈ [r.index, r.species], s ≠ [] ∧ Numeral.AllDigits s
def key (r : PolIonRow) : Key := .tup [.int (Numeral.nat r.species), .int (Numeral.nat r.index)]
def entry (rd : Numeral → F64) (r : PolIonRow) : Key × PyVal :=
  (r.key,
   .dict [(.str (py"coords"), .tuple ([r.coords.1, r.coords.2.1, r.coords.2.2].map fun n => .float (rd n))),
     (.str (py"polarisation"), .tuple (r.pol.map fun n => .float (rd n)))])
end PolIonRow

/-- What the report has: a polarisation vector, a table of polarisations, of polarisations per volume, of quanta, of the contributions of
the ions, or anything else. -/
inductive BerryItem where
  | vector (name unit : Str) (a b c : Numeral)
  | table (unit : Str) (rows : List BerryRow)
  | volume (unit : Str) (rows : List BerryRow)
  | quanta (unit : Str) (rows : List QuantumRow)
  | ions (unit : Str) (rows : List PolIonRow) (total : List Numeral)
  | other

namespace BerryItem

/-- The text of the title of the contributions of the ions. -/
abbrev ionTitle : Str := py"Ionic contribution to polarisation"

/-- A title: a name and the unit in brackets. -/
def Titled (key unit t : Str) : Prop :=
  ∃ g c name r, t = g ++ ((c :: name) ++ c!"(" :: (unit ++ c!")" :: r)) ∧ Blank g ∧ isSpace c = false ∧ (∀ d ∈ c :: name, isWord d = true ∨ isSpace d = true) ∧
    KeyName (c :: name) key ∧ unit ≠ [] ∧ c!")" ∉ unit

/-- None of the names of the vectors. -/
def NoVector (t : Str) : Prop := ¬ Occurs (py"Ionic") t ∧ ¬ Occurs (py"Elec") t ∧ ¬ Occurs (py"Total") t

/-- The lines. Tables stand between lines with equals signs. -/
def Lines : BerryItem → List Str → Prop
  | vector name unit a b c, ls => ∃ l g m g1 g2 g3 g4 r, ls = [l] ∧ l = g ++ (name ++ (m ++ c!":" :: (g1 ++ (a.text ++ (g2 ++ (b.text ++ (g3 ++ (c.text ++
      (g4 ++ c!"(" :: (unit ++ c!")" :: r))))))))))  ∧ m ≠ [] ∧ c!":" ∉ m ∧ Blank g ∧ (∀ g ∈ [g1, g2, g3, g4], Blank g ∧ g ≠ []) ∧
      unit ≠ [] ∧ c!")" ∉ unit ∧ ¬ Occurs ionTitle l
  | table unit rows, ls => ∃ t r1 b r2, ls = t :: r1 :: (b ++ [r2]) ∧ Titled (py"polarisation") unit t ∧ NoVector t ∧ ¬ Occurs (py"Quantum") t ∧ c!"=" ∈ r1 ∧ c!"=" ∈ r2 ∧
      List.Forall₂ BerryRow.Line rows b
  | volume unit rows, ls => ∃ t r1 b r2, ls = t :: r1 :: (b ++ [r2]) ∧ Titled (py"volume_polarisation") unit t ∧ NoVector t ∧ c!"=" ∈ r1 ∧ c!"=" ∈ r2 ∧
      List.Forall₂ BerryRow.Line rows b
  | quanta unit rows, ls => ∃ t h r1 b r2, ls = t :: h :: r1 :: (b ++ [r2]) ∧ Titled (py"polarisation") unit t ∧ NoVector t ∧ Occurs (py"Quantum") t ∧ c!"=" ∉ h ∧ c!"=" ∈ r1 ∧ c!"=" ∈ r2 ∧
      List.Forall₂ QuantumRow.Line rows b
  | ions unit rows total, ls => ∃ t r1 h b tl r2 n1 n2, ls = t :: r1 :: h :: (b ++ [tl, r2]) ∧ Occurs ionTitle t ∧ Titled (py"ionic_contribution_to_polarisation") unit t ∧
      c!"=" ∈ r1 ∧ c!"=" ∉ h ∧ List.Forall₂ PolIonRow.Line rows b ∧ HasNumbers tl (n1 :: n2 :: total) ∧ n1.Valid ∧ n2.Valid ∧ c!"=" ∉ tl ∧ c!"=" ∈ r2
  | other, ls => ∃ l, ls = [l] ∧ c!"(" ∉ l ∧ ¬ Occurs ionTitle l

def Ok : BerryItem → Prop
  | vector name _ a b c => name ∈ [py"Ionic", py"Elec", py"Total"] ∧ ∀ n ∈ [a, b, c], n.Valid ∧ n.InRange
  | table _ rows => ∀ r ∈ rows, r.Ok
  | volume _ rows => (∀ r ∈ rows, r.Ok) ∧ (py"units" :: rows.map BerryRow.word).Nodup
  | quanta _ rows => ∀ r ∈ rows, r.Ok
  | ions _ rows total => (∀ r ∈ rows, r.Ok) ∧ (rows.map PolIonRow.key).Nodup ∧ ∀ n ∈ total, n.Valid ∧ n.InRange
  | other => True

/-- The rows of the tables of phases, or of the other tables. -/
def rowsOf (rd : Numeral → F64) (phase : Bool) : BerryItem → List (Key × PyVal)
  | table unit rows => if decide (unit = py"phase") = phase then rows.map (BerryRow.entry rd) else []
  | _ => []

/-- The entries of the polarisation: the phases `p`, the unit and the values `v`, and the quanta of every direction. -/
def polEntries (rd : Numeral → F64) (v p : List (Key × PyVal)) : BerryItem → List (Key × PyVal)
  | table unit _ => if unit = py"phase" then [(.str (py"phase"), .dict p)] else [(.str (py"units"), .str unit), (.str (py"val"), .dict v)]
  | quanta unit rows => rows.map (QuantumRow.entry rd unit)
  | _ => []

/-- The entries of the report, where `pol` is the polarisation. -/
def entry (rd : Numeral → F64) (pol : List (Key × PyVal)) : BerryItem → Option (Key × PyVal)
  | vector name unit a b c => some (.str (name.map lowerC), .dict [(.str (py"units"), .str unit), (.str (py"val"), .tuple ([a, b, c].map fun n => .float (rd n)))])
  | table .. => some (.str (py"polarisation"), .dict pol)
  | quanta .. => some (.str (py"polarisation"), .dict pol)
  | volume unit rows => some (.str (py"volume_polarisation"), .dict ((.str (py"units"), .str unit) :: rows.map (BerryRow.entry rd)))
  | ions unit rows total => some (.str (py"ionic_contribution_to_polarisation"), .dict [(.str (py"units"), .str unit),
      (.str (py"total"), .tuple (total.map fun n => .float (rd n))), (.str (py"ions"), .dict (rows.map (PolIonRow.entry rd)))])
  | other => none

end BerryItem
end Verif.Spec

import Verif.Spec.LineTables
/-
The table of the band structure in a `.castep` file.
-/
namespace Verif.Spec
open Verif

/-- Numbers, each with blanks before it. -/
inductive Gapped : Str → List Numeral → Prop
  | nil : Gapped [] []
  | cons {g s n ns} : Blank g → g ≠ [] → Gapped s ns → Gapped (g ++ (n.text ++ s)) (n :: ns)

/-- A k-point with its bands: number of the band and energy. -/
structure BandPoint where
  spin : Numeral
  kpt : Numeral
  k : List Numeral
  group : Numeral
  rows : List (Numeral × Numeral)
  deriving DecidableEq

namespace BandPoint

def Ok (b : BandPoint) : Prop := (∀ n ∈ [b.spin, b.kpt, b.group], n.Valid ∧ n.IsInt) ∧ RowOk 3 b.k ∧
  ∀ r ∈ b.rows, r.1.Valid ∧ r.1.IsInt ∧ r.2.Valid ∧ r.2.InRange

/-- `Spin=1 kpt=    1 ( -0.375000 -0.375000 -0.125000) kpt-group=  1` with other text around it. -/
def Title (b : BandPoint) (l : Str) : Prop := ∃ u g1 g2 g3 g4 s g5 g6 v,
  l = u ++ (py"Spin=" ++ (g1 ++ (b.spin.text ++ (g2 ++ (py"kpt=" ++ (g3 ++ (b.kpt.text ++ (g4 ++ (c!"(" :: (s ++ (c!")" :: (g5 ++
      (py"kpt-group=" ++ (g6 ++ (b.group.text ++ v))))))))))))))) ∧
  c!"S" ∉ u ∧ (∀ g ∈ [g1, g2, g3, g4, g5, g6], Blank g) ∧ Gapped s b.k ∧
  ∀ c, v.head? = some c → ¬ (48 ≤ c ∧ c ≤ 57) ∧ c ≠ c!"."

/-- A band: its number and its energy, with text without digits before them. -/
def Row (r : Numeral × Numeral) (l : Str) : Prop := ∃ u s v, l = u ++ (s ++ v) ∧ ¬ Occurs (py"Spin=") l ∧ NoDigit u ∧
  (∀ c, u.getLast? = some c → isSpace c = false) ∧ Gapped s [r.1, r.2] ∧ ∀ c, v.head? = some c → isSpace c = true

/-- The lines of a table: titles, rows below them, lines without digits anywhere. -/
inductive Table : List Str → List BandPoint → Prop
  | nil : Table [] []
  | skip {l ls bs} : NoDigit l → Table ls bs → Table (l :: ls) bs
  | point {l a ls b bs} : Title b l → Interleaved NoDigit (fun l r => Row r l) a b.rows → Table ls bs → Table (l :: (a ++ ls)) (b :: bs)

def info (rd : Numeral → F64) (b : BandPoint) : List (Key × PyVal) :=
  [(.str (py"band"), .tuple (b.rows.map fun r => .int (intOf r.1))), (.str (py"energy"), .tuple (b.rows.map fun r => .float (rd r.2))),
   (.str (py"spin"), .int (intOf b.spin))] ++
  ([py"kx", py"ky", py"kz"].zip b.k).map (fun p => (Key.str p.1, PyVal.float (rd p.2))) ++
  [(.str (py"kpgrp"), .int (intOf b.group))]

end BandPoint

end Verif.Spec

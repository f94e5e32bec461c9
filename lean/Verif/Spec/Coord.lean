import Verif.Spec.Number
import Verif.Spec.CellFile
import Verif.Py.Value

/-
Numbers in cell files: a coordinate may be a printed number or a ratio of integers such as `1/3`.
-/
namespace Verif.Spec
open Verif

/-- A printed number, or a ratio of two unsigned integers. -/
inductive Coord
  | num (n : Numeral)
  | ratio (p q : Str)
  deriving DecidableEq, Repr

/-- The printed text. -/
def Coord.text : Coord → Str
  | .num n => n.text
  | .ratio p q => p ++ c!"/" :: q

/-- Well-formed; the denominator is not zero. -/
def Coord.Valid : Coord → Prop
  | .num n => n.Valid
  | .ratio p q => Numeral.AllDigits p ∧ p ≠ [] ∧ Numeral.AllDigits q ∧ Numeral.nat q ≠ 0

instance : (c : Coord) → Decidable c.Valid
  | .num n => inferInstanceAs (Decidable n.Valid)
  | .ratio p q => inferInstanceAs (Decidable (Numeral.AllDigits p ∧ p ≠ [] ∧ Numeral.AllDigits q ∧ Numeral.nat q ≠ 0))

/-- The number denoted. -/
def Coord.value : Coord → ℚ
  | .num n => n.value
  | .ratio p q => (Numeral.nat p : ℚ) / Numeral.nat q

/-- Does not round beyond the largest double. -/
def Coord.InRange (c : Coord) : Prop := |c.value| < (2 ^ 54 - 1) * 2 ^ 970

instance (c : Coord) : Decidable c.InRange := inferInstanceAs (Decidable (_ < _))

/-- The double for each of a list of coordinates. -/
def NearestAll (cs : List Coord) (xs : List F64) : Prop := List.Forall₂ (fun c x => F64.Nearest c.value x) cs xs

/-- A line consisting of numbers separated by whitespace. -/
inductive RowTail : List Coord → Str → Prop
  | last {c g} : c.Valid → Blank g → RowTail [c] (c.text ++ g)
  | cons {c g cs s} : c.Valid → Blank g → g ≠ [] → RowTail cs s → RowTail (c :: cs) (c.text ++ (g ++ s))

/-- A line consisting of numbers, possibly indented. -/
def NumRow (line : Str) (cs : List Coord) : Prop := ∃ g s, Blank g ∧ RowTail cs s ∧ line = g ++ s

/-- The line opens a block with the given name (in lower case). -/
def OpensNamed (line : Str) (name : Str) : Prop :=
  ∃ u g k g' w v, Uncommented cellComments line u ∧ u = g ++ k ++ g' ++ w ++ v ∧ Blank g ∧
    Str.lower k = py"%block " ∧ Blank g' ∧ (∀ c ∈ w, isSpace c = false) ∧ w ≠ [] ∧
    (∀ c, v.head? = some c → isSpace c = true) ∧ Str.lower w = name

end Verif.Spec

namespace Verif.Spec
open Verif

/-! ### Positions -/

/-- A species symbol: a capital letter and at most two small ones. -/
def Symbol (w : Str) : Prop := ∃ a t, w = a :: t ∧ isUpper a = true ∧ (∀ c ∈ t, isLower c = true) ∧ t.length ≤ 2

/-- The atom of a position line: its species, its position and possibly its spin. -/
structure AtomLine where
  spec : Str
  pos : Coord × Coord × Coord
  spin : Option Coord

/-- The coordinates of an atom. -/
def AtomLine.coords (a : AtomLine) : List Coord := [a.pos.1, a.pos.2.1, a.pos.2.2]

/-- `word` in any letter case starts at the beginning of `s`. -/
def StartsCi (word s : Str) : Prop := word <+: Str.lower s

/-- `word` in any letter case is somewhere in `s`. -/
def MentionsCi (word s : Str) : Prop := ∃ u v, s = u ++ v ∧ StartsCi word v

/-- The spin a position line gives: none if it mentions neither `spin` nor `magmom`; otherwise these are
followed by an equals sign or a colon, and a number. -/
inductive SpinOf : Str → Option Coord → Prop
  | plain {t} : ¬ MentionsCi (py"spin") t → ¬ MentionsCi (py"magmom") t → SpinOf t none
  | spin {a k g s g' t} {c : Coord} :
      (∀ u v, a = u ++ v → v ≠ [] → ¬ StartsCi (py"spin") (v ++ (k ++ (g ++ (s :: (g' ++ (c.text ++ t)))))) ∧
        ¬ StartsCi (py"magmom") (v ++ (k ++ (g ++ (s :: (g' ++ (c.text ++ t))))))) →
      (Str.lower k = py"spin" ∨ Str.lower k = py"magmom") → Blank g → (s = c!"=" ∨ s = c!":") → Blank g' →
      c.Valid → (∀ x, t.head? = some x → isSpace x = true) →
      SpinOf (a ++ (k ++ (g ++ (s :: (g' ++ (c.text ++ t)))))) (some c)

/-- A position line. -/
def PosLine (line : Str) (a : AtomLine) : Prop :=
  ∃ g g1 g2 g3 t, line = g ++ (a.spec ++ (g1 ++ (a.pos.1.text ++ (g2 ++ (a.pos.2.1.text ++ (g3 ++
      (a.pos.2.2.text ++ t))))))) ∧ Blank g ∧ Symbol a.spec ∧ Blank g1 ∧ g1 ≠ [] ∧ Blank g2 ∧ g2 ≠ [] ∧
    Blank g3 ∧ g3 ≠ [] ∧ (∀ c ∈ a.coords, c.Valid) ∧ (∀ c, t.head? = some c → isSpace c = true) ∧
    SpinOf line a.spin ∧ ¬ MentionsCi (py"mixture") line

/-- The number of the `i`-th atom within its species, counted from one. -/
def numberOf (atoms : List AtomLine) (i : Nat) (a : AtomLine) : Nat :=
  ((atoms.take (i + 1)).map (·.spec)).count a.spec

/-- What is returned for an atom: position, the units if the block has any, and the spin if given. -/
def atomInfo (units : Option Str) (x1 x2 x3 : F64) (spin : Option F64) : Dict Key PyVal :=
  (.str (py"pos"), .tuple [.float x1, .float x2, .float x3]) ::
    (units.toList.map fun u => (Key.str (py"units"), PyVal.str u)) ++
    (spin.toList.map fun s => (Key.str (py"spin"), PyVal.float s))

/-- The entry of an atom in the result. -/
def EntryOf (units : Option Str) (a : AtomLine) (n : Nat) (e : Key × PyVal) : Prop :=
  ∃ x1 x2 x3 s, e = (.tup [.str a.spec, .int n], .dict (atomInfo units x1 x2 x3 s)) ∧
    F64.Nearest a.pos.1.value x1 ∧ F64.Nearest a.pos.2.1.value x2 ∧ F64.Nearest a.pos.2.2.value x3 ∧
    Option.Rel (fun c x => F64.Nearest c.value x) a.spin s

end Verif.Spec

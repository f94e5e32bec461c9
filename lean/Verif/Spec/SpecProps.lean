import Verif.Spec.LineTables
/-
The tables of a `.castep` file that give one property of every species: masses, quadrupole moments and pseudopotentials.
-/
namespace Verif.Spec
open Verif

namespace SpecTable

/-- A word that begins with the symbol of an element: a capital letter, at most two small ones and then the end or something that is no
part of a word, as in `H`, `Fe` and `H:D`. -/
def Species (w : Str) : Prop := ∃ c low rest, w = c :: (low ++ rest) ∧ (65 ≤ c ∧ c ≤ 90) ∧ low.length ≤ 2 ∧ (∀ d ∈ low, 97 ≤ d ∧ d ≤ 122) ∧
  ∀ d, rest.head? = some d → isWord d = false

/-- A line with nothing for the table: blank, or headed by something else. -/
def Ignored (l : Str) : Prop := Blank l ∨ ∃ w ws, Fields l (w :: ws) ∧ ¬ Species w ∧ (w :: ws).getLast? ≠ some (py"on-the-fly")

/-- A line with a species and a number only. -/
def TwoRow (l : Str) (r : Str × Numeral) : Prop := Species r.1 ∧ Fields l [r.1, r.2.text]

/-- A line with a species, a number and perhaps more. -/
def LongRow (l : Str) (r : Str × Numeral) : Prop :=
  Species r.1 ∧ ∃ more, Fields l (r.1 :: r.2.text :: more) ∧ (r.1 :: r.2.text :: more).getLast? ≠ some (py"on-the-fly")

/-- A line with a species and the file or the definition of its pseudopotential. -/
def FileRow (l : Str) (r : Str × Str) : Prop :=
  (Species r.1 ∧ Fields l [r.1, r.2]) ∨ (r.2 = py"on-the-fly" ∧ ∃ more, Fields l (r.1 :: (more ++ [r.2])))

def KEY : Key := .str (py"species_properties")

/-- The species a run knows something about. -/
def Known (r : Dict Key PyVal) (k : Str) : Prop := ∃ d, r.get? KEY = some (.dict d) ∧ (Dict.get? d (.str k)).isSome

/-- A property of a species in a run. -/
def property (r : Dict Key PyVal) (k p : Str) : Option PyVal :=
  match r.get? KEY with
  | some (.dict d) =>
    match Dict.get? d (.str k) with
    | some (.dict e) => Dict.get? e (.str p)
    | _ => none
  | _ => none

/-- What the run holds about species is a dictionary of dictionaries. -/
def Sound (r : Dict Key PyVal) : Prop :=
  ∀ v, r.get? KEY = some v → ∃ d, v = .dict d ∧ ∀ k x, Dict.get? d k = some x → ∃ e, x = PyVal.dict e

/-- The last entry for a species. -/
def lastOf (es : List (Str × PyVal)) (k : Str) : Option PyVal := ((es.filter fun e => e.1 = k).getLast?).map Prod.snd

/-- `r'` is `r` with the property `p` of the species in `es`, and nothing else, replaced. -/
def Sets (p : Str) (es : List (Str × PyVal)) (r r' : Dict Key PyVal) : Prop :=
  (∀ key, key ≠ KEY → r'.get? key = r.get? key) ∧ Sound r' ∧ (∀ k, Known r' k ↔ Known r k ∨ k ∈ es.map Prod.fst) ∧
  ∀ k q, property r' k q = (if q = p then lastOf es k else none).or (property r k q)

end SpecTable

end Verif.Spec

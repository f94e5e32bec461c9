import Verif.Spec.AtomVec
import Verif.Spec.BlockFile
import Verif.Spec.CastepRows
import Verif.Spec.CastepMatrix
/-
`.tddft` files.
-/
namespace Verif.Spec
open Verif

/-- The line does not start with a number. -/
def NoNumber (l : Str) : Prop := ∀ g d r, l = g ++ d :: r → Blank g → ¬ (48 ≤ d ∧ d ≤ 57)

/-- A number printed with digits only. -/
def IsNatural (n : Numeral) : Prop := n.Valid ∧ n.IsInt ∧ n.sign = none

instance (n : Numeral) : Decidable (IsNatural n) := inferInstanceAs (Decidable (_ ∧ _))

/-! ### States as bands -/

/-- A transition of a state: occupied and unoccupied band, and the overlap. -/
structure TdTrans where
  state : Numeral
  occ : Numeral
  unocc : Numeral
  overlap : Numeral

namespace TdTrans

def Line (l : Str) (t : TdTrans) : Prop :=
  ∃ more, Fields l (t.state.text :: t.occ.text :: py"-->" :: t.unocc.text :: t.overlap.text :: more)

def Ok (t : TdTrans) : Prop := IsNatural t.state ∧ IsNatural t.occ ∧ IsNatural t.unocc ∧ t.overlap.Valid ∧ t.overlap.InRange

def entry (fl : Numeral → F64) (t : TdTrans) : Key × PyVal :=
  (.tup [.int (intOf t.occ), .int (intOf t.unocc)], .float (fl t.overlap))

end TdTrans

/-- The start of a line with a total. -/
def TotalStart (l : Str) : Prop := ∃ g r, Blank g ∧ l = g ++ (py"Total overlap for state" ++ r)

/-- A state: its transitions, and the total, which is the last number of its line. -/
structure TdState where
  trans : List TdTrans
  total : Numeral

namespace TdState

/-- Any other line. -/
def Note (l : Str) : Prop := NoNumber l ∧ ¬ TotalStart l

def Lines (ls : List Str) (s : TdState) : Prop :=
  ∃ body last ns, ls = body ++ [last] ∧ Interleaved Note TdTrans.Line body s.trans ∧
    TotalStart last ∧ HasNumbers last ns ∧ (∀ n ∈ ns, n.Valid) ∧ ns.getLast? = some s.total

def Ok (s : TdState) : Prop := (∀ t ∈ s.trans, t.Ok) ∧ s.total.Valid ∧ s.total.InRange

/-- The overlap of each pair of bands, and the total. -/
def value (fl : Numeral → F64) (s : TdState) : PyVal :=
  .dict (Dict.set (Dict.ofList (s.trans.map (TdTrans.entry fl))) (.str (py"total")) (.float (fl s.total)))

end TdState

/-! ### Excitations -/

/-- An excitation: energy, character, convergence and the complex components of the dipole. -/
structure TdRow where
  state : Numeral
  energy : Numeral
  character : Str
  converged : Bool
  dipole : List (Numeral × Numeral)

namespace TdRow

def parts (r : TdRow) : List Numeral := r.dipole.flatMap fun z => [z.1, z.2]

/-- The columns, and the rest of the line with the dipole. -/
def Line (l : Str) (r : TdRow) : Prop :=
  ∃ g0 g1 g2 g3 g4 d e, l = g0 ++ (r.state.text ++ (g1 ++ (r.energy.text ++ (g2 ++ (r.character ++ (g3 ++
      ((if r.converged then py"Yes" else py"No") ++ (g4 ++ (d ++ e))))))))) ∧
    Blank g0 ∧ (∀ g ∈ [g1, g2, g3, g4], Blank g ∧ g ≠ []) ∧ (10 : Nat) ∉ d ∧ (∀ c ∈ d.head?, isSpace c = false) ∧
    (e = [] ∨ e = [10]) ∧ d ≠ [] ∧ HasNumbers d r.parts

/-- The character is a word of letters, digits and underscores. -/
def Ok (r : TdRow) : Prop :=
  IsNatural r.state ∧ r.energy.Valid ∧ r.energy.InRange ∧ r.character ≠ [] ∧
  (∀ c ∈ r.character, (97 ≤ c ∧ c ≤ 122) ∨ (65 ≤ c ∧ c ≤ 90) ∨ (48 ≤ c ∧ c ≤ 57) ∨ c = 95) ∧ NumsOk r.parts

def value (rd fl : Numeral → F64) (r : TdRow) : PyVal :=
  .dict [(.str (py"energy"), .float (fl r.energy)), (.str (py"characterisation"), .str r.character),
    (.str (py"converged"), .bool r.converged), (.str (py"dipoles"), .list (r.dipole.map fun z => .complex (rd z.1) (rd z.2)))]

end TdRow

/-! ### The file -/

inductive TdPart
  | header (parts : List HeadPart)
  | overlaps (states : List TdState)
  | spectrum (rows : List TdRow)
  /-- a line between blocks -/
  | other

namespace TdPart

/-- The option as the program spells it. -/
def band : Str := py"Higest occupied band"

def statesB : Str := py"BEGIN Characterisation of states as Kohn-Sham bands"
def statesE : Str := py"END Characterisation of states as Kohn-Sham bands"
def specB : Str := py"BEGIN TDDFT Spectroscopic Data"
def specE : Str := py"END TDDFT Spectroscopic Data"

/-- The lines of a part, its first and last line among them. -/
def Lines : TdPart → List Str → Prop
  | .header parts, ls => (∃ inner, Enclosed (py"BEGIN header") (py"END header") ls inner) ∧
      ∃ ps, List.Forall₂ (HeadPart.Lines band) parts ps ∧ ls = ps.flatten
  | .overlaps states, ls => StartsNone [py"BEGIN header"] ls ∧ (∃ inner, Enclosed statesB statesE ls inner) ∧
      ∃ ss tail, ls = ss.flatten ++ tail ∧ List.Forall₂ TdState.Lines ss states ∧ ∀ l ∈ tail, TdState.Note l
  | .spectrum rows, ls => StartsNone [py"BEGIN header", statesB] ls ∧ (∃ inner, Enclosed specB specE ls inner) ∧
      Interleaved NoNumber TdRow.Line ls rows
  | .other, ls => StartsNone [py"BEGIN header", statesB, specB] ls ∧ ls.length = 1

def Ok : TdPart → Prop
  | .header parts => ∀ i ∈ parts, ∀ n ∈ i.nums, n.Valid ∧ n.InRange
  | .overlaps states => ∀ s ∈ states, s.Ok
  | .spectrum rows => ∀ r ∈ rows, r.Ok
  | .other => True

/-- What a part adds to the result. -/
def put (rd fl : Numeral → F64) (d : Dict Key PyVal) : TdPart → Dict Key PyVal
  | .header parts => merge d (atomHeader band rd parts)
  | .overlaps states => d.set (.str (py"overlap")) (.list (states.map (TdState.value fl)))
  | .spectrum rows => d.set (.str (py"spectroscopic_data")) (.list (rows.map (TdRow.value rd fl)))
  | .other => d

end TdPart

end Verif.Spec

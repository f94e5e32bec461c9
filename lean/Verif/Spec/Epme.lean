import Verif.Spec.Header
import Verif.Spec.CastepMatrix
/-
`.epme` files.
-/
namespace Verif.Spec
open Verif

/-- A matrix element: branch, initial and final band, initial and final energy, the two velocities, real and imaginary part. -/
structure EpRow where
  branch : Numeral
  bandI : Numeral
  bandF : Numeral
  energyI : Numeral
  energyF : Numeral
  velI : List Numeral
  velF : List Numeral
  re : Numeral
  im : Numeral

namespace EpRow

def ints (r : EpRow) : List Numeral := [r.branch, r.bandI, r.bandF]

def floats (r : EpRow) : List Numeral := r.energyI :: r.energyF :: (r.velI ++ r.velF ++ [r.re, r.im])

/-- The columns in the order of the file. -/
def words (r : EpRow) : List Str := (r.ints ++ r.floats).map Numeral.text

def Ok (r : EpRow) : Prop :=
  r.velI.length = 3 ∧ r.velF.length = 3 ∧ (∀ n ∈ r.ints, n.Valid ∧ n.IsInt) ∧ NumsOk r.floats

/-- What is reported for a row of which only the first `m` columns are printed. -/
def cut (rd : Numeral → F64) (kpts : List Numeral × List Numeral) (m : Nat) (r : EpRow) : PyVal :=
  let vec (ns : List Numeral) : PyVal := .tuple (ns.map fun n => .float (rd n))
  .dict [(.str (py"kpt_i"), vec kpts.1), (.str (py"kpt_f"), vec kpts.2), (.str (py"ph_index"), .int (intOf r.branch)),
    (.str (py"band_i"), .int (intOf r.bandI)), (.str (py"band_f"), .int (intOf r.bandF)),
    (.str (py"e_i"), .float (rd r.energyI)), (.str (py"e_f"), .float (rd r.energyF)),
    (.str (py"velocity"), .tuple [vec (r.velI.take (m - 5)), vec (r.velF.take (m - 8))]),
    (.str (py"e_p_matrix"), .complex (if 12 ≤ m then rd r.re else ⟨0⟩) (if 13 ≤ m then rd r.im else ⟨0⟩))]

/-- What is reported for a row. -/
def value (rd : Numeral → F64) (kpts : List Numeral × List Numeral) (r : EpRow) : PyVal :=
  let vec (ns : List Numeral) : PyVal := .tuple (ns.map fun n => .float (rd n))
  .dict [(.str (py"kpt_i"), vec kpts.1), (.str (py"kpt_f"), vec kpts.2), (.str (py"ph_index"), .int (intOf r.branch)),
    (.str (py"band_i"), .int (intOf r.bandI)), (.str (py"band_f"), .int (intOf r.bandF)),
    (.str (py"e_i"), .float (rd r.energyI)), (.str (py"e_f"), .float (rd r.energyF)),
    (.str (py"velocity"), .tuple [vec r.velI, vec r.velF]), (.str (py"e_p_matrix"), .complex (rd r.re) (rd r.im))]

end EpRow

/-- A pair of k-points with its matrix elements. -/
structure EpGroup where
  kpts : List Numeral × List Numeral
  rows : List EpRow

namespace EpGroup

/-- The line naming the pair, a line with the names of the columns, and the rows. -/
def Lines (ls : List Str) (g : EpGroup) : Prop :=
  ∃ first title body, ls = first :: title :: body ∧ Str.startsWith first (py"Electron-Phonon coupling") = true ∧
    HasNumbers first (g.kpts.1 ++ g.kpts.2) ∧ List.Forall₂ (fun l r => ∃ more, Fields l (r.words ++ more)) body g.rows

def Ok (g : EpGroup) : Prop :=
  g.kpts.1.length = 3 ∧ NumsOk (g.kpts.1 ++ g.kpts.2) ∧ ∀ r ∈ g.rows, r.Ok

end EpGroup

structure EpFile where
  version : Numeral
  volume : Numeral
  fermi : Numeral
  bands : Numeral
  branches : Numeral
  groups : List EpGroup

namespace EpFile

/-- A line of words, the last of which is the number. -/
def Ends (l : Str) (n : Numeral) : Prop := ∃ w ws, Fields l (w :: ws ++ [n.text])

def Lines (f : EpFile) (lines : List Str) : Prop :=
  ∃ title v units vol fe nb nph, ∃ body : List (List Str), lines = title :: v :: units :: vol :: fe :: nb :: nph :: body.flatten ∧
    Ends v f.version ∧ Ends vol f.volume ∧ Ends fe f.fermi ∧ Ends nb f.bands ∧ Ends nph f.branches ∧
    List.Forall₂ EpGroup.Lines body f.groups

def Ok (f : EpFile) : Prop :=
  (∀ n ∈ [f.version, f.bands, f.branches], n.Valid ∧ n.IsInt) ∧ NumsOk [f.volume, f.fermi] ∧ ∀ g ∈ f.groups, g.Ok

/-- One report per matrix element, with the pair of k-points above it. -/
def data (rd : Numeral → F64) (f : EpFile) : List PyVal := f.groups.flatMap fun g => g.rows.map (EpRow.value rd g.kpts)

/-- What is reported, given the list of matrix elements. -/
def report (fl : Numeral → F64) (f : EpFile) (data : List PyVal) : PyVal :=
  .dict [(.str (py"version"), .int (intOf f.version)), (.str (py"volume"), .float (fl f.volume)),
    (.str (py"fermi_energy"), .float (fl f.fermi)), (.str (py"n_bands"), .int (intOf f.bands)),
    (.str (py"n_branches"), .int (intOf f.branches)), (.str (py"data"), .list data)]

end EpFile

end Verif.Spec

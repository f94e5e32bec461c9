import Verif.Py.Value
/-
The kinds of file a calculation may write, and what it means for a list to be sorted.
-/
namespace Verif.Spec
open Verif

/-- What follows the seedname in the names of the files named after it. -/
def seedKinds : List Str :=
  [py".castep", py".check", py".castep_bin", py".bands", py"_tddft.bands", py"_*.orbit_fmt", py".bib", py".cst_esp",
   py".pot_fmt", py".oep_fmt", py".den_fmt", py".chdiff", py".chdiff_fmt", py".elf", py".elf_fmt", py".eps_format",
   py".orbitals", py"-out.cif", py"-out.cell", py".efield", py".modos_state*", py".scf_zdos", py".altden",
   py".*.profile", py".hybrid-md.xyz", py".B_xc.pot_fmt", py".xrd_sf", py".spectral_zdos", py"_*_.pot", py".fd",
   py".pdos_weights", py".elastic", py".dbands_dstrain", py".vacuum_den", py".epme", py"-*-*-*.ep_pot", py".geom",
   py".pes", py".*.spec", py".nc_spinvec", py".elnes_bin", py".ome_bin", py".pdos_bin", py".dome_bin",
   py"_tddft.elnes_bin", py"_tddft.ome_bin", py"_tddft.pdos_bin", py"_tddft.dome_bin", py".md", py".hug", py".*.wfm",
   py".*.drhom", py".*.wf2m", py".*.drho2m", py".magres", py".ts", py".phonon", py".phonon_dos", py".tddft",
   py".td_den"]

/-- Files with fixed names. -/
def fixedFiles : List Str := [py"current.dat", py"gsden.cube", py"den_dump*.dat"]

/-- What follows `<species>_EXT_<theory>_OTF` in the names of pseudopotential files. -/
def potKinds : List Str := [py".gamma", py".pwave", py".beta", py".econv", py".usp", py".uspso", py".recpot"]

/-- The extension of a file name: what follows its last dot. -/
def ExtOf (f e : Str) : Prop := ∃ u, f = u ++ c!"." :: e ∧ c!"." ∉ e

/-- The elements of a dictionary value. -/
def itemsOf : Option PyVal → List (Key × PyVal)
  | some (.dict d) => d
  | _ => []

/-- The value at a path of text keys in nested dictionaries. -/
def atPath : List Str → PyVal → Option PyVal
  | [], v => some v
  | k :: ks, .dict d => ((d.find? fun e => e.1 = .str k).map (·.2)).bind (atPath ks)
  | _ :: _, _ => none

/-- The first of the two parts of a key. -/
def firstPart : Key → Option Key
  | .tup [a, _] => some a
  | .str [a, _] => some (.str [a])
  | _ => none

/-- A predicted file is named after the seedname, a species or a pair of species, has a fixed name, or is the
file for Born charges named by the user. -/
inductive Predicted (param cell : Dict Key PyVal) (seed : Str) : Str → Prop
  | seed {s} : s ∈ seedKinds → Predicted param cell seed (seed ++ s)
  | farm {n : Int} {i : Nat} : atPath [py"num_farms"] (.dict param) = some (.int n) → (i : Int) < n →
      Predicted param cell seed (seed ++ py"_farm" ++ List.replicate (3 - (natStr i).length) (c!"0") ++ natStr i ++ py".castep")
  | pair {k k' v v' a b} : (k, v) ∈ itemsOf (cell.get? (.str (py"positions_frac"))) → firstPart k = some a →
      (k', v') ∈ itemsOf (cell.get? (.str (py"positions_frac"))) → firstPart k' = some b →
      Predicted param cell seed (seed ++ py"_" ++ a.toStr ++ py"_" ++ b.toStr ++ py".pot")
  | pot {sp v t s} : (sp, v) ∈ itemsOf (cell.get? (.str (py"species_pot"))) → s ∈ potKinds →
      Predicted param cell seed (sp.toStr ++ py"_EXT_" ++ t ++ py"_OTF" ++ s)
  | fixed {f} : f ∈ fixedFiles → Predicted param cell seed f
  | born {f} : atPath [py"devel_code", py"phonon", py"write_external_born"] (.dict param) = some (.str f) →
      Predicted param cell seed f

end Verif.Spec

namespace Verif.Spec
open Verif

/-- The switches documented as overridden by `write_none`. -/
def noneFlags : List Str :=
  [py"write_bib", py"write_checkpoint", py"write_cst_esp", py"write_bands", py"write_geom", py"write_md"]

/-- The extensions of the files they control. -/
def noneExts : List Str :=
  [py"bib", py"check", py"castep_bin", py"cst_esp", py"bands", py"geom", py"md"]

end Verif.Spec

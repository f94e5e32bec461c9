import Verif.Py.Value
/-
Vocabulary for the command line: file formats, path texts, dumpers.
-/
namespace Verif.Spec
open Verif

/-- The formats read as text: extension and documented parser. -/
def textFormats : List (Str × Str) :=
  [(py"castep", py"parse_castep_file"), (py"cell", py"parse_cell_file"), (py"param", py"parse_param_file"),
   (py"geom", py"parse_md_geom_file"), (py"md", py"parse_md_geom_file"), (py"bands", py"parse_bands_file"),
   (py"hug", py"parse_hug_file"), (py"phonon_dos", py"parse_phonon_dos_file"), (py"efield", py"parse_efield_file"),
   (py"xrd_sf", py"parse_xrd_sf_file"), (py"elf_fmt", py"parse_elf_fmt_file"),
   (py"chdiff_fmt", py"parse_chdiff_fmt_file"), (py"pot_fmt", py"parse_pot_fmt_file"),
   (py"den_fmt", py"parse_den_fmt_file"), (py"elastic", py"parse_elastic_file"), (py"ts", py"parse_ts_file"),
   (py"magres", py"parse_magres_file"), (py"tddft", py"parse_tddft_file"), (py"err", py"parse_err_file"),
   (py"phonon", py"parse_phonon_file"), (py"epme", py"parse_epme_file")]

/-- The binary formats. -/
def binFormats : List (Str × Str) :=
  [(py"cst_esp", py"parse_cst_esp_file"), (py"epme_bin", py"parse_epme_bin_file")]

/-- All extensions. -/
def knownExts : List Str := (textFormats ++ binFormats).map (·.1)

/-- `s` is the text of a path: a root, and parts separated by single slashes, none of them empty or `.`. -/
def PathText (root : Str) (parts : List Str) (s : Str) : Prop :=
  (root = [] ∨ root = py"/") ∧ parts ≠ [] ∧ (∀ p ∈ parts, p ≠ [] ∧ c!"/" ∉ p ∧ p ≠ py".") ∧
  s = root ++ Str.join (py"/") parts

/-- A file name of the form `<stem>.<ext>`. -/
def NameExt (n stem ext : Str) : Prop := n = stem ++ py"." ++ ext ∧ stem ≠ [] ∧ ext ≠ [] ∧ c!"." ∉ ext

mutual
/-- No tuple among the values, at any depth. -/
def NoTuple : PyVal → Prop
  | .tuple _ => False
  | .list l => NoTupleL l
  | .dict d => NoTupleD d
  | _ => True
def NoTupleL : List PyVal → Prop
  | [] => True
  | v :: l => NoTuple v ∧ NoTupleL l
def NoTupleD : List (Key × PyVal) → Prop
  | [] => True
  | (_, v) :: d => NoTuple v ∧ NoTupleD d
end

end Verif.Spec

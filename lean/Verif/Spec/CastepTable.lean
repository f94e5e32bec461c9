import Verif.Model.Castep
import Verif.Spec.Text
/-
The sections of a `.castep` file: which filters ask for them and which entries of the result they make up.  Only the
names of the filters and of the normalisation of printed names come from the model.
-/
namespace Verif.Spec
open Verif Verif.Castep

/-- Entries named by the file itself. -/
inductive Printed
  /-- None. -/
  | no
  /-- The names before `=`. -/
  | assigned
  /-- The names before `:`. -/
  | labelled
  /-- Any. -/
  | any
  deriving DecidableEq

/-- A section: the filters it depends on, the entries it writes, a text that the line that opens it contains (in lower
case if so marked), whether it reads more lines when it is wanted, and whether it moves entries. -/
structure Entry where
  name : Str
  filters : List Filters := []
  keys : List Str := []
  printed : Printed := .no
  text : Option (Str × Bool) := none
  reads : Bool := false
  moves : Bool := false

/-- The line names an entry. -/
def Names (p : Printed) (k : Key) (l : Str) : Prop :=
  match p with
  | .no => False
  | .assigned => ∃ n v, l = n ++ py"=" ++ v ∧ k = .str (normalise_key n)
  | .labelled => ∃ u n v, l = u ++ n ++ py":" ++ v ∧ k = .str (normalise_key (Str.strip n))
  | .any => True

/-- The line may open the section. -/
def Opens (e : Entry) (l : Str) : Prop :=
  match e.text with
  | none => True
  | some (w, ci) => Occurs w (if ci then Str.lower l else l)

/-- The sections in the order in which a line is tried. -/
def table : List Entry := [
  { name := py"build info", filters := [Filters.SYS_INFO], keys := [py"build_info"] },
  { name := py"run started", filters := [Filters.SYS_INFO], keys := [py"time_started"] },
  { name := py"finalisation", filters := [Filters.SYS_INFO], printed := .assigned },
  { name := py"parallel efficiency", filters := [Filters.SYS_INFO], keys := [py"parallel_efficiency"] },
  { name := py"continuation", filters := [Filters.SYS_INFO], keys := [py"continuation"] },
  { name := py"warning box", filters := [Filters.SYS_INFO], keys := [py"warning"] },
  { name := py"warning", filters := [Filters.SYS_INFO], keys := [py"warning"],
    text := some (py"warning", true), reads := true },
  { name := py"memory estimate", filters := [Filters.SYS_INFO], keys := [py"memory_estimate"] },
  { name := py"title", filters := [Filters.PARAMETERS], keys := [py"title"],
    text := some (py"Title", false), reads := true },
  { name := py"parameters", filters := [Filters.PARAMETERS], keys := [py"options"] },
  { name := py"quantisation axis", filters := [Filters.SPECIES_PROPS], keys := [py"quantisation_axis"] },
  { name := py"pseudo-atomic energy", filters := [Filters.SPECIES_PROPS], keys := [py"species_properties"] },
  { name := py"mass", filters := [Filters.SPECIES_PROPS], keys := [py"species_properties"] },
  { name := py"quadrupole moment", filters := [Filters.SPECIES_PROPS], keys := [py"species_properties"] },
  { name := py"pseudopotentials", filters := [Filters.SPECIES_PROPS, Filters.PSPOT],
    keys := [py"species_properties"] },
  { name := py"pseudopotential report", filters := [Filters.PSPOT], keys := [py"pspot_detail"] },
  { name := py"pseudopotential debug", filters := [Filters.PSPOT], keys := [py"pspot_debug"] },
  { name := py"pair params", filters := [Filters.PARAMETERS], keys := [py"pair_params"] },
  { name := py"dftd", filters := [Filters.PARAMETERS], keys := [py"dftd"] },
  { name := py"scf", filters := [Filters.SCF], keys := [py"scf"] },
  { name := py"wvfn line min", filters := [Filters.SCF], keys := [py"wvfn_line_min"] },
  { name := py"occupancies", filters := [Filters.SCF], keys := [py"occupancies"] },
  { name := py"cut-off energies", filters := [Filters.SCF], printed := .any,
    text := some (py"cut-off energies", false), reads := true },
  { name := py"final energy", keys := [py"energies"] },
  { name := py"corrected energy", keys := [py"energies"] },
  { name := py"0K energy", keys := [py"energies"] },
  { name := py"sedc correction", keys := [py"energies"] },
  { name := py"dispersion corrected", keys := [py"energies"] },
  { name := py"free energy", keys := [py"energies"] },
  { name := py"solvation energy", filters := [Filters.SOLVATION], keys := [py"energies"] },
  { name := py"spin density", filters := [Filters.SCF, Filters.SPIN], keys := [py"spin", py"modspin"] },
  { name := py"initial cell", filters := [Filters.CELL], keys := [py"initial_cell"] },
  { name := py"symmetry", filters := [Filters.SYMMETRIES], keys := [py"symmetries", py"constraints"] },
  { name := py"reactant or product", filters := [Filters.TSS, Filters.POSITION], keys := [py"reactant", py"product"] },
  { name := py"labelled positions", filters := [Filters.POSITION], keys := [py"labels", py"initial_positions"] },
  { name := py"mixture positions", filters := [Filters.POSITION], keys := [py"initial_positions"] },
  { name := py"initial positions", filters := [Filters.POSITION], keys := [py"initial_positions"] },
  { name := py"supercell", keys := [py"supercell"] },
  { name := py"initial velocities", filters := [Filters.POSITION], keys := [py"initial_velocities"] },
  { name := py"initial spins", filters := [Filters.PARAMETERS], keys := [py"initial_spins"] },
  { name := py"target stress", filters := [Filters.PARAMETERS], keys := [py"target_stress"] },
  { name := py"dedlne", keys := [py"dedlne"] },
  { name := py"k-points", filters := [Filters.PARAMETERS], keys := [py"k-points"] },
  { name := py"k-points list", filters := [Filters.PARAMETERS], keys := [py"k-points"] },
  { name := py"applied field", filters := [Filters.PARAMETERS], keys := [py"applied_field"],
    text := some (py"Applied Electric Field", false), reads := true },
  { name := py"forces", filters := [Filters.FORCE], keys := [py"forces"] },
  { name := py"force removal", filters := [Filters.FORCE], keys := [py"forces"] },
  { name := py"stresses", filters := [Filters.STRESS], keys := [py"stresses"] },
  { name := py"phonons", filters := [Filters.PHONON], keys := [py"phonons"] },
  { name := py"phonon symmetry", filters := [Filters.PHONON], keys := [py"phonon_symmetry_analysis"] },
  { name := py"dynamical matrix", filters := [Filters.PHONON], keys := [py"dynamical_matrix"] },
  { name := py"raman", filters := [Filters.PHONON], keys := [py"raman"] },
  { name := py"autosolvation", filters := [Filters.SOLVATION], keys := [py"autosolvation"] },
  { name := py"permittivity", filters := [Filters.OPTICS], keys := [py"optical_permittivity", py"dc_permittivity"] },
  { name := py"polarisability", filters := [Filters.OPTICS], keys := [py"optical_polarisability",
    py"static_polarisability"] },
  { name := py"nlo", filters := [Filters.OPTICS], keys := [py"nlo"] },
  { name := py"atomic displacements", filters := [Filters.THERMODYNAMICS], keys := [py"atomic_displacements"] },
  { name := py"thermodynamics", filters := [Filters.THERMODYNAMICS], keys := [py"thermodynamics"] },
  { name := py"mulliken", filters := [Filters.POPN_ANALYSIS], keys := [py"mulliken_popn"] },
  { name := py"born", filters := [Filters.POPN_ANALYSIS], keys := [py"born"] },
  { name := py"orbital populations", filters := [Filters.POPN_ANALYSIS], keys := [py"orbital_popn"] },
  { name := py"bonds", filters := [Filters.POPN_ANALYSIS], keys := [py"bonds"] },
  { name := py"hirshfeld", filters := [Filters.POPN_ANALYSIS], keys := [py"hirshfeld"] },
  { name := py"elf", filters := [Filters.ELF], keys := [py"elf"] },
  { name := py"md", filters := [Filters.MD], keys := [py"md", py"memory_estimate"] },
  { name := py"md data", filters := [Filters.MD, Filters.MD_SUMMARY], printed := .labelled },
  { name := py"final configuration", filters := [Filters.GEOM_OPT, Filters.FINAL_CONFIG], keys := [py"geom_opt"] },
  { name := py"geometry iteration", filters := [Filters.GEOM_OPT], keys := [py"geom_opt", py"enthalpy",
    py"initial_cell", py"initial_positions", py"scf", py"forces", py"stresses", py"minimisation"],
    text := some (py"Starting ", false), moves := true },
  { name := py"enthalpy", filters := [Filters.GEOM_OPT], keys := [py"geom_opt", py"enthalpy"] },
  { name := py"trial guess", keys := [py"geom_opt"] },
  { name := py"final item", filters := [Filters.GEOM_OPT], keys := [py"geom_opt"] },
  { name := py"geometry table", filters := [Filters.GEOM_OPT], keys := [py"minimisation"] },
  { name := py"internal constraints", filters := [Filters.GEOM_OPT], keys := [py"internal_constraints"] },
  { name := py"delocalised table", filters := [Filters.GEOM_OPT], keys := [py"delocalised_internal"] },
  { name := py"active space", filters := [Filters.GEOM_OPT], keys := [py"delocalised_internal"] },
  { name := py"tddft", filters := [Filters.TDDFT], keys := [py"tddft"] },
  { name := py"band structure", filters := [Filters.BS], keys := [py"bs"] },
  { name := py"dipole", filters := [Filters.DIPOLE], keys := [py"molecular_dipole"] },
  { name := py"shielding", filters := [Filters.CHEM_SHIELDING], keys := [py"magres"] },
  { name := py"shielding and gradient", filters := [Filters.CHEM_SHIELDING], keys := [py"magres"] },
  { name := py"field gradient", filters := [Filters.CHEM_SHIELDING], keys := [py"magres"] },
  { name := py"j-coupling", filters := [Filters.CHEM_SHIELDING], keys := [py"magres"] },
  { name := py"hyperfine", filters := [Filters.CHEM_SHIELDING], keys := [py"magres"] },
  { name := py"elastic constants", filters := [Filters.ELASTIC], keys := [py"elastic"] },
  { name := py"compliance", filters := [Filters.ELASTIC], keys := [py"elastic"] },
  { name := py"contribution", filters := [Filters.ELASTIC], keys := [py"elastic"] },
  { name := py"elastic properties", filters := [Filters.ELASTIC], keys := [py"elastic"] },
  { name := py"berry phase verbose", filters := [Filters.POLARISATION], keys := [py"berry_phase"] },
  { name := py"berry phase", filters := [Filters.POLARISATION], keys := [py"berry_phase"] },
  { name := py"delta scf", filters := [Filters.DELTA_SCF], keys := [py"delta_scf"] },
  { name := py"external files", filters := [Filters.TEST_EXTRA_DATA], keys := [py"external_files"] }]

/-- The two sets of filters agree about those of the section. -/
def Agree (F G : Filters) (e : Entry) : Prop := ∀ x ∈ e.filters, (Filters.has x F = Filters.has x G)

/-- Filters ask for the section. -/
def Asked (F : Filters) (e : Entry) : Prop := e.filters = [] ∨ ∃ x ∈ e.filters, Filters.has x F = true

/-- The entries that a geometry iteration moves or writes. -/
def geomKeys : List Str :=
  [py"geom_opt", py"enthalpy", py"initial_cell", py"initial_positions", py"scf", py"forces", py"stresses",
   py"minimisation"]

/-- The entries of a run under the keys of `K`. -/
def restrict (K : Key → Bool) (r : Dict Key PyVal) : Dict Key PyVal := r.filter fun kv => K kv.1

/-- The runs restricted to the keys of `K`, without those of which nothing is left. -/
def clean (K : Key → Bool) (runs : List (Dict Key PyVal)) : List (Dict Key PyVal) :=
  (runs.map (restrict K)).filter fun r => !r.isEmpty

/-- What is asked of a section for two sets of filters to give the same entries under the keys `K`: no line opens it, or
the filters agree about it, or its entries are others. -/
inductive Apart (K : Key → Bool) (F G : Filters) (lines : List Str) (e : Entry) : Prop
  | absent (h : ∀ l ∈ lines, ¬ Opens e l)
  | agree (h : Agree F G e) (hm : e.moves = true → (∀ n ∈ geomKeys, K (.str n) = true) ∨ ∀ n ∈ geomKeys, K (.str n) = false)
  | other (hr : e.reads = false) (hk : ∀ n ∈ e.keys, K (.str n) = false)
      (hn : ∀ k, ∀ l ∈ lines, Names e.printed k l → K k = false)

end Verif.Spec

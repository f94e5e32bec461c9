import Verif.Spec.BandTable
import Verif.Spec.UnitCell
import Verif.Spec.LineTables
import Verif.Spec.Scf
import Verif.Spec.CastepMatrix
import Verif.Spec.AtomTables
import Verif.Spec.GeomTable
import Verif.Model.Castep
/-
A `.castep` file as a whole: lines that start nothing, energies, sections.
-/
namespace Verif.Spec
open Verif

/-- What is recognised in a `.castep` file: name, whether case is ignored, and phrases one of which is in the first line.  In the
order in which the parser looks for them. -/
def TRIGGERS : List (Str × Bool × List Str) := [
  (py"build info", false, [py"Compiled for"]),
  (py"run started", false, [py"Run started"]),
  (py"finalisation", false, [py"Initialisation time"]),
  (py"parallel efficiency", false, [py"Overall parallel efficiency rating"]),
  (py"continuation", false, [py"Reading continuation data"]),
  (py"warning box", false, [py"?"]),
  (py"warning", true, [py"warning"]),
  (py"memory estimate", false, [py"MEMORY AND SCRATCH"]),
  (py"title", false, [py"Title"]),
  (py"parameters", false, [py" Parameters"]),
  (py"quantisation axis", false, [py"Quantisation axis"]),
  (py"pseudo-atomic energy", false, [py"Pseudo atomic calculation performed for "]),
  (py"mass", false, [py"Mass of species in AMU"]),
  (py"quadrupole moment", false, [py"Electric Quadrupole Moment"]),
  (py"pseudopotentials", false, [py"Files used for pseudopotentials"]),
  (py"pseudopotential report", false, [py"Pseudopotential Report"]),
  (py"pseudopotential debug", false, [py" eigenvalue nl "]),
  (py"pair params", false, [py"PairParams"]),
  (py"dftd", false, [py"DFT-D parameters"]),
  (py"scf", false, [py"SCF loop"]),
  (py"wvfn line min", false, [py"WAVEFUNCTION LINE MINIMISATION"]),
  (py"occupancies", false, [py"Occupancy"]),
  (py"cut-off energies", false, [py"cut-off energies"]),
  (py"final energy", false, [py"Final energy"]),
  (py"corrected energy", false, [py"Total energy corrected for finite basis set"]),
  (py"0K energy", false, [py"0K energy (E-0.5TS)"]),
  (py"sedc correction", false, [py"(SEDC) Total Energy"]),
  (py"dispersion corrected", false, [py"Dispersion corrected final energy"]),
  (py"free energy", false, [py"Final free energy (E-TS)"]),
  (py"solvation energy", false, [py" Free energy of solvation"]),
  (py"spin density", false, [py"Integrated "]),
  (py"initial cell", false, [py"Unit Cell"]),
  (py"symmetry", false, [py"Symmetry and Constraints"]),
  (py"reactant or product", false, [py"Reactant", py"Product"]),
  (py"labelled positions", false, [py"User-defined"]),
  (py"mixture positions", false, [py"Mixture"]),
  (py"initial positions", false, [py"Fractional coordinates of atoms"]),
  (py"supercell", false, [py"Supercell generated"]),
  (py"initial velocities", false, [py"User Supplied Ionic Velocities"]),
  (py"initial spins", false, [py"Initial magnetic"]),
  (py"target stress", false, [py"External pressure/stress"]),
  (py"dedlne", false, [py"finite basis dEtot/dlog(Ecut) ="]),
  (py"k-points", false, [py"k-Points For BZ Sampling"]),
  (py"k-points list", false, [py"Fractional coordinates"]),
  (py"applied field", false, [py"Applied Electric Field"]),
  (py"forces", true, [py"forces"]),
  (py"force removal", false, [py"firstd_calculate: removing force on centre of mass"]),
  (py"stresses", true, [py"stress tensor"]),
  (py"phonons", false, [py"Vibrational Frequencies"]),
  (py"phonon symmetry", false, [py"Phonon Symmetry Analysis"]),
  (py"dynamical matrix", false, [py"Dynamical matrix"]),
  (py"raman", false, [py"Raman Susceptibility Tensors"]),
  (py"autosolvation", false, [py"AUTOSOLVATION CALCULATION RESULTS"]),
  (py"permittivity", false, [py"Optical Permittivity"]),
  (py"polarisability", false, [py"Polarisabilit"]),
  (py"nlo", false, [py"Nonlinear Optical Susceptibility"]),
  (py"atomic displacements", false, [py"Atomic Displacement Parameters (A**2)"]),
  (py"thermodynamics", false, [py"Thermodynamics"]),
  (py"mulliken", false, [py"Atomic Populations (Mulliken)"]),
  (py"born", false, [py"Born Effective Charges"]),
  (py"orbital populations", false, [py"Orbital Populations"]),
  (py"bonds", false, [py"Bond"]),
  (py"hirshfeld", false, [py"Hirshfeld Analysis"]),
  (py"elf", false, [py"ELF grid sample"]),
  (py"md", false, [py"Starting MD"]),
  (py"md data", false, [py"MD Data:"]),
  (py"final configuration", false, [py"Final Configuration"]),
  (py"geometry iteration", false, [py"Starting "]),
  (py"enthalpy", false, [py" finished iteration"]),
  (py"trial guess", false, [py"trial guess (lambda="]),
  (py"final item", true, [py"final "]),
  (py"geometry table", false, [py"<--"]),
  (py"internal constraints", false, [py"INTERNAL CONSTRAINTS"]),
  (py"delocalised table", false, [py"Message: Generating deloc"]),
  (py"active space", false, [py"The size of active space"]),
  (py"tddft", false, [py"TDDFT excitation energies"]),
  (py"band structure", false, [py"B A N D", py"Band Structure Calculation"]),
  (py"dipole", false, [py"D I P O L E   O F   M O L E C U L E   I N   S U P E R C E L L"]),
  (py"shielding", false, [py"Chemical Shielding Tensor"]),
  (py"shielding and gradient", false, [py"Chemical Shielding and Electric Field Gradient Tensors"]),
  (py"field gradient", false, [py"Electric Field Gradient Tensor"]),
  (py"j-coupling", false, [py"sotropic J-coupling"]),
  (py"hyperfine", false, [py"Hyperfine Tensor"]),
  (py"elastic constants", false, [py"Elastic Constants Tensor (GPa)"]),
  (py"compliance", false, [py"Compliance Matrix (GPa^-1)"]),
  (py"contribution", false, [py"Contribution ::"]),
  (py"elastic properties", false, [py"Elastic Properties"]),
  (py"berry phase verbose", false, [py"Ionic contribution to polarisation"]),
  (py"berry phase", false, [py"Polarisation"]),
  (py"delta scf", false, [py"Calculating MODOS weights"]),
  (py"external files", false, [py"<BEGIN "])]

/-- The entries with titles between stars. -/
def BOXED : List Str := [py"parameters", py"forces", py"stresses"]

/-- The first character that is not blank is a star. -/
def Starred (l : Str) : Prop := ∃ g s, l = g ++ c!"*" :: s ∧ Blank g

/-- The line has none of the phrases of an entry, or it is not the title between stars that it would have to be. -/
def Without (l : Str) (t : Str × Bool × List Str) : Prop :=
  (∀ w ∈ t.2.2, ¬ Occurs w (if t.2.1 then Str.lower l else l)) ∨ (t.1 ∈ BOXED ∧ ¬ Starred l)

/-- The line has none of the phrases the parser looks for. -/
def Quiet (l : Str) : Prop := ∀ t ∈ TRIGGERS, Without l t

/-- The line has none of the phrases the parser looks for before those of the entry named. -/
def Reaches (name l : Str) : Prop := ∀ t ∈ TRIGGERS.takeWhile (·.1 ≠ name), Without l t

/-! ### Sections -/

/-- A character a number of times, between blanks. -/
def Ruled (c : Nat) (l : Str) : Prop := ∃ g s g', l = g ++ (s ++ g') ∧ Blank g ∧ Blank g' ∧ s ≠ [] ∧ ∀ d ∈ s, d = c

/-- A ruler: blanks, then the character a number of times, and the end of the line. -/
def Ruler (c : Nat) (l : Str) : Prop := ∃ g s e, l = g ++ (s ++ e) ∧ Blank g ∧ s ≠ [] ∧ (∀ d ∈ s, d = c) ∧ (e = [] ∨ e = [10])

/-- Lines up to the `n`-th that stops them. -/
inductive Cut (stop pass : Str → Prop) : Nat → List Str → Prop
  | last {l} : stop l → Cut stop pass 1 [l]
  | rule {l n ls} : stop l → Cut stop pass n ls → Cut stop pass (n + 1) (l :: ls)
  | other {l n ls} : pass l → Cut stop pass n ls → Cut stop pass n (l :: ls)

/-- Lines of which `n` are rulers, the last one among them. -/
abbrev Framed (c : Nat) : Nat → List Str → Prop := Cut (Ruler c) fun l => ¬ Ruled c l

/-- Lines of which `n` are blank, the last one among them. -/
abbrev Spaced : Nat → List Str → Prop := Cut Blank fun l => ¬ Blank l

/-- The line below the table of the electronic minimisation. -/
def ScfRuler (l : Str) : Prop := ∃ s t, l = s ++ (py" <-- SCF" ++ t) ∧ s ≠ [] ∧ ∀ c ∈ s, c = c!"-"

/-- A line of which the text is this. -/
def Headed (w t : Str) : Prop := ∃ g g', t = g ++ (w ++ g') ∧ Blank g ∧ Blank g'

/-- The title of a block of stresses: between stars, a name and `Stress Tensor`. -/
def StressTitle (l name : Str) : Prop :=
  ∃ g1 s1 g2 f g3 s2 g4, l = g1 ++ (s1 ++ (g2 ++ (name ++ (f ++ (g3 ++ (s2 ++ g4)))))) ∧
    (∀ g ∈ [g1, g2, g3, g4], Blank g) ∧ (∀ s ∈ [s1, s2], s ≠ [] ∧ ∀ c ∈ s, c = c!"*") ∧
    Str.lower f = py"stress tensor" ∧ (∀ c ∈ name, isAlpha c = true ∨ c = c!" ") ∧ name.head? ≠ some (c!" ")

/-- The title of a table of bonds. -/
def BondTitle (l : Str) : Prop :=
  ∃ a g1 m g3 b, l = a ++ (py"Bond" ++ (g1 ++ (py"Population" ++ (m ++ (g3 ++ (py"Length" ++ b)))))) ∧ Blank g1 ∧ g1 ≠ [] ∧ Blank g3 ∧ g3 ≠ [] ∧
    (m = [] ∨ ∃ g2, m = g2 ++ py"Spin" ∧ Blank g2 ∧ g2 ≠ [])

/-- The energies of a run. -/
inductive EnergyKind
  | final | corrected | zeroK | sedc | dispersion | free
  deriving DecidableEq

namespace EnergyKind

/-- The entry of `TRIGGERS`. -/
def name : EnergyKind → Str
  | final => py"final energy"
  | corrected => py"corrected energy"
  | zeroK => py"0K energy"
  | sedc => py"sedc correction"
  | dispersion => py"dispersion corrected"
  | free => py"free energy"

/-- The key in the result. -/
def key : EnergyKind → Str
  | final => py"final_energy"
  | corrected => py"final_basis_set_corrected"
  | zeroK => py"est_0K"
  | sedc => py"sedc_correction"
  | dispersion => py"disperson_corrected"
  | free => py"free_energy"

/-- The form of the line. -/
def Line : EnergyKind → Str → Prop
  | final, l => (∃ s, l = py"Final energy" ++ s)
  | corrected, l => Occurs (py"Total energy corrected for finite basis set") l
  | zeroK, l => Occurs (py"0K energy (E-0.5TS)") l
  | sedc, l => (∃ s, l = py"(SEDC) Total Energy" ++ s)
  | dispersion, l => (∃ s, l = py"Dispersion corrected final energy" ++ s)
  | free, l => ∃ i j n s, l = py"Final free energy (E-TS)" ++ (List.replicate (i + 1) (c!" ") ++ (py"=" ++ (List.replicate (j + 1) (c!" ") ++
      (Numeral.text n ++ s)))) ∧ n.Valid ∧ HasPoint n

end EnergyKind

/-- The keys of a run with a meaning of their own. -/
def RESERVED : List Str := [py"energies", py"forces", py"stresses", py"born", py"scf", py"md", py"solvation", py"memory_estimate", py"geom_opt",
  py"minimisation", py"positions", py"cell"]

/-- A line of the table of molecular dynamics: between `x`, a name of letters, a colon, a number. -/
def MdLine (l : Str) (r : Str × Numeral) : Prop :=
  ∃ lead g a name g' rest, l = lead ++ (c!"x" :: (g ++ (a :: (name ++ (c!":" :: (g' ++ (r.2.text ++ rest))))))) ∧ c!"x" ∉ lead ∧ Blank g ∧ g ≠ [] ∧
    isAlpha a = true ∧ name ≠ [] ∧ (∀ c ∈ name, isAlpha c = true ∨ c = c!" ") ∧ KeyName (a :: name) r.1 ∧ Blank g' ∧ ∀ c, rest.head? = some c → isSpace c = true

/-- Other lines of that table: without digits, or with a name that has something else in it, as in `T/=0 Pressure`. -/
def MdOther (l : Str) : Prop :=
  NoDigit l ∨ ∃ a c b rest, l = a ++ c :: (b ++ c!":" :: rest) ∧ c!":" ∉ a ∧ c!":" ∉ b ∧ c!":" ∉ rest ∧ c!"x" ∉ b ∧ c ≠ c!"x" ∧ c ≠ c!":" ∧
    isAlpha c = false ∧ isSpace c = false

/-- What a section of the file reports. -/
inductive Content
  | energy (k : EnergyKind) (n : Numeral)
  | positions (rows : List AtomVec)
  | velocities (rows : List AtomVec)
  | spins (rows : List SpinRow)
  | forces (words : List Str) (rows : List AtomVec)
  | born (rows : List BornRow)
  | bands (points : List BandPoint)
  | cell (items : List CellLine)
  | scf (pre : List ScfItem) (cycles : List ScfCycle)
  | stresses (words : List Str) (xx xy xz yx yy yz zx zy zz : Numeral)
  | mulliken (rows : List PopRow)
  | hirshfeld (rows : List IonRow)
  | orbitals (rows : List OrbRow) (n : Numeral) (ns : List Numeral)
  | bonds (rows : List BondRow)
  | displacements (rows : List DispRow)
  | thermo (z : Numeral) (rows : List (List Numeral))
  | md (rows : List (Str × Numeral))
  | memory (rows : List MemRow)
  | geomTable (rows : List GeomRow)
  | enthalpy (n : Numeral)
  | trial (n : Numeral)

namespace Content

/-- The lines of a section. -/
def Lines : Content → List Str → Prop
  | energy k n, ls => ∃ l ns, ls = [l] ∧ Reaches k.name l ∧ k.Line l ∧ HasNumbers l (ns ++ [n]) ∧ ∀ m ∈ ns, m.Valid
  | positions rows, ls => ∃ t b, ls = t :: b ∧ Reaches (py"initial positions") t ∧ Occurs (py"Fractional coordinates of atoms") t ∧
      Framed (c!"x") 1 b ∧ Interleaved NoDigit (fun l a => a.Line l) ls rows
  | velocities rows, ls => ∃ t b, ls = t :: b ∧ Reaches (py"initial velocities") t ∧ Occurs (py"User Supplied Ionic Velocities") t ∧
      Framed (c!"x") 1 b ∧ Interleaved NoDigit (fun l a => a.Line l) ls rows
  | spins rows, ls => ∃ t b, ls = t :: b ∧ Reaches (py"initial spins") t ∧ Occurs (py"Initial magnetic") t ∧
      Framed (c!"x") 1 b ∧ Interleaved NoDigit SpinRow.Line ls rows
  | forces words rows, ls => ∃ t b name, ls = t :: b ∧ Reaches (py"forces") t ∧ ForceTitle t name ∧ Fields name words ∧
      Framed (c!"*") 1 b ∧ Interleaved NoDigit (fun l a => a.ForceLine l) b rows
  | born rows, ls => ∃ t b, ls = t :: b ∧ Reaches (py"born") t ∧ Headed (py"Born Effective Charges") t ∧
      Framed (c!"=") 1 b ∧ BornRow.Table ls rows
  | bands points, ls => ∃ t b g1 g2 w s g3, ls = t :: b ∧ Reaches (py"band structure") t ∧
      t = g1 ++ (c!"+" :: (g2 ++ (w ++ (s ++ (c!"+" :: g3))))) ∧ Blank g1 ∧ Blank g2 ∧ Blank g3 ∧
      (w = py"B A N D" ∨ w = py"Band Structure Calculation") ∧ s ≠ [] ∧ c!"+" ∉ s ∧
      Framed (c!"=") 1 b ∧ BandPoint.Table ls points
  | cell items, ls => ∃ t b, ls = t :: b ∧ Reaches (py"initial cell") t ∧ Headed (py"Unit Cell") t ∧
      Spaced 3 b ∧ List.Forall₂ CellLine.Line items ls
  | scf pre cycles, ls => ∃ t b pl rl, ls = t :: b ∧ Reaches (py"scf") t ∧ Occurs (py"SCF loop") t ∧
      Cut ScfRuler (fun l => ¬ ScfRuler l) 2 b ∧ ls = pl.flatten ++ rl.flatten.flatten ∧
      List.Forall₂ ScfItem.Lines pre pl ∧ List.Forall₂ ScfCycle.Lines cycles rl
  | stresses words xx xy xz yx yy yz zx zy zz, ls => ∃ t b name, ls = t :: b ∧ Reaches (py"stresses") t ∧ StressTitle t name ∧ Fields name words ∧
      Framed (c!"*") 1 b ∧ StressLines b xx xy xz yx yy yz zx zy zz
  | mulliken rows, ls => ∃ t b, ls = t :: b ∧ Reaches (py"mulliken") t ∧ Headed (py"Atomic Populations (Mulliken)") t ∧
      Framed (c!"=") 2 b ∧ PopRow.Table ls rows
  | hirshfeld rows, ls => ∃ t b, ls = t :: b ∧ Reaches (py"hirshfeld") t ∧ Headed (py"Hirshfeld Analysis") t ∧
      Framed (c!"=") 2 b ∧ Interleaved NoDigit IonRow.Line ls rows
  | orbitals rows n ns, ls => ∃ t b A B C tl pl, ls = t :: b ∧ Reaches (py"orbital populations") t ∧ Headed (py"Orbital Populations") t ∧
      Framed (c!"-") 3 b ∧ ls = A ++ tl :: (B ++ pl :: C) ∧ Interleaved OrbOther OrbRow.Line A rows ∧ (∀ l ∈ B, OrbOther l) ∧ (∀ l ∈ C, OrbOther l) ∧
      OrbTotal tl n ∧ OrbProjected pl ns
  | bonds rows, ls => ∃ t b, ls = t :: b ∧ Reaches (py"bonds") t ∧ BondTitle t ∧
      Framed (c!"=") 2 b ∧ Interleaved NoDigit BondRow.Line ls rows
  | displacements rows, ls => ∃ t b, ls = t :: b ∧ Reaches (py"atomic displacements") t ∧ Headed (py"Atomic Displacement Parameters (A**2)") t ∧
      Framed (c!"-") 3 b ∧ Interleaved NoNumberFirst DispRow.Line ls rows
  | thermo z rows, ls => ∃ t b A B zl, ls = t :: b ∧ Reaches (py"thermodynamics") t ∧ Headed (py"Thermodynamics") t ∧
      Framed (c!"-") 3 b ∧ ls = A ++ zl :: B ∧ (∀ l ∈ A, ThermoOther l) ∧ ThermoZero zl z ∧ Interleaved ThermoOther ThermoRow B rows
  | md rows, ls => ∃ t b g1 g2 g3 g4, ls = t :: b ∧ Reaches (py"md data") t ∧ t = g1 ++ (c!"x" :: (g2 ++ (py"MD Data:" ++ (g3 ++ (c!"x" :: g4))))) ∧
      (∀ g ∈ [g1, g2, g3, g4], Blank g) ∧ Framed (c!"x") 1 b ∧ Interleaved MdOther MdLine ls rows
  | memory rows, ls => ∃ t b, ls = t :: b ∧ Reaches (py"memory estimate") t ∧ MemTitle t ∧
      Cut MemEnd (fun l => ¬ MemEnd l) 1 b ∧ Interleaved MemRow.Other MemRow.Line ls rows
  | geomTable rows, ls => ∃ t b, ls = t :: b ∧ Reaches (py"geometry table") t ∧ TableTitle t ∧
      Cut TableRule (fun l => ¬ Occurs (py"+-") l) 2 b ∧ Interleaved NoDigit GeomRow.Line ls rows
  | enthalpy n, ls => ∃ l ns, ls = [l] ∧ Reaches (py"enthalpy") l ∧ EnthalpyLine l ∧ HasNumbers l (ns ++ [n]) ∧ ∀ m ∈ ns, m.Valid
  | trial n, ls => ∃ l, ls = [l] ∧ Reaches (py"trial guess") l ∧ TrialLine l n

/-- Numbers and names are well-formed, no atom is there twice, and what is not read as printed is not there: exponents of
Hirshfeld charges, of Born charges and of what is said of a step of molecular dynamics, and electronic minimisations without the Fermi energy. -/
def Ok : Content → Prop
  | energy _ n => n.Valid ∧ n.InRange
  | positions rows => (∀ a ∈ rows, a.Ok) ∧ (rows.map AtomVec.key).Nodup
  | velocities rows => (∀ a ∈ rows, a.Ok) ∧ (rows.map AtomVec.key).Nodup
  | spins rows => (∀ r ∈ rows, r.toIonRow.Ok 2) ∧ (rows.map fun r => r.key).Nodup
  | forces _ rows => (∀ a ∈ rows, a.Ok) ∧ (rows.map AtomVec.key).Nodup
  | born rows => (∀ r ∈ rows, r.Ok) ∧ (rows.map BornRow.key).Nodup
  | bands points => ∀ b ∈ points, b.Ok
  | cell items => ∀ i ∈ items, ∀ n ∈ i.nums, n.Valid ∧ n.InRange
  | scf pre cycles => (∀ i ∈ pre, i.Ok ∧ i.IsDetail) ∧ EigensLast pre ∧
      ∀ c ∈ cycles, c.row.Ok ∧ c.row.fermi ≠ none ∧ (∀ i ∈ c.items, i.Ok) ∧ EigensLast c.items
  | stresses _ xx xy xz yx yy yz zx zy zz => ∀ n ∈ [xx, xy, xz, yx, yy, yz, zx, zy, zz], n.Valid ∧ n.InRange
  | mulliken rows => (∀ r ∈ rows, r.Ok) ∧ (rows.map PopRow.key).Nodup
  | hirshfeld rows => (∀ r ∈ rows, r.Ok 1 ∧ ∀ n ∈ r.nums, HasPoint n ∧ n.exp = none) ∧ (rows.map IonRow.key).Nodup
  | orbitals rows n ns => (∀ r ∈ rows, r.toIonRow.Ok 1 ∧ r.orb ∈ Spec.orbitals) ∧ (n.Valid ∧ n.InRange) ∧ ∀ m ∈ ns, m.Valid ∧ m.InRange
  | bonds rows => (∀ r ∈ rows, r.Ok) ∧ (rows.map BondRow.key).Nodup
  | displacements rows => ∀ r ∈ rows, r.toIonRow.Ok 6 ∧ r.temp.Valid
  | thermo z rows => (z.Valid ∧ z.InRange) ∧ ∀ r ∈ rows, RowOk 5 r
  | md rows => (∀ r ∈ rows, (r.2.Valid ∧ r.2.InRange) ∧ HasPoint r.2 ∧ r.2.exp = none ∧ r.1 ∉ RESERVED) ∧ (rows.map Prod.fst).Nodup ∧ rows ≠ []
  | memory rows => (∀ r ∈ rows, ∀ n ∈ r.nums, n.Valid ∧ n.InRange) ∧ (rows.map MemRow.name).Nodup
  | geomTable rows => (∀ r ∈ rows, ∀ n ∈ r.nums, n.Valid ∧ n.InRange) ∧ (rows.map GeomRow.key).Nodup
  | enthalpy n => n.Valid ∧ n.InRange
  | trial n => (n.Valid ∧ n.InRange) ∧ ¬ n.IsInt

/-- The numbers of a section that are floats in the result. -/
def nums : Content → List Numeral
  | energy _ n => [n]
  | positions rows => rows.flatMap fun a => [a.x, a.y, a.z]
  | velocities rows => rows.flatMap fun a => [a.x, a.y, a.z]
  | spins rows => rows.flatMap fun r => r.nums
  | forces _ rows => rows.flatMap fun a => [a.x, a.y, a.z]
  | born rows => rows.flatMap fun r => r.nums ++ r.row2 ++ r.row3
  | bands points => points.flatMap fun b => b.k ++ b.rows.map Prod.snd
  | cell items => items.flatMap CellLine.nums
  | scf pre cycles => pre.flatMap ScfItem.nums ++ cycles.flatMap fun c => c.row.nums ++ c.items.flatMap ScfItem.nums
  | stresses _ xx xy xz yx yy yz zx zy zz => [xx, xy, xz, yx, yy, yz, zx, zy, zz]
  | mulliken rows => rows.flatMap fun r => r.nums ++ r.dn.toList.flatten
  | hirshfeld rows => rows.flatMap fun r => r.nums
  | orbitals rows n ns => rows.flatMap (fun r => r.nums) ++ n :: ns
  | bonds rows => rows.flatMap fun r => [r.population, r.length] ++ r.spin.toList
  | displacements rows => rows.flatMap fun r => r.nums
  | thermo z rows => z :: rows.flatten
  | md rows => rows.map Prod.snd
  | memory rows => rows.flatMap MemRow.nums
  | geomTable rows => rows.flatMap GeomRow.nums
  | enthalpy n | trial n => [n]

/-- The filter that has to be on; for molecular dynamics it can be that of summaries, too. -/
def filter : Content → Option Castep.Filters
  | energy _ _ => none
  | positions _ | velocities _ => some Castep.Filters.POSITION
  | spins _ => some Castep.Filters.PARAMETERS
  | forces _ _ => some Castep.Filters.FORCE
  | born _ | mulliken _ | hirshfeld _ | orbitals _ _ _ | bonds _ => some Castep.Filters.POPN_ANALYSIS
  | bands _ => some Castep.Filters.BS
  | cell _ => some Castep.Filters.CELL
  | scf _ _ => some Castep.Filters.SCF
  | stresses .. => some Castep.Filters.STRESS
  | displacements _ | thermo _ _ => some Castep.Filters.THERMODYNAMICS
  | md _ => some Castep.Filters.MD
  | memory _ => some Castep.Filters.SYS_INFO
  | geomTable _ | enthalpy _ => some Castep.Filters.GEOM_OPT
  | trial _ => none

/-- Is the section wanted? -/
def wanted (F : Castep.Filters) (c : Content) : Bool :=
  match c with
  | md _ => Castep.Filters.has Castep.Filters.MD F || Castep.Filters.has Castep.Filters.MD_SUMMARY F
  | c => c.filter.all (Castep.Filters.has · F)

/-- The key in the run; the table of molecular dynamics has none. -/
def key : Content → Key
  | energy _ _ => .str (py"energies")
  | positions _ => .str (py"initial_positions")
  | velocities _ => .str (py"initial_velocities")
  | spins _ => .str (py"initial_spins")
  | forces _ _ => .str (py"forces")
  | born _ => .str (py"born")
  | bands _ => .str (py"bs")
  | cell _ => .str (py"initial_cell")
  | scf _ _ => .str (py"scf")
  | stresses .. => .str (py"stresses")
  | mulliken _ => .str (py"mulliken_popn")
  | hirshfeld _ => .str (py"hirshfeld")
  | orbitals _ _ _ => .str (py"orbital_popn")
  | bonds _ => .str (py"bonds")
  | displacements _ => .str (py"atomic_displacements")
  | thermo _ _ => .str (py"thermodynamics")
  | md _ => .none
  | memory _ => .str (py"memory_estimate")
  | geomTable _ => .str (py"minimisation")
  | enthalpy _ => .str (py"enthalpy")
  | trial _ => .str (py"geom_opt")

/-- The key below that. -/
def sub : Content → Key
  | energy k _ => .str k.key
  | forces words _ => forceKind words
  | stresses words .. => forceKind words
  | enthalpy _ => .str (py"enthalpy")
  | trial _ => .str (py"trial")
  | _ => .none

/-- What is reported. -/
def value (rd fl : Numeral → F64) : Content → PyVal
  | energy _ n => .float (rd n)
  | positions rows => .dict (rows.map (AtomVec.entry rd))
  | velocities rows => .dict (rows.map (AtomVec.entry rd))
  | spins rows => .dict (rows.map fun r => (r.key, .dict (r.info rd)))
  | forces _ rows => .dict (rows.map (AtomVec.entry rd))
  | born rows => .dict (rows.map fun r => (r.key, r.tensor rd))
  | bands points => .list (points.map fun b => .dict (b.info rd))
  | cell items => unitCell rd fl items
  | scf pre cycles => .list (scfReports rd fl pre cycles)
  | stresses _ xx xy xz _ yy yz _ _ zz => .tuple ([xx, xy, xz, yy, yz, zz].map fun n => .float (rd n))
  | mulliken rows => .dict (rows.map fun r => (r.key, .dict (r.info rd fl)))
  | hirshfeld rows => .dict (rows.flatMap fun r => r.nums.map fun n => (r.key, .float (fl n)))
  | orbitals rows n ns => .dict (nested (rows.map (·.entry rd)) ++
      [(.str (py"total"), .float (fl n)), (.str (py"total_projected"), .tuple (ns.map fun n => .float (rd n)))])
  | bonds rows => .dict (rows.map fun r => (r.key, r.entry fl fun n => (fl n).toRat ≠ 0))
  | displacements rows => .dict (nested (rows.map (·.entry rd)))
  | thermo z rows => .dict ((.str (py"zero_point_energy"), .float (fl z)) :: columnTable rd thermoLabels rows)
  | md rows => .dict (rows.map fun r => (.str r.1, .float (fl r.2)))
  | memory rows => .dict (rows.map fun r => (.str r.name, r.info fl))
  | geomTable rows => .dict (rows.map fun r => (r.key, r.info rd))
  | enthalpy n => .float (rd n)
  | trial n => .float (fl n)

/-- What the section adds to the run.  With an enthalpy there is a `geom_opt`, though nothing need be in it. -/
def items (rd fl : Numeral → F64) (c : Content) : List (Key × (Key × PyVal)) :=
  match c with
  | md rows => rows.map fun r => (.str r.1, (.none, .float (fl r.2)))
  | enthalpy n => [(.str (py"geom_opt"), (.none, .none)), (.str (py"enthalpy"), (.str (py"enthalpy"), .float (rd n)))]
  | c => [(c.key, (c.sub, c.value rd fl))]

end Content

/-- Values under keys, in the order in which the keys appear first. -/
def gathered (es : List (Key × α)) (f : Key → List α → β) : Dict Key β :=
  (es.map Prod.fst).eraseDups.map fun k => (k, f k ((es.filter (·.1 = k)).map Prod.snd))

/-- The keys of lists. -/
def LISTS : List Str := [py"born", py"scf", py"md", py"memory_estimate", py"minimisation"]

/-- The values under a key of the run: all energies, forces and stresses of every kind, all electronic minimisations, Born
charges, steps of molecular dynamics, estimates of memory, tables and enthalpies of a geometry optimisation, of the others the last.
The energies are put in tuples in the last run of a file only. -/
def combined (last : Bool) (k : Key) (vs : List (Key × PyVal)) : PyVal :=
  if k = .str (py"energies") then .dict (gathered vs fun _ xs => if last then .tuple xs else .list xs)
  else if k = .str (py"forces") ∨ k = .str (py"stresses") then .dict (gathered vs fun _ xs => .list xs)
  else if k = .str (py"geom_opt") then .dict (gathered (vs.filter (·.1 ≠ .none)) fun _ xs => .list xs)
  else if k ∈ LISTS.map Key.str ∨ (k = .str (py"enthalpy") ∧ ∀ v ∈ vs, v.1 ≠ .none) then .list (vs.map Prod.snd)
  else ((vs.map Prod.snd).getLast?).getD .none

/-- A run with these entries. -/
def runOf (last : Bool) (es : List (Key × (Key × PyVal))) : Dict Key PyVal := gathered es (combined last)

/-- A run: sections, and lines between them with none of the phrases the parser looks for. -/
inductive Doc (P : α → List Str → Prop) : List Str → List α → Prop
  | nil : Doc P [] []
  | text {l ls cs} : Quiet l → Doc P ls cs → Doc P (l :: ls) cs
  | part {s ls c cs} : P c s → Doc P ls cs → Doc P (s ++ ls) (c :: cs)

/-- The entries of sections that are wanted. -/
def docEntries (rd fl : Numeral → F64) (F : Castep.Filters) (cs : List Content) : List (Key × (Key × PyVal)) :=
  (cs.filter (·.wanted F)).flatMap (Content.items rd fl)

/-- Is it a line with an enthalpy? -/
def Content.listsEnthalpy : Content → Bool
  | .enthalpy _ => true
  | _ => false

/-- Is an enthalpy in the table of molecular dynamics? -/
def Content.statesEnthalpy : Content → Bool
  | .md rows => rows.any (·.1 = py"enthalpy")
  | _ => false

/-- Sections that are well-formed; an enthalpy is either in lines of its own, or in tables of molecular dynamics. -/
def Sound (cs : List Content) : Prop := (∀ c ∈ cs, c.Ok) ∧ ((∀ c ∈ cs, c.listsEnthalpy = false) ∨ ∀ c ∈ cs, c.statesEnthalpy = false)

/-! ### Molecular dynamics, geometry optimisation -/

/-- The last line of a step. -/
def StepEnd (l : Str) : Prop :=
  Occurs (py"finished MD iteration") l ∨ ∃ a e, l = a ++ (py"Finished MD" ++ e) ∧ (e = [] ∨ e = [10])

/-- Other lines of a step. -/
def StepPass (l : Str) : Prop := ¬ Occurs (py"finished MD iteration") l ∧ ¬ Occurs (py"Finished MD") l

/-- In a run: a section, or a step of molecular dynamics or an iteration of a geometry optimisation with sections of its own. -/
inductive Item
  | part (c : Content)
  | step (first : Bool) (cs : List Content)
  | iter (cs : List Content)

/-- What is said of a step: cell and positions are not called initial ones. -/
def stepRun (d : Dict Key PyVal) : Dict Key PyVal :=
  d.filter (fun e => e.1 ≠ .str (py"initial_positions") ∧ e.1 ≠ .str (py"initial_cell")) ++
    ((d.filter fun e => e.1 = .str (py"initial_positions")).map (fun e => (.str (py"positions"), e.2)) ++
     (d.filter fun e => e.1 = .str (py"initial_cell")).map (fun e => (.str (py"cell"), e.2)))

/-- What the first iteration takes out of the run. -/
def ITERATED : List Key := [py"enthalpy", py"scf", py"forces", py"stresses", py"minimisation"].map .str

/-- What the first iteration copies. -/
def COPIED : List Key := [py"initial_cell", py"initial_positions"].map .str

/-- Are there iterations already? -/
def Iterated (es : List (Key × (Key × PyVal))) : Prop := ∃ e ∈ es, e.1 = .str (py"geom_opt") ∧ e.2.1 = .str (py"iterations")

instance (es : List (Key × (Key × PyVal))) : Decidable (Iterated es) := inferInstanceAs (Decidable (∃ e ∈ es, _))

/-- An iteration, among the entries of a run. -/
def iterEntry (d : Dict Key PyVal) : Key × (Key × PyVal) := (.str (py"geom_opt"), (.str (py"iterations"), .dict d))

/-- The entries once there are iterations: what was said before the first is an iteration of its own. -/
def started (es : List (Key × (Key × PyVal))) : List (Key × (Key × PyVal)) :=
  if Iterated es then es
  else es.filter (·.1 ∉ ITERATED) ++ [iterEntry (stepRun ((runOf false es).filter fun e => e.1 ∈ ITERATED ∨ e.1 ∈ COPIED))]

namespace Item

/-- The lines: what is before the first step ends with a ruler, a step with a line that says so, an iteration with the second line
that can end one. -/
def Lines : Item → List Str → Prop
  | part c, ls => c.Lines ls
  | step first cs, ls => ∃ t b, ls = t :: b ∧ Reaches (py"md") t ∧ Doc Content.Lines b cs ∧
      if first then Occurs (py"Starting MD") t ∧ ¬ Occurs (py"Starting MD iteration") t ∧ Framed (c!"=") 1 b
      else Occurs (py"Starting MD iteration") t ∧ Cut StepEnd StepPass 1 b
  | iter cs, ls => ∃ t b, ls = t :: b ∧ Reaches (py"geometry iteration") t ∧ Doc Content.Lines b cs ∧ IterTitle t ∧ Cut IterEnd IterPass 2 b

/-- A step or iteration has to have a section that is wanted if no filters are given.  There are no estimates of memory in steps. -/
def Ok : Item → Prop
  | part c => c.Ok
  | step _ cs => (Sound cs ∧ ∃ c ∈ cs, c.wanted Castep.Filters.HIGH = true) ∧ ∀ c ∈ cs, c.key ≠ .str (py"memory_estimate")
  | iter cs => Sound cs ∧ ∃ c ∈ cs, c.wanted Castep.Filters.HIGH = true

/-- The numbers. -/
def nums : Item → List Numeral
  | part c => c.nums
  | step _ cs | iter cs => cs.flatMap Content.nums

/-- The sections that are not in a step or iteration. -/
def parts : Item → List Content
  | part c => [c]
  | step _ _ | iter _ => []

/-- The entries of a run after the item.  What is wanted of a step does not depend on what is wanted of the file. -/
def after (rd fl : Numeral → F64) (F : Castep.Filters) (es : List (Key × (Key × PyVal))) : Item → List (Key × (Key × PyVal))
  | part c => es ++ docEntries rd fl F [c]
  | step _ cs =>
    if Castep.Filters.has Castep.Filters.MD F then
      es ++ [(.str (py"md"), (.none, .dict (stepRun (runOf true (docEntries rd fl Castep.Filters.HIGH cs)))))]
    else es
  | iter cs =>
    if Castep.Filters.has Castep.Filters.GEOM_OPT F then
      started es ++ [iterEntry (stepRun (runOf true (docEntries rd fl Castep.Filters.HIGH cs)))]
    else es

end Item

/-- Sections, steps and iterations that are well-formed. -/
def SoundItems (is : List Item) : Prop := (∀ i ∈ is, i.Ok) ∧
  ((∀ i ∈ is, ∀ c ∈ i.parts, c.listsEnthalpy = false) ∨ ∀ i ∈ is, ∀ c ∈ i.parts, c.statesEnthalpy = false)

/-! ### Several runs -/

/-- What the program says about itself at the start of a run: the words of the first two lines, and under names the words of others. -/
structure Build where
  first : List Str
  second : List Str
  items : List (Str × List Str)

namespace Build

/-- A line with a name, a colon and words. -/
def Line (l : Str) (i : Str × List Str) : Prop :=
  ∃ name v, l = name ++ (c!":" :: v) ∧ c!":" ∉ name ∧ KeyName name i.1 ∧ Fields v i.2

/-- The lines. -/
def Lines (b : Build) (ls : List Str) : Prop :=
  ∃ g s l rest, ls = (g ++ (py"Compiled for" ++ s)) :: l :: rest ∧ Blank g ∧ Fields (g ++ (py"Compiled for" ++ s)) b.first ∧ Fields l b.second ∧
    Spaced 1 (l :: rest) ∧ Interleaved (fun l => c!":" ∉ l) Line rest b.items

/-- What is reported of it: the last value under each name. -/
def value (b : Build) : PyVal :=
  .dict (b.items.foldl (fun d i => Dict.set d (.str i.1) (.str (Str.join (py" ") i.2)))
    [(.str (py"summary"), .str (Str.join (py" ") [Str.join (py" ") b.first, Str.join (py" ") b.second]))])

end Build

/-- The runs after the first banner. -/
inductive Runs (P : α → List Str → Prop) : List Str → List (Build × List α) → Prop
  | nil : Runs P [] []
  | run {h d ls b cs rs} : Build.Lines b h → Doc P d cs → Runs P ls rs → Runs P (h ++ (d ++ ls)) ((b, cs) :: rs)

/-- The entry of a banner. -/
def bannerEntry (F : Castep.Filters) (b : Build) : List (Key × (Key × PyVal)) :=
  if Castep.Filters.has Castep.Filters.SYS_INFO F then [(.str (py"build_info"), (.none, b.value))] else []

/-- The entries of a run with a banner. -/
def bannerEntries (rd fl : Numeral → F64) (F : Castep.Filters) (r : Build × List Content) : List (Key × (Key × PyVal)) :=
  bannerEntry F r.1 ++ docEntries rd fl F r.2

/-- The runs with these entries; a run without any is left out. -/
def results : List (List (Key × (Key × PyVal))) → List (Dict Key PyVal)
  | [] => []
  | [e] => if e.isEmpty then [] else [runOf true e]
  | e :: es => (if e.isEmpty then [] else [runOf false e]) ++ results es

end Verif.Spec

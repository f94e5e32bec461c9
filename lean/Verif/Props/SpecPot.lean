import Verif.Lemmas.SpecPot
import Verif.Props.CellBlocks
import Verif.Props.Pspot
/-
C103: pseudopotentials in `.cell` files.
-/
namespace Verif.Props
open Verif Spec Cell

/-- C103.  The block of pseudopotentials of a `.cell` file, with comments and blank lines anywhere, gives for each species the name
that stands on its line, or the definition that stands there taken apart; a line of one word is reported without a species, and of
lines for the same species the last counts.  Partial: for definitions as in `C98_partial`, without a local energy and without
negative energies of projectors. -/
theorem C103_partial (l : Str) (blk : List Str) (last : Str) (kept : List Str) (is : List SpecPot)
    (hl : OpensNamed l (py"species_pot")) (hb : ∀ x ∈ blk, ¬ ClosesBlock x) (hlast : ClosesBlock last)
    (hk : KeptInline cellComments blk kept) (hrows : List.Forall₂ (fun l i => SpecPot.Line l i) kept is) (hok : ∀ i ∈ is, i.Ok) :
    ∃ (rd : Numeral → F64) (d : List (Key × PyVal)), (∀ n : Numeral, n.Valid → n.InRange → F64.Nearest n.value (rd n)) ∧
      LastWins (is.map (SpecPot.entry rd)) d ∧
      parse_cell_param_file (l :: (blk ++ [last])) = .ok (.list [.dict [(.str (py"species_pot"), .dict d)]]) := by
  obtain ⟨rd, _, hrd⟩ := readings
  refine ⟨rd, _, fun n h1 h2 => (hrd n h1 h2).1.2, LineTab.lastWins _, ?_⟩
  have hlp := SpecPotL.loop_rows (rd := rd) (fun n h1 h2 => (hrd n h1 h2).1.1) hrows hok []
  have hp : parserFor (py"species_pot") = parse_species_pot := rfl
  have hr : (Block.remove_bounds ⟨0, 0, kept ++ [clean last]⟩ 0 1).rest = kept := by
    rw [Block.remove_bounds, Block.rest, XcDef.slice01, List.drop_zero]
  rw [parse_named hl hb hlast, stripped_block hlast hk, hp, parse_species_pot]
  simp only [hr, hlp]
  rfl

/-! ### The hypotheses can be met -/

def exPots : List SpecPot := [.library (py"C19"), .file (py"Si") (py"Si_00PBE.usp"), .definition (py"Ti:x") (exPspot (some true)), .file (py"Si") (py"QC5")]

def exPotLines : List Str := [py"  C19", py"Si  Si_00PBE.usp", py" Ti:x 2-|1.9|3.5|5|7.5|30U2.1U=+1.1@0.25:31N{3d2,4s0.5}[](tm,qc=7)", py"Si QC5"]

example : OpensNamed (py"%BLOCK SPECIES_POT\n") (py"species_pot") ∧ ClosesBlock (py"%ENDBLOCK SPECIES_POT\n") ∧
    KeptInline cellComments [py"  C19\n", py"Si  Si_00PBE.usp # x\n", py"! y\n", py" Ti:x 2-|1.9|3.5|5|7.5|30U2.1U=+1.1@0.25:31N{3d2,4s0.5}[](tm,qc=7)\n", py"Si QC5\n"] exPotLines ∧
    List.Forall₂ (fun l i => SpecPot.Line l i) exPotLines exPots ∧ (∀ i ∈ exPots, i.Ok) := by
  refine ⟨opens_example _ _ (py"%BLOCK ") [] (py"SPECIES_POT") (py"\n") (by decide) (by decide) (by decide) (by decide)
      (by decide) (by decide) (by decide), ⟨[], py"%ENDBLOCK", py" SPECIES_POT\n", rfl, (by intro c hc; cases hc), by decide⟩,
    (C20_inline _ _ (by decide) _).1 (by decide +kernel), ?_, ?_⟩
  · refine .cons ⟨py"  ", rfl, by decide⟩ (.cons ⟨[], py"  ", rfl, by decide, by decide, by decide⟩
      (.cons ⟨py" ", py" ", by decide +kernel, by decide, by decide, by decide⟩ (.cons ⟨[], py" ", rfl, by decide, by decide, by decide⟩ .nil)))
  · intro i hi
    simp only [exPots, List.mem_cons, List.not_mem_nil, or_false] at hi
    rcases hi with rfl | rfl | rfl | rfl
    · exact ⟨by decide, by decide⟩
    · exact ⟨⟨by decide, by decide⟩, ⟨by decide, by decide⟩, by decide⟩
    · exact ⟨⟨by decide, by decide⟩, exPspot_ok _⟩
    · exact ⟨⟨by decide, by decide⟩, ⟨by decide, by decide⟩, by decide⟩

end Verif.Props

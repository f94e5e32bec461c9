import Verif.Lemmas.FinalConfig
import Verif.Props.CastepFiles
import Verif.Props.Dftd
/-
C109: the final configuration of a geometry optimisation.
-/
namespace Verif.Props
open Verif Spec Castep

/-- C109: the cell, the positions of the atoms and every quantity of the final configuration are reported, wherever they stand in it. -/
theorem C109 (items : List ConfigItem) (ls : List (List Str)) (h : List.Forall₂ ConfigItem.Lines items ls) (hok : ∀ i ∈ items, i.Ok) :
    ∃ rd fl : Numeral → F64, (∀ n : Numeral, n.Valid → n.InRange → F64.Nearest n.value (rd n) ∧ F64.Nearest n.value (fl n)) ∧
      ∃ d, LastWins (items.filterMap (ConfigItem.entry rd fl)) d ∧ process_final_config ls.flatten = .ok (.dict d) := by
  obtain ⟨rd, fl, hrd⟩ := readings
  refine ⟨rd, fl, fun n h1 h2 => ⟨(hrd n h1 h2).1.2, (hrd n h1 h2).2.2⟩, _, LineTab.lastWins _, ?_⟩
  have := FinalConf.loop (fun n h1 h2 => (hrd n h1 h2).1.1) (fun n h1 h2 => (hrd n h1 h2).2.1) h hok (ls.flatten.length + 1) [] (by omega)
  rw [process_final_config, show ([] : Dict Key PyVal) = Dict.ofList [] from rfl, this]
  rfl

/-! ### Example -/

def exEnthalpy : Numeral := exExp (some true) (py"2") (py"17004345") false (py"002")

def exFinalItems : List ConfigItem :=
  [.other, .cell (.other [] :: (exUnit ++ [.other [], .other []])), .other, .atoms [exSi1, exFe2], .value (py"final_enthalpy") exEnthalpy, .other,
   .value (py"final_bulk_modulus") (exDec (py"392") (py"40598"))]

def exFinalAtoms : List Str :=
  py"                                     Cell Contents\n" :: py"                           -------------------------------\n" ::
    py"            xxxxxxxxxxxxxxxxxxxxxxxxxxxx\n" :: (exPosLines ++ [py"            xxxxxxxxxxxxxxxxxxxxxxxxxxxx\n"])

def exFinalLines : List (List Str) :=
  [[py"                           -------------------------------\n"], exCellBlock, [py"                           -------------------------------\n"], exFinalAtoms,
   [py" BFGS: Final Enthalpy     = -2.17004345E+002 eV\n"], [py" BFGS: Final <frequency>  unchanged from initial value\n"],
   [py" BFGS: Final bulk modulus =     392.40598 GPa\n"]]

theorem exFinal_items : List.Forall₂ ConfigItem.Lines exFinalItems exFinalLines := by
  have plain : ∀ l : Str, Str.contains (py"Unit Cell") l = false → Str.contains (py"Cell Contents") l = false → ConfigItem.Plain l :=
    fun l h1 h2 => ⟨not_occurs _ _ h1, not_occurs _ _ h2⟩
  refine .cons ⟨_, rfl, plain _ (by decide +kernel) (by decide +kernel), .inl (by decide)⟩ (.cons ?_ (.cons ⟨_, rfl, plain _ (by decide +kernel) (by decide +kernel), .inl (by decide)⟩
    (.cons ?_ (.cons ?_ (.cons ⟨_, rfl, plain _ (by decide +kernel) (by decide +kernel), .inr (by decide)⟩ (.cons ?_ .nil))))))
  · obtain ⟨t, b, e, -, h1, h2, h3⟩ := exCell_items
    exact ⟨t, b, e, headed_occurs h1, h2, h3⟩
  · have ruler : Ruler (c!"x") (py"            xxxxxxxxxxxxxxxxxxxxxxxxxxxx\n") :=
      ⟨py"            ", py"xxxxxxxxxxxxxxxxxxxxxxxxxxxx", [10], by decide +kernel, by decide +kernel, by decide, by decide +kernel, .inr rfl⟩
    refine ⟨_, _, rfl, headed_of (by decide +kernel), not_occurs _ _ (by decide +kernel), ?_, ?_⟩
    · exact .other (not_ruled_of (by decide +kernel)) (.rule ruler (.other (not_ruled_of (by decide +kernel)) (.other (not_ruled_of (by decide +kernel))
        (.other (not_ruled_of (by decide +kernel)) (.last ruler)))))
    · exact .skip (by decide +kernel) (.skip (by decide +kernel) (.skip (by decide +kernel) (interleaved_snoc exPos_lines (by decide +kernel))))
  · exact ⟨_, py" ", py"BFGS", py" Final Enthalpy     ", py" ", py" eV\n", rfl, plain _ (by decide +kernel) (by decide +kernel), by decide +kernel, by decide +kernel, by decide +kernel,
      by decide +kernel, by decide, keyName_of (by decide +kernel), by decide +kernel, by decide⟩
  · exact ⟨_, py" ", py"BFGS", py" Final bulk modulus ", py"     ", py" GPa\n", rfl, plain _ (by decide +kernel) (by decide +kernel), by decide +kernel, by decide +kernel, by decide +kernel,
      by decide +kernel, by decide, keyName_of (by decide +kernel), by decide +kernel, by decide⟩

theorem exFinal_ok : ∀ i ∈ exFinalItems, i.Ok := by
  simp only [exFinalItems, List.forall_mem_cons]
  refine ⟨trivial, ?_, trivial, ⟨exVec_ok, exVec_keys⟩, ?_, trivial, ?_, by simp⟩
  · show ∀ i ∈ _, ∀ n ∈ CellLine.nums i, n.Valid ∧ n.InRange
    decide +kernel
  · show _ ∧ _ ∧ _
    exact ⟨by decide +kernel, by decide +kernel, by decide +kernel⟩
  · show _ ∧ _ ∧ _
    exact ⟨by decide +kernel, by decide +kernel, by decide +kernel⟩

/-- The hypotheses of `C109` hold for a configuration with a cell, two atoms, an enthalpy and a bulk modulus. -/
example : ∃ rd fl : Numeral → F64, (∀ n : Numeral, n.Valid → n.InRange → F64.Nearest n.value (rd n) ∧ F64.Nearest n.value (fl n)) ∧
    ∃ d, LastWins (exFinalItems.filterMap (ConfigItem.entry rd fl)) d ∧ process_final_config exFinalLines.flatten = .ok (.dict d) :=
  C109 _ _ exFinal_items exFinal_ok

end Verif.Props

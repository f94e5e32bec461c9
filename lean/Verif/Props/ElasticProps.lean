import Verif.Lemmas.ElasticProps
import Verif.Props.Dftd
/-
C93: the elastic properties.
-/
namespace Verif.Props
open Verif Spec Castep

/-- C93: every property is reported under its name with its numbers, and the speeds of sound as a matrix. -/
theorem C93 (items : List ElasticItem) (ls : List (List Str)) (h : List.Forall₂ ElasticItem.Lines items ls)
    (hok : ∀ i ∈ items, ∀ n ∈ i.nums, n.Valid ∧ n.InRange) :
    ∃ rd : Numeral → F64, (∀ n : Numeral, n.Valid → n.InRange → F64.Nearest n.value (rd n)) ∧
      ∃ d, LastWins (items.filterMap (ElasticItem.entry rd)) d ∧ process_elastic_properties ls.flatten = .ok d := by
  obtain ⟨rd, _, hrd⟩ := readings
  refine ⟨rd, fun n h1 h2 => (hrd n h1 h2).1.2, _, LineTab.lastWins _, ?_⟩
  have := ElasticTab.loop (fun n h1 h2 => (hrd n h1 h2).1.1) h hok (ls.flatten.length + 1) [] (by omega)
  exact this

/-! ### Example -/

def exElItems : List ElasticItem :=
  [.other, .value (py"young_s_modulus") [exDec (py"136") (py"85"), exDec (py"136") (py"85"), exDec (py"136") (py"85")], .other,
   .sound [[exDec (py"83") (py"99"), exDec (py"49") (py"76"), exDec (py"49") (py"76")], [exDec (py"49") (py"76"), exDec (py"83") (py"99"), exDec (py"49") (py"76")]],
   .value (py"longitudinal_waves") [exDec (py"91") (py"95")]]

def exElLines : List (List Str) :=
  [[py"           x              y              z\n"], [py"  Young's Modulus ::     136.85     136.85     136.85     (GPa)\n"], [py"\n"],
   [py"                 Speed of Sound\n", py" ----------\n", py"      x       83.99      49.76      49.76     (A/ps)\n",
    py"      y       49.76      83.99      49.76     (A/ps)\n", py"\n"],
   [py"  Longitudinal waves ::     91.95   (A/ps)\n"]]

theorem exEl_lines : List.Forall₂ ElasticItem.Lines exElItems exElLines := by
  refine .cons ⟨_, rfl, not_occurs _ _ (by decide +kernel), not_occurs _ _ (by decide +kernel)⟩ (.cons ?_ (.cons ⟨_, rfl, not_occurs _ _ (by decide +kernel),
    not_occurs _ _ (by decide +kernel)⟩ (.cons ?_ (.cons ?_ .nil))))
  · exact ⟨py"  Young's Modulus ", py"     136.85     136.85     136.85     (GPa)\n", rfl, not_occurs _ _ (by decide +kernel), keyName_of (by decide +kernel),
      hasNumbers_of (holds_of _ (py"  Young's Modulus ::     ") [(exDec (py"136") (py"85"), py"     "), (exDec (py"136") (py"85"), py"     "),
        (exDec (py"136") (py"85"), py"     (GPa)\n")] (by decide +kernel) (by decide +kernel)) (by simp)⟩
  · refine ⟨py"                 Speed of Sound\n", _, py"\n", rfl, not_occurs _ _ (by decide +kernel), occurs_of (by decide +kernel), .inl ⟨rfl, by decide⟩,
      by decide +kernel, by decide, .skip (.inl ⟨rfl, by decide⟩) (.row ⟨by simp, ?_⟩ (.row ⟨by simp, ?_⟩ .nil))⟩
    · exact hasNumbers_of (holds_of _ (py"      x       ") [(exDec (py"83") (py"99"), py"      "), (exDec (py"49") (py"76"), py"      "),
        (exDec (py"49") (py"76"), py"     (A/ps)\n")] (by decide +kernel) (by decide +kernel)) (by simp)
    · exact hasNumbers_of (holds_of _ (py"      y       ") [(exDec (py"49") (py"76"), py"      "), (exDec (py"83") (py"99"), py"      "),
        (exDec (py"49") (py"76"), py"     (A/ps)\n")] (by decide +kernel) (by decide +kernel)) (by simp)
  · exact ⟨py"  Longitudinal waves ", py"     91.95   (A/ps)\n", rfl, not_occurs _ _ (by decide +kernel), keyName_of (by decide +kernel),
      hasNumbers_of (holds_of _ (py"  Longitudinal waves ::     ") [(exDec (py"91") (py"95"), py"   (A/ps)\n")] (by decide +kernel) (by decide +kernel)) (by simp)⟩

/-- The hypotheses of `C93` hold for a table with a modulus, the speeds of sound and a single number. -/
example : List.Forall₂ ElasticItem.Lines exElItems exElLines ∧ ∀ i ∈ exElItems, ∀ n ∈ i.nums, n.Valid ∧ n.InRange := ⟨exEl_lines, by decide +kernel⟩

end Verif.Props

import Verif.Lemmas.Dftd
import Verif.Props.Constraints
import Verif.Props.LineTables
/-
C92: the dispersion correction.
-/
namespace Verif.Props
open Verif Spec Castep

/-- C92 for reports whose species have no tag: the parameters, the other entries and the coefficients of every species. -/
theorem C92_partial (items : List DftdItem) (ls : List Str) (h : List.Forall₂ DftdItem.Line items ls) (hok : ∀ i ∈ items, i.Ok) :
    ∃ rd fl : Numeral → F64, (∀ n : Numeral, n.Valid → n.InRange → F64.Nearest n.value (rd n) ∧ F64.Nearest n.value (fl n)) ∧
      ∃ ss gs, LastWins (items.filterMap (DftdItem.coefficients fl)) ss ∧ LastWins (items.filterMap (DftdItem.general rd)) gs ∧
        process_dftd ls = .ok (.dict ((.str (py"species"), .dict ss) :: gs)) := by
  obtain ⟨rd, fl, hrd⟩ := readings
  refine ⟨rd, fl, fun n h1 h2 => ⟨(hrd n h1 h2).1.2, (hrd n h1 h2).2.2⟩, _, _, LineTab.lastWins _, LineTab.lastWins _, ?_⟩
  have := Dftd.fold (fun n h1 h2 => (hrd n h1 h2).1.1) (fun n h1 h2 => (hrd n h1 h2).2.1) h hok [] []
  rw [process_dftd]
  show (do let d ← foldLines dftdLine (Dftd.state [] []) ls; return PyVal.dict d) = _
  rw [this]
  rfl

/-- C92 is false for species with a tag, such as `H:D`: whatever the report, the row adds nothing to the species, and something under a
name made of the border and the species to the rest. -/
theorem C92_violated (items : List DftdItem) (ls : List Str) (h : List.Forall₂ DftdItem.Line items ls) (hok : ∀ i ∈ items, i.Ok)
    (g g' sp v : Str) (hg : Blank g) (hg' : Blank g') (hne' : g' ≠ []) (hne : sp ≠ []) (hlen : sp.length ≤ 3) (hsp : ∀ c ∈ sp, isAlnum c = true) (hv : 58 ∉ v) :
    ∃ rd fl : Numeral → F64, (∀ n : Numeral, n.Valid → n.InRange → F64.Nearest n.value (rd n) ∧ F64.Nearest n.value (fl n)) ∧
      ∃ ss gs ws, LastWins (items.filterMap (DftdItem.coefficients fl)) ss ∧ Fields v ws ∧
        LastWins (items.filterMap (DftdItem.general rd) ++ [(.str (py"x_" ++ Str.lower sp), .str (Str.join (py" ") ws))]) gs ∧
        process_dftd (ls ++ [g ++ 120 :: (g' ++ (sp ++ 58 :: v))]) = .ok (.dict ((.str (py"species"), .dict ss) :: gs)) := by
  have ha : ∀ {g : Str}, Blank g → ∀ c ∈ g, isAlnum c = false := by
    intro g hg c hc
    have := isSpace_not_word (hg c hc)
    cases hh : isAlnum c with
    | false => rfl
    | true =>
      exfalso
      revert this hh
      simp only [isWord, isAlnum]
      cases isAlpha c <;> cases isDigit c <;> simp
  have hx : g ++ 120 :: (g' ++ (sp ++ 58 :: v)) = (g ++ 120 :: (g' ++ sp)) ++ 58 :: v := by simp
  have h58 : 58 ∉ g ++ 120 :: (g' ++ sp) := by
    have hb : ∀ {g : Str}, Blank g → 58 ∉ g := fun hg hm => by have := hg _ hm; revert this; decide
    have hs : 58 ∉ sp := fun hm => by have := hsp _ hm; revert this; decide
    simp [hb hg, hb hg', hs]
  have hk : KeyName (g ++ 120 :: (g' ++ sp)) (py"x_" ++ Str.lower sp) := by
    refine ⟨[[120], sp], ?_, by simp [Str.join, Str.lower]; decide⟩
    have := Words.cons (p := isAlnum) (g := g) (w := [120]) (s := g' ++ sp ++ []) (ha hg) (by simp) (by intro c hc; obtain rfl := List.mem_singleton.1 hc; rfl)
      (by
        cases g' with
        | nil => exact absurd rfl hne'
        | cons c g' => intro d hd; cases hd; exact ha hg' c (by simp))
      (Words.cons (ha hg') hne hsp (by simp) (Words.nil (by simp)))
    simpa using this
  have hp : ¬ Occurs (py"Parameter") (g ++ 120 :: (g' ++ sp)) := by
    rintro ⟨a, b, e⟩
    have e' := congrArg (List.countP fun c => !isSpace c) e
    have hz : ∀ {g : Str}, Blank g → g.countP (fun c => !isSpace c) = 0 := fun hg => List.countP_eq_zero.2 fun c hc => by simp [hg c hc]
    have h3 := List.countP_le_length (p := fun c => !isSpace c) (l := sp)
    have h9 : (py"Parameter").countP (fun c => !isSpace c) = 9 := by decide
    have h1 : (!isSpace 120) = true := by decide
    simp only [List.countP_append, List.countP_cons, hz hg, hz hg', h9, h1, if_true] at e'
    omega
  have hl : DftdItem.Line (.entry (py"x_" ++ Str.lower sp) (Str.join (py" ") (Str.split v))) (g ++ 120 :: (g' ++ (sp ++ 58 :: v))) :=
    ⟨_, _, ⟨v, hx, h58, hv, (fields_iff _ _).2 rfl⟩, hp, hk, rfl⟩
  obtain ⟨rd, fl, h1, ss, gs, h2, h3, h4⟩ := C92_partial (items ++ [.entry (py"x_" ++ Str.lower sp) (Str.join (py" ") (Str.split v))])
    (ls ++ [g ++ 120 :: (g' ++ (sp ++ 58 :: v))]) (List.rel_append h (.cons hl .nil)) (by
      intro i hi
      rcases List.mem_append.1 hi with hi | hi
      · exact hok i hi
      · obtain rfl := List.mem_singleton.1 hi
        intro e
        have := congrArg List.head? e
        simp at this)
  refine ⟨rd, fl, h1, ss, gs, Str.split v, by simpa [List.filterMap_cons, DftdItem.coefficients] using h2, (fields_iff _ _).2 rfl, by simpa [List.filterMap_cons, DftdItem.general] using h3, h4⟩

/-! ### Examples -/

def exDftdItems : List DftdItem :=
  [.other, .entry (py"dispersion_correction_scheme") (py"G06"), .param (py"parameter_s6") (exDec (py"0") (py"750000")), .other, .other, .other,
   .species ⟨72, [], none, none⟩ (exDec (py"1") (py"4510")) (exDec (py"1") (py"0010"))]

def exDftdLines : List Str :=
  [py"\n", py"         Dispersion-correction scheme : G06\n", py"           Parameter s6 :   0.750000 (default)\n",
   py"   x              Atomic DFT-D parameters                             x\n", py"   x  Species      C6            R0            x\n",
   py"   x               eV A^6        Ang           x\n", py"   x  H             1.4510       1.0010   (default)  x\n"]

theorem exDftd_lines : List.Forall₂ DftdItem.Line exDftdItems exDftdLines := by
  refine .cons (by simp only [DftdItem.Line]; decide +kernel) (.cons ⟨py"         Dispersion-correction scheme ", [py"G06"], ⟨_, rfl, by decide, by decide, (fields_iff _ _).2 (by decide +kernel)⟩,
    not_occurs _ _ (by decide +kernel), keyName_of (by decide +kernel), by decide⟩ (.cons ⟨py"           Parameter s6 ", [py"(default)"],
      ⟨_, rfl, by decide, by decide, (fields_iff _ _).2 (by decide +kernel)⟩, occurs_of (by decide +kernel), keyName_of (by decide +kernel)⟩
    (.cons (by simp only [DftdItem.Line]; decide +kernel) (.cons (by simp only [DftdItem.Line]; decide +kernel) (.cons (by simp only [DftdItem.Line]; decide +kernel) (.cons ?_ .nil))))))
  exact ⟨by decide, py"   ", py"  H             1.4510       1.0010   (default)  x\n", [py"(default)", py"x"], rfl, by decide, ⟨_, _, rfl, rfl⟩,
    py"  ", py"             1.4510       1.0010   (default)  x\n", rfl, by decide, by decide, (fields_iff _ _).2 (by decide +kernel)⟩

theorem exDftd_ok : ∀ i ∈ exDftdItems, i.Ok := by
  intro i hi
  simp only [exDftdItems, List.mem_cons, List.not_mem_nil, or_false] at hi
  rcases hi with rfl | rfl | rfl | rfl | rfl | rfl | rfl <;> simp only [DftdItem.Ok] <;> decide +kernel

/-- The hypotheses of `C92_partial` hold for a report with a scheme, a parameter and a species. -/
example : List.Forall₂ DftdItem.Line exDftdItems exDftdLines ∧ ∀ i ∈ exDftdItems, i.Ok := ⟨exDftd_lines, exDftd_ok⟩

/-- Those of `C92_violated` for deuterium, `   x  H:D   1.4510   1.0010   (default)  x`. -/
example : (List.Forall₂ DftdItem.Line exDftdItems exDftdLines ∧ ∀ i ∈ exDftdItems, i.Ok) ∧ Blank (py"   ") ∧ Blank (py"  ") ∧
    (∀ c ∈ py"H", isAlnum c = true) ∧ 58 ∉ py"D   1.4510   1.0010   (default)  x\n" := ⟨⟨exDftd_lines, exDftd_ok⟩, by decide, by decide, by decide, by decide⟩

end Verif.Props

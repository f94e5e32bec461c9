import Verif.Lemmas.PspotReport
import Verif.Props.Constraints
import Verif.Props.LineTables
import Verif.Props.DeltaScf
/-
C108: reports on pseudopotentials in `.castep` files.
-/
namespace Verif.Props
open Verif Spec Castep

/-- C108 except for the definition of the pseudopotential: every orbital of the reference calculation and every projector with its
values, in order, and the element, charge, theory, solver, radii of the report. -/
theorem C108_partial (items : List PspotItem) (ls : List Str) (h : List.Forall₂ PspotItem.Line items ls) (hok : ∀ i ∈ items, i.Ok) :
    ∃ rd fl : Numeral → F64, (∀ n : Numeral, n.Valid → n.InRange → F64.Nearest n.value (rd n) ∧ F64.Nearest n.value (fl n)) ∧
      ∃ gs, LastWins (items.flatMap (PspotItem.entries rd fl)) gs ∧
        process_pspot_report ls = .ok (.dict ((.str (py"reference_electronic_structure"), .list (items.filterMap (PspotItem.orbitalEntry rd))) ::
          (.str (py"pseudopotential_definition"), .list (items.filterMap (PspotItem.projectorEntry rd))) :: gs)) := by
  obtain ⟨rd, fl, hrd⟩ := readings
  refine ⟨rd, fl, fun n h1 h2 => ⟨(hrd n h1 h2).1.2, (hrd n h1 h2).2.2⟩, _, LineTab.lastWins _, ?_⟩
  have := PspotRep.fold (fun n h1 h2 => (hrd n h1 h2).1.1) (fun n h1 h2 => (hrd n h1 h2).2.1) h hok [] [] []
  rw [process_pspot_report]
  show (do let d ← foldLines pspotLine (PspotRep.state [] [] []) ls; return PyVal.dict d) = _
  rw [this]
  rfl

/-- C108 is false for the definition of the pseudopotential: whatever the report and the definition, its row changes nothing in the
result. -/
theorem C108_violated (before after : List Str) (l text : Str) (h : PspotItem.Definition l text) :
    process_pspot_report (before ++ l :: after) = process_pspot_report (before ++ after) := by
  obtain ⟨⟨g0, g1, ⟨g, g', rfl, hg, -⟩, h0, -⟩, hne, hns, hna, hnc⟩ := h
  have hb : PspotItem.Begins (g ++ 124 :: (g0 ++ 34 :: (text ++ 34 :: g1) ++ 124 :: g')) :=
    ⟨g, g0, 34, text ++ 34 :: g1 ++ 124 :: g', by simp, hg, h0, by decide, by decide, by decide⟩
  have step : ∀ d, pspotLine d (g ++ 124 :: (g0 ++ 34 :: (text ++ 34 :: g1) ++ 124 :: g')) = .ok d := by
    intro d
    rw [PspotRep.skip_both (.inr hb), pspotOther, search_noLit (q := PSPOT_ELEMENT_RE) (by rw [PspotRep.ELEMENT_eq]) hne]
    dsimp only
    rw [search_noLit (q := PSPOT_SOLVER_RE) (by rw [PspotRep.SOLVER_eq]) hns]
    dsimp only
    rw [PspotRep.lazy_none (.inr hb)]
    dsimp only
    rw [if_neg (fun h => hna ((Str.contains_iff _ _).1 h)), if_neg (fun h => hnc ((Str.contains_iff _ _).1 h))]
  rw [process_pspot_report, process_pspot_report, PspotRep.fold_skip step]

/-! ### Examples -/

def exReportItems : List PspotItem :=
  [.other, .other, .other, .element (py"Mn") (exDec (py"15") (py"00")) (py"LDA"), .solver [py"Koelling-Harmon"], .other,
   .orbital (py"2s") (exDec (py"2") (py"000")) ⟨some true, py"0", some (py"501"), none⟩,
   .orbital (py"3s1/2") (exDec (py"2") (py"000")) ⟨some true, py"3", some (py"132"), none⟩,
   .projector (some (py"1")) (py"0") (some (py"1")) ⟨some true, py"3", some (py"132"), none⟩ (exDec (py"1") (py"803")) (py"qc") (py"0"),
   .projector none (py"3") none (exDec (py"0") (py"000")) (exDec (py"1") (py"803")) (py"pn") (py"0"),
   .augmentation [exDec (py"0") (py"600")], .correction [exDec (py"0") (py"600")], .other]

def exReportLines : List Str :=
  [py"   ============================================================\n", py"   | Pseudopotential Report - Date of generation 14-07-2023   |\n",
   py"   ------------------------------------------------------------\n",
   py"   | Element: Mn Ionic charge: 15.00 Level of theory: LDA     |\n", py"   | Atomic Solver: Koelling-Harmon                           |\n",
   py"   |         Orbital         Occupation         Energy        |\n",
   py"   |          2s               2.000           -0.501         |\n", py"   |          3s1/2            2.000           -3.132         |\n",
   py"   |        1     0    1   -3.132   1.803     qc     0        |\n", py"   |       loc    3         0.000   1.803     pn     0        |\n",
   py"   | Augmentation charge Rinner = 0.600                       |\n", py"   | Partial core correction Rc = 0.600                       |\n",
   py"   | \"3|1.8|1.8|0.6|12|14|16|30U:40:31:32(qc=7)\"              |\n"]

theorem exReport_lines : List.Forall₂ PspotItem.Line exReportItems exReportLines := by
  refine .cons ⟨.inl (by decide +kernel), ?_⟩ (.cons ⟨.inr ⟨py"   ", py" ", c!"P", _, rfl, by decide, by decide, by decide, by decide, by decide⟩, ?_⟩
    (.cons ⟨.inl (by decide +kernel), ?_⟩ (.cons ⟨py"   ", py" ", py" ", py" ", py"     |\n", by decide +kernel, by decide, by decide, by decide, by decide, _, _, rfl, by decide⟩
    (.cons ⟨py"   ", py" ", py" Koelling-Harmon                           ", py"\n", by decide +kernel, by decide, by decide, not_occurs _ _ (by decide +kernel),
      (fields_iff _ _).2 (by decide +kernel), by decide +kernel⟩
    (.cons ⟨.inl (by decide +kernel), ?_⟩
    (.cons ⟨py"          ", py"               ", py"           ", py"         ", ⟨py"   ", py"\n", by decide +kernel, by decide, by decide⟩, by decide, by decide, by decide, by decide⟩
    (.cons ⟨py"          ", py"            ", py"           ", py"         ", ⟨py"   ", py"\n", by decide +kernel, by decide, by decide⟩, by decide, by decide, by decide, by decide⟩
    (.cons ⟨py"        ", py"     ", py"    ", py"   ", py"   ", py"     ", py"     ", py"        ", ⟨py"   ", py"\n", by decide +kernel, by decide, by decide⟩,
      by decide, by decide, by decide, by decide, by decide, by decide, by decide, by decide⟩
    (.cons ⟨py"       ", py"    ", py"         ", py" ", py"   ", py"     ", py"     ", py"        ", ⟨py"   ", py"\n", by decide +kernel, by decide, by decide⟩,
      by decide, by decide, by decide, by decide, by decide, by decide, by decide, by decide⟩
    (.cons ⟨⟨py"   ", py" ", c!"A", _, rfl, by decide, by decide, by decide, by decide, by decide⟩, not_occurs _ _ (by decide +kernel), not_occurs _ _ (by decide +kernel),
      occurs_of (by decide +kernel), hasNumbers_of (holds_of _ (py"   | Augmentation charge Rinner = ") [(exDec (py"0") (py"600"), py"                       |\n")] (by decide +kernel) (by decide +kernel)) (by simp)⟩
    (.cons ⟨⟨py"   ", py" ", c!"P", _, rfl, by decide, by decide, by decide, by decide, by decide⟩, not_occurs _ _ (by decide +kernel), not_occurs _ _ (by decide +kernel),
      not_occurs _ _ (by decide +kernel), occurs_of (by decide +kernel),
      hasNumbers_of (holds_of _ (py"   | Partial core correction Rc = ") [(exDec (py"0") (py"600"), py"                       |\n")] (by decide +kernel) (by decide +kernel)) (by simp)⟩
    (.cons ⟨.inr ⟨py"   ", py" ", 34, _, rfl, by decide, by decide, by decide, by decide, by decide⟩, ?_⟩ .nil))))))))))))
  all_goals exact ⟨not_occurs _ _ (by decide +kernel), not_occurs _ _ (by decide +kernel), not_occurs _ _ (by decide +kernel), not_occurs _ _ (by decide +kernel)⟩

theorem exReport_ok : ∀ i ∈ exReportItems, i.Ok := by
  intro i hi
  simp only [exReportItems, List.mem_cons, List.not_mem_nil, or_false] at hi
  rcases hi with rfl | rfl | rfl | rfl | rfl | rfl | rfl | rfl | rfl | rfl | rfl | rfl | rfl
  · trivial
  · trivial
  · trivial
  · exact ⟨⟨c!"M", py"n", rfl, by decide, by decide, by decide⟩, by decide +kernel, by decide, by decide⟩
  · exact List.cons_ne_nil _ _
  · trivial
  · exact ⟨⟨c!"2", c!"s", [], [], rfl, by decide, by decide, by decide, by decide, .inl rfl⟩, by decide +kernel, by decide +kernel⟩
  · exact ⟨⟨c!"3", c!"s", py"1", py"/2", rfl, by decide, by decide, by decide, by decide, .inr ⟨py"2", rfl, by decide, by decide⟩⟩, by decide +kernel, by decide +kernel⟩
  · exact ⟨by rintro _ ⟨⟩; exact ⟨by decide, by decide⟩, ⟨by decide, by decide⟩, by rintro _ ⟨⟩; exact ⟨by decide, by decide⟩, by decide +kernel, by decide +kernel, by decide,
      ⟨by decide, by decide⟩⟩
  · exact ⟨by rintro _ ⟨⟩, ⟨by decide, by decide⟩, by rintro _ ⟨⟩, by decide +kernel, by decide +kernel, by decide, ⟨by decide, by decide⟩⟩
  · intro n hn
    obtain rfl := List.mem_singleton.1 hn
    decide +kernel
  · intro n hn
    obtain rfl := List.mem_singleton.1 hn
    decide +kernel
  · trivial

/-- The hypotheses of `C108_partial` hold for the report of the tests. -/
example : List.Forall₂ PspotItem.Line exReportItems exReportLines ∧ ∀ i ∈ exReportItems, i.Ok := ⟨exReport_lines, exReport_ok⟩

/-- That of `C108_violated` for its definition. -/
example : PspotItem.Definition (py"   | \"3|1.8|1.8|0.6|12|14|16|30U:40:31:32(qc=7)\"              |\n") (py"3|1.8|1.8|0.6|12|14|16|30U:40:31:32(qc=7)") :=
  ⟨⟨py" ", py"              ", ⟨py"   ", py"\n", by decide +kernel, by decide, by decide⟩, by decide, by decide⟩,
    not_occurs _ _ (by decide +kernel), not_occurs _ _ (by decide +kernel), not_occurs _ _ (by decide +kernel), not_occurs _ _ (by decide +kernel)⟩

end Verif.Props

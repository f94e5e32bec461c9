import Verif.Lemmas.DeltaScf
import Verif.Props.UnitCell
/-
C89: the report on the states of a delta SCF calculation.
-/
namespace Verif.Props
open Verif Spec Castep

/-- C89: every state is reported with its band, spin, population and file, and the model the bands are taken from; for files whose
names contain none of the words the parser looks for (`DeltaItem.Lines`). -/
theorem C89_partial (items : List DeltaItem) (ls : List (List Str)) (h : List.Forall₂ DeltaItem.Lines items ls) (hok : ∀ i ∈ items, i.Ok) :
    ∃ rd : Numeral → F64, (∀ n : Numeral, n.Valid → n.InRange → F64.Nearest n.value (rd n)) ∧
      ∃ v, process_delta_scf ls.flatten = .ok v ∧ DeltaReport rd items v := by
  obtain ⟨_, rd, hrd⟩ := readings
  refine ⟨rd, fun n h1 h2 => (hrd n h1 h2).2.2, ?_⟩
  have e := Delta.items_fold (fun n h1 h2 => (hrd n h1 h2).2.1) h hok none [] (by simp)
  rw [List.map_nil] at e
  rw [process_delta_scf, e]
  refine ⟨_, rfl, (items.foldl (Delta.after rd) []).map Delta.Entry.dict, ?_, ?_⟩
  · have := Delta.after_said rd items []
    rw [List.map_nil, List.nil_append] at this
    rw [← this]
    generalize items.foldl (Delta.after rd) [] = xs
    induction xs with
    | nil => exact .nil
    | cons x xs ih => exact .cons (LineTab.lastWins _) ih
  · rw [Delta.src_last]
    cases deltaSource items <;> rfl

/-- C89 is false when the name of the file contains `spin`: whatever the report, such a line changes the spin of the last state to
the first number of the line, and no file is reported for it. -/
theorem C89_violated (items : List DeltaItem) (ls : List (List Str)) (h : List.Forall₂ DeltaItem.Lines items ls) (hok : ∀ i ∈ items, i.Ok)
    (hne : ∃ b s, DeltaItem.state b s ∈ items) (l : Str) (n : Numeral) (ns : List Numeral) (hs : ¬ DeltaItem.Source l)
    (hw : DeltaItem.Without [py"MODOS state", py"nr."] l) (_ : Occurs (py"Writing file") l) (hp : Occurs (py"spin") l)
    (hn : HasNumbers l (n :: ns)) (hv : ∀ m ∈ n :: ns, m.Valid) (hi : n.IsInt) :
    ∃ rd : Numeral → F64, (∀ n : Numeral, n.Valid → n.InRange → F64.Nearest n.value (rd n)) ∧
      ∃ init last ds d file, deltaStates rd items = init ++ [last] ∧ List.Forall₂ LastWins init ds ∧
        LastWins (last ++ [(.str (py"spin"), .int (intOf n))]) d ∧
        process_delta_scf (ls.flatten ++ [l]) = .ok (.dict ((.str (py"states"), .list ((ds ++ [d]).map .dict)) :: file)) ∧
        file = (deltaSource items).toList.map fun n => (.str (py"file"), .str n) := by
  obtain ⟨_, rd, hrd⟩ := readings
  refine ⟨rd, fun n h1 h2 => (hrd n h1 h2).2.2, ?_⟩
  have e := Delta.items_fold (fun n h1 h2 => (hrd n h1 h2).2.1) h hok none [] (by simp)
  rw [List.map_nil] at e
  have hsaid := Delta.after_said rd items []
  rw [List.map_nil, List.nil_append] at hsaid
  have hne' : deltaStates rd items ≠ [] := by
    obtain ⟨b, s, hm⟩ := hne
    clear * - hm
    induction items with
    | nil => cases hm
    | cons it items ih =>
      rcases List.mem_cons.1 hm with rfl | hm'
      · simp [deltaStates]
      · cases it with
        | state b s => simp [deltaStates]
        | _ => exact ih hm'
  rcases List.eq_nil_or_concat (items.foldl (Delta.after rd) []) with h0 | ⟨xs, x, h0⟩
  · rw [h0] at hsaid; exact absurd hsaid.symm hne'
  rw [List.concat_eq_append] at h0
  rw [h0, List.map_append, List.map_cons, List.map_nil] at hsaid
  refine ⟨xs.map Delta.Entry.said, x.said, xs.map Delta.Entry.dict, (x.more (some (.str (py"spin"), .int (intOf n)))).dict, _, hsaid.symm, ?_, ?_, ?_, rfl⟩
  · clear * -
    induction xs with
    | nil => exact .nil
    | cons x xs ih => exact .cons (LineTab.lastWins _) ih
  · exact LineTab.lastWins _
  · rw [process_delta_scf, BandTab.foldLines_append, e, h0]
    simp only [Delta.ok_bind]
    rw [Castep.foldLines_cons (t := (items.foldl Delta.src none, (xs ++ [x.more (some (.str (py"spin"), .int (intOf n)))]).map Delta.Entry.dict))]
    · rw [Delta.src_last]
      simp only [foldLines, Delta.ok_bind]
      cases deltaSource items <;> simp <;> rfl
    · simp only [deltaLine, Delta.starts_not hs, Delta.occ_not (hw _ (List.mem_cons_self ..)), Delta.occ_not (hw (py"nr.") (by simp)), Delta.occ hp,
        Bool.false_eq_true, if_false, if_true]
      rw [get_numbers_has hn hv, Delta.at_ok rfl]
      simp only [Delta.ok_bind, Delta.intV_ok (hv n (by simp)) hi, setLast]
      simp [Delta.Entry.more_dict]

/-! ### A report -/

def exDelta : List DeltaItem :=
  [.other, .source (py"N2-base.check"), .state (exInt (py"5")) (exInt (py"1")), .state (exInt (py"6")) (exInt (py"1")),
   .pop (exInt (py"5")) (exInt (py"1")) (exDec (py"1") (py"000")), .pop (exInt (py"6")) (exInt (py"1")) (exDec (py"0") (py"000")),
   .file (exInt (py"5")) (exInt (py"1")) (py"N2-modos.modos_state_5_1")]

def exDeltaLines : List (List Str) :=
  [[py"               Calculating MODOS weights\n"], [py"Taking band from model   N2-base.check\n"],
   [py"  MODOS state               1\n", py"  MODOS band  nr.           5\n", py"  MODOS band has spin       1\n"],
   [py"  MODOS state               2\n", py"  MODOS band  nr.           6\n", py"  MODOS band has spin       1\n"],
   [py"|DeltaSCF| Population of state:     5     1   1.000\n"], [py"|DeltaSCF| Population of state:     6     1   0.000\n"],
   [py" Writing file   N2-modos.modos_state_5_1\n"]]

theorem not_source {l : Str} (h : Str.startsWith l (py"Taking band from") = false) : ¬ DeltaItem.Source l := by
  intro hs
  rw [Delta.starts hs] at h; cases h

theorem lacks_of {ws : List Str} {l : Str} (h : (ws.all fun w => !Str.contains w l) = true) : DeltaItem.Without ws l := by
  intro w hw ho
  have := List.all_eq_true.1 h w hw
  rw [Delta.occ ho] at this; cases this

theorem occurs_of {w l : Str} (h : Str.contains w l = true) : Occurs w l := (Str.contains_iff _ _).1 h

theorem exDelta_lines : List.Forall₂ DeltaItem.Lines exDelta exDeltaLines := by
  refine .cons ⟨_, rfl, not_source (by decide +kernel), lacks_of (by decide +kernel)⟩ (.cons ⟨_, [py"Taking", py"band", py"from", py"model"], rfl, ⟨_, rfl⟩, (fields_iff _ _).2 (by decide +kernel)⟩
    (.cons ?_ (.cons ?_ (.cons ?_ (.cons ?_ (.cons ?_ .nil))))))
  · exact ⟨_, _, _, [], [], rfl, ⟨not_source (by decide +kernel), occurs_of (by decide +kernel)⟩,
      ⟨not_source (by decide +kernel), lacks_of (by decide +kernel), occurs_of (by decide +kernel),
        hasNumbers_of (holds_of _ (py"  MODOS band  nr.           ") [(exInt (py"5"), py"\n")] (by decide +kernel) (by decide +kernel)) (by simp), by simp⟩,
      not_source (by decide +kernel), lacks_of (by decide +kernel), occurs_of (by decide +kernel),
        hasNumbers_of (holds_of _ (py"  MODOS band has spin       ") [(exInt (py"1"), py"\n")] (by decide +kernel) (by decide +kernel)) (by simp), by simp⟩
  · exact ⟨_, _, _, [], [], rfl, ⟨not_source (by decide +kernel), occurs_of (by decide +kernel)⟩,
      ⟨not_source (by decide +kernel), lacks_of (by decide +kernel), occurs_of (by decide +kernel),
        hasNumbers_of (holds_of _ (py"  MODOS band  nr.           ") [(exInt (py"6"), py"\n")] (by decide +kernel) (by decide +kernel)) (by simp), by simp⟩,
      not_source (by decide +kernel), lacks_of (by decide +kernel), occurs_of (by decide +kernel),
        hasNumbers_of (holds_of _ (py"  MODOS band has spin       ") [(exInt (py"1"), py"\n")] (by decide +kernel) (by decide +kernel)) (by simp), by simp⟩
  · exact ⟨_, [], rfl, not_source (by decide +kernel), lacks_of (by decide +kernel), occurs_of (by decide +kernel),
      hasNumbers_of (holds_of _ (py"|DeltaSCF| Population of state:     ") [(exInt (py"5"), py"     "), (exInt (py"1"), py"   "), (exDec (py"1") (py"000"), py"\n")]
        (by decide +kernel) (by decide +kernel)) (by simp), by simp⟩
  · exact ⟨_, [], rfl, not_source (by decide +kernel), lacks_of (by decide +kernel), occurs_of (by decide +kernel),
      hasNumbers_of (holds_of _ (py"|DeltaSCF| Population of state:     ") [(exInt (py"6"), py"     "), (exInt (py"1"), py"   "), (exDec (py"0") (py"000"), py"\n")]
        (by decide +kernel) (by decide +kernel)) (by simp), by simp⟩
  · exact ⟨_, py" Writing file   N2-modos.modos_state", py"\n", [py"Writing", py"file"], rfl, not_source (by decide +kernel), lacks_of (by decide +kernel),
      occurs_of (by decide +kernel), by decide +kernel, by decide +kernel, (fields_iff _ _).2 (by decide +kernel)⟩

theorem exDelta_ok : ∀ i ∈ exDelta, i.Ok := by
  intro i hi
  simp only [exDelta, List.mem_cons, List.not_mem_nil, or_false] at hi
  rcases hi with rfl | rfl | rfl | rfl | rfl | rfl | rfl <;> simp only [DeltaItem.Ok] <;> decide +kernel

/-- The hypotheses of `C89_partial` hold for a report of two states. -/
example : List.Forall₂ DeltaItem.Lines exDelta exDeltaLines ∧ (∀ i ∈ exDelta, i.Ok) := ⟨exDelta_lines, exDelta_ok⟩

/-- What is reported about the first state. -/
example (rd : Numeral → F64) : (deltaStates rd exDelta).head? = some [(.str (py"band"), .int 5), (.str (py"spin"), .int 1),
    (.str (py"pop"), .float (rd (exDec (py"1") (py"000")))), (.str (py"file"), .str (py"N2-modos.modos_state_5_1"))] := rfl

/-- A file whose name contains `spin`. -/
def exDeltaSpin : Str := py" Writing file   graphene-spin.modos_state_6_1\n"

/-- The hypotheses of `C89_violated` hold for it: the spin of the second state becomes 6. -/
example : ¬ DeltaItem.Source exDeltaSpin ∧ DeltaItem.Without [py"MODOS state", py"nr."] exDeltaSpin ∧ Occurs (py"Writing file") exDeltaSpin ∧
    Occurs (py"spin") exDeltaSpin ∧ HasNumbers exDeltaSpin [exInt (py"6"), exInt (py"1")] ∧ intOf (exInt (py"6")) = 6 :=
  ⟨not_source (by decide +kernel), lacks_of (by decide +kernel), occurs_of (by decide +kernel), occurs_of (by decide +kernel),
    hasNumbers_of (holds_of _ (py" Writing file   graphene-spin.modos_state_") [(exInt (py"6"), py"_"), (exInt (py"1"), py"\n")] (by decide +kernel) (by decide +kernel)) (by simp),
    by decide +kernel⟩

end Verif.Props

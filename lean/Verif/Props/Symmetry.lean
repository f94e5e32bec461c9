import Verif.Lemmas.Symmetry
import Verif.Props.ElasticProps
/-
C95: the report on symmetry and constraints.
-/
namespace Verif.Props
open Verif Spec Castep

/-- C95: the groups, the counts, the operations and everything else that is stated on the symmetry is reported, and what is stated on constraints
apart from it. -/
theorem C95_partial (items : List SymItem) (ls : List (List Str)) (h : List.Forall₂ SymItem.Lines items ls) (hok : ∀ i ∈ items, i.Ok) :
    ∃ rd fl : Numeral → F64, (∀ n : Numeral, n.Valid → n.InRange → F64.Nearest n.value (rd n) ∧ F64.Nearest n.value (fl n)) ∧
      ∃ sym con, process_symmetry ls.flatten = .ok (sym, con) ∧
        LastWins (items.filterMap (SymItem.symmetry fl (SymItem.ops rd items))) sym ∧ LastWins (items.filterMap SymItem.constraint) con := by
  obtain ⟨rd, fl, hrd⟩ := readings
  refine ⟨rd, fl, fun n h1 h2 => ⟨(hrd n h1 h2).1.2, (hrd n h1 h2).2.2⟩, Dict.ofList (Sym.cum rd fl [] items), _, ?_, ?_, LineTab.lastWins _⟩
  · have hle : items.length ≤ ls.flatten.length := Sym.length_le h
    have := Sym.loop (fun n h1 h2 => (hrd n h1 h2).1.1) (fun n h1 h2 => (hrd n h1 h2).2.1) h hok [] (ls.flatten.length + 1 - items.length) [] [] [] rfl
    rw [Nat.sub_add_cancel (by omega), List.append_nil, List.nil_append, List.nil_append] at this
    rw [process_symmetry]
    refine this.trans ?_
    obtain ⟨k, hk⟩ : ∃ k, ls.flatten.length + 1 - items.length = k + 1 := ⟨ls.flatten.length - items.length, by omega⟩
    rw [hk, symmetryLoop]
  · obtain ⟨h1, h2⟩ := LineTab.lastWins (Sym.cum rd fl [] items)
    have hc := fun k => Sym.cum_find rd fl k items []
    rw [List.nil_append] at hc
    exact ⟨by rw [h1, (hc .none).1], fun p hp => by rw [← (hc p.1).2]; exact h2 p hp⟩

/-- C95 is violated for species with tags: after any part of a report, a symmetry operation that lists the atoms of a species such as `H:D` makes
the reading of the report fail. -/
theorem C95_violated (items : List SymItem) (ls : List (List Str)) (h : List.Forall₂ SymItem.Lines items ls) (hok : ∀ i ∈ items, i.Ok)
    (o : SymOp) (head rels : List Str) (l : Str) (rest : List Str) (ho : SymItem.OpHead o head) (hoo : SymItem.OpOk o) (hr : List.Forall₂ SymItem.Related o.rel rels)
    (hl : SymItem.Tagged l) : process_symmetry (ls.flatten ++ (head ++ (rels ++ l :: rest))) = .error .valueError := by
  obtain ⟨rd, fl, hrd⟩ := readings
  obtain ⟨title, tl, rfl, k1, k2, k3⟩ := Sym.symop_eq (fun n h1 h2 => (hrd n h1 h2).1.1) ho hoo (rels ++ l :: rest)
  rw [Sym.related_ok hr hoo.2.2, Sym.related_tagged hl] at k3
  have hle : items.length ≤ ls.flatten.length := Sym.length_le h
  have := Sym.loop (fun n h1 h2 => (hrd n h1 h2).1.1) (fun n h1 h2 => (hrd n h1 h2).2.1) h hok (title :: tl ++ (rels ++ l :: rest))
    ((ls.flatten ++ (title :: tl ++ (rels ++ l :: rest))).length - items.length + 1) [] [] [] rfl
  rw [process_symmetry, show (ls.flatten ++ (title :: tl ++ (rels ++ l :: rest))).length + 1 =
    (ls.flatten ++ (title :: tl ++ (rels ++ l :: rest))).length - items.length + 1 + items.length by rw [List.length_append]; omega]
  refine this.trans ?_
  rw [List.cons_append, symmetryLoop, symmetryLine, if_neg k1, if_pos k2, k3]
  rfl

/-! ### Examples -/

def exSymOp : SymOp :=
  ⟨[[exDec (py"1") (py"00"), exDec (py"0") (py"00"), exDec (py"0") (py"00")], [exDec (py"0") (py"00"), exDec (py"1") (py"00"), exDec (py"0") (py"00")],
    [exDec (py"0") (py"00"), exDec (py"0") (py"00"), exDec (py"1") (py"00")]], [exDec (py"0") (py"50"), exDec (py"0") (py"00"), exDec (py"0") (py"00")],
   [(py"Br", [exInt (py"1")]), (py"Se", [exInt (py"1"), exInt (py"2")])]⟩

def exSymHead : List Str :=
  [py"                    1 rotation\n", py"     (   1.00   0.00   0.00 )\n", py"     (   0.00   1.00   0.00 )\n", py"     (   0.00   0.00   1.00 )\n",
   py"                    1 displacement\n", py"     (   0.50   0.00   0.00 )\n", py"                      symmetry related atoms:\n"]

def exSymRel : List Str := [py"             Br:    1\n", py"             Se:    1    2\n"]

theorem exSym_head : SymItem.OpHead exSymOp exSymHead := by
  refine ⟨_, _, _, _, _, _, _, py"1", [], rfl, by decide, (fields_iff _ _).2 (by decide +kernel), by decide, .cons ?_ (.cons ?_ (.cons ?_ .nil)), ?_⟩
  · exact hasNumbers_of (holds_of _ (py"     (   ") [(exDec (py"1") (py"00"), py"   "), (exDec (py"0") (py"00"), py"   "), (exDec (py"0") (py"00"), py" )\n")]
      (by decide +kernel) (by decide +kernel)) (by simp)
  · exact hasNumbers_of (holds_of _ (py"     (   ") [(exDec (py"0") (py"00"), py"   "), (exDec (py"1") (py"00"), py"   "), (exDec (py"0") (py"00"), py" )\n")]
      (by decide +kernel) (by decide +kernel)) (by simp)
  · exact hasNumbers_of (holds_of _ (py"     (   ") [(exDec (py"0") (py"00"), py"   "), (exDec (py"0") (py"00"), py"   "), (exDec (py"1") (py"00"), py" )\n")]
      (by decide +kernel) (by decide +kernel)) (by simp)
  · exact hasNumbers_of (holds_of _ (py"     (   ") [(exDec (py"0") (py"50"), py"   "), (exDec (py"0") (py"00"), py"   "), (exDec (py"0") (py"00"), py" )\n")]
      (by decide +kernel) (by decide +kernel)) (by simp [exSymOp])

theorem exSym_rel : List.Forall₂ SymItem.Related exSymOp.rel exSymRel :=
  .cons ⟨py"             ", py"    1\n", rfl, by decide, by decide, (fields_iff _ _).2 (by decide +kernel)⟩
    (.cons ⟨py"             ", py"    1    2\n", rfl, by decide, by decide, (fields_iff _ _).2 (by decide +kernel)⟩ .nil)

theorem exSym_ok : SymItem.OpOk exSymOp := by
  simp only [SymItem.OpOk, SymItem.IsReal, SymItem.IsWhole, SymItem.LabelOk, Numeral.IsInt]
  decide +kernel

def exSymItems : List SymItem :=
  [.supercell (exInt (py"2")), .deviation (exDec (py"0") (py"00000")), .count (py"symmetry_operations") (exInt (py"1")), .count (py"ionic_constraints") (exInt (py"3")),
   .pointGroup (exInt (py"1")) [py"C1"] [py"1"] [py"1"], .spaceGroup (exInt (py"213")) [py"P4_132"] [py"P", py"4bd", py"2ab", py"3"], .other, .op exSymOp, .centre true,
   .cell [exInt (py"1"), exInt (py"2"), exInt (py"0")]]

def exSymLines : List (List Str) :=
  [[py"      Cell is a supercell containing 2 primitive cells\n"], [py"      Maximum deviation from symmetry =  0.00000         ANG\n"],
   [py"      Number of symmetry operations   =           1\n"], [py"      Number of ionic constraints     =           3\n"], [py"      Point group of crystal =     1: C1, 1, 1\n"],
   [py"      Space group of crystal =   213: P4_132, P 4bd 2ab 3\n"], [py"             Set iprint > 1 for details on symmetry rotations/translations\n"],
   exSymHead ++ (exSymRel ++ [py"\n"]), [py"                         Centre of mass is NOT constrained\n"], [py"                         Cell constraints are:  1 2 0\n"]]

theorem exSym_lines : List.Forall₂ SymItem.Lines exSymItems exSymLines := by
  have plain : ∀ l : Str, 61 ∉ l → Str.contains (py"rotation") l = false → SymItem.Plain l := fun l h1 h2 => ⟨h1, .inl (not_occurs _ _ h2)⟩
  refine .cons ?_ (.cons ?_ (.cons ?_ (.cons ?_ (.cons ?_ (.cons ?_ (.cons ?_ (.cons ?_ (.cons ?_ (.cons ?_ .nil)))))))))
  · exact ⟨_, [], rfl, plain _ (by decide) (by decide +kernel), occurs_of (by decide +kernel), by simp,
      hasNumbers_of (holds_of _ (py"      Cell is a supercell containing ") [(exInt (py"2"), py" primitive cells\n")] (by decide +kernel) (by decide +kernel)) (by simp)⟩
  · exact ⟨_, py"  0.00000         ANG\n", [py"ANG"], rfl, ⟨py"      Maximum deviation from symmetry ", rfl, by decide, by decide, keyName_of (by decide +kernel)⟩,
      (fields_iff _ _).2 (by decide +kernel)⟩
  · exact ⟨_, py"           1\n", rfl, ⟨py"      Number of symmetry operations   ", rfl, by decide, by decide, keyName_of (by decide +kernel)⟩,
      (fields_iff _ _).2 (by decide +kernel)⟩
  · exact ⟨_, py"           3\n", rfl, ⟨py"      Number of ionic constraints     ", rfl, by decide, by decide, keyName_of (by decide +kernel)⟩,
      (fields_iff _ _).2 (by decide +kernel)⟩
  · exact ⟨_, py"     1: C1, 1, 1\n", rfl, ⟨py"      Point group of crystal ", rfl, by decide, by decide, keyName_of (by decide +kernel)⟩,
      [py"1:", py"C1,", py"1,", py"1"], (fields_iff _ _).2 (by decide +kernel), by decide +kernel⟩
  · exact ⟨_, py"   213: P4_132, P 4bd 2ab 3\n", rfl, ⟨py"      Space group of crystal ", rfl, by decide, by decide, keyName_of (by decide +kernel)⟩,
      [py"213:", py"P4_132,", py"P", py"4bd", py"2ab", py"3"], (fields_iff _ _).2 (by decide +kernel), by decide +kernel⟩
  · exact ⟨_, rfl, ⟨by decide, .inr (.inr ⟨py"Set", _, (fields_iff _ _).2 (by rfl), by decide⟩)⟩, not_occurs _ _ (by decide +kernel), not_occurs _ _ (by decide +kernel),
      not_occurs _ _ (by decide +kernel), not_occurs _ _ (by decide +kernel)⟩
  · exact ⟨exSymHead, exSymRel, _, rfl, exSym_head, exSym_rel, by decide⟩
  · exact ⟨_, rfl, plain _ (by decide) (by decide +kernel), not_occurs _ _ (by decide +kernel), occurs_of (by decide +kernel), fun _ => occurs_of (by decide +kernel), fun _ => rfl⟩
  · exact ⟨_, rfl, plain _ (by decide) (by decide +kernel), not_occurs _ _ (by decide +kernel), not_occurs _ _ (by decide +kernel), not_occurs _ _ (by decide +kernel),
      occurs_of (by decide +kernel), hasNumbers_of (holds_of _ (py"                         Cell constraints are:  ") [(exInt (py"1"), py" "), (exInt (py"2"), py" "),
        (exInt (py"0"), py"\n")] (by decide +kernel) (by decide +kernel)) (by simp)⟩

theorem exSym_allOk : ∀ i ∈ exSymItems, i.Ok := by
  intro i hi
  simp only [exSymItems, List.mem_cons, List.not_mem_nil, or_false] at hi
  rcases hi with rfl | rfl | rfl | rfl | rfl | rfl | rfl | rfl | rfl | rfl
  case inr.inr.inr.inr.inr.inr.inr.inl => exact exSym_ok
  all_goals
    simp only [SymItem.Ok, SymItem.IsReal, SymItem.IsWhole, SymItem.PhraseOk, Numeral.IsInt]
    try decide +kernel

/-- The hypotheses of `C95_partial` hold for a report with an operation, both groups and constraints. -/
example : List.Forall₂ SymItem.Lines exSymItems exSymLines ∧ ∀ i ∈ exSymItems, i.Ok := ⟨exSym_lines, exSym_allOk⟩

/-- The hypotheses of `C95_violated` hold for the same report and an operation that lists atoms of the species `H:D`. -/
example : List.Forall₂ SymItem.Lines exSymItems exSymLines ∧ (∀ i ∈ exSymItems, i.Ok) ∧ SymItem.OpHead exSymOp exSymHead ∧ SymItem.OpOk exSymOp ∧
    List.Forall₂ SymItem.Related exSymOp.rel exSymRel ∧ SymItem.Tagged (py"             H:D:    1\n") :=
  ⟨exSym_lines, exSym_allOk, exSym_head, exSym_ok, exSym_rel, py"             ", py"H", py"D", py"    1\n", rfl, by decide, by decide, by decide, by decide⟩

end Verif.Props

import Verif.Lemmas.NonLin
import Verif.Props.CellBlocks
import Verif.Props.Constraints
import Verif.Props.Grids
/-
C104: constraints on distances and angles in `.cell` files.
-/
namespace Verif.Props
open Verif Spec Cell

/-- C104.  What a block of non-linear constraints gives, whatever the atoms: one entry for each line, in order, with its kind and a
dictionary filled with one atom after the other. -/
theorem C104_exact (l : Str) (blk : List Str) (last : Str) (kept : List Str) (cs : List NonLin)
    (hl : OpensNamed l (py"nonlinear_constraints")) (hb : ∀ x ∈ blk, ¬ ClosesBlock x) (hlast : ClosesBlock last)
    (hk : KeptInline cellComments blk kept) (hrows : List.Forall₂ (fun l c => NonLin.Line l c) kept cs) (hok : ∀ c ∈ cs, c.Ok) :
    ∃ ds, List.Forall₂ (fun (c : NonLin) d => LastWins (c.atoms.map NonLin.entry) d) cs ds ∧
      parse_cell_param_file (l :: (blk ++ [last])) =
        .ok (.list [.dict [(.str (py"nonlinear_constraints"), .list ((cs.zip ds).map fun p => p.1.report p.2))]]) := by
  refine ⟨cs.map fun c => Dict.ofList (c.atoms.map NonLin.entry), ?_, ?_⟩
  · clear * -
    induction cs with
    | nil => exact .nil
    | cons c cs ih => exact .cons (LineTab.lastWins _) ih
  have hlp := NonLinL.loop_rows (last := clean last) ((closes_clean _).2 hlast) hrows hok
  have hp : parserFor (py"nonlinear_constraints") = parse_nonlinear_constraints := rfl
  have hz : ((cs.zip (cs.map fun c => Dict.ofList (c.atoms.map NonLin.entry))).map fun p => p.1.report p.2) =
      cs.map fun c => c.report (Dict.ofList (c.atoms.map NonLin.entry)) := by
    clear * -
    induction cs with
    | nil => rfl
    | cons c cs ih => simpa using ih
  rw [parse_named hl hb hlast, stripped_block hlast hk, hp, parse_nonlinear_constraints, Block.rest, List.drop_zero, hz]
  simp only [hlp]
  rfl

/-- C104 for constraints between different atoms: each is reported with its kind and exactly its atoms, in order, with the cell each
is in. -/
theorem C104_partial (l : Str) (blk : List Str) (last : Str) (kept : List Str) (cs : List NonLin)
    (hl : OpensNamed l (py"nonlinear_constraints")) (hb : ∀ x ∈ blk, ¬ ClosesBlock x) (hlast : ClosesBlock last)
    (hk : KeptInline cellComments blk kept) (hrows : List.Forall₂ (fun l c => NonLin.Line l c) kept cs) (hok : ∀ c ∈ cs, c.Ok)
    (hd : ∀ c ∈ cs, (c.atoms.map AtomVec.key).Nodup) :
    parse_cell_param_file (l :: (blk ++ [last])) =
      .ok (.list [.dict [(.str (py"nonlinear_constraints"), .list (cs.map fun c => c.report (c.atoms.map NonLin.entry)))]]) := by
  obtain ⟨ds, h2, h3⟩ := C104_exact l blk last kept cs hl hb hlast hk hrows hok
  rw [h3]
  congr 7
  clear hrows hk h3 hok
  induction h2 with
  | nil => rfl
  | @cons c d cs ds hc _ ih =>
    rw [List.zip_cons_cons, List.map_cons, List.map_cons, ih fun c hc => hd c (by simp [hc])]
    congr 2
    have hn : ((c.atoms.map NonLin.entry).map Prod.fst).Nodup := by
      have := hd c (by simp)
      rw [List.map_map]
      exact this
    rw [LineTab.lastWins_unique hc (LineTab.lastWins _), Dict.ofList_nodup _ hn]

/-- C104 is false for every constraint with an atom and an image of the same atom: fewer atoms are reported than there are. -/
theorem C104_violated (l : Str) (blk : List Str) (last : Str) (kept : List Str) (cs : List NonLin)
    (hl : OpensNamed l (py"nonlinear_constraints")) (hb : ∀ x ∈ blk, ¬ ClosesBlock x) (hlast : ClosesBlock last)
    (hk : KeptInline cellComments blk kept) (hrows : List.Forall₂ (fun l c => NonLin.Line l c) kept cs) (hok : ∀ c ∈ cs, c.Ok)
    (c : NonLin) (hc : c ∈ cs) (hd : ¬ (c.atoms.map AtomVec.key).Nodup) :
    ∃ (vs : List PyVal) (d : List (Key × PyVal)),
      parse_cell_param_file (l :: (blk ++ [last])) = .ok (.list [.dict [(.str (py"nonlinear_constraints"), .list vs)]]) ∧
      c.report d ∈ vs ∧ d.length < c.atoms.length := by
  obtain ⟨ds, h2, h3⟩ := C104_exact l blk last kept cs hl hb hlast hk hrows hok
  obtain ⟨d, hm, hl⟩ : ∃ d, (c, d) ∈ cs.zip ds ∧ LastWins (c.atoms.map NonLin.entry) d := by
    clear hrows hk h3 hok
    induction h2 with
    | nil => cases hc
    | @cons c' d cs ds hl _ ih =>
      rcases List.mem_cons.1 hc with rfl | hc
      · exact ⟨d, by simp, hl⟩
      · obtain ⟨d', h1, h2⟩ := ih hc
        exact ⟨d', by simp [h1], h2⟩
  refine ⟨_, d, h3, List.mem_map.2 ⟨(c, d), hm, rfl⟩, ?_⟩
  have e := congrArg List.length hl.1
  obtain ⟨h4, h5⟩ := eraseDups_length _ ((c.atoms.map NonLin.entry).map Prod.fst) le_rfl
  rw [← e] at h4 h5
  simp only [List.length_map] at h4 h5
  refine lt_of_le_of_ne h4 fun he => hd ?_
  have := h5 he
  rw [List.map_map] at this
  exact this

/-! ### The hypotheses can be met -/

def exNlAtom (u : Nat) (idx x y z : Str) : AtomVec := ⟨⟨u, [], none, none⟩, idx, exInt x, exInt y, exInt z⟩

/-- A distance, and a distance between an atom and its image. -/
def exNonLin : List NonLin :=
  [⟨py"distance", [exNlAtom 72 (py"4") (py"0") (py"0") (py"0"), exNlAtom 79 (py"2") (py"0") (py"1") (py"0")]⟩,
   ⟨py"distance", [exNlAtom 72 (py"4") (py"0") (py"0") (py"0"), exNlAtom 72 (py"4") (py"1") (py"0") (py"0")]⟩]

def exNonLinLines : List Str := [py"distance       H  4  0 0 0   O 2 0 1 0", py"  distance H  4  0 0 0   H 4 1 0 0"]

theorem exNonLinRows : List.Forall₂ (fun l c => NonLin.Line l c) exNonLinLines exNonLin := by
  refine .cons ⟨[], py"       ", py"H  4  0 0 0   O 2 0 1 0", rfl, by decide, by decide, ?_⟩
    (.cons ⟨py"  ", py" ", py"H  4  0 0 0   H 4 1 0 0", rfl, by decide, by decide, ?_⟩ .nil)
  · exact .cons (a := exNlAtom 72 (py"4") (py"0") (py"0") (py"0")) (g0 := py"  ") (g1 := py"  ") (g2 := py" ") (g3 := py" ") (g := py"   ")
      (by decide) (by decide) (by decide) (by decide) (by decide)
      (.last (a := exNlAtom 79 (py"2") (py"0") (py"1") (py"0")) (g0 := py" ") (g1 := py" ") (g2 := py" ") (g3 := py" ") (by decide) (by decide) (by decide) (by decide))
  · exact .cons (a := exNlAtom 72 (py"4") (py"0") (py"0") (py"0")) (g0 := py"  ") (g1 := py"  ") (g2 := py" ") (g3 := py" ") (g := py"   ")
      (by decide) (by decide) (by decide) (by decide) (by decide)
      (.last (a := exNlAtom 72 (py"4") (py"1") (py"0") (py"0")) (g0 := py" ") (g1 := py" ") (g2 := py" ") (g3 := py" ") (by decide) (by decide) (by decide) (by decide))

example : OpensNamed (py"%BLOCK Nonlinear_Constraints\n") (py"nonlinear_constraints") ∧ ClosesBlock (py"%ENDBLOCK nonlinear_constraints\n") ∧
    KeptInline cellComments [py"distance       H  4  0 0 0   O 2 0 1 0\n", py"# x\n", py"  distance H  4  0 0 0   H 4 1 0 0 ! y\n"] exNonLinLines ∧
    List.Forall₂ (fun l c => NonLin.Line l c) exNonLinLines exNonLin ∧ (∀ c ∈ exNonLin, c.Ok) ∧
    (∀ c ∈ exNonLin.take 1, (c.atoms.map AtomVec.key).Nodup) ∧ (∀ c ∈ exNonLin.drop 1, ¬ (c.atoms.map AtomVec.key).Nodup) := by
  refine ⟨opens_example _ _ (py"%BLOCK ") [] (py"Nonlinear_Constraints") (py"\n") (by decide) (by decide) (by decide) (by decide)
      (by decide) (by decide) (by decide), ⟨[], py"%ENDBLOCK", py" nonlinear_constraints\n", rfl, (by intro c hc; cases hc), by decide⟩,
    (C20_inline _ _ (by decide) _).1 (by decide +kernel), exNonLinRows, by decide +kernel, by decide, by decide⟩

end Verif.Props

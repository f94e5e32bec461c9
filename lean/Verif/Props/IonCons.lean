import Verif.Lemmas.IonCons
import Verif.Props.CellBlocks
import Verif.Props.Grids
/-
C99: linear constraints of `.cell` files.
-/
namespace Verif.Props
open Verif Spec Cell

/-- C99.  What a block of linear constraints gives, whatever the numbers of the constraints: for each atom the coefficients
of those of its lines whose constraint is numbered with a single digit, in order; each number is the double nearest to the
one written. -/
theorem C99_single (l : Str) (blk : List Str) (last : Str) (kept : List Str) (cs : List IonCons)
    (hl : OpensNamed l (py"ionic_constraints")) (hb : ∀ x ∈ blk, ¬ ClosesBlock x) (hlast : ClosesBlock last)
    (hk : KeptInline cellComments blk kept) (hrows : List.Forall₂ (fun l c => IonCons.Line l c) kept cs) (hok : ∀ c ∈ cs, c.Ok) :
    ∃ rd : Numeral → F64, (∀ c ∈ cs, ∀ n ∈ [c.atom.x, c.atom.y, c.atom.z], F64.Nearest n.value (rd n)) ∧
      parse_cell_param_file (l :: (blk ++ [last])) =
        .ok (.list [.dict [(.str (py"ionic_constraints"), .dict (ionConstraints rd (cs.filter fun c => c.Single)))]]) := by
  obtain ⟨rd, fl, hrd⟩ := readings
  have hr : ∀ c ∈ cs, ∀ n ∈ [c.atom.x, c.atom.y, c.atom.z], n.Valid ∧ n.InRange := fun c hc => (hok c hc).2.2.2.2.2
  refine ⟨rd, fun c hc n hn => (hrd n (hr c hc n hn).1 (hr c hc n hn).2).1.2, ?_⟩
  have hlp := IonCons.loop_rows (rd := rd) (last := clean last) ((closes_clean _).2 hlast) hrows hok
    (fun c hc n hn => (hrd n (hr c hc n hn).1 (hr c hc n hn).2).1.1) []
  have he : (grouped [] : Dict Key PyVal) = [] := rfl
  rw [he, List.nil_append] at hlp
  have hp : parserFor (py"ionic_constraints") = parse_ionic_constraints := rfl
  rw [parse_named hl hb hlast, stripped_block hlast hk, hp, parse_ionic_constraints, Block.rest, List.drop_zero]
  simp only [hlp]
  rfl

/-- C99.  A block of linear constraints, with comments and blank lines anywhere, gives for each atom the coefficients of its
lines, in order.  Partial: the constraints must be numbered with a single digit, see `C99_violated`. -/
theorem C99_partial (l : Str) (blk : List Str) (last : Str) (kept : List Str) (cs : List IonCons)
    (hl : OpensNamed l (py"ionic_constraints")) (hb : ∀ x ∈ blk, ¬ ClosesBlock x) (hlast : ClosesBlock last)
    (hk : KeptInline cellComments blk kept) (hrows : List.Forall₂ (fun l c => IonCons.Line l c) kept cs) (hok : ∀ c ∈ cs, c.Ok)
    (h1 : ∀ c ∈ cs, c.Single) :
    ∃ rd : Numeral → F64, (∀ c ∈ cs, ∀ n ∈ [c.atom.x, c.atom.y, c.atom.z], F64.Nearest n.value (rd n)) ∧
      parse_cell_param_file (l :: (blk ++ [last])) =
        .ok (.list [.dict [(.str (py"ionic_constraints"), .dict (ionConstraints rd cs))]]) := by
  obtain ⟨rd, h2, h3⟩ := C99_single l blk last kept cs hl hb hlast hk hrows hok
  rw [List.filter_eq_self.2 (fun c hc => by simpa using h1 c hc)] at h3
  exact ⟨rd, h2, h3⟩

/-- C99 fails from the tenth constraint on: a block all of whose constraints have numbers of two or more digits gives an
empty dictionary. -/
theorem C99_violated (l : Str) (blk : List Str) (last : Str) (kept : List Str) (cs : List IonCons)
    (hl : OpensNamed l (py"ionic_constraints")) (hb : ∀ x ∈ blk, ¬ ClosesBlock x) (hlast : ClosesBlock last)
    (hk : KeptInline cellComments blk kept) (hrows : List.Forall₂ (fun l c => IonCons.Line l c) kept cs) (hok : ∀ c ∈ cs, c.Ok)
    (h2 : ∀ c ∈ cs, 2 ≤ c.num.length) :
    parse_cell_param_file (l :: (blk ++ [last])) = .ok (.list [.dict [(.str (py"ionic_constraints"), .dict [])]]) := by
  obtain ⟨rd, -, h3⟩ := C99_single l blk last kept cs hl hb hlast hk hrows hok
  have : (cs.filter fun c => c.Single) = [] := by
    rw [List.filter_eq_nil_iff]
    intro c hc h
    have := h2 c hc
    have h : c.num.length = 1 := of_decide_eq_true h
    omega
  rw [this] at h3
  exact h3

/-! ### The hypotheses can be met -/

/-- Three lines, the last for the tenth constraint. -/
def exCons : List IonCons :=
  [⟨py"1", ⟨⟨87, [], none, none⟩, py"1", exDec (py"1") (py"0"), exDec (py"0") (py"0"), exInt (py"0")⟩⟩,
   ⟨py"2", ⟨⟨87, [], none, none⟩, py"1", exInt (py"0"), exInt (py"1"), exInt (py"0")⟩⟩,
   ⟨py"10", ⟨⟨72, [], none, none⟩, py"12", exInt (py"0"), exInt (py"1"), exInt (py"0")⟩⟩]

def exConsLines : List Str := [py"  1  W 1  1.0 0.0 0", py"2 W 1 0 1 0", py" 10  H 12 0 1 0"]

theorem exConsRows : List.Forall₂ (fun l c => IonCons.Line l c) exConsLines exCons := by
  refine .cons ⟨py"  ", py"  ", py" ", py"  1.0 0.0 0", rfl, by decide, by decide, by decide, by decide, (fields_iff _ _).2 (by decide)⟩
    (.cons ⟨[], py" ", py" ", py" 0 1 0", rfl, by decide, by decide, by decide, by decide, (fields_iff _ _).2 (by decide)⟩
    (.cons ⟨py" ", py"  ", py" ", py" 0 1 0", rfl, by decide, by decide, by decide, by decide, (fields_iff _ _).2 (by decide)⟩ .nil))

example : OpensNamed (py"%BLOCK Ionic_Constraints\n") (py"ionic_constraints") ∧ ClosesBlock (py"%ENDBLOCK ionic_constraints\n") ∧
    KeptInline cellComments [py"  1  W 1  1.0 0.0 0 ! x\n", py"# y\n", py"2 W 1 0 1 0\n", py" 10  H 12 0 1 0\n"] exConsLines ∧
    List.Forall₂ (fun l c => IonCons.Line l c) exConsLines exCons ∧ (∀ c ∈ exCons, c.Ok) ∧
    (∀ c ∈ exCons.take 2, c.Single) ∧ (∀ c ∈ exCons.drop 2, 2 ≤ c.num.length) := by
  refine ⟨opens_example _ _ (py"%BLOCK ") [] (py"Ionic_Constraints") (py"\n") (by decide) (by decide) (by decide) (by decide)
      (by decide) (by decide) (by decide), ⟨[], py"%ENDBLOCK", py" ionic_constraints\n", rfl, (by intro c hc; cases hc), by decide⟩,
    (C20_inline _ _ (by decide) _).1 (by decide +kernel), exConsRows, by decide +kernel, by decide, by decide⟩

end Verif.Props

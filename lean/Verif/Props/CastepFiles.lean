import Verif.Props.CastepDoc
import Verif.Props.Scf
import Verif.Props.UnitCell
import Verif.Props.Mulliken
import Verif.Props.LineTables
import Verif.Props.CastepRows
import Verif.Props.CastepMatrix
/-
C83: examples of files with several runs, and of every section.
-/
namespace Verif.Props
open Verif Verif.Spec Verif.Castep

/-! ### Rulers and titles, decided -/

theorem mem_takeWhile' {p : Nat → Bool} {d : Nat} : ∀ {l : Str}, d ∈ l.takeWhile p → p d = true
  | c :: l, h => by
    rw [List.takeWhile_cons] at h
    split at h
    · rcases List.mem_cons.1 h with rfl | h
      · assumption
      · exact mem_takeWhile' h
    · cases h

def rulerB (c : Nat) (l : Str) : Bool :=
  let t := l.dropWhile isSpace
  !(t.takeWhile (· == c)).isEmpty && (t.dropWhile (· == c) == [] || t.dropWhile (· == c) == [10])

theorem ruler_of {c : Nat} {l : Str} (h : rulerB c l = true) : Ruler c l := by
  simp only [rulerB, Bool.and_eq_true, Bool.or_eq_true, beq_iff_eq, Bool.not_eq_true'] at h
  refine ⟨l.takeWhile isSpace, (l.dropWhile isSpace).takeWhile (· == c), (l.dropWhile isSpace).dropWhile (· == c), ?_,
    fun d hd => mem_takeWhile' hd, ?_, fun d hd => by simpa using mem_takeWhile' hd, h.2⟩
  · rw [List.takeWhile_append_dropWhile, List.takeWhile_append_dropWhile]
  · rintro e; rw [e] at h; exact absurd h.1 (by simp)

def cutB (stop pass : Str → Bool) : Nat → List Str → Bool
  | _, [] => false
  | n, [l] => n == 1 && stop l
  | n, l :: m :: ls => (stop l && n != 0 && cutB stop pass (n - 1) (m :: ls)) || (pass l && cutB stop pass n (m :: ls))

theorem cut_of {stop pass : Str → Prop} {stopB passB : Str → Bool} (h1 : ∀ l, stopB l = true → stop l) (h2 : ∀ l, passB l = true → pass l) :
    ∀ (n : Nat) (ls : List Str), cutB stopB passB n ls = true → Cut stop pass n ls
  | _, [], h => by simp [cutB] at h
  | n, [l], h => by
    simp only [cutB, Bool.and_eq_true, beq_iff_eq] at h
    obtain ⟨rfl, h⟩ := h
    exact .last (h1 l h)
  | n, l :: m :: ls, h => by
    simp only [cutB, Bool.and_eq_true, Bool.or_eq_true, bne_iff_ne] at h
    rcases h with ⟨⟨h, hn⟩, h'⟩ | ⟨h, h'⟩
    · obtain ⟨k, rfl⟩ := Nat.exists_eq_succ_of_ne_zero hn
      exact .rule (h1 l h) (cut_of h1 h2 k _ h')
    · exact .other (h2 l h) (cut_of h1 h2 n _ h')

theorem framed_of {c n : Nat} {ls : List Str} (h : (!isSpace c && cutB (rulerB c) (fun l => !ruledB c l) n ls) = true) : Framed c n ls := by
  rw [Bool.and_eq_true, Bool.not_eq_true'] at h
  exact cut_of (fun _ => ruler_of) (fun _ h' => not_ruledB h.1 (by simpa using h')) n ls h.2

theorem spaced_of {n : Nat} {ls : List Str} (h : cutB (fun l => l.all isSpace) (fun l => !l.all isSpace) n ls = true) : Spaced n ls :=
  cut_of (fun l h => by simpa [Blank] using h) (fun l h => by
    intro hb
    have : l.all isSpace = true := List.all_eq_true.2 hb
    simp [this] at h) n ls h

def headedB (w t : Str) : Bool :=
  (t.dropWhile isSpace).take w.length == w && ((t.dropWhile isSpace).drop w.length).all isSpace

theorem headed_of {w t : Str} (h : headedB w t = true) : Headed w t := by
  simp only [headedB, Bool.and_eq_true, beq_iff_eq] at h
  refine ⟨t.takeWhile isSpace, (t.dropWhile isSpace).drop w.length, ?_, fun d hd => mem_takeWhile' hd, List.all_eq_true.1 h.2⟩
  have e := List.take_append_drop w.length (t.dropWhile isSpace)
  rw [h.1] at e
  rw [e, List.takeWhile_append_dropWhile]

def scfRulerB (l : Str) : Bool := !(l.takeWhile (· == c!"-")).isEmpty && (l.dropWhile (· == c!"-")).take 8 == py" <-- SCF"

theorem scfRuler_of {l : Str} (h : scfRulerB l = true) : ScfRuler l := by
  simp only [scfRulerB, Bool.and_eq_true, beq_iff_eq, Bool.not_eq_true'] at h
  refine ⟨l.takeWhile (· == c!"-"), (l.dropWhile (· == c!"-")).drop 8, ?_, ?_, fun d hd => by simpa using mem_takeWhile' hd⟩
  · have e := List.take_append_drop 8 (l.dropWhile (· == c!"-"))
    rw [h.2] at e
    rw [e, List.takeWhile_append_dropWhile]
  · rintro e; rw [e] at h; exact absurd h.1 (by simp)

theorem not_scfRuler_of {l : Str} (h : (l.head? != some (c!"-")) = true) : ¬ ScfRuler l := by
  rintro ⟨s, t, rfl, hs, ha⟩
  cases s with
  | nil => exact hs rfl
  | cons c s => obtain rfl := ha c (by simp); simp at h

theorem popTable_snoc {ls : List Str} {rs : List PopRow} (h : PopRow.Table ls rs) {l : Str} (hl : NoDigit l) : PopRow.Table (ls ++ [l]) rs := by
  induction h with
  | nil => exact .skip hl .nil
  | skip h _ ih => exact .skip h ih
  | row h _ ih => rw [List.append_assoc]; exact .row h ih

/-! ### A section of every kind -/

def eqRule : Str := py"     ===================================\n"
def dashRule : Str := py"     -----------------------------------\n"

def exCellBlock : List Str :=
  py"                           Unit Cell\n" :: (exUnitLines ++ [py"\n", py"\n"])

theorem exCell_items : (Content.cell (.other [] :: (exUnit ++ [.other [], .other []]))).Lines exCellBlock := by
  have blank : CellLine.Line (.other []) (py"\n") := ⟨.inl ⟨rfl, by decide +kernel⟩, (fun n hn => by cases hn), by decide⟩
  refine ⟨_, _, rfl, reaches_of (by decide +kernel), headed_of (by decide +kernel), spaced_of (by decide +kernel), ?_⟩
  refine .cons ⟨.inl ⟨rfl, by decide +kernel⟩, (fun n hn => by cases hn), by decide⟩
    (.cons ⟨hasNumbers_of (holds_of _ (py"    Real Lattice(A)              Reciprocal Lattice(")
      [(exInt (py"1"), py"/A)\n")] (by decide +kernel) (by decide +kernel)) (by decide), by decide +kernel, by decide⟩
    (.cons ⟨hasNumbers_of (holds_of _ (py"   ") [(exDec (py"2") (py"5"), py"   "), (exDec (py"0") (py"0"), py"   "), (exDec (py"0") (py"3"), py"      "),
      (exDec (py"1") (py"25"), py"  "), (exDec (py"0") (py"0"), py"  "), (exDec (py"0") (py"5"), py"\n")] (by decide +kernel) (by decide +kernel)) (by decide),
      by decide +kernel, trivial⟩
    (.cons ⟨hasNumbers_of (holds_of _ (py"     a =      ") [(exDec (py"3") (py"5"), py"          alpha =   "), (exDec (py"60") (py"0"), py"\n")]
      (by decide +kernel) (by decide +kernel)) (by decide), by decide +kernel, .inl ((Str.contains_iff _ _).1 (by decide +kernel))⟩
    (.cons ⟨hasNumbers_of (holds_of _ (py"     Current cell volume =            ") [(exDec (py"39") (py"25"), py" A**"), (exInt (py"3"), py"\n")]
      (by decide +kernel) (by decide +kernel)) (by decide), by decide +kernel, ?_⟩
    (.cons blank (.cons blank (.cons blank .nil)))))))
  show ¬ (_ ∨ _ ∨ _)
  rw [← Str.contains_iff, ← Str.contains_iff, ← Str.contains_iff]
  decide +kernel

def exScfHead : List (List Str) :=
  [[py"SCF loop      Energy           Fermi           Energy gain       Timer   <-- SCF\n"],
   [py"                               energy          per atom          (sec)   <-- SCF\n"],
   [py"------------------------------------------------------------------------ <-- SCF\n"]]

def exScfBlock : List Str := exScfHead.flatten ++ exScfLines.flatten.flatten

theorem exScf_cycles : List.Forall₂ ScfCycle.Lines exScfCycles exScfLines := by
  refine .cons ⟨_, _, rfl, ⟨[py"<--", py"SCF"], (fields_iff _ _).2 (by decide +kernel), by decide +kernel⟩,
      .cons ⟨_, rfl, noRow_of _ (by decide +kernel), (Str.contains_iff _ _).1 (by decide +kernel)⟩ .nil⟩
    (.cons ⟨_, _, rfl, ⟨[py"<--", py"SCF"], (fields_iff _ _).2 (by decide +kernel), by decide +kernel⟩,
      .cons ⟨_, rfl, noRow_of _ (by decide +kernel), noMark_of (by decide +kernel), ?_, hasNumbers_of (holds_of _ (py" Norm of density residual is    ")
        [(exExp none (py"9") (py"1451") true (py"002"), py"\n")] (by decide +kernel) (by decide +kernel)) (by decide)⟩
      (.cons ⟨_, rfl, ⟨noRow_of _ (by decide +kernel), noMark_of (by decide +kernel)⟩, ?_, not_occurs _ _ (by decide +kernel), not_occurs _ _ (by decide +kernel)⟩
        .nil)⟩ .nil)
  · exact fun s hs => by cases hs; exact (Str.contains_iff _ _).1 (by decide +kernel)
  · exact noEigen_of (by decide)

theorem exScf_section : (Content.scf [.other, .other, .other] exScfCycles).Lines exScfBlock := by
  have other : ∀ l, ScfItem.NoRow l → ScfItem.NoMark 6 l → ScfItem.NoEigen l → ¬ Occurs (py"Checking convergence criteria") l → ¬ Occurs (py" eV") l →
      ScfItem.Lines .other [l] := fun l a b c d e => ⟨l, rfl, ⟨a, b⟩, c, d, e⟩
  refine ⟨_, _, exScfHead, exScfLines, rfl, reaches_of (by decide +kernel), ⟨[], _, rfl⟩,
    cut_of (fun _ => scfRuler_of) (fun _ => not_scfRuler_of) 2 _ (by decide +kernel), rfl,
    .cons (other _ (noRow_of _ (by decide +kernel)) (noMark_of (by decide +kernel)) (noEigen_of (by decide)) (not_occurs _ _ (by decide +kernel)) (not_occurs _ _ (by decide +kernel)))
    (.cons (other _ (noRow_of _ (by decide +kernel)) (noMark_of (by decide +kernel)) (noEigen_of (by decide)) (not_occurs _ _ (by decide +kernel)) (not_occurs _ _ (by decide +kernel)))
    (.cons (other _ (noRow_of _ (by decide +kernel)) (noMark_of (by decide +kernel)) (noEigen_of (by decide)) (not_occurs _ _ (by decide +kernel)) (not_occurs _ _ (by decide +kernel))) .nil)),
    exScf_cycles⟩

theorem exScf_ok : (Content.scf [.other, .other, .other] exScfCycles).Ok := by
  refine ⟨by decide +kernel, eigensLast_of (by decide), ?_⟩
  intro c hc
  rcases List.mem_cons.1 hc with rfl | hc
  · exact ⟨by decide +kernel, by decide +kernel, by decide +kernel, eigensLast_of (by decide)⟩
  · rw [List.mem_singleton.1 hc]
    exact ⟨by decide +kernel, by decide +kernel, by decide +kernel, eigensLast_of (by decide)⟩

def exStressBlock : List Str :=
  [py" *********** Symmetrised Stress Tensor ***********\n", py" *  x     -1.5   0.25   0.3   *\n",
   py" *  y     0.25   2.5   0.4   *\n", py" *  z     0.3   0.4   3.5   *\n", py" ******\n"]

def exStress : Content :=
  .stresses [py"Symmetrised"] (neg (py"1") (py"5")) (exDec (py"0") (py"25")) (exDec (py"0") (py"3")) (exDec (py"0") (py"25")) (exDec (py"2") (py"5")) (exDec (py"0") (py"4"))
    (exDec (py"0") (py"3")) (exDec (py"0") (py"4")) (exDec (py"3") (py"5"))

theorem exStress_lines : exStress.Lines exStressBlock :=
  ⟨_, _, py"Symmetrised ", rfl, reaches_of (by decide +kernel),
    ⟨py" ", py"***********", py" ", py"Stress Tensor", py" ", py"***********", py"\n", by decide +kernel, by decide +kernel, by decide +kernel, by decide +kernel,
      by decide +kernel, by decide⟩, (fields_iff _ _).2 (by decide +kernel), framed_of (by decide +kernel),
    ⟨[], py" *  x     -1.5   0.25   0.3   *\n", [], py" *  y     0.25   2.5   0.4   *\n", [], py" *  z     0.3   0.4   3.5   *\n",
      [py" ******\n"], rfl, (by
        intro l hl; simp only [List.append_nil, List.nil_append, List.mem_singleton] at hl; subst hl
        refine ⟨?_, ?_, ?_⟩ <;> rw [← Str.contains_iff] <;> decide +kernel),
      (Str.contains_iff _ _).1 (by decide +kernel),
      holds_of _ (py" *  x     ") [(neg (py"1") (py"5"), py"   "), (exDec (py"0") (py"25"), py"   "), (exDec (py"0") (py"3"), py"   *\n")]
        (by decide +kernel) (by decide +kernel),
      (by rw [← Str.contains_iff]; decide +kernel), (Str.contains_iff _ _).1 (by decide +kernel),
      holds_of _ (py" *  y     ") [(exDec (py"0") (py"25"), py"   "), (exDec (py"2") (py"5"), py"   "), (exDec (py"0") (py"4"), py"   *\n")]
        (by decide +kernel) (by decide +kernel),
      (by rw [← Str.contains_iff]; decide +kernel), (by rw [← Str.contains_iff]; decide +kernel),
      (Str.contains_iff _ _).1 (by decide +kernel),
      holds_of _ (py" *  z     ") [(exDec (py"0") (py"3"), py"   "), (exDec (py"0") (py"4"), py"   "), (exDec (py"3") (py"5"), py"   *\n")]
        (by decide +kernel) (by decide +kernel)⟩⟩

def exMullBlock : List Str := py"     Atomic Populations (Mulliken)\n" :: (exPopLines ++ [eqRule])

theorem exMull_lines : (Content.mulliken [exPop1, exPop2]).Lines exMullBlock :=
  ⟨_, _, rfl, reaches_of (by decide +kernel), headed_of (by decide +kernel), framed_of (by decide +kernel),
    .skip (by decide +kernel) (popTable_snoc exPop_lines (by decide +kernel))⟩

def exHirBlock : List Str := py"     Hirshfeld Analysis\n" :: (exHirLines ++ [eqRule])

theorem exHirBlock_lines : (Content.hirshfeld [exCharge1, exCharge2]).Lines exHirBlock :=
  ⟨_, _, rfl, reaches_of (by decide +kernel), headed_of (by decide +kernel), framed_of (by decide +kernel),
    .skip (by decide +kernel) (interleaved_snoc exHir_lines (by decide +kernel))⟩

def exBondBlock : List Str := exBondLines ++ [eqRule]

theorem exBondBlock_lines : (Content.bonds exBonds).Lines exBondBlock :=
  ⟨_, _, rfl, reaches_of (by decide +kernel),
    ⟨py"                 ", py"                   ", py"      Spin", py"      ", py" (A)\n", by decide +kernel, by decide +kernel, by decide, by decide +kernel, by decide,
      .inr ⟨py"      ", by decide +kernel, by decide +kernel, by decide⟩⟩,
    framed_of (by decide +kernel), interleaved_snoc exBond_lines (by decide +kernel)⟩

def exDispBlock : List Str := py"     Atomic Displacement Parameters (A**2)\n" :: dashRule :: (exDispLines ++ [dashRule])

theorem dash_first : NoNumberFirst dashRule :=
  .inr ⟨_, _, (fields_iff _ (py"-----------------------------------" :: [])).2 (by decide +kernel), by decide +kernel⟩

theorem exDispBlock_lines : (Content.displacements [exDisp (py"0") (py"1"), exDisp (py"0") (py"2"), exDisp (py"100") (py"1")]).Lines exDispBlock :=
  ⟨_, _, rfl, reaches_of (by decide +kernel), headed_of (by decide +kernel), framed_of (by decide +kernel),
    .skip (.inr ⟨_, _, (fields_iff _ (py"Atomic" :: [py"Displacement", py"Parameters", py"(A**2)"])).2 (by decide +kernel), by decide +kernel⟩)
      (.skip dash_first (interleaved_snoc exDisp_lines dash_first))⟩

def exThermBlock : List Str :=
  exThermA ++ py"            Zero-point energy =         0.125987  eV\n" :: (dashRule :: dashRule :: (exThermB ++ [dashRule]))

theorem exThermBlock_lines : (Content.thermo (exDec (py"0") (py"125987")) [exTherm (py"0"), exTherm (py"100")]).Lines exThermBlock :=
  ⟨_, _, exThermA, dashRule :: dashRule :: (exThermB ++ [dashRule]), py"            Zero-point energy =         0.125987  eV\n", rfl,
    reaches_of (by decide +kernel), headed_of (by decide +kernel), framed_of (by decide +kernel), rfl, (by
      intro l hl
      simp only [exThermA, List.mem_cons, List.not_mem_nil, or_false] at hl
      rcases hl with rfl | rfl
      · exact ⟨.inr ⟨_, _, (fields_iff _ (py"Thermodynamics" :: [])).2 (by decide +kernel), by decide +kernel⟩, not_occurs _ _ (by decide +kernel)⟩
      · exact ⟨.inl (by decide +kernel), not_occurs _ _ (by decide +kernel)⟩),
    ⟨.inr ⟨_, _, (fields_iff _ (py"Zero-point" :: [py"energy", py"=", py"0.125987", py"eV"])).2 (by decide +kernel), by decide +kernel⟩,
      ⟨py"            ", py" =         0.125987  eV\n", by decide +kernel⟩, [],
      hasNumbers_of (holds_of _ (py"            Zero-point energy =         ") [(exDec (py"0") (py"125987"), py"  eV\n")] (by decide +kernel) (by decide +kernel)) (by simp), by simp⟩,
    .skip ⟨dash_first, not_occurs _ _ (by decide +kernel)⟩ (.skip ⟨dash_first, not_occurs _ _ (by decide +kernel)⟩
      (interleaved_snoc exTherm_lines ⟨dash_first, not_occurs _ _ (by decide +kernel)⟩))⟩

def exOrbTotal : Str := py"                Total:               2.1\n"
def exOrbProj : Str := py" The total projected population is 2.0 0.1\n"
def exOrbBlock : List Str := py"     Orbital Populations\n" :: dashRule :: (exOrbLines ++ exOrbTotal :: ([dashRule] ++ exOrbProj :: [dashRule]))

def exOrbSection : Content := .orbitals [exOrb1, exOrb2] (exDec (py"2") (py"1")) [exDec (py"2") (py"0"), exDec (py"0") (py"1")]

theorem exOrbBlock_lines : exOrbSection.Lines exOrbBlock :=
  ⟨_, _, py"     Orbital Populations\n" :: dashRule :: exOrbLines, [dashRule], [dashRule], exOrbTotal, exOrbProj, rfl,
    reaches_of (by decide +kernel), headed_of (by decide +kernel), framed_of (by decide +kernel), rfl,
    .skip ⟨by decide +kernel, not_occurs _ _ (by decide +kernel)⟩ (.skip ⟨by decide +kernel, not_occurs _ _ (by decide +kernel)⟩ exOrb_lines),
    (by intro l hl; simp at hl; subst hl; exact ⟨by decide +kernel, not_occurs _ _ (by decide +kernel)⟩),
    (by intro l hl; simp at hl; subst hl; exact ⟨by decide +kernel, not_occurs _ _ (by decide +kernel)⟩),
    ⟨[], (fields_iff _ _).2 (by decide +kernel)⟩,
    ⟨hasNumbers_of (holds_of _ (py" The total projected population is ") [(exDec (py"2") (py"0"), py" "), (exDec (py"0") (py"1"), py"\n")] (by decide +kernel) (by decide +kernel)) (by simp),
      ⟨py" The ", py" population is 2.0 0.1\n", by decide +kernel⟩, _, (fields_iff _ (py"The" :: py"total" :: [py"projected", py"population", py"is", py"2.0", py"0.1"])).2 (by decide +kernel)⟩⟩

theorem exFree_lines : (Content.energy .free (neg (py"855") (py"5"))).Lines [py"Final free energy (E-TS)    =  -855.5     eV\n"] :=
  ⟨_, [], rfl, reaches_of (by decide +kernel), ⟨3, 1, neg (py"855") (py"5"), py"     eV\n", by decide +kernel, by decide +kernel, by decide⟩,
    hasNumbers_of (holds_of _ (py"Final free energy (E-TS)    =  ") [(neg (py"855") (py"5"), py"     eV\n")] (by decide +kernel) (by decide +kernel)) (by simp), by simp⟩

def exVelBlock : List Str := py"            x  Element    Atom    User Supplied Ionic Velocities  x\n" :: (exPosLines.tail ++ [py"            xxxxxxxxxxxxxxxxxxxxxxxxxxxx\n"])

theorem exVelBlock_lines : (Content.velocities [exSi1, exFe2]).Lines exVelBlock := by
  refine ⟨_, _, rfl, reaches_of (by decide +kernel), (Str.contains_iff _ _).1 (by decide +kernel), framed_of (by decide +kernel), .skip (by decide +kernel) ?_⟩
  refine .row ?_ (.row ?_ (.skip (by decide +kernel) .nil))
  · exact ⟨py"            x  ", py"           ", py"         ", py"  ", py"   ", py"   x\n", by decide +kernel,
      lead_of _ (by decide +kernel), by decide +kernel, by decide +kernel, by decide +kernel, by decide +kernel, tail_of _ (by decide +kernel)⟩
  · exact ⟨py"            x  ", py"           ", py"         ", py"  ", py"   ", py"   x\n", by decide +kernel,
      lead_of _ (by decide +kernel), by decide +kernel, by decide +kernel, by decide +kernel, by decide +kernel, tail_of _ (by decide +kernel)⟩

def exSpinBlock : List Str := py"          |  Initial magnetic moments  |\n" :: (exSpinLines ++ [py"            xxxxxxxxxxxxxxxxxxxxxxxxxxxx\n"])

theorem exSpinBlock_lines : (Content.spins [exSpin]).Lines exSpinBlock := by
  refine ⟨_, _, rfl, reaches_of (by decide +kernel), (Str.contains_iff _ _).1 (by decide +kernel), framed_of (by decide +kernel), .skip (by decide +kernel)
    (.skip (by decide +kernel) (.skip (by decide +kernel) (.row ?_ (.skip (by decide +kernel) .nil))))⟩
  exact ⟨py"          ", py"  Fe         3        0.5       4.0        T         |\n", [], by decide +kernel, by decide +kernel, ⟨_, _, rfl, by decide⟩,
    py"  ", py"         3        0.5       4.0        T         |\n", by decide +kernel, by decide +kernel,
      (by intro c hc; cases hc; decide), (fields_iff _ _).2 (by decide +kernel)⟩

def exBornBlock : List Str := py"     Born Effective Charges\n" :: (exBornLines ++ [eqRule])

theorem exBornBlock_lines : (Content.born [exBorn]).Lines exBornBlock := by
  refine ⟨_, _, rfl, reaches_of (by decide +kernel), headed_of (by decide +kernel), framed_of (by decide +kernel), .skip (by decide +kernel)
    (.skip (by decide +kernel) (.row (ls := [eqRule]) (a := [_, _, _]) ⟨_, _, _, rfl, ⟨_, _, rfl, by decide⟩, ?_, ?_, ?_⟩ (.skip (by decide +kernel) .nil)))⟩
  · exact ⟨py"  ", py"      1         0.5         4.0        0.0    ID=iso\n", by decide +kernel, by decide +kernel,
      (by intro c hc; cases hc; decide), (fields_iff _ _).2 (by decide +kernel)⟩
  · exact (fields_iff _ _).2 (by decide +kernel)
  · exact (fields_iff _ _).2 (by decide +kernel)

def exBandBlock : List Str := py"  +    Band Structure Calculation    +\n" :: (exBandLines ++ [eqRule])

theorem bandTable_snoc {ls : List Str} {bs : List BandPoint} (h : BandPoint.Table ls bs) {l : Str} (hl : NoDigit l) : BandPoint.Table (ls ++ [l]) bs := by
  induction h with
  | nil => exact .skip hl .nil
  | skip h _ ih => exact .skip h ih
  | point h h' _ ih => rw [List.cons_append, List.append_assoc]; exact .point h h' ih

theorem exBandBlock_lines : (Content.bands [exBandPoint]).Lines exBandBlock :=
  ⟨_, _, py"  ", py"    ", py"Band Structure Calculation", py"    ", py"\n", rfl, reaches_of (by decide +kernel), by decide +kernel, by decide +kernel, by decide +kernel,
    by decide +kernel, .inr rfl, by decide, by decide, framed_of (by decide +kernel), .skip (by decide +kernel) (bandTable_snoc exBandTable (by decide +kernel))⟩

theorem exCorrected_lines : (Content.energy .corrected (neg (py"855") (py"5"))).Lines [py" Total energy corrected for finite basis set =   -855.5 eV\n"] :=
  ⟨_, [], rfl, reaches_of (by decide +kernel), (Str.contains_iff _ _).1 (by decide +kernel),
    hasNumbers_of (holds_of _ (py" Total energy corrected for finite basis set =   ") [(neg (py"855") (py"5"), py" eV\n")] (by decide +kernel) (by decide +kernel)) (by simp), by simp⟩

theorem exSedc_lines : (Content.energy .sedc (neg (py"0") (py"5"))).Lines [py"(SEDC) Total Energy Correction : -0.5 eV\n"] :=
  ⟨_, [], rfl, reaches_of (by decide +kernel), ⟨py" Correction : -0.5 eV\n", by decide +kernel⟩,
    hasNumbers_of (holds_of _ (py"(SEDC) Total Energy Correction : ") [(neg (py"0") (py"5"), py" eV\n")] (by decide +kernel) (by decide +kernel)) (by simp), by simp⟩

theorem exDispersion_lines : (Content.energy .dispersion (neg (py"855") (py"5"))).Lines [py"Dispersion corrected final energy*, Ecor          =  -855.5     eV\n"] :=
  ⟨_, [], rfl, reaches_of (by decide +kernel), ⟨py"*, Ecor          =  -855.5     eV\n", by decide +kernel⟩,
    hasNumbers_of (holds_of _ (py"Dispersion corrected final energy*, Ecor          =  ") [(neg (py"855") (py"5"), py"     eV\n")] (by decide +kernel) (by decide +kernel)) (by simp), by simp⟩

/-! ### Two runs after the end of another -/

def exBuild : Build := ⟨[py"Compiled", py"for", py"linux"], [py"from", py"code", py"version", py"abc"], [(py"compiler", [py"GNU", py"Fortran"])]⟩

def exBuildLines : List Str := [py" Compiled for linux\n", py" from code version abc\n", py" Compiler: GNU Fortran\n", py"\n"]

theorem exBuild_lines : exBuild.Lines exBuildLines :=
  ⟨py" ", py" linux\n", py" from code version abc\n", _, rfl, by decide +kernel, (fields_iff _ _).2 (by decide +kernel), (fields_iff _ _).2 (by decide +kernel),
    spaced_of (by decide +kernel), .row ⟨py" Compiler", py" GNU Fortran\n", by decide +kernel, by decide +kernel, keyName_of (by decide +kernel), (fields_iff _ _).2 (by decide +kernel)⟩
      (.skip (by decide +kernel) .nil)⟩

def exFirstRun : List Content := [.cell (.other [] :: (exUnit ++ [.other [], .other []])), .scf [.other, .other, .other] exScfCycles, .energy .final (neg (py"855") (py"4591")),
  .energy .free (neg (py"855") (py"5")), exStress, exStress]
def exFirstRunLines : List Str := exCellBlock ++ (exScfBlock ++ ([exDocE1] ++ ([py"Final free energy (E-TS)    =  -855.5     eV\n"] ++ (exStressBlock ++ (exStressBlock ++ [])))))

def exSecondRun : List Content := [.mulliken [exPop1, exPop2], .hirshfeld [exCharge1, exCharge2], .bonds exBonds, exOrbSection,
  .displacements [exDisp (py"0") (py"1"), exDisp (py"0") (py"2"), exDisp (py"100") (py"1")],
  .thermo (exDec (py"0") (py"125987")) [exTherm (py"0"), exTherm (py"100")], .velocities [exSi1, exFe2], .spins [exSpin], .born [exBorn], .born [exBorn],
  .bands [exBandPoint]]
def exSecondRunLines : List Str := exMullBlock ++ (exHirBlock ++ (exBondBlock ++ (exOrbBlock ++ (py"\n" :: (exDispBlock ++ (exThermBlock ++ (exVelBlock ++ (exSpinBlock ++ (exBornBlock ++ (exBornBlock ++ (exBandBlock ++ [])))))))))))

theorem exFirstRun_doc : Doc Content.Lines exFirstRunLines exFirstRun :=
  .part exCell_items (.part exScf_section (.part exFinal_lines (.part exFree_lines (.part exStress_lines (.part exStress_lines .nil)))))

theorem exSecondRun_doc : Doc Content.Lines exSecondRunLines exSecondRun :=
  .part exMull_lines (.part exHirBlock_lines (.part exBondBlock_lines (.part exOrbBlock_lines (.text (quiet_of (by decide +kernel))
    (.part exDispBlock_lines (.part exThermBlock_lines (.part exVelBlock_lines (.part exSpinBlock_lines (.part exBornBlock_lines (.part exBornBlock_lines (.part exBandBlock_lines .nil)))))))))))

theorem exFirstRun_ok : Sound exFirstRun := by
  have hs : exStress.Ok := by unfold exStress Content.Ok; decide +kernel
  refine ⟨fun c hc => ?_, .inl (by decide +kernel)⟩
  simp only [exFirstRun, List.mem_cons, List.not_mem_nil, or_false] at hc
  rcases hc with rfl | rfl | rfl | rfl | rfl | rfl
  · unfold Content.Ok; decide +kernel
  · exact exScf_ok
  · exact (by decide +kernel : (neg (py"855") (py"4591")).Valid ∧ (neg (py"855") (py"4591")).InRange)
  · exact (by decide +kernel : (neg (py"855") (py"5")).Valid ∧ (neg (py"855") (py"5")).InRange)
  · exact hs
  · exact hs

theorem exSecondRun_ok : Sound exSecondRun := by
  refine ⟨fun c hc => ?_, .inl (by decide +kernel)⟩
  simp only [exSecondRun, List.mem_cons, List.not_mem_nil, or_false] at hc
  rcases hc with rfl | rfl | rfl | rfl | rfl | rfl | rfl | rfl | rfl | rfl | rfl
  · unfold Content.Ok; decide +kernel
  · unfold Content.Ok; decide +kernel
  · unfold Content.Ok; decide +kernel
  · unfold exOrbSection Content.Ok; decide +kernel
  · unfold Content.Ok; decide +kernel
  · unfold Content.Ok; decide +kernel
  · exact ⟨exVec_ok, exVec_keys⟩
  · unfold Content.Ok; decide +kernel
  · unfold Content.Ok; decide +kernel
  · unfold Content.Ok; decide +kernel
  · unfold Content.Ok; decide +kernel

theorem exRuns : Runs Content.Lines (exBuildLines ++ (exFirstRunLines ++ (exBuildLines ++ (exSecondRunLines ++ [])))) [(exBuild, exFirstRun), (exBuild, exSecondRun)] :=
  .run exBuild_lines exFirstRun_doc (.run exBuild_lines exSecondRun_doc .nil)

theorem exRuns_ok : ∀ r ∈ [(exBuild, exFirstRun), (exBuild, exSecondRun)], Sound r.2 := by
  intro r hr
  simp only [List.mem_cons, List.not_mem_nil, or_false] at hr
  rcases hr with rfl | rfl
  · exact exFirstRun_ok
  · exact exSecondRun_ok

/-- Everything is wanted. -/
example (order : List Str → List Str) (ops : Ops F64) : ∃ rd fl : Numeral → F64, ReadsAll rd fl exDocContents ∧ (∀ r ∈ [(exBuild, exFirstRun), (exBuild, exSecondRun)], ReadsAll rd fl r.2) ∧
    parse_castep_file order ops Filters.FULL (exDocLines ++ (exBuildLines ++ (exFirstRunLines ++ (exBuildLines ++ (exSecondRunLines ++ []))))) =
      .ok (results (docEntries rd fl Filters.FULL exDocContents :: [(exBuild, exFirstRun), (exBuild, exSecondRun)].map (bannerEntries rd fl Filters.FULL))) :=
  C83 order ops Filters.FULL _ _ _ _ exDoc exRuns exDoc_ok exRuns_ok

/-- Only the stresses and what the program says about itself: the energies are always there, and in the last run there is only the banner. -/
example (order : List Str → List Str) (ops : Ops F64) : ∃ rd fl : Numeral → F64,
    parse_castep_file order ops (Filters.STRESS ||| Filters.SYS_INFO) (exBuildLines ++ (exFirstRunLines ++ (exBuildLines ++ (exSecondRunLines ++ [])))) = .ok [
      [(.str (py"build_info"), .dict [(.str (py"summary"), .str (py"Compiled for linux from code version abc")), (.str (py"compiler"), .str (py"GNU Fortran"))]),
       (.str (py"energies"), .dict [(.str (py"final_energy"), .list [.float (rd (neg (py"855") (py"4591")))]), (.str (py"free_energy"), .list [.float (rd (neg (py"855") (py"5")))])]),
       (.str (py"stresses"), .dict [(.str (py"symmetrised"), .list [exStress.value rd fl, exStress.value rd fl])])],
      [(.str (py"build_info"), .dict [(.str (py"summary"), .str (py"Compiled for linux from code version abc")), (.str (py"compiler"), .str (py"GNU Fortran"))])]] := by
  obtain ⟨rd, fl, -, -, h⟩ := C83 order ops (Filters.STRESS ||| Filters.SYS_INFO) [] _ [] _ .nil exRuns ⟨by simp, by simp⟩ exRuns_ok
  exact ⟨rd, fl, h.trans (by rfl)⟩

end Verif.Props

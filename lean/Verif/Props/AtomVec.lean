import Verif.Lemmas.AtomVec
import Verif.Props.Header
import Verif.Props.CastepMatrix
/-
C64: tables with a vector for each atom.
-/
namespace Verif.Props
open Verif Verif.Spec Verif.Castep

theorem vecs_dict (rd : Numeral → F64) {rows : List AtomVec} (h : (rows.map AtomVec.key).Nodup) :
    Dict.ofList (rows.map (AtomVec.entry rd)) = rows.map (AtomVec.entry rd) := by
  apply Dict.ofList_nodup
  rw [List.map_map]
  exact h

/-- C64, forces: the kind named by the title, and the vector of every atom, whatever remarks the components carry. -/
theorem C64_forces (title name : Str) (words : List Str) (lines : List Str) (rows : List AtomVec)
    (ht : ForceTitle title name) (hw : Fields name words)
    (hl : Interleaved NoDigit (fun l a => AtomVec.ForceLine l a) lines rows) (hok : ∀ a ∈ rows, a.Ok)
    (hd : (rows.map AtomVec.key).Nodup) :
    ∃ rd : Numeral → F64, (∀ a ∈ rows, Reads rd [a.x, a.y, a.z]) ∧
      process_forces (title :: lines) = .ok (forceKind words, .dict (rows.map (AtomVec.entry rd))) := by
  obtain ⟨rd, _, hrd⟩ := readings
  refine ⟨rd, fun a ha n hn => (hrd n ((hok a ha).2.2.2 n hn).1 ((hok a ha).2.2.2 n hn).2).1.2, ?_⟩
  rw [forces_block ht hw hl hok fun a ha n hn => (hrd n ((hok a ha).2.2.2 n hn).1 ((hok a ha).2.2.2 n hn).2).1.1, vecs_dict rd hd]

/-- C64, positions and velocities: the vector of every atom. -/
theorem C64_vectors (lines : List Str) (rows : List AtomVec)
    (hl : Interleaved NoDigit (fun l a => AtomVec.Line l a) lines rows) (hok : ∀ a ∈ rows, a.Ok)
    (hd : (rows.map AtomVec.key).Nodup) :
    ∃ rd : Numeral → F64, (∀ a ∈ rows, Reads rd [a.x, a.y, a.z]) ∧
      process_atreg_block lines = .ok (.dict (rows.map (AtomVec.entry rd))) := by
  obtain ⟨rd, _, hrd⟩ := readings
  refine ⟨rd, fun a ha n hn => (hrd n ((hok a ha).2.2.2 n hn).1 ((hok a ha).2.2.2 n hn).2).1.2, ?_⟩
  rw [atreg_block hl hok fun a ha n hn => (hrd n ((hok a ha).2.2.2 n hn).1 ((hok a ha).2.2.2 n hn).2).1.1, vecs_dict rd hd]

/-- C59, for headers that list the atoms with species and number: the vectors are under `coords`, the other entries beside it. -/
theorem C59_atoms (parts : List HeadPart) (lines : List (List Str))
    (hl : List.Forall₂ (HeadPart.Lines (py"Fermi energy")) parts lines) (hn : ∀ i ∈ parts, ∀ n ∈ i.nums, n.Valid ∧ n.InRange) :
    ∃ rd : Numeral → F64, (∀ i ∈ parts, Reads rd i.nums) ∧
      parse_regular_header Bands.EXTRA_RE lines.flatten = .ok (atomHeader (py"Fermi energy") rd parts) := by
  obtain ⟨rd, fl, hrd⟩ := readings
  refine ⟨rd, fun i hi n h => (hrd n (hn i hi n h).1 (hn i hi n h).2).1.2, ?_⟩
  exact atom_header _ _ (looks_lit _ _ (by decide +kernel)) rd parts lines hl
    fun i hi n h => (hrd n (hn i hi n h).1 (hn i hi n h).2).1.1

/-! ### Examples -/

def exSi1 : AtomVec := ⟨⟨c!"S", py"i", none, none⟩, py"1", exDec (py"0") (py"5"), ⟨some true, py"0", some (py"25"), none⟩, exDec (py"1") (py"0")⟩
def exFe2 : AtomVec := ⟨⟨c!"F", py"e", some (py"ext"), some (py" ", py"tag")⟩, py"2", exDec (py"0") (py"0"), exDec (py"0") (py"1"), exDec (py"2") (py"0")⟩

theorem exVec_ok : ∀ a ∈ [exSi1, exFe2], a.Ok := by decide +kernel

theorem exVec_keys : ([exSi1, exFe2].map AtomVec.key).Nodup := by decide +kernel

theorem lead_of (p : Str) (h : (∀ c ∈ p, ¬ (65 ≤ c ∧ c ≤ 90)) ∧ (p.getLast?.all fun c => !isWord c) = true) : AtomVec.Lead p :=
  ⟨h.1, fun c hc => by have := h.2; rw [hc] at this; simpa using this⟩

theorem tail_of (t : Str) (h : (t.head?.all isSpace) = true) : AtomVec.Tail t := by
  intro c hc
  rw [hc] at h
  simpa using h

/-- A block with remarks. -/
def exForceLines : List Str :=
  [py" *                   Cartesian components (eV/A)                          *\n",
   py" * Si              1     0.5(cons'd)     -0.25 (mixed)   1.0              *\n",
   py" * Fe:ext [tag]    2     0.0     0.1   2.0(cons'd)              *\n"]

theorem exForce_lines : Interleaved NoDigit (fun l a => AtomVec.ForceLine l a) exForceLines [exSi1, exFe2] := by
  refine .skip (by decide +kernel) (.row ?_ (.row ?_ .nil))
  · exact ⟨py"(cons'd)", py" (mixed)", [], .inr ⟨[], py"cons'd", by decide +kernel, by decide, by decide, by decide⟩,
      .inr ⟨py" ", py"mixed", by decide +kernel, by decide, by decide, by decide⟩, .inl rfl,
      py" * ", py"              ", py"     ", py"     ", py"   ", py"              *\n", by decide +kernel,
      lead_of _ (by decide +kernel), by decide +kernel, by decide +kernel, by decide +kernel, by decide +kernel, tail_of _ (by decide +kernel)⟩
  · exact ⟨[], [], py"(cons'd)", .inl rfl, .inl rfl, .inr ⟨[], py"cons'd", by decide +kernel, by decide, by decide, by decide⟩,
      py" * ", py"    ", py"     ", py"     ", py"   ", py"              *\n", by decide +kernel,
      lead_of _ (by decide +kernel), by decide +kernel, by decide +kernel, by decide +kernel, by decide +kernel, tail_of _ (by decide +kernel)⟩

theorem exForce_title : ForceTitle (py" ****** Constrained  Symmetrised Forces *******\n") (py"Constrained  Symmetrised ") :=
  ⟨py" ", py"******", py" ", py"Forces", py" ", py"*******", py"\n", by decide +kernel, by decide +kernel, by decide +kernel,
    by decide +kernel, by decide +kernel, by decide +kernel⟩

example : ∃ rd : Numeral → F64, (∀ a ∈ [exSi1, exFe2], Reads rd [a.x, a.y, a.z]) ∧
    process_forces (py" ****** Constrained  Symmetrised Forces *******\n" :: exForceLines) =
      .ok (.str (py"constrained_symmetrised"), .dict ([exSi1, exFe2].map (AtomVec.entry rd))) :=
  C64_forces _ _ [py"Constrained", py"Symmetrised"] _ _ exForce_title ((fields_iff _ _).2 (by decide +kernel)) exForce_lines exVec_ok exVec_keys

def exPosLines : List Str :=
  [py"            x  Element    Atom        Fractional coordinates of atoms  x\n",
   py"            x  Si           1         0.5  -0.25   1.0   x\n",
   py"            x  Fe:ext [tag]           2         0.0  0.1   2.0   x\n"]

theorem exPos_lines : Interleaved NoDigit (fun l a => AtomVec.Line l a) exPosLines [exSi1, exFe2] := by
  refine .skip (by decide +kernel) (.row ?_ (.row ?_ .nil))
  · exact ⟨py"            x  ", py"           ", py"         ", py"  ", py"   ", py"   x\n", by decide +kernel,
      lead_of _ (by decide +kernel), by decide +kernel, by decide +kernel, by decide +kernel, by decide +kernel, tail_of _ (by decide +kernel)⟩
  · exact ⟨py"            x  ", py"           ", py"         ", py"  ", py"   ", py"   x\n", by decide +kernel,
      lead_of _ (by decide +kernel), by decide +kernel, by decide +kernel, by decide +kernel, by decide +kernel, tail_of _ (by decide +kernel)⟩

example : ∃ rd : Numeral → F64, (∀ a ∈ [exSi1, exFe2], Reads rd [a.x, a.y, a.z]) ∧
    process_atreg_block exPosLines = .ok (.dict ([exSi1, exFe2].map (AtomVec.entry rd))) :=
  C64_vectors _ _ exPos_lines exVec_ok exVec_keys

def exAtomHead : List HeadPart :=
  [.item (.count [py"ions"] (exInt (py"2"))), .atom exSi1, .item (.note false []), .atom exFe2]

def exAtomHeadLines : List (List Str) :=
  [[py"Number of ions      2\n"], [py"  Si   1   0.5 -0.25  1.0\n"], [py" and\n"], [py" Fe:ext [tag] 2  0.0 0.1 2.0\n"]]

theorem exAtomHead_lines : List.Forall₂ (HeadPart.Lines (py"Fermi energy")) exAtomHead exAtomHeadLines := by
  refine .cons ⟨by simp, _, rfl, (isCount_iff _).1 (by decide +kernel), plain_of_split _ (by decide +kernel),
    (fields_iff _ _).2 (by decide +kernel), by decide +kernel, by decide +kernel, by decide +kernel⟩ ?_
  refine .cons ⟨_, rfl, ⟨py"  ", py"   ", py"   ", py" ", py"  ", py"\n", by decide +kernel,
      lead_of _ (by decide +kernel), by decide +kernel, by decide +kernel, by decide +kernel, by decide +kernel, tail_of _ (by decide +kernel)⟩,
    not_count _ (by decide +kernel), not_occurs _ _ (by decide +kernel), by decide +kernel⟩ ?_
  refine .cons ⟨by simp, _, rfl, not_count _ (by decide +kernel), not_occurs _ _ (by decide +kernel), plain_of_split _ (by decide +kernel),
    ⟨(by intro h; cases h), fun h => absurd h (not_occurs _ _ (by decide +kernel))⟩, .inl ⟨rfl, by decide +kernel⟩, by simp⟩ ?_
  refine .cons ⟨_, rfl, ⟨py" ", py" ", py"  ", py" ", py" ", py"\n", by decide +kernel,
      lead_of _ (by decide +kernel), by decide +kernel, by decide +kernel, by decide +kernel, by decide +kernel, tail_of _ (by decide +kernel)⟩,
    not_count _ (by decide +kernel), not_occurs _ _ (by decide +kernel), by decide +kernel⟩ .nil

example : ∃ rd : Numeral → F64, (∀ i ∈ exAtomHead, Reads rd i.nums) ∧
    parse_regular_header Bands.EXTRA_RE exAtomHeadLines.flatten = .ok (atomHeader (py"Fermi energy") rd exAtomHead) :=
  C59_atoms _ _ exAtomHead_lines (by
    intro i hi
    simp [exAtomHead] at hi
    rcases hi with rfl | rfl | rfl | rfl
    · intro n hn; cases hn
    · exact (exVec_ok exSi1 (by simp)).2.2.2
    · intro n hn; cases hn
    · exact (exVec_ok exFe2 (by simp)).2.2.2)

end Verif.Props

import Verif.Spec.UnitCell
import Verif.Lemmas.Header
import Verif.Model.CastepBlocks
/-
The unit cell of a `.castep` file.
-/
namespace Verif
open Spec Castep

/-- The numbers of a line. -/
theorem get_numbers_has {line : Str} {ns : List Numeral} (h : HasNumbers line ns) (hv : ∀ n ∈ ns, n.Valid) :
    Res.get_numbers line = ns.map Numeral.text := by
  rcases h with ⟨rfl, hd⟩ | ⟨lead, l, -, rfl, rfl, h1, h2, h3⟩
  · rw [MdFrame.get_numbers_none]; rfl
    intro c hc
    cases hh : isDigit c with
    | false => rfl
    | true => exact absurd ((isDigit_iff c).1 hh) (hd c hc)
  · rw [Props.C30_complete lead l h1 (fun p hp => hv _ (List.mem_map_of_mem hp)) h2 (fun p hp => h3 p hp), List.map_map]; rfl

theorem cellFloats {rd : Numeral → F64} {ns : List Numeral} (hr : ∀ n ∈ ns, parse_float_or_rational n.text = .ok (rd n)) :
    to_type .float (strList (ns.map Numeral.text)) = .ok (.tuple (ns.map fun n => .float (rd n))) :=
  to_type_strList .float ns Numeral.text _ fun n hn => typeParser_float (hr n hn)

theorem cellFloat {rd : Numeral → F64} {n : Numeral} (hr : parse_float_or_rational n.text = .ok (rd n)) :
    to_type .float (.str n.text) = .ok (.float (rd n)) := by
  rw [to_type]; exact typeParser_float hr

theorem namesAngle_iff (l : Str) : [py"alpha", py"beta", py"gamma"].any (Str.contains · l) = true ↔ CellLine.NamesAngle l := by
  simp [CellLine.NamesAngle, Str.contains_iff]

theorem cellLine_other (s : CellState) (line : Str) (numbers : List Str) (hg : Res.get_numbers line = numbers)
    (h2 : numbers.length ≠ 2) (h6 : numbers.length ≠ 6) : cellLine s line = .ok s := by
  unfold cellLine
  match numbers, hg, h2, h6 with
  | [], hg, _, _ => rw [hg]; rfl
  | [_], hg, _, _ => rw [hg]; rfl
  | [_, _], _, h, _ => exact absurd rfl h
  | a :: b :: c :: l, hg, _, h => rw [hg]; dsimp only; rw [if_neg h]

/-- One line. -/
theorem cellLine_step {rd fl : Numeral → F64} {i : CellLine} {l : Str} (h : i.Line l)
    (hr : ∀ n ∈ i.nums, parse_float_or_rational n.text = .ok (rd n)) (hf : ∀ n ∈ i.nums, pyFloat n.text = .ok (fl n)) (s : CellState) :
    cellLine s l = .ok ⟨s.real ++ i.real rd, s.recip ++ i.recip rd, s.params ++ i.len rd, s.angles ++ i.ang rd, s.prop ++ i.vol fl⟩ := by
  obtain ⟨h1, h2, h3⟩ := h
  have hg := get_numbers_has h1 fun n hn => (h2 n hn).1
  cases i with
  | lattice a b c u v w =>
    unfold cellLine
    rw [hg]
    have e1 := cellFloats (ns := [a, b, c]) fun n hn => hr n (by simp [CellLine.nums] at hn ⊢; tauto)
    have e2 := cellFloats (ns := [u, v, w]) fun n hn => hr n (by simp [CellLine.nums] at hn ⊢; tauto)
    show (do
      let a ← to_type .float (strList ([a, b, c].map Numeral.text))
      let b ← to_type .float (strList ([u, v, w].map Numeral.text))
      pure { s with real := s.real ++ [a], recip := s.recip ++ [b] } : PyM CellState) = _
    rw [e1, e2]
    simp [CellLine.real, CellLine.recip, CellLine.len, CellLine.ang, CellLine.vol]
    rfl
  | angle a x =>
    unfold cellLine
    rw [hg]
    have e1 := cellFloat (hr a (by simp [CellLine.nums]))
    have e2 := cellFloat (hr x (by simp [CellLine.nums]))
    show (if _ then (do
      let a ← to_type .float (.str a.text)
      let b ← to_type .float (.str x.text)
      pure { s with params := s.params ++ [a], angles := s.angles ++ [b] } : PyM CellState) else _) = _
    rw [if_pos ((namesAngle_iff l).2 h3), e1, e2]
    simp [CellLine.real, CellLine.recip, CellLine.len, CellLine.ang, CellLine.vol]
    rfl
  | prop x p =>
    unfold cellLine
    rw [hg]
    have e1 := hf x (by simp [CellLine.nums])
    show (if _ then _ else (do
      let p ← floatV x.text
      pure { s with prop := s.prop ++ [p] } : PyM CellState)) = _
    rw [if_neg (fun h => h3 ((namesAngle_iff l).1 h)), floatV, e1]
    simp [CellLine.real, CellLine.recip, CellLine.len, CellLine.ang, CellLine.vol]
  | other ns =>
    have h6 : (ns.map Numeral.text).length ≠ 6 := by rw [List.length_map]; exact h3.2
    have h2' : (ns.map Numeral.text).length ≠ 2 := by rw [List.length_map]; exact h3.1
    simp only [CellLine.real, CellLine.recip, CellLine.len, CellLine.ang, CellLine.vol, List.append_nil]
    exact cellLine_other s l _ hg h2' h6

theorem foldLines_cell {rd fl : Numeral → F64} {items : List CellLine} {lines : List Str} (h : List.Forall₂ CellLine.Line items lines)
    (hr : ∀ i ∈ items, ∀ n ∈ i.nums, parse_float_or_rational n.text = .ok (rd n))
    (hf : ∀ i ∈ items, ∀ n ∈ i.nums, pyFloat n.text = .ok (fl n)) : ∀ s : CellState,
    foldLines cellLine s lines = .ok ⟨s.real ++ items.flatMap (CellLine.real rd), s.recip ++ items.flatMap (CellLine.recip rd),
      s.params ++ items.flatMap (CellLine.len rd), s.angles ++ items.flatMap (CellLine.ang rd), s.prop ++ items.flatMap (CellLine.vol fl)⟩ := by
  induction h with
  | nil => intro s; simp [foldLines]
  | @cons i l items lines h1 _ ih =>
    intro s
    rw [foldLines, cellLine_step h1 (hr i (by simp)) (hf i (by simp))]
    show foldLines cellLine _ lines = _
    rw [ih (fun j hj => hr j (by simp [hj])) (fun j hj => hf j (by simp [hj]))]
    simp

theorem unit_cell {rd fl : Numeral → F64} {items : List CellLine} {lines : List Str} (h : List.Forall₂ CellLine.Line items lines)
    (hr : ∀ i ∈ items, ∀ n ∈ i.nums, parse_float_or_rational n.text = .ok (rd n))
    (hf : ∀ i ∈ items, ∀ n ∈ i.nums, pyFloat n.text = .ok (fl n)) :
    process_unit_cell lines = .ok (unitCell rd fl items) := by
  rw [process_unit_cell, foldLines_cell h hr hf]
  simp [unitCell]

end Verif

import Verif.Lemmas.Epme
import Verif.Props.Magres
import Verif.Props.UnitCell
/-
C70: `.epme` files.
-/
namespace Verif.Props
open Verif Spec Epme

theorem ep_reads {f : EpFile} (hk : f.Ok) {rd fl : Numeral → F64} (h : ∀ n : Numeral, n.Valid → n.InRange →
    (parse_float_or_rational n.text = .ok (rd n) ∧ F64.Nearest n.value (rd n)) ∧ (pyFloat n.text = .ok (fl n) ∧ F64.Nearest n.value (fl n))) :
    (∀ g ∈ f.groups, ∀ n ∈ g.kpts.1 ++ g.kpts.2, parse_float_or_rational n.text = .ok (rd n)) ∧
    (∀ g ∈ f.groups, ∀ r ∈ g.rows, ∀ n ∈ r.floats, parse_float_or_rational n.text = .ok (rd n)) ∧
    ∀ n ∈ [f.volume, f.fermi], pyFloat n.text = .ok (fl n) :=
  ⟨fun g hg n hn => (h n ((hk.2.2 g hg).2.1 n hn).1 ((hk.2.2 g hg).2.1 n hn).2).1.1,
    fun g hg r hr n hn => (h n (((hk.2.2 g hg).2.2 r hr).2.2.2 n hn).1 (((hk.2.2 g hg).2.2 r hr).2.2.2 n hn).2).1.1,
    fun n hn => (h n (hk.2.1 n hn).1 (hk.2.1 n hn).2).2.1⟩

/-- A file of complete rows is read exactly. -/
theorem C70_partial (f : EpFile) (lines : List Str) (hl : f.Lines lines) (hk : f.Ok) :
    ∃ rd fl : Numeral → F64, (∀ n : Numeral, n.Valid → n.InRange → F64.Nearest n.value (rd n) ∧ F64.Nearest n.value (fl n)) ∧
      parse_epme_file lines = .ok (f.report fl (f.data rd)) := by
  obtain ⟨rd, fl, h⟩ := readings
  obtain ⟨h1, h2, h3⟩ := ep_reads hk h
  obtain ⟨fuel, a, b⟩ := file_upto hl hk h1 h2 h3 []
  refine ⟨rd, fl, fun n x y => ⟨(h n x y).1.2, (h n x y).2.2⟩, ?_⟩
  rw [List.append_nil] at b
  rw [b]
  cases fuel with
  | zero => cases a
  | succ fuel => rfl

/-- A row with fewer than five columns, even a blank line, has the file rejected. -/
theorem C70_rejected (f : EpFile) (lines rest : List Str) (l : Str) (r : EpRow) (m : Nat) (hl : f.Lines lines) (hk : f.Ok)
    (hr : r.Ok) (hm : m < 5) (hf : Fields l (r.words.take m)) : parse_epme_file (lines ++ l :: rest) = .error .valueError := by
  obtain ⟨rd, fl, h⟩ := readings
  obtain ⟨h1, h2, h3⟩ := ep_reads hk h
  obtain ⟨fuel, a, b⟩ := file_upto hl hk h1 h2 h3 (l :: rest)
  rw [b]
  cases fuel with
  | zero => cases a
  | succ fuel =>
    rw [loop, if_neg (by rw [no_pair (more := []) (hr.2.2.1 r.branch (by simp [EpRow.ints])).1 (by rw [List.append_nil]; exact hf) (.inl rfl)]; decide),
      row_short hr (fun n hn => (h n (hr.2.2.2 n hn).1 (hr.2.2.2 n hn).2).1.1) _ hm hf]
    rfl

/-- A row cut off after five columns or more is accepted: what is missing of the velocities is left out, what is missing of the
matrix element is reported as zero. -/
theorem C70_cut (f : EpFile) (g : EpGroup) (lines : List Str) (l : Str) (r : EpRow) (m : Nat) (hl : f.Lines lines) (hk : f.Ok)
    (hg : f.groups.getLast? = some g) (hr : r.Ok) (hm : 5 ≤ m) (hm' : m < 13) (hf : Fields l (r.words.take m)) :
    ∃ rd fl : Numeral → F64, (∀ n : Numeral, n.Valid → n.InRange → F64.Nearest n.value (rd n) ∧ F64.Nearest n.value (fl n)) ∧
      parse_epme_file (lines ++ [l]) = .ok (f.report fl (f.data rd ++ [r.cut rd g.kpts m])) := by
  obtain ⟨rd, fl, h⟩ := readings
  obtain ⟨h1, h2, h3⟩ := ep_reads hk h
  obtain ⟨fuel, a, b⟩ := file_upto hl hk h1 h2 h3 [l]
  refine ⟨rd, fl, fun n x y => ⟨(h n x y).1.2, (h n x y).2.2⟩, ?_⟩
  rw [b]
  cases fuel with
  | zero => cases a
  | succ fuel =>
    rw [← List.append_nil (r.words.take m)] at hf
    rw [loop, if_neg (by rw [no_pair (more := []) (hr.2.2.1 r.branch (by simp [EpRow.ints])).1 hf (.inl rfl)]; decide), hg]
    show (row (pairOf rd g.kpts) l >>= _) >>= _ = _
    rw [row_of hr (fun n hn => (h n (hr.2.2.2 n hn).1 (hr.2.2.2 n hn).2).1.1) hm (Nat.le_of_lt hm') (.inl rfl) hf]
    cases fuel with
    | zero => simp at a
    | succ fuel => rfl

/-! ### A file -/

def exEpRow (i : Nat) : EpRow :=
  ⟨exInt (natStr i), exInt (py"4"), exInt (py"5"), z 1, neg (py"2") (py"5"), [z 1, z 2, z 3], [z 4, z 5, z 6], z 7, neg (py"0") (py"25")⟩

def exEpRowLine (i : Nat) : Str := py"  " ++ natStr i ++ py" 4 5  1.5 -2.5  1.5 2.5 3.5  4.5 5.5 6.5  7.5 -0.25\n"

def exEpGroup (i : Nat) : EpGroup := ⟨([z i, z 0, z 0], [z 0, z i, z 0]), [exEpRow 1, exEpRow 2]⟩

def exEpGroupLines (i : Nat) : List Str :=
  [py"Electron-Phonon coupling between " ++ (z i).text ++ py" 0.5 0.5 and 0.5 " ++ (z i).text ++ py" 0.5\n", py" ph  i  f ...\n", exEpRowLine 1, exEpRowLine 2]

def exEp : EpFile := ⟨exInt (py"1"), z 40, z 3, exInt (py"8"), exInt (py"6"), [exEpGroup 1, exEpGroup 2]⟩

def exEpLines : List Str :=
  [py"EPME file\n", py"Version: 1\n", py"Units: eV\n", py"Cell volume 40.5\n", py"Fermi energy 3.5\n", py"Number of bands 8\n", py"Number of branches 6\n"] ++
    (exEpGroupLines 1 ++ exEpGroupLines 2)

theorem exEpRow_ok (i : Nat) (hi : i = 1 ∨ i = 2) : (exEpRow i).Ok := by
  refine ⟨rfl, rfl, ?_, ?_⟩ <;> rcases hi with rfl | rfl <;> decide +kernel

theorem exEpGroup_lines (i : Nat) (hi : i = 1 ∨ i = 2) : (exEpGroup i).Lines (exEpGroupLines i) := by
  refine ⟨_, _, _, rfl, by rcases hi with rfl | rfl <;> decide +kernel, ?_, ?_⟩
  · refine hasNumbers_of (holds_of _ (py"Electron-Phonon coupling between ") [(z i, py" "), (z 0, py" "), (z 0, py" and "), (z 0, py" "), (z i, py" "), (z 0, py"\n")] ?_ ?_)
      (by simp [exEpGroup]) <;> rcases hi with rfl | rfl <;> decide +kernel
  · exact .cons ⟨[], (fields_iff _ _).2 (by decide +kernel)⟩ (.cons ⟨[], (fields_iff _ _).2 (by decide +kernel)⟩ .nil)

theorem exEpGroup_ok (i : Nat) (hi : i = 1 ∨ i = 2) : (exEpGroup i).Ok := by
  refine ⟨rfl, by rcases hi with rfl | rfl <;> decide +kernel, fun r hr => ?_⟩
  simp only [exEpGroup, List.mem_cons, List.not_mem_nil, or_false] at hr
  rcases hr with rfl | rfl
  · exact exEpRow_ok 1 (.inl rfl)
  · exact exEpRow_ok 2 (.inr rfl)

theorem exEp_lines : exEp.Lines exEpLines :=
  ⟨_, _, _, _, _, _, _, [exEpGroupLines 1, exEpGroupLines 2], rfl, ⟨py"Version:", [], (fields_iff _ _).2 (by decide +kernel)⟩, ⟨py"Cell", [py"volume"], (fields_iff _ _).2 (by decide +kernel)⟩,
    ⟨py"Fermi", [py"energy"], (fields_iff _ _).2 (by decide +kernel)⟩, ⟨py"Number", [py"of", py"bands"], (fields_iff _ _).2 (by decide +kernel)⟩,
    ⟨py"Number", [py"of", py"branches"], (fields_iff _ _).2 (by decide +kernel)⟩,
    .cons (exEpGroup_lines 1 (.inl rfl)) (.cons (exEpGroup_lines 2 (.inr rfl)) .nil)⟩

theorem exEp_ok : exEp.Ok := by
  refine ⟨by decide +kernel, by decide +kernel, fun g hg => ?_⟩
  simp only [exEp, List.mem_cons, List.not_mem_nil, or_false] at hg
  rcases hg with rfl | rfl
  · exact exEpGroup_ok 1 (.inl rfl)
  · exact exEpGroup_ok 2 (.inr rfl)

example : ∃ rd fl : Numeral → F64, (∀ n : Numeral, n.Valid → n.InRange → F64.Nearest n.value (rd n) ∧ F64.Nearest n.value (fl n)) ∧
    parse_epme_file exEpLines = .ok (exEp.report fl (exEp.data rd)) := C70_partial _ _ exEp_lines exEp_ok

example : parse_epme_file (exEpLines ++ py"\n" :: []) = .error .valueError :=
  C70_rejected exEp _ _ _ (exEpRow 1) 0 exEp_lines exEp_ok (exEpRow_ok 1 (.inl rfl)) (by decide) ((fields_iff _ _).2 (by decide +kernel))

example : ∃ rd fl : Numeral → F64, (∀ n : Numeral, n.Valid → n.InRange → F64.Nearest n.value (rd n) ∧ F64.Nearest n.value (fl n)) ∧
    parse_epme_file (exEpLines ++ [py" 1 4 5 1.5 -2.5 1.5 2.5\n"]) = .ok (exEp.report fl (exEp.data rd ++ [(exEpRow 1).cut rd (exEpGroup 2).kpts 7])) :=
  C70_cut exEp (exEpGroup 2) _ _ (exEpRow 1) 7 exEp_lines exEp_ok rfl (exEpRow_ok 1 (.inl rfl)) (by decide) (by decide) ((fields_iff _ _).2 (by decide +kernel))

/-- Incomplete rows are not always rejected. -/
theorem C70_cut_false : ¬ ∀ (f : EpFile) (lines : List Str) (l : Str) (r : EpRow) (m : Nat), f.Lines lines → f.Ok → r.Ok → m < 13 →
    Fields l (r.words.take m) → ∃ e, parse_epme_file (lines ++ [l]) = .error e := by
  intro h
  obtain ⟨e, he⟩ := h exEp exEpLines (py" 1 4 5 1.5 -2.5 1.5 2.5\n") (exEpRow 1) 7 exEp_lines exEp_ok (exEpRow_ok 1 (.inl rfl)) (by decide)
    ((fields_iff _ _).2 (by decide +kernel))
  obtain ⟨rd, fl, -, h'⟩ := C70_cut exEp (exEpGroup 2) exEpLines (py" 1 4 5 1.5 -2.5 1.5 2.5\n") (exEpRow 1) 7 exEp_lines exEp_ok rfl (exEpRow_ok 1 (.inl rfl))
    (by decide) (by decide) ((fields_iff _ _).2 (by decide +kernel))
  rw [h'] at he
  cases he

end Verif.Props

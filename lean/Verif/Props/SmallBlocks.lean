import Verif.Lemmas.SmallBlocks
import Verif.Props.ElasticProps
/-
C94: excitation energies, samples of the electron localisation function and symmetry analyses of phonons.
-/
namespace Verif.Props
open Verif Spec Castep

/-- C94: every excitation is reported with its energy, error and type, in the order of the rows. -/
theorem C94_excitations (lines : List Str) (rows : List ExcRow) (h : Interleaved ExcRow.Other (fun l r => r.Line l) lines rows) (hok : ∀ r ∈ rows, r.Ok) :
    ∃ fl : Numeral → F64, (∀ n : Numeral, n.Valid → n.InRange → F64.Nearest n.value (fl n)) ∧
      process_tddft lines = .ok (.list (rows.map (ExcRow.info fl))) := by
  obtain ⟨_, fl, hrd⟩ := readings
  refine ⟨fl, fun n h1 h2 => (hrd n h1 h2).2.2, ?_⟩
  unfold process_tddft
  rw [collect_rows (g := fun r => some (ExcRow.info fl r)) (fun l hl => SmallTab.td_skip hl) h
    (fun l r hr hl => SmallTab.td_line (fun n h1 h2 => (hrd n h1 h2).2.1) hl (hok r hr)), List.filterMap_eq_map']
  rfl

/-- C94: every sample of the electron localisation function is reported, in the order of the lines. -/
theorem C94_samples (lines : List Str) (rows : List (Str × Numeral)) (h : Interleaved NoDigit ElfLine lines rows) (hok : ∀ r ∈ rows, ElfOk r) :
    ∃ fl : Numeral → F64, (∀ n : Numeral, n.Valid → n.InRange → F64.Nearest n.value (fl n)) ∧
      process_elf lines = .ok (.list (rows.map fun r => .float (fl r.2))) := by
  obtain ⟨_, fl, hrd⟩ := readings
  refine ⟨fl, fun n h1 h2 => (hrd n h1 h2).2.2, ?_⟩
  unfold process_elf
  rw [collect_rows (g := fun r : Str × Numeral => some (PyVal.float (fl r.2))) (fun l hl => SmallTab.elf_skip hl) h
    (fun l r hr hl => SmallTab.elf_line (fun n h1 h2 => (hrd n h1 h2).2.1) hl (hok r hr)), List.filterMap_eq_map']
  rfl

/-- C94: a symmetry analysis is reported with the words of its title and its matrix; a row of whole numbers without signs keeps them whole. -/
theorem C94_symmetry (l ruler : Str) (rest : List Str) (words : List Str) (rows : List (List Numeral)) (ht : SymTitle l words)
    (h : Interleaved (fun l => HasNumbers l []) (fun l ns => ns ≠ [] ∧ HasNumbers l ns) rest rows) (hok : ∀ ns ∈ rows, ∀ n ∈ ns, n.Valid ∧ n.InRange) :
    ∃ rd : Numeral → F64, (∀ n : Numeral, n.Valid → n.InRange → F64.Nearest n.value (rd n)) ∧
      process_phonon_sym (l :: ruler :: rest) =
        .ok (.dict [(.str (py"title"), .str (Str.join (py" ") words)), (.str (py"mat"), .tuple (rows.map (symRow rd)))]) := by
  obtain ⟨rd, _, hrd⟩ := readings
  refine ⟨rd, fun n h1 h2 => (hrd n h1 h2).1.2, ?_⟩
  obtain ⟨t, h1, h2⟩ := SmallTab.title_of ht
  have hc : collect SmallTab.rowOf rest = .ok (rows.map (symRow rd)) := by
    rw [← List.filterMap_eq_map']
    exact collect_rows (g := fun r => some (symRow rd r)) (fun l hl => SmallTab.rowOf_none hl) h (fun l r hr hl => SmallTab.rowOf_some (fun n h1 h2 => (hrd n h1 h2).1.1) hl (hok r hr))
  unfold process_phonon_sym
  simp only [nextLine, Delta.ok_bind, h1]
  change (collect SmallTab.rowOf rest >>= fun mat => _) = _
  rw [hc]
  simp only [Delta.ok_bind, h2]
  rfl

/-! ### Examples -/

def exExcLines : List Str :=
  [py"  +                      TDDFT excitation energies                      + TDDFT\n",
   py"  +  state number       energy             error       type             + TDDFT\n",
   py"  +         1     5.753504005347331   3.6998800019E-07     spurious   +TDDFT\n",
   py"  +         2     6.814402    0.25    Singlet   +TDDFT\n", py"  +=====+\n"]

def exExcRows : List ExcRow :=
  [⟨exInt (py"1"), exDec (py"5") (py"753504005347331"), ⟨none, py"3", some (py"6998800019"), some (true, some true, py"07")⟩, py"spurious"⟩,
   ⟨exInt (py"2"), exDec (py"6") (py"814402"), exDec (py"0") (py"25"), py"Singlet"⟩]

/-- The hypotheses of `C94_excitations` hold for a table of two states. -/
example : Interleaved ExcRow.Other (fun l r => r.Line l) exExcLines exExcRows ∧ ∀ r ∈ exExcRows, r.Ok :=
  ⟨.skip (.inl (by decide +kernel)) (.skip (.inl (by decide +kernel)) (.row ⟨[], (fields_iff _ _).2 (by decide +kernel)⟩
    (.row ⟨[], (fields_iff _ _).2 (by decide +kernel)⟩ (.skip (.inl (by decide +kernel)) .nil)))), by simp only [ExcRow.Ok]; decide +kernel⟩

def exElfLines : List Str := [py"      ELF grid sample\n", py" ELF        1 0.506189\n", py" ELF        2 0.506191\n", py"---------\n"]

/-- The hypotheses of `C94_samples` hold for two samples. -/
example : Interleaved NoDigit ElfLine exElfLines [(py"1", exDec (py"0") (py"506189")), (py"2", exDec (py"0") (py"506191"))] ∧
    ∀ r ∈ [(py"1", exDec (py"0") (py"506189")), (py"2", exDec (py"0") (py"506191"))], ElfOk r :=
  ⟨.skip (by decide +kernel) (.row ⟨⟨_, _, rfl, by decide⟩, [], (fields_iff _ _).2 (by decide +kernel)⟩
    (.row ⟨⟨_, _, rfl, by decide⟩, [], (fields_iff _ _).2 (by decide +kernel)⟩ (.skip (by decide +kernel) .nil))), by simp only [ElfOk, HasPoint, Numeral.AllDigits]; decide +kernel⟩

/-- The hypotheses of `C94_symmetry` hold for the elements of a tensor. -/
example : SymTitle (py"  Phonon Symmetry Analysis: Elements of BEC\n") [py"Elements", py"of", py"BEC"] ∧
    Interleaved (fun l => HasNumbers l []) (fun l ns => ns ≠ [] ∧ HasNumbers l ns)
      [py"   1   0   0\n", py"\n", py"   0.5   1.5\n"] [[exInt (py"1"), exInt (py"0"), exInt (py"0")], [exDec (py"0") (py"5"), exDec (py"1") (py"5")]] := by
  refine ⟨⟨py"  Phonon Symmetry Analysis", py" Elements of BEC\n", .inl rfl, by decide, by decide, (fields_iff _ _).2 (by decide +kernel)⟩,
    .row ⟨by simp, ?_⟩ (.skip (.inl ⟨rfl, by decide⟩) (.row ⟨by simp, ?_⟩ .nil))⟩
  · exact hasNumbers_of (holds_of _ (py"   ") [(exInt (py"1"), py"   "), (exInt (py"0"), py"   "), (exInt (py"0"), py"\n")] (by decide +kernel) (by decide +kernel)) (by simp)
  · exact hasNumbers_of (holds_of _ (py"   ") [(exDec (py"0") (py"5"), py"   "), (exDec (py"1") (py"5"), py"\n")] (by decide +kernel) (by decide +kernel)) (by simp)

end Verif.Props

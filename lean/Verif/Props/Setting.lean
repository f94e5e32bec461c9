import Verif.Lemmas.SettingVal
import Verif.Props.Numbers
import Verif.Spec.Table
/-
C56: settings of cell and param files.
-/
namespace Verif.Props
open Verif Verif.Spec Verif.Cell

theorem row_list {v : Str} {ns : List Numeral} (h : NumberRow v ns) :
    ∃ n g l, (n, g) :: l ≠ [] ∧ ns = ((n, g) :: l).map Prod.fst ∧ v = ((n, g) :: l).flatMap (fun p => p.1.text ++ p.2) ∧
      (∀ p ∈ (n, g) :: l, ∀ c ∈ p.2, isSpace c = true) ∧ (∀ p ∈ ((n, g) :: l).dropLast, p.2 ≠ []) := by
  induction h with
  | @one n => exact ⟨n, [], [], by simp, rfl, by simp, by simp, by simp⟩
  | @cons n g s ns hg hne _ ih =>
    obtain ⟨n', g', l, -, rfl, rfl, h3, h4⟩ := ih
    refine ⟨n, g, (n', g') :: l, by simp, rfl, by simp, ?_, ?_⟩
    · intro p hp
      rcases List.mem_cons.1 hp with rfl | hp
      · exact hg
      · exact h3 p hp
    · intro p hp
      rw [List.dropLast_cons_of_ne_nil (by simp)] at hp
      rcases List.mem_cons.1 hp with rfl | hp
      · exact hne
      · exact h4 p hp

/-- The conversion of a row of numbers. -/
theorem rowValue_ok {v : Str} {ns : List Numeral} (hr : NumberRow v ns) (hn : ∀ n ∈ ns, n.Valid ∧ n.InRange)
    (hb : 2 ≤ ns.length → c!" " ∈ v) (hf : ∀ n, ns.head? = some n → n.IsInt → ∀ m ∈ ns, m.IsInt) :
    ∃ x, NumValue ns x ∧ rowValue v = .ok x := by
  by_cases h2 : 2 ≤ ns.length
  · rw [rowValue, if_pos (hb h2)]
    obtain ⟨n, g, l, -, e1, e2, h3, h4⟩ := row_list hr
    obtain ⟨f1, -, f3⟩ := C31_numbers_partial [] n g l (by simp) (fun p hp => (hn p.1 (by rw [e1]; exact List.mem_map.2 ⟨p, hp, rfl⟩)).1)
      h3 h4
    rw [List.nil_append, ← e2, ← e1] at f1 f3
    by_cases hi : n.IsInt
    · have ha := hf n (by rw [e1]; rfl) hi
      obtain ⟨r, g1, g2⟩ := f1 hi ha
      exact ⟨_, .ints h2 ha g2, g1⟩
    · rcases f3 hi with ⟨r, g1, g2⟩ | ⟨-, m, hm, g2⟩
      · exact ⟨_, .floats h2 (fun ha => hi (ha n (by rw [e1]; simp))) g2, g1⟩
      · exact absurd g2 (not_le.2 (hn m hm).2)
  · cases hr with
    | @one n =>
      obtain ⟨hv, hir⟩ := hn n (by simp)
      have hsp : c!" " ∉ n.text := by
        intro h; have := text_nospace n hv _ h; revert this; decide
      rw [rowValue, if_neg hsp]
      have hd := determine_type_number [] [] n hv (by simp) .nil (by simp)
      rw [List.nil_append, List.append_nil] at hd
      rw [hd]
      by_cases hi : n.IsInt
      · obtain ⟨g1, g2⟩ := pyInt_isInt n hv hi
        refine ⟨_, .int hi g2, ?_⟩
        rw [if_pos hi]
        simp [to_type, typeParser, g1, Except.map]
      · rw [if_neg hi]
        rcases float_text n hv with ⟨x, g1, g2, -⟩ | ⟨-, g2⟩
        · refine ⟨_, .float hi g2, ?_⟩
          simp [to_type, typeParser, g1, Except.map]
        · exact absurd g2 (not_le.2 hir)
    | @cons n g s ns _ _ h => cases h <;> simp at h2

/-- C56, numbers: the keyword in lower case is mapped to the number, or to the tuple of the numbers.
Missing from the full claim: rows separated by tabs only (`C56_tab_false`) and rows that begin with a whole number and
go on with another kind (`C56_mixed_false`) raise `ValueError`. -/
theorem C56_numbers_partial (line key v : Str) (ns : List Numeral) (h : SettingLine line key v) (hr : NumberRow v ns)
    (hn : ∀ n ∈ ns, n.Valid ∧ n.InRange) (hb : 2 ≤ ns.length → c!" " ∈ v)
    (hf : ∀ n, ns.head? = some n → n.IsInt → ∀ m ∈ ns, m.IsInt) :
    ∃ x, NumValue ns x ∧ parse_cell_param_file [line] = .ok (.list [.dict [(.str (Str.lower key), x)]]) := by
  obtain ⟨x, h1, h2⟩ := rowValue_ok hr hn hb hf
  exact ⟨x, h1, by rw [numbers_file h hr fun n hn' => (hn n hn').1, h2]; rfl⟩

/-- C56, numbers with a unit: a pair of the value and the unit.  Missing from the full claim: with more than one blank
before the unit the line is ignored or misread (`C56_unit_false`). -/
theorem C56_unit_partial (line key v u : Str) (c : Nat) (ns : List Numeral) (h : SettingLine line key (v ++ c :: u))
    (hr : NumberRow v ns) (hn : ∀ n ∈ ns, n.Valid ∧ n.InRange) (hc : isSpace c = true) (hu : UnitText u)
    (hb : 2 ≤ ns.length → c!" " ∈ v) (hf : ∀ n, ns.head? = some n → n.IsInt → ∀ m ∈ ns, m.IsInt) :
    ∃ x, NumValue ns x ∧
      parse_cell_param_file [line] = .ok (.list [.dict [(.str (Str.lower key), .tuple [x, .str u])]]) := by
  obtain ⟨x, h1, h2⟩ := rowValue_ok hr hn hb hf
  exact ⟨x, h1, by rw [unit_file h hr (fun n hn' => (hn n hn').1) hc hu, h2]; rfl⟩

/-- C56, texts: the logical it stands for, or the text itself. -/
theorem C56_text (line key t : Str) (h : SettingLine line key t) (ht : PlainText t) :
    parse_cell_param_file [line] = .ok (.list [.dict [(.str (Str.lower key), textValue t)]]) := by
  rw [text_file h ht]
  have hd := determine_type_text t fun c hc => by
    obtain ⟨h1, h2, h3⟩ := ht.2.1 c hc
    refine ⟨?_, h3⟩
    rintro (h | h)
    · exact h1 ((Verif.isDigit_iff c).1 h)
    · simp at h2; omega
  have hg := C55_guess t
  rw [textValue, logical]
  rcases hd with hd | hd
  · rw [hd, C55_logical]
    have h1 : t ≠ py"1" := by
      rintro rfl
      exact (ht.2.1 _ rfl).1 (by decide)
    by_cases h2 : Str.lower t = py"t" ∨ Str.lower t = py"true"
    · rw [if_pos h2, decide_eq_true (by tauto)]; rfl
    · have h3 : Str.lower t = py"f" ∨ Str.lower t = py"false" := by have := hg.1 hd; tauto
      rw [if_neg h2, if_pos h3, decide_eq_false (by tauto)]; rfl
  · have h1 : ¬ (Str.lower t = py"t" ∨ Str.lower t = py"true" ∨ Str.lower t = py"f" ∨ Str.lower t = py"false") := by
      intro h; have := hg.2 h; rw [hd] at this; cases this
    rw [hd, if_neg (by tauto), if_neg (by tauto)]
    rfl

/-- C56 is false: with two blanks before the unit the setting is lost without notice, or, if there is a blank before
the separator, the separator becomes part of the value. -/
theorem C56_unit_false : parse_cell_param_file [py"cut_off_energy: 300  eV\n"] = .ok (.list [.dict []]) ∧
    parse_cell_param_file [py"cut_off_energy : 300  eV\n"] =
      .ok (.list [.dict [(.str (py"cut_off_energy"), .str (py": 300  eV"))]]) ∧
    parse_cell_param_file [py"cut_off_energy : 300 eV\n"] =
      .ok (.list [.dict [(.str (py"cut_off_energy"), .tuple [.int 300, .str (py"eV")])]]) := by decide +kernel

/-- C56 is false for numbers separated by tabs only. -/
theorem C56_tab_false : parse_cell_param_file [[107, 61, 49, 9, 50]] = .error .valueError ∧
    parse_cell_param_file [[107, 61, 49, 32, 50]] = .ok (.list [.dict [(.str (py"k"), .tuple [.int 1, .int 2])]]) := by
  decide +kernel

/-- C56 is false for rows that begin with a whole number and go on with another. -/
theorem C56_mixed_false : parse_cell_param_file [py"shift : 0 0.25 0.25\n"] = .error .valueError := by decide +kernel

/-! ### Examples -/

theorem exSettingLine (line key sep value b com : Str) (h : line = key ++ (sep ++ (value ++ (b ++ com)))) (hk : key ≠ [])
    (hk' : ∀ c ∈ key, isAlpha c = true ∨ c = c!"_") (hs : sep = py" : " ∨ sep = py"=") (hb : Blank b)
    (hc : com = [] ∨ ∃ t, com = c!"!" :: t) (hv : ∀ c ∈ value, c ≠ c!"#" ∧ c ≠ c!"!") : SettingLine line key value := by
  refine ⟨[], sep, b, com, by simpa using h, (fun c hc => by cases hc), ⟨hk, hk'⟩, ?_, hb, ?_, hv⟩
  · rcases hs with rfl | rfl
    · exact ⟨[32], 58, [32], rfl, by decide, by decide⟩
    · exact ⟨[], 61, [], rfl, by decide, by decide⟩
  · rcases hc with rfl | ⟨t, rfl⟩
    · intro c hc; cases hc
    · intro c hc; cases hc; exact .inr rfl

def exPhonon : Numeral := ⟨none, py"0", some (py"25"), none⟩
def exMp : Numeral := ⟨none, py"4", none, none⟩

example : ∃ x, NumValue [exMp, exMp, exMp] x ∧ parse_cell_param_file [py"KPOINT_MP_GRID : 4 4 4 ! grid\n"] =
    .ok (.list [.dict [(.str (py"kpoint_mp_grid"), x)]]) :=
  C56_numbers_partial _ (py"KPOINT_MP_GRID") (py"4 4 4") _
    (exSettingLine _ _ (py" : ") _ (py" ") (py"! grid\n") rfl (by decide) (by decide) (.inl rfl) (by unfold Blank; decide)
      (.inr ⟨_, rfl⟩) (by decide))
    (.cons (n := exMp) (g := py" ") (by unfold Blank; decide) (by decide)
      (.cons (n := exMp) (g := py" ") (by unfold Blank; decide) (by decide) (.one (n := exMp))))
    (by decide +kernel) (by decide) (by intro n hn _; revert n hn; decide)

example : ∃ x, NumValue [exPhonon] x ∧ parse_cell_param_file [py"smearing_width=0.25 eV"] =
    .ok (.list [.dict [(.str (py"smearing_width"), .tuple [x, .str (py"eV")])]]) :=
  C56_unit_partial _ (py"smearing_width") (py"0.25") (py"eV") 32 _
    (exSettingLine _ _ (py"=") _ [] [] rfl (by decide) (by decide) (.inr rfl) (by unfold Blank; decide) (.inl rfl) (by decide))
    (.one (n := exPhonon)) (by decide +kernel) (by decide) ⟨by decide, by decide, by decide⟩ (by decide)
    (by intro n hn h; cases hn; revert h; decide)

example : parse_cell_param_file [py"Fix_Occupancy : TRUE\n"] =
    .ok (.list [.dict [(.str (py"fix_occupancy"), .bool true)]]) :=
  C56_text _ (py"Fix_Occupancy") (py"TRUE")
    (exSettingLine _ _ (py" : ") _ (py"\n") [] rfl (by decide) (by decide) (.inl rfl) (by unfold Blank; decide) (.inl rfl) (by decide))
    ⟨by decide, by decide, by decide⟩

example : parse_cell_param_file [py"xc_functional : PBE + U ! comment\n"] =
    .ok (.list [.dict [(.str (py"xc_functional"), .str (py"PBE + U"))]]) :=
  C56_text _ (py"xc_functional") (py"PBE + U")
    (exSettingLine _ _ (py" : ") _ (py" ") (py"! comment\n") rfl (by decide) (by decide) (.inl rfl) (by unfold Blank; decide)
      (.inr ⟨_, rfl⟩) (by decide))
    ⟨by decide, by decide, by decide⟩

end Verif.Props

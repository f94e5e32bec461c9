import Verif.Lemmas.SpecProps
import Verif.Lemmas.CastepRows
import Verif.Props.LineTables
/-
C96: the properties of species in a `.castep` file.
-/
namespace Verif.Props
open Verif Spec Castep SpecTable

/-- C96 for masses: whatever the run knew about species, the table sets the mass of each of its species and nothing else. -/
theorem C96_mass_partial (env : Env) (h : Hit) (rows : List (Str × Numeral)) (hl : Interleaved Ignored TwoRow h.block rows)
    (hok : ∀ e ∈ rows, e.2.Valid ∧ e.2.InRange) (r : Run) (hr : Sound r) :
    ∃ fl : Numeral → F64, (∀ n : Numeral, n.Valid → n.InRange → F64.Nearest n.value (fl n)) ∧
      ∃ r', mass env h r = .ok r' ∧ Sets (py"mass") (rows.map fun e => (e.1, .float (fl e.2))) r r' := by
  obtain ⟨_, fl, hrd⟩ := readings
  refine ⟨fl, fun n h1 h2 => (hrd n h1 h2).2.2, ?_⟩
  have hc : process_spec_prop h.block = .ok (rows.map fun e => [e.1, e.2.text]) := by
    rw [process_spec_prop, collect_rows (g := fun e : Str × Numeral => some [e.1, e.2.text]) (fun l hs => SpecProps.specProp_ignored hs) hl, List.filterMap_eq_map']
    intro l e he hw
    exact SpecProps.specProp_row hw.1 hw.2 (by simpa using SpecProps.not_fly (hok e he).1)
  rw [mass, hc]
  refine SpecProps.sets_rows ?_ hr
  rw [List.forall₂_map_left_iff, List.forall₂_map_right_iff, List.forall₂_same]
  intro e he
  exact ⟨e.2.text, rfl, LineTab.floatV_ok (hrd _ (hok e he).1 (hok e he).2).2.1⟩

/-- C96 for quadrupole moments, where a line may go on after the number. -/
theorem C96_quadrupole (env : Env) (h : Hit) (rows : List (Str × Numeral)) (hl : Interleaved Ignored LongRow h.block rows)
    (hok : ∀ e ∈ rows, e.2.Valid ∧ e.2.InRange) (r : Run) (hr : Sound r) :
    ∃ fl : Numeral → F64, (∀ n : Numeral, n.Valid → n.InRange → F64.Nearest n.value (fl n)) ∧
      ∃ r', quadrupole env h r = .ok r' ∧ Sets (py"electric_quadrupole_moment") (rows.map fun e => (e.1, .float (fl e.2))) r r' := by
  obtain ⟨_, fl, hrd⟩ := readings
  refine ⟨fl, fun n h1 h2 => (hrd n h1 h2).2.2, ?_⟩
  obtain ⟨ws, hc, hw⟩ : ∃ ws, process_spec_prop h.block = .ok ws ∧ List.Forall₂ (fun (w : List Str) (e : Str × Numeral) => ∃ more, w = e.1 :: e.2.text :: more) ws rows := by
    rw [process_spec_prop]
    clear hok
    generalize h.block = ls at hl
    induction hl with
    | nil => exact ⟨[], rfl, .nil⟩
    | skip hs _ ih =>
      obtain ⟨ws, h1, h2⟩ := ih
      refine ⟨ws, ?_, h2⟩
      rw [collect, SpecProps.specProp_ignored hs]
      exact h1
    | row hw _ ih =>
      obtain ⟨ws, h1, h2⟩ := ih
      obtain ⟨hs, more, hf, hn⟩ := hw
      refine ⟨_, ?_, .cons ⟨more, rfl⟩ h2⟩
      rw [collect, SpecProps.specProp_row hs hf hn]
      simp only [Delta.ok_bind]
      rw [h1]
      rfl
  rw [quadrupole, hc]
  refine SpecProps.sets_rows ?_ hr
  rw [List.forall₂_map_right_iff]
  clear hc hl
  induction hw with
  | nil => exact .nil
  | @cons w e ws es h1 _ ih =>
    refine .cons ?_ (ih fun e he => hok e (by simp [he]))
    obtain ⟨more, rfl⟩ := h1
    exact ⟨e.2.text, rfl, LineTab.floatV_ok (hrd _ (hok e (by simp)).1 (hok e (by simp)).2).2.1⟩

/-- C96 for pseudopotentials: the text of the file or definition is kept, unless definitions are to be taken apart. -/
theorem C96_pseudopot_partial (env : Env) (h : Hit) (rows : List (Str × Str)) (hl : Interleaved Ignored FileRow h.block rows)
    (hok : ∀ e ∈ rows, Filters.has Filters.PSPOT env.filters = false ∨ c!"|" ∉ e.2) (r : Run) (hr : Sound r) :
    ∃ r', pseudopot env h r = .ok r' ∧ Sets (py"pseudopot") (rows.map fun e => (e.1, .str e.2)) r r' := by
  have hc : process_spec_prop h.block = .ok (rows.map fun e => [e.1, e.2]) := by
    rw [process_spec_prop, collect_rows (g := fun e : Str × Str => some [e.1, e.2]) (fun l hs => SpecProps.specProp_ignored hs) hl, List.filterMap_eq_map']
    intro l e he hw
    by_cases hf : e.2 = py"on-the-fly"
    · rcases hw with ⟨-, h2⟩ | ⟨-, more, h2⟩
      · rw [hf] at h2 ⊢
        exact SpecProps.specProp_fly (ws := []) h2
      · rw [hf] at h2 ⊢
        exact SpecProps.specProp_fly h2
    · rcases hw with ⟨h1, h2⟩ | ⟨h1, -⟩
      · exact SpecProps.specProp_row h1 h2 (by simpa using hf)
      · exact absurd h1 hf
  rw [pseudopot, hc]
  refine SpecProps.sets_rows ?_ hr
  rw [List.forall₂_map_left_iff, List.forall₂_map_right_iff, List.forall₂_same]
  intro e he
  refine ⟨e.2, rfl, ?_⟩
  dsimp only
  rw [if_neg]
  rcases hok e he with h | h
  · simp [h]
  · simp [h]

/-- C96 is false for species and files whose text has a blank in it: wherever the row stands, the table of masses or pseudopotentials
with such a row is not read at all. -/
theorem C96_violated (env : Env) (h : Hit) (l k a b : Str) (more : List Str) (hl : l ∈ h.block) (hk : Species k) (hf : Fields l (k :: a :: b :: more))
    (hn : (k :: a :: b :: more).getLast? ≠ some (py"on-the-fly")) (r : Run) :
    (∃ e, mass env h r = .error e) ∧ ∃ e, pseudopot env h r = .error e := by
  obtain ⟨rows, hr, hm⟩ := SpecProps.collect_mem (SpecProps.specProp_row hk hf hn) hl
  have hb : ∃ e, Castep.pair (k :: a :: b :: more) = Except.error e := ⟨_, rfl⟩
  constructor
  · rw [mass, hr]
    exact SpecProps.rows_fail hb hm r
  · rw [pseudopot, hr]
    exact SpecProps.rows_fail hb hm r

/-! ### Examples -/

theorem species_of {w : Str} (h : (SPECIES_WORD_RE.match_ w).isSome = true) : Species w := (SpecProps.species_iff w).1 h
theorem not_species_of {w : Str} (h : (SPECIES_WORD_RE.match_ w).isSome = false) : ¬ Species w := fun hs => by
  rw [(SpecProps.species_iff w).2 hs] at h; cases h

/-- The hypotheses of `C96_mass_partial` hold for a table with two isotopes and a run that already knows a pseudopotential. -/
example : Interleaved Ignored TwoRow [py"                   Mass of species in AMU\n", py"                         H:D    2.0141018\n", py"                         O     15.9993815\n", py"\n"]
      [(py"H:D", exDec (py"2") (py"0141018")), (py"O", exDec (py"15") (py"9993815"))] ∧
    Sound [(KEY, .dict [(.str (py"O"), .dict [(.str (py"pseudopot"), .str (py"O_00.usp"))])])] := by
  refine ⟨.skip (.inr ⟨py"Mass", [py"of", py"species", py"in", py"AMU"], (fields_iff _ _).2 (by decide +kernel), not_species_of (by decide +kernel), by decide⟩)
    (.row ⟨species_of (by decide +kernel), (fields_iff _ _).2 (by decide +kernel)⟩ (.row ⟨species_of (by decide +kernel), (fields_iff _ _).2 (by decide +kernel)⟩
      (.skip (.inl (by decide)) .nil))), ?_⟩
  intro v hv
  rw [Dict.get?, if_pos rfl] at hv
  cases hv
  refine ⟨_, rfl, fun k x hx => ?_⟩
  rw [Dict.get?] at hx
  split at hx
  · cases hx; exact ⟨_, rfl⟩
  · cases hx

/-- Those of `C96_quadrupole` for a line with an isotope after the number. -/
example : Interleaved Ignored LongRow [py"          Electric Quadrupole Moment (Barn)\n", py"                         O   -0.0255800 Isotope 17\n", py"            xxxxxx\n"]
      [(py"O", ⟨some true, py"0", some (py"0255800"), none⟩)] := by
  refine .skip (.inr ⟨py"Electric", [py"Quadrupole", py"Moment", py"(Barn)"], (fields_iff _ _).2 (by decide +kernel), not_species_of (by decide +kernel), by decide⟩)
    (.row ⟨species_of (by decide +kernel), [py"Isotope", py"17"], (fields_iff _ _).2 (by decide +kernel), by decide⟩
      (.skip (.inr ⟨py"xxxxxx", [], (fields_iff _ _).2 (by decide +kernel), not_species_of (by decide +kernel), by decide⟩) .nil))

/-- Those of `C96_pseudopot_partial` for a file and a potential made on the fly. -/
example : Interleaved Ignored FileRow [py"                   Files used for pseudopotentials:\n", py"                         H:D  H_00.usp\n", py"                         O on-the-fly\n"]
      [(py"H:D", py"H_00.usp"), (py"O", py"on-the-fly")] ∧ c!"|" ∉ py"H_00.usp" := by
  refine ⟨.skip (.inr ⟨py"Files", [py"used", py"for", py"pseudopotentials:"], (fields_iff _ _).2 (by decide +kernel), not_species_of (by decide +kernel), by decide⟩)
    (.row (.inl ⟨species_of (by decide +kernel), (fields_iff _ _).2 (by decide +kernel)⟩)
      (.row (.inr ⟨rfl, [], (fields_iff _ _).2 (by decide +kernel)⟩) .nil)), by decide⟩

/-- Those of `C96_violated` for a file in a directory whose name has a blank. -/
example : Species (py"Si") ∧ Fields (py"    Si /home/my potentials/Si_00.usp\n") [py"Si", py"/home/my", py"potentials/Si_00.usp"] ∧
    [py"Si", py"/home/my", py"potentials/Si_00.usp"].getLast? ≠ some (py"on-the-fly") :=
  ⟨species_of (by decide +kernel), (fields_iff _ _).2 (by decide +kernel), by decide⟩

end Verif.Props

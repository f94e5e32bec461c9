import Verif.Lemmas.AtomTables
import Verif.Lemmas.IntFloat
import Mathlib.Tactic.NormNum
import Verif.Props.Grids
import Verif.Props.Header
import Verif.Props.UnitCell
import Verif.Props.CastepMatrix
/-
C76: tables of `.castep` files with a row for each atom. C77: those with two keys. C78: thermodynamics.
-/
namespace Verif.Props
open Verif Verif.Spec Verif.Castep

theorem filterMap_pairs {α β : Type} (f : α → β) (l : List α) : l.filterMap (fun r => some (f r)) = l.map f := by
  induction l with
  | nil => rfl
  | cons a l ih => rw [List.filterMap_cons, ih]; rfl

/-- The Hirshfeld charge of every atom is the number printed, without its exponent. -/
theorem C76_hirshfeld_mantissa (lines : List Str) (rows : List IonRow) (hl : Interleaved NoDigit IonRow.Line lines rows)
    (hok : ∀ r ∈ rows, r.Ok 1 ∧ ∀ n ∈ r.nums, HasPoint n ∧ (mantissa n).InRange) (hd : (rows.map IonRow.key).Nodup) :
    ∃ fl : Numeral → F64, (∀ r ∈ rows, Reads fl (r.nums.map mantissa)) ∧
      process_hirshfeld lines = .ok (.dict (rows.flatMap fun r => r.nums.map fun n => (r.key, .float (fl (mantissa n))))) := by
  obtain ⟨rd, fl, hrd⟩ := readings
  refine ⟨fl, fun r hr n hn => ?_, ?_⟩
  · obtain ⟨m, hm, rfl⟩ := List.mem_map.1 hn
    exact (hrd _ (mantissa_valid ((hok r hr).1.2.2.2.2 m hm).1) ((hok r hr).2 m hm).2).2.2
  · have e : ∀ r ∈ rows, (r.nums.map fun n => (r.key, PyVal.float (fl (mantissa n)))) =
        [(r.key, PyVal.float (fl (mantissa (r.nums.headD ⟨none, [], none, none⟩))))] := by
      intro r hr
      obtain ⟨q, hq⟩ : ∃ q, r.nums = [q] := List.length_eq_one_iff.1 (hok r hr).1.2.2.2.1
      rw [hq]; rfl
    have e2 : rows.flatMap (fun r => r.nums.map fun n => (r.key, PyVal.float (fl (mantissa n)))) =
        rows.map fun r => (r.key, PyVal.float (fl (mantissa (r.nums.headD ⟨none, [], none, none⟩)))) := by
      rw [List.map_eq_flatMap]
      clear hl hd
      induction rows with
      | nil => rfl
      | cons r rows ih => rw [List.flatMap_cons, List.flatMap_cons, e r (by simp), ih (fun r hr => hok r (by simp [hr])) fun r hr => e r (by simp [hr])]
    rw [e2, process_hirshfeld, collectDict]
    rw [collect_rows (g := fun r : IonRow => some (r.key, PyVal.float (fl (mantissa (r.nums.headD ⟨none, [], none, none⟩)))))
      (fun l h => by unfold onMatch; rw [IonTab.atom_miss (p := HIRSHFELD_RE) (by rw [IonTab.HIR_eq]) h]) hl fun l r hr h => ?_]
    · rw [filterMap_pairs]
      refine congrArg (fun x => (Except.ok (PyVal.dict x) : PyM PyVal)) (Dict.ofList_nodup _ ?_)
      rw [List.map_map]; exact hd
    · obtain ⟨q, hq⟩ : ∃ q, r.nums = [q] := List.length_eq_one_iff.1 (hok r hr).1.2.2.2.1
      have hm : q ∈ r.nums := by simp [hq]
      have := IonTab.hir_line (fl := fl) h (hok r hr).1 hq ((hok r hr).2 q hm).1
        (hrd _ (mantissa_valid ((hok r hr).1.2.2.2.2 q hm).1) ((hok r hr).2 q hm).2).2.1
      rw [hq]
      exact this

/-- C76, Hirshfeld charges: printed with a point and no exponent, every atom has its charge. Missing: numbers with an exponent, for which
the claim is false (`C76_exponent_false`). -/
theorem C76_hirshfeld_partial (lines : List Str) (rows : List IonRow) (hl : Interleaved NoDigit IonRow.Line lines rows)
    (hok : ∀ r ∈ rows, r.Ok 1 ∧ ∀ n ∈ r.nums, HasPoint n ∧ n.exp = none) (hd : (rows.map IonRow.key).Nodup) :
    ∃ fl : Numeral → F64, (∀ r ∈ rows, Reads fl r.nums) ∧
      process_hirshfeld lines = .ok (.dict (rows.flatMap fun r => r.nums.map fun n => (r.key, .float (fl n)))) := by
  have e : ∀ r ∈ rows, r.nums.map mantissa = r.nums := by
    intro r hr
    conv => rhs; rw [← List.map_id r.nums]
    exact List.map_congr_left fun n hn => mantissa_none ((hok r hr).2 n hn).2
  obtain ⟨fl, h1, h2⟩ := C76_hirshfeld_mantissa lines rows hl (fun r hr => ⟨(hok r hr).1, fun n hn => ⟨((hok r hr).2 n hn).1, by
    rw [mantissa_none ((hok r hr).2 n hn).2]; exact ((hok r hr).1.2.2.2.2 n hn).2⟩⟩) hd
  refine ⟨fl, fun r hr => by have := h1 r hr; rwa [e r hr] at this, ?_⟩
  rw [h2]
  congr 2
  rw [List.flatMap_def, List.flatMap_def]
  congr 1
  exact List.map_congr_left fun r hr => List.map_congr_left fun n hn => by rw [mantissa_none ((hok r hr).2 n hn).2]

/-- C76, initial magnetic moments: the spin and the moment of every atom, and whether it is fixed. -/
theorem C76_spins (lines : List Str) (rows : List SpinRow) (hl : Interleaved NoDigit SpinRow.Line lines rows) (hok : ∀ r ∈ rows, r.toIonRow.Ok 2)
    (hd : (rows.map fun r => r.key).Nodup) :
    ∃ rd : Numeral → F64, (∀ r ∈ rows, Reads rd r.nums) ∧
      process_initial_spins lines = .ok (.dict (rows.map fun r => (r.key, .dict (r.info rd)))) := by
  obtain ⟨rd, fl, hrd⟩ := readings
  refine ⟨rd, fun r hr n hn => (hrd n ((hok r hr).2.2.2.2 n hn).1 ((hok r hr).2.2.2.2 n hn).2).1.2, ?_⟩
  rw [process_initial_spins, collectDict]
  rw [collect_rows (g := fun r : SpinRow => some (r.key, PyVal.dict (r.info rd)))
    (fun l h => by unfold onMatch; rw [IonTab.spin_miss' (p := INITIAL_SPIN_RE) (by rw [IonTab.SPIN_eq]) h]) hl fun l r hr h => ?_]
  · rw [filterMap_pairs]
    refine congrArg (fun x => (Except.ok (PyVal.dict x) : PyM PyVal)) (Dict.ofList_nodup _ ?_)
    rw [List.map_map]; exact hd
  · obtain ⟨a, b, hq⟩ : ∃ a b, r.nums = [a, b] := List.length_eq_two.1 (hok r hr).2.2.2.1
    exact IonTab.spin_line h (hok r hr) hq fun n hn => (hrd n ((hok r hr).2.2.2.2 n (by rw [hq]; exact hn)).1 ((hok r hr).2.2.2.2 n (by rw [hq]; exact hn)).2).1.1

/-- C76, Born effective charges: the three rows of every atom, with its label. Missing: exponents in the first row. -/
theorem C76_born_partial (lines : List Str) (rows : List BornRow) (hl : BornRow.Table lines rows) (hok : ∀ r ∈ rows, r.Ok) (hd : (rows.map BornRow.key).Nodup) :
    ∃ rd : Numeral → F64, (∀ r ∈ rows, Reads rd (r.nums ++ r.row2 ++ r.row3)) ∧
      process_born lines = .ok (.dict (rows.map fun r => (r.key, r.tensor rd))) := by
  obtain ⟨rd, fl, hrd⟩ := readings
  refine ⟨rd, fun r hr n hn => ?_, ?_⟩
  · have : n.Valid ∧ n.InRange := by
      simp only [List.mem_append] at hn
      rcases hn with (hn | hn) | hn
      · exact (hok r hr).1.2.2.2.2 n hn
      · exact (hok r hr).2.2.1.2 n hn
      · exact (hok r hr).2.2.2.1.2 n hn
    exact (hrd n this.1 this.2).1.2
  · rw [process_born, IonTab.born_table hl hok (fun n h1 h2 => (hrd n h1 h2).1.1) _ (Nat.lt_succ_self _)]
    refine congrArg (fun x => (Except.ok (PyVal.dict x) : PyM PyVal)) (Dict.ofList_nodup _ ?_)
    rw [List.map_map]; exact hd

/-- C77, orbital populations: under each atom its orbitals, then the totals. -/
theorem C77_orbitals (A B C : List Str) (tl pl : Str) (rows : List OrbRow) (n : Numeral) (ns : List Numeral)
    (hA : Interleaved OrbOther OrbRow.Line A rows) (hok : ∀ r ∈ rows, r.toIonRow.Ok 1 ∧ r.orb ∈ orbitals)
    (hB : ∀ l ∈ B, OrbOther l) (hC : ∀ l ∈ C, OrbOther l)
    (ht : OrbTotal tl n) (hn : n.Valid ∧ n.InRange) (hp : OrbProjected pl ns) (hns : ∀ m ∈ ns, m.Valid ∧ m.InRange) :
    ∃ rd fl : Numeral → F64, (∀ r ∈ rows, Reads rd r.nums) ∧ Reads fl [n] ∧ Reads rd ns ∧
      process_orbital_populations (A ++ tl :: (B ++ pl :: C)) = .ok (.dict (nested (rows.map (·.entry rd)) ++
        [(.str (py"total"), .float (fl n)), (.str (py"total_projected"), .tuple (ns.map fun n => .float (rd n)))])) := by
  obtain ⟨rd, fl, hrd⟩ := readings
  refine ⟨rd, fl, fun r hr m hm => ?_, fun m hm => ?_, fun m hm => (hrd m (hns m hm).1 (hns m hm).2).1.2, ?_⟩
  · have := (hok r hr).1.2.2.2.2 m hm
    exact (hrd m this.1 this.2).1.2
  · rw [List.mem_singleton] at hm
    subst hm
    exact (hrd m hn.1 hn.2).2.2
  · exact IonTab.orb_table hA hok hB hC ht hn hp hns (fun m h1 h2 => (hrd m h1 h2).1.1) fun m h1 h2 => (hrd m h1 h2).2.1

/-- C77, atomic displacement parameters: under each temperature, as printed, the six numbers of each atom. -/
theorem C77_displacements (lines : List Str) (rows : List DispRow) (hl : Interleaved NoNumberFirst DispRow.Line lines rows)
    (hok : ∀ r ∈ rows, r.toIonRow.Ok 6 ∧ r.temp.Valid) :
    ∃ rd : Numeral → F64, (∀ r ∈ rows, Reads rd r.nums) ∧
      process_atom_disp lines = .ok (.dict (nested (rows.map (·.entry rd)))) := by
  obtain ⟨rd, fl, hrd⟩ := readings
  refine ⟨rd, fun r hr m hm => ?_, ?_⟩
  · have := (hok r hr).1.2.2.2.2 m hm
    exact (hrd m this.1 this.2).1.2
  · have := IonTab.nested_rows (f := dispLine) (g := fun r : DispRow => r.entry rd) (fun d l h => IonTab.disp_skip h d) hl (fun d l r hr h =>
      IonTab.disp_line h (hok r hr).1 (hok r hr).2 (fun m hm => (hrd m ((hok r hr).1.2.2.2.2 m hm).1 ((hok r hr).1.2.2.2.2 m hm).2).1.1) d) []
    have : foldLines dispLine [] lines = .ok (nested (rows.map (·.entry rd))) := this
    rw [process_atom_disp, this]
    rfl

/-- Two keys: a temperature or an atom has an entry exactly if a row has it, and the entry holds exactly its rows; the last row counts. -/
theorem C77_nested (es : List (Key × Key × PyVal)) :
    (nested es).keys.Nodup ∧ ∀ k, (nested es).get? k =
      if es.any (·.1 = k) then some (.dict (Dict.ofList ((es.filter (·.1 = k)).map Prod.snd))) else none := by
  have hk : (nested es).keys = (es.map fun e => e.1).eraseDups := by
    rw [nested, Dict.keys, List.map_map]
    exact List.map_id _
  refine ⟨by rw [hk]; exact Elastic.nodup_dups _ _ (Nat.le_refl _), fun k => ?_⟩
  rw [nested, IonTab.get?_keys]
  have : (k ∈ (es.map fun e => e.1).eraseDups) ↔ (es.any (·.1 = k)) = true := by
    rw [List.mem_eraseDups, List.mem_map, List.any_eq_true]
    simp
  by_cases h : (es.any (·.1 = k)) = true
  · rw [if_pos (this.2 h), if_pos h]
  · rw [if_neg (fun h' => h (this.1 h')), if_neg h]

/-- C78: the zero-point energy, and the columns of the table. -/
theorem C78 (A B : List Str) (zl : Str) (z : Numeral) (rows : List (List Numeral)) (hA : ∀ l ∈ A, ThermoOther l) (hz : ThermoZero zl z)
    (hzn : z.Valid ∧ z.InRange) (hB : Interleaved ThermoOther ThermoRow B rows) (hok : ∀ r ∈ rows, RowOk 5 r) :
    ∃ rd fl : Numeral → F64, Reads rd rows.flatten ∧ Reads fl [z] ∧
      process_thermodynamics (A ++ zl :: B) = .ok (.dict ((.str (py"zero_point_energy"), .float (fl z)) :: columnTable rd thermoLabels rows)) := by
  obtain ⟨rd, fl, hrd⟩ := readings
  refine ⟨rd, fl, fun m hm => ?_, fun m hm => ?_, ?_⟩
  · obtain ⟨r, hr, hm⟩ := List.mem_flatten.1 hm
    exact (hrd m ((hok r hr).2 m hm).1 ((hok r hr).2 m hm).2).1.2
  · rw [List.mem_singleton] at hm
    subst hm
    exact (hrd m hzn.1 hzn.2).2.2
  · have h1 : foldLines thermoLine [] (A ++ zl :: B) = .ok ([(.str (py"zero_point_energy"), .float (fl z))] ++ IonTab.colsOf' rows) := by
      rw [IonTab.fold_app (IonTab.fold_skip fun l hl => IonTab.thermo_skip (hA l hl) _), IonTab.fold_step (IonTab.thermo_zero hz hzn.1 (hrd z hzn.1 hzn.2).2.1 _)]
      have := IonTab.thermo_rows (a := [(.str (py"zero_point_energy"), .float (fl z))]) (by simp [Dict.keys]; decide) hB [] fun r hr => ⟨(hok r hr).1, fun n hn => ((hok r hr).2 n hn).1⟩
      exact this
    rw [process_thermodynamics, h1]
    have := IonTab.fix_table_pre (rd := rd) (a := [(.str (py"zero_point_energy"), .float (fl z))]) (labels := thermoLabels) (by simp [Dict.keys]; decide) rows
      fun r hr n hn => (hrd n ((hok r hr).2 n hn).1 ((hok r hr).2 n hn).2).1.1
    exact congrArg (fun x : PyM (Dict Key PyVal) => (do let d ← x; pure (PyVal.dict d) : PyM PyVal)) this

/-- Without a zero-point energy the columns alone. -/
theorem C78_columns (lines : List Str) (rows : List (List Numeral)) (hl : Interleaved ThermoOther ThermoRow lines rows) (hok : ∀ r ∈ rows, RowOk 5 r) :
    ∃ rd : Numeral → F64, Reads rd rows.flatten ∧ process_thermodynamics lines = .ok (.dict (columnTable rd thermoLabels rows)) := by
  obtain ⟨rd, fl, hrd⟩ := readings
  refine ⟨rd, fun m hm => ?_, ?_⟩
  · obtain ⟨r, hr, hm⟩ := List.mem_flatten.1 hm
    exact (hrd m ((hok r hr).2 m hm).1 ((hok r hr).2 m hm).2).1.2
  · have h1 : foldLines thermoLine [] lines = .ok ([] ++ IonTab.colsOf' rows) :=
      IonTab.thermo_rows (a := []) (by decide) hl [] fun r hr => ⟨(hok r hr).1, fun n hn => ((hok r hr).2 n hn).1⟩
    rw [process_thermodynamics, h1]
    have := IonTab.fix_table_pre (rd := rd) (a := []) (labels := thermoLabels) (by decide) rows
      fun r hr n hn => (hrd n ((hok r hr).2 n hn).1 ((hok r hr).2 n hn).2).1.1
    exact congrArg (fun x : PyM (Dict Key PyVal) => (do let d ← x; pure (PyVal.dict d) : PyM PyVal)) this

/-! ### Examples -/

def exCharge1 : IonRow := ⟨⟨c!"H", [], none, none⟩, py"1", [⟨some true, py"0", some (py"25"), none⟩]⟩
def exCharge2 : IonRow := ⟨⟨c!"S", py"i", some (py"ext"), none⟩, py"12", [exDec (py"1") (py"5")]⟩

def exHirLines : List Str :=
  [py"     Species   Ion     Hirshfeld Charge (e)\n",
   py"     ===================================\n",
   py"      H        1                 -0.25\n",
   py"      Si:ext   12                 1.5   0.00\n"]

theorem exHir_lines : Interleaved NoDigit IonRow.Line exHirLines [exCharge1, exCharge2] := by
  refine .skip (by decide +kernel) (.skip (by decide +kernel) (.row ?_ (.row ?_ .nil)))
  · exact ⟨⟨_, _, rfl, by decide⟩, [], py"      ", py"        1                 -0.25\n", by decide +kernel, by decide +kernel,
      (by intro c hc; cases hc; decide), (fields_iff _ _).2 (by decide +kernel)⟩
  · exact ⟨⟨_, _, rfl, by decide⟩, [py"0.00"], py"      ", py"   12                 1.5   0.00\n", by decide +kernel, by decide +kernel,
      (by intro c hc; cases hc; decide), (fields_iff _ _).2 (by decide +kernel)⟩

example : ∃ fl : Numeral → F64, (∀ r ∈ [exCharge1, exCharge2], Reads fl r.nums) ∧
    process_hirshfeld exHirLines = .ok (.dict ([exCharge1, exCharge2].flatMap fun r => r.nums.map fun n => (r.key, .float (fl n)))) :=
  C76_hirshfeld_partial _ _ exHir_lines (by decide +kernel) (by decide +kernel)

/-- A charge with an exponent. -/
def exTenth : Numeral := ⟨some true, py"1", some (py"0"), some (true, some true, py"01")⟩
def exCharge3 : IonRow := ⟨⟨c!"H", [], none, none⟩, py"1", [exTenth]⟩

theorem exCharge3_lines : Interleaved NoDigit IonRow.Line [py"      H        1                 -1.0E-01\n"] [exCharge3] := by
  refine .row ?_ .nil
  exact ⟨⟨_, _, rfl, by decide⟩, [], py"      ", py"        1                 -1.0E-01\n", by decide +kernel, by decide +kernel,
      (by intro c hc; cases hc; decide), (fields_iff _ _).2 (by decide +kernel)⟩

example : ∃ fl : Numeral → F64, (∀ r ∈ [exCharge3], Reads fl (r.nums.map mantissa)) ∧
    process_hirshfeld [py"      H        1                 -1.0E-01\n"] =
      .ok (.dict ([exCharge3].flatMap fun r => r.nums.map fun n => (r.key, .float (fl (mantissa n))))) :=
  C76_hirshfeld_mantissa _ _ exCharge3_lines (by decide +kernel) (by decide +kernel)

/-- A charge printed with an exponent is not reported. -/
theorem C76_exponent_false : ¬ ∀ (lines : List Str) (rows : List IonRow), Interleaved NoDigit IonRow.Line lines rows →
    (∀ r ∈ rows, r.Ok 1 ∧ ∀ n ∈ r.nums, HasPoint n) → (rows.map IonRow.key).Nodup →
    ∃ fl : Numeral → F64, (∀ r ∈ rows, Reads fl r.nums) ∧
      process_hirshfeld lines = .ok (.dict (rows.flatMap fun r => r.nums.map fun n => (r.key, .float (fl n)))) := by
  intro h
  obtain ⟨fl, h1, h2⟩ := h _ _ exCharge3_lines (by decide +kernel) (by decide +kernel)
  obtain ⟨fl', h1', h2'⟩ := C76_hirshfeld_mantissa _ _ exCharge3_lines (by decide +kernel) (by decide +kernel)
  rw [h2] at h2'
  have e : fl exTenth = fl' (mantissa exTenth) := by
    simpa [exCharge3] using h2'
  have q1 := h1 exCharge3 (by simp) exTenth (by simp [exCharge3])
  have q2 := h1' exCharge3 (by simp) (mantissa exTenth) (by simp [exCharge3])
  rw [← e] at q2
  have v1 : exTenth.value = -(1 / 10 : ℚ) := by
    norm_num [exTenth, Numeral.value, Numeral.sgn, Numeral.nat, Numeral.expVal]
  have v2 : (mantissa exTenth).value = (if true then -1 else 1) * ((1 : ℕ) : ℚ) := by
    norm_num [exTenth, mantissa, Numeral.value, Numeral.sgn, Numeral.nat, Numeral.expVal]
  rw [v2] at q2
  have q3 := nearest_int _ 1 (by decide) true q2
  have q4 := q1.closest ⟨0⟩ (by decide)
  have q5 : (⟨0⟩ : F64).toRat = 0 := by decide +kernel
  rw [q3, q5, v1] at q4
  norm_num at q4

def exSpin : SpinRow := ⟨⟨⟨c!"F", py"e", none, none⟩, py"3", [exDec (py"0") (py"5"), exDec (py"4") (py"0")]⟩, true⟩

def exSpinLines : List Str :=
  [py"          |  Element    Atom         Initial                          |\n",
   py"          |-----------------------------------------------------------|\n",
   py"          |  Fe         3        0.5       4.0        T         |\n"]

example : ∃ rd : Numeral → F64, (∀ r ∈ [exSpin], Reads rd r.nums) ∧
    process_initial_spins exSpinLines = .ok (.dict ([exSpin].map fun r => (r.key, .dict (r.info rd)))) := by
  refine C76_spins _ _ (.skip (by decide +kernel) (.skip (by decide +kernel) (.row ?_ .nil))) (by decide +kernel) (by decide +kernel)
  exact ⟨py"          ", py"  Fe         3        0.5       4.0        T         |\n", [], by decide +kernel, by decide +kernel, ⟨_, _, rfl, by decide⟩,
    py"  ", py"         3        0.5       4.0        T         |\n", by decide +kernel, by decide +kernel,
      (by intro c hc; cases hc; decide), (fields_iff _ _).2 (by decide +kernel)⟩

def exBorn : BornRow := ⟨⟨⟨c!"S", py"i", none, none⟩, py"1", [exDec (py"0") (py"5"), exDec (py"4") (py"0"), exDec (py"0") (py"0")]⟩, some (py"iso"),
  [exDec (py"0") (py"1"), exDec (py"4") (py"2"), exDec (py"0") (py"3")], [exDec (py"0") (py"5"), exDec (py"4") (py"0"), exDec (py"0") (py"7")]⟩

def exBornLines : List Str :=
  [py"   Born Effective Charges\n",
   py"  Si      1         0.5         4.0        0.0    ID=iso\n",
   py"                    0.1   4.2   0.3\n",
   py"                    0.5   4.0   0.7\n"]

example : ∃ rd : Numeral → F64, (∀ r ∈ [exBorn], Reads rd (r.nums ++ r.row2 ++ r.row3)) ∧
    process_born exBornLines = .ok (.dict ([exBorn].map fun r => (r.key, r.tensor rd))) := by
  refine C76_born_partial _ _ (.skip (by decide +kernel) (.row (ls := []) (a := [_, _, _]) ⟨_, _, _, rfl, ⟨_, _, rfl, by decide⟩, ?_, ?_, ?_⟩ .nil)) (by decide +kernel) (by decide +kernel)
  · exact ⟨py"  ", py"      1         0.5         4.0        0.0    ID=iso\n", by decide +kernel, by decide +kernel,
      (by intro c hc; cases hc; decide), (fields_iff _ _).2 (by decide +kernel)⟩
  · exact (fields_iff _ _).2 (by decide +kernel)
  · exact (fields_iff _ _).2 (by decide +kernel)

def exOrb1 : OrbRow := ⟨⟨⟨c!"S", py"i", none, none⟩, py"1", [exDec (py"1") (py"3")]⟩, py"S"⟩
def exOrb2 : OrbRow := ⟨⟨⟨c!"S", py"i", none, none⟩, py"1", [exDec (py"0") (py"8")]⟩, py"Px"⟩

def exOrbLines : List Str :=
  [py"            Ion    Atomic Orbital        Charge\n",
   py"          Si    1       S               1.3\n",
   py"          Si    1       Px               0.8\n"]

theorem exOrb_lines : Interleaved OrbOther OrbRow.Line exOrbLines [exOrb1, exOrb2] := by
  refine .skip ⟨by decide +kernel, not_occurs _ _ (by decide +kernel)⟩ (.row ?_ (.row ?_ .nil))
  · exact ⟨[], py"          ", py"    1       S               1.3\n", by decide +kernel, by decide +kernel,
      (by intro c hc; cases hc; decide), (fields_iff _ _).2 (by decide +kernel)⟩
  · exact ⟨[], py"          ", py"    1       Px               0.8\n", by decide +kernel, by decide +kernel,
      (by intro c hc; cases hc; decide), (fields_iff _ _).2 (by decide +kernel)⟩

example : ∃ rd fl : Numeral → F64, (∀ r ∈ [exOrb1, exOrb2], Reads rd r.nums) ∧ Reads fl [exDec (py"2") (py"1")] ∧ Reads rd [exDec (py"2") (py"0"), exDec (py"0") (py"1")] ∧
    process_orbital_populations (exOrbLines ++ py"                Total:               2.1\n" :: ([py"  --------\n"] ++
      py" The total projected population is 2.0 0.1\n" :: [])) = .ok (.dict (nested ([exOrb1, exOrb2].map (·.entry rd)) ++
        [(.str (py"total"), .float (fl (exDec (py"2") (py"1")))), (.str (py"total_projected"), .tuple ([exDec (py"2") (py"0"), exDec (py"0") (py"1")].map fun n => .float (rd n)))])) :=
  C77_orbitals exOrbLines [py"  --------\n"] [] _ _ _ _ _ exOrb_lines (by decide +kernel)
    (by intro l hl; simp at hl; subst hl; exact ⟨by decide +kernel, not_occurs _ _ (by decide +kernel)⟩) (by intro l hl; cases hl)
    ⟨[], (fields_iff _ _).2 (by decide +kernel)⟩ (by decide +kernel)
    ⟨hasNumbers_of (holds_of _ (py" The total projected population is ") [(exDec (py"2") (py"0"), py" "), (exDec (py"0") (py"1"), py"\n")] (by decide +kernel) (by decide +kernel)) (by simp),
      ⟨py" The ", py" population is 2.0 0.1\n", by decide +kernel⟩, _, (fields_iff _ (py"The" :: py"total" :: [py"projected", py"population", py"is", py"2.0", py"0.1"])).2 (by decide +kernel)⟩ (by decide +kernel)

def exDisp (t i : Str) : DispRow := ⟨⟨⟨c!"S", py"i", none, none⟩, i, [exDec (py"0") (py"1"), exDec (py"0") (py"2"), exDec (py"0") (py"3"), exDec (py"0") (py"0"),
  exDec (py"0") (py"4"), exDec (py"0") (py"5")]⟩, exDec t (py"0")⟩

def exDispLines : List Str :=
  [py"      T(K)  Ion        U11       U22       U33       U23       U31       U12\n",
   py" -------\n",
   py"       0.0  Si 1     0.1  0.2 0.3 0.0 0.4 0.5\n",
   py"       0.0  Si 2     0.1  0.2 0.3 0.0 0.4 0.5\n",
   py"     100.0  Si 1     0.1  0.2 0.3 0.0 0.4 0.5\n"]

theorem exDisp_lines : Interleaved NoNumberFirst DispRow.Line exDispLines [exDisp (py"0") (py"1"), exDisp (py"0") (py"2"), exDisp (py"100") (py"1")] := by
  refine .skip (.inr ⟨_, _, (fields_iff _ (py"T(K)" :: [py"Ion", py"U11", py"U22", py"U33", py"U23", py"U31", py"U12"])).2 (by decide +kernel), by decide +kernel⟩)
    (.skip (.inr ⟨_, _, (fields_iff _ (py"-------" :: [])).2 (by decide +kernel), by decide +kernel⟩) (.row ?_ (.row ?_ (.row ?_ .nil))))
  · exact ⟨py"       ", py"  Si 1     0.1  0.2 0.3 0.0 0.4 0.5\n", [], by decide +kernel, by decide +kernel, by decide, ⟨_, _, rfl, by decide⟩,
      py"  ", py" 1     0.1  0.2 0.3 0.0 0.4 0.5\n", by decide +kernel, by decide +kernel, (by intro c hc; cases hc; decide), (fields_iff _ _).2 (by decide +kernel)⟩
  · exact ⟨py"       ", py"  Si 2     0.1  0.2 0.3 0.0 0.4 0.5\n", [], by decide +kernel, by decide +kernel, by decide, ⟨_, _, rfl, by decide⟩,
      py"  ", py" 2     0.1  0.2 0.3 0.0 0.4 0.5\n", by decide +kernel, by decide +kernel, (by intro c hc; cases hc; decide), (fields_iff _ _).2 (by decide +kernel)⟩
  · exact ⟨py"     ", py"  Si 1     0.1  0.2 0.3 0.0 0.4 0.5\n", [], by decide +kernel, by decide +kernel, by decide, ⟨_, _, rfl, by decide⟩,
      py"  ", py" 1     0.1  0.2 0.3 0.0 0.4 0.5\n", by decide +kernel, by decide +kernel, (by intro c hc; cases hc; decide), (fields_iff _ _).2 (by decide +kernel)⟩

example : ∃ rd : Numeral → F64, (∀ r ∈ [exDisp (py"0") (py"1"), exDisp (py"0") (py"2"), exDisp (py"100") (py"1")], Reads rd r.nums) ∧
    process_atom_disp exDispLines = .ok (.dict (nested ([exDisp (py"0") (py"1"), exDisp (py"0") (py"2"), exDisp (py"100") (py"1")].map (·.entry rd)))) :=
  C77_displacements _ _ exDisp_lines (by decide +kernel)

/-- Two atoms under the first temperature, one under the second. -/
example (rd : Numeral → F64) : nested ([exDisp (py"0") (py"1"), exDisp (py"0") (py"2"), exDisp (py"100") (py"1")].map (·.entry rd)) =
    [(.str (py"0.0"), .dict [((exDisp (py"0") (py"1")).key, ((exDisp (py"0") (py"1")).entry rd).2.2), ((exDisp (py"0") (py"2")).key, ((exDisp (py"0") (py"2")).entry rd).2.2)]),
     (.str (py"100.0"), .dict [((exDisp (py"0") (py"1")).key, ((exDisp (py"100") (py"1")).entry rd).2.2)])] := rfl

def exTherm (t : Str) : List Numeral := [exDec t (py"0"), exDec (py"0") (py"125987"), exDec (py"0") (py"125987"), exDec (py"8") (py"203"), exDec (py"0") (py"000")]

def exThermA : List Str := [py"      Thermodynamics\n", py"\n"]
def exThermB : List Str :=
  [py"       T(K)        E(eV)           F(eV)         S(J/mol/K)      Cv(J/mol/K)\n",
   py"       0.0        0.125987        0.125987           8.203           0.000\n",
   py"     100.0        0.125987        0.125987           8.203           0.000\n"]

theorem exTherm_lines : Interleaved ThermoOther ThermoRow exThermB [exTherm (py"0"), exTherm (py"100")] := by
  refine .skip ⟨.inr ⟨_, _, (fields_iff _ (py"T(K)" :: [py"E(eV)", py"F(eV)", py"S(J/mol/K)", py"Cv(J/mol/K)"])).2 (by decide +kernel), by decide +kernel⟩, not_occurs _ _ (by decide +kernel)⟩
    (.row ⟨⟨⟨_, _, rfl, by decide⟩, [], (fields_iff _ _).2 (by decide +kernel)⟩, not_occurs _ _ (by decide +kernel)⟩
      (.row ⟨⟨⟨_, _, rfl, by decide⟩, [], (fields_iff _ _).2 (by decide +kernel)⟩, not_occurs _ _ (by decide +kernel)⟩ .nil))

example : ∃ rd fl : Numeral → F64, Reads rd [exTherm (py"0"), exTherm (py"100")].flatten ∧ Reads fl [exDec (py"0") (py"125987")] ∧
    process_thermodynamics (exThermA ++ py"            Zero-point energy =         0.125987  eV\n" :: exThermB) =
      .ok (.dict ((.str (py"zero_point_energy"), .float (fl (exDec (py"0") (py"125987")))) :: columnTable rd thermoLabels [exTherm (py"0"), exTherm (py"100")])) :=
  C78 _ _ _ _ _ (by
      intro l hl
      simp only [exThermA, List.mem_cons, List.not_mem_nil, or_false] at hl
      rcases hl with rfl | rfl
      · exact ⟨.inr ⟨_, _, (fields_iff _ (py"Thermodynamics" :: [])).2 (by decide +kernel), by decide +kernel⟩, not_occurs _ _ (by decide +kernel)⟩
      · exact ⟨.inl (by decide +kernel), not_occurs _ _ (by decide +kernel)⟩)
    ⟨.inr ⟨_, _, (fields_iff _ (py"Zero-point" :: [py"energy", py"=", py"0.125987", py"eV"])).2 (by decide +kernel), by decide +kernel⟩,
      ⟨py"            ", py" =         0.125987  eV\n", by decide +kernel⟩, [],
      hasNumbers_of (holds_of _ (py"            Zero-point energy =         ") [(exDec (py"0") (py"125987"), py"  eV\n")] (by decide +kernel) (by decide +kernel)) (by simp), by simp⟩
    (by decide +kernel) exTherm_lines (by decide +kernel)

example : ∃ rd : Numeral → F64, Reads rd [exTherm (py"0"), exTherm (py"100")].flatten ∧
    process_thermodynamics exThermB = .ok (.dict (columnTable rd thermoLabels [exTherm (py"0"), exTherm (py"100")])) :=
  C78_columns _ _ exTherm_lines (by decide +kernel)

end Verif.Props

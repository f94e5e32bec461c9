import Verif.Lemmas.CastepRows
import Verif.Props.Grids
/-
C42 and C43: the k-points and the bonds of a `.castep` file.
-/
namespace Verif.Props
open Verif Verif.Spec Verif.Castep

/-! ### C42 -/

/-- What a table of k-points gives, whatever the rows: those with a number of one digit, the third coordinate being the
first one once more. -/
theorem C42_exact (lines : List Str) (rows : List KRow) (h : Interleaved NoDigit KRow.Line lines rows)
    (hok : ∀ r ∈ rows, r.Ok) :
    ∃ rd : Numeral → F64, (∀ r ∈ rows, Reads rd [r.x, r.y, r.z, r.w]) ∧
      process_kpoint_blocks false lines =
        .ok (kpointList ((rows.filter fun r => r.idx.length = 1).map fun r => r.entry rd fun _ => rd r.x)) := by
  obtain ⟨rd, _, hrd⟩ := readings
  refine ⟨rd, fun r hr n hn => (hrd n ((hok r hr).2.2 n hn).1 ((hok r hr).2.2 n hn).2).1.2, ?_⟩
  rw [process_kpoint_blocks, collect_rows (fun l => kp_skip) h fun l r hr hl =>
    kp_row hl (hok r hr) fun n hn => (hrd n ((hok r hr).2.2 n hn).1 ((hok r hr).2.2 n hn).2).1.1]
  have : ∀ rs : List KRow, (rs.filterMap fun r => if r.idx.length = 1 then some (r.entry rd fun _ => rd r.x) else none) =
      (rs.filter fun r => r.idx.length = 1).map fun r => r.entry rd fun _ => rd r.x := by
    intro rs
    induction rs with
    | nil => rfl
    | cons r rs ih =>
      by_cases hr : r.idx.length = 1 <;> simp [hr, ih]
  rw [this]
  rfl

/-- C42 for tables of at most nine points, the first and the third coordinate of each being the same. -/
theorem C42_partial (lines : List Str) (rows : List KRow) (h : Interleaved NoDigit KRow.Line lines rows)
    (hok : ∀ r ∈ rows, r.Ok) (h1 : ∀ r ∈ rows, r.idx.length = 1) (h2 : ∀ r ∈ rows, r.z = r.x) :
    ∃ rd : Numeral → F64, (∀ r ∈ rows, Reads rd [r.x, r.y, r.z, r.w]) ∧
      process_kpoint_blocks false lines = .ok (kpointList (rows.map (KRow.entry rd rd))) := by
  obtain ⟨rd, hrd, e⟩ := C42_exact lines rows h hok
  refine ⟨rd, hrd, ?_⟩
  rw [e, List.filter_eq_self.2 (fun r hr => by simpa using h1 r hr)]
  congr 2
  apply List.map_congr_left
  intro r hr
  rw [KRow.entry, KRow.entry, h2 r hr]

/-- C42 is false: points with a number above nine are missing, so that fewer points are returned than printed. -/
theorem C42_dropped_false (lines : List Str) (rows : List KRow) (h : Interleaved NoDigit KRow.Line lines rows)
    (hok : ∀ r ∈ rows, r.Ok) (h1 : ∃ r ∈ rows, r.idx.length ≠ 1) :
    ∃ points : List PyVal, process_kpoint_blocks false lines = .ok (kpointList points) ∧ points.length < rows.length := by
  obtain ⟨rd, -, e⟩ := C42_exact lines rows h hok
  refine ⟨_, e, ?_⟩
  rw [List.length_map]
  obtain ⟨r, hr, hl⟩ := h1
  refine lt_of_le_of_ne (List.length_filter_le _ _) fun he => ?_
  have := List.length_filter_eq_length_iff.1 he r hr
  simp [hl] at this

/-- Two points, the number of the second with two digits. -/
def exKpoints : List KRow :=
  [⟨py"9", exDec (py"0") (py"25"), exDec (py"0") (py"5"), exDec (py"0") (py"25"), exDec (py"0") (py"125")⟩,
   ⟨py"10", exDec (py"0") (py"5"), exDec (py"0") (py"5"), exDec (py"0") (py"75"), exDec (py"0") (py"875")⟩]

def exKpLines : List Str :=
  [py"             +  Number       Fractional coordinates        Weight  +\n",
   py"             +     9   0.25   0.5   0.25   0.125   +\n",
   py"             +    10   0.5   0.5   0.75   0.875   +\n"]

theorem exKp_lines : Interleaved NoDigit KRow.Line exKpLines exKpoints :=
  .skip (by decide +kernel) (.row ((fields_iff _ _).2 (by decide +kernel)) (.row ((fields_iff _ _).2 (by decide +kernel)) .nil))

theorem exKp_ok : ∀ r ∈ exKpoints, r.Ok := by decide +kernel

example : ∃ rd : Numeral → F64, (∀ r ∈ exKpoints, Reads rd [r.x, r.y, r.z, r.w]) ∧
    process_kpoint_blocks false exKpLines =
      .ok (kpointList ((exKpoints.filter fun r => r.idx.length = 1).map fun r => r.entry rd fun _ => rd r.x)) :=
  C42_exact _ _ exKp_lines exKp_ok

example : ∃ rd : Numeral → F64, (∀ r ∈ exKpoints.take 1, Reads rd [r.x, r.y, r.z, r.w]) ∧
    process_kpoint_blocks false (exKpLines.take 2) = .ok (kpointList ((exKpoints.take 1).map (KRow.entry rd rd))) :=
  C42_partial _ _ (.skip (by decide +kernel) (.row ((fields_iff _ _).2 (by decide +kernel)) .nil)) (by decide +kernel)
    (by decide +kernel) (by decide +kernel)

example : ∃ points : List PyVal, process_kpoint_blocks false exKpLines = .ok (kpointList points) ∧ points.length < 2 :=
  C42_dropped_false _ _ exKp_lines exKp_ok (by decide +kernel)

/-- C42 is false: the third coordinate of this point is printed as 0.5 and returned as 0.25. -/
theorem C42_false :
    Interleaved NoDigit KRow.Line [py"  +  1   0.25   0.0   0.5   1.0  +"]
      [⟨py"1", exDec (py"0") (py"25"), exDec (py"0") (py"0"), exDec (py"0") (py"5"), exDec (py"1") (py"0")⟩] ∧
    ∃ q, process_kpoint_blocks false [py"  +  1   0.25   0.0   0.5   1.0  +"] = .ok (kpointList [q]) ∧
      ∀ rd : Numeral → F64, F64.Nearest (1 / 2) (rd (exDec (py"0") (py"5"))) →
        q ≠ KRow.entry rd rd ⟨py"1", exDec (py"0") (py"25"), exDec (py"0") (py"0"), exDec (py"0") (py"5"), exDec (py"1") (py"0")⟩ := by
  have hi : Interleaved NoDigit KRow.Line [py"  +  1   0.25   0.0   0.5   1.0  +"]
      [⟨py"1", exDec (py"0") (py"25"), exDec (py"0") (py"0"), exDec (py"0") (py"5"), exDec (py"1") (py"0")⟩] :=
    .row ((fields_iff _ _).2 (by decide +kernel)) .nil
  refine ⟨hi, ?_⟩
  obtain ⟨rd, hrd, e⟩ := C42_exact _ _ hi (by decide +kernel)
  refine ⟨_, e, fun rd' h he => ?_⟩
  have hx : rd (exDec (py"0") (py"25")) = rd' (exDec (py"0") (py"5")) := by
    simp only [KRow.entry, PyVal.dict.injEq, List.cons.injEq, Prod.mk.injEq, PyVal.tuple.injEq, PyVal.float.injEq] at he
    exact he.1.2.2.2.1
  have h4 : F64.Nearest (1 / 4) (rd (exDec (py"0") (py"25"))) := by
    have := hrd _ (List.mem_singleton.2 rfl) (exDec (py"0") (py"25")) (List.mem_cons_self ..)
    rwa [show (exDec (py"0") (py"25")).value = 1 / 4 by decide +kernel] at this
  rw [hx] at h4
  have e1 := nearest_exact ⟨0x3FD0000000000000⟩ (by decide) (by decide +kernel) h4
  have e2 := nearest_exact ⟨0x3FE0000000000000⟩ (by decide) (by decide +kernel) h
  rw [e1] at e2
  norm_num at e2

/-! ### C43 -/

/-- What a table of bonds gives: every row, a spin unless it is read as zero. -/
theorem C43_exact (lines : List Str) (rows : List BondRow) (h : Interleaved NoDigit BondRow.Line lines rows)
    (hok : ∀ r ∈ rows, r.Ok) (hk : (rows.map BondRow.key).Nodup) :
    ∃ rd : Numeral → F64, (∀ r ∈ rows, Reads rd ([r.population, r.length] ++ r.spin.toList)) ∧
      process_bond_analysis lines =
        .ok (.dict (rows.map fun r => (r.key, r.entry rd fun n => (rd n).toRat ≠ 0))) := by
  obtain ⟨_, rd, hrd⟩ := readings
  have hr' : ∀ r ∈ rows, ∀ n ∈ [r.population, r.length] ++ r.spin.toList, _ := fun r hr n hn =>
    (hrd n ((hok r hr).2.2.2.2.2.2.2.2 n hn).1 ((hok r hr).2.2.2.2.2.2.2.2 n hn).2).2
  refine ⟨rd, fun r hr n hn => (hr' r hr n hn).2, ?_⟩
  have ht : ∀ n, (PyVal.float (rd n)).truthy = decide ((rd n).toRat ≠ 0) := fun n => by
    rw [Bool.eq_iff_iff, decide_eq_true_eq]; exact truthy_iff _
  rw [process_bond_analysis, collectDict, collect_rows (g := fun r : BondRow =>
      some (r.key, r.entry rd fun n => (rd n).toRat ≠ 0)) (fun l => bd_skip) h fun l r hr hl => by
    rw [bd_row hl (hok r hr) fun n hn => (hr' r hr n hn).1]
    simp only [ht]]
  have : ∀ (f : BondRow → Key × PyVal) (rs : List BondRow), (rs.filterMap fun r => some (f r)) = rs.map f := fun f rs => by
    rw [← List.filterMap_eq_map]; rfl
  rw [this]
  show Except.ok (PyVal.dict (Dict.ofList (rows.map _))) = _
  rw [Dict.ofList_nodup _ (by rw [List.map_map]; exact hk)]

/-- C43 for tables without zero spins. -/
theorem C43_partial (lines : List Str) (rows : List BondRow) (h : Interleaved NoDigit BondRow.Line lines rows)
    (hok : ∀ r ∈ rows, r.Ok) (hk : (rows.map BondRow.key).Nodup)
    (hs : ∀ r ∈ rows, ∀ s ∈ r.spin, ∀ x, F64.Nearest s.value x → x.toRat ≠ 0) :
    ∃ rd : Numeral → F64, (∀ r ∈ rows, Reads rd ([r.population, r.length] ++ r.spin.toList)) ∧
      process_bond_analysis lines = .ok (.dict (rows.map fun r => (r.key, r.entry rd fun _ => true))) := by
  obtain ⟨rd, hrd, e⟩ := C43_exact lines rows h hok hk
  refine ⟨rd, hrd, ?_⟩
  rw [e]
  congr 2
  apply List.map_congr_left
  intro r hr
  have : (r.spin.filter fun n => decide ((rd n).toRat ≠ 0)) = r.spin.filter fun _ => true := by
    cases hq : r.spin with
    | none => rfl
    | some q =>
      have := hs r hr q hq _ (hrd r hr q (by simp [hq]))
      simp [Option.filter, this]
  simp only [BondRow.entry, this]

/-- C43 is false for every bond with a spin printed as zero: it is returned as if no spin were printed. -/
theorem C43_zero_false (lines : List Str) (rows : List BondRow) (h : Interleaved NoDigit BondRow.Line lines rows)
    (hok : ∀ r ∈ rows, r.Ok) (hk : (rows.map BondRow.key).Nodup)
    (r : BondRow) (hr : r ∈ rows) (s : Numeral) (hs : r.spin = some s) (h0 : s.value = 0) :
    ∃ (d : Dict Key PyVal) (x y : F64), process_bond_analysis lines = .ok (.dict d) ∧
      d.get? r.key = some (.dict [(.str (py"population"), .float x), (.str (py"length"), .float y)]) := by
  obtain ⟨rd, hrd, e⟩ := C43_exact lines rows h hok hk
  refine ⟨_, rd r.population, rd r.length, e, ?_⟩
  have h1 : (r.spin.filter fun n => decide ((rd n).toRat ≠ 0)) = none := by
    have := nearest_zero (h0 ▸ hrd r hr s (by simp [hs]))
    simp [hs, Option.filter, this]
  have h2 : r.entry rd (fun n => decide ((rd n).toRat ≠ 0)) =
      .dict [(.str (py"population"), .float (rd r.population)), (.str (py"length"), .float (rd r.length))] := by
    simp only [BondRow.entry, h1]; rfl
  rw [← h2]
  refine Dict.get?_some_of_mem _ ?_ _ _ (List.mem_map.2 ⟨r, hr, rfl⟩)
  rw [Dict.keys, List.map_map]; exact hk

/-- Two bonds, one of them with a printed spin of zero. -/
def exBonds : List BondRow :=
  [⟨⟨c!"S", py"i", none, none⟩, py"1", ⟨c!"S", py"i", none, none⟩, py"2", ⟨some true, py"3", some (py"18"), none⟩,
      some (exDec (py"0") (py"25")), exDec (py"2") (py"33434")⟩,
   ⟨⟨c!"H", [], some (py"a"), none⟩, py"1", ⟨c!"S", py"i", none, none⟩, py"2", exDec (py"0") (py"5"),
      some (exDec (py"0") (py"00")), exDec (py"1") (py"5")⟩]

def exBondLines : List Str :=
  [py"                 Bond                   Population      Spin      Length (A)\n",
   py" ==================\n",
   py"            Si 1 -- Si 2                   -3.18        0.25       2.33434\n",
   py"            H:a 1 -- Si 2                   0.5        0.00        1.5\n"]

theorem exBond_lines : Interleaved NoDigit BondRow.Line exBondLines exBonds :=
  .skip (by decide +kernel) (.skip (by decide +kernel)
    (.row ((fields_iff _ _).2 (by decide +kernel)) (.row ((fields_iff _ _).2 (by decide +kernel)) .nil)))

theorem exBond_ok : ∀ r ∈ exBonds, r.Ok := by decide +kernel

example : ∃ rd : Numeral → F64, (∀ r ∈ exBonds, Reads rd ([r.population, r.length] ++ r.spin.toList)) ∧
    process_bond_analysis exBondLines =
      .ok (.dict (exBonds.map fun r => (r.key, r.entry rd fun n => (rd n).toRat ≠ 0))) :=
  C43_exact _ _ exBond_lines exBond_ok (by decide +kernel)

example : ∃ rd : Numeral → F64, (∀ r ∈ exBonds.take 1, Reads rd ([r.population, r.length] ++ r.spin.toList)) ∧
    process_bond_analysis (exBondLines.take 3) = .ok (.dict ((exBonds.take 1).map fun r => (r.key, r.entry rd fun _ => true))) :=
  C43_partial _ _ (.skip (by decide +kernel) (.skip (by decide +kernel) (.row ((fields_iff _ _).2 (by decide +kernel)) .nil)))
    (by decide +kernel) (by decide +kernel) (by
      intro r hr s hs x hx
      have hr : r = _ := List.mem_singleton.1 hr
      subst hr
      cases hs
      rw [show (exDec (py"0") (py"25")).value = 1 / 4 by decide +kernel] at hx
      rw [nearest_exact ⟨0x3FD0000000000000⟩ (by decide) (by decide +kernel) hx]
      norm_num)

example : ∃ (d : Dict Key PyVal) (x y : F64), process_bond_analysis exBondLines = .ok (.dict d) ∧
    d.get? (.tup [.tup [.str (py"H:a"), .int 1], .tup [.str (py"Si"), .int 2]]) =
      some (.dict [(.str (py"population"), .float x), (.str (py"length"), .float y)]) :=
  C43_zero_false _ _ exBond_lines exBond_ok (by decide +kernel) _ (List.mem_cons_of_mem _ (List.mem_singleton.2 rfl))
    (exDec (py"0") (py"00")) rfl (by decide +kernel)

end Verif.Props

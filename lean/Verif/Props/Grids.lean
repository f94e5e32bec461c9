import Verif.Lemmas.Tables
/-
C38: formatted grids.
-/
namespace Verif.Props
open Verif Spec

/-- C38.  For a file whose header ends with a line naming the value columns, each row of grid indices and
values appears in order: the indices under `q` and each value (nearest double) in the column of its name. -/
theorem C38_columns (head : List Str) (title : Str) (props : List Str) (body : List Str) (rows : List GridRow)
    (hh : ∀ l ∈ head, ¬ Occurs (py"END header") l) (ht : GridTitle title props) (hb : GridLines body rows)
    (hok : ∀ r ∈ rows, r.Ok ∧ r.vals.length = props.length) (hp : props.Nodup) (hq : py"q" ∉ props) :
    ∃ rd : Numeral → F64, (∀ r ∈ rows, Reads rd r.vals) ∧
      parse_kpt_info (head ++ title :: body) = .ok (.dict (if rows = [] then [] else gridTable rd props rows)) := by
  obtain ⟨rd, fl, hrd⟩ := readings
  refine ⟨rd, fun r hr n hn => (hrd n ((hok r hr).1.2.2 n hn).1 ((hok r hr).1.2.2 n hn).2).1.2, ?_⟩
  rw [parse_kpt_info, fmt_skip head title body hh ht.1]
  show (do let prop ← Fmt.columns title; let d ← Fmt.rows prop body []; return listDict d) = _
  rw [fmt_columns ht]
  show (do let d ← Fmt.rows props body []; return listDict d) = _
  have := fmt_rows props hp hq rd (fun n h1 h2 => (hrd n h1 h2).1.1) body [] rows hb hok []
  rw [List.append_nil] at this
  rw [this]
  show Except.ok (listDict _) = _
  split
  · rename_i h; subst h; rfl
  · rename_i h; rw [gridTable_eq rd props hp hq rows (fun r hr => (hok r hr).2) h]

/-- C38.  A row of numbers whose number of values is not the number of columns, after rows that
are fine, raises `ValueError`. -/
theorem C38_width_error (head : List Str) (title : Str) (props : List Str) (good bad : List Str) (rows : List GridRow)
    (line : Str) (r : GridRow)
    (hh : ∀ l ∈ head, ¬ Occurs (py"END header") l) (ht : GridTitle title props) (hb : GridLines good rows)
    (hok : ∀ r ∈ rows, r.Ok ∧ r.vals.length = props.length) (hp : props.Nodup) (hq : py"q" ∉ props)
    (hf : Fields line ((r.q ++ r.vals).map Numeral.text)) (hne : r.q ≠ []) (hr3 : r.q.length = 3 ∨ r.vals = [] ∧ r.q.length ≤ 3)
    (hri : ∀ n ∈ r.q, n.Valid ∧ n.IsInt) (hrv : ∀ n ∈ r.vals, n.Valid ∧ n.InRange)
    (hw : r.vals.length ≠ props.length) :
    parse_kpt_info (head ++ title :: (good ++ line :: bad)) = .error .valueError := by
  obtain ⟨rd, fl, hrd⟩ := readings
  rw [parse_kpt_info, fmt_skip head title _ hh ht.1]
  show (do let prop ← Fmt.columns title; let d ← Fmt.rows prop (good ++ line :: bad) []; return listDict d) = _
  rw [fmt_columns ht]
  show (do let d ← Fmt.rows props (good ++ line :: bad) []; return listDict d) = _
  rw [fmt_rows props hp hq rd (fun n h1 h2 => (hrd n h1 h2).1.1) good _ rows hb hok []]
  have hnb : ¬ Blank line := fun hbl => by
    have := fields_split hf
    rw [split_blank hbl] at this
    cases h : r.q with
    | nil => exact hne h
    | cons a q => rw [h] at this; cases this
  rw [fmt_rows_row _ _ _ _ hnb]
  have e1 : (Str.split line).take 3 = r.q.map Numeral.text := by
    rw [fields_split hf, List.map_append]
    rcases hr3 with h3 | ⟨h0, h3⟩
    · rw [List.take_append_of_le_length (by simp [h3]), List.take_of_length_le (by simp [h3])]
    · rw [h0, List.map_nil, List.append_nil, List.take_of_length_le (by simpa using h3)]
  have e2 : (Str.split line).drop 3 = r.vals.map Numeral.text := by
    rw [fields_split hf, List.map_append]
    rcases hr3 with h3 | ⟨h0, h3⟩
    · rw [List.drop_append_of_le_length (by simp [h3]), List.drop_of_length_le (by simp [h3])]; rfl
    · rw [h0, List.map_nil, List.append_nil, List.drop_of_length_le (by simpa using h3)]
  have hrow : Fmt.row props line = .error .valueError := by
    rw [Fmt.row, e1, to_type_strList .int r.q _ _ fun n hn => typeParser_int (hri n hn).1 (hri n hn).2]
    show (do let vals ← to_type .float (strList ((Str.split line).drop 3)); Fmt.zipRow props _ vals) = _
    rw [e2, to_type_strList .float r.vals _ (fun n => .float (rd n)) fun n hn =>
      typeParser_float (hrd n (hrv n hn).1 (hrv n hn).2).1.1]
    show Fmt.zipRow props _ (.tuple _) = _
    rw [Fmt.zipRow, if_neg (by simpa using hw)]
  rw [hrow]
  rfl

/-- C38.  Whatever else the lines contain, a file with at least one value column is read only if every line
after the title is blank or has exactly three indices and one value per column. -/
theorem C38_width_partial (head : List Str) (title : Str) (props : List Str) (body : List Str) (v : PyVal)
    (hh : ∀ l ∈ head, ¬ Occurs (py"END header") l) (ht : GridTitle title props) (hcols : props ≠ [])
    (h : parse_kpt_info (head ++ title :: body) = .ok v) :
    ∀ l ∈ body, Blank l ∨ ∃ ws, Fields l ws ∧ ws.length = 3 + props.length := by
  rw [parse_kpt_info, fmt_skip head title body hh ht.1] at h
  obtain ⟨p, h1, h2⟩ := PyM.bind_ok (x := Fmt.columns title) h
  rw [fmt_columns ht] at h1
  cases h1
  obtain ⟨d, h3, -⟩ := PyM.bind_ok h2
  intro l hl
  rcases fmt_rows_width props hcols body _ _ h3 l hl with h | h
  · exact .inl h
  · exact .inr ⟨_, split_fields l, h⟩

/-- C38, violated: a file whose title names no value column accepts rows that are too short. -/
theorem C38_no_columns :
    ¬ ∀ (head : List Str) (title : Str) (props body : List Str) (v : PyVal),
      (∀ l ∈ head, ¬ Occurs (py"END header") l) → GridTitle title props →
      parse_kpt_info (head ++ title :: body) = .ok v →
      ∀ l ∈ body, Blank l ∨ ∃ ws, Fields l ws ∧ ws.length = 3 + props.length := by
  intro h
  have ht : GridTitle (py r#" END header: data is "<a b c>" in units"#) [] :=
    ⟨⟨py" ", py r#": data is "<a b c>" in units"#, by decide +kernel⟩, py" END header: data is ", py"<a b c>", py" in units",
      py"<a", py"b", py"c>", by decide +kernel, by decide +kernel, by decide +kernel, (fields_iff _ _).2 (by decide +kernel)⟩
  have := h [] _ [] [py"1 2"] _ (by simp) ht (by decide +kernel : _ = Except.ok (PyVal.dict [(.str (py"q"), .list [.tuple [.int 1, .int 2]])]))
    (py"1 2") (by simp)
  rcases this with hb | ⟨ws, h1, h2⟩
  · exact absurd (hb 49 (by decide)) (by decide)
  · have : ws = [py"1", py"2"] := by
      rw [← fields_split h1]; decide +kernel
    subst this; simp at h2

/-! #### Examples -/

/-- A whole number as printed. -/
def exInt (s : Str) : Numeral := ⟨none, s, none, none⟩
/-- A decimal as printed. -/
def exDec (i f : Str) : Numeral := ⟨none, i, some f, none⟩

/-- Two rows with a blank line between them. -/
def exGrid : List GridRow :=
  [⟨[exInt (py"1"), exInt (py"1"), exInt (py"1")], [exDec (py"53") (py"442144"), exDec (py"0") (py"25")]⟩,
   ⟨[exInt (py"2"), exInt (py"1"), exInt (py"1")], [exDec (py"36") (py"462866"), exDec (py"0") (py"5")]⟩]

def exGridBody : List Str := [py"\n", py"     1     1     1     53.442144   0.25\n", py" \n", py"     2     1     1     36.462866   0.5\n"]
def exGridTitle : Str := py r#" END header: data is "<a b c> charge spin" in units of electrons"#

theorem exGrid_title : GridTitle exGridTitle [py"charge", py"spin"] :=
  ⟨⟨py" ", py r#": data is "<a b c> charge spin" in units of electrons"#, by decide +kernel⟩,
    py" END header: data is ", py"<a b c> charge spin", py" in units of electrons",
    py"<a", py"b", py"c>", by decide +kernel, by decide +kernel, by decide +kernel, (fields_iff _ _).2 (by decide +kernel)⟩

theorem exGrid_lines : GridLines exGridBody exGrid :=
  .blank (by unfold Blank; decide +kernel) (.row ((fields_iff _ _).2 (by decide +kernel))
    (.blank (by unfold Blank; decide +kernel) (.row ((fields_iff _ _).2 (by decide +kernel)) .nil)))

theorem exGrid_ok : ∀ r ∈ exGrid, r.Ok ∧ r.vals.length = 2 := by
  unfold GridRow.Ok; decide +kernel

example : ∃ rd : Numeral → F64, (∀ r ∈ exGrid, Reads rd r.vals) ∧
    parse_kpt_info ([py" BEGIN header\n"] ++ exGridTitle :: exGridBody) =
      .ok (.dict (if exGrid = [] then [] else gridTable rd [py"charge", py"spin"] exGrid)) :=
  C38_columns _ _ _ _ _ (by
    intro l hl; simp at hl; subst hl
    rw [← Str.contains_iff]; decide +kernel) exGrid_title exGrid_lines exGrid_ok (by decide +kernel) (by decide +kernel)

example : parse_kpt_info ([] ++ exGridTitle :: (exGridBody ++ (py"  3 1 1  0.5\n") :: [py"junk"])) = .error .valueError :=
  C38_width_error [] _ _ _ _ exGrid _ ⟨[exInt (py"3"), exInt (py"1"), exInt (py"1")], [exDec (py"0") (py"5")]⟩
    (by simp) exGrid_title exGrid_lines exGrid_ok (by decide +kernel) (by decide +kernel)
    ((fields_iff _ _).2 (by decide +kernel)) (by decide) (by decide) (by decide +kernel) (by decide +kernel) (by decide)

example : ∀ l ∈ exGridBody, Blank l ∨ ∃ ws, Fields l ws ∧ ws.length = 3 + 2 :=
  C38_width_partial [] exGridTitle [py"charge", py"spin"] exGridBody (match parse_kpt_info ([] ++ exGridTitle :: exGridBody) with
    | .ok v => v | .error _ => .none) (by simp) exGrid_title (by decide) (by decide +kernel)

end Verif.Props

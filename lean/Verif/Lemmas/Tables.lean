import Verif.Lemmas.Fields
import Verif.Lemmas.AtomRe
import Verif.Lemmas.Data
import Verif.Lemmas.Dict
import Verif.Model.Tables
/-
Lemmas for the parsers of tabular files.
-/
namespace Verif
open Re Spec NumRe

theorem PyM.bind_ok {α β : Type} {x : PyM α} {f : α → PyM β} {b : β} (h : x >>= f = .ok b) :
    ∃ a, x = .ok a ∧ f a = .ok b := by
  cases x with
  | error e => cases h
  | ok a => exact ⟨a, rfl, h⟩

/-! ### Dictionaries -/

theorem Dict.eq_of_keys {κ α : Type} [DecidableEq κ] (d : Dict κ α) (ks : List κ) (hk : d.keys = ks) (hn : ks.Nodup)
    (f : κ → α) (hg : ∀ k ∈ ks, d.get? k = some (f k)) : d = ks.map fun k => (k, f k) := by
  subst hk
  induction d with
  | nil => rfl
  | cons kv d ih =>
    obtain ⟨k, v⟩ := kv
    simp only [Dict.keys, List.map_cons, List.nodup_cons] at hn hg ⊢
    have h0 := hg k (by simp)
    have hv : v = f k := by simpa [Dict.get?] using h0
    congr 1
    · rw [hv]
    · apply ih hn.2
      intro k' hk'
      have := hg k' (by simp [Dict.keys] at hk' ⊢; exact .inr hk')
      have hne : ¬ k = k' := by rintro rfl; exact hn.1 hk'
      simpa [Dict.get?, hne] using this

theorem stack_keys {κ α : Type} [DecidableEq κ] (row : Dict κ α) : ∀ (out : Dict κ (List α)), row.keys.Nodup →
    (out.keys = [] → (stack_dict out row).keys = row.keys) ∧
    ((∀ k ∈ row.keys, k ∈ out.keys) → (stack_dict out row).keys = out.keys) := by
  have key : ∀ (row : Dict κ α) (out : Dict κ (List α)), (∀ k ∈ row.keys, k ∈ out.keys) →
      (stack_dict out row).keys = out.keys := by
    intro row
    induction row with
    | nil => intros; rfl
    | cons kv row ih =>
      intro out h
      obtain ⟨k, v⟩ := kv
      have hk := Dict.keys_set_of_mem out k ((out.get? k).getD [] ++ [v]) (h k (by simp [Dict.keys]))
      rw [stack_dict, ih _ ?_, hk]
      intro k' hk'
      rw [hk]; exact h k' (by simp [Dict.keys] at hk' ⊢; exact .inr hk')
  have key2 : ∀ (row : Dict κ α) (out : Dict κ (List α)), row.keys.Nodup → (∀ k ∈ row.keys, k ∉ out.keys) →
      (stack_dict out row).keys = out.keys ++ row.keys := by
    intro row
    induction row with
    | nil => intro out _ _; simp [stack_dict, Dict.keys]
    | cons kv row ih =>
      intro out hn h
      obtain ⟨k, v⟩ := kv
      simp only [Dict.keys, List.map_cons, List.nodup_cons] at hn
      have hk := Dict.keys_set_of_not_mem out k ((out.get? k).getD [] ++ [v]) (h k (by simp [Dict.keys]))
      rw [stack_dict, ih _ hn.2 ?_, hk]
      · simp [Dict.keys]
      · intro k' hk' hm
        rw [hk, List.mem_append, List.mem_singleton] at hm
        rcases hm with hm | rfl
        · exact h k' (by simp [Dict.keys] at hk' ⊢; exact .inr hk') hm
        · exact hn.1 hk'
  intro out hn
  refine ⟨fun h => ?_, key row out⟩
  rw [key2 row out hn (by rw [h]; simp), h, List.nil_append]

/-- Stacking rows with the same keys gives one column per key. -/
theorem stack_table {κ α : Type} [DecidableEq κ] (ks : List κ) (hn : ks.Nodup) (rows : List (Dict κ α)) (hne : rows ≠ [])
    (h : ∀ r ∈ rows, r.keys = ks) :
    rows.foldl stack_dict [] = ks.map fun k => (k, rows.filterMap (·.get? k)) := by
  have hnd : ∀ r ∈ rows, r.keys.Nodup := fun r hr => by rw [h r hr]; exact hn
  have hkeys : (rows.foldl stack_dict []).keys = ks := by
    cases rows with
    | nil => exact absurd rfl hne
    | cons r rows =>
      have h1 : (stack_dict [] r).keys = ks := by
        rw [(stack_keys r [] (hnd r (by simp))).1 rfl, h r (by simp)]
      rw [List.foldl_cons]
      have : ∀ (rows : List (Dict κ α)) (out : Dict κ (List α)), (∀ r ∈ rows, r.keys = ks) → out.keys = ks →
          (rows.foldl stack_dict out).keys = ks := by
        intro rows
        induction rows with
        | nil => intro out _ ho; exact ho
        | cons r rows ih =>
          intro out hr ho
          rw [List.foldl_cons]
          apply ih _ fun x hx => hr x (by simp [hx])
          rw [(stack_keys r out (by rw [hr r (by simp)]; exact hn)).2 ?_, ho]
          rw [hr r (by simp), ho]; exact fun k hk => hk
      exact this rows _ (fun x hx => h x (by simp [hx])) h1
  apply Dict.eq_of_keys _ ks hkeys hn
  intro k hk
  have h1 := stack_rows rows [] hnd k
  rw [show (Dict.get? ([] : Dict κ (List α)) k).getD [] = [] from rfl, List.nil_append] at h1
  cases hg : (rows.foldl stack_dict []).get? k with
  | none =>
    have := (Dict.get?_eq_none _ k).1 hg
    rw [hkeys] at this
    exact absurd hk this
  | some l => rw [hg] at h1; simp at h1; rw [h1]

/-! ### Quoted text -/

/-- The quote character. -/
def quoteC : CSet := ⟨false, [.ch 34], false⟩
/-- Any other character. -/
def notQuote : CSet := ⟨true, [.ch 34], false⟩

theorem COLS_eq : Fmt.COLS_RE =
    ⟨.seq (.set quoteC) (.seq (.group 1 (.rep true 1 none (.set notQuote))) (.set quoteC)), [], 1⟩ := by decide +kernel

theorem quoted_search (p : Pat)
    (hp : p = ⟨.seq (.set quoteC) (.seq (.group 1 (.rep true 1 none (.set notQuote))) (.set quoteC)), [], 1⟩)
    (a names b : Str) (ha : (c!"\"") ∉ a) (hn : (c!"\"") ∉ names) (hne : names ≠ []) :
    ∃ m, p.search (a ++ c!"\"" :: (names ++ c!"\"" :: b)) = some m ∧ m.group 1 = some names := by
  have hq : ∀ c, quoteC.has c = (c == 34) := fun c => by simp [CSet.has, CItem.has, quoteC]
  have hnq : ∀ c, notQuote.has c = !(c == 34) := fun c => by simp [CSet.has, CItem.has, notQuote]
  have h1 : p.search (a ++ c!"\"" :: (names ++ c!"\"" :: b)) =
      p.searchFrom (a.reverse ++ []) (c!"\"" :: (names ++ c!"\"" :: b)) := by
    rw [Pat.search]
    apply Pat.searchFrom_skip
    intro u v e hv
    cases v with
    | nil => exact absurd rfl hv
    | cons c v =>
      have hc : c ≠ 34 := fun h => ha (by rw [e, ← h]; simp)
      rw [Pat.matchAt_eq, hp, run_seq, List.cons_append, run_set_cons, hq, if_neg (by simpa using hc)]
      rfl
  rw [h1]
  have e : c!"\"" :: (names ++ c!"\"" :: b) = (c!"\"" :: (names ++ [c!"\""])) ++ b := by simp
  refine ⟨⟨(a.reverse ++ []).reverse, c!"\"" :: (names ++ [c!"\""]), b, [(1, names)], p.names, p.ngroups⟩, ?_, ?_⟩
  · rw [e]
    apply Pat.searchFrom_of_matchAt
    apply Pat.matchAt_of
    rw [hp, run_seq, List.cons_append, run_set_cons, hq, if_pos (by rfl), run_seq, run_group, List.append_assoc]
    apply run_plus_all notQuote 1 names _ _ _ _ _ _ (by cases names with | nil => exact absurd rfl hne | cons c s => simp)
      (fun c hc => by
        rw [hnq]
        have : c ≠ 34 := fun e => hn (e ▸ hc)
        simpa using this)
      (by intro c hc; simp at hc; subst hc; rfl) (by simp)
    rw [List.singleton_append, run_set_cons, hq, if_pos (by rfl), upTo_append]
    simp
  · show (List.find? _ _).map _ = _
    simp

theorem fields_ne_nil {names : Str} {w : Str} {ws : List Str} (h : Fields names (w :: ws)) : names ≠ [] := by
  rintro rfl
  have := fields_split h
  cases this

theorem fields_length {s : Str} {ws : List Str} (h : Fields s ws) : 2 * ws.length ≤ s.length + 1 := by
  suffices h2 : 2 * ws.length ≤ s.length + 1 ∧ ((∃ c, s.head? = some c ∧ isSpace c = true) → 2 * ws.length ≤ s.length) from h2.1
  induction h with
  | nil _ => simp
  | @cons g w s ws hg hw hp hs _ ih =>
    have hwl : 1 ≤ w.length := by cases w with | nil => exact absurd rfl hw | cons c w => simp
    have hsl : 2 * ws.length ≤ s.length := by
      cases hsd : s.head? with
      | none =>
        cases s with
        | nil =>
          cases ws with
          | nil => simp
          | cons w' ws' => have := ih.1; simp at this; omega
        | cons c s => simp at hsd
      | some c => exact ih.2 ⟨c, hsd, by simpa using hs c hsd⟩
    refine ⟨by simp; omega, ?_⟩
    rintro ⟨c, hc, hsp⟩
    cases g with
    | nil =>
      cases w with
      | nil => exact absurd rfl hw
      | cons d w =>
        simp at hc; subst hc
        have := hp d (by simp)
        simp [hsp] at this
    | cons d g => simp; omega

/-! ### Grids -/

theorem fmt_skip (head : List Str) (title : Str) (body : List Str) (hh : ∀ l ∈ head, ¬ Occurs (py"END header") l)
    (ht : Occurs (py"END header") title) : Fmt.skipHeader (head ++ title :: body) = .ok (title, body) := by
  induction head with
  | nil => rw [List.nil_append, Fmt.skipHeader, if_pos ((Str.contains_iff _ _).2 ht)]
  | cons l head ih =>
    rw [List.cons_append, Fmt.skipHeader, if_neg (fun h => hh l (by simp) ((Str.contains_iff _ _).1 h))]
    exact ih fun x hx => hh x (by simp [hx])

theorem fmt_columns {title : Str} {props : List Str} (h : GridTitle title props) : Fmt.columns title = .ok props := by
  obtain ⟨-, a, names, b, x, y, z, rfl, ha, hn, hf⟩ := h
  obtain ⟨m, h1, h2⟩ := quoted_search Fmt.COLS_RE COLS_eq a names b ha hn (fields_ne_nil hf)
  rw [Fmt.columns, h1]
  simp only [h2, Option.getD_some]
  rw [if_pos, fields_split hf]
  · rfl
  · have := fields_length hf
    simp at this; omega

/-- The dictionary of a good row. -/
def gridDict (rd : Numeral → F64) (props : List Str) (r : GridRow) : Dict Key PyVal :=
  (.str (py"q"), .tuple (r.q.map fun n => .int (intOf n))) ::
    (props.map Key.str).zip (r.vals.map fun n => .float (rd n))

theorem fmt_vals (r : GridRow) (hr : r.Ok) (rd : Numeral → F64)
    (hrd : ∀ n : Numeral, n.Valid → n.InRange → parse_float_or_rational n.text = .ok (rd n)) (l : Str)
    (hf : Fields l ((r.q ++ r.vals).map Numeral.text)) :
    to_type .int (strList ((Str.split l).take 3)) = .ok (.tuple (r.q.map fun n => .int (intOf n))) ∧
    to_type .float (strList ((Str.split l).drop 3)) = .ok (.tuple (r.vals.map fun n => .float (rd n))) := by
  obtain ⟨h3, hq, hv⟩ := hr
  have e1 : (Str.split l).take 3 = r.q.map Numeral.text := by
    rw [fields_split hf, List.map_append, List.take_append_of_le_length (by simp [h3]), List.take_of_length_le (by simp [h3])]
  have e2 : (Str.split l).drop 3 = r.vals.map Numeral.text := by
    rw [fields_split hf, List.map_append, List.drop_append_of_le_length (by simp [h3]), List.drop_of_length_le (by simp [h3])]
    rfl
  rw [e1, e2]
  exact ⟨to_type_strList .int _ _ _ fun n hn => typeParser_int (hq n hn).1 (hq n hn).2,
    to_type_strList .float _ _ _ fun n hn => typeParser_float (hrd n (hv n hn).1 (hv n hn).2)⟩

theorem fmt_row (props : List Str) (hp : props.Nodup) (hq : py"q" ∉ props) (r : GridRow) (hr : r.Ok)
    (hw : r.vals.length = props.length) (rd : Numeral → F64)
    (hrd : ∀ n : Numeral, n.Valid → n.InRange → parse_float_or_rational n.text = .ok (rd n)) (l : Str)
    (hf : Fields l ((r.q ++ r.vals).map Numeral.text)) :
    Fmt.row props l = .ok (gridDict rd props r) := by
  obtain ⟨h1, h2⟩ := fmt_vals r hr rd hrd l hf
  rw [Fmt.row, h1]
  show (do let vals ← to_type .float (strList ((Str.split l).drop 3)); Fmt.zipRow props _ vals) = _
  rw [h2]
  show Fmt.zipRow props _ (.tuple _) = _
  rw [Fmt.zipRow, if_pos (by simpa using hw)]
  have hkeys : (((props.map Key.str).zip (r.vals.map fun n => PyVal.float (rd n))).map Prod.fst) = props.map Key.str := by
    rw [List.map_fst_zip]; simp [hw]
  rw [Dict.foldl_set_fresh (key := Prod.fst) (val := Prod.snd)]
  · simp [gridDict]
  · rw [hkeys]
    simp only [Dict.keys, List.map_cons, List.map_nil, List.singleton_append, List.nodup_cons]
    refine ⟨by simpa using hq, hp.map (fun a b h => by simpa using h)⟩

theorem fmt_row_width (props : List Str) (l : Str) (d : Dict Key PyVal) (h : Fmt.row props l = .ok d) (hp : props ≠ []) :
    (Str.split l).length = 3 + props.length := by
  rw [Fmt.row] at h
  obtain ⟨q, h1, h2⟩ := PyM.bind_ok h
  obtain ⟨v, h3, h4⟩ := PyM.bind_ok h2
  obtain ⟨vs, rfl, hl⟩ := to_type_strList_length _ _ _ h3
  rw [Fmt.zipRow] at h4
  split at h4
  · rename_i he
    have : 1 ≤ props.length := by cases props with | nil => exact absurd rfl hp | cons a p => simp
    simp at hl; omega
  · cases h4

theorem fmt_rows_blank (props : List Str) (l : Str) (ls : List Str) (d) (h : Blank l) :
    Fmt.rows props (l :: ls) d = Fmt.rows props ls d := by
  rw [Fmt.rows, if_pos ((strip_isEmpty l).2 h)]

theorem fmt_rows_row (props : List Str) (l : Str) (ls : List Str) (d) (h : ¬ Blank l) :
    Fmt.rows props (l :: ls) d = (do let r ← Fmt.row props l; Fmt.rows props ls (stack_dict d r)) := by
  rw [Fmt.rows, if_neg (fun e => h ((strip_isEmpty l).1 e))]

theorem split_blank {l : Str} (h : Blank l) : Str.split l = [] :=
  fields_split (Words.nil (fun c hc => by simp [h c hc]))

theorem fmt_rows (props : List Str) (hp : props.Nodup) (hq : py"q" ∉ props) (rd : Numeral → F64)
    (hrd : ∀ n : Numeral, n.Valid → n.InRange → parse_float_or_rational n.text = .ok (rd n))
    (ls tail : List Str) (rs : List GridRow) (h : GridLines ls rs)
    (hok : ∀ r ∈ rs, r.Ok ∧ r.vals.length = props.length) (d : Dict Key (List PyVal)) :
    Fmt.rows props (ls ++ tail) d = Fmt.rows props tail ((rs.map (gridDict rd props)).foldl stack_dict d) := by
  induction h generalizing d with
  | nil => rfl
  | blank hb _ ih => rw [List.cons_append, fmt_rows_blank _ _ _ _ hb, ih hok]
  | @row l ls r rs hf _ ih =>
    obtain ⟨h1, h2⟩ := hok r (by simp)
    have hnb : ¬ Blank l := fun hb => by
      have := fields_split hf
      rw [split_blank hb] at this
      have h3 := h1.1
      cases hq' : r.q with
      | nil => rw [hq'] at h3; cases h3
      | cons a q => rw [hq'] at this; cases this
    rw [List.cons_append, fmt_rows_row _ _ _ _ hnb, fmt_row props hp hq r h1 h2 rd hrd l hf]
    exact ih (fun x hx => hok x (by simp [hx])) _

theorem fmt_rows_width (props : List Str) (hp : props ≠ []) : ∀ (ls : List Str) (d d'), Fmt.rows props ls d = .ok d' →
    ∀ l ∈ ls, Blank l ∨ (Str.split l).length = 3 + props.length := by
  intro ls
  induction ls with
  | nil => intro d d' _ l hl; cases hl
  | cons a ls ih =>
    intro d d' h l hl
    by_cases hb : Blank a
    · rw [fmt_rows_blank _ _ _ _ hb] at h
      rcases List.mem_cons.1 hl with rfl | hl
      · exact .inl hb
      · exact ih _ _ h l hl
    · rw [fmt_rows_row _ _ _ _ hb] at h
      obtain ⟨r, h1, h2⟩ := PyM.bind_ok h
      rcases List.mem_cons.1 hl with rfl | hl
      · exact .inr (fmt_row_width _ _ _ h1 hp)
      · exact ih _ _ h2 l hl

theorem gridDict_get (rd : Numeral → F64) (props : List Str) (hp : props.Nodup) (hq : py"q" ∉ props) (r : GridRow)
    (hw : r.vals.length = props.length) (i : Nat) (hi : i < props.length) :
    (gridDict rd props r).get? (.str props[i]) = (r.vals[i]?).map fun n => PyVal.float (rd n) := by
  have hn : ((gridDict rd props r).keys).Nodup := by
    simp only [gridDict, Dict.keys, List.map_cons]
    rw [List.map_fst_zip (by simp [hw]), List.nodup_cons]
    exact ⟨by simpa using hq, hp.map (fun a b h => by simpa using h)⟩
  rw [List.getElem?_eq_getElem (by omega)]
  apply Dict.get?_some_of_mem _ hn
  rw [gridDict]
  refine List.mem_cons_of_mem _ ?_
  rw [List.mem_iff_getElem]
  exact ⟨i, by simp; omega, by simp⟩

theorem gridTable_eq (rd : Numeral → F64) (props : List Str) (hp : props.Nodup) (hq : py"q" ∉ props) (rs : List GridRow)
    (hok : ∀ r ∈ rs, r.vals.length = props.length) (hne : rs ≠ []) :
    listDict ((rs.map (gridDict rd props)).foldl stack_dict []) = .dict (gridTable rd props rs) := by
  have hn : (Key.str (py"q") :: props.map Key.str).Nodup := by
    rw [List.nodup_cons]
    exact ⟨by simpa using hq, hp.map (fun a b h => by simpa using h)⟩
  rw [stack_table (.str (py"q") :: props.map Key.str) hn _ (by simpa using hne)]
  · rw [listDict, gridTable]
    congr 1
    simp only [List.map_cons, List.map_map]
    congr 1
    · congr 2
      rw [List.filterMap_map]
      apply List.filterMap_eq_map_iff_forall_eq_some.2
      intro r _
      simp [gridDict, Dict.get?]
    · apply List.ext_getElem
      · simp
      · intro i h1 h2
        simp only [List.getElem_map, Function.comp_def, List.getElem_zipIdx, Nat.zero_add]
        congr 2
        rw [List.filterMap_map]
        apply List.filterMap_congr
        intro r hr
        exact gridDict_get rd props hp hq r (hok r hr) i (by simpa using h1)
  · intro r hr
    obtain ⟨x, hx, rfl⟩ := List.mem_map.1 hr
    simp only [gridDict, Dict.keys, List.map_cons]
    rw [List.map_fst_zip (by simp [hok x hx])]

end Verif

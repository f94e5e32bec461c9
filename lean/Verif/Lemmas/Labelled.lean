import Verif.Lemmas.CastepRows
import Verif.Lemmas.Header
import Verif.Spec.Labelled
/- Tables with named columns. -/
namespace Verif
open Re NumRe AtomRe Spec

/-! ### The pattern -/

theorem run_congr_foldl (rs : List Re) : ∀ (a b : Re), (∀ st (k : St → Option St), run a st k = run b st k) →
    ∀ st (k : St → Option St), run (rs.foldl (fun acc x => .seq x acc) a) st k = run (rs.foldl (fun acc x => .seq x acc) b) st k := by
  induction rs with
  | nil => intro a b h; exact h
  | cons r rs ih =>
    intro a b h
    refine ih _ _ fun st k => ?_
    rw [run_seq, run_seq]
    congr 1
    funext t
    exact h t k

theorem seqOf_eq (l : List Re) (st : St) (k : St → Option St) :
    run (ReParse.seqOf l.reverse) st k = run (l.foldr .seq .eps) st k := by
  rw [← List.reverse_reverse l, List.foldr_reverse, List.reverse_reverse]
  cases l.reverse with
  | nil => rfl
  | cons r rs =>
    rw [ReParse.seqOf, List.foldl_cons]
    exact run_congr_foldl rs _ _ (fun st k => by rw [run_seq]; simp) st k

/-- The labelled numbers of a pattern, from group `i` on. -/
def lfs (i : Nat) : Nat → Re → Re
  | 0, r => r
  | k + 1, r => .seq (LF i) (lfs (i + 1) k r)

/-- The groups of the numbers of a row. -/
def capsOf (i : Nat) (ns : List Numeral) (caps : List (Nat × Str)) : List (Nat × Str) :=
  ((ns.zipIdx i).map fun p => (p.2, p.1.text)).reverse ++ caps

theorem gets_lfs {r : Re} {C} : ∀ (ns : List Numeral) (i : Nat) {more : List Str} {s pre : Str} {caps : List (Nat × Str)},
    After s (ns.map Numeral.text ++ more) → (∀ n ∈ ns, n.Valid) →
    (∀ pre' s', After s' more → Gets r pre' s' (capsOf i ns caps) C) → Gets (lfs i ns.length r) pre s caps C
  | [], i, more, s, pre, caps, hs, _, h => h pre s hs
  | n :: ns, i, more, s, pre, caps, hs, hv, h => by
    refine Gets.num hs (hv n (by simp)) fun p' s' hs' => ?_
    refine gets_lfs ns (i + 1) hs' (fun x hx => hv x (by simp [hx])) fun p2 s2 h2 => ?_
    have := h p2 s2 h2
    simpa [capsOf, List.zipIdx_cons] using this

theorem find_caps : ∀ (ns : List Numeral) (i j : Nat) (caps : List (Nat × Str)) (n : Numeral), ns[j]? = some n →
    (capsOf i ns caps).find? (·.1 = i + j) = some (i + j, n.text) := by
  intro ns
  induction ns with
  | nil => intro i j caps n h; simp at h
  | cons a ns ih =>
    intro i j caps n h
    have e : capsOf i (a :: ns) caps = capsOf (i + 1) ns ((i, a.text) :: caps) := by
      simp [capsOf, List.zipIdx_cons]
    rw [e]
    cases j with
    | zero =>
      have : a = n := by simpa using h
      subst this
      rw [capsOf, List.find?_append, List.find?_eq_none.2]
      · simp
      · intro x hx
        simp only [List.mem_reverse, List.mem_map] at hx
        obtain ⟨p, hp, rfl⟩ := hx
        have := (List.mem_zipIdx hp).1
        simp; omega
    | succ j =>
      have := ih (i + 1) j ((i, a.text) :: caps) n (by simpa using h)
      rw [show i + 1 + j = i + (j + 1) by omega] at this
      exact this

/-! ### Groups -/

theorem groupVals_labels {m : Match} {labels : List Str} {ns : List Numeral} {caps : List (Nat × Str)} (i : Nat)
    (hc : m.caps = capsOf i ns caps) (hn : m.names = labels.zipIdx i) (hl : ns.length = labels.length) :
    groupVals m = (labels.zip ns).map fun p => (Key.str p.1, PyVal.str p.2.text) := by
  unfold groupVals
  rw [Match.groupdict, hn]
  apply List.ext_getElem
  · simp [hl]
  · intro j h1 h2
    simp only [List.getElem_map, List.getElem_zipIdx, List.getElem_zip]
    have hj : j < ns.length := by simpa [hl] using h1
    have := find_caps ns i j caps ns[j] (List.getElem?_eq_getElem hj)
    have e : m.group (i + j) = some (ns[j]).text := by
      show (m.caps.find? _).map _ = _
      rw [hc, this]; rfl
    rw [e]; rfl

/-! ### Stacking rows -/

/-- The columns of rows of text. -/
def colsOf (labels : List Str) (rows : List (List Numeral)) : Dict Key PyVal :=
  if rows = [] then []
  else labels.zipIdx.map fun p => (.str p.1, .list (rows.filterMap fun r => (r[p.2]?).map fun n => .str n.text))

theorem appendTo_fresh {d : Dict Key PyVal} {k : Key} {v : PyVal} (h : k ∉ d.keys) :
    MdGeom.appendTo d k v = .ok (d ++ [(k, .list [v])]) := by
  rw [MdGeom.appendTo, (Dict.get?_eq_none d k).2 h]
  show Except.ok (d.set k (.list [v])) = _
  rw [Dict.set_eq_append _ _ _ h]

theorem set_mid (a b : Dict Key PyVal) (k : Key) (v w : PyVal) (h : k ∉ a.keys) :
    Dict.set (a ++ (k, v) :: b) k w = a ++ (k, w) :: b := by
  induction a with
  | nil => simp [Dict.set]
  | cons x a ih =>
    simp only [Dict.keys, List.map_cons, List.mem_cons, not_or] at h
    rw [List.cons_append, Dict.set, if_neg (by intro e; exact h.1 e.symm)]
    rw [ih h.2]; rfl

theorem get?_mid (a b : Dict Key PyVal) (k : Key) (v : PyVal) (h : k ∉ a.keys) :
    Dict.get? (a ++ (k, v) :: b) k = some v := by
  induction a with
  | nil => simp [Dict.get?]
  | cons x a ih =>
    simp only [Dict.keys, List.map_cons, List.mem_cons, not_or] at h
    rw [List.cons_append, Dict.get?, if_neg (by intro e; exact h.1 e.symm)]
    exact ih h.2

theorem appendTo_mid {a b : Dict Key PyVal} {k : Key} {l : List PyVal} {v : PyVal} (h : k ∉ a.keys) :
    MdGeom.appendTo (a ++ (k, .list l) :: b) k v = .ok (a ++ (k, .list (l ++ [v])) :: b) := by
  rw [MdGeom.appendTo, get?_mid a b k _ h]
  show Except.ok _ = _
  rw [set_mid a b k _ _ h]

theorem stack_fresh : ∀ (l : List (Key × PyVal)) (d : Dict Key PyVal), (d.keys ++ l.map Prod.fst).Nodup →
    stackInto d l = .ok (d ++ l.map fun p => (p.1, .list [p.2]))
  | [], d, _ => by simp [stackInto]
  | (k, v) :: l, d, h => by
    have hk : k ∉ d.keys := by
      intro hm
      rw [List.nodup_append] at h
      exact h.2.2 k hm k (by simp) rfl
    rw [stackInto, appendTo_fresh hk]
    show stackInto (d ++ [(k, .list [v])]) l = _
    have := stack_fresh l (d ++ [(k, PyVal.list [v])]) (by simpa [Dict.keys] using h)
    rw [this]; simp

theorem stack_more : ∀ (l : List (Key × List PyVal × PyVal)) (a : Dict Key PyVal), (a.keys ++ l.map Prod.fst).Nodup →
    stackInto (a ++ l.map fun p => (p.1, .list p.2.1)) (l.map fun p => (p.1, p.2.2)) =
      .ok (a ++ l.map fun p => (p.1, .list (p.2.1 ++ [p.2.2])))
  | [], a, _ => by simp [stackInto]
  | (k, x, v) :: l, a, h => by
    have hk : k ∉ a.keys := by
      intro hm
      rw [List.nodup_append] at h
      exact h.2.2 k hm k (by simp) rfl
    simp only [List.map_cons]
    rw [stackInto, appendTo_mid hk]
    show stackInto (a ++ _ :: _) _ = _
    have := stack_more l (a ++ [(k, .list (x ++ [v]))]) (by simpa [Dict.keys] using h)
    simpa using this

theorem zipIdx_fst {β : Type} (labels : List Str) (f : Str → β) : labels.zipIdx.map (fun p => f p.1) = labels.map f := by
  apply List.ext_getElem
  · simp
  · intro j h1 h2; simp

/-- The text in a column of a row. -/
def cellOf (ns : List Numeral) (j : Nat) : PyVal := ((ns[j]?).map fun n => PyVal.str n.text).getD .none

theorem row_cells {labels : List Str} {ns : List Numeral} (hl : ns.length = labels.length) :
    ((labels.zip ns).map fun p => (Key.str p.1, PyVal.str p.2.text)) = labels.zipIdx.map fun p => (Key.str p.1, cellOf ns p.2) := by
  apply List.ext_getElem
  · simp [hl]
  · intro j h1 h2
    have hj : j < ns.length := by simpa [hl] using h2
    simp [cellOf, List.getElem?_eq_getElem hj]

theorem column_snoc {rows : List (List Numeral)} {ns : List Numeral} {j : Nat} (hj : j < ns.length) :
    ((rows ++ [ns]).filterMap fun r => (r[j]?).map fun n => PyVal.str n.text) =
      (rows.filterMap fun r => (r[j]?).map fun n => PyVal.str n.text) ++ [cellOf ns j] := by
  rw [List.filterMap_append]
  congr 1
  simp [cellOf, List.getElem?_eq_getElem hj]

theorem stack_row {labels : List Str} (hd : labels.Nodup) (rows : List (List Numeral)) (ns : List Numeral)
    (hl : ns.length = labels.length) :
    stackInto (colsOf labels rows) ((labels.zip ns).map fun p => (Key.str p.1, PyVal.str p.2.text)) =
      .ok (colsOf labels (rows ++ [ns])) := by
  have hk : (labels.map Key.str).Nodup := hd.map (by intro a b h; cases h; rfl)
  have hz : labels.zipIdx.map (fun p => Key.str p.1) = labels.map Key.str :=
    zipIdx_fst labels Key.str
  have hc : colsOf labels (rows ++ [ns]) = labels.zipIdx.map fun p =>
      (Key.str p.1, PyVal.list ((rows.filterMap fun r => (r[p.2]?).map fun n => PyVal.str n.text) ++ [cellOf ns p.2])) := by
    rw [colsOf, if_neg (by simp)]
    apply List.map_congr_left
    intro p hp
    have := (List.mem_zipIdx hp).2.1
    rw [column_snoc (by omega)]
  rw [row_cells hl, hc]
  by_cases hr : rows = []
  · subst hr
    have e := stack_fresh (labels.zipIdx.map fun p => (Key.str p.1, cellOf ns p.2)) []
      (by rw [List.map_map]; exact (hz ▸ hk : (labels.zipIdx.map (fun p : Str × Nat => Key.str p.1)).Nodup))
    rw [colsOf, if_pos rfl]
    rw [e]
    simp [List.map_map, Function.comp_def]
  · have e := stack_more (labels.zipIdx.map fun p =>
      (Key.str p.1, (rows.filterMap fun r => (r[p.2]?).map fun n => PyVal.str n.text), cellOf ns p.2)) []
      (by rw [List.map_map]; exact (hz ▸ hk : (labels.zipIdx.map (fun p : Str × Nat => Key.str p.1)).Nodup))
    rw [colsOf, if_neg hr]
    simpa [List.map_map, Function.comp_def] using e

/-! ### Converting the columns -/

theorem texts_typed {rd : Numeral → F64} (l : List Numeral) (h : ∀ n ∈ l, parse_float_or_rational n.text = .ok (rd n)) :
    to_type .float (.list (l.map fun n => PyVal.str n.text)) = .ok (.tuple (l.map fun n => PyVal.float (rd n))) := by
  have := to_type_strList .float l (fun n => n.text) (fun n => PyVal.float (rd n)) fun n hn => typeParser_float (h n hn)
  rw [strList, List.map_map] at this
  exact this

theorem column_texts {rows : List (List Numeral)} {j : Nat} (f : Numeral → PyVal) :
    (rows.filterMap fun r => (r[j]?).map f) = (rows.filterMap fun r => r[j]?).map f :=
  (List.map_filterMap ..).symm

theorem column_typed {rd : Numeral → F64} {rows : List (List Numeral)} {j : Nat}
    (h : ∀ r ∈ rows, ∀ n ∈ r, parse_float_or_rational n.text = .ok (rd n)) :
    to_type .float (.list (rows.filterMap fun r => (r[j]?).map fun n => PyVal.str n.text)) =
      .ok (.tuple (rows.filterMap fun r => (r[j]?).map fun n => PyVal.float (rd n))) := by
  rw [column_texts, column_texts]
  apply texts_typed
  intro n hn
  obtain ⟨r, hr, e⟩ := List.mem_filterMap.1 hn
  exact h r hr n (List.mem_of_getElem? e)

theorem fix_cols : ∀ (l : List (Key × PyVal × PyVal)) (a : Dict Key PyVal), (a.keys ++ l.map Prod.fst).Nodup →
    (∀ p ∈ l, to_type .float p.2.1 = .ok p.2.2) →
    fix_data_types (a ++ l.map fun p => (p.1, p.2.1)) (l.map fun p => (p.1, Ty.float)) = .ok (a ++ l.map fun p => (p.1, p.2.2))
  | [], a, _, _ => by simp [fix_data_types]
  | (k, v, w) :: l, a, h, ht => by
    have hk : k ∉ a.keys := by
      intro hm
      rw [List.nodup_append] at h
      exact h.2.2 k hm k (by simp) rfl
    simp only [List.map_cons]
    rw [fix_some _ _ _ _ v w (get?_mid a _ k v hk) (ht (k, v, w) (by simp)), set_mid a _ k v w hk]
    have := fix_cols l (a ++ [(k, w)]) (by simpa [Dict.keys] using h) fun p hp => ht p (by simp [hp])
    simpa using this

theorem fix_table {rd : Numeral → F64} {labels : List Str} (hd : labels.Nodup) (rows : List (List Numeral))
    (h : ∀ r ∈ rows, ∀ n ∈ r, parse_float_or_rational n.text = .ok (rd n)) :
    fix_data_types (colsOf labels rows) (labels.map fun c => (.str c, .float)) = .ok (columnTable rd labels rows) := by
  have hk : (labels.map Key.str).Nodup := hd.map (by intro a b h; cases h; rfl)
  have hz : labels.zipIdx.map (fun p => Key.str p.1) = labels.map Key.str :=
    zipIdx_fst labels Key.str
  by_cases hr : rows = []
  · subst hr
    rw [colsOf, if_pos rfl, columnTable, if_pos rfl]
    induction labels with
    | nil => rfl
    | cons l ls ih =>
      rw [List.map_cons, fix_data_types]
      show fix_data_types [] _ = _
      exact ih hd.of_cons hk.of_cons (zipIdx_fst ls Key.str)
  · have e := fix_cols (labels.zipIdx.map fun p =>
      (Key.str p.1, PyVal.list (rows.filterMap fun r => (r[p.2]?).map fun n => PyVal.str n.text),
        PyVal.tuple (rows.filterMap fun r => (r[p.2]?).map fun n => PyVal.float (rd n)))) []
      (by rw [List.map_map]; exact (hz ▸ hk : (labels.zipIdx.map (fun p : Str × Nat => Key.str p.1)).Nodup))
      (by
        intro p hp
        simp only [List.mem_map] at hp
        obtain ⟨q, -, rfl⟩ := hp
        exact column_typed h)
    rw [colsOf, if_neg hr, columnTable, if_neg hr]
    have e2 : labels.map (fun c => (Key.str c, Ty.float)) = labels.zipIdx.map fun p => (Key.str p.1, Ty.float) :=
      (zipIdx_fst labels fun c => (Key.str c, Ty.float)).symm
    rw [e2]
    simpa [List.map_map, Function.comp_def] using e

/-! ### The pattern of a row -/

theorem labelledItem_eq (n : Nat) : labelledItem n = LF n := by
  rw [labelledItem, NUMBER_eq]

theorem items_lfs : ∀ (k i : Nat), ((List.range' i k).map labelledItem).foldr Re.seq .eps = lfs i k .eps
  | 0, _ => rfl
  | k + 1, i => by
    rw [List.range'_succ, List.map_cons, List.foldr_cons, items_lfs k (i + 1), labelledItem_eq]
    rfl

theorem labelledPat_ok {pre : List Re} {pnames labels : List Str} {p : Pat} (h : labelledPat pre pnames labels = .ok p) :
    (pnames ++ labels).Nodup ∧ p.names = (pnames ++ labels).zipIdx 1 ∧
    ∀ st (k : St → Option St), run p.re st k = run (pre.foldr Re.seq (lfs (pnames.length + 1) labels.length .eps)) st k := by
  rw [labelledPat] at h
  split at h
  · rename_i hc
    cases h
    simp only [Bool.and_eq_true, decide_eq_true_eq] at hc
    refine ⟨hc.2, rfl, fun st k => ?_⟩
    rw [seqOf_eq, List.foldr_append]
    have : (List.range labels.length).map (fun i => labelledItem (pnames.length + i + 1)) =
        (List.range' (pnames.length + 1) labels.length).map labelledItem := by
      rw [List.range'_eq_map_range, List.map_map]
      apply List.map_congr_left
      intro x _
      simp [Nat.add_right_comm]
    rw [this, items_lfs]
  · cases h

theorem Gets.congr {a b : Re} (h : ∀ st (k : St → Option St), run a st k = run b st k) {pre s caps C} (hb : Gets b pre s caps C) :
    Gets a pre s caps C := by
  obtain ⟨t, h1, h2⟩ := hb
  exact ⟨t, by rw [h]; exact h1, h2⟩

theorem numLine_after {l : Str} {ns : List Numeral} (h : NumLine l ns) : ∃ more, After l (ns.map Numeral.text ++ more) := by
  obtain ⟨⟨c, s, rfl, hc⟩, more, hf⟩ := h
  exact ⟨more, fun d hd => by cases hd; exact hc, hf⟩

theorem labelled_row {labels : List Str} {p : Pat} (hp : labelledPat [] [] labels = .ok p) {l : Str} {ns : List Numeral}
    (hr : NumLine l ns) (hl : ns.length = labels.length) (hv : ∀ n ∈ ns, n.Valid) :
    ∃ m, p.match_ l = some m ∧ groupVals m = (labels.zip ns).map fun q => (Key.str q.1, PyVal.str q.2.text) := by
  obtain ⟨-, hn, he⟩ := labelledPat_ok hp
  obtain ⟨more, ha⟩ := numLine_after hr
  obtain ⟨m, h1, h2, h3⟩ := Gets.match_ (p := p) (s := l) (C := fun c => c = capsOf 1 ns []) (Gets.congr he (by
    have := gets_lfs (r := .eps) (C := fun c => c = capsOf 1 ns []) ns 1 (pre := []) (caps := []) ha hv
      fun _ _ _ => Gets.eps rfl
    rw [hl] at this
    exact this))
  exact ⟨m, h1, groupVals_labels 1 h2 (h3.trans hn) hl⟩

theorem search_of_match {p : Pat} {s : Str} {m : Match} (h : p.match_ s = some m) : p.search s = some m :=
  Pat.searchFrom_of_matchAt h

theorem matchRows_labelled {labels : List Str} {p : Pat}
    (hrow : ∀ l ns, NumLine l ns → ns.length = labels.length → (∀ n ∈ ns, n.Valid) →
      ∃ m, p.match_ l = some m ∧ groupVals m = (labels.zip ns).map fun q => (Key.str q.1, PyVal.str q.2.text))
    (hd : labels.Nodup) {ls : List Str} {rows : List (List Numeral)} (h : List.Forall₂ NumLine ls rows) :
    ∀ done, (∀ r ∈ rows, r.length = labels.length ∧ ∀ n ∈ r, n.Valid) →
      Dos.matchRows p ls (colsOf labels done) = .ok (colsOf labels (done ++ rows)) := by
  induction h with
  | nil => intro done _; rw [Dos.matchRows, List.append_nil]
  | @cons l r ls rows hr _ ih =>
    intro done hok
    obtain ⟨m, h1, h2⟩ := hrow l r hr (hok r (by simp)).1 (hok r (by simp)).2
    rw [Dos.matchRows, h1]
    dsimp only
    rw [h2, stack_row hd done r (hok r (by simp)).1]
    show Dos.matchRows p ls _ = _
    rw [ih _ fun x hx => hok x (by simp [hx])]
    simp

theorem hugRows_labelled {labels : List Str} {p : Pat} (hp : labelledPat [] [] labels = .ok p)
    (hs : ∀ l, NoDigit l → p.search l = none) {ls : List Str} {rows : List (List Numeral)}
    (h : Interleaved NoDigit NumLine ls rows) :
    ∀ done, (∀ r ∈ rows, r.length = labels.length ∧ ∀ n ∈ r, n.Valid) →
      Hug.rows p ls (colsOf labels done) = .ok (colsOf labels (done ++ rows)) := by
  have hd : labels.Nodup := by simpa using (labelledPat_ok hp).1
  induction h with
  | nil => intro done _; rw [Hug.rows, List.append_nil]
  | @skip l ls rs hn _ ih =>
    intro done hok
    rw [Hug.rows, hs l hn]
    exact ih done hok
  | @row l ls r rows hr _ ih =>
    intro done hok
    obtain ⟨m, h1, h2⟩ := labelled_row hp hr (hok r (by simp)).1 (hok r (by simp)).2
    rw [Hug.rows, search_of_match h1]
    dsimp only
    rw [h2, stack_row hd done r (hok r (by simp)).1]
    show Hug.rows p ls _ = _
    rw [ih _ fun x hx => hok x (by simp [hx])]
    simp

theorem lfs_digit {i k : Nat} {r : Re} {w : Str} (h : Lang (lfs i (k + 1) r) w) : ∃ c ∈ w, 48 ≤ c ∧ c ≤ 57 := by
  obtain ⟨u, v, rfl, hu, -⟩ := h
  obtain ⟨a, b, rfl, -, hb⟩ := hu
  obtain ⟨c, hc, hd⟩ := Castep.digit_of_N hb
  exact ⟨c, by simp [hc], hd⟩

end Verif

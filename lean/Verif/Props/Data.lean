import Verif.Lemmas.Data
/-
Properties C23–C27: nested data and dictionaries.
-/
namespace Verif.Props
open Verif Verif.Spec

/-! ### C23 -/

/-- C23: what is left is JSON-representable at every depth. -/
theorem C23_json_ready (v w : PyVal) (h : normalise jsonMapping v = .ok w) : JsonReady w :=
  (normalise_json v w h).1

/-- C23: no scalar is invented. -/
theorem C23_scalars (v w : PyVal) (h : normalise jsonMapping v = .ok w) : ∀ x ∈ scalars w, x ∈ scalars v :=
  (normalise_json v w h).2.1

/-- C23: where no two keys of one dictionary get the same name, the scalars are the same, in order. -/
theorem C23_scalars_eq (v w : PyVal) (h : normalise jsonMapping v = .ok w) (hd : EveryDict NamesDistinct v) :
    scalars w = scalars v := (normalise_json v w h).2.2.2 hd

/-- C23: it succeeds exactly when every key at every depth has a text. -/
theorem C23_total (v : PyVal) :
    (∃ w, normalise jsonMapping v = .ok w) ↔ EveryDict (fun ks => ∀ k ∈ ks, KeyOk k) v :=
  ⟨fun ⟨w, h⟩ => (normalise_json v w h).2.2.1, normalise_total v⟩

/-- Complex numbers in lists in dictionaries under bond keys. -/
example : normalise jsonMapping (.list [.dict [(.tup [.tup [.str (py"C"), .int 1], .tup [.str (py"H"), .int 2]],
      .list [.complex ⟨0⟩ ⟨1⟩, .none])]])
    = .ok (.tuple [.dict [(.str (py"C_1_H_2"), .tuple [.dict [(.str (py"real"), .float ⟨0⟩), (.str (py"imag"), .float ⟨1⟩)], .none])]])
    := by decide +kernel
example : normalise jsonMapping (.dict [(.tup [], .none)]) = .error .indexError := by decide +kernel
example : EveryDict NamesDistinct (.dict [(.tup [.str (py"C"), .int 1], .none), (.tup [.str (py"C"), .int 2], .none)]) :=
  ⟨by unfold NamesDistinct; decide +kernel, trivial, trivial, trivial⟩

/-! ### C24 -/

/-- C24 is false: two keys of one dictionary may get the same name, and then one entry is lost. -/
theorem C24_violated :
    json_safe (.dict [(.tup [.str (py"a"), .str (py"b")], .int 1), (.str (py"a_b"), .int 2)])
      = .ok (.dict [(.str (py"a_b"), .int 2)]) ∧
    json_safe (.dict [(.tup [.str (py"a"), .str (py"b_c")], .int 1), (.tup [.str (py"a_b"), .str (py"c")], .int 2)])
      = .ok (.dict [(.str (py"a_b_c"), .int 2)]) := by decide +kernel

/-- Keys that identify atoms or bonds, or sets of species: tuples of component texts. -/
def compTexts : Key → List Str
  | .tup (.tup a :: l) => (.tup a :: l).flatMap innerTexts
  | .tup l => l.map Key.toStr
  | _ => []

/-- C24, partial: tuple keys whose component texts are nonempty and free of underscores get the same name
only if their component texts are the same.  Missing: texts with underscores, see `C24_violated`. -/
theorem C24_partial (k k' : List Key)
    (h : ∀ w ∈ compTexts (.tup k), w ≠ [] ∧ 95 ∉ w) (h' : ∀ w ∈ compTexts (.tup k'), w ≠ [] ∧ 95 ∉ w)
    (e : json_key (.tup k) = json_key (.tup k')) (hk : ∃ n, json_key (.tup k) = .ok n) :
    compTexts (.tup k) = compTexts (.tup k') := by
  have name : ∀ k : List Key, (∃ n, json_key (.tup k) = .ok n) →
      json_key (.tup k) = .ok (.str (Str.join (py"_") (compTexts (.tup k)))) := by
    rintro k ⟨n, hn⟩
    by_cases hok : KeyOk (.tup k)
    · rw [json_key_ok hok]
      match k with
      | [] => rfl
      | .tup a :: l => rfl
      | .none :: l | .bool _ :: l | .int _ :: l | .str _ :: l => rfl
    · rw [json_key_err hok] at hn; cases hn
  have hk' : ∃ n, json_key (.tup k') = .ok n := by rw [← e]; exact hk
  rw [name k hk, name k' hk'] at e
  have e := (Key.str.inj (Except.ok.inj e))
  have back : ∀ ws : List Str, (∀ w ∈ ws, w ≠ [] ∧ 95 ∉ w) →
      Str.wordsAux (fun c => c == 95) [] (Str.join (py"_") ws) = ws := by
    intro ws hw
    refine Str.wordsAux_join (fun c => c == 95) 95 (by decide) ws fun w hm => ⟨(hw w hm).1, fun c hc => ?_⟩
    have : c ≠ 95 := by rintro rfl; exact (hw w hm).2 hc
    simpa using this
  rw [← back _ h, ← back _ h', e]

/-- C24 for atoms: distinct (species, index) keys get distinct names. -/
theorem C24_atoms (s t : Str) (i j : Int) (hs : s ≠ [] ∧ 95 ∉ s) (ht : t ≠ [] ∧ 95 ∉ t)
    (e : json_key (.tup [.str s, .int i]) = json_key (.tup [.str t, .int j])) : s = t ∧ i = j := by
  have hi : ∀ i : Int, intStr i ≠ [] ∧ 95 ∉ intStr i := fun i =>
    ⟨(intStr_chars i).1, fun h => by have := (intStr_chars i).2 95 h; omega⟩
  have comp : ∀ (s : Str) (i : Int), compTexts (.tup [.str s, .int i]) = [s, intStr i] := fun _ _ => rfl
  have := C24_partial _ _ (by rw [comp]; intro w hw; simp at hw; rcases hw with rfl | rfl; exacts [hs, hi i])
    (by rw [comp]; intro w hw; simp at hw; rcases hw with rfl | rfl; exacts [ht, hi j]) e ⟨_, rfl⟩
  rw [comp, comp] at this
  simp only [List.cons.injEq, and_true] at this
  exact ⟨this.1, intStr_inj this.2⟩

/-- C24 for bonds: distinct pairs of atoms get distinct names. -/
theorem C24_bonds (s t s' t' : Str) (i j i' j' : Int) (hs : s ≠ [] ∧ 95 ∉ s) (ht : t ≠ [] ∧ 95 ∉ t)
    (hs' : s' ≠ [] ∧ 95 ∉ s') (ht' : t' ≠ [] ∧ 95 ∉ t')
    (e : json_key (.tup [.tup [.str s, .int i], .tup [.str t, .int j]])
      = json_key (.tup [.tup [.str s', .int i'], .tup [.str t', .int j']])) :
    s = s' ∧ i = i' ∧ t = t' ∧ j = j' := by
  have hi : ∀ i : Int, intStr i ≠ [] ∧ 95 ∉ intStr i := fun i =>
    ⟨(intStr_chars i).1, fun h => by have := (intStr_chars i).2 95 h; omega⟩
  have comp : ∀ (s t : Str) (i j : Int), compTexts (.tup [.tup [.str s, .int i], .tup [.str t, .int j]])
      = [s, intStr i, t, intStr j] := fun _ _ _ _ => rfl
  have := C24_partial _ _
    (by rw [comp]; intro w hw; simp at hw; rcases hw with rfl | rfl | rfl | rfl; exacts [hs, hi i, ht, hi j])
    (by rw [comp]; intro w hw; simp at hw; rcases hw with rfl | rfl | rfl | rfl; exacts [hs', hi i', ht', hi j'])
    e ⟨_, rfl⟩
  rw [comp, comp] at this
  simp only [List.cons.injEq, and_true] at this
  exact ⟨this.1, intStr_inj this.2.1, this.2.2.1, intStr_inj this.2.2.2⟩

/-- C24: where the names are distinct no entry is lost or moved. -/
theorem C24_no_loss (d : List (Key × PyVal)) (hk : ∀ kv ∈ d, KeyOk kv.1) (hv : ∀ kv ∈ d, JsonReady kv.2)
    (hn : NamesDistinct (d.map Prod.fst)) :
    json_safe (.dict d) = .ok (.dict (d.map fun kv => (jsonName kv.1, kv.2))) := by
  have : ∃ w, json_safe (.dict d) = .ok w := by
    rw [json_safe, jsonDict_ready d [] hv, mapM_keys_ok d hk]; exact ⟨_, rfl⟩
  obtain ⟨w, hw⟩ := this
  obtain ⟨-, o, rfl, -, -, h⟩ := json_dict_ok d w hv hw
  rw [hw, h (by rw [NamesDistinct] at hn; simpa [Function.comp_def] using hn)]

example : json_key (.tup [.str (py"Ar"), .int (-1)]) = .ok (.str (py"Ar_-1")) := by decide +kernel
example : NamesDistinct [.tup [.str (py"Ar"), .int 1], .tup [.str (py"Ar"), .int 11], .str (py"total")] := by
  unfold NamesDistinct; decide +kernel

/-! ### C25 -/

/-- C25 is false for separators other than the default: inside a sequence the default is used. -/
theorem C25_violated :
    flatten_dict [(.str (py"a"), .dict [(.str (py"b"), .list [.int 1])])] (sep := py".")
      = [(.str (py"a.b_0"), .int 1)] := by decide +kernel

/-- C25, partial: with the default separator the result holds exactly the leaves, in order, each under
its path.  Missing: other separators below sequences, see `C25_violated`. -/
theorem C25_partial (d : List (Key × PyVal)) (hk : EveryDict TextKeys (.dict d))
    (hn : ((leafPaths false (.dict d)).map fun p => pathText (py"_") p.1).Nodup) :
    flatten_dict d = (leafPaths false (.dict d)).map fun p => (.str (pathText (py"_") p.1), p.2) := by
  simp only [leafPaths, ← wayText_default] at hn ⊢
  rw [flatten_dict, flattenItems_top (py"_") d hk.1 hk.2 hn, Dict.ofList_nodup]
  have h2 := List.Nodup.map (f := Key.str) (fun a b e => by injection e) hn
  simpa [Function.comp_def] using h2

/-- C25 for every separator, where there are no sequences. -/
theorem C25_no_sequences (sep : Str) (d : List (Key × PyVal)) (hk : EveryDict TextKeys (.dict d))
    (hs : NoSeq (.dict d)) (hn : ((leafPaths false (.dict d)).map fun p => pathText sep p.1).Nodup) :
    flatten_dict d (sep := sep) = (leafPaths false (.dict d)).map fun p => (.str (pathText sep p.1), p.2) := by
  have e : ∀ p ∈ leafPathsD false d, wayText sep p.1 = pathText sep p.1 := fun p hp =>
    wayText_noSeq sep p.1 (noSeqD_paths d hs p hp)
  simp only [leafPaths] at hn ⊢
  have e1 : (leafPathsD false d).map (fun p => wayText sep p.1) = (leafPathsD false d).map fun p => pathText sep p.1 :=
    List.map_congr_left e
  have e2 : (leafPathsD false d).map (fun p => ((.str (wayText sep p.1), p.2) : Key × PyVal))
      = (leafPathsD false d).map fun p => (.str (pathText sep p.1), p.2) :=
    List.map_congr_left fun p hp => by rw [e p hp]
  rw [← e2]
  rw [← e1] at hn
  rw [flatten_dict, flattenItems_top sep d hk.1 hk.2 hn, Dict.ofList_nodup]
  have h2 := List.Nodup.map (f := Key.str) (fun a b e => by injection e) hn
  simpa [Function.comp_def] using h2

example : flatten_dict [(.str (py"hello"), .list [.str (py"is"), .str (py"me")]),
      (.str (py"goodbye"), .dict [(.str (py"nest"), .none), (.str (py"child"), .list [.tuple [.int 1]])])]
    = [(.str (py"hello_0"), .str (py"is")), (.str (py"hello_1"), .str (py"me")),
       (.str (py"goodbye_nest"), .none), (.str (py"goodbye_child_0_0"), .int 1)] := by decide +kernel
/-- The hypotheses are met by that dictionary. -/
example : let d : List (Key × PyVal) := [(.str (py"hello"), .list [.str (py"is"), .str (py"me")]),
      (.str (py"goodbye"), .dict [(.str (py"nest"), .none), (.str (py"child"), .list [.tuple [.int 1]])])]
    EveryDict TextKeys (.dict d) ∧ ((leafPaths false (.dict d)).map fun p => pathText (py"_") p.1).Nodup := by
  refine ⟨⟨?_, ⟨trivial, trivial, trivial⟩, ⟨?_, trivial, ⟨⟨trivial, trivial⟩, trivial⟩, trivial⟩, trivial⟩, by decide +kernel⟩
  all_goals
    intro k hk; simp at hk
    rcases hk with rfl | rfl <;> exact ⟨_, _, rfl⟩

/-! ### C26 -/

/-- C26: column `k` holds exactly the values of `k` in the rows that have it, in row order, and a column
exists exactly when some row has the key. -/
theorem C26_columns (rows : List (Dict Key PyVal)) (h : ∀ r ∈ rows, r.keys.Nodup) (k : Key) :
    (rows.foldl stack_dict ([] : Dict Key (List PyVal))).get? k =
      if rows.filterMap (·.get? k) = [] then none else some (rows.filterMap (·.get? k)) := by
  have h1 := stack_rows rows ([] : Dict Key (List PyVal)) h k
  have h2 := stack_none rows ([] : Dict Key (List PyVal)) h k
  have h3 : rows.filterMap (·.get? k) = [] ↔ ∀ r ∈ rows, r.get? k = none := by
    rw [List.filterMap_eq_nil_iff]
  split
  · rename_i hn
    exact h2.2 ⟨rfl, h3.1 hn⟩
  · rename_i hn
    cases hg : (rows.foldl stack_dict ([] : Dict Key (List PyVal))).get? k with
    | none => exact absurd (h3.2 (h2.1 hg).2) hn
    | some c =>
      rw [hg] at h1
      simp only [Option.getD_some, Dict.get?, Option.getD_none, List.nil_append] at h1
      rw [h1]

/-- C26: rows with the same keys give columns of the same length, the `i`-th entry being that of the
`i`-th row. -/
theorem C26_rectangular (rows : List (Dict Key PyVal)) (h : ∀ r ∈ rows, r.keys.Nodup) (k : Key)
    (hk : ∀ r ∈ rows, k ∈ r.keys) (hne : rows ≠ []) :
    ∃ col, (rows.foldl stack_dict ([] : Dict Key (List PyVal))).get? k = some col ∧ col.length = rows.length ∧
      ∀ i (hi : i < rows.length), col[i]? = (rows[i]).get? k := by
  have e : ∀ (rows : List (Dict Key PyVal)), (∀ r ∈ rows, k ∈ r.keys) →
      (rows.filterMap (·.get? k)).map some = rows.map (·.get? k) := by
    intro rows
    induction rows with
    | nil => intro _; rfl
    | cons r rows ih =>
      intro hk
      have hr := hk r (by simp)
      cases hg : r.get? k with
      | none => exact absurd hr ((Dict.get?_eq_none r k).1 hg)
      | some v =>
        rw [List.filterMap_cons, hg, List.map_cons, List.map_cons, ih fun x hx => hk x (by simp [hx]), hg]
  have e := e rows hk
  have hl : (rows.filterMap (·.get? k)).length = rows.length := by
    have := congrArg List.length e; simpa using this
  refine ⟨rows.filterMap (·.get? k), ?_, hl, ?_⟩
  · rw [C26_columns rows h k, if_neg]
    intro hnil
    rw [hnil] at hl
    exact hne (List.length_eq_zero_iff.1 hl.symm)
  · intro i hi
    have := congrArg (·[i]?) e
    simp only [List.getElem?_map, List.getElem?_eq_getElem hi, Option.map_some] at this
    rw [List.getElem?_eq_getElem (by omega)] at this ⊢
    simpa using this

example : ([[(.str (py"a"), .int 1), (.str (py"b"), .int 2)], [(.str (py"b"), .int 4), (.str (py"a"), .int 3)]] :
      List (Dict Key PyVal)).foldl stack_dict ([] : Dict Key (List PyVal))
    = [(.str (py"a"), [.int 1, .int 3]), (.str (py"b"), [.int 2, .int 4])] := by decide +kernel

/-! ### C27 -/

/-- C27: what is found under each key afterwards. -/
theorem C27_aliases (d : Dict Key PyVal) (l : List (Key × Key)) (replace inplace : Bool) (hd : d.keys.Nodup)
    (hs : (l.map Prod.fst).Nodup) (ht : (l.map Prod.snd).Nodup) (hst : ∀ p ∈ l, ∀ q ∈ l, p.1 ≠ q.2) :
    let out := (add_aliases d l replace inplace).1
    (∀ f n v, (f, n) ∈ l → d.get? f = some v → out.get? n = some v) ∧
    (replace = true → ∀ f n, (f, n) ∈ l → out.get? f = none) ∧
    (∀ k, (∀ f, (f, k) ∈ l → d.get? f = none) → (replace = true → k ∉ l.map Prod.fst) → out.get? k = d.get? k) := by
  have hout : ∀ k, (add_aliases d l replace inplace).1.get? k = aliased d l replace k := by
    intro k
    cases inplace with
    | true =>
      show (aliasLoop replace true ⟨d, d⟩ l).inDict.get? k = _
      rw [aliasLoop_inplace]
      exact aliasInplace_get replace l d hd hs ht hst k
    | false =>
      show (aliasLoop replace false ⟨d, d⟩ l).copied.get? k = _
      rw [(aliasLoop_copy replace l ⟨d, d⟩).2]
      exact aliasCopy_get replace l d d hd hs ht hst (fun _ _ => rfl) k
  have hfind : ∀ f n, (f, n) ∈ l → l.find? (fun p => p.2 = n) = some (f, n) := by
    intro f n hm
    cases hfd : l.find? (fun p => p.2 = n) with
    | none => rw [List.find?_eq_none] at hfd; simpa using hfd (f, n) hm
    | some p =>
      have h1 := List.mem_of_find?_eq_some hfd
      have h2 : p.2 = n := by simpa using List.find?_some hfd
      have : p = (f, n) := List.inj_on_of_nodup_map ht h1 hm h2
      rw [this]
  refine ⟨?_, ?_, ?_⟩
  · intro f n v hm hv
    rw [hout, aliased, hfind f n hm]
    simp [hv]
  · intro hr f n hm
    rw [hout, aliased]
    have : l.find? (fun p => p.2 = f) = none := by
      rw [List.find?_eq_none]; intro q hq; simpa using Ne.symm (hst (f, n) hm q hq)
    rw [this]
    have hc : (l.map Prod.fst).contains f = true := by
      rw [List.contains_iff_mem]; exact List.mem_map.2 ⟨(f, n), hm, rfl⟩
    simp only [hr, hc, Bool.and_self, if_true]
  · intro k h1 h2
    rw [hout, aliased]
    cases hfd : l.find? (fun p => p.2 = k) with
    | some p =>
      have hm := List.mem_of_find?_eq_some hfd
      have hp : p.2 = k := by simpa using List.find?_some hfd
      simp only
      rw [h1 p.1 (by rw [← hp]; exact hm)]; simp
    | none =>
      simp only
      cases replace with
      | false => simp
      | true =>
        have hc : (l.map Prod.fst).contains k = false := by
          cases hcc : (l.map Prod.fst).contains k with
          | false => rfl
          | true => exact absurd (List.contains_iff_mem.1 hcc) (h2 rfl)
        simp only [hc, Bool.and_false, Bool.false_eq_true, if_false]

/-- C27: with `inplace=False` the argument is unchanged, otherwise it is the result. -/
theorem C27_inplace (d : Dict Key PyVal) (l : List (Key × Key)) (replace : Bool) :
    (add_aliases d l replace false).2 = d ∧
    (add_aliases d l replace true).2 = (add_aliases d l replace true).1 :=
  ⟨(aliasLoop_copy replace l ⟨d, d⟩).1, rfl⟩

example : (add_aliases (κ := Key) (α := PyVal) [(.str (py"hi"), .int 1), (.str (py"bye"), .int 2)]
      [(.str (py"hi"), .str (py"frog")), (.str (py"no"), .str (py"toad"))] true true).1
    = [(.str (py"bye"), .int 2), (.str (py"frog"), .int 1)] := by decide +kernel

end Verif.Props

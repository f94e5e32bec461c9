import Verif.Model.CastepTables
import Verif.Spec.LineTables
import Verif.Lemmas.AtomTables
import Verif.Lemmas.Path
import Verif.Lemmas.CellBlocks
/-
Helpers for tables of `.castep` files in which every line has its own entry.
-/
namespace Verif
open Re NumRe AtomRe Spec Castep

/-- A run of a class of characters in a group of its own. -/
theorem Gets.run {r : Re} {i : Nat} {cs : CSet} {w s : Str} {pre caps C} (hw : ∀ c ∈ w, cs.has c = true) (hne : w ≠ []) (hs : Stops cs s)
    (h : Gets r (w.reverse ++ pre) s ((i, w) :: caps) C) : Gets (.seq (.group i (plus cs)) r) pre (w ++ s) caps C := by
  obtain ⟨t, h5, h6⟩ := h
  refine ⟨t, ?_, h6⟩
  rw [run_seq, run_group]
  apply run_plus_all cs 1 w _ _ _ _ _ _ (by cases w with | nil => exact absurd rfl hne | cons c s => simp) hw hs (by simp)
  rw [upTo_append]; exact h5

/-- A run of a class of characters, possibly none. -/
theorem Gets.stars {r : Re} {cs : CSet} {w s : Str} {pre caps C} (hw : ∀ c ∈ w, cs.has c = true) (hs : Stops cs s)
    (h : Gets r (w.reverse ++ pre) s caps C) : Gets (.seq (star cs) r) pre (w ++ s) caps C := by
  obtain ⟨t, h5, h6⟩ := h
  refine ⟨t, ?_, h6⟩
  rw [run_seq]
  exact run_star_all cs w _ _ _ _ _ _ hw hs (by simp) h5

namespace LineTab

/-- Lines with entries. -/
theorem fold_entries {f : Dict Key PyVal → Str → PyM (Dict Key PyVal)} {ent : α → List (Key × PyVal)} {skip : Str → Prop} {Row : Str → α → Prop}
    (h1 : ∀ d l, skip l → f d l = .ok d) {ls : List Str} {rs : List α} (h : Interleaved skip Row ls rs)
    (h2 : ∀ d l, ∀ r ∈ rs, Row l r → f d l = .ok ((ent r).foldl (fun d p => d.set p.1 p.2) d)) (d : Dict Key PyVal) :
    foldLines f d ls = .ok ((rs.flatMap ent).foldl (fun d p => d.set p.1 p.2) d) := by
  induction h generalizing d with
  | nil => rfl
  | skip hi _ ih => rw [foldLines, h1 d _ hi]; exact ih h2 d
  | @row l ls r rs hr _ ih =>
    rw [foldLines, h2 d l r (by simp) hr, List.flatMap_cons, List.foldl_append]
    exact ih (fun d l r hm => h2 d l r (by simp [hm])) _

theorem find_set {es : List (Key × PyVal)} {q p : Key × PyVal} :
    (es ++ [q]).reverse.find? (fun x => x.1 == p.1) = if q.1 = p.1 then some q else es.reverse.find? (fun x => x.1 == p.1) := by
  rw [List.reverse_append, List.reverse_singleton, List.singleton_append, List.find?_cons]
  by_cases h : q.1 = p.1
  · simp [h]
  · rw [if_neg h, beq_eq_false_iff_ne.2 h]

theorem lastWins (es : List (Key × PyVal)) : LastWins es (Dict.ofList es) := by
  have key : ∀ r : List (Key × PyVal), LastWins r.reverse (Dict.ofList r.reverse) := by
    intro r
    induction r with
    | nil => exact ⟨rfl, by intro p hp; cases hp⟩
    | cons q r ih =>
      rw [List.reverse_cons]
      generalize r.reverse = es at *
      have e : Dict.ofList (es ++ [q]) = (Dict.ofList es).set q.1 q.2 := by
        rw [Dict.ofList, List.foldl_append]; rfl
      rw [e]
      have hnd : (Dict.ofList es).keys.Nodup := Phonon.nodup_ofList es
      generalize Dict.ofList es = d at *
      constructor
      · rw [List.map_append, List.eraseDups_append, ← ih.1]
        by_cases hm : q.1 ∈ d.keys
        · have : ([q].map Prod.fst).removeAll (es.map Prod.fst) = [] := by
            have h2 : q.1 ∈ es.map Prod.fst := by
              have : q.1 ∈ d.map Prod.fst := hm
              rw [ih.1, List.mem_eraseDups] at this; exact this
            simp only [List.removeAll, List.map_cons, List.map_nil, List.filter_cons, List.filter_nil]
            simp [h2]
          rw [this]
          have h1 : ([] : List Key).eraseDups = [] := rfl
          rw [h1, List.append_nil]
          exact Dict.keys_set_of_mem d q.1 q.2 hm
        · have : ([q].map Prod.fst).removeAll (es.map Prod.fst) = [q.1] := by
            have h2 : q.1 ∉ es.map Prod.fst := by
              intro h
              apply hm
              show q.1 ∈ d.map Prod.fst
              rw [ih.1, List.mem_eraseDups]; exact h
            simp only [List.removeAll, List.map_cons, List.map_nil, List.filter_cons, List.filter_nil]
            simp [h2]
          rw [this]
          have h1 : [q.1].eraseDups = [q.1] := by rw [List.eraseDups_cons]; rfl
          rw [h1]
          exact Dict.keys_set_of_not_mem d q.1 q.2 hm
      · intro p hp
        have hg := Dict.get?_some_of_mem _ (Dict.nodup_set _ _ _ hnd) p.1 p.2 hp
        rw [find_set]
        by_cases h : q.1 = p.1
        · rw [if_pos h]
          rw [← h, Dict.get?_set_self] at hg
          have := Option.some.inj hg
          exact congrArg some (Prod.ext h this)
        · rw [if_neg h]
          rw [Dict.get?_set_ne _ _ _ _ (Ne.symm h)] at hg
          exact ih.2 p (Dict.mem_of_get? _ _ _ hg)
  have := key es.reverse
  rwa [List.reverse_reverse] at this

/-- There is only one such dictionary. -/
theorem lastWins_unique {es d d' : List (Key × PyVal)} (h : LastWins es d) (h' : LastWins es d') : d = d' := by
  have key : ∀ (d d' : List (Key × PyVal)) (f : Key → Option (Key × PyVal)), d.map Prod.fst = d'.map Prod.fst → (∀ p ∈ d, f p.1 = some p) → (∀ p ∈ d', f p.1 = some p) → d = d' := by
    intro d
    induction d with
    | nil => intro d' f h _ _; simp at h; exact h.symm
    | cons p d ih =>
      intro d' f h h1 h2
      cases d' with
      | nil => simp at h
      | cons q d' =>
        simp only [List.map_cons, List.cons.injEq] at h
        rw [ih d' f h.2 (fun p hp => h1 p (by simp [hp])) fun p hp => h2 p (by simp [hp])]
        have a := h1 p (by simp)
        have b := h2 q (by simp)
        rw [h.1, b] at a
        rw [Option.some.inj a]
  exact key d d' (fun k => es.reverse.find? fun q => q.1 == k) (by rw [h.1, h'.1]) h.2 h'.2

theorem keyName {s k : Str} (h : KeyName s k) : normalise_key s = k := by
  obtain ⟨ws, h, rfl⟩ := h
  rw [normalise_key_eq, alnumWords, wordsAux_of h]

theorem splitC_length (c : Nat) (s : Str) : (Str.splitC c s).length = s.count c + 1 := by
  induction s with
  | nil => rfl
  | cons a s ih =>
    rw [Str.splitC]
    by_cases h : a = c
    · subst h; simp [ih]
    · rw [if_neg h, List.count_cons_of_ne h]
      cases hs : Str.splitC c s with
      | nil => rw [hs] at ih; cases ih
      | cons x y => rw [hs] at ih; simpa using ih

theorem begins_drop {w l : Str} {a : Nat} {v : Str} (hw : w = a :: v) (ha : isSpace a = false) (h : BeginsWith w l) :
    ∃ s, l.dropWhile isSpace = w ++ s := by
  obtain ⟨g, s, rfl, hg⟩ := h
  refine ⟨s, ?_⟩
  subst hw
  induction g with
  | nil => simp [ha]
  | cons c g ih =>
    rw [List.cons_append, List.dropWhile_cons, if_pos (hg c (by simp))]
    exact ih fun c hc => hg c (by simp [hc])

theorem floatV_ok {n : Numeral} {x : F64} (h : pyFloat n.text = .ok x) : floatV n.text = .ok (.float x) := by
  rw [floatV, h]; rfl

theorem toFloat {n : Numeral} {x : F64} (h : parse_float_or_rational n.text = .ok x) : to_type .float (.str n.text) = .ok (.float x) := by
  rw [to_type, typeParser_float h]

theorem final_row {l key : Str} {n : Numeral} {fl : Numeral → F64} (h : NamedLine l key n) (hn : n.Valid) (hr : pyFloat n.text = .ok (fl n)) (d : Dict Key PyVal) :
    finalLine d l = .ok (d.set (.str key) (.float (fl n))) := by
  obtain ⟨name, v, ns, rfl, h1, h2, hk, hv, hns⟩ := h
  have hb : (Str.strip (name ++ 61 :: v)).isEmpty = false := by
    cases hb : (Str.strip (name ++ 61 :: v)).isEmpty with
    | false => rfl
    | true =>
      have := (strip_isEmpty _).1 hb 61 (by simp)
      simp [isSpace] at this
  rw [finalLine, hb]
  have hs : Str.splitC (c!"=") (name ++ 61 :: v) = [name, v] := by
    rw [splitC_append _ _ _ h1, splitC_of_notMem _ _ h2]
  rw [hs, pair]
  have := Scf.floatAt_eq hv (by intro m hm; rcases List.mem_cons.1 hm with rfl | hm; exacts [hn, hns m hm]) 0 (n := n) rfl
  simp only [Bool.false_eq_true, if_false]
  show (do let v ← floatAt v 0; return d.set (.str (normalise_key name)) v) = _
  rw [this, floatV_ok hr, keyName hk]
  rfl

theorem final_skip {l : Str} (h : Blank l) (d : Dict Key PyVal) : finalLine d l = .ok d := by
  rw [finalLine, (strip_isEmpty _).2 h]; rfl

theorem final_bad {l : Str} (h : ¬ Blank l) (hc : l.count 61 ≠ 1) (d : Dict Key PyVal) : finalLine d l = .error .valueError := by
  rw [finalLine, if_neg (by rw [strip_isEmpty]; exact h)]
  have hl := splitC_length 61 l
  have hp : pair (Str.splitC (c!"=") l) = .error .valueError := by
    unfold pair
    split
    · rename_i a b e
      rw [e] at hl
      simp at hl
      omega
    · rfl
  rw [hp]
  rfl

theorem solv_row {l key : Str} {n : Numeral} {rd : Numeral → F64} (h : PlainNamed l key n) (hn : n.Valid)
    (hr : parse_float_or_rational n.text = .ok (rd n)) (d : Dict Key PyVal) :
    solvationLine d l = .ok (d.set (.str key) (.float (rd n))) := by
  obtain ⟨name, v, ns, rfl, h1, hk, hv, hns⟩ := h
  have hf := Scf.numAt_eq (typ := .float) hv (by intro m hm; rcases List.mem_cons.1 hm with rfl | hm; exacts [hn, hns m hm]) 0 (n := n) rfl
  rw [solvationLine, splitC_append _ _ _ h1]
  obtain ⟨a, b, e⟩ : ∃ a b, Str.splitC (c!"=") v = a :: b := by
    cases hs : Str.splitC (c!"=") v with
    | nil =>
      have := splitC_length (c!"=") v
      rw [hs] at this; cases this
    | cons a b => exact ⟨a, b, rfl⟩
  rw [e]
  dsimp only
  rw [hf, toFloat hr, keyName hk]
  rfl

theorem solv_skip {l : Str} (h : 61 ∉ l) (d : Dict Key PyVal) : solvationLine d l = .ok d := by
  rw [solvationLine, splitC_of_notMem _ _ h]

theorem occ_row {l : Str} {r : OccRow} {rd : Numeral → F64} (h : r.Line l) (hok : r.Ok)
    (hr : ∀ n ∈ [r.eigenvalue, r.occupancy], parse_float_or_rational n.text = .ok (rd n)) :
    occupancy l = .ok (some (.dict (r.info rd))) := by
  have hg := get_numbers_has h (by
    intro n hn
    rcases List.mem_cons.1 hn with rfl | hn
    · exact hok.1
    · exact (hok.2.2 n hn).1)
  rw [occupancy, hg]
  simp only [List.map_cons, List.map_nil]
  have h1 := typeParser_int hok.1 hok.2.1
  have h2 := typeParser_float (hr r.eigenvalue (by simp))
  have h3 := typeParser_float (hr r.occupancy (by simp))
  generalize r.band.text = a at *
  generalize r.eigenvalue.text = b at *
  generalize r.occupancy.text = c at *
  have : fix_data_types [(.str (py"band"), .str a), (.str (py"eigenvalue"), .str b), (.str (py"occupancy"), .str c)]
      [(.str (py"band"), .int), (.str (py"eigenvalue"), .float), (.str (py"occupancy"), .float)] = .ok (r.info rd) := by
    rw [fix_some _ _ _ _ _ _ (by rfl) (show to_type .int (.str a) = .ok (.int (intOf r.band)) by rw [to_type, h1])]
    rw [fix_some _ _ _ _ _ _ (by rfl) (show to_type .float (.str b) = .ok (.float (rd r.eigenvalue)) by rw [to_type, h2])]
    rw [fix_some _ _ _ _ _ _ (by rfl) (show to_type .float (.str c) = .ok (.float (rd r.occupancy)) by rw [to_type, h3])]
    rfl
  rw [this]
  rfl

theorem occ_skip {l : Str} (h : NoDigit l) : occupancy l = .ok none := by
  rw [occupancy, get_numbers_has (ns := []) (.inl ⟨rfl, h⟩) (by simp)]
  rfl

theorem occ_bad {l : Str} {ns : List Numeral} (hn : HasNumbers l ns) (hv : ∀ n ∈ ns, n.Valid) (h0 : ns ≠ []) (h3 : ns.length ≠ 3) :
    occupancy l = .error .valueError := by
  rw [occupancy, get_numbers_has hn hv]
  split
  · rename_i e
    exact absurd (List.map_eq_nil_iff.1 e) h0
  · rename_i a b c e
    have := congrArg List.length e
    simp at this
    exact absurd this h3
  · rfl

theorem collect_bad {α : Type} {f : Str → PyM (Option α)} {e : PyErr} {a b : List Str} {l : Str} {xs : List α} (h : collect f a = .ok xs) (hl : f l = .error e) :
    collect f (a ++ l :: b) = .error e := by
  induction a generalizing xs with
  | nil => rw [List.nil_append, collect, hl]; rfl
  | cons x a ih =>
    rw [List.cons_append, collect]
    rw [collect] at h
    cases hx : f x with
    | error e' => rw [hx] at h; cases h
    | ok o =>
      rw [hx] at h
      cases hc : collect f a with
      | error e' =>
        cases o with
        | none => exact absurd (hc.symm.trans h) (by intro h; cases h)
        | some y =>
          have h' : (do let xs ← collect f a; return y :: xs) = Except.ok xs := h
          rw [hc] at h'; cases h'
      | ok ys =>
        cases o with
        | none => exact ih hc
        | some y =>
          show (do let xs ← collect f (a ++ l :: b); return y :: xs) = Except.error e
          rw [ih hc]; rfl

theorem wvfn_row {l : Str} {x : LineMin} {rd : Numeral → F64} (h : x.Line l) (hv : ∀ n ∈ x.nums, n.Valid)
    (hr : ∀ n ∈ x.nums, parse_float_or_rational n.text = .ok (rd n)) (d : Dict Key PyVal) :
    wvfnLine d l = .ok ((x.entries rd).foldl (fun d p => d.set p.1 p.2) d) := by
  have hn := numbersOf_of (rd := rd) h.1 hv hr
  have hst : ∀ w a v b, w = a :: v → isSpace a = false → w.getLast? = some b → isSpace b = false →
      (Str.startsWith (Str.strip l) w = true ↔ BeginsWith w l) := by
    intro w a v b hw ha hb hb'
    rw [startsWith_strip w l a b v hw ha hb hb']
    constructor
    · rintro ⟨g, r, e, hg⟩; exact ⟨g, r, by rw [e, List.append_assoc], hg⟩
    · rintro ⟨g, r, e, hg⟩; exact ⟨g, r, by rw [e, List.append_assoc], hg⟩
  cases x with
  | initial e s =>
    rw [wvfnLine, if_pos ((Str.contains_iff _ _).2 h.2), hn]
    rfl
  | steps ns =>
    rw [wvfnLine, IonTab.contains_false h.2.1, if_neg (by simp), if_pos ((hst (py"| step") _ _ _ rfl (by decide) rfl (by decide)).2 h.2.2), hn]
    rfl
  | gain ns =>
    rw [wvfnLine, IonTab.contains_false h.2.1, if_neg (by simp), if_neg, if_pos ((hst (py"| gain") _ _ _ rfl (by decide) rfl (by decide)).2 h.2.2), hn]
    · rfl
    · rw [hst (py"| step") _ _ _ rfl (by decide) rfl (by decide)]
      intro hs
      obtain ⟨s1, e1⟩ := begins_drop rfl (by decide) hs
      obtain ⟨s2, e2⟩ := begins_drop rfl (by decide) h.2.2
      rw [e1] at e2
      simp at e2

theorem wvfn_skip {l : Str} (h : LineMin.Other l) (d : Dict Key PyVal) : wvfnLine d l = .ok d := by
  have hst : ∀ w a v b, w = a :: v → isSpace a = false → w.getLast? = some b → isSpace b = false →
      ¬ BeginsWith w l → ¬ Str.startsWith (Str.strip l) w = true := by
    intro w a v b hw ha hb hb' h
    rw [startsWith_strip w l a b v hw ha hb hb']
    rintro ⟨g, r, e, hg⟩; exact h ⟨g, r, by rw [e, List.append_assoc], hg⟩
  rw [wvfnLine, IonTab.contains_false h.1, if_neg (by simp), if_neg (hst (py"| step") _ _ _ rfl (by decide) rfl (by decide) h.2.1),
    if_neg (hst (py"| gain") _ _ _ rfl (by decide) rfl (by decide) h.2.2)]

/-! ### The dipole -/

theorem DT_re : DIPOLE_TOTAL_RE.re = litThen (py"Total") (.seq (star sp) (.group 1 (plus wd))) := by decide +kernel
theorem DT_names : DIPOLE_TOTAL_RE.names = [(py"type", 1)] := by decide +kernel

theorem dip_none {l : Str} (h : ¬ Occurs (py"Total") l) : DIPOLE_TOTAL_RE.search l = none := by
  cases hm : DIPOLE_TOTAL_RE.search l with
  | none => rfl
  | some m =>
    obtain ⟨a, b, e, hl⟩ := search_found hm
    rw [DT_re] at hl
    obtain ⟨t, e2, -⟩ := lang_litThen hl
    exact absurd ⟨a, t ++ b, by rw [e, e2]; simp⟩ h

theorem dip_total {u g typ v : Str} (hu : c!"T" ∉ u) (hg : Blank g) (hne : typ ≠ []) (hw : ∀ c ∈ typ, isWord c = true)
    (hv : ∀ c, v.head? = some c → isWord c = false) :
    ∃ m, DIPOLE_TOTAL_RE.search (u ++ (py"Total" ++ (g ++ (typ ++ v)))) = some m ∧ m.named (py"type") = some typ := by
  have hget : Gets DIPOLE_TOTAL_RE.re u.reverse (py"Total" ++ (g ++ (typ ++ v))) [] (· = [(1, typ)]) := by
    rw [DT_re]
    refine Gets.lit _ _ (Gets.stars (fun c hc => by rw [has_sp]; exact hg c hc) ?_ (Gets.last (Gets.run (fun c hc => ?_) hne ?_ (Gets.eps rfl))))
    · obtain ⟨c, t, rfl⟩ := List.exists_cons_of_ne_nil hne
      intro d hd
      cases hd
      rw [has_sp]
      cases hsp : isSpace c with
      | false => rfl
      | true => rw [← hw c (by simp), isSpace_not_word hsp]
    · rw [has_wd]; exact hw c hc
    · intro c hc
      rw [has_wd]; exact hv c hc
  obtain ⟨t, h1, h2⟩ := hget
  have hm : DIPOLE_TOTAL_RE.matchAt u.reverse (py"Total" ++ (g ++ (typ ++ v))) =
      some ⟨u.reverse.reverse, St.upTo ⟨u.reverse, py"Total" ++ (g ++ (typ ++ v)), []⟩ t, t.post, t.caps, DIPOLE_TOTAL_RE.names, DIPOLE_TOTAL_RE.ngroups⟩ := by
    rw [Pat.matchAt_eq, h1]; rfl
  refine ⟨⟨u.reverse.reverse, St.upTo ⟨u.reverse, py"Total" ++ (g ++ (typ ++ v)), []⟩ t, t.post, t.caps, DIPOLE_TOTAL_RE.names, DIPOLE_TOTAL_RE.ngroups⟩,
    ?_, (named_eq (hc := h2) (hn := DT_names) _).trans rfl⟩
  rw [Pat.search, Pat.searchFrom_skip _ u [] _]
  · rw [List.append_nil]; exact Pat.searchFrom_of_matchAt hm
  · intro a b e hb
    cases hx : DIPOLE_TOTAL_RE.matchAt (a.reverse ++ []) (b ++ (py"Total" ++ (g ++ (typ ++ v)))) with
    | none => rfl
    | some m =>
      obtain ⟨e', -, hl, -⟩ := Pat.matchAt_some hx
      rw [DT_re] at hl
      obtain ⟨t, ht, -⟩ := lang_litThen hl
      obtain ⟨d, b', rfl⟩ := List.exists_cons_of_ne_nil hb
      rw [ht] at e'
      simp at e'
      exact absurd (show c!"T" ∈ u by rw [e, e'.1]; simp) hu

theorem dip_loop {rd fl : Numeral → F64} {ls : List Str} {xs : List Dipole} (h : Dipole.Table ls xs)
    (hv : ∀ x ∈ xs, ∀ n ∈ x.nums, n.Valid)
    (hr : ∀ x ∈ xs, ∀ n ∈ x.nums, parse_float_or_rational n.text = .ok (rd n) ∧ pyFloat n.text = .ok (fl n)) :
    ∀ (fuel : Nat) (d : Dict Key PyVal), ls.length < fuel →
      dipoleLoop fuel ls d = .ok ((xs.map (Dipole.entry rd fl)).foldl (fun d p => d.set p.1 p.2) d) := by
  induction h with
  | nil => intro fuel d hf; cases fuel with | zero => cases hf | succ n => rfl
  | skip hl _ ih =>
    intro fuel d hf
    obtain ⟨fuel, rfl⟩ : ∃ k, fuel = k + 1 := ⟨fuel - 1, by omega⟩
    rw [dipoleLoop, dip_none hl.1]
    dsimp only
    rw [IonTab.contains_false hl.2.1, IonTab.contains_false hl.2.2.1, IonTab.contains_false hl.2.2.2]
    exact ih hv hr fuel d (by simpa using hf)
  | @row a ls x xs hl _ ih =>
    intro fuel d hf
    obtain ⟨fuel, rfl⟩ : ∃ k, fuel = k + 1 := ⟨fuel - 1, by omega⟩
    have hx := hv x (by simp)
    have hrx := hr x (by simp)
    have ih := ih (fun x hm => hv x (by simp [hm])) (fun x hm => hr x (by simp [hm])) fuel
    rw [List.map_cons, List.foldl_cons]
    cases x with
    | total typ n =>
      obtain ⟨l, u, g, v, ns, rfl, hlu, hu, hg, hne, hw, hvv, hnum, hns⟩ := hl
      have hfl := Scf.floatAt_eq hnum (by intro m hm; rcases List.mem_cons.1 hm with rfl | hm; exacts [hx _ (by simp [Dipole.nums]), hns m hm]) 0 (n := n) rfl
      obtain ⟨m, hm, hnm⟩ := dip_total hu hg hne hw hvv
      rw [← hlu] at hm
      rw [List.singleton_append, dipoleLoop, hm]
      dsimp only
      rw [hfl, floatV_ok (hrx n (by simp [Dipole.nums])).2, hnm]
      exact ih _ (by simpa using hf)
    | centre elec ns =>
      obtain ⟨l, l2, rfl, h1, h2, h3, h4⟩ := hl
      have hn := numbersOf_of (rd := rd) h4 hx fun n hn => (hrx n hn).1
      rw [List.cons_append, List.singleton_append, dipoleLoop, dip_none h1]
      dsimp only
      rw [if_pos ((Str.contains_iff _ _).2 h2)]
      show (do let v ← numbersOf l2; dipoleLoop fuel ls (d.set (.str (if Str.contains (py"elec") l then py"centre_electronic" else py"centre_positive")) v)) = _
      rw [hn]
      have : Str.contains (py"elec") l = elec := by
        rw [Bool.eq_iff_iff, Str.contains_iff, h3]
      rw [this]
      refine ih _ ?_
      simp at hf; omega
    | magnitude n =>
      obtain ⟨l, ns, rfl, h1, h2, h3, h4, hns⟩ := hl
      have hfl := Scf.numAt_eq (typ := .float) h4 (by intro m hm; rcases List.mem_cons.1 hm with rfl | hm; exacts [hx _ (by simp [Dipole.nums]), hns m hm]) 0 (n := n) rfl
      rw [List.singleton_append, dipoleLoop, dip_none h1]
      dsimp only
      rw [IonTab.contains_false h2, if_neg (by simp), if_pos ((Str.contains_iff _ _).2 h3), hfl, toFloat (hrx n (by simp [Dipole.nums])).1]
      exact ih _ (by simpa using hf)
    | direction ns =>
      obtain ⟨l, rfl, h1, h2, h3, h4, h5⟩ := hl
      have hn := numbersOf_of (rd := rd) h5 hx fun n hn => (hrx n hn).1
      rw [List.singleton_append, dipoleLoop, dip_none h1]
      dsimp only
      rw [IonTab.contains_false h2, IonTab.contains_false h3, if_neg (by simp), if_neg (by simp), if_pos ((Str.contains_iff _ _).2 h4), hn]
      exact ih _ (by simpa using hf)

end LineTab
end Verif

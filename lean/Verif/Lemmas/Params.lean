import Verif.Model.CastepBlocks
import Verif.Spec.Params
import Verif.Lemmas.CastepWhole
import Verif.Lemmas.BandTable
import Verif.Lemmas.Memory
import Verif.Lemmas.TypeConv
/-
The list of parameters of a `.castep` file.
-/
namespace Verif.Castep
open Verif Spec Re NumRe AtomRe

namespace Params

/-! ### Titles -/

theorem replace_pass (w : Str) : ∀ (u b : Str), Str.replaceAux w [] u.length (u ++ b) = Str.replaceAux w [] 0 b
  | [], b => rfl
  | c :: u, b => by rw [List.length_cons, List.cons_append, Str.replaceAux]; exact replace_pass w u b

theorem replace_none {w : Str} : ∀ {s : Str}, ¬ Occurs w s → Str.replaceAux w [] 0 s = s
  | [], _ => rfl
  | c :: s, h => by
    have h1 : (w.isPrefixOf (c :: s)) = false := by
      cases hp : w.isPrefixOf (c :: s) with
      | false => rfl
      | true =>
        obtain ⟨t, e⟩ := List.isPrefixOf_iff_prefix.1 hp
        exact absurd ⟨[], t, by simp [e]⟩ h
    rw [Str.replaceAux, if_neg (by simp [h1]), replace_none]
    rintro ⟨a, b, rfl⟩
    exact h ⟨c :: a, b, by simp⟩

theorem replace_once {p : Nat} {w b : Str} (hp : p ∉ w) (hb : ¬ Occurs (p :: w) b) : ∀ {a : Str}, ¬ Occurs (p :: w) a →
    Str.replaceAux (p :: w) [] 0 (a ++ (p :: w ++ b)) = a ++ b
  | [], _ => by
    rw [List.nil_append, List.cons_append, Str.replaceAux, if_pos (by
      rw [List.isPrefixOf_iff_prefix]; exact ⟨b, by simp⟩)]
    rw [show (p :: w).length - 1 = w.length by simp, replace_pass, replace_none hb]
  | c :: a, h => by
    rw [List.cons_append, Str.replaceAux, if_neg, replace_once hp hb (a := a)]
    · rfl
    · rintro ⟨x, y, rfl⟩
      exact h ⟨c :: x, y, by simp⟩
    · intro hx
      obtain ⟨t, e⟩ := List.isPrefixOf_iff_prefix.1 hx
      rw [← List.cons_append] at e
      rcases List.append_eq_append_iff.1 e with ⟨y, h1, h2⟩ | ⟨y, h1, h2⟩
      · exact h ⟨[], y, by simpa using h1⟩
      · cases y with
        | nil => exact h ⟨[], [], by simpa using h1.symm⟩
        | cons z y =>
          simp at h1 h2
          obtain ⟨rfl, -⟩ := h2
          exact hp (by rw [h1.2]; simp)

theorem replace_dropped {title rest : Str} (h : Dropped (py"Parameters") title rest) : Str.replace (py"Parameters") [] title = rest := by
  rcases h with ⟨h1, rfl⟩ | ⟨a, b, rfl, h1, h2, rfl⟩
  · exact replace_none h1
  · exact replace_once (by decide) h2 h1

def titleSet : CSet := ⟨false, [.range 65 90, .range 97 122, .ch 32, .ch 45], false⟩

theorem has_title {c : Nat} : titleSet.has c = true ↔ titleChar c := by
  simp [titleSet, CSet.has, CItem.has, titleChar, isAlpha, isLower, isUpper]
  omega

theorem GROUP_eq : PARAM_GROUP_RE = ⟨.seq (star sp) (.seq (plus (ch 42)) (.seq (.set (ch 32)) (.seq (.group 1 (plus titleSet)) (.seq (.set (ch 32)) (plus (ch 42)))))), [], 1⟩ := by
  decide +kernel

theorem group_match {l title : Str} (h : TitleLine l title) : ∃ m, PARAM_GROUP_RE.match_ l = some m ∧ m.group 1 = some title := by
  obtain ⟨g, s, t, more, rfl, hg, ⟨hs0, hs⟩, ⟨ht0, ht⟩, h0, hc⟩ := h
  obtain ⟨t0, t, rfl⟩ := List.exists_cons_of_ne_nil ht0
  obtain ⟨s0, s, rfl⟩ := List.exists_cons_of_ne_nil hs0
  have e0 : t0 = 42 := ht t0 (by simp)
  have e1 : s0 = 42 := hs s0 (by simp)
  subst e0 e1
  have star42 : ∀ c, (ch 42).has c = true ↔ c = 42 := by intro c; simp [CSet.has, CItem.has]
  suffices hG : Gets PARAM_GROUP_RE.re [] (g ++ ((42 :: s) ++ 32 :: (title ++ 32 :: ((42 :: t) ++ more)))) [] (fun c => c = [(1, title)]) by
    obtain ⟨m, h1, h2, -⟩ := hG.match_
    exact ⟨m, h1, by rw [Match.group, h2]; rfl⟩
  rw [GROUP_eq]
  apply Gets.stars (fun c hc => by rw [has_sp]; exact hg c hc) (by intro c hc; cases hc; decide)
  apply Gets.pluses (fun c hc => (star42 c).2 (hs c hc)) (by simp) (by intro c hc; cases hc; decide)
  refine Gets.lit [32] _ ?_
  apply Gets.runBack (fun c h => has_title.2 (hc c h)) h0 (by decide) (by intro c hc; cases hc; decide)
  · intro caps
    apply run_none
    rintro w t hst ⟨u, v, rfl, ⟨d, hd, rfl⟩, -⟩
    exfalso
    have := hst.post
    simp at this
    rw [← this.1] at hd
    revert hd; decide
  · refine Gets.lit [32] _ (Gets.last ?_)
    have hmax : ∃ u v, t ++ more = u ++ v ∧ (∀ c ∈ u, c = 42) ∧ Stops (ch 42) v :=
      ⟨(t ++ more).takeWhile (· == 42), (t ++ more).dropWhile (· == 42), by simp, fun c hc => by simpa using mem_takeWhile hc, by
        intro c hc
        have := List.head?_dropWhile_not (· == 42) (t ++ more)
        rw [hc] at this
        simpa [CSet.has, CItem.has] using this⟩
    obtain ⟨u, v, e, hu, hv⟩ := hmax
    rw [show 42 :: t.append more = (42 :: u) ++ v from congrArg (42 :: ·) e]
    exact Gets.pluses (fun c hc => (star42 c).2 (by rcases List.mem_cons.1 hc with h | h; exact h; exact hu c h)) (by simp) hv (Gets.eps rfl)

theorem lang_stars {g : Bool} {mn : Nat} {mx : Option Nat} {cs : CSet} {w : Str} (h : Lang (.rep g mn mx (.set cs)) w) : ∀ c ∈ w, cs.has c = true :=
  ((lang_rep_set ..).1 h).1

theorem group_miss {l : Str} (h : ∀ t, ¬ TitleLine l t) : PARAM_GROUP_RE.match_ l = none := by
  cases hm : PARAM_GROUP_RE.match_ l with
  | none => rfl
  | some m =>
    obtain ⟨b, e, hl⟩ := match_found hm
    rw [GROUP_eq] at hl
    obtain ⟨u1, v1, e1, hu1, u2, v2, rfl, hu2, u3, v3, rfl, ⟨c3, hc3, rfl⟩, u4, v4, rfl, hu4, u5, v5, rfl, ⟨c5, hc5, rfl⟩, hv5⟩ := hl
    have x3 : c3 = 32 := by simpa [CSet.has, CItem.has] using hc3
    have x5 : c5 = 32 := by simpa [CSet.has, CItem.has] using hc5
    subst x3 x5
    have star42 : ∀ c, (ch 42).has c = true → c = 42 := by intro c; simp [CSet.has, CItem.has]
    have ne : ∀ {cs : CSet} {w : Str}, Lang (plus cs) w → w ≠ [] := by
      intro cs w hw
      have := ((lang_rep_set ..).1 hw).2.1
      intro h0; subst h0; simp at this
    refine absurd ⟨u1, u2, v5, b, ?_, fun c hc => by rw [← has_sp]; exact lang_stars hu1 c hc, ⟨ne hu2, fun c hc => star42 c (lang_stars hu2 c hc)⟩,
      ⟨ne hv5, fun c hc => star42 c (lang_stars hv5 c hc)⟩, ne (cs := titleSet) hu4, fun c hc => has_title.1 (lang_stars (g := true) (mn := 1) (mx := none) hu4 c hc)⟩ (h u4)
    rw [e, e1]; simp

/-! ### Units -/

def line : CSet := ⟨true, [.ch 10], false⟩

theorem has_line {c : Nat} : line.has c = true ↔ c ≠ 10 := by simp [line, CSet.has, CItem.has]

abbrev UNITR : Re := litThen (py" unit") (.seq (star sp) (.seq (.set (ch 58)) (.seq (star sp) (.group 2 (star line)))))

theorem UNIT_eq : OUTPUT_UNIT_RE.re = .seq (star sp) (litThen (py"output ") (.seq (.group 1 (star line)) UNITR)) := by decide +kernel

theorem UNIT_names : OUTPUT_UNIT_RE.names = [(py"key", 1), (py"val", 2)] := by decide +kernel

theorem stops_of_head {s : Str} (h : ∀ c, s.head? = some c → isSpace c = false) : Stops sp s := by
  intro c hc; rw [has_sp]; exact h c hc

theorem lastStar {i : Nat} {cs : CSet} {w s pre : Str} {caps} {C : List (Nat × Str) → Prop} (hw : ∀ c ∈ w, cs.has c = true) (hs : Stops cs s)
    (h : C ((i, w) :: caps)) : Gets (.group i (star cs)) pre (w ++ s) caps C := by
  refine ⟨⟨w.reverse ++ pre, s, (i, w) :: caps⟩, ?_, h⟩
  rw [run_group]
  apply run_star_all cs w _ _ _ _ _ _ hw hs (by simp)
  rw [upTo_append]

theorem unit_match {l q v : Str} (h : UnitLine l q v) :
    ∃ m, OUTPUT_UNIT_RE.match_ l = some m ∧ m.named (py"key") = some q ∧ m.named (py"val") = some v := by
  obtain ⟨g, g2, g3, e, rfl, hg, hg2, hg3, he, hn, hv, hu⟩ := h
  suffices hG : Gets OUTPUT_UNIT_RE.re [] (g ++ (py"output " ++ (q ++ (py" unit" ++ (g2 ++ c!":" :: (g3 ++ (v ++ e))))))) [] (fun c => c = [(2, v), (1, q)]) by
    obtain ⟨m, h1, h2, h3⟩ := hG.match_
    rw [UNIT_names] at h3
    exact ⟨m, h1, by rw [named_eq h2 h3]; rfl, by rw [named_eq h2 h3]; rfl⟩
  simp only [List.mem_append, not_or] at hn
  rw [UNIT_eq]
  apply Gets.stars (fun c hc => by rw [has_sp]; exact hg c hc) (by intro c hc; cases hc; decide)
  apply Gets.lit
  obtain ⟨t, ht, hC⟩ : Gets UNITR (q.reverse ++ ((py"output ").reverse ++ (g.reverse ++ []))) (py" unit" ++ (g2 ++ c!":" :: (g3 ++ (v ++ e)))) [(1, q)] (fun c => c = [(2, v), (1, q)]) := by
    apply Gets.lit
    apply Gets.stars (fun c hc => by rw [has_sp]; exact hg2 c hc) (by intro c hc; cases hc; decide)
    refine Gets.lit [58] _ ?_
    apply Gets.stars (fun c hc => by rw [has_sp]; exact hg3 c hc) (stops_of_head hv)
    refine lastStar (fun c hc => has_line.2 (by rintro rfl; exact hn.2 hc)) ?_ rfl
    intro c hc
    rcases he with rfl | rfl
    · cases hc
    · cases hc; decide
  refine ⟨t, ?_, hC⟩
  rw [run_seq, run_group]
  have hve : Stops line e := by
    intro c hc
    rcases he with rfl | rfl
    · cases hc
    · cases hc; decide
  have := run_star_give line e hve (py" unit" ++ (g2 ++ c!":" :: (g3 ++ v))) (by
      intro c hc
      rw [has_line]
      rintro rfl
      simp only [List.mem_append, List.mem_cons] at hc
      rcases hc with hc | hc | hc | hc | hc
      · revert hc; decide
      · exact hn.1.1.2 hc
      · revert hc; decide
      · exact hn.1.2 hc
      · exact hn.2 hc) q ((py"output ").reverse ++ (g.reverse ++ [])) []
    (fun s => run UNITR ⟨s.pre, s.post, (1, St.upTo ⟨(py"output ").reverse ++ (g.reverse ++ []), q ++ ((py" unit" ++ (g2 ++ c!":" :: (g3 ++ v))) ++ e), []⟩ s) :: s.caps⟩ some) t
    (fun c hc => has_line.2 (by rintro rfl; exact hn.1.1.1 hc)) ?_ ?_
  · simpa using this
  · intro a b hab ha
    dsimp only
    apply run_none
    intro w t hst hw
    exfalso
    obtain ⟨x, rfl, -⟩ := lang_litThen hw
    have e1 := hst.post
    simp only [List.append_assoc] at e1
    have e2 : a ++ (py" unit" ++ (x ++ t.post)) = py" unit" ++ (g2 ++ c!":" :: (g3 ++ (v ++ e))) := by
      rw [← e1, ← List.append_assoc, ← hab]; simp
    obtain ⟨a0, a, rfl⟩ := List.exists_cons_of_ne_nil ha
    rcases List.append_eq_append_iff.1 e2 with ⟨y, h1, h2⟩ | ⟨y, h1, h2⟩
    · cases y with
      | nil => 
        simp at h1 h2
        exact hu ⟨[], x ++ t.post, by rw [← h2]; simp⟩
      | cons z y =>
        have : z = 32 := by simp at h2; exact h2.1.symm
        subst this
        have h3 : py"unit" = a ++ 32 :: y := by simpa using congrArg List.tail h1
        have : 32 ∈ py"unit" := by rw [h3]; simp
        revert this; decide
    · exact hu ⟨y, x ++ t.post, by rw [h2]; simp⟩
  · dsimp only
    rw [upTo_append]
    simpa using ht

theorem unit_miss {l : Str} (h : ¬ UnitLike l) : OUTPUT_UNIT_RE.match_ l = none := by
  cases hm : OUTPUT_UNIT_RE.match_ l with
  | none => rfl
  | some m =>
    obtain ⟨b, e, hl⟩ := match_found hm
    rw [UNIT_eq] at hl
    obtain ⟨u1, v1, e1, hu1, hv1⟩ := hl
    obtain ⟨t, rfl, u2, v2, rfl, hu2, hv2⟩ := lang_litThen hv1
    obtain ⟨t, rfl, u3, v3, rfl, hu3, u4, v4, rfl, ⟨c, hc, rfl⟩, -⟩ := lang_litThen hv2
    have x : c = 58 := by simpa [CSet.has, CItem.has] using hc
    subst x
    refine absurd ⟨u1, u2, u3, v4 ++ b, ?_, fun c hc => by rw [← has_sp]; exact lang_stars hu1 c hc,
      fun c hc => by rw [← has_sp]; exact lang_stars hu3 c hc, fun hc => has_line.1 (lang_stars (g := true) (mn := 0) (mx := none) hu2 10 hc) rfl⟩ h
    rw [e, e1]; simp

/-! ### Values -/

set_option maxRecDepth 4000

theorem split_join {ws : List Str} (h : ∀ w ∈ ws, w ≠ [] ∧ ∀ c ∈ w, isSpace c = false) : Str.split (Str.join (py" ") ws) = ws := by
  have e : ∀ (w : Str) (ws : List Str), Str.join (py" ") (w :: ws) = ((w :: ws).dropLast.map (fun w => (w, py" ")) ++ [((w :: ws).getLast (by simp), [])]).flatMap fun q : Str × Str => q.1 ++ q.2 := by
    intro w ws
    induction ws generalizing w with
    | nil => simp [Str.join]
    | cons a ws ih =>
      rw [Str.join, ih]
      · simp
  cases ws with
  | nil => rfl
  | cons w ws =>
    rw [e]
    have := Str.split_words [] ((w :: ws).dropLast.map (fun w => (w, py" ")) ++ [((w :: ws).getLast (by simp), [])]) (by simp) (by
      intro q hq
      rcases List.mem_append.1 hq with hq | hq
      · obtain ⟨x, hx, rfl⟩ := List.mem_map.1 hq
        have := h x (List.dropLast_subset _ hx)
        exact ⟨this.1, this.2, by simp [isSpace]⟩
      · obtain rfl := List.mem_singleton.1 hq
        have := h _ (List.getLast_mem (l := w :: ws) (by simp))
        exact ⟨this.1, this.2, by simp⟩) (by
      intro q hq
      rw [List.dropLast_concat] at hq
      obtain ⟨x, hx, rfl⟩ := List.mem_map.1 hq
      simp)
    rw [List.nil_append] at this
    rw [this, List.map_append, List.map_map]
    show (w :: ws).dropLast.map (fun w => w) ++ [(w :: ws).getLast _] = _
    rw [List.map_id', List.dropLast_concat_getLast]

theorem fields_words {s : Str} {ws : List Str} (h : Fields s ws) : ∀ w ∈ ws, w ≠ [] ∧ ∀ c ∈ w, isSpace c = false := by
  rw [← (fields_iff _ _).1 h]
  obtain ⟨l, lead, -, h2, -, h4, -⟩ := Str.split_spec s
  rw [h2]
  intro w hw
  obtain ⟨q, hq, rfl⟩ := List.mem_map.1 hw
  exact ⟨(h4 q hq).1, (h4 q hq).2.1⟩

theorem number_found {n : Numeral} (hn : n.Valid) {rest : Str} (hr : EndsNumber rest) : (Res.NUMBER_RE.match_ (n.text ++ rest)).isSome = true := by
  rw [NUMBER_eq, Pat.match_, Pat.matchAt_eq, run_N n hn [] rest [] some _ (by simp) hr rfl]
  rfl

theorem number_typed {rd : Numeral → F64} {n : Numeral} (hn : n.Valid) (h : parse_float_or_rational n.text = .ok (rd n)) :
    to_type (determine_type n.text) (.str n.text) = .ok (OptValue.ofNumber rd n) := by
  have ht := determine_type_number [] [] n hn (by simp) EndsNumber.nil (by simp)
  simp only [List.nil_append, List.append_nil] at ht
  rw [ht, OptValue.ofNumber]
  by_cases hi : n.IsInt
  · rw [if_pos hi, if_pos hi, to_type]
    show (pyInt n.text).map PyVal.int = _
    rw [(pyInt_isInt n hn hi).1]
    rfl
  · rw [if_neg hi, if_neg hi, LineTab.toFloat h]

theorem option_value {rd : Numeral → F64} {b : Str} {v : OptValue} (hb : Fields b v.words) (h : v.Ok) (hr : ∀ n ∈ v.nums, parse_float_or_rational n.text = .ok (rd n)) :
    optionValue (normalise_string b) = .ok (v.val rd) := by
  have hs : Str.split (normalise_string b) = v.words := by rw [normalise_words hb, split_join (fields_words hb)]
  have hf : ∀ n : Numeral, n.Valid → (Res.NUMBER_RE.match_ n.text).isSome = true := fun n hn => by
    have := number_found hn EndsNumber.nil
    rwa [List.append_nil] at this
  rw [optionValue, hs]
  cases v with
  | number n us =>
    rw [OptValue.words]
    dsimp only
    rw [if_pos (hf n h.1), number_typed h.1 (hr n (by simp [OptValue.nums]))]
    cases us <;> rfl
  | text ws =>
    rw [normalise_words hb]
    rw [OptValue.words]
    cases ws with
    | nil => rfl
    | cons w ws =>
      dsimp only
      rw [if_neg]
      · rfl
      cases hm : Res.NUMBER_RE.match_ w with
      | none => simp
      | some m =>
        obtain ⟨x, e, hl⟩ := match_found hm
        rw [NUMBER_eq] at hl
        obtain ⟨n, hn, e2⟩ := lang_N hl
        exact absurd ⟨x, by rw [← e2]; exact e.symm⟩ (h w (by simp) n hn)

/-! ### The list -/

abbrev U : Key := .str (py"output_units")

def groupAt (gs : List (Str × List (Key × PyVal))) : Key → Option PyVal
  | .str g => (lastGroup gs g).map fun o => .dict (Dict.ofList o.2)
  | _ => none

def lookup (gs : List (Str × List (Key × PyVal))) (us : List (Key × PyVal)) (k : Key) : Option PyVal :=
  if k = U then if us = [] then none else some (.dict (Dict.ofList us))
  else groupAt gs k

structure Inv (s : ParamState) (gs : List (Str × List (Key × PyVal))) (us : List (Key × PyVal)) (cur : Str) (opts : List (Key × PyVal)) : Prop where
  nodup : s.opt.keys.Nodup
  get : ∀ k, s.opt.get? k = lookup gs us k
  group : s.group = cur
  curr : s.curr = Dict.ofList opts
  name : cur ≠ py"output_units"

theorem lastGroup_snoc (gs : List (Str × List (Key × PyVal))) (cur g : Str) (opts : List (Key × PyVal)) :
    lastGroup (gs ++ [(cur, opts)]) g = if opts ≠ [] ∧ cur = g then some (cur, opts) else lastGroup gs g := by
  rw [lastGroup, List.reverse_append, List.reverse_singleton, List.singleton_append, List.find?_cons]
  cases opts with
  | nil => simp [lastGroup]
  | cons o opts =>
    by_cases h : cur = g
    · simp [h]
    · have : (cur == g) = false := by simpa using h
      simp [h, this, lastGroup]

theorem ofList_snoc (es : List (Key × PyVal)) (k : Key) (v : PyVal) : Dict.ofList (es ++ [(k, v)]) = (Dict.ofList es).set k v := by
  rw [Dict.ofList, List.foldl_append]; rfl

theorem set_ne_nil (d : Dict Key PyVal) (k : Key) (v : PyVal) : d.set k v ≠ [] := by
  intro h
  have := Dict.get?_set_self d k v
  rw [h] at this
  cases this

theorem ofList_nil_iff {es : List (Key × PyVal)} : (Dict.ofList es).isEmpty = true ↔ es = [] := by
  rcases List.eq_nil_or_concat es with rfl | ⟨es, e, rfl⟩
  · simp [Dict.ofList]
  · obtain ⟨k, v⟩ := e
    rw [List.concat_eq_append, ofList_snoc]
    simp [set_ne_nil]

theorem flush_inv {s : ParamState} {gs us cur opts} (h : Inv s gs us cur opts) :
    s.flush.keys.Nodup ∧ ∀ k, s.flush.get? k = lookup (gs ++ [(cur, opts)]) us k := by
  rw [ParamState.flush]
  by_cases ho : opts = []
  · rw [if_pos (by rw [h.curr]; exact ofList_nil_iff.2 ho)]
    refine ⟨h.nodup, fun k => ?_⟩
    rw [h.get k, lookup, lookup]
    congr 1
    cases k with
    | str g => rw [groupAt, groupAt, lastGroup_snoc, if_neg (by simp [ho])]
    | _ => rfl
  · rw [if_neg (by rw [h.curr, ofList_nil_iff]; exact ho)]
    refine ⟨Dict.nodup_set _ _ _ h.nodup, fun k => ?_⟩
    rw [Dict.get?_set, h.group, h.curr, h.get k]
    by_cases hk : Key.str cur = k
    · subst hk
      rw [if_pos rfl, lookup, if_neg (by intro e; exact h.name (by injection e)), groupAt, lastGroup_snoc, if_pos ⟨ho, rfl⟩]
      rfl
    · rw [if_neg hk, lookup, lookup]
      congr 1
      cases k with
      | str g => rw [groupAt, groupAt, lastGroup_snoc, if_neg (by rintro ⟨-, rfl⟩; exact hk rfl)]
      | _ => rfl

/-- The name of a group has no underscore. -/
theorem group_name {title rest : Str} {ws : List Str} (h : ∀ c ∈ title, titleChar c) (hd : Dropped (py"Parameters") title rest) (hw : Fields rest ws) :
    Str.lower (Str.join (py" ") ws) ≠ py"output_units" := by
  intro e
  have h1 : ∀ c ∈ rest, titleChar c := by
    rcases hd with ⟨-, rfl⟩ | ⟨a, b, rfl, -, -, rfl⟩
    · exact h
    · intro c hc
      refine h c ?_
      rcases List.mem_append.1 hc with hc | hc <;> simp [hc]
  have h2 : ∀ w ∈ ws, ∀ c ∈ w, c ∈ rest := by
    rw [← (fields_iff _ _).1 hw]
    obtain ⟨l, lead, h1, h2, -, h4, -⟩ := Str.split_spec rest
    rw [h2]
    intro w hw c hc
    obtain ⟨q, hq, rfl⟩ := List.mem_map.1 hw
    rw [h1]
    refine List.mem_append.2 (.inr (List.mem_flatMap.2 ⟨q, hq, by simp [hc]⟩))
  have h3 := (Str.join_clean titleChar 32 ws fun w hw' => ⟨(fields_words hw w hw').1, fun c hc => h1 c (h2 w hw' c hc)⟩).1
  have h4 : (95 : Nat) ∈ Str.lower (Str.join (py" ") ws) := by rw [e]; decide
  obtain ⟨c, hc, hx⟩ := List.mem_map.1 h4
  have := lowerC_cases c
  rcases h3 c hc with h5 | rfl
  · simp [titleChar, isAlpha, isLower, isUpper] at h5
    omega
  · revert hx; decide

theorem line_step {rd : Numeral → F64} {s : ParamState} {gs us cur opts} {l : Str} {i : ParamItem} {rest : List ParamItem} (h : Inv s gs us cur opts) (hl : i.Line l) (hr : ∀ n ∈ i.nums, parse_float_or_rational n.text = .ok (rd n)) :
    ∃ s' gs' us' cur' opts', paramLine s l = .ok s' ∧ Inv s' gs' us' cur' opts' ∧
      gs ++ paramGroups rd cur opts (i :: rest) = gs' ++ paramGroups rd cur' opts' rest ∧ us ++ paramUnits (i :: rest) = us' ++ paramUnits rest := by
  cases i with
  | group name =>
    obtain ⟨-, title, r, ws, ht, hd, hw, rfl⟩ := hl
    obtain ⟨m, h1, h2⟩ := group_match ht
    obtain ⟨f1, f2⟩ := flush_inv h
    refine ⟨⟨s.flush, [], Str.lower (Str.join (py" ") ws)⟩, gs ++ [(cur, opts)], us, _, [], ?_, ⟨f1, f2, rfl, rfl, ?_⟩, by simp [paramGroups], by simp [paramUnits]⟩
    · rw [paramLine, h1]
      dsimp only
      rw [h2, Option.getD_some, replace_dropped hd, normalise_words hw]
    · obtain ⟨-, -, -, -, -, -, -, -, -, hc⟩ := ht
      exact group_name hc hd hw
  | unit q v =>
    obtain ⟨-, a, b, qs, vs, hu, ha, hb, rfl, rfl⟩ := hl
    obtain ⟨m, h1, h2, h3⟩ := unit_match hu
    have hmiss : PARAM_GROUP_RE.match_ l = none := by
      apply group_miss
      rintro t ⟨g', s', t', more, e, hg', ⟨hs0, hs⟩, -⟩
      obtain ⟨g, g2, g3, e', rfl, hg, -⟩ := hu
      obtain ⟨s0, s', rfl⟩ := List.exists_cons_of_ne_nil hs0
      obtain rfl : s0 = 42 := hs s0 (by simp)
      have k1 : (g ++ (py"output " ++ (a ++ (py" unit" ++ (g2 ++ c!":" :: (g3 ++ (b ++ e'))))))).dropWhile isSpace = py"output " ++ (a ++ (py" unit" ++ (g2 ++ c!":" :: (g3 ++ (b ++ e'))))) := by
        rw [List.dropWhile_append_of_pos (by exact hg)]; rfl
      rw [e, List.dropWhile_append_of_pos (by exact hg')] at k1
      exact absurd k1 (by simp [List.dropWhile, isSpace])
    refine ⟨{ s with opt := s.opt.set U (.dict (Dict.ofList (us ++ [(.str (Str.join (py" ") qs), .str (Str.join (py" ") vs))]))) }, gs, us ++ [(.str (Str.join (py" ") qs), .str (Str.join (py" ") vs))], cur, opts, ?_,
      ⟨Dict.nodup_set _ _ _ h.nodup, fun k => ?_, h.group, h.curr, h.name⟩, by simp [paramGroups], by simp [paramUnits]⟩
    · rw [paramLine, hmiss, h1]
      dsimp only
      rw [h2, h3, Option.getD_some, Option.getD_some, setUnit, normalise_words ha, normalise_words hb, setIn, Magres.setSub]
      have hg := h.get U
      rw [lookup, if_pos rfl] at hg
      rw [ofList_snoc]
      by_cases hus : us = []
      · rw [if_pos hus] at hg
        have hm : s.opt.mem U = false := by
          cases hm : s.opt.mem U with
          | false => rfl
          | true => exact absurd ((mem_keys_iff _ _).2 hm) ((Dict.get?_eq_none _ _).1 hg)
        rw [ensure, if_neg (by rw [hm]; simp), Dict.get?_set_self]
        dsimp only
        rw [set_set, hus]
        rfl
      · rw [if_neg hus] at hg
        have hm : s.opt.mem U = true := (mem_keys_iff _ _).1 (by
          by_contra hc
          rw [(Dict.get?_eq_none _ _).2 hc] at hg
          cases hg)
        rw [ensure, if_pos hm, hg]
        rfl
    · rw [Dict.get?_set]
      split
      · rename_i e
        subst e
        rw [lookup, if_pos rfl, if_neg (by simp)]
      · rename_i e
        rw [h.get k, lookup, lookup, if_neg (Ne.symm e), if_neg (Ne.symm e)]
  | option name v =>
    obtain ⟨-, ht, hu, a, b, ns, rfl, ha, hb, hns, hvs, rfl, hv⟩ := hl
    refine ⟨{ s with curr := s.curr.set (.str (Str.join (py" ") ns)) (v.val rd) }, gs, us, cur, opts ++ [(.str (Str.join (py" ") ns), v.val rd)], ?_,
      ⟨h.nodup, h.get, h.group, by rw [ofList_snoc, ← h.curr], h.name⟩, by simp [paramGroups], by simp [paramUnits]⟩
    rw [paramLine, group_miss ht, unit_miss hu]
    dsimp only
    rw [splitC_append _ _ _ ha, splitC_of_notMem _ _ hb]
    show (do let v ← optionValue (normalise_string b); pure { s with curr := s.curr.set (.str (Str.strip (normalise_string a))) v }) = _
    rw [option_value hvs hv hr, strip_words hns]
    rfl
  | nothing =>
    obtain ⟨-, ht, hc⟩ := hl
    refine ⟨s, gs, us, cur, opts, ?_, h, by simp [paramGroups], by simp [paramUnits]⟩
    rw [paramLine, group_miss ht, unit_miss (by
      rintro ⟨g, q, g2, v, rfl, -⟩
      exact hc (by simp))]
    dsimp only
    rw [splitC_of_notMem _ _ hc]
    rfl

theorem dev_names : Names DEVELOPER_RE (py"Developer Code") := names_lit (by decide +kernel)

theorem line_plain {l : Str} {i : ParamItem} (h : i.Line l) : ¬ Occurs (py"Developer Code") l := by
  cases i <;> exact h.1

theorem loop_prefix {rd : Numeral → F64} {lines : List Str} {items : List ParamItem} (hl : List.Forall₂ (fun l i => ParamItem.Line l i) lines items)
    (hr : ∀ i ∈ items, ∀ n ∈ i.nums, parse_float_or_rational n.text = .ok (rd n)) (more : List Str) :
    ∀ {fuel : Nat} {s : ParamState} {gs us cur opts}, Inv s gs us cur opts →
      ∃ s' gs' us' cur' opts', paramLoop (fuel + lines.length) (lines ++ more) s = paramLoop fuel more s' ∧ Inv s' gs' us' cur' opts' ∧
        gs ++ paramGroups rd cur opts items = gs' ++ [(cur', opts')] ∧ us ++ paramUnits items = us' := by
  induction hl with
  | nil => intro fuel s gs us cur opts h; exact ⟨s, gs, us, cur, opts, rfl, h, rfl, by simp [paramUnits]⟩
  | @cons l i ls is hl _ ih =>
    intro fuel s gs us cur opts h
    obtain ⟨s1, gs', us', cur', opts', h1, h2, h3, h4⟩ := line_step (rest := is) h hl (hr i (by simp))
    obtain ⟨s', gs'', us'', cur'', opts'', h5, h6, h7, h8⟩ := ih (fun i hi => hr i (by simp [hi])) (fuel := fuel) h2
    refine ⟨s', gs'', us'', cur'', opts'', ?_, h6, by rw [h3, h7], by rw [h4, h8]⟩
    rw [List.length_cons, ← Nat.add_assoc, List.cons_append, paramLoop, tryBlock_miss dev_names (line_plain hl)]
    show (do let s ← paramLine s l; paramLoop _ _ s) = _
    rw [h1]
    exact h5

theorem inv_start : Inv {} [] [] [] [] :=
  ⟨by simp [Dict.keys], fun k => by
    rw [lookup]
    split
    · rfl
    · cases k <;> rfl, rfl, rfl, by decide⟩

/-- No group has the name of the units. -/
theorem no_units {rd : Numeral → F64} {lines : List Str} {items : List ParamItem} (hl : List.Forall₂ (fun l i => ParamItem.Line l i) lines items) :
    lastGroup (paramGroups rd [] [] items) (py"output_units") = none := by
  have key : ∀ {cur : Str} {opts}, cur ≠ py"output_units" → ∀ g ∈ paramGroups rd cur opts items, g.1 ≠ py"output_units" := by
    induction hl with
    | nil => intro cur opts hc g hg; obtain rfl := List.mem_singleton.1 hg; exact hc
    | @cons l i ls is hl _ ih =>
      intro cur opts hc g hg
      cases i with
      | group name =>
        rcases List.mem_cons.1 hg with rfl | hg
        · exact hc
        · refine ih ?_ g hg
          obtain ⟨-, title, r, ws, ht, hd, hw, rfl⟩ := hl
          obtain ⟨-, -, -, -, -, -, -, -, -, hc⟩ := ht
          exact group_name hc hd hw
      | option name v => exact ih hc g hg
      | unit q v => exact ih hc g hg
      | nothing => exact ih hc g hg
  rw [lastGroup, List.find?_eq_none]
  intro g hg
  have := key (cur := []) (opts := []) (by decide) g (List.mem_reverse.1 hg)
  simp [this]

theorem params_ok {rd : Numeral → F64} {lines : List Str} {items : List ParamItem} (hl : List.Forall₂ (fun l i => ParamItem.Line l i) lines items)
    (hr : ∀ i ∈ items, ∀ n ∈ i.nums, parse_float_or_rational n.text = .ok (rd n)) :
    ∃ d, process_params lines = .ok (.dict d) ∧ ParamDict rd items d := by
  obtain ⟨s', gs', us', cur', opts', h1, h0, e1, e2⟩ := loop_prefix hl hr [] (fuel := 1) inv_start
  rw [List.append_nil, Nat.add_comm] at h1
  obtain ⟨h2, h3⟩ := flush_inv h0
  rw [← e1, ← e2] at h3
  simp only [List.nil_append] at h3
  refine ⟨s'.flush, by rw [process_params, h1]; rfl, h2, fun k => ?_, fun v hv => ?_, fun g o v ho hv => ?_⟩
  · have : k ∈ s'.flush.map Prod.fst ↔ (lookup (paramGroups rd [] [] items) (paramUnits items) k).isSome = true := by
      rw [← h3 k]
      show k ∈ s'.flush.keys ↔ _
      rw [← not_iff_not, ← Dict.get?_eq_none]
      simp
    rw [this, lookup]
    by_cases hk : k = U
    · rw [if_pos hk]
      have hno : ∀ g, k = .str g → lastGroup (paramGroups rd [] [] items) g = none := by
        rintro g rfl
        injection hk with hk
        subst hk
        exact no_units hl
      by_cases hu : paramUnits items = []
      · simp only [if_pos hu, Option.isSome_none, Bool.false_eq_true, false_iff, not_or, not_and, not_exists]
        exact ⟨fun _ => by simp [hu], fun g hg => by simp [hno g hg]⟩
      · simp [if_neg hu, hk, hu]
    · rw [if_neg hk]
      cases k with
      | str g =>
        rw [groupAt, Option.isSome_map]
        simp [hk]
      | _ => simp [groupAt]
  · have := Dict.get?_some_of_mem _ h2 _ _ hv
    rw [h3, lookup, if_pos rfl] at this
    split at this
    · cases this
    · injection this with this
      exact ⟨_, this.symm, LineTab.lastWins _⟩
  · have := Dict.get?_some_of_mem _ h2 _ _ hv
    rw [h3, lookup, if_neg, groupAt, ho] at this
    · injection this with this
      exact ⟨_, this.symm, LineTab.lastWins _⟩
    · intro e
      injection e with e
      subst e
      rw [no_units hl] at ho
      cases ho

/-! ### Words that begin with digits -/

theorem digits_fail {ds r : Str} {c : Nat} (hd : Numeral.AllDigits ds) (h0 : ds ≠ []) (hc : isDigit c = false) (hx : c ∉ py".eE+-/_")
    (hs : ∀ x ∈ ds ++ c :: r, isSpace x = false) :
    (Res.NUMBER_RE.match_ (ds ++ c :: r)).isSome = true ∧ to_type (determine_type (ds ++ c :: r)) (.str (ds ++ c :: r)) = .error .valueError := by
  simp only [List.mem_cons, List.not_mem_nil, or_false, not_or] at hx
  have hn : (⟨none, ds, none, none⟩ : Numeral).Valid := by
    refine ⟨hd, ?_, ?_, ?_⟩ <;> simp [h0, Numeral.AllDigits]
  have ht : (⟨none, ds, none, none⟩ : Numeral).text = ds := by simp [Numeral.text, Numeral.signText, Numeral.fracText, Numeral.expText]
  have he : EndsNumber (c :: r) := ⟨by simp [hc], by simp; omega, by simp; omega, by simp; omega⟩
  refine ⟨?_, ?_⟩
  · have := number_found hn he
    rwa [ht] at this
  · have := determine_type_number [] (c :: r) _ hn (by simp) he (by simp; omega)
    rw [List.nil_append, ht, if_pos (by exact ⟨rfl, rfl⟩)] at this
    rw [this, to_type]
    show (pyInt (ds ++ c :: r)).map PyVal.int = _
    rw [pyInt, strip_of_nospace hs]
    have h1 := takeSign_text none (ds ++ c :: r) (by
      intro x hx'
      obtain ⟨d, ds, rfl⟩ := List.exists_cons_of_ne_nil h0
      cases hx'
      have := hd x (by simp)
      omega)
    rw [Numeral.signText, List.nil_append] at h1
    rw [h1]
    simp only [digitsU_none (show c ∈ ds ++ c :: r by simp) hc (by omega)]
    rfl

theorem digits_lost {rd : Numeral → F64} {lines : List Str} {items : List ParamItem} (hl : List.Forall₂ (fun l i => ParamItem.Line l i) lines items)
    (hr : ∀ i ∈ items, ∀ n ∈ i.nums, parse_float_or_rational n.text = .ok (rd n)) {l a b ds r : Str} {c : Nat} {us more : List Str}
    (hdev : ¬ Occurs (py"Developer Code") l) (htl : ∀ t, ¬ TitleLine l t) (hul : ¬ UnitLike l) (hab : l = a ++ c!":" :: b) (ha : c!":" ∉ a) (hb : c!":" ∉ b)
    (hw : Fields b ((ds ++ c :: r) :: us)) (hd : Numeral.AllDigits ds) (h0 : ds ≠ []) (hc : isDigit c = false) (hx : c ∉ py".eE+-/_") :
    process_params (lines ++ l :: more) = .error .valueError := by
  obtain ⟨s', gs', us', cur', opts', h1, -⟩ := loop_prefix hl hr (l :: more) (fuel := more.length + 1 + 1) inv_start
  have hs : Str.split (normalise_string b) = (ds ++ c :: r) :: us := by rw [normalise_words hw, split_join (fields_words hw)]
  obtain ⟨k1, k2⟩ := digits_fail hd h0 hc hx (fields_words hw (ds ++ c :: r) (by simp)).2
  have hv : optionValue (normalise_string b) = .error .valueError := by
    rw [optionValue, hs]
    dsimp only
    rw [if_pos k1, k2]
    rfl
  have hline : paramLine s' l = .error .valueError := by
    subst hab
    rw [paramLine, group_miss htl, unit_miss hul]
    dsimp only
    rw [splitC_append _ _ _ ha, splitC_of_notMem _ _ hb]
    show (do let v ← optionValue (normalise_string b); pure { s' with curr := s'.curr.set (.str (Str.strip (normalise_string a))) v }) = _
    rw [hv]
    rfl
  rw [process_params, show (lines ++ l :: more).length + 1 = more.length + 1 + 1 + lines.length by simp; omega, h1, paramLoop,
    tryBlock_miss dev_names hdev]
  show ((do let s ← paramLine s' l; paramLoop _ _ s) >>= fun s => _) = _
  rw [hline]
  rfl

end Params

end Verif.Castep

import Verif.Lemmas.CastepFile
import Verif.Lemmas.SettingVal
import Verif.Lemmas.LineTables
/-
A `.castep` file as a whole: the loop over its runs, and the end.
-/
namespace Verif.Castep
open Verif Spec

variable {rd fl : Numeral → F64}

/-- The loop over a run. -/
theorem go_doc {P : α → List Str → Prop} {E : Env → Prop} {f : Filters → List Entry → α → List Entry} {lines : List Str} {cs : List α} (h : Doc P lines cs)
    {geo : Bool} (ht : ∀ c ∈ cs, ∀ ls, P c ls → TakesL E geo (fun F es => f F es c) ls) (hk : ∀ c ∈ cs, ∀ F es, Free geo es → Free geo (f F es c))
    (env : Env) (hE : E env) (more : List Str) :
    ∀ (es : List Entry) (s : State), Free geo es → s.curr = runOf false es →
      go env (lines ++ more) s = go env more { s with curr := runOf false (cs.foldl (f env.filters) es) } := by
  induction h with
  | nil =>
    intro es s hf hs
    rw [List.foldl_nil, ← hs, List.nil_append]
  | text hq _ ih =>
    intro es s hf hs
    rw [List.cons_append, go_cons, dispatch_quiet hq]
    exact ih ht hk es s hf hs
  | @part ls rest c cs hc _ ih =>
    intro es s hf hs
    obtain ⟨t, b, rfl, hd⟩ := ht c (by simp) ls hc
    rw [List.append_assoc, List.cons_append, go_cons, hd env hE (rest ++ more) es s hf hs]
    dsimp only
    rw [ih (fun c hc => ht c (by simp [hc])) (fun c hc => hk c (by simp [hc])) (f env.filters es c) _ (hk c (by simp) _ _ hf) rfl, List.foldl_cons]

/-! ### Banners -/

theorem normalise_words {s : Str} {ws : List Str} (h : Fields s ws) : normalise_string s = Str.join (py" ") ws := by
  rw [normalise_string, split_strip, (fields_iff _ _).1 h]

theorem strip_words {s : Str} {ws : List Str} (h : Fields s ws) : Str.strip (normalise_string s) = Str.join (py" ") ws := by
  rw [normalise_words h, ← (fields_iff _ _).1 h]
  obtain ⟨l, lead, -, h2, -, h4, -⟩ := Str.split_spec s
  have hw : ∀ w ∈ Str.split s, w ≠ [] ∧ ∀ c ∈ w, isSpace c = false := by
    rw [h2]
    intro w hw
    obtain ⟨q, hq, rfl⟩ := List.mem_map.1 hw
    exact ⟨(h4 q hq).1, (h4 q hq).2.1⟩
  obtain ⟨-, h2, h3, -⟩ := Str.join_clean _ 32 _ hw
  exact Cell.strip_of_ends h2 h3

theorem build_line {l : Str} {i : Str × List Str} (h : Build.Line l i) (d : Dict Key PyVal) :
    buildLine d l = .ok (d.set (.str i.1) (.str (Str.join (py" ") i.2))) := by
  obtain ⟨name, v, rfl, hc, hk, hv⟩ := h
  have e : splitOnce (c!":") (name ++ (c!":") :: v) = (name, v) := by
    have ht : ∀ x ∈ name, (x != c!":") = true := fun x hx => by
      rw [bne_iff_ne]; rintro rfl; exact hc hx
    rw [splitOnce, List.takeWhile_append_of_pos ht, List.dropWhile_append_of_pos ht]
    simp
  rw [buildLine, if_pos (by simp), e]
  dsimp only
  rw [normalise_key_string, LineTab.keyName hk, strip_words hv]

theorem build_lines {ls : List Str} {is : List (Str × List Str)} (h : Interleaved (fun l => c!":" ∉ l) Build.Line ls is) : ∀ d : Dict Key PyVal,
    foldLines buildLine d ls = .ok (is.foldl (fun d i => d.set (.str i.1) (.str (Str.join (py" ") i.2))) d) := by
  induction h with
  | nil => intro d; rfl
  | skip hl _ ih =>
    intro d
    rw [foldLines, buildLine, if_neg hl]
    exact ih d
  | row hl _ ih =>
    intro d
    rw [foldLines, build_line hl]
    exact ih _

theorem build_block {b : Build} {ls : List Str} (h : b.Lines ls) : process_buildinfo ls = .ok b.value := by
  obtain ⟨g, s, l, rest, rfl, -, h1, h2, -, h3⟩ := h
  rw [process_buildinfo]
  show (do let d ← foldLines buildLine [(.str (py"summary"), .str (Str.join (py" ") [normalise_string _, normalise_string _]))] rest; _) = _
  rw [normalise_words h1, normalise_words h2, build_lines h3]
  rfl

/-- A banner ends the run before it and starts another. -/
theorem dispatch_build {b : Build} {ls : List Str} (h : b.Lines ls) : ∃ t bl, ls = t :: bl ∧ ∀ (env : Env) (rest : List Str) (s : State),
    dispatch env t sections (bl ++ rest) s = .ok ({ newRun s with curr := runOf false (bannerEntry env.filters b) }, rest) := by
  have hb := build_block h
  obtain ⟨g, w, l, r, rfl, hg, h1, h2, hc, h3⟩ := h
  refine ⟨_, _, rfl, fun env rest s => ?_⟩
  have hf : found COMPILED_RE (g ++ (py"Compiled for" ++ w)) = true := (compiled_iff _).2 ⟨g, w, hg, by simp⟩
  obtain ⟨secs, hs⟩ := sections_head
  rw [hs, dispatch_cons]
  dsimp only
  rw [takeBlock_cut stops_empty hf hc (strip_occurs (w := py"Compiled for") ⟨g, w, by simp⟩ (by decide +kernel))]
  rw [bannerEntry]
  show (if needs Filters.SYS_INFO env.filters = true then _ else _) = _
  by_cases hf : Filters.has Filters.SYS_INFO env.filters = true
  · rw [if_pos (show needs Filters.SYS_INFO env.filters = true from hf), if_pos hf]
    show onRun (store (py"build_info") process_buildinfo) env _ rest (newRun s) = _
    rw [onRun, store_eq hb]; rfl
  · rw [if_neg (show ¬ needs Filters.SYS_INFO env.filters = true from hf), if_neg hf]; rfl

theorem runOf_empty {last : Bool} (es : List Entry) : (runOf last es).isEmpty = es.isEmpty := by
  cases es with
  | nil => rfl
  | cons e es =>
    have : e.1 ∈ (runOf last (e :: es)).keys := by rw [runOf, gathered_keys, List.mem_eraseDups]; simp
    cases h : runOf last (e :: es) with
    | nil => rw [h] at this; cases this
    | cons _ _ => rfl

/-- The runs before the last. -/
def closed (es : List (List Entry)) : List Run := es.flatMap fun e => if e.isEmpty then [] else [runOf false e]

theorem free_nil (geo : Bool) : Free geo [] := fun _ e he => by cases he

theorem free_banner (geo : Bool) (F : Filters) (b : Build) : Free geo (bannerEntry F b) := by
  intro _ e he hk
  rw [bannerEntry] at he
  split at he
  · obtain rfl := List.mem_singleton.1 he; simp at hk
  · cases he

/-- The loop over the runs. -/
theorem go_runs {P : α → List Str → Prop} {E : Env → Prop} {f : Filters → List Entry → α → List Entry} {lines : List Str} {rs : List (Build × List α)}
    (h : Runs P lines rs) {geo : Build × List α → Bool} (ht : ∀ r ∈ rs, ∀ c ∈ r.2, ∀ ls, P c ls → TakesL E (geo r) (fun F es => f F es c) ls)
    (hk : ∀ r ∈ rs, ∀ c ∈ r.2, ∀ F es, Free (geo r) es → Free (geo r) (f F es c)) (env : Env) (hE : E env) :
    ∀ (es : List Entry) (s : State), s.curr = runOf false es →
      ∃ s', go env lines s = .ok s' ∧ ∃ es', s'.curr = runOf false es' ∧
        (es :: rs.map fun r => r.2.foldl (f env.filters) (bannerEntry env.filters r.1)).getLast? = some es' ∧
        s'.runs = s.runs ++ closed (es :: rs.map fun r => r.2.foldl (f env.filters) (bannerEntry env.filters r.1)).dropLast := by
  induction h with
  | nil =>
    intro es s hs
    exact ⟨s, go_nil .., es, hs, rfl, by simp [closed]⟩
  | @run h d ls b cs rs hb hd _ ih =>
    intro es s hs
    obtain ⟨t, bl, rfl, hdis⟩ := dispatch_build hb
    rw [List.cons_append, go_cons, hdis]
    dsimp only
    rw [go_doc hd (ht (b, cs) (by simp)) (hk (b, cs) (by simp)) env hE ls _ _ (free_banner _ _ _) rfl]
    obtain ⟨s', h1, es', h2, h3, h4⟩ := ih (fun r hr => ht r (by simp [hr])) (fun r hr => hk r (by simp [hr])) (cs.foldl (f env.filters) (bannerEntry env.filters b))
      { newRun s with curr := runOf false (cs.foldl (f env.filters) (bannerEntry env.filters b)) } rfl
    refine ⟨s', h1, es', h2, ?_, ?_⟩
    · rw [List.map_cons, List.getLast?_cons_cons]; exact h3
    · rw [h4, List.map_cons, List.dropLast_cons_cons]
      show (newRun s).runs ++ _ = _
      rw [newRun, hs, runOf_empty]
      dsimp only
      rw [closed, closed, List.flatMap_cons]
      split
      · simp
      · simp

/-! ### The end -/

theorem toTypeDict_lists : ∀ (ks : List Key) (f : Key → List F64), toTypeDict .float (ks.map fun k => (k, PyVal.list ((f k).map PyVal.float))) =
    .ok (ks.map fun k => (k, PyVal.tuple ((f k).map PyVal.float)))
  | [], _ => rfl
  | k :: ks, f => by
    have hl : ∀ xs : List F64, toTypeList .float (xs.map PyVal.float) = .ok (xs.map PyVal.float) := by
      intro xs
      induction xs with
      | nil => rfl
      | cons x xs ih =>
        rw [List.map_cons, toTypeList]
        simp only [to_type, ih]
        rfl
    rw [List.map_cons, toTypeDict, to_type, hl, toTypeDict_lists ks f]
    rfl

theorem to_type_gathered {vs : List (Key × PyVal)} (h : ∀ v ∈ vs, ∃ x, v.2 = .float x) :
    to_type .float (.dict (gathered vs fun _ xs => .list xs)) = .ok (.dict (gathered vs fun _ xs => .tuple xs)) := by
  have hx : ∀ k, ∃ xs : List F64, valsOf vs k = xs.map PyVal.float := by
    intro k
    have : ∀ v ∈ valsOf vs k, ∃ x, v = PyVal.float x := by
      intro v hv
      obtain ⟨e, he, rfl⟩ := List.mem_map.1 hv
      exact h e (List.mem_filter.1 he).1
    generalize valsOf vs k = l at this
    induction l with
    | nil => exact ⟨[], rfl⟩
    | cons v l ih =>
      obtain ⟨xs, hxs⟩ := ih fun v hv => this v (by simp [hv])
      obtain ⟨x, hx⟩ := this v (by simp)
      exact ⟨x :: xs, by rw [hx, hxs]; rfl⟩
  choose f hf using hx
  have := toTypeDict_lists (vs.map Prod.fst).eraseDups f
  rw [to_type, gathered_eq, gathered_eq]
  simp only [hf]
  rw [this]
  rfl

/-- Energies are floats, and there is nothing under `solvation`. -/
def Plain (es : List Entry) : Prop := ∀ e ∈ es, e.1 ≠ .str (py"solvation") ∧ (e.1 = .str (py"energies") → ∃ x, e.2.2 = .float x)

theorem plain_banner (F : Filters) (b : Build) : Plain (bannerEntry F b) := by
  intro e he
  rw [bannerEntry] at he
  split at he
  · obtain rfl := List.mem_singleton.1 he; simp
  · cases he

theorem plain_foldl {g : List Entry → α → List Entry} {cs : List α} (hg : ∀ es, Plain es → ∀ c ∈ cs, Plain (g es c)) : ∀ es, Plain es → Plain (cs.foldl g es) := by
  induction cs with
  | nil => exact fun _ h => h
  | cons c cs ih => exact fun es h => ih (fun es h c hc => hg es h c (by simp [hc])) _ (hg es h c (by simp))

theorem plain_append {es es' : List Entry} (h : Plain es) (h' : Plain es') : Plain (es ++ es') := fun e he =>
  (List.mem_append.1 he).elim (h e) (h' e)

theorem plain_items {c : Content} (h : c.Ok) : Plain (c.items rd fl) := by
  cases c with
  | md rows =>
    intro e he
    obtain ⟨r, hr, rfl⟩ := List.mem_map.1 he
    have := (h.1 r hr).2.2.2
    simp only [RESERVED, List.mem_cons, not_or] at this
    exact ⟨by simp [this], by simp [this]⟩
  | energy k n =>
    intro e he
    obtain rfl := List.mem_singleton.1 he
    exact ⟨by simp [Content.key], fun _ => ⟨rd n, rfl⟩⟩
  | enthalpy n =>
    intro e he
    simp only [Content.items, List.mem_cons, List.not_mem_nil, or_false] at he
    rcases he with rfl | rfl <;> simp
  | _ =>
    intro e he
    obtain rfl := List.mem_singleton.1 he
    simp [Content.key]

theorem plain_content {F : Filters} {c : Content} (h : c.Ok) : Plain (docEntries rd fl F [c]) := by
  rw [docEntries_one]
  split
  · exact plain_items h
  · intro e he; cases he

theorem finish_run {es : List Entry} (hp : Plain es) (s : State) (hs : s.curr = runOf false es) :
    finish s = .ok (s.runs ++ if es.isEmpty then [] else [runOf true es]) := by
  have hsolv : Key.str (py"solvation") ∉ es.map Prod.fst := by
    intro h
    obtain ⟨e, he, hc⟩ := List.mem_map.1 h
    exact (hp e he).1 hc
  have hsame : ∀ k vs, k ≠ Key.str (py"energies") → combined false k vs = combined true k vs := by
    intro k vs h
    rw [combined, combined, if_neg h, if_neg h]
  have hfix : fix_data_types (runOf false es) [(.str (py"energies"), .float), (.str (py"solvation"), .float)] = .ok (runOf true es) := by
    rw [fix_data_types]
    by_cases he : Key.str (py"energies") ∈ es.map Prod.fst
    · rw [runOf, gathered_get _ _ he]
      dsimp only
      rw [combined_nest (.inl rfl), to_type_gathered ?_]
      · show fix_data_types _ _ = _
        rw [fix_data_types, Dict.get?_set_ne _ _ _ _ (by decide), gathered_none _ _ hsolv]
        dsimp only
        rw [fix_data_types]
        refine congrArg Except.ok ?_
        rw [runOf, gathered_eq _ (combined true)]
        refine Dict.eq_of_keys _ _ ?_ (Elastic.nodup_dups _ _ (Nat.le_refl _)) _ fun k hk' => ?_
        · rw [Dict.keys_set_of_mem _ _ _ (by rw [gathered_keys, List.mem_eraseDups]; exact he), gathered_keys]
        · rw [Dict.get?_set]
          split
          · rename_i e; rw [← e, combined, if_pos rfl]; rfl
          · rename_i e
            rw [gathered_get _ _ (List.mem_eraseDups.1 hk'), hsame _ _ (Ne.symm e)]
      · intro v hv
        obtain ⟨e, he, rfl⟩ := List.mem_map.1 hv
        obtain ⟨h1, h2⟩ := List.mem_filter.1 he
        exact (hp e h1).2 (by simpa using h2)
    · rw [runOf, gathered_none _ _ he]
      dsimp only
      rw [fix_data_types, gathered_none _ _ hsolv]
      dsimp only
      rw [fix_data_types]
      refine congrArg Except.ok ?_
      rw [runOf, gathered_eq, gathered_eq]
      refine List.map_congr_left fun k hk' => ?_
      rw [hsame]
      intro e
      rw [e, List.mem_eraseDups] at hk'
      exact he hk'
  rw [finish, hs, runOf_empty]
  cases h : es.isEmpty with
  | true => simp
  | false => rw [hfix]; rfl

theorem results_eq : ∀ (ess : List (List Entry)) (es : List Entry), ess.getLast? = some es → results ess = closed ess.dropLast ++ if es.isEmpty then [] else [runOf true es]
  | [], _, h => by cases h
  | [e], es, h => by cases h; rfl
  | e :: f :: ess, es, h => by
    rw [List.getLast?_cons_cons] at h
    rw [results, results_eq (f :: ess) es h, List.dropLast_cons_cons, closed, closed, List.flatMap_cons, List.append_assoc]
    simp

/-- A whole file. -/
theorem parse_runs {P : α → List Str → Prop} {f : Filters → List Entry → α → List Entry} {order : List Str → List Str} {ops : Ops F64}
    {d lines : List Str} {cs : List α} {rs : List (Build × List α)} (hd : Doc P d cs) (h : Runs P lines rs) {Q : Bool → α → Prop} (hc : ∃ g, ∀ c ∈ cs, Q g c) (hr : ∀ r ∈ rs, ∃ g, ∀ c ∈ r.2, Q g c)
    (ht : ∀ g c, Q g c → ∀ ls, P c ls → TakesL (fun env => env.recur = parse_castep_file order ops) g (fun F es => f F es c) ls)
    (hk : ∀ g c, Q g c → ∀ F es, Free g es → Free g (f F es c))
    (F : Filters) (hp : ∀ es, Plain es → ∀ g c, Q g c → Plain (f F es c)) :
    parse_castep_file order ops F (d ++ lines) = .ok (results (cs.foldl (f F) [] :: rs.map fun r => r.2.foldl (f F) (bannerEntry F r.1))) := by
  obtain ⟨g, hc⟩ := hc
  have hr' : ∀ r : Build × List α, ∃ g, r ∈ rs → ∀ c ∈ r.2, Q g c := fun r => by
    by_cases hm : r ∈ rs
    · obtain ⟨g, hg⟩ := hr r hm; exact ⟨g, fun _ => hg⟩
    · exact ⟨true, fun h => absurd h hm⟩
  choose gs hgs using hr'
  rw [parse_eq, go_doc hd (fun c hm => ht g c (hc c hm)) (fun c hm => hk g c (hc c hm)) (envOf order ops F) rfl lines [] {} (free_nil g) rfl]
  obtain ⟨s', h1, es', h2, h3, h4⟩ := go_runs h (geo := gs) (fun r hm c hc => ht _ c (hgs r hm c hc)) (fun r hm c hc => hk _ c (hgs r hm c hc)) (envOf order ops F) rfl (cs.foldl (f F) [])
    { ({} : State) with curr := runOf false (cs.foldl (f F) []) } rfl
  have h3 : (cs.foldl (f F) [] :: rs.map fun r => r.2.foldl (f F) (bannerEntry F r.1)).getLast? = some es' := h3
  refine (congrArg (fun x : PyM State => x >>= finish) h1).trans ?_
  show finish s' = _
  have hp : Plain es' := by
    have := List.mem_of_getLast? h3
    rcases List.mem_cons.1 this with rfl | hm
    · exact plain_foldl (fun es h c hm => hp es h g c (hc c hm)) _ fun e he => by cases he
    · obtain ⟨r, hr', rfl⟩ := List.mem_map.1 hm
      exact plain_foldl (fun es h c hc => hp es h _ c (hgs r hr' c hc)) _ (plain_banner F r.1)
  rw [finish_run hp s' h2, results_eq _ es' h3, h4]
  rfl

/-! ### Sections -/

theorem docEntries_cons (F : Filters) (c : Content) (cs : List Content) : docEntries rd fl F (c :: cs) = docEntries rd fl F [c] ++ docEntries rd fl F cs := by
  rw [docEntries, docEntries, docEntries, ← List.flatMap_append, ← List.filter_append]; rfl

theorem foldl_contents (F : Filters) : ∀ (cs : List Content) (es : List Entry), cs.foldl (fun es c => es ++ docEntries rd fl F [c]) es = es ++ docEntries rd fl F cs
  | [], es => by simp [docEntries]
  | c :: cs, es => by rw [List.foldl_cons, foldl_contents F cs, docEntries_cons F c cs, List.append_assoc]

theorem suits_sound {cs : List Content} (h : Sound cs) : ∃ g, ∀ c ∈ cs, c.Ok ∧ Suits g c := by
  obtain ⟨h1, h2 | h2⟩ := h
  · exact ⟨false, fun c hc => ⟨h1 c hc, by simp, by simp [h2 c hc]⟩⟩
  · exact ⟨true, fun c hc => ⟨h1 c hc, fun _ => h2 c hc, fun _ => rfl⟩⟩

theorem free_content {g : Bool} {c : Content} (h : Suits g c) (F : Filters) : Free g (docEntries rd fl F [c]) := by
  intro hg e he hk
  rw [docEntries_one] at he
  split at he
  · cases c with
    | md rows =>
      obtain ⟨r, hr, rfl⟩ := List.mem_map.1 he
      have := h.1 hg
      simp only [Content.statesEnthalpy, List.any_eq_false, decide_eq_true_eq] at this
      exact absurd (by injection hk) (this r hr)
    | enthalpy n =>
      simp only [Content.items, List.mem_cons, List.not_mem_nil, or_false] at he
      rcases he with rfl | rfl
      · simp at hk
      · simp
    | _ =>
      obtain rfl := List.mem_singleton.1 he
      simp [Content.key] at hk
  · cases he

/-- A whole file of sections. -/
theorem parse_contents (hrd : GoodRd rd) (hfl : GoodFl fl) {d lines : List Str} {cs : List Content} {rs : List (Build × List Content)} (hd : Doc Content.Lines d cs)
    (h : Runs Content.Lines lines rs) (hc : Sound cs) (hr : ∀ r ∈ rs, Sound r.2) (order : List Str → List Str) (ops : Ops F64) (F : Filters) :
    parse_castep_file order ops F (d ++ lines) = .ok (results (docEntries rd fl F cs :: rs.map (bannerEntries rd fl F))) := by
  rw [parse_runs (f := fun F es c => es ++ docEntries rd fl F [c]) (Q := fun g c => c.Ok ∧ Suits g c) hd h (suits_sound hc) (fun r hm => suits_sound (hr r hm))
    (fun g c hok ls hl => takes_content hrd hfl hl hok.1 hok.2 _) (fun g c hok F es h => free_append h (free_content hok.2 F)) F
    (fun es h g c hok => plain_append h (plain_content hok.1)), foldl_contents, List.nil_append]
  simp only [foldl_contents]
  rfl

/-! ### Steps of molecular dynamics -/

theorem erase_filter : ∀ (d : Run) (k : Key), d.keys.Nodup → d.erase k = d.filter (·.1 ≠ k)
  | [], _, _ => rfl
  | p :: d, k, h => by
    have hn : p.1 ∉ Dict.keys d ∧ (Dict.keys d).Nodup := List.nodup_cons.1 h
    rw [Dict.erase]
    by_cases e : p.1 = k
    · rw [if_pos e, List.filter_cons_of_neg (by simp [e]), List.filter_eq_self.2]
      intro q hq
      have : q.1 ≠ k := by
        rintro rfl
        exact hn.1 (by rw [e]; exact List.mem_map_of_mem (f := Prod.fst) hq)
      simpa using this
    · rw [if_neg e, List.filter_cons_of_pos (by simpa using e), erase_filter d k hn.2]

/-- A key is renamed. -/
def renamed (d : Run) (k n : Key) : Run := d.filter (·.1 ≠ k) ++ (d.filter (·.1 = k)).map fun e => (n, e.2)

theorem filter_key {d : Run} (h : d.keys.Nodup) {k : Key} {v : PyVal} (hk : d.get? k = some v) : d.filter (·.1 = k) = [(k, v)] := by
  induction d with
  | nil => cases hk
  | cons p d ih =>
    have hn : p.1 ∉ Dict.keys d ∧ (Dict.keys d).Nodup := List.nodup_cons.1 h
    rw [Dict.get?] at hk
    by_cases e : p.1 = k
    · rw [if_pos e] at hk
      cases hk
      rw [List.filter_cons_of_pos (by simpa using e), List.filter_eq_nil_iff.2]
      · rw [← e]
      · intro q hq
        have : q.1 ≠ k := by
          rintro rfl
          exact hn.1 (by rw [e]; exact List.mem_map_of_mem (f := Prod.fst) hq)
        simpa using this
    · rw [if_neg e] at hk
      rw [List.filter_cons_of_neg (by simpa using e), ih hn.2 hk]

theorem rename_one {d : Run} (h : d.keys.Nodup) {k n : Key} (hn : n ∉ d.keys) (hkn : n ≠ k) (l : List (Key × Key)) :
    aliasInplace true d ((k, n) :: l) = aliasInplace true (renamed d k n) l := by
  rw [aliasInplace, renamed]
  cases hk : d.get? k with
  | none =>
    have : k ∉ d.keys := (Dict.get?_eq_none d k).1 hk
    have hp : ∀ p ∈ d, p.1 ≠ k := by
      rintro p hp rfl
      exact this (List.mem_map_of_mem (f := Prod.fst) hp)
    dsimp only
    rw [List.filter_eq_self.2 fun p m => by simpa using hp p m, List.filter_eq_nil_iff.2 fun p m => by simpa using hp p m]
    simp
  | some v =>
    dsimp only
    rw [if_pos rfl, filter_key h hk, erase_filter _ _ (Dict.nodup_set _ _ _ h), Dict.set_eq_append _ _ _ hn, List.filter_append]
    simp [hkn]

theorem nodup_renamed {d : Run} (h : d.keys.Nodup) {k n : Key} (hn : n ∉ d.keys) : (renamed d k n).keys.Nodup := by
  rw [renamed, Dict.keys, List.map_append]
  refine List.nodup_append.2 ⟨?_, ?_, ?_⟩
  · exact List.Nodup.sublist ((List.filter_sublist).map _) h
  · cases hk : d.get? k with
    | none =>
      have : k ∉ d.keys := (Dict.get?_eq_none d k).1 hk
      rw [List.filter_eq_nil_iff.2]
      · exact List.nodup_nil
      · intro p hp e
        exact this (by simp at e; rw [← e]; exact List.mem_map_of_mem (f := Prod.fst) hp)
    | some v => rw [filter_key h hk]; simp
  · intro a ha b hb e
    subst e
    obtain ⟨p, hp, rfl⟩ := List.mem_map.1 ha
    obtain ⟨q, hq, e⟩ := List.mem_map.1 hb
    obtain ⟨q', -, rfl⟩ := List.mem_map.1 hq
    exact hn (by rw [show n = p.1 from e]; exact List.mem_map_of_mem (f := Prod.fst) (List.mem_filter.1 hp).1)

theorem keys_renamed {d : Run} {k n x : Key} (h : x ∈ (renamed d k n).keys) : x ∈ d.keys ∨ x = n := by
  obtain ⟨p, hp, rfl⟩ := List.mem_map.1 h
  rcases List.mem_append.1 hp with hp | hp
  · exact .inl (List.mem_map_of_mem (f := Prod.fst) (List.mem_filter.1 hp).1)
  · obtain ⟨q, -, rfl⟩ := List.mem_map.1 hp
    exact .inr rfl

theorem stepAliases_eq {d : Run} (h : d.keys.Nodup) (h1 : Key.str (py"positions") ∉ d.keys) (h2 : Key.str (py"cell") ∉ d.keys) : stepAliases d = stepRun d := by
  have e : stepAliases d = aliasInplace true d [(.str (py"initial_positions"), .str (py"positions")), (.str (py"initial_cell"), .str (py"cell"))] :=
    aliasLoop_inplace true _ ⟨d, d⟩
  rw [e, rename_one h h1 (by decide), rename_one (nodup_renamed h h1) (fun hc => (keys_renamed hc).elim h2 (by decide)) (by decide), aliasInplace]
  rw [renamed, renamed, stepRun]
  rw [List.filter_append, List.filter_append, List.filter_filter, List.filter_filter, List.map_append, List.append_assoc]
  have f1 : ∀ l : Run, (l.map fun e => (Key.str (py"positions"), e.2)).filter (·.1 ≠ Key.str (py"initial_cell")) = l.map fun e => (Key.str (py"positions"), e.2) := by
    intro l
    refine List.filter_eq_self.2 fun p hp => ?_
    obtain ⟨q, -, rfl⟩ := List.mem_map.1 hp
    rfl
  have f2 : ∀ l : Run, (l.map fun e => (Key.str (py"positions"), e.2)).filter (·.1 = Key.str (py"initial_cell")) = [] := by
    intro l
    refine List.filter_eq_nil_iff.2 fun p hp => ?_
    obtain ⟨q, -, rfl⟩ := List.mem_map.1 hp
    simp
  rw [f1, f2, List.map_nil, List.append_nil]
  congr 1
  · refine List.filter_congr fun p _ => ?_
    rw [Bool.decide_and, Bool.and_comm]
  · congr 2
    refine List.filter_congr fun p _ => ?_
    by_cases hp : p.1 = Key.str (py"initial_cell")
    · rw [hp]; rfl
    · simp [hp]

theorem MD_STEP_END_eq : MD_STEP_END_RE.re = .group 1 (.alt (litRe (py"finished MD iteration")) (litThen (py"Finished MD") .eol)) := by decide +kernel

theorem stops_alt {q : Pat} {w v : Str} (hq : q.re = .group 1 (.alt (litRe w) (litThen v .eol))) :
    Stops1 (fun l => Occurs w l ∨ ∃ a e, l = a ++ (v ++ e) ∧ (e = [] ∨ e = [10])) (fun l => ¬ Occurs w l ∧ ¬ Occurs v l) q := by
  constructor
  · rintro l (⟨a, b, rfl⟩ | ⟨a, e, rfl, he⟩)
    · rw [List.append_assoc]
      refine Pat.search_of_ex_at (q := (w.reverse ++ a.reverse, b)) ?_
      rw [hq]
      exact .group (.altL ex_litRe)
    · refine Pat.search_of_ex_at (q := (v.reverse ++ a.reverse, e)) ?_
      rw [hq]
      exact .group (.altR (ex_lit (.eol he)))
  · intro l h
    cases hs : found q l with
    | false => rfl
    | true =>
      exfalso
      obtain ⟨m, hm⟩ := Option.isSome_iff_exists.1 hs
      obtain ⟨a, b, e, hl⟩ := search_found hm
      rw [hq] at hl
      rcases hl with hl | hl
      · have := (_root_.Verif.lang_lit _ _).1 hl
        exact h.1 ⟨a, b, by rw [e, this, List.append_assoc]⟩
      · obtain ⟨t, ht, -⟩ := lang_litThen hl
        exact h.2 ⟨a, t ++ b, by rw [e, ht]; simp⟩

theorem stops_step : Stops1 StepEnd StepPass MD_STEP_END_RE := stops_alt MD_STEP_END_eq

theorem ensure_append {r : Run} {k : Key} {v : PyVal} : MdGeom.appendTo (ensure r k (.list [])) k v = MdGeom.appendTo r k v := by
  rw [ensure]
  split
  · rfl
  · rename_i h
    have : r.get? k = none := by
      rw [Dict.get?_eq_none, mem_keys_iff]; exact h
    rw [MdGeom.appendTo, MdGeom.appendTo, Dict.get?_set_self, this]
    dsimp only
    rw [set_set]
    rfl

theorem keys_stepRun {d : Run} {k : Key} (h : k ∈ (stepRun d).keys) : k ∈ d.keys ∨ k = .str (py"positions") ∨ k = .str (py"cell") := by
  obtain ⟨p, hp, rfl⟩ := List.mem_map.1 h
  rcases List.mem_append.1 hp with hp | hp
  · exact .inl (List.mem_map_of_mem (f := Prod.fst) (List.mem_filter.1 hp).1)
  · rcases List.mem_append.1 hp with hp | hp
    · obtain ⟨q, -, rfl⟩ := List.mem_map.1 hp; exact .inr (.inl rfl)
    · obtain ⟨q, -, rfl⟩ := List.mem_map.1 hp; exact .inr (.inr rfl)

theorem erase_absent : ∀ (d : Run) (k : Key), k ∉ d.keys → d.erase k = d
  | [], _, _ => rfl
  | p :: d, k, h => by
    have hn : p.1 ≠ k ∧ k ∉ Dict.keys d := by
      have : k ≠ p.1 ∧ k ∉ Dict.keys d := by
        rw [← not_or, ← List.mem_cons]; exact h
      exact ⟨this.1.symm, this.2⟩
    rw [Dict.erase, if_neg hn.1, erase_absent d k hn.2]

theorem items_keys {c : Content} (hok : c.Ok) {e : Entry} (he : e ∈ c.items rd fl) :
    e.1 ≠ .str (py"positions") ∧ e.1 ≠ .str (py"cell") ∧ (e.1 = .str (py"memory_estimate") → c.key = .str (py"memory_estimate")) := by
  cases c with
  | md rows =>
    obtain ⟨r, hr, rfl⟩ := List.mem_map.1 he
    have := (hok.1 r hr).2.2.2
    simp only [RESERVED, List.mem_cons, not_or] at this
    refine ⟨?_, ?_, ?_⟩ <;> simp [this]
  | enthalpy n =>
    simp only [Content.items, List.mem_cons, List.not_mem_nil, or_false] at he
    rcases he with rfl | rfl <;> simp
  | _ =>
    obtain rfl := List.mem_singleton.1 he
    simp [Content.key]

theorem items_ne {c : Content} (hok : c.Ok) : c.items rd fl ≠ [] := by
  cases c with
  | md rows => exact fun h => hok.2.2 (List.map_eq_nil_iff.1 h)
  | _ => exact fun h => by cases h

theorem docEntries_ne {F : Filters} {cs : List Content} (hok : ∀ c ∈ cs, c.Ok) (hne : ∃ c ∈ cs, c.wanted F = true) : (docEntries rd fl F cs).isEmpty = false := by
  obtain ⟨c, hc, hw⟩ := hne
  rw [Bool.eq_false_iff, Ne, List.isEmpty_iff, docEntries, List.flatMap_eq_nil_iff]
  exact fun h => items_ne (hok c hc) (h c (List.mem_filter.2 ⟨hc, by exact hw⟩))

theorem docEntries_keys {F : Filters} {cs : List Content} (hok : ∀ c ∈ cs, c.Ok) {k : Key} (hk : k ∈ (runOf true (docEntries rd fl F cs)).keys) :
    k ≠ .str (py"positions") ∧ k ≠ .str (py"cell") ∧ (k = .str (py"memory_estimate") → ∃ c ∈ cs, c.key = .str (py"memory_estimate")) := by
  rw [runOf, gathered_keys, List.mem_eraseDups] at hk
  obtain ⟨e, he, rfl⟩ := List.mem_map.1 hk
  obtain ⟨c, hc, he⟩ := List.mem_flatMap.1 he
  have hc := (List.mem_filter.1 hc).1
  obtain ⟨h1, h2, h3⟩ := items_keys (hok c hc) he
  exact ⟨h1, h2, fun h => ⟨c, hc, h3 h⟩⟩

theorem step_data (hrd : GoodRd rd) (hfl : GoodFl fl) {b : List Str} {cs : List Content} (hd : Doc Content.Lines b cs) (hok : Sound cs)
    (hne : ∃ c ∈ cs, c.wanted Filters.HIGH = true) {order : List Str → List Str} {ops : Ops F64} {env : Env} (hE : env.recur = parse_castep_file order ops) (t : Str) :
    stepData env (t :: b) = .ok (stepRun (runOf true (docEntries rd fl Filters.HIGH cs))) := by
  have hp := parse_contents hrd hfl hd .nil hok (by simp) order ops Filters.HIGH
  rw [List.append_nil] at hp
  rw [stepData]
  show (do let runs ← env.recur Filters.HIGH b; _) = _
  rw [hE, hp, List.map_nil, results, docEntries_ne hok.1 hne]
  show (Except.ok (stepAliases _) : PyM Run) = _
  rw [stepAliases_eq]
  · rw [runOf, gathered_keys]; exact Elastic.nodup_dups _ _ (Nat.le_refl _)
  · exact fun h => (docEntries_keys hok.1 h).1 rfl
  · exact fun h => (docEntries_keys hok.1 h).2.1 rfl

/-- A step with nothing that is wanted. -/
theorem no_data (hrd : GoodRd rd) (hfl : GoodFl fl) {b : List Str} {cs : List Content} (hd : Doc Content.Lines b cs) (hok : Sound cs)
    (hne : ∀ c ∈ cs, c.wanted Filters.HIGH = false) {order : List Str → List Str} {ops : Ops F64} {env : Env} (hE : env.recur = parse_castep_file order ops) (t : Str) :
    stepData env (t :: b) = .error .valueError := by
  have hp := parse_contents hrd hfl hd .nil hok (by simp) order ops Filters.HIGH
  rw [List.append_nil] at hp
  have he : docEntries rd fl Filters.HIGH cs = [] := by
    rw [docEntries, List.filter_eq_nil_iff.2 (fun c hc => by rw [hne c hc]; simp)]; rfl
  rw [he, List.map_nil] at hp
  rw [stepData]
  show (do let runs ← env.recur Filters.HIGH b; _) = _
  rw [hE, hp]
  rfl

theorem grab_step {first : Bool} {t : Str} {b rest : List Str} (h : if first = true then
      Occurs (py"Starting MD") t ∧ ¬ Occurs (py"Starting MD iteration") t ∧ Framed (c!"=") 1 b
    else Occurs (py"Starting MD iteration") t ∧ Cut StepEnd StepPass 1 b) : takeMd t (b ++ rest) = .ok (some ⟨t, t :: b, none⟩, rest) := by
  rw [takeMd]
  cases first with
  | false =>
    rw [if_neg (by simp)] at h
    rw [takeBlock_cut stops_step (found_lit (p := MD_STEP_RE) (by decide +kernel) h.1) h.2 (strip_occurs h.1 (by decide +kernel))]
  | true =>
    rw [if_pos rfl] at h
    have hn : MD_STEP_RE.search t = none := by
      cases hs : MD_STEP_RE.search t with
      | none => rfl
      | some m => exact absurd ((search_lit MD_STEP_RE _ (by decide +kernel) t).1 (by rw [hs]; rfl)) h.2.1
    rw [takeBlock_skip hn]
    dsimp only
    rw [takeBlock_cut rules_double (found_lit (p := MD_START_RE) (by decide +kernel) h.1) h.2.2 (strip_occurs h.1 (by decide +kernel))]

/-- A section that cannot be read ends the parsing. -/
theorem parse_fails {order : List Str → List Str} {ops : Ops F64} {F : Filters} {t : Str} {b rest : List Str} {e : PyErr}
    (h : dispatch (envOf order ops F) t sections (b ++ rest) {} = .error e) : parse_castep_file order ops F (t :: b ++ rest) = .error e := by
  rw [parse_eq, List.cons_append, go_cons, h]
  rfl

theorem empty_step (hrd : GoodRd rd) (hfl : GoodFl fl) {first : Bool} {cs : List Content} {ls : List Str} (h : (Item.step first cs).Lines ls) (hok : Sound cs)
    (hne : ∀ c ∈ cs, c.wanted Filters.HIGH = false) (order : List Str → List Str) (ops : Ops F64) {F : Filters} (hF : Filters.has Filters.MD F = true) (rest : List Str) :
    parse_castep_file order ops F (ls ++ rest) = .error .valueError := by
  obtain ⟨t, b, rfl, hr, hd, h⟩ := h
  refine parse_fails ?_
  rw [dispatch_nth (n := 64) rfl (by decide +kernel) hr, dispatch_cons]
  dsimp only
  rw [grab_step h]
  show (if needs Filters.MD F = true then _ else _) = _
  rw [if_pos (show needs Filters.MD F = true from hF)]
  show onRun mdStep (envOf order ops F) ⟨t, t :: b, none⟩ rest {} = _
  rw [onRun, mdStep, no_data hrd hfl hd hok hne rfl]
  rfl

/-! ### Iterations of a geometry optimisation -/

theorem eraseDups_filter (p : Key → Bool) : ∀ (n : Nat) (l : List Key), l.length ≤ n → (l.filter p).eraseDups = l.eraseDups.filter p
  | _, [], _ => by simp
  | 0, _ :: _, h => by simp at h
  | n + 1, a :: l, h => by
    have hl : (l.filter fun b => !b == a).length ≤ n := Nat.le_trans (List.length_filter_le ..) (Nat.le_of_succ_le_succ h)
    rw [List.eraseDups_cons]
    by_cases ha : p a = true
    · rw [List.filter_cons_of_pos ha, List.eraseDups_cons, List.filter_cons_of_pos ha, ← eraseDups_filter p n _ hl]
      rw [List.filter_filter, List.filter_filter]
      simp only [Bool.and_comm]
    · rw [List.filter_cons_of_neg ha, List.filter_cons_of_neg ha, ← eraseDups_filter p n _ hl, List.filter_filter]
      congr 1
      refine List.filter_congr fun b _ => ?_
      by_cases hb : b = a
      · subst hb; simp [ha]
      · simp [hb]

theorem gathered_filter (es : List Entry) (f : Key → List (Key × PyVal) → PyVal) (p : Key → Bool) :
    gathered (es.filter fun e => p e.1) f = (gathered es f).filter fun e => p e.1 := by
  rw [gathered_eq, gathered_eq, List.filter_map]
  have e : (es.filter fun e => p e.1).map Prod.fst = (es.map Prod.fst).filter p := by rw [List.filter_map]; rfl
  rw [e, eraseDups_filter p _ _ (Nat.le_refl _)]
  refine List.map_congr_left fun k hk => ?_
  have hk : p k = true := (List.mem_filter.1 hk).2
  rw [valsOf, valsOf, List.filter_filter]
  congr 3
  refine List.filter_congr fun e _ => ?_
  by_cases he : e.1 = k
  · simp [he, hk]
  · simp [he]

theorem nodup_runOf (last : Bool) (es : List Entry) : (runOf last es).keys.Nodup := by
  rw [runOf, gathered_keys]; exact Elastic.nodup_dups _ _ (Nat.le_refl _)

theorem erase_all : ∀ (ks : List Key) (d : Run), d.keys.Nodup → ks.foldl (fun r k => r.erase k) d = d.filter (·.1 ∉ ks)
  | [], d, _ => by simp
  | k :: ks, d, h => by
    rw [List.foldl_cons, erase_filter d k h, erase_all ks, List.filter_filter]
    · refine List.filter_congr fun e _ => ?_
      simp [Bool.and_comm]
    · exact List.Nodup.sublist ((List.filter_sublist).map _) h

theorem ensure_filter {d : Run} {k : Key} {v : PyVal} (p : Key → Bool) :
    (ensure d k v).filter (fun e => p e.1) = if p k then ensure (d.filter fun e => p e.1) k v else d.filter fun e => p e.1 := by
  have hk : ∀ d : Run, d.mem k = true ↔ ∃ e ∈ d, e.1 = k := by
    intro d
    rw [← mem_keys_iff, Dict.keys, List.mem_map]
  rw [ensure, ensure]
  by_cases h : d.mem k = true
  · rw [if_pos h]
    split
    · rename_i hp
      obtain ⟨e, he, rfl⟩ := (hk d).1 h
      rw [if_pos ((hk _).2 ⟨e, List.mem_filter.2 ⟨he, hp⟩, rfl⟩)]
    · rfl
  · have hn : k ∉ d.keys := by rw [mem_keys_iff]; exact h
    rw [if_neg h, Dict.set_eq_append _ _ _ hn, List.filter_append]
    split
    · rename_i hp
      have h' : ¬ Dict.mem (d.filter fun e => p e.1) k = true := by
        rw [hk]
        rintro ⟨e, he, rfl⟩
        exact h ((hk d).2 ⟨e, (List.mem_filter.1 he).1, rfl⟩)
      have hn' : k ∉ Dict.keys (d.filter fun e => p e.1) := by rw [mem_keys_iff]; exact h'
      rw [if_neg h', Dict.set_eq_append _ _ _ hn']; simp [hp]
    · rename_i hp
      simp [hp]

theorem first_keys (d : Run) : (d.filter fun kv => FIRST_KEYS.contains kv.1) = d.filter fun e => e.1 ∈ ITERATED ∨ e.1 ∈ COPIED := by
  refine List.filter_congr fun e _ => ?_
  rw [Bool.eq_iff_iff]
  simp only [FIRST_KEYS, ITERATED, COPIED, List.contains_iff_mem, List.map_cons, List.map_nil, List.mem_cons, List.not_mem_nil, or_false, decide_eq_true_eq]
  tauto

theorem first_data (es : List Entry) : stepAliases ((ensure (runOf false es) (.str (py"geom_opt"))).filter fun kv => FIRST_KEYS.contains kv.1) =
    stepRun ((runOf false es).filter fun e => e.1 ∈ ITERATED ∨ e.1 ∈ COPIED) := by
  have h := ensure_filter (d := runOf false es) (k := .str (py"geom_opt")) (v := .dict []) fun k => FIRST_KEYS.contains k
  rw [if_neg (by decide)] at h
  rw [h, first_keys]
  have hk : ∀ k ∈ Dict.keys ((runOf false es).filter fun e => e.1 ∈ ITERATED ∨ e.1 ∈ COPIED), k ∈ ITERATED ∨ k ∈ COPIED := by
    intro k hk
    obtain ⟨e, he, rfl⟩ := List.mem_map.1 hk
    simpa using (List.mem_filter.1 he).2
  refine stepAliases_eq ?_ (fun h => ?_) fun h => ?_
  · exact List.Nodup.sublist ((List.filter_sublist).map _) (nodup_runOf _ _)
  · exact absurd (hk _ h) (by decide)
  · exact absurd (hk _ h) (by decide)

theorem gathered_iterations {es : List Entry} :
    (Iterated es → ∃ x xs, (gathered ((valsOf es (.str (py"geom_opt"))).filter (·.1 ≠ .none)) fun _ xs => PyVal.list xs).get? (.str (py"iterations")) = some (.list (x :: xs))) ∧
    (¬ Iterated es → (gathered ((valsOf es (.str (py"geom_opt"))).filter (·.1 ≠ .none)) fun _ xs => PyVal.list xs).get? (.str (py"iterations")) = none) := by
  have hv : ∀ v : Key × PyVal, v ∈ (valsOf es (.str (py"geom_opt"))).filter (·.1 ≠ .none) ↔ (∃ e ∈ es, e.1 = .str (py"geom_opt") ∧ e.2 = v) ∧ v.1 ≠ .none := by
    intro v
    rw [List.mem_filter, valsOf, List.mem_map]
    simp only [List.mem_filter, decide_eq_true_eq]
    constructor
    · rintro ⟨⟨e, ⟨h1, h2⟩, h3⟩, h4⟩; exact ⟨⟨e, h1, h2, h3⟩, h4⟩
    · rintro ⟨⟨e, h1, h2, h3⟩, h4⟩; exact ⟨⟨e, ⟨h1, h2⟩, h3⟩, h4⟩
  have hi : Key.str (py"iterations") ∈ ((valsOf es (.str (py"geom_opt"))).filter (·.1 ≠ .none)).map Prod.fst ↔ Iterated es := by
    rw [List.mem_map]
    constructor
    · rintro ⟨v, hm, h⟩
      obtain ⟨⟨e, h1, h2, rfl⟩, -⟩ := (hv v).1 hm
      exact ⟨e, h1, h2, h⟩
    · rintro ⟨e, h1, h2, h3⟩
      exact ⟨e.2, (hv _).2 ⟨⟨e, h1, h2, rfl⟩, by rw [h3]; simp⟩, h3⟩
  constructor
  · intro h
    have := hi.2 h
    rw [gathered_get _ _ this]
    generalize (valsOf es (.str (py"geom_opt"))).filter (·.1 ≠ .none) = vs at this
    cases hx : valsOf vs (.str (py"iterations")) with
    | cons x xs => exact ⟨x, xs, rfl⟩
    | nil =>
      exfalso
      obtain ⟨v, hm, h⟩ := List.mem_map.1 this
      have : v.2 ∈ valsOf vs (.str (py"iterations")) := List.mem_map_of_mem (List.mem_filter.2 ⟨hm, by simpa using h⟩)
      rw [hx] at this
      cases this
  · intro h
    exact gathered_none _ _ fun hm => h (hi.1 hm)

/-- An iteration. -/
theorem iteration_eq (es : List Entry) {env : Env} {h : Hit} {d : Run} (hd : stepData env h.block = .ok d) :
    geomIteration env h (runOf false es) = .ok (runOf false (started es ++ [iterEntry d])) := by
  rw [geomIteration]
  dsimp only
  rw [runOf_geom]
  dsimp only
  rw [firstIteration, hd]
  by_cases hi : Iterated es
  · obtain ⟨x, xs, hx⟩ := (gathered_iterations (es := es)).1 hi
    have := adds_geom (s := py"iterations") (v := .dict d) es
    dsimp only at this
    rw [started, if_pos hi]
    refine Eq.trans ?_ this
    rw [appendIn, runOf_geom, hx]
    rfl
  · have hx := (gathered_iterations (es := es)).2 hi
    rw [started, if_neg hi, hx]
    dsimp only
    rw [first_data, erase_all]
    · generalize stepRun ((runOf false es).filter fun e => e.1 ∈ ITERATED ∨ e.1 ∈ COPIED) = d0
      have he := ensure_filter (d := runOf false es) (k := .str (py"geom_opt")) (v := .dict []) fun k => k ∉ ITERATED
      rw [if_pos (by decide)] at he
      rw [show MOVED_KEYS = ITERATED from rfl, he]
      have hr : (runOf false es).filter (fun e => decide (e.1 ∉ ITERATED)) = runOf false (es.filter fun e => e.1 ∉ ITERATED) :=
        (gathered_filter es (combined false) fun k => k ∉ ITERATED).symm
      rw [hr]
      have hv : valsOf es (.str (py"geom_opt")) = valsOf (es.filter fun e => e.1 ∉ ITERATED) (.str (py"geom_opt")) := by
        rw [valsOf, valsOf, List.filter_filter]
        congr 1
        refine List.filter_congr fun e _ => ?_
        by_cases h : e.1 = .str (py"geom_opt")
        · rw [h]; decide
        · simp [h]
      rw [hv] at hx ⊢
      generalize es.filter (fun e => e.1 ∉ ITERATED) = es' at hx ⊢
      have h1 := adds_geom (s := py"iterations") (v := .dict d0) es'
      have h2 := adds_geom (s := py"iterations") (v := .dict d) (es' ++ [iterEntry d0])
      dsimp only at h1 h2
      refine Eq.trans ?_ h2
      rw [appendIn, runOf_geom] at h1
      dsimp only at h1
      rw [MdGeom.appendTo, hx] at h1
      injection h1 with h1
      rw [show es' ++ [iterEntry d0] = es' ++ [(Key.str (py"geom_opt"), (Key.str (py"iterations"), PyVal.dict d0))] from rfl, ← h1]
      rw [ensure_set, appendIn]
      have hm : (ensure (Dict.set (runOf false es') (.str (py"geom_opt")) (.dict ((gathered ((valsOf es' (.str (py"geom_opt"))).filter (·.1 ≠ .none)) fun _ xs => PyVal.list xs).set (.str (py"iterations")) (.list [.dict d0])))) (.str (py"geom_opt"))) =
          Dict.set (runOf false es') (.str (py"geom_opt")) (.dict ((gathered ((valsOf es' (.str (py"geom_opt"))).filter (·.1 ≠ .none)) fun _ xs => PyVal.list xs).set (.str (py"iterations")) (.list [.dict d0]))) := by
        rw [ensure, if_pos]
        rw [← mem_keys_iff, Dict.mem_keys_set]
        exact .inl rfl
      rw [hm, Dict.get?_set_self]
      dsimp only
      generalize gathered ((valsOf es' (.str (py"geom_opt"))).filter (·.1 ≠ .none)) (fun _ xs => PyVal.list xs) = g
      have ha : ∀ v, MdGeom.appendTo (g.set (.str (py"iterations")) (.list [.dict d0])) (.str (py"iterations")) v =
          .ok ((g.set (.str (py"iterations")) (.list [.dict d0])).set (.str (py"iterations")) (.list [.dict d0, v])) := fun v => by
        rw [MdGeom.appendTo, Dict.get?_set_self]; rfl
      rw [ha]
      show (do let g ← MdGeom.appendTo _ _ _; _) = _
      rw [ha]
      show Except.ok _ = Except.ok _
      simp only [set_set, ensure_set]
    · rw [ensure]
      split
      · exact nodup_runOf _ _
      · exact Dict.nodup_set _ _ _ (nodup_runOf _ _)

theorem iter_occurs {l : Str} (h : IterTitle l) : Occurs (py"Starting ") l := by
  obtain ⟨a, m, g, d, g', b, rfl, -⟩ := h
  exact ⟨a, _, by rw [List.append_assoc]⟩

/-- An iteration with nothing that is wanted. -/
theorem empty_iter (hrd : GoodRd rd) (hfl : GoodFl fl) {cs : List Content} {ls : List Str} (h : (Item.iter cs).Lines ls) (hok : Sound cs)
    (hne : ∀ c ∈ cs, c.wanted Filters.HIGH = false) (order : List Str → List Str) (ops : Ops F64) {F : Filters} (hF : Filters.has Filters.GEOM_OPT F = true) (rest : List Str) :
    parse_castep_file order ops F (ls ++ rest) = .error .valueError := by
  obtain ⟨t, b, rfl, hr, hd, ht, hb⟩ := h
  refine parse_fails ?_
  rw [dispatch_cut (n := 67) rfl (by decide +kernel) hr stops_iter (iter_found ht) hb (strip_occurs (iter_occurs ht) (by decide +kernel)), if_pos (by exact hF)]
  rw [onRun, geomIteration]
  dsimp only
  rw [show (ensure ([] : Run) (.str (py"geom_opt"))).get? (.str (py"geom_opt")) = some (PyVal.dict []) from rfl]
  dsimp only
  rw [no_data hrd hfl hd hok hne rfl]
  rfl

theorem takes_item (hrd : GoodRd rd) (hfl : GoodFl fl) {i : Item} {ls : List Str} (h : i.Lines ls) (hok : i.Ok) {geo : Bool} (hg : ∀ c ∈ i.parts, Suits geo c)
    (order : List Str → List Str) (ops : Ops F64) :
    TakesL (fun env => env.recur = parse_castep_file order ops) geo (fun F es => i.after rd fl F es) ls := by
  cases i with
  | part c => exact takes_content hrd hfl h hok (hg c (by simp [Item.parts])) _
  | iter cs =>
    obtain ⟨t, b, rfl, hr, hd, ht, hb⟩ := h
    refine ⟨t, b, rfl, fun env hE rest es s _ hs => ?_⟩
    dsimp only
    rw [dispatch_cut (n := 67) rfl (by decide +kernel) hr stops_iter (iter_found ht) hb (strip_occurs (iter_occurs ht) (by decide +kernel)), Item.after]
    by_cases hw : Filters.has Filters.GEOM_OPT env.filters = true
    · rw [if_pos hw, if_pos hw, onRun, hs, iteration_eq es (step_data hrd hfl hd hok.1 hok.2 hE t)]
    · rw [if_neg hw, if_neg hw, ← hs]
  | step first cs =>
    obtain ⟨t, b, rfl, hr, hd, h⟩ := h
    refine ⟨t, b, rfl, fun env hE rest es s _ hs => ?_⟩
    have hg := grab_step (rest := rest) h
    rw [dispatch_nth (n := 64) rfl (by decide +kernel) hr, dispatch_cons]
    dsimp only
    rw [hg, Item.after]
    show (if needs Filters.MD env.filters = true then _ else _) = _
    by_cases hw : Filters.has Filters.MD env.filters = true
    · rw [if_pos (show needs Filters.MD env.filters = true from hw), if_pos hw]
      show onRun mdStep env _ rest s = _
      rw [onRun, hs, mdStep, step_data hrd hfl hd hok.1.1 hok.1.2 hE]
      have hm : Key.str (py"memory_estimate") ∉ (stepRun (runOf true (docEntries rd fl Filters.HIGH cs))).keys := fun h =>
        (keys_stepRun h).elim (fun h => let ⟨c, hc, he⟩ := (docEntries_keys hok.1.1.1 h).2.2 rfl; hok.2 c hc he) (by simp)
      have h1 := adds_push (k := py"md") (s := .none) (v := .dict (stepRun (runOf true (docEntries rd fl Filters.HIGH cs)))) (by decide) es
      generalize stepRun (runOf true (docEntries rd fl Filters.HIGH cs)) = d at hm h1
      have h2 := (Dict.get?_eq_none d _).2 hm
      show (match MdGeom.appendTo (match d.get? (.str (py"memory_estimate")) with
          | some v => Dict.set (ensure (runOf false es) (.str (py"md")) (.list [])) (.str (py"memory_estimate")) v
          | none => ensure (runOf false es) (.str (py"md")) (.list [])) (.str (py"md")) (.dict (d.erase (.str (py"memory_estimate")))) with
        | .error e => (Except.error e : PyM (State × List Str))
        | .ok r => Except.ok ({ s with curr := r }, rest)) = _
      rw [h2, erase_absent d _ hm]
      dsimp only
      dsimp only at h1
      rw [ensure_append, h1]
    · rw [if_neg (show ¬ needs Filters.MD env.filters = true from hw), if_neg hw, ← hs]; rfl

theorem plain_started {es : List Entry} (h : Plain es) : Plain (started es) := by
  rw [started]
  split
  · exact h
  · refine plain_append (fun e he => h e (List.mem_filter.1 he).1) fun e he => ?_
    obtain rfl := List.mem_singleton.1 he
    simp [iterEntry]

theorem free_started {geo : Bool} {es : List Entry} (h : Free geo es) : Free geo (started es) := by
  rw [started]
  split
  · exact h
  · refine free_append (fun hg e he => h hg e (List.mem_filter.1 he).1) fun _ e he hk => ?_
    obtain rfl := List.mem_singleton.1 he
    simp [iterEntry] at hk

theorem plain_after {F : Filters} {es : List Entry} (h : Plain es) {i : Item} (hok : i.Ok) : Plain (i.after rd fl F es) := by
  cases i with
  | part c => exact plain_append h (plain_content hok)
  | step first cs =>
    rw [Item.after]
    split
    · refine plain_append h fun e he => ?_
      obtain rfl := List.mem_singleton.1 he
      simp
    · exact h
  | iter cs =>
    rw [Item.after]
    split
    · refine plain_append (plain_started h) fun e he => ?_
      obtain rfl := List.mem_singleton.1 he
      simp [iterEntry]
    · exact h

theorem free_after {F : Filters} {geo : Bool} {es : List Entry} (h : Free geo es) {i : Item} (hg : ∀ c ∈ i.parts, Suits geo c) : Free geo (i.after rd fl F es) := by
  cases i with
  | part c => exact free_append h (free_content (hg c (by simp [Item.parts])) F)
  | step first cs =>
    rw [Item.after]
    split
    · refine free_append h fun _ e he hk => ?_
      obtain rfl := List.mem_singleton.1 he
      simp at hk
    · exact h
  | iter cs =>
    rw [Item.after]
    split
    · refine free_append (free_started h) fun _ e he hk => ?_
      obtain rfl := List.mem_singleton.1 he
      simp [iterEntry] at hk
    · exact h

theorem suits_items {is : List Item} (h : SoundItems is) : ∃ g, ∀ i ∈ is, i.Ok ∧ ∀ c ∈ i.parts, Suits g c := by
  obtain ⟨h1, h2 | h2⟩ := h
  · exact ⟨false, fun i hi => ⟨h1 i hi, fun c hc => ⟨by simp, by simp [h2 i hi c hc]⟩⟩⟩
  · exact ⟨true, fun i hi => ⟨h1 i hi, fun c hc => ⟨fun _ => h2 i hi c hc, fun _ => rfl⟩⟩⟩

/-- A whole file of sections, steps and iterations. -/
theorem parse_items (hrd : GoodRd rd) (hfl : GoodFl fl) {d lines : List Str} {is : List Item} {rs : List (Build × List Item)} (hd : Doc Item.Lines d is)
    (h : Runs Item.Lines lines rs) (hc : SoundItems is) (hr : ∀ r ∈ rs, SoundItems r.2) (order : List Str → List Str) (ops : Ops F64) (F : Filters) :
    parse_castep_file order ops F (d ++ lines) = .ok (results (is.foldl (Item.after rd fl F) [] ::
      rs.map fun r => r.2.foldl (Item.after rd fl F) (bannerEntry F r.1))) :=
  parse_runs (f := Item.after rd fl) (Q := fun g i => i.Ok ∧ ∀ c ∈ i.parts, Suits g c) hd h (suits_items hc) (fun r hm => suits_items (hr r hm))
    (fun g i hok ls hl => takes_item hrd hfl hl hok.1 hok.2 order ops) (fun g i hok F es h => free_after h hok.2) F fun es h g i hok => plain_after h hok.1

end Verif.Castep

import Mathlib.Data.List.Forall2
import Verif.Model.Cli
import Verif.Lemmas.Path
import Verif.Lemmas.GenFiles
import Verif.Props.Cli
/-
C51, C52: all the files asked for.
-/
namespace Verif.Props
open Verif Spec Cli

/-! ### C51 -/

/-- The requests: type and path of each. -/
def requests (files : List (Str × List Str)) : List (Str × Str) := files.flatMap fun tp => tp.2.map (tp.1, ·)

/-- The path `r.2` parsed as a file of type `r.1` gives `v`. -/
def ParsedAs (parse : Fn → Bool → Input → PyM PyVal) (fmt : Str) (testing : Bool) (r : Str × Str) (v : PyVal) : Prop :=
  ∃ g, (r.1, g) ∈ textFormats ++ binFormats ∧ parse_single parse (.text r.2) (.fn (.known g)) fmt testing = .ok v

theorem lookup_mem {l : List (Str × Str)} {a b : Str} (h : List.lookup a l = some b) : (a, b) ∈ l := by
  induction l with
  | nil => cases h
  | cons x l ih =>
    rw [List.lookup_cons] at h
    cases hx : a == x.1 with
    | true =>
      rw [hx] at h
      cases h
      have : a = x.1 := by simpa using hx
      rw [this]; simp
    | false => rw [hx] at h; exact List.mem_cons_of_mem _ (ih h)

theorem parserOf_ok {typ : Str} {f : Fn} (h : parserOf typ = .ok f) :
    ∃ g, f = .known g ∧ (typ, g) ∈ textFormats ++ binFormats := by
  rw [parserOf, ALL_PARSERS_spec, lookup_known] at h
  cases hl : List.lookup typ (textFormats ++ binFormats) with
  | none => rw [hl] at h; cases h
  | some g =>
    rw [hl] at h; cases h
    exact ⟨g, rfl, lookup_mem hl⟩

theorem parsePaths_ok {parse : Fn → Bool → Input → PyM PyVal} {typ g fmt : Str} {testing : Bool}
    (hg : (typ, g) ∈ textFormats ++ binFormats) :
    ∀ {paths : List Str} {data out : Dict Key PyVal}, parsePaths parse (.known g) fmt testing paths data = .ok out →
      ∃ vs, List.Forall₂ (ParsedAs parse fmt testing) (paths.map (typ, ·)) vs ∧
        out = (paths.zip vs).foldl (fun d pv => d.set (.str pv.1) pv.2) data
  | [], data, out, h => by cases h; exact ⟨[], .nil, rfl⟩
  | p :: l, data, out, h => by
    rw [parsePaths] at h
    obtain ⟨v, h1, h⟩ := Gen.bind_ok h
    obtain ⟨vs, h2, h3⟩ := parsePaths_ok hg h
    exact ⟨v :: vs, .cons ⟨g, hg, h1⟩ h2, h3⟩

theorem parseTypes_ok {parse : Fn → Bool → Input → PyM PyVal} {fmt : Str} {testing : Bool} :
    ∀ {files : List (Str × List Str)} {data out : Dict Key PyVal}, parseTypes parse fmt testing files data = .ok out →
      ∃ vs, List.Forall₂ (ParsedAs parse fmt testing) (requests files) vs ∧
        out = (((requests files).map (·.2)).zip vs).foldl (fun d pv => d.set (.str pv.1) pv.2) data
  | [], data, out, h => by cases h; exact ⟨[], .nil, rfl⟩
  | (typ, paths) :: l, data, out, h => by
    rw [parseTypes] at h
    obtain ⟨f, hf, h⟩ := Gen.bind_ok h
    obtain ⟨d, hd, h⟩ := Gen.bind_ok h
    obtain ⟨g, rfl, hg⟩ := parserOf_ok hf
    obtain ⟨vs, h1, rfl⟩ := parsePaths_ok hg hd
    obtain ⟨ws, h2, rfl⟩ := parseTypes_ok h
    refine ⟨vs ++ ws, ?_, ?_⟩
    · show List.Forall₂ _ (paths.map (typ, ·) ++ requests l) _
      exact List.rel_append h1 h2
    · have hl : paths.length = vs.length := by simpa using h1.length_eq
      show _ = (((paths.map (typ, ·) ++ requests l).map (·.2)).zip (vs ++ ws)).foldl _ _
      rw [List.map_append, List.map_map, List.zip_append (by simpa using hl), List.foldl_append]
      congr 2
      simp [Function.comp_def]

theorem foldl_fresh (l : List (Str × PyVal)) (d : Dict Key PyVal) (hn : (l.map (·.1)).Nodup)
    (hd : ∀ p ∈ l, Key.str p.1 ∉ d.keys) :
    l.foldl (fun d pv => d.set (.str pv.1) pv.2) d = d ++ l.map fun pv => (Key.str pv.1, pv.2) := by
  induction l generalizing d with
  | nil => simp
  | cons a l ih =>
    rw [List.map_cons, List.nodup_cons] at hn
    rw [List.foldl_cons, Dict.set_eq_append _ _ _ (hd a (by simp)), ih _ hn.2]
    · simp
    · intro p hp
      have h1 := hd p (by simp [hp])
      have h2 : Key.str p.1 ≠ Key.str a.1 := by
        intro h; cases a; cases h
        exact hn.1 (List.mem_map.2 ⟨p, hp, rfl⟩)
      simpa [Dict.keys, h2] using h1

theorem map_fst_zip (l : List Str) (vs : List PyVal) (h : l.length = vs.length) : (l.zip vs).map (·.1) = l := by
  induction l generalizing vs with
  | nil => rfl
  | cons a l ih =>
    cases vs with
    | nil => cases h
    | cons v vs => simp [ih vs (by simpa using h)]

theorem zip_keys (rs : List (Str × Str)) (vs : List PyVal) :
    ((rs.map (·.2)).zip vs).map (fun pv => (Key.str pv.1, pv.2)) = (rs.map fun r => Key.str r.2).zip vs := by
  induction rs generalizing vs with
  | nil => rfl
  | cons r rs ih =>
    cases vs with
    | nil => rfl
    | cons v vs => simp only [List.map_cons, List.zip_cons_cons, ih vs]

/-- C51.  If no path is asked for twice, what is dumped holds the result of every request, under its path, in order;
a single result is dumped by itself.  In particular every request was parsed by the parser of its type. -/
theorem C51_all_partial (parse : Fn → Bool → Input → PyM PyVal) (yamlType : Option Str) (fmt : Str) (testing : Bool)
    (files : List (Str × List Str)) (d : Dumper) (out : PyVal) (hn : ((requests files).map (·.2)).Nodup)
    (h : parse_all parse yamlType fmt testing files = .ok (d, out)) :
    ∃ vs, List.Forall₂ (ParsedAs parse fmt testing) (requests files) vs ∧
      ((∃ v, vs = [v] ∧ out = v) ∨ vs.length ≠ 1 ∧
        out = .dict (((requests files).map fun r => Key.str r.2).zip vs)) := by
  rw [parse_all] at h
  obtain ⟨d', -, h⟩ := Gen.bind_ok h
  obtain ⟨data, hd, h⟩ := Gen.bind_ok h
  cases h
  obtain ⟨vs, h1, rfl⟩ := parseTypes_ok hd
  have hl : ((requests files).map (·.2)).length = vs.length := by simpa using h1.length_eq
  refine ⟨vs, h1, ?_⟩
  rw [foldl_fresh _ _ (by rw [map_fst_zip _ _ hl]; exact hn) (by intro p _; simp [Dict.keys])]
  have hz : ([] ++ (((requests files).map (·.2)).zip vs).map fun pv => (Key.str pv.1, pv.2)) =
      ((requests files).map fun r => Key.str r.2).zip vs := by
    rw [List.nil_append]
    exact zip_keys _ _
  rw [hz]
  rw [List.length_map] at hl
  generalize hrs : (requests files) = rs at hl ⊢
  clear hrs hz h1 hd hn
  match rs, vs, hl with
  | [], [], _ => exact .inr ⟨by simp, rfl⟩
  | [r], [v], _ => exact .inl ⟨v, rfl, rfl⟩
  | r :: r' :: rs, v :: v' :: vs, _ => exact .inr ⟨by simp, rfl⟩

/-- C51 fails for a path asked for under two types: only the last result is kept. -/
theorem C51_twice :
    ∃ parse : Fn → Bool → Input → PyM PyVal,
      parse_all parse none (py"json") false [(py"castep", [py"a.out"]), (py"cell", [py"a.out"])] = .ok (.json, .int 2) ∧
      parse (.known (py"parse_castep_file")) false (.path (Path.ofStr (py"a.out"))) = .ok (.int 1) :=
  ⟨fun f _ _ => if f = .known (py"parse_castep_file") then .ok (.int 1) else .ok (.int 2), by decide +kernel, by decide +kernel⟩

/-- The hypotheses are met. -/
example : ∃ parse : Fn → Bool → Input → PyM PyVal,
    ((requests [(py"castep", [py"a", py"b"]), (py"cell", [py"c"])]).map (·.2)).Nodup ∧
    parse_all parse none (py"json") false [(py"castep", [py"a", py"b"]), (py"cell", [py"c"])] =
      .ok (.json, .dict [(.str (py"a"), .int 1), (.str (py"b"), .int 1), (.str (py"c"), .int 1)]) :=
  ⟨fun _ _ _ => .ok (.int 1), by decide +kernel, by decide +kernel⟩

/-! ### C52 -/

/-- C52.  Which types are looked for: those flagged, all if none is (or `--inc-all`) and the caller names none, and
those the caller names. -/
theorem C52_flags (args : Args) (to_parse : List Str) (t : Str) (ht : t ∈ knownExts) :
    (setFlags args to_parse).inc t = true ↔
      args.inc t = true ∨ t ∈ to_parse ∨
        to_parse = [] ∧ (args.inc_all = true ∨ ∀ u ∈ knownExts, args.inc u = false) := by
  rw [setFlags]
  have hc : ALL_NAMES.contains t = true := by rw [ALL_NAMES_spec]; simpa using ht
  have ha : ALL_NAMES.any args.inc = false ↔ ∀ u ∈ knownExts, args.inc u = false := by
    rw [ALL_NAMES_spec, List.any_eq_false]; simp
  simp only [Bool.or_eq_true, List.contains_eq_mem, decide_eq_true_eq]
  by_cases hp : (args.inc_all || !ALL_NAMES.any args.inc && true) = true ∧ to_parse = []
  · obtain ⟨h1, rfl⟩ := hp
    rw [if_pos (by simpa using h1)]
    simp only [Bool.and_true, Bool.or_eq_true, Bool.not_eq_true'] at h1
    rw [ha] at h1
    constructor
    · intro _
      exact .inr (.inr ⟨rfl, h1⟩)
    · intro _
      left
      rw [Bool.or_eq_true]
      exact .inr (by simpa using hc)
  · rw [if_neg]
    · simp only [Bool.and_true, Bool.or_eq_true, Bool.not_eq_true', ha] at hp
      constructor
      · rintro (h | h)
        · exact .inl h
        · exact .inr (.inl h)
      · rintro (h | h | ⟨h1, h2⟩)
        · exact .inl h
        · exact .inr h
        · exact absurd ⟨h2, h1⟩ hp
    · intro h
      apply hp
      simpa using h

/-- The files a seed stands for: the seed itself if it is a file with a known extension, otherwise the existing files
`<seed>.<type>` of the types looked for, and for a seed without directories the error files `<seed>.*.err`. -/
inductive SeedFile (fs : FileSys) (inc : Str → Bool) (s : Str) : Str → Str → Prop
  | explicit {root dirs n stem typ} : PathText root (dirs ++ [n]) s → NameExt n stem typ → typ ∈ knownExts →
      fs.isFile ⟨root, dirs ++ [n]⟩ = true → SeedFile fs inc s typ s
  | seeded {root dirs n typ} : PathText root (dirs ++ [n]) s → c!"." ∉ n → typ ∈ knownExts → inc typ = true →
      fs.isFile ⟨root, dirs ++ [n ++ py"." ++ typ]⟩ = true → SeedFile fs inc s typ (s ++ py"." ++ typ)
  | err {m} : PathText [] [s] s → c!"." ∉ s → inc (py"err") = true → s ++ py"." ++ m ++ py".err" ∈ fs.entries ⟨[], []⟩ →
      SeedFile fs inc s (py"err") (s ++ py"." ++ m ++ py".err")

/-- A seed: a path whose last part has no dot, or an existing file with a known extension. -/
def GoodSeed (fs : FileSys) (root : Str) (dirs : List Str) (n s : Str) : Prop :=
  PathText root (dirs ++ [n]) s ∧
  (c!"." ∉ n ∨ fs.isFile ⟨root, dirs ++ [n]⟩ = true ∧ ∃ stem ext, NameExt n stem ext ∧ ext ∈ knownExts)

theorem join_snoc (l : List Str) (a t : Str) : Str.join (py"/") (l ++ [a ++ t]) = Str.join (py"/") (l ++ [a]) ++ t := by
  induction l with
  | nil => rfl
  | cons b l ih =>
    cases l with
    | nil => simp [Str.join]
    | cons c l =>
      simp only [List.cons_append] at ih
      simp only [List.cons_append, Str.join, ih, List.append_assoc]

theorem toStr_trial {root : Str} {dirs : List Str} {n s : Str} (h : PathText root (dirs ++ [n]) s) (t : Str) :
    Path.toStr ⟨root, dirs ++ [n ++ t]⟩ = s ++ t := by
  obtain ⟨-, -, -, rfl⟩ := h
  rw [Path.toStr, if_neg (by simp)]
  simp only [join_snoc, List.append_assoc]

theorem extend_mem (args : Args) (typ t f : Str) (l : List Str) :
    f ∈ (args.extend typ l).files t ↔ f ∈ args.files t ∨ t = typ ∧ f ∈ l := by
  simp only [Args.extend]
  split
  · rename_i h; simp [h]
  · rename_i h; simp [h]

theorem trials_ok {fs : FileSys} {root : Str} {dirs : List Str} {n s : Str} (hp : PathText root (dirs ++ [n]) s) (hn : c!"." ∉ n)
    (l : List Str) (args : Args) :
    ∃ out, trials fs ⟨root, dirs ++ [n]⟩ l args = .ok out ∧ out.inc = args.inc ∧
      ∀ t f, f ∈ out.files t ↔ f ∈ args.files t ∨
        t ∈ l ∧ args.inc t = true ∧ fs.isFile ⟨root, dirs ++ [n ++ py"." ++ t]⟩ = true ∧ f = s ++ py"." ++ t := by
  induction l generalizing args with
  | nil => exact ⟨args, rfl, rfl, by simp⟩
  | cons typ l ih =>
    have hne : n ≠ [] := (hp.2.2.1 n (by simp)).1
    have hw : Path.withSuffix ⟨root, dirs ++ [n]⟩ (py"." ++ typ) = .ok ⟨root, dirs ++ [n ++ py"." ++ typ]⟩ := by
      rw [Path.withSuffix, if_neg (by simpa [Path.name] using hne)]
      have : Path.stem ⟨root, dirs ++ [n]⟩ = n := by
        rw [Path.stem, Path.name]
        simp only [List.getLastD_concat]
        rw [splitName_plain n hn]
      rw [this]
      simp
    rw [trials, hw]
    simp only [bind, Except.bind]
    by_cases hc : args.inc typ = true ∧ fs.isFile ⟨root, dirs ++ [n ++ py"." ++ typ]⟩ = true
    · rw [if_pos (by simpa using hc)]
      obtain ⟨out, h1, h2, h3⟩ := ih (args.extend typ [Path.toStr ⟨root, dirs ++ [n ++ py"." ++ typ]⟩])
      refine ⟨out, h1, h2, fun t f => ?_⟩
      rw [h3, extend_mem]
      rw [show n ++ py"." ++ typ = n ++ (py"." ++ typ) by simp, toStr_trial hp]
      constructor
      · rintro ((h | ⟨rfl, h⟩) | ⟨a, b⟩)
        · exact .inl h
        · exact .inr ⟨by simp, hc.1, hc.2, by simpa using h⟩
        · exact .inr ⟨by simp [a], b⟩
      · rintro (h | ⟨a, b, c, d⟩)
        · exact .inl (.inl h)
        · rcases List.mem_cons.1 a with rfl | a
          · exact .inl (.inr ⟨rfl, by simpa using d⟩)
          · exact .inr ⟨a, b, c, d⟩
    · rw [if_neg (by simpa using hc)]
      obtain ⟨out, h1, h2, h3⟩ := ih args
      refine ⟨out, h1, h2, fun t f => ?_⟩
      rw [h3]
      constructor
      · rintro (h | ⟨a, b⟩)
        · exact .inl h
        · exact .inr ⟨by simp [a], b⟩
      · rintro (h | ⟨a, b, c, d⟩)
        · exact .inl h
        · rcases List.mem_cons.1 a with rfl | a
          · exact absurd ⟨b, c⟩ hc
          · exact .inr ⟨a, b, c, d⟩

theorem globStar_iff (a b n : Str) : globStar a b n = true ↔ ∃ m, n = a ++ m ++ b := by
  rw [globStar]
  simp only [Bool.and_eq_true, decide_eq_true_eq, Str.startsWith, List.isPrefixOf_iff_prefix]
  constructor
  · rintro ⟨⟨h1, ⟨u, rfl⟩⟩, h3⟩
    obtain ⟨w, hw⟩ : b <:+ a ++ u := by rw [← List.reverse_prefix]; exact h3
    rw [List.length_append] at h1
    have h4 : b <:+ u := by
      rcases List.append_eq_append_iff.1 hw with ⟨t, ha, hb⟩ | ⟨t, ha, hb⟩
      · have : t = [] := by
          have := congrArg List.length hb
          rw [List.length_append] at this
          cases t with
          | nil => rfl
          | cons x t => simp at this; omega
        rw [this] at hb
        exact ⟨[], by simpa using hb⟩
      · exact ⟨t, hb.symm⟩
    obtain ⟨m, rfl⟩ := h4
    exact ⟨m, by simp⟩
  · rintro ⟨m, rfl⟩
    refine ⟨⟨by simp only [List.length_append]; omega, ⟨m ++ b, by simp⟩⟩, ?_⟩
    rw [List.reverse_prefix]
    exact List.suffix_append _ _

theorem pathText_unique {root root' s : Str} {parts parts' : List Str} (h : PathText root parts s) (h' : PathText root' parts' s) :
    root = root' ∧ parts = parts' := by
  have := (ofStr_pathText h).symm.trans (ofStr_pathText h')
  cases this; exact ⟨rfl, rfl⟩

theorem snoc_inj {l l' : List Str} {a b : Str} (h : l ++ [a] = l' ++ [b]) : l = l' ∧ a = b := by
  have := List.append_inj' h rfl
  exact ⟨this.1, by simpa using this.2⟩

theorem nameExt_unique {n stem stem' e e' : Str} (h : NameExt n stem e) (h' : NameExt n stem' e') : e = e' := by
  have := (splitName_ext h).symm.trans (splitName_ext h')
  injection this with _ h
  simpa using h

theorem nameExt_dot {n stem e : Str} (h : NameExt n stem e) : c!"." ∈ n := by
  rw [h.1]; simp

theorem knownExts_dot : ∀ e ∈ knownExts, c!"." ∉ e ∧ e ≠ [] := by decide +kernel

theorem oneSeed_ok {fs : FileSys} {root : Str} {dirs : List Str} {n s : Str} (hg : GoodSeed fs root dirs n s) {args out : Args}
    (h : oneSeed fs args s = .ok out) :
    out.inc = args.inc ∧ ∀ t f, (t = py"err" → root = [] ∧ dirs = []) →
      (f ∈ out.files t ↔ f ∈ args.files t ∨ SeedFile fs args.inc s t f) := by
  obtain ⟨hp, hn⟩ := hg
  rw [oneSeed, ofStr_pathText hp] at h
  have hsuf : (Path.mk root (dirs ++ [n])).suffix = (Path.splitName n).2 := by
    rw [Path.suffix, Path.name]; simp only [List.getLastD_concat]
  rw [hsuf] at h
  rcases hn with hn | ⟨hf, stem, ext, hne, hk⟩
  · rw [splitName_plain n hn, if_neg (by rw [show (ALL_NAMES.contains (List.drop 1 ([] : Str))) = false by decide +kernel]; simp)] at h
    obtain ⟨mid, h1, h2⟩ := Gen.bind_ok h
    obtain ⟨mid', h3, h4, h5⟩ := trials_ok (fs := fs) hp hn ALL_NAMES args
    rw [h3] at h1; cases h1
    have hseeded : ∀ t f, (t ∈ ALL_NAMES ∧ args.inc t = true ∧ fs.isFile ⟨root, dirs ++ [n ++ py"." ++ t]⟩ = true ∧ f = s ++ py"." ++ t) →
        SeedFile fs args.inc s t f := by
      rintro t f ⟨a, b, c, rfl⟩
      rw [ALL_NAMES_spec] at a
      exact .seeded hp hn a b c
    have hinv : ∀ t f, SeedFile fs args.inc s t f →
        (t ∈ ALL_NAMES ∧ args.inc t = true ∧ fs.isFile ⟨root, dirs ++ [n ++ py"." ++ t]⟩ = true ∧ f = s ++ py"." ++ t) ∨
        t = py"err" ∧ root = [] ∧ dirs = [] ∧ args.inc (py"err") = true ∧
          ∃ m, f = s ++ py"." ++ m ++ py".err" ∧ f ∈ fs.entries ⟨[], []⟩ := by
      intro t f hs
      cases hs with
      | explicit hp' hne _ _ =>
        have := (snoc_inj (pathText_unique hp' hp).2).2
        rw [this] at hne
        exact absurd (nameExt_dot hne) hn
      | seeded hp' hn' hk hi hf =>
        obtain ⟨rfl, hq⟩ := pathText_unique hp' hp
        obtain ⟨rfl, rfl⟩ := snoc_inj hq
        exact .inl ⟨by rw [ALL_NAMES_spec]; exact hk, hi, hf, rfl⟩
      | @err m hp' hn' hi hm =>
        obtain ⟨h1, h2⟩ := pathText_unique hp' hp
        have := snoc_inj (l := []) h2
        exact .inr ⟨rfl, h1.symm, this.1.symm, hi, m, rfl, hm⟩
    rw [errFiles] at h2
    split at h2
    · rename_i hi
      rw [h4] at hi
      obtain ⟨l, hl, h2⟩ := Gen.bind_ok h2
      cases h2
      refine ⟨h4, fun t f ht => ?_⟩
      rw [extend_mem, h5]
      rw [globErr] at hl
      split at hl
      · cases hl
      · cases hl
        constructor
        · rintro ((h | h) | ⟨rfl, h⟩)
          · exact .inl h
          · exact .inr (hseeded t f h)
          · obtain ⟨rfl, rfl⟩ := ht rfl
            right
            obtain ⟨g, hg, rfl⟩ := List.mem_map.1 h
            obtain ⟨hg1, hg2⟩ := List.mem_filter.1 hg
            rw [if_neg (by simp), globStar_iff] at hg2
            obtain ⟨m, rfl⟩ := hg2
            have hs : s = n := by obtain ⟨-, -, -, rfl⟩ := hp; rfl
            subst hs
            exact SeedFile.err hp hn hi hg1
        · rintro (h | h)
          · exact .inl (.inl h)
          · rcases hinv t f h with h | ⟨rfl, rfl, rfl, -, m, rfl, hm⟩
            · exact .inl (.inr h)
            · right
              refine ⟨rfl, List.mem_map.2 ⟨s ++ py"." ++ m ++ py".err", List.mem_filter.2 ⟨hm, ?_⟩, ?_⟩⟩
              · rw [if_neg (by simp), globStar_iff]
                have hs : s = n := by obtain ⟨-, -, -, rfl⟩ := hp; rfl
                exact ⟨m, by rw [hs]; rfl⟩
              · rfl
    · rename_i hi
      rw [h4] at hi
      cases h2
      refine ⟨h4, fun t f ht => ?_⟩
      rw [h5]
      constructor
      · rintro (h | h)
        · exact .inl h
        · exact .inr (hseeded t f h)
      · rintro (h | h)
        · exact .inl h
        · rcases hinv t f h with h | ⟨-, -, -, h, -⟩
          · exact .inr h
          · exact absurd h hi
  · rw [splitName_ext hne] at h
    rw [if_pos (by
      simp only [Bool.and_eq_true]
      exact ⟨hf, by rw [ALL_NAMES_spec]; simpa using hk⟩)] at h
    cases h
    refine ⟨rfl, fun t f ht => ?_⟩
    have hd : List.drop 1 (py"." ++ ext) = ext := rfl
    rw [hd, extend_mem, toStr_pathText hp]
    constructor
    · rintro (h | ⟨rfl, h⟩)
      · exact .inl h
      · rw [List.mem_singleton] at h
        subst h
        exact .inr (.explicit hp hne hk hf)
    · rintro (h | h)
      · exact .inl h
      · right
        have hdot : ∀ {n' : Str}, n' = n → c!"." ∉ n' → False := fun h h' => h' (h ▸ nameExt_dot hne)
        cases h with
        | explicit hp' hne' hk' hf' =>
          obtain ⟨rfl, hq⟩ := pathText_unique hp' hp
          obtain ⟨rfl, rfl⟩ := snoc_inj hq
          exact ⟨nameExt_unique hne' hne, by simp⟩
        | seeded hp' hn' hk' hi hf' => exact (hdot (snoc_inj (pathText_unique hp' hp).2).2 hn').elim
        | err hp' hn' hi hm => exact (hdot (snoc_inj (l := []) (pathText_unique hp' hp).2).2 hn').elim

/-- C52.  The files collected for a type are those given explicitly and those the seeds stand for, no more and no
fewer.  Seeds with a dot in the name (unless an existing file with a known extension) are excluded, and for error
files seeds with directories: there the claim fails, see `C52_dotted` and `C52_err_directory`. -/
theorem C52_files_partial (fs : FileSys) (args out : Args) (to_parse : List Str) (typ : Str)
    (hs : ∀ s ∈ args.seedname, ∃ root dirs n, GoodSeed fs root dirs n s ∧ (typ = py"err" → root = [] ∧ dirs = []))
    (h : parse_args fs args to_parse = .ok out) :
    ∀ f, f ∈ out.files typ ↔
      f ∈ args.files typ ∨ ∃ s ∈ args.seedname, SeedFile fs (setFlags args to_parse).inc s typ f := by
  have key : ∀ (l : List Str) (a : Args), (∀ s ∈ l, ∃ root dirs n, GoodSeed fs root dirs n s ∧ (typ = py"err" → root = [] ∧ dirs = [])) →
      seeds fs l a = .ok out → ∀ f, f ∈ out.files typ ↔ f ∈ a.files typ ∨ ∃ s ∈ l, SeedFile fs a.inc s typ f := by
    intro l
    induction l with
    | nil => intro a _ h f; cases h; simp
    | cons s l ih =>
      intro a hl h f
      rw [seeds] at h
      obtain ⟨mid, h1, h2⟩ := Gen.bind_ok h
      obtain ⟨root, dirs, n, hg, ht⟩ := hl s (by simp)
      obtain ⟨e1, e2⟩ := oneSeed_ok hg h1
      rw [ih mid (fun s hs => hl s (by simp [hs])) h2, e2 typ f ht, e1]
      simp only [List.mem_cons, exists_eq_or_imp, or_assoc]
  exact key _ _ hs h

/-- C52.  Relative seeds are accepted. -/
theorem C52_total (fs : FileSys) (args : Args) (to_parse : List Str)
    (hs : ∀ s ∈ args.seedname, ∃ dirs n, GoodSeed fs [] dirs n s) : ∃ out, parse_args fs args to_parse = .ok out := by
  rw [parse_args]
  have hset : (setFlags args to_parse).seedname = args.seedname := rfl
  generalize setFlags args to_parse = a at hset
  generalize args.seedname = l at hs
  clear hset
  induction l generalizing a with
  | nil => exact ⟨a, rfl⟩
  | cons s l ih =>
    have : ∃ out, oneSeed fs a s = .ok out := by
      obtain ⟨dirs, n, hp, hn⟩ := hs s (by simp)
      rw [oneSeed, ofStr_pathText hp]
      have hsuf : (Path.mk [] (dirs ++ [n])).suffix = (Path.splitName n).2 := by
        rw [Path.suffix, Path.name]; simp only [List.getLastD_concat]
      split
      · exact ⟨_, rfl⟩
      · rename_i hc
        rcases hn with hn | ⟨hf, stem, ext, hne, hk⟩
        · obtain ⟨mid, h1, -⟩ := trials_ok (fs := fs) hp hn ALL_NAMES a
          rw [h1]
          show ∃ out, errFiles fs ⟨[], dirs ++ [n]⟩ mid = .ok out
          rw [errFiles]
          split
          · rw [globErr, if_neg (by simp)]; exact ⟨_, rfl⟩
          · exact ⟨_, rfl⟩
        · exfalso
          apply hc
          rw [hsuf, splitName_ext hne]
          simp only [Bool.and_eq_true]
          exact ⟨hf, by rw [ALL_NAMES_spec]; simpa using hk⟩
    obtain ⟨mid, h1⟩ := this
    obtain ⟨out, h2⟩ := ih mid (fun s hs' => hs s (by simp [hs']))
    exact ⟨out, by rw [seeds, h1]; exact h2⟩

/-- A namespace without flags or files. -/
def bare (s : Str) : Args := ⟨false, fun _ => false, fun _ => [], [s]⟩

/-- C52 fails for a seed with a dot: of `run1.5` the files `run1.*` are collected and `run1.5.*` are not. -/
theorem C52_dotted :
    ∃ out, parse_args ⟨fun p => p = ⟨[], [py"run1.5.castep"]⟩ || p = ⟨[], [py"run1.castep"]⟩, fun _ => []⟩ (bare (py"run1.5")) [] =
      .ok out ∧ out.files (py"castep") = [py"run1.castep"] := ⟨_, rfl, by decide +kernel⟩

/-- C52 fails for error files of a seed in a directory: `a/x.0001.err` is not found. -/
theorem C52_err_directory :
    ∃ out, parse_args ⟨fun _ => false, fun p => if p = ⟨[], [py"a"]⟩ then [py"x.0001.err"] else []⟩ (bare (py"a/x")) [] =
      .ok out ∧ out.files (py"err") = [] := ⟨_, rfl, by decide +kernel⟩

/-- C52 fails for a seed given by an absolute path, which raises `NotImplementedError` unless the selection excludes
error files. -/
theorem C52_absolute (fs : FileSys) (dirs : List Str) (n s : Str) (hp : PathText (py"/") (dirs ++ [n]) s) (hn : c!"." ∉ n) :
    parse_args fs (bare s) [] = .error .notImplementedError := by
  obtain ⟨mid, h1, h2, -⟩ := trials_ok (fs := fs) hp hn ALL_NAMES (setFlags (bare s) [])
  have hone : oneSeed fs (setFlags (bare s) []) s = .error .notImplementedError := by
    rw [oneSeed, ofStr_pathText hp]
    have hsuf : (Path.mk (py"/") (dirs ++ [n])).suffix = [] := by
      rw [Path.suffix, Path.name]; simp only [List.getLastD_concat]; rw [splitName_plain n hn]
    rw [hsuf, if_neg (by rw [show (ALL_NAMES.contains (List.drop 1 ([] : Str))) = false by decide +kernel]; simp), h1]
    show errFiles fs ⟨py"/", dirs ++ [n]⟩ mid = _
    rw [errFiles, if_pos, globErr, if_pos (by simp)]
    · rfl
    · rw [h2, C52_flags _ _ _ (by decide +kernel)]
      exact .inr (.inr ⟨rfl, .inr fun _ _ => rfl⟩)
  show seeds fs [s] (setFlags (bare s) []) = _
  rw [seeds, hone]; rfl

/-- A directory with files of a run and its errors. -/
def exFs : FileSys :=
  ⟨fun p => p = ⟨[], [py"quartz.castep"]⟩ || p = ⟨[], [py"b.cell"]⟩, fun p => if p = ⟨[], []⟩ then [py"quartz.0001.err"] else []⟩

/-- The hypotheses are met by the seeds `quartz` and `b.cell`. -/
example : ∀ s ∈ [py"quartz", py"b.cell"], ∃ root dirs n, GoodSeed exFs root dirs n s ∧ (py"err" = py"err" → root = [] ∧ dirs = []) := by
  intro s hs
  simp only [List.mem_cons, List.not_mem_nil, or_false] at hs
  rcases hs with rfl | rfl
  · exact ⟨[], [], py"quartz", ⟨by unfold PathText; decide +kernel, .inl (by decide)⟩, fun _ => ⟨rfl, rfl⟩⟩
  · exact ⟨[], [], py"b.cell", ⟨by unfold PathText; decide +kernel,
      .inr ⟨by decide +kernel, py"b", py"cell", by unfold NameExt; decide +kernel, by decide +kernel⟩⟩, fun _ => ⟨rfl, rfl⟩⟩

/-- All three files are collected. -/
example : ∃ out, parse_args exFs { bare [] with seedname := [py"quartz", py"b.cell"] } [] = .ok out ∧
    out.files (py"castep") = [py"quartz.castep"] ∧ out.files (py"cell") = [py"b.cell"] ∧
    out.files (py"err") = [py"quartz.0001.err"] := ⟨_, rfl, by decide +kernel⟩

/-- An absolute seed. -/
example : PathText (py"/") ([py"home"] ++ [py"quartz"]) (py"/home/quartz") ∧ c!"." ∉ py"quartz" := by
  unfold PathText; decide +kernel

end Verif.Props

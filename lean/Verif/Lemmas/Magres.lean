import Verif.Lemmas.Phonon
import Verif.Lemmas.TrailWs
import Verif.Lemmas.Data
import Verif.Lemmas.Path
import Verif.Lemmas.CastepMatrix
import Verif.Lemmas.Bands
import Verif.Lemmas.UnitCell
import Verif.Lemmas.CastepBanner
import Verif.Model.Magres
import Verif.Spec.Magres
/- `.magres` files. -/
namespace Verif.Magres
open Verif Re Spec

/-! ### Patterns -/

abbrev spc : CSet := ⟨false, [.space], false⟩
abbrev wrd : CSet := ⟨false, [.word], false⟩
abbrev one (c : Nat) : CSet := ⟨false, [.ch c], false⟩

theorem found_bol {p : Pat} {r : Re} (hp : p.re = .seq .bol r) (l : Str) : found p l = (run r ⟨[], l, []⟩ some).isSome := by
  rw [found, Pat.search_bol _ _ hp, Pat.match_, Pat.matchAt]
  have : (p.re.m ⟨[], l, []⟩).head? = run r ⟨[], l, []⟩ some := by
    rw [head?_eq_run, hp, run_seq, run_bol]; rfl
  simp only [this, Option.isSome_map]

theorem name_word {c : Nat} (h : NameChar c) : CSet.has wrd c = true := by
  unfold NameChar at h
  simp [CSet.has, CItem.has, isWord, isAlnum, isAlpha, isDigit, isLower, isUpper]
  omega

theorem START_eq : START_RE.re = .seq .bol (.seq (.rep true 0 none (.set spc)) (.seq (.set (one 91))
    (.seq (.rep true 1 none (.set wrd)) (.seq (.set (one 93)) (.seq (.rep true 0 none (.set spc)) .eol))))) := by decide +kernel

theorem END_eq : END_RE.re = .seq .bol (.seq (.rep true 0 none (.set spc)) (.seq (.set (one 91)) (.seq (.set (one 47))
    (.seq (.rep true 1 none (.set wrd)) (.seq (.set (one 93)) (.seq (.rep true 0 none (.set spc)) .eol)))))) := by decide +kernel

theorem RULE_eq : RULE_RE.re = .seq .bol (.seq (.rep true 1 none (.set (one 61))) .eol) := by decide +kernel

theorem EMPTY_eq : Ts.EMPTY_RE.re = .seq .bol (.seq (.rep true 0 none (.set spc)) .eol) := by decide +kernel

theorem has_spc {g : Str} (h : Blank g) : ∀ c ∈ g, CSet.has spc c = true := by
  intro c hc; simpa [CSet.has, CItem.has] using h c hc

theorem stops_one {cs : CSet} {c : Nat} {t : Str} (h : cs.has c = false) : Stops cs (c :: t) := by
  intro d hd; simp at hd; subst hd; exact h

theorem run_ws_end {g' pre : Str} (h : Blank g') :
    ∃ x, run (.seq (.rep true 0 none (.set spc)) .eol) ⟨pre, g', []⟩ some = some x := by
  refine ⟨⟨g'.reverse ++ pre, [], []⟩, ?_⟩
  rw [run_seq]
  have := run_star_all spc g' pre [] none [] (fun t => run .eol t some) _ (has_spc h) (by intro c hc; cases hc) (by simp)
    (by rw [run_eol]; rfl)
  rwa [List.append_nil] at this

theorem run_name_end {name g' pre : Str} (hn : name ≠ []) (hc : ∀ c ∈ name, NameChar c) (hg : Blank g') :
    ∃ x, run (.seq (.rep true 1 none (.set wrd)) (.seq (.set (one 93)) (.seq (.rep true 0 none (.set spc)) .eol)))
      ⟨pre, name ++ 93 :: g', []⟩ some = some x := by
  obtain ⟨x, hx⟩ := run_ws_end (pre := 93 :: (name.reverse ++ pre)) hg
  refine ⟨x, ?_⟩
  rw [run_seq]
  refine run_plus_all wrd 1 name pre (93 :: g') none [] _ _ (List.length_pos_iff.2 hn) (fun c h => name_word (hc c h))
    (stops_one (by decide)) (by simp) ?_
  rw [run_seq, run_set_cons, if_pos (by decide)]
  exact hx

theorem start_open {name l : Str} (h : OpenLine name l) : found START_RE l = true := by
  obtain ⟨g, g', rfl, hg, hg', hn, hc⟩ := h
  rw [found_bol START_eq, Option.isSome_iff_exists]
  obtain ⟨x, hx⟩ := run_name_end (pre := 91 :: (g.reverse ++ [])) hn hc hg'
  refine ⟨x, ?_⟩
  rw [run_seq]
  refine run_star_all spc g [] (91 :: (name ++ 93 :: g')) none [] _ _ (has_spc hg) (stops_one (by decide)) (by simp) ?_
  rw [run_seq, run_set_cons, if_pos (by decide)]
  exact hx

theorem end_close {l : Str} (h : CloseLine l) : found END_RE l = true := by
  obtain ⟨g, name, g', rfl, hg, hg', hn, hc⟩ := h
  rw [found_bol END_eq, Option.isSome_iff_exists]
  obtain ⟨x, hx⟩ := run_name_end (pre := 47 :: 91 :: (g.reverse ++ [])) hn hc hg'
  refine ⟨x, ?_⟩
  rw [run_seq]
  refine run_star_all spc g [] (91 :: 47 :: (name ++ 93 :: g')) none [] _ _ (has_spc hg) (stops_one (by decide)) (by simp) ?_
  rw [run_seq, run_set_cons, if_pos (by decide), run_seq, run_set_cons, if_pos (by decide)]
  exact hx

theorem found_lang {p : Pat} {l : Str} (h : found p l = true) : ∃ a w b, l = a ++ (w ++ b) ∧ Lang p.re w := by
  rw [found, Option.isSome_iff_exists] at h
  obtain ⟨m, hm⟩ := h
  obtain ⟨a, b, e, hl⟩ := search_found hm
  exact ⟨a, m.whole, b, e, hl⟩

theorem lang_one {c : Nat} {w : Str} (h : Lang (.set (one c)) w) : w = [c] := by
  obtain ⟨d, hd, rfl⟩ := h
  rw [has_ch] at hd
  simp at hd; subst hd; rfl

theorem no_start {l : Str} (h : (91 : Nat) ∉ l) : found START_RE l = false := by
  rw [← Bool.not_eq_true]
  intro hf
  obtain ⟨a, w, b, rfl, hl⟩ := found_lang hf
  rw [START_eq] at hl
  obtain ⟨w0, w1, rfl, -, u, v, rfl, -, u1, v1, rfl, h1, -⟩ := hl
  rw [lang_one h1] at h
  exact h (by simp)

theorem no_end {l : Str} (h : ¬ Occurs (py"[/") l) : found END_RE l = false := by
  rw [← Bool.not_eq_true]
  intro hf
  obtain ⟨a, w, b, rfl, hl⟩ := found_lang hf
  rw [END_eq] at hl
  obtain ⟨w0, w1, rfl, -, u, v, rfl, -, u1, v1, rfl, h1, u2, v2, rfl, h2, -⟩ := hl
  rw [lang_one h1, lang_one h2] at h
  exact h ⟨a ++ (w0 ++ u), v2 ++ b, by simp⟩

theorem rule_found {l : Str} (h : MgOld.Rule l) : found RULE_RE l = true := by
  rw [found_bol RULE_eq, Option.isSome_iff_exists]
  obtain ⟨n, hn, hl⟩ := h
  have : ∃ nl : Str, l = List.replicate n 61 ++ nl ∧ (nl = [] ∨ nl = [10]) := by
    rcases hl with rfl | rfl
    · exact ⟨[], by simp, .inl rfl⟩
    · exact ⟨[10], rfl, .inr rfl⟩
  obtain ⟨nl, rfl, hnl⟩ := this
  refine ⟨⟨(List.replicate n 61).reverse ++ [], nl, []⟩, ?_⟩
  rw [run_seq]
  refine run_plus_all (one 61) 1 _ [] nl none [] _ _ (by simp; omega) ?_ ?_ (by simp) ?_
  · intro c hc; rw [List.eq_of_mem_replicate hc]; decide
  · rcases hnl with rfl | rfl
    · intro c hc; cases hc
    · exact stops_one (by decide)
  · rw [run_eol]
    rcases hnl with rfl | rfl <;> rfl

theorem no_rule {l : Str} (h : l.head? ≠ some 61) : found RULE_RE l = false := by
  rw [found_bol RULE_eq, run_seq, run_plus_stop]; rfl
  intro c hc
  rw [Bool.eq_false_iff]
  intro hh
  rw [has_ch] at hh
  simp at hh; subst hh
  exact h hc

theorem empty_iff (l : Str) : found Ts.EMPTY_RE l = true ↔ Blank l := by
  rw [found_bol EMPTY_eq]
  rw [run_seq]
  constructor
  · intro h
    by_contra hb
    rw [run_none] at h
    · cases h
    · rintro w t hs ⟨ws, rfl, -, -, hw⟩
      rw [run_eol, if_neg]
      intro he
      apply hb
      have hp := hs.post
      simp only at hp
      rw [hp]
      intro c hc
      rw [List.mem_append] at hc
      rcases hc with hc | hc
      · obtain ⟨u, hu, hcu⟩ := List.mem_flatten.1 hc
        obtain ⟨d, hd, rfl⟩ := hw u hu
        simp at hcu; subst hcu
        simpa [CSet.has, CItem.has] using hd
      · simp only [Bool.or_eq_true, List.isEmpty_iff, beq_iff_eq] at he
        rcases he with he | he
        · rw [he] at hc; cases hc
        · rw [he] at hc; simp at hc; subst hc; decide
  · intro hb
    obtain ⟨x, hx⟩ := run_ws_end (pre := []) hb
    rw [run_seq] at hx
    rw [hx]; rfl

theorem names_shielding : Names SHIELDING_RE (py"TOTAL Shielding Tensor") := names_lit (by decide +kernel)

/-! ### The name of a section -/

theorem name_nospace {c : Nat} (h : NameChar c) : isSpace c = false ∧ c ≠ 91 ∧ c ≠ 93 := by
  unfold NameChar at h
  refine ⟨?_, by omega, by omega⟩
  rw [Bool.eq_false_iff]
  intro hs
  simp [isSpace] at hs
  omega

theorem dropWhile_mid {p : Nat → Bool} : ∀ {a w : Str}, (∀ c ∈ a, p c = true) → (∀ c ∈ w.head?, p c = false) → (a ++ w).dropWhile p = w
  | [], [], _, _ => rfl
  | [], c :: w, _, h => by
    rw [List.nil_append, List.dropWhile_cons, if_neg]; simp [h c rfl]
  | c :: a, w, ha, h => by
    rw [List.cons_append, List.dropWhile_cons, if_pos (ha c (by simp))]
    exact dropWhile_mid (fun d hd => ha d (by simp [hd])) h

theorem stripP_mid {p : Nat → Bool} {a w b : Str} (ha : ∀ c ∈ a, p c = true) (hb : ∀ c ∈ b, p c = true) (hne : w ≠ [])
    (h1 : ∀ c ∈ w.head?, p c = false) (h2 : ∀ c ∈ w.getLast?, p c = false) : Str.stripP p (a ++ (w ++ b)) = w := by
  rw [Str.stripP, dropWhile_mid ha, List.reverse_append, dropWhile_mid, List.reverse_reverse]
  · simpa using hb
  · simpa using h2
  · cases w with
    | nil => exact absurd rfl hne
    | cons c w => simpa using h1

theorem blockName_open {name l : Str} (h : OpenLine name l) : blockName l = name := by
  obtain ⟨g, g', rfl, hg, hg', hn, hc⟩ := h
  have e1 : Str.strip (g ++ (91 :: (name ++ 93 :: g'))) = 91 :: (name ++ [93]) := by
    have := strip_pad_eq g (91 :: (name ++ [93])) g' hg hg' (by simp) (by
      intro c h
      simp only [List.mem_cons, List.mem_append, List.not_mem_nil, or_false] at h
      rcases h with rfl | h | rfl
      · decide
      · exact (name_nospace (hc c h)).1
      · decide)
    simpa using this
  have hh : ∀ c ∈ name.head?, c ∈ name := by
    intro c h; exact List.mem_of_mem_head? h
  have ht : ∀ c ∈ name.getLast?, c ∈ name := by
    intro c h; exact List.mem_of_mem_getLast? h
  have e2 : stripC 91 (91 :: (name ++ [93])) = name ++ [93] := by
    have := stripP_mid (p := (· == 91)) (a := [91]) (w := name ++ [93]) (b := []) (by simp) (by simp) (by simp)
      (by
        intro c h
        obtain ⟨d, t, rfl⟩ := List.exists_cons_of_ne_nil hn
        simp at h; subst h
        simpa using (name_nospace (hc d (by simp))).2.1) (by intro c h; simp at h; subst h; rfl)
    rw [List.append_nil] at this
    exact this
  have e3 : stripC 93 (name ++ [93]) = name :=
    stripP_mid (p := (· == 93)) (a := []) (w := name) (b := [93]) (by simp) (by simp) hn
      (fun c h => by simpa using (name_nospace (hc c (hh c h))).2.2) (fun c h => by simpa using (name_nospace (hc c (ht c h))).2.2)
  show stripC 93 (stripC 91 (Str.strip _)) = _
  rw [e1, e2, e3]

theorem open_strip {name l : Str} (h : OpenLine name l) : Str.strip l ≠ [] := by
  obtain ⟨g, g', rfl, -⟩ := h
  intro e
  have := (strip_nil_iff _).1 e 91 (by simp)
  revert this; decide

/-! ### The loop over the file -/

theorem loop_cons (fuel : Nat) (line : Str) (rest : List Str) (accum : Dict Key PyVal) (version : Option Int) :
    loop (fuel + 1) (line :: rest) accum version = (do
    match ← tryBlock (found START_RE) (found END_RE) line rest with
    | (some b, rest) => do
      let (accum, version) ← block accum version (blockName line) b.rest.tail
      loop fuel rest accum version
    | (none, rest) => loop fuel rest accum version) := rfl

theorem loop_section {name : Str} {inner ls : List Str} (h : Section name inner ls) (fuel : Nat) (rest : List Str) (accum : Dict Key PyVal)
    (version : Option Int) : ∃ last, CloseLine last ∧ loop (fuel + 1) (ls ++ rest) accum version =
      (block accum version name (inner ++ [last]) >>= fun r => loop fuel rest r.1 r.2) := by
  obtain ⟨first, last, rfl, h1, h2, h3⟩ := h
  refine ⟨last, h2, ?_⟩
  have e : first :: (inner ++ [last]) ++ rest = first :: (inner ++ last :: rest) := by simp
  rw [e, loop_cons, tryBlock_lines _ _ _ _ _ _ _ (start_open h1) (fun l hl => no_end (h3 l hl)) (end_close h2) (open_strip h1)]
  show (block accum version (blockName first) (inner ++ [last]) >>= _) = _
  rw [blockName_open h1]

theorem loop_outside {ls : List Str} (h : ∀ l ∈ ls, (91 : Nat) ∉ l) (fuel : Nat) (rest : List Str) (accum : Dict Key PyVal) (version : Option Int) :
    loop (fuel + ls.length) (ls ++ rest) accum version = loop fuel rest accum version := by
  induction ls with
  | nil => rfl
  | cons l ls ih =>
    rw [List.length_cons, ← Nat.add_assoc, List.cons_append, loop_cons, tryBlock_none _ _ _ _ _ (no_start (h l (by simp)))]
    exact ih fun x hx => h x (by simp [hx])

/-! ### The calculation -/

theorem strip_mid {g w g' : Str} (hg : Blank g) (hg' : Blank g') (hne : w ≠ []) (h1 : ∀ c ∈ w.head?, isSpace c = false)
    (h2 : ∀ c ∈ w.getLast?, isSpace c = false) : Str.strip (g ++ (w ++ g')) = w :=
  stripP_mid hg hg' hne h1 h2

theorem lstrip_head {w : Str} (h : ∀ c ∈ w.head?, isSpace c = false) : Str.lstrip w = w :=
  dropWhile_mid (a := []) (by simp) h

theorem split1_word {w : Str} (hne : w ≠ []) (h : ∀ c ∈ w, isSpace c = false) : Str.split1 w = [w] := by
  have e0 : Str.lstrip w = w := lstrip_head fun c hc => h c (List.mem_of_mem_head? hc)
  have e1 : w.takeWhile (!isSpace ·) = w := by
    have := List.takeWhile_append_of_pos (p := fun c => !isSpace c) (l₁ := w) (l₂ := []) (fun c hc => by simp [h c hc])
    simpa using this
  have e2 : w.dropWhile (!isSpace ·) = [] := by
    have := dropWhile_mid (p := fun c => !isSpace c) (a := w) (w := []) (fun c hc => by simp [h c hc]) (by simp)
    simpa using this
  simp only [Str.split1, e0, e1, e2]
  rw [if_neg (by simpa using hne)]; rfl

theorem split1_two {w gap v : Str} (hne : w ≠ []) (h : ∀ c ∈ w, isSpace c = false) (hg : Blank gap) (hg0 : gap ≠ []) (hv : v ≠ [])
    (hv1 : ∀ c ∈ v.head?, isSpace c = false) : Str.split1 (w ++ (gap ++ v)) = [w, v] := by
  obtain ⟨x, gap', rfl⟩ := List.exists_cons_of_ne_nil hg0
  obtain ⟨y, w', rfl⟩ := List.exists_cons_of_ne_nil hne
  have e0 : Str.lstrip (y :: w' ++ (x :: gap' ++ v)) = y :: w' ++ (x :: gap' ++ v) := lstrip_head (by
    intro c hc; simp at hc; subst hc; exact h y (by simp))
  have hx : isSpace x = true := hg x (by simp)
  have e1 : (y :: w' ++ (x :: gap' ++ v)).takeWhile (!isSpace ·) = y :: w' := by
    rw [List.takeWhile_append_of_pos (fun c hc => by simp [h c hc])]
    simp [hx]
  have e2 : (y :: w' ++ (x :: gap' ++ v)).dropWhile (!isSpace ·) = x :: gap' ++ v := by
    exact dropWhile_mid (fun c hc => by simp [h c hc]) (by simp [hx])
  have e3 : Str.lstrip (x :: gap' ++ v) = v := dropWhile_mid hg hv1
  simp only [Str.split1, e0, e1, e2, e3]
  rw [if_neg (by simp), if_neg (by simpa using hv)]

/-- What an entry does. -/
def putCalc (cd : Dict Key PyVal) (e : MgCalc) : Dict Key PyVal :=
  match e.value with
  | some v => cd.set (.str e.name) (.str v)
  | none => cd

theorem no_bracket {g : Str} {t : Str} (hg : Blank g) (c : Nat) (hc : c ≠ 91) : Str.startsWith (g ++ c :: t) (py"[") = false := by
  have : ∀ s : Str, s.head? ≠ some 91 → Str.startsWith s (py"[") = false := by
    intro s hs
    cases s with
    | nil => rfl
    | cons a s =>
      simp only [List.head?_cons, ne_eq, Option.some.injEq] at hs
      show ((91 : Nat) == a && _) = false
      rw [beq_false_of_ne (Ne.symm hs)]; rfl
  apply this
  cases g with
  | nil => simpa using hc
  | cons a g =>
    simp only [List.cons_append, List.head?_cons, ne_eq, Option.some.injEq]
    rintro rfl
    have := hg 91 (by simp)
    revert this; decide

theorem calc_line {l : Str} {e : MgCalc} (h : MgCalc.Line l e) (cd : Dict Key PyVal) : calcLine cd l = .ok (putCalc cd e) := by
  obtain ⟨name, value⟩ := e
  obtain ⟨hn, g, g', hg, hg', h⟩ := h
  dsimp only at hn h
  have hw : ∀ c ∈ py"calc_" ++ name, isSpace c = false := by
    intro c hc
    rw [List.mem_append] at hc
    rcases hc with hc | hc
    · revert c; decide
    · exact hn c hc
  cases value with
  | none =>
    dsimp only at h
    subst h
    have e1 : Str.strip (g ++ (py"calc_" ++ name ++ g')) = py"calc_" ++ name :=
      strip_pad_eq g _ g' hg hg' (by simp) hw
    rw [calcLine, if_neg (by rw [Bool.not_eq_true]; exact no_bracket hg 99 (by decide)), e1, split1_word (by simp) hw]
    rfl
  | some v =>
    dsimp only at h
    obtain ⟨⟨⟨a, t, ha, ha'⟩, t', b, hb, hb'⟩, gap, hgap, hgap0, rfl⟩ := h
    have hv : v ≠ [] := by rw [ha]; simp
    have e1 : Str.strip (g ++ (py"calc_" ++ name ++ (gap ++ (v ++ g')))) = py"calc_" ++ name ++ (gap ++ v) := by
      have := strip_mid (g := g) (w := py"calc_" ++ name ++ (gap ++ v)) (g' := g') hg hg' (by simp)
        (by intro c hc; have : c = 99 := by simpa using hc.symm
            subst this; decide)
        (by intro c hc
            rw [hb, ← List.append_assoc, ← List.append_assoc] at hc
            rw [List.getLast?_append_of_ne_nil _ (by simp)] at hc
            simp at hc; subst hc; exact hb')
      rw [← this]; simp
    rw [calcLine, if_neg (by rw [Bool.not_eq_true]; exact no_bracket hg 99 (by decide)), e1,
      split1_two (by simp) hw hgap hgap0 hv (by rw [ha]; intro c hc; simp at hc; subst hc; exact ha')]
    rfl

theorem close_word {l : Str} (h : CloseLine l) : ∃ g w g', l = g ++ ((91 :: 47 :: w) ++ g') ∧ Blank g ∧ Blank g' ∧ ∀ c ∈ 91 :: 47 :: w, isSpace c = false := by
  obtain ⟨g, name, g', rfl, hg, hg', -, hc⟩ := h
  refine ⟨g, name ++ [93], g', by simp, hg, hg', ?_⟩
  intro c h
  simp only [List.mem_cons, List.mem_append, List.not_mem_nil, or_false] at h
  rcases h with rfl | rfl | h | rfl
  · decide
  · decide
  · exact (name_nospace (hc c h)).1
  · decide

theorem calc_close {l : Str} (h : CloseLine l) (cd : Dict Key PyVal) : calcLine cd l = .ok cd := by
  obtain ⟨g, w, g', rfl, hg, hg', hc⟩ := close_word h
  rw [calcLine]
  split
  · rfl
  · rw [strip_pad_eq g _ g' hg hg' (by simp) hc, split1_word (by simp) hc]

theorem foldLines_append (f : Dict Key PyVal → Str → PyM (Dict Key PyVal)) : ∀ (a b : List Str) (d : Dict Key PyVal),
    foldLines f d (a ++ b) = (foldLines f d a >>= fun d => foldLines f d b)
  | [], b, d => rfl
  | l :: a, b, d => by
    rw [List.cons_append, foldLines, foldLines]
    cases hf : f d l with
    | error e => rfl
    | ok d' => exact foldLines_append f a b d'

theorem foldLines_all {α : Type} {f : Dict Key PyVal → Str → PyM (Dict Key PyVal)} {put : Dict Key PyVal → α → Dict Key PyVal} {R : Str → α → Prop}
    {P : Dict Key PyVal → Prop} {ls : List Str} {es : List α} (h : List.Forall₂ R ls es) :
    (∀ d l e, P d → R l e → e ∈ es → f d l = .ok (put d e) ∧ P (put d e)) → ∀ d, P d → foldLines f d ls = .ok (es.foldl put d) ∧ P (es.foldl put d) := by
  induction h with
  | nil => intro _ d hd; exact ⟨rfl, hd⟩
  | @cons l e ls es h1 _ ih =>
    intro hs d hd
    obtain ⟨e1, e2⟩ := hs d l e hd h1 (by simp)
    rw [foldLines, e1]
    exact ih (fun d l e hd h he => hs d l e hd h (by simp [he])) _ e2

theorem foldl_filterMap {α β γ : Type} (f : β → γ → β) (g : α → Option γ) (put : β → α → β)
    (h : ∀ b a, put b a = match g a with | some c => f b c | none => b) : ∀ (l : List α) (b : β), l.foldl put b = (l.filterMap g).foldl f b
  | [], _ => rfl
  | a :: l, b => by
    rw [List.foldl_cons, h b a, List.filterMap_cons]
    cases g a with
    | none => exact foldl_filterMap f g put h l b
    | some c => exact foldl_filterMap f g put h l (f b c)

theorem calculation_all {ls : List Str} {es : List MgCalc} (h : List.Forall₂ MgCalc.Line ls es) {last : Str} (hl : CloseLine last) :
    calculation (ls ++ [last]) = .ok (MgCalc.table es) := by
  have e1 := (foldLines_all (P := fun _ => True) h (f := calcLine) (put := putCalc) (fun d l e _ h _ => ⟨calc_line h d, trivial⟩) [] trivial).1
  rw [calculation, foldLines_append, e1]
  show (calcLine _ last >>= _) = _
  rw [calc_close hl]
  show Except.ok _ = _
  rw [MgCalc.table, Dict.ofList, foldl_filterMap (fun d (kv : Key × PyVal) => Dict.set d kv.1 kv.2)
    (fun e : MgCalc => e.value.map fun v => (Key.str e.name, PyVal.str v)) putCalc]
  intro d e
  rw [putCalc]
  cases e.value <;> rfl

/-- The last entry counts. -/
theorem get?_foldl (k : Key) : ∀ (l : List (Key × PyVal)) (d : Dict Key PyVal), (l.foldl (fun d kv => Dict.set d kv.1 kv.2) d).get? k =
    ((l.filterMap fun kv => if kv.1 = k then some kv.2 else none).getLast?).or (d.get? k)
  | [], d => by simp
  | kv :: l, d => by
    rw [List.foldl_cons, get?_foldl k l, List.filterMap_cons]
    by_cases hk : kv.1 = k
    · rw [if_pos hk]
      dsimp only
      rw [List.getLast?_cons, ← hk, Dict.get?_set_self]
      cases (List.filterMap (fun kv' : Key × PyVal => if kv'.1 = kv.1 then some kv'.2 else none) l).getLast? <;> rfl
    · rw [if_neg hk, Dict.get?_set_ne _ _ _ _ (Ne.symm hk)]

theorem version_of {es : List MgCalc} {v : Numeral} (h : MgCalc.Version es v) : versionOf (MgCalc.table es) = .ok (intOf v) := by
  obtain ⟨hv, hi, more, hm, hl⟩ := h
  have e1 : (MgCalc.table es).get? (.str (py"code_version")) = some (.str (v.text ++ more)) := by
    rw [MgCalc.table, Dict.ofList, get?_foldl, List.filterMap_filterMap]
    have : (fun e : MgCalc => (e.value.map fun v => (Key.str e.name, PyVal.str v)).bind fun kv =>
        if kv.1 = Key.str (py"code_version") then some kv.2 else none) =
        fun e => (if e.name = py"code_version" then e.value else none).map PyVal.str := by
      funext e
      cases e.value with
      | none => by_cases hn : e.name = py"code_version" <;> simp [hn]
      | some v => by_cases hn : e.name = py"code_version" <;> simp [hn]
    rw [this, ← List.map_filterMap, List.getLast?_map, hl]; rfl
  have hdot : (46 : Nat) ∉ v.text := by
    obtain ⟨sg, ip, fr, ex⟩ := v
    obtain ⟨rfl, rfl⟩ : fr = none ∧ ex = none := hi
    intro hc
    have hip := hv.1
    simp only [Numeral.text, Numeral.fracText, Numeral.expText, List.append_nil, List.mem_append] at hc
    rcases hc with hc | hc
    · cases sg with
      | none => simp [Numeral.signText] at hc
      | some b => cases b <;> revert hc <;> decide
    · have := hip 46 hc
      revert this; decide
  have e2 : (Str.splitC 46 (v.text ++ more)).headD [] = v.text := by
    rcases hm with rfl | hm
    · rw [List.append_nil, splitC_of_notMem _ _ hdot]; rfl
    · cases more with
      | nil => cases hm
      | cons c more =>
        simp at hm; subst hm
        rw [splitC_append _ _ _ hdot]; rfl
  rw [versionOf, e1]
  show pyInt ((Str.splitC 46 _).headD []) = _
  rw [e2, (pyInt_isInt v hv hi).1]; rfl

/-! ### Atoms -/

theorem foldLines_abs {σ α : Type} {f : Dict Key PyVal → Str → PyM (Dict Key PyVal)} {abs : σ → Dict Key PyVal} {put : σ → α → σ} {R : Str → α → Prop}
    {ls : List Str} {es : List α} (h : List.Forall₂ R ls es) :
    (∀ s l e, R l e → e ∈ es → f (abs s) l = .ok (abs (put s e))) → ∀ s, foldLines f (abs s) ls = .ok (abs (es.foldl put s)) := by
  induction h with
  | nil => intro _ s; rfl
  | @cons l e ls es h1 _ ih =>
    intro hs s
    rw [foldLines, hs s l e h1 (by simp)]
    exact ih (fun s l e h he => hs s l e h (by simp [he])) _

theorem floats_of {rd : Numeral → F64} {ns : List Numeral} (h : ∀ n ∈ ns, parse_float_or_rational n.text = .ok (rd n)) :
    to_type .float (strList (ns.map Numeral.text)) = .ok (MgAtoms.tuple rd ns) :=
  to_type_strList .float ns Numeral.text (fun n => .float (rd n)) fun n hn => typeParser_float (h n hn)

theorem atomKey_of {spec : Str} {ind : Numeral} (h : ind.Valid ∧ ind.IsInt) : atomKey spec ind.text = .ok (MgAtoms.atomKey spec ind) := by
  rw [atomKey, (pyInt_isInt ind h.1 h.2).1]; rfl

/-- Units, positions, lattice. -/
abbrev AtState := Dict Key PyVal × Dict Key PyVal × Option PyVal

def atTable (s : AtState) : Dict Key PyVal :=
  [(.str (py"units"), .dict s.1), (.str (py"coords"), .dict s.2.1)] ++
  match s.2.2 with
  | some v => [(.str (py"lattice"), v)]
  | none => []

def putAt (rd : Numeral → F64) (s : AtState) : MgAtoms → AtState
  | .lattice ns => (s.1, s.2.1, some (MgAtoms.tuple rd ns))
  | .atom spec ind pos => (s.1, s.2.1.set (MgAtoms.atomKey spec ind) (MgAtoms.tuple rd pos), s.2.2)
  | .units k v => (s.1.set (.str k) (.str v), s.2.1, s.2.2)
  | .other => s

theorem starts_other {l : Str} {a b : Nat} {t u : Str} (h : Str.startsWith l (a :: t) = true) (hab : a ≠ b) : Str.startsWith l (b :: u) = false := by
  cases l with
  | nil => cases h
  | cons c l =>
    change (a == c && _) = true at h
    rw [Bool.and_eq_true, beq_iff_eq] at h
    show (b == c && _) = false
    rw [beq_false_of_ne (by rw [← h.1]; exact Ne.symm hab)]; rfl

theorem atoms_line {rd : Numeral → F64} {l : Str} {i : MgAtoms} (h : i.Line l) (hi : i.IndOk)
    (hr : ∀ n ∈ i.nums, parse_float_or_rational n.text = .ok (rd n)) (s : AtState) : atomsStep (atTable s) l = .ok (atTable (putAt rd s i)) := by
  obtain ⟨U, C, L⟩ := s
  cases i with
  | lattice ns =>
    obtain ⟨h1, h2⟩ := h
    rw [atomsStep, if_pos h1, latticeLine, fields_split h2]
    dsimp only
    rw [floats_of (ns := ns) hr]
    cases L <;> rfl
  | atom spec ind pos =>
    obtain ⟨h1, elem, h2⟩ := h
    rw [atomsStep, if_neg (by rw [Bool.not_eq_true]; exact starts_other h1 (by decide)), if_pos h1, atomLine, fields_split h2]
    dsimp only
    rw [floats_of (ns := pos) hr]
    show (atomKey _ _ >>= _) = _
    rw [atomKey_of hi]
    rfl
  | units k v =>
    obtain ⟨h1, h2⟩ := h
    rw [atomsStep, if_neg (by rw [Bool.not_eq_true]; exact starts_other h1 (by decide)),
      if_neg (by rw [Bool.not_eq_true]; exact starts_other h1 (by decide)), if_pos h1, unitsLine, fields_split h2]
    rfl
  | other =>
    obtain ⟨h1, h2, h3⟩ := h
    rw [atomsStep, h1, h2, h3]; rfl

theorem close_starts {l : Str} (h : CloseLine l) {c : Nat} {t : Str} (hc : isSpace c = false) (h91 : c ≠ 91) : Str.startsWith l (c :: t) = false := by
  obtain ⟨g, w, g', rfl, hg, -, -⟩ := close_word h
  cases g with
  | nil =>
    show (c == 91 && _) = false
    rw [beq_false_of_ne h91]; rfl
  | cons a g =>
    show (c == a && _) = false
    rw [beq_false_of_ne]; rfl
    rintro rfl
    rw [hg c (by simp)] at hc; cases hc

theorem put_units (rd : Numeral → F64) : ∀ (its : List MgAtoms) (s : AtState), (its.foldl (putAt rd) s).1 =
    (its.filterMap fun | .units k v => some (Key.str k, PyVal.str v) | _ => none).foldl (fun d kv => Dict.set d kv.1 kv.2) s.1
  | [], _ => rfl
  | i :: its, s => by
    rw [List.foldl_cons, put_units rd its, List.filterMap_cons]
    cases i <;> rfl

theorem put_coords (rd : Numeral → F64) : ∀ (its : List MgAtoms) (s : AtState), (its.foldl (putAt rd) s).2.1 =
    (its.filterMap fun | .atom s i p => some (MgAtoms.atomKey s i, MgAtoms.tuple rd p) | _ => none).foldl (fun d kv => Dict.set d kv.1 kv.2) s.2.1
  | [], _ => rfl
  | i :: its, s => by
    rw [List.foldl_cons, put_coords rd its, List.filterMap_cons]
    cases i <;> rfl

theorem put_lattice (rd : Numeral → F64) : ∀ (its : List MgAtoms) (s : AtState), (its.foldl (putAt rd) s).2.2 =
    ((its.filterMap fun | .lattice ns => some (MgAtoms.tuple rd ns) | _ => none).getLast?).or s.2.2
  | [], _ => rfl
  | i :: its, s => by
    rw [List.foldl_cons, put_lattice rd its, List.filterMap_cons]
    cases i with
    | lattice ns =>
      dsimp only
      rw [List.getLast?_cons]
      show Option.or _ (some (MgAtoms.tuple rd ns)) = _
      cases List.getLast? _ <;> rfl
    | _ => rfl

theorem atoms_all {rd : Numeral → F64} {ls : List Str} {its : List MgAtoms} (h : List.Forall₂ MgAtoms.Line ls its)
    (hi : ∀ i ∈ its, i.IndOk) (hr : ∀ i ∈ its, ∀ n ∈ i.nums, parse_float_or_rational n.text = .ok (rd n)) {last : Str} (hl : CloseLine last) :
    atoms (ls ++ [last]) = .ok (MgAtoms.table rd its) := by
  have e1 := foldLines_abs (f := atomsStep) (abs := atTable) (put := putAt rd) h
    (fun s l e h he => atoms_line h (hi e he) (hr e he) s) ([], [], none)
  rw [atoms, foldLines_append]
  rw [show [(Key.str (py"units"), PyVal.dict []), (Key.str (py"coords"), PyVal.dict [])] = atTable ([], [], none) from rfl, e1]
  show (atomsStep _ last >>= _) = _
  rw [atomsStep, close_starts hl (by decide) (by decide), close_starts hl (by decide) (by decide), close_starts hl (by decide) (by decide)]
  show Except.ok _ = _
  rw [MgAtoms.table, atTable, put_units, put_coords, put_lattice]
  rw [Option.or_none]
  rfl

/-! ### Tensors -/

/-- The kinds in the order in which they appear first. -/
def kinds (es : List (Str × Key × PyVal)) : List Str := es.foldl (fun ks e => if e.1 ∈ ks then ks else ks ++ [e.1]) []

theorem kinds_snoc (es : List (Str × Key × PyVal)) (e : Str × Key × PyVal) :
    kinds (es ++ [e]) = if e.1 ∈ kinds es then kinds es else kinds es ++ [e.1] := by
  rw [kinds, List.foldl_append]; rfl

theorem kinds_spec (es : List (Str × Key × PyVal)) : (kinds es).Nodup ∧ ∀ k, k ∈ kinds es ↔ ∃ e ∈ es, e.1 = k := by
  induction es using List.reverseRecOn with
  | nil => exact ⟨List.nodup_nil, by simp [kinds]⟩
  | append_singleton es e ih =>
    rw [kinds_snoc]
    by_cases h : e.1 ∈ kinds es
    · rw [if_pos h]
      refine ⟨ih.1, fun k => ?_⟩
      rw [ih.2 k]
      constructor
      · rintro ⟨x, hx, rfl⟩; exact ⟨x, by simp [hx], rfl⟩
      · rintro ⟨x, hx, rfl⟩
        rw [List.mem_append] at hx
        rcases hx with hx | hx
        · exact ⟨x, hx, rfl⟩
        · rw [List.mem_singleton] at hx; subst hx; exact (ih.2 _).1 h
    · rw [if_neg h]
      refine ⟨?_, fun k => ?_⟩
      · rw [List.nodup_append]
        refine ⟨ih.1, by simp, ?_⟩
        rintro a ha b hb rfl
        rw [List.mem_singleton] at hb; subst hb; exact h ha
      · rw [List.mem_append, ih.2 k]
        constructor
        · rintro (⟨x, hx, rfl⟩ | hk)
          · exact ⟨x, by simp [hx], rfl⟩
          · rw [List.mem_singleton] at hk; exact ⟨e, by simp, hk.symm⟩
        · rintro ⟨x, hx, rfl⟩
          rw [List.mem_append] at hx
          rcases hx with hx | hx
          · exact .inl ⟨x, hx, rfl⟩
          · rw [List.mem_singleton] at hx; subst hx; exact .inr (by simp)

theorem get?_map {f : Str → PyVal} (k : Str) : ∀ ks : List Str, Dict.get? (ks.map fun k => (Key.str k, f k)) (.str k) = if k ∈ ks then some (f k) else none
  | [] => by simp [Dict.get?]
  | a :: ks => by
    rw [List.map_cons, Dict.get?]
    by_cases h : a = k
    · subst h; rw [if_pos rfl, if_pos (by simp)]
    · rw [if_neg (by simpa using h), get?_map k ks]
      by_cases hk : k ∈ ks
      · rw [if_pos hk, if_pos (by simp [hk])]
      · rw [if_neg hk, if_neg (by simp [hk, Ne.symm h])]

theorem set_map {f f' : Str → PyVal} {k : Str} {v : PyVal} (hv : f' k = v) (hf : ∀ k', k' ≠ k → f' k' = f k') :
    ∀ {ks : List Str}, ks.Nodup → k ∈ ks → Dict.set (ks.map fun k => (Key.str k, f k)) (.str k) v = ks.map fun k => (Key.str k, f' k)
  | [], _, h => by cases h
  | a :: ks, hn, h => by
    rw [List.nodup_cons] at hn
    rw [List.map_cons, Dict.set, List.map_cons]
    by_cases ha : a = k
    · subst ha
      rw [if_pos rfl, hv]
      congr 1
      apply List.map_congr_left
      intro x hx
      rw [hf x (by rintro rfl; exact hn.1 hx)]
    · rw [if_neg (by simpa using ha), set_map hv hf hn.2 (by simpa [Ne.symm ha] using h), hf a ha]

theorem setSub_byKind (es : List (Str × Key × PyVal)) (e : Str × Key × PyVal) :
    setSub true (MgTensor.byKind es) (.str e.1) e.2.1 e.2.2 = .ok (MgTensor.byKind (es ++ [e])) := by
  obtain ⟨hn, hm⟩ := kinds_spec es
  have e0 : ∀ es, MgTensor.byKind es = (kinds es).map fun k => (.str k, .dict (Dict.ofList ((es.filter (·.1 = k)).map Prod.snd))) := fun _ => rfl
  have e2 : (((es ++ [e]).filter (·.1 = e.1)).map Prod.snd) = ((es.filter (·.1 = e.1)).map Prod.snd) ++ [e.2] := by
    simp [List.filter_append]
  have e3 : ∀ k, k ≠ e.1 → (es ++ [e]).filter (·.1 = k) = es.filter (·.1 = k) := by
    intro k hk; simp [List.filter_append, Ne.symm hk]
  rw [setSub, e0, get?_map]
  by_cases h : e.1 ∈ kinds es
  · rw [if_pos h]
    dsimp only
    rw [e0, kinds_snoc, if_pos h]
    rw [set_map (f' := fun k => .dict (Dict.ofList (((es ++ [e]).filter (·.1 = k)).map Prod.snd))) _ _ hn h]
    · rw [e2, Dict.ofList, List.foldl_append]; rfl
    · intro k hk
      rw [e3 k hk]
  · rw [if_neg h]
    dsimp only
    rw [if_pos rfl, e0, kinds_snoc, if_neg h, List.map_append, Dict.set_eq_append]
    · congr 2
      · apply List.map_congr_left
        intro k hk
        rw [e3 k (by rintro rfl; exact h hk)]
      · rw [List.map_singleton, e2]
        have : es.filter (·.1 = e.1) = [] := by
          rw [List.filter_eq_nil_iff]
          intro x hx hxe
          exact h ((hm _).2 ⟨x, hx, by simpa using hxe⟩)
        rw [this]; rfl
    · simpa [Dict.keys] using h

/-- Entries added. -/
def addEntry (rd : Numeral → F64) (es : List (Str × Key × PyVal)) (i : MgTensor) : List (Str × Key × PyVal) :=
  match i.entry rd with
  | some e => es ++ [e]
  | none => es

theorem addEntry_all (rd : Numeral → F64) : ∀ (its : List MgTensor) (es : List (Str × Key × PyVal)),
    its.foldl (addEntry rd) es = es ++ its.filterMap (MgTensor.entry rd)
  | [], es => by simp
  | i :: its, es => by
    rw [List.foldl_cons, addEntry_all rd its, addEntry, List.filterMap_cons]
    cases i.entry rd <;> simp

/-- No line starts with `units` if its first word does not. -/
theorem starts_word {l p w : Str} {ws : List Str} (hf : Fields l (w :: ws)) (hp : p ≠ []) (hs : ∀ c ∈ p, isSpace c = false)
    (hw : Str.startsWith w p = false) : Str.startsWith l p = false := by
  rw [← Bool.not_eq_true]
  intro h
  rw [Str.startsWith, List.isPrefixOf_iff_prefix] at h
  obtain ⟨t, rfl⟩ := h
  obtain ⟨w', ws', h1, h2⟩ := fields_start (b := t) hp hs
  have := fields_unique hf h1
  simp only [List.cons.injEq] at this
  rw [this.1, Str.startsWith, List.isPrefixOf_iff_prefix.2 h2] at hw
  cases hw

theorem type_num {n : Numeral} (hn : n.Valid) : determine_type n.text = if n.IsInt then .int else .float := by
  have := determine_type_number [] [] n hn (by simp) EndsNumber.nil (by simp)
  simpa using this

theorem single_plain {rd : Numeral → F64} {w : Nat} {kind spec : Str} {ind : Numeral} {vals : List Numeral} (hi : ind.Valid ∧ ind.IsInt)
    (hr : ∀ n ∈ vals, parse_float_or_rational n.text = .ok (rd n)) (d : Dict Key PyVal) :
    single w d (kind :: spec :: ind.text :: vals.map Numeral.text) =
      setSub true d (.str kind) (MgAtoms.atomKey spec ind) (MgAtoms.tuple rd vals) := by
  rw [single, type_num hi.1, if_pos hi.2, if_neg (by decide)]
  dsimp only
  rw [floats_of hr]
  show (atomKey _ _ >>= _) = _
  rw [atomKey_of hi]; rfl

theorem splitEnd_append (a b : Str) : splitEnd b.length (a ++ b) = (a, b) := by
  have : (a ++ b).length - b.length = a.length := by simp
  rw [splitEnd, this, List.take_left, List.drop_left]

theorem single_glued {rd : Numeral → F64} {w : Nat} {kind spec : Str} {ind : Numeral} {vals : List Numeral} (hi : ind.Valid ∧ ind.IsInt)
    (hr : ∀ n ∈ vals, parse_float_or_rational n.text = .ok (rd n)) (hv : ∀ n ∈ vals, n.Valid) (hw : ind.text.length = w)
    (hf : ∃ n ∈ vals.head?, ¬ n.IsInt) (d : Dict Key PyVal) :
    single w d (kind :: (spec ++ ind.text) :: vals.map Numeral.text) =
      setSub true d (.str kind) (MgAtoms.atomKey spec ind) (MgAtoms.tuple rd vals) := by
  obtain ⟨n, hn, hni⟩ := hf
  cases vals with
  | nil => cases hn
  | cons m vals =>
    simp only [List.head?_cons, Option.mem_def, Option.some.injEq] at hn
    subst hn
    rw [List.map_cons, single, type_num (hv m (by simp)), if_neg hni, if_pos rfl, ← hw, splitEnd_append]
    dsimp only
    rw [← List.map_cons, floats_of hr]
    show (atomKey _ _ >>= _) = _
    rw [atomKey_of hi]; rfl

theorem coupling_of {rd : Numeral → F64} {kind sa sb : Str} {ia ib : Numeral} {vals : List Numeral} (hi : (ia.Valid ∧ ia.IsInt) ∧ ib.Valid ∧ ib.IsInt)
    (hr : ∀ n ∈ vals, parse_float_or_rational n.text = .ok (rd n)) (d : Dict Key PyVal) :
    coupling d (kind :: sa :: ia.text :: sb :: ib.text :: vals.map Numeral.text) =
      setSub true d (.str kind) (.tup [MgAtoms.atomKey sa ia, MgAtoms.atomKey sb ib]) (MgAtoms.tuple rd vals) := by
  rw [coupling, floats_of hr]
  show (atomKey _ _ >>= _) = _
  rw [atomKey_of hi.1]
  show (atomKey _ _ >>= _) = _
  rw [atomKey_of hi.2]; rfl

theorem tensorKinds_units {k : Str} (h : k ∈ tensorKinds) : Str.startsWith k (py"units") = false := by
  revert k; decide

theorem magres_line {rd : Numeral → F64} {w : Nat} {l : Str} {i : MgTensor} (h : i.Line w l) (hi : i.IndOk)
    (hv : ∀ n ∈ i.nums, n.Valid) (hr : ∀ n ∈ i.nums, parse_float_or_rational n.text = .ok (rd n)) (es : List (Str × Key × PyVal)) :
    magresStep w (MgTensor.byKind es) l = .ok (MgTensor.byKind (addEntry rd es i)) := by
  cases i with
  | units k v =>
    obtain ⟨h1, h2⟩ := h
    rw [magresStep, if_pos h1, unitsLine, fields_split h2]
    exact setSub_byKind es (py"units", .str k, .str v)
  | single kind spec ind vals =>
    obtain ⟨h1, h2⟩ := h
    have hm : kind ∈ SINGLE := h1
    rcases h2 with h2 | ⟨h2, h3, h4⟩
    · rw [magresStep, if_neg (by rw [starts_word h2 (by simp) (by decide) (tensorKinds_units h1)]; simp), fields_split h2]
      dsimp only
      rw [if_pos hm, single_plain (rd := rd) (vals := vals) hi hr]
      exact setSub_byKind es (kind, _, _)
    · rw [magresStep, if_neg (by rw [starts_word h4 (by simp) (by decide) (tensorKinds_units h1)]; simp), fields_split h4]
      dsimp only
      rw [if_pos hm, single_glued (rd := rd) (vals := vals) hi hr hv h2 h3]
      exact setSub_byKind es (kind, _, _)
  | couple kind sa ia sb ib vals =>
    obtain ⟨h1, h2⟩ := h
    have hm : kind ∉ SINGLE := by
      intro hm
      have : ∀ k ∈ SINGLE, Str.startsWith k (py"isc") = false := by decide
      rw [this kind hm] at h1; cases h1
    rw [magresStep, if_neg (by rw [starts_word h2 (by simp) (by decide) (starts_other h1 (by decide))]; simp), fields_split h2]
    dsimp only
    rw [if_neg hm, if_pos h1, coupling_of (rd := rd) (vals := vals) hi hr]
    exact setSub_byKind es (kind, _, _)
  | other =>
    obtain ⟨h1, k, ws, h2, h3, h4⟩ := h
    rw [magresStep, if_neg (by rw [h1]; simp), fields_split h2]
    dsimp only
    rw [if_neg (show k ∉ SINGLE from h3), if_neg (by rw [h4]; simp)]
    rfl

theorem close_other {w : Nat} {l : Str} (h : CloseLine l) : MgTensor.Line w l .other := by
  refine ⟨close_starts h (by decide) (by decide), ?_⟩
  obtain ⟨g, x, g', rfl, hg, hg', hc⟩ := close_word h
  refine ⟨91 :: 47 :: x, [], ?_, ?_, rfl⟩
  · have : Fields (g ++ (91 :: 47 :: x) ++ g') ((91 :: 47 :: x) :: []) :=
      .cons (fun c hc' => by simp [hg c hc']) (by simp) (fun c hc' => by simp [hc c hc'])
        (fun c hc' => by simp [hg' c (List.mem_of_mem_head? hc')]) (.nil fun c hc' => by simp [hg' c hc'])
    simpa using this
  · intro hm
    have : ∀ k ∈ tensorKinds, k.head? ≠ some 91 := by decide
    exact this _ hm rfl

/-- The loop of the aliases when the new names are new. -/
theorem alias_new {news : List Key} : ∀ (l : List (Key × Key)) (d done : Dict Key PyVal), (l.map Prod.snd).Nodup → (∀ p ∈ l, p.2 ∈ news) →
    (∀ p ∈ l, p.1 ∉ news) → (∀ k ∈ d.keys, k ∉ news) → (∀ k ∈ done.keys, k ∈ news) → (∀ p ∈ l, p.2 ∉ done.keys) →
    aliasInplace false (d ++ done) l = d ++ (done ++ l.filterMap fun p => (Dict.get? d p.1).map fun v => (p.2, v))
  | [], d, done, _, _, _, _, _, _ => by simp [aliasInplace]
  | (frm, new) :: l, d, done, hn, h1, h2, h3, h4, h5 => by
    rw [List.map_cons, List.nodup_cons] at hn
    have e1 : Dict.get? (d ++ done) frm = Dict.get? d frm := by
      cases hg : Dict.get? d frm with
      | none =>
        rw [Dict.get?_append_right ((Dict.get?_eq_none d frm).1 hg)]
        rw [Dict.get?_eq_none]
        intro hk
        exact h2 (frm, new) (by simp) (h4 _ hk)
      | some v => exact get?_append_left hg
    rw [aliasInplace, e1, List.filterMap_cons]
    cases hg : Dict.get? d frm with
    | none =>
      exact alias_new l d done hn.2 (fun p hp => h1 p (by simp [hp])) (fun p hp => h2 p (by simp [hp])) h3 h4 (fun p hp => h5 p (by simp [hp]))
    | some v =>
      dsimp only [Option.map_some]
      rw [if_neg (by simp)]
      have hnew : new ∉ Dict.keys d := fun hk => h3 _ hk (h1 (frm, new) (by simp))
      rw [Dict.set_append_right hnew, Dict.set_eq_append _ _ _ (h5 (frm, new) (by simp))]
      rw [alias_new l d (done ++ [(new, v)]) hn.2 (fun p hp => h1 p (by simp [hp])) (fun p hp => h2 p (by simp [hp])) h3]
      · simp
      · intro k hk
        simp only [Dict.keys, List.map_append, List.mem_append, List.map_cons, List.map_nil, List.mem_singleton] at hk
        rcases hk with hk | rfl
        · exact h4 k hk
        · exact h1 (frm, _) (by simp)
      · intro p hp hk
        simp only [Dict.keys, List.map_append, List.mem_append, List.map_cons, List.map_nil, List.mem_singleton] at hk
        rcases hk with hk | hk
        · exact h5 p (by simp [hp]) hk
        · exact hn.1 (List.mem_map.2 ⟨p, hp, hk⟩)
where
  get?_append_left {d done : Dict Key PyVal} {k : Key} {v : PyVal} (h : Dict.get? d k = some v) : Dict.get? (d ++ done) k = some v := by
    induction d with
    | nil => cases h
    | cons p d ih =>
      rw [Dict.get?] at h
      rw [List.cons_append, Dict.get?]
      by_cases hp : p.1 = k
      · rw [if_pos hp] at h ⊢; exact h
      · rw [if_neg hp] at h ⊢; exact ih h

theorem entry_kind {rd : Numeral → F64} {w : Nat} {l : Str} {i : MgTensor} (h : i.Line w l) {e : Str × Key × PyVal} (he : i.entry rd = some e) :
    e.1 ∈ py"units" :: tensorKinds ∨ Str.startsWith e.1 (py"isc") = true := by
  cases i with
  | units k v => simp only [MgTensor.entry, Option.some.injEq] at he; subst he; left; simp
  | single kind spec ind vals => simp only [MgTensor.entry, Option.some.injEq] at he; subst he; left; exact List.mem_cons_of_mem _ h.1
  | couple kind sa ia sb ib vals => simp only [MgTensor.entry, Option.some.injEq] at he; subst he; right; exact h.1
  | other => cases he

theorem magres_all {rd : Numeral → F64} {ls : List Str} {its : List MgTensor} {v : Int} {w : Nat} (hw : w = if v < 22 then 3 else 5)
    (h : List.Forall₂ (MgTensor.Line w) ls its)
    (hi : ∀ i ∈ its, i.IndOk) (hv : ∀ i ∈ its, ∀ n ∈ i.nums, n.Valid)
    (hr : ∀ i ∈ its, ∀ n ∈ i.nums, parse_float_or_rational n.text = .ok (rd n)) {last : Str} (hl : CloseLine last) :
    magres v (ls ++ [last]) = .ok (MgTensor.table rd its) := by
  subst hw
  have e1 := foldLines_abs (f := magresStep (if v < 22 then 3 else 5)) (abs := MgTensor.byKind) (put := addEntry rd) h
    (fun s l e h he => magres_line h (hi e he) (hv e he) (hr e he) s) []
  rw [magres, foldLines_append]
  rw [show ([] : Dict Key PyVal) = MgTensor.byKind [] from rfl, e1]
  show ((magresStep _ _ last >>= _) >>= _) = _
  rw [magres_line (rd := rd) (close_other hl) trivial (by intro n hn; cases hn) (by intro n hn; cases hn)]
  show Except.ok (add_aliases _ ALIASES).2 = _
  have e2 : ∀ d : Dict Key PyVal, (add_aliases d ALIASES).2 = aliasInplace false d ALIASES := fun d => aliasLoop_inplace false ALIASES ⟨d, d⟩
  rw [e2]
  show Except.ok (aliasInplace false (MgTensor.byKind (its.foldl (addEntry rd) [])) ALIASES) = _
  rw [addEntry_all, List.nil_append]
  have := alias_new (news := ALIASES.map Prod.snd) ALIASES (MgTensor.byKind (its.filterMap (MgTensor.entry rd))) [] (by decide)
    (fun p hp => List.mem_map_of_mem hp) (by decide) ?_ (by intro k hk; cases hk) (by intro p _ hk; cases hk)
  · rw [List.append_nil] at this
    rw [this, MgTensor.table]
    rfl
  · intro k hk
    simp only [Dict.keys, MgTensor.byKind, List.map_map, List.mem_map, Function.comp] at hk
    obtain ⟨x, hx, rfl⟩ := hk
    obtain ⟨e, he, rfl⟩ := ((kinds_spec _).2 x).1 hx
    obtain ⟨i, hi', hie⟩ := List.mem_filterMap.1 he
    obtain ⟨l, hl'⟩ : ∃ l, MgTensor.Line (if v < 22 then 3 else 5) l i := by
      clear hi hv hr e1 hx he
      induction h with
      | nil => cases hi'
      | cons a _ ih =>
        rw [List.mem_cons] at hi'
        rcases hi' with rfl | hi'
        · exact ⟨_, a⟩
        · exact ih hi'
    rcases entry_kind hl' hie with hk | hk
    · have : ∀ k ∈ py"units" :: tensorKinds, Key.str k ∉ ALIASES.map Prod.snd := by decide
      exact this _ hk
    · intro hm
      have h0 : ∀ k ∈ ALIASES.map Prod.snd, ∃ c t, k = Key.str (c :: t) ∧ c ≠ 105 := by
        intro k hk
        simp only [ALIASES, List.map_cons, List.map_nil, List.mem_cons, List.not_mem_nil, or_false] at hk
        rcases hk with rfl | rfl | rfl | rfl | rfl | rfl | rfl | rfl | rfl <;> exact ⟨_, _, rfl, by decide⟩
      obtain ⟨c, t, hc, hc'⟩ := h0 _ hm
      simp only [Key.str.injEq] at hc
      rw [hc] at hk
      change ((105 : Nat) == c && _) = true at hk
      rw [beq_false_of_ne (Ne.symm hc')] at hk
      cases hk

/-! ### The old section -/

theorem get?_mapped {f : Key × PyVal → PyVal} {k : Key} {v : PyVal} : ∀ {c : Dict Key PyVal}, Dict.get? c k = some v →
    Dict.get? (c.map fun kv => (kv.1, f kv)) k = some (f (k, v))
  | [], h => by cases h
  | p :: c, h => by
    rw [Dict.get?] at h
    rw [List.map_cons, Dict.get?]
    by_cases hp : p.1 = k
    · rw [if_pos hp] at h ⊢
      obtain ⟨a, b⟩ := p
      simp only at hp; subst hp
      simp only [Option.some.injEq] at h; subst h; rfl
    · rw [if_neg hp] at h ⊢; exact get?_mapped h

theorem set_mapped {f f' : Key × PyVal → PyVal} {k : Key} {v : PyVal} (hf : ∀ kv, kv.1 ≠ k → f' kv = f kv) : ∀ {c : Dict Key PyVal}, c.keys.Nodup →
    Dict.get? c k = some v → Dict.set (c.map fun kv => (kv.1, f kv)) k (f' (k, v)) = c.map fun kv => (kv.1, f' kv)
  | [], _, h => by cases h
  | p :: c, hn, h => by
    rw [Dict.keys, List.map_cons, List.nodup_cons] at hn
    rw [Dict.get?] at h
    rw [List.map_cons, Dict.set, List.map_cons]
    by_cases hp : p.1 = k
    · rw [if_pos hp] at h ⊢
      obtain ⟨a, b⟩ := p
      simp only at hp; subst hp
      simp only [Option.some.injEq] at h; subst h
      congr 1
      apply List.map_congr_left
      intro x hx
      rw [hf x (by intro e; exact hn.1 (List.mem_map.2 ⟨x, hx, e⟩))]
    · rw [if_neg hp] at h ⊢
      rw [set_mapped hf hn.2 h, hf p hp]

theorem put_lists {rd fl : Numeral → F64} {d : Dict Key PyVal} {i : MgOld} (hi : i.Ok)
    (h : ListAt d (py"eigvenvalue") ∧ ListAt d (py"eigvenvector")) :
    ListAt (i.put rd fl d) (py"eigvenvalue") ∧ ListAt (i.put rd fl d) (py"eigvenvector") := by
  cases i with
  | eigenvalue s i v => exact ⟨Dos.addAll_listAt h.1, Dos.addAll_listAt h.2⟩
  | eigenvector s i v => exact ⟨Dos.addAll_listAt h.1, Dos.addAll_listAt h.2⟩
  | value s i name v =>
    obtain ⟨-, -, -, -, h1, h2⟩ := hi
    have key : ∀ k : Str, Str.lower name ≠ k → ListAt d k → ListAt (d.set (.str (Str.lower name)) (.float (fl v))) k := by
      intro k hk h
      rw [ListAt, Dict.get?_set_ne _ _ _ _ (by simpa using Ne.symm hk)]
      exact h
    exact ⟨key _ h1 h.1, key _ h2 h.2⟩
  | frame => exact h
  | shielding rows => exact h
  | other => exact h

theorem puts_lists {rd fl : Numeral → F64} : ∀ {its : List MgOld} {d : Dict Key PyVal}, (∀ i ∈ its, i.Ok) →
    (ListAt d (py"eigvenvalue") ∧ ListAt d (py"eigvenvector")) →
    ListAt (its.foldl (MgOld.put rd fl) d) (py"eigvenvalue") ∧ ListAt (its.foldl (MgOld.put rd fl) d) (py"eigvenvector")
  | [], _, _, h => h
  | i :: its, d, hi, h => puts_lists (its := its) (d := i.put rd fl d) (fun j hj => hi j (by simp [hj])) (put_lists (hi i (by simp)) h)

/-- The entry of an atom updated. -/
theorem updAtom_of {rd fl : Numeral → F64} {coords : Dict Key PyVal} {done : List MgOld} {i : MgOld} {k : Key} {f : Dict Key PyVal → PyM (Dict Key PyVal)}
    (hn : coords.keys.Nodup) (hk : k ∈ coords.keys) (hi : i.atom? = some k)
    (hd : ∀ j ∈ done, j.Ok)
    (hf : ∀ d, ListAt d (py"eigvenvalue") → ListAt d (py"eigvenvector") → f d = .ok (i.put rd fl d)) :
    updAtom (MgOld.atoms rd fl coords done) k f = .ok (MgOld.atoms rd fl coords (done ++ [i])) := by
  obtain ⟨v, hv⟩ : ∃ v, Dict.get? coords k = some v := by
    cases h : Dict.get? coords k with
    | none => exact absurd hk ((Dict.get?_eq_none coords k).1 h)
    | some v => exact ⟨v, rfl⟩
  have hl := puts_lists (rd := rd) (fl := fl) (its := done.filter fun i => i.atom? = some k) (d := [(.str (py"coords"), v)])
    (fun j hj => hd j (List.mem_filter.1 hj).1) ⟨.inl rfl, .inl rfl⟩
  rw [updAtom, MgOld.atoms]
  rw [get?_mapped (f := fun kv => PyVal.dict ((done.filter fun i => i.atom? = some kv.1).foldl (MgOld.put rd fl) [(.str (py"coords"), kv.2)])) hv]
  dsimp only
  rw [hf _ hl.1 hl.2]
  show Except.ok (Dict.set _ k _) = _
  have := set_mapped (f := fun kv => PyVal.dict ((done.filter fun i => i.atom? = some kv.1).foldl (MgOld.put rd fl) [(.str (py"coords"), kv.2)]))
    (f' := fun kv => PyVal.dict (((done ++ [i]).filter fun i => i.atom? = some kv.1).foldl (MgOld.put rd fl) [(.str (py"coords"), kv.2)]))
    (k := k) (v := v) (c := coords) ?_ hn hv
  · rw [MgOld.atoms, ← this]
    congr 3
    rw [List.filter_append, List.foldl_append]
    simp [hi]
  · intro kv hkv
    rw [List.filter_append]
    have : [i].filter (fun i => i.atom? = some kv.1) = [] := by
      rw [List.filter_singleton, hi]
      simp [Ne.symm hkv]
    rw [this, List.append_nil]

theorem atoms_skip {rd fl : Numeral → F64} {coords : Dict Key PyVal} {done : List MgOld} {i : MgOld} (h : i.atom? = none) :
    MgOld.atoms rd fl coords (done ++ [i]) = MgOld.atoms rd fl coords done := by
  rw [MgOld.atoms, MgOld.atoms]
  apply List.map_congr_left
  intro kv _
  rw [List.filter_append]
  have : [i].filter (fun i => i.atom? = some kv.1) = [] := by simp [h]
  rw [this, List.append_nil]

theorem name_key {name : Str} (hne : name ≠ []) (h : MgOld.Letters name) : normalise_key (name ++ py":") = Str.lower name := by
  have hw : alnumWords (name ++ py":") = [name] := by
    apply wordsAux_of
    have : Words (fun c => isAlnum c) ([] ++ name ++ py":") [name] :=
      .cons (by simp) hne (fun c hc => by
        have := h c hc
        simp [isAlnum, isAlpha, isLower, isUpper, isDigit]
        omega) (fun c hc => by simp at hc; subst hc; decide) (.nil (by decide))
    simpa using this
  rw [normalise_key_eq, hw]; rfl

theorem old_data {rd fl : Numeral → F64} {coords : Dict Key PyVal} {done : List MgOld} {i : MgOld} {l : Str} (h : i.Lines [l]) (hk : i.Ok) {k : Key}
    (ha : i.atom? = some k) (hn : coords.keys.Nodup) (hc : k ∈ coords.keys) (hd : ∀ j ∈ done, j.Ok)
    (hr : ∀ n ∈ i.nums, parse_float_or_rational n.text = .ok (rd n)) (hf : ∀ n ∈ i.nums, pyFloat n.text = .ok (fl n)) :
    oldLine (MgOld.atoms rd fl coords done) l = .ok (MgOld.atoms rd fl coords (done ++ [i])) := by
  cases i with
  | frame => cases ha
  | shielding rows => cases ha
  | other => cases ha
  | eigenvalue spec ind v =>
    obtain ⟨l', which, more, e, h1, -⟩ := h
    cases e; cases ha
    rw [oldLine, fields_split h1]
    dsimp only
    rw [atomKey_of hk]
    refine updAtom_of hn hc rfl hd ?_
    intro d h1 h2
    have : floatItem (which :: v.text :: more) 1 = .ok (.float (fl v)) := by
      show (pyFloat v.text >>= _) = _
      rw [hf v (by simp [MgOld.nums])]; rfl
    rw [this]
    exact Phonon.appendTo_addAll h1
  | eigenvector spec ind vs =>
    obtain ⟨l', which, e, h1, -⟩ := h
    cases e; cases ha
    rw [oldLine, fields_split h1]
    dsimp only
    rw [atomKey_of hk]
    refine updAtom_of hn hc rfl hd ?_
    intro d h1 h2
    have : to_type .float (strList (List.drop 1 (which :: vs.map Numeral.text))) = .ok (MgAtoms.tuple rd vs) := floats_of hr
    rw [this]
    exact Phonon.appendTo_addAll h2
  | value spec ind name v =>
    obtain ⟨l', more, e, h1, -⟩ := h
    cases e; cases ha
    obtain ⟨i1, i2, hne, hl, -, -⟩ := hk
    rw [oldLine, fields_split h1]
    dsimp only
    rw [atomKey_of ⟨i1, i2⟩]
    have hlast : ∀ s : Str, s.getLast? ≠ some 58 → name ++ py":" ≠ s := by
      rintro s hs rfl; exact hs (by simp)
    have : floatItem (v.text :: more) 0 = .ok (.float (fl v)) := by
      show (pyFloat v.text >>= _) = _
      rw [hf v (by simp [MgOld.nums])]; rfl
    show (if name ++ py":" = py"Eigenvalue" then _ else _) = _
    rw [if_neg (hlast _ (by decide)), if_neg (hlast _ (by decide)), if_pos (by simp), this]
    refine updAtom_of hn hc rfl hd ?_
    intro d _ _
    rw [name_key hne hl]; rfl

/-- The words of a line of numbers. -/
theorem numbers_gaps : ∀ {ns : List Numeral} {l : Str}, Fields l (ns.map Numeral.text) → (∀ n ∈ ns, n.Valid) →
    ∃ ps : List (Str × Numeral), ∃ t, ps.map Prod.snd = ns ∧ l = ps.flatMap gapNum ++ t ∧ Blank t ∧ (∀ p ∈ ps, Blank p.1 ∧ p.2.Valid) ∧
      ∀ p ∈ ps.tail, p.1 ≠ []
  | [], l, h, _ => ⟨[], l, rfl, rfl, blank_of_fields h, by simp, by simp⟩
  | n :: ns, l, h, hv => by
    obtain ⟨g, s, rfl, h1, -, -, h4⟩ := fields_next h
    obtain ⟨ps, t, e1, rfl, e3, e4, e5⟩ := numbers_gaps h4.2 fun m hm => hv m (by simp [hm])
    refine ⟨(g, n) :: ps, t, by rw [List.map_cons, e1], by simp [gapNum], e3, ?_, ?_⟩
    · intro p hp
      rw [List.mem_cons] at hp
      rcases hp with rfl | hp
      · exact ⟨h1, hv n (by simp)⟩
      · exact e4 p hp
    · rw [List.tail_cons]
      cases ps with
      | nil => intro p hp; cases hp
      | cons q ps =>
        intro p hp
        rw [List.mem_cons] at hp
        rcases hp with rfl | hp
        · intro hg
          obtain ⟨c, r, hc, hcn⟩ := text_head p.2 (e4 p (by simp)).2
          have := h4.1 c (by simp [gapNum, hg, hc])
          rw [numChar_nospace hcn] at this; cases this
        · exact e5 p hp

theorem numbers_fields {ns : List Numeral} {l : Str} (h : Fields l (ns.map Numeral.text)) (hv : ∀ n ∈ ns, n.Valid) :
    Res.get_numbers l = ns.map Numeral.text := by
  obtain ⟨ps, t, rfl, rfl, h3, h4, h5⟩ := numbers_gaps h hv
  rw [MdFrame.get_numbers_row ps t h4 h5 (fun c hc => (MdFrame.space_facts (h3 c hc)).1)
    (fun c hc => (MdFrame.space_facts (h3 c (List.mem_of_mem_head? hc))).2.1), List.map_map]
  rfl

theorem valRows_skip {l : Str} (h : NoDigit l) (rest : List Str) : Elastic.valRows (l :: rest) = Elastic.valRows rest := by
  rw [Elastic.valRows, Castep.noDigit_numbers h]; rfl

theorem blank_noDigit {l : Str} (h : Blank l) : NoDigit l := fun c hc => (MdFrame.space_facts (h c hc)).1

theorem valRows_all {rd : Numeral → F64} {ls : List Str} {rows : List (List Numeral)}
    (h : List.Forall₂ (fun l ns => Fields l (ns.map Numeral.text)) ls rows) (hne : ∀ r ∈ rows, r ≠ [])
    (hv : ∀ r ∈ rows, ∀ n ∈ r, n.Valid) (hr : ∀ r ∈ rows, ∀ n ∈ r, parse_float_or_rational n.text = .ok (rd n)) {last : Str} (hl : Blank last) :
    Elastic.valRows (ls ++ [last]) = .ok (rows.map (MgAtoms.tuple rd)) := by
  induction h with
  | nil => rw [List.nil_append, valRows_skip (blank_noDigit hl)]; rfl
  | @cons l ns ls rows h1 _ ih =>
    have e := numbers_fields h1 (hv ns (by simp))
    rw [List.cons_append, Elastic.valRows, if_neg, numbersOf, e, floats_of (hr ns (by simp)),
      ih (fun r hr => hne r (by simp [hr])) (fun r h => hv r (by simp [h])) (fun r h => hr r (by simp [h]))]
    · rfl
    · rw [e]; simpa using hne ns (by simp)

theorem oldLoop_cons (fuel : Nat) (line : Str) (rest : List Str) (t : PyVal) (info : Dict Key PyVal) :
    oldLoop (fuel + 1) (line :: rest) t info = (
    match Block.from_re line rest (found SHIELDING_RE) (found Ts.EMPTY_RE) 2 with
    | (.error e, _) => .error e
    | (.ok b, rest) =>
      if b.truthy then do
        let rows ← Elastic.valRows b.data
        oldLoop fuel rest (.list rows) info
      else do
        let (info, rest) ← oldOther line rest info
        oldLoop fuel rest t info) := rfl

theorem not_blank {ns : List Numeral} {l : Str} (h : Fields l (ns.map Numeral.text)) (hne : ns ≠ []) : ¬ Blank l := by
  intro hb
  have := fields_unique (fields_blank hb) h
  cases ns with
  | nil => exact hne rfl
  | cons n ns => cases this

theorem shielding_step {rd : Numeral → F64} {rows : List (List Numeral)} {ls : List Str} (h : MgOld.Lines ls (.shielding rows)) (hk : MgOld.Ok (.shielding rows))
    (hv : ∀ n ∈ rows.flatten, n.Valid) (hr : ∀ n ∈ rows.flatten, parse_float_or_rational n.text = .ok (rd n))
    (fuel : Nat) (rest : List Str) (t : PyVal) (info : Dict Key PyVal) :
    oldLoop (fuel + 1) (ls ++ rest) t info = oldLoop fuel rest (.list (rows.map (MgAtoms.tuple rd))) info := by
  obtain ⟨title, gap, inner, last, rfl, h1, h2, h3, h4, h5⟩ := h
  have hv' : ∀ r ∈ rows, ∀ n ∈ r, n.Valid := fun r hr n hn => hv n (List.mem_flatten.2 ⟨r, hr, hn⟩)
  have hr' : ∀ r ∈ rows, ∀ n ∈ r, parse_float_or_rational n.text = .ok (rd n) := fun r h n hn => hr n (List.mem_flatten.2 ⟨r, h, hn⟩)
  have hfil : (gap :: inner).filter (found Ts.EMPTY_RE) = [gap] := by
    rw [List.filter_cons, if_pos ((empty_iff _).2 h3)]
    have : inner.filter (found Ts.EMPTY_RE) = [] := by
      rw [List.filter_eq_nil_iff]
      intro x hx he
      have hb := (empty_iff _).1 he
      clear hr hv hv' hr'
      induction h5 with
      | nil => cases hx
      | @cons l ns ls rows h1 _ ih =>
        rw [List.mem_cons] at hx
        rcases hx with rfl | hx
        · exact not_blank h1 (hk ns (by simp)) hb
        · exact ih (fun r hr => hk r (by simp [hr])) hx
    rw [this]
  have e : title :: gap :: (inner ++ [last]) ++ rest = title :: ((gap :: inner) ++ last :: rest) := by simp
  have ht : Block.truthy ⟨0, 0, title :: (gap :: inner ++ [last])⟩ = true := by
    rw [Block.truthy, List.any_cons]
    have := strip_occurs h1 (c := 84) (by decide) (by decide)
    cases hs : Str.strip title with
    | nil => exact absurd hs this
    | cons a b => simp
  rw [e, oldLoop_cons, from_re_lines _ _ _ _ _ _ 2 _ ((names_shielding _).2 h1) (by rw [hfil]; rfl) ((empty_iff _).2 h4)]
  dsimp only
  rw [if_pos ht]
  rw [List.cons_append, valRows_skip h2, valRows_skip (blank_noDigit h3), valRows_all h5 hk hv' hr' h4]
  rfl

theorem other_step {l : Str} (h : ¬ Occurs (py"TOTAL Shielding Tensor") l) (fuel : Nat) (rest : List Str) (t : PyVal) (info : Dict Key PyVal) :
    oldLoop (fuel + 1) (l :: rest) t info = (oldOther l rest info >>= fun r => oldLoop fuel r.2 t r.1) := by
  rw [oldLoop_cons, Block.from_re, names_shielding.false h]
  simp [Block.init, Block.truthy]

theorem oldOther_plain {l : Str} (h : l.head? ≠ some 61) (rest : List Str) (info : Dict Key PyVal) :
    oldOther l rest info = if !(Str.strip l).isEmpty && !((91 : Nat) ∈ l : Bool) then do
      let info ← oldLine info l
      return (info, rest)
    else return (info, rest) := by
  rw [oldOther, tryBlock_none _ _ _ _ _ (no_rule h)]; rfl

theorem data_step {l : Str} {ws : List Str} (h : MgOld.Data l ws) (hw : ws ≠ []) {info info' : Dict Key PyVal} (hl : oldLine info l = .ok info')
    (fuel : Nat) (rest : List Str) (t : PyVal) : oldLoop (fuel + 1) (l :: rest) t info = oldLoop fuel rest t info' := by
  obtain ⟨h1, h2, h3, h4⟩ := h
  rw [other_step h2, oldOther_plain h3, if_pos, hl]; rfl
  have : ¬ Blank l := by
    intro hb
    exact hw (fields_unique (fields_blank hb) h1).symm
  rw [Bool.and_eq_true]
  refine ⟨?_, by simpa using h4⟩
  rw [Bool.not_eq_true']
  rw [List.isEmpty_eq_false_iff]
  intro e
  exact this ((strip_nil_iff _).1 e)

theorem rule_strip {l : Str} (h : MgOld.Rule l) : Str.strip l ≠ [] := by
  obtain ⟨n, hn, h⟩ := h
  intro e
  have hm : (61 : Nat) ∈ l := by
    rcases h with rfl | rfl
    · simp; omega
    · simp; omega
  have := (strip_nil_iff _).1 e 61 hm
  revert this; decide

theorem rule_not_title {l : Str} (h : MgOld.Rule l) : ¬ Occurs (py"TOTAL Shielding Tensor") l := by
  rintro ⟨u, v, rfl⟩
  obtain ⟨n, -, h⟩ := h
  have hm : (84 : Nat) ∈ u ++ py"TOTAL Shielding Tensor" ++ v := by simp
  rcases h with h | h
  · rw [h] at hm
    have := List.eq_of_mem_replicate hm
    cases this
  · rw [h, List.mem_append] at hm
    rcases hm with hm | hm
    · have := List.eq_of_mem_replicate hm
      cases this
    · revert hm; decide

theorem frame_step {ls : List Str} (h : MgOld.Lines ls .frame) (fuel : Nat) (rest : List Str) (t : PyVal) (info : Dict Key PyVal) :
    oldLoop (fuel + 1) (ls ++ rest) t info = oldLoop fuel rest t info := by
  obtain ⟨first, inner, last, rfl, h1, h2, h3⟩ := h
  have e : first :: (inner ++ [last]) ++ rest = first :: (inner ++ last :: rest) := by simp
  rw [e, other_step (rule_not_title h1), oldOther, tryBlock_lines _ _ _ _ _ _ _ (rule_found h1) (fun l hl => no_rule (h3 l hl)) (rule_found h2) (rule_strip h1)]
  rfl

theorem other_line_step {ls : List Str} (h : MgOld.Lines ls .other) (fuel : Nat) (rest : List Str) (t : PyVal) (info : Dict Key PyVal) :
    oldLoop (fuel + 1) (ls ++ rest) t info = oldLoop fuel rest t info := by
  obtain ⟨l, rfl, h1, h2, h3⟩ := h
  rw [List.cons_append, List.nil_append, other_step h1, oldOther_plain h2]
  rcases h3 with hb | hb | ⟨spec, ind, key, vals, hf, hv, hi, k1, k2, k3⟩
  · rw [if_neg]; rfl
    rw [(strip_nil_iff _).2 hb]; simp
  · rw [if_neg]; rfl
    simp [hb]
  · have : oldLine info l = .ok info := by
      rw [oldLine, fields_split hf]
      dsimp only
      rw [atomKey_of ⟨hv, hi⟩]
      show (if key = py"Eigenvalue" then _ else _) = _
      rw [if_neg k1, if_neg k2, if_neg k3]; rfl
    rw [this]
    split <;> rfl

theorem tensors_snoc (rd : Numeral → F64) (done : List MgOld) (i : MgOld) :
    MgOld.tensors rd (done ++ [i]) = MgOld.tensors rd done ++ MgOld.tensors rd [i] := by
  rw [MgOld.tensors, List.filterMap_append]; rfl

/-- One item. -/
theorem old_step {rd fl : Numeral → F64} {coords : Dict Key PyVal} {done : List MgOld} {i : MgOld} {ls : List Str} (h : i.Lines ls) (hk : i.Ok)
    (hn : coords.keys.Nodup) (hc : ∀ k, i.atom? = some k → k ∈ coords.keys) (hd : ∀ j ∈ done, j.Ok)
    (hv : ∀ n ∈ i.nums, n.Valid) (hr : ∀ n ∈ i.nums, parse_float_or_rational n.text = .ok (rd n)) (hf : ∀ n ∈ i.nums, pyFloat n.text = .ok (fl n))
    (fuel : Nat) (rest : List Str) :
    oldLoop (fuel + 1) (ls ++ rest) ((MgOld.tensors rd done).getLast?.getD .none) (MgOld.atoms rd fl coords done) =
      oldLoop fuel rest ((MgOld.tensors rd (done ++ [i])).getLast?.getD .none) (MgOld.atoms rd fl coords (done ++ [i])) := by
  cases i with
  | frame => rw [frame_step h, tensors_snoc, atoms_skip rfl]; simp [MgOld.tensors]
  | other => rw [other_line_step h, tensors_snoc, atoms_skip rfl]; simp [MgOld.tensors]
  | shielding rows =>
    rw [shielding_step h hk hv hr, tensors_snoc, atoms_skip rfl]
    simp [MgOld.tensors]
  | eigenvalue spec ind v =>
    obtain ⟨l, which, more, rfl, h1⟩ := id h
    rw [List.cons_append, List.nil_append, data_step h1 (by simp) (old_data h hk rfl hn (hc _ rfl) hd hr hf), tensors_snoc]
    simp [MgOld.tensors]
  | eigenvector spec ind vs =>
    obtain ⟨l, which, rfl, h1⟩ := id h
    rw [List.cons_append, List.nil_append, data_step h1 (by simp) (old_data h hk rfl hn (hc _ rfl) hd hr hf), tensors_snoc]
    simp [MgOld.tensors]
  | value spec ind name v =>
    obtain ⟨l, more, rfl, h1⟩ := id h
    rw [List.cons_append, List.nil_append, data_step h1 (by simp) (old_data h hk rfl hn (hc _ rfl) hd hr hf), tensors_snoc]
    simp [MgOld.tensors]

theorem lines_pos {i : MgOld} {ls : List Str} (h : i.Lines ls) : 1 ≤ ls.length := by
  cases i with
  | frame => obtain ⟨_, _, _, rfl, -⟩ := h; simp
  | other => obtain ⟨_, rfl, -⟩ := h; simp
  | shielding rows => obtain ⟨_, _, _, _, rfl, -⟩ := h; simp
  | eigenvalue spec ind v => obtain ⟨_, _, _, rfl, -⟩ := h; simp
  | eigenvector spec ind v => obtain ⟨_, _, rfl, -⟩ := h; simp
  | value spec ind name v => obtain ⟨_, _, rfl, -⟩ := h; simp

theorem old_steps {rd fl : Numeral → F64} {coords : Dict Key PyVal} {its : List MgOld} {ls : List (List Str)}
    (h : List.Forall₂ MgOld.Lines ls its) (hn : coords.keys.Nodup) :
    (∀ i ∈ its, i.Ok) → (∀ i ∈ its, ∀ k, i.atom? = some k → k ∈ coords.keys) → (∀ i ∈ its, ∀ n ∈ i.nums, n.Valid) →
    (∀ i ∈ its, ∀ n ∈ i.nums, parse_float_or_rational n.text = .ok (rd n)) → (∀ i ∈ its, ∀ n ∈ i.nums, pyFloat n.text = .ok (fl n)) →
    ∀ (done : List MgOld) (fuel : Nat) (rest : List Str), (∀ j ∈ done, j.Ok) → (ls.flatten ++ rest).length < fuel →
    ∃ fuel', rest.length < fuel' ∧
    oldLoop fuel (ls.flatten ++ rest) ((MgOld.tensors rd done).getLast?.getD .none) (MgOld.atoms rd fl coords done) =
      oldLoop fuel' rest ((MgOld.tensors rd (done ++ its)).getLast?.getD .none) (MgOld.atoms rd fl coords (done ++ its)) := by
  induction h with
  | nil => intro _ _ _ _ _ done fuel rest _ hf; exact ⟨fuel, by simpa using hf, by simp⟩
  | @cons l i ls its h1 _ ih =>
    intro hk hc hv hr hf done fuel rest hd hfu
    have hpos := lines_pos h1
    cases fuel with
    | zero => cases hfu
    | succ fuel =>
      have hlen : (ls.flatten ++ rest).length < fuel := by
        simp only [List.flatten_cons, List.length_append] at hfu ⊢
        omega
      obtain ⟨fuel', hf', e⟩ := ih (fun j hj => hk j (by simp [hj])) (fun j hj => hc j (by simp [hj])) (fun j hj => hv j (by simp [hj]))
        (fun j hj => hr j (by simp [hj])) (fun j hj => hf j (by simp [hj])) (done ++ [i]) fuel rest (by
          intro j hj
          rw [List.mem_append, List.mem_singleton] at hj
          rcases hj with hj | rfl
          · exact hd j hj
          · exact hk j (by simp)) hlen
      refine ⟨fuel', hf', ?_⟩
      rw [List.flatten_cons, List.append_assoc, old_step h1 (hk i (by simp)) hn (hc i (by simp)) hd (hv i (by simp)) (hr i (by simp)) (hf i (by simp)), e]
      simp

/-- A line of one word holds no text of several words. -/
theorem one_word {g w g' p q : Str} (hg : Blank g) (hg' : Blank g') (hw : ∀ c ∈ w, isSpace c = false) (hp : ¬ Blank p) (hq : ¬ Blank q) :
    g ++ (w ++ g') ≠ p ++ 32 :: q := by
  intro e
  rcases List.append_eq_append_iff.1 e with ⟨a, rfl, e2⟩ | ⟨a, rfl, e2⟩
  · rcases List.append_eq_append_iff.1 e2 with ⟨b, rfl, e3⟩ | ⟨b, rfl, e3⟩
    · exact hq fun c hc => hg' c (by rw [e3]; simp [hc])
    · cases b with
      | nil =>
        simp only [List.nil_append] at e3
        exact hq fun c hc => hg' c (by rw [← e3]; simp [hc])
      | cons x b =>
        simp only [List.cons_append, List.cons.injEq] at e3
        have := hw x (by simp)
        rw [← e3.1] at this
        revert this; decide
  · exact hp fun c hc => hg c (by simp [hc])

theorem close_old {l : Str} (h : CloseLine l) : MgOld.Lines [l] .other := by
  obtain ⟨g, w, g', rfl, hg, hg', hc⟩ := close_word h
  refine ⟨_, rfl, ?_, ?_, .inr (.inl (by simp))⟩
  · rintro ⟨u, v, e⟩
    refine one_word (p := u ++ py"TOTAL") (q := py"Shielding Tensor" ++ v) hg hg' hc ?_ ?_ (by rw [e]; simp)
    · intro hb; have := hb 84 (by simp); revert this; decide
    · intro hb; have := hb 83 (by simp); revert this; decide
  · cases g with
    | nil => simp
    | cons a g =>
      simp only [List.cons_append, List.head?_cons, ne_eq, Option.some.injEq]
      rintro rfl
      have := hg 61 (by simp)
      revert this; decide

theorem old_all {rd fl : Numeral → F64} {coords acc : Dict Key PyVal} {its : List MgOld} {ls : List (List Str)}
    (h : List.Forall₂ MgOld.Lines ls its) (hn : coords.keys.Nodup) (ha : atomInfo0 acc = .ok (coords.map fun kv => (kv.1, .dict [(.str (py"coords"), kv.2)])))
    (hk : ∀ i ∈ its, i.Ok) (hc : ∀ i ∈ its, ∀ k, i.atom? = some k → k ∈ coords.keys) (hv : ∀ i ∈ its, ∀ n ∈ i.nums, n.Valid)
    (hr : ∀ i ∈ its, ∀ n ∈ i.nums, parse_float_or_rational n.text = .ok (rd n)) (hf : ∀ i ∈ its, ∀ n ∈ i.nums, pyFloat n.text = .ok (fl n))
    {last : Str} (hl : CloseLine last) :
    magresOld acc (ls.flatten ++ [last]) = .ok ((MgOld.tensors rd its).getLast?.getD .none, MgOld.atoms rd fl coords its) := by
  obtain ⟨fuel, h1, h2⟩ := old_steps h hn hk hc hv hr hf [] ((ls.flatten ++ [last]).length + 1) [last] (by simp) (by omega)
  rw [magresOld, ha]
  show oldLoop _ _ PyVal.none (MgOld.atoms rd fl coords []) = _
  rw [show PyVal.none = ((MgOld.tensors rd []).getLast?.getD .none) from rfl, h2, List.nil_append]
  obtain ⟨fuel, rfl⟩ : ∃ f, fuel = f + 1 + 1 := ⟨fuel - 2, by simp at h1; omega⟩
  have := other_line_step (close_old hl) (fuel + 1) [] ((MgOld.tensors rd its).getLast?.getD .none) (MgOld.atoms rd fl coords its)
  rw [List.append_nil] at this
  rw [this]
  rfl

/-! ### The file -/

theorem skip_outside {ls : List Str} (h : Outside ls) {fuel : Nat} {rest : List Str} (hf : (ls ++ rest).length < fuel) (accum : Dict Key PyVal)
    (version : Option Int) : ∃ fuel', rest.length < fuel' ∧ loop fuel (ls ++ rest) accum version = loop fuel' rest accum version := by
  rw [List.length_append] at hf
  refine ⟨fuel - ls.length, by omega, ?_⟩
  have := loop_outside h (fuel - ls.length) rest accum version
  rwa [Nat.sub_add_cancel (by omega)] at this

theorem take_section {name : Str} {inner ls : List Str} (h : Section name inner ls) {fuel : Nat} {rest : List Str} (hf : (ls ++ rest).length < fuel)
    (accum : Dict Key PyVal) (version : Option Int) : ∃ last fuel', CloseLine last ∧ rest.length < fuel' ∧
      loop fuel (ls ++ rest) accum version = (block accum version name (inner ++ [last]) >>= fun r => loop fuel' rest r.1 r.2) := by
  have hp : 1 ≤ ls.length := by obtain ⟨_, _, rfl, -⟩ := h; simp
  rw [List.length_append] at hf
  obtain ⟨fuel, rfl⟩ : ∃ f, fuel = f + 1 := ⟨fuel - 1, by omega⟩
  obtain ⟨last, h1, h2⟩ := loop_section h fuel rest accum version
  exact ⟨last, fuel, h1, by omega, h2⟩

theorem block_calc {accum : Dict Key PyVal} {version : Option Int} {es : List MgCalc} {v : Numeral} {ls : List Str} (h : List.Forall₂ MgCalc.Line ls es)
    (hv : MgCalc.Version es v) {last : Str} (hl : CloseLine last) :
    block accum version (py"calculation") (ls ++ [last]) = .ok (accum.set (.str (py"calc")) (.dict (MgCalc.table es)), some (intOf v)) := by
  rw [block.eq_def, if_pos rfl, calculation_all h hl]
  show (versionOf _ >>= _) = _
  rw [version_of hv]; rfl

theorem block_atoms {rd : Numeral → F64} {accum : Dict Key PyVal} {version : Option Int} {its : List MgAtoms} {ls : List Str}
    (h : List.Forall₂ MgAtoms.Line ls its)
    (hi : ∀ i ∈ its, i.IndOk) (hr : ∀ i ∈ its, ∀ n ∈ i.nums, parse_float_or_rational n.text = .ok (rd n)) {last : Str} (hl : CloseLine last) :
    block accum version (py"atoms") (ls ++ [last]) = .ok (accum.set (.str (py"atoms")) (.dict (MgAtoms.table rd its)), version) := by
  rw [block.eq_def, if_neg (by decide), if_pos rfl, atoms_all h hi hr hl]; rfl

theorem block_magres {rd : Numeral → F64} {accum : Dict Key PyVal} {v : Int} {w : Nat} (hw : w = if v < 22 then 3 else 5) {its : List MgTensor} {ls : List Str}
    (h : List.Forall₂ (MgTensor.Line w) ls its) (hi : ∀ i ∈ its, i.IndOk) (hv : ∀ i ∈ its, ∀ n ∈ i.nums, n.Valid)
    (hr : ∀ i ∈ its, ∀ n ∈ i.nums, parse_float_or_rational n.text = .ok (rd n)) {last : Str} (hl : CloseLine last) :
    block accum (some v) (py"magres") (ls ++ [last]) = .ok (accum.set (.str (py"magres")) (.dict (MgTensor.table rd its)), some v) := by
  rw [block.eq_def, if_neg (by decide), if_neg (by decide), if_pos rfl]
  show (magres v (ls ++ [last]) >>= _) = _
  rw [magres_all hw h hi hv hr hl]; rfl

theorem coords_nodup (rd : Numeral → F64) (its : List MgAtoms) : (MgAtoms.coords rd its).keys.Nodup := Phonon.nodup_ofList _

theorem coords_mem {rd : Numeral → F64} {its : List MgAtoms} {s : Str} {n : Numeral} {p : List Numeral} (h : MgAtoms.atom s n p ∈ its) :
    MgAtoms.atomKey s n ∈ (MgAtoms.coords rd its).keys := by
  by_contra hc
  have e := (Dict.get?_eq_none _ _).2 hc
  rw [MgAtoms.coords, Dict.ofList, get?_foldl, Option.or_eq_none_iff, List.getLast?_eq_none_iff, List.filterMap_eq_nil_iff] at e
  have := e.1 (MgAtoms.atomKey s n, MgAtoms.tuple rd p) (List.mem_filterMap.2 ⟨_, h, rfl⟩)
  simp at this

theorem file_all {rd fl : Numeral → F64} {f : MgFile} {lines : List Str} (hl : f.Lines lines) (hk : f.Ok)
    (hr : ∀ n ∈ f.nums, parse_float_or_rational n.text = .ok (rd n)) (hf : ∀ n ∈ f.nums, pyFloat n.text = .ok (fl n)) :
    parse_magres_file lines = .ok (.dict (f.result rd fl)) := by
  obtain ⟨o0, c, cs, o1, a, as, o2, m, ms, o3, o, rfl, ho0, ho1, ho2, ho3, hc, hc', ha, ha', hm, hm', ho⟩ := hl
  obtain ⟨k1, k2, k3, k4, k5⟩ := hk
  have na : ∀ i ∈ f.atoms, ∀ n ∈ i.nums, n ∈ f.nums := fun i hi n hn => by
    rw [MgFile.nums, List.mem_append]; left; exact List.mem_flatMap.2 ⟨i, hi, hn⟩
  have nt : ∀ i ∈ f.tensors, ∀ n ∈ i.nums, n ∈ f.nums := fun i hi n hn => by
    rw [MgFile.nums, List.mem_append, List.mem_append]; right; left; exact List.mem_flatMap.2 ⟨i, hi, hn⟩
  have no : ∀ i ∈ f.old.getD [], ∀ n ∈ i.nums, n ∈ f.nums := fun i hi n hn => by
    rw [MgFile.nums, List.mem_append, List.mem_append]; right; right; exact List.mem_flatMap.2 ⟨i, hi, hn⟩
  rw [parse_magres_file]
  obtain ⟨f1, g1, e1⟩ := skip_outside ho0 (fuel := (o0 ++ (cs ++ (o1 ++ (as ++ (o2 ++ (ms ++ (o3 ++ o))))))).length + 1) (Nat.lt_succ_self _) [] none
  obtain ⟨l2, f2, c2, g2, e2⟩ := take_section hc g1 [] none
  rw [e1, e2, block_calc hc' k1 c2]
  show (loop _ _ [(Key.str (py"calc"), PyVal.dict (MgCalc.table f.params))] (some (intOf f.version)) >>= _) = _
  obtain ⟨f3, g3, e3⟩ := skip_outside ho1 g2 [(Key.str (py"calc"), PyVal.dict (MgCalc.table f.params))] (some (intOf f.version))
  obtain ⟨l4, f4, c4, g4, e4⟩ := take_section ha g3 [(Key.str (py"calc"), PyVal.dict (MgCalc.table f.params))] (some (intOf f.version))
  rw [e3, e4, block_atoms ha' k3 (fun i hi n hn => hr n (na i hi n hn)) c4]
  show (loop _ _ [(Key.str (py"calc"), PyVal.dict (MgCalc.table f.params)), (Key.str (py"atoms"), PyVal.dict (MgAtoms.table rd f.atoms))]
    (some (intOf f.version)) >>= _) = _
  obtain ⟨f5, g5, e5⟩ := skip_outside ho2 g4 [(Key.str (py"calc"), PyVal.dict (MgCalc.table f.params)), (Key.str (py"atoms"), PyVal.dict (MgAtoms.table rd f.atoms))]
    (some (intOf f.version))
  obtain ⟨l6, f6, c6, g6, e6⟩ := take_section hm g5 [(Key.str (py"calc"), PyVal.dict (MgCalc.table f.params)), (Key.str (py"atoms"), PyVal.dict (MgAtoms.table rd f.atoms))]
    (some (intOf f.version))
  rw [e5, e6, block_magres (rd := rd) rfl hm' k4 (fun i hi n hn => (k2 n (nt i hi n hn)).1) (fun i hi n hn => hr n (nt i hi n hn)) c6]
  show (loop _ _ (f.main rd) (some (intOf f.version)) >>= _) = _
  obtain ⟨f7, g7, e7⟩ := skip_outside ho3 g6 (f.main rd) (some (intOf f.version))
  rw [e7, MgFile.result]
  cases hold : f.old with
  | none =>
    rw [hold] at ho
    subst ho
    cases f7 <;> simp [loop] <;> rfl
  | some its =>
    rw [hold] at ho
    rw [hold] at k5 no
    dsimp only [Option.getD_some] at ho k5 no
    obtain ⟨b, bs, o4, rfl, ho4, hb, hb'⟩ := ho
    obtain ⟨l8, f8, c8, g8, e8⟩ := take_section hb g7 (f.main rd) (some (intOf f.version))
    have hold' := old_all (rd := rd) (fl := fl) (coords := MgAtoms.coords rd f.atoms) (acc := f.main rd) hb' (coords_nodup _ _) rfl
      (fun i hi => (k5 i hi).1) (fun i hi k hk => by
        obtain ⟨s, n, p, h1, rfl⟩ := (k5 i hi).2 k hk
        exact coords_mem h1) (fun i hi n hn => (k2 n (no i hi n hn)).1) (fun i hi n hn => hr n (no i hi n hn))
      (fun i hi n hn => hf n (no i hi n hn)) c8
    rw [e8, block.eq_def, if_neg (by decide), if_neg (by decide), if_neg (by decide), if_pos rfl, hold']
    show (loop f8 o4 (f.main rd ++ [(Key.str (py"total_shielding"), (MgOld.tensors rd its).getLast?.getD .none),
        (Key.str (py"atom_info"), .dict (MgOld.atoms rd fl (MgAtoms.coords rd f.atoms) its))]) _ >>= _) = _
    rw [← List.append_nil o4] at g8 ⊢
    obtain ⟨f9, g9, e9⟩ := skip_outside ho4 g8 (f.main rd ++ [(Key.str (py"total_shielding"), (MgOld.tensors rd its).getLast?.getD .none),
        (Key.str (py"atom_info"), .dict (MgOld.atoms rd fl (MgAtoms.coords rd f.atoms) its))]) (some (intOf f.version))
    rw [e9]
    cases f9 <;> rfl

/-! ### Files that are rejected -/

theorem loop_error {name : Str} {inner ls o rest : List Str} (h : Section name inner ls) (ho : Outside o) {fuel : Nat}
    (hf : (o ++ (ls ++ rest)).length < fuel) {accum : Dict Key PyVal} {version : Option Int} {e : PyErr}
    (he : ∀ last, CloseLine last → block accum version name (inner ++ [last]) = .error e) :
    loop fuel (o ++ (ls ++ rest)) accum version = .error e := by
  obtain ⟨f1, g1, e1⟩ := skip_outside ho hf accum version
  obtain ⟨l2, f2, c2, g2, e2⟩ := take_section h g1 accum version
  rw [e1, e2, he l2 c2]; rfl

theorem foldLines_error {f : Dict Key PyVal → Str → PyM (Dict Key PyVal)} {a b : List Str} {l : Str} {d d' : Dict Key PyVal} {e : PyErr}
    (h : foldLines f d a = .ok d') (he : f d' l = .error e) : foldLines f d (a ++ l :: b) = .error e := by
  rw [foldLines_append, h]
  show (f d' l >>= _) = _
  rw [he]; rfl

theorem calc_blank {l : Str} (h : Blank l) (cd : Dict Key PyVal) : calcLine cd l = .error .valueError := by
  have h1 : Str.startsWith l (py"[") = false := by
    cases l with
    | nil => rfl
    | cons a l =>
      show ((91 : Nat) == a && _) = false
      rw [beq_false_of_ne]; rfl
      rintro rfl
      have := h 91 (by simp)
      revert this; decide
  rw [calcLine, h1, (strip_nil_iff _).2 h]; rfl

theorem magres_blank {l : Str} (h : Blank l) (w : Nat) (d : Dict Key PyVal) : magresStep w d l = .error .indexError := by
  have h1 : Str.startsWith l (py"units") = false := by
    cases l with
    | nil => rfl
    | cons a l =>
      show ((117 : Nat) == a && _) = false
      rw [beq_false_of_ne]; rfl
      rintro rfl
      have := h 117 (by simp)
      revert this; decide
  rw [magresStep, h1, fields_split (fields_blank h)]; rfl

theorem atom_glued {rd : Numeral → F64} {l elem word : Str} {x : Numeral} {pos : List Numeral} (h : Str.startsWith l (py"atom") = true)
    (hf : Fields l (py"atom" :: elem :: word :: x.text :: pos.map Numeral.text)) (hx : x.Valid ∧ ¬ x.IsInt)
    (hr : ∀ n ∈ pos, parse_float_or_rational n.text = .ok (rd n)) (d : Dict Key PyVal) : atomsStep d l = .error .valueError := by
  rw [atomsStep, if_neg (by rw [Bool.not_eq_true]; exact starts_other h (by decide)), if_pos h, atomLine, fields_split hf]
  dsimp only
  rw [floats_of hr]
  show (atomKey _ _ >>= _) = _
  rw [atomKey, pyInt_notInt x hx.1 hx.2]; rfl

end Verif.Magres

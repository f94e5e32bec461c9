import Verif.Spec.SpecPot
import Verif.Lemmas.PspotAll
import Verif.Lemmas.XcDef
/-
Lines with pseudopotentials.
-/
namespace Verif.Cell.Pspot
open Verif Re NumRe AtomRe Spec Cell

/-! ### What begins like a definition -/

abbrev notSp : CSet := cset [.notSpace]
abbrev backL : Re := .seq (.rep true 0 (some 1) (nb 4)) (.seq (.cond 4 (nb 5) .eps) (.seq (nb 6) (.seq (nb 7) (.seq (nb 8) (plus notSp)))))
abbrev LAZY : Re := .seq .bol (.seq (optC 45) (.seq (.rep true 0 (some 1) (.seq (.rep false 1 none (.set AtomRe.sp)) (.seq (.group 1 N) (.set (ch 61)))))
  (.seq (optC 45) (.seq (.group 2 (plus dig)) (.seq (optC 45) (.seq bar (.seq (.group 3 N) (.seq bar backL))))))))

theorem LAZY_eq : Res.PSPOT_FULL_LAZY = ⟨LAZY, NAMES, 8⟩ := by decide +kernel

theorem seq_mem {a b : Re} {s t u : St} (h1 : t ∈ m a s) (h2 : u ∈ m b t) : u ∈ m (.seq a b) s := by
  rw [m]; exact List.mem_flatMap.2 ⟨t, h1, h2⟩

theorem opt_skip (r : Re) (s : St) : s ∈ m (.rep true 0 (some 1) r) s := (mem_m_repM _ _ _ _ _ _).2 (.inr ⟨rfl, rfl⟩)

theorem opt_take {r : Re} {s t : St} (h : t ∈ m r s) (hl : t.post.length < s.post.length) : t ∈ m (.rep true 0 (some 1) r) s :=
  (mem_m_repM _ _ _ _ _ _).2 (.inl ⟨by simp, t, h, hl, (mem_m_repM _ _ _ _ _ _).2 (.inr ⟨rfl, rfl⟩)⟩)

theorem set_mem {c : Nat} {cs : CSet} (h : cs.has c = true) (pre rest : Str) (caps : List (Nat × Str)) :
    (⟨c :: pre, rest, caps⟩ : St) ∈ m (.set cs) ⟨pre, c :: rest, caps⟩ := by simp [m, h]

theorem group_mem {i : Nat} {r : Re} {s t : St} (h : t ∈ m r s) : ({ t with caps := (i, s.upTo t) :: t.caps } : St) ∈ m (.group i r) s := by
  rw [m]; exact List.mem_map.2 ⟨t, h, rfl⟩

theorem nb_mem {n : Numeral} (hn : n.Valid) (i : Nat) {pre : Str} (rest : Str) (caps : List (Nat × Str)) (hp : pre.head? ≠ some 46) :
    ∃ c, (⟨124 :: (n.text.reverse ++ pre), rest, (i, c) :: caps⟩ : St) ∈ m (nb i) ⟨pre, n.text ++ 124 :: rest, caps⟩ :=
  ⟨_, seq_mem (group_mem (N_mem hn caps hp (ends_bar rest))) (set_mem (by decide) _ _ _)⟩

theorem text_split (p : PspotDef) (hp : p.Ok) : ∃ d r, p.text = p.mark false ++ (p.channel.text ++ (p.mark true ++ body p (d :: r))) ∧ isSpace d = false := by
  have hb := hp.2.2.2.2.2.2.1
  obtain ⟨b, bs, e⟩ := List.exists_cons_of_ne_nil hb.1
  have h1 := (hb.2 b (by rw [e]; simp)).1
  refine ⟨48 + b.orbital, ((48 + b.shell) :: b.projs.flatMap Proj.text) ++ (if bs = [] then [] else 58 :: Str.join (py":") (bs.map BetaFn.text)) ++
    p.additions.flatMap Addition.text, (text_eq p).trans (congrArg (fun x => p.mark false ++ (p.channel.text ++ (p.mark true ++ body p x))) ?_), ?_⟩
  · rw [PspotDef.betaText, e]
    cases bs with
    | nil => simp [Str.join, BetaFn.text]
    | cons c bs => simp [Str.join, BetaFn.text]
  · simp [isSpace]; omega

theorem plus_mem {cs : CSet} {w : Str} (hne : w ≠ []) (h : ∀ c ∈ w, cs.has c = true) (pre rest : Str) (caps : List (Nat × Str)) :
    (⟨w.reverse ++ pre, rest, caps⟩ : St) ∈ m (plus cs) ⟨pre, w ++ rest, caps⟩ :=
  mem_of_lang _ (by rfl) w ((lang_rep_set _ _ _ _ _).2 ⟨h, List.length_pos_iff.2 hne, by simp⟩) pre rest caps

/-- The part after the core radius. -/
theorem backL_mem {p : PspotDef} (hp : p.Ok) {d : Nat} {r pre : Str} (hd : isSpace d = false) (hpre : pre.head? ≠ some 46) (cp : List (Nat × Str)) (hcp : cp.find? (·.1 = 4) = Option.none) :
    ∃ t, t ∈ m backL ⟨pre, PspotDef.radiiText p.radii ++ (p.coarse.text ++ 124 :: (p.medium.text ++ 124 :: (p.fine.text ++ 124 :: (d :: r)))), cp⟩ := by
  obtain ⟨-, -, hra, hco, hme, hfi, -⟩ := hp
  have h124 : ∀ l : Str, (124 :: l).head? ≠ some 46 := by intro l; simp
  have tl : ∀ {pre : Str} (cp : List (Nat × Str)), pre.head? ≠ some 46 →
      ∃ t, t ∈ m (.seq (nb 6) (.seq (nb 7) (.seq (nb 8) (plus notSp)))) ⟨pre, p.coarse.text ++ 124 :: (p.medium.text ++ 124 :: (p.fine.text ++ 124 :: (d :: r))), cp⟩ := by
    intro pre cp h
    obtain ⟨c1, e1⟩ := nb_mem hco.1 6 (pre := pre) (p.medium.text ++ 124 :: (p.fine.text ++ 124 :: (d :: r))) cp h
    obtain ⟨c2, e2⟩ := nb_mem hme.1 7 (pre := 124 :: (p.coarse.text.reverse ++ pre)) (p.fine.text ++ 124 :: (d :: r)) ((6, c1) :: cp) (h124 _)
    obtain ⟨c3, e3⟩ := nb_mem hfi.1 8 (pre := 124 :: (p.medium.text.reverse ++ (124 :: (p.coarse.text.reverse ++ pre)))) (d :: r) ((7, c2) :: (6, c1) :: cp) (h124 _)
    exact ⟨_, seq_mem e1 (seq_mem e2 (seq_mem e3 (plus_mem (w := [d]) (by simp) (by
      intro c hc; obtain rfl : c = d := by simpa using hc
      simp [CSet.has, CItem.has, hd]) _ r _)))⟩
  cases hr : p.radii with
  | none =>
    obtain ⟨t, ht⟩ := tl (pre := pre) cp hpre
    refine ⟨t, seq_mem (opt_skip _ _) (seq_mem (t := ⟨pre, _, cp⟩) ?_ ht)⟩
    rw [m, if_neg (by simp [St.cap, hcp]), m]
    simp [PspotDef.radiiText]
  | some q =>
    obtain ⟨b, ri⟩ := q
    obtain ⟨hb, hri⟩ := hra _ hr
    have e : PspotDef.radiiText (some (b, ri)) ++ (p.coarse.text ++ 124 :: (p.medium.text ++ 124 :: (p.fine.text ++ 124 :: (d :: r))))
        = b.text ++ 124 :: (ri.text ++ 124 :: (p.coarse.text ++ 124 :: (p.medium.text ++ 124 :: (p.fine.text ++ 124 :: (d :: r))))) := by simp [PspotDef.radiiText]
    rw [e]
    obtain ⟨c1, e1⟩ := nb_mem hb.1 4 (pre := pre) (ri.text ++ 124 :: (p.coarse.text ++ 124 :: (p.medium.text ++ 124 :: (p.fine.text ++ 124 :: (d :: r))))) cp hpre
    obtain ⟨c2, e2⟩ := nb_mem hri.1 5 (pre := 124 :: (b.text.reverse ++ pre)) (p.coarse.text ++ 124 :: (p.medium.text ++ 124 :: (p.fine.text ++ 124 :: (d :: r)))) ((4, c1) :: cp) (h124 _)
    obtain ⟨t, ht⟩ := tl (pre := 124 :: (ri.text.reverse ++ (124 :: (b.text.reverse ++ pre)))) ((5, c2) :: (4, c1) :: cp) (h124 _)
    refine ⟨t, seq_mem (opt_take e1 (by simp only [List.length_append, List.length_cons]; omega)) (seq_mem ?_ ht)⟩
    rw [m, if_pos (by simp [St.cap])]
    exact e2

theorem mark_mem (p : PspotDef) (b : Bool) (pre rest : Str) (caps : List (Nat × Str)) :
    (⟨(p.mark b).reverse ++ pre, rest, caps⟩ : St) ∈ m (optC 45) ⟨pre, p.mark b ++ rest, caps⟩ := by
  rw [PspotDef.mark]
  split
  · exact opt_take (set_mem (by decide) pre rest caps) (by simp)
  · exact opt_skip _ _

/-- A definition is recognised. -/
theorem lazy_found {p : PspotDef} (hp : p.Ok) : (Res.PSPOT_FULL_LAZY.search p.text).isSome = true := by
  obtain ⟨d, r, e, hd⟩ := text_split p hp
  obtain ⟨hne, hdig⟩ := channel_digits hp.1.1 hp.1.2
  obtain ⟨t, ht⟩ := backL_mem hp (r := r) (pre := 124 :: (p.core.text.reverse ++ (124 :: ((p.mark true).reverse ++ (p.channel.text.reverse ++ ((p.mark false).reverse ++ []))))))
    hd (by simp) ((3, p.core.text) :: (2, p.channel.text) :: []) (by simp)
  have hmem : ∃ t, t ∈ m LAZY ⟨[], p.text, []⟩ := by
    rw [e]
    refine ⟨t, seq_mem (t := ⟨[], p.mark false ++ (p.channel.text ++ (p.mark true ++ body p (d :: r))), []⟩) (by rw [m, if_pos (by rfl)]; simp) ?_⟩
    refine seq_mem (mark_mem p false [] _ []) (seq_mem (opt_skip _ _) (seq_mem (opt_skip _ _) ?_))
    refine seq_mem (group_mem (plus_mem hne (fun c hc => by rw [has_dig]; exact hdig c hc) _ _ _)) ?_
    refine seq_mem (mark_mem p true _ _ _) (seq_mem (set_mem (by decide) _ _ _) ?_)
    refine seq_mem (group_mem (N_mem hp.2.1.1 _ (by simp) (ends_bar _))) (seq_mem (set_mem (by decide) _ _ _) ?_)
    simpa [St.upTo] using ht
  have hm : (Res.PSPOT_FULL_LAZY.match_ p.text).isSome = true := by
    obtain ⟨t, ht⟩ := hmem
    rw [LAZY_eq, Pat.match_, Pat.matchAt]
    cases hq : m LAZY ⟨[], p.text, []⟩ with
    | nil => rw [hq] at ht; cases ht
    | cons x l => simp
  obtain ⟨x, hx⟩ := Option.isSome_iff_exists.1 hm
  rw [search_of_match hx]; rfl

set_option linter.constructorNameAsVariable false in
/-- Text without a vertical line is not taken for a definition. -/
theorem lazy_none {w : Str} (h : 124 ∉ w) : (Res.PSPOT_FULL_LAZY.search w).isSome = false := by
  cases hm : Res.PSPOT_FULL_LAZY.search w with
  | none => rfl
  | some x =>
    exfalso
    obtain ⟨a, b, e, hl⟩ := search_found hm
    rw [LAZY_eq] at hl
    generalize x.whole = y at e hl
    obtain ⟨_, _, rfl, -, _, _, rfl, -, _, _, rfl, -, _, _, rfl, -, _, _, rfl, -, _, _, rfl, -, _, _, rfl, ⟨c, hc, rfl⟩, -⟩ := hl
    rw [has_ch] at hc
    obtain rfl : c = 124 := by simpa using hc
    exact h (by rw [e]; simp)

end Verif.Cell.Pspot

namespace Verif
open Re NumRe AtomRe Spec

namespace SpecPotL
open Cell hiding sp has_sp upS

theorem text_visible {p : PspotDef} (hp : p.Ok) : XcItem.Visible p.text := by
  obtain ⟨hne, hdig⟩ := Pspot.channel_digits hp.1.1 hp.1.2
  obtain ⟨d, ds, ed⟩ := List.exists_cons_of_ne_nil hne
  have hd := isDigit_not_space (hdig d (by rw [ed]; simp))
  rw [PspotDef.text, PspotDef.mark]
  split
  · exact ⟨by simp, by intro c hc; simp at hc; subst hc; rfl⟩
  · rw [ed]; exact ⟨by simp, by intro c hc; simp at hc; subst hc; exact hd⟩

theorem loop_line {rd : Numeral → F64} (hrd : ∀ n : Numeral, n.Valid → n.InRange → parse_float_or_rational n.text = .ok (rd n)) {l : Str} {i : SpecPot}
    (hl : i.Line l) (h : i.Ok) (ls : List Str) (d : Dict Key PyVal) :
    speciesPotLoop (l :: ls) d = speciesPotLoop ls (d.set (i.entry rd).1 (i.entry rd).2) := by
  rw [speciesPotLoop]
  cases i with
  | library w =>
    obtain ⟨g, rfl, hg⟩ := hl
    have : Str.split1 (g ++ w) = [w] := by rw [XcDef.split1_indent hg, Magres.split1_word h.1 h.2]
    simp only [this]
    rfl
  | file spec w =>
    obtain ⟨g, g', rfl, hg, hg', hg0⟩ := hl
    obtain ⟨h1, h2, h3⟩ := h
    have : Str.split1 (g ++ (spec ++ (g' ++ w))) = [spec, w] := by rw [XcDef.split1_indent hg, Magres.split1_two h1.1 h1.2 hg' hg0 h2.1 h2.2]
    simp only [this, Pspot.lazy_none h3]
    rfl
  | definition spec p =>
    obtain ⟨g, g', rfl, hg, hg', hg0⟩ := hl
    obtain ⟨h1, h2⟩ := h
    have hv := text_visible h2
    have : Str.split1 (g ++ (spec ++ (g' ++ p.text))) = [spec, p.text] := by rw [XcDef.split1_indent hg, Magres.split1_two h1.1 h1.2 hg' hg0 hv.1 hv.2]
    simp only [this, Pspot.lazy_found h2, if_true, Pspot.pspot_ok hrd h2, Castep.Delta.ok_bind]
    rfl

theorem loop_rows {rd : Numeral → F64} (hrd : ∀ n : Numeral, n.Valid → n.InRange → parse_float_or_rational n.text = .ok (rd n)) :
    ∀ {ls : List Str} {is : List SpecPot}, List.Forall₂ (fun l i => SpecPot.Line l i) ls is → (∀ i ∈ is, i.Ok) → ∀ d : Dict Key PyVal,
    speciesPotLoop ls d = .ok ((is.map (SpecPot.entry rd)).foldl (fun d kv => Dict.set d kv.1 kv.2) d) := by
  intro ls is h
  induction h with
  | nil => intro _ _; rfl
  | @cons l i ls is h1 _ ih =>
    intro hok d
    rw [loop_line hrd h1 (hok i (by simp)), ih (fun q hq => hok q (by simp [hq]))]
    rfl

end SpecPotL
end Verif

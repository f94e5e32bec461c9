import Verif.Spec.GenBlock
import Verif.Lemmas.CellBlocks
import Verif.Lemmas.AtomVec
import Verif.Lemmas.IonCons
import Verif.Lemmas.SettingVal
import Verif.Lemmas.Magres
import Verif.Lemmas.Tddft
/-
Blocks without a parser of their own.
-/
namespace Verif
open Re NumRe AtomRe Spec

namespace GenBlock
open Cell hiding sp has_sp upS

theorem parserFor_general {t : Str} (h : t ∉ ownBlocks) : parserFor t = parse_general := by
  have hg : Dict.get? PARSERS t = none := by
    have : ∀ (l : List (Str × (Block → PyM PyVal))), t ∉ l.map Prod.fst → Dict.get? l t = none := by
      intro l
      induction l with
      | nil => intro _; rfl
      | cons p l ih =>
        intro hm
        simp only [List.map_cons, List.mem_cons, not_or] at hm
        rw [Dict.get?]
        rw [if_neg (fun e => hm.1 e.symm)]; exact ih hm.2
    exact this _ h
  rw [parserFor, hg]; rfl

/-- Text without a comment is not cut. -/
theorem uncut {l : Str} (h : ∀ c ∈ l, c ≠ 35 ∧ c ≠ 33) : COMMENT_RE.splitHead l = l := by
  refine uncomment_eq (Or.inl ⟨rfl, ?_⟩)
  intro u c hc v e
  simp only [cellComments, List.mem_cons, List.not_mem_nil, or_false] at hc
  rcases hc with rfl | rfl
  · exact (h 35 (by rw [e]; simp)).1 rfl
  · exact (h 33 (by rw [e]; simp)).2 rfl

/-- The lines that are kept have no comments. -/
theorem kept_plain {ls kept : List Str} (h : KeptInline cellComments ls kept) : ∀ t ∈ kept, ∀ c ∈ t, c ≠ 35 ∧ c ≠ 33 := by
  induction h with
  | nil => intro t ht; cases ht
  | drop _ _ _ ih => exact ih
  | @keep l u t ls out hu _ ht _ ih =>
    intro x hx
    rcases List.mem_cons.1 hx with rfl | hx
    · obtain ⟨⟨g, rfl, -⟩, -⟩ := ht
      intro c hc
      obtain ⟨a, b, e⟩ := List.append_of_mem hc
      have key : ∀ d ∈ cellComments, d ≠ [c] := by
        intro d hd hcd
        rcases hu with ⟨e1, h2⟩ | ⟨⟨d', hd', v, e1⟩, h2⟩
        · exact h2 a d hd (b ++ g) (by rw [hcd, ← e1, e]; simp)
        · have := h2 a d hd (b ++ g ++ d' ++ v) (by rw [hcd, e1, e]; simp)
          rw [e] at this
          simp at this
      constructor
      · rintro rfl; exact key (py"#") (by decide) rfl
      · rintro rfl; exact key (py"!") (by decide) rfl
    · exact ih x hx

/-- `SPEC_PROP_RE` -/
abbrev SP : Re := .seq (star sp) (.seq (.wordB false) (.seq (.set upS) (.seq (.rep true 0 (some 2) (.set lowS))
  (.seq custR (.seq (.wordB false) (.seq labR (.seq (plus sp) (.group 1 (star ⟨true, [.ch 10], false⟩)))))))))

theorem SP_eq : Res.SPEC_PROP_RE = ⟨SP, [(py"val", 1)], 1⟩ := by decide +kernel

/-- A property line has a capital letter first, and a blank later. -/
theorem sp_none {l : Str} (h : ∀ g c r x r', l = g ++ c :: (r ++ x :: r') → Blank g → 65 ≤ c ∧ c ≤ 90 → isSpace x = true → False) :
    Res.SPEC_PROP_RE.match_ l = none := by
  cases hm : Res.SPEC_PROP_RE.match_ l with
  | none => rfl
  | some m =>
    exfalso
    obtain ⟨b, e, hl⟩ := match_found hm
    rw [SP_eq] at hl
    generalize m.whole = w at e hl
    obtain ⟨u1, w1, rfl, hu1, v1, w2, rfl, hv1, v2, w4, rfl, ⟨c, hc, rfl⟩, v3, w5, rfl, -, v4, w6, rfl, -, v5, w7, rfl, -, v6, w8, rfl, -,
      u3, w3, rfl, hu3, -⟩ := hl
    obtain rfl : v1 = [] := hv1
    rw [has_upS] at hc
    obtain ⟨hs3, hl3, -⟩ := (lang_rep_set _ _ _ _ _).1 hu3
    cases u3 with
    | nil => simp at hl3
    | cons x u3 =>
      refine h u1 c (v3 ++ v4 ++ v5 ++ v6) x (u3 ++ w3 ++ b) (by rw [e]; simp) ?_ hc ?_
      · intro y hy
        have := ((lang_rep_set _ _ _ _ _).1 hu1).1 y hy
        rwa [has_sp] at this
      · have := hs3 x (by simp)
        rwa [has_sp] at this

theorem cap_not_space {c : Nat} (h : 65 ≤ c ∧ c ≤ 90) : isSpace c = false := by simp [isSpace]; omega

/-- The first character of a coordinate. -/
theorem coord_head {c : Coord} (h : c.Valid) : ∃ d r, c.text = d :: r ∧ isSpace d = false ∧ ¬ (65 ≤ d ∧ d ≤ 90) ∧ d ≠ 37 := by
  cases c with
  | num n =>
    have hn : n.Valid := h
    obtain ⟨d, r, e, hs, -⟩ := AtomVec.num_head hn (s := [])
    rw [List.append_nil] at e
    refine ⟨d, r, e, hs, ?_⟩
    have := AtomVec.numeral_char n hn d (by rw [e]; simp)
    rcases this with h1 | h1 | h1 | h1 | h1 | h1
    · omega
    · omega
    · omega
    · omega
    · exfalso
      obtain ⟨d', r', e', h'⟩ := text_head n hn
      rw [e] at e'
      obtain ⟨rfl, -⟩ := List.cons.inj e'
      subst h1
      exact absurd h' (by simp [numChar, isDigit])
    · omega
  | ratio p q =>
    obtain ⟨hp, hne, -, -⟩ := h
    obtain ⟨d, p', rfl⟩ := List.exists_cons_of_ne_nil hne
    have hd : isDigit d = true := (isDigit_iff d).2 (hp d (by simp))
    refine ⟨d, p' ++ 47 :: q, rfl, isDigit_not_space hd, ?_⟩
    simp [isDigit] at hd
    omega

theorem row_head {l : Str} {r : List Coord} (h : NumRow l r) :
    ∃ g d s, l = g ++ d :: s ∧ Blank g ∧ isSpace d = false ∧ ¬ (65 ≤ d ∧ d ≤ 90) ∧ d ≠ 37 := by
  obtain ⟨g, s, hg, hs, rfl⟩ := h
  cases hs with
  | last hc _ =>
    obtain ⟨d, t, e, h1, h2⟩ := coord_head hc
    exact ⟨g, d, _, by rw [e]; rfl, hg, h1, h2⟩
  | cons hc _ _ _ =>
    obtain ⟨d, t, e, h1, h2⟩ := coord_head hc
    exact ⟨g, d, _, by rw [e]; rfl, hg, h1, h2⟩

theorem row_sp {l : Str} {r : List Coord} (h : NumRow l r) : Res.SPEC_PROP_RE.match_ l = none := by
  obtain ⟨g, d, s, rfl, hg, hd, hc, -⟩ := row_head h
  refine sp_none fun g2 c r x r' e hg2 hc2 hx => ?_
  obtain ⟨rfl, -⟩ := IonCons.cut_head hg hd hg2 (cap_not_space hc2) e
  exact hc hc2

theorem units_sp {l w : Str} (h : UnitsLine l w) : Res.SPEC_PROP_RE.match_ l = none := by
  obtain ⟨g, rfl, hg, hne, hw, -⟩ := h
  obtain ⟨d, w', rfl⟩ := List.exists_cons_of_ne_nil hne
  refine sp_none fun g2 c r x r' e hg2 hc2 hx => ?_
  obtain ⟨rfl, e2⟩ := IonCons.cut_head hg (hw d (by simp)).1 hg2 (cap_not_space hc2) e
  have := (hw x (by rw [e2]; simp)).1
  rw [hx] at this; cases this

theorem close_head {l : Str} (h : ClosesBlock l) : ∃ g d s, l = g ++ d :: s ∧ Blank g ∧ d = 37 := by
  obtain ⟨g, k, v, rfl, hg, hk⟩ := h
  cases k with
  | nil => simp [Str.lower] at hk
  | cons a k =>
    have ha : lowerC a = 37 := by simpa [Str.lower] using (List.cons.inj hk).1
    refine ⟨g, a, k ++ v, by simp, hg, ?_⟩
    rw [lowerC] at ha
    split at ha
    · rename_i hu; simp [isUpper] at hu; omega
    · exact ha

theorem close_sp {l : Str} (h : ClosesBlock l) : Res.SPEC_PROP_RE.match_ l = none := by
  obtain ⟨g, d, s, rfl, hg, rfl⟩ := close_head h
  refine sp_none fun g2 c r x r' e hg2 hc2 hx => ?_
  obtain ⟨rfl, -⟩ := IonCons.cut_head hg (by decide) hg2 (cap_not_space hc2) e
  omega

theorem units_open {l w : Str} (h : UnitsLine l w) : isEnd l = false := by
  rw [Bool.eq_false_iff]
  intro hc
  obtain ⟨g, d, s, e, hg, rfl⟩ := close_head ((Cell.isEnd_iff l).1 hc)
  obtain ⟨g2, rfl, hg2, hne, hw, hp⟩ := h
  obtain ⟨a, w', rfl⟩ := List.exists_cons_of_ne_nil hne
  obtain ⟨rfl, -⟩ := IonCons.cut_head hg2 (hw a (by simp)).1 hg (by rfl) e
  exact hp rfl

theorem units_digits {l w : Str} (h : UnitsLine l w) : ∀ c ∈ l, isDigit c = false := by
  obtain ⟨g, rfl, hg, -, hw, -⟩ := h
  intro c hc
  rcases List.mem_append.1 hc with hc | hc
  · have := hg c hc
    simp [isSpace] at this
    simp [isDigit]; omega
  · exact (hw c hc).2

abbrev kData : Key := .str (py"data")
abbrev kUnits : Key := .str (py"units")

/-- A line with the units. -/
theorem step_units {l w : Str} (h : UnitsLine l w) (hp : ∀ c ∈ l, c ≠ 35 ∧ c ≠ 33) (d : Dict Key PyVal) :
    generalStep d l = .ok (d.set kUnits (.str w)) := by
  have hs : Str.strip l = w := by
    obtain ⟨g, rfl, hg, hne, hw, -⟩ := h
    have := Magres.strip_mid (g' := []) hg (by intro c hc; cases hc) hne ?_ ?_
    · simpa using this
    · intro c hc; exact (hw c (List.mem_of_mem_head? hc)).1
    · intro c hc; exact (hw c (List.mem_of_mem_getLast? hc)).1
  rw [generalStep]
  simp only [uncut hp, units_sp h, Option.isSome_none, Bool.false_eq_true, if_false, findall_none (units_digits h), units_open h, hs]

/-- A row of numbers. -/
theorem step_row {l : Str} {r : List Coord} (h : NumRow l r) (hp : ∀ c ∈ l, c ≠ 35 ∧ c ≠ 33) (hr : ∀ c ∈ r, c.InRange) :
    ∃ xs, NearestAll r xs ∧ ∀ (rows : List PyVal) (u : List (Key × PyVal)),
      generalStep ((kData, .list rows) :: u) l = .ok ((kData, .list (rows ++ [.tuple (xs.map .float)])) :: u) := by
  have hf := findall_row h
  have hval := row_valid h
  obtain ⟨xs, h3, h4⟩ := coords_float r fun c hc => ⟨hval.1 c hc, hr c hc⟩
  refine ⟨xs, h4, fun rows u => ?_⟩
  rw [generalStep]
  cases r with
  | nil => exact absurd rfl hval.2
  | cons c r =>
    simp only [List.map_cons] at h3 hf
    simp only [uncut hp, row_sp h, Option.isSome_none, Bool.false_eq_true, if_false, hf, List.map_cons]
    simp only [Dict.get?, if_pos, h3]
    rfl

theorem step_close {l : Str} (h : ClosesBlock l) (hp : ∀ c ∈ l, c ≠ 35 ∧ c ≠ 33) (hd : ∀ c ∈ l, isDigit c = false) (d : Dict Key PyVal) :
    generalStep d l = .ok d := by
  rw [generalStep]
  simp only [uncut hp, close_sp h, Option.isSome_none, Bool.false_eq_true, if_false, findall_none hd, (Cell.isEnd_iff l).2 h, if_true]

/-- The expression for properties matches the line of a property. -/
theorem spec_match {l : Str} {p : SpecProp} (h : p.Line l) (hok : p.Ok) : (Res.SPEC_PROP_RE.match_ l).isSome = true := by
  obtain ⟨g, g', rfl, hg, hg', hne⟩ := h
  obtain ⟨ha, hlab, hv, hh, -, hnl⟩ := hok
  obtain ⟨y, v', e⟩ := List.exists_cons_of_ne_nil hv
  have hy := hh y (by rw [e]; rfl)
  obtain ⟨m, hm, -⟩ := Gets.match_ (p := Res.SPEC_PROP_RE) (s := g ++ (p.spec.text ++ (g' ++ p.value))) (C := fun _ => True) (by
    rw [SP_eq]
    refine Gets.stars (fun x hx => by rw [has_sp]; exact hg x hx) ?_ ?_
    · intro x hx
      simp [AtomName.text] at hx
      subst hx
      rw [has_sp]
      exact cap_not_space ha.1
    refine Gets.congr (b := .seq A (.seq (plus sp) (.group 1 (star ⟨true, [.ch 10], false⟩)))) (fun st k => by simp only [A, run_seq]) ?_
    obtain ⟨t, h5, -⟩ := Tddft.restAt (i := 1) (d := p.value) (e := []) (pre := g'.reverse ++ (p.spec.text.reverse ++ (g.reverse ++ [])))
      (caps := []) (C := fun _ => True) hnl (Or.inl rfl) trivial
    refine ⟨t, ?_, trivial⟩
    rw [run_seq]
    refine run_A p.spec ha _ _ _ _ _ ?_ (spaceNext_append hg' hne) ?_ ?_
    · intro c hc
      have : c ∈ g.reverse := by simpa using List.mem_of_mem_head? hc
      exact isSpace_not_word (hg c (by simpa using this))
    · intro _ g2 r e2 hg2 hr
      cases r with
      | nil => cases hr
      | cons b r =>
        simp at hr; subst hr
        rw [e] at e2
        obtain ⟨h1, -⟩ := IonCons.cut_head hg' hy.1 hg2 (by decide) e2
        exact hy.2 h1
    · rw [run_seq]
      refine run_plus_all sp 1 g' _ _ _ _ _ _ (List.length_pos_iff.2 hne) (fun c hc => by rw [has_sp]; exact hg' c hc) ?_ (by simp) ?_
      · intro c hc
        rw [has_sp]
        exact (hh c hc).1
      · rw [List.append_nil p.value] at h5
        exact h5)
  rw [hm]; rfl

/-- The text of a name without label has no blanks. -/
theorem name_visible {a : AtomName} (ha : a.Valid) (hl : a.label = none) : a.text ≠ [] ∧ ∀ c ∈ a.text, isSpace c = false := by
  obtain ⟨h1, ⟨-, h2⟩, h3, -⟩ := ha
  refine ⟨by simp [AtomName.text], ?_⟩
  intro c hc
  simp only [AtomName.text, hl, AtomName.labelText, List.append_nil, List.cons_append, List.mem_cons, List.mem_append] at hc
  rcases hc with rfl | hc | hc
  · exact cap_not_space h1
  · have := h2 c hc
    simp [isSpace]; omega
  · cases hcu : a.custom with
    | none => rw [hcu] at hc; cases hc
    | some w =>
      rw [hcu] at hc
      rcases List.mem_cons.1 hc with rfl | hc
      · rfl
      · have := (h3 w (by rw [hcu]; rfl)).2 c hc
        cases hs : isSpace c with
        | false => rfl
        | true => rw [isSpace_not_word hs] at this; cases this

/-- The line of a property. -/
theorem step_prop {l : Str} {p : SpecProp} {val : PyVal} (h : p.Line l) (hok : p.Ok) (hp : ∀ c ∈ l, c ≠ 35 ∧ c ≠ 33)
    (hv : to_type (determine_type p.value) (.str p.value) = .ok val) (data : PyVal) (u : List (Key × PyVal)) :
    generalStep ((kData, data) :: u) l =
      .ok ((kData, .dict (Dict.set (match data with | .dict x => x | _ => []) (.str p.spec.text) val)) :: u) := by
  have hm := spec_match h hok
  have hs : Str.split1 (Str.strip l) = [p.spec.text, p.value] := by
    obtain ⟨g, g', rfl, hg, hg', hne⟩ := h
    obtain ⟨ha, hlab, hvne, hh, ht, -⟩ := hok
    obtain ⟨h1, h2⟩ := name_visible ha hlab
    have e := Magres.strip_mid (g := g) (w := p.spec.text ++ (g' ++ p.value)) (g' := []) hg (by intro c hc; cases hc) (by simp [h1]) (by
      intro c hc
      rw [List.head?_append_of_ne_nil _ h1] at hc
      exact h2 c (List.mem_of_mem_head? hc)) (by
      intro c hc
      rw [List.getLast?_append_of_ne_nil _ (by simp [hvne]), List.getLast?_append_of_ne_nil _ hvne] at hc
      exact ht c hc)
    rw [List.append_nil] at e
    rw [e]
    exact Magres.split1_two h1 h2 hg' hne hvne (fun c hc => (hh c hc).1)
  rw [generalStep]
  simp only [uncut hp, hm, if_true, hs, unpack2, Castep.Delta.ok_bind, hv, Dict.get?]
  cases data <;> rfl

/-- The dictionary of the properties. -/
def dataOf : PyVal → Dict Key PyVal
  | .dict x => x
  | _ => []

theorem loop_append (a b : List Str) (d : Dict Key PyVal) : generalLoop (a ++ b) d = generalLoop a d >>= fun d => generalLoop b d := by
  induction a generalizing d with
  | nil => rfl
  | cons x a ih =>
    rw [List.cons_append, generalLoop, generalLoop]
    cases generalStep d x with
    | error e => rfl
    | ok d' => exact ih d'

theorem loop_units {ul : List Str} {unit : Option Str} (h : UnitsPart ul unit) (hp : ∀ l ∈ ul, ∀ c ∈ l, c ≠ 35 ∧ c ≠ 33) :
    generalLoop ul [(kData, .list [])] = .ok ((kData, .list []) :: unitsEntry unit) := by
  cases h with
  | none => rfl
  | some h =>
    rw [generalLoop, step_units h (hp _ (by simp))]
    rfl

theorem loop_rows {ls : List Str} {rows : List (List Coord)} (h : List.Forall₂ NumRow ls rows)
    (hp : ∀ l ∈ ls, ∀ c ∈ l, c ≠ 35 ∧ c ≠ 33) (hr : ∀ r ∈ rows, ∀ c ∈ r, c.InRange) :
    ∃ xs : List (List F64), List.Forall₂ NearestAll rows xs ∧ ∀ (pre : List PyVal) (u : List (Key × PyVal)),
      generalLoop ls ((kData, .list pre) :: u) = .ok ((kData, .list (pre ++ xs.map fun x => .tuple (x.map .float))) :: u) := by
  induction h with
  | nil => exact ⟨[], .nil, fun pre u => by simp [generalLoop]⟩
  | @cons l r ls rs h1 _ ih =>
    obtain ⟨xs, h2, h3⟩ := ih (fun l hl => hp l (by simp [hl])) (fun r hr' => hr r (by simp [hr']))
    obtain ⟨x, h4, h5⟩ := step_row h1 (hp l (by simp)) (hr r (by simp))
    refine ⟨x :: xs, .cons h4 h2, fun pre u => ?_⟩
    rw [generalLoop, h5]
    show generalLoop ls _ = _
    rw [h3]
    simp

theorem loop_props {ls : List Str} {ps : List SpecProp} (h : List.Forall₂ (fun l p => SpecProp.Line l p) ls ps)
    (hp : ∀ l ∈ ls, ∀ c ∈ l, c ≠ 35 ∧ c ≠ 33) (hok : ∀ p ∈ ps, p.Ok) (val : Str → PyVal)
    (hv : ∀ p ∈ ps, to_type (determine_type p.value) (.str p.value) = .ok (val p.value)) (hne : ps ≠ []) :
    ∀ (data : PyVal) (u : List (Key × PyVal)), generalLoop ls ((kData, data) :: u) =
      .ok ((kData, .dict ((ps.map fun p => (Key.str p.spec.text, val p.value)).foldl (fun d e => Dict.set d e.1 e.2) (dataOf data))) :: u) := by
  induction h with
  | nil => exact absurd rfl hne
  | @cons l p ls ps h1 h2 ih =>
    intro data u
    have e : (match data with | .dict x => x | _ => []) = dataOf data := by cases data <;> rfl
    rw [generalLoop, step_prop h1 (hok p (by simp)) (hp l (by simp)) (hv p (by simp)), e]
    show generalLoop ls _ = _
    by_cases hps : ps = []
    · subst hps
      cases h2
      rfl
    · rw [ih (fun l hl => hp l (by simp [hl])) (fun p hp' => hok p (by simp [hp'])) (fun p hp' => hv p (by simp [hp'])) hps]
      rfl

end GenBlock
end Verif

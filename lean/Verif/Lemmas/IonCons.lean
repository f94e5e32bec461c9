import Verif.Spec.IonCons
import Verif.Lemmas.Elastic
import Verif.Lemmas.BlockFile
import Verif.Lemmas.BandTable
import Verif.Lemmas.CellBlocks
import Verif.Lemmas.AtomVec
import Verif.Lemmas.DeltaScf
/-
Lines of linear constraints.
-/
namespace Verif
open Re NumRe AtomRe Spec Castep

namespace IonCons

/-- `IONIC_CONSTRAINTS_RE` -/
abbrev IC : Re := .seq .bol (.seq (star sp) (.seq (.set dig) (.seq (plus sp) (.seq (.group 1 A) (.seq (plus sp)
  (.seq (.group 2 (plus dig)) (.group 3 (LN 3))))))))

theorem IC_eq : Res.IONIC_CONSTRAINTS_RE = ⟨IC, [(py"spec", 1), (py"index", 2), (py"val", 3)], 3⟩ := by decide +kernel

/-- The match of a line whose number has one digit. -/
theorem line_match {l : Str} {c : IonCons} (hl : c.Line l) (hok : c.Ok) (h1 : c.Single) :
    ∃ m, Res.IONIC_CONSTRAINTS_RE.match_ l = some m ∧
      (∃ t, m.caps = [(3, t), (2, c.atom.idx), (1, c.atom.name.text)] ∧ Fields t [c.atom.x.text, c.atom.y.text, c.atom.z.text]) ∧
      m.names = Res.IONIC_CONSTRAINTS_RE.names := by
  obtain ⟨g, g', g0, s, rfl, hg, hg', hg0, hs, hf⟩ := hl
  obtain ⟨hd, -, ha, hi, hine, hn⟩ := hok
  obtain ⟨d, hnum⟩ := List.length_eq_one_iff.1 h1
  have hdd : isDigit d = true := (isDigit_iff d).2 (hd d (by rw [hnum]; simp))
  refine Gets.match_ (C := fun x => ∃ t, x = [(3, t), (2, c.atom.idx), (1, c.atom.name.text)] ∧
    Fields t [c.atom.x.text, c.atom.y.text, c.atom.z.text]) ?_
  rw [IC_eq, hnum]
  refine Gets.bol ?_
  refine Gets.stars (fun x hx => by rw [has_sp]; exact hg x hx) (by
    intro x hx; simp at hx; subst hx; rw [has_sp]; exact isDigit_not_space hdd) ?_
  refine Gets.char ((allDigits_iff _).1 (by intro x hx; simp at hx; subst hx; exact (isDigit_iff _).1 hdd) d (by simp : d ∈ [d])) ?_
  have haf : After s (c.atom.x.text :: [c.atom.y.text, c.atom.z.text]) := ⟨hs, hf⟩
  obtain ⟨g1, s1, rfl, b1, b2, b3, b4, b5⟩ := haf.next
  refine Gets.pluses (w := g') (s := c.atom.name.text ++ (g0 ++ (c.atom.idx ++ (g1 ++ (c.atom.x.text ++ s1))))) (fun x hx => by rw [has_sp]; exact hg'.1 x hx) hg'.2 ?_ ?_
  · intro x hx
    simp [AtomName.text] at hx
    have := ha.1
    subst hx
    rw [has_sp]
    simp [isSpace]; omega
  refine AtomVec.nameAt ha hi hine hg0 ⟨b1, b2⟩ ?_ fun pre' => ?_
  · intro x hx
    have : x ∈ g' := by
      have hne : g'.reverse ≠ [] := by simpa using hg'.2
      obtain ⟨y, ys, e⟩ := List.exists_cons_of_ne_nil hne
      rw [e] at hx
      simp at hx
      subst hx
      have : y ∈ g'.reverse := by rw [e]; simp
      simpa using this
    exact isSpace_not_word (hg'.1 x this)
  · refine Gets.last (Gets.nums (ns := [c.atom.x, c.atom.y, c.atom.z]) (ws := []) rfl ?_ (fun n h => (hn n h).1) fun pre' s' t ht _ => ?_)
    · simpa using haf
    · exact Gets.eps ⟨t, rfl, by simpa using ht⟩

set_option linter.constructorNameAsVariable false in
/-- A line that does not start with one digit and a blank is passed over. -/
theorem no_match {l : Str} (h : ∀ g d e r, l = g ++ d :: e :: r → Blank g → isDigit d = true → isSpace e = true → False) :
    Res.IONIC_CONSTRAINTS_RE.match_ l = none := by
  cases hm : Res.IONIC_CONSTRAINTS_RE.match_ l with
  | none => rfl
  | some m =>
    exfalso
    obtain ⟨b, e, hl⟩ := match_found hm
    rw [IC_eq] at hl
    generalize m.whole = w at e hl
    obtain ⟨u1, w1, rfl, hu1, u2, w2, rfl, hu2, u3, w3, rfl, ⟨c, hc, rfl⟩, u4, w4, rfl, hu4, -⟩ := hl
    obtain rfl : u1 = [] := hu1
    obtain ⟨hs4, hl4, -⟩ := (lang_rep_set _ _ _ _ _).1 hu4
    cases u4 with
    | nil => simp at hl4
    | cons x u4 =>
      refine h u2 c x (u4 ++ w4 ++ b) (by rw [e]; simp) ?_ ?_ ?_
      · intro y hy
        have := ((lang_rep_set _ _ _ _ _).1 hu2).1 y hy
        rwa [has_sp] at this
      · simpa [CSet.has, CItem.has] using hc
      · have := hs4 x (by simp)
        rwa [has_sp] at this

theorem cut_head {g : Str} (hg : Blank g) {d : Nat} (hd : isSpace d = false) {r g' : Str} (hg' : Blank g') {d' : Nat} (hd' : isSpace d' = false) {r' : Str}
    (e : g ++ d :: r = g' ++ d' :: r') : d = d' ∧ r = r' := by
  have h1 : (g ++ d :: r).dropWhile isSpace = d :: r := by
    rw [List.dropWhile_append_of_pos (fun x hx => hg x hx), List.dropWhile_cons, hd]; rfl
  have h2 : (g' ++ d' :: r').dropWhile isSpace = d' :: r' := by
    rw [List.dropWhile_append_of_pos (fun x hx => hg' x hx), List.dropWhile_cons, hd']; rfl
  rw [e, h2] at h1
  simp at h1
  exact ⟨h1.1.symm, h1.2.symm⟩

/-- A line whose number has several digits is passed over. -/
theorem line_none {l : Str} {c : IonCons} (hl : c.Line l) (hok : c.Ok) (h1 : ¬ c.Single) : Res.IONIC_CONSTRAINTS_RE.match_ l = none := by
  obtain ⟨g, g', g0, s, rfl, hg, -⟩ := hl
  obtain ⟨hd, hne, -⟩ := hok
  refine no_match fun g2 d e r h hg2 hdd he => ?_
  match hn : c.num with
  | [] => exact hne hn
  | [a] => exact h1 (by rw [IonCons.Single, hn]; rfl)
  | a :: b :: q =>
    rw [hn] at h hd
    have ha : isDigit a = true := (isDigit_iff a).2 (hd a (by simp))
    have hb : isDigit b = true := (isDigit_iff b).2 (hd b (by simp))
    obtain ⟨-, h2⟩ := cut_head hg (isDigit_not_space ha) hg2 (isDigit_not_space hdd) h
    simp at h2
    rw [← h2.1, isDigit_not_space hb] at he
    cases he

theorem close_none {l : Str} (hl : ClosesBlock l) : Res.IONIC_CONSTRAINTS_RE.match_ l = none := by
  obtain ⟨g, k, v, rfl, hg, hk⟩ := hl
  cases k with
  | nil => simp [Str.lower] at hk
  | cons a k =>
    have ha : lowerC a = 37 := by simpa [Str.lower] using (List.cons.inj hk).1
    refine no_match fun g2 d e r h hg2 hdd he => ?_
    obtain ⟨h2, -⟩ := cut_head (r := k ++ v) hg (Cell.isSpace_of_lower (c := a) (by rw [ha]; decide)) hg2 (isDigit_not_space hdd) (by simpa using h)
    subst h2
    simp [isDigit] at hdd
    rw [lowerC] at ha
    split at ha <;> omega

set_option maxRecDepth 20000 in
theorem loop_cons (line : Str) (l : List Str) (d : Dict Key PyVal) : Cell.ionicLoop (line :: l) d = (
    match Res.IONIC_CONSTRAINTS_RE.match_ line with
    | none => Cell.ionicLoop l d
    | some m => do
      let ind ← atreg_match m
      let elem ← to_type .float (.list ((Str.split ((m.named (py"val")).getD [])).map .str))
      let d ← MdGeom.appendTo d ind elem
      Cell.ionicLoop l d) := rfl

theorem loop_nil (d : Dict Key PyVal) : Cell.ionicLoop [] d = .ok d := rfl

attribute [local irreducible] Cell.ionicLoop

theorem loop_rows {rd : Numeral → F64} {last : Str} (hlast : ClosesBlock last) :
    ∀ {ls : List Str} {cs : List IonCons}, List.Forall₂ (fun l c => IonCons.Line l c) ls cs → (∀ c ∈ cs, c.Ok) →
    (∀ c ∈ cs, ∀ n ∈ [c.atom.x, c.atom.y, c.atom.z], parse_float_or_rational n.text = .ok (rd n)) → ∀ l : List (Key × PyVal),
    Cell.ionicLoop (ls ++ [last]) (grouped l) =
      .ok (grouped (l ++ (cs.filter fun c => c.Single).map fun c => c.atom.entry rd)) := by
  intro ls cs h
  induction h with
  | nil =>
    intro _ _ l
    rw [List.nil_append, loop_cons, close_none hlast]
    simp [loop_nil]
  | @cons x c ls cs h1 _ ih =>
    intro hok hr l
    rw [List.cons_append, loop_cons]
    by_cases hs : c.Single
    · obtain ⟨m, hm, ⟨t, hc, ht⟩, hn⟩ := line_match h1 (hok c (by simp)) hs
      rw [IC_eq] at hn
      have ho := (hok c (by simp)).2.2
      have a1 : m.named (py"index") = some c.atom.idx := by rw [Castep.named_eq hc hn]; rfl
      have a2 : m.named (py"spec") = some c.atom.name.text := by rw [Castep.named_eq hc hn]; rfl
      have a3 : m.named (py"val") = some t := by rw [Castep.named_eq hc hn]; rfl
      have ha : atreg_match m = .ok c.atom.key := by
        rw [atreg_match, a1, MdFrame.intOfGroup_digits c.atom.idx ho.2.1 ho.2.2.1, a2]; rfl
      have hv : to_type .float (.list ((Str.split ((m.named (py"val")).getD [])).map .str)) =
          .ok (.tuple ([c.atom.x, c.atom.y, c.atom.z].map fun n => .float (rd n))) := by
        rw [a3, Option.getD_some, fields_split ht]
        exact texts_typed [c.atom.x, c.atom.y, c.atom.z] (hr c (by simp))
      have hg := Elastic.grouped_add (a := []) (l := l) (k := c.atom.key)
        (v := .tuple ([c.atom.x, c.atom.y, c.atom.z].map fun n => .float (rd n))) (by simp [Dict.keys])
      rw [List.nil_append, List.nil_append] at hg
      simp only [hm, ha, hv, Castep.Delta.ok_bind, hg]
      rw [ih (fun q hq => hok q (by simp [hq])) (fun q hq => hr q (by simp [hq])), List.append_assoc]
      simp only [List.filter_cons, hs, decide_true, if_true, List.map_cons, List.cons_append, List.nil_append]
      rfl
    · simp only [line_none h1 (hok c (by simp)) hs]
      rw [ih (fun q hq => hok q (by simp [hq])) (fun q hq => hr q (by simp [hq]))]
      simp [hs]

end IonCons
end Verif

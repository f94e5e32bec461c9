import Verif.Lemmas.Constraints
import Verif.Lemmas.AtomTables
import Verif.Lemmas.Params
import Verif.Spec.Dftd
/- The report on the dispersion correction. -/
namespace Verif.Castep.Dftd
open Verif Re NumRe AtomRe Spec Castep

abbrev DFT : Re := .seq (star sp) (.seq (.set (ch 120)) (.seq (star sp) (.seq (.group 1 A) (.seq (star sp) (.seq (LF 2) (LF 3))))))
theorem DFTD_eq : DFTD_RE = ⟨DFT, [(py"spec", 1), (py"C6", 2), (py"R0", 3)], 3⟩ := by decide +kernel

/-- The first number of a text that begins with one. -/
theorem get_numbers_first {n : Numeral} (hn : n.Valid) {rest : Str} (hr : EndsNumber rest) : ∃ ns, Res.get_numbers (n.text ++ rest) = n.text :: ns := by
  obtain ⟨x, hx, hw⟩ := num_matchAt_some n hn [] rest (by simp) hr
  rw [Res.get_numbers, Pat.findall, Pat.finditer]
  have := Pat.findFrom_cons Res.NUMBER_RE (n.text ++ rest).length [] [] n.text rest x (text_ne_nil n hn) (by
    intro u v e hv
    obtain ⟨rfl, rfl⟩ := List.append_eq_nil_iff.1 e.symm
    exact absurd rfl hv) hx hw
  rw [List.nil_append] at this
  rw [this]
  exact ⟨_, by rw [List.map_cons, hw]⟩

theorem no_zip : ∀ {l p : Str} {c d : Nat} {r : Str}, l = p ++ c :: d :: r → (c, d) ∈ l.zip (l.drop 1)
  | _, [], c, d, r, rfl => by simp
  | _, a :: p, c, d, r, rfl => by
    have := no_zip (l := p ++ c :: d :: r) (p := p) (c := c) (d := d) (r := r) rfl
    obtain ⟨x, y, e⟩ : ∃ x y, p ++ c :: d :: r = x :: y := by cases p <;> simp
    rw [List.cons_append, List.drop_succ_cons, List.drop_zero, e, List.zip_cons_cons, List.mem_cons]
    right
    rw [e] at this
    rwa [List.drop_succ_cons, List.drop_zero] at this

set_option maxRecDepth 4000 in
theorem miss {l : Str} (h : NoDigit l ∨ DftdItem.NoNumberWord l) : DFTD_RE.match_ l = Option.none := by
  cases hm : DFTD_RE.match_ l with
  | none => rfl
  | some m =>
    exfalso
    obtain ⟨b, e, hl⟩ := match_found hm
    rw [DFTD_eq] at hl
    obtain ⟨u1, v1, e1, -, u2, v2, rfl, -, u3, v3, rfl, -, u4, v4, rfl, -, u5, v5, rfl, -, u6, v6, rfl, ⟨u7, u8, rfl, h7, h8⟩, -⟩ := hl
    obtain ⟨n, hn, rfl⟩ := lang_N (show Lang N u8 from h8)
    obtain ⟨c, hc, hd⟩ := Castep.digit_of_N (show Lang N n.text from h8)
    rcases h with h | h
    · exact h c (by rw [e, e1]; simp [hc]) hd
    · obtain ⟨x, r, ex, hx⟩ := text_head n hn
      obtain ⟨b1, b2⟩ := (lang_rep_set _ _ _ _ _).1 h7
      have hne : u7 ≠ [] := by rintro rfl; simp at b2
      obtain ⟨u, y, rfl⟩ : ∃ u y, u7 = u ++ [y] := ⟨_, _, (List.dropLast_concat_getLast hne).symm⟩
      have hy : isSpace y = true := by have := b1 y (by simp); rwa [has_sp] at this
      have := h (y, x) (no_zip (p := u1 ++ (u2 ++ (u3 ++ (u4 ++ (u5 ++ u))))) (r := r ++ (v6 ++ b)) (by rw [e, e1, ex]; simp)) hy
      rcases hx with hx | rfl | rfl | rfl
      · exact this.1 ((isDigit_iff x).1 hx)
      all_goals exact this.2 (by simp)

theorem run_LF_stop (i : Nat) (pre s : Str) (caps : List (Nat × Str)) (f : St → Option St) (h : Stops sp s) : run (LF i) ⟨pre, s, caps⟩ f = Option.none := by
  rw [run_seq]
  exact run_plus_stop _ _ _ _ _ _ _ _ h

theorem row_match {l : Str} {a : AtomName} {x y : Numeral} (h : (DftdItem.species a x y).Line l) (hok : (DftdItem.species a x y).Ok) :
    ∃ m, DFTD_RE.match_ l = some m ∧ m.caps = [(3, y.text), (2, x.text), (1, a.text)] ∧ m.names = [(py"spec", 1), (py"C6", 2), (py"R0", 3)] := by
  obtain ⟨-, g, l', more, rfl, hg, hi, gl, s, rfl, hgl, hs, hf⟩ := h
  obtain ⟨ha, hx, hy⟩ := hok
  rw [DFTD_eq]
  refine Gets.match_ (p := ⟨DFT, [(py"spec", 1), (py"C6", 2), (py"R0", 3)], 3⟩) (C := (· = _)) ?_
  refine Gets.stars (fun c hc => by rw [has_sp]; exact hg c hc) (by intro c hc; cases hc; rfl) ?_
  refine Gets.lit [120] _ ?_
  refine Gets.stars (fun c hc => by rw [has_sp]; exact hgl c hc) (atomName_stops ha s) ?_
  have hgne : gl ≠ [] := by
    rintro rfl
    obtain ⟨c, t, e, hc⟩ := hi
    obtain ⟨c', t', e', h1, h2⟩ := atomName_head ha
    rw [List.nil_append, e', List.cons_append] at e
    injection e with e _
    rw [← e] at hc
    revert hc
    simp [isSpace]
    omega
  have hx91 : x.text.head? ≠ some 91 := by
    obtain ⟨c, r, e, hc⟩ := text_head x hx.1
    rw [e]
    intro h9
    cases h9
    rcases hc with hc | hc | hc | hc <;> revert hc <;> decide
  have aft : _root_.Verif.After s (x.text :: y.text :: more) := ⟨hs, hf⟩
  refine Gets.atomL ha (clear_gap hgl (.inl hgne)) aft hx91 ?_
  refine Gets.gapBack (fun pre s caps k hs => run_LF_stop _ _ _ _ _ hs) aft fun p2 s2 a2 => ?_
  obtain ⟨g1, s1, rfl, b1, n1, -, -, a3⟩ := a2.next
  refine Gets.lfAt b1 n1 hx.1 a3.endsNumber ?_
  obtain ⟨g2, s3, rfl, b2, n2, -, -, a4⟩ := a3.next
  exact ⟨_, run_LF 3 g2 y b2 n2 hy.1 _ _ _ _ _ a4.endsNumber rfl, rfl⟩

abbrev kS : Key := .str (py"species")

/-- The dictionary with these entries. -/
def state (ss gs : List (Key × PyVal)) : Dict Key PyVal := (kS, .dict (Dict.ofList ss)) :: Dict.ofList gs

theorem named_split {l name : Str} {ws : List Str} (h : DftdItem.Named l name ws) :
    ∃ v, Str.splitC (c!":") l = [name, v] ∧ normalise_string v = Str.join (py" ") ws := by
  obtain ⟨v, rfl, h1, h2, h3⟩ := h
  refine ⟨v, ?_, ?_⟩
  · rw [splitC_append _ _ _ h1, splitC_of_notMem _ _ h2]
  · rw [normalise_string, split_strip, (fields_iff v _).1 h3]

theorem step {rd fl : Numeral → F64} (hrd : ∀ n : Numeral, n.Valid → n.InRange → parse_float_or_rational n.text = .ok (rd n))
    (hfl : ∀ n : Numeral, n.Valid → n.InRange → pyFloat n.text = .ok (fl n)) {it : DftdItem} {l : Str} (h : it.Line l) (hok : it.Ok)
    (ss gs : List (Key × PyVal)) :
    dftdLine (state ss gs) l = .ok (state (ss ++ (it.coefficients fl).toList) (gs ++ (it.general rd).toList)) := by
  cases it with
  | param key n =>
    obtain ⟨name, ws, hn, ho, hk⟩ := h
    obtain ⟨hne, hv, hr⟩ := hok
    obtain ⟨v, e1, e2⟩ := named_split hn
    obtain ⟨rest, er, hrest⟩ : ∃ rest, Str.join (py" ") (n.text :: ws) = n.text ++ rest ∧ EndsNumber rest := by
      cases ws with
      | nil => exact ⟨[], by simp [Str.join], .nil⟩
      | cons w ws => exact ⟨py" " ++ Str.join (py" ") (w :: ws), by simp [Str.join], .space (by decide)⟩
    obtain ⟨ns, hns⟩ := get_numbers_first hv hrest
    rw [dftdLine, e1]
    dsimp only
    rw [if_pos ((Str.contains_iff _ _).2 ho), e2, er, numAt, hns]
    simp only [at_, List.getElem?_cons_zero, Delta.ok_bind, LineTab.toFloat (hrd n hv hr), LineTab.keyName hk]
    show Except.ok _ = _
    simp only [DftdItem.coefficients, DftdItem.general, Option.toList, List.append_nil, state, Params.ofList_snoc]
    rw [Internal.set_tail]
    intro h; injection h with h; exact hne h
  | entry key value =>
    obtain ⟨name, ws, hn, ho, hk, rfl⟩ := h
    obtain ⟨v, e1, e2⟩ := named_split hn
    rw [dftdLine, e1]
    dsimp only
    rw [if_neg (fun h => ho ((Str.contains_iff _ _).1 h)), e2, LineTab.keyName hk]
    simp only [DftdItem.coefficients, DftdItem.general, Option.toList, List.append_nil, state, Params.ofList_snoc]
    rw [Internal.set_tail]
    intro h; injection h with h; exact hok h
  | species a x y =>
    obtain ⟨m, h1, h2, h3⟩ := row_match h hok
    obtain ⟨-, hx, hy⟩ := hok
    have g1 : grpFloat m (py"C6") = .ok (.float (fl x)) := by
      rw [grpFloat, grp, named_eq h2 h3]; exact LineTab.floatV_ok (hfl x hx.1 hx.2)
    have g2 : grpFloat m (py"R0") = .ok (.float (fl y)) := by
      rw [grpFloat, grp, named_eq h2 h3]; exact LineTab.floatV_ok (hfl y hy.1 hy.2)
    have g3 : grpKey m (py"spec") = .str a.text := by rw [grpKey, named_eq h2 h3]; rfl
    rw [dftdLine, splitC_of_notMem _ _ h.1]
    dsimp only
    rw [h1]
    simp only [g1, g2, g3, Delta.ok_bind]
    simp only [DftdItem.coefficients, DftdItem.general, Option.toList, List.append_nil, state, Params.ofList_snoc]
    simp [setIn, Magres.setSub, Dict.get?, Dict.set]
  | other =>
    have hl := LineTab.splitC_length 58 l
    have e : dftdLine (state ss gs) l = .ok (state ss gs) := by
      unfold dftdLine
      split
      · rename_i a b e
        rw [e] at hl
        exact absurd hl (by have := h.1; simp; omega)
      · rw [miss h.2]
    simpa [DftdItem.coefficients, DftdItem.general] using e

theorem fold {rd fl : Numeral → F64} (hrd : ∀ n : Numeral, n.Valid → n.InRange → parse_float_or_rational n.text = .ok (rd n))
    (hfl : ∀ n : Numeral, n.Valid → n.InRange → pyFloat n.text = .ok (fl n)) {items : List DftdItem} {ls : List Str}
    (h : List.Forall₂ DftdItem.Line items ls) :
    (∀ i ∈ items, i.Ok) → ∀ ss gs, foldLines dftdLine (state ss gs) ls =
      .ok (state (ss ++ items.filterMap (DftdItem.coefficients fl)) (gs ++ items.filterMap (DftdItem.general rd))) := by
  induction h with
  | nil => intro _ ss gs; simp [foldLines]
  | @cons i l items ls hl _ ih =>
    intro hok ss gs
    rw [foldLines_cons (h := step hrd hfl hl (hok i (by simp)) ss gs), ih fun i hi => hok i (by simp [hi])]
    cases h1 : i.coefficients fl <;> cases h2 : i.general rd <;> simp [h1, h2]

end Verif.Castep.Dftd

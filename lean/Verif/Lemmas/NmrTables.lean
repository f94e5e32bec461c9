import Verif.Spec.NmrTables
import Verif.Lemmas.AtomTables
import Verif.Lemmas.LineTables
import Verif.Lemmas.ElasticProps
import Verif.Model.CastepTables
/- The tables of NMR properties. -/
namespace Verif
open Re NumRe AtomRe Spec Castep

/-- Blanks at the end of a pattern. -/
theorem Gets.lastBlanks {s pre : Str} {caps} {C : List (Nat × Str) → Prop} (h : C caps) : Gets (star sp) pre s caps C := by
  rw [← List.takeWhile_append_dropWhile (p := isSpace) (l := s)]
  refine Gets.last (Gets.stars (fun c hc => by rw [has_sp]; exact List.all_eq_true.1 (List.all_takeWhile (p := isSpace) (l := s)) c hc) ?_ (Gets.eps h))
  intro c hc
  rw [has_sp]
  have := List.head?_dropWhile_not (p := isSpace) s
  rw [hc] at this
  simpa using this

namespace Nmr

/-- The asymmetry. -/
abbrev AS : Re := .alt F (litRe (py"N/A"))

abbrev ROW (st r : Re) : Re := .seq (star sp) (.seq (.set (ch 124)) (.seq st (.seq (.group 1 A) (.seq (plus sp) (.seq (.group 2 (plus dig)) r)))))
abbrev END : Re := .seq (star sp) (.seq (.set (ch 124)) (star sp))

abbrev R0 : Re := .seq (star sp) (.seq (.set (ch 124)) (.seq (star sp) (.seq (.group 1 A) (.seq (plus sp) (.seq (.group 2 (plus dig)) (.seq (LF 3) (.seq (LF 4) (.seq (star sp) (.seq (.group 5 AS) END)))))))))
abbrev R1 : Re := .seq (star sp) (.seq (.set (ch 124)) (.seq (star sp) (.seq (.group 1 A) (.seq (plus sp) (.seq (.group 2 (plus dig)) (.seq (LF 3) (.seq (LF 4) (.seq (star sp) (.seq (.group 5 AS) (.seq (LF 6) (.seq (LF 7) END)))))))))))
abbrev R2 : Re := .seq (star sp) (.seq (.set (ch 124)) (.seq (star sp) (.seq (.group 1 A) (.seq (plus sp) (.seq (.group 2 (plus dig)) (.seq (LF 3) (.seq (star sp) (.seq (.group 4 AS) END))))))))
abbrev R3 : Re := .seq (star sp) (.seq (.set (ch 124)) (.seq (star (ch 42)) (.seq (star sp) (.seq (.group 1 A) (.seq (plus sp) (.seq (.group 2 (plus dig))
  (.seq (LF 3) (.seq (LF 4) (.seq (LF 5) (.seq (LF 6) (.seq (LF 7) END)))))))))))
abbrev R4 : Re := .seq (star sp) (.seq (.set (ch 124)) (.seq (star sp) (.seq (.group 1 A) (.seq (plus sp) (.seq (.group 2 (plus dig)) (.seq (LF 3) END))))))

abbrev names (t : NmrTask) : List (Str × Nat) :=
  ([py"spec", py"index"] ++ (t.first ++ ((if t.hasAsym then [py"asym"] else []) ++ t.second))).zipIdx 1

theorem RES_eq : Res.MAGRES_RE = [⟨R0, names .shielding, 5⟩, ⟨R1, names .both, 7⟩, ⟨R2, names .efg, 4⟩, ⟨R3, names .coupling, 7⟩, ⟨R4, names .hyperfine, 3⟩] := by
  decide +kernel

/-- The asymmetry, available or not. -/
theorem asymAt {r : Re} {i : Nat} {row : NmrRow} {s : Str} {ws : List Str} {pre caps C} (hs : After s (row.asymText :: ws))
    (hn : ∀ n ∈ row.asym, n.Valid ∧ n.InRange ∧ HasPoint n ∧ n.exp = none)
    (h : ∀ pre' s', After s' ws → Gets r pre' s' ((i, row.asymText) :: caps) C) :
    Gets (.seq (star sp) (.seq (.group i AS) r)) pre s caps C := by
  refine Gets.gap hs fun pre s _ hs => ?_
  obtain ⟨t, h5, h6⟩ := h (row.asymText.reverse ++ pre) s hs
  refine ⟨t, ?_, h6⟩
  rw [run_seq, run_group, run_alt]
  cases ha : row.asym with
  | some n =>
    obtain ⟨h1, -, h2, h3⟩ := hn n ha
    have e : row.asymText = n.text := by rw [NmrRow.asymText, ha]
    rw [e] at h5 ⊢
    rw [run_point h1 h2 _ _ _ _ t hs.1, Option.some_or]
    rw [mantissa_none h3, h3]
    show run r _ some = some t
    simp only [Numeral.expText, List.nil_append]
    rw [upTo_append]
    exact h5
  | none =>
    have e : row.asymText = py"N/A" := by rw [NmrRow.asymText, ha]
    rw [e] at h5 ⊢
    rw [run_none (r := F), Option.none_or]
    · rw [Tddft.run_litRe, upTo_append]
      exact h5
    · intro w t' hst hw
      exfalso
      obtain ⟨n, hv, -, -, rfl⟩ := lang_F hw
      have := hst.post
      cases ht : n.text with
      | nil => exact text_ne_nil n hv ht
      | cons c q =>
        have h1 := AtomVec.numeral_char n hv c (by rw [ht]; simp)
        rw [ht] at this
        injection this with this _
        omega

theorem endAt {s : Str} {more : List Str} {pre : Str} {caps} {C : List (Nat × Str) → Prop} (hs : After s (py"|" :: more)) (h : C caps) : Gets END pre s caps C :=
  Gets.gap hs fun _ _ _ _ => Gets.char (c := 124) (by decide) (Gets.lastBlanks h)

/-- The captures of a row. -/
def capsOf (t : NmrTask) (r : NmrRow) : List (Nat × Str) :=
  (([r.name.text, r.idx] ++ (r.a.map Numeral.text ++ ((if t.hasAsym then [r.asymText] else []) ++ r.b.map Numeral.text))).zipIdx 1).reverse.map fun p => (p.2, p.1)

theorem wrap {n : Nat} {q : Pat} {l : Str} {C : List (Nat × Str)} {N : List (Str × Nat)} {L : List Pat} (hq : L[n]? = some q)
    (h : ∃ m, q.match_ l = some m ∧ m.caps = C ∧ m.names = N) : ∃ p m, L[n]? = some p ∧ p.match_ l = some m ∧ m.caps = C ∧ m.names = N := by
  obtain ⟨m, h⟩ := h
  exact ⟨q, m, hq, h⟩

theorem row_match {t : NmrTask} {r : NmrRow} {l : Str} (hl : NmrRow.Line t l r) (hok : r.Ok t) :
    ∃ p m, Res.MAGRES_RE[t.number]? = some p ∧ p.match_ l = some m ∧ m.caps = capsOf t r ∧ m.names = names t := by
  obtain ⟨g, st, l', more, rfl, hg, hst, hst', hi, hl⟩ := hl
  obtain ⟨o1, o2, o3, o4, o5, o6, o7⟩ := hok
  obtain ⟨name, idx, a, asym, b⟩ := r
  have v : ∀ n ∈ a ++ b, n.Valid := fun n hn => (o6 n hn).1
  rw [RES_eq]
  cases t with
  | shielding =>
    cases hst' (by decide)
    match a, b, o4, o5 with
    | [x, y], [], _, _ =>
      refine wrap (q := ⟨R0, names .shielding, 5⟩) rfl ?_
      refine Gets.match_ (C := (· = _)) ?_
      refine Tddft.gapAt hg (by intro c hc; cases hc; rfl) fun pre _ => ?_
      refine Gets.char (c := 124) (by decide) ?_
      refine Gets.atomLineAt hl o1 hi o2 o3 fun pre s hs => ?_
      refine Gets.num (n := x) hs (v x (by simp)) fun _ _ hs => ?_
      refine Gets.num (n := y) hs (v y (by simp)) fun _ _ hs => ?_
      exact asymAt (row := ⟨name, idx, [x, y], asym, []⟩) hs o7 fun _ _ hs => endAt hs rfl
  | both =>
    cases hst' (by decide)
    match a, b, o4, o5 with
    | [x, y], [z, w], _, _ =>
      refine wrap (q := ⟨R1, names .both, 7⟩) rfl ?_
      refine Gets.match_ (C := (· = _)) ?_
      refine Tddft.gapAt hg (by intro c hc; cases hc; rfl) fun pre _ => ?_
      refine Gets.char (c := 124) (by decide) ?_
      refine Gets.atomLineAt hl o1 hi o2 o3 fun pre s hs => ?_
      refine Gets.num (n := x) hs (v x (by simp)) fun _ _ hs => ?_
      refine Gets.num (n := y) hs (v y (by simp)) fun _ _ hs => ?_
      refine asymAt (row := ⟨name, idx, [x, y], asym, [z, w]⟩) hs o7 fun _ _ hs => ?_
      refine Gets.num (n := z) hs (v z (by simp)) fun _ _ hs => ?_
      refine Gets.num (n := w) hs (v w (by simp)) fun _ _ hs => ?_
      exact endAt hs rfl
  | efg =>
    cases hst' (by decide)
    match a, b, o4, o5 with
    | [x], [], _, _ =>
      refine wrap (q := ⟨R2, names .efg, 4⟩) rfl ?_
      refine Gets.match_ (C := (· = _)) ?_
      refine Tddft.gapAt hg (by intro c hc; cases hc; rfl) fun pre _ => ?_
      refine Gets.char (c := 124) (by decide) ?_
      refine Gets.atomLineAt hl o1 hi o2 o3 fun pre s hs => ?_
      refine Gets.num (n := x) hs (v x (by simp)) fun _ _ hs => ?_
      exact asymAt (row := ⟨name, idx, [x], asym, []⟩) hs o7 fun _ _ hs => endAt hs rfl
  | coupling =>
    match a, b, o4, o5 with
    | [x, y, z, w, q], [], _, _ =>
      refine wrap (q := ⟨R3, names .coupling, 7⟩) rfl ?_
      refine Gets.match_ (C := (· = _)) ?_
      refine Tddft.gapAt hg (by intro c hc; cases hc; rfl) fun pre _ => ?_
      refine Gets.char (c := 124) (by decide) ?_
      refine Gets.stars (fun c hc => by rw [hst c hc]; rfl) ?_ ?_
      · obtain ⟨c, s, rfl, hc⟩ := hi
        intro d hd
        cases hd
        rw [has_ch]
        cases e : c == 42 with
        | false => rfl
        | true => simp at e; subst e; simp [isSpace] at hc
      refine Gets.atomLineAt hl o1 hi o2 o3 fun pre s hs => ?_
      refine Gets.num (n := x) hs (v x (by simp)) fun _ _ hs => ?_
      refine Gets.num (n := y) hs (v y (by simp)) fun _ _ hs => ?_
      refine Gets.num (n := z) hs (v z (by simp)) fun _ _ hs => ?_
      refine Gets.num (n := w) hs (v w (by simp)) fun _ _ hs => ?_
      refine Gets.num (n := q) hs (v q (by simp)) fun _ _ hs => ?_
      exact endAt hs rfl
  | hyperfine =>
    cases hst' (by decide)
    match a, b, o4, o5 with
    | [x], [], _, _ =>
      refine wrap (q := ⟨R4, names .hyperfine, 3⟩) rfl ?_
      refine Gets.match_ (C := (· = _)) ?_
      refine Tddft.gapAt hg (by intro c hc; cases hc; rfl) fun pre _ => ?_
      refine Gets.char (c := 124) (by decide) ?_
      refine Gets.atomLineAt hl o1 hi o2 o3 fun pre s hs => ?_
      refine Gets.num (n := x) hs (v x (by simp)) fun _ _ hs => ?_
      exact endAt hs rfl

/-- The atom, its number and a first value. -/
theorem lang_row {r : Re} {w : Str} (h : Lang (.seq (plus sp) (.seq (.group 2 (plus dig)) (.seq (LF 3) r))) w) :
    ∃ X c d Y c2 Z, w = X ++ c :: d :: (Y ++ c2 :: Z) ∧ isSpace c = true ∧ (48 ≤ d ∧ d ≤ 57) ∧ isSpace c2 = true ∧ ∃ e ∈ Z, 48 ≤ e ∧ e ≤ 57 := by
  obtain ⟨u1, v1, rfl, h1, u2, v2, rfl, h2, u3, v3, rfl, ⟨u4, n, rfl, h4, h5⟩, -⟩ := h
  obtain ⟨e, he, hd⟩ := Castep.digit_of_N (show Lang N n from h5)
  have b1 := (lang_rep_set _ _ _ _ _).1 h1
  have b2 := (lang_rep_set _ _ _ _ _).1 (show Lang (plus dig) u2 from h2)
  have b4 := (lang_rep_set _ _ _ _ _).1 h4
  obtain ⟨X, c, rfl⟩ : ∃ X c, u1 = X ++ [c] := by
    have : u1 ≠ [] := by rintro rfl; simpa using b1.2.1
    exact ⟨_, _, (List.dropLast_concat_getLast this).symm⟩
  obtain ⟨d, Y, rfl⟩ : ∃ d Y, u2 = d :: Y := List.exists_cons_of_ne_nil (by rintro rfl; simpa using b2.2.1)
  obtain ⟨c2, Z, rfl⟩ : ∃ c Z, u4 = c :: Z := List.exists_cons_of_ne_nil (by rintro rfl; simpa using b4.2.1)
  refine ⟨X, c, d, Y, c2, Z ++ n ++ v3, by simp, ?_, ?_, ?_, e, by simp [he], hd⟩
  · have := b1.1 c (by simp); rwa [has_sp] at this
  · have := b2.1 d (by simp); rw [has_dig] at this; exact (isDigit_iff d).1 this
  · have := b4.1 c2 (by simp); rwa [has_sp] at this

theorem other_no {l : Str} (h : NmrRow.Other l) {X Y Z : Str} {c d c2 e : Nat} (hl : l = X ++ c :: d :: (Y ++ c2 :: Z)) (hc : isSpace c = true) (hd : 48 ≤ d ∧ d ≤ 57)
    (hc2 : isSpace c2 = true) (he : e ∈ Z) (hed : 48 ≤ e ∧ e ≤ 57) : False := by
  obtain ⟨p, ds, s, rfl, h1, h2, h3⟩ := h
  have hl : p ++ (ds ++ s) = (X ++ c :: d :: Y) ++ c2 :: Z := by rw [hl]; simp
  have hns : ¬ (48 ≤ c2 ∧ c2 ≤ 57) := (MdFrame.space_facts hc2).1
  rcases List.append_eq_append_iff.1 hl with ⟨a, e1, e2⟩ | ⟨a, e1, e2⟩
  · rcases List.append_eq_append_iff.1 e2 with ⟨b, e3, e4⟩ | ⟨b, e3, e4⟩
    · exact h3 e (by rw [e4]; simp [he]) hed
    · cases b with
      | nil => exact h3 e (by rw [List.nil_append] at e4; rw [← e4]; simp [he]) hed
      | cons x b =>
        injection e4 with e4 _
        exact hns (h2 c2 (by rw [e3, e4]; simp))
  · exact h1 X c d (Y ++ a) (by rw [e1]; simp) hc hd

theorem row_miss {t : NmrTask} {l : Str} (h : NmrRow.Other l) : ∃ p, Res.MAGRES_RE[t.number]? = some p ∧ p.match_ l = Option.none := by
  have key : ∀ p : Pat, (∀ w, Lang p.re w → ∃ X w' r, w = X ++ w' ∧ Lang (.seq (plus sp) (.seq (.group 2 (plus dig)) (.seq (LF 3) r))) w') → p.match_ l = Option.none := by
    intro p hp
    cases hm : p.match_ l with
    | none => rfl
    | some m =>
      exfalso
      obtain ⟨b, e, hl⟩ := match_found hm
      obtain ⟨X, w', r, e1, h2⟩ := hp _ hl
      obtain ⟨X', c, d, Y, c2, Z, e3, h3, h4, h5, x, h6, h7⟩ := lang_row h2
      exact other_no h (X := X ++ X') (Y := Y) (Z := Z ++ b) (by rw [e, e1, e3]; simp) h3 h4 h5 (by simp [h6]) h7
  rw [RES_eq]
  cases t with
  | coupling =>
    refine ⟨⟨R3, names .coupling, 7⟩, rfl, key _ ?_⟩
    rintro _ ⟨u1, v1, rfl, -, u2, v2, rfl, -, u3, v3, rfl, -, u4, v4, rfl, -, u5, v5, rfl, -, h⟩
    exact ⟨u1 ++ u2 ++ u3 ++ u4 ++ u5, v5, _, by simp, h⟩
  | shielding =>
    refine ⟨⟨R0, names .shielding, 5⟩, rfl, key _ ?_⟩
    rintro _ ⟨u1, v1, rfl, -, u2, v2, rfl, -, u3, v3, rfl, -, u4, v4, rfl, -, h⟩
    exact ⟨u1 ++ u2 ++ u3 ++ u4, v4, _, by simp, h⟩
  | both =>
    refine ⟨⟨R1, names .both, 7⟩, rfl, key _ ?_⟩
    rintro _ ⟨u1, v1, rfl, -, u2, v2, rfl, -, u3, v3, rfl, -, u4, v4, rfl, -, h⟩
    exact ⟨u1 ++ u2 ++ u3 ++ u4, v4, _, by simp, h⟩
  | efg =>
    refine ⟨⟨R2, names .efg, 4⟩, rfl, key _ ?_⟩
    rintro _ ⟨u1, v1, rfl, -, u2, v2, rfl, -, u3, v3, rfl, -, u4, v4, rfl, -, h⟩
    exact ⟨u1 ++ u2 ++ u3 ++ u4, v4, _, by simp, h⟩
  | hyperfine =>
    refine ⟨⟨R4, names .hyperfine, 3⟩, rfl, key _ ?_⟩
    rintro _ ⟨u1, v1, rfl, -, u2, v2, rfl, -, u3, v3, rfl, -, u4, v4, rfl, -, h⟩
    exact ⟨u1 ++ u2 ++ u3 ++ u4, v4, _, by simp, h⟩

theorem floatV_of {fl : Numeral → F64} {n : Numeral} (h : pyFloat n.text = .ok (fl n)) : floatV n.text = .ok (.float (fl n)) := by
  rw [floatV, h]; rfl

theorem vals_cons {k : Key} {s : Str} {x : PyVal} {es : List (Key × PyVal)} {l : List (Key × PyVal)} (hk : k ≠ .str (py"asym")) (h : floatV s = .ok x) (hl : magresVals l = .ok es) :
    magresVals ((k, .str s) :: l) = .ok ((k, x) :: es) := by
  rw [magresVals, if_neg hk]
  simp only [h, hl]
  rfl

theorem vals_asym {v : Str} {l : List (Key × PyVal)} : magresVals ((.str (py"asym"), .str v) :: l) = magresVals l := by
  rw [magresVals, if_pos rfl]

theorem ion_none {m : Match} {key : Key} {d val : List (Key × PyVal)} (h1 : atregKey (groupVals m) = .ok (key, d)) (h2 : magresVals d = .ok val)
    (h3 : Dict.get? d (.str (py"asym")) = none) : magresIon m = .ok (key, .dict val) := by
  rw [magresIon, h1]
  simp only [Delta.ok_bind, h2, h3]
  rfl

theorem ion_some {m : Match} {key : Key} {d val : List (Key × PyVal)} {row : NmrRow} {fl : Numeral → F64} (h1 : atregKey (groupVals m) = .ok (key, d)) (h2 : magresVals d = .ok val)
    (h3 : Dict.get? d (.str (py"asym")) = some (.str row.asymText)) (hv : ∀ n ∈ row.asym, n.Valid) (hf : ∀ n ∈ row.asym, pyFloat n.text = .ok (fl n)) :
    magresIon m = .ok (key, .dict (val ++ [(.str (py"asym"), match row.asym with | some n => .float (fl n) | none => .none)])) := by
  rw [magresIon, h1]
  simp only [Delta.ok_bind, h2, h3]
  cases ha : row.asym with
  | none =>
    rw [NmrRow.asymText, ha]
    rfl
  | some n =>
    have e : row.asymText = n.text := by rw [NmrRow.asymText, ha]
    rw [e, if_neg, floatV_of (hf n ha)]
    · rfl
    · intro h
      have := AtomVec.numeral_char n (hv n ha) 78 (by rw [h]; simp)
      omega

theorem row_line {t : NmrTask} {r : NmrRow} {l : Str} {fl : Numeral → F64} (hl : NmrRow.Line t l r) (hok : r.Ok t)
    (hf : ∀ n : Numeral, n.Valid → n.InRange → pyFloat n.text = .ok (fl n)) :
    ∃ p, Res.MAGRES_RE[t.number]? = some p ∧ onMatch p magresIon l = .ok (some (r.entry fl t)) := by
  obtain ⟨p, m, hp, hm, hc, hn⟩ := row_match hl hok
  refine ⟨p, hp, ?_⟩
  unfold onMatch
  rw [hm]
  have key : magresIon m = .ok (r.entry fl t) := by
    have hg := Popn.groups_eq hc hn
    obtain ⟨o1, o2, o3, o4, o5, o6, o7⟩ := hok
    have hv : ∀ n ∈ r.asym, n.Valid := fun n h => (o7 n h).1
    have ha : ∀ n ∈ r.asym, pyFloat n.text = .ok (fl n) := fun n h => hf n (o7 n h).1 (o7 n h).2.1
    have fv : ∀ n ∈ r.a ++ r.b, floatV n.text = .ok (.float (fl n)) := fun n h => floatV_of (hf n (o6 n h).1 (o6 n h).2)
    obtain ⟨name, idx, a, asym, b⟩ := r
    cases t with
    | shielding =>
      match a, b, o4, o5 with
      | [x, y], [], _, _ =>
        refine ion_some (row := ⟨name, idx, [x, y], asym, []⟩) (by rw [hg]; exact Popn.key_of rfl rfl rfl o2 o3) ?_ rfl hv ha
        exact vals_cons (by decide) (fv x (by simp)) (vals_cons (by decide) (fv y (by simp)) vals_asym)
    | both =>
      match a, b, o4, o5 with
      | [x, y], [z, w], _, _ =>
        refine ion_some (row := ⟨name, idx, [x, y], asym, [z, w]⟩) (by rw [hg]; exact Popn.key_of rfl rfl rfl o2 o3) ?_ rfl hv ha
        exact vals_cons (by decide) (fv x (by simp)) (vals_cons (by decide) (fv y (by simp)) (vals_asym.trans (vals_cons (by decide) (fv z (by simp)) (vals_cons (by decide) (fv w (by simp)) rfl))))
    | efg =>
      match a, b, o4, o5 with
      | [x], [], _, _ =>
        refine ion_some (row := ⟨name, idx, [x], asym, []⟩) (by rw [hg]; exact Popn.key_of rfl rfl rfl o2 o3) ?_ rfl hv ha
        exact vals_cons (by decide) (fv x (by simp)) vals_asym
    | coupling =>
      match a, b, o4, o5 with
      | [x, y, z, w, q], [], _, _ =>
        refine ion_none (by rw [hg]; exact Popn.key_of rfl rfl rfl o2 o3) ?_ rfl
        exact vals_cons (by decide) (fv x (by simp)) (vals_cons (by decide) (fv y (by simp)) (vals_cons (by decide) (fv z (by simp)) (vals_cons (by decide) (fv w (by simp))
          (vals_cons (by decide) (fv q (by simp)) rfl))))
    | hyperfine =>
      match a, b, o4, o5 with
      | [x], [], _, _ =>
        refine ion_none (by rw [hg]; exact Popn.key_of rfl rfl rfl o2 o3) ?_ rfl
        exact vals_cons (by decide) (fv x (by simp)) rfl
  simp only [key]
  rfl

theorem table {t : NmrTask} {ls : List Str} {rows : List NmrRow} {fl : Numeral → F64} (h : Interleaved NmrRow.Other (NmrRow.Line t) ls rows) (hok : ∀ r ∈ rows, r.Ok t)
    (hf : ∀ n : Numeral, n.Valid → n.InRange → pyFloat n.text = .ok (fl n)) :
    parse_magres_block t.number ls = .ok (.dict (Dict.ofList ((.str (py"task"), .str t.title) :: rows.map (NmrRow.entry fl t)))) := by
  obtain ⟨p, hp⟩ : ∃ p, Res.MAGRES_RE[t.number]? = some p := by rw [RES_eq]; cases t <;> exact ⟨_, rfl⟩
  have hn : MAGRES_TASK[t.number]? = some t.title := by cases t <;> rfl
  have := collect_rows (f := onMatch p magresIon) (g := fun r => some (NmrRow.entry fl t r)) (fun l hl => by
    obtain ⟨q, h1, h2⟩ := row_miss (t := t) hl
    rw [hp] at h1; cases h1
    unfold onMatch; rw [h2]) h (fun l r hr hl => by
    obtain ⟨q, h1, h2⟩ := row_line hl (hok r hr) hf
    rw [hp] at h1; cases h1
    exact h2)
  rw [parse_magres_block]
  simp only [at_, hp, hn, Delta.ok_bind, this]
  rw [List.filterMap_eq_map']
  rfl

end Nmr
end Verif

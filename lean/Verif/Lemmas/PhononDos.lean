import Verif.Lemmas.Efield
import Verif.Spec.PhononDos
/- `.phonon_dos` files. -/
namespace Verif.Dos
open Re NumRe AtomRe Spec

theorem names_bg : Names BEGIN_GRAD_RE (py"BEGIN GRADIENTS") := names_lit (by decide +kernel)
theorem names_eg : Names END_GRAD_RE (py"END GRADIENTS") := names_lit (by decide +kernel)
theorem names_bd : Names BEGIN_DOS_RE (py"BEGIN DOS") := names_lit (by decide +kernel)
theorem names_ed : Names END_DOS_RE (py"END DOS") := names_lit (by decide +kernel)

/-- The columns of the gradients. -/
def gcols : List Str := [py"n", py"f", py"Grad_qf"]

theorem grad_labelled : labelledPat [] [] gcols = .ok Res.PROCESS_PHONON_PHONON_RE := by decide +kernel

theorem q_re : Res.PHONON_PHONON_RE.re = .seq (plus sp) (.seq (.set (ch 113)) (.seq (.set (ch 45)) (.seq (.set (ch 112))
    (.seq (.set (ch 116)) (.seq (.set (ch 61)) (.seq (star sp) (.seq I (.seq (star sp)
    (.seq (.group 1 (LN 3)) (.group 2 (LN 1)))))))))))  := by decide +kernel

theorem q_names : Res.PHONON_PHONON_RE.names = [(py"qpt", 1), (py"pth", 2)] := by decide +kernel

theorem g_re : Res.PROCESS_PHONON_PHONON_RE.re = lfs 1 2 (LF 3) := by decide +kernel

set_option maxRecDepth 20000 in
theorem gradRows_cons (line : Str) (rest : List Str) (info q : Dict Key PyVal) :
    gradRows (line :: rest) info q =
      (match Res.PHONON_PHONON_RE.match_ line with
      | some m => do
        let info ← flush info q
        gradRows rest info (qptOf m)
      | none =>
        match Res.PROCESS_PHONON_PHONON_RE.match_ line with
        | some m => do
          let q ← stackInto q (groupVals m)
          gradRows rest info q
        | none => gradRows rest info q) := rfl

attribute [local irreducible] Res.PHONON_PHONON_RE Res.PROCESS_PHONON_PHONON_RE BEGIN_GRAD_RE END_GRAD_RE BEGIN_DOS_RE END_DOS_RE
  BEGIN_HEADER_RE END_HEADER_RE NO_EXTRA_RE

theorem no_q (n : Numeral) (hn : n.Valid) : 113 ∉ n.text := by
  obtain ⟨sg, ip, fr, ex⟩ := n
  obtain ⟨h1, h2, -, h4⟩ := hn
  have hd : ∀ s, Numeral.AllDigits s → 113 ∉ s := fun s hs hc => by have := hs _ hc; omega
  have hs : ∀ sg, 113 ∉ Numeral.signText sg := by intro sg; rcases sg with _ | _ | _ <;> decide
  simp only [Numeral.text, List.mem_append, not_or]
  refine ⟨⟨⟨hs sg, hd _ h1⟩, ?_⟩, ?_⟩
  · cases fr with
    | none => simp [Numeral.fracText]
    | some ds => simp only [Numeral.fracText, List.mem_cons, not_or]; exact ⟨by decide, hd _ h2⟩
  · cases ex with
    | none => simp [Numeral.expText]
    | some e =>
      obtain ⟨up, sg', ds⟩ := e
      have := h4 _ rfl
      simp only [Numeral.expText, List.mem_append, not_or]
      refine ⟨⟨?_, hs _⟩, hd _ this.1⟩
      cases up <;> decide

/-- Rows stacked on a dictionary with other keys. -/
theorem stack_row_after {labels : List Str} {a : Dict Key PyVal} (ha : (a.keys ++ labels.map Key.str).Nodup)
    (rows : List (List Numeral)) (ns : List Numeral) (hl : ns.length = labels.length) :
    stackInto (a ++ colsOf labels rows) ((labels.zip ns).map fun p => (Key.str p.1, PyVal.str p.2.text)) =
      .ok (a ++ colsOf labels (rows ++ [ns])) := by
  have hz : labels.zipIdx.map (fun p => Key.str p.1) = labels.map Key.str := zipIdx_fst labels Key.str
  have hc : colsOf labels (rows ++ [ns]) = labels.zipIdx.map fun p =>
      (Key.str p.1, PyVal.list ((rows.filterMap fun r => (r[p.2]?).map fun n => PyVal.str n.text) ++ [cellOf ns p.2])) := by
    rw [colsOf, if_neg (by simp)]
    apply List.map_congr_left
    intro p hp
    have := (List.mem_zipIdx hp).2.1
    rw [column_snoc (by omega)]
  rw [row_cells hl, hc]
  by_cases hr : rows = []
  · subst hr
    have e := stack_fresh (labels.zipIdx.map fun p => (Key.str p.1, cellOf ns p.2)) a
      (by rw [List.map_map]; exact (hz ▸ ha : (a.keys ++ labels.zipIdx.map (fun p : Str × Nat => Key.str p.1)).Nodup))
    rw [colsOf, if_pos rfl, List.append_nil]
    rw [e]
    simp [List.map_map, Function.comp_def]
  · have e := stack_more (labels.zipIdx.map fun p =>
      (Key.str p.1, (rows.filterMap fun r => (r[p.2]?).map fun n => PyVal.str n.text), cellOf ns p.2)) a
      (by rw [List.map_map]; exact (hz ▸ ha : (a.keys ++ labels.zipIdx.map (fun p : Str × Nat => Key.str p.1)).Nodup))
    rw [colsOf, if_neg hr]
    simpa [List.map_map, Function.comp_def] using e

/-- The texts of the line of a q-point. -/
def qTexts (g : QGrad) : Dict Key PyVal :=
  [(.str (py"qpt"), strList (g.q.map Numeral.text)), (.str (py"pth"), strList [g.weight.text])]

theorem q_line {l : Str} {g : QGrad} (h : g.Line l) (hok : g.Ok) :
    ∃ m, Res.PHONON_PHONON_RE.match_ l = some m ∧ qptOf m = qTexts g := by
  obtain ⟨b, s, more, rfl, hb, hbn, hf⟩ := h
  obtain ⟨h1, h2, h3, h4, -⟩ := hok
  obtain ⟨m, e1, ⟨t1, t2, hc, f1, f2⟩, e3⟩ := Gets.match_ (p := Res.PHONON_PHONON_RE) (s := b ++ (py"q-pt=" ++ s))
    (C := fun c => ∃ t1 t2, c = [(2, t2), (1, t1)] ∧ Fields t1 (g.q.map Numeral.text) ∧ Fields t2 [g.weight.text]) (by
      rw [q_re]
      have key : ∀ pre, Gets (.seq (.set (ch 113)) (.seq (.set (ch 45)) (.seq (.set (ch 112))
          (.seq (.set (ch 116)) (.seq (.set (ch 61)) (.seq (star sp) (.seq I (.seq (star sp)
          (.seq (.group 1 (LN 3)) (.group 2 (LN 1)))))))))))  pre (py"q-pt=" ++ s) []
          (fun c => ∃ t1 t2, c = [(2, t2), (1, t1)] ∧ Fields t1 (g.q.map Numeral.text) ∧ Fields t2 [g.weight.text]) := by
        intro pre
        refine Gets.char (by decide) (Gets.char (by decide) (Gets.char (by decide) (Gets.char (by decide) (Gets.char (by decide) ?_))))
        refine Gets.startInt hf h1 h2 (by simp) fun p1 s1 a1 => ?_
        have a1' : After s1 (g.q.map Numeral.text ++ ([g.weight].map Numeral.text ++ more)) := a1
        obtain ⟨w, ws, hw⟩ : ∃ w ws, g.q.map Numeral.text ++ ([g.weight].map Numeral.text ++ more) = w :: ws := by
          cases hq : g.q with
          | nil => rw [hq] at h3; cases h3
          | cons a q => exact ⟨_, _, rfl⟩
        rw [hw] at a1'
        refine Gets.gapBack (fun pre s caps k hs => run_LN_stop _ _ _ _ _ _ hs) a1' fun p2 s2 a2 => ?_
        rw [← hw] at a2
        refine Gets.nums h3 a2 (fun n hn => (h4 n (by simp [hn])).1) fun p3 s3 t1 f1 a3 => ?_
        refine Gets.last (Gets.nums rfl a3 (fun n hn => ?_) fun p4 s4 t2 f2 a4 => ?_)
        · simp only [List.mem_singleton] at hn
          exact (h4 n (by simp [hn])).1
        · exact Gets.eps ⟨t1, t2, rfl, f1, f2⟩
      obtain ⟨t, h5, h6⟩ := key (b.reverse ++ [])
      refine ⟨t, ?_, h6⟩
      rw [run_seq]
      exact run_plus_all sp 1 b _ _ _ _ _ _ (by cases b with | nil => exact absurd rfl hbn | cons c g => simp)
        (fun c hc => by rw [has_sp]; exact hb c hc) (by intro c hc; cases hc; decide) (by simp) h5)
  refine ⟨m, e1, ?_⟩
  have g1 : m.group 1 = some t1 := by
    show (m.caps.find? _).map _ = _; rw [hc]; rfl
  have g2 : m.group 2 = some t2 := by
    show (m.caps.find? _).map _ = _; rw [hc]; rfl
  rw [qptOf, Match.groupdict, e3, q_names]
  simp only [List.map_cons, List.map_nil, g1, g2, Option.getD_some]
  rw [fields_split f1, fields_split f2]
  rfl

theorem q_lang {w : Str} (h : Lang Res.PHONON_PHONON_RE.re w) :
    (∃ g s, w = g ++ 113 :: s ∧ Blank g) ∧ ∃ c ∈ w, 48 ≤ c ∧ c ≤ 57 := by
  rw [q_re] at h
  obtain ⟨g, w1, rfl, hg, h⟩ := h
  obtain ⟨x1, w2, rfl, ⟨c, hc, rfl⟩, h⟩ := h
  obtain ⟨x2, w3, rfl, -, h⟩ := h
  obtain ⟨x3, w4, rfl, -, h⟩ := h
  obtain ⟨x4, w5, rfl, -, h⟩ := h
  obtain ⟨x5, w6, rfl, -, h⟩ := h
  obtain ⟨x6, w7, rfl, -, h⟩ := h
  obtain ⟨x7, w8, rfl, -, h⟩ := h
  obtain ⟨x8, w9, rfl, -, h⟩ := h
  obtain ⟨x9, w10, rfl, -, h⟩ := h
  have hc' : c = 113 := by
    simpa [CSet.has, CItem.has] using hc
  refine ⟨⟨g, x2 ++ (x3 ++ (x4 ++ (x5 ++ (x6 ++ (x7 ++ (x8 ++ (x9 ++ w10))))))), by simp [hc'], ?_⟩, ?_⟩
  · intro d hd
    have := ((lang_rep_set _ _ _ _ _).1 hg).1 d hd
    rwa [has_sp] at this
  · obtain ⟨ws, rfl, h1, -, h2⟩ := h
    cases ws with
    | nil => simp at h1
    | cons u ws =>
      obtain ⟨a, b, rfl, -, hb⟩ := h2 u (by simp)
      obtain ⟨c, hc, hd⟩ := Castep.digit_of_N hb
      exact ⟨c, by simp [hc], hd⟩

theorem q_noDigit {l : Str} (h : NoDigit l) : Res.PHONON_PHONON_RE.match_ l = none := by
  cases hm : Res.PHONON_PHONON_RE.match_ l with
  | none => rfl
  | some m =>
    obtain ⟨b, e, hl⟩ := match_found hm
    obtain ⟨c, hc, hd⟩ := (q_lang hl).2
    exact absurd hd (h c (by rw [e]; simp [hc]))

theorem q_row {l : Str} {n : Numeral} {ns : List Numeral} (h : NumLine l (n :: ns)) (hn : n.Valid) :
    Res.PHONON_PHONON_RE.match_ l = none := by
  cases hm : Res.PHONON_PHONON_RE.match_ l with
  | none => rfl
  | some m =>
    obtain ⟨b, e, hl⟩ := match_found hm
    obtain ⟨g, s, e2, hg⟩ := (q_lang hl).1
    obtain ⟨-, more, hf⟩ := h
    obtain ⟨g', s', e3, h1, h2, h3, -⟩ := fields_next hf
    have hq : 113 ∉ n.text := no_q n hn
    rw [e3, e2, List.append_assoc, List.cons_append] at e
    have d1 : (g' ++ (n.text ++ s')).dropWhile isSpace = n.text ++ s' := by
      rw [List.dropWhile_append_of_pos (fun c hc => h1 c hc)]
      cases ht : n.text with
      | nil => exact absurd ht h2
      | cons c t => rw [List.cons_append, List.dropWhile_cons_of_neg (by simp [h3 c (by rw [ht]; simp)])]
    have d2 : (g ++ 113 :: (s ++ b)).dropWhile isSpace = 113 :: (s ++ b) := by
      rw [List.dropWhile_append_of_pos (fun c hc => hg c hc), List.dropWhile_cons_of_neg (by decide)]
    rw [e, d2] at d1
    cases ht : n.text with
    | nil => exact absurd ht h2
    | cons c t =>
      rw [ht, List.cons_append] at d1
      injection d1 with d1
      exact absurd (by rw [ht, ← d1]; simp) hq

theorem g_noDigit {l : Str} (h : NoDigit l) : Res.PROCESS_PHONON_PHONON_RE.match_ l = none := by
  cases hm : Res.PROCESS_PHONON_PHONON_RE.match_ l with
  | none => rfl
  | some m =>
    obtain ⟨b, e, hl⟩ := match_found hm
    rw [show Res.PROCESS_PHONON_PHONON_RE.re = lfs 1 2 (LF 3) from g_re] at hl
    obtain ⟨c, hc, hd⟩ := lfs_digit hl
    exact absurd hd (h c (by rw [e]; simp [hc]))

/-! ### Gradients -/

/-- The data of a q-point after some of its rows. -/
def qData (g : QGrad) (rows : List (List Numeral)) : Dict Key PyVal := qTexts g ++ colsOf gcols rows

theorem stack_q (g : QGrad) (rows : List (List Numeral)) {ns : List Numeral} (hl : ns.length = 3) :
    stackInto (qData g rows) ((gcols.zip ns).map fun p => (Key.str p.1, PyVal.str p.2.text)) = .ok (qData g (rows ++ [ns])) :=
  stack_row_after (a := qTexts g) (labels := gcols)
    (show ([Key.str (py"qpt"), Key.str (py"pth")] ++ gcols.map Key.str).Nodup by decide) rows ns hl

theorem fix_none {d : Dict Key PyVal} {k : Key} {t : Ty} {r : List (Key × Ty)} (h : d.get? k = none) :
    fix_data_types d ((k, t) :: r) = fix_data_types d r := by
  rw [fix_data_types, h]

theorem flush_q {g : QGrad} (hok : g.Ok) {rd : Numeral → F64} (hr : ∀ n ∈ g.nums, parse_float_or_rational n.text = .ok (rd n)) :
    ∃ e, fix_data_types (qData g g.rows) gradTypes = .ok e ∧ PyVal.dict e = g.entry rd := by
  have t1 : to_type .float (strList (g.q.map Numeral.text)) = .ok (.tuple (g.q.map fun n => .float (rd n))) := by
    have := texts_typed (rd := rd) g.q fun n hn => hr n (by simp [QGrad.nums, hn])
    rw [strList, List.map_map]; exact this
  have t2 : to_type .float (strList [g.weight.text]) = .ok (.tuple [.float (rd g.weight)]) :=
    texts_typed (rd := rd) [g.weight] fun n hn => by
      simp only [List.mem_singleton] at hn
      exact hr n (by simp [QGrad.nums, hn])
  rw [gradTypes]
  rw [fix_some _ _ _ _ _ _ rfl t1, fix_some _ _ _ _ _ _ rfl t2]
  by_cases hrows : g.rows = []
  · rw [qData, colsOf, if_pos hrows, QGrad.entry, if_pos hrows, List.append_nil, List.append_nil]
    exact ⟨[(.str (py"qpt"), .tuple (g.q.map fun n => .float (rd n))), (.str (py"pth"), .tuple [.float (rd g.weight)])], rfl, rfl⟩
  · have hf : ∀ r ∈ g.rows, ∀ n ∈ r, parse_float_or_rational n.text = .ok (rd n) := fun r hr' n hn =>
      hr n (by simp only [QGrad.nums, List.mem_append, List.mem_flatten]; exact .inr ⟨r, hr', hn⟩)
    have c0 : to_type .int (.list (g.rows.filterMap fun r => (r[0]?).map fun n => PyVal.str n.text)) =
        .ok (.tuple (g.rows.filterMap fun r => (r[0]?).map fun n => PyVal.int (intOf n))) := by
      rw [column_texts, column_texts]
      have := to_type_strList .int (g.rows.filterMap fun r => r[0]?) (fun n => n.text) (fun n => PyVal.int (intOf n)) fun n hn => by
        obtain ⟨r, hr', e⟩ := List.mem_filterMap.1 hn
        have h5 := hok.2.2.2.2 r hr'
        exact typeParser_int (h5.1.2 n (List.mem_of_getElem? e)).1 (h5.2 n (by rw [List.head?_eq_getElem?]; exact e))
      rw [strList, List.map_map] at this
      exact this
    have c1 := column_typed (rd := rd) (j := 1) hf
    have c2 := column_typed (rd := rd) (j := 2) hf
    rw [qData, colsOf, if_neg hrows, QGrad.entry, if_neg hrows]
    show ∃ e, fix_data_types _ _ = .ok e ∧ _
    simp only [gcols, List.zipIdx_cons, List.zipIdx_nil, List.map_cons, List.map_nil, qTexts]
    rw [fix_some _ _ _ _ _ _ rfl c0, fix_some _ _ _ _ _ _ rfl c1, fix_some _ _ _ _ _ _ rfl c2]
    exact ⟨_, rfl, rfl⟩

theorem set_set (d : Dict Key PyVal) (k : Key) (v w : PyVal) : (d.set k v).set k w = d.set k w := by
  induction d with
  | nil => simp [Dict.set]
  | cons p d ih =>
    rw [Dict.set]
    split
    · next h => rw [Dict.set, if_pos h, Dict.set, if_pos h]
    · next h => rw [Dict.set, if_neg h, Dict.set, if_neg h, ih]

/-- `gradients` with the data of q-points already there. -/
theorem appendTo_all {info : Dict Key PyVal} {k : Str} (vs : List PyVal) (v : PyVal) (hi : ListAt info k) :
    MdGeom.appendTo (addAll info k vs) (.str k) v = .ok (addAll info k (vs ++ [v])) := by
  rw [addAll, addAll, if_neg (show vs ++ [v] ≠ [] by simp)]
  by_cases hv : vs = []
  · subst hv
    rw [if_pos rfl, MdGeom.appendTo]
    rcases hi with e | ⟨l, e⟩
    · rw [e]; rfl
    · rw [e]; rfl
  · rw [if_neg hv, MdGeom.appendTo]
    rcases hi with e | ⟨l, e⟩ <;> rw [e] <;> dsimp only <;> rw [Dict.get?_set_self] <;> dsimp only <;>
      rw [set_set] <;> simp

theorem flush_all {g : QGrad} (hok : g.Ok) {rd : Numeral → F64} (hr : ∀ n ∈ g.nums, parse_float_or_rational n.text = .ok (rd n))
    {info : Dict Key PyVal} (vs : List PyVal) (hi : ListAt info (py"gradients")) :
    flush (addAll info (py"gradients") vs) (qData g g.rows) = .ok (addAll info (py"gradients") (vs ++ [g.entry rd])) := by
  obtain ⟨e, h1, h2⟩ := flush_q hok hr
  rw [flush, if_neg (by simp [qData, qTexts]), h1]
  show MdGeom.appendTo _ _ (PyVal.dict e) = _
  rw [h2]
  exact appendTo_all vs _ hi

/-- The rows of a q-point. -/
theorem gradRows_rows {rows : List Str} {rs : List (List Numeral)} (h : Interleaved NoDigit NumLine rows rs) :
    ∀ (g : QGrad) (done : List (List Numeral)) (more : List Str) (info : Dict Key PyVal), (∀ r ∈ rs, RowOk 3 r) →
      gradRows (rows ++ more) info (qData g done) = gradRows more info (qData g (done ++ rs)) := by
  induction h with
  | nil => intro g done more info _; rw [List.append_nil, List.nil_append]
  | @skip l ls rs hn _ ih =>
    intro g done more info hok
    rw [List.cons_append, gradRows_cons, q_noDigit hn, g_noDigit hn]
    exact ih g done more info hok
  | @row l ls r rs hr _ ih =>
    intro g done more info hok
    obtain ⟨hl, hv⟩ := hok r (by simp)
    obtain ⟨n, ns, rfl⟩ : ∃ n ns, r = n :: ns := by
      cases r with
      | nil => cases hl
      | cons n ns => exact ⟨n, ns, rfl⟩
    obtain ⟨m, h1, h2⟩ := labelled_row grad_labelled hr hl fun n hn => (hv n hn).1
    rw [List.cons_append, gradRows_cons, q_row hr (hv n (by simp)).1, h1]
    dsimp only
    rw [h2, stack_q g done hl]
    show gradRows (ls ++ more) info _ = _
    rw [ih g _ more info fun x hx => hok x (by simp [hx])]
    simp

theorem gradRows_all {rd : Numeral → F64} {parts : List (List Str)} {gs : List QGrad} (h : List.Forall₂ QGrad.Lines parts gs) :
    ∀ (g : QGrad) (vs : List PyVal) (last : Str) (info : Dict Key PyVal), NoDigit last → ListAt info (py"gradients") → g.Ok →
      (∀ x ∈ gs, x.Ok) → (∀ x ∈ g :: gs, ∀ n ∈ x.nums, parse_float_or_rational n.text = .ok (rd n)) →
      (gradRows (parts.flatten ++ [last]) (addAll info (py"gradients") vs) (qData g g.rows) >>= fun p => flush p.1 p.2) =
        .ok (addAll info (py"gradients") (vs ++ (g :: gs).map (QGrad.entry rd))) := by
  induction h with
  | nil =>
    intro g vs last info hl hi hg _ hr
    rw [List.flatten_nil, List.nil_append, gradRows_cons, q_noDigit hl, g_noDigit hl]
    exact flush_all hg (hr g (by simp)) vs hi
  | @cons p x parts gs hp _ ih =>
    intro g vs last info hl hi hg hok hr
    obtain ⟨l, rows, rfl, hq, hrows⟩ := hp
    have hx := hok x (by simp)
    obtain ⟨m, h1, h2⟩ := q_line hq hx
    rw [List.flatten_cons, List.append_assoc, List.cons_append, gradRows_cons, h1]
    dsimp only
    rw [flush_all hg (hr g (by simp)) vs hi]
    show (gradRows (rows ++ (parts.flatten ++ [last])) _ (qptOf m) >>= _) = _
    have e : qptOf m = qData x [] := by rw [h2, qData, colsOf, if_pos rfl, List.append_nil]
    rw [e, gradRows_rows hrows x [] _ _ fun r hr => (hx.2.2.2.2 r hr).1, List.nil_append,
      ih x _ last info hl hi hx (fun y hy => hok y (by simp [hy])) fun y hy => hr y (List.mem_cons_of_mem _ hy)]
    simp

theorem gradients_block {rd : Numeral → F64} {parts : List (List Str)} {gs : List QGrad} (h : List.Forall₂ QGrad.Lines parts gs)
    {first last : Str} (h1 : NoDigit first) (h2 : NoDigit last) {info : Dict Key PyVal} (hi : ListAt info (py"gradients"))
    (hok : ∀ x ∈ gs, x.Ok) (hr : ∀ x ∈ gs, ∀ n ∈ x.nums, parse_float_or_rational n.text = .ok (rd n)) :
    gradients info ⟨0, 0, first :: (parts.flatten ++ [last])⟩ = .ok (addAll info (py"gradients") (gs.map (QGrad.entry rd))) := by
  show (gradRows (first :: (parts.flatten ++ [last])) info [] >>= fun p => flush p.1 p.2) = _
  rw [gradRows_cons, q_noDigit h1, g_noDigit h1]
  cases h with
  | nil =>
    show (gradRows ([] ++ [last]) info [] >>= _) = _
    rw [List.nil_append, gradRows_cons, q_noDigit h2, g_noDigit h2]
    rfl
  | @cons p x parts gs hp ht =>
    obtain ⟨l, rows, rfl, hq, hrows⟩ := hp
    have hx := hok x (by simp)
    obtain ⟨m, e1, e2⟩ := q_line hq hx
    show (gradRows (((l :: rows) :: parts).flatten ++ [last]) info [] >>= _) = _
    rw [List.flatten_cons, List.append_assoc, List.cons_append, gradRows_cons, e1]
    show (gradRows (rows ++ (parts.flatten ++ [last])) _ (qptOf m) >>= _) = _
    have e : qptOf m = qData x [] := by rw [e2, qData, colsOf, if_pos rfl, List.append_nil]
    rw [e, gradRows_rows hrows x [] _ _ fun r hr => (hx.2.2.2.2 r hr).1, List.nil_append]
    exact gradRows_all ht x [] last info h2 hi hx (fun y hy => hok y (by simp [hy])) hr

/-! ### The density of states -/

theorem ident_iff {w : Str} (h : DosPart.Ident w) : isIdent w = true := by
  obtain ⟨h1, h2, h3⟩ := h
  have hw : ∀ c ∈ w, isWord c = true := by
    intro c hc
    have := h3 c hc
    simp only [isWord, isAlnum, isAlpha, isDigit, isLower, isUpper, Bool.or_eq_true, Bool.and_eq_true, decide_eq_true_eq, beq_iff_eq]
    omega
  cases w with
  | nil => exact absurd rfl h2
  | cons c w =>
    have := h1 c rfl
    simp only [isIdent, Bool.and_eq_true, List.all_eq_true]
    refine ⟨⟨hw c (by simp), ?_⟩, fun d hd => hw d (by simp [hd])⟩
    simp only [isDigit, Bool.not_eq_true', Bool.and_eq_false_iff, decide_eq_false_iff_not]
    omega

theorem dos_labelled {species : List Str} (h1 : ∀ s ∈ species, DosPart.Ident s) (h2 : (py"freq" :: py"g" :: species).Nodup) :
    ∃ p, labelledPat [] [] (py"freq" :: py"g" :: species) = .ok p := by
  rw [labelledPat, if_pos]
  · exact ⟨_, rfl⟩
  · simp only [List.nil_append, Bool.and_eq_true, decide_eq_true_eq, List.all_cons, List.all_eq_true]
    exact ⟨⟨by decide, by decide, fun s hs => ident_iff (h1 s hs)⟩, h2⟩

theorem dos_block {info : Dict Key PyVal} {rd : Numeral → F64} {first last : Str} {inner : List Str} {species : List Str}
    {rows : List (List Numeral)} (hh : ∃ a b c d e, Fields first ([a, b, c, d, e] ++ species))
    (hr : List.Forall₂ NumLine inner rows) (h1 : ∀ s ∈ species, DosPart.Ident s) (h2 : (py"freq" :: py"g" :: species).Nodup)
    (hok : ∀ r ∈ rows, RowOk (species.length + 2) r) (hi : ListAt info (py"dos"))
    (h : ∀ r ∈ rows, ∀ n ∈ r, parse_float_or_rational n.text = .ok (rd n)) :
    dos info ⟨0, 0, first :: (inner ++ [last])⟩ =
      .ok (addTable info (py"dos") (columnTable rd (py"freq" :: py"g" :: species) rows.dropLast)) := by
  obtain ⟨a, b, c, d, e, hf⟩ := hh
  have hc : headers first = py"freq" :: py"g" :: species := by
    rw [headers, fields_split hf]; rfl
  obtain ⟨p, hp⟩ := dos_labelled h1 h2
  have hm := matchRows_labelled (p := p) (labels := py"freq" :: py"g" :: species)
    (fun l ns a b c => labelled_row hp a b c) h2 (forall₂_dropLast hr) []
    (fun r hr => ⟨(hok r (List.mem_of_mem_dropLast hr)).1, fun n hn => ((hok r (List.mem_of_mem_dropLast hr)).2 n hn).1⟩)
  rw [colsOf, if_pos rfl] at hm
  show (labelledPat [] [] (headers first) >>= fun p =>
    matchRows p (Block.sliceBounds (first :: (inner ++ [last])) 1 2) [] >>= fun d => putTable info (py"dos") (headers first) d) = _
  rw [hc, hp]
  show (matchRows p (Block.sliceBounds (first :: (inner ++ [last])) 1 2) [] >>= fun d => putTable info (py"dos") _ d) = _
  rw [slice_rows, hm]
  exact putTable_rows hi (by simp) h2 fun r hr => h r (List.mem_of_mem_dropLast hr)

theorem loop_cons (fuel : Nat) (line : Str) (rest : List Str) (info : Dict Key PyVal) :
    loop (fuel + 1) (line :: rest) info = (do
      match ← tryBlock (found BEGIN_HEADER_RE) (found END_HEADER_RE) line rest with
      | (some b, rest) => do
        let h ← parse_regular_header NO_EXTRA_RE b.rest
        loop fuel rest (updateDict info h)
      | (none, rest) => do
        match ← tryBlock (found BEGIN_GRAD_RE) (found END_GRAD_RE) line rest with
        | (some b, rest) => do
          let info ← gradients info b
          loop fuel rest info
        | (none, rest) => do
          let (info, rest) ← other line rest info
          loop fuel rest info) := rfl

theorem addAll_listAt {d : Dict Key PyVal} {k k' : Str} {t : List PyVal} (h : ListAt d k') : ListAt (addAll d k t) k' := by
  rw [addAll]
  split
  · exact h
  · have key : ∀ v, ListAt (d.set (.str k) (.list v)) k' := by
      intro v
      rw [ListAt, Dict.get?_set]
      by_cases e : (Key.str k) = .str k'
      · exact .inr ⟨v, by rw [if_pos e]⟩
      · rw [if_neg e]; exact h
    split <;> exact key _

/-- All parts of a file. -/
theorem loop_parts (rd : Numeral → F64) (parts : List DosPart) (ls : List (List Str))
    (h : List.Forall₂ DosPart.Lines parts ls) (hok : ∀ p ∈ parts, p.Ok)
    (hrd : ∀ p ∈ parts, ∀ n ∈ p.nums, parse_float_or_rational n.text = .ok (rd n)) :
    ∀ (info : Dict Key PyVal) (fuel : Nat), ls.flatten.length < fuel →
      ListAt info (py"gradients") → ListAt info (py"dos") →
      loop fuel ls.flatten info = .ok (parts.foldl (DosPart.put rd List.dropLast) info) := by
  induction h with
  | nil =>
    intro info fuel hf _ _
    cases fuel with
    | zero => simp at hf
    | succ fuel => rfl
  | @cons p l parts ls hp _ ih =>
    intro info fuel hf ho hpm
    have ih := ih (fun q hq => hok q (by simp [hq])) (fun q hq => hrd q (by simp [hq]))
    have hokp := hok p (by simp)
    have hrdp := hrd p (by simp)
    rw [List.flatten_cons, List.length_append] at hf
    rw [List.flatten_cons, List.foldl_cons]
    cases fuel with
    | zero => simp at hf
    | succ fuel =>
      cases p with
      | header items =>
        obtain ⟨⟨inner, first, last, hl, h1, h2, h3⟩, ps, hps, hfl⟩ := hp
        have hlen : 0 < l.length := by rw [hl]; simp
        have hh := regular_header NO_EXTRA_RE [] (looks_lit _ _ (by decide +kernel)) rd items ps hps
          (fun i hi n hn => hrdp n (List.mem_flatMap.2 ⟨i, hi, hn⟩))
        rw [← hfl, hl] at hh
        rw [hl, List.cons_append, List.append_assoc, loop_cons]
        rw [show [last] ++ ls.flatten = last :: ls.flatten from rfl,
          tryBlock_enclosed Efield.names_bh Efield.names_eh (c := 66) (by decide) (by decide) h1 h2 h3]
        show (parse_regular_header NO_EXTRA_RE (first :: (inner ++ [last])) >>= fun h => loop fuel ls.flatten (updateDict info h)) = _
        rw [hh]
        have k1 := Efield.header_keys (opt := []) (k := py"gradients") (rd := rd) (items := items) (by decide) (by decide) (by decide)
          fun i hi key n e => (hokp.2 i hi key n e).1
        have k2 := Efield.header_keys (opt := []) (k := py"dos") (rd := rd) (items := items) (by decide) (by decide) (by decide)
          fun i hi key n e => (hokp.2 i hi key n e).2
        exact ih _ fuel (by omega) (Efield.merge_listAt _ k1 ho) (Efield.merge_listAt _ k2 hpm)
      | grad gs =>
        obtain ⟨hs, inner, ⟨first, last, hl, h1, h2, h3⟩, d1, d2, ps, hps, hfl⟩ := hp
        have hlen : 0 < l.length := by rw [hl]; simp
        have m1 : ¬ Occurs (py"BEGIN header") first := hs _ (by simp) first (by rw [hl]; rfl)
        have n1 : NoDigit first := d1 first (by rw [hl]; rfl)
        have n2 : NoDigit last := d2 last (by rw [hl, ← List.cons_append, List.getLast?_append]; rfl)
        rw [hl, List.cons_append, List.append_assoc, loop_cons, show [last] ++ ls.flatten = last :: ls.flatten from rfl,
          tryBlock_miss Efield.names_bh m1]
        show (tryBlock _ _ _ _ >>= _) = _
        rw [tryBlock_enclosed names_bg names_eg (c := 66) (by decide) (by decide) h1 h2 h3]
        show (gradients info ⟨0, 0, first :: (inner ++ [last])⟩ >>= fun info => loop fuel ls.flatten info) = _
        rw [hfl, gradients_block (rd := rd) hps n1 n2 ho hokp fun g hg n hn => hrdp n (List.mem_flatMap.2 ⟨g, hg, hn⟩)]
        exact ih _ fuel (by omega) (addAll_listAt ho) (addAll_listAt hpm)
      | dos species rows =>
        obtain ⟨hs, inner, ⟨first, last, hl, h1, h2, h3⟩, hh, hrows⟩ := hp
        have hlen : 0 < l.length := by rw [hl]; simp
        have m1 : ¬ Occurs (py"BEGIN header") first := hs _ (by simp) first (by rw [hl]; rfl)
        have m2 : ¬ Occurs (py"BEGIN GRADIENTS") first := hs _ (by simp) first (by rw [hl]; rfl)
        rw [hl, List.cons_append, List.append_assoc, loop_cons, show [last] ++ ls.flatten = last :: ls.flatten from rfl,
          tryBlock_miss Efield.names_bh m1]
        show (tryBlock _ _ _ _ >>= _) = _
        rw [tryBlock_miss names_bg m2]
        show (other _ _ _ >>= _) = _
        rw [other, tryBlock_enclosed names_bd names_ed (c := 66) (by decide) (by decide) h1 h2 h3]
        show ((dos info ⟨0, 0, first :: (inner ++ [last])⟩ >>= fun info => pure (info, ls.flatten)) >>= _) = _
        rw [dos_block (rd := rd) (hh first (by rw [hl]; rfl)) hrows hokp.1 hokp.2.1 hokp.2.2 hpm
          fun r hr n hn => hrdp n (List.mem_flatten.2 ⟨r, hr, hn⟩)]
        exact ih _ fuel (by omega) (addTable_listAt ho) (addTable_listAt hpm)
      | other =>
        obtain ⟨hs, hlen⟩ := hp
        obtain ⟨x, rfl⟩ := List.length_eq_one_iff.1 hlen
        have m1 : ¬ Occurs (py"BEGIN header") x := hs _ (by simp) x rfl
        have m2 : ¬ Occurs (py"BEGIN GRADIENTS") x := hs _ (by simp) x rfl
        have m3 : ¬ Occurs (py"BEGIN DOS") x := hs _ (by simp) x rfl
        rw [List.cons_append, List.nil_append, loop_cons, tryBlock_miss Efield.names_bh m1]
        show (tryBlock _ _ _ _ >>= _) = _
        rw [tryBlock_miss names_bg m2]
        show (other _ _ _ >>= _) = _
        rw [other, tryBlock_miss names_bd m3]
        exact ih _ fuel (by rw [hlen] at hf; omega) ho hpm

end Verif.Dos

import Verif.Lemmas.BlockFile
import Verif.Lemmas.PhononDos
import Verif.Lemmas.Tables
import Verif.Lemmas.Elastic
import Verif.Spec.XrdSf
/- `.xrd_sf` files. -/
namespace Verif.XrdSf
open Verif Re NumRe AtomRe Spec

/-- `(?:\s*INT){k}` -/
abbrev IN (k : Nat) : Re := .rep true k (some k) (.seq (star sp) I)

theorem QVEC_eq : QVEC_RE = ⟨.group 1 (IN 3), [(py"qvec", 1)], 1⟩ := by decide +kernel

theorem int_text {n : Numeral} (hn : n.Valid) (hi : n.IsInt) :
    n.text = Numeral.signText n.sign ++ n.ip ∧ n.ip ≠ [] := by
  refine ⟨?_, ?_⟩
  · rw [Numeral.text, hi.1, hi.2]; simp [Numeral.fracText, Numeral.expText]
  · have := hn.2.2.1; rw [hi.1] at this; simpa using this

/-- A whole number ends in a digit. -/
theorem int_last {n : Numeral} (hn : n.Valid) (hi : n.IsInt) (pre : Str) : (n.text.reverse ++ pre).head? ≠ some 46 := by
  obtain ⟨h1, h2⟩ := int_text hn hi
  rw [h1, List.reverse_append]
  intro h
  cases hr : n.ip.reverse with
  | nil => exact h2 (by simpa using hr)
  | cons d q =>
    rw [hr] at h
    have hd : d = 46 := by simpa using h
    have hm : d ∈ n.ip := by
      have : d ∈ n.ip.reverse := by rw [hr]; simp
      simpa using this
    have := (allDigits_iff _).1 hn.1 d hm
    rw [hd] at this
    revert this
    decide

theorem run_IN1 {n : Numeral} {s : Str} {ws : List Str} (hs : Fields s (n.text :: ws)) (hn : n.Valid) (hi : n.IsInt) :
    ∃ g s', s = g ++ (n.text ++ s') ∧ Blank g ∧ (∀ c ∈ n.text, isSpace c = false) ∧ After s' ws ∧
      ∀ (pre : Str) (caps : List (Nat × Str)) (k : St → Option St) (x : St), pre.head? ≠ some 46 →
        k ⟨n.text.reverse ++ (g.reverse ++ pre), s', caps⟩ = some x → run (.seq (star sp) I) ⟨pre, s, caps⟩ k = some x := by
  obtain ⟨g, s', rfl, h1, h2, h3, h4⟩ := fields_next hs
  refine ⟨g, s', rfl, h1, h3, h4, fun pre caps k x hp hk => ?_⟩
  obtain ⟨hit, hip⟩ := int_text hn hi
  rw [run_seq]
  refine run_star_all sp g _ _ _ _ _ _ (fun c hc => by rw [has_sp]; exact h1 c hc) (stops_word h2 h3) (by simp) ?_
  rw [hit] at hk ⊢
  apply run_I n.sign n.ip _ _ _ _ _ hn.1 hip
  · intro _ hh
    cases hg : g.reverse with
    | nil => rw [hg] at hh; exact hp hh
    | cons d q =>
      rw [hg] at hh
      have hd : d = 46 := by simpa using hh
      have := h1 d (by have : d ∈ g.reverse := by rw [hg]; simp
                       simpa using this)
      rw [hd] at this
      simp [isSpace] at this
  · exact h4.endsNumber.stops
  · intro hh
    have := h4.1 _ hh
    simp [isSpace] at this
  · exact hk

theorem run_IN : ∀ (ns : List Numeral) (ws : List Str) (s : Str),
    Fields s (ns.map Numeral.text ++ ws) → (∀ n ∈ ns, n.Valid ∧ n.IsInt) →
    ∃ t s', s = t ++ s' ∧ Fields t (ns.map Numeral.text) ∧ (ns ≠ [] → After s' ws) ∧ (ns = [] → t = []) ∧
      ∀ (pre : Str) (caps : List (Nat × Str)) (k : St → Option St) (x : St), pre.head? ≠ some 46 →
        k ⟨t.reverse ++ pre, s', caps⟩ = some x → run (IN ns.length) ⟨pre, s, caps⟩ k = some x
  | [], ws, s, hs, _ => by
    refine ⟨[], s, rfl, fields_blank (by intro c hc; cases hc), fun h => absurd rfl h, fun _ => rfl, fun pre caps k x _ hk => ?_⟩
    rw [List.length_nil, run_rep_greedy, if_pos rfl, if_pos rfl, Option.none_or]
    exact hk
  | n :: ns, ws, s, hs, hv => by
    obtain ⟨hn, hi⟩ := hv n (by simp)
    obtain ⟨g, s', rfl, h1, h3, h4, hk⟩ := run_IN1 (n := n) (ws := ns.map Numeral.text ++ ws) hs hn hi
    obtain ⟨t, s2, rfl, ht, h5, h6, hk2⟩ := run_IN ns ws s' h4.2 (fun y hy => hv y (by simp [hy]))
    have hne : n.text ≠ [] := by
      obtain ⟨a, b⟩ := int_text hn hi
      rw [a]; simp [b]
    have ha : After s2 ws := by
      by_cases he : ns = []
      · have := h6 he
        subst this; subst he
        simpa using h4
      · exact h5 he
    refine ⟨g ++ (n.text ++ t), s2, by simp, ?_, fun _ => ha, fun h => by simp at h, fun pre caps k x hp hx => ?_⟩
    · cases t with
      | nil =>
        have e : ns.map Numeral.text = [] := by
          rw [← fields_split ht]; rfl
        rw [List.map_cons, e, List.append_nil]
        exact fields_prepend h1 (fields_word hne h3)
      | cons c t =>
        have hc : isSpace c = true := h4.1 c rfl
        rw [List.map_cons]
        have e : g ++ (n.text ++ c :: t) = g ++ n.text ++ c :: t := by simp
        rw [e]
        exact .cons (fun d hd => by simp [h1 d hd]) hne (fun d hd => by simp [h3 d hd]) (fun d hd => by cases hd; simp [hc]) ht
    · rw [List.length_cons, run_rep_greedy, if_neg (by simp), if_neg (by simp), Option.or_none]
      apply hk _ _ _ _ hp
      have hlt : (t ++ s2).length < (g ++ (n.text ++ (t ++ s2))).length := by
        simp only [List.length_append]
        have := List.length_pos_iff.2 hne
        omega
      simp only [Option.map_some, Nat.add_sub_cancel, if_pos hlt]
      apply hk2 _ _ _ _ (int_last hn hi _)
      simpa using hx

/-! ### The columns -/

/-- The group of a column. -/
def label (c : XrdCol) : Str := c.key ++ (if c.im then py"_im" else py"_re")

theorem headName_word (c : XrdCol) : headName c.word = label c := by
  obtain ⟨n, b⟩ := c
  cases b
  · simp [headName, XrdCol.word, label, XrdCol.key, Str.lower, List.dropLast_concat]
    decide
  · simp [headName, XrdCol.word, label, XrdCol.key, Str.lower, List.dropLast_concat]
    decide

theorem stem_label (c : XrdCol) : stem (label c) = c.key := by
  obtain ⟨n, b⟩ := c
  cases b <;> simp [stem, label]

theorem label_re {c : XrdCol} {k : Str} {b : Bool} :
    label c = k ++ (if b then py"_im" else py"_re") ↔ c.key = k ∧ c.im = b := by
  constructor
  · intro h
    have hl : (if c.im then py"_im" else py"_re").length = (if b then py"_im" else py"_re").length := by
      cases c.im <;> cases b <;> rfl
    obtain ⟨h1, h2⟩ := List.append_inj' h hl
    refine ⟨h1, ?_⟩
    revert h2
    cases c.im <;> cases b <;> decide
  · rintro ⟨rfl, rfl⟩; rfl

theorem label_ne_qvec (c : XrdCol) : label c ≠ py"qvec" := by
  intro h
  have := congrArg List.getLast? h
  rw [label, List.getLast?_append] at this
  revert this
  cases c.im <;> simp

theorem xrd_labelled {cols : List XrdCol} (h : XrdCol.Ok cols) :
    ∃ p, labelledPat [QVEC_RE.re] [py"qvec"] (cols.map label) = .ok p := by
  obtain ⟨h1, h2⟩ := h
  rw [labelledPat, if_pos]
  · exact ⟨_, rfl⟩
  · simp only [List.singleton_append, Bool.and_eq_true, decide_eq_true_eq, List.all_cons, List.all_eq_true, List.nodup_cons]
    refine ⟨⟨by decide, ?_⟩, ?_, ?_⟩
    · intro s hs
      obtain ⟨c, hc, rfl⟩ := List.mem_map.1 hs
      have hi := Dos.ident_iff (h1 c hc).1
      rw [label]
      cases hk : c.key with
      | nil => rw [hk] at hi; exact absurd hi (by decide)
      | cons a w =>
        rw [hk] at hi
        simp only [isIdent, Bool.and_eq_true] at hi
        simp only [List.cons_append, isIdent, Bool.and_eq_true, List.all_append]
        refine ⟨hi.1, hi.2, ?_⟩
        cases c.im <;> decide
    · intro hm
      obtain ⟨c, -, e⟩ := List.mem_map.1 hm
      exact label_ne_qvec c e
    · have e : cols.map label = (cols.map fun c => (c.key, c.im)).map fun p => p.1 ++ (if p.2 then py"_im" else py"_re") := by
        rw [List.map_map]; rfl
      rw [e]
      refine h2.map ?_
      rintro ⟨a, b⟩ ⟨a', b'⟩ hab
      have hl : (if b then py"_im" else py"_re").length = (if b' then py"_im" else py"_re").length := by
        cases b <;> cases b' <;> rfl
      obtain ⟨e1, e2⟩ := List.append_inj' hab hl
      refine Prod.ext e1 ?_
      revert e2
      cases b <;> cases b' <;> simp

/-! ### A row -/

theorem row_match {cols : List XrdCol} {p : Pat} (hp : labelledPat [QVEC_RE.re] [py"qvec"] (cols.map label) = .ok p) {l : Str}
    {r : XrdRow} (hl : r.Line l) (hr : r.Ok cols.length) :
    ∃ m t, p.match_ l = some m ∧ Fields t (r.q.map Numeral.text) ∧ m.caps = capsOf 2 r.ns [(1, t)] ∧
      m.names = (py"qvec" :: cols.map label).zipIdx 1 := by
  obtain ⟨-, hn, he⟩ := labelledPat_ok hp
  obtain ⟨more, hf⟩ := hl
  obtain ⟨hq, hv, hns⟩ := hr
  obtain ⟨t, s', rfl, ht, ha, -, hk⟩ := run_IN r.q _ l hf hv
  have ha := ha (by intro e; rw [e] at hq; simp at hq)
  obtain ⟨m, h1, h2, h3⟩ := Gets.match_ (p := p) (s := t ++ s') (C := fun c => c = capsOf 2 r.ns [(1, t)]) (Gets.congr he (by
    have hg := gets_lfs (r := .eps) (C := fun c => c = capsOf 2 r.ns [(1, t)]) r.ns 2 (pre := t.reverse) (caps := [(1, t)]) ha
      (fun n hn => (hns.2 n hn).1) fun _ _ _ => Gets.eps rfl
    obtain ⟨y, h5, h6⟩ := hg
    refine ⟨y, ?_, h6⟩
    rw [QVEC_eq]
    show run (.seq (.group 1 (IN 3)) (lfs 2 (cols.map label).length .eps)) _ _ = _
    rw [run_seq, run_group, ← hq]
    apply hk _ _ _ _ (by simp)
    rw [upTo_append, List.length_map, ← hns.1, List.append_nil]
    exact h5))
  exact ⟨m, t, h1, ht, h2, h3.trans hn⟩

theorem row_groups {cols : List XrdCol} {m : Match} {r : XrdRow} {t : Str} (hc : m.caps = capsOf 2 r.ns [(1, t)])
    (hn : m.names = (py"qvec" :: cols.map label).zipIdx 1) (hl : r.ns.length = cols.length) :
    m.groupdict = (py"qvec", some t) :: (cols.zip r.ns).map fun p => (label p.1, some p.2.text) := by
  have h1 : m.group 1 = some t := by
    show (m.caps.find? _).map _ = _
    rw [hc, capsOf, List.find?_append, List.find?_eq_none.2]
    · simp
    · intro x hx
      simp only [List.mem_reverse, List.mem_map] at hx
      obtain ⟨p, hp, rfl⟩ := hx
      have := (List.mem_zipIdx hp).1
      simp; omega
  rw [Match.groupdict, hn, List.zipIdx_cons, List.map_cons]
  dsimp only
  rw [h1]
  congr 1
  apply List.ext_getElem
  · simp [hl]
  · intro j a b
    simp only [List.getElem_map, List.getElem_zipIdx, List.getElem_zip]
    have hj : j < r.ns.length := by simpa [hl] using a
    have := find_caps r.ns 2 j [(1, t)] r.ns[j] (List.getElem?_eq_getElem hj)
    have e : m.group (1 + 1 + j) = some (r.ns[j]).text := by
      show (m.caps.find? _).map _ = _
      rw [hc, this]; rfl
    rw [e]

theorem get_part {k : Str} {b : Bool} : ∀ (cols : List XrdCol) (ns : List Numeral), ns.length = cols.length →
    (∃ c ∈ cols, c.key = k ∧ c.im = b) →
    ∃ n, n ∈ ns ∧
      Dict.get? ((cols.zip ns).map fun p => (label p.1, some p.2.text)) (k ++ (if b then py"_im" else py"_re")) = some (some n.text) ∧
      ((cols.zip ns).find? fun p => p.1.key = k ∧ p.1.im = b).map Prod.snd = some n
  | [], _, _, h => by simp at h
  | c :: cols, [], hl, _ => by simp at hl
  | c :: cols, n :: ns, hl, h => by
    by_cases hc : c.key = k ∧ c.im = b
    · refine ⟨n, by simp, ?_, ?_⟩
      · rw [List.zip_cons_cons, List.map_cons, Dict.get?, if_pos (label_re.2 hc)]
      · rw [List.zip_cons_cons, List.find?_cons_of_pos (by simpa using hc)]; rfl
    · obtain ⟨x, hx, h1, h2⟩ := get_part cols ns (by simpa using hl) (by
        obtain ⟨d, hd, e⟩ := h
        rcases List.mem_cons.1 hd with rfl | hd
        · exact absurd e hc
        · exact ⟨d, hd, e⟩)
      refine ⟨x, by simp [hx], ?_, ?_⟩
      · rw [List.zip_cons_cons, List.map_cons, Dict.get?, if_neg (fun e => hc (label_re.1 e))]; exact h1
      · rw [List.zip_cons_cons, List.find?_cons_of_neg (by simpa using hc)]; exact h2

theorem floatOf_part {rd : Numeral → F64} {cols : List XrdCol} {m : Match} {r : XrdRow} {t : Str} {k : Str} {b : Bool}
    (hg : m.groupdict = (py"qvec", some t) :: (cols.zip r.ns).map fun p => (label p.1, some p.2.text))
    (hl : r.ns.length = cols.length) (hc : ∃ c ∈ cols, c.key = k ∧ c.im = b) (hrd : ∀ n ∈ r.ns, pyFloat n.text = .ok (rd n)) :
    floatOf m (k ++ (if b then py"_im" else py"_re")) = .ok (r.part rd cols k b) := by
  obtain ⟨n, hn, h1, h2⟩ := get_part cols r.ns hl hc
  have hq : ¬ (py"qvec" = k ++ (if b then py"_im" else py"_re")) := by
    obtain ⟨c, -, e⟩ := hc
    rw [← label_re.2 e]
    exact (label_ne_qvec c).symm
  rw [floatOf, hg, Dict.get?, if_neg hq, h1]
  show pyFloat n.text = _
  rw [hrd n hn, XrdRow.part]
  cases hf : (cols.zip r.ns).find? (fun p => p.1.key = k ∧ p.1.im = b) with
  | none => rw [hf] at h2; cases h2
  | some p =>
    rw [hf] at h2
    have : p.2 = n := by simpa using h2
    rw [← this]; rfl

theorem parts_of {rd : Numeral → F64} {cols : List XrdCol} {m : Match} {r : XrdRow} {t : Str}
    (hg : m.groupdict = (py"qvec", some t) :: (cols.zip r.ns).map fun p => (label p.1, some p.2.text))
    (hl : r.ns.length = cols.length) (hrd : ∀ n ∈ r.ns, pyFloat n.text = .ok (rd n)) : ∀ hs : List Str,
    (∀ h ∈ hs, ∀ b, ∃ c ∈ cols, c.key = h ∧ c.im = b) →
    parts m hs = .ok (hs.map fun k => (Key.str k, PyVal.complex (r.part rd cols k false) (r.part rd cols k true)))
  | [], _ => rfl
  | h :: hs, hc => by
    have e1 : floatOf m (h ++ py"_re") = _ := floatOf_part (b := false) hg hl (hc h (by simp) false) hrd
    have e2 : floatOf m (h ++ py"_im") = _ := floatOf_part (b := true) hg hl (hc h (by simp) true) hrd
    rw [parts, e1]
    show (floatOf m (h ++ py"_im") >>= fun im => parts m hs >>= fun d => _) = _
    rw [e2]
    show (parts m hs >>= fun d => _) = _
    rw [parts_of hg hl hrd hs fun x hx => hc x (by simp [hx])]
    rfl

/-- The entries of a row. -/
def entries (rd : Numeral → F64) (cols : List XrdCol) (heads : List Str) (r : XrdRow) : Dict Key PyVal :=
  (heads.map fun k => (Key.str k, PyVal.complex (r.part rd cols k false) (r.part rd cols k true))) ++
    [(.str (py"qvec"), .tuple (r.q.map fun n => .int (intOf n)))]

theorem row_of {rd : Numeral → F64} {cols : List XrdCol} {p : Pat} {heads : List Str}
    (hp : labelledPat [QVEC_RE.re] [py"qvec"] (cols.map label) = .ok p) {l : Str} {r : XrdRow} (hl : r.Line l)
    (hr : r.Ok cols.length) (hrd : ∀ n ∈ r.ns, pyFloat n.text = .ok (rd n))
    (hh : ∀ h ∈ heads, ∀ b, ∃ c ∈ cols, c.key = h ∧ c.im = b) (hq : py"qvec" ∉ heads) :
    row p heads l = .ok (entries rd cols heads r) := by
  obtain ⟨m, t, h1, ht, hc, hn⟩ := row_match hp hl hr
  have hg := row_groups hc hn hr.2.2.1
  rw [row, h1]
  dsimp only
  rw [parts_of hg hr.2.2.1 hrd heads hh]
  have hm : m.named (py"qvec") = some t := by
    have h1 : m.group 1 = some t := by
      have := congrArg (fun d => Dict.get? d (py"qvec")) hg
      rw [Match.groupdict, hn, List.zipIdx_cons, List.map_cons] at this
      simpa [Dict.get?] using this
    rw [Match.named, hn, List.zipIdx_cons]
    simp [h1]
  show (to_type .int (strList (Str.split ((m.named (py"qvec")).getD []))) >>= fun q => _) = _
  rw [hm, Option.getD_some, fields_split ht,
    to_type_strList .int r.q Numeral.text (fun n => .int (intOf n)) fun n hn => typeParser_int (hr.2.1 n hn).1 (hr.2.1 n hn).2]
  show Except.ok (Dict.set _ _ _) = _
  rw [Dict.set_eq_append]
  · rfl
  · intro hk
    rw [Dict.keys, List.map_map] at hk
    obtain ⟨k, hk, e⟩ := List.mem_map.1 hk
    have : k = py"qvec" := by simpa using e
    exact hq (this ▸ hk)

theorem rows_fold {rd : Numeral → F64} {cols : List XrdCol} {p : Pat} {heads : List Str} {ls : List Str} {rs : List XrdRow}
    (hrow : ∀ l r, r ∈ rs → r.Line l → row p heads l = .ok (entries rd cols heads r))
    (h : List.Forall₂ (fun l r => XrdRow.Line l r) ls rs) : ∀ (more : List Str) (d : Dict Key (List PyVal)),
    rows p heads (ls ++ more) d = rows p heads more ((rs.map (entries rd cols heads)).foldl stack_dict d) := by
  induction h with
  | nil => intro more d; rfl
  | @cons l r ls rs hl _ ih =>
    intro more d
    rw [List.cons_append, rows, hrow l r (by simp) hl]
    exact ih (fun l r hr => hrow l r (by simp [hr])) more _

theorem table_of (rd : Numeral → F64) (cols : List XrdCol) (heads : List Str) (hn : heads.Nodup) (hq : py"qvec" ∉ heads)
    (rs : List XrdRow) (hne : rs ≠ []) :
    (rs.map (entries rd cols heads)).foldl stack_dict [] =
      (heads.map fun k => (Key.str k, rs.map fun r => PyVal.complex (r.part rd cols k false) (r.part rd cols k true))) ++
        [(Key.str (py"qvec"), rs.map fun r => PyVal.tuple (r.q.map fun n => .int (intOf n)))] := by
  have hk : ∀ r, (entries rd cols heads r).keys = heads.map Key.str ++ [Key.str (py"qvec")] := by
    intro r; simp [entries, Dict.keys, Function.comp_def]
  have hnd : (heads.map Key.str ++ [Key.str (py"qvec")]).Nodup := by
    rw [List.nodup_append]
    refine ⟨hn.map (by intro a b h; cases h; rfl), by simp, ?_⟩
    intro a ha b hb e
    obtain ⟨k, hk, rfl⟩ := List.mem_map.1 ha
    rw [List.mem_singleton] at hb
    rw [hb] at e
    cases e
    exact hq hk
  rw [stack_table _ hnd _ (by simpa using hne) (by
    intro d hd
    obtain ⟨r, -, rfl⟩ := List.mem_map.1 hd
    exact hk r)]
  rw [List.map_append, List.map_map]
  congr 1
  · apply List.map_congr_left
    intro k hkm
    rw [Function.comp_apply, List.filterMap_map]
    congr 1
    rw [← List.filterMap_eq_map]
    apply List.filterMap_congr
    intro r _
    simp only [Function.comp_apply]
    apply Dict.get?_some_of_mem
    · rw [hk]; exact hnd
    · rw [entries, List.mem_append]
      exact .inl (List.mem_map.2 ⟨k, hkm, rfl⟩)
  · simp only [List.map_cons, List.map_nil]
    congr 2
    rw [List.filterMap_map, ← List.filterMap_eq_map]
    apply List.filterMap_congr
    intro r _
    simp only [Function.comp_apply]
    apply Dict.get?_some_of_mem
    · rw [hk]; exact hnd
    · rw [entries, List.mem_append]
      exact .inr (by simp)

theorem file_of {rd : Numeral → F64} (order : List Str → List Str) (ho : ∀ l, (order l).Perm l) (cols : List XrdCol)
    (hc : XrdCol.Ok cols) (rs : List XrdRow) (hr : ∀ r ∈ rs, r.Ok cols.length) (first : Str)
    (hf : ∃ a b c, Fields first (a :: b :: c :: cols.map XrdCol.word)) (ls : List Str) (h : List.Forall₂ XrdRow.Line ls rs)
    (hrd : ∀ r ∈ rs, ∀ n ∈ r.ns, pyFloat n.text = .ok (rd n)) (more : List Str) :
    ∃ p heads D, labelledPat [QVEC_RE.re] [py"qvec"] (cols.map label) = .ok p ∧
      parse_xrd_sf_file order (first :: (ls ++ more)) = (rows p heads more D >>= fun d => .ok (listDict d)) ∧
      (D.map fun kv => (kv.1, PyVal.list kv.2)).Perm (xrdTable rd cols rs) := by
  obtain ⟨p, hp⟩ := xrd_labelled hc
  obtain ⟨a, b, c, hf⟩ := hf
  have hh : ((Str.split first).drop 3).map headName = cols.map label := by
    rw [fields_split hf]
    show (cols.map XrdCol.word).map headName = _
    rw [List.map_map]
    exact List.map_congr_left fun c _ => headName_word c
  have hst : (cols.map label).map stem = cols.map XrdCol.key := by
    rw [List.map_map]
    exact List.map_congr_left fun c _ => stem_label c
  have hmem : ∀ k ∈ order (cols.map XrdCol.key).eraseDups, ∃ c ∈ cols, c.key = k := by
    intro k hk
    have := (ho _).subset hk
    rw [List.mem_eraseDups] at this
    obtain ⟨c, hc, e⟩ := List.mem_map.1 this
    exact ⟨c, hc, e⟩
  have hnd : (order (cols.map XrdCol.key).eraseDups).Nodup :=
    (ho _).nodup_iff.2 (Elastic.nodup_dups _ _ (Nat.le_refl _))
  have hq : py"qvec" ∉ order (cols.map XrdCol.key).eraseDups := by
    intro hm
    obtain ⟨c, h1, h2⟩ := hmem _ hm
    exact (hc.1 c h1).2.1 h2
  have hb : ∀ k ∈ order (cols.map XrdCol.key).eraseDups, ∀ b, ∃ c ∈ cols, c.key = k ∧ c.im = b := by
    intro k hk b
    obtain ⟨c, h1, h2⟩ := hmem k hk
    by_cases e : c.im = b
    · exact ⟨c, h1, h2, e⟩
    · obtain ⟨d, h3, h4, h5⟩ := (hc.1 c h1).2.2
      refine ⟨d, h3, h4.trans h2, ?_⟩
      rw [h5]
      revert e
      cases c.im <;> cases b <;> simp
  refine ⟨p, order (cols.map XrdCol.key).eraseDups,
    (rs.map (entries rd cols (order (cols.map XrdCol.key).eraseDups))).foldl stack_dict [], hp, ?_, ?_⟩
  · rw [parse_xrd_sf_file]
    rw [hh, hst, hp]
    show (rows p _ (ls ++ more) [] >>= fun d => _) = _
    rw [rows_fold (rd := rd) (cols := cols) (fun l r hm hl => row_of hp hl (hr r hm) (hrd r hm) hb hq) h more []]
    rfl
  · rw [xrdTable]
    by_cases hne : rs = []
    · subst hne; exact .refl _
    · rw [if_neg hne, table_of rd cols _ hnd hq rs hne, List.map_append, List.map_map]
      exact ((ho _).map _).append (.refl _)

theorem digit_of_I {w : Str} (h : Lang I w) : ∃ c ∈ w, 48 ≤ c ∧ c ≤ 57 := by
  obtain ⟨_, v, rfl, -, _, v2, rfl, -, u3, _, rfl, ⟨ws, rfl, hl, -, hw⟩, -⟩ := h
  cases ws with
  | nil => exact absurd hl (by simp)
  | cons x ws =>
    obtain ⟨c, hc, rfl⟩ := hw x (by simp)
    refine ⟨c, by simp, ?_⟩
    simpa [CSet.has, CItem.has, dig, isDigit] using hc

theorem row_bad {cols : List XrdCol} {p : Pat} {heads : List Str} {bad : Str}
    (hp : labelledPat [QVEC_RE.re] [py"qvec"] (cols.map label) = .ok p) (hb : NoDigit bad) :
    row p heads bad = .error .attributeError := by
  obtain ⟨-, -, he⟩ := labelledPat_ok hp
  have hm : p.match_ bad = none := by
    show p.matchAt [] bad = none
    rw [Pat.matchAt_eq, he, QVEC_eq]
    have : run (List.foldr Re.seq (lfs ([py"qvec"].length + 1) (cols.map label).length .eps) [.group 1 (IN 3)])
        ⟨[], bad, []⟩ some = none := by
      apply run_none
      intro w t hs hl
      obtain ⟨u, v, rfl, hu, -⟩ := hl
      obtain ⟨ws, rfl, hl, -, hw⟩ := hu
      cases ws with
      | nil => exact absurd hl (by simp)
      | cons x ws =>
        obtain ⟨_, y, rfl, -, hy⟩ := hw x (by simp)
        obtain ⟨c, hc, hd⟩ := digit_of_I hy
        exact absurd hd (hb c (by
          have := hs.post
          simp only at this
          rw [this]; simp [hc]))
    rw [this]; rfl
  rw [row, hm]

end Verif.XrdSf

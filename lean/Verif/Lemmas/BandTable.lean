import Verif.Spec.BandTable
import Verif.Lemmas.LineTables
/-
Helpers for the band structure in a `.castep` file.
-/
namespace Verif
open Re NumRe AtomRe Spec Castep

/-- A whole number, with or without a group. -/
theorem Gets.wholeAt {r : Re} {n : Numeral} {s : Str} {pre caps C} (hn : n.Valid) (hi : n.IsInt)
    (hp : pre.head? ≠ some 46) (hs : ∀ c, s.head? = some c → ¬ (48 ≤ c ∧ c ≤ 57) ∧ c ≠ 46) (h : Gets r (n.text.reverse ++ pre) s caps C) :
    Gets (.seq I r) pre (n.text ++ s) caps C := by
  obtain ⟨t, h5, h6⟩ := h
  refine ⟨t, ?_, h6⟩
  have hit : n.text = Numeral.signText n.sign ++ n.ip := by
    rw [Numeral.text, hi.1, hi.2]; simp [Numeral.fracText, Numeral.expText]
  have hip : n.ip ≠ [] := by
    have := hn.2.2.1; rw [hi.1] at this; simpa using this
  rw [run_seq]
  rw [hit]
  apply run_I n.sign n.ip _ _ _ _ _ hn.1 hip (fun _ => hp)
  · intro c hc
    rw [has_dig]
    cases hd : isDigit c with
    | false => rfl
    | true => exact absurd (by simpa [isDigit] using hd) (hs c hc).1
  · intro hh; exact (hs _ hh).2 rfl
  · rw [← hit]; exact h5

theorem Gets.intAt {r : Re} {i : Nat} {n : Numeral} {s : Str} {pre caps C} (hn : n.Valid) (hi : n.IsInt)
    (hp : pre.head? ≠ some 46) (hs : ∀ c, s.head? = some c → ¬ (48 ≤ c ∧ c ≤ 57) ∧ c ≠ 46) (h : Gets r (n.text.reverse ++ pre) s ((i, n.text) :: caps) C) :
    Gets (.seq (.group i I) r) pre (n.text ++ s) caps C := by
  obtain ⟨t, h5, h6⟩ := h
  refine ⟨t, ?_, h6⟩
  have hit : n.text = Numeral.signText n.sign ++ n.ip := by
    rw [Numeral.text, hi.1, hi.2]; simp [Numeral.fracText, Numeral.expText]
  have hip : n.ip ≠ [] := by
    have := hn.2.2.1; rw [hi.1] at this; simpa using this
  rw [run_seq, run_group]
  rw [hit]
  apply run_I n.sign n.ip _ _ _ _ _ hn.1 hip (fun _ => hp)
  · intro c hc
    rw [has_dig]
    cases hd : isDigit c with
    | false => rfl
    | true => exact absurd (by simpa [isDigit] using hd) (hs c hc).1
  · intro hh; exact (hs _ hh).2 rfl
  · rw [← hit, upTo_append]; exact h5

/-- A labelled number and the blanks before it. -/
theorem Gets.lfAt {r : Re} {i : Nat} {n : Numeral} {g s : Str} {pre caps C} (hg : Blank g) (hne : g ≠ []) (hn : n.Valid) (hs : EndsNumber s)
    (h : Gets r ((g ++ n.text).reverse ++ pre) s ((i, n.text) :: caps) C) : Gets (.seq (LF i) r) pre (g ++ (n.text ++ s)) caps C := by
  obtain ⟨t, h5, h6⟩ := h
  refine ⟨t, ?_, h6⟩
  rw [run_seq]
  exact run_LF i g n hg hne hn _ _ _ _ _ hs h5

/-- Blanks, at least one. -/
theorem Gets.pluses {r : Re} {cs : CSet} {w s : Str} {pre caps C} (hw : ∀ c ∈ w, cs.has c = true) (hne : w ≠ []) (hs : Stops cs s)
    (h : Gets r (w.reverse ++ pre) s caps C) : Gets (.seq (plus cs) r) pre (w ++ s) caps C := by
  obtain ⟨t, h5, h6⟩ := h
  refine ⟨t, ?_, h6⟩
  rw [run_seq]
  exact run_plus_all cs 1 w _ _ _ _ _ _ (by cases w with | nil => exact absurd rfl hne | cons c s => simp) hw hs (by simp) h5

/-- A number in a group of its own. -/
theorem Gets.numberAt {r : Re} {i : Nat} {n : Numeral} {s : Str} {pre caps C} (hn : n.Valid) (hp : pre.head? ≠ some 46) (hs : EndsNumber s)
    (h : Gets r (n.text.reverse ++ pre) s ((i, n.text) :: caps) C) : Gets (.seq (.group i N) r) pre (n.text ++ s) caps C := by
  obtain ⟨t, h5, h6⟩ := h
  refine ⟨t, ?_, h6⟩
  rw [run_seq, run_group]
  apply run_N n hn _ _ _ _ _ hp hs
  rw [upTo_append]; exact h5

/-- A search that cannot succeed before a given place. -/
theorem search_at {q : Pat} {u s : Str} {C : List (Nat × Str) → Prop} (h : Gets q.re u.reverse s [] C)
    (hu : ∀ a b w, u = a ++ b → b ≠ [] → Lang q.re w → ¬ w <+: b ++ s) :
    ∃ m, q.search (u ++ s) = some m ∧ C m.caps ∧ m.names = q.names := by
  obtain ⟨t, h1, h2⟩ := h
  have hm : q.matchAt u.reverse s = some ⟨u.reverse.reverse, St.upTo ⟨u.reverse, s, []⟩ t, t.post, t.caps, q.names, q.ngroups⟩ := by
    rw [Pat.matchAt_eq, h1]; rfl
  refine ⟨⟨u.reverse.reverse, St.upTo ⟨u.reverse, s, []⟩ t, t.post, t.caps, q.names, q.ngroups⟩, ?_, h2, rfl⟩
  rw [Pat.search, Pat.searchFrom_skip q u [] s]
  · rw [List.append_nil]; exact Pat.searchFrom_of_matchAt hm
  · intro a b e hb
    cases hx : q.matchAt (a.reverse ++ []) (b ++ s) with
    | none => rfl
    | some m =>
      obtain ⟨e', -, hl, -⟩ := Pat.matchAt_some hx
      exact absurd ⟨_, e'.symm⟩ (hu a b _ e hb hl)

theorem search_litAt {q : Pat} {c0 : Nat} {w : Str} {r : Re} (hq : q.re = litThen (c0 :: w) r) {u s : Str} {C : List (Nat × Str) → Prop} (hu : c0 ∉ u)
    (h : Gets q.re u.reverse s [] C) : ∃ m, q.search (u ++ s) = some m ∧ C m.caps ∧ m.names = q.names := by
  refine search_at h fun a b x e hb hl hp => ?_
  rw [hq] at hl
  obtain ⟨t, rfl, -⟩ := lang_litThen hl
  obtain ⟨y, hy⟩ := hp
  obtain ⟨d, b, rfl⟩ := List.exists_cons_of_ne_nil hb
  simp at hy
  exact hu (by rw [e, hy.1]; simp)

theorem search_noLit {q : Pat} {w : Str} {r : Re} (hq : q.re = litThen w r) {l : Str} (h : ¬ Occurs w l) : q.search l = none := by
  cases hm : q.search l with
  | none => rfl
  | some m =>
    obtain ⟨a, b, e, hl⟩ := search_found hm
    rw [hq] at hl
    obtain ⟨t, e2, -⟩ := lang_litThen hl
    exact absurd ⟨a, t ++ b, by rw [e, e2]; simp⟩ h

namespace BandTab

theorem BS_re : Res.BS_RE.re = litThen (py"Spin=") (.seq (star sp) (.seq (.group 1 I) (.seq (star sp) (litThen (py"kpt=") (.seq (star sp) (.seq I (.seq (star sp)
  (.seq (.set (ch 40)) (.seq (LF 2) (.seq (LF 3) (.seq (LF 4) (.seq (.set (ch 41)) (.seq (star sp) (litThen (py"kpt-group=") (.seq (star sp) (.group 5 I)))))))))))))))) := by decide +kernel
theorem BS_names : Res.BS_RE.names = [(py"spin", 1), (py"kx", 2), (py"ky", 3), (py"kz", 4), (py"kpgrp", 5)] := by decide +kernel
theorem BR_re : BAND_ROW_RE.re = .seq (.seq (plus sp) (.group 1 N)) (.seq (plus sp) (.group 2 N)) := by decide +kernel
theorem BR_names : BAND_ROW_RE.names = [(py"band", 1), (py"energy", 2)] := by decide +kernel

theorem ends_space {g s : Str} (hg : Blank g) (hne : g ≠ []) : EndsNumber (g ++ s) := by
  cases g with
  | nil => exact absurd rfl hne
  | cons c g => exact EndsNumber.space (hg c (by simp))

theorem ends_paren {s : Str} : EndsNumber (41 :: s) := ⟨by simp; decide, by simp, by simp, by simp⟩

/-- No digit nor point after blanks followed by other text. -/
theorem int_end {g s : Str} {c : Nat} (hg : Blank g) (hc : ¬ (48 ≤ c ∧ c ≤ 57) ∧ c ≠ 46) :
    ∀ d, (g ++ (c :: s)).head? = some d → ¬ (48 ≤ d ∧ d ≤ 57) ∧ d ≠ 46 := by
  intro d hd
  cases g with
  | nil => cases hd; exact hc
  | cons a g =>
    simp at hd
    have := hg a (by simp)
    simp [isSpace] at this
    omega

theorem stops_char {c : Nat} {s : Str} (hc : isSpace c = false) : Stops sp (c :: s) := by
  intro d hd; cases hd; rw [has_sp]; exact hc

theorem dot_free {g pre : Str} {c : Nat} (hg : Blank g) (hc : c ≠ 46) : (g.reverse ++ (c :: pre)).head? ≠ some 46 := by
  intro h
  cases hr : g.reverse with
  | nil => rw [hr] at h; simp at h; exact hc h
  | cons d q =>
    rw [hr] at h; simp at h
    have := hg d (by have : d ∈ g.reverse := by rw [hr]; simp
                     simpa using this)
    subst h
    simp [isSpace] at this

theorem stops_num {n : Numeral} (hn : n.Valid) (s : Str) : Stops sp (n.text ++ s) := stops_word (text_ne_nil n hn) (text_nospace n hn)

theorem gapped_three {s : Str} {k : List Numeral} (h : Gapped s k) (hk : k.length = 3) : ∃ a b c ga gb gc, k = [a, b, c] ∧
    (∀ g ∈ [ga, gb, gc], Blank g ∧ g ≠ []) ∧ s = ga ++ (a.text ++ (gb ++ (b.text ++ (gc ++ c.text)))) := by
  cases h with
  | nil => simp at hk
  | @cons ga s a k h1 h2 h =>
    cases h with
    | nil => simp at hk
    | @cons gb s b k h3 h4 h =>
      cases h with
      | nil => simp at hk
      | @cons gc s c k h5 h6 h =>
        cases h with
        | nil => exact ⟨a, b, c, ga, gb, gc, rfl, by simp_all, by simp⟩
        | cons _ _ h => simp at hk

theorem title_gets {b : BandPoint} (hok : b.Ok) {g1 g2 g3 g4 s g5 g6 v : Str} (hg : ∀ g ∈ [g1, g2, g3, g4, g5, g6], Blank g) (hs : Gapped s b.k)
    (hv : ∀ c, v.head? = some c → ¬ (48 ≤ c ∧ c ≤ 57) ∧ c ≠ c!".") (pre : Str) :
    Gets Res.BS_RE.re pre (py"Spin=" ++ (g1 ++ (b.spin.text ++ (g2 ++ (py"kpt=" ++ (g3 ++ (b.kpt.text ++ (g4 ++ (c!"(" :: (s ++ (c!")" :: (g5 ++
      (py"kpt-group=" ++ (g6 ++ (b.group.text ++ v))))))))))))))) [] (fun c => c = (5, b.group.text) :: capsOf 2 b.k [(1, b.spin.text)]) := by
  obtain ⟨x, y, z, ga, gb, gc, hk, hgs, rfl⟩ := gapped_three hs hok.2.1.1
  have hsp : ∀ {g : Str}, Blank g → ∀ c ∈ g, sp.has c = true := fun hg c hc => by rw [has_sp]; exact hg c hc
  have hn1 := hok.1 b.spin (by simp)
  have hn2 := hok.1 b.kpt (by simp)
  have hn3 := hok.1 b.group (by simp)
  have hx := fun n (hn : n ∈ b.k) => (hok.2.1.2 n hn).1
  rw [hk] at hx ⊢
  rw [BS_re]
  refine Gets.lit _ _ (Gets.stars (hsp (hg g1 (by simp))) (stops_num hn1.1 _) (Gets.intAt hn1.1 hn1.2 (dot_free (hg g1 (by simp)) (by decide)) (int_end (hg g2 (by simp)) (by decide)) ?_))
  refine Gets.stars (hsp (hg g2 (by simp))) (stops_char (by decide)) (Gets.lit _ _ (Gets.stars (hsp (hg g3 (by simp))) (stops_num hn2.1 _) ?_))
  refine Gets.wholeAt hn2.1 hn2.2 (dot_free (hg g3 (by simp)) (by decide)) (int_end (hg g4 (by simp)) (by decide)) ?_
  refine Gets.stars (hsp (hg g4 (by simp))) (stops_char (by decide)) (Gets.char (by decide) ?_)
  simp only [List.append_assoc]
  refine Gets.lfAt (hgs ga (by simp)).1 (hgs ga (by simp)).2 (hx x (by simp)) (ends_space (hgs gb (by simp)).1 (hgs gb (by simp)).2) ?_
  refine Gets.lfAt (hgs gb (by simp)).1 (hgs gb (by simp)).2 (hx y (by simp)) (ends_space (hgs gc (by simp)).1 (hgs gc (by simp)).2) ?_
  refine Gets.lfAt (hgs gc (by simp)).1 (hgs gc (by simp)).2 (hx z (by simp)) ends_paren ?_
  refine Gets.char (by decide) (Gets.stars (hsp (hg g5 (by simp))) (stops_char (by decide)) (Gets.lit _ _ ?_))
  refine Gets.stars (hsp (hg g6 (by simp))) (stops_num hn3.1 _) (Gets.last (Gets.intAt hn3.1 hn3.2 (dot_free (hg g6 (by simp)) (by decide)) hv (Gets.eps ?_)))
  rfl

theorem title_search {b : BandPoint} {l : Str} (hok : b.Ok) (h : b.Title l) :
    ∃ m, Res.BS_RE.search l = some m ∧ m.caps = (5, b.group.text) :: capsOf 2 b.k [(1, b.spin.text)] ∧ m.names = Res.BS_RE.names := by
  obtain ⟨u, g1, g2, g3, g4, s, g5, g6, v, rfl, hu, hg, hs, hv⟩ := h
  exact search_litAt (c0 := c!"S") (w := py"pin=") BS_re hu (title_gets hok hg hs hv _)

theorem title_none {l : Str} (h : ¬ Occurs (py"Spin=") l) : Res.BS_RE.search l = none := search_noLit BS_re h

theorem lang_row {p : Re} (hp : p = .seq (.seq (plus sp) (.group 1 N)) (.seq (plus sp) (.group 2 N))) {w : Str} (h : Lang p w) : ∃ (g : Str) (n : Numeral) (r : Str), w = g ++ (n.text ++ r) ∧ Blank g ∧ n.Valid := by
  rw [hp] at h
  obtain ⟨w1, w2, rfl, ⟨g, n, rfl, h1, h2⟩, h3⟩ := h
  obtain ⟨n, hn, rfl⟩ := lang_N h2
  refine ⟨g, n, w2, by simp, ?_, hn⟩
  intro c hc
  have := ((lang_rep_set _ _ _ _ _).1 h1).1 c hc
  rwa [has_sp] at this

theorem row_none {q : Pat} (hq : q.re = .seq (.seq (plus sp) (.group 1 N)) (.seq (plus sp) (.group 2 N))) {l : Str} (h : NoDigit l) : q.search l = none := by
  refine AtomVec.search_noDigit (fun w hw => ?_) h
  obtain ⟨g, n, r, rfl, -, hn⟩ := lang_row hq hw
  obtain ⟨c, hc, hd⟩ := text_digit n hn
  exact ⟨c, by simp [hc], by simpa [isDigit] using hd⟩

theorem row_search {q : Pat} (hq : q.re = .seq (.seq (plus sp) (.group 1 N)) (.seq (plus sp) (.group 2 N))) {r : Numeral × Numeral} {l : Str}
    (h1 : r.1.Valid) (h2 : r.2.Valid) (h : BandPoint.Row r l) :
    ∃ m, q.search l = some m ∧ m.caps = [(2, r.2.text), (1, r.1.text)] ∧ m.names = q.names := by
  obtain ⟨u, s, v, rfl, -, hu, hlast, hs, hv⟩ := h
  cases hs with
  | @cons ga s a k hga hga' hs =>
    cases hs with
    | @cons gb s b k hgb hgb' hs =>
      cases hs
      rw [List.append_nil, List.append_assoc, List.append_assoc, List.append_assoc]
      refine search_at (C := (· = [(2, r.2.text), (1, r.1.text)])) ?_ ?_
      · rw [hq]
        have hsp : ∀ {g : Str}, Blank g → ∀ c ∈ g, sp.has c = true := fun hg c hc => by rw [has_sp]; exact hg c hc
        have hdot : ∀ {g pre : Str}, Blank g → g ≠ [] → (g.reverse ++ pre).head? ≠ some 46 := by
          intro g pre hg hne h
          have := clear_gap (pre := pre) hg (.inl hne) _ h
          simp [isSpace] at this
        refine Gets.assoc (Gets.pluses (hsp hga) hga' (stops_num h1 _) (Gets.numberAt h1 (hdot hga hga') (ends_space hgb hgb') ?_))
        refine Gets.pluses (hsp hgb) hgb' (stops_num h2 _) (Gets.last (Gets.numberAt h2 (hdot hgb hgb') (endsNumber_of_space hv) (Gets.eps rfl)))
      · intro x y w e hy hl hp
        obtain ⟨g, n, t, rfl, hg, hn⟩ := lang_row hq hl
        obtain ⟨z, hz⟩ := hp
        have hlast' : ∀ c, y.getLast? = some c → isSpace c = false := by
          intro c hc
          refine hlast c ?_
          rw [e, List.getLast?_append, hc]; rfl
        have hnb : ¬ Blank y := by
          intro hb
          obtain ⟨c, hc⟩ : ∃ c, y.getLast? = some c := ⟨_, List.getLast?_eq_some_getLast hy⟩
          have := hlast' c hc
          rw [hb c (List.mem_of_getLast? hc)] at this
          cases this
        rw [List.append_assoc] at hz
        rcases List.append_eq_append_iff.1 hz with ⟨y', rfl, e2⟩ | ⟨g', rfl, e2⟩
        · rw [List.append_assoc] at e2
          rcases List.append_eq_append_iff.1 e2 with ⟨y2, rfl, e3⟩ | ⟨z', e3, e4⟩
          · obtain ⟨c, hc, hd⟩ := text_digit n hn
            exact hu c (by rw [e]; simp [hc]) (by simpa [isDigit] using hd)
          · cases z' with
            | nil =>
              rw [List.append_nil] at e3
              obtain ⟨c, hc, hd⟩ := text_digit n hn
              exact hu c (by rw [e, ← e3]; simp [hc]) (by simpa [isDigit] using hd)
            | cons c z' =>
              obtain ⟨d, ga, rfl⟩ := List.exists_cons_of_ne_nil hga'
              simp at e4
              have h5 := text_nospace n hn c (by rw [e3]; simp)
              rw [← e4.1, hga d (by simp)] at h5
              cases h5
        · exact hnb fun c hc => hg c (by simp [hc])

/-! ### The dictionaries -/

/-- What is kept of a k-point after these rows. -/
def raw (b : BandPoint) (rows : List (Numeral × Numeral)) : Dict Key PyVal :=
  [(.str (py"band"), .list (rows.map fun r => .str r.1.text)), (.str (py"energy"), .list (rows.map fun r => .str r.2.text)),
   (.str (py"spin"), .str b.spin.text)] ++
  ([py"kx", py"ky", py"kz"].zip b.k).map (fun p => (Key.str p.1, PyVal.str p.2.text)) ++
  [(.str (py"kpgrp"), .str b.group.text)]

set_option maxRecDepth 20000 in
theorem bandLine_eq (s : List PyVal × Dict Key PyVal) (line : Str) : bandLine s line =
  (match Res.BS_RE.search line with
  | some m => do
    let bands ← bandFlush s
    return (bands, updateDict [(.str (py"band"), .list []), (.str (py"energy"), .list [])] (groupVals m))
  | none =>
    match BAND_ROW_RE.search line with
    | some m => do
      let q ← stackPlain s.2 (groupVals m)
      return (s.1, q)
    | none => .ok s) := rfl

theorem title_dict {b : BandPoint} (hk : b.k.length = 3) {m : Match} (hc : m.caps = (5, b.group.text) :: capsOf 2 b.k [(1, b.spin.text)])
    (hn : m.names = [(py"spin", 1), (py"kx", 2), (py"ky", 3), (py"kz", 4), (py"kpgrp", 5)]) :
    updateDict [(.str (py"band"), .list []), (.str (py"energy"), .list [])] (groupVals m) = raw b [] := by
  obtain ⟨x, y, z, hk⟩ := List.length_eq_three.1 hk
  have : groupVals m = [(.str (py"spin"), .str b.spin.text), (.str (py"kx"), .str x.text), (.str (py"ky"), .str y.text), (.str (py"kz"), .str z.text),
      (.str (py"kpgrp"), .str b.group.text)] := by
    unfold groupVals
    rw [Match.groupdict, hn]
    simp only [List.map_cons, List.map_nil, Match.group, hc, hk]
    rfl
  rw [this, raw, hk]
  rfl

theorem row_dict {b : BandPoint} {done : List (Numeral × Numeral)} {r : Numeral × Numeral} {m : Match} (hc : m.caps = [(2, r.2.text), (1, r.1.text)])
    (hn : m.names = [(py"band", 1), (py"energy", 2)]) : stackPlain (raw b done) (groupVals m) = .ok (raw b (done ++ [r])) := by
  have : groupVals m = [(.str (py"band"), .str r.1.text), (.str (py"energy"), .str r.2.text)] := by
    unfold groupVals
    rw [Match.groupdict, hn]
    simp only [List.map_cons, List.map_nil, Match.group, hc]
    rfl
  rw [this, raw, raw, List.map_append, List.map_append]
  rfl

theorem raw_types {b : BandPoint} (hok : b.Ok) {rd : Numeral → F64} (hr : ∀ n ∈ b.k ++ b.rows.map Prod.snd, parse_float_or_rational n.text = .ok (rd n)) :
    fix_data_types (raw b b.rows) bandTypes = .ok (b.info rd) := by
  obtain ⟨x, y, z, hk⟩ := List.length_eq_three.1 hok.2.1.1
  have h1 : to_type .int (.list (b.rows.map fun r => .str r.1.text)) = .ok (.tuple (b.rows.map fun r => .int (intOf r.1))) := by
    have := to_type_strList .int b.rows (fun r => r.1.text) (fun r => .int (intOf r.1)) fun r hr => typeParser_int (hok.2.2 r hr).1 (hok.2.2 r hr).2.1
    simpa [strList, Function.comp_def] using this
  have h2 : to_type .float (.list (b.rows.map fun r => .str r.2.text)) = .ok (.tuple (b.rows.map fun r => .float (rd r.2))) := by
    have := to_type_strList .float b.rows (fun r => r.2.text) (fun r => .float (rd r.2)) fun r hm => typeParser_float (hr r.2 (by
      rw [List.mem_append]; exact .inr (List.mem_map_of_mem hm)))
    simpa [strList, Function.comp_def] using this
  have hs : ∀ n ∈ [b.spin, b.group], to_type .int (.str n.text) = .ok (.int (intOf n)) := by
    intro n hn
    have := hok.1 n (by simp at hn ⊢; rcases hn with rfl | rfl <;> simp)
    rw [to_type, typeParser_int this.1 this.2]
  have hf : ∀ n ∈ b.k, to_type .float (.str n.text) = .ok (.float (rd n)) := by
    intro n hn
    rw [to_type, typeParser_float (hr n (by simp [hn]))]
  rw [hk] at hf
  rw [raw, hk, BandPoint.info, hk, bandTypes]
  rw [fix_some _ _ _ _ _ _ (by rfl) (hs b.spin (by simp)), fix_some _ _ _ _ _ _ (by rfl) (hf x (by simp)), fix_some _ _ _ _ _ _ (by rfl) (hf y (by simp)),
    fix_some _ _ _ _ _ _ (by rfl) (hf z (by simp)), fix_some _ _ _ _ _ _ (by rfl) (hs b.group (by simp)),
    fix_some _ _ _ _ _ _ (by rfl) h1, fix_some _ _ _ _ _ _ (by rfl) h2]
  rfl

theorem foldLines_append {σ : Type} {f : σ → Str → PyM σ} (a b : List Str) (d : σ) :
    foldLines f d (a ++ b) = (do let d ← foldLines f d a; foldLines f d b) := by
  induction a generalizing d with
  | nil => rfl
  | cons l a ih =>
    rw [List.cons_append, foldLines, foldLines]
    cases f d l with
    | error e => rfl
    | ok d => exact ih d

theorem lang_title {w0 : Str} {r : Re} {w : Str} (h : Lang (litThen w0 (.seq (star sp) (.seq (.group 1 I) r))) w) : ∃ c ∈ w, 48 ≤ c ∧ c ≤ 57 := by
  obtain ⟨t, rfl, u, v, rfl, -, a, b, rfl, ha, -⟩ := lang_litThen h
  obtain ⟨n, hn, -, -, rfl⟩ := lang_I ha
  obtain ⟨c, hc, hd⟩ := text_digit n hn
  exact ⟨c, by simp [hc], by simpa [isDigit] using hd⟩

theorem not_spin {q : Pat} {w0 : Str} {r : Re} (hq : q.re = litThen w0 (.seq (star sp) (.seq (.group 1 I) r))) {l : Str} (h : NoDigit l) : q.search l = none :=
  AtomVec.search_noDigit (fun w hw => by rw [hq] at hw; exact lang_title hw) h

theorem line_skip {l : Str} (h : NoDigit l) (s : List PyVal × Dict Key PyVal) : bandLine s l = .ok s := by
  rw [bandLine_eq, not_spin BS_re h]
  dsimp only
  rw [row_none BR_re h]

theorem line_title {b : BandPoint} (hok : b.Ok) {l : Str} (h : b.Title l) (s : List PyVal × Dict Key PyVal) {bs : List PyVal} (hb : bandFlush s = .ok bs) :
    bandLine s l = .ok (bs, raw b []) := by
  obtain ⟨m, h1, h2, h3⟩ := title_search hok h
  rw [bandLine_eq, h1]
  dsimp only
  rw [hb, title_dict hok.2.1.1 h2 (h3.trans BS_names)]
  rfl

theorem line_row {b : BandPoint} {done : List (Numeral × Numeral)} {r : Numeral × Numeral} {l : Str} (h1 : r.1.Valid) (h2 : r.2.Valid) (h : BandPoint.Row r l) (bs : List PyVal) :
    bandLine (bs, raw b done) l = .ok (bs, raw b (done ++ [r])) := by
  obtain ⟨m, h3, h4, h5⟩ := row_search BR_re h1 h2 h
  obtain ⟨-, -, -, -, hn, -⟩ := h
  rw [bandLine_eq, title_none hn]
  dsimp only
  rw [h3]
  dsimp only
  rw [row_dict h4 (h5.trans BR_names)]
  rfl

theorem line_orphan {r : Numeral × Numeral} {l : Str} (h1 : r.1.Valid) (h2 : r.2.Valid) (h : BandPoint.Row r l) : bandLine ([], []) l = .error .keyError := by
  obtain ⟨m, h3, h4, h5⟩ := row_search BR_re h1 h2 h
  obtain ⟨-, -, -, -, hn, -⟩ := h
  rw [bandLine_eq, title_none hn]
  dsimp only
  rw [h3]
  dsimp only
  have : groupVals m = [(.str (py"band"), .str r.1.text), (.str (py"energy"), .str r.2.text)] := by
    unfold groupVals
    rw [Match.groupdict, h5, BR_names]
    simp only [List.map_cons, List.map_nil, Match.group, h4]
    rfl
  rw [this]
  rfl

theorem rows_fold {b : BandPoint} {rows : List (Numeral × Numeral)} {ls : List Str} (h : Interleaved NoDigit (fun l r => BandPoint.Row r l) ls rows) (bs : List PyVal) :
    ∀ done : List (Numeral × Numeral), (∀ r ∈ rows, r.1.Valid ∧ r.2.Valid) → foldLines bandLine (bs, raw b done) ls = .ok (bs, raw b (done ++ rows)) := by
  induction h with
  | nil => intro done _; rw [List.append_nil]; rfl
  | skip h _ ih => intro done hr; rw [foldLines, line_skip h]; exact ih done hr
  | @row l ls r rs h _ ih =>
    intro done hr
    rw [foldLines, line_row (hr r (by simp)).1 (hr r (by simp)).2 h]
    have := ih (done ++ [r]) fun r hm => hr r (by simp [hm])
    rw [List.append_assoc] at this
    exact this

/-- The k-points so far and the one that is being read. -/
theorem table_fold {rd : Numeral → F64} {ls : List Str} {bps : List BandPoint} (h : BandPoint.Table ls bps) :
    ∀ (s : List PyVal × Dict Key PyVal) (bs : List PyVal), bandFlush s = .ok bs → (∀ b ∈ bps, b.Ok) →
      (∀ b ∈ bps, ∀ n ∈ b.k ++ b.rows.map Prod.snd, parse_float_or_rational n.text = .ok (rd n)) →
      ∃ s', foldLines bandLine s ls = .ok s' ∧ bandFlush s' = .ok (bs ++ bps.map fun b => .dict (b.info rd)) := by
  induction h with
  | nil => intro s bs hs _ _; exact ⟨s, rfl, by simpa using hs⟩
  | skip h _ ih =>
    intro s bs hs hok hr
    rw [foldLines, line_skip h]
    exact ih s bs hs hok hr
  | @point l a ls b bps ht ha _ ih =>
    intro s bs hs hok hr
    have hb := hok b (by simp)
    rw [foldLines, line_title hb ht s hs]
    have hf : bandFlush (bs, raw b b.rows) = .ok (bs ++ [.dict (b.info rd)]) := by
      rw [bandFlush, if_neg (by rw [raw]; simp), raw_types hb (hr b (by simp))]
      rfl
    obtain ⟨s', h1, h2⟩ := ih (bs, raw b b.rows) _ hf (fun b hm => hok b (by simp [hm])) fun b hm => hr b (by simp [hm])
    refine ⟨s', ?_, ?_⟩
    · show foldLines bandLine (bs, raw b []) (a ++ ls) = _
      rw [foldLines_append, rows_fold ha bs [] fun r hm => ⟨(hb.2.2 r hm).1, (hb.2.2 r hm).2.2.1⟩, List.nil_append]
      exact h1
    · rw [h2, List.map_cons, List.append_assoc]; rfl

end BandTab
end Verif

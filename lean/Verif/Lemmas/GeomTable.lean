import Verif.Spec.GeomTable
import Verif.Lemmas.MdData
import Verif.Lemmas.Tddft
/-
Helpers for the tables of a geometry optimisation.
-/
namespace Verif.Castep
open Verif Spec Re NumRe AtomRe

set_option maxRecDepth 4000

def nobar : CSet := ⟨true, [.ch 124], false⟩
def nsp : CSet := cset [.notSpace]

/-- A cell with a number. -/
def BarN (i : Nat) : Re := .seq (star sp) (.seq (.set (ch 124)) (.seq (star sp) (.group i N)))

theorem MIN_eq : Res.GEOMOPT_MIN_TABLE_RE.re = .seq (star sp) (.seq (.set (ch 124)) (.seq (star sp) (.seq (.group 1 (plus nobar))
    (.seq (BarN 2) (.seq (BarN 3) (.seq (BarN 4) (.seq (star sp) (.set (ch 124))))))))) := by decide +kernel

theorem TABLE_eq : Res.GEOMOPT_TABLE_RE.re = .seq (star sp) (.seq (.set (ch 124)) (.seq (star sp) (.seq (.group 1 (plus nsp))
    (.seq (BarN 2) (.seq (BarN 3) (.seq (star sp) (.seq (.set (ch 124)) (.seq (star sp) (.seq (plus nsp) (.seq (star sp) (.seq (.set (ch 124)) (.seq (star sp)
      (.seq (.group 4 (.alt (litRe (py"No")) (litRe (py"Yes")))) (.seq (star sp) (.set (ch 124)))))))))))))))) := by decide +kernel

theorem has_nobar (c : Nat) : nobar.has c = true ↔ c ≠ 124 := by simp [nobar, CSet.has, CItem.has]
theorem has_nsp (c : Nat) : nsp.has c = true ↔ isSpace c = false := by simp [nsp, cset, CSet.has, CItem.has]

theorem ends_bar {g s : Str} (hg : Blank g) : EndsNumber (g ++ 124 :: s) := by
  cases g with
  | nil => exact ⟨by simp [isDigit], by simp, by simp, by simp⟩
  | cons c g => exact EndsNumber.space (hg c (by simp))

theorem blanks_sp {g : Str} (hg : Blank g) : ∀ c ∈ g, sp.has c = true := fun c hc => by simpa [CSet.has, CItem.has] using hg c hc

theorem stops_bar (s : Str) : Stops sp (124 :: s) := by
  intro c hc; cases hc; decide

theorem Gets.barN {r : Re} {i : Nat} {n : Numeral} {g g' s : Str} {pre caps C} (hg : Blank g) (hg' : Blank g') (hn : n.Valid) (hs : EndsNumber s)
    (h : ∀ pre', Gets r pre' s ((i, n.text) :: caps) C) : Gets (.seq (BarN i) r) pre (g ++ 124 :: (g' ++ (n.text ++ s))) caps C := by
  refine .assoc (Gets.stars (blanks_sp hg) (stops_bar _) (.assoc (Gets.char (by decide) (.assoc (Gets.stars (blanks_sp hg') (BandTab.stops_num hn _)
    (Gets.numberAt hn ?_ hs (h _)))))))
  intro hp
  rcases List.eq_nil_or_concat g' with rfl | ⟨g0, c, rfl⟩
  · simp at hp
  · have : isSpace c = true := hg' c (by simp)
    simp at hp
    subst hp
    revert this
    decide

theorem bar_num (n : Numeral) (hn : n.Valid) : 124 ∉ n.text := by
  obtain ⟨sg, ip, fr, ex⟩ := n
  obtain ⟨h1, h2, -, h4⟩ := hn
  have hd : ∀ s, Numeral.AllDigits s → 124 ∉ s := fun s hs hc => by have := hs _ hc; omega
  have hs : ∀ sg, 124 ∉ Numeral.signText sg := by intro sg; rcases sg with _ | _ | _ <;> decide
  simp only [Numeral.text, List.mem_append, not_or]
  refine ⟨⟨⟨hs sg, hd _ h1⟩, ?_⟩, ?_⟩
  · cases fr with
    | none => simp [Numeral.fracText]
    | some ds => simp only [Numeral.fracText, List.mem_cons, not_or]; exact ⟨by decide, hd _ h2⟩
  · cases ex with
    | none => simp [Numeral.expText]
    | some e =>
      obtain ⟨up, sg', ds⟩ := e
      have := h4 _ rfl
      simp only [Numeral.expText, List.mem_append, not_or]
      refine ⟨⟨?_, hs _⟩, hd _ this.1⟩
      cases up <;> decide

theorem Gets.yesNo {r : Re} {i : Nat} (ok : Bool) {s pre : Str} {caps C} (h : ∀ pre', Gets r pre' s ((i, if ok then py"Yes" else py"No") :: caps) C) :
    Gets (.seq (.group i (.alt (litRe (py"No")) (litRe (py"Yes")))) r) pre ((if ok then py"Yes" else py"No") ++ s) caps C := by
  cases ok with
  | true =>
    obtain ⟨t, h5, h6⟩ := h ((py"Yes").reverse ++ pre)
    refine ⟨t, ?_, h6⟩
    rw [if_pos rfl] at h5 ⊢
    rw [run_seq, run_group, run_alt, Tddft.run_litRe, upTo_append]
    dsimp only
    rw [h5]
    rw [litRe, run_seq, List.cons_append, run_set_cons, if_neg (by decide)]
    · rfl
    · simp
  | false =>
    obtain ⟨t, h5, h6⟩ := h ((py"No").reverse ++ pre)
    refine ⟨t, ?_, h6⟩
    rw [if_neg (by decide)] at h5 ⊢
    rw [run_seq, run_group, run_alt, Tddft.run_litRe, upTo_append]
    dsimp only
    rw [h5]
    rfl

theorem cut_bar {a b a' b' : Str} (h : a ++ 124 :: b = a' ++ 124 :: b') (ha : 124 ∉ a) (ha' : 124 ∉ a') : a = a' ∧ b = b' := by
  rcases List.append_eq_append_iff.1 h with ⟨d, h1, h2⟩ | ⟨d, h1, h2⟩
  · cases d with
    | nil => exact ⟨by simpa using h1.symm, by simpa using h2⟩
    | cons x d => injection h2 with h3 h4; subst h3; exact absurd (by rw [h1]; simp) ha'
  · cases d with
    | nil => exact ⟨by simpa using h1, by simpa using h2.symm⟩
    | cons x d => injection h2 with h3 h4; subst h3; exact absurd (by rw [h1]; simp) ha

theorem blank_bar {g : Str} (hg : Blank g) : 124 ∉ g := fun h => by have := hg _ h; revert this; decide

theorem lang_spaces {w : Str} (h : Lang (star sp) w) : Blank w := by
  intro c hc
  have := ((lang_rep_set _ _ _ _ _).1 h).1 c hc
  rwa [has_sp] at this

theorem lang_bar {w : Str} (h : Lang (.set (ch 124)) w) : w = [124] := by
  obtain ⟨c, hc, rfl⟩ := h
  have : c = 124 := by simpa [CSet.has, CItem.has] using hc
  rw [this]

theorem lang_barN {i : Nat} {w : Str} (h : Lang (BarN i) w) : ∃ g q, w = g ++ 124 :: q ∧ Blank g ∧ 124 ∉ q ∧ ∃ c ∈ q, isDigit c = true := by
  obtain ⟨u1, _, rfl, h1, u2, _, rfl, h2, u3, u4, rfl, h3, h4⟩ := h
  obtain ⟨n, hn, rfl⟩ := lang_N h4
  rw [lang_bar h2]
  obtain ⟨c, hc, hd⟩ := text_digit n hn
  refine ⟨u1, u3 ++ n.text, rfl, lang_spaces h1, ?_, c, by simp [hc], hd⟩
  rw [List.mem_append]
  exact fun h => h.elim (blank_bar (lang_spaces h3)) (bar_num n hn)

/-- The cells of a row of the line search. -/
theorem min_cells {l : Str} {m : Match} (h : Res.GEOMOPT_MIN_TABLE_RE.match_ l = some m) : ∃ p0 p1 p2 p3 p4 r,
    l = p0 ++ 124 :: (p1 ++ 124 :: (p2 ++ 124 :: (p3 ++ 124 :: (p4 ++ 124 :: r)))) ∧ (∀ p ∈ [p0, p1, p2, p3, p4], 124 ∉ p) ∧
    ∀ p ∈ [p2, p3, p4], ∃ c ∈ p, isDigit c = true := by
  obtain ⟨b, e, hl⟩ := match_found h
  rw [MIN_eq] at hl
  obtain ⟨u1, _, e1, h1, u2, _, rfl, h2, u3, _, rfl, h3, u4, _, rfl, h4, u5, _, rfl, h5, u6, _, rfl, h6, u7, _, rfl, h7, u8, u9, rfl, h8, h9⟩ := hl
  obtain ⟨g1, q1, rfl, hg1, hq1, hd1⟩ := lang_barN h5
  obtain ⟨g2, q2, rfl, hg2, hq2, c2, hc2, hd2⟩ := lang_barN h6
  obtain ⟨g3, q3, rfl, hg3, hq3, c3, hc3, hd3⟩ := lang_barN h7
  obtain ⟨c1, hc1, hd1⟩ := hd1
  rw [lang_bar h2, lang_bar h9] at e1
  have h4' : 124 ∉ u4 := fun hm => (has_nobar 124).1 (((lang_rep_set _ _ _ _ _).1 (show Lang (plus nobar) u4 from h4)).1 _ hm) rfl
  have h8 := lang_spaces h8
  refine ⟨u1, u3 ++ (u4 ++ g1), q1 ++ g2, q2 ++ g3, q3 ++ u8, b, ?_, ?_, ?_⟩
  · rw [e, e1]; simp
  · have := blank_bar hg1
    have := blank_bar hg2
    have := blank_bar hg3
    have := blank_bar h8
    have := blank_bar (lang_spaces h1)
    have := blank_bar (lang_spaces h3)
    simp only [List.mem_cons, List.not_mem_nil, or_false, forall_eq_or_imp, forall_eq, List.mem_append, not_or]
    exact ⟨by assumption, ⟨by assumption, by assumption, by assumption⟩, ⟨by assumption, by assumption⟩, ⟨by assumption, by assumption⟩, ⟨by assumption, by assumption⟩⟩
  · simp only [List.mem_cons, List.not_mem_nil, or_false, forall_eq_or_imp, forall_eq]
    exact ⟨⟨c1, by simp [hc1], hd1⟩, ⟨c2, by simp [hc2], hd2⟩, ⟨c3, by simp [hc3], hd3⟩⟩

theorem not_digit {s : Str} (h : NoDigit s) (hd : ∃ c ∈ s, isDigit c = true) : False := by
  obtain ⟨c, hc, hd⟩ := hd
  have := h c hc
  simp [isDigit] at hd
  omega

theorem param_not_min {l name : Str} {x y : Numeral} {ok : Bool} (h : GeomRow.Line l (.param name x y ok)) (hv : ∀ n ∈ [x, y], n.Valid) :
    Res.GEOMOPT_MIN_TABLE_RE.match_ l = none := by
  cases hm : Res.GEOMOPT_MIN_TABLE_RE.match_ l with
  | none => rfl
  | some m =>
    exfalso
    obtain ⟨p0, p1, p2, p3, p4, r, e, hp, hq⟩ := min_cells hm
    obtain ⟨g0, g1, raw, g2, g3, g4, g5, g6, g7, units, g8, g9, g10, rest, rfl, hg, hg2, hg8, hr, hrs, hu, hus, hk, hn⟩ := h
    simp only [List.mem_cons, List.not_mem_nil, or_false, forall_eq_or_imp, forall_eq] at hg hv hp hq
    obtain ⟨h0, h1, h2, h3, h4, h5, h6, h7, h8, h9, h10⟩ := hg
    obtain ⟨k0, k1, k2, k3, k4⟩ := hp
    have bx := bar_num x hv.1
    have b_y := bar_num y hv.2
    obtain ⟨rfl, e0⟩ := cut_bar e (blank_bar h0) k0
    rcases hn with ⟨n1, n2, n3⟩ | ⟨a, b, rfl, n1, n2⟩
    · have e' : (g1 ++ (raw ++ g2)) ++ 124 :: ((g3 ++ (x.text ++ g4)) ++ 124 :: ((g5 ++ (y.text ++ g6)) ++ 124 :: ((g7 ++ (units ++ g8)) ++ 124 ::
          (g9 ++ ((if ok then py"Yes" else py"No") ++ (g10 ++ 124 :: rest)))))) = p1 ++ 124 :: (p2 ++ 124 :: (p3 ++ 124 :: (p4 ++ 124 :: r))) := by
        rw [← e0]; simp
      obtain ⟨-, e'⟩ := cut_bar e' (by simp [blank_bar h1, blank_bar h2, n1]) k1
      obtain ⟨-, e'⟩ := cut_bar e' (by simp [blank_bar h3, blank_bar h4, bx]) k2
      obtain ⟨-, e'⟩ := cut_bar e' (by simp [blank_bar h5, blank_bar h6, b_y]) k3
      obtain ⟨rfl, e'⟩ := cut_bar e' (by simp [blank_bar h7, blank_bar h8, n2]) k4
      refine not_digit ?_ hq.2.2
      intro c hc
      simp only [List.mem_append] at hc
      rcases hc with hc | hc | hc
      · exact (MdFrame.space_facts (h7 c hc)).1
      · exact n3 c hc
      · exact (MdFrame.space_facts (h8 c hc)).1
    · have e' : g1 ++ 124 :: (a ++ 124 :: (b ++ (g2 ++ 124 :: (g3 ++ (x.text ++ (g4 ++ 124 :: (g5 ++ (y.text ++ (g6 ++ 124 :: (g7 ++ (units ++ (g8 ++ 124 ::
          (g9 ++ ((if ok then py"Yes" else py"No") ++ (g10 ++ 124 :: rest))))))))))))))) = p1 ++ 124 :: (p2 ++ 124 :: (p3 ++ 124 :: (p4 ++ 124 :: r))) := by
        rw [← e0]; simp
      obtain ⟨-, e'⟩ := cut_bar e' (blank_bar h1) k1
      obtain ⟨rfl, -⟩ := cut_bar e' n1 k2
      exact not_digit n2 hq.1

theorem min_match {l : Str} {words : List Str} {x y z : Numeral} (h : GeomRow.Line l (.step words x y z)) (hv : ∀ n ∈ [x, y, z], n.Valid) :
    ∃ m raw, Res.GEOMOPT_MIN_TABLE_RE.match_ l = some m ∧ m.caps = [(4, z.text), (3, y.text), (2, x.text), (1, raw)] ∧
      m.names = Res.GEOMOPT_MIN_TABLE_RE.names ∧ Fields raw words := by
  obtain ⟨g0, g1, raw, g2, g3, g4, g5, g6, g7, rest, rfl, hg, hb, ⟨c, s, rfl, hc⟩, hf⟩ := h
  simp only [List.mem_cons, List.not_mem_nil, or_false, forall_eq_or_imp, forall_eq] at hg hv
  obtain ⟨h0, h1, h2, h3, h4, h5, h6, h7⟩ := hg
  obtain ⟨m, e1, e2, e3⟩ := Gets.match_ (p := Res.GEOMOPT_MIN_TABLE_RE) (C := (· = [(4, z.text), (3, y.text), (2, x.text), (1, c :: s)]))
    (s := g0 ++ c!"|" :: (g1 ++ ((c :: s) ++ c!"|" :: (g2 ++ (x.text ++ (g3 ++ c!"|" :: (g4 ++ (y.text ++ (g5 ++ c!"|" :: (g6 ++ (z.text ++ (g7 ++ c!"|" :: rest))))))))))))
    (by
      rw [MIN_eq]
      refine Gets.stars (blanks_sp h0) (stops_bar _) (Gets.char (by decide) (Gets.stars (blanks_sp h1) ?_ (Gets.run (w := c :: s) ?_ (by simp) ?_ ?_)))
      · intro d hd; cases hd; rw [has_sp]; exact hc
      · intro d hd; rw [has_nobar]; rintro rfl; exact hb hd
      · intro d hd; cases hd; decide
      · refine Gets.barN (g := []) (by simp [Blank]) h2 hv.1 (ends_bar h3) fun _ => ?_
        refine Gets.barN h3 h4 hv.2.1 (ends_bar h5) fun _ => ?_
        refine Gets.barN h5 h6 hv.2.2 (ends_bar h7) fun _ => ?_
        refine Gets.stars (blanks_sp h7) (stops_bar _) (Gets.last (Gets.char (by decide) (Gets.eps rfl))))
  exact ⟨m, c :: s, e1, e2, e3, hf⟩

theorem param_match {l name : Str} {x y : Numeral} {ok : Bool} (h : GeomRow.Line l (.param name x y ok)) (hv : ∀ n ∈ [x, y], n.Valid) :
    ∃ m raw, Res.GEOMOPT_TABLE_RE.match_ l = some m ∧ m.caps = [(4, if ok then py"Yes" else py"No"), (3, y.text), (2, x.text), (1, raw)] ∧
      m.names = Res.GEOMOPT_TABLE_RE.names ∧ KeyName raw name := by
  obtain ⟨g0, g1, raw, g2, g3, g4, g5, g6, g7, units, g8, g9, g10, rest, rfl, hg, hg2, hg8, hr, hrs, hu, hus, hk, -⟩ := h
  simp only [List.mem_cons, List.not_mem_nil, or_false, forall_eq_or_imp, forall_eq] at hg hv
  obtain ⟨h0, h1, h2, h3, h4, h5, h6, h7, h8, h9, h10⟩ := hg
  have word : ∀ {w s : Str}, w ≠ [] → (∀ c ∈ w, isSpace c = false) → Stops sp (w ++ s) := by
    intro w s hw hs d hd
    obtain ⟨c, w, rfl⟩ := List.exists_cons_of_ne_nil hw
    cases hd
    rw [has_sp]; exact hs _ (by simp)
  have gap : ∀ {g s : Str}, g ≠ [] → Blank g → Stops nsp (g ++ s) := by
    intro g s hw hs d hd
    obtain ⟨c, g, rfl⟩ := List.exists_cons_of_ne_nil hw
    cases hd
    rw [Bool.eq_false_iff, Ne, has_nsp, hs _ (by simp)]
    simp
  obtain ⟨m, e1, e2, e3⟩ := Gets.match_ (p := Res.GEOMOPT_TABLE_RE) (C := (· = [(4, if ok then py"Yes" else py"No"), (3, y.text), (2, x.text), (1, raw)]))
    (s := g0 ++ c!"|" :: (g1 ++ (raw ++ (g2 ++ c!"|" :: (g3 ++ (x.text ++ (g4 ++ c!"|" :: (g5 ++ (y.text ++ (g6 ++ c!"|" :: (g7 ++ (units ++ (g8 ++ c!"|" ::
        (g9 ++ ((if ok then py"Yes" else py"No") ++ (g10 ++ c!"|" :: rest))))))))))))))))
    (by
      rw [TABLE_eq]
      refine Gets.stars (blanks_sp h0) (stops_bar _) (Gets.char (by decide) (Gets.stars (blanks_sp h1) (word hr hrs) (Gets.run (w := raw) ?_ hr (gap hg2 h2) ?_)))
      · intro d hd; rw [has_nsp]; exact hrs d hd
      · refine Gets.barN h2 h3 hv.1 (ends_bar h4) fun _ => ?_
        refine Gets.barN h4 h5 hv.2 (ends_bar h6) fun _ => ?_
        refine Gets.stars (blanks_sp h6) (stops_bar _) (Gets.char (by decide) (Gets.stars (blanks_sp h7) (word hu hus) ?_))
        refine Gets.pluses (w := units) (fun d hd => by rw [has_nsp]; exact hus d hd) hu (gap hg8 h8) ?_
        refine Gets.stars (blanks_sp h8) (stops_bar _) (Gets.char (by decide) (Gets.stars (blanks_sp h9) ?_ ?_))
        · intro d hd; cases ok <;> cases hd <;> decide
        · exact Gets.yesNo ok fun _ => Gets.stars (blanks_sp h10) (stops_bar _) (Gets.last (Gets.char (by decide) (Gets.eps rfl))))
  exact ⟨m, raw, e1, e2, e3, hk⟩

theorem geom_noDigit {l : Str} (h : NoDigit l) : Res.GEOMOPT_MIN_TABLE_RE.match_ l = none ∧ Res.GEOMOPT_TABLE_RE.match_ l = none := by
  constructor
  · cases hm : Res.GEOMOPT_MIN_TABLE_RE.match_ l with
    | none => rfl
    | some m =>
      obtain ⟨p0, p1, p2, p3, p4, r, rfl, -, hq⟩ := min_cells hm
      obtain ⟨c, hc, hd⟩ := hq p2 (by simp)
      exact (not_digit h ⟨c, by simp [hc], hd⟩).elim
  · cases hm : Res.GEOMOPT_TABLE_RE.match_ l with
    | none => rfl
    | some m =>
      obtain ⟨b, e, hl⟩ := match_found hm
      rw [TABLE_eq] at hl
      obtain ⟨u1, _, e1, h1, u2, _, rfl, h2, u3, _, rfl, h3, u4, _, rfl, h4, u5, _, rfl, h5, -⟩ := hl
      obtain ⟨g1, q1, rfl, hg1, hq1, c, hc, hd⟩ := lang_barN h5
      exact (not_digit h ⟨c, by rw [e, e1]; simp [hc], hd⟩).elim

theorem MIN_names : Res.GEOMOPT_MIN_TABLE_RE.names = [(py"step", 1), (py"lambda", 2), (py"fdelta", 3), (py"enthalpy", 4)] := by decide +kernel

theorem TABLE_names : Res.GEOMOPT_TABLE_RE.names = [(py"parameter", 1), (py"value", 2), (py"tolerance", 3), (py"converged", 4)] := by decide +kernel

theorem geomLine_min {l : Str} {m : Match} (d : Dict Key PyVal) (h : Res.GEOMOPT_MIN_TABLE_RE.match_ l = some m) :
    geomLine d l = (do
      let val ← fix_data_types (groupVals m) (types [py"lambda", py"fdelta", py"enthalpy"] .float)
      return d.set (.str (normalise_string ((m.named (py"step")).getD []))) (.dict (val.erase (.str (py"step"))))) := by
  unfold geomLine
  rw [h]

theorem geomLine_param {l : Str} {m : Match} (d : Dict Key PyVal) (h0 : Res.GEOMOPT_MIN_TABLE_RE.match_ l = none) (h : Res.GEOMOPT_TABLE_RE.match_ l = some m) :
    geomLine d l = (do
      let val ← fix_data_types (groupVals m) (types [py"value", py"tolerance"] .float)
      let val := val.set (.str (py"converged")) (.bool (decide (m.named (py"converged") = some (py"Yes"))))
      return d.set (.str (normalise_key ((m.named (py"parameter")).getD []))) (.dict (val.erase (.str (py"parameter"))))) := by
  unfold geomLine
  rw [h0]
  dsimp only
  rw [h]

theorem geomLine_none {l : Str} (d : Dict Key PyVal) (h0 : Res.GEOMOPT_MIN_TABLE_RE.match_ l = none) (h : Res.GEOMOPT_TABLE_RE.match_ l = none) :
    geomLine d l = .ok d := by
  unfold geomLine
  rw [h0]
  dsimp only
  rw [h]

theorem geom_line {l : Str} {r : GeomRow} (h : GeomRow.Line l r) {rd : Numeral → F64} (hr : ∀ n ∈ r.nums, n.Valid ∧ parse_float_or_rational n.text = .ok (rd n))
    (d : Dict Key PyVal) : geomLine d l = .ok (d.set r.key (r.info rd)) := by
  cases r with
  | step words x y z =>
    obtain ⟨m, raw, h1, h2, h3, h4⟩ := min_match h fun n hn => (hr n hn).1
    rw [MIN_names] at h3
    have e1 : groupVals m = [(.str (py"step"), .str raw), (.str (py"lambda"), .str x.text), (.str (py"fdelta"), .str y.text), (.str (py"enthalpy"), .str z.text)] := by
      rw [Popn.groups_eq h2 h3]; rfl
    have e2 : m.named (py"step") = some raw := by rw [Castep.named_eq h2 h3]; rfl
    have e3 : fix_data_types [(.str (py"step"), .str raw), (.str (py"lambda"), .str x.text), (.str (py"fdelta"), .str y.text), (.str (py"enthalpy"), .str z.text)]
        (types [py"lambda", py"fdelta", py"enthalpy"] .float) =
        .ok [(.str (py"step"), .str raw), (.str (py"lambda"), .float (rd x)), (.str (py"fdelta"), .float (rd y)), (.str (py"enthalpy"), .float (rd z))] := by
      rw [types, List.map_cons, List.map_cons, List.map_cons, List.map_nil, fix_some _ _ _ _ _ _ rfl (cellFloat (hr x (by simp [GeomRow.nums])).2),
        fix_some _ _ _ _ _ _ rfl (cellFloat (hr y (by simp [GeomRow.nums])).2), fix_some _ _ _ _ _ _ rfl (cellFloat (hr z (by simp [GeomRow.nums])).2)]
      rfl
    rw [geomLine_min d h1, e1, e2, e3]
    show Except.ok (d.set (.str (normalise_string raw)) _) = _
    rw [normalise_string, split_strip, (fields_iff _ _).1 h4]
    rfl
  | param name x y ok =>
    obtain ⟨m, raw, h1, h2, h3, h4⟩ := param_match h fun n hn => (hr n hn).1
    rw [TABLE_names] at h3
    have e1 : groupVals m = [(.str (py"parameter"), .str raw), (.str (py"value"), .str x.text), (.str (py"tolerance"), .str y.text),
        (.str (py"converged"), .str (if ok then py"Yes" else py"No"))] := by
      rw [Popn.groups_eq h2 h3]; rfl
    have e2 : m.named (py"parameter") = some raw := by rw [Castep.named_eq h2 h3]; rfl
    have e4 : m.named (py"converged") = some (if ok then py"Yes" else py"No") := by rw [Castep.named_eq h2 h3]; rfl
    have e3 : fix_data_types [(.str (py"parameter"), .str raw), (.str (py"value"), .str x.text), (.str (py"tolerance"), .str y.text),
        (.str (py"converged"), .str (if ok then py"Yes" else py"No"))] (types [py"value", py"tolerance"] .float) =
        .ok [(.str (py"parameter"), .str raw), (.str (py"value"), .float (rd x)), (.str (py"tolerance"), .float (rd y)),
        (.str (py"converged"), .str (if ok then py"Yes" else py"No"))] := by
      rw [types, List.map_cons, List.map_cons, List.map_nil, fix_some _ _ _ _ _ _ rfl (cellFloat (hr x (by simp [GeomRow.nums])).2),
        fix_some _ _ _ _ _ _ rfl (cellFloat (hr y (by simp [GeomRow.nums])).2)]
      rfl
    rw [geomLine_param d (param_not_min h fun n hn => (hr n hn).1) h1, e1, e2, e3, e4]
    show Except.ok (d.set (.str (normalise_key raw)) _) = _
    rw [LineTab.keyName h4]
    cases ok <;> rfl

/-- A whole table. -/
theorem geom_block {rd : Numeral → F64} {ls : List Str} {rows : List GeomRow} (h : Interleaved NoDigit GeomRow.Line ls rows)
    (hr : ∀ r ∈ rows, ∀ n ∈ r.nums, n.Valid ∧ parse_float_or_rational n.text = .ok (rd n)) :
    process_geom_table ls = .ok (.dict (rows.foldl (fun d r => Dict.set d r.key (r.info rd)) [])) := by
  have : ∀ d, foldLines geomLine d ls = .ok (rows.foldl (fun d r => Dict.set d r.key (r.info rd)) d) := by
    induction h with
    | nil => intro d; rfl
    | @skip l ls rows hl _ ih =>
      intro d
      rw [foldLines_cons geomLine d d l ls (geomLine_none d (geom_noDigit hl).1 (geom_noDigit hl).2)]
      exact ih hr d
    | @row l ls r rows hl _ ih =>
      intro d
      rw [foldLines_cons geomLine d _ l ls (geom_line hl (hr r (by simp)) d)]
      exact ih (fun r' hr' => hr r' (by simp [hr'])) _
  rw [process_geom_table, this]
  rfl

end Verif.Castep

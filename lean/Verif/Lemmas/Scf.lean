import Verif.Spec.Scf
import Verif.Lemmas.AtomVec
import Verif.Lemmas.UnitCell
import Verif.Lemmas.LitRe
/-
The table of the electronic minimisation in a `.castep` file.
-/
namespace Verif
open Re NumRe AtomRe Spec Castep

/-! ### Texts in patterns -/

/-- A text and a pattern after it. -/
def litThen (s : Str) (r : Re) : Re := s.foldr (fun c r => .seq (.set (ch c)) r) r

theorem Gets.lit {r : Re} {t : Str} {caps C} : ∀ (s pre : Str), Gets r (s.reverse ++ pre) t caps C → Gets (litThen s r) pre (s ++ t) caps C
  | [], _, h => h
  | c :: s, pre, h => by
    refine Gets.char (cs := ch c) (r := litThen s r) (by rw [has_ch]; simp) (Gets.lit s (c :: pre) ?_)
    simpa using h

theorem lang_litThen {r : Re} : ∀ {s w : Str}, Lang (litThen s r) w → ∃ t, w = s ++ t ∧ Lang r t
  | [], w, h => ⟨w, rfl, h⟩
  | c :: s, w, h => by
    obtain ⟨u, v, rfl, h1, h2⟩ := h
    obtain ⟨d, hd, rfl⟩ := h1
    rw [has_ch] at hd
    obtain ⟨t, rfl, ht⟩ := lang_litThen (s := s) h2
    simp at hd; subst hd
    exact ⟨t, rfl, ht⟩

namespace Scf

/-! ### Rows -/

/-- `SCF_LOOP_RE` -/
abbrev SL : Re := .seq (star sp) (.seq (.alt (litRe (py"Initial")) (plus dig)) (.seq (star sp) (.seq (LF 1) (.seq (LF 2)
  (.seq (.rep true 0 (some 1) (LF 3)) (.seq (star sp) (LF 4)))))))

theorem SL_eq : Res.SCF_LOOP_RE = ⟨SL, [(py"energy", 1), (py"fermi_energy", 2), (py"energy_gain", 3), (py"time", 4)], 4⟩ := by
  decide +kernel

/-- The groups of a row. -/
def caps (e f : Numeral) (g : Option Numeral) (t : Numeral) : List (Nat × Str) :=
  (4, t.text) :: ((g.toList.map fun n => (3, n.text)) ++ [(2, f.text), (1, e.text)])

theorem litRe_then {s : Str} (hs : s ≠ []) (r : Re) (st : St) (k : St → Option St) :
    run (.seq (litRe s) r) st k = run (litThen s r) st k := by
  induction s generalizing st with
  | nil => exact absurd rfl hs
  | cons c s ih =>
    cases s with
    | nil => rfl
    | cons d s =>
      show run (.seq (.seq (.set (ch c)) (litRe (d :: s))) r) st k = run (.seq (.set (ch c)) (litThen (d :: s) r)) st k
      rw [run_seq, run_seq, run_seq]
      congr 1
      funext t
      rw [← ih (by simp), run_seq]

/-- `Initial` or a number. -/
theorem cycle {r : Re} {w s : Str} {pre caps C} {ws : List Str} (hw : CycleName w) (hs : After s ws)
    (h : Gets r (w.reverse ++ pre) s caps C) :
    Gets (.seq (.alt (litRe (py"Initial")) (plus dig)) r) pre (w ++ s) caps C := by
  rcases hw with rfl | ⟨hd, hne⟩
  · obtain ⟨t, h1, h2⟩ := Gets.lit (py"Initial") pre h
    refine ⟨t, ?_, h2⟩
    rw [← litRe_then (by simp)] at h1
    rw [run_seq] at h1
    rw [run_seq, run_alt, h1]; rfl
  · obtain ⟨t, h1, h2⟩ := h
    refine ⟨t, ?_, h2⟩
    obtain ⟨c, w', rfl⟩ := List.exists_cons_of_ne_nil hne
    have hc : (ch 73).has c = false := by
      rw [← Bool.not_eq_true, has_ch]
      have := hd c (by simp)
      simp; omega
    rw [run_seq, run_alt]
    have e : run (litRe (py"Initial")) ⟨pre, c :: w' ++ s, caps⟩ (fun t => run r t some) = none := by
      show run (.seq (.set (ch 73)) _) _ _ = none
      rw [run_seq, List.cons_append, run_set_cons, if_neg (by rw [hc]; simp)]
    rw [e, Option.none_or]
    exact run_plus_all dig 1 (c :: w') _ _ _ _ _ _ (by simp) (fun c h => (allDigits_iff _).1 hd c h) hs.endsNumber.stops (by simp) h1

/-- The gain, if it is there, and the time. -/
theorem gain_gets {pre s : Str} {cs} {g : Option Numeral} {t : Numeral} {more : List Str} (hg : ∀ x ∈ g, x.Valid) (ht : t.Valid)
    (h : After s (g.toList.map Numeral.text ++ t.text :: more)) (hm : ∀ w ∈ more, Wordy w) :
    Gets (.seq (.rep true 0 (some 1) (LF 3)) (.seq (star sp) (LF 4))) pre s cs fun C =>
      C = (4, t.text) :: ((g.toList.map fun n => (3, n.text)) ++ cs) := by
  cases g with
  | some g =>
    have hq := hg g rfl
    simp only [Option.toList_some, List.map_cons, List.map_nil, List.cons_append, List.nil_append] at h ⊢
    obtain ⟨b, s', rfl, h1, hb, h2, h3, h4⟩ := h.next
    have := Gets.gapNum (r := .eps) (i := 4) (pre := (b ++ g.text).reverse ++ pre) (caps := (3, g.text) :: cs)
      (C := fun C => C = (4, t.text) :: (3, g.text) :: cs) h4 ht fun _ _ _ => Gets.eps rfl
    obtain ⟨x, h5, h6⟩ := this
    refine ⟨x, ?_, h6⟩
    rw [run_seq]
    apply run_opt_take
    refine run_LF 3 b g h1 hb hq _ _ _ _ _ h4.endsNumber ?_
    rw [if_pos (by
      have := List.length_pos_of_ne_nil hb
      simp; omega)]
    simpa only [run_seq, run_eps] using h5
  | none =>
    simp only [Option.toList_none, List.map_nil, List.nil_append] at h ⊢
    obtain ⟨x, h5, h6⟩ := Gets.gapNum (r := .eps) (i := 4) (pre := pre) (caps := cs)
      (C := fun C => C = (4, t.text) :: cs) h ht fun _ _ _ => Gets.eps rfl
    refine ⟨x, ?_, h6⟩
    rw [run_seq, run_opt_fail]
    · simpa only [run_seq, run_eps] using h5
    · intro w u hst hw
      apply run_none
      rintro w2 u2 hst2 ⟨a, b, rfl, ha, hb⟩
      exfalso
      have e1 := hst.post
      have e2 := hst2.post
      simp only at e1 e2
      obtain ⟨g1, n1, rfl, b1, hg1, l1⟩ := lang_gapNum hw
      obtain ⟨g2, n2, rfl, b2, hg2, l2⟩ := lang_gapNum hb
      have ha := blank_star ha
      obtain ⟨hn1, hw1, -⟩ := lang_N_word (show Lang N n1 from l1)
      obtain ⟨hn2, hw2, hd2⟩ := lang_N_word (show Lang N n2 from l2)
      obtain ⟨w', ws, hf, hp⟩ := fields_start (b := u2.post) hn2 hw2
      have : Fields (n1 ++ ((a ++ g2) ++ (n2 ++ u2.post))) (n1 :: w' :: ws) :=
        fields_gap (fields_word hn1 hw1) (fun c hc => by
          rcases List.mem_append.1 hc with hc | hc
          · exact ha c hc
          · exact b2 c hc) (by simp [hg2]) hf
      have := fields_prepend b1 this
      have e := fields_unique h.2 (by rw [e1, e2]; simpa using this)
      simp only [List.cons.injEq] at e
      have hw' := hm w' (by rw [e.2]; simp)
      have := hasDigit_prefix hp hd2
      rw [hasDigit, List.any_eq_true] at this
      obtain ⟨c, hc, hd⟩ := this
      exact hw' c hc (by simpa using hd)

/-- A row with a Fermi energy. -/
theorem row_gets {l w : Str} {e f : Numeral} {g : Option Numeral} {t : Numeral} {more : List Str} (hw : CycleName w)
    (hv : ∀ n ∈ e :: f :: (g.toList ++ [t]), n.Valid)
    (h : Fields l (w :: e.text :: f.text :: (g.toList.map Numeral.text ++ t.text :: more))) (hm : ∀ w ∈ more, Wordy w) :
    Gets SL [] l [] (· = caps e f g t) := by
  refine Gets.start h clear_nil fun p1 s1 _ h1 => ?_
  refine cycle hw h1 ?_
  refine Gets.gapNum h1 (hv e (by simp)) fun p2 s2 h2 => ?_
  refine Gets.num h2 (hv f (by simp)) fun p3 s3 h3 => ?_
  exact gain_gets (fun x hx => hv x (by simp only [Option.mem_def] at hx; subst hx; simp)) (hv t (by simp)) h3 hm

theorem row_match {l w : Str} {e f : Numeral} {g : Option Numeral} {t : Numeral} {more : List Str} (hw : CycleName w)
    (hv : ∀ n ∈ e :: f :: (g.toList ++ [t]), n.Valid)
    (h : Fields l (w :: e.text :: f.text :: (g.toList.map Numeral.text ++ t.text :: more))) (hm : ∀ w ∈ more, Wordy w) :
    ∃ m, Res.SCF_LOOP_RE.match_ l = some m ∧ m.caps = caps e f g t ∧
      m.names = [(py"energy", 1), (py"fermi_energy", 2), (py"energy_gain", 3), (py"time", 4)] := by
  obtain ⟨m, h1, h2, h3⟩ := Gets.match_ (p := Res.SCF_LOOP_RE) (s := l) (C := (· = caps e f g t)) (by
    rw [SL_eq]; exact row_gets hw hv h hm)
  exact ⟨m, h1, h2, by rw [h3, SL_eq]⟩

/-- A row starts like one. -/
theorem rowStart {p : Pat} (hp : p.re = SL) {l : Str} {m : Match} (h : p.match_ l = some m) : ScfItem.RowStart l := by
  obtain ⟨b, e, hl⟩ := match_found h
  rw [hp] at hl
  obtain ⟨u, v, e1, hu, u2, v2, rfl, hu2, -⟩ := hl
  refine ⟨u, u2 ++ v2 ++ b, by rw [e, e1]; simp, blank_star hu, ?_⟩
  rcases hu2 with hu2 | hu2
  · have hu2 := (lang_lit _ _).1 hu2
    subst hu2
    exact .inl ⟨v2 ++ b, by simp⟩
  · have hu2 : Lang (plus dig) u2 := hu2
    rw [lang_rep_set] at hu2
    cases u2 with
    | nil => simp at hu2
    | cons c u2 =>
      refine .inr ⟨c, u2 ++ v2 ++ b, by simp, ?_⟩
      have := hu2.1 c (by simp)
      rw [has_dig] at this
      exact (isDigit_iff c).1 this

theorem lang_opt {g : Bool} {r : Re} {w : Str} (h : Lang (.rep g 0 (some 1) r) w) : w = [] ∨ Lang r w := by
  obtain ⟨ws, rfl, -, h1, h2⟩ := h
  have := h1 1 rfl
  match ws, this, h2 with
  | [], _, _ => exact .inl rfl
  | [u], _, h2 => exact .inr (by simpa using h2 u (by simp))

/-- A row has three numbers. -/
theorem row_vec {p : Pat} (hp : p.re = SL) {l : Str} {m : Match} (h : p.match_ l = some m) : HasVec l := by
  obtain ⟨b, e, hl⟩ := match_found h
  rw [hp] at hl
  obtain ⟨u, v, e1, -, u2, v2, rfl, -, u3, v3, rfl, -, u4, v4, rfl, h1, u5, v5, rfl, h2, u6, v6, rfl, h3, u7, v7, rfl, h4, h5⟩ := hl
  obtain ⟨g₁, n₁, rfl, a1, b1, c1⟩ := lang_gapNum h1
  obtain ⟨g₂, n₂, rfl, a2, b2, c2⟩ := lang_gapNum h2
  obtain ⟨g₄, n₄, rfl, a4, b4, c4⟩ := lang_gapNum h5
  have h4 := blank_star h4
  rcases lang_opt h3 with rfl | h3
  · exact ⟨u ++ (u2 ++ u3), g₁, n₁, g₂, n₂, u7 ++ g₄, n₄, b, by rw [e, e1]; simp, a1, b1, a2, b2, (fun c hc => by
      rcases List.mem_append.1 hc with hc | hc
      · exact h4 c hc
      · exact a4 c hc), by simp [b4], c1, c2, c4⟩
  · obtain ⟨g₃, n₃, rfl, a3, b3, c3⟩ := lang_gapNum h3
    exact ⟨u ++ (u2 ++ u3), g₁, n₁, g₂, n₂, g₃, n₃, u7 ++ (g₄ ++ n₄) ++ b, by rw [e, e1]; simp, a1, b1, a2, b2, a3, b3, c1, c2, c3⟩

theorem noRow {l : Str} (h : ScfItem.NoRow l) : Res.SCF_LOOP_RE.match_ l = none := by
  cases hm : Res.SCF_LOOP_RE.match_ l with
  | none => rfl
  | some m =>
    rcases h with h | h
    · exact absurd (rowStart (by rw [SL_eq]) hm) h
    · exact absurd (row_vec (by rw [SL_eq]) hm) (plain_noVec h)

theorem groups {m : Match} {e f : Numeral} {g : Option Numeral} {t : Numeral} (hc : m.caps = caps e f g t)
    (hn : m.names = [(py"energy", 1), (py"fermi_energy", 2), (py"energy_gain", 3), (py"time", 4)]) :
    groupVals m = [(.str (py"energy"), .str e.text), (.str (py"fermi_energy"), .str f.text),
      (.str (py"energy_gain"), optStr (g.map Numeral.text)), (.str (py"time"), .str t.text)] := by
  unfold groupVals Match.groupdict
  rw [hn, List.map_map]
  simp only [List.map_cons, List.map_nil, Function.comp_apply]
  have hg : ∀ i, m.group i = (m.caps.find? (·.1 = i)).map (·.2) := fun i => rfl
  rw [hg, hg, hg, hg, hc]
  cases g <;> rfl

theorem optFloat_typed {rd : Numeral → F64} {g : Option Numeral} (h : ∀ n ∈ g, parse_float_or_rational n.text = .ok (rd n)) :
    to_type .float (optStr (g.map Numeral.text)) = .ok (ScfRow.optFloat rd g) := by
  cases g with
  | none => rfl
  | some n => exact cellFloat (h n rfl)

/-- A row. -/
theorem row_step {rd : Numeral → F64} {m : Match} {e f : Numeral} {g : Option Numeral} {t : Numeral} (hc : m.caps = caps e f g t)
    (hn : m.names = [(py"energy", 1), (py"fermi_energy", 2), (py"energy_gain", 3), (py"time", 4)])
    (hr : ∀ n ∈ e :: f :: (g.toList ++ [t]), parse_float_or_rational n.text = .ok (rd n)) (s : ScfState) :
    scfRow s m = .ok { s with scf := s.flush, debug := [], curr :=
      [(.str (py"energy"), .float (rd e)), (.str (py"fermi_energy"), .float (rd f)),
        (.str (py"energy_gain"), ScfRow.optFloat rd g), (.str (py"time"), .float (rd t))] ++
        (if s.debug = [] then [] else [(.str (py"debug_info"), .dict s.debug)]) } := by
  have e1 := cellFloat (hr e (by simp))
  have e2 := cellFloat (hr f (by simp))
  have e3 : to_type .float (optStr (g.map Numeral.text)) = .ok (ScfRow.optFloat rd g) :=
    optFloat_typed fun n hn => hr n (by simp only [Option.mem_def] at hn; subst hn; simp)
  have e4 := cellFloat (hr t (by simp))
  have key : ∀ tail : Dict Key PyVal, (tail = [] ∨ ∃ v, tail = [(.str (py"debug_info"), v)]) →
      fix_data_types ([(.str (py"energy"), .str e.text), (.str (py"fermi_energy"), .str f.text),
        (.str (py"energy_gain"), optStr (g.map Numeral.text)), (.str (py"time"), .str t.text)] ++ tail)
        (types [py"energy", py"energy_gain", py"fermi_energy", py"time"] .float) =
      .ok ([(.str (py"energy"), .float (rd e)), (.str (py"fermi_energy"), .float (rd f)),
        (.str (py"energy_gain"), ScfRow.optFloat rd g), (.str (py"time"), .float (rd t))] ++ tail) := by
    intro tail ht
    rw [types, List.map_cons, List.map_cons, List.map_cons, List.map_cons, List.map_nil,
      fix_some _ _ _ _ _ _ rfl e1, fix_some _ _ _ _ _ _ rfl e3, fix_some _ _ _ _ _ _ rfl e2, fix_some _ _ _ _ _ _ rfl e4]
    rcases ht with rfl | ⟨v, rfl⟩ <;> rfl
  unfold scfRow
  rw [groups hc hn]
  by_cases hd : s.debug = []
  · rw [if_pos hd]
    have := key [] (.inl rfl)
    rw [List.append_nil] at this
    simp only [hd, List.isEmpty_nil, if_true]
    rw [this]; rfl
  · rw [if_neg hd]
    have hne : s.debug.isEmpty = false := by cases h : s.debug with | nil => exact absurd h hd | cons a b => rfl
    simp only [hne]
    have := key [(.str (py"debug_info"), .dict s.debug)] (.inr ⟨_, rfl⟩)
    show (do let curr ← fix_data_types _ _; pure _ : PyM ScfState) = _
    have e : Dict.set [(Key.str (py"energy"), PyVal.str e.text), (.str (py"fermi_energy"), .str f.text),
        (.str (py"energy_gain"), optStr (g.map Numeral.text)), (.str (py"time"), .str t.text)] (.str (py"debug_info")) (.dict s.debug) =
      [(Key.str (py"energy"), PyVal.str e.text), (.str (py"fermi_energy"), .str f.text),
        (.str (py"energy_gain"), optStr (g.map Numeral.text)), (.str (py"time"), .str t.text)] ++ [(.str (py"debug_info"), .dict s.debug)] := rfl
    rw [if_neg (by simp), e, this]; rfl

/-! ### Lines between the rows -/

/-- `eigenvalue\s*\d+\s*init=` -/
abbrev EV : Re := litThen (py"eigenvalue") (.seq (star sp) (.seq (plus dig) (.seq (star sp) (litRe (py"init=")))))

theorem EV_eq : EIGENVALUE_RE = ⟨EV, [], 0⟩ := by decide +kernel

theorem eigen_match {g ds g' t : Str} (hg : Blank g) (hg' : Blank g') (hd : Numeral.AllDigits ds) (hne : ds ≠ []) :
    (EIGENVALUE_RE.match_ (py"eigenvalue" ++ (g ++ (ds ++ (g' ++ (py"init=" ++ t)))))).isSome = true := by
  obtain ⟨m, h, -⟩ := Gets.match_ (p := EIGENVALUE_RE) (s := py"eigenvalue" ++ (g ++ (ds ++ (g' ++ (py"init=" ++ t))))) (C := fun _ => True) (by
    rw [EV_eq]
    refine Gets.lit _ _ ?_
    obtain ⟨c, ds', rfl⟩ := List.exists_cons_of_ne_nil hne
    have hc : isDigit c = true := (isDigit_iff c).2 (hd c (by simp))
    have hlit : Gets (litRe (py"init=")) (g'.reverse ++ ((c :: ds').reverse ++ (g.reverse ++ (py"eigenvalue").reverse))) (py"init=" ++ t) [] (fun _ => True) := by
      obtain ⟨y, h1, h2⟩ := Gets.lit (r := .eps) (t := t) (caps := []) (C := fun _ => True) (py"init=")
        (g'.reverse ++ ((c :: ds').reverse ++ (g.reverse ++ (py"eigenvalue").reverse))) (Gets.eps trivial)
      refine ⟨y, ?_, h2⟩
      rw [← litRe_then (by simp), run_seq] at h1
      simpa only [run_eps] using h1
    obtain ⟨y, h1, h2⟩ := hlit
    refine ⟨y, ?_, h2⟩
    rw [run_seq]
    refine run_star_all sp g _ _ _ _ _ _ (fun c hc => by rw [has_sp]; exact hg c hc)
      (by intro d hd'; simp at hd'; subst hd'; rw [has_sp]; exact isDigit_not_space hc) (by simp) ?_
    rw [run_seq]
    refine run_plus_all dig 1 (c :: ds') _ _ _ _ _ _ (by simp) (fun c h => (allDigits_iff _).1 hd c h) ?_ (by simp) ?_
    · intro d hd'
      rw [has_dig]
      cases g' with
      | nil => simp at hd'; subst hd'; rfl
      | cons x g' =>
        simp at hd'; subst hd'
        cases hx : isDigit x with
        | false => rfl
        | true => have := isDigit_not_space hx; rw [hg' x (by simp)] at this; cases this
    · rw [run_seq]
      refine run_star_all sp g' _ _ _ _ _ _ (fun c hc => by rw [has_sp]; exact hg' c hc)
        (by intro d hd'; simp at hd'; subst hd'; rfl) (by simp) ?_
      simpa using h1)
  rw [h]; rfl

theorem noEigen {l : Str} (h : ScfItem.NoEigen l) : (EIGENVALUE_RE.match_ l).isSome = false := by
  cases hm : EIGENVALUE_RE.match_ l with
  | none => rfl
  | some m =>
    exfalso
    obtain ⟨b, e, hl⟩ := match_found hm
    rw [EV_eq] at hl
    obtain ⟨t, e1, -⟩ := lang_litThen hl
    exact h ⟨t ++ b, by rw [e, e1]; simp⟩

/-- `\s*\s+?` before a labelled number, with the text after it. -/
theorem gapNumAt {r : Re} {i : Nat} {g : Str} {n : Numeral} {s : Str} {pre caps C} (hg : Blank g) (hne : g ≠ [])
    (hn : n.Valid) (hs : EndsNumber s) (h : ∀ pre', Gets r pre' s ((i, n.text) :: caps) C) :
    Gets (.seq (star sp) (.seq (LF i) r)) pre (g ++ (n.text ++ s)) caps C := by
  obtain ⟨g0, c, rfl⟩ : ∃ g0 c, g = g0 ++ [c] := ⟨_, _, (List.dropLast_concat_getLast hne).symm⟩
  obtain ⟨t, h5, h6⟩ := h (([c] ++ n.text).reverse ++ (g0.reverse ++ pre))
  refine ⟨t, ?_, h6⟩
  have hc : isSpace c = true := hg c (by simp)
  have hst : Stops sp (n.text ++ s) := stops_word (text_ne_nil n hn) (text_nospace n hn)
  rw [run_seq]
  have := run_star_give (β := St) sp (n.text ++ s) hst [c] (fun x hx => by simp at hx; subst hx; rw [has_sp]; exact hc) g0 pre caps
    (fun t => run (.seq (LF i) r) t some) t (fun x hx => by rw [has_sp]; exact hg x (by simp [hx]))
    (fun a b e ha => by
      cases a with
      | nil => exact absurd rfl ha
      | cons y a =>
        simp at e
        obtain ⟨rfl, rfl, rfl⟩ := e
        show run (.seq (LF i) r) ⟨_, n.text ++ s, caps⟩ some = none
        rw [run_seq, LF, run_seq, run_plus_stop _ _ _ _ _ _ _ _ hst]) (by
      show run (.seq (LF i) r) ⟨_, [c] ++ (n.text ++ s), caps⟩ some = _
      rw [run_seq]
      exact run_LF i [c] n (by intro x hx; simp at hx; subst hx; exact hc) (by simp) hn _ _ _ _ _ hs h5)
  simpa using this

/-- Characters of names of contributions. -/
abbrev contribSet : CSet := ⟨false, [.ch 40, .ch 41, .range 48 57, .range 65 90, .range 97 122, .ch 32, .ch 45], false⟩

/-- `[+(]` -/
abbrev signSet : CSet := ⟨false, [.ch 43, .ch 40], false⟩

/-- The pattern of a contribution. -/
abbrev CT : Re := .seq (.rep true 0 (some 1) (.set signSet)) (.seq (.group 1 (plus contribSet))
  (.seq (.rep true 0 (some 1) (.set (ch 61))) (.seq (star sp) (.seq (LF 2) (litThen (py" eV") (.rep true 0 (some 1) (.set (ch 41))))))))

theorem CT_eq : CONTRIB_RE = ⟨CT, [(py"key", 1), (py"val", 2)], 2⟩ := by decide +kernel

theorem has_contribSet {c : Nat} : contribSet.has c = true ↔ ScfItem.NameChar c := by
  simp only [CSet.has, CItem.has, ScfItem.NameChar, isAlnum, isAlpha, isDigit, isUpper, isLower, List.any_cons, List.any_nil,
    Bool.or_eq_true, Bool.and_eq_true, decide_eq_true_eq, Bool.or_false, bne_iff_ne, List.mem_cons, List.mem_nil_iff]
  simp
  omega

theorem optSet_take {cs : CSet} {c : Nat} {r : Re} {s pre : Str} {caps C} (hc : cs.has c = true) (h : Gets r (c :: pre) s caps C) :
    Gets (.seq (.rep true 0 (some 1) (.set cs)) r) pre (c :: s) caps C := by
  obtain ⟨t, h1, h2⟩ := h
  refine ⟨t, ?_, h2⟩
  rw [run_seq]
  apply run_opt_take
  rw [run_set_cons, if_pos hc, if_pos (by simp)]
  exact h1

theorem optSet_skip {cs : CSet} {r : Re} {s pre : Str} {caps C} (hs : Stops cs s) (h : Gets r pre s caps C) :
    Gets (.seq (.rep true 0 (some 1) (.set cs)) r) pre s caps C := by
  obtain ⟨t, h1, h2⟩ := h
  refine ⟨t, ?_, h2⟩
  rw [run_seq, run_opt_skip]
  · exact h1
  · intro k
    cases s with
    | nil => simp
    | cons c s => rw [run_set_cons, if_neg (by rw [hs c rfl]; simp)]

theorem optSet_last {cs : CSet} {s pre : Str} {caps} {C : List (Nat × Str) → Prop} (h : C caps) :
    Gets (.rep true 0 (some 1) (.set cs)) pre s caps C := by
  cases s with
  | nil => exact Gets.last (optSet_skip (by intro c hc; cases hc) (Gets.eps h))
  | cons c s =>
    by_cases hc : cs.has c = true
    · exact Gets.last (optSet_take hc (Gets.eps h))
    · exact Gets.last (optSet_skip (by intro d hd; simp at hd; subst hd; simpa using hc) (Gets.eps h))

theorem contrib_match {l : Str} {words : List Str} {x : Numeral} (h : ScfItem.ContribLine l words x) (hx : x.Valid) :
    ∃ m name, CONTRIB_RE.match_ l = some m ∧ m.named (py"key") = some name ∧ m.named (py"val") = some x.text ∧
      Fields (name.map fun c => if isAlnum c then c else 32) words := by
  obtain ⟨p, name, g, t, rfl, hp, hne, hnc, hp0, hg, hgne, hf⟩ := h
  obtain ⟨c, name', rfl⟩ := List.exists_cons_of_ne_nil hne
  have body : ∀ pre, Gets (.seq (.group 1 (plus contribSet))
      (.seq (.rep true 0 (some 1) (.set (ch 61))) (.seq (star sp) (.seq (LF 2) (litThen (py" eV") (.rep true 0 (some 1) (.set (ch 41)))))))) pre
      (c :: name' ++ (61 :: (g ++ (x.text ++ (py" eV" ++ t))))) [] (· = [(2, x.text), (1, c :: name')]) := by
    intro pre
    have h2 : Gets (.seq (.rep true 0 (some 1) (.set (ch 61))) (.seq (star sp) (.seq (LF 2) (litThen (py" eV") (.rep true 0 (some 1) (.set (ch 41)))))))
        ((c :: name').reverse ++ pre) (61 :: (g ++ (x.text ++ (py" eV" ++ t)))) [(1, c :: name')] (· = [(2, x.text), (1, c :: name')]) := by
      refine optSet_take (by decide) ?_
      refine gapNumAt hg hgne hx ?_ fun pre' => ?_
      · exact EndsNumber.space (by decide)
      · exact Gets.lit _ _ (optSet_last rfl)
    obtain ⟨y, h3, h4⟩ := h2
    refine ⟨y, ?_, h4⟩
    rw [run_seq, run_group]
    refine run_plus_all contribSet 1 (c :: name') _ _ _ _ _ _ (by simp) (fun d hd => has_contribSet.2 (hnc d hd))
      (by intro d hd; simp at hd; subst hd; decide) (by simp) ?_
    rw [upTo_append]; exact h3
  have hall : Gets CT [] (p ++ (c :: name' ++ (61 :: (g ++ (x.text ++ (py" eV" ++ t)))))) [] (· = [(2, x.text), (1, c :: name')]) := by
    simp only [List.mem_cons, List.mem_nil_iff, or_false] at hp
    rcases hp with rfl | rfl | rfl
    · refine optSet_skip ?_ (body _)
      intro d hd
      simp at hd; subst hd
      have h1 := hp0 rfl
      have h2 := hnc c (by simp)
      have h3 : c ≠ 43 := by
        rintro rfl
        exact absurd h2 (by decide)
      simp at h1
      simp [CSet.has, CItem.has, h3, h1]
    · exact optSet_take (by decide) (body _)
    · exact optSet_take (by decide) (body _)
  obtain ⟨m, h1, h2, h3⟩ := Gets.match_ (p := CONTRIB_RE) (C := (· = [(2, x.text), (1, c :: name')])) (by rw [CT_eq]; exact hall)
  rw [CT_eq] at h3
  exact ⟨m, c :: name', h1, by rw [named_eq h2 h3]; rfl, by rw [named_eq h2 h3]; rfl, hf⟩

theorem eV_of {p : Pat} (hp : p.re = CT) {l : Str} {m : Match} (h : p.match_ l = some m) : Occurs (py" eV") l := by
  obtain ⟨b, e, hl⟩ := match_found h
  rw [hp] at hl
  obtain ⟨u, v, e1⟩ := lang_occurs (w := py" eV") (by decide +kernel) hl
  exact ⟨u, v ++ b, by rw [e, e1]; simp⟩

theorem noContrib {l : Str} (h : ¬ Occurs (py" eV") l) : CONTRIB_RE.match_ l = none := by
  cases hm : CONTRIB_RE.match_ l with
  | none => rfl
  | some m => exact absurd (eV_of (by rw [CT_eq]) hm) h

/-! ### Steps -/

theorem contains_false {s l : Str} (h : ¬ Occurs s l) : Str.contains s l = false := by
  rw [← Bool.not_eq_true, Str.contains_iff]; exact h

set_option maxRecDepth 20000 in
theorem scfLine_eq (s : ScfState) (l : Str) : scfLine s l =
    (match Res.SCF_LOOP_RE.match_ l with | some m => scfRow s m | none => scfOther s l) := rfl

theorem scfLine_other {s : ScfState} {l : Str} (h : ScfItem.NoRow l) : scfLine s l = scfOther s l := by
  rw [scfLine_eq, noRow h]

set_option maxRecDepth 20000 in
theorem scfContrib_eq (s : ScfState) (l : Str) : scfContrib s l =
    (match CONTRIB_RE.match_ l with
    | none => .ok s
    | some m => do
      let v ← grpFloat m (py"val")
      let debug ← setIn (ensure s.debug (.str (py"contributions"))) (.str (py"contributions"))
        (.str ((Dict.get? CONTRIB_KEYS (normalise_key ((m.named (py"key")).getD []))).getD (normalise_key ((m.named (py"key")).getD [])))) v
      return { s with debug := debug }) := rfl

theorem numAt_eq {typ : Ty} {l : Str} {ns : List Numeral} (h : HasNumbers l ns) (hv : ∀ n ∈ ns, n.Valid) (i : Nat) {n : Numeral}
    (hi : ns[i]? = some n) : numAt typ l i = to_type typ (.str n.text) := by
  rw [numAt, get_numbers_has h hv, at_]
  simp only [List.getElem?_map, hi, Option.map_some]
  rfl

theorem floatAt_eq {l : Str} {ns : List Numeral} (h : HasNumbers l ns) (hv : ∀ n ∈ ns, n.Valid) (i : Nat) {n : Numeral}
    (hi : ns[i]? = some n) : floatAt l i = floatV n.text := by
  rw [floatAt, get_numbers_has h hv, at_]
  simp only [List.getElem?_map, hi, Option.map_some]
  rfl

/-- `kinetic_eigenvalue` -/
abbrev kK : Key := .str (py"kinetic_eigenvalue")
/-- `eigenvalue` -/
abbrev kE : Key := .str (py"eigenvalue")
/-- `contributions` -/
abbrev kC : Key := .str (py"contributions")

/-- What the parser remembers between lines. -/
structure Inv (d : Dict Key PyVal) : Prop where
  eig : (d.get? kK = none ∧ d.get? kE = none) ∨ ∃ a b, d.get? kK = some (.list a) ∧ d.get? kE = some (.list b)
  con : d.get? kC = none ∨ ∃ e, d.get? kC = some (.dict e)

theorem Inv.nil : Inv [] := ⟨.inl ⟨rfl, rfl⟩, .inl rfl⟩

theorem KE : kK ≠ kE := by decide
theorem KC : kK ≠ kC := by decide
theorem EC : kE ≠ kC := by decide
theorem KB : kK ≠ .str (py"no_bands") := by decide
theorem EB : kE ≠ .str (py"no_bands") := by decide
theorem CB : kC ≠ .str (py"no_bands") := by decide

theorem set_set (d : Dict Key PyVal) (k : Key) (a b : PyVal) : (d.set k a).set k b = d.set k b := by
  induction d with
  | nil => simp [Dict.set]
  | cons kv d ih =>
    obtain ⟨k', v⟩ := kv
    by_cases h : k' = k
    · subst h; simp [Dict.set]
    · simp only [Dict.set, if_neg h, ih]

/-- The dictionary as kinetic eigenvalues are met. -/
def withEig (d : Dict Key PyVal) : Dict Key PyVal :=
  if d.get? kK = none then (d.set kK (.list [])).set kE (.list []) else d

theorem withEig_spec {d : Dict Key PyVal} (h : Inv d) :
    (∃ a b, (withEig d).get? kK = some (.list a) ∧ (withEig d).get? kE = some (.list b)) ∧ (withEig d).get? kC = d.get? kC ∧
    ensure (ensure d kK (.list [])) kE (.list []) = withEig d := by
  rcases h.eig with ⟨h1, h2⟩ | ⟨a, b, h1, h2⟩
  · rw [withEig, if_pos h1]
    refine ⟨⟨[], [], ?_, Dict.get?_set_self ..⟩, ?_, ?_⟩
    · rw [Dict.get?_set_ne _ _ _ _ KE, Dict.get?_set_self]
    · rw [Dict.get?_set_ne _ _ _ _ EC.symm, Dict.get?_set_ne _ _ _ _ KC.symm]
    · have e1 : d.mem kK = false := by rw [Dict.mem, h1]; rfl
      have e2 : (d.set kK (.list [])).mem kE = false := by rw [Dict.mem, Dict.get?_set_ne _ _ _ _ KE.symm, h2]; rfl
      have e3 : ensure d kK (.list []) = d.set kK (.list []) := by rw [ensure, e1]; rfl
      rw [e3, ensure, e2]; rfl
  · have hne : ¬ d.get? kK = none := by rw [h1]; simp
    rw [withEig, if_neg hne]
    have e1 : d.mem kK = true := by rw [Dict.mem, h1]; rfl
    have e2 : d.mem kE = true := by rw [Dict.mem, h2]; rfl
    exact ⟨⟨a, b, h1, h2⟩, rfl, by rw [ensure, ensure, if_pos e1, if_pos e2]⟩

theorem Inv.debug {rd fl : Numeral → F64} {d : Dict Key PyVal} (h : Inv d) (i : ScfItem)
    (he : (∃ rows, i = .eigens rows) → d.get? kK ≠ none) :
    Inv (i.debug rd fl d) ∧ (d.get? kK ≠ none → (i.debug rd fl d).get? kK ≠ none) ∧
    ((∃ n x more, i = .kinetic n x more) → (i.debug rd fl d).get? kK ≠ none) := by
  obtain ⟨h1, h2⟩ := id h
  cases i with
  | bands n more =>
    have a1 := Dict.get?_set_ne d _ _ (.int (intOf n)) KB
    have a2 := Dict.get?_set_ne d _ _ (.int (intOf n)) EB
    have a3 := Dict.get?_set_ne d _ _ (.int (intOf n)) CB
    rw [ScfItem.debug]
    refine ⟨⟨by rw [a1, a2]; exact h1, by rw [a3]; exact h2⟩, fun hk => by rw [a1]; exact hk, ?_⟩
    rintro ⟨n', x, m, hh⟩; cases hh
  | kinetic i x more =>
    obtain ⟨⟨a, b, e1, e2⟩, e3, -⟩ := withEig_spec h
    have hd : ScfItem.debug rd fl d (.kinetic i x more) =
        (withEig d).set kK (.list (ScfItem.listAt (withEig d) (py"kinetic_eigenvalue") ++ [.float (rd x)])) := rfl
    rw [hd]
    have hk := Dict.get?_set_self (withEig d) kK (.list (ScfItem.listAt (withEig d) (py"kinetic_eigenvalue") ++ [.float (rd x)]))
    refine ⟨⟨.inr ⟨_, b, hk, ?_⟩, ?_⟩, fun _ => by rw [hk]; simp, fun _ => by rw [hk]; simp⟩
    · rw [Dict.get?_set_ne _ _ _ _ KE.symm, e2]
    · rw [Dict.get?_set_ne _ _ _ _ KC.symm, e3]; exact h2
  | eigens rows =>
    have hkn := he ⟨rows, rfl⟩
    rcases h1 with ⟨h1, -⟩ | ⟨a, b, h1, h1'⟩
    · exact absurd h1 hkn
    · rw [ScfItem.debug]
      refine ⟨⟨.inr ⟨a, _, ?_, Dict.get?_set_self ..⟩, ?_⟩, fun _ => ?_, ?_⟩
      · rw [Dict.get?_set_ne _ _ _ _ KE, h1]
      · rw [Dict.get?_set_ne _ _ _ _ EC.symm]; exact h2
      · rw [Dict.get?_set_ne _ _ _ _ KE, h1]; simp
      · rintro ⟨n', x, m, hh⟩; cases hh
  | contrib words x =>
    rw [ScfItem.debug]
    refine ⟨⟨?_, .inr ⟨_, Dict.get?_set_self ..⟩⟩, fun hk => ?_, ?_⟩
    · rw [Dict.get?_set_ne _ _ _ _ KC, Dict.get?_set_ne _ _ _ _ EC]; exact h1
    · rw [Dict.get?_set_ne _ _ _ _ KC]; exact hk
    · rintro ⟨n', x, m, hh⟩; cases hh
  | unmixed => exact ⟨h, id, by rintro ⟨n', x, m, hh⟩; cases hh⟩
  | residual => exact ⟨h, id, by rintro ⟨n', x, m, hh⟩; cases hh⟩
  | constraint => exact ⟨h, id, by rintro ⟨n', x, m, hh⟩; cases hh⟩
  | dipole => exact ⟨h, id, by rintro ⟨n', x, m, hh⟩; cases hh⟩
  | other => exact ⟨h, id, by rintro ⟨n', x, m, hh⟩; cases hh⟩

theorem wordsAux_name : ∀ (s acc : Str), Str.wordsAux isSpace acc (s.map fun c => if isAlnum c then c else 32) =
    Str.wordsAux (fun c => !isAlnum c) acc s
  | [], _ => rfl
  | c :: s, acc => by
    have e1 := wordsAux_name s []
    have e2 := wordsAux_name s (c :: acc)
    rw [List.map_cons, Str.wordsAux, Str.wordsAux]
    by_cases h : isAlnum c = true
    · have hs : isSpace c = false := by
        simp only [isAlnum, isAlpha, isDigit, isUpper, isLower] at h
        simp [isSpace]
        simp at h
        omega
      rw [if_pos h, hs, h, e1, e2]; rfl
    · have hs : isSpace 32 = true := by decide
      rw [Bool.not_eq_true] at h
      have h32 : (if isAlnum c = true then c else 32) = 32 := by rw [h]; rfl
      rw [h32, hs, h, e1]; rfl

theorem contrib_name {name : Str} {words : List Str} (h : Fields (name.map fun c => if isAlnum c then c else 32) words) :
    (Dict.get? CONTRIB_KEYS (normalise_key name)).getD (normalise_key name) = ScfItem.contribKey words := by
  have e : alnumWords name = words := by
    rw [alnumWords, ← wordsAux_name]
    exact fields_split h
  rw [normalise_key_eq, e, ScfItem.contribKey]
  generalize Str.join (py"_") (words.map Str.lower) = k
  by_cases h1 : k = py"apolar_corr_to_eigenvalue_sum"
  · subst h1; rfl
  by_cases h2 : k = py"hubbard_u_correction_to_eigenvalu"
  · subst h2; rfl
  by_cases h3 : k = py"xc_correction_to_eigenvalue_sum"
  · subst h3; rfl
  dsimp only
  rw [if_neg h1, if_neg h2, if_neg h3]
  simp only [CONTRIB_KEYS, Dict.get?, if_neg (Ne.symm h1), if_neg (Ne.symm h2), if_neg (Ne.symm h3)]
  rfl

set_option maxRecDepth 20000 in
theorem scfOther_eq (s : ScfState) (line : Str) : scfOther s line =
    (if Str.contains (py"Density was not mixed") line then
      .ok { s with curr := s.curr.set (.str (py"density_residual")) .none }
    else if Str.contains (py"Norm of density") line then scfNumber s (py"density_residual") line
    else if Str.contains (py"constraint energy") line then scfNumber s (py"constraint_energy") line
    else if Str.contains (py"Correcting PBC dipole-dipole") line then scfNumber s (py"dipole_corr_energy") line
    else if Str.contains (py"no. bands") line then
      (numAt .int line 0).bind fun v => .ok { s with debug := s.debug.set (.str (py"no_bands")) v }
    else if Str.contains (py"Kinetic eigenvalue") line then scfKinetic s line
    else if (EIGENVALUE_RE.match_ line).isSome then scfEigen s line
    else if Str.contains (py"Checking convergence criteria") line then scfCheck s
    else scfContrib s line) := rfl

attribute [local irreducible] EIGENVALUE_RE CONTRIB_RE Res.SCF_LOOP_RE

theorem noMark {k : Nat} {l : Str} (h : ScfItem.NoMark k l) (j : Nat) (hj : j < k) {s : Str} (hs : ScfItem.marks[j]? = some s) :
    ¬ Str.contains s l = true := by
  rw [Str.contains_iff]
  refine h s ?_
  rw [List.mem_iff_getElem?]
  exact ⟨j, by rw [List.getElem?_take, if_pos hj, hs]⟩

theorem hasMark {k : Nat} {l s : Str} {ns} (h : ScfItem.Marked k l ns) (hs : ScfItem.marks[k]? = some s) : Str.contains s l = true := by
  rw [Str.contains_iff]; exact h.2.2.1 s hs

theorem fold_one {s t : ScfState} {l : Str} (h : scfLine s l = .ok t) : foldLines scfLine s [l] = .ok t := by
  rw [foldLines, h]; rfl

theorem fold_append {σ : Type} {f : σ → Str → PyM σ} : ∀ {a b : List Str} {s t : σ}, foldLines f s a = .ok t →
    foldLines f s (a ++ b) = foldLines f t b
  | [], _, _, _, h => by cases h; rfl
  | l :: a, b, s, t, h => by
    rw [List.cons_append, foldLines]
    rw [foldLines] at h
    cases hl : f s l with
    | error e => rw [hl] at h; cases h
    | ok u => rw [hl] at h; exact fold_append (a := a) h

theorem number_step {rd : Numeral → F64} {s : ScfState} {key l : Str} {x : Numeral} {more : List Numeral} (h : HasNumbers l (x :: more))
    (hv : ∀ n ∈ x :: more, n.Valid) (hr : parse_float_or_rational x.text = .ok (rd x)) :
    scfNumber s key l = .ok { s with curr := s.curr.set (.str key) (.float (rd x)) } := by
  rw [scfNumber, numAt_eq h hv 0 rfl, cellFloat hr]; rfl

theorem kinetic_step {rd : Numeral → F64} {s : ScfState} {l : Str} {i x : Numeral} {more : List Numeral} (h : HasNumbers l (i :: x :: more))
    (hv : ∀ n ∈ i :: x :: more, n.Valid) (hr : parse_float_or_rational x.text = .ok (rd x)) (hi : Inv s.debug) (fl : Numeral → F64) :
    scfKinetic s l = .ok { s with debug := ScfItem.debug rd fl s.debug (.kinetic i x more), eig := some [] } := by
  obtain ⟨⟨a, b, e1, e2⟩, -, e3⟩ := withEig_spec hi
  have ea : MdGeom.appendTo (withEig s.debug) kK (.float (rd x)) = .ok ((withEig s.debug).set kK (.list (a ++ [.float (rd x)]))) := by
    rw [MdGeom.appendTo, e1]
  have el : ScfItem.listAt (withEig s.debug) (py"kinetic_eigenvalue") = a := by rw [ScfItem.listAt, e1]
  have hd : ScfItem.debug rd fl s.debug (.kinetic i x more) =
      (withEig s.debug).set kK (.list (ScfItem.listAt (withEig s.debug) (py"kinetic_eigenvalue") ++ [.float (rd x)])) := rfl
  rw [scfKinetic, numAt_eq h hv 1 rfl, cellFloat hr, hd, el]
  show (MdGeom.appendTo (ensure (ensure s.debug kK (.list [])) kE (.list [])) kK _).bind _ = _
  rw [e3, ea]; rfl

theorem eigen_step {fl : Numeral → F64} {s : ScfState} {l : Str} {r : Numeral × Numeral × Numeral × Numeral} {eig : List PyVal}
    (h : HasNumbers l [r.1, r.2.1, r.2.2.1, r.2.2.2]) (he : s.eig = some eig)
    (hv : ∀ n ∈ [r.1, r.2.1, r.2.2.1, r.2.2.2], n.Valid ∧ pyFloat n.text = .ok (fl n)) :
    scfEigen s l = .ok { s with eig := some (eig ++ [.dict [(.str (py"initial"), .float (fl r.2.1)), (.str (py"final"), .float (fl r.2.2.1)),
      (.str (py"change"), .float (fl r.2.2.2))]]) } := by
  have hv' := fun n hn => (hv n hn).1
  rw [scfEigen, he]
  dsimp only
  rw [floatAt_eq h hv' 1 rfl, floatAt_eq h hv' 2 rfl, floatAt_eq h hv' 3 rfl, floatV, floatV, floatV,
    (hv r.2.1 (by simp)).2, (hv r.2.2.1 (by simp)).2, (hv r.2.2.2 (by simp)).2]
  rfl

theorem other_eigen {s : ScfState} {l : Str} (h : ScfItem.NoMark 6 l) : scfOther s l =
    if (EIGENVALUE_RE.match_ l).isSome then scfEigen s l
    else if Str.contains (py"Checking convergence criteria") l then scfCheck s
    else scfContrib s l := by
  rw [scfOther_eq, if_neg (noMark h 0 (by decide) rfl), if_neg (noMark h 1 (by decide) rfl), if_neg (noMark h 2 (by decide) rfl),
    if_neg (noMark h 3 (by decide) rfl), if_neg (noMark h 4 (by decide) rfl), if_neg (noMark h 5 (by decide) rfl)]

theorem eigens_fold {fl : Numeral → F64} : ∀ {es : List Str} {rows : List (Numeral × Numeral × Numeral × Numeral)},
    List.Forall₂ ScfItem.EigenLine es rows →
    (∀ r ∈ rows, ∀ n ∈ [r.1, r.2.1, r.2.2.1, r.2.2.2], n.Valid ∧ pyFloat n.text = .ok (fl n)) →
    ∀ (s : ScfState) (eig : List PyVal), s.eig = some eig → foldLines scfLine s es = .ok { s with eig := some (eig ++ rows.map fun r =>
      .dict [(.str (py"initial"), .float (fl r.2.1)), (.str (py"final"), .float (fl r.2.2.1)), (.str (py"change"), .float (fl r.2.2.2))]) }
  | _, _, .nil, _, s, eig, he => by
    rw [foldLines, List.map_nil, List.append_nil, ← he]
  | _, _, .cons (l₁ := es) (l₂ := rows) (a := l) (b := r) hl hrest, hv, s, eig, he => by
    obtain ⟨⟨u1, u2⟩, ⟨g, ds, g', t, rfl, h1, h2, h3, h4⟩, hn⟩ := hl
    rw [foldLines, scfLine_other u1, other_eigen u2, if_pos (eigen_match h1 h2 h3 h4), eigen_step hn he (hv r (by simp))]
    refine (eigens_fold hrest (fun r hr => hv r (by simp [hr])) _ _ rfl).trans ?_
    rw [List.map_cons, List.append_assoc, List.singleton_append]

theorem contrib_step {rd fl : Numeral → F64} {s : ScfState} {l : Str} {words : List Str} {x : Numeral} (h : ScfItem.ContribLine l words x)
    (hx : x.Valid) (hf : pyFloat x.text = .ok (fl x)) (hi : Inv s.debug) :
    scfContrib s l = .ok { s with debug := ScfItem.debug rd fl s.debug (.contrib words x) } := by
  obtain ⟨m, name, e1, e2, e3, e4⟩ := contrib_match h hx
  have hv : grpFloat m (py"val") = .ok (.float (fl x)) := by
    rw [grpFloat, grp, e3]
    show floatV x.text = _
    rw [floatV, hf]; rfl
  rw [scfContrib_eq, e1]
  dsimp only
  rw [e2, Option.getD_some, contrib_name e4, hv]
  have key : setIn (ensure s.debug kC) kC (.str (ScfItem.contribKey words)) (.float (fl x)) =
      .ok (ScfItem.debug rd fl s.debug (.contrib words x)) := by
    rw [ScfItem.debug, setIn, Magres.setSub]
    rcases hi.con with hc | ⟨e, hc⟩
    · have e1 : s.debug.mem kC = false := by rw [Dict.mem, hc]; rfl
      have e2 : ensure s.debug kC = s.debug.set kC (.dict []) := by rw [ensure, e1]; rfl
      have e3 : ScfItem.dictAt s.debug (py"contributions") = [] := by rw [ScfItem.dictAt, hc]
      rw [e2, Dict.get?_set_self, e3]
      dsimp only
      rw [set_set]
    · have e1 : s.debug.mem kC = true := by rw [Dict.mem, hc]; rfl
      have e2 : ensure s.debug kC = s.debug := by rw [ensure, e1]; rfl
      have e3 : ScfItem.dictAt s.debug (py"contributions") = e := by rw [ScfItem.dictAt, hc]
      rw [e2, hc, e3]
  show (setIn (ensure s.debug kC) kC (.str (ScfItem.contribKey words)) (.float (fl x))).bind _ = _
  rw [key]; rfl

/-- One item. -/
theorem item_step {rd fl : Numeral → F64} {i : ScfItem} {ls : List Str} (hl : i.Lines ls) (hok : i.Ok)
    (hr : ∀ n ∈ i.nums, parse_float_or_rational n.text = .ok (rd n) ∧ pyFloat n.text = .ok (fl n)) {s : ScfState} (hi : Inv s.debug)
    (he : (∃ rows, i = .eigens rows) → s.eig = some [] ∧ s.debug.get? kK ≠ none) :
    ∃ eig', foldLines scfLine s ls = .ok { s with
        curr := (i.note rd).foldl (fun e kv => Dict.set e kv.1 kv.2) s.curr, debug := i.debug rd fl s.debug, eig := eig' } ∧
      ((∃ n x more, i = .kinetic n x more) → eig' = some []) ∧ (s.eig = some [] → eig' = some []) := by
  cases i with
  | unmixed =>
    obtain ⟨l, rfl, h1, h2⟩ := hl
    refine ⟨s.eig, fold_one ?_, fun h => (by obtain ⟨n', x, m, hh⟩ := h; cases hh), id⟩
    rw [scfLine_other h1, scfOther_eq, if_pos ((Str.contains_iff _ _).2 h2)]; rfl
  | residual x more =>
    obtain ⟨l, rfl, h⟩ := hl
    refine ⟨s.eig, fold_one ?_, fun h => (by obtain ⟨n', x, m, hh⟩ := h; cases hh), id⟩
    rw [scfLine_other h.1, scfOther_eq, if_neg (noMark h.2.1 0 (by decide) rfl), if_pos (hasMark h rfl),
      number_step h.2.2.2 (fun n hn => (hok.1 n hn).1) (hr x (by simp [ScfItem.nums])).1]; rfl
  | constraint x more =>
    obtain ⟨l, rfl, h⟩ := hl
    refine ⟨s.eig, fold_one ?_, fun h => (by obtain ⟨n', x, m, hh⟩ := h; cases hh), id⟩
    rw [scfLine_other h.1, scfOther_eq, if_neg (noMark h.2.1 0 (by decide) rfl), if_neg (noMark h.2.1 1 (by decide) rfl),
      if_pos (hasMark h rfl), number_step h.2.2.2 (fun n hn => (hok.1 n hn).1) (hr x (by simp [ScfItem.nums])).1]; rfl
  | dipole x more =>
    obtain ⟨l, rfl, h⟩ := hl
    refine ⟨s.eig, fold_one ?_, fun h => (by obtain ⟨n', x, m, hh⟩ := h; cases hh), id⟩
    rw [scfLine_other h.1, scfOther_eq, if_neg (noMark h.2.1 0 (by decide) rfl), if_neg (noMark h.2.1 1 (by decide) rfl),
      if_neg (noMark h.2.1 2 (by decide) rfl), if_pos (hasMark h rfl),
      number_step h.2.2.2 (fun n hn => (hok.1 n hn).1) (hr x (by simp [ScfItem.nums])).1]; rfl
  | bands n more =>
    obtain ⟨l, rfl, h⟩ := hl
    refine ⟨s.eig, fold_one ?_, fun h => (by obtain ⟨n', x, m, hh⟩ := h; cases hh), id⟩
    have ht : to_type .int (.str n.text) = .ok (.int (intOf n)) := typeParser_int (hok.1 n (by simp [ScfItem.nums])).1 hok.2
    rw [scfLine_other h.1, scfOther_eq, if_neg (noMark h.2.1 0 (by decide) rfl), if_neg (noMark h.2.1 1 (by decide) rfl),
      if_neg (noMark h.2.1 2 (by decide) rfl), if_neg (noMark h.2.1 3 (by decide) rfl), if_pos (hasMark h rfl),
      numAt_eq h.2.2.2 (fun n hn => (hok.1 n hn).1) 0 rfl, ht]; rfl
  | kinetic i x more =>
    obtain ⟨l, rfl, h⟩ := hl
    refine ⟨some [], fold_one ?_, fun _ => rfl, fun _ => rfl⟩
    rw [scfLine_other h.1, scfOther_eq, if_neg (noMark h.2.1 0 (by decide) rfl), if_neg (noMark h.2.1 1 (by decide) rfl),
      if_neg (noMark h.2.1 2 (by decide) rfl), if_neg (noMark h.2.1 3 (by decide) rfl), if_neg (noMark h.2.1 4 (by decide) rfl),
      if_pos (hasMark h rfl), kinetic_step h.2.2.2 (fun n hn => (hok.1 n hn).1) (hr x (by simp [ScfItem.nums])).1 hi fl]; rfl
  | eigens rows =>
    obtain ⟨es, l, rfl, h1, ⟨h2, h3⟩, h4, h5⟩ := hl
    obtain ⟨he1, he2⟩ := he ⟨rows, rfl⟩
    have hx : ∀ r ∈ rows, ∀ n ∈ [r.1, r.2.1, r.2.2.1, r.2.2.2], n.Valid ∧ pyFloat n.text = .ok (fl n) := by
      intro r hr' n hn
      have : n ∈ (ScfItem.eigens rows).nums := List.mem_flatMap.2 ⟨r, hr', hn⟩
      exact ⟨(hok.1 n this).1, (hr n this).2⟩
    refine ⟨some [], ?_, fun _ => rfl, fun _ => rfl⟩
    rw [fold_append (eigens_fold h1 hx s [] he1)]
    refine fold_one ?_
    rcases hi.eig with ⟨hk, -⟩ | ⟨a, b, hk, hb⟩
    · exact absurd hk he2
    rw [scfLine_other h2, other_eigen h3, noEigen h4, if_neg (by decide), if_pos ((Str.contains_iff _ _).2 h5), scfCheck]
    dsimp only
    rw [hb, ScfItem.debug, ScfItem.listAt, hb]
    rfl
  | contrib words x =>
    obtain ⟨l, rfl, ⟨h1, h2⟩, h3, h4, h5⟩ := hl
    refine ⟨s.eig, fold_one ?_, fun h => (by obtain ⟨n', x, m, hh⟩ := h; cases hh), id⟩
    rw [scfLine_other h1, other_eigen h2, noEigen h3, if_neg (by decide), contains_false h4, if_neg (by decide),
      contrib_step h5 (hok.1 x (by simp [ScfItem.nums])).1 (hr x (by simp [ScfItem.nums])).2 hi (rd := rd)]; rfl
  | other =>
    obtain ⟨l, rfl, ⟨h1, h2⟩, h3, h4, h5⟩ := hl
    refine ⟨s.eig, fold_one ?_, fun h => (by obtain ⟨n', x, m, hh⟩ := h; cases hh), id⟩
    rw [scfLine_other h1, other_eigen h2, noEigen h3, if_neg (by decide), contains_false h4, if_neg (by decide), scfContrib_eq, noContrib h5]
    rfl

/-- The items between two rows. -/
theorem items_fold {rd fl : Numeral → F64} : ∀ {items : List ScfItem} {ls : List (List Str)}, List.Forall₂ ScfItem.Lines items ls →
    (∀ i ∈ items, i.Ok) → (∀ i ∈ items, ∀ n ∈ i.nums, parse_float_or_rational n.text = .ok (rd n) ∧ pyFloat n.text = .ok (fl n)) →
    ∀ (seen : List ScfItem) (s : ScfState), EigensLast (seen ++ items) → Inv s.debug →
    ((∃ i x more, ScfItem.kinetic i x more ∈ seen) → s.eig = some [] ∧ s.debug.get? kK ≠ none) →
    ∃ eig', foldLines scfLine s ls.flatten = .ok { s with
      curr := (items.flatMap (ScfItem.note rd)).foldl (fun e kv => Dict.set e kv.1 kv.2) s.curr,
      debug := items.foldl (ScfItem.debug rd fl) s.debug, eig := eig' }
  | _, _, .nil, _, _, _, s, _, _, _ => ⟨s.eig, rfl⟩
  | _, _, .cons (a := i) (b := l) (l₁ := items) (l₂ := ls) hl hrest, hok, hr, seen, s, hlast, hi, hseen => by
    have he : (∃ rows, i = .eigens rows) → s.eig = some [] ∧ s.debug.get? kK ≠ none := by
      rintro ⟨rows, rfl⟩
      exact hseen (hlast seen rows items rfl)
    obtain ⟨eig', e1, e2, e3⟩ := item_step hl (hok i (by simp)) (hr i (by simp)) hi he
    obtain ⟨i1, i2, i3⟩ := Inv.debug (rd := rd) (fl := fl) hi i fun h => (he h).2
    obtain ⟨eig'', e4⟩ := items_fold (rd := rd) (fl := fl) hrest (fun j hj => hok j (by simp [hj])) (fun j hj => hr j (by simp [hj]))
      (seen ++ [i]) { s with curr := (i.note rd).foldl (fun e kv => Dict.set e kv.1 kv.2) s.curr, debug := i.debug rd fl s.debug, eig := eig' }
      (by rw [List.append_assoc]; exact hlast) i1 (by
        rintro ⟨n, x, more, hm⟩
        rcases List.mem_append.1 hm with hm | hm
        · obtain ⟨q1, q2⟩ := hseen ⟨n, x, more, hm⟩
          exact ⟨e3 q1, i2 q2⟩
        · have := (List.mem_singleton.1 hm).symm
          exact ⟨e2 ⟨n, x, more, this⟩, i3 ⟨n, x, more, this⟩⟩)
    refine ⟨eig'', ?_⟩
    rw [List.flatten_cons, fold_append e1, e4, List.flatMap_cons, List.foldl_append, List.foldl_cons]

theorem foldl_set_ne : ∀ (l : List (Key × PyVal)) {d : Dict Key PyVal}, d ≠ [] → l.foldl (fun e kv => Dict.set e kv.1 kv.2) d ≠ []
  | [], _, h => h
  | kv :: l, d, h => foldl_set_ne l (by
      obtain ⟨⟨k, v⟩, d', rfl⟩ := List.exists_cons_of_ne_nil h
      show Dict.set ((k, v) :: d') kv.1 kv.2 ≠ []
      rw [Dict.set]
      split <;> simp)

theorem flush_report {rd fl : Numeral → F64} (scf : List PyVal) (before : List ScfItem) (head : Str) (energy f : Numeral) (gain : Option Numeral)
    (time : Numeral) (items : List ScfItem) (dbg : Dict Key PyVal) (eig : Option (List PyVal)) :
    ScfState.flush {
      scf := scf, debug := dbg, eig := eig, curr := (items.flatMap (ScfItem.note rd)).foldl (fun e kv => Dict.set e kv.1 kv.2)
        ([(.str (py"energy"), .float (rd energy)), (.str (py"fermi_energy"), .float (rd f)),
          (.str (py"energy_gain"), ScfRow.optFloat rd gain), (.str (py"time"), .float (rd time))] ++
          (if before.foldl (ScfItem.debug rd fl) [] = [] then [] else
            [(.str (py"debug_info"), .dict (before.foldl (ScfItem.debug rd fl) []))])) } =
    scf ++ [scfReport rd fl before ⟨⟨head, energy, some f, gain, time⟩, items⟩] := by
  rw [ScfState.flush, if_neg, scfReport]
  · dsimp only
    by_cases h : before.foldl (ScfItem.debug rd fl) [] = []
    · rw [if_pos h, if_pos h, List.append_nil]; rfl
    · rw [if_neg h, if_neg h]; rfl
  · rw [List.isEmpty_iff]
    exact foldl_set_ne _ (by simp)

/-- The table. -/
theorem cycles_fold {rd fl : Numeral → F64} : ∀ {cycles : List ScfCycle} {ls : List (List (List Str))},
    List.Forall₂ ScfCycle.Lines cycles ls →
    (∀ c ∈ cycles, c.row.Ok ∧ c.row.fermi ≠ none ∧ (∀ i ∈ c.items, i.Ok) ∧ EigensLast c.items) →
    (∀ c ∈ cycles, ∀ n ∈ c.row.nums ++ c.items.flatMap ScfItem.nums,
      parse_float_or_rational n.text = .ok (rd n) ∧ pyFloat n.text = .ok (fl n)) →
    ∀ (before : List ScfItem) (s : ScfState), s.debug = before.foldl (ScfItem.debug rd fl) [] →
    ∃ t, foldLines scfLine s ls.flatten.flatten = .ok t ∧ t.flush = s.flush ++ scfReports rd fl before cycles
  | _, _, .nil, _, _, _, s, _ => ⟨s, rfl, by rw [scfReports, List.append_nil]⟩
  | _, _, .cons (a := c) (b := l) (l₁ := cs) (l₂ := ls) hl hrest, hok, hr, before, s, hd => by
    obtain ⟨h1, h2, h3, h4⟩ := hok c (by simp)
    obtain ⟨row, rest, rfl, ⟨more, hf, hm⟩, hi⟩ := hl
    have hr' := hr c (by simp)
    have hrest' := fun s hs => cycles_fold (rd := rd) (fl := fl) hrest (fun j hj => hok j (by simp [hj])) (fun j hj => hr j (by simp [hj])) c.items s hs
    rw [scfReports]
    obtain ⟨⟨head, energy, fermi, gain, time⟩, items⟩ := c
    obtain ⟨f, rfl⟩ := Option.ne_none_iff_exists'.1 h2
    have e0 : (ScfRow.mk head energy (some f) gain time).nums = energy :: f :: (gain.toList ++ [time]) := rfl
    dsimp only at h1 h3 h4 hi hf hr' hrest'
    have hf' : Fields row (head :: energy.text :: f.text :: (gain.toList.map Numeral.text ++ time.text :: more)) := by
      rw [e0] at hf
      simpa using hf
    obtain ⟨m, m1, m2, m3⟩ := row_match h1.1 (fun n hn => (h1.2 n (by rw [e0]; exact hn)).1) hf' hm
    have hstep := row_step (rd := rd) m2 m3 (fun n hn => (hr' n (List.mem_append_left _ (by rw [e0]; exact hn))).1) s
    have e1 := (show scfLine s row = scfRow s m by rw [scfLine_eq, m1]).trans hstep
    obtain ⟨eig', e2⟩ := items_fold (rd := rd) (fl := fl) hi h3
      (fun i hi n hn => hr' n (List.mem_append_right _ (List.mem_flatMap.2 ⟨i, hi, hn⟩))) []
      { s with scf := s.flush, debug := [], curr :=
        [(.str (py"energy"), .float (rd energy)), (.str (py"fermi_energy"), .float (rd f)),
          (.str (py"energy_gain"), ScfRow.optFloat rd gain), (.str (py"time"), .float (rd time))] ++
          (if s.debug = [] then [] else [(.str (py"debug_info"), .dict s.debug)]) } h4 Inv.nil (by rintro ⟨_, _, _, h⟩; cases h)
    have e3 := (fold_append (b := rest.flatten) (fold_one e1)).trans e2
    obtain ⟨u, hu, hud, huf⟩ : ∃ u, foldLines scfLine s ([row] ++ rest.flatten) = .ok u ∧ u.debug = items.foldl (ScfItem.debug rd fl) [] ∧
        u.flush = s.flush ++ [scfReport rd fl before ⟨⟨head, energy, some f, gain, time⟩, items⟩] := by
      refine ⟨_, e3, rfl, ?_⟩
      rw [hd]
      exact flush_report ..
    obtain ⟨t, t1, t2⟩ := hrest' u hud
    refine ⟨t, ?_, ?_⟩
    · rw [List.flatten_cons, List.flatten_append, List.flatten_cons, fold_append hu]; exact t1
    · rw [t2, huf, List.append_assoc, List.singleton_append]

/-- The whole table. -/
theorem table {rd fl : Numeral → F64} {pre : List ScfItem} {cycles : List ScfCycle} {pl : List (List Str)} {ls : List (List (List Str))}
    (hp : List.Forall₂ ScfItem.Lines pre pl) (hpo : ∀ i ∈ pre, i.Ok ∧ i.IsDetail) (hpe : EigensLast pre)
    (hl : List.Forall₂ ScfCycle.Lines cycles ls)
    (hok : ∀ c ∈ cycles, c.row.Ok ∧ c.row.fermi ≠ none ∧ (∀ i ∈ c.items, i.Ok) ∧ EigensLast c.items)
    (hr : ∀ n : Numeral, n.Valid → n.InRange → parse_float_or_rational n.text = .ok (rd n) ∧ pyFloat n.text = .ok (fl n)) :
    process_scf (pl.flatten ++ ls.flatten.flatten) = .ok (.list (scfReports rd fl pre cycles)) := by
  obtain ⟨eig, e1⟩ := items_fold (rd := rd) (fl := fl) hp (fun i hi => (hpo i hi).1)
    (fun i hi n hn => hr n (((hpo i hi).1.1 n hn).1) (((hpo i hi).1.1 n hn).2)) [] {} hpe Inv.nil (by rintro ⟨_, _, _, h⟩; cases h)
  have hn : pre.flatMap (ScfItem.note rd) = [] := by
    rw [List.flatMap_eq_nil_iff]
    intro i hi
    have := (hpo i hi).2
    cases i <;> first | rfl | exact this.elim
  rw [hn] at e1
  obtain ⟨u, hu, hud, huf⟩ : ∃ u, foldLines scfLine {} pl.flatten = .ok u ∧ u.debug = pre.foldl (ScfItem.debug rd fl) [] ∧ u.flush = [] :=
    ⟨_, e1, rfl, rfl⟩
  obtain ⟨t, t1, t2⟩ := cycles_fold (rd := rd) (fl := fl) hl hok (by
    intro c hc n hn
    obtain ⟨h1, -, h3, -⟩ := hok c hc
    rcases List.mem_append.1 hn with hn | hn
    · exact hr n (h1.2 n hn).1 (h1.2 n hn).2
    · obtain ⟨i, hi, hn⟩ := List.mem_flatMap.1 hn
      exact hr n ((h3 i hi).1 n hn).1 ((h3 i hi).1 n hn).2) pre u hud
  rw [process_scf, fold_append hu, t1]
  show Except.ok (PyVal.list t.flush) = _
  rw [t2, huf, List.nil_append]

end Scf
end Verif

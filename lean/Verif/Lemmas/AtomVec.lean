import Verif.Spec.AtomVec
import Verif.Lemmas.Labelled
import Verif.Lemmas.CastepRows
import Verif.Lemmas.Header
import Verif.Lemmas.Strings
import Verif.Lemmas.Efield
/-
Lines with a vector for an atom.
-/
namespace Verif
open Re NumRe AtomRe Spec Castep

/-- `(?:\s*\([^)]+\))?` -/
abbrev remarkR : Re := .rep true 0 (some 1) (.seq (star sp) (.seq (.set (ch 40)) (.seq (plus ⟨true, [.ch 41], false⟩) (.set (ch 41)))))

/-- `ATOMIC_DATA_FORCE` -/
abbrev AF : Re := .seq (.group 1 A) (.seq (plus sp) (.seq (.group 2 (plus dig))
  (.seq (.seq (.rep false 1 none (.set sp)) (.seq (.group 3 N) remarkR))
  (.seq (.seq (.rep false 1 none (.set sp)) (.seq (.group 4 N) remarkR))
  (.seq (.rep false 1 none (.set sp)) (.seq (.group 5 N) remarkR))))))

theorem AF_eq : Res.ATOMIC_DATA_FORCE = ⟨AF, [(py"spec", 1), (py"index", 2), (py"x", 3), (py"y", 4), (py"z", 5)], 5⟩ := by
  decide +kernel

/-- `ATOMIC_DATA_3VEC` -/
abbrev AD3 : Re := .seq (.group 1 A) (.seq (plus sp) (.seq (.group 2 (plus dig)) (.seq (LF 3) (.seq (LF 4) (LF 5)))))

namespace AtomVec

/-- A number after a gap. -/
theorem numAt {r : Re} {i : Nat} {g : Str} {n : Numeral} {s pre : Str} {caps C} (hg : AtomVec.Gap g) (hn : n.Valid) (hs : EndsNumber s)
    (h : Gets r ((g ++ n.text).reverse ++ pre) s ((i, n.text) :: caps) C) :
    Gets (.seq (LF i) r) pre (g ++ (n.text ++ s)) caps C := by
  obtain ⟨t, h5, h6⟩ := h
  refine ⟨t, ?_, h6⟩
  rw [run_seq]
  exact run_LF i g n hg.1 hg.2 hn _ _ _ _ _ hs h5

/-- The characters of a number. -/
theorem numeral_char (n : Numeral) (hn : n.Valid) : ∀ c ∈ n.text, (48 ≤ c ∧ c ≤ 57) ∨ c = 43 ∨ c = 45 ∨ c = 46 ∨ c = 69 ∨ c = 101 := by
  obtain ⟨sg, ip, fr, ex⟩ := n
  obtain ⟨h1, h2, -, h4⟩ := hn
  intro c hc
  have hs : ∀ sg, c ∈ Numeral.signText sg → c = 43 ∨ c = 45 := by
    intro sg h
    rcases sg with _ | _ | _
    · cases h
    · simp [Numeral.signText] at h; omega
    · simp [Numeral.signText] at h; omega
  simp only [Numeral.text, List.mem_append] at hc
  rcases hc with ((hc | hc) | hc) | hc
  · have := hs _ hc; omega
  · exact .inl (h1 c hc)
  · cases fr with
    | none => cases hc
    | some ds =>
      simp only [Numeral.fracText, List.mem_cons] at hc
      rcases hc with hc | hc
      · omega
      · exact .inl (h2 c hc)
  · cases ex with
    | none => cases hc
    | some e =>
      obtain ⟨up, sg', ds⟩ := e
      have := (h4 _ rfl).1
      simp only [Numeral.expText, List.mem_append] at hc
      rcases hc with (hc | hc) | hc
      · cases up <;> simp at hc <;> omega
      · have := hs _ hc; omega
      · exact .inl (this c hc)

theorem num_head {n : Numeral} (hn : n.Valid) {s : Str} : ∃ c r, n.text ++ s = c :: r ∧ isSpace c = false ∧ c ≠ 40 := by
  cases h : n.text with
  | nil => exact absurd h (text_ne_nil n hn)
  | cons c r =>
    refine ⟨c, r ++ s, rfl, text_nospace n hn c (by rw [h]; simp), ?_⟩
    have := numeral_char n hn c (by rw [h]; simp)
    omega

theorem ends_gap {g s : Str} (hg : AtomVec.Gap g) : EndsNumber (g ++ s) := by
  obtain ⟨h1, h2⟩ := hg
  cases g with
  | nil => exact absurd rfl h2
  | cons c g => exact EndsNumber.space (h1 c (by simp))

theorem ends_paren {s : Str} : EndsNumber (40 :: s) := ⟨by simp [isDigit], by simp, by simp, by simp⟩

theorem ends_remark {n s : Str} (hn : AtomVec.Remark n) (hs : EndsNumber s) : EndsNumber (n ++ s) := by
  rcases hn with rfl | ⟨g, t, rfl, hg, -, -⟩
  · exact hs
  · cases g with
    | nil => exact ends_paren
    | cons c g => exact EndsNumber.space (hg c (by simp))

/-- A remark, or none, before a gap and a number. -/
theorem remark {r : Re} {n g s pre : Str} {x : Numeral} {caps C} (hn : AtomVec.Remark n) (hg : AtomVec.Gap g) (hx : x.Valid)
    (h : ∀ pre', Gets r pre' (g ++ (x.text ++ s)) caps C) :
    Gets (.seq remarkR r) pre (n ++ (g ++ (x.text ++ s))) caps C := by
  rcases hn with rfl | ⟨g', t, rfl, hg', ht, h41⟩
  · obtain ⟨y, h5, h6⟩ := h pre
    refine ⟨y, ?_, h6⟩
    rw [run_seq, List.nil_append, run_opt_skip _ _ _ ?_]
    · exact h5
    · intro k
      rw [run_seq]
      obtain ⟨c, q, e, hc, hc'⟩ := num_head hx (s := s)
      have stop : Stops sp (c :: q) := by
        intro d hd; simp at hd; subst hd; rw [has_sp]; exact hc
      rw [e]
      have key : ∀ g pre, Blank g → run (star sp) ⟨pre, g ++ c :: q, caps⟩ (fun t => run (.seq (.set (ch 40)) (.seq (plus ⟨true, [.ch 41], false⟩) (.set (ch 41)))) t k) = none := by
        intro g
        induction g with
        | nil =>
          intro pre _
          rw [List.nil_append, run_star_stop _ _ _ _ _ _ _ stop, run_seq, run_set_cons, if_neg (by rw [has_ch]; simpa using hc')]
        | cons d g ih =>
          intro pre hb
          rw [List.cons_append, run_star_cons _ _ (by simp) _ _ _ _ _ (by rw [has_sp]; exact hb d (by simp)), Option.map_none,
            ih (d :: pre) (fun y hy => hb y (by simp [hy])), Option.none_or, run_seq, run_set_cons,
            if_neg (by
              rw [has_ch]
              have := hb d (by simp)
              intro e; simp at e; subst e; simp [isSpace] at this)]
      exact key g pre hg.1
  · obtain ⟨y, h5, h6⟩ := h ((g' ++ 40 :: (t ++ [41])).reverse ++ pre)
    refine ⟨y, ?_, h6⟩
    rw [run_seq]
    apply run_opt_take
    rw [run_seq, List.append_assoc]
    refine run_star_all sp g' _ _ _ _ _ _ (fun c hc => by rw [has_sp]; exact hg' c hc)
      (by intro c hc; simp at hc; subst hc; rfl) (by simp) ?_
    rw [List.cons_append, run_seq, run_set_cons, if_pos (by decide), run_seq, List.append_assoc]
    refine run_plus_all _ 1 t _ _ _ _ _ _ (by cases t with | nil => exact absurd rfl ht | cons c t => simp)
      (fun c hc => ?_) (by intro c hc; simp at hc; subst hc; rfl) (by simp) ?_
    · have : c ≠ 41 := fun e => h41 (by rw [← e]; exact hc)
      simpa [CSet.has, CItem.has] using this
    · rw [List.singleton_append, run_set_cons, if_pos (by decide), if_pos (by simp; omega)]
      simpa using h5

/-- The last remark. -/
theorem lastRemark {s pre : Str} {caps} {C : List (Nat × Str) → Prop} (h : C caps) : Gets remarkR pre s caps C := by
  have hsome : (run remarkR ⟨pre, s, caps⟩ some).isSome = true := by
    rw [run_rep_greedy, if_neg (by simp), if_pos rfl]; simp
  obtain ⟨y, hy⟩ := Option.isSome_iff_exists.1 hsome
  obtain ⟨t, w, h1, -, h3⟩ := run_some hy
  cases h3
  refine ⟨y, hy, ?_⟩
  obtain ⟨new, e, hnew⟩ := h1.caps
  cases new with
  | nil => rw [e]; exact h
  | cons p new =>
    obtain ⟨r, hr, -⟩ := hnew p (by simp)
    have : groupsOf remarkR = [] := rfl
    rw [this] at hr; cases hr

/-- The name and the number of the atom. -/
theorem nameAt {r : Re} {a : AtomName} {idx g0 g1 s pre : Str} {caps C} (ha : a.Valid)
    (hd : Numeral.AllDigits idx) (hne : idx ≠ []) (h0 : AtomVec.Gap g0) (h1 : AtomVec.Gap g1)
    (hp : ∀ c, pre.head? = some c → isWord c = false)
    (h : ∀ pre', Gets r pre' (g1 ++ s) ((2, idx) :: (1, a.text) :: caps) C) :
    Gets (.seq (.group 1 A) (.seq (plus sp) (.seq (.group 2 (plus dig)) r))) pre
      (a.text ++ (g0 ++ (idx ++ (g1 ++ s)))) caps C := by
  obtain ⟨d, idx', rfl⟩ := List.exists_cons_of_ne_nil hne
  have hdd : isDigit d = true := (isDigit_iff d).2 (hd d (by simp))
  have hds := isDigit_not_space hdd
  obtain ⟨t, h5, h6⟩ := h ((d :: idx').reverse ++ (g0.reverse ++ (a.text.reverse ++ pre)))
  refine ⟨t, ?_, h6⟩
  rw [run_seq, run_group]
  apply run_A a ha _ _ _ _ _ hp (spaceNext_append h0.1 h0.2)
  · intro _ g q e hg hq
    cases q with
    | nil => cases hq
    | cons b q =>
      simp at hq; subst hq
      have hh : ∀ (g0 g : Str), Blank g0 → Blank g → g0 ++ (d :: (idx' ++ (g1 ++ s))) = g ++ 91 :: q → False := by
        intro g0
        induction g0 with
        | nil =>
          intro g _ hg e
          cases g with
          | nil => simp at e; rw [e.1] at hdd; simp [isDigit] at hdd
          | cons y g => simp at e; have := hg y (by simp); rw [← e.1, hds] at this; cases this
        | cons x g0 ih =>
          intro g hb hg e
          cases g with
          | nil => simp at e; have := hb x (by simp); rw [e.1] at this; simp [isSpace] at this
          | cons y g => simp at e; exact ih g (fun z hz => hb z (by simp [hz])) (fun z hz => hg z (by simp [hz])) e.2
      exact hh g0 g h0.1 hg e
  · rw [upTo_append, run_seq]
    apply run_plus_all sp 1 g0 _ _ _ _ _ _ (by
        have := h0.2
        cases g0 with | nil => exact absurd rfl this | cons c g => simp)
      (fun c hc => by rw [has_sp]; exact h0.1 c hc) (by intro c hc; simp at hc; subst hc; rw [has_sp]; exact hds) (by simp)
    rw [run_seq, run_group]
    apply run_plus_all dig 1 (d :: idx') _ _ _ _ _ _ (by simp)
      (fun c h => (allDigits_iff _).1 hd c h) (ends_gap h1).stops (by simp)
    rw [upTo_append]; exact h5

/-- The groups of a line. -/
def caps (a : AtomVec) : List (Nat × Str) :=
  [(5, a.z.text), (4, a.y.text), (3, a.x.text), (2, a.idx), (1, a.name.text)]

theorem ends_tail {t : Str} (h : AtomVec.Tail t) : EndsNumber t := endsNumber_of_space h

/-- The text after a search for a pattern that starts with a capital letter. -/
theorem search_capital {q : Pat} {p s : Str} {C : List (Nat × Str) → Prop} (hp : AtomVec.Lead p)
    (hq : ∀ w, Lang q.re w → ∃ c r, w = c :: r ∧ 65 ≤ c ∧ c ≤ 90) (h : Gets q.re p.reverse s [] C) :
    ∃ m, q.search (p ++ s) = some m ∧ C m.caps ∧ m.names = q.names := by
  obtain ⟨t, h1, h2⟩ := h
  have hm : q.matchAt p.reverse s = some ⟨p.reverse.reverse, St.upTo ⟨p.reverse, s, []⟩ t, t.post, t.caps, q.names, q.ngroups⟩ := by
    rw [Pat.matchAt_eq, h1]; rfl
  refine ⟨⟨p.reverse.reverse, St.upTo ⟨p.reverse, s, []⟩ t, t.post, t.caps, q.names, q.ngroups⟩, ?_, h2, ?_⟩
  · rw [Pat.search, Pat.searchFrom_skip q p [] s]
    · rw [List.append_nil]; exact Pat.searchFrom_of_matchAt hm
    · intro u v e hv
      cases hx : q.matchAt (u.reverse ++ []) (v ++ s) with
      | none => rfl
      | some m =>
        obtain ⟨e', -, hl, -⟩ := Pat.matchAt_some hx
        obtain ⟨c, r, hw, hc⟩ := hq _ hl
        obtain ⟨d, v', rfl⟩ := List.exists_cons_of_ne_nil hv
        rw [hw] at e'
        simp at e'
        exact absurd hc (hp.1 c (by rw [e, ← e'.1]; simp))
  · rfl

theorem capital_AD3 (w : Str) (h : Lang AD3 w) : ∃ c r, w = c :: r ∧ 65 ≤ c ∧ c ≤ 90 := by
  obtain ⟨u, v, rfl, h1, -⟩ := h
  obtain ⟨c, r, rfl, hc⟩ := lang_A_head h1
  exact ⟨c, r ++ v, rfl, hc⟩

theorem capital_AF (w : Str) (h : Lang AF w) : ∃ c r, w = c :: r ∧ 65 ≤ c ∧ c ≤ 90 := by
  obtain ⟨u, v, rfl, h1, -⟩ := h
  obtain ⟨c, r, rfl, hc⟩ := lang_A_head h1
  exact ⟨c, r ++ v, rfl, hc⟩

theorem lead_word {p : Str} (h : AtomVec.Lead p) : ∀ c, p.reverse.head? = some c → isWord c = false := by
  intro c hc
  rw [List.head?_reverse] at hc
  exact h.2 c hc

/-- What the pattern of positions finds. -/
theorem vec_search {l : Str} {a : AtomVec} (hl : a.Line l) (hok : a.Ok) :
    ∃ m, Res.ATOMIC_DATA_3VEC.search l = some m ∧ m.caps = caps a ∧ m.names = Res.ATOMIC_DATA_3VEC.names := by
  obtain ⟨p, g0, g1, g2, g3, t, rfl, hp, h0, h1, h2, h3, ht⟩ := hl
  obtain ⟨ha, hd, hne, hn⟩ := hok
  refine search_capital (q := Res.ATOMIC_DATA_3VEC) (C := fun c => c = caps a) hp (by rw [AD3_eq]; exact capital_AD3) ?_
  rw [AD3_eq]
  refine nameAt ha hd hne h0 h1 (lead_word hp) fun pre' => ?_
  simp only [List.nil_append]
  refine numAt h1 (hn _ (by simp)).1 (ends_gap h2) ?_
  refine numAt h2 (hn _ (by simp)).1 (ends_gap h3) ?_
  refine Gets.last (numAt h3 (hn _ (by simp)).1 (ends_tail ht) ?_)
  exact Gets.eps rfl

/-- What the pattern of forces finds. -/
theorem force_search {l : Str} {a : AtomVec} (hl : a.ForceLine l) (hok : a.Ok) :
    ∃ m, Res.ATOMIC_DATA_FORCE.search l = some m ∧ m.caps = caps a ∧ m.names = Res.ATOMIC_DATA_FORCE.names := by
  obtain ⟨n1, n2, n3, r1, r2, r3, p, g0, g1, g2, g3, t, rfl, hp, h0, h1, h2, h3, ht⟩ := hl
  obtain ⟨ha, hd, hne, hn⟩ := hok
  refine search_capital (q := Res.ATOMIC_DATA_FORCE) (C := fun c => c = caps a) hp (by rw [AF_eq]; exact capital_AF) ?_
  rw [AF_eq]
  refine nameAt ha hd hne h0 h1 (lead_word hp) fun pre' => ?_
  refine Gets.congr (b := .seq (LF 3) (.seq remarkR (.seq (LF 4) (.seq remarkR (.seq (LF 5) remarkR)))))
    (fun st k => by simp only [run_seq]) ?_
  refine numAt h1 (hn _ (by simp)).1 (ends_remark r1 (ends_gap h2)) ?_
  refine remark r1 h2 (hn _ (by simp)).1 fun _ => ?_
  refine numAt h2 (hn _ (by simp)).1 (ends_remark r2 (ends_gap h3)) ?_
  refine remark r2 h3 (hn _ (by simp)).1 fun _ => ?_
  refine numAt h3 (hn _ (by simp)).1 (ends_remark r3 (ends_tail ht)) ?_
  exact lastRemark rfl

/-- The entry of a match. -/
theorem entry_of {rd : Numeral → F64} {a : AtomVec} {m : Match} (hok : a.Ok) (hc : m.caps = caps a)
    (hn : m.names = [(py"spec", 1), (py"index", 2), (py"x", 3), (py"y", 4), (py"z", 5)])
    (hr : ∀ n ∈ [a.x, a.y, a.z], parse_float_or_rational n.text = .ok (rd n)) :
    atreg_match m = .ok a.key ∧ Header.vecOf m = .ok (.tuple ([a.x, a.y, a.z].map fun n => .float (rd n))) := by
  constructor
  · have h1 : m.named (py"index") = some a.idx := by rw [Castep.named_eq hc hn]; rfl
    have h2 : m.named (py"spec") = some a.name.text := by rw [Castep.named_eq hc hn]; rfl
    rw [atreg_match, h1, MdFrame.intOfGroup_digits a.idx hok.2.1 hok.2.2.1, h2]; rfl
  · rw [Header.vecOf, Res.FST_D, List.map_cons, List.map_cons, List.map_cons, List.map_nil, Castep.named_eq hc hn, Castep.named_eq hc hn, Castep.named_eq hc hn]
    exact Castep.floatTuple (ns := [a.x, a.y, a.z]) hr

/-- A match contains a digit. -/
theorem digit_AD3 {w : Str} (h : Lang AD3 w) : ∃ c ∈ w, 48 ≤ c ∧ c ≤ 57 := by
  obtain ⟨u, v, rfl, -, u2, v2, rfl, -, u3, v3, rfl, h3, -⟩ := h
  have h3 : Lang (plus dig) u3 := h3
  rw [lang_rep_set] at h3
  cases u3 with
  | nil => simp at h3
  | cons c u3 =>
    refine ⟨c, by simp, ?_⟩
    have := h3.1 c (by simp)
    rw [has_dig] at this
    exact (isDigit_iff c).1 this

theorem digit_AF {w : Str} (h : Lang AF w) : ∃ c ∈ w, 48 ≤ c ∧ c ≤ 57 := by
  obtain ⟨u, v, rfl, -, u2, v2, rfl, -, u3, v3, rfl, h3, -⟩ := h
  have h3 : Lang (plus dig) u3 := h3
  rw [lang_rep_set] at h3
  cases u3 with
  | nil => simp at h3
  | cons c u3 =>
    refine ⟨c, by simp, ?_⟩
    have := h3.1 c (by simp)
    rw [has_dig] at this
    exact (isDigit_iff c).1 this

theorem search_noDigit {p : Pat} (hp : ∀ w, Lang p.re w → ∃ c ∈ w, 48 ≤ c ∧ c ≤ 57) {l : Str} (h : NoDigit l) :
    p.search l = none := by
  cases hs : p.search l with
  | none => rfl
  | some m =>
    obtain ⟨a, b, e, hl⟩ := search_found hs
    obtain ⟨c, hc, hd⟩ := hp _ hl
    exact absurd hd (h c (by rw [e]; simp [hc]))

/-- The entry of a matching line. -/
def found (m : Match) : PyM (Key × PyVal) := do
  let ind ← atreg_match m
  let v ← Header.vecOf m
  return (ind, v)

theorem found_of {rd : Numeral → F64} {a : AtomVec} {m : Match} (hok : a.Ok) (hc : m.caps = caps a)
    (hn : m.names = [(py"spec", 1), (py"index", 2), (py"x", 3), (py"y", 4), (py"z", 5)])
    (hr : ∀ n ∈ [a.x, a.y, a.z], parse_float_or_rational n.text = .ok (rd n)) : found m = .ok (a.entry rd) := by
  obtain ⟨h1, h2⟩ := entry_of hok hc hn hr
  rw [found, h1]
  show (do let v ← Header.vecOf m; pure _ : PyM _) = _
  rw [h2]; rfl

theorem onSearch_some {α : Type} {p : Pat} {f : Match → PyM α} {l : Str} {m : Match} {x : α} (h : p.search l = some m)
    (hf : f m = .ok x) : onSearch p f l = .ok (some x) := by
  unfold onSearch
  rw [h]
  show (do let x ← f m; pure (some x) : PyM _) = _
  rw [hf]; rfl

theorem onSearch_none {α : Type} {p : Pat} {f : Match → PyM α} {l : Str} (h : p.search l = none) :
    onSearch p f l = .ok none := by
  unfold onSearch
  rw [h]

/-- Rows of a table of vectors. -/
theorem collect_vecs {p : Pat} {Line : Str → AtomVec → Prop} {rd : Numeral → F64}
    (hs : ∀ l, NoDigit l → p.search l = none)
    (hl : ∀ l a, Line l a → a.Ok → ∃ m, p.search l = some m ∧ m.caps = caps a ∧
      m.names = [(py"spec", 1), (py"index", 2), (py"x", 3), (py"y", 4), (py"z", 5)])
    {ls : List Str} {rows : List AtomVec} (h : Interleaved NoDigit Line ls rows) (hok : ∀ a ∈ rows, a.Ok)
    (hr : ∀ a ∈ rows, ∀ n ∈ [a.x, a.y, a.z], parse_float_or_rational n.text = .ok (rd n)) :
    collectDict (onSearch p found) ls = .ok (Dict.ofList (rows.map (AtomVec.entry rd))) := by
  have := Castep.collect_rows (f := onSearch p found) (g := fun a => some (AtomVec.entry rd a)) (fun l h => onSearch_none (hs l h)) h
    (fun l a ha hla => by
      obtain ⟨m, h1, h2, h3⟩ := hl l a hla (hok a ha)
      exact onSearch_some h1 (found_of (hok a ha) h2 h3 (hr a ha)))
  rw [collectDict, this, List.filterMap_eq_map']
  rfl

end AtomVec

/-! ### The title of a block of forces -/

/-- A character, without regard to case. -/
abbrev chi (c : Nat) : Re := .set ⟨false, [.ch c], true⟩
/-- `\s` in a pattern that ignores case -/
abbrev spi : CSet := ⟨false, [.space], true⟩
/-- `[a-zA-Z ]` -/
abbrev nameSet : CSet := ⟨false, [.range 97 122, .range 65 90, .ch 32], true⟩

/-- What follows the name in `FORCES_BLOCK_RE`. -/
abbrev FTail : Re := .seq (chi 70) (.seq (chi 111) (.seq (chi 114) (.seq (chi 99) (.seq (chi 101) (.seq (chi 115) (.seq (star spi)
  (.seq (.rep true 1 none (chi 42)) (.seq (star spi) (.seq (star spi) .eol)))))))))

theorem FORCES_eq : Res.FORCES_BLOCK_RE.re = .seq .bol (.seq (star spi) (.seq (star spi) (.seq (.rep true 1 none (chi 42))
    (.seq (star spi) (.seq (.group 1 (star nameSet)) FTail))))) := by
  decide +kernel

theorem lowerC_cases (c : Nat) : (65 ≤ c ∧ c ≤ 90 ∧ lowerC c = c + 32) ∨ (¬ (65 ≤ c ∧ c ≤ 90) ∧ lowerC c = c) := by
  by_cases h : isUpper c = true
  · left
    have h' := h
    simp [isUpper] at h'
    exact ⟨h'.1, h'.2, by rw [lowerC, if_pos h]⟩
  · right
    have h' := h
    simp [isUpper] at h'
    exact ⟨by omega, by rw [lowerC, if_neg h]⟩

theorem upperC_cases (c : Nat) : (97 ≤ c ∧ c ≤ 122 ∧ upperC c = c - 32) ∨ (¬ (97 ≤ c ∧ c ≤ 122) ∧ upperC c = c) := by
  by_cases h : isLower c = true
  · left
    have h' := h
    simp [isLower] at h'
    exact ⟨h'.1, h'.2, by rw [upperC, if_pos h]⟩
  · right
    have h' := h
    simp [isLower] at h'
    exact ⟨by omega, by rw [upperC, if_neg h]⟩

theorem isAlpha_iff (c : Nat) : isAlpha c = true ↔ (97 ≤ c ∧ c ≤ 122) ∨ (65 ≤ c ∧ c ≤ 90) := by
  simp [isAlpha, isLower, isUpper]

theorem has_nameSet (c : Nat) : nameSet.has c = true ↔ (isAlpha c = true ∨ c = 32) := by
  have key : ∀ d, ([CItem.range 97 122, .range 65 90, .ch 32].any (·.has d)) = true ↔ ((97 ≤ d ∧ d ≤ 122) ∨ (65 ≤ d ∧ d ≤ 90) ∨ d = 32) := by
    intro d
    simp [CItem.has]
  simp only [CSet.has, Bool.false_bne, Bool.true_and, Bool.or_eq_true, key, isAlpha_iff]
  have := lowerC_cases c
  have := upperC_cases c
  omega

theorem has_chi {a c : Nat} (h : lowerC c = a) : CSet.has ⟨false, [.ch a], true⟩ c = true := by
  simp [CSet.has, CItem.has, h]

/-- A greedy class that has to give back text. -/
theorem run_star_give (cs : CSet) (rest : Str) (hr : Stops cs rest) (v : Str) (hv : ∀ c ∈ v, cs.has c = true) :
    ∀ (u pre : Str) (caps) (k : St → Option β) (x : β), (∀ c ∈ u, cs.has c = true) →
      (∀ a b, v = a ++ b → a ≠ [] → k ⟨a.reverse ++ (u.reverse ++ pre), b ++ rest, caps⟩ = none) →
      k ⟨u.reverse ++ pre, v ++ rest, caps⟩ = some x →
      run (star cs) ⟨pre, u ++ (v ++ rest), caps⟩ k = some x
  | c :: u, pre, caps, k, x, hu, h1, h2 => by
    rw [List.cons_append, run_star_cons _ _ (by simp) _ _ _ _ _ (hu c (by simp)), Option.map_none,
      run_star_give cs rest hr v hv u (c :: pre) caps k x (fun y hy => hu y (by simp [hy])) (by simpa using h1) (by simpa using h2)]
    rfl
  | [], pre, caps, k, x, _, h1, h2 => by
    cases v with
    | nil => rw [List.nil_append, List.nil_append, run_star_stop _ _ _ _ _ _ _ hr]; exact h2
    | cons d v =>
      rw [List.nil_append, List.cons_append, run_star_cons _ _ (by simp) _ _ _ _ _ (hv d (by simp)), Option.map_none, run_none]
      · rw [Option.none_or]; exact h2
      · intro w t hs hw
        rw [lang_rep_set] at hw
        have e := hs.post
        have e2 := hs.pre
        obtain ⟨new, e3, hnew⟩ := hs.caps
        have hn : new = [] := by
          cases new with
          | nil => rfl
          | cons p new => obtain ⟨r, hr, -⟩ := hnew p (by simp); cases hr
        subst hn
        have hcut : ∃ b, v = w ++ b ∧ t.post = b ++ rest := by
          rcases List.append_eq_append_iff.1 e with ⟨b, h3, h4⟩ | ⟨b, h3, h4⟩
          · cases b with
            | nil => exact ⟨[], by simpa using h3.symm, by simpa using h4.symm⟩
            | cons y b =>
              have h5 := hw.1 y (by rw [h3]; simp)
              rw [hr y (by rw [h4]; rfl)] at h5; cases h5
          · exact ⟨b, h3, h4⟩
        obtain ⟨b, h3, h4⟩ := hcut
        have := h1 (d :: w) b (by rw [h3]; rfl) (by simp)
        obtain ⟨tp, tq, tc⟩ := t
        simp only at e2 e3 h4
        subst e2 e3 h4
        simpa using this

theorem has_spi (c : Nat) : spi.has c = isSpace c := by
  have := lowerC_cases c
  have := upperC_cases c
  have h : ∀ d, (65 ≤ d ∧ d ≤ 122) → isSpace d = false := by
    intro d hd; simp [isSpace]; omega
  have h1 : isSpace (lowerC c) = isSpace c := by
    rcases lowerC_cases c with ⟨a, b, e⟩ | ⟨-, e⟩
    · rw [h _ (by omega), h c (by omega)]
    · rw [e]
  have h2 : isSpace (upperC c) = isSpace c := by
    rcases upperC_cases c with ⟨a, b, e⟩ | ⟨-, e⟩
    · rw [h _ (by omega), h c (by omega)]
    · rw [e]
  simp [CSet.has, CItem.has, h1, h2]

theorem stops_spi {w s : Str} (hne : w ≠ []) (h : ∀ c ∈ w, isSpace c = false) : Stops spi (w ++ s) := by
  intro c hc
  rw [has_spi, ← has_sp]
  exact stops_word hne h c hc

/-- Blanks before something else. -/
theorem gapsI {r : Re} {g w s pre : Str} {caps C} (hg : Blank g) (hne : w ≠ []) (hw : ∀ c ∈ w, isSpace c = false)
    (h : ∀ pre', Gets r pre' (w ++ s) caps C) : Gets (.seq (star spi) r) pre (g ++ (w ++ s)) caps C := by
  obtain ⟨t, h5, h6⟩ := h (g.reverse ++ pre)
  refine ⟨t, ?_, h6⟩
  rw [run_seq]
  exact run_star_all spi g _ _ _ _ _ _ (fun c hc => by rw [has_spi]; exact hg c hc) (stops_spi hne hw) (by simp) h5

/-- Stars before something else. -/
theorem starsI {r : Re} {w s pre : Str} {caps C} (hne : w ≠ []) (hw : ∀ c ∈ w, c = 42) (hs : s.head? ≠ some 42)
    (h : ∀ pre', Gets r pre' s caps C) : Gets (.seq (.rep true 1 none (chi 42)) r) pre (w ++ s) caps C := by
  obtain ⟨t, h5, h6⟩ := h (w.reverse ++ pre)
  refine ⟨t, ?_, h6⟩
  rw [run_seq]
  refine run_plus_all _ 1 w _ _ _ _ _ _ (by cases w with | nil => exact absurd rfl hne | cons c w => simp)
    (fun c hc => by rw [hw c hc]; rfl) ?_ (by simp) h5
  intro c hc
  have : c ≠ 42 := by rintro rfl; exact hs hc
  have := lowerC_cases c
  have := upperC_cases c
  simp [CSet.has, CItem.has]
  omega

theorem finishI {g pre : Str} {caps} {C : List (Nat × Str) → Prop} (hg : Blank g) (h : C caps) :
    Gets (.seq (star spi) (.seq (star spi) .eol)) pre g caps C := by
  refine ⟨⟨g.reverse ++ pre, [], caps⟩, ?_, h⟩
  rw [run_seq]
  have := run_star_all spi g pre [] none caps (fun t => run (.seq (star spi) .eol) t some) ⟨g.reverse ++ pre, [], caps⟩
    (fun c hc => by rw [has_spi]; exact hg c hc) (by intro c hc; cases hc) (by simp) (by
      rw [run_seq, run_star_stop _ _ _ _ _ _ _ (by intro c hc; cases hc), run_eol]; rfl)
  rwa [List.append_nil] at this

theorem lower_six {f : Str} {a1 a2 a3 a4 a5 a6 : Nat} (h : Str.lower f = [a1, a2, a3, a4, a5, a6]) :
    ∃ f1 f2 f3 f4 f5 f6, f = [f1, f2, f3, f4, f5, f6] ∧ lowerC f1 = a1 ∧ lowerC f2 = a2 ∧ lowerC f3 = a3 ∧ lowerC f4 = a4 ∧
      lowerC f5 = a5 ∧ lowerC f6 = a6 := by
  match f, h with
  | [f1, f2, f3, f4, f5, f6], h =>
    simp [Str.lower] at h
    exact ⟨f1, f2, f3, f4, f5, f6, rfl, h⟩

theorem has_chi_iff {a c : Nat} (ha : 97 ≤ a ∧ a ≤ 122) : CSet.has ⟨false, [.ch a], true⟩ c = true ↔ lowerC c = a := by
  have := lowerC_cases c
  have := upperC_cases c
  simp [CSet.has, CItem.has]
  omega

theorem has_chi_F {c : Nat} : CSet.has ⟨false, [.ch 70], true⟩ c = true ↔ lowerC c = 102 := by
  have := lowerC_cases c
  have := upperC_cases c
  simp [CSet.has, CItem.has]
  omega

/-- What the pattern of the title gets. -/
theorem force_title {l name : Str} (h : ForceTitle l name) :
    Gets Res.FORCES_BLOCK_RE.re [] l [] (fun c => c = [(1, name)]) := by
  obtain ⟨g1, s1, g2, f, g3, s2, g4, rfl, hg, hs, hf, hn, hn0⟩ := h
  have b1 := hg g1 (by simp); have b2 := hg g2 (by simp); have b3 := hg g3 (by simp); have b4 := hg g4 (by simp)
  obtain ⟨n1, q1⟩ := hs s1 (by simp)
  obtain ⟨n2, q2⟩ := hs s2 (by simp)
  have nosp : ∀ s : Str, (∀ c ∈ s, c = c!"*") → ∀ c ∈ s, isSpace c = false := by
    intro s h c hc; rw [h c hc]; rfl
  obtain ⟨f1, f2, f3, f4, f5, f6, rfl, e1, e2, e3, e4, e5, e6⟩ := lower_six hf
  have alpha : ∀ c a, 97 ≤ a ∧ a ≤ 122 → lowerC c = a → isAlpha c = true := by
    intro c a ha h
    rw [isAlpha_iff]
    have := lowerC_cases c
    omega
  have fs : ∀ c ∈ [f1, f2, f3, f4, f5, f6], isAlpha c = true := by
    intro c hc
    simp at hc
    rcases hc with rfl | rfl | rfl | rfl | rfl | rfl
    · exact alpha _ _ (by decide) e1
    · exact alpha _ _ (by decide) e2
    · exact alpha _ _ (by decide) e3
    · exact alpha _ _ (by decide) e4
    · exact alpha _ _ (by decide) e5
    · exact alpha _ _ (by decide) e6
  have asp : ∀ c, isAlpha c = true → isSpace c = false ∧ c ≠ 42 := by
    intro c h
    simp [isAlpha, isLower, isUpper] at h
    simp [isSpace]
    omega
  -- the text after the gap of the title
  have nameHead : ∃ w v, name ++ ([f1, f2, f3, f4, f5, f6] ++ (g3 ++ (s2 ++ g4))) = w ++ v ∧ w ≠ [] ∧ (∀ c ∈ w, isSpace c = false) ∧
      w.head? ≠ some 42 := by
    cases name with
    | nil => exact ⟨[f1], _, rfl, by simp, by intro c hc; simp at hc; subst hc; exact (asp _ (fs _ (by simp))).1, by
        simp; exact (asp _ (fs f1 (by simp))).2⟩
    | cons c name =>
      have hc : isAlpha c = true := by
        rcases hn c (by simp) with h | h
        · exact h
        · exact absurd (by simp [h]) hn0
      exact ⟨[c], _, rfl, by simp, by intro d hd; simp at hd; subst hd; exact (asp _ hc).1, by simp; exact (asp _ hc).2⟩
  obtain ⟨w, v, ew, hw1, hw2, hw3⟩ := nameHead
  have noStar : (g2 ++ (w ++ v)).head? ≠ some 42 := by
    cases g2 with
    | nil =>
      cases w with
      | nil => exact absurd rfl hw1
      | cons c w => simpa using hw3
    | cons c g2 =>
      have := b2 c (by simp)
      intro e; simp at e; subst e; cases this
  rw [FORCES_eq]
  apply Gets.bol
  refine gapsI b1 n1 (nosp _ q1) fun _ => ?_
  refine gapsI (g := []) (by intro c hc; cases hc) n1 (nosp _ q1) fun _ => ?_
  rw [ew]
  refine starsI n1 q1 noStar fun _ => ?_
  refine gapsI b2 hw1 hw2 fun pre => ?_
  rw [← ew]
  -- the name, then the rest
  have tail : Gets FTail (name.reverse ++ pre) ([f1, f2, f3, f4, f5, f6] ++ (g3 ++ (s2 ++ g4))) [(1, name)] (fun c => c = [(1, name)]) := by
    refine Gets.char (has_chi_F.2 e1) ?_
    refine Gets.char ((has_chi_iff (by decide)).2 e2) ?_
    refine Gets.char ((has_chi_iff (by decide)).2 e3) ?_
    refine Gets.char ((has_chi_iff (by decide)).2 e4) ?_
    refine Gets.char ((has_chi_iff (by decide)).2 e5) ?_
    refine Gets.char ((has_chi_iff (by decide)).2 e6) ?_
    show Gets _ _ (g3 ++ (s2 ++ g4)) _ _
    refine gapsI b3 n2 (nosp _ q2) fun _ => ?_
    refine starsI n2 q2 ?_ fun _ => finishI b4 rfl
    cases g4 with
    | nil => simp
    | cons c g4 =>
      have := b4 c (by simp)
      intro e; simp at e; subst e; cases this
  obtain ⟨t, h5, h6⟩ := tail
  refine ⟨t, ?_, h6⟩
  rw [run_seq, run_group]
  -- blanks that the class of the name also takes
  have split3 : ∃ u r, g3 ++ (s2 ++ g4) = u ++ r ∧ (∀ c ∈ u, c = 32) ∧ Stops nameSet r := by
    refine ⟨g3.takeWhile (· == 32), g3.dropWhile (· == 32) ++ (s2 ++ g4), ?_, ?_, ?_⟩
    · rw [← List.append_assoc (List.takeWhile _ _), List.takeWhile_append_dropWhile]
    · intro c hc
      have := List.all_eq_true.1 (List.all_takeWhile (l := g3) (p := (· == 32))) c hc
      simpa using this
    · intro c hc
      have hne : isAlpha c = false ∧ c ≠ 32 := by
        cases hd : g3.dropWhile (· == 32) with
        | nil =>
          rw [hd] at hc
          cases s2 with
          | nil => exact absurd rfl n2
          | cons d s2 => simp at hc; subst hc; rw [q2 d (by simp)]; decide
        | cons d q =>
          rw [hd] at hc; simp at hc; subst hc
          have h1 := List.head_dropWhile_not (p := (· == 32)) (l := g3) (by rw [hd]; simp)
          have h2 : d ∈ g3 := (List.dropWhile_suffix (p := (· == 32)) (l := g3)).subset (by rw [hd]; simp)
          have h3 := b3 d h2
          simp only [hd, List.head_cons] at h1
          refine ⟨?_, by simpa using h1⟩
          cases h4 : isAlpha d with
          | false => rfl
          | true => rw [(asp d h4).1] at h3; cases h3
      cases h : nameSet.has c with
      | false => rfl
      | true =>
        rcases (has_nameSet c).1 h with h | h
        · rw [hne.1] at h; cases h
        · exact absurd h hne.2
  obtain ⟨u, r, eu, hu, hr⟩ := split3
  rw [eu] at h5 ⊢
  rw [← List.append_assoc [f1, f2, f3, f4, f5, f6]] at h5 ⊢
  refine run_star_give nameSet r hr ([f1, f2, f3, f4, f5, f6] ++ u) ?_ name pre [] _ t ?_ ?_ ?_
  · intro c hc
    rw [has_nameSet]
    rcases List.mem_append.1 hc with hc | hc
    · exact .inl (fs c hc)
    · exact .inr (hu c hc)
  · intro c hc
    rw [has_nameSet]; exact hn c hc
  · intro a b e ha
    -- the next character is not an `f`
    have hx : ∀ c, (b ++ r).head? = some c → lowerC c ≠ 102 := by
      obtain ⟨x, a, rfl⟩ := List.exists_cons_of_ne_nil ha
      simp only [List.cons_append, List.cons.injEq, List.nil_append] at e
      obtain ⟨-, e⟩ := e
      intro c hc
      rcases a with _ | ⟨x2, a⟩
      · rw [List.nil_append] at e; rw [← e] at hc; cases hc; rw [e2]; decide
      simp only [List.cons_append, List.cons.injEq] at e
      obtain ⟨-, e⟩ := e
      rcases a with _ | ⟨x2, a⟩
      · rw [List.nil_append] at e; rw [← e] at hc; cases hc; rw [e3]; decide
      simp only [List.cons_append, List.cons.injEq] at e
      obtain ⟨-, e⟩ := e
      rcases a with _ | ⟨x2, a⟩
      · rw [List.nil_append] at e; rw [← e] at hc; cases hc; rw [e4]; decide
      simp only [List.cons_append, List.cons.injEq] at e
      obtain ⟨-, e⟩ := e
      rcases a with _ | ⟨x2, a⟩
      · rw [List.nil_append] at e; rw [← e] at hc; cases hc; rw [e5]; decide
      simp only [List.cons_append, List.cons.injEq] at e
      obtain ⟨-, e⟩ := e
      rcases a with _ | ⟨x2, a⟩
      · rw [List.nil_append] at e; rw [← e] at hc; cases hc; rw [e6]; decide
      simp only [List.cons_append, List.cons.injEq] at e
      obtain ⟨-, e⟩ := e
      intro h102
      cases b with
      | nil =>
        have := hr c hc
        have h2 := (has_nameSet c).2 (.inl (alpha c 102 (by decide) h102))
        rw [this] at h2; cases h2
      | cons d b =>
        cases hc
        rw [hu c (by rw [e]; simp)] at h102
        revert h102; decide
    show run FTail ⟨_, b ++ r, _⟩ some = none
    cases hb : b ++ r with
    | nil => rw [run_seq, run_set_nil]
    | cons c q =>
      rw [run_seq, run_set_cons, if_neg]
      intro h
      exact hx c (by rw [hb]; rfl) (has_chi_F.1 h)
  · rw [upTo_append]; exact h5

theorem wordsAux_congr {p q : Nat → Bool} : ∀ (s acc : Str), (∀ c ∈ s, p c = q c) → Str.wordsAux p acc s = Str.wordsAux q acc s
  | [], acc, _ => rfl
  | c :: s, acc, h => by
    rw [Str.wordsAux, Str.wordsAux, h c (by simp), wordsAux_congr s [] (fun d hd => h d (by simp [hd])),
      wordsAux_congr s (c :: acc) (fun d hd => h d (by simp [hd]))]

/-- The key of a block with a title. -/
theorem kind_of_gets {p : Pat} {l name : Str} {words : List Str} (ht : Gets p.re [] l [] (fun c => c = [(1, name)]))
    (hn : ∀ c ∈ name, isAlpha c = true ∨ c = c!" ") (hn0 : name.head? ≠ some (c!" ")) (hw : Fields name words) :
    kindOf p l = .ok (forceKind words) := by
  obtain ⟨m, h1, h2, -⟩ := Gets.match_ ht
  have hs := search_of_match h1
  have hg : m.group 1 = some name := by
    show (m.caps.find? _).map _ = _
    rw [h2]; rfl
  unfold kindOf
  rw [hs]
  simp only [hg]
  cases name with
  | nil =>
    have := (fields_iff _ _).1 hw
    have e : words = [] := by rw [← this]; rfl
    subst e; rfl
  | cons c name =>
    have hsplit := (fields_iff _ _).1 hw
    have key : ∀ c, isAlpha c = true ∨ c = 32 → (!isAlnum c) = isSpace c := by
      intro c h
      rcases h with h | rfl
      · have : isSpace c = false := by
          rw [isAlpha_iff] at h; simp [isSpace]; omega
        rw [this, isAlnum, h]; rfl
      · rfl
    have e : alnumWords (c :: name) = words := by
      rw [← hsplit, alnumWords]
      exact wordsAux_congr _ _ fun d hd => key d (hn d hd)
    have hne : words ≠ [] := by
      rintro rfl
      have hb := blank_of_fields hw
      have h1 := hb c (by simp)
      rcases hn c (by simp) with h | h
      · rw [isAlpha_iff] at h; simp [isSpace] at h1; omega
      · exact hn0 (by simp [h])
    show Except.ok (Key.str (normalise_key (c :: name))) = _
    rw [normalise_key_eq, e, forceKind, if_neg hne]

/-- The key of a block of forces. -/
theorem kind_title {l name : Str} {words : List Str} (h : ForceTitle l name) (hw : Fields name words) :
    kindOf Res.FORCES_BLOCK_RE l = .ok (forceKind words) := by
  have ht := force_title h
  obtain ⟨-, -, -, -, -, -, -, -, -, -, -, hn, hn0⟩ := h
  exact kind_of_gets ht hn hn0 hw

/-- A block of forces. -/
theorem forces_block {title name : Str} {words : List Str} {rd : Numeral → F64} (ht : ForceTitle title name) (hw : Fields name words)
    {ls : List Str} {rows : List AtomVec} (h : Interleaved NoDigit (fun l a => a.ForceLine l) ls rows) (hok : ∀ a ∈ rows, a.Ok)
    (hr : ∀ a ∈ rows, ∀ n ∈ [a.x, a.y, a.z], parse_float_or_rational n.text = .ok (rd n)) :
    process_forces (title :: ls) = .ok (forceKind words, .dict (Dict.ofList (rows.map (AtomVec.entry rd)))) := by
  have hc := AtomVec.collect_vecs (p := Res.ATOMIC_DATA_FORCE) (Line := fun l a => a.ForceLine l) (rd := rd)
    (fun l hl => AtomVec.search_noDigit (by rw [AF_eq]; exact fun w => AtomVec.digit_AF) hl)
    (fun l a hla hoka => by
      obtain ⟨m, h1, h2, h3⟩ := AtomVec.force_search hla hoka
      exact ⟨m, h1, h2, by rw [h3, AF_eq]⟩) h hok hr
  rw [process_forces]
  show (do let k ← kindOf Res.FORCES_BLOCK_RE title; let d ← collectDict (onSearch Res.ATOMIC_DATA_FORCE AtomVec.found) ls; pure (k, PyVal.dict d) : PyM _) = _
  rw [kind_title ht hw, hc]; rfl

/-- A block of vectors. -/
theorem atreg_block {rd : Numeral → F64}
    {ls : List Str} {rows : List AtomVec} (h : Interleaved NoDigit (fun l a => a.Line l) ls rows) (hok : ∀ a ∈ rows, a.Ok)
    (hr : ∀ a ∈ rows, ∀ n ∈ [a.x, a.y, a.z], parse_float_or_rational n.text = .ok (rd n)) :
    process_atreg_block ls = .ok (.dict (Dict.ofList (rows.map (AtomVec.entry rd)))) := by
  have hc := AtomVec.collect_vecs (p := Res.ATOMIC_DATA_3VEC) (Line := fun l a => a.Line l) (rd := rd)
    (fun l hl => AtomVec.search_noDigit (by rw [AD3_eq]; exact fun w => AtomVec.digit_AD3) hl)
    (fun l a hla hoka => by
      obtain ⟨m, h1, h2, h3⟩ := AtomVec.vec_search hla hoka
      exact ⟨m, h1, h2, by rw [h3, AD3_eq]⟩) h hok hr
  rw [process_atreg_block]
  show (do let d ← collectDict (onSearch Res.ATOMIC_DATA_3VEC AtomVec.found) ls; pure (PyVal.dict d) : PyM _) = _
  rw [hc]; rfl

/-! ### Headers with atoms -/

theorem otherLine_atom (extra : Pat) {line : Str} {a : AtomVec} {rd : Numeral → F64} (hl : a.Line line) (hok : a.Ok)
    (hr : ∀ n ∈ [a.x, a.y, a.z], parse_float_or_rational n.text = .ok (rd n)) (data coords : Dict Key PyVal) :
    Header.otherLine extra line data coords = .ok (data, coords.set (a.entry rd).1 (a.entry rd).2) := by
  obtain ⟨m, h1, h2, h3⟩ := AtomVec.vec_search hl hok
  obtain ⟨h4, h5⟩ := AtomVec.entry_of hok h2 (by rw [h3, AD3_eq]) hr
  unfold Header.otherLine
  rw [h1]
  show (do let ind ← atreg_match m; let v ← Header.vecOf m; pure (data, coords.set ind v) : PyM _) = _
  rw [h4, h5]; rfl

theorem loop_headPart (extra : Pat) (opt : Str) (he : Looks extra opt) (rd : Numeral → F64) (part : HeadPart) (ls : List Str)
    (hl : part.Lines opt ls) (hr : ∀ n ∈ part.nums, parse_float_or_rational n.text = .ok (rd n))
    (fuel : Nat) (tail : List Str) (d c : Dict Key PyVal) (hf : ls.length + tail.length < fuel) :
    ∃ fuel', tail.length < fuel' ∧ Header.loop extra fuel (ls ++ tail) d c =
      Header.loop extra fuel' tail ((part.entries opt rd).foldl (fun d kv => Dict.set d kv.1 kv.2) d)
        ((part.atoms rd).foldl (fun d kv => Dict.set d kv.1 kv.2) c) := by
  cases part with
  | atom a =>
    obtain ⟨line, rfl, h1, h2, h3, h4⟩ := hl
    cases fuel with
    | zero => omega
    | succ fuel =>
      refine ⟨fuel, by simp at hf; omega, ?_⟩
      rw [List.singleton_append, loop_other h2 h3 (otherLine_atom extra h1 h4 hr d c)]
      rfl
  | item i =>
    obtain ⟨hni, hl⟩ := hl
    exact loop_item_coords extra opt he rd i ls hni hl hr fuel tail d c hf

theorem loop_headParts (extra : Pat) (opt : Str) (he : Looks extra opt) (rd : Numeral → F64) (parts : List HeadPart)
    (lines : List (List Str)) (hl : List.Forall₂ (HeadPart.Lines opt) parts lines)
    (hr : ∀ i ∈ parts, ∀ n ∈ i.nums, parse_float_or_rational n.text = .ok (rd n)) :
    ∀ (fuel : Nat) (d c : Dict Key PyVal), lines.flatten.length < fuel →
    Header.loop extra fuel lines.flatten d c =
      .ok ((parts.flatMap (HeadPart.entries opt rd)).foldl (fun d kv => Dict.set d kv.1 kv.2) d,
        (parts.flatMap (HeadPart.atoms rd)).foldl (fun d kv => Dict.set d kv.1 kv.2) c) := by
  induction hl with
  | nil =>
    intro fuel d c hf
    cases fuel with
    | zero => simp at hf
    | succ fuel => simp [Header.loop]
  | @cons item ls items lines h1 _ ih =>
    intro fuel d c hf
    rw [List.flatten_cons, List.length_append] at hf
    obtain ⟨fuel', hf', e⟩ := loop_headPart extra opt he rd item ls h1 (hr item (by simp)) fuel lines.flatten d c hf
    rw [List.flatten_cons, e, ih (fun i hi => hr i (by simp [hi])) fuel' _ _ hf']
    rw [List.flatMap_cons, List.foldl_append, List.flatMap_cons, List.foldl_append]

/-- Types of columns that a table does not have. -/
theorem fix_absent (d : Dict Key PyVal) : ∀ (ts : List (Key × Ty)), (∀ t ∈ ts, d.get? t.1 = none) → fix_data_types d ts = .ok d
  | [], _ => rfl
  | (k, t) :: ts, h => by
    rw [fix_data_types, h (k, t) (by simp)]
    exact fix_absent d ts fun x hx => h x (by simp [hx])

theorem atom_header (extra : Pat) (opt : Str) (he : Looks extra opt) (rd : Numeral → F64) (parts : List HeadPart)
    (lines : List (List Str)) (hl : List.Forall₂ (HeadPart.Lines opt) parts lines)
    (hr : ∀ i ∈ parts, ∀ n ∈ i.nums, parse_float_or_rational n.text = .ok (rd n)) :
    parse_regular_header extra lines.flatten = .ok (atomHeader opt rd parts) := by
  have h := loop_headParts extra opt he rd parts lines hl hr (lines.flatten.length + 1) [] [] (by omega)
  rw [parse_regular_header, h]
  show (do let c ← fix_data_types (Dict.ofList (parts.flatMap (HeadPart.atoms rd))) Header.coordTypes; pure _ : PyM _) = _
  rw [fix_absent]
  · rfl
  · intro t ht
    have hk : ∃ s, t.1 = .str s := by
      simp [Header.coordTypes] at ht
      rcases ht with rfl | rfl | rfl | rfl | rfl <;> exact ⟨_, rfl⟩
    obtain ⟨s, hk⟩ := hk
    rw [hk]
    rw [Dict.get?_eq_none]
    intro hm
    rw [Dict.keys, List.mem_map] at hm
    obtain ⟨p, hp, e⟩ := hm
    obtain ⟨q, hq, e2⟩ := Efield.mem_ofList hp
    rw [List.mem_flatMap] at hq
    obtain ⟨i, -, hq⟩ := hq
    cases i with
    | item i => cases hq
    | atom x =>
      simp [HeadPart.atoms] at hq
      rw [e, hq] at e2
      cases e2

end Verif

import Verif.Lemmas.AtomVec
import Verif.Lemmas.BlockFile
import Verif.Lemmas.Scf
import Verif.Lemmas.MdFrame
import Verif.Lemmas.Tddft
import Verif.Model.CastepTables
import Verif.Spec.Mulliken
/- Mulliken populations. -/
namespace Verif
open Re NumRe AtomRe Spec

/-! ### Lines of atoms -/

/-- A name of an atom, possibly with a label, in a group of its own. -/
theorem Gets.atomL {r : Re} {i : Nat} {a : AtomName} {s w : Str} {ws : List Str} {pre caps C} (ha : a.Valid)
    (hp : Clear pre) (hs : After s (w :: ws)) (hw : w.head? ≠ some 91)
    (h : Gets r (a.text.reverse ++ pre) s ((i, a.text) :: caps) C) :
    Gets (.seq (.group i A) r) pre (a.text ++ s) caps C := by
  obtain ⟨t, h5, h6⟩ := h
  refine ⟨t, ?_, h6⟩
  rw [run_seq, run_group]
  apply run_A a ha _ _ _ _ _ (fun c hc => isSpace_not_word (hp c hc)) hs.spaceNext
  · intro _ g q e hg hq
    obtain ⟨g', s', e', h1, hg', h2, h3, h4⟩ := hs.next
    cases w with
    | nil => exact h2 rfl
    | cons d w =>
      cases q with
      | nil => cases hq
      | cons b q =>
        cases hq
        rw [e] at e'
        rcases List.append_eq_append_iff.1 e' with ⟨x, rfl, e2⟩ | ⟨x, rfl, e2⟩
        · cases x with
          | nil => simp at e2; exact hw (by simp [← e2.1])
          | cons y x =>
            have h9 : y = 91 := by
              have := congrArg List.head? e2
              simpa using this.symm
            have := h1 y (by simp)
            rw [h9] at this
            simp [isSpace] at this
        · cases x with
          | nil => simp at e2; exact hw (by simp [e2.1])
          | cons y x =>
            have h9 : y = d := by
              have := congrArg List.head? e2
              simpa using this.symm
            have := hg y (by simp)
            rw [h9, h3 d (by simp)] at this
            cases this
  · rw [upTo_append]; exact h5

theorem atomName_head {a : AtomName} (ha : a.Valid) : ∃ c s, a.text = c :: s ∧ 65 ≤ c ∧ c ≤ 90 :=
  ⟨a.up, a.low ++ AtomName.customText a.custom ++ AtomName.labelText a.label, by simp [AtomName.text], ha.1.1, ha.1.2⟩

theorem atomName_stops {a : AtomName} (ha : a.Valid) (s : Str) : Stops sp (a.text ++ s) := by
  obtain ⟨c, t, e, h1, h2⟩ := atomName_head ha
  rw [e]
  intro d hd
  cases hd
  rw [has_sp]
  simp [isSpace]
  omega

/-- The start of the line of an atom, with its number. -/
theorem Gets.atomLine {r : Re} {i j : Nat} {a : AtomName} {l d : Str} {ws : List Str} {C} (hl : IonLine l a (d :: ws)) (ha : a.Valid)
    (hd : Numeral.AllDigits d) (hne : d ≠ [])
    (h : ∀ pre s, After s ws → Gets r pre s [(j, d), (i, a.text)] C) :
    Gets (.seq (star sp) (.seq (.group i A) (.seq (plus sp) (.seq (.group j (plus dig)) r)))) [] l [] C := by
  obtain ⟨g, s, rfl, hg, hs, hf⟩ := hl
  have haft : After s (d :: ws) := ⟨hs, hf⟩
  have hd91 : d.head? ≠ some 91 := by
    cases d with
    | nil => exact absurd rfl hne
    | cons c d =>
      intro hc
      cases hc
      have := hd 91 (by simp)
      omega
  have key : Gets (.seq (.group i A) (.seq (plus sp) (.seq (.group j (plus dig)) r))) (g.reverse ++ []) (a.text ++ s) [] C := by
    refine Gets.atomL ha (clear_gap hg (.inr clear_nil)) haft hd91 ?_
    refine Gets.gap1 haft fun pre' s' hp h' => ?_
    exact Gets.digits hd hne h' (h _ _ h')
  obtain ⟨t, h5, h6⟩ := key
  refine ⟨t, ?_, h6⟩
  rw [run_seq]
  exact run_star_all sp g _ _ _ _ _ _ (fun c hc => by rw [has_sp]; exact hg c hc) (atomName_stops ha s) (by simp) h5

/-- The same where the line has to be indented. -/
theorem Gets.atomLine1 {r : Re} {i j : Nat} {a : AtomName} {l d : Str} {ws : List Str} {C} (hl : IonLine l a (d :: ws)) (ha : a.Valid)
    (hi : ∃ c s, l = c :: s ∧ isSpace c = true) (hd : Numeral.AllDigits d) (hne : d ≠ [])
    (h : ∀ pre s, After s ws → Gets r pre s [(j, d), (i, a.text)] C) :
    Gets (.seq (plus sp) (.seq (.group i A) (.seq (plus sp) (.seq (.group j (plus dig)) r)))) [] l [] C := by
  obtain ⟨g, s, rfl, hg, hs, hf⟩ := hl
  have hgne : g ≠ [] := by
    rintro rfl
    obtain ⟨c, t, e, hc⟩ := hi
    obtain ⟨c', t', e', h1, h2⟩ := atomName_head ha
    rw [List.nil_append, e', List.cons_append] at e
    injection e with e _
    rw [← e] at hc
    revert hc
    simp [isSpace]
    omega
  have haft : After s (d :: ws) := ⟨hs, hf⟩
  have hd91 : d.head? ≠ some 91 := by
    cases d with
    | nil => exact absurd rfl hne
    | cons c d =>
      intro hc
      cases hc
      have := hd 91 (by simp)
      omega
  have key : Gets (.seq (.group i A) (.seq (plus sp) (.seq (.group j (plus dig)) r))) (g.reverse ++ []) (a.text ++ s) [] C := by
    refine Gets.atomL ha (clear_gap hg (.inr clear_nil)) haft hd91 ?_
    refine Gets.gap1 haft fun pre' s' hp h' => ?_
    exact Gets.digits hd hne h' (h _ _ h')
  obtain ⟨t, h5, h6⟩ := key
  refine ⟨t, ?_, h6⟩
  rw [run_seq]
  exact run_plus_all sp 1 g _ _ _ _ _ _ (List.length_pos_iff.2 hgne) (fun c hc => by rw [has_sp]; exact hg c hc)
    (atomName_stops ha s) (by simp) h5

/-! ### Optional parts -/

/-- `r?` -/
abbrev optR (r : Re) : Re := .rep true 0 (some 1) r

theorem star_congr {q : Str} (hq : Stops sp q) {caps : List (Nat × Str)} {k k' : St → Option St}
    (h : ∀ pre g, Blank g → k ⟨pre, g ++ q, caps⟩ = k' ⟨pre, g ++ q, caps⟩) : ∀ (g pre : Str), Blank g →
    run (star sp) ⟨pre, g ++ q, caps⟩ k = run (star sp) ⟨pre, g ++ q, caps⟩ k'
  | [], pre, _ => by
    rw [List.nil_append, run_star_stop _ _ _ _ _ _ _ hq, run_star_stop _ _ _ _ _ _ _ hq]
    exact h pre [] (by intro c hc; cases hc)
  | c :: g, pre, hg => by
    rw [List.cons_append, run_star_cons _ _ (by simp) _ _ _ _ _ (by rw [has_sp]; exact hg c (by simp)),
      run_star_cons _ _ (by simp) _ _ _ _ _ (by rw [has_sp]; exact hg c (by simp)), Option.map_none,
      star_congr hq h g (c :: pre) fun x hx => hg x (by simp [hx])]
    congr 1
    exact h pre (c :: g) hg

/-- An optional literal that is not there. -/
theorem Gets.noLit {r : Re} {x : CSet} {y : Re} {i : Nat} {s pre : Str} {caps C} (hx : ∀ c, s.head? = some c → x.has c = false)
    (h : Gets r pre s caps C) : Gets (.seq (optR (.group i (.seq (.set x) y))) r) pre s caps C := by
  obtain ⟨t, h5, h6⟩ := h
  refine ⟨t, ?_, h6⟩
  rw [run_seq, run_opt_skip _ _ _ ?_]
  · exact h5
  · intro k
    rw [run_group, run_seq, run_set_stops _ hx]

/-- `\s*` and an optional literal that is not there, before a labelled number. -/
theorem Gets.gapNoLit {r : Re} {i j : Nat} {n : Numeral} {s : Str} {ws : List Str} {x : CSet} {y : Re} {pre caps C} (hs : After s (n.text :: ws))
    (hn : n.Valid) (hx : ∀ c, isSpace c = true → x.has c = false) (hx' : ∀ c, n.text.head? = some c → x.has c = false)
    (h : ∀ pre' s', After s' ws → Gets r pre' s' ((i, n.text) :: caps) C) :
    Gets (.seq (star sp) (.seq (optR (.group j (.seq (.set x) y))) (.seq (LF i) r))) pre s caps C := by
  obtain ⟨t, h5, h6⟩ := Gets.gapNum (i := i) (r := r) (pre := pre) (caps := caps) (C := C) hs hn h
  refine ⟨t, ?_, h6⟩
  obtain ⟨g, s', rfl, h1, hg, h2, h3, h4⟩ := hs.next
  rw [run_seq] at h5 ⊢
  rw [← h5]
  refine star_congr (stops_word h2 h3) ?_ g pre h1
  intro pre g' hg'
  rw [run_seq, run_opt_skip _ _ _ ?_]
  intro k
  rw [run_group, run_seq, run_set_stops]
  intro c hc
  cases g' with
  | nil =>
    cases ht : n.text with
    | nil => exact absurd ht h2
    | cons d w =>
      rw [ht] at hc
      cases hc
      exact hx' c (by rw [ht]; rfl)
  | cons d g' =>
    cases hc
    exact hx c (hg' c (by simp))

/-- An optional group of a literal that is there. -/
theorem Gets.optLit {r : Re} {i : Nat} {w s pre : Str} {caps C} (c : Nat)
    (h : Gets r ((c :: w).reverse ++ pre) s ((i, c :: w) :: caps) C) :
    Gets (.seq (optR (.group i (litRe (c :: w)))) r) pre (c :: w ++ s) caps C := by
  obtain ⟨t, h5, h6⟩ := h
  refine ⟨t, ?_, h6⟩
  rw [run_seq, run_rep_greedy, if_neg (by simp), run_group]
  have hl : ∀ (w : Str) (c : Nat) (pre : Str) (k : St → Option St),
      run (litRe (c :: w)) ⟨pre, c :: w ++ s, caps⟩ k = k ⟨(c :: w).reverse ++ pre, s, caps⟩ := by
    intro w
    induction w with
    | nil =>
      intro c pre k
      show run (.set (ch c)) _ _ = _
      rw [List.cons_append, run_set_cons, if_pos (by rw [has_ch]; simp)]
      rfl
    | cons d w ih =>
      intro c pre k
      show run (.seq (.set (ch c)) (litRe (d :: w))) _ _ = _
      rw [run_seq, List.cons_append, run_set_cons, if_pos (by rw [has_ch]; simp), ih]
      simp
  rw [hl]
  have e : run (.rep true 0 (some 0) (.group i (litRe (c :: w)))) ⟨(c :: w).reverse ++ pre, s, (i, c :: w) :: caps⟩
      (fun t => run r t some) = some t := by
    rw [run_rep_greedy, if_pos rfl, if_pos rfl, Option.none_or]; exact h5
  rw [upTo_append]
  simp only [Option.map_some, Nat.sub_self]
  rw [if_pos (by simp; omega), e]
  rfl

/-- An optional labelled number at the end. -/
theorem Gets.optNum {i : Nat} {o : Option Numeral} {s : Str} {pre caps} {C : List (Nat × Str) → Prop}
    (hs : After s (o.toList.map Numeral.text)) (hn : ∀ n ∈ o, n.Valid)
    (h : C ((o.toList.map fun n => (i, n.text)) ++ caps)) : Gets (optR (LF i)) pre s caps C := by
  cases o with
  | none =>
    refine ⟨⟨pre, s, caps⟩, ?_, h⟩
    rw [Castep.run_opt_fail]
    intro w t hst hw
    exfalso
    have hb : Blank s := blank_of_fields hs.2
    obtain ⟨u, v, rfl, -, hv⟩ := hw
    obtain ⟨c, hc, hd⟩ := Castep.digit_of_N hv
    have := hb c (by
      have := hst.post
      simp only at this
      rw [this]; simp [hc])
    revert this
    simp [isSpace]
    omega
  | some n =>
    obtain ⟨t, h5, h6⟩ := Gets.num (i := i) (r := .eps) (pre := pre) (caps := caps) (C := C) hs (hn n rfl) fun _ _ _ => Gets.eps h
    refine ⟨t, ?_, h6⟩
    rw [run_rep_greedy, if_neg (by simp)]
    rw [run_seq] at h5
    obtain ⟨g, s', rfl, h1, hg, h2, h3, h4⟩ := hs.next
    have e := run_LF i g n h1 hg (hn n rfl) pre s' caps
      (fun t => if t.post.length < (g ++ (n.text ++ s')).length then run (.rep true 0 (some 0) (LF i)) t some else none)
      ⟨(g ++ n.text).reverse ++ pre, s', (i, n.text) :: caps⟩ h4.endsNumber (by
        rw [if_pos]
        · rw [run_rep_greedy, if_pos rfl, if_pos rfl, Option.none_or]
        · simp only [List.length_append]
          have := List.length_pos_iff.2 hg
          omega)
    have e' := run_LF i g n h1 hg (hn n rfl) pre s' caps (fun t => run .eps t some)
      ⟨(g ++ n.text).reverse ++ pre, s', (i, n.text) :: caps⟩ h4.endsNumber (by simp)
    rw [e'] at h5
    cases h5
    simp only [Option.map_some, Nat.sub_self]
    rw [e]
    rfl

/-! ### The patterns -/
namespace Popn

abbrev POPN : Re := .seq (star sp) (.seq (.group 1 A) (.seq (plus sp) (.seq (.group 2 (plus dig)) (.seq (star sp)
  (.seq (optR (.group 3 (litRe (py"up:")))) (lfs 4 6 (optR (LF 10))))))))
abbrev pnames : List (Str × Nat) := [(py"spec", 1), (py"index", 2), (py"spin_sep", 3), (py"s", 4), (py"p", 5), (py"d", 6),
  (py"f", 7), (py"total", 8), (py"charge", 9), (py"spin", 10)]
theorem POPN_eq : Res.POPN_RE = ⟨POPN, pnames, 10⟩ := by decide +kernel

abbrev DN : Re := .seq (plus sp) (.seq (plus dig) (.seq (star sp) (.seq (.set (ch 100)) (.seq (.set (ch 110)) (.seq (.set (ch 58))
  (.seq (LF 1) (.seq (LF 2) (.seq (LF 3) (.seq (LF 4) (LF 5))))))))))
abbrev dnames : List (Str × Nat) := [(py"s", 1), (py"p", 2), (py"d", 3), (py"f", 4), (py"total", 5)]
theorem DN_eq : Res.POPN_RE_DN = ⟨DN, dnames, 5⟩ := by decide +kernel

/-- The groups of a match. -/
theorem groups_eq {m : Match} {names : List (Str × Nat)} {C : List (Nat × Str)} (hc : m.caps = C) (hn : m.names = names) :
    groupVals m = names.map fun p => (Key.str p.1, optStr ((C.find? (·.1 = p.2)).map (·.2))) := by
  subst hc; subst hn
  unfold groupVals Match.groupdict
  rw [List.map_map]
  rfl

theorem num_notU {n : Numeral} (hn : n.Valid) : ∀ c, n.text.head? = some c → (ch 117).has c = false := by
  intro c hc
  cases ht : n.text with
  | nil => rw [ht] at hc; cases hc
  | cons d w =>
    rw [ht] at hc
    cases hc
    have := AtomVec.numeral_char n hn c (by rw [ht]; simp)
    rw [has_ch]
    simp
    omega

/-- The captures of the first line. -/
def caps (r : PopRow) (sep : Bool) (a b c d t : Numeral) : List (Nat × Str) :=
  (r.spin.toList.map fun n => (10, n.text)) ++ [(9, r.charge.text), (8, t.text), (7, d.text), (6, c.text), (5, b.text), (4, a.text)] ++
    (if sep then [(3, py"up:")] else []) ++ [(2, r.idx), (1, r.name.text)]

theorem popn_match {r : PopRow} (hok : r.Ok) {l : Str} {sep : Bool} {a b c d t : Numeral} (hp : r.pops = [a, b, c, d, t])
    (hl : IonLine l r.name (r.idx :: ((if sep then [py"up:"] else []) ++ r.nums.map Numeral.text))) :
    ∃ m, Res.POPN_RE.match_ l = some m ∧ m.caps = caps r sep a b c d t ∧ m.names = pnames := by
  obtain ⟨h1, h2, h3, -, hv, -⟩ := hok
  rw [PopRow.nums, hp] at hv hl
  rw [POPN_eq]
  refine Gets.match_ (C := (· = caps r sep a b c d t)) ?_
  have hn : ∀ n ∈ [a, b, c, d, t, r.charge] ++ r.spin.toList, n.Valid := fun n h => (hv n (by simpa using h)).1
  have last : ∀ pre s caps', After s (r.spin.toList.map Numeral.text) →
      Gets (optR (LF 10)) pre s caps' (· = (r.spin.toList.map fun n => (10, n.text)) ++ caps') := fun pre s caps' hs =>
    Gets.optNum hs (fun n h => hn n (by simp [Option.mem_def.1 h])) rfl
  refine Gets.atomLine hl h1 h2 h3 fun pre s hs => ?_
  cases sep with
  | false =>
    refine Gets.gapNoLit (n := a) (ws := ([b, c, d, t, r.charge] ++ r.spin.toList).map Numeral.text) (by simpa using hs) (hn a (by simp))
      (fun x hx => ?_) (num_notU (hn a (by simp))) fun _ _ h => ?_
    · rw [has_ch]
      simp [isSpace] at hx ⊢
      omega
    refine Gets.num (n := b) h (hn b (by simp)) fun _ _ h => ?_
    refine Gets.num (n := c) h (hn c (by simp)) fun _ _ h => ?_
    refine Gets.num (n := d) h (hn d (by simp)) fun _ _ h => ?_
    refine Gets.num (n := t) h (hn t (by simp)) fun _ _ h => ?_
    refine Gets.num (n := r.charge) h (hn r.charge (by simp)) fun pre1 s1 h => ?_
    have := last pre1 s1 [(9, r.charge.text), (8, t.text), (7, d.text), (6, c.text), (5, b.text), (4, a.text), (2, r.idx), (1, r.name.text)] h
    simpa [caps, lfs] using this
  | true =>
    refine Gets.gap (w := py"up:") (by simpa using hs) fun pre' s' _ h => ?_
    refine Gets.optLit (w := py"p:") _ ?_
    have h : After s' (([a, b, c, d, t, r.charge] ++ r.spin.toList).map Numeral.text) := by simpa using h
    refine Gets.num (n := a) h (hn a (by simp)) fun _ _ h => ?_
    refine Gets.num (n := b) h (hn b (by simp)) fun _ _ h => ?_
    refine Gets.num (n := c) h (hn c (by simp)) fun _ _ h => ?_
    refine Gets.num (n := d) h (hn d (by simp)) fun _ _ h => ?_
    refine Gets.num (n := t) h (hn t (by simp)) fun _ _ h => ?_
    refine Gets.num (n := r.charge) h (hn r.charge (by simp)) fun pre1 s1 h => ?_
    have := last pre1 s1 [(9, r.charge.text), (8, t.text), (7, d.text), (6, c.text), (5, b.text), (4, a.text), (3, py"up:"), (2, r.idx), (1, r.name.text)] h
    simpa [caps, lfs] using this

theorem dn_match {l i : Str} {more : List Str} {a b c d t : Numeral} (hb : ∃ c s, l = c :: s ∧ isSpace c = true) (hi : Numeral.AllDigits i)
    (hl : Fields l (i :: py"dn:" :: ([a, b, c, d, t].map Numeral.text ++ more))) (hv : ∀ n ∈ [a, b, c, d, t], n.Valid) :
    ∃ m, Res.POPN_RE_DN.match_ l = some m ∧ m.caps = [(5, t.text), (4, d.text), (3, c.text), (2, b.text), (1, a.text)] ∧ m.names = dnames := by
  rw [DN_eq]
  refine Gets.match_ (C := (· = _)) ?_
  have hs : After l (i :: py"dn:" :: ([a, b, c, d, t].map Numeral.text ++ more)) := by
    obtain ⟨c, s, rfl, hc⟩ := hb
    exact ⟨fun d hd => by cases hd; exact hc, hl⟩
  refine Gets.gap1 hs fun pre s _ h => ?_
  obtain ⟨g, s', e, h1, hg, h2, h3, h4⟩ := hs.next
  refine (?_ : Gets (.seq (plus dig) _) pre (i ++ s) [] _)
  have key : Gets (.seq (star sp) (.seq (.set (ch 100)) (.seq (.set (ch 110)) (.seq (.set (ch 58))
      (.seq (LF 1) (.seq (LF 2) (.seq (LF 3) (.seq (LF 4) (LF 5))))))))) (i.reverse ++ pre) s []
      (· = [(5, t.text), (4, d.text), (3, c.text), (2, b.text), (1, a.text)]) := by
    refine Gets.gap h fun pre' s' _ h => ?_
    refine Gets.char (c := 100) (by decide) (Gets.char (c := 110) (by decide) (Gets.char (c := 58) (by decide) ?_))
    refine Gets.num (n := a) h (hv a (by simp)) fun _ _ h => ?_
    refine Gets.num (n := b) h (hv b (by simp)) fun _ _ h => ?_
    refine Gets.num (n := c) h (hv c (by simp)) fun _ _ h => ?_
    refine Gets.num (n := d) h (hv d (by simp)) fun _ _ h => ?_
    exact Gets.last (Gets.num (n := t) h (hv t (by simp)) fun _ _ h => Gets.eps rfl)
  obtain ⟨y, h5, h6⟩ := key
  refine ⟨y, ?_, h6⟩
  rw [run_seq]
  exact run_plus_all dig 1 i _ _ _ _ _ _ (List.length_pos_iff.2 h2) (fun c h => (allDigits_iff i).1 hi c h) h.endsNumber.stops (by simp) h5

/-! ### The entries -/

open Castep

theorem groups_plain {r : PopRow} {a b c d t : Numeral} {m : Match} (hc : m.caps = caps r false a b c d t) (hn : m.names = pnames) :
    groupVals m = [(.str (py"spec"), .str r.name.text), (.str (py"index"), .str r.idx), (.str (py"spin_sep"), .none),
      (.str (py"s"), .str a.text), (.str (py"p"), .str b.text), (.str (py"d"), .str c.text), (.str (py"f"), .str d.text),
      (.str (py"total"), .str t.text), (.str (py"charge"), .str r.charge.text), (.str (py"spin"), optStr (r.spin.map Numeral.text))] := by
  rw [groups_eq hc hn, caps]
  cases r.spin <;> rfl

theorem groups_sep {r : PopRow} {a b c d t : Numeral} {m : Match} (hc : m.caps = caps r true a b c d t) (hn : m.names = pnames) :
    groupVals m = [(.str (py"spec"), .str r.name.text), (.str (py"index"), .str r.idx), (.str (py"spin_sep"), .str (py"up:")),
      (.str (py"s"), .str a.text), (.str (py"p"), .str b.text), (.str (py"d"), .str c.text), (.str (py"f"), .str d.text),
      (.str (py"total"), .str t.text), (.str (py"charge"), .str r.charge.text), (.str (py"spin"), optStr (r.spin.map Numeral.text))] := by
  rw [groups_eq hc hn, caps]
  cases r.spin <;> rfl

theorem groups_dn {a b c d t : Numeral} {m : Match} (hc : m.caps = [(5, t.text), (4, d.text), (3, c.text), (2, b.text), (1, a.text)])
    (hn : m.names = dnames) :
    groupVals m = [(.str (py"s"), .str a.text), (.str (py"p"), .str b.text), (.str (py"d"), .str c.text), (.str (py"f"), .str d.text),
      (.str (py"total"), .str t.text)] := by
  rw [groups_eq hc hn]
  rfl

theorem sep_named {r : PopRow} {sep : Bool} {a b c d t : Numeral} {m : Match} (hc : m.caps = caps r sep a b c d t) (hn : m.names = pnames) :
    m.named (py"spin_sep") = if sep then some (py"up:") else Option.none := by
  rw [Castep.named_eq hc hn, caps]
  cases r.spin <;> cases sep <;> rfl

/-- The key of the atom. -/
theorem key_of {d e : Dict Key PyVal} {spec i : Str} (h1 : d.get? (.str (py"spec")) = some (.str spec))
    (h2 : d.get? (.str (py"index")) = some (.str i)) (h3 : (d.erase (.str (py"spec"))).erase (.str (py"index")) = e)
    (hd : Numeral.AllDigits i) (hne : i ≠ []) : atregKey d = .ok (.tup [.str spec, .int (Numeral.nat i)], e) := by
  have h : pyInt i = .ok (Numeral.nat i : Int) := MdFrame.intOfGroup_digits i hd hne
  unfold atregKey atreg_to_index
  simp only [h1, h2, h, h3, if_true]

theorem fix_none (d : Dict Key PyVal) (k : Key) (t : Ty) (r : List (Key × Ty)) (h : d.get? k = Option.none) :
    fix_data_types d ((k, t) :: r) = fix_data_types d r := by
  rw [fix_data_types, h]

theorem popnTypes_eq : popnTypes = [(.str (py"s"), .float), (.str (py"p"), .float), (.str (py"d"), .float), (.str (py"f"), .float),
    (.str (py"total"), .float), (.str (py"charge"), .float), (.str (py"spin"), .float),
    (.str (py"up_s"), .float), (.str (py"up_p"), .float), (.str (py"up_d"), .float), (.str (py"up_f"), .float),
    (.str (py"up_total"), .float), (.str (py"dn_s"), .float), (.str (py"dn_p"), .float), (.str (py"dn_d"), .float),
    (.str (py"dn_f"), .float), (.str (py"dn_total"), .float)] := by decide +kernel

theorem typed_plain {rd : Numeral → F64} {a b c d t ch : Numeral} {o : Option Numeral}
    (hr : ∀ n ∈ [a, b, c, d, t] ++ (ch :: o.toList), parse_float_or_rational n.text = .ok (rd n)) :
    fix_data_types [(.str (py"spin_sep"), .bool false),
      (.str (py"s"), .str a.text), (.str (py"p"), .str b.text), (.str (py"d"), .str c.text), (.str (py"f"), .str d.text),
      (.str (py"total"), .str t.text), (.str (py"charge"), .str ch.text), (.str (py"spin"), optStr (o.map Numeral.text))] popnTypes =
    .ok [(.str (py"spin_sep"), .bool false),
      (.str (py"s"), .float (rd a)), (.str (py"p"), .float (rd b)), (.str (py"d"), .float (rd c)), (.str (py"f"), .float (rd d)),
      (.str (py"total"), .float (rd t)), (.str (py"charge"), .float (rd ch)), (.str (py"spin"), ScfRow.optFloat rd o)] := by
  have ho : to_type .float (optStr (o.map Numeral.text)) = .ok (ScfRow.optFloat rd o) := Scf.optFloat_typed fun n h => hr n (by simp [Option.mem_def.1 h])
  generalize optStr (o.map Numeral.text) = ov at *
  generalize ScfRow.optFloat rd o = ow at *
  rw [popnTypes_eq, fix_some _ _ _ _ _ _ rfl (cellFloat (hr a (by simp))), fix_some _ _ _ _ _ _ rfl (cellFloat (hr b (by simp))),
    fix_some _ _ _ _ _ _ rfl (cellFloat (hr c (by simp))), fix_some _ _ _ _ _ _ rfl (cellFloat (hr d (by simp))),
    fix_some _ _ _ _ _ _ rfl (cellFloat (hr t (by simp))), fix_some _ _ _ _ _ _ rfl (cellFloat (hr ch (by simp))),
    fix_some _ _ _ _ _ _ rfl ho]
  rfl

theorem typed_sep {rd : Numeral → F64} {a b c d t ch : Numeral} {o : Option Numeral} {a' b' c' d' t' : Numeral} {x : F64}
    (hr : ∀ n ∈ [a, b, c, d, t] ++ (ch :: o.toList), parse_float_or_rational n.text = .ok (rd n))
    (hr' : ∀ n ∈ [a', b', c', d', t'], parse_float_or_rational n.text = .ok (rd n)) :
    fix_data_types [(.str (py"spin_sep"), .bool true), (.str (py"charge"), .str ch.text), (.str (py"spin"), optStr (o.map Numeral.text)),
      (.str (py"up_s"), .str a.text), (.str (py"up_p"), .str b.text), (.str (py"up_d"), .str c.text), (.str (py"up_f"), .str d.text),
      (.str (py"up_total"), .str t.text),
      (.str (py"dn_s"), .str a'.text), (.str (py"dn_p"), .str b'.text), (.str (py"dn_d"), .str c'.text), (.str (py"dn_f"), .str d'.text),
      (.str (py"dn_total"), .str t'.text), (.str (py"total"), .float x)] popnTypes =
    .ok [(.str (py"spin_sep"), .bool true), (.str (py"charge"), .float (rd ch)), (.str (py"spin"), ScfRow.optFloat rd o),
      (.str (py"up_s"), .float (rd a)), (.str (py"up_p"), .float (rd b)), (.str (py"up_d"), .float (rd c)), (.str (py"up_f"), .float (rd d)),
      (.str (py"up_total"), .float (rd t)),
      (.str (py"dn_s"), .float (rd a')), (.str (py"dn_p"), .float (rd b')), (.str (py"dn_d"), .float (rd c')), (.str (py"dn_f"), .float (rd d')),
      (.str (py"dn_total"), .float (rd t')), (.str (py"total"), .float x)] := by
  have ho : to_type .float (optStr (o.map Numeral.text)) = .ok (ScfRow.optFloat rd o) := Scf.optFloat_typed fun n h => hr n (by simp [Option.mem_def.1 h])
  generalize optStr (o.map Numeral.text) = ov at *
  generalize ScfRow.optFloat rd o = ow at *
  rw [popnTypes_eq, fix_none _ _ _ _ rfl, fix_none _ _ _ _ rfl, fix_none _ _ _ _ rfl, fix_none _ _ _ _ rfl,
    fix_some _ _ _ _ _ (.float x) rfl rfl, fix_some _ _ _ _ _ _ rfl (cellFloat (hr ch (by simp))), fix_some _ _ _ _ _ _ rfl ho,
    fix_some _ _ _ _ _ _ rfl (cellFloat (hr a (by simp))), fix_some _ _ _ _ _ _ rfl (cellFloat (hr b (by simp))),
    fix_some _ _ _ _ _ _ rfl (cellFloat (hr c (by simp))), fix_some _ _ _ _ _ _ rfl (cellFloat (hr d (by simp))),
    fix_some _ _ _ _ _ _ rfl (cellFloat (hr t (by simp))),
    fix_some _ _ _ _ _ _ rfl (cellFloat (hr' a' (by simp))), fix_some _ _ _ _ _ _ rfl (cellFloat (hr' b' (by simp))),
    fix_some _ _ _ _ _ _ rfl (cellFloat (hr' c' (by simp))), fix_some _ _ _ _ _ _ rfl (cellFloat (hr' d' (by simp))),
    fix_some _ _ _ _ _ _ rfl (cellFloat (hr' t' (by simp)))]
  rfl

/-- An atom without separate spins. -/
theorem ion_plain {rd fl : Numeral → F64} {r : PopRow} (hok : r.Ok) {a b c d t : Numeral} (hp : r.pops = [a, b, c, d, t]) (hd : r.dn = Option.none)
    (hr : ∀ n ∈ r.nums, parse_float_or_rational n.text = .ok (rd n)) {m : Match} (hc : m.caps = caps r false a b c d t) (hn : m.names = pnames)
    (rest : List Str) : popnIon m rest = .ok (r.key, .dict (r.info rd fl), rest) := by
  rw [PopRow.nums, hp] at hr
  unfold popnIon
  rw [sep_named hc hn, groups_plain hc hn]
  simp only [Bool.false_eq_true, if_false]
  show (do let (ind, mull) ← atregKey _; let mull ← fix_data_types mull popnTypes; pure (ind, PyVal.dict mull, rest) : PyM _) = _
  rw [key_of rfl rfl rfl hok.2.1 hok.2.2.1]
  show (do let mull ← fix_data_types _ popnTypes; pure (_, PyVal.dict mull, rest) : PyM _) = _
  have := typed_plain hr
  generalize optStr (r.spin.map Numeral.text) = ov at *
  show (do let mull ← fix_data_types [_, _, _, _, _, _, _, _] popnTypes; pure (_, PyVal.dict mull, rest) : PyM _) = _
  rw [this, PopRow.info, hd, hp]
  rfl

theorem up_eq : spinAliases (py"up_") = [(.str (py"s"), .str (py"up_s")), (.str (py"p"), .str (py"up_p")), (.str (py"d"), .str (py"up_d")),
    (.str (py"f"), .str (py"up_f")), (.str (py"total"), .str (py"up_total"))] := by decide +kernel
theorem dn_eq : spinAliases (py"dn_") = [(.str (py"s"), .str (py"dn_s")), (.str (py"p"), .str (py"dn_p")), (.str (py"d"), .str (py"dn_d")),
    (.str (py"f"), .str (py"dn_f")), (.str (py"total"), .str (py"dn_total"))] := by decide +kernel

theorem alias_up (s i a b c d t e o : PyVal) : (add_aliases (Dict.set [(Key.str (py"spec"), s), (.str (py"index"), i), (.str (py"spin_sep"), .str (py"up:")),
      (.str (py"s"), a), (.str (py"p"), b), (.str (py"d"), c), (.str (py"f"), d),
      (.str (py"total"), t), (.str (py"charge"), e), (.str (py"spin"), o)] (.str (py"spin_sep")) (.bool true)) (spinAliases (py"up_")) (replace := true)).1 =
    [(.str (py"spec"), s), (.str (py"index"), i), (.str (py"spin_sep"), .bool true), (.str (py"charge"), e), (.str (py"spin"), o),
      (.str (py"up_s"), a), (.str (py"up_p"), b), (.str (py"up_d"), c), (.str (py"up_f"), d), (.str (py"up_total"), t)] := by
  rw [up_eq]
  rfl

theorem alias_dn (a b c d t : PyVal) : (add_aliases [(Key.str (py"s"), a), (.str (py"p"), b), (.str (py"d"), c), (.str (py"f"), d),
      (.str (py"total"), t)] (spinAliases (py"dn_")) (replace := true)).1 =
    [(.str (py"dn_s"), a), (.str (py"dn_p"), b), (.str (py"dn_d"), c), (.str (py"dn_f"), d), (.str (py"dn_total"), t)] := by
  rw [dn_eq]
  rfl

theorem update_dn (s i a b c d t e o a' b' c' d' t' x : PyVal) :
    updateDict [(.str (py"spec"), s), (.str (py"index"), i), (.str (py"spin_sep"), x), (.str (py"charge"), e), (.str (py"spin"), o),
      (.str (py"up_s"), a), (.str (py"up_p"), b), (.str (py"up_d"), c), (.str (py"up_f"), d), (.str (py"up_total"), t)]
      [(.str (py"dn_s"), a'), (.str (py"dn_p"), b'), (.str (py"dn_d"), c'), (.str (py"dn_f"), d'), (.str (py"dn_total"), t')] =
    [(.str (py"spec"), s), (.str (py"index"), i), (.str (py"spin_sep"), x), (.str (py"charge"), e), (.str (py"spin"), o),
      (.str (py"up_s"), a), (.str (py"up_p"), b), (.str (py"up_d"), c), (.str (py"up_f"), d), (.str (py"up_total"), t),
      (.str (py"dn_s"), a'), (.str (py"dn_p"), b'), (.str (py"dn_d"), c'), (.str (py"dn_f"), d'), (.str (py"dn_total"), t')] := rfl

seal popnSpin in
theorem ion_two {m : Match} (h : m.named (py"spin_sep") = some (py"up:")) (l : Str) (rest : List Str) :
    popnIon m (l :: rest) = (do
      let mull ← popnSpin ((groupVals m).set (.str (py"spin_sep")) (.bool true)) l
      let (ind, mull) ← atregKey mull
      let mull ← fix_data_types mull popnTypes
      return (ind, .dict mull, rest)) := by
  unfold popnIon
  rw [h]
  rfl

theorem floatItem_of {d : Dict Key PyVal} {k s : Str} (h : d.get? (.str k) = some (.str s)) : floatItem d k = pyFloat s := by
  unfold floatItem
  rw [h]

/-- An atom with separate spins. -/
theorem ion_sep {rd fl : Numeral → F64} {r : PopRow} (hok : r.Ok) {a b c d t : Numeral} (hp : r.pops = [a, b, c, d, t])
    {a' b' c' d' t' : Numeral} (hd : r.dn = some [a', b', c', d', t'])
    (hr : ∀ n ∈ r.nums, parse_float_or_rational n.text = .ok (rd n)) (hr' : ∀ n ∈ [a', b', c', d', t'], parse_float_or_rational n.text = .ok (rd n))
    (hf : pyFloat t.text = .ok (fl t)) (hf' : pyFloat t'.text = .ok (fl t'))
    {m m' : Match} (hc : m.caps = caps r true a b c d t) (hn : m.names = pnames)
    {l : Str} (hl : Res.POPN_RE_DN.match_ l = some m')
    (hc' : m'.caps = [(5, t'.text), (4, d'.text), (3, c'.text), (2, b'.text), (1, a'.text)]) (hn' : m'.names = dnames)
    (rest : List Str) : popnIon m (l :: rest) = .ok (r.key, .dict (r.info rd fl), rest) := by
  rw [PopRow.nums, hp] at hr
  rw [ion_two (by rw [sep_named hc hn]; rfl), groups_sep hc hn]
  have := typed_sep (x := F64.add (fl t) (fl t')) hr hr'
  have hs : ∀ ov : PyVal, popnSpin (Dict.set [(.str (py"spec"), .str r.name.text), (.str (py"index"), .str r.idx), (.str (py"spin_sep"), .str (py"up:")),
      (.str (py"s"), .str a.text), (.str (py"p"), .str b.text), (.str (py"d"), .str c.text), (.str (py"f"), .str d.text),
      (.str (py"total"), .str t.text), (.str (py"charge"), .str r.charge.text), (.str (py"spin"), ov)] (.str (py"spin_sep")) (.bool true)) l =
      .ok [(.str (py"spec"), .str r.name.text), (.str (py"index"), .str r.idx), (.str (py"spin_sep"), .bool true),
       (.str (py"charge"), .str r.charge.text), (.str (py"spin"), ov),
      (.str (py"up_s"), .str a.text), (.str (py"up_p"), .str b.text), (.str (py"up_d"), .str c.text), (.str (py"up_f"), .str d.text),
      (.str (py"up_total"), .str t.text),
      (.str (py"dn_s"), .str a'.text), (.str (py"dn_p"), .str b'.text), (.str (py"dn_d"), .str c'.text), (.str (py"dn_f"), .str d'.text),
      (.str (py"dn_total"), .str t'.text), (.str (py"total"), .float (F64.add (fl t) (fl t')))] := by
    intro ov
    unfold popnSpin
    rw [alias_up, hl]
    simp only [groups_dn hc' hn']
    rw [alias_dn, update_dn]
    rw [floatItem_of (k := py"up_total") (s := t.text), floatItem_of (k := py"dn_total") (s := t'.text), hf, hf']
    · rfl
    · rfl
    · rfl
  generalize optStr (r.spin.map Numeral.text) = ov at *
  rw [hs]
  show (do let (ind, mull) ← atregKey _; let mull ← fix_data_types mull popnTypes; pure (ind, PyVal.dict mull, rest) : PyM _) = _
  rw [key_of rfl rfl rfl hok.2.1 hok.2.2.1]
  show (do let mull ← fix_data_types [_, _, _, _, _, _, _, _, _, _, _, _, _, _] popnTypes; pure (_, PyVal.dict mull, rest) : PyM _) = _
  rw [this, PopRow.info, hd, hp]
  rfl

/-! ### The table -/

theorem popn_digit (w : Str) (h : Lang POPN w) : ∃ c ∈ w, 48 ≤ c ∧ c ≤ 57 := by
  obtain ⟨u1, v1, rfl, -, u2, v2, rfl, -, u3, v3, rfl, -, h4⟩ := h
  obtain ⟨d, v, rfl, hd⟩ := Tddft.lang_digits h4
  exact ⟨d, by simp, hd⟩

theorem miss' {p : Pat} (hp : p.re = POPN) {l : Str} (h : NoDigit l) : p.match_ l = Option.none := by
  cases hm : p.match_ l with
  | none => rfl
  | some m =>
    obtain ⟨b, e, hl⟩ := match_found hm
    rw [hp] at hl
    obtain ⟨c, hc, hd⟩ := popn_digit _ hl
    exact absurd hd (h c (by rw [e]; simp [hc]))

theorem miss {l : Str} (h : NoDigit l) : Res.POPN_RE.match_ l = Option.none := miss' (by rw [POPN_eq]) h

theorem five {α} {l : List α} (h : l.length = 5) : ∃ a b c d t, l = [a, b, c, d, t] := by
  match l, h with
  | [a, b, c, d, t], _ => exact ⟨a, b, c, d, t, rfl⟩

set_option maxRecDepth 20000 in
theorem loop_nil (f : Nat) (d : Dict Key PyVal) : mullikenLoop (f + 1) [] d = .ok d := rfl

set_option maxRecDepth 20000 in
theorem loop_cons (f : Nat) (l : Str) (rest : List Str) (d : Dict Key PyVal) : mullikenLoop (f + 1) (l :: rest) d =
    (match Res.POPN_RE.match_ l with
    | none => mullikenLoop f rest d
    | some m => do
      let (k, v, rest) ← popnIon m rest
      mullikenLoop f rest (d.set k v)) := rfl

attribute [local irreducible] mullikenLoop

theorem loop_table {rd fl : Numeral → F64} {ls : List Str} {rows : List PopRow} (ht : PopRow.Table ls rows) (hok : ∀ r ∈ rows, r.Ok)
    (hr : ∀ n : Numeral, n.Valid → n.InRange → parse_float_or_rational n.text = .ok (rd n) ∧ pyFloat n.text = .ok (fl n)) :
    ∀ fuel, ls.length < fuel → ∀ d, mullikenLoop fuel ls d = .ok ((rows.map fun r => (r.key, .dict (r.info rd fl))).foldl (fun d kv => d.set kv.1 kv.2) d) := by
  induction ht with
  | nil => intro fuel hf d; cases fuel with | zero => cases hf | succ f => exact loop_nil f d
  | skip hl _ ih =>
    intro fuel hf d
    cases fuel with
    | zero => cases hf
    | succ f =>
      rw [loop_cons, miss hl]
      exact ih hok f (by simpa using hf) d
  | @row as ls r rs hl _ ih =>
    intro fuel hf d
    cases fuel with
    | zero => cases hf
    | succ f =>
      have ok := hok r (by simp)
      obtain ⟨a, b, c, dd, t, hp⟩ := five ok.2.2.2.1
      have hrd : ∀ n ∈ r.nums, parse_float_or_rational n.text = .ok (rd n) := fun n hn => (hr n (ok.2.2.2.2.1 n hn).1 (ok.2.2.2.2.1 n hn).2).1
      have ih := ih (fun r h => hok r (by simp [h]))
      unfold PopRow.Lines at hl
      cases hd : r.dn with
      | none =>
        rw [hd] at hl
        obtain ⟨l, rfl, hl⟩ := hl
        obtain ⟨m, h1, h2, h3⟩ := popn_match (sep := false) ok hp (by simpa using hl)
        show mullikenLoop (f + 1) (l :: ls) d = _
        rw [loop_cons, h1]
        show (do let (k, v, rest) ← popnIon m ls; mullikenLoop f rest (d.set k v) : PyM _) = _
        rw [ion_plain (fl := fl) ok hp hd hrd h2 h3]
        exact ih f (by simpa using hf) _
      | some dn =>
        rw [hd] at hl
        obtain ⟨l, l2, i, more, rfl, hl, hb, hi, hl2⟩ := hl
        have hok' := ok.2.2.2.2.2 dn (by rw [hd]; rfl)
        obtain ⟨a', b', c', d', t', rfl⟩ := five hok'.1
        obtain ⟨m, h1, h2, h3⟩ := popn_match (sep := true) ok hp (by simpa using hl)
        obtain ⟨m', h4, h5, h6⟩ := dn_match hb hi hl2 (fun n hn => (hok'.2 n hn).1)
        show mullikenLoop (f + 1) (l :: l2 :: ls) d = _
        rw [loop_cons, h1]
        show (do let (k, v, rest) ← popnIon m (l2 :: ls); mullikenLoop f rest (d.set k v) : PyM _) = _
        rw [ion_sep (fl := fl) ok hp hd hrd (fun n hn => (hr n (hok'.2 n hn).1 (hok'.2 n hn).2).1)
          (hr t (ok.2.2.2.2.1 t (by rw [PopRow.nums, hp]; simp)).1 (ok.2.2.2.2.1 t (by rw [PopRow.nums, hp]; simp)).2).2
          (hr t' (hok'.2 t' (by simp)).1 (hok'.2 t' (by simp)).2).2 h2 h3 h4 h5 h6]
        exact ih f (by simp at hf; omega) _

end Popn
end Verif

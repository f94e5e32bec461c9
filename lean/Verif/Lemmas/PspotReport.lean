import Verif.Spec.PspotReport
import Verif.Lemmas.PsEnergy
import Verif.Lemmas.Dftd
import Verif.Lemmas.AtomTables
import Verif.Lemmas.SpecPot
import Verif.Lemmas.PspotAll
import Verif.Lemmas.Header
import Verif.Lemmas.Memory
import Verif.Lemmas.CastepWhole
/-
The report on a pseudopotential.
-/
namespace Verif.Castep.PspotRep
open Verif Re NumRe AtomRe Spec Castep

abbrev bar : Re := .set (ch 124)
abbrev closed : Re := .seq (star sp) (.seq bar (.seq (star sp) .eol))
abbrev orbR : Re := .seq (.set dig) (.seq (.set PsEn.shS) (.seq (.rep true 0 (some 2) (.set dig)) (.rep true 0 (some 1) (.seq (.set (ch 47)) (plus dig)))))
def REF : Re := .seq .bol (.seq (star sp) (.seq bar (.seq (star sp) (.seq (.group 1 orbR) (.seq (star sp) (.seq (LF 2) (.seq (LF 3) closed)))))))
abbrev tailR : Re := .seq (LF 5) (.seq (star sp) (.seq (.group 6 (plus wd)) (.seq (star sp) (.seq (.group 7 (plus dig)) closed))))
def DEF : Re := .seq .bol (.seq (star sp) (.seq bar (.seq (star sp) (.seq (.group 1 (.alt (plus dig) (litRe (py"loc")))) (.seq (star sp) (.seq (.group 2 (plus dig))
  (.seq (star sp) (.seq (.rep true 0 (some 1) (.group 3 (plus dig))) (.seq (star sp) (.seq (LF 4) tailR))))))))))

theorem REF_eq : Res.PSPOT_REFERENCE_STRUC_RE = ⟨REF, [(py"orb", 1), (py"occupation", 2), (py"energy", 3)], 3⟩ := by decide +kernel
theorem DEF_eq : Res.PSPOT_DEF_RE = ⟨DEF, [(py"beta", 1), (py"l", 2), (py"j", 3), (py"e", 4), (py"Rc", 5), (py"scheme", 6), (py"norm", 7)], 7⟩ := by
  decide +kernel
theorem ELEMENT_eq : PSPOT_ELEMENT_RE = ⟨litThen (py"Element: ") (.seq (.group 1 (.seq (.set PsEn.upS) (.rep true 0 (some 2) (.set PsEn.loS)))) (.seq (plus sp)
  (litThen (py"Ionic charge: ") (.seq (.group 2 F) (.seq (plus sp) (litThen (py"Level of theory: ") (.group 3 (plus (cset [.word, .digit]))))))))),
  [(py"element", 1), (py"ionic_charge", 2), (py"level_of_theory", 3)], 3⟩ := by decide +kernel
theorem SOLVER_eq : PSPOT_SOLVER_RE = ⟨litThen (py"Atomic Solver:") (.seq (star sp) (.group 1 (plus (cset [.word, .space, .ch 45])))), [(py"solver", 1)], 1⟩ := by
  decide +kernel

theorem blank_sp {g : Str} (h : Blank g) : ∀ c ∈ g, sp.has c = true := fun c hc => by rw [has_sp]; exact h c hc

theorem gets_bol {r : Re} {s : Str} {C : List (Nat × Str) → Prop} (h : Gets r [] s [] C) : Gets (.seq .bol r) [] s [] C := by
  obtain ⟨t, h1, h2⟩ := h
  exact ⟨t, by rw [run_seq, run_bol]; exact h1, h2⟩

theorem gets_eol {pre : Str} {caps : List (Nat × Str)} {C : List (Nat × Str) → Prop} (h : C caps) : Gets .eol pre [] caps C :=
  ⟨⟨pre, [], caps⟩, by rw [run_eol]; rfl, h⟩

theorem stops_of {cs : CSet} {c : Nat} {s : Str} (h : cs.has c = false) : Stops cs (c :: s) := by
  intro d hd
  cases hd
  exact h

/-- The end of a row. -/
theorem gets_closed {g g' pre : Str} {caps : List (Nat × Str)} {C : List (Nat × Str) → Prop} (hg : Blank g) (hg' : Blank g') (h : C caps) :
    Gets closed pre (g ++ 124 :: g') caps C := by
  refine Gets.stars (blank_sp hg) (stops_of (by decide)) (Gets.char (by decide) ?_)
  have := Gets.stars (r := .eol) (cs := sp) (w := g') (s := []) (pre := 124 :: (g.reverse ++ pre)) (caps := caps) (C := C) (blank_sp hg') (by intro c hc; cases hc) (gets_eol h)
  simpa using this

/-- `\s*` before something that needs a blank itself. -/
theorem gets_give {x r : Re} {g s : Str} {pre : Str} {caps : List (Nat × Str)} {C : List (Nat × Str) → Prop} (hg : AtomVec.Gap g) (hs : Stops sp s)
    (hx : ∀ pre' : Str, run (.seq x r) ⟨pre', s, caps⟩ some = none)
    (h : ∀ c pre', isSpace c = true → Gets (.seq x r) pre' (c :: s) caps C) : Gets (.seq (star sp) (.seq x r)) pre (g ++ s) caps C := by
  obtain ⟨g0, c, rfl⟩ : ∃ g0 c, g = g0 ++ [c] := ⟨_, _, (List.dropLast_concat_getLast hg.2).symm⟩
  have hc : isSpace c = true := hg.1 c (by simp)
  obtain ⟨t, h5, h6⟩ := h c (g0.reverse ++ pre) hc
  refine ⟨t, ?_, h6⟩
  rw [run_seq]
  have := Cell.run_star_back sp c (by rw [has_sp]; exact hc) s hs g0 pre caps (fun t => run (.seq x r) t some) t
    (fun d hd => by rw [has_sp]; exact hg.1 d (by simp [hd])) (hx _) h5
  simpa using this

theorem lf_stop {i : Nat} {r : Re} {s pre : Str} {caps : List (Nat × Str)} (hs : Stops sp s) : run (.seq (LF i) r) ⟨pre, s, caps⟩ some = none := by
  rw [run_seq]
  exact Dftd.run_LF_stop _ _ _ _ _ hs

theorem num_stops {n : Numeral} (hn : n.Valid) (s : Str) : Stops sp (n.text ++ s) := by
  obtain ⟨c, r, e, hc⟩ := text_head n hn
  rw [e]
  refine stops_of ?_
  rw [has_sp]
  exact text_nospace n hn c (by rw [e]; simp)

/-- Blanks and a number after `\s*`. -/
theorem gets_num {i : Nat} {r : Re} {g s pre : Str} {n : Numeral} {caps : List (Nat × Str)} {C : List (Nat × Str) → Prop} (hg : AtomVec.Gap g) (hn : n.Valid)
    (hs : EndsNumber s) (h : ∀ pre', Gets r pre' s ((i, n.text) :: caps) C) : Gets (.seq (star sp) (.seq (LF i) r)) pre (g ++ (n.text ++ s)) caps C := by
  refine gets_give hg (num_stops hn s) (fun _ => lf_stop (num_stops hn s)) fun c pre' hc => ?_
  have := Gets.lfAt (r := r) (i := i) (g := [c]) (n := n) (s := s) (pre := pre') (caps := caps) (C := C) (by intro d hd; simp at hd; subst hd; exact hc) (by simp) hn hs (h _)
  simpa using this

theorem ends_gap {g s : Str} (h : AtomVec.Gap g) : EndsNumber (g ++ s) := BandTab.ends_space h.1 h.2

/-- The name of an orbital. -/
theorem gets_orb {r : Re} {w s pre : Str} (hw : PspotItem.Orbital w) {caps : List (Nat × Str)} {C : List (Nat × Str) → Prop}
    (hs : ∀ c, s.head? = some c → isSpace c = true) (h : Gets r (w.reverse ++ pre) s ((1, w) :: caps) C) : Gets (.seq (.group 1 orbR) r) pre (w ++ s) caps C := by
  obtain ⟨d, c, t, u, rfl, hd, hc, ht, hlen, hu⟩ := hw
  obtain ⟨x, h5, h6⟩ := h
  refine ⟨x, ?_, h6⟩
  have hsd : ∀ s : Str, (∀ c, s.head? = some c → isSpace c = true) → Stops dig s := fun s hs y hy => by
    rw [has_dig]
    cases hh : isDigit y with
    | false => rfl
    | true => exact absurd (hs y hy) (by simp [isDigit_not_space hh])
  have hcc : ∀ y ∈ py"spdf", CSet.has PsEn.shS y = true := by decide
  rw [run_seq, run_group, run_seq, List.cons_append, run_set_cons, if_pos (by rw [has_dig]; exact (isDigit_iff d).2 hd), run_seq, List.cons_append, run_set_cons,
    if_pos (hcc c hc), run_seq]
  have key : ∀ k : St → Option St, k ⟨u.reverse ++ (t.reverse ++ c :: d :: pre), s, caps⟩ = some x →
      run (.rep true 0 (some 1) (.seq (.set (ch 47)) (plus dig))) ⟨t.reverse ++ c :: d :: pre, u ++ s, caps⟩ k = some x := by
    intro k hk
    rcases hu with rfl | ⟨v, rfl, hv, hvne⟩
    · rw [Cell.Pspot.run_opt_none]
      · simpa using hk
      · intro k'
        rw [run_seq, List.nil_append]
        refine run_set_stops _ fun y hy => ?_
        rw [has_ch]
        have := hs y hy
        simp only [beq_eq_false_iff_ne]
        rintro rfl
        revert this; decide
    · refine Cell.Pspot.run_opt_some (t := ⟨(47 :: v).reverse ++ (t.reverse ++ c :: d :: pre), s, caps⟩) (by simp; omega) hk ?_
      intro k' hk'
      rw [run_seq, List.cons_append, run_set_cons, if_pos (by decide)]
      apply run_plus_all dig 1 v _ _ _ _ _ _ (by cases v with | nil => exact absurd rfl hvne | cons => simp) ((allDigits_iff v).1 hv) (hsd s hs) (by simp)
      simpa using hk'
  rw [List.append_assoc]
  refine run_star_all dig t _ _ (some 2) _ _ _ ((allDigits_iff t).1 ht) ?_ (by intro M hM; simp at hM; omega) ?_
  · rcases hu with rfl | ⟨v, rfl, -, -⟩
    · exact hsd s hs
    · exact stops_of (by decide)
  · apply key
    have := Verif.Re.upTo_append pre (d :: c :: (t ++ u)) s caps (u.reverse ++ (t.reverse ++ c :: d :: pre)) caps
    simp only [List.cons_append, List.append_assoc] at this
    simp only [this]
    simpa using h5

theorem orb_head {w : Str} (hw : PspotItem.Orbital w) (s : Str) : Stops sp (w ++ s) := by
  obtain ⟨d, c, t, u, rfl, hd, -⟩ := hw
  refine stops_of ?_
  rw [has_sp]
  exact isDigit_not_space ((isDigit_iff d).2 hd)

theorem gap_head {g s : Str} (h : AtomVec.Gap g) : ∀ c, (g ++ s).head? = some c → isSpace c = true := by
  obtain ⟨y, g2, e⟩ := List.exists_cons_of_ne_nil h.2
  intro c hc
  rw [e] at hc
  simp at hc
  subst hc
  exact h.1 _ (by rw [e]; simp)

/-- An orbital. -/
theorem orbital_match {l name : Str} {occ e : Numeral} (h : (PspotItem.orbital name occ e).Line l) (hok : (PspotItem.orbital name occ e).Ok) :
    ∃ m, Res.PSPOT_REFERENCE_STRUC_RE.match_ l = some m ∧ m.caps = [(3, e.text), (2, occ.text), (1, name)] ∧
      m.names = [(py"orb", 1), (py"occupation", 2), (py"energy", 3)] := by
  obtain ⟨g0, g1, g2, g3, ⟨g, g', rfl, hg, hg'⟩, h0, h1, h2, h3⟩ := h
  obtain ⟨hn, ho, he⟩ := hok
  have := Gets.match_ (p := ⟨REF, [(py"orb", 1), (py"occupation", 2), (py"energy", 3)], 3⟩) (C := (· = [(3, e.text), (2, occ.text), (1, name)]))
    (s := g ++ 124 :: (g0 ++ (name ++ (g1 ++ (occ.text ++ (g2 ++ (e.text ++ (g3 ++ 124 :: g')))))))) (by
      refine gets_bol (Gets.stars (blank_sp hg) (stops_of (by decide)) (Gets.char (by decide) (Gets.stars (blank_sp h0) (orb_head hn _) ?_)))
      refine gets_orb hn (gap_head h1) (gets_num h1 ho.1 (ends_gap h2) fun _ => ?_)
      exact Gets.lfAt h2.1 h2.2 he.1 (ends_gap h3) (gets_closed h3.1 hg' rfl))
  rw [REF_eq]
  simpa using this

/-- Digits in an optional group that is there. -/
theorem gets_optDigits {i : Nat} {r : Re} {w s pre : Str} {caps : List (Nat × Str)} {C : List (Nat × Str) → Prop} (hw : PspotItem.Digits w) (hs : Stops dig s)
    (h : Gets r (w.reverse ++ pre) s ((i, w) :: caps) C) : Gets (.seq (.rep true 0 (some 1) (.group i (plus dig))) r) pre (w ++ s) caps C := by
  obtain ⟨t, h5, h6⟩ := h
  refine ⟨t, ?_, h6⟩
  rw [run_seq]
  refine Cell.Pspot.run_opt_some (t := ⟨w.reverse ++ pre, s, (i, w) :: caps⟩) (by have := List.length_pos_of_ne_nil hw.2; simp; omega) h5 ?_
  intro k' hk'
  rw [run_group]
  apply run_plus_all dig 1 w _ _ _ _ _ _ (by cases w with | nil => exact absurd rfl hw.2 | cons => simp) ((allDigits_iff w).1 hw.1) hs (by simp)
  rw [Verif.Re.upTo_append]
  exact hk'

theorem run_star_sp_stop {r : Re} {s pre : Str} {caps : List (Nat × Str)} (hs : Stops sp s) : run (.seq (star sp) r) ⟨pre, s, caps⟩ some = run r ⟨pre, s, caps⟩ some := by
  rw [run_seq, run_star_stop _ _ _ _ _ _ _ hs]

/-- Digits in an optional group that is not there, before a number with a point. -/
theorem gets_noDigits {i j : Nat} {r : Re} {g s pre : Str} {n : Numeral} {caps : List (Nat × Str)} {C : List (Nat × Str) → Prop} (hg : AtomVec.Gap g)
    (hn : n.Valid) (hp : HasPoint n) (hs : EndsNumber s) (h : ∀ pre', Gets r pre' s ((j, n.text) :: caps) C) :
    Gets (.seq (star sp) (.seq (.rep true 0 (some 1) (.group i (plus dig))) (.seq (star sp) (.seq (LF j) r)))) pre (g ++ (n.text ++ s)) caps C := by
  refine gets_give hg (num_stops hn s) (fun pre' => ?_) fun c pre' hc => ?_
  · rw [run_seq, run_rep_greedy, if_neg (by simp), if_pos rfl]
    have e1 : run (.seq (star sp) (.seq (LF j) r)) ⟨pre', n.text ++ s, caps⟩ some = none := by
      rw [run_star_sp_stop (num_stops hn s), lf_stop (num_stops hn s)]
    rw [e1, Option.or_none]
    refine run_none fun w t hst hl => ?_
    split
    · rw [run_rep_greedy, if_pos (by rfl), if_pos (by rfl), Option.none_or]
      have hw : ∀ c ∈ w, isDigit c = true := by
        intro c hc
        have := ((lang_rep_set _ _ _ _ _).1 (show Lang (plus dig) w from hl)).1 c hc
        rwa [has_dig] at this
      have h46 : 46 ∈ n.text := by
        obtain ⟨sg, ip, fr, ex⟩ := n
        cases fr with
        | none => exact absurd rfl hp
        | some f => simp [Numeral.text, Numeral.fracText]
      have hpost : n.text ++ s = w ++ t.post := hst.post
      have hstop : Stops sp t.post := by
        rcases List.append_eq_append_iff.1 hpost with ⟨a, e2, e3⟩ | ⟨a, e2, e3⟩
        · exfalso
          have := hw 46 (by rw [e2]; simp [h46])
          revert this; decide
        · cases a with
          | nil =>
            exfalso
            rw [List.append_nil] at e2
            have := hw 46 (by rw [← e2]; exact h46)
            revert this; decide
          | cons d a =>
            rw [e3]
            refine stops_of ?_
            rw [has_sp]
            exact text_nospace n hn d (by rw [e2]; simp)
      obtain ⟨tp, tq, tc⟩ := t
      rw [run_star_sp_stop hstop, lf_stop hstop]
    · rfl
  · have := gets_num (i := j) (r := r) (g := [c]) (s := s) (pre := pre') (n := n) (caps := caps) (C := C) ⟨by intro d hd; simp at hd; subst hd; exact hc, by simp⟩ hn hs h
    obtain ⟨t, h5, h6⟩ := this
    refine ⟨t, ?_, h6⟩
    rw [run_seq, Cell.Pspot.run_opt_none]
    · exact h5
    · intro k'
      rw [run_group]
      refine run_plus_stop _ _ _ _ _ _ _ _ (stops_of ?_)
      rw [has_dig]
      cases hh : isDigit c with
      | false => rfl
      | true => rw [isDigit_not_space hh] at hc; cases hc

theorem dig_stops_gap {g s : Str} (h : AtomVec.Gap g) : Stops dig (g ++ s) := by
  intro y hy
  rw [has_dig]
  cases hh : isDigit y with
  | false => rfl
  | true => exact absurd (gap_head h y hy) (by simp [isDigit_not_space hh])

theorem digits_stop {w : Str} (h : PspotItem.Digits w) (s : Str) : Stops sp (w ++ s) := by
  obtain ⟨d, t, rfl⟩ := List.exists_cons_of_ne_nil h.2
  refine stops_of ?_
  rw [has_sp, isDigit_not_space ((isDigit_iff d).2 (h.1 d (by simp)))]

/-- What follows the energy of a projector. -/
theorem gets_tail {g3 g4 g5 g6 g' scheme norm pre : Str} {rc : Numeral} {caps : List (Nat × Str)} {C : List (Nat × Str) → Prop}
    (h3 : AtomVec.Gap g3) (h4 : AtomVec.Gap g4) (h5 : AtomVec.Gap g5) (h6 : Blank g6) (hg' : Blank g') (hrc : rc.Valid)
    (hsc : (∀ c ∈ scheme, isWord c = true) ∧ scheme ≠ []) (hno : PspotItem.Digits norm) (hC : C ((7, norm) :: (6, scheme) :: (5, rc.text) :: caps)) :
    Gets tailR pre (g3 ++ (rc.text ++ (g4 ++ (scheme ++ (g5 ++ (norm ++ (g6 ++ 124 :: g'))))))) caps C := by
  refine Gets.lfAt h3.1 h3.2 hrc (ends_gap h4) (Gets.stars (blank_sp h4.1) ?_ (Gets.run (fun c hc => ?_) hsc.2 ?_ (Gets.stars (blank_sp h5.1) (digits_stop hno _)
    (Gets.run ((allDigits_iff norm).1 hno.1) hno.2 ?_ (gets_closed h6 hg' hC)))))
  · obtain ⟨d, t, rfl⟩ := List.exists_cons_of_ne_nil hsc.2
    refine stops_of ?_
    rw [has_sp]
    cases hh : isSpace d with
    | false => rfl
    | true => have := isSpace_not_word hh; rw [hsc.1 d (by simp)] at this; cases this
  · simp [CSet.has, CItem.has, hsc.1 c hc]
  · intro y hy
    have := isSpace_not_word (gap_head h5 y hy)
    simp [CSet.has, CItem.has, this]
  · cases g6 with
    | nil => exact stops_of (by decide)
    | cons c g6 => exact dig_stops_gap ⟨h6, by simp⟩

abbrev names7 : List (Str × Nat) := [(py"beta", 1), (py"l", 2), (py"j", 3), (py"e", 4), (py"Rc", 5), (py"scheme", 6), (py"norm", 7)]

/-- The number of a projector. -/
theorem gets_beta {r : Re} {beta : Option Str} (hb : ∀ b, beta = some b → PspotItem.Digits b) {g s pre : Str} (hg : AtomVec.Gap g) {caps : List (Nat × Str)}
    {C : List (Nat × Str) → Prop} (h : Gets r ((PspotItem.betaText beta).reverse ++ pre) (g ++ s) ((1, PspotItem.betaText beta) :: caps) C) :
    Gets (.seq (.group 1 (.alt (plus dig) (litRe (py"loc")))) r) pre (PspotItem.betaText beta ++ (g ++ s)) caps C := by
  obtain ⟨t, h5, h6⟩ := h
  refine ⟨t, ?_, h6⟩
  rw [run_seq, run_group, run_alt]
  cases beta with
  | some b =>
    have hd := hb b rfl
    have key : run (plus dig) ⟨pre, b ++ (g ++ s), caps⟩ (fun t' => run r ⟨t'.pre, t'.post, (1, (⟨pre, b ++ (g ++ s), caps⟩ : St).upTo t') :: t'.caps⟩ some) = some t := by
      apply run_plus_all dig 1 b _ _ _ _ _ _ (by cases b with | nil => exact absurd rfl hd.2 | cons => simp) ((allDigits_iff b).1 hd.1) (dig_stops_gap hg) (by simp)
      rw [Verif.Re.upTo_append]
      exact h5
    exact congrArg (fun x => Option.or x _) key
  | none =>
    have hst : Stops dig (PspotItem.betaText none ++ (g ++ s)) := stops_of (by decide)
    rw [run_plus_stop _ _ _ _ _ _ _ _ hst, Option.none_or]
    have := Verif.Re.upTo_append pre (py"loc") (g ++ s) caps ((py"loc").reverse ++ pre) caps
    show run (.seq (.set (ch 108)) (.seq (.set (ch 111)) (.set (ch 99)))) ⟨pre, 108 :: 111 :: 99 :: (g ++ s), caps⟩ _ = _
    rw [run_seq, run_set_cons, if_pos (by decide), run_seq, run_set_cons, if_pos (by decide), run_set_cons, if_pos (by decide)]
    exact (congrArg (fun w => run r ⟨99 :: 111 :: 108 :: pre, g ++ s, (1, w) :: caps⟩ some) this).trans h5

theorem beta_stop {beta : Option Str} (hb : ∀ b, beta = some b → PspotItem.Digits b) (s : Str) : Stops sp (PspotItem.betaText beta ++ s) := by
  cases beta with
  | some b => exact digits_stop (hb b rfl) s
  | none => exact stops_of (by decide)

/-- A projector. -/
theorem projector_match {line : Str} {beta j : Option Str} {l scheme norm : Str} {e rc : Numeral}
    (h : (PspotItem.projector beta l j e rc scheme norm).Line line) (hok : (PspotItem.projector beta l j e rc scheme norm).Ok) :
    ∃ m, Res.PSPOT_DEF_RE.match_ line = some m ∧ m.caps = (7, norm) :: (6, scheme) :: (5, rc.text) :: (4, e.text) :: ((j.toList.map fun j => (3, j)) ++
      [(2, l), (1, PspotItem.betaText beta)]) ∧ m.names = names7 := by
  obtain ⟨g0, g1, g2, gj, g3, g4, g5, g6, ⟨g, g', rfl, hg, hg'⟩, h0, h1, h2, hj, h3, h4, h5, h6⟩ := h
  obtain ⟨ob, ol, oj, oe, orc, osc, ono⟩ := hok
  rw [DEF_eq]
  generalize hC : ((7, norm) :: (6, scheme) :: (5, rc.text) :: (4, e.text) :: ((j.toList.map fun j => (3, j)) ++ [(2, l), (1, PspotItem.betaText beta)])) = Cs
  have := Gets.match_ (p := ⟨DEF, names7, 7⟩) (C := (· = Cs))
    (s := g ++ 124 :: (g0 ++ (PspotItem.betaText beta ++ (g1 ++ (l ++ (g2 ++ ((match j with | some j => j ++ gj | none => []) ++ (e.text ++ (g3 ++ (rc.text ++
        (g4 ++ (scheme ++ (g5 ++ (norm ++ (g6 ++ 124 :: g'))))))))))))))) (by
      refine gets_bol (Gets.stars (blank_sp hg) (stops_of (by decide)) (Gets.char (by decide) (Gets.stars (blank_sp h0) (beta_stop ob _) ?_)))
      refine gets_beta ob h1 (Gets.stars (blank_sp h1.1) (digits_stop ol _) (Gets.run ((allDigits_iff l).1 ol.1) ol.2 (dig_stops_gap h2) ?_))
      cases j with
      | none =>
        rw [List.nil_append]
        exact gets_noDigits h2 oe.1 oe.2.2 (ends_gap h3) fun _ => gets_tail h3 h4 h5 h6 hg' orc.1 osc ono (by rw [← hC]; rfl)
      | some j =>
        rw [List.append_assoc]
        refine Gets.stars (blank_sp h2.1) (digits_stop (oj j rfl) _) (gets_optDigits (oj j rfl) (dig_stops_gap hj) ?_)
        exact gets_num hj oe.1 (ends_gap h3) fun _ => gets_tail h3 h4 h5 h6 hg' orc.1 osc ono (by rw [← hC]; rfl))
  have e : ∀ x : Str, (g0 ++ (PspotItem.betaText beta ++ (g1 ++ (l ++ (g2 ++ (x ++ (e.text ++ (g3 ++ (rc.text ++
        (g4 ++ (scheme ++ (g5 ++ (norm ++ g6))))))))))))) ++ 124 :: g' = g0 ++ (PspotItem.betaText beta ++ (g1 ++ (l ++ (g2 ++ (x ++ (e.text ++ (g3 ++ (rc.text ++
        (g4 ++ (scheme ++ (g5 ++ (norm ++ (g6 ++ 124 :: g'))))))))))))) := by intro x; simp
  rw [e]
  exact this

/-! ### Rows that are neither -/

theorem sp_blank {w : Str} (h : Lang (star sp) w) : Blank w := fun c hc => by
  have := ((lang_rep_set _ _ _ _ _).1 h).1 c hc
  rwa [has_sp] at this

set_option linter.constructorNameAsVariable false in
theorem ref_some {l : Str} {m : Match} (h : Res.PSPOT_REFERENCE_STRUC_RE.match_ l = some m) :
    ∃ u v d c r, l = u ++ 124 :: (v ++ d :: c :: r) ∧ Blank u ∧ Blank v ∧ isDigit d = true ∧ CSet.has PsEn.shS c = true := by
  obtain ⟨b, e, hl⟩ := match_found h
  rw [REF_eq] at hl
  generalize m.whole = w at e hl
  obtain ⟨_, _, rfl, rfl, u, _, rfl, hu, _, _, rfl, ⟨x, hx, rfl⟩, v, _, rfl, hv, _, y, rfl, hg, -⟩ := hl
  obtain ⟨_, _, rfl, ⟨d, hd, rfl⟩, _, z, rfl, ⟨c, hc, rfl⟩, -⟩ := (show Lang orbR _ from hg)
  rw [has_ch] at hx
  obtain rfl : x = 124 := by simpa using hx
  rw [has_dig] at hd
  exact ⟨u, v, d, c, z ++ y ++ b, by rw [e]; simp, sp_blank hu, sp_blank hv, hd, hc⟩

set_option linter.constructorNameAsVariable false in
theorem def_some {l : Str} {m : Match} (h : Res.PSPOT_DEF_RE.match_ l = some m) :
    (∃ u v d r, l = u ++ 124 :: (v ++ d :: r) ∧ Blank u ∧ Blank v ∧ (isDigit d = true ∨ d = 108)) ∧ ∃ c ∈ l, isDigit c = true := by
  obtain ⟨b, e, hl⟩ := match_found h
  rw [DEF_eq] at hl
  generalize m.whole = w at e hl
  obtain ⟨_, _, rfl, rfl, u, _, rfl, hu, _, _, rfl, ⟨x, hx, rfl⟩, v, _, rfl, hv, be, _, rfl, hb, g1, _, rfl, -, l2, y, rfl, h2, -⟩ := hl
  rw [has_ch] at hx
  obtain rfl : x = 124 := by simpa using hx
  constructor
  · have hb' : ∃ d r, be = d :: r ∧ (isDigit d = true ∨ d = 108) := by
      rcases (show Lang (plus dig) be ∨ Lang (litRe (py"loc")) be from hb) with hb | hb
      · obtain ⟨h1, h2, -⟩ := (lang_rep_set _ _ _ _ _).1 hb
        cases be with
        | nil => simp at h2
        | cons d r => exact ⟨d, r, rfl, .inl (by have := h1 d (by simp); rwa [has_dig] at this)⟩
      · obtain ⟨_, t, rfl, ⟨d, hd, rfl⟩, -⟩ := (show Lang (.seq (.set (ch 108)) (.seq (.set (ch 111)) (.set (ch 99)))) be from hb)
        rw [has_ch] at hd
        exact ⟨d, t, rfl, .inr (by simpa using hd)⟩
    obtain ⟨d, r, rfl, hd⟩ := hb'
    exact ⟨u, v, d, r ++ (g1 ++ (l2 ++ y)) ++ b, by rw [e]; simp, sp_blank hu, sp_blank hv, hd⟩
  · obtain ⟨h1, h3, -⟩ := (lang_rep_set _ _ _ _ _).1 (show Lang (plus dig) l2 from h2)
    cases l2 with
    | nil => simp at h3
    | cons d r => exact ⟨d, by rw [e]; simp, by have := h1 d (by simp); rwa [has_dig] at this⟩

theorem lang_optC {c : Nat} {w : Str} (h : Lang (Cell.Pspot.optC c) w) : w = [] ∨ w = [c] := by
  obtain ⟨h1, -, h2⟩ := (lang_rep_set _ _ _ _ _).1 h
  have := h2 1 rfl
  match w, h1, this with
  | [], _, _ => exact .inl rfl
  | [d], h1, _ =>
    have := h1 d (by simp)
    rw [has_ch] at this
    exact .inr (by simpa using this)

set_option linter.constructorNameAsVariable false in
theorem lazy_some {l : Str} {m : Match} (h : Res.PSPOT_FULL_LAZY.search l = some m) :
    (∃ d r, l = d :: r ∧ (isDigit d = true ∨ d = 45)) ∨ ∃ u d r, l = u ++ d :: r ∧ Blank u ∧ numChar d := by
  rw [Pat.search_bol _ _ (by rw [Cell.Pspot.LAZY_eq])] at h
  obtain ⟨b, e, hl⟩ := match_found h
  rw [Cell.Pspot.LAZY_eq] at hl
  generalize m.whole = w at e hl
  obtain ⟨_, _, rfl, rfl, u1, _, rfl, h1, u2, _, rfl, h2, u3, _, rfl, h3, u4, y, rfl, h4, -⟩ := hl
  rcases lang_optC h1 with rfl | rfl
  · obtain ⟨ws, rfl, -, hws, hall⟩ := h2
    have := hws 1 rfl
    match ws, this, hall with
    | [], _, _ =>
      left
      rcases lang_optC h3 with rfl | rfl
      · obtain ⟨k1, k2, -⟩ := (lang_rep_set _ _ _ _ _).1 (show Lang (plus dig) u4 from h4)
        cases u4 with
        | nil => simp at k2
        | cons d r => exact ⟨d, r ++ y ++ b, by rw [e]; simp, .inl (by have := k1 d (by simp); rwa [has_dig] at this)⟩
      · exact ⟨45, u4 ++ y ++ b, by rw [e]; simp, .inr rfl⟩
    | [x], _, hall =>
      right
      obtain ⟨g, _, rfl, hg, n, z, rfl, hn, -⟩ := hall x (by simp)
      obtain ⟨q, hq, rfl⟩ := lang_N (show Lang N n from hn)
      obtain ⟨d, r, er, hd⟩ := text_head q hq
      refine ⟨g, d, r ++ (z ++ (u3 ++ (u4 ++ y))) ++ b, by rw [e, er]; simp, fun c hc => ?_, hd⟩
      have := ((lang_rep_set _ _ _ _ _).1 hg).1 c hc
      rwa [has_sp] at this
  · exact .inl ⟨45, u2 ++ (u3 ++ (u4 ++ y)) ++ b, by rw [e]; simp, .inr rfl⟩

theorem bar_not_space : ¬ isSpace 124 = true := by decide

/-- The beginning of a row is determined. -/
theorem row_unique {g g' u v : Str} {c d : Nat} {r r' : Str} (hg : Blank g) (hg' : Blank g') (hu : Blank u) (hv : Blank v) (hc : isSpace c = false) (hd : isSpace d = false)
    (h : g ++ 124 :: (g' ++ c :: r) = u ++ 124 :: (v ++ d :: r')) : c = d ∧ r = r' := by
  obtain ⟨-, -, h⟩ := cut_unique (P := fun c => isSpace c = true) hg hu bar_not_space bar_not_space h
  obtain ⟨-, h1, h2⟩ := cut_unique (P := fun c => isSpace c = true) hg' hv (by simp [hc]) (by simp [hd]) h
  exact ⟨h1, h2⟩

theorem ref_none {l : Str} (h : NoDigit l ∨ PspotItem.Begins l) : Res.PSPOT_REFERENCE_STRUC_RE.match_ l = none := by
  cases hm : Res.PSPOT_REFERENCE_STRUC_RE.match_ l with
  | none => rfl
  | some m =>
    exfalso
    obtain ⟨u, v, d, c, r, rfl, hu, hv, hd, -⟩ := ref_some hm
    rcases h with h | ⟨g, g', x, y, e, hg, hg', hx, hnd, -⟩
    · exact h d (by simp) ((isDigit_iff d).1 hd)
    · obtain ⟨rfl, -⟩ := row_unique hu hv hg hg' (isDigit_not_space hd) hx e
      exact hnd ((isDigit_iff _).1 hd)

theorem def_none {l : Str} (h : NoDigit l ∨ PspotItem.Begins l) : Res.PSPOT_DEF_RE.match_ l = none := by
  cases hm : Res.PSPOT_DEF_RE.match_ l with
  | none => rfl
  | some m =>
    exfalso
    obtain ⟨⟨u, v, d, r, e', hu, hv, hd⟩, c, hc, hcd⟩ := def_some hm
    rcases h with h | ⟨g, g', x, y, e, hg, hg', hx, hnd, hl⟩
    · exact h c hc ((isDigit_iff c).1 hcd)
    · have hds : isSpace d = false := by
        rcases hd with hd | rfl
        · exact isDigit_not_space hd
        · decide
      obtain ⟨rfl, -⟩ := row_unique hu hv hg hg' hds hx (e'.symm.trans e)
      rcases hd with hd | hd
      · exact hnd ((isDigit_iff _).1 hd)
      · exact hl hd

set_option linter.constructorNameAsVariable false in
theorem lazy_none {l : Str} (h : NoDigit l ∨ PspotItem.Begins l) : Res.PSPOT_FULL_LAZY.search l = none := by
  rcases h with h | ⟨g, g', x, y, e, hg, hg', hx, hnd, hl⟩
  · refine AtomVec.search_noDigit (fun w hw => ?_) h
    rw [Cell.Pspot.LAZY_eq] at hw
    obtain ⟨_, _, rfl, -, u1, _, rfl, -, u2, _, rfl, -, u3, _, rfl, -, u4, y, rfl, h4, -⟩ := hw
    obtain ⟨k1, k2, -⟩ := (lang_rep_set _ _ _ _ _).1 (show Lang (plus dig) u4 from h4)
    cases u4 with
    | nil => simp at k2
    | cons d r => exact ⟨d, by simp, by have := k1 d (by simp); rw [has_dig] at this; exact (isDigit_iff d).1 this⟩
  · cases hm : Res.PSPOT_FULL_LAZY.search l with
    | none => rfl
    | some m =>
      exfalso
      rcases lazy_some hm with ⟨d, r, e2, hd⟩ | ⟨u, d, r, e2, hu, hd⟩
      · rw [e] at e2
        cases g with
        | nil =>
          injection e2 with e2 _
          subst e2
          revert hd; decide
        | cons c g =>
          injection e2 with e2 _
          subst e2
          have := hg _ List.mem_cons_self
          rcases hd with hd | rfl
          · rw [isDigit_not_space hd] at this; cases this
          · revert this; decide
      · rw [e] at e2
        have hds : ¬ isSpace d = true := by
          rcases hd with hd | rfl | rfl | rfl
          · simp [isDigit_not_space hd]
          all_goals decide
        obtain ⟨-, h2, -⟩ := cut_unique (P := fun c => isSpace c = true) hg hu bar_not_space hds e2
        subst h2
        revert hd
        simp [numChar]
        decide

/-- A projector is not taken for an orbital. -/
theorem projector_ref {line : Str} {beta j : Option Str} {l scheme norm : Str} {e rc : Numeral}
    (h : (PspotItem.projector beta l j e rc scheme norm).Line line) (hok : (PspotItem.projector beta l j e rc scheme norm).Ok) :
    Res.PSPOT_REFERENCE_STRUC_RE.match_ line = none := by
  cases hm : Res.PSPOT_REFERENCE_STRUC_RE.match_ line with
  | none => rfl
  | some m =>
    exfalso
    obtain ⟨u, v, d, c, r, e', hu, hv, hd, hc⟩ := ref_some hm
    obtain ⟨g0, g1, g2, gj, g3, g4, g5, g6, ⟨g, g', rfl, hg, hg'⟩, h0, h1, -⟩ := h
    obtain ⟨ob, -⟩ := hok
    have hcs : isSpace c = false ∧ isDigit c = false := by
      revert hc
      simp [CSet.has, CItem.has]
      rintro (rfl | rfl | rfl | rfl) <;> decide
    cases beta with
    | none =>
      rw [List.append_assoc] at e'
      obtain ⟨rfl, -⟩ := row_unique hg h0 hu hv (by decide) (isDigit_not_space hd) e'
      revert hd; decide
    | some b =>
      obtain ⟨hb1, hb2⟩ := ob b rfl
      obtain ⟨x, t, rfl⟩ := List.exists_cons_of_ne_nil hb2
      rw [List.append_assoc] at e'
      obtain ⟨-, e2⟩ := row_unique hg h0 hu hv (isDigit_not_space ((isDigit_iff x).2 (hb1 x (by simp)))) (isDigit_not_space hd) e'
      cases t with
      | nil =>
        obtain ⟨y, g7, rfl⟩ := List.exists_cons_of_ne_nil h1.2
        injection e2 with e2 _
        subst e2
        have := h1.1 _ List.mem_cons_self
        rw [hcs.1] at this; cases this
      | cons y t =>
        injection e2 with e2 _
        subst e2
        have := (isDigit_iff _).2 (hb1 _ (List.mem_cons_of_mem _ List.mem_cons_self))
        rw [hcs.2] at this; cases this

/-! ### Properties -/

/-- A group at the end of a pattern. -/
theorem gets_last {i : Nat} {cs : CSet} {w s pre : Str} {caps : List (Nat × Str)} {C : List (Nat × Str) → Prop} (hw : ∀ c ∈ w, cs.has c = true) (hne : w ≠ [])
    (hs : Stops cs s) (h : C ((i, w) :: caps)) : Gets (.group i (plus cs)) pre (w ++ s) caps C := by
  refine ⟨⟨w.reverse ++ pre, s, (i, w) :: caps⟩, ?_, h⟩
  rw [run_group]
  apply run_plus_all cs 1 w _ _ _ _ _ _ (by cases w with | nil => exact absurd rfl hne | cons => simp) hw hs (by simp)
  rw [Verif.Re.upTo_append]

theorem gets_species {i : Nat} {r : Re} {w g s pre : Str} (hw : PsEnergy.Species w) (hg : AtomVec.Gap g) {caps : List (Nat × Str)} {C : List (Nat × Str) → Prop}
    (h : Gets r (w.reverse ++ pre) (g ++ s) ((i, w) :: caps) C) :
    Gets (.seq (.group i (.seq (.set PsEn.upS) (.rep true 0 (some 2) (.set PsEn.loS)))) r) pre (w ++ (g ++ s)) caps C := by
  obtain ⟨u, lo, rfl, hu, hlen, hlo⟩ := hw
  obtain ⟨t, h5, h6⟩ := h
  refine ⟨t, ?_, h6⟩
  rw [run_seq, run_group, run_seq, List.cons_append, run_set_cons, if_pos ((PsEn.has_up u).2 hu)]
  refine run_star_all PsEn.loS lo _ _ (some 2) _ _ _ (fun y hy => (PsEn.has_lo y).2 (hlo y hy)) ?_ (by intro M hM; simp at hM; omega) ?_
  · intro z hz
    rw [Bool.eq_false_iff]
    intro h
    have h1 := (PsEn.has_lo z).1 h
    have h2 := gap_head hg z hz
    simp [isSpace] at h2
    omega
  · have eu : St.upTo ⟨pre, u :: (lo ++ (g ++ s)), caps⟩ ⟨lo.reverse ++ u :: pre, g ++ s, caps⟩ = u :: lo :=
      Verif.Re.upTo_append _ (u :: lo) (g ++ s) caps _ caps
    simp only [eu]
    simpa using h5

theorem gets_point {i : Nat} {r : Re} {n : Numeral} {s pre : Str} {caps : List (Nat × Str)} {C : List (Nat × Str) → Prop} (hn : n.Valid) (hp : HasPoint n) (he : n.exp = none)
    (hs : ∀ c, s.head? = some c → isSpace c = true) (h : Gets r (n.text.reverse ++ pre) s ((i, n.text) :: caps) C) : Gets (.seq (.group i F) r) pre (n.text ++ s) caps C := by
  obtain ⟨t, h5, h6⟩ := h
  refine ⟨t, ?_, h6⟩
  rw [run_seq, run_group]
  refine run_point hn hp _ _ _ _ _ hs ?_
  rw [mantissa_none he, he]
  have := Verif.Re.upTo_append pre n.text s caps (n.text.reverse ++ pre) caps
  simp only [Numeral.expText, List.nil_append]
  rw [this]
  exact h5

abbrev names3 : List (Str × Nat) := [(py"element", 1), (py"ionic_charge", 2), (py"level_of_theory", 3)]

theorem up_stop (c : Nat) (h : 65 ≤ c ∧ c ≤ 90) (s : Str) : Stops sp (c :: s) := by
  refine stops_of ?_
  rw [has_sp, Bool.eq_false_iff]
  intro h
  simp [isSpace] at h
  omega

theorem element_match {l name theory : Str} {charge : Numeral} (h : (PspotItem.element name charge theory).Line l) (hok : (PspotItem.element name charge theory).Ok) :
    ∃ m, PSPOT_ELEMENT_RE.search l = some m ∧ m.caps = [(3, theory), (2, charge.text), (1, name)] ∧ m.names = names3 := by
  obtain ⟨g, g0, g1, g2, r, rfl, hg, hg0, h1, h2, x, r', rfl, hx⟩ := h
  obtain ⟨hs, ⟨hv, -, hp, he⟩, ht, htne⟩ := hok
  have hu : 69 ∉ g ++ 124 :: g0 := by
    intro hm
    rw [List.mem_append, List.mem_cons] at hm
    rcases hm with hm | hm | hm
    · have := hg _ hm; revert this; decide
    · cases hm
    · have := hg0 _ hm; revert this; decide
  have := search_litAt (q := PSPOT_ELEMENT_RE) (c0 := 69) (w := py"lement: ") (r := _) (by rw [ELEMENT_eq]) hu
    (s := py"Element: " ++ (name ++ (g1 ++ (py"Ionic charge: " ++ (charge.text ++ (g2 ++ (py"Level of theory: " ++ (theory ++ x :: r'))))))))
    (C := (· = [(3, theory), (2, charge.text), (1, name)])) (by
      rw [ELEMENT_eq]
      refine Gets.lit _ _ (gets_species hs h1 (Gets.pluses (blank_sp h1.1) h1.2 (up_stop 73 (by decide) _) (Gets.lit _ _ ?_)))
      refine gets_point hv hp he (gap_head h2) (Gets.pluses (blank_sp h2.1) h2.2 (up_stop 76 (by decide) _) (Gets.lit _ _ ?_))
      refine gets_last (fun c hc => by simp [CSet.has, CItem.has, ht c hc]) htne (stops_of ?_) rfl
      have h9 := isSpace_not_word hx
      have h8 : isDigit x = false := by
        cases hh : isDigit x with
        | false => rfl
        | true => rw [isDigit_not_space hh] at hx; cases hx
      simp [CSet.has, CItem.has, h9, h8])
  rw [List.append_assoc] at this
  rw [ELEMENT_eq] at this ⊢
  exact this

theorem solver_match {l : Str} {ws : List Str} (h : (PspotItem.solver ws).Line l) (hok : (PspotItem.solver ws).Ok) :
    ∃ m t, PSPOT_SOLVER_RE.search l = some m ∧ m.named (py"solver") = some t ∧ Fields t ws := by
  obtain ⟨g, g0, v, r, rfl, hg, hg0, -, hf, hv⟩ := h
  obtain ⟨w, ws, rfl⟩ := List.exists_cons_of_ne_nil (show ws ≠ [] from hok)
  obtain ⟨g1, s', rfl, h1, h2, h3, h4⟩ := fields_next hf
  have hu : 65 ∉ g ++ 124 :: g0 := by
    intro hm
    rw [List.mem_append, List.mem_cons] at hm
    rcases hm with hm | hm | hm
    · have := hg _ hm; revert this; decide
    · cases hm
    · have := hg0 _ hm; revert this; decide
  obtain ⟨m, k1, k2, k3⟩ := search_litAt (q := PSPOT_SOLVER_RE) (c0 := 65) (w := py"tomic Solver:") (r := _) (by rw [SOLVER_eq]) hu
    (s := py"Atomic Solver:" ++ (g1 ++ ((w ++ s') ++ 124 :: r))) (C := (· = [(1, w ++ s')])) (by
      rw [SOLVER_eq]
      refine Gets.lit _ _ (Gets.stars (blank_sp h1) ?_ (gets_last (fun c hc => ?_) (by simp [h2]) (stops_of (by decide)) rfl))
      · obtain ⟨d, w, rfl⟩ := List.exists_cons_of_ne_nil h2
        refine stops_of ?_
        rw [has_sp]
        exact h3 d (by simp)
      · have := hv c (by rw [List.mem_append]; exact .inr hc)
        simp [CSet.has, CItem.has]
        tauto)
  refine ⟨m, w ++ s', ?_, ?_, Elastic.fields_cons h2 h3 h4⟩
  · rw [← k1]; congr 1; simp
  · rw [named_eq k2 (k3.trans (by rw [SOLVER_eq]))]
    rfl

theorem element_begins {l name theory : Str} {charge : Numeral} (h : (PspotItem.element name charge theory).Line l) : PspotItem.Begins l := by
  obtain ⟨g, g0, g1, g2, r, rfl, hg, hg0, -⟩ := h
  exact ⟨g, g0, 69, _, rfl, hg, hg0, by decide, by decide, by decide⟩

theorem solver_begins {l : Str} {ws : List Str} (h : (PspotItem.solver ws).Line l) : PspotItem.Begins l := by
  obtain ⟨g, g0, v, r, rfl, hg, hg0, -⟩ := h
  exact ⟨g, g0, 65, _, rfl, hg, hg0, by decide, by decide, by decide⟩

/-! ### The report -/

abbrev kRef : Key := .str (py"reference_electronic_structure")
abbrev kDef : Key := .str (py"pseudopotential_definition")

def state (os cs : List PyVal) (es : List (Key × PyVal)) : Dict Key PyVal := (kRef, .list os) :: (kDef, .list cs) :: Dict.ofList es

theorem state_set {os cs : List PyVal} {es : List (Key × PyVal)} {k : Key} {v : PyVal} (h1 : k ≠ kRef) (h2 : k ≠ kDef) :
    Dict.set (state os cs es) k v = state os cs (es ++ [(k, v)]) := by
  rw [state, state, Params.ofList_snoc, Internal.set_tail _ _ _ _ h1, Internal.set_tail _ _ _ _ h2]

/-- What is done with a line, apart from the matching. -/
def lineOf (a b : Option Match) (accum : Dict Key PyVal) (line : Str) : PyM (Dict Key PyVal) :=
  match a with
  | some m => do
    let val ← fix_data_types (groupVals m) (types [py"occupation", py"energy"] .float)
    MdGeom.appendTo accum (.str (py"reference_electronic_structure")) (.dict val)
  | none =>
    match b with
    | some m => do
      let val ← fixBeta (groupVals m)
      let val ← fix_data_types val [(.str (py"l"), .int), (.str (py"j"), .int), (.str (py"e"), .float),
        (.str (py"Rc"), .float), (.str (py"norm"), .int)]
      MdGeom.appendTo accum (.str (py"pseudopotential_definition")) (.dict val)
    | none => pspotOther accum line

theorem line_eq (accum : Dict Key PyVal) (line : Str) :
    pspotLine accum line = lineOf (Res.PSPOT_REFERENCE_STRUC_RE.match_ line) (Res.PSPOT_DEF_RE.match_ line) accum line := by
  unfold pspotLine lineOf
  generalize Res.PSPOT_REFERENCE_STRUC_RE.match_ line = a
  generalize Res.PSPOT_DEF_RE.match_ line = b
  rfl

theorem skip_both {l : Str} (h : NoDigit l ∨ PspotItem.Begins l) (d : Dict Key PyVal) : pspotLine d l = pspotOther d l := by
  rw [line_eq, ref_none h, def_none h, lineOf]

theorem isdigit_digits {s : Str} (h : PspotItem.Digits s) : Str.isdigit s = true := by
  rw [Str.isdigit]
  simp [h.2]
  exact fun c hc => (isDigit_iff c).2 (h.1 c hc)

theorem pyInt_digits {s : Str} (h : PspotItem.Digits s) : pyInt s = .ok (Numeral.nat s : ℤ) := MdFrame.intOfGroup_digits s h.1 h.2

theorem toInt {s : Str} (h : PspotItem.Digits s) : to_type .int (.str s) = .ok (.int (Numeral.nat s)) := by
  rw [to_type, typeParser, pyInt_digits h]
  rfl

theorem step {rd fl : Numeral → F64} (hrd : ∀ n : Numeral, n.Valid → n.InRange → parse_float_or_rational n.text = .ok (rd n))
    (hfl : ∀ n : Numeral, n.Valid → n.InRange → pyFloat n.text = .ok (fl n)) {it : PspotItem} {l : Str} (h : it.Line l) (hok : it.Ok)
    (os cs : List PyVal) (es : List (Key × PyVal)) :
    pspotLine (state os cs es) l = .ok (state (os ++ (it.orbitalEntry rd).toList) (cs ++ (it.projectorEntry rd).toList) (es ++ it.entries rd fl)) := by
  cases it with
  | orbital name occ e =>
    obtain ⟨m, h1, h2, h3⟩ := orbital_match h hok
    obtain ⟨-, ho, he⟩ := hok
    have hgv : groupVals m = [(.str (py"orb"), .str name), (.str (py"occupation"), .str occ.text), (.str (py"energy"), .str e.text)] := by
      rw [groupVals, Match.groupdict, h3]
      simp only [Match.group, h2]
      rfl
    rw [line_eq, h1]
    generalize Res.PSPOT_DEF_RE.match_ l = b
    rw [lineOf, hgv]
    have hfix : fix_data_types [(.str (py"orb"), .str name), (.str (py"occupation"), .str occ.text), (.str (py"energy"), .str e.text)] (types [py"occupation", py"energy"] .float) =
        .ok [(.str (py"orb"), .str name), (.str (py"occupation"), .float (rd occ)), (.str (py"energy"), .float (rd e))] := by
      show fix_data_types _ [(.str (py"occupation"), .float), (.str (py"energy"), .float)] = _
      rw [fix_some _ _ _ _ _ _ (by rfl) (LineTab.toFloat (hrd occ ho.1 ho.2)), fix_some _ _ _ _ _ _ (by rfl) (LineTab.toFloat (hrd e he.1 he.2))]
      rfl
    rw [hfix]
    simp only [Delta.ok_bind, PspotItem.orbitalEntry, PspotItem.projectorEntry, PspotItem.entries, Option.toList, List.append_nil]
    rfl
  | projector beta l' j e rc scheme norm =>
    obtain ⟨m, h1, h2, h3⟩ := projector_match h hok
    have h0 := projector_ref h hok
    obtain ⟨ob, ol, oj, oe, orc, osc, ono⟩ := hok
    have hgv : groupVals m = [(.str (py"beta"), .str (PspotItem.betaText beta)), (.str (py"l"), .str l'), (.str (py"j"), optStr j), (.str (py"e"), .str e.text),
        (.str (py"Rc"), .str rc.text), (.str (py"scheme"), .str scheme), (.str (py"norm"), .str norm)] := by
      rw [groupVals, Match.groupdict, h3]
      simp only [Match.group, h2]
      cases j <;> rfl
    rw [line_eq, h0, h1, lineOf, hgv]
    have hbeta : ∀ rest : List (Key × PyVal), fixBeta ((.str (py"beta"), .str (PspotItem.betaText beta)) :: rest) =
        .ok ((.str (py"beta"), PspotItem.wholeOr (.str (py"loc")) beta) :: rest) := by
      intro rest
      cases beta with
      | none => rfl
      | some b =>
        show (if Str.isdigit b then _ else _) = _
        rw [if_pos (isdigit_digits (ob b rfl)), PspotItem.betaText, pyInt_digits (ob b rfl)]
        rfl
    rw [hbeta]
    simp only [Delta.ok_bind]
    have hj : to_type .int (optStr j) = .ok (PspotItem.wholeOr .none j) := by
      cases j with
      | none => rfl
      | some j => exact toInt (oj j rfl)
    rw [fix_some _ _ _ _ _ _ (by rfl) (toInt ol), fix_some _ _ _ _ _ _ (by rfl) hj, fix_some _ _ _ _ _ _ (by rfl) (LineTab.toFloat (hrd e oe.1 oe.2.1)),
      fix_some _ _ _ _ _ _ (by rfl) (LineTab.toFloat (hrd rc orc.1 orc.2)), fix_some _ _ _ _ _ _ (by rfl) (toInt ono)]
    simp only [PspotItem.orbitalEntry, PspotItem.projectorEntry, PspotItem.entries, Option.toList, List.append_nil]
    rfl
  | element name charge theory =>
    obtain ⟨m, h1, h2, h3⟩ := element_match h hok
    rw [skip_both (.inr (element_begins h)), pspotOther, h1]
    dsimp only
    obtain ⟨-, ⟨hv, hr, -⟩, -⟩ := hok
    have g1 : grpFloat m (py"ionic_charge") = .ok (.float (fl charge)) := by
      rw [grpFloat, grp, named_eq h2 h3]; exact LineTab.floatV_ok (hfl charge hv hr)
    have hgv : (groupVals m).set (.str (py"ionic_charge")) (.float (fl charge)) =
        [(.str (py"element"), .str name), (.str (py"ionic_charge"), .float (fl charge)), (.str (py"level_of_theory"), .str theory)] := by
      rw [groupVals, Match.groupdict, h3]
      simp only [Match.group, h2]
      rfl
    rw [g1]
    simp only [Delta.ok_bind]
    rw [hgv]
    simp only [updateDict, List.foldl, PspotItem.orbitalEntry, PspotItem.projectorEntry, PspotItem.entries, Option.toList, List.append_nil]
    rw [state_set (by decide) (by decide), state_set (by decide) (by decide), state_set (by decide) (by decide)]
    simp only [List.append_assoc, List.cons_append, List.nil_append]
    rfl
  | solver ws =>
    obtain ⟨m, t, h1, h2, h3⟩ := solver_match h hok
    rw [skip_both (.inr (solver_begins h)), pspotOther]
    obtain ⟨g, g0, v, r, -, -, -, hne, -⟩ := h
    rw [search_noLit (q := PSPOT_ELEMENT_RE) (by rw [ELEMENT_eq]) hne]
    dsimp only
    rw [h1]
    dsimp only
    rw [h2, Option.getD_some, normalise_words h3, state_set (by decide) (by decide)]
    simp only [PspotItem.orbitalEntry, PspotItem.projectorEntry, PspotItem.entries, Option.toList, List.append_nil]
  | augmentation ns =>
    obtain ⟨hb, hne, hns, ho, hn⟩ := h
    rw [skip_both (.inr hb), pspotOther, search_noLit (q := PSPOT_ELEMENT_RE) (by rw [ELEMENT_eq]) hne]
    dsimp only
    rw [search_noLit (q := PSPOT_SOLVER_RE) (by rw [SOLVER_eq]) hns]
    dsimp only
    rw [lazy_none (.inr hb)]
    dsimp only
    rw [if_pos ((Str.contains_iff _ _).2 ho), numbersOf_of hn (fun n hm => (hok n hm).1) (fun n hm => hrd n (hok n hm).1 (hok n hm).2)]
    simp only [Delta.ok_bind]
    rw [state_set (by decide) (by decide)]
    simp only [PspotItem.orbitalEntry, PspotItem.projectorEntry, PspotItem.entries, Option.toList, List.append_nil]
    rfl
  | correction ns =>
    obtain ⟨hb, hne, hns, hna, ho, hn⟩ := h
    rw [skip_both (.inr hb), pspotOther, search_noLit (q := PSPOT_ELEMENT_RE) (by rw [ELEMENT_eq]) hne]
    dsimp only
    rw [search_noLit (q := PSPOT_SOLVER_RE) (by rw [SOLVER_eq]) hns]
    dsimp only
    rw [lazy_none (.inr hb)]
    dsimp only
    rw [if_neg (fun h => hna ((Str.contains_iff _ _).1 h)), if_pos ((Str.contains_iff _ _).2 ho),
      numbersOf_of hn (fun n hm => (hok n hm).1) (fun n hm => hrd n (hok n hm).1 (hok n hm).2)]
    simp only [Delta.ok_bind]
    rw [state_set (by decide) (by decide)]
    simp only [PspotItem.orbitalEntry, PspotItem.projectorEntry, PspotItem.entries, Option.toList, List.append_nil]
    rfl
  | other =>
    obtain ⟨hb, hne, hns, hna, hnc⟩ := h
    rw [skip_both hb, pspotOther, search_noLit (q := PSPOT_ELEMENT_RE) (by rw [ELEMENT_eq]) hne]
    dsimp only
    rw [search_noLit (q := PSPOT_SOLVER_RE) (by rw [SOLVER_eq]) hns]
    dsimp only
    rw [lazy_none hb]
    dsimp only
    rw [if_neg (fun h => hna ((Str.contains_iff _ _).1 h)), if_neg (fun h => hnc ((Str.contains_iff _ _).1 h))]
    simp only [PspotItem.orbitalEntry, PspotItem.projectorEntry, PspotItem.entries, Option.toList, List.append_nil]

theorem fold {rd fl : Numeral → F64} (hrd : ∀ n : Numeral, n.Valid → n.InRange → parse_float_or_rational n.text = .ok (rd n))
    (hfl : ∀ n : Numeral, n.Valid → n.InRange → pyFloat n.text = .ok (fl n)) {items : List PspotItem} {ls : List Str}
    (h : List.Forall₂ PspotItem.Line items ls) :
    (∀ i ∈ items, i.Ok) → ∀ os cs es, foldLines pspotLine (state os cs es) ls =
      .ok (state (os ++ items.filterMap (PspotItem.orbitalEntry rd)) (cs ++ items.filterMap (PspotItem.projectorEntry rd)) (es ++ items.flatMap (PspotItem.entries rd fl))) := by
  induction h with
  | nil => intro _ os cs es; simp [foldLines]
  | @cons i l items ls hl _ ih =>
    intro hok os cs es
    rw [foldLines_cons (h := step hrd hfl hl (hok i (by simp)) os cs es), ih fun i hi => hok i (by simp [hi])]
    cases h1 : i.orbitalEntry rd <;> cases h2 : i.projectorEntry rd <;> simp [h1, h2]

theorem fold_skip {σ : Type} {f : σ → Str → PyM σ} {l : Str} (h : ∀ d, f d l = .ok d) (before after : List Str) :
    ∀ d, foldLines f d (before ++ l :: after) = foldLines f d (before ++ after) := by
  induction before with
  | nil => intro d; exact foldLines_cons _ _ _ _ _ (h d)
  | cons x before ih =>
    intro d
    rw [List.cons_append, List.cons_append, foldLines, foldLines]
    exact congrArg _ (funext ih)

end Verif.Castep.PspotRep

import Verif.Spec.Tddft
import Verif.Lemmas.Efield
import Verif.Lemmas.AtomVec
import Verif.Lemmas.Scf
import Verif.Lemmas.CellBlocks
import Verif.Lemmas.Phonon
/-
`.tddft` files.
-/
namespace Verif.Tddft
open Re NumRe AtomRe Spec

abbrev dotS : CSet := ⟨true, [.ch 10], false⟩

theorem STATE_eq : Res.TDDFT_STATE_RE = ⟨.seq (star sp) (.seq (.group 1 (plus dig)) (.seq (star sp) (.seq (.group 2 (plus dig)) (.seq (star sp)
    (.seq (.set (ch 45)) (.seq (.set (ch 45)) (.seq (.set (ch 62)) (.seq (star sp) (.seq (.group 3 (plus dig)) (.seq (star sp) (LF 4))))))))))),
    [(py"state", 1), (py"occ", 2), (py"unocc", 3), (py"overlap", 4)], 4⟩ := by decide +kernel

theorem SPEC_names : SPEC_RE.names = [(py"energy", 1), (py"characterisation", 2), (py"converged", 3), (py"dipoles", 4)] := by decide +kernel

theorem TOTAL_re : TOTAL_RE.re = .seq (star sp) (litRe (py"Total overlap for state")) := by decide +kernel

theorem SPEC_re : SPEC_RE.re = .seq (star sp) (.seq (plus dig) (.seq (star sp) (.seq (LF 1) (.seq (star sp) (.seq (.group 2 (plus wd)) (.seq (star sp)
    (.seq (.group 3 (.alt (litRe (py"Yes")) (litRe (py"No")))) (.seq (star sp) (.group 4 (star dotS)))))))))) := by decide +kernel

/-! ### Texts -/

theorem natural_text {n : Numeral} (h : IsNatural n) : Numeral.AllDigits n.text ∧ n.text ≠ [] := by
  obtain ⟨⟨h1, h2, h3, h4⟩, ⟨h5, h6⟩, h7⟩ := h
  have e : n.text = n.ip := by rw [Numeral.text, h5, h6, h7]; simp [Numeral.signText, Numeral.fracText, Numeral.expText]
  rw [h5] at h3
  rw [e]
  exact ⟨h1, by simpa using h3⟩

theorem natural_int {n : Numeral} (h : IsNatural n) : pyInt n.text = .ok (intOf n) := (pyInt_isInt n h.1 h.2.1).1

theorem run_litRe {β : Type} (k : St → Option β) (caps : List (Nat × Str)) : ∀ (s pre rest : Str),
    run (litRe s) ⟨pre, s ++ rest, caps⟩ k = k ⟨s.reverse ++ pre, rest, caps⟩
  | [], pre, rest => by simp [litRe]
  | [c], pre, rest => by
    rw [litRe, List.singleton_append, run_set_cons, if_pos (by simp [CSet.has, CItem.has])]
    rfl
  | c :: d :: s, pre, rest => by
    rw [litRe, run_seq, List.cons_append, run_set_cons, if_pos (by simp [CSet.has, CItem.has]), run_litRe k caps (d :: s) (c :: pre) rest]
    · simp
    · simp

theorem no_start {p : Pat} {r : Re} (hp : p.re = .seq (star sp) r) (hr : ∀ w, Lang r w → ∃ d v, w = d :: v ∧ 48 ≤ d ∧ d ≤ 57) {l : Str}
    (h : NoNumber l) : p.match_ l = none := by
  rw [Pat.match_]
  apply Cell.matchAt_none_of_lang hp
  intro w v e hl
  obtain ⟨u, u', rfl, h1, h2⟩ := hl
  obtain ⟨d, v', rfl, hd⟩ := hr _ h2
  have h1 := ((lang_rep_set _ _ _ _ _).1 h1).1
  exact h u d (v' ++ v) (by rw [e]; simp) (fun c hc => by have := h1 c hc; rwa [has_sp] at this) hd

theorem lang_digits {i : Nat} {r : Re} {w : Str} (h : Lang (.seq (.group i (plus dig)) r) w) : ∃ d v, w = d :: v ∧ 48 ≤ d ∧ d ≤ 57 := by
  obtain ⟨u, v, rfl, h1, -⟩ := h
  have h1 : Lang (plus dig) u := h1
  obtain ⟨h2, h3, -⟩ := (lang_rep_set _ _ _ _ _).1 h1
  cases u with
  | nil => simp at h3
  | cons d u =>
    refine ⟨d, u ++ v, rfl, ?_⟩
    have := h2 d (by simp)
    rw [has_dig] at this
    exact (isDigit_iff d).1 this

theorem lang_digits' {r : Re} {w : Str} (h : Lang (.seq (plus dig) r) w) : ∃ d v, w = d :: v ∧ 48 ≤ d ∧ d ≤ 57 :=
  lang_digits (i := 0) (r := r) h

theorem state_none {l : Str} (h : NoNumber l) : Res.TDDFT_STATE_RE.match_ l = none := by
  rw [STATE_eq]
  exact no_start rfl (fun _ hw => lang_digits hw) h

theorem spec_none {l : Str} (h : NoNumber l) : SPEC_RE.match_ l = none :=
  no_start SPEC_re (fun _ hw => lang_digits' hw) h

theorem total_none {l : Str} (h : ¬ TotalStart l) : (TOTAL_RE.match_ l).isSome = false := by
  rw [Pat.match_, Cell.matchAt_none_of_lang TOTAL_re]; rfl
  intro w v e hl
  obtain ⟨u, u', rfl, h1, h2⟩ := hl
  rw [lang_lit] at h2
  have h1 := ((lang_rep_set _ _ _ _ _).1 h1).1
  exact h ⟨u, v, fun c hc => by have := h1 c hc; rwa [has_sp] at this, by rw [e, h2, List.append_assoc]⟩

theorem total_some {l : Str} (h : TotalStart l) : (TOTAL_RE.match_ l).isSome = true := by
  obtain ⟨g, r, hg, rfl⟩ := h
  have : Gets TOTAL_RE.re [] (g ++ (py"Total overlap for state" ++ r)) [] fun _ => True := by
    rw [TOTAL_re]
    refine ⟨⟨(py"Total overlap for state").reverse ++ (g.reverse ++ []), r, []⟩, ?_, trivial⟩
    rw [run_seq]
    refine run_star_all sp g _ _ _ _ _ _ (fun c hc => by rw [has_sp]; exact hg c hc) ?_ (by simp) (run_litRe _ _ _ _ _)
    intro c hc
    simp at hc; subst hc; decide
  obtain ⟨m, hm, -⟩ := this.match_
  rw [hm]; rfl

theorem total_noNumber {l : Str} (h : TotalStart l) : NoNumber l := by
  obtain ⟨g, r, hg, rfl⟩ := h
  intro g' d r' e hg' hd
  have hsd : isSpace d = false := by
    simp [isSpace]; omega
  have key : ∀ (g g' : Str), Blank g → Blank g' → ∀ s, g ++ (84 :: s) = g' ++ d :: r' → d = 84 := by
    intro g
    induction g with
    | nil =>
      intro g' _ hg' s e
      cases g' with
      | nil => simp at e; exact e.1.symm
      | cons c g' =>
        have := hg' c (by simp)
        simp at e
        rw [← e.1] at this
        simp [isSpace] at this
    | cons c g ih =>
      intro g' hg hg' s e
      cases g' with
      | nil =>
        have := hg c (by simp)
        simp at e
        rw [e.1, hsd] at this
        cases this
      | cons c' g' =>
        simp at e
        exact ih g' (fun x hx => hg x (by simp [hx])) (fun x hx => hg' x (by simp [hx])) s e.2
  have := key g g' hg hg' _ e
  omega

/-! ### States -/

set_option maxRecDepth 20000 in
theorem overlaps_cons (line : Str) (rest : List Str) (curr : Dict Key PyVal) (out : List PyVal) : overlaps (line :: rest) curr out = (
    match Res.TDDFT_STATE_RE.match_ line with
    | some m => do
      let (k, v) ← state m
      overlaps rest (curr.set k v) out
    | none =>
      if (TOTAL_RE.match_ line).isSome then do
        let t ← total line
        overlaps rest [] (out ++ [.dict (curr.set (.str (py"total")) t)])
      else overlaps rest curr out) := rfl

theorem state_of {fl : Numeral → F64} {l : Str} {t : TdTrans} (h : TdTrans.Line l t) (hk : t.Ok) (hf : pyFloat t.overlap.text = .ok (fl t.overlap)) :
    ∃ m, Res.TDDFT_STATE_RE.match_ l = some m ∧ state m = .ok (t.entry fl) := by
  obtain ⟨more, hl⟩ := h
  obtain ⟨k1, k2, k3, k4, k5⟩ := hk
  have : Gets Res.TDDFT_STATE_RE.re [] l [] fun caps => caps = [(4, t.overlap.text), (3, t.unocc.text), (2, t.occ.text), (1, t.state.text)] := by
    rw [STATE_eq]
    dsimp only
    refine Gets.start hl clear_nil fun pre s _ hs => ?_
    refine Gets.digits (natural_text k1).1 (natural_text k1).2 hs ?_
    refine Gets.gap hs fun pre s _ hs => ?_
    refine Gets.digits (natural_text k2).1 (natural_text k2).2 hs ?_
    refine Gets.gap hs fun pre s _ hs => ?_
    refine Gets.char (by decide) (Gets.char (by decide) (Gets.char (by decide) ?_))
    refine Gets.gap hs fun pre s _ hs => ?_
    refine Gets.digits (natural_text k3).1 (natural_text k3).2 hs ?_
    refine Gets.last (Gets.assoc ?_)
    exact Gets.gapNum hs k4 fun pre s hs => Gets.eps rfl
  obtain ⟨m, hm, hc, hn⟩ := this.match_
  refine ⟨m, hm, ?_⟩
  rw [STATE_eq] at hn
  have e4 : m.named (py"overlap") = some t.overlap.text := by unfold Match.named Match.group; rw [hn, hc]; rfl
  have e2 : m.named (py"occ") = some t.occ.text := by unfold Match.named Match.group; rw [hn, hc]; rfl
  have e3 : m.named (py"unocc") = some t.unocc.text := by unfold Match.named Match.group; rw [hn, hc]; rfl
  rw [state, e4, e2, e3]
  simp only [Option.getD_some, hf, natural_int k2, natural_int k3]
  rfl

theorem overlaps_trans {fl : Numeral → F64} {body : List Str} {ts : List TdTrans} (h : Interleaved TdState.Note TdTrans.Line body ts)
    (hk : ∀ t ∈ ts, t.Ok) (hf : ∀ t ∈ ts, pyFloat t.overlap.text = .ok (fl t.overlap)) (rest : List Str) :
    ∀ (curr : Dict Key PyVal) (out : List PyVal),
      overlaps (body ++ rest) curr out = overlaps rest (ts.foldl (fun d t => d.set (t.entry fl).1 (t.entry fl).2) curr) out := by
  induction h with
  | nil => intro curr out; rfl
  | skip hn _ ih =>
    intro curr out
    rw [List.cons_append, overlaps_cons, state_none hn.1, total_none hn.2]
    exact ih hk hf curr out
  | @row l ls t ts hr _ ih =>
    intro curr out
    obtain ⟨m, hm, hs⟩ := state_of hr (hk t (by simp)) (hf t (by simp))
    rw [List.cons_append, overlaps_cons, hm]
    dsimp only
    rw [hs]
    exact ih (fun t ht => hk t (by simp [ht])) (fun t ht => hf t (by simp [ht])) _ out

theorem total_of {fl : Numeral → F64} {l : Str} {ns : List Numeral} {n : Numeral} (h : HasNumbers l ns) (hv : ∀ n ∈ ns, n.Valid)
    (hl : ns.getLast? = some n) (hf : pyFloat n.text = .ok (fl n)) : total l = .ok (.float (fl n)) := by
  rw [total, get_numbers_has h hv, List.getLast?_map, hl]
  dsimp only [Option.map_some]
  rw [hf]; rfl

theorem overlaps_states {fl : Numeral → F64} {ss : List (List Str)} {states : List TdState} (h : List.Forall₂ TdState.Lines ss states)
    (hk : ∀ s ∈ states, s.Ok) (hf : ∀ n : Numeral, n.Valid → n.InRange → pyFloat n.text = .ok (fl n)) (tail : List Str) :
    ∀ out, overlaps (ss.flatten ++ tail) [] out = overlaps tail [] (out ++ states.map (TdState.value fl)) := by
  induction h with
  | nil => intro out; simp
  | @cons ls s ss states hs _ ih =>
    intro out
    obtain ⟨body, last, ns, rfl, h1, h2, h3, h4, h5⟩ := hs
    obtain ⟨k1, k2, k3⟩ := hk s (by simp)
    rw [List.flatten_cons, List.append_assoc, List.append_assoc, overlaps_trans (fl := fl) h1 k1 (fun t ht => hf _ (k1 t ht).2.2.2.1 (k1 t ht).2.2.2.2),
      List.singleton_append, overlaps_cons, state_none (total_noNumber h2), total_some h2]
    dsimp only [if_true]
    rw [if_pos rfl, total_of h3 h4 h5 (hf _ k2 k3)]
    show overlaps (ss.flatten ++ tail) [] _ = _
    rw [ih fun s hs => hk s (by simp [hs]), List.append_assoc]
    congr 2
    rw [List.map_cons, List.singleton_append]
    congr 1
    rw [TdState.value, Dict.ofList, List.foldl_map]

theorem overlaps_tail {tail : List Str} (h : ∀ l ∈ tail, TdState.Note l) : ∀ curr out, overlaps tail curr out = .ok out := by
  induction tail with
  | nil => intro curr out; rfl
  | cons l tail ih =>
    intro curr out
    rw [overlaps_cons, state_none (h l (by simp)).1, total_none (h l (by simp)).2]
    exact ih (fun l hl => h l (by simp [hl])) curr out

/-! ### Excitations -/

theorem gapAt {r : Re} {g s pre : Str} {caps C} (hg : Blank g) (hs : Stops sp s) (h : ∀ pre', Clear pre' ∨ g = [] → Gets r pre' s caps C) :
    Gets (.seq (star sp) r) pre (g ++ s) caps C := by
  obtain ⟨t, h5, h6⟩ := h (g.reverse ++ pre) (by
    cases g with
    | nil => exact .inr rfl
    | cons c g => exact .inl (clear_gap hg (.inl (by simp))))
  refine ⟨t, ?_, h6⟩
  rw [run_seq]
  exact run_star_all sp g _ _ _ _ _ _ (fun c hc => by rw [has_sp]; exact hg c hc) hs (by simp) h5

theorem digitsAt {r : Re} {d s pre : Str} {caps C} (hd : Numeral.AllDigits d) (hne : d ≠ []) (hs : EndsNumber s)
    (h : Gets r (d.reverse ++ pre) s caps C) : Gets (.seq (plus dig) r) pre (d ++ s) caps C := by
  obtain ⟨t, h5, h6⟩ := h
  refine ⟨t, ?_, h6⟩
  rw [run_seq]
  exact run_plus_all dig 1 d _ _ _ _ _ _ (by cases d with | nil => exact absurd rfl hne | cons c s => simp)
    (fun c h => (allDigits_iff d).1 hd c h) hs.stops (by simp) h5

theorem gapNumAt {r : Re} {i : Nat} {n : Numeral} {g s' pre : Str} {caps C} (h1 : Blank g) (hg : g ≠ []) (hn : n.Valid) (he : EndsNumber s')
    (h : ∀ pre', Gets r pre' s' ((i, n.text) :: caps) C) : Gets (.seq (star sp) (.seq (LF i) r)) pre (g ++ (n.text ++ s')) caps C := by
  have h2 : n.text ≠ [] := text_ne_nil n hn
  have h3 : ∀ c ∈ n.text, isSpace c = false := text_nospace n hn
  obtain ⟨g0, c, rfl⟩ : ∃ g0 c, g = g0 ++ [c] := ⟨_, _, (List.dropLast_concat_getLast hg).symm⟩
  obtain ⟨t, h5, h6⟩ := h (([c] ++ n.text).reverse ++ (g0.reverse ++ pre))
  refine ⟨t, ?_, h6⟩
  rw [run_seq]
  have hc : isSpace c = true := h1 c (by simp)
  have key : ∀ (g0 pre : Str), Blank g0 →
      run (.seq (LF i) r) ⟨g0.reverse ++ pre, [c] ++ (n.text ++ s'), caps⟩ some = some t →
      run (star sp) ⟨pre, g0 ++ ([c] ++ (n.text ++ s')), caps⟩ (fun t => run (.seq (LF i) r) t some) = some t := by
    intro g0
    induction g0 with
    | nil =>
      intro pre _ hk
      rw [List.nil_append, List.cons_append, List.nil_append, run_star_cons _ _ (by simp) _ _ _ _ _ (by rw [has_sp]; exact hc),
        Option.map_none, run_star_stop _ _ _ _ _ _ _ (stops_word h2 h3), run_seq, LF, run_seq,
        run_plus_stop _ _ _ _ _ _ _ _ (stops_word h2 h3), Option.none_or]
      exact hk
    | cons d g0 ih =>
      intro pre hb hk
      rw [List.cons_append, run_star_cons _ _ (by simp) _ _ _ _ _ (by rw [has_sp]; exact hb d (by simp)), Option.map_none,
        ih (d :: pre) (fun x hx => hb x (by simp [hx])) (by simpa using hk)]
      rfl
  have := key g0 pre (fun x hx => h1 x (by simp [hx])) (by
    rw [run_seq]
    exact run_LF i [c] n (by intro x hx; simp at hx; subst hx; exact hc) (by simp) hn _ _ _ _ _ he h5)
  simpa using this

theorem endsNumber_gap {g s : Str} (hg : Blank g) (hne : g ≠ []) : EndsNumber (g ++ s) := by
  cases g with
  | nil => exact absurd rfl hne
  | cons c g => exact EndsNumber.space (hg c (by simp))

/-- A word in a group of its own. -/
theorem wordAt {r : Re} {i : Nat} {w s pre : Str} {caps C} (hw : ∀ c ∈ w, isWord c = true) (hne : w ≠ []) (hs : ∀ c ∈ s.head?, isSpace c = true)
    (h : ∀ pre', Gets r pre' s ((i, w) :: caps) C) : Gets (.seq (.group i (plus wd)) r) pre (w ++ s) caps C := by
  obtain ⟨t, h5, h6⟩ := h (w.reverse ++ pre)
  refine ⟨t, ?_, h6⟩
  rw [run_seq, run_group]
  apply run_plus_all wd 1 w _ _ _ _ _ _ (by cases w with | nil => exact absurd rfl hne | cons c s => simp)
    (fun c h => by rw [has_wd]; exact hw c h) (by intro c hc; rw [has_wd]; exact isSpace_not_word (hs c hc)) (by simp)
  rw [upTo_append]; exact h5

theorem yesNoAt {r : Re} {i : Nat} {b : Bool} {s pre : Str} {caps C}
    (h : ∀ pre', Gets r pre' s ((i, if b then py"Yes" else py"No") :: caps) C) :
    Gets (.seq (.group i (.alt (litRe (py"Yes")) (litRe (py"No")))) r) pre ((if b then py"Yes" else py"No") ++ s) caps C := by
  obtain ⟨t, h5, h6⟩ := h ((if b then py"Yes" else py"No").reverse ++ pre)
  refine ⟨t, ?_, h6⟩
  rw [run_seq, run_group, run_alt]
  cases b with
  | true =>
    rw [if_pos rfl] at h5
    rw [if_pos rfl, run_litRe]
    dsimp only
    rw [upTo_append, h5]; rfl
  | false =>
    rw [if_neg (by decide)] at h5
    rw [if_neg (by decide), run_litRe (s := py"No")]
    dsimp only
    rw [upTo_append, h5]
    rfl

theorem restAt {i : Nat} {d e pre : Str} {caps} {C : List (Nat × Str) → Prop} (hd : (10 : Nat) ∉ d) (he : e = [] ∨ e = [10]) (h : C ((i, d) :: caps)) :
    Gets (.group i (star dotS)) pre (d ++ e) caps C := by
  refine ⟨⟨d.reverse ++ pre, e, (i, d) :: caps⟩, ?_, h⟩
  rw [run_group]
  refine run_star_all dotS d _ _ _ _ _ _ ?_ ?_ (by simp) ?_
  · intro c hc
    have : c ≠ 10 := fun e => hd (e ▸ hc)
    simp [CSet.has, CItem.has, this]
  · intro c hc
    rcases he with rfl | rfl
    · cases hc
    · simp at hc; subst hc; decide
  · rw [upTo_append]

theorem spec_of {rd fl : Numeral → F64} {l : Str} {r : TdRow} (h : TdRow.Line l r) (hk : r.Ok) (hf : pyFloat r.energy.text = .ok (fl r.energy))
    (hr : ∀ n ∈ r.parts, parse_float_or_rational n.text = .ok (rd n)) :
    ∃ m, SPEC_RE.match_ l = some m ∧ spec m = .ok (r.value rd fl) := by
  obtain ⟨g0, g1, g2, g3, g4, d, e, rfl, h0, hg, hd, hd', he, hne, hn⟩ := h
  obtain ⟨k1, k2, k3, k4, k5, k6⟩ := hk
  obtain ⟨b1, n1⟩ := hg g1 (by simp)
  obtain ⟨b2, n2⟩ := hg g2 (by simp)
  obtain ⟨b3, n3⟩ := hg g3 (by simp)
  obtain ⟨b4, n4⟩ := hg g4 (by simp)
  have hw : ∀ c ∈ r.character, isWord c = true := fun c hc => by
    have := k5 c hc
    simp [isWord, isAlnum, isDigit, isAlpha, isLower, isUpper]
    omega
  have hs1 : Stops sp (r.state.text ++ (g1 ++ (r.energy.text ++ (g2 ++ (r.character ++ (g3 ++
      ((if r.converged then py"Yes" else py"No") ++ (g4 ++ (d ++ e))))))))) := stops_word (text_ne_nil _ k1.1) (text_nospace _ k1.1)
  have hs2 : Stops sp (r.character ++ (g3 ++ ((if r.converged then py"Yes" else py"No") ++ (g4 ++ (d ++ e))))) := by
    refine stops_word k4 fun c hc => ?_
    cases hh : isSpace c with
    | false => rfl
    | true => have := hw c hc; rw [isSpace_not_word hh] at this; cases this
  have hs3 : Stops sp ((if r.converged then py"Yes" else py"No") ++ (g4 ++ (d ++ e))) := by
    cases r.converged with
    | true => exact stops_word (by decide) (by decide)
    | false => exact stops_word (by decide) (by decide)
  have hs4 : Stops sp (d ++ e) := by
    intro c hc
    cases d with
    | nil => exact absurd rfl hne
    | cons x d => rw [has_sp]; exact hd' c hc
  have hs5 : ∀ c ∈ (g3 ++ ((if r.converged then py"Yes" else py"No") ++ (g4 ++ (d ++ e)))).head?, isSpace c = true := by
    intro c hc
    cases g3 with
    | nil => exact absurd rfl n3
    | cons x g => simp at hc; subst hc; exact b3 x (by simp)
  have : Gets SPEC_RE.re [] (g0 ++ (r.state.text ++ (g1 ++ (r.energy.text ++ (g2 ++ (r.character ++ (g3 ++
      ((if r.converged then py"Yes" else py"No") ++ (g4 ++ (d ++ e)))))))))) []
      fun caps => caps = [(4, d), (3, if r.converged then py"Yes" else py"No"), (2, r.character), (1, r.energy.text)] := by
    rw [SPEC_re]
    refine gapAt h0 hs1 fun pre _ => ?_
    refine digitsAt (natural_text k1).1 (natural_text k1).2 (endsNumber_gap b1 n1) ?_
    refine gapNumAt b1 n1 k2 (endsNumber_gap b2 n2) fun pre => ?_
    refine gapAt b2 hs2 fun pre _ => ?_
    refine wordAt hw k4 hs5 fun pre => ?_
    refine gapAt b3 hs3 fun pre _ => ?_
    refine yesNoAt fun pre => ?_
    exact gapAt b4 hs4 fun pre _ => restAt hd he rfl
  obtain ⟨m, hm, hc, hn'⟩ := this.match_
  refine ⟨m, hm, ?_⟩
  rw [SPEC_names] at hn'
  have e1 : m.named (py"energy") = some r.energy.text := by unfold Match.named Match.group; rw [hn', hc]; rfl
  have e2 : m.named (py"characterisation") = some r.character := by unfold Match.named Match.group; rw [hn', hc]; rfl
  have e3 : m.named (py"converged") = some (if r.converged then py"Yes" else py"No") := by unfold Match.named Match.group; rw [hn', hc]; rfl
  have e4 : m.named (py"dipoles") = some d := by unfold Match.named Match.group; rw [hn', hc]; rfl
  have e5 : (some (if r.converged then py"Yes" else py"No") == some (py"Yes")) = r.converged := by
    cases r.converged <;> decide
  have e6 : dipoles d = .ok (.list (r.dipole.map fun z => .complex (rd z.1) (rd z.2))) := by
    rw [dipoles, numbersOf_of hn (fun n hn => (k6 n hn).1) hr]
    show (Phonon.complexPairs ((r.dipole.flatMap fun z => [z.1, z.2]).map _) >>= _) = _
    rw [Phonon.complexPairs_of]; rfl
  rw [spec, e1, e2, e3, e4, e5]
  simp only [Option.getD_some, hf, e6]
  rfl

set_option maxRecDepth 20000 in
theorem specs_cons (line : Str) (rest : List Str) : specs (line :: rest) = (
    match SPEC_RE.match_ line with
    | none => specs rest
    | some m => do
      let v ← spec m
      let l ← specs rest
      return v :: l) := rfl

theorem specs_of {rd fl : Numeral → F64} {ls : List Str} {rows : List TdRow} (h : Interleaved NoNumber TdRow.Line ls rows) (hk : ∀ r ∈ rows, r.Ok)
    (hf : ∀ n : Numeral, n.Valid → n.InRange → pyFloat n.text = .ok (fl n))
    (hr : ∀ n : Numeral, n.Valid → n.InRange → parse_float_or_rational n.text = .ok (rd n)) : specs ls = .ok (rows.map (TdRow.value rd fl)) := by
  induction h with
  | nil => rfl
  | skip hn _ ih => rw [specs_cons, spec_none hn]; exact ih hk
  | @row l ls r rows hl _ ih =>
    have k := hk r (by simp)
    obtain ⟨m, hm, hs⟩ := spec_of (rd := rd) (fl := fl) hl k (hf _ k.2.1 k.2.2.1) fun n hn => hr _ (k.2.2.2.2.2 n hn).1 (k.2.2.2.2.2 n hn).2
    rw [specs_cons, hm]
    dsimp only
    rw [hs, ih fun r hr => hk r (by simp [hr])]
    rfl

/-! ### The file -/

theorem names_bs : Names BEGIN_STATES_RE TdPart.statesB := names_lit (by decide +kernel)
theorem names_es : Names END_STATES_RE TdPart.statesE := names_lit (by decide +kernel)
theorem names_bd : Names BEGIN_SPEC_RE TdPart.specB := names_lit (by decide +kernel)
theorem names_ed : Names END_SPEC_RE TdPart.specE := names_lit (by decide +kernel)

set_option maxRecDepth 20000 in
theorem loop_cons (fuel : Nat) (line : Str) (rest : List Str) (info : Dict Key PyVal) : loop (fuel + 1) (line :: rest) info = (do
    match ← tryBlock (found BEGIN_HEADER_RE) (found END_HEADER_RE) line rest with
    | (some b, rest) => do
      let h ← parse_regular_header EXTRA_RE b.rest
      loop fuel rest (updateDict info h)
    | (none, rest) => do
      match ← tryBlock (found BEGIN_STATES_RE) (found END_STATES_RE) line rest with
      | (some b, rest) => do
        let l ← overlaps b.rest [] []
        loop fuel rest (info.set (.str (py"overlap")) (.list l))
      | (none, rest) => do
        let (info, rest) ← other line rest info
        loop fuel rest info) := rfl

set_option maxRecDepth 20000 in
theorem other_eq (line : Str) (rest : List Str) (info : Dict Key PyVal) : other line rest info = (do
    match ← tryBlock (found BEGIN_SPEC_RE) (found END_SPEC_RE) line rest with
    | (some b, rest) => do
      let l ← specs b.rest
      return (info.set (.str (py"spectroscopic_data")) (.list l), rest)
    | (none, rest) => return (info, rest)) := rfl

attribute [local irreducible] overlaps specs

theorem loop_parts (rd fl : Numeral → F64) (hf : ∀ n : Numeral, n.Valid → n.InRange → pyFloat n.text = .ok (fl n))
    (hr : ∀ n : Numeral, n.Valid → n.InRange → parse_float_or_rational n.text = .ok (rd n))
    (parts : List TdPart) (ls : List (List Str)) (h : List.Forall₂ TdPart.Lines parts ls) (hok : ∀ p ∈ parts, p.Ok) :
    ∀ (info : Dict Key PyVal) (fuel : Nat), ls.flatten.length < fuel →
      loop fuel ls.flatten info = .ok (parts.foldl (TdPart.put rd fl) info) := by
  induction h with
  | nil =>
    intro info fuel hf
    cases fuel with
    | zero => simp at hf
    | succ fuel => rfl
  | @cons p l parts ls hp _ ih =>
    intro info fuel hfu
    have ih := ih (fun q hq => hok q (by simp [hq]))
    have hokp := hok p (by simp)
    rw [List.flatten_cons, List.length_append] at hfu
    rw [List.flatten_cons, List.foldl_cons]
    cases fuel with
    | zero => simp at hfu
    | succ fuel =>
      cases p with
      | header items =>
        obtain ⟨⟨inner, first, last, hl, h1, h2, h3⟩, ps, hps, hfl⟩ := hp
        have hlen : 0 < l.length := by rw [hl]; simp
        have hh := atom_header EXTRA_RE TdPart.band (looks_lit _ _ (by decide +kernel)) rd items ps hps
          (fun i hi n hn => hr n (hokp i hi n hn).1 (hokp i hi n hn).2)
        rw [← hfl, hl] at hh
        rw [hl, List.cons_append, List.append_assoc, loop_cons]
        rw [show [last] ++ ls.flatten = last :: ls.flatten from rfl,
          tryBlock_enclosed Efield.names_bh Efield.names_eh (c := 66) (by decide) (by decide) h1 h2 h3]
        show (parse_regular_header EXTRA_RE (first :: (inner ++ [last])) >>= fun h => loop fuel ls.flatten (updateDict info h)) = _
        rw [hh]
        exact ih _ fuel (by omega)
      | overlaps states =>
        obtain ⟨hs, ⟨inner, first, last, hl, h1, h2, h3⟩, ss, tail, hss, hst, htl⟩ := hp
        have hlen : 0 < l.length := by rw [hl]; simp
        have m1 : ¬ Occurs (py"BEGIN header") first := hs _ (by simp) first (by rw [hl]; rfl)
        have hh : overlaps l [] [] = .ok (states.map (TdState.value fl)) := by
          rw [hss, overlaps_states hst hokp hf, overlaps_tail htl, List.nil_append]
        rw [hl] at hh
        rw [hl, List.cons_append, List.append_assoc, loop_cons, show [last] ++ ls.flatten = last :: ls.flatten from rfl,
          tryBlock_miss Efield.names_bh m1]
        show (tryBlock _ _ _ _ >>= _) = _
        rw [tryBlock_enclosed names_bs names_es (c := 66) (by decide) (by decide) h1 h2 h3]
        show (overlaps (first :: (inner ++ [last])) [] [] >>= _) = _
        rw [hh]
        exact ih _ fuel (by omega)
      | spectrum rows =>
        obtain ⟨hs, ⟨inner, first, last, hl, h1, h2, h3⟩, hrows⟩ := hp
        have hlen : 0 < l.length := by rw [hl]; simp
        have m1 : ¬ Occurs (py"BEGIN header") first := hs _ (by simp) first (by rw [hl]; rfl)
        have m2 : ¬ Occurs TdPart.statesB first := hs _ (by simp) first (by rw [hl]; rfl)
        have hh := specs_of hrows hokp hf hr
        rw [hl] at hh
        rw [hl, List.cons_append, List.append_assoc, loop_cons, show [last] ++ ls.flatten = last :: ls.flatten from rfl,
          tryBlock_miss Efield.names_bh m1]
        show (tryBlock _ _ _ _ >>= _) = _
        rw [tryBlock_miss names_bs m2]
        show (other _ _ _ >>= _) = _
        rw [other_eq, tryBlock_enclosed names_bd names_ed (c := 66) (by decide) (by decide) h1 h2 h3]
        show ((specs (first :: (inner ++ [last])) >>= _) >>= _) = _
        rw [hh]
        exact ih _ fuel (by omega)
      | other =>
        obtain ⟨hs, hlen⟩ := hp
        obtain ⟨x, rfl⟩ := List.length_eq_one_iff.1 hlen
        have m1 : ¬ Occurs (py"BEGIN header") x := hs _ (by simp) x rfl
        have m2 : ¬ Occurs TdPart.statesB x := hs _ (by simp) x rfl
        have m3 : ¬ Occurs TdPart.specB x := hs _ (by simp) x rfl
        rw [List.cons_append, List.nil_append, loop_cons, tryBlock_miss Efield.names_bh m1]
        show (tryBlock _ _ _ _ >>= _) = _
        rw [tryBlock_miss names_bs m2]
        show (other _ _ _ >>= _) = _
        rw [other_eq, tryBlock_miss names_bd m3]
        exact ih _ fuel (by rw [hlen] at hfu; omega)

end Verif.Tddft

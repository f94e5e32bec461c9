import Verif.Spec.PairParams
import Verif.Lemmas.AtomTables
import Verif.Lemmas.LineTables
import Verif.Lemmas.BandTable
import Verif.Lemmas.FinalConfig
import Verif.Model.CastepTables
/- Parameters of pair potentials. -/
namespace Verif
open Re NumRe AtomRe Spec Castep

namespace PairPot

abbrev un : CSet := ⟨false, [.word, .ch 94, .ch 47, .ch 42], false⟩

abbrev VAL : Re := .seq .bol (.seq (optR (.group 1 (plus wd))) (.seq (star sp) (.seq (.set (ch 42)) (.seq (star sp) (.seq (.group 2 (plus wd)) (.seq (star sp) (.seq (LF 3)
  (.seq (star sp) (.seq (plus un) (.seq (star sp) (.seq (.set (ch 42)) (.seq (star sp) (litThen (py"<--") (.seq (star sp) (.group 4 (plus wd))))))))))))))))
abbrev vnames : List (Str × Nat) := [(py"tag", 1), (py"label", 2), (py"params", 3), (py"type", 4)]

theorem VAL_eq : Res.THREE_BODY_VAL = ⟨VAL, vnames, 4⟩ := by decide +kernel

/-- The tag, if there is one. -/
theorem tagAt {r : Re} {o : Option Str} {s pre : Str} {caps C} (ho : ∀ t ∈ o, PairRow.Word t) (hs : Stops wd s)
    (h : ∀ pre', Gets r pre' s ((o.toList.map fun t => (1, t)) ++ caps) C) : Gets (.seq (optR (.group 1 (plus wd))) r) pre (o.getD [] ++ s) caps C := by
  cases o with
  | none =>
    obtain ⟨t, h5, h6⟩ := h pre
    refine ⟨t, ?_, h6⟩
    rw [run_seq]
    show run (optR _) ⟨pre, s, caps⟩ _ = _
    rw [run_opt_skip]
    · exact h5
    · intro k
      rw [run_group]
      apply run_none
      intro w t' hst hw
      exfalso
      have b := (lang_rep_set _ _ _ _ _).1 hw
      cases w with
      | nil => simpa using b.2.1
      | cons c w =>
        have h1 := b.1 c (by simp)
        have h2 := hs c (by rw [show s = _ from hst.post]; rfl)
        rw [h1] at h2; cases h2
  | some w =>
    obtain ⟨t, h5, h6⟩ := h (w.reverse ++ pre)
    obtain ⟨hne, hw⟩ := ho w rfl
    refine ⟨t, ?_, h6⟩
    rw [run_seq]
    apply run_opt_take
    rw [run_group]
    refine run_plus_all wd 1 w _ _ _ _ _ _ (by cases w with | nil => exact absurd rfl hne | cons c t => simp) (fun c hc => by rw [has_wd]; exact hw c hc) hs (by simp) ?_
    have e : (⟨pre, (some w).getD [] ++ s, caps⟩ : St).upTo ⟨w.reverse ++ pre, s, caps⟩ = w := Re.upTo_append pre w s caps _ _
    rw [if_pos (by simpa using List.length_pos_of_ne_nil hne), e]
    exact h5

theorem space_stops {s : Str} {cs : CSet} (hs : ∀ c, s.head? = some c → isSpace c = true) (h : ∀ c, isSpace c = true → cs.has c = false) : Stops cs s :=
  fun c hc => h c (hs c hc)

theorem un_space (c : Nat) (h : isSpace c = true) : un.has c = false := by
  have h1 := isSpace_not_word h
  have h2 : c ≠ 94 ∧ c ≠ 47 ∧ c ≠ 42 := by refine ⟨?_, ?_, ?_⟩ <;> rintro rfl <;> simp [isSpace] at h
  simp [CSet.has, CItem.has, h1, h2]

theorem wd_space (c : Nat) (h : isSpace c = true) : wd.has c = false := by rw [has_wd]; exact isSpace_not_word h

/-- The captures of a parameter. -/
def capsOf (r : PairRow) : List (Nat × Str) := [(4, r.typ), (3, r.value.text), (2, r.label)] ++ r.tag.toList.map fun t => (1, t)

theorem val_match {l : Str} {r : PairRow} {u : Str} (hl : PairRow.Line l r) (hok : r.Ok) (hu : r.unit = some u) :
    ∃ m, Res.THREE_BODY_VAL.match_ l = some m ∧ m.caps = capsOf r ∧ m.names = vnames := by
  obtain ⟨g0, g1, s, more, rfl, hg0, hg1, hs, hf, -⟩ := hl
  obtain ⟨o1, ⟨o2, o3⟩, ⟨o4, o5⟩, ⟨o6, -⟩, o7⟩ := hok
  obtain ⟨u1, u2⟩ := o7 u hu
  have haft : After s (r.words ++ more) := ⟨hs, hf⟩
  rw [PairRow.words, hu] at haft
  rw [VAL_eq]
  refine Gets.match_ (p := ⟨VAL, vnames, 4⟩) (C := (· = capsOf r)) ?_
  refine Gets.bol ?_
  have hstar : ∀ s : Str, Stops wd (g0 ++ 42 :: s) := by
    intro s
    cases g0 with
    | nil => intro c hc; cases hc; rfl
    | cons d g0 => intro c hc; cases hc; exact wd_space _ (hg0 _ (by simp))
  refine tagAt o1 (hstar _) fun pre => ?_
  refine Tddft.gapAt hg0 (by intro c hc; cases hc; rfl) fun pre _ => ?_
  refine Gets.char (c := 42) (by decide) ?_
  refine Tddft.gapAt hg1 ?_ fun pre _ => ?_
  · obtain ⟨c, w, e⟩ := List.exists_cons_of_ne_nil o2
    rw [e]
    intro d hd
    cases hd
    rw [has_sp]
    cases hc : isSpace c with
    | false => rfl
    | true =>
      have := isSpace_not_word hc
      rw [o3 c (by rw [e]; simp)] at this
      cases this
  refine Gets.run (fun c hc => by rw [has_wd]; exact o3 c hc) o2 (space_stops hs wd_space) ?_
  refine Gets.gapNum (n := r.value) haft o6 fun _ _ hs => ?_
  refine Gets.gap hs fun pre s _ hs => ?_
  refine Gets.pluses (fun c hc => ?_) u1 (space_stops hs.1 un_space) ?_
  · rcases u2 c hc with h | h
    · simp [CSet.has, CItem.has, h]
    · simp at h
      rcases h with rfl | rfl | rfl <;> decide
  refine Gets.gap hs fun pre s _ hs => ?_
  refine Gets.char (c := 42) (by decide) ?_
  refine Gets.gap hs fun pre s _ hs => ?_
  refine Gets.lit (py"<--") _ ?_
  refine Gets.gap hs fun pre s _ hs => ?_
  refine Gets.last (Gets.run (fun c hc => by rw [has_wd]; exact o5 c hc) o4 (space_stops hs.1 wd_space) (Gets.eps ?_))
  simp [capsOf]

set_option linter.constructorNameAsVariable false in
theorem val_miss {l : Str} (h : ¬ Occurs (py"<--") l) : Res.THREE_BODY_VAL.match_ l = none := by
  cases hm : Res.THREE_BODY_VAL.match_ l with
  | none => rfl
  | some m =>
    exfalso
    obtain ⟨b, e, hl⟩ := match_found hm
    rw [VAL_eq] at hl
    obtain ⟨a, c, e'⟩ := lang_occurs (r := VAL) (w := py"<--") (by decide +kernel) hl
    exact h ⟨a, c ++ b, by rw [e, e']; simp⟩

theorem TWO_eq : TWO_BODY_RE.re = litRe (py"Two Body") := by decide +kernel
theorem THREE_eq : THREE_BODY_RE.re = litRe (py"Three Body") := by decide +kernel

theorem title_miss {l : Str} (h : ¬ PairRow.Title l) : found TWO_BODY_RE l = false ∧ found THREE_BODY_RE l = false :=
  ⟨(names_lit TWO_eq).false fun h' => h (.inl h'), (names_lit THREE_eq).false fun h' => h (.inr h')⟩

theorem ensure_set (d : Dict Key PyVal) (k1 k2 : Key) (v : PyVal) : setIn (ensure d k1) k1 k2 v = Magres.setSub true d k1 k2 v := by
  rw [setIn, ensure, Dict.mem]
  cases h : d.get? k1 with
  | some e =>
    rw [if_pos (by rfl), Magres.setSub, Magres.setSub, h]
    cases e <;> rfl
  | none =>
    rw [if_neg (by simp), Magres.setSub, Magres.setSub, h, Dict.get?_set_self]
    simp only [Scf.set_set]
    rfl

theorem global_none {l : Str} (h : Res.THREE_BODY_VAL.match_ l = none) (s : PairState) : pairGlobal s l = .ok s := by
  unfold pairGlobal
  simp only [h]

theorem global_some {l : Str} {m : Match} (h : Res.THREE_BODY_VAL.match_ l = some m) (s : PairState) : pairGlobal s l = (do
    let v ← to_type .float (optStr (m.named (py"params")))
    let accum ← setIn (ensure s.accum (pairType m)) (pairType m) (grpKey m (py"label")) v
    return { s with accum := accum }) := by
  unfold pairGlobal
  simp only [h]

theorem global_row {rd : Numeral → F64} {l : Str} {r : PairRow} {u : Str} (hl : PairRow.Line l r) (hok : r.Ok) (hu : r.unit = some u)
    (hrd : parse_float_or_rational r.value.text = .ok (rd r.value)) (s : PairState) {es : List (Key × Key × PyVal)} (hs : s.accum = nested es) :
    pairGlobal s l = .ok { s with accum := nested (es ++ [r.entry rd]) } := by
  obtain ⟨m, h1, h2, h3⟩ := val_match hl hok hu
  have k1 : m.named (py"params") = some r.value.text := by rw [named_eq h2 h3]; rfl
  have k2 : grpKey m (py"label") = .str r.label := by rw [grpKey, named_eq h2 h3]; rfl
  have k3 : m.named (py"type") = some r.typ := by rw [named_eq h2 h3]; rfl
  have k4 : m.named (py"tag") = r.tag := by
    rw [named_eq h2 h3, capsOf]
    cases r.tag <;> rfl
  have k5 : pairType m = .str r.potential := by
    rw [pairType, k3, k4, PairRow.potential]
    cases ht : r.tag with
    | none => rfl
    | some t =>
      obtain ⟨c, w, e⟩ := List.exists_cons_of_ne_nil (hok.1 t ht).1
      rw [e]
  rw [global_some h1, k1, optStr, LineTab.toFloat hrd, Delta.ok_bind, ensure_set, k2, k5, hs]
  have := IonTab.setSub_nested es (r.entry rd)
  simp only [PairRow.entry] at this
  rw [this]
  rfl

theorem loop {rd : Numeral → F64} {ls : List Str} {rows : List PairRow} (h : Interleaved PairRow.Other PairRow.Line ls rows) (hok : ∀ r ∈ rows, r.Ok ∧ r.unit ≠ none)
    (hrd : ∀ n : Numeral, n.Valid → n.InRange → parse_float_or_rational n.text = .ok (rd n)) :
    ∀ (fuel : Nat) (s : PairState) (es : List (Key × Key × PyVal)), s.accum = nested es → ls.length < fuel →
      pairLoop fuel ls s = .ok { s with accum := nested (es ++ rows.map (PairRow.entry rd)) } := by
  induction h with
  | nil =>
    intro fuel s es hs hf
    obtain ⟨fuel, rfl⟩ := Nat.exists_eq_add_of_lt hf
    rw [List.length_nil, Nat.zero_add, pairLoop, List.map_nil, List.append_nil, ← hs]
  | skip hl _ ih =>
    intro fuel s es hs hf
    obtain ⟨fuel, rfl⟩ : ∃ f, fuel = f + 1 := ⟨fuel - 1, by simp at hf; omega⟩
    obtain ⟨t1, t2⟩ := title_miss hl.2
    rw [pairLoop, FinalConf.block_miss t1, Delta.ok_bind]
    dsimp only
    rw [FinalConf.block_miss t2, Delta.ok_bind]
    dsimp only
    rw [global_none (val_miss hl.1)]
    exact ih hok fuel s es hs (by simpa using hf)
  | @row l ls r rs hl _ ih =>
    intro fuel s es hs hf
    obtain ⟨fuel, rfl⟩ : ∃ f, fuel = f + 1 := ⟨fuel - 1, by simp at hf; omega⟩
    obtain ⟨t1, t2⟩ := title_miss hl.choose_spec.choose_spec.choose_spec.choose_spec.2.2.2.2.2
    obtain ⟨k, hu⟩ := hok r (by simp)
    obtain ⟨u, hu⟩ := Option.ne_none_iff_exists'.1 hu
    rw [pairLoop, FinalConf.block_miss t1, Delta.ok_bind]
    dsimp only
    rw [FinalConf.block_miss t2, Delta.ok_bind]
    dsimp only
    rw [global_row hl k hu (hrd _ k.2.2.2.1.1 k.2.2.2.1.2) s hs, Delta.ok_bind]
    rw [ih (fun r hr => hok r (by simp [hr])) fuel _ (es ++ [r.entry rd]) rfl (by simpa using hf)]
    simp

theorem table {rd : Numeral → F64} {ls : List Str} {rows : List PairRow} (h : Interleaved PairRow.Other PairRow.Line ls rows) (hok : ∀ r ∈ rows, r.Ok ∧ r.unit ≠ none)
    (hrd : ∀ n : Numeral, n.Valid → n.InRange → parse_float_or_rational n.text = .ok (rd n)) :
    process_pair_params ls = .ok (.dict (nested (rows.map (PairRow.entry rd)))) := by
  rw [process_pair_params, loop h hok hrd _ {} [] rfl (Nat.lt_succ_self _)]
  rfl

end PairPot
end Verif

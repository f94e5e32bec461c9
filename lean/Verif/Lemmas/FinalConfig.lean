import Verif.Spec.FinalConfig
import Verif.Lemmas.CastepDoc
import Verif.Lemmas.GeomDoc
import Verif.Lemmas.LitRe
import Verif.Lemmas.ReSim
import Verif.Lemmas.UnitCell
import Verif.Lemmas.AtomVec
import Verif.Lemmas.LineTables
import Verif.Lemmas.BlockFile
import Verif.Lemmas.CastepFile
import Verif.Lemmas.Scf
import Verif.Lemmas.ElasticProps
/-
The final configuration of a geometry optimisation.
-/
namespace Verif.Castep.FinalConf
open Verif Re NumRe AtomRe Spec Castep

/-- Letters of either case. -/
def eitherCase : Str → Re
  | [] => .eps
  | [c] => .set ⟨false, [.ch c], true⟩
  | c :: s => .seq (.set ⟨false, [.ch c], true⟩) (eitherCase s)

abbrev minCi : Re := .alt (eitherCase (py"BFGS")) (.alt (eitherCase (py"LBFGS")) (.alt (eitherCase (py"FIRE")) (.alt (eitherCase (py"TPSD"))
  (.alt (eitherCase (py"DMD")) (eitherCase (py"DI"))))))
abbrev notEq : CSet := ⟨true, [.ch 61], false⟩
abbrev any : CSet := ⟨true, [.ch 10], false⟩

theorem ITEM_eq : unci CONFIG_ITEM_RE.re = .seq .bol (.seq (star sp) (.seq minCi (.seq (.set (ch 58)) (.seq (.group 1 (plus notEq)) (.seq (.set (ch 61))
  (.seq (star sp) (.seq (.group 2 EF) (star any)))))))) := by decide +kernel
theorem ITEM_names : CONFIG_ITEM_RE.names = [(py"key", 1), (py"value", 2)] := by decide +kernel
theorem CELL_eq : CONFIG_CELL_RE.re = .seq (star sp) (litThen (py"Unit Cell") (star sp)) := by decide +kernel
theorem CONTENTS_eq : CELL_CONTENTS_RE.re = .seq .bol (.seq (star sp) (.seq (star sp) (.seq (star sp) (.seq (star sp) (litThen (py"Cell Contents")
  (.seq (star sp) (.seq (star sp) (.seq (star sp) (.seq (star sp) .eol))))))))) := by decide +kernel


theorem contents_head : CELL_CONTENTS_RE.re = headRe (py"Cell Contents") := CONTENTS_eq

theorem names_cell : Names CONFIG_CELL_RE (py"Unit Cell") := by
  intro l
  constructor
  · intro h
    obtain ⟨m, hm⟩ := Option.isSome_iff_exists.1 h
    obtain ⟨a, b, e, hl⟩ := search_found hm
    obtain ⟨u, v, e2⟩ := lang_occurs (w := py"Unit Cell") (by decide +kernel) hl
    exact ⟨a ++ u, v ++ b, by rw [e, e2]; simp⟩
  · rintro ⟨a, b, rfl⟩
    rw [List.append_assoc]
    refine Pat.search_of_ex_at (q := ((py"Unit Cell").reverse ++ a.reverse, b)) ?_
    rw [CELL_eq]
    exact .seq .none (ex_lit .none)

theorem contents_not {l : Str} (h : ¬ Occurs (py"Cell Contents") l) : found CELL_CONTENTS_RE l = false := by
  cases hf : found CELL_CONTENTS_RE l with
  | false => rfl
  | true =>
    obtain ⟨m, hm⟩ := Option.isSome_iff_exists.1 hf
    obtain ⟨a, b, e, hl⟩ := search_found hm
    obtain ⟨u, v, e2⟩ := lang_occurs (w := py"Cell Contents") (by decide +kernel) hl
    exact absurd ⟨a ++ u, v ++ b, by rw [e, e2]; simp⟩ h

theorem block_cut {stop pass : Str → Prop} {s : Str → Bool} {e : Pat} (he : Stops1 stop pass e) {n : Nat} {t : Str} {b : List Str} (ht : s t = true)
    (hb : Cut stop pass n b) (hne : ¬ Str.strip t = []) (rest : List Str) :
    blockOf s (found e) n false t (b ++ rest) = .ok (some (t :: b), rest) := by
  rw [blockOf, Block.from_re, ht]
  have := fromReLoop_cut he.1 he.2 hb rest n 0 (LineSource.bound (b ++ rest) + 1) [t] (by simp) (by simp [LineSource.bound]; omega)
  simp only [Bool.not_true, Bool.false_eq_true, if_false, this]
  simp [Block.truthy]
  exact fun h => absurd h hne

theorem block_miss {s e : Str → Bool} {n : Nat} {l : Str} {rest : List Str} (h : s l = false) :
    blockOf s e n false l rest = .ok (none, rest) := by
  rw [blockOf, Block.from_re, h]; rfl

theorem lastAny {s pre : Str} {caps} {C : List (Nat × Str) → Prop} (h : C caps) : Gets (star any) pre s caps C := by
  have hsome : (run (star any) ⟨pre, s, caps⟩ some).isSome = true := by
    rw [run_rep_greedy, if_neg (by simp), if_pos rfl]; simp
  obtain ⟨y, hy⟩ := Option.isSome_iff_exists.1 hsome
  obtain ⟨t, w, h1, -, h3⟩ := run_some hy
  cases h3
  refine ⟨y, hy, ?_⟩
  obtain ⟨new, e, hnew⟩ := h1.caps
  cases new with
  | nil => rw [e]; exact h
  | cons p new =>
    obtain ⟨r, hr, -⟩ := hnew p (by simp)
    have : groupsOf (star any) = [] := rfl
    rw [this] at hr; cases hr

theorem minAt {r : Re} {m s pre : Str} {caps C} (hm : m ∈ MINIMISERS) (h : Gets r (m.reverse ++ pre) s caps C) : Gets (.seq minCi r) pre (m ++ s) caps C := by
  obtain ⟨t, h5, h6⟩ := h
  refine ⟨t, ?_, h6⟩
  simp only [MINIMISERS, List.mem_cons, List.not_mem_nil, or_false] at hm
  rcases hm with rfl | rfl | rfl | rfl | rfl | rfl <;>
  · simp only [List.reverse_cons, List.reverse_nil, List.nil_append, List.cons_append] at h5
    simp [run_seq, run_alt, minCi, eitherCase, run_set_cons, CSet.has, CItem.has, lowerC, upperC, isUpper, isLower, h5]

theorem item_match {l g m name g' r : Str} {n : Numeral} (e : l = g ++ (m ++ 58 :: (name ++ 61 :: (g' ++ (n.text ++ r))))) (hg : Blank g) (hm : m ∈ MINIMISERS)
    (h1 : 61 ∉ name) (hne : name ≠ []) (hg' : Blank g') (hn : n.Valid) (hi : ¬ n.IsInt) (hr : ∀ c, r.head? = some c → isSpace c = true) :
    ∃ mt, CONFIG_ITEM_RE.match_ l = some mt ∧ mt.caps = [(2, n.text), (1, name)] ∧ mt.names = CONFIG_ITEM_RE.names := by
  have hsp : ∀ {g : Str}, Blank g → ∀ c ∈ g, sp.has c = true := fun hg x hx => by simpa [CSet.has, CItem.has] using hg x hx
  have hend : EndsNumber r := by
    cases r with
    | nil => exact .nil
    | cons c r => exact .space (hr c rfl)
  have hG : Gets (unci CONFIG_ITEM_RE.re) [] l [] (fun c => c = [(2, n.text), (1, name)]) := by
    rw [ITEM_eq, e]
    obtain ⟨c, hc⟩ : ∃ c, m.head? = some c ∧ isSpace c = false := by
      simp only [MINIMISERS, List.mem_cons, List.not_mem_nil, or_false] at hm
      rcases hm with rfl | rfl | rfl | rfl | rfl | rfl <;> exact ⟨_, rfl, by decide⟩
    have hbol : ∀ {r : Re} {s : Str} {C}, Gets r [] s [] C → Gets (.seq .bol r) [] s [] C := by
      rintro r s C ⟨t, h1, h2⟩
      exact ⟨t, by rw [run_seq, run_bol]; exact h1, h2⟩
    refine hbol (Gets.stars (hsp hg) ?_ (minAt hm (Gets.char (by rw [has_ch]; simp) (Gets.run ?_ hne ?_ (Gets.char (by rw [has_ch]; simp)
      (Gets.stars (hsp hg') ?_ ?_))))))
    · intro d hd
      cases m with
      | nil => cases hc.1
      | cons x m =>
        simp at hd hc
        subst hd
        simp [CSet.has, CItem.has, hc]
    · intro d hd
      simp [CSet.has, CItem.has]
      rintro rfl
      exact h1 hd
    · intro d hd
      simp at hd
      subst hd
      decide
    · intro d hd
      obtain ⟨x, s, e2, hx⟩ := text_head n hn
      rw [e2] at hd
      simp at hd
      subst hd
      have := text_nospace n hn x (by rw [e2]; simp)
      simp [CSet.has, CItem.has, this]
    · obtain ⟨t, h5, h6⟩ := lastAny (s := r) (pre := n.text.reverse ++ (g'.reverse ++ (61 :: (name.reverse ++ (58 :: (m.reverse ++ (g.reverse ++ []))))))) (caps := [(2, n.text), (1, name)])
        (C := fun c => c = [(2, n.text), (1, name)]) rfl
      refine ⟨t, ?_, h6⟩
      rw [run_seq, run_group]
      apply run_EF n hn hi _ _ _ _ _ _ hend
      · rw [Verif.Re.upTo_append]; exact h5
      · cases hb : g'.reverse with
        | nil => simp
        | cons x b =>
          have := hg' x (by rw [← List.mem_reverse, hb]; simp)
          rw [List.cons_append]
          intro h
          obtain rfl : x = 46 := Option.some.inj h
          exact absurd this (by decide)
  exact Gets.match_ (Gets.congr (fun st k => (run_unci _ st k).symm) hG)

set_option linter.constructorNameAsVariable false in
theorem item_none {l : Str} (h : 58 ∉ l ∨ 61 ∉ l) : CONFIG_ITEM_RE.match_ l = none := by
  rw [Pat.match_, Pat.matchAt_eq, ← run_unci]
  have : run (unci CONFIG_ITEM_RE.re) ⟨[], l, []⟩ some = none := by
    refine run_none fun w t hs hl => ?_
    rw [ITEM_eq] at hl
    obtain ⟨_, _, rfl, -, _, _, rfl, -, _, _, rfl, -, a, _, rfl, ha, _, _, rfl, -, b, _, rfl, hb, -⟩ := hl
    obtain ⟨c, hc, rfl⟩ := ha
    obtain ⟨d, hd, rfl⟩ := hb
    rw [has_ch] at hc hd
    simp at hc hd
    subst hc hd
    have := hs.post
    simp at this
    rcases h with h | h <;> simp [this] at h
  rw [this]; rfl

attribute [local irreducible] CONFIG_CELL_RE CELL_CONTENTS_RE CONFIG_ITEM_RE XLINE_RE EMPTY_RE

theorem loop_cons (f : Nat) (line : Str) (rest : List Str) (d : Dict Key PyVal) : configLoop (f + 1) (line :: rest) d = (do
    match ← blockOf (found CONFIG_CELL_RE) (found EMPTY_RE) 3 false line rest with
    | (some b, rest) => do
      let v ← process_unit_cell b
      configLoop f rest (d.set (.str (py"cell")) v)
    | (none, rest) => do
      match ← blockOf (found CELL_CONTENTS_RE) (found XLINE_RE) 2 false line rest with
      | (some b, rest) => do
        let v ← process_atreg_block b
        configLoop f rest (d.set (.str (py"atoms")) v)
      | (none, rest) =>
        match CONFIG_ITEM_RE.match_ line with
        | some m => do
          let v ← to_type .float (optStr (m.named (py"value")))
          configLoop f rest (d.set (.str (normalise_key ((m.named (py"key")).getD []))) v)
        | none => configLoop f rest d) := by rfl

theorem loop_nil (f : Nat) (d : Dict Key PyVal) : configLoop (f + 1) [] d = .ok d := by rfl

theorem loop {rd fl : Numeral → F64} (hrd : ∀ n : Numeral, n.Valid → n.InRange → parse_float_or_rational n.text = .ok (rd n))
    (hfl : ∀ n : Numeral, n.Valid → n.InRange → pyFloat n.text = .ok (fl n))
    {items : List ConfigItem} {ls : List (List Str)} (h : List.Forall₂ ConfigItem.Lines items ls) :
    (∀ i ∈ items, i.Ok) → ∀ (f : Nat) (es : List (Key × PyVal)), ls.flatten.length < f →
      configLoop f ls.flatten (Dict.ofList es) = .ok (Dict.ofList (es ++ items.filterMap (ConfigItem.entry rd fl))) := by
  induction h with
  | nil =>
    intro _ f es hf
    obtain ⟨f, rfl⟩ : ∃ k, f = k + 1 := ⟨f - 1, by simp at hf; omega⟩
    rw [List.flatten_nil, loop_nil, List.filterMap_nil, List.append_nil]
  | @cons i a items ls hl _ ih =>
    intro hok f es hf
    obtain ⟨f, rfl⟩ : ∃ k, f = k + 1 := ⟨f - 1, by simp at hf; omega⟩
    have ih := ih (fun i hi => hok i (by simp [hi])) f
    have hi := hok i (by simp)
    rw [List.flatten_cons] at hf ⊢
    cases i with
    | cell cs =>
      obtain ⟨t, b, rfl, h1, h2, h3⟩ := hl
      rw [List.cons_append, loop_cons, block_cut stops_empty ((names_cell t).2 h1) h2 (strip_occurs h1 (by decide))]
      simp only [Delta.ok_bind]
      rw [unit_cell h3 (fun i hm n hn => hrd n (hi i hm n hn).1 (hi i hm n hn).2) (fun i hm n hn => hfl n (hi i hm n hn).1 (hi i hm n hn).2)]
      simp only [Delta.ok_bind]
      rw [← Params.ofList_snoc, ih _ (by simp only [List.length_append, List.length_cons, List.length_nil] at hf; omega)]
      simp [ConfigItem.entry]
    | atoms rows =>
      obtain ⟨t, b, rfl, h1, h2, h3, h4⟩ := hl
      rw [List.cons_append, loop_cons, block_miss (names_cell.false h2)]
      simp only [Delta.ok_bind]
      rw [block_cut rules_xline (headed_found contents_head h1) h3 (strip_occurs (headed_occurs h1) (by decide))]
      simp only [Delta.ok_bind]
      rw [atreg_block h4 hi.1 (fun a ha n hn => hrd n ((hi.1 a ha).2.2.2 n hn).1 ((hi.1 a ha).2.2.2 n hn).2)]
      simp only [Delta.ok_bind]
      rw [← Params.ofList_snoc, ih _ (by simp only [List.length_append, List.length_cons, List.length_nil] at hf; omega),
        Dict.ofList_nodup (rows.map (AtomVec.entry rd)) (by rw [List.map_map]; exact hi.2)]
      simp [ConfigItem.entry]
    | value key n =>
      obtain ⟨l, g, m, name, g', r, rfl, hp, e, hg, hm, h1, hne, hk, hg', hr⟩ := hl
      obtain ⟨mt, h2, h3, h4⟩ := item_match e hg hm h1 hne hg' hi.1 hi.2.2 hr
      rw [ITEM_names] at h4
      have hv : mt.named (py"value") = some n.text := by rw [named_eq h3 h4]; rfl
      have hn : mt.named (py"key") = some name := by rw [named_eq h3 h4]; rfl
      rw [List.singleton_append, loop_cons, block_miss (names_cell.false hp.1)]
      simp only [Delta.ok_bind]
      rw [block_miss (contents_not hp.2)]
      simp only [Delta.ok_bind, h2, hv, hn, optStr, Option.getD_some]
      rw [LineTab.toFloat (hrd n hi.1 hi.2.1), LineTab.keyName hk]
      simp only [Delta.ok_bind]
      rw [← Params.ofList_snoc, ih _ (by simp only [List.length_append, List.length_cons, List.length_nil] at hf; omega)]
      simp [ConfigItem.entry]
    | other =>
      obtain ⟨l, rfl, hp, h1⟩ := hl
      rw [List.singleton_append, loop_cons, block_miss (names_cell.false hp.1)]
      simp only [Delta.ok_bind]
      rw [block_miss (contents_not hp.2)]
      simp only [Delta.ok_bind, item_none h1]
      rw [ih _ (by simp only [List.length_append, List.length_cons, List.length_nil] at hf; omega)]
      simp [List.filterMap_cons, ConfigItem.entry]

end Verif.Castep.FinalConf

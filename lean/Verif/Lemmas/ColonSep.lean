import Verif.Spec.ColonSep
import Verif.Lemmas.CastepPhonon
import Verif.Lemmas.Pspot
import Verif.Lemmas.NonLin
import Verif.Lemmas.Params
import Verif.Lemmas.GenBlock
/-
Lines of values with names.
-/
namespace Verif
open Re NumRe AtomRe Spec

namespace ColonSep

abbrev nsp : CSet := cset [.notSpace]
abbrev col : CSet := cset [.ch 58]

theorem has_nsp (c : Nat) : CSet.has nsp c = !isSpace c := by simp [CSet.has, CItem.has]
theorem has_col (c : Nat) : CSet.has col c = (c == 58) := by simp [CSet.has, CItem.has]

def V : Re := .seq (.group 2 (plus nsp)) (.wordB false)
def T : Re := .seq (star sp) (.seq (.set col) (.seq (star sp) V))
def CS : Re := .seq (.wordB false) (.seq (.group 1 (plus nsp)) T)

theorem CS_eq : Res.COLON_SEP_RE = ⟨CS, [(py"key", 1), (py"val", 2)], 2⟩ := by decide +kernel

/-- No colon follows. -/
theorem no_colon {g s pre : Str} {r : Re} {caps : List (Nat × Str)} {k : St → Option β} (hg : Blank g)
    (hs : ∀ c, s.head? = some c → isSpace c = false ∧ c ≠ 58) : run (.seq (star sp) (.seq (.set col) r)) ⟨pre, g ++ s, caps⟩ k = none := by
  have hset : ∀ (pre s : Str), (∀ c, s.head? = some c → c ≠ 58) → ∀ k : St → Option β, run (.seq (.set col) r) ⟨pre, s, caps⟩ k = none := by
    intro pre s h k
    rw [run_seq, run_set_stops _ (by intro c hc; rw [has_col]; simpa using h c hc)]
  rw [run_seq, run_star_last sp g pre s caps _ (fun c hc => by rw [has_sp]; exact hg c hc) (fun c hc => by rw [has_sp]; exact (hs c hc).1)]
  · exact hset _ _ (fun c hc => (hs c hc).2) _
  · intro u v e hv
    refine hset _ _ (fun c hc => ?_) _
    obtain ⟨d, v', rfl⟩ := List.exists_cons_of_ne_nil hv
    simp at hc; subst hc
    have := hg d (by rw [e]; simp)
    rintro rfl
    exact absurd this (by decide)

/-- What may follow a pair: nothing, or blanks and something that is not a colon. -/
def Tail (t : Str) : Prop := Stops nsp t ∧ ∃ g s, t = g ++ s ∧ Blank g ∧ ∀ c, s.head? = some c → isSpace c = false ∧ c ≠ 58

theorem tail_nil : Tail [] := ⟨(by intro c hc; cases hc), [], [], rfl, (by intro c hc; cases hc), (by intro c hc; cases hc)⟩

theorem digit_word {c : Nat} (h : 48 ≤ c ∧ c ≤ 57) : isWord c = true := by
  have : isDigit c = true := (isDigit_iff c).2 h
  simp [isWord, isAlnum, this]

theorem alpha_word {c : Nat} (h : (65 ≤ c ∧ c ≤ 90) ∨ (97 ≤ c ∧ c ≤ 122)) : isWord c = true := by
  have : isAlpha c = true := by rw [isAlpha_iff]; tauto
  simp [isWord, isAlnum, this]

/-- The match of a pair. -/
theorem pair_run {p : ColonPair} (hok : p.Ok) {g1 g2 : Str} (h1 : Blank g1) (h2 : Blank g2) {pre t : Str}
    (hp : ∀ c, pre.head? = some c → isWord c = false) (ht : Tail t) :
    run CS ⟨pre, p.key ++ (g1 ++ 58 :: (g2 ++ (p.val.text ++ t))), []⟩ some =
      some ⟨p.val.text.reverse ++ (g2.reverse ++ (58 :: (g1.reverse ++ (p.key.reverse ++ pre)))), t, [(2, p.val.text), (1, p.key)]⟩ := by
  obtain ⟨k1, k2, k3, k4, -, k6⟩ := hok
  obtain ⟨ht1, g, s, rfl, hg, hs⟩ := ht
  obtain ⟨c, ks, hk⟩ := List.exists_cons_of_ne_nil k1
  have hc := k2 c (by rw [hk]; rfl)
  have hvs : ∀ x ∈ p.val.text, isSpace x = false ∧ x ≠ 58 := fun x hx =>
    ⟨text_nospace _ k4 x hx, by have := AtomVec.numeral_char _ k4 x hx; omega⟩
  have hvn := text_ne_nil _ k4
  rw [CS, run_seq, run_wordB]
  have hb : ((wordBefore ⟨pre, p.key ++ (g1 ++ 58 :: (g2 ++ (p.val.text ++ (g ++ s)))), []⟩ !=
      wordAfter ⟨pre, p.key ++ (g1 ++ 58 :: (g2 ++ (p.val.text ++ (g ++ s)))), []⟩) != false) = true := by
    have a1 : wordAfter ⟨pre, p.key ++ (g1 ++ 58 :: (g2 ++ (p.val.text ++ (g ++ s)))), []⟩ = true := by
      rw [wordAfter, hk]; exact alpha_word hc
    have a2 : wordBefore ⟨pre, p.key ++ (g1 ++ 58 :: (g2 ++ (p.val.text ++ (g ++ s)))), []⟩ = false := by
      cases pre with
      | nil => rfl
      | cons d pre => exact hp d rfl
    rw [a1, a2]; rfl
  rw [if_pos hb, run_seq, run_group]
  -- the part after the key
  have hrest : run T ⟨p.key.reverse ++ pre, g1 ++ 58 :: (g2 ++ (p.val.text ++ (g ++ s))), [(1, p.key)]⟩ some =
      some ⟨p.val.text.reverse ++ (g2.reverse ++ (58 :: (g1.reverse ++ (p.key.reverse ++ pre)))), g ++ s, [(2, p.val.text), (1, p.key)]⟩ := by
    rw [T, run_seq]
    apply run_star_all sp g1 _ _ none _ _ _ (fun d hd => by rw [has_sp]; exact h1 d hd)
      (by intro d hd; simp at hd; subst hd; decide) (by simp)
    rw [run_seq, run_set_cons, if_pos (by decide), run_seq]
    obtain ⟨v, vs, hv⟩ := List.exists_cons_of_ne_nil hvn
    apply run_star_all sp g2 _ _ none _ _ _ (fun d hd => by rw [has_sp]; exact h2 d hd)
      (by intro d hd; rw [hv] at hd; simp at hd; subst hd; rw [has_sp]; exact (hvs v (by rw [hv]; simp)).1) (by simp)
    rw [V, run_seq, run_group]
    apply run_plus_all nsp 1 p.val.text _ _ none _ _ _ (by rw [hv]; simp) (fun d hd => by rw [has_nsp, (hvs d hd).1]; rfl) ht1 (by simp)
    rw [upTo_append, run_wordB, if_pos]
    have a1 : ∀ cp, wordBefore ⟨p.val.text.reverse ++ (g2.reverse ++ 58 :: (g1.reverse ++ (p.key.reverse ++ pre))), g ++ s, cp⟩ = true := by
      intro cp
      rw [wordBefore]
      cases hr : p.val.text.reverse with
      | nil => exact absurd hr (by simpa using hvn)
      | cons d ds =>
        refine digit_word (k6 d ?_)
        rw [← List.head?_reverse, hr]; rfl
    have a2 : ∀ q cp, wordAfter ⟨q, g ++ s, cp⟩ = false := by
      intro q cp
      rw [wordAfter]
      cases hr : g ++ s with
      | nil => rfl
      | cons d ds =>
        have := ht1 d (by rw [hr]; rfl)
        rw [has_nsp] at this
        exact isSpace_not_word (by simpa using this)
    rw [a1, a2]; rfl
  have hstar : ∀ (v rest : Str), v ++ rest = g1 ++ 58 :: (g2 ++ (p.val.text ++ (g ++ s))) → (∀ x ∈ v, isSpace x = false) → Stops nsp rest →
      (∀ a b, v = a ++ b → a ≠ [] → ∀ q cp, run T ⟨q, b ++ rest, cp⟩ (some : St → Option St) = none) →
      run (plus nsp) ⟨pre, p.key ++ (g1 ++ 58 :: (g2 ++ (p.val.text ++ (g ++ s)))), []⟩ (fun t => run T { t with caps := (1, St.upTo
        ⟨pre, p.key ++ (g1 ++ 58 :: (g2 ++ (p.val.text ++ (g ++ s)))), []⟩ t) :: t.caps } some) =
        some ⟨p.val.text.reverse ++ (g2.reverse ++ (58 :: (g1.reverse ++ (p.key.reverse ++ pre)))), g ++ s, [(2, p.val.text), (1, p.key)]⟩ := by
    intro v rest e hv hr hf
    have hks : ∀ x ∈ p.key, CSet.has nsp x = true := fun x hx => by rw [has_nsp, (k3 x hx).1]; rfl
    rw [← e, hk]
    show run (.rep true (0 + 1) none (.set nsp)) ⟨pre, c :: (ks ++ (v ++ rest)), []⟩ _ = _
    rw [run_plus_cons _ _ _ _ (by simp) _ _ _ _ _ (hks c (by rw [hk]; simp))]
    refine run_star_give nsp rest hr v (fun x hx => by rw [has_nsp, hv x hx]; rfl) ks (c :: pre) [] _ _
      (fun x hx => hks x (by rw [hk]; simp [hx])) ?_ ?_
    · intro a b hab ha
      exact hf a b hab ha _ _
    · have e3 : St.upTo ⟨pre, c :: ks ++ (v ++ rest), []⟩ ⟨ks.reverse ++ c :: pre, v ++ rest, []⟩ = c :: ks := by
        exact Verif.Re.upTo_append pre (c :: ks) (v ++ rest) [] _ []
      simp only [e3]
      rw [hk, ← e] at hrest
      simpa using hrest
  cases g1 with
  | cons x g1 =>
    refine hstar [] _ rfl (by simp) (by intro d hd; simp at hd; subst hd; rw [has_nsp, h1 x (by simp)]; rfl) ?_
    intro a b e ha
    simp at e
    exact absurd e.1 ha
  | nil =>
    have hhead : ∀ (b r : Str), b ≠ [] → (∀ x ∈ b, isSpace x = false ∧ x ≠ 58) → ∀ q cp, run T ⟨q, b ++ r, cp⟩ (some : St → Option St) = none := by
      intro b r hb hx q cp
      obtain ⟨d, b', rfl⟩ := List.exists_cons_of_ne_nil hb
      refine no_colon (g := []) (by intro c hc; cases hc) (fun y hy => ?_)
      simp at hy; subst hy
      exact hx d (by simp)
    cases g2 with
    | cons x g2 =>
      refine hstar [58] (x :: g2 ++ (p.val.text ++ (g ++ s))) rfl (by decide) (by intro d hd; simp at hd; subst hd; rw [has_nsp, h2 x (by simp)]; rfl) ?_
      intro a b e ha q cp
      have hb : b = [] := by
        cases a with
        | nil => exact absurd rfl ha
        | cons y a =>
          have := congrArg List.length e
          simp at this
          exact this.2
      subst hb
      refine no_colon (g := x :: g2) h2 (fun y hy => ?_)
      obtain ⟨v, vs, hv⟩ := List.exists_cons_of_ne_nil hvn
      rw [hv] at hy
      simp at hy; subst hy
      exact hvs v (by rw [hv]; simp)
    | nil =>
      refine hstar (58 :: p.val.text) (g ++ s) (by simp) ?_ ht1 ?_
      · intro x hx
        rcases List.mem_cons.1 hx with rfl | hx
        · decide
        · exact (hvs x hx).1
      · intro a b e ha q cp
        by_cases hb : b = []
        · subst hb
          exact no_colon (g := g) hg hs
        · refine hhead b _ hb (fun x hx => ?_) q cp
          cases a with
          | nil => exact absurd rfl ha
          | cons y a =>
            have : p.val.text = a ++ b := by simpa using (List.cons.inj e).2
            exact hvs x (by rw [this]; simp [hx])

/-- The match of a pair. -/
theorem pair_match {p : ColonPair} (hok : p.Ok) {g1 g2 : Str} (h1 : Blank g1) (h2 : Blank g2) {pre t : Str}
    (hp : ∀ c, pre.head? = some c → isWord c = false) (ht : Tail t) :
    ∃ x w, w = p.key ++ (g1 ++ 58 :: (g2 ++ p.val.text)) ∧ Res.COLON_SEP_RE.matchAt pre (w ++ t) = some x ∧ x.whole = w ∧
      x.caps = [(2, p.val.text), (1, p.key)] ∧ x.names = Res.COLON_SEP_RE.names := by
  have hr := pair_run hok h1 h2 hp ht
  obtain ⟨x, a1, a2, a3, a4⟩ := NonLinL.match_of (q := Res.COLON_SEP_RE) (pre := pre) (w := p.key ++ (g1 ++ 58 :: (g2 ++ p.val.text))) (rest := t)
    (cp := [(2, p.val.text), (1, p.key)]) (by rw [CS_eq]; simpa using hr)
  exact ⟨x, _, rfl, a1, a2, a3, a4⟩

set_option linter.constructorNameAsVariable false in
/-- No match at a blank or at the end. -/
theorem no_match {pre s : Str} (h : ∀ c, s.head? = some c → isSpace c = true) : Res.COLON_SEP_RE.matchAt pre s = none := by
  rw [Pat.matchAt_eq, CS_eq]
  have : run CS ⟨pre, s, []⟩ some = none := by
    rw [CS, run_seq, run_wordB]
    split
    · rw [run_seq, run_group, run_plus_stop true nsp 0]
      intro c hc
      rw [has_nsp, h c hc]; rfl
    · rfl
  rw [this]; rfl

theorem gap_none {g : Str} (hg : Blank g) (pre rest : Str) : ∀ u v, g = u ++ v → v ≠ [] →
    Res.COLON_SEP_RE.matchAt (u.reverse ++ pre) (v ++ rest) = none := by
  intro u v e hv
  obtain ⟨d, v', rfl⟩ := List.exists_cons_of_ne_nil hv
  refine no_match fun c hc => ?_
  simp at hc; subst hc
  exact hg d (by rw [e]; simp)

theorem pairs_head {s : Str} {ps : List ColonPair} (h : ColonPair.Pairs s ps) (hok : ∀ p ∈ ps, p.Ok) :
    ∃ c r, s = c :: r ∧ ((65 ≤ c ∧ c ≤ 90) ∨ (97 ≤ c ∧ c ≤ 122)) := by
  have : ∀ p : ColonPair, p.Ok → ∀ t : Str, ∃ c r, p.key ++ t = c :: r ∧ ((65 ≤ c ∧ c ≤ 90) ∨ (97 ≤ c ∧ c ≤ 122)) := by
    intro p hp t
    obtain ⟨c, r, e⟩ := List.exists_cons_of_ne_nil hp.1
    exact ⟨c, r ++ t, by rw [e]; rfl, hp.2.1 c (by rw [e]; rfl)⟩
  cases h with
  | last => exact this _ (hok _ (by simp)) _
  | cons => exact this _ (hok _ (by simp)) _

theorem alpha_ok {c : Nat} (h : (65 ≤ c ∧ c ≤ 90) ∨ (97 ≤ c ∧ c ≤ 122)) : isSpace c = false ∧ c ≠ 58 := by
  refine ⟨?_, by omega⟩
  simp [isSpace]; omega

/-- The matches of a list of pairs. -/
theorem find_pairs {s : Str} {ps : List ColonPair} (h : ColonPair.Pairs s ps) : (∀ p ∈ ps, p.Ok) → ∀ (g pre : Str) (fuel : Nat), Blank g →
    (∀ c, (g.reverse ++ pre).head? = some c → isWord c = false) → ps.length ≤ fuel →
    List.Forall₂ (fun (x : Match) p => x.caps = [(2, p.val.text), (1, p.key)] ∧ x.names = Res.COLON_SEP_RE.names)
      (Res.COLON_SEP_RE.findFrom fuel pre (g ++ s)) ps := by
  induction h with
  | @last p g1 g2 h1 h2 =>
    intro hok g pre fuel hg hp hf
    obtain ⟨fuel, rfl⟩ : ∃ f, fuel = f + 1 := ⟨fuel - 1, by simp at hf; omega⟩
    obtain ⟨x, w, ew, hx, hw, hc, hn⟩ := pair_match (hok p (by simp)) h1 h2 hp tail_nil
    have hwne : w ≠ [] := by rw [ew]; simp
    rw [← ew]
    have := Pat.findFrom_cons Res.COLON_SEP_RE fuel pre g w [] x hwne (gap_none hg pre _) hx hw
    rw [List.append_nil] at this
    rw [this, Pat.findFrom_nil]
    · exact .cons ⟨hc, hn⟩ .nil
    · intro u v e
      obtain ⟨rfl, rfl⟩ : u = [] ∧ v = [] := by simpa using e
      exact no_match (by simp)
  | @cons p g1 g2 g' s ps h1 h2 h' hs ih =>
    intro hok g pre fuel hg hp hf
    obtain ⟨fuel, rfl⟩ : ∃ f, fuel = f + 1 := ⟨fuel - 1, by simp at hf; omega⟩
    obtain ⟨y, ys, ey⟩ := List.exists_cons_of_ne_nil (l := g') h'.2
    have hys : isSpace y = true := h'.1 y (by rw [ey]; simp)
    have htail : Tail (g' ++ s) := by
      refine ⟨?_, g', s, rfl, h'.1, ?_⟩
      · intro c hc
        rw [ey] at hc
        simp at hc; subst hc
        rw [has_nsp, hys]; rfl
      · intro c hc
        obtain ⟨d, r, e, hd⟩ := pairs_head hs (fun q hq => hok q (by simp [hq]))
        rw [e] at hc
        simp at hc; subst hc
        exact alpha_ok hd
    obtain ⟨x, w, ew, hx, hw, hc, hn⟩ := pair_match (hok p (by simp)) h1 h2 hp htail
    have hwne : w ≠ [] := by rw [ew]; simp
    have e : p.key ++ (g1 ++ 58 :: (g2 ++ (p.val.text ++ (g' ++ s)))) = w ++ (g' ++ s) := by
      rw [ew]; simp
    rw [e, Pat.findFrom_cons Res.COLON_SEP_RE fuel pre g w (g' ++ s) x hwne (gap_none hg pre _) hx hw]
    refine .cons ⟨hc, hn⟩ (ih (fun b hb => hok b (by simp [hb])) g' _ fuel h'.1 ?_ (by simpa using hf))
    intro c hc
    obtain ⟨y, ys, ey⟩ := List.exists_cons_of_ne_nil (l := g'.reverse) (by simpa using h'.2)
    rw [ey] at hc
    simp at hc
    subst hc
    refine isSpace_not_word (h'.1 y ?_)
    have : y ∈ g'.reverse := by rw [ey]; simp
    simpa using this

theorem pairs_length {s : Str} {ps : List ColonPair} (h : ColonPair.Pairs s ps) : ps.length ≤ s.length := by
  induction h with
  | last => simp; omega
  | cons _ _ _ _ ih => simp; omega

/-- What the matches give. -/
theorem pairs_of {rd : Numeral → F64} {ms : List Match} {ps : List ColonPair}
    (h : List.Forall₂ (fun (x : Match) (p : ColonPair) => x.caps = [(2, p.val.text), (1, p.key)] ∧ x.names = Res.COLON_SEP_RE.names) ms ps)
    (hrd : ∀ n : Numeral, n.Valid → n.InRange → parse_float_or_rational n.text = .ok (rd n)) :
    (∀ p ∈ ps, p.Ok) → ∀ d : Dict Key PyVal,
    Cell.colonPairs ms d = .ok ((ps.map (ColonPair.entry rd)).foldl (fun d kv => Dict.set d kv.1 kv.2) d) := by
  induction h with
  | nil => intro _ _; rfl
  | @cons m p ms ps h1 _ ih =>
    intro hok d
    obtain ⟨hc, hn⟩ := h1
    have ho := hok p (by simp)
    rw [CS_eq] at hn
    have a1 : m.named (py"val") = some p.val.text := by rw [Castep.named_eq hc hn]; rfl
    have a2 : m.named (py"key") = some p.key := by rw [Castep.named_eq hc hn]; rfl
    rw [Cell.colonPairs, a1, a2, Option.getD_some, Option.getD_some,
      Castep.Params.number_typed ho.2.2.2.1 (hrd _ ho.2.2.2.1 ho.2.2.2.2.1), Castep.Delta.ok_bind, ih (fun q hq => hok q (by simp [hq]))]
    rfl

/-- A text of pairs, possibly after blanks. -/
theorem pairs_text {rd : Numeral → F64} {g s : Str} {ps : List ColonPair} (hg : Blank g) (h : ColonPair.Pairs s ps) (hok : ∀ p ∈ ps, p.Ok)
    (hrd : ∀ n : Numeral, n.Valid → n.InRange → parse_float_or_rational n.text = .ok (rd n)) :
    Cell.colonPairs (Res.COLON_SEP_RE.finditer (g ++ s)) [] = .ok (Dict.ofList (ps.map (ColonPair.entry rd))) := by
  refine pairs_of (find_pairs h hok g [] _ hg ?_ ?_) hrd hok []
  · intro c hc
    rw [List.append_nil] at hc
    cases hr : g.reverse with
    | nil => rw [hr] at hc; cases hc
    | cons y ys =>
      rw [hr] at hc
      simp at hc; subst hc
      have : y ∈ g.reverse := by rw [hr]; simp
      exact isSpace_not_word (hg y (by simpa using this))
  · have := pairs_length h
    simp; omega

theorem pairs_last {s : Str} {ps : List ColonPair} (h : ColonPair.Pairs s ps) (hok : ∀ p ∈ ps, p.Ok) :
    ∀ c, s.getLast? = some c → isSpace c = false := by
  have hlast : ∀ (a b : Str), b ≠ [] → (a ++ b).getLast? = b.getLast? := by
    intro a b hb
    rw [List.getLast?_append]
    cases h : b.getLast? with
    | none => exact absurd (List.getLast?_eq_none_iff.1 h) hb
    | some => rfl
  induction h with
  | @last p g1 g2 h1 h2 =>
    intro c hc
    have hp := hok p (by simp)
    have e : p.key ++ (g1 ++ c!":" :: (g2 ++ p.val.text)) = (p.key ++ (g1 ++ c!":" :: g2)) ++ p.val.text := by simp
    rw [e, hlast _ _ (text_ne_nil _ hp.2.2.2.1)] at hc
    exact isDigit_not_space ((isDigit_iff c).2 (hp.2.2.2.2.2 c hc))
  | @cons p g1 g2 g' s ps h1 h2 h' hs ih =>
    intro c hc
    obtain ⟨d, r, e, -⟩ := pairs_head hs (fun q hq => hok q (by simp [hq]))
    have e2 : p.key ++ (g1 ++ c!":" :: (g2 ++ (p.val.text ++ (g' ++ s)))) = (p.key ++ (g1 ++ c!":" :: (g2 ++ (p.val.text ++ g')))) ++ s := by simp
    rw [e2, hlast _ _ (by rw [e]; simp)] at hc
    exact ih (fun q hq => hok q (by simp [hq])) c hc

theorem word_not_end {w g s : Str} (hg : Blank g) (hne : w ≠ []) (hs : ∀ c ∈ w, isSpace c = false) (hh : w.head? ≠ some 37) :
    Cell.isEnd (g ++ (w ++ s)) = false := by
  rw [Bool.eq_false_iff]
  intro h
  obtain ⟨d, k, e⟩ := List.exists_cons_of_ne_nil hne
  obtain ⟨g2, d2, s2, e2, hg2, rfl⟩ := GenBlock.close_head ((Cell.isEnd_iff _).1 h)
  rw [e] at e2 hh
  obtain ⟨rfl, -⟩ := IonCons.cut_head (r := k ++ s) hg (hs d (by rw [e]; simp)) (d' := 37) hg2 (by decide) (by simpa using e2)
  exact hh rfl

/-- The lines of a `sedc_custom_params` block. -/
theorem sedc_rows {rd : Numeral → F64} {last : Str} (hlast : ClosesBlock last)
    (hrd : ∀ n : Numeral, n.Valid → n.InRange → parse_float_or_rational n.text = .ok (rd n)) :
    ∀ {ls : List Str} {xs : List SedcLine}, List.Forall₂ (fun l x => SedcLine.Line l x) ls xs → (∀ x ∈ xs, x.Ok) → ∀ d : Dict Key PyVal,
    Cell.sedcLoop (ls ++ [last]) d =
      .ok ((xs.map fun x => (Key.str x.spec, PyVal.dict (Dict.ofList (x.pairs.map (ColonPair.entry rd))))).foldl (fun d kv => Dict.set d kv.1 kv.2) d) := by
  intro ls xs h
  induction h with
  | nil =>
    intro _ d
    rw [List.nil_append, Cell.sedcLoop, if_pos ((Cell.isEnd_iff _).2 hlast)]
    rfl
  | @cons l x ls xs h1 _ ih =>
    intro hok d
    obtain ⟨g, g', s, rfl, hg, hg', ha⟩ := h1
    obtain ⟨hne, hs, hh, hat⟩ := hok x (by simp)
    obtain ⟨c, r, es, hc⟩ := pairs_head ha hat
    rw [List.cons_append, Cell.sedcLoop, word_not_end hg hne hs hh]
    have hst : Str.strip (g ++ (x.spec ++ (g' ++ s))) = x.spec ++ (g' ++ s) := by
      have := Magres.strip_mid (g := g) (w := x.spec ++ (g' ++ s)) (g' := []) hg (by intro c hc; cases hc) (by simp [hne])
        (by
          intro y hy
          obtain ⟨d, k, e⟩ := List.exists_cons_of_ne_nil hne
          rw [e] at hy
          simp at hy; subst hy
          exact hs d (by rw [e]; simp))
        (by
          intro y hy
          rw [← List.append_assoc, List.getLast?_append] at hy
          have hy' : s.getLast? = some y := by
            cases hl : s.getLast? with
            | none => rw [List.getLast?_eq_none_iff.1 hl] at es; cases es
            | some z => rw [hl] at hy; simpa using hy
          exact pairs_last ha hat y hy')
      simpa using this
    have hu : unpack2 (Str.split1 (x.spec ++ (g' ++ s))) = .ok (x.spec, s) := by
      rw [Magres.split1_two hne hs hg'.1 hg'.2 (by rw [es]; simp) (by rw [es]; intro x hx; simp at hx; subst hx; exact (alpha_ok hc).1)]
      rfl
    have hm := pairs_text (g := []) (by intro c hc; cases hc) ha hat hrd
    rw [List.nil_append] at hm
    simp only [Bool.false_eq_true, if_false, hst, hu, Castep.Delta.ok_bind, hm]
    rw [ih (fun q hq => hok q (by simp [hq]))]
    rfl

/-! ### `hubbard_u` -/

/-- Every capital letter is followed by a digit or a sign. -/
def Fine : Str → Prop
  | [] => True
  | c :: s => ((65 ≤ c ∧ c ≤ 90) → ∃ x r, s = x :: r ∧ (48 ≤ x ∧ x ≤ 57 ∨ x = 43 ∨ x = 45)) ∧ Fine s

theorem fine_plain {a b : Str} (ha : ∀ c ∈ a, ¬ (65 ≤ c ∧ c ≤ 90)) (hb : Fine b) : Fine (a ++ b) := by
  induction a with
  | nil => exact hb
  | cons c a ih => exact ⟨fun h => absurd h (ha c (by simp)), ih fun d hd => ha d (by simp [hd])⟩

theorem fine_right {a b : Str} (h : Fine (a ++ b)) : Fine b := by
  induction a with
  | nil => exact h
  | cons c a ih => exact ih h.2

theorem sign_plain (sg : Option Bool) : ∀ c ∈ Numeral.signText sg, c = 43 ∨ c = 45 := by
  rcases sg with _ | _ | _ <;> decide

theorem fine_num {n : Numeral} (hn : n.Valid) {b : Str} (hb : Fine b) : Fine (n.text ++ b) := by
  obtain ⟨h1, h2, -, h4⟩ := hn
  have hd : ∀ {w : Str}, Numeral.AllDigits w → ∀ c ∈ w, ¬ (65 ≤ c ∧ c ≤ 90) := fun h c hc => by have := h c hc; omega
  have hs : ∀ sg, ∀ c ∈ Numeral.signText sg, ¬ (65 ≤ c ∧ c ≤ 90) := fun sg c hc => by have := sign_plain sg c hc; omega
  have hfr : ∀ c ∈ Numeral.fracText n.frac, ¬ (65 ≤ c ∧ c ≤ 90) := by
    cases hf : n.frac with
    | none => intro c hc; cases hc
    | some f =>
      rw [hf] at h2
      intro c hc
      rcases List.mem_cons.1 hc with rfl | hc
      · decide
      · exact hd h2 c hc
  rw [Numeral.text]
  simp only [List.append_assoc]
  refine fine_plain (hs _) (fine_plain (hd h1) (fine_plain hfr ?_))
  cases he : n.exp with
  | none => exact hb
  | some e =>
    obtain ⟨up, sg, ds⟩ := e
    obtain ⟨h5, h6, -⟩ := h4 _ he
    have ht : Fine (Numeral.signText sg ++ (ds ++ b)) := fine_plain (hs _) (fine_plain (hd h5) hb)
    have hh : ∃ x r, Numeral.signText sg ++ (ds ++ b) = x :: r ∧ (48 ≤ x ∧ x ≤ 57 ∨ x = 43 ∨ x = 45) := by
      cases hsg : Numeral.signText sg with
      | nil =>
        cases ds with
        | nil => simp at h6
        | cons d ds => exact ⟨d, ds ++ b, rfl, .inl (h5 d (by simp))⟩
      | cons x r => exact ⟨x, r ++ (ds ++ b), rfl, .inr (sign_plain sg x (by rw [hsg]; simp))⟩
    cases up with
    | true => simpa [Numeral.expText, Fine] using And.intro hh ht
    | false => simpa [Numeral.expText, Fine] using ht

theorem fine_pairs {s : Str} {ps : List ColonPair} (h : ColonPair.Pairs s ps) :
    (∀ p ∈ ps, p.Ok ∧ ∀ c ∈ p.key, ¬ (65 ≤ c ∧ c ≤ 90)) → Fine s := by
  have hbl : ∀ {g : Str}, Blank g → ∀ c ∈ g, ¬ (65 ≤ c ∧ c ≤ 90) := fun hg c hc h => by
    have := hg c hc
    rw [(alpha_ok (.inl h)).1] at this; cases this
  have hc : ∀ c ∈ py":", ¬ (65 ≤ c ∧ c ≤ 90) := by decide
  induction h with
  | @last p g1 g2 h1 h2 =>
    intro hok
    obtain ⟨a1, a2⟩ := hok p (by simp)
    have := fine_num (b := []) a1.2.2.2.1 trivial
    rw [List.append_nil] at this
    exact fine_plain a2 (fine_plain (hbl h1) (fine_plain (a := py":") hc (fine_plain (hbl h2) this)))
  | @cons p g1 g2 g' s ps h1 h2 h' hs ih =>
    intro hok
    obtain ⟨a1, a2⟩ := hok p (by simp)
    exact fine_plain a2 (fine_plain (hbl h1) (fine_plain (a := py":") hc (fine_plain (hbl h2) (fine_num a1.2.2.2.1
      (fine_plain (hbl h'.1) (ih fun q hq => hok q (by simp [hq])))))))

theorem blank_plain {g : Str} (hg : Blank g) : ∀ c ∈ g, ¬ (65 ≤ c ∧ c ≤ 90) := fun c hc h => by
  have := hg c hc
  rw [(alpha_ok (.inl h)).1] at this; cases this

/-- The name of the species does not occur again. -/
theorem once {a : AtomName} (ha : a.Valid) (hl : a.label = none) {g g0 i rest : Str} (h0 : AtomVec.Gap g0) (hf : Fine rest) :
    Str.replace (g ++ (a.text ++ (g0 ++ i))) [] ((g ++ (a.text ++ (g0 ++ i))) ++ rest) = rest := by
  have hx : ∃ x w, a.text ++ (g0 ++ i) = a.up :: x :: w ∧ ((97 ≤ x ∧ x ≤ 122) ∨ x = 58 ∨ isSpace x = true) := by
    rw [AtomName.text, hl]
    cases hlow : a.low with
    | cons x l => exact ⟨x, _, rfl, .inl (ha.2.1.2 x (by rw [hlow]; simp))⟩
    | nil =>
      cases hcu : a.custom with
      | some t => exact ⟨58, _, rfl, .inr (.inl rfl)⟩
      | none =>
        obtain ⟨y, g', rfl⟩ := List.exists_cons_of_ne_nil h0.2
        exact ⟨y, _, rfl, .inr (.inr (h0.1 y (by simp)))⟩
  obtain ⟨x, w, e, hx⟩ := hx
  have hno : ¬ Occurs (g ++ (a.text ++ (g0 ++ i))) rest := by
    rintro ⟨u, v, rfl⟩
    rw [e] at hf
    have h2 : Fine (a.up :: x :: (w ++ v)) := by
      have : u ++ (g ++ a.up :: x :: w) ++ v = (u ++ g) ++ (a.up :: x :: (w ++ v)) := by simp
      rw [this] at hf
      exact fine_right hf
    obtain ⟨y, r, e2, hy⟩ := h2.1 ha.1
    obtain ⟨rfl, -⟩ := List.cons.inj e2
    rcases hx with h | h | h
    · omega
    · omega
    · rcases hy with hy | rfl | rfl
      · have := isDigit_not_space ((isDigit_iff x).2 hy)
        rw [this] at h; cases h
      · exact absurd h (by decide)
      · exact absurd h (by decide)
  generalize hw : g ++ (a.text ++ (g0 ++ i)) = W at hno ⊢
  cases W with
  | nil => simp [AtomName.text] at hw
  | cons c W =>
    rw [Str.replace, List.cons_append, Str.replaceAux, if_pos (by simp [List.isPrefixOf_iff_prefix])]
    rw [List.nil_append, List.length_cons, Nat.add_sub_cancel, Castep.Params.replace_pass, Castep.Params.replace_none hno]

def HB : Re := .seq .bol (.seq (star sp) (.seq (.group 1 A) (.seq (star sp) (.rep true 0 (some 1) (.group 2 (plus dig))))))

theorem HB_eq : Cell.HUBBARD_RE = ⟨HB, [], 2⟩ := by decide +kernel

/-- Blanks, the name of a species, blanks and what follows. -/
theorem name_blank {β : Type _} {r : Re} {a : AtomName} {g g0 s : Str} {k : St → Option β} {v : β} (ha : a.Valid) (hg : Blank g) (h0 : AtomVec.Gap g0)
    {c : Nat} {t : Str} (hs : s = c :: t) (hc : isSpace c = false ∧ c ≠ 91)
    (h : run r ⟨g0.reverse ++ (a.text.reverse ++ (g.reverse ++ [])), s, [(1, a.text)]⟩ k = some v) :
    run (.seq .bol (.seq (star sp) (.seq (.group 1 A) (.seq (star sp) r)))) ⟨[], g ++ (a.text ++ (g0 ++ s)), []⟩ k = some v := by
  rw [run_seq, run_bol, if_pos (by rfl), run_seq]
  apply run_star_all sp g _ _ none _ _ _ (fun d hd => by rw [has_sp]; exact hg d hd)
    (by intro d hd; simp [AtomName.text] at hd; subst hd; rw [has_sp]; exact (alpha_ok (.inl ha.1)).1) (by simp)
  rw [run_seq, run_group]
  apply run_A a ha _ _ _ _ _ _ (spaceNext_append h0.1 h0.2)
  · intro _ g' q e hg' hq
    cases q with
    | nil => cases hq
    | cons b q =>
      simp at hq; subst hq
      obtain ⟨e1, -⟩ := IonCons.cut_head (r := t) (d' := 91) h0.1 hc.1 hg' (by decide) (by rw [hs] at e; simpa using e)
      exact hc.2 e1
  · rw [upTo_append, run_seq]
    apply run_star_all sp g0 _ _ none _ _ _ (fun d hd => by rw [has_sp]; exact h0.1 d hd)
      (by intro d hd; rw [hs] at hd; simp at hd; subst hd; rw [has_sp]; exact hc.1) (by simp)
    exact h
  · intro d hd
    rw [List.append_nil] at hd
    cases hr : g.reverse with
    | nil => rw [hr] at hd; cases hd
    | cons y ys =>
      rw [hr] at hd
      simp at hd; subst hd
      have : y ∈ g.reverse := by rw [hr]; simp
      exact isSpace_not_word (hg y (by simpa using this))

/-- A line for one atom. -/
theorem match_one {a : AtomName} {i g g0 g1 s : Str} (ha : a.Valid) (hi : i ≠ [] ∧ Numeral.AllDigits i) (hg : Blank g) (h0 : AtomVec.Gap g0)
    (h1 : AtomVec.Gap g1) : ∃ m, Cell.HUBBARD_RE.match_ (g ++ (a.text ++ (g0 ++ (i ++ (g1 ++ s))))) = some m ∧
      m.whole = g ++ (a.text ++ (g0 ++ i)) ∧ m.caps = [(2, i), (1, a.text)] := by
  obtain ⟨d, t, e⟩ := List.exists_cons_of_ne_nil hi.1
  have hd : isDigit d = true := (isDigit_iff d).2 (hi.2 d (by rw [e]; simp))
  obtain ⟨x, b1, b2, b3, -⟩ := NonLinL.match_of (q := Cell.HUBBARD_RE) (pre := []) (w := g ++ (a.text ++ (g0 ++ i))) (rest := g1 ++ s)
    (cp := [(2, i), (1, a.text)]) (by
      rw [HB_eq]
      have hr : run HB ⟨[], g ++ (a.text ++ (g0 ++ (i ++ (g1 ++ s)))), []⟩ some =
          some ⟨i.reverse ++ (g0.reverse ++ (a.text.reverse ++ (g.reverse ++ []))), g1 ++ s, [(2, i), (1, a.text)]⟩ := by
        refine name_blank ha hg h0 (c := d) (t := t ++ (g1 ++ s)) (by rw [e]; rfl) ⟨isDigit_not_space hd, by have := hi.2 d (by rw [e]; simp); omega⟩ ?_
        refine Cell.Pspot.run_opt_some (t := ⟨i.reverse ++ (g0.reverse ++ (a.text.reverse ++ (g.reverse ++ []))), g1 ++ s, [(2, i), (1, a.text)]⟩) ?_ rfl ?_
        · rw [e]; simp; omega
        · intro k' hy
          rw [run_group]
          apply run_plus_all dig 1 i _ _ _ _ _ _ (by rw [e]; simp) (fun c h => (allDigits_iff _).1 hi.2 c h) (AtomVec.ends_gap h1).stops (by simp)
          rw [upTo_append]; exact hy
      simpa using hr)
  exact ⟨x, by simpa [Pat.match_] using b1, b2, b3⟩

/-- A line for all atoms of a species. -/
theorem match_all {a : AtomName} {g g0 s : Str} (ha : a.Valid) (hg : Blank g) (h0 : AtomVec.Gap g0) {c : Nat} {t : Str} (hs : s = c :: t)
    (hc : (65 ≤ c ∧ c ≤ 90) ∨ (97 ≤ c ∧ c ≤ 122)) :
    ∃ m, Cell.HUBBARD_RE.match_ (g ++ (a.text ++ (g0 ++ s))) = some m ∧ m.whole = g ++ (a.text ++ g0) ∧ m.caps = [(1, a.text)] := by
  obtain ⟨x, b1, b2, b3, -⟩ := NonLinL.match_of (q := Cell.HUBBARD_RE) (pre := []) (w := g ++ (a.text ++ g0)) (rest := s)
    (cp := [(1, a.text)]) (by
      rw [HB_eq]
      have hr : run HB ⟨[], g ++ (a.text ++ (g0 ++ s)), []⟩ some =
          some ⟨g0.reverse ++ (a.text.reverse ++ (g.reverse ++ [])), s, [(1, a.text)]⟩ := by
        refine name_blank ha hg h0 hs ⟨(alpha_ok hc).1, by omega⟩ ?_
        rw [Cell.Pspot.run_opt_none]
        intro k'
        rw [run_group, run_plus_stop true dig 0]
        intro d hd
        rw [hs] at hd
        simp at hd; subst hd
        rw [Bool.eq_false_iff]
        intro h
        have := (allDigits_iff [c]).2 (by intro d hd; simp at hd; subst hd; exact h) c (by simp)
        omega
      simpa using hr)
  exact ⟨x, by simpa [Pat.match_] using b1, b2, b3⟩

/-- The lines of a `hubbard_u` block. -/
theorem hubbard_rows {rd : Numeral → F64} {last : Str} (hlast : ClosesBlock last)
    (hrd : ∀ n : Numeral, n.Valid → n.InRange → parse_float_or_rational n.text = .ok (rd n)) :
    ∀ {ls : List Str} {xs : List HubbardLine}, List.Forall₂ HubbardLine.Line ls xs → (∀ x ∈ xs, x.Ok) → ∀ d : Dict Key PyVal,
    Cell.hubbardLoop (ls ++ [last]) d =
      .ok ((xs.map fun x => (x.key, PyVal.dict (Dict.ofList (x.pairs.map (ColonPair.entry rd))))).foldl (fun d kv => Dict.set d kv.1 kv.2) d) := by
  intro ls xs h
  induction h with
  | nil =>
    intro _ d
    rw [List.nil_append, Cell.hubbardLoop, if_pos ((Cell.isEnd_iff _).2 hlast)]
    rfl
  | @cons l x ls xs h1 _ ih =>
    intro hok d
    obtain ⟨o1, o2, o3, o4⟩ := hok x (by simp)
    obtain ⟨v1, v2⟩ := GenBlock.name_visible o1 o2
    have ho4 : ∀ p ∈ x.pairs, p.Ok := fun p hp => (o4 p hp).1
    have hhd : x.spec.text.head? ≠ some 37 := by
      have := o1.1
      intro h
      simp [AtomName.text] at h; omega
    cases h1 with
    | @one _ i g g0 g1 s hi hg h0 h1 hp =>
      obtain ⟨m, m1, m2, m3⟩ := match_one (s := s) o1 (o3 i hi) hg h0 h1
      have g1' : m.group 1 = some x.spec.text := by rw [Match.group, m3]; rfl
      have g2' : m.group 2 = some i := by rw [Match.group, m3]; rfl
      have hint : pyInt i = .ok (Numeral.nat i : ℤ) := MdFrame.intOfGroup_digits i (o3 i hi).2 (o3 i hi).1
      have hrep : Str.replace m.whole [] (g ++ (x.spec.text ++ (g0 ++ (i ++ (g1 ++ s))))) = g1 ++ s := by
        have := once (g := g) (i := i) o1 o2 h0 (fine_plain (blank_plain h1.1) (fine_pairs hp o4))
        rw [m2]
        simpa using this
      have hk : x.key = .tup [.str x.spec.text, .int (Numeral.nat i)] := by rw [HubbardLine.key, hi]
      rw [List.cons_append, Cell.hubbardLoop, word_not_end hg v1 v2 hhd]
      simp only [Bool.false_eq_true, if_false, m1, g1', g2', hint, hrep, Castep.Delta.ok_bind, pairs_text h1.1 hp ho4 hrd, Option.getD_some]
      rw [ih (fun q hq => hok q (by simp [hq])), List.map_cons, hk]
      rfl
    | @all _ g g0 s hi hg h0 hp =>
      obtain ⟨c, t, es, hc⟩ := pairs_head hp ho4
      obtain ⟨m, m1, m2, m3⟩ := match_all o1 hg h0 es hc
      have g1' : m.group 1 = some x.spec.text := by rw [Match.group, m3]; rfl
      have g2' : m.group 2 = none := by rw [Match.group, m3]; rfl
      have hrep : Str.replace m.whole [] (g ++ (x.spec.text ++ (g0 ++ s))) = s := by
        have := once (g := g) (i := []) o1 o2 h0 (fine_pairs hp o4)
        rw [m2]
        simpa using this
      have hk : x.key = .str x.spec.text := by rw [HubbardLine.key, hi]
      have ht := pairs_text (g := []) (by intro c hc; cases hc) hp ho4 hrd
      rw [List.nil_append] at ht
      rw [List.cons_append, Cell.hubbardLoop, word_not_end hg v1 v2 hhd]
      simp only [Bool.false_eq_true, if_false, m1, g1', g2', hrep, Castep.Delta.ok_bind, ht, Option.getD_some]
      rw [ih (fun q hq => hok q (by simp [hq])), List.map_cons, hk]
      rfl

/-- A line of a `hubbard_u` block has more than one word. -/
theorem hubbard_words {l : Str} {x : HubbardLine} (h : x.Line l) (hok : x.Ok) : (Str.split l).length ≠ 1 := by
  obtain ⟨o1, o2, o3, o4⟩ := hok
  obtain ⟨v1, v2⟩ := GenBlock.name_visible o1 o2
  have hne : ∀ (g s : Str) (c : Nat) (t : Str), s = c :: t → isSpace c = false → Str.split (g ++ s) ≠ [] := by
    intro g s c t e hc
    refine Castep.split_ne_nil fun hb => ?_
    have := hb c (by rw [e]; simp)
    rw [hc] at this; cases this
  cases h with
  | @one _ i g g0 g1 s hi hg h0 h1 hp =>
    obtain ⟨d, t, e⟩ := List.exists_cons_of_ne_nil (o3 i hi).1
    rw [split_word g _ _ hg v2 v1 (AtGap.append h0.1 h0.2)]
    have := hne g0 (i ++ (g1 ++ s)) d (t ++ (g1 ++ s)) (by rw [e]; rfl)
      (isDigit_not_space ((isDigit_iff d).2 ((o3 i hi).2 d (by rw [e]; simp))))
    simpa using this
  | @all _ g g0 s hi hg h0 hp =>
    obtain ⟨c, t, es, hc⟩ := pairs_head hp fun p hp => (o4 p hp).1
    rw [split_word g _ _ hg v2 v1 (AtGap.append h0.1 h0.2)]
    have := hne g0 s c t es (alpha_ok hc).1
    simpa using this

end ColonSep
end Verif

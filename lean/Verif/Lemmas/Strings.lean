import Verif.Model.Utility
import Verif.Lemmas.Find
import Verif.Lemmas.Str
import Verif.Spec.Text
/-
normalise_string and normalise_key.
-/
namespace Verif

/-! ### Joining words -/
namespace Str

/-- Every text is an initial word and pairs of a separating run and a word; only the last word can be
empty. -/
theorem runs_exist (p : Nat → Bool) (s : Str) : ∃ (w0 : Str) (l : List (Str × Str)),
    s = w0 ++ l.flatMap (fun q => q.1 ++ q.2) ∧ (∀ c ∈ w0, p c = false) ∧
    (∀ q ∈ l, q.1 ≠ [] ∧ (∀ c ∈ q.1, p c = true) ∧ ∀ c ∈ q.2, p c = false) ∧
    (∀ q ∈ l.dropLast, q.2 ≠ []) := by
  induction s with
  | nil => exact ⟨[], [], by simp, by simp, by simp, by simp⟩
  | cons c s ih =>
    obtain ⟨w0, l, h1, h2, h3, h4⟩ := ih
    cases hc : p c with
    | false =>
      refine ⟨c :: w0, l, by rw [h1]; rfl, ?_, h3, h4⟩
      intro d hd
      rcases List.mem_cons.1 hd with rfl | hd
      · exact hc
      · exact h2 d hd
    | true =>
      cases w0 with
      | cons a w0 =>
        refine ⟨[], ([c], a :: w0) :: l, by rw [h1]; simp, by simp, ?_, ?_⟩
        · intro q hq
          rcases List.mem_cons.1 hq with rfl | hq
          · exact ⟨by simp, by simpa using hc, h2⟩
          · exact h3 q hq
        · intro q hq
          cases l with
          | nil => simp at hq
          | cons b l =>
            rw [List.dropLast_cons_cons] at hq
            rcases List.mem_cons.1 hq with rfl | hq
            · simp
            · exact h4 q hq
      | nil =>
        cases l with
        | nil => exact ⟨[], [([c], [])], by rw [h1]; simp, by simp, by simpa using hc, by simp⟩
        | cons q l =>
          obtain ⟨g, w⟩ := q
          obtain ⟨h5, h6, h7⟩ := h3 (g, w) (by simp)
          refine ⟨[], (c :: g, w) :: l, by rw [h1]; simp, by simp, ?_, ?_⟩
          · intro q hq
            rcases List.mem_cons.1 hq with rfl | hq
            · refine ⟨by simp, ?_, h7⟩
              intro d hd
              rcases List.mem_cons.1 hd with rfl | hd
              · exact hc
              · exact h6 d hd
            · exact h3 q (by simp [hq])
          · intro q hq
            cases l with
            | nil => simp at hq
            | cons b l =>
              rw [List.dropLast_cons_cons] at hq h4
              rcases List.mem_cons.1 hq with rfl | hq
              · exact h4 (g, w) (by simp)
              · exact h4 q (by simp [hq])

/-- The words of a text divided that way. -/
theorem wordsAux_runs (p : Nat → Bool) (l : List (Str × Str)) (w0 : Str) (h0 : ∀ c ∈ w0, p c = false)
    (h : ∀ q ∈ l, q.1 ≠ [] ∧ (∀ c ∈ q.1, p c = true) ∧ ∀ c ∈ q.2, p c = false) :
    wordsAux p [] (w0 ++ l.flatMap fun q => q.1 ++ q.2) = (w0 :: l.map Prod.snd).filter (!·.isEmpty) := by
  induction l generalizing w0 with
  | nil =>
    cases w0 with
    | nil => simp [wordsAux]
    | cons a w0 =>
      have := wordsAux_word p (a :: w0) [] [] [] h0 (by simp) (by simp) (by simp)
      simpa [wordsAux] using this
  | cons q l ih =>
    obtain ⟨h1, h2, h3⟩ := h q (by simp)
    have ih := ih q.2 h3 fun r hr => h r (by simp [hr])
    rw [List.flatMap_cons, List.append_assoc]
    cases w0 with
    | nil =>
      rw [List.nil_append, wordsAux_skip p _ _ h2, ih]
      simp
    | cons a w0 =>
      rw [wordsAux_word p (a :: w0) q.1 _ [] h0 (fun c hc => h2 c (List.mem_of_mem_head? hc)) (.inl h1) (by simp),
        wordsAux_skip p _ _ h2, ih]
      simp

theorem join_cons (sep a : Str) (l : List Str) (h : l ≠ []) : join sep (a :: l) = a ++ sep ++ join sep l := by
  cases l with
  | nil => exact absurd rfl h
  | cons b l => rfl

/-- Interior pieces not empty. -/
theorem dropWhile_join (x : Nat) (w0 : Str) (ws : List Str) (h0 : x ∉ w0) (h : ∀ w ∈ ws, x ∉ w)
    (hm : ∀ w ∈ ws.dropLast, w ≠ []) :
    (join [x] (w0 :: ws)).dropWhile (· == x) =
      join [x] (if w0 = [] then (if ws = [[]] then [] else ws) else w0 :: ws) := by
  cases w0 with
  | cons a w0 =>
    have ha : a ≠ x := by rintro rfl; simp at h0
    cases ws with
    | nil => simp [join, ha]
    | cons b l => simp [join, ha]
  | nil =>
    cases ws with
    | nil => simp [join]
    | cons b l =>
      rw [join_cons _ _ _ (by simp)]
      simp only [List.nil_append, List.singleton_append, List.dropWhile_cons, beq_self_eq_true, if_true]
      cases b with
      | nil =>
        cases l with
        | nil => simp [join]
        | cons c l => exact absurd rfl (hm [] (by simp))
      | cons a b =>
        have ha : a ≠ x := by rintro rfl; exact h (a :: b) (by simp) (by simp)
        cases l with
        | nil => simp [join, ha]
        | cons c l => simp [join, ha]

theorem join_concat (sep : Str) (l : List Str) (a : Str) (h : l ≠ []) :
    join sep (l ++ [a]) = join sep l ++ sep ++ a := by
  induction l with
  | nil => exact absurd rfl h
  | cons b l ih =>
    cases l with
    | nil => simp [join]
    | cons c l =>
      rw [List.cons_append, join_cons sep b (c :: l ++ [a]) (by simp), ih (by simp), join_cons sep b (c :: l) (by simp)]
      simp

/-- Trailing separator characters removed. -/
theorem rstrip_join (x : Nat) (ws : List Str) (h : ∀ w ∈ ws, x ∉ w) (hm : ∀ w ∈ ws.dropLast, w ≠ []) :
    ((join [x] ws).reverse.dropWhile (· == x)).reverse = join [x] (ws.filter (!·.isEmpty)) := by
  rcases List.eq_nil_or_concat ws with rfl | ⟨l, a, rfl⟩
  · simp [join]
  · rw [List.concat_eq_append] at h hm ⊢
    rw [List.dropLast_concat] at hm
    have hl : l.filter (!·.isEmpty) = l := List.filter_eq_self.2 fun w hw => by simpa using hm w hw
    rw [List.filter_append, hl]
    have hend : ∀ w : Str, w ≠ [] → x ∉ w → ∀ p : Str, ((p ++ w).reverse.dropWhile (· == x)).reverse = p ++ w := by
      intro w hw hx p
      rcases List.eq_nil_or_concat w with rfl | ⟨w', c, rfl⟩
      · exact absurd rfl hw
      · have hc : c ≠ x := by rintro rfl; simp at hx
        simp [hc]
    cases a with
    | cons c a =>
      simp only [List.isEmpty_cons, Bool.not_false, List.filter_cons_of_pos, List.filter_nil]
      cases l with
      | nil =>
        have := hend (c :: a) (by simp) (h _ (by simp)) []
        simpa [join] using this
      | cons b l =>
        rw [join_concat _ _ _ (by simp)]
        exact hend (c :: a) (by simp) (h _ (by simp)) _
    | nil =>
      rw [List.filter_cons_of_neg (by simp), List.filter_nil, List.append_nil]
      cases l with
      | nil => simp [join]
      | cons b l =>
        rw [join_concat _ _ _ (by simp), List.append_nil, List.reverse_append]
        simp only [List.reverse_cons, List.reverse_nil, List.nil_append, List.singleton_append,
          List.dropWhile_cons, beq_self_eq_true, if_true]
        rcases List.eq_nil_or_concat (b :: l) with hh | ⟨l', w, hh⟩
        · cases hh
        · rw [List.concat_eq_append] at hh
          rw [hh]
          have hw : w ∈ b :: l := by rw [hh]; simp
          have h1 := hm w hw
          have h2 := h w (by simp at hw ⊢; tauto)
          cases l' with
          | nil =>
            have := hend w h1 h2 []
            simpa [join] using this
          | cons d l' =>
            rw [join_concat _ _ _ (by simp)]
            exact hend w h1 h2 _

theorem stripP_join (x : Nat) (w0 : Str) (ws : List Str) (h0 : x ∉ w0) (h : ∀ w ∈ ws, x ∉ w)
    (hm : ∀ w ∈ ws.dropLast, w ≠ []) :
    stripP (· == x) (join [x] (w0 :: ws)) = join [x] ((w0 :: ws).filter (!·.isEmpty)) := by
  rw [stripP, dropWhile_join x w0 ws h0 h hm]
  by_cases hw : w0 = []
  · subst hw
    simp only [if_true]
    by_cases hs : ws = [[]]
    · subst hs; simp [join]
    · rw [if_neg hs, rstrip_join x ws h hm]; simp
  · rw [if_neg hw, rstrip_join x (w0 :: ws)]
    · intro w hw
      rcases List.mem_cons.1 hw with rfl | hw
      · exact h0
      · exact h w hw
    · intro w hw'
      cases ws with
      | nil => simp at hw'
      | cons b l =>
        rw [List.dropLast_cons_cons] at hw'
        rcases List.mem_cons.1 hw' with rfl | hw'
        · exact hw
        · exact hm w hw'

theorem lower_join (sep : Str) (l : List Str) : lower (join sep l) = join (lower sep) (l.map lower) := by
  induction l with
  | nil => rfl
  | cons a l ih =>
    cases l with
    | nil => rfl
    | cons b l =>
      rw [join_cons sep a (b :: l) (by simp), List.map_cons, join_cons _ _ (List.map lower (b :: l)) (by simp), ← ih]
      simp [lower]

/-- Reading back the words of a join. -/
theorem wordsAux_join (p : Nat → Bool) (x : Nat) (hx : p x = true) (ws : List Str)
    (h : ∀ w ∈ ws, w ≠ [] ∧ ∀ c ∈ w, p c = false) : wordsAux p [] (join [x] ws) = ws := by
  induction ws with
  | nil => simp [join, wordsAux]
  | cons w ws ih =>
    obtain ⟨h1, h2⟩ := h w (by simp)
    have ih := ih fun v hv => h v (by simp [hv])
    cases ws with
    | nil =>
      have := wordsAux_word p w [] [] [] h2 (by simp) (by simp) (by simpa using h1)
      simpa [join, wordsAux] using this
    | cons b l =>
      rw [join_cons _ _ _ (by simp), List.append_assoc,
        wordsAux_word p w [x] _ [] h2 (by simpa using hx) (.inl (by simp)) (by simpa using h1),
        wordsAux_skip p _ _ (by simpa using hx), ih]
      simp

/-- In a join of nonempty words by one other character, that character stands alone between words. -/
theorem join_clean (q : Nat → Prop) (x : Nat) (ws : List Str) (h : ∀ w ∈ ws, w ≠ [] ∧ ∀ c ∈ w, q c) :
    (∀ c ∈ join [x] ws, q c ∨ c = x) ∧ (∀ c, (join [x] ws).head? = some c → q c) ∧
    (∀ c, (join [x] ws).getLast? = some c → q c) ∧
    ∀ u a b v, join [x] ws = u ++ [a, b] ++ v → q a ∨ q b := by
  induction ws with
  | nil => simp [join]
  | cons w ws ih =>
    obtain ⟨hne, hwc⟩ := h w (by simp)
    cases ws with
    | nil =>
      refine ⟨fun c hc => .inl (hwc c hc), fun c hc => hwc c (List.mem_of_mem_head? hc),
        fun c hc => hwc c (List.mem_of_getLast? hc), ?_⟩
      intro u a b v e
      exact .inl (hwc a (by show a ∈ w; rw [show w = u ++ [a, b] ++ v from e]; simp))
    | cons b l =>
      obtain ⟨i1, i2, i3, i4⟩ := ih fun y hy => h y (by simp [hy])
      have hjn : join [x] (b :: l) ≠ [] := by
        have hb := (h b (by simp)).1
        cases l with
        | nil => exact hb
        | cons d l => rw [join_cons _ _ _ (by simp)]; simp
      rw [join_cons _ _ _ (by simp)]
      generalize join [x] (b :: l) = t at i1 i2 i3 i4 hjn
      refine ⟨fun c hc => ?_, ?_, ?_, ?_⟩
      · simp only [List.mem_append, List.mem_singleton] at hc
        rcases hc with (h | h) | h
        · exact .inl (hwc c h)
        · exact .inr h
        · exact i1 c h
      · cases w with
        | nil => exact absurd rfl hne
        | cons a w =>
          intro c hc; simp at hc; subst hc; exact hwc a (by simp)
      · intro c hc
        rw [List.getLast?_append_of_ne_nil _ hjn] at hc
        exact i3 c hc
      · intro u a d v e
        rw [List.append_assoc, List.append_assoc, List.append_eq_append_iff] at e
        rcases e with ⟨e, rfl, h2⟩ | ⟨e, rfl, h2⟩
        · cases e with
          | nil =>
            simp only [List.nil_append, List.cons_append, List.cons.injEq] at h2
            right; exact i2 d (by rw [h2.2]; rfl)
          | cons y e =>
            simp only [List.cons_append, List.nil_append, List.cons.injEq] at h2
            exact i4 e a d v (by rw [h2.2]; simp)
        · cases e with
          | nil =>
            simp only [List.nil_append, List.cons_append, List.cons.injEq] at h2
            right; exact i2 d (by rw [← h2.2]; rfl)
          | cons y e =>
            simp only [List.cons_append, List.nil_append, List.cons.injEq] at h2
            left; rw [h2.1]; exact hwc y (by simp)

end Str

/-! ### Words -/
open Spec in
theorem wordsAux_of {p : Nat → Bool} {s : Str} {ws : List Str} (h : Words p s ws) :
    Str.wordsAux (fun c => !p c) [] s = ws := by
  induction h with
  | @nil g hg =>
    have := Str.wordsAux_skip (fun c => !p c) g [] (by simpa using hg)
    simpa [Str.wordsAux] using this
  | @cons g w s ws hg hw hwp hs _ ih =>
    rw [List.append_assoc, Str.wordsAux_skip _ _ _ (by simpa using hg)]
    cases s with
    | nil =>
      have := Str.wordsAux_word (fun c => !p c) w [] [] [] (by simpa using hwp) (by simp) (.inr rfl) (by simpa using hw)
      rw [← ih, show w ++ [] = w ++ ([] ++ []) from rfl, this]
      simp
    | cons c s =>
      have hc : p c = false := hs c rfl
      have := Str.wordsAux_word (fun c => !p c) w [c] s [] (by simpa using hwp) (by simpa using hc) (.inl (by simp))
        (by simpa using hw)
      rw [← ih, show w ++ c :: s = w ++ ([c] ++ s) from rfl, this]
      simp

open Spec in
theorem words_wordsAux (p : Nat → Bool) (s : Str) : Words p s (Str.wordsAux (fun c => !p c) [] s) := by
  obtain ⟨l, lead, h1, -, h2, h3, h4, h5⟩ := Str.wordsAux_spec (fun c => !p c) s [] (by simp)
  simp only [List.reverse_nil, List.nil_append] at h1
  rw [h2, h1]
  clear h1 h2
  induction l generalizing lead with
  | nil => simpa using Words.nil (p := p) (g := lead) (by simpa using h3)
  | cons q l ih =>
    obtain ⟨a, b, d⟩ := h4 q (by simp)
    have ih := ih q.2 d (fun r hr => h4 r (by simp [hr])) (by
      intro r hr
      cases l with
      | nil => simp at hr
      | cons t l => exact h5 r (by rw [List.dropLast_cons_cons]; simp [hr]))
    rw [List.flatMap_cons, List.map_cons, List.append_assoc, ← List.append_assoc]
    refine Words.cons (by simpa using h3) a (by simpa using b) ?_ ih
    intro c hc
    cases hq : q.2 with
    | nil =>
      cases l with
      | nil => rw [hq] at hc; simp at hc
      | cons t l => exact absurd hq (h5 q (by rw [List.dropLast_cons_cons]; simp))
    | cons x g =>
      rw [hq] at hc d; simp at hc; subst hc; simpa using d x (by simp)

/-! ### normalise_key -/

/-- The alphanumeric words of a text. -/
def alnumWords (s : Str) : List Str := Str.wordsAux (fun c => !isAlnum c) [] s

/-- `[_\W]` -/
def sepSet : CSet := ⟨false, [.ch 95, .notWord], false⟩

theorem NORMALISE_eq : NORMALISE_RE = ⟨.rep true 1 none (.set sepSet), [], 0⟩ := by decide +kernel

theorem has_sep (c : Nat) : sepSet.has c = !isAlnum c := by
  simp only [CSet.has, sepSet, CItem.has, isWord, List.any_cons, List.any_nil]
  by_cases h : c = 95
  · subst h; rfl
  · have : (c == 95) = false := by simpa using h
    simp [this]

theorem normalise_key_eq (s : Str) : normalise_key s = Str.join (py"_") ((alnumWords s).map Str.lower) := by
  obtain ⟨w0, l, h1, h2, h3, h4⟩ := Str.runs_exist (fun c => !isAlnum c) s
  have hw : alnumWords s = (w0 :: l.map Prod.snd).filter (!·.isEmpty) := by
    rw [alnumWords, h1]; exact Str.wordsAux_runs _ l w0 h2 h3
  have hs : NORMALISE_RE.split s = w0 :: l.map Prod.snd := by
    rw [NORMALISE_eq, h1]
    apply Pat.split_spec
    · apply Pat.splits_runs
      · intro c hc; rw [has_sep]; exact h2 c hc
      · intro q hq
        obtain ⟨a, b, d⟩ := h3 q hq
        exact ⟨a, fun c hc => by rw [has_sep]; exact b c hc, fun c hc => by rw [has_sep]; exact d c hc⟩
      · exact h4
    · intro q hq; exact (h3 q hq).1
  have h95 : ∀ w : Str, (∀ c ∈ w, (!isAlnum c) = false) → 95 ∉ w := by
    intro w hw hm
    have := hw 95 hm
    exact absurd this (by decide)
  rw [normalise_key, Pat.sub, hs]
  have := Str.stripP_join 95 w0 (l.map Prod.snd) (h95 w0 h2) (by
    intro w hw
    obtain ⟨q, hq, rfl⟩ := List.mem_map.1 hw
    exact h95 _ (h3 q hq).2.2) (by
    intro w hw
    rw [← List.map_dropLast] at hw
    obtain ⟨q, hq, rfl⟩ := List.mem_map.1 hw
    exact h4 q hq)
  rw [this, ← hw, Str.lower_join]
  rfl

theorem alnum_lower (c : Nat) : isAlnum (lowerC c) = isAlnum c := by
  simp only [lowerC]
  split
  · rename_i h
    simp [isUpper] at h
    have h1 : isAlnum c = true := by simp [isAlnum, isAlpha, isUpper, h]
    have h2 : isAlnum (c + 32) = true := by
      simp only [isAlnum, isAlpha, isLower, Bool.or_eq_true, Bool.and_eq_true, decide_eq_true_eq]; omega
    rw [h1, h2]
  · rfl

theorem wordsAux_lower (s cur : Str) : (Str.wordsAux (fun c => !isAlnum c) cur s).map Str.lower =
    Str.wordsAux (fun c => !isAlnum c) (Str.lower cur) (Str.lower s) := by
  induction s generalizing cur with
  | nil =>
    cases cur with
    | nil => simp [Str.wordsAux, Str.lower]
    | cons a cur => simp [Str.wordsAux, Str.lower]
  | cons c s ih =>
    have e : Str.lower (c :: s) = lowerC c :: Str.lower s := rfl
    rw [e, Str.wordsAux, Str.wordsAux, alnum_lower]
    split
    · cases cur with
      | nil => simpa [Str.lower] using ih []
      | cons a cur => simpa [Str.lower] using ih []
    · have := ih (c :: cur)
      simpa [Str.lower] using this

theorem lowerC_idem (c : Nat) : lowerC (lowerC c) = lowerC c := by
  simp only [lowerC, isUpper, Bool.and_eq_true, decide_eq_true_eq]
  split
  · rw [if_neg]; omega
  · rfl

theorem lower_idem (s : Str) : Str.lower (Str.lower s) = Str.lower s := by
  simp [Str.lower, lowerC_idem]

theorem alnumWords_mem {s w : Str} (h : w ∈ alnumWords s) : w ≠ [] ∧ ∀ c ∈ w, isAlnum c = true := by
  obtain ⟨l, lead, -, -, h2, -, h4, -⟩ := Str.wordsAux_spec (fun c => !isAlnum c) s [] (by simp)
  rw [alnumWords, h2] at h
  obtain ⟨q, hq, rfl⟩ := List.mem_map.1 h
  exact ⟨(h4 q hq).1, fun c hc => by simpa using (h4 q hq).2.1 c hc⟩

/-- The words of a normalised key. -/
theorem alnumWords_key (s : Str) : alnumWords (normalise_key s) = (alnumWords s).map Str.lower := by
  rw [normalise_key_eq, alnumWords]
  apply Str.wordsAux_join _ _ (by decide)
  intro w hw
  obtain ⟨v, hv, rfl⟩ := List.mem_map.1 hw
  obtain ⟨h1, h2⟩ := alnumWords_mem hv
  refine ⟨by simpa [Str.lower] using h1, ?_⟩
  intro c hc
  obtain ⟨d, hd, rfl⟩ := List.mem_map.1 hc
  rw [alnum_lower, h2 d hd]; rfl

/-! ### normalise_string -/

theorem mem_takeWhile {p : Nat → Bool} {l : Str} {c : Nat} (h : c ∈ l.takeWhile p) : p c = true := by
  induction l with
  | nil => simp at h
  | cons a l ih =>
    rw [List.takeWhile_cons] at h
    split at h
    · rcases List.mem_cons.1 h with rfl | h
      · assumption
      · exact ih h
    · simp at h

theorem split_strip (s : Str) : Str.split (Str.strip s) = Str.split s := by
  -- leading and trailing whitespace does not matter
  have hl : ∀ t : Str, Str.split (Str.lstrip t) = Str.split t := by
    intro t
    have : t = t.takeWhile isSpace ++ Str.lstrip t := (List.takeWhile_append_dropWhile).symm
    conv_rhs => rw [this]
    rw [Str.split, Str.split, Str.wordsAux_skip]
    intro c hc
    exact mem_takeWhile hc
  have hr : ∀ t : Str, Str.split (Str.rstrip t) = Str.split t := by
    intro t
    have e : t = Str.rstrip t ++ (t.reverse.takeWhile isSpace).reverse := by
      rw [Str.rstrip, ← List.reverse_append, List.takeWhile_append_dropWhile, List.reverse_reverse]
    have hg : ∀ c ∈ (t.reverse.takeWhile isSpace).reverse, isSpace c = true := by
      intro c hc
      exact mem_takeWhile (List.mem_reverse.1 hc)
    generalize (t.reverse.takeWhile isSpace).reverse = g at e hg
    conv_rhs => rw [e]
    generalize Str.rstrip t = u
    obtain ⟨w0, l, h1, h2, h3, h4⟩ := Str.runs_exist isSpace u
    rw [Str.split, Str.split, h1]
    cases g with
    | nil => simp
    | cons c g =>
      have : w0 ++ l.flatMap (fun q => q.1 ++ q.2) ++ c :: g
          = w0 ++ (l ++ [(c :: g, [])]).flatMap (fun q : Str × Str => q.1 ++ q.2) := by simp
      rw [this, Str.wordsAux_runs _ _ _ h2 h3, Str.wordsAux_runs _ _ _ h2]
      · rw [List.map_append, ← List.cons_append, List.filter_append]; simp
      · intro q hq
        rcases List.mem_append.1 hq with hq | hq
        · exact h3 q hq
        · simp only [List.mem_singleton] at hq; subst hq
          exact ⟨by simp, hg, by simp⟩
  rw [Str.strip, hr, hl]

end Verif

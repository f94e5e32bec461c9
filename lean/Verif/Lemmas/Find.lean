import Verif.Lemmas.NumberRe
import Verif.Lemmas.Num
/-
`search`, `finditer`, `findall`; numbers found in a line.
-/
namespace Verif
open Re NumRe

namespace Pat

/-- A search result is a match at some later cursor. -/
theorem searchFrom_some (p : Pat) : ∀ (post pre : Str) {x : Match}, p.searchFrom pre post = some x →
    ∃ g r, post = g ++ r ∧ p.matchAt (g.reverse ++ pre) r = some x := by
  intro post
  induction post with
  | nil => intro pre x h; exact ⟨[], [], rfl, h⟩
  | cons c post ih =>
    intro pre x h
    rw [searchFrom] at h
    cases hm : p.matchAt pre (c :: post) with
    | some y => rw [hm] at h; simp only at h; cases h; exact ⟨[], c :: post, rfl, hm⟩
    | none =>
      rw [hm] at h
      obtain ⟨g, r, h1, h2⟩ := ih _ h
      exact ⟨c :: g, r, by rw [h1]; rfl, by simpa using h2⟩

/-- Skip a gap in which no match starts. -/
theorem searchFrom_skip (p : Pat) : ∀ (g pre rest : Str),
    (∀ u v, g = u ++ v → v ≠ [] → p.matchAt (u.reverse ++ pre) (v ++ rest) = none) →
    p.searchFrom pre (g ++ rest) = p.searchFrom (g.reverse ++ pre) rest := by
  intro g
  induction g with
  | nil => intros; rfl
  | cons c g ih =>
    intro pre rest h
    have h0 : p.matchAt pre (c :: g ++ rest) = none := h [] (c :: g) rfl (by simp)
    rw [List.cons_append, searchFrom, ← List.cons_append, h0]
    simp only
    rw [ih (c :: pre) rest]
    · simp
    · intro u v e hv
      have := h (c :: u) v (by rw [e]; rfl) hv
      simpa using this

/-- Every element of `finditer` consumes a word of the language, found in the text. -/
theorem findFrom_mem (p : Pat) : ∀ (fuel : Nat) (pre post : Str) (x : Match), x ∈ p.findFrom fuel pre post →
    Re.Lang p.re x.whole := by
  intro fuel
  induction fuel with
  | zero => intro pre post x h; simp [findFrom] at h
  | succ fuel ih =>
    intro pre post x h
    rw [findFrom] at h
    cases hs : p.searchFrom pre post with
    | none => rw [hs] at h; simp at h
    | some y =>
      rw [hs] at h
      obtain ⟨g, r, -, hm⟩ := searchFrom_some p _ _ hs
      have hy := (matchAt_some hm).2.2.1
      simp only at h
      split at h
      · cases ha : y.after with
        | nil => rw [ha] at h; simp at h; rw [h]; exact hy
        | cons c r =>
          rw [ha] at h
          rcases List.mem_cons.1 h with rfl | h
          · exact hy
          · exact ih _ _ _ h
      · rcases List.mem_cons.1 h with rfl | h
        · exact hy
        · exact ih _ _ _ h

theorem findall_mem (p : Pat) {text w : Str} (h : w ∈ p.findall text) : Re.Lang p.re w := by
  obtain ⟨x, hx, rfl⟩ := List.mem_map.1 h
  exact findFrom_mem p _ _ _ x hx

theorem findall_lang {p : Pat} (r : Re) (hp : p.re = r) (text w : Str) (h : w ∈ p.findall text) : Re.Lang r w :=
  hp ▸ findall_mem p h

/-- The next match, given where it is. -/
theorem findFrom_cons (p : Pat) (fuel : Nat) (pre g w rest : Str) (x : Match) (hw : w ≠ [])
    (hgap : ∀ u v, g = u ++ v → v ≠ [] → p.matchAt (u.reverse ++ pre) (v ++ (w ++ rest)) = none)
    (hm : p.matchAt (g.reverse ++ pre) (w ++ rest) = some x) (hx : x.whole = w) :
    p.findFrom (fuel + 1) pre (g ++ (w ++ rest))
      = x :: p.findFrom fuel (w.reverse ++ (g.reverse ++ pre)) rest := by
  have hs : p.searchFrom pre (g ++ (w ++ rest)) = some x := by
    rw [searchFrom_skip p g pre _ hgap]
    cases w with
    | nil => exact absurd rfl hw
    | cons c w => rw [List.cons_append] at hm ⊢; rw [searchFrom, hm]
  obtain ⟨h1, h2, -⟩ := matchAt_some hm
  rw [findFrom, hs]
  have he : w.isEmpty = false := by simpa using hw
  have ha : x.after = rest := by rw [hx] at h1; exact (List.append_cancel_left h1).symm
  simp only [hx, he, Bool.false_eq_true, if_false, ha, h2, List.reverse_reverse]

/-- No match left. -/
theorem findFrom_nil (p : Pat) (fuel : Nat) (pre g : Str)
    (hgap : ∀ u v, g = u ++ v → p.matchAt (u.reverse ++ pre) v = none) :
    p.findFrom fuel pre g = [] := by
  cases fuel with
  | zero => rfl
  | succ fuel =>
    have : p.searchFrom pre g = none := by
      have := searchFrom_skip p g pre [] (by
        intro u v e _; rw [List.append_nil]; exact hgap u v e)
      rw [List.append_nil] at this
      rw [this, searchFrom]
      exact hgap g [] (by simp)
    rw [findFrom, this]

end Pat

/-- Does not contain a digit. -/
def NoDigits (g : Str) : Prop := ∀ c ∈ g, isDigit c = false

theorem num_matchAt_none {pre post : Str} (h : run N ⟨pre, post, []⟩ some = none) :
    Res.NUMBER_RE.matchAt pre post = none := by
  rw [Pat.matchAt_eq, NUMBER_eq, h]; rfl

theorem num_matchAt_some (n : Numeral) (hn : n.Valid) (pre rest : Str) (hp : pre.head? ≠ some 46)
    (hr : EndsNumber rest) :
    ∃ x, Res.NUMBER_RE.matchAt pre (n.text ++ rest) = some x ∧ x.whole = n.text := by
  refine ⟨_, by rw [Pat.matchAt_eq, NUMBER_eq, run_N n hn pre rest [] some _ hp hr rfl]; rfl, ?_⟩
  simp [St.upTo]

theorem num_gap_none (g pre rest : Str) (hd : NoDigits g)
    (hl : ∀ c, g.getLast? = some c → c ≠ 43 ∧ c ≠ 45 ∧ c ≠ 46) :
    ∀ u v, g = u ++ v → v ≠ [] → Res.NUMBER_RE.matchAt (u.reverse ++ pre) (v ++ rest) = none := by
  intro u v e hv
  apply num_matchAt_none
  apply run_N_gap v _ _ _ _ hv
  · intro c hc; exact hd c (by rw [e]; simp [hc])
  · intro c hc
    apply hl c
    rw [e, List.getLast?_append]; simp [hc]

theorem num_tail_none (g pre : Str) (hd : NoDigits g) :
    ∀ u v, g = u ++ v → Res.NUMBER_RE.matchAt (u.reverse ++ pre) v = none := by
  intro u v e
  apply num_matchAt_none
  apply run_none
  intro w t hs hw
  exfalso
  obtain ⟨p, d, q, rfl, hdd, hp⟩ := lang_N_head hw
  have e' := hs.post
  simp only at e'
  have := hd d (by rw [e, e']; simp)
  rw [this] at hdd; cases hdd

theorem get_numbers_lang (line w : Str) (h : w ∈ Res.get_numbers line) : Lang N w :=
  Pat.findall_lang N (by rw [NUMBER_eq]) line w h

/-- Continuation of a line after a number. -/
inductive NumTail : List (Numeral × Str) → Prop
  | last (n g) : n.Valid → NoDigits g → EndsNumber g → NumTail [(n, g)]
  | cons (n g l) : n.Valid → g ≠ [] → NoDigits g → EndsNumber g →
      (∀ c, g.getLast? = some c → c ≠ 43 ∧ c ≠ 45 ∧ c ≠ 46) → NumTail l → NumTail ((n, g) :: l)

/-- The text of numbers and the gaps after them. -/
def numText (l : List (Numeral × Str)) : Str := l.flatMap fun p => p.1.text ++ p.2

theorem endsNumber_append {g rest : Str} (hg : g ≠ []) (h : EndsNumber g) : EndsNumber (g ++ rest) := by
  cases g with
  | nil => exact absurd rfl hg
  | cons c g => exact ⟨fun d hd => h.noDigit d (by simpa using hd), by simpa using h.noDot, by simpa using h.noE,
      by simpa using h.noSign⟩

theorem find_numbers : ∀ (l : List (Numeral × Str)) (g pre : Str) (fuel : Nat), NumTail l → NoDigits g →
    (∀ c, g.getLast? = some c → c ≠ 43 ∧ c ≠ 45 ∧ c ≠ 46) → (g.reverse ++ pre).head? ≠ some 46 →
    l.length ≤ fuel →
    (Res.NUMBER_RE.findFrom fuel pre (g ++ numText l)).map (·.whole) = l.map (·.1.text) := by
  intro l g pre fuel h
  induction h generalizing g pre fuel with
  | last n g' hn hd he =>
    intro hg hl hp hf
    obtain ⟨fuel, rfl⟩ : ∃ f, fuel = f + 1 := ⟨fuel - 1, by simp at hf; omega⟩
    obtain ⟨x, hx, hw⟩ := num_matchAt_some n hn (g.reverse ++ pre) g' hp he
    simp only [numText, List.flatMap_cons, List.flatMap_nil, List.append_nil]
    rw [Pat.findFrom_cons _ fuel pre g n.text g' x (text_ne_nil n hn) (num_gap_none g pre _ hg hl) hx hw,
      Pat.findFrom_nil]
    · simp [hw]
    · exact num_tail_none g' _ hd
  | cons n g' l hn hne hd he hl' _ ih =>
    intro hg hl hp hf
    obtain ⟨fuel, rfl⟩ : ∃ f, fuel = f + 1 := ⟨fuel - 1, by simp at hf; omega⟩
    obtain ⟨x, hx, hw⟩ := num_matchAt_some n hn (g.reverse ++ pre) (g' ++ numText l) hp (endsNumber_append hne he)
    have e : numText ((n, g') :: l) = n.text ++ (g' ++ numText l) := by simp [numText]
    rw [e, Pat.findFrom_cons _ fuel pre g n.text _ x (text_ne_nil n hn) (num_gap_none g pre _ hg hl) hx hw]
    simp only [List.map_cons, hw]
    refine congrArg (List.cons _) ?_
    apply ih g' _ fuel hd hl'
    · cases hlast : g'.getLast? with
      | none => simp at hlast; exact absurd hlast hne
      | some c =>
        have := hl' c hlast
        rw [List.head?_append, List.head?_reverse, hlast]
        simp; exact this.2.2
    · simp at hf; omega

end Verif
namespace Verif
open Re

/-! ### `split` -/
namespace Pat

/-- `text` from the cursor `pre` on is divided by the matches of `p` into `w0` and the pairs of a match
and the text after it. -/
inductive Splits (p : Pat) : Str → Str → List (Str × Str) → Prop
  | nil (pre w) : (∀ u v, w = u ++ v → p.matchAt (u.reverse ++ pre) v = none) → Splits p pre w []
  | cons (pre w g w' l x) : g ≠ [] →
      (∀ u v, w = u ++ v → v ≠ [] →
        p.matchAt (u.reverse ++ pre) (v ++ (g ++ (w' ++ l.flatMap fun q => q.1 ++ q.2))) = none) →
      p.matchAt (w.reverse ++ pre) (g ++ (w' ++ l.flatMap fun q => q.1 ++ q.2)) = some x → x.whole = g →
      Splits p (g.reverse ++ (w.reverse ++ pre)) w' l → Splits p pre w ((g, w') :: l)

theorem splitAux_spec (p : Pat) {pre w0 : Str} {l : List (Str × Str)} (h : Splits p pre w0 l) (fuel : Nat)
    (hf : l.length ≤ fuel) :
    splitAux (pre.reverse ++ (w0 ++ l.flatMap fun q => q.1 ++ q.2)) pre.length
        (p.findFrom fuel pre (w0 ++ l.flatMap fun q => q.1 ++ q.2)) = w0 :: l.map Prod.snd := by
  induction h generalizing fuel with
  | nil pre w h =>
    rw [List.flatMap_nil, List.append_nil, findFrom_nil p fuel pre w h, splitAux]
    simp
  | cons pre w g w' l x hg hgap hm hx _ ih =>
    obtain ⟨fuel, rfl⟩ : ∃ f, fuel = f + 1 := ⟨fuel - 1, by simp at hf; omega⟩
    have e : ((g, w') :: l).flatMap (fun q => q.1 ++ q.2) = g ++ (w' ++ l.flatMap fun q => q.1 ++ q.2) := by simp
    rw [e, findFrom_cons p fuel pre w g _ x hg hgap hm hx, splitAux]
    have hb := (matchAt_some hm).2.1
    have hbl : x.before.length = pre.length + w.length := by rw [hb]; simp
    have ih := ih fuel (by simp at hf; omega)
    have e2 : (g.reverse ++ (w.reverse ++ pre)).reverse ++ (w' ++ l.flatMap fun q => q.1 ++ q.2)
        = pre.reverse ++ (w ++ (g ++ (w' ++ l.flatMap fun q => q.1 ++ q.2))) := by simp
    have e3 : (g.reverse ++ (w.reverse ++ pre)).length = x.before.length + x.whole.length := by
      rw [hbl, hx]; simp; omega
    rw [e2, e3] at ih
    rw [ih, hbl]
    simp only [List.map_cons]
    congr 1
    have : List.take (pre.length + w.length) (pre.reverse ++ (w ++ (g ++ (w' ++ l.flatMap fun q => q.1 ++ q.2))))
        = pre.reverse ++ w := by
      rw [← List.append_assoc]
      exact List.take_left' (by simp)
    rw [this]
    simp

theorem split_spec (p : Pat) {w0 : Str} {l : List (Str × Str)} (h : Splits p [] w0 l)
    (hl : ∀ q ∈ l, q.1 ≠ []) :
    p.split (w0 ++ l.flatMap fun q => q.1 ++ q.2) = w0 :: l.map Prod.snd := by
  have := splitAux_spec p h ((w0 ++ l.flatMap fun q => q.1 ++ q.2).length + 1) (by
    have : l.length ≤ (l.flatMap fun q => q.1 ++ q.2).length := by
      clear h
      induction l with
      | nil => simp
      | cons q l ih =>
        have h1 := ih fun r hr => hl r (by simp [hr])
        have h2 := List.length_pos_iff.2 (hl q (by simp))
        rw [List.flatMap_cons, List.length_append, List.length_append, List.length_cons]; omega
    rw [List.length_append]; omega)
  simpa [split, finditer] using this

/-- Division of a text at the maximal runs of a character class. -/
theorem splits_runs (cs : CSet) (l : List (Str × Str)) (w0 pre : Str)
    (h0 : ∀ c ∈ w0, cs.has c = false)
    (h : ∀ q ∈ l, q.1 ≠ [] ∧ (∀ c ∈ q.1, cs.has c = true) ∧ ∀ c ∈ q.2, cs.has c = false)
    (hm : ∀ q ∈ l.dropLast, q.2 ≠ []) :
    Splits ⟨.rep true 1 none (.set cs), [], 0⟩ pre w0 l := by
  have hstop : ∀ (pre : Str) (post : Str), Stops cs post →
      matchAt ⟨.rep true 1 none (.set cs), [], 0⟩ pre post = none := by
    intro pre post hs
    rw [matchAt_eq, run_plus_stop true cs 0 none _ _ _ _ hs]; rfl
  induction l generalizing w0 pre with
  | nil =>
    refine .nil pre w0 ?_
    intro u v e
    apply hstop
    intro c hc
    exact h0 c (by rw [e]; simp [List.mem_of_mem_head? hc])
  | cons q l ih =>
    obtain ⟨g, w'⟩ := q
    obtain ⟨h1, h2, h3⟩ := h (g, w') (by simp)
    have hrest : Stops cs (w' ++ l.flatMap fun q => q.1 ++ q.2) := by
      cases l with
      | nil =>
        intro c hc
        simp only [List.flatMap_nil, List.append_nil] at hc
        exact h3 c (List.mem_of_mem_head? hc)
      | cons r l =>
        have hne := hm (g, w') (by simp)
        cases w' with
        | nil => exact absurd rfl hne
        | cons d w' => intro c hc; simp at hc; subst hc; exact h3 d (by simp)
    have hrun := run_plus_all cs 1 g (w0.reverse ++ pre) (w' ++ l.flatMap fun q => q.1 ++ q.2) none [] some _
      (by cases g with | nil => exact absurd rfl h1 | cons => simp) h2 hrest (by simp) rfl
    refine .cons pre w0 g w' l _ h1 ?_ (by rw [matchAt_eq, hrun]; rfl) (by simp [St.upTo]) ?_
    · intro u v e hv
      apply hstop
      intro c hc
      cases v with
      | nil => exact absurd rfl hv
      | cons d v => simp at hc; subst hc; exact h0 d (by rw [e]; simp)
    · apply ih w' _ h3 (fun r hr => h r (by simp [hr]))
      intro r hr
      apply hm
      cases l with
      | nil => simp at hr
      | cons b l => rw [List.dropLast_cons_cons]; exact List.mem_cons_of_mem _ hr

end Pat
end Verif

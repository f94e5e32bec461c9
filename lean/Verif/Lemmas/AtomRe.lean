import Verif.Lemmas.Find
import Verif.Lemmas.Match
import Verif.Spec.Atom
/-
Matching the name of an atom, an index, labelled numbers and a tag.
-/
namespace Verif
open Re NumRe Spec

namespace AtomRe

abbrev sp : CSet := cset [.space]
abbrev wd : CSet := cset [.word]
abbrev lowS : CSet := cset [.range 97 122]
abbrev upS : CSet := cset [.range 65 90]
abbrev ch (c : Nat) : CSet := cset [.ch c]
abbrev notBr : CSet := ⟨true, [.ch 93], false⟩

/-- `(?::\w+)?` -/
abbrev custR : Re := .rep true 0 (some 1) (.seq (.set (ch 58)) (plus wd))
/-- `(?:\s*\[[^\]]+\])?` -/
abbrev labR : Re := .rep true 0 (some 1)
  (.seq (star sp) (.seq (.set (ch 91)) (.seq (plus notBr) (.set (ch 93)))))

/-- `ATOM_NAME_RE` -/
def A : Re := .seq (.wordB false) (.seq (.set upS) (.seq (.rep true 0 (some 2) (.set lowS))
  (.seq custR (.seq (.wordB false) labR))))

/-- `\s+?(?P<..>NUMBER)` -/
abbrev LF (n : Nat) : Re := .seq (.rep false 1 none (.set sp)) (.group n N)

/-- `<--\s*(?P<tag>\w+)` -/
abbrev T (n : Nat) : Re := .seq (.set (ch 60)) (.seq (.set (ch 45)) (.seq (.set (ch 45)) (.seq (star sp) (.group n (plus wd)))))

theorem TAG_eq : Res.TAG_RE = ⟨T 1, [(py"tag", 1)], 1⟩ := by decide +kernel

/-- `ATOMIC_DATA_TAG` -/
abbrev DT : Re := .seq (star sp) (.seq (.group 1 A) (.seq (plus sp) (.seq (.group 2 (plus dig))
  (.seq (LF 3) (.seq (LF 4) (.seq (LF 5) (.seq (star sp) (T 6))))))))

theorem ATOMIC_DATA_TAG_eq : Res.ATOMIC_DATA_TAG = ⟨DT, [(py"spec", 1), (py"index", 2), (py"x", 3), (py"y", 4),
    (py"z", 5), (py"tag", 6)], 6⟩ := by decide +kernel

end AtomRe
open AtomRe

theorem has_sp (c : Nat) : sp.has c = isSpace c := by simp [CSet.has, CItem.has]
theorem has_wd (c : Nat) : wd.has c = isWord c := by simp [CSet.has, CItem.has]
theorem has_ch (a c : Nat) : (ch a).has c = (c == a) := by simp [CSet.has, CItem.has]
theorem has_notBr (c : Nat) : notBr.has c = !(c == 93) := by simp [CSet.has, CItem.has]
theorem has_lowS (c : Nat) : lowS.has c = true ↔ 97 ≤ c ∧ c ≤ 122 := by simp [CSet.has, CItem.has]
theorem has_upS (c : Nat) : upS.has c = true ↔ 65 ≤ c ∧ c ≤ 90 := by simp [CSet.has, CItem.has]

theorem isSpace_not_word {c : Nat} (h : isSpace c = true) : isWord c = false := by
  simp [isSpace] at h
  simp [isWord, isAlnum, isAlpha, isDigit, isUpper, isLower]
  omega

theorem isDigit_not_space {c : Nat} (h : isDigit c = true) : isSpace c = false := by
  simp [isDigit] at h
  simp [isSpace]
  omega

theorem Re.run_opt_take (r : Re) (s : St) (k : St → Option β) (x : β)
    (h : run r s (fun t => if t.post.length < s.post.length then k t else none) = some x) :
    run (.rep true 0 (some 1) r) s k = some x := by
  rw [run_rep_greedy]
  have : (fun t : St => if t.post.length < s.post.length then
      run (.rep true (0 - 1) (Option.map (· - 1) (some 1)) r) t k else none)
      = fun t => if t.post.length < s.post.length then k t else none := by
    funext t
    simp [run_rep_greedy]
  rw [this, h]; simp

theorem Re.run_opt_skip (r : Re) (s : St) (k : St → Option β) (h : ∀ k : St → Option β, run r s k = none) :
    run (.rep true 0 (some 1) r) s k = k s := by
  rw [run_rep_greedy, h]; simp

/-- A text that goes on with whitespace. -/
def SpaceNext (rest : Str) : Prop := ∃ c r, rest = c :: r ∧ isSpace c = true

theorem spaceNext_append {g rest : Str} (hg : Blank g) (hne : g ≠ []) : SpaceNext (g ++ rest) := by
  cases g with
  | nil => exact absurd rfl hne
  | cons c g => exact ⟨c, g ++ rest, rfl, hg c (by simp)⟩

theorem upTo_append (pre w rest caps caps') : (⟨pre, w ++ rest, caps⟩ : St).upTo ⟨w.reverse ++ pre, rest, caps'⟩ = w := by
  simp [St.upTo]

theorem Pat.searchFrom_of_matchAt {p : Pat} {pre post : Str} {x : Match} (h : p.matchAt pre post = some x) :
    p.searchFrom pre post = some x := by
  cases post with
  | nil => exact h
  | cons c post => rw [Pat.searchFrom, h]

theorem Pat.matchAt_of (p : Pat) (pre w rest : Str) (caps : List (Nat × Str))
    (h : run p.re ⟨pre, w ++ rest, []⟩ some = some ⟨w.reverse ++ pre, rest, caps⟩) :
    p.matchAt pre (w ++ rest) = some ⟨pre.reverse, w, rest, caps, p.names, p.ngroups⟩ := by
  rw [Pat.matchAt_eq, h, Option.map_some, upTo_append]

/-- The bracketed label of an atom name. -/
theorem run_label (l : Option (Str × Str)) (hl : ∀ p ∈ l, Blank p.1 ∧ p.2 ≠ [] ∧ c!"]" ∉ p.2)
    (pre rest : Str) (caps) (k : St → Option β) (x : β)
    (hr : l = none → ∀ g r, rest = g ++ r → Blank g → r.head? ≠ some 91)
    (hk : k ⟨(AtomName.labelText l).reverse ++ pre, rest, caps⟩ = some x) :
    run labR ⟨pre, AtomName.labelText l ++ rest, caps⟩ k = some x := by
  cases l with
  | none =>
    rw [labR, run_opt_skip]
    · simpa [AtomName.labelText] using hk
    · intro k
      apply run_none
      intro w t hs hw
      exfalso
      obtain ⟨u, v, rfl, hu, a, b, rfl, ⟨c, hc, rfl⟩, -⟩ := hw
      rw [lang_rep_set] at hu
      rw [has_ch] at hc
      have hp := hs.post
      simp only [AtomName.labelText, List.nil_append] at hp
      refine hr rfl u ([c] ++ b ++ t.post) (by rw [hp]; simp) (fun d hd => ?_) ?_
      · rw [← has_sp]; exact hu.1 d hd
      · simpa using hc
  | some p =>
    obtain ⟨g, s⟩ := p
    obtain ⟨h1, h2, h3⟩ := hl (g, s) rfl
    apply run_opt_take
    have e : AtomName.labelText (some (g, s)) ++ rest = g ++ (91 :: (s ++ 93 :: rest)) := by
      simp [AtomName.labelText]
    rw [e, run_seq]
    apply run_star_all sp g _ _ _ _ _ _ (fun c hc => by rw [has_sp]; exact h1 c hc)
      (by intro c hc; simp at hc; subst hc; rfl) (by simp)
    rw [run_seq, run_set_cons, has_ch, if_pos (by rfl), run_seq]
    apply run_plus_all notBr 1 s _ _ _ _ _ _ (by cases s with | nil => exact absurd rfl h2 | cons c s => simp)
      (fun c hc => by
        rw [has_notBr]
        have : c ≠ 93 := fun e => h3 (e ▸ hc)
        simpa using this)
      (by intro c hc; simp at hc; subst hc; rfl) (by simp)
    rw [run_set_cons, has_ch, if_pos (by rfl), if_pos (by simp; omega)]
    rw [← hk]
    simp [AtomName.labelText]

theorem labelText_head (l : Option (Str × Str)) (hl : ∀ p ∈ l, Blank p.1 ∧ p.2 ≠ [] ∧ c!"]" ∉ p.2) (rest : Str)
    (hrest : SpaceNext rest) : ∃ c r, AtomName.labelText l ++ rest = c :: r ∧ (c = 91 ∨ isSpace c = true) := by
  cases l with
  | none => obtain ⟨c, r, rfl, h⟩ := hrest; exact ⟨c, r, rfl, Or.inr h⟩
  | some p =>
    obtain ⟨g, s⟩ := p
    have h1 := (hl (g, s) rfl).1
    cases g with
    | nil => exact ⟨91, s ++ [93] ++ rest, by simp [AtomName.labelText], Or.inl rfl⟩
    | cons c g => exact ⟨c, g ++ 91 :: (s ++ [93]) ++ rest, by simp [AtomName.labelText], Or.inr (h1 c (by simp))⟩

/-- The name of an atom. -/
theorem run_A (a : AtomName) (ha : a.Valid) (pre rest : Str) (caps) (k : St → Option β) (x : β)
    (hpre : ∀ c, pre.head? = some c → isWord c = false) (hrest : SpaceNext rest)
    (hr : a.label = none → ∀ g r, rest = g ++ r → Blank g → r.head? ≠ some 91)
    (hk : k ⟨a.text.reverse ++ pre, rest, caps⟩ = some x) :
    run A ⟨pre, a.text ++ rest, caps⟩ k = some x := by
  obtain ⟨up, low, cust, lab⟩ := a
  obtain ⟨hup, ⟨hlow, hlow'⟩, hc, hl⟩ := ha
  simp only at hup hlow hlow' hc hl hr
  have hupw : isWord up = true := by simp [isWord, isAlnum, isAlpha, isUpper, isLower]; omega
  obtain ⟨d, r, hd, hd'⟩ := labelText_head lab hl rest hrest
  have hdw : isWord d = false := by
    rcases hd' with rfl | h
    · rfl
    · exact isSpace_not_word h
  have hd58 : d ≠ 58 := by
    rcases hd' with rfl | h
    · decide
    · rintro rfl; simp [isSpace] at h
  have e : AtomName.text ⟨up, low, cust, lab⟩ ++ rest
      = up :: (low ++ (AtomName.customText cust ++ (AtomName.labelText lab ++ rest))) := by
    simp [AtomName.text]
  rw [e, A, run_seq, run_wordB, if_pos (by
    simp only [wordAfter, hupw]
    cases pre with
    | nil => rfl
    | cons c pre => simp [wordBefore, hpre c rfl]), run_seq, run_set_cons, if_pos ((has_upS up).2 hup), run_seq]
  apply run_star_all lowS low _ _ _ _ _ _ (fun c h => (has_lowS c).2 (hlow' c h))
    (by
      intro c h
      have : c = 58 ∨ c = d := by
        cases cust with
        | none => rw [AtomName.customText, List.nil_append, hd] at h; simp at h; exact Or.inr h.symm
        | some s => simp [AtomName.customText] at h; exact Or.inl h.symm
      rcases this with rfl | rfl
      · rfl
      · cases hh : lowS.has c with
        | false => rfl
        | true =>
          have := (has_lowS c).1 hh
          rw [show isWord c = true by simp [isWord, isAlnum, isAlpha, isUpper, isLower]; omega] at hdw
          cases hdw)
    (by simpa using hlow)
  rw [run_seq]
  -- the rest, after the custom name
  have tailrun : ∀ pre', (∃ c q, pre' = c :: q ∧ isWord c = true) →
      pre' = (up :: (low ++ AtomName.customText cust)).reverse ++ pre →
      run (.seq (.wordB false) labR) ⟨pre', AtomName.labelText lab ++ rest, caps⟩ k = some x := by
    rintro pre' ⟨c, q, rfl, hcw⟩ he
    rw [run_seq, run_wordB, if_pos (by
      have h1 : wordAfter ⟨c :: q, AtomName.labelText lab ++ rest, caps⟩ = false := by rw [hd]; simp [wordAfter, hdw]
      have h2 : wordBefore ⟨c :: q, AtomName.labelText lab ++ rest, caps⟩ = true := by simp [wordBefore, hcw]
      rw [h1, h2]; rfl)]
    apply run_label lab hl
    · exact hr
    · rw [← hk, he]; simp [AtomName.text]
  have hlast : ∀ (w : Str), (∀ c ∈ w, isWord c = true) → ∃ c q, (w.reverse ++ (up :: pre)) = c :: q ∧ isWord c = true := by
    intro w hw
    cases hh : w.reverse with
    | nil => exact ⟨up, pre, rfl, hupw⟩
    | cons c q => exact ⟨c, q ++ up :: pre, rfl, hw c (by
        have : c ∈ w.reverse := by rw [hh]; simp
        simpa using this)⟩
  have hlw : ∀ c ∈ low, isWord c = true := by
    intro c h; have := hlow' c h; simp [isWord, isAlnum, isAlpha, isLower]; omega
  cases cust with
  | none =>
    rw [custR, run_opt_skip]
    · rw [show AtomName.customText none = [] from rfl, List.nil_append]
      exact tailrun _ (hlast low hlw) (by simp [AtomName.customText])
    · intro k'
      rw [show AtomName.customText none = [] from rfl, List.nil_append, hd, run_seq, run_set_cons, has_ch, if_neg]
      simpa using hd58
  | some s =>
    obtain ⟨hs, hsw⟩ := hc s rfl
    apply run_opt_take
    rw [show AtomName.customText (some s) = 58 :: s from rfl, List.cons_append, run_seq, run_set_cons, has_ch,
      if_pos (by rfl)]
    apply run_plus_all wd 1 s _ _ _ _ _ _ (by cases s with | nil => exact absurd rfl hs | cons c s => simp)
      (fun c h => by rw [has_wd]; exact hsw c h) (by
        intro c h; rw [hd] at h; simp at h; subst h; rw [has_wd]; exact hdw) (by simp)
    rw [if_pos (by simp; omega)]
    refine tailrun _ ?_ (by simp [AtomName.customText])
    cases hh : s.reverse with
    | nil => simp at hh; exact absurd hh hs
    | cons c q => exact ⟨c, _, rfl, hsw c (by
        have : c ∈ s.reverse := by rw [hh]; simp
        simpa using this)⟩

/-- A gap and a labelled number. -/
theorem run_LF (i : Nat) (g : Str) (n : Numeral) (hg : Blank g) (hne : g ≠ []) (hn : n.Valid) (pre rest : Str) (caps)
    (k : St → Option β) (x : β) (hr : EndsNumber rest)
    (hk : k ⟨(g ++ n.text).reverse ++ pre, rest, (i, n.text) :: caps⟩ = some x) :
    run (LF i) ⟨pre, g ++ (n.text ++ rest), caps⟩ k = some x := by
  rw [LF, run_seq]
  have hsp : ∀ c, isSpace c = true → isDigit c = false ∧ c ≠ 43 ∧ c ≠ 45 ∧ c ≠ 46 := by
    intro c hc
    simp [isSpace] at hc
    simp [isDigit]
    omega
  have hlast : ∀ c, g.getLast? = some c → isSpace c = true := fun c hc => hg c (List.mem_of_getLast? hc)
  apply run_lazy_all sp 1 g _ _ _ _ _ (by cases g with | nil => exact absurd rfl hne | cons c g => simp)
    (fun c hc => by rw [has_sp]; exact hg c hc)
  · intro u v e hv _
    rw [run_group]
    apply run_N_gap v _ _ _ _ hv (fun c hc => (hsp c (hg c (by rw [e]; simp [hc]))).1)
    intro c hc
    exact (hsp c (hg c (by rw [e]; exact List.mem_append_right _ (List.mem_of_getLast? hc)))).2
  · rw [run_group]
    apply run_N n hn _ _ _ _ _ ?_ hr
    · rw [upTo_append, ← hk]; simp
    · cases hh : g.reverse with
      | nil => simp at hh; exact absurd hh hne
      | cons c q =>
        have := (hsp c (hg c (by have : c ∈ g.reverse := by rw [hh]; simp
                                 simpa using this))).2.2.2
        simpa using this

/-- A tag. -/
theorem run_T (i : Nat) (g tag tail : Str) (hg : Blank g) (ht : tag ≠ []) (htw : ∀ c ∈ tag, isWord c = true)
    (htail : ∀ c, tail.head? = some c → isWord c = false) (pre : Str) (caps) (k : St → Option β) (x : β)
    (hk : k ⟨(py"<--" ++ (g ++ tag)).reverse ++ pre, tail, (i, tag) :: caps⟩ = some x) :
    run (T i) ⟨pre, py"<--" ++ (g ++ (tag ++ tail)), caps⟩ k = some x := by
  show run (T i) ⟨pre, 60 :: 45 :: 45 :: (g ++ (tag ++ tail)), caps⟩ k = some x
  rw [T, run_seq, run_set_cons, has_ch, if_pos (by rfl), run_seq, run_set_cons, has_ch, if_pos (by rfl), run_seq,
    run_set_cons, has_ch, if_pos (by rfl), run_seq]
  apply run_star_all sp g _ _ _ _ _ _ (fun c hc => by rw [has_sp]; exact hg c hc) (by
    intro c hc
    cases tag with
    | nil => exact absurd rfl ht
    | cons d tag =>
      simp at hc; subst hc
      rw [has_sp]
      cases hh : isSpace d with
      | false => rfl
      | true => have := htw d (by simp); rw [isSpace_not_word hh] at this; cases this) (by simp)
  rw [run_group]
  apply run_plus_all wd 1 tag _ _ _ _ _ _ (by cases tag with | nil => exact absurd rfl ht | cons c s => simp)
    (fun c h => by rw [has_wd]; exact htw c h) (fun c h => by rw [has_wd]; exact htail c h) (by simp)
  rw [upTo_append, ← hk]
  simp

end Verif

import Verif.Lemmas.Regex
import Verif.Model.Res
import Verif.Spec.Number
/-
The number patterns of castep_res.py: their syntax trees, their languages, and how they match.
-/
namespace Verif
open Re

/-- `[..]` without negation or case folding. -/
abbrev cset (l : List CItem) : CSet := ⟨false, l, false⟩

namespace NumRe

abbrev dig : CSet := cset [.digit]
abbrev dot : CSet := cset [.ch 46]
abbrev pm : CSet := cset [.ch 43, .ch 45]
abbrev ee : CSet := cset [.ch 69, .ch 101]
abbrev star (cs : CSet) : Re := .rep true 0 none (.set cs)
abbrev plus (cs : CSet) : Re := .rep true 1 none (.set cs)
abbrev opt (cs : CSet) : Re := .rep true 0 (some 1) (.set cs)

/-- `FNUMBER_RE` -/
def F : Re := .seq (opt pm) (.alt (.seq (star dig) (.seq (.set dot) (plus dig)))
  (.seq (plus dig) (.seq (.set dot) (star dig))))
/-- `INTNUMBER_RE` -/
def I : Re := .seq (opt pm) (.seq (.behind true dot) (.seq (plus dig) (.ahead true (.set dot))))
/-- exponent part -/
def X : Re := .seq (.set ee) (.seq (opt pm) (.rep true 1 (some 3) (.set dig)))
/-- `EXPNUMBER_RE` -/
def E : Re := .seq (.alt F I) X
/-- `NUMBER_RE` -/
def N : Re := .alt E (.alt F I)
/-- `EXPFNUMBER_RE` -/
def EF : Re := .alt E F

theorem NUMBER_eq : Res.NUMBER_RE = ⟨N, [], 0⟩ := by decide +kernel

end NumRe
open NumRe

/-! ### Characters -/

theorem has_dig (c : Nat) : dig.has c = isDigit c := by simp [CSet.has, CItem.has]
theorem has_dot (c : Nat) : dot.has c = (c == 46) := by simp [CSet.has, CItem.has]
theorem has_pm (c : Nat) : pm.has c = (c == 43 || c == 45) := by simp [CSet.has, CItem.has]
theorem has_ee (c : Nat) : ee.has c = (c == 69 || c == 101) := by simp [CSet.has, CItem.has]

theorem isDigit_iff (c : Nat) : isDigit c = true ↔ 48 ≤ c ∧ c ≤ 57 := by simp [isDigit]

theorem allDigits_iff (s : Str) : Numeral.AllDigits s ↔ ∀ c ∈ s, dig.has c = true := by
  simp [Numeral.AllDigits, has_dig, isDigit_iff]

/-! ### Languages -/

theorem lang_rep_set (g : Bool) (mn : Nat) (mx : Option Nat) (cs : CSet) (w : Str) :
    Lang (.rep g mn mx (.set cs)) w ↔
      (∀ c ∈ w, cs.has c = true) ∧ mn ≤ w.length ∧ ∀ M, mx = some M → w.length ≤ M := by
  simp only [Lang]
  constructor
  · rintro ⟨ws, rfl, h1, h2, h3⟩
    have hl : ws.flatten.length = ws.length := by
      clear h1 h2
      induction ws with
      | nil => rfl
      | cons u ws ih =>
        obtain ⟨c, _, rfl⟩ := h3 u (by simp)
        simp [ih fun v hv => h3 v (by simp [hv])]
    refine ⟨?_, by omega, fun M hM => by rw [hl]; exact h2 M hM⟩
    intro c hc
    obtain ⟨u, hu, hcu⟩ := List.mem_flatten.1 hc
    obtain ⟨d, hd, rfl⟩ := h3 u hu
    rw [List.mem_singleton.1 hcu]; exact hd
  · rintro ⟨h1, h2, h3⟩
    refine ⟨w.map fun c => [c], ?_, by simpa using h2, by simpa using h3, ?_⟩
    · clear h1 h2 h3
      induction w with
      | nil => rfl
      | cons c w ih => simp at ih ⊢; exact ih
    · intro u hu
      obtain ⟨c, hc, rfl⟩ := List.mem_map.1 hu
      exact ⟨c, h1 c hc, rfl⟩

/-- The texts of optional signs. -/
theorem lang_sign (w : Str) : Lang (opt pm) w ↔ ∃ sg, w = Numeral.signText sg := by
  rw [opt, lang_rep_set]
  constructor
  · rintro ⟨h, -, h1⟩
    have h1 := h1 1 rfl
    match w, h, h1 with
    | [], _, _ => exact ⟨none, rfl⟩
    | [c], h, _ =>
      have := h c (by simp)
      rw [has_pm] at this
      simp only [Bool.or_eq_true, beq_iff_eq] at this
      rcases this with rfl | rfl
      · exact ⟨some false, rfl⟩
      · exact ⟨some true, rfl⟩
  · rintro ⟨sg, rfl⟩
    match sg with
    | none => simp [Numeral.signText]
    | some true => simp [Numeral.signText, has_pm]
    | some false => simp [Numeral.signText, has_pm]

theorem lang_F {w : Str} (h : Lang F w) : ∃ n : Numeral, n.Valid ∧ n.exp = none ∧ n.frac.isSome ∧ w = n.text := by
  obtain ⟨u, v, rfl, hu, hv⟩ := h
  obtain ⟨sg, rfl⟩ := (lang_sign u).1 hu
  rcases hv with ⟨a, b, rfl, ha, c, d, rfl, hc, hd⟩ | ⟨a, b, rfl, ha, c, d, rfl, hc, hd⟩
  all_goals
    rw [lang_rep_set] at ha hd
    obtain ⟨p, hp, rfl⟩ := hc
    rw [has_dot] at hp
    obtain rfl := beq_iff_eq.1 hp
    refine ⟨⟨sg, a, some d, none⟩, ⟨(allDigits_iff _).2 ha.1, (allDigits_iff _).2 hd.1, ?_, by simp⟩, rfl, rfl, ?_⟩
  · have := hd.2.1
    simp; intro _ h; simp [h] at this
  · simp [Numeral.text, Numeral.fracText, Numeral.expText]
  · have := ha.2.1
    simp; intro h; simp [h] at this
  · simp [Numeral.text, Numeral.fracText, Numeral.expText]

theorem lang_I {w : Str} (h : Lang I w) : ∃ n : Numeral, n.Valid ∧ n.exp = none ∧ n.frac = none ∧ w = n.text := by
  obtain ⟨u, v, rfl, hu, a, b, rfl, ha, c, d, rfl, hc, hd⟩ := h
  obtain ⟨sg, rfl⟩ := (lang_sign u).1 hu
  obtain rfl : a = [] := ha
  obtain rfl : d = [] := hd
  rw [lang_rep_set] at hc
  refine ⟨⟨sg, c, none, none⟩, ⟨(allDigits_iff _).2 hc.1, by simp [Numeral.AllDigits], ?_, by simp⟩, rfl, rfl, ?_⟩
  · have := hc.2.1
    simp; intro h; simp [h] at this
  · simp [Numeral.text, Numeral.fracText, Numeral.expText]

theorem lang_FI {w : Str} (h : Lang (.alt F I) w) : ∃ n : Numeral, n.Valid ∧ n.exp = none ∧ w = n.text := by
  rcases h with h | h
  · obtain ⟨n, h1, h2, -, h3⟩ := lang_F h; exact ⟨n, h1, h2, h3⟩
  · obtain ⟨n, h1, h2, -, h3⟩ := lang_I h; exact ⟨n, h1, h2, h3⟩

theorem lang_E {w : Str} (h : Lang E w) : ∃ n : Numeral, n.Valid ∧ n.exp.isSome ∧ w = n.text := by
  obtain ⟨u, v, rfl, hu, a, b, rfl, ⟨p, hp, rfl⟩, c, d, rfl, hc, hd⟩ := h
  obtain ⟨⟨sg, ip, fr, ex⟩, ⟨h1, h2, h3, -⟩, h0, rfl⟩ := lang_FI hu
  obtain ⟨sg', rfl⟩ := (lang_sign c).1 hc
  rw [lang_rep_set] at hd
  rw [has_ee] at hp
  simp only [Bool.or_eq_true, beq_iff_eq] at hp
  refine ⟨⟨sg, ip, fr, some (p == 69, sg', d)⟩, ⟨h1, h2, h3, ?_⟩, rfl, ?_⟩
  · rintro e he
    obtain rfl := (Option.some.inj he).symm
    exact ⟨(allDigits_iff _).2 hd.1, hd.2.1, hd.2.2 3 rfl⟩
  · obtain rfl : ex = none := h0
    rcases hp with rfl | rfl <;> simp [Numeral.text, Numeral.expText]

/-- Every word of the number pattern is a printed number. -/
theorem lang_N {w : Str} (h : Lang N w) : ∃ n : Numeral, n.Valid ∧ w = n.text := by
  rcases h with h | h
  · obtain ⟨n, h1, -, h2⟩ := lang_E h; exact ⟨n, h1, h2⟩
  · obtain ⟨n, h1, -, h2⟩ := lang_FI h; exact ⟨n, h1, h2⟩

/-! ### Matching -/

/-- What may follow a number for it to be read in full. -/
structure EndsNumber (rest : Str) : Prop where
  noDigit : ∀ c, rest.head? = some c → isDigit c = false
  noDot : rest.head? ≠ some 46
  noE : rest.head? ≠ some 69 ∧ rest.head? ≠ some 101
  noSign : rest.head? ≠ some 43 ∧ rest.head? ≠ some 45

theorem EndsNumber.nil : EndsNumber [] := ⟨by simp, by simp, by simp, by simp⟩

theorem EndsNumber.space {c : Nat} {rest : Str} (h : isSpace c = true) : EndsNumber (c :: rest) := by
  have h1 : ∀ d, isSpace d = true → isDigit d = false ∧ d ≠ 46 ∧ d ≠ 69 ∧ d ≠ 101 ∧ d ≠ 43 ∧ d ≠ 45 := by
    intro d hd
    simp [isSpace] at hd
    simp [isDigit]
    omega
  obtain ⟨a, b, e, f, g, i⟩ := h1 c h
  exact ⟨by simp [a], by simp [b], by simp [e, f], by simp [g, i]⟩

theorem EndsNumber.stops {rest : Str} (h : EndsNumber rest) : Stops dig rest := by
  intro c hc; rw [has_dig]; exact h.noDigit c hc

theorem stops_pm_digit {s rest : Str} (h : ∀ c ∈ s, dig.has c = true) (hs : s ≠ []) : Stops pm (s ++ rest) := by
  intro c hc
  cases s with
  | nil => exact absurd rfl hs
  | cons d s =>
    simp at hc; subst hc
    have := h d (by simp)
    rw [has_dig, isDigit_iff] at this
    rw [has_pm]; simp; omega

theorem stops_dig_dot (rest : Str) : Stops dig (46 :: rest) := by
  intro c hc; simp at hc; subst hc; rfl

/-- The optional sign: takes a printed sign; if none is printed, passes. -/
theorem run_sign (sg : Option Bool) (pre rest : Str) (caps) (k : St → Option β) (x : β)
    (hr : sg = none → Stops pm rest)
    (hk : k ⟨(Numeral.signText sg).reverse ++ pre, rest, caps⟩ = some x) :
    run (opt pm) ⟨pre, Numeral.signText sg ++ rest, caps⟩ k = some x := by
  match sg with
  | none => rw [opt]; simp only [Numeral.signText, List.nil_append]; rw [run_star_stop _ _ _ _ _ _ _ (hr rfl)]; exact hk
  | some true =>
    simp only [Numeral.signText, List.cons_append, List.nil_append, List.reverse_cons, List.reverse_nil] at hk ⊢
    rw [run_opt_cons _ _ _ _ _ _ (by rfl), hk]; simp
  | some false =>
    simp only [Numeral.signText, List.cons_append, List.nil_append, List.reverse_cons, List.reverse_nil] at hk ⊢
    rw [run_opt_cons _ _ _ _ _ _ (by rfl), hk]; simp

/-- Digits, point, digits. -/
theorem run_F (sg : Option Bool) (ip fr pre rest : Str) (caps) (k : St → Option β) (x : β)
    (hi : Numeral.AllDigits ip) (hf : Numeral.AllDigits fr) (hne : ip ++ fr ≠ [])
    (hr : Stops dig rest)
    (hk : k ⟨(Numeral.signText sg ++ ip ++ 46 :: fr).reverse ++ pre, rest, caps⟩ = some x) :
    run F ⟨pre, Numeral.signText sg ++ ip ++ 46 :: fr ++ rest, caps⟩ k = some x := by
  rw [allDigits_iff] at hi hf
  rw [F, run_seq, List.append_assoc, List.append_assoc]
  apply run_sign
  · intro _
    cases ip with
    | nil => intro c hc; simp at hc; subst hc; rfl
    | cons d ip => exact stops_pm_digit hi (by simp)
  rw [run_alt]
  have hk' : k ⟨fr.reverse ++ (46 :: (ip.reverse ++ ((Numeral.signText sg).reverse ++ pre))), rest, caps⟩ = some x := by
    rw [← hk]; simp
  by_cases hfr : fr = []
  · subst hfr
    have h1 : run (.seq (star dig) (.seq (.set dot) (plus dig)))
        ⟨(Numeral.signText sg).reverse ++ pre, ip ++ (46 :: [] ++ rest), caps⟩ k = none := by
      apply run_none
      rintro w t hs ⟨a, b, rfl, ha, c, d, rfl, ⟨p, hp, rfl⟩, hd⟩
      exfalso
      rw [lang_rep_set] at ha hd
      rw [has_dot] at hp
      obtain rfl := beq_iff_eq.1 hp
      have e := hs.post
      simp only [List.append_assoc, List.cons_append, List.nil_append] at e
      -- both sides: digits, then a point
      have key : ∀ (a ip : Str) (y z : Str), (∀ c ∈ a, dig.has c = true) → (∀ c ∈ ip, dig.has c = true) →
          ip ++ 46 :: y = a ++ 46 :: z → y = z := by
        intro a
        induction a with
        | nil =>
          intro ip y z _ h2 he
          cases ip with
          | nil => simpa using he
          | cons c ip =>
            simp at he
            have := h2 c (by simp); rw [he.1] at this; exact absurd this (by decide)
        | cons c a ih =>
          intro ip y z h1 h2 he
          cases ip with
          | nil =>
            simp at he
            have := h1 c (by simp); rw [← he.1] at this; exact absurd this (by decide)
          | cons c' ip =>
            simp at he
            exact ih ip y z (fun d hd => h1 d (by simp [hd])) (fun d hd => h2 d (by simp [hd])) he.2
      have := key a ip _ _ ha.1 hi e
      cases d with
      | nil => have := hd.2.1; simp at this
      | cons c d =>
        rw [List.cons_append] at this
        have h1 := hr c (by rw [this]; rfl)
        rw [hd.1 c (by simp)] at h1
        cases h1
    rw [h1, Option.none_or, run_seq]
    have hip : ip ≠ [] := by simpa using hne
    apply run_plus_all
    · cases ip with
      | nil => exact absurd rfl hip
      | cons _ _ => simp
    · exact hi
    · exact stops_dig_dot _
    · simp
    simp only [List.cons_append, List.nil_append, run_seq, run_set_cons]
    rw [if_pos (by rfl), run_star_stop _ _ _ _ _ _ _ hr]
    simpa using hk'
  · have h1 : run (.seq (star dig) (.seq (.set dot) (plus dig)))
        ⟨(Numeral.signText sg).reverse ++ pre, ip ++ (46 :: fr ++ rest), caps⟩ k = some x := by
      rw [run_seq]
      apply run_star_all _ _ _ _ _ _ _ _ hi (stops_dig_dot _) (by simp)
      simp only [run_seq, run_set_cons]
      rw [if_pos (by rfl)]
      apply run_plus_all _ _ _ _ _ _ _ _ _ _ hf hr (by simp) hk'
      cases fr with
      | nil => exact absurd rfl hfr
      | cons _ _ => simp
    rw [h1]; rfl

/-- `F` needs a point. -/
theorem run_F_none (sg : Option Bool) (ip pre rest : Str) (caps) (k : St → Option β)
    (hi : Numeral.AllDigits ip) (hne : ip ≠ []) (hr : Stops dig rest) (hd : rest.head? ≠ some 46) :
    run F ⟨pre, Numeral.signText sg ++ ip ++ rest, caps⟩ k = none := by
  rw [allDigits_iff] at hi
  apply run_none
  intro w t hs hl
  exfalso
  -- the word is sign, digits, point
  have hw : ∃ sg' a z, w = Numeral.signText sg' ++ a ++ 46 :: z ∧ ∀ c ∈ a, dig.has c = true := by
    obtain ⟨u, v, rfl, hu, hv⟩ := hl
    obtain ⟨sg', rfl⟩ := (lang_sign u).1 hu
    rcases hv with ⟨a, b, rfl, ha, c, d, rfl, ⟨p, hp, rfl⟩, hd⟩ | ⟨a, b, rfl, ha, c, d, rfl, ⟨p, hp, rfl⟩, hd⟩
    all_goals
      rw [lang_rep_set] at ha
      rw [has_dot] at hp
      obtain rfl := beq_iff_eq.1 hp
      exact ⟨sg', a, d, by simp, ha.1⟩
  obtain ⟨sg', a, z, rfl, ha⟩ := hw
  have e := hs.post
  simp only [List.append_assoc, List.cons_append] at e
  generalize hz : z ++ t.post = z' at e
  have key : ∀ (ip a : Str), (∀ c ∈ a, dig.has c = true) → (∀ c ∈ ip, dig.has c = true) →
      ip ++ rest = a ++ 46 :: z' → False := by
    intro ip
    induction ip with
    | nil =>
      intro a ha _ he
      cases a with
      | nil => simp at he; rw [he] at hd; simp at hd
      | cons c a =>
        have := hr c (by simp at he; rw [he]; rfl)
        rw [ha c (by simp)] at this; cases this
    | cons c ip ih =>
      intro a ha hip he
      cases a with
      | nil => simp at he; have := hip c (by simp); rw [he.1] at this; exact absurd this (by decide)
      | cons c' a =>
        simp at he
        exact ih a (fun d hd => ha d (by simp [hd])) (fun d hd => hip d (by simp [hd])) he.2
  -- signs agree
  have hd0 : ∃ c ip', ip = c :: ip' := by cases ip with | nil => exact absurd rfl hne | cons c l => exact ⟨c, l, rfl⟩
  obtain ⟨c, ip', hip'⟩ := hd0
  have hc : 48 ≤ c ∧ c ≤ 57 := by
    have := hi c (by simp [hip']); rwa [has_dig, isDigit_iff] at this
  have hh : ∀ d a', a = d :: a' → 48 ≤ d ∧ d ≤ 57 := by
    intro d a' h; have := ha d (by simp [h]); rwa [has_dig, isDigit_iff] at this
  rcases sg with _ | sg <;> rcases sg' with _ | sg'
  · exact key ip a ha hi (by simpa [Numeral.signText] using e)
  · cases sg' <;> simp [Numeral.signText, hip'] at e <;> omega
  · cases sg <;> cases a with
      | nil => simp [Numeral.signText] at e
      | cons d a' => have := hh d a' rfl; simp [Numeral.signText] at e; omega
  · cases sg <;> cases sg' <;> simp [Numeral.signText] at e
    · exact key ip a ha hi e
    · exact key ip a ha hi e

/-- An integer. -/
theorem run_I (sg : Option Bool) (ip pre rest : Str) (caps) (k : St → Option β) (x : β)
    (hi : Numeral.AllDigits ip) (hne : ip ≠ []) (hp : sg = none → pre.head? ≠ some 46)
    (hr : Stops dig rest) (hd : rest.head? ≠ some 46)
    (hk : k ⟨(Numeral.signText sg ++ ip).reverse ++ pre, rest, caps⟩ = some x) :
    run I ⟨pre, Numeral.signText sg ++ ip ++ rest, caps⟩ k = some x := by
  rw [allDigits_iff] at hi
  rw [I, run_seq, List.append_assoc]
  apply run_sign
  · intro _; exact stops_pm_digit hi hne
  rw [run_seq]
  have hb : ∀ (k' : St → Option β), run (.behind true dot)
      ⟨(Numeral.signText sg).reverse ++ pre, ip ++ rest, caps⟩ k' =
        k' ⟨(Numeral.signText sg).reverse ++ pre, ip ++ rest, caps⟩ := by
    intro k'
    match sg, hp with
    | none, hp =>
      cases pre with
      | nil => simp only [Numeral.signText, List.reverse_nil, List.nil_append]; rw [run_behind_nil]; rfl
      | cons c pre =>
        simp only [Numeral.signText, List.reverse_nil, List.nil_append]; rw [run_behind_cons]
        have : c ≠ 46 := by simpa using hp rfl
        simp [has_dot, this]
    | some true, _ => simp only [Numeral.signText, List.reverse_cons, List.reverse_nil, List.nil_append, List.cons_append]; rw [run_behind_cons]; rfl
    | some false, _ => simp only [Numeral.signText, List.reverse_cons, List.reverse_nil, List.nil_append, List.cons_append]; rw [run_behind_cons]; rfl
  rw [hb, run_seq]
  apply run_plus_all _ _ _ _ _ _ _ _ _ _ hi hr (by simp)
  · rw [run_ahead, run_set_stops]
    · simpa using hk
    · intro c hc; rw [has_dot]; simp; rintro rfl; exact hd hc
  · cases ip with
    | nil => exact absurd rfl hne
    | cons _ _ => simp

/-- Mantissa of a number. -/
theorem run_FI (n : Numeral) (hn : n.Valid) (he : n.exp = none) (pre rest : Str) (caps) (k : St → Option β) (x : β)
    (hp : pre.head? ≠ some 46) (hr : Stops dig rest) (hd : rest.head? ≠ some 46)
    (hk : k ⟨n.text.reverse ++ pre, rest, caps⟩ = some x) :
    run (.alt F I) ⟨pre, n.text ++ rest, caps⟩ k = some x := by
  obtain ⟨sg, ip, fr, ex⟩ := n
  obtain rfl : ex = none := he
  obtain ⟨h1, h2, h3, -⟩ := hn
  rw [run_alt]
  match fr with
  | some fr =>
    have : run F ⟨pre, (⟨sg, ip, some fr, none⟩ : Numeral).text ++ rest, caps⟩ k = some x := by
      simp only [Numeral.text, Numeral.fracText, Numeral.expText, List.append_nil] at hk ⊢
      exact run_F sg ip fr pre rest caps k x h1 h2 h3 hr hk
    rw [this]; rfl
  | none =>
    simp only [Option.getD_none, List.append_nil] at h3
    simp only [Numeral.text, Numeral.fracText, Numeral.expText, List.append_nil] at hk ⊢
    rw [run_F_none sg ip pre rest caps k h1 h3 hr hd, Option.none_or]
    exact run_I sg ip pre rest caps k x h1 h3 (fun _ => hp) hr hd hk

/-- A word of `E` contains an `e` preceded only by sign, digits, point. -/
theorem lang_E_split {w : Str} (h : Lang E w) : ∃ u c v, w = u ++ c :: v ∧ (c = 69 ∨ c = 101) ∧
    ∀ d ∈ u, isDigit d = true ∨ d = 43 ∨ d = 45 ∨ d = 46 := by
  obtain ⟨n, hn, he, rfl⟩ := lang_E h
  obtain ⟨sg, ip, fr, ex⟩ := n
  obtain ⟨h1, h2, -, -⟩ := hn
  match ex, he with
  | some (up, sg', ds), _ =>
    refine ⟨Numeral.signText sg ++ ip ++ Numeral.fracText fr, if up then 69 else 101, Numeral.signText sg' ++ ds, ?_, ?_, ?_⟩
    · cases up <;> simp [Numeral.text, Numeral.expText]
    · cases up <;> simp
    · intro d hd
      simp only [List.mem_append] at hd
      rcases hd with (hd | hd) | hd
      · right
        match sg, hd with
        | some true, hd => simp [Numeral.signText] at hd; omega
        | some false, hd => simp [Numeral.signText] at hd; omega
      · left; rw [isDigit_iff]; exact h1 d hd
      · match fr, h2, hd with
        | some fr, h2, hd =>
          simp [Numeral.fracText] at hd
          rcases hd with rfl | hd
          · simp
          · left; rw [isDigit_iff]; exact h2 d hd

/-- Characters of a number without exponent. -/
theorem text_chars (n : Numeral) (hn : n.Valid) (he : n.exp = none) :
    ∀ d ∈ n.text, isDigit d = true ∨ d = 43 ∨ d = 45 ∨ d = 46 := by
  obtain ⟨sg, ip, fr, ex⟩ := n
  obtain rfl : ex = none := he
  obtain ⟨h1, h2, -, -⟩ := hn
  intro d hd
  simp only [Numeral.text, Numeral.expText, List.append_nil, List.mem_append] at hd
  rcases hd with (hd | hd) | hd
  · right
    match sg, hd with
    | some true, hd => simp [Numeral.signText] at hd; omega
    | some false, hd => simp [Numeral.signText] at hd; omega
  · left; rw [isDigit_iff]; exact h1 d hd
  · match fr, h2, hd with
    | some fr, h2, hd =>
      simp [Numeral.fracText] at hd
      rcases hd with rfl | hd
      · simp
      · left; rw [isDigit_iff]; exact h2 d hd

theorem text_ne_nil (n : Numeral) (hn : n.Valid) : n.text ≠ [] := by
  obtain ⟨sg, ip, fr, ex⟩ := n
  obtain ⟨-, -, h3, -⟩ := hn
  simp only [Numeral.text]
  intro h
  simp only [List.append_eq_nil_iff] at h
  match fr, h, h3 with
  | none, h, h3 => exact h3 (by simp [h.1.1.2])
  | some fr, h, h3 => simp [Numeral.fracText] at h

/-- If one list is cut in two ways, one left part is a prefix of the other. -/
theorem append_cases {a b c d : List α} (h : a ++ b = c ++ d) :
    (∃ e, c = a ++ e ∧ b = e ++ d) ∨ (∃ x e, a = c ++ x :: e ∧ d = x :: e ++ b) := by
  rcases List.append_eq_append_iff.1 h with ⟨e, h1, h2⟩ | ⟨e, h1, h2⟩
  · exact Or.inl ⟨e, h1, h2⟩
  · cases e with
    | nil => exact Or.inl ⟨[], by simp at h1; simp [h1], by simp at h2; simp [h2]⟩
    | cons x e => exact Or.inr ⟨x, e, h1, by simpa using h2⟩

/-- Without an exponent, `E` does not match. -/
theorem run_E_none (n : Numeral) (hn : n.Valid) (he : n.exp = none) (pre rest : Str) (caps)
    (k : St → Option β) (hr : EndsNumber rest) :
    run E ⟨pre, n.text ++ rest, caps⟩ k = none := by
  apply run_none
  intro w t hs hl
  exfalso
  obtain ⟨u, c, v, rfl, hc, hu⟩ := lang_E_split hl
  have e := hs.post
  simp only [List.append_assoc, List.cons_append] at e
  rcases append_cases e with ⟨y, h1, h2⟩ | ⟨x, y, h1, h2⟩
  · cases y with
    | nil =>
      simp at h2
      rcases hc with rfl | rfl
      · exact hr.noE.1 (by rw [h2]; rfl)
      · exact hr.noE.2 (by rw [h2]; rfl)
    | cons d y =>
      have hd := hu d (by rw [h1]; simp)
      have hh : rest.head? = some d := by rw [h2]; rfl
      rcases hd with hd | rfl | rfl | rfl
      · rw [hr.noDigit d hh] at hd; cases hd
      · exact hr.noSign.1 hh
      · exact hr.noSign.2 hh
      · exact hr.noDot hh
  · simp at h2
    have := text_chars n hn he x (by rw [h1]; simp)
    rw [← h2.1] at this
    rcases hc with rfl | rfl <;> simp [isDigit] at this

/-- Exponent part. -/
theorem run_X (up : Bool) (sg : Option Bool) (ds pre rest : Str) (caps) (k : St → Option β) (x : β)
    (hds : Numeral.AllDigits ds) (h1 : 1 ≤ ds.length) (h3 : ds.length ≤ 3) (hr : Stops dig rest)
    (hk : k ⟨(Numeral.expText (some (up, sg, ds))).reverse ++ pre, rest, caps⟩ = some x) :
    run X ⟨pre, Numeral.expText (some (up, sg, ds)) ++ rest, caps⟩ k = some x := by
  rw [allDigits_iff] at hds
  rw [X, run_seq]
  have hne : ds ≠ [] := by rintro rfl; simp at h1
  have key : run (.seq (opt pm) (.rep true 1 (some 3) (.set dig)))
      ⟨(if up then 69 else 101) :: pre, Numeral.signText sg ++ ds ++ rest, caps⟩ k = some x := by
    rw [run_seq, List.append_assoc]
    apply run_sign
    · intro _; exact stops_pm_digit hds hne
    apply run_plus_all _ _ _ _ _ _ _ _ _ h1 hds hr
    · rintro M ⟨⟩; exact h3
    · rw [← hk]; cases up <;> simp [Numeral.expText]
  cases up
  · simp only [Numeral.expText, Bool.false_eq_true, if_false, List.cons_append, List.nil_append, run_set_cons]
    rw [if_pos (by rfl)]
    simpa using key
  · simp only [Numeral.expText, if_true, List.cons_append, List.nil_append, run_set_cons]
    rw [if_pos (by rfl)]
    simpa using key

/-- `EXPNUMBER_RE` on a number with exponent. -/
theorem run_E (n : Numeral) (hn : n.Valid) (he : n.exp.isSome) (pre rest : Str) (caps)
    (k : St → Option β) (x : β) (hp : pre.head? ≠ some 46) (hr : Stops dig rest)
    (hk : k ⟨n.text.reverse ++ pre, rest, caps⟩ = some x) :
    run E ⟨pre, n.text ++ rest, caps⟩ k = some x := by
  obtain ⟨sg, ip, fr, ex⟩ := n
  match ex, he with
  | some (up, sg', ds), _ =>
    obtain ⟨h1, h2, h3, h4⟩ := hn
    obtain ⟨h5, h6, h7⟩ := h4 _ rfl
    have hs : Stops dig (Numeral.expText (some (up, sg', ds)) ++ rest) ∧
        (Numeral.expText (some (up, sg', ds)) ++ rest).head? ≠ some 46 := by
      cases up <;> simp [Numeral.expText, Stops, has_dig, isDigit]
    rw [E, run_seq]
    have ht : (⟨sg, ip, fr, some (up, sg', ds)⟩ : Numeral).text ++ rest =
        (⟨sg, ip, fr, none⟩ : Numeral).text ++ (Numeral.expText (some (up, sg', ds)) ++ rest) := by
      simp [Numeral.text, Numeral.expText]
    rw [ht]
    apply run_FI ⟨sg, ip, fr, none⟩ ⟨h1, h2, h3, by simp⟩ rfl _ _ _ _ _ hp hs.1 hs.2
    apply run_X _ _ _ _ _ _ _ _ h5 h6 h7 hr
    rw [← hk]
    simp [Numeral.text, Numeral.expText]

/-- The number pattern reads a printed number in full. -/
theorem run_N (n : Numeral) (hn : n.Valid) (pre rest : Str) (caps)
    (k : St → Option β) (x : β) (hp : pre.head? ≠ some 46) (hr : EndsNumber rest)
    (hk : k ⟨n.text.reverse ++ pre, rest, caps⟩ = some x) :
    run N ⟨pre, n.text ++ rest, caps⟩ k = some x := by
  rw [N, run_alt]
  cases he : n.exp with
  | some e =>
    rw [run_E n hn (by simp [he]) pre rest caps k x hp hr.stops hk]; rfl
  | none =>
    rw [run_E_none n hn he pre rest caps k hr, Option.none_or]
    exact run_FI n hn he pre rest caps k x hp hr.stops hr.noDot hk

/-- Where a number can start. -/
theorem lang_N_head {w : Str} (h : Lang N w) :
    ∃ p d q, w = p ++ d :: q ∧ isDigit d = true ∧ ∀ c ∈ p, c = 43 ∨ c = 45 ∨ c = 46 := by
  obtain ⟨⟨sg, ip, fr, ex⟩, ⟨h1, h2, h3, -⟩, rfl⟩ := lang_N h
  have hsg : ∀ c ∈ Numeral.signText sg, c = 43 ∨ c = 45 ∨ c = 46 := by
    intro c hc
    match sg, hc with
    | some true, hd => simp [Numeral.signText] at hd; omega
    | some false, hd => simp [Numeral.signText] at hd; omega
  cases ip with
  | cons d ip =>
    refine ⟨Numeral.signText sg, d, ip ++ Numeral.fracText fr ++ Numeral.expText ex, by simp [Numeral.text], ?_, hsg⟩
    rw [isDigit_iff]; exact h1 d (by simp)
  | nil =>
    match fr, h3, h2 with
    | none, h3, _ => simp at h3
    | some [], h3, _ => simp at h3
    | some (d :: fr), _, h2 =>
      refine ⟨Numeral.signText sg ++ [46], d, fr ++ Numeral.expText ex, by simp [Numeral.text, Numeral.fracText], ?_, ?_⟩
      · rw [isDigit_iff]; exact h2 d (by simp)
      · intro c hc
        rcases List.mem_append.1 hc with hc | hc
        · exact hsg c hc
        · simp at hc; simp [hc]

/-- In a text without digits that does not end in sign or point, no number starts. -/
theorem run_N_gap (g pre rest : Str) (caps) (k : St → Option β) (hg : g ≠ [])
    (hd : ∀ c ∈ g, isDigit c = false) (hl : ∀ c, g.getLast? = some c → c ≠ 43 ∧ c ≠ 45 ∧ c ≠ 46) :
    run N ⟨pre, g ++ rest, caps⟩ k = none := by
  apply run_none
  intro w t hs hw
  exfalso
  obtain ⟨p, d, q, rfl, hdd, hp⟩ := lang_N_head hw
  have e := hs.post
  simp only [List.append_assoc, List.cons_append] at e
  rcases append_cases e with ⟨y, h1, h2⟩ | ⟨x, y, h1, h2⟩
  · have hlast : g.getLast hg ∈ p := by rw [h1]; simp
    have := hl _ (List.getLast?_eq_some_getLast hg)
    have := hp _ hlast
    omega
  · simp at h2
    have := hd x (by rw [h1]; simp)
    rw [← h2.1, hdd] at this; cases this

end Verif

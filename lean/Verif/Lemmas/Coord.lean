import Verif.Lemmas.TypeConv
import Verif.Lemmas.Find
import Verif.Lemmas.TrailWs
import Verif.Spec.Coord
/-
How `FLOAT_RAT_RE` reads coordinates.
-/
namespace Verif
open Re NumRe Spec

/-- `FLOAT_RAT_RE` -/
def FR : Re := .alt Rat (.alt EF I)

theorem FLOAT_RAT_eq : Res.FLOAT_RAT_RE = ⟨FR, [], 0⟩ := by decide +kernel

theorem no_slash (n : Numeral) (hn : n.Valid) : 47 ∉ n.text := by
  intro h
  obtain ⟨h1, h2, -, h4⟩ := hn
  have hs : ∀ sg, 47 ∉ Numeral.signText sg := by
    intro sg; rcases sg with _ | _ | _ <;> simp [Numeral.signText]
  simp only [Numeral.text, List.mem_append] at h
  rcases h with ((h | h) | h) | h
  · exact hs _ h
  · have := h1 47 h; omega
  · cases hf : n.frac with
    | none => rw [hf] at h; simp [Numeral.fracText] at h
    | some fr =>
      rw [hf] at h h2
      simp only [Numeral.fracText, List.mem_cons] at h
      rcases h with h | h
      · cases h
      · have := h2 47 h; omega
  · cases he : n.exp with
    | none => rw [he] at h; simp [Numeral.expText] at h
    | some e =>
      obtain ⟨up, sg, ds⟩ := e
      rw [he] at h
      have := (h4 _ he).1
      simp only [Numeral.expText, List.mem_append] at h
      rcases h with (h | h) | h
      · cases up <;> simp at h
      · exact hs _ h
      · have := this 47 h; omega

/-- No ratio starts with a number not followed by a slash. -/
theorem run_Rat_num (n : Numeral) (hn : n.Valid) (pre rest : Str) (caps)
    (k : St → Option β) (hr : EndsNumber rest) (hs : rest.head? ≠ some 47) :
    run Rat ⟨pre, n.text ++ rest, caps⟩ k = none := by
  apply run_none
  intro w t hst hl
  exfalso
  obtain ⟨u, v, rfl, hu, a, b, rfl, ha, c, d, rfl, ⟨p, hp, rfl⟩, -⟩ := hl
  obtain rfl : u = [] := hu
  have hp : p = 47 := by simpa [CSet.has, CItem.has] using hp
  subst hp
  obtain ⟨n', hn', he', -, rfl⟩ := lang_I ha
  have e := hst.post
  simp only [List.nil_append, List.append_assoc, List.cons_append] at e
  rcases append_cases e with ⟨y, h1, h2⟩ | ⟨x, y, h1, h2⟩
  · cases y with
    | nil => rw [h2] at hs; simp at hs
    | cons x y =>
      have hx := text_chars n' hn' he' x (by rw [h1]; simp)
      have hh : rest.head? = some x := by rw [h2]; rfl
      rcases hx with hx | rfl | rfl | rfl
      · rw [hr.noDigit x hh] at hx; cases hx
      · exact hr.noSign.1 hh
      · exact hr.noSign.2 hh
      · exact hr.noDot hh
  · have hx : x = 47 := by simpa using (congrArg List.head? h2).symm
    subst hx
    exact no_slash n hn (by rw [h1]; simp)

/-- What may follow a coordinate: nothing or whitespace. -/
def AtGap (rest : Str) : Prop := ∀ c, rest.head? = some c → isSpace c = true

theorem AtGap.nil : AtGap [] := by intro c hc; cases hc
theorem AtGap.ends {rest : Str} (h : AtGap rest) : EndsNumber rest := by
  cases rest with
  | nil => exact .nil
  | cons c r => exact .space (h c rfl)
theorem AtGap.blank {g : Str} (h : Blank g) : AtGap g := by
  intro c hc
  cases g with
  | nil => cases hc
  | cons d g => cases hc; exact h _ (by simp)
theorem AtGap.append {g r : Str} (h : Blank g) (hg : g ≠ []) : AtGap (g ++ r) := by
  cases g with
  | nil => exact absurd rfl hg
  | cons d g => intro c hc; cases hc; exact h _ (by simp)

theorem space_cases {c : Nat} (h : isSpace c = true) :
    isWord c = false ∧ isDigit c = false ∧ c ≠ 43 ∧ c ≠ 45 ∧ c ≠ 46 ∧ c ≠ 47 := by
  simp [isSpace] at h
  simp [isWord, isAlnum, isAlpha, isDigit, isUpper, isLower]
  omega

/-- What may precede a coordinate. -/
def Before (pre : Str) : Prop := ∀ c, pre.head? = some c → isWord c = false ∧ c ≠ 46

theorem AtGap.before {pre : Str} (h : AtGap pre) : Before pre := fun c hc =>
  ⟨(space_cases (h c hc)).1, (space_cases (h c hc)).2.2.2.2.1⟩

/-- `FLOAT_RAT_RE` reads a coordinate in full. -/
theorem run_FR (c : Coord) (hc : c.Valid) (pre rest : Str) (caps)
    (k : St → Option β) (x : β) (hp : Before pre) (hr : AtGap rest)
    (hk : k ⟨c.text.reverse ++ pre, rest, caps⟩ = some x) :
    run FR ⟨pre, c.text ++ rest, caps⟩ k = some x := by
  have hp46 : pre.head? ≠ some 46 := by
    intro h; exact (hp _ h).2 rfl
  have hr47 : rest.head? ≠ some 47 := by
    intro h; exact (space_cases (hr _ h)).2.2.2.2.2 rfl
  rw [FR, run_alt]
  cases c with
  | num n =>
    rw [show (Coord.num n).text = n.text from rfl] at *
    rw [run_Rat_num n hc pre rest caps k hr.ends hr47, Option.none_or]
    have := run_N n hc pre rest caps k x hp46 hr.ends hk
    rw [N, run_alt, run_alt] at this
    rw [run_alt, EF, run_alt]
    rw [← this, Option.or_assoc]
  | ratio p q =>
    obtain ⟨h1, h2, h3, h4⟩ := hc
    have h5 : q ≠ [] := by rintro rfl; exact h4 rfl
    have : run Rat ⟨pre, (Coord.ratio p q).text ++ rest, caps⟩ k = some x := by
      have hw : ∀ (s : Str) (r : Str), Numeral.AllDigits s → s ≠ [] → ∃ c t, s ++ r = c :: t ∧ isWord c = true := by
        intro s r hs hne
        cases s with
        | nil => exact absurd rfl hne
        | cons c s =>
          refine ⟨c, s ++ r, rfl, ?_⟩
          have := hs c (by simp)
          simp [isWord, isAlnum, isDigit, this]
      rw [Rat, run_seq, run_wordB]
      have hb : (wordBefore ⟨pre, (Coord.ratio p q).text ++ rest, caps⟩
          != wordAfter ⟨pre, (Coord.ratio p q).text ++ rest, caps⟩) = true := by
        obtain ⟨c, t, e, hcw⟩ := hw p (47 :: q ++ rest) h1 h2
        have e : (Coord.ratio p q).text ++ rest = c :: t := by rw [← e]; simp [Coord.text]
        rw [e]
        cases pre with
        | nil => simp [wordBefore, wordAfter, hcw]
        | cons d pre => simp [wordBefore, wordAfter, hcw, (hp d rfl).1]
      rw [hb]
      simp only [bne_self_eq_false, Bool.true_bne, Bool.not_false, if_true]
      rw [run_seq]
      have e : (Coord.ratio p q).text ++ rest = Numeral.signText none ++ p ++ (47 :: (q ++ rest)) := by
        simp [Coord.text, Numeral.signText]
      rw [e]
      apply run_I none p pre _ caps _ _ h1 h2 (fun _ => hp46)
      · intro c hc; cases hc; rfl
      · simp
      rw [run_seq, run_set_cons]
      rw [if_pos (by simp [CSet.has, CItem.has])]
      rw [run_seq]
      rw [show q ++ rest = Numeral.signText none ++ q ++ rest by simp [Numeral.signText]]
      apply run_I none q _ rest caps _ _ h3 h5 (fun _ => by simp) hr.ends.stops hr.ends.noDot
      rw [run_wordB]
      have hb : (wordBefore ⟨(Numeral.signText none ++ q).reverse ++ (47 :: ((Numeral.signText none ++ p).reverse ++ pre)), rest, caps⟩
          != wordAfter ⟨(Numeral.signText none ++ q).reverse ++ (47 :: ((Numeral.signText none ++ p).reverse ++ pre)), rest, caps⟩) = true := by
        obtain ⟨c, t, e, hcw⟩ := hw q.reverse (47 :: ((Numeral.signText none ++ p).reverse ++ pre))
          (fun c hc => h3 c (by simpa using hc)) (by simpa using h5)
        rw [Numeral.signText, List.nil_append, List.nil_append]
        rw [Numeral.signText, List.nil_append] at e
        rw [e]
        cases rest with
        | nil => simp [wordBefore, wordAfter, hcw]
        | cons d rest => simp [wordBefore, wordAfter, hcw, (space_cases (hr d rfl)).1]
      rw [hb]
      simp only [Bool.true_bne, Bool.not_false, if_true]
      rw [← hk]
      simp [Coord.text, Numeral.signText]
    rw [this]; rfl

/-- No coordinate starts with whitespace. -/
theorem run_FR_space (pre : Str) (post : Str) (caps) (k : St → Option β)
    (h : ∀ c, post.head? = some c → isDigit c = false ∧ c ≠ 43 ∧ c ≠ 45 ∧ c ≠ 46) :
    run FR ⟨pre, post, caps⟩ k = none := by
  apply run_none
  intro w t hs hl
  exfalso
  have : ∃ c r, w = c :: r ∧ numChar c := by
    rcases hl with hl | hl | hl
    · exact lang_head_Rat hl
    · exact lang_head_EF hl
    · exact lang_head_I hl
  obtain ⟨c, r, rfl, hc⟩ := this
  have := hs.post
  simp only [List.cons_append] at this
  have := h c (by rw [this]; rfl)
  rcases hc with h1 | h1 | h1 | h1
  · rw [this.1] at h1; cases h1
  · exact this.2.1 h1
  · exact this.2.2.1 h1
  · exact this.2.2.2 h1

theorem coord_ne_nil (c : Coord) (hc : c.Valid) : c.text ≠ [] := by
  cases c with
  | num n => exact text_ne_nil n hc
  | ratio p q => simp [Coord.text]

theorem coord_nospace (c : Coord) (hc : c.Valid) : ∀ x ∈ c.text, isSpace x = false := by
  cases c with
  | num n => exact text_nospace n hc
  | ratio p q =>
    intro x hx
    simp only [Coord.text, List.mem_append, List.mem_cons] at hx
    rcases hx with hx | rfl | hx
    · exact digit_nospace (hc.1 x hx)
    · rfl
    · exact digit_nospace (hc.2.2.1 x hx)

theorem fr_matchAt_none {pre post : Str} (h : ∀ c, post.head? = some c → isDigit c = false ∧ c ≠ 43 ∧ c ≠ 45 ∧ c ≠ 46) :
    Res.FLOAT_RAT_RE.matchAt pre post = none := by
  rw [Pat.matchAt_eq, FLOAT_RAT_eq, run_FR_space pre post [] some h]; rfl

theorem fr_matchAt_some (c : Coord) (hc : c.Valid) (pre rest : Str) (hp : AtGap pre) (hr : AtGap rest) :
    ∃ x, Res.FLOAT_RAT_RE.matchAt pre (c.text ++ rest) = some x ∧ x.whole = c.text := by
  refine ⟨_, by rw [Pat.matchAt_eq, FLOAT_RAT_eq, run_FR c hc pre rest [] some _ hp.before hr rfl]; rfl, ?_⟩
  simp [St.upTo]

theorem blank_gap {g : Str} (hg : Blank g) (u v rest : Str) (e : g = u ++ v) (hv : v ≠ []) :
    ∀ c, (v ++ rest).head? = some c → isDigit c = false ∧ c ≠ 43 ∧ c ≠ 45 ∧ c ≠ 46 := by
  intro c hc
  cases v with
  | nil => exact absurd rfl hv
  | cons d v =>
    cases hc
    have := space_cases (hg c (by rw [e]; simp))
    exact ⟨this.2.1, this.2.2.1, this.2.2.2.1, this.2.2.2.2.1⟩

theorem atGap_reverse {g pre : Str} (hg : Blank g) (h : g ≠ [] ∨ AtGap pre) : AtGap (g.reverse ++ pre) := by
  by_cases h0 : g = []
  · rcases h with h | h
    · exact absurd h0 h
    · subst h0; exact h
  · exact AtGap.append (g := g.reverse) (fun c hc => hg c (by simpa using hc)) (by simpa using h0)

theorem find_row {cs : List Coord} {s : Str} (h : RowTail cs s) : ∀ (g pre : Str) (fuel : Nat), Blank g →
    (g ≠ [] ∨ AtGap pre) → cs.length ≤ fuel →
    (Res.FLOAT_RAT_RE.findFrom fuel pre (g ++ s)).map (·.whole) = cs.map (·.text) := by
  induction h with
  | @last c g' hc hg' =>
    intro g pre fuel hg hp hf
    obtain ⟨fuel, rfl⟩ : ∃ f, fuel = f + 1 := ⟨fuel - 1, by simp at hf; omega⟩
    obtain ⟨x, hx, hw⟩ := fr_matchAt_some c hc (g.reverse ++ pre) g' (atGap_reverse hg hp) (AtGap.blank hg')
    rw [Pat.findFrom_cons _ fuel pre g c.text g' x (coord_ne_nil c hc)
      (fun u v e hv => fr_matchAt_none (blank_gap hg u v _ e hv)) hx hw, Pat.findFrom_nil]
    · simp [hw]
    · intro u v e
      apply fr_matchAt_none
      intro d hd
      by_cases hv : v = []
      · subst hv; cases hd
      · exact blank_gap hg' u v [] e hv d (by simpa using hd)
  | @cons c g' cs s hc hg' hne _ ih =>
    intro g pre fuel hg hp hf
    obtain ⟨fuel, rfl⟩ : ∃ f, fuel = f + 1 := ⟨fuel - 1, by simp at hf; omega⟩
    obtain ⟨x, hx, hw⟩ := fr_matchAt_some c hc (g.reverse ++ pre) (g' ++ s) (atGap_reverse hg hp) (AtGap.append hg' hne)
    rw [Pat.findFrom_cons _ fuel pre g c.text _ x (coord_ne_nil c hc)
      (fun u v e hv => fr_matchAt_none (blank_gap hg u v _ e hv)) hx hw]
    simp only [List.map_cons, hw]
    refine congrArg (List.cons _) ?_
    exact ih g' _ fuel hg' (.inl hne) (by simp at hf; omega)

theorem rowTail_length {cs : List Coord} {s : Str} (h : RowTail cs s) : cs.length ≤ s.length := by
  induction h with
  | last hc _ => have := coord_ne_nil _ hc; have := List.length_pos_iff.2 this; simp; omega
  | cons hc _ _ _ ih => have := coord_ne_nil _ hc; have := List.length_pos_iff.2 this; simp; omega

/-- The numbers of a row. -/
theorem findall_row {line : Str} {cs : List Coord} (h : NumRow line cs) :
    Res.FLOAT_RAT_RE.findall line = cs.map (·.text) := by
  obtain ⟨g, s, hg, hs, rfl⟩ := h
  have := rowTail_length hs
  exact find_row hs g [] _ hg (.inr .nil) (by simp; omega)

/-- A line without digits has no numbers. -/
theorem findall_none {line : Str} (h : ∀ c ∈ line, isDigit c = false) : Res.FLOAT_RAT_RE.findall line = [] := by
  have hd : ∀ w, Lang FR w → ∃ d ∈ w, isDigit d = true := by
    have hN : ∀ w, Lang N w → ∃ d ∈ w, isDigit d = true := by
      intro w hw
      obtain ⟨p, d, q, rfl, hd, -⟩ := lang_N_head hw
      exact ⟨d, by simp, hd⟩
    intro w hl
    rcases hl with hl | hl | hl
    · obtain ⟨u, v, rfl, hu, a, b, rfl, ha, -⟩ := hl
      obtain ⟨d, hd, h⟩ := hN a (.inr (.inr ha))
      exact ⟨d, by simp [hd], h⟩
    · rcases hl with hl | hl
      · exact hN w (.inl hl)
      · exact hN w (.inr (.inl hl))
    · exact hN w (.inr (.inr hl))
  have := Pat.findFrom_nil Res.FLOAT_RAT_RE (line.length + 1) [] line (by
    intro u v e
    rw [Pat.matchAt_eq, FLOAT_RAT_eq]
    have : run FR ⟨u.reverse ++ [], v, []⟩ some = none := by
      apply run_none
      intro w t hs hw
      exfalso
      obtain ⟨d, hdw, hdd⟩ := hd w hw
      have e' := hs.post
      simp only at e'
      have := h d (by rw [e, e']; simp [hdw])
      rw [this] at hdd; cases hdd
    rw [this]; rfl)
  rw [Pat.findall, Pat.finditer, this]; rfl

/-! ### Conversion -/

theorem coord_float (c : Coord) (hc : c.Valid) (hr : c.InRange) :
    ∃ x, to_type .float (.str c.text) = .ok (.float x) ∧ F64.Nearest c.value x := by
  cases c with
  | num n =>
    rcases float_text n hc with ⟨x, h1, h2, h3⟩ | ⟨h1, h2⟩
    · exact ⟨x, by simp [to_type, typeParser, Coord.text, h1, Except.map], h2⟩
    · exact absurd hr (not_lt.2 h2)
  | ratio p q =>
    obtain ⟨h1, h2, h3, h4⟩ := hc
    have h5 : q ≠ [] := by rintro rfl; exact h4 rfl
    have hf : pyFraction (Coord.ratio p q).text = .ok (false, Numeral.nat p, Numeral.nat q) := by
      rw [pyFraction, strip_of_nospace (coord_nospace (.ratio p q) ⟨h1, h2, h3, h4⟩)]
      have ht : takeSign (Coord.ratio p q).text = (false, (Coord.ratio p q).text) := by
        have := takeSign_text none (Coord.ratio p q).text (by
          intro c hc
          cases p with
          | nil => exact absurd rfl h2
          | cons d p =>
            cases hc
            have := h1 c (by simp)
            omega)
        simpa [Numeral.signText] using this
      rw [ht]
      have hb : fracBody (Coord.ratio p q).text = some (Numeral.nat p, Numeral.nat q) := by
        obtain ⟨e1, e2⟩ := takeWhile_digU (ds := p) (rest := 47 :: q) h1 (by intro c hc; cases hc; rfl)
        have hok : fracOk (p ++ 47 :: q) = true := by
          cases p with
          | nil => exact absurd rfl h2
          | cons c p => simp [fracOk, (isDigit_iff c).2 (h1 c (by simp))]
        rw [fracBody, Coord.text, hok]
        simp only [Bool.not_true, Bool.false_eq_true, if_false, e1, e2, digitsOpt_digits h1, digitsU_digits h3 h5]
        rfl
      simp only [hb, h4, if_false]
    have hp : parse_float_or_rational (Coord.ratio p q).text = ratioToF64 false (Numeral.nat p) (Numeral.nat q) := by
      rw [parse_float_or_rational, hf]; rfl
    have hq : 0 < Numeral.nat q := Nat.pos_of_ne_zero h4
    rcases ratioToF64_cases false (Numeral.nat p) (Numeral.nat q) with h | ⟨x, h⟩
    · exfalso
      rw [ratioToF64_overflow false _ _ hq] at h
      apply absurd hr
      rw [Coord.InRange, not_lt, Coord.value, abs_of_nonneg (div_nonneg (Nat.cast_nonneg _) (Nat.cast_nonneg _)),
        le_div_iff₀ (by exact_mod_cast hq)]
      have : ((2 ^ 54 - 1 : ℕ) : ℚ) = 2 ^ 54 - 1 := by norm_num
      rw [← this]
      generalize (2 ^ 54 - 1 : ℕ) = A at *
      have : ((2 ^ 970 : ℕ) : ℚ) = 2 ^ 970 := Nat.cast_pow 2 970
      rw [← this]
      generalize (2 ^ 970 : ℕ) = B at *
      exact_mod_cast h
    · refine ⟨x, by simp [to_type, typeParser, hp, h, Except.map], ?_⟩
      have := ratioToF64_nearest _ _ _ hq x h
      simpa [Coord.value] using this

theorem coords_float (cs : List Coord) (hc : ∀ c ∈ cs, c.Valid ∧ c.InRange) :
    ∃ xs, to_type .float (.list ((cs.map (·.text)).map .str)) = .ok (.tuple (xs.map .float)) ∧ NearestAll cs xs := by
  have : ∃ xs : List F64, toTypeList .float ((cs.map (·.text)).map .str) = .ok (xs.map .float) ∧ NearestAll cs xs := by
    induction cs with
    | nil => exact ⟨[], rfl, .nil⟩
    | cons c cs ih =>
      obtain ⟨xs, h1, h2⟩ := ih fun d hd => hc d (by simp [hd])
      obtain ⟨x, h3, h4⟩ := coord_float c (hc c (by simp)).1 (hc c (by simp)).2
      exact ⟨x :: xs, by simp only [List.map_cons, toTypeList, h3, h1]; rfl, .cons h4 h2⟩
  obtain ⟨xs, h1, h2⟩ := this
  exact ⟨xs, by rw [to_type, h1]; rfl, h2⟩

end Verif

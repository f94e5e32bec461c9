import Verif.Spec.Table
import Verif.Lemmas.TypeConv
import Verif.Lemmas.Strings
import Verif.Model.Header
/-
Lemmas on lines of words, and on reading numbers from them.
-/
namespace Verif
open Spec

theorem Str.contains_iff (sub : Str) : ∀ (s : Str), Str.contains sub s = true ↔ Occurs sub s
  | [] => by
    simp only [Str.contains, Occurs]
    constructor
    · intro h
      cases sub with
      | nil => exact ⟨[], [], rfl⟩
      | cons c cs => simp at h
    · rintro ⟨a, b, h⟩
      have : sub = [] := by
        have := congrArg List.length h; simp at this
        exact List.length_eq_zero_iff.1 (by omega)
      subst this; rfl
  | c :: s => by
    have ih := Str.contains_iff sub s
    simp only [Str.contains, Bool.or_eq_true, ih]
    constructor
    · rintro (h | ⟨a, b, h⟩)
      · obtain ⟨t, ht⟩ := List.isPrefixOf_iff_prefix.1 h
        exact ⟨[], t, by simpa using ht.symm⟩
      · exact ⟨c :: a, b, by rw [h]; rfl⟩
    · rintro ⟨a, b, h⟩
      cases a with
      | nil => exact .inl (List.isPrefixOf_iff_prefix.2 ⟨b, by simpa using h.symm⟩)
      | cons x a => right; simp at h; exact ⟨a, b, by simp [h.2]⟩

theorem fields_split {line : Str} {ws : List Str} (h : Fields line ws) : Str.split line = ws := by
  have := wordsAux_of h
  simpa [Str.split] using this

theorem split_fields (line : Str) : Fields line (Str.split line) := by
  have := words_wordsAux (fun c => !isSpace c) line
  simpa [Str.split] using this

theorem fields_iff (line : Str) (ws : List Str) : Fields line ws ↔ Str.split line = ws :=
  ⟨fields_split, fun h => h ▸ split_fields line⟩

theorem lstrip_nil_iff (s : Str) : Str.lstrip s = [] ↔ Blank s := by
  induction s with
  | nil => simp [Str.lstrip, Blank]
  | cons c s ih =>
    simp only [Str.lstrip, List.dropWhile_cons, Blank] at ih ⊢
    by_cases h : isSpace c = true
    · rw [if_pos h, ih]; simp [h]
    · rw [if_neg h]; simp [h]

theorem strip_isEmpty (s : Str) : (Str.strip s).isEmpty = true ↔ Blank s := by
  rw [List.isEmpty_iff, ← lstrip_nil_iff]
  simp only [Str.strip, Str.rstrip, List.reverse_eq_nil_iff]
  constructor
  · intro h
    by_contra hne
    have hall : ∀ c ∈ (Str.lstrip s).reverse, isSpace c = true := by
      have := (lstrip_nil_iff ((Str.lstrip s).reverse)).1 (by simpa [Str.lstrip] using h)
      exact this
    cases hl : Str.lstrip s with
    | nil => exact hne hl
    | cons c t =>
      have h1 : isSpace c = true := hall c (by simp [hl])
      have h2 : (s.dropWhile isSpace).head? = some c := by
        have : Str.lstrip s = s.dropWhile isSpace := rfl
        rw [← this, hl]; rfl
      have := List.head?_dropWhile_not isSpace s
      rw [h2] at this
      simp [h1] at this
  · intro h; rw [h]; rfl

/-! ### Converting the words of a line -/

theorem toTypeList_map (typ : Ty) (l : List α) (g : α → Str) (f : α → PyVal)
    (h : ∀ x ∈ l, typeParser typ (g x) = .ok (f x)) :
    toTypeList typ (l.map fun x => .str (g x)) = .ok (l.map f) := by
  induction l with
  | nil => rfl
  | cons x l ih =>
    have h1 := h x (by simp)
    have ih := ih fun y hy => h y (by simp [hy])
    simp only [List.map_cons, toTypeList, to_type, h1, ih]
    rfl

theorem to_type_strList (typ : Ty) (l : List α) (g : α → Str) (f : α → PyVal)
    (h : ∀ x ∈ l, typeParser typ (g x) = .ok (f x)) :
    to_type typ (strList (l.map g)) = .ok (.tuple (l.map f)) := by
  have := toTypeList_map typ l g f h
  simp only [strList, to_type, List.map_map, Function.comp_def, this]
  rfl

theorem toTypeList_length (typ : Ty) : ∀ (l l' : List PyVal), toTypeList typ l = .ok l' → l'.length = l.length
  | [], l', h => by cases h; rfl
  | v :: l, l', h => by
    simp only [toTypeList] at h
    cases hv : to_type typ v with
    | error e => rw [hv] at h; cases h
    | ok w =>
      rw [hv] at h
      cases hl : toTypeList typ l with
      | error e => rw [hl] at h; cases h
      | ok m =>
        rw [hl] at h; cases h
        simp [toTypeList_length typ l m hl]

theorem to_type_strList_length (typ : Ty) (ws : List Str) (v : PyVal) (h : to_type typ (strList ws) = .ok v) :
    ∃ vs, v = .tuple vs ∧ vs.length = ws.length := by
  simp only [strList, to_type] at h
  cases hl : toTypeList typ (ws.map .str) with
  | error e => rw [hl] at h; cases h
  | ok m =>
    rw [hl] at h; cases h
    exact ⟨m, rfl, by simpa using toTypeList_length typ _ m hl⟩

/-! ### Reading numbers -/

theorem takeSign_numeral (n : Numeral) (hn : n.Valid) :
    takeSign n.text = (decide (n.sign = some true), n.ip ++ Numeral.fracText n.frac ++ Numeral.expText n.exp) := by
  rw [Numeral.text, List.append_assoc, List.append_assoc]
  rw [takeSign_text, List.append_assoc]
  intro c hc
  obtain ⟨v1, v2, v3, -⟩ := hn
  cases hip : n.ip with
  | cons d ip =>
    rw [hip] at hc; simp at hc; subst hc
    have := v1 d (by simp [hip]); omega
  | nil =>
    rw [hip] at hc v3
    cases hfr : n.frac with
    | none => rw [hfr] at v3; simp at v3
    | some fr => rw [hfr] at hc; simp [Numeral.fracText] at hc; omega

/-- The first character of the unsigned part. -/
theorem body_head (n : Numeral) (hn : n.Valid) : ∃ c r,
    n.ip ++ Numeral.fracText n.frac ++ Numeral.expText n.exp = c :: r ∧ (isDigit c = true ∨ c = 46) := by
  obtain ⟨v1, v2, v3, -⟩ := hn
  cases hip : n.ip with
  | cons d ip => exact ⟨d, _, rfl, .inl ((isDigit_iff d).2 (v1 d (by simp [hip])))⟩
  | nil =>
    cases hfr : n.frac with
    | none => rw [hip, hfr] at v3; simp at v3
    | some fr => exact ⟨46, _, rfl, .inr rfl⟩

theorem body_noslash (n : Numeral) (hn : n.Valid) :
    (c!"/") ∉ n.ip ++ Numeral.fracText n.frac ++ Numeral.expText n.exp := by
  obtain ⟨v1, v2, v3, v4⟩ := hn
  intro h
  rcases List.mem_append.1 h with h | h
  · rcases List.mem_append.1 h with h | h
    · have := v1 _ h; omega
    · cases hfr : n.frac with
      | none => rw [hfr] at h; cases h
      | some fr =>
        rw [hfr] at h v2
        simp only [Numeral.fracText, List.mem_cons] at h
        rcases h with h | h
        · omega
        · have := v2 _ h; omega
  · cases hex : n.exp with
    | none => rw [hex] at h; cases h
    | some e =>
      obtain ⟨up, sg, ds⟩ := e
      rw [hex] at h
      have v4 := (v4 _ hex).1
      simp only [Numeral.expText] at h
      rcases List.mem_append.1 h with h | h
      · rcases List.mem_append.1 h with h | h
        · cases up <;> simp at h
        · match sg, h with
          | some true, h => simp [Numeral.signText] at h
          | some false, h => simp [Numeral.signText] at h
          | none, h => cases h
      · have := v4 _ h; omega

theorem nearest_of_mag_zero (x : F64) (hx : x.bits.val % 2 ^ 63 = 0) : F64.Nearest 0 x := by
  have hb : x.bits.val = 0 ∨ x.bits.val = 2 ^ 63 := by have := x.bits.isLt; omega
  have h0 : x.toRat = 0 := by
    rcases hb with h | h <;> rw [F64.toRat, h]
    · rw [if_pos (by omega)]; simp [F64.mag]
    · rw [if_neg (by omega)]; simp [F64.mag]
  refine ⟨?_, ?_, ?_⟩
  · rw [F64.Finite, hx]; omega
  · intro y _; rw [h0]; simp
  · intro y _ _ _; omega

/-- `float` reads a printed number as the nearest double. -/
theorem pyFloat_text (n : Numeral) (hn : n.Valid) (hr : n.InRange) :
    ∃ x, pyFloat n.text = .ok x ∧ F64.Nearest n.value x := by
  obtain ⟨a, b, h1, h2, h3⟩ := fracBody_text n hn
  obtain ⟨c, r, hb, hc⟩ := body_head n hn
  have hns := body_noslash n hn
  have hlow : ∀ w ∈ [py"inf", py"infinity", py"nan"],
      Str.lower (n.ip ++ Numeral.fracText n.frac ++ Numeral.expText n.exp) ≠ w := by
    intro w hw e
    rw [hb] at e
    have hh : some (lowerC c) = w.head? := by rw [← e]; rfl
    have hlc : lowerC c = c := by
      rcases hc with hc | rfl
      · have := (isDigit_iff c).1 hc
        have hu : isUpper c = false := by simp [isUpper]; omega
        rw [lowerC, hu]; rfl
      · rfl
    rw [hlc] at hh
    have hne : c ≠ 105 ∧ c ≠ 110 := by
      rcases hc with hc | rfl
      · have := (isDigit_iff c).1 hc; omega
      · omega
    simp only [List.mem_cons, List.not_mem_nil, or_false] at hw
    rcases hw with rfl | rfl | rfl <;> simp at hh <;> omega
  have e0 : pyFloat n.text =
      (if a = 0 then .ok ⟨Fin.ofNat _ (if decide (n.sign = some true) then 2 ^ 63 else 0)⟩
       else if roundBits a b < 2047 * 2 ^ 52 then
         .ok ⟨Fin.ofNat _ (roundBits a b + if decide (n.sign = some true) then 2 ^ 63 else 0)⟩
       else .ok ⟨Fin.ofNat _ (2047 * 2 ^ 52 + if decide (n.sign = some true) then 2 ^ 63 else 0)⟩) := by
    rw [pyFloat, strip_of_nospace (text_nospace n hn), takeSign_numeral n hn]
    simp only
    rw [if_neg, if_neg, if_neg hns, h1]
    · exact hlow _ (by simp)
    · simp only [List.mem_cons, List.not_mem_nil, or_false]
      rintro (h | h)
      · exact hlow _ (by simp) h
      · exact hlow _ (by simp) h
  have hval : (if decide (n.sign = some true) then (-1 : ℚ) else 1) * ((a : ℚ) / b) = n.value := by
    rw [← h3, Numeral.sgn]
    by_cases h : n.sign = some true <;> simp [h]
  rw [e0]
  by_cases ha : a = 0
  · rw [if_pos ha]
    refine ⟨_, rfl, ?_⟩
    rw [← hval, ha]
    simp only [Nat.cast_zero, zero_div, mul_zero]
    apply nearest_of_mag_zero
    by_cases h : n.sign = some true
    · simp [h]
    · simp [h]
  · rw [if_neg ha]
    have hbq : (0 : ℚ) < b := by exact_mod_cast h2
    have habs : |n.value| = (a : ℚ) / b := by
      have h0 : (0 : ℚ) ≤ (a : ℚ) / b := div_nonneg (Nat.cast_nonneg _) (Nat.cast_nonneg _)
      rw [← hval, abs_mul, abs_of_nonneg h0]
      split <;> simp
    have hnov : ratioToF64 (decide (n.sign = some true)) a b ≠ .error .overflowError := by
      intro h
      rcases float_text n hn with ⟨x, hx, -, -⟩ | ⟨-, hx⟩
      · obtain ⟨a', b', e1, e2, e3⟩ := pyFraction_text n hn
        rw [pyFraction, strip_of_nospace (text_nospace n hn), takeSign_numeral n hn] at e1
        simp only [h1, h2.ne', if_false] at e1
        rw [parse_float_or_rational, pyFraction, strip_of_nospace (text_nospace n hn), takeSign_numeral n hn] at hx
        simp only [h1, h2.ne', if_false] at hx
        have : ratioToF64 (decide (n.sign = some true)) a b = .ok x := hx
        rw [h] at this; cases this
      · exact absurd hr (not_lt.2 hx)
    rcases ratioToF64_cases (decide (n.sign = some true)) a b with h | ⟨x, h⟩
    · exact absurd h hnov
    · have hlt := (ratioToF64_bits ha h).1
      rw [if_pos hlt]
      have hx := h
      rw [ratioToF64, if_neg ha] at hx
      simp only at hx
      rw [if_pos hlt] at hx
      cases hx
      refine ⟨_, rfl, ?_⟩
      rw [← hval]
      exact ratioToF64_nearest _ a b h2 _ h

/-- The two ways the parsers turn text into floats, on printed numbers. -/
theorem readings : ∃ rd fl : Numeral → F64, ∀ n : Numeral, n.Valid → n.InRange →
    (parse_float_or_rational n.text = .ok (rd n) ∧ F64.Nearest n.value (rd n)) ∧
    (pyFloat n.text = .ok (fl n) ∧ F64.Nearest n.value (fl n)) := by
  classical
  let rd : Numeral → F64 := fun n => match parse_float_or_rational n.text with | .ok x => x | .error _ => ⟨0⟩
  let fl : Numeral → F64 := fun n => match pyFloat n.text with | .ok x => x | .error _ => ⟨0⟩
  refine ⟨rd, fl, fun n hn hr => ⟨?_, ?_⟩⟩
  · rcases float_text n hn with ⟨x, h1, h2, -⟩ | ⟨-, h2⟩
    · simp only [rd, h1]; exact ⟨trivial, h2⟩
    · exact absurd hr (not_lt.2 h2)
  · obtain ⟨x, h1, h2⟩ := pyFloat_text n hn hr
    simp only [fl, h1]; exact ⟨trivial, h2⟩

/-- `rd` and `fl` are the readings of the numerals satisfying `P`. -/
def Readings (rd : Numeral → F64) (ns : List Numeral) : Prop :=
  ∀ n ∈ ns, parse_float_or_rational n.text = .ok (rd n)

theorem typeParser_float {n : Numeral} {x : F64} (h : parse_float_or_rational n.text = .ok x) :
    typeParser .float n.text = .ok (.float x) := by
  simp only [typeParser, h]; rfl

theorem typeParser_int {n : Numeral} (hn : n.Valid) (h : n.IsInt) :
    typeParser .int n.text = .ok (.int (intOf n)) := by
  simp only [typeParser, (pyInt_isInt n hn h).1]; rfl

theorem pyFloat_pad (s g g' : Str) (hg : Blank g) (hg' : Blank g') (hs : ∀ c ∈ s, isSpace c = false) :
    pyFloat (g ++ (s ++ g')) = pyFloat s := by
  have hl : ∀ (l t : Str), Blank l → (l ++ t).dropWhile isSpace = t.dropWhile isSpace := by
    intro l t hb
    induction l with
    | nil => rfl
    | cons c l ih =>
      rw [List.cons_append, List.dropWhile_cons, if_pos (hb c (by simp))]
      exact ih fun d hd => hb d (by simp [hd])
  have h1 : Str.strip (g ++ (s ++ g')) = Str.strip s := by
    cases s with
    | nil =>
      have e1 : Str.strip (g ++ ([] ++ g')) = [] := by
        have := (strip_isEmpty (g ++ ([] ++ g'))).2 (by
          intro c hc
          rcases List.mem_append.1 hc with h | h
          · exact hg c h
          · exact hg' c (by simpa using h))
        exact List.isEmpty_iff.1 this
      rw [e1]; rfl
    | cons c s =>
      rw [Str.strip, Str.lstrip, hl g _ hg, List.cons_append, List.dropWhile_cons, if_neg (by rw [hs c (by simp)]; simp)]
      rw [Str.rstrip, ← List.cons_append, List.reverse_append, hl _ _ (by
        intro d hd; exact hg' d (by simpa using hd))]
      rw [strip_of_nospace hs]
      rw [← List.reverse_inj, List.reverse_reverse]
      cases hr : (c :: s).reverse with
      | nil => rfl
      | cons d t =>
        rw [List.dropWhile_cons, if_neg]
        rw [hs d (by rw [← List.mem_reverse, hr]; simp)]; simp
  rw [pyFloat, h1, ← pyFloat]

end Verif

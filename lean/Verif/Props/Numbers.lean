import Verif.Lemmas.TypeConv
import Verif.Lemmas.Dict
import Verif.Lemmas.Title
/-
Properties C28–C32: type conversion and numbers in text.
-/
namespace Verif.Props
open Verif Verif.Spec

/-! ### C28 -/

/-- C28: `to_type` succeeds with exactly the element-by-element conversion. -/
theorem C28_structure (typ : Ty) (v w : PyVal) :
    to_type typ v = .ok w ↔ Converted (typeParser typ) v w := to_type_ok typ v w

/-- C28: applying it again changes nothing. -/
theorem C28_idempotent (typ : Ty) (v w : PyVal) (h : to_type typ v = .ok w) : to_type typ w = .ok w :=
  (to_type_ok typ w w).2 (converted_fixed ((to_type_ok typ v w).1 h))

/-- C28: it raises exactly when some string does not parse, and the exception is that of the first
such string. -/
theorem C28_raises (typ : Ty) (v : PyVal) (e : PyErr) :
    to_type typ v = .error e ↔
      ∃ before s after, strings v = before ++ s :: after ∧ typeParser typ s = .error e ∧
        ∀ t ∈ before, ∃ x, typeParser typ t = .ok x := by
  rw [to_type_err, firstErr_some]

/-- C28 applies to nested data: a mapping of sequences is converted in place. -/
example : to_type .int (.dict [(.str (py"a"), .list [.str (py"1"), .none, .tuple [.str (py"-22")]])])
    = .ok (.dict [(.str (py"a"), .tuple [.int 1, .none, .tuple [.int (-22)]])]) := by decide +kernel
example : to_type .int (.list [.str (py"1"), .str (py"x")]) = .error .valueError := by decide +kernel

/-- C28 (`fix_data_types`): only the listed keys present are touched, each converted to its type. -/
theorem C28_fix_data_types (d d' : Dict Key PyVal) (types : List (Key × Ty))
    (hnd : (types.map Prod.fst).Nodup) (h : fix_data_types d types = .ok d') (k : Key) :
    match d.get? k, types.find? (·.1 = k) with
    | some v, some (_, typ) => ∃ w, d'.get? k = some w ∧ Converted (typeParser typ) v w
    | v, _ => d'.get? k = v := by
  induction types generalizing d with
  | nil => simp [fix_data_types] at h; subst h; cases d.get? k <;> rfl
  | cons kt types ih =>
    obtain ⟨key, typ⟩ := kt
    simp only [List.map_cons, List.nodup_cons] at hnd
    rw [fix_data_types] at h
    cases hg : d.get? key with
    | none =>
      rw [hg] at h
      have := ih d hnd.2 h
      by_cases hk : key = k
      · subst hk; rw [hg] at this ⊢; simpa using this
      · rw [List.find?_cons_of_neg (by simpa using hk)]; exact this
    | some v =>
      rw [hg] at h
      cases hv : to_type typ v with
      | error e => simp only [hv] at h; cases h
      | ok w =>
        simp only [hv] at h
        have := ih (d.set key w) hnd.2 h
        by_cases hk : key = k
        · subst hk
          have hf : types.find? (fun x => decide (x.1 = key)) = none := by
            rw [List.find?_eq_none]
            intro x hx hxk
            exact hnd.1 (List.mem_map.2 ⟨x, hx, by simpa using hxk⟩)
          rw [Dict.get?_set_self, hf] at this
          rw [hg, List.find?_cons_of_pos (by simp)]
          exact ⟨w, this, (to_type_ok typ v w).1 hv⟩
        · rw [Dict.get?_set_ne _ _ _ _ (Ne.symm hk)] at this
          rw [List.find?_cons_of_neg (by simpa using hk)]
          exact this

example : fix_data_types [(.str (py"n"), .str (py"3")), (.str (py"x"), .str (py"3"))] [(.str (py"n"), .int), (.str (py"q"), .int)]
    = .ok [(.str (py"n"), .int 3), (.str (py"x"), .str (py"3"))] := by decide +kernel

/-! ### C29 -/

/-- C29: everything `get_numbers` returns is a printed number, and converting it to `float` gives the
double nearest to the number written; the only exception possible is an overflow, raised exactly
when the number written rounds beyond the largest double. -/
theorem C29_convertible (line w : Str) (h : w ∈ Res.get_numbers line) :
    ∃ n : Numeral, n.Valid ∧ w = n.text ∧
      ((∃ x, to_type .float (.str w) = .ok (.float x) ∧ F64.Nearest n.value x ∧
          |n.value| < (2 ^ 54 - 1) * 2 ^ 970) ∨
        (to_type .float (.str w) = .error .overflowError ∧ (2 ^ 54 - 1) * 2 ^ 970 ≤ |n.value|)) := by
  have hl := get_numbers_lang line w h
  obtain ⟨n, hn, rfl⟩ := lang_N hl
  refine ⟨n, hn, rfl, ?_⟩
  rcases float_text n hn with ⟨x, h1, h2, h3⟩ | ⟨h1, h2⟩
  · left; exact ⟨x, by simp [to_type, typeParser, h1, Except.map], h2, h3⟩
  · right; exact ⟨by simp [to_type, typeParser, h1, Except.map], h2⟩

/-- A line with labels, signs and exponents. -/
example : Res.get_numbers (py"E = -1.50E+02 eV, n=3") = [py"-1.50E+02", py"3"] := by decide +kernel
/-- The rounding is nontrivial: 0.1 becomes 0x3FB999999999999A. -/
example : to_type .float (.str (py"0.1")) = .ok (.float ⟨0x3FB999999999999A⟩) := by decide +kernel
example : to_type .float (.str (py"1E400")) = .error .overflowError := by decide +kernel

/-! ### C30 -/

/-- C30: a line made of printed numbers and text between them gives exactly the numbers, in order,
unsplit. -/
theorem C30_complete (lead : Str) (l : List (Numeral × Str)) (hlead : Leading lead)
    (hn : ∀ p ∈ l, p.1.Valid) (hb : ∀ p ∈ l.dropLast, Between p.2)
    (ht : ∀ p, l.getLast? = some p → Trailing p.2) :
    Res.get_numbers (lead ++ l.flatMap fun p => p.1.text ++ p.2) = l.map fun p => p.1.text := by
  have dig : ∀ c, ¬ (48 ≤ c ∧ c ≤ 57) → isDigit c = false := by
    intro c h
    cases hc : isDigit c with
    | false => rfl
    | true => exact absurd ((isDigit_iff c).1 hc) h
  have hends : ∀ g : Str, (∀ c ∈ g, ¬ (48 ≤ c ∧ c ≤ 57)) → (∀ c, g.head? = some c → c ∉ py"+-.Ee") →
      EndsNumber g := by
    intro g h1 h2
    cases g with
    | nil => exact .nil
    | cons c g =>
      have h3 := h2 c rfl
      simp at h3
      refine ⟨?_, ?_, ?_, ?_⟩
      · intro d hd; simp at hd; subst hd; exact dig c (h1 c (by simp))
      all_goals simp; omega
  have hlast : ∀ g : Str, (∀ c, g.getLast? = some c → c ∉ py"+-.") →
      ∀ c, g.getLast? = some c → c ≠ 43 ∧ c ≠ 45 ∧ c ≠ 46 := by
    intro g h c hc
    have := h c hc
    simpa using this
  have hlead' : NoDigits lead := fun c hc => dig c (hlead.noDigit c hc)
  rw [Res.get_numbers, Pat.findall, Pat.finditer]
  cases l with
  | nil =>
    rw [List.flatMap_nil, List.append_nil, Pat.findFrom_nil _ _ _ _ (num_tail_none lead [] hlead')]; rfl
  | cons p l =>
    have htail : NumTail (p :: l) := by
      clear hlead hlead'
      induction l generalizing p with
      | nil =>
        obtain ⟨n, g⟩ := p
        have := ht (n, g) rfl
        exact .last n g (hn (n, g) (by simp)) (fun c hc => dig c (this.noDigit c hc)) (hends g this.noDigit this.first)
      | cons q l ih =>
        obtain ⟨n, g⟩ := p
        have := hb (n, g) (by simp)
        refine .cons n g _ (hn (n, g) (by simp)) this.nonempty (fun c hc => dig c (this.noDigit c hc))
          (hends g this.noDigit this.first) (hlast g this.last) (ih q (fun x hx => hn x (by simp [hx])) ?_ ?_)
        · intro x hx
          exact hb x (by rw [List.dropLast_cons_cons]; exact List.mem_cons_of_mem _ hx)
        · intro x hx; exact ht x (by rw [List.getLast?_cons_cons]; exact hx)
    refine find_numbers (p :: l) lead [] _ htail hlead' (hlast lead hlead.last) ?_ ?_
    · rw [List.append_nil, List.head?_reverse]
      cases hc : lead.getLast? with
      | none => simp
      | some c => have := hlast lead hlead.last c hc; simp; exact this.2.2
    · have hlen : ∀ m : List (Numeral × Str), (∀ x ∈ m, x.1.Valid) →
          m.length ≤ (m.flatMap fun x => x.1.text ++ x.2).length := by
        intro m
        induction m with
        | nil => simp
        | cons x m ih =>
          intro hm
          have h1 := ih fun y hy => hm y (by simp [hy])
          have h2 := List.length_pos_iff.2 (text_ne_nil x.1 (hm x (by simp)))
          rw [List.flatMap_cons, List.length_append, List.length_append, List.length_cons]
          omega
      have := hlen (p :: l) hn
      rw [List.length_append]; omega

/-- C30 holds with text between the numbers. -/
example : Res.get_numbers (py"E = -1.50E+02 eV, n=3; x") = [py"-1.50E+02", py"3"] :=
  C30_complete (py"E = ") [(⟨some true, py"1", some (py"50"), some (true, some false, py"02")⟩, py" eV, n="),
    (⟨none, py"3", none, none⟩, py"; x")] ⟨by decide, by decide⟩ (by decide)
    (by simp only [List.dropLast, List.mem_singleton]; rintro p rfl; exact ⟨by decide, by decide, by decide, by decide⟩)
    (by simp only [List.getLast?, List.getLast]; rintro p ⟨⟩; exact ⟨by decide, by decide⟩)

/-- C30, in the words of the property: if every blank-separated token of the line is a printed
number, `get_numbers` returns exactly these tokens. -/
theorem C30_tokens (line : Str) (h : ∀ w ∈ Str.split line, ∃ n : Numeral, n.Valid ∧ w = n.text) :
    Res.get_numbers line = Str.split line := by
  have spDig : ∀ c, isSpace c = true → ¬ (48 ≤ c ∧ c ≤ 57) ∧ c ∉ py"+-.Ee" ∧ c ∉ py"+-." := by
    intro c hc
    simp [isSpace] at hc
    simp
    omega
  obtain ⟨l, lead, h1, h2, h3, h4, h5⟩ := Str.split_spec line
  rw [h2] at h ⊢
  have hex : ∃ m : List (Numeral × Str), l = m.map (fun p => (p.1.text, p.2)) ∧ ∀ p ∈ m, p.1.Valid := by
    clear h1 h2 h4 h5
    induction l with
    | nil => exact ⟨[], rfl, by simp⟩
    | cons q l ih =>
      obtain ⟨m, hm, hv⟩ := ih fun w hw => h w (by simp at hw ⊢; exact .inr hw)
      obtain ⟨n, hn, he⟩ := h q.1 (by simp)
      refine ⟨(n, q.2) :: m, by simp [← hm, ← he], ?_⟩
      intro p hp
      rcases List.mem_cons.1 hp with rfl | hp
      · exact hn
      · exact hv p hp
  obtain ⟨m, rfl, hv⟩ := hex
  have hgap : ∀ p ∈ m, ∀ c ∈ p.2, isSpace c = true := by
    intro p hp
    exact (h4 (p.1.text, p.2) (List.mem_map.2 ⟨p, hp, rfl⟩)).2.2
  have hmem : ∀ p, p ∈ m.dropLast → p ∈ m := fun p hp => List.dropLast_subset m hp
  rw [h1, List.flatMap_map]
  have := C30_complete lead m ⟨fun c hc => (spDig c (h3 c hc)).1, fun c hc => (spDig c (h3 c (List.mem_of_getLast? hc))).2.2⟩
    hv (fun p hp => ⟨?_, ?_, ?_, ?_⟩) (fun p hp => ⟨?_, ?_⟩)
  · rw [List.map_map]; exact this
  · refine h5 (p.1.text, p.2) ?_
    rw [← List.map_dropLast]
    exact List.mem_map.2 ⟨p, hp, rfl⟩
  · intro c hc; exact (spDig c (hgap p (hmem p hp) c hc)).1
  · intro c hc; exact (spDig c (hgap p (hmem p hp) c (List.mem_of_mem_head? hc))).2.1
  · intro c hc; exact (spDig c (hgap p (hmem p hp) c (List.mem_of_getLast? hc))).2.2
  · intro c hc; exact (spDig c (hgap p (List.mem_of_getLast? hp) c hc)).1
  · intro c hc; exact (spDig c (hgap p (List.mem_of_getLast? hp) c (List.mem_of_mem_head? hc))).2.1

example : Str.split (py"  1.0 -.5e3\t+7.") = [py"1.0", py"-.5e3", py"+7."] := by decide
example : Res.get_numbers (py"  1.0 -.5e3\t+7.") = [py"1.0", py"-.5e3", py"+7."] := by
  refine C30_tokens _ ?_
  intro w hw
  have : w = py"1.0" ∨ w = py"-.5e3" ∨ w = py"+7." := by
    have e : Str.split (py"  1.0 -.5e3\t+7.") = [py"1.0", py"-.5e3", py"+7."] := by decide
    rw [e] at hw; simpa using hw
  rcases this with rfl | rfl | rfl
  · exact ⟨⟨none, py"1", some (py"0"), none⟩, by decide, rfl⟩
  · exact ⟨⟨some true, py"", some (py"5"), some (false, none, py"3")⟩, by decide, rfl⟩
  · exact ⟨⟨some false, py"7", some (py""), none⟩, by decide, rfl⟩

/-- C30 (boundary): an exponent of four digits is split, so the restriction to three is needed. -/
theorem C30_long_exponent : Res.get_numbers (py"1E1000") = [py"1E100", py"0"] := by decide +kernel

/-! ### C31 -/

/-- C31 is violated: the first number decides the type of all, so a value such as `0 0.25` raises
`ValueError`; so does a negative fraction. -/
theorem C31_mixed_raises :
    to_type (determine_type (py"0 0.25")) (.list ((Str.split (py"0 0.25")).map .str)) = .error .valueError ∧
    to_type (determine_type (py"-1/2")) (.str (py"-1/2")) = .error .valueError := by decide +kernel

/-- The converted values of a list of printed numbers, as floats. -/
def FloatsOf (ns : List Numeral) (l : List PyVal) : Prop :=
  List.Forall₂ (fun n v => ∃ x, v = .float x ∧ F64.Nearest n.value x) ns l

theorem floats_list (ns : List Numeral) (hn : ∀ n ∈ ns, n.Valid) :
    (∃ l, toTypeList .float (ns.map fun n => .str n.text) = .ok l ∧ FloatsOf ns l) ∨
      (toTypeList .float (ns.map fun n => .str n.text) = .error .overflowError ∧
        ∃ n ∈ ns, (2 ^ 54 - 1) * 2 ^ 970 ≤ |n.value|) := by
  induction ns with
  | nil => left; exact ⟨[], rfl, .nil⟩
  | cons n ns ih =>
    have hstep : ∀ x, parse_float_or_rational n.text = x → to_type .float (.str n.text) = x.map .float := by
      rintro x rfl; simp [to_type, typeParser]
    rw [List.map_cons, toTypeList]
    rcases float_text n (hn n (by simp)) with ⟨x, h1, h2, -⟩ | ⟨h1, h2⟩
    · rw [hstep _ h1]
      rcases ih fun m hm => hn m (by simp [hm]) with ⟨l, h3, h4⟩ | ⟨h3, m, hm, h4⟩
      · left; exact ⟨.float x :: l, by rw [h3]; rfl, .cons ⟨x, rfl, h2⟩ h4⟩
      · right; exact ⟨by rw [h3]; rfl, m, by simp [hm], h4⟩
    · rw [hstep _ h1]
      right; exact ⟨rfl, n, by simp, h2⟩

theorem ints_list (ns : List Numeral) (hn : ∀ n ∈ ns, n.Valid) :
    if ∀ n ∈ ns, n.IsInt then
      ∃ l, toTypeList .int (ns.map fun n => .str n.text) = .ok l ∧
        List.Forall₂ (fun n v => ∃ i : ℤ, v = .int i ∧ (i : ℚ) = n.value) ns l
    else toTypeList .int (ns.map fun n => .str n.text) = .error .valueError := by
  induction ns with
  | nil => rw [if_pos (by simp)]; exact ⟨[], rfl, .nil⟩
  | cons n ns ih =>
    have ih := ih fun m hm => hn m (by simp [hm])
    have hstep : ∀ x, pyInt n.text = x → to_type .int (.str n.text) = x.map .int := by
      rintro x rfl; simp [to_type, typeParser]
    rw [List.map_cons, toTypeList]
    by_cases h : n.IsInt
    · obtain ⟨h1, h2⟩ := pyInt_isInt n (hn n (by simp)) h
      rw [hstep _ h1]
      by_cases hr : ∀ m ∈ ns, m.IsInt
      · rw [if_pos hr] at ih
        obtain ⟨l, h3, h4⟩ := ih
        rw [if_pos (by simpa using ⟨h, hr⟩)]
        exact ⟨.int _ :: l, by rw [h3]; rfl, .cons ⟨_, rfl, h2⟩ h4⟩
      · rw [if_neg hr] at ih
        rw [if_neg (by simp only [List.mem_cons, forall_eq_or_imp, not_and]; exact fun _ => hr), ih]; rfl
    · rw [hstep _ (pyInt_notInt n (hn n (by simp)) h), if_neg (fun hh => h (hh n (by simp)))]; rfl

/-- C31, what does hold for values made of blank-separated numbers: if the first one has a point or
an exponent every one becomes the nearest `float` (or overflows); if all are integers every one
becomes that `int`; otherwise -- and only then -- `ValueError` is raised. -/
theorem C31_numbers_partial (lead : Str) (n : Numeral) (g : Str) (l : List (Numeral × Str))
    (hlead : ∀ c ∈ lead, isSpace c = true)
    (hn : ∀ p ∈ (n, g) :: l, p.1.Valid) (hg : ∀ p ∈ (n, g) :: l, ∀ c ∈ p.2, isSpace c = true)
    (hne : ∀ p ∈ ((n, g) :: l).dropLast, p.2 ≠ []) :
    let value := lead ++ ((n, g) :: l).flatMap fun p => p.1.text ++ p.2
    let result := to_type (determine_type value) (.list ((Str.split value).map .str))
    let ns := ((n, g) :: l).map Prod.fst
    (n.IsInt → (∀ m ∈ ns, m.IsInt) → ∃ r, result = .ok (.tuple r) ∧
        List.Forall₂ (fun m v => ∃ i : ℤ, v = .int i ∧ (i : ℚ) = m.value) ns r) ∧
    (n.IsInt → (¬ ∀ m ∈ ns, m.IsInt) → result = .error .valueError) ∧
    (¬ n.IsInt → (∃ r, result = .ok (.tuple r) ∧ FloatsOf ns r) ∨
        (result = .error .overflowError ∧ ∃ m ∈ ns, (2 ^ 54 - 1) * 2 ^ 970 ≤ |m.value|)) := by
  intro value result ns
  have hsplit : Str.split value = ns.map fun m => m.text := by
    have := Str.split_words lead (((n, g) :: l).map fun p => (p.1.text, p.2)) hlead (by
      intro q hq
      obtain ⟨p, hp, rfl⟩ := List.mem_map.1 hq
      exact ⟨text_ne_nil p.1 (hn p hp), text_nospace p.1 (hn p hp), hg p hp⟩) (by
      intro q hq
      rw [← List.map_dropLast] at hq
      obtain ⟨p, hp, rfl⟩ := List.mem_map.1 hq
      exact hne p hp)
    rw [List.flatMap_map, List.map_map] at this
    rw [List.map_map]
    exact this
  have hdet : determine_type value = if n.IsInt then .int else .float := by
    have e : value = lead ++ (n.text ++ (g ++ l.flatMap fun p => p.1.text ++ p.2)) := by simp [value]
    rw [e]
    cases hgc : g with
    | nil =>
      cases l with
      | nil => exact determine_type_number lead [] n (hn (n, g) (by simp)) hlead .nil (by simp)
      | cons p l => exact absurd hgc (hne (n, g) (by simp))
    | cons c g' =>
      have hc : isSpace c = true := hg (n, g) (by simp) c (by simp [hgc])
      refine determine_type_number lead _ n (hn (n, g) (by simp)) hlead ?_ ?_
      · rw [List.cons_append]; exact .space hc
      · rw [List.cons_append]; simp; rintro rfl; cases hc
  have hns : ∀ m ∈ ns, m.Valid := by
    intro m hm
    obtain ⟨p, hp, rfl⟩ := List.mem_map.1 hm
    exact hn p hp
  have hlist : (Str.split value).map PyVal.str = ns.map fun m => .str m.text := by
    rw [hsplit, List.map_map]; rfl
  have hres : ∀ t, determine_type value = t → result = (toTypeList t (ns.map fun m => .str m.text)).map .tuple := by
    rintro t rfl
    simp only [result, hlist, to_type]
    cases toTypeList (determine_type value) (ns.map fun m => .str m.text) <;> rfl
  refine ⟨?_, ?_, ?_⟩
  · intro hi hall
    rw [if_pos hi] at hdet
    have := ints_list ns hns
    rw [if_pos hall] at this
    obtain ⟨r, h1, h2⟩ := this
    exact ⟨r, by rw [hres _ hdet, h1]; rfl, h2⟩
  · intro hi hall
    rw [if_pos hi] at hdet
    have := ints_list ns hns
    rw [if_neg hall] at this
    rw [hres _ hdet, this]; rfl
  · intro hi
    rw [if_neg hi] at hdet
    rcases floats_list ns hns with ⟨r, h1, h2⟩ | ⟨h1, h2⟩
    · left; exact ⟨r, by rw [hres _ hdet, h1]; rfl, h2⟩
    · right; exact ⟨by rw [hres _ hdet, h1]; rfl, h2⟩

example : to_type (determine_type (py"2 -3 4")) (.list ((Str.split (py"2 -3 4")).map .str))
    = .ok (.tuple [.int 2, .int (-3), .int 4]) := by decide +kernel
example : to_type (determine_type (py"0.5 1 2e0")) (.list ((Str.split (py"0.5 1 2e0")).map .str))
    = .ok (.tuple [.float ⟨0x3FE0000000000000⟩, .float ⟨0x3FF0000000000000⟩, .float ⟨0x4000000000000000⟩]) := by
  decide +kernel
/-- The hypotheses of `C31_numbers_partial` are met by such values. -/
example : ∃ r, to_type (determine_type (py" 2 -3")) (.list ((Str.split (py" 2 -3")).map .str)) = .ok (.tuple r) ∧
    List.Forall₂ (fun (m : Numeral) v => ∃ i : ℤ, v = .int i ∧ (i : ℚ) = m.value)
      [⟨none, py"2", none, none⟩, ⟨some true, py"3", none, none⟩] r :=
  (C31_numbers_partial (py" ") ⟨none, py"2", none, none⟩ (py" ") [(⟨some true, py"3", none, none⟩, [])]
    (by decide) (by decide) (by decide) (by decide)).1 (by decide) (by decide)

/-- C31, words: a value that begins with neither a digit, a sign, a point nor a blank is a logical or
kept as text, and never raises. -/
theorem C31_text_partial (s : Str)
    (h : ∀ c, s.head? = some c → ¬ (48 ≤ c ∧ c ≤ 57) ∧ c ∉ py"+-." ∧ isSpace c = false) :
    to_type (determine_type s) (.str s) = .ok (.str s) ∨
      ∃ b, to_type (determine_type s) (.str s) = .ok (.bool b) := by
  rcases determine_type_text s (by
    intro c hc
    obtain ⟨h1, h2, h3⟩ := h c hc
    refine ⟨?_, h3⟩
    rintro (h | h)
    · exact h1 ((isDigit_iff c).1 h)
    · simp at h2; omega) with h | h
  · right; rw [h]; exact ⟨_, rfl⟩
  · left; rw [h]; rfl

example : to_type (determine_type (py"true")) (.str (py"true")) = .ok (.bool true) := by decide +kernel
example : to_type (determine_type (py"PBE 3")) (.str (py"PBE 3")) = .ok (.str (py"PBE 3")) := by decide +kernel

/-! ### C32 -/

/-- C32 is violated for negative integers: they come back as floats. -/
theorem C32_negative_is_float : parse_int_or_float (py"-5") = .ok (.float ⟨0xC014000000000000⟩) ∧
    parse_int_or_float_seq [py"1", py"-5"]
      = .ok (.tuple [.float ⟨0x3FF0000000000000⟩, .float ⟨0xC014000000000000⟩]) := by decide +kernel

theorem text_isdigit (n : Numeral) (hn : n.Valid) :
    n.text.all isDigit = true ↔ n.IsInt ∧ n.sign = none := by
  obtain ⟨sg, ip, fr, ex⟩ := n
  constructor
  · intro h
    rw [List.all_eq_true] at h
    refine ⟨⟨?_, ?_⟩, ?_⟩
    · match fr with
      | none => rfl
      | some fr => have := h 46 (by simp [Numeral.text, Numeral.fracText]); cases this
    · match ex with
      | none => rfl
      | some (true, sg', ds) => have := h 69 (by simp [Numeral.text, Numeral.expText]); cases this
      | some (false, sg', ds) => have := h 101 (by simp [Numeral.text, Numeral.expText]); cases this
    · match sg with
      | none => rfl
      | some true => have := h 45 (by simp [Numeral.text, Numeral.signText]); cases this
      | some false => have := h 43 (by simp [Numeral.text, Numeral.signText]); cases this
  · rintro ⟨⟨h1, h2⟩, h3⟩
    obtain rfl : fr = none := h1
    obtain rfl : ex = none := h2
    obtain rfl : sg = none := h3
    simp only [Numeral.text, Numeral.signText, Numeral.fracText, Numeral.expText, List.nil_append, List.append_nil]
    rw [List.all_eq_true]
    exact fun c hc => (isDigit_iff c).2 (hn.1 c hc)

/-- C32, what does hold for a single number: unsigned integers give the `int` written, everything else
the nearest `float`, or an overflow. -/
theorem C32_single_partial (n : Numeral) (hn : n.Valid) :
    (n.IsInt ∧ n.sign = none → ∃ i : ℤ, parse_int_or_float n.text = .ok (.int i) ∧ (i : ℚ) = n.value) ∧
    (¬ (n.IsInt ∧ n.sign = none) →
      (∃ x, parse_int_or_float n.text = .ok (.float x) ∧ F64.Nearest n.value x) ∨
      (parse_int_or_float n.text = .error .overflowError ∧ (2 ^ 54 - 1) * 2 ^ 970 ≤ |n.value|)) := by
  constructor
  · intro h
    obtain ⟨h1, h2⟩ := pyInt_isInt n hn h.1
    refine ⟨_, ?_, h2⟩
    rw [parse_int_or_float, if_pos ((text_isdigit n hn).2 h)]
    simp [to_type, typeParser, h1, Except.map]
  · intro h
    rw [parse_int_or_float, if_neg (fun hh => h ((text_isdigit n hn).1 hh))]
    rcases float_text n hn with ⟨x, h1, h2, -⟩ | ⟨h1, h2⟩
    · left; exact ⟨x, by simp [to_type, typeParser, h1, Except.map], h2⟩
    · right; exact ⟨by simp [to_type, typeParser, h1, Except.map], h2⟩

/-- C32 for sequences: all unsigned integers, or everything as floats. -/
theorem C32_sequence_partial (ns : List Numeral) (hn : ∀ n ∈ ns, n.Valid) :
    let result := parse_int_or_float_seq (ns.map (·.text))
    ((∀ n ∈ ns, n.IsInt ∧ n.sign = none) → ∃ r, result = .ok (.tuple r) ∧
        List.Forall₂ (fun n v => ∃ i : ℤ, v = .int i ∧ (i : ℚ) = n.value) ns r) ∧
    ((¬ ∀ n ∈ ns, n.IsInt ∧ n.sign = none) → (∃ r, result = .ok (.tuple r) ∧ FloatsOf ns r) ∨
        (result = .error .overflowError ∧ ∃ m ∈ ns, (2 ^ 54 - 1) * 2 ^ 970 ≤ |m.value|)) := by
  intro result
  have hall : (ns.map (·.text)).all Str.isdigit = true ↔ ∀ n ∈ ns, n.IsInt ∧ n.sign = none := by
    rw [List.all_eq_true]
    simp only [List.mem_map, forall_exists_index, and_imp, forall_apply_eq_imp_iff₂]
    constructor
    · intro h n hm
      have := h n hm
      rw [Str.isdigit, Bool.and_eq_true] at this
      exact (text_isdigit n (hn n hm)).1 this.2
    · intro h n hm
      rw [Str.isdigit, Bool.and_eq_true]
      exact ⟨by simpa using text_ne_nil n (hn n hm), (text_isdigit n (hn n hm)).2 (h n hm)⟩
  have hmap : (ns.map (·.text)).map PyVal.str = ns.map fun n => .str n.text := by rw [List.map_map]; rfl
  constructor
  · intro h
    have := ints_list ns hn
    rw [if_pos fun n hm => (h n hm).1] at this
    obtain ⟨r, h1, h2⟩ := this
    refine ⟨r, ?_, h2⟩
    simp only [result]
    rw [parse_int_or_float_seq, if_pos (hall.2 h), hmap, to_type, h1]; rfl
  · intro h
    have hr : result = (toTypeList .float (ns.map fun n => .str n.text)).map .tuple := by
      simp only [result]
      rw [parse_int_or_float_seq, if_neg (fun hh => h (hall.1 hh)), hmap, to_type]
      cases toTypeList .float (ns.map fun n => .str n.text) <;> rfl
    rcases floats_list ns hn with ⟨r, h1, h2⟩ | ⟨h1, h2⟩
    · left; exact ⟨r, by rw [hr, h1]; rfl, h2⟩
    · right; exact ⟨by rw [hr, h1]; rfl, h2⟩

example : parse_int_or_float_seq [py"1", py"20"] = .ok (.tuple [.int 1, .int 20]) := by decide +kernel
example : parse_int_or_float_seq [py"1", py"2.5"]
    = .ok (.tuple [.float ⟨0x3FF0000000000000⟩, .float ⟨0x4004000000000000⟩]) := by decide +kernel

/-! ### C55 -/

/-- C55.  A text is read as true exactly when it is `t` or `true` in any case, or `1`; any other text is
read as false, never an error. -/
theorem C55_logical (s : Str) :
    to_type .bool (.str s) =
      .ok (.bool (decide (Str.lower s = py"t" ∨ Str.lower s = py"true" ∨ s = py"1"))) := by
  have h : parse_logical s = decide (Str.lower s = py"t" ∨ Str.lower s = py"true" ∨ s = py"1") := by
    rw [parse_logical]
    congr 1
    simp only [List.mem_cons, List.not_mem_nil, or_false]
    rw [title_word 84 [] (by decide) (by simp), title_word 84 [114, 117, 101] (by decide) (by decide), title_one]
  show Except.ok (PyVal.bool (parse_logical s)) = _
  rw [h]

/-- C55.  A text is taken for a logical exactly when it is `t`, `true`, `f` or `false` in any case. -/
theorem C55_guess (s : Str) :
    determine_type s = .bool ↔
      Str.lower s = py"t" ∨ Str.lower s = py"true" ∨ Str.lower s = py"f" ∨ Str.lower s = py"false" := by
  rw [← title_word 84 [] (by decide) (by simp), ← title_word 84 [114, 117, 101] (by decide) (by decide),
    ← title_word 70 [] (by decide) (by simp), ← title_word 70 [97, 108, 115, 101] (by decide) (by decide)]
  rw [determine_type]
  simp only [List.mem_cons, List.not_mem_nil, or_false]
  by_cases h : Str.title s = [84] ∨ Str.title s = [84, 114, 117, 101] ∨ Str.title s = [70] ∨
      Str.title s = [70, 97, 108, 115, 101]
  · rw [if_pos h]; simp [h]
  · rw [if_neg h]
    simp only [h, iff_false]
    split
    · simp
    · split
      · simp
      · split <;> simp

example : to_type .bool (.str (py"tRUE")) = .ok (.bool true) ∧ to_type .bool (.str (py"yes")) = .ok (.bool false) ∧
    determine_type (py"FALSE") = .bool ∧ determine_type (py"1") = .int := by decide +kernel

end Verif.Props

import Verif.Model.TypeConv
import Verif.Spec.Convert
import Verif.Lemmas.Find
import Verif.Lemmas.Str
/-
to_type and number conversion.
-/
namespace Verif
open Spec

mutual
theorem to_type_ok (typ : Ty) : ∀ (v w : PyVal), to_type typ v = .ok w ↔ Converted (typeParser typ) v w
  | .str s, w => by
    rw [to_type]; exact ⟨.str, fun h => by cases h; assumption⟩
  | .dict d, w => by
    rw [to_type]
    constructor
    · intro h
      cases hd : toTypeDict typ d with
      | error e => rw [hd] at h; cases h
      | ok d' => rw [hd] at h; cases h; exact .dict ((toTypeDict_ok typ d d').1 hd)
    · intro h
      cases h with
      | dict h => rw [(toTypeDict_ok typ d _).2 h]; rfl
  | .tuple l, w => by
    rw [to_type]
    constructor
    · intro h
      cases hd : toTypeList typ l with
      | error e => rw [hd] at h; cases h
      | ok d' => rw [hd] at h; cases h; exact .tuple ((toTypeList_ok typ l d').1 hd)
    · intro h
      cases h with
      | tuple h => rw [(toTypeList_ok typ l _).2 h]; rfl
  | .list l, w => by
    rw [to_type]
    constructor
    · intro h
      cases hd : toTypeList typ l with
      | error e => rw [hd] at h; cases h
      | ok d' => rw [hd] at h; cases h; exact .list ((toTypeList_ok typ l d').1 hd)
    · intro h
      cases h with
      | list h => rw [(toTypeList_ok typ l _).2 h]; rfl
  | .none, w => by simp only [to_type]; exact ⟨fun h => by cases h; exact .none, fun h => by cases h; rfl⟩
  | .bool b, w => by simp only [to_type]; exact ⟨fun h => by cases h; exact .bool, fun h => by cases h; rfl⟩
  | .int b, w => by simp only [to_type]; exact ⟨fun h => by cases h; exact .int, fun h => by cases h; rfl⟩
  | .float b, w => by simp only [to_type]; exact ⟨fun h => by cases h; exact .float, fun h => by cases h; rfl⟩
  | .complex b c, w => by simp only [to_type]; exact ⟨fun h => by cases h; exact .complex, fun h => by cases h; rfl⟩
theorem toTypeList_ok (typ : Ty) : ∀ (l l' : List PyVal),
    toTypeList typ l = .ok l' ↔ ConvertedL (typeParser typ) l l'
  | [], l' => by simp only [toTypeList]; exact ⟨fun h => by cases h; exact .nil, fun h => by cases h; rfl⟩
  | v :: l, l' => by
    rw [toTypeList]
    constructor
    · intro h
      cases hv : to_type typ v with
      | error e => rw [hv] at h; cases h
      | ok w =>
        rw [hv] at h
        cases hl : toTypeList typ l with
        | error e => rw [hl] at h; cases h
        | ok m => rw [hl] at h; cases h; exact .cons ((to_type_ok typ v w).1 hv) ((toTypeList_ok typ l m).1 hl)
    · intro h
      cases h with
      | cons hv hl => rw [(to_type_ok typ v _).2 hv, (toTypeList_ok typ l _).2 hl]; rfl
theorem toTypeDict_ok (typ : Ty) : ∀ (l l' : List (Key × PyVal)),
    toTypeDict typ l = .ok l' ↔ ConvertedD (typeParser typ) l l'
  | [], l' => by simp only [toTypeDict]; exact ⟨fun h => by cases h; exact .nil, fun h => by cases h; rfl⟩
  | (k, v) :: l, l' => by
    rw [toTypeDict]
    constructor
    · intro h
      cases hv : to_type typ v with
      | error e => rw [hv] at h; cases h
      | ok w =>
        rw [hv] at h
        cases hl : toTypeDict typ l with
        | error e => rw [hl] at h; cases h
        | ok m => rw [hl] at h; cases h; exact .cons ((to_type_ok typ v w).1 hv) ((toTypeDict_ok typ l m).1 hl)
    · intro h
      cases h with
      | cons hv hl => rw [(to_type_ok typ v _).2 hv, (toTypeDict_ok typ l _).2 hl]; rfl
end

/-- The first error among the strings. -/
def firstErr (f : Str → PyM PyVal) : List Str → Option PyErr
  | [] => none
  | s :: l => match f s with
    | .error e => some e
    | .ok _ => firstErr f l

theorem firstErr_append (f : Str → PyM PyVal) (a b : List Str) :
    firstErr f (a ++ b) = (firstErr f a).or (firstErr f b) := by
  induction a with
  | nil => simp [firstErr]
  | cons s a ih =>
    simp only [List.cons_append, firstErr]
    cases f s <;> simp [ih]

theorem firstErr_some {f : Str → PyM PyVal} {l : List Str} {e : PyErr} :
    firstErr f l = some e ↔
      ∃ a s b, l = a ++ s :: b ∧ f s = .error e ∧ ∀ t ∈ a, ∃ v, f t = .ok v := by
  induction l with
  | nil => simp [firstErr]
  | cons x l ih =>
    rw [firstErr]
    cases hx : f x with
    | error e' =>
      simp only [Option.some.injEq]
      constructor
      · rintro rfl; exact ⟨[], x, l, rfl, hx, by simp⟩
      · rintro ⟨a, s, b, h1, h2, h3⟩
        cases a with
        | nil => simp at h1; rw [h1.1, h2] at hx; exact (Except.error.inj hx).symm
        | cons y a =>
          simp at h1
          obtain ⟨v, hv⟩ := h3 y (by simp)
          rw [← h1.1, hx] at hv; cases hv
    | ok v =>
      simp only [ih]
      constructor
      · rintro ⟨a, s, b, h1, h2, h3⟩
        refine ⟨x :: a, s, b, by rw [h1]; rfl, h2, ?_⟩
        intro t ht
        rcases List.mem_cons.1 ht with rfl | ht
        · exact ⟨v, hx⟩
        · exact h3 t ht
      · rintro ⟨a, s, b, h1, h2, h3⟩
        cases a with
        | nil => simp at h1; rw [h1.1, h2] at hx; cases hx
        | cons y a =>
          simp at h1
          exact ⟨a, s, b, h1.2, h2, fun t ht => h3 t (by simp [ht])⟩

mutual
theorem to_type_err (typ : Ty) : ∀ (v : PyVal) (e : PyErr), to_type typ v = .error e ↔
    firstErr (typeParser typ) (strings v) = some e
  | .str s, e => by
    rw [to_type]; simp only [strings, firstErr]
    cases typeParser typ s <;> simp
  | .dict d, e => by
    rw [to_type, strings, ← toTypeDict_err typ d e]
    cases toTypeDict typ d <;> simp [bind, Except.bind, pure, Except.pure]
  | .tuple l, e => by
    rw [to_type, strings, ← toTypeList_err typ l e]
    cases toTypeList typ l <;> simp [bind, Except.bind, pure, Except.pure]
  | .list l, e => by
    rw [to_type, strings, ← toTypeList_err typ l e]
    cases toTypeList typ l <;> simp [bind, Except.bind, pure, Except.pure]
  | .none, e => by simp [to_type, strings, firstErr]
  | .bool b, e => by simp [to_type, strings, firstErr]
  | .int b, e => by simp [to_type, strings, firstErr]
  | .float b, e => by simp [to_type, strings, firstErr]
  | .complex b c, e => by simp [to_type, strings, firstErr]
theorem toTypeList_err (typ : Ty) : ∀ (l : List PyVal) (e : PyErr), toTypeList typ l = .error e ↔
    firstErr (typeParser typ) (stringsL l) = some e
  | [], e => by simp [toTypeList, stringsL, firstErr]
  | v :: l, e => by
    rw [toTypeList, stringsL, firstErr_append]
    cases hv : to_type typ v with
    | error e' =>
      rw [(to_type_err typ v e').1 hv]; simp [bind, Except.bind]
    | ok w =>
      have : firstErr (typeParser typ) (strings v) = none := by
        cases hf : firstErr (typeParser typ) (strings v) with
        | none => rfl
        | some e' => rw [(to_type_err typ v e').2 hf] at hv; cases hv
      rw [this, Option.none_or, ← toTypeList_err typ l e]
      cases toTypeList typ l <;> simp [bind, Except.bind, pure, Except.pure]
theorem toTypeDict_err (typ : Ty) : ∀ (l : List (Key × PyVal)) (e : PyErr), toTypeDict typ l = .error e ↔
    firstErr (typeParser typ) (stringsD l) = some e
  | [], e => by simp [toTypeDict, stringsD, firstErr]
  | (k, v) :: l, e => by
    rw [toTypeDict, stringsD, firstErr_append]
    cases hv : to_type typ v with
    | error e' =>
      rw [(to_type_err typ v e').1 hv]; simp [bind, Except.bind]
    | ok w =>
      have : firstErr (typeParser typ) (strings v) = none := by
        cases hf : firstErr (typeParser typ) (strings v) with
        | none => rfl
        | some e' => rw [(to_type_err typ v e').2 hf] at hv; cases hv
      rw [this, Option.none_or, ← toTypeDict_err typ l e]
      cases toTypeDict typ l <;> simp [bind, Except.bind, pure, Except.pure]
end

/-- What a converter produces does not need converting. -/
theorem typeParser_fixed {typ : Ty} {s : Str} {v : PyVal} (h : typeParser typ s = .ok v) :
    Converted (typeParser typ) v v := by
  cases typ with
  | complex => cases h
  | float =>
    simp only [typeParser] at h
    cases hp : parse_float_or_rational s with
    | error e => rw [hp] at h; cases h
    | ok x => rw [hp] at h; cases h; exact .float
  | int =>
    simp only [typeParser] at h
    cases hp : pyInt s with
    | error e => rw [hp] at h; cases h
    | ok x => rw [hp] at h; cases h; exact .int
  | bool => simp only [typeParser] at h; cases h; exact .bool
  | str => simp only [typeParser] at h; cases h; exact .str rfl

mutual
theorem converted_fixed {typ : Ty} : ∀ {v w : PyVal}, Converted (typeParser typ) v w →
    Converted (typeParser typ) w w
  | _, _, .str h => typeParser_fixed h
  | _, _, .tuple h => .tuple (convertedL_fixed h)
  | _, _, .list h => .tuple (convertedL_fixed h)
  | _, _, .dict h => .dict (convertedD_fixed h)
  | _, _, .none => .none
  | _, _, .bool => .bool
  | _, _, .int => .int
  | _, _, .float => .float
  | _, _, .complex => .complex
theorem convertedL_fixed {typ : Ty} : ∀ {v w : List PyVal}, ConvertedL (typeParser typ) v w →
    ConvertedL (typeParser typ) w w
  | _, _, .nil => .nil
  | _, _, .cons h h' => .cons (converted_fixed h) (convertedL_fixed h')
theorem convertedD_fixed {typ : Ty} : ∀ {v w : List (Key × PyVal)}, ConvertedD (typeParser typ) v w →
    ConvertedD (typeParser typ) w w
  | _, _, .nil => .nil
  | _, _, .cons h h' => .cons (converted_fixed h) (convertedD_fixed h')
end

end Verif
namespace Verif
open Re NumRe

/-! ### determine_type -/

abbrev spc : CSet := cset [.space]
theorem has_spc (c : Nat) : spc.has c = isSpace c := by simp [CSet.has, CItem.has]

/-- `RATIONAL_RE` -/
def Rat : Re := .seq (.wordB false) (.seq I (.seq (.set (cset [.ch 47])) (.seq I (.wordB false))))

theorem detFloat_eq : detFloat = ⟨.rep true 1 none (.seq (star spc) EF), [], 0⟩ := by decide +kernel
theorem detRational_eq : detRational = ⟨.rep true 1 none (.seq (star spc) Rat), [], 0⟩ := by decide +kernel
theorem detInt_eq : detInt = ⟨.rep true 1 none (.seq (star spc) I), [], 0⟩ := by decide +kernel

/-- Characters numbers are made of. -/
def numChar (c : Nat) : Prop := isDigit c = true ∨ c = 43 ∨ c = 45 ∨ c = 46

theorem lang_head_N {w : Str} (h : Lang N w) : ∃ c r, w = c :: r ∧ numChar c := by
  obtain ⟨p, d, q, rfl, hd, hp⟩ := lang_N_head h
  cases p with
  | nil => exact ⟨d, q, rfl, .inl hd⟩
  | cons c p => exact ⟨c, _, rfl, by have := hp c (by simp); simp [numChar]; omega⟩

theorem lang_head_EF {w : Str} (h : Lang EF w) : ∃ c r, w = c :: r ∧ numChar c := by
  apply lang_head_N
  rcases h with h | h
  · exact .inl h
  · exact .inr (.inl h)

theorem lang_head_I {w : Str} (h : Lang I w) : ∃ c r, w = c :: r ∧ numChar c :=
  lang_head_N (.inr (.inr h))

theorem lang_head_Rat {w : Str} (h : Lang Rat w) : ∃ c r, w = c :: r ∧ numChar c := by
  obtain ⟨u, v, rfl, hu, a, b, rfl, ha, -⟩ := h
  obtain rfl : u = [] := hu
  obtain ⟨c, r, rfl, hc⟩ := lang_head_I ha
  exact ⟨c, r ++ b, rfl, hc⟩

theorem numChar_nospace {c : Nat} (h : numChar c) : isSpace c = false := by
  rcases h with h | rfl | rfl | rfl
  · exact digit_nospace ((isDigit_iff c).1 h)
  · rfl
  · rfl
  · rfl

/-- `(?:\s*r)+` where `r` begins with a number character: skip the blanks. -/
theorem match_skip {r : Re} (hr : ∀ w, Lang r w → ∃ c q, w = c :: q ∧ numChar c) (sp body : Str)
    (hsp : ∀ c ∈ sp, isSpace c = true) (hb : ∀ c, body.head? = some c → isSpace c = false) :
    (Pat.match_ ⟨.rep true 1 none (.seq (star spc) r), [], 0⟩ (sp ++ body)).isSome =
      (run r ⟨sp.reverse, body, []⟩ some).isSome := by
  rw [Pat.match_, Pat.matchAt_eq, Option.isSome_map, isSome_plus, run_seq, run_star_last]
  · have hk : ∀ t ∈ m r ⟨sp.reverse ++ [], body, []⟩,
        (if t.post.length < (sp ++ body).length then some t else none) = some t := by
      intro t ht
      obtain ⟨w, hs, hl⟩ := m_sound r _ t ht
      obtain ⟨c, q, rfl, -⟩ := hr _ hl
      rw [if_pos]
      have := congrArg List.length hs.post
      simp at this ⊢
      omega
    rw [run, run]
    simp only [List.append_nil] at hk ⊢
    generalize m r ⟨sp.reverse, body, []⟩ = l at hk
    cases l with
    | nil => rfl
    | cons t l => rw [List.findSome?_cons, List.findSome?_cons, hk t (by simp)]
  · intro c hc; rw [has_spc]; exact hsp c hc
  · intro c hc; rw [has_spc]; exact hb c hc
  · intro u v e hv
    apply run_none
    intro w t hs hl
    exfalso
    obtain ⟨c, q, rfl, hc⟩ := hr _ hl
    have := hs.post
    cases v with
    | nil => exact hv rfl
    | cons d v =>
      simp at this
      have h1 := numChar_nospace hc
      rw [← this.1, hsp d (by rw [e]; simp)] at h1
      cases h1

theorem text_head (n : Numeral) (hn : n.Valid) : ∃ c r, n.text = c :: r ∧ numChar c := by
  obtain ⟨sg, ip, fr, ex⟩ := n
  obtain ⟨h1, h2, h3, -⟩ := hn
  match sg with
  | some true => exact ⟨45, _, rfl, by simp [numChar]⟩
  | some false => exact ⟨43, _, rfl, by simp [numChar]⟩
  | none =>
    cases ip with
    | cons c ip => exact ⟨c, _, rfl, .inl ((isDigit_iff c).2 (h1 c (by simp)))⟩
    | nil =>
      match fr with
      | none => simp at h3
      | some fr => exact ⟨46, _, rfl, by simp [numChar]⟩

/-- A printed number contains a digit. -/
theorem text_digit (n : Numeral) (hn : n.Valid) : ∃ d ∈ n.text, isDigit d = true := by
  obtain ⟨sg, ip, fr, ex⟩ := n
  obtain ⟨h1, h2, h3, -⟩ := hn
  obtain ⟨d, hd⟩ := List.exists_mem_of_ne_nil _ h3
  rcases List.mem_append.1 hd with h | h
  · exact ⟨d, by simp [Numeral.text, h], (isDigit_iff d).2 (h1 d h)⟩
  · match fr, h, h2 with
    | some fr, h, h2 => exact ⟨d, by simp at h; simp [Numeral.text, Numeral.fracText, h], (isDigit_iff d).2 (h2 d h)⟩

theorem titleFrom_digit (d : Nat) (hd : isDigit d = true) : ∀ (s : Str) (b : Bool), d ∈ s → d ∈ Str.titleFrom b s := by
  intro s
  induction s with
  | nil => intro b h; simp at h
  | cons c s ih =>
    intro b h
    rcases List.mem_cons.1 h with rfl | h
    · have h1 : lowerC d = d := by simp [lowerC, isUpper]; rw [isDigit_iff] at hd; omega
      have h2 : upperC d = d := by simp [upperC, isLower]; rw [isDigit_iff] at hd; omega
      rw [Str.titleFrom, h1, h2]; simp
    · rw [Str.titleFrom]; exact List.mem_cons_of_mem _ (ih _ h)

theorem not_bool {s : Str} (h : ∃ d ∈ s, isDigit d = true) :
    ¬ Str.title s ∈ [py"T", py"True", py"F", py"False"] := by
  obtain ⟨d, h1, h2⟩ := h
  have := titleFrom_digit d h2 s false h1
  intro hm
  rw [Str.title] at hm
  generalize Str.titleFrom false s = t at *
  rw [isDigit_iff] at h2
  simp only [List.mem_cons, List.not_mem_nil, or_false] at hm
  rcases hm with rfl | rfl | rfl | rfl <;> simp at this <;> omega

/-- No fraction starts with a plain number not followed by a slash. -/
theorem run_Rat_none (n : Numeral) (hn : n.Valid) (he : n.exp = none) (pre rest : Str) (caps)
    (k : St → Option β) (hr : EndsNumber rest) (hs : rest.head? ≠ some 47) :
    run Rat ⟨pre, n.text ++ rest, caps⟩ k = none := by
  apply run_none
  intro w t hst hl
  exfalso
  obtain ⟨u, v, rfl, hu, a, b, rfl, ha, c, d, rfl, ⟨p, hp, rfl⟩, -⟩ := hl
  obtain rfl : u = [] := hu
  have hp : p = 47 := by simpa [CSet.has, CItem.has] using hp
  subst hp
  obtain ⟨n', hn', he', -, rfl⟩ := lang_I ha
  have e := hst.post
  simp only [List.nil_append, List.append_assoc, List.cons_append] at e
  rcases append_cases e with ⟨y, h1, h2⟩ | ⟨x, y, h1, h2⟩
  · cases y with
    | nil => rw [h2] at hs; simp at hs
    | cons x y =>
      have hx := text_chars n' hn' he' x (by rw [h1]; simp)
      have hh : rest.head? = some x := by rw [h2]; rfl
      rcases hx with hx | rfl | rfl | rfl
      · rw [hr.noDigit x hh] at hx; cases hx
      · exact hr.noSign.1 hh
      · exact hr.noSign.2 hh
      · exact hr.noDot hh
  · have hx : x = 47 := by simpa using (congrArg List.head? h2).symm
    subst hx
    have := text_chars n hn he 47 (by rw [h1]; simp)
    simp [isDigit] at this

/-- The type guessed from the first number of a text. -/
theorem determine_type_number (sp rest : Str) (n : Numeral) (hn : n.Valid) (hsp : ∀ c ∈ sp, isSpace c = true)
    (hr : EndsNumber rest) (hs : rest.head? ≠ some 47) :
    determine_type (sp ++ (n.text ++ rest)) = if n.IsInt then .int else .float := by
  have hb : ∀ c, (n.text ++ rest).head? = some c → isSpace c = false := by
    obtain ⟨c, r, h1, h2⟩ := text_head n hn
    intro d hd
    rw [h1] at hd; simp at hd; subst hd
    exact numChar_nospace h2
  have hp : sp.reverse.head? ≠ some 46 := by
    intro h
    have h1 := hsp 46 (by simpa using List.mem_of_mem_head? h)
    cases h1
  rw [determine_type, if_neg (not_bool (by
    obtain ⟨d, h1, h2⟩ := text_digit n hn
    exact ⟨d, by simp [h1], h2⟩))]
  rw [detFloat_eq, match_skip (fun w => lang_head_EF) sp _ hsp hb]
  by_cases hi : n.IsInt
  · rw [if_pos hi]
    obtain ⟨hf, he⟩ := hi
    have hE : run EF ⟨sp.reverse, n.text ++ rest, []⟩ some = none := by
      rw [EF, run_alt, run_E_none n hn he _ _ _ _ hr, Option.none_or]
      obtain ⟨sg, ip, fr, ex⟩ := n
      obtain rfl : fr = none := hf
      obtain rfl : ex = none := he
      have hne : ip ≠ [] := by have := hn.2.2.1; simpa using this
      have := run_F_none sg ip sp.reverse rest [] some hn.1 hne hr.stops hr.noDot
      simpa [Numeral.text, Numeral.fracText, Numeral.expText] using this
    have hR : run Rat ⟨sp.reverse, n.text ++ rest, []⟩ some = none := run_Rat_none n hn he _ _ _ _ hr hs
    have hI : (run I ⟨sp.reverse, n.text ++ rest, []⟩ some).isSome = true := by
      obtain ⟨sg, ip, fr, ex⟩ := n
      obtain rfl : fr = none := hf
      obtain rfl : ex = none := he
      have hne : ip ≠ [] := by have := hn.2.2.1; simpa using this
      have := run_I sg ip sp.reverse rest [] some _ hn.1 hne (fun _ => hp) hr.stops hr.noDot rfl
      have e : (Numeral.text ⟨sg, ip, none, none⟩) ++ rest = Numeral.signText sg ++ ip ++ rest := by
        simp [Numeral.text, Numeral.fracText, Numeral.expText]
      rw [e, this]; rfl
    rw [hE, if_neg (by simp), detRational_eq, match_skip (fun w => lang_head_Rat) sp _ hsp hb, hR, if_neg (by simp),
      detInt_eq, match_skip (fun w => lang_head_I) sp _ hsp hb, if_pos hI]
  · rw [if_neg hi, if_pos]
    rw [EF, run_alt]
    cases he : n.exp with
    | some e =>
      rw [run_E n hn (by simp [he]) sp.reverse rest [] some _ hp hr.stops rfl]; rfl
    | none =>
      rw [run_E_none n hn he _ _ _ _ hr, Option.none_or]
      obtain ⟨sg, ip, fr, ex⟩ := n
      obtain rfl : ex = none := he
      match fr with
      | none => exact absurd ⟨rfl, rfl⟩ hi
      | some fr =>
        have := run_F sg ip fr sp.reverse rest [] some _ hn.1 hn.2.1 hn.2.2.1 hr.stops rfl
        have e : (Numeral.text ⟨sg, ip, some fr, none⟩) ++ rest = Numeral.signText sg ++ ip ++ 46 :: fr ++ rest := by
          simp [Numeral.text, Numeral.fracText, Numeral.expText]
        rw [e, this]; rfl

/-- A text whose first character cannot begin a number is not taken for one. -/
theorem determine_type_text (s : Str) (h : ∀ c, s.head? = some c → ¬ numChar c ∧ isSpace c = false) :
    determine_type s = .bool ∨ determine_type s = .str := by
  have hb : ∀ c, s.head? = some c → isSpace c = false := fun c hc => (h c hc).2
  have hn : ∀ r : Re, (∀ w, Lang r w → ∃ c q, w = c :: q ∧ numChar c) →
      (Pat.match_ ⟨.rep true 1 none (.seq (star spc) r), [], 0⟩ s).isSome = false := by
    intro r hr
    have := match_skip hr [] s (by simp) hb
    rw [List.nil_append] at this
    rw [this, run_none]
    · rfl
    · intro w t hs hl
      exfalso
      obtain ⟨c, q, rfl, hc⟩ := hr _ hl
      have := hs.post
      simp only at this
      exact (h c (by rw [this]; rfl)).1 hc
  rw [determine_type]
  split
  · left; rfl
  · rw [detFloat_eq, hn _ (fun w => lang_head_EF), detRational_eq, hn _ (fun w => lang_head_Rat), detInt_eq,
      hn _ (fun w => lang_head_I)]
    simp

/-! ### Conversion of number texts -/

/-- `to_type(text, float)` gives the nearest double, or overflows. -/
theorem float_text (n : Numeral) (hn : n.Valid) :
    (∃ x, parse_float_or_rational n.text = .ok x ∧ F64.Nearest n.value x ∧ |n.value| < (2 ^ 54 - 1) * 2 ^ 970) ∨
      (parse_float_or_rational n.text = .error .overflowError ∧ (2 ^ 54 - 1) * 2 ^ 970 ≤ |n.value|) := by
  obtain ⟨a, b, h1, hb, h3⟩ := pyFraction_text n hn
  have hbq : (0 : ℚ) < b := by exact_mod_cast hb
  have habs : |n.value| = (a : ℚ) / b := by
    have h0 : (0 : ℚ) ≤ (a : ℚ) / b := div_nonneg (Nat.cast_nonneg _) (Nat.cast_nonneg _)
    rw [← h3, abs_mul, abs_of_nonneg h0]
    split <;> simp
  have hov := ratioToF64_overflow (decide (n.sign = some true)) a b hb
  have hiff : (2 ^ 54 - 1) * 2 ^ 970 * b ≤ a ↔ (2 ^ 54 - 1) * 2 ^ 970 ≤ |n.value| := by
    rw [habs, le_div_iff₀ hbq]
    have : ((2 ^ 54 - 1 : ℕ) : ℚ) = 2 ^ 54 - 1 := by norm_num
    rw [← this]
    generalize (2 ^ 54 - 1 : ℕ) = A
    have : ((2 ^ 970 : ℕ) : ℚ) = 2 ^ 970 := Nat.cast_pow 2 970
    rw [← this]
    generalize (2 ^ 970 : ℕ) = B
    exact_mod_cast Iff.rfl
  rw [hiff] at hov
  have hp : parse_float_or_rational n.text = ratioToF64 (decide (n.sign = some true)) a b := by
    rw [parse_float_or_rational, h1]; rfl
  rw [hp]
  rcases ratioToF64_cases (decide (n.sign = some true)) a b with h | ⟨x, h⟩
  · exact .inr ⟨h, hov.1 h⟩
  · refine .inl ⟨x, h, ?_, ?_⟩
    · have := ratioToF64_nearest _ a b hb x h
      rwa [h3] at this
    · rw [← not_le, ← hov, h]; simp

theorem digitsU_none {s : Str} {c : Nat} (hc : c ∈ s) (h1 : isDigit c = false) (h2 : c ≠ 95) :
    digitsU s = none := by
  rw [digitsU, if_neg]
  simp only [Bool.and_eq_true, List.all_eq_true, not_and]
  intro h
  have := h.1.1 c hc
  simp [h1, h2] at this

theorem pyInt_notInt (n : Numeral) (hn : n.Valid) (h : ¬ n.IsInt) : pyInt n.text = .error .valueError := by
  rw [pyInt, strip_of_nospace (text_nospace n hn)]
  have hts : takeSign n.text = (decide (n.sign = some true), n.ip ++ Numeral.fracText n.frac ++ Numeral.expText n.exp) := by
    rw [Numeral.text, List.append_assoc, List.append_assoc]
    rw [takeSign_text, List.append_assoc]
    intro c hc
    obtain ⟨v1, v2, v3, -⟩ := hn
    cases hip : n.ip with
    | cons d ip =>
      rw [hip] at hc; simp at hc; subst hc
      have := v1 d (by simp [hip]); omega
    | nil =>
      rw [hip] at hc v3
      cases hfr : n.frac with
      | none => rw [hfr] at v3; simp at v3
      | some fr => rw [hfr] at hc; simp [Numeral.fracText] at hc; omega
  rw [hts]
  have : ∃ c ∈ n.ip ++ Numeral.fracText n.frac ++ Numeral.expText n.exp, isDigit c = false ∧ c ≠ 95 := by
    obtain ⟨sg, ip, fr, ex⟩ := n
    match fr, ex with
    | some fr, _ => exact ⟨46, by simp [Numeral.fracText], rfl, by simp⟩
    | none, some (true, sg', ds) => exact ⟨69, by simp [Numeral.expText], rfl, by simp⟩
    | none, some (false, sg', ds) => exact ⟨101, by simp [Numeral.expText], rfl, by simp⟩
    | none, none => exact absurd ⟨rfl, rfl⟩ h
  obtain ⟨c, h1, h2, h3⟩ := this
  simp only [digitsU_none h1 h2 h3]

theorem pyInt_isInt (n : Numeral) (hn : n.Valid) (h : n.IsInt) :
    pyInt n.text = .ok (Numeral.sgn n.sign * Numeral.nat n.ip) ∧
      ((Numeral.sgn n.sign * Numeral.nat n.ip : ℤ) : ℚ) = n.value := by
  obtain ⟨sg, ip, fr, ex⟩ := n
  obtain ⟨rfl, rfl⟩ : fr = none ∧ ex = none := h
  have hne : ip ≠ [] := by have := hn.2.2.1; simpa using this
  refine ⟨?_, ?_⟩
  · have := pyInt_text sg ip hn.1 hne
    simpa [Numeral.text, Numeral.fracText, Numeral.expText] using this
  · simp [Numeral.value, Numeral.expVal, Numeral.nat]

end Verif

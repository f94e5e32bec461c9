import Verif.Lemmas.LineTables
import Verif.Lemmas.CastepFrame
import Verif.Lemmas.DeltaScf
import Verif.Lemmas.AtomRe
import Verif.Lemmas.Tables
import Verif.Spec.SpecProps
/- Tables with one property of every species. -/
namespace Verif.Castep.SpecProps
open Verif Re NumRe AtomRe Spec Castep SpecTable

theorem SPECIES_WORD_eq : SPECIES_WORD_RE = ⟨.seq (.set upS) (.seq (.rep true 0 (some 2) (.set lowS)) (.wordB false)), [], 0⟩ := by decide +kernel

theorem word_of_range {c : Nat} (h : (65 ≤ c ∧ c ≤ 90) ∨ (97 ≤ c ∧ c ≤ 122)) : isWord c = true := by
  simp [isWord, isAlnum, isAlpha, isUpper, isLower]; omega

/-- Small letters up to the end of the word. -/
theorem low_word (caps : List (Nat × Str)) : ∀ (n : Nat) (s pre : Str) (c : Nat), isWord c = true →
    ((run (.rep true 0 (some n) (.set lowS)) ⟨c :: pre, s, caps⟩ fun t => run (.wordB false) t some).isSome = true ↔
      ∃ low rest, s = low ++ rest ∧ low.length ≤ n ∧ (∀ d ∈ low, 97 ≤ d ∧ d ≤ 122) ∧ ∀ d, rest.head? = some d → isWord d = false) := by
  have here : ∀ (s pre : Str) (c : Nat), isWord c = true →
      ((run (.wordB false) ⟨c :: pre, s, caps⟩ some).isSome = true ↔ ∀ d, s.head? = some d → isWord d = false) := by
    intro s pre c hc
    rw [run_wordB]
    cases s with
    | nil => simp [wordBefore, wordAfter, hc]
    | cons d s => cases hd : isWord d <;> simp [wordBefore, wordAfter, hc, hd]
  intro n
  induction n with
  | zero =>
    intro s pre c hc
    rw [run_rep_greedy, if_pos rfl, if_pos rfl, Option.none_or, here s pre c hc]
    constructor
    · intro h
      exact ⟨[], s, rfl, Nat.le_refl _, by simp, h⟩
    · rintro ⟨low, rest, rfl, h1, -, h3⟩
      obtain rfl : low = [] := List.length_eq_zero_iff.1 (Nat.le_zero.1 h1)
      exact h3
  | succ n ih =>
    intro s pre c hc
    rw [run_rep_greedy, if_neg (by simp), if_pos rfl, Option.isSome_or, Bool.or_eq_true, here s pre c hc]
    cases s with
    | nil =>
      rw [run_set_nil]
      constructor
      · rintro (h | h)
        · cases h
        · exact ⟨[], [], rfl, by simp, by simp, h⟩
      · rintro ⟨low, rest, e, -, -, -⟩
        right; simp
    | cons d s =>
      rw [run_set_cons]
      by_cases hd : 97 ≤ d ∧ d ≤ 122
      · rw [if_pos ((has_lowS d).2 hd), if_pos (by simp)]
        have := ih s (c :: pre) d (word_of_range (.inr hd))
        rw [show (Option.map (fun x => x - 1) (some (n + 1))) = some n from rfl, show 0 - 1 = 0 from rfl, this]
        constructor
        · rintro (⟨low, rest, rfl, h1, h2, h3⟩ | h)
          · exact ⟨d :: low, rest, rfl, by simp; omega, by
              intro x hx
              rcases List.mem_cons.1 hx with rfl | hx
              · exact hd
              · exact h2 x hx, h3⟩
          · have := h d rfl
            rw [word_of_range (.inr hd)] at this
            cases this
        · rintro ⟨low, rest, e, h1, h2, h3⟩
          cases low with
          | nil =>
            right
            rw [List.nil_append] at e
            rw [e]; exact h3
          | cons x low =>
            rw [List.cons_append] at e
            injection e with e1 e2
            exact .inl ⟨low, rest, e2, by simp at h1; omega, fun y hy => h2 y (by simp [hy]), h3⟩
      · rw [if_neg (by rw [has_lowS]; exact hd)]
        constructor
        · rintro (h | h)
          · cases h
          · exact ⟨[], d :: s, rfl, by simp, by simp, h⟩
        · rintro ⟨low, rest, e, h1, h2, h3⟩
          cases low with
          | nil => right; rw [List.nil_append] at e; rw [e]; exact h3
          | cons x low =>
            rw [List.cons_append] at e
            injection e with e1 e2
            exact absurd (e1 ▸ h2 x (by simp)) hd

theorem species_iff (w : Str) : (SPECIES_WORD_RE.match_ w).isSome = true ↔ Species w := by
  rw [SPECIES_WORD_eq, Pat.match_, Pat.matchAt_eq, Option.isSome_map, run_seq]
  cases w with
  | nil =>
    rw [run_set_nil]
    constructor
    · intro h; cases h
    · rintro ⟨c, low, rest, e, -⟩; cases e
  | cons c w =>
    rw [run_set_cons]
    by_cases hc : 65 ≤ c ∧ c ≤ 90
    · rw [if_pos ((has_upS c).2 hc)]
      simp only [run_seq]
      rw [low_word [] 2 w [] c (word_of_range (.inl hc))]
      constructor
      · rintro ⟨low, rest, rfl, h1, h2, h3⟩
        exact ⟨c, low, rest, rfl, hc, h1, h2, h3⟩
      · rintro ⟨c', low, rest, e, -, h1, h2, h3⟩
        injection e with e1 e2
        exact ⟨low, rest, e2, h1, h2, h3⟩
    · rw [if_neg (by rw [has_upS]; exact hc)]
      constructor
      · intro h; cases h
      · rintro ⟨c', low, rest, e, h, -⟩
        injection e with e1 e2
        exact absurd (e1 ▸ h) hc

/-! ### The rows of a table -/

theorem specProp_ignored {l : Str} (h : Ignored l) : specProp l = .ok none := by
  rw [specProp]
  rcases h with h | ⟨w, ws, hf, hs, hl⟩
  · rw [split_blank h]
  · rw [(fields_iff _ _).1 hf]
    dsimp only
    rw [List.getLast?_eq_some_getLast (by simp)] at hl
    rw [if_neg (fun e => hl (by rw [e])), if_neg (by rw [species_iff]; exact hs)]

theorem specProp_row {l : Str} {w : Str} {ws : List Str} (hs : Species w) (hf : Fields l (w :: ws)) (hl : (w :: ws).getLast? ≠ some (py"on-the-fly")) :
    specProp l = .ok (some (w :: ws)) := by
  rw [specProp, (fields_iff _ _).1 hf]
  dsimp only
  rw [List.getLast?_eq_some_getLast (by simp)] at hl
  rw [if_neg (fun e => hl (by rw [e])), if_pos (by rw [species_iff]; exact hs)]

theorem specProp_fly {l : Str} {w : Str} {ws : List Str} (hf : Fields l (w :: (ws ++ [py"on-the-fly"]))) :
    specProp l = .ok (some [w, py"on-the-fly"]) := by
  rw [specProp, (fields_iff _ _).1 hf]
  dsimp only
  rw [if_pos (by simp)]

theorem not_fly {n : Numeral} (hn : n.Valid) : n.text ≠ py"on-the-fly" := by
  intro e
  obtain ⟨c, r, e', hc⟩ := text_head n hn
  rw [e'] at e
  injection e with e1 e2
  subst e1
  rcases hc with hc | hc | hc | hc <;> revert hc <;> decide

/-! ### The entries -/

theorem lastOf_cons (k : Str) (v : PyVal) (es : List (Str × PyVal)) (k' : Str) :
    lastOf ((k, v) :: es) k' = (lastOf es k').or (if k = k' then some v else Option.none) := by
  rw [lastOf, lastOf, List.filter_cons]
  by_cases h : k = k'
  · rw [if_pos (by simp [h]), if_pos h]
    cases he : (es.filter fun e => decide (e.1 = k')) with
    | nil => simp
    | cons a t => simp [List.getLast?_eq_some_getLast]
  · rw [if_neg (by simp [h]), if_neg h, Option.or_none]

theorem ensure_get (r : Run) (k : Key) (v : PyVal) (k' : Key) : (ensure r k v).get? k' = if k' = k then some ((r.get? k).getD v) else r.get? k' := by
  rw [ensure, mem_iff]
  cases hr : r.get? k with
  | none =>
    rw [if_neg (by simp), Dict.get?_set]
    by_cases e : k = k'
    · subst e; rw [if_pos rfl, if_pos rfl]; rfl
    · rw [if_neg e, if_neg (Ne.symm e)]
  | some w =>
    rw [if_pos (by simp)]
    by_cases e : k' = k
    · subst e; rw [if_pos rfl, hr]; rfl
    · rw [if_neg e]

/-- What the run holds about species. -/
def held (r : Run) : Dict Key PyVal :=
  match r.get? KEY with
  | some (.dict d) => d
  | _ => []

theorem ensured {r : Run} (h : Sound r) : (ensure r KEY (.dict [])).get? KEY = some (.dict (held r)) := by
  rw [ensure_get, if_pos rfl, held]
  cases hr : r.get? KEY with
  | none => rfl
  | some v =>
    obtain ⟨d, rfl, -⟩ := h v hr
    rfl

theorem known_iff {r : Run} (k : Str) : Known r k ↔ ((held r).get? (.str k)).isSome = true := by
  rw [Known, held]
  cases hr : r.get? KEY with
  | none => simp [Dict.get?]
  | some v =>
    cases v with
    | dict d => simp
    | _ => simp [Dict.get?]

theorem property_eq (r : Run) (k p : Str) : property r k p =
    match (held r).get? (.str k) with
    | some (.dict e) => Dict.get? e (.str p)
    | _ => Option.none := by
  rw [property, held]
  cases hr : r.get? KEY with
  | none => rfl
  | some v => cases v <;> rfl

theorem held_sound {r : Run} (h : Sound r) (k : Key) (x : PyVal) (hx : (held r).get? k = some x) : ∃ e, x = .dict e := by
  rw [held] at hx
  cases hr : r.get? KEY with
  | none => rw [hr] at hx; cases hx
  | some v =>
    obtain ⟨d, rfl, h2⟩ := h v hr
    rw [hr] at hx
    exact h2 k x hx

theorem species_one {r : Run} (h : Sound r) (k p : Str) (v : PyVal) :
    ∃ r1, species r (.str k) [(.str p, v)] = .ok r1 ∧ (∀ key, key ≠ KEY → r1.get? key = r.get? key) ∧ Sound r1 ∧
      (∀ k', Known r1 k' ↔ Known r k' ∨ k' = k) ∧
      ∀ k' q, property r1 k' q = if k' = k ∧ q = p then some v else property r k' q := by
  obtain ⟨e, he, hp⟩ : ∃ e : Dict Key PyVal, (ensure (held r) (.str k) (.dict [])).get? (.str k) = some (.dict e) ∧ ∀ q, e.get? (.str q) = property r k q := by
    rw [ensure_get, if_pos rfl]
    cases hx : (held r).get? (.str k) with
    | none => exact ⟨[], rfl, fun q => by rw [property_eq, hx]; rfl⟩
    | some x =>
      obtain ⟨e, rfl⟩ := held_sound h _ _ hx
      exact ⟨e, rfl, fun q => by rw [property_eq, hx]⟩
  have hs : species r (.str k) [(.str p, v)] = .ok ((ensure r KEY (.dict [])).set KEY (.dict ((ensure (held r) (.str k) (.dict [])).set (.str k) (.dict (e.set (.str p) v))))) := by
    have h1 := ensured h
    unfold KEY at h1 ⊢
    unfold species
    dsimp only
    rw [h1]
    dsimp only
    rw [updateIn, he]
    rfl
  have hh : held ((ensure r KEY (.dict [])).set KEY (.dict ((ensure (held r) (.str k) (.dict [])).set (.str k) (.dict (e.set (.str p) v)))))
      = (ensure (held r) (.str k) (.dict [])).set (.str k) (.dict (e.set (.str p) v)) := by
    rw [held, Dict.get?_set_self]
  have hg : ∀ k', ((ensure (held r) (.str k) (.dict [])).set (.str k) (.dict (e.set (.str p) v))).get? k' =
      if k' = .str k then some (.dict (e.set (.str p) v)) else (held r).get? k' := by
    intro k'
    rw [Dict.get?_set]
    by_cases hk : Key.str k = k'
    · rw [if_pos hk, if_pos hk.symm]
    · rw [if_neg hk, if_neg (Ne.symm hk), ensure_get, if_neg (Ne.symm hk)]
  refine ⟨_, hs, ?_, ?_, ?_, ?_⟩
  · intro key hk
    rw [Dict.get?_set_ne _ _ _ _ hk, ensure_get, if_neg hk]
  · intro w hw
    rw [Dict.get?_set_self] at hw
    cases hw
    refine ⟨_, rfl, fun k' x hx => ?_⟩
    rw [hg] at hx
    split at hx
    · cases hx; exact ⟨_, rfl⟩
    · exact held_sound h _ _ hx
  · intro k'
    rw [known_iff, hh, hg, known_iff]
    by_cases hk : k' = k
    · subst hk; simp
    · rw [if_neg (by simpa using hk)]; simp [hk]
  · intro k' q
    rw [property_eq, hh, hg]
    by_cases hk : k' = k
    · subst hk
      rw [if_pos rfl]
      dsimp only
      rw [Dict.get?_set]
      by_cases hq : p = q
      · subst hq; rw [if_pos rfl, if_pos ⟨rfl, rfl⟩]
      · rw [if_neg (by simpa using hq), if_neg (by rintro ⟨-, e⟩; exact hq e.symm), hp]
    · rw [if_neg (by simpa using hk), if_neg (by rintro ⟨e, -⟩; exact hk e), property_eq]

theorem sets_nil {r : Run} (h : Sound r) (p : Str) : Sets p [] r (ensure r KEY (.dict [])) := by
  have e := ensured h
  have hh : held (ensure r KEY (.dict [])) = held r := by rw [held, e]
  refine ⟨fun key hk => by rw [ensure_get, if_neg hk], ?_, ?_, ?_⟩
  · intro v hv
    rw [e] at hv
    cases hv
    exact ⟨_, rfl, held_sound h⟩
  · intro k
    rw [known_iff, hh, known_iff]; simp
  · intro k q
    rw [property_eq, hh, property_eq]
    have : (if q = p then lastOf [] k else Option.none) = Option.none := by split <;> rfl
    rw [this, Option.none_or]

theorem sets_rows {unpack : List Str → PyM (Str × Str)} {p : Str} {f : Str → PyM PyVal} :
    ∀ {rows : List (List Str)} {es : List (Str × PyVal)}, List.Forall₂ (fun ws e => ∃ t, unpack ws = .ok (e.1, t) ∧ f t = .ok e.2) rows es →
    ∀ {r : Run}, Sound r → ∃ r', speciesRows unpack p f r rows = .ok r' ∧ Sets p es r r' := by
  intro rows es h
  induction h with
  | nil => exact fun hs => ⟨_, rfl, sets_nil hs p⟩
  | @cons ws e rows es h1 _ ih =>
    intro r hs
    obtain ⟨t, hu, hf⟩ := h1
    obtain ⟨r1, e1, a1, a2, a3, a4⟩ := species_one hs e.1 p e.2
    obtain ⟨r', e2, b1, b2, b3, b4⟩ := ih a2
    refine ⟨r', ?_, fun key hk => by rw [b1 key hk, a1 key hk], b2, ?_, ?_⟩
    · rw [speciesRows, hu]
      simp only [Delta.ok_bind]
      rw [hf]
      simp only [Delta.ok_bind]
      rw [e1]
      exact e2
    · intro k
      rw [b3, a3, List.map_cons, List.mem_cons]
      constructor
      · rintro ((h | h) | h) <;> simp [h]
      · rintro (h | h | h) <;> simp [h]
    · intro k q
      rw [b4, a4, show lastOf (e :: es) k = lastOf ((e.1, e.2) :: es) k from rfl, lastOf_cons]
      by_cases hq : q = p
      · simp only [hq, if_true, and_true]
        by_cases hk : k = e.1
        · subst hk; simp
        · rw [if_neg hk, if_neg (Ne.symm hk), Option.or_none]
      · simp [hq]

/-- A row that cannot be unpacked. -/
theorem rows_fail {unpack : List Str → PyM (Str × Str)} {p : Str} {f : Str → PyM PyVal} {bad : List Str} (hb : ∃ e, unpack bad = .error e) :
    ∀ {rows : List (List Str)}, bad ∈ rows → ∀ r, ∃ e, speciesRows unpack p f r rows = .error e := by
  intro rows
  induction rows with
  | nil => intro h; cases h
  | cons ws rows ih =>
    intro h r
    rw [speciesRows]
    cases hu : unpack ws with
    | error e => exact ⟨e, rfl⟩
    | ok kv =>
      obtain ⟨k, t⟩ := kv
      simp only [Delta.ok_bind]
      cases hf : f t with
      | error e => exact ⟨e, rfl⟩
      | ok v =>
        simp only [Delta.ok_bind]
        cases hs : species r (.str k) [(.str p, v)] with
        | error e => exact ⟨e, rfl⟩
        | ok r1 =>
          rcases List.mem_cons.1 h with rfl | h
          · obtain ⟨e, he⟩ := hb
            rw [he] at hu; cases hu
          · exact ih h r1

theorem specProp_ok (l : Str) : ∃ o, specProp l = .ok o := by
  rw [specProp]
  split
  · exact ⟨_, rfl⟩
  · split
    · exact ⟨_, rfl⟩
    · split <;> exact ⟨_, rfl⟩

theorem collect_mem {l : Str} {ws : List Str} (h : specProp l = .ok (some ws)) : ∀ {ls : List Str}, l ∈ ls → ∃ rows, process_spec_prop ls = .ok rows ∧ ws ∈ rows := by
  have all : ∀ ls : List Str, ∃ rows, process_spec_prop ls = .ok rows := by
    intro ls
    induction ls with
    | nil => exact ⟨[], rfl⟩
    | cons a ls ih =>
      obtain ⟨rows, hr⟩ := ih
      obtain ⟨o, ho⟩ := specProp_ok a
      rw [process_spec_prop] at hr ⊢
      rw [collect, ho]
      simp only [Delta.ok_bind]
      cases o with
      | none => exact ⟨rows, hr⟩
      | some x => rw [hr]; exact ⟨_, rfl⟩
  intro ls
  induction ls with
  | nil => intro h; cases h
  | cons a ls ih =>
    intro hm
    rcases List.mem_cons.1 hm with rfl | hm
    · obtain ⟨rows, hr⟩ := all ls
      rw [process_spec_prop] at hr ⊢
      rw [collect, h]
      simp only [Delta.ok_bind]
      rw [hr]
      exact ⟨_, rfl, by simp⟩
    · obtain ⟨rows, hr, hw⟩ := ih hm
      obtain ⟨o, ho⟩ := specProp_ok a
      rw [process_spec_prop] at hr ⊢
      rw [collect, ho]
      simp only [Delta.ok_bind]
      cases o with
      | none => exact ⟨rows, hr, hw⟩
      | some x => rw [hr]; exact ⟨_, rfl, by simp [hw]⟩

end Verif.Castep.SpecProps

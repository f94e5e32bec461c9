import Verif.Lemmas.Regex
/-
When a pattern without zero-width conditions matches: exactly when a word of its language is a
prefix of the text.
-/
namespace Verif
namespace Re

/-- No zero-width condition, no back reference, no repetition of a body that can be empty. -/
def plain : Re → Bool
  | .eps | .set _ => true
  | .seq a b | .alt a b => plain a && plain b
  | .rep _ _ _ r => !nullable r && plain r
  | .group _ r => plain r
  | _ => false

theorem lang_ne_nil {r : Re} (h : nullable r = false) : ∀ {w : Str}, Lang r w → w ≠ [] := by
  induction r with
  | set cs => rintro w ⟨c, -, rfl⟩; simp
  | seq a b iha ihb =>
    rintro w ⟨u, v, rfl, hu, hv⟩ e
    obtain ⟨rfl, rfl⟩ := List.append_eq_nil_iff.1 e
    simp only [nullable, Bool.and_eq_false_iff] at h
    rcases h with h | h
    · exact iha h hu rfl
    · exact ihb h hv rfl
  | alt a b iha ihb =>
    intro w hw
    simp only [nullable, Bool.or_eq_false_iff] at h
    rcases hw with hw | hw
    · exact iha h.1 hw
    · exact ihb h.2 hw
  | cond n a b iha ihb =>
    intro w hw
    simp only [nullable, Bool.or_eq_false_iff] at h
    rcases hw with hw | hw
    · exact iha h.1 hw
    · exact ihb h.2 hw
  | rep g mn mx r ih =>
    rintro w ⟨ws, rfl, h1, h2, h3⟩ e
    simp only [nullable, Bool.or_eq_false_iff, beq_eq_false_iff_ne] at h
    cases ws with
    | nil => simp at h1; omega
    | cons u ws =>
      rw [List.flatten_cons, List.append_eq_nil_iff] at e
      exact ih h.2 (h3 u (by simp)) e.1
  | group n r ih => intro w hw; exact ih h hw
  | _ => simp [nullable] at h

theorem mem_m_repM (r : Re) (g : Bool) (mn : Nat) (mx : Option Nat) (s t : St) :
    t ∈ m (.rep g mn mx r) s ↔
      (mx ≠ some 0 ∧ ∃ u ∈ m r s, u.post.length < s.post.length ∧ t ∈ m (.rep g (mn - 1) (mx.map (· - 1)) r) u) ∨
      (mn = 0 ∧ t = s) := by
  have h1 : m (.rep g mn mx r) s = repM (m r) g (mn + s.post.length + 1) mn mx s := by
    rw [m]; exact repM_fuel _ _ _ _ _ _ _ (by omega) (by omega)
  have h2 : ∀ u : St, u.post.length < s.post.length →
      repM (m r) g (mn + s.post.length) (mn - 1) (mx.map (· - 1)) u = m (.rep g (mn - 1) (mx.map (· - 1)) r) u := by
    intro u hu
    rw [m]; exact repM_fuel _ _ _ _ _ _ _ (by omega) (by omega)
  rw [h1, repM]
  have h3 : t ∈ (if mx = some 0 then [] else (m r s).flatMap fun u =>
        if u.post.length < s.post.length then
          repM (m r) g (mn + s.post.length) (mn - 1) (mx.map (· - 1)) u else []) ↔
      (mx ≠ some 0 ∧ ∃ u ∈ m r s, u.post.length < s.post.length ∧ t ∈ m (.rep g (mn - 1) (mx.map (· - 1)) r) u) := by
    split
    · simp_all
    · simp only [List.mem_flatMap, ne_eq, *, not_false_eq_true, true_and]
      constructor
      · rintro ⟨u, hu, h⟩
        split at h
        · rename_i hl; rw [h2 u hl] at h; exact ⟨u, hu, hl, h⟩
        · simp at h
      · rintro ⟨u, hu, hl, h⟩
        exact ⟨u, hu, by rw [if_pos hl, h2 u hl]; exact h⟩
  have h4 : t ∈ (if mn = 0 then [s] else []) ↔ mn = 0 ∧ t = s := by
    split <;> simp_all
  cases g with
  | true => simp only [if_true, List.mem_append]; rw [h3, h4]
  | false => simp only [Bool.false_eq_true, if_false, List.mem_append]; rw [h3, h4]; exact Or.comm

/-- Every word of the language that is a prefix of the text is one of the ways to match. -/
theorem m_complete : ∀ (r : Re), plain r = true → ∀ (w pre rest : Str) (caps), Lang r w →
    ∃ caps', (⟨w.reverse ++ pre, rest, caps'⟩ : St) ∈ m r ⟨pre, w ++ rest, caps⟩ := by
  intro r
  induction r with
  | eps => rintro - w pre rest caps rfl; exact ⟨caps, by simp [m]⟩
  | set cs =>
    rintro - w pre rest caps ⟨c, hc, rfl⟩
    exact ⟨caps, by simp [m, hc]⟩
  | seq a b iha ihb =>
    rintro hp w pre rest caps ⟨u, v, rfl, hu, hv⟩
    simp only [plain, Bool.and_eq_true] at hp
    obtain ⟨c1, h1⟩ := iha hp.1 u pre (v ++ rest) caps hu
    obtain ⟨c2, h2⟩ := ihb hp.2 v (u.reverse ++ pre) rest c1 hv
    refine ⟨c2, ?_⟩
    rw [m, List.append_assoc]
    refine List.mem_flatMap.2 ⟨_, h1, ?_⟩
    simpa using h2
  | alt a b iha ihb =>
    intro hp w pre rest caps hw
    simp only [plain, Bool.and_eq_true] at hp
    rw [m]
    rcases hw with hw | hw
    · obtain ⟨c1, h1⟩ := iha hp.1 w pre rest caps hw
      exact ⟨c1, List.mem_append_left _ h1⟩
    · obtain ⟨c1, h1⟩ := ihb hp.2 w pre rest caps hw
      exact ⟨c1, List.mem_append_right _ h1⟩
  | group n r ih =>
    intro hp w pre rest caps hw
    obtain ⟨c1, h1⟩ := ih hp w pre rest caps hw
    rw [m]
    exact ⟨_, List.mem_map.2 ⟨_, h1, rfl⟩⟩
  | rep g mn mx r ih =>
    rintro hp w pre rest caps ⟨ws, rfl, h1, h2, h3⟩
    simp only [plain, Bool.and_eq_true, Bool.not_eq_true'] at hp
    induction ws generalizing mn mx pre caps with
    | nil =>
      refine ⟨caps, (mem_m_repM _ _ _ _ _ _).2 (.inr ⟨by simpa using h1, by simp⟩)⟩
    | cons u ws ihw =>
      obtain ⟨c1, h4⟩ := ih hp.2 u pre (ws.flatten ++ rest) caps (h3 u (by simp))
      obtain ⟨c2, h5⟩ := ihw (mn - 1) (mx.map (· - 1)) (u.reverse ++ pre) c1 (by simp at h1; omega) (by
        intro M hM
        cases mx with
        | none => simp at hM
        | some M' => simp at hM; have := h2 M' rfl; simp at this; omega)
        (fun v hv => h3 v (by simp [hv]))
      refine ⟨c2, (mem_m_repM _ _ _ _ _ _).2 (.inl ⟨?_, _, by simpa using h4, ?_, by simpa using h5⟩)⟩
      · rintro rfl; have := h2 0 rfl; simp at this
      · have := lang_ne_nil hp.1 (h3 u (by simp))
        have := List.length_pos_iff.2 this
        simp; omega
  | _ => intro hp; simp [plain] at hp

theorem head?_isSome_iff {l : List α} : l.head?.isSome ↔ ∃ x, x ∈ l := by
  cases l with
  | nil => simp
  | cons a l => simp

end Re

namespace Pat

theorem isSome_matchAt (p : Pat) (pre post : Str) :
    (p.matchAt pre post).isSome ↔ ∃ t, t ∈ Re.m p.re ⟨pre, post, []⟩ := by
  simp only [matchAt, Option.isSome_map]; exact Re.head?_isSome_iff

/-- A pattern without zero-width conditions matches exactly when a word of its language is a prefix. -/
theorem isSome_plain (p : Pat) (h : p.re.plain = true) (pre post : Str) :
    (p.matchAt pre post).isSome ↔ ∃ w rest, post = w ++ rest ∧ Re.Lang p.re w := by
  rw [isSome_matchAt]
  constructor
  · rintro ⟨t, ht⟩
    obtain ⟨w, hs, hl⟩ := Re.m_sound _ _ _ ht
    exact ⟨w, t.post, hs.post, hl⟩
  · rintro ⟨w, rest, rfl, hl⟩
    obtain ⟨c, hc⟩ := Re.m_complete _ h w pre rest [] hl
    exact ⟨_, hc⟩

/-- The same for a pattern starting with `^`, matched at the start of the text. -/
theorem isSome_bol (p : Pat) (r : Re) (hp : p.re = .seq .bol r) (h : r.plain = true) (post : Str) :
    (p.matchAt [] post).isSome ↔ ∃ w rest, post = w ++ rest ∧ Re.Lang r w := by
  have e : ∀ t, t ∈ Re.m p.re ⟨[], post, []⟩ ↔ t ∈ Re.m r ⟨[], post, []⟩ := by
    intro t; rw [hp]; simp [Re.m, Re.atBol]
  rw [isSome_matchAt]
  simp only [e]
  constructor
  · rintro ⟨t, ht⟩
    obtain ⟨w, hs, hl⟩ := Re.m_sound _ _ _ ht
    exact ⟨w, t.post, hs.post, hl⟩
  · rintro ⟨w, rest, rfl, hl⟩
    obtain ⟨c, hc⟩ := Re.m_complete _ h w [] rest [] hl
    exact ⟨_, hc⟩

/-- A pattern starting with `^` matches nowhere else. -/
theorem bol_later (p : Pat) (r : Re) (hp : p.re = .seq .bol r) (c : Nat) (pre post : Str) :
    p.matchAt (c :: pre) post = none := by
  have : ¬ (p.matchAt (c :: pre) post).isSome := by
    rw [isSome_matchAt, hp]
    rintro ⟨t, ht⟩
    simp [Re.m, Re.atBol] at ht
  simpa using this

theorem searchFrom_bol (p : Pat) (r : Re) (hp : p.re = .seq .bol r) (post : Str) :
    ∀ c pre, p.searchFrom (c :: pre) post = none := by
  induction post with
  | nil => intro c pre; rw [searchFrom, bol_later p r hp]
  | cons d post ih => intro c pre; rw [searchFrom, bol_later p r hp]; exact ih _ _

/-- So searching it is matching it. -/
theorem search_bol (p : Pat) (r : Re) (hp : p.re = .seq .bol r) (text : Str) : p.search text = p.match_ text := by
  rw [search, match_]
  cases text with
  | nil => rfl
  | cons c text =>
    rw [searchFrom]
    cases p.matchAt [] (c :: text) with
    | some x => rfl
    | none => exact searchFrom_bol p r hp _ _ _

/-- The outcome of a search: the leftmost cursor where the pattern matches. -/
theorem searchFrom_spec (p : Pat) : ∀ (post pre : Str),
    (p.searchFrom pre post = none ∧ ∀ u v, post = u ++ v → p.matchAt (u.reverse ++ pre) v = none) ∨
    (∃ u v x, post = u ++ v ∧ p.searchFrom pre post = some x ∧ p.matchAt (u.reverse ++ pre) v = some x ∧
      ∀ u' v', post = u' ++ v' → u'.length < u.length → p.matchAt (u'.reverse ++ pre) v' = none) := by
  intro post
  induction post with
  | nil =>
    intro pre
    rw [searchFrom]
    cases h : p.matchAt pre [] with
    | some x => exact .inr ⟨[], [], x, rfl, rfl, h, by simp⟩
    | none =>
      refine .inl ⟨rfl, fun u v e => ?_⟩
      obtain ⟨rfl, rfl⟩ := List.append_eq_nil_iff.1 e.symm
      exact h
  | cons c post ih =>
    intro pre
    rw [searchFrom]
    cases h : p.matchAt pre (c :: post) with
    | some x => exact .inr ⟨[], c :: post, x, rfl, rfl, h, by simp⟩
    | none =>
      rcases ih (c :: pre) with ⟨h1, h2⟩ | ⟨u, v, x, h1, h2, h3, h4⟩
      · refine .inl ⟨h1, fun u v e => ?_⟩
        cases u with
        | nil => simp at e; subst e; exact h
        | cons d u =>
          simp only [List.cons_append, List.cons.injEq] at e
          obtain ⟨rfl, e⟩ := e
          simpa using h2 u v e
      · refine .inr ⟨c :: u, v, x, by rw [h1]; rfl, h2, by simpa using h3, fun u' v' e hl => ?_⟩
        cases u' with
        | nil => simp at e; subst e; exact h
        | cons d u' =>
          simp only [List.cons_append, List.cons.injEq] at e
          obtain ⟨rfl, e⟩ := e
          simpa using h4 u' v' e (by simpa using hl)

theorem search_spec (p : Pat) (text : Str) :
    (p.search text = none ∧ ∀ u v, text = u ++ v → p.matchAt u.reverse v = none) ∨
    (∃ u v x, text = u ++ v ∧ p.search text = some x ∧ p.matchAt u.reverse v = some x ∧
      ∀ u' v', text = u' ++ v' → u'.length < u.length → p.matchAt u'.reverse v' = none) := by
  have := searchFrom_spec p text []
  simpa [search] using this

end Pat
end Verif

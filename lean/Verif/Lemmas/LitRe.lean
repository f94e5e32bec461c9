import Verif.Lemmas.Match
import Verif.Spec.Text
import Mathlib.Data.List.Forall2
/- Texts that every match of a pattern contains. -/
namespace Verif
open Spec
namespace Re

/-- The parts of a sequence. -/
def parts : Re → List Re
  | .seq a b => parts a ++ parts b
  | r => [r]

theorem lang_parts (r : Re) : ∀ w, Lang r w → ∃ ws : List Str, w = ws.flatten ∧ List.Forall₂ Lang (parts r) ws := by
  induction r with
  | seq a b iha ihb =>
    rintro w ⟨u, v, rfl, hu, hv⟩
    obtain ⟨us, rfl, h1⟩ := iha u hu
    obtain ⟨vs, rfl, h2⟩ := ihb v hv
    exact ⟨us ++ vs, by simp, List.rel_append h1 h2⟩
  | _ => exact fun w hw => ⟨[w], by simp, .cons hw .nil⟩

/-- The sequence of character sets is part of the sequence. -/
def hasSets (cs : List CSet) : List Re → Bool
  | [] => cs.isEmpty
  | r :: rs => (cs.map Re.set).isPrefixOf (r :: rs) || hasSets cs rs

theorem hasSets_spec (cs : List CSet) : ∀ (rs : List Re) (ws : List Str), hasSets cs rs = true →
    List.Forall₂ Lang rs ws → ∃ u w v, ws.flatten = u ++ w ++ v ∧ List.Forall₂ (fun (c : CSet) x => c.has x = true) cs w := by
  intro rs
  induction rs with
  | nil =>
    intro ws h _
    simp only [hasSets, List.isEmpty_iff] at h
    subst h
    exact ⟨[], [], ws.flatten, by simp, .nil⟩
  | cons r rs ih =>
    intro ws h hw
    rw [hasSets, Bool.or_eq_true] at h
    rcases h with h | h
    · rw [List.isPrefixOf_iff_prefix] at h
      obtain ⟨qs, hq⟩ := h
      rw [← hq] at hw
      clear hq ih
      have : ∀ (cs : List CSet) (ws : List Str), List.Forall₂ Lang (cs.map Re.set ++ qs) ws →
          ∃ w v, ws.flatten = w ++ v ∧ List.Forall₂ (fun (c : CSet) x => c.has x = true) cs w := by
        intro cs
        induction cs with
        | nil => intro ws _; exact ⟨[], ws.flatten, by simp, .nil⟩
        | cons c cs ih =>
          intro ws hw
          cases hw with
          | cons h1 h2 =>
            obtain ⟨x, hx, rfl⟩ := h1
            obtain ⟨w, v, h3, h4⟩ := ih _ h2
            exact ⟨x :: w, v, by simp [h3], .cons hx h4⟩
      obtain ⟨w, v, h1, h2⟩ := this cs ws hw
      exact ⟨[], w, v, by simp [h1], h2⟩
    · cases hw with
      | cons h1 h2 =>
        rename_i w0 ws
        obtain ⟨u, w, v, h3, h4⟩ := ih ws h h2
        exact ⟨w0 ++ u, w, v, by simp [h3], h4⟩

/-- The set of one character. -/
def oneSet (c : Nat) : CSet := ⟨false, [.ch c], false⟩
/-- The set of one character ignoring case. -/
def oneSetCi (c : Nat) : CSet := ⟨false, [.ch c], true⟩

theorem has_oneSet (c x : Nat) : (oneSet c).has x = true ↔ x = c := by
  simp [oneSet, CSet.has, CItem.has]

theorem has_oneSetCi {c x : Nat} (hc : 97 ≤ c ∧ c ≤ 122) (h : (oneSetCi c).has x = true) : lowerC x = c := by
  simp only [oneSetCi, CSet.has, CItem.has, List.any_cons, List.any_nil, Bool.or_false, Bool.true_and, Bool.false_bne,
    Bool.or_eq_true, beq_iff_eq] at h
  rcases h with h | h | h
  · subst h
    rw [lowerC, if_neg (by simp [isUpper]; omega)]
  · exact h
  · rw [upperC] at h
    split at h
    · rename_i h1
      simp [isLower] at h1
      omega
    · subst h
      rw [lowerC, if_neg (by simp [isUpper]; omega)]

theorem window_lit (w : Str) : ∀ v : Str, List.Forall₂ (fun (c : CSet) x => c.has x = true) (w.map oneSet) v → v = w := by
  induction w with
  | nil => intro v h; cases h; rfl
  | cons c w ih =>
    intro v h
    cases h with
    | cons h1 h2 => rw [ih _ h2, (has_oneSet _ _).1 h1]

theorem window_litCi (w : Str) (hw : ∀ c ∈ w, 97 ≤ c ∧ c ≤ 122) : ∀ v : Str,
    List.Forall₂ (fun (c : CSet) x => c.has x = true) (w.map oneSetCi) v → Str.lower v = w := by
  induction w with
  | nil => intro v h; cases h; rfl
  | cons c w ih =>
    intro v h
    cases h with
    | cons h1 h2 =>
      have := ih (fun x hx => hw x (by simp [hx])) _ h2
      simp only [Str.lower, List.map_cons] at this ⊢
      rw [this, has_oneSetCi (hw c (by simp)) h1]

theorem lang_occurs {r : Re} {w : Str} (h : hasSets (w.map oneSet) (parts r) = true) {t : Str} (ht : Lang r t) :
    Occurs w t := by
  obtain ⟨ws, rfl, h1⟩ := lang_parts r t ht
  obtain ⟨u, x, v, h2, h3⟩ := hasSets_spec _ _ _ h h1
  exact ⟨u, v, by rw [h2, window_lit w x h3]⟩

theorem lang_occursCi {r : Re} {w : Str} (hw : ∀ c ∈ w, 97 ≤ c ∧ c ≤ 122)
    (h : hasSets (w.map oneSetCi) (parts r) = true) {t : Str} (ht : Lang r t) : Occurs w (Str.lower t) := by
  obtain ⟨ws, rfl, h1⟩ := lang_parts r t ht
  obtain ⟨u, x, v, h2, h3⟩ := hasSets_spec _ _ _ h h1
  exact ⟨Str.lower u, Str.lower v, by rw [h2, ← window_litCi w hw x h3]; simp [Str.lower]⟩

/-! ### Groups of a sequence -/

/-- The states after matching the parts one after the other. -/
def mAll : List Re → St → List St
  | [], s => [s]
  | r :: rs, s => (m r s).flatMap (mAll rs)

theorem mAll_append (a b : List Re) (s : St) : mAll (a ++ b) s = (mAll a s).flatMap (mAll b) := by
  induction a generalizing s with
  | nil => simp [mAll]
  | cons r a ih =>
    simp only [List.cons_append, mAll, List.flatMap_assoc]
    congr 1
    funext x
    exact ih x

theorem m_parts (r : Re) (s : St) : m r s = mAll (parts r) s := by
  induction r generalizing s with
  | seq a b iha ihb =>
    rw [parts, mAll_append, ← iha, m]
    congr 1
    funext x
    exact ihb x
  | _ => simp [parts, mAll]

theorem mAll_sound (rs : List Re) : ∀ (s t : St), t ∈ mAll rs s →
    ∃ ws : List Str, Step (rs.flatMap groupsOf) s t ws.flatten ∧ List.Forall₂ Lang rs ws := by
  induction rs with
  | nil => intro s t h; simp only [mAll, List.mem_singleton] at h; subst h; exact ⟨[], .refl _ _, .nil⟩
  | cons r rs ih =>
    intro s t h
    obtain ⟨u, hu, ht⟩ := List.mem_flatMap.1 h
    obtain ⟨w, h1, h2⟩ := m_sound _ _ _ hu
    obtain ⟨ws, h3, h4⟩ := ih _ _ ht
    exact ⟨w :: ws, (h1.mono (by simp +contextual)).trans (h3.mono fun p hp =>
      List.mem_append_right _ hp), .cons h2 h4⟩

/-- What a group of a sequence holds and what follows it. -/
theorem cap_of_parts {r c : Re} {n : Nat} {A B : List Re} (hp : parts r = A ++ .group n c :: B)
    (hn : ∀ q ∈ B.flatMap groupsOf, q.1 ≠ n) {s t : St} (h : t ∈ m r s) :
    ∃ u w vs, s.post = u ++ w ++ vs.flatten ++ t.post ∧ t.cap n = some w ∧ Lang c w ∧ List.Forall₂ Lang B vs := by
  rw [m_parts, hp, mAll_append] at h
  obtain ⟨s1, h1, h⟩ := List.mem_flatMap.1 h
  obtain ⟨s2, h2, h3⟩ := List.mem_flatMap.1 h
  obtain ⟨us, h4, -⟩ := mAll_sound _ _ _ h1
  obtain ⟨vs, h5, h6⟩ := mAll_sound _ _ _ h3
  rw [m] at h2
  obtain ⟨s3, h7, rfl⟩ := List.mem_map.1 h2
  obtain ⟨w, h8, h9⟩ := m_sound _ _ _ h7
  refine ⟨us.flatten, w, vs, ?_, ?_, h9, h6⟩
  · have e1 := h4.post
    have e2 := h8.post
    have e3 := h5.post
    simp only at e3
    rw [e1, e2, e3]
    simp
  · obtain ⟨new, e1, e2⟩ := h5.caps
    rw [St.cap, e1, List.find?_append, List.find?_eq_none.2, h8.upTo]
    · simp
    · intro p hp
      obtain ⟨q, hq, -⟩ := e2 p hp
      simpa using hn _ hq

end Re
end Verif

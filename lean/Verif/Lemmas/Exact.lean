import Verif.Lemmas.Words
import Verif.Lemmas.Path
import Verif.Lemmas.AtomRe
import Verif.Lemmas.Find
import Verif.Lemmas.Match
/- Exact matches between brackets. -/
namespace Verif.Re
open Verif NumRe AtomRe Spec

/-- Expressions without groups and assertions whose repeated parts are not empty. -/
def simple : Re → Bool
  | .eps | .set _ => true
  | .seq a b | .alt a b => simple a && simple b
  | .rep _ _ _ r => simple r && !nullable r
  | _ => false

theorem repM_mem {r : Re} (g : Bool) (rest : Str) (caps : List (Nat × Str))
    (hr : ∀ w, Lang r w → ∀ pre rest, (⟨w.reverse ++ pre, rest, caps⟩ : St) ∈ m r ⟨pre, w ++ rest, caps⟩) :
    ∀ (ws : List Str), (∀ u ∈ ws, u ≠ [] ∧ Lang r u) → ∀ (f mn : Nat) (mx : Option Nat) (pre : Str), (ws.flatten ++ rest).length ≤ f → mn ≤ ws.length →
      (∀ M, mx = some M → ws.length ≤ M) → (⟨ws.flatten.reverse ++ pre, rest, caps⟩ : St) ∈ repM (m r) g f mn mx ⟨pre, ws.flatten ++ rest, caps⟩ := by
  intro ws
  induction ws with
  | nil =>
    intro _ f mn mx pre hf hmn _
    obtain rfl : mn = 0 := by simpa using hmn
    cases f with
    | zero => simp [repM]
    | succ f =>
      rw [repM]
      cases g <;> simp
  | cons u ws ih =>
    intro hw f mn mx pre hf hmn hmx
    obtain ⟨hne, hu⟩ := hw u (by simp)
    have hlen : 0 < u.length := List.length_pos_iff.2 hne
    cases f with
    | zero => simp only [List.flatten_cons, List.length_append] at hf; omega
    | succ f =>
      have h1 := hr u hu pre (ws.flatten ++ rest)
      have h2 := ih (fun v hv => hw v (by simp [hv])) f (mn - 1) (mx.map (· - 1)) (u.reverse ++ pre) (by
        simp only [List.flatten_cons, List.length_append] at hf ⊢; omega) (by simp at hmn; omega) (by
        intro M hM
        cases mx with
        | none => cases hM
        | some X =>
          have := hmx X rfl
          simp at hM this
          omega)
      have hmore : (⟨(u :: ws).flatten.reverse ++ pre, rest, caps⟩ : St) ∈ (m r ⟨pre, (u :: ws).flatten ++ rest, caps⟩).flatMap fun t =>
          if t.post.length < ((u :: ws).flatten ++ rest).length then repM (m r) g f (mn - 1) (mx.map (· - 1)) t else [] := by
        rw [List.mem_flatMap]
        refine ⟨⟨u.reverse ++ pre, ws.flatten ++ rest, caps⟩, by simpa using h1, ?_⟩
        rw [if_pos (by simp; omega)]
        simpa using h2
      have h0 : mx ≠ some 0 := by
        intro e
        have := hmx 0 e
        simp at this
      rw [repM]
      dsimp only
      rw [if_neg h0]
      cases g
      · rw [if_neg (by simp)]; exact List.mem_append_right _ hmore
      · rw [if_pos rfl]; exact List.mem_append_left _ hmore

theorem mem_of_lang : ∀ (r : Re), simple r = true → ∀ w, Lang r w → ∀ (pre rest : Str) (caps : List (Nat × Str)),
    (⟨w.reverse ++ pre, rest, caps⟩ : St) ∈ m r ⟨pre, w ++ rest, caps⟩
  | .eps, _, w, hw, pre, rest, caps => by
    obtain rfl : w = [] := hw
    simp [m]
  | .set cs, _, w, hw, pre, rest, caps => by
    obtain ⟨c, hc, rfl⟩ := hw
    simp [m, hc]
  | .seq a b, hs, w, hw, pre, rest, caps => by
    simp only [simple, Bool.and_eq_true] at hs
    obtain ⟨u, v, rfl, hu, hv⟩ := hw
    have h1 := mem_of_lang a hs.1 u hu pre (v ++ rest) caps
    have h2 := mem_of_lang b hs.2 v hv (u.reverse ++ pre) rest caps
    rw [m, List.mem_flatMap]
    exact ⟨_, by simpa using h1, by simpa using h2⟩
  | .alt a b, hs, w, hw, pre, rest, caps => by
    simp only [simple, Bool.and_eq_true] at hs
    rw [m, List.mem_append]
    rcases hw with hw | hw
    · exact .inl (mem_of_lang a hs.1 w hw pre rest caps)
    · exact .inr (mem_of_lang b hs.2 w hw pre rest caps)
  | .rep g mn mx r, hs, w, hw, pre, rest, caps => by
    simp only [simple, Bool.and_eq_true, Bool.not_eq_true'] at hs
    obtain ⟨ws, rfl, h1, h2, h3⟩ := hw
    rw [m]
    exact repM_mem g rest caps (fun w hw pre rest => mem_of_lang r hs.1 w hw pre rest caps) ws
      (fun u hu => ⟨lang_ne_nil hs.2 (h3 u hu), h3 u hu⟩) _ mn mx pre (by show (ws.flatten ++ rest).length ≤ mn + (ws.flatten ++ rest).length; omega) h1 h2

theorem groups_simple : ∀ (r : Re), simple r = true → groupsOf r = []
  | .eps, _ => rfl
  | .set _, _ => rfl
  | .seq a b, h => by
    simp only [simple, Bool.and_eq_true] at h
    rw [groupsOf, groups_simple a h.1, groups_simple b h.2]; rfl
  | .alt a b, h => by
    simp only [simple, Bool.and_eq_true] at h
    rw [groupsOf, groups_simple a h.1, groups_simple b h.2]; rfl
  | .rep _ _ _ r, h => by
    simp only [simple, Bool.and_eq_true] at h
    rw [groupsOf, groups_simple r h.1]

theorem findSome_unique {α β : Type _} {f : α → Option β} {a : α} : ∀ {l : List α}, (∀ t ∈ l, f t = none ∨ t = a) → a ∈ l → l.findSome? f = f a
  | [], _, h => by cases h
  | t :: l, h, ha => by
    rw [List.findSome?_cons]
    rcases h t (by simp) with ht | rfl
    · rw [ht]
      rcases List.mem_cons.1 ha with rfl | ha
      · cases hl : l.findSome? f with
        | none => rw [ht]
        | some b =>
          obtain ⟨l1, x, l2, rfl, hx, -⟩ := List.findSome?_eq_some_iff.1 hl
          rcases h x (by simp) with h' | rfl
          · rw [h'] at hx; cases hx
          · rw [hx] at ht; cases ht
      · exact findSome_unique (fun t ht => h t (by simp [ht])) ha
    · cases hf : f t with
      | some b => rfl
      | none =>
        rw [List.findSome?_eq_none_iff]
        intro x hx
        rcases h x (by simp [hx]) with h' | rfl
        · exact h'
        · exact hf

/-- A group that must be followed by a character, where only one word can. -/
theorem run_exact {r : Re} (hg : groupsOf r = []) {i c : Nat} {w pre rest : Str} {caps : List (Nat × Str)}
    (hmem : (⟨w.reverse ++ pre, c :: rest, caps⟩ : St) ∈ m r ⟨pre, w ++ c :: rest, caps⟩)
    (huniq : ∀ u v, Lang r u → w ++ c :: rest = u ++ c :: v → u = w) (k : St → Option β) :
    run (.group i r) ⟨pre, w ++ c :: rest, caps⟩ (fun t => run (.set (ch c)) t k) = k ⟨c :: (w.reverse ++ pre), rest, (i, w) :: caps⟩ := by
  rw [run_group, run, findSome_unique (a := ⟨w.reverse ++ pre, c :: rest, caps⟩) _ hmem]
  · rw [run_set_cons, if_pos (by rw [has_ch]; simp)]
    simp [St.upTo]
  · intro t ht
    obtain ⟨u, hs, hl⟩ := m_sound r _ t ht
    obtain ⟨h1, h2, new, h3, h4⟩ := hs
    rw [hg] at h4
    obtain rfl : new = [] := by
      cases new with
      | nil => rfl
      | cons p _ => obtain ⟨_, h, _⟩ := h4 p (by simp); cases h
    obtain ⟨tp, tq, tc⟩ := t
    dsimp only at h1 h2 h3 ⊢
    cases tq with
    | nil => left; rw [run_set_nil]
    | cons d tq =>
      by_cases hd : d = c
      · subst hd
        right
        obtain rfl := huniq u tq hl h1
        have := List.append_cancel_left h1
        rw [h2, h3, ← this]
        rfl
      · left
        rw [run_set_cons, if_neg (by rw [has_ch]; simpa using hd)]

end Verif.Re

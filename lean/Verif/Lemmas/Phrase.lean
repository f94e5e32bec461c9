import Verif.Lemmas.BandTable
/-
Phrases every match of a pattern contains.
-/
namespace Verif
open Spec

/-- A character, with upper case folded or not. -/
def foldC (fold : Bool) (c : Nat) : Nat := if fold then lowerC c else c

/-- Text, with upper case folded or not. -/
def foldS (fold : Bool) (s : Str) : Str := s.map (foldC fold)

theorem lowerC_lowerC (c : Nat) : lowerC (lowerC c) = lowerC c := by
  unfold lowerC isUpper
  split <;> simp_all <;> omega

theorem lowerC_upperC (c : Nat) : lowerC (upperC c) = lowerC c := by
  unfold lowerC upperC isUpper isLower
  repeat' split
  all_goals simp_all
  all_goals omega

namespace Re

/-- The characters an expression consumes in order, `none` for text that is not known. -/
def lits (fold : Bool) : Re → List (Option Nat)
  | .eps | .ahead _ _ | .behind _ _ | .bol | .eol | .wordB _ => []
  | .set ⟨false, [.ch a], ci⟩ => if ci && !fold then [none] else [some (foldC fold a)]
  | .seq a b => lits fold a ++ lits fold b
  | .group _ r => lits fold r
  | _ => [none]

/-- Text of this form. -/
def Fits (fold : Bool) : List (Option Nat) → Str → Prop
  | [], w => w = []
  | some c :: l, w => ∃ d v, w = d :: v ∧ foldC fold d = c ∧ Fits fold l v
  | none :: l, w => ∃ u v, w = u ++ v ∧ Fits fold l v

theorem fits_append {fold : Bool} {a b : List (Option Nat)} : ∀ {u v : Str}, Fits fold a u → Fits fold b v → Fits fold (a ++ b) (u ++ v) := by
  induction a with
  | nil => rintro u v rfl h; exact h
  | cons x a ih =>
    cases x with
    | none => rintro u v ⟨s, t, rfl, h⟩ hv; exact ⟨s, t ++ v, by simp, ih h hv⟩
    | some c => rintro u v ⟨d, t, rfl, hd, h⟩ hv; exact ⟨d, t ++ v, by simp, hd, ih h hv⟩

theorem fits_split {fold : Bool} {a b : List (Option Nat)} : ∀ {w : Str}, Fits fold (a ++ b) w → ∃ u v, w = u ++ v ∧ Fits fold a u ∧ Fits fold b v := by
  induction a with
  | nil => intro w h; exact ⟨[], w, rfl, rfl, h⟩
  | cons x a ih =>
    cases x with
    | none =>
      rintro w ⟨s, t, rfl, h⟩
      obtain ⟨u, v, rfl, hu, hv⟩ := ih h
      exact ⟨s ++ u, v, by simp, ⟨s, u, rfl, hu⟩, hv⟩
    | some c =>
      rintro w ⟨d, t, rfl, hd, h⟩
      obtain ⟨u, v, rfl, hu, hv⟩ := ih h
      exact ⟨d :: u, v, by simp, ⟨d, u, rfl, hd, hu⟩, hv⟩

theorem fits_word {fold : Bool} {w : Str} : ∀ {u : Str}, Fits fold (w.map some) u → foldS fold u = w := by
  induction w with
  | nil => rintro u rfl; rfl
  | cons c w ih => rintro u ⟨d, v, rfl, hd, h⟩; rw [foldS, List.map_cons, hd]; exact congrArg _ (ih h)

theorem has_ch {fold ci : Bool} {a c : Nat} (hf : (ci && !fold) = false) (h : (CSet.mk false [.ch a] ci).has c = true) : foldC fold c = foldC fold a := by
  simp only [CSet.has, CItem.has, List.any_cons, List.any_nil, Bool.or_false, Bool.false_bne, Bool.or_eq_true, Bool.and_eq_true, beq_iff_eq] at h
  rcases h with h | ⟨hci, h⟩
  · rw [h]
  · subst hci
    have : fold = true := by simpa using hf
    subst this
    rcases h with h | h <;> subst h
    · exact (lowerC_lowerC c).symm
    · exact (lowerC_upperC c).symm

theorem lits_fit {fold : Bool} {r : Re} : ∀ {w : Str}, Lang r w → Fits fold (lits fold r) w := by
  induction r with
  | set cs =>
    rintro w ⟨c, hc, rfl⟩
    rw [lits.eq_def]
    split
    all_goals rename_i e
    all_goals first
      | cases e
      | skip
    · split
      · exact ⟨[c], [], rfl, rfl⟩
      · rename_i hf
        exact ⟨c, [], rfl, has_ch (by simpa using hf) hc, rfl⟩
    · exact ⟨[c], [], rfl, rfl⟩
  | seq a b iha ihb => rintro w ⟨u, v, rfl, hu, hv⟩; exact fits_append (iha hu) (ihb hv)
  | group n r ih => intro w h; exact ih h
  | alt a b => intro w _; exact ⟨w, [], by simp, rfl⟩
  | rep g mn mx r => intro w _; exact ⟨w, [], by simp, rfl⟩
  | backref ci n => intro w _; exact ⟨w, [], by simp, rfl⟩
  | cond n a b => intro w _; exact ⟨w, [], by simp, rfl⟩
  | _ => rintro w h; exact h

/-- Is the word one of the parts of a list? -/
def isPart (w : List (Option Nat)) : List (Option Nat) → Bool
  | [] => w.isEmpty
  | x :: l => w.isPrefixOf (x :: l) || isPart w l

theorem isPart_iff {w l : List (Option Nat)} (h : isPart w l = true) : ∃ a b, l = a ++ w ++ b := by
  induction l with
  | nil => exact ⟨[], [], by simpa [isPart] using h.symm⟩
  | cons x l ih =>
    simp only [isPart, Bool.or_eq_true, List.isPrefixOf_iff_prefix] at h
    rcases h with ⟨t, h⟩ | h
    · exact ⟨[], t, by simp [h]⟩
    · obtain ⟨a, b, rfl⟩ := ih h
      exact ⟨x :: a, b, by simp⟩

/-- Does every match contain one of the phrases? -/
def covers (fold : Bool) (ws : List Str) : Re → Bool
  | .alt a b => covers fold ws a && covers fold ws b
  | .cond _ a b => covers fold ws a && covers fold ws b
  | .seq a b => (ws.any fun w => isPart (w.map some) (lits fold (.seq a b))) || covers fold ws a || covers fold ws b
  | .group _ r => covers fold ws r
  | .rep _ mn _ r => mn != 0 && covers fold ws r
  | r => ws.any fun w => isPart (w.map some) (lits fold r)

theorem covers_lits {fold : Bool} {ws : List Str} {r : Re} (h : (ws.any fun w => isPart (w.map some) (lits fold r)) = true) {u : Str} (hu : Lang r u) :
    ∃ w ∈ ws, Occurs w (foldS fold u) := by
  obtain ⟨w, hw, hp⟩ := List.any_eq_true.1 h
  obtain ⟨a, b, e⟩ := isPart_iff hp
  have := lits_fit (fold := fold) hu
  rw [e] at this
  obtain ⟨x, y, rfl, hx, -⟩ := fits_split this
  obtain ⟨x, z, rfl, -, hz⟩ := fits_split hx
  exact ⟨w, hw, foldS fold x, foldS fold y, by rw [← fits_word hz]; simp [foldS]⟩

theorem Occurs.mono {w s : Str} (h : Occurs w s) (a b : Str) : Occurs w (a ++ s ++ b) := by
  obtain ⟨u, v, rfl⟩ := h
  exact ⟨a ++ u, v ++ b, by simp⟩

theorem covers_sound {fold : Bool} {ws : List Str} {r : Re} (h : covers fold ws r = true) : ∀ {u : Str}, Lang r u → ∃ w ∈ ws, Occurs w (foldS fold u) := by
  induction r with
  | alt a b iha ihb =>
    intro u hu
    simp only [covers, Bool.and_eq_true] at h
    rcases hu with hu | hu
    · exact iha h.1 hu
    · exact ihb h.2 hu
  | cond n a b iha ihb =>
    intro u hu
    simp only [covers, Bool.and_eq_true] at h
    rcases hu with hu | hu
    · exact iha h.1 hu
    · exact ihb h.2 hu
  | seq a b iha ihb =>
    intro u hu
    simp only [covers, Bool.or_eq_true] at h
    rcases h with (h | h) | h
    · exact covers_lits h hu
    · obtain ⟨x, y, rfl, hx, -⟩ := hu
      obtain ⟨w, hw, ho⟩ := iha h hx
      exact ⟨w, hw, by simpa [foldS] using Occurs.mono ho [] (foldS fold y)⟩
    · obtain ⟨x, y, rfl, -, hy⟩ := hu
      obtain ⟨w, hw, ho⟩ := ihb h hy
      exact ⟨w, hw, by simpa [foldS] using Occurs.mono ho (foldS fold x) []⟩
  | group n r ih => intro u hu; exact ih h hu
  | rep g mn mx r ih =>
    rintro u ⟨us, rfl, h1, -, h3⟩
    simp only [covers, Bool.and_eq_true, bne_iff_ne, ne_eq] at h
    cases us with
    | nil => simp at h1; exact absurd h1 h.1
    | cons x us =>
      obtain ⟨w, hw, ho⟩ := ih h.2 (h3 x (by simp))
      exact ⟨w, hw, by simpa [foldS] using Occurs.mono ho [] (foldS fold us.flatten)⟩
  | _ => intro u hu; exact covers_lits h hu

end Re

theorem Pat.matchAt_phrase {p : Pat} {fold : Bool} {ws : List Str} (h : p.re.covers fold ws = true) {l : Str} (hl : ∀ w ∈ ws, ¬ Occurs w (foldS fold l)) (pre : Str) :
    p.matchAt pre l = none := by
  rw [Pat.matchAt]
  cases hm : (p.re.m ⟨pre, l, []⟩).head? with
  | none => rfl
  | some t =>
    obtain ⟨w, h1, h2⟩ := Re.m_sound _ _ _ (List.mem_of_head? hm)
    obtain ⟨x, hx, ho⟩ := Re.covers_sound h h2
    refine absurd ?_ (hl x hx)
    have := h1.post
    simp only at this
    rw [this]
    simpa [foldS] using Re.Occurs.mono ho [] (foldS fold t.post)

theorem Pat.match_phrase {p : Pat} {fold : Bool} {ws : List Str} (h : p.re.covers fold ws = true) {l : Str} (hl : ∀ w ∈ ws, ¬ Occurs w (foldS fold l)) : p.match_ l = none :=
  matchAt_phrase h hl []

theorem Pat.search_phrase {p : Pat} {fold : Bool} {ws : List Str} (h : p.re.covers fold ws = true) {l : Str} (hl : ∀ w ∈ ws, ¬ Occurs w (foldS fold l)) : p.search l = none := by
  rcases Pat.search_spec p l with ⟨h1, -⟩ | ⟨u, v, x, h1, h2, h3, -⟩
  · exact h1
  · rw [matchAt_phrase h] at h3
    · cases h3
    · intro w hw ho
      refine hl w hw ?_
      rw [h1]
      simpa [foldS] using Re.Occurs.mono ho (foldS fold u) []

end Verif

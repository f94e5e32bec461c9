import Verif.Lemmas.Match
import Verif.Spec.Text
/- Patterns that do not match white space. -/
namespace Verif
open Spec

/-- The white space characters. -/
def SPACES : List Nat :=
  [9, 10, 11, 12, 13, 28, 29, 30, 31, 32, 0x85, 0xa0, 0x1680, 0x2000, 0x2001, 0x2002, 0x2003, 0x2004, 0x2005, 0x2006,
   0x2007, 0x2008, 0x2009, 0x200a, 0x2028, 0x2029, 0x202f, 0x205f, 0x3000]

theorem mem_SPACES {c : Nat} (h : isSpace c = true) : c ∈ SPACES := by
  simp [isSpace] at h
  simp only [SPACES, List.mem_cons, List.not_mem_nil, or_false]
  omega

namespace Re

/-- May the expression consume white space alone?  (upper bound) -/
def spaceable : Re → Bool
  | .eps => true
  | .set cs => SPACES.any cs.has
  | .seq a b => spaceable a && spaceable b
  | .alt a b => spaceable a || spaceable b
  | .rep _ mn _ r => mn == 0 || spaceable r
  | .group _ r => spaceable r
  | .ahead _ _ | .behind _ _ | .bol | .eol | .wordB _ | .backref _ _ => true
  | .cond _ a b => spaceable a || spaceable b

theorem lang_not_blank {r : Re} (h : spaceable r = false) : ∀ {w : Str}, Lang r w → ¬ Blank w := by
  induction r with
  | set cs =>
    rintro w ⟨c, hc, rfl⟩ hb
    have := mem_SPACES (hb c (by simp))
    simp only [spaceable, List.any_eq_false] at h
    exact h c this hc
  | seq a b iha ihb =>
    rintro w ⟨u, v, rfl, hu, hv⟩ e
    simp only [spaceable, Bool.and_eq_false_iff] at h
    rcases h with h | h
    · exact iha h hu fun c hc => e c (by simp [hc])
    · exact ihb h hv fun c hc => e c (by simp [hc])
  | alt a b iha ihb =>
    intro w hw
    simp only [spaceable, Bool.or_eq_false_iff] at h
    rcases hw with hw | hw
    · exact iha h.1 hw
    · exact ihb h.2 hw
  | cond n a b iha ihb =>
    intro w hw
    simp only [spaceable, Bool.or_eq_false_iff] at h
    rcases hw with hw | hw
    · exact iha h.1 hw
    · exact ihb h.2 hw
  | rep g mn mx r ih =>
    rintro w ⟨ws, rfl, h1, h2, h3⟩ e
    simp only [spaceable, Bool.or_eq_false_iff, beq_eq_false_iff_ne] at h
    cases ws with
    | nil => simp at h1; omega
    | cons u ws => exact ih h.2 (h3 u (by simp)) fun c hc => e c (by simp [hc])
  | group n r ih => intro w hw; exact ih h hw
  | _ => simp [spaceable] at h

end Re

theorem Pat.matchAt_blank {p : Pat} (h : p.re.spaceable = false) {l : Str} (hl : Blank l) (pre : Str) :
    p.matchAt pre l = none := by
  rw [Pat.matchAt]
  cases hm : (p.re.m ⟨pre, l, []⟩).head? with
  | none => rfl
  | some t =>
    obtain ⟨w, h1, h2⟩ := Re.m_sound _ _ _ (List.mem_of_head? hm)
    refine absurd (fun c hc => hl c ?_) (Re.lang_not_blank h h2)
    have := h1.post
    simp only at this
    simp [this, hc]

theorem Pat.match_blank {p : Pat} (h : p.re.spaceable = false) {l : Str} (hl : Blank l) : p.match_ l = none :=
  matchAt_blank h hl []

theorem Pat.search_blank {p : Pat} (h : p.re.spaceable = false) {l : Str} (hl : Blank l) : p.search l = none := by
  rcases Pat.search_spec p l with ⟨h1, -⟩ | ⟨u, v, x, h1, h2, h3, -⟩
  · exact h1
  · rw [matchAt_blank h (fun c hc => hl c (by simp [h1, hc]))] at h3
    cases h3

end Verif

import Verif.Lemmas.Phrase
/-
Patterns for whole lines: that they match, and what they match.
-/
namespace Verif
open Spec

namespace Re

/-- From one cursor the expression can reach another. -/
def Ex (r : Re) (p q : Str × Str) : Prop := ∀ caps, ∃ caps', (⟨q.1, q.2, caps'⟩ : St) ∈ m r ⟨p.1, p.2, caps⟩

theorem Ex.eps {p : Str × Str} : Ex .eps p p := fun caps => ⟨caps, by simp [m]⟩

theorem Ex.set {cs : CSet} {pre post : Str} {c : Nat} (h : cs.has c = true) : Ex (.set cs) (pre, c :: post) (c :: pre, post) :=
  fun caps => ⟨caps, by simp [m, h]⟩

theorem Ex.seq {a b : Re} {p q r : Str × Str} (h : Ex a p q) (h' : Ex b q r) : Ex (.seq a b) p r := by
  intro caps
  obtain ⟨c1, h1⟩ := h caps
  obtain ⟨c2, h2⟩ := h' c1
  exact ⟨c2, by rw [m]; exact List.mem_flatMap.2 ⟨_, h1, h2⟩⟩

theorem Ex.altL {a b : Re} {p q : Str × Str} (h : Ex a p q) : Ex (.alt a b) p q := by
  intro caps
  obtain ⟨c1, h1⟩ := h caps
  exact ⟨c1, by rw [m]; exact List.mem_append.2 (.inl h1)⟩

theorem Ex.altR {a b : Re} {p q : Str × Str} (h : Ex b p q) : Ex (.alt a b) p q := by
  intro caps
  obtain ⟨c1, h1⟩ := h caps
  exact ⟨c1, by rw [m]; exact List.mem_append.2 (.inr h1)⟩

theorem Ex.group {n : Nat} {a : Re} {p q : Str × Str} (h : Ex a p q) : Ex (.group n a) p q := by
  intro caps
  obtain ⟨c1, h1⟩ := h caps
  exact ⟨_, by rw [m]; exact List.mem_map.2 ⟨_, h1, rfl⟩⟩

theorem Ex.bol {post : Str} : Ex .bol ([], post) ([], post) := fun caps => ⟨caps, by simp [m, atBol]⟩

theorem Ex.eol {pre post : Str} (h : post = [] ∨ post = [10]) : Ex .eol (pre, post) (pre, post) :=
  fun caps => ⟨caps, by rcases h with h | h <;> simp [m, atEol, h]⟩

theorem Ex.rep {g : Bool} {cs : CSet} {w post : Str} (hw : ∀ c ∈ w, cs.has c = true) :
    ∀ {mn : Nat} {mx : Option Nat} {pre : Str}, mn ≤ w.length → (∀ M, mx = some M → w.length ≤ M) →
      Ex (.rep g mn mx (.set cs)) (pre, w ++ post) (w.reverse ++ pre, post) := by
  suffices h : ∀ (f mn : Nat) (mx : Option Nat) (pre : Str) (caps), w.length ≤ f → mn ≤ w.length → (∀ M, mx = some M → w.length ≤ M) →
      (⟨w.reverse ++ pre, post, caps⟩ : St) ∈ repM (m (.set cs)) g f mn mx ⟨pre, w ++ post, caps⟩ by
    intro mn mx pre h1 h2 caps
    exact ⟨caps, by rw [m]; exact h _ mn mx pre caps (by simp; omega) h1 h2⟩
  induction w with
  | nil =>
    intro f mn mx pre caps _ h1 _
    have : mn = 0 := by simpa using h1
    subst this
    cases f with
    | zero => simp [repM]
    | succ f =>
      rw [repM]
      cases g <;> simp
  | cons c w ih =>
    intro f mn mx pre caps hf h1 h2
    obtain ⟨f, rfl⟩ : ∃ k, f = k + 1 := ⟨f - 1, by simp at hf; omega⟩
    have hne : mx ≠ some 0 := by intro h; have := h2 0 h; simp at this
    have := ih (fun c h => hw c (by simp [h])) f (mn - 1) (mx.map (· - 1)) (c :: pre) caps (by simp at hf; omega)
      (by simp at h1; omega) (by
        intro M hM
        cases mx with
        | none => simp at hM
        | some k => have := h2 k rfl; simp at this hM; omega)
    have e : (⟨(c :: w).reverse ++ pre, post, caps⟩ : St) ∈ (m (.set cs) ⟨pre, c :: w ++ post, caps⟩).flatMap fun t =>
        if t.post.length < (c :: w ++ post).length then repM (m (.set cs)) g f (mn - 1) (mx.map (· - 1)) t else [] := by
      refine List.mem_flatMap.2 ⟨⟨c :: pre, w ++ post, caps⟩, by simp [m, hw c (by simp)], ?_⟩
      rw [if_pos (by simp)]
      simpa using this
    rw [repM]
    simp only [if_neg hne]
    cases g
    · exact List.mem_append.2 (.inr e)
    · exact List.mem_append.2 (.inl e)

theorem Ex.star {cs : CSet} {w post pre : Str} (hw : ∀ c ∈ w, cs.has c = true) : Ex (.rep true 0 none (.set cs)) (pre, w ++ post) (w.reverse ++ pre, post) :=
  Ex.rep hw (Nat.zero_le _) (by simp)

theorem Ex.plus {cs : CSet} {w post pre : Str} (hw : ∀ c ∈ w, cs.has c = true) (hne : w ≠ []) : Ex (.rep true 1 none (.set cs)) (pre, w ++ post) (w.reverse ++ pre, post) :=
  Ex.rep hw (by cases w <;> simp_all) (by simp)

/-- A word in brackets or not. -/
theorem Ex.none {g : Bool} {cs : CSet} {mx : Option Nat} {p : Str × Str} : Ex (.rep g 0 mx (.set cs)) p p := by
  have := Ex.rep (g := g) (cs := cs) (w := []) (post := p.2) (mn := 0) (mx := mx) (pre := p.1) (by simp) (by simp) (by simp)
  simpa using this

theorem Ex.opt {a : Re} {pre u post : Str} (h : Ex a (pre, u ++ post) (u.reverse ++ pre, post)) (hu : u ≠ []) :
    Ex (.rep true 0 (some 1) a) (pre, u ++ post) (u.reverse ++ pre, post) := by
  intro caps
  obtain ⟨c, hc⟩ := h caps
  refine ⟨c, ?_⟩
  rw [m]
  obtain ⟨f, hf⟩ : ∃ f, 0 + (u ++ post).length = f + 1 := ⟨(u ++ post).length - 1, by cases u <;> simp_all⟩
  show _ ∈ repM _ _ (0 + (u ++ post).length) _ _ _
  rw [hf, repM]
  simp only [if_true]
  refine List.mem_append.2 (.inl ?_)
  rw [if_neg (by simp)]
  refine List.mem_flatMap.2 ⟨_, hc, ?_⟩
  have : post.length < (u ++ post).length := by
    rw [List.length_append]
    have := List.length_pos_of_ne_nil hu
    omega
  simp only [this, if_true]
  cases f <;> simp [repM]

theorem Ex.optNone {a : Re} {p : Str × Str} : Ex (.rep true 0 (some 1) a) p p := by
  intro caps
  refine ⟨caps, ?_⟩
  rw [m]
  show _ ∈ repM _ _ (0 + p.2.length) _ _ _
  cases 0 + p.2.length with
  | zero => simp [repM]
  | succ f => simp [repM]

/-! ### What they match -/

/-- Does every match begin at the start of the text? -/
def atStart : Re → Bool
  | .bol => true
  | .seq a _ => atStart a
  | .group _ r => atStart r
  | .alt a b => atStart a && atStart b
  | _ => false

/-- Does every match end at the end of the text? -/
def atEnd : Re → Bool
  | .eol => true
  | .seq _ b => atEnd b
  | .group _ r => atEnd r
  | .alt a b => atEnd a && atEnd b
  | _ => false

theorem atStart_sound {r : Re} (h : atStart r = true) : ∀ {s t : St}, t ∈ m r s → s.pre = [] := by
  induction r with
  | bol =>
    intro s t ht
    rw [m] at ht
    split at ht
    · rename_i hb; simpa [atBol] using hb
    · cases ht
  | seq a b iha _ =>
    intro s t ht
    rw [m] at ht
    obtain ⟨u, hu, -⟩ := List.mem_flatMap.1 ht
    exact iha h hu
  | group n r ih =>
    intro s t ht
    rw [m] at ht
    obtain ⟨u, hu, -⟩ := List.mem_map.1 ht
    exact ih h hu
  | alt a b iha ihb =>
    intro s t ht
    rw [m] at ht
    simp only [atStart, Bool.and_eq_true] at h
    rcases List.mem_append.1 ht with ht | ht
    · exact iha h.1 ht
    · exact ihb h.2 ht
  | _ => simp [atStart] at h

theorem atEnd_sound {r : Re} (h : atEnd r = true) : ∀ {s t : St}, t ∈ m r s → t.post = [] ∨ t.post = [10] := by
  induction r with
  | eol =>
    intro s t ht
    rw [m] at ht
    split at ht
    · rename_i hb
      rw [List.mem_singleton] at ht
      subst ht
      simpa [atEol] using hb
    · cases ht
  | seq a b _ ihb =>
    intro s t ht
    rw [m] at ht
    obtain ⟨u, -, hu⟩ := List.mem_flatMap.1 ht
    exact ihb h hu
  | group n r ih =>
    intro s t ht
    rw [m] at ht
    obtain ⟨u, hu, e⟩ := List.mem_map.1 ht
    have := ih h hu
    rw [← e]; exact this
  | alt a b iha ihb =>
    intro s t ht
    rw [m] at ht
    simp only [atEnd, Bool.and_eq_true] at h
    rcases List.mem_append.1 ht with ht | ht
    · exact iha h.1 ht
    · exact ihb h.2 ht
  | _ => simp [atEnd] at h

/-- Does every match consist of white space and a character? -/
def madeOf (x : Nat) : Re → Bool
  | .eps | .bol | .eol => true
  | .set ⟨false, [.space], false⟩ => true
  | .set ⟨false, [.ch a], false⟩ => a == x
  | .seq a b | .alt a b => madeOf x a && madeOf x b
  | .group _ r | .rep _ _ _ r => madeOf x r
  | _ => false

theorem madeOf_sound {x : Nat} {r : Re} (h : madeOf x r = true) : ∀ {w : Str}, Lang r w → ∀ c ∈ w, isSpace c = true ∨ c = x := by
  induction r with
  | set cs =>
    rintro w ⟨c, hc, rfl⟩ d hd
    obtain rfl := List.mem_singleton.1 hd
    rw [madeOf.eq_def] at h
    split at h
    all_goals rename_i e
    all_goals first
      | cases e
      | skip
    · left; simpa [CSet.has, CItem.has] using hc
    · right
      have h2 := beq_iff_eq.1 h
      rw [← h2]
      simpa [CSet.has, CItem.has] using hc
    · cases h
  | seq a b iha ihb =>
    rintro w ⟨u, v, rfl, hu, hv⟩ c hc
    simp only [madeOf, Bool.and_eq_true] at h
    rcases List.mem_append.1 hc with hc | hc
    · exact iha h.1 hu c hc
    · exact ihb h.2 hv c hc
  | alt a b iha ihb =>
    intro w hw
    simp only [madeOf, Bool.and_eq_true] at h
    rcases hw with hw | hw
    · exact iha h.1 hw
    · exact ihb h.2 hw
  | group n r ih => intro w hw; exact ih h hw
  | rep g mn mx r ih =>
    rintro w ⟨ws, rfl, -, -, h3⟩ c hc
    obtain ⟨u, hu, hc⟩ := List.mem_flatten.1 hc
    exact ih h (h3 u hu) c hc
  | eps => rintro w rfl c hc; cases hc
  | bol => rintro w rfl c hc; cases hc
  | eol => rintro w rfl c hc; cases hc
  | _ => simp [madeOf] at h

end Re

theorem Pat.matchAt_of_ex {p : Pat} {pre l : Str} {q : Str × Str} (h : p.re.Ex (pre, l) q) : (p.matchAt pre l).isSome = true := by
  obtain ⟨c, hc⟩ := h []
  rw [Pat.matchAt, Option.isSome_map]
  cases hm : p.re.m ⟨pre, l, []⟩ with
  | nil => rw [hm] at hc; cases hc
  | cons t ts => rfl

theorem Pat.match_of_ex {p : Pat} {l : Str} {q : Str × Str} (h : p.re.Ex ([], l) q) : (p.match_ l).isSome = true := matchAt_of_ex h

theorem Pat.search_of_ex {p : Pat} {l : Str} {q : Str × Str} (h : p.re.Ex ([], l) q) : (p.search l).isSome = true := by
  have := matchAt_of_ex h
  rw [Option.isSome_iff_exists] at this
  obtain ⟨m, hm⟩ := this
  rw [Pat.search, Pat.searchFrom_of_matchAt hm]
  rfl

/-- What a pattern for whole lines matches is the line, but for the line feed. -/
theorem Pat.search_whole {p : Pat} (hs : p.re.atStart = true) (he : p.re.atEnd = true) {l : Str} (h : (p.search l).isSome = true) :
    ∃ w, Re.Lang p.re w ∧ (l = w ∨ l = w ++ [10]) := by
  rcases Pat.search_spec p l with ⟨h1, -⟩ | ⟨u, v, x, h1, h2, h3, -⟩
  · rw [h1] at h; cases h
  · rw [Pat.matchAt] at h3
    cases hm : (p.re.m ⟨u.reverse, v, []⟩).head? with
    | none => rw [hm] at h3; cases h3
    | some t =>
      have ht := List.mem_of_head? hm
      have e1 := Re.atStart_sound hs ht
      have e2 := Re.atEnd_sound he ht
      obtain ⟨w, hw, hl⟩ := Re.m_sound _ _ _ ht
      have e3 := hw.post
      simp only at e1 e3
      have : u = [] := by simpa using e1
      subst this
      refine ⟨w, hl, ?_⟩
      rw [h1, List.nil_append, e3]
      rcases e2 with e2 | e2 <;> rw [e2]
      · left; simp
      · right; rfl

theorem Pat.search_of_ex_at {p : Pat} {u v : Str} {q : Str × Str} (h : p.re.Ex (u.reverse, v) q) : (p.search (u ++ v)).isSome = true := by
  have := matchAt_of_ex h
  rcases Pat.search_spec p (u ++ v) with ⟨-, h2⟩ | ⟨_, _, x, -, h2, -⟩
  · rw [h2 u v rfl] at this; cases this
  · rw [h2]; rfl

/-- What a pattern for the beginnings of lines matches is the beginning of the line. -/
theorem Pat.search_start {p : Pat} (hs : p.re.atStart = true) {l : Str} (h : (p.search l).isSome = true) :
    ∃ w v, Re.Lang p.re w ∧ l = w ++ v := by
  rcases Pat.search_spec p l with ⟨h1, -⟩ | ⟨u, v, x, h1, h2, h3, -⟩
  · rw [h1] at h; cases h
  · rw [Pat.matchAt] at h3
    cases hm : (p.re.m ⟨u.reverse, v, []⟩).head? with
    | none => rw [hm] at h3; cases h3
    | some t =>
      have ht := List.mem_of_head? hm
      have e1 := Re.atStart_sound hs ht
      obtain ⟨w, hw, hl⟩ := Re.m_sound _ _ _ ht
      have e3 := hw.post
      simp only at e1 e3
      have : u = [] := by simpa using e1
      subst this
      exact ⟨w, t.post, hl, by rw [h1, List.nil_append, e3]⟩

end Verif

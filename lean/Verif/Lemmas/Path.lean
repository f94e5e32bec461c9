import Verif.Py.Path
import Verif.Spec.Cli
/-
Lemmas on paths.
-/
namespace Verif
open Spec

theorem splitC_of_notMem (c : Nat) (s : Str) (h : c ∉ s) : Str.splitC c s = [s] := by
  induction s with
  | nil => rfl
  | cons a s ih =>
    rw [Str.splitC, if_neg (by rintro rfl; exact h (by simp)), ih (fun h' => h (by simp [h']))]

theorem takeWhile_all (p : Nat → Bool) (s : Str) (h : ∀ c ∈ s, p c = true) : s.takeWhile p = s := by
  induction s with
  | nil => rfl
  | cons a s ih => rw [List.takeWhile_cons, if_pos (h a (by simp)), ih fun c hc => h c (by simp [hc])]

theorem splitName_plain (s : Str) (h : c!"." ∉ s) : Path.splitName s = (s, []) := by
  have : s.reverse.takeWhile (· != c!".") = s.reverse := by
    apply takeWhile_all
    intro c hc
    simp only [bne_iff_ne, ne_eq]
    rintro rfl
    exact h (by simpa using hc)
  rw [Path.splitName]
  simp only [this]
  simp

theorem plain_path (s : Str) (h0 : s ≠ []) (h1 : c!"/" ∉ s) (h2 : c!"." ∉ s) : Path.ofStr s = ⟨[], [s]⟩ := by
  rw [Path.ofStr, splitC_of_notMem _ _ h1]
  have hl : s.takeWhile (· == c!"/") = [] := by
    cases s with
    | nil => rfl
    | cons a s =>
      rw [List.takeWhile_cons, if_neg]
      simp only [beq_iff_eq]
      rintro rfl
      exact h1 (by simp)
  have hf : [s].filter (fun p => !p.isEmpty && p != py".") = [s] := by
    rw [List.filter_cons, if_pos]
    · rfl
    · simp only [Bool.and_eq_true, Bool.not_eq_true', List.isEmpty_eq_false_iff, bne_iff_ne, ne_eq]
      exact ⟨h0, by rintro rfl; exact h2 (by decide)⟩
  rw [hl, hf]; rfl

theorem splitC_append (c : Nat) (s t : Str) (h : c ∉ s) : Str.splitC c (s ++ c :: t) = s :: Str.splitC c t := by
  induction s with
  | nil => simp [Str.splitC]
  | cons a s ih =>
    rw [List.cons_append, Str.splitC, if_neg (by rintro rfl; exact h (by simp)), ih (fun h' => h (by simp [h']))]

theorem splitC_join (c : Nat) (l : List Str) (h0 : l ≠ []) (h : ∀ p ∈ l, c ∉ p) : Str.splitC c (Str.join [c] l) = l := by
  induction l with
  | nil => exact absurd rfl h0
  | cons a l ih =>
    cases l with
    | nil => exact splitC_of_notMem _ _ (h a (by simp))
    | cons b l =>
      rw [Str.join, List.append_assoc, List.singleton_append, splitC_append _ _ _ (h a (by simp)),
        ih (by simp) fun p hp => h p (by simp [hp])]

theorem join_head (l : List Str) (h : ∀ p ∈ l, p ≠ [] ∧ c!"/" ∉ p ∧ p ≠ py".") :
    (Str.join (py"/") l).takeWhile (· == c!"/") = [] := by
  cases l with
  | nil => rfl
  | cons a l =>
    obtain ⟨h1, h2, -⟩ := h a (by simp)
    cases a with
    | nil => exact absurd rfl h1
    | cons x a =>
      have hx : (x == c!"/") = false := by
        simp only [beq_eq_false_iff_ne, ne_eq]; rintro rfl; exact h2 (by simp)
      cases l <;> simp only [Str.join, List.cons_append, List.takeWhile_cons, hx, Bool.false_eq_true, if_false]

theorem filter_parts (l : List Str) (h : ∀ p ∈ l, p ≠ [] ∧ c!"/" ∉ p ∧ p ≠ py".") :
    (l.filter fun p => !p.isEmpty && p != py".") = l := by
  rw [List.filter_eq_self]
  intro p hp
  obtain ⟨h1, -, h3⟩ := h p hp
  simp [h1, h3]

theorem ofStr_pathText {root : Str} {parts : List Str} {s : Str} (h : PathText root parts s) :
    Path.ofStr s = ⟨root, parts⟩ := by
  obtain ⟨hr, h0, hp, rfl⟩ := h
  have hs := splitC_join (c!"/") parts h0 fun p hm => (hp p hm).2.1
  rcases hr with rfl | rfl
  · rw [List.nil_append, Path.ofStr, join_head _ hp]
    rw [show py"/" = [c!"/"] from rfl, hs, filter_parts _ hp]; rfl
  · rw [Path.ofStr]
    have h1 : (py"/" ++ Str.join (py"/") parts).takeWhile (· == c!"/") = py"/" := by
      rw [List.singleton_append, List.takeWhile_cons, if_pos (by decide), join_head _ hp]
    have h2 : Str.splitC (c!"/") (py"/" ++ Str.join (py"/") parts) = [] :: parts := by
      rw [List.singleton_append, Str.splitC, if_pos rfl, show py"/" = [c!"/"] from rfl, hs]
    rw [h1, h2, List.filter_cons, if_neg (by simp), filter_parts _ hp]; rfl

theorem toStr_pathText {root : Str} {parts : List Str} {s : Str} (h : PathText root parts s) :
    Path.toStr ⟨root, parts⟩ = s := by
  obtain ⟨hr, h0, hp, rfl⟩ := h
  rw [Path.toStr, if_neg]
  simp [h0]

theorem splitName_ext {n stem ext : Str} (h : NameExt n stem ext) : Path.splitName n = (stem, py"." ++ ext) := by
  obtain ⟨rfl, h1, h2, h3⟩ := h
  have : (stem ++ py"." ++ ext).reverse.takeWhile (· != c!".") = ext.reverse := by
    rw [List.reverse_append, List.takeWhile_append_of_pos]
    · simp
    · intro c hc
      simp only [bne_iff_ne, ne_eq]
      rintro rfl
      exact h3 (by simpa using hc)
  have hd : (stem ++ py"." ++ ext).take ((stem ++ py"." ++ ext).length - ext.reverse.length) = stem ++ py"." := by
    rw [List.length_append, List.length_reverse, Nat.add_sub_cancel, List.take_left']
    rfl
  rw [Path.splitName]
  simp only [this, hd]
  rw [if_neg]
  · simp
  · cases stem with
    | nil => exact absurd rfl h1
    | cons a s => simp [h2]

end Verif

import Verif.Model.FileWrapper
import Verif.Lemmas.Iter
import Verif.Spec.Lines
namespace Verif
open Spec

/-! ### Lines of a text -/

theorem linesOf_flatten (s : Str) : (linesOf s).flatten = s := by
  induction s with
  | nil => rfl
  | cons c cs ih =>
    simp only [linesOf]
    split
    · simp [ih]
    · split
      · rename_i h; rw [h] at ih; simp at ih; simp [ih]
      · rename_i h; rw [h] at ih; simpa using ih

theorem linesOf_ne_nil (s : Str) : ∀ l ∈ linesOf s, l ≠ [] := by
  induction s with
  | nil => simp [linesOf]
  | cons c cs ih =>
    simp only [linesOf]
    split
    · intro l hl; simp at hl; rcases hl with rfl | hl
      · simp
      · exact ih l hl
    · split
      · simp
      · rename_i l ls h
        intro m hm; simp at hm; rcases hm with rfl | hm
        · simp
        · exact ih m (by rw [h]; simp [hm])

theorem linesOf_eq (s : Str) (h : s ≠ []) :
    linesOf s = firstLine s :: linesOf (s.drop (firstLine s).length) := by
  induction s with
  | nil => exact absurd rfl h
  | cons c cs ih =>
    simp only [linesOf, firstLine]
    split
    · simp
    · cases cs with
      | nil => simp [linesOf, firstLine]
      | cons d ds =>
        rw [ih (by simp)]
        simp

theorem firstLine_eq_nil (s : Str) : firstLine s = [] ↔ s = [] := by
  cases s with
  | nil => simp [firstLine]
  | cons c cs => simp only [firstLine]; split <;> simp

theorem firstLine_prefix (s : Str) : firstLine s ++ s.drop (firstLine s).length = s := by
  induction s with
  | nil => rfl
  | cons c cs ih =>
    simp only [firstLine]
    split
    · simp
    · simpa using ih

/-! ### Lawful line sources -/

/-- Laws of a line source: an exhausted source stays exhausted and the fuel bound is sound. -/
class LawfulSource (σ : Type) [LineSource σ] : Prop where
  stop_stays : ∀ s : σ, (LineSource.next s).1 = .error .stopIteration →
    (LineSource.next (LineSource.next s).2).1 = .error .stopIteration
  bound : ∀ (s : σ) l, ListOf LineSource.next s l → l.length ≤ LineSource.bound s

/-- A source whose `lineno` counts lines. -/
class CountingSource (σ : Type) [LineSource σ] : Prop extends LawfulSource σ where
  lineno_next : ∀ (s s' : σ) a, LineSource.next s = (.ok a, s') →
    LineSource.lineno s' = LineSource.lineno s + 1

/-! ### FileWrapper -/

theorem FileWrapper.next_eq (w : FileWrapper) :
    w.next = if w.file.text.drop w.file.pos = [] then
        (.error .stopIteration, ⟨w.file, w.file.pos, w.lineno_ + 1⟩)
      else (.ok (firstLine (w.file.text.drop w.file.pos)),
        ⟨⟨w.file.text, w.file.pos + (firstLine (w.file.text.drop w.file.pos)).length⟩,
          w.file.pos, w.lineno_ + 1⟩) := by
  simp only [FileWrapper.next, TFile.readline, TFile.tell]
  by_cases h : w.file.text.drop w.file.pos = []
  · simp [h, firstLine]
  · have := mt (firstLine_eq_nil _).1 h
    simp [h, this]

/-- A wrapper yields the lines of the text from its position on. -/
theorem FileWrapper.listOf (w : FileWrapper) :
    ListOf FileWrapper.next w (linesOf (w.file.text.drop w.file.pos)) := by
  generalize hn : (w.file.text.drop w.file.pos).length = n
  induction n using Nat.strongRecOn generalizing w with
  | ind n ih =>
    by_cases h : w.file.text.drop w.file.pos = []
    · rw [h, linesOf, ListOf.nil_iff, FileWrapper.next_eq, if_pos h]
    · rw [linesOf_eq _ h, ListOf.cons_iff]
      refine ⟨_, by rw [FileWrapper.next_eq, if_neg h], ?_⟩
      have hlen : 0 < (firstLine (w.file.text.drop w.file.pos)).length :=
        List.length_pos_iff.2 (mt (firstLine_eq_nil _).1 h)
      have := ih _ ?_ ⟨⟨w.file.text, w.file.pos + (firstLine (w.file.text.drop w.file.pos)).length⟩,
          w.file.pos, w.lineno_ + 1⟩ rfl
      · simpa [List.drop_drop] using this
      · have hpos : 0 < (w.file.text.drop w.file.pos).length := List.length_pos_iff.2 h
        simp only [List.length_drop] at *
        omega

theorem length_le_flatten_length (ls : List Str) (h : ∀ l ∈ ls, l ≠ []) :
    ls.length ≤ ls.flatten.length := by
  induction ls with
  | nil => simp
  | cons l ls ih =>
    have h1 := List.length_pos_iff.2 (h l (by simp))
    have h2 := ih fun m hm => h m (by simp [hm])
    simp only [List.length_cons, List.flatten_cons, List.length_append]; omega

instance : CountingSource FileWrapper where
  stop_stays s h := by
    simp only [LineSource.next] at *
    rw [FileWrapper.next_eq] at h
    split at h
    · rename_i hd
      rw [FileWrapper.next_eq s, if_pos hd, FileWrapper.next_eq]
      simp [hd]
    · cases h
  bound s l h := by
    have := h.unique (FileWrapper.listOf s)
    subst this
    have h1 := length_le_flatten_length _ (linesOf_ne_nil (s.file.text.drop s.file.pos))
    rw [linesOf_flatten] at h1
    simpa [LineSource.bound] using h1
  lineno_next s s' a h := by
    simp only [LineSource.next] at h
    rw [FileWrapper.next_eq] at h
    split at h
    · cases h
    · cases h; rfl

/-! ### Block -/

theorem Block.next_lt (b : Block) (h : b.p_ < b.data.length) :
    b.next = (.ok b.data[b.p_], { b with p_ := b.p_ + 1 }) := by
  simp [Block.next, List.getElem?_eq_getElem h]

theorem Block.next_ge (b : Block) (h : b.data.length ≤ b.p_) :
    b.next = (.error .stopIteration, { b with p_ := b.p_ + 1 }) := by
  simp [Block.next, List.getElem?_eq_none h]

theorem Block.listOf (b : Block) : ListOf Block.next b (b.data.drop b.p_) := by
  generalize hn : b.data.length - b.p_ = n
  induction n generalizing b with
  | zero =>
    rw [List.drop_of_length_le (by omega), ListOf.nil_iff, Block.next_ge b (by omega)]
  | succ n ih =>
    have h : b.p_ < b.data.length := by omega
    rw [List.drop_eq_getElem_cons h, ListOf.cons_iff]
    exact ⟨_, Block.next_lt b h, ih { b with p_ := b.p_ + 1 } (by simp; omega)⟩

instance : CountingSource Block where
  stop_stays s h := by
    simp only [LineSource.next] at *
    by_cases hp : s.p_ < s.data.length
    · rw [Block.next_lt s hp] at h; cases h
    · rw [Block.next_ge s (by omega)]
      simp only
      rw [Block.next_ge _ (by simp; omega)]
  bound s l h := by
    have := h.unique (Block.listOf s)
    subst this
    simp [LineSource.bound]
  lineno_next s s' a h := by
    simp only [LineSource.next] at h
    by_cases hp : s.p_ < s.data.length
    · rw [Block.next_lt s hp] at h; cases h
      simp [LineSource.lineno, Block.lineno]; omega
    · rw [Block.next_ge s (by omega)] at h; cases h

/-! ### Loops -/

variable {σ : Type} [LineSource σ] [LawfulSource σ]

omit [LawfulSource σ] in
/-- `fromReLoop` when the source has a block `blk` ending in the match that completes the count. -/
theorem Block.fromReLoop_found (endP : Str → Bool) (n : Int) (blk : List Str) (last : Str)
    (rest : List Str) (fuel : Nat) (found : Int) (data : List Str) (s : σ)
    (hs : ListOf LineSource.next s (blk ++ last :: rest)) (hlast : endP last = true)
    (hcount : found + (blk.countP endP : Int) + 1 = n)
    (hfuel : blk.length < fuel) :
    ∃ s', Block.fromReLoop endP n fuel found data s = (true, data ++ blk ++ [last], s') ∧
      Yields LineSource.next s (blk ++ [last]) s' ∧ ListOf LineSource.next s' rest := by
  induction blk generalizing fuel found data s with
  | nil =>
    obtain ⟨s', hn, hr⟩ := ListOf.cons_iff.1 hs
    cases fuel with
    | zero => simp at hfuel
    | succ fuel =>
      refine ⟨s', ?_, .cons _ _ _ _ _ hn (.nil _), hr⟩
      simp only [List.countP_nil, Int.ofNat_zero, Int.add_zero] at hcount
      simp [Block.fromReLoop, hn, hlast, hcount]
  | cons a blk ih =>
    obtain ⟨s', hn, hr⟩ := ListOf.cons_iff.1 hs
    cases fuel with
    | zero => simp at hfuel
    | succ fuel =>
      simp only [List.length_cons] at hfuel
      by_cases ha : endP a = true
      · rw [List.countP_cons_of_pos ha] at hcount
        obtain ⟨s'', h1, h2, h3⟩ := ih fuel (found + 1) (data ++ [a]) s' hr (by omega) (by omega)
        refine ⟨s'', ?_, .cons _ _ _ _ _ hn h2, h3⟩
        have : ¬ found + 1 = n := by omega
        simp only [Block.fromReLoop, hn, ha, if_true, this, if_false, h1]
        simp
      · rw [List.countP_cons_of_neg ha] at hcount
        obtain ⟨s'', h1, h2, h3⟩ := ih fuel found (data ++ [a]) s' hr (by omega) (by omega)
        refine ⟨s'', ?_, .cons _ _ _ _ _ hn h2, h3⟩
        simp only [Block.fromReLoop, hn, ha, h1]
        simp

/-- `fromReLoop` when the source ends before the count is completed. -/
theorem Block.fromReLoop_eof (endP : Str → Bool) (n : Int) (l : List Str)
    (fuel : Nat) (found : Int) (data : List Str) (s : σ)
    (hs : ListOf LineSource.next s l)
    (hcount : n ≤ found ∨ found + (l.countP endP : Int) < n)
    (hfuel : l.length < fuel) :
    ∃ s', Block.fromReLoop endP n fuel found data s = (false, data ++ l, s') ∧
      ListOf LineSource.next s' [] := by
  induction l generalizing fuel found data s with
  | nil =>
    rw [ListOf.nil_iff] at hs
    cases fuel with
    | zero => simp at hfuel
    | succ fuel =>
      refine ⟨(LineSource.next s).2, ?_, ?_⟩
      · have : LineSource.next s = (.error .stopIteration, (LineSource.next s).2) := by
          rw [← hs]
        simp only [Block.fromReLoop]
        rw [this]; simp
      · rw [ListOf.nil_iff]; exact LawfulSource.stop_stays s hs
  | cons a l ih =>
    obtain ⟨s', hn, hr⟩ := ListOf.cons_iff.1 hs
    cases fuel with
    | zero => simp at hfuel
    | succ fuel =>
      simp only [List.length_cons] at hfuel
      by_cases ha : endP a = true
      · rw [List.countP_cons_of_pos ha] at hcount
        obtain ⟨s'', h1, h3⟩ := ih fuel (found + 1) (data ++ [a]) s' hr (by omega) (by omega)
        refine ⟨s'', ?_, h3⟩
        have : ¬ found + 1 = n := by omega
        simp only [Block.fromReLoop, hn, ha, if_true, this, if_false, h1]
        simp
      · rw [List.countP_cons_of_neg ha] at hcount
        obtain ⟨s'', h1, h3⟩ := ih fuel found (data ++ [a]) s' hr (by omega) (by omega)
        refine ⟨s'', ?_, h3⟩
        simp only [Block.fromReLoop, hn, ha, h1]
        simp

omit [LawfulSource σ] in
/-- `getLinesLoop` when at least one line follows the requested ones. -/
theorem Block.getLinesLoop_more (n i : Int) (l : List Str) (x : Str) (rest : List Str)
    (fuel : Nat) (data : List Str) (s : σ)
    (hs : ListOf LineSource.next s (l ++ x :: rest)) (hi : i + (l.length : Int) = max i (n + 1))
    (hfuel : l.length < fuel) :
    ∃ s', Block.getLinesLoop n fuel i data s = (true, data ++ l, s') ∧
      Yields LineSource.next s (l ++ [x]) s' ∧ ListOf LineSource.next s' rest := by
  induction l generalizing fuel i data s with
  | nil =>
    obtain ⟨s', hn, hr⟩ := ListOf.cons_iff.1 hs
    cases fuel with
    | zero => simp at hfuel
    | succ fuel =>
      refine ⟨s', ?_, .cons _ _ _ _ _ hn (.nil _), hr⟩
      simp only [List.length_nil] at hi
      have : i > n := by omega
      simp [Block.getLinesLoop, hn, this]
  | cons a l ih =>
    obtain ⟨s', hn, hr⟩ := ListOf.cons_iff.1 hs
    cases fuel with
    | zero => simp at hfuel
    | succ fuel =>
      simp only [List.length_cons] at hfuel hi
      obtain ⟨s'', h1, h2, h3⟩ := ih (i + 1) fuel (data ++ [a]) s' hr (by omega) (by omega)
      refine ⟨s'', ?_, .cons _ _ _ _ _ hn h2, h3⟩
      have : ¬ i > n := by omega
      simp only [Block.getLinesLoop, hn, this, if_false, h1]
      simp

/-- `getLinesLoop` when the source ends first. -/
theorem Block.getLinesLoop_eof (n i : Int) (l : List Str) (fuel : Nat) (data : List Str) (s : σ)
    (hs : ListOf LineSource.next s l) (hi : l = [] ∨ i + (l.length : Int) ≤ n + 1)
    (hfuel : l.length < fuel) :
    ∃ s', Block.getLinesLoop n fuel i data s = (false, data ++ l, s') ∧
      ListOf LineSource.next s' [] := by
  induction l generalizing fuel i data s with
  | nil =>
    rw [ListOf.nil_iff] at hs
    cases fuel with
    | zero => simp at hfuel
    | succ fuel =>
      refine ⟨(LineSource.next s).2, ?_, ?_⟩
      · have : LineSource.next s = (.error .stopIteration, (LineSource.next s).2) := by
          rw [← hs]
        simp only [Block.getLinesLoop]
        rw [this]; simp
      · rw [ListOf.nil_iff]; exact LawfulSource.stop_stays s hs
  | cons a l ih =>
    obtain ⟨s', hn, hr⟩ := ListOf.cons_iff.1 hs
    cases fuel with
    | zero => simp at hfuel
    | succ fuel =>
      simp only [List.length_cons] at hfuel hi
      obtain ⟨s'', h1, h3⟩ := ih (i + 1) fuel (data ++ [a]) s' hr (by right; simp at hi; omega) (by omega)
      refine ⟨s'', ?_, h3⟩
      have : ¬ i > n := by simp at hi; omega
      simp only [Block.getLinesLoop, hn, this, if_false, h1]
      simp

end Verif

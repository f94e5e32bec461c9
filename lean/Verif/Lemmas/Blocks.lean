import Verif.Lemmas.FileWrapper
import Verif.Model.Spectra
/-
Blocks of a list of lines.
-/
namespace Verif

theorem fromReLoop_lines (endP : Str → Bool) (blk : List Str) (last : Str) (rest : List Str) (n k : Int)
    (hb : (blk.filter endP).length + k + 1 = n) (hl : endP last = true) :
    ∀ (fuel : Nat) (data : List Str), blk.length < fuel →
    Block.fromReLoop endP n fuel k data (blk ++ last :: rest) = (true, data ++ (blk ++ [last]), rest) := by
  induction blk generalizing k with
  | nil =>
    intro fuel data hf
    cases fuel with
    | zero => simp at hf
    | succ fuel =>
      have : k + 1 = n := by simpa using hb
      simp [Block.fromReLoop, LineSource.next, hl, this]
  | cons x blk ih =>
    intro fuel data hf
    cases fuel with
    | zero => simp at hf
    | succ fuel =>
      have hf' : blk.length < fuel := by simp at hf; omega
      rw [List.cons_append, Block.fromReLoop]
      cases hx : endP x with
      | true =>
        have hb' : (blk.filter endP).length + (k + 1) + 1 = n := by
          rw [List.filter_cons, if_pos hx] at hb; simp at hb; omega
        have hne : ¬ k + 1 = n := by omega
        simp only [LineSource.next, hx, if_true, hne, if_false]
        rw [ih (k + 1) hb' fuel _ hf']
        simp
      | false =>
        have hb' : (blk.filter endP).length + k + 1 = n := by
          rw [List.filter_cons, if_neg (by simp [hx])] at hb; exact hb
        simp only [LineSource.next, hx, Bool.false_eq_true, if_false]
        rw [ih k hb' fuel _ hf']
        simp

theorem from_re_lines (startP endP : Str → Bool) (line : Str) (blk : List Str) (last : Str) (rest : List Str) (n : Int)
    (eof : Bool) (hs : startP line = true) (hb : (blk.filter endP).length + 1 = n) (hl : endP last = true) :
    Block.from_re line (blk ++ last :: rest) startP endP n eof = (.ok ⟨0, 0, line :: (blk ++ [last])⟩, rest) := by
  rw [Block.from_re, hs]
  have := fromReLoop_lines endP blk last rest n 0 (by omega) hl (LineSource.bound (blk ++ last :: rest) + 1) [line]
    (by simp [LineSource.bound]; omega)
  simp only [Bool.not_true, Bool.false_eq_true, if_false]
  rw [this]
  rfl

theorem tryBlock_lines (startP endP : Str → Bool) (line : Str) (blk : List Str) (last : Str) (rest : List Str)
    (eof : Bool) (hs : startP line = true) (hb : ∀ l ∈ blk, endP l = false) (hl : endP last = true)
    (ht : Str.strip line ≠ []) :
    tryBlock startP endP line (blk ++ last :: rest) eof = .ok (some ⟨0, 0, line :: (blk ++ [last])⟩, rest) := by
  have hf : blk.filter endP = [] := by
    rw [List.filter_eq_nil_iff]; intro a ha; simp [hb a ha]
  rw [tryBlock, from_re_lines startP endP line blk last rest 1 eof hs (by rw [hf]; rfl) hl]
  simp [Block.truthy, ht]

theorem tryBlock_none (startP endP : Str → Bool) (line : Str) (rest : List Str) (eof : Bool) (hs : startP line = false) :
    tryBlock startP endP line rest eof = .ok (none, rest) := by
  rw [tryBlock, Block.from_re, hs]
  simp [Block.init, Block.truthy]

end Verif

import Verif.Model.MdGeom
import Verif.Spec.MdFile
import Mathlib.Data.List.Sort
import Mathlib.Tactic.Linarith
namespace Verif
open Spec MDGeomParser

theorem mem_pyRange_pos {a b k x : Int} (hk : 0 < k) :
    x ∈ pyRange a b k ↔ a ≤ x ∧ x < b ∧ (x - a) % k = 0 := by
  unfold pyRange
  simp only [hk, if_true, List.mem_map, List.mem_range]
  constructor
  · rintro ⟨j, hj, rfl⟩
    have h0 : (j : Int) < (b - a + k - 1) / k := by omega
    have h1 : (j : Int) * k + k ≤ b - a + k - 1 := by
      have := Int.mul_le_of_le_ediv hk (Int.add_one_le_of_lt h0)
      rw [Int.add_mul] at this; omega
    have h2 : 0 ≤ (j : Int) * k := Int.mul_nonneg (by omega) (by omega)
    refine ⟨by omega, by omega, ?_⟩
    rw [show a + (j : Int) * k - a = j * k by omega]; exact Int.mul_emod_left _ _
  · rintro ⟨h1, h2, h3⟩
    have hd := Int.ediv_mul_cancel (Int.dvd_of_emod_eq_zero h3)
    have hq : 0 ≤ (x - a) / k := Int.ediv_nonneg (by omega) (by omega)
    refine ⟨((x - a) / k).toNat, ?_, by rw [Int.toNat_of_nonneg hq, hd]; omega⟩
    have : (x - a) / k + 1 ≤ (b - a + k - 1) / k := by
      rw [Int.le_ediv_iff_mul_le hk, Int.add_mul, hd]; omega
    omega

theorem mem_pyRange_neg {a b k x : Int} (hk : k < 0) :
    x ∈ pyRange a b k ↔ x ≤ a ∧ b < x ∧ (x - a) % k = 0 := by
  have key : x ∈ pyRange a b k ↔ -x ∈ pyRange (-a) (-b) (-k) := by
    unfold pyRange
    simp only [show ¬ (0 < k) by omega, show 0 < -k by omega, if_true, if_false, List.mem_map, List.mem_range]
    have e : (-b - -a + -k - 1) = (a - b - k - 1) := by omega
    rw [e]
    constructor
    · rintro ⟨j, hj, rfl⟩; exact ⟨j, hj, by rw [Int.mul_neg]; omega⟩
    · rintro ⟨j, hj, h⟩; exact ⟨j, hj, by rw [Int.mul_neg] at h; omega⟩
  rw [key, mem_pyRange_pos (by omega)]
  have e : (-x - -a) = -(x - a) := by omega
  rw [e, Int.emod_neg, ← Int.dvd_iff_emod_eq_zero, ← Int.dvd_iff_emod_eq_zero, Int.dvd_neg]
  constructor <;> rintro ⟨h1, h2, h3⟩ <;> exact ⟨by omega, by omega, h3⟩

theorem pairwise_pyRange_pos {a b k : Int} (hk : 0 < k) : (pyRange a b k).Pairwise (· < ·) := by
  unfold pyRange
  rw [List.pairwise_map]
  refine List.Pairwise.imp ?_ List.pairwise_lt_range
  intro i j h
  have : (i : Int) * k < j * k := Int.mul_lt_mul_of_pos_right (by omega) hk
  omega

theorem pairwise_pyRange_neg {a b k : Int} (hk : k < 0) : (pyRange a b k).Pairwise (· > ·) := by
  unfold pyRange
  rw [List.pairwise_map]
  refine List.Pairwise.imp ?_ List.pairwise_lt_range
  intro i j h
  have : (j : Int) * k < i * k := Int.mul_lt_mul_of_neg_right (by omega) hk
  show _ > _
  omega

/-- The positions Python computes are those of the slice. -/
theorem slice_positions (n : Nat) (a b c : Option Int) :
    (match sliceIndices a b c n with
      | .error e => (Except.error e : PyM (List Int))
      | .ok (a, b, c) => .ok (pyRange a b c)) =
    match slicePositions n a b c with
      | none => .error .valueError
      | some ps => .ok (ps.map fun (x : Nat) => (x : Int)) := by
  unfold sliceIndices slicePositions
  generalize c.getD 1 = k
  by_cases h0 : k = 0
  · simp [h0]
  · simp only [h0, if_false]
    by_cases hp : 0 < k
    · have hn : ¬ k < 0 := by omega
      simp only [hp, hn, if_true, if_false]
      congr 1
      apply List.Pairwise.eq_of_mem_iff (r := (· < ·)) (pairwise_pyRange_pos hp)
      · rw [List.pairwise_map]
        refine (List.Pairwise.filter _ List.pairwise_lt_range).imp ?_
        intro i j h; omega
      · intro x
        rw [mem_pyRange_pos hp]
        simp only [List.mem_map, List.mem_filter, List.mem_range, decide_eq_true_eq]
        have hs : (Option.elim a (0 : Int) fun i : Int => if i < 0 then max (i + n) 0 else min i n) =
            (Option.map (fun i : Int => max 0 (min (if i < 0 then i + (n : Int) else i) n)) a).getD 0 := by
          cases a with
          | none => rfl
          | some i => simp only [Option.map_some, Option.getD_some, Option.elim_some]; split <;> omega
        have he : (Option.elim b ((n : Int)) fun i : Int => if i < 0 then max (i + n) 0 else min i n) =
            (Option.map (fun i : Int => max 0 (min (if i < 0 then i + (n : Int) else i) n)) b).getD n := by
          cases b with
          | none => rfl
          | some i => simp only [Option.map_some, Option.getD_some, Option.elim_some]; split <;> omega
        have hs0 : 0 ≤ (Option.map (fun i : Int => max 0 (min (if i < 0 then i + (n : Int) else i) n)) a).getD 0 := by
          cases a with
          | none => simp
          | some i => simp only [Option.map_some, Option.getD_some]; omega
        have he0 : (Option.map (fun i : Int => max 0 (min (if i < 0 then i + (n : Int) else i) n)) b).getD n ≤ n := by
          cases b with
          | none => simp
          | some i => simp only [Option.map_some, Option.getD_some]; omega
        rw [hs, he]
        generalize Option.getD _ _ = s at *
        generalize Option.getD _ _ = e at *
        constructor
        · rintro ⟨h1, h2, h3⟩
          refine ⟨x.toNat, ⟨by omega, ?_⟩, by omega⟩
          rw [Int.toNat_of_nonneg (by omega)]
          exact ⟨h1, h2, h3⟩
        · rintro ⟨y, ⟨_, h2⟩, rfl⟩; exact h2
    · have hn : k < 0 := by omega
      simp only [hp, hn, if_true, if_false]
      congr 1
      apply List.Pairwise.eq_of_mem_iff (r := (· > ·)) (pairwise_pyRange_neg hn)
      · rw [List.pairwise_map, List.pairwise_reverse]
        refine (List.Pairwise.filter _ List.pairwise_lt_range).imp ?_
        intro i j h; show _ > _; omega
      · intro x
        rw [mem_pyRange_neg hn]
        simp only [List.mem_map, List.mem_reverse, List.mem_filter, List.mem_range, decide_eq_true_eq]
        have hs : (Option.elim a ((n : Int) - 1) fun i : Int => if i < 0 then max (i + n) (-1) else min i (n - 1)) =
            (Option.map (fun i : Int => max (-1) (min (if i < 0 then i + (n : Int) else i) (n - 1))) a).getD (n - 1) := by
          cases a with
          | none => rfl
          | some i => simp only [Option.map_some, Option.getD_some, Option.elim_some]; split <;> omega
        have he : (Option.elim b ((-1 : Int)) fun i : Int => if i < 0 then max (i + n) (-1) else min i (n - 1)) =
            (Option.map (fun i : Int => max (-1) (min (if i < 0 then i + (n : Int) else i) (n - 1))) b).getD (-1) := by
          cases b with
          | none => rfl
          | some i => simp only [Option.map_some, Option.getD_some, Option.elim_some]; split <;> omega
        have hs0 : (Option.map (fun i : Int => max (-1) (min (if i < 0 then i + (n : Int) else i) (n - 1))) a).getD (n - 1) ≤ n - 1 := by
          cases a with
          | none => simp
          | some i => simp only [Option.map_some, Option.getD_some]; omega
        have he0 : -1 ≤ (Option.map (fun i : Int => max (-1) (min (if i < 0 then i + (n : Int) else i) (n - 1))) b).getD (-1) := by
          cases b with
          | none => simp
          | some i => simp only [Option.map_some, Option.getD_some]; omega
        rw [hs, he]
        generalize Option.getD _ _ = s at *
        generalize Option.getD _ _ = e at *
        constructor
        · rintro ⟨h1, h2, h3⟩
          refine ⟨x.toNat, ⟨by omega, ?_⟩, by omega⟩
          rw [Int.toNat_of_nonneg (by omega)]
          exact ⟨h1, h2, h3⟩
        · rintro ⟨y, ⟨_, h2⟩, rfl⟩; exact h2

end Verif

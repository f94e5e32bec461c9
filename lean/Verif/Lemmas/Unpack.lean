import Verif.Lemmas.Fortran
namespace Verif
open Spec

theorem chunks_flatMap (k : Nat) (enc : α → Bytes) (h : ∀ a, (enc a).length = k) (l : List α) :
    chunks k l.length (l.flatMap enc) = l.map enc := by
  induction l with
  | nil => rfl
  | cons a l ih =>
    have h1 : List.take k (enc a ++ l.flatMap enc) = enc a := by
      rw [List.take_append_of_le_length (by simp [h]), List.take_of_length_le (by simp [h])]
    have h2 : List.drop k (enc a ++ l.flatMap enc) = l.flatMap enc := by
      rw [List.drop_append, List.drop_of_length_le (by simp [h]), h]; simp
    simp only [List.length_cons, List.flatMap_cons, chunks, List.map_cons, h1, h2, ih]

theorem flatMap_length_const (k : Nat) (enc : α → Bytes) (h : ∀ a, (enc a).length = k) (l : List α) :
    (l.flatMap enc).length = k * l.length := by
  induction l with
  | nil => rfl
  | cons a l ih => simp only [List.flatMap_cons, List.length_append, h, ih, List.length_cons]; grind

theorem unpack_flatMap (k : Nat) (hk : 0 < k) (enc : α → Bytes) (dec : Bytes → β)
    (h : ∀ a, (enc a).length = k) (l : List α) :
    unpack k dec (l.flatMap enc) = .ok (l.map fun a => dec (enc a)) := by
  have hl := flatMap_length_const k enc h l
  have hd : (l.flatMap enc).length / k = l.length := by rw [hl]; exact Nat.mul_div_cancel_left _ hk
  rw [unpack, hd, if_pos hl, chunks_flatMap k enc h l]
  simp

theorem unpack_bad (k : Nat) (dec : Bytes → β) (b : Bytes) (h : b.length % k ≠ 0) :
    unpack k dec b = .error .structError := by
  rw [unpack, if_neg]
  intro h'
  have := Nat.div_add_mod b.length k
  omega

theorem chunks_length (k n : Nat) (b : Bytes) : (chunks k n b).length = n := by
  induction n generalizing b with
  | zero => rfl
  | succ n ih => simp [chunks, ih]

theorem unpack_good (k : Nat) (dec : Bytes → β) (b : Bytes) (h : b.length % k = 0) :
    ∃ l, unpack k dec b = .ok l ∧ l.length = b.length / k := by
  have := Nat.div_add_mod b.length k
  refine ⟨_, by rw [unpack, if_pos (by omega)], ?_⟩
  simp [chunks_length]

theorem encInt32_length (i : Int) : (encInt32 i).length = 4 := by simp [encInt32]
theorem encF64_length (x : F64) : (encF64 x).length = 8 := by simp [encF64]

theorem decInt32_enc (i : Int) (h0 : -2 ^ 31 ≤ i) (h1 : i < 2 ^ 31) :
    decInt32 (encInt32 i) = i := by
  have : beVal (encInt32 i) = (i % 2 ^ 32).toNat := by
    rw [encInt32, beVal_beBytes, Nat.mod_eq_of_lt]; omega
  rw [decInt32, this]
  split <;> omega

theorem decF64_enc (x : F64) : decF64 (encF64 x) = x := by
  obtain ⟨⟨b, hb⟩⟩ := x
  have : beVal (encF64 ⟨⟨b, hb⟩⟩) = b := by
    rw [encF64, beVal_beBytes, Nat.mod_eq_of_lt]; simpa using hb
  rw [decF64, this]
  simp only [F64.mk.injEq]
  apply Fin.ext
  simp only [Fin.val_ofNat]
  exact Nat.mod_eq_of_lt hb

theorem everyOther_flat (l : List (α × α)) :
    everyOther (l.flatMap fun p => [p.1, p.2]) = l.map (·.1) ∧
    everyOther ((l.flatMap fun p => [p.1, p.2]).drop 1) = l.map (·.2) := by
  induction l with
  | nil => simp [everyOther]
  | cons p l ih =>
    refine ⟨by simpa [everyOther] using ih.1, ?_⟩
    have h2 := ih.2
    cases l with
    | nil => simp [everyOther]
    | cons q l =>
      simp only [List.flatMap_cons, List.cons_append, List.nil_append, List.drop_succ_cons,
        List.drop_zero, List.map_cons, everyOther] at h2 ⊢
      rw [h2]

end Verif

import Mathlib.Data.List.Induction
import Verif.Spec.Fortran
import Verif.Model.FortranBin
import Verif.Spec.Iter
namespace Verif
open Spec

@[simp] theorem beBytes_length (k n : Nat) : (beBytes k n).length = k := by
  induction k generalizing n with
  | zero => rfl
  | succ k ih => simp [beBytes, ih]

theorem beVal_append (a b : Bytes) : beVal (a ++ b) = beVal a * 256 ^ b.length + beVal b := by
  induction b using List.reverseRecOn generalizing a with
  | nil => simp [beVal]
  | append_singleton b x ih =>
    have h1 : beVal (a ++ (b ++ [x])) = beVal (a ++ b) * 256 + x.val := by
      simp [beVal]
    have h2 : beVal (b ++ [x]) = beVal b * 256 + x.val := by simp [beVal]
    rw [h1, h2, ih]
    simp only [List.length_append, List.length_cons, List.length_nil, Nat.pow_succ, Nat.zero_add]
    grind

theorem beVal_beBytes (k n : Nat) : beVal (beBytes k n) = n % 256 ^ k := by
  induction k generalizing n with
  | zero => simp [beBytes, beVal, Nat.mod_one]
  | succ k ih =>
    rw [beBytes, beVal_append, ih]
    simp only [List.length_singleton, Nat.pow_one]
    have : beVal [Fin.ofNat 256 n] = n % 256 := by simp [beVal]
    rw [this, Nat.pow_succ, Nat.mul_comm (256 ^ k), Nat.mod_mul]
    omega

theorem beVal_lt (b : Bytes) : beVal b < 256 ^ b.length := by
  induction b using List.reverseRecOn with
  | nil => simp [beVal]
  | append_singleton b x ih =>
    rw [beVal_append]
    have : beVal [x] = x.val := by simp [beVal]
    rw [this]
    have := x.isLt
    simp only [List.length_append, List.length_singleton, Nat.pow_succ, Nat.pow_zero, Nat.one_mul]
    omega

end Verif

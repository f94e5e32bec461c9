import Verif.Py.Bytes
/-
Independent specification of the Fortran unformatted file format (what a writer produces) and of
navigation in it.
-/
namespace Verif.Spec

/-- `n mod 256^k` as `k` bytes, most significant first. -/
def beBytes : Nat → Nat → Bytes
  | 0, _ => []
  | k + 1, n => beBytes k (n / 256) ++ [Fin.ofNat 256 n]

/-- One record on disk: length marker, data, length marker. -/
def encodeRec (r : Bytes) : Bytes := beBytes 4 r.length ++ r ++ beBytes 4 r.length

/-- A whole file. -/
def encodeFile : List Bytes → Bytes
  | [] => []
  | r :: rs => encodeRec r ++ encodeFile rs

/-- Record lengths fit the 4-byte marker. -/
def Fits (rs : List Bytes) : Prop := ∀ r ∈ rs, r.length < 2 ^ 32
instance (rs : List Bytes) : Decidable (Fits rs) := inferInstanceAs (Decidable (∀ r ∈ rs, _))

/-- A freshly opened file. -/
def opened (b : Bytes) : BFile := ⟨b, 0⟩

/-- The file holding the records `rs` with the cursor in front of record `i`. -/
def atRecord (rs : List Bytes) (i : Nat) : BFile := ⟨encodeFile rs, (encodeFile (rs.take i)).length⟩

/-- Navigation commands. -/
inductive NavOp
  | next | skip (n : Int) | rewind (n : Int)
  deriving DecidableEq, Repr

/-- Where a command leads from record index `i` of a file with `len` records; `none` if it would
leave the file.  Reading at the end stays at the end. -/
def navTarget (len i : Nat) : NavOp → Option Nat
  | .next => some (if i < len then i + 1 else i)
  | .skip n => if 0 ≤ (i : Int) + n ∧ (i : Int) + n ≤ len then some ((i : Int) + n).toNat else none
  | .rewind n => if 0 ≤ (i : Int) - n ∧ (i : Int) - n ≤ len then some ((i : Int) - n).toNat else none

/-- A signed 32-bit integer on disk. -/
def encInt32 (i : Int) : Bytes := beBytes 4 (i % 2 ^ 32).toNat
/-- A double on disk. -/
def encF64 (x : F64) : Bytes := beBytes 8 x.bits.val

end Verif.Spec

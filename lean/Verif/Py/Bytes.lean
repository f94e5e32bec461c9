import Verif.Py.Value
/-
Bytes, binary files and `struct.unpack`.
-/
namespace Verif

/-- One byte. -/
abbrev Byte := Fin 256
/-- Python `bytes`. -/
abbrev Bytes := List Byte

/-- `int.from_bytes(b, "big")` (unsigned). -/
def beVal (b : Bytes) : Nat := b.foldl (fun a c => a * 256 + c.val) 0

/-- A binary file opened for reading: contents and cursor.  The cursor may lie beyond the end. -/
structure BFile where
  data : Bytes
  pos : Nat
  deriving DecidableEq, Repr

namespace BFile

/-- `f.read(n)`: up to `n` bytes from the cursor, fewer at the end of the file. -/
def read (f : BFile) (n : Nat) : Bytes × BFile :=
  let b := (f.data.drop f.pos).take n
  (b, { f with pos := f.pos + b.length })

/-- `f.seek(off, SEEK_CUR)`: seeking before the start raises `OSError` as for a real file
(an in-memory `BytesIO` moves to 0 instead). -/
def seekCur (f : BFile) (off : Int) : PyM BFile :=
  if (f.pos : Int) + off < 0 then .error .osError
  else .ok { f with pos := ((f.pos : Int) + off).toNat }

end BFile

/-- The first `n` pieces of `k` bytes of `b`. -/
def chunks (k : Nat) : Nat → Bytes → List Bytes
  | 0, _ => []
  | n + 1, b => b.take k :: chunks k n (b.drop k)

/-- `struct.unpack(f">{len(b) // k}X", b)` for a format `X` of size `k`: `struct.error` unless the
length is exactly the format's size. -/
def unpack (k : Nat) (dec : Bytes → α) (b : Bytes) : PyM (List α) :=
  if b.length = k * (b.length / k) then .ok ((chunks k (b.length / k) b).map dec)
  else .error .structError

/-- Format `i`: signed 32-bit. -/
def decInt32 (b : Bytes) : Int :=
  if beVal b < 2 ^ 31 then (beVal b : Int) else (beVal b : Int) - 2 ^ 32

/-- Format `d`: the 8 bytes are the bit pattern. -/
def decF64 (b : Bytes) : F64 := ⟨Fin.ofNat _ (beVal b)⟩

end Verif

import Verif.Spec.Atom
import Verif.Py.Value
/-
A frame of a `.md` or `.geom` file, what it says, and what it means for a dictionary to say the same.
-/
namespace Verif.Spec
open Verif

/-- A line of a frame.  Every gap is whitespace. -/
inductive FLine
  /-- a blank line -/
  | blank (ws : Str)
  /-- the time: gap, number, gap -/
  | time (g : Str) (n : Numeral) (tail : Str)
  /-- numbers, each after a gap; gap, `<--`, gap, tag, rest of the line -/
  | glob (ns : List (Str × Numeral)) (g g' tag tail : Str)
  /-- gap, species, gap, index, three numbers after gaps each, gap, `<--`, gap, tag, rest -/
  | atom (g : Str) (name : AtomName) (gi : Str) (idx : Str) (x y z : Str × Numeral) (gt g' tag tail : Str)

/-- A gap and a number. -/
def gapNum (p : Str × Numeral) : Str := p.1 ++ p.2.text

namespace FLine

/-- The text of the line. -/
def text : FLine → Str
  | blank ws => ws
  | time g n tail => g ++ n.text ++ tail
  | glob ns g g' tag tail => ns.flatMap gapNum ++ (g ++ (py"<--" ++ (g' ++ (tag ++ tail))))
  | atom g name gi idx x y z gt g' tag tail =>
    g ++ (name.text ++ (gi ++ (idx ++ (gapNum x ++ (gapNum y ++ (gapNum z ++ (gt ++ (py"<--" ++
      (g' ++ (tag ++ tail))))))))))

/-- The long names, and the entries of a frame that no tag may be called. -/
def reserved : List Str :=
  [py"ions", py"time", py"energy", py"temperature", py"pressure", py"lattice_vectors",
   py"lattice_velocity", py"stress", py"position", py"velocity", py"force"]

/-- A tag: a nonempty word other than the reserved ones, that ends where the line goes on. -/
def TagOk (tag tail : Str) : Prop :=
  tag ≠ [] ∧ (∀ c ∈ tag, isWord c = true) ∧ tag ∉ reserved ∧ ∀ c ∈ tail.head?, isWord c = false

instance (tag tail : Str) : Decidable (TagOk tag tail) :=
  inferInstanceAs (Decidable (tag ≠ [] ∧ (∀ c ∈ tag, isWord c = true) ∧ tag ∉ reserved ∧
    ∀ c ∈ tail.head?, isWord c = false))

/-- No decimal digit. -/
def NoDigit (s : Str) : Prop := ∀ c ∈ s, ¬ (48 ≤ c ∧ c ≤ 57)

instance (s : Str) : Decidable (NoDigit s) := inferInstanceAs (Decidable (∀ c ∈ s, _))

/-- Well-formed lines.  The tag of a global line and what follows it contain no digit (a digit there
would be one more number of the line). -/
def Ok : FLine → Prop
  | blank ws => Blank ws
  | time g n tail => Blank g ∧ n.Valid ∧ Blank tail
  | glob ns g g' tag tail => (∀ p ∈ ns, Blank p.1 ∧ p.2.Valid) ∧ (∀ p ∈ ns.tail, p.1 ≠ []) ∧ Blank g ∧ Blank g' ∧
      TagOk tag tail ∧ NoDigit tag ∧ NoDigit tail
  | atom g name gi idx x y z gt g' tag tail => Blank g ∧ name.Valid ∧ Blank gi ∧ gi ≠ [] ∧
      idx ≠ [] ∧ Numeral.AllDigits idx ∧ (∀ p ∈ [x, y, z], Blank p.1 ∧ p.1 ≠ [] ∧ p.2.Valid) ∧ Blank gt ∧
      Blank g' ∧ TagOk tag tail

instance (l : FLine) : Decidable l.Ok := by
  cases l <;> unfold Ok <;> infer_instance

/-- The numbers on the line. -/
def numerals : FLine → List Numeral
  | blank _ => []
  | time _ n _ => [n]
  | glob ns .. => ns.map Prod.snd
  | atom _ _ _ _ x y z .. => [x.2, y.2, z.2]

/-- Name and number of the atom the line is about. -/
def ion? : FLine → Option Key
  | atom _ name _ idx .. => some (.tup [.str name.text, .int (Numeral.nat idx)])
  | _ => none

end FLine

/-- The time said by the last time line. -/
def timeIn (val : Numeral → F64) (ls : List FLine) : Option PyVal :=
  ls.reverse.findSome? fun
    | .time _ n _ => some (.float (val n))
    | _ => none

/-- The rows of numbers given with a tag, in order. -/
def rowsIn (val : Numeral → F64) (ls : List FLine) (tag : Str) : List PyVal :=
  ls.filterMap fun
    | .glob ns _ _ t _ => if t = tag then some (.list (ns.map fun p => .float (val p.2))) else none
    | _ => none

/-- The atoms mentioned. -/
def ionsIn (ls : List FLine) : List Key := ls.filterMap FLine.ion?

/-- The last vector given for an atom with a tag. -/
def vecIn (val : Numeral → F64) (ls : List FLine) (ion : Key) (tag : Str) : Option PyVal :=
  ls.reverse.findSome? fun
    | .atom g name gi idx x y z gt g' t tail =>
      if (FLine.atom g name gi idx x y z gt g' t tail).ion? = some ion ∧ t = tag then
        some (.tuple [.float (val x.2), .float (val y.2), .float (val z.2)]) else none
    | _ => none

/-- The long names of tags. -/
def longName : List (Str × Str) :=
  [(py"E", py"energy"), (py"T", py"temperature"), (py"P", py"pressure"), (py"h", py"lattice_vectors"),
   (py"hv", py"lattice_velocity"), (py"S", py"stress"), (py"R", py"position"), (py"V", py"velocity"),
   (py"F", py"force")]

/-- The tag a name stands for. -/
def tagOf (name : Str) : Str := ((longName.find? (·.2 = name)).map Prod.fst).getD name

/-- Keys in the order of their first occurrence. -/
def firstSeen : List Key → List Key
  | [] => []
  | k :: ks => k :: (firstSeen ks).filter (· ≠ k)

/-- The dictionary says what the lines say, and nothing else: under `time` the time, under every tag
and its long name the rows, and under `ions` for every atom mentioned, in the order of first mention,
under every tag and its long name the vector. -/
structure SaysFrame (val : Numeral → F64) (ls : List FLine) (d : Dict Key PyVal) : Prop where
  time : d.get? (.str (py"time")) = timeIn val ls
  tags : ∀ name, name ≠ py"time" → name ≠ py"ions" →
    d.get? (.str name) = match rowsIn val ls (tagOf name) with | [] => none | rows => some (.list rows)
  others : ∀ k, (∀ s, k ≠ .str s) → d.get? k = none
  ions : ∃ ions : Dict Key PyVal, d.get? (.str (py"ions")) = some (.dict ions) ∧
    ions.keys = firstSeen (ionsIn ls) ∧
    ∀ ion ∈ ionsIn ls, ∃ e : Dict Key PyVal, ions.get? ion = some (.dict e) ∧
      (∀ name, e.get? (.str name) = vecIn val ls ion (tagOf name)) ∧
      ∀ k, (∀ s, k ≠ .str s) → e.get? k = none

end Verif.Spec

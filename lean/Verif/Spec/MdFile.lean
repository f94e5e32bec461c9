import Verif.Py.Value
import Verif.Spec.Text
/-
What a trajectory file (.md/.geom) is, and what random access to its frames means.
-/
namespace Verif.Spec
open Verif

/-- A complete line: no newline but the last character. -/
def IsLine (l : Str) : Prop := ∃ u, 10 ∉ u ∧ l = u ++ [10]

/-- How a trajectory starts: the standard header, possibly after blank lines and possibly followed by
a blank line, or just blank lines. -/
inductive MdHeader
  | standard (lead : List Str) (first : Str) (body : List Str) (last : Str) (sep : Option Str)
  | missing (lead : List Str)

/-- The lines of a header. -/
def MdHeader.lines : MdHeader → List Str
  | .standard lead first body last sep => lead ++ [first] ++ body ++ [last] ++ sep.toList
  | .missing lead => lead

/-- One frame: its lines and the separator after them. -/
structure MdFrame where
  lines : List Str
  sep : Str

/-- The lines of a frame with its separator. -/
def MdFrame.all (f : MdFrame) : List Str := f.lines ++ [f.sep]

/-- A trajectory. -/
structure MdFile where
  head : MdHeader
  frames : List MdFrame

/-- The lines of a trajectory. -/
def MdFile.lines (F : MdFile) : List Str := F.head.lines ++ (F.frames.map MdFrame.all).flatten

/-- The text of a trajectory. -/
def MdFile.text (F : MdFile) : Str := F.lines.flatten

/-- A header is made of lines, the first holding `BEGIN header`, and the next one holding
`END header` being its last. -/
def MdHeader.Ok : MdHeader → Prop
  | .standard lead first body last sep =>
    (∀ l ∈ lead, IsLine l ∧ Blank l) ∧
    (IsLine first ∧ Occurs (py"BEGIN header") first) ∧
    (∀ l ∈ body, IsLine l ∧ ¬ Occurs (py"END header") l) ∧
    (IsLine last ∧ Occurs (py"END header") last) ∧
    (∀ l ∈ sep, IsLine l ∧ Blank l)
  | .missing lead => ∀ l ∈ lead, IsLine l ∧ Blank l

/-- A frame is one or more lines, none blank, and a blank line. -/
def MdFrame.Ok (f : MdFrame) : Prop :=
  f.lines ≠ [] ∧ (∀ l ∈ f.lines, IsLine l ∧ ¬ Blank l) ∧ IsLine f.sep ∧ Blank f.sep

/-- Without a header the first frame must not look like one. -/
def MdFile.HeadFits (F : MdFile) : Prop :=
  match F.head with
  | .standard .. => True
  | .missing _ => ∀ f ∈ F.frames.head?, ∀ l ∈ f.lines.head?, ¬ Occurs (py"BEGIN header") l

/-- A trajectory as CASTEP writes it: a header and at least one frame, all frames with the same number
of lines and of characters (fixed-width output). -/
structure MdFile.Ok (F : MdFile) : Prop where
  head : F.head.Ok
  fits : F.HeadFits
  some : F.frames ≠ []
  frames : ∀ f ∈ F.frames, f.Ok
  height : ∀ f ∈ F.frames, ∀ g ∈ F.frames, f.lines.length = g.lines.length
  width : ∀ f ∈ F.frames, ∀ g ∈ F.frames, f.all.flatten.length = g.all.flatten.length

/-! ### Slices -/

/-- Positions selected by `l[a:b:c]` for a list of length `n`, following the description in the Python
library reference: negative bounds count from the end, bounds are clamped, omitted bounds are the ends;
`none` for a zero step. -/
def slicePositions (n : Nat) (a b c : Option Int) : Option (List Nat) :=
  let k := c.getD 1
  let pos (i : Int) : Int := if i < 0 then i + n else i
  if k = 0 then none
  else if 0 < k then
    let s := (a.map fun i => max 0 (min (pos i) n)).getD 0
    let e := (b.map fun i => max 0 (min (pos i) n)).getD n
    some ((List.range n).filter fun (x : Nat) => decide (s ≤ (x : Int) ∧ (x : Int) < e ∧ ((x : Int) - s) % k = 0))
  else
    let s := (a.map fun i => max (-1) (min (pos i) (n - 1))).getD (n - 1)
    let e := (b.map fun i => max (-1) (min (pos i) (n - 1))).getD (-1)
    some (((List.range n).filter fun (x : Nat) => decide ((x : Int) ≤ s ∧ e < (x : Int) ∧ ((x : Int) - s) % k = 0)).reverse)

/-! ### Random access -/

/-- What a caller can do with a trajectory reader. -/
inductive MdOp
  | getFrame (i : Int)
  | readNext
  | getMany (l : List Int)
  | slice (a b c : Option Int)
  | newIter
  | send (j : Nat) (trial : Option Int)

/-- What the caller sees. -/
inductive MdSeen
  | frame (r : PyM PyVal)
  | frames (r : PyM (List PyVal))
  | unit
  deriving DecidableEq, Repr

/-- An iterator: new, having last produced position `i`, or finished. -/
inductive MdIter
  | new
  | last (i : Int)
  | finished

/-- The abstract reader: where `read_next` continues, and the iterators made so far. -/
structure MdState where
  cursor : Nat
  iters : List MdIter

/-- The frame a (possibly negative) index denotes. -/
def frameAt (n : Nat) (i : Int) : Option Nat :=
  if 0 ≤ i ∧ i < n then some i.toNat
  else if i < 0 ∧ -(n : Int) ≤ i then some (i + n).toNat
  else none

variable (frames : List (PyM PyVal))

/-- `reader[i]` -/
def specGet (cur : Nat) (i : Int) : PyM PyVal × Nat :=
  match frameAt frames.length i with
  | none => (.error .indexError, cur)
  | some k => (frames.getD k (.error .stopIteration), k + 1)

/-- `[reader[i] for i in l]`: the first failure ends it. -/
def specGetMany (cur : Nat) : List Int → PyM (List PyVal) × Nat
  | [] => (.ok [], cur)
  | i :: l =>
    match specGet frames cur i with
    | (.error e, cur) => (.error e, cur)
    | (.ok v, cur) =>
      match specGetMany cur l with
      | (.error e, cur) => (.error e, cur)
      | (.ok vs, cur) => (.ok (v :: vs), cur)

/-- Advance an iterator to position `i`. -/
def specAdvance (cur : Nat) (i : Int) : PyM PyVal × MdIter × Nat :=
  if frames.length ≤ i then (.error .stopIteration, .finished, cur)
  else
    match specGet frames cur i with
    | (.ok v, cur) => (.ok v, .last i, cur)
    | (.error .stopIteration, cur) => (.error .runtimeError, .finished, cur)
    | (.error e, cur) => (.error e, .finished, cur)

/-- One operation on the abstract reader. -/
def specOp (st : MdState) : MdOp → MdSeen × MdState
  | .getFrame i => let r := specGet frames st.cursor i; (.frame r.1, { st with cursor := r.2 })
  | .readNext =>
    if st.cursor < frames.length then
      (.frame (frames.getD st.cursor (.error .stopIteration)), { st with cursor := st.cursor + 1 })
    else (.frame (.error .stopIteration), st)
  | .getMany l => let r := specGetMany frames st.cursor l; (.frames r.1, { st with cursor := r.2 })
  | .slice a b c =>
    match slicePositions frames.length a b c with
    | none => (.frames (.error .valueError), st)
    | some ps =>
      let r := specGetMany frames st.cursor (ps.map fun (x : Nat) => (x : Int))
      (.frames r.1, { st with cursor := r.2 })
  | .newIter => (.unit, { st with iters := st.iters ++ [.new] })
  | .send j trial =>
    match st.iters[j]? with
    | none => (.unit, st)
    | some .finished => (.frame (.error .stopIteration), st)
    | some .new =>
      match trial with
      | some _ => (.frame (.error .typeError), st)
      | none =>
        let r := specAdvance frames st.cursor 0
        (.frame r.1, ⟨r.2.2, st.iters.set j r.2.1⟩)
    | some (.last i) =>
      let r := specAdvance frames st.cursor (trial.getD (i + 1))
      (.frame r.1, ⟨r.2.2, st.iters.set j r.2.1⟩)

/-- A history of operations. -/
def specRun (st : MdState) : List MdOp → List MdSeen × MdState
  | [] => ([], st)
  | op :: ops =>
    let r := specOp frames st op
    let rs := specRun r.2 ops
    (r.1 :: rs.1, rs.2)

end Verif.Spec

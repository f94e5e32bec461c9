import Verif.Py.File
/-
castep_outputs/utilities/filewrapper.py
-/
namespace Verif

/-- Anything the code iterates over line by line (`FileWrapper`, `Block`): `next`, the `lineno`
property, and a bound on the number of lines left, used only as fuel for `for` loops. -/
class LineSource (σ : Type) where
  next : σ → PyM Str × σ
  lineno : σ → Int
  bound : σ → Nat

/-- `FileWrapper`, filewrapper.py:15-30. -/
structure FileWrapper where
  file : TFile
  pos_ : Nat
  lineno_ : Int
  deriving DecidableEq, Repr

namespace FileWrapper

/-- `FileWrapper.__init__`, filewrapper.py:27-30. -/
def init (file : TFile) : FileWrapper := ⟨file, 0, 0⟩

/-- `FileWrapper.__next__`, filewrapper.py:35-41. -/
def next (w : FileWrapper) : PyM Str × FileWrapper :=
  let w := { w with lineno_ := w.lineno_ + 1 }
  let w := { w with pos_ := w.file.tell }
  let (nextline, file) := w.file.readline
  let w := { w with file := file }
  if nextline.isEmpty then (.error .stopIteration, w) else (.ok nextline, w)

/-- `FileWrapper.rewind`, filewrapper.py:43-57. -/
def rewind (w : FileWrapper) : FileWrapper :=
  if w.file.tell = w.pos_ then w
  else { w with lineno_ := w.lineno_ - 1, file := w.file.seek w.pos_ }

/-- `FileWrapper.tell`, filewrapper.py:96-104 (position of the underlying file). -/
def tell (w : FileWrapper) : Nat := w.file.tell

instance : LineSource FileWrapper where
  next := next
  lineno w := w.lineno_
  bound w := w.file.text.length - w.file.pos

end FileWrapper

/-- `Block`, filewrapper.py:113-130.  `p_` is `_i + 1`, the number of the line `__next__` returns
next (`_i` starts at -1 and `rewind` never takes it below).  The `name`, used only in messages, is
not modelled. -/
structure Block where
  lineno_ : Int
  p_ : Nat
  data : List Str
  deriving DecidableEq, Repr

namespace Block

/-- `Block.__init__`, filewrapper.py:122-130, for a parent that is a `FileWrapper` or `Block`. -/
def init [LineSource σ] (parent : σ) : Block := ⟨LineSource.lineno parent, 0, []⟩

/-- `Block.__init__` for any other parent (`None`, plain file). -/
def initNone : Block := ⟨0, 0, []⟩

/-- `Block.__next__`, filewrapper.py:352-356: `_i` is incremented also when the block is
exhausted. -/
def next (b : Block) : PyM Str × Block :=
  match b.data[b.p_]? with
  | none => (.error .stopIteration, { b with p_ := b.p_ + 1 })
  | some l => (.ok l, { b with p_ := b.p_ + 1 })

/-- `Block.lineno`, filewrapper.py:380-390. -/
def lineno (b : Block) : Int := b.lineno_ + ((b.p_ : Int) - 1)

instance : LineSource Block where
  next := next
  lineno := lineno
  bound b := b.data.length

/-- `Block.rewind`, filewrapper.py:324-341. -/
def rewind (b : Block) : PyM Unit × Block :=
  if b.p_ = 0 then (.error .valueError, b)
  else (.ok (), { b with p_ := b.p_ - 1 })

/-- `Block.__bool__`, filewrapper.py:343-344. -/
def truthy (b : Block) : Bool := b.data.any fun l => !(Str.strip l).isEmpty

/-- `Block.__str__`, filewrapper.py:346-347. -/
def str (b : Block) : Str := Str.join [10] b.data

/-- `Block.from_iterable`, filewrapper.py:254-283. -/
def from_iterable [LineSource σ] (data : List Str) (parent : σ) : Block :=
  { init parent with data := data }

/-- Python slice `l[a:b]` for `a ≥ 0` and an upper bound of `-back`, or `None` when `back` is 0. -/
def sliceBounds (l : List α) (fore back : Nat) : List α :=
  if back = 0 then l.drop fore else (l.take (l.length - back)).drop fore

/-- `Block.remove_bounds`, filewrapper.py:285-300, for non-negative arguments. -/
def remove_bounds (b : Block) (fore : Nat := 1) (back : Nat := 2) : Block :=
  { b with lineno_ := b.lineno_ + fore, data := sliceBounds b.data fore back }

/-- The loop of `from_re`, filewrapper.py:238-244, with fuel: returns whether it ended by `break`,
the accumulated data and the advanced source. -/
def fromReLoop [LineSource σ] (endP : Str → Bool) (n_end : Int) :
    Nat → Int → List Str → σ → Bool × List Str × σ
  | 0, _, data, s => (false, data, s)
  | fuel + 1, found, data, s =>
    match LineSource.next s with
    | (.error _, s) => (false, data, s)
    | (.ok line, s) =>
      let data := data ++ [line]
      if endP line then
        let found := found + 1
        if found = n_end then (true, data, s) else fromReLoop endP n_end fuel found data s
      else fromReLoop endP n_end fuel found data s

/-- `Block.from_re`, filewrapper.py:186-252.  `startP`/`endP` are `re.search(start, ·)` and
`re.search(end, ·)` as predicates. -/
def from_re [LineSource σ] (init_line : Str) (in_file : σ) (startP endP : Str → Bool)
    (n_end : Int := 1) (eof_possible : Bool := false) : PyM Block × σ :=
  let block := init in_file
  if !startP init_line then (.ok block, in_file)
  else
    match fromReLoop endP n_end (LineSource.bound in_file + 1) 0 [init_line] in_file with
    | (true, data, s) => (.ok { block with data := data }, s)
    | (false, data, s) =>
      if !eof_possible then (.error .osError, s)
      else (.ok { block with data := data }, s)

/-- The loop of `get_lines`, filewrapper.py:173-176, with fuel. -/
def getLinesLoop [LineSource σ] (n_lines : Int) :
    Nat → Int → List Str → σ → Bool × List Str × σ
  | 0, _, data, s => (false, data, s)
  | fuel + 1, i, data, s =>
    match LineSource.next s with
    | (.error _, s) => (false, data, s)
    | (.ok line, s) =>
      if i > n_lines then (true, data, s)
      else getLinesLoop n_lines fuel (i + 1) (data ++ [line]) s

/-- `Block.get_lines`, filewrapper.py:132-184. -/
def get_lines [LineSource σ] (in_file : σ) (n_lines : Int) (eof_possible : Bool := false) :
    PyM Block × σ :=
  let block := init in_file
  match getLinesLoop n_lines (LineSource.bound in_file + 1) 1 [] in_file with
  | (true, data, s) => (.ok { block with data := data }, s)
  | (false, data, s) =>
    if !eof_possible then (.error .osError, s)
    else (.ok { block with data := data }, s)

end Block
end Verif

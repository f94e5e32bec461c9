import Verif.Model.TypeConv
import Verif.Model.Utility
/-
castep_outputs/parsers/md_geom_file_parser.py and castep_outputs/tools/md_geom_parser.py.

Simplifications: positions of the text file are character positions (the cookie `tell` returns for
a text with one byte per character); the handle is a `FileWrapper` (`parse_md_geom_file` given a
`Block` is not modelled); the log messages are left out; the existence check, opening and closing of
the file (md_geom_parser.py:34-40, 208-210) are left out; a parser object is given the text of the
file, whose size is `st_size`.
-/
namespace Verif

/-- `TAG_ALIASES`, constants.py:22-30. -/
def TAG_ALIASES : List (Str × Str) :=
  [(py"E", py"energy"), (py"T", py"temperature"), (py"P", py"pressure"), (py"h", py"lattice_vectors"),
   (py"hv", py"lattice_velocity"), (py"S", py"stress"), (py"R", py"position"), (py"V", py"velocity"),
   (py"F", py"force")]

/-- `TAG_ALIASES` as keys. -/
def tagAliases : List (Key × Key) := TAG_ALIASES.map fun (a, b) => (.str a, .str b)

/-- A captured group as a value: `None` if the group took no part in the match. -/
def optStr : Option Str → PyVal
  | some s => .str s
  | none => .none

/-- `int(v)` of a captured group. -/
def intOfGroup : Option Str → PyM Int
  | some s => pyInt s
  | none => .error .typeError

/-- `atreg_to_index`, utility.py:149-187, on a match: the key `(spec, int(index))`. -/
def atreg_match (m : Match) : PyM Key := do
  let i ← intOfGroup (m.named (py"index"))
  return .tup [match m.named (py"spec") with | some s => .str s | none => .none, .int i]

namespace MdGeom

/-- The key of a captured tag. -/
def tagKey (m : Match) : Key := match m.named (py"tag") with | some s => .str s | none => .none

/-- `curr[tag].append(row)` for the `defaultdict(list)` `curr`. -/
def appendTo (curr : Dict Key PyVal) (tag : Key) (row : PyVal) : PyM (Dict Key PyVal) :=
  match curr.get? tag with
  | none => .ok (curr.set tag (.list [row]))
  | some (.list l) => .ok (curr.set tag (.list (l ++ [row])))
  | some _ => .error .attributeError

/-- `curr["ions"].setdefault(ion, {}); curr["ions"][ion][tag] = v`. -/
def setIon (curr : Dict Key PyVal) (ion tag : Key) (v : PyVal) : PyM (Dict Key PyVal) :=
  match curr.get? (.str (py"ions")) with
  | some (.dict ions) =>
    match Dict.get? ions ion with
    | none => .ok (curr.set (.str (py"ions")) (.dict (Dict.set ions ion (.dict (Dict.set [] tag v)))))
    | some (.dict d) => .ok (curr.set (.str (py"ions")) (.dict (Dict.set ions ion (.dict (Dict.set d tag v)))))
    | some _ => .error .typeError
  | _ => .error .typeError

/-- `[*to_type(get_numbers(line), float)]` -/
def rowOf (line : Str) : PyM PyVal := do
  match ← to_type .float (.list ((Res.get_numbers line).map .str)) with
  | .tuple l => return .list l
  | _ => .error .typeError

/-- `to_type(get_numbers(line)[0], float)` -/
def timeOf (line : Str) : PyM PyVal :=
  match Res.get_numbers line with
  | [] => .error .indexError
  | n :: _ => to_type .float (.str n)

/-- Body of the loop of `parse_md_geom_frame`, md_geom_file_parser.py:90-102. -/
def step (curr : Dict Key PyVal) (line : Str) : PyM (Dict Key PyVal) :=
  if (Str.strip line).isEmpty then .ok curr
  else
    match Res.TAG_RE.search line with
    | none => do
      let t ← timeOf line
      return curr.set (.str (py"time")) t
    | some tm =>
      match Res.ATOMIC_DATA_TAG.match_ line with
      | some m => do
        let ion ← atreg_match m
        let v ← to_type .float (.list (Res.FST_D.map fun d => optStr (m.named d)))
        setIon curr ion (tagKey m) v
      | none => do
        let row ← rowOf line
        appendTo curr (tagKey tm) row

/-- The loop of `parse_md_geom_frame`. -/
def steps : Dict Key PyVal → List Str → PyM (Dict Key PyVal)
  | curr, [] => .ok curr
  | curr, line :: rest => do
    let curr ← step curr line
    steps curr rest

/-- `add_aliases(ion, TAG_ALIASES)` for one entry of `curr["ions"]`. -/
def aliasVal : PyVal → PyVal
  | .dict d => .dict (add_aliases d tagAliases).2
  | v => v

/-- `for ion in curr["ions"].values(): add_aliases(ion, TAG_ALIASES)` -/
def aliasIons (curr : Dict Key PyVal) : Dict Key PyVal :=
  match curr.get? (.str (py"ions")) with
  | some (.dict ions) => curr.set (.str (py"ions")) (.dict (ions.map fun kv => (kv.1, aliasVal kv.2)))
  | _ => curr

/-- `parse_md_geom_frame`, md_geom_file_parser.py:73-108, on the lines of the block. -/
def parse_md_geom_frame (lines : List Str) : PyM PyVal := do
  let curr ← steps (Dict.set [] (.str (py"ions")) (.dict [])) lines
  return .dict (aliasIons (add_aliases curr tagAliases).2)

/-- `re.search("BEGIN header", line)` -/
def isBegin (line : Str) : Bool := ((rx (py"BEGIN header")).search line).isSome
/-- `re.search("END header", line)` -/
def isEnd (line : Str) : Bool := ((rx (py"END header")).search line).isSome
/-- `re.search("^$", line)` -/
def isEmptyLine (line : Str) : Bool := ((rx (py"^$")).search line).isSome

/-- `for line in f: if line.strip(): break`, md_geom_file_parser.py:124-127: the last line read. -/
def skipBlank : Nat → Str → FileWrapper → Str × FileWrapper
  | 0, line, w => (line, w)
  | fuel + 1, line, w =>
    match w.next with
    | (.error _, w) => (line, w)
    | (.ok line, w) => if (Str.strip line).isEmpty then skipBlank fuel line w else (line, w)

/-- `parse_header`, md_geom_file_parser.py:111-142. -/
def parse_header (w : FileWrapper) : PyM Str × FileWrapper :=
  let (line, w) := skipBlank (LineSource.bound w + 1) [] w
  match Block.from_re line w isBegin isEnd with
  | (.error e, w) => (.error e, w)
  | (.ok block, w) =>
    if block.truthy then
      let comment := Str.strip (block.remove_bounds 1 1).str
      match w.next with
      | (.error e, w) => (.error e, w)
      | (.ok line, w) => if (Str.strip line).isEmpty then (.ok comment, w) else (.ok comment, w.rewind)
    else (.ok [], w.rewind)

/-- The loop of `parse_md_geom_file`, md_geom_file_parser.py:174-176, with fuel. -/
def fileLoop : Nat → FileWrapper → List PyVal → PyM (List PyVal)
  | 0, _, acc => .ok acc
  | fuel + 1, w, acc =>
    match Block.from_re [] w (fun _ => true) isEmptyLine (eof_possible := true) with
    | (.error e, _) => .error e
    | (.ok block, w) =>
      if block.truthy then
        match parse_md_geom_frame block.data with
        | .error e => .error e
        | .ok v => fileLoop fuel w (acc ++ [v])
      else .ok acc

/-- `parse_md_geom_file`, md_geom_file_parser.py:146-182.  (`re.search("", "")` always matches.) -/
def parse_md_geom_file (text : Str) : PyM (List PyVal) :=
  match parse_header (FileWrapper.init ⟨text, 0⟩) with
  | (.error e, _) => .error e
  | (.ok _, w) => do
    let steps ← fileLoop (LineSource.bound w + 1) w []
    if steps.isEmpty then .error .valueError else return steps

end MdGeom

/-! ### The lazy reader -/

/-- `MDGeomParser`, md_geom_parser.py:19-70. -/
structure MDGeomParser where
  handle : FileWrapper
  comment : Str
  start : Nat
  startLine : Int
  frameLines : Int
  frameBytes : Nat
  len : Nat
  nextFrame : Option Int
  deriving DecidableEq, Repr

namespace MDGeomParser

/-- `while next(self._handle).strip(): pass`, md_geom_parser.py:47-48, with fuel. -/
def scanFrame : Nat → FileWrapper → PyM Unit × FileWrapper
  | 0, w => (.error .stopIteration, w)
  | fuel + 1, w =>
    match w.next with
    | (.error e, w) => (.error e, w)
    | (.ok line, w) => if (Str.strip line).isEmpty then (.ok (), w) else scanFrame fuel w

/-- `_go_to_frame` and `_get_index`, md_geom_parser.py:77-97, for `frame ≥ 0`. -/
def go_to_frame (p : MDGeomParser) (frame : Int) : MDGeomParser :=
  { p with
    handle := { p.handle with
      file := p.handle.file.seek (p.start + p.frameBytes * frame.toNat)
      lineno_ := p.startLine + frame * p.frameLines }
    nextFrame := if frame < p.len then some frame else none }

/-- `__init__`, md_geom_parser.py:31-70, for a file with this text.  The frame count
`int((st_size - start) / frame_bytes)` is the integer quotient (the float quotient is exact for
the files whose quotient is an integer below `2^53`; the warning for others is left out). -/
def init (text : Str) : PyM MDGeomParser :=
  match MdGeom.parse_header (FileWrapper.init ⟨text, 0⟩) with
  | (.error e, _) => .error e
  | (.ok comment, w) =>
    let start := w.tell
    let startLine := w.lineno_
    match scanFrame (LineSource.bound w + 1) w with
    | (.error e, _) => .error e
    | (.ok _, w) =>
      let frameLines := w.lineno_ - startLine - 1
      let frameBytes := w.tell - start
      let len := (text.length - start) / frameBytes
      .ok (go_to_frame ⟨w, comment, start, startLine, frameLines, frameBytes, len, none⟩ 0)

/-- `read_next`, md_geom_parser.py:155-172.  (`None < int` raises `TypeError`.) -/
def read_next (p : MDGeomParser) : PyM PyVal × MDGeomParser :=
  match Block.get_lines p.handle p.frameLines (eof_possible := true) with
  | (.error e, w) => (.error e, { p with handle := w })
  | (.ok block, w) =>
    let p := { p with handle := w }
    if block.truthy then
      match p.nextFrame with
      | none => (.error .typeError, p)
      | some k =>
        let p := { p with nextFrame := if k < (p.len : Int) - 1 then some (k + 1) else none }
        (MdGeom.parse_md_geom_frame block.data, p)
    else (.error .stopIteration, p)

/-- `get_frame`, md_geom_parser.py:99-126. -/
def get_frame (p : MDGeomParser) (frame : Int) : PyM PyVal × MDGeomParser :=
  if ¬(-(p.len : Int) ≤ frame ∧ frame < p.len) then (.error .indexError, p)
  else
    let frame := if frame < 0 then p.len + frame else frame
    let p := if some frame ≠ p.nextFrame then p.go_to_frame frame else p
    p.read_next

/-- `__getitem__` on an iterable of integers, md_geom_parser.py:198-200. -/
def get_frames (p : MDGeomParser) : List Int → PyM (List PyVal) × MDGeomParser
  | [] => (.ok [], p)
  | i :: l =>
    match p.get_frame i with
    | (.error e, p) => (.error e, p)
    | (.ok v, p) =>
      match p.get_frames l with
      | (.error e, p) => (.error e, p)
      | (.ok vs, p) => (.ok (v :: vs), p)

/-- `slice(start, stop, step).indices(n)` (CPython `PySlice_Unpack` and `PySlice_AdjustIndices`). -/
def sliceIndices (start stop step : Option Int) (n : Int) : PyM (Int × Int × Int) :=
  let step := step.getD 1
  if step = 0 then .error .valueError
  else
    let lower : Int := if step < 0 then -1 else 0
    let upper : Int := if step < 0 then n - 1 else n
    let adj (i : Int) : Int := if i < 0 then max (i + n) lower else min i upper
    let a := start.elim (if step < 0 then upper else lower) adj
    let b := stop.elim (if step < 0 then lower else upper) adj
    .ok (a, b, step)

/-- `list(range(a, b, step))` for `step ≠ 0`. -/
def pyRange (a b step : Int) : List Int :=
  let n : Int := if 0 < step then (b - a + step - 1) / step else (a - b - step - 1) / (-step)
  (List.range n.toNat).map fun k : Nat => a + (k : Int) * step

/-- `__getitem__` on a slice, md_geom_parser.py:202-206. -/
def get_slice (p : MDGeomParser) (start stop step : Option Int) : PyM (List PyVal) × MDGeomParser :=
  match sliceIndices start stop step p.len with
  | .error e => (.error e, p)
  | .ok (a, b, c) => p.get_frames (pyRange a b c)

/-- A generator returned by `__iter__`, md_geom_parser.py:138-153: not yet started, suspended at the
`yield` with this `i`, or finished. -/
inductive Gen
  | fresh
  | at (i : Int)
  | done
  deriving DecidableEq, Repr

/-- From the head of the `while` loop of `__iter__` to the next `yield`.  (A `StopIteration` escaping
the body of a generator becomes `RuntimeError`.) -/
def genLoop (p : MDGeomParser) (i : Int) : PyM PyVal × Gen × MDGeomParser :=
  if i < p.len then
    match p.get_frame i with
    | (.ok v, p) => (.ok v, .at i, p)
    | (.error .stopIteration, p) => (.error .runtimeError, .done, p)
    | (.error e, p) => (.error e, .done, p)
  else (.error .stopIteration, .done, p)

/-- `gen.send(trial)`; `next(gen)` is `gen.send(None)`. -/
def send (p : MDGeomParser) (g : Gen) (trial : Option Int) : PyM PyVal × Gen × MDGeomParser :=
  match g with
  | .done => (.error .stopIteration, .done, p)
  | .fresh =>
    match trial with
    | some _ => (.error .typeError, .fresh, p)
    | none => genLoop p 0
  | .at i => genLoop p (match trial with | some t => t | none => i + 1)

end MDGeomParser
end Verif

import Verif.Model.Header
/-
The parsers of tabular output files: parse_fmt_files.py, err_file_parser.py, hug_file_parser.py,
xrd_sf_file_parser.py, bands_file_parser.py, epme_file_parser.py.

Each takes the lines of the file (`@file_or_path` passes a plain handle, iterated line by line).
-/
namespace Verif

/-- A `defaultdict(list)` as a value. -/
def listDict (d : Dict Key (List PyVal)) : PyVal := .dict (d.map fun kv => (kv.1, .list kv.2))

/-! ### parse_fmt_files.py -/
namespace Fmt

/-- The loop of parse_fmt_files.py:78-79: the line ending the header and the lines after it. -/
def skipHeader : List Str → PyM (Str × List Str)
  | [] => .error .stopIteration
  | l :: ls => if Str.contains (py"END header") l then .ok (l, ls) else skipHeader ls

/-- `re.search(r'"([^"]+)"', line)`, parse_fmt_files.py:81. -/
def COLS_RE : Pat := rx (py r#""([^"]+)""#)

/-- `cols` and `prop`, parse_fmt_files.py:81-82.  (`len(cols)` is the length of the text; when it is at most
3, `cols[3]` raises, so `prop` is always a tuple.) -/
def columns (line : Str) : PyM (List Str) :=
  match COLS_RE.search line with
  | none => .error .attributeError
  | some m =>
    let cols := (m.group 1).getD []
    if cols.length > 3 then .ok ((Str.split cols).drop 3) else .error .indexError

/-- `dict(zip(prop, val, strict=True))` merged after `q`, parse_fmt_files.py:98. -/
def zipRow (prop : List Str) (q : PyVal) : PyVal → PyM (Dict Key PyVal)
  | .tuple vals =>
    if vals.length = prop.length then
      .ok (((prop.map Key.str).zip vals).foldl (fun d kv => Dict.set d kv.1 kv.2) [(.str (py"q"), q)])
    else .error .valueError
  | _ => .error .typeError

/-- One row, parse_fmt_files.py:94-98. -/
def row (prop : List Str) (line : Str) : PyM (Dict Key PyVal) := do
  let q ← to_type .int (strList ((Str.split line).take 3))
  let vals ← to_type .float (strList ((Str.split line).drop 3))
  zipRow prop q vals

/-- The loop over the rows, parse_fmt_files.py:86-98. -/
def rows (prop : List Str) : List Str → Dict Key (List PyVal) → PyM (Dict Key (List PyVal))
  | [], d => .ok d
  | line :: rest, d =>
    if (Str.strip line).isEmpty then rows prop rest d
    else do
      let r ← row prop line
      rows prop rest (stack_dict d r)

end Fmt

/-- `_parse_kpt_info`, parse_fmt_files.py:60-100. -/
def parse_kpt_info (lines : List Str) : PyM PyVal := do
  let (line, rest) ← Fmt.skipHeader lines
  let prop ← Fmt.columns line
  let d ← Fmt.rows prop rest []
  return listDict d

/-! ### err_file_parser.py -/
namespace ErrFile

/-- The loop of err_file_parser.py:35-36: the text before the trace and the lines after it. -/
def message : List Str → Str → PyM (Str × List Str)
  | [], _ => .error .stopIteration
  | l :: ls, acc => if Str.contains (py"Current trace stack") l then .ok (acc, ls) else message ls (acc ++ l)

end ErrFile

/-- `parse_err_file`, err_file_parser.py:18-42. -/
def parse_err_file (lines : List Str) : PyM PyVal := do
  let (msg, rest) ← ErrFile.message lines []
  return .dict [(.str (py"message"), .str (Str.strip msg)),
    (.str (py"stack"), .list (rest.map fun l => .str (Str.strip l)))]

/-! ### hug_file_parser.py -/
namespace Hug

/-- `cols`, hug_file_parser.py:42. -/
def cols : List Str := [py"compression", py"temperature", py"pressure", py"energy"]
/-- `labelled_floats(cols)`, hug_file_parser.py:45. -/
def ROW_RE : Pat := rx (Res.labelled_floats cols)

/-- The loop of hug_file_parser.py:44-46, for any pattern. -/
def rows (p : Pat) : List Str → Dict Key PyVal → PyM (Dict Key PyVal)
  | [], d => .ok d
  | line :: rest, d =>
    match p.search line with
    | none => rows p rest d
    | some m => do
      let d ← stackInto d (groupVals m)
      rows p rest d

end Hug

/-- `parse_hug_file`, hug_file_parser.py:27-49. -/
def parse_hug_file (lines : List Str) : PyM PyVal := do
  let d ← Hug.rows Hug.ROW_RE lines []
  let d ← fix_data_types d (Hug.cols.map fun c => (.str c, .float))
  return .dict d

/-! ### Patterns with labels read from the file -/

/-- An identifier (ASCII). -/
def isIdent : Str → Bool
  | [] => false
  | c :: cs => isWord c && !isDigit c && cs.all isWord

/-- `\s+?(?P<..>NUMBER)` as group `n`. -/
def labelledItem (n : Nat) : Re := .seq (.rep false 1 none (.set ⟨false, [.space], false⟩)) (.group n Res.NUMBER_RE.re)

/-- `re.compile(prefix + labelled_floats(labels))`, for a prefix with groups `pnames`.  Group names that are
not identifiers or not distinct raise `re.error`.  The compiled form is given directly, since the labels are
not known in advance; `labelledPat_eq` checks it against the pattern compiler on the labels of the
repository. -/
def labelledPat (pre : List Re) (pnames : List Str) (labels : List Str) : PyM Pat :=
  if (pnames ++ labels).all isIdent && (pnames ++ labels).Nodup then
    .ok ⟨ReParse.seqOf ((pre ++ (List.range labels.length).map fun i => labelledItem (pnames.length + i + 1)).reverse),
      (pnames ++ labels).zipIdx 1, (pnames ++ labels).length⟩
  else .error .reError

example : labelledPat [] [] Hug.cols = .ok Hug.ROW_RE := by decide +kernel

/-! ### xrd_sf_file_parser.py -/
namespace XrdSf

/-- `f"{head[3:-1]}_{head[0:2]}".lower()`, xrd_sf_file_parser.py:57. -/
def headName (h : Str) : Str := Str.lower ((h.drop 3).dropLast ++ py"_" ++ h.take 2)
/-- `head[:-3]`, xrd_sf_file_parser.py:58. -/
def stem (h : Str) : Str := h.take (h.length - 3)

/-- `(?P<qvec>(?:\s*{INTNUMBER_RE}){3})`, xrd_sf_file_parser.py:60. -/
def QVEC_RE : Pat := rx (py r"(?P<qvec>(?:\s*" ++ Res.INTNUMBER_s ++ py"){3})")

/-- `float(match[key])` -/
def floatOf (m : Match) (key : Str) : PyM F64 :=
  match (m.groupdict).get? key with
  | none => .error .keyError
  | some none => .error .typeError
  | some (some s) => pyFloat s

/-- The comprehension of xrd_sf_file_parser.py:66-68. -/
def parts (m : Match) : List Str → PyM (Dict Key PyVal)
  | [] => .ok []
  | h :: hs => do
    let re ← floatOf m (h ++ py"_re")
    let im ← floatOf m (h ++ py"_im")
    let d ← parts m hs
    return (.str h, .complex re im) :: d

/-- One line, xrd_sf_file_parser.py:65-69. -/
def row (p : Pat) (heads : List Str) (line : Str) : PyM (Dict Key PyVal) :=
  match p.match_ line with
  | none => .error .attributeError
  | some m => do
    let accum ← parts m heads
    let q ← to_type .int (strList (Str.split ((m.named (py"qvec")).getD [])))
    return Dict.set accum (.str (py"qvec")) q

/-- The loop of xrd_sf_file_parser.py:64-70. -/
def rows (p : Pat) (heads : List Str) : List Str → Dict Key (List PyVal) → PyM (Dict Key (List PyVal))
  | [], d => .ok d
  | line :: rest, d => do
    let r ← row p heads line
    rows p heads rest (stack_dict d r)

end XrdSf

/-- `parse_xrd_sf_file`, xrd_sf_file_parser.py:39-72.  `order` is the order in which the set `headers_wo` is
iterated. -/
def parse_xrd_sf_file (order : List Str → List Str) : List Str → PyM PyVal
  | [] => .error .stopIteration
  | first :: lines => do
    let headers := ((Str.split first).drop 3).map XrdSf.headName
    let heads := order (headers.map XrdSf.stem).eraseDups
    let p ← labelledPat [XrdSf.QVEC_RE.re] [py"qvec"] headers
    let d ← XrdSf.rows p heads lines []
    return listDict d

/-! ### bands_file_parser.py -/
namespace Bands

/-- `"({})".format("Fermi energy")`, parse_utilities.py:54 from bands_file_parser.py:66. -/
def EXTRA_RE : Pat := rx (py"(Fermi energy)")
/-- `REs.THREEVEC_RE` as the end of the header, bands_file_parser.py:65. -/
def THREEVEC_RE : Pat := rx Res.THREEVEC_s
/-- `^\s*{FNUMBER_RE}$`, bands_file_parser.py:87. -/
def EIG_RE : Pat := rx (py r"^\s*" ++ Res.FNUMBER_s ++ py"$")

/-- The variables of the loop: `bands_info["bands"]`, `qdata`, `accum` and `current`. -/
structure State where
  bands : List PyVal := []
  qdata : Dict Key PyVal := []
  accum : List Str := []
  current : Str := py"band"

/-- Finish a k-point, bands_file_parser.py:72-74 and 90-93. -/
def finish (s : State) : PyM (List PyVal) := do
  let v ← to_type .float (strList s.accum)
  let q := s.qdata.set (.str s.current) v
  let q := q.set (.str (py"spin_comp")) (.bool (q.mem (.str (py"band_down"))))
  return s.bands ++ [.dict q]

/-- bands_file_parser.py:71-76. -/
def flush (s : State) : PyM State :=
  if s.qdata.isEmpty then .ok s
  else do
    let bands ← finish s
    return { s with bands := bands, accum := [], current := py"band" }

/-- `{"qpt": to_type(qpt, float), "weight": float(weight)}`, bands_file_parser.py:77-78. -/
def kpoint (line : Str) : PyM (Dict Key PyVal) := do
  let (qpt, weight) ← unpack2StarLast (Str.split line)
  let q ← to_type .float (strList qpt)
  let w ← pyFloat weight
  return [(.str (py"qpt"), q), (.str (py"weight"), .float w)]

/-- `int(line.split()[2])`, bands_file_parser.py:81. -/
def spinOf (line : Str) : PyM Int :=
  match (Str.split line)[2]? with
  | none => .error .indexError
  | some w => pyInt w

/-- Body of the loop, bands_file_parser.py:70-88. -/
def step (s : State) (line : Str) : PyM State :=
  if Str.startsWith line (py"K-point") then do
    let s ← flush s
    let q ← kpoint line
    return { s with qdata := q }
  else if Str.startsWith line (py"Spin component") then do
    let c ← spinOf line
    if c ≠ 1 then do
      let v ← to_type .float (strList s.accum)
      return { s with qdata := s.qdata.set (.str (py"band_up")) v, accum := [], current := py"band_down" }
    else return s
  else if (EIG_RE.match_ (Str.strip line)).isSome then
    .ok { s with accum := s.accum ++ [Str.strip line] }
  else .ok s

/-- The loop, bands_file_parser.py:69-88. -/
def steps (s : State) : List Str → PyM State
  | [] => .ok s
  | l :: ls => do
    let s ← step s l
    steps s ls

/-- The end of the file, bands_file_parser.py:90-93. -/
def bands (s : State) : PyM (List PyVal) := if s.qdata.isEmpty then .ok s.bands else finish s

/-- `bands_info["bands"]` while reading: what the header left there.  A header that counts `bands` replaces
the list, and appending to it then raises. -/
def checkBands (info : Dict Key PyVal) (l : List PyVal) : PyM (Dict Key PyVal) :=
  match info.get? (.str (py"bands")) with
  | some (.list _) => .ok (info.set (.str (py"bands")) (.list l))
  | _ => if l.isEmpty then .ok info else .error .attributeError

end Bands

/-- `parse_bands_file`, bands_file_parser.py:45-95.  (If the header replaced the list of bands, the error is
raised here after the loop rather than at the first k-point.) -/
def parse_bands_file (lines : List Str) : PyM PyVal :=
  match Block.from_re [] lines (fun _ => true) (fun l => (Bands.THREEVEC_RE.search l).isSome) 3 with
  | (.error e, _) => .error e
  | (.ok block, rest) => do
    let data ← parse_regular_header Bands.EXTRA_RE block.rest
    let info := data.foldl (fun d kv => Dict.set d kv.1 kv.2) [(.str (py"bands"), .list [])]
    let s ← Bands.steps {} rest
    let l ← Bands.bands s
    let info ← Bands.checkBands info l
    return .dict info

/-! ### epme_file_parser.py -/
namespace Epme

/-- `next(epme_file)` -/
def nextLine : List Str → PyM (Str × List Str)
  | [] => .error .stopIteration
  | l :: ls => .ok (l, ls)

/-- `int(next(epme_file).rsplit(maxsplit=1)[1])` -/
def nextInt (ls : List Str) : PyM (PyVal × List Str) := do
  let (l, ls) ← nextLine ls
  let w ← lastWord l
  let i ← pyInt w
  return (.int i, ls)

/-- `float(next(epme_file).rsplit(maxsplit=1)[1])` -/
def nextFloat (ls : List Str) : PyM (PyVal × List Str) := do
  let (l, ls) ← nextLine ls
  let w ← lastWord l
  let x ← pyFloat w
  return (.float x, ls)

/-- `_parse_epme_header`, epme_file_parser.py:55-78. -/
def header (ls : List Str) : PyM (Dict Key PyVal × List Str) := do
  let (_, ls) ← nextLine ls
  let (version, ls) ← nextInt ls
  let (_, ls) ← nextLine ls
  let (volume, ls) ← nextFloat ls
  let (fermi, ls) ← nextFloat ls
  let (bands, ls) ← nextInt ls
  let (branches, ls) ← nextInt ls
  return ([(.str (py"version"), version), (.str (py"volume"), volume), (.str (py"fermi_energy"), fermi),
    (.str (py"n_bands"), bands), (.str (py"n_branches"), branches)], ls)

/-- `complex(*to_type(data[11:13], float))`: also `complex()` and `complex(x)`. -/
def complexOf : PyVal → PyM PyVal
  | .tuple [.float x, .float y] => .ok (.complex x y)
  | .tuple [.float x] => .ok (.complex x ⟨0⟩)
  | .tuple [] => .ok (.complex ⟨0⟩ ⟨0⟩)
  | _ => .error .typeError

/-- Unpack a tuple of three values. -/
def three : PyVal → PyM (PyVal × PyVal × PyVal)
  | .tuple [a, b, c] => .ok (a, b, c)
  | _ => .error .valueError

/-- Unpack a tuple of two values. -/
def two : PyVal → PyM (PyVal × PyVal)
  | .tuple [a, b] => .ok (a, b)
  | _ => .error .valueError

/-- One data line, epme_file_parser.py:107-113. -/
def row (kpts : PyVal × PyVal) (line : Str) : PyM PyVal := do
  let data := Str.split line
  let ints ← to_type .int (strList (data.take 3))
  let (ph, bi, bf) ← three ints
  let es ← to_type .float (strList ((data.drop 3).take 2))
  let (ei, ef) ← two es
  let v1 ← to_type .float (strList ((data.drop 5).take 3))
  let v2 ← to_type .float (strList ((data.drop 8).take 3))
  let c ← to_type .float (strList ((data.drop 11).take 2))
  let c ← complexOf c
  return .dict [(.str (py"kpt_i"), kpts.1), (.str (py"kpt_f"), kpts.2), (.str (py"ph_index"), ph),
    (.str (py"band_i"), bi), (.str (py"band_f"), bf), (.str (py"e_i"), ei), (.str (py"e_f"), ef),
    (.str (py"velocity"), .tuple [v1, v2]), (.str (py"e_p_matrix"), c)]

/-- `kpts[:3], kpts[3:]` -/
def splitKpts : PyVal → PyM (PyVal × PyVal)
  | .tuple l => .ok (.tuple (l.take 3), .tuple (l.drop 3))
  | _ => .error .typeError

/-- `kpts = to_type(get_numbers(line), float)`, epme_file_parser.py:102-103. -/
def kptLine (line : Str) : PyM (PyVal × PyVal) := do
  let v ← numbersOf line
  splitKpts v

/-- The loop, epme_file_parser.py:100-113, with fuel. -/
def loop : Nat → List Str → PyVal × PyVal → List PyVal → PyM (List PyVal)
  | 0, _, _, acc => .ok acc
  | _ + 1, [], _, acc => .ok acc
  | fuel + 1, line :: rest, kpts, acc =>
    if Str.startsWith line (py"Electron-Phonon coupling") then do
      let kpts ← kptLine line
      let (_, rest) ← nextLine rest
      loop fuel rest kpts acc
    else do
      let v ← row kpts line
      loop fuel rest kpts (acc ++ [v])

end Epme

/-- `parse_epme_file`, epme_file_parser.py:81-115. -/
def parse_epme_file (lines : List Str) : PyM PyVal := do
  let (h, rest) ← Epme.header lines
  let data ← Epme.loop (rest.length + 1) rest (.none, .none) []
  return .dict (h ++ [(.str (py"data"), .list data)])

end Verif

import Verif.Model.Tables
/-
The parsers of the output files made of blocks: elastic_file_parser.py, phonon_file_parser.py,
phonon_dos_file_parser.py, efield_file_parser.py, tddft_file_parser.py, ts_file_parser.py.

Each takes the lines of the file.
-/
namespace Verif

/-- `re.search(p, ·)` as a predicate. -/
def found (p : Pat) (line : Str) : Bool := (p.search line).isSome

/-- `block := Block.from_re(line, file, start, end)` as a condition: the block if it is true, and the lines
after it. -/
def tryBlock (startP endP : Str → Bool) (line : Str) (rest : List Str) (eof : Bool := false) :
    PyM (Option Block × List Str) :=
  match Block.from_re line rest startP endP 1 eof with
  | (.error e, _) => .error e
  | (.ok b, rest) => .ok (if b.truthy then some b else none, rest)

/-- `"()"`, the pattern of no extra options, parse_utilities.py:54: it matches everywhere. -/
def NO_EXTRA_RE : Pat := rx (py"()")

/-- `d.update(e)` -/
def updateDict (d e : Dict Key PyVal) : Dict Key PyVal := e.foldl (fun d kv => d.set kv.1 kv.2) d

def BEGIN_HEADER_RE : Pat := rx (py"BEGIN header")
def END_HEADER_RE : Pat := rx (py"END header")

/-- `d.pop("")` and `del d[""]` -/
def popEmpty (d : Dict Key PyVal) : PyM (Dict Key PyVal) :=
  if d.mem (.str []) then .ok (d.erase (.str [])) else .error .keyError

/-- `s.removesuffix(t)` -/
def removeSuffix (t s : Str) : Str := if Str.endsWith s t then s.take (s.length - t.length) else s

/-! ### elastic_file_parser.py -/
namespace Elastic

def BEGIN_STRAIN_RE : Pat := rx (py"BEGIN Internal Strain")
def BEGIN_RE : Pat := rx (py"BEGIN")
def END_RE : Pat := rx (py"END")

/-- `key` and `match["unit"]`, elastic_file_parser.py:44-45 and 57-58. -/
def title (line : Str) : PyM (Str × PyVal) :=
  match Res.ELASTIC_BLOCK_RE.match_ line with
  | none => .error .typeError
  | some m => .ok (removeSuffix (py"_xx_yy_zz_yz_zx_xy") (normalise_key ((m.named (py"key")).getD [])),
      optStr (m.named (py"unit")))

/-- The loop of elastic_file_parser.py:50-53. -/
def strainRows : List Str → Dict Key PyVal → PyM (Dict Key PyVal)
  | [], d => .ok d
  | line :: rest, d =>
    match Res.ELASTIC_INTERNAL_STRAIN_RE.match_ line with
    | none => .error .attributeError
    | some m => do
      let atom ← atreg_match m
      let v ← numbersOf line
      let d ← MdGeom.appendTo d atom v
      strainRows rest d

/-- The generator of elastic_file_parser.py:61-63. -/
def valRows : List Str → PyM (List PyVal)
  | [] => .ok []
  | line :: rest =>
    if (Res.get_numbers line).isEmpty then valRows rest
    else do
      let v ← numbersOf line
      let l ← valRows rest
      return v :: l

/-- `next(block)` of a block. -/
def first : List Str → PyM (Str × List Str)
  | [] => .error .stopIteration
  | l :: ls => .ok (l, ls)

/-- elastic_file_parser.py:44-53. -/
def strainBlock (b : Block) : PyM (Str × PyVal) := do
  let (l, _) ← first b.rest
  let (key, unit) ← title l
  let d ← strainRows (Block.sliceBounds b.data 0 1).tail [(.str (py"units"), unit)]
  return (key, .dict d)

/-- elastic_file_parser.py:57-63. -/
def valBlock (b : Block) : PyM (Str × PyVal) := do
  let (l, rest) ← first b.rest
  let (key, unit) ← title l
  let vals ← valRows rest
  return (key, .dict [(.str (py"units"), unit), (.str (py"val"), .tuple vals)])

/-- A block that is not a header, elastic_file_parser.py:42-63. -/
def other (line : Str) (rest : List Str) (accum : Dict Key PyVal) : PyM (Dict Key PyVal × List Str) := do
  match ← tryBlock (found BEGIN_STRAIN_RE) (found END_RE) line rest with
  | (some b, rest) => do
    let (k, v) ← strainBlock b
    return (accum.set (.str k) v, rest)
  | (none, rest) => do
    match ← tryBlock (found BEGIN_RE) (found END_RE) line rest with
    | (some b, rest) => do
      let (k, v) ← valBlock b
      return (accum.set (.str k) v, rest)
    | (none, rest) => return (accum, rest)

/-- The loop, elastic_file_parser.py:36-63, with fuel. -/
def loop : Nat → List Str → Dict Key PyVal → PyM (Dict Key PyVal)
  | 0, _, accum => .ok accum
  | _ + 1, [], accum => .ok accum
  | fuel + 1, line :: rest, accum => do
    match ← tryBlock (found BEGIN_HEADER_RE) (found END_HEADER_RE) line rest with
    | (some b, rest) => do
      let h ← parse_regular_header NO_EXTRA_RE b.rest
      let accum ← popEmpty (updateDict accum h)
      loop fuel rest accum
    | (none, rest) => do
      let (accum, rest) ← other line rest accum
      loop fuel rest accum

end Elastic

/-- `parse_elastic_file`, elastic_file_parser.py:19-65. -/
def parse_elastic_file (lines : List Str) : PyM PyVal := do
  let d ← Elastic.loop (lines.length + 1) lines []
  return .dict d

/-! ### phonon_file_parser.py -/
namespace Phonon

def QPT_RE : Pat := rx (py"q-pt")
def EIGENVECTORS_RE : Pat := rx (py"Phonon Eigenvectors")
def MODE_ION_RE : Pat := rx (py"Mode Ion")

/-- The variables of the loop; `qdata` and `eigenvectors_endblock` may be unbound. -/
structure State where
  info : Dict Key PyVal := []
  qdata : Option (Dict Key PyVal) := none
  endblock : Option Str := none

/-- `format(phonon_info[k], ">4")` -/
def format4 (info : Dict Key PyVal) (k : Str) : PyM Str :=
  match info.get? (.str k) with
  | some (.int n) => .ok (pad4 n)
  | _ => .error .typeError

/-- phonon_file_parser.py:71-75. -/
def header (s : State) (b : Block) : PyM State := do
  let h ← parse_regular_header NO_EXTRA_RE b.rest
  let info ← popEmpty (updateDict s.info h)
  let x ← format4 info (py"branches")
  let y ← format4 info (py"ions")
  return { s with info := info, endblock := some (x ++ y) }

/-- `float(line[a:b])` -/
def floatSlice (line : Str) (a b : Nat) : PyM PyVal := do
  let x ← pyFloat ((line.take b).drop a)
  return .float x

/-- `if line[a:b].strip(): qdata[key].append(float(line[a:b]))` -/
def optColumn (q : Dict Key PyVal) (key line : Str) (a b : Nat) : PyM (Dict Key PyVal) :=
  if (Str.strip ((line.take b).drop a)).isEmpty then .ok q
  else do
    let x ← floatSlice line a b
    MdGeom.appendTo q (.str key) x

/-- The loop of phonon_file_parser.py:97-106. -/
def freqRows : List Str → Dict Key PyVal → PyM (Dict Key PyVal)
  | [], q => .ok q
  | line :: rest, q => do
    let x ← floatSlice line 8 23
    let q ← MdGeom.appendTo q (.str (py"eigenvalues")) x
    let q ← optColumn q (py"ir_intensity") line 31 46
    let q ← optColumn q (py"raman_intensity") line 55 70
    freqRows rest q

/-- `qdata` of a q-point line, phonon_file_parser.py:81-88. -/
def qpoint (line : Str) : PyM (Dict Key PyVal) :=
  match Str.split line with
  | _ :: _ :: x :: y :: z :: w :: dir => do
    let q ← to_type .float (strList [x, y, z])
    let wt ← pyFloat w
    let d : Dict Key PyVal := [(.str (py"qpt"), q), (.str (py"weight"), .float wt)]
    if dir.isEmpty then return d
    else do
      let v ← to_type .float (strList dir)
      return d.set (.str (py"dir")) v
  | _ => .error .valueError

/-- `phonon_info[k]` for a count; a missing key gives the empty list of the `defaultdict`, which equals no
number. -/
def count (info : Dict Key PyVal) (k : Str) : Option Int :=
  match info.get? (.str k) with
  | some (.int n) => some n
  | _ => none

/-- phonon_file_parser.py:81-106. -/
def frequencies (s : State) (line : Str) (b : Block) : PyM State := do
  let q ← qpoint line
  if count s.info (py"branches") ≠ some ((b.data.length : Int) - 2) then .error .valueError
  else do
    let q ← freqRows (Block.sliceBounds b.data 1 1) q
    return { s with qdata := some q }

/-- `tuple(map(complex, ev[::2], ev[1::2]))` -/
def complexPairs : List PyVal → PyM (List PyVal)
  | .float x :: .float y :: l => do
    let l ← complexPairs l
    return .complex x y :: l
  | [] => .ok []
  | [_] => .ok []
  | _ => .error .typeError

/-- The complex numbers of a tuple of floats. -/
def complexTuple : PyVal → PyM PyVal
  | .tuple l => do
    let l ← complexPairs l
    return .tuple l
  | _ => .error .typeError

/-- One line of eigenvectors, phonon_file_parser.py:121-124. -/
def eigenRow (line : Str) : PyM PyVal :=
  match Str.split line with
  | _ :: _ :: ev => do
    let v ← to_type .float (strList ev)
    complexTuple v
  | _ => .error .valueError

/-- The loop of phonon_file_parser.py:120-124. -/
def eigenRows : List Str → Dict Key PyVal → PyM (Dict Key PyVal)
  | [], q => .ok q
  | line :: rest, q => do
    let v ← eigenRow line
    let q ← MdGeom.appendTo q (.str (py"eigenvectors")) v
    eigenRows rest q

/-- `phonon_info["branches"] * phonon_info["ions"]` -/
def expected (info : Dict Key PyVal) : Option Int :=
  match count info (py"branches"), count info (py"ions") with
  | some a, some b => some (a * b)
  | _, _ => none

/-- phonon_file_parser.py:112-126.  (`phonon_info["qpts"]` then refers to `qdata` itself; a second block of
eigenvectors for the same q-point would also change the entry already stored, which is not modelled.) -/
def eigenvectors (s : State) (b : Block) : PyM State :=
  if expected s.info ≠ some ((b.data.length : Int) - 1) then .error .valueError
  else
    match s.qdata with
    | none => .error .nameError
    | some q => do
      let q ← eigenRows (Block.sliceBounds b.data 1 0) q
      let info ← MdGeom.appendTo s.info (.str (py"qpts")) (.dict q)
      return { s with info := info, qdata := some q }

/-- A line that starts neither a header nor a q-point, phonon_file_parser.py:108-126.  The end pattern
consists of digits, blanks and signs, so searching for it is searching for the text. -/
def modes (s : State) (line : Str) (rest : List Str) : PyM (State × List Str) :=
  match s.endblock with
  | none => .error .nameError
  | some e => do
    match ← tryBlock (found MODE_ION_RE) (Str.contains e) line rest with
    | (some b, rest) => do
      let s ← eigenvectors s b
      return (s, rest)
    | (none, rest) => return (s, rest)

/-- The loop, phonon_file_parser.py:68-126, with fuel. -/
def loop : Nat → List Str → State → PyM State
  | 0, _, s => .ok s
  | _ + 1, [], s => .ok s
  | fuel + 1, line :: rest, s => do
    match ← tryBlock (found BEGIN_HEADER_RE) (found END_HEADER_RE) line rest with
    | (some b, rest) => do
      let s ← header s b
      loop fuel rest s
    | (none, rest) => do
      match ← tryBlock (found QPT_RE) (found EIGENVECTORS_RE) line rest with
      | (some b, rest) => do
        let s ← frequencies s line b
        loop fuel rest s
      | (none, rest) => do
        let (s, rest) ← modes s line rest
        loop fuel rest s

end Phonon

/-- `parse_phonon_file`, phonon_file_parser.py:44-128. -/
def parse_phonon_file (lines : List Str) : PyM PyVal := do
  let s ← Phonon.loop (lines.length + 1) lines {}
  return .dict s.info

/-! ### phonon_dos_file_parser.py -/
namespace Dos

def BEGIN_GRAD_RE : Pat := rx (py"BEGIN GRADIENTS")
def END_GRAD_RE : Pat := rx (py"END GRADIENTS")
def BEGIN_DOS_RE : Pat := rx (py"BEGIN DOS")
def END_DOS_RE : Pat := rx (py"END DOS")

/-- The types of phonon_dos_file_parser.py:94-98. -/
def gradTypes : List (Key × Ty) :=
  [(.str (py"qpt"), .float), (.str (py"pth"), .float), (.str (py"n"), .int), (.str (py"f"), .float),
   (.str (py"Grad_qf"), .float)]

/-- `fix(qdata); phonon_dos_info["gradients"].append(qdata)`, if there is data. -/
def flush (info q : Dict Key PyVal) : PyM (Dict Key PyVal) :=
  if q.isEmpty then .ok info
  else do
    let q ← fix_data_types q gradTypes
    MdGeom.appendTo info (.str (py"gradients")) (.dict q)

/-- `for key, val in match.groupdict().items(): qdata[key] = val.split()` -/
def qptOf (m : Match) : Dict Key PyVal :=
  m.groupdict.map fun kv => (.str kv.1, strList (Str.split (kv.2.getD [])))

/-- The loop of phonon_dos_file_parser.py:100-112. -/
def gradRows : List Str → Dict Key PyVal → Dict Key PyVal → PyM (Dict Key PyVal × Dict Key PyVal)
  | [], info, q => .ok (info, q)
  | line :: rest, info, q =>
    match Res.PHONON_PHONON_RE.match_ line with
    | some m => do
      let info ← flush info q
      gradRows rest info (qptOf m)
    | none =>
      match Res.PROCESS_PHONON_PHONON_RE.match_ line with
      | some m => do
        let q ← stackInto q (groupVals m)
        gradRows rest info q
      | none => gradRows rest info q

/-- phonon_dos_file_parser.py:91-116. -/
def gradients (info : Dict Key PyVal) (b : Block) : PyM (Dict Key PyVal) := do
  let (info, q) ← gradRows b.rest info []
  flush info q

/-- `headers`, phonon_dos_file_parser.py:124-125. -/
def headers (line : Str) : List Str := py"freq" :: py"g" :: (Str.split line).drop 5

/-- Rows all matched by `re.match`; a row that does not match raises. -/
def matchRows (p : Pat) : List Str → Dict Key PyVal → PyM (Dict Key PyVal)
  | [], d => .ok d
  | line :: rest, d =>
    match p.match_ line with
    | none => .error .attributeError
    | some m => do
      let d ← stackInto d (groupVals m)
      matchRows p rest d

/-- Convert and append a table, if there is data. -/
def putTable (info : Dict Key PyVal) (key : Str) (cols : List Str) (d : Dict Key PyVal) : PyM (Dict Key PyVal) :=
  if d.isEmpty then .ok info
  else do
    let d ← fix_data_types d (cols.map fun c => (.str c, .float))
    MdGeom.appendTo info (.str key) (.dict d)

/-- phonon_dos_file_parser.py:122-136. -/
def dos (info : Dict Key PyVal) (b : Block) : PyM (Dict Key PyVal) := do
  let cols := headers (b.data.headD [])
  let p ← labelledPat [] [] cols
  let d ← matchRows p (Block.sliceBounds b.data 1 2) []
  putTable info (py"dos") cols d

/-- A line that starts neither a header nor gradients. -/
def other (line : Str) (rest : List Str) (info : Dict Key PyVal) : PyM (Dict Key PyVal × List Str) := do
  match ← tryBlock (found BEGIN_DOS_RE) (found END_DOS_RE) line rest with
  | (some b, rest) => do
    let info ← dos info b
    return (info, rest)
  | (none, rest) => return (info, rest)

/-- The loop, phonon_dos_file_parser.py:83-136, with fuel. -/
def loop : Nat → List Str → Dict Key PyVal → PyM (Dict Key PyVal)
  | 0, _, info => .ok info
  | _ + 1, [], info => .ok info
  | fuel + 1, line :: rest, info => do
    match ← tryBlock (found BEGIN_HEADER_RE) (found END_HEADER_RE) line rest with
    | (some b, rest) => do
      let h ← parse_regular_header NO_EXTRA_RE b.rest
      loop fuel rest (updateDict info h)
    | (none, rest) => do
      match ← tryBlock (found BEGIN_GRAD_RE) (found END_GRAD_RE) line rest with
      | (some b, rest) => do
        let info ← gradients info b
        loop fuel rest info
      | (none, rest) => do
        let (info, rest) ← other line rest info
        loop fuel rest info

end Dos

/-- `parse_phonon_dos_file`, phonon_dos_file_parser.py:64-138. -/
def parse_phonon_dos_file (lines : List Str) : PyM PyVal := do
  let d ← Dos.loop (lines.length + 1) lines []
  return .dict d

/-! ### efield_file_parser.py -/
namespace Efield

def EXTRA_RE : Pat := rx (py"(Oscillator Q)")
def BEGIN_OSC_RE : Pat := rx (py"BEGIN Oscillator Strengths")
def END_OSC_RE : Pat := rx (py"END Oscillator Strengths")
def BEGIN_PERM_RE : Pat := rx (py"BEGIN permittivity")
def END_PERM_RE : Pat := rx (py"END permittivity")

/-- The columns, efield_file_parser.py:88 and 101. -/
def cols : List Str := py"freq" :: Res.SND_D
/-- efield_file_parser.py:84. -/
def OSC_RE : Pat := rx (py r"\s*(?P<freq>" ++ Res.INTNUMBER_s ++ py")" ++ Res.labelled_floats Res.SND_D)
/-- efield_file_parser.py:97. -/
def PERM_RE : Pat := rx (Res.labelled_floats cols)

/-- A table, efield_file_parser.py:81-89 and 94-102. -/
def table (p : Pat) (key : Str) (info : Dict Key PyVal) (b : Block) : PyM (Dict Key PyVal) := do
  let d ← Dos.matchRows p (Block.sliceBounds b.data 1 2) []
  Dos.putTable info key cols d

/-- A line that starts neither a header nor the oscillator strengths. -/
def other (line : Str) (rest : List Str) (info : Dict Key PyVal) : PyM (Dict Key PyVal × List Str) := do
  match ← tryBlock (found BEGIN_PERM_RE) (found END_PERM_RE) line rest with
  | (some b, rest) => do
    let info ← table PERM_RE (py"permittivity") info b
    return (info, rest)
  | (none, rest) => return (info, rest)

/-- The loop, efield_file_parser.py:71-102, with fuel. -/
def loop : Nat → List Str → Dict Key PyVal → PyM (Dict Key PyVal)
  | 0, _, info => .ok info
  | _ + 1, [], info => .ok info
  | fuel + 1, line :: rest, info => do
    match ← tryBlock (found BEGIN_HEADER_RE) (found END_HEADER_RE) line rest with
    | (some b, rest) => do
      let h ← parse_regular_header EXTRA_RE b.rest
      loop fuel rest (updateDict info h)
    | (none, rest) => do
      match ← tryBlock (found BEGIN_OSC_RE) (found END_OSC_RE) line rest with
      | (some b, rest) => do
        let info ← table OSC_RE (py"oscillator_strengths") info b
        loop fuel rest info
      | (none, rest) => do
        let (info, rest) ← other line rest info
        loop fuel rest info

end Efield

/-- `parse_efield_file`, efield_file_parser.py:51-104. -/
def parse_efield_file (lines : List Str) : PyM PyVal := do
  let d ← Efield.loop (lines.length + 1) lines []
  return .dict d

/-! ### tddft_file_parser.py -/
namespace Tddft

def EXTRA_RE : Pat := rx (py"(Higest occupied band)")
def BEGIN_STATES_RE : Pat := rx (py"BEGIN Characterisation of states as Kohn-Sham bands")
def END_STATES_RE : Pat := rx (py"END Characterisation of states as Kohn-Sham bands")
def BEGIN_SPEC_RE : Pat := rx (py"BEGIN TDDFT Spectroscopic Data")
def END_SPEC_RE : Pat := rx (py"END TDDFT Spectroscopic Data")
def TOTAL_RE : Pat := rx (py r"\s*Total overlap for state")
/-- tddft_file_parser.py:88-90. -/
def SPEC_RE : Pat :=
  rx (py r"\s*\d+\s*" ++ Res.labelled_floats [py"energy"] ++ py r"\s*(?P<characterisation>\w+)\s*" ++
    py r"(?P<converged>Yes|No)\s*(?P<dipoles>.*)")

/-- `curr[int(occ), int(unocc)] = float(overlap)` -/
def state (m : Match) : PyM (Key × PyVal) := do
  let x ← pyFloat ((m.named (py"overlap")).getD [])
  let a ← pyInt ((m.named (py"occ")).getD [])
  let b ← pyInt ((m.named (py"unocc")).getD [])
  return (.tup [.int a, .int b], .float x)

/-- `float(get_numbers(blk_line)[-1])` -/
def total (line : Str) : PyM PyVal :=
  match (Res.get_numbers line).getLast? with
  | none => .error .indexError
  | some w => do
    let x ← pyFloat w
    return .float x

/-- The loop of tddft_file_parser.py:72-79. -/
def overlaps : List Str → Dict Key PyVal → List PyVal → PyM (List PyVal)
  | [], _, out => .ok out
  | line :: rest, curr, out =>
    match Res.TDDFT_STATE_RE.match_ line with
    | some m => do
      let (k, v) ← state m
      overlaps rest (curr.set k v) out
    | none =>
      if (TOTAL_RE.match_ line).isSome then do
        let t ← total line
        overlaps rest [] (out ++ [.dict (curr.set (.str (py"total")) t)])
      else overlaps rest curr out

/-- `list(map(complex, dip[0::2], dip[1::2]))` -/
def dipoles (s : Str) : PyM PyVal := do
  match ← numbersOf s with
  | .tuple l => do
    let l ← Phonon.complexPairs l
    return .list l
  | _ => .error .typeError

/-- One line of spectroscopic data, tddft_file_parser.py:92-100. -/
def spec (m : Match) : PyM PyVal := do
  let e ← pyFloat ((m.named (py"energy")).getD [])
  let dip ← dipoles ((m.named (py"dipoles")).getD [])
  return .dict [(.str (py"energy"), .float e), (.str (py"characterisation"), optStr (m.named (py"characterisation"))),
    (.str (py"converged"), .bool (m.named (py"converged") == some (py"Yes"))), (.str (py"dipoles"), dip)]

/-- The loop of tddft_file_parser.py:87-100. -/
def specs : List Str → PyM (List PyVal)
  | [] => .ok []
  | line :: rest =>
    match SPEC_RE.match_ line with
    | none => specs rest
    | some m => do
      let v ← spec m
      let l ← specs rest
      return v :: l

/-- A line that starts neither a header nor the characterisation of states. -/
def other (line : Str) (rest : List Str) (info : Dict Key PyVal) : PyM (Dict Key PyVal × List Str) := do
  match ← tryBlock (found BEGIN_SPEC_RE) (found END_SPEC_RE) line rest with
  | (some b, rest) => do
    let l ← specs b.rest
    return (info.set (.str (py"spectroscopic_data")) (.list l), rest)
  | (none, rest) => return (info, rest)

/-- The loop, tddft_file_parser.py:60-100, with fuel. -/
def loop : Nat → List Str → Dict Key PyVal → PyM (Dict Key PyVal)
  | 0, _, info => .ok info
  | _ + 1, [], info => .ok info
  | fuel + 1, line :: rest, info => do
    match ← tryBlock (found BEGIN_HEADER_RE) (found END_HEADER_RE) line rest with
    | (some b, rest) => do
      let h ← parse_regular_header EXTRA_RE b.rest
      loop fuel rest (updateDict info h)
    | (none, rest) => do
      match ← tryBlock (found BEGIN_STATES_RE) (found END_STATES_RE) line rest with
      | (some b, rest) => do
        let l ← overlaps b.rest [] []
        loop fuel rest (info.set (.str (py"overlap")) (.list l))
      | (none, rest) => do
        let (info, rest) ← other line rest info
        loop fuel rest info

end Tddft

/-- `parse_tddft_file`, tddft_file_parser.py:43-102. -/
def parse_tddft_file (lines : List Str) : PyM PyVal := do
  let d ← Tddft.loop (lines.length + 1) lines []
  return .dict d

/-! ### ts_file_parser.py -/
namespace Ts

def START_RE : Pat := rx (py"(REA|PRO|TST)")
def EMPTY_RE : Pat := rx (py r"^\s*$")
/-- ts_file_parser.py:77-78. -/
def TITLE_RE : Pat :=
  rx (py r"\s*(?P<type>REA|PRO|TST)\s*\d+\s*" ++ Res.labelled_floats [py"reaction_coordinate"])
/-- `TS_TYPES`, constants.py:33-35. -/
def TS_TYPES : List (Str × Str) := [(py"REA", py"reagent"), (py"PRO", py"product"), (py"TST", py"test")]

/-- `curr[ion][tag] = v; add_aliases(curr[ion], TAG_ALIASES)`, ts_file_parser.py:84-89. -/
def setIon (curr : Dict Key PyVal) (ion tag : Key) (v : PyVal) : PyM (Dict Key PyVal) :=
  match curr.get? ion with
  | none => .ok (curr.set ion (.dict (add_aliases (Dict.set [] tag v) tagAliases).2))
  | some (.dict d) => .ok (curr.set ion (.dict (add_aliases (Dict.set d tag v) tagAliases).2))
  | some _ => .error .typeError

/-- Body of the loop, ts_file_parser.py:83-92. -/
def step (curr : Dict Key PyVal) (line : Str) : PyM (Dict Key PyVal) :=
  match Res.ATOMIC_DATA_TAG.search line with
  | some m => do
    let ion ← atreg_match m
    let v ← to_type .float (.list (Res.FST_D.map fun d => optStr (m.named d)))
    setIon curr ion (MdGeom.tagKey m) v
  | none =>
    match Res.TAG_RE.search line with
    | some m => do
      let row ← MdGeom.rowOf line
      MdGeom.appendTo curr (MdGeom.tagKey m) row
    | none => .ok curr

/-- The loop of ts_file_parser.py:82-92. -/
def steps : Dict Key PyVal → List Str → PyM (Dict Key PyVal)
  | curr, [] => .ok curr
  | curr, line :: rest => do
    let curr ← step curr line
    steps curr rest

/-- `key` and the reaction coordinate, ts_file_parser.py:77-80. -/
def title (line : Str) : PyM (Str × PyVal) :=
  match TITLE_RE.match_ line with
  | none => .error .typeError
  | some m =>
    match Dict.get? TS_TYPES ((m.named (py"type")).getD []) with
    | none => .error .keyError
    | some key => do
      let v ← to_type .float (optStr (m.named (py"reaction_coordinate")))
      return (key, v)

/-- ts_file_parser.py:76-95. -/
def structure_ (line : Str) (b : Block) : PyM (Str × PyVal) := do
  let (key, v) ← title line
  let curr ← steps [(.str (py"reaction_coordinate"), v)] b.rest
  return (key, .dict (add_aliases curr tagAliases).2)

/-- The loop, ts_file_parser.py:71-95, with fuel. -/
def loop : Nat → List Str → Dict Key PyVal → PyM (Dict Key PyVal)
  | 0, _, accum => .ok accum
  | _ + 1, [], accum => .ok accum
  | fuel + 1, line :: rest, accum =>
    if Str.contains (py"TSConfirmation") line then
      loop fuel rest (accum.set (.str (py"confirmation")) (.bool true))
    else do
      match ← tryBlock (found START_RE) (found EMPTY_RE) line rest true with
      | (some b, rest) => do
        let (key, v) ← structure_ line b
        let accum ← MdGeom.appendTo accum (.str key) v
        loop fuel rest accum
      | (none, rest) => loop fuel rest accum

end Ts

/-- `parse_ts_file`, ts_file_parser.py:54-97. -/
def parse_ts_file (lines : List Str) : PyM PyVal := do
  let d ← Ts.loop (lines.length + 1) lines []
  return .dict d

end Verif

import Verif.Model.MdGeom
import Verif.Py.Text
/-
castep_outputs/parsers/cell_param_file_parser.py.

The handle `file_or_path` opens is a plain text file that is only iterated over: it is modelled by the
list of lines it has still to yield.  Log messages are left out.
-/
namespace Verif

/-- A plain text file being iterated over: the lines left. -/
instance : LineSource (List Str) where
  next
    | [] => (.error .stopIteration, [])
    | l :: ls => (.ok l, ls)
  lineno _ := 0
  bound l := l.length

/-- The lines `for line in block` yields. -/
def Block.rest (b : Block) : List Str := b.data.drop b.p_

/-- A one-value unpacking `a, b = l`. -/
def unpack2 : List α → PyM (α × α)
  | [a, b] => .ok (a, b)
  | _ => .error .valueError

/-- A `groupdict` as a dictionary of values. -/
def groupVals (m : Match) : Dict Key PyVal := m.groupdict.map fun kv => (.str kv.1, optStr kv.2)

namespace Cell

/-- `re.match(r"^\s*%endblock", line, re.IGNORECASE)` -/
def END_RE : Pat := rx (ci := true) (py r"^\s*%endblock")
/-- The start pattern of cell_param_file_parser.py:141. -/
def START_RE : Pat := rx (ci := true) (py r"^\s*%block ")
/-- `r"[#!]"` -/
def COMMENT_RE : Pat := rx (py r"[#!]")
/-- The pattern of `_get_block_units`, cell_param_file_parser.py:107. -/
def UNITS_RE : Pat := rx (py r"^\s*(\S+)\s*$")

/-- `re.match` of the end pattern. -/
def isEnd (line : Str) : Bool := (END_RE.search line).isSome
/-- `re.search` of the start pattern. -/
def isStart (line : Str) : Bool := (START_RE.search line).isSome

/-- `_get_block_units`, cell_param_file_parser.py:89-113. -/
def get_block_units (block : Block) (default : Str) : PyM Str × Block :=
  match block.next with
  | (.error e, block) => (.error e, block)
  | (.ok test, block) =>
    match UNITS_RE.match_ test with
    | some m => (.ok ((m.group 1).getD []), block)
    | none =>
      match block.rewind with
      | (.error e, block) => (.error e, block)
      | (.ok _, block) => (.ok default, block)

/-! ### Pseudopotential strings -/

/-- `f"[{REs.PROJ_TYPES}][^{REs.PROJ_TYPES}]*"`, cell_param_file_parser.py:217. -/
def PROJ_RE : Pat := rx (py"[" ++ Res.PROJ_TYPES ++ py"][^" ++ Res.PROJ_TYPES ++ py"]*")

/-- The elements of a list, in order. -/
def mapM' (f : α → PyM β) : List α → PyM (List β)
  | [] => .ok []
  | a :: l => do
    let b ← f a
    let bs ← mapM' f l
    return b :: bs

/-- One turn of the loop of `_parse_beta_function`, cell_param_file_parser.py:218-231. -/
def projector (debug : Bool) (p : Str) : PyM PyVal :=
  match Res.PSPOT_PROJ_RE.match_ p with
  | none => .error .valueError
  | some m => do
    let d := groupVals m
    let d := if debug then d
      else strip_nones d (some [.str (py"beta_delta"), .str (py"beta_e"), .str (py"beta_rc")])
    let d ← fix_data_types d
      [(.str (py"beta_delta"), .float), (.str (py"beta_e"), .float), (.str (py"beta_rc"), .float)]
    return .dict d

/-- The loop of `_parse_beta_function`, cell_param_file_parser.py:217-231. -/
def projectors (debug : Bool) : List Str → PyM (List PyVal) := mapM' (projector debug)

/-- `int(string[i])` -/
def intAt (s : Str) (i : Nat) : PyM Int :=
  match s[i]? with
  | none => .error .indexError
  | some c => pyInt [c]

/-- `_parse_beta_function`, cell_param_file_parser.py:180-241. -/
def parse_beta_function (string : Str) (debug : Bool := false) : PyM PyVal := do
  let ps ← projectors debug (PROJ_RE.findall (string.drop 2))
  let orbital ← intAt string 0
  let i ← intAt string 1
  match Res.SHELLS[i.toNat]? with
  | none => .error .indexError
  | some shell =>
    return .dict [(.str (py"orbital"), .int orbital), (.str (py"shell"), .str shell),
      (.str (py"shell_ind"), .int i), (.str (py"projectors"), .list ps)]

/-- `re.sub(r"^([^|]*)-([^|]*)\|", r"\g<1>\g<2>|", string, count=1)`, cell_param_file_parser.py:274. -/
def dropPolyfit (string : Str) : Str :=
  match (rx (py r"^([^|]*)-([^|]*)\|")).match_ string with
  | none => string
  | some m => (m.group 1).getD [] ++ (m.group 2).getD [] ++ py"|" ++ m.after

/-- One turn of the loop over adjustment, testing and flags, cell_param_file_parser.py:276-291. -/
def pspotPart (pspot : Dict Key PyVal) (string label : Str) (mark : Nat) (regex : Pat) :
    PyM (Dict Key PyVal × Str) :=
  if mark ∈ string then
    match regex.search string with
    | none => .error .valueError
    | some m =>
      .ok (pspot.set (.str label) (.list ((Str.splitC (c!",") ((m.group 1).getD [])).map .str)),
        m.before ++ m.after)
  else .ok (pspot.set (.str label) .none, string)

/-- The conversions of cell_param_file_parser.py:312-324. -/
def pspotTypes : List (Key × Ty) :=
  [(.str (py"beta_radius"), .float), (.str (py"coarse"), .float), (.str (py"core_radius"), .float),
   (.str (py"fine"), .float), (.str (py"local_channel"), .float), (.str (py"local_energy"), .float),
   (.str (py"medium"), .float), (.str (py"r_inner"), .float)]

/-- `_parse_pspot_string`, cell_param_file_parser.py:244-325. -/
def parse_pspot_string (string : Str) (debug : Bool := false) : PyM PyVal := do
  let pspot : Dict Key PyVal :=
    [(.str (py"print"), .bool (decide (c!"[" ∈ string))),
     (.str (py"poly_fit"), .bool (decide (c!"-" ∈ Str.uptoFind (c!"|") string))),
     (.str (py"beta_functions"), .list []), (.str (py"string"), .str string)]
  let string := dropPolyfit string
  let (pspot, string) ← pspotPart pspot string (py"adjustment") (c!"{") Res.PSPOT_ADJ_RE
  let (pspot, string) ← pspotPart pspot string (py"testing") (c!"[") Res.PSPOT_TEST_RE
  let (pspot, string) ← pspotPart pspot string (py"flags") (c!"(") Res.PSPOT_FLAG_RE
  match Res.PSPOT_INFO_RE.match_ string with
  | none => .error .valueError
  | some m =>
    let pspot := (groupVals m).foldl (fun d kv => d.set kv.1 kv.2) pspot
    let string := m.before ++ m.after
    let pspot := pspot.set (.str (py"beta_function_string")) (.str string)
    let bfs ← mapM' (parse_beta_function (debug := debug)) (Str.splitC (c!":") string)
    let pspot := pspot.set (.str (py"beta_functions")) (.list bfs)
    let pspot := if debug then pspot
      else strip_nones pspot (some [.str (py"local_energy"), .str (py"beta_radius"), .str (py"r_inner"),
        .str (py"adjustment"), .str (py"testing"), .str (py"flags")])
    let pspot ← fix_data_types pspot pspotTypes
    return .dict pspot

/-! ### devel_code -/

/-- `re.IGNORECASE` versions of the two patterns, and the plain one of the remainder. -/
def DEVEL_BLOCK_RE : Pat := rx (ci := true) Res.DEVEL_CODE_BLOCK_GENERIC_s
def DEVEL_VAL_CI_RE : Pat := rx (ci := true) Res.DEVEL_CODE_VAL_s
def DEVEL_VAL_RE : Pat := rx Res.DEVEL_CODE_VAL_s
/-- `r"[:=]"` -/
def COLON_EQ_RE : Pat := rx (py r"[:=]")
/-- `present_code_re`, cell_param_file_parser.py:387-391. -/
def PRESENT_RE : Pat := rx (py r"(?<![:=])\b[A-Za-z_-]+\b(?![:=])")

/-- `key, val = re.split(r"[:=]", text)` with the key normalised and the value converted. -/
def develPair (text : Str) : PyM (Str × PyVal) := do
  let (key, val) ← unpack2 (COLON_EQ_RE.split text)
  let v ← to_type (determine_type val) (.str val)
  return (normalise_key key, v)

/-- The loop over the settings of a sub-block, cell_param_file_parser.py:354-359: the block and what is left
of the text. -/
def develVals : List Match → Dict Key PyVal → Str → PyM (Dict Key PyVal × Str)
  | [], block, rest => .ok (block, rest)
  | m :: ms, block, rest => do
    let (key, v) ← develPair m.whole
    develVals ms (block.set (.str key) v) (Str.replace m.whole [] rest)

/-- The loop over the sub-blocks, cell_param_file_parser.py:350-373. -/
def develBlocks : List Match → Dict Key PyVal → Str → PyM (Dict Key PyVal × Str)
  | [], d, main => .ok (d, main)
  | m :: ms, d, main => do
    let title := Key.str (normalise_key ((m.group 1).getD []))
    match (Str.splitC (c!":") m.whole)[1]? with
    | none => .error .indexError
    | some str =>
      let (block, rest) ← develVals (DEVEL_VAL_CI_RE.finditer str) [] str
      let block ← if (Str.strip rest).isEmpty then .ok block else do
        let data ← mapM' (fun p => to_type (determine_type p) (.str p)) (Str.split rest)
        .ok (block.set (.str (py"data")) (.list data))
      let d ← match d.get? title with
        | some (.dict old) => .ok (d.set title (.dict (block.foldl (fun d kv => Dict.set d kv.1 kv.2) old)))
        | some _ => .error .attributeError
        | none => .ok (d.set title (.dict block))
      develBlocks ms d (Str.replace m.whole [] main)

/-- A key that does not collide, cell_param_file_parser.py:381-382. -/
def fresh (d : Dict Key PyVal) (key : Str) : Key := if d.mem (.str key) then .str (py"_" ++ key) else .str key

/-- The loop over the remaining settings, cell_param_file_parser.py:376-384. -/
def develRest : List Match → Dict Key PyVal → PyM (Dict Key PyVal)
  | [], d => .ok d
  | m :: ms, d => do
    let (key, v) ← develPair m.whole
    develRest ms (d.set (fresh d key) v)

/-- The loop over the bare words, cell_param_file_parser.py:393-399. -/
def develPresent (ms : List Match) (d : Dict Key PyVal) : Dict Key PyVal :=
  ms.foldl (fun d m => d.set (fresh d (normalise_key m.whole)) .none) d

/-- `_parse_devel_code_block`, cell_param_file_parser.py:328-401. -/
def parse_devel_code_block (b : Block) : PyM PyVal := do
  let main := Str.join (py" ") (b.rest.map Str.strip)
  let main := (rx (ci := true) (py r"%endblock\s+devel_code")).sub [] main
  let (d, main) ← develBlocks (DEVEL_BLOCK_RE.finditer main) [] main
  let d ← develRest (DEVEL_VAL_RE.finditer main) d
  return .dict (develPresent (PRESENT_RE.finditer main) d)

/-! ### Constraints -/

/-- The loop of `_parse_ionic_constraints`, cell_param_file_parser.py:420-424. -/
def ionicLoop : List Str → Dict Key PyVal → PyM (Dict Key PyVal)
  | [], d => .ok d
  | line :: l, d =>
    match Res.IONIC_CONSTRAINTS_RE.match_ line with
    | none => ionicLoop l d
    | some m => do
      let ind ← atreg_match m
      let elem ← to_type .float (.list ((Str.split ((m.named (py"val")).getD [])).map .str))
      let d ← MdGeom.appendTo d ind elem
      ionicLoop l d

/-- `_parse_ionic_constraints`, cell_param_file_parser.py:404-426. -/
def parse_ionic_constraints (b : Block) : PyM PyVal := do
  let d ← ionicLoop b.rest []
  return .dict d

/-- The comprehension of cell_param_file_parser.py:452-455. -/
def atomsOf : List Match → Dict Key PyVal → PyM (Dict Key PyVal)
  | [], d => .ok d
  | m :: ms, d => do
    let k ← atreg_match m
    let v ← to_type .int (.tuple (Res.FST_D.map fun x => optStr (m.named x)))
    atomsOf ms (d.set k v)

/-- The loop of `_parse_nonlinear_constraints`, cell_param_file_parser.py:445-457. -/
def nonlinearLoop : List Str → PyM (List PyVal)
  | [] => .ok []
  | line :: l =>
    if isEnd line then nonlinearLoop l
    else do
      let (key, line) ← unpack2 (Str.split1 line)
      let atoms ← atomsOf (Res.ATOMIC_DATA_3VEC.finditer line) []
      let r ← nonlinearLoop l
      return .dict [(.str (py"key"), .str key), (.str (py"atoms"), .dict atoms)] :: r

/-- `_parse_nonlinear_constraints`, cell_param_file_parser.py:429-459. -/
def parse_nonlinear_constraints (b : Block) : PyM PyVal := do
  let l ← nonlinearLoop b.rest
  return .list l

/-! ### Positions -/

/-- The entry for a position line, cell_param_file_parser.py:487-498. -/
def positionInfo (units : Option Str) (line : Str) (m : Match) : PyM (Dict Key PyVal) := do
  let pos ← to_type .float (.list ((Str.split ((m.named (py"pos")).getD [])).map .str))
  let info : Dict Key PyVal := [(.str (py"pos"), pos)]
  let info := match units with
    | some u => info.set (.str (py"units")) (.str u)
    | none => info
  let info ← match Res.POSITIONS_SPIN_RE.search line with
    | some m => do
      let v ← to_type .float (optStr (m.named (py"spin")))
      .ok (info.set (.str (py"spin")) v)
    | none => .ok info
  match Res.POSITIONS_MIXTURE_RE.search line with
  | some m => do
    let a ← to_type .int (optStr (m.named (py"mix")))
    let b ← to_type .float (optStr (m.named (py"ratio")))
    return (info.set (.str (py"mix_index")) a).set (.str (py"weight")) b
  | none => return info

/-- The loop of `_parse_positions`, cell_param_file_parser.py:481-500, for the given position pattern; `count`
is the `Counter`. -/
def positionsLoopWith (p : Pat) (units : Option Str) :
    List Str → Dict Str Nat → Dict Key PyVal → PyM (Dict Key PyVal)
  | [], _, accum => .ok accum
  | line :: l, count, accum =>
    match p.match_ line with
    | none => positionsLoopWith p units l count accum
    | some m => do
      let spec := (m.named (py"spec")).getD []
      let n := (count.get? spec).getD 0 + 1
      let info ← positionInfo units line m
      positionsLoopWith p units l (count.set spec n)
        (accum.set (.tup [.str spec, .int n]) (.dict info))

/-- The loop of `_parse_positions`. -/
def positionsLoop (units : Option Str) : List Str → Dict Str Nat → Dict Key PyVal → PyM (Dict Key PyVal) :=
  positionsLoopWith Res.POSITIONS_LINE_RE units

/-- `_parse_positions`, cell_param_file_parser.py:462-502. -/
def parse_positions (absolute : Bool) (b : Block) : PyM PyVal :=
  if absolute then
    match get_block_units b (py"Ang") with
    | (.error e, _) => .error e
    | (.ok units, b) => do
      let d ← positionsLoop (some units) b.rest [] []
      return .dict d
  else do
    let d ← positionsLoop none b.rest [] []
    return .dict d

/-! ### Other blocks -/

/-- `rf"^\s*({REs.ATOM_NAME_RE})\s*(\d+)?"`, cell_param_file_parser.py:525. -/
def HUBBARD_RE : Pat := rx (py r"^\s*(" ++ Res.ATOM_NAME_s ++ py r")\s*(\d+)?")

/-- `{key: to_type(val, determine_type(val)) for key, val in REs.COLON_SEP_RE.findall(line)}` -/
def colonPairs : List Match → Dict Key PyVal → PyM (Dict Key PyVal)
  | [], d => .ok d
  | m :: ms, d => do
    let val := (m.named (py"val")).getD []
    let v ← to_type (determine_type val) (.str val)
    colonPairs ms (d.set (.str ((m.named (py"key")).getD [])) v)

/-- The loop of `_parse_hubbard_u`, cell_param_file_parser.py:521-531. -/
def hubbardLoop : List Str → Dict Key PyVal → PyM (Dict Key PyVal)
  | [], d => .ok d
  | line :: l, d =>
    if isEnd line then hubbardLoop l d
    else
      match HUBBARD_RE.match_ line with
      | none => hubbardLoop l d
      | some m => do
        let spec ← match m.group 2 with
          | some i => do
            let i ← pyInt i
            .ok (Key.tup [.str ((m.group 1).getD []), .int i])
          | none => .ok (Key.str ((m.group 1).getD []))
        let d' ← colonPairs (Res.COLON_SEP_RE.finditer (Str.replace m.whole [] line)) []
        hubbardLoop l (d.set spec (.dict d'))

/-- `_parse_hubbard_u`, cell_param_file_parser.py:505-533. -/
def parse_hubbard_u (b : Block) : PyM PyVal :=
  match get_block_units b (py"eV") with
  | (.error e, _) => .error e
  | (.ok u, b) => do
    let d ← hubbardLoop b.rest [(.str (py"units"), .str u)]
    return .dict d

/-- The loop of `_parse_sedc`, cell_param_file_parser.py:564-571. -/
def sedcLoop : List Str → Dict Key PyVal → PyM (Dict Key PyVal)
  | [], d => .ok d
  | line :: l, d =>
    if isEnd line then sedcLoop l d
    else do
      let (spec, line) ← unpack2 (Str.split1 (Str.strip line))
      let d' ← colonPairs (Res.COLON_SEP_RE.finditer line) []
      sedcLoop l (d.set (.str spec) (.dict d'))

/-- `_parse_sedc`, cell_param_file_parser.py:536-573. -/
def parse_sedc (b : Block) : PyM PyVal :=
  match b.next with
  | (.error e, _) => .error e
  | (.ok test, b) =>
    let start (e d : Str) (b : Block) : PyM PyVal := do
      let d ← sedcLoop b.rest
        [(.str (py"units"), .dict [(.str (py"energy"), .str e), (.str (py"distance"), .str d)])]
      return .dict d
    match Str.split test with
    | [e, d] => start e d b
    | _ =>
      match b.rewind with
      | (.error e, _) => .error e
      | (.ok _, b) => start (py"eV") (py"Ang") b

/-- The rows of `_parse_symops`, cell_param_file_parser.py:590. -/
def symRows : List Str → PyM (List PyVal)
  | [] => .ok []
  | line :: l =>
    match Res.FLOAT_RAT_RE.findall line with
    | [] => symRows l
    | n :: ns => do
      let r ← to_type .float (.list ((n :: ns).map .str))
      let rs ← symRows l
      return r :: rs

/-- The operations, cell_param_file_parser.py:592-598. -/
def symOps : Nat → List PyVal → PyM (List PyVal)
  | _, [] => .ok []
  | 0, _ => .ok []
  | fuel + 1, tmp =>
    match tmp[3]? with
    | none => .error .indexError
    | some t => do
      let r ← symOps fuel (tmp.drop 4)
      return .dict [(.str (py"r"), .list (tmp.take 3)), (.str (py"t"), t)] :: r

/-- `_parse_symops`, cell_param_file_parser.py:576-598. -/
def parse_symops (b : Block) : PyM PyVal := do
  let tmp ← symRows b.rest
  let ops ← symOps tmp.length tmp
  return .list ops

/-- One line of `_parse_xc_definition`, cell_param_file_parser.py:618-629: is it a parameter, its key and
value. -/
def xcLine (line : Str) : PyM (Bool × Str × PyVal) := do
  let (key, val) ← unpack2 (Str.split1 line)
  let key := normalise_key key
  if key = py"nlxc_screening_length" then do
    let x ← pyFloat val
    return (true, key, .float x)
  else if key = py"nlxc_screening_function" then return (true, key, .str val)
  else if key = py"nlxc_ppd_int" ∨ key = py"nlxc_divergence_corr" then
    return (true, key, .bool (Str.upper val = py"ON"))
  else do
    let x ← pyFloat val
    return (false, key, .float x)

/-- The loop of `_parse_xc_definition`. -/
def xcLoop : List Str → Dict Key PyVal → Dict Key PyVal → PyM (Dict Key PyVal × Dict Key PyVal)
  | [], xc, params => .ok (xc, params)
  | line :: l, xc, params => do
    let (isParam, key, v) ← xcLine line
    if isParam then xcLoop l xc (params.set (.str key) v) else xcLoop l (xc.set (.str key) v) params

/-- `_parse_xc_definition`, cell_param_file_parser.py:601-631. -/
def parse_xc_definition (b : Block) : PyM PyVal := do
  let b := b.remove_bounds 0 1
  let (xc, params) ← xcLoop (strip_comments b.rest) [] []
  return .dict [(.str (py"xc"), .dict xc), (.str (py"params"), .dict params)]

/-- The loop of `_parse_species_pot`, cell_param_file_parser.py:650-657. -/
def speciesPotLoop : List Str → Dict Key PyVal → PyM (Dict Key PyVal)
  | [], d => .ok d
  | line :: l, d =>
    match Str.split1 line with
    | [spec] => speciesPotLoop l (d.set .none (.str spec))
    | [spec, pot] => do
      let v ← if (Res.PSPOT_FULL_LAZY.search pot).isSome then parse_pspot_string pot else .ok (.str pot)
      speciesPotLoop l (d.set (.str spec) v)
    | _ => speciesPotLoop l d

/-- `_parse_species_pot`, cell_param_file_parser.py:634-659. -/
def parse_species_pot (b : Block) : PyM PyVal := do
  let d ← speciesPotLoop (b.remove_bounds 0 1).rest []
  return .dict d

/-- One line of `_parse_general`, cell_param_file_parser.py:679-700. -/
def generalStep (d : Dict Key PyVal) (line : Str) : PyM (Dict Key PyVal) :=
  let line := COMMENT_RE.splitHead line
  if (Res.SPEC_PROP_RE.match_ line).isSome then do
    let data : Dict Key PyVal := match d.get? (.str (py"data")) with
      | some (.dict x) => x
      | _ => []
    let (spec, val) ← unpack2 (Str.split1 (Str.strip line))
    let v ← to_type (determine_type val) (.str val)
    return d.set (.str (py"data")) (.dict (Dict.set data (.str spec) v))
  else
    match Res.FLOAT_RAT_RE.findall line with
    | n :: ns =>
      match d.get? (.str (py"data")) with
      | some (.list rows) => do
        let r ← to_type .float (.list ((n :: ns).map .str))
        return d.set (.str (py"data")) (.list (rows ++ [r]))
      | _ => .error .assertionError
    | [] =>
      if isEnd line then .ok d
      else .ok (d.set (.str (py"units")) (.str (Str.strip line)))

/-- The loop of `_parse_general`. -/
def generalLoop : List Str → Dict Key PyVal → PyM (Dict Key PyVal)
  | [], d => .ok d
  | line :: l, d => do
    let d ← generalStep d line
    generalLoop l d

/-- `_parse_general`, cell_param_file_parser.py:662-702. -/
def parse_general (b : Block) : PyM PyVal := do
  let d ← generalLoop b.rest [(.str (py"data"), .list [])]
  return .dict d

/-- `_PARSERS`, cell_param_file_parser.py:709-726. -/
def PARSERS : List (Str × (Block → PyM PyVal)) :=
  [(py"devel_code", parse_devel_code_block),
   (py"ionic_constraints", parse_ionic_constraints),
   (py"nonlinear_constraints", parse_nonlinear_constraints),
   (py"positions_frac", parse_positions false),
   (py"positions_frac_intermediate", parse_positions false),
   (py"positions_frac_product", parse_positions false),
   (py"positions_abs", parse_positions true),
   (py"positions_abs_intermediate", parse_positions false),
   (py"positions_abs_product", parse_positions false),
   (py"positions_aspectral_intermediate", parse_positions false),
   (py"positions_aspectral_product", parse_positions false),
   (py"species_pot", parse_species_pot),
   (py"sedc_custom_params", parse_sedc),
   (py"hubbard_u", parse_hubbard_u),
   (py"symmetry_ops", parse_symops),
   (py"xc_definition", parse_xc_definition)]

/-- `_PARSERS.get(title, _parse_general)` -/
def parserFor (title : Str) : Block → PyM PyVal := (Dict.get? PARSERS title).getD parse_general

/-! ### The file -/

/-- A block, cell_param_file_parser.py:144-150. -/
def parseBlock (b : Block) : PyM (Str × PyVal) :=
  match b.next with
  | (.error e, _) => .error e
  | (.ok first, b) =>
    match (Str.split first)[1]? with
    | none => .error .indexError
    | some t => do
      let title := Str.lower t
      let v ← parserFor title (Block.from_iterable (strip_comments b.rest (remove_inline := true)) b)
      return (title, v)

/-- The key and value of a setting, cell_param_file_parser.py:153-171. -/
def settingOf (m : Match) : PyM (Str × PyVal) :=
  let key := Str.lower (Str.strip ((m.named (py"key")).getD []))
  match m.named (py"str") with
  | some val => do
    let v ← to_type (determine_type val) (.str (Str.strip val))
    return (key, v)
  | none => do
    let val := (m.named (py"val")).getD []
    let v ← if c!" " ∈ Str.strip val then to_type (determine_type val) (.list ((Str.split val).map .str))
      else to_type (determine_type val) (.str val)
    match m.named (py"unit") with
    | some unit =>
      if unit.isEmpty then return (key, v)
      else return (key, .tuple [v, .str (Str.strip unit)])
    | none => return (key, v)

/-- A setting, cell_param_file_parser.py:152-171: key and value, if the line is one. -/
def settingWith (p : Pat) (line : Str) : PyM (Option (Str × PyVal)) :=
  match p.match_ line with
  | none => .ok none
  | some m => do
    let kv ← settingOf m
    return some kv

/-- A setting, with the pattern used. -/
def parseSetting : Str → PyM (Option (Str × PyVal)) := settingWith Res.PARAM_VALUE_RE

/-- The loop of `parse_cell_param_file`, cell_param_file_parser.py:133-171, with fuel. -/
def fileLoop : Nat → List Str → Dict Key PyVal → PyM (Dict Key PyVal)
  | 0, _, curr => .ok curr
  | _ + 1, [], curr => .ok curr
  | fuel + 1, line :: rest, curr =>
    let line := COMMENT_RE.splitHead line
    match Block.from_re line rest isStart isEnd with
    | (.error e, _) => .error e
    | (.ok block, rest) =>
      if block.truthy then do
        let (title, v) ← parseBlock block
        fileLoop fuel rest (curr.set (.str title) v)
      else do
        match ← parseSetting line with
        | some (key, v) => fileLoop fuel rest (curr.set (.str key) v)
        | none => fileLoop fuel rest curr

end Cell

/-- `parse_cell_param_file`, cell_param_file_parser.py:116-174, on the lines of the file. -/
def parse_cell_param_file (lines : List Str) : PyM PyVal := do
  let d ← Cell.fileLoop (lines.length + 1) lines []
  return .list [.dict d]

end Verif

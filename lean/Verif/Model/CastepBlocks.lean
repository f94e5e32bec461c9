import Verif.Model.Spectra
import Verif.Model.Magres
import Verif.Py.FloatOps
/-
castep_outputs/parsers/castep_file_parser.py, the functions for the sections of a .castep file (first part):
run information, parameters, cell, pseudopotentials, SCF, forces, stresses, populations.

Each function takes the lines the block still yields.  A Python `dict` and a `defaultdict` are not
distinguished as values; where a missing key of a `defaultdict` is created the definition says so.
-/
namespace Verif.Castep

/-! ### Loops -/

/-- `for line in lines: ...` -/
def foldLines (f : σ → Str → PyM σ) : σ → List Str → PyM σ
  | s, [] => .ok s
  | s, l :: ls => do
    let s ← f s l
    foldLines f s ls

/-- `[x for line in lines if ...]` -/
def collect (f : Str → PyM (Option α)) : List Str → PyM (List α)
  | [] => .ok []
  | l :: ls => do
    match ← f l with
    | some x => do
      let xs ← collect f ls
      return x :: xs
    | none => collect f ls

/-- `{k: v for line in lines if ...}`: a later line with the same key replaces the value. -/
def collectDict (f : Str → PyM (Option (Key × PyVal))) (lines : List Str) : PyM (Dict Key PyVal) := do
  let l ← collect f lines
  return Dict.ofList l

/-- `f` where the pattern matches at the start of the line (`pattern.match`). -/
def onMatch (p : Pat) (f : Match → PyM α) (line : Str) : PyM (Option α) :=
  match p.match_ line with
  | none => .ok none
  | some m => do
    let x ← f m
    return some x

/-- `f` where the pattern is found in the line (`pattern.search`). -/
def onSearch (p : Pat) (f : Match → PyM α) (line : Str) : PyM (Option α) :=
  match p.search line with
  | none => .ok none
  | some m => do
    let x ← f m
    return some x

/-- `next(block)` -/
def nextLine : List Str → PyM (Str × List Str)
  | [] => .error .stopIteration
  | l :: ls => .ok (l, ls)

/-! ### Values -/

/-- `l[i]` -/
def at_ (l : List α) (i : Nat) : PyM α :=
  match l[i]? with
  | some x => .ok x
  | none => .error .indexError

/-- `l[-1]` -/
def last_ (l : List α) : PyM α :=
  match l.getLast? with
  | some x => .ok x
  | none => .error .indexError

/-- `float(s)` as a value. -/
def floatV (s : Str) : PyM PyVal := do
  let x ← pyFloat s
  return .float x

/-- `int(s)` as a value. -/
def intV (s : Str) : PyM PyVal := do
  let i ← pyInt s
  return .int i

/-- `to_type(get_numbers(line)[i], typ)` -/
def numAt (typ : Ty) (line : Str) (i : Nat) : PyM PyVal := do
  let s ← at_ (Res.get_numbers line) i
  to_type typ (.str s)

/-- `to_type(get_numbers(line)[-1], float)` -/
def numLast (line : Str) : PyM PyVal := do
  let s ← last_ (Res.get_numbers line)
  to_type .float (.str s)

/-- `float(get_numbers(line)[i])` -/
def floatAt (line : Str) (i : Nat) : PyM PyVal := do
  let s ← at_ (Res.get_numbers line) i
  floatV s

/-- `to_type(get_numbers(line), int)` -/
def intsOf (line : Str) : PyM PyVal := to_type .int (strList (Res.get_numbers line))

/-- `match[name]` as text; a group that took no part is `None`, on which text operations raise. -/
def grp (m : Match) (name : Str) : PyM Str :=
  match m.named name with
  | some s => .ok s
  | none => .error .typeError

/-- `float(match[name])` -/
def grpFloat (m : Match) (name : Str) : PyM PyVal := do
  let s ← grp m name
  floatV s

/-- `match[name]` as a key. -/
def grpKey (m : Match) (name : Str) : Key := match m.named name with | some s => .str s | none => .none

/-- `s.split(c, 1)` if `c` occurs: the two parts. -/
def splitOnce (c : Nat) (s : Str) : Str × Str := (s.takeWhile (· != c), (s.dropWhile (· != c)).drop 1)

/-- `a, b = l` -/
def pair : List α → PyM (α × α)
  | [a, b] => .ok (a, b)
  | _ => .error .valueError

/-- `d[k1][k2] = v` where `d[k1]` exists. -/
def setIn (d : Dict Key PyVal) (k1 k2 : Key) (v : PyVal) : PyM (Dict Key PyVal) := Magres.setSub false d k1 k2 v

/-- `d.setdefault(k, {})` -/
def ensure (d : Dict Key PyVal) (k : Key) (v : PyVal := .dict []) : Dict Key PyVal :=
  if d.mem k then d else d.set k v

/-- `d[k].update(e)` where `d[k]` is a dictionary. -/
def updateIn (d : Dict Key PyVal) (k : Key) (e : Dict Key PyVal) : PyM (Dict Key PyVal) :=
  match d.get? k with
  | some (.dict f) => .ok (d.set k (.dict (updateDict f e)))
  | some _ => .error .attributeError
  | none => .error .keyError

/-- `d[k1][k2].append(v)` where `d[k1]` is a `defaultdict(list)`. -/
def appendIn (d : Dict Key PyVal) (k1 k2 : Key) (v : PyVal) : PyM (Dict Key PyVal) :=
  match d.get? k1 with
  | some (.dict e) => do
    let e ← MdGeom.appendTo e k2 v
    return d.set k1 (.dict e)
  | some _ => .error .typeError
  | none => .error .keyError

/-- `atreg_to_index(d)` on a dictionary, as a key, with what remains of the dictionary. -/
def atregKey (d : Dict Key PyVal) : PyM (Key × Dict Key PyVal) :=
  match atreg_to_index d with
  | (.ok (spec, i), d) => .ok (.tup [.str spec, .int i], d)
  | (.error e, _) => .error e

/-- `dict.fromkeys(names, typ)` -/
def types (names : List Str) (typ : Ty) : List (Key × Ty) := names.map fun n => (.str n, typ)

/-! ### Run information -/

/-- The loop of castep_file_parser.py:1671-1674. -/
def buildLine (info : Dict Key PyVal) (line : Str) : PyM (Dict Key PyVal) :=
  if c!":" ∈ line then
    let (k, v) := splitOnce (c!":") line
    .ok (info.set (.str (normalise_key (normalise_string k))) (.str (Str.strip (normalise_string v))))
  else .ok info

/-- `_process_buildinfo`, castep_file_parser.py:1667-1675. -/
def process_buildinfo (lines : List Str) : PyM PyVal := do
  let d ← foldLines buildLine
    [(.str (py"summary"), .str (Str.join (py" ") ((lines.take 2).map normalise_string)))] (lines.drop 2)
  return .dict d

/-- Body of the loop of `_process_finalisation`, castep_file_parser.py:2068-2071. -/
def finalLine (out : Dict Key PyVal) (line : Str) : PyM (Dict Key PyVal) :=
  if (Str.strip line).isEmpty then .ok out
  else do
    let (key, val) ← pair (Str.splitC (c!"=") line)
    let v ← floatAt val 0
    return out.set (.str (normalise_key key)) v

/-- `_process_finalisation`, castep_file_parser.py:2064-2072. -/
def process_finalisation (lines : List Str) : PyM (Dict Key PyVal) := foldLines finalLine [] lines

/-- The pattern of `_process_memory_est`, castep_file_parser.py:2080-2081. -/
def MEMORY_RE : Pat :=
  rx (py r"\s*\|([A-Za-z ]+)" ++ Res.labelled_floats [py"memory", py"disk"] (suffix := py" MB"))

/-- `_process_memory_est`, castep_file_parser.py:2075-2086. -/
def process_memory_est (lines : List Str) : PyM PyVal := do
  let d ← collectDict (onMatch MEMORY_RE fun m => do
    let memory ← grpFloat m (py"memory")
    let disk ← grpFloat m (py"disk")
    return (.str (normalise_key ((m.group 1).getD [])),
      .dict [(.str (py"memory"), memory), (.str (py"disk"), disk)])) lines
  return .dict d

/-! ### Parameters -/

def DEVELOPER_RE : Pat := rx (py"Developer Code")
def STARS_RE : Pat := rx (Res.gen_table_re [] (py r"\*+"))
/-- castep_file_parser.py:1636. -/
def PARAM_GROUP_RE : Pat := rx (py r"\s*\*+ ([A-Za-z -]+) \*+")
/-- castep_file_parser.py:1643. -/
def OUTPUT_UNIT_RE : Pat := rx (py r"\s*output (?P<key>.*) unit\s*:\s*(?P<val>.*)")

/-- The variables of `_process_params`: `opt`, `curr_opt` and `curr_group`. -/
structure ParamState where
  opt : Dict Key PyVal := []
  curr : Dict Key PyVal := []
  group : Str := []

/-- `if curr_opt: opt[curr_group] = curr_opt`, castep_file_parser.py:1637-1638 and 1661-1662. -/
def ParamState.flush (s : ParamState) : Dict Key PyVal :=
  if s.curr.isEmpty then s.opt else s.opt.set (.str s.group) (.dict s.curr)

/-- The value of an option, castep_file_parser.py:1653-1657. -/
def optionValue (val : Str) : PyM PyVal :=
  match Str.split val with
  | [] => .ok (.str val)
  | w :: unit =>
    if (Res.NUMBER_RE.match_ w).isSome then do
      let v ← to_type (determine_type w) (.str w)
      if unit.isEmpty then return v else return .tuple (v :: unit.map .str)
    else .ok (.str val)

/-- `opt["output_units"][key] = val`, castep_file_parser.py:1645-1649. -/
def setUnit (opt : Dict Key PyVal) (key val : Str) : PyM (Dict Key PyVal) :=
  setIn (ensure opt (.str (py"output_units"))) (.str (py"output_units")) (.str (normalise_string key))
    (.str (normalise_string val))

/-- A line outside a developer block, castep_file_parser.py:1636-1659. -/
def paramLine (s : ParamState) (line : Str) : PyM ParamState :=
  match PARAM_GROUP_RE.match_ line with
  | some m =>
    let name := Str.replace (py"Parameters") [] ((m.group 1).getD [])
    .ok ⟨s.flush, [], Str.lower (normalise_string name)⟩
  | none =>
    match OUTPUT_UNIT_RE.match_ line with
    | some m => do
      let opt ← setUnit s.opt ((m.named (py"key")).getD []) ((m.named (py"val")).getD [])
      return { s with opt := opt }
    | none =>
      match (Str.splitC (c!":") line).reverse with
      | val :: k :: key => do
        let v ← optionValue (normalise_string val)
        let name := Str.strip (Str.join (py" ") ((k :: key).reverse.map normalise_string))
        return { s with curr := s.curr.set (.str name) v }
      | _ => .ok s

/-- The loop of `_process_params`, castep_file_parser.py:1630-1659, with fuel. -/
def paramLoop : Nat → List Str → ParamState → PyM ParamState
  | 0, _, s => .ok s
  | _ + 1, [], s => .ok s
  | fuel + 1, line :: rest, s => do
    match ← tryBlock (found DEVELOPER_RE) (found STARS_RE) line rest with
    | (some b, rest) => do
      let v ← Cell.parse_devel_code_block (b.remove_bounds 1 1)
      paramLoop fuel rest { s with opt := s.opt.set (.str (py"devel_code")) v }
    | (none, rest) => do
      let s ← paramLine s line
      paramLoop fuel rest s

/-- `_process_params`, castep_file_parser.py:1609-1664. -/
def process_params (lines : List Str) : PyM PyVal := do
  let s ← paramLoop (lines.length + 1) lines {}
  return .dict s.flush

/-! ### Species -/

/-- Body of the loop of `_process_ps_energy`, castep_file_parser.py:1409-1412. -/
def spillLine (acc : List PyVal) (line : Str) : PyM (List PyVal) :=
  if Str.contains (py"Charge spilling") line then do
    let s ← last_ (Res.get_numbers line)
    let x ← pyFloat s
    let c ← pyFloat (py"0.01")
    return acc ++ [.float (F64.mul c x)]
  else .ok acc

/-- `_process_ps_energy`, castep_file_parser.py:1400-1417. -/
def process_ps_energy (lines : List Str) : PyM (Key × Dict Key PyVal) := do
  let (l, rest) ← nextLine lines
  match Res.PS_SHELL_RE.search l with
  | none => .error .valueError
  | some m => do
    let (_, rest) ← nextLine rest
    let (l, rest) ← nextLine rest
    let e ← floatAt l 1
    let spill ← foldLines spillLine [] rest
    let d : Dict Key PyVal := [(.str (py"pseudo_atomic_energy"), e)]
    return (grpKey m (py"spec"),
      if spill.isEmpty then d else d.set (.str (py"charge_spilling")) (.tuple spill))

/-- `REs.SPECIES_RE\b`, castep_file_parser.py:1450. -/
def SPECIES_WORD_RE : Pat := rx (Res.SPECIES_s ++ py r"\b")

/-- Body of the loop of `_process_spec_prop`, castep_file_parser.py:1443-1451. -/
def specProp (line : Str) : PyM (Option (List Str)) :=
  match Str.split line with
  | [] => .ok none
  | w :: ws =>
    if (w :: ws).getLast (by simp) = py"on-the-fly" then .ok (some [w, py"on-the-fly"])
    else if (SPECIES_WORD_RE.match_ w).isSome then .ok (some (w :: ws))
    else .ok none

/-- `_process_spec_prop`, castep_file_parser.py:1438-1453. -/
def process_spec_prop (lines : List Str) : PyM (List (List Str)) := collect specProp lines

/-! ### Pseudopotential reports -/

/-- castep_file_parser.py:2244-2246. -/
def PSPOT_ELEMENT_RE : Pat :=
  rx (py"Element: (?P<element>" ++ Res.SPECIES_s ++ py r")\s+" ++
    py"Ionic charge: (?P<ionic_charge>" ++ Res.FNUMBER_s ++ py r")\s+" ++
    py r"Level of theory: (?P<level_of_theory>[\w\d]+)")
/-- castep_file_parser.py:2251. -/
def PSPOT_SOLVER_RE : Pat := rx (py r"Atomic Solver:\s*(?P<solver>[\w\s-]+)")

/-- `int(val["beta"]) if val["beta"].isnumeric() else val["beta"]`, castep_file_parser.py:2240
(`isnumeric` agrees with `isdigit` on ASCII text). -/
def fixBeta (val : Dict Key PyVal) : PyM (Dict Key PyVal) :=
  match val.get? (.str (py"beta")) with
  | some (.str s) =>
    if Str.isdigit s then do
      let i ← pyInt s
      return val.set (.str (py"beta")) (.int i)
    else .ok val
  | _ => .ok val

/-- castep_file_parser.py:2244-2261. -/
def pspotOther (accum : Dict Key PyVal) (line : Str) : PyM (Dict Key PyVal) :=
  match PSPOT_ELEMENT_RE.search line with
  | some m => do
    let c ← grpFloat m (py"ionic_charge")
    return updateDict accum ((groupVals m).set (.str (py"ionic_charge")) c)
  | none =>
    match PSPOT_SOLVER_RE.search line with
    | some m => .ok (accum.set (.str (py"solver")) (.str (normalise_string ((m.named (py"solver")).getD []))))
    | none =>
      match Res.PSPOT_FULL_LAZY.search line with
      | some m => do
        let v ← Cell.parse_pspot_string m.whole
        return accum.set (.str (py"detail")) v
      | none =>
        if Str.contains (py"Augmentation charge Rinner") line then do
          let v ← numbersOf line
          return accum.set (.str (py"augmentation_charge_rinner")) v
        else if Str.contains (py"Partial core correction Rc") line then do
          let v ← numbersOf line
          return accum.set (.str (py"partial_core_correction")) v
        else .ok accum

/-- Body of the loop of `_process_pspot_report`, castep_file_parser.py:2232-2261. -/
def pspotLine (accum : Dict Key PyVal) (line : Str) : PyM (Dict Key PyVal) :=
  match Res.PSPOT_REFERENCE_STRUC_RE.match_ line with
  | some m => do
    let val ← fix_data_types (groupVals m) (types [py"occupation", py"energy"] .float)
    MdGeom.appendTo accum (.str (py"reference_electronic_structure")) (.dict val)
  | none =>
    match Res.PSPOT_DEF_RE.match_ line with
    | some m => do
      let val ← fixBeta (groupVals m)
      let val ← fix_data_types val [(.str (py"l"), .int), (.str (py"j"), .int), (.str (py"e"), .float),
        (.str (py"Rc"), .float), (.str (py"norm"), .int)]
      MdGeom.appendTo accum (.str (py"pseudopotential_definition")) (.dict val)
    | none => pspotOther accum line

/-- `_process_pspot_report`, castep_file_parser.py:2227-2263. -/
def process_pspot_report (lines : List Str) : PyM PyVal := do
  let d ← foldLines pspotLine [(.str (py"reference_electronic_structure"), .list []),
    (.str (py"pseudopotential_definition"), .list [])] lines
  return .dict d

/-! ### Cell -/

/-- The variables of `_process_unit_cell`. -/
structure CellState where
  real : List PyVal := []
  recip : List PyVal := []
  params : List PyVal := []
  angles : List PyVal := []
  prop : List PyVal := []

/-- Body of the loop of `_process_unit_cell`, castep_file_parser.py:1687-1697. -/
def cellLine (s : CellState) (line : Str) : PyM CellState :=
  let numbers := Res.get_numbers line
  if numbers.length = 6 then do
    let a ← to_type .float (strList (numbers.take 3))
    let b ← to_type .float (strList (numbers.drop 3))
    return { s with real := s.real ++ [a], recip := s.recip ++ [b] }
  else
    match numbers with
    | [x, y] =>
      if [py"alpha", py"beta", py"gamma"].any (Str.contains · line) then do
        let a ← to_type .float (.str x)
        let b ← to_type .float (.str y)
        return { s with params := s.params ++ [a], angles := s.angles ++ [b] }
      else do
        let p ← floatV x
        return { s with prop := s.prop ++ [p] }
    | _ => .ok s

/-- `_process_unit_cell`, castep_file_parser.py:1678-1705. -/
def process_unit_cell (lines : List Str) : PyM PyVal := do
  let s ← foldLines cellLine {} lines
  return .dict ([(.str (py"real_lattice"), .list s.real), (.str (py"recip_lattice"), .list s.recip),
    (.str (py"lattice_parameters"), .list s.params), (.str (py"cell_angles"), .list s.angles)] ++
    (([py"volume", py"density_amu", py"density_g"].map Key.str).zip s.prop))

/-- `_process_atreg_block`, castep_file_parser.py:1430-1435. -/
def process_atreg_block (lines : List Str) : PyM PyVal := do
  let d ← collectDict (onSearch Res.ATOMIC_DATA_3VEC fun m => do
    let ind ← atreg_match m
    let v ← Header.vecOf m
    return (ind, v)) lines
  return .dict d

/-! ### SCF -/

/-- castep_file_parser.py:1750. -/
def EIGENVALUE_RE : Pat := rx (py r"eigenvalue\s*\d+\s*init=")
/-- castep_file_parser.py:1760-1761. -/
def CONTRIB_RE : Pat :=
  rx (py r"[+(]?(?P<key>[()0-9A-Za-z -]+)=?" ++ py r"\s*" ++ Res.labelled_floats [py"val"] ++ py r" eV\)?")
/-- `fix_keys`, castep_file_parser.py:1765-1767. -/
def CONTRIB_KEYS : List (Str × Str) :=
  [(py"apolar_corr_to_eigenvalue_sum", py"apolar_correction"),
   (py"hubbard_u_correction_to_eigenvalu", py"hubbard_u_correction"),
   (py"xc_correction_to_eigenvalue_sum", py"xc_correction")]

/-- The variables of `_process_scf`; `eig` may be unbound. -/
structure ScfState where
  scf : List PyVal := []
  curr : Dict Key PyVal := []
  debug : Dict Key PyVal := []
  eig : Option (List PyVal) := none

/-- `if curr: scf.append(curr)` -/
def ScfState.flush (s : ScfState) : List PyVal := if s.curr.isEmpty then s.scf else s.scf ++ [.dict s.curr]

/-- A line of the table, castep_file_parser.py:1713-1724. -/
def scfRow (s : ScfState) (m : Match) : PyM ScfState := do
  let curr := groupVals m
  let curr := if s.debug.isEmpty then curr else curr.set (.str (py"debug_info")) (.dict s.debug)
  let curr ← fix_data_types curr (types [py"energy", py"energy_gain", py"fermi_energy", py"time"] .float)
  return { s with scf := s.flush, curr := curr, debug := [] }

/-- `curr[key] = to_type(get_numbers(line)[0], float)` -/
def scfNumber (s : ScfState) (key line : Str) : PyM ScfState := do
  let v ← numAt .float line 0
  return { s with curr := s.curr.set (.str key) v }

/-- castep_file_parser.py:1743-1748. -/
def scfKinetic (s : ScfState) (line : Str) : PyM ScfState := do
  let v ← numAt .float line 1
  let debug := ensure (ensure s.debug (.str (py"kinetic_eigenvalue")) (.list [])) (.str (py"eigenvalue")) (.list [])
  let debug ← MdGeom.appendTo debug (.str (py"kinetic_eigenvalue")) v
  return { s with debug := debug, eig := some [] }

/-- castep_file_parser.py:1751-1754. -/
def scfEigen (s : ScfState) (line : Str) : PyM ScfState :=
  match s.eig with
  | none => .error .nameError
  | some eig => do
    let a ← floatAt line 1
    let b ← floatAt line 2
    let c ← floatAt line 3
    return { s with eig := some (eig ++ [.dict [(.str (py"initial"), a), (.str (py"final"), b),
      (.str (py"change"), c)]]) }

/-- castep_file_parser.py:1757-1758. -/
def scfCheck (s : ScfState) : PyM ScfState :=
  match s.debug.get? (.str (py"eigenvalue")) with
  | some (.list l) =>
    match s.eig with
    | some eig => .ok { s with debug := s.debug.set (.str (py"eigenvalue")) (.list (l ++ [.list eig])), eig := some [] }
    | none => .error .nameError
  | some _ => .error .attributeError
  | none => .error .keyError

/-- castep_file_parser.py:1760-1770. -/
def scfContrib (s : ScfState) (line : Str) : PyM ScfState :=
  match CONTRIB_RE.match_ line with
  | none => .ok s
  | some m => do
    let key := normalise_key ((m.named (py"key")).getD [])
    let v ← grpFloat m (py"val")
    let debug ← setIn (ensure s.debug (.str (py"contributions"))) (.str (py"contributions"))
      (.str ((Dict.get? CONTRIB_KEYS key).getD key)) v
    return { s with debug := debug }

/-- castep_file_parser.py:1726-1770. -/
def scfOther (s : ScfState) (line : Str) : PyM ScfState :=
  if Str.contains (py"Density was not mixed") line then
    .ok { s with curr := s.curr.set (.str (py"density_residual")) .none }
  else if Str.contains (py"Norm of density") line then scfNumber s (py"density_residual") line
  else if Str.contains (py"constraint energy") line then scfNumber s (py"constraint_energy") line
  else if Str.contains (py"Correcting PBC dipole-dipole") line then scfNumber s (py"dipole_corr_energy") line
  else if Str.contains (py"no. bands") line then do
    let v ← numAt .int line 0
    return { s with debug := s.debug.set (.str (py"no_bands")) v }
  else if Str.contains (py"Kinetic eigenvalue") line then scfKinetic s line
  else if (EIGENVALUE_RE.match_ line).isSome then scfEigen s line
  else if Str.contains (py"Checking convergence criteria") line then scfCheck s
  else scfContrib s line

/-- Body of the loop of `_process_scf`, castep_file_parser.py:1712-1770. -/
def scfLine (s : ScfState) (line : Str) : PyM ScfState :=
  match Res.SCF_LOOP_RE.match_ line with
  | some m => scfRow s m
  | none => scfOther s line

/-- `_process_scf`, castep_file_parser.py:1708-1775. -/
def process_scf (lines : List Str) : PyM PyVal := do
  let s ← foldLines scfLine {} lines
  return .list s.flush

/-- One row of `_process_occupancies`, castep_file_parser.py:2323-2331. -/
def occupancy (line : Str) : PyM (Option PyVal) :=
  match Res.get_numbers line with
  | [] => .ok none
  | [a, b, c] => do
    let d ← fix_data_types [(.str (py"band"), .str a), (.str (py"eigenvalue"), .str b), (.str (py"occupancy"), .str c)]
      [(.str (py"band"), .int), (.str (py"eigenvalue"), .float), (.str (py"occupancy"), .float)]
    return some (.dict d)
  | _ => .error .valueError

/-- `_process_occupancies`, castep_file_parser.py:2320-2332.  (The rows are converted one by one rather than in
a second pass.) -/
def process_occupancies (lines : List Str) : PyM PyVal := do
  let l ← collect occupancy lines
  return .list l

/-- Body of the loop of `_process_wvfn_line_min`, castep_file_parser.py:2338-2343. -/
def wvfnLine (accum : Dict Key PyVal) (line : Str) : PyM (Dict Key PyVal) :=
  if Str.contains (py"initial") line then do
    match ← numbersOf line with
    | .tuple [e, s] => return (accum.set (.str (py"init_energy")) e).set (.str (py"init_de_dstep")) s
    | _ => .error .valueError
  else if Str.startsWith (Str.strip line) (py"| step") then do
    let v ← numbersOf line
    return accum.set (.str (py"steps")) v
  else if Str.startsWith (Str.strip line) (py"| gain") then do
    let v ← numbersOf line
    return accum.set (.str (py"gain")) v
  else .ok accum

/-- `_process_wvfn_line_min`, castep_file_parser.py:2335-2345. -/
def process_wvfn_line_min (lines : List Str) : PyM PyVal := do
  let d ← foldLines wvfnLine [] lines
  return .dict d

/-! ### Forces and stresses -/

/-- The kind of a forces or stresses block, castep_file_parser.py:1779-1782 and 1792-1795: a group that is
missing or empty gives `non_descript`. -/
def kindOf (p : Pat) (line : Str) : PyM Key :=
  match p.search line with
  | none => .error .valueError
  | some m =>
    match m.group 1 with
    | some (c :: s) => .ok (.str (normalise_key (c :: s)))
    | _ => .ok (.str (normalise_key (py"non_descript")))

/-- `_process_forces`, castep_file_parser.py:1778-1788. -/
def process_forces (lines : List Str) : PyM (Key × PyVal) := do
  let (l, rest) ← nextLine lines
  let ftype ← kindOf Res.FORCES_BLOCK_RE l
  let d ← collectDict (onSearch Res.ATOMIC_DATA_FORCE fun m => do
    let ind ← atreg_match m
    let v ← Header.vecOf m
    return (ind, v)) rest
  return (ftype, .dict d)

/-- Body of the loop of `_process_stresses`, castep_file_parser.py:1798-1805. -/
def stressLine (accum : List Str) (line : Str) : List Str :=
  let numbers := Res.get_numbers line
  if Str.contains (py"*  x") line then accum ++ numbers
  else if Str.contains (py"*  y") line then accum ++ numbers.drop 1
  else if Str.contains (py"*  z") line then accum ++ numbers.drop 2
  else accum

/-- `_process_stresses`, castep_file_parser.py:1791-1807. -/
def process_stresses (lines : List Str) : PyM (Key × PyVal) := do
  let (l, rest) ← nextLine lines
  let ftype ← kindOf Res.STRESSES_BLOCK_RE l
  let v ← to_type .float (strList (rest.foldl stressLine []))
  return (ftype, v)

/-- The pattern of `_process_initial_spins`, castep_file_parser.py:1825-1827. -/
def INITIAL_SPIN_RE : Pat :=
  rx (py r"\s*\|\s*" ++ Res.ATOM_s ++ py r"\s*" ++ Res.labelled_floats [py"spin", py"magmom"] ++ py r"\s*" ++
    py r"(?P<fix>[TF])\s*\|")

/-- `_process_initial_spins`, castep_file_parser.py:1810-1833. -/
def process_initial_spins (lines : List Str) : PyM PyVal := do
  let d ← collectDict (onMatch INITIAL_SPIN_RE fun m => do
    let (ind, val) ← atregKey (groupVals m)
    let val ← fix_data_types val (types [py"spin", py"magmom"] .float)
    return (ind, .dict (val.set (.str (py"fix")) (.bool (decide (m.named (py"fix") = some (py"T"))))))) lines
  return .dict d

/-! ### Matrices -/

/-- One row of `_process_3_6_matrix`, castep_file_parser.py:1596-1597. -/
def matrixRow (line : Str) : PyM (Option PyVal) :=
  let vals := Res.get_numbers line
  if vals.length = 3 ∨ vals.length = 6 then do
    let v ← to_type .float (strList vals)
    return some v
  else .ok none

/-- The elements of a tuple. -/
def elems : PyVal → List PyVal
  | .tuple l => l
  | .list l => l
  | _ => []

/-- `_process_3_6_matrix`, castep_file_parser.py:1544-1606. -/
def process_3_6_matrix (split : Bool) (lines : List Str) : PyM (PyVal × PyVal) := do
  let parsed ← collect matrixRow lines
  if split then
    match parsed with
    | [] => .error .indexError
    | r :: _ =>
      if (elems r).length = 6 then
        return (.tuple (parsed.map fun r => .tuple ((elems r).take 3)),
          .tuple (parsed.map fun r => .tuple (((elems r).drop 3).take 3)))
      else return (.tuple parsed, .none)
  else return (.tuple parsed, .none)

/-- The first loop of `_process_dynamical_matrix`, castep_file_parser.py:2212-2215: the rows and the lines
after the line with `Ion`. -/
def realRows : List Str → PyM (List (List Str) × List Str)
  | [] => .error .stopIteration
  | l :: ls =>
    if l.isEmpty || Str.contains (py"Ion") l then .ok ([], ls)
    else do
      let (rows, rest) ← realRows ls
      return ((Res.get_numbers l).drop 2 :: rows, rest)

/-- `complex(float(real), float(imag)) for real, imag in zip(..., strict=True)`, castep_file_parser.py:2221-2222. -/
def complexRow : List Str → List Str → PyM (List PyVal)
  | [], [] => .ok []
  | a :: as, b :: bs => do
    let x ← pyFloat a
    let y ← pyFloat b
    let l ← complexRow as bs
    return .complex x y :: l
  | _, _ => .error .valueError

/-- castep_file_parser.py:2220-2224. -/
def complexRows : List (List Str) → List (List Str) → PyM (List PyVal)
  | [], [] => .ok []
  | a :: as, b :: bs => do
    let r ← complexRow a b
    let l ← complexRows as bs
    return .tuple r :: l
  | _, _ => .error .valueError

/-- `_process_dynamical_matrix`, castep_file_parser.py:2208-2224. -/
def process_dynamical_matrix (lines : List Str) : PyM PyVal := do
  let (_, rest) ← nextLine lines
  let (_, rest) ← nextLine rest
  let (re, rest) ← realRows rest
  let im := (rest.filter fun l => !(Res.get_numbers l).isEmpty).map fun l => (Res.get_numbers l).drop 2
  let rows ← complexRows re im
  return .tuple rows

end Verif.Castep

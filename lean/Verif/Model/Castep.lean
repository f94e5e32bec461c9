import Verif.Model.CastepTables
/-
castep_outputs/parsers/castep_file_parser.py: `Filters` and `parse_castep_file`.

The chain of `if`/`elif` of the main loop is a table of sections, tried in order.  A section takes a line and the
lines after it, and says whether it is its own (for a block: the lines of the block, consumed); then come the
filter check and the action.  The file is given by its lines; `rewind` puts the last line back.  Messages to the
log are not modelled.
-/
namespace Verif.Castep

/-! ### Filters -/

/-- `Filters`, castep_file_parser.py:109-164: a set of flags as a number. -/
abbrev Filters := Nat

namespace Filters
def BS : Filters := 2 ^ 0
def CELL : Filters := 2 ^ 1
def CHEM_SHIELDING : Filters := 2 ^ 2
def DELTA_SCF : Filters := 2 ^ 3
def DIPOLE : Filters := 2 ^ 4
def ELASTIC : Filters := 2 ^ 5
def ELF : Filters := 2 ^ 6
def FINAL_CONFIG : Filters := 2 ^ 7
def FORCE : Filters := 2 ^ 8
def GEOM_OPT : Filters := 2 ^ 9
def MD : Filters := 2 ^ 10
def MD_SUMMARY : Filters := 2 ^ 11
def OPTICS : Filters := 2 ^ 12
def PARAMETERS : Filters := 2 ^ 13
def PHONON : Filters := 2 ^ 14
def POLARISATION : Filters := 2 ^ 15
def POPN_ANALYSIS : Filters := 2 ^ 16
def POSITION : Filters := 2 ^ 17
def PSPOT : Filters := 2 ^ 18
def SCF : Filters := 2 ^ 19
def SOLVATION : Filters := 2 ^ 20
def SPECIES_PROPS : Filters := 2 ^ 21
def SPIN : Filters := 2 ^ 22
def STRESS : Filters := 2 ^ 23
def SYMMETRIES : Filters := 2 ^ 24
def SYS_INFO : Filters := 2 ^ 25
def TDDFT : Filters := 2 ^ 26
def TEST_EXTRA_DATA : Filters := 2 ^ 27
def THERMODYNAMICS : Filters := 2 ^ 28
def TSS : Filters := 2 ^ 29

/-- The union of flags. -/
def union (l : List Filters) : Filters := l.foldl (· ||| ·) 0

def NONE : Filters := 0
/-- castep_file_parser.py:145-149. -/
def LOW : Filters :=
  union [BS, CELL, CHEM_SHIELDING, DIPOLE, ELASTIC, ELF, FINAL_CONFIG, FORCE, MD_SUMMARY, OPTICS, POPN_ANALYSIS,
    POSITION, POLARISATION, SOLVATION, SPECIES_PROPS, SPIN, STRESS, TDDFT, THERMODYNAMICS, TSS, DELTA_SCF]
/-- castep_file_parser.py:151. -/
def MEDIUM : Filters := union [LOW, PARAMETERS, GEOM_OPT, MD, PHONON]
/-- castep_file_parser.py:153. -/
def HIGH : Filters := union [MEDIUM, PSPOT, SYMMETRIES, SYS_INFO]
/-- castep_file_parser.py:155. -/
def FULL : Filters := union [HIGH, SCF]
/-- castep_file_parser.py:156. -/
def ALL : Filters := FULL
/-- castep_file_parser.py:158-164. -/
def TESTING : Filters :=
  union [BS, CELL, CHEM_SHIELDING, DIPOLE, ELASTIC, ELF, FORCE, GEOM_OPT, MD, OPTICS, PHONON, POPN_ANALYSIS, POSITION,
    PSPOT, SOLVATION, SPECIES_PROPS, STRESS, TDDFT, TEST_EXTRA_DATA, THERMODYNAMICS, TSS]

/-- `x in f`: every flag of `x` is set in `f`. -/
def has (x f : Filters) : Bool := x &&& f == x
end Filters

/-! ### Sections -/

/-- The parsed data of a run: `curr_run`, a `defaultdict(list)`. -/
abbrev Run := Dict Key PyVal

/-- The variables of `parse_castep_file`: `runs`, `curr_run`, and `idx` and `pos` of the mixture block (unbound
until set). -/
structure State where
  runs : List Run := []
  curr : Run := []
  mix : Option (Int × PyVal) := none

/-- What the actions depend on: the filters, the recursive call, the order of the set in `parse_xrd_sf_file`, and
the arithmetic of floats. -/
structure Env where
  filters : Filters
  recur : Filters → List Str → PyM (List Run)
  order : List Str → List Str
  ops : Ops F64

/-- What a section took: the line, the lines of its block and its match. -/
structure Hit where
  line : Str
  block : List Str := []
  m : Option Match := none

/-- A branch of the main loop. -/
structure Section where
  name : Str
  /-- The condition. -/
  grab : Str → List Str → PyM (Option Hit × List Str)
  /-- What comes before the filter check. -/
  cut : State → State := id
  /-- Checks made before the filter check. -/
  check : Hit → PyM Unit := fun _ => .ok ()
  /-- The filter check. -/
  wants : Filters → Bool
  /-- The rest of the branch, with the lines after the section. -/
  act : Env → Hit → List Str → State → PyM (State × List Str)

/-- `elif block := Block.from_re(line, castep_file, start, end, n_end, eof_possible)` -/
def takeBlock (startP endP : Pat) (n_end : Nat := 1) (eof : Bool := false) (line : Str) (rest : List Str) :
    PyM (Option Hit × List Str) :=
  match blockOf (found startP) (found endP) n_end eof line rest with
  | .error e => .error e
  | .ok (b, rest) => .ok (b.map fun b => ⟨line, b, none⟩, rest)

/-- A condition on the line alone. -/
def takeLine (p : Str → Bool) (line : Str) (rest : List Str) : PyM (Option Hit × List Str) :=
  .ok (if p line then some ⟨line, [], none⟩ else none, rest)

/-- `elif match := re.match(p, line)` -/
def takeMatch (p : Pat) (line : Str) (rest : List Str) : PyM (Option Hit × List Str) :=
  .ok ((p.match_ line).map fun m => ⟨line, [], some m⟩, rest)

/-- `elif match := re.search(p, line)` -/
def takeSearch (p : Pat) (line : Str) (rest : List Str) : PyM (Option Hit × List Str) :=
  .ok ((p.search line).map fun m => ⟨line, [], some m⟩, rest)

/-- An action on the current run alone. -/
def onRun (f : Env → Hit → Run → PyM Run) (env : Env) (h : Hit) (rest : List Str) (s : State) :
    PyM (State × List Str) :=
  match f env h s.curr with
  | .error e => .error e
  | .ok r => .ok ({ s with curr := r }, rest)

/-- The match of the hit. -/
def Hit.match_ (h : Hit) : PyM Match :=
  match h.m with
  | some m => .ok m
  | none => .error .typeError

/-- `curr_run[key] = f(block)` -/
def store (key : Str) (f : List Str → PyM PyVal) (_ : Env) (h : Hit) (r : Run) : PyM Run := do
  let v ← f h.block
  return r.set (.str key) v

/-- `curr_run[key].append(f(block))` -/
def push (key : Str) (f : List Str → PyM PyVal) (_ : Env) (h : Hit) (r : Run) : PyM Run := do
  let v ← f h.block
  MdGeom.appendTo r (.str key) v

/-- `curr_run.setdefault(key, {}); curr_run[key].update(f(block))` -/
def merge (key : Str) (f : List Str → PyM (Dict Key PyVal)) (_ : Env) (h : Hit) (r : Run) : PyM Run := do
  let d ← f h.block
  updateIn (ensure r (.str key)) (.str key) d

/-- `curr_run[key][sub].append(v)` with `curr_run.setdefault(key, defaultdict(list))` -/
def pushIn (key sub : Str) (v : PyVal) (r : Run) : PyM Run :=
  appendIn (ensure r (.str key)) (.str key) (.str sub) v

/-- `X in to_parse` as the filter check. -/
def needs (x : Filters) (f : Filters) : Bool := Filters.has x f

/-- No filter check. -/
def always (_ : Filters) : Bool := true

/-! ### Actions -/

/-- castep_file_parser.py:225. -/
def timeStarted (_ : Env) (h : Hit) (r : Run) : PyM Run :=
  if c!":" ∈ h.line then .ok (r.set (.str (py"time_started")) (.str (normalise_string (splitOnce (c!":") h.line).2)))
  else .error .indexError

def FINAL_END_RE : Pat := rx (Res.EMPTY_s ++ py"|<")
def INIT_TIME_RE : Pat := rx (py"Initialisation time")

/-- castep_file_parser.py:228-234: a block ended by an external file leaves its last line. -/
def takeFinal (line : Str) (rest : List Str) : PyM (Option Hit × List Str) :=
  match takeBlock INIT_TIME_RE FINAL_END_RE 1 true line rest with
  | .ok (some h, rest) =>
    match h.block.getLast? with
    | some l =>
      if c!"<" ∈ l then
        .ok (some { h with block := h.block.dropLast }, if h.block.length > 1 then l :: rest else rest)
      else .ok (some h, rest)
    | none => .error .indexError
  | r => r

/-- castep_file_parser.py:240. -/
def finalisation (_ : Env) (h : Hit) (r : Run) : PyM Run := do
  let d ← process_finalisation h.block
  return updateDict r d

/-- castep_file_parser.py:249. -/
def efficiency (_ : Env) (h : Hit) (r : Run) : PyM Run := do
  let v ← floatAt h.line 0
  return r.set (.str (py"parallel_efficiency")) v

/-- castep_file_parser.py:259. -/
def continuation (_ : Env) (h : Hit) (r : Run) : PyM Run := do
  let w ← last_ (Str.split h.line)
  return r.set (.str (py"continuation")) (.str w)

/-- castep_file_parser.py:271-272. -/
def warningBox (_ : Env) (h : Hit) (r : Run) : PyM Run :=
  MdGeom.appendTo r (.str (py"warning"))
    (.str (Str.join (py" ") ((Block.sliceBounds h.block 1 1).map Str.strip)))

/-- castep_file_parser.py:274. -/
def WARNING_RE : Pat := rx (ci := true) (py r"(?:\s*[^:]+:)?(\s*)warning")

/-- `re.match(indent + r"\s+", line)` for an indent of white space, castep_file_parser.py:284. -/
def indented (indent line : Str) : Bool :=
  indent.isPrefixOf line && (match line.drop indent.length with | c :: _ => isSpace c | [] => false)

/-- The lines of the warning after the first, castep_file_parser.py:283-288: their text and the lines after them.
The line ending the warning is put back unless it is the first. -/
def warnLines (indent : Str) (first : Bool) : List Str → Str × List Str
  | [] => ([], [])
  | l :: ls =>
    if (Str.strip l).isEmpty || !indented indent l then ([], if first then ls else l :: ls)
    else
      let (w, rest) := warnLines indent false ls
      (py" " ++ Str.strip l ++ w, rest)

/-- castep_file_parser.py:279-290. -/
def warning (_ : Env) (h : Hit) (rest : List Str) (s : State) : PyM (State × List Str) := do
  let m ← h.match_
  let (w, rest) := warnLines ((m.group 1).getD []) true rest
  let r ← MdGeom.appendTo s.curr (.str (py"warning")) (.str (Str.strip h.line ++ w))
  return ({ s with curr := r }, rest)

/-- castep_file_parser.py:312. -/
def title (_ : Env) (_ : Hit) (rest : List Str) (s : State) : PyM (State × List Str) := do
  let (l, rest) ← nextLine rest
  return ({ s with curr := s.curr.set (.str (py"title")) (.str (Str.strip l)) }, rest)

/-- castep_file_parser.py:334. -/
def quantisation (_ : Env) (h : Hit) (r : Run) : PyM Run := do
  let v ← numbersOf h.line
  return r.set (.str (py"quantisation_axis")) v

/-- `curr_run["species_properties"][key].update(val)` with `setdefault("species_properties", defaultdict(dict))` -/
def species (r : Run) (key : Key) (val : Dict Key PyVal) : PyM Run :=
  let k : Key := .str (py"species_properties")
  let r := ensure r k
  match r.get? k with
  | some (.dict d) => do
    let d ← updateIn (ensure d key) key val
    return r.set k (.dict d)
  | _ => .error .typeError

/-- castep_file_parser.py:344-348. -/
def psEnergy (_ : Env) (h : Hit) (r : Run) : PyM Run := do
  let (key, val) ← process_ps_energy h.block
  species r key val

/-- `for key, val in rows: curr_run["species_properties"][key][name] = f(val)` -/
def speciesRows (unpack : List Str → PyM (Str × Str)) (name : Str) (f : Str → PyM PyVal) (r : Run) :
    List (List Str) → PyM Run
  | [] => .ok (ensure r (.str (py"species_properties")))
  | ws :: rows => do
    let (key, val) ← unpack ws
    let v ← f val
    let r ← species r (.str key) [(.str name, v)]
    speciesRows unpack name f r rows

/-- `key, val, *_ = row` -/
def pairStar : List Str → PyM (Str × Str)
  | a :: b :: _ => .ok (a, b)
  | _ => .error .valueError

/-- castep_file_parser.py:356-361. -/
def mass (_ : Env) (h : Hit) (r : Run) : PyM Run := do
  let rows ← process_spec_prop h.block
  speciesRows pair (py"mass") floatV r rows

/-- castep_file_parser.py:370-375. -/
def quadrupole (_ : Env) (h : Hit) (r : Run) : PyM Run := do
  let rows ← process_spec_prop h.block
  speciesRows pairStar (py"electric_quadrupole_moment") floatV r rows

/-- castep_file_parser.py:384-391. -/
def pseudopot (env : Env) (h : Hit) (r : Run) : PyM Run := do
  let rows ← process_spec_prop h.block
  speciesRows pair (py"pseudopot") (fun val =>
    if Filters.has Filters.PSPOT env.filters && decide (c!"|" ∈ val) then Cell.parse_pspot_string val
    else .ok (.str val)) r rows

/-- castep_file_parser.py:413-416. -/
def pspotDebug (_ : Env) (h : Hit) (r : Run) : PyM Run := do
  let m ← h.match_
  let val ← fix_data_types (groupVals m) [(.str (py"nl"), .int), (.str (py"eigenvalue"), .float)]
  MdGeom.appendTo r (.str (py"pspot_debug")) (.dict val)

/-- `d.pop(key)` -/
def popItem (d : Run) (key : Str) : PyM (PyVal × Run) := do
  let v ← d.getItem (.str key)
  return (v, d.erase (.str key))

def CUTOFF_RE : Pat := rx (py r" with +(\d) +cut-off energies.")
def SCF_END_RE : Pat := rx (py"^-+ <-- SCF")

/-- `scf[-1], scf[:-1]` -/
def splitLast : PyVal → PyM (PyVal × PyVal)
  | .list l =>
    match l.getLast? with
    | some v => .ok (v, .list l.dropLast)
    | none => .error .indexError
  | _ => .error .typeError

/-- castep_file_parser.py:484-497. -/
def cutoff (env : Env) (h : Hit) (rest : List Str) (s : State) : PyM (State × List Str) := do
  let m ← h.match_
  let ncut ← pyInt ((m.group 1).getD [])
  let (_, rest) ← nextLine rest
  match Block.from_re [] rest (fun _ => true) (found SCF_END_RE) (ncut * 3) false with
  | (.error e, _) => .error e
  | (.ok b, rest) => do
    let runs ← env.recur (Filters.HIGH ||| Filters.SCF) b.data
    let data ← get_only runs
    let (scf, data) ← popItem data (py"scf")
    let (energies, data) ← popItem data (py"energies")
    let r := s.curr.set (.str (py"bsc_energies")) energies
    let (a, b) ← splitLast scf
    let r := (r.set (.str (py"scf")) a).set (.str (py"bsc_scf")) b
    return ({ s with curr := updateDict r data }, rest)

/-- `curr_run["energies"][key].append(to_type(get_numbers(line)[-1], float))`, castep_file_parser.py:500-550. -/
def energy (key : Str) (_ : Env) (h : Hit) (r : Run) : PyM Run := do
  let v ← numLast h.line
  pushIn (py"energies") key v r

/-- castep_file_parser.py:560-562. -/
def solvation (_ : Env) (h : Hit) (r : Run) : PyM Run := do
  let v ← numbersOf h.line
  match elems v with
  | [x] => pushIn (py"energies") (py"solvation") x r
  | _ => .error .typeError

/-- castep_file_parser.py:572-577. -/
def spinDensity (_ : Env) (h : Hit) (r : Run) : PyM Run := do
  let m ← h.match_
  let val ← grp m (py"val")
  let v ← match Str.split val with
    | [_] => to_type .float (.str val)
    | ws => to_type .float (strList ws)
  MdGeom.appendTo r (.str (if c!"|" ∈ h.line then py"modspin" else py"spin")) v

/-- castep_file_parser.py:600. -/
def symmetry (_ : Env) (h : Hit) (r : Run) : PyM Run := do
  let (sym, con) ← process_symmetry h.block
  return (r.set (.str (py"symmetries")) (.dict sym)).set (.str (py"constraints")) (.dict con)

/-- castep_file_parser.py:610-614. -/
def endpoint (_ : Env) (h : Hit) (r : Run) : PyM Run := do
  let v ← process_atreg_block h.block
  return r.set (.str (if Str.contains (py"Reactant") h.line then py"reactant" else py"product")) v

/-- A labelled position, castep_file_parser.py:629-638: the positions and the labels. -/
def labelledLine (s : Dict Key PyVal × Dict Key PyVal) (line : Str) : PyM (Dict Key PyVal × Dict Key PyVal) :=
  match Res.LABELLED_POS_RE.search line with
  | none => .ok s
  | some m => do
    let i ← intOfGroup (m.named (py"index"))
    let spec ← grp m (py"spec")
    let label ← grp m (py"label")
    let lab := Str.strip label
    let v ← Header.vecOf m
    let key : Key := .tup [.str spec, .int i]
    if lab.isEmpty then return (s.1.set key v, s.2.set key (.str (py"NULL")))
    else return (s.1.set (.tup [.str (spec ++ py" [" ++ lab ++ py"]"), .int i]) v, s.2.set key (.str lab))

/-- castep_file_parser.py:624-638. -/
def labelledPositions (_ : Env) (h : Hit) (r : Run) : PyM Run := do
  let r := ensure r (.str (py"labels"))
  match r.get? (.str (py"labels")) with
  | some (.dict labels) => do
    let (pos, labels) ← foldLines labelledLine ([], labels) h.block
    return (r.set (.str (py"labels")) (.dict labels)).set (.str (py"initial_positions")) (.dict pos)
  | _ => .error .typeError

/-- A line of a mixture block, castep_file_parser.py:652-664: the positions, and `idx` and `pos`. -/
def mixtureLine (s : Dict Key PyVal × Option (Int × PyVal)) (line : Str) :
    PyM (Dict Key PyVal × Option (Int × PyVal)) :=
  match Res.MIXTURE_LINE_1_RE.search line with
  | some m => do
    let idx ← intOfGroup (m.named (py"index"))
    let pos ← Header.vecOf m
    let w ← grpFloat m (py"weight")
    return (s.1.set (.tup [grpKey m (py"spec"), .int idx]) (.dict [(.str (py"pos"), pos), (.str (py"weight"), w)]),
      some (idx, pos))
  | none =>
    match Res.MIXTURE_LINE_2_RE.search line with
    | none => .ok s
    | some m => do
      let spec ← grp m (py"spec")
      let w ← grpFloat m (py"weight")
      match s.2 with
      | none => .error .nameError
      | some (idx, pos) =>
        return (s.1.set (.tup [.str (Str.strip spec), .int idx])
          (.dict [(.str (py"pos"), pos), (.str (py"weight"), w)]), s.2)

/-- castep_file_parser.py:650-664. -/
def mixture (_ : Env) (h : Hit) (rest : List Str) (s : State) : PyM (State × List Str) := do
  let (pos, mix) ← foldLines mixtureLine ([], s.mix) h.block
  return ({ s with curr := s.curr.set (.str (py"initial_positions")) (.dict pos), mix := mix }, rest)

/-- Rows of three of the numbers, castep_file_parser.py:678-680: running out of them is a `RuntimeError`, as the
`StopIteration` is raised inside a generator. -/
def rows3 : Nat → List Str → PyM (List PyVal)
  | 0, _ => .ok []
  | n + 1, a :: b :: c :: l => do
    let v ← to_type .float (strList [a, b, c])
    let rows ← rows3 n l
    return v :: rows
  | _ + 1, _ => .error .runtimeError

/-- castep_file_parser.py:678-680. -/
def supercell (_ : Env) (h : Hit) (r : Run) : PyM Run := do
  let rows ← rows3 3 (Res.get_numbers h.line)
  return r.set (.str (py"supercell")) (.tuple rows)

/-- castep_file_parser.py:714-718. -/
def targetStress (lines : List Str) : PyM PyVal := do
  let v ← to_type .float (strList (lines.flatMap Res.get_numbers))
  return .list (elems v)

def DEDLNE_RE : Pat := rx (py r"finite basis dEtot\/dlog\(Ecut\) = +(" ++ Res.FNUMBER_s ++ py")")

/-- castep_file_parser.py:724. -/
def dedlne (_ : Env) (h : Hit) (r : Run) : PyM Run := do
  let m ← h.match_
  let v ← to_type .float (optStr (m.group 1))
  return r.set (.str (py"dedlne")) v

/-- castep_file_parser.py:753-754. -/
def appliedField (_ : Env) (_ : Hit) (rest : List Str) (s : State) : PyM (State × List Str) := do
  let (l, rest) ← nextLine rest
  let v ← numbersOf l
  return ({ s with curr := s.curr.set (.str (py"applied_field")) v }, rest)

/-- castep_file_parser.py:762-768 and 790-798. -/
def kinds (key : Str) (f : List Str → PyM (Key × PyVal)) (_ : Env) (h : Hit) (r : Run) : PyM Run := do
  let (kind, v) ← f h.block
  appendIn (ensure r (.str key)) (.str key) kind v

/-- castep_file_parser.py:779-784. -/
def comForce (_ : Env) (h : Hit) (r : Run) : PyM Run := do
  let ns ← Cell.mapM' (fun l => at_ (Res.get_numbers l) 0) (h.block.filter (Str.startsWith · (py" dF")))
  let v ← to_type .float (strList ns)
  pushIn (py"forces") (py"com_force_removal") v r

/-- castep_file_parser.py:872-875 and 885-888. -/
def twoMatrices (key1 key2 : Str) (_ : Env) (h : Hit) (r : Run) : PyM Run := do
  let (a, b) ← process_3_6_matrix true h.block
  let r := r.set (.str key1) a
  return if b.truthy then r.set (.str key2) b else r

/-- The first matrix of `_process_3_6_matrix(block, split=False)`. -/
def oneMatrix (lines : List Str) : PyM PyVal := do
  let (a, _) ← process_3_6_matrix false lines
  return a

/-- `curr_run["elastic"][key] = val` -/
def elasticItem (key : Str) (lines : List Str) (r : Run) : PyM Run := do
  let v ← oneMatrix lines
  setIn (ensure r (.str (py"elastic"))) (.str (py"elastic")) (.str key) v

/-- The names of the positions and the cell within a step, castep_file_parser.py:1023-1025 and 1074-1076. -/
def stepAliases (d : Run) : Run :=
  (add_aliases d [(.str (py"initial_positions"), .str (py"positions")), (.str (py"initial_cell"), .str (py"cell"))]
    (replace := true)).1

/-- `next(block); data = get_only(parse_castep_file(block)); add_aliases(...)`, castep_file_parser.py:1021-1025 and
1081-1086. -/
def stepData (env : Env) (block : List Str) : PyM Run := do
  let (_, rest) ← nextLine block
  let runs ← env.recur Filters.HIGH rest
  let data ← get_only runs
  return stepAliases data

/-- castep_file_parser.py:1018-1031: the message of the log creates `curr_run["md"]`. -/
def mdStep (env : Env) (h : Hit) (r : Run) : PyM Run := do
  let r := ensure r (.str (py"md")) (.list [])
  let data ← stepData env h.block
  let memory : Key := .str (py"memory_estimate")
  let r := match data.get? memory with
    | some v => r.set memory v
    | none => r
  MdGeom.appendTo r (.str (py"md")) (.dict (data.erase memory))

/-- castep_file_parser.py:1041. -/
def mdData (_ : Env) (h : Hit) (r : Run) : PyM Run := do
  let d ← process_md_block h.block
  return updateDict r d

/-- castep_file_parser.py:1054: without a `geom_opt` the item of an empty list is assigned. -/
def finalConfig (_ : Env) (h : Hit) (r : Run) : PyM Run := do
  let v ← process_final_config h.block
  match r.get? (.str (py"geom_opt")) with
  | some (.dict g) => return r.set (.str (py"geom_opt")) (.dict (Dict.set g (.str (py"final_configuration")) v))
  | _ => .error .typeError

/-- The keys of the data of the first iteration, castep_file_parser.py:1067-1068. -/
def FIRST_KEYS : List Key :=
  [py"enthalpy", py"initial_cell", py"initial_positions", py"scf", py"forces", py"stresses", py"minimisation"].map .str
/-- The keys that are moved there, castep_file_parser.py:1070. -/
def MOVED_KEYS : List Key := [py"enthalpy", py"scf", py"forces", py"stresses", py"minimisation"].map .str

/-- castep_file_parser.py:1063-1078: what the first iteration takes from the run. -/
def firstIteration (r : Run) (g : Dict Key PyVal) : Run × Dict Key PyVal :=
  match g.get? (.str (py"iterations")) with
  | some (.list (_ :: _)) => (r, g)
  | _ =>
    let data := stepAliases (r.filter fun kv => FIRST_KEYS.contains kv.1)
    (MOVED_KEYS.foldl (fun r k => r.erase k) r, g.set (.str (py"iterations")) (.list [.dict data]))

/-- castep_file_parser.py:1063-1088. -/
def geomIteration (env : Env) (h : Hit) (r : Run) : PyM Run := do
  let k : Key := .str (py"geom_opt")
  let r := ensure r k
  match r.get? k with
  | some (.dict g) => do
    let (r, g) := firstIteration r g
    let data ← stepData env h.block
    let g ← MdGeom.appendTo g (.str (py"iterations")) (.dict data)
    return r.set k (.dict g)
  | _ => .error .typeError

/-- castep_file_parser.py:1096-1102. -/
def enthalpy (_ : Env) (h : Hit) (r : Run) : PyM Run := do
  let v ← numLast h.line
  MdGeom.appendTo (ensure r (.str (py"geom_opt"))) (.str (py"enthalpy")) v

/-- castep_file_parser.py:1106-1108. -/
def trial (_ : Env) (h : Hit) (r : Run) : PyM Run := do
  let m ← h.match_
  let v ← floatV ((m.group 1).getD [])
  pushIn (py"geom_opt") (py"trial") v r

/-- castep_file_parser.py:1118-1121. -/
def finalItem (_ : Env) (h : Hit) (r : Run) : PyM Run := do
  let m ← h.match_
  let key := Str.join (py"_") (Str.split (Str.lower (normalise_string ((m.named (py"key")).getD []))))
  let v ← to_type .float (optStr (m.named (py"value")))
  match r.get? (.str (py"geom_opt")) with
  | some (.dict g) =>
    match Dict.get? g (.str (py"final_configuration")) with
    | some (.dict c) =>
      return r.set (.str (py"geom_opt")) (.dict (Dict.set g (.str (py"final_configuration")) (.dict (Dict.set c (.str key) v))))
    | _ => .error .typeError
  | _ => .error .typeError

/-- castep_file_parser.py:1303-1304. -/
def CONTRIBUTION_RE : Pat := rx (py r"(?P<type>.* Contribution)")

/-- castep_file_parser.py:1303-1307. -/
def contributionCheck (h : Hit) : PyM Unit :=
  match CONTRIBUTION_RE.match_ h.line with
  | none => .error .valueError
  | some _ => .ok ()

/-- castep_file_parser.py:1303-1317. -/
def contribution (_ : Env) (h : Hit) (r : Run) : PyM Run :=
  match CONTRIBUTION_RE.match_ h.line with
  | none => .error .valueError
  | some m => elasticItem ((m.named (py"type")).getD []) (h.block.drop 1) r

/-- `PARSERS`, castep_file_parser.py:95-106. -/
def PARSERS (order : List Str → List Str) : List (Str × (List Str → PyM PyVal)) :=
  [(py"bands", parse_bands_file), (py"hug", parse_hug_file), (py"phonon_dos", parse_phonon_dos_file),
   (py"efield", parse_efield_file), (py"xrd_sf", parse_xrd_sf_file order), (py"elf_fmt", parse_kpt_info),
   (py"chdiff_fmt", parse_kpt_info), (py"pot_fmt", parse_kpt_info), (py"den_fmt", parse_kpt_info),
   (py"elastic", parse_elastic_file)]

def PARSER_NAMES_s : Str := Str.join (py"|") ((PARSERS id).map (·.1))
def BEGIN_RE : Pat := rx (py"<BEGIN (" ++ PARSER_NAMES_s ++ py")>")
def END_RE : Pat := rx (py"<END (" ++ PARSER_NAMES_s ++ py")>")
def BEGIN_NAME_RE : Pat := rx (py r"BEGIN (\w+)")

/-- castep_file_parser.py:1382-1391. -/
def external (env : Env) (h : Hit) (r : Run) : PyM Run :=
  match BEGIN_NAME_RE.search h.line with
  | none => .error .attributeError
  | some m =>
    let key := (m.group 1).getD []
    match Dict.get? (PARSERS env.order) key with
    | none => .error .keyError
    | some f => do
      let v ← f (Block.sliceBounds h.block 1 1)
      setIn (ensure r (.str (py"external_files"))) (.str (py"external_files")) (.str key) v

/-! ### Patterns -/

def COMPILED_RE : Pat := rx (py r"^\s*Compiled for")
def QUERIES_RE : Pat := rx (Res.gen_table_re [] (py r"\?+"))
def MEMORY_START_RE : Pat := rx (Res.gen_table_re (py r"MEMORY AND SCRATCH[\w\s]+") (py"[+-]+"))
def PLUSMINUS_RE : Pat := rx (Res.gen_table_re [] (py"[+-]+"))
def TITLE_RE : Pat := rx (Res.gen_table_re (py"Title") (py r"\*+"))
def PARAMS_RE : Pat := rx (Res.gen_table_re (py"[^*]+ Parameters") (py r"\*+"))
def MASS_RE : Pat := rx (py"Mass of species in AMU")
def QUADRUPOLE_RE : Pat := rx (py"Electric Quadrupole Moment")
def QUADRUPOLE_END_RE : Pat := rx (py"(" ++ Res.EMPTY_s ++ py r"|^\s*x+$)")
def PSPOT_FILES_RE : Pat := rx (py"Files used for pseudopotentials")
def PSPOT_REPORT_RE : Pat := rx (Res.gen_table_re (py"Pseudopotential Report[^|]+") (py r"\|"))
def DOUBLE_RE : Pat := rx (Res.gen_table_re [] (py"=+"))
def DASHES_RE : Pat := rx (Res.gen_table_re [] (py"-+"))
def PSPOT_DEBUG_RE : Pat :=
  rx (py r"\s*(?P<type>AE|PS) eigenvalue nl (?P<nl>\d+) =" ++ Res.labelled_floats [py"eigenvalue"])
def PAIR_RE : Pat := rx (Res.gen_table_re (py"PairParams") (py r"\*+") (pre := py r"\w*"))
def DFTD_START_RE : Pat := rx (py"DFT-D parameters")
def SCF_RE : Pat := rx (py"SCF loop")
def WVFN_RE : Pat := rx (Res.gen_table_re (py"WAVEFUNCTION LINE MINIMISATION") (py"[+-]+") (post := py"<- line"))
def WVFN_END_RE : Pat := rx (Res.gen_table_re [] (py"[+-]+") (post := py"<- line"))
def OCCUPANCY_RE : Pat := rx (Res.gen_table_re (py"Occupancy") (py r"\|") (post := py"<- occ") (whole_line := false))
def NICE_DAY_RE : Pat := rx (py r"Have a nice day\.")
def FREE_ENERGY_RE : Pat := rx (py r"Final free energy \(E-TS\) += +(" ++ Res.EXPFNUMBER_s ++ py")")
def UNIT_CELL_RE : Pat := rx (Res.gen_table_re (py"Unit Cell"))
def SYMMETRY_RE : Pat := rx (Res.gen_table_re (py"Symmetry and Constraints"))
def CELL_CONSTRAINTS_RE : Pat := rx (py"Cell constraints are")
def TSS_RE : Pat := rx (Res.gen_table_re (py"(Reactant|Product)") (py"x"))
def LABELLED_RE : Pat := rx (py r"Fractional coordinates of atoms\s+User-defined")
def MIXTURE_RE : Pat := rx (py r"Mixture\s+Fractional coordinates of atoms")
def FRACTIONAL_RE : Pat := rx (py"Fractional coordinates of atoms")
def VELOCITIES_RE : Pat := rx (py"User Supplied Ionic Velocities")
def MAGNETIC_RE : Pat := rx (py"Initial magnetic")
def PRESSURE_RE : Pat := rx (py"External pressure/stress")
def ANY_RE : Pat := rx []
def KPOINTS_RE : Pat := rx (py"k-Points For BZ Sampling")
def KPOINT_TABLE_RE : Pat := rx (Res.gen_table_re (py"Number +Fractional coordinates +Weight") (py r"\+"))
def PLUSES_RE : Pat := rx (Res.gen_table_re [] (py r"\++"))
def STAR_END_RE : Pat := rx (py r"^\s*\*+$")
def COM_RE : Pat := rx (py"firstd_calculate: removing force on centre of mass")
def VIBRATION_RE : Pat := rx (py"Vibrational Frequencies")
def PHONON_SYM_RE : Pat := rx (py"Phonon Symmetry Analysis")
def DYNAMICAL_RE : Pat := rx (Res.gen_table_re (py"Dynamical matrix"))
def RAMAN_RE : Pat := rx (Res.gen_table_re (py"Raman Susceptibility Tensors[^+]*") (py r"\+"))
def AUTOSOLV_RE : Pat := rx (Res.gen_table_re (py"AUTOSOLVATION CALCULATION RESULTS") (py r"\*+"))
def AUTOSOLV_END_RE : Pat := rx (py r"^\s*\*+\s*$")
def PERMITTIVITY_RE : Pat := rx (py r"^\s+Optical Permittivity")
def OPTICS_END_RE : Pat := rx (py"^ =+$")
def POLARISABILITY_RE : Pat := rx (py r"^\s+Polarisabilit(y|ies)")
def NLO_RE : Pat := rx (py r"^\s+Nonlinear Optical Susceptibility")
def ADP_RE : Pat := rx (Res.gen_table_re (py r"Atomic Displacement Parameters \(A\*\*2\)"))
def THERMO_RE : Pat := rx (Res.gen_table_re (py"Thermodynamics"))
def MULLIKEN_RE : Pat := rx (Res.gen_table_re (py r"Atomic Populations \(Mulliken\)"))
def BORN_START_RE : Pat := rx (Res.gen_table_re (py"Born Effective Charges"))
def ORBITAL_RE : Pat := rx (Res.gen_table_re (py"Orbital Populations"))
def BOND_START_RE : Pat := rx (py r"Bond\s+Population(?:\s+Spin)?\s+Length")
def HIRSHFELD_START_RE : Pat := rx (Res.gen_table_re (py"Hirshfeld Analysis"))
def ELF_START_RE : Pat := rx (Res.gen_table_re (py"ELF grid sample"))
def MD_STEP_RE : Pat := rx (py"Starting MD iteration")
def MD_STEP_END_RE : Pat := rx (py"(finished MD iteration|Finished MD$)")
def MD_START_RE : Pat := rx (py"Starting MD")
def MD_TABLE_RE : Pat := rx (Res.gen_table_re (py"MD Data:") (py"x"))
def CONFIG_RE : Pat := rx (py"Final Configuration")
def CONFIG_END_RE : Pat := rx (py r"\s*" ++ Res.MINIMISERS_s ++ py r"\s*: Final")
def GEOM_RE : Pat := rx (py"Starting " ++ Res.MINIMISERS_s ++ py r" iteration\s*\d+\s*\.{3}")
def GEOM_END_RE : Pat := rx (py r"^=+$|^\s*Finished\s+" ++ Res.MINIMISERS_s ++ py r"\s*$")
def ENTHALPY_RE : Pat :=
  rx (py"(?P<minim>" ++ Res.MINIMISERS_s ++ py"):" ++ py r" finished iteration\s*\d+\s*with enthalpy")
def TRIAL_RE : Pat := rx (py r"trial guess \(lambda=\s*(" ++ Res.EXPFNUMBER_s ++ py r")\)")
def FINAL_ITEM_RE : Pat :=
  rx (ci := true) (py r"^\s*(?:" ++ Res.MINIMISERS_s ++ py r"):\s*" ++ py r"(?P<key>Final [^=]+)=\s*" ++
    py"(?P<value>" ++ Res.EXPFNUMBER_s ++ py").*")
def GEOM_TABLE_RE : Pat := rx (py"<--( min)? " ++ Res.MINIMISERS_s ++ py"$")
def GEOM_TABLE_END_RE : Pat := rx (py r"\+(?:-+\+){4,5}")
def INTERNAL_RE : Pat := rx (py"INTERNAL CONSTRAINTS")
def DELOC_RE : Pat := rx (py"Message: Generating deloc")
def DELOC_END_RE : Pat := rx (py"Message: Generation of deloc")
def ACT_SPACE_RE : Pat := rx (py"The size of active space")
def TDDFT_START_RE : Pat := rx (Res.gen_table_re (py"TDDFT excitation energies") (py r"\+") (post := py"TDDFT"))
def TDDFT_END_RE : Pat := rx (Res.gen_table_re (py"=+") (py r"\+") (post := py"TDDFT"))
def BAND_RE : Pat := rx (Res.gen_table_re (py"(B A N D|Band Structure Calculation)[^+]+") (py r"\+"))
def DIPOLE_RE : Pat :=
  rx (Res.gen_table_re (py"D I P O L E   O F   M O L E C U L E   I N   S U P E R C E L L") (py r"\+"))
def SHIELDING_RE : Pat := rx (Res.gen_table_re (py"Chemical Shielding Tensor") (py r"\|"))
def SHIELDING_EFG_RE : Pat :=
  rx (Res.gen_table_re (py"Chemical Shielding and Electric Field Gradient Tensors") (py r"\|"))
def EFG_RE : Pat := rx (Res.gen_table_re (py"Electric Field Gradient Tensor") (py r"\|"))
def JCOUPLING_RE : Pat := rx (Res.gen_table_re (py"(?:I|Ani)sotropic J-coupling") (py r"\|"))
def HYPERFINE_RE : Pat := rx (Res.gen_table_re (py"Hyperfine Tensor") (py r"\|"))
def ELASTIC_RE : Pat := rx (Res.gen_table_re (py r"Elastic Constants Tensor \(GPa\)"))
def COMPLIANCE_RE : Pat := rx (Res.gen_table_re (py r"Compliance Matrix \(GPa\^-1\)"))
def CONTRIBUTION_START_RE : Pat := rx (py"Contribution ::")
def ELASTIC_PROP_RE : Pat := rx (Res.gen_table_re (py"Elastic Properties"))
def BERRY_VERBOSE_RE : Pat := rx (py r"^\s*Ionic contribution to polarisation")
def BERRY_RE : Pat := rx (py r"^\s*Polarisation")
def MODOS_RE : Pat := rx (py"Calculating MODOS weights")

/-- castep_file_parser.py:1000-1015: a step of molecular dynamics, or the zeroth. -/
def takeMd (line : Str) (rest : List Str) : PyM (Option Hit × List Str) :=
  match takeBlock MD_STEP_RE MD_STEP_END_RE 1 false line rest with
  | .ok (none, rest) => takeBlock MD_START_RE DOUBLE_RE 1 false line rest
  | r => r

/-- castep_file_parser.py:210-213: the run so far is complete. -/
def newRun (s : State) : State :=
  { s with runs := if s.curr.isEmpty then s.runs else s.runs ++ [s.curr], curr := [] }

/-! ### The table -/

/-- The branches of the main loop in order, castep_file_parser.py:204-1391. -/
def sections : List Section := [
  -- 204-218
  { name := py"build info", grab := takeBlock COMPILED_RE EMPTY_RE, cut := newRun, wants := needs Filters.SYS_INFO,
    act := onRun (store (py"build_info") process_buildinfo) },
  -- 220-225
  { name := py"run started", grab := takeLine (Str.contains (py"Run started")), wants := needs Filters.SYS_INFO,
    act := onRun timeStarted },
  -- 227-240
  { name := py"finalisation", grab := takeFinal, wants := needs Filters.SYS_INFO, act := onRun finalisation },
  -- 242-249
  { name := py"parallel efficiency", grab := takeLine (Str.startsWith · (py"Overall parallel efficiency rating")),
    wants := needs Filters.SYS_INFO, act := onRun efficiency },
  -- 251-259
  { name := py"continuation", grab := takeLine (Str.startsWith · (py"Reading continuation data")),
    wants := needs Filters.SYS_INFO, act := onRun continuation },
  -- 261-272
  { name := py"warning box", grab := takeBlock QUERIES_RE QUERIES_RE, wants := needs Filters.SYS_INFO,
    act := onRun warningBox },
  -- 274-290
  { name := py"warning", grab := takeMatch WARNING_RE, wants := needs Filters.SYS_INFO, act := warning },
  -- 292-302
  { name := py"memory estimate", grab := takeBlock MEMORY_START_RE PLUSMINUS_RE, wants := needs Filters.SYS_INFO,
    act := onRun (push (py"memory_estimate") process_memory_est) },
  -- 304-312
  { name := py"title", grab := takeMatch TITLE_RE, wants := needs Filters.PARAMETERS, act := title },
  -- 314-324
  { name := py"parameters", grab := takeBlock PARAMS_RE STARS_RE, wants := needs Filters.PARAMETERS,
    act := onRun (store (py"options") process_params) },
  -- 326-334
  { name := py"quantisation axis", grab := takeLine (Str.contains (py"Quantisation axis")),
    wants := needs Filters.SPECIES_PROPS, act := onRun quantisation },
  -- 336-348
  { name := py"pseudo-atomic energy", grab := takeBlock Res.PS_SHELL_RE EMPTY_RE 2,
    wants := needs Filters.SPECIES_PROPS, act := onRun psEnergy },
  -- 350-361
  { name := py"mass", grab := takeBlock MASS_RE EMPTY_RE, wants := needs Filters.SPECIES_PROPS, act := onRun mass },
  -- 363-375
  { name := py"quadrupole moment", grab := takeBlock QUADRUPOLE_RE QUADRUPOLE_END_RE,
    wants := needs Filters.SPECIES_PROPS, act := onRun quadrupole },
  -- 377-391
  { name := py"pseudopotentials", grab := takeBlock PSPOT_FILES_RE EMPTY_RE, wants := needs Filters.SPECIES_PROPS,
    act := onRun pseudopot },
  -- 393-403
  { name := py"pseudopotential report", grab := takeBlock PSPOT_REPORT_RE DOUBLE_RE, wants := needs Filters.PSPOT,
    act := onRun (push (py"pspot_detail") process_pspot_report) },
  -- 405-416
  { name := py"pseudopotential debug", grab := takeMatch PSPOT_DEBUG_RE, wants := needs Filters.PSPOT,
    act := onRun pspotDebug },
  -- 418-428
  { name := py"pair params", grab := takeBlock PAIR_RE EMPTY_RE, wants := needs Filters.PARAMETERS,
    act := onRun (push (py"pair_params") process_pair_params) },
  -- 430-440
  { name := py"dftd", grab := takeBlock DFTD_START_RE EMPTY_RE 3, wants := needs Filters.PARAMETERS,
    act := onRun (store (py"dftd") process_dftd) },
  -- 442-450
  { name := py"scf", grab := takeBlock SCF_RE SCF_END_RE 2, wants := needs Filters.SCF,
    act := onRun (push (py"scf") process_scf) },
  -- 452-463
  { name := py"wvfn line min", grab := takeBlock WVFN_RE WVFN_END_RE 2, wants := needs Filters.SCF,
    act := onRun (push (py"wvfn_line_min") process_wvfn_line_min) },
  -- 465-476
  { name := py"occupancies", grab := takeBlock OCCUPANCY_RE NICE_DAY_RE, wants := needs Filters.SCF,
    act := onRun (push (py"occupancies") process_occupancies) },
  -- 478-497
  { name := py"cut-off energies", grab := takeSearch CUTOFF_RE, wants := needs Filters.SCF, act := cutoff },
  -- 499-506
  { name := py"final energy", grab := takeLine (Str.startsWith · (py"Final energy")), wants := always,
    act := onRun (energy (py"final_energy")) },
  -- 508-516
  { name := py"corrected energy", grab := takeLine (Str.contains (py"Total energy corrected for finite basis set")),
    wants := always, act := onRun (energy (py"final_basis_set_corrected")) },
  -- 518-524
  { name := py"0K energy", grab := takeLine (Str.contains (py"0K energy (E-0.5TS)")), wants := always,
    act := onRun (energy (py"est_0K")) },
  -- 526-532
  { name := py"sedc correction", grab := takeLine (Str.startsWith · (py"(SEDC) Total Energy")), wants := always,
    act := onRun (energy (py"sedc_correction")) },
  -- 534-541
  { name := py"dispersion corrected", grab := takeLine (Str.startsWith · (py"Dispersion corrected final energy")),
    wants := always, act := onRun (energy (py"disperson_corrected")) },
  -- 543-550
  { name := py"free energy", grab := takeMatch FREE_ENERGY_RE, wants := always,
    act := onRun (energy (py"free_energy")) },
  -- 552-562
  { name := py"solvation energy", grab := takeLine (Str.startsWith · (py" Free energy of solvation")),
    wants := needs Filters.SOLVATION, act := onRun solvation },
  -- 564-577
  { name := py"spin density", grab := takeMatch Res.INTEGRATED_SPIN_DENSITY_RE,
    wants := fun f => needs Filters.SCF f || needs Filters.SPIN f, act := onRun spinDensity },
  -- 579-588
  { name := py"initial cell", grab := takeBlock UNIT_CELL_RE EMPTY_RE 3, wants := needs Filters.CELL,
    act := onRun (store (py"initial_cell") process_unit_cell) },
  -- 590-600
  { name := py"symmetry", grab := takeBlock SYMMETRY_RE CELL_CONSTRAINTS_RE, wants := needs Filters.SYMMETRIES,
    act := onRun symmetry },
  -- 602-614
  { name := py"reactant or product", grab := takeBlock TSS_RE XLINE_RE 2,
    wants := fun f => needs Filters.TSS f && needs Filters.POSITION f, act := onRun endpoint },
  -- 616-638
  { name := py"labelled positions", grab := takeBlock LABELLED_RE XLINE_RE, wants := needs Filters.POSITION,
    act := onRun labelledPositions },
  -- 641-664
  { name := py"mixture positions", grab := takeBlock MIXTURE_RE XLINE_RE, wants := needs Filters.POSITION,
    act := mixture },
  -- 666-675
  { name := py"initial positions", grab := takeBlock FRACTIONAL_RE XLINE_RE, wants := needs Filters.POSITION,
    act := onRun (store (py"initial_positions") process_atreg_block) },
  -- 677-680
  { name := py"supercell", grab := takeLine (Str.contains (py"Supercell generated")), wants := always,
    act := onRun supercell },
  -- 682-692
  { name := py"initial velocities", grab := takeBlock VELOCITIES_RE XLINE_RE, wants := needs Filters.POSITION,
    act := onRun (store (py"initial_velocities") process_atreg_block) },
  -- 694-704
  { name := py"initial spins", grab := takeBlock MAGNETIC_RE XLINE_RE, wants := needs Filters.PARAMETERS,
    act := onRun (store (py"initial_spins") process_initial_spins) },
  -- 706-718
  { name := py"target stress", grab := takeBlock PRESSURE_RE ANY_RE 3, wants := needs Filters.PARAMETERS,
    act := onRun (push (py"target_stress") targetStress) },
  -- 720-724
  { name := py"dedlne", grab := takeSearch DEDLNE_RE, wants := always, act := onRun dedlne },
  -- 726-734
  { name := py"k-points", grab := takeBlock KPOINTS_RE EMPTY_RE, wants := needs Filters.PARAMETERS,
    act := onRun (store (py"k-points") (process_kpoint_blocks true)) },
  -- 736-745
  { name := py"k-points list", grab := takeBlock KPOINT_TABLE_RE PLUSES_RE, wants := needs Filters.PARAMETERS,
    act := onRun (store (py"k-points") (process_kpoint_blocks false)) },
  -- 747-754
  { name := py"applied field", grab := takeLine (Str.contains (py"Applied Electric Field")),
    wants := needs Filters.PARAMETERS, act := appliedField },
  -- 756-768
  { name := py"forces", grab := takeBlock Res.FORCES_BLOCK_RE STAR_END_RE, wants := needs Filters.FORCE,
    act := onRun (kinds (py"forces") process_forces) },
  -- 770-784
  { name := py"force removal", grab := takeBlock COM_RE EMPTY_RE, wants := needs Filters.FORCE,
    act := onRun comForce },
  -- 786-798
  { name := py"stresses", grab := takeBlock Res.STRESSES_BLOCK_RE STAR_END_RE, wants := needs Filters.STRESS,
    act := onRun (kinds (py"stresses") process_stresses) },
  -- 800-812
  { name := py"phonons", grab := takeBlock VIBRATION_RE DOUBLE_RE, wants := needs Filters.PHONON,
    act := onRun (store (py"phonons") process_phonon) },
  -- 814-824
  { name := py"phonon symmetry", grab := takeBlock PHONON_SYM_RE EMPTY_RE, wants := needs Filters.PHONON,
    act := onRun (push (py"phonon_symmetry_analysis") process_phonon_sym) },
  -- 826-837
  { name := py"dynamical matrix", grab := takeBlock DYNAMICAL_RE DASHES_RE, wants := needs Filters.PHONON,
    act := onRun (store (py"dynamical_matrix") process_dynamical_matrix) },
  -- 839-849
  { name := py"raman", grab := takeBlock RAMAN_RE EMPTY_RE, wants := needs Filters.PHONON,
    act := onRun fun env => push (py"raman") (process_raman env.ops) env },
  -- 851-861
  { name := py"autosolvation", grab := takeBlock AUTOSOLV_RE AUTOSOLV_END_RE, wants := needs Filters.SOLVATION,
    act := onRun (store (py"autosolvation") process_autosolvation) },
  -- 863-875
  { name := py"permittivity", grab := takeBlock PERMITTIVITY_RE OPTICS_END_RE, wants := needs Filters.OPTICS,
    act := onRun (twoMatrices (py"optical_permittivity") (py"dc_permittivity")) },
  -- 877-888
  { name := py"polarisability", grab := takeBlock POLARISABILITY_RE OPTICS_END_RE, wants := needs Filters.OPTICS,
    act := onRun (twoMatrices (py"optical_polarisability") (py"static_polarisability")) },
  -- 890-899
  { name := py"nlo", grab := takeBlock NLO_RE OPTICS_END_RE, wants := needs Filters.OPTICS,
    act := onRun (store (py"nlo") oneMatrix) },
  -- 901-912
  { name := py"atomic displacements", grab := takeBlock ADP_RE DASHES_RE 3, wants := needs Filters.THERMODYNAMICS,
    act := onRun (store (py"atomic_displacements") process_atom_disp) },
  -- 914-925
  { name := py"thermodynamics", grab := takeBlock THERMO_RE DASHES_RE 3, wants := needs Filters.THERMODYNAMICS,
    act := onRun (store (py"thermodynamics") process_thermodynamics) },
  -- 927-937
  { name := py"mulliken", grab := takeBlock MULLIKEN_RE DOUBLE_RE 2, wants := needs Filters.POPN_ANALYSIS,
    act := onRun (store (py"mulliken_popn") process_mulliken) },
  -- 939-949
  { name := py"born", grab := takeBlock BORN_START_RE DOUBLE_RE, wants := needs Filters.POPN_ANALYSIS,
    act := onRun (push (py"born") process_born) },
  -- 951-961
  { name := py"orbital populations", grab := takeBlock ORBITAL_RE DASHES_RE 3, wants := needs Filters.POPN_ANALYSIS,
    act := onRun (store (py"orbital_popn") process_orbital_populations) },
  -- 963-973
  { name := py"bonds", grab := takeBlock BOND_START_RE DOUBLE_RE 2, wants := needs Filters.POPN_ANALYSIS,
    act := onRun (store (py"bonds") process_bond_analysis) },
  -- 975-985
  { name := py"hirshfeld", grab := takeBlock HIRSHFELD_START_RE DOUBLE_RE 2, wants := needs Filters.POPN_ANALYSIS,
    act := onRun (store (py"hirshfeld") process_hirshfeld) },
  -- 987-997
  { name := py"elf", grab := takeBlock ELF_START_RE DASHES_RE 2, wants := needs Filters.ELF,
    act := onRun (store (py"elf") process_elf) },
  -- 999-1031
  { name := py"md", grab := takeMd, wants := needs Filters.MD, act := onRun mdStep },
  -- 1033-1040
  { name := py"md data", grab := takeBlock MD_TABLE_RE XLINE_RE,
    wants := fun f => needs Filters.MD f || needs Filters.MD_SUMMARY f, act := onRun mdData },
  -- 1042-1054
  { name := py"final configuration", grab := takeBlock CONFIG_RE CONFIG_END_RE,
    wants := fun f => needs Filters.GEOM_OPT f || needs Filters.FINAL_CONFIG f, act := onRun finalConfig },
  -- 1056-1088
  { name := py"geometry iteration", grab := takeBlock GEOM_RE GEOM_END_RE 2, wants := needs Filters.GEOM_OPT,
    act := onRun geomIteration },
  -- 1090-1102
  { name := py"enthalpy", grab := takeSearch ENTHALPY_RE, wants := needs Filters.GEOM_OPT, act := onRun enthalpy },
  -- 1104-1108
  { name := py"trial guess", grab := takeSearch TRIAL_RE, wants := always, act := onRun trial },
  -- 1110-1121
  { name := py"final item", grab := takeMatch FINAL_ITEM_RE, wants := needs Filters.GEOM_OPT, act := onRun finalItem },
  -- 1123-1137
  { name := py"geometry table", grab := takeBlock GEOM_TABLE_RE GEOM_TABLE_END_RE 2, wants := needs Filters.GEOM_OPT,
    act := onRun (push (py"minimisation") process_geom_table) },
  -- 1141-1147
  { name := py"internal constraints", grab := takeBlock INTERNAL_RE EMPTY_RE 2, wants := needs Filters.GEOM_OPT,
    act := onRun (store (py"internal_constraints") process_internal_constraints) },
  -- 1149-1158
  { name := py"delocalised table", grab := takeBlock DELOC_RE DELOC_END_RE, wants := needs Filters.GEOM_OPT,
    act := onRun (merge (py"delocalised_internal") process_deloc_table) },
  -- 1160-1169
  { name := py"active space", grab := takeBlock ACT_SPACE_RE EMPTY_RE, wants := needs Filters.GEOM_OPT,
    act := onRun (merge (py"delocalised_internal") process_deloc_act_space) },
  -- 1171-1181
  { name := py"tddft", grab := takeBlock TDDFT_START_RE TDDFT_END_RE 2, wants := needs Filters.TDDFT,
    act := onRun (store (py"tddft") process_tddft) },
  -- 1183-1194
  { name := py"band structure", grab := takeBlock BAND_RE DOUBLE_RE, wants := needs Filters.BS,
    act := onRun (store (py"bs") process_band_structure) },
  -- 1196-1208
  { name := py"dipole", grab := takeBlock DIPOLE_RE DOUBLE_RE, wants := needs Filters.DIPOLE,
    act := onRun (store (py"molecular_dipole") process_dipole) },
  -- 1210-1221
  { name := py"shielding", grab := takeBlock SHIELDING_RE DOUBLE_RE, wants := needs Filters.CHEM_SHIELDING,
    act := onRun (push (py"magres") (parse_magres_block 0)) },
  -- 1223-1234
  { name := py"shielding and gradient", grab := takeBlock SHIELDING_EFG_RE DOUBLE_RE,
    wants := needs Filters.CHEM_SHIELDING, act := onRun (push (py"magres") (parse_magres_block 1)) },
  -- 1236-1246
  { name := py"field gradient", grab := takeBlock EFG_RE DOUBLE_RE, wants := needs Filters.CHEM_SHIELDING,
    act := onRun (push (py"magres") (parse_magres_block 2)) },
  -- 1248-1258
  { name := py"j-coupling", grab := takeBlock JCOUPLING_RE DOUBLE_RE, wants := needs Filters.CHEM_SHIELDING,
    act := onRun (push (py"magres") (parse_magres_block 3)) },
  -- 1260-1270
  { name := py"hyperfine", grab := takeBlock HYPERFINE_RE DOUBLE_RE, wants := needs Filters.CHEM_SHIELDING,
    act := onRun (push (py"magres") (parse_magres_block 4)) },
  -- 1272-1285
  { name := py"elastic constants", grab := takeBlock ELASTIC_RE DOUBLE_RE, wants := needs Filters.ELASTIC,
    act := onRun fun _ h => elasticItem (py"elastic_constants") h.block },
  -- 1287-1299
  { name := py"compliance", grab := takeBlock COMPLIANCE_RE DOUBLE_RE, wants := needs Filters.ELASTIC,
    act := onRun fun _ h => elasticItem (py"compliance_matrix") h.block },
  -- 1301-1317
  { name := py"contribution", grab := takeBlock CONTRIBUTION_START_RE EMPTY_RE, check := contributionCheck,
    wants := needs Filters.ELASTIC, act := onRun contribution },
  -- 1319-1330
  { name := py"elastic properties", grab := takeBlock ELASTIC_PROP_RE DOUBLE_RE, wants := needs Filters.ELASTIC,
    act := onRun (merge (py"elastic") process_elastic_properties) },
  -- 1332-1344
  { name := py"berry phase verbose", grab := takeBlock BERRY_VERBOSE_RE EQUALS_RE 14,
    wants := needs Filters.POLARISATION, act := onRun (merge (py"berry_phase") process_berry_phase) },
  -- 1346-1356
  { name := py"berry phase", grab := takeBlock BERRY_RE EQUALS_RE 6, wants := needs Filters.POLARISATION,
    act := onRun (merge (py"berry_phase") process_berry_phase) },
  -- 1358-1368
  { name := py"delta scf", grab := takeBlock MODOS_RE EMPTY_RE, wants := needs Filters.DELTA_SCF,
    act := onRun (store (py"delta_scf") process_delta_scf) },
  -- 1370-1391
  { name := py"external files", grab := takeBlock BEGIN_RE END_RE, wants := needs Filters.TEST_EXTRA_DATA,
    act := onRun external }]

/-! ### The loop -/

/-- One line through the branches in order. -/
def dispatch (env : Env) (line : Str) : List Section → List Str → State → PyM (State × List Str)
  | [], rest, s => .ok (s, rest)
  | sec :: secs, rest, s =>
    match sec.grab line rest with
    | .error e => .error e
    | .ok (none, rest) => dispatch env line secs rest s
    | .ok (some h, rest) =>
      match sec.check h with
      | .error e => .error e
      | .ok () => if sec.wants env.filters then sec.act env h rest (sec.cut s) else .ok (sec.cut s, rest)

/-- The main loop, castep_file_parser.py:202, with fuel: every line takes at least itself. -/
def loop (env : Env) (secs : List Section) : Nat → List Str → State → PyM State
  | 0, _, s => .ok s
  | _ + 1, [], s => .ok s
  | fuel + 1, line :: rest, s =>
    match dispatch env line secs rest s with
    | .error e => .error e
    | .ok (s, rest) => loop env secs fuel rest s

/-- castep_file_parser.py:1393-1397. -/
def finish (s : State) : PyM (List Run) :=
  if s.curr.isEmpty then .ok s.runs
  else do
    let r ← fix_data_types s.curr [(.str (py"energies"), .float), (.str (py"solvation"), .float)]
    return s.runs ++ [r]

/-- `parse_castep_file` with a bound on the depth of the recursion. -/
def parseN (order : List Str → List Str) (ops : Ops F64) : Nat → Filters → List Str → PyM (List Run)
  | 0, _, _ => .error .runtimeError
  | depth + 1, filters, lines => do
    let s ← loop ⟨filters, parseN order ops depth, order, ops⟩ sections (lines.length + 1) lines {}
    finish s

/-- `parse_castep_file`, castep_file_parser.py:167-1397, on the lines of the file.  Every recursive call is on
fewer lines, so the bound on the depth is not reached. -/
def parse_castep_file (order : List Str → List Str) (ops : Ops F64) (filters : Filters) (lines : List Str) :
    PyM (List Run) := parseN order ops (lines.length + 1) filters lines

end Verif.Castep

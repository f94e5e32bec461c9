import Verif.Py.Path
import Verif.Py.Value
import Verif.Model.Utility
/-
cli/castep_outputs_main.py, cli/args.py, utilities/dumpers.py: choosing parsers, files and output formats.

Parsers are known by the names of their functions; what they return is a parameter.  The command line enters
after argparse, as the namespace argparse produces.
-/
namespace Verif
namespace Cli

/-! ### Parsers -/

/-- A parser: one of the package's functions, or a callable supplied by the caller. -/
inductive Fn
  | known (name : Str)
  | custom (n : Nat)
  deriving DecidableEq, Repr

/-- `PARSERS`, parsers/__init__.py:57-80. -/
def PARSERS : List (Str × Fn) :=
  [(py"castep", .known (py"parse_castep_file")), (py"cell", .known (py"parse_cell_file")),
   (py"param", .known (py"parse_param_file")), (py"geom", .known (py"parse_md_geom_file")),
   (py"md", .known (py"parse_md_geom_file")), (py"bands", .known (py"parse_bands_file")),
   (py"hug", .known (py"parse_hug_file")), (py"phonon_dos", .known (py"parse_phonon_dos_file")),
   (py"efield", .known (py"parse_efield_file")), (py"xrd_sf", .known (py"parse_xrd_sf_file")),
   (py"elf_fmt", .known (py"parse_elf_fmt_file")), (py"chdiff_fmt", .known (py"parse_chdiff_fmt_file")),
   (py"pot_fmt", .known (py"parse_pot_fmt_file")), (py"den_fmt", .known (py"parse_den_fmt_file")),
   (py"elastic", .known (py"parse_elastic_file")), (py"ts", .known (py"parse_ts_file")),
   (py"magres", .known (py"parse_magres_file")), (py"tddft", .known (py"parse_tddft_file")),
   (py"err", .known (py"parse_err_file")), (py"phonon", .known (py"parse_phonon_file")),
   (py"epme", .known (py"parse_epme_file"))]

/-- `bin_parsers.PARSERS`, bin_parsers/__init__.py:10-13. -/
def BIN_PARSERS : List (Str × Fn) :=
  [(py"cst_esp", .known (py"parse_cst_esp_file")), (py"epme_bin", .known (py"parse_epme_bin_file"))]

/-- `ALL_PARSERS`, castep_outputs_main.py:25. -/
def ALL_PARSERS : List (Str × Fn) := PARSERS ++ BIN_PARSERS

/-- `ALL_NAMES`, args.py:16. -/
def ALL_NAMES : List Str := ALL_PARSERS.map (·.1)

/-- The argument `in_file`. -/
inductive Input
  | text (s : Str)
  | path (p : Path)
  | handle (n : Nat)
  deriving DecidableEq, Repr

/-- castep_outputs_main.py:62-63 -/
def Input.toPath : Input → Input
  | .text s => .path (Path.ofStr s)
  | i => i

/-- The argument `parser`. -/
inductive ParserArg
  | none
  | name (s : Str)
  | fn (f : Fn)

/-- castep_outputs_main.py:65-66: a name is looked up among the text parsers. -/
def ParserArg.resolve : ParserArg → Option Fn
  | .none => Option.none
  | .name s => List.lookup s PARSERS
  | .fn f => some f

/-- `s.strip(".")` -/
def stripDots (s : Str) : Str := ((s.dropWhile (· == c!".")).reverse.dropWhile (· == c!".")).reverse

/-- castep_outputs_main.py:65-77 -/
def chooseParser (i : Input) (arg : ParserArg) : PyM Fn :=
  match arg.resolve, i with
  | some f, _ => .ok f
  | Option.none, .path p =>
    match List.lookup (stripDots p.suffix) ALL_PARSERS with
    | some f => .ok f
    | Option.none => .error .valueError
  | Option.none, _ => .error .valueError

/-- `flatten_dict` of a run; anything but a dictionary has no `items`. -/
def flattenRun : PyVal → PyM PyVal
  | .dict d => .ok (.dict (flatten_dict d))
  | _ => .error .attributeError

/-- `[flatten_dict(run) for run in data]` -/
def flattenRuns : List PyVal → PyM (List PyVal)
  | [] => .ok []
  | v :: l => do
    let v ← flattenRun v
    let l ← flattenRuns l
    return v :: l

/-- The mapping `{tuple: list}`, castep_outputs_main.py:87. -/
def yamlMapping : PyVal → PyM PyVal
  | .tuple l => .ok (.list l)
  | v => .ok v

/-- castep_outputs_main.py:84-87 -/
def forFormat (fmt : Str) (testing : Bool) (data : PyVal) : PyM PyVal :=
  if fmt = py"json" || testing then normalise jsonMapping data
  else if fmt = py"yaml" || fmt = py"ruamel" then normalise yamlMapping data
  else .ok data

/-- castep_outputs_main.py:89-93.  (A text is a sequence too; its characters are no dictionaries.) -/
def forTesting (testing : Bool) (data : PyVal) : PyM PyVal :=
  if testing then
    match data with
    | .list l | .tuple l => do
      let l ← flattenRuns l
      return .list l
    | .str [] => .ok (.list [])
    | v => flattenRun v
  else .ok data

/-- `parse_single`, castep_outputs_main.py:28-95.  `parse f testing i` is the result of calling the parser `f` on
the input, with the filters for testing or without. -/
def parse_single (parse : Fn → Bool → Input → PyM PyVal) (i : Input) (arg : ParserArg) (fmt : Str) (testing : Bool) :
    PyM PyVal := do
  let f ← chooseParser i.toPath arg
  let data ← parse f (f == .known (py"parse_castep_file") && testing) i.toPath
  let data ← forFormat fmt testing data
  forTesting testing data

/-! ### Dumpers -/

/-- The dumping functions, dumpers.py:25-93. -/
inductive Dumper
  | json | ruamel | pyyaml | pprint | print
  deriving DecidableEq, Repr

/-- `SUPPORTED_FORMATS`, dumpers.py:136-140. -/
def SUPPORTED_FORMATS : List (Str × Dumper) :=
  [(py"json", .json), (py"ruamel", .ruamel), (py"pyyaml", .pyyaml), (py"pprint", .pprint), (py"print", .print)]

/-- `_YAML_TYPE`, dumpers.py:10-18, given which packages can be imported. -/
def YAML_TYPE (hasYaml hasRuamel : Bool) : Option Str :=
  if hasRuamel then some (py"ruamel") else if hasYaml then some (py"pyyaml") else none

/-- The name after resolving `yaml`, dumpers.py:121-125. -/
def yamlName (yamlType : Option Str) (fmt : Str) : PyM Str :=
  if fmt = py"yaml" then
    match yamlType with
    | some t => .ok t
    | none => .error .importError
  else .ok fmt

/-- `get_dumpers`, dumpers.py:96-132. -/
def get_dumpers (yamlType : Option Str) (fmt : Str) : PyM Dumper := do
  let name ← yamlName yamlType fmt
  match List.lookup name SUPPORTED_FORMATS with
  | some d => return d
  | none => .error .valueError

/-! ### All files -/

/-- The loop over the paths of one type, castep_outputs_main.py:127-128; paths are given as text. -/
def parsePaths (parse : Fn → Bool → Input → PyM PyVal) (f : Fn) (fmt : Str) (testing : Bool) :
    List Str → Dict Key PyVal → PyM (Dict Key PyVal)
  | [], data => .ok data
  | p :: l, data => do
    let v ← parse_single parse (.text p) (.fn f) fmt testing
    parsePaths parse f fmt testing l (data.set (.str p) v)

/-- `ALL_PARSERS[typ]` -/
def parserOf (typ : Str) : PyM Fn :=
  match List.lookup typ ALL_PARSERS with
  | some f => .ok f
  | none => .error .keyError

/-- The loop over types, castep_outputs_main.py:124-128. -/
def parseTypes (parse : Fn → Bool → Input → PyM PyVal) (fmt : Str) (testing : Bool) :
    List (Str × List Str) → Dict Key PyVal → PyM (Dict Key PyVal)
  | [], data => .ok data
  | (typ, paths) :: l, data => do
    let f ← parserOf typ
    let data ← parsePaths parse f fmt testing paths data
    parseTypes parse fmt testing l data

/-- castep_outputs_main.py:130-131 -/
def unwrap : Dict Key PyVal → PyVal
  | [(_, v)] => v
  | d => .dict d

/-- `parse_all`, castep_outputs_main.py:98-140, up to the call of the dumper: the dumper and what it is called
with. -/
def parse_all (parse : Fn → Bool → Input → PyM PyVal) (yamlType : Option Str) (fmt : Str) (testing : Bool)
    (files : List (Str × List Str)) : PyM (Dumper × PyVal) := do
  let dumper ← get_dumpers yamlType fmt
  let data ← parseTypes parse fmt testing files []
  return (dumper, unwrap data)

/-! ### The command line -/

/-- The part of the argparse namespace that selects files: `--inc-all`, `--inc-<typ>`, `--<typ>` and the seednames. -/
structure Args where
  inc_all : Bool
  inc : Str → Bool
  files : Str → List Str
  seedname : List Str

/-- The file system: which paths are files, and the names in a directory (none if it is no directory). -/
structure FileSys where
  isFile : Path → Bool
  entries : Path → List Str

/-- args.py:83-92: the flags after taking `--inc-all` and `to_parse` into account. -/
def setFlags (args : Args) (to_parse : List Str) : Args :=
  let parse_all := args.inc_all || !(ALL_NAMES.any args.inc)
  let inc := if parse_all && to_parse.isEmpty then fun t => args.inc t || ALL_NAMES.contains t else args.inc
  { args with inc := fun t => inc t || to_parse.contains t }

/-- Does the text match `<stem>*<tail>`? -/
def globStar (stem tail name : Str) : Bool :=
  stem.length + tail.length ≤ name.length && Str.startsWith name stem && Str.startsWith name.reverse tail.reverse

/-- `seed.parent.glob(f"{seed}.*.err")`, args.py:105, for a seed without wildcards: the pattern is taken relative to
the directory of the seed though it contains that directory already. -/
def globErr (fs : FileSys) (seed : Path) : PyM (List Str) :=
  if !seed.root.isEmpty then .error .notImplementedError
  else
    let dir : Path := ⟨seed.root, seed.parts.dropLast ++ seed.parts.dropLast⟩
    let stem := if seed.parts.isEmpty then py".." else seed.name ++ py"."
    .ok (((fs.entries dir).filter (globStar stem (py".err"))).map fun n => Path.toStr ⟨dir.root, dir.parts ++ [n]⟩)

/-- `getattr(args, typ).extend(l)` -/
def Args.extend (args : Args) (typ : Str) (l : List Str) : Args :=
  { args with files := fun t => if t = typ then args.files t ++ l else args.files t }

/-- The trials of one seed, args.py:100-103. -/
def trials (fs : FileSys) (seed : Path) : List Str → Args → PyM Args
  | [], args => .ok args
  | typ :: l, args => do
    let trial ← seed.withSuffix (py"." ++ typ)
    trials fs seed l (if args.inc typ && fs.isFile trial then args.extend typ [trial.toStr] else args)

/-- args.py:105-106 -/
def errFiles (fs : FileSys) (seed : Path) (args : Args) : PyM Args :=
  if args.inc (py"err") then do
    let l ← globErr fs seed
    return args.extend (py"err") l
  else .ok args

/-- One seed, args.py:96-106. -/
def oneSeed (fs : FileSys) (args : Args) (seed : Str) : PyM Args :=
  let p := Path.ofStr seed
  let ext := p.suffix.drop 1
  if fs.isFile p && ALL_NAMES.contains ext then .ok (args.extend ext [p.toStr])
  else do
    let args ← trials fs p ALL_NAMES args
    errFiles fs p args

/-- The loop over seeds, args.py:95-106. -/
def seeds (fs : FileSys) : List Str → Args → PyM Args
  | [], args => .ok args
  | s :: l, args => do
    let args ← oneSeed fs args s
    seeds fs l args

/-- `parse_args`, args.py:63-108, from the namespace argparse produces. -/
def parse_args (fs : FileSys) (args : Args) (to_parse : List Str) : PyM Args :=
  seeds fs args.seedname (setFlags args to_parse)

/-- `extract_parsables`, args.py:111-125. -/
def extract_parsables (args : Args) : List (Str × List Str) := ALL_NAMES.map fun t => (t, args.files t)

end Cli
end Verif

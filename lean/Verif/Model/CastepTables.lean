import Verif.Model.CastepBlocks
/-
castep_outputs/parsers/castep_file_parser.py, the functions for the sections of a .castep file (second part):
populations, phonons, k-points, symmetry, geometry optimisation, elastic constants, polarisation.
-/
namespace Verif.Castep

/-- `block := Block.from_re(line, file, start, end, n_end, eof_possible)` as a condition: the lines of the
block if it is true, and the lines after it. -/
def blockOf (startP endP : Str → Bool) (n_end : Nat) (eof : Bool) (line : Str) (rest : List Str) :
    PyM (Option (List Str) × List Str) :=
  match Block.from_re line rest startP endP n_end eof with
  | (.error e, _) => .error e
  | (.ok b, rest) => .ok (if b.truthy then some b.data else none, rest)

def EMPTY_RE : Pat := rx Res.EMPTY_s

/-! ### Small tables -/

/-- `_process_tddft`, castep_file_parser.py:1420-1427. -/
def process_tddft (lines : List Str) : PyM PyVal := do
  let l ← collect (onMatch Res.TDDFT_RE fun m => do
    let energy ← grpFloat m (py"energy")
    let error ← grpFloat m (py"error")
    return PyVal.dict [(.str (py"energy"), energy), (.str (py"error"), error),
      (.str (py"type"), optStr (m.named (py"type")))]) lines
  return .list l

/-- castep_file_parser.py:1459-1461. -/
def MD_DATA_RE : Pat := rx (py r"x\s+" ++ py r"(?P<key>[a-zA-Z][A-Za-z ]+):\s*" ++ py"(?P<val>" ++ Res.FNUMBER_s ++ py")")

/-- The second comprehension of `_process_md_block`, castep_file_parser.py:1463. -/
def mdKeys (d : Dict Key PyVal) : Dict Key PyVal :=
  Dict.ofList (d.map fun (k, v) => (match k with | .str s => .str (normalise_key s) | k => k, v))

/-- `_process_md_block`, castep_file_parser.py:1456-1463. -/
def process_md_block (lines : List Str) : PyM (Dict Key PyVal) := do
  let d ← collectDict (onSearch MD_DATA_RE fun m => do
    let v ← grpFloat m (py"val")
    return (.str (Str.strip ((m.named (py"key")).getD [])), v)) lines
  return mdKeys d

/-- castep_file_parser.py:1469. -/
def ELF_RE : Pat := rx (py r"\s+ELF\s+\d+\s+(" ++ Res.FNUMBER_s ++ py")")

/-- `_process_elf`, castep_file_parser.py:1466-1470. -/
def process_elf (lines : List Str) : PyM PyVal := do
  let l ← collect (onMatch ELF_RE fun m => floatV ((m.group 1).getD [])) lines
  return .list l

/-- castep_file_parser.py:1488. -/
def HIRSHFELD_RE : Pat := rx (py r"\s+" ++ Res.ATOM_s ++ py r"\s+(?P<charge>" ++ Res.FNUMBER_s ++ py")")

/-- `_process_hirshfeld`, castep_file_parser.py:1473-1489. -/
def process_hirshfeld (lines : List Str) : PyM PyVal := do
  let d ← collectDict (onMatch HIRSHFELD_RE fun m => do
    let ind ← atreg_match m
    let v ← grpFloat m (py"charge")
    return (ind, v)) lines
  return .dict d

/-- Body of the loop of `_process_thermodynamics`, castep_file_parser.py:1506-1511. -/
def thermoLine (accum : Dict Key PyVal) (line : Str) : PyM (Dict Key PyVal) := do
  let accum ← if Str.contains (py"Zero-point energy") line then do
      let v ← floatAt line 0
      pure (accum.set (.str (py"zero_point_energy")) v)
    else pure accum
  match Res.THERMODYNAMICS_DATA_RE.match_ line with
  | some m => stackInto accum (groupVals m)
  | none => return accum

/-- `_process_thermodynamics`, castep_file_parser.py:1492-1517. -/
def process_thermodynamics (lines : List Str) : PyM PyVal := do
  let d ← foldLines thermoLine [] lines
  let d ← fix_data_types d (types [py"t", py"e", py"f", py"s", py"cv"] .float)
  return .dict d

/-- Body of the loop of `_process_atom_disp`, castep_file_parser.py:1535-1539. -/
def dispLine (accum : Dict Key PyVal) (line : Str) : PyM (Dict Key PyVal) :=
  match Res.ATOMIC_DISP_RE.match_ line with
  | none => .ok accum
  | some m => do
    let (ind, _) ← atregKey (groupVals m)
    let disp ← grp m (py"displacement")
    let v ← wordsTo .float disp
    Magres.setSub true accum (grpKey m (py"temperature")) ind v

/-- `_process_atom_disp`, castep_file_parser.py:1520-1541. -/
def process_atom_disp (lines : List Str) : PyM PyVal := do
  let d ← foldLines dispLine [] lines
  return .dict d

/-! ### Born charges, Raman tensors, populations -/

/-- The row of an ion in `_process_born`, castep_file_parser.py:1852-1859: its key, the three rows and the lines
after them. -/
def bornIon (m : Match) (rest : List Str) : PyM (Key × PyVal × List Str) := do
  let val := (groupVals m).erase (.str (py"label"))
  let val := match m.named (py"label"), m.named (py"spec") with
    | some l, some s => val.set (.str (py"spec")) (.str (s ++ py" [" ++ l ++ py"]"))
    | _, _ => val
  let charges ← grp m (py"charges")
  let a ← wordsTo .float charges
  let (l, rest) ← nextLine rest
  let b ← wordsTo .float l
  let (l, rest) ← nextLine rest
  let c ← wordsTo .float l
  let (ind, _) ← atregKey val
  return (ind, .tuple [a, b, c], rest)

/-- The loop of `_process_born`, castep_file_parser.py:1850-1859, with fuel. -/
def bornLoop : Nat → List Str → Dict Key PyVal → PyM (Dict Key PyVal)
  | 0, _, d => .ok d
  | _ + 1, [], d => .ok d
  | fuel + 1, l :: rest, d =>
    match Res.BORN_RE.match_ l with
    | none => bornLoop fuel rest d
    | some m => do
      let (k, v, rest) ← bornIon m rest
      bornLoop fuel rest (d.set k v)

/-- `_process_born`, castep_file_parser.py:1836-1860. -/
def process_born (lines : List Str) : PyM PyVal := do
  let d ← bornLoop (lines.length + 1) lines []
  return .dict d

/-- Elements used by the invariants of a 3×3 matrix, for any arithmetic. -/
structure Ops (α : Type) where
  add : α → α → α
  sub : α → α → α
  mul : α → α → α
  /-- the built-in `sum` -/
  sum : List α → α

/-- The trace of a tensor, castep_file_parser.py:1896. -/
def Ops.trace (o : Ops α) (t : Nat → Nat → α) : α := o.sum [t 0 0, t 1 1, t 2 2]

/-- The second invariant of a tensor, castep_file_parser.py:1897-1902. -/
def Ops.second (o : Ops α) (t : Nat → Nat → α) : α :=
  o.sub (o.sub (o.sub (o.add (o.add (o.mul (t 0 0) (t 1 1)) (o.mul (t 0 0) (t 2 2))) (o.mul (t 1 1) (t 2 2)))
    (o.mul (t 0 1) (t 1 0))) (o.mul (t 0 2) (t 2 0))) (o.mul (t 1 2) (t 2 1))

/-- Floating-point arithmetic with a given `sum`: added from left to right before Python 3.12, with
compensation since. -/
def floatOps (sum : List F64 → F64) : Ops F64 := ⟨F64.add, F64.sub, F64.mul, sum⟩

/-- `tensor[i][j]` -/
def entry (tensor : List PyVal) (i j : Nat) : PyM F64 := do
  let row ← at_ tensor i
  match ← at_ (elems row) j with
  | .float x => return x
  | _ => .error .typeError

/-- The rows of a 3×3 tensor; a missing element is an `IndexError`. -/
def entries (tensor : List PyVal) : PyM (Nat → Nat → F64) := do
  let xx ← entry tensor 0 0
  let yy ← entry tensor 1 1
  let zz ← entry tensor 2 2
  let xy ← entry tensor 0 1
  let yx ← entry tensor 1 0
  let xz ← entry tensor 0 2
  let zx ← entry tensor 2 0
  let yz ← entry tensor 1 2
  let zy ← entry tensor 2 1
  return fun i j => match i, j with
    | 0, 0 => xx | 0, 1 => xy | 0, _ => xz
    | 1, 0 => yx | 1, 1 => yy | 1, _ => yz
    | _, 0 => zx | _, 1 => zy | _, _ => zz

/-- castep_file_parser.py:1891. -/
def RAMAN_END_RE : Pat := rx (py r"^ \+\s+\+")

/-- A row of a tensor, castep_file_parser.py:1885-1889. -/
def ramanRow (mode : Dict Key PyVal) (numbers : List Str) : PyM (Dict Key PyVal) :=
  match mode.get? (.str (py"tensor")) with
  | some (.list t) => do
    let row ← to_type .float (strList (numbers.take 3))
    let mode := mode.set (.str (py"tensor")) (.list (t ++ [row]))
    match numbers with
    | [_, _, _, d] => do
      let x ← floatV d
      return mode.set (.str (py"depolarisation")) x
    | _ => return mode
  | some _ => .error .assertionError
  | none => .error .keyError

/-- The end of a tensor, castep_file_parser.py:1893-1902. -/
def ramanEnd (o : Ops F64) (mode : Dict Key PyVal) : PyM (Dict Key PyVal) :=
  match mode.get? (.str (py"tensor")) with
  | some (.list t) => do
    let e ← entries t
    return ((mode.set (.str (py"tensor")) (.tuple t)).set (.str (py"trace")) (.float (o.trace e))).set
      (.str (py"ii")) (.float (o.second e))
  | some _ => .error .assertionError
  | none => .error .keyError

/-- Body of the loop of `_process_raman`, castep_file_parser.py:1879-1902: the modes and the current one. -/
def ramanLine (o : Ops F64) (s : List PyVal × Dict Key PyVal) (line : Str) : PyM (List PyVal × Dict Key PyVal) :=
  if Str.contains (py"Mode number") line then
    .ok (if s.2.isEmpty then s.1 else s.1 ++ [.dict s.2],
      [(.str (py"tensor"), .list []), (.str (py"depolarisation"), .none)])
  else
    match Res.get_numbers line with
    | n :: ns => do
      let mode ← ramanRow s.2 (n :: ns)
      return (s.1, mode)
    | [] =>
      if (RAMAN_END_RE.search line).isSome then do
        let mode ← ramanEnd o s.2
        return (s.1, mode)
      else .ok s

/-- `_process_raman`, castep_file_parser.py:1863-1906. -/
def process_raman (o : Ops F64) (lines : List Str) : PyM PyVal := do
  let (_, rest) ← nextLine lines
  let (modes, mode) ← foldLines (ramanLine o) ([], []) rest
  return .list (if mode.isEmpty then modes else modes ++ [.dict mode])

/-- `(*SHELLS, "total")` -/
def POPN_SHELLS : List Str := Res.SHELLS ++ [py"total"]

/-- `{orb: f"up_{orb}" for orb in (*SHELLS, "total")}` -/
def spinAliases (pre : Str) : List (Key × Key) := POPN_SHELLS.map fun o => (.str o, .str (pre ++ o))

/-- The types of the columns, castep_file_parser.py:1950-1953. -/
def popnTypes : List (Key × Ty) :=
  types (POPN_SHELLS ++ [py"charge", py"spin"] ++ POPN_SHELLS.map (py"up_" ++ ·) ++ POPN_SHELLS.map (py"dn_" ++ ·)) .float

/-- `float(d[k])` -/
def floatItem (d : Dict Key PyVal) (k : Str) : PyM F64 :=
  match d.get? (.str k) with
  | some (.str s) => pyFloat s
  | some _ => .error .typeError
  | none => .error .keyError

/-- The populations of an ion with both spins, castep_file_parser.py:1933-1947. -/
def popnSpin (mull : Dict Key PyVal) (line : Str) : PyM (Dict Key PyVal) :=
  let mull := (add_aliases mull (spinAliases (py"up_")) (replace := true)).1
  match Res.POPN_RE_DN.match_ line with
  | none => .error .valueError
  | some m => do
    let val := (add_aliases (groupVals m) (spinAliases (py"dn_")) (replace := true)).1
    let mull := updateDict mull val
    let a ← floatItem mull (py"up_total")
    let b ← floatItem mull (py"dn_total")
    return mull.set (.str (py"total")) (.float (F64.add a b))

/-- The row of an ion in `_process_mulliken`, castep_file_parser.py:1930-1954, and the lines after it. -/
def popnIon (m : Match) (rest : List Str) : PyM (Key × PyVal × List Str) := do
  let sep := match m.named (py"spin_sep") with | some (_ :: _) => true | _ => false
  let mull := (groupVals m).set (.str (py"spin_sep")) (.bool sep)
  let (mull, rest) ← if sep then do
      let (l, rest) ← nextLine rest
      let mull ← popnSpin mull l
      pure (mull, rest)
    else pure (mull, rest)
  let (ind, mull) ← atregKey mull
  let mull ← fix_data_types mull popnTypes
  return (ind, .dict mull, rest)

/-- The loop of `_process_mulliken`, castep_file_parser.py:1929-1954, with fuel. -/
def mullikenLoop : Nat → List Str → Dict Key PyVal → PyM (Dict Key PyVal)
  | 0, _, d => .ok d
  | _ + 1, [], d => .ok d
  | fuel + 1, l :: rest, d =>
    match Res.POPN_RE.match_ l with
    | none => mullikenLoop fuel rest d
    | some m => do
      let (k, v, rest) ← popnIon m rest
      mullikenLoop fuel rest (d.set k v)

/-- `_process_mulliken`, castep_file_parser.py:1909-1956. -/
def process_mulliken (lines : List Str) : PyM PyVal := do
  let d ← mullikenLoop (lines.length + 1) lines []
  return .dict d

/-- The value of a bond, castep_file_parser.py:2269-2271 and 2275-2277: a spin that is missing or zero is left
out. -/
def bondSpin (m : Match) : PyM (Option PyVal) :=
  match m.named (py"spin") with
  | some (c :: s) => do
    let x ← pyFloat (c :: s)
    return if (PyVal.float x).truthy then some (.float x) else none
  | _ => .ok none

/-- One bond of `_process_bond_analysis`, castep_file_parser.py:2267-2271. -/
def bond (m : Match) : PyM (Key × PyVal) := do
  let i ← intOfGroup (m.named (py"ind1"))
  let j ← intOfGroup (m.named (py"ind2"))
  let population ← grpFloat m (py"population")
  let spin ← bondSpin m
  let length ← grpFloat m (py"length")
  return (.tup [.tup [grpKey m (py"spec1"), .int i], .tup [grpKey m (py"spec2"), .int j]],
    .dict ((.str (py"population"), population) ::
      ((match spin with | some x => [(.str (py"spin"), x)] | none => []) ++ [(.str (py"length"), length)])))

/-- `_process_bond_analysis`, castep_file_parser.py:2266-2279.  (The zero spins are removed row by row rather than
in a second pass.) -/
def process_bond_analysis (lines : List Str) : PyM PyVal := do
  let d ← collectDict (onMatch Res.BOND_RE bond) lines
  return .dict d

/-- castep_file_parser.py:2290. -/
def ORBITAL_TOTAL_RE : Pat := rx (py r"\s*Total:\s*" ++ Res.labelled_floats [py"charge"])

/-- Body of the loop of `_process_orbital_populations`, castep_file_parser.py:2286-2293. -/
def orbitalLine (accum : Dict Key PyVal) (line : Str) : PyM (Dict Key PyVal) :=
  match Res.ORBITAL_POPN_RE.match_ line with
  | some m => do
    let (ind, _) ← atregKey (groupVals m)
    let v ← to_type .float (optStr (m.named (py"charge")))
    Magres.setSub true accum ind (grpKey m (py"orb")) v
  | none =>
    match ORBITAL_TOTAL_RE.match_ line with
    | some m => do
      let v ← grpFloat m (py"charge")
      return accum.set (.str (py"total")) v
    | none =>
      if Str.contains (py"total projected") line then do
        let v ← numbersOf line
        return accum.set (.str (py"total_projected")) v
      else .ok accum

/-- `_process_orbital_populations`, castep_file_parser.py:2282-2295. -/
def process_orbital_populations (lines : List Str) : PyM PyVal := do
  let d ← foldLines orbitalLine [] lines
  return .dict d

/-! ### Band structures and phonons -/

/-- `stack_dict` on a plain dictionary: a missing key is a `KeyError`. -/
def stackPlain (d : Dict Key PyVal) : List (Key × PyVal) → PyM (Dict Key PyVal)
  | [] => .ok d
  | (k, v) :: row =>
    if d.mem k then do
      let d ← MdGeom.appendTo d k v
      stackPlain d row
    else .error .keyError

/-- `fdt`, castep_file_parser.py:1971-1978. -/
def bandTypes : List (Key × Ty) :=
  [(.str (py"spin"), .int), (.str (py"kx"), .float), (.str (py"ky"), .float), (.str (py"kz"), .float),
   (.str (py"kpgrp"), .int), (.str (py"band"), .int), (.str (py"energy"), .float)]

/-- `if qdata: fdt(qdata); bands.append(qdata)` -/
def bandFlush (s : List PyVal × Dict Key PyVal) : PyM (List PyVal) :=
  if s.2.isEmpty then .ok s.1
  else do
    let q ← fix_data_types s.2 bandTypes
    return s.1 ++ [.dict q]

/-- castep_file_parser.py:1992. -/
def BAND_ROW_RE : Pat := rx (Res.labelled_floats [py"band", py"energy"] (sep := py r"\s+"))

/-- Body of the loop of `_process_band_structure`, castep_file_parser.py:1985-1993. -/
def bandLine (s : List PyVal × Dict Key PyVal) (line : Str) : PyM (List PyVal × Dict Key PyVal) :=
  match Res.BS_RE.search line with
  | some m => do
    let bands ← bandFlush s
    return (bands, updateDict [(.str (py"band"), .list []), (.str (py"energy"), .list [])] (groupVals m))
  | none =>
    match BAND_ROW_RE.search line with
    | some m => do
      let q ← stackPlain s.2 (groupVals m)
      return (s.1, q)
    | none => .ok s

/-- `_process_band_structure`, castep_file_parser.py:1959-1999. -/
def process_band_structure (lines : List Str) : PyM PyVal := do
  let s ← foldLines bandLine ([], []) lines
  let l ← bandFlush s
  return .list l

/-- `any(val)` -/
def anyTrue : PyVal → Bool
  | .list l => l.any PyVal.truthy
  | .tuple l => l.any PyVal.truthy
  | _ => false

/-- `_process_qdata`, castep_file_parser.py:2002-2027. -/
def process_qdata (q : Dict Key PyVal) : PyM (Dict Key PyVal) :=
  fix_data_types (q.filter fun kv => anyTrue kv.2 || kv.1 == .str (py"qpt"))
    [(.str (py"qpt"), .float), (.str (py"N"), .int), (.str (py"frequency"), .float),
     (.str (py"ir_intensity"), .float), (.str (py"raman_intensity"), .float)]

/-- `if qdata["qpt"] and qdata["qpt"] not in (phonon["qpt"] for phonon in accum): accum.append(...)`,
castep_file_parser.py:2366-2368 and 2421-2422. -/
def phononFlush (accum : List (Dict Key PyVal)) (q : Dict Key PyVal) : PyM (List (Dict Key PyVal)) :=
  match q.get? (.str (py"qpt")) with
  | none => .ok accum
  | some v =>
    if v.truthy && !(accum.any fun p => p.get? (.str (py"qpt")) == some v) then do
      let q ← process_qdata q
      return accum ++ [q]
    else .ok accum

def REP_MUL_RE : Pat := rx (py r"Rep\s+Mul")
def CHAR_END_RE : Pat := rx (Res.gen_table_re (py"[-=]+") (py r"\+"))
def CHAR_BREAK_RE : Pat := rx (py r"[-=]{4,}")

/-- `_, rep, *name, mul = head.split()` -/
def repName : List Str → PyM (Str × List Str × Str)
  | _ :: rep :: l =>
    match l.getLast? with
    | some mul => .ok (rep, l.dropLast, mul)
    | none => .error .valueError
  | _ => .error .valueError

/-- `zip(headers, map(int, vals), strict=False)` -/
def charPairs : List Str → List Str → PyM (List PyVal)
  | h :: hs, v :: vs => do
    let i ← pyInt v
    let l ← charPairs hs vs
    return .tuple [.str h, .int i] :: l
  | _, _ => .ok []

/-- A row of a character table, castep_file_parser.py:2401-2417. -/
def charRow (headers : List Str) (line : Str) : PyM PyVal := do
  let (head, tail) ← pair (Str.splitC (c!"|") line)
  let (rep, name, mul) ← repName (Str.split head)
  match Str.split tail with
  | [] => .error .valueError
  | w :: ws => do
    let chars ← charPairs headers (w :: ws).dropLast
    let n ← pyInt mul
    return .dict ([(.str (py"chars"), .tuple chars), (.str (py"mul"), .int n), (.str (py"rep"), .str rep)] ++
      (match name with | [] => [] | x :: _ => [(.str (py"name"), .str x)]))

/-- Does the table end before this line?  castep_file_parser.py:2393-2399. -/
def charStop (line : Str) : Bool :=
  (CHAR_BREAK_RE.search line).isSome || Str.startsWith line (py" Sum over") ||
    Str.startsWith line (py" *** Warning") || Str.startsWith line (py"?")

/-- The rows of a character table, castep_file_parser.py:2392-2417. -/
def charRows (headers : List Str) : List Str → PyM (List PyVal)
  | [] => .ok []
  | l :: ls =>
    if charStop l then .ok []
    else do
      let r ← charRow headers l
      let rs ← charRows headers ls
      return r :: rs

/-- A character table, castep_file_parser.py:2384-2419. -/
def charTable (lines : List Str) : PyM PyVal := do
  let (l, rest) ← nextLine lines
  let (_, rest) ← nextLine rest
  let rows ← charRows ((Str.split l).drop 4) rest
  return .list rows

/-- The loop of `_process_phonon`, castep_file_parser.py:2364-2419, with fuel. -/
def phononLoop : Nat → List Str → List (Dict Key PyVal) → Dict Key PyVal →
    PyM (List (Dict Key PyVal) × Dict Key PyVal)
  | 0, _, accum, q => .ok (accum, q)
  | _ + 1, [], accum, q => .ok (accum, q)
  | fuel + 1, line :: rest, accum, q =>
    match Res.PHONON_RE.match_ line with
    | some m => do
      let accum ← phononFlush accum q
      let qpt ← grp m (py"qpt")
      phononLoop fuel rest accum [(.str (py"qpt"), .list ((Str.split qpt).map .str))]
    | none =>
      match Res.PROCESS_PHONON_RE.match_ line with
      | some m => do
        let q ← stackInto q (groupVals m)
        phononLoop fuel rest accum q
      | none => do
        match ← blockOf (found REP_MUL_RE) (found CHAR_END_RE) 1 true line rest with
        | (some b, rest) => do
          let t ← charTable b
          phononLoop fuel rest accum (q.set (.str (py"char_table")) t)
        | (none, rest) => phononLoop fuel rest accum q

/-- `_process_phonon`, castep_file_parser.py:2360-2424. -/
def process_phonon (lines : List Str) : PyM PyVal := do
  let (accum, q) ← phononLoop (lines.length + 1) lines [] []
  let accum ← phononFlush accum q
  return .list (accum.map .dict)

/-- `_process_phonon_sym_analysis`, castep_file_parser.py:2089-2096. -/
def process_phonon_sym (lines : List Str) : PyM PyVal := do
  let (l, rest) ← nextLine lines
  let title ← at_ (Str.splitC (c!":") l) 1
  let (_, rest) ← nextLine rest
  let mat ← collect (fun l =>
    match Res.get_numbers l with
    | [] => .ok none
    | n :: ns => do
      let v ← parse_int_or_float_seq (n :: ns)
      return some v) rest
  return .dict [(.str (py"title"), .str (normalise_string title)), (.str (py"mat"), .tuple mat)]

/-! ### Chemical shielding -/

/-- `MAGRES_TASK`, castep_res.py:562-568. -/
def MAGRES_TASK : List Str :=
  [py"Chemical Shielding", py"Chemical Shielding and Electric Field Gradient", py"Electric Field Gradient",
   py"(An)Isotropic J-coupling", py"Hyperfine"]

/-- `{key: float(val) for key, val in tmp.items() if key != "asym"}`, castep_file_parser.py:2054-2055. -/
def magresVals : List (Key × PyVal) → PyM (List (Key × PyVal))
  | [] => .ok []
  | (k, v) :: l =>
    if k = .str (py"asym") then magresVals l
    else
      match v with
      | .str s => do
        let x ← floatV s
        let l ← magresVals l
        return (k, x) :: l
      | _ => .error .typeError

/-- One ion, castep_file_parser.py:2052-2059. -/
def magresIon (m : Match) : PyM (Key × PyVal) := do
  let (ind, tmp) ← atregKey (groupVals m)
  let val ← magresVals tmp
  match tmp.get? (.str (py"asym")) with
  | none => return (ind, .dict val)
  | some (.str s) =>
    if s = py"N/A" then return (ind, .dict (val ++ [(.str (py"asym"), .none)]))
    else do
      let x ← floatV s
      return (ind, .dict (val ++ [(.str (py"asym"), x)]))
  | some _ => .error .typeError

/-- `_parse_magres_block`, castep_file_parser.py:2030-2061. -/
def parse_magres_block (task : Nat) (lines : List Str) : PyM PyVal := do
  let name ← at_ MAGRES_TASK task
  let re ← at_ Res.MAGRES_RE task
  let l ← collect (onMatch re magresIon) lines
  return .dict (updateDict [(.str (py"task"), .str name)] l)

/-! ### k-points and symmetry -/

/-- Body of the first loop of `_process_kpoint_blocks`, castep_file_parser.py:2104-2110. -/
def kpointSpecLine (accum : Dict Key PyVal) (line : Str) : PyM (Dict Key PyVal) :=
  if Str.contains (py"MP grid size") line then do
    let v ← intsOf line
    return accum.set (.str (py"kpoint_mp_grid")) v
  else if Str.contains (py"offset") line then do
    let v ← numbersOf line
    return accum.set (.str (py"kpoint_mp_offset")) v
  else if Str.contains (py"Number of kpoints") line then do
    let v ← numAt .int line 0
    return accum.set (.str (py"num_kpoints")) v
  else .ok accum

/-- `kp_block_re`, castep_file_parser.py:2112-2113. -/
def KPOINT_RE : Pat :=
  rx (Res.gen_table_re (py r"\d\s*" ++ Res.labelled_floats [py"qx", py"qy", py"qz", py"wt"]) (py r"\+"))

/-- The groups `match.group("qx", "qy", "qx")` of castep_file_parser.py:2114. -/
def KPOINT_GROUPS : List Str := [py"qx", py"qy", py"qx"]

/-- One k-point, castep_file_parser.py:2114-2115. -/
def kpoint (m : Match) : PyM PyVal := do
  let q ← to_type .float (.tuple (KPOINT_GROUPS.map fun g => optStr (m.named g)))
  let w ← to_type .float (optStr (m.named (py"wt")))
  return .dict [(.str (py"qpt"), q), (.str (py"weight"), w)]

/-- `_process_kpoint_blocks`, castep_file_parser.py:2099-2121. -/
def process_kpoint_blocks (implicit : Bool) (lines : List Str) : PyM PyVal :=
  if implicit then do
    let d ← foldLines kpointSpecLine [] lines
    return .dict d
  else do
    let l ← collect (onMatch KPOINT_RE kpoint) lines
    return .dict [(.str (py"points"), .list l), (.str (py"num_kpoints"), .int l.length)]

/-- `x.strip() for x in val.split(",")` -/
def commaParts (s : Str) : List Str := (Str.splitC (c!",") s).map Str.strip

/-- `num, val = val.split(":", 1)` -/
def colonPair (s : Str) : PyM (Str × Str) :=
  if c!":" ∈ s then .ok (splitOnce (c!":") s) else .error .valueError

/-- The point group, castep_file_parser.py:2145-2150. -/
def pointGroup (val : Str) : PyM PyVal := do
  let (num, val) ← colonPair val
  match commaParts val with
  | [a, b, c] => do
    let i ← intV num
    return .dict [(.str (py"id"), i), (.str (py"schoenflies"), .str a), (.str (py"hermann_mauguin"), .str b),
      (.str (py"hermann_mauguin_full"), .str c)]
  | _ => .error .valueError

/-- The space group, castep_file_parser.py:2154-2158. -/
def spaceGroup (val : Str) : PyM PyVal := do
  let (num, val) ← colonPair val
  match commaParts val with
  | [a, b] => do
    let i ← intV num
    return .dict [(.str (py"id"), i), (.str (py"international"), .str a), (.str (py"hall"), .str b)]
  | _ => .error .valueError

/-- The key and value of a line with `=`, castep_file_parser.py:2132-2158. -/
def symmetryItem (line : Str) : PyM (Str × PyVal) := do
  let (key, val) ← pair (Str.splitC (c!"=") line)
  let key := normalise_key key
  let val := normalise_string val
  if key = py"maximum_deviation_from_symmetry" then do
    let w ← at_ (Str.split val) 0
    let x ← floatV w
    return (py"max_deviation", x)
  else if Str.contains (py"number_of") key then do
    let v ← to_type .int (.str val)
    return (py"num_" ++ Str.lower (Str.join (py"_") ((Str.splitC (c!"_") key).drop 2)), v)
  else if Str.contains (py"point_group") key then do
    let v ← pointGroup val
    return (py"point_group", v)
  else if Str.contains (py"space_group") key then do
    let v ← spaceGroup val
    return (py"space_group", v)
  else return (key, .str val)

/-- `tuple((key, int(ind)) for ind in val.split())` -/
def relatedAtoms (key : Str) : List Str → PyM (List PyVal)
  | [] => .ok []
  | w :: ws => do
    let i ← pyInt w
    let l ← relatedAtoms key ws
    return .tuple [.str key, .int i] :: l

/-- The related atoms up to a blank line, castep_file_parser.py:2179-2182. -/
def related : List Str → PyM (List PyVal × List Str)
  | [] => .error .stopIteration
  | l :: ls =>
    let line := Str.strip l
    if line.isEmpty then .ok ([], ls)
    else do
      let (key, val) ← pair (Str.splitC (c!":") line)
      let a ← relatedAtoms key (Str.split val)
      let (b, rest) ← related ls
      return (a ++ b, rest)

/-- A symmetry operation, castep_file_parser.py:2169-2184, and the lines after it. -/
def symop (rest : List Str) : PyM (PyVal × List Str) := do
  let rot ← Cell.mapM' numbersOf (rest.take 3)
  let (_, rest) ← nextLine (rest.drop 3)
  let (l, rest) ← nextLine rest
  let disp ← numbersOf l
  let (_, rest) ← nextLine rest
  let (rel, rest) ← related rest
  return (.dict [(.str (py"rotation"), .list rot), (.str (py"symmetry_related"), .list rel),
    (.str (py"displacement"), disp)], rest)

def ROTATION_RE : Pat := rx (py r"\s*\d+\s*rotation\s*")
def CONSTRAINTS_RE : Pat := rx (py r"constraints\.{5}")
def CONSTRAINTS_END_RE : Pat := rx (py r"\s*x+\.{4}\s*")
/-- castep_file_parser.py:2195-2197. -/
def IONIC_CONSTRAINT_RE : Pat :=
  rx (Res.ATOM_s ++ py r"\s*[xyz]\s*" ++ Res.labelled_floats [py"pos"] [some (py"3")])

/-- The ionic constraints, castep_file_parser.py:2195-2200. -/
def ionicConstraints (d : Dict Key PyVal) : List Match → PyM (Dict Key PyVal)
  | [] => .ok d
  | m :: ms => do
    let (ind, val) ← atregKey (groupVals m)
    match val.get? (.str (py"pos")) with
    | some (.str pos) => do
      let v ← wordsTo .float pos
      let d ← MdGeom.appendTo d ind v
      ionicConstraints d ms
    | _ => .error .typeError

/-- A line that is not an item nor a rotation, castep_file_parser.py:2186-2203: the dictionaries and the
lines after it. -/
def symmetryOther (line : Str) (rest : List Str) (sym con : Dict Key PyVal) :
    PyM (Dict Key PyVal × Dict Key PyVal × List Str) :=
  if Str.contains (py"Cell is a supercell containing") line then do
    let v ← numAt .int line 0
    return (sym.set (.str (py"n_primitives")) v, con, rest)
  else if Str.contains (py"Centre of mass") line then
    .ok (sym, con.set (.str (py"com_constrained")) (.bool (!Str.contains (py"NOT") line)), rest)
  else do
    match ← blockOf (found CONSTRAINTS_RE) (found CONSTRAINTS_END_RE) 1 false line rest with
    | (some b, rest) => do
      let d ← ionicConstraints [] (IONIC_CONSTRAINT_RE.finditer (Str.join [10] b))
      return (sym, con.set (.str (py"ionic_constraints")) (.dict d), rest)
    | (none, rest) =>
      if Str.contains (py"Cell constraints are:") line then do
        let v ← intsOf line
        return (sym, con.set (.str (py"cell_constraints")) v, rest)
      else return (sym, con, rest)

/-- A line of `_process_symmetry`, castep_file_parser.py:2131-2203. -/
def symmetryLine (line : Str) (rest : List Str) (sym con : Dict Key PyVal) :
    PyM (Dict Key PyVal × Dict Key PyVal × List Str) :=
  if c!"=" ∈ line then do
    let (k, v) ← symmetryItem line
    if Str.contains (py"constraints") k then return (sym, con.set (.str k) v, rest)
    else return (sym.set (.str k) v, con, rest)
  else if (ROTATION_RE.match_ line).isSome then do
    let (op, rest) ← symop rest
    let sym ← MdGeom.appendTo sym (.str (py"symop")) op
    return (sym, con, rest)
  else symmetryOther line rest sym con

/-- The loop of `_process_symmetry`, with fuel. -/
def symmetryLoop : Nat → List Str → Dict Key PyVal → Dict Key PyVal → PyM (Dict Key PyVal × Dict Key PyVal)
  | 0, _, sym, con => .ok (sym, con)
  | _ + 1, [], sym, con => .ok (sym, con)
  | fuel + 1, line :: rest, sym, con => do
    let (sym, con, rest) ← symmetryLine line rest sym con
    symmetryLoop fuel rest sym con

/-- `_process_symmetry`, castep_file_parser.py:2124-2205. -/
def process_symmetry (lines : List Str) : PyM (Dict Key PyVal × Dict Key PyVal) :=
  symmetryLoop (lines.length + 1) lines [] []

/-! ### Dispersion, solvation, dipole -/

/-- castep_file_parser.py:2312-2313. -/
def DFTD_RE : Pat := rx (py r"\s*x\s*(?P<spec>" ++ Res.ATOM_NAME_s ++ py r")\s*" ++ Res.labelled_floats [py"C6", py"R0"])

/-- Body of the loop of `_process_dftd`, castep_file_parser.py:2303-2315. -/
def dftdLine (d : Dict Key PyVal) (line : Str) : PyM (Dict Key PyVal) :=
  match Str.splitC (c!":") line with
  | [key, val] =>
    if Str.contains (py"Parameter") key then do
      let v ← numAt .float (normalise_string val) 0
      return d.set (.str (normalise_key key)) v
    else .ok (d.set (.str (normalise_key key)) (.str (normalise_string val)))
  | _ =>
    match DFTD_RE.match_ line with
    | some m => do
      let c6 ← grpFloat m (py"C6")
      let r0 ← grpFloat m (py"R0")
      setIn d (.str (py"species")) (grpKey m (py"spec")) (.dict [(.str (py"c6"), c6), (.str (py"r0"), r0)])
    | none => .ok d

/-- `_process_dftd`, castep_file_parser.py:2298-2317. -/
def process_dftd (lines : List Str) : PyM PyVal := do
  let d ← foldLines dftdLine [(.str (py"species"), .dict [])] lines
  return .dict d

/-- Body of the loop of `_process_autosolvation`, castep_file_parser.py:2351-2354. -/
def solvationLine (d : Dict Key PyVal) (line : Str) : PyM (Dict Key PyVal) :=
  match Str.splitC (c!"=") line with
  | key :: _ :: _ => do
    let v ← numAt .float line 0
    return d.set (.str (normalise_key key)) v
  | _ => .ok d

/-- `_process_autosolvation`, castep_file_parser.py:2348-2357. -/
def process_autosolvation (lines : List Str) : PyM PyVal := do
  let d ← foldLines solvationLine [] lines
  return .dict d

def DIPOLE_TOTAL_RE : Pat := rx (py r"Total\s*(?P<type>\w+)")

/-- The loop of `_process_dipole`, castep_file_parser.py:2431-2443, with fuel. -/
def dipoleLoop : Nat → List Str → Dict Key PyVal → PyM (Dict Key PyVal)
  | 0, _, d => .ok d
  | _ + 1, [], d => .ok d
  | fuel + 1, line :: rest, d =>
    match DIPOLE_TOTAL_RE.search line with
    | some m => do
      let v ← floatAt line 0
      dipoleLoop fuel rest (d.set (.str (py"total_" ++ (m.named (py"type")).getD [])) v)
    | none =>
      if Str.contains (py"Centre") line then do
        let (l, rest) ← nextLine rest
        let v ← numbersOf l
        dipoleLoop fuel rest
          (d.set (.str (if Str.contains (py"elec") line then py"centre_electronic" else py"centre_positive")) v)
      else if Str.contains (py"Magnitude") line then do
        let v ← numAt .float line 0
        dipoleLoop fuel rest (d.set (.str (py"dipole_magnitude")) v)
      else if Str.contains (py"Direction") line then do
        let v ← numbersOf line
        dipoleLoop fuel rest (d.set (.str (py"dipole_direction")) v)
      else dipoleLoop fuel rest d

/-- `_process_dipole`, castep_file_parser.py:2427-2445. -/
def process_dipole (lines : List Str) : PyM PyVal := do
  let d ← dipoleLoop (lines.length + 1) lines []
  return .dict d

/-! ### Pair potentials -/

/-- The variables of `_process_pair_params`; `labels` may be unbound. -/
structure PairState where
  accum : Dict Key PyVal := []
  labels : Option (List Key) := none

/-- `typ = f"{tag}_{typ}"` if there is a tag. -/
def pairType (m : Match) : Key :=
  match m.named (py"tag"), m.named (py"type") with
  | some (c :: tag), some typ => .str ((c :: tag) ++ py"_" ++ typ)
  | _, some typ => .str typ
  | _, none => .none

/-- `labels` with values: `strict` for the two-body terms. -/
def pairZip (strict : Bool) : List Key → List PyVal → PyM (Dict Key PyVal)
  | [], [] => .ok []
  | k :: ks, v :: vs => do
    let l ← pairZip strict ks vs
    return (k, v) :: l
  | _, _ => if strict then .error .valueError else .ok []

/-- `accum[typ][lab].update(zip(labels, ...))`, castep_file_parser.py:2459-2473 and 2487-2498. -/
def pairUpdate (strict : Bool) (s : PairState) (m : Match) : PyM PairState := do
  let params ← grp m (py"params")
  match s.labels with
  | none => .error .nameError
  | some labels => do
    let v ← wordsTo .float params
    let new ← pairZip strict labels (elems v)
    let typ := pairType m
    let accum := ensure s.accum typ
    match accum.get? typ with
    | some (.dict e) => do
      let e := ensure e (grpKey m (py"label"))
      let e ← updateIn e (grpKey m (py"label")) new
      return { s with accum := accum.set typ (.dict e) }
    | _ => .error .typeError

/-- A line of a two-body block, castep_file_parser.py:2454-2477. -/
def twoBodyLine (s : PairState) (line : Str) : PyM PairState :=
  if (Res.TWO_BODY_SPEC.search line).isSome then
    .ok { s with labels := some ((Res.TWO_BODY_SPEC.finditer line).map fun m =>
      .tup [grpKey m (py"spec1"), grpKey m (py"spec2")]) }
  else
    match Res.TWO_BODY_VAL.match_ line with
    | some m => pairUpdate true s m
    | none =>
      match Res.TWO_BODY_ONE_SPEC.match_ line with
      | some m => .ok { s with labels := some [.tup [grpKey m (py"spec")]] }
      | none => .ok s

/-- A line of a three-body block, castep_file_parser.py:2481-2497. -/
def threeBodyLine (s : PairState) (line : Str) : PyM PairState :=
  match Res.THREE_BODY_SPEC.match_ line with
  | some m => .ok { s with labels := some [.tup ((Str.split ((m.named (py"spec")).getD [])).map .str)] }
  | none =>
    match Res.THREE_BODY_VAL.match_ line with
    | some m => pairUpdate false s m
    | none => .ok s

/-- A line outside the blocks, castep_file_parser.py:2500-2508. -/
def pairGlobal (s : PairState) (line : Str) : PyM PairState :=
  match Res.THREE_BODY_VAL.match_ line with
  | none => .ok s
  | some m => do
    let v ← to_type .float (optStr (m.named (py"params")))
    let accum ← setIn (ensure s.accum (pairType m)) (pairType m) (grpKey m (py"label")) v
    return { s with accum := accum }

def TWO_BODY_RE : Pat := rx (py"Two Body")
def TWO_BODY_END_RE : Pat := rx (py r"^\w*\s*\*+\s*$")
def THREE_BODY_RE : Pat := rx (py"Three Body")
def THREE_BODY_END_RE : Pat := rx (py r"^\s*\*+\s*$")

/-- The loop of `_process_pair_params`, castep_file_parser.py:2451-2508, with fuel. -/
def pairLoop : Nat → List Str → PairState → PyM PairState
  | 0, _, s => .ok s
  | _ + 1, [], s => .ok s
  | fuel + 1, line :: rest, s => do
    match ← blockOf (found TWO_BODY_RE) (found TWO_BODY_END_RE) 1 false line rest with
    | (some b, rest) => do
      let s ← foldLines twoBodyLine s b
      pairLoop fuel rest s
    | (none, rest) => do
      match ← blockOf (found THREE_BODY_RE) (found THREE_BODY_END_RE) 1 false line rest with
      | (some b, rest) => do
        let s ← foldLines threeBodyLine s b
        pairLoop fuel rest s
      | (none, rest) => do
        let s ← pairGlobal s line
        pairLoop fuel rest s

/-- `_process_pair_params`, castep_file_parser.py:2448-2510. -/
def process_pair_params (lines : List Str) : PyM PyVal := do
  let s ← pairLoop (lines.length + 1) lines {}
  return .dict s.accum

/-! ### Geometry optimisation -/

/-- Body of the loop of `_process_geom_table`, castep_file_parser.py:2517-2531. -/
def geomLine (accum : Dict Key PyVal) (line : Str) : PyM (Dict Key PyVal) :=
  match Res.GEOMOPT_MIN_TABLE_RE.match_ line with
  | some m => do
    let val ← fix_data_types (groupVals m) (types [py"lambda", py"fdelta", py"enthalpy"] .float)
    return accum.set (.str (normalise_string ((m.named (py"step")).getD []))) (.dict (val.erase (.str (py"step"))))
  | none =>
    match Res.GEOMOPT_TABLE_RE.match_ line with
    | some m => do
      let val ← fix_data_types (groupVals m) (types [py"value", py"tolerance"] .float)
      let val := val.set (.str (py"converged")) (.bool (decide (m.named (py"converged") = some (py"Yes"))))
      return accum.set (.str (normalise_key ((m.named (py"parameter")).getD [])))
        (.dict (val.erase (.str (py"parameter"))))
    | none => .ok accum

/-- `_process_geom_table`, castep_file_parser.py:2513-2533. -/
def process_geom_table (lines : List Str) : PyM PyVal := do
  let d ← foldLines geomLine [] lines
  return .dict d

def CONFIG_CELL_RE : Pat := rx (py r"\s*Unit Cell\s*")
def CELL_CONTENTS_RE : Pat := rx (Res.gen_table_re (py"Cell Contents"))
def XLINE_RE : Pat := rx (Res.gen_table_re [] (py"x+"))
/-- castep_file_parser.py:2548-2551. -/
def CONFIG_ITEM_RE : Pat :=
  rx (ci := true) (py r"^\s*(?:" ++ Res.MINIMISERS_s ++ py"):" ++ py r"(?P<key>[^=]+)=\s*" ++
    py"(?P<value>" ++ Res.EXPFNUMBER_s ++ py").*")

/-- The loop of `_process_final_config_block`, castep_file_parser.py:2539-2554, with fuel. -/
def configLoop : Nat → List Str → Dict Key PyVal → PyM (Dict Key PyVal)
  | 0, _, d => .ok d
  | _ + 1, [], d => .ok d
  | fuel + 1, line :: rest, d => do
    match ← blockOf (found CONFIG_CELL_RE) (found EMPTY_RE) 3 false line rest with
    | (some b, rest) => do
      let v ← process_unit_cell b
      configLoop fuel rest (d.set (.str (py"cell")) v)
    | (none, rest) => do
      match ← blockOf (found CELL_CONTENTS_RE) (found XLINE_RE) 2 false line rest with
      | (some b, rest) => do
        let v ← process_atreg_block b
        configLoop fuel rest (d.set (.str (py"atoms")) v)
      | (none, rest) =>
        match CONFIG_ITEM_RE.match_ line with
        | some m => do
          let v ← to_type .float (optStr (m.named (py"value")))
          configLoop fuel rest (d.set (.str (normalise_key ((m.named (py"key")).getD []))) v)
        | none => configLoop fuel rest d

/-- `_process_final_config_block`, castep_file_parser.py:2536-2556. -/
def process_final_config (lines : List Str) : PyM PyVal := do
  let d ← configLoop (lines.length + 1) lines []
  return .dict d

/-- The constraint of one definition, castep_file_parser.py:2607-2610. -/
def constraintDef (s : Str) : PyM (Option (Key × PyVal)) :=
  match Res.get_numbers s with
  | [] => .ok none
  | n :: ns => do
    let k ← pyInt n
    let v ← to_type .int (strList ns)
    return some (.int k, v)

/-- A row of `_process_internal_constraints`, castep_file_parser.py:2593-2617. -/
def constraintRow (line : Str) : PyM (Option PyVal) :=
  if (Str.strip line).isEmpty then .ok none
  else
    match Str.split line with
    | _ :: typ :: target :: current :: defs =>
      if typ ∈ [py"Bond", py"Angle", py"Torsion"] then do
        let sat := decide (current = py"Satisfied")
        let t ← if sat then pure PyVal.none else floatV target
        let c ← if sat then floatV target else floatV current
        let const ← collectDict constraintDef (Str.splitC (c!")") (Str.join (py" ") defs))
        return some (.dict [(.str (py"type"), .str typ), (.str (py"target"), t), (.str (py"current"), c),
          (.str (py"satisfied"), .bool sat), (.str (py"constraints"), .dict const)])
      else .error .assertionError
    | _ => .error .valueError

/-- `_process_internal_constraints`, castep_file_parser.py:2583-2619. -/
def process_internal_constraints (lines : List Str) : PyM PyVal := do
  let l ← collect constraintRow (lines.drop 3)
  return .list l

/-- Body of the loop of `_process_deloc_table`, castep_file_parser.py:2626-2634. -/
def delocLine (d : Dict Key PyVal) (line : Str) : PyM (Dict Key PyVal) :=
  if Str.startsWith line (py" constraint") then do
    match ← intsOf line with
    | .tuple [.int k, v] => setIn d (.str (py"constraint_mapping")) (.int k) v
    | _ => .error .valueError
  else if Str.startsWith line (py"Total number of primitive") then
    match ((Str.split line).drop 4).take 2 with
    | [typ, val] => do
      let i ← intV val
      return d.set (.str (py"num_" ++ Str.stripP (· == (c!":")) typ)) i
    | _ => .error .valueError
  else .ok d

/-- `_process_deloc_table`, castep_file_parser.py:2622-2636. -/
def process_deloc_table (lines : List Str) : PyM (Dict Key PyVal) :=
  foldLines delocLine [(.str (py"constraint_mapping"), .dict [])] lines

/-- `if text in line: accum[key] = to_type(get_numbers(line)[0], int)` -/
def countIf (text key line : Str) (d : Dict Key PyVal) : PyM (Dict Key PyVal) :=
  if Str.contains text line then do
    let v ← numAt .int line 0
    return d.set (.str key) v
  else .ok d

/-- `_process_deloc_act_space_table`, castep_file_parser.py:2639-2650. -/
def process_deloc_act_space (lines : List Str) : PyM (Dict Key PyVal) :=
  foldLines (fun d line => do
    let d ← countIf (py"active space") (py"active_space_size") line d
    let d ← countIf (py"degrees") (py"num_dof") line d
    countIf (py"primitive") (py"num_primitive_internals") line d) [] lines

/-! ### Elastic properties -/

/-- `s.split(sep)[0]` for non-empty `sep`. -/
def beforeSub (sub : Str) : Str → Str
  | [] => []
  | c :: s => if Str.startsWith (c :: s) sub then [] else c :: beforeSub sub s

def SPEED_RE : Pat := rx (py"Speed of Sound")

/-- The loop of `_process_elastic_properties`, castep_file_parser.py:2563-2578, with fuel. -/
def elasticLoop : Nat → List Str → Dict Key PyVal → PyM (Dict Key PyVal)
  | 0, _, d => .ok d
  | _ + 1, [], d => .ok d
  | fuel + 1, line :: rest, d =>
    if Str.contains (py"::") line then do
      let v ← numbersOf line
      elasticLoop fuel rest (d.set (.str (normalise_key (beforeSub (py"::") line)))
        (match elems v with | [x] => x | _ => v))
    else do
      match ← blockOf (found SPEED_RE) (found EMPTY_RE) 1 false line rest with
      | (some b, rest) => do
        let rows ← collect (fun l =>
          match Res.get_numbers l with
          | [] => .ok none
          | n :: ns => do
            let v ← to_type .float (strList (n :: ns))
            return some v) b
        elasticLoop fuel rest (d.set (.str (py"speed_of_sound")) (.tuple rows))
      | (none, rest) => elasticLoop fuel rest d

/-- `_process_elastic_properties`, castep_file_parser.py:2559-2580. -/
def process_elastic_properties (lines : List Str) : PyM (Dict Key PyVal) :=
  elasticLoop (lines.length + 1) lines []

/-! ### Polarisation -/

/-- A float in a key: `Key` has no floats, the bit pattern stands for it. -/
def floatKey : PyVal → Key
  | .float x => .int x.bits.val
  | _ => .none

def EQUALS_RE : Pat := rx (py"=+")

/-- The value of the unit. -/
def unitOf (m : Match) : PyVal := optStr (m.named (py"unit"))

/-- A row of the ionic contributions, castep_file_parser.py:2669-2671. -/
def polIon (ions : Dict Key PyVal) (line : Str) : PyM (Dict Key PyVal) :=
  match Str.split line with
  | ni :: nsp :: _ :: a :: b :: c :: pol => do
    let s ← pyInt nsp
    let i ← pyInt ni
    let coords ← to_type .float (strList [a, b, c])
    let p ← to_type .float (strList pol)
    return ions.set (.tup [.int s, .int i]) (.dict [(.str (py"coords"), coords), (.str (py"polarisation"), p)])
  | _ => .error .valueError

/-- The ionic contributions, castep_file_parser.py:2657-2671; the block is given with its bounds.  (`to_type` is
applied to the total before the rows are read.) -/
def polIons (m : Match) (b : List Str) : PyM (Key × PyVal) := do
  let table := Block.sliceBounds b 3 1
  let l ← last_ table
  let total ← to_type .float (strList ((Res.get_numbers l).drop 2))
  let ions ← foldLines polIon [] table.dropLast
  return (.str (normalise_key ((m.named (py"key")).getD [])),
    .dict [(.str (py"units"), unitOf m), (.str (py"total"), total), (.str (py"ions"), .dict ions)])

/-- `accum[key][line.split()[0]] = to_type(get_numbers(line), float)` -/
def polRow (d : Dict Key PyVal) (line : Str) : PyM (Dict Key PyVal) := do
  let v ← numbersOf line
  let w ← at_ (Str.split line) 0
  return d.set (.str w) v

/-- Ordinary polarisation, castep_file_parser.py:2687-2698. -/
def polOrdinary (m : Match) (table : List Str) (d : Dict Key PyVal) : PyM (Dict Key PyVal) :=
  let phase := decide (m.named (py"unit") = some (py"phase"))
  let d := if phase then d else d.set (.str (py"units")) (unitOf m)
  let sub : Key := .str (if phase then py"phase" else py"val")
  let d := ensure d sub
  match d.get? sub with
  | some (.dict e) => do
    let e ← foldLines polRow e table
    return d.set sub (.dict e)
  | _ => if table.isEmpty then .ok d else .error .typeError

/-- A row of the quantum of polarisation, castep_file_parser.py:2706-2712. -/
def polQuantum (m : Match) (d : Dict Key PyVal) (line : Str) : PyM (Dict Key PyVal) := do
  let v ← numbersOf line
  match (elems v).drop 1 |>.reverse with
  | quantum :: total :: ionic :: elec :: direc =>
    return d.set (.tup (direc.reverse.map floatKey)) (.dict [(.str (py"elec"), elec), (.str (py"ionic"), ionic),
      (.str (py"total"), total), (.str (py"quantum"), quantum), (.str (py"units"), unitOf m)])
  | _ => .error .valueError

/-- A table of polarisations, castep_file_parser.py:2680-2720; the block is given with its bounds. -/
def polTable (m : Match) (line : Str) (b : List Str) (accum : Dict Key PyVal) : PyM (Dict Key PyVal) :=
  let key := normalise_key ((m.named (py"key")).getD [])
  let table := Block.sliceBounds b 2 1
  if key = py"polarisation" then
    let accum := ensure accum (.str key)
    match accum.get? (.str key) with
    | some (.dict d) => do
      let d ← if !Str.contains (py"Quantum") line then polOrdinary m table d
        else foldLines (polQuantum m) d (table.drop 1)
      return accum.set (.str key) (.dict d)
    | _ => .error .typeError
  else if key = py"volume_polarisation" then do
    let d ← foldLines polRow [(.str (py"units"), unitOf m)] table
    return accum.set (.str key) (.dict d)
  else .ok accum

/-- A line of `_process_berry_phase`, castep_file_parser.py:2656-2720: the dictionary and the lines after it. -/
def berryLine (line : Str) (rest : List Str) (accum : Dict Key PyVal) : PyM (Dict Key PyVal × List Str) :=
  if Str.contains (py"Ionic contribution to polarisation") line then do
    match ← blockOf (found Res.POL_HEADER_RE) (found EQUALS_RE) 2 false line rest with
    | (b, rest) =>
      match Res.POL_HEADER_RE.search line with
      | none => .error .assertionError
      | some m => do
        let (k, v) ← polIons m (b.getD [])
        return (accum.set k v, rest)
  else
    match Res.POL_TABLE_RE.search line with
    | some m => do
      let v ← to_type .float (.tuple ([py"a", py"b", py"c"].map fun g => optStr (m.named g)))
      return (accum.set (.str (normalise_key ((m.named (py"key")).getD [])))
        (.dict [(.str (py"units"), unitOf m), (.str (py"val"), v)]), rest)
    | none => do
      match ← blockOf (found Res.POL_HEADER_RE) (found EQUALS_RE) 2 true line rest with
      | (some b, rest) =>
        match Res.POL_HEADER_RE.search line with
        | none => .error .assertionError
        | some m => do
          let accum ← polTable m line b accum
          return (accum, rest)
      | (none, rest) => return (accum, rest)

/-- The loop of `_process_berry_phase`, with fuel. -/
def berryLoop : Nat → List Str → Dict Key PyVal → PyM (Dict Key PyVal)
  | 0, _, d => .ok d
  | _ + 1, [], d => .ok d
  | fuel + 1, line :: rest, d => do
    let (d, rest) ← berryLine line rest d
    berryLoop fuel rest d

/-- `_process_berry_phase`, castep_file_parser.py:2653-2722. -/
def process_berry_phase (lines : List Str) : PyM (Dict Key PyVal) := berryLoop (lines.length + 1) lines []

/-! ### Delta SCF -/

/-- `accum["states"][-1][key] = v` -/
def setLast (states : List (Dict Key PyVal)) (key : Key) (v : PyVal) : PyM (List (Dict Key PyVal)) :=
  match states.getLast? with
  | some d => .ok (states.dropLast ++ [d.set key v])
  | none => .error .indexError

/-- `for state in accum["states"]: if state["band"] == band and state["spin"] == spin: state[key] = v` -/
def setMatching (band spin : PyVal) (key : Key) (v : PyVal) : List (Dict Key PyVal) → PyM (List (Dict Key PyVal))
  | [] => .ok []
  | d :: ds => do
    let b ← d.getItem (.str (py"band"))
    let d' ← if b = band then do
        let s ← d.getItem (.str (py"spin"))
        pure (if s = spin then d.set key v else d)
      else pure d
    let ds ← setMatching band spin key v ds
    return d' :: ds

/-- The last two elements. -/
def lastTwo (l : List α) : List α := l.drop (l.length - 2)

/-- Body of the loop of `_process_delta_scf`, castep_file_parser.py:2734-2756: the file and the states. -/
def deltaLine (s : Option Str × List (Dict Key PyVal)) (line : Str) : PyM (Option Str × List (Dict Key PyVal)) :=
  if Str.startsWith line (py"Taking band from") then do
    let w ← last_ (Str.split line)
    return (some w, s.2)
  else if Str.contains (py"MODOS state") line then .ok (s.1, s.2 ++ [[]])
  else if Str.contains (py"nr.") line then do
    let n ← at_ (Res.get_numbers line) 0
    let v ← intV n
    let st ← setLast s.2 (.str (py"band")) v
    return (s.1, st)
  else if Str.contains (py"spin") line then do
    let n ← at_ (Res.get_numbers line) 0
    let v ← intV n
    let st ← setLast s.2 (.str (py"spin")) v
    return (s.1, st)
  else if Str.contains (py"Population of state") line then do
    let a ← at_ (Res.get_numbers line) 0
    let band ← intV a
    let b ← at_ (Res.get_numbers line) 1
    let spin ← intV b
    let pop ← floatAt line 2
    let st ← setMatching band spin (.str (py"pop")) pop s.2
    return (s.1, st)
  else if Str.contains (py"Writing file") line then
    match lastTwo (Res.get_numbers line) with
    | [a, b] => do
      let band ← intV a
      let spin ← intV b
      let w ← last_ (Str.split line)
      let st ← setMatching band spin (.str (py"file")) (.str w) s.2
      return (s.1, st)
    | _ => .error .valueError
  else .ok s

/-- `_process_delta_scf`, castep_file_parser.py:2725-2758 (`states` is the first key). -/
def process_delta_scf (lines : List Str) : PyM PyVal := do
  let (file, states) ← foldLines deltaLine (none, []) lines
  return .dict ((.str (py"states"), .list (states.map .dict)) ::
    (match file with | some f => [(.str (py"file"), .str f)] | none => []))

end Verif.Castep

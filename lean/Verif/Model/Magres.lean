import Verif.Model.Spectra
/-
castep_outputs/parsers/magres_file_parser.py.
-/
namespace Verif

namespace Magres

def START_RE : Pat := rx (py r"^\s*\[\w+\]\s*$")
def END_RE : Pat := rx (py r"^\s*\[/\w+\]\s*$")
def SHIELDING_RE : Pat := rx (py"TOTAL Shielding Tensor")
def RULE_RE : Pat := rx (py"^=+$")

/-- `s.strip(c)` -/
def stripC (c : Nat) (s : Str) : Str := Str.stripP (· == c) s

/-- `next(block).strip().strip("[").strip("]")`, magres_file_parser.py:91. -/
def blockName (line : Str) : Str := stripC (c!"]") (stripC (c!"[") (Str.strip line))

/-- One line of the loop of `_process_calculation_block`, magres_file_parser.py:124-130. -/
def calcLine (cd : Dict Key PyVal) (line : Str) : PyM (Dict Key PyVal) :=
  if Str.startsWith line (py"[") then .ok cd
  else
    match Str.split1 (Str.strip line) with
    | [] => .error .valueError
    | key :: v :: _ => .ok (cd.set (.str (key.drop 5)) (.str v))
    | _ => .ok cd

/-- Fold over lines. -/
def foldLines (f : Dict Key PyVal → Str → PyM (Dict Key PyVal)) (d : Dict Key PyVal) :
    List Str → PyM (Dict Key PyVal)
  | [] => .ok d
  | l :: ls => do
    let d ← f d l
    foldLines f d ls

/-- `_process_calculation_block`, magres_file_parser.py:108-131. -/
def calculation (lines : List Str) : PyM (Dict Key PyVal) := foldLines calcLine [] lines

/-- `d[k1][k2] = v` for a dictionary of dictionaries; `auto` for a `defaultdict(dict)`. -/
def setSub (auto : Bool) (d : Dict Key PyVal) (k1 k2 : Key) (v : PyVal) : PyM (Dict Key PyVal) :=
  match d.get? k1 with
  | some (.dict e) => .ok (d.set k1 (.dict (Dict.set e k2 v)))
  | some _ => .error .typeError
  | none => if auto then .ok (d.set k1 (.dict [(k2, v)])) else .error .keyError

/-- `(spec, int(ind))` -/
def atomKey (spec ind : Str) : PyM Key := do
  let i ← pyInt ind
  return .tup [.str spec, .int i]

/-- `_, key, val = line.split(); accum["units"][key] = val` -/
def unitsLine (accum : Dict Key PyVal) (line : Str) : PyM (Dict Key PyVal) :=
  match Str.split line with
  | [_, key, v] => setSub true accum (.str (py"units")) (.str key) (.str v)
  | _ => .error .valueError

/-- magres_file_parser.py:150-152. -/
def latticeLine (accum : Dict Key PyVal) (line : Str) : PyM (Dict Key PyVal) :=
  match Str.split line with
  | key :: vals => do
    let v ← to_type .float (strList vals)
    return accum.set (.str key) v
  | [] => .error .valueError

/-- magres_file_parser.py:154-156. -/
def atomLine (accum : Dict Key PyVal) (line : Str) : PyM (Dict Key PyVal) :=
  match Str.split line with
  | _ :: _ :: spec :: ind :: pos => do
    let v ← to_type .float (strList pos)
    let k ← atomKey spec ind
    setSub false accum (.str (py"coords")) k v
  | _ => .error .valueError

/-- Body of the loop of `_process_atoms_block`, magres_file_parser.py:149-160. -/
def atomsStep (accum : Dict Key PyVal) (line : Str) : PyM (Dict Key PyVal) :=
  if Str.startsWith line (py"lattice") then latticeLine accum line
  else if Str.startsWith line (py"atom") then atomLine accum line
  else if Str.startsWith line (py"units") then unitsLine accum line
  else .ok accum

/-- `_process_atoms_block`, magres_file_parser.py:134-161. -/
def atoms (lines : List Str) : PyM (Dict Key PyVal) :=
  foldLines atomsStep [(.str (py"units"), .dict []), (.str (py"coords"), .dict [])] lines

/-- The kinds of tensors per atom, magres_file_parser.py:187. -/
def SINGLE : List Str := [py"ms", py"efg", py"efg_local", py"efg_nonlocal"]

/-- `s[:-n], s[-n:]` for `n > 0`. -/
def splitEnd (n : Nat) (s : Str) : Str × Str := (s.take (s.length - n), s.drop (s.length - n))

/-- A tensor of one atom, magres_file_parser.py:187-194. -/
def single (munge : Nat) (accum : Dict Key PyVal) : List Str → PyM (Dict Key PyVal)
  | key :: spec :: ind :: vals => do
    let (spec, ind, vals) :=
      if determine_type ind = .float then
        ((splitEnd munge spec).1, (splitEnd munge spec).2, ind :: vals)
      else (spec, ind, vals)
    let v ← to_type .float (strList vals)
    let k ← atomKey spec ind
    setSub true accum (.str key) k v
  | _ => .error .valueError

/-- A coupling of two atoms, magres_file_parser.py:196-199. -/
def coupling (accum : Dict Key PyVal) : List Str → PyM (Dict Key PyVal)
  | key :: sa :: ia :: sb :: ib :: vals => do
    let v ← to_type .float (strList vals)
    let a ← atomKey sa ia
    let b ← atomKey sb ib
    setSub true accum (.str key) (.tup [a, b]) v
  | _ => .error .valueError

/-- Body of the loop of `_process_magres_block`, magres_file_parser.py:182-199. -/
def magresStep (munge : Nat) (accum : Dict Key PyVal) (line : Str) : PyM (Dict Key PyVal) :=
  if Str.startsWith line (py"units") then unitsLine accum line
  else
    match Str.split line with
    | [] => .error .indexError
    | w :: ws =>
      if w ∈ SINGLE then single munge accum (w :: ws)
      else if Str.startsWith w (py"isc") then coupling accum (w :: ws)
      else .ok accum

/-- The aliases of magres_file_parser.py:201-214. -/
def ALIASES : List (Key × Key) :=
  [(.str (py"ms"), .str (py"magnetic_resonance_shielding")),
   (.str (py"efg"), .str (py"electric_field_gradient")),
   (.str (py"efg_local"), .str (py"local_electric_field_gradient")),
   (.str (py"efg_nonlocal"), .str (py"nonlocal_electric_field_gradient")),
   (.str (py"isc_fc"), .str (py"j_coupling_fc")),
   (.str (py"isc_orbital_p"), .str (py"j_coupling_orbital_p")),
   (.str (py"isc_orbital_d"), .str (py"j_coupling_orbital_d")),
   (.str (py"isc_spin"), .str (py"j_coupling_spin")),
   (.str (py"isc"), .str (py"j_coupling_k_total"))]

/-- `_process_magres_block`, magres_file_parser.py:164-216. -/
def magres (version : Int) (lines : List Str) : PyM (Dict Key PyVal) := do
  let accum ← foldLines (magresStep (if version < 22 then 3 else 5)) [] lines
  return (add_aliases accum ALIASES).2

/-- `atom_info` at the start of `_process_magres_old_block`, magres_file_parser.py:238-240. -/
def atomInfo0 (accum : Dict Key PyVal) : PyM (Dict Key PyVal) :=
  match accum.get? (.str (py"atoms")) with
  | some (.dict a) =>
    match Dict.get? a (.str (py"coords")) with
    | some (.dict c) => .ok (c.map fun kv => (kv.1, .dict [(.str (py"coords"), kv.2)]))
    | _ => .error .keyError
  | _ => .error .keyError

/-- `atom_info[atreg]` changed by `f`. -/
def updAtom (info : Dict Key PyVal) (k : Key) (f : Dict Key PyVal → PyM (Dict Key PyVal)) : PyM (Dict Key PyVal) :=
  match info.get? k with
  | some (.dict d) => do
    let d ← f d
    return info.set k (.dict d)
  | _ => .error .keyError

/-- `val[i]` -/
def item (l : List Str) (i : Nat) : PyM Str :=
  match l[i]? with
  | some s => .ok s
  | none => .error .indexError

/-- `float(val[i])` -/
def floatItem (l : List Str) (i : Nat) : PyM PyVal := do
  let s ← item l i
  let x ← pyFloat s
  return .float x

/-- A line of atomic data, magres_file_parser.py:254-261. -/
def oldLine (info : Dict Key PyVal) (line : Str) : PyM (Dict Key PyVal) :=
  match Str.split line with
  | spec :: ind :: key :: vals => do
    let k ← atomKey spec ind
    if key = py"Eigenvalue" then
      updAtom info k fun d => do
        let v ← floatItem vals 1
        MdGeom.appendTo d (.str (py"eigvenvalue")) v
    else if key = py"Eigenvector" then
      updAtom info k fun d => do
        let v ← to_type .float (strList (vals.drop 1))
        MdGeom.appendTo d (.str (py"eigvenvector")) v
    else if c!":" ∈ key then do
      let v ← floatItem vals 0
      updAtom info k fun d => .ok (d.set (.str (normalise_key key)) v)
    else return info
  | _ => .error .valueError

/-- A line of `_process_magres_old_block` that does not start the total shielding tensor. -/
def oldOther (line : Str) (rest : List Str) (info : Dict Key PyVal) : PyM (Dict Key PyVal × List Str) := do
  match ← tryBlock (found RULE_RE) (found RULE_RE) line rest with
  | (some _, rest) => return (info, rest)
  | (none, rest) =>
    if !(Str.strip line).isEmpty && !((c!"[") ∈ line) then do
      let info ← oldLine info line
      return (info, rest)
    else return (info, rest)

/-- The loop of `_process_magres_old_block`, magres_file_parser.py:244-261, with fuel. -/
def oldLoop : Nat → List Str → PyVal → Dict Key PyVal → PyM (PyVal × Dict Key PyVal)
  | 0, _, t, info => .ok (t, info)
  | _ + 1, [], t, info => .ok (t, info)
  | fuel + 1, line :: rest, t, info =>
    match Block.from_re line rest (found SHIELDING_RE) (found Ts.EMPTY_RE) 2 with
    | (.error e, _) => .error e
    | (.ok b, rest) =>
      if b.truthy then do
        let rows ← Elastic.valRows b.data
        oldLoop fuel rest (.list rows) info
      else do
        let (info, rest) ← oldOther line rest info
        oldLoop fuel rest t info

/-- `_process_magres_old_block`, magres_file_parser.py:219-263. -/
def magresOld (accum : Dict Key PyVal) (lines : List Str) : PyM (PyVal × Dict Key PyVal) := do
  let info ← atomInfo0 accum
  oldLoop (lines.length + 1) lines .none info

/-- `int(accum["calc"]["code_version"].split(".")[0])`, magres_file_parser.py:95. -/
def versionOf (cd : Dict Key PyVal) : PyM Int :=
  match cd.get? (.str (py"code_version")) with
  | some (.str s) => pyInt ((Str.splitC (c!".") s).headD [])
  | _ => .error .keyError

/-- One block, magres_file_parser.py:90-103. -/
def block (accum : Dict Key PyVal) (version : Option Int) (name : Str) (lines : List Str) :
    PyM (Dict Key PyVal × Option Int) :=
  if name = py"calculation" then do
    let c ← calculation lines
    let v ← versionOf c
    return (accum.set (.str (py"calc")) (.dict c), some v)
  else if name = py"atoms" then do
    let a ← atoms lines
    return (accum.set (.str (py"atoms")) (.dict a), version)
  else if name = py"magres" then
    match version with
    | none => .error .nameError
    | some v => do
      let m ← magres v lines
      return (accum.set (.str (py"magres")) (.dict m), version)
  else if name = py"magres_old" then do
    let (t, i) ← magresOld accum lines
    return ((accum.set (.str (py"total_shielding")) t).set (.str (py"atom_info")) (.dict i), version)
  else .ok (accum, version)

/-- The loop of `parse_magres_file`, magres_file_parser.py:89-103, with fuel. -/
def loop : Nat → List Str → Dict Key PyVal → Option Int → PyM (Dict Key PyVal)
  | 0, _, accum, _ => .ok accum
  | _ + 1, [], accum, _ => .ok accum
  | fuel + 1, line :: rest, accum, version => do
    match ← tryBlock (found START_RE) (found END_RE) line rest with
    | (some b, rest) => do
      let (accum, version) ← block accum version (blockName line) b.rest.tail
      loop fuel rest accum version
    | (none, rest) => loop fuel rest accum version

end Magres

/-- `parse_magres_file`, magres_file_parser.py:70-105. -/
def parse_magres_file (lines : List Str) : PyM PyVal := do
  let d ← Magres.loop (lines.length + 1) lines [] none
  return .dict d

end Verif

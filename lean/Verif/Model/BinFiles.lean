import Verif.Model.FortranBin
/-
castep_outputs/bin_parsers/cst_esp_file_parser.py and epme_bin_parser.py.
-/
namespace Verif

namespace FReader

/-- Records still to come, with fuel (every successful read advances the cursor). -/
def drain : Nat → BFile → List Bytes
  | 0, _ => []
  | fuel + 1, f =>
    match next f with
    | (.error _, _) => []
    | (.ok d, f) => d :: drain fuel f

/-- `list(reader)`.  Reading raises nothing but `StopIteration`, so a `for` loop whose body does not
touch the reader is a loop over this list. -/
def toList (f : BFile) : List Bytes := drain (f.data.length + 1) f

/-- `get_dtype_cycle(dtypes, n=n)` for a mapping, fortran_bin_parser.py:142-166, run to the end
(`range(n)` is empty for negative `n`). -/
def get_dtype_cycle_dict (dtypes : List (Key × BTyp)) : Nat → BFile → PyM (List (Dict Key PyVal)) × BFile
  | 0, f => (.ok [], f)
  | n + 1, f =>
    match get_dtype_dict dtypes f with
    | (.error e, f) => (.error e, f)
    | (.ok d, f) =>
      match get_dtype_cycle_dict dtypes n f with
      | (.error e, f) => (.error e, f)
      | (.ok l, f) => (.ok (d :: l), f)

/-- `get_dtype_cycle(dtypes, n=n)` for a tuple, fortran_bin_parser.py:142-169, run to the end. -/
def get_dtype_cycle_tup (dtypes : List BTyp) : Nat → BFile → PyM (List (List PyVal)) × BFile
  | 0, f => (.ok [], f)
  | n + 1, f =>
    match get_dtype_iter dtypes f with
    | (.error e, f) => (.error e, f)
    | (.ok d, f) =>
      match get_dtype_cycle_tup dtypes n f with
      | (.error e, f) => (.error e, f)
      | (.ok l, f) => (.ok (d :: l), f)

end FReader

/-- `nx, _ny = parse_bytes(datum[:8], (int, ...))`, cst_esp_file_parser.py:49: unpacking anything but
two values is a `ValueError`. -/
def espIndex (datum : Bytes) : PyM Int :=
  match parse_bytes (datum.take 8) (.many .int) with
  | .error e => .error e
  | .ok (.tuple [.int nx, _]) => .ok nx
  | .ok _ => .error .valueError

/-- The loop of `parse_cst_esp_file`, cst_esp_file_parser.py:48-54, with the variables `prev_nx`,
`curr` and `accum["esp"]`, and line 56. -/
def espLoop : Option Int → List PyVal → List PyVal → List Bytes → PyM (List PyVal)
  | _, curr, esp, [] => .ok (esp ++ [.list curr])
  | prev, curr, esp, datum :: rest =>
    match espIndex datum with
    | .error e => .error e
    | .ok nx =>
      let flush := prev != some nx && !curr.isEmpty
      let esp := if flush then esp ++ [.list curr] else esp
      let curr := if flush then [] else curr
      match parse_bytes (datum.drop 8) (.many .complex) with
      | .error e => .error e
      | .ok row => espLoop (some nx) (curr ++ [row]) esp rest

/-- Start/stop of a Python slice bound: negative counts from the end, clamped. -/
def sliceIdx (n : Nat) (i : Int) : Nat := if 0 ≤ i then min i.toNat n else (i + n).toNat

/-- `parse_cst_esp_file`, cst_esp_file_parser.py:27-62 (after opening the file). -/
def parse_cst_esp_file (f : BFile) : PyM (Dict Key PyVal) :=
  match FReader.get_dtype_dict [(.str (py"n_spins"), .one .int), (.str (py"grid"), .many .int)] f with
  | (.error e, _) => .error e
  | (.ok accum, f) => do
    let esp ← espLoop none [] [] (FReader.toList f)
    let grid ← Dict.getItem accum (.str (py"grid"))
    match grid with
    | .tuple (.int size :: _) =>
      if size < esp.length then
        let k := sliceIdx esp.length size
        return (accum.set (.str (py"esp")) (.list (esp.take k))).set (.str (py"mgga"))
          (.list (esp.drop k))
      else return accum.set (.str (py"esp")) (.list esp)
    | .tuple [] => .error .indexError
    | _ => .error .typeError

namespace Epme

/-- `_check_header`, epme_bin_parser.py:80-109.  When `rewind` itself raises, that is the
exception that escapes. -/
def check_header (test : Bytes) (f : BFile) : PyM Unit × BFile :=
  match FReader.next f with
  | (.error e, f) => (.error e, f)
  | (.ok x, f) =>
    if x ≠ test then
      match FReader.rewind 2 f with
      | (.error e, f) => (.error e, f)
      | (.ok (), f) => (.error .valueError, f)
    else (.ok (), f)

/-- `filter_underscore`, utilities/utility.py:662-684.  (Non-text keys would raise
`AttributeError`; none occur.) -/
def filter_underscore (d : Dict Key PyVal) : Dict Key PyVal :=
  d.filter fun kv => match kv.1 with
    | .str (c :: _) => c != c!"_"
    | _ => true

/-- `a.update(b)` -/
def update (a b : Dict Key PyVal) : Dict Key PyVal := b.foldl (fun d kv => d.set kv.1 kv.2) a

/-- An item that must be an integer (`TypeError` in the arithmetic otherwise). -/
def intItem (d : Dict Key PyVal) (k : Key) : PyM Int :=
  match d.getItem k with
  | .error e => .error e
  | .ok (.int i) => .ok i
  | .ok _ => .error .typeError

/-- `reader.get(int)` as an integer. -/
def getInt (f : BFile) : PyM Int × BFile :=
  match FReader.get (.one .int) f with
  | (.error e, f) => (.error e, f)
  | (.ok (.int i), f) => (.ok i, f)
  | (.ok _, f) => (.error .typeError, f)

/-- `HEADER_DTYPES`, epme_bin_parser.py:14-20. -/
def headerDtypes : List (Key × BTyp) :=
  [(.str (py"_FILE_TYPE"), .one .str), (.str (py"version"), .one .int),
   (.str (py"_HEADER"), .one .str), (.str (py"n_spins"), .one .int),
   (.str (py"fermi_energy"), .one .float)]

/-- `_parse_header`, epme_bin_parser.py:112-122. -/
def parse_header (accum : Dict Key PyVal) (f : BFile) : PyM (Dict Key PyVal) × BFile :=
  match FReader.get_dtype_dict headerDtypes f with
  | (.error e, f) => (.error e, f)
  | (.ok d, f) => (.ok (update accum (filter_underscore d)), f)

/-- Loop body of `_parse_atoms`, epme_bin_parser.py:141-142: `ions[spec.strip(), ind] = pos`. -/
def addIon (ions : Dict Key PyVal) : List PyVal → Dict Key PyVal
  | [.int ind, .str spec, pos] => ions.set (.tup [.str (Str.strip spec), .int ind]) pos
  | _ => ions

/-- `_parse_atoms`, epme_bin_parser.py:125-142. -/
def parse_atoms (accum : Dict Key PyVal) (f : BFile) : PyM (Dict Key PyVal) × BFile :=
  match check_header (([65, 84, 79, 77] : Bytes)) f with
  | (.error e, f) => (.error e, f)
  | (.ok (), f) =>
  match getInt f with
  | (.error e, f) => (.error e, f)
  | (.ok n_ion, f) =>
  let accum := accum.set (.str (py"n_ions")) (.int n_ion)
  match FReader.get (.many .float) f with
  | (.error e, f) => (.error e, f)
  | (.ok lat, f) =>
  let accum := accum.set (.str (py"real_lattice")) lat
  match FReader.get_dtype_cycle_tup [.one .int, .one .str, .many .float] n_ion.toNat f with
  | (.error e, f) => (.error e, f)
  | (.ok l, f) =>
    (.ok (accum.set (.str (py"ions")) (.dict (l.foldl addIon []))), f)

/-- Types of one k-point, epme_bin_parser.py:162-169. -/
def kpointDtypes : List (Key × BTyp) :=
  [(.str (py"ns"), .one .int), (.str (py"nk"), .one .int), (.str (py"n_bands"), .one .int),
   (.str (py"min_band"), .one .int), (.str (py"eigenvalues"), .many .float),
   (.str (py"velocities"), .many .float)]

/-- Loop body of `_parse_kpoint`, epme_bin_parser.py:171-174. -/
def addKpoint (kpts : Dict Key PyVal) (data : Dict Key PyVal) : PyM (Dict Key PyVal) := do
  let ns ← intItem data (.str (py"ns"))
  let data := data.erase (.str (py"ns"))
  let nk ← intItem data (.str (py"nk"))
  let data := data.erase (.str (py"nk"))
  return kpts.set (.tup [.int ns, .int nk]) (.dict data)

/-- `_parse_kpoint`, epme_bin_parser.py:145-174.  The cycle is run to its end before the bodies, which
do not touch the reader. -/
def parse_kpoint (accum : Dict Key PyVal) (f : BFile) : PyM (Dict Key PyVal) × BFile :=
  match check_header (([75, 80, 79, 73, 78, 84] : Bytes)) f with
  | (.error e, f) => (.error e, f)
  | (.ok (), f) =>
  match getInt f with
  | (.error e, f) => (.error e, f)
  | (.ok nkp, f) =>
  let accum := accum.set (.str (py"n_kpoint_pairs")) (.int (nkp / 2))
  match getInt f with
  | (.error e, f) => (.error e, f)
  | (.ok nb, f) =>
  let accum := accum.set (.str (py"n_bands")) (.int nb)
  match intItem accum (.str (py"n_spins")) with
  | .error e => (.error e, f)
  | .ok ns =>
  match FReader.get_dtype_cycle_dict kpointDtypes (ns * (nkp / 2) * 2).toNat f with
  | (.error e, f) => (.error e, f)
  | (.ok l, f) =>
    match l.foldlM addKpoint [] with
    | .error e => (.error e, f)
    | .ok kpts => (.ok (accum.set (.str (py"kpoints")) (.dict kpts)), f)

/-- `accum.setdefault(k, v)` -/
def setdefault (d : Dict Key PyVal) (k : Key) (v : PyVal) : Dict Key PyVal :=
  if d.mem k then d else d.set k v

/-- Types of one phonon, epme_bin_parser.py:206-214. -/
def phononDtypes : List (Key × BTyp) :=
  [(.str (py"_nq"), .one .int), (.str (py"_nb"), .one .int), (.str (py"_nb2"), .one .int),
   (.str (py"kpts"), .many .int), (.str (py"frequencies"), .many .float),
   (.str (py"modes"), .many .complex), (.str (py"matrix_elements"), .many .complex)]

/-- `math.isqrt` by counting up (`ValueError` for negative arguments). -/
def isqrtAux (n : Nat) : Nat → Nat
  | 0 => 0
  | k + 1 => if (k + 1) * (k + 1) ≤ n then k + 1 else isqrtAux n k
/-- `math.isqrt` -/
def isqrt (i : Int) : PyM Int := if i < 0 then .error .valueError else .ok (isqrtAux i.toNat i.toNat)

/-- `_parse_phonons`, epme_bin_parser.py:177-218. -/
def parse_phonons (accum : Dict Key PyVal) (f : BFile) : PyM (Dict Key PyVal) × BFile :=
  match check_header (([69, 80, 67, 79, 85, 80, 76, 73, 78, 71] : Bytes)) f with
  | (.error e, f) => (.error e, f)
  | (.ok (), f) =>
  match getInt f with
  | (.error e, f) => (.error e, f)
  | (.ok nkp, f) =>
  match getInt f with
  | (.error e, f) => (.error e, f)
  | (.ok nb2, f) =>
  match isqrt nb2 with
  | .error e => (.error e, f)
  | .ok nb =>
  let accum := setdefault accum (.str (py"n_kpoint_pairs")) (.int nkp)
  let accum := setdefault accum (.str (py"n_bands")) (.int nb)
  if accum.get? (.str (py"n_kpoint_pairs")) ≠ some (.int nkp) then (.error .valueError, f)
  else if accum.get? (.str (py"n_bands")) ≠ some (.int nb) then (.error .valueError, f)
  else
  match FReader.get_dtype_cycle_dict phononDtypes nkp.toNat f with
  | (.error e, f) => (.error e, f)
  | (.ok l, f) =>
    (.ok (accum.set (.str (py"phonons")) (.list (l.map fun d => .dict (filter_underscore d)))), f)

/-- `parse_epme_bin_file`, epme_bin_parser.py:222-243 (after opening the file). -/
def parse_epme_bin_file (f : BFile) : PyM (Dict Key PyVal) :=
  match parse_header [] f with
  | (.error e, _) => .error e
  | (.ok d, f) =>
  match parse_atoms d f with
  | (.error e, _) => .error e
  | (.ok d, f) =>
  match parse_kpoint d f with
  | (.error e, _) => .error e
  | (.ok d, f) => (parse_phonons d f).1

end Epme
end Verif

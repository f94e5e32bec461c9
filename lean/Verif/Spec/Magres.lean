import Verif.Spec.PhononDos
/-
`.magres` files.
-/
namespace Verif.Spec
open Verif

/-- Letters, digits and underscores. -/
def NameChar (c : Nat) : Prop := (97 ≤ c ∧ c ≤ 122) ∨ (65 ≤ c ∧ c ≤ 90) ∨ (48 ≤ c ∧ c ≤ 57) ∨ c = 95

instance (c : Nat) : Decidable (NameChar c) := inferInstanceAs (Decidable (_ ∨ _))

/-- The line `[name]`. -/
def OpenLine (name l : Str) : Prop := ∃ g g', l = g ++ (91 :: (name ++ 93 :: g')) ∧ Blank g ∧ Blank g' ∧ name ≠ [] ∧ ∀ c ∈ name, NameChar c

/-- The line `[/name]`. -/
def CloseLine (l : Str) : Prop := ∃ g name g', l = g ++ (91 :: 47 :: (name ++ 93 :: g')) ∧ Blank g ∧ Blank g' ∧ name ≠ [] ∧ ∀ c ∈ name, NameChar c

/-- A section: its name and the lines in it. -/
def Section (name : Str) (inner ls : List Str) : Prop :=
  ∃ first last, ls = first :: (inner ++ [last]) ∧ OpenLine name first ∧ CloseLine last ∧ ∀ l ∈ inner, ¬ Occurs (py"[/") l

/-- A text without blanks around it. -/
def Trimmed (s : Str) : Prop := (∃ c t, s = c :: t ∧ isSpace c = false) ∧ ∃ t c, s = t ++ [c] ∧ isSpace c = false

/-! ### `[calculation]` -/

/-- An entry: a name and, where printed, a value. -/
structure MgCalc where
  name : Str
  value : Option Str
  deriving DecidableEq

namespace MgCalc

/-- The line `calc_name value`. -/
def Line (l : Str) (e : MgCalc) : Prop :=
  (∀ c ∈ e.name, isSpace c = false) ∧ ∃ g g', Blank g ∧ Blank g' ∧
    match e.value with
    | some v => Trimmed v ∧ ∃ gap, Blank gap ∧ gap ≠ [] ∧ l = g ++ (py"calc_" ++ e.name ++ (gap ++ (v ++ g')))
    | none => l = g ++ (py"calc_" ++ e.name ++ g')

/-- What is reported. -/
def table (es : List MgCalc) : Dict Key PyVal :=
  Dict.ofList (es.filterMap fun e => e.value.map fun v => (.str e.name, .str v))

/-- The version: what is before the first full stop of the last entry of that name. -/
def Version (es : List MgCalc) (v : Numeral) : Prop :=
  v.Valid ∧ v.IsInt ∧ ∃ more, (more = [] ∨ more.head? = some 46) ∧
    (es.filterMap fun e => if e.name = py"code_version" then e.value else none).getLast? = some (v.text ++ more)

end MgCalc

/-! ### `[atoms]` -/

inductive MgAtoms
  | lattice (ns : List Numeral)
  | atom (spec : Str) (ind : Numeral) (pos : List Numeral)
  | units (key val : Str)
  | other

namespace MgAtoms

def Line (l : Str) : MgAtoms → Prop
  | .lattice ns => Str.startsWith l (py"lattice") = true ∧ Fields l (py"lattice" :: ns.map Numeral.text)
  | .atom spec ind pos => Str.startsWith l (py"atom") = true ∧ ∃ elem, Fields l (py"atom" :: elem :: spec :: ind.text :: pos.map Numeral.text)
  | .units key val => Str.startsWith l (py"units") = true ∧ Fields l [py"units", key, val]
  | .other => Str.startsWith l (py"lattice") = false ∧ Str.startsWith l (py"atom") = false ∧ Str.startsWith l (py"units") = false

def nums : MgAtoms → List Numeral
  | .lattice ns => ns
  | .atom _ _ pos => pos
  | _ => []

/-- The numbers of atoms are integers. -/
def IndOk : MgAtoms → Prop
  | .atom _ ind _ => ind.Valid ∧ ind.IsInt
  | _ => True

def tuple (rd : Numeral → F64) (ns : List Numeral) : PyVal := .tuple (ns.map fun n => .float (rd n))

def atomKey (spec : Str) (ind : Numeral) : Key := .tup [.str spec, .int (intOf ind)]

/-- The positions of the atoms. -/
def coords (rd : Numeral → F64) (its : List MgAtoms) : Dict Key PyVal :=
  Dict.ofList (its.filterMap fun | .atom s i p => some (atomKey s i, tuple rd p) | _ => none)

/-- What is reported. -/
def table (rd : Numeral → F64) (its : List MgAtoms) : Dict Key PyVal :=
  [(.str (py"units"), .dict (Dict.ofList (its.filterMap fun | .units k v => some (.str k, .str v) | _ => none))),
   (.str (py"coords"), .dict (coords rd its))] ++
  (match (its.filterMap fun | .lattice ns => some (tuple rd ns) | _ => none).getLast? with
   | some v => [(.str (py"lattice"), v)]
   | none => [])

end MgAtoms

/-! ### `[magres]` -/

/-- The kinds of tensors of one atom. -/
def tensorKinds : List Str := [py"ms", py"efg", py"efg_local", py"efg_nonlocal"]

/-- Other names for the kinds. -/
def kindNames : List (Str × Str) :=
  [(py"ms", py"magnetic_resonance_shielding"), (py"efg", py"electric_field_gradient"),
   (py"efg_local", py"local_electric_field_gradient"), (py"efg_nonlocal", py"nonlocal_electric_field_gradient"),
   (py"isc_fc", py"j_coupling_fc"), (py"isc_orbital_p", py"j_coupling_orbital_p"), (py"isc_orbital_d", py"j_coupling_orbital_d"),
   (py"isc_spin", py"j_coupling_spin"), (py"isc", py"j_coupling_k_total")]

inductive MgTensor
  | units (key val : Str)
  | single (kind spec : Str) (ind : Numeral) (vals : List Numeral)
  | couple (kind specA : Str) (indA : Numeral) (specB : Str) (indB : Numeral) (vals : List Numeral)
  | other

namespace MgTensor

/-- A printed line; the number of an atom that fills its `w` columns stands next to the species. -/
def Line (w : Nat) (l : Str) : MgTensor → Prop
  | .units key val => Str.startsWith l (py"units") = true ∧ Fields l [py"units", key, val]
  | .single kind spec ind vals => kind ∈ tensorKinds ∧
      (Fields l (kind :: spec :: ind.text :: vals.map Numeral.text) ∨
        ind.text.length = w ∧ (∃ n ∈ vals.head?, ¬ n.IsInt) ∧ Fields l (kind :: (spec ++ ind.text) :: vals.map Numeral.text))
  | .couple kind sa ia sb ib vals => Str.startsWith kind (py"isc") = true ∧
      Fields l (kind :: sa :: ia.text :: sb :: ib.text :: vals.map Numeral.text)
  | .other => Str.startsWith l (py"units") = false ∧
      ∃ k ws, Fields l (k :: ws) ∧ k ∉ tensorKinds ∧ Str.startsWith k (py"isc") = false

def nums : MgTensor → List Numeral
  | .single _ _ _ vals => vals
  | .couple _ _ _ _ _ vals => vals
  | _ => []

def IndOk : MgTensor → Prop
  | .single _ _ ind _ => ind.Valid ∧ ind.IsInt
  | .couple _ _ a _ b _ => (a.Valid ∧ a.IsInt) ∧ b.Valid ∧ b.IsInt
  | _ => True

/-- Under which names which value is reported. -/
def entry (rd : Numeral → F64) : MgTensor → Option (Str × Key × PyVal)
  | .units key val => some (py"units", .str key, .str val)
  | .single kind spec ind vals => some (kind, MgAtoms.atomKey spec ind, MgAtoms.tuple rd vals)
  | .couple kind sa ia sb ib vals => some (kind, .tup [MgAtoms.atomKey sa ia, MgAtoms.atomKey sb ib], MgAtoms.tuple rd vals)
  | .other => none

/-- Entries by kind, the kinds in the order in which they appear first. -/
def byKind (es : List (Str × Key × PyVal)) : Dict Key PyVal :=
  (es.foldl (fun ks e => if e.1 ∈ ks then ks else ks ++ [e.1]) []).map fun k =>
    (.str k, .dict (Dict.ofList ((es.filter (·.1 = k)).map Prod.snd)))

/-- What is reported: the entries by kind, and the same under the other names. -/
def table (rd : Numeral → F64) (its : List MgTensor) : Dict Key PyVal :=
  byKind (its.filterMap (entry rd)) ++
    kindNames.filterMap fun p => (Dict.get? (byKind (its.filterMap (entry rd))) (.str p.1)).map fun v => (.str p.2, v)

end MgTensor

/-! ### `[magres_old]` -/

inductive MgOld
  /-- the frame around the name of an atom -/
  | frame
  | shielding (rows : List (List Numeral))
  | eigenvalue (spec : Str) (ind : Numeral) (v : Numeral)
  | eigenvector (spec : Str) (ind : Numeral) (vs : List Numeral)
  /-- `name: value` -/
  | value (spec : Str) (ind : Numeral) (name : Str) (v : Numeral)
  | other

namespace MgOld

/-- A line of equals signs. -/
def Rule (l : Str) : Prop := ∃ n, 0 < n ∧ (l = List.replicate n 61 ∨ l = List.replicate n 61 ++ [10])

/-- A line with data. -/
def Data (l : Str) (ws : List Str) : Prop :=
  Fields l ws ∧ ¬ Occurs (py"TOTAL Shielding Tensor") l ∧ l.head? ≠ some 61 ∧ (91 : Nat) ∉ l

def Letters (w : Str) : Prop := ∀ c ∈ w, (97 ≤ c ∧ c ≤ 122) ∨ (65 ≤ c ∧ c ≤ 90)

def Lines (ls : List Str) : MgOld → Prop
  | .frame => ∃ first inner last, ls = first :: (inner ++ [last]) ∧ Rule first ∧ Rule last ∧ ∀ l ∈ inner, l.head? ≠ some 61
  | .shielding rows => ∃ title gap inner last, ls = title :: gap :: (inner ++ [last]) ∧ Occurs (py"TOTAL Shielding Tensor") title ∧
      NoDigit title ∧ Blank gap ∧ Blank last ∧ List.Forall₂ (fun l ns => Fields l (ns.map Numeral.text)) inner rows
  | .eigenvalue spec ind v => ∃ l which more, ls = [l] ∧ Data l (spec :: ind.text :: py"Eigenvalue" :: which :: v.text :: more)
  | .eigenvector spec ind vs => ∃ l which, ls = [l] ∧ Data l (spec :: ind.text :: py"Eigenvector" :: which :: vs.map Numeral.text)
  | .value spec ind name v => ∃ l more, ls = [l] ∧ Data l (spec :: ind.text :: (name ++ py":") :: v.text :: more)
  | .other => ∃ l, ls = [l] ∧ ¬ Occurs (py"TOTAL Shielding Tensor") l ∧ l.head? ≠ some 61 ∧
      (Blank l ∨ (91 : Nat) ∈ l ∨ ∃ spec, ∃ ind : Numeral, ∃ key vals, Fields l (spec :: ind.text :: key :: vals) ∧ ind.Valid ∧ ind.IsInt ∧
        key ≠ py"Eigenvalue" ∧ key ≠ py"Eigenvector" ∧ (58 : Nat) ∉ key)

def nums : MgOld → List Numeral
  | .shielding rows => rows.flatten
  | .eigenvalue _ _ v => [v]
  | .eigenvector _ _ vs => vs
  | .value _ _ _ v => [v]
  | _ => []

/-- The atom a line is about. -/
def atom? : MgOld → Option Key
  | .eigenvalue s i _ => some (MgAtoms.atomKey s i)
  | .eigenvector s i _ => some (MgAtoms.atomKey s i)
  | .value s i _ _ => some (MgAtoms.atomKey s i)
  | _ => none

def Ok : MgOld → Prop
  | .shielding rows => ∀ r ∈ rows, r ≠ []
  | .eigenvalue _ ind _ => ind.Valid ∧ ind.IsInt
  | .eigenvector _ ind _ => ind.Valid ∧ ind.IsInt
  | .value _ ind name _ => ind.Valid ∧ ind.IsInt ∧ name ≠ [] ∧ Letters name ∧
      Str.lower name ≠ py"eigvenvalue" ∧ Str.lower name ≠ py"eigvenvector"
  | _ => True

/-- What a line adds to the entry of its atom. -/
def put (rd fl : Numeral → F64) (d : Dict Key PyVal) : MgOld → Dict Key PyVal
  | .eigenvalue _ _ v => addAll d (py"eigvenvalue") [.float (fl v)]
  | .eigenvector _ _ vs => addAll d (py"eigvenvector") [MgAtoms.tuple rd vs]
  | .value _ _ name v => d.set (.str (Str.lower name)) (.float (fl v))
  | _ => d

/-- What is reported for each atom of `[atoms]`. -/
def atoms (rd fl : Numeral → F64) (coords : Dict Key PyVal) (its : List MgOld) : Dict Key PyVal :=
  coords.map fun kv => (kv.1, .dict ((its.filter fun i => i.atom? = some kv.1).foldl (put rd fl) [(.str (py"coords"), kv.2)]))

/-- The tensors, in the order of the file. -/
def tensors (rd : Numeral → F64) (its : List MgOld) : List PyVal :=
  its.filterMap fun | .shielding rows => some (.list (rows.map (MgAtoms.tuple rd))) | _ => none

end MgOld

/-! ### The file -/

structure MgFile where
  params : List MgCalc
  version : Numeral
  atoms : List MgAtoms
  tensors : List MgTensor
  old : Option (List MgOld)

/-- Lines outside the sections. -/
def Outside (ls : List Str) : Prop := ∀ l ∈ ls, (91 : Nat) ∉ l

namespace MgFile

/-- Columns of the number of an atom: three before version 22, five since. -/
def width (f : MgFile) : Nat := if intOf f.version < 22 then 3 else 5

def Lines (f : MgFile) (lines : List Str) : Prop :=
  ∃ o0 c cs o1 a as o2 m ms o3 o, lines = o0 ++ (cs ++ (o1 ++ (as ++ (o2 ++ (ms ++ (o3 ++ o)))))) ∧
    Outside o0 ∧ Outside o1 ∧ Outside o2 ∧ Outside o3 ∧
    Section (py"calculation") c cs ∧ List.Forall₂ MgCalc.Line c f.params ∧
    Section (py"atoms") a as ∧ List.Forall₂ MgAtoms.Line a f.atoms ∧
    Section (py"magres") m ms ∧ List.Forall₂ (MgTensor.Line f.width) m f.tensors ∧
    match f.old with
    | none => o = []
    | some its => ∃ b bs o4, o = bs ++ o4 ∧ Outside o4 ∧ Section (py"magres_old") b.flatten bs ∧ List.Forall₂ MgOld.Lines b its

def oldNums (f : MgFile) : List Numeral := (f.old.getD []).flatMap MgOld.nums

def nums (f : MgFile) : List Numeral := f.atoms.flatMap MgAtoms.nums ++ (f.tensors.flatMap MgTensor.nums ++ f.oldNums)

/-- Well-formed numbers; the old section is about atoms of the file. -/
def Ok (f : MgFile) : Prop :=
  MgCalc.Version f.params f.version ∧ (∀ n ∈ f.nums, n.Valid ∧ n.InRange) ∧ (∀ i ∈ f.atoms, i.IndOk) ∧ (∀ i ∈ f.tensors, i.IndOk) ∧
  ∀ i ∈ f.old.getD [], i.Ok ∧ ∀ k, i.atom? = some k → ∃ s n p, MgAtoms.atom s n p ∈ f.atoms ∧ k = MgAtoms.atomKey s n

/-- The sections that are always there. -/
def main (rd : Numeral → F64) (f : MgFile) : Dict Key PyVal :=
  [(.str (py"calc"), .dict (MgCalc.table f.params)), (.str (py"atoms"), .dict (MgAtoms.table rd f.atoms)),
   (.str (py"magres"), .dict (MgTensor.table rd f.tensors))]

/-- What is reported: of the tensors of the old section the last one. -/
def result (rd fl : Numeral → F64) (f : MgFile) : Dict Key PyVal :=
  main rd f ++ match f.old with
    | none => []
    | some its => [(.str (py"total_shielding"), (MgOld.tensors rd its).getLast?.getD .none),
        (.str (py"atom_info"), .dict (MgOld.atoms rd fl (MgAtoms.coords rd f.atoms) its))]

end MgFile

end Verif.Spec

import Verif.Py.Regex
import Verif.Py.Num
import Verif.Model.FileWrapper
/-
castep_outputs/utilities/utility.py.
`get_only` (605-628) is in Model/FortranBin.
Not modelled: log_factory (394-442) and file_or_path (631-659).
-/
namespace Verif

/-! ### Strings -/

/-- `NORMALISE_RE`, utility.py:39. -/
def NORMALISE_RE : Pat := rx (py r"[_\W]+")

/-- `normalise_string`, utility.py:57-81. -/
def normalise_string (s : Str) : Str := Str.join (py" ") (Str.split (Str.strip s))

/-- `normalise_key`, utility.py:84-113. -/
def normalise_key (s : Str) : Str :=
  Str.lower (Str.stripP (· == c!"_") (NORMALISE_RE.sub (py"_") s))

/-! ### Comments -/

/-- A pattern matching exactly the text `s`. -/
def litRe : Str → Re
  | [] => .eps
  | [c] => .set ⟨false, [.ch c], false⟩
  | c :: s => .seq (.set ⟨false, [.ch c], false⟩) (litRe s)

/-- Alternation. -/
def altRe : List Re → Re
  | [] => .eps
  | [r] => r
  | r :: l => .alt r (altRe l)

/-- `re.compile(f"({'|'.join(comment_char)})")`, utility.py:482.  Built directly as a tree, which is what
compilation gives when the comment strings contain no regex metacharacters (see the examples).  The
list stands for the set in the order Python happens to iterate over it. -/
def commentRe (cs : List Str) : Pat := ⟨.group 1 (altRe (cs.map litRe)), [], 1⟩

/-- `re.compile(rf"^\s*({'|'.join(comment_char)})")`, utility.py:529. -/
def commentInitRe (cs : List Str) : Pat :=
  ⟨.seq .bol (.seq (.rep true 0 none (.set ⟨false, [.space], false⟩)) (.group 1 (altRe (cs.map litRe)))), [], 1⟩

example : commentRe [py"#", py"!"] = rx (py"(#|!)") := by decide +kernel
example : commentInitRe [py"//", py"#"] = rx (py r"^\s*(//|#)") := by decide +kernel

/-- `p.split(text)[0]`: the text before the first match. -/
def Pat.splitHead (p : Pat) (text : Str) : Str :=
  match p.search text with
  | some x => x.before
  | none => text

/-- `_strip_inline_comments`, utility.py:445-489, on the lines the data yields. -/
def strip_inline_comments (cs : List Str) : List Str → List Str
  | [] => []
  | line :: lines =>
    let line := Str.rstrip ((commentRe cs).splitHead line)
    if line.isEmpty then strip_inline_comments cs lines else line :: strip_inline_comments cs lines

/-- `_strip_initial_comments`, utility.py:492-533, on the lines the data yields. -/
def strip_initial_comments (cs : List Str) (lines : List Str) : List Str :=
  ((lines.filter fun l => ((commentInitRe cs).match_ l).isNone).map Str.rstrip).filter (!·.isEmpty)

/-- `strip_comments`, utility.py:536-602: the data of the block returned, given the lines `data`
yields. -/
def strip_comments (lines : List Str) (cs : List Str := [py"#", py"!"]) (remove_inline : Bool := false) :
    List Str :=
  if remove_inline then strip_inline_comments cs lines else strip_initial_comments cs lines

/-! ### Keys and JSON -/

/-- The texts of the elements of an element `x` of a key, utility.py:276 (`for y in x`). -/
def Key.elemTexts : Key → PyM (List Str)
  | .tup l => .ok (l.map Key.toStr)
  | .str s => .ok (s.map fun c => [c])
  | _ => .error .typeError

/-- `for x in key for y in x`. -/
def Key.nestedTexts : List Key → PyM (List Str)
  | [] => .ok []
  | x :: l => do
    let a ← Key.elemTexts x
    let b ← Key.nestedTexts l
    return a ++ b

/-- The key conversion of `json_safe`, utility.py:273-278. -/
def json_key : Key → PyM Key
  | .tup [] => .error .indexError
  | .tup (.tup a :: l) => do
    let t ← Key.nestedTexts (.tup a :: l)
    return .str (Str.join (py"_") t)
  | .tup l => .ok (.str (Str.join (py"_") (l.map Key.toStr)))
  | k => .ok k

mutual
/-- `json_safe`, utility.py:241-284. -/
def json_safe : PyVal → PyM PyVal
  | .dict d => do
    let out ← jsonDict d []
    return .dict out
  | .complex re im => .ok (.dict [(.str (py"real"), .float re), (.str (py"imag"), .float im)])
  | v => .ok v
/-- The loop of `json_safe`, utility.py:272-279. -/
def jsonDict : List (Key × PyVal) → Dict Key PyVal → PyM (Dict Key PyVal)
  | [], out => .ok out
  | (k, v) :: d, out => do
    let k ← json_key k
    let v ← json_safe v
    jsonDict d (out.set k v)
end

mutual
/-- `normalise`, utility.py:201-232.  `f` applies `mapping[type(obj)]` where `mapping` has the type, and is
the identity elsewhere. -/
def normalise (f : PyVal → PyM PyVal) : PyVal → PyM PyVal
  | .tuple l | .list l => do
    let l ← normaliseL f l
    f (.tuple l)
  | .dict d => do
    let d ← normaliseD f d
    f (.dict d)
  | v => f v
/-- The generator of `normalise`. -/
def normaliseL (f : PyVal → PyM PyVal) : List PyVal → PyM (List PyVal)
  | [] => .ok []
  | v :: l => do
    let v ← normalise f v
    let l ← normaliseL f l
    return v :: l
/-- The comprehension of `normalise`. -/
def normaliseD (f : PyVal → PyM PyVal) : List (Key × PyVal) → PyM (List (Key × PyVal))
  | [] => .ok []
  | (k, v) :: d => do
    let v ← normalise f v
    let d ← normaliseD f d
    return (k, v) :: d
end

/-- The mapping `{dict: json_safe, complex: json_safe}`, castep_outputs_main.py:85. -/
def jsonMapping : PyVal → PyM PyVal
  | .dict d => json_safe (.dict d)
  | .complex re im => json_safe (.complex re im)
  | v => .ok v

/-! ### Dictionaries -/

/-- Truth value of a key. -/
def Key.truthy : Key → Bool
  | .none => false
  | .bool b => b
  | .int i => i != 0
  | .str s => !s.isEmpty
  | .tup l => !l.isEmpty

/-- `f"{parent_key}{separator}{key}" if parent_key else key`, utility.py:323. -/
def flatKey (sep : Str) (parent key : Key) : Key :=
  if parent.truthy then .str (parent.toStr ++ sep ++ key.toStr) else key

mutual
/-- What one value contributes to `items`, utility.py:324-330. -/
def flattenVal (sep : Str) (key : Key) : PyVal → List (Key × PyVal)
  | .dict d => Dict.ofList (flattenItems sep key d)
  | .list l | .tuple l => flattenList key 0 l
  | v => [(key, v)]
/-- The loop of `flatten_dict`, utility.py:321-330: `items`. -/
def flattenItems (sep : Str) (parent : Key) : List (Key × PyVal) → List (Key × PyVal)
  | [] => []
  | (k, v) :: d => flattenVal sep (flatKey sep parent k) v ++ flattenItems sep parent d
/-- The loop over a sequence, utility.py:327-328: note that the separator is not passed on. -/
def flattenList (key : Key) : Nat → List PyVal → List (Key × PyVal)
  | _, [] => []
  | i, v :: l =>
    Dict.ofList (flattenVal (py"_") (flatKey (py"_") key (.str (natStr i))) v) ++ flattenList key (i + 1) l
end

/-- `flatten_dict`, utility.py:287-331. -/
def flatten_dict (d : List (Key × PyVal)) (parent : Key := .str []) (sep : Str := py"_") : Dict Key PyVal :=
  Dict.ofList (flattenItems sep parent d)

section
variable {κ α : Type} [DecidableEq κ]

/-- `stack_dict`, utility.py:334-346, for `out_dict` a `defaultdict(list)`. -/
def stack_dict (out : Dict κ (List α)) : Dict κ α → Dict κ (List α)
  | [] => out
  | (k, v) :: d => stack_dict (out.set k ((out.get? k).getD [] ++ [v])) d

/-- Two dictionary objects: `in_dict` and the copy. -/
structure Objs (κ α : Type) where
  inDict : Dict κ α
  copied : Dict κ α

/-- The object `out_dict` names. -/
def Objs.out (inplace : Bool) (o : Objs κ α) : Dict κ α := if inplace then o.inDict else o.copied
/-- Assign to the object `out_dict` names. -/
def Objs.setOut (inplace : Bool) (o : Objs κ α) (d : Dict κ α) : Objs κ α :=
  if inplace then { o with inDict := d } else { o with copied := d }

/-- The loop of `add_aliases`, utility.py:386-390. -/
def aliasLoop (replace inplace : Bool) (o : Objs κ α) : List (κ × κ) → Objs κ α
  | [] => o
  | (frm, new) :: l =>
    match o.inDict.get? frm with
    | some v =>
      let o := o.setOut inplace ((o.out inplace).set new v)
      let o := if replace then o.setOut inplace ((o.out inplace).erase frm) else o
      aliasLoop replace inplace o l
    | none => aliasLoop replace inplace o l

/-- `add_aliases`, utility.py:349-391: the dictionary returned, and what the argument has become. -/
def add_aliases (d : Dict κ α) (aliases : List (κ × κ)) (replace : Bool := false) (inplace : Bool := true) :
    Dict κ α × Dict κ α :=
  let o := aliasLoop replace inplace ⟨d, d⟩ aliases
  (o.out inplace, o.inDict)

/-- `strip_nones`, utility.py:116-146. -/
def strip_nones (d : Dict κ PyVal) (incl : Option (List κ) := none) (exclude : List κ := []) : Dict κ PyVal :=
  d.filter fun kv =>
    !(!exclude.contains kv.1 && (match incl with | none => true | some l => l.contains kv.1) && kv.2 == .none)
end

/-- `atreg_to_index`, utility.py:149-187, on a dictionary. -/
def atreg_to_index (d : Dict Key PyVal) (clear : Bool := true) : PyM (Str × Int) × Dict Key PyVal :=
  match d.get? (.str (py"spec")) with
  | some (.str spec) =>
    match d.get? (.str (py"index")) with
    | some (.str ind) =>
      let d := if clear then (d.erase (.str (py"spec"))).erase (.str (py"index")) else d
      match pyInt ind with
      | .ok i => (.ok (spec, i), d)
      | .error e => (.error e, d)
    | some _ => (.error .typeError, d)
    | none => (.error .keyError, d)
  | some _ => (.error .typeError, d)
  | none => (.error .keyError, d)

/-- `filter_underscore`, utility.py:662-684. -/
def filter_underscore (d : Dict Str α) : Dict Str α := d.filter fun kv => !Str.startsWith kv.1 (py"_")

end Verif

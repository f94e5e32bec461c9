import Verif.Py.Basic
/-
Python values: the data the parsers produce and the utilities transform.
-/
namespace Verif

/-- A Python `float`, i.e. an IEEE-754 binary64 datum, given by its bit pattern. -/
structure F64 where
  bits : Fin (2 ^ 64)
  deriving DecidableEq, Repr

/-- Hashable values used as dictionary keys. -/
inductive Key
  | none
  | bool (b : Bool)
  | int (i : Int)
  | str (s : Str)
  | tup (l : List Key)
  deriving Repr

/-- Python values.  `list` and `tuple` are distinct; `dict` keeps insertion order.
(`defaultdict` is not distinguished from `dict`.) -/
inductive PyVal
  | none
  | bool (b : Bool)
  | int (i : Int)
  | float (x : F64)
  | complex (re im : F64)
  | str (s : Str)
  | tuple (l : List PyVal)
  | list (l : List PyVal)
  | dict (d : List (Key × PyVal))
  deriving Repr

mutual
/-- Decidable equality of keys. -/
def Key.decEq : (a b : Key) → Decidable (a = b)
  | .none, .none => isTrue rfl
  | .bool a, .bool b => decidable_of_iff (a = b) (by simp)
  | .int a, .int b => decidable_of_iff (a = b) (by simp)
  | .str a, .str b => decidable_of_iff (a = b) (by simp)
  | .tup a, .tup b => match Key.decEqL a b with
    | isTrue h => isTrue (by rw [h])
    | isFalse h => isFalse (by simpa using h)
  | .none, .bool _ | .none, .int _ | .none, .str _ | .none, .tup _
  | .bool _, .none | .bool _, .int _ | .bool _, .str _ | .bool _, .tup _
  | .int _, .none | .int _, .bool _ | .int _, .str _ | .int _, .tup _
  | .str _, .none | .str _, .bool _ | .str _, .int _ | .str _, .tup _
  | .tup _, .none | .tup _, .bool _ | .tup _, .int _ | .tup _, .str _ =>
    isFalse (by intro h; cases h)
/-- Decidable equality of key lists. -/
def Key.decEqL : (a b : List Key) → Decidable (a = b)
  | [], [] => isTrue rfl
  | [], _ :: _ => isFalse (by simp)
  | _ :: _, [] => isFalse (by simp)
  | a :: l, b :: m => match Key.decEq a b with
    | isFalse h => isFalse (by simp [h])
    | isTrue h => match Key.decEqL l m with
      | isTrue h' => isTrue (by rw [h, h'])
      | isFalse h' => isFalse (by simp [h'])
end
instance : DecidableEq Key := Key.decEq

mutual
/-- Decidable equality of values. -/
def PyVal.decEq : (a b : PyVal) → Decidable (a = b)
  | .none, .none => isTrue rfl
  | .bool a, .bool b => decidable_of_iff (a = b) (by simp)
  | .int a, .int b => decidable_of_iff (a = b) (by simp)
  | .float a, .float b => decidable_of_iff (a = b) (by simp)
  | .complex a c, .complex b d => decidable_of_iff (a = b ∧ c = d) (by simp)
  | .str a, .str b => decidable_of_iff (a = b) (by simp)
  | .tuple a, .tuple b => match PyVal.decEqL a b with
    | isTrue h => isTrue (by rw [h])
    | isFalse h => isFalse (by simpa using h)
  | .list a, .list b => match PyVal.decEqL a b with
    | isTrue h => isTrue (by rw [h])
    | isFalse h => isFalse (by simpa using h)
  | .dict a, .dict b => match PyVal.decEqD a b with
    | isTrue h => isTrue (by rw [h])
    | isFalse h => isFalse (by simpa using h)
  | .none, .bool _ | .none, .int _ | .none, .float _ | .none, .complex _ _ | .none, .str _
  | .none, .tuple _ | .none, .list _ | .none, .dict _
  | .bool _, .none | .bool _, .int _ | .bool _, .float _ | .bool _, .complex _ _ | .bool _, .str _
  | .bool _, .tuple _ | .bool _, .list _ | .bool _, .dict _
  | .int _, .none | .int _, .bool _ | .int _, .float _ | .int _, .complex _ _ | .int _, .str _
  | .int _, .tuple _ | .int _, .list _ | .int _, .dict _
  | .float _, .none | .float _, .bool _ | .float _, .int _ | .float _, .complex _ _
  | .float _, .str _ | .float _, .tuple _ | .float _, .list _ | .float _, .dict _
  | .complex _ _, .none | .complex _ _, .bool _ | .complex _ _, .int _ | .complex _ _, .float _
  | .complex _ _, .str _ | .complex _ _, .tuple _ | .complex _ _, .list _ | .complex _ _, .dict _
  | .str _, .none | .str _, .bool _ | .str _, .int _ | .str _, .float _ | .str _, .complex _ _
  | .str _, .tuple _ | .str _, .list _ | .str _, .dict _
  | .tuple _, .none | .tuple _, .bool _ | .tuple _, .int _ | .tuple _, .float _
  | .tuple _, .complex _ _ | .tuple _, .str _ | .tuple _, .list _ | .tuple _, .dict _
  | .list _, .none | .list _, .bool _ | .list _, .int _ | .list _, .float _
  | .list _, .complex _ _ | .list _, .str _ | .list _, .tuple _ | .list _, .dict _
  | .dict _, .none | .dict _, .bool _ | .dict _, .int _ | .dict _, .float _
  | .dict _, .complex _ _ | .dict _, .str _ | .dict _, .tuple _ | .dict _, .list _ =>
    isFalse (by intro h; cases h)
/-- Decidable equality of value lists. -/
def PyVal.decEqL : (a b : List PyVal) → Decidable (a = b)
  | [], [] => isTrue rfl
  | [], _ :: _ => isFalse (by simp)
  | _ :: _, [] => isFalse (by simp)
  | a :: l, b :: m => match PyVal.decEq a b with
    | isFalse h => isFalse (by simp [h])
    | isTrue h => match PyVal.decEqL l m with
      | isTrue h' => isTrue (by rw [h, h'])
      | isFalse h' => isFalse (by simp [h'])
/-- Decidable equality of dictionary bodies. -/
def PyVal.decEqD : (a b : List (Key × PyVal)) → Decidable (a = b)
  | [], [] => isTrue rfl
  | [], _ :: _ => isFalse (by simp)
  | _ :: _, [] => isFalse (by simp)
  | (k, a) :: l, (k', b) :: m => match Key.decEq k k' with
    | isFalse h => isFalse (by simp [h])
    | isTrue h0 => match PyVal.decEq a b with
      | isFalse h => isFalse (by simp [h])
      | isTrue h => match PyVal.decEqD l m with
        | isTrue h' => isTrue (by rw [h0, h, h'])
        | isFalse h' => isFalse (by simp [h'])
end
instance : DecidableEq PyVal := PyVal.decEq

mutual
/-- `str(key)`; `repr` of nested text does not model escapes. -/
def Key.toStr : Key → Str
  | .none => py"None"
  | .bool true => py"True"
  | .bool false => py"False"
  | .int i => intStr i
  | .str s => s
  | .tup l => py"(" ++ Key.reprL l ++ (if l.length = 1 then py"," else []) ++ py")"
/-- `repr(key)` -/
def Key.repr' : Key → Str
  | .none => py"None"
  | .bool true => py"True"
  | .bool false => py"False"
  | .int i => intStr i
  | .str s => py"'" ++ s ++ py"'"
  | .tup l => py"(" ++ Key.reprL l ++ (if l.length = 1 then py"," else []) ++ py")"
/-- The elements of a tuple, comma separated. -/
def Key.reprL : List Key → Str
  | [] => []
  | [k] => Key.repr' k
  | k :: l => Key.repr' k ++ py", " ++ Key.reprL l
end

/-- The key `"..."`. -/
abbrev Key.s (s : Str) : Key := .str s

end Verif

import Verif.Py.Value
/-
What it means to convert the strings inside a value, independently of any algorithm.
-/
namespace Verif.Spec

mutual
/-- `Converted f v w`: `w` is `v` with every string replaced by its image under `f`; sequences have
become tuples of the same length, mappings keep their keys and order, other values are unchanged. -/
inductive Converted (f : Str → PyM PyVal) : PyVal → PyVal → Prop
  | str {s v} : f s = .ok v → Converted f (.str s) v
  | tuple {l l'} : ConvertedL f l l' → Converted f (.tuple l) (.tuple l')
  | list {l l'} : ConvertedL f l l' → Converted f (.list l) (.tuple l')
  | dict {d d'} : ConvertedD f d d' → Converted f (.dict d) (.dict d')
  | none : Converted f .none .none
  | bool {b} : Converted f (.bool b) (.bool b)
  | int {i} : Converted f (.int i) (.int i)
  | float {x} : Converted f (.float x) (.float x)
  | complex {x y} : Converted f (.complex x y) (.complex x y)
/-- Element by element. -/
inductive ConvertedL (f : Str → PyM PyVal) : List PyVal → List PyVal → Prop
  | nil : ConvertedL f [] []
  | cons {v w l l'} : Converted f v w → ConvertedL f l l' → ConvertedL f (v :: l) (w :: l')
/-- Value by value, with the same keys. -/
inductive ConvertedD (f : Str → PyM PyVal) : List (Key × PyVal) → List (Key × PyVal) → Prop
  | nil : ConvertedD f [] []
  | cons {k v w d d'} : Converted f v w → ConvertedD f d d' → ConvertedD f ((k, v) :: d) ((k, w) :: d')
end

mutual
/-- The strings inside a value, in order. -/
def strings : PyVal → List Str
  | .str s => [s]
  | .tuple l | .list l => stringsL l
  | .dict d => stringsD d
  | _ => []
/-- The strings inside a list of values. -/
def stringsL : List PyVal → List Str
  | [] => []
  | v :: l => strings v ++ stringsL l
/-- The strings inside the values of a mapping. -/
def stringsD : List (Key × PyVal) → List Str
  | [] => []
  | (_, v) :: d => strings v ++ stringsD d
end

end Verif.Spec

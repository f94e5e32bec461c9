import Verif.Py.Value
/-
Vocabulary for nested data: what JSON can hold, leaves, paths.
-/
namespace Verif.Spec
open Verif

mutual
/-- Holds only what JSON can: no complex number, no tuple as a key, no duplicate key, at any depth.
(Sequences are tuples.) -/
def JsonReady : PyVal → Prop
  | .complex _ _ | .list _ => False
  | .tuple l => JsonReadyL l
  | .dict d => (d.map Prod.fst).Nodup ∧ JsonReadyD d
  | _ => True
def JsonReadyL : List PyVal → Prop
  | [] => True
  | v :: l => JsonReady v ∧ JsonReadyL l
def JsonReadyD : List (Key × PyVal) → Prop
  | [] => True
  | (k, v) :: d => (∀ l, k ≠ .tup l) ∧ JsonReady v ∧ JsonReadyD d
end

mutual
/-- The scalars of a value, in order; a complex number counts as its two parts. -/
def scalars : PyVal → List PyVal
  | .tuple l | .list l => scalarsL l
  | .dict d => scalarsD d
  | .complex re im => [.float re, .float im]
  | v => [v]
def scalarsL : List PyVal → List PyVal
  | [] => []
  | v :: l => scalars v ++ scalarsL l
def scalarsD : List (Key × PyVal) → List PyVal
  | [] => []
  | (_, v) :: d => scalars v ++ scalarsD d
end

/-- Keys whose text `json_safe` can form: not the empty tuple, and if the first component is a tuple
then all components are tuples or texts. -/
def KeyOk : Key → Prop
  | .tup [] => False
  | .tup (.tup _ :: l) => ∀ x ∈ l, (∃ a, x = .tup a) ∨ ∃ s, x = .str s
  | _ => True

/-- The texts of the components of an element of a nested key. -/
def innerTexts : Key → List Str
  | .tup l => l.map Key.toStr
  | .str s => s.map fun c => [c]
  | _ => []

/-- What a key becomes: tuples are joined by underscores, tuples of tuples (bonds) after flattening. -/
def jsonName : Key → Key
  | .tup (.tup a :: l) => .str (Str.join (py"_") ((.tup a :: l).flatMap innerTexts))
  | .tup l => .str (Str.join (py"_") (l.map Key.toStr))
  | k => k

mutual
/-- `P` holds of the keys of every dictionary inside the value. -/
def EveryDict (P : List Key → Prop) : PyVal → Prop
  | .tuple l | .list l => EveryDictL P l
  | .dict d => P (d.map Prod.fst) ∧ EveryDictD P d
  | _ => True
def EveryDictL (P : List Key → Prop) : List PyVal → Prop
  | [] => True
  | v :: l => EveryDict P v ∧ EveryDictL P l
def EveryDictD (P : List Key → Prop) : List (Key × PyVal) → Prop
  | [] => True
  | (_, v) :: d => EveryDict P v ∧ EveryDictD P d
end

/-- The names given to the keys of one dictionary are distinct. -/
def NamesDistinct (ks : List Key) : Prop := (ks.map jsonName).Nodup

/-! ### Paths -/

/-- A step on the way to a leaf: a key or an index, and whether the way has passed through a
sequence (the index itself included). -/
abbrev Seg := Bool × Str

mutual
/-- Leaves of a value with nonempty text keys, each with the way to it; `b` tells whether a sequence has
been passed. -/
def leafPaths (b : Bool) : PyVal → List (List Seg × PyVal)
  | .dict d => leafPathsD b d
  | .list l | .tuple l => leafPathsL 0 l
  | v => [([], v)]
def leafPathsD (b : Bool) : List (Key × PyVal) → List (List Seg × PyVal)
  | [] => []
  | (.str k, v) :: d => (leafPaths b v).map (fun p => ((b, k) :: p.1, p.2)) ++ leafPathsD b d
  | _ :: d => leafPathsD b d
def leafPathsL : Nat → List PyVal → List (List Seg × PyVal)
  | _, [] => []
  | i, v :: l => (leafPaths true v).map (fun p => ((true, natStr i) :: p.1, p.2)) ++ leafPathsL (i + 1) l
end

/-- All keys are nonempty texts. -/
def TextKeys (ks : List Key) : Prop := ∀ k ∈ ks, ∃ c s, k = .str (c :: s)

/-- The path joined by the separator. -/
def pathText (sep : Str) (p : List Seg) : Str := Str.join sep (p.map Prod.snd)

mutual
/-- No sequence inside. -/
def NoSeq : PyVal → Prop
  | .tuple _ | .list _ => False
  | .dict d => NoSeqD d
  | _ => True
def NoSeqD : List (Key × PyVal) → Prop
  | [] => True
  | (_, v) :: d => NoSeq v ∧ NoSeqD d
end

end Verif.Spec

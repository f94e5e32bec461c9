import Verif.Spec.Text

/-
The layout of .cell and .param files: settings on single lines, and blocks between lines starting with
`%block ` and `%endblock`.
-/
namespace Verif.Spec
open Verif

/-- The comment markers of cell files. -/
def cellComments : List Str := [py"#", py"!"]

/-- The line opens a block: outside comments it starts with `%block ` in any letter case. -/
def OpensBlock (line : Str) : Prop :=
  ∃ u g k v, Uncommented cellComments line u ∧ u = g ++ k ++ v ∧ Blank g ∧ Str.lower k = py"%block "

/-- The line closes a block: it starts with `%endblock` in any letter case. -/
def ClosesBlock (line : Str) : Prop :=
  ∃ g k v, line = g ++ k ++ v ∧ Blank g ∧ Str.lower k = py"%endblock"

/-- The line opens a block without naming it. -/
def BareBlock (line : Str) : Prop :=
  ∃ u g k v, Uncommented cellComments line u ∧ u = g ++ k ++ v ∧ Blank g ∧ Str.lower k = py"%block" ∧ Blank v

/-- The file as a sequence of blocks and of lines outside blocks. -/
inductive Segments : List Str → List (List Str) → Prop
  | nil : Segments [] []
  | line {l ls ss} : ¬ OpensBlock l → Segments ls ss → Segments (l :: ls) ([l] :: ss)
  | block {l blk last ls ss} : OpensBlock l → (∀ x ∈ blk, ¬ ClosesBlock x) → ClosesBlock last →
      Segments ls ss → Segments (l :: (blk ++ last :: ls)) ((l :: (blk ++ [last])) :: ss)

end Verif.Spec

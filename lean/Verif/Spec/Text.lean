import Verif.Py.Basic
/-
Vocabulary for text: blank lines, comments, words.
-/
namespace Verif.Spec
open Verif

/-- Only whitespace. -/
def Blank (s : Str) : Prop := ∀ c ∈ s, isSpace c = true

/-- `sub` occurs in `s`. -/
def Occurs (sub s : Str) : Prop := ∃ u v, s = u ++ sub ++ v

/-- `t` is `s` without trailing whitespace. -/
def RStripped (s t : Str) : Prop :=
  (∃ g, s = t ++ g ∧ Blank g) ∧ ∀ c, t.getLast? = some c → isSpace c = false

/-- A comment marker is the first thing on the line. -/
def CommentInitial (cs : List Str) (line : Str) : Prop :=
  ∃ u, ∃ c ∈ cs, ∃ v, line = u ++ c ++ v ∧ Blank u

/-- `t` is the text of `s` before the first comment marker. -/
def Uncommented (cs : List Str) (s t : Str) : Prop :=
  (t = s ∧ ∀ u, ∀ c ∈ cs, ∀ v, s ≠ u ++ c ++ v) ∨
  ((∃ c ∈ cs, ∃ v, s = t ++ c ++ v) ∧ ∀ u, ∀ c ∈ cs, ∀ v, s = u ++ c ++ v → t.length ≤ u.length)

/-- `out` are the lines neither blank nor comment-initial, in order, without trailing whitespace. -/
inductive Kept (cs : List Str) : List Str → List Str → Prop
  | nil : Kept cs [] []
  | drop {l ls out} : Blank l ∨ CommentInitial cs l → Kept cs ls out → Kept cs (l :: ls) out
  | keep {l t ls out} : ¬ Blank l → ¬ CommentInitial cs l → RStripped l t → Kept cs ls out →
      Kept cs (l :: ls) (t :: out)

/-- `out` are the texts before the first marker of each line, in order, without trailing whitespace,
where not blank. -/
inductive KeptInline (cs : List Str) : List Str → List Str → Prop
  | nil : KeptInline cs [] []
  | drop {l u ls out} : Uncommented cs l u → Blank u → KeptInline cs ls out → KeptInline cs (l :: ls) out
  | keep {l u t ls out} : Uncommented cs l u → ¬ Blank u → RStripped u t → KeptInline cs ls out →
      KeptInline cs (l :: ls) (t :: out)

/-- `s` consists of the words `ws` of characters satisfying `p`, separated by nonempty runs of other
characters, with any such characters around them. -/
inductive Words (p : Nat → Bool) : Str → List Str → Prop
  | nil {g} : (∀ c ∈ g, p c = false) → Words p g []
  | cons {g w s ws} : (∀ c ∈ g, p c = false) → w ≠ [] → (∀ c ∈ w, p c = true) →
      (∀ c, s.head? = some c → p c = false) → Words p s ws → Words p (g ++ w ++ s) (w :: ws)

end Verif.Spec

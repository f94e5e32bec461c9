import Verif.Spec.LineTables
/-
Definitions of pseudopotentials made on the fly, such as `2|1.9|2.1|1.3|3.675|5.512|7.35|30N1.9:31N2.1:32N2.1(tm,nonlcc)[]`.
-/
namespace Verif.Spec
open Verif

/-- An unsigned number without an exponent. -/
def _root_.Verif.Numeral.Unsigned (n : Numeral) : Prop := n.Valid ∧ n.InRange ∧ n.sign = none ∧ n.exp = none

instance (n : Numeral) : Decidable n.Unsigned := inferInstanceAs (Decidable (_ ∧ _ ∧ _ ∧ _))

/-- A projector: its kind, the radius, the energy with what stands before it, and the shift. -/
structure Proj where
  typ : Nat
  rc : Option Numeral
  energy : Option (Str × Numeral)
  delta : Option Numeral

namespace Proj

def energyText : Option (Str × Numeral) → Str
  | none => []
  | some (mark, n) => mark ++ n.text

def deltaText : Option Numeral → Str
  | none => []
  | some n => 64 :: n.text

def rcText : Option Numeral → Str
  | none => []
  | some n => n.text

def text (p : Proj) : Str := p.typ :: (rcText p.rc ++ (energyText p.energy ++ deltaText p.delta))

/-- What stands before a positive energy: `=`, `=+` or `+`. -/
def PLUS : List Str := [[61], [61, 43], [43]]
/-- What stands before a negative energy: `=-` or `-`. -/
def MINUS : List Str := [[61, 45], [45]]

/-- A well-formed projector with one of the given marks before its energy. -/
def Ok (marks : List Str) (p : Proj) : Prop :=
  p.typ ∈ py"UNGHLP" ∧ (∀ n, p.rc = some n → n.Unsigned) ∧ (∀ e, p.energy = some e → e.1 ∈ marks ∧ e.2.Unsigned) ∧ ∀ n, p.delta = some n → n.Unsigned

/-- What is reported. -/
def value (rd : Numeral → F64) (p : Proj) : PyVal :=
  .dict ((.str (py"type"), .str [p.typ]) :: ((p.rc.toList.map fun n => (.str (py"beta_rc"), .float (rd n))) ++
    ((p.energy.toList.map fun e => (.str (py"beta_e"), .float (rd e.2))) ++ p.delta.toList.map fun n => (.str (py"beta_delta"), .float (rd n)))))

end Proj

/-- The projectors of a shell: principal quantum number, angular momentum, projectors. -/
structure BetaFn where
  orbital : Nat
  shell : Nat
  projs : List Proj

namespace BetaFn

def text (b : BetaFn) : Str := (48 + b.orbital) :: (48 + b.shell) :: b.projs.flatMap Proj.text

def Ok (marks : List Str) (b : BetaFn) : Prop := b.orbital ≤ 9 ∧ b.shell ≤ 3 ∧ ∀ p ∈ b.projs, p.Ok marks

def shellName (i : Nat) : Str := if i = 0 then py"s" else if i = 1 then py"p" else if i = 2 then py"d" else py"f"

def value (rd : Numeral → F64) (b : BetaFn) : PyVal :=
  .dict [(.str (py"orbital"), .int b.orbital), (.str (py"shell"), .str (shellName b.shell)), (.str (py"shell_ind"), .int b.shell),
    (.str (py"projectors"), .list (b.projs.map (Proj.value rd)))]

end BetaFn

/-- The kinds of additions: adjusted occupations in braces, tests in brackets, flags in parentheses. -/
inductive AddKind where
  | adj | test | flags
  deriving DecidableEq

namespace AddKind

def opener : AddKind → Nat
  | adj => c!"{"
  | test => c!"["
  | flags => c!"("

def closer : AddKind → Nat
  | adj => c!"}"
  | test => c!"]"
  | flags => c!")"

end AddKind

/-- An addition to a definition: a list of items between brackets. -/
structure Addition where
  kind : AddKind
  items : List Str

/-- A shell with its occupation, such as `3d2`, `4s0.5` or `2p`. -/
def ShellOcc (s : Str) : Prop := ∃ d l occ num, s = d :: l :: (occ ++ num) ∧ (48 ≤ d ∧ d ≤ 57) ∧ l ∈ py"spdf" ∧ occ.length ≤ 2 ∧ Numeral.AllDigits occ ∧
  (num = [] ∨ ∃ n : Numeral, num = n.text ∧ n.Valid ∧ n.exp = none ∧ n.frac.isSome = true)

namespace Addition

def text (a : Addition) : Str := a.kind.opener :: (Str.join (py",") a.items ++ [a.kind.closer])

def Ok (a : Addition) : Prop := a.items ≠ [] ∧
  match a.kind with
  | .adj => ∀ s ∈ a.items, ShellOcc s
  | .test => a.items = [[]] ∨ ∀ s ∈ a.items, ShellOcc s
  | .flags => a.items ≠ [[]] ∧ ∀ s ∈ a.items, ∀ c ∈ s, c ∉ py",|{}[]()"

end Addition

/-- A definition. -/
structure PspotDef where
  /-- A minus before (`false`) or after (`true`) the local channel asks for a polynomial fit. -/
  poly : Option Bool
  channel : Numeral
  core : Numeral
  /-- The radii of the projectors and of the inner part. -/
  radii : Option (Numeral × Numeral)
  coarse : Numeral
  medium : Numeral
  fine : Numeral
  betas : List BetaFn
  additions : List Addition

namespace PspotDef

def mark (p : PspotDef) (side : Bool) : Str := if p.poly = some side then py"-" else []

def radiiText : Option (Numeral × Numeral) → Str
  | none => []
  | some (b, r) => b.text ++ 124 :: (r.text ++ [124])

def betaText (p : PspotDef) : Str := Str.join (py":") (p.betas.map BetaFn.text)

def text (p : PspotDef) : Str :=
  p.mark false ++ (p.channel.text ++ (p.mark true ++ 124 :: (p.core.text ++ 124 :: (radiiText p.radii ++ (p.coarse.text ++ 124 :: (p.medium.text ++ 124 :: (p.fine.text ++ 124 ::
    (p.betaText ++ p.additions.flatMap Addition.text))))))))

def Ok (p : PspotDef) : Prop :=
  (p.channel.Unsigned ∧ p.channel.frac = none) ∧ (p.core.Valid ∧ p.core.InRange) ∧
  (∀ q, p.radii = some q → (q.1.Valid ∧ q.1.InRange) ∧ q.2.Valid ∧ q.2.InRange) ∧
  (p.coarse.Valid ∧ p.coarse.InRange) ∧ (p.medium.Valid ∧ p.medium.InRange) ∧ (p.fine.Valid ∧ p.fine.InRange) ∧
  (p.betas ≠ [] ∧ ∀ b ∈ p.betas, b.Ok Proj.PLUS) ∧ (∀ a ∈ p.additions, a.Ok) ∧ (p.additions.map Addition.kind).Nodup

/-- The items of the additions of a kind. -/
def entry (p : PspotDef) (label : Str) (k : AddKind) : List (Key × PyVal) :=
  (p.additions.filter fun a => a.kind = k).map fun a => (.str label, .list (a.items.map .str))

/-- What is reported. -/
def value (rd : Numeral → F64) (p : PspotDef) : PyVal :=
  .dict ([(.str (py"print"), .bool (decide (AddKind.test ∈ p.additions.map Addition.kind))), (.str (py"poly_fit"), .bool p.poly.isSome),
      (.str (py"beta_functions"), .list (p.betas.map (BetaFn.value rd))), (.str (py"string"), .str p.text)] ++
    (p.entry (py"adjustment") .adj ++ (p.entry (py"testing") .test ++ (p.entry (py"flags") .flags ++
    ([(.str (py"local_channel"), .float (rd p.channel)), (.str (py"core_radius"), .float (rd p.core))] ++
    ((p.radii.toList.flatMap fun q => [(.str (py"beta_radius"), .float (rd q.1)), (.str (py"r_inner"), .float (rd q.2))]) ++
    [(.str (py"coarse"), .float (rd p.coarse)), (.str (py"medium"), .float (rd p.medium)), (.str (py"fine"), .float (rd p.fine)),
      (.str (py"beta_function_string"), .str p.betaText)]))))))

end PspotDef

end Verif.Spec

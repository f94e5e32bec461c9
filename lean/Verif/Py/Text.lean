import Verif.Py.Num
/-
More of Python's text functions.
-/
namespace Verif
namespace Str

/-- `s.split(c)` for a one-character separator. -/
def splitC (c : Nat) : Str → List Str
  | [] => [[]]
  | a :: s =>
    if a = c then [] :: splitC c s
    else match splitC c s with
      | [] => [[a]]
      | h :: t => (a :: h) :: t

/-- `s.split(maxsplit=1)` -/
def split1 (s : Str) : List Str :=
  let s := lstrip s
  if s.isEmpty then []
  else
    let w := s.takeWhile (!isSpace ·)
    let r := lstrip (s.dropWhile (!isSpace ·))
    if r.isEmpty then [w] else [w, r]

/-- `s.replace(old, new)` for non-empty `old`; the number counts characters of an occurrence still to be
passed over. -/
def replaceAux (old new : Str) : Nat → Str → Str
  | _, [] => []
  | k + 1, _ :: s => replaceAux old new k s
  | 0, c :: s =>
    if old.isPrefixOf (c :: s) then new ++ replaceAux old new (old.length - 1) s
    else c :: replaceAux old new 0 s

/-- `s.replace(old, new)` for non-empty `old`. -/
def replace (old new s : Str) : Str := replaceAux old new 0 s

/-- `s[:s.find(c)]`: all but the last character if `c` does not occur. -/
def uptoFind (c : Nat) (s : Str) : Str := if c ∈ s then s.takeWhile (· != c) else s.dropLast

end Str

/-- `float(s)` for text. -/
def pyFloat (s : Str) : PyM F64 :=
  let (neg, body) := takeSign (Str.strip s)
  let sgn : Nat := if neg then 2 ^ 63 else 0
  if Str.lower body ∈ [py"inf", py"infinity"] then .ok ⟨Fin.ofNat _ (2047 * 2 ^ 52 + sgn)⟩
  else if Str.lower body = py"nan" then .ok ⟨Fin.ofNat _ (2047 * 2 ^ 52 + 2 ^ 51 + sgn)⟩
  else if c!"/" ∈ body then .error .valueError
  else
    match fracBody body with
    | none => .error .valueError
    | some (n, d) =>
      if n = 0 then .ok ⟨Fin.ofNat _ sgn⟩
      else
        let b := roundBits n d
        if b < 2047 * 2 ^ 52 then .ok ⟨Fin.ofNat _ (b + sgn)⟩ else .ok ⟨Fin.ofNat _ (2047 * 2 ^ 52 + sgn)⟩

end Verif

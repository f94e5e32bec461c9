/-
The fragment of Python's built-in behaviour used throughout the model: exceptions, text,
insertion-ordered dictionaries.  Nothing here models code of the repository itself.
-/
namespace Verif

/-- Python exception classes that the modelled code can raise. -/
inductive PyErr
  | stopIteration | valueError | keyError | typeError | osError | indexError | structError
  | unicodeDecodeError | overflowError | zeroDivisionError | notImplementedError | importError
  | runtimeError | attributeError | fileNotFoundError | assertionError | nameError | reError
  deriving DecidableEq, Repr

/-- A computation that may raise. -/
abbrev PyM (α : Type _) := Except PyErr α

deriving instance DecidableEq for Except

/-- Python `str`: a sequence of code points. -/
abbrev Str := List Nat

/-- `py"abc"` is the list of code points of a string literal. -/
syntax "py" str : term
macro_rules
  | `(py $s:str) => do
    let cs := s.getString.toList.map fun c => Lean.Syntax.mkNumLit (toString c.toNat)
    `(([ $(cs.toArray),* ] : List Nat))

/-- `c!"x"` is the code point of a one-character string literal. -/
syntax "c!" str : term
macro_rules
  | `(c! $s:str) => do
    match s.getString.toList with
    | [c] => return Lean.Syntax.mkNumLit (toString c.toNat)
    | _ => Lean.Macro.throwError "expected one character"

/-! ### Character classes -/

/-- `str.isspace` of one character, which is also `\s` in a `str` pattern (CPython's
`_PyUnicode_IsWhitespace`). -/
def isSpace (c : Nat) : Bool :=
  (9 ≤ c && c ≤ 13) || (28 ≤ c && c ≤ 32) || c == 0x85 || c == 0xa0 || c == 0x1680 ||
  (0x2000 ≤ c && c ≤ 0x200a) || c == 0x2028 || c == 0x2029 || c == 0x202f || c == 0x205f ||
  c == 0x3000

/-- `\d` (ASCII model). -/
def isDigit (c : Nat) : Bool := 48 ≤ c && c ≤ 57
/-- `[a-z]`. -/
def isLower (c : Nat) : Bool := 97 ≤ c && c ≤ 122
/-- `[A-Z]`. -/
def isUpper (c : Nat) : Bool := 65 ≤ c && c ≤ 90
/-- ASCII letter. -/
def isAlpha (c : Nat) : Bool := isLower c || isUpper c
/-- ASCII letter or digit. -/
def isAlnum (c : Nat) : Bool := isAlpha c || isDigit c
/-- `\w` (ASCII model). -/
def isWord (c : Nat) : Bool := isAlnum c || c == 95

/-- `str.lower` of one character (ASCII model). -/
def lowerC (c : Nat) : Nat := if isUpper c then c + 32 else c
/-- `str.upper` of one character (ASCII model). -/
def upperC (c : Nat) : Nat := if isLower c then c - 32 else c

/-! ### `str` methods -/
namespace Str

/-- `s.lower()` -/
def lower (s : Str) : Str := s.map lowerC
/-- `s.upper()` -/
def upper (s : Str) : Str := s.map upperC

/-- `s.title()`: letters following a letter are lowered, other letters raised. -/
def titleFrom : Bool → Str → Str
  | _, [] => []
  | afterAlpha, c :: cs =>
    (if afterAlpha then lowerC c else upperC c) :: titleFrom (isAlpha c) cs
/-- `s.title()` -/
def title (s : Str) : Str := titleFrom false s

/-- `s.lstrip()` -/
def lstrip (s : Str) : Str := s.dropWhile isSpace
/-- `s.rstrip()` -/
def rstrip (s : Str) : Str := (s.reverse.dropWhile isSpace).reverse
/-- `s.strip()` -/
def strip (s : Str) : Str := rstrip (lstrip s)
/-- `s.strip(chars)` for a set of characters given as a predicate. -/
def stripP (p : Nat → Bool) (s : Str) : Str := ((s.dropWhile p).reverse.dropWhile p).reverse

/-- Maximal runs of characters not satisfying `p`; `cur` is the run being read, reversed. -/
def wordsAux (p : Nat → Bool) : Str → Str → List Str
  | cur, [] => if cur.isEmpty then [] else [cur.reverse]
  | cur, c :: cs =>
    if p c then (if cur.isEmpty then wordsAux p [] cs else cur.reverse :: wordsAux p [] cs)
    else wordsAux p (c :: cur) cs
/-- `s.split()` -/
def split (s : Str) : List Str := wordsAux isSpace [] s

/-- `sep.join(l)` -/
def join (sep : Str) : List Str → Str
  | [] => []
  | [a] => a
  | a :: b :: l => a ++ sep ++ join sep (b :: l)

/-- `s.startswith(p)` -/
def startsWith (s p : Str) : Bool := p.isPrefixOf s
/-- `s.endswith(p)` -/
def endsWith (s p : Str) : Bool := p.isSuffixOf s
/-- `sub in s` -/
def contains (sub : Str) : Str → Bool
  | [] => sub.isEmpty
  | c :: cs => startsWith (c :: cs) sub || contains sub cs
/-- `s.isdigit()` (ASCII model): non-empty and all digits. -/
def isdigit (s : Str) : Bool := !s.isEmpty && s.all isDigit

end Str

/-- Decimal digits of `n`, most significant first, with fuel. -/
def natDigitsAux : Nat → Nat → Str → Str
  | 0, _, acc => acc
  | f + 1, n, acc => if n < 10 then (48 + n) :: acc else natDigitsAux f (n / 10) ((48 + n % 10) :: acc)
/-- `str(n)` for `n ≥ 0`. -/
def natStr (n : Nat) : Str := natDigitsAux (n + 1) n []
/-- `str(i)` -/
def intStr : Int → Str
  | .ofNat n => natStr n
  | .negSucc n => c!"-" :: natStr (n + 1)

/-- Value of a string of decimal digits. -/
def digitsVal (s : Str) : Nat := s.foldl (fun a c => a * 10 + (c - 48)) 0

/-! ### Dictionaries -/

/-- Python `dict`: keys in insertion order. -/
abbrev Dict (κ : Type _) (α : Type _) := List (κ × α)

namespace Dict
variable {κ : Type _} {α : Type _} [DecidableEq κ]

/-- `d.get(k)` -/
def get? : Dict κ α → κ → Option α
  | [], _ => none
  | (k', v) :: d, k => if k' = k then some v else get? d k

/-- `d[k] = v`: an existing key keeps its place. -/
def set : Dict κ α → κ → α → Dict κ α
  | [], k, v => [(k, v)]
  | (k', v') :: d, k, v => if k' = k then (k', v) :: d else (k', v') :: set d k v

/-- `del d[k]` (no effect if absent). -/
def erase : Dict κ α → κ → Dict κ α
  | [], _ => []
  | (k', v') :: d, k => if k' = k then d else (k', v') :: erase d k

/-- `k in d` -/
def mem (d : Dict κ α) (k : κ) : Bool := (d.get? k).isSome
/-- `d.keys()` -/
def keys (d : Dict κ α) : List κ := d.map Prod.fst
/-- `d[k]` -/
def getItem (d : Dict κ α) (k : κ) : PyM α :=
  match d.get? k with
  | some v => .ok v
  | none => .error .keyError
/-- `dict(items)` -/
def ofList (l : List (κ × α)) : Dict κ α := l.foldl (fun d kv => d.set kv.1 kv.2) []

end Dict
end Verif

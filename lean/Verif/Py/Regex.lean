import Verif.Py.Value
/-
Python's `re` module: syntax trees, backtracking semantics as an ordered list of successes, the
functions `match`, `search`, `findall`, `split`, `sub`.

The first element of the list is the match CPython's engine reports; the later ones are the
alternatives it would try on backtracking.  `\d`, `\w` and case folding are ASCII models; `\s` is
exact.  A repeated body is required to consume input (`Re.progressive` states this statically; it is
checked for the patterns of the repository).
-/
namespace Verif

/-- Items of a character class. -/
inductive CItem
  | ch (c : Nat) | range (a b : Nat)
  | digit | notDigit | space | notSpace | word | notWord
  deriving DecidableEq, Repr

/-- Does an item contain a character? -/
def CItem.has : CItem → Nat → Bool
  | .ch a, c => c == a
  | .range a b, c => a ≤ c && c ≤ b
  | .digit, c => isDigit c
  | .notDigit, c => !isDigit c
  | .space, c => isSpace c
  | .notSpace, c => !isSpace c
  | .word, c => isWord c
  | .notWord, c => !isWord c

/-- A set of characters: items, negation (`[^...]`), ignoring case or not. -/
structure CSet where
  neg : Bool
  items : List CItem
  ci : Bool
  deriving DecidableEq, Repr

/-- Does a set contain a character? -/
def CSet.has (s : CSet) (c : Nat) : Bool :=
  s.neg != (s.items.any (·.has c) ||
    (s.ci && (s.items.any (·.has (lowerC c)) || s.items.any (·.has (upperC c)))))

/-- Regular expressions. -/
inductive Re
  | eps
  | set (s : CSet)
  | seq (a b : Re)
  | alt (a b : Re)
  /-- `r{min,max}`; `max = none` is unbounded -/
  | rep (greedy : Bool) (min : Nat) (max : Option Nat) (r : Re)
  | group (n : Nat) (r : Re)
  | ahead (neg : Bool) (r : Re)
  /-- look-behind of one character -/
  | behind (neg : Bool) (s : CSet)
  | bol
  | eol
  | wordB (neg : Bool)
  | backref (ci : Bool) (n : Nat)
  /-- `(?(n)a|b)` -/
  | cond (n : Nat) (a b : Re)
  deriving DecidableEq, Repr

namespace Re

/-- Matcher state: text before the cursor (reversed), text after it, captured groups (latest
first). -/
structure St where
  pre : Str
  post : Str
  caps : List (Nat × Str)
  deriving DecidableEq, Repr

namespace St
/-- Text of group `n`. -/
def cap (s : St) (n : Nat) : Option Str := (s.caps.find? (·.1 = n)).map (·.2)
/-- The text consumed between `s` and a later state `t`. -/
def upTo (s t : St) : Str := s.post.take (s.post.length - t.post.length)
/-- Move over `k` characters. -/
def adv (s : St) (k : Nat) : St :=
  { s with pre := (s.post.take k).reverse ++ s.pre, post := s.post.drop k }
end St

/-- Successes of `r{min,max}`, given those of `r`.  `fuel` bounds the number of iterations. -/
def repM (step : St → List St) (greedy : Bool) : Nat → Nat → Option Nat → St → List St
  | 0, min, _, s => if min = 0 then [s] else []
  | fuel + 1, min, max, s =>
    let more : List St :=
      if max = some 0 then []
      else (step s).flatMap fun t =>
        if t.post.length < s.post.length then
          repM step greedy fuel (min - 1) (max.map (· - 1)) t
        else []
    let stop : List St := if min = 0 then [s] else []
    if greedy then more ++ stop else stop ++ more

/-- `^` (no MULTILINE). -/
def atBol (s : St) : Bool := s.pre.isEmpty
/-- `$`: at the end, or before a newline that ends the text. -/
def atEol (s : St) : Bool := s.post.isEmpty || s.post == [10]
/-- Is the character before / after the cursor a word character? -/
def wordBefore (s : St) : Bool := match s.pre with | [] => false | c :: _ => isWord c
def wordAfter (s : St) : Bool := match s.post with | [] => false | c :: _ => isWord c

/-- Equality of texts, ignoring case or not. -/
def sameText (ci : Bool) (a b : Str) : Bool := if ci then Str.lower a == Str.lower b else a == b

/-- All ways to match, in the order the engine tries them. -/
def m : Re → St → List St
  | .eps, s => [s]
  | .set cs, s =>
    match s.post with
    | [] => []
    | c :: rest => if cs.has c then [{ s with pre := c :: s.pre, post := rest }] else []
  | .seq a b, s => (m a s).flatMap (m b)
  | .alt a b, s => m a s ++ m b s
  | .rep g min max r, s => repM (m r) g (min + s.post.length) min max s
  | .group n r, s => (m r s).map fun t => { t with caps := (n, s.upTo t) :: t.caps }
  | .ahead neg r, s => if (m r s).isEmpty == neg then [s] else []
  | .behind neg cs, s =>
    let ok := match s.pre with | [] => false | c :: _ => cs.has c
    if ok != neg then [s] else []
  | .bol, s => if atBol s then [s] else []
  | .eol, s => if atEol s then [s] else []
  | .wordB neg, s => if (wordBefore s != wordAfter s) != neg then [s] else []
  | .backref ci n, s =>
    match s.cap n with
    | none => []
    | some t => if sameText ci (s.post.take t.length) t && t.length ≤ s.post.length then [s.adv t.length] else []
  | .cond n a b, s => if (s.cap n).isSome then m a s else m b s

/-- Can the expression match the empty text?  (upper bound) -/
def nullable : Re → Bool
  | .eps => true
  | .set _ => false
  | .seq a b => nullable a && nullable b
  | .alt a b => nullable a || nullable b
  | .rep _ min _ r => min == 0 || nullable r
  | .group _ r => nullable r
  | .ahead _ _ | .behind _ _ | .bol | .eol | .wordB _ | .backref _ _ => true
  | .cond _ a b => nullable a || nullable b

/-- Every repeated body consumes input. -/
def progressive : Re → Bool
  | .seq a b | .alt a b | .cond _ a b => progressive a && progressive b
  | .rep _ _ _ r => !nullable r && progressive r
  | .group _ r | .ahead _ r => progressive r
  | _ => true

end Re

/-- A compiled pattern: tree, group names, number of groups. -/
structure Pat where
  re : Re
  names : List (Str × Nat)
  ngroups : Nat
  deriving DecidableEq, Repr

/-! ### Pattern syntax -/
namespace ReParse

structure Flags where
  ci : Bool := false
  verbose : Bool := false

/-- Parser state besides the remaining text: names and number of groups opened so far. -/
structure PSt where
  names : List (Str × Nat)
  n : Nat

/-- A one-character set. -/
def lit (fl : Flags) (c : Nat) : Re := .set ⟨false, [.ch c], fl.ci⟩

/-- Escapes that denote a class. -/
def classEsc (c : Nat) : Option CItem :=
  if c = c!"d" then some .digit else if c = c!"D" then some .notDigit
  else if c = c!"s" then some .space else if c = c!"S" then some .notSpace
  else if c = c!"w" then some .word else if c = c!"W" then some .notWord
  else none

/-- Escapes that denote one character; letters without meaning are an error. -/
def charEsc (c : Nat) : Option Nat :=
  if c = c!"t" then some 9 else if c = c!"n" then some 10 else if c = c!"r" then some 13
  else if c = c!"f" then some 12 else if c = c!"v" then some 11
  else if isAlnum c then none else some c

/-- One element of a class body. -/
def classAtom : Str → Option (CItem × Str)
  | 92 :: c :: rest =>
    match classEsc c with
    | some i => some (i, rest)
    | none => (charEsc c).map fun d => (.ch d, rest)
  | 92 :: [] => none
  | c :: rest => some (.ch c, rest)
  | [] => none

/-- Body of a class up to `]` (`first`: a `]` here is literal). -/
def classBody : Nat → Bool → List CItem → Str → Option (List CItem × Str)
  | 0, _, _, _ => none
  | fuel + 1, first, acc, s =>
    match s with
    | [] => none
    | c :: rest =>
      if c = 93 && !first then some (acc.reverse, rest)
      else
        match classAtom s with
        | none => none
        | some (.ch a, 45 :: b :: rest') =>
          if b = 93 then classBody fuel false (.ch 45 :: .ch a :: acc) (b :: rest')
          else
            match classAtom (b :: rest') with
            | some (.ch b, rest'') => classBody fuel false (.range a b :: acc) rest''
            | _ => none
        | some (i, rest') => classBody fuel false (i :: acc) rest'

/-- A decimal number, if there is one. -/
def number : Str → Option (Nat × Str)
  | s =>
    let ds := s.takeWhile isDigit
    if ds.isEmpty then none else some (digitsVal ds, s.dropWhile isDigit)

/-- `{m}`, `{m,}`, `{,n}`, `{m,n}` after the opening brace. -/
def braces (s : Str) : Option (Nat × Option Nat × Str) :=
  let (lo, s1) := match number s with | some (n, r) => (some n, r) | none => (none, s)
  match s1 with
  | 125 :: r => lo.map fun n => (n, some n, r)
  | 44 :: r =>
    let (hi, s2) := match number r with | some (n, r) => (some n, r) | none => (none, r)
    match s2 with
    | 125 :: r =>
      if lo.isNone && hi.isNone then none else some (lo.getD 0, hi, r)
    | _ => none
  | _ => none

/-- Quantifier at the head of the text. -/
def quant (s : Str) : Option (Bool × Nat × Option Nat × Str) :=
  let base : Option (Nat × Option Nat × Str) :=
    match s with
    | 42 :: r => some (0, none, r)
    | 43 :: r => some (1, none, r)
    | 63 :: r => some (0, some 1, r)
    | 123 :: r => braces r
    | _ => none
  base.map fun (lo, hi, r) =>
    match r with
    | 63 :: r => (false, lo, hi, r)
    | _ => (true, lo, hi, r)

/-- Concatenation of parsed items (reversed). -/
def seqOf : List Re → Re
  | [] => .eps
  | r :: rs => rs.foldl (fun acc x => .seq x acc) r

/-- Rest of a comment `# ...` in verbose mode. -/
def dropComment (s : Str) : Str := (s.dropWhile (· != 10)).drop 1

/-- Alternatives up to `)` or the end; `items` are the items of the current branch, reversed. -/
def alts (fl : Flags) : Nat → PSt → List Re → Str → Option (Re × PSt × Str)
  | 0, _, _, _ => none
  | fuel + 1, st, items, s =>
    match s with
    | [] => some (seqOf items, st, [])
    | c :: rest =>
      if fl.verbose && isSpace c then alts fl fuel st items rest
      else if fl.verbose && c = 35 then alts fl fuel st items (dropComment rest)
      else if c = 41 then some (seqOf items, st, s)
      else if c = 124 then
        match alts fl fuel st [] rest with
        | none => none
        | some (r, st, s) => some (.alt (seqOf items) r, st, s)
      else
        match quant s with
        | some (g, lo, hi, r) =>
          match items with
          | [] => none
          | x :: items => alts fl fuel st (.rep g lo hi x :: items) r
        | none =>
          if c = 46 then alts fl fuel st (.set ⟨true, [.ch 10], false⟩ :: items) rest
          else if c = 94 then alts fl fuel st (.bol :: items) rest
          else if c = 36 then alts fl fuel st (.eol :: items) rest
          else if c = 91 then
            let (neg, body) := match rest with | 94 :: b => (true, b) | b => (false, b)
            match classBody fuel true [] body with
            | none => none
            | some (l, r) => alts fl fuel st (.set ⟨neg, l, fl.ci⟩ :: items) r
          else if c = 92 then
            match rest with
            | [] => none
            | d :: r =>
              if d = c!"b" then alts fl fuel st (.wordB false :: items) r
              else if d = c!"B" then alts fl fuel st (.wordB true :: items) r
              else if isDigit d then alts fl fuel st (.backref fl.ci (d - 48) :: items) r
              else
                match classEsc d with
                | some i => alts fl fuel st (.set ⟨false, [i], fl.ci⟩ :: items) r
                | none =>
                  match charEsc d with
                  | some e => alts fl fuel st (lit fl e :: items) r
                  | none => none
          else if c = 40 then
            match rest with
            | 63 :: 58 :: r => -- (?:
              match alts fl fuel st [] r with
              | some (x, st, 41 :: r) => alts fl fuel st (x :: items) r
              | _ => none
            | 63 :: 61 :: r => -- (?=
              match alts fl fuel st [] r with
              | some (x, st, 41 :: r) => alts fl fuel st (.ahead false x :: items) r
              | _ => none
            | 63 :: 33 :: r => -- (?!
              match alts fl fuel st [] r with
              | some (x, st, 41 :: r) => alts fl fuel st (.ahead true x :: items) r
              | _ => none
            | 63 :: 60 :: 33 :: r => -- (?<!
              match alts fl fuel st [] r with
              | some (.set cs, st, 41 :: r) => alts fl fuel st (.behind true cs :: items) r
              | _ => none
            | 63 :: 60 :: 61 :: r => -- (?<=
              match alts fl fuel st [] r with
              | some (.set cs, st, 41 :: r) => alts fl fuel st (.behind false cs :: items) r
              | _ => none
            | 63 :: 35 :: r => -- (?#
              alts fl fuel st items ((r.dropWhile (· != 41)).drop 1)
            | 63 :: 80 :: 60 :: r => -- (?P<name>
              let name := r.takeWhile (· != 62)
              let k := st.n + 1
              match alts fl fuel ⟨st.names ++ [(name, k)], k⟩ [] ((r.dropWhile (· != 62)).drop 1) with
              | some (x, st, 41 :: r) => alts fl fuel st (.group k x :: items) r
              | _ => none
            | 63 :: 40 :: r => -- (?(name)yes|no)
              let name := r.takeWhile (· != 41)
              match st.names.find? (·.1 = name) with
              | none => none
              | some (_, k) =>
                match alts fl fuel st [] ((r.dropWhile (· != 41)).drop 1) with
                | some (.alt a b, st, 41 :: r) => alts fl fuel st (.cond k a b :: items) r
                | some (a, st, 41 :: r) => alts fl fuel st (.cond k a .eps :: items) r
                | _ => none
            | 63 :: _ => none
            | r =>
              let k := st.n + 1
              match alts fl fuel ⟨st.names, k⟩ [] r with
              | some (x, st, 41 :: r) => alts fl fuel st (.group k x :: items) r
              | _ => none
          else alts fl fuel st (lit fl c :: items) rest

/-- `re.compile` -/
def compile (src : Str) (fl : Flags := {}) : Option Pat :=
  match alts fl (src.length + 1) ⟨[], 0⟩ [] src with
  | some (r, st, []) => some ⟨r, st.names, st.n⟩
  | _ => none

end ReParse

/-- `re.compile(src, flags)`; a malformed pattern gives one that never matches (it does not occur:
every pattern of the model is checked to compile). -/
def rx (src : Str) (ci verbose : Bool := false) : Pat :=
  (ReParse.compile src ⟨ci, verbose⟩).getD ⟨.set ⟨false, [], false⟩, [], 0⟩

/-! ### Matching functions -/

/-- A match object. -/
structure Match where
  /-- text before the match -/
  before : Str
  /-- group 0 -/
  whole : Str
  /-- text after the match -/
  after : Str
  caps : List (Nat × Str)
  names : List (Str × Nat)
  ngroups : Nat
  deriving DecidableEq, Repr

namespace Match
/-- `m.group(n)` for `n ≥ 1` -/
def group (x : Match) (n : Nat) : Option Str := (x.caps.find? (·.1 = n)).map (·.2)
/-- `m.group(name)` / `m[name]` for an existing name. -/
def named (x : Match) (name : Str) : Option Str :=
  match x.names.find? (·.1 = name) with
  | some (_, n) => x.group n
  | none => none
/-- `m.groupdict()` -/
def groupdict (x : Match) : Dict Str (Option Str) := x.names.map fun (name, n) => (name, x.group n)
/-- `m.groups()` -/
def groups (x : Match) : List (Option Str) := (List.range x.ngroups).map fun i => x.group (i + 1)
end Match

namespace Pat

/-- Match at the cursor of a text split as `pre` (reversed) and `post`. -/
def matchAt (p : Pat) (pre post : Str) : Option Match :=
  let s : Re.St := ⟨pre, post, []⟩
  ((p.re.m s).head?).map fun t => ⟨pre.reverse, s.upTo t, t.post, t.caps, p.names, p.ngroups⟩

/-- `p.match(text)` -/
def match_ (p : Pat) (text : Str) : Option Match := p.matchAt [] text

/-- `p.search` from a cursor. -/
def searchFrom (p : Pat) : Str → Str → Option Match
  | pre, [] => p.matchAt pre []
  | pre, c :: post =>
    match p.matchAt pre (c :: post) with
    | some x => some x
    | none => searchFrom p (c :: pre) post

/-- `p.search(text)` -/
def search (p : Pat) (text : Str) : Option Match := p.searchFrom [] text

/-- `list(p.finditer(text))` from a cursor, with fuel.  After an empty match the cursor moves on by
one character. -/
def findFrom (p : Pat) : Nat → Str → Str → List Match
  | 0, _, _ => []
  | fuel + 1, pre, post =>
    match p.searchFrom pre post with
    | none => []
    | some x =>
      if x.whole.isEmpty then
        match x.after with
        | [] => [x]
        | c :: r => x :: findFrom p fuel (c :: x.before.reverse) r
      else x :: findFrom p fuel (x.whole.reverse ++ x.before.reverse) x.after

/-- `list(p.finditer(text))` -/
def finditer (p : Pat) (text : Str) : List Match := p.findFrom (text.length + 1) [] text

/-- `p.findall(text)` for a pattern without groups. -/
def findall (p : Pat) (text : Str) : List Str := (p.finditer text).map (·.whole)

/-- Pieces between the matches. -/
def splitAux (text : Str) : Nat → List Match → List Str
  | from_, [] => [text.drop from_]
  | from_, x :: xs =>
    ((text.take x.before.length).drop from_) :: splitAux text (x.before.length + x.whole.length) xs

/-- `p.split(text)` for a pattern without groups. -/
def split (p : Pat) (text : Str) : List Str := splitAux text 0 (p.finditer text)

/-- `p.sub(repl, text)` for a replacement without group references. -/
def sub (p : Pat) (repl text : Str) : Str := Str.join repl (p.split text)

end Pat
end Verif

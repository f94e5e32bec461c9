import Verif.Lemmas.Efield
import Verif.Props.Header
/-
C62: `.efield` files.
-/
namespace Verif.Props
open Verif Verif.Spec

/-- What an `.efield` file gives, whatever its parts: the header, and of each table all rows but the last one.  In the
table of oscillator strengths the number of the mode stands under `freq`, the frequency under `xx`, and so on; the last
component is missing. -/
theorem C62_exact (parts : List EfieldPart) (ls : List (List Str)) (h : List.Forall₂ EfieldPart.Lines parts ls)
    (hok : ∀ p ∈ parts, p.Ok) :
    ∃ rd : Numeral → F64, (∀ n : Numeral, n.Valid → n.InRange → F64.Nearest n.value (rd n)) ∧
      parse_efield_file ls.flatten = .ok (.dict (parts.foldl (EfieldPart.put rd List.dropLast (List.take 7)) [])) := by
  obtain ⟨rd, _, hrd⟩ := readings
  refine ⟨rd, fun n h1 h2 => (hrd n h1 h2).1.2, ?_⟩
  have hn : ∀ p ∈ parts, ∀ n ∈ p.nums, n.Valid ∧ n.InRange := by
    intro p hp n hn
    have := hok p hp
    cases p with
    | header items =>
      obtain ⟨i, hi, hn⟩ := List.mem_flatMap.1 hn
      exact this.1 i hi n hn
    | osc rows =>
      obtain ⟨r, hr, hn⟩ := List.mem_flatten.1 hn
      exact (this r hr).1.2 n hn
    | perm rows =>
      obtain ⟨r, hr, hn⟩ := List.mem_flatten.1 hn
      exact (this r hr).2 n hn
    | other => cases hn
  rw [parse_efield_file, Efield.loop_parts rd parts ls h hok (fun p hp n h' => (hrd n (hn p hp n h').1 (hn p hp n h').2).1.1)
    [] _ (by omega) (.inl rfl) (.inl rfl)]
  rfl

/-- C62 for files without tables, or with empty ones: the header is returned. -/
theorem C62_partial (parts : List EfieldPart) (ls : List (List Str)) (h : List.Forall₂ EfieldPart.Lines parts ls)
    (hok : ∀ p ∈ parts, p.Ok) (hr : ∀ p ∈ parts, ∀ rows, p = .osc rows ∨ p = .perm rows → rows = []) :
    ∃ rd : Numeral → F64, (∀ n : Numeral, n.Valid → n.InRange → F64.Nearest n.value (rd n)) ∧
      parse_efield_file ls.flatten = .ok (.dict (parts.foldl (EfieldPart.put rd id (List.drop 1)) [])) := by
  obtain ⟨rd, hrd, e⟩ := C62_exact parts ls h hok
  refine ⟨rd, hrd, ?_⟩
  rw [e]
  have : ∀ (l : List EfieldPart) (d : Dict Key PyVal), (∀ p ∈ l, p ∈ parts) →
      l.foldl (EfieldPart.put rd List.dropLast (List.take 7)) d = l.foldl (EfieldPart.put rd id (List.drop 1)) d := by
    intro l
    induction l with
    | nil => intro d _; rfl
    | cons p l ih =>
      intro d hl
      rw [List.foldl_cons, List.foldl_cons, ih _ fun q hq => hl q (by simp [hq])]
      congr 1
      cases p with
      | osc rows => rw [hr _ (hl _ (by simp)) rows (.inl rfl)]; rfl
      | perm rows => rw [hr _ (hl _ (by simp)) rows (.inr rfl)]; rfl
      | _ => rfl
  rw [this _ _ fun _ h => h]

/-- C62 is false: of a permittivity table at least the last row is missing, whatever the rows. -/
theorem C62_permittivity_false (rows : List (List Numeral)) (ls : List Str) (h : EfieldPart.Lines (.perm rows) ls)
    (hok : ∀ r ∈ rows, RowOk 7 r) (hne : rows ≠ []) :
    ∀ rd : Numeral → F64, parse_efield_file ls ≠ .ok (.dict (EfieldPart.put rd id (List.drop 1) [] (.perm rows))) := by
  intro rd he
  obtain ⟨rd', -, e⟩ := C62_exact [.perm rows] [ls] (.cons h .nil) (by
    intro p hp; simp only [List.mem_singleton] at hp; subst hp; exact hok)
  rw [List.flatten_cons, List.flatten_nil, List.append_nil, he] at e
  simp only [List.foldl_cons, List.foldl_nil, EfieldPart.put, addTable, id] at e
  have hc : EfieldPart.cols ≠ [] := by decide
  rw [if_neg (fun h => hne ((columnTable_nil_iff hc).1 h))] at e
  by_cases hd : rows.dropLast = []
  · rw [if_pos ((columnTable_nil_iff hc).2 hd)] at e
    cases e
  · rw [if_neg (fun h => hd ((columnTable_nil_iff hc).1 h))] at e
    simp only [Dict.get?, Dict.set, Except.ok.injEq, PyVal.dict.injEq, List.cons.injEq, Prod.mk.injEq, PyVal.list.injEq, and_true,
      true_and, columnTable, if_neg hne, if_neg hd] at e
    have h0 := congrArg List.head? e
    simp only [EfieldPart.cols, List.zipIdx_cons, List.map_cons, List.head?_cons, Option.some.injEq, Prod.mk.injEq, true_and,
      PyVal.tuple.injEq] at h0
    have hl := congrArg List.length h0
    have key : ∀ (rd : Numeral → F64) (l : List (List Numeral)), (∀ r ∈ l, RowOk 7 r) →
        (l.filterMap fun r => (r[0]?).map fun n => PyVal.float (rd n)).length = l.length := by
      intro rd l
      induction l with
      | nil => intro _; rfl
      | cons r l ih =>
        intro hl
        have h7 := (hl r (by simp)).1
        cases r with
        | nil => cases h7
        | cons n r =>
          rw [List.filterMap_cons_some (b := PyVal.float (rd n)) (by rfl), List.length_cons, List.length_cons,
            ih fun x hx => hl x (by simp [hx])]
    rw [key _ _ hok, key _ _ fun r hr => hok r (List.mem_of_mem_dropLast hr), List.length_dropLast] at hl
    have : 0 < rows.length := List.length_pos_iff.2 hne
    omega

/-! ### A file -/

/-- `n.0` -/
def ex0 (n : Nat) : Numeral := exDec (natStr n) (py"0")

/-- Oscillator strengths of two modes, and the permittivity at two frequencies. -/
def exOsc : List (List Numeral) :=
  [[exInt (py"1"), ex0 100, ex0 1, ex0 2, ex0 3, ex0 4, ex0 5, ex0 6], [exInt (py"2"), ex0 200, ex0 1, ex0 2, ex0 3, ex0 4, ex0 5, ex0 6]]
def exPerm : List (List Numeral) :=
  [[ex0 0, ex0 8, ex0 8, ex0 4, ex0 0, ex0 0, ex0 0], [ex0 1, ex0 8, ex0 8, ex0 4, ex0 0, ex0 0, ex0 0]]
def exEfHead : List HeadItem := [.note false [], .count [py"ions"] (exInt (py"2")), .note false []]

def exEfield : List EfieldPart := [.header exEfHead, .osc exOsc, .other, .perm exPerm]

def exPermLines : List Str :=
  [py" BEGIN permittivity   Freq (cm-1)\n", py"  0.0  8.0 8.0 4.0  0.0 0.0 0.0\n", py"  1.0  8.0 8.0 4.0  0.0 0.0 0.0\n",
   py" END permittivity\n"]

def exEfieldLines : List (List Str) :=
  [[py" BEGIN header\n", py"  Number of ions   2\n", py" END header\n"],
   [py" BEGIN Oscillator Strengths   Freq (cm-1)\n", py"  1  100.0  1.0 2.0 3.0  4.0 5.0 6.0\n",
    py"  2  200.0  1.0 2.0 3.0  4.0 5.0 6.0\n", py" END Oscillator Strengths\n"],
   [py"\n"], exPermLines]

theorem starts_none {bs : List Str} {l : Str} {ls : List Str} (h : bs.all (fun b => !Str.contains b l) = true) :
    StartsNone bs (l :: ls) := by
  intro b hb x hx
  cases hx
  have := List.all_eq_true.1 h b hb
  exact not_occurs _ _ (by simpa using this)

theorem enclosed_of {b e first last : Str} {inner : List Str} (h1 : Str.contains b first = true)
    (h2 : inner.all (fun l => !Str.contains e l) = true) (h3 : Str.contains e last = true) :
    Enclosed b e (first :: (inner ++ [last])) inner :=
  ⟨first, last, rfl, (Str.contains_iff _ _).1 h1, fun l hl => not_occurs _ _ (by simpa using List.all_eq_true.1 h2 l hl),
    (Str.contains_iff _ _).1 h3⟩

theorem exPerm_lines : EfieldPart.Lines (.perm exPerm) exPermLines :=
  ⟨starts_none (by decide +kernel), _, enclosed_of (inner := [py"  0.0  8.0 8.0 4.0  0.0 0.0 0.0\n", py"  1.0  8.0 8.0 4.0  0.0 0.0 0.0\n"])
    (by decide +kernel) (by decide +kernel) (by decide +kernel),
    .cons ⟨⟨_, _, rfl, by decide⟩, [], (fields_iff _ _).2 (by decide +kernel)⟩
    (.cons ⟨⟨_, _, rfl, by decide⟩, [], (fields_iff _ _).2 (by decide +kernel)⟩ .nil)⟩

theorem note_lines {opt s : Str} (h1 : Str.startsWith (Str.strip s) (py"Number of") = false)
    (h2 : Str.contains (py"Unit cell vectors") s = false) (h3 : ((Str.split s).filter hasDigit).length < 3)
    (h4 : Str.contains opt s = false) (h5 : NoDigit s) : HeadItem.Lines opt (.note false []) [s] :=
  ⟨s, rfl, not_count _ h1, not_occurs _ _ h2, plain_of_split _ h3,
    ⟨fun h => (by cases h), fun h => absurd h (not_occurs _ _ h4)⟩, .inl ⟨rfl, h5⟩, by simp⟩

theorem exEfield_lines : List.Forall₂ EfieldPart.Lines exEfield exEfieldLines := by
  refine .cons ⟨⟨_, enclosed_of (inner := [py"  Number of ions   2\n"]) (by decide +kernel) (by decide +kernel) (by decide +kernel)⟩,
    [[py" BEGIN header\n"], [py"  Number of ions   2\n"], [py" END header\n"]], ?_, rfl⟩ (.cons ?_ (.cons ?_ (.cons exPerm_lines .nil)))
  · exact .cons (note_lines (by decide +kernel) (by decide +kernel) (by decide +kernel) (by decide +kernel) (by decide +kernel))
      (.cons ⟨_, rfl, (isCount_iff _).1 (by decide +kernel), plain_of_split _ (by decide +kernel),
        (fields_iff _ _).2 (by decide +kernel), by decide +kernel, by decide +kernel, by decide +kernel⟩
      (.cons (note_lines (by decide +kernel) (by decide +kernel) (by decide +kernel) (by decide +kernel) (by decide +kernel)) .nil))
  · exact ⟨starts_none (by decide +kernel), _, enclosed_of (inner := [py"  1  100.0  1.0 2.0 3.0  4.0 5.0 6.0\n",
      py"  2  200.0  1.0 2.0 3.0  4.0 5.0 6.0\n"]) (by decide +kernel) (by decide +kernel) (by decide +kernel),
      .cons ⟨[], (fields_iff _ _).2 (by decide +kernel)⟩ (.cons ⟨[], (fields_iff _ _).2 (by decide +kernel)⟩ .nil)⟩
  · exact ⟨starts_none (by decide +kernel), rfl⟩

theorem exEfield_ok : ∀ p ∈ exEfield, p.Ok := by
  intro p hp
  simp only [exEfield, List.mem_cons, List.not_mem_nil, or_false] at hp
  rcases hp with rfl | rfl | rfl | rfl
  · refine ⟨by decide +kernel, ?_⟩
    intro i hi key n e
    subst e
    simp only [exEfHead, List.mem_cons, HeadItem.count.injEq, reduceCtorEq, false_or, List.not_mem_nil, or_false] at hi
    rw [hi.1]
    decide +kernel
  · show ∀ r ∈ exOsc, RowOk 8 r ∧ ∀ n ∈ r.head?, n.IsInt
    decide +kernel
  · trivial
  · show ∀ r ∈ exPerm, RowOk 7 r
    decide +kernel

example := C62_exact exEfield exEfieldLines exEfield_lines exEfield_ok

example := C62_partial (exEfield.take 1) (exEfieldLines.take 1) (.cons (List.forall₂_cons.1 exEfield_lines).1 .nil)
  (fun p hp => exEfield_ok p (List.mem_of_mem_take hp))
  (by intro p hp rows h; rw [show exEfield.take 1 = [.header exEfHead] from rfl, List.mem_singleton] at hp; subst hp
      rcases h with h | h <;> cases h)

example : ∀ rd : Numeral → F64, parse_efield_file exPermLines ≠ .ok (.dict (EfieldPart.put rd id (List.drop 1) [] (.perm exPerm))) :=
  C62_permittivity_false exPerm exPermLines exPerm_lines (by decide +kernel) (by decide)

/-- C62 is false: the oscillator strengths of this file are one mode at 100.0 with S_xx = 1.0 and another one; under
`freq` stands the number of the mode, under `xx` its frequency. -/
theorem C62_oscillator_false :
    EfieldPart.Lines (.osc exOsc) (exEfieldLines.flatten.drop 3 |>.take 4) ∧
    ∃ rd : Numeral → F64, (∀ n : Numeral, n.Valid → n.InRange → F64.Nearest n.value (rd n)) ∧
      parse_efield_file (exEfieldLines.flatten.drop 3 |>.take 4) =
        .ok (.dict [(.str (py"oscillator_strengths"), .list [.dict ((.str (py"freq"), .tuple [.float (rd (exInt (py"1")))]) ::
          (.str (py"xx"), .tuple [.float (rd (ex0 100))]) ::
          [(.str (py"yy"), .tuple [.float (rd (ex0 1))]), (.str (py"zz"), .tuple [.float (rd (ex0 2))]),
           (.str (py"yz"), .tuple [.float (rd (ex0 3))]), (.str (py"xz"), .tuple [.float (rd (ex0 4))]),
           (.str (py"xy"), .tuple [.float (rd (ex0 5))])])])]) := by
  have hl : EfieldPart.Lines (.osc exOsc) (exEfieldLines.flatten.drop 3 |>.take 4) :=
    (List.forall₂_cons.1 (List.forall₂_cons.1 exEfield_lines).2).1
  obtain ⟨rd, h1, h2⟩ := C62_exact [.osc exOsc] [exEfieldLines.flatten.drop 3 |>.take 4] (.cons hl .nil) (by
    intro p hp; simp only [List.mem_singleton] at hp; subst hp
    exact exEfield_ok _ (by simp [exEfield]))
  refine ⟨hl, rd, h1, ?_⟩
  rw [List.flatten_cons, List.flatten_nil, List.append_nil] at h2
  exact h2

end Verif.Props

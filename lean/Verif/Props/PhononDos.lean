import Verif.Lemmas.PhononDos
import Verif.Props.Efield
/-
C63: `.phonon_dos` files.
-/
namespace Verif.Props
open Verif Verif.Spec

theorem dos_nums {parts : List DosPart} (hok : ∀ p ∈ parts, p.Ok) : ∀ p ∈ parts, ∀ n ∈ p.nums, n.Valid ∧ n.InRange := by
  intro p hp n hn
  have := hok p hp
  cases p with
  | header items =>
    obtain ⟨i, hi, hn⟩ := List.mem_flatMap.1 hn
    exact this.1 i hi n hn
  | grad gs =>
    obtain ⟨g, hg, hn⟩ := List.mem_flatMap.1 hn
    obtain ⟨-, -, -, h1, h2⟩ := this g hg
    rcases List.mem_append.1 hn with hn | hn
    · exact h1 n hn
    · obtain ⟨r, hr, hn⟩ := List.mem_flatten.1 hn
      exact (h2 r hr).1.2 n hn
  | dos species rows =>
    obtain ⟨r, hr, hn⟩ := List.mem_flatten.1 hn
    exact (this.2.2 r hr).2 n hn
  | other => cases hn

/-- What a `.phonon_dos` file gives, whatever its parts: the header; for each q-point its position, weight and one value
per branch and column; of a density of states every row but the last one. -/
theorem C63_exact (parts : List DosPart) (ls : List (List Str)) (h : List.Forall₂ DosPart.Lines parts ls)
    (hok : ∀ p ∈ parts, p.Ok) :
    ∃ rd : Numeral → F64, (∀ n : Numeral, n.Valid → n.InRange → F64.Nearest n.value (rd n)) ∧
      parse_phonon_dos_file ls.flatten = .ok (.dict (parts.foldl (DosPart.put rd List.dropLast) [])) := by
  obtain ⟨rd, _, hrd⟩ := readings
  refine ⟨rd, fun n h1 h2 => (hrd n h1 h2).1.2, ?_⟩
  have hn := dos_nums hok
  rw [parse_phonon_dos_file, Dos.loop_parts rd parts ls h hok (fun p hp n h' => (hrd n (hn p hp n h').1 (hn p hp n h').2).1.1)
    [] _ (by omega) (.inl rfl) (.inl rfl)]
  rfl

/-- C63 for files of headers and gradients, and densities of states without rows. -/
theorem C63_partial (parts : List DosPart) (ls : List (List Str)) (h : List.Forall₂ DosPart.Lines parts ls)
    (hok : ∀ p ∈ parts, p.Ok) (hr : ∀ species rows, DosPart.dos species rows ∈ parts → rows = []) :
    ∃ rd : Numeral → F64, (∀ n : Numeral, n.Valid → n.InRange → F64.Nearest n.value (rd n)) ∧
      parse_phonon_dos_file ls.flatten = .ok (.dict (parts.foldl (DosPart.put rd id) [])) := by
  obtain ⟨rd, hrd, e⟩ := C63_exact parts ls h hok
  refine ⟨rd, hrd, ?_⟩
  rw [e]
  have : ∀ (l : List DosPart) (d : Dict Key PyVal), (∀ p ∈ l, p ∈ parts) →
      l.foldl (DosPart.put rd List.dropLast) d = l.foldl (DosPart.put rd id) d := by
    intro l
    induction l with
    | nil => intro d _; rfl
    | cons p l ih =>
      intro d hl
      rw [List.foldl_cons, List.foldl_cons, ih _ fun q hq => hl q (by simp [hq])]
      congr 1
      cases p with
      | dos species rows => rw [hr species rows (hl _ (by simp))]; rfl
      | _ => rfl
  rw [this _ _ fun _ h => h]

/-- Tables with a different number of rows differ. -/
theorem columnTable_ne {rd rd' : Numeral → F64} {label : Str} {labels : List Str} {a b : List (List Numeral)} {k : Nat}
    (ha : ∀ r ∈ a, RowOk (k + 1) r) (hb : ∀ r ∈ b, RowOk (k + 1) r) (hl : a.length ≠ b.length) :
    columnTable rd (label :: labels) a ≠ columnTable rd' (label :: labels) b := by
  have key : ∀ (rd : Numeral → F64) (l : List (List Numeral)), (∀ r ∈ l, RowOk (k + 1) r) →
      (l.filterMap fun r => (r[0]?).map fun n => PyVal.float (rd n)).length = l.length := by
    intro rd l
    induction l with
    | nil => intro _; rfl
    | cons r l ih =>
      intro hl
      have h7 := (hl r (by simp)).1
      cases r with
      | nil => cases h7
      | cons n r =>
        rw [List.filterMap_cons_some (b := PyVal.float (rd n)) (by rfl), List.length_cons, List.length_cons,
          ih fun x hx => hl x (by simp [hx])]
  intro e
  by_cases h1 : a = []
  · subst h1
    rw [columnTable, if_pos rfl] at e
    have := (columnTable_nil_iff (by simp)).1 e.symm
    subst this
    exact hl rfl
  · by_cases h2 : b = []
    · subst h2
      rw [columnTable, if_neg h1, columnTable, if_pos rfl] at e
      cases e
    · rw [columnTable, if_neg h1, columnTable, if_neg h2] at e
      have h0 := congrArg List.head? e
      simp only [List.zipIdx_cons, List.map_cons, List.head?_cons, Option.some.injEq, Prod.mk.injEq, true_and,
        PyVal.tuple.injEq] at h0
      have := congrArg List.length h0
      rw [key _ _ ha, key _ _ hb] at this
      exact hl this

/-- C63 is false: of every density of states the last row is missing. -/
theorem C63_last_false (species : List Str) (rows : List (List Numeral)) (ls : List Str) (h : DosPart.Lines (.dos species rows) ls)
    (hok : DosPart.Ok (.dos species rows)) (hne : rows ≠ []) :
    ∀ rd : Numeral → F64, parse_phonon_dos_file ls ≠ .ok (.dict (DosPart.put rd id [] (.dos species rows))) := by
  intro rd he
  obtain ⟨rd', -, e⟩ := C63_exact [.dos species rows] [ls] (.cons h .nil) (by
    intro p hp; simp only [List.mem_singleton] at hp; subst hp; exact hok)
  rw [List.flatten_cons, List.flatten_nil, List.append_nil, he] at e
  simp only [List.foldl_cons, List.foldl_nil, DosPart.put, addTable, id] at e
  have hpos : 0 < rows.length := List.length_pos_iff.2 hne
  have hc := columnTable_ne (rd := rd) (rd' := rd') (label := py"freq") (labels := py"g" :: species) (k := species.length + 1) (a := rows)
    (b := rows.dropLast) hok.2.2 (fun r hr => hok.2.2 r (List.mem_of_mem_dropLast hr)) (by rw [List.length_dropLast]; omega)
  rw [if_neg (fun h => hne ((columnTable_nil_iff (by simp)).1 h))] at e
  by_cases hd : rows.dropLast = []
  · rw [if_pos ((columnTable_nil_iff (by simp)).2 hd)] at e
    cases e
  · rw [if_neg (fun h => hd ((columnTable_nil_iff (by simp)).1 h))] at e
    simp only [Dict.get?, Dict.set, Except.ok.injEq, PyVal.dict.injEq, List.cons.injEq, Prod.mk.injEq, PyVal.list.injEq, and_true,
      true_and] at e
    exact hc e

/-! ### A file -/

def exGrads : List QGrad :=
  [⟨exInt (py"1"), [exDec (py"0") (py"0"), exDec (py"0") (py"5"), exDec (py"0") (py"0")], exDec (py"1") (py"0"),
    [[exInt (py"1"), exDec (py"10") (py"5"), exDec (py"0") (py"1")], [exInt (py"2"), exDec (py"20") (py"5"), exDec (py"0") (py"2")]]⟩,
   ⟨exInt (py"2"), [exDec (py"0") (py"5"), exDec (py"0") (py"5"), exDec (py"0") (py"0")], exDec (py"2") (py"0"), []⟩]

def exDosRows : List (List Numeral) :=
  [[exDec (py"0") (py"0"), exDec (py"0") (py"1"), exDec (py"0") (py"1"), exDec (py"0") (py"0")],
   [exDec (py"1") (py"0"), exDec (py"0") (py"3"), exDec (py"0") (py"1"), exDec (py"0") (py"2")]]

def exDos : List DosPart := [.header exEfHead', .grad exGrads, .other, .dos [py"Si", py"O"] exDosRows]
where
  exEfHead' : List HeadItem := [.note true [], .count [py"ions"] (exInt (py"2")), .note true []]

def exGradLines : List Str :=
  [py" BEGIN GRADIENTS\n", py"   q-pt=    1    0.0 0.5 0.0      1.0\n", py"     1     10.5   0.1\n", py"     2     20.5   0.2\n", py"\n",
   py"   q-pt=    2    0.5 0.5 0.0      2.0\n", py" END GRADIENTS\n"]

def exDosTable : List Str :=
  [py" BEGIN DOS   Freq (cm-1)  g(f)    Si   O\n", py"  0.0  0.1  0.1 0.0\n", py"  1.0  0.3  0.1 0.2\n", py" END DOS\n"]

def exDosLines : List (List Str) :=
  [[py" BEGIN header\n", py"  Number of ions   2\n", py" END header\n"], exGradLines, [py"\n"], exDosTable]

theorem dosNote_lines {s : Str} (h1 : Str.startsWith (Str.strip s) (py"Number of") = false)
    (h2 : Str.contains (py"Unit cell vectors") s = false) (h3 : ((Str.split s).filter hasDigit).length < 3)
    (h5 : NoDigit s) : HeadItem.Lines [] (.note true []) [s] :=
  ⟨s, rfl, not_count _ h1, not_occurs _ _ h2, plain_of_split _ h3,
    ⟨fun _ => ⟨[], s, rfl⟩, fun _ => rfl⟩, .inl ⟨rfl, h5⟩, by simp⟩

theorem exGrads_lines : List.Forall₂ QGrad.Lines
    [[py"   q-pt=    1    0.0 0.5 0.0      1.0\n", py"     1     10.5   0.1\n", py"     2     20.5   0.2\n", py"\n"],
     [py"   q-pt=    2    0.5 0.5 0.0      2.0\n"]] exGrads :=
  .cons ⟨_, _, rfl, ⟨py"   ", py"    1    0.0 0.5 0.0      1.0\n", [], rfl, by decide, by decide, (fields_iff _ _).2 (by decide +kernel)⟩,
    .row ⟨⟨_, _, rfl, by decide⟩, [], (fields_iff _ _).2 (by decide +kernel)⟩
    (.row ⟨⟨_, _, rfl, by decide⟩, [], (fields_iff _ _).2 (by decide +kernel)⟩ (.skip (by decide +kernel) .nil))⟩
  (.cons ⟨_, _, rfl, ⟨py"   ", py"    2    0.5 0.5 0.0      2.0\n", [], rfl, by decide, by decide, (fields_iff _ _).2 (by decide +kernel)⟩,
    .nil⟩ .nil)

theorem exDosTable_lines : DosPart.Lines (.dos [py"Si", py"O"] exDosRows) exDosTable :=
  ⟨starts_none (by decide +kernel), _, enclosed_of (inner := [py"  0.0  0.1  0.1 0.0\n", py"  1.0  0.3  0.1 0.2\n"])
    (by decide +kernel) (by decide +kernel) (by decide +kernel),
    (fun l hl => by cases hl; exact ⟨py"BEGIN", py"DOS", py"Freq", py"(cm-1)", py"g(f)", (fields_iff _ _).2 (by decide +kernel)⟩),
    .cons ⟨⟨_, _, rfl, by decide⟩, [], (fields_iff _ _).2 (by decide +kernel)⟩
    (.cons ⟨⟨_, _, rfl, by decide⟩, [], (fields_iff _ _).2 (by decide +kernel)⟩ .nil)⟩

theorem exDos_lines : List.Forall₂ DosPart.Lines exDos exDosLines := by
  refine .cons ⟨⟨_, enclosed_of (inner := [py"  Number of ions   2\n"]) (by decide +kernel) (by decide +kernel) (by decide +kernel)⟩,
    [[py" BEGIN header\n"], [py"  Number of ions   2\n"], [py" END header\n"]], ?_, rfl⟩
    (.cons ⟨starts_none (by decide +kernel), _, enclosed_of (inner := exGradLines.tail.dropLast) (by decide +kernel) (by decide +kernel)
      (by decide +kernel), ?_, ?_, _, exGrads_lines, rfl⟩ (.cons ⟨starts_none (by decide +kernel), rfl⟩ (.cons exDosTable_lines .nil)))
  · exact .cons (dosNote_lines (by decide +kernel) (by decide +kernel) (by decide +kernel) (by decide +kernel))
      (.cons ⟨_, rfl, (isCount_iff _).1 (by decide +kernel), plain_of_split _ (by decide +kernel),
        (fields_iff _ _).2 (by decide +kernel), by decide +kernel, by decide +kernel, by decide +kernel⟩
      (.cons (dosNote_lines (by decide +kernel) (by decide +kernel) (by decide +kernel) (by decide +kernel)) .nil))
  · intro l hl; cases hl; decide +kernel
  · intro l hl; cases hl; decide +kernel

theorem exDos_table_ok : DosPart.Ok (.dos [py"Si", py"O"] exDosRows) := by
  refine ⟨?_, by decide, by decide +kernel⟩
  intro s hs
  simp only [List.mem_cons, List.not_mem_nil, or_false] at hs
  rcases hs with rfl | rfl
  · exact ⟨by decide, by decide, by decide⟩
  · exact ⟨by decide, by decide, by decide⟩

theorem exDos_ok : ∀ p ∈ exDos, p.Ok := by
  intro p hp
  simp only [exDos, List.mem_cons, List.not_mem_nil, or_false] at hp
  rcases hp with rfl | rfl | rfl | rfl
  · refine ⟨by decide +kernel, ?_⟩
    intro i hi key n e
    subst e
    simp only [exDos.exEfHead', List.mem_cons, HeadItem.count.injEq, reduceCtorEq, false_or, List.not_mem_nil, or_false] at hi
    rw [hi.1]
    decide +kernel
  · show ∀ g ∈ exGrads, g.Ok
    decide +kernel
  · trivial
  · exact exDos_table_ok

example := C63_exact exDos exDosLines exDos_lines exDos_ok

example := C63_partial (exDos.take 2) (exDosLines.take 2)
  (.cons (List.forall₂_cons.1 exDos_lines).1 (.cons (List.forall₂_cons.1 (List.forall₂_cons.1 exDos_lines).2).1 .nil))
  (fun p hp => exDos_ok p (List.mem_of_mem_take hp))
  (by intro s r hp
      rw [show exDos.take 2 = [.header exDos.exEfHead', .grad exGrads] from rfl] at hp
      rcases List.mem_cons.1 hp with h | h
      · cases h
      · cases (List.mem_singleton.1 h))

example := C63_last_false _ _ exDosTable exDosTable_lines exDos_table_ok (by decide)

/-- C63 is false: two sites of the same species, or a species with a label, make a valid file that cannot be read. -/
theorem C63_species_false :
    parse_phonon_dos_file [py" BEGIN DOS   Freq (cm-1)  g(f)    Si   Si\n", py" END DOS\n"] = .error .reError ∧
    parse_phonon_dos_file [py" BEGIN DOS   Freq (cm-1)  g(f)    Si:1\n", py" END DOS\n"] = .error .reError := by decide +kernel

end Verif.Props

import Verif.Lemmas.Phonon
import Verif.Props.PhononDos
import Verif.Props.CastepMatrix
/-
C67: `.phonon` files.
-/
namespace Verif.Props
open Verif Verif.Spec

/-- What a `.phonon` file gives: the header, and for each q-point its position, weight, direction, frequencies, activities
and eigenvectors. -/
theorem C67 (B N : Nat) (items : List HeadItem) (hl : List Str) (parts : List PhPart) (ls : List (List Str))
    (hh : HeaderLines [] items hl) (hi : PhHead B N items) (h : List.Forall₂ (PhPart.Lines B N) parts ls)
    (hok : ∀ p ∈ pointsOf parts, p.Ok B N) :
    ∃ rd fl : Numeral → F64, (∀ n : Numeral, n.Valid → n.InRange → F64.Nearest n.value (rd n) ∧ F64.Nearest n.value (fl n)) ∧
      parse_phonon_file (hl ++ ls.flatten) = .ok (.dict (phononOf rd fl items parts)) := by
  obtain ⟨rd, fl, hrd⟩ := readings
  refine ⟨rd, fl, fun n h1 h2 => ⟨(hrd n h1 h2).1.2, (hrd n h1 h2).2.2⟩, ?_⟩
  obtain ⟨hne, s, hb, hg, e⟩ := Phonon.after_header hh hi (rd := rd) fun i hi' n hn =>
    (hrd n (hi.2.2.2.2 i hi' n hn).1 (hi.2.2.2.2 i hi' n hn).2).1.1
  have hpos := List.length_pos_iff.2 hne
  obtain ⟨q, e'⟩ := Phonon.loop_parts (rd := rd) (fl := fl) h hok (fun p hp n hn => by
    have := (hok p hp).2.1 n hn
    exact ⟨(hrd n this.1 this.2).1.1, (hrd n this.1 this.2).2.1⟩) s (hl ++ ls.flatten).length hg (by rw [List.length_append]; omega)
  rw [parse_phonon_file, e ls.flatten, e']
  show Except.ok (PyVal.dict (addAll s.info _ _)) = _
  rw [hb]; rfl

/-- A file in which a q-point has not as many frequencies as the header says is rejected, whatever follows. -/
theorem C67_branches (B N : Nat) (items : List HeadItem) (hl : List Str) (p : PhPoint) (qline title : Str) (rows rest : List Str)
    (hh : HeaderLines [] items hl) (hi : PhHead B N items) (h1 : Occurs (py"q-pt") qline) (h2 : ¬ Occurs (py"BEGIN header") qline)
    (hq : ∃ a b, Fields qline (a :: b :: (p.q ++ p.weight :: p.dir).map Numeral.text)) (h3 : p.q.length = 3)
    (hv : ∀ n ∈ p.weight :: (p.q ++ p.dir), n.Valid ∧ n.InRange)
    (h4 : ∀ l ∈ rows, ¬ Occurs (py"Phonon Eigenvectors") l) (h5 : Occurs (py"Phonon Eigenvectors") title) (hn : rows.length ≠ B) :
    parse_phonon_file (hl ++ qline :: (rows ++ title :: rest)) = .error .valueError := by
  obtain ⟨rd, fl, hrd⟩ := readings
  obtain ⟨hne, s, hb, hg, e⟩ := Phonon.after_header hh hi (rd := rd) fun i hi' n hn =>
    (hrd n (hi.2.2.2.2 i hi' n hn).1 (hi.2.2.2.2 i hi' n hn).2).1.1
  rw [parse_phonon_file, e]
  have e' := Phonon.frequencies_wrong (rest := rest) hg h1 h2 h4 h5 hn (Phonon.qpoint_of (rd := rd) (fl := fl) hq h3
    (fun n hn => (hrd n (hv n (by simp [hn])).1 (hv n (by simp [hn])).2).1.1)
    ((hrd _ (hv _ (by simp)).1 (hv _ (by simp)).2).2.1)) (hl ++ qline :: (rows ++ title :: rest)).length.pred
  have hl : (hl ++ qline :: (rows ++ title :: rest)).length.pred + 1 = (hl ++ qline :: (rows ++ title :: rest)).length := by
    rw [List.length_append, List.length_cons]; rfl
  rw [hl] at e'
  rw [e']; rfl

/-- A file whose eigenvectors are not one for each mode and ion is rejected, whatever follows. -/
theorem C67_vectors (B N : Nat) (items : List HeadItem) (hl : List Str) (mline last : Str) (init rest : List Str)
    (hh : HeaderLines [] items hl) (hi : PhHead B N items) (h1 : Occurs (py"Mode Ion") mline) (h2 : ¬ Occurs (py"BEGIN header") mline)
    (h3 : ¬ Occurs (py"q-pt") mline) (h4 : Occurs (lastMark B N) last) (h5 : ∀ l ∈ init, ¬ Occurs (lastMark B N) l)
    (hn : init.length + 1 ≠ B * N) :
    parse_phonon_file (hl ++ mline :: (init ++ last :: rest)) = .error .valueError := by
  obtain ⟨rd, fl, hrd⟩ := readings
  obtain ⟨hne, s, hb, hg, e⟩ := Phonon.after_header hh hi (rd := rd) fun i hi' n hn =>
    (hrd n (hi.2.2.2.2 i hi' n hn).1 (hi.2.2.2.2 i hi' n hn).2).1.1
  rw [parse_phonon_file, e]
  have e' := Phonon.eigenvectors_wrong (rest := rest) hg h1 h2 h3 h4 h5 hn (hl ++ mline :: (init ++ last :: rest)).length.pred
  have hl : (hl ++ mline :: (init ++ last :: rest)).length.pred + 1 = (hl ++ mline :: (init ++ last :: rest)).length := by
    rw [List.length_append, List.length_cons]; rfl
  rw [hl] at e'
  rw [e']; rfl

/-- With a line before the header the parser fails, whatever follows: a variable has no value yet. -/
theorem C67_before (x : Str) (rest : List Str) (h1 : ¬ Occurs (py"BEGIN header") x) (h2 : ¬ Occurs (py"q-pt") x) :
    parse_phonon_file (x :: rest) = .error .nameError := by
  rw [parse_phonon_file, Phonon.before_header rfl h1 h2]; rfl

/-- In the lines as CASTEP prints them the mark the parser looks for is in the last line only, for fewer than a thousand branches. -/
theorem C67_marks (B N : Nat) (ts : List Str) (h0 : 0 < N) (hN : N < B) (hB : B < 1000) (hl : ts.length = B * N)
    (ht : ∀ t ∈ ts, (∀ c, t.head? = some c → isSpace c = true) ∧ ∃ ws, Fields t ws ∧ ∀ w ∈ ws, (46 : Nat) ∈ w) :
    OnlyLast (lastMark B N)
      (ts.zipIdx.map fun x => right4 (natStr (x.2 / N + 1)) ++ (right4 (natStr (x.2 % N + 1)) ++ x.1)) := by
  have hpos : 0 < B * N := Nat.mul_pos (by omega) h0
  obtain ⟨init, last, rfl⟩ : ∃ init last, ts = init ++ [last] :=
    ⟨_, _, (List.dropLast_concat_getLast (by intro e; rw [e, List.length_nil] at hl; omega)).symm⟩
  rw [List.length_append, List.length_cons, List.length_nil] at hl
  have hd : init.length = (B - 1) * N + (N - 1) := by
    have : B * N = (B - 1) * N + N := by
      obtain ⟨b, rfl⟩ : ∃ b, B = b + 1 := ⟨B - 1, by omega⟩
      simp [Nat.add_mul]
    omega
  refine ⟨init.zipIdx.map _, _, by rw [List.zipIdx_append, List.map_append]; rfl, ?_, ?_⟩
  · dsimp only [List.zipIdx]
    have q : (0 + init.length) / N = B - 1 := by
      rw [hd, Nat.zero_add, Nat.add_comm, Nat.add_mul_div_right _ _ h0, Nat.div_eq_of_lt (by omega), Nat.zero_add]
    have r : (0 + init.length) % N = N - 1 := by
      rw [hd, Nat.zero_add, Nat.add_comm, Nat.add_mul_mod_self_right, Nat.mod_eq_of_lt (by omega)]
    rw [q, r, show B - 1 + 1 = B by omega, show N - 1 + 1 = N by omega]
    exact ⟨[], last, by rw [lastMark]; simp⟩
  · intro l hl' ho
    obtain ⟨⟨t, m⟩, hm, rfl⟩ := List.mem_map.1 hl'
    have hm2 := List.mem_zipIdx hm
    have hmt : t ∈ init := by rw [hm2.2.2]; exact List.getElem_mem _
    obtain ⟨h1, ws, h2, h3⟩ := ht t (by simp [hmt])
    have hmlt : m < B * N - 1 := by omega
    dsimp only at ho
    have b1 : m / N < B := Nat.div_lt_of_lt_mul (by rw [Nat.mul_comm]; omega)
    have b2 := Nat.mod_lt m h0
    obtain ⟨e1, e2⟩ := Phonon.mark_row hB hN (by omega) (by omega) h1 h2 h3 ho
    have := Nat.div_add_mod m N
    have q : m / N = B - 1 := by omega
    have r : m % N = N - 1 := by omega
    rw [q, r, Nat.mul_comm] at this
    omega

/-! ### A file -/

/-- A point with three branches and one ion. -/
def exPhPoint : PhPoint :=
  ⟨[exDec (py"0") (py"5"), exDec (py"0") (py"0"), exDec (py"0") (py"0")], exDec (py"1") (py"0"),
    [exDec (py"0") (py"1"), exDec (py"0") (py"2"), exDec (py"0") (py"0")],
    [⟨neg (py"0") (py"040146"), some (exDec (py"0") (py"25")), none⟩, ⟨exDec (py"11") (py"5"), some (exDec (py"12") (py"5")), none⟩,
     ⟨exDec (py"12") (py"5"), some (exDec (py"3") (py"5")), none⟩],
    [[(neg (py"0") (py"66"), exDec (py"0") (py"0")), (exDec (py"0") (py"75"), exDec (py"0") (py"5"))],
     [(exDec (py"0") (py"1"), exDec (py"0") (py"0")), (exDec (py"0") (py"3"), exDec (py"0") (py"5"))],
     [(exDec (py"3") (py"1"), exDec (py"1") (py"0")), (exDec (py"0") (py"3"), exDec (py"0") (py"5"))]]⟩

def exPhHead : List HeadItem :=
  [.note true [], .count [py"ions"] (exInt (py"1")), .count [py"branches"] (exInt (py"3")), .note true []]

def exPhHeadLines : List Str :=
  [py" BEGIN header\n", py" Number of ions         1\n", py" Number of branches     3\n", py" END header\n"]

def exPhRows : List Str :=
  [py"       1      -0.040146              0.25                                     \n",
   py"       2           11.5              12.5                                     \n",
   py"       3           12.5              3.5                                      \n"]

def exPhVecs : List Str :=
  [py"   1   1 -0.66  0.0     0.75  0.5\n", py"   2   1  0.1  0.0     0.3  0.5\n", py"   3   1  3.1  1.0     0.3  0.5\n"]

def exPhLines : List Str :=
  py"     q-pt=    1    0.5  0.0  0.0      1.0    0.1  0.2  0.0\n" :: (exPhRows ++
    py"                        Phonon Eigenvectors\n" :: py"Mode Ion                X                Y\n" :: exPhVecs)

theorem exPhHead_lines : HeaderLines [] exPhHead exPhHeadLines := by
  refine ⟨⟨_, enclosed_of (inner := exPhHeadLines.tail.dropLast) (by decide +kernel) (by decide +kernel) (by decide +kernel)⟩,
    [[py" BEGIN header\n"], [py" Number of ions         1\n"], [py" Number of branches     3\n"], [py" END header\n"]], ?_, rfl⟩
  exact .cons (dosNote_lines (by decide +kernel) (by decide +kernel) (by decide +kernel) (by decide +kernel))
    (.cons ⟨_, rfl, (isCount_iff _).1 (by decide +kernel), plain_of_split _ (by decide +kernel),
      (fields_iff _ _).2 (by decide +kernel), by decide +kernel, by decide +kernel, by decide +kernel⟩
    (.cons ⟨_, rfl, (isCount_iff _).1 (by decide +kernel), plain_of_split _ (by decide +kernel),
      (fields_iff _ _).2 (by decide +kernel), by decide +kernel, by decide +kernel, by decide +kernel⟩
    (.cons (dosNote_lines (by decide +kernel) (by decide +kernel) (by decide +kernel) (by decide +kernel)) .nil)))

theorem exPhHead_ok : PhHead 3 1 exPhHead := by
  refine ⟨by decide +kernel, by decide +kernel, ⟨[], by simp [exPhHead]⟩, ?_, by decide +kernel⟩
  intro i hi key n e
  subst e
  simp only [exPhHead, List.mem_cons, HeadItem.count.injEq, reduceCtorEq, false_or, List.not_mem_nil, or_false] at hi
  rcases hi with ⟨rfl, -⟩ | ⟨rfl, -⟩ <;> decide +kernel

theorem exPhRow {l : Str} {n m : Numeral} (h1 : Str.split (column l 8 23) = [n.text]) (h2 : Str.split (column l 31 46) = [m.text])
    (h3 : Str.split (column l 55 70) = []) : PhBranch.Line l ⟨n, some m, none⟩ :=
  ⟨(fields_iff _ _).2 h1, (fields_iff _ _).2 h2, blank_of_fields ((fields_iff _ _).2 h3)⟩

theorem exPhMarks : OnlyLast (lastMark 3 1) exPhVecs :=
  ⟨exPhVecs.dropLast, py"   3   1  3.1  1.0     0.3  0.5\n", rfl, ⟨[], _, rfl⟩, fun l hl => by
    have : ∀ l ∈ exPhVecs.dropLast, Str.contains (lastMark 3 1) l = false := by decide +kernel
    exact not_occurs _ _ (this l hl)⟩

theorem exPh_lines : PhPart.Lines 3 1 (.point exPhPoint) exPhLines := by
  refine ⟨_, exPhRows, _, _, exPhVecs, rfl, ⟨_, _, by
    show _ = py"     " ++ py"q-pt" ++ py"=    1    0.5  0.0  0.0      1.0    0.1  0.2  0.0\n"; rfl⟩, not_occurs _ _ (by decide +kernel),
    ⟨py"q-pt=", py"1", (fields_iff _ _).2 (by decide +kernel)⟩, ?_, ?_,
    ⟨py"                        ", py"\n", rfl⟩, ⟨[], py"                X                Y\n", rfl⟩,
    not_occurs _ _ (by decide +kernel), not_occurs _ _ (by decide +kernel), ?_, exPhMarks⟩
  · exact .cons (exPhRow (by decide +kernel) (by decide +kernel) (by decide +kernel)) (.cons (exPhRow (by decide +kernel) (by decide +kernel)
      (by decide +kernel)) (.cons (exPhRow (by decide +kernel) (by decide +kernel) (by decide +kernel)) .nil))
  · intro l hl
    have : ∀ l ∈ exPhRows, Str.contains (py"Phonon Eigenvectors") l = false := by decide +kernel
    exact not_occurs _ _ (this l hl)
  · exact .cons ⟨py"1", py"1", (fields_iff _ _).2 (by decide +kernel)⟩ (.cons ⟨py"2", py"1", (fields_iff _ _).2 (by decide +kernel)⟩
      (.cons ⟨py"3", py"1", (fields_iff _ _).2 (by decide +kernel)⟩ .nil))

example : ∃ rd fl : Numeral → F64, (∀ n : Numeral, n.Valid → n.InRange → F64.Nearest n.value (rd n) ∧ F64.Nearest n.value (fl n)) ∧
    parse_phonon_file (exPhHeadLines ++ [exPhLines, [py"\n"]].flatten) = .ok (.dict (phononOf rd fl exPhHead [.point exPhPoint, .other])) :=
  C67 3 1 _ _ _ _ exPhHead_lines exPhHead_ok (.cons exPh_lines (.cons ⟨starts_none (by decide +kernel), rfl⟩ .nil))
    (fun p hp => by
      simp only [pointsOf, List.filterMap_cons, List.filterMap_nil, List.mem_singleton] at hp
      subst hp
      decide +kernel)

/-- The file without one of the frequencies. -/
example : parse_phonon_file (exPhHeadLines ++ py"     q-pt=    1    0.5  0.0  0.0      1.0    0.1  0.2  0.0\n" ::
    (exPhRows.tail ++ py"                        Phonon Eigenvectors\n" :: [])) = .error .valueError :=
  C67_branches 3 1 _ _ exPhPoint _ _ _ _ exPhHead_lines exPhHead_ok ⟨py"     ", _, rfl⟩ (not_occurs _ _ (by decide +kernel))
    ⟨py"q-pt=", py"1", (fields_iff _ _).2 (by decide +kernel)⟩ rfl (by decide +kernel) (fun l hl => by
      have : ∀ l ∈ exPhRows.tail, Str.contains (py"Phonon Eigenvectors") l = false := by decide +kernel
      exact not_occurs _ _ (this l hl)) ⟨py"                        ", py"\n", rfl⟩ (by decide)

/-- Eigenvectors without those of a mode. -/
example : parse_phonon_file (exPhHeadLines ++ py"Mode Ion                X                Y\n" ::
    (exPhVecs.dropLast.tail ++ py"   3   1  3.1  1.0     0.3  0.5\n" :: [])) = .error .valueError :=
  C67_vectors 3 1 _ _ _ _ _ _ exPhHead_lines exPhHead_ok ⟨[], _, rfl⟩ (not_occurs _ _ (by decide +kernel)) (not_occurs _ _ (by decide +kernel))
    ⟨[], _, rfl⟩ (fun l hl => by
      have : ∀ l ∈ exPhVecs.dropLast.tail, Str.contains (lastMark 3 1) l = false := by decide +kernel
      exact not_occurs _ _ (this l hl)) (by decide)

/-- A blank line first. -/
example : parse_phonon_file (py"\n" :: (exPhHeadLines ++ exPhLines)) = .error .nameError :=
  C67_before _ _ (not_occurs _ _ (by decide +kernel)) (not_occurs _ _ (by decide +kernel))

example : OnlyLast (lastMark 2 1) [py"   1   1  0.5 0.5\n", py"   2   1  2.5 1.5\n"] :=
  C67_marks 2 1 [py"  0.5 0.5\n", py"  2.5 1.5\n"] (by decide) (by decide) (by decide) rfl (by
    intro t ht
    simp only [List.mem_cons, List.not_mem_nil, or_false] at ht
    rcases ht with rfl | rfl
    · exact ⟨fun c hc => by cases hc; decide, _, (fields_iff _ _).2 rfl, by decide +kernel⟩
    · exact ⟨fun c hc => by cases hc; decide, _, (fields_iff _ _).2 rfl, by decide +kernel⟩)

/-! ### A thousand ions -/

def exBigHead : List HeadItem :=
  [.note true [], .count [py"ions"] (exInt (py"1000")), .count [py"branches"] (exInt (py"3000")), .note true []]

def exBigHeadLines : List Str :=
  [py" BEGIN header\n", py" Number of ions         1000\n", py" Number of branches     3000\n", py" END header\n"]

theorem exBigHead_lines : HeaderLines [] exBigHead exBigHeadLines := by
  refine ⟨⟨_, enclosed_of (inner := exBigHeadLines.tail.dropLast) (by decide +kernel) (by decide +kernel) (by decide +kernel)⟩,
    [[py" BEGIN header\n"], [py" Number of ions         1000\n"], [py" Number of branches     3000\n"], [py" END header\n"]], ?_, rfl⟩
  exact .cons (dosNote_lines (by decide +kernel) (by decide +kernel) (by decide +kernel) (by decide +kernel))
    (.cons ⟨_, rfl, (isCount_iff _).1 (by decide +kernel), plain_of_split _ (by decide +kernel),
      (fields_iff _ _).2 (by decide +kernel), by decide +kernel, by decide +kernel, by decide +kernel⟩
    (.cons ⟨_, rfl, (isCount_iff _).1 (by decide +kernel), plain_of_split _ (by decide +kernel),
      (fields_iff _ _).2 (by decide +kernel), by decide +kernel, by decide +kernel, by decide +kernel⟩
    (.cons (dosNote_lines (by decide +kernel) (by decide +kernel) (by decide +kernel) (by decide +kernel)) .nil)))

theorem exBigHead_ok : PhHead 3000 1000 exBigHead := by
  refine ⟨by decide +kernel, by decide +kernel, ⟨[], by simp [exBigHead]⟩, ?_, by decide +kernel⟩
  intro i hi key n e
  subst e
  simp only [exBigHead, List.mem_cons, HeadItem.count.injEq, reduceCtorEq, false_or, List.not_mem_nil, or_false] at hi
  rcases hi with ⟨rfl, -⟩ | ⟨rfl, -⟩ <;> decide +kernel

/-- With a thousand ions the mark has no blanks left and is found among the decimals of a component: whatever follows, the
file is rejected as having too few eigenvectors. -/
theorem C67_large_false (rest : List Str) :
    parse_phonon_file (exBigHeadLines ++ py"Mode Ion                X                Y\n" ::
      ([] ++ py"   1   1  0.123000100045  0.000000000000\n" :: rest)) = .error .valueError :=
  C67_vectors 3000 1000 _ _ _ _ _ _ exBigHead_lines exBigHead_ok ⟨[], _, rfl⟩ (not_occurs _ _ (by decide +kernel))
    (not_occurs _ _ (by decide +kernel)) ⟨py"   1   1  0.12", py"45  0.000000000000\n", by decide +kernel⟩ (fun l hl => by cases hl) (by decide)

end Verif.Props

import Verif.Lemmas.Scf
import Verif.Props.UnitCell
/-
C66: the table of the electronic minimisation.
-/
namespace Verif.Props
open Verif Verif.Spec Verif.Castep

/-- What a table is made of: details before the first row, and rows with what is printed after them. -/
def ScfTable (pre : List ScfItem) (cycles : List ScfCycle) (pl : List (List Str)) (ls : List (List (List Str))) : Prop :=
  List.Forall₂ ScfItem.Lines pre pl ∧ (∀ i ∈ pre, i.Ok ∧ i.IsDetail) ∧ EigensLast pre ∧
  List.Forall₂ ScfCycle.Lines cycles ls ∧ ∀ c ∈ cycles, c.row.Ok ∧ (∀ i ∈ c.items, i.Ok) ∧ EigensLast c.items

/-- The readings of the numbers: both give a nearest value. -/
def ScfReads (rd fl : Numeral → F64) : Prop :=
  ∀ n : Numeral, n.Valid → n.InRange → F64.Nearest n.value (rd n) ∧ F64.Nearest n.value (fl n)

/-- C66, for tables with the column of the Fermi energy.  Full statement: the same without `fermi ≠ none`, which is false
(`C66_no_fermi_false`). -/
theorem C66_partial : ∃ rd fl, ScfReads rd fl ∧ ∀ pre cycles pl ls, ScfTable pre cycles pl ls →
    (∀ c ∈ cycles, c.row.fermi ≠ none) →
    process_scf (pl.flatten ++ ls.flatten.flatten) = .ok (.list (scfReports rd fl pre cycles)) := by
  obtain ⟨rd, fl, hr⟩ := readings
  refine ⟨rd, fl, fun n h1 h2 => ⟨(hr n h1 h2).1.2, (hr n h1 h2).2.2⟩, ?_⟩
  rintro pre cycles pl ls ⟨h1, h2, h3, h4, h5⟩ hf
  exact Scf.table h1 h2 h3 h4 (fun c hc => ⟨(h5 c hc).1, hf c hc, (h5 c hc).2⟩) fun n a b => ⟨(hr n a b).1.1, (hr n a b).2.1⟩

/-- A row without the column of the Fermi energy is read as if its gain were the Fermi energy. -/
theorem C66_gain_as_fermi : ∃ rd fl, ScfReads rd fl ∧ ∀ (r : ScfRow) (g : Numeral) (l : Str), r.Ok → r.fermi = none → r.gain = some g →
    r.Line l → process_scf [l] = .ok (.list [.dict (ScfRow.entry rd { r with fermi := some g, gain := none })]) := by
  obtain ⟨rd, fl, h1, h2⟩ := C66_partial
  refine ⟨rd, fl, h1, ?_⟩
  rintro ⟨head, energy, fermi, gain, time⟩ g l hok rfl rfl hl
  have := h2 [] [⟨⟨head, energy, some g, none, time⟩, []⟩] [] [[[l]]] ⟨.nil, (fun i hi => by cases hi), (fun a rows b h => by
      cases a <;> cases h), .cons ⟨l, [], rfl, hl, .nil⟩ .nil, (fun c hc => by
      rw [List.mem_singleton.1 hc]
      exact ⟨hok, (fun i hi => by cases hi), (fun a rows b h => by cases a <;> cases h)⟩)⟩ (fun c hc => by
      rw [List.mem_singleton.1 hc]; simp)
  exact this

/-! ### An example -/

/-- A line that does not start like a row. -/
theorem noRow_of (l : Str) (h : ((l.dropWhile isSpace).head?.all fun c => decide (¬ (48 ≤ c ∧ c ≤ 57)) && decide (c ≠ c!"I")) = true) :
    ScfItem.NoRow l := by
  refine .inl ?_
  rintro ⟨g, r, rfl, hg, hr⟩
  have e : (g ++ r).dropWhile isSpace = r.dropWhile isSpace := List.dropWhile_append_of_pos (by simpa [Blank] using hg)
  rw [e] at h
  rcases hr with ⟨s, rfl⟩ | ⟨c, s, rfl, hc⟩
  · rw [List.cons_append, List.dropWhile_cons, if_neg (by decide)] at h
    simp at h
  · have hs : isSpace c = false := by simp [isSpace]; omega
    rw [List.dropWhile_cons, hs] at h
    simp at h
    omega

theorem noMark_of {k : Nat} {l : Str} (h : ((ScfItem.marks.take k).all fun s => !Str.contains s l) = true) : ScfItem.NoMark k l := by
  intro s hs
  rw [← Str.contains_iff]
  have := List.all_eq_true.1 h s hs
  simpa using this

theorem noEigen_of {l : Str} (h : l.head? ≠ some (c!"e")) : ScfItem.NoEigen l := by
  rintro ⟨t, rfl⟩
  exact h rfl

instance (i : ScfItem) : Decidable i.Ok :=
  match i with
  | .bands .. => inferInstanceAs (Decidable (_ ∧ Numeral.IsInt _))
  | .unmixed | .residual .. | .constraint .. | .dipole .. | .kinetic .. | .eigens .. | .contrib .. | .other =>
    inferInstanceAs (Decidable (_ ∧ True))

instance (i : ScfItem) : Decidable i.IsDetail :=
  match i with
  | .unmixed | .residual .. | .constraint .. | .dipole .. => inferInstanceAs (Decidable False)
  | .kinetic .. | .eigens .. | .contrib .. | .other | .bands .. => inferInstanceAs (Decidable True)

/-- Is a kinetic eigenvalue seen before the eigenvalues? -/
def eigensOk : Bool → List ScfItem → Bool
  | _, [] => true
  | _, .kinetic .. :: l => eigensOk true l
  | seen, .eigens _ :: l => seen && eigensOk seen l
  | seen, _ :: l => eigensOk seen l

theorem eigensOk_spec : ∀ (seen : Bool) (l a : List ScfItem) (rows) (b : List ScfItem), eigensOk seen l = true → l = a ++ .eigens rows :: b →
    seen = true ∨ ∃ i x more, ScfItem.kinetic i x more ∈ a
  | seen, l, [], rows, b, h, e => by
    subst e
    simp only [List.nil_append, eigensOk, Bool.and_eq_true] at h
    exact .inl h.1
  | seen, l, i :: a, rows, b, h, e => by
    subst e
    have go : ∀ seen', eigensOk seen' (a ++ .eigens rows :: b) = true → seen' = true ∨ ∃ i x more, ScfItem.kinetic i x more ∈ a :=
      fun seen' h => eigensOk_spec seen' _ a rows b h rfl
    cases i with
    | kinetic i x more => exact .inr ⟨i, x, more, by simp⟩
    | eigens rows' =>
      simp only [List.cons_append, eigensOk, Bool.and_eq_true] at h
      exact .inl h.1
    | _ =>
      rcases go seen h with h | ⟨i, x, more, h⟩
      · exact .inl h
      · exact .inr ⟨i, x, more, by simp [h]⟩

theorem eigensLast_of {l : List ScfItem} (h : eigensOk false l = true) : EigensLast l := by
  intro a rows b e
  rcases eigensOk_spec false l a rows b h e with h | h
  · cases h
  · exact h

/-- A number with an exponent as printed. -/
def exExp (sg : Option Bool) (i f : Str) (s : Bool) (e : Str) : Numeral := ⟨sg, i, some f, some (true, some s, e)⟩

def exScfPre : List ScfItem :=
  [.other, .bands (exInt (py"4")) [], .kinetic (exInt (py"1")) (exDec (py"20") (py"5")) [],
   .eigens [(exInt (py"1"), neg (py"5") (py"0"), neg (py"5") (py"5"), exDec (py"0") (py"5"))],
   .contrib [py"XC", py"correction", py"to", py"eigenvalue", py"sum"] (neg (py"3") (py"25"))]

def exScfPreLines : List (List Str) :=
  [[py"SCF loop      Energy           Fermi           Energy gain       Timer   <-- SCF\n"],
   [py"no. bands in each block=         4\n"],
   [py"Kinetic eigenvalue #   1 =      20.5\n"],
   [py"eigenvalue    1 init= -5.0      fin= -5.5   change= 0.5\n", py"Checking convergence criteria\n"],
   [py"+XC correction to eigenvalue sum=     -3.25 eV\n"]]

def exScfCycles : List ScfCycle :=
  [⟨⟨py"Initial", exExp (some true) (py"8") (py"43823694") false (py"002"), some (exExp none (py"0") (py"00000000") false (py"000")), none,
      exDec (py"2") (py"77")⟩, [.unmixed]⟩,
   ⟨⟨py"1", exExp (some true) (py"8") (py"55962165") false (py"002"), some (exExp none (py"6") (py"11993396") false (py"000")),
      some (exExp none (py"1") (py"51730885") false (py"000")), exDec (py"3") (py"54")⟩,
    [.residual (exExp none (py"9") (py"1451") true (py"002")) [], .other]⟩]

def exScfLines : List (List (List Str)) :=
  [[[py"Initial  -8.43823694E+002  0.00000000E+000                         2.77  <-- SCF\n"], [py" Density was not mixed in this cycle\n"]],
   [[py"      1  -8.55962165E+002  6.11993396E+000   1.51730885E+000       3.54  <-- SCF\n"],
    [py" Norm of density residual is    9.1451E-002\n"],
    [py"------------------------------------------------------------------------ <-- SCF\n"]]]

theorem exScf_table : ScfTable exScfPre exScfCycles exScfPreLines exScfLines := by
  refine ⟨.cons ⟨_, rfl, ⟨noRow_of _ (by decide +kernel), noMark_of (by decide +kernel)⟩, ?_, not_occurs _ _ (by decide +kernel), not_occurs _ _ (by decide +kernel)⟩
    (.cons ⟨_, rfl, noRow_of _ (by decide +kernel), noMark_of (by decide +kernel), ?_, hasNumbers_of (holds_of _ (py"no. bands in each block=         ")
        [(exInt (py"4"), py"\n")] (by decide +kernel) (by decide +kernel)) (by decide)⟩
    (.cons ⟨_, rfl, noRow_of _ (by decide +kernel), noMark_of (by decide +kernel), ?_, hasNumbers_of (holds_of _ (py"Kinetic eigenvalue #   ")
        [(exInt (py"1"), py" =      "), (exDec (py"20") (py"5"), py"\n")] (by decide +kernel) (by decide +kernel)) (by decide)⟩
    (.cons ⟨[_], _, rfl, .cons ⟨⟨noRow_of _ (by decide +kernel), noMark_of (by decide +kernel)⟩,
        ⟨py"    ", py"1", py" ", py" -5.0      fin= -5.5   change= 0.5\n", by decide +kernel, by decide, by decide, by decide, by decide⟩,
        hasNumbers_of (holds_of _ (py"eigenvalue    ") [(exInt (py"1"), py" init= "), (neg (py"5") (py"0"), py"      fin= "),
          (neg (py"5") (py"5"), py"   change= "), (exDec (py"0") (py"5"), py"\n")] (by decide +kernel) (by decide +kernel)) (by decide)⟩ .nil,
        ⟨noRow_of _ (by decide +kernel), noMark_of (by decide +kernel)⟩, ?_, (Str.contains_iff _ _).1 (by decide +kernel)⟩
    (.cons ⟨_, rfl, ⟨noRow_of _ (by decide +kernel), noMark_of (by decide +kernel)⟩, ?_, not_occurs _ _ (by decide +kernel),
        py"+", py"XC correction to eigenvalue sum", py"     ", py"\n", by decide +kernel, by decide, by decide, by decide +kernel, by decide, by decide,
        by decide, (fields_iff _ _).2 (by decide +kernel)⟩ .nil)))), ?_, ?_,
    .cons ⟨_, _, rfl, ⟨[py"<--", py"SCF"], (fields_iff _ _).2 (by decide +kernel), by decide +kernel⟩,
      .cons ⟨_, rfl, noRow_of _ (by decide +kernel), (Str.contains_iff _ _).1 (by decide +kernel)⟩ .nil⟩
    (.cons ⟨_, _, rfl, ⟨[py"<--", py"SCF"], (fields_iff _ _).2 (by decide +kernel), by decide +kernel⟩,
      .cons ⟨_, rfl, noRow_of _ (by decide +kernel), noMark_of (by decide +kernel), ?_, hasNumbers_of (holds_of _ (py" Norm of density residual is    ")
        [(exExp none (py"9") (py"1451") true (py"002"), py"\n")] (by decide +kernel) (by decide +kernel)) (by decide)⟩
      (.cons ⟨_, rfl, ⟨noRow_of _ (by decide +kernel), noMark_of (by decide +kernel)⟩, ?_, not_occurs _ _ (by decide +kernel), not_occurs _ _ (by decide +kernel)⟩
        .nil)⟩ .nil), ?_⟩
  · exact noEigen_of (by decide)
  · exact fun s hs => by cases hs; exact (Str.contains_iff _ _).1 (by decide +kernel)
  · exact fun s hs => by cases hs; exact (Str.contains_iff _ _).1 (by decide +kernel)
  · exact noEigen_of (by decide)
  · exact noEigen_of (by decide)
  · decide +kernel
  · exact eigensLast_of (by decide)
  · exact fun s hs => by cases hs; exact (Str.contains_iff _ _).1 (by decide +kernel)
  · exact noEigen_of (by decide)
  · intro c hc
    rcases List.mem_cons.1 hc with rfl | hc
    · exact ⟨by decide +kernel, by decide +kernel, eigensLast_of (by decide)⟩
    · rw [List.mem_singleton.1 hc]
      exact ⟨by decide +kernel, by decide +kernel, eigensLast_of (by decide)⟩

example : ∃ rd fl, ScfReads rd fl ∧ process_scf (exScfPreLines.flatten ++ exScfLines.flatten.flatten) =
    .ok (.list (scfReports rd fl exScfPre exScfCycles)) := by
  obtain ⟨rd, fl, h1, h2⟩ := C66_partial
  exact ⟨rd, fl, h1, h2 _ _ _ _ exScf_table (by decide +kernel)⟩

/-! ### Tables without the Fermi energy -/

def exFixedRow : ScfRow :=
  ⟨py"1", exExp (some true) (py"8") (py"55962165") false (py"002"), none, some (exExp none (py"1") (py"51730885") false (py"000")), exDec (py"3") (py"54")⟩

def exFixedLine : Str := py"      1  -8.55962165E+002                    1.51730885E+000       3.54  <-- SCF\n"

theorem exFixed_line : exFixedRow.Line exFixedLine := ⟨[py"<--", py"SCF"], (fields_iff _ _).2 (by decide +kernel), by decide +kernel⟩

example : ∃ rd fl, ScfReads rd fl ∧ process_scf [exFixedLine] =
    .ok (.list [.dict (ScfRow.entry rd { exFixedRow with fermi := exFixedRow.gain, gain := none })]) := by
  obtain ⟨rd, fl, h1, h2⟩ := C66_gain_as_fermi
  exact ⟨rd, fl, h1, h2 exFixedRow _ _ (by decide +kernel) rfl rfl exFixed_line⟩

theorem noEigens_nil : EigensLast [] := fun a rows b h => by cases a <;> cases h

/-- The full statement of C66 is false: without the column of the Fermi energy the gain is not reported. -/
theorem C66_no_fermi_false : ¬ ∃ rd fl, ScfReads rd fl ∧ ∀ pre cycles pl ls, ScfTable pre cycles pl ls →
    process_scf (pl.flatten ++ ls.flatten.flatten) = .ok (.list (scfReports rd fl pre cycles)) := by
  rintro ⟨rd, fl, -, h⟩
  have h1 := h [] [⟨exFixedRow, []⟩] [] [[[exFixedLine]]] ⟨.nil, (fun i hi => by cases hi), noEigens_nil,
    .cons ⟨_, [], rfl, exFixed_line, .nil⟩ .nil, (fun c hc => by
      rw [List.mem_singleton.1 hc]
      exact ⟨by decide +kernel, (fun i hi => by cases hi), noEigens_nil⟩)⟩
  obtain ⟨rd', fl', -, h2⟩ := C66_gain_as_fermi
  have h3 := h2 exFixedRow _ _ (by decide +kernel) rfl rfl exFixed_line
  have h4 := h1.symm.trans h3
  injection h4 with h4
  injection h4 with h4
  injection h4 with h4 _
  injection h4 with h4
  injection h4 with _ h4
  injection h4 with h4 _
  injection h4 with _ h4
  cases h4

/-- A first row without the Fermi energy is not reported at all. -/
theorem C66_initial_lost (r : ScfRow) (l : Str) (hr : r.Ok) (h : r.head = py"Initial") (hf : r.fermi = none) (hg : r.gain = none)
    (hl : r.Line l) (hm : ∀ s ∈ ScfItem.marks ++ [py"Checking convergence criteria", py" eV"], ¬ Occurs s l) :
    process_scf [l] = .ok (.list []) := by
  obtain ⟨head, energy, fermi, gain, time⟩ := r
  dsimp only at h hf hg
  subst h hf hg
  obtain ⟨more, hfl, hmore⟩ := hl
  have hplain : Plain l := by
    refine ⟨_, hfl, ?_⟩
    have e : (more.filter hasDigit) = [] := by
      rw [List.filter_eq_nil_iff]
      intro w hw
      rw [hasDigit, List.any_eq_true]
      rintro ⟨c, hc, hd⟩
      exact hmore w hw c hc (by simpa using hd)
    have e1 : hasDigit (py"Initial") = false := by decide
    show (List.filter hasDigit (py"Initial" :: energy.text :: time.text :: more)).length < 3
    rw [List.filter_cons, e1, if_neg (by decide), List.filter_cons, List.filter_cons, e]
    split <;> split <;> simp
  have hne : ScfItem.NoEigen l := by
    rintro ⟨t, rfl⟩
    obtain ⟨w, ws, h1, h2⟩ := fields_start (w := py"eigenvalue") (b := t) (by decide) (by decide)
    have h3 := fields_unique hfl h1
    injection h3 with h3 _
    rw [← h3] at h2
    exact absurd (show py"eigenvalue" <+: py"Initial" from h2) (by decide)
  obtain ⟨rd, fl, -, h2⟩ := C66_partial
  have := h2 [.other] [] [[l]] [] ⟨.cons ⟨l, rfl, ⟨.inr hplain, fun s hs => hm s (List.mem_append_left _ (List.mem_of_mem_take hs))⟩, hne,
    hm _ (by simp), hm _ (by simp)⟩ .nil, (fun i hi => by
      rw [List.mem_singleton.1 hi]; exact ⟨⟨(fun n hn => by cases hn), trivial⟩, trivial⟩), (fun a rows b h => by
      rcases a with _ | ⟨x, _ | ⟨y, a⟩⟩ <;> cases h), .nil, (fun c hc => by cases hc)⟩ (fun c hc => by cases hc)
  exact this

example : process_scf [py"Initial  -8.43823694E+002                                          0.09  <-- SCF\n"] = .ok (.list []) :=
  C66_initial_lost ⟨py"Initial", exExp (some true) (py"8") (py"43823694") false (py"002"), none, none, exDec (py"0") (py"09")⟩ _
    (by decide +kernel) rfl rfl rfl ⟨[py"<--", py"SCF"], (fields_iff _ _).2 (by decide +kernel), by decide +kernel⟩ (by
      intro s hs
      simp only [ScfItem.marks, List.cons_append, List.nil_append, List.mem_cons, List.not_mem_nil, or_false] at hs
      rw [← Str.contains_iff]
      rcases hs with rfl | rfl | rfl | rfl | rfl | rfl | rfl | rfl <;> decide +kernel)

/-! ### Names with a full stop -/

def exDotLine : Str := py"NB est. 0K energy (E-0.5TS)      =  -853.6 eV\n"

/-- The line is `name = x eV`, but its name has a full stop. -/
theorem exDot_shape : exDotLine = py"NB est. 0K energy (E-0.5TS)      " ++ (py"=" ++ (py"  " ++ ((neg (py"853") (py"6")).text ++ (py" eV" ++ py"\n")))) := by
  decide +kernel

/-- A contribution with a full stop in its name is not reported. -/
theorem C66_dotted_lost (lines : List Str) : process_scf (exDotLine :: lines) = process_scf lines := by
  have e : scfLine {} exDotLine = .ok {} := by
    rw [Scf.scfLine_other (noRow_of _ (by decide +kernel)), Scf.other_eigen (noMark_of (by decide +kernel)),
      Scf.noEigen (noEigen_of (by decide)), if_neg (by decide), if_neg (by decide +kernel), Scf.scfContrib_eq]
    have h : (CONTRIB_RE.match_ exDotLine).isNone = true := by decide +kernel
    rw [Option.isNone_iff_eq_none] at h
    rw [h]
  rw [process_scf, foldLines, e]
  rfl

example : process_scf [exDotLine, exDotLine] = process_scf [] := by rw [C66_dotted_lost, C66_dotted_lost]

end Verif.Props

import Verif.Lemmas.LineTables
import Verif.Props.Grids
import Verif.Props.Header
import Verif.Props.UnitCell
import Verif.Props.CastepMatrix
import Verif.Props.Efield
import Verif.Props.AtomTables
/-
C79: quantities of `.castep` files printed one to a line with their names.
C80: occupancies, line minimisation, dipole.
-/
namespace Verif.Props
open Verif Verif.Spec Verif.Castep

/-- C79, times and memory at the end of a run: every line gives its name and the number after the equals sign. -/
theorem C79_finalisation (lines : List Str) (rows : List (Str × Numeral)) (hl : Interleaved Blank (fun l r => NamedLine l r.1 r.2) lines rows)
    (hok : ∀ r ∈ rows, r.2.Valid ∧ r.2.InRange) :
    ∃ fl : Numeral → F64, ∃ d, Reads fl (rows.map Prod.snd) ∧ process_finalisation lines = .ok d ∧
      LastWins (rows.map fun r => (Key.str r.1, .float (fl r.2))) d := by
  obtain ⟨rd, fl, hrd⟩ := readings
  refine ⟨fl, _, fun n hn => ?_, ?_, LineTab.lastWins _⟩
  · obtain ⟨r, hr, rfl⟩ := List.mem_map.1 hn
    exact (hrd _ (hok r hr).1 (hok r hr).2).2.2
  · rw [process_finalisation, LineTab.fold_entries (ent := fun r : Str × Numeral => [(Key.str r.1, PyVal.float (fl r.2))]) (fun d l h => LineTab.final_skip h d) hl
      fun d l r hr h => LineTab.final_row h (hok r hr).1 (hrd _ (hok r hr).1 (hok r hr).2).2.1 d, List.map_eq_flatMap]
    rfl

/-- C79: a line that is not blank and has no equals sign, or more than one, is rejected, and the whole file with it. -/
theorem C79_rejects (before after : List Str) (l : Str) (rows : List (Str × Numeral)) (hl : Interleaved Blank (fun l r => NamedLine l r.1 r.2) before rows)
    (hok : ∀ r ∈ rows, r.2.Valid ∧ r.2.InRange) (hb : ¬ Blank l) (hc : l.count (c!"=") ≠ 1) :
    process_finalisation (before ++ l :: after) = .error .valueError := by
  obtain ⟨fl, d, -, h, -⟩ := C79_finalisation before rows hl hok
  rw [process_finalisation] at *
  rw [IonTab.fold_app h, foldLines, LineTab.final_bad hb hc]
  rfl

/-- C79, solvation energies: every line with an equals sign gives its name and the first number on the line. -/
theorem C79_solvation (lines : List Str) (rows : List (Str × Numeral)) (hl : Interleaved (fun l => c!"=" ∉ l) (fun l r => PlainNamed l r.1 r.2) lines rows)
    (hok : ∀ r ∈ rows, r.2.Valid ∧ r.2.InRange) :
    ∃ rd : Numeral → F64, ∃ d, Reads rd (rows.map Prod.snd) ∧ process_autosolvation lines = .ok (.dict d) ∧
      LastWins (rows.map fun r => (Key.str r.1, .float (rd r.2))) d := by
  obtain ⟨rd, fl, hrd⟩ := readings
  refine ⟨rd, _, fun n hn => ?_, ?_, LineTab.lastWins _⟩
  · obtain ⟨r, hr, rfl⟩ := List.mem_map.1 hn
    exact (hrd _ (hok r hr).1 (hok r hr).2).1.2
  · rw [process_autosolvation, LineTab.fold_entries (ent := fun r : Str × Numeral => [(Key.str r.1, PyVal.float (rd r.2))]) (fun d l h => LineTab.solv_skip h d) hl
      fun d l r hr h => LineTab.solv_row h (hok r hr).1 (hrd _ (hok r hr).1 (hok r hr).2).1.1 d, List.map_eq_flatMap]
    rfl

/-- C80, occupancies: every line with three numbers is a band. -/
theorem C80_occupancies (lines : List Str) (rows : List OccRow) (hl : Interleaved NoDigit OccRow.Line lines rows) (hok : ∀ r ∈ rows, r.Ok) :
    ∃ rd : Numeral → F64, (∀ r ∈ rows, Reads rd [r.eigenvalue, r.occupancy]) ∧
      process_occupancies lines = .ok (.list (rows.map fun r => .dict (r.info rd))) := by
  obtain ⟨rd, fl, hrd⟩ := readings
  refine ⟨rd, fun r hr n hn => (hrd n ((hok r hr).2.2 n hn).1 ((hok r hr).2.2 n hn).2).1.2, ?_⟩
  rw [process_occupancies, collect_rows (g := fun r : OccRow => some (PyVal.dict (r.info rd))) (fun l h => LineTab.occ_skip h) hl
    fun l r hr h => LineTab.occ_row h (hok r hr) fun n hn => (hrd n ((hok r hr).2.2 n hn).1 ((hok r hr).2.2 n hn).2).1.1, filterMap_pairs]
  rfl

/-- C80: a line with numbers, but not three, is rejected, and the whole block with it. -/
theorem C80_rejects (before after : List Str) (l : Str) (ns : List Numeral) (rows : List OccRow) (hl : Interleaved NoDigit OccRow.Line before rows)
    (hok : ∀ r ∈ rows, r.Ok) (hn : HasNumbers l ns) (hv : ∀ n ∈ ns, n.Valid) (h0 : ns ≠ []) (h3 : ns.length ≠ 3) :
    process_occupancies (before ++ l :: after) = .error .valueError := by
  obtain ⟨rd, -, h⟩ := C80_occupancies before rows hl hok
  rw [process_occupancies] at *
  have hl : occupancy l = .error .valueError := LineTab.occ_bad hn hv h0 h3
  cases hc : collect occupancy before with
  | error e => rw [hc] at h; cases h
  | ok xs => rw [LineTab.collect_bad (b := after) hc hl]; rfl

/-- C80, line minimisation: the initial energy and slope, the steps, the gains. -/
theorem C80_line_min (lines : List Str) (xs : List LineMin) (hl : Interleaved LineMin.Other (fun l x => x.Line l) lines xs)
    (hok : ∀ x ∈ xs, ∀ n ∈ x.nums, n.Valid ∧ n.InRange) :
    ∃ rd : Numeral → F64, ∃ d, (∀ x ∈ xs, Reads rd x.nums) ∧ process_wvfn_line_min lines = .ok (.dict d) ∧ LastWins (xs.flatMap (LineMin.entries rd)) d := by
  obtain ⟨rd, fl, hrd⟩ := readings
  refine ⟨rd, _, fun x hx n hn => (hrd n (hok x hx n hn).1 (hok x hx n hn).2).1.2, ?_, LineTab.lastWins _⟩
  rw [process_wvfn_line_min, LineTab.fold_entries (fun d l h => LineTab.wvfn_skip h d) hl fun d l x hx h =>
    LineTab.wvfn_row h (fun n hn => (hok x hx n hn).1) (fun n hn => (hrd n (hok x hx n hn).1 (hok x hx n hn).2).1.1) d]
  rfl

/-- C80, dipole: the total charges, the centres of charge (printed on the next line), the magnitude and the direction. -/
theorem C80_dipole (lines : List Str) (xs : List Dipole) (hl : Dipole.Table lines xs) (hok : ∀ x ∈ xs, ∀ n ∈ x.nums, n.Valid ∧ n.InRange) :
    ∃ rd fl : Numeral → F64, ∃ d, (∀ x ∈ xs, Reads rd x.nums ∧ Reads fl x.nums) ∧ process_dipole lines = .ok (.dict d) ∧
      LastWins (xs.map (Dipole.entry rd fl)) d := by
  obtain ⟨rd, fl, hrd⟩ := readings
  refine ⟨rd, fl, _, fun x hx => ⟨fun n hn => (hrd n (hok x hx n hn).1 (hok x hx n hn).2).1.2, fun n hn => (hrd n (hok x hx n hn).1 (hok x hx n hn).2).2.2⟩, ?_, LineTab.lastWins _⟩
  rw [process_dipole, LineTab.dip_loop (rd := rd) (fl := fl) hl (fun x hx n hn => (hok x hx n hn).1)
    (fun x hx n hn => ⟨(hrd n (hok x hx n hn).1 (hok x hx n hn).2).1.1, (hrd n (hok x hx n hn).1 (hok x hx n hn).2).2.1⟩) _ _ (Nat.lt_succ_self _)]
  rfl

/-! ### Examples -/

theorem keyName_of {s k : Str} (h : Str.join (py"_") ((Str.wordsAux (fun c => !isAlnum c) [] s).map Str.lower) = k) : KeyName s k :=
  ⟨_, words_wordsAux isAlnum s, h.symm⟩

def exTimes : List Str :=
  [py"Initialisation time =      1.07 s\n", py"Total time          =    136.11 s\n", py"Peak Memory Use     = 149108 kB\n", py"\n"]

theorem exTimes_lines : Interleaved Blank (fun l r => NamedLine l r.1 r.2) exTimes
    [(py"initialisation_time", exDec (py"1") (py"07")), (py"total_time", exDec (py"136") (py"11")), (py"peak_memory_use", exInt (py"149108"))] :=
  .row ⟨py"Initialisation time ", py"      1.07 s\n", [], by decide +kernel, by decide +kernel, by decide +kernel, keyName_of (by decide +kernel),
      hasNumbers_of (holds_of _ (py"      ") [(exDec (py"1") (py"07"), py" s\n")] (by decide +kernel) (by decide +kernel)) (by simp), by simp⟩
  (.row ⟨py"Total time          ", py"    136.11 s\n", [], by decide +kernel, by decide +kernel, by decide +kernel, keyName_of (by decide +kernel),
      hasNumbers_of (holds_of _ (py"    ") [(exDec (py"136") (py"11"), py" s\n")] (by decide +kernel) (by decide +kernel)) (by simp), by simp⟩
  (.row ⟨py"Peak Memory Use     ", py" 149108 kB\n", [], by decide +kernel, by decide +kernel, by decide +kernel, keyName_of (by decide +kernel),
      hasNumbers_of (holds_of _ (py" ") [(exInt (py"149108"), py" kB\n")] (by decide +kernel) (by decide +kernel)) (by simp), by simp⟩
  (.skip (by decide +kernel) .nil)))

example : ∃ fl : Numeral → F64, ∃ d, Reads fl [exDec (py"1") (py"07"), exDec (py"136") (py"11"), exInt (py"149108")] ∧ process_finalisation exTimes = .ok d ∧
    LastWins [(Key.str (py"initialisation_time"), .float (fl (exDec (py"1") (py"07")))), (Key.str (py"total_time"), .float (fl (exDec (py"136") (py"11")))),
      (Key.str (py"peak_memory_use"), .float (fl (exInt (py"149108"))))] d :=
  C79_finalisation _ _ exTimes_lines (by decide +kernel)

example : process_finalisation (exTimes ++ py"Calculation parallelised over 4 processes\n" :: [py"\n"]) = .error .valueError :=
  C79_rejects _ _ _ _ exTimes_lines (by decide +kernel) (by intro h; exact absurd (h (c!"C") (by decide)) (by decide)) (by decide +kernel)

example : LastWins [(Key.str (py"a"), .int 1), (Key.str (py"b"), .int 2), (Key.str (py"a"), .int 3)] [(Key.str (py"a"), .int 3), (Key.str (py"b"), .int 2)] := by
  decide +kernel

example : ∃ rd : Numeral → F64, ∃ d, Reads rd [exDec (py"0") (py"018"), neg (py"0") (py"166")] ∧
    process_autosolvation [py" ----------------------------------\n", py" Free energy of solvation         =         0.018 eV\n", py"\n",
      py"  (Apolar dis-rep energy          =        -0.166 eV)\n"] = .ok (.dict d) ∧
    LastWins [(Key.str (py"free_energy_of_solvation"), .float (rd (exDec (py"0") (py"018")))), (Key.str (py"apolar_dis_rep_energy"), .float (rd (neg (py"0") (py"166"))))] d :=
  C79_solvation _ [(py"free_energy_of_solvation", _), (py"apolar_dis_rep_energy", _)]
    (.skip (by decide +kernel) (.row ⟨py" Free energy of solvation         ", py"         0.018 eV\n", [], by decide +kernel, by decide +kernel, keyName_of (by decide +kernel),
      hasNumbers_of (holds_of _ (py" Free energy of solvation         =         ") [(exDec (py"0") (py"018"), py" eV\n")] (by decide +kernel) (by decide +kernel)) (by simp), by simp⟩
    (.skip (by decide +kernel) (.row ⟨py"  (Apolar dis-rep energy          ", py"        -0.166 eV)\n", [], by decide +kernel, by decide +kernel, keyName_of (by decide +kernel),
      hasNumbers_of (holds_of _ (py"  (Apolar dis-rep energy          =        ") [(neg (py"0") (py"166"), py" eV)\n")] (by decide +kernel) (by decide +kernel)) (by simp), by simp⟩ .nil))))
    (by decide +kernel)

theorem exShell : NamedLine (py"Shell 1 energy = 5 eV\n") (py"shell_1_energy") (exInt (py"5")) :=
  ⟨py"Shell 1 energy ", py" 5 eV\n", [], by decide +kernel, by decide +kernel, by decide +kernel, keyName_of (by decide +kernel),
    hasNumbers_of (holds_of _ (py" ") [(exInt (py"5"), py" eV\n")] (by decide +kernel) (by decide +kernel)) (by simp), by simp⟩

/-- C79 does not hold for solvation energies whose names have numbers in them: the number taken is that of the name. -/
theorem C79_solvation_name_false : ¬ ∀ (lines : List Str) (rows : List (Str × Numeral)),
    Interleaved (fun l => c!"=" ∉ l) (fun l r => NamedLine l r.1 r.2) lines rows → (∀ r ∈ rows, r.2.Valid ∧ r.2.InRange) →
    ∃ rd : Numeral → F64, ∃ d, Reads rd (rows.map Prod.snd) ∧ process_autosolvation lines = .ok (.dict d) ∧
      LastWins (rows.map fun r => (Key.str r.1, .float (rd r.2))) d := by
  intro h
  obtain ⟨rd, d, h1, h2, h3⟩ := h [_] [(py"shell_1_energy", exInt (py"5"))] (.row exShell .nil) (by decide +kernel)
  obtain ⟨rd', d', h1', h2', h3'⟩ := C79_solvation [_] [(py"shell_1_energy", exInt (py"1"))]
    (.row ⟨py"Shell 1 energy ", py" 5 eV\n", [exInt (py"5")], rfl, by decide +kernel, keyName_of (by decide +kernel),
      hasNumbers_of (holds_of _ (py"Shell ") [(exInt (py"1"), py" energy = "), (exInt (py"5"), py" eV\n")] (by decide +kernel) (by decide +kernel)) (by simp), by decide +kernel⟩ .nil)
    (by decide +kernel)
  have e : d = d' := by
    have := h2.symm.trans h2'
    simpa using this
  subst e
  have e := LineTab.lastWins_unique h3 (LineTab.lastWins _)
  rw [e] at h3'
  have e' := LineTab.lastWins_unique h3' (LineTab.lastWins _)
  have e2 : rd (exInt (py"5")) = rd' (exInt (py"1")) := by
    rw [Dict.ofList_nodup _ (by simp), Dict.ofList_nodup _ (by simp)] at e'
    simpa using e'
  have q1 := h1 (exInt (py"5")) (by simp)
  have q2 := h1' (exInt (py"1")) (by simp)
  rw [e2] at q1
  have v1 : (exInt (py"5")).value = (if false then -1 else 1) * ((5 : ℕ) : ℚ) := by
    norm_num [exInt, Numeral.value, Numeral.sgn, Numeral.nat, Numeral.expVal]
    exact if_neg (by intro h; cases h)
  have v2 : (exInt (py"1")).value = (if false then -1 else 1) * ((1 : ℕ) : ℚ) := by
    norm_num [exInt, Numeral.value, Numeral.sgn, Numeral.nat, Numeral.expVal]
    exact if_neg (by intro h; cases h)
  rw [v1] at q1
  rw [v2] at q2
  have q3 := nearest_int _ 5 (by decide) false q1
  have q4 := nearest_int _ 1 (by decide) false q2
  rw [q3] at q4
  norm_num at q4

def exOcc : List Str :=
  [py"|  Band  |   Eigenvalue      |    Occupancy   |                   <- occ\n",
   py"+--------+-------------------+----------------+                   <- occ\n",
   py"|     1  |   -10.38    |   1.00000      |                   <- occ\n"]

theorem exOcc_lines : Interleaved NoDigit OccRow.Line exOcc [⟨exInt (py"1"), neg (py"10") (py"38"), exDec (py"1") (py"00000")⟩] :=
  .skip (by decide +kernel) (.skip (by decide +kernel) (.row
    (hasNumbers_of (holds_of _ (py"|     ") [(exInt (py"1"), py"  |   "), (neg (py"10") (py"38"), py"    |   "), (exDec (py"1") (py"00000"), py"      |                   <- occ\n")]
      (by decide +kernel) (by decide +kernel)) (by simp)) .nil))

example : ∃ rd : Numeral → F64, (∀ r ∈ [(⟨exInt (py"1"), neg (py"10") (py"38"), exDec (py"1") (py"00000")⟩ : OccRow)], Reads rd [r.eigenvalue, r.occupancy]) ∧
    process_occupancies exOcc = .ok (.list [.dict [(.str (py"band"), .int 1), (.str (py"eigenvalue"), .float (rd (neg (py"10") (py"38")))),
      (.str (py"occupancy"), .float (rd (exDec (py"1") (py"00000"))))]]) :=
  C80_occupancies _ _ exOcc_lines (by decide +kernel)

example : process_occupancies (exOcc ++ py" 2 bands\n" :: []) = .error .valueError :=
  C80_rejects _ _ _ [exInt (py"2")] _ exOcc_lines (by decide +kernel)
    (hasNumbers_of (holds_of _ (py" ") [(exInt (py"2"), py" bands\n")] (by decide +kernel) (by decide +kernel)) (by simp)) (by decide +kernel) (by simp) (by simp)

def exLineMin : List LineMin :=
  [.initial (neg (py"1031") (py"5")) (neg (py"0") (py"2")), .steps [exDec (py"1") (py"500"), exDec (py"1") (py"276")], .gain [exDec (py"0") (py"14"), exDec (py"0") (py"15")]]

def exLineMinLines : List Str :=
  [py"| Initial energy = -1031.5 eV; initial dE/dstep = -0.2 eV |<- line\n",
   py"|            1st step    2nd step    3rd step   |<- line\n",
   py"| step   |  1.500   1.276* unnecessary |<- line\n",
   py"| gain   |  0.14   0.15* unnecessary |<- line\n"]

theorem not_begins {w l : Str} {a b : Nat} {v : Str} (hw : w = a :: v) (ha : isSpace a = false) (hb : w.getLast? = some b) (hb' : isSpace b = false)
    (h : Str.startsWith (Str.strip l) w = false) : ¬ BeginsWith w l := by
  rintro ⟨g, s, e, hg⟩
  rw [(startsWith_strip w l a b v hw ha hb hb').2 ⟨g, s, by rw [e, List.append_assoc], hg⟩] at h
  cases h

example : ∃ rd : Numeral → F64, ∃ d, (∀ x ∈ exLineMin, Reads rd x.nums) ∧ process_wvfn_line_min exLineMinLines = .ok (.dict d) ∧
    LastWins (exLineMin.flatMap (LineMin.entries rd)) d :=
  C80_line_min _ _
    (.row ⟨hasNumbers_of (holds_of _ (py"| Initial energy = ") [(neg (py"1031") (py"5"), py" eV; initial dE/dstep = "), (neg (py"0") (py"2"), py" eV |<- line\n")]
        (by decide +kernel) (by decide +kernel)) (by simp [LineMin.nums]), (Str.contains_iff _ _).1 (by decide +kernel)⟩
    (.skip ⟨not_occurs _ _ (by decide +kernel), not_begins rfl (by decide) rfl (by decide) (by decide +kernel), not_begins rfl (by decide) rfl (by decide) (by decide +kernel)⟩
    (.row ⟨hasNumbers_of (holds_of _ (py"| step   |  ") [(exDec (py"1") (py"500"), py"   "), (exDec (py"1") (py"276"), py"* unnecessary |<- line\n")]
        (by decide +kernel) (by decide +kernel)) (by simp [LineMin.nums]), not_occurs _ _ (by decide +kernel), ⟨[], py"   |  1.500   1.276* unnecessary |<- line\n", by decide +kernel, by decide +kernel⟩⟩
    (.row ⟨hasNumbers_of (holds_of _ (py"| gain   |  ") [(exDec (py"0") (py"14"), py"   "), (exDec (py"0") (py"15"), py"* unnecessary |<- line\n")]
        (by decide +kernel) (by decide +kernel)) (by simp [LineMin.nums]), not_occurs _ _ (by decide +kernel), ⟨[], py"   |  0.14   0.15* unnecessary |<- line\n", by decide +kernel, by decide +kernel⟩⟩ .nil))))
    (by decide +kernel)

def exDipole : List Dipole :=
  [.total (py"ionic") (exDec (py"8") (py"0000")), .centre true [exDec (py"3") (py"08"), exDec (py"3") (py"09"), exDec (py"3") (py"10")],
   .magnitude (exDec (py"2") (py"66")), .direction [exDec (py"0") (py"57"), exDec (py"0") (py"58"), exDec (py"0") (py"59")]]

def exDipoleLines : List Str :=
  [py"  +      WARNING: only correct for isolated molecules                 +\n",
   py"  +    Total  ionic  charge in supercell:       8.0000 electrons      +\n",
   py"  +   Centre of electronic charge for system:                         +\n",
   py"  +        3.08      3.09      3.10       ANG                   +\n",
   py"  +  Magnitude of Dipole =   2.66  DEBYE                           +\n",
   py"  +  Direction of Dipole =     0.57    0.58    0.59       +\n"]

example : ∃ rd fl : Numeral → F64, ∃ d, (∀ x ∈ exDipole, Reads rd x.nums ∧ Reads fl x.nums) ∧ process_dipole exDipoleLines = .ok (.dict d) ∧
    LastWins (exDipole.map (Dipole.entry rd fl)) d :=
  C80_dipole _ _
    (.skip ⟨not_occurs _ _ (by decide +kernel), not_occurs _ _ (by decide +kernel), not_occurs _ _ (by decide +kernel), not_occurs _ _ (by decide +kernel)⟩
    (.row (a := [_]) ⟨_, py"  +    ", py"  ", py"  charge in supercell:       8.0000 electrons      +\n", [], rfl, by decide +kernel, by decide +kernel, by decide +kernel,
        by decide, by decide +kernel, (by intro c hc; cases hc; decide),
        hasNumbers_of (holds_of _ (py"  +    Total  ionic  charge in supercell:       ") [(exDec (py"8") (py"0000"), py" electrons      +\n")] (by decide +kernel) (by decide +kernel)) (by simp), by simp⟩
    (.row (a := [_, _]) ⟨_, _, rfl, not_occurs _ _ (by decide +kernel), (Str.contains_iff _ _).1 (by decide +kernel), ⟨fun _ => (Str.contains_iff _ _).1 (by decide +kernel), fun _ => rfl⟩,
        hasNumbers_of (holds_of _ (py"  +        ") [(exDec (py"3") (py"08"), py"      "), (exDec (py"3") (py"09"), py"      "), (exDec (py"3") (py"10"), py"       ANG                   +\n")]
          (by decide +kernel) (by decide +kernel)) (by simp)⟩
    (.row (a := [_]) ⟨_, [], rfl, not_occurs _ _ (by decide +kernel), not_occurs _ _ (by decide +kernel), (Str.contains_iff _ _).1 (by decide +kernel),
        hasNumbers_of (holds_of _ (py"  +  Magnitude of Dipole =   ") [(exDec (py"2") (py"66"), py"  DEBYE                           +\n")] (by decide +kernel) (by decide +kernel)) (by simp), by simp⟩
    (.row (a := [_]) ⟨_, rfl, not_occurs _ _ (by decide +kernel), not_occurs _ _ (by decide +kernel), not_occurs _ _ (by decide +kernel), (Str.contains_iff _ _).1 (by decide +kernel),
        hasNumbers_of (holds_of _ (py"  +  Direction of Dipole =     ") [(exDec (py"0") (py"57"), py"    "), (exDec (py"0") (py"58"), py"    "), (exDec (py"0") (py"59"), py"       +\n")]
          (by decide +kernel) (by decide +kernel)) (by simp)⟩ .nil)))))
    (by decide +kernel)

end Verif.Props

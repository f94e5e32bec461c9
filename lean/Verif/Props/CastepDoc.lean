import Verif.Lemmas.CastepWhole
import Verif.Props.AtomVec
import Verif.Props.BandTable
import Verif.Props.AtomTables
/-
C82, C83: a whole `.castep` file.
-/
namespace Verif.Props
open Verif Verif.Spec Verif.Castep

theorem content_nums {c : Content} (h : c.Ok) : ∀ n ∈ c.nums, n.Valid ∧ n.InRange := by
  have vecs : ∀ rows : List AtomVec, (∀ a ∈ rows, a.Ok) → ∀ n ∈ rows.flatMap (fun a => [a.x, a.y, a.z]), n.Valid ∧ n.InRange := by
    intro rows hr n hn
    obtain ⟨a, ha, hn⟩ := List.mem_flatMap.1 hn
    exact (hr a ha).2.2.2 n hn
  cases c with
  | energy k n => intro m hm; obtain rfl := List.mem_singleton.1 hm; exact h
  | positions rows => exact vecs rows h.1
  | velocities rows => exact vecs rows h.1
  | forces _ rows => exact vecs rows h.1
  | spins rows =>
    intro n hn
    obtain ⟨a, ha, hn⟩ := List.mem_flatMap.1 hn
    exact (h.1 a ha).2.2.2.2 n hn
  | born rows =>
    intro n hn
    obtain ⟨r, hr, hn⟩ := List.mem_flatMap.1 hn
    simp only [List.mem_append] at hn
    rcases hn with (hn | hn) | hn
    · exact (h.1 r hr).1.2.2.2.2 n hn
    · exact (h.1 r hr).2.2.1.2 n hn
    · exact (h.1 r hr).2.2.2.1.2 n hn
  | bands points =>
    intro n hn
    obtain ⟨b, hb, hn⟩ := List.mem_flatMap.1 hn
    rcases List.mem_append.1 hn with hn | hn
    · exact (h b hb).2.1.2 n hn
    · obtain ⟨r, hr, rfl⟩ := List.mem_map.1 hn
      exact ((h b hb).2.2 r hr).2.2
  | cell items =>
    intro n hn
    obtain ⟨i, hi, hn⟩ := List.mem_flatMap.1 hn
    exact h i hi n hn
  | scf pre cycles =>
    intro n hn
    rcases List.mem_append.1 hn with hn | hn
    · obtain ⟨i, hi, hn⟩ := List.mem_flatMap.1 hn
      exact (h.1 i hi).1.1 n hn
    · obtain ⟨c, hc, hn⟩ := List.mem_flatMap.1 hn
      rcases List.mem_append.1 hn with hn | hn
      · exact (h.2.2 c hc).1.2 n hn
      · obtain ⟨i, hi, hn⟩ := List.mem_flatMap.1 hn
        exact ((h.2.2 c hc).2.2.1 i hi).1 n hn
  | stresses => exact h
  | mulliken rows =>
    intro n hn
    obtain ⟨r, hr, hn⟩ := List.mem_flatMap.1 hn
    rcases List.mem_append.1 hn with hn | hn
    · exact (h.1 r hr).2.2.2.2.1 n hn
    · obtain ⟨d, hd, hn⟩ := List.mem_flatten.1 hn
      exact ((h.1 r hr).2.2.2.2.2 d (Option.mem_toList.1 hd)).2 n hn
  | hirshfeld rows =>
    intro n hn
    obtain ⟨r, hr, hn⟩ := List.mem_flatMap.1 hn
    exact (h.1 r hr).1.2.2.2.2 n hn
  | orbitals rows x ns =>
    intro n hn
    rcases List.mem_append.1 hn with hn | hn
    · obtain ⟨r, hr, hn⟩ := List.mem_flatMap.1 hn
      exact (h.1 r hr).1.2.2.2.2 n hn
    · rcases List.mem_cons.1 hn with rfl | hn
      · exact h.2.1
      · exact h.2.2 n hn
  | bonds rows =>
    intro n hn
    obtain ⟨r, hr, hn⟩ := List.mem_flatMap.1 hn
    exact (h.1 r hr).2.2.2.2.2.2.2.2 n hn
  | displacements rows =>
    intro n hn
    obtain ⟨r, hr, hn⟩ := List.mem_flatMap.1 hn
    exact (h r hr).1.2.2.2.2 n hn
  | thermo z rows =>
    intro n hn
    rcases List.mem_cons.1 hn with rfl | hn
    · exact h.1
    · obtain ⟨r, hr, hn⟩ := List.mem_flatten.1 hn
      exact (h.2 r hr).2 n hn
  | md rows =>
    intro n hn
    obtain ⟨r, hr, rfl⟩ := List.mem_map.1 hn
    exact (h.1 r hr).1
  | memory rows =>
    intro n hn
    obtain ⟨r, hr, hn⟩ := List.mem_flatMap.1 hn
    exact h.1 r hr n hn
  | geomTable rows =>
    intro n hn
    obtain ⟨r, hr, hn⟩ := List.mem_flatMap.1 hn
    exact h.1 r hr n hn
  | enthalpy n => intro m hm; obtain rfl := List.mem_singleton.1 hm; exact h
  | trial n => intro m hm; obtain rfl := List.mem_singleton.1 hm; exact h.1

/-- The numbers of a section are read as the closest floats. -/
def ReadsAll (rd fl : Numeral → F64) (cs : List Content) : Prop := ∀ c ∈ cs, Reads rd c.nums ∧ Reads fl c.nums

/-- C83: a file of several runs.  Every run starts with what the program says about itself; before the first of these there may be
the rest of a run.  What is returned is, run by run and in the order of the file, what the sections of each run say, for those that
are wanted, whatever other text there is between them: every energy, every table of forces and of stresses of each kind, every
electronic minimisation, table of Born charges, estimate of memory, and table, enthalpy and trial step of a geometry optimisation,
and of the others the last.  A run of which nothing is wanted is left out.  Nothing of one
run gets into another. -/
theorem C83 (order : List Str → List Str) (ops : Ops F64) (F : Filters) (head lines : List Str) (cs : List Content) (rs : List (Build × List Content))
    (hd : Doc Content.Lines head cs) (h : Runs Content.Lines lines rs) (hc : Sound cs) (hr : ∀ r ∈ rs, Sound r.2) :
    ∃ rd fl : Numeral → F64, ReadsAll rd fl cs ∧ (∀ r ∈ rs, ReadsAll rd fl r.2) ∧
      parse_castep_file order ops F (head ++ lines) = .ok (results (docEntries rd fl F cs :: rs.map (bannerEntries rd fl F))) := by
  obtain ⟨rd, fl, hrd⟩ := readings
  have ok : ∀ cs : List Content, (∀ c ∈ cs, c.Ok) → ReadsAll rd fl cs := fun cs hok c hc =>
    ⟨fun n hn => (hrd n (content_nums (hok c hc) n hn).1 (content_nums (hok c hc) n hn).2).1.2,
     fun n hn => (hrd n (content_nums (hok c hc) n hn).1 (content_nums (hok c hc) n hn).2).2.2⟩
  exact ⟨rd, fl, ok _ hc.1, fun r hm => ok _ (hr r hm).1,
    parse_contents (fun n h1 h2 => (hrd n h1 h2).1.1) (fun n h1 h2 => (hrd n h1 h2).2.1) hd h hc hr order ops F⟩

/-- C82: a file of one run without a banner: what is returned is what its sections say, for those that are wanted, whatever other
text there is between them; nothing if there is none. -/
theorem C82 (order : List Str → List Str) (ops : Ops F64) (F : Filters) (lines : List Str) (cs : List Content) (h : Doc Content.Lines lines cs) (hok : Sound cs) :
    ∃ rd fl : Numeral → F64, ReadsAll rd fl cs ∧
      parse_castep_file order ops F lines =
        .ok (if cs.filter (·.wanted F) = [] then [] else [runOf true (docEntries rd fl F cs)]) := by
  obtain ⟨rd, fl, h1, -, h2⟩ := C83 order ops F lines [] cs [] h .nil hok (by simp)
  refine ⟨rd, fl, h1, ?_⟩
  rw [List.append_nil] at h2
  rw [h2]
  refine congrArg Except.ok ?_
  by_cases hw : cs.filter (·.wanted F) = []
  · rw [if_pos hw, List.map_nil, docEntries, hw]; rfl
  · rw [if_neg hw, List.map_nil]
    have : (docEntries rd fl F cs).isEmpty = false := by
      obtain ⟨c, hc⟩ := List.exists_mem_of_ne_nil _ hw
      exact docEntries_ne hok.1 ⟨c, (List.mem_filter.1 hc).1, (List.mem_filter.1 hc).2⟩
    simp [results, this]

/-- C82: a line with none of the phrases the parser looks for is skipped, whatever follows. -/
theorem C82_quiet (order : List Str → List Str) (ops : Ops F64) (F : Filters) (l : Str) (rest : List Str) (h : Quiet l) :
    parse_castep_file order ops F (l :: rest) = parse_castep_file order ops F rest := by
  rw [parse_eq, parse_eq, go_cons, dispatch_quiet h]

/-! ### Examples -/

def withoutB (l : Str) (t : Str × Bool × List Str) : Bool :=
  (t.2.2.all fun w => !Str.contains w (if t.2.1 then Str.lower l else l)) || (decide (t.1 ∈ BOXED) && (l.dropWhile isSpace).head? != some (c!"*"))

theorem without_of {l : Str} {t : Str × Bool × List Str} (h : withoutB l t = true) : Without l t := by
  simp only [withoutB, Bool.or_eq_true, Bool.and_eq_true, decide_eq_true_eq, bne_iff_ne] at h
  rcases h with h | ⟨h, h'⟩
  · exact .inl fun w hw => not_occurs _ _ (by simpa using List.all_eq_true.1 h w hw)
  · refine .inr ⟨h, ?_⟩
    rintro ⟨g, s, rfl, hg⟩
    have e : (g ++ c!"*" :: s).dropWhile isSpace = c!"*" :: s := by
      rw [List.dropWhile_append_of_pos (by simpa [Blank] using hg), List.dropWhile_cons, if_neg (by decide)]
    rw [e] at h'
    exact h' rfl

theorem quiet_of {l : Str} (h : TRIGGERS.all (withoutB l) = true) : Quiet l := fun t ht => without_of (List.all_eq_true.1 h t ht)

theorem reaches_of {name l : Str} (h : (TRIGGERS.takeWhile (·.1 ≠ name)).all (withoutB l) = true) : Reaches name l :=
  fun t ht => without_of (List.all_eq_true.1 h t ht)

theorem not_ruled_of {c : Nat} {l : Str} (h : (l.any fun d => !(isSpace d || d == c)) = true) : ¬ Ruled c l := by
  rintro ⟨g, s, g', rfl, hg, hg', -, hs⟩
  obtain ⟨d, hd, h⟩ := List.any_eq_true.1 h
  have h' : isSpace d = true ∨ d = c := by
    rcases List.mem_append.1 hd with hd | hd
    · exact .inl (hg d hd)
    · exact (List.mem_append.1 hd).elim (fun hd => .inr (hs d hd)) fun hd => .inl (hg' d hd)
  rcases h' with h' | h' <;> simp [h'] at h

def ruledB (c : Nat) (l : Str) : Bool :=
  let t := l.dropWhile isSpace
  t.head? == some c && (t.dropWhile (· == c)).all isSpace

theorem not_ruledB {c : Nat} {l : Str} (hc : isSpace c = false) (h : ruledB c l = false) : ¬ Ruled c l := by
  rintro ⟨g, s, g', rfl, hg, hg', hs, h1⟩
  rw [Bool.eq_false_iff] at h
  obtain ⟨d, s, rfl⟩ := List.exists_cons_of_ne_nil hs
  obtain rfl := h1 d (by simp)
  refine h ?_
  have e : (g ++ (d :: s ++ g')).dropWhile isSpace = d :: s ++ g' := by
    rw [List.dropWhile_append_of_pos (by simpa [Blank] using hg), List.cons_append, List.dropWhile_cons, if_neg (by simp [hc])]
  have e2 : (d :: s ++ g').dropWhile (· == d) = g'.dropWhile (· == d) :=
    List.dropWhile_append_of_pos (fun x hx => by simpa using h1 x hx)
  rw [ruledB, e]
  rw [e2, Bool.and_eq_true]
  exact ⟨by simp, List.all_eq_true.2 fun x hx => hg' x ((List.dropWhile_suffix _).mem hx)⟩

def exDocE1 : Str := py"Final energy, E             =  -855.4591     eV\n"
def exDocE2 : Str := py"Final energy, E             =  -855.25     eV\n"
def exPosBlock : List Str := exPosLines ++ [py"            xxxxxxxxxxxxxxxxxxxxxxxxxxxx\n"]
def exForceBlock : List Str := py" ****** Constrained  Symmetrised Forces *******\n" :: py" *                                             *\n" :: (exForceLines ++ [py" **************\n"])

theorem exFinal_lines : (Content.energy .final (neg (py"855") (py"4591"))).Lines [exDocE1] :=
  ⟨exDocE1, [], rfl, reaches_of (by decide +kernel), ⟨py", E             =  -855.4591     eV\n", by decide +kernel⟩,
    hasNumbers_of (holds_of _ (py"Final energy, E             =  ") [(neg (py"855") (py"4591"), py"     eV\n")] (by decide +kernel) (by decide +kernel)) (by simp),
    by simp⟩

theorem exFinal2_lines : (Content.energy .final (neg (py"855") (py"25"))).Lines [exDocE2] :=
  ⟨exDocE2, [], rfl, reaches_of (by decide +kernel), ⟨py", E             =  -855.25     eV\n", by decide +kernel⟩,
    hasNumbers_of (holds_of _ (py"Final energy, E             =  ") [(neg (py"855") (py"25"), py"     eV\n")] (by decide +kernel) (by decide +kernel)) (by simp),
    by simp⟩

theorem exZero_lines : (Content.energy .zeroK (neg (py"855") (py"46"))).Lines [py"NB est. 0K energy (E-0.5TS)      =  -855.46     eV\n"] :=
  ⟨_, [exInt (py"0"), neg (py"0") (py"5")], rfl, reaches_of (by decide +kernel), ⟨py"NB est. ", py"      =  -855.46     eV\n", by decide +kernel⟩,
    hasNumbers_of (holds_of _ (py"NB est. ") [(exInt (py"0"), py"K energy (E"), (neg (py"0") (py"5"), py"TS)      =  "), (neg (py"855") (py"46"), py"     eV\n")]
      (by decide +kernel) (by decide +kernel)) (by simp), by decide +kernel⟩

theorem interleaved_snoc {ignore : Str → Prop} {Row : Str → α → Prop} {ls : List Str} {xs : List α} (h : Interleaved ignore Row ls xs) {l : Str} (hl : ignore l) :
    Interleaved ignore Row (ls ++ [l]) xs := by
  induction h with
  | nil => exact .skip hl .nil
  | skip h _ ih => exact .skip h ih
  | row h _ ih => exact .row h ih

theorem exPosBlock_lines : (Content.positions [exSi1, exFe2]).Lines exPosBlock :=
  ⟨_, _, rfl, reaches_of (by decide +kernel), ⟨py"            x  Element    Atom        ", py"  x\n", by decide +kernel⟩,
    .other (not_ruled_of (by decide +kernel)) (.other (not_ruled_of (by decide +kernel)) (.last
      ⟨py"            ", py"xxxxxxxxxxxxxxxxxxxxxxxxxxxx", [10], by decide +kernel, by decide +kernel, by decide, by decide +kernel, .inr rfl⟩)),
    interleaved_snoc exPos_lines (by decide +kernel)⟩

theorem exForceBlock_lines : (Content.forces [py"Constrained", py"Symmetrised"] [exSi1, exFe2]).Lines exForceBlock :=
  ⟨_, _, _, rfl, reaches_of (by decide +kernel), exForce_title, (fields_iff _ _).2 (by decide +kernel),
    .other (not_ruledB (by decide) (by decide +kernel)) (.other (not_ruled_of (by decide +kernel)) (.other (not_ruled_of (by decide +kernel)) (.other (not_ruled_of (by decide +kernel)) (.last
      ⟨py" ", py"**************", [10], by decide +kernel, by decide +kernel, by decide, by decide +kernel, .inr rfl⟩)))),
    .skip (by decide +kernel) (interleaved_snoc exForce_lines (by decide +kernel))⟩

def exDocLines : List Str :=
  py" |      CCC   AA    SSS  TTTTT  EEEEE  PPPP        |\n" :: (exPosBlock ++ (py"\n" :: ([exDocE1] ++ (exForceBlock ++
    (py"Calculation proceeds\n" :: ([exDocE2] ++ ([py"NB est. 0K energy (E-0.5TS)      =  -855.46     eV\n"] ++ [])))))))

def exDocContents : List Content :=
  [.positions [exSi1, exFe2], .energy .final (neg (py"855") (py"4591")), .forces [py"Constrained", py"Symmetrised"] [exSi1, exFe2],
   .energy .final (neg (py"855") (py"25")), .energy .zeroK (neg (py"855") (py"46"))]

theorem exDoc : Doc Content.Lines exDocLines exDocContents :=
  .text (quiet_of (by decide +kernel)) (.part exPosBlock_lines (.text (quiet_of (by decide +kernel)) (.part exFinal_lines (.part exForceBlock_lines
    (.text (quiet_of (by decide +kernel)) (.part exFinal2_lines (.part exZero_lines .nil)))))))

theorem exDoc_ok : Sound exDocContents := by
  refine ⟨fun c hc => ?_, .inl (by decide +kernel)⟩
  simp only [exDocContents, List.mem_cons, List.not_mem_nil, or_false] at hc
  rcases hc with rfl | rfl | rfl | rfl | rfl
  · exact ⟨exVec_ok, exVec_keys⟩
  · exact (by decide +kernel : (neg (py"855") (py"4591")).Valid ∧ (neg (py"855") (py"4591")).InRange)
  · exact ⟨exVec_ok, exVec_keys⟩
  · exact (by decide +kernel : (neg (py"855") (py"25")).Valid ∧ (neg (py"855") (py"25")).InRange)
  · exact (by decide +kernel : (neg (py"855") (py"46")).Valid ∧ (neg (py"855") (py"46")).InRange)

/-- With everything asked for, and without the forces. -/
example (order : List Str → List Str) (ops : Ops F64) : ∃ rd fl : Numeral → F64, ReadsAll rd fl exDocContents ∧
    parse_castep_file order ops Filters.FULL exDocLines = .ok [[
      (.str (py"initial_positions"), .dict ([exSi1, exFe2].map (AtomVec.entry rd))),
      (.str (py"energies"), .dict [
        (.str (py"final_energy"), .tuple [.float (rd (neg (py"855") (py"4591"))), .float (rd (neg (py"855") (py"25")))]),
        (.str (py"est_0K"), .tuple [.float (rd (neg (py"855") (py"46")))])]),
      (.str (py"forces"), .dict [(.str (py"constrained_symmetrised"), .list [.dict ([exSi1, exFe2].map (AtomVec.entry rd))])])]] := by
  obtain ⟨rd, fl, h1, h2⟩ := C82 order ops Filters.FULL _ _ exDoc exDoc_ok
  exact ⟨rd, fl, h1, by rw [h2]; rfl⟩

example (order : List Str → List Str) (ops : Ops F64) : ∃ rd fl : Numeral → F64, ReadsAll rd fl exDocContents ∧
    parse_castep_file order ops 0 exDocLines = .ok [[
      (.str (py"energies"), .dict [
        (.str (py"final_energy"), .tuple [.float (rd (neg (py"855") (py"4591"))), .float (rd (neg (py"855") (py"25")))]),
        (.str (py"est_0K"), .tuple [.float (rd (neg (py"855") (py"46")))])])]] := by
  obtain ⟨rd, fl, h1, h2⟩ := C82 order ops 0 _ _ exDoc exDoc_ok
  exact ⟨rd, fl, h1, by rw [h2]; rfl⟩

example (order : List Str → List Str) (ops : Ops F64) (rest : List Str) : parse_castep_file order ops Filters.FULL (py"Calculation proceeds\n" :: rest) =
    parse_castep_file order ops Filters.FULL rest := C82_quiet _ _ _ _ _ (quiet_of (by decide +kernel))

end Verif.Props

import Verif.Props.CastepFiles
/-
C84: molecular dynamics in a `.castep` file.
-/
namespace Verif.Props
open Verif Verif.Spec Verif.Castep

theorem item_nums {i : Item} (h : i.Ok) : ∀ n ∈ i.nums, n.Valid ∧ n.InRange := by
  cases i with
  | part c => exact content_nums h
  | step _ cs =>
    intro n hn
    obtain ⟨c, hc, hn⟩ := List.mem_flatMap.1 hn
    exact content_nums (h.1.1.1 c hc) n hn
  | iter cs =>
    intro n hn
    obtain ⟨c, hc, hn⟩ := List.mem_flatMap.1 hn
    exact content_nums (h.1.1 c hc) n hn

/-- The numbers of sections and steps are read as the closest floats. -/
def ReadsItems (rd fl : Numeral → F64) (is : List Item) : Prop := ∀ i ∈ is, Reads rd i.nums ∧ Reads fl i.nums

/-- C84: runs with steps of molecular dynamics.  Every step is put under `md`, in the order of the file, with everything its sections
say and nothing of what is said outside of it; its cell and positions are not called initial ones.  What is said outside of steps
is as if there were no steps.  What is wanted of a step is always what is wanted if no filters are given. -/
theorem C84 (order : List Str → List Str) (ops : Ops F64) (F : Filters) (head lines : List Str) (is : List Item) (rs : List (Build × List Item))
    (hd : Doc Item.Lines head is) (h : Runs Item.Lines lines rs) (hc : SoundItems is) (hr : ∀ r ∈ rs, SoundItems r.2) :
    ∃ rd fl : Numeral → F64, ReadsItems rd fl is ∧ (∀ r ∈ rs, ReadsItems rd fl r.2) ∧
      parse_castep_file order ops F (head ++ lines) = .ok (results (is.foldl (Item.after rd fl F) [] ::
        rs.map fun r => r.2.foldl (Item.after rd fl F) (bannerEntry F r.1))) := by
  obtain ⟨rd, fl, hrd⟩ := readings
  have ok : ∀ is : List Item, (∀ i ∈ is, i.Ok) → ReadsItems rd fl is := fun is hok i hi =>
    ⟨fun n hn => (hrd n (item_nums (hok i hi) n hn).1 (item_nums (hok i hi) n hn).2).1.2,
     fun n hn => (hrd n (item_nums (hok i hi) n hn).1 (item_nums (hok i hi) n hn).2).2.2⟩
  exact ⟨rd, fl, ok _ hc.1, fun r hm => ok _ (hr r hm).1,
    parse_items (fun n h1 h2 => (hrd n h1 h2).1.1) (fun n h1 h2 => (hrd n h1 h2).2.1) hd h hc hr order ops F⟩

/-- C84: without `MD` among what is wanted, nothing is said of steps; the table of molecular dynamics, outside of them, is wanted with
`MD_SUMMARY`, too. -/
theorem C84_unwanted (rd fl : Numeral → F64) (F : Filters) (h : Filters.has Filters.MD F = false) (es : List (Key × (Key × PyVal))) (first : Bool) (cs : List Content) :
    (Item.step first cs).after rd fl F es = es := by rw [Item.after, if_neg (by simp [h])]

/-- C84: the table of a step: every quantity with a name of letters is there under that name, in the order of the table. -/
theorem C84_table (lines : List Str) (rows : List (Str × Numeral)) (h : Interleaved MdOther MdLine lines rows)
    (hok : ∀ r ∈ rows, (r.2.Valid ∧ r.2.InRange) ∧ HasPoint r.2 ∧ r.2.exp = none) (hd : (rows.map Prod.fst).Nodup) :
    ∃ fl : Numeral → F64, Reads fl (rows.map Prod.snd) ∧ process_md_block lines = .ok (rows.map fun r => (.str r.1, .float (fl r.2))) := by
  obtain ⟨rd, fl, hrd⟩ := readings
  refine ⟨fl, fun n hn => ?_, md_block h (fun r hr => ⟨⟨(hok r hr).1.1, (hok r hr).2⟩, (hrd _ (hok r hr).1.1 (hok r hr).1.2).2.1⟩) hd⟩
  obtain ⟨r, hr, rfl⟩ := List.mem_map.1 hn
  exact (hrd _ (hok r hr).1.1 (hok r hr).1.2).2.2

/-- C84: a step of which nothing is wanted ends the parsing of the file with an error, whatever else is in it. -/
theorem C84_empty (order : List Str → List Str) (ops : Ops F64) (F : Filters) (hF : Filters.has Filters.MD F = true) (first : Bool) (lines rest : List Str) (cs : List Content)
    (h : (Item.step first cs).Lines lines) (hok : Sound cs) (hn : ∀ c ∈ cs, c.wanted Filters.HIGH = false) :
    parse_castep_file order ops F (lines ++ rest) = .error .valueError := by
  obtain ⟨rd, fl, hrd⟩ := readings
  exact empty_step (fun n h1 h2 => (hrd n h1 h2).1.1) (fun n h1 h2 => (hrd n h1 h2).2.1) h hok hn order ops hF rest

/-! ### Examples -/

def exMdTable : List Str := [
  py"            x                                               MD Data:     x\n",
  py"            x                                                            x\n",
  py"            x              time :      0.002000                   ps     x\n",
  py"            x   Kinetic   Energy:      0.673458                   eV     x\n",
  py"            x   Hamilt    Energy:   -854.677308                   eV     x\n",
  py"            x      T/=0 Pressure:      4.323390                  GPa     x\n",
  py"            xxxxxxxxxxxxxxxxxxxxxxxxxxxxxxxxxxxxxxxxxxxxxxxxxxxxxxxxxxxxxx\n"]

def exMdRows : List (Str × Numeral) :=
  [(py"time", exDec (py"0") (py"002000")), (py"kinetic_energy", exDec (py"0") (py"673458")), (py"hamilt_energy", neg (py"854") (py"677308"))]

theorem exMd_rows : Interleaved MdOther MdLine exMdTable exMdRows :=
  .skip (.inl (by decide +kernel)) (.skip (.inl (by decide +kernel))
  (.row ⟨py"            ", py"              ", c!"t", py"ime ", py"      ", py"                   ps     x\n", by decide +kernel, by decide +kernel,
    by decide +kernel, by decide +kernel, by decide +kernel, by decide +kernel, by decide +kernel, keyName_of (by decide +kernel), by decide +kernel, by decide +kernel⟩
  (.row ⟨py"            ", py"   ", c!"K", py"inetic   Energy", py"      ", py"                   eV     x\n", by decide +kernel, by decide +kernel,
    by decide +kernel, by decide +kernel, by decide +kernel, by decide +kernel, by decide +kernel, keyName_of (by decide +kernel), by decide +kernel, by decide +kernel⟩
  (.row ⟨py"            ", py"   ", c!"H", py"amilt    Energy", py"   ", py"                   eV     x\n", by decide +kernel, by decide +kernel,
    by decide +kernel, by decide +kernel, by decide +kernel, by decide +kernel, by decide +kernel, keyName_of (by decide +kernel), by decide +kernel, by decide +kernel⟩
  (.skip (.inr ⟨py"            x      T/", c!"=", py"0 Pressure", py"      4.323390                  GPa     x\n", by decide +kernel, by decide +kernel, by decide +kernel,
    by decide +kernel, by decide +kernel, by decide, by decide, by decide, by decide⟩) (.skip (.inl (by decide +kernel)) .nil))))))

theorem exMd_ok : (Content.md exMdRows).Ok := by
  refine ⟨?_, by decide +kernel, by decide +kernel⟩
  intro r hr
  simp only [exMdRows, List.mem_cons, List.not_mem_nil, or_false] at hr
  rcases hr with rfl | rfl | rfl <;> exact ⟨by decide +kernel, by decide +kernel, rfl, by decide +kernel⟩

example : ∃ fl : Numeral → F64, Reads fl (exMdRows.map Prod.snd) ∧ process_md_block exMdTable = .ok [
    (.str (py"time"), .float (fl (exDec (py"0") (py"002000")))), (.str (py"kinetic_energy"), .float (fl (exDec (py"0") (py"673458")))),
    (.str (py"hamilt_energy"), .float (fl (neg (py"854") (py"677308"))))] :=
  C84_table _ _ exMd_rows (fun r hr => ⟨(exMd_ok.1 r hr).1, (exMd_ok.1 r hr).2.1, (exMd_ok.1 r hr).2.2.1⟩) exMd_ok.2.1

theorem exMd_lines : (Content.md exMdRows).Lines exMdTable :=
  ⟨_, _, py"            ", py"                                               ", py"     ", py"\n", rfl, reaches_of (by decide +kernel), by decide +kernel,
    by decide +kernel, framed_of (by decide +kernel), exMd_rows⟩

def exRule : Str := py"================================================================================\n"

/-- Before the first step: forces, and the ruler above the next title. -/
def exZeroth : List Str := py" Starting MD\n" :: (py"\n" :: (exForceBlock ++ (exMdTable ++ [exRule])))

/-- A step. -/
def exStep : List Str :=
  py" Starting MD iteration          1 ...\n" :: (exRule :: (exPosBlock ++ ([exDocE1] ++ (exForceBlock ++ (exMdTable ++
    [py" ... finished MD iteration          1\n"])))))

def exMdContents : List Content := [.forces [py"Constrained", py"Symmetrised"] [exSi1, exFe2], .md exMdRows]

def exStepContents : List Content :=
  [.positions [exSi1, exFe2], .energy .final (neg (py"855") (py"4591")), .forces [py"Constrained", py"Symmetrised"] [exSi1, exFe2], .md exMdRows]

theorem exZeroth_lines : (Item.step true exMdContents).Lines exZeroth := by
  refine ⟨_, _, rfl, reaches_of (by decide +kernel), .text (quiet_of (by decide +kernel)) (.part exForceBlock_lines (.part exMd_lines
    (.text (quiet_of (by decide +kernel)) .nil))), ?_⟩
  rw [if_pos rfl]
  exact ⟨⟨py" ", py"\n", rfl⟩, not_occurs _ _ (by decide +kernel), framed_of (by decide +kernel)⟩

def stepPassB (l : Str) : Bool := !Str.contains (py"finished MD iteration") l && !Str.contains (py"Finished MD") l

theorem stepPass_of {l : Str} (h : stepPassB l = true) : StepPass l := by
  simp only [stepPassB, Bool.and_eq_true, Bool.not_eq_true'] at h
  exact ⟨not_occurs _ _ h.1, not_occurs _ _ h.2⟩

theorem exStep_lines : (Item.step false exStepContents).Lines exStep := by
  refine ⟨_, _, rfl, reaches_of (by decide +kernel), .text (quiet_of (by decide +kernel)) (.part exPosBlock_lines (.part exFinal_lines (.part exForceBlock_lines
    (.part exMd_lines (.text (quiet_of (by decide +kernel)) .nil))))), ?_⟩
  rw [if_neg (by decide)]
  refine ⟨⟨py" ", py"          1 ...\n", rfl⟩, cut_of (stopB := Str.contains (py"finished MD iteration")) (passB := stepPassB) ?_ (fun l => stepPass_of) _ _ (by decide +kernel)⟩
  exact fun l h => .inl ((Str.contains_iff _ _).1 h)

/-- A run of two energies and three steps. -/
def exMdFile : List Str :=
  [exDocE1] ++ (exZeroth ++ (exStep ++ (py"\n" :: (exRule :: (exStep ++ (py" Finished MD\n" :: ([exDocE2] ++ [])))))))

def exMdItems : List Item :=
  [.part (.energy .final (neg (py"855") (py"4591"))), .step true exMdContents, .step false exStepContents, .step false exStepContents,
   .part (.energy .final (neg (py"855") (py"25")))]

theorem exMdFile_doc : Doc Item.Lines exMdFile exMdItems :=
  .part (c := Item.part _) exFinal_lines (.part exZeroth_lines (.part exStep_lines (.text (quiet_of (by decide +kernel)) (.text (quiet_of (by decide +kernel))
    (.part exStep_lines (.text (quiet_of (by decide +kernel)) (.part (c := Item.part _) exFinal2_lines .nil)))))))

theorem exStep_ok : (Item.step false exStepContents).Ok := by
  refine ⟨⟨⟨fun c hc => ?_, .inl (by decide +kernel)⟩, ⟨.energy .final (neg (py"855") (py"4591")), by simp [exStepContents], by decide +kernel⟩⟩, by decide +kernel⟩
  simp only [exStepContents, List.mem_cons, List.not_mem_nil, or_false] at hc
  rcases hc with rfl | rfl | rfl | rfl
  · exact ⟨exVec_ok, exVec_keys⟩
  · exact (by decide +kernel : (neg (py"855") (py"4591")).Valid ∧ (neg (py"855") (py"4591")).InRange)
  · exact ⟨exVec_ok, exVec_keys⟩
  · exact exMd_ok

theorem exZeroth_ok : (Item.step true exMdContents).Ok := by
  refine ⟨⟨⟨fun c hc => ?_, .inl (by decide +kernel)⟩, ⟨.md exMdRows, by simp [exMdContents], by decide +kernel⟩⟩, by decide +kernel⟩
  simp only [exMdContents, List.mem_cons, List.not_mem_nil, or_false] at hc
  rcases hc with rfl | rfl
  · exact ⟨exVec_ok, exVec_keys⟩
  · exact exMd_ok

theorem exMdFile_ok : SoundItems exMdItems := by
  refine ⟨fun i hi => ?_, .inl (by decide +kernel)⟩
  simp only [exMdItems, List.mem_cons, List.not_mem_nil, or_false] at hi
  rcases hi with rfl | rfl | rfl | rfl | rfl
  · exact (by decide +kernel : (neg (py"855") (py"4591")).Valid ∧ (neg (py"855") (py"4591")).InRange)
  · exact exZeroth_ok
  · exact exStep_ok
  · exact exStep_ok
  · exact (by decide +kernel : (neg (py"855") (py"25")).Valid ∧ (neg (py"855") (py"25")).InRange)

/-- What is said of a step. -/
def exStepReport (rd fl : Numeral → F64) : PyVal := .dict [
  (.str (py"energies"), .dict [(.str (py"final_energy"), .tuple [.float (rd (neg (py"855") (py"4591")))])]),
  (.str (py"forces"), .dict [(.str (py"constrained_symmetrised"), .list [.dict ([exSi1, exFe2].map (AtomVec.entry rd))])]),
  (.str (py"time"), .float (fl (exDec (py"0") (py"002000")))),
  (.str (py"kinetic_energy"), .float (fl (exDec (py"0") (py"673458")))),
  (.str (py"hamilt_energy"), .float (fl (neg (py"854") (py"677308")))),
  (.str (py"positions"), .dict ([exSi1, exFe2].map (AtomVec.entry rd)))]

/-- Only `MD` asked for: the forces of the steps are there all the same. -/
example (order : List Str → List Str) (ops : Ops F64) : ∃ rd fl : Numeral → F64, ReadsItems rd fl exMdItems ∧
    parse_castep_file order ops Filters.MD exMdFile = .ok [[
      (.str (py"energies"), .dict [(.str (py"final_energy"),
        .tuple [.float (rd (neg (py"855") (py"4591"))), .float (rd (neg (py"855") (py"25")))])]),
      (.str (py"md"), .list [.dict [
        (.str (py"forces"), .dict [(.str (py"constrained_symmetrised"), .list [.dict ([exSi1, exFe2].map (AtomVec.entry rd))])]),
        (.str (py"time"), .float (fl (exDec (py"0") (py"002000")))),
        (.str (py"kinetic_energy"), .float (fl (exDec (py"0") (py"673458")))),
        (.str (py"hamilt_energy"), .float (fl (neg (py"854") (py"677308"))))],
        exStepReport rd fl, exStepReport rd fl])]] := by
  obtain ⟨rd, fl, h1, -, h2⟩ := C84 order ops Filters.MD exMdFile [] exMdItems [] exMdFile_doc .nil exMdFile_ok (by simp)
  rw [List.append_nil] at h2
  exact ⟨rd, fl, h1, by rw [h2]; rfl⟩

/-- Without `MD`. -/
example (order : List Str → List Str) (ops : Ops F64) : ∃ rd fl : Numeral → F64, ReadsItems rd fl exMdItems ∧
    parse_castep_file order ops Filters.MD_SUMMARY exMdFile = .ok [[
      (.str (py"energies"), .dict [(.str (py"final_energy"),
        .tuple [.float (rd (neg (py"855") (py"4591"))), .float (rd (neg (py"855") (py"25")))])])]] := by
  obtain ⟨rd, fl, h1, -, h2⟩ := C84 order ops Filters.MD_SUMMARY exMdFile [] exMdItems [] exMdFile_doc .nil exMdFile_ok (by simp)
  rw [List.append_nil] at h2
  exact ⟨rd, fl, h1, by rw [h2]; rfl⟩

example (rd fl : Numeral → F64) (es : List (Key × (Key × PyVal))) : (Item.step false exStepContents).after rd fl Filters.MD_SUMMARY es = es :=
  C84_unwanted rd fl _ (by decide +kernel) _ _ _

/-- A step with blank lines only. -/
theorem exEmptyStep : (Item.step false []).Lines [py" Starting MD iteration          1 ...\n", py"\n", py" ... finished MD iteration          1\n"] := by
  refine ⟨_, _, rfl, reaches_of (by decide +kernel), .text (quiet_of (by decide +kernel)) (.text (quiet_of (by decide +kernel)) .nil), ?_⟩
  rw [if_neg (by decide)]
  exact ⟨⟨py" ", py"          1 ...\n", rfl⟩, .other (stepPass_of (by decide +kernel)) (.last (.inl ⟨py" ... ", py"          1\n", rfl⟩))⟩

example (order : List Str → List Str) (ops : Ops F64) (rest : List Str) :
    parse_castep_file order ops Filters.FULL ([py" Starting MD iteration          1 ...\n", py"\n", py" ... finished MD iteration          1\n"] ++ rest) =
      .error .valueError :=
  C84_empty order ops _ (by decide +kernel) _ _ rest _ exEmptyStep ⟨by simp, by simp⟩ (by simp)

end Verif.Props

import Verif.Props.MdSteps
import Verif.Props.Memory
/-
C87: geometry optimisation in a `.castep` file.
-/
namespace Verif.Props
open Verif Verif.Spec Verif.Castep

theorem not_iterated {F : Filters} {cs : List Content} (h : ∀ c ∈ cs, c.Ok) : ¬ Iterated (docEntries rd fl F cs) := by
  rintro ⟨e, he, hk, hs⟩
  obtain ⟨c, hc, he⟩ := List.mem_flatMap.1 he
  have hok := h c (List.mem_filter.1 hc).1
  cases c with
  | md rows =>
    obtain ⟨r, hr, rfl⟩ := List.mem_map.1 he
    simp at hs
  | enthalpy n =>
    simp only [Content.items, List.mem_cons, List.not_mem_nil, or_false] at he
    rcases he with rfl | rfl
    · simp at hs
    · simp at hk
  | trial n =>
    obtain rfl := List.mem_singleton.1 he
    simp [Content.sub] at hs
  | _ =>
    obtain rfl := List.mem_singleton.1 he
    simp [Content.key] at hk

theorem after_parts (F : Filters) (cs : List Content) : ∀ es, (cs.map Item.part).foldl (Item.after rd fl F) es = es ++ docEntries rd fl F cs := by
  intro es
  rw [List.foldl_map]
  exact foldl_contents F cs es

theorem after_iters {F : Filters} (hF : Filters.has Filters.GEOM_OPT F = true) : ∀ (parts : List (List Content × List Content)) (es : List (Key × (Key × PyVal))), Iterated es →
    (parts.flatMap fun p => Item.iter p.1 :: p.2.map Item.part).foldl (Item.after rd fl F) es =
      es ++ parts.flatMap fun p => iterEntry (stepRun (runOf true (docEntries rd fl Filters.HIGH p.1))) :: docEntries rd fl F p.2
  | [], es, _ => by simp
  | p :: parts, es, h => by
    have hi : ∀ l, Iterated (es ++ l) := fun l => by
      obtain ⟨e, he, h⟩ := h
      exact ⟨e, List.mem_append_left _ he, h⟩
    rw [List.flatMap_cons, List.cons_append, List.foldl_cons, List.foldl_append, after_parts, Item.after, if_pos hF, started, if_pos h, List.append_assoc,
      after_iters hF parts _ (hi _), List.flatMap_cons, List.append_assoc]
    simp

/-- C87: runs with iterations of a geometry optimisation.  Every iteration is put under `iterations` of `geom_opt`, in the order of
the file, with everything its sections say and nothing of what is said outside of it.  Before them there is one with the enthalpy,
electronic minimisations, forces, stresses and tables said before the first, which are taken out of the run, and with the initial
cell and positions, which are left in the run, too.  What is said after the first and outside of iterations goes into the run. -/
theorem C87 (order : List Str → List Str) (ops : Ops F64) (F : Filters) (hF : Filters.has Filters.GEOM_OPT F = true) (lines : List Str) (before : List Content)
    (parts : List (List Content × List Content))
    (h : Doc Item.Lines lines (before.map Item.part ++ parts.flatMap fun p => Item.iter p.1 :: p.2.map Item.part))
    (hok : Sound (before ++ parts.flatMap fun p => p.2)) (hi : ∀ p ∈ parts, Sound p.1 ∧ ∃ c ∈ p.1, c.wanted Filters.HIGH = true) (hne : parts ≠ []) :
    ∃ rd fl : Numeral → F64, ReadsAll rd fl before ∧ (∀ p ∈ parts, ReadsAll rd fl p.1 ∧ ReadsAll rd fl p.2) ∧
      parse_castep_file order ops F lines = .ok [runOf true ((docEntries rd fl F before).filter (·.1 ∉ ITERATED) ++
        iterEntry (stepRun ((runOf false (docEntries rd fl F before)).filter fun e => e.1 ∈ ITERATED ∨ e.1 ∈ COPIED)) ::
        parts.flatMap fun p => iterEntry (stepRun (runOf true (docEntries rd fl Filters.HIGH p.1))) :: docEntries rd fl F p.2)] := by
  have hs : SoundItems (before.map Item.part ++ parts.flatMap fun p => Item.iter p.1 :: p.2.map Item.part) := by
    have hp : ∀ i ∈ before.map Item.part ++ parts.flatMap (fun p => Item.iter p.1 :: p.2.map Item.part),
        (∃ c ∈ before ++ parts.flatMap (fun p => p.2), i = .part c) ∨ ∃ p ∈ parts, i = .iter p.1 := by
      intro i him
      rcases List.mem_append.1 him with him | him
      · obtain ⟨c, hc, rfl⟩ := List.mem_map.1 him
        exact .inl ⟨c, List.mem_append_left _ hc, rfl⟩
      · obtain ⟨p, hp, him⟩ := List.mem_flatMap.1 him
        rcases List.mem_cons.1 him with rfl | him
        · exact .inr ⟨p, hp, rfl⟩
        · obtain ⟨c, hc, rfl⟩ := List.mem_map.1 him
          exact .inl ⟨c, List.mem_append_right _ (List.mem_flatMap.2 ⟨p, hp, hc⟩), rfl⟩
    have hq : ∀ g : Content → Bool, (∀ c ∈ before ++ parts.flatMap (fun p => p.2), g c = false) →
        ∀ i ∈ before.map Item.part ++ parts.flatMap (fun p => Item.iter p.1 :: p.2.map Item.part), ∀ c ∈ i.parts, g c = false := by
      intro g hg i him c hc
      rcases hp i him with ⟨c', hc', rfl⟩ | ⟨p, -, rfl⟩
      · obtain rfl := List.mem_singleton.1 hc; exact hg _ hc'
      · cases hc
    refine ⟨fun i him => ?_, hok.2.imp (hq _) (hq _)⟩
    rcases hp i him with ⟨c, hc, rfl⟩ | ⟨p, hp, rfl⟩
    · exact hok.1 c hc
    · exact hi p hp
  obtain ⟨rd, fl, hr, -, hp⟩ := C84 order ops F lines [] _ [] h .nil hs (by simp)
  rw [List.append_nil, List.map_nil, List.foldl_append, after_parts, List.nil_append] at hp
  obtain ⟨p, ps, rfl⟩ := List.exists_cons_of_ne_nil hne
  have hb : ∀ c ∈ before, c.Ok := fun c hc => hok.1 c (List.mem_append_left _ hc)
  rw [List.flatMap_cons, List.cons_append, List.foldl_cons, List.foldl_append, after_parts, Item.after, if_pos hF, started, if_neg (not_iterated hb),
    after_iters hF ps _ ⟨iterEntry (stepRun (runOf true (docEntries rd fl Filters.HIGH p.1))), by simp, rfl, rfl⟩] at hp
  refine ⟨rd, fl, fun c hc => hr (.part c) (by simp [hc]), fun q hq => ⟨fun c hc => ?_, fun c hc => ?_⟩, ?_⟩
  · have := hr (.iter q.1) (List.mem_append_right _ (List.mem_flatMap.2 ⟨q, hq, by simp⟩))
    exact ⟨fun n hn => this.1 n (List.mem_flatMap.2 ⟨c, hc, hn⟩), fun n hn => this.2 n (List.mem_flatMap.2 ⟨c, hc, hn⟩)⟩
  · exact hr (.part c) (List.mem_append_right _ (List.mem_flatMap.2 ⟨q, hq, by simp [hc]⟩))
  · rw [hp, results, if_neg (by simp), List.flatMap_cons]
    simp only [List.append_assoc, List.cons_append, List.nil_append]

/-- C87: without `GEOM_OPT` among what is wanted, nothing is said of iterations, and nothing is taken out of the run. -/
theorem C87_unwanted (rd fl : Numeral → F64) (F : Filters) (h : Filters.has Filters.GEOM_OPT F = false) (es : List (Key × (Key × PyVal))) (cs : List Content) :
    (Item.iter cs).after rd fl F es = es := by rw [Item.after, if_neg (by simp [h])]

/-- C87: an iteration of which nothing is wanted ends the parsing of the file with an error, whatever else is in it. -/
theorem C87_empty (order : List Str → List Str) (ops : Ops F64) (F : Filters) (hF : Filters.has Filters.GEOM_OPT F = true) (lines rest : List Str) (cs : List Content)
    (h : (Item.iter cs).Lines lines) (hok : Sound cs) (hn : ∀ c ∈ cs, c.wanted Filters.HIGH = false) :
    parse_castep_file order ops F (lines ++ rest) = .error .valueError := by
  obtain ⟨rd, fl, hrd⟩ := readings
  exact empty_iter (fun n h1 h2 => (hrd n h1 h2).1.1) (fun n h1 h2 => (hrd n h1 h2).2.1) h hok hn order ops hF rest

/-! ### Examples -/

def exEnthalpy0 : Str := py" LBFGS: finished iteration     0 with enthalpy= -2.29374356E+003 eV\n"
def exEnthalpy1 : Str := py" LBFGS: finished iteration     1 with enthalpy= -2.29375785E+003 eV\n"
def exH0 : Numeral := exExp (some true) (py"2") (py"29374356") false (py"003")
def exH1 : Numeral := exExp (some true) (py"2") (py"29375785") false (py"003")

theorem exEnthalpy0_lines : (Content.enthalpy exH0).Lines [exEnthalpy0] :=
  ⟨_, [exInt (py"0")], rfl, reaches_of (by decide +kernel), ⟨py" ", py"LBFGS", py"     ", py"0", py" ", py"= -2.29374356E+003 eV\n", by decide +kernel, by decide, by decide, by decide,
      by decide, by decide⟩,
    hasNumbers_of (holds_of _ (py" LBFGS: finished iteration     ") [(exInt (py"0"), py" with enthalpy= "), (exH0, py" eV\n")] (by decide +kernel) (by decide +kernel)) (by simp),
    by decide +kernel⟩

theorem exEnthalpy1_lines : (Content.enthalpy exH1).Lines [exEnthalpy1] :=
  ⟨_, [exInt (py"1")], rfl, reaches_of (by decide +kernel), ⟨py" ", py"LBFGS", py"     ", py"1", py" ", py"= -2.29375785E+003 eV\n", by decide +kernel, by decide, by decide, by decide,
      by decide, by decide⟩,
    hasNumbers_of (holds_of _ (py" LBFGS: finished iteration     ") [(exInt (py"1"), py" with enthalpy= "), (exH1, py" eV\n")] (by decide +kernel) (by decide +kernel)) (by simp),
    by decide +kernel⟩

def exTrial : Str := py" LBFGS: starting iteration         1 with trial guess (lambda=  1.000000)\n"

theorem exTrial_lines : (Content.trial (exDec (py"1") (py"000000"))).Lines [exTrial] :=
  ⟨_, rfl, reaches_of (by decide +kernel), py" LBFGS: starting iteration         1 with ", py"  ", py"\n", by decide +kernel, by decide, not_occurs _ _ (by decide +kernel)⟩

def tableRuleB (l : Str) : Bool :=
  let t := l.dropWhile (· != c!"+")
  let f (t : Str) : Option Str := match t with
    | [] => none
    | c :: t => if c == c!"+" && (t.head? == some (c!"-")) then some (t.dropWhile (· == c!"-")) else none
  ((((f t).bind f).bind f).bind f).any fun t => t.head? == some (c!"+")

theorem tableRule_of {l : Str} (h : tableRuleB l = true) : TableRule l := by
  have hf : ∀ t u : Str, (match t with
    | [] => none
    | c :: t => if c == c!"+" && (t.head? == some (c!"-")) then some (t.dropWhile (· == c!"-")) else none) = some u →
      ∃ d, t = c!"+" :: (d ++ u) ∧ d ≠ [] ∧ ∀ c ∈ d, c = c!"-" := by
    intro t u h
    split at h
    · cases h
    · rename_i c t
      split at h
      · rename_i hc
        simp only [Bool.and_eq_true, beq_iff_eq] at hc
        obtain ⟨rfl, hc⟩ := hc
        injection h with h
        refine ⟨t.takeWhile (· == c!"-"), ?_, ?_, fun d hd => by simpa using mem_takeWhile' hd⟩
        · rw [← h, List.takeWhile_append_dropWhile]
        · cases t with
          | nil => simp at hc
          | cons e t => simp only [List.head?_cons, Option.some.injEq] at hc; subst hc; simp
      · cases h
  simp only [tableRuleB, Option.any_eq_true, Option.bind_eq_some_iff, beq_iff_eq] at h
  obtain ⟨t, ⟨t3, ⟨t2, ⟨t1, h1, h2⟩, h3⟩, h4⟩, ht⟩ := h
  obtain ⟨d1, e1, p1⟩ := hf _ _ h1
  obtain ⟨d2, e2, p2⟩ := hf _ _ h2
  obtain ⟨d3, e3, p3⟩ := hf _ _ h3
  obtain ⟨d4, e4, p4⟩ := hf _ _ h4
  cases t with
  | nil => simp at ht
  | cons c b =>
    simp only [List.head?_cons, Option.some.injEq] at ht
    subst ht
    refine ⟨l.takeWhile (· != c!"+"), d1, d2, d3, d4, b, ?_, by simp only [List.mem_cons, List.not_mem_nil, or_false]; rintro d (rfl | rfl | rfl | rfl) <;> assumption⟩
    rw [← e4, ← e3, ← e2, ← e1, List.takeWhile_append_dropWhile]

theorem tableBlock_of {b : List Str} (h : cutB tableRuleB (fun l => !Str.contains (py"+-") l) 2 b = true) : Cut TableRule (fun l => ¬ Occurs (py"+-") l) 2 b :=
  cut_of (fun _ => tableRule_of) (fun _ h => not_occurs _ _ (by simpa using h)) 2 b h

theorem exCriteria_section : (Content.geomTable exCriteriaRows).Lines exCriteria :=
  ⟨_, _, rfl, reaches_of (by decide +kernel), ⟨py" +-----------+-----------------+-----------------+------------+-----+ ", [], py"LBFGS", py"\n", by decide +kernel, .inl rfl, by decide,
    .inr rfl⟩, tableBlock_of (by decide +kernel), exCriteria_lines⟩

theorem exSearch_section : (Content.geomTable exSearchRows).Lines exSearch :=
  ⟨_, _, rfl, reaches_of (by decide +kernel), ⟨py" +------------+-------------+-------------+-----------------+ ", py" min", py"LBFGS", py"\n", by decide +kernel, .inr rfl, by decide,
    .inr rfl⟩, tableBlock_of (by decide +kernel), exSearch_lines⟩

def memEndB (l : Str) : Bool :=
  let t := l.dropWhile isSpace
  let u := t.dropWhile fun c => c == c!"+" || c == c!"-"
  !(t.takeWhile fun c => c == c!"+" || c == c!"-").isEmpty && u.all isSpace

theorem memEnd_of {l : Str} (h : memEndB l = true) : MemEnd l := by
  simp only [memEndB, Bool.and_eq_true, Bool.not_eq_true', List.all_eq_true] at h
  refine ⟨l.takeWhile isSpace, (l.dropWhile isSpace).takeWhile fun c => c == c!"+" || c == c!"-", (l.dropWhile isSpace).dropWhile fun c => c == c!"+" || c == c!"-",
    ?_, fun d hd => mem_takeWhile' hd, h.2, ?_, fun d hd => by simpa using mem_takeWhile' hd⟩
  · rw [List.takeWhile_append_dropWhile, List.takeWhile_append_dropWhile]
  · intro e; rw [e] at h; simp at h

theorem not_memEnd_of {l : Str} (h : (l.any fun c => !(isSpace c || c == c!"+" || c == c!"-")) = true) : ¬ MemEnd l := by
  rintro ⟨g, s, g', rfl, h1, h2, -, h3⟩
  obtain ⟨c, hc, h⟩ := List.any_eq_true.1 h
  simp only [Bool.not_eq_true', Bool.or_eq_false_iff, beq_eq_false_iff_ne] at h
  rcases List.mem_append.1 hc with hc | hc
  · rw [h1 c hc] at h; simp at h
  · rcases List.mem_append.1 hc with hc | hc
    · rcases h3 c hc with rfl | rfl <;> simp at h
    · rw [h2 c hc] at h; simp at h

theorem exMemory_section : (Content.memory exMemoryRows).Lines exMemory :=
  ⟨_, _, rfl, reaches_of (by decide +kernel), ⟨py"        ", py"+----------------", py" ", py" DISK ESTIMATES PER PROCESS ", py"--------------+", py"\n", by decide +kernel, by decide, by decide,
    by decide, by decide, by decide, by decide⟩, cut_of (stopB := memEndB) (fun _ => memEnd_of) (fun _ => not_memEnd_of) 1 _ (by decide +kernel), exMemory_lines⟩

def iterRuleB (l : Str) : Bool :=
  let u := l.dropWhile (· == c!"=")
  l.head? == some (c!"=") && (u == [] || u == [10])

theorem iterRule_of {l : Str} (h : iterRuleB l = true) : IterRule l := by
  simp only [iterRuleB, Bool.and_eq_true, Bool.or_eq_true, beq_iff_eq] at h
  refine ⟨l.takeWhile (· == c!"="), l.dropWhile (· == c!"="), (List.takeWhile_append_dropWhile ..).symm, ?_, fun d hd => by simpa using mem_takeWhile' hd, h.2⟩
  cases l with
  | nil => simp at h
  | cons c l => simp only [List.head?_cons, Option.some.injEq] at h; obtain ⟨rfl, -⟩ := h; simp

def iterPassB (l : Str) : Bool := l.head? != some (c!"=") && !Str.contains (py"Finished") l

theorem iterPass_of {l : Str} (h : iterPassB l = true) : IterPass l := by
  simp only [iterPassB, Bool.and_eq_true, bne_iff_ne, Bool.not_eq_true'] at h
  refine ⟨?_, not_occurs _ _ h.2⟩
  rintro ⟨s, e, rfl, hs, h2, -⟩
  obtain ⟨c, s, rfl⟩ := List.exists_cons_of_ne_nil hs
  exact h.1 (by rw [h2 c (by simp)]; rfl)

def exFinished : Str := py" Finished LBFGS\n"

theorem exFinished_end : IterEnd exFinished := .inr ⟨py" ", py" ", py"LBFGS", py"\n", by decide +kernel, by decide, by decide, by decide, by decide, by decide⟩

/-- An iteration: it ends with the ruler above the next, or where the optimisation does. -/
def exIterBlock : List Str :=
  py" Starting LBFGS iteration          1 ...\n" :: (exRule :: (exSearch ++ ([exTrial] ++ (exMemory ++ (exPosBlock ++ ([exDocE1] ++ (exForceBlock ++ ([exEnthalpy1] ++
    (exCriteria ++ [exRule])))))))))

def exIterContents : List Content :=
  [.geomTable exSearchRows, .trial (exDec (py"1") (py"000000")), .memory exMemoryRows, .positions [exSi1, exFe2], .energy .final (neg (py"855") (py"4591")),
   .forces [py"Constrained", py"Symmetrised"] [exSi1, exFe2], .enthalpy exH1, .geomTable exCriteriaRows]

def exIterLast : List Str := py" Starting LBFGS iteration          2 ...\n" :: (exRule :: ([exDocE2] ++ ([exEnthalpy1] ++ [exFinished])))

def exIterLastContents : List Content := [.energy .final (neg (py"855") (py"25")), .enthalpy exH1]

def iterEndB (l : Str) : Bool := iterRuleB l || l == exFinished

theorem iterEnd_of {l : Str} (h : iterEndB l = true) : IterEnd l := by
  simp only [iterEndB, Bool.or_eq_true, beq_iff_eq] at h
  rcases h with h | rfl
  · exact .inl (iterRule_of h)
  · exact exFinished_end

theorem exIter_lines : (Item.iter exIterContents).Lines exIterBlock :=
  ⟨_, _, rfl, reaches_of (by decide +kernel), .text (quiet_of (by decide +kernel)) (.part exSearch_section (.part exTrial_lines (.part exMemory_section (.part exPosBlock_lines
    (.part exFinal_lines (.part exForceBlock_lines (.part exEnthalpy1_lines (.part exCriteria_section (.text (quiet_of (by decide +kernel)) .nil))))))))),
    ⟨py" ", py"LBFGS", py"          ", py"1", py" ", py"\n", by decide +kernel, by decide, by decide, by decide, by decide, by decide⟩,
    cut_of (stopB := iterEndB) (fun _ => iterEnd_of) (fun _ => iterPass_of) 2 _ (by decide +kernel)⟩

theorem exIterLast_lines : (Item.iter exIterLastContents).Lines exIterLast :=
  ⟨_, _, rfl, reaches_of (by decide +kernel), .text (quiet_of (by decide +kernel)) (.part exFinal2_lines (.part exEnthalpy1_lines (.text (quiet_of (by decide +kernel)) .nil))),
    ⟨py" ", py"LBFGS", py"          ", py"2", py" ", py"\n", by decide +kernel, by decide, by decide, by decide, by decide, by decide⟩,
    cut_of (stopB := iterEndB) (fun _ => iterEnd_of) (fun _ => iterPass_of) 2 _ (by decide +kernel)⟩

def exBefore : List Content :=
  [.positions [exSi1, exFe2], .energy .final (neg (py"855") (py"4591")), .forces [py"Constrained", py"Symmetrised"] [exSi1, exFe2], .enthalpy exH0, .geomTable exCriteriaRows]

/-- A run with two iterations, and an energy after them. -/
def exGeomFile : List Str :=
  exPosBlock ++ ([exDocE1] ++ (exForceBlock ++ ([exEnthalpy0] ++ (exCriteria ++ (exRule :: (exIterBlock ++ (exIterLast ++ ([exDocE2] ++ []))))))))

theorem exGeomFile_doc : Doc Item.Lines exGeomFile (exBefore.map Item.part ++
    [(exIterContents, []), (exIterLastContents, [Content.energy .final (neg (py"855") (py"25"))])].flatMap fun p => Item.iter p.1 :: p.2.map Item.part) :=
  .part (c := Item.part _) exPosBlock_lines (.part (c := Item.part _) exFinal_lines (.part (c := Item.part _) exForceBlock_lines (.part (c := Item.part _) exEnthalpy0_lines
    (.part (c := Item.part _) exCriteria_section (.text (quiet_of (by decide +kernel)) (.part exIter_lines (.part exIterLast_lines (.part (c := Item.part _) exFinal2_lines .nil))))))))

theorem exIter_ok : Sound exIterContents := by
  refine ⟨fun c hc => ?_, .inr (by decide +kernel)⟩
  simp only [exIterContents, List.mem_cons, List.not_mem_nil, or_false] at hc
  rcases hc with rfl | rfl | rfl | rfl | rfl | rfl | rfl | rfl
  · unfold Content.Ok; decide +kernel
  · exact ⟨by decide +kernel, by simp [Numeral.IsInt, exDec]⟩
  · unfold Content.Ok; decide +kernel
  · exact ⟨exVec_ok, exVec_keys⟩
  · exact (by decide +kernel : (neg (py"855") (py"4591")).Valid ∧ (neg (py"855") (py"4591")).InRange)
  · exact ⟨exVec_ok, exVec_keys⟩
  · exact (by decide +kernel : exH1.Valid ∧ exH1.InRange)
  · unfold Content.Ok; decide +kernel

theorem exIterLast_ok : Sound exIterLastContents := by
  refine ⟨fun c hc => ?_, .inr (by decide +kernel)⟩
  simp only [exIterLastContents, List.mem_cons, List.not_mem_nil, or_false] at hc
  rcases hc with rfl | rfl
  · exact (by decide +kernel : (neg (py"855") (py"25")).Valid ∧ (neg (py"855") (py"25")).InRange)
  · exact (by decide +kernel : exH1.Valid ∧ exH1.InRange)

theorem exOutside_ok : Sound (exBefore ++ [(exIterContents, []), (exIterLastContents, [Content.energy .final (neg (py"855") (py"25"))])].flatMap fun p => p.2) := by
  refine ⟨fun c hc => ?_, .inr (by decide +kernel)⟩
  simp only [exBefore, List.flatMap_cons, List.flatMap_nil, List.append_nil, List.nil_append, List.cons_append, List.mem_cons, List.not_mem_nil, or_false] at hc
  rcases hc with rfl | rfl | rfl | rfl | rfl | rfl
  · exact ⟨exVec_ok, exVec_keys⟩
  · exact (by decide +kernel : (neg (py"855") (py"4591")).Valid ∧ (neg (py"855") (py"4591")).InRange)
  · exact ⟨exVec_ok, exVec_keys⟩
  · exact (by decide +kernel : exH0.Valid ∧ exH0.InRange)
  · unfold Content.Ok; decide +kernel
  · exact (by decide +kernel : (neg (py"855") (py"25")).Valid ∧ (neg (py"855") (py"25")).InRange)

/-- `GEOM_OPT`, positions and forces are asked for.  An iteration with an enthalpy has a `geom_opt` of its own. -/
example (order : List Str → List Str) (ops : Ops F64) : ∃ rd fl : Numeral → F64,
    parse_castep_file order ops (Filters.GEOM_OPT ||| Filters.POSITION ||| Filters.FORCE) exGeomFile = .ok [[
      (.str (py"initial_positions"), .dict ([exSi1, exFe2].map (AtomVec.entry rd))),
      (.str (py"energies"), .dict [(.str (py"final_energy"),
        .tuple [.float (rd (neg (py"855") (py"4591"))), .float (rd (neg (py"855") (py"25")))])]),
      (.str (py"geom_opt"), .dict [(.str (py"iterations"), .list [
        .dict [
          (.str (py"forces"), .dict [(.str (py"constrained_symmetrised"), .list [.dict ([exSi1, exFe2].map (AtomVec.entry rd))])]),
          (.str (py"enthalpy"), .list [.float (rd exH0)]),
          (.str (py"minimisation"), .list [.dict (exCriteriaRows.map fun r => (r.key, r.info rd))]),
          (.str (py"positions"), .dict ([exSi1, exFe2].map (AtomVec.entry rd)))],
        .dict [
          (.str (py"minimisation"), .list [.dict (exSearchRows.map fun r => (r.key, r.info rd)), .dict (exCriteriaRows.map fun r => (r.key, r.info rd))]),
          (.str (py"geom_opt"), .dict [(.str (py"trial"), .list [.float (fl (exDec (py"1") (py"000000")))])]),
          (.str (py"memory_estimate"), .list [.dict (exMemoryRows.map fun r => (.str r.name, r.info fl))]),
          (.str (py"energies"), .dict [(.str (py"final_energy"), .tuple [.float (rd (neg (py"855") (py"4591")))])]),
          (.str (py"forces"), .dict [(.str (py"constrained_symmetrised"), .list [.dict ([exSi1, exFe2].map (AtomVec.entry rd))])]),
          (.str (py"enthalpy"), .list [.float (rd exH1)]),
          (.str (py"positions"), .dict ([exSi1, exFe2].map (AtomVec.entry rd)))],
        .dict [
          (.str (py"energies"), .dict [(.str (py"final_energy"), .tuple [.float (rd (neg (py"855") (py"25")))])]),
          (.str (py"geom_opt"), .dict []),
          (.str (py"enthalpy"), .list [.float (rd exH1)])]])])]] := by
  obtain ⟨rd, fl, -, -, h⟩ := C87 order ops (Filters.GEOM_OPT ||| Filters.POSITION ||| Filters.FORCE) (by decide +kernel) exGeomFile exBefore
    [(exIterContents, []), (exIterLastContents, [Content.energy .final (neg (py"855") (py"25"))])] exGeomFile_doc exOutside_ok
    (by
      intro p hp
      simp only [List.mem_cons, List.not_mem_nil, or_false] at hp
      rcases hp with rfl | rfl
      · exact ⟨exIter_ok, .energy .final (neg (py"855") (py"4591")), by simp [exIterContents], by decide +kernel⟩
      · exact ⟨exIterLast_ok, .energy .final (neg (py"855") (py"25")), by simp [exIterLastContents], by decide +kernel⟩) (by simp)
  exact ⟨rd, fl, h.trans (by rfl)⟩

example (rd fl : Numeral → F64) (es : List (Key × (Key × PyVal))) : (Item.iter exIterContents).after rd fl Filters.FORCE es = es :=
  C87_unwanted rd fl _ (by decide +kernel) _ _

/-- An iteration with blank lines only. -/
theorem exEmptyIter : (Item.iter []).Lines [py" Starting BFGS iteration          1 ...\n", exRule, py"\n", exRule] :=
  ⟨_, _, rfl, reaches_of (by decide +kernel), .text (quiet_of (by decide +kernel)) (.text (quiet_of (by decide +kernel)) (.text (quiet_of (by decide +kernel)) .nil)),
    ⟨py" ", py"BFGS", py"          ", py"1", py" ", py"\n", by decide +kernel, by decide, by decide, by decide, by decide, by decide⟩,
    cut_of (stopB := iterEndB) (fun _ => iterEnd_of) (fun _ => iterPass_of) 2 _ (by decide +kernel)⟩

example (order : List Str → List Str) (ops : Ops F64) (rest : List Str) :
    parse_castep_file order ops Filters.FULL ([py" Starting BFGS iteration          1 ...\n", exRule, py"\n", exRule] ++ rest) = .error .valueError :=
  C87_empty order ops _ (by decide +kernel) _ rest _ exEmptyIter ⟨by simp, by simp⟩ (by simp)

end Verif.Props

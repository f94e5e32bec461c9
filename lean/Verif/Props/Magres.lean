import Verif.Lemmas.Magres
import Verif.Props.Phonon
/-
C68: `.magres` files.  C69: their section `magres_old`.
-/
namespace Verif.Props
open Verif Spec Magres

/-- The sections of a file are reported as printed. -/
theorem C68 (f : MgFile) (lines : List Str) (hl : f.Lines lines) (hk : f.Ok) :
    ∃ rd fl : Numeral → F64, (∀ n : Numeral, n.Valid → n.InRange → F64.Nearest n.value (rd n) ∧ F64.Nearest n.value (fl n)) ∧
      parse_magres_file lines = .ok (.dict (f.result rd fl)) := by
  obtain ⟨rd, fl, h⟩ := readings
  exact ⟨rd, fl, fun n h1 h2 => ⟨(h n h1 h2).1.2, (h n h1 h2).2.2⟩,
    file_all hl hk (fun n hn => (h n (hk.2.1 n hn).1 (hk.2.1 n hn).2).1.1) (fun n hn => (h n (hk.2.1 n hn).1 (hk.2.1 n hn).2).2.1)⟩

/-- A file with `[magres]` before any `[calculation]` is rejected, whatever follows: a variable has no value yet. -/
theorem C68_order (o m ms rest : List Str) (ho : Outside o) (h : Section (py"magres") m ms) :
    parse_magres_file (o ++ (ms ++ rest)) = .error .nameError := by
  rw [parse_magres_file, loop_error h ho (Nat.lt_succ_self _)]; rfl
  intro last _
  rfl

/-- A blank line in `[calculation]` has the file rejected, whatever follows. -/
theorem C68_calculation_blank (es : List MgCalc) (o c more cs rest : List Str) (gap : Str) (ho : Outside o) (hc : List.Forall₂ MgCalc.Line c es)
    (hb : Blank gap) (h : Section (py"calculation") (c ++ gap :: more) cs) : parse_magres_file (o ++ (cs ++ rest)) = .error .valueError := by
  rw [parse_magres_file, loop_error (e := .valueError) h ho (Nat.lt_succ_self _)]; rfl
  intro last _
  have e1 := (foldLines_all (P := fun _ => True) hc (f := calcLine) (put := putCalc) (fun d l e _ h _ => ⟨calc_line h d, trivial⟩) [] trivial).1
  have : calculation (c ++ gap :: more ++ [last]) = .error .valueError := by
    rw [calculation, List.append_assoc, List.cons_append]
    exact foldLines_error e1 (calc_blank hb _)
  rw [block.eq_def, if_pos rfl, this]; rfl

/-- An atom whose number stands next to its label (as CASTEP prints numbers that fill their columns) has the file rejected. -/
theorem C68_atoms_glued (es : List MgCalc) (v : Numeral) (its : List MgAtoms) (o0 c cs o1 a more as rest : List Str) (l elem word : Str) (x : Numeral)
    (pos : List Numeral) (h0 : Outside o0) (h1 : Outside o1) (hc : Section (py"calculation") c cs) (hc' : List.Forall₂ MgCalc.Line c es)
    (hv : MgCalc.Version es v) (ha : Section (py"atoms") (a ++ l :: more) as) (ha' : List.Forall₂ MgAtoms.Line a its)
    (hi : ∀ i ∈ its, i.IndOk) (hn : ∀ i ∈ its, ∀ n ∈ i.nums, n.Valid ∧ n.InRange) (hl : Str.startsWith l (py"atom") = true)
    (hf : Fields l (py"atom" :: elem :: word :: x.text :: pos.map Numeral.text)) (hx : x.Valid ∧ ¬ x.IsInt) (hp : NumsOk pos) :
    parse_magres_file (o0 ++ (cs ++ (o1 ++ (as ++ rest)))) = .error .valueError := by
  obtain ⟨rd, fl, h⟩ := readings
  rw [parse_magres_file]
  obtain ⟨f1, g1, e1⟩ := skip_outside h0 (fuel := (o0 ++ (cs ++ (o1 ++ (as ++ rest)))).length + 1) (Nat.lt_succ_self _) [] none
  obtain ⟨l2, f2, c2, g2, e2⟩ := take_section hc g1 [] none
  rw [e1, e2, block_calc hc' hv c2]
  show (loop _ _ [(Key.str (py"calc"), PyVal.dict (MgCalc.table es))] (some (intOf v)) >>= _) = _
  rw [loop_error (e := .valueError) ha h1 g2]; rfl
  intro last _
  have s := foldLines_abs (f := atomsStep) (abs := atTable) (put := putAt rd) ha'
    (fun s l e h' he => atoms_line h' (hi e he) (fun n hn' => (h n (hn e he n hn').1 (hn e he n hn').2).1.1) s) ([], [], none)
  have : Magres.atoms (a ++ l :: more ++ [last]) = .error .valueError := by
    rw [Magres.atoms, List.append_assoc, List.cons_append]
    exact foldLines_error s (atom_glued hl hf hx (fun n hn' => (h n (hp n hn').1 (hp n hn').2).1.1) _)
  rw [block.eq_def, if_neg (by decide), if_pos rfl, this]; rfl

/-- A blank line in `[magres]` has the file rejected, whatever follows. -/
theorem C68_magres_blank (es : List MgCalc) (v : Numeral) (its : List MgTensor) (o0 c cs o1 m more ms rest : List Str) (gap : Str)
    (h0 : Outside o0) (h1 : Outside o1) (hc : Section (py"calculation") c cs) (hc' : List.Forall₂ MgCalc.Line c es)
    (hv : MgCalc.Version es v) (hm : Section (py"magres") (m ++ gap :: more) ms)
    (hm' : List.Forall₂ (MgTensor.Line (if intOf v < 22 then 3 else 5)) m its)
    (hi : ∀ i ∈ its, i.IndOk) (hn : ∀ i ∈ its, ∀ n ∈ i.nums, n.Valid ∧ n.InRange) (hb : Blank gap) :
    parse_magres_file (o0 ++ (cs ++ (o1 ++ (ms ++ rest)))) = .error .indexError := by
  obtain ⟨rd, fl, h⟩ := readings
  rw [parse_magres_file]
  obtain ⟨f1, g1, e1⟩ := skip_outside h0 (fuel := (o0 ++ (cs ++ (o1 ++ (ms ++ rest)))).length + 1) (Nat.lt_succ_self _) [] none
  obtain ⟨l2, f2, c2, g2, e2⟩ := take_section hc g1 [] none
  rw [e1, e2, block_calc hc' hv c2]
  show (loop _ _ [(Key.str (py"calc"), PyVal.dict (MgCalc.table es))] (some (intOf v)) >>= _) = _
  rw [loop_error (e := .indexError) hm h1 g2]; rfl
  intro last _
  have s := foldLines_abs (f := magresStep (if intOf v < 22 then 3 else 5)) (abs := MgTensor.byKind) (put := addEntry rd) hm'
    (fun s l e h' he => magres_line h' (hi e he) (fun n hn' => (hn e he n hn').1) (fun n hn' => (h n (hn e he n hn').1 (hn e he n hn').2).1.1) s) []
  have : magres (intOf v) (m ++ gap :: more ++ [last]) = .error .indexError := by
    rw [magres, List.append_assoc, List.cons_append]
    show (foldLines _ (MgTensor.byKind []) _ >>= _) = _
    rw [foldLines_error s (magres_blank hb _ _)]; rfl
  rw [block.eq_def, if_neg (by decide), if_neg (by decide), if_pos rfl]
  show (magres (intOf v) _ >>= _) = _
  rw [this]; rfl

/-! ### The old section -/

/-- The old section: the last tensor, and for each atom of the file what is printed of it. -/
theorem C69_partial (f : MgFile) (its : List MgOld) (lines : List Str) (hl : f.Lines lines) (hk : f.Ok) (ho : f.old = some its) :
    ∃ rd fl : Numeral → F64, (∀ n : Numeral, n.Valid → n.InRange → F64.Nearest n.value (rd n) ∧ F64.Nearest n.value (fl n)) ∧
      ∃ d, parse_magres_file lines = .ok (.dict d) ∧
        Dict.get? d (.str (py"total_shielding")) = some ((MgOld.tensors rd its).getLast?.getD .none) ∧
        Dict.get? d (.str (py"atom_info")) = some (.dict (MgOld.atoms rd fl (MgAtoms.coords rd f.atoms) its)) := by
  obtain ⟨rd, fl, h1, h2⟩ := C68 f lines hl hk
  refine ⟨rd, fl, h1, _, h2, ?_, ?_⟩ <;> rw [MgFile.result, ho] <;> rfl

/-- Tensors before the last one are lost: files that differ in them alone give the same. -/
theorem C69_lost (f f' : MgFile) (its its' : List MgOld) (lines lines' : List Str) (hl : f.Lines lines) (hl' : f'.Lines lines') (hk : f.Ok) (hk' : f'.Ok)
    (ho : f.old = some its) (he : f' = { f with old := some its' })
    (h1 : its.filter (fun i => i.atom?.isSome) = its'.filter (fun i => i.atom?.isSome))
    (h2 : ∃ a b rows c d, its = a ++ .shielding rows :: b ∧ its' = c ++ .shielding rows :: d ∧
      (∀ i ∈ b, ∀ r, i ≠ .shielding r) ∧ ∀ i ∈ d, ∀ r, i ≠ .shielding r) :
    parse_magres_file lines = parse_magres_file lines' := by
  obtain ⟨rd, fl, h⟩ := readings
  rw [file_all (rd := rd) (fl := fl) hl hk (fun n hn => (h n (hk.2.1 n hn).1 (hk.2.1 n hn).2).1.1) (fun n hn => (h n (hk.2.1 n hn).1 (hk.2.1 n hn).2).2.1),
    file_all (rd := rd) (fl := fl) hl' hk' (fun n hn => (h n (hk'.2.1 n hn).1 (hk'.2.1 n hn).2).1.1)
      (fun n hn => (h n (hk'.2.1 n hn).1 (hk'.2.1 n hn).2).2.1)]
  have ht : (MgOld.tensors rd its).getLast? = (MgOld.tensors rd its').getLast? := by
    obtain ⟨a, b, rows, c, d, rfl, rfl, hb, hd⟩ := h2
    have key : ∀ x y : List MgOld, (∀ i ∈ y, ∀ r, i ≠ .shielding r) →
        (MgOld.tensors rd (x ++ .shielding rows :: y)).getLast? = some (.list (rows.map (MgAtoms.tuple rd))) := by
      intro x y hy
      have e : MgOld.tensors rd y = [] := by
        rw [MgOld.tensors, List.filterMap_eq_nil_iff]
        intro i hi
        cases i with
        | shielding r => exact absurd rfl (hy _ hi r)
        | _ => rfl
      have : MgOld.tensors rd (x ++ .shielding rows :: y) = MgOld.tensors rd x ++ (.list (rows.map (MgAtoms.tuple rd)) :: MgOld.tensors rd y) := by
        rw [MgOld.tensors, List.filterMap_append]; rfl
      rw [this, e]; simp
    rw [key a b hb, key c d hd]
  have ha : ∀ c, MgOld.atoms rd fl c its = MgOld.atoms rd fl c its' := by
    intro c
    have key : ∀ (l : List MgOld) (k : Key), l.filter (fun i => i.atom? = some k) = (l.filter (fun i => i.atom?.isSome)).filter (fun i => i.atom? = some k) := by
      intro l k
      rw [List.filter_filter]
      apply List.filter_congr
      intro i _
      cases i.atom? <;> simp
    rw [MgOld.atoms, MgOld.atoms]
    apply List.map_congr_left
    intro kv _
    rw [key its, key its', h1]
  subst he
  rw [MgFile.result, MgFile.result, ho]
  dsimp only
  rw [ht, ha]
  rfl

theorem get?_addAll_ne {d : Dict Key PyVal} {k k' : Str} {vs : List PyVal} (h : k' ≠ k) : (addAll d k vs).get? (.str k') = d.get? (.str k') := by
  rw [addAll]
  split
  · rfl
  · split <;> exact Dict.get?_set_ne _ _ _ _ (by simpa using h)

/-- No atom has an entry `eigenvalue` or `eigenvector`: the documented names are misspelt. -/
theorem C69_names (f : MgFile) (its : List MgOld) (lines : List Str) (hl : f.Lines lines) (hk : f.Ok) (ho : f.old = some its)
    (hn : ∀ s i name v, MgOld.value s i name v ∈ its → Str.lower name ≠ py"eigenvalue" ∧ Str.lower name ≠ py"eigenvector") :
    ∃ d info, parse_magres_file lines = .ok (.dict d) ∧ Dict.get? d (.str (py"atom_info")) = some (.dict info) ∧
      ∀ kv ∈ info, ∃ e, kv.2 = .dict e ∧ Dict.get? e (.str (py"eigenvalue")) = none ∧ Dict.get? e (.str (py"eigenvector")) = none := by
  obtain ⟨rd, fl, -, d, h1, -, h2⟩ := C69_partial f its lines hl hk ho
  refine ⟨d, _, h1, h2, ?_⟩
  intro kv hkv
  rw [MgOld.atoms, List.mem_map] at hkv
  obtain ⟨c, -, rfl⟩ := hkv
  refine ⟨_, rfl, ?_⟩
  have key : ∀ (l : List MgOld) (e : Dict Key PyVal), (∀ i ∈ l, i ∈ its) →
      (Dict.get? e (.str (py"eigenvalue")) = none ∧ Dict.get? e (.str (py"eigenvector")) = none) →
      Dict.get? (l.foldl (MgOld.put rd fl) e) (.str (py"eigenvalue")) = none ∧ Dict.get? (l.foldl (MgOld.put rd fl) e) (.str (py"eigenvector")) = none := by
    intro l
    induction l with
    | nil => intro e _ h; exact h
    | cons i l ih =>
      intro e hi h
      refine ih _ (fun j hj => hi j (by simp [hj])) ?_
      cases i with
      | eigenvalue s i v =>
        show (addAll _ _ _).get? _ = _ ∧ (addAll _ _ _).get? _ = _
        rw [get?_addAll_ne (by decide), get?_addAll_ne (by decide)]; exact h
      | eigenvector s i v =>
        show (addAll _ _ _).get? _ = _ ∧ (addAll _ _ _).get? _ = _
        rw [get?_addAll_ne (by decide), get?_addAll_ne (by decide)]; exact h
      | value s i name v =>
        obtain ⟨n1, n2⟩ := hn s i name v (hi _ (by simp))
        show Dict.get? (Dict.set _ _ _) _ = _ ∧ Dict.get? (Dict.set _ _ _) _ = _
        rw [Dict.get?_set_ne _ _ _ _ (by simpa using Ne.symm n1), Dict.get?_set_ne _ _ _ _ (by simpa using Ne.symm n2)]; exact h
      | frame => exact h
      | shielding rows => exact h
      | other => exact h
  exact key _ _ (fun i hi => (List.mem_filter.1 hi).1) ⟨rfl, rfl⟩

/-! ### A file -/

theorem open_of (name l : Str) (h : l = 91 :: (name ++ py"]\n") ∧ name ≠ [] ∧ ∀ c ∈ name, NameChar c) : OpenLine name l :=
  ⟨[], py"\n", by rw [h.1]; simp, by decide, by decide, h.2⟩

theorem close_of (name l : Str) (h : l = 91 :: 47 :: (name ++ py"]\n") ∧ name ≠ [] ∧ ∀ c ∈ name, NameChar c) : CloseLine l :=
  ⟨[], name, py"\n", by rw [h.1]; simp, by decide, by decide, h.2⟩

theorem section_of (name : Str) (inner : List Str) (hn : name ≠ [] ∧ ∀ c ∈ name, NameChar c) (h : ∀ l ∈ inner, Str.contains (py"[/") l = false) :
    Section name inner ((91 :: (name ++ py"]\n")) :: (inner ++ [91 :: 47 :: (name ++ py"]\n")])) :=
  ⟨_, _, rfl, open_of _ _ ⟨rfl, hn⟩, close_of _ _ ⟨rfl, hn⟩, fun l hl => not_occurs _ _ (h l hl)⟩

theorem calc_of (name v : Str) (hn : ∀ c ∈ name, isSpace c = false) (hv : Trimmed v) :
    MgCalc.Line (py"calc_" ++ name ++ (py"  " ++ (v ++ py"\n"))) ⟨name, some v⟩ :=
  ⟨hn, [], py"\n", by decide, by decide, hv, py"  ", by decide, by decide, rfl⟩

def exMgCalc : List MgCalc := [⟨py"code", some (py"CASTEP")⟩, ⟨py"code_version", some (py"22.11")⟩, ⟨py"name", none⟩]

def exMgCalcLines : List Str := [py"calc_code  CASTEP\n", py"calc_code_version  22.11\n", py"calc_name\n"]

theorem exMgCalc_lines : List.Forall₂ MgCalc.Line exMgCalcLines exMgCalc :=
  .cons (calc_of _ _ (by decide) ⟨⟨67, py"ASTEP", rfl, by decide⟩, py"CASTE", 80, rfl, by decide⟩)
    (.cons (calc_of _ _ (by decide) ⟨⟨50, py"2.11", rfl, by decide⟩, py"22.1", 49, rfl, by decide⟩)
    (.cons ⟨by decide, [], py"\n", by decide, by decide, rfl⟩ .nil))

theorem exMgVersion : MgCalc.Version exMgCalc (exInt (py"22")) :=
  ⟨by decide +kernel, by decide +kernel, py".11", .inr rfl, by decide +kernel⟩

def z (i : Nat) : Numeral := exDec (natStr i) (py"5")

def exMgAtoms : List MgAtoms :=
  [.units (py"lattice") (py"Angstrom"), .lattice [z 1, z 2, z 3, z 4, z 5, z 6, z 7, z 8, z 9], .other,
   .atom (py"H") (exInt (py"1")) [z 0, z 1, z 2], .atom (py"C") (exInt (py"1")) [z 3, z 4, z 5]]

def exMgAtomsLines : List Str :=
  [py"units lattice Angstrom\n", py"lattice  1.5 2.5 3.5 4.5 5.5 6.5 7.5 8.5 9.5\n", py"\n", py"atom H  H  1  0.5 1.5 2.5\n", py"atom C  C  1  3.5 4.5 5.5\n"]

theorem exMgAtoms_lines : List.Forall₂ MgAtoms.Line exMgAtomsLines exMgAtoms :=
  .cons ⟨by decide +kernel, (fields_iff _ _).2 (by decide +kernel)⟩
    (.cons ⟨by decide +kernel, (fields_iff _ _).2 (by decide +kernel)⟩
    (.cons ⟨by decide +kernel, by decide +kernel, by decide +kernel⟩
    (.cons ⟨by decide +kernel, py"H", (fields_iff _ _).2 (by decide +kernel)⟩
    (.cons ⟨by decide +kernel, py"C", (fields_iff _ _).2 (by decide +kernel)⟩ .nil))))

def exMgTensors : List MgTensor :=
  [.units (py"ms") (py"ppm"), .single (py"ms") (py"H") (exInt (py"1")) [z 1, z 2, z 3],
   .single (py"ms") (py"C") (exInt (py"10000")) [z 1, z 2, z 3],
   .couple (py"isc") (py"H") (exInt (py"1")) (py"C") (exInt (py"1")) [z 4, z 5], .other]

def exMgTensorLines : List Str :=
  [py"units ms ppm\n", py"ms H  1  1.5 2.5 3.5\n", py"ms C10000  1.5 2.5 3.5\n", py"isc H  1 C  1  4.5 5.5\n", py"sus 1.5\n"]

theorem exMgTensor_lines : List.Forall₂ (MgTensor.Line 5) exMgTensorLines exMgTensors :=
  .cons ⟨by decide +kernel, (fields_iff _ _).2 (by decide +kernel)⟩
    (.cons ⟨by decide +kernel, .inl ((fields_iff _ _).2 (by decide +kernel))⟩
    (.cons ⟨by decide +kernel, .inr ⟨by decide +kernel, ⟨z 1, rfl, by decide +kernel⟩, (fields_iff _ _).2 (by decide +kernel)⟩⟩
    (.cons ⟨by decide +kernel, (fields_iff _ _).2 (by decide +kernel)⟩
    (.cons ⟨by decide +kernel, py"sus", [py"1.5"], (fields_iff _ _).2 (by decide +kernel), by decide +kernel, by decide +kernel⟩ .nil))))

/-- The tensor of one atom, then the data of both and the tensor of the second. -/
def exMgOld (a : Nat) : List MgOld :=
  [.frame, .shielding [[z a, z 2], [z 3, z 4]], .eigenvalue (py"H") (exInt (py"1")) (z 1), .eigenvector (py"H") (exInt (py"1")) [z 1, z 2],
   .value (py"H") (exInt (py"1")) (py"Isotropic") (z 4), .other, .shielding [[z 5, z 6]], .value (py"C") (exInt (py"1")) (py"Isotropic") (z 4)]

def exMgOldLines (a : Nat) : List (List Str) :=
  [[py"====\n", py" Atom: H 1\n", py"====\n"],
   [py" TOTAL Shielding Tensor\n", py"\n", py"  " ++ (z a).text ++ py" 2.5\n", py"  3.5 4.5\n", py"\n"],
   [py"H 1 Eigenvalue  sigma_xx 1.5 (ppm)\n"], [py"H 1 Eigenvector sigma_xx 1.5 2.5\n"], [py"H 1 Isotropic: 4.5 (ppm)\n"],
   [py"H 1 Coordinates 0.5 1.5 2.5 A\n"], [py" TOTAL Shielding Tensor\n", py"\n", py"  5.5 6.5\n", py"\n"], [py"C 1 Isotropic: 4.5 (ppm)\n"]]

theorem exMgOld_data (l : Str) (ws : List Str) (h : Str.split l = ws ∧ Str.contains (py"TOTAL Shielding Tensor") l = false ∧ l.head? ≠ some 61 ∧ (91 : Nat) ∉ l) :
    MgOld.Data l ws := ⟨(fields_iff _ _).2 h.1, not_occurs _ _ h.2.1, h.2.2⟩

theorem exMgOld_lines (a : Nat) (ha : a = 1 ∨ a = 7) : List.Forall₂ MgOld.Lines (exMgOldLines a) (exMgOld a) := by
  refine .cons ⟨_, [py" Atom: H 1\n"], _, rfl, ⟨4, by decide, .inr rfl⟩, ⟨4, by decide, .inr rfl⟩, by decide +kernel⟩
    (.cons ⟨_, _, [py"  " ++ (z a).text ++ py" 2.5\n", py"  3.5 4.5\n"], _, rfl, ⟨py" ", py"\n", rfl⟩, by decide +kernel, by decide +kernel, by decide +kernel, ?_⟩
    (.cons ⟨_, py"sigma_xx", [py"(ppm)"], rfl, exMgOld_data _ _ (by decide +kernel)⟩
    (.cons ⟨_, py"sigma_xx", rfl, exMgOld_data _ _ (by decide +kernel)⟩
    (.cons ⟨_, [py"(ppm)"], rfl, exMgOld_data _ _ (by decide +kernel)⟩
    (.cons ⟨_, rfl, not_occurs _ _ (by decide +kernel), by decide +kernel, .inr (.inr ⟨py"H", exInt (py"1"), py"Coordinates", [py"0.5", py"1.5", py"2.5", py"A"],
      (fields_iff _ _).2 (by decide +kernel), by decide +kernel, by decide +kernel, by decide +kernel, by decide +kernel, by decide +kernel⟩)⟩
    (.cons ⟨_, _, [py"  5.5 6.5\n"], _, rfl, ⟨py" ", py"\n", rfl⟩, by decide +kernel, by decide +kernel, by decide +kernel, ?_⟩
    (.cons ⟨_, [py"(ppm)"], rfl, exMgOld_data _ _ (by decide +kernel)⟩ .nil)))))))
  · rcases ha with rfl | rfl <;>
      exact .cons ((fields_iff _ _).2 (by decide +kernel)) (.cons ((fields_iff _ _).2 (by decide +kernel)) .nil)
  · exact .cons ((fields_iff _ _).2 (by decide +kernel)) .nil

def exMgFile (a : Nat) : MgFile := ⟨exMgCalc, exInt (py"22"), exMgAtoms, exMgTensors, some (exMgOld a)⟩

def exMgSec (name : Str) (inner : List Str) : List Str := (91 :: (name ++ py"]\n")) :: (inner ++ [91 :: 47 :: (name ++ py"]\n")])

def exMgLines (a : Nat) : List Str :=
  [py"#$magres-abinitio-v1.0\n"] ++ (exMgSec (py"calculation") exMgCalcLines ++ ([] ++ (exMgSec (py"atoms") exMgAtomsLines ++ ([py"\n"] ++
    (exMgSec (py"magres") exMgTensorLines ++ ([] ++ (exMgSec (py"magres_old") (exMgOldLines a).flatten ++ [py"\n"])))))))

theorem exMg_lines (a : Nat) (ha : a = 1 ∨ a = 7) : (exMgFile a).Lines (exMgLines a) :=
  ⟨_, _, _, _, _, _, _, _, _, _, _, rfl, by unfold Outside; decide +kernel, by unfold Outside; decide +kernel, by unfold Outside; decide +kernel,
    by unfold Outside; decide +kernel,
    section_of _ _ (by decide +kernel) (by decide +kernel), exMgCalc_lines, section_of _ _ (by decide +kernel) (by decide +kernel), exMgAtoms_lines,
    section_of _ _ (by decide +kernel) (by decide +kernel), exMgTensor_lines, exMgOldLines a, _, _, rfl, by unfold Outside; decide +kernel,
    section_of _ _ (by decide +kernel) (by rcases ha with rfl | rfl <;> decide +kernel), exMgOld_lines a ha⟩

theorem exMg_ok (a : Nat) (ha : a = 1 ∨ a = 7) : (exMgFile a).Ok := by
  refine ⟨exMgVersion, by rcases ha with rfl | rfl <;> decide +kernel, ?_, ?_, ?_⟩
  · intro i hi
    simp only [exMgFile, exMgAtoms, List.mem_cons, List.not_mem_nil, or_false] at hi
    rcases hi with rfl | rfl | rfl | rfl | rfl
    · trivial
    · trivial
    · trivial
    · exact ⟨by decide +kernel, by decide +kernel⟩
    · exact ⟨by decide +kernel, by decide +kernel⟩
  · intro i hi
    simp only [exMgFile, exMgTensors, List.mem_cons, List.not_mem_nil, or_false] at hi
    rcases hi with rfl | rfl | rfl | rfl | rfl
    · trivial
    · exact ⟨by decide +kernel, by decide +kernel⟩
    · exact ⟨by decide +kernel, by decide +kernel⟩
    · exact ⟨⟨by decide +kernel, by decide +kernel⟩, by decide +kernel, by decide +kernel⟩
    · trivial
  · have hH : ∃ s n p, MgAtoms.atom s n p ∈ exMgAtoms ∧ MgAtoms.atomKey (py"H") (exInt (py"1")) = MgAtoms.atomKey s n :=
      ⟨_, _, _, by rw [exMgAtoms]; exact .tail _ (.tail _ (.tail _ (.head _))), rfl⟩
    have hC : ∃ s n p, MgAtoms.atom s n p ∈ exMgAtoms ∧ MgAtoms.atomKey (py"C") (exInt (py"1")) = MgAtoms.atomKey s n :=
      ⟨_, _, _, by rw [exMgAtoms]; exact .tail _ (.tail _ (.tail _ (.tail _ (.head _)))), rfl⟩
    intro i hi
    simp only [exMgFile, exMgOld, Option.getD_some, List.mem_cons, List.not_mem_nil, or_false] at hi
    rcases hi with rfl | rfl | rfl | rfl | rfl | rfl | rfl | rfl
    · exact ⟨trivial, fun k hk => by cases hk⟩
    · exact ⟨by intro r hr; simp at hr; rcases hr with rfl | rfl <;> simp, fun k hk => by cases hk⟩
    · exact ⟨⟨by decide +kernel, by decide +kernel⟩, fun k hk => by cases hk; exact hH⟩
    · exact ⟨⟨by decide +kernel, by decide +kernel⟩, fun k hk => by cases hk; exact hH⟩
    · exact ⟨⟨by decide +kernel, by decide +kernel, by decide +kernel, by unfold MgOld.Letters; decide +kernel, by decide +kernel, by decide +kernel⟩,
        fun k hk => by cases hk; exact hH⟩
    · exact ⟨trivial, fun k hk => by cases hk⟩
    · exact ⟨by intro r hr; simp at hr; subst hr; simp, fun k hk => by cases hk⟩
    · exact ⟨⟨by decide +kernel, by decide +kernel, by decide +kernel, by unfold MgOld.Letters; decide +kernel, by decide +kernel, by decide +kernel⟩,
        fun k hk => by cases hk; exact hC⟩

example : ∃ rd fl : Numeral → F64, (∀ n : Numeral, n.Valid → n.InRange → F64.Nearest n.value (rd n) ∧ F64.Nearest n.value (fl n)) ∧
    parse_magres_file (exMgLines 1) = .ok (.dict ((exMgFile 1).result rd fl)) := C68 _ _ (exMg_lines 1 (.inl rfl)) (exMg_ok 1 (.inl rfl))

example : parse_magres_file ([] ++ (exMgSec (py"magres") exMgTensorLines ++ exMgSec (py"calculation") exMgCalcLines)) = .error .nameError :=
  C68_order _ exMgTensorLines _ _ (by unfold Outside; decide +kernel) (section_of _ _ (by decide +kernel) (by decide +kernel))

example : parse_magres_file ([] ++ (exMgSec (py"calculation") (exMgCalcLines ++ py"\n" :: []) ++ exMgSec (py"magres") [])) = .error .valueError :=
  C68_calculation_blank exMgCalc _ _ _ _ _ (py"\n") (by unfold Outside; decide +kernel) exMgCalc_lines (by decide)
    (section_of _ _ (by decide +kernel) (by decide +kernel))

example : parse_magres_file ([] ++ (exMgSec (py"calculation") exMgCalcLines ++ ([] ++ (exMgSec (py"atoms") (exMgAtomsLines ++
    [py"atom H  H100  0.5 1.5 2.5\n"]) ++ [])))) = .error .valueError :=
  C68_atoms_glued exMgCalc (exInt (py"22")) exMgAtoms _ _ _ _ _ [] _ _ (py"atom H  H100  0.5 1.5 2.5\n") (py"H") (py"H100") (z 0) [z 1, z 2]
    (by unfold Outside; decide +kernel) (by unfold Outside; decide +kernel) (section_of _ _ (by decide +kernel) (by decide +kernel)) exMgCalc_lines exMgVersion
    (section_of _ _ (by decide +kernel) (by decide +kernel)) exMgAtoms_lines (exMg_ok 1 (.inl rfl)).2.2.1 (by decide +kernel) (by decide +kernel)
    ((fields_iff _ _).2 (by decide +kernel)) (by decide +kernel) (by decide +kernel)

example : parse_magres_file ([] ++ (exMgSec (py"calculation") exMgCalcLines ++ ([] ++ (exMgSec (py"magres") (exMgTensorLines ++
    [py"\n"]) ++ [])))) = .error .indexError :=
  C68_magres_blank exMgCalc (exInt (py"22")) exMgTensors _ _ _ _ _ [] _ _ (py"\n")
    (by unfold Outside; decide +kernel) (by unfold Outside; decide +kernel) (section_of _ _ (by decide +kernel) (by decide +kernel)) exMgCalc_lines exMgVersion
    (section_of _ _ (by decide +kernel) (by decide +kernel)) exMgTensor_lines (exMg_ok 1 (.inl rfl)).2.2.2.1 (by decide +kernel) (by decide +kernel)

example : ∃ rd fl : Numeral → F64, (∀ n : Numeral, n.Valid → n.InRange → F64.Nearest n.value (rd n) ∧ F64.Nearest n.value (fl n)) ∧
    ∃ d, parse_magres_file (exMgLines 1) = .ok (.dict d) ∧
      Dict.get? d (.str (py"total_shielding")) = some ((MgOld.tensors rd (exMgOld 1)).getLast?.getD .none) ∧
      Dict.get? d (.str (py"atom_info")) = some (.dict (MgOld.atoms rd fl (MgAtoms.coords rd exMgAtoms) (exMgOld 1))) :=
  C69_partial (exMgFile 1) _ _ (exMg_lines 1 (.inl rfl)) (exMg_ok 1 (.inl rfl)) rfl

/-- The tensors of all atoms are not reported: two files with different tensors of the first atom read the same. -/
theorem C69_violated : ∃ (f f' : MgFile) (its its' : List MgOld) (lines lines' : List Str), f.Lines lines ∧ f'.Lines lines' ∧ f.Ok ∧ f'.Ok ∧
    f.old = some its ∧ f'.old = some its' ∧
    (its.filterMap fun | .shielding rows => some (rows.map (List.map Numeral.value)) | _ => none) ≠
      (its'.filterMap fun | .shielding rows => some (rows.map (List.map Numeral.value)) | _ => none) ∧
    parse_magres_file lines = parse_magres_file lines' :=
  ⟨exMgFile 1, exMgFile 7, exMgOld 1, exMgOld 7, _, _, exMg_lines 1 (.inl rfl), exMg_lines 7 (.inr rfl), exMg_ok 1 (.inl rfl), exMg_ok 7 (.inr rfl), rfl, rfl,
    by decide +kernel,
    C69_lost (exMgFile 1) (exMgFile 7) (exMgOld 1) (exMgOld 7) _ _ (exMg_lines 1 (.inl rfl)) (exMg_lines 7 (.inr rfl)) (exMg_ok 1 (.inl rfl)) (exMg_ok 7 (.inr rfl)) rfl rfl rfl
      ⟨(exMgOld 1).take 6, (exMgOld 1).drop 7, [[z 5, z 6]], (exMgOld 7).take 6, (exMgOld 7).drop 7, rfl, rfl,
        by intro i hi r e; subst e; simp [exMgOld] at hi, by intro i hi r e; subst e; simp [exMgOld] at hi⟩⟩

example : ∃ d info, parse_magres_file (exMgLines 1) = .ok (.dict d) ∧ Dict.get? d (.str (py"atom_info")) = some (.dict info) ∧
    ∀ kv ∈ info, ∃ e, kv.2 = .dict e ∧ Dict.get? e (.str (py"eigenvalue")) = none ∧ Dict.get? e (.str (py"eigenvector")) = none := by
  refine C69_names (exMgFile 1) _ _ (exMg_lines 1 (.inl rfl)) (exMg_ok 1 (.inl rfl)) rfl ?_
  intro s i name v h
  simp only [exMgOld, List.mem_cons, MgOld.value.injEq, reduceCtorEq, false_or, List.not_mem_nil, or_false] at h
  rcases h with ⟨-, -, rfl, -⟩ | ⟨-, -, rfl, -⟩ <;> decide +kernel

end Verif.Props

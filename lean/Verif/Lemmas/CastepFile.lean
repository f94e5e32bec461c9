import Verif.Lemmas.CastepDoc
import Verif.Lemmas.GeomDoc
import Verif.Lemmas.GeomTable
import Verif.Lemmas.CastepFrame
import Verif.Lemmas.Gathered
import Verif.Lemmas.CastepTwo
import Verif.Lemmas.StressTitle
import Verif.Lemmas.Mulliken
import Verif.Lemmas.AtomTables
import Verif.Lemmas.CastepRows
import Verif.Lemmas.CastepMatrix
import Verif.Lemmas.UnitCell
import Verif.Lemmas.Scf
import Verif.Lemmas.MdData
/-
A `.castep` file as a whole: what each section adds.
-/
namespace Verif.Castep
open Verif Spec NumRe AtomRe

/-! ### Titles -/

theorem ex_blank {g post pre : Str} (hg : Blank g) : (star sp).Ex (pre, g ++ post) (g.reverse ++ pre, post) :=
  .star fun x hx => by simpa [CSet.has, CItem.has] using hg x hx

theorem ex_blanks {g pre : Str} (hg : Blank g) : (star sp).Ex (pre, g) (g.reverse ++ pre, []) := by
  have := ex_blank (post := []) (pre := pre) hg
  rwa [List.append_nil] at this

/-- The pattern for a line with a text. -/
abbrev headRe (w : Str) : Re := .seq .bol (.seq (star sp) (.seq (star sp) (.seq (star sp) (.seq (star sp)
  (litThen w (.seq (star sp) (.seq (star sp) (.seq (star sp) (.seq (star sp) .eol)))))))))

theorem headed_found {p : Pat} {w t : Str} (hp : p.re = headRe w) (h : Headed w t) : found p t = true := by
  obtain ⟨g, g', rfl, hg, hg'⟩ := h
  refine Pat.search_of_ex (q := (g'.reverse ++ (w.reverse ++ (g.reverse ++ [])), [])) ?_
  rw [hp]
  exact .seq .bol (.seq (ex_blank hg) (.seq .none (.seq .none (.seq .none (ex_lit (.seq (ex_blanks hg') (.seq .none (.seq .none (.seq .none
    (.eol (.inl rfl)))))))))))

theorem headed_occurs {w t : Str} (h : Headed w t) : Occurs w t := by
  obtain ⟨g, g', rfl, -, -⟩ := h
  exact ⟨g, g', by simp⟩

theorem BOND_START_eq : BOND_START_RE.re = litThen (py"Bond") (.seq (plus sp) (litThen (py"Population")
    (.seq (.rep true 0 (some 1) (.seq (plus sp) (litRe (py"Spin")))) (.seq (plus sp) (litRe (py"Length")))))) := by
  decide +kernel

theorem ex_gap {g post pre : Str} (hg : Blank g) (hne : g ≠ []) : (plus sp).Ex (pre, g ++ post) (g.reverse ++ pre, post) :=
  .plus (fun x hx => by simpa [CSet.has, CItem.has] using hg x hx) hne

theorem bond_found {l : Str} (h : BondTitle l) : found BOND_START_RE l = true := by
  obtain ⟨a, g1, m, g3, b, rfl, h1, n1, h3, n3, hm⟩ := h
  refine Pat.search_of_ex_at (q := ((py"Length").reverse ++ (g3.reverse ++ (m.reverse ++ ((py"Population").reverse ++ (g1.reverse ++ ((py"Bond").reverse ++ a.reverse))))), b)) ?_
  rw [BOND_START_eq]
  refine ex_lit (.seq (ex_gap h1 n1) (ex_lit (.seq ?_ (.seq (ex_gap h3 n3) ex_litRe))))
  rcases hm with rfl | ⟨g2, rfl, h2, n2⟩
  · exact .optNone
  · refine .opt ?_ (by simp)
    rw [List.append_assoc, List.reverse_append, List.append_assoc]
    exact .seq (ex_gap h2 n2) ex_litRe

/-- A number with a point, without its exponent. -/
theorem ex_fnum {n : Numeral} (hn : n.Valid) (hp : HasPoint n) (s pre : Str) : ∃ q, NumRe.F.Ex (pre, n.text ++ s) q := by
  obtain ⟨sg, ip, fr, ex⟩ := n
  cases fr with
  | none => exact absurd rfl hp
  | some d =>
    obtain ⟨h1, h2, h3, -⟩ := hn
    have e : Numeral.text ⟨sg, ip, some d, ex⟩ ++ s = Numeral.signText sg ++ (ip ++ (46 :: (d ++ (Numeral.expText ex ++ s)))) := by
      simp [Numeral.text, Numeral.fracText]
    rw [e]
    have hs : ∃ q : Str, (NumRe.opt NumRe.pm).Ex (pre, Numeral.signText sg ++ (ip ++ (46 :: (d ++ (Numeral.expText ex ++ s))))) (q, ip ++ (46 :: (d ++ (Numeral.expText ex ++ s)))) := by
      refine ⟨_, .rep (w := Numeral.signText sg) ?_ (Nat.zero_le _) ?_⟩
      · match sg with
        | none => simp [Numeral.signText]
        | some true => simp [Numeral.signText, has_pm]
        | some false => simp [Numeral.signText, has_pm]
      · rintro M ⟨⟩
        match sg with
        | none => simp [Numeral.signText]
        | some true => simp [Numeral.signText]
        | some false => simp [Numeral.signText]
    obtain ⟨q, hs⟩ := hs
    have d1 : ∀ c ∈ ip, NumRe.dig.has c = true := (allDigits_iff _).1 h1
    have d2 : ∀ c ∈ d, NumRe.dig.has c = true := (allDigits_iff _).1 (by simpa using h2)
    by_cases hd : d = []
    · subst hd
      have hip : ip ≠ [] := by rintro rfl; simp at h3
      exact ⟨_, .seq hs (.altR (.seq (.plus d1 hip) (.seq (.set (by decide)) .none)))⟩
    · exact ⟨_, .seq hs (.altL (.seq (.star d1) (.seq (.set (by decide)) (.plus d2 hd))))⟩

theorem FREE_eq : FREE_ENERGY_RE.re = litThen (py"Final free energy (E-TS)") (.seq (plus (ch 32)) (litThen (py"=") (.seq (plus (ch 32)) (.group 1 NumRe.EF)))) := by
  decide +kernel

theorem free_found {i j : Nat} {n : Numeral} {s : Str} (hn : n.Valid) (hp : HasPoint n) :
    (FREE_ENERGY_RE.match_ (py"Final free energy (E-TS)" ++ (List.replicate (i + 1) (c!" ") ++ (py"=" ++ (List.replicate (j + 1) (c!" ") ++
      (Numeral.text n ++ s)))))).isSome = true := by
  have hrep : ∀ (k : Nat) (post pre : Str), (plus (ch 32)).Ex (pre, List.replicate (k + 1) (c!" ") ++ post) ((List.replicate (k + 1) (c!" ")).reverse ++ pre, post) :=
    fun k post pre => .plus (fun x hx => by rw [List.eq_of_mem_replicate hx]; decide) (by simp)
  obtain ⟨q, hq⟩ := ex_fnum hn hp s ((List.replicate (j + 1) (c!" ")).reverse ++ ((py"=").reverse ++ ((List.replicate (i + 1) (c!" ")).reverse ++ ((py"Final free energy (E-TS)").reverse ++ []))))
  refine Pat.match_of_ex (q := q) ?_
  rw [FREE_eq]
  exact ex_lit (.seq (hrep _ _ _) (ex_lit (.seq (hrep _ _ _) (.group (.altR hq)))))

abbrev nonPlus : CSet := ⟨true, [.ch 43], false⟩

theorem BAND_eq : BAND_RE.re = .seq .bol (.seq (star sp) (.seq (star sp) (.seq (.set (ch 43)) (.seq (star sp)
    (.seq (.group 1 (.alt (litRe (py"B A N D")) (litRe (py"Band Structure Calculation")))) (.seq (plus nonPlus) (.seq (star sp) (.seq (.set (ch 43))
      (.seq (star sp) (.seq (star sp) .eol)))))))))) := by
  decide +kernel

theorem band_found {g1 g2 w s g3 : Str} (h1 : Blank g1) (h2 : Blank g2) (h3 : Blank g3) (hw : w = py"B A N D" ∨ w = py"Band Structure Calculation")
    (hs : s ≠ []) (hp : c!"+" ∉ s) : found BAND_RE (g1 ++ (c!"+" :: (g2 ++ (w ++ (s ++ (c!"+" :: g3)))))) = true := by
  refine Pat.search_of_ex (q := (g3.reverse ++ (c!"+" :: (s.reverse ++ (w.reverse ++ (g2.reverse ++ (c!"+" :: (g1.reverse ++ [])))))), [])) ?_
  rw [BAND_eq]
  refine .seq .bol (.seq (ex_blank h1) (.seq .none (.seq (.set (by decide)) (.seq (ex_blank h2) (.seq (.group ?_) (.seq (.plus ?_ hs) (.seq .none
    (.seq (.set (by decide)) (.seq (ex_blanks h3) (.seq .none (.eol (.inl rfl)))))))))))) 
  · rcases hw with rfl | rfl
    · exact .altL ex_litRe
    · exact .altR ex_litRe
  · intro c hc
    have : c ≠ c!"+" := fun e => hp (e ▸ hc)
    simpa [CSet.has, CItem.has] using this

/-! ### Tables -/

/-- Numbers are read by `rd`. -/
def GoodRd (rd : Numeral → F64) : Prop := ∀ n : Numeral, n.Valid → n.InRange → parse_float_or_rational n.text = .ok (rd n)

/-- Numbers are read by `fl`. -/
def GoodFl (fl : Numeral → F64) : Prop := ∀ n : Numeral, n.Valid → n.InRange → pyFloat n.text = .ok (fl n)

variable {rd fl : Numeral → F64}

theorem filterMap_some_map {α β : Type} (f : α → β) (l : List α) : l.filterMap (fun r => some (f r)) = l.map f := by
  induction l with
  | nil => rfl
  | cons a l ih => rw [List.filterMap_cons, ih]; rfl

theorem vecs_read (hrd : GoodRd rd) {rows : List AtomVec} (hok : ∀ a ∈ rows, a.Ok) : ∀ a ∈ rows, ∀ n ∈ [a.x, a.y, a.z], parse_float_or_rational n.text = .ok (rd n) :=
  fun a ha n hn => hrd n ((hok a ha).2.2.2 n hn).1 ((hok a ha).2.2.2 n hn).2

theorem vecs_ofList {rows : List AtomVec} (h : (rows.map AtomVec.key).Nodup) : Dict.ofList (rows.map (AtomVec.entry rd)) = rows.map (AtomVec.entry rd) := by
  apply Dict.ofList_nodup
  rw [List.map_map]
  exact h

theorem spins_block (hrd : GoodRd rd) {lines : List Str} {rows : List SpinRow} (hl : Interleaved NoDigit SpinRow.Line lines rows) (hok : ∀ r ∈ rows, r.toIonRow.Ok 2)
    (hd : (rows.map fun r => r.key).Nodup) : process_initial_spins lines = .ok (.dict (rows.map fun r => (r.key, .dict (r.info rd)))) := by
  rw [process_initial_spins, collectDict]
  rw [collect_rows (g := fun r : SpinRow => some (r.key, PyVal.dict (r.info rd)))
    (fun l h => by unfold onMatch; rw [IonTab.spin_miss' (p := INITIAL_SPIN_RE) (by rw [IonTab.SPIN_eq]) h]) hl fun l r hr h => ?_]
  · rw [filterMap_some_map]
    refine congrArg (fun x => (Except.ok (PyVal.dict x) : PyM PyVal)) (Dict.ofList_nodup _ ?_)
    rw [List.map_map]; exact hd
  · obtain ⟨a, b, hq⟩ : ∃ a b, r.nums = [a, b] := List.length_eq_two.1 (hok r hr).2.2.2.1
    exact IonTab.spin_line h (hok r hr) hq fun n hn => hrd n ((hok r hr).2.2.2.2 n (by rw [hq]; exact hn)).1 ((hok r hr).2.2.2.2 n (by rw [hq]; exact hn)).2

theorem born_block (hrd : GoodRd rd) {lines : List Str} {rows : List BornRow} (hl : BornRow.Table lines rows) (hok : ∀ r ∈ rows, r.Ok) (hd : (rows.map BornRow.key).Nodup) :
    process_born lines = .ok (.dict (rows.map fun r => (r.key, r.tensor rd))) := by
  rw [process_born, IonTab.born_table hl hok hrd _ (Nat.lt_succ_self _)]
  refine congrArg (fun x => (Except.ok (PyVal.dict x) : PyM PyVal)) (Dict.ofList_nodup _ ?_)
  rw [List.map_map]; exact hd

theorem bands_block (hrd : GoodRd rd) {lines : List Str} {points : List BandPoint} (hl : BandPoint.Table lines points) (hok : ∀ b ∈ points, b.Ok) :
    process_band_structure lines = .ok (.list (points.map fun b => .dict (b.info rd))) := by
  have hv : ∀ b ∈ points, ∀ n ∈ b.k ++ b.rows.map Prod.snd, n.Valid ∧ n.InRange := by
    intro b hb n hn
    rcases List.mem_append.1 hn with hn | hn
    · exact (hok b hb).2.1.2 n hn
    · obtain ⟨r, hr, rfl⟩ := List.mem_map.1 hn
      exact ((hok b hb).2.2 r hr).2.2
  obtain ⟨s, h1, h2⟩ := BandTab.table_fold (rd := rd) hl ([], []) [] rfl hok fun b hb n hn => hrd n (hv b hb n hn).1 (hv b hb n hn).2
  rw [process_band_structure, h1]
  show (do let l ← bandFlush s; return PyVal.list l) = _
  rw [h2]
  rfl

theorem cell_block (hrd : GoodRd rd) (hfl : GoodFl fl) {lines : List Str} {items : List CellLine} (h : List.Forall₂ CellLine.Line items lines)
    (hok : ∀ i ∈ items, ∀ n ∈ i.nums, n.Valid ∧ n.InRange) : process_unit_cell lines = .ok (unitCell rd fl items) :=
  unit_cell h (fun i hi n hn => hrd n (hok i hi n hn).1 (hok i hi n hn).2) fun i hi n hn => hfl n (hok i hi n hn).1 (hok i hi n hn).2

theorem stress_block (hrd : GoodRd rd) {t name : Str} {words : List Str} (ht : StressTitle t name) (hw : Fields name words) {lines : List Str}
    {xx xy xz yx yy yz zx zy zz : Numeral} (h : StressLines lines xx xy xz yx yy yz zx zy zz)
    (hn : ∀ n ∈ [xx, xy, xz, yx, yy, yz, zx, zy, zz], n.Valid ∧ n.InRange) :
    process_stresses (t :: lines) = .ok (forceKind words, .tuple ([xx, xy, xz, yy, yz, zz].map fun n => .float (rd n))) := by
  have hk : kindOf Res.STRESSES_BLOCK_RE t = .ok (forceKind words) := by
    have := stress_title ht
    obtain ⟨-, -, -, -, -, -, -, -, -, -, -, h1, h2⟩ := ht
    exact kind_of_gets this h1 h2 hw
  have hmem : ∀ n ∈ [xx, xy, xz, yy, yz, zz], n ∈ [xx, xy, xz, yx, yy, yz, zx, zy, zz] := by
    intro n; simp; tauto
  show (do let ftype ← kindOf Res.STRESSES_BLOCK_RE t; _) = _
  rw [hk]
  show (do let v ← to_type .float (strList (lines.foldl stressLine [])); _) = _
  rw [stress_fold h hn, to_type_nums fun n hn' => hrd n (hn n (hmem n hn')).1 (hn n (hmem n hn')).2]
  rfl

theorem mulliken_block (hrd : GoodRd rd) (hfl : GoodFl fl) {lines : List Str} {rows : List PopRow} (hl : PopRow.Table lines rows) (hok : ∀ r ∈ rows, r.Ok)
    (hd : (rows.map PopRow.key).Nodup) : process_mulliken lines = .ok (.dict (rows.map fun r => (r.key, .dict (r.info rd fl)))) := by
  rw [process_mulliken, Popn.loop_table hl hok (fun n h1 h2 => ⟨hrd n h1 h2, hfl n h1 h2⟩) _ (Nat.lt_succ_self _)]
  have : Dict.ofList (rows.map fun r => (r.key, PyVal.dict (r.info rd fl))) = rows.map fun r => (r.key, PyVal.dict (r.info rd fl)) := by
    apply Dict.ofList_nodup
    rw [List.map_map]
    exact hd
  exact congrArg (fun x => (Except.ok (PyVal.dict x) : PyM PyVal)) this

theorem hirshfeld_block (hfl : GoodFl fl) {lines : List Str} {rows : List IonRow} (hl : Interleaved NoDigit IonRow.Line lines rows)
    (hok : ∀ r ∈ rows, r.Ok 1 ∧ ∀ n ∈ r.nums, HasPoint n ∧ n.exp = none) (hd : (rows.map IonRow.key).Nodup) :
    process_hirshfeld lines = .ok (.dict (rows.flatMap fun r => r.nums.map fun n => (r.key, .float (fl n)))) := by
  have e : ∀ r ∈ rows, (r.nums.map fun n => (r.key, PyVal.float (fl n))) = [(r.key, PyVal.float (fl (r.nums.headD ⟨none, [], none, none⟩)))] := by
    intro r hr
    obtain ⟨q, hq⟩ : ∃ q, r.nums = [q] := List.length_eq_one_iff.1 (hok r hr).1.2.2.2.1
    rw [hq]; rfl
  have e2 : rows.flatMap (fun r => r.nums.map fun n => (r.key, PyVal.float (fl n))) =
      rows.map fun r => (r.key, PyVal.float (fl (r.nums.headD ⟨none, [], none, none⟩))) := by
    rw [List.map_eq_flatMap]
    clear hl hd
    induction rows with
    | nil => rfl
    | cons r rows ih => rw [List.flatMap_cons, List.flatMap_cons, e r (by simp), ih (fun r hr => hok r (by simp [hr])) fun r hr => e r (by simp [hr])]
  rw [e2, process_hirshfeld, collectDict]
  rw [collect_rows (g := fun r : IonRow => some (r.key, PyVal.float (fl (r.nums.headD ⟨none, [], none, none⟩))))
    (fun l h => by unfold onMatch; rw [IonTab.atom_miss (p := HIRSHFELD_RE) (by rw [IonTab.HIR_eq]) h]) hl fun l r hr h => ?_]
  · rw [filterMap_some_map]
    refine congrArg (fun x => (Except.ok (PyVal.dict x) : PyM PyVal)) (Dict.ofList_nodup _ ?_)
    rw [List.map_map]; exact hd
  · obtain ⟨q, hq⟩ : ∃ q, r.nums = [q] := List.length_eq_one_iff.1 (hok r hr).1.2.2.2.1
    have hm : q ∈ r.nums := by simp [hq]
    have hv := (hok r hr).1.2.2.2.2 q hm
    have he := mantissa_none ((hok r hr).2 q hm).2
    have := IonTab.hir_line (fl := fl) h (hok r hr).1 hq ((hok r hr).2 q hm).1 (by rw [he]; exact hfl q hv.1 hv.2)
    rw [he] at this
    rw [hq]
    exact this

theorem bonds_block (hfl : GoodFl fl) {lines : List Str} {rows : List BondRow} (h : Interleaved NoDigit BondRow.Line lines rows) (hok : ∀ r ∈ rows, r.Ok)
    (hk : (rows.map BondRow.key).Nodup) : process_bond_analysis lines = .ok (.dict (rows.map fun r => (r.key, r.entry fl fun n => (fl n).toRat ≠ 0))) := by
  have hr' : ∀ r ∈ rows, ∀ n ∈ [r.population, r.length] ++ r.spin.toList, pyFloat n.text = .ok (fl n) := fun r hr n hn =>
    hfl n ((hok r hr).2.2.2.2.2.2.2.2 n hn).1 ((hok r hr).2.2.2.2.2.2.2.2 n hn).2
  have ht : ∀ n, (PyVal.float (fl n)).truthy = decide ((fl n).toRat ≠ 0) := fun n => by
    rw [Bool.eq_iff_iff, decide_eq_true_eq]; exact truthy_iff _
  rw [process_bond_analysis, collectDict, collect_rows (g := fun r : BondRow =>
      some (r.key, r.entry fl fun n => (fl n).toRat ≠ 0)) (fun l => bd_skip) h fun l r hr hl => by
    rw [bd_row hl (hok r hr) (hr' r hr)]
    simp only [ht]]
  rw [filterMap_some_map]
  refine congrArg (fun x => (Except.ok (PyVal.dict x) : PyM PyVal)) (Dict.ofList_nodup _ ?_)
  rw [List.map_map]; exact hk

theorem disp_block (hrd : GoodRd rd) {lines : List Str} {rows : List DispRow} (hl : Interleaved NoNumberFirst DispRow.Line lines rows)
    (hok : ∀ r ∈ rows, r.toIonRow.Ok 6 ∧ r.temp.Valid) : process_atom_disp lines = .ok (.dict (nested (rows.map (·.entry rd)))) := by
  have := IonTab.nested_rows (f := dispLine) (g := fun r : DispRow => r.entry rd) (fun d l h => IonTab.disp_skip h d) hl (fun d l r hr h =>
    IonTab.disp_line h (hok r hr).1 (hok r hr).2 (fun m hm => hrd m ((hok r hr).1.2.2.2.2 m hm).1 ((hok r hr).1.2.2.2.2 m hm).2) d) []
  have : foldLines dispLine [] lines = .ok (nested (rows.map (·.entry rd))) := this
  rw [process_atom_disp, this]
  rfl

theorem thermo_block (hrd : GoodRd rd) (hfl : GoodFl fl) {A B : List Str} {zl : Str} {z : Numeral} {rows : List (List Numeral)} (hA : ∀ l ∈ A, ThermoOther l)
    (hz : ThermoZero zl z) (hzn : z.Valid ∧ z.InRange) (hB : Interleaved ThermoOther ThermoRow B rows) (hok : ∀ r ∈ rows, RowOk 5 r) :
    process_thermodynamics (A ++ zl :: B) = .ok (.dict ((.str (py"zero_point_energy"), .float (fl z)) :: columnTable rd thermoLabels rows)) := by
  have h1 : foldLines thermoLine [] (A ++ zl :: B) = .ok ([(.str (py"zero_point_energy"), .float (fl z))] ++ IonTab.colsOf' rows) := by
    rw [IonTab.fold_app (IonTab.fold_skip fun l hl => IonTab.thermo_skip (hA l hl) _), IonTab.fold_step (IonTab.thermo_zero hz hzn.1 (hfl z hzn.1 hzn.2) _)]
    have := IonTab.thermo_rows (a := [(.str (py"zero_point_energy"), .float (fl z))]) (by simp [Dict.keys]; decide) hB [] fun r hr => ⟨(hok r hr).1, fun n hn => ((hok r hr).2 n hn).1⟩
    exact this
  rw [process_thermodynamics, h1]
  have := IonTab.fix_table_pre (rd := rd) (a := [(.str (py"zero_point_energy"), .float (fl z))]) (labels := thermoLabels) (by simp [Dict.keys]; decide) rows
    fun r hr n hn => hrd n ((hok r hr).2 n hn).1 ((hok r hr).2 n hn).2
  exact congrArg (fun x : PyM (Dict Key PyVal) => (do let d ← x; pure (PyVal.dict d) : PyM PyVal)) this

/-! ### The run so far -/

theorem appendTo_gathered (es : List (Key × PyVal)) (k : Key) (v : PyVal) :
    MdGeom.appendTo (gathered es fun _ xs => .list xs) k v = .ok (gathered (es ++ [(k, v)]) fun _ xs => PyVal.list xs) := by
  rw [gathered_snoc, MdGeom.appendTo]
  by_cases hk : k ∈ es.map Prod.fst
  · rw [gathered_get es _ hk]
  · rw [gathered_none es _ hk, valsOf_none hk]; rfl

/-- What is added to a run: the key, the key below, the value. -/
abbrev Entry := Key × (Key × PyVal)

/-- The entry is added to the run. -/
def Adds (e : Entry) (f : Run → PyM Run) : Prop := ∀ es, f (runOf false es) = .ok (runOf false (es ++ [e]))

theorem runOf_snoc (es : List Entry) (e : Entry) : runOf false (es ++ [e]) = (runOf false es).set e.1 (combined false e.1 (valsOf es e.1 ++ [e.2])) := by
  obtain ⟨k, v⟩ := e
  rw [runOf, gathered_snoc]; rfl

theorem combined_nest {k : Key} (hk : k = .str (py"energies") ∨ k = .str (py"forces") ∨ k = .str (py"stresses")) (vs : List (Key × PyVal)) :
    combined false k vs = .dict (gathered vs fun _ xs => .list xs) := by
  rcases hk with rfl | rfl | rfl <;> simp [combined]

theorem adds_nest {k s : Key} {v : PyVal} (hk : k = .str (py"energies") ∨ k = .str (py"forces") ∨ k = .str (py"stresses")) :
    Adds (k, (s, v)) fun r => appendIn (ensure r k) k s v := by
  intro es
  dsimp only
  rw [runOf_snoc]
  dsimp only
  rw [runOf, ensure, appendIn]
  by_cases hm : k ∈ es.map Prod.fst
  · have hg := gathered_get es (combined false) hm
    have : (gathered es (combined false)).mem k = true := by
      rw [← mem_keys_iff, gathered_keys, List.mem_eraseDups]; exact hm
    rw [if_pos this, hg, combined_nest hk]
    dsimp only
    rw [appendTo_gathered, combined_nest hk]
    rfl
  · have : ¬ (gathered es (combined false)).mem k = true := by
      rw [← mem_keys_iff, gathered_keys, List.mem_eraseDups]; exact hm
    rw [if_neg this, Dict.get?_set_self]
    dsimp only
    rw [valsOf_none hm, combined_nest hk]
    show (Except.ok _ : PyM Run) = _
    rw [set_set, gathered_snoc]
    rfl

theorem combined_geom (last : Bool) (vs : List (Key × PyVal)) :
    combined last (.str (py"geom_opt")) vs = .dict (gathered (vs.filter (·.1 ≠ .none)) fun _ xs => .list xs) := by
  simp [combined]

theorem runOf_geom (es : List Entry) : (ensure (runOf false es) (.str (py"geom_opt"))).get? (.str (py"geom_opt")) =
    some (.dict (gathered ((valsOf es (.str (py"geom_opt"))).filter (·.1 ≠ .none)) fun _ xs => .list xs)) := by
  rw [runOf, ensure]
  by_cases hm : Key.str (py"geom_opt") ∈ es.map Prod.fst
  · have : (gathered es (combined false)).mem (.str (py"geom_opt")) = true := by
      rw [← mem_keys_iff, gathered_keys, List.mem_eraseDups]; exact hm
    rw [if_pos this, gathered_get es (combined false) hm, combined_geom]
  · have : ¬ (gathered es (combined false)).mem (.str (py"geom_opt")) = true := by
      rw [← mem_keys_iff, gathered_keys, List.mem_eraseDups]; exact hm
    rw [if_neg this, Dict.get?_set_self, valsOf_none hm]; rfl

theorem ensure_set {r : Run} {k : Key} {v w : PyVal} : (ensure r k v).set k w = r.set k w := by
  rw [ensure]
  split
  · rfl
  · rw [set_set]

theorem adds_geom {s : Str} {v : PyVal} : Adds (.str (py"geom_opt"), (.str s, v)) fun r => appendIn (ensure r (.str (py"geom_opt"))) (.str (py"geom_opt")) (.str s) v := by
  intro es
  dsimp only
  rw [runOf_snoc]
  dsimp only
  rw [appendIn, runOf_geom]
  dsimp only
  rw [appendTo_gathered, combined_geom, List.filter_append, List.filter_cons_of_pos (by simp)]
  show Except.ok (Dict.set (ensure _ _) _ _) = _
  rw [ensure_set]
  rfl

theorem adds_ensure {v : PyVal} : Adds (.str (py"geom_opt"), (.none, v)) fun r => .ok (ensure r (.str (py"geom_opt"))) := by
  intro es
  dsimp only
  rw [runOf_snoc]
  dsimp only
  refine congrArg Except.ok ?_
  rw [combined_geom, List.filter_append, List.filter_cons_of_neg (by simp), List.filter_nil, List.append_nil]
  have h := runOf_geom es
  rw [ensure] at h ⊢
  split
  · rename_i hm
    rw [if_pos hm] at h
    exact (set_self _ _ _ h).symm
  · rename_i hm
    rw [if_neg hm, Dict.get?_set_self] at h
    injection h with h
    rw [h]

theorem adds_push {k : Str} {s : Key} {v : PyVal} (hk : k ∈ LISTS) : Adds (.str k, (s, v)) fun r => MdGeom.appendTo r (.str k) v := by
  intro es
  dsimp only
  rw [runOf_snoc]
  dsimp only
  have hi : ∀ vs, combined false (.str k) vs = .list (vs.map Prod.snd) := by
    intro vs
    simp only [LISTS, List.mem_cons, List.not_mem_nil, or_false] at hk
    rcases hk with rfl | rfl | rfl | rfl | rfl <;> simp [combined, LISTS]
  rw [runOf, MdGeom.appendTo]
  by_cases hm : Key.str k ∈ es.map Prod.fst
  · rw [gathered_get es _ hm, hi, hi, List.map_append]; rfl
  · rw [gathered_none es _ hm, valsOf_none hm, hi]; rfl

/-- No enthalpy of molecular dynamics is there. -/
def Free (geo : Bool) (es : List Entry) : Prop := geo = true → ∀ e ∈ es, e.1 = .str (py"enthalpy") → e.2.1 ≠ .none

theorem free_append {geo : Bool} {es es' : List Entry} (h : Free geo es) (h' : Free geo es') : Free geo (es ++ es') := fun hg e he =>
  (List.mem_append.1 he).elim (h hg e) (h' hg e)

theorem combined_enthalpy (last : Bool) {vs : List (Key × PyVal)} (h : ∀ v ∈ vs, v.1 ≠ .none) : combined last (.str (py"enthalpy")) vs = .list (vs.map Prod.snd) := by
  rw [combined, if_neg (by simp), if_neg (by simp), if_neg (by simp), if_pos (.inr ⟨rfl, h⟩)]

theorem push_enthalpy {s : Str} {v : PyVal} {es : List Entry} (h : Free true es) :
    MdGeom.appendTo (runOf false es) (.str (py"enthalpy")) v = .ok (runOf false (es ++ [(.str (py"enthalpy"), (.str s, v))])) := by
  rw [runOf_snoc]
  dsimp only
  have hv : ∀ w ∈ valsOf es (.str (py"enthalpy")), w.1 ≠ .none := by
    intro w hw
    obtain ⟨e, he, rfl⟩ := List.mem_map.1 hw
    obtain ⟨h1, h2⟩ := List.mem_filter.1 he
    exact h rfl e h1 (by simpa using h2)
  have hv' : ∀ w ∈ valsOf es (.str (py"enthalpy")) ++ [(Key.str s, v)], w.1 ≠ .none := by
    intro w hw
    rcases List.mem_append.1 hw with hw | hw
    · exact hv w hw
    · obtain rfl := List.mem_singleton.1 hw; simp
  rw [combined_enthalpy _ hv', List.map_append, runOf, MdGeom.appendTo]
  by_cases hm : Key.str (py"enthalpy") ∈ es.map Prod.fst
  · rw [gathered_get es _ hm, combined_enthalpy _ hv]; rfl
  · rw [gathered_none es _ hm, valsOf_none hm]; rfl

/-- The keys under which there is more than one value. -/
abbrev LISTED : List Key := [.str (py"energies"), .str (py"forces"), .str (py"stresses"), .str (py"geom_opt"), .str (py"born"), .str (py"scf"), .str (py"md"),
  .str (py"memory_estimate"), .str (py"minimisation")]

theorem adds_store {k s : Key} {v : PyVal} (hk : k ∉ LISTED) (hs : k = .str (py"enthalpy") → s = .none := by intro _; rfl) : Adds (k, (s, v)) fun r => .ok (r.set k v) := by
  intro es
  dsimp only
  simp only [LISTED, List.mem_cons, List.not_mem_nil, or_false, not_or] at hk
  obtain ⟨h1, h2, h3, h4, h5, h6, h7, h8, h9⟩ := hk
  rw [runOf_snoc, combined, if_neg h1, if_neg (by rintro (h | h); exacts [h2 h, h3 h]), if_neg h4, if_neg]
  · simp
  · rintro (h | ⟨h, h'⟩)
    · simp only [LISTS, List.map_cons, List.map_nil, List.mem_cons, List.not_mem_nil, or_false] at h
      tauto
    · exact h' (s, v) (by simp) (hs h)

/-! ### What a section does -/

theorem dispatch_cut {n k : Nat} {name : Str} {S E : Pat} {x : Filters} {act : Env → Hit → List Str → State → PyM (State × List Str)} {stop pass : Str → Prop}
    (h : sections[n]? = some { name := name, grab := takeBlock S E k, wants := needs x, act := act })
    (ht : TRIGGERS.takeWhile (·.1 ≠ name) = TRIGGERS.take n) {t : Str} {b : List Str} (hr : Reaches name t) (he : Stops1 stop pass E)
    (hs : found S t = true) (hb : Cut stop pass k b) (hne : ¬ Str.strip t = []) (env : Env) (rest : List Str) (s : State) :
    dispatch env t sections (b ++ rest) s = if Filters.has x env.filters then act env ⟨t, t :: b, none⟩ rest s else .ok (s, rest) := by
  rw [dispatch_nth h ht hr, dispatch_cons]
  dsimp only
  rw [takeBlock_cut he hs hb hne]
  rfl

theorem dispatch_line {n : Nat} {name : Str} {p : Str → Bool} {act : Env → Hit → List Str → State → PyM (State × List Str)}
    (h : sections[n]? = some { name := name, grab := takeLine p, wants := always, act := act })
    (ht : TRIGGERS.takeWhile (·.1 ≠ name) = TRIGGERS.take n) {l : Str} (hr : Reaches name l) (hp : p l = true) (env : Env) (rest : List Str) (s : State) :
    dispatch env l sections rest s = act env ⟨l, [], none⟩ rest s := by
  rw [dispatch_nth h ht hr, dispatch_cons]
  dsimp only
  rw [takeLine, if_pos hp]
  rfl

theorem dispatch_match {n : Nat} {name : Str} {p : Pat} {act : Env → Hit → List Str → State → PyM (State × List Str)}
    (h : sections[n]? = some { name := name, grab := takeMatch p, wants := always, act := act })
    (ht : TRIGGERS.takeWhile (·.1 ≠ name) = TRIGGERS.take n) {l : Str} (hr : Reaches name l) (hp : (p.match_ l).isSome = true) (env : Env) (rest : List Str) (s : State) :
    ∃ m, dispatch env l sections rest s = act env ⟨l, [], m⟩ rest s := by
  obtain ⟨m, hm⟩ := Option.isSome_iff_exists.1 hp
  refine ⟨some m, ?_⟩
  rw [dispatch_nth h ht hr, dispatch_cons]
  dsimp only
  rw [takeMatch, hm]
  rfl

/-- The section is taken whole, and adds its content if it is wanted. -/
def Takes1 (w : Filters → Bool) (e : Entry) (ls : List Str) : Prop := ∃ t b, ls = t :: b ∧ ∀ (env : Env) (rest : List Str) (es : List Entry) (s : State),
  s.curr = runOf false es → dispatch env t sections (b ++ rest) s =
    .ok (if w env.filters then { s with curr := runOf false (es ++ [e]) } else s, rest)

theorem onRun_adds {e : Entry} {f : Env → Hit → Run → PyM Run} {env : Env} {h : Hit} {g : Run → PyM Run} (hg : Adds e g) (hf : ∀ r, f env h r = g r)
    {rest : List Str} {s : State} {es : List Entry} (hs : s.curr = runOf false es) : onRun f env h rest s = .ok ({ s with curr := runOf false (es ++ [e]) }, rest) := by
  rw [onRun, hs, hf, hg es]

/-- A section that is a block. -/
theorem takes_cut {n k : Nat} {name : Str} {S E : Pat} {x : Filters} {f : Env → Hit → Run → PyM Run} {stop pass : Str → Prop}
    (h : sections[n]? = some { name := name, grab := takeBlock S E k, wants := needs x, act := onRun f })
    (ht : TRIGGERS.takeWhile (·.1 ≠ name) = TRIGGERS.take n) {t : Str} {b : List Str} (hr : Reaches name t) (he : Stops1 stop pass E)
    (hs : found S t = true) (hb : Cut stop pass k b) (hne : ¬ Str.strip t = []) {e : Entry} {g : Run → PyM Run} (hg : Adds e g)
    (hf : ∀ env r, f env ⟨t, t :: b, none⟩ r = g r) : Takes1 (Filters.has x) e (t :: b) := by
  refine ⟨t, b, rfl, fun env rest es s hs' => ?_⟩
  rw [dispatch_cut h ht hr he hs hb hne, onRun_adds hg (hf env) hs']
  split <;> rfl

theorem store_eq {k : Str} {f : List Str → PyM PyVal} {h : Hit} {v : PyVal} (hf : f h.block = .ok v) (env : Env) (r : Run) :
    store k f env h r = .ok (r.set (.str k) v) := by rw [store, hf]; rfl

theorem push_eq {k : Str} {f : List Str → PyM PyVal} {h : Hit} {v : PyVal} (hf : f h.block = .ok v) (env : Env) (r : Run) :
    push k f env h r = MdGeom.appendTo r (.str k) v := by rw [push, hf]; rfl

theorem kinds_eq {k : Str} {f : List Str → PyM (Key × PyVal)} {h : Hit} {s : Key} {v : PyVal} (hf : f h.block = .ok (s, v)) (env : Env) (r : Run) :
    kinds k f env h r = appendIn (ensure r (.str k)) (.str k) s v := by rw [kinds, hf]; rfl

theorem numLast_has {l : Str} {ns : List Numeral} {n : Numeral} (hrd : GoodRd rd) (h : HasNumbers l (ns ++ [n])) (hv : ∀ m ∈ ns, m.Valid) (hn : n.Valid ∧ n.InRange) :
    numLast l = .ok (.float (rd n)) := by
  rw [numLast, get_numbers_has h (by
    intro m hm
    rcases List.mem_append.1 hm with hm | hm
    · exact hv m hm
    · obtain rfl := List.mem_singleton.1 hm; exact hn.1)]
  have : last_ ((ns ++ [n]).map Numeral.text) = .ok n.text := by
    simp [last_]
  rw [this]
  exact cellFloat (hrd n hn.1 hn.2)

theorem takes_energy (hrd : GoodRd rd) {k : EnergyKind} {n : Numeral} {ls : List Str} (h : (Content.energy k n).Lines ls) (hok : (Content.energy k n).Ok) :
    Takes1 (fun _ => true) (((Content.energy k n).key, ((Content.energy k n).sub, (Content.energy k n).value rd fl))) ls := by
  obtain ⟨l, ns, rfl, hr, hl, hn, hv⟩ := h
  refine ⟨l, [], rfl, fun env rest es s hs => ?_⟩
  have act : ∀ m, onRun (energy k.key) env ⟨l, [], m⟩ rest s = .ok ({ s with curr := runOf false (es ++ [((Content.energy k n).key, ((Content.energy k n).sub, (Content.energy k n).value rd fl))]) }, rest) := by
    intro m
    refine onRun_adds (adds_nest (.inl rfl)) (fun r => ?_) hs
    rw [energy, numLast_has hrd hn hv hok]
    rfl
  have key : ∀ (i : Nat) (p : Str → Bool), sections[i]? = some { name := k.name, grab := takeLine p, wants := always, act := onRun (energy k.key) } →
      TRIGGERS.takeWhile (·.1 ≠ k.name) = TRIGGERS.take i → p l = true →
      dispatch env l sections ([] ++ rest) s = .ok (if true then { s with curr := runOf false (es ++ [((Content.energy k n).key, ((Content.energy k n).sub, (Content.energy k n).value rd fl))]) } else s, rest) := by
    intro i p h1 h2 h3
    rw [List.nil_append, dispatch_line h1 h2 hr h3, act]
    rfl
  have starts : ∀ w : Str, (∃ s, l = w ++ s) → Str.startsWith l w = true := by
    rintro w ⟨s, rfl⟩
    rw [Str.startsWith, List.isPrefixOf_iff_prefix]
    exact List.prefix_append _ _
  cases k with
  | final => exact key 23 _ rfl (by decide +kernel) (starts _ hl)
  | corrected => exact key 24 _ rfl (by decide +kernel) ((Str.contains_iff _ _).2 hl)
  | zeroK => exact key 25 _ rfl (by decide +kernel) ((Str.contains_iff _ _).2 hl)
  | sedc => exact key 26 _ rfl (by decide +kernel) (starts _ hl)
  | dispersion => exact key 27 _ rfl (by decide +kernel) (starts _ hl)
  | free =>
    obtain ⟨i, j, q, t, rfl, h1, h2⟩ := hl
    obtain ⟨m, hm⟩ := dispatch_match (n := 28) rfl (by decide +kernel) hr (free_found h1 h2) env rest s
    rw [List.nil_append, hm]
    exact act m

theorem found_lit {p : Pat} {w l : Str} (hp : p.re = litRe w) (h : Occurs w l) : found p l = true := (search_lit p w hp l).2 h

theorem found_gets {p : Pat} {l : Str} {C : List (Nat × Str) → Prop} (h : Gets p.re [] l [] C) : found p l = true := by
  obtain ⟨m, h1, -⟩ := Gets.match_ h
  rw [found, search_of_match h1]; rfl

theorem nonblank_of_mem {l : Str} {c : Nat} (h : c ∈ l) (hc : isSpace c = false) : ¬ Str.strip l = [] := by
  intro e
  have := (strip_nil_iff l).1 e c h
  rw [hc] at this; cases this

theorem bond_occurs {l : Str} (h : BondTitle l) : Occurs (py"Bond") l := by
  obtain ⟨a, g1, m, g3, b, rfl, -⟩ := h
  exact ⟨a, _, by rw [List.append_assoc]⟩

theorem star_mem {g1 s1 x : Str} (h : s1 ≠ []) (hs : ∀ c ∈ s1, c = c!"*") : c!"*" ∈ g1 ++ (s1 ++ x) := by
  cases s1 with
  | nil => exact absurd rfl h
  | cons a s => simp [hs a (by simp)]

/-- The section is taken whole, and changes the entries. -/
def TakesL (E : Env → Prop) (geo : Bool) (f : Filters → List Entry → List Entry) (ls : List Str) : Prop :=
  ∃ t b, ls = t :: b ∧ ∀ env, E env → ∀ (rest : List Str) (es : List Entry) (s : State), Free geo es → s.curr = runOf false es →
    dispatch env t sections (b ++ rest) s = .ok ({ s with curr := runOf false (f env.filters es) }, rest)

theorem docEntries_one (F : Filters) (c : Content) : docEntries rd fl F [c] = if c.wanted F then c.items rd fl else [] := by
  rw [docEntries]
  cases h : c.wanted F with
  | true => rw [List.filter_cons_of_pos (by exact h)]; simp
  | false => rw [List.filter_cons_of_neg (by simp [h])]; simp

theorem takes_one {c : Content} {e : Entry} {ls : List Str} (h : Takes1 (fun F => c.wanted F) e ls) (he : c.items rd fl = [e]) (E : Env → Prop) (geo : Bool) :
    TakesL E geo (fun F es => es ++ docEntries rd fl F [c]) ls := by
  obtain ⟨t, b, rfl, h⟩ := h
  refine ⟨t, b, rfl, fun env _ rest es s _ hs => ?_⟩
  rw [h env rest es s hs]
  dsimp only
  rw [docEntries_one, he]
  split
  · rfl
  · rw [List.append_nil, ← hs]

theorem mem_occurs {l : Str} (h : MemTitle l) : Occurs (py"MEMORY AND SCRATCH") l := by
  obtain ⟨g, s, g1, w, s', g2, rfl, -⟩ := h
  exact ⟨g ++ (s ++ g1), w ++ (s' ++ g2), by simp only [List.append_assoc]⟩

theorem table_occurs {l : Str} (h : TableTitle l) : Occurs (py"<--") l := by
  obtain ⟨a, o, m, e, rfl, -⟩ := h
  exact ⟨a, _, by rw [List.append_assoc]⟩

theorem memory_block (hfl : GoodFl fl) {ls : List Str} {rows : List MemRow} (hl : Interleaved MemRow.Other MemRow.Line ls rows)
    (hok : ∀ r ∈ rows, ∀ n ∈ r.nums, n.Valid ∧ n.InRange) (hd : (rows.map MemRow.name).Nodup) :
    process_memory_est ls = .ok (.dict (rows.map fun r => (Key.str r.name, r.info fl))) := by
  rw [mem_block hl fun r hr n hn => ⟨(hok r hr n hn).1, hfl n (hok r hr n hn).1 (hok r hr n hn).2⟩, Dict.ofList_nodup]
  rw [List.map_map]
  have : (rows.map MemRow.name).map Key.str = rows.map (Prod.fst ∘ fun r => (Key.str r.name, r.info fl)) := by rw [List.map_map]; rfl
  rw [← this]
  exact hd.map fun a b h => by injection h

theorem table_block (hrd : GoodRd rd) {ls : List Str} {rows : List GeomRow} (hl : Interleaved NoDigit GeomRow.Line ls rows)
    (hok : ∀ r ∈ rows, ∀ n ∈ r.nums, n.Valid ∧ n.InRange) (hd : (rows.map GeomRow.key).Nodup) :
    process_geom_table ls = .ok (.dict (rows.map fun r => (r.key, r.info rd))) := by
  rw [geom_block hl fun r hr n hn => ⟨(hok r hr n hn).1, hrd n (hok r hr n hn).1 (hok r hr n hn).2⟩]
  have e : rows.foldl (fun d r => Dict.set d r.key (r.info rd)) [] = Dict.ofList (rows.map fun r => (r.key, r.info rd)) := by
    rw [Dict.ofList, List.foldl_map]
  rw [e, Dict.ofList_nodup]
  rw [List.map_map]
  exact hd

theorem dispatch_search {n : Nat} {name : Str} {p : Pat} {w : Filters → Bool} {act : Env → Hit → List Str → State → PyM (State × List Str)}
    (h : sections[n]? = some { name := name, grab := takeSearch p, wants := w, act := act })
    (ht : TRIGGERS.takeWhile (·.1 ≠ name) = TRIGGERS.take n) {l : Str} (hr : Reaches name l) {m : Match} (hp : p.search l = some m) (env : Env) (rest : List Str) (s : State) :
    dispatch env l sections rest s = if w env.filters then act env ⟨l, [], some m⟩ rest s else .ok (s, rest) := by
  rw [dispatch_nth h ht hr, dispatch_cons]
  dsimp only
  rw [takeSearch, hp]
  rfl

theorem takes_trial (hfl : GoodFl fl) {n : Numeral} {ls : List Str} (h : (Content.trial n).Lines ls) (hok : (Content.trial n).Ok) :
    Takes1 (fun F => (Content.trial n).wanted F) ((Content.trial n).key, ((Content.trial n).sub, (Content.trial n).value rd fl)) ls := by
  obtain ⟨l, rfl, hr, hl⟩ := h
  obtain ⟨m, h1, h2⟩ := trial_search hl hok.1.1 hok.2
  refine ⟨l, [], rfl, fun env rest es s hs => ?_⟩
  rw [List.nil_append, dispatch_search (n := 69) rfl (by decide +kernel) hr h1]
  show (if always env.filters = true then onRun trial env ⟨l, [], some m⟩ rest s else _) = _
  rw [if_pos (show always env.filters = true from rfl), onRun_adds (adds_geom (s := py"trial") (v := .float (fl n))) (fun r => ?_) hs]
  · rfl
  · rw [trial]
    show (do let v ← floatV ((m.group 1).getD []); _) = _
    rw [h2]
    show (do let v ← floatV n.text; _) = _
    rw [floatV, hfl n hok.1.1 hok.1.2]
    rfl

theorem takes_enthalpy (hrd : GoodRd rd) {n : Numeral} {ls : List Str} (h : (Content.enthalpy n).Lines ls) (hok : (Content.enthalpy n).Ok) (E : Env → Prop) :
    TakesL E true (fun F es => es ++ docEntries rd fl F [.enthalpy n]) ls := by
  obtain ⟨l, ns, rfl, hr, hl, hn, hv⟩ := h
  obtain ⟨m, hm⟩ := Option.isSome_iff_exists.1 (enthalpy_found hl)
  refine ⟨l, [], rfl, fun env _ rest es s hf hs => ?_⟩
  rw [List.nil_append, dispatch_search (n := 68) rfl (by decide +kernel) hr hm]
  dsimp only
  rw [docEntries_one]
  show (if needs Filters.GEOM_OPT env.filters = true then onRun enthalpy env ⟨l, [], some m⟩ rest s else _) = _
  by_cases hw : (Content.enthalpy n).wanted env.filters = true
  · rw [if_pos (show needs Filters.GEOM_OPT env.filters = true from hw), if_pos hw, onRun, hs, enthalpy, numLast_has hrd hn hv hok]
    show (match MdGeom.appendTo (ensure (runOf false es) (.str (py"geom_opt"))) (.str (py"enthalpy")) (PyVal.float (rd n)) with
        | .error e => (Except.error e : PyM (State × List Str))
        | .ok r => Except.ok ({ s with curr := r }, rest)) = _
    have e := adds_ensure (v := .none) es
    injection e with e
    rw [e, push_enthalpy (s := py"enthalpy"), List.append_assoc]
    · rfl
    · refine free_append hf fun _ e he hk => ?_
      obtain rfl := List.mem_singleton.1 he
      simp at hk
  · rw [if_neg (show ¬ needs Filters.GEOM_OPT env.filters = true from hw), if_neg hw, List.append_nil, ← hs]

theorem takes_single (hrd : GoodRd rd) (hfl : GoodFl fl) {c : Content} {ls : List Str} (h : c.Lines ls) (hok : c.Ok) :
    (∃ rows, c = .md rows) ∨ (∃ n, c = .enthalpy n) ∨ (Takes1 (fun F => c.wanted F) (c.key, (c.sub, c.value rd fl)) ls ∧ c.items rd fl = [(c.key, (c.sub, c.value rd fl))]) := by
  cases c with
  | md rows => exact .inl ⟨rows, rfl⟩
  | energy k n => exact .inr (.inr ⟨takes_energy hrd h hok, rfl⟩)
  | positions rows =>
    obtain ⟨t, b, rfl, hr, ht, hb, hl⟩ := h
    exact .inr (.inr ⟨takes_cut (n := 36) rfl (by decide +kernel) hr rules_xline (found_lit (by decide +kernel) ht) hb (strip_occurs ht (by decide +kernel)) (adds_store (by simp [LISTED, Content.key])) fun env r => store_eq (by dsimp only; rw [atreg_block hl hok.1 (vecs_read hrd hok.1), vecs_ofList hok.2]; rfl) env r, rfl⟩)
  | velocities rows =>
    obtain ⟨t, b, rfl, hr, ht, hb, hl⟩ := h
    exact .inr (.inr ⟨takes_cut (n := 38) rfl (by decide +kernel) hr rules_xline (found_lit (by decide +kernel) ht) hb (strip_occurs ht (by decide +kernel)) (adds_store (by simp [LISTED, Content.key])) fun env r => store_eq (by dsimp only; rw [atreg_block hl hok.1 (vecs_read hrd hok.1), vecs_ofList hok.2]; rfl) env r, rfl⟩)
  | spins rows =>
    obtain ⟨t, b, rfl, hr, ht, hb, hl⟩ := h
    exact .inr (.inr ⟨takes_cut (n := 39) rfl (by decide +kernel) hr rules_xline (found_lit (by decide +kernel) ht) hb (strip_occurs ht (by decide +kernel)) (adds_store (by simp [LISTED, Content.key])) fun env r => store_eq (spins_block hrd hl hok.1 hok.2) env r, rfl⟩)
  | forces words rows =>
    obtain ⟨t, b, name, rfl, hr, ht, hw, hb, hl⟩ := h
    have hne : ¬ Str.strip t = [] := by
      obtain ⟨g1, s1, g2, f, g3, s2, g4, rfl, -, hs, -⟩ := ht
      exact nonblank_of_mem (star_mem (hs s1 (by simp)).1 (hs s1 (by simp)).2) (by decide)
    exact .inr (.inr ⟨takes_cut (n := 45) rfl (by decide +kernel) hr rules_star (found_gets (force_title ht)) hb hne (adds_nest (.inr (.inl rfl))) fun env r => kinds_eq (by dsimp only; rw [forces_block ht hw hl hok.1 (vecs_read hrd hok.1), vecs_ofList hok.2]; rfl) env r, rfl⟩)
  | born rows =>
    obtain ⟨t, b, rfl, hr, ht, hb, hl⟩ := h
    exact .inr (.inr ⟨takes_cut (n := 59) rfl (by decide +kernel) hr rules_double (headed_found (by decide +kernel) ht) hb (strip_occurs (headed_occurs ht) (by decide +kernel)) (adds_push (by decide)) fun env r => push_eq (born_block hrd hl hok.1 hok.2) env r, rfl⟩)
  | bands points =>
    obtain ⟨t, b, g1, g2, w, q, g3, rfl, hr, rfl, h1, h2, h3, hw, hq, hp, hb, hl⟩ := h
    exact .inr (.inr ⟨takes_cut (n := 76) rfl (by decide +kernel) hr rules_double (band_found h1 h2 h3 hw hq hp) hb (nonblank_of_mem (c := c!"+") (by simp) (by decide)) (adds_store (by simp [LISTED, Content.key])) fun env r => store_eq (bands_block hrd hl hok) env r, rfl⟩)
  | cell items =>
    obtain ⟨t, b, rfl, hr, ht, hb, hl⟩ := h
    exact .inr (.inr ⟨takes_cut (n := 31) rfl (by decide +kernel) hr stops_empty (headed_found (by decide +kernel) ht) hb (strip_occurs (headed_occurs ht) (by decide +kernel)) (adds_store (by simp [LISTED, Content.key])) fun env r => store_eq (cell_block hrd hfl hl hok) env r, rfl⟩)
  | scf pre cycles =>
    obtain ⟨t, b, pl, rl, rfl, hr, ht, hb, hls, h1, h2⟩ := h
    exact .inr (.inr ⟨takes_cut (n := 19) rfl (by decide +kernel) hr stops_scf (found_lit (by decide +kernel) ht) hb (strip_occurs ht (by decide +kernel)) (adds_push (by decide)) fun env r => push_eq (by dsimp only; rw [hls]; exact Scf.table h1 hok.1 hok.2.1 h2 hok.2.2 fun n a b => ⟨hrd n a b, hfl n a b⟩) env r, rfl⟩)
  | stresses words xx xy xz yx yy yz zx zy zz =>
    obtain ⟨t, b, name, rfl, hr, ht, hw, hb, hl⟩ := h
    have hne : ¬ Str.strip t = [] := by
      obtain ⟨g1, s1, g2, f, g3, s2, g4, rfl, -, hs, -⟩ := ht
      exact nonblank_of_mem (star_mem (hs s1 (by simp)).1 (hs s1 (by simp)).2) (by decide)
    exact .inr (.inr ⟨takes_cut (n := 47) rfl (by decide +kernel) hr rules_star (found_gets (stress_title ht)) hb hne (adds_nest (.inr (.inr rfl))) fun env r => kinds_eq (stress_block hrd ht hw hl hok) env r, rfl⟩)
  | mulliken rows =>
    obtain ⟨t, b, rfl, hr, ht, hb, hl⟩ := h
    exact .inr (.inr ⟨takes_cut (n := 58) rfl (by decide +kernel) hr rules_double (headed_found (by decide +kernel) ht) hb (strip_occurs (headed_occurs ht) (by decide +kernel)) (adds_store (by simp [LISTED, Content.key])) fun env r => store_eq (mulliken_block hrd hfl hl hok.1 hok.2) env r, rfl⟩)
  | hirshfeld rows =>
    obtain ⟨t, b, rfl, hr, ht, hb, hl⟩ := h
    exact .inr (.inr ⟨takes_cut (n := 62) rfl (by decide +kernel) hr rules_double (headed_found (by decide +kernel) ht) hb (strip_occurs (headed_occurs ht) (by decide +kernel)) (adds_store (by simp [LISTED, Content.key])) fun env r => store_eq (hirshfeld_block hfl hl hok.1 hok.2) env r, rfl⟩)
  | orbitals rows n ns =>
    obtain ⟨t, b, A, B, C, tl, pl, rfl, hr, ht, hb, hls, h1, h2, h3, h4, h5⟩ := h
    exact .inr (.inr ⟨takes_cut (n := 60) rfl (by decide +kernel) hr rules_dashes (headed_found (by decide +kernel) ht) hb (strip_occurs (headed_occurs ht) (by decide +kernel)) (adds_store (by simp [LISTED, Content.key])) fun env r => store_eq (by dsimp only; rw [hls]; exact IonTab.orb_table h1 hok.1 h2 h3 h4 hok.2.1 h5 hok.2.2 hrd hfl) env r, rfl⟩)
  | bonds rows =>
    obtain ⟨t, b, rfl, hr, ht, hb, hl⟩ := h
    exact .inr (.inr ⟨takes_cut (n := 61) rfl (by decide +kernel) hr rules_double (bond_found ht) hb (strip_occurs (bond_occurs ht) (by decide +kernel)) (adds_store (by simp [LISTED, Content.key])) fun env r => store_eq (bonds_block hfl hl hok.1 hok.2) env r, rfl⟩)
  | displacements rows =>
    obtain ⟨t, b, rfl, hr, ht, hb, hl⟩ := h
    exact .inr (.inr ⟨takes_cut (n := 56) rfl (by decide +kernel) hr rules_dashes (headed_found (by decide +kernel) ht) hb (strip_occurs (headed_occurs ht) (by decide +kernel)) (adds_store (by simp [LISTED, Content.key])) fun env r => store_eq (disp_block hrd hl hok) env r, rfl⟩)
  | thermo z rows =>
    obtain ⟨t, b, A, B, zl, rfl, hr, ht, hb, hls, h1, h2, h3⟩ := h
    exact .inr (.inr ⟨takes_cut (n := 57) rfl (by decide +kernel) hr rules_dashes (headed_found (by decide +kernel) ht) hb (strip_occurs (headed_occurs ht) (by decide +kernel)) (adds_store (by simp [LISTED, Content.key])) fun env r => store_eq (by dsimp only; rw [hls]; exact thermo_block hrd hfl h1 h2 hok.1 h3 hok.2) env r, rfl⟩)
  | memory rows =>
    obtain ⟨t, b, rfl, hr, ht, hb, hl⟩ := h
    exact .inr (.inr ⟨takes_cut (n := 7) rfl (by decide +kernel) hr stops_memory (memory_found ht) hb (strip_occurs (mem_occurs ht) (by decide +kernel)) (adds_push (by decide)) fun env r => push_eq (memory_block hfl hl hok.1 hok.2) env r, rfl⟩)
  | geomTable rows =>
    obtain ⟨t, b, rfl, hr, ht, hb, hl⟩ := h
    exact .inr (.inr ⟨takes_cut (n := 71) rfl (by decide +kernel) hr stops_table (table_found ht) hb (strip_occurs (table_occurs ht) (by decide +kernel)) (adds_push (by decide)) fun env r => push_eq (table_block hrd hl hok.1 hok.2) env r, rfl⟩)
  | enthalpy n => exact .inr (.inl ⟨n, rfl⟩)
  | trial n => exact .inr (.inr ⟨takes_trial hfl h hok, rfl⟩)

theorem MD_TABLE_eq : MD_TABLE_RE.re = .seq .bol (.seq (star sp) (.seq (star sp) (.seq (.set (ch 120)) (.seq (star sp) (litThen (py"MD Data:")
    (.seq (star sp) (.seq (.set (ch 120)) (.seq (star sp) (.seq (star sp) .eol))))))))) := by
  decide +kernel

theorem md_found {g1 g2 g3 g4 : Str} (h : ∀ g ∈ [g1, g2, g3, g4], Blank g) :
    found MD_TABLE_RE (g1 ++ (c!"x" :: (g2 ++ (py"MD Data:" ++ (g3 ++ (c!"x" :: g4)))))) = true := by
  refine Pat.search_of_ex (q := (g4.reverse ++ (c!"x" :: (g3.reverse ++ ((py"MD Data:").reverse ++ (g2.reverse ++ (c!"x" :: (g1.reverse ++ [])))))), [])) ?_
  rw [MD_TABLE_eq]
  exact .seq .bol (.seq (ex_blank (h g1 (by simp))) (.seq .none (.seq (.set (by decide)) (.seq (ex_blank (h g2 (by simp))) (ex_lit
    (.seq (ex_blank (h g3 (by simp))) (.seq (.set (by decide)) (.seq (ex_blanks (h g4 (by simp))) (.seq .none (.eol (.inl rfl)))))))))))

theorem update_entries : ∀ (rows : List (Str × Numeral)) (es : List Entry), (∀ r ∈ rows, Key.str r.1 ∉ LISTED) →
    updateDict (runOf false es) (rows.map fun r => (Key.str r.1, PyVal.float (fl r.2))) =
      runOf false (es ++ rows.map fun r => (Key.str r.1, (Key.none, PyVal.float (fl r.2))))
  | [], es, _ => by simp [updateDict]
  | r :: rows, es, h => by
    have e := adds_store (s := Key.none) (v := PyVal.float (fl r.2)) (h r (by simp)) (fun _ => rfl) es
    injection e with e
    rw [updateDict, List.map_cons, List.foldl_cons, e]
    have := update_entries rows (es ++ [(Key.str r.1, (Key.none, PyVal.float (fl r.2)))]) fun r hr => h r (by simp [hr])
    rw [updateDict] at this
    rw [this]
    simp

theorem takes_mdTable (hfl : GoodFl fl) {rows : List (Str × Numeral)} {ls : List Str} (h : (Content.md rows).Lines ls) (hok : (Content.md rows).Ok) (E : Env → Prop) (geo : Bool) :
    TakesL E geo (fun F es => es ++ docEntries rd fl F [.md rows]) ls := by
  obtain ⟨t, b, g1, g2, g3, g4, rfl, hr, rfl, hg, hb, hl⟩ := h
  refine ⟨_, _, rfl, fun env _ rest es s _ hs => ?_⟩
  rw [dispatch_nth (n := 65) rfl (by decide +kernel) hr, dispatch_cons]
  dsimp only
  rw [takeBlock_cut rules_xline (md_found hg) hb (nonblank_of_mem (c := c!"x") (by simp) (by decide)), docEntries_one]
  show (if (needs Filters.MD env.filters || needs Filters.MD_SUMMARY env.filters) = true then _ else _) = _
  by_cases hw : (Content.md rows).wanted env.filters = true
  · rw [if_pos (show (needs Filters.MD env.filters || needs Filters.MD_SUMMARY env.filters) = true from hw), if_pos hw]
    show onRun mdData env _ rest s = _
    rw [onRun, hs, mdData, md_block hl (fun r hr => ⟨⟨(hok.1 r hr).1.1, (hok.1 r hr).2.1, (hok.1 r hr).2.2.1⟩, hfl r.2 (hok.1 r hr).1.1 (hok.1 r hr).1.2⟩) hok.2.1]
    show Except.ok _ = _
    rw [update_entries]
    · rfl
    · intro r hr h
      refine (hok.1 r hr).2.2.2 ?_
      simp only [LISTED, List.mem_cons, Key.str.injEq, List.not_mem_nil, or_false] at h
      simp only [RESERVED, List.mem_cons]
      tauto
  · rw [if_neg (show ¬ (needs Filters.MD env.filters || needs Filters.MD_SUMMARY env.filters) = true from hw), if_neg hw, List.append_nil, ← hs]; rfl

/-- With lines of enthalpies there are no enthalpies of molecular dynamics. -/
def Suits (geo : Bool) (c : Content) : Prop := (geo = true → c.statesEnthalpy = false) ∧ (c.listsEnthalpy = true → geo = true)

theorem takes_content (hrd : GoodRd rd) (hfl : GoodFl fl) {c : Content} {ls : List Str} (h : c.Lines ls) (hok : c.Ok) {geo : Bool} (hg : Suits geo c) (E : Env → Prop) :
    TakesL E geo (fun F es => es ++ docEntries rd fl F [c]) ls := by
  rcases takes_single (rd := rd) (fl := fl) hrd hfl h hok with ⟨rows, rfl⟩ | ⟨n, rfl⟩ | h
  · exact takes_mdTable hfl h hok E geo
  · obtain rfl := hg.2 rfl
    exact takes_enthalpy hrd h hok E
  · exact takes_one h.1 h.2 E geo

end Verif.Castep

import Verif.Lemmas.CastepTwo
import Verif.Props.CastepRuns
/-
C39 and C40: the filters of `parse_castep_file`.
-/
namespace Verif.Props
open Verif Verif.Spec Verif.Castep

/-! ### C39 -/

/-- The levels of verbosity in order. -/
def levels : List Filters := [Filters.NONE, Filters.LOW, Filters.MEDIUM, Filters.HIGH, Filters.FULL]

theorem has_mono {F G : Filters} (h : F &&& G = F) (x : Filters) (hx : Filters.has x F = true) :
    Filters.has x G = true := by
  simp only [Filters.has, beq_iff_eq] at hx ⊢
  rw [← hx, Nat.and_assoc, h]

/-- C39: every level asks for all that the levels before it ask for, and for more. -/
theorem C39_levels : levels.Pairwise fun F G =>
    (∀ x, Filters.has x F = true → Filters.has x G = true) ∧ ∃ x, Filters.has x G = true ∧ Filters.has x F = false := by
  have h : levels.Pairwise fun F G => F &&& G = F ∧ Filters.has G F = false := by decide +kernel
  refine h.imp fun {F G} hFG => ⟨has_mono hFG.1, G, by simp [Filters.has], hFG.2⟩

/-- The pairs of levels. -/
example : levels.length = 5 ∧ (levels.zip levels.tail).length = 4 := by decide

/-- The names of `Filters`. -/
def named : List Filters :=
  [Filters.BS, Filters.CELL, Filters.CHEM_SHIELDING, Filters.DELTA_SCF, Filters.DIPOLE, Filters.ELASTIC, Filters.ELF,
   Filters.FINAL_CONFIG, Filters.FORCE, Filters.GEOM_OPT, Filters.MD, Filters.MD_SUMMARY, Filters.OPTICS,
   Filters.PARAMETERS, Filters.PHONON, Filters.POLARISATION, Filters.POPN_ANALYSIS, Filters.POSITION, Filters.PSPOT,
   Filters.SCF, Filters.SOLVATION, Filters.SPECIES_PROPS, Filters.SPIN, Filters.STRESS, Filters.SYMMETRIES,
   Filters.SYS_INFO, Filters.TDDFT, Filters.TEST_EXTRA_DATA, Filters.THERMODYNAMICS, Filters.TSS]

/-- C39: the names are of different filters, and all but one of them belong to the highest level. -/
theorem C39_full : named.Nodup ∧ ∀ x ∈ named, Filters.has x Filters.FULL = true ↔ x ≠ Filters.TEST_EXTRA_DATA := by
  decide +kernel

/-- There are thirty names. -/
example : named.length = 30 := rfl

/-- C39 is false as stated: one filter does not belong to the highest level. -/
theorem C39_full_false : ∃ x ∈ named, Filters.has x Filters.FULL = false :=
  ⟨Filters.TEST_EXTRA_DATA, by decide +kernel, by decide +kernel⟩

/-- C39: if more is asked for, every run that is returned is still returned, in the same order, and with every entry it
had.  The file must have no geometry iterations (these move entries), and no line that opens a section which reads on
only when it is wanted and about which the two sets of filters do not agree. -/
theorem C39_grows_partial (order : List Str → List Str) (ops : Ops F64) (F G : Filters) (lines : List Str)
    (rs ts : List (Dict Key PyVal)) (hFG : ∀ x, Filters.has x F = true → Filters.has x G = true)
    (hr : ∀ e ∈ table, e.reads = true → Agree F G e ∨ ∀ l ∈ lines, ¬ Opens e l)
    (hm : ∀ e ∈ table, e.moves = true → ∀ l ∈ lines, ¬ Opens e l)
    (hF : parse_castep_file order ops F lines = .ok rs) (hG : parse_castep_file order ops G lines = .ok ts) :
    List.SublistForall₂ (fun r t => ∀ k ∈ r.keys, k ∈ t.keys) rs ts :=
  parse_grows hFG hr hm hF hG

theorem one_run (x : PyM (List Run)) (h : (match x with | .ok [_] => true | _ => false) = true) : ∃ r, x = .ok [r] := by
  split at h
  · exact ⟨_, rfl⟩
  · cases h

/-- Where the text of a section is. -/
def opensB (e : Entry) (l : Str) : Bool :=
  match e.text with
  | none => true
  | some (w, ci) => Str.contains w (if ci then Str.lower l else l)

theorem opensB_iff (e : Entry) (l : Str) : opensB e l = true ↔ Opens e l := by
  obtain ⟨_, _, _, _, t, _, _⟩ := e
  rcases t with _ | ⟨w, ci⟩
  · simp [opensB, Opens]
  · exact Str.contains_iff _ _

theorem not_opens {p : Entry → Bool} {lines : List Str}
    (h : (table.filter p).all (fun e => lines.all fun l => !opensB e l) = true) :
    ∀ e ∈ table, p e = true → ∀ l ∈ lines, ¬ Opens e l := by
  intro e he hp l hl ho
  have := List.all_eq_true.1 (List.all_eq_true.1 h e (List.mem_filter.2 ⟨he, hp⟩)) l hl
  rw [(opensB_iff e l).2 ho] at this
  cases this

/-- C39 applies: a run read at the first and at the last level. -/
example : (∀ x, Filters.has x Filters.NONE = true → Filters.has x Filters.FULL = true) ∧
    (∀ e ∈ table, e.reads = true → Agree Filters.NONE Filters.FULL e ∨ ∀ l ∈ exRunA, ¬ Opens e l) ∧
    (∀ e ∈ table, e.moves = true → ∀ l ∈ exRunA, ¬ Opens e l) ∧
    (∃ r, parse_castep_file id exOps Filters.NONE exRunA = .ok [r]) ∧
    ∃ r, parse_castep_file id exOps Filters.FULL exRunA = .ok [r] :=
  ⟨has_mono (by decide +kernel), fun e he h => .inr (not_opens (p := Entry.reads) (by decide +kernel) e he h),
    not_opens (p := Entry.moves) (by decide +kernel), one_run _ (by decide +kernel), one_run _ (by decide +kernel)⟩

/-- A warning directly before an energy. -/
def exWarn : List Str := [py"Warning: x\n", py"Final energy, E             =  -1.0     eV\n"]

/-- C39 is false as stated: the level that asks for warnings loses the energy on the line after one. -/
theorem C39_warning_false : ∃ lines rs ts, parse_castep_file id exOps Filters.MEDIUM lines = .ok rs ∧
    parse_castep_file id exOps Filters.HIGH lines = .ok ts ∧
    (∃ r ∈ rs, .str (py"energies") ∈ Dict.keys r) ∧ ∀ t ∈ ts, .str (py"energies") ∉ Dict.keys t := by
  have h : (match parse_castep_file id exOps Filters.MEDIUM exWarn, parse_castep_file id exOps Filters.HIGH exWarn with
      | .ok rs, .ok ts => rs.any (fun r => decide (Key.str (py"energies") ∈ Dict.keys r)) &&
          ts.all fun t => decide (Key.str (py"energies") ∉ Dict.keys t)
      | _, _ => false) = true := by decide +kernel
  split at h
  · rename_i rs ts hr ht
    refine ⟨exWarn, rs, ts, hr, ht, ?_⟩
    simpa using h
  · cases h

/-- Forces, then a geometry iteration. -/
def exIter : List Str :=
  [py" ************************** Forces **************************\n", py" * H               1      0.10000      0.00000      0.00000 *\n",
   py" ************************************************************\n",
   py" Starting LBFGS iteration          1 ...\n", py"Final energy, E             =  -1.0     eV\n", py"=====\n", py"=====\n"]

/-- C39 is false as stated: the level that asks for geometry iterations takes the forces of the run away. -/
theorem C39_geometry_false : ∃ lines rs ts, parse_castep_file id exOps Filters.LOW lines = .ok rs ∧
    parse_castep_file id exOps Filters.MEDIUM lines = .ok ts ∧
    (∃ r ∈ rs, .str (py"forces") ∈ Dict.keys r) ∧ ∀ t ∈ ts, .str (py"forces") ∉ Dict.keys t := by
  have h : (match parse_castep_file id exOps Filters.LOW exIter, parse_castep_file id exOps Filters.MEDIUM exIter with
      | .ok rs, .ok ts => rs.any (fun r => decide (Key.str (py"forces") ∈ Dict.keys r)) &&
          ts.all fun t => decide (Key.str (py"forces") ∉ Dict.keys t)
      | _, _ => false) = true := by decide +kernel
  split at h
  · rename_i rs ts hr ht
    refine ⟨exIter, rs, ts, hr, ht, ?_⟩
    simpa using h
  · cases h

/-- A geometry iteration and the final configuration. -/
def exFinal : List Str :=
  exIter.drop 3 ++ [py" BFGS: Final Configuration:\n", py" BFGS: Final Enthalpy     = -1.0E+000 eV\n"]

/-- C39 is false as stated: at the level that asks for the final configuration but not for the iterations, the file
cannot be read at all. -/
theorem C39_raises_false : ∃ lines r, parse_castep_file id exOps Filters.LOW lines = .error .typeError ∧
    parse_castep_file id exOps Filters.MEDIUM lines = .ok [r] :=
  have ⟨r, h⟩ := one_run (parse_castep_file id exOps Filters.MEDIUM exFinal) (by decide +kernel)
  ⟨exFinal, r, by decide +kernel, h⟩

/-! ### C40 -/

/-- C40: every entry of the result belongs to a section that is asked for. -/
theorem C40_only (order : List Str → List Str) (ops : Ops F64) (F : Filters) (lines : List Str)
    (rs : List (Dict Key PyVal)) (hF : parse_castep_file order ops F lines = .ok rs) :
    ∀ r ∈ rs, ∀ k ∈ r.keys, ∃ e ∈ table, Asked F e ∧
      ((∃ n ∈ e.keys, k = .str n) ∨ ∃ l ∈ lines, Names e.printed k l) :=
  parse_only hF

/-- C40 applies: a run read with the filter of the system information alone. -/
example : ∃ r, parse_castep_file id exOps Filters.SYS_INFO exRunA = .ok [r] :=
  one_run _ (by decide +kernel)

/-- C40: with no filter at all, only four entries can be there. -/
theorem C40_none_partial (order : List Str → List Str) (ops : Ops F64) (lines : List Str)
    (rs : List (Dict Key PyVal)) (hF : parse_castep_file order ops Filters.NONE lines = .ok rs) :
    ∀ r ∈ rs, ∀ k ∈ r.keys,
      k ∈ [Key.str (py"energies"), .str (py"supercell"), .str (py"dedlne"), .str (py"geom_opt")] := by
  intro r hr k hk
  obtain ⟨e, he, ha, hq⟩ := C40_only order ops Filters.NONE lines rs hF r hr k hk
  have h1 : ∀ e ∈ table, e.filters = [] → e.printed = .no ∧
      ∀ n ∈ e.keys, Key.str n ∈ [Key.str (py"energies"), .str (py"supercell"), .str (py"dedlne"), .str (py"geom_opt")] := by
    decide +kernel
  have h2 : ∀ e ∈ table, ∀ x ∈ e.filters, Filters.has x Filters.NONE = false := by decide +kernel
  rcases ha with ha | ⟨x, hx, hb⟩
  · rcases hq with ⟨n, hn, rfl⟩ | ⟨l, -, hn⟩
    · exact (h1 e he ha).2 n hn
    · rw [(h1 e he ha).1] at hn
      exact hn.elim
  · rw [h2 e he x hx] at hb
    cases hb

/-- C40 is false as stated: with no filter at all something is returned. -/
theorem C40_none_false : ∃ lines r rs, parse_castep_file id exOps Filters.NONE lines = .ok (r :: rs) ∧
    .str (py"energies") ∈ Dict.keys r := by
  have h : (match parse_castep_file id exOps Filters.NONE exRunA with
      | .ok (r :: _) => decide (Key.str (py"energies") ∈ Dict.keys r)
      | _ => false) = true := by decide +kernel
  split at h
  · rename_i r rs hr
    exact ⟨exRunA, r, rs, hr, by simpa using h⟩
  · cases h

/-- C40: two sets of filters give the same entries under a set of keys.  Every section is one that no line of the file
opens, or one about which the filters agree (if it moves entries, the keys have to hold all of those or none), or one
that never reads more lines and whose entries are under other keys.  (Missing: the sections that read more lines when
they are wanted, for which the statement is false.) -/
theorem C40_select_partial (order : List Str → List Str) (ops : Ops F64) (K : Key → Bool) (F G : Filters)
    (lines : List Str) (rs ts : List (Dict Key PyVal)) (hap : ∀ e ∈ table, Apart K F G lines e)
    (hF : parse_castep_file order ops F lines = .ok rs) (hG : parse_castep_file order ops G lines = .ok ts) :
    clean K rs = clean K ts :=
  parse_alike hap hF hG

theorem filterMap_clean (k : Key) (rs : List (Dict Key PyVal)) :
    (clean (fun x => decide (x = k)) rs).filterMap (fun r => Dict.get? r k) = rs.filterMap fun r => Dict.get? r k := by
  induction rs with
  | nil => rfl
  | cons r rs ih =>
    have h1 : clean (fun x => decide (x = k)) (r :: rs) =
        clean (fun x => decide (x = k)) [r] ++ clean (fun x => decide (x = k)) rs := clean_append [r] rs
    rw [h1, List.filterMap_append, ih]
    have h2 : Dict.get? r k = Dict.get? (restrict (fun x => decide (x = k)) r) k :=
      (get?_restrict r k (by simp)).symm
    have h3 : (clean (fun x => decide (x = k)) [r]).filterMap (fun r => Dict.get? r k) = (Dict.get? r k).toList := by
      rw [h2, clean]
      rcases hr : restrict (fun x => decide (x = k)) r with _ | ⟨kv, t⟩
      · simp [hr, Dict.get?]
      · simp only [List.map_cons, List.map_nil, hr, List.filter_cons, List.isEmpty_cons, Bool.not_false, if_true,
          List.filter_nil, List.filterMap_cons, List.filterMap_nil]
        cases Dict.get? (kv :: t : Dict Key PyVal) k <;> rfl
    rw [h3, List.filterMap_cons]
    cases Dict.get? r k <;> rfl

/-- C40: the values of an entry, run by run, do not depend on filters that have nothing to do with it. -/
theorem C40_entry_partial (order : List Str → List Str) (ops : Ops F64) (n : Str) (F G : Filters)
    (lines : List Str) (rs ts : List (Dict Key PyVal))
    (hk : ∀ e ∈ table, n ∈ e.keys → Agree F G e)
    (hn : ∀ e ∈ table, Agree F G e ∨ ∀ l ∈ lines, ¬ Opens e l ∨ ¬ Names e.printed (.str n) l)
    (hr : ∀ e ∈ table, e.reads = true → Agree F G e ∨ ∀ l ∈ lines, ¬ Opens e l)
    (hm : n ∈ geomKeys → ∀ e ∈ table, e.moves = true → ∀ l ∈ lines, ¬ Opens e l)
    (hF : parse_castep_file order ops F lines = .ok rs) (hG : parse_castep_file order ops G lines = .ok ts) :
    rs.filterMap (fun r => Dict.get? r (.str n)) = ts.filterMap fun r => Dict.get? r (.str n) := by
  have hmk : ∀ e ∈ table, e.moves = true → e.keys = geomKeys ∧ e.reads = false ∧ e.printed = .no := by decide +kernel
  have hpr : ∀ e ∈ table, e.reads = false → e.printed ≠ .no → e.text = none := by decide +kernel
  have h := C40_select_partial order ops (fun x => decide (x = Key.str n)) F G lines rs ts ?_ hF hG
  · rw [← filterMap_clean (.str n) rs, h, filterMap_clean]
  intro e he
  have other : n ∉ e.keys → e.reads = false → (∀ l ∈ lines, ¬ Opens e l ∨ ¬ Names e.printed (.str n) l) →
      Apart (fun x => decide (x = Key.str n)) F G lines e := by
    intro h1 h2 h3
    refine .other h2 (fun x hx => by simp; rintro rfl; exact h1 hx) fun k l hl hnm => ?_
    by_cases hp : e.printed = .no
    · rw [hp] at hnm; exact hnm.elim
    · simp only [decide_eq_false_iff_not]
      rintro rfl
      rcases h3 l hl with h3 | h3
      · exact h3 (by rw [Opens, hpr e he h2 hp]; trivial)
      · exact h3 hnm
  by_cases hmv : e.moves = true
  · by_cases hg : n ∈ geomKeys
    · exact .absent (hm hg e he hmv)
    · obtain ⟨h1, h2, h3⟩ := hmk e he hmv
      refine other (h1 ▸ hg) h2 fun l _ => .inr ?_
      rw [h3]; exact id
  by_cases ha : Agree F G e
  · exact .agree ha fun h => absurd h hmv
  by_cases hrd : e.reads = true
  · rcases hr e he hrd with h | h
    · exact absurd h ha
    · exact .absent h
  · rcases hn e he with h | h
    · exact absurd h ha
    · exact other (fun hx => ha (hk e he hx)) (by simpa using hrd) h

/-- C40 applies: the energies of a run with two sets of filters that have nothing to do with them. -/
example : (∀ e ∈ table, py"energies" ∈ e.keys → Agree Filters.LOW Filters.MEDIUM e) ∧
    (∀ e ∈ table, Agree Filters.LOW Filters.MEDIUM e ∨
      ∀ l ∈ exRunA, ¬ Opens e l ∨ ¬ Names e.printed (.str (py"energies")) l) ∧
    (∀ e ∈ table, e.reads = true → Agree Filters.LOW Filters.MEDIUM e ∨ ∀ l ∈ exRunA, ¬ Opens e l) ∧
    (py"energies" ∈ geomKeys → ∀ e ∈ table, e.moves = true → ∀ l ∈ exRunA, ¬ Opens e l) ∧
    (∃ r, parse_castep_file id exOps Filters.LOW exRunA = .ok [r]) ∧
    ∃ r, parse_castep_file id exOps Filters.MEDIUM exRunA = .ok [r] := by
  have h1 : ∀ e ∈ table, e.printed = .no ∨ e.reads = true ∨
      e.filters.all (fun x => Filters.has x Filters.LOW == Filters.has x Filters.MEDIUM) = true ∨
      e.printed = .labelled := by decide +kernel
  have h2 : ∀ e ∈ table, py"energies" ∈ e.keys →
      e.filters.all (fun x => Filters.has x Filters.LOW == Filters.has x Filters.MEDIUM) = true := by decide +kernel
  have h3 : ∀ e : Entry, e.filters.all (fun x => Filters.has x Filters.LOW == Filters.has x Filters.MEDIUM) = true →
      Agree Filters.LOW Filters.MEDIUM e := by
    intro e h x hx
    simpa using List.all_eq_true.1 h x hx
  have h4 := not_opens (p := Entry.reads) (lines := exRunA) (by decide +kernel)
  have h5 : ∀ l ∈ exRunA, ∀ j ≤ l.length, l[j]? = some (c!":") →
      ∀ i ≤ j, normalise_key (Str.strip ((l.take j).drop i)) ≠ py"energies" := by decide +kernel
  refine ⟨fun e he h => h3 e (h2 e he h), fun e he => ?_, fun e he h => .inr (h4 e he h),
    fun h => absurd h (by decide +kernel), one_run _ (by decide +kernel), one_run _ (by decide +kernel)⟩
  rcases h1 e he with h | h | h | h
  · exact .inr fun l _ => .inr (by rw [h]; exact id)
  · exact .inr fun l hl => .inl (h4 e he h l hl)
  · exact .inl (h3 e h)
  · refine .inr fun l hl => .inr ?_
    rw [h]
    rintro ⟨u, x, v, e1, e2⟩
    have h6 : l[(u ++ x).length]? = some (c!":") := by
      rw [e1, List.append_assoc, List.getElem?_append_right (Nat.le_refl _), Nat.sub_self]
      rfl
    refine h5 l hl (u ++ x).length (by rw [e1]; simp only [List.length_append]; omega) h6 u.length (by simp) ?_
    have : (l.take (u ++ x).length).drop u.length = x := by
      rw [e1, List.append_assoc (u ++ x), List.take_left, List.drop_left]
    rw [this]
    exact (Key.str.inj e2).symm

/-- C40 is false as stated: the two levels agree about the energies, but only one of them returns the energy after the
warning. -/
theorem C40_false : ∃ F G lines rs ts, (∀ x, Filters.has x F = true → Filters.has x G = true) ∧
    (∀ e ∈ table, py"energies" ∈ e.keys → Agree F G e) ∧
    parse_castep_file id exOps F lines = .ok rs ∧ parse_castep_file id exOps G lines = .ok ts ∧
    rs.filterMap (fun r => Dict.get? r (.str (py"energies"))) ≠
      ts.filterMap fun r => Dict.get? r (.str (py"energies")) := by
  have h : (match parse_castep_file id exOps Filters.MEDIUM exWarn, parse_castep_file id exOps Filters.HIGH exWarn with
      | .ok rs, .ok ts => decide (rs.filterMap (fun r => Dict.get? r (Key.str (py"energies"))) ≠
          ts.filterMap fun r => Dict.get? r (Key.str (py"energies")))
      | _, _ => false) = true := by decide +kernel
  have h2 : ∀ e ∈ table, py"energies" ∈ e.keys →
      ∀ x ∈ e.filters, Filters.has x Filters.MEDIUM = Filters.has x Filters.HIGH := by decide +kernel
  split at h
  · rename_i rs ts hr ht
    exact ⟨Filters.MEDIUM, Filters.HIGH, exWarn, rs, ts, has_mono (by decide +kernel), h2, hr, ht, by simpa using h⟩
  · cases h

end Verif.Props

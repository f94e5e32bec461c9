import Verif.Lemmas.GenBlock
import Verif.Lemmas.LineTables
import Verif.Props.CellBlocks
import Verif.Props.Setting
import Verif.Props.Grids
/-
C100, C101: blocks of `.cell` files without a parser of their own.
-/
namespace Verif.Props
open Verif Spec Cell GenBlock

theorem clean_plain (l : Str) : ∀ c ∈ clean l, c ≠ 35 ∧ c ≠ 33 := by
  intro c hc
  obtain ⟨g, e, -⟩ := clean_split l
  have : c ∈ l.takeWhile keepC := by rw [e]; simp [hc]
  have := List.all_eq_true.1 (List.all_takeWhile (p := keepC) (l := l)) c this
  simp [keepC] at this
  omega

/-- C100.  A block of numbers, such as `lattice_cart`, with comments and blank lines anywhere and possibly a first line
with the units, gives the rows in order, each number the double nearest to the one written, and the units if there are any.
Partial: the units must not have a digit (`C100_violated`), no negative ratios (`C34_negative_ratio`). -/
theorem C100_partial (l name : Str) (blk : List Str) (last : Str) (kept ul rl : List Str) (unit : Option Str) (rows : List (List Coord))
    (hname : name ∉ ownBlocks) (hl : OpensNamed l name) (hb : ∀ x ∈ blk, ¬ ClosesBlock x) (hlast : ClosesBlock last)
    (hdig : ∀ c ∈ last, isDigit c = false) (hk : KeptInline cellComments blk kept) (he : kept = ul ++ rl)
    (hu : UnitsPart ul unit) (hrows : List.Forall₂ NumRow rl rows) (hr : ∀ r ∈ rows, ∀ c ∈ r, c.InRange) :
    ∃ xs : List (List F64), List.Forall₂ NearestAll rows xs ∧ parse_cell_param_file (l :: (blk ++ [last])) =
      .ok (.list [.dict [(.str name, .dict ((.str (py"data"), .list (xs.map fun x => .tuple (x.map .float))) :: unitsEntry unit))]]) := by
  have hp := kept_plain hk
  rw [he] at hp
  obtain ⟨xs, h1, h2⟩ := loop_rows hrows (fun t ht => hp t (by simp [ht])) hr
  refine ⟨xs, h1, ?_⟩
  have hc : generalLoop [clean last] ((kData, .list (xs.map fun x => .tuple (x.map .float))) :: unitsEntry unit) =
      .ok ((kData, .list (xs.map fun x => .tuple (x.map .float))) :: unitsEntry unit) := by
    rw [generalLoop, step_close ((closes_clean _).2 hlast) (clean_plain last) (fun c hc => hdig c ((clean_prefix last).subset hc))]
    rfl
  have hlp : generalLoop (ul ++ rl ++ [clean last]) [(kData, .list [])] =
      .ok ((kData, .list (xs.map fun x => .tuple (x.map .float))) :: unitsEntry unit) := by
    rw [loop_append, loop_append, loop_units hu (fun t ht => hp t (by simp [ht]))]
    simp only [Castep.Delta.ok_bind, h2, List.nil_append]
    exact hc
  rw [parse_named hl hb hlast, stripped_block hlast hk, parserFor_general hname, parse_general, Block.rest, List.drop_zero, he]
  simp only [hlp]
  rfl

/-- C100 fails for units with a digit: pressures in `ev/ang**3` get a row with the exponent in place of the units. -/
theorem C100_violated : (parse_cell_param_file [py"%block external_pressure\n", py"ev/ang**3\n", py"1/2 0 0\n", py"%endblock external_pressure\n"] =
      parse_cell_param_file [py"%block external_pressure\n", py"3\n", py"1/2 0 0\n", py"%endblock external_pressure\n"]) ∧
    (parse_cell_param_file [py"%block external_pressure\n", py"ev/ang**3\n", py"1/2 0 0\n", py"%endblock external_pressure\n"]).isOk = true := by
  decide +kernel

/-- The value of a text, as the type guessed for it makes it. -/
theorem prop_value {v : Str} (h : PropText v) : ∃ x, PropValue v x ∧ to_type (determine_type v) (.str v) = .ok x := by
  rcases h with ⟨n, rfl, hv, hr⟩ | ht
  · rw [Magres.type_num hv]
    by_cases hi : n.IsInt
    · obtain ⟨g1, g2⟩ := pyInt_isInt n hv hi
      refine ⟨_, .int hv hi g2, ?_⟩
      rw [if_pos hi]
      simp [to_type, typeParser, g1, Except.map]
    · rw [if_neg hi]
      rcases float_text n hv with ⟨x, g1, g2, -⟩ | ⟨-, g2⟩
      · refine ⟨_, .float hv hi g2, ?_⟩
        simp [to_type, typeParser, g1, Except.map]
      · exact absurd g2 (not_le.2 hr)
  · refine ⟨_, .text ht, ?_⟩
    have hd := determine_type_text v fun c hc => by
      obtain ⟨h1, h2, h3⟩ := ht.2.1 c hc
      refine ⟨?_, h3⟩
      rintro (h | h)
      · exact h1 ((Verif.isDigit_iff c).1 h)
      · simp at h2; omega
    have hg := C55_guess v
    rw [textValue, logical]
    rcases hd with hd | hd
    · rw [hd, C55_logical]
      have h1 : v ≠ py"1" := by
        rintro rfl
        exact (ht.2.1 _ rfl).1 (by decide)
      by_cases h2 : Str.lower v = py"t" ∨ Str.lower v = py"true"
      · rw [if_pos h2, decide_eq_true (by tauto)]
      · have h3 : Str.lower v = py"f" ∨ Str.lower v = py"false" := by have := hg.1 hd; tauto
        rw [if_neg h2, if_pos h3, decide_eq_false (by tauto)]
    · have h1 : ¬ (Str.lower v = py"t" ∨ Str.lower v = py"true" ∨ Str.lower v = py"f" ∨ Str.lower v = py"false") := by
        intro h; have := hg.2 h; rw [hd] at this; cases this
      rw [hd, if_neg (by tauto), if_neg (by tauto)]
      rfl

/-- C101.  A block of properties of species, such as `species_mass`, with comments and blank lines anywhere and possibly a first
line with the units, gives for each species the value on its (last) line: a whole number, the nearest double, a logical or the
text.  Partial: the species start with a capital letter (`C101_small`), and have no label in brackets. -/
theorem C101_partial (l name : Str) (blk : List Str) (last : Str) (kept ul rl : List Str) (unit : Option Str) (ps : List SpecProp)
    (hname : name ∉ ownBlocks) (hl : OpensNamed l name) (hb : ∀ x ∈ blk, ¬ ClosesBlock x) (hlast : ClosesBlock last)
    (hdig : ∀ c ∈ last, isDigit c = false) (hk : KeptInline cellComments blk kept) (he : kept = ul ++ rl)
    (hu : UnitsPart ul unit) (hrows : List.Forall₂ (fun l p => SpecProp.Line l p) rl ps) (hne : ps ≠ [])
    (hok : ∀ p ∈ ps, p.Ok ∧ PropText p.value) :
    ∃ es d : List (Key × PyVal), List.Forall₂ (fun p e => e.1 = Key.str p.spec.text ∧ PropValue p.value e.2) ps es ∧ LastWins es d ∧
      parse_cell_param_file (l :: (blk ++ [last])) =
        .ok (.list [.dict [(.str name, .dict ((.str (py"data"), .dict d) :: unitsEntry unit))]]) := by
  have hp := kept_plain hk
  rw [he] at hp
  let val : Str → PyVal := fun v => match to_type (determine_type v) (.str v) with | .ok x => x | .error _ => .none
  have hval : ∀ p ∈ ps, PropValue p.value (val p.value) ∧ to_type (determine_type p.value) (.str p.value) = .ok (val p.value) := by
    intro p hp'
    obtain ⟨x, h1, h2⟩ := prop_value (hok p hp').2
    have : val p.value = x := by simp only [val, h2]
    rw [this]
    exact ⟨h1, h2⟩
  have h2 := loop_props hrows (fun t ht => hp t (by simp [ht])) (fun p hp' => (hok p hp').1) val (fun p hp' => (hval p hp').2) hne
    (.list []) (unitsEntry unit)
  refine ⟨ps.map fun p => (Key.str p.spec.text, val p.value), _, ?_, LineTab.lastWins _, ?_⟩
  · rw [List.forall₂_map_right_iff, List.forall₂_same]
    exact fun p hp' => ⟨rfl, (hval p hp').1⟩
  generalize hes : (ps.map fun p => (Key.str p.spec.text, val p.value)) = es at h2 ⊢
  have hd : es.foldl (fun d e => Dict.set d e.1 e.2) (dataOf (.list [])) = Dict.ofList es := rfl
  rw [hd] at h2
  have hlp : generalLoop (ul ++ rl ++ [clean last]) [(kData, .list [])] =
      .ok ((kData, .dict (Dict.ofList es)) :: unitsEntry unit) := by
    rw [loop_append, loop_append, loop_units hu (fun t ht => hp t (by simp [ht]))]
    simp only [Castep.Delta.ok_bind, h2]
    rw [generalLoop, step_close ((closes_clean _).2 hlast) (clean_plain last) (fun c hc => hdig c ((clean_prefix last).subset hc))]
    rfl
  rw [parse_named hl hb hlast, stripped_block hlast hk, parserFor_general hname, parse_general, Block.rest, List.drop_zero, he]
  simp only [hlp]
  rfl

/-- C101 fails for a species in small letters: its name is lost, the value becomes a row of numbers. -/
theorem C101_small : parse_cell_param_file [py"%block species_mass\n", py"h 2\n", py"%endblock species_mass\n"] =
    parse_cell_param_file [py"%block species_mass\n", py"2\n", py"%endblock species_mass\n"] ∧
    (parse_cell_param_file [py"%block species_mass\n", py"h 2\n", py"%endblock species_mass\n"]).isOk = true := by decide +kernel

/-! ### The hypotheses can be met -/

example : ∃ rows : List (List Coord), rows.length = 2 ∧ py"lattice_cart" ∉ ownBlocks ∧
    OpensNamed (py"%BLOCK Lattice_Cart\n") (py"lattice_cart") ∧ ClosesBlock (py"%ENDBLOCK lattice_cart\n") ∧
    (∀ c ∈ py"%ENDBLOCK lattice_cart\n", isDigit c = false) ∧
    KeptInline cellComments [py" ang ! x\n", py"# y\n", py"  1 0 0\n", py"1/2 0 -0.5\n"] ([py" ang"] ++ [py"  1 0 0", py"1/2 0 -0.5"]) ∧
    UnitsPart [py" ang"] (some (py"ang")) ∧ List.Forall₂ NumRow [py"  1 0 0", py"1/2 0 -0.5"] rows ∧ ∀ r ∈ rows, ∀ c ∈ r, c.InRange := by
  refine ⟨[[int (py"1"), int (py"0"), int (py"0")], [.ratio (py"1") (py"2"), int (py"0"), .num ⟨some true, py"0", some (py"5"), none⟩]], rfl,
    by decide, opens_example _ _ (py"%BLOCK ") [] (py"Lattice_Cart") (py"\n") (by decide) (by decide) (by decide) (by decide)
      (by decide) (by decide) (by decide), ⟨[], py"%ENDBLOCK", py" lattice_cart\n", rfl, (by intro c hc; cases hc), by decide⟩, by decide,
    (C20_inline _ _ (by decide) _).1 (by decide +kernel), .some ⟨py" ", rfl, by decide, by decide, by decide, by decide⟩, ?_, by decide +kernel⟩
  exact .cons (row_three (py"  ") _ _ _ (by decide) (by decide) (by decide) (by decide))
    (.cons (row_three [] _ _ _ (by decide) (by decide) (by decide) (by decide)) .nil)

/-- Masses. -/
def exMasses : List SpecProp := [⟨⟨72, [], none, none⟩, py"2"⟩, ⟨⟨70, py"e", some (py"up"), none⟩, py"55.8"⟩]

example : py"species_mass" ∉ ownBlocks ∧ UnitsPart [py"amu"] (some (py"amu")) ∧
    KeptInline cellComments [py"amu\n", py" H 2\n", py"Fe:up  55.8 # z\n"] ([py"amu"] ++ [py" H 2", py"Fe:up  55.8"]) ∧
    List.Forall₂ (fun l p => SpecProp.Line l p) [py" H 2", py"Fe:up  55.8"] exMasses ∧ exMasses ≠ [] ∧
    ∀ p ∈ exMasses, p.Ok ∧ PropText p.value := by
  refine ⟨by decide, .some ⟨[], rfl, by decide, by decide, by decide, by decide⟩, (C20_inline _ _ (by decide) _).1 (by decide +kernel), ?_, by decide, ?_⟩
  · exact .cons ⟨py" ", py" ", rfl, by decide, by decide, by decide⟩ (.cons ⟨[], py"  ", rfl, by decide, by decide, by decide⟩ .nil)
  · intro p hp
    simp only [exMasses, List.mem_cons, List.not_mem_nil, or_false] at hp
    rcases hp with rfl | rfl
    · exact ⟨⟨by decide, rfl, by decide, by decide, by decide, by decide⟩, Or.inl ⟨exInt (py"2"), rfl, by decide, by decide +kernel⟩⟩
    · exact ⟨⟨by decide, rfl, by decide, by decide, by decide, by decide⟩, Or.inl ⟨exDec (py"55") (py"8"), rfl, by decide, by decide +kernel⟩⟩

end Verif.Props

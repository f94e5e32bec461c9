import Verif.Lemmas.CellBlocks
import Verif.Props.Utility
/-
C33, C34: atoms and symmetry operations of .cell files.
-/
namespace Verif.Props
open Verif Spec Cell

theorem stripped_block {blk kept : List Str} {last : Str} (hl : ClosesBlock last) (hk : KeptInline cellComments blk kept) :
    strip_comments (blk ++ [last]) (remove_inline := true) = kept ++ [clean last] := by
  rw [strip_block blk last hl]
  have e := (C20_inline blk cellComments (by decide) kept).2 hk
  rw [show strip_comments blk (remove_inline := true) = kept from e]

/-! ### C34: symmetry operations -/

/-- The rows of a symmetry operation: three of the rotation, one of the translation. -/
structure SymOp where
  r1 : List Coord
  r2 : List Coord
  r3 : List Coord
  t : List Coord

/-- The rows in the order they are written. -/
def SymOp.rows (o : SymOp) : List (List Coord) := [o.r1, o.r2, o.r3, o.t]

/-- The value for an operation. -/
def SymOp.Reads (o : SymOp) (v : PyVal) : Prop :=
  ∃ a b c t, NearestAll o.r1 a ∧ NearestAll o.r2 b ∧ NearestAll o.r3 c ∧ NearestAll o.t t ∧
    v = .dict [(.str (py"r"), .list [.tuple (a.map .float), .tuple (b.map .float), .tuple (c.map .float)]),
      (.str (py"t"), .tuple (t.map .float))]

theorem forall2_four (ops : List SymOp) : ∀ xs : List (List F64), List.Forall₂ NearestAll (ops.flatMap SymOp.rows) xs →
    ∃ q : List (List F64 × List F64 × List F64 × List F64), xs = (q.flatMap fun o => [o.1, o.2.1, o.2.2.1, o.2.2.2]) ∧
      List.Forall₂ (fun (o : SymOp) (p : List F64 × List F64 × List F64 × List F64) =>
        NearestAll o.r1 p.1 ∧ NearestAll o.r2 p.2.1 ∧ NearestAll o.r3 p.2.2.1 ∧ NearestAll o.t p.2.2.2) ops q := by
  induction ops with
  | nil => intro xs h; cases h; exact ⟨[], rfl, .nil⟩
  | cons o ops ih =>
    intro xs h
    simp only [List.flatMap_cons, SymOp.rows, List.cons_append, List.nil_append] at h
    cases h with
    | cons h1 h => cases h with
      | cons h2 h => cases h with
        | cons h3 h => cases h with
          | cons h4 h =>
            obtain ⟨q, rfl, hq⟩ := ih _ h
            exact ⟨(_, _, _, _) :: q, rfl, .cons ⟨h1, h2, h3, h4⟩ hq⟩

/-- C34.  A block of symmetry operations, with comments and blank lines anywhere, each operation written as
four rows of numbers or ratios, gives the operations in order, each with its three rotation rows and its
translation row; each number is the double nearest to the one written.  Partial: for negative ratios it
fails, see `C34_negative_ratio`. -/
theorem C34_operations_partial (l : Str) (blk : List Str) (last : Str) (kept : List Str) (ops : List SymOp)
    (hl : OpensNamed l (py"symmetry_ops")) (hb : ∀ x ∈ blk, ¬ ClosesBlock x) (hlast : ClosesBlock last)
    (hdig : ∀ c ∈ last, isDigit c = false) (hk : KeptInline cellComments blk kept)
    (hrows : List.Forall₂ NumRow kept (ops.flatMap SymOp.rows))
    (hr : ∀ o ∈ ops, ∀ r ∈ o.rows, ∀ c ∈ r, c.InRange) :
    ∃ vs : List PyVal, parse_cell_param_file (l :: (blk ++ [last])) =
        .ok (.list [.dict [(.str (py"symmetry_ops"), .list vs)]]) ∧ List.Forall₂ SymOp.Reads ops vs := by
  have hd : ∀ c ∈ clean last, isDigit c = false := fun c hc => hdig c ((clean_prefix last).subset hc)
  obtain ⟨xs, h1, h2⟩ := parse_sym_lines kept (clean last) _ hrows (by
    intro r h
    obtain ⟨o, ho, hro⟩ := List.mem_flatMap.1 h
    exact hr o ho r hro) hd
  obtain ⟨q, rfl, hq⟩ := forall2_four ops xs h1
  rw [parse_named hl hb hlast, stripped_block hlast hk, parserFor_sym, h2]
  have e : ((q.flatMap fun o => [o.1, o.2.1, o.2.2.1, o.2.2.2]).map fun x : List F64 => PyVal.tuple (x.map .float)) =
      (q.map fun o => (PyVal.tuple (o.1.map .float), PyVal.tuple (o.2.1.map .float), PyVal.tuple (o.2.2.1.map .float),
        PyVal.tuple (o.2.2.2.map .float))).flatMap fun o => [o.1, o.2.1, o.2.2.1, o.2.2.2] := by
    rw [List.map_flatMap, List.flatMap_map]; rfl
  rw [e, symOps_four _ _ (by
    clear hq h1 h2 e
    induction q with
    | nil => simp
    | cons a q ih => simp at ih ⊢; omega)]
  refine ⟨_, rfl, ?_⟩
  clear h1 h2 e hrows hr
  induction hq with
  | nil => exact .nil
  | @cons o p ops q ho _ ih => exact .cons ⟨_, _, _, _, ho.1, ho.2.1, ho.2.2.1, ho.2.2.2, rfl⟩ ih

/-- C34.  If the number of rows is not a multiple of four the block is rejected (with `IndexError`). -/
theorem C34_incomplete (l : Str) (blk : List Str) (last : Str) (kept : List Str) (rows : List (List Coord))
    (hl : OpensNamed l (py"symmetry_ops")) (hb : ∀ x ∈ blk, ¬ ClosesBlock x) (hlast : ClosesBlock last)
    (hdig : ∀ c ∈ last, isDigit c = false) (hk : KeptInline cellComments blk kept)
    (hrows : List.Forall₂ NumRow kept rows) (hr : ∀ r ∈ rows, ∀ c ∈ r, c.InRange) (hn : ¬ 4 ∣ rows.length) :
    parse_cell_param_file (l :: (blk ++ [last])) = .error .indexError := by
  have hd : ∀ c ∈ clean last, isDigit c = false := fun c hc => hdig c ((clean_prefix last).subset hc)
  obtain ⟨xs, h1, h2⟩ := parse_sym_lines kept (clean last) _ hrows hr hd
  rw [parse_named hl hb hlast, stripped_block hlast hk, parserFor_sym, h2, symOps_bad _ _ (by simp)]
  · rfl
  · rw [List.length_map, ← h1.length_eq]; omega

/-- C34 fails for a negative ratio, which is read as two numbers: the translation `-1/2 0 0` becomes
`-1, 2, 0, 0`. -/
theorem C34_negative_ratio : parse_cell_param_file [py"%block symmetry_ops\n", py"1 0 0\n", py"0 1 0\n", py"0 0 1\n",
    py"-1/2 0 0\n", py"%endblock symmetry_ops\n"] = parse_cell_param_file [py"%block symmetry_ops\n", py"1 0 0\n",
    py"0 1 0\n", py"0 0 1\n", py"-1 2 0 0\n", py"%endblock symmetry_ops\n"] ∧
    (parse_cell_param_file [py"%block symmetry_ops\n", py"1 0 0\n", py"0 1 0\n", py"0 0 1\n",
    py"-1/2 0 0\n", py"%endblock symmetry_ops\n"]).isOk = true := by decide +kernel

/-! ### C33: positions -/

theorem numberOf_lt (atoms : List AtomLine) (i j : Nat) (a b : AtomLine) (hij : i < j) (ha : atoms[i]? = some a)
    (hb : atoms[j]? = some b) (e : a.spec = b.spec) : numberOf atoms i a < numberOf atoms j b := by
  obtain ⟨hj, hb⟩ := List.getElem?_eq_some_iff.1 hb
  unfold numberOf
  rw [e]
  have h1 : atoms.take (j + 1) = atoms.take j ++ [b] := by rw [List.take_succ_eq_append_getElem hj, hb]
  have h2 : atoms.take (i + 1) <+: atoms.take j := List.take_prefix_take_left (by omega)
  have h3 := (h2.map (·.spec)).sublist.count_le b.spec
  have h4 : (([b] : List AtomLine).map (·.spec)).count b.spec = 1 := by simp
  rw [h1, List.map_append, List.count_append, h4]
  omega

/-- What a positions block should give: one entry for each atom in order, keyed by species and number within
the species; no two keys are equal. -/
def Atoms (units : Option Str) (atoms : List AtomLine) (d : Dict Key PyVal) : Prop :=
  d.length = atoms.length ∧
    (∀ i a, atoms[i]? = some a → ∃ e, d[i]? = some e ∧ EntryOf units a (numberOf atoms i a) e) ∧
    (d.map (·.1)).Nodup

theorem atoms_of (units : Option Str) (lines : List Str) (last : Str) (atoms : List AtomLine) (hl : ClosesBlock last)
    (h : List.Forall₂ PosLine lines atoms)
    (hr : ∀ a ∈ atoms, (∀ c ∈ a.coords, c.InRange) ∧ ∀ c ∈ a.spin, c.InRange) :
    ∃ d, positionsLoop units (lines ++ [last]) [] [] = .ok d ∧ Atoms units atoms d := by
  obtain ⟨es, h1, h2, h3⟩ := positionsLoop_spec units last hl lines atoms h hr [] [] [] (by simp [Dict.get?])
    (by simp [Dict.keys])
  have h3' : ∀ i a, atoms[i]? = some a → ∃ e, es[i]? = some e ∧ EntryOf units a (numberOf atoms i a) e := by
    intro i a hi
    obtain ⟨e, he, h⟩ := h3 i a hi
    exact ⟨e, he, by simpa using h⟩
  refine ⟨es, h1, h2, h3', ?_⟩
  rw [List.nodup_iff_injective_getElem]
  have key : ∀ i j (hi : i < es.length) (hj : j < es.length), i < j → es[i].1 ≠ es[j].1 := by
    intro i j hi hj hij heq
    obtain ⟨e, he, x1, x2, x3, s, e1, -⟩ := h3' i _ (List.getElem?_eq_getElem (by omega))
    obtain ⟨e', he', y1, y2, y3, s', e1', -⟩ := h3' j _ (List.getElem?_eq_getElem (by omega))
    rw [List.getElem?_eq_getElem hi, Option.some.injEq] at he
    rw [List.getElem?_eq_getElem hj, Option.some.injEq] at he'
    rw [he, he', e1, e1'] at heq
    simp only [Key.tup.injEq, List.cons.injEq, Key.str.injEq, Key.int.injEq, and_true, Int.natCast_inj] at heq
    have := numberOf_lt atoms i j _ _ hij (List.getElem?_eq_getElem (by omega)) (List.getElem?_eq_getElem (by omega)) heq.1
    omega
  intro i j hij
  simp only [List.getElem_map] at hij
  have hi : i.1 < es.length := by simpa using i.2
  have hj : j.1 < es.length := by simpa using j.2
  rcases Nat.lt_trichotomy i.1 j.1 with h | h | h
  · exact absurd hij (key _ _ hi hj h)
  · exact Fin.ext h
  · exact absurd hij.symm (key _ _ hj hi h)

/-- C33.  A block of fractional positions, with comments and blank lines anywhere, gives one entry for each
atom in order, keyed by species and number within the species, with the doubles nearest to the three
coordinates (and the spin, if given) written on its own line.  Partial: only for lines as described by
`PosLine`, that is, untagged capitalised symbols, no `mixture`, no negative ratios. -/
theorem C33_fractional_partial (name l : Str) (blk : List Str) (last : Str) (kept : List Str) (atoms : List AtomLine)
    (hname : name ∈ [py"positions_frac", py"positions_frac_intermediate", py"positions_frac_product"])
    (hl : OpensNamed l name) (hb : ∀ x ∈ blk, ¬ ClosesBlock x) (hlast : ClosesBlock last)
    (hk : KeptInline cellComments blk kept) (hrows : List.Forall₂ PosLine kept atoms)
    (hr : ∀ a ∈ atoms, (∀ c ∈ a.coords, c.InRange) ∧ ∀ c ∈ a.spin, c.InRange) :
    ∃ d, parse_cell_param_file (l :: (blk ++ [last])) = .ok (.list [.dict [(.str name, .dict d)]]) ∧
      Atoms none atoms d := by
  obtain ⟨d, hd, ha⟩ := atoms_of none kept (clean last) atoms ((closes_clean _).2 hlast) hrows hr
  refine ⟨d, ?_, ha⟩
  rw [parse_named hl hb hlast, stripped_block hlast hk]
  have : parserFor name = parse_positions false := by
    simp only [List.mem_cons, List.not_mem_nil, or_false] at hname
    rcases hname with rfl | rfl | rfl <;> rfl
  rw [this, parse_positions, if_neg (by simp), Block.rest, List.drop_zero]
  simp only [hd]; rfl

/-- C33.  Likewise for absolute positions; each entry also has the units given on the first line of the
block. -/
theorem C33_absolute_partial (l : Str) (blk : List Str) (last : Str) (g w : Str) (kept : List Str) (atoms : List AtomLine)
    (hl : OpensNamed l (py"positions_abs")) (hb : ∀ x ∈ blk, ¬ ClosesBlock x) (hlast : ClosesBlock last)
    (hg : Blank g) (hw : ∀ c ∈ w, isSpace c = false) (hw0 : w ≠ [])
    (hk : KeptInline cellComments blk ((g ++ w) :: kept)) (hrows : List.Forall₂ PosLine kept atoms)
    (hr : ∀ a ∈ atoms, (∀ c ∈ a.coords, c.InRange) ∧ ∀ c ∈ a.spin, c.InRange) :
    ∃ d, parse_cell_param_file (l :: (blk ++ [last])) = .ok (.list [.dict [(.str (py"positions_abs"), .dict d)]]) ∧
      Atoms (some w) atoms d := by
  obtain ⟨d, hd, ha⟩ := atoms_of (some w) kept (clean last) atoms ((closes_clean _).2 hlast) hrows hr
  refine ⟨d, ?_, ha⟩
  rw [parse_named hl hb hlast, stripped_block hlast hk]
  obtain ⟨m, hm, hmw⟩ := units_some g w hg hw hw0
  have hu : get_block_units ⟨0, 0, (g ++ w) :: kept ++ [clean last]⟩ (py"Ang") =
      (.ok w, ⟨0, 1, (g ++ w) :: kept ++ [clean last]⟩) := by
    simp only [get_block_units, List.cons_append, Block.next, List.getElem?_cons_zero, hm, hmw]
    rfl
  have : parserFor (py"positions_abs") = parse_positions true := rfl
  rw [this, parse_positions, if_pos rfl, hu]
  simp only [Block.rest, List.cons_append, List.drop_succ_cons, List.drop_zero, hd]; rfl

/-- C33.  Absolute positions without a line of units are in Ångström. -/
theorem C33_absolute_default_partial (l : Str) (blk : List Str) (last : Str) (kept : List Str) (atoms : List AtomLine)
    (hl : OpensNamed l (py"positions_abs")) (hb : ∀ x ∈ blk, ¬ ClosesBlock x) (hlast : ClosesBlock last)
    (hk : KeptInline cellComments blk kept) (hrows : List.Forall₂ PosLine kept atoms) (h0 : atoms ≠ [])
    (hr : ∀ a ∈ atoms, (∀ c ∈ a.coords, c.InRange) ∧ ∀ c ∈ a.spin, c.InRange) :
    ∃ d, parse_cell_param_file (l :: (blk ++ [last])) = .ok (.list [.dict [(.str (py"positions_abs"), .dict d)]]) ∧
      Atoms (some (py"Ang")) atoms d := by
  obtain ⟨d, hd, ha⟩ := atoms_of (some (py"Ang")) kept (clean last) atoms ((closes_clean _).2 hlast) hrows hr
  refine ⟨d, ?_, ha⟩
  rw [parse_named hl hb hlast, stripped_block hlast hk]
  cases hrows with
  | nil => exact absurd rfl h0
  | @cons x a xs as hx _ =>
    have hu : get_block_units ⟨0, 0, x :: xs ++ [clean last]⟩ (py"Ang") =
        (.ok (py"Ang"), ⟨0, 0, x :: xs ++ [clean last]⟩) := by
      simp only [get_block_units, List.cons_append, Block.next, List.getElem?_cons_zero, units_none (posLine_words hx)]
      rfl
    have : parserFor (py"positions_abs") = parse_positions true := rfl
    rw [this, parse_positions, if_pos rfl, hu]
    simp only [Block.rest, List.drop_zero, hd]; rfl

/-- C33 fails for negative ratios: a third coordinate `-1/2` is read as `-1`. -/
theorem C33_negative_ratio : parse_cell_param_file [py"%block positions_frac\n", py"H 0.5 0 -1/2\n", py"%endblock positions_frac\n"] =
    parse_cell_param_file [py"%block positions_frac\n", py"H 0.5 0 -1\n", py"%endblock positions_frac\n"] ∧
    (parse_cell_param_file [py"%block positions_frac\n", py"H 0.5 0 -1/2\n", py"%endblock positions_frac\n"]).isOk = true := by
  decide +kernel

/-- C33 fails for tagged species and for symbols not capitalised: their lines are silently dropped. -/
theorem C33_tagged_dropped : parse_cell_param_file [py"%block positions_frac\n", py"H 0 0 0\n", py"Fe:up 0 0 0\n",
      py"fe 0 0 0\n", py"%endblock positions_frac\n"] =
    parse_cell_param_file [py"%block positions_frac\n", py"H 0 0 0\n", py"%endblock positions_frac\n"] ∧
    (parse_cell_param_file [py"%block positions_frac\n", py"H 0 0 0\n", py"%endblock positions_frac\n"]).isOk = true := by
  decide +kernel

/-- C33 fails for `positions_abs_product` and `positions_abs_intermediate`: the line of units is silently
dropped. -/
theorem C33_units_dropped : ∀ name ∈ [py"positions_abs_product", py"positions_abs_intermediate"],
    parse_cell_param_file [py"%block " ++ name, py"bohr\n", py"H 0 0 1\n", py"%endblock"] =
      parse_cell_param_file [py"%block " ++ name, py"H 0 0 1\n", py"%endblock"] ∧
    (parse_cell_param_file [py"%block " ++ name, py"H 0 0 1\n", py"%endblock"]).isOk = true := by
  decide +kernel

/-! ### Examples -/

theorem row_three (g : Str) (a b c : Coord) (hg : Blank g) (ha : a.Valid) (hb : b.Valid) (hc : c.Valid) :
    NumRow (g ++ (a.text ++ ([32] ++ (b.text ++ ([32] ++ (c.text ++ [])))))) [a, b, c] :=
  ⟨g, _, hg, .cons ha (by decide) (by decide) (.cons hb (by decide) (by decide) (.last hc (by decide))), rfl⟩

/-- An integer coordinate. -/
abbrev int (s : Str) : Coord := .num ⟨none, s, none, none⟩

theorem opens_example (l name k g' w v : Str) (hu : l.takeWhile keepC = k ++ g' ++ w ++ v)
    (hk : Str.lower k = py"%block ") (hg' : Blank g') (hw : ∀ c ∈ w, isSpace c = false) (hw0 : w ≠ [])
    (hv : ∀ c, v.head? = some c → isSpace c = true) (hn : Str.lower w = name) : OpensNamed l name :=
  ⟨_, [], k, g', w, v, uncommented_takeWhile l, by simpa using hu, (by intro c hc; cases hc), hk, hg', hw, hw0, hv, hn⟩

/-- C34 hypotheses: an operation with a ratio, an indented row and a comment line. -/
example : ∃ ops : List SymOp, ops.length = 1 ∧ OpensNamed (py"%BLOCK Symmetry_Ops ! one\n") (py"symmetry_ops") ∧
    ClosesBlock (py"%endblock symmetry_ops\n") ∧
    KeptInline cellComments [py"  1 0 0\n", py"# c\n", py"0 1 0\n", py"0 0 1\n", py"1/2 0 -0.5 ! t\n"]
      [py"  1 0 0", py"0 1 0", py"0 0 1", py"1/2 0 -0.5"] ∧
    List.Forall₂ NumRow [py"  1 0 0", py"0 1 0", py"0 0 1", py"1/2 0 -0.5"] (ops.flatMap SymOp.rows) ∧
    ∀ o ∈ ops, ∀ r ∈ o.rows, ∀ c ∈ r, c.InRange := by
  refine ⟨[⟨[int (py"1"), int (py"0"), int (py"0")], [int (py"0"), int (py"1"), int (py"0")],
    [int (py"0"), int (py"0"), int (py"1")],
    [.ratio (py"1") (py"2"), int (py"0"), .num ⟨some true, py"0", some (py"5"), none⟩]⟩], rfl,
    opens_example _ _ (py"%BLOCK ") [] (py"Symmetry_Ops") (py" ") (by decide) (by decide) (by decide) (by decide)
      (by decide) (by decide) (by decide), ?_, (C20_inline _ _ (by decide) _).1 (by decide +kernel), ?_, ?_⟩
  · exact ⟨[], py"%endblock", py" symmetry_ops\n", rfl, (by intro c hc; cases hc), by decide⟩
  · exact .cons (row_three (py"  ") _ _ _ (by decide) (by decide) (by decide) (by decide))
      (.cons (row_three [] _ _ _ (by decide) (by decide) (by decide) (by decide))
      (.cons (row_three [] _ _ _ (by decide) (by decide) (by decide) (by decide))
      (.cons (row_three [] _ _ _ (by decide) (by decide) (by decide) (by decide)) .nil)))
  · decide +kernel

theorem not_mentions {w s : Str} (h : ∀ i ∈ List.range (s.length + 1), ¬ w <+: Str.lower (s.drop i)) : ¬ MentionsCi w s := by
  rintro ⟨u, v, rfl, hv⟩
  refine h u.length (by simp; omega) ?_
  rw [List.drop_left]; exact hv

/-- C33 hypotheses: two species, spin, ratios, a comment. -/
example : ∃ atoms : List AtomLine, atoms.length = 3 ∧ OpensNamed (py"%block Positions_Frac\n") (py"positions_frac") ∧
    ClosesBlock (py" %EndBlock\n") ∧
    KeptInline cellComments [py"H 1/3 0 0\n", py"\n", py"Fe 0 1 0 SPIN= -1\n", py"H 0 0 1 ! c\n"]
      [py"H 1/3 0 0", py"Fe 0 1 0 SPIN= -1", py"H 0 0 1"] ∧
    List.Forall₂ PosLine [py"H 1/3 0 0", py"Fe 0 1 0 SPIN= -1", py"H 0 0 1"] atoms ∧
    ∀ a ∈ atoms, (∀ c ∈ a.coords, c.InRange) ∧ ∀ c ∈ a.spin, c.InRange := by
  refine ⟨[⟨py"H", (.ratio (py"1") (py"3"), int (py"0"), int (py"0")), none⟩,
    ⟨py"Fe", (int (py"0"), int (py"1"), int (py"0")), some (.num ⟨some true, py"1", none, none⟩)⟩,
    ⟨py"H", (int (py"0"), int (py"0"), int (py"1")), none⟩], rfl,
    opens_example _ _ (py"%block ") [] (py"Positions_Frac") (py"\n") (by decide) (by decide) (by decide) (by decide)
      (by decide) (by decide) (by decide), ?_, (C20_inline _ _ (by decide) _).1 (by decide +kernel), ?_, ?_⟩
  · exact ⟨py" ", py"%EndBlock", py"\n", rfl, (by decide), by decide⟩
  · refine .cons ⟨[], py" ", py" ", py" ", [], rfl, by decide, ⟨72, [], rfl, by decide⟩, by decide, by decide, by decide,
      by decide, by decide, by decide, by decide, by decide, ?_, ?_⟩ (.cons ⟨[], py" ", py" ", py" ", py" SPIN= -1", rfl,
      by decide, ⟨70, [101], rfl, by decide⟩, by decide, by decide, by decide, by decide, by decide, by decide, by decide,
      by decide, ?_, ?_⟩ (.cons ⟨[], py" ", py" ", py" ", [], rfl, by decide, ⟨72, [], rfl, by decide⟩, by decide,
      by decide, by decide, by decide, by decide, by decide, by decide, by decide, ?_, ?_⟩ .nil))
    · exact .plain (not_mentions (by decide)) (not_mentions (by decide))
    · exact not_mentions (by decide)
    · refine SpinOf.spin (a := py"Fe 0 1 0 ") (k := py"SPIN") (g := []) (s := c!"=") (g' := py" ") (t := [])
        (c := .num ⟨some true, py"1", none, none⟩) ?_ (by decide) (by decide) (by decide) (by decide) (by decide) (by decide)
      have h : ∀ i ∈ List.range 9, ¬ StartsCi (py"spin") ((py"Fe 0 1 0 ").drop i ++ py"SPIN= -1") ∧
          ¬ StartsCi (py"magmom") ((py"Fe 0 1 0 ").drop i ++ py"SPIN= -1") := by unfold StartsCi; decide
      intro u v e hv
      have hl := congrArg List.length e
      have hv' := List.length_pos_iff.2 hv
      have := h u.length (by simp at hl ⊢; omega)
      rw [e, List.drop_left] at this
      exact this
    · exact not_mentions (by decide)
    · exact .plain (not_mentions (by decide)) (not_mentions (by decide))
    · exact not_mentions (by decide)
  · decide +kernel

/-- C33 hypotheses for absolute positions: a line of units and one atom. -/
example : OpensNamed (py"%block positions_abs\n") (py"positions_abs") ∧
    KeptInline cellComments [py"bohr ! units\n", py"H 0 0 1\n"] ((py"" ++ py"bohr") :: [py"H 0 0 1"]) :=
  ⟨opens_example _ _ (py"%block ") [] (py"positions_abs") (py"\n") (by decide) (by decide) (by decide) (by decide)
      (by decide) (by decide) (by decide), (C20_inline _ _ (by decide) _).1 (by decide +kernel)⟩

/-- C34 hypotheses of the incomplete case: one row, and what is returned. -/
example : List.Forall₂ NumRow [py"1 0 0"] [[int (py"1"), int (py"0"), int (py"0")]] ∧
    parse_cell_param_file [py"%block symmetry_ops\n", py"1 0 0\n", py"%endblock"] = .error .indexError :=
  ⟨.cons (row_three [] _ _ _ (by decide) (by decide) (by decide) (by decide)) .nil, by decide +kernel⟩

end Verif.Props

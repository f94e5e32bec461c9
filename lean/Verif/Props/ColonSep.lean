import Verif.Lemmas.ColonSep
import Verif.Props.CellBlocks
import Verif.Props.Grids
/-
C105 and C106: parameters of dispersion corrections and Hubbard U values in `.cell` files.
-/
namespace Verif.Props
open Verif Spec Cell

/-- C105.  A `sedc_custom_params` block, with comments and blank lines anywhere and possibly a first line with the units of energy
and distance, gives the units (eV and Ång by default) and for each species its values under their names.  Partial: without
units, the first line does not consist of two words (`C105_violated`); numbers end with a digit. -/
theorem C105_partial (l : Str) (blk : List Str) (last : Str) (kept ul rl : List Str) (e d : Str) (xs : List SedcLine)
    (hl : OpensNamed l (py"sedc_custom_params")) (hb : ∀ x ∈ blk, ¬ ClosesBlock x) (hlast : ClosesBlock last)
    (hk : KeptInline cellComments blk kept) (he : kept = ul ++ rl) (hu : SedcUnits ul e d)
    (hrows : List.Forall₂ (fun l x => SedcLine.Line l x) rl xs) (hok : ∀ x ∈ xs, x.Ok)
    (hfirst : ul = [] → ∃ l0 rest, rl = l0 :: rest ∧ ∀ ws, Fields l0 ws → ws.length ≠ 2) :
    ∃ rd : Numeral → F64, (∀ n : Numeral, n.Valid → n.InRange → F64.Nearest n.value (rd n)) ∧ ∃ es D : List (Key × PyVal),
      List.Forall₂ (fun x p => p.1 = Key.str x.spec ∧ ∃ d', p.2 = .dict d' ∧ LastWins (x.pairs.map (ColonPair.entry rd)) d') xs es ∧
      LastWins (SedcLine.units e d :: es) D ∧
      parse_cell_param_file (l :: (blk ++ [last])) = .ok (.list [.dict [(.str (py"sedc_custom_params"), .dict D)]]) := by
  obtain ⟨rd, fl, hrd⟩ := readings
  refine ⟨rd, fun n h1 h2 => (hrd n h1 h2).1.2, xs.map fun x => (Key.str x.spec, PyVal.dict (Dict.ofList (x.pairs.map (ColonPair.entry rd)))), _, ?_,
    LineTab.lastWins _, ?_⟩
  · rw [List.forall₂_map_right_iff, List.forall₂_same]
    exact fun x _ => ⟨rfl, _, rfl, LineTab.lastWins _⟩
  have hloop := ColonSep.sedc_rows (last := clean last) ((closes_clean _).2 hlast) (fun n h1 h2 => (hrd n h1 h2).1.1) hrows hok
    [SedcLine.units e d]
  have hp : parserFor (py"sedc_custom_params") = parse_sedc := rfl
  rw [parse_named hl hb hlast, stripped_block hlast hk, hp, parse_sedc, he]
  cases hu with
  | none =>
    obtain ⟨l0, rest, rfl, hw⟩ := hfirst rfl
    have hs : (Str.split l0).length ≠ 2 := hw _ (split_fields l0)
    rw [List.nil_append]
    simp only [Block.next, List.cons_append, List.getElem?_cons_zero]
    split
    · next h => rw [h] at hs; exact absurd rfl hs
    · simp only [Block.rewind]
      rw [if_neg (by simp)]
      simp only [Block.rest, Nat.zero_add, Nat.sub_self, List.drop_zero]
      rw [List.cons_append] at hloop
      simp only [SedcLine.units] at hloop
      simp only [hloop]
      rfl
  | @some l0 e d hf =>
    have hs : Str.split l0 = [e, d] := (fields_iff _ _).1 hf
    simp only [Block.next, List.cons_append, List.nil_append, List.getElem?_cons_zero, hs, Block.rest, List.drop_succ_cons, Nat.zero_add, List.drop_zero]
    simp only [SedcLine.units] at hloop
    simp only [hloop]
    rfl

/-- C105 is false for every block without units whose first line is a species with one value written without blanks: the species
and the value are reported as the units, and the species is missing. -/
theorem C105_violated (l : Str) (blk : List Str) (last : Str) (l0 : Str) (rl : List Str) (x0 : SedcLine) (v : Str) (xs : List SedcLine)
    (hl : OpensNamed l (py"sedc_custom_params")) (hb : ∀ x ∈ blk, ¬ ClosesBlock x) (hlast : ClosesBlock last)
    (hk : KeptInline cellComments blk (l0 :: rl)) (h0 : Fields l0 [x0.spec, v])
    (hrows : List.Forall₂ (fun l x => SedcLine.Line l x) rl xs) (hok : ∀ x ∈ xs, x.Ok)
    (hnew : ∀ x ∈ xs, x.spec ≠ x0.spec ∧ x.spec ≠ py"units") (hun : x0.spec ≠ py"units") :
    ∃ D : List (Key × PyVal), parse_cell_param_file (l :: (blk ++ [last])) = .ok (.list [.dict [(.str (py"sedc_custom_params"), .dict D)]]) ∧
      Key.str x0.spec ∉ D.map Prod.fst ∧ SedcLine.units x0.spec v ∈ D := by
  obtain ⟨rd, -, es, D, h1, h2, h3⟩ := C105_partial l blk last (l0 :: rl) [l0] rl x0.spec v xs hl hb hlast hk rfl (.some h0) hrows hok (by simp)
  have hkeys : ∀ p ∈ es, ∃ x ∈ xs, p.1 = Key.str x.spec := by
    clear * - h1
    induction h1 with
    | nil => intro p hp; cases hp
    | @cons x p xs es hx _ ih =>
      intro q hq
      rcases List.mem_cons.1 hq with rfl | hq
      · exact ⟨x, by simp, hx.1⟩
      · obtain ⟨y, hy, e⟩ := ih q hq
        exact ⟨y, by simp [hy], e⟩
  refine ⟨D, h3, ?_, ?_⟩
  · intro hm
    rw [h2.1, List.mem_eraseDups] at hm
    rcases List.mem_cons.1 hm with h | h
    · exact hun (Key.str.inj h)
    · obtain ⟨p, hp, e⟩ := List.mem_map.1 h
      obtain ⟨x, hx, e2⟩ := hkeys p hp
      rw [e2] at e
      exact (hnew x hx).1 (Key.str.inj e)
  · have hm : Key.str (py"units") ∈ D.map Prod.fst := by
      rw [h2.1, List.mem_eraseDups]
      exact List.mem_cons_self
    obtain ⟨p, hp, e⟩ := List.mem_map.1 hm
    have hf := h2.2 p hp
    have hq := List.mem_of_find?_eq_some hf
    rw [List.mem_reverse] at hq
    rcases List.mem_cons.1 hq with rfl | hq
    · exact hp
    · obtain ⟨x, hx, e2⟩ := hkeys p hq
      rw [e2] at e
      exact absurd (Key.str.inj e) (hnew x hx).2

/-- C106.  A `hubbard_u` block, with comments and blank lines anywhere and possibly a first line with the units, gives the units (eV
by default) and for each species, or atom, the values for its shells.  Partial: shells are named with small letters and species have
no label in brackets; numbers end with a digit. -/
theorem C106_partial (l : Str) (blk : List Str) (last : Str) (kept ul rl : List Str) (u : Str) (xs : List HubbardLine)
    (hl : OpensNamed l (py"hubbard_u")) (hb : ∀ x ∈ blk, ¬ ClosesBlock x) (hlast : ClosesBlock last)
    (hk : KeptInline cellComments blk kept) (he : kept = ul ++ rl) (hu : HubbardUnits ul u)
    (hrows : List.Forall₂ HubbardLine.Line rl xs) (hok : ∀ x ∈ xs, x.Ok) (hne : xs ≠ []) :
    ∃ rd : Numeral → F64, (∀ n : Numeral, n.Valid → n.InRange → F64.Nearest n.value (rd n)) ∧ ∃ es D : List (Key × PyVal),
      List.Forall₂ (fun x p => p.1 = x.key ∧ ∃ d', p.2 = .dict d' ∧ LastWins (x.pairs.map (ColonPair.entry rd)) d') xs es ∧
      LastWins ((.str (py"units"), .str u) :: es) D ∧
      parse_cell_param_file (l :: (blk ++ [last])) = .ok (.list [.dict [(.str (py"hubbard_u"), .dict D)]]) := by
  obtain ⟨rd, fl, hrd⟩ := readings
  refine ⟨rd, fun n h1 h2 => (hrd n h1 h2).1.2, xs.map fun x => (x.key, PyVal.dict (Dict.ofList (x.pairs.map (ColonPair.entry rd)))), _, ?_,
    LineTab.lastWins _, ?_⟩
  · rw [List.forall₂_map_right_iff, List.forall₂_same]
    exact fun x _ => ⟨rfl, _, rfl, LineTab.lastWins _⟩
  have hloop := ColonSep.hubbard_rows (last := clean last) ((closes_clean _).2 hlast) (fun n h1 h2 => (hrd n h1 h2).1.1) hrows hok
    [(.str (py"units"), .str u)]
  have hp : parserFor (py"hubbard_u") = parse_hubbard_u := rfl
  rw [parse_named hl hb hlast, stripped_block hlast hk, hp, parse_hubbard_u, he]
  cases hu with
  | none =>
    cases hrows with
    | nil => exact absurd rfl hne
    | @cons x a xs as hx _ =>
      have hu : get_block_units ⟨0, 0, [] ++ (x :: xs) ++ [clean last]⟩ (py"eV") = (.ok (py"eV"), ⟨0, 0, x :: xs ++ [clean last]⟩) := by
        simp only [get_block_units, List.nil_append, List.cons_append, Block.next, List.getElem?_cons_zero,
          units_none (ColonSep.hubbard_words hx (hok a (by simp)))]
        rfl
      rw [hu]
      simp only [Block.rest, List.drop_zero, hloop]
      rfl
  | @some g w hg hw0 hw =>
    obtain ⟨m, hm, hmw⟩ := units_some g u hg hw hw0
    have hu : get_block_units ⟨0, 0, [g ++ u] ++ rl ++ [clean last]⟩ (py"eV") = (.ok u, ⟨0, 1, (g ++ u) :: rl ++ [clean last]⟩) := by
      simp only [get_block_units, List.cons_append, List.nil_append, Block.next, List.getElem?_cons_zero, hm, hmw]
      rfl
    rw [hu]
    simp only [Block.rest, List.cons_append, List.drop_succ_cons, List.drop_zero, hloop]
    rfl

/-! ### The hypotheses can be met -/

def exSedcNum (a b : Str) : Numeral := ⟨none, a, some b, none⟩

def exSedc : List SedcLine := [⟨py"H", [⟨py"C6", exSedcNum (py"0") (py"0")⟩, ⟨py"R0", exSedcNum (py"1") (py"6404")⟩]⟩,
  ⟨py"Ti:Tag", [⟨py"alpha", exSedcNum (py"0") (py"6668")⟩]⟩]

theorem exSedcRows : List.Forall₂ (fun l x => SedcLine.Line l x) [py"H C6:0.0 R0 : 1.6404", py" Ti:Tag  alpha:0.6668"] exSedc := by
  refine .cons ⟨[], py" ", py"C6:0.0 R0 : 1.6404", rfl, by decide, by decide, ?_⟩ (.cons ⟨py" ", py"  ", py"alpha:0.6668", rfl, by decide, by decide, ?_⟩ .nil)
  · exact .cons (p := ⟨py"C6", exSedcNum (py"0") (py"0")⟩) (g1 := []) (g2 := []) (g := py" ") (by decide) (by decide) (by decide)
      (.last (p := ⟨py"R0", exSedcNum (py"1") (py"6404")⟩) (g1 := py" ") (g2 := py" ") (by decide) (by decide))
  · exact .last (p := ⟨py"alpha", exSedcNum (py"0") (py"6668")⟩) (g1 := []) (g2 := []) (by decide) (by decide)

theorem exPairOk {k a b : Str} (h : k ≠ [] ∧ (∀ c, k.head? = some c → (65 ≤ c ∧ c ≤ 90) ∨ (97 ≤ c ∧ c ≤ 122)) ∧ ∀ c ∈ k, isSpace c = false ∧ c ≠ c!":")
    (hv : (exSedcNum a b).Valid) (hr : (exSedcNum a b).InRange) (hd : ∀ c, (exSedcNum a b).text.getLast? = some c → 48 ≤ c ∧ c ≤ 57) :
    ColonPair.Ok ⟨k, exSedcNum a b⟩ := ⟨h.1, h.2.1, h.2.2, hv, hr, hd⟩

example : OpensNamed (py"%BLOCK Sedc_Custom_Params\n") (py"sedc_custom_params") ∧ ClosesBlock (py"%ENDBLOCK sedc_custom_params\n") ∧
    KeptInline cellComments [py"H C6:0.0 R0 : 1.6404 ! x\n", py"# x\n", py" Ti:Tag  alpha:0.6668\n"] ([] ++ [py"H C6:0.0 R0 : 1.6404", py" Ti:Tag  alpha:0.6668"]) ∧
    SedcUnits [] (py"eV") (py"Ang") ∧
    List.Forall₂ (fun l x => SedcLine.Line l x) [py"H C6:0.0 R0 : 1.6404", py" Ti:Tag  alpha:0.6668"] exSedc ∧ (∀ x ∈ exSedc, x.Ok) ∧
    (∀ ws, Fields (py"H C6:0.0 R0 : 1.6404") ws → ws.length ≠ 2) ∧ Fields (py" Ti:Tag  alpha:0.6668") [py"Ti:Tag", py"alpha:0.6668"] := by
  refine ⟨opens_example _ _ (py"%BLOCK ") [] (py"Sedc_Custom_Params") (py"\n") (by decide) (by decide) (by decide) (by decide)
      (by decide) (by decide) (by decide), ⟨[], py"%ENDBLOCK", py" sedc_custom_params\n", rfl, (by intro c hc; cases hc), by decide⟩,
    (C20_inline _ _ (by decide) _).1 (by decide +kernel), .none, exSedcRows, ?_, ?_, (fields_iff _ _).2 (by decide +kernel)⟩
  · intro x hx
    simp only [exSedc, List.mem_cons, List.not_mem_nil, or_false] at hx
    rcases hx with rfl | rfl
    · refine ⟨by decide, by decide, by decide, ?_⟩
      intro p hp
      simp only [List.mem_cons, List.not_mem_nil, or_false] at hp
      rcases hp with rfl | rfl
      · exact exPairOk (by decide) (by decide) (by decide +kernel) (by decide)
      · exact exPairOk (by decide) (by decide) (by decide +kernel) (by decide)
    · refine ⟨by decide, by decide, by decide, ?_⟩
      intro p hp
      simp only [List.mem_cons, List.not_mem_nil, or_false] at hp
      subst hp
      exact exPairOk (by decide) (by decide) (by decide +kernel) (by decide)
  · intro ws h
    rw [← (fields_iff _ _).1 h]
    decide +kernel

def exHubbard : List HubbardLine := [⟨⟨83, py"m", none, none⟩, some (py"1"), [⟨py"f", exSedcNum (py"6") (py"1")⟩]⟩,
  ⟨⟨78, py"i", none, none⟩, none, [⟨py"d", exSedcNum (py"2") (py"4")⟩, ⟨py"p", exSedcNum (py"1") (py"0")⟩]⟩]

example : OpensNamed (py"%BLOCK Hubbard_U\n") (py"hubbard_u") ∧ ClosesBlock (py"%ENDBLOCK hubbard_u\n") ∧
    KeptInline cellComments [py"  eV\n", py"    Sm 1   f: 6.1 # x\n", py"  Ni    d: 2.4 p:1.0\n"] ([py"  eV"] ++ [py"    Sm 1   f: 6.1", py"  Ni    d: 2.4 p:1.0"]) ∧
    HubbardUnits [py"  eV"] (py"eV") ∧
    List.Forall₂ HubbardLine.Line [py"    Sm 1   f: 6.1", py"  Ni    d: 2.4 p:1.0"] exHubbard ∧ (∀ x ∈ exHubbard, x.Ok) ∧ exHubbard ≠ [] := by
  refine ⟨opens_example _ _ (py"%BLOCK ") [] (py"Hubbard_U") (py"\n") (by decide) (by decide) (by decide) (by decide)
      (by decide) (by decide) (by decide), ⟨[], py"%ENDBLOCK", py" hubbard_u\n", rfl, (by intro c hc; cases hc), by decide⟩,
    (C20_inline _ _ (by decide) _).1 (by decide +kernel), .some (g := py"  ") (w := py"eV") (by decide) (by decide) (by decide), ?_, ?_, by simp [exHubbard]⟩
  · refine .cons (.one (x := ⟨⟨83, py"m", none, none⟩, some (py"1"), [⟨py"f", exSedcNum (py"6") (py"1")⟩]⟩) (i := py"1") (g := py"    ") (g0 := py" ") (g1 := py"   ")
        (s := py"f: 6.1") rfl (by decide) (by decide) (by decide) ?_)
      (.cons (.all (x := ⟨⟨78, py"i", none, none⟩, none, [⟨py"d", exSedcNum (py"2") (py"4")⟩, ⟨py"p", exSedcNum (py"1") (py"0")⟩]⟩) (g := py"  ") (g0 := py"    ")
        (s := py"d: 2.4 p:1.0") rfl (by decide) (by decide) ?_) .nil)
    · exact .last (p := ⟨py"f", exSedcNum (py"6") (py"1")⟩) (g1 := []) (g2 := py" ") (by decide) (by decide)
    · exact .cons (p := ⟨py"d", exSedcNum (py"2") (py"4")⟩) (g1 := []) (g2 := py" ") (g := py" ") (by decide) (by decide) (by decide)
        (.last (p := ⟨py"p", exSedcNum (py"1") (py"0")⟩) (g1 := []) (g2 := []) (by decide) (by decide))
  · intro x hx
    simp only [exHubbard, List.mem_cons, List.not_mem_nil, or_false] at hx
    rcases hx with rfl | rfl
    · refine ⟨by decide, by decide, by decide, ?_⟩
      intro p hp
      simp only [List.mem_cons, List.not_mem_nil, or_false] at hp
      subst hp
      exact ⟨exPairOk (by decide) (by decide) (by decide +kernel) (by decide), by decide⟩
    · refine ⟨by decide, by decide, by decide, ?_⟩
      intro p hp
      simp only [List.mem_cons, List.not_mem_nil, or_false] at hp
      rcases hp with rfl | rfl
      · exact ⟨exPairOk (by decide) (by decide) (by decide +kernel) (by decide), by decide⟩
      · exact ⟨exPairOk (by decide) (by decide) (by decide +kernel) (by decide), by decide⟩

end Verif.Props

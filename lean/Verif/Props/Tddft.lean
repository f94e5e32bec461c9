import Verif.Lemmas.Tddft
import Verif.Props.Efield
import Verif.Props.AtomVec
import Verif.Props.Magres
import Verif.Props.UnitCell
/-
C71: `.tddft` files.
-/
namespace Verif.Props
open Verif Spec Tddft

/-- What a file is reported as, for files whose header may name the highest occupied band in the program's own spelling. -/
theorem C71_partial (parts : List TdPart) (ls : List (List Str)) (h : List.Forall₂ TdPart.Lines parts ls) (hok : ∀ p ∈ parts, p.Ok) :
    ∃ rd fl : Numeral → F64, (∀ n : Numeral, n.Valid → n.InRange → F64.Nearest n.value (rd n) ∧ F64.Nearest n.value (fl n)) ∧
      parse_tddft_file ls.flatten = .ok (.dict (parts.foldl (TdPart.put rd fl) [])) := by
  obtain ⟨rd, fl, hr⟩ := readings
  refine ⟨rd, fl, fun n x y => ⟨(hr n x y).1.2, (hr n x y).2.2⟩, ?_⟩
  rw [parse_tddft_file, loop_parts rd fl (fun n x y => (hr n x y).2.1) (fun n x y => (hr n x y).1.1) parts ls h hok [] _ (Nat.lt_succ_self _)]
  rfl

/-- Whatever bands a header gives as the highest occupied ones, in the spelling of the files, they are not reported: files that differ in such a line only
are read as the same. -/
theorem C71_band (p q : List TdPart) (ps qs : List (List Str)) (before after : List HeadPart) (bs as : List (List Str)) (line line' : Str)
    (ns ns' : List Numeral) (hp : List.Forall₂ TdPart.Lines p ps) (hq : List.Forall₂ TdPart.Lines q qs) (hop : ∀ x ∈ p, x.Ok) (hoq : ∀ x ∈ q, x.Ok)
    (hb : List.Forall₂ (HeadPart.Lines TdPart.band) before bs) (ha : List.Forall₂ (HeadPart.Lines TdPart.band) after as)
    (hob : ∀ i ∈ before ++ after, ∀ n ∈ i.nums, n.Valid ∧ n.InRange)
    (hl : ∀ x ∈ [(line, ns), (line', ns')], Occurs (py"Highest occupied band") x.1 ∧ ¬ Occurs TdPart.band x.1 ∧ ¬ IsCount x.1 ∧
      ¬ Occurs (py"Unit cell vectors") x.1 ∧ Plain x.1 ∧ HasNumbers x.1 x.2 ∧ NumsOk x.2)
    (he : ∀ x ∈ [line, line'], ∃ inner, Enclosed (py"BEGIN header") (py"END header") (bs.flatten ++ x :: as.flatten) inner) :
    parse_tddft_file (ps.flatten ++ (bs.flatten ++ line :: as.flatten) ++ qs.flatten) =
      parse_tddft_file (ps.flatten ++ (bs.flatten ++ line' :: as.flatten) ++ qs.flatten) := by
  obtain ⟨rd, fl, hr⟩ := readings
  have key : ∀ (x : Str) (ms : List Numeral), Occurs (py"Highest occupied band") x ∧ ¬ Occurs TdPart.band x ∧ ¬ IsCount x ∧
      ¬ Occurs (py"Unit cell vectors") x ∧ Plain x ∧ HasNumbers x ms ∧ NumsOk ms →
      (∃ inner, Enclosed (py"BEGIN header") (py"END header") (bs.flatten ++ x :: as.flatten) inner) →
      parse_tddft_file (ps.flatten ++ (bs.flatten ++ x :: as.flatten) ++ qs.flatten) =
        .ok (.dict (q.foldl (TdPart.put rd fl) (merge (p.foldl (TdPart.put rd fl) []) (atomHeader TdPart.band rd (before ++ after))))) := by
    intro x ms ⟨_, h2, h3, h4, h5, h6, h7⟩ hx
    have hpart : TdPart.Lines (.header (before ++ .item (.note false ms) :: after)) (bs.flatten ++ x :: as.flatten) := by
      refine ⟨hx, bs ++ [x] :: as, ?_, by simp⟩
      refine List.rel_append hb (.cons ⟨(fun p hp => by cases hp), x, rfl, h3, h4, h5, ⟨(fun h => by cases h), fun h => absurd h h2⟩, h6, h7⟩ ha)
    have hall : List.Forall₂ TdPart.Lines (p ++ .header (before ++ .item (.note false ms) :: after) :: q) (ps ++ (bs.flatten ++ x :: as.flatten) :: qs) :=
      List.rel_append hp (.cons hpart hq)
    have hok : ∀ y ∈ p ++ .header (before ++ .item (.note false ms) :: after) :: q, y.Ok := by
      intro y hy
      rcases List.mem_append.1 hy with hy | hy
      · exact hop y hy
      · rcases List.mem_cons.1 hy with rfl | hy
        · intro i hi n hn
          rcases List.mem_append.1 hi with hi | hi
          · exact hob i (by simp [hi]) n hn
          · rcases List.mem_cons.1 hi with rfl | hi
            · simp [HeadPart.nums, HeadItem.nums] at hn
            · exact hob i (by simp [hi]) n hn
        · exact hoq y hy
    have := loop_parts rd fl (fun n x y => (hr n x y).2.1) (fun n x y => (hr n x y).1.1) _ _ hall hok [] _ (Nat.lt_succ_self _)
    rw [show ps.flatten ++ (bs.flatten ++ x :: as.flatten) ++ qs.flatten = (ps ++ (bs.flatten ++ x :: as.flatten) :: qs).flatten by simp,
      parse_tddft_file, this, List.foldl_append, List.foldl_cons]
    have e : atomHeader TdPart.band rd (before ++ .item (.note false ms) :: after) = atomHeader TdPart.band rd (before ++ after) := by
      simp [atomHeader, HeadPart.entries, HeadItem.entries, HeadPart.atoms]
    show Except.ok (PyVal.dict (q.foldl (TdPart.put rd fl) (merge (p.foldl (TdPart.put rd fl) []) _))) = _
    rw [e]
  rw [key line ns (hl (line, ns) (by simp)) (he _ (by simp)), key line' ns' (hl (line', ns') (by simp)) (he _ (by simp))]

/-! ### A file -/

def exTdHead : List HeadPart := [.item (.note false []), .item (.note false [exInt (py"1"), exInt (py"4")]), .atom exSi1, .item (.note false [])]

def exTdBand (n : Str) : Str := py" Highest occupied band for spin channel 1     " ++ n ++ py"\n"

def exTdBefore : List (List Str) := [[py"BEGIN header\n"]]
def exTdAfter : List (List Str) := [[py"  Si   1   0.5 -0.25  1.0\n"], [py"END header\n"]]

def exTdState : TdState :=
  ⟨[⟨exInt (py"1"), exInt (py"3"), exInt (py"6"), z 4⟩, ⟨exInt (py"1"), exInt (py"4"), exInt (py"6"), z 2⟩], exDec (py"0") (py"99")⟩

def exTdStateLines : List Str :=
  [py"BEGIN Characterisation of states as Kohn-Sham bands\n", py" State      Occ.         Unocc.        Overlap\n",
    py"         1         3 -->          6       4.5\n", py"         1         4 -->          6       2.5\n", py" Total overlap for state    1 = 0.99\n"]

def exTdStatesLines : List Str := exTdStateLines ++ [py"END Characterisation of states as Kohn-Sham bands\n"]

def exTdRow : TdRow := ⟨exInt (py"1"), z 6, py"Singlet", false, [(z 1, neg (py"2") (py"5")), (z 3, z 4)]⟩

def exTdSpecLines : List Str :=
  [py"BEGIN TDDFT Spectroscopic Data\n", py"   1   6.5   Singlet    No   ( 1.5 -2.5) (  3.5 4.5)\n", py"END TDDFT Spectroscopic Data"]

theorem noNumber_of (l : Str) (h : ((l.dropWhile isSpace).head?.all fun c => !isDigit c) = true) : NoNumber l := by
  intro g d r e hg hd
  have hsd : isSpace d = false := by simp [isSpace]; omega
  have key : ∀ g : Str, Blank g → (g ++ d :: r).dropWhile isSpace = d :: r := by
    intro g
    induction g with
    | nil => intro _; rw [List.nil_append, List.dropWhile_cons, hsd]; rfl
    | cons c g ih =>
      intro hg
      rw [List.cons_append, List.dropWhile_cons, hg c (by simp)]
      exact ih fun x hx => hg x (by simp [hx])
  rw [e, key g hg] at h
  simp [isDigit] at h
  omega

theorem noTotal_of (l : Str) (h : (l.dropWhile isSpace).head? ≠ some 84) : ¬ TotalStart l := by
  rintro ⟨g, r, hg, rfl⟩
  apply h
  clear h
  induction g with
  | nil => rfl
  | cons c g ih =>
    rw [List.cons_append, List.dropWhile_cons, hg c (by simp)]
    exact ih fun x hx => hg x (by simp [hx])

theorem exTdBand_line (n : Str) (hn : n = py"4" ∨ n = py"5") : Occurs (py"Highest occupied band") (exTdBand n) ∧ ¬ Occurs TdPart.band (exTdBand n) ∧
    ¬ IsCount (exTdBand n) ∧ ¬ Occurs (py"Unit cell vectors") (exTdBand n) ∧ Plain (exTdBand n) ∧
    HasNumbers (exTdBand n) [exInt (py"1"), exInt n] ∧ NumsOk [exInt (py"1"), exInt n] := by
  refine ⟨⟨py" ", py" for spin channel 1     " ++ n ++ py"\n", rfl⟩, ?_, ?_, ?_, ?_, ?_, ?_⟩
  · rcases hn with rfl | rfl <;> exact not_occurs _ _ (by decide +kernel)
  · rcases hn with rfl | rfl <;> exact not_count _ (by decide +kernel)
  · rcases hn with rfl | rfl <;> exact not_occurs _ _ (by decide +kernel)
  · rcases hn with rfl | rfl <;> exact plain_of_split _ (by decide +kernel)
  · refine hasNumbers_of (holds_of _ (py" Highest occupied band for spin channel ") [(exInt (py"1"), py"     "), (exInt n, py"\n")] ?_ ?_) (by simp)
      <;> rcases hn with rfl | rfl <;> decide +kernel
  · rcases hn with rfl | rfl <;> decide +kernel

theorem exTdBefore_lines : List.Forall₂ (HeadPart.Lines TdPart.band) [.item (.note false [])] exTdBefore :=
  .cons ⟨by simp, _, rfl, not_count _ (by decide +kernel), not_occurs _ _ (by decide +kernel), plain_of_split _ (by decide +kernel),
    ⟨(by intro h; cases h), fun h => absurd h (not_occurs _ _ (by decide +kernel))⟩, .inl ⟨rfl, by decide +kernel⟩, by simp⟩ .nil

theorem exTdAfter_lines : List.Forall₂ (HeadPart.Lines TdPart.band) [.atom exSi1, .item (.note false [])] exTdAfter := by
  refine .cons ⟨_, rfl, ⟨py"  ", py"   ", py"   ", py" ", py"  ", py"\n", by decide +kernel,
      lead_of _ (by decide +kernel), by decide +kernel, by decide +kernel, by decide +kernel, by decide +kernel, tail_of _ (by decide +kernel)⟩,
    not_count _ (by decide +kernel), not_occurs _ _ (by decide +kernel), by decide +kernel⟩ (.cons ?_ .nil)
  exact ⟨by simp, _, rfl, not_count _ (by decide +kernel), not_occurs _ _ (by decide +kernel), plain_of_split _ (by decide +kernel),
    ⟨(by intro h; cases h), fun h => absurd h (not_occurs _ _ (by decide +kernel))⟩, .inl ⟨rfl, by decide +kernel⟩, by simp⟩

theorem exTd_enclosed (n : Str) (hn : n = py"4" ∨ n = py"5") :
    ∃ inner, Enclosed (py"BEGIN header") (py"END header") (exTdBefore.flatten ++ exTdBand n :: exTdAfter.flatten) inner :=
  ⟨_, enclosed_of (first := py"BEGIN header\n") (inner := [exTdBand n, py"  Si   1   0.5 -0.25  1.0\n"]) (last := py"END header\n") (by decide +kernel)
    (by rcases hn with rfl | rfl <;> decide +kernel) (by decide +kernel)⟩

theorem exTdStates_lines : TdPart.Lines (.overlaps [exTdState]) exTdStatesLines := by
  refine ⟨starts_none (by decide +kernel), ⟨_, enclosed_of (first := exTdStatesLines.head!) (inner := exTdStatesLines.tail.dropLast)
      (last := exTdStatesLines.getLast!) (by decide +kernel) (by decide +kernel) (by decide +kernel)⟩, [exTdStateLines], [_], rfl, .cons ?_ .nil, ?_⟩
  · refine ⟨_, py" Total overlap for state    1 = 0.99\n", [exInt (py"1"), exDec (py"0") (py"99")], rfl,
      .skip ⟨noNumber_of _ (by decide +kernel), noTotal_of _ (by decide +kernel)⟩ (.skip ⟨noNumber_of _ (by decide +kernel), noTotal_of _ (by decide +kernel)⟩
        (.row ⟨[], (fields_iff _ _).2 (by decide +kernel)⟩ (.row ⟨[], (fields_iff _ _).2 (by decide +kernel)⟩ .nil))),
      ⟨py" ", py"    1 = 0.99\n", by decide, rfl⟩, ?_, by decide +kernel, rfl⟩
    exact hasNumbers_of (holds_of _ (py" Total overlap for state    ") [(exInt (py"1"), py" = "), (exDec (py"0") (py"99"), py"\n")] (by decide +kernel) (by decide +kernel)) (by simp)
  · intro l hl
    simp only [List.mem_singleton] at hl; subst hl
    exact ⟨noNumber_of _ (by decide +kernel), noTotal_of _ (by decide +kernel)⟩

theorem exTdSpec_lines : TdPart.Lines (.spectrum [exTdRow]) exTdSpecLines := by
  refine ⟨starts_none (by decide +kernel), ⟨_, enclosed_of (first := exTdSpecLines.head!) (inner := exTdSpecLines.tail.dropLast)
      (last := exTdSpecLines.getLast!) (by decide +kernel) (by decide +kernel) (by decide +kernel)⟩,
    .skip (noNumber_of _ (by decide +kernel)) (.row ?_ (.skip (noNumber_of _ (by decide +kernel)) .nil))⟩
  refine ⟨py"   ", py"   ", py"   ", py"    ", py"   ", py"( 1.5 -2.5) (  3.5 4.5)", py"\n", rfl, by decide, by decide, by decide, by decide, .inr rfl,
    by decide, ?_⟩
  exact hasNumbers_of (holds_of _ (py"( ") [(z 1, py" "), (neg (py"2") (py"5"), py") (  "), (z 3, py" "), (z 4, py")")] (by decide +kernel) (by decide +kernel)) (by decide)

theorem exTd_ok : ∀ p ∈ [TdPart.overlaps [exTdState], .spectrum [exTdRow]], p.Ok := by
  intro p hp
  simp only [List.mem_cons, List.not_mem_nil, or_false] at hp
  rcases hp with rfl | rfl
  · intro s hs
    simp only [List.mem_singleton] at hs; subst hs
    refine ⟨?_, by decide +kernel, by decide +kernel⟩
    intro t ht
    simp only [exTdState, List.mem_cons, List.not_mem_nil, or_false] at ht
    rcases ht with rfl | rfl <;> exact ⟨by decide +kernel, by decide +kernel, by decide +kernel, by decide +kernel, by decide +kernel⟩
  · intro r hr
    simp only [List.mem_singleton] at hr; subst hr
    exact ⟨by decide +kernel, by decide +kernel, by decide +kernel, by decide, by decide, by decide +kernel⟩

theorem exTd_tail : List.Forall₂ TdPart.Lines [TdPart.overlaps [exTdState], .spectrum [exTdRow]] [exTdStatesLines, exTdSpecLines] :=
  .cons exTdStates_lines (.cons exTdSpec_lines .nil)

theorem exTdHead_lines : TdPart.Lines (.header exTdHead) (exTdBefore.flatten ++ exTdBand (py"4") :: exTdAfter.flatten) := by
  obtain ⟨_, h2, h3, h4, h5, h6, h7⟩ := exTdBand_line (py"4") (.inl rfl)
  exact ⟨exTd_enclosed _ (.inl rfl), exTdBefore ++ [exTdBand (py"4")] :: exTdAfter, List.rel_append exTdBefore_lines
    (.cons ⟨(fun p hp => by cases hp), _, rfl, h3, h4, h5, ⟨(fun h => by cases h), fun h => absurd h h2⟩, h6, h7⟩ exTdAfter_lines), by simp⟩

theorem exTdHead_ok : TdPart.Ok (.header exTdHead) := by
  intro i hi
  simp only [exTdHead, List.mem_cons, List.not_mem_nil, or_false] at hi
  rcases hi with rfl | rfl | rfl | rfl
  · intro n hn; cases hn
  · intro n hn; cases hn
  · exact (exVec_ok exSi1 (by simp)).2.2.2
  · intro n hn; cases hn

example : ∃ rd fl : Numeral → F64, (∀ n : Numeral, n.Valid → n.InRange → F64.Nearest n.value (rd n) ∧ F64.Nearest n.value (fl n)) ∧
    parse_tddft_file [exTdBefore.flatten ++ exTdBand (py"4") :: exTdAfter.flatten, exTdStatesLines, exTdSpecLines].flatten =
      .ok (.dict ([TdPart.header exTdHead, .overlaps [exTdState], .spectrum [exTdRow]].foldl (TdPart.put rd fl) [])) :=
  C71_partial _ _ (.cons exTdHead_lines exTd_tail) fun p hp => by
    rcases List.mem_cons.1 hp with rfl | hp
    · exact exTdHead_ok
    · exact exTd_ok p hp

theorem exTd_same : parse_tddft_file ([].flatten ++ (exTdBefore.flatten ++ exTdBand (py"4") :: exTdAfter.flatten) ++ [exTdStatesLines, exTdSpecLines].flatten) =
    parse_tddft_file ([].flatten ++ (exTdBefore.flatten ++ exTdBand (py"5") :: exTdAfter.flatten) ++ [exTdStatesLines, exTdSpecLines].flatten) := by
  refine C71_band [] _ _ _ [.item (.note false [])] [.atom exSi1, .item (.note false [])] _ _ _ _ [exInt (py"1"), exInt (py"4")] [exInt (py"1"), exInt (py"5")] .nil exTd_tail (by simp) exTd_ok
    exTdBefore_lines exTdAfter_lines ?_ ?_ ?_
  · intro i hi
    simp only [List.singleton_append, List.mem_cons, List.not_mem_nil, or_false] at hi
    rcases hi with rfl | rfl | rfl
    · intro n hn; cases hn
    · exact (exVec_ok exSi1 (by simp)).2.2.2
    · intro n hn; cases hn
  · intro x hx
    simp only [List.mem_cons, List.not_mem_nil, or_false] at hx
    rcases hx with rfl | rfl
    · exact exTdBand_line _ (.inl rfl)
    · exact exTdBand_line _ (.inr rfl)
  · intro x hx
    simp only [List.mem_cons, List.not_mem_nil, or_false] at hx
    rcases hx with rfl | rfl
    · exact exTd_enclosed _ (.inl rfl)
    · exact exTd_enclosed _ (.inr rfl)

/-- The highest occupied band cannot be recovered from the result. -/
theorem C71_violated : ¬ ∃ band : PyM PyVal → List Numeral, ∀ (before after : List HeadPart) (bs as : List (List Str)) (line : Str) (ns : List Numeral)
    (q : List TdPart) (qs : List (List Str)), List.Forall₂ (HeadPart.Lines TdPart.band) before bs → List.Forall₂ (HeadPart.Lines TdPart.band) after as →
    Occurs (py"Highest occupied band") line → HasNumbers line ns →
    (∃ inner, Enclosed (py"BEGIN header") (py"END header") (bs.flatten ++ line :: as.flatten) inner) →
    List.Forall₂ TdPart.Lines q qs → (∀ p ∈ q, p.Ok) →
    band (parse_tddft_file (bs.flatten ++ line :: as.flatten ++ qs.flatten)) = ns := by
  rintro ⟨band, h⟩
  have h1 := h _ _ _ _ (exTdBand (py"4")) [exInt (py"1"), exInt (py"4")] _ _ exTdBefore_lines exTdAfter_lines (exTdBand_line _ (.inl rfl)).1
    (exTdBand_line _ (.inl rfl)).2.2.2.2.2.1 (exTd_enclosed _ (.inl rfl)) exTd_tail exTd_ok
  have h2 := h _ _ _ _ (exTdBand (py"5")) [exInt (py"1"), exInt (py"5")] _ _ exTdBefore_lines exTdAfter_lines (exTdBand_line _ (.inr rfl)).1
    (exTdBand_line _ (.inr rfl)).2.2.2.2.2.1 (exTd_enclosed _ (.inr rfl)) exTd_tail exTd_ok
  have e := exTd_same
  simp only [List.flatten_nil, List.nil_append] at e
  rw [e, h2] at h1
  exact absurd h1 (by decide)

end Verif.Props

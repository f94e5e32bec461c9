import Verif.Lemmas.BandTable
import Verif.Props.LineTables
/-
C81: the band structure in a `.castep` file.
-/
namespace Verif.Props
open Verif Verif.Spec Verif.Castep

/-- C81: every k-point with its spin, its coordinates, its group and exactly the bands printed below it. -/
theorem C81 (lines : List Str) (points : List BandPoint) (hl : BandPoint.Table lines points) (hok : ∀ b ∈ points, b.Ok) :
    ∃ rd : Numeral → F64, (∀ b ∈ points, Reads rd (b.k ++ b.rows.map Prod.snd)) ∧
      process_band_structure lines = .ok (.list (points.map fun b => .dict (b.info rd))) := by
  obtain ⟨rd, fl, hrd⟩ := readings
  have hv : ∀ b ∈ points, ∀ n ∈ b.k ++ b.rows.map Prod.snd, n.Valid ∧ n.InRange := by
    intro b hb n hn
    rcases List.mem_append.1 hn with hn | hn
    · exact (hok b hb).2.1.2 n hn
    · obtain ⟨r, hr, rfl⟩ := List.mem_map.1 hn
      exact ((hok b hb).2.2 r hr).2.2
  refine ⟨rd, fun b hb n hn => (hrd n (hv b hb n hn).1 (hv b hb n hn).2).1.2, ?_⟩
  obtain ⟨s, h1, h2⟩ := BandTab.table_fold (rd := rd) hl ([], []) [] rfl hok fun b hb n hn => (hrd n (hv b hb n hn).1 (hv b hb n hn).2).1.1
  rw [process_band_structure, h1]
  show (do let l ← bandFlush s; return PyVal.list l) = _
  rw [h2]
  rfl

/-- C81: a band before the first k-point is a `KeyError`. -/
theorem C81_orphan (before after : List Str) (l : Str) (r : Numeral × Numeral) (hb : ∀ x ∈ before, NoDigit x) (hr : BandPoint.Row r l) (hv : r.1.Valid ∧ r.2.Valid) :
    process_band_structure (before ++ l :: after) = .error .keyError := by
  have hl : bandLine ([], []) l = .error .keyError := BandTab.line_orphan hv.1 hv.2 hr
  have h1 : foldLines bandLine ([], []) before = .ok ([], []) := by
    induction before with
    | nil => rfl
    | cons x b ih =>
      rw [foldLines, BandTab.line_skip (hb x (by simp))]
      exact ih fun x hx => hb x (by simp [hx])
  rw [process_band_structure, BandTab.foldLines_append, h1]
  show (do let s ← foldLines bandLine ([], []) (l :: after); let l ← bandFlush s; return PyVal.list l) = _
  rw [foldLines, hl]
  rfl

def exBandPoint : BandPoint :=
  ⟨exInt (py"1"), exInt (py"10"), [neg (py"0") (py"375000"), exDec (py"0") (py"375000"), neg (py"0") (py"125000")], exInt (py"1"),
   [(exInt (py"1"), neg (py"3") (py"923890")), (exInt (py"2"), exDec (py"1") (py"381011"))]⟩

def exBandLines : List Str :=
  [py"  + ----------------------------------------------------------------- +\n",
   py"  +  Spin=1 kpt=   10 ( -0.375000  0.375000 -0.125000) kpt-group=  1  +\n",
   py"  + ----------------------------------------------------------------- +\n",
   py"  +           1       -3.923890                                       +\n",
   py"  +           2        1.381011                                       +\n"]

theorem exBandRow1 : BandPoint.Row (exInt (py"1"), neg (py"3") (py"923890")) (py"  +           1       -3.923890                                       +\n") :=
  ⟨py"  +", py"           1       -3.923890", py"                                       +\n", by decide +kernel, not_occurs _ _ (by decide +kernel), by decide +kernel,
    (by intro c hc; cases hc; decide),
    Gapped.cons (g := py"           ") (s := py"       -3.923890") (n := exInt (py"1")) (by decide +kernel) (by decide)
      (Gapped.cons (g := py"       ") (s := []) (n := neg (py"3") (py"923890")) (by decide +kernel) (by decide) .nil), (by intro c hc; cases hc; decide)⟩

theorem exBandTable : BandPoint.Table exBandLines [exBandPoint] := by
  refine .skip (by decide +kernel) (.point (a := [_, _, _]) (ls := []) ?_ (.skip (by decide +kernel) (.row exBandRow1 (.row ?_ .nil))) .nil)
  · exact ⟨py"  +  ", [], py" ", py"   ", py" ", py" -0.375000  0.375000 -0.125000", py" ", py"  ", py"  +\n", by decide +kernel, by decide +kernel, by decide +kernel,
      Gapped.cons (g := py" ") (s := py"  0.375000 -0.125000") (n := neg (py"0") (py"375000")) (by decide +kernel) (by decide)
        (Gapped.cons (g := py"  ") (s := py" -0.125000") (n := exDec (py"0") (py"375000")) (by decide +kernel) (by decide)
          (Gapped.cons (g := py" ") (s := []) (n := neg (py"0") (py"125000")) (by decide +kernel) (by decide) .nil)), (by intro c hc; cases hc; decide)⟩
  · exact ⟨py"  +", py"           2        1.381011", py"                                       +\n", by decide +kernel, not_occurs _ _ (by decide +kernel), by decide +kernel,
      (by intro c hc; cases hc; decide),
      Gapped.cons (g := py"           ") (s := py"        1.381011") (n := exInt (py"2")) (by decide +kernel) (by decide)
        (Gapped.cons (g := py"        ") (s := []) (n := exDec (py"1") (py"381011")) (by decide +kernel) (by decide) .nil), (by intro c hc; cases hc; decide)⟩

instance decBandOk (b : BandPoint) : Decidable b.Ok := inferInstanceAs (Decidable (_ ∧ _ ∧ ∀ r ∈ _, _))

example : ∃ rd : Numeral → F64, (∀ b ∈ [exBandPoint], Reads rd (b.k ++ b.rows.map Prod.snd)) ∧
    process_band_structure exBandLines = .ok (.list [.dict
      [(.str (py"band"), .tuple [.int 1, .int 2]), (.str (py"energy"), .tuple [.float (rd (neg (py"3") (py"923890"))), .float (rd (exDec (py"1") (py"381011")))]),
       (.str (py"spin"), .int 1), (.str (py"kx"), .float (rd (neg (py"0") (py"375000")))), (.str (py"ky"), .float (rd (exDec (py"0") (py"375000")))),
       (.str (py"kz"), .float (rd (neg (py"0") (py"125000")))), (.str (py"kpgrp"), .int 1)]]) :=
  C81 _ _ exBandTable (by decide +kernel)

example : process_band_structure ([py"  +                                                                   +\n"] ++
    py"  +           1       -3.923890                                       +\n" :: []) = .error .keyError :=
  C81_orphan _ _ _ _ (by decide +kernel) exBandRow1 (by decide +kernel)

end Verif.Props

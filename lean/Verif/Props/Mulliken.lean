import Verif.Lemmas.Mulliken
import Verif.Props.Grids
/-
C75: Mulliken populations.
-/
namespace Verif.Props
open Verif Verif.Spec Verif.Castep

/-- C75: the entry of every atom, in the order of the table; with separate spins, the populations of both and their sum. -/
theorem C75 (lines : List Str) (rows : List PopRow) (hl : PopRow.Table lines rows) (hok : ∀ r ∈ rows, r.Ok)
    (hd : (rows.map PopRow.key).Nodup) :
    ∃ rd fl : Numeral → F64, (∀ r ∈ rows, Reads rd r.nums ∧ ∀ d ∈ r.dn, Reads rd d ∧ Reads fl d ∧ Reads fl r.pops) ∧
      process_mulliken lines = .ok (.dict (rows.map fun r => (r.key, .dict (r.info rd fl)))) := by
  obtain ⟨rd, fl, hrd⟩ := readings
  refine ⟨rd, fl, fun r hr => ⟨fun n hn => (hrd n ((hok r hr).2.2.2.2.1 n hn).1 ((hok r hr).2.2.2.2.1 n hn).2).1.2, fun d hd => ⟨?_, ?_, ?_⟩⟩, ?_⟩
  · exact fun n hn => (hrd n (((hok r hr).2.2.2.2.2 d hd).2 n hn).1 (((hok r hr).2.2.2.2.2 d hd).2 n hn).2).1.2
  · exact fun n hn => (hrd n (((hok r hr).2.2.2.2.2 d hd).2 n hn).1 (((hok r hr).2.2.2.2.2 d hd).2 n hn).2).2.2
  · intro n hn
    have hn : n ∈ r.nums := List.mem_append_left _ hn
    exact (hrd n ((hok r hr).2.2.2.2.1 n hn).1 ((hok r hr).2.2.2.2.1 n hn).2).2.2
  · rw [process_mulliken, Popn.loop_table hl hok (fun n h1 h2 => ⟨(hrd n h1 h2).1.1, (hrd n h1 h2).2.1⟩) _ (Nat.lt_succ_self _)]
    have : Dict.ofList (rows.map fun r => (r.key, PyVal.dict (r.info rd fl))) = rows.map fun r => (r.key, PyVal.dict (r.info rd fl)) := by
      apply Dict.ofList_nodup
      rw [List.map_map]
      exact hd
    exact congrArg (fun x => (Except.ok (PyVal.dict x) : PyM PyVal)) this

/-! ### Examples -/

def exPop1 : PopRow := ⟨⟨c!"S", py"i", none, none⟩, py"1", [exDec (py"1") (py"3"), exDec (py"2") (py"7"), exDec (py"0") (py"0"), exDec (py"0") (py"0"),
  exDec (py"4") (py"0")], ⟨some true, py"0", some (py"25"), none⟩, none, none⟩
def exPop2 : PopRow := ⟨⟨c!"F", py"e", some (py"ext"), none⟩, py"2", [exDec (py"1") (py"3"), exDec (py"2") (py"7"), exDec (py"0") (py"0"), exDec (py"0") (py"0"),
  exDec (py"4") (py"0")], exDec (py"0") (py"25"), some (exDec (py"1") (py"5")), some [exDec (py"0") (py"1"), exDec (py"0") (py"2"), exDec (py"0") (py"3"),
  exDec (py"0") (py"4"), exDec (py"1") (py"0")]⟩

def exPopLines : List Str :=
  [py"Species          Ion Spin      s       p       d       f      Total   Charge(e)\n",
   py"===============================\n",
   py"  Si              1     1.3    2.7    0.0  0.0   4.0   -0.25\n",
   py"  Fe:ext          2 up: 1.3    2.7    0.0  0.0   4.0   0.25   1.5\n",
   py"                  2 dn: 0.1    0.2    0.3  0.4   1.0\n"]

theorem exPop_lines : PopRow.Table exPopLines [exPop1, exPop2] := by
  refine .skip (by decide +kernel) (.skip (by decide +kernel) (.row (a := [py"  Si              1     1.3    2.7    0.0  0.0   4.0   -0.25\n"]) ?_
    (.row (ls := []) (a := [py"  Fe:ext          2 up: 1.3    2.7    0.0  0.0   4.0   0.25   1.5\n",
   py"                  2 dn: 0.1    0.2    0.3  0.4   1.0\n"]) ?_ .nil)))
  · exact ⟨_, rfl, py"  ", py"              1     1.3    2.7    0.0  0.0   4.0   -0.25\n", by decide +kernel, by decide +kernel,
      (by intro c hc; cases hc; decide), (fields_iff _ _).2 (by decide +kernel)⟩
  · refine ⟨_, _, py"2", [], rfl, ⟨py"  ", py"          2 up: 1.3    2.7    0.0  0.0   4.0   0.25   1.5\n", by decide +kernel, by decide +kernel,
      (by intro c hc; cases hc; decide), (fields_iff _ _).2 (by decide +kernel)⟩, ⟨_, _, rfl, by decide⟩, by decide +kernel, (fields_iff _ _).2 (by decide +kernel)⟩

example : ∃ rd fl : Numeral → F64, (∀ r ∈ [exPop1, exPop2], Reads rd r.nums ∧ ∀ d ∈ r.dn, Reads rd d ∧ Reads fl d ∧ Reads fl r.pops) ∧
    process_mulliken exPopLines = .ok (.dict ([exPop1, exPop2].map fun r => (r.key, .dict (r.info rd fl)))) :=
  C75 _ _ exPop_lines (by decide +kernel) (by decide +kernel)

end Verif.Props

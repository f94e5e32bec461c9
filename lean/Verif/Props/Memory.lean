import Verif.Lemmas.Memory
import Verif.Props.GeomTable
/-
C86: estimates of memory in a `.castep` file.
-/
namespace Verif.Props
open Verif Verif.Spec Verif.Castep

/-- C86, for rows whose text is made of letters and spaces: each under its own name, with exactly its two numbers.
Missing: rows with another character in their text (`C86_lost`). -/
theorem C86_partial (lines : List Str) (rows : List MemRow) (hl : Interleaved MemRow.Other MemRow.Line lines rows)
    (hok : ∀ r ∈ rows, ∀ n ∈ r.nums, n.Valid ∧ n.InRange) :
    ∃ (fl : Numeral → F64) (d : List (Key × PyVal)), (∀ r ∈ rows, Reads fl r.nums) ∧
      LastWins (rows.map fun r => (Key.str r.name, r.info fl)) d ∧ process_memory_est lines = .ok (.dict d) := by
  obtain ⟨rd, fl, hrd⟩ := readings
  exact ⟨fl, Dict.ofList (rows.map fun r => (Key.str r.name, r.info fl)), fun r hr n hn => (hrd n (hok r hr n hn).1 (hok r hr n hn).2).2.2,
    LineTab.lastWins _, mem_block hl fun r hr n hn => ⟨(hok r hr n hn).1, (hrd n (hok r hr n hn).1 (hok r hr n hn).2).2.1⟩⟩

/-- Rows whose text has another character are lost: whatever stands around them, and whatever they say, the estimate
reads as if they were not there. -/
theorem C86_lost (A B : List Str) (t : Str) (ht : MemRow.Lost t) : process_memory_est (A ++ t :: B) = process_memory_est (A ++ B) := by
  have : ∀ f : Str → PyM (Option (Key × PyVal)), f t = .ok none → collect f (A ++ t :: B) = collect f (A ++ B) := by
    intro f hf
    induction A with
    | nil => rw [List.nil_append, List.nil_append, collect, hf]; rfl
    | cons a A ih => rw [List.cons_append, List.cons_append, collect, collect, ih]
  rw [process_memory_est, process_memory_est, collectDict, collectDict, this]
  unfold onMatch
  rw [mem_miss (Or.inr ht)]

/-- The estimate of the test of the parser. -/
def exMemory : List Str :=
  [py"        +---------------- MEMORY AND SCRATCH DISK ESTIMATES PER PROCESS --------------+\n",
   py"        |                                                     Memory          Disk    |\n",
   py"        | Baseline code, static data and system overhead      239.0 MB         0.0 MB |\n",
   py"        | Model and support data                             3780.5 MB         0.0 MB |\n",
   py"        | Force calculation requirements                        9.8 MB         0.0 MB |\n",
   py"        |                                               ----------------------------- |\n",
   py"        | Approx. total storage required per process        10120.1 MB         0.0 MB |\n",
   py"        +-----------------------------------------------------------------------------+\n"]

def exMemoryRows : List MemRow :=
  [⟨py"model_and_support_data", exDec (py"3780") (py"5"), exDec (py"0") (py"0")⟩,
   ⟨py"force_calculation_requirements", exDec (py"9") (py"8"), exDec (py"0") (py"0")⟩]

theorem exMemory_total : MemRow.Lost (py"        | Approx. total storage required per process        10120.1 MB         0.0 MB |\n") :=
  ⟨py"        ", py" Approx", c!".", py" total storage required per process        10120.1 MB         0.0 MB |\n", by decide +kernel, by decide, by decide,
    by decide, by decide, by decide⟩

theorem exMemory_lines : Interleaved MemRow.Other MemRow.Line exMemory exMemoryRows := by
  refine .skip (Or.inl (by decide +kernel)) (.skip (Or.inl (by decide +kernel)) (.skip (Or.inr ?_) (.row ?_ (.row ?_
    (.skip (Or.inl (by decide +kernel)) (.skip (Or.inr exMemory_total) (.skip (Or.inl (by decide +kernel)) .nil)))))))
  · exact ⟨py"        ", py" Baseline code", c!",", py" static data and system overhead      239.0 MB         0.0 MB |\n", by decide +kernel, by decide, by decide,
      by decide, by decide, by decide⟩
  · exact ⟨py"        ", py" Model and support data                            ", py"         ", py" |\n", by decide +kernel, by decide, by decide, by decide,
      keyName_of (by decide +kernel), by decide, by decide⟩
  · exact ⟨py"        ", py" Force calculation requirements                       ", py"         ", py" |\n", by decide +kernel, by decide, by decide, by decide,
      keyName_of (by decide +kernel), by decide, by decide⟩

example : ∃ (fl : Numeral → F64) (d : List (Key × PyVal)), (∀ r ∈ exMemoryRows, Reads fl r.nums) ∧
    LastWins (exMemoryRows.map fun r => (Key.str r.name, r.info fl)) d ∧ process_memory_est exMemory = .ok (.dict d) :=
  C86_partial _ _ exMemory_lines (by decide +kernel)

/-- The total of the estimate is not reported: two estimates that differ in it read the same. -/
theorem C86_violated : ∃ t t' : Str, t ≠ t' ∧ (∃ r r' : MemRow, r.memory ≠ r'.memory ∧
      (∃ g, t = py"| Approx. total storage required per process " ++ r.memory.text ++ py" MB" ++ g) ∧
      ∃ g, t' = py"| Approx. total storage required per process " ++ r'.memory.text ++ py" MB" ++ g) ∧
    ∀ A B : List Str, process_memory_est (A ++ t :: B) = process_memory_est (A ++ t' :: B) := by
  refine ⟨py"| Approx. total storage required per process 10120.1 MB  0.0 MB |", py"| Approx. total storage required per process 40.6 MB  0.0 MB |", by decide +kernel,
    ⟨⟨[], exDec (py"10120") (py"1"), exDec (py"0") (py"0")⟩, ⟨[], exDec (py"40") (py"6"), exDec (py"0") (py"0")⟩, by decide, ⟨py"  0.0 MB |", by decide +kernel⟩,
      ⟨py"  0.0 MB |", by decide +kernel⟩⟩, fun A B => ?_⟩
  rw [C86_lost A B _ ⟨[], py" Approx", c!".", py" total storage required per process 10120.1 MB  0.0 MB |", by decide +kernel, by decide, by decide, by decide, by decide, by decide⟩,
    C86_lost A B _ ⟨[], py" Approx", c!".", py" total storage required per process 40.6 MB  0.0 MB |", by decide +kernel, by decide, by decide, by decide, by decide, by decide⟩]

example : process_memory_est exMemory = process_memory_est (exMemory.take 6 ++ exMemory.drop 7) := C86_lost (exMemory.take 6) (exMemory.drop 7) _ exMemory_total

end Verif.Props

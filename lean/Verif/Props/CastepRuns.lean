import Verif.Lemmas.CastepBanner
import Mathlib.Data.List.Forall2
/-
Property C41: the runs of an appended `.castep` file.
-/
namespace Verif.Props
open Verif Verif.Spec Verif.Castep

/-- C41: appending a run to a text that ends with an empty line gives the runs of the two parts, those of the first
with the lists under `energies` and `solvation` of the last not yet turned into tuples. -/
theorem C41_append_partial (order : List Str → List Str) (ops : Ops F64) (F : Filters) (a : List Str) (l : Str)
    (b : List Str) (ra rb : List Run) (ha : a.getLast? = some EmptyLine) (hl : Banner l)
    (hra : parse_castep_file order ops F a = .ok ra) (hrb : parse_castep_file order ops F (l :: b) = .ok rb) :
    ∃ ra', parse_castep_file order ops F (a ++ l :: b) = .ok (ra' ++ rb) ∧
      List.Forall₂ (fun r r' => r' = r ∨ SameRun (typeParser .float) r r') ra ra' := by
  rw [parse_eq] at hra hrb ⊢
  obtain ⟨s, hs, hfs⟩ := bind_ok hra
  obtain ⟨u, hu, hfu⟩ := bind_ok hrb
  rw [go_append a _ s hs (.inr ha)]
  have hgo : go (envOf order ops F) (l :: b) s = go (envOf order ops F) (l :: b) (newRun s) := by
    rw [go_cons, go_cons, dispatch_banner _ hl]
  obtain ⟨t, ht, haft⟩ := go_after (pre := (newRun s).runs) (l :: b) {} u hu (newRun s)
    ⟨by simp, rfl, .inl rfl⟩
  rw [hgo, ht]
  refine ⟨(newRun s).runs, ?_, ?_⟩
  · show finish t = _
    rw [finish] at hfu ⊢
    rw [haft.curr, haft.runs]
    split at hfu
    · cases hfu; simp [*]
    · rename_i hne
      rw [if_neg hne]
      obtain ⟨r, h1, h2⟩ := bind_ok hfu
      cases h2
      simp [h1, bind, Except.bind, pure, Except.pure]
  · rw [finish] at hfs
    simp only [newRun]
    split at hfs
    · rename_i he
      cases hfs
      rw [if_pos he]
      exact List.forall₂_same.2 fun _ _ => .inl rfl
    · rename_i he
      rw [if_neg he]
      obtain ⟨r, h1, h2⟩ := bind_ok hfs
      cases h2
      exact List.rel_append (List.forall₂_same.2 fun _ _ => .inl rfl) (.cons (.inr (sameRun_fix h1)) .nil)

/-- C41: a file of any number of runs, each starting with its banner, gives the runs of its parts in order. -/
theorem C41_runs_partial (order : List Str → List Str) (ops : Ops F64) (F : Filters) :
    ∀ (parts : List (List Str)) (res : List (List Run)),
      List.Forall₂ (fun p r => parse_castep_file order ops F p = .ok r) parts res →
      (∀ p ∈ parts.dropLast, p.getLast? = some EmptyLine) →
      (∀ p ∈ parts.tail, ∃ l b, p = l :: b ∧ Banner l) →
      ∃ runs, parse_castep_file order ops F parts.flatten = .ok runs ∧
        List.Forall₂ (fun r r' => r' = r ∨ SameRun (typeParser .float) r r') res.flatten runs := by
  intro parts
  induction parts with
  | nil =>
    intro res h _ _
    cases h
    exact ⟨[], rfl, .nil⟩
  | cons p parts ih =>
    intro res h h1 h2
    cases h with
    | cons hp hps =>
      rename_i r res
      cases hps with
      | nil => exact ⟨r, by simpa using hp, by simp [List.forall₂_same]⟩
      | cons hq hqs =>
        rename_i q r2 parts res
        obtain ⟨runs, hr, hf⟩ := ih (r2 :: res) (.cons hq hqs) (fun x hx => h1 x (by simp [hx]))
          (fun x hx => h2 x (by simp at hx ⊢; exact .inr hx))
        obtain ⟨l, b, rfl, hl⟩ := h2 q (by simp)
        rw [List.flatten_cons, List.cons_append] at hr
        obtain ⟨ra', h3, h4⟩ := C41_append_partial order ops F p l (b ++ parts.flatten) r runs (h1 p (by simp)) hl hp hr
        refine ⟨ra' ++ runs, ?_, ?_⟩
        · simpa using h3
        · rw [List.flatten_cons]
          exact List.rel_append h4 hf

/-- Two short runs. -/
def exRunA : List Str := [py" Compiled for linux on Wed\n", py" Code version: 20.1\n", py"\n",
  py"Final energy, E             =  -855.4591023999     eV\n", py"\n"]
def exRunB : List Str := [py" Compiled for linux on Thu\n", py" Code version: 20.1\n", py"\n",
  py"Final energy, E             =  -7.0     eV\n"]

/-- Arithmetic for examples. -/
def exOps : Ops F64 := floatOps fun l => l.foldl F64.add ⟨0⟩

/-- C41 applies: the two parts of a file of two runs give a run each. -/
example : exRunA.getLast? = some EmptyLine ∧ (∃ l b, exRunB = l :: b ∧ Banner l) ∧
    (∃ r, parse_castep_file id exOps Filters.HIGH exRunA = .ok [r]) ∧
    ∃ r, parse_castep_file id exOps Filters.HIGH exRunB = .ok [r] := by
  have key : ∀ (x : PyM (List Run)), (match x with | .ok [_] => true | _ => false) = true → ∃ r, x = .ok [r] := by
    intro x h
    split at h
    · exact ⟨_, rfl⟩
    · cases h
  exact ⟨by decide +kernel, ⟨_, _, rfl, [32], py" linux on Thu\n", by decide +kernel, by decide +kernel⟩,
    key _ (by decide +kernel), key _ (by decide +kernel)⟩

/-- C41 is false as stated: the energies of a run are lists when another run follows and tuples when it is the
last. -/
theorem C41_false : ∃ a b ra rb, a.getLast? = some EmptyLine ∧ (∃ l, b.head? = some l ∧ Banner l) ∧
    parse_castep_file id exOps Filters.HIGH a = .ok ra ∧ parse_castep_file id exOps Filters.HIGH b = .ok rb ∧
    parse_castep_file id exOps Filters.HIGH (a ++ b) ≠ .ok (ra ++ rb) := by
  have h : (match parse_castep_file id exOps Filters.HIGH exRunA, parse_castep_file id exOps Filters.HIGH exRunB with
      | .ok ra, .ok rb => decide (parse_castep_file id exOps Filters.HIGH (exRunA ++ exRunB) = .ok (ra ++ rb))
      | _, _ => true) = false := by decide +kernel
  split at h
  · rename_i ra rb ha hb
    exact ⟨exRunA, exRunB, ra, rb, by decide +kernel,
      ⟨_, rfl, [32], py" linux on Thu\n", by decide +kernel, by decide +kernel⟩, ha, hb, by simpa using h⟩
  · cases h

/-- C41: without the system information a run of which nothing else is wanted is not returned. -/
theorem C41_dropped_false : ∃ b, (∃ l, b.head? = some l ∧ Banner l) ∧
    parse_castep_file id exOps Filters.LOW b = .ok [] :=
  ⟨exRunB.take 3, ⟨_, rfl, [32], py" linux on Thu\n", by decide +kernel, by decide +kernel⟩, by decide +kernel⟩

/-- C41: a warning just before the banner takes the banner, and the run with it. -/
theorem C41_warning_false : ∃ a b r, (∃ l, b.head? = some l ∧ Banner l) ∧
    parse_castep_file id exOps Filters.HIGH a = .ok [[(.str (py"warning"), .list [.str (py"Warning: x")])]] ∧
    parse_castep_file id exOps Filters.HIGH (a ++ b) = .ok [r] ∧ Dict.get? r (.str (py"build_info")) = none := by
  have h : (match parse_castep_file id exOps Filters.HIGH ([py"Warning: x\n"] ++ exRunB) with
      | .ok [r] => (Dict.get? r (Key.str (py"build_info"))).isNone
      | _ => false) = true := by decide +kernel
  split at h
  · rename_i r hr
    exact ⟨[py"Warning: x\n"], exRunB, r, ⟨_, rfl, [32], py" linux on Thu\n", by decide +kernel, by decide +kernel⟩,
      by decide +kernel, hr, by simpa using h⟩
  · cases h

end Verif.Props

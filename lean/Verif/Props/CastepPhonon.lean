import Verif.Lemmas.CastepPhonon
/-
C44: q-points of the phonon section of a `.castep` file.
-/
namespace Verif.Props
open Verif Verif.Spec Verif.Castep

/-- The line opens a q-point, whose coordinates are printed as this text. -/
def OpensQ (l s : Str) : Prop := ∃ m, Res.PHONON_RE.match_ l = some m ∧ m.named (py"qpt") = some s

/-- Any other line of a section without tables of characters. -/
def NoOpensQ (l : Str) : Prop := Res.PHONON_RE.match_ l = none

/-- The q-points in a list of entries, those without one left out. -/
def qpoints (ds : List (Dict Key PyVal)) : List PyVal := ds.filterMap fun d => d.get? (.str (py"qpt"))

/-- The floats printed in a text. -/
def printed (s : Str) : PyM PyVal := to_type .float (.list ((Str.split s).map .str))

theorem opensQ_heads {lines qs : List Str} (h : Interleaved NoOpensQ OpensQ lines qs) : lines.filterMap headOf = qs := by
  induction h with
  | nil => rfl
  | @skip l _ _ hs _ ih =>
    rw [List.filterMap_cons]
    have : headOf l = Option.none := by rw [headOf, hs]; rfl
    rw [this]; exact ih
  | @row l _ s _ hr _ ih =>
    obtain ⟨m, h1, h2⟩ := hr
    rw [List.filterMap_cons]
    have : headOf l = some s := by rw [headOf, h1]; exact h2
    rw [this, ih]

theorem qpoints_heads {ds : List (Dict Key PyVal)} {qs : List Str} (h : List.Forall₂ HasQ ds qs) :
    List.Forall₂ (fun v s => printed s = .ok v) (qpoints ds) qs := by
  induction h with
  | nil => exact .nil
  | cons h _ ih =>
    obtain ⟨xs, h1, h2⟩ := h
    rw [qpoints, List.filterMap_cons, h1]
    exact .cons h2 ih

/-- C44: every line that opens a q-point gives an entry of its own, whether or not the point was printed before. -/
theorem C44_entries (lines qs : List Str) (v : PyVal) (h : Interleaved NoOpensQ OpensQ lines qs)
    (hr : ∀ l ∈ lines, REP_MUL_RE.search l = none) (hv : process_phonon lines = .ok v) :
    ∃ ds : List (Dict Key PyVal), v = .list (ds.map .dict) ∧ ds.length = qs.length ∧
      List.Forall₂ (fun v s => printed s = .ok v) (qpoints ds) qs := by
  obtain ⟨ds, h1, h2⟩ := phonon_entries (fun l hl => by rw [found, hr l hl]; rfl) hv
  rw [opensQ_heads h] at h2
  exact ⟨ds, h1, h2.length_eq, qpoints_heads h2⟩

/-- C44 is false for every section in which a q-point is printed twice: it is reported twice. -/
theorem C44_twice_false (lines qs : List Str) (v : PyVal) (h : Interleaved NoOpensQ OpensQ lines qs)
    (hr : ∀ l ∈ lines, REP_MUL_RE.search l = none) (hv : process_phonon lines = .ok v) (hq : ¬ qs.Nodup) :
    ∃ ds : List (Dict Key PyVal), v = .list (ds.map .dict) ∧ ¬ (qpoints ds).Nodup := by
  obtain ⟨ds, h1, -, h2⟩ := C44_entries lines qs v h hr hv
  refine ⟨ds, h1, fun hn => hq ?_⟩
  clear h hr hv h1 hq
  generalize qpoints ds = vs at h2 hn
  induction h2 with
  | nil => exact List.nodup_nil
  | @cons v s vs qs hv h2 ih =>
    rw [List.nodup_cons] at hn ⊢
    refine ⟨fun hm => hn.1 ?_, ih hn.2⟩
    obtain ⟨i, hi, e⟩ := List.mem_iff_getElem.1 hm
    have := List.Forall₂.get h2 (h2.length_eq ▸ hi) hi
    simp only [List.get_eq_getElem, e, hv] at this
    rw [Except.ok.inj this]
    exact List.getElem_mem _

/-- C44, as far as it holds: q-points printed with different numbers are reported once each.  Missing: a q-point that
is printed twice is reported twice (`C44_twice_false`). -/
theorem C44_partial (lines qs : List Str) (v : PyVal) (h : Interleaved NoOpensQ OpensQ lines qs)
    (hr : ∀ l ∈ lines, REP_MUL_RE.search l = none) (hv : process_phonon lines = .ok v)
    (hq : qs.Pairwise fun a b => printed a ≠ printed b) :
    ∃ ds : List (Dict Key PyVal), v = .list (ds.map .dict) ∧ (qpoints ds).Nodup ∧
      ∀ s ∈ qs, ∃ q ∈ qpoints ds, printed s = .ok q := by
  obtain ⟨ds, h1, -, h2⟩ := C44_entries lines qs v h hr hv
  refine ⟨ds, h1, ?_, ?_⟩
  · clear h hr hv h1
    generalize qpoints ds = vs at h2
    induction h2 with
    | nil => exact List.nodup_nil
    | @cons v s vs qs hv h2 ih =>
      rw [List.pairwise_cons] at hq
      rw [List.nodup_cons]
      refine ⟨fun hm => ?_, ih hq.2⟩
      obtain ⟨i, hi, e⟩ := List.mem_iff_getElem.1 hm
      have := List.Forall₂.get h2 hi (h2.length_eq ▸ hi)
      simp only [List.get_eq_getElem, e] at this
      exact hq.1 _ (List.getElem_mem _) (hv.trans this.symm)
  · intro s hs
    obtain ⟨i, hi, e⟩ := List.mem_iff_getElem.1 hs
    have := List.Forall₂.get h2 (h2.length_eq ▸ hi) hi
    simp only [List.get_eq_getElem, e] at this
    exact ⟨_, List.getElem_mem _, this⟩

/-! ### Examples -/

def exQ1 : Str := py" +  q-pt=    1 (  0.000000  0.000000  0.000000)     0.2500000000              +\n"
def exQ2 : Str := py" +  q-pt=    2 (  0.500000  0.500000  0.000000)     0.2500000000              +\n"
def exDash : Str := py" + -------------------------------------------------------------------------- +\n"

theorem exQ1_opens : OpensQ exQ1 (py"  0.000000  0.000000  0.000000") := by
  have h : ((Res.PHONON_RE.match_ exQ1).bind fun m => m.named (py"qpt")) = some (py"  0.000000  0.000000  0.000000") := by
    decide +kernel
  cases hm : Res.PHONON_RE.match_ exQ1 with
  | none => rw [hm] at h; cases h
  | some m => rw [hm] at h; exact ⟨m, hm, h⟩

theorem exQ2_opens : OpensQ exQ2 (py"  0.500000  0.500000  0.000000") := by
  have h : ((Res.PHONON_RE.match_ exQ2).bind fun m => m.named (py"qpt")) = some (py"  0.500000  0.500000  0.000000") := by
    decide +kernel
  cases hm : Res.PHONON_RE.match_ exQ2 with
  | none => rw [hm] at h; cases h
  | some m => rw [hm] at h; exact ⟨m, hm, h⟩

theorem exDash_none : NoOpensQ exDash := by
  have h : (Res.PHONON_RE.match_ exDash).isNone = true := by decide +kernel
  exact Option.isNone_iff_eq_none.1 h

theorem exQ_norep : ∀ l ∈ [exQ1, exDash, exQ2], REP_MUL_RE.search l = none := by
  intro l hl
  have h : ∀ l ∈ [exQ1, exDash, exQ2], (REP_MUL_RE.search l).isNone = true := by decide +kernel
  exact Option.isNone_iff_eq_none.1 (h l hl)

/-- Two different q-points. -/
example : ∃ v, process_phonon [exQ1, exDash, exQ2] = .ok v ∧
    ∃ ds : List (Dict Key PyVal), v = .list (ds.map .dict) ∧ (qpoints ds).Nodup ∧
      ∀ s ∈ [py"  0.000000  0.000000  0.000000", py"  0.500000  0.500000  0.000000"], ∃ q ∈ qpoints ds, printed s = .ok q := by
  have hv : (process_phonon [exQ1, exDash, exQ2]).isOk = true := by decide +kernel
  cases hp : process_phonon [exQ1, exDash, exQ2] with
  | error e => rw [hp] at hv; cases hv
  | ok v =>
    exact ⟨v, rfl, C44_partial _ _ v (.row exQ1_opens (.skip exDash_none (.row exQ2_opens .nil))) exQ_norep hp
      (by simp only [List.pairwise_cons]; decide +kernel)⟩

/-- The same q-point in a row. -/
example : ∃ v, process_phonon [exQ1, exDash, exQ1] = .ok v ∧
    ∃ ds : List (Dict Key PyVal), v = .list (ds.map .dict) ∧ ds.length = 2 ∧ ¬ (qpoints ds).Nodup := by
  have hv : (process_phonon [exQ1, exDash, exQ1]).isOk = true := by decide +kernel
  cases hp : process_phonon [exQ1, exDash, exQ1] with
  | error e => rw [hp] at hv; cases hv
  | ok v =>
    have h : Interleaved NoOpensQ OpensQ [exQ1, exDash, exQ1] _ := .row exQ1_opens (.skip exDash_none (.row exQ1_opens .nil))
    have hr : ∀ l ∈ [exQ1, exDash, exQ1], REP_MUL_RE.search l = none := fun l hl => exQ_norep l (by
      rcases List.mem_cons.1 hl with rfl | hl
      · exact List.mem_cons_self ..
      rcases List.mem_cons.1 hl with rfl | hl
      · exact List.mem_cons_of_mem _ (List.mem_cons_self ..)
      · rw [List.mem_singleton.1 hl]; exact List.mem_cons_self ..)
    obtain ⟨ds, h1, h2, -⟩ := C44_entries _ _ v h hr hp
    obtain ⟨ds', h1', h2'⟩ := C44_twice_false _ _ v h hr hp (by decide)
    refine ⟨v, rfl, ds', h1', ?_, h2'⟩
    rw [h1] at h1'
    have := congrArg List.length (PyVal.list.inj h1')
    rw [List.length_map, List.length_map, h2] at this
    exact this.symm

end Verif.Props

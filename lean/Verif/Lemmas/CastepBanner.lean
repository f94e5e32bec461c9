import Verif.Lemmas.CastepRuns
import Verif.Lemmas.Comments
import Verif.Props.Numbers
import Verif.Spec.Castep
/- The banner that starts a run, and the conversion at the end of the file. -/
namespace Verif.Castep
open Verif Verif.Spec Verif.Re

/-- The pattern of the banner. -/
theorem compiled_iff (l : Str) : found COMPILED_RE l = true ↔ Banner l := by
  have hp : COMPILED_RE.re = .seq .bol (.seq (.rep true 0 none (.set ⟨false, [.space], false⟩)) (litRe (py"Compiled for"))) := by
    decide +kernel
  rw [found, Pat.search_bol _ _ hp, Pat.match_]
  rw [Pat.isSome_bol _ _ hp (by decide +kernel)]
  constructor
  · rintro ⟨w, rest, rfl, u, v, rfl, hu, hv⟩
    exact ⟨u, rest, (lang_spaces u).1 hu, by rw [(lang_lit _ _).1 hv]⟩
  · rintro ⟨sp, w, h1, rfl⟩
    exact ⟨sp ++ py"Compiled for", w, rfl, sp, py"Compiled for", rfl, (lang_spaces sp).2 h1, (lang_lit _ _).2 rfl⟩

theorem banner_not_blank {l : Str} (h : Banner l) : (Str.strip l).isEmpty = false := by
  rw [Bool.eq_false_iff, Ne, strip_isEmpty]
  obtain ⟨sp, w, -, rfl⟩ := h
  intro hb
  have := hb 67 (by simp)
  revert this; decide

/-- The branch of the banner. -/
theorem sections_head : ∃ secs, sections = ⟨py"build info", takeBlock COMPILED_RE EMPTY_RE 1 false, newRun,
    fun _ => .ok (), needs Filters.SYS_INFO, onRun (store (py"build_info") process_buildinfo)⟩ :: secs := ⟨_, rfl⟩

theorem newRun_newRun (s : State) : newRun (newRun s) = newRun s := rfl

/-- A banner starts a run whatever came before. -/
theorem dispatch_banner (env : Env) {l : Str} (hl : Banner l) (rest : List Str) (s : State) :
    dispatch env l sections rest s = dispatch env l sections rest (newRun s) := by
  obtain ⟨secs, h⟩ := sections_head
  rw [h, dispatch_cons, dispatch_cons]
  split
  · rfl
  · rename_i r hg
    exfalso
    simp only [takeBlock, blockOf] at hg
    generalize hb : Block.from_re l rest (found COMPILED_RE) (found EMPTY_RE) ((1 : Nat) : Int) false = y at hg
    obtain ⟨e | b, y⟩ := y
    · cases hg
    · simp only [Except.ok.injEq, Prod.mk.injEq, Option.map_eq_none_iff] at hg
      rcases from_re_rest _ _ _ _ _ _ _ _ hb with ⟨h1, -⟩ | ⟨-, h1⟩
      · rw [(compiled_iff l).2 hl] at h1; cases h1
      · have : b.truthy = true := by
          rw [Block.truthy, List.any_eq_true]
          exact ⟨l, h1, by simp [banner_not_blank hl]⟩
        simp [this] at hg
  · simp only [Section.run, newRun_newRun]

theorem keys_fix {d d' : Dict Key PyVal} : ∀ {types : List (Key × Ty)}, fix_data_types d types = .ok d' →
    d'.keys = d.keys := by
  intro types
  induction types generalizing d with
  | nil => intro h; cases h; rfl
  | cons kt types ih =>
    obtain ⟨k, t⟩ := kt
    intro h
    rw [fix_data_types] at h
    split at h
    · rename_i v hv
      obtain ⟨w, -, h2⟩ := bind_ok h
      rw [ih h2]
      exact Dict.keys_set_of_mem _ _ _ (by
        rw [Dict.keys]; exact List.mem_map.2 ⟨_, Dict.mem_of_get? _ _ _ hv, rfl⟩)
    · exact ih h

theorem sameRun_fix {d d' : Dict Key PyVal}
    (h : fix_data_types d [(.str (py"energies"), .float), (.str (py"solvation"), .float)] = .ok d') :
    SameRun (typeParser .float) d' d := by
  have h28 := Props.C28_fix_data_types d d' _ (by decide) h
  refine ⟨(keys_fix h).symm, fun k hk => ?_, fun k hk v hv => ?_⟩
  · have := h28 k
    have hn : List.find? (fun x : Key × Ty => decide (x.1 = k)) [(.str (py"energies"), .float), (.str (py"solvation"), .float)] = none := by
      rw [List.find?_eq_none]
      intro x hx
      simp only [decide_eq_true_eq]
      rintro rfl
      refine hk ?_
      simp only [List.mem_cons, List.not_mem_nil, or_false] at hx
      rcases hx with rfl | rfl <;> decide
    rw [hn] at this
    cases hd : d.get? k with
    | none => rw [hd] at this; exact this.symm
    | some v => rw [hd] at this; exact this.symm
  · have := h28 k
    rw [hv] at this
    simp only [convertedKeys, List.mem_cons, List.not_mem_nil, or_false] at hk
    rcases hk with rfl | rfl <;> exact this

end Verif.Castep

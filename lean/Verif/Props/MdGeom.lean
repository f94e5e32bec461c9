import Verif.Lemmas.MdAccess
import Verif.Lemmas.MdEager
/-
C15-C18: trajectories (.md/.geom), lazily and eagerly.
-/
namespace Verif.Props
open Verif Spec MdGeom

/-! ### C15: histories of operations on a lazy reader -/

/-- **C15.**  Opening a well-formed trajectory succeeds, and everything a caller sees through any finite
history of random accesses, sequential reads, slices and (interleaved, jumping) iterations is what the
abstract reader over the list of parsed frames shows. -/
theorem C15_history (F : MdFile) (hF : F.Ok) :
    ∃ p, MDGeomParser.init F.text = .ok p ∧
      ∀ ops, (runOps ⟨p, []⟩ ops).1 = (specRun (results F) ⟨0, []⟩ ops).1 := by
  obtain ⟨h, b, p, h1, h2, h3, h4⟩ := MDGeomParser.init_inv hF
  exact ⟨p, h1, fun ops => (runOps_rel hF.frames h3 h4 ops (st := ⟨0, []⟩) ⟨h2, rfl⟩).1⟩

/-- **C15.**  After any history, `get_frame i` returns the parse of the frame `i` denotes, or raises
`IndexError` when there is none. -/
theorem C15_get_frame (F : MdFile) (hF : F.Ok) (p : MDGeomParser) (hp : MDGeomParser.init F.text = .ok p)
    (ops : List MdOp) (i : Int) :
    ((runOps ⟨p, []⟩ ops).2.parser.get_frame i).1 =
      if h : 0 ≤ i ∧ i < F.frames.length then parse_md_geom_frame (F.frames[i.toNat]'(by omega)).lines
      else if h : -(F.frames.length : Int) ≤ i ∧ i < 0 then
        parse_md_geom_frame (F.frames[(i + F.frames.length).toNat]'(by omega)).lines
      else .error .indexError := by
  obtain ⟨h, b, p', h1, h2, h3, h4⟩ := MDGeomParser.init_inv hF
  rw [hp] at h1; cases h1
  obtain ⟨_, h6⟩ := runOps_rel hF.frames h3 h4 ops (w := ⟨p, []⟩) (st := ⟨0, []⟩) ⟨h2, rfl⟩
  obtain ⟨h7, _⟩ := MDGeomParser.get_frame_inv hF.frames h3 h4 h6.1 i
  rw [h7, specGet, frameAt, List.length_map]
  by_cases ha : 0 ≤ i ∧ i < (F.frames.length : Int)
  · rw [if_pos ha, dif_pos ha]
    simp only
    rw [List.getD_eq_getElem?_getD, List.getElem?_map, List.getElem?_eq_getElem (by omega)]; rfl
  · rw [if_neg ha, dif_neg ha]
    by_cases hc : i < 0 ∧ -(F.frames.length : Int) ≤ i
    · rw [if_pos hc, dif_pos ⟨hc.2, hc.1⟩]
      simp only
      rw [List.getD_eq_getElem?_getD, List.getElem?_map, List.getElem?_eq_getElem (by omega)]; rfl
    · rw [if_neg hc, dif_neg (by omega)]

/-- A small trajectory: two frames, header and whitespace-only separators. -/
def sampleMd : MdFile :=
  ⟨.standard [] (py" BEGIN header\n") [py" \n"] (py" END header\n") (some (py" \n")),
    [⟨[py" 0.0\n", py" 1.5 <-- E\n"], py"  \n"⟩, ⟨[py" 1.0\n", py" 2.5 <-- E\n"], py"  \n"⟩]⟩

/-- The same with empty separators. -/
def sampleMd' : MdFile :=
  ⟨.missing [], [⟨[py" 0.0\n", py" 1.5 <-- E\n"], py"\n"⟩, ⟨[py" 1.0\n", py" 2.5 <-- E\n"], py"\n"⟩]⟩

theorem sampleMd_ok : sampleMd.Ok where
  head := by unfold MdHeader.Ok sampleMd; decide +kernel
  fits := by unfold MdFile.HeadFits sampleMd; trivial
  some := by unfold sampleMd; simp
  frames := by unfold sampleMd MdFrame.Ok; decide +kernel
  height := by unfold sampleMd; decide +kernel
  width := by unfold sampleMd; decide +kernel

theorem sampleMd'_ok : sampleMd'.Ok where
  head := by unfold MdHeader.Ok sampleMd'; decide +kernel
  fits := by unfold MdFile.HeadFits sampleMd'; decide +kernel
  some := by unfold sampleMd'; simp
  frames := by unfold sampleMd' MdFrame.Ok; decide +kernel
  height := by unfold sampleMd'; decide +kernel
  width := by unfold sampleMd'; decide +kernel

/-- The hypotheses of C15 are met, and the histories are not trivial: a jump back by `send` after a
failed access. -/
example : ∃ p, MDGeomParser.init sampleMd.text = .ok p ∧
    (runOps ⟨p, []⟩ [.newIter, .send 0 none, .getFrame 7, .send 0 (some (-1)), .readNext, .send 0 none]).1 =
      (specRun (results sampleMd) ⟨0, []⟩
        [.newIter, .send 0 none, .getFrame 7, .send 0 (some (-1)), .readNext, .send 0 none]).1 := by
  obtain ⟨p, h1, h2⟩ := C15_history sampleMd sampleMd_ok
  exact ⟨p, h1, h2 _⟩

/-! ### C16: list semantics -/

/-- **C16.**  `len` is the number of frames. -/
theorem C16_len (F : MdFile) (hF : F.Ok) (p : MDGeomParser) (hp : MDGeomParser.init F.text = .ok p)
    (ops : List MdOp) : (runOps ⟨p, []⟩ ops).2.parser.len = F.frames.length := by
  obtain ⟨h, b, p', h1, h2, h3, h4⟩ := MDGeomParser.init_inv hF
  rw [hp] at h1; cases h1
  exact (runOps_rel hF.frames h3 h4 ops (w := ⟨p, []⟩) (st := ⟨0, []⟩) ⟨h2, rfl⟩).2.1.len

/-- **C16.**  Iteration yields all frames in order and stops, after any history. -/
theorem C16_iter (F : MdFile) (hF : F.Ok) (p : MDGeomParser) (hp : MDGeomParser.init F.text = .ok p)
    (vs : List PyVal) (hv : results F = vs.map .ok) (ops : List MdOp) :
    ListOf iterNext (.fresh, (runOps ⟨p, []⟩ ops).2.parser) vs := by
  obtain ⟨h, b, p', h1, h2, h3, h4⟩ := MDGeomParser.init_inv hF
  rw [hp] at h1; cases h1
  have h5 := (runOps_rel hF.frames h3 h4 ops (w := ⟨p, []⟩) (st := ⟨0, []⟩) ⟨h2, rfl⟩).2.1
  exact iter_listOf hF.frames h3 h4 hv _ 0 _ .fresh _ rfl rfl h5

/-- **C16.**  `parser[i]` is `list(parser)[i]` for `-len ≤ i < len`, and `IndexError` otherwise. -/
theorem C16_index (F : MdFile) (hF : F.Ok) (p : MDGeomParser) (hp : MDGeomParser.init F.text = .ok p)
    (vs : List PyVal) (hv : results F = vs.map .ok) (ops : List MdOp) (i : Int) :
    ((runOps ⟨p, []⟩ ops).2.parser.get_frame i).1 =
      if h : 0 ≤ i ∧ i < vs.length then .ok (vs[i.toNat]'(by omega))
      else if h : -(vs.length : Int) ≤ i ∧ i < 0 then .ok (vs[(i + vs.length).toNat]'(by omega))
      else .error .indexError := by
  have hlen : F.frames.length = vs.length := by
    have := congrArg List.length hv; simpa [results] using this
  have hget : ∀ j (h1 : j < F.frames.length) (h2 : j < vs.length),
      parse_md_geom_frame F.frames[j].lines = .ok vs[j] := by
    intro j h1 h2
    have := congrArg (·[j]?) hv
    simp only [results, List.getElem?_map, List.getElem?_eq_getElem h1, List.getElem?_eq_getElem h2,
      Option.map_some, Option.some.injEq] at this
    exact this
  rw [C15_get_frame F hF p hp]
  split
  · rename_i ha
    have ha' : 0 ≤ i ∧ i < (vs.length : Int) := by omega
    rw [dif_pos ha']; exact hget _ _ _
  · rename_i ha
    have ha' : ¬ (0 ≤ i ∧ i < (vs.length : Int)) := by omega
    rw [dif_neg ha']
    split
    · rename_i hc
      have hc' : -(vs.length : Int) ≤ i ∧ i < 0 := by omega
      rw [dif_pos hc']
      simp only [← hlen]
      exact hget _ _ _
    · rename_i hc
      have hc' : ¬ (-(vs.length : Int) ≤ i ∧ i < 0) := by omega
      rw [dif_neg hc']

/-- **C16.**  `parser[a:b:c]` is `list(parser)[a:b:c]` for all bounds and steps. -/
theorem C16_slice (F : MdFile) (hF : F.Ok) (p : MDGeomParser) (hp : MDGeomParser.init F.text = .ok p)
    (vs : List PyVal) (hv : results F = vs.map .ok) (ops : List MdOp) (a b c : Option Int) (d : PyVal) :
    ((runOps ⟨p, []⟩ ops).2.parser.get_slice a b c).1 =
      match slicePositions vs.length a b c with
      | none => .error .valueError
      | some ps => .ok (ps.map fun x => vs.getD x d) := by
  obtain ⟨h, bb, p', h1, h2, h3, h4⟩ := MDGeomParser.init_inv hF
  rw [hp] at h1; cases h1
  have hr := (runOps_rel hF.frames h3 h4 ops (w := ⟨p, []⟩) (st := ⟨0, []⟩) ⟨h2, rfl⟩).2
  have hop := (runOp_rel hF.frames h3 h4 hr (.slice a b c)).1
  generalize (runOps ⟨p, []⟩ ops).2 = w at *
  generalize (specRun (results F) ⟨0, []⟩ ops).2 = st at *
  have hlen : (results F).length = vs.length := by rw [hv]; simp
  rw [runOp, specOp, hlen] at hop
  have hlt : ∀ ps, slicePositions vs.length a b c = some ps → ∀ x ∈ ps, x < vs.length := by
    intro ps hps x hx
    unfold slicePositions at hps
    simp only at hps
    split at hps
    · cases hps
    · split at hps
      · cases hps
        rw [List.mem_filter, List.mem_range] at hx; exact hx.1
      · cases hps
        rw [List.mem_reverse, List.mem_filter, List.mem_range] at hx; exact hx.1
  generalize slicePositions vs.length a b c = sp at *
  cases sp with
  | none => simpa using hop
  | some ps =>
    simp only [MdSeen.frames.injEq] at hop
    rw [hop, specGetMany_ok hv d ps _ (hlt ps rfl)]

/-- `slicePositions` on the cases of the library reference. -/
example : slicePositions 5 (some (-1)) none (some (-2)) = some [4, 2, 0] ∧
    slicePositions 5 (some (-10)) (some 10) (some 2) = some [0, 2, 4] ∧
    slicePositions 5 none none (some 0) = none ∧
    slicePositions 5 (some 3) (some 1) none = some [] := by decide +kernel

/-- The frames of the sample, parsed. -/
def sampleVals : List PyVal := (results sampleMd).map fun r => match r with | .ok v => v | .error _ => .none

theorem sampleVals_ok : results sampleMd = sampleVals.map .ok := by decide +kernel

/-- The hypotheses of C16 are met by two different frames. -/
example : ∃ p, MDGeomParser.init sampleMd.text = .ok p ∧ sampleVals.length = 2 ∧ sampleVals.Nodup ∧
    (runOps ⟨p, []⟩ [.readNext]).2.parser.len = 2 ∧
    ListOf iterNext (.fresh, (runOps ⟨p, []⟩ [.readNext]).2.parser) sampleVals ∧
    ((runOps ⟨p, []⟩ [.readNext]).2.parser.get_frame (-3)).1 = .error .indexError ∧
    ((runOps ⟨p, []⟩ [.readNext]).2.parser.get_slice none none (some (-1))).1 =
      .ok [sampleVals.getD 1 .none, sampleVals.getD 0 .none] := by
  obtain ⟨p, hp, _⟩ := C15_history sampleMd sampleMd_ok
  refine ⟨p, hp, by decide +kernel, by decide +kernel, C16_len _ sampleMd_ok p hp _,
    C16_iter _ sampleMd_ok p hp _ sampleVals_ok _, ?_, ?_⟩
  · rw [C16_index _ sampleMd_ok p hp _ sampleVals_ok]; decide +kernel
  · rw [C16_slice _ sampleMd_ok p hp _ sampleVals_ok _ _ _ _ .none]; decide +kernel

/-! ### C18: the eager reader -/

/-- The first line of a list of frames. -/
def firstOf (fs : List (List Str)) : Option Str := (fs.head?).bind List.head?

/-- **C18 (partial).**  If frames (nonblank lines) are separated by exactly one empty line, the last
separator being optional, the eager reader returns one entry per frame, in order, each the parse of that
frame (and raises what the first failing frame raises).  Missing from the full statement: separators
that are whitespace-only lines or several blank lines, for which it is false (`C18_dropped`, `C18_merged`). -/
theorem C18_one_entry_per_frame_partial (head : MdHeader) (hh : head.Ok) (fs : List (List Str))
    (hne : fs ≠ []) (hfs : ∀ f ∈ fs, f ≠ [] ∧ ∀ l ∈ f, IsLine l ∧ ¬ Blank l)
    (hfit : ∀ lead, head = .missing lead → ∀ l ∈ firstOf fs, ¬ Occurs (py"BEGIN header") l) (final : Bool) :
    parse_md_geom_file ((head.lines ++ if final then spaced fs else (spaced fs).dropLast).flatten) =
      fs.mapM parse_md_geom_frame := by
  have hE : ∀ f ∈ fs, EagerFrame f := by
    intro f hf
    obtain ⟨h1, h2⟩ := hfs f hf
    refine ⟨fun l hl => ⟨(h2 l hl).1, fun e => (h2 l hl).2 (by rw [e]; exact blank_newline)⟩, ?_⟩
    obtain ⟨l, ls, rfl⟩ := List.exists_cons_of_ne_nil h1
    exact ⟨l, by simp, (h2 l (by simp)).2⟩
  have hnonempty : ∀ {gs : List (List Str)} {vs}, gs ≠ [] → gs.mapM parse_md_geom_frame = .ok vs → vs.isEmpty = false := by
    intro gs vs hg h
    obtain ⟨g, gs, rfl⟩ := List.exists_cons_of_ne_nil hg
    rw [List.mapM_cons] at h
    cases h1 : parse_md_geom_frame g with
    | error e => rw [h1] at h; cases h
    | ok v =>
      rw [h1] at h
      cases h2 : gs.mapM parse_md_geom_frame with
      | error e => rw [h2] at h; cases h
      | ok us => rw [h2] at h; cases h; rfl
  obtain ⟨f, fs', rfl⟩ := List.exists_cons_of_ne_nil hne
  obtain ⟨hf1, hf2⟩ := hfs f (by simp)
  obtain ⟨l, ls, rfl⟩ := List.exists_cons_of_ne_nil hf1
  have hl := hf2 l (by simp)
  have hfit' : ∀ lead, head = .missing lead → ¬ Occurs (py"BEGIN header") l := fun lead h => hfit lead h l rfl
  cases final with
  | true =>
    have := eager_file head hh (fs := (l :: ls) :: fs') [] l ((ls ++ [[10]] ++ spaced fs').flatten)
      (by simp [spaced]) hl hfit' hE (.ok [])
      (fun w pre fuel acc h hf => by rw [fileLoop_stop [] (.inl rfl) w pre fuel acc h hf]; simp [Except.map])
    rw [if_pos rfl, List.flatten_append]
    rw [List.append_nil] at this
    rw [this]
    have hn := @hnonempty ((l :: ls) :: fs')
    generalize List.mapM parse_md_geom_frame ((l :: ls) :: fs') = r at *
    cases r with
    | error e => rfl
    | ok vs => simp [Except.bind, Except.map, hn (by simp) rfl]
  | false =>
    obtain ⟨gs, g, hg⟩ : ∃ gs g, (l :: ls) :: fs' = gs ++ [g] := by
      rcases List.eq_nil_or_concat ((l :: ls) :: fs') with h | ⟨gs, g, h⟩
      · cases h
      · exact ⟨gs, g, by rw [h, List.concat_eq_append]⟩
    have hgE := hE g (by rw [hg]; simp)
    have hdrop : (spaced (gs ++ [g])).dropLast = spaced gs ++ g := by
      simp [spaced, List.dropLast_append_of_ne_nil]
    have hfirst : ∃ r, (spaced gs).flatten ++ g.flatten = l ++ r := by
      cases gs with
      | nil => simp at hg; obtain ⟨rfl, _⟩ := hg; exact ⟨ls.flatten, by simp [spaced]⟩
      | cons x gs =>
        simp at hg; obtain ⟨rfl, _⟩ := hg
        exact ⟨(ls ++ [[10]] ++ spaced gs ++ g).flatten, by simp [spaced]⟩
    obtain ⟨r, hr⟩ := hfirst
    have hn := @hnonempty ((l :: ls) :: fs')
    rw [hg] at hE hn ⊢
    have := eager_file head hh (fs := gs) g.flatten l r hr hl hfit' (fun f hf => hE f (by simp [hf]))
      ((parse_md_geom_frame g).map fun v => [v])
      (fun w pre fuel acc h hf => by
        cases fuel with
        | zero => simp at hf
        | succ fuel =>
          obtain ⟨w', h1, h2⟩ := eager_tail hgE.1 h
          have ht : (⟨w.lineno_, 0, [] :: g⟩ : Block).truthy = true := by
            obtain ⟨x, hx, hb⟩ := hgE.2
            exact truthy_of ⟨x, by simp [hx], hb⟩
          rw [fileLoop, h1]
          simp only [ht, if_true]
          rw [frame_block' g [] blank_nil]
          cases parse_md_geom_frame g with
          | error e => rfl
          | ok v =>
            simp only
            rw [fileLoop_exhausted w' h2]; rfl)
    rw [if_neg (by simp), hdrop, List.flatten_append, List.flatten_append, this, List.mapM_append]
    rw [List.mapM_append] at hn
    simp only [List.mapM_cons, List.mapM_nil] at hn ⊢
    generalize List.mapM parse_md_geom_frame gs = r at *
    cases r with
    | error e => rfl
    | ok vs =>
      generalize parse_md_geom_frame g = q at *
      cases q with
      | error e => rfl
      | ok v =>
        have := hn (vs := vs ++ [v]) (by simp) rfl
        simp [Except.bind, Except.map, bind, pure, Except.pure]

/-- The hypotheses are met by the sample with empty separators. -/
example : parse_md_geom_file (((MdHeader.missing []).lines ++
      spaced [[py" 0.0\n", py" 1.5 <-- E\n"], [py" 1.0\n", py" 2.5 <-- E\n"]]).flatten) =
    [[py" 0.0\n", py" 1.5 <-- E\n"], [py" 1.0\n", py" 2.5 <-- E\n"]].mapM parse_md_geom_frame :=
  C18_one_entry_per_frame_partial (.missing []) (by simp [MdHeader.Ok])
    [[py" 0.0\n", py" 1.5 <-- E\n"], [py" 1.0\n", py" 2.5 <-- E\n"]] (by simp) (by decide +kernel)
    (by intro lead _; decide +kernel) true

/-- **C18 (violation).**  After a second consecutive empty line everything is silently dropped: the result
does not depend on the text that follows. -/
theorem C18_dropped (head : MdHeader) (hh : head.Ok) (fs : List (List Str))
    (hne : fs ≠ []) (hfs : ∀ f ∈ fs, f ≠ [] ∧ ∀ l ∈ f, IsLine l ∧ ¬ Blank l)
    (hfit : ∀ lead, head = .missing lead → ∀ l ∈ firstOf fs, ¬ Occurs (py"BEGIN header") l) (rest : Str) :
    parse_md_geom_file (head.lines.flatten ++ ((spaced fs).flatten ++ 10 :: rest)) =
      fs.mapM parse_md_geom_frame := by
  have h0 := C18_one_entry_per_frame_partial head hh fs hne hfs hfit true
  rw [← h0, if_pos rfl, List.flatten_append]
  have hE : ∀ f ∈ fs, EagerFrame f := by
    intro f hf
    obtain ⟨h1, h2⟩ := hfs f hf
    refine ⟨fun l hl => ⟨(h2 l hl).1, fun e => (h2 l hl).2 (by rw [e]; exact blank_newline)⟩, ?_⟩
    obtain ⟨l, ls, rfl⟩ := List.exists_cons_of_ne_nil h1
    exact ⟨l, by simp, (h2 l (by simp)).2⟩
  obtain ⟨f, fs', rfl⟩ := List.exists_cons_of_ne_nil hne
  obtain ⟨hf1, hf2⟩ := hfs f (by simp)
  obtain ⟨l, ls, rfl⟩ := List.exists_cons_of_ne_nil hf1
  have hl := hf2 l (by simp)
  have hfit' : ∀ lead, head = .missing lead → ¬ Occurs (py"BEGIN header") l := fun lead h => hfit lead h l rfl
  have a1 := eager_file head hh (fs := (l :: ls) :: fs') [] l ((ls ++ [[10]] ++ spaced fs').flatten)
      (by simp [spaced]) hl hfit' hE (.ok [])
      (fun w pre fuel acc h hf => by rw [fileLoop_stop [] (.inl rfl) w pre fuel acc h hf]; simp [Except.map])
  have a2 := eager_file head hh (fs := (l :: ls) :: fs') (10 :: rest) l
      ((ls ++ [[10]] ++ spaced fs').flatten ++ 10 :: rest)
      (by simp [spaced]) hl hfit' hE (.ok [])
      (fun w pre fuel acc h hf => by
        rw [fileLoop_stop (10 :: rest) (.inr ⟨rest, rfl⟩) w pre fuel acc h hf]; simp [Except.map])
  rw [List.append_nil] at a1
  rw [a1, a2]

/-- **C18 (violation).**  If the separators are whitespace-only lines (what CASTEP writes) rather than empty
ones, all frames are merged into one entry. -/
theorem C18_merged (F : MdFile) (hF : F.Ok) (hsep : ∀ f ∈ F.frames, f.sep ≠ [10]) :
    parse_md_geom_file F.text =
      (parse_md_geom_frame (F.frames.map MdFrame.all).flatten).map fun v => [v] := by
  obtain ⟨f, fs, hfs⟩ := List.exists_cons_of_ne_nil hF.some
  have hm : f ∈ F.frames := by rw [hfs]; simp
  have hf := hF.frames f hm
  obtain ⟨l, ls, hl⟩ := List.exists_cons_of_ne_nil hf.1
  have hlo := hf.2.1 l (by rw [hl]; simp)
  have hE : EagerFrame (F.frames.map MdFrame.all).flatten := by
    refine ⟨?_, l, ?_, hlo.2⟩
    · intro x hx
      rw [List.mem_flatten] at hx
      obtain ⟨y, hy, hx⟩ := hx
      rw [List.mem_map] at hy
      obtain ⟨g, hg, rfl⟩ := hy
      refine ⟨frame_isLine (hF.frames g hg) x hx, ?_⟩
      rw [MdFrame.all, List.mem_append] at hx
      rcases hx with hx | hx
      · intro e; exact ((hF.frames g hg).2.1 x hx).2 (by rw [e]; exact blank_newline)
      · simp at hx; subst hx; exact hsep g hg
    · rw [hfs]; simp [MdFrame.all, hl]
  have := eager_file F.head hF.head (fs := []) (framesText F.frames) l
    ((ls ++ [f.sep]).flatten ++ framesText fs)
    (by rw [hfs, framesText_cons, MdFrame.all, hl]; simp [spaced]) hlo
    (by
      have := hF.fits
      intro lead hd
      rw [MdFile.HeadFits, hd] at this
      exact this f (by rw [hfs]; rfl) l (by rw [hl]; rfl))
    (by simp) ((parse_md_geom_frame (F.frames.map MdFrame.all).flatten).map fun v => [v])
    (fun w pre fuel acc h hf => by
      cases fuel with
      | zero => simp at hf
      | succ fuel =>
        obtain ⟨w', h1, h2⟩ := eager_tail hE.1 h
        have ht : (⟨w.lineno_, 0, [] :: (F.frames.map MdFrame.all).flatten⟩ : Block).truthy = true := by
          obtain ⟨x, hx, hb⟩ := hE.2
          exact truthy_of ⟨x, by rw [List.mem_cons]; exact .inr hx, hb⟩
        rw [fileLoop, h1]
        simp only [ht, if_true]
        rw [frame_block' _ [] blank_nil]
        cases parse_md_geom_frame (F.frames.map MdFrame.all).flatten with
        | error e => rfl
        | ok v =>
          simp only
          rw [fileLoop_exhausted w' h2]; rfl)
  rw [text_eq]
  simp only [spaced, List.map_nil, List.flatten_nil, List.nil_append] at this
  rw [this]
  simp only [List.mapM_nil]
  cases parse_md_geom_frame (F.frames.map MdFrame.all).flatten <;> rfl

/-- **C18 (violation).**  A well-formed trajectory of two frames for which the eager reader returns a
single entry. -/
theorem C18_violated : ∃ F : MdFile, F.Ok ∧ F.frames.length = 2 ∧ (∀ r ∈ results F, ∃ v, r = .ok v) ∧
    ∃ v, parse_md_geom_file F.text = .ok [v] := by
  refine ⟨sampleMd, sampleMd_ok, rfl, ?_, ?_⟩
  · rw [sampleVals_ok]
    intro r hr
    rw [List.mem_map] at hr
    obtain ⟨v, _, rfl⟩ := hr
    exact ⟨v, rfl⟩
  · rw [C18_merged sampleMd sampleMd_ok (by decide +kernel)]
    cases h : parse_md_geom_frame (sampleMd.frames.map MdFrame.all).flatten with
    | ok v => exact ⟨v, rfl⟩
    | error e =>
      have : (parse_md_geom_frame (sampleMd.frames.map MdFrame.all).flatten).isOk = true := by decide +kernel
      rw [h] at this; cases this

/-! ### C17: lazy and eager agree -/

/-- **C17 (partial).**  For a well-formed trajectory whose separators are empty lines, reading all frames
lazily (after any history) gives what the eager reader gives, exceptions included.  Missing: whitespace-only
separators, for which the readers differ (`C17_violated`). -/
theorem C17_agree_partial (F : MdFile) (hF : F.Ok) (hsep : ∀ f ∈ F.frames, f.sep = [10]) (p : MDGeomParser)
    (hp : MDGeomParser.init F.text = .ok p) (ops : List MdOp) :
    ((runOps ⟨p, []⟩ ops).2.parser.get_frames ((List.range F.frames.length).map fun (x : Nat) => (x : Int))).1 =
      parse_md_geom_file F.text := by
  obtain ⟨h, b, p', h1, h2, h3, h4⟩ := MDGeomParser.init_inv hF
  rw [hp] at h1; cases h1
  have h5 := (runOps_rel hF.frames h3 h4 ops (w := ⟨p, []⟩) (st := ⟨0, []⟩) ⟨h2, rfl⟩).2.1
  rw [(get_frames_inv hF.frames h3 h4 _ h5).1]
  have hlen : (results F).length = F.frames.length := by simp [results]
  have := specGetMany_all (results F) (specRun (results F) ⟨0, []⟩ ops).2.cursor 0 (by omega)
  rw [Nat.sub_zero, hlen, ← List.range_eq_range', List.drop_zero] at this
  rw [this]
  have h6 := C18_one_entry_per_frame_partial F.head hF.head (F.frames.map MdFrame.lines)
    (by have := hF.some; simpa using this)
    (by
      intro f hf
      rw [List.mem_map] at hf
      obtain ⟨g, hg, rfl⟩ := hf
      exact ⟨(hF.frames g hg).1, (hF.frames g hg).2.1⟩)
    (by
      have := hF.fits
      intro lead hd l hl
      rw [MdFile.HeadFits, hd] at this
      cases hfr : F.frames with
      | nil => rw [hfr] at hl; simp [firstOf] at hl
      | cons f fs =>
        rw [hfr] at hl this
        exact this f rfl l (by simpa [firstOf] using hl))
    true
  have e : spaced (F.frames.map MdFrame.lines) = (F.frames.map MdFrame.all).flatten := by
    rw [spaced, List.map_map]
    congr 1
    apply List.map_congr_left
    intro f hf
    simp [MdFrame.all, hsep f hf]
  rw [if_pos rfl, e] at h6
  rw [MdFile.text, MdFile.lines, h6, results]
  generalize F.frames = fs
  induction fs with
  | nil => rfl
  | cons f fs ih => simp only [List.map_cons, List.mapM_cons, ih, id]

/-- **C17 (partial).**  In particular, when all frames parse, `list(MDGeomParser(f))` is what the eager reader
returns. -/
theorem C17_list_partial (F : MdFile) (hF : F.Ok) (hsep : ∀ f ∈ F.frames, f.sep = [10]) (p : MDGeomParser)
    (hp : MDGeomParser.init F.text = .ok p) (vs : List PyVal) (hv : results F = vs.map .ok) :
    ListOf iterNext (.fresh, p) vs ∧ parse_md_geom_file F.text = .ok vs := by
  refine ⟨C16_iter F hF p hp vs hv [], ?_⟩
  rw [← C17_agree_partial F hF hsep p hp []]
  obtain ⟨h, b, p', h1, h2, h3, h4⟩ := MDGeomParser.init_inv hF
  rw [hp] at h1; cases h1
  have h5 := (runOps_rel hF.frames h3 h4 [] (w := ⟨p, []⟩) (st := ⟨0, []⟩) ⟨h2, rfl⟩).2.1
  rw [(get_frames_inv hF.frames h3 h4 _ h5).1]
  have hlen : F.frames.length = vs.length := by
    have := congrArg List.length hv; simpa [results] using this
  rw [hlen, specGetMany_ok hv .none _ _ (by simp)]
  congr 1
  apply List.ext_getElem
  · simp
  · intro i h1 h2; simp [List.getElem?_eq_getElem h2]

/-- The hypotheses are met. -/
example : ∃ p vs, MDGeomParser.init sampleMd'.text = .ok p ∧ vs.length = 2 ∧
    ListOf iterNext (.fresh, p) vs ∧ parse_md_geom_file sampleMd'.text = .ok vs := by
  obtain ⟨p, hp, _⟩ := C15_history sampleMd' sampleMd'_ok
  exact ⟨p, sampleVals, hp, by decide +kernel,
    C17_list_partial sampleMd' sampleMd'_ok (by decide +kernel) p hp sampleVals (by decide +kernel)⟩

/-- **C17 (violation).**  A well-formed trajectory (whitespace-only separators) where the lazy reader
yields two frames and the eager one returns a single entry. -/
theorem C17_violated : ∃ (F : MdFile) (p : MDGeomParser) (vs : List PyVal) (v : PyVal), F.Ok ∧
    MDGeomParser.init F.text = .ok p ∧ ListOf iterNext (.fresh, p) vs ∧ vs.length = 2 ∧
    parse_md_geom_file F.text = .ok [v] := by
  obtain ⟨p, hp, _⟩ := C15_history sampleMd sampleMd_ok
  refine ⟨sampleMd, p, sampleVals, match parse_md_geom_file sampleMd.text with | .ok [v] => v | _ => .none,
    sampleMd_ok, hp, C16_iter _ sampleMd_ok p hp _ sampleVals_ok [], by decide +kernel, ?_⟩
  rw [C18_merged sampleMd sampleMd_ok (by decide +kernel)]
  cases h : parse_md_geom_frame (sampleMd.frames.map MdFrame.all).flatten with
  | ok v => rfl
  | error e =>
    have : (parse_md_geom_frame (sampleMd.frames.map MdFrame.all).flatten).isOk = true := by decide +kernel
    rw [h] at this; cases this

end Verif.Props

import Verif.Lemmas.MdFile
/-
The loop of the eager reader.
-/
namespace Verif.Props
open Verif Spec MdGeom

theorem step_blank (curr : Dict Key PyVal) (l : Str) (h : Blank l) : step curr l = .ok curr := by
  rw [step, if_pos ((strip_isEmpty l).2 h)]

theorem steps_append (curr : Dict Key PyVal) (l m : List Str) :
    steps curr (l ++ m) = (steps curr l).bind fun c => steps c m := by
  induction l generalizing curr with
  | nil => rfl
  | cons a l ih =>
    simp only [List.cons_append, steps]
    cases step curr a with
    | error e => rfl
    | ok c => exact ih c

/-- Blank lines around a frame do not matter. -/
theorem frame_block (ls : List Str) (a c : Str) (ha : Blank a) (hc : Blank c) :
    parse_md_geom_frame (a :: ls ++ [c]) = parse_md_geom_frame ls := by
  have : ∀ d, steps d (a :: ls ++ [c]) = steps d ls := by
    intro d
    rw [List.cons_append, steps, step_blank _ _ ha]
    show steps d (ls ++ [c]) = _
    rw [steps_append]
    cases steps d ls with
    | error e => rfl
    | ok e => show steps e [c] = _; rw [steps, step_blank _ _ hc]; rfl
  rw [parse_md_geom_frame, parse_md_geom_frame, this]

theorem frame_block' (ls : List Str) (a : Str) (ha : Blank a) :
    parse_md_geom_frame (a :: ls) = parse_md_geom_frame ls := by
  have : ∀ d, steps d (a :: ls) = steps d ls := by
    intro d
    rw [steps, step_blank _ _ ha]; rfl
  rw [parse_md_geom_frame, parse_md_geom_frame, this]

theorem blank_nil : Blank [] := by intro c hc; cases hc
theorem blank_newline : Blank [10] := by unfold Blank; decide

/-- Lines that do not end a block of the eager reader. -/
def Inner (l : Str) : Prop := IsLine l ∧ l ≠ [10]

theorem Inner.notEmptyLine {l : Str} (h : Inner l) : isEmptyLine l = false := by
  rw [← Bool.not_eq_true, isEmptyLine_iff]
  rintro (h' | h')
  · exact h.1.ne_nil h'
  · exact h.2 h'

theorem truthy_of {ls : List Str} {n : Int} {p : Nat} (h : ∃ l ∈ ls, ¬ Blank l) : (⟨n, p, ls⟩ : Block).truthy = true := by
  obtain ⟨l, hl, hb⟩ := h
  simp only [Block.truthy, List.any_eq_true]
  exact ⟨l, hl, by simpa [strip_nil_iff] using hb⟩

theorem eager_block {ls : List Str} (hl : ∀ l ∈ ls, Inner l) {w : FileWrapper} {pre post : Str}
    (h : w.At pre ((ls ++ [[10]]).flatten ++ post)) :
    ∃ w', Block.from_re [] w (fun _ => true) isEmptyLine 1 true = (.ok ⟨w.lineno_, 0, [] :: ls ++ [[10]]⟩, w') ∧
      w'.At (pre ++ (ls ++ [[10]]).flatten) post := by
  have hn : IsLine [10] := ⟨[], by simp, rfl⟩
  have hL : ∀ l ∈ ls ++ [[10]], IsLine l := by
    intro l h'
    rw [List.mem_append] at h'
    rcases h' with h' | h'
    · exact (hl l h').1
    · simp at h'; subst h'; exact hn
  obtain ⟨w₁, hy, hat, _⟩ := FileWrapper.At.yields hL h
  have hlist : ListOf LineSource.next w (ls ++ [10] :: linesOf post) := by
    have := h.listOf
    rw [linesOf_append hL, List.append_assoc] at this
    exact this
  have hbd := h.bound
  have hge := flatten_length_ge hL
  simp only [List.length_append, List.length_cons, List.length_nil] at hbd hge
  obtain ⟨w₂, h1, h2, _⟩ := Block.fromReLoop_found isEmptyLine 1 ls [10] (linesOf post)
    (LineSource.bound w + 1) 0 [[]] w hlist ((isEmptyLine_iff _).2 (.inr rfl))
    (by
      have : ls.countP isEmptyLine = 0 := by
        rw [List.countP_eq_zero]
        intro a ha; simp [(hl a ha).notEmptyLine]
      simp [this])
    (by omega)
  obtain ⟨_, rfl⟩ := Yields.det hy h2 rfl
  refine ⟨w₁, ?_, hat⟩
  rw [Block.from_re]
  simp only [Bool.not_true, Bool.false_eq_true, if_false, h1]
  simp [Block.init, LineSource.lineno]

theorem eager_tail {ls : List Str} (hl : ∀ l ∈ ls, Inner l) {w : FileWrapper} {pre : Str}
    (h : w.At pre ls.flatten) :
    ∃ w', Block.from_re [] w (fun _ => true) isEmptyLine 1 true = (.ok ⟨w.lineno_, 0, [] :: ls⟩, w') ∧
      ListOf FileWrapper.next w' [] := by
  have hL : ∀ l ∈ ls, IsLine l := fun l h' => (hl l h').1
  have hlist : ListOf LineSource.next w ls := by
    have := h.listOf
    have e := linesOf_append hL []
    rw [List.append_nil, linesOf, List.append_nil] at e
    rw [e] at this
    exact this
  have hbd := h.bound
  have hge := flatten_length_ge hL
  obtain ⟨w₂, h1, h2⟩ := Block.fromReLoop_eof isEmptyLine 1 ls (LineSource.bound w + 1) 0 [[]] w hlist
    (.inr (by
      have : ls.countP isEmptyLine = 0 := by
        rw [List.countP_eq_zero]
        intro a ha; simp [(hl a ha).notEmptyLine]
      simp [this]))
    (by omega)
  refine ⟨w₂, ?_, h2⟩
  rw [Block.from_re]
  simp only [Bool.not_true, Bool.false_eq_true, if_false, h1]
  simp [Block.init, LineSource.lineno]

/-- Frames each followed by one empty line. -/
def spaced (fs : List (List Str)) : List Str := (fs.map (· ++ [[10]])).flatten

/-- Frames for the eager reader: lines other than the empty line, not all blank. -/
def EagerFrame (ls : List Str) : Prop := (∀ l ∈ ls, Inner l) ∧ ∃ l ∈ ls, ¬ Blank l

theorem fileLoop_frames {fs : List (List Str)} (hfs : ∀ f ∈ fs, EagerFrame f) (post : Str) (tail : PyM (List PyVal))
    (htail : ∀ (w : FileWrapper) (pre : Str) (fuel : Nat) (acc : List PyVal), w.At pre post → post.length < fuel →
      fileLoop fuel w acc = tail.map (acc ++ ·)) :
    ∀ (w : FileWrapper) (pre : Str) (fuel : Nat) (acc : List PyVal),
    w.At pre ((spaced fs).flatten ++ post) → ((spaced fs).flatten ++ post).length < fuel →
    fileLoop fuel w acc = ((fs.mapM parse_md_geom_frame).bind fun vs => tail.map (vs ++ ·)).map (acc ++ ·) := by
  induction fs with
  | nil =>
    intro w pre fuel acc h hf
    rw [htail w pre fuel acc (by simpa [spaced] using h) (by simpa [spaced] using hf)]
    simp [Except.bind, pure, Except.pure]
    cases tail <;> rfl
  | cons f fs ih =>
    intro w pre fuel acc h hf
    have e : (spaced (f :: fs)).flatten ++ post = (f ++ [[10]]).flatten ++ ((spaced fs).flatten ++ post) := by
      simp [spaced]
    rw [e] at h hf
    have hf1 := hfs f (by simp)
    cases fuel with
    | zero => simp at hf
    | succ fuel =>
      obtain ⟨w', h1, h2⟩ := eager_block hf1.1 h
      have ht : (⟨w.lineno_, 0, [] :: f ++ [[10]]⟩ : Block).truthy = true := by
        obtain ⟨l, hl, hb⟩ := hf1.2
        exact truthy_of ⟨l, by simp [hl], hb⟩
      rw [fileLoop, h1]
      simp only [ht, if_true]
      rw [frame_block f [] [10] blank_nil blank_newline, List.mapM_cons]
      cases parse_md_geom_frame f with
      | error e => rfl
      | ok v =>
        simp only
        rw [ih (fun g hg => hfs g (by simp [hg])) w' _ fuel (acc ++ [v]) h2 (by simp at hf ⊢; omega)]
        show _ = Except.map _ (Except.bind (Except.bind (fs.mapM parse_md_geom_frame) _) _)
        cases fs.mapM parse_md_geom_frame with
        | error e => rfl
        | ok vs =>
          cases tail with
          | error e => rfl
          | ok t => simp [Except.bind, Except.map, pure, Except.pure]

/-- The loop stops at once on an empty line or at the end of the file. -/
theorem fileLoop_stop (post : Str) (hpost : post = [] ∨ ∃ r, post = 10 :: r) (w : FileWrapper) (pre : Str)
    (fuel : Nat) (acc : List PyVal) (h : w.At pre post) (hf : post.length < fuel) :
    fileLoop fuel w acc = .ok acc := by
  cases fuel with
  | zero => simp at hf
  | succ fuel =>
    rcases hpost with rfl | ⟨r, rfl⟩
    · obtain ⟨w', h1, _⟩ := eager_tail (ls := []) (by simp) h
      rw [fileLoop, h1]
      simp [Block.truthy, strip_nil_iff, blank_nil]
    · obtain ⟨w', h1, _⟩ := eager_block (ls := []) (by simp) (w := w) (pre := pre) (post := r) (by simpa using h)
      rw [fileLoop, h1]
      simp [Block.truthy, strip_nil_iff, blank_nil, blank_newline]

theorem fileLoop_exhausted (w : FileWrapper) (h : ListOf FileWrapper.next w []) (fuel : Nat) (acc : List PyVal) :
    fileLoop fuel w acc = .ok acc := by
  cases fuel with
  | zero => rfl
  | succ fuel =>
    have h1 : (LineSource.next w).1 = .error .stopIteration := ListOf.nil_iff.1 h
    have : Block.fromReLoop isEmptyLine 1 (LineSource.bound w + 1) 0 [[]] w = (false, [[]], (LineSource.next w).2) := by
      rw [Block.fromReLoop]
      generalize LineSource.next w = x at *
      obtain ⟨x1, x2⟩ := x
      simp only at h1; subst h1; rfl
    rw [fileLoop, Block.from_re]
    simp only [Bool.not_true, Bool.false_eq_true, if_false, this]
    simp [Block.truthy, strip_nil_iff, blank_nil]

theorem eager_file (head : MdHeader) (hh : head.Ok) {fs : List (List Str)} (post : Str) (l r : Str)
    (hfirst : (spaced fs).flatten ++ post = l ++ r) (hl : IsLine l ∧ ¬ Blank l)
    (hfit : ∀ lead, head = .missing lead → ¬ Occurs (py"BEGIN header") l)
    (hfs : ∀ f ∈ fs, EagerFrame f) (tail : PyM (List PyVal))
    (htail : ∀ (w : FileWrapper) (pre : Str) (fuel : Nat) (acc : List PyVal), w.At pre post → post.length < fuel →
      fileLoop fuel w acc = tail.map (acc ++ ·)) :
    parse_md_geom_file (head.lines.flatten ++ ((spaced fs).flatten ++ post)) =
      ((fs.mapM parse_md_geom_frame).bind fun vs => tail.map (vs ++ ·)).bind fun vs =>
        if vs.isEmpty then .error .valueError else .ok vs := by
  obtain ⟨c, w, h1, h2⟩ := parse_header_at head hh l r hl.1 hl.2 hfit
  rw [← hfirst] at h1 h2
  rw [parse_md_geom_file, h1]
  simp only
  have hbd := h2.bound
  rw [fileLoop_frames hfs post tail htail w _ _ [] h2 (by rw [hbd]; omega)]
  cases (fs.mapM parse_md_geom_frame) with
  | error e => rfl
  | ok vs =>
    cases tail with
    | error e => rfl
    | ok t => rfl

end Verif.Props

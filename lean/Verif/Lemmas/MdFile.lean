import Verif.Model.MdGeom
import Verif.Spec.MdFile
import Verif.Lemmas.FileWrapper
import Verif.Lemmas.Comments
import Verif.Lemmas.Strings
namespace Verif
open Spec

theorem strip_nil_iff (s : Str) : Str.strip s = [] ↔ Blank s := by
  unfold Str.strip
  rw [rstrip_nil_iff]
  unfold Str.lstrip Blank
  constructor
  · intro h c hc
    have : c ∈ s.takeWhile isSpace ++ s.dropWhile isSpace := by rw [List.takeWhile_append_dropWhile]; exact hc
    rw [List.mem_append] at this
    rcases this with h' | h'
    · exact mem_takeWhile h'
    · exact h c h'
  · intro h c hc
    exact h c ((List.dropWhile_sublist _).subset hc)

theorem strip_isEmpty (s : Str) : (Str.strip s).isEmpty = true ↔ Blank s := by
  rw [List.isEmpty_iff, strip_nil_iff]

theorem Spec.IsLine.firstLine {l : Str} (h : IsLine l) (rest : Str) : firstLine (l ++ rest) = l := by
  obtain ⟨u, hu, rfl⟩ := h
  induction u with
  | nil => simp [Verif.firstLine]
  | cons c u ih =>
    simp only [List.mem_cons, not_or] at hu
    have hc : ¬ c = 10 := fun h => hu.1 h.symm
    have := ih hu.2
    simp only [List.cons_append, Verif.firstLine, hc, if_false]
    rw [this]

theorem Spec.IsLine.ne_nil {l : Str} (h : IsLine l) : l ≠ [] := by
  obtain ⟨u, hu, rfl⟩ := h; simp

theorem linesOf_append {ls : List Str} (h : ∀ l ∈ ls, IsLine l) (rest : Str) :
    linesOf (ls.flatten ++ rest) = ls ++ linesOf rest := by
  induction ls with
  | nil => simp
  | cons l ls ih =>
    have hl := h l (by simp)
    rw [List.flatten_cons, List.append_assoc, linesOf_eq _ (by have := hl.ne_nil; simp [this]), hl.firstLine]
    simp only [List.drop_left]
    rw [ih fun m hm => h m (by simp [hm])]
    rfl

theorem isLine_iff (l : Str) : IsLine l ↔ l.getLast? = some 10 ∧ 10 ∉ l.dropLast := by
  constructor
  · rintro ⟨u, hu, rfl⟩; simp [hu]
  · rintro ⟨h1, h2⟩
    refine ⟨l.dropLast, h2, ?_⟩
    rcases List.eq_nil_or_concat l with rfl | ⟨u, c, rfl⟩
    · simp at h1
    · rw [List.concat_eq_append] at *; simp at h1; subst h1; simp

instance (l : Str) : Decidable (IsLine l) := decidable_of_iff _ (isLine_iff l).symm
instance (l : Str) : Decidable (Blank l) := by unfold Blank; infer_instance

theorem occurs_iff (s l : Str) : Occurs s l ↔ ∃ k, k < l.length + 1 ∧ s <+: l.drop k := by
  constructor
  · rintro ⟨u, v, rfl⟩
    exact ⟨u.length, by simp; omega, by simp⟩
  · rintro ⟨k, _, v, hv⟩
    exact ⟨l.take k, v, by rw [List.append_assoc, hv, List.take_append_drop]⟩

instance (s l : Str) : Decidable (Occurs s l) := decidable_of_iff _ (occurs_iff s l).symm

/-! ### Cursors -/

/-- The wrapper's file is `pre ++ post` with the cursor between. -/
def FileWrapper.At (w : FileWrapper) (pre post : Str) : Prop :=
  w.file.text = pre ++ post ∧ w.file.pos = pre.length

theorem FileWrapper.At.drop {w : FileWrapper} {pre post : Str} (h : w.At pre post) :
    w.file.text.drop w.file.pos = post := by
  rw [h.1, h.2]; simp

theorem FileWrapper.At.next {w : FileWrapper} {pre l post : Str} (h : w.At pre (l ++ post)) (hl : IsLine l) :
    ∃ w', w.next = (.ok l, w') ∧ w'.At (pre ++ l) post ∧ w'.pos_ = pre.length ∧ w'.lineno_ = w.lineno_ + 1 := by
  refine ⟨_, by rw [FileWrapper.next_eq, h.drop, if_neg (by have := hl.ne_nil; simp [this]), hl.firstLine], ?_⟩
  refine ⟨⟨?_, ?_⟩, h.2, rfl⟩
  · simp [h.1]
  · simp [h.2]

theorem FileWrapper.At.next_eof {w : FileWrapper} {pre : Str} (h : w.At pre []) :
    ∃ w', w.next = (.error .stopIteration, w') ∧ w'.At pre [] :=
  ⟨⟨w.file, w.file.pos, w.lineno_ + 1⟩, by rw [FileWrapper.next_eq, h.drop, if_pos rfl], h⟩

theorem FileWrapper.At.listOf {w : FileWrapper} {pre post : Str} (h : w.At pre post) :
    ListOf FileWrapper.next w (linesOf post) := by
  have := FileWrapper.listOf w
  rwa [h.drop] at this

theorem FileWrapper.At.yields {ls : List Str} (hl : ∀ l ∈ ls, IsLine l) {w : FileWrapper} {pre post : Str}
    (h : w.At pre (ls.flatten ++ post)) :
    ∃ w', Yields FileWrapper.next w ls w' ∧ w'.At (pre ++ ls.flatten) post ∧
      w'.lineno_ = w.lineno_ + ls.length := by
  induction ls generalizing w pre with
  | nil => exact ⟨w, .nil _, by simpa using h, by simp⟩
  | cons l ls ih =>
    rw [List.flatten_cons, List.append_assoc] at h
    obtain ⟨w₁, h1, h2, _, h3⟩ := h.next (hl l (by simp))
    obtain ⟨w₂, h4, h5, h6⟩ := ih (fun m hm => hl m (by simp [hm])) h2
    refine ⟨w₂, .cons _ _ _ _ _ h1 h4, by simpa using h5, ?_⟩
    rw [h6, h3]; simp; omega

/-- `rewind` just after a line was read goes back before it. -/
theorem FileWrapper.At.rewind {w : FileWrapper} {pre l post : Str} (h : w.At (pre ++ l) post) (hl : l ≠ [])
    (hp : w.pos_ = pre.length) : w.rewind.At pre (l ++ post) := by
  unfold FileWrapper.rewind TFile.tell
  have : ¬ w.file.pos = w.pos_ := by
    rw [h.2, hp]
    have := List.length_pos_iff.2 hl
    simp; omega
  rw [if_neg this]
  exact ⟨by simp [TFile.seek, h.1], by simp [TFile.seek, hp]⟩

theorem flatten_length_ge {ls : List Str} (h : ∀ l ∈ ls, IsLine l) : ls.length ≤ ls.flatten.length :=
  length_le_flatten_length _ fun l hl => (h l hl).ne_nil

theorem FileWrapper.At.bound {w : FileWrapper} {pre post : Str} (h : w.At pre post) :
    LineSource.bound w = post.length := by
  show w.file.text.length - w.file.pos = _
  rw [h.1, h.2]; simp

/-! ### Literal searches -/

theorem search_lit (p : Pat) (s : Str) (hp : p.re = litRe s) (l : Str) :
    (p.search l).isSome = true ↔ Occurs s l := by
  have hm : ∀ u v, (p.matchAt u v).isSome = true ↔ ∃ b, v = s ++ b := by
    intro u v
    rw [p.isSome_plain (by rw [hp]; exact plain_lit s), hp]
    constructor
    · rintro ⟨w, b, h, h'⟩
      rw [lang_lit] at h'; subst h'
      exact ⟨b, h⟩
    · rintro ⟨b, h⟩; exact ⟨s, b, h, (lang_lit s s).2 rfl⟩
  rcases p.search_spec l with ⟨h1, h2⟩ | ⟨u, v, x, h1, h2, h3, _⟩
  · rw [h1]
    refine ⟨fun h => (by cases h), ?_⟩
    rintro ⟨u, v, h⟩
    have h3 := h2 u (s ++ v) (by rw [h]; simp)
    have := (hm u.reverse (s ++ v)).2 ⟨v, rfl⟩
    rw [h3] at this; cases this
  · rw [h2]
    refine ⟨fun _ => ?_, fun _ => rfl⟩
    obtain ⟨b, hb⟩ := (hm u.reverse v).1 (by rw [h3]; rfl)
    exact ⟨u, b, by rw [h1, hb]; simp⟩

theorem isBegin_iff (l : Str) : MdGeom.isBegin l = true ↔ Occurs (py"BEGIN header") l :=
  search_lit _ _ (by decide +kernel) l
theorem isEnd_iff (l : Str) : MdGeom.isEnd l = true ↔ Occurs (py"END header") l :=
  search_lit _ _ (by decide +kernel) l

theorem isEmptyLine_iff (l : Str) : MdGeom.isEmptyLine l = true ↔ l = [] ∨ l = [10] := by
  unfold MdGeom.isEmptyLine
  have hp : (rx (py"^$")).re = .seq .bol .eol := by decide +kernel
  generalize rx (py"^$") = p at hp
  rw [Pat.search_bol _ _ hp, Pat.match_, Pat.isSome_matchAt, hp]
  by_cases h : Re.atEol ⟨[], l, []⟩ = true
  · simp only [Re.m, Re.atBol, List.isEmpty_nil, if_true, List.flatMap_cons, List.flatMap_nil, List.append_nil, h]
    simp only [Re.atEol, Bool.or_eq_true, List.isEmpty_iff, beq_iff_eq] at h
    simp [h]
  · simp only [Re.m, Re.atBol, List.isEmpty_nil, if_true, List.flatMap_cons, List.flatMap_nil, List.append_nil, h]
    simp only [Re.atEol, Bool.or_eq_true, List.isEmpty_iff, beq_iff_eq] at h
    simp [h]

/-! ### The header -/

namespace MdGeom

theorem skipBlank_at {lead : List Str} (hlead : ∀ l ∈ lead, IsLine l ∧ Blank l) {l : Str} (hl : IsLine l)
    (hb : ¬ Blank l) : ∀ (fuel : Nat) (x : Str) (w : FileWrapper) (pre post : Str),
    w.At pre (lead.flatten ++ (l ++ post)) → lead.length < fuel →
    ∃ w', skipBlank fuel x w = (l, w') ∧ w'.At (pre ++ lead.flatten ++ l) post ∧
      w'.pos_ = (pre ++ lead.flatten).length := by
  induction lead with
  | nil =>
    intro fuel x w pre post h hf
    cases fuel with
    | zero => simp at hf
    | succ fuel =>
      obtain ⟨w', h1, h2, h3, _⟩ := FileWrapper.At.next (by simpa using h) hl
      refine ⟨w', ?_, by simpa using h2, by simpa using h3⟩
      rw [skipBlank, h1]
      simp [strip_nil_iff, hb]
  | cons a lead ih =>
    intro fuel x w pre post h hf
    cases fuel with
    | zero => simp at hf
    | succ fuel =>
      have ha := hlead a (by simp)
      rw [List.flatten_cons, List.append_assoc] at h
      obtain ⟨w', h1, h2, h3, _⟩ := h.next ha.1
      obtain ⟨w'', h4, h5, h6⟩ := ih (fun m hm => hlead m (by simp [hm])) fuel a w' _ _ h2
        (by simp at hf; omega)
      refine ⟨w'', ?_, by simpa using h5, by simpa using h6⟩
      rw [skipBlank, h1]
      simp only [(strip_isEmpty a).2 ha.2, if_true]
      exact h4

theorem occurs_not_blank {s l : Str} (h : Occurs s l) (hs : ∃ c ∈ s, isSpace c = false) : ¬ Blank l := by
  obtain ⟨u, v, rfl⟩ := h
  obtain ⟨c, hc, h⟩ := hs
  intro hb
  have := hb c (by simp [hc])
  rw [h] at this; cases this

theorem from_re_begin {first : Str} {body : List Str} {last : Str}
    (hf : isBegin first = true) (hbody : ∀ l ∈ body, IsLine l ∧ isEnd l = false)
    (hlast : IsLine last ∧ isEnd last = true) {w : FileWrapper} {pre post : Str}
    (h : w.At pre (body.flatten ++ (last ++ post))) :
    ∃ w', Block.from_re first w isBegin isEnd = (.ok ⟨w.lineno_, 0, first :: body ++ [last]⟩, w') ∧
      w'.At (pre ++ body.flatten ++ last) post := by
  have hL : ∀ l ∈ body ++ [last], IsLine l := by
    intro l hl
    rw [List.mem_append] at hl
    rcases hl with hl | hl
    · exact (hbody l hl).1
    · simp at hl; subst hl; exact hlast.1
  have hAt : w.At pre ((body ++ [last]).flatten ++ post) := by simpa using h
  obtain ⟨w₁, hy, hat, _⟩ := FileWrapper.At.yields hL hAt
  have hlist : ListOf LineSource.next w (body ++ last :: linesOf post) := by
    have := hAt.listOf
    rw [linesOf_append hL, List.append_assoc] at this
    exact this
  have hbd := hAt.bound
  have hge := flatten_length_ge hL
  simp only [List.length_append, List.length_cons, List.length_nil] at hbd hge
  obtain ⟨w₂, h1, h2, _⟩ := Block.fromReLoop_found isEnd 1 body last (linesOf post)
    (LineSource.bound w + 1) 0 [first] w hlist hlast.2
    (by
      have : body.countP isEnd = 0 := by
        rw [List.countP_eq_zero]
        intro a ha; simp [(hbody a ha).2]
      simp [this])
    (by omega)
  obtain ⟨_, rfl⟩ := Yields.det hy h2 rfl
  refine ⟨w₁, ?_, by simpa using hat⟩
  rw [Block.from_re]
  simp only [hf, Bool.not_true, Bool.false_eq_true, if_false, h1]
  simp [Block.init, LineSource.lineno]

/-- The text of the frames of a file. -/
def framesText (fs : List MdFrame) : Str := ((fs.map MdFrame.all).flatten).flatten

theorem text_eq (F : MdFile) : F.text = F.head.lines.flatten ++ framesText F.frames := by
  simp [MdFile.text, MdFile.lines, framesText]

theorem framesText_cons (f : MdFrame) (fs : List MdFrame) :
    framesText (f :: fs) = f.all.flatten ++ framesText fs := by simp [framesText]

/-- Reading the header leaves the cursor at the first frame. -/
theorem parse_header_at (head : MdHeader) (hh : head.Ok) (l : Str) (rest : Str) (hl : IsLine l) (hb : ¬ Blank l)
    (hfit : ∀ lead, head = .missing lead → ¬ Occurs (py"BEGIN header") l) :
    ∃ c w, parse_header (FileWrapper.init ⟨head.lines.flatten ++ (l ++ rest), 0⟩) = (.ok c, w) ∧
      w.At head.lines.flatten (l ++ rest) := by
  have h0 : (FileWrapper.init ⟨head.lines.flatten ++ (l ++ rest), 0⟩).At []
      (head.lines.flatten ++ (l ++ rest)) := ⟨rfl, rfl⟩
  have hbd := h0.bound
  generalize FileWrapper.init ⟨head.lines.flatten ++ (l ++ rest), 0⟩ = w at *
  cases head with
  | missing lead =>
    simp only [MdHeader.lines] at *
    have hge := flatten_length_ge fun l hl => (hh l hl).1
    obtain ⟨w₁, h1, h2, h3⟩ := skipBlank_at hh hl hb (LineSource.bound w + 1) [] w [] rest h0
      (by rw [hbd, List.length_append]; omega)
    refine ⟨[], w₁.rewind, ?_, ?_⟩
    · rw [parse_header, h1]
      simp only
      rw [Block.from_re]
      have : isBegin l = false := by
        rw [← Bool.not_eq_true, isBegin_iff]; exact hfit lead rfl
      simp [this, Block.truthy, Block.init]
    · have := FileWrapper.At.rewind (w := w₁) (pre := lead.flatten) (l := l) (post := rest) (by simpa using h2)
        hl.ne_nil (by simpa using h3)
      exact this
  | standard lead first body last sep =>
    obtain ⟨hh1, hh2, hh3, hh4, hh5⟩ := hh
    simp only [MdHeader.lines] at *
    have hge := flatten_length_ge fun l hl => (hh1 l hl).1
    have hfb : ¬ Blank first := occurs_not_blank hh2.2 (by decide)
    have e : (lead ++ [first] ++ body ++ [last] ++ sep.toList).flatten ++ (l ++ rest) =
        lead.flatten ++ (first ++ (body.flatten ++ (last ++ (sep.toList.flatten ++ (l ++ rest))))) := by simp
    rw [e] at h0 hbd
    obtain ⟨w₁, h1, h2, h3⟩ := skipBlank_at hh1 hh2.1 hfb (LineSource.bound w + 1) [] w [] _ h0
      (by rw [hbd, List.length_append]; omega)
    obtain ⟨w₂, h4, h5⟩ := from_re_begin (first := first) ((isBegin_iff first).2 hh2.2)
      (fun l hl => ⟨(hh3 l hl).1, by rw [← Bool.not_eq_true, isEnd_iff]; exact (hh3 l hl).2⟩)
      ⟨hh4.1, (isEnd_iff last).2 hh4.2⟩ h2
    have ht : (⟨w₁.lineno_, 0, first :: body ++ [last]⟩ : Block).truthy = true := by
      simp only [Block.truthy, List.any_eq_true]
      exact ⟨first, by simp, by simpa [strip_nil_iff] using hfb⟩
    cases sep with
    | some sep =>
      have hs := hh5 sep rfl
      have h5' : w₂.At (lead.flatten ++ first ++ body.flatten ++ last) (sep ++ (l ++ rest)) := by simpa using h5
      obtain ⟨w₃, h6, h7, _⟩ := h5'.next hs.1
      refine ⟨Str.strip ((⟨w₁.lineno_, 0, first :: body ++ [last]⟩ : Block).remove_bounds 1 1).str, w₃, ?_, ?_⟩
      · rw [parse_header, h1]
        simp only [h4, ht, if_true, h6, (strip_isEmpty sep).2 hs.2]
      · simpa using h7
    | none =>
      have h5' : w₂.At (lead.flatten ++ first ++ body.flatten ++ last) (l ++ rest) := by simpa using h5
      obtain ⟨w₃, h6, h7, h8, _⟩ := h5'.next hl
      refine ⟨Str.strip ((⟨w₁.lineno_, 0, first :: body ++ [last]⟩ : Block).remove_bounds 1 1).str, w₃.rewind, ?_, ?_⟩
      · rw [parse_header, h1]
        have : (Str.strip l).isEmpty = false := by rw [← Bool.not_eq_true, strip_isEmpty]; exact hb
        simp only [h4, ht, if_true, h6, this, Bool.false_eq_true, if_false]
      · simpa using h7.rewind hl.ne_nil h8

/-! ### Frames -/

theorem frame_isLine {f : MdFrame} (h : f.Ok) : ∀ l ∈ f.all, IsLine l := by
  intro l hl
  rw [MdFrame.all, List.mem_append] at hl
  rcases hl with hl | hl
  · exact (h.2.1 l hl).1
  · simp at hl; subst hl; exact h.2.2.1

end MdGeom

namespace MDGeomParser
open MdGeom

theorem scanFrame_at {ls : List Str} (hl : ∀ l ∈ ls, IsLine l ∧ ¬ Blank l) {sep : Str} (hs : IsLine sep)
    (hb : Blank sep) : ∀ (fuel : Nat) (w : FileWrapper) (pre post : Str),
    w.At pre ((ls ++ [sep]).flatten ++ post) → ls.length < fuel →
    ∃ w', scanFrame fuel w = (.ok (), w') ∧ w'.At (pre ++ (ls ++ [sep]).flatten) post ∧
      w'.lineno_ = w.lineno_ + ls.length + 1 := by
  induction ls with
  | nil =>
    intro fuel w pre post h hf
    cases fuel with
    | zero => simp at hf
    | succ fuel =>
      obtain ⟨w', h1, h2, h3, h4⟩ := FileWrapper.At.next (by simpa using h) hs
      refine ⟨w', ?_, by simpa using h2, by simpa using h4⟩
      rw [scanFrame, h1]
      simp [strip_nil_iff, hb]
  | cons a ls ih =>
    intro fuel w pre post h hf
    cases fuel with
    | zero => simp at hf
    | succ fuel =>
      have ha := hl a (by simp)
      rw [List.cons_append, List.flatten_cons, List.append_assoc] at h
      obtain ⟨w', h1, h2, h3, h4⟩ := h.next ha.1
      obtain ⟨w'', h5, h6, h7⟩ := ih (fun m hm => hl m (by simp [hm])) fuel w' _ _ h2
        (by simp at hf; omega)
      refine ⟨w'', ?_, by simpa using h6, ?_⟩
      · rw [scanFrame, h1]
        have : (Str.strip a).isEmpty = false := by rw [← Bool.not_eq_true, strip_isEmpty]; exact ha.2
        simp only [this, Bool.false_eq_true, if_false]
        exact h5
      · rw [h7, h4]; simp; omega

/-- The state of a reader of the trajectory `F` whose next frame is `k` (the end if `k` is the number of
frames). -/
structure Inv (F : MdFile) (h b : Nat) (k : Nat) (p : MDGeomParser) : Prop where
  start : p.start = F.head.lines.flatten.length
  frameLines : p.frameLines = h
  frameBytes : p.frameBytes = b
  len : p.len = F.frames.length
  text : p.handle.file.text = F.text
  pos : p.handle.file.pos = F.head.lines.flatten.length + b * k
  next : p.nextFrame = if k < F.frames.length then some (k : Int) else none
  le : k ≤ F.frames.length

theorem framesText_length {fs : List MdFrame} {b : Nat} (h : ∀ f ∈ fs, f.all.flatten.length = b) :
    (framesText fs).length = b * fs.length := by
  induction fs with
  | nil => simp [framesText]
  | cons f fs ih =>
    rw [framesText_cons, List.length_append, ih fun g hg => h g (by simp [hg]), h f (by simp), List.length_cons,
      Nat.mul_add, Nat.mul_one, Nat.add_comm]

theorem framesText_append (fs gs : List MdFrame) : framesText (fs ++ gs) = framesText fs ++ framesText gs := by
  simp [framesText]

variable {F : MdFile} {h b : Nat}

/-- A reader of `F` at frame `k` has its cursor before the text of frame `k`. -/
theorem Inv.at (hb : ∀ f ∈ F.frames, f.all.flatten.length = b) {k : Nat} {p : MDGeomParser} (hp : Inv F h b k p) :
    p.handle.At (F.head.lines.flatten ++ framesText (F.frames.take k)) (framesText (F.frames.drop k)) := by
  refine ⟨?_, ?_⟩
  · rw [hp.text, text_eq, List.append_assoc, ← framesText_append, List.take_append_drop]
  · rw [hp.pos, List.length_append, framesText_length fun f hf => hb f (List.mem_of_mem_take hf),
      List.length_take, Nat.min_eq_left hp.le]

theorem go_to_frame_inv {k j : Nat} {p : MDGeomParser} (hp : Inv F h b k p) (hj : j < F.frames.length) :
    Inv F h b j (p.go_to_frame j) where
  start := hp.start
  frameLines := hp.frameLines
  frameBytes := hp.frameBytes
  len := hp.len
  text := hp.text
  pos := by simp [go_to_frame, TFile.seek, hp.start, hp.frameBytes]
  next := by
    have : ((j : Int) < p.len) := by rw [hp.len]; omega
    simp [go_to_frame, this, hj]
  le := Nat.le_of_lt hj

theorem read_next_inv (hF : ∀ f ∈ F.frames, f.Ok) (hb : ∀ f ∈ F.frames, f.all.flatten.length = b)
    (hh : ∀ f ∈ F.frames, f.lines.length = h) {k : Nat} {p : MDGeomParser} (hp : Inv F h b k p)
    (hk : k < F.frames.length) :
    (p.read_next).1 = parse_md_geom_frame F.frames[k].lines ∧ Inv F h b (k + 1) (p.read_next).2 := by
  have hat := hp.at hb
  have hm : F.frames[k] ∈ F.frames := List.getElem_mem hk
  have hf := hF _ hm
  rw [List.drop_eq_getElem_cons hk, framesText_cons] at hat
  generalize hfr : F.frames[k] = f at *
  obtain ⟨w₁, hy, hat₁, _⟩ := FileWrapper.At.yields (frame_isLine hf) hat
  have hlist : ListOf LineSource.next p.handle (f.lines ++ f.sep :: linesOf (framesText (F.frames.drop (k + 1)))) := by
    have := hat.listOf
    rw [linesOf_append (frame_isLine hf), MdFrame.all, List.append_assoc] at this
    exact this
  have hge := flatten_length_ge (frame_isLine hf)
  have hbd := hat.bound
  rw [List.length_append] at hbd
  obtain ⟨w₂, h1, h2, _⟩ := Block.getLinesLoop_more (h : Int) 1 f.lines f.sep _ (LineSource.bound p.handle + 1) []
    p.handle hlist (by rw [hh f hm]; omega)
    (by
      have : f.all.length = f.lines.length + 1 := by simp [MdFrame.all]
      omega)
  obtain ⟨_, rfl⟩ := Yields.det (m := f.lines ++ [f.sep]) hy h2 rfl
  have ht : ∀ n : Int, (⟨n, 0, f.lines⟩ : Block).truthy = true := by
    intro n
    simp only [Block.truthy, List.any_eq_true]
    obtain ⟨x, xs, hx⟩ := List.exists_cons_of_ne_nil hf.1
    have := (hf.2.1 x (by rw [hx]; simp)).2
    exact ⟨x, by rw [hx]; simp, by simpa [strip_nil_iff] using this⟩
  have hnext := hp.next
  rw [if_pos hk] at hnext
  have hr : p.read_next = (parse_md_geom_frame f.lines,
      { p with handle := w₁, nextFrame := if (k : Int) < (p.len : Int) - 1 then some ((k : Int) + 1) else none }) := by
    rw [read_next, Block.get_lines]
    simp only [hp.frameLines, h1, Block.init, List.nil_append, ht, if_true, hnext]
  rw [hr]
  refine ⟨rfl, hp.start, hp.frameLines, hp.frameBytes, hp.len, ?_, ?_, ?_, hk⟩
  · show w₁.file.text = _
    rw [hat₁.1, List.append_assoc, ← hat.1, hp.text]
  · show w₁.file.pos = _
    rw [hat₁.2, List.length_append, ← hat.2, hp.pos, hb f hm, Nat.mul_add, Nat.mul_one, Nat.add_assoc]
  · simp only [hp.len]
    by_cases h' : k + 1 < F.frames.length
    · rw [if_pos h', if_pos (by omega)]; simp
    · rw [if_neg h', if_neg (by omega)]

theorem read_next_end (hb : ∀ f ∈ F.frames, f.all.flatten.length = b) {p : MDGeomParser}
    (hp : Inv F h b F.frames.length p) :
    (p.read_next).1 = .error .stopIteration ∧ Inv F h b F.frames.length (p.read_next).2 := by
  have hat := hp.at hb
  rw [List.drop_length] at hat
  have hat' : p.handle.At F.text [] := by
    rw [List.take_length, ← text_eq] at hat
    exact hat
  obtain ⟨w', h1, h2⟩ := hat'.next_eof
  have hr : p.read_next = (.error .stopIteration, { p with handle := w' }) := by
    have : LineSource.next p.handle = (.error .stopIteration, w') := h1
    rw [read_next, Block.get_lines, Block.getLinesLoop, this]
    simp [Block.init, Block.truthy]
  rw [hr]
  refine ⟨rfl, hp.start, hp.frameLines, hp.frameBytes, hp.len, ?_, ?_, hp.next, hp.le⟩
  · show w'.file.text = _
    rw [h2.1]; simp
  · show w'.file.pos = _
    rw [h2.2, ← hp.pos, hat'.2]

theorem get_frame_inv (hF : ∀ f ∈ F.frames, f.Ok) (hb : ∀ f ∈ F.frames, f.all.flatten.length = b)
    (hh : ∀ f ∈ F.frames, f.lines.length = h) {k : Nat} {p : MDGeomParser} (hp : Inv F h b k p) (i : Int) :
    (p.get_frame i).1 = (specGet (F.frames.map fun f => parse_md_geom_frame f.lines) k i).1 ∧
    Inv F h b (specGet (F.frames.map fun f => parse_md_geom_frame f.lines) k i).2 (p.get_frame i).2 := by
  have main : ∀ j : Nat, (hj : j < F.frames.length) → ∀ q : MDGeomParser,
      q = (if some (j : Int) ≠ p.nextFrame then p.go_to_frame j else p) →
      (q.read_next).1 = parse_md_geom_frame F.frames[j].lines ∧ Inv F h b (j + 1) (q.read_next).2 := by
    intro j hj q hq
    have hq' : Inv F h b j q := by
      by_cases e : some (j : Int) = p.nextFrame
      · rw [if_neg (by simpa using e)] at hq
        rw [hp.next] at e
        split at e
        · simp at e; subst hq; subst e; exact hp
        · cases e
      · rw [if_pos (by simpa using e)] at hq
        rw [hq]; exact go_to_frame_inv hp hj
    exact read_next_inv hF hb hh hq' hj
  rw [get_frame, specGet, frameAt, List.length_map]
  have hlen := hp.len
  by_cases h1 : 0 ≤ i ∧ i < (F.frames.length : Int)
  · obtain ⟨j, rfl⟩ := Int.eq_ofNat_of_zero_le h1.1
    have hj : j < F.frames.length := by omega
    rw [if_pos h1, if_neg (by rw [hlen]; omega)]
    simp only [Int.toNat_natCast, show ¬ ((j : Int) < 0) by omega, if_false]
    rw [List.getD_eq_getElem?_getD, List.getElem?_map, List.getElem?_eq_getElem hj]
    exact main j hj _ rfl
  · rw [if_neg h1]
    by_cases h2 : i < 0 ∧ -(F.frames.length : Int) ≤ i
    · obtain ⟨j, hj⟩ := Int.eq_ofNat_of_zero_le (a := i + F.frames.length) (by omega)
      have hj' : j < F.frames.length := by omega
      rw [if_pos h2, if_neg (by rw [hlen]; omega), hj]
      have e : (p.len : Int) + i = j := by rw [hlen]; omega
      simp only [Int.toNat_natCast, show i < 0 from h2.1, if_true, e]
      rw [List.getD_eq_getElem?_getD, List.getElem?_map, List.getElem?_eq_getElem hj']
      exact main j hj' _ rfl
    · rw [if_neg h2, if_pos (by rw [hlen]; omega)]
      exact ⟨rfl, hp⟩

/-- Opening a well-formed trajectory. -/
theorem init_inv (hF : F.Ok) : ∃ h b p, MDGeomParser.init F.text = .ok p ∧ Inv F h b 0 p ∧
    (∀ f ∈ F.frames, f.all.flatten.length = b) ∧ (∀ f ∈ F.frames, f.lines.length = h) := by
  obtain ⟨f, fs, hfs⟩ := List.exists_cons_of_ne_nil hF.some
  have hm : f ∈ F.frames := by rw [hfs]; simp
  have hf := hF.frames f hm
  obtain ⟨l, ls, hl⟩ := List.exists_cons_of_ne_nil hf.1
  have hlo := hf.2.1 l (by rw [hl]; simp)
  have hb : ∀ g ∈ F.frames, g.all.flatten.length = f.all.flatten.length := fun g hg => hF.width g hg f hm
  have e : framesText F.frames = l ++ ((ls ++ [f.sep]).flatten ++ framesText fs) := by
    rw [hfs, framesText_cons, MdFrame.all, hl]; simp
  obtain ⟨c, w, h1, h2⟩ := parse_header_at F.head hF.head l ((ls ++ [f.sep]).flatten ++ framesText fs) hlo.1 hlo.2
    (by
      have := hF.fits
      intro lead hd
      rw [MdFile.HeadFits, hd] at this
      exact this f (by rw [hfs]; rfl) l (by rw [hl]; rfl))
  rw [← e, ← text_eq] at h1
  have h2' : w.At F.head.lines.flatten ((f.lines ++ [f.sep]).flatten ++ framesText fs) := by
    rw [hl]; simpa using h2
  have hge := flatten_length_ge (frame_isLine hf)
  have hbd := h2'.bound
  rw [List.length_append] at hbd
  obtain ⟨w', h3, h4, h5⟩ := scanFrame_at hf.2.1 hf.2.2.1 hf.2.2.2 (LineSource.bound w + 1) w _ _ h2'
    (by
      have : f.all.length = f.lines.length + 1 := by simp [MdFrame.all]
      rw [MdFrame.all] at hge this
      omega)
  have hall : (f.lines ++ [f.sep]).flatten.length = f.all.flatten.length := rfl
  have hpos : 0 < f.all.flatten.length := by
    have : f.all.length = f.lines.length + 1 := by simp [MdFrame.all]
    omega
  have hlen : F.text.length = F.head.lines.flatten.length + f.all.flatten.length * F.frames.length := by
    rw [text_eq, List.length_append, framesText_length hb]
  have hT : w'.file.text = F.text := by
    rw [h4.1, List.append_assoc, ← h2'.1, h2.1, ← e, ← text_eq]
  refine ⟨f.lines.length, f.all.flatten.length, _, by rw [init, h1]; simp only [h3]; rfl, ?_, hb,
    fun g hg => hF.height g hg f hm⟩
  have e1 : w.tell = F.head.lines.flatten.length := h2.2
  have e2 : w'.tell - w.tell = f.all.flatten.length := by
    show w'.file.pos - w.file.pos = _
    rw [h4.2, h2.2, List.length_append, hall]; omega
  have e3 : (F.text.length - w.tell) / (w'.tell - w.tell) = F.frames.length := by
    rw [e2, e1, hlen, Nat.add_sub_cancel_left, Nat.mul_div_cancel_left _ hpos]
  have hne : 0 < F.frames.length := List.length_pos_iff.2 hF.some
  rw [e2, e1] at e3
  rw [e2, e1, e3]
  exact ⟨rfl, by simp only [go_to_frame]; rw [h5]; omega, rfl, rfl, hT, by simp [go_to_frame, TFile.seek],
    by simp [go_to_frame, hne], Nat.zero_le _⟩

end MDGeomParser
end Verif

import Verif.Props.FileWrapper
import Verif.Props.Utility
import Verif.Model.CellParam
import Verif.Spec.CellFile
import Verif.Lemmas.Comments
import Verif.Lemmas.Dict
import Verif.Lemmas.MdFile
import Verif.Lemmas.TrailWs
/-
Reading .cell and .param files: blocks, settings and the loop over the file.
-/
namespace Verif
open Spec Re

/-! ### Literal text in any letter case -/

/-- A pattern for the text `s` with case ignored. -/
def ciRe : Str → Re
  | [] => .eps
  | [c] => .set ⟨false, [.ch c], true⟩
  | c :: s => .seq (.set ⟨false, [.ch c], true⟩) (ciRe s)

theorem ci_has {a : Nat} (ha : lowerC a = a) (c : Nat) :
    CSet.has ⟨false, [.ch a], true⟩ c = decide (lowerC c = a) := by
  have : CSet.has ⟨false, [.ch a], true⟩ c = true ↔ lowerC c = a := by
    simp only [CSet.has, List.any_cons, List.any_nil, CItem.has, Bool.or_false, Bool.true_and, Bool.false_bne,
      Bool.or_eq_true, beq_iff_eq]
    simp only [lowerC, upperC, isUpper, isLower, Bool.and_eq_true, decide_eq_true_eq] at *
    split at ha <;> split <;> split <;> omega
  rw [Bool.eq_iff_iff, this, decide_eq_true_eq]

theorem lang_ci (s : Str) (hs : Str.lower s = s) (w : Str) : Lang (ciRe s) w ↔ Str.lower w = s := by
  induction s generalizing w with
  | nil => simp [ciRe, Lang, Str.lower]
  | cons a s ih =>
    simp only [Str.lower, List.map_cons, List.cons.injEq] at hs
    have h1 : ∀ v : Str, Lang (.set ⟨false, [.ch a], true⟩) v ↔ ∃ c, v = [c] ∧ lowerC c = a := by
      intro v
      simp only [Lang, ci_has hs.1, decide_eq_true_eq]
      exact ⟨fun ⟨c, h, e⟩ => ⟨c, e, h⟩, fun ⟨c, e, h⟩ => ⟨c, h, e⟩⟩
    cases s with
    | nil =>
      rw [ciRe, h1]
      constructor
      · rintro ⟨c, rfl, rfl⟩; simp [Str.lower]
      · intro h
        cases w with
        | nil => simp [Str.lower] at h
        | cons c w =>
          simp only [Str.lower, List.map_cons, List.cons.injEq, List.map_eq_nil_iff] at h
          exact ⟨c, by rw [h.2], h.1⟩
    | cons b s =>
      rw [ciRe]
      · constructor
        · rintro ⟨u, v, rfl, hu, hv⟩
          obtain ⟨c, rfl, rfl⟩ := (h1 u).1 hu
          rw [ih hs.2] at hv
          simp only [Str.lower, List.cons_append, List.nil_append, List.map_cons] at hv ⊢
          rw [← hv]
        · intro h
          cases w with
          | nil => simp [Str.lower] at h
          | cons c w =>
            simp only [Str.lower, List.map_cons, List.cons.injEq] at h
            exact ⟨[c], w, rfl, (h1 _).2 ⟨c, rfl, h.1⟩, (ih hs.2 w).2 (by simpa [Str.lower] using h.2)⟩
      · intro h; cases h

theorem plain_ci (s : Str) : plain (ciRe s) = true := by
  induction s with
  | nil => rfl
  | cons a s ih =>
    cases s with
    | nil => rfl
    | cons b s => simpa [ciRe, plain] using ih

theorem lang_spaces_ci (w : Str) :
    Lang (.rep true 0 none (.set ⟨false, [.space], true⟩)) w ↔ Blank w := by
  have : ∀ c, CSet.has ⟨false, [.space], true⟩ c = CSet.has ⟨false, [.space], false⟩ c := by
    intro c
    simp only [CSet.has, List.any_cons, List.any_nil, CItem.has, Bool.or_false, Bool.true_and, Bool.false_bne,
      Bool.false_and]
    by_cases h : isSpace c = true
    · simp [h]
    · have h1 : isSpace (lowerC c) = false := by
        rw [Bool.eq_false_iff]; intro h'
        apply h
        by_cases hu : isUpper c = true
        · rw [lowerC, if_pos hu] at h'
          simp [isUpper] at hu; simp [isSpace] at h'; omega
        · rwa [lowerC, if_neg hu] at h'
      have h2 : isSpace (upperC c) = false := by
        rw [Bool.eq_false_iff]; intro h'
        apply h
        by_cases hu : isLower c = true
        · rw [upperC, if_pos hu] at h'
          simp [isLower] at hu; simp [isSpace] at h'; omega
        · rwa [upperC, if_neg hu] at h'
      simp [h1, h2]
  rw [show Blank w ↔ ∀ c ∈ w, isSpace c = true from Iff.rfl, ← lang_spaces]
  simp only [Lang, this]

/-- `^\s*text` in any letter case. -/
theorem search_ci (p : Pat) (s : Str) (hp : p.re = .seq .bol (.seq (.rep true 0 none (.set ⟨false, [.space], true⟩)) (ciRe s)))
    (hs : Str.lower s = s) (l : Str) :
    (p.search l).isSome = true ↔ ∃ g k v, l = g ++ k ++ v ∧ Blank g ∧ Str.lower k = s := by
  rw [Pat.search_bol _ _ hp, Pat.match_, Pat.isSome_bol _ _ hp (by simp [plain, nullable, plain_ci])]
  constructor
  · rintro ⟨w, v, rfl, g, k, rfl, h1, h2⟩
    exact ⟨g, k, v, rfl, (lang_spaces_ci g).1 h1, (lang_ci s hs k).1 h2⟩
  · rintro ⟨g, k, v, rfl, h1, h2⟩
    exact ⟨g ++ k, v, rfl, g, k, rfl, (lang_spaces_ci g).2 h1, (lang_ci s hs k).2 h2⟩

namespace Cell

theorem isEnd_iff (l : Str) : isEnd l = true ↔ ClosesBlock l :=
  search_ci _ (py"%endblock") (by decide +kernel) (by decide +kernel) l

theorem COMMENT_search (l : Str) : COMMENT_RE.splitHead l = (commentRe cellComments).splitHead l := by
  have hm : ∀ pre post, (COMMENT_RE.matchAt pre post).isSome = ((commentRe cellComments).matchAt pre post).isSome := by
    intro pre post
    rw [Bool.eq_iff_iff, comment_at _ (by decide)]
    have hp : COMMENT_RE.re = .set ⟨false, [.ch 35, .ch 33], false⟩ := by decide +kernel
    rw [Pat.isSome_plain _ (by rw [hp]; rfl), hp]
    simp only [Lang, CSet.has, List.any_cons, List.any_nil, CItem.has, Bool.or_false, Bool.false_and, Bool.false_bne,
      Bool.or_eq_true, beq_iff_eq]
    constructor
    · rintro ⟨w, v, rfl, c, hc | hc, rfl⟩
      · subst hc; exact ⟨_, by simp [cellComments], v, rfl⟩
      · subst hc; exact ⟨_, by simp [cellComments], v, rfl⟩
    · rintro ⟨c, hc, v, rfl⟩
      simp only [cellComments, List.mem_cons, List.not_mem_nil, or_false] at hc
      rcases hc with rfl | rfl
      · exact ⟨_, v, rfl, 35, .inl rfl, rfl⟩
      · exact ⟨_, v, rfl, 33, .inr rfl, rfl⟩
  have key : ∀ post pre, (COMMENT_RE.searchFrom pre post).map (·.before) =
      ((commentRe cellComments).searchFrom pre post).map (·.before) := by
    intro post
    have hb : ∀ pre post x y, COMMENT_RE.matchAt pre post = some x →
        (commentRe cellComments).matchAt pre post = some y → x.before = y.before := by
      intro pre post x y hx hy
      rw [(Pat.matchAt_some hx).2.1, (Pat.matchAt_some hy).2.1]
    induction post with
    | nil =>
      intro pre
      have := hm pre []
      rw [Pat.searchFrom, Pat.searchFrom]
      cases h1 : COMMENT_RE.matchAt pre [] <;> cases h2 : (commentRe cellComments).matchAt pre [] <;>
        rw [h1, h2] at this <;> simp at this ⊢
      exact hb _ _ _ _ h1 h2
    | cons c post ih =>
      intro pre
      have := hm pre (c :: post)
      rw [Pat.searchFrom, Pat.searchFrom]
      cases h1 : COMMENT_RE.matchAt pre (c :: post) <;> cases h2 : (commentRe cellComments).matchAt pre (c :: post) <;>
        rw [h1, h2] at this <;> simp only [Option.isSome_none, Option.isSome_some, Bool.false_eq_true,
          Bool.true_eq_false] at this ⊢
      · exact ih _
      · simp only [Option.map_some]; rw [hb _ _ _ _ h1 h2]
  have := key l []
  rw [Pat.splitHead, Pat.splitHead, Pat.search, Pat.search]
  cases h1 : COMMENT_RE.searchFrom [] l <;> cases h2 : (commentRe cellComments).searchFrom [] l <;>
    rw [h1, h2] at this <;> simp at this ⊢
  exact this

theorem uncomment (l : Str) : Uncommented cellComments l (COMMENT_RE.splitHead l) := by
  rw [COMMENT_search]; exact splitHead_spec _ (by decide) l

theorem uncomment_eq {l u : Str} (h : Uncommented cellComments l u) : COMMENT_RE.splitHead l = u :=
  (uncomment l).unique h

theorem isStart_iff (l : Str) : isStart (COMMENT_RE.splitHead l) = true ↔ OpensBlock l := by
  rw [isStart, search_ci _ (py"%block ") (by decide +kernel) (by decide +kernel)]
  constructor
  · rintro ⟨g, k, v, e, h⟩; exact ⟨_, g, k, v, uncomment l, e, h⟩
  · rintro ⟨u, g, k, v, hu, e, h⟩; rw [uncomment_eq hu]; exact ⟨g, k, v, e, h⟩

/-! ### The list of lines as a source -/

theorem listOf (l : List Str) : ListOf (LineSource.next (σ := List Str)) l l := by
  induction l with
  | nil => rw [ListOf.nil_iff]; rfl
  | cons a l ih => rw [ListOf.cons_iff]; exact ⟨l, rfl, ih⟩

instance : LawfulSource (List Str) where
  stop_stays s h := by
    cases s with
    | nil => rfl
    | cons a s => cases h
  bound s l h := by rw [h.unique (listOf s)]; exact Nat.le_refl _

theorem from_re_none {line : Str} (rest : List Str) (h : isStart line = false) :
    ∃ b, Block.from_re line rest isStart isEnd = (.ok b, rest) ∧ b.truthy = false := by
  obtain ⟨b, h1, _, h3⟩ := Props.C11_no_start line rest isStart isEnd 1 false h
  exact ⟨b, h1, h3⟩

theorem fromReLoop_list (blk : List Str) (last : Str) (rest : List Str) (hb : ∀ x ∈ blk, isEnd x = false)
    (hl : isEnd last = true) : ∀ (fuel : Nat) (data : List Str), blk.length < fuel →
    Block.fromReLoop isEnd 1 fuel 0 data (blk ++ last :: rest) = (true, data ++ (blk ++ [last]), rest) := by
  induction blk with
  | nil =>
    intro fuel data hf
    cases fuel with
    | zero => simp at hf
    | succ fuel => simp [Block.fromReLoop, LineSource.next, hl]
  | cons a blk ih =>
    intro fuel data hf
    cases fuel with
    | zero => simp at hf
    | succ fuel =>
      rw [List.cons_append, Block.fromReLoop]
      simp only [LineSource.next, hb a (by simp)]
      rw [if_neg (by simp), ih (fun x hx => hb x (by simp [hx])) fuel _ (by simpa using hf)]
      simp

theorem from_re_block {line : Str} {blk : List Str} {last : Str} (rest : List Str) (h : isStart line = true)
    (hb : ∀ x ∈ blk, isEnd x = false) (hl : isEnd last = true) :
    Block.from_re line (blk ++ last :: rest) isStart isEnd = (.ok ⟨0, 0, line :: (blk ++ [last])⟩, rest) := by
  rw [Block.from_re, h]
  have := fromReLoop_list blk last rest hb hl (LineSource.bound (blk ++ last :: rest) + 1) [line]
    (by simp [LineSource.bound]; omega)
  simp only [this]
  rfl

theorem from_re_eof {line : Str} {l : List Str} (h : isStart line = true) (hb : ∀ x ∈ l, isEnd x = false) :
    ∃ s, Block.from_re line l isStart isEnd = (.error .osError, s) := by
  obtain ⟨⟨s, hs, _⟩, _⟩ := Props.C11_eof line l isStart isEnd 1 l (listOf l) h
    (.inr (by rw [List.countP_eq_zero.2 (fun x hx => by simp [hb x hx])]; decide))
  exact ⟨s, hs⟩

/-! ### Segments -/

/-- What a segment sets, if it sets something. -/
def segment : List Str → PyM (Option (Str × PyVal))
  | [] => .ok none
  | l :: blk =>
    if isStart (COMMENT_RE.splitHead l) then (parseBlock ⟨0, 0, COMMENT_RE.splitHead l :: blk⟩).map some
    else parseSetting (COMMENT_RE.splitHead l)

/-- Apply what a segment sets. -/
def put (curr : Dict Key PyVal) : Option (Str × PyVal) → Dict Key PyVal
  | none => curr
  | some (k, v) => curr.set (.str k) v

/-- Apply segments in turn. -/
def segments : List (List Str) → Dict Key PyVal → PyM (Dict Key PyVal)
  | [], curr => .ok curr
  | s :: ss, curr => do
    let o ← segment s
    segments ss (put curr o)

theorem truthy_start {l : Str} (h : isStart l = true) (n p : _) (blk : List Str) :
    (⟨n, p, l :: blk⟩ : Block).truthy = true := by
  rw [isStart, search_ci _ (py"%block ") (by decide +kernel) (by decide +kernel)] at h
  obtain ⟨g, k, v, rfl, -, hk⟩ := h
  have hm : c!"%" ∈ k := by
    cases k with
    | nil => simp [Str.lower] at hk
    | cons c k =>
      simp only [Str.lower, List.map_cons, List.cons.injEq] at hk
      have : c = 37 := by
        have := hk.1
        by_cases hu : isUpper c = true
        · rw [lowerC, if_pos hu] at this
          simp [isUpper] at hu; omega
        · rwa [lowerC, if_neg hu] at this
      rw [this]; simp
  rw [Block.truthy, List.any_cons]
  have : Str.strip (g ++ k ++ v) ≠ [] := by
    intro h0
    have := (strip_nil_iff _).1 h0 (c!"%") (by simp [hm])
    revert this; decide
  rw [List.isEmpty_eq_false_iff.2 this]; rfl

theorem fileLoop_line (fuel : Nat) (l : Str) (ls : List Str) (c : Dict Key PyVal)
    (h : isStart (COMMENT_RE.splitHead l) = false) :
    fileLoop (fuel + 1) (l :: ls) c = (do let o ← segment [l]; fileLoop fuel ls (put c o)) := by
  obtain ⟨b, h1, h2⟩ := from_re_none (line := COMMENT_RE.splitHead l) ls h
  rw [fileLoop, h1, segment, h]
  simp only [h2, Bool.false_eq_true, if_false]
  cases parseSetting (COMMENT_RE.splitHead l) with
  | error e => rfl
  | ok o => cases o <;> rfl

theorem fileLoop_block (fuel : Nat) (l : Str) (blk : List Str) (last : Str) (ls : List Str) (c : Dict Key PyVal)
    (h : isStart (COMMENT_RE.splitHead l) = true) (hb : ∀ x ∈ blk, isEnd x = false) (hl : isEnd last = true) :
    fileLoop (fuel + 1) (l :: (blk ++ last :: ls)) c =
      (do let o ← segment (l :: (blk ++ [last])); fileLoop fuel ls (put c o)) := by
  rw [fileLoop, from_re_block ls h hb hl, segment, h]
  simp only [truthy_start h, if_true]
  cases parseBlock ⟨0, 0, COMMENT_RE.splitHead l :: (blk ++ [last])⟩ with
  | error e => rfl
  | ok o => rfl

theorem fileLoop_open (fuel : Nat) (l : Str) (ls : List Str) (c : Dict Key PyVal)
    (h : isStart (COMMENT_RE.splitHead l) = true) (hb : ∀ x ∈ ls, isEnd x = false) :
    fileLoop (fuel + 1) (l :: ls) c = .error .osError := by
  obtain ⟨s, hs⟩ := from_re_eof h hb
  rw [fileLoop, hs]

theorem fileLoop_segments {ls : List Str} {ss : List (List Str)} (h : Segments ls ss) :
    ∀ (fuel : Nat) (c : Dict Key PyVal), ls.length ≤ fuel → fileLoop fuel ls c = segments ss c := by
  induction h with
  | nil => intro fuel c _; cases fuel <;> rfl
  | @line l ls ss h _ ih =>
    intro fuel c hf
    cases fuel with
    | zero => simp at hf
    | succ fuel =>
      rw [fileLoop_line _ _ _ _ (by rw [Bool.eq_false_iff]; intro h'; exact h ((isStart_iff l).1 h')), segments]
      congr 1; funext o; exact ih _ _ (by simpa using hf)
  | @block l blk last ls ss h hb hl _ ih =>
    intro fuel c hf
    cases fuel with
    | zero => simp at hf
    | succ fuel =>
      rw [fileLoop_block _ _ _ _ _ _ ((isStart_iff l).2 h)
        (fun x hx => by rw [Bool.eq_false_iff]; intro h'; exact hb x hx ((isEnd_iff x).1 h')) ((isEnd_iff last).2 hl),
        segments]
      congr 1; funext o; exact ih _ _ (by simp at hf; omega)

theorem parse_segments {ls : List Str} {ss : List (List Str)} (h : Segments ls ss) :
    parse_cell_param_file ls = (do let d ← segments ss []; return .list [.dict d]) := by
  rw [parse_cell_param_file, fileLoop_segments h _ _ (by omega)]

/-! ### Segments on their own -/

theorem segments_self {ls : List Str} {ss : List (List Str)} (h : Segments ls ss) : ∀ s ∈ ss, Segments s [s] := by
  induction h with
  | nil => intro s hs; cases hs
  | line h _ ih =>
    intro s hs
    rcases List.mem_cons.1 hs with rfl | hs
    · exact .line h .nil
    · exact ih s hs
  | block h hb hl _ ih =>
    intro s hs
    rcases List.mem_cons.1 hs with rfl | hs
    · exact .block h hb hl .nil
    · exact ih s hs

theorem parse_segment {s : List Str} (h : Segments s [s]) :
    parse_cell_param_file s = (segment s).map fun o => .list [.dict (put [] o)] := by
  rw [parse_segments h, segments]
  cases segment s <;> rfl

theorem segments_cases (ss : List (List Str)) : ∀ c : Dict Key PyVal,
    (∃ os, List.Forall₂ (fun s o => segment s = .ok o) ss os ∧ segments ss c = .ok (os.foldl put c)) ∨
    ∃ ss1 s ss2 e, ss = ss1 ++ s :: ss2 ∧ (∀ x ∈ ss1, ∃ o, segment x = .ok o) ∧ segment s = .error e ∧
      segments ss c = .error e := by
  induction ss with
  | nil => intro c; exact .inl ⟨[], .nil, rfl⟩
  | cons s ss ih =>
    intro c
    cases hs : segment s with
    | error e => exact .inr ⟨[], s, ss, e, rfl, (by intro x hx; cases hx), hs, by rw [segments, hs]; rfl⟩
    | ok o =>
      have e1 : segments (s :: ss) c = segments ss (put c o) := by rw [segments, hs]; rfl
      rcases ih (put c o) with ⟨os, h1, h2⟩ | ⟨ss1, s', ss2, e, h1, h2, h3, h4⟩
      · exact .inl ⟨o :: os, .cons hs h1, by rw [e1, h2]; rfl⟩
      · refine .inr ⟨s :: ss1, s', ss2, e, by simp [h1], ?_, h3, by rw [e1, h4]⟩
        intro x hx
        rcases List.mem_cons.1 hx with rfl | hx
        · exact ⟨o, hs⟩
        · exact h2 x hx

theorem get?_put (c : Dict Key PyVal) (o : Option (Str × PyVal)) (k : Key) :
    (put c o).get? k = ((put [] o).get? k).or (c.get? k) := by
  cases o with
  | none => simp [put, Dict.get?]
  | some kv =>
    obtain ⟨key, v⟩ := kv
    by_cases h : Key.str key = k
    · subst h; simp [put, Dict.get?_set_self]
    · simp only [put]
      rw [Dict.get?_set_ne _ _ _ _ (Ne.symm h), Dict.get?_set_ne _ _ _ _ (Ne.symm h)]
      simp [Dict.get?]

theorem get?_foldl_put (os : List (Option (Str × PyVal))) (k : Key) : ∀ c : Dict Key PyVal,
    (os.foldl put c).get? k = (os.reverse.findSome? fun o => (put [] o).get? k).or (c.get? k) := by
  induction os with
  | nil => intro c; simp
  | cons o os ih =>
    intro c
    rw [List.foldl_cons, ih, get?_put, List.reverse_cons, List.findSome?_append, Option.or_assoc]
    simp

/-- A list of lines splits into segments, possibly followed by a block that is not closed. -/
theorem segments_exist (ls : List Str) :
    (∃ ss, Segments ls ss) ∨
    ∃ pre ss l post, ls = pre ++ l :: post ∧ Segments pre ss ∧ OpensBlock l ∧ ∀ x ∈ post, ¬ ClosesBlock x := by
  have : ∀ n (ls : List Str), ls.length ≤ n → (∃ ss, Segments ls ss) ∨
    ∃ pre ss l post, ls = pre ++ l :: post ∧ Segments pre ss ∧ OpensBlock l ∧ ∀ x ∈ post, ¬ ClosesBlock x := by
    intro n
    induction n with
    | zero => intro ls h; cases ls <;> simp at h; exact .inl ⟨[], .nil⟩
    | succ n ih =>
      intro ls h
      cases ls with
      | nil => exact .inl ⟨[], .nil⟩
      | cons l ls =>
        by_cases ho : isStart (COMMENT_RE.splitHead l) = true
        · rcases Props.C11_cases isEnd ls 1 (by omega) with hc | ⟨blk, last, rest, e, hlast, hc⟩
          · refine .inr ⟨[], [], l, ls, rfl, .nil, (isStart_iff l).1 ho, ?_⟩
            intro x hx hx'
            have := List.countP_eq_zero.1 (show List.countP isEnd ls = 0 by omega) x hx
            exact this ((isEnd_iff x).2 hx')
          · have hb : ∀ x ∈ blk, ¬ ClosesBlock x := by
              intro x hx hx'
              exact List.countP_eq_zero.1 (show List.countP isEnd blk = 0 by omega) x hx ((isEnd_iff x).2 hx')
            subst e
            simp at h
            rcases ih rest (by omega) with ⟨ss, hs⟩ | ⟨pre, ss, l', post, e, hs, h1, h2⟩
            · exact .inl ⟨_, .block ((isStart_iff l).1 ho) hb ((isEnd_iff last).1 hlast) hs⟩
            · refine .inr ⟨l :: (blk ++ last :: pre), _, l', post, by simp [e],
                .block ((isStart_iff l).1 ho) hb ((isEnd_iff last).1 hlast) hs, h1, h2⟩
        · have hn : ¬ OpensBlock l := fun h' => ho ((isStart_iff l).2 h')
          rcases ih ls (by simpa using h) with ⟨ss, hs⟩ | ⟨pre, ss, l', post, e, hs, h1, h2⟩
          · exact .inl ⟨_, .line hn hs⟩
          · exact .inr ⟨l :: pre, _, l', post, by simp [e], .line hn hs, h1, h2⟩
  exact this ls.length ls (Nat.le_refl _)

theorem fileLoop_segments_open {pre : List Str} {ss : List (List Str)} (h : Segments pre ss) (l : Str) (post : List Str)
    (ho : OpensBlock l) (hp : ∀ x ∈ post, ¬ ClosesBlock x) :
    ∀ (fuel : Nat) (c : Dict Key PyVal), pre.length < fuel →
      fileLoop fuel (pre ++ l :: post) c = (do let _ ← segments ss c; .error .osError) := by
  have hp' : ∀ x ∈ post, isEnd x = false := by
    intro x hx; rw [Bool.eq_false_iff]; intro h'; exact hp x hx ((isEnd_iff x).1 h')
  induction h with
  | nil =>
    intro fuel c hf
    cases fuel with
    | zero => simp at hf
    | succ fuel =>
      rw [List.nil_append, fileLoop_open _ _ _ _ ((isStart_iff l).2 ho) hp']
      rfl
  | @line l' ls ss h _ ih =>
    intro fuel c hf
    cases fuel with
    | zero => simp at hf
    | succ fuel =>
      rw [List.cons_append, fileLoop_line _ _ _ _ (by rw [Bool.eq_false_iff]; intro h'; exact h ((isStart_iff l').1 h')),
        segments]
      cases segment [l'] with
      | error e => rfl
      | ok o => exact ih _ _ (by simpa using hf)
  | @block l' blk last ls ss h hb hl _ ih =>
    intro fuel c hf
    cases fuel with
    | zero => simp at hf
    | succ fuel =>
      rw [show l' :: (blk ++ last :: ls) ++ l :: post = l' :: (blk ++ last :: (ls ++ l :: post)) by simp,
        fileLoop_block _ _ _ _ _ _ ((isStart_iff l').2 h)
        (fun x hx => by rw [Bool.eq_false_iff]; intro h'; exact hb x hx ((isEnd_iff x).1 h')) ((isEnd_iff last).2 hl),
        segments]
      cases segment (l' :: (blk ++ [last])) with
      | error e => rfl
      | ok o => exact ih _ _ (by simp at hf; omega)

end Cell
end Verif

/-! ### Comments and trailing whitespace -/

namespace Verif
open Spec Re

theorem wordsAux_blank (g : Str) (hg : Blank g) : ∀ cur : Str,
    Str.wordsAux isSpace cur g = Str.wordsAux isSpace cur [] := by
  induction g with
  | nil => intro; rfl
  | cons c g ih =>
    intro cur
    have hc := hg c (by simp)
    have hn := ih (fun x hx => hg x (by simp [hx])) []
    rw [show Str.wordsAux isSpace cur (c :: g) = _ from rfl]
    simp only [Str.wordsAux, hc, if_true] at hn ⊢
    rw [hn]
    by_cases h : cur.isEmpty = true
    · simp [h]
    · simp [h]

theorem split_append_blank (s g : Str) (hg : Blank g) : Str.split (s ++ g) = Str.split s := by
  have : ∀ cur : Str, Str.wordsAux isSpace cur (s ++ g) = Str.wordsAux isSpace cur s := by
    induction s with
    | nil => intro cur; exact wordsAux_blank g hg cur
    | cons c s ih => intro cur; rw [List.cons_append, Str.wordsAux, Str.wordsAux, ih, ih]
  exact this []

namespace Cell

/-- Not a comment marker. -/
def keepC (c : Nat) : Bool := c != 35 && c != 33

theorem uncommented_takeWhile (l : Str) : Uncommented cellComments l (l.takeWhile keepC) := by
  have hsplit : ∀ (u v : Str) c, c ∈ cellComments → l = u ++ c ++ v → (l.takeWhile keepC).length ≤ u.length := by
    rintro u v c hc rfl
    have : ∃ d, c = [d] ∧ keepC d = false := by
      simp only [cellComments, List.mem_cons, List.not_mem_nil, or_false] at hc
      rcases hc with rfl | rfl <;> exact ⟨_, rfl, rfl⟩
    obtain ⟨d, rfl, hd⟩ := this
    clear hc
    induction u with
    | nil => simp [hd]
    | cons a u ih =>
      by_cases ha : keepC a = true
      · simp only [List.cons_append, List.takeWhile_cons, ha, if_true, List.length_cons]
        have := ih; simp at this ⊢; exact this
      · simp [ha]
  by_cases h : l.takeWhile keepC = l
  · refine .inl ⟨h, ?_⟩
    intro u c hc v e
    have := hsplit u v c hc e
    rw [h, e] at this
    simp only [cellComments, List.mem_cons, List.not_mem_nil, or_false] at hc
    rcases hc with rfl | rfl <;> simp at this <;> omega
  · refine .inr ⟨?_, fun u c hc v e => hsplit u v c hc e⟩
    have hd : l = l.takeWhile keepC ++ l.dropWhile keepC := (List.takeWhile_append_dropWhile).symm
    cases hdw : l.dropWhile keepC with
    | nil => rw [hdw, List.append_nil] at hd; exact absurd hd.symm h
    | cons c v =>
      have hc : keepC c = false := by
        have := List.head?_dropWhile_not keepC l
        rw [hdw] at this; simpa using this
      refine ⟨[c], ?_, v, by rw [hdw] at hd; simpa using hd⟩
      simp only [keepC, Bool.and_eq_false_iff, bne_eq_false_iff_eq] at hc
      rcases hc with rfl | rfl <;> simp [cellComments]

theorem splitHead_eq (l : Str) : COMMENT_RE.splitHead l = l.takeWhile keepC := uncomment_eq (uncommented_takeWhile l)

/-- The text of a line without comment and trailing whitespace. -/
def clean (l : Str) : Str := Str.rstrip (l.takeWhile keepC)

theorem strip_eq (ls : List Str) :
    strip_comments ls (remove_inline := true) = (ls.map clean).filter (fun t => !t.isEmpty) := by
  rw [strip_comments, if_pos rfl]
  induction ls with
  | nil => rfl
  | cons l ls ih =>
    have : Str.rstrip ((commentRe [py"#", py"!"]).splitHead l) = clean l := by
      rw [clean, ← splitHead_eq, COMMENT_search]; rfl
    rw [strip_inline_comments, this, ih, List.map_cons, List.filter_cons]
    cases h : (clean l).isEmpty <;> simp

theorem clean_split (l : Str) : ∃ g, l.takeWhile keepC = clean l ++ g ∧ Blank g :=
  (rstripped_rstrip (l.takeWhile keepC)).1

theorem takeWhile_clean (l : Str) : (clean l).takeWhile keepC = clean l := by
  obtain ⟨g, e, -⟩ := clean_split l
  have h : ∀ c ∈ clean l, keepC c = true := by
    intro c hc
    have : c ∈ l.takeWhile keepC := by rw [e]; simp [hc]
    exact List.all_eq_true.1 List.all_takeWhile c this
  revert h
  generalize clean l = t
  intro h
  induction t with
  | nil => rfl
  | cons c t ih =>
    rw [List.takeWhile_cons, if_pos (h c (by simp)), ih fun x hx => h x (by simp [hx])]

theorem clean_clean (l : Str) : clean (clean l) = clean l := by
  rw [clean, takeWhile_clean]; exact rstrip_idem _

/-- A prefix without comment markers that does not end in whitespace survives. -/
theorem prefix_clean {p l : Str} (h : p <+: l) (hk : ∀ c ∈ p, keepC c = true)
    (hl : ∃ c, p.getLast? = some c ∧ isSpace c = false) : p <+: clean l := by
  have h1 : p <+: l.takeWhile keepC := by
    obtain ⟨v, rfl⟩ := h
    refine ⟨v.takeWhile keepC, ?_⟩
    clear hl
    induction p with
    | nil => rfl
    | cons c p ih =>
      rw [List.cons_append, List.cons_append, List.takeWhile_cons, if_pos (hk c (by simp)),
        ih fun x hx => hk x (by simp [hx])]
  obtain ⟨g, e, hg⟩ := clean_split l
  obtain ⟨v, e'⟩ := h1
  rw [e] at e'
  rcases List.append_eq_append_iff.1 e' with ⟨a, h1, h2⟩ | ⟨a, h1, h2⟩
  · exact ⟨a, h1.symm⟩
  · rcases List.eq_nil_or_concat a with rfl | ⟨a', c, rfl⟩
    · rw [List.append_nil] at h1; exact ⟨[], by rw [h1]; simp⟩
    · exfalso
      obtain ⟨d, hd, hd'⟩ := hl
      rw [List.concat_eq_append] at *
      rw [h1, ← List.append_assoc, List.getLast?_concat] at hd
      cases hd
      have := hg c (by rw [h2]; simp)
      rw [hd'] at this; cases this

theorem clean_prefix (l : Str) : clean l <+: l := by
  obtain ⟨g, e, -⟩ := clean_split l
  exact List.IsPrefix.trans ⟨g, e.symm⟩ (List.takeWhile_prefix _)

theorem lower_mem {k s : Str} (h : Str.lower k = s) {c : Nat} (hc : c ∈ k) : lowerC c ∈ s := by
  rw [← h]; exact List.mem_map.2 ⟨c, hc, rfl⟩

theorem lower_last {k s : Str} (h : Str.lower k = s) : s.getLast? = k.getLast?.map lowerC := by
  rw [← h, Str.lower, List.getLast?_map]

theorem keepC_of_lower {c : Nat} (h : keepC (lowerC c) = true) : keepC c = true := by
  simp only [keepC, Bool.and_eq_true, bne_iff_ne] at *
  simp only [lowerC, isUpper] at h
  constructor
  · rintro rfl; exact h.1 (by decide)
  · rintro rfl; exact h.2 (by decide)

theorem isSpace_of_lower {c : Nat} (h : isSpace (lowerC c) = false) : isSpace c = false := by
  rw [Bool.eq_false_iff] at *
  intro hc; rw [isSpace_lowerC hc] at h; exact h hc

theorem blank_keepC {g : Str} (h : Blank g) : ∀ c ∈ g, keepC c = true := by
  intro c hc
  have := h c hc
  simp only [keepC, Bool.and_eq_true, bne_iff_ne]
  constructor <;> (rintro rfl; revert this; decide)

/-- `g ++ k` with `k` a keyword: no markers and visible at the end. -/
theorem keyword_prefix {g k s l : Str} (hg : Blank g) (hk : Str.lower k = s) (hs : ∀ c ∈ s, keepC c = true)
    (hlast : ∃ c, s.getLast? = some c ∧ isSpace c = false) (h : g ++ k <+: l) : g ++ k <+: clean l := by
  apply prefix_clean h
  · intro c hc
    rcases List.mem_append.1 hc with h | h
    · exact blank_keepC hg c h
    · exact keepC_of_lower (hs _ (lower_mem hk h))
  · obtain ⟨c, h1, h2⟩ := hlast
    rw [lower_last hk] at h1
    cases hl : k.getLast? with
    | none => rw [hl] at h1; cases h1
    | some d =>
      rw [hl] at h1; cases h1
      refine ⟨d, ?_, isSpace_of_lower h2⟩
      rw [List.getLast?_append, hl]; rfl

theorem closes_clean (l : Str) : ClosesBlock (clean l) ↔ ClosesBlock l := by
  constructor
  · rintro ⟨g, k, v, e, hg, hk⟩
    obtain ⟨x, hx⟩ := clean_prefix l
    exact ⟨g, k, v ++ x, by rw [← hx, e]; simp, hg, hk⟩
  · rintro ⟨g, k, v, e, hg, hk⟩
    obtain ⟨x, hx⟩ := keyword_prefix (l := l) hg hk (by decide) ⟨_, rfl, by decide⟩ ⟨v, e.symm⟩
    exact ⟨g, k, x, hx.symm, hg, hk⟩

/-- A line `%block` without a name. -/
def Bare (l : Str) : Prop := ∃ g k, clean l = g ++ k ∧ Blank g ∧ Str.lower k = py"%block"

theorem opens_clean {l : Str} (hb : ¬ Bare l) : OpensBlock (clean l) ↔ OpensBlock l := by
  constructor
  · rintro ⟨u, g, k, v, hu, e, hg, hk⟩
    obtain rfl := hu.unique (uncommented_takeWhile _)
    rw [takeWhile_clean] at e
    obtain ⟨x, hx, -⟩ := clean_split l
    exact ⟨_, g, k, v ++ x, uncommented_takeWhile l, by rw [hx, e]; simp, hg, hk⟩
  · rintro ⟨u, g, k, v, hu, e, hg, hk⟩
    obtain rfl := hu.unique (uncommented_takeWhile _)
    obtain ⟨x, hx, hxb⟩ := clean_split l
    have hpre : g ++ k ++ v <+: l := e ▸ List.takeWhile_prefix _
    rw [e] at hx
    rcases List.append_eq_append_iff.1 hx with ⟨a, h1, h2⟩ | ⟨a, h1, h2⟩
    · exact ⟨_, g, k, a, uncommented_takeWhile _, by rw [takeWhile_clean]; exact h1, hg, hk⟩
    · rcases List.eq_nil_or_concat a with rfl | ⟨a', c, rfl⟩
      · refine ⟨_, g, k, [], uncommented_takeWhile _, ?_, hg, hk⟩
        rw [takeWhile_clean]; rw [List.append_nil] at h1 ⊢; exact h1.symm
      · exfalso
        rw [List.concat_eq_append] at *
        -- the keyword without its space
        rcases List.eq_nil_or_concat k with rfl | ⟨k', d, rfl⟩
        · simp [Str.lower] at hk
        · rw [List.concat_eq_append] at *
          rw [← List.append_assoc, ← List.append_assoc] at h1
          obtain ⟨h3, h4⟩ := List.append_inj' h1 rfl
          have hk' : Str.lower k' = py"%block" := by
            have h5 : Str.lower (k' ++ [d]) = Str.lower k' ++ [lowerC d] := by simp [Str.lower]
            have : Str.lower k' ++ [lowerC d] = py"%block" ++ [32] := h5.symm.trans hk
            exact (List.append_inj' this rfl).1
          have hp := keyword_prefix (l := l) hg hk' (by decide) ⟨_, rfl, by decide⟩
            (List.IsPrefix.trans ⟨[d] ++ v, by simp⟩ hpre)
          have hlen := hp.length_le
          rw [h3, List.length_append] at hlen
          have : a' = [] := List.length_eq_zero_iff.1 (by omega)
          rw [this, List.append_nil] at h3
          exact hb ⟨g, k', h3.symm, hg, hk'⟩

/-! ### Settings -/

/-- The part of the setting pattern before `\s*$`. -/
def paramHead : Re := ((cutTail wsEolCi Res.PARAM_VALUE_RE.re).getD .eps)

theorem param_cut : cutTail wsEolCi Res.PARAM_VALUE_RE.re = some paramHead := by
  have : (cutTail wsEolCi Res.PARAM_VALUE_RE.re).isSome = true := by decide +kernel
  rw [paramHead]
  cases h : cutTail wsEolCi Res.PARAM_VALUE_RE.re with
  | none => rw [h] at this; cases this
  | some r => rfl

theorem param_tame : tame paramHead = true := by decide +kernel
theorem param_ends : endsVisible paramHead = true := by decide +kernel

theorem param_trail (u g : Str) (hg : Blank g) :
    (Res.PARAM_VALUE_RE.match_ (u ++ g)).map (·.caps) = (Res.PARAM_VALUE_RE.match_ u).map (·.caps) := by
  have h := run_trail (β := List (Nat × Str)) paramHead param_tame param_ends g hg ⟨[], u, []⟩ (fun t => some t.caps)
    (fun t t' e => by rw [e]) wsEolCi (fun s => run_wsEolCi s _ (fun t t' e => by rw [e]))
  rw [← run_cutTail _ _ _ param_cut, ← run_cutTail _ _ _ param_cut] at h
  have key : ∀ v : Str, (Res.PARAM_VALUE_RE.match_ v).map (·.caps) =
      run Res.PARAM_VALUE_RE.re ⟨[], v, []⟩ fun t => some t.caps := by
    intro v
    rw [Pat.match_, Pat.matchAt_eq]
    generalize Res.PARAM_VALUE_RE.re = r
    rw [run, run]
    generalize m r ⟨[], v, []⟩ = l
    cases l <;> simp
  rw [key, key]; exact h

theorem match_names {p : Pat} {l : Str} {x : Match} (h : p.match_ l = some x) : x.names = p.names := by
  rw [Pat.match_, Pat.matchAt_eq] at h
  obtain ⟨t, _, rfl⟩ := Option.map_eq_some_iff.1 h
  rfl

theorem settingOf_congr {x y : Match} (hn : x.names = y.names) (hc : x.caps = y.caps) : settingOf x = settingOf y := by
  have hn : ∀ name, x.named name = y.named name := by
    intro name
    rw [Match.named, Match.named, hn]
    simp only [Match.group, hc]
  simp only [settingOf, hn]

theorem settingWith_congr (p : Pat) {u v : Str} (h : (p.match_ u).map (·.caps) = (p.match_ v).map (·.caps)) :
    settingWith p u = settingWith p v := by
  rw [settingWith, settingWith]
  cases h1 : p.match_ u with
  | none =>
    cases h2 : p.match_ v with
    | none => rfl
    | some y => rw [h1, h2] at h; cases h
  | some x =>
    cases h2 : p.match_ v with
    | none => rw [h1, h2] at h; cases h
    | some y =>
      rw [h1, h2] at h
      simp only [settingOf_congr ((match_names h1).trans (match_names h2).symm) (by simpa using h)]

theorem setting_trail (u g : Str) (hg : Blank g) : parseSetting (u ++ g) = parseSetting u := by
  rw [parseSetting]; exact settingWith_congr _ (param_trail u g hg)

theorem settingWith_none {p : Pat} {l : Str} (h : p.match_ l = none) : settingWith p l = .ok none := by
  rw [settingWith, h]

theorem setting_blank (g : Str) (hg : Blank g) : parseSetting g = .ok none := by
  have := setting_trail [] g hg
  rw [List.nil_append] at this
  rw [this, parseSetting]
  exact settingWith_none (by decide +kernel)

/-! ### Segments without comments -/

theorem blank_opens {l : Str} (h : clean l = []) : ¬ OpensBlock l := by
  rintro ⟨u, g, k, v, hu, e, hg, hk⟩
  obtain rfl := hu.unique (uncommented_takeWhile _)
  have hb : Blank (l.takeWhile keepC) := (rstrip_nil_iff _).1 h
  rw [e] at hb
  cases k with
  | nil => simp [Str.lower] at hk
  | cons c k =>
    simp only [Str.lower, List.map_cons, List.cons.injEq] at hk
    have hc := hb c (by simp)
    rw [isSpace_lowerC hc] at hk
    rw [hk.1] at hc; revert hc; decide

theorem blank_closes {l : Str} (h : clean l = []) : ¬ ClosesBlock l := by
  rw [← closes_clean, h]
  rintro ⟨g, k, v, e, hg, hk⟩
  have : k = [] := by
    have := congrArg List.length e
    simp at this
    exact List.length_eq_zero_iff.1 (by omega)
  subst this; simp [Str.lower] at hk

theorem segment_line {l : Str} (h : ¬ OpensBlock l) : segment [l] = parseSetting (clean l) := by
  rw [segment, if_neg (fun h' => h ((isStart_iff l).1 h')), splitHead_eq]
  obtain ⟨g, e, hg⟩ := clean_split l
  rw [e]; exact setting_trail _ _ hg

theorem segment_block {l : Str} (h : OpensBlock l) (blk : List Str) :
    segment (l :: blk) = (match (Str.split (clean l))[1]? with
      | none => .error .indexError
      | some t => do
        let title := Str.lower t
        let v ← parserFor title ⟨0, 0, strip_comments blk (remove_inline := true)⟩
        return some (title, v)) := by
  rw [segment, if_pos ((isStart_iff l).2 h), splitHead_eq, parseBlock]
  obtain ⟨g, e, hg⟩ := clean_split l
  have hs : Str.split (l.takeWhile keepC) = Str.split (clean l) := by rw [e]; exact split_append_blank _ _ hg
  have h1 : Block.next ⟨0, 0, l.takeWhile keepC :: blk⟩ = (.ok (l.takeWhile keepC), ⟨0, 1, l.takeWhile keepC :: blk⟩) := rfl
  rw [h1]
  simp only [hs]
  cases (Str.split (clean l))[1]? with
  | none => rfl
  | some t =>
    show Except.map some (do
      let v ← parserFor (Str.lower t) ⟨0, 0, strip_comments blk (remove_inline := true)⟩
      return (Str.lower t, v)) = (do
      let v ← parserFor (Str.lower t) ⟨0, 0, strip_comments blk (remove_inline := true)⟩
      return some (Str.lower t, v))
    cases parserFor (Str.lower t) ⟨0, 0, strip_comments blk (remove_inline := true)⟩ <;> rfl

/-- Cleaning keeps the segments and what they set. -/
theorem segments_clean {ls : List Str} {ss : List (List Str)} (h : Segments ls ss) (hb : ∀ l ∈ ls, ¬ Bare l) :
    ∃ ss', Segments (strip_comments ls (remove_inline := true)) ss' ∧ ∀ c, segments ss' c = segments ss c := by
  induction h with
  | nil => exact ⟨[], .nil, fun _ => rfl⟩
  | @line l ls ss h _ ih =>
    obtain ⟨ss', h1, h2⟩ := ih fun x hx => hb x (by simp [hx])
    rw [strip_eq] at h1 ⊢
    rw [List.map_cons, List.filter_cons]
    by_cases he : clean l = []
    · refine ⟨ss', by simpa [he] using h1, fun c => ?_⟩
      rw [h2, segments, segment_line h, he, setting_blank [] (by intro c hc; cases hc)]
      rfl
    · have hn : ¬ OpensBlock (clean l) := by rwa [opens_clean (hb l (by simp))]
      refine ⟨[clean l] :: ss', ?_, fun c => ?_⟩
      · rw [if_pos (by simp [he])]; exact .line hn h1
      · rw [segments, segments, segment_line h, segment_line hn, clean_clean]
        congr 1; funext o; exact h2 _
  | @block l blk last ls ss h hbk hl _ ih =>
    obtain ⟨ss', h1, h2⟩ := ih fun x hx => hb x (by simp [hx])
    have ho : OpensBlock (clean l) := by rwa [opens_clean (hb l (by simp))]
    have hne : clean l ≠ [] := fun he => blank_opens he h
    have hne' : clean last ≠ [] := fun he => blank_closes he hl
    rw [strip_eq] at h1 ⊢
    refine ⟨(clean l :: ((blk.map clean).filter (fun t => !t.isEmpty) ++ [clean last])) :: ss', ?_, fun c => ?_⟩
    · rw [List.map_cons, List.filter_cons, if_pos (by simp [hne]), List.map_append, List.filter_append, List.map_cons,
        List.filter_cons, if_pos (by simp [hne'])]
      refine .block ho ?_ ((closes_clean _).2 hl) h1
      intro x hx
      obtain ⟨y, hy, rfl⟩ := List.mem_map.1 (List.mem_filter.1 hx).1
      rw [closes_clean]; exact hbk y hy
    · rw [segments, segments, segment_block h, segment_block ho, clean_clean]
      have : strip_comments ((blk.map clean).filter (fun t => !t.isEmpty) ++ [clean last]) (remove_inline := true)
          = strip_comments (blk ++ [last]) (remove_inline := true) := by
        rw [show (blk.map clean).filter (fun t => !t.isEmpty) ++ [clean last]
          = strip_comments (blk ++ [last]) (remove_inline := true) by
            rw [strip_eq]; simp [hne']]
        exact Props.C20_idempotent _ _ (by decide) true
      rw [this]
      congr 1; funext o; exact h2 _

theorem parse_clean (ls : List Str) (hb : ∀ l ∈ ls, ¬ Bare l) :
    parse_cell_param_file (strip_comments ls (remove_inline := true)) = parse_cell_param_file ls := by
  rcases segments_exist ls with ⟨ss, hs⟩ | ⟨pre, ss, l, post, rfl, hs, h1, h2⟩
  · obtain ⟨ss', hs', he⟩ := segments_clean hs hb
    rw [parse_segments hs', parse_segments hs, he]
  · obtain ⟨ss', hs', he⟩ := segments_clean hs fun x hx => hb x (by simp [hx])
    have ho : OpensBlock (clean l) := by rw [opens_clean (hb l (by simp))]; exact h1
    have hne : clean l ≠ [] := fun he => blank_opens he h1
    have e : strip_comments (pre ++ l :: post) (remove_inline := true) =
        strip_comments pre (remove_inline := true) ++ clean l :: strip_comments post (remove_inline := true) := by
      simp [strip_eq, List.filter_cons, hne]
    have hp : ∀ x ∈ strip_comments post (remove_inline := true), ¬ ClosesBlock x := by
      intro x hx
      rw [strip_eq] at hx
      obtain ⟨y, hy, rfl⟩ := List.mem_map.1 (List.mem_filter.1 hx).1
      rw [closes_clean]; exact h2 y hy
    rw [e, parse_cell_param_file, parse_cell_param_file,
      fileLoop_segments_open hs' _ _ ho hp _ _ (by simp; omega),
      fileLoop_segments_open hs _ _ h1 h2 _ _ (by simp; omega), he]

end Cell
end Verif

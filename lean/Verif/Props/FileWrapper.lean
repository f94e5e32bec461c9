import Verif.Lemmas.FileWrapper
/-
Properties C09–C14: FileWrapper and Block.
-/
namespace Verif.Props
open Verif Verif.Spec

/-! ### C09 -/

/-- C09 (specification sanity): `linesOf` really is the division of the text into lines. -/
theorem C09_linesOf_spec (text : Str) :
    (linesOf text).flatten = text ∧
    (∀ l ∈ linesOf text, ∃ body, 10 ∉ body ∧ (l = body ++ [10] ∨ (l = body ∧ body ≠ []))) ∧
    (∀ l ∈ (linesOf text).dropLast, ∃ body, l = body ++ [10]) := by
  refine ⟨linesOf_flatten text, ?_, ?_⟩
  · induction text with
    | nil => simp [linesOf]
    | cons c cs ih =>
      simp only [linesOf]
      split
      · rename_i hc
        intro l hl
        simp at hl
        rcases hl with rfl | hl
        · exact ⟨[], by simp, .inl (by simp [hc])⟩
        · exact ih l hl
      · rename_i hc
        split
        · intro l hl; simp at hl; subst hl
          exact ⟨[c], by simpa using fun h => hc h.symm, .inr ⟨rfl, by simp⟩⟩
        · rename_i l ls h
          intro m hm
          simp at hm
          rcases hm with rfl | hm
          · obtain ⟨body, h1, h2⟩ := ih l (by rw [h]; simp)
            refine ⟨c :: body, by simp [h1]; exact fun h => hc h.symm, ?_⟩
            rcases h2 with h2 | ⟨h2, _⟩
            · left; simp [h2]
            · right; simp [h2]
          · exact ih m (by rw [h]; simp [hm])
  · induction text with
    | nil => simp [linesOf]
    | cons c cs ih =>
      simp only [linesOf]
      split
      · rename_i hc
        cases hls : linesOf cs with
        | nil => simp
        | cons a as =>
          rw [hls] at ih
          intro l hl
          rw [List.dropLast_cons_of_ne_nil (by simp)] at hl
          simp only [List.mem_cons] at hl
          rcases hl with rfl | hl
          · exact ⟨[], by simp [hc]⟩
          · exact ih l hl
      · split
        · simp
        · rename_i l ls h
          rw [h] at ih
          cases ls with
          | nil => simp
          | cons b bs =>
            intro m hm
            rw [List.dropLast_cons_of_ne_nil (by simp)] at hm ih
            simp only [List.mem_cons] at hm
            rcases hm with rfl | hm
            · obtain ⟨body, hb⟩ := ih l (by simp)
              exact ⟨c :: body, by simp [hb]⟩
            · exact ih m (by simp [hm])

/-- C09.  Iterating a fresh `FileWrapper` yields exactly the lines of the text. -/
theorem C09_iteration (text : Str) :
    ListOf FileWrapper.next (.init ⟨text, 0⟩) (linesOf text) := by
  simpa [FileWrapper.init] using FileWrapper.listOf (.init ⟨text, 0⟩)

/-- C09.  After reading any number of lines, `lineno` is that number. -/
theorem C09_lineno (text : Str) (ls : List Str) (w : FileWrapper)
    (h : Yields FileWrapper.next (.init ⟨text, 0⟩) ls w) : w.lineno_ = ls.length := by
  have key : ∀ (s s' : FileWrapper) l, Yields FileWrapper.next s l s' →
      s'.lineno_ = s.lineno_ + l.length := by
    intro s s' l hy
    induction hy with
    | nil => simp
    | cons s t u a l hn _ ih =>
      have := CountingSource.lineno_next s t a hn
      simp only [LineSource.lineno] at this
      rw [ih, this]; simp; omega
  simpa [FileWrapper.init] using key _ _ _ h

example : linesOf (py"a\n\nbc") = [py"a\n", py"\n", py"bc"] := by decide

/-! ### C10 -/

/-- Commands on a `FileWrapper`. -/
inductive FwOp
  | next | rewind
  deriving DecidableEq, Repr

/-- Perform a history of commands; results of `next` are collected. -/
def runFw (w : FileWrapper) : List FwOp → List (PyM Str) × FileWrapper
  | [] => ([], w)
  | .next :: ops => ((w.next).1 :: (runFw w.next.2 ops).1, (runFw w.next.2 ops).2)
  | .rewind :: ops => runFw w.rewind ops

/-- Abstract state: how many lines are consumed, whether the last command was a successful read,
and how often reading was attempted at the end. -/
structure FwSpec where
  consumed : Nat
  canRewind : Bool
  eofs : Nat

/-- Abstract meaning of a history on the list of lines. -/
def specFw (ls : List Str) (st : FwSpec) : List FwOp → List (PyM Str) × FwSpec
  | [] => ([], st)
  | .next :: ops =>
    match ls[st.consumed]? with
    | some l =>
      let r := specFw ls ⟨st.consumed + 1, true, st.eofs⟩ ops
      (.ok l :: r.1, r.2)
    | none =>
      let r := specFw ls ⟨st.consumed, false, st.eofs + 1⟩ ops
      (.error .stopIteration :: r.1, r.2)
  | .rewind :: ops =>
    if st.canRewind then specFw ls ⟨st.consumed - 1, false, st.eofs⟩ ops
    else specFw ls st ops

/-- Offset of line `k`. -/
def lineOffset (ls : List Str) (k : Nat) : Nat := (ls.take k).flatten.length

/-- Concrete state corresponding to an abstract one. -/
def FwRel (text : Str) (st : FwSpec) (w : FileWrapper) : Prop :=
  w.file.text = text ∧ w.file.pos = lineOffset (linesOf text) st.consumed ∧
  w.lineno_ = st.consumed + st.eofs ∧ st.consumed ≤ (linesOf text).length ∧
  (if st.canRewind then 0 < st.consumed ∧ w.pos_ = lineOffset (linesOf text) (st.consumed - 1)
   else w.pos_ = w.file.pos)

theorem drop_lineOffset (text : Str) (k : Nat) :
    text.drop (lineOffset (linesOf text) k) = ((linesOf text).drop k).flatten := by
  have h : ((linesOf text).take k).flatten ++ ((linesOf text).drop k).flatten = text := by
    rw [← List.flatten_append, List.take_append_drop, linesOf_flatten]
  have e : lineOffset (linesOf text) k = ((linesOf text).take k).flatten.length := rfl
  rw [e]
  generalize ((linesOf text).take k).flatten = a at h ⊢
  generalize ((linesOf text).drop k).flatten = b at h ⊢
  subst h
  simp

theorem flatten_eq_nil_of_ne (ls : List Str) (h : ∀ l ∈ ls, l ≠ []) : ls.flatten = [] ↔ ls = [] := by
  cases ls with
  | nil => simp
  | cons l ls => have := h l (by simp); simp [this]

theorem firstLine_drop (text : Str) (k : Nat) (hk : k < (linesOf text).length) :
    firstLine (text.drop (lineOffset (linesOf text) k)) = (linesOf text)[k] := by
  induction k generalizing text with
  | zero =>
    cases text with
    | nil => simp [linesOf] at hk
    | cons c cs =>
      have := linesOf_eq (c :: cs) (by simp)
      simp only [lineOffset, List.take_zero, List.flatten_nil, List.length_nil, List.drop_zero]
      simp [this]
  | succ k ih =>
    cases text with
    | nil => simp [linesOf] at hk
    | cons c cs =>
      have h := linesOf_eq (c :: cs) (by simp)
      generalize hf : firstLine (c :: cs) = f at h
      have e : (linesOf (c :: cs))[k + 1] = (linesOf ((c :: cs).drop f.length))[k]'(by
          rw [h] at hk; simpa using hk) := by simp [h]
      rw [e, ← ih ((c :: cs).drop f.length) (by rw [h] at hk; simpa using hk)]
      congr 1
      rw [List.drop_drop, lineOffset, lineOffset, h]
      simp

theorem lineOffset_succ (ls : List Str) (k : Nat) (hk : k < ls.length) :
    lineOffset ls (k + 1) = lineOffset ls k + ls[k].length := by
  rw [lineOffset, lineOffset, List.take_succ_eq_append_getElem hk]
  simp only [List.flatten_append, List.length_append, List.flatten_cons, List.flatten_nil,
    List.append_nil]

theorem fwRel_next (text : Str) (st : FwSpec) (w : FileWrapper) (h : FwRel text st w) :
    match (linesOf text)[st.consumed]? with
    | some l => w.next.1 = .ok l ∧ FwRel text ⟨st.consumed + 1, true, st.eofs⟩ w.next.2
    | none => w.next.1 = .error .stopIteration ∧
        FwRel text ⟨st.consumed, false, st.eofs + 1⟩ w.next.2 := by
  obtain ⟨h1, h2, h3, h4, h5⟩ := h
  by_cases hk : st.consumed < (linesOf text).length
  · rw [List.getElem?_eq_getElem hk]
    have hne : w.file.text.drop w.file.pos ≠ [] := by
      rw [h1, h2, drop_lineOffset, Ne, flatten_eq_nil_of_ne _ fun l hl =>
        linesOf_ne_nil text l (List.mem_of_mem_drop hl)]
      intro h
      have := congrArg List.length h
      simp at this; omega
    have hfl : firstLine (w.file.text.drop w.file.pos) = (linesOf text)[st.consumed] := by
      rw [h1, h2, firstLine_drop text _ hk]
    rw [FileWrapper.next_eq, if_neg hne, hfl]
    refine ⟨rfl, h1, ?_, ?_, hk, ?_⟩
    · simp only; rw [lineOffset_succ _ _ hk, h2]
    · simp only; rw [h3]; push_cast; omega
    · simp [h2]
  · rw [List.getElem?_eq_none (by omega)]
    have hnil : w.file.text.drop w.file.pos = [] := by
      rw [h1, h2, drop_lineOffset, List.drop_of_length_le (by omega)]; rfl
    rw [FileWrapper.next_eq, if_pos hnil]
    refine ⟨rfl, h1, h2, ?_, h4, ?_⟩
    · simp only; rw [h3]; push_cast; omega
    · simp

theorem fwRel_rewind (text : Str) (st : FwSpec) (w : FileWrapper) (h : FwRel text st w) :
    FwRel text (if st.canRewind then ⟨st.consumed - 1, false, st.eofs⟩ else st) w.rewind := by
  have h' := h
  obtain ⟨h1, h2, h3, h4, h5⟩ := h
  by_cases hc : st.canRewind = true
  · rw [if_pos hc] at h5 ⊢
    have hk : st.consumed - 1 < (linesOf text).length := by omega
    have hlen : 0 < ((linesOf text)[st.consumed - 1]).length :=
      List.length_pos_iff.2 (linesOf_ne_nil text _ (List.getElem_mem hk))
    have hs := lineOffset_succ (linesOf text) (st.consumed - 1) hk
    rw [Nat.sub_add_cancel h5.1] at hs
    have hne : ¬ w.file.tell = w.pos_ := by simp only [TFile.tell]; omega
    rw [FileWrapper.rewind, if_neg hne]
    refine ⟨h1, ?_, ?_, ?_, ?_⟩
    · simp [TFile.seek, h5.2]
    · simp only; rw [h3]; omega
    · simp only; omega
    · simp [TFile.seek]
  · rw [if_neg hc] at h5 ⊢
    have he : w.file.tell = w.pos_ := by simp [TFile.tell, h5]
    rw [FileWrapper.rewind, if_pos he]
    exact h'

theorem fwRel_init (text : Str) : FwRel text ⟨0, false, 0⟩ (.init ⟨text, 0⟩) := by
  simp [FwRel, FileWrapper.init, lineOffset]

/-- C10.  Every history of `next`/`rewind` on a fresh wrapper returns what the abstract machine on
the list of lines returns: `rewind` undoes exactly the last successful `next` and is otherwise
without effect.  Moreover `lineno` is the number of lines consumed plus the number of reads
attempted at the end of the file. -/
theorem C10_history (text : Str) (ops : List FwOp) :
    (runFw (.init ⟨text, 0⟩) ops).1 = (specFw (linesOf text) ⟨0, false, 0⟩ ops).1 ∧
    (runFw (.init ⟨text, 0⟩) ops).2.lineno_ =
      (specFw (linesOf text) ⟨0, false, 0⟩ ops).2.consumed +
      (specFw (linesOf text) ⟨0, false, 0⟩ ops).2.eofs ∧
    ListOf FileWrapper.next (runFw (.init ⟨text, 0⟩) ops).2
      ((linesOf text).drop (specFw (linesOf text) ⟨0, false, 0⟩ ops).2.consumed) := by
  have key : ∀ ops (st : FwSpec) (w : FileWrapper), FwRel text st w →
      (runFw w ops).1 = (specFw (linesOf text) st ops).1 ∧
      FwRel text (specFw (linesOf text) st ops).2 (runFw w ops).2 := by
    intro ops
    induction ops with
    | nil => intro st w h; exact ⟨rfl, h⟩
    | cons op ops ih =>
      intro st w h
      cases op with
      | next =>
        have hn := fwRel_next text st w h
        rw [runFw, specFw]
        cases hg : (linesOf text)[st.consumed]? with
        | none =>
          rw [hg] at hn
          have := ih _ _ hn.2
          simp only [hn.1, this.1, true_and]
          exact this.2
        | some l =>
          rw [hg] at hn
          have := ih _ _ hn.2
          simp only [hn.1, this.1, true_and]
          exact this.2
      | rewind =>
        have hr := fwRel_rewind text st w h
        rw [runFw, specFw]
        have := ih _ _ hr
        by_cases hc : st.canRewind = true
        · simpa only [if_pos hc] using this
        · simpa only [if_neg hc] using this
  obtain ⟨h1, h2⟩ := key ops _ _ (fwRel_init text)
  refine ⟨h1, h2.2.2.1, ?_⟩
  have := FileWrapper.listOf (runFw (.init ⟨text, 0⟩) ops).2
  rw [h2.1, h2.2.1, drop_lineOffset] at this
  have hflat : ∀ k, linesOf (((linesOf text).drop k).flatten) = (linesOf text).drop k := by
    intro k
    induction k generalizing text with
    | zero => simp [linesOf_flatten]
    | succ k ih2 =>
      cases text with
      | nil => simp [linesOf]
      | cons c cs =>
        rw [linesOf_eq (c :: cs) (by simp)]
        simp only [List.drop_succ_cons]
        -- strip the first line
        have : ∀ t : Str, linesOf (((linesOf t).drop k).flatten) = (linesOf t).drop k := by
          intro t
          clear this h1 h2 key ih2
          induction k generalizing t with
          | zero => simp [linesOf_flatten]
          | succ k ih3 =>
            cases t with
            | nil => simp [linesOf]
            | cons d ds =>
              rw [linesOf_eq (d :: ds) (by simp)]
              simp only [List.drop_succ_cons]
              exact ih3 _
        exact this _
  rw [hflat] at this
  exact this

/-- C10.  Corollary in the words of the property: after any history ending in a successful `next`
that returned `l`, a `rewind` makes the following `next` return `l` again, and a second `rewind`
in a row changes nothing. -/
theorem C10_rewind_undoes (text : Str) (ops : List FwOp) (l : Str)
    (h : (runFw (.init ⟨text, 0⟩) ops).2.next.1 = .ok l) :
    let w := (runFw (.init ⟨text, 0⟩) ops).2
    w.next.2.rewind.next = w.next ∧ w.next.2.rewind.rewind = w.next.2.rewind ∧
    w.next.2.rewind.lineno_ = w.lineno_ := by
  intro w
  have hw : w.next.1 = .ok l := h
  rw [FileWrapper.next_eq] at hw
  by_cases hd : w.file.text.drop w.file.pos = []
  · rw [if_pos hd] at hw; cases hw
  · have hlen : 0 < (firstLine (w.file.text.drop w.file.pos)).length :=
      List.length_pos_iff.2 (mt (firstLine_eq_nil _).1 hd)
    have hr : w.next.2.rewind = ⟨w.file, w.file.pos, w.lineno_⟩ := by
      rw [FileWrapper.next_eq, if_neg hd, FileWrapper.rewind, if_neg (by simp only [TFile.tell]; omega)]
      simp [TFile.seek]
    refine ⟨?_, ?_, ?_⟩
    · rw [hr, FileWrapper.next_eq, FileWrapper.next_eq w]
    · rw [hr, FileWrapper.rewind, if_pos (by simp [TFile.tell])]
    · rw [hr]

/-- The claim "`lineno` always equals the number of lines consumed" fails: a read at the end of the
file advances it although no line is read, and `rewind` does not take that back. -/
theorem C10_lineno_drift :
    ∃ (text : Str) (ops : List FwOp),
      (runFw (.init ⟨text, 0⟩) ops).2.lineno_ ≠
        (specFw (linesOf text) ⟨0, false, 0⟩ ops).2.consumed :=
  ⟨py"a\n", [.next, .next, .rewind], by decide⟩

/-- C10, line count, what holds: `lineno` equals the number of lines consumed in every history that
does not read at the end of the file (missing: see `C10_lineno_drift`). -/
theorem C10_lineno_partial (text : Str) (ops : List FwOp)
    (h : ∀ r ∈ (runFw (.init ⟨text, 0⟩) ops).1, r ≠ .error .stopIteration) :
    (runFw (.init ⟨text, 0⟩) ops).2.lineno_ =
      (specFw (linesOf text) ⟨0, false, 0⟩ ops).2.consumed := by
  obtain ⟨h1, h2, _⟩ := C10_history text ops
  rw [h1] at h
  have key : ∀ ops st, (∀ r ∈ (specFw (linesOf text) st ops).1, r ≠ .error .stopIteration) →
      (specFw (linesOf text) st ops).2.eofs = st.eofs := by
    intro ops
    induction ops with
    | nil => intro st _; rfl
    | cons op ops ih =>
      intro st hs
      cases op with
      | next =>
        rw [specFw] at hs ⊢
        cases hg : (linesOf text)[st.consumed]? with
        | none => rw [hg] at hs; exact absurd rfl (hs _ (by simp))
        | some l =>
          rw [hg] at hs
          simp only at hs ⊢
          exact ih _ fun r hr => hs r (by simp [hr])
      | rewind =>
        rw [specFw] at hs ⊢
        by_cases hc : st.canRewind = true
        · simp only [if_pos hc] at hs ⊢; exact ih _ hs
        · simp only [if_neg hc] at hs ⊢; exact ih _ hs
  rw [h2, key ops _ h]; simp

example : (runFw (.init ⟨py"a\nb\nc", 0⟩) [.next, .next, .rewind, .rewind, .next, .next]).1 =
    [.ok (py"a\n"), .ok (py"b\n"), .ok (py"b\n"), .ok (py"c")] := by decide

/-! ### C11 -/

section
variable {σ : Type} [LineSource σ] [LawfulSource σ]

omit [LawfulSource σ] in
/-- C11.  If the start pattern does not match, the result is the empty (falsy) block and the source
is untouched. -/
theorem C11_no_start (line : Str) (s : σ) (startP endP : Str → Bool) (n : Int) (eof : Bool)
    (h : startP line = false) :
    ∃ b, Block.from_re line s startP endP n eof = (.ok b, s) ∧ b.data = [] ∧ b.truthy = false := by
  refine ⟨_, by rw [Block.from_re, h]; rfl, rfl, rfl⟩

/-- C11.  If it matches and the source's lines are `blk ++ [last] ++ rest`, where `last` is the
`n`-th match of the end pattern, the block is `line :: blk ++ [last]` and the source continues with
`rest`. -/
theorem C11_block (line : Str) (s : σ) (startP endP : Str → Bool) (n : Int) (eof : Bool)
    (blk : List Str) (last : Str) (rest : List Str)
    (hs : ListOf LineSource.next s (blk ++ last :: rest)) (hstart : startP line = true)
    (hlast : endP last = true) (hn : (blk.countP endP : Int) + 1 = n) :
    ∃ b s', Block.from_re line s startP endP n eof = (.ok b, s') ∧
      b.data = line :: blk ++ [last] ∧ ListOf LineSource.next s' rest := by
  have hb := LawfulSource.bound s _ hs
  obtain ⟨s', h1, _, h3⟩ := Block.fromReLoop_found endP n blk last rest
    (LineSource.bound s + 1) 0 [line] s hs hlast (by omega) (by simp at hb; omega)
  exact ⟨_, s', by rw [Block.from_re, hstart]; simp only [h1]; rfl, by simp, h3⟩

/-- C11.  If it matches but the source has fewer than `n` matches of the end pattern (or `n ≤ 0`),
`OSError` is raised, or with `eof_possible` the block is everything left. -/
theorem C11_eof (line : Str) (s : σ) (startP endP : Str → Bool) (n : Int) (l : List Str)
    (hs : ListOf LineSource.next s l) (hstart : startP line = true)
    (hn : n ≤ 0 ∨ (l.countP endP : Int) < n) :
    (∃ s', Block.from_re line s startP endP n false = (.error .osError, s') ∧
      ListOf LineSource.next s' []) ∧
    (∃ b s', Block.from_re line s startP endP n true = (.ok b, s') ∧
      b.data = line :: l ∧ ListOf LineSource.next s' []) := by
  have hb := LawfulSource.bound s _ hs
  obtain ⟨s', h1, h3⟩ := Block.fromReLoop_eof endP n l
    (LineSource.bound s + 1) 0 [line] s hs (by omega) (by omega)
  exact ⟨⟨s', by rw [Block.from_re, hstart]; simp only [h1]; rfl, h3⟩,
    ⟨_, s', by rw [Block.from_re, hstart]; simp only [h1]; rfl, by simp, h3⟩⟩

end

/-- C11: the two cases above cover every source: either the `n`-th match exists or there are fewer
than `n` matches. -/
theorem C11_cases (endP : Str → Bool) (l : List Str) (n : Nat) (hn : 0 < n) :
    l.countP endP < n ∨
    ∃ blk last rest, l = blk ++ last :: rest ∧ endP last = true ∧ blk.countP endP + 1 = n := by
  induction l generalizing n with
  | nil => left; simpa using hn
  | cons a l ih =>
    by_cases ha : endP a = true
    · rw [List.countP_cons_of_pos ha]
      by_cases h1 : n = 1
      · right; exact ⟨[], a, l, by simp, ha, by simp [h1]⟩
      · rcases ih (n - 1) (by omega) with h | ⟨blk, last, rest, e, h1, h2⟩
        · left; omega
        · right
          exact ⟨a :: blk, last, rest, by simp [e], h1, by rw [List.countP_cons_of_pos ha]; omega⟩
    · rw [List.countP_cons_of_neg ha]
      rcases ih n hn with h | ⟨blk, last, rest, e, h1, h2⟩
      · left; exact h
      · right
        exact ⟨a :: blk, last, rest, by simp [e], h1, by rw [List.countP_cons_of_neg ha]; exact h2⟩

/-- C11 hypotheses: a file with text after the block, ended by the second terminator. -/
example : ListOf FileWrapper.next (.init ⟨py"x\nend\ny\nend\nz\n", 0⟩)
      ([py"x\n", py"end\n", py"y\n"] ++ py"end\n" :: [py"z\n"]) ∧
    ([py"x\n", py"end\n", py"y\n"].countP (Str.contains (py"end")) : Int) + 1 = 2 := by
  refine ⟨?_, by decide⟩
  have : linesOf (py"x\nend\ny\nend\nz\n") = [py"x\n", py"end\n", py"y\n"] ++ py"end\n" :: [py"z\n"] := by
    decide
  rw [← this]; exact C09_iteration _

/-! ### C12 -/

section
variable {σ : Type} [LineSource σ] [LawfulSource σ]

/-- C12, what holds: with at least `n + 1` lines left the block is the next `n` lines — but one more
line than requested has been consumed from the source (missing from the property: the source is
positioned one line too far, and exactly `n` remaining lines are refused, see below). -/
theorem C12_lines_partial (s : σ) (n : Nat) (eof : Bool) (l : List Str) (x : Str) (rest : List Str)
    (hl : l.length = n) (hs : ListOf LineSource.next s (l ++ x :: rest)) :
    ∃ b s', Block.get_lines s n eof = (.ok b, s') ∧ b.data = l ∧ ListOf LineSource.next s' rest := by
  have hb := LawfulSource.bound s _ hs
  obtain ⟨s', h1, _, h3⟩ := Block.getLinesLoop_more (n : Int) 1 l x rest (LineSource.bound s + 1) []
    s hs (by omega) (by simp at hb; omega)
  exact ⟨_, s', by rw [Block.get_lines]; simp only [h1]; rfl, by simp, h3⟩

/-- C12, end of file: with at most `n` lines left (in particular with exactly `n`), `OSError` is
raised unless `eof_possible`, in which case the block is all of them. -/
theorem C12_eof (s : σ) (n : Nat) (l : List Str) (hl : l.length ≤ n)
    (hs : ListOf LineSource.next s l) :
    (∃ s', Block.get_lines s n false = (.error .osError, s')) ∧
    (∃ b s', Block.get_lines s n true = (.ok b, s') ∧ b.data = l ∧ ListOf LineSource.next s' []) := by
  have hb := LawfulSource.bound s _ hs
  obtain ⟨s', h1, h3⟩ := Block.getLinesLoop_eof (n : Int) 1 l (LineSource.bound s + 1) [] s hs
    (by right; omega) (by omega)
  exact ⟨⟨s', by rw [Block.get_lines]; simp only [h1]; rfl⟩,
    ⟨_, s', by rw [Block.get_lines]; simp only [h1]; rfl, by simp, h3⟩⟩

end

/-- The property C12 fails: a file of exactly one line cannot be read with `get_lines(f, 1)`. -/
theorem C12_exact_count_refused :
    ∃ (text : Str) (w : FileWrapper), linesOf text = [py"a\n"] ∧
      Block.get_lines (FileWrapper.init ⟨text, 0⟩) 1 = (.error .osError, w) :=
  ⟨py"a\n", _, by decide, by rfl⟩

/-- The property C12 fails: reading one line leaves the file after the second. -/
theorem C12_extra_line_lost :
    ∃ (text : Str) (b : Block) (w : FileWrapper), linesOf text = [py"a\n", py"b\n", py"c\n"] ∧
      Block.get_lines (FileWrapper.init ⟨text, 0⟩) 1 = (.ok b, w) ∧ b.data = [py"a\n"] ∧
      w.next.1 = .ok (py"c\n") :=
  ⟨py"a\nb\nc\n", _, _, by decide, by rfl, by decide, by decide⟩

example : ListOf FileWrapper.next (.init ⟨py"a\nb\nc\n", 0⟩) ([py"a\n", py"b\n"] ++ py"c\n" :: []) :=
  C09_iteration (py"a\nb\nc\n")

/-! ### C13 -/

/-- Perform a history of `next`/`rewind` on a block, collecting results (`none` for a successful
`rewind`). -/
def runBlock (b : Block) : List FwOp → List (PyM (Option Str)) × Block
  | [] => ([], b)
  | .next :: ops => (b.next.1.map some :: (runBlock b.next.2 ops).1, (runBlock b.next.2 ops).2)
  | .rewind :: ops =>
    (b.rewind.1.map (fun _ => none) :: (runBlock b.rewind.2 ops).1, (runBlock b.rewind.2 ops).2)

/-- Abstract meaning on the list of lines with running position `p`; `none` when the history steps
outside (reads past the end). -/
def specBlock (data : List Str) (p : Nat) : List FwOp → Option (List (PyM (Option Str)) × Nat)
  | [] => some ([], p)
  | .next :: ops => do
    let l ← data[p]?
    let (out, q) ← specBlock data (p + 1) ops
    return (.ok (some l) :: out, q)
  | .rewind :: ops =>
    if p = 0 then do
      let (out, q) ← specBlock data 0 ops
      return (.error .valueError :: out, q)
    else do
      let (out, q) ← specBlock data (p - 1) ops
      return (.ok none :: out, q)

/-- C13.  Iterating a fresh block yields its lines. -/
theorem C13_iteration (lineno : Int) (data : List Str) :
    ListOf Block.next ⟨lineno, 0, data⟩ data := by
  simpa using Block.listOf ⟨lineno, 0, data⟩

/-- C13.  Any history staying inside the block behaves as a cursor on the list of lines; afterwards
the block yields the lines from the running position on. -/
theorem C13_history (lineno : Int) (data : List Str) (ops : List FwOp) (p q : Nat)
    (out : List (PyM (Option Str))) (h : specBlock data p ops = some (out, q)) :
    runBlock ⟨lineno, p, data⟩ ops = (out, ⟨lineno, q, data⟩) ∧
    ListOf Block.next ⟨lineno, q, data⟩ (data.drop q) := by
  refine ⟨?_, Block.listOf ⟨lineno, q, data⟩⟩
  induction ops generalizing p out with
  | nil => simp [specBlock] at h; simp [runBlock, h]
  | cons op ops ih =>
    cases op with
    | next =>
      simp only [specBlock, Option.bind_eq_bind, Option.bind_eq_some_iff, Option.pure_def,
        Option.some.injEq] at h
      obtain ⟨l, hl, ⟨o, q'⟩, ho, he⟩ := h
      simp only [Prod.mk.injEq] at he
      obtain ⟨rfl, rfl⟩ := he
      have := ih (p + 1) o ho
      simp [runBlock, Block.next, hl, this, Except.map]
    | rewind =>
      simp only [specBlock] at h
      by_cases hp : p = 0
      · subst hp
        simp only [if_true, Option.bind_eq_bind, Option.bind_eq_some_iff, Option.pure_def,
          Option.some.injEq] at h
        obtain ⟨⟨o, q'⟩, ho, he⟩ := h
        simp only [Prod.mk.injEq] at he
        obtain ⟨rfl, rfl⟩ := he
        have := ih 0 o ho
        simp [runBlock, Block.rewind, this, Except.map]
      · simp only [if_neg hp, Option.bind_eq_bind, Option.bind_eq_some_iff, Option.pure_def,
          Option.some.injEq] at h
        obtain ⟨⟨o, q'⟩, ho, he⟩ := h
        simp only [Prod.mk.injEq] at he
        obtain ⟨rfl, rfl⟩ := he
        have := ih (p - 1) o ho
        simp [runBlock, Block.rewind, this, Except.map, hp]

/-- C13.  Unlike a `FileWrapper`, an exhausted block counts further reads: after two reads past the
end, one `rewind` does not bring the last line back into reach. -/
theorem C13_overrun :
    ∃ data : List Str, (runBlock ⟨0, 0, data⟩ [.next, .next, .next, .rewind, .rewind, .next]).1 =
      [.ok (some (py"a")), .error .stopIteration, .error .stopIteration, .ok none, .ok none,
        .error .stopIteration] :=
  ⟨[py"a"], by decide⟩

example : specBlock [py"a", py"b", py"c"] 0 [.next, .next, .rewind, .next, .rewind, .rewind, .rewind] =
    some ([.ok (some (py"a")), .ok (some (py"b")), .ok none, .ok (some (py"b")), .ok none, .ok none,
      .error .valueError], 0) := by decide

/-! ### C14 -/

/-- `Tracks s ls`: the source `s` is in step with a file whose lines are `ls`: the line it would
yield `j` steps from now is line number `lineno + 1 + j` (counting from 1) of the file. -/
def Tracks {σ : Type} [LineSource σ] (s : σ) (ls : List Str) : Prop :=
  0 ≤ LineSource.lineno s ∧
  ∀ l, ListOf LineSource.next s l → ∀ j a, l[j]? = some a →
    ls[(LineSource.lineno s).toNat + j]? = some a

/-- C14.  A fresh `FileWrapper` is in step. -/
theorem C14_fresh (text : Str) : Tracks (FileWrapper.init ⟨text, 0⟩) (linesOf text) := by
  refine ⟨by simp [LineSource.lineno, FileWrapper.init], ?_⟩
  intro l hl j a hj
  have := hl.unique (C09_iteration text)
  subst this
  simpa [LineSource.lineno, FileWrapper.init] using hj

/-- C14.  Reading a line keeps a source in step, and afterwards `lineno` is the number of the line
just read. -/
theorem C14_next {σ : Type} [LineSource σ] [CountingSource σ] (s s' : σ) (ls : List Str) (a : Str)
    (h : Tracks s ls) (hl : ∃ l, ListOf LineSource.next s l) (hn : LineSource.next s = (.ok a, s')) :
    Tracks s' ls ∧ 1 ≤ LineSource.lineno s' ∧
      ls[(LineSource.lineno s').toNat - 1]? = some a := by
  have hlin := CountingSource.lineno_next s s' a hn
  obtain ⟨l, hl⟩ := hl
  obtain ⟨m, rfl⟩ : ∃ m, l = a :: m := by
    cases l with
    | nil => rw [ListOf.nil_iff, hn] at hl; cases hl
    | cons b m =>
      obtain ⟨s₁, h1, _⟩ := ListOf.cons_iff.1 hl
      rw [hn] at h1; cases h1; exact ⟨m, rfl⟩
  obtain ⟨h0, h1⟩ := h
  refine ⟨⟨by omega, ?_⟩, by omega, ?_⟩
  · intro l' hl' j b hj
    have := h1 (a :: l') (ListOf.cons_iff.2 ⟨s', hn, hl'⟩) (j + 1) b (by simpa using hj)
    rw [hlin]
    have e : (LineSource.lineno s + 1).toNat + j = (LineSource.lineno s).toNat + (j + 1) := by omega
    rw [e]; exact this
  · have := h1 _ hl 0 a (by simp)
    rw [hlin]
    have e : (LineSource.lineno s + 1).toNat - 1 = (LineSource.lineno s).toNat + 0 := by omega
    rw [e]; exact this

theorem Yields.lineno {σ : Type} [LineSource σ] [CountingSource σ] {s s' : σ} {l : List Str}
    (h : Yields LineSource.next s l s') :
    LineSource.lineno s' = LineSource.lineno s + l.length := by
  induction h with
  | nil => simp
  | cons s t u a l hn _ ih =>
    rw [ih, CountingSource.lineno_next s t a hn]; simp; omega

/-- C14.  A block cut out by `from_re` at the line just read (`lineno` is its number) is itself in
step with the file. -/
theorem C14_from_re {σ : Type} [LineSource σ] [CountingSource σ] (line : Str) (s s' : σ)
    (startP endP : Str → Bool) (n : Int) (eof : Bool) (b : Block) (ls : List Str)
    (h : Tracks s ls) (hl : ∃ l, ListOf LineSource.next s l)
    (h1 : 1 ≤ LineSource.lineno s) (hline : ls[(LineSource.lineno s).toNat - 1]? = some line)
    (hb : Block.from_re line s startP endP n eof = (.ok b, s')) :
    Tracks b ls := by
  obtain ⟨l, hl⟩ := hl
  have hb0 : b.p_ = 0 ∧ b.lineno_ = LineSource.lineno s ∧ (b.data = [] ∨ ∃ blk, blk <+: l ∧ b.data = line :: blk) := by
    by_cases hst : startP line = true
    · by_cases hn : n ≤ 0 ∨ (l.countP endP : Int) < n
      · have hbd := LawfulSource.bound s _ hl
        obtain ⟨s₁, e, _⟩ := Block.fromReLoop_eof endP n l
          (LineSource.bound s + 1) 0 [line] s hl (by omega) (by omega)
        rw [Block.from_re, hst] at hb
        simp only [e] at hb
        cases eof
        · simp at hb
        · simp at hb
          obtain ⟨rfl, _⟩ := hb
          exact ⟨rfl, rfl, .inr ⟨l, List.prefix_refl _, by simp⟩⟩
      · rcases C11_cases endP l n.toNat (by omega) with hc | ⟨blk, last, rest, e, hlast, hc⟩
        · omega
        · have hbd := LawfulSource.bound s _ hl
          obtain ⟨s₁, e1, _⟩ := Block.fromReLoop_found endP n blk last rest
            (LineSource.bound s + 1) 0 [line] s (e ▸ hl) hlast (by omega)
            (by rw [e] at hbd; simp at hbd; omega)
          rw [Block.from_re, hst] at hb
          simp only [e1] at hb
          simp at hb
          obtain ⟨rfl, _⟩ := hb
          exact ⟨rfl, rfl, .inr ⟨blk ++ [last], ⟨rest, by simp [e]⟩, by simp⟩⟩
    · simp at hst
      rw [Block.from_re, hst] at hb
      simp at hb
      obtain ⟨rfl, _⟩ := hb
      exact ⟨rfl, rfl, .inl rfl⟩
  obtain ⟨hp, hlno, hd⟩ := hb0
  have hbl : LineSource.lineno b = LineSource.lineno s - 1 := by
    simp only [LineSource.lineno] at *
    simp [Block.lineno, hp, hlno]; omega
  refine ⟨by omega, ?_⟩
  intro l' hl' j a hj
  have := hl'.unique (Block.listOf b)
  subst this
  rw [hp, List.drop_zero] at hj
  rw [hbl]
  rcases hd with hd | ⟨blk, hpre, hd⟩
  · rw [hd] at hj; simp at hj
  · rw [hd] at hj
    cases j with
    | zero =>
      simp at hj; subst hj
      have e : (LineSource.lineno s - 1).toNat + 0 = (LineSource.lineno s).toNat - 1 := by omega
      rw [e]; exact hline
    | succ j =>
      simp at hj
      have : l[j]? = some a := by
        obtain ⟨t, rfl⟩ := hpre
        rw [List.getElem?_append_left (by
          have := List.getElem?_eq_some_iff.1 hj; exact this.1)]
        exact hj
      have := h.2 l hl j a this
      have e : (LineSource.lineno s - 1).toNat + (j + 1) = (LineSource.lineno s).toNat + j := by omega
      rw [e]; exact this

/-- C14.  Removing bounding lines keeps a block in step. -/
theorem C14_remove_bounds (b : Block) (ls : List Str) (h : Tracks b ls) (fore back : Nat) :
    Tracks (b.remove_bounds fore back) ls := by
  obtain ⟨h0, h1⟩ := h
  simp only [LineSource.lineno, Block.lineno] at h0 h1
  refine ⟨by simp [LineSource.lineno, Block.lineno, Block.remove_bounds]; omega, ?_⟩
  intro l hl j a hj
  have := hl.unique (Block.listOf _)
  subst this
  have hj' : b.data[b.p_ + fore + j]? = some a := by
    simp only [Block.remove_bounds, Block.sliceBounds] at hj
    split at hj
    · rw [List.drop_drop, List.getElem?_drop] at hj
      rw [← hj]; congr 1; omega
    · rw [List.drop_drop, List.getElem?_drop] at hj
      have hlt := (List.getElem?_eq_some_iff.1 hj).1
      rw [List.getElem?_take_of_lt (by simp at hlt; omega)] at hj
      rw [← hj]; congr 1; omega
  have := h1 _ (Block.listOf b) (fore + j) a (by rw [List.getElem?_drop, ← hj']; congr 1; omega)
  simp only [LineSource.lineno, Block.lineno, Block.remove_bounds]
  rw [← this]; congr 1; omega

/-- C14.  `remove_bounds` takes away exactly the first `fore` and the last `back` lines. -/
theorem C14_remove_bounds_content (b : Block) (pre mid post : List Str) (h : b.data = pre ++ mid ++ post) :
    (b.remove_bounds pre.length post.length).data = mid ∧ (b.remove_bounds pre.length post.length).p_ = b.p_ := by
  refine ⟨?_, rfl⟩
  simp only [Block.remove_bounds, Block.sliceBounds, h]
  split
  · rename_i h0
    rw [List.length_eq_zero_iff.1 h0]; simp
  · rw [List.take_left' (by simp; omega), List.drop_left' rfl]

example : (Block.remove_bounds ⟨3, 0, [py"a", py"b", py"c", py"d"]⟩ 1 2).data = [py"b"] := by decide

/-- Hypotheses of C14 on a concrete file: second line just read. -/
example : ∃ w, Yields FileWrapper.next (.init ⟨py"a\nb\nc\nd\n", 0⟩) [py"a\n", py"b\n"] w ∧
    w.lineno_ = 2 ∧ (linesOf (py"a\nb\nc\nd\n"))[w.lineno_.toNat - 1]? = some (py"b\n") :=
  ⟨_, .cons _ _ _ _ _ rfl (.cons _ _ _ _ _ rfl (.nil _)), by decide, by decide⟩

/-- C14 does not extend to `get_lines`: the first line of the block is reported with the number of
the line before it. -/
theorem C14_get_lines_off_by_one :
    ∃ (text : Str) (b : Block) (w : FileWrapper),
      Block.get_lines (FileWrapper.init ⟨text, 0⟩) 1 = (.ok b, w) ∧
      b.next.1 = .ok (py"a\n") ∧ (linesOf text)[0]? = some (py"a\n") ∧ b.next.2.lineno = 0 :=
  ⟨py"a\nb\n", _, _, by rfl, by decide, by decide, by decide⟩

end Verif.Props

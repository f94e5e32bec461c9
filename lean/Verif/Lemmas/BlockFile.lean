import Verif.Lemmas.Labelled
import Verif.Lemmas.Blocks
import Verif.Lemmas.SettingVal
import Verif.Spec.BlockFile
/- Files of blocks. -/
namespace Verif
open Re NumRe AtomRe Spec

/-! ### Text that names a block -/

/-- The pattern looks for this text. -/
def Names (p : Pat) (s : Str) : Prop := ∀ l, found p l = true ↔ Occurs s l

theorem names_lit {p : Pat} {s : Str} (hp : p.re = litRe s) : Names p s := fun l => search_lit p s hp l

theorem Names.false {p : Pat} {s : Str} (h : Names p s) {l : Str} (hl : ¬ Occurs s l) : found p l = false := by
  rw [← Bool.not_eq_true, h l]; exact hl

theorem strip_occurs {s l : Str} (h : Occurs s l) {c : Nat} (hc : c ∈ s) (hs : isSpace c = false) : Str.strip l ≠ [] := by
  intro e
  obtain ⟨u, v, rfl⟩ := h
  have := (strip_nil_iff _).1 e c (by simp [hc])
  rw [hs] at this; cases this

theorem tryBlock_enclosed {p q : Pat} {b e : Str} (hp : Names p b) (hq : Names q e) {c : Nat} (hc : c ∈ b)
    (hs : isSpace c = false) {first last : Str} {inner rest : List Str} (h1 : Occurs b first)
    (h2 : ∀ l ∈ inner, ¬ Occurs e l) (h3 : Occurs e last) :
    tryBlock (found p) (found q) first (inner ++ last :: rest) = .ok (some ⟨0, 0, first :: (inner ++ [last])⟩, rest) :=
  tryBlock_lines _ _ _ _ _ _ _ ((hp _).2 h1) (fun l hl => hq.false (h2 l hl)) ((hq _).2 h3) (strip_occurs h1 hc hs)

theorem tryBlock_miss {p q : Pat} {b : Str} (hp : Names p b) {l : Str} (h : ¬ Occurs b l) (rest : List Str) :
    tryBlock (found p) (found q) l rest = .ok (none, rest) := tryBlock_none _ _ _ _ _ (hp.false h)

/-! ### Tables -/

theorem slice_rows {first last : Str} {inner : List Str} :
    Block.sliceBounds (first :: (inner ++ [last])) 1 2 = inner.dropLast := by
  rw [Block.sliceBounds, if_neg (by decide)]
  cases inner using List.reverseRecOn with
  | nil => rfl
  | append_singleton l x => simp

theorem forall₂_dropLast {R : α → β → Prop} {a : List α} {b : List β} (h : List.Forall₂ R a b) :
    List.Forall₂ R a.dropLast b.dropLast := by
  induction h with
  | nil => exact .nil
  | @cons x y l m hr ht ih =>
    cases ht with
    | nil => exact .nil
    | cons h1 h2 => exact .cons hr ih

/-- The value under this name, if any, is a list. -/
def ListAt (d : Dict Key PyVal) (k : Str) : Prop := d.get? (.str k) = none ∨ ∃ l, d.get? (.str k) = some (.list l)

theorem addTable_listAt {d : Dict Key PyVal} {k k' : Str} {t : List (Key × PyVal)} (h : ListAt d k') : ListAt (addTable d k t) k' := by
  rw [addTable]
  split
  · exact h
  · have key : ∀ v, ListAt (d.set (.str k) (.list v)) k' := by
      intro v
      rw [ListAt, Dict.get?_set]
      by_cases e : (Key.str k) = .str k'
      · exact .inr ⟨v, by rw [if_pos e]⟩
      · rw [if_neg e]; exact h
    split <;> exact key _

theorem columnTable_nil_iff {rd : Numeral → F64} {labels : List Str} (hl : labels ≠ []) {rows : List (List Numeral)} :
    columnTable rd labels rows = [] ↔ rows = [] := by
  rw [columnTable]
  split
  · simp [*]
  · simp [*]

theorem colsOf_isEmpty {labels : List Str} (hl : labels ≠ []) {rows : List (List Numeral)} :
    (colsOf labels rows).isEmpty = decide (rows = []) := by
  rw [colsOf]
  split
  · simp [*]
  · cases labels with
    | nil => exact absurd rfl hl
    | cons a l => simp [*]

theorem putTable_rows {info : Dict Key PyVal} {key : Str} {labels : List Str} {rows : List (List Numeral)} {rd : Numeral → F64}
    (hi : ListAt info key) (hl : labels ≠ []) (hd : labels.Nodup)
    (h : ∀ r ∈ rows, ∀ n ∈ r, parse_float_or_rational n.text = .ok (rd n)) :
    Dos.putTable info key labels (colsOf labels rows) = .ok (addTable info key (columnTable rd labels rows)) := by
  rw [Dos.putTable, colsOf_isEmpty hl, addTable]
  by_cases hr : rows = []
  · rw [if_pos (by simpa using hr), if_pos ((columnTable_nil_iff hl).2 hr)]
  · rw [if_neg (by simpa using hr), if_neg fun e => hr ((columnTable_nil_iff hl).1 e), fix_table hd rows h]
    show MdGeom.appendTo info _ _ = _
    rw [MdGeom.appendTo]
    rcases hi with e | ⟨l, e⟩
    · rw [e]
    · rw [e]

theorem Gets.int {r : Re} {i : Nat} {n : Numeral} {s : Str} {ws : List Str} {pre caps C} (hn : n.Valid) (hi : n.IsInt)
    (hp : Clear pre) (hs : After s ws) (h : Gets r (n.text.reverse ++ pre) s ((i, n.text) :: caps) C) :
    Gets (.seq (.group i I) r) pre (n.text ++ s) caps C := by
  obtain ⟨t, h5, h6⟩ := h
  refine ⟨t, ?_, h6⟩
  have hit : n.text = Numeral.signText n.sign ++ n.ip := by
    rw [Numeral.text, hi.1, hi.2]; simp [Numeral.fracText, Numeral.expText]
  have hip : n.ip ≠ [] := by
    have := hn.2.2.1; rw [hi.1] at this; simpa using this
  rw [run_seq, run_group]
  rw [hit]
  apply run_I n.sign n.ip _ _ _ _ _ hn.1 hip
  · intro _ hh
    have := hp _ hh
    simp [isSpace] at this
  · exact hs.endsNumber.stops
  · intro hh
    have := hs.1 _ hh
    simp [isSpace] at this
  · rw [← hit, upTo_append]; exact h5

/-- A blank class and a whole number outside a group. -/
theorem Gets.startInt {r : Re} {n : Numeral} {s : Str} {ws : List Str} {pre caps C} (hs : Fields s (n.text :: ws))
    (hn : n.Valid) (hi : n.IsInt) (hp : pre.head? ≠ some 46)
    (h : ∀ pre' s', After s' ws → Gets r pre' s' caps C) : Gets (.seq (star sp) (.seq I r)) pre s caps C := by
  obtain ⟨g, s', rfl, h1, h2, h3, h4⟩ := fields_next hs
  obtain ⟨t, h5, h6⟩ := h (n.text.reverse ++ (g.reverse ++ pre)) s' h4
  refine ⟨t, ?_, h6⟩
  rw [run_seq]
  refine run_star_all sp g _ _ _ _ _ _ (fun c hc => by rw [has_sp]; exact h1 c hc) (stops_word h2 h3) (by simp) ?_
  have hit : n.text = Numeral.signText n.sign ++ n.ip := by
    rw [Numeral.text, hi.1, hi.2]; simp [Numeral.fracText, Numeral.expText]
  have hip : n.ip ≠ [] := by
    have := hn.2.2.1; rw [hi.1] at this; simpa using this
  rw [run_seq, hit]
  apply run_I n.sign n.ip _ _ _ _ _ hn.1 hip
  · intro _ hh
    cases hg : g.reverse with
    | nil => rw [hg] at hh; exact hp hh
    | cons d q =>
      rw [hg] at hh
      have hd : d = 46 := by simpa using hh
      have := h1 d (by have : d ∈ g.reverse := by rw [hg]; simp
                       simpa using this)
      rw [hd] at this
      simp [isSpace] at this
  · exact h4.endsNumber.stops
  · intro hh
    have := h4.1 _ hh
    simp [isSpace] at this
  · rw [← hit]; exact h5

/-- `(?:\s+?NUMBER){k}` -/
abbrev LN (k : Nat) : Re := .rep true k (some k) (.seq (.rep false 1 none (.set sp)) N)

/-- A number after a blank, not in a group. -/
theorem run_LN1 (g : Str) (n : Numeral) (hg : Blank g) (hne : g ≠ []) (hn : n.Valid) (pre rest : Str) (caps) (k : St → Option St) (x : St)
    (hr : EndsNumber rest) (hk : k ⟨(g ++ n.text).reverse ++ pre, rest, caps⟩ = some x) :
    run (.seq (.rep false 1 none (.set sp)) N) ⟨pre, g ++ (n.text ++ rest), caps⟩ k = some x := by
  have h1 := run_LF 0 g n hg hne hn pre rest caps (fun t => k ⟨t.pre, t.post, t.caps.tail⟩) x hr hk
  rw [LF, run_seq] at h1
  rw [run_seq]
  simpa only [run_group, List.tail_cons] using h1

theorem run_LN : ∀ (ns : List Numeral) (ws : List Str) (s : Str),
    After s (ns.map Numeral.text ++ ws) → (∀ n ∈ ns, n.Valid) →
    ∃ t s', s = t ++ s' ∧ Fields t (ns.map Numeral.text) ∧ After s' ws ∧
      ∀ (pre : Str) (caps : List (Nat × Str)) (k : St → Option St) (x : St), k ⟨t.reverse ++ pre, s', caps⟩ = some x →
        run (LN ns.length) ⟨pre, s, caps⟩ k = some x
  | [], ws, s, hs, _ => by
    refine ⟨[], s, rfl, fields_blank (by intro c hc; cases hc), hs, fun pre caps k x hk => ?_⟩
    rw [List.length_nil, run_rep_greedy, if_pos rfl, if_pos rfl, Option.none_or]
    exact hk
  | n :: ns, ws, s, hs, hv => by
    obtain ⟨g, s', rfl, h1, hg, h2, h3, h4⟩ := hs.next
    obtain ⟨t, s2, rfl, ht, h5, hk⟩ := run_LN ns ws s' h4 (fun y hy => hv y (by simp [hy]))
    refine ⟨g ++ (n.text ++ t), s2, by simp, ?_, h5, fun pre caps k x hx => ?_⟩
    · cases t with
      | nil =>
        have e : ns.map Numeral.text = [] := by
          rw [← fields_split ht]; rfl
        rw [List.map_cons, e, List.append_nil]
        exact fields_prepend h1 (fields_word h2 h3)
      | cons c t =>
        have hc : isSpace c = true := h4.1 c rfl
        rw [List.map_cons]
        have e : g ++ (n.text ++ c :: t) = g ++ n.text ++ c :: t := by simp
        rw [e]
        exact .cons (fun d hd => by simp [h1 d hd]) h2 (fun d hd => by simp [h3 d hd]) (fun d hd => by cases hd; simp [hc]) ht
    · rw [List.length_cons, run_rep_greedy, if_neg (by simp), if_neg (by simp), Option.or_none]
      apply run_LN1 g n h1 hg (hv n (by simp)) _ _ _ _ _ h4.endsNumber
      have hlt : (t ++ s2).length < (g ++ (n.text ++ (t ++ s2))).length := by
        simp only [List.length_append]
        have := List.length_pos_iff.2 hg
        omega
      simp only [Option.map_some, Nat.add_sub_cancel, if_pos hlt]
      apply hk
      simpa using hx

/-- A list of numbers in a group of its own. -/
theorem Gets.nums {r : Re} {i k : Nat} {ns : List Numeral} {s : Str} {ws : List Str} {pre caps C} (hk : ns.length = k)
    (hs : After s (ns.map Numeral.text ++ ws)) (hv : ∀ n ∈ ns, n.Valid)
    (h : ∀ pre' s' t, Fields t (ns.map Numeral.text) → After s' ws → Gets r pre' s' ((i, t) :: caps) C) :
    Gets (.seq (.group i (LN k)) r) pre s caps C := by
  subst hk
  obtain ⟨t, s', rfl, ht, ha, hr⟩ := run_LN ns ws s hs hv
  obtain ⟨y, h5, h6⟩ := h (t.reverse ++ pre) s' t ht ha
  refine ⟨y, ?_, h6⟩
  rw [run_seq, run_group]
  apply hr
  rw [upTo_append]
  exact h5

/-- `\s*` before something that needs a blank itself. -/
theorem Gets.gapBack {x r : Re} {s w : Str} {ws : List Str} {pre caps C}
    (hx : ∀ pre s caps (k : St → Option St), Stops sp s → run x ⟨pre, s, caps⟩ k = none) (hs : After s (w :: ws))
    (h : ∀ pre' s', After s' (w :: ws) → Gets (.seq x r) pre' s' caps C) :
    Gets (.seq (star sp) (.seq x r)) pre s caps C := by
  obtain ⟨g, s', rfl, h1, hg, h2, h3, h4⟩ := hs.next
  obtain ⟨g0, c, rfl⟩ : ∃ g0 c, g = g0 ++ [c] := ⟨_, _, (List.dropLast_concat_getLast hg).symm⟩
  have hc : isSpace c = true := h1 c (by simp)
  obtain ⟨t, h5, h6⟩ := h (g0.reverse ++ pre) (c :: (w ++ s')) ⟨fun d hd => by cases hd; exact hc, by
    have := (Spec.Words.cons (p := fun c => !isSpace c) (g := [c]) (w := w) (s := s') (ws := ws) (fun d hd => by simp at hd; subst hd; simp [hc]) h2
      (fun d hd => by simp [h3 d hd]) (fun d hd => by simp [h4.1 d hd]) h4.2)
    simpa using this⟩
  refine ⟨t, ?_, h6⟩
  rw [run_seq]
  have := Cell.run_star_back sp c (by rw [has_sp]; exact hc) (w ++ s') (stops_word h2 h3) g0 pre caps
    (fun t => run (.seq x r) t some) t (fun d hd => by rw [has_sp]; exact h1 d (by simp [hd]))
    (by rw [run_seq]; exact hx _ _ _ _ (stops_word h2 h3)) h5
  simpa using this

theorem run_LN_stop (i k : Nat) (pre s : Str) (caps : List (Nat × Str)) (f : St → Option St) (h : Stops sp s) :
    run (.group i (LN (k + 1))) ⟨pre, s, caps⟩ f = none := by
  rw [run_group, run_rep_greedy, if_neg (by simp), if_neg (by simp), Option.or_none, run_seq]
  exact run_plus_stop _ _ _ _ _ _ _ _ h

end Verif

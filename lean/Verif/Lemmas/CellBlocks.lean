import Verif.Lemmas.Coord
import Verif.Lemmas.AtomRe
import Verif.Lemmas.Setting
/-
Blocks of cell files: symmetry operations and positions.
-/
namespace Verif
open Re NumRe Spec

theorem split_word (g w v : Str) (hg : Blank g) (hw : ∀ c ∈ w, isSpace c = false) (hne : w ≠ [])
    (hv : AtGap v) : Str.split (g ++ (w ++ v)) = w :: Str.split v := by
  rw [Str.split, Str.wordsAux_skip _ _ _ hg]
  have := Str.wordsAux_word isSpace w v [] [] hw hv (.inr rfl) (by simpa using hne)
  simp only [List.append_nil, List.reverse_nil, List.nil_append] at this
  rw [this]; rfl

namespace Cell

theorem named_opens {l t : Str} (h : OpensNamed l t) : OpensBlock l := by
  obtain ⟨u, g, k, g', w, v, hu, e, hg, hk, -⟩ := h
  exact ⟨u, g, k, g' ++ w ++ v, hu, by rw [e]; simp, hg, hk⟩

theorem named_title {l t : Str} (h : OpensNamed l t) : ∃ w, (Str.split (clean l))[1]? = some w ∧ Str.lower w = t := by
  obtain ⟨u, g, k, g', w, v, hu, e, hg, hk, hg', hw, hw0, hv, ht⟩ := h
  obtain rfl := hu.unique (uncommented_takeWhile _)
  refine ⟨w, ?_, ht⟩
  obtain ⟨x, hx, hxb⟩ := clean_split l
  rw [← split_append_blank _ _ hxb, ← hx, e]
  obtain ⟨k', d, hk1, hk2, hd⟩ : ∃ k' d, k = k' ++ [d] ∧ Str.lower k' = py"%block" ∧ lowerC d = 32 := by
    refine ⟨k.take 6, k.getLastD 0, ?_, ?_, ?_⟩ <;>
    · have hl : k.length = 7 := by simpa [Str.lower] using congrArg List.length hk
      match k, hl with
      | [a, b, c, d, e, f, g], _ => simp_all [Str.lower]
  have hd' : d = 32 := by
    by_cases hu : isUpper d = true
    · rw [lowerC, if_pos hu] at hd; simp [isUpper] at hu; omega
    · rwa [lowerC, if_neg hu] at hd
  subst hd'
  have hkv : ∀ c ∈ k', isSpace c = false := by
    intro c hc
    have : lowerC c ∈ py"%block" := by rw [← hk2]; exact List.mem_map.2 ⟨c, hc, rfl⟩
    apply isSpace_of_lower
    revert this
    generalize lowerC c = x
    intro hx
    revert x; decide
  rw [hk1]
  have e1 : g ++ (k' ++ [32]) ++ g' ++ w ++ v = g ++ (k' ++ (([32] ++ g') ++ (w ++ v))) := by simp
  rw [e1, split_word g k' _ hg hkv (by rintro rfl; simp [Str.lower] at hk2)
    (AtGap.append (by intro c hc; rcases List.mem_append.1 hc with h | h; (simp at h; subst h; rfl); exact hg' c h) (by simp)),
    split_word ([32] ++ g') w v
    (by intro c hc; rcases List.mem_append.1 hc with h | h; (simp at h; subst h; rfl); exact hg' c h) hw hw0 hv]
  rfl

/-- A file consisting of one block. -/
theorem parse_named {l t : Str} {blk : List Str} {last : Str} (h : OpensNamed l t)
    (hb : ∀ x ∈ blk, ¬ ClosesBlock x) (hl : ClosesBlock last) :
    parse_cell_param_file (l :: (blk ++ [last])) =
      (parserFor t ⟨0, 0, strip_comments (blk ++ [last]) (remove_inline := true)⟩).map
        fun v => .list [.dict [(.str t, v)]] := by
  rw [parse_segment (.block (named_opens h) hb hl .nil), segment_block (named_opens h)]
  obtain ⟨w, hw, ht⟩ := named_title h
  rw [hw]
  simp only [ht]
  generalize parserFor t ⟨0, 0, strip_comments (blk ++ [last]) (remove_inline := true)⟩ = r
  cases r <;> rfl

/-- The lines of a block after removal of comments: those of the body and the closing line. -/
theorem strip_block (blk : List Str) (last : Str) (hl : ClosesBlock last) :
    strip_comments (blk ++ [last]) (remove_inline := true) =
      strip_comments blk (remove_inline := true) ++ [clean last] := by
  rw [strip_eq, strip_eq, List.map_append, List.filter_append, List.map_cons, List.map_nil]
  have : (clean last).isEmpty = false := by
    rw [List.isEmpty_eq_false_iff]
    intro h
    have := (closes_clean last).2 hl
    rw [h] at this
    obtain ⟨g, k, v, e, -, hk⟩ := this
    have := congrArg List.length e
    have := congrArg List.length hk
    simp [Str.lower] at *
    omega
  simp [this]

/-! ### Symmetry operations -/

theorem symRows_append (a : List Str) (b : List Str) : symRows (a ++ b) = (do
    let x ← symRows a
    let y ← symRows b
    return x ++ y) := by
  induction a with
  | nil => cases h : symRows b <;> simp [symRows, h, bind, Except.bind, pure, Except.pure]
  | cons l a ih =>
    rw [List.cons_append, symRows, symRows]
    cases Res.FLOAT_RAT_RE.findall l with
    | nil => exact ih
    | cons n ns =>
      simp only [ih]
      cases to_type .float (.list ((n :: ns).map .str)) with
      | error e => rfl
      | ok r => cases symRows a <;> cases symRows b <;> rfl

theorem row_valid {l : Str} {r : List Coord} (h : NumRow l r) : (∀ c ∈ r, c.Valid) ∧ r ≠ [] := by
  obtain ⟨g, s, -, hs, -⟩ := h
  clear g
  induction hs with
  | last hc _ => simp [hc]
  | cons hc _ _ _ ih =>
    refine ⟨?_, by simp⟩
    intro d hd
    rcases List.mem_cons.1 hd with rfl | hd
    · exact hc
    · exact ih.1 d hd

theorem symRows_rows (lines : List Str) (rows : List (List Coord)) (h : List.Forall₂ NumRow lines rows)
    (hr : ∀ r ∈ rows, ∀ c ∈ r, c.InRange) :
    ∃ xs : List (List F64), symRows lines = .ok (xs.map fun x => .tuple (x.map .float)) ∧
      List.Forall₂ NearestAll rows xs := by
  induction h with
  | nil => exact ⟨[], rfl, .nil⟩
  | @cons l r ls rs hlr _ ih =>
    obtain ⟨xs, h1, h2⟩ := ih fun r hr' => hr r (by simp [hr'])
    have hf := findall_row hlr
    have hval := row_valid hlr
    obtain ⟨x, h3, h4⟩ := coords_float r fun c hc => ⟨hval.1 c hc, hr r (by simp) c hc⟩
    refine ⟨x :: xs, ?_, .cons h4 h2⟩
    rw [symRows, hf]
    cases r with
    | nil => exact absurd rfl hval.2
    | cons c r =>
      simp only [List.map_cons] at h3 ⊢
      rw [h3, h1]; rfl

theorem symOps_four (ops : List (PyVal × PyVal × PyVal × PyVal)) : ∀ fuel, ops.length ≤ fuel →
    symOps fuel (ops.flatMap fun o => [o.1, o.2.1, o.2.2.1, o.2.2.2]) = .ok (ops.map fun o =>
      .dict [(.str (py"r"), .list [o.1, o.2.1, o.2.2.1]), (.str (py"t"), o.2.2.2)]) := by
  induction ops with
  | nil => intro fuel _; cases fuel <;> rfl
  | cons o ops ih =>
    intro fuel hf
    cases fuel with
    | zero => simp at hf
    | succ fuel =>
      simp only [List.flatMap_cons, List.cons_append, List.nil_append, symOps, List.getElem?_cons_succ,
        List.getElem?_cons_zero, List.drop_succ_cons, List.drop_zero, List.take_succ_cons, List.take_zero,
        ih fuel (by simpa using hf)]
      rfl

theorem symOps_bad : ∀ (tmp : List PyVal) (fuel : Nat), tmp.length ≤ fuel → tmp.length % 4 ≠ 0 →
    symOps fuel tmp = .error .indexError := by
  intro tmp fuel
  induction fuel generalizing tmp with
  | zero => intro h h'; cases tmp <;> simp at h; simp at h'
  | succ fuel ih =>
    intro h h'
    match tmp with
    | [] => simp at h'
    | [_] | [_, _] | [_, _, _] => rfl
    | a :: b :: c :: d :: tmp =>
      simp only [List.length_cons] at h h'
      simp only [symOps, List.getElem?_cons_succ, List.getElem?_cons_zero, List.drop_succ_cons, List.drop_zero,
        ih tmp (by omega) (by omega)]
      rfl

theorem parserFor_sym : parserFor (py"symmetry_ops") = parse_symops := rfl

theorem parse_sym_lines (lines : List Str) (last : Str) (rows : List (List Coord)) (h : List.Forall₂ NumRow lines rows)
    (hr : ∀ r ∈ rows, ∀ c ∈ r, c.InRange) (hl : ∀ c ∈ last, isDigit c = false) :
    ∃ xs : List (List F64), List.Forall₂ NearestAll rows xs ∧
      parse_symops ⟨0, 0, lines ++ [last]⟩ =
        (symOps xs.length (xs.map fun x => .tuple (x.map .float))).map .list := by
  obtain ⟨xs, h1, h2⟩ := symRows_rows lines rows h hr
  refine ⟨xs, h2, ?_⟩
  have h3 : symRows [last] = .ok [] := by rw [symRows, findall_none hl]; rfl
  rw [parse_symops, Block.rest, List.drop_zero, symRows_append, h1, h3]
  simp only [bind, Except.bind, pure, Except.pure, List.append_nil, List.length_map, Except.map]

/-! ### Positions -/

abbrev upS : CSet := cset [.range 65 90]
abbrev loS : CSet := cset [.range 97 122]

theorem POSITIONS_LINE_eq : Res.POSITIONS_LINE_RE.re = .seq .bol (.seq (star spc) (.seq (.group 1 (.seq (.set upS)
    (.rep true 0 (some 2) (.set loS)))) (.group 2 (.rep true 3 (some 3) (.seq (plus spc) FR))))) := by decide +kernel

theorem positions_names : Res.POSITIONS_LINE_RE.names = [(py"spec", 1), (py"pos", 2)] := by decide +kernel

theorem has_up (c : Nat) : upS.has c = isUpper c := by simp [CSet.has, CItem.has, isUpper]
theorem has_lo (c : Nat) : loS.has c = isLower c := by simp [CSet.has, CItem.has, isLower]

theorem stops_coord (c : Coord) (hc : c.Valid) (rest : Str) : Stops spc (c.text ++ rest) := by
  intro d hd
  rw [has_spc]
  have h0 := coord_ne_nil c hc
  have h1 := coord_nospace c hc
  cases ht : c.text with
  | nil => exact absurd ht h0
  | cons x s =>
    rw [ht] at hd h1
    cases hd
    exact h1 d (by simp)

/-- One gap and coordinate. -/
theorem run_gapFR (g : Str) (c : Coord) (hg : Blank g) (hg0 : g ≠ []) (hc : c.Valid) (pre rest : Str) (caps)
    (k : St → Option β) (x : β) (hr : AtGap rest) (hk : k ⟨(g ++ c.text).reverse ++ pre, rest, caps⟩ = some x) :
    run (.seq (plus spc) FR) ⟨pre, g ++ (c.text ++ rest), caps⟩ k = some x := by
  rw [run_seq]
  apply run_plus_all spc 1 g pre _ none caps _ _ _ (fun d hd => by rw [has_spc]; exact hg d hd)
    (stops_coord c hc rest) (by simp)
  · apply run_FR c hc _ _ _ _ _ _ hr
    · rw [← hk]; simp
    · exact (AtGap.append (g := g.reverse) (fun d hd => hg d (by simpa using hd)) (by simpa using hg0)).before
  · cases g with
    | nil => exact absurd rfl hg0
    | cons _ _ => simp

theorem positions_match (g w g1 g2 g3 tail : Str) (c1 c2 c3 : Coord) (hg : Blank g) (hw : Symbol w)
    (hg1 : Blank g1) (hg2 : Blank g2) (hg3 : Blank g3) (n1 : g1 ≠ []) (n2 : g2 ≠ []) (n3 : g3 ≠ [])
    (h1 : c1.Valid) (h2 : c2.Valid) (h3 : c3.Valid) (ht : AtGap tail) :
    ∃ m, Res.POSITIONS_LINE_RE.match_ (g ++ (w ++ (g1 ++ (c1.text ++ (g2 ++ (c2.text ++ (g3 ++ (c3.text ++ tail)))))))) = some m ∧
      m.named (py"spec") = some w ∧
      m.named (py"pos") = some (g1 ++ (c1.text ++ (g2 ++ (c2.text ++ (g3 ++ c3.text))))) := by
  have hrun := match_caps Res.POSITIONS_LINE_RE (g ++ (w ++ (g1 ++ (c1.text ++ (g2 ++ (c2.text ++ (g3 ++ (c3.text ++ tail))))))))
  rw [POSITIONS_LINE_eq] at hrun
  have key : run (.seq .bol (.seq (star spc) (.seq (.group 1 (.seq (.set upS)
    (.rep true 0 (some 2) (.set loS)))) (.group 2 (.rep true 3 (some 3) (.seq (plus spc) FR))))))
      ⟨[], g ++ (w ++ (g1 ++ (c1.text ++ (g2 ++ (c2.text ++ (g3 ++ (c3.text ++ tail))))))), []⟩ (fun t => some t.caps)
      = some [(2, g1 ++ (c1.text ++ (g2 ++ (c2.text ++ (g3 ++ c3.text))))), (1, w)] := by
    rw [run_seq, run_bol]
    simp only [List.isEmpty_nil, if_true]
    rw [run_seq]
    obtain ⟨a, t, rfl, ha, htl, htn⟩ := hw
    have hsa : isSpace a = false := by simp [isUpper] at ha; simp [isSpace]; omega
    apply run_star_all spc g [] _ none [] _ _ (fun d hd => by rw [has_spc]; exact hg d hd) _ (by simp)
    · rw [run_seq, run_group, run_seq, List.cons_append, run_set_cons, if_pos (by rw [has_up]; exact ha)]
      apply run_star_all loS t _ _ (some 2) _ _ _ (fun d hd => by rw [has_lo]; exact htl d hd)
      · intro c hc
        have := AtGap.append hg1 n1 c hc
        rw [has_lo]; simp [isSpace] at this; simp [isLower]; omega
      · intro M hM; cases hM; exact htn
      · rw [run_group, run_rep_greedy]
        rw [if_neg (by simp)]
        rw [run_gapFR g1 c1 hg1 n1 h1 (x := [(2, g1 ++ (c1.text ++ (g2 ++ (c2.text ++ (g3 ++ c3.text))))), (1, a :: t)])]
        · rfl
        · exact AtGap.append hg2 n2
        rw [if_pos (by have := List.length_pos_iff.2 n1; simp; omega), run_rep_greedy, if_neg (by simp)]
        rw [run_gapFR g2 c2 hg2 n2 h2 (x := [(2, g1 ++ (c1.text ++ (g2 ++ (c2.text ++ (g3 ++ c3.text))))), (1, a :: t)])]
        · rfl
        · exact AtGap.append hg3 n3
        rw [if_pos (by have := List.length_pos_iff.2 n2; simp; omega), run_rep_greedy, if_neg (by simp)]
        rw [run_gapFR g3 c3 hg3 n3 h3 (x := [(2, g1 ++ (c1.text ++ (g2 ++ (c2.text ++ (g3 ++ c3.text))))), (1, a :: t)])]
        · rfl
        · exact ht
        rw [if_pos (by have := List.length_pos_iff.2 n3; simp; omega), run_rep_greedy]
        simp only [Option.map_some]
        rw [if_pos trivial, Option.none_or, if_pos trivial]
        have e1 : ∀ (pre pre' : Str) (caps caps'), St.upTo ⟨pre, g1 ++ (c1.text ++ (g2 ++ (c2.text ++ (g3 ++ (c3.text ++ tail))))), caps⟩
            ⟨pre', tail, caps'⟩ = g1 ++ (c1.text ++ (g2 ++ (c2.text ++ (g3 ++ c3.text)))) := by
          intro pre pre' caps caps'
          have := Re.upTo_append pre (g1 ++ (c1.text ++ (g2 ++ (c2.text ++ (g3 ++ c3.text))))) tail caps pre' caps'
          simpa using this
        have e2 : ∀ (pre pre' rest : Str) (caps caps'), St.upTo ⟨pre, a :: (t ++ rest), caps⟩
            ⟨pre', rest, caps'⟩ = a :: t := by
          intro pre pre' rest caps caps'
          exact Re.upTo_append pre (a :: t) rest caps pre' caps'
        rw [e1, e2]
    · intro c hc
      cases hc
      rw [has_spc]; exact hsa
  rw [key] at hrun
  cases hm : Res.POSITIONS_LINE_RE.match_ (g ++ (w ++ (g1 ++ (c1.text ++ (g2 ++ (c2.text ++ (g3 ++ (c3.text ++ tail)))))))) with
  | none => rw [hm] at hrun; cases hrun
  | some m =>
    rw [hm] at hrun
    simp only [Option.map_some, Option.some.injEq] at hrun
    have hcaps := hrun
    have hn := match_names hm
    rw [positions_names] at hn
    refine ⟨m, rfl, ?_, ?_⟩ <;>
    · rw [Match.named, hn]
      show (m.caps.find? _).map _ = _
      rw [hcaps]; rfl

abbrev sepP : CSet := cset [.ch 61, .ch 32, .ch 58, .ch 9]

/-- The position of the spin in a line. -/
def spinRest : Re := .seq (star spc) (.seq (.set sepP) (.seq (star spc) (.group 1 FR)))

theorem SPIN_eq : unci Res.POSITIONS_SPIN_RE.re = .seq (.alt (ciRe (py"spin")) (ciRe (py"magmom"))) spinRest := by
  decide +kernel

theorem spin_names : Res.POSITIONS_SPIN_RE.names = [(py"spin", 1)] := by decide +kernel

/-- The text `s` with case ignored, then `r`. -/
def ciThen : Str → Re → Re
  | [], r => r
  | c :: s, r => .seq (.set ⟨false, [.ch c], true⟩) (ciThen s r)

/-- The pattern after `n` elements. -/
def seqDrop : Nat → Re → Re
  | n + 1, .seq _ b => seqDrop n b
  | _, r => r

theorem MIXTURE_eq : Res.POSITIONS_MIXTURE_RE.re =
    ciThen (py"mixture") (seqDrop 7 Res.POSITIONS_MIXTURE_RE.re) := by decide +kernel

theorem lang_ciThen (s : Str) (hs : Str.lower s = s) (r : Re) (w : Str) (h : Lang (ciThen s r) w) : s <+: Str.lower w := by
  induction s generalizing w with
  | nil => exact List.nil_prefix
  | cons a s ih =>
    simp only [Str.lower, List.map_cons, List.cons.injEq] at hs
    obtain ⟨u, v, rfl, ⟨c, hc, rfl⟩, hv⟩ := h
    rw [ci_has hs.1] at hc
    have hc : lowerC c = a := by simpa using hc
    have := ih hs.2 v hv
    simp only [Str.lower, List.cons_append, List.nil_append, List.map_cons, hc]
    exact List.cons_prefix_cons.2 ⟨rfl, this⟩

theorem matchAt_none_of_lang {p : Pat} {r : Re} (hp : p.re = r) {pre post : Str}
    (h : ∀ w v, post = w ++ v → ¬ Lang r w) : p.matchAt pre post = none := by
  rw [Pat.matchAt_eq, hp]
  have : run r ⟨pre, post, []⟩ some = none := by
    apply run_none
    intro w t hs hl
    exact absurd hl (h w t.post hs.post)
  rw [this]; rfl

theorem search_none {p : Pat} {text : Str} (h : ∀ u v, text = u ++ v → p.matchAt u.reverse v = none) :
    p.search text = none := by
  rcases Pat.search_spec p text with ⟨h', -⟩ | ⟨u, v, x, e, -, hx, -⟩
  · exact h'
  · rw [h u v e] at hx; cases hx

theorem mixture_none {line : Str} (h : ¬ MentionsCi (py"mixture") line) : Res.POSITIONS_MIXTURE_RE.search line = none := by
  apply search_none
  intro u v e
  apply matchAt_none_of_lang MIXTURE_eq
  rintro w x rfl hw
  apply h
  refine ⟨u, w ++ x, e, ?_⟩
  have := lang_ciThen _ (by decide) _ _ hw
  rw [StartsCi, Str.lower, List.map_append]
  exact this.trans (List.prefix_append _ _)

theorem spin_matchAt_none {pre v : Str} (h1 : ¬ StartsCi (py"spin") v) (h2 : ¬ StartsCi (py"magmom") v) :
    Res.POSITIONS_SPIN_RE.matchAt pre v = none := by
  rw [Pat.matchAt_eq]
  have : run Res.POSITIONS_SPIN_RE.re ⟨pre, v, []⟩ some = none := by
    rw [← run_unci, SPIN_eq]
    apply run_none
    intro w t hs hl
    exfalso
    obtain ⟨a, b, rfl, ha, -⟩ := hl
    have e := hs.post
    simp only at e
    rcases ha with ha | ha
    · rw [lang_ci _ (by decide)] at ha
      apply h1
      rw [StartsCi, e, List.append_assoc, Str.lower, List.map_append, ← Str.lower, ha]
      exact List.prefix_append _ _
    · rw [lang_ci _ (by decide)] at ha
      apply h2
      rw [StartsCi, e, List.append_assoc, Str.lower, List.map_append, ← Str.lower, ha]
      exact List.prefix_append _ _
  rw [this]; rfl

theorem spin_none {line : Str} (h1 : ¬ MentionsCi (py"spin") line) (h2 : ¬ MentionsCi (py"magmom") line) :
    Res.POSITIONS_SPIN_RE.search line = none := by
  apply search_none
  intro u v e
  exact spin_matchAt_none (fun h => h1 ⟨u, v, e, h⟩) (fun h => h2 ⟨u, v, e, h⟩)

/-- A literal with case ignored. -/
theorem run_ciRe (s k : Str) (hs : Str.lower s = s) (h : Str.lower k = s) (pre rest : Str) (caps) (f : St → Option β) :
    run (ciRe s) ⟨pre, k ++ rest, caps⟩ f = f ⟨k.reverse ++ pre, rest, caps⟩ := by
  induction s generalizing k pre with
  | nil =>
    cases k with
    | nil => simp [ciRe]
    | cons c k => simp [Str.lower] at h
  | cons a s ih =>
    cases k with
    | nil => simp [Str.lower] at h
    | cons c k =>
      simp only [Str.lower, List.map_cons, List.cons.injEq] at h hs
      have hc : CSet.has ⟨false, [.ch a], true⟩ c = true := by rw [ci_has hs.1]; simp [h.1]
      cases s with
      | nil =>
        have : k = [] := by simpa using h.2
        subst this
        rw [ciRe, List.cons_append, run_set_cons, if_pos hc]; rfl
      | cons b s =>
        rw [ciRe, run_seq, List.cons_append, run_set_cons, if_pos hc, ih k hs.2 h.2]
        · simp
        · simp

theorem spin_run {k g g' t : Str} {sep : Nat} {c : Coord}
    (hk : Str.lower k = py"spin" ∨ Str.lower k = py"magmom") (hg : Blank g) (hs : sep = c!"=" ∨ sep = c!":")
    (hg' : Blank g') (hc : c.Valid) (ht : AtGap t) (pre : Str) :
    ∃ pre', run (.seq (.alt (ciRe (py"spin")) (ciRe (py"magmom"))) spinRest)
      ⟨pre, k ++ (g ++ (sep :: (g' ++ (c.text ++ t)))), []⟩ some = some ⟨pre', t, [(1, c.text)]⟩ := by
  have hsp : isSpace sep = false := by rcases hs with rfl | rfl <;> rfl
  have hrest : ∀ pre, run spinRest ⟨pre, g ++ (sep :: (g' ++ (c.text ++ t))), []⟩ some =
      some ⟨c.text.reverse ++ (g'.reverse ++ (sep :: (g.reverse ++ pre))), t, [(1, c.text)]⟩ := by
    intro pre
    rw [spinRest, run_seq]
    apply run_star_all spc g _ _ none [] _ _ (fun d hd => by rw [has_spc]; exact hg d hd) _ (by simp)
    · rw [run_seq, run_set_cons, if_pos (by rcases hs with rfl | rfl <;> rfl), run_seq]
      apply run_star_all spc g' _ _ none [] _ _ (fun d hd => by rw [has_spc]; exact hg' d hd) (stops_coord c hc t) (by simp)
      rw [run_group]
      apply run_FR c hc _ _ _ _ _ _ ht
      · rw [upTo_append]
      · intro d hd
        cases hr : g'.reverse with
        | nil =>
          rw [hr] at hd; cases hd
          rcases hs with rfl | rfl <;> decide
        | cons x y =>
          rw [hr] at hd; cases hd
          have := hg' d (by rw [← List.mem_reverse, hr]; simp)
          exact ⟨(space_cases this).1, (space_cases this).2.2.2.2.1⟩
    · intro d hd; cases hd; rw [has_spc]; exact hsp
  refine ⟨c.text.reverse ++ (g'.reverse ++ (sep :: (g.reverse ++ (k.reverse ++ pre)))), ?_⟩
  · rw [run_seq, run_alt]
    rcases hk with hk | hk
    · rw [run_ciRe _ k (by decide) hk, hrest]; rfl
    · rw [run_ciRe _ k (by decide) hk, hrest]
      rw [run_none]
      · rfl
      intro w u hst hl
      exfalso
      rw [lang_ci _ (by decide)] at hl
      have e := congrArg (fun x => (Str.lower x).take 1) hst.post
      cases w with
      | nil => simp [Str.lower] at hl
      | cons x w =>
        cases k with
        | nil => simp [Str.lower] at hk
        | cons y k =>
          simp [Str.lower] at hl hk e
          omega

theorem spin_search {a k g g' t : Str} {sep : Nat} {c : Coord}
    (ha : ∀ u v, a = u ++ v → v ≠ [] → ¬ StartsCi (py"spin") (v ++ (k ++ (g ++ (sep :: (g' ++ (c.text ++ t)))))) ∧
        ¬ StartsCi (py"magmom") (v ++ (k ++ (g ++ (sep :: (g' ++ (c.text ++ t)))))))
    (hk : Str.lower k = py"spin" ∨ Str.lower k = py"magmom") (hg : Blank g) (hs : sep = c!"=" ∨ sep = c!":")
    (hg' : Blank g') (hc : c.Valid) (ht : AtGap t) :
    ∃ m, Res.POSITIONS_SPIN_RE.search (a ++ (k ++ (g ++ (sep :: (g' ++ (c.text ++ t)))))) = some m ∧
      m.named (py"spin") = some c.text := by
  obtain ⟨pre', hr⟩ := spin_run hk hg hs hg' hc ht (a.reverse ++ [])
  rw [← SPIN_eq, run_unci] at hr
  rw [Pat.search, Pat.searchFrom_skip _ a [] _ (fun u v e hv => spin_matchAt_none (ha u v e hv).1 (ha u v e hv).2)]
  have hm := Pat.matchAt_eq Res.POSITIONS_SPIN_RE (a.reverse ++ []) (k ++ (g ++ (sep :: (g' ++ (c.text ++ t)))))
  rw [hr] at hm
  have hn := spin_names
  generalize Res.POSITIONS_SPIN_RE = p at *
  refine ⟨_, Pat.searchFrom_of_matchAt hm, ?_⟩
  rw [Match.named]
  simp only [hn]; rfl

/-! ### The entries -/

theorem positionInfo_line {line : Str} {a : AtomLine} (h : PosLine line a) (units : Option Str)
    (hr : (∀ c ∈ a.coords, c.InRange) ∧ ∀ c ∈ a.spin, c.InRange) :
    ∃ m x1 x2 x3 s, Res.POSITIONS_LINE_RE.match_ line = some m ∧ m.named (py"spec") = some a.spec ∧
      F64.Nearest a.pos.1.value x1 ∧ F64.Nearest a.pos.2.1.value x2 ∧ F64.Nearest a.pos.2.2.value x3 ∧
      Option.Rel (fun c x => F64.Nearest c.value x) a.spin s ∧
      positionInfo units line m = .ok (atomInfo units x1 x2 x3 s) := by
  obtain ⟨g, g1, g2, g3, t, e, hg, hw, hg1, n1, hg2, n2, hg3, n3, hc, ht, hspin, hmix⟩ := h
  obtain ⟨m, hm, hspec, hpos⟩ := positions_match g a.spec g1 g2 g3 t a.pos.1 a.pos.2.1 a.pos.2.2 hg hw hg1 hg2 hg3 n1 n2 n3
    (hc _ (by simp [AtomLine.coords])) (hc _ (by simp [AtomLine.coords])) (hc _ (by simp [AtomLine.coords])) ht
  rw [← e] at hm
  obtain ⟨xs, hxs, hn⟩ := coords_float a.coords fun c h => ⟨hc c h, hr.1 c h⟩
  obtain ⟨x1, x2, x3, rfl, h1, h2, h3⟩ : ∃ x1 x2 x3, xs = [x1, x2, x3] ∧ F64.Nearest a.pos.1.value x1 ∧
      F64.Nearest a.pos.2.1.value x2 ∧ F64.Nearest a.pos.2.2.value x3 := by
    cases hn with
    | cons h1 hn => cases hn with
      | cons h2 hn => cases hn with
        | cons h3 hn => cases hn; exact ⟨_, _, _, rfl, h1, h2, h3⟩
  have hsplit : Str.split ((m.named (py"pos")).getD []) = a.coords.map (·.text) := by
    rw [hpos, Option.getD_some]
    have v1 := hc a.pos.1 (by simp [AtomLine.coords])
    have v2 := hc a.pos.2.1 (by simp [AtomLine.coords])
    have v3 := hc a.pos.2.2 (by simp [AtomLine.coords])
    rw [split_word g1 _ _ hg1 (coord_nospace _ v1) (coord_ne_nil _ v1) (AtGap.append hg2 n2),
      split_word g2 _ _ hg2 (coord_nospace _ v2) (coord_ne_nil _ v2) (AtGap.append hg3 n3)]
    have := split_word g3 _ [] hg3 (coord_nospace _ v3) (coord_ne_nil _ v3) .nil
    rw [List.append_nil] at this
    rw [this]; rfl
  have hb : positionInfo units line m = (do
      let info : Dict Key PyVal := match units with
        | some u => Dict.set [(.str (py"pos"), .tuple [.float x1, .float x2, .float x3])] (.str (py"units")) (.str u)
        | none => [(.str (py"pos"), .tuple [.float x1, .float x2, .float x3])]
      match Res.POSITIONS_SPIN_RE.search line with
      | some m => do
        let v ← to_type .float (optStr (m.named (py"spin")))
        .ok (info.set (.str (py"spin")) v)
      | none => .ok info) := by
    rw [positionInfo, hsplit, hxs, mixture_none hmix]
    cases units <;> cases Res.POSITIONS_SPIN_RE.search line with
      | none => rfl
      | some m' =>
        simp only [bind, Except.bind, pure, Except.pure]
        cases to_type .float (optStr (m'.named (py"spin"))) <;> rfl
  generalize hsp : a.spin = sp at hspin hr
  cases hspin with
  | plain s1 s2 =>
    refine ⟨m, x1, x2, x3, none, hm, hspec, h1, h2, h3, .none, ?_⟩
    rw [hb, spin_none s1 s2]
    cases units <;> rfl
  | @spin a' k b sep b' t' c ha hk hb1 hs hb2 hcv ht' =>
    obtain ⟨m', hm', hn'⟩ := spin_search ha hk hb1 hs hb2 hcv ht'
    obtain ⟨x, hx, hxn⟩ := coord_float c hcv (hr.2 c rfl)
    refine ⟨m, x1, x2, x3, some x, hm, hspec, h1, h2, h3, .some hxn, ?_⟩
    rw [hb, hm']
    simp only [hn', optStr, hx]
    cases units <;> rfl

/-- The closing line is no position. -/
theorem positions_close {l : Str} (h : ClosesBlock l) : Res.POSITIONS_LINE_RE.match_ l = none := by
  apply matchAt_none_of_lang POSITIONS_LINE_eq
  rintro w v rfl hl
  obtain ⟨g, k, v', e, hg, hk⟩ := h
  obtain ⟨u1, w1, rfl, hu1, u2, w2, rfl, hu2, w3, w4, rfl, ⟨a, b, rfl, ⟨c, hc, rfl⟩, -⟩, -⟩ := hl
  obtain rfl : u1 = [] := hu1
  rw [has_up] at hc
  have hu2 : Blank u2 := by
    intro d hd
    have := ((lang_rep_set _ _ _ _ _).1 hu2).1 d hd
    rwa [has_spc] at this
  cases k with
  | nil => simp [Str.lower] at hk
  | cons d k =>
    have hd : lowerC d = 37 := by simpa [Str.lower] using (List.cons.inj hk).1
    have h1 : (g ++ (d :: k) ++ v').dropWhile isSpace = d :: k ++ v' := by
      rw [List.append_assoc, List.dropWhile_append_of_pos (fun x hx => hg x hx), List.cons_append, List.dropWhile_cons,
        isSpace_of_lower (c := d) (by rw [hd]; decide)]; rfl
    have h2 : ([] ++ (u2 ++ ([c] ++ b ++ w4)) ++ v).dropWhile isSpace = c :: (b ++ w4 ++ v) := by
      have hcs : isSpace c = false := by simp [isUpper] at hc; simp [isSpace]; omega
      rw [List.nil_append, List.append_assoc, List.dropWhile_append_of_pos (fun x hx => hu2 x hx)]
      simp [List.dropWhile_cons, hcs]
    rw [e, h1] at h2
    obtain rfl : d = c := (List.cons.inj h2).1
    rw [lowerC, if_pos hc] at hd
    simp [isUpper] at hc; omega

theorem loop_none (units : Option Str) (line : Str) (l : List Str) (count : Dict Str Nat) (accum : Dict Key PyVal)
    (h : Res.POSITIONS_LINE_RE.match_ line = none) :
    positionsLoop units (line :: l) count accum = positionsLoop units l count accum := by
  simp only [positionsLoop, positionsLoopWith, h]

theorem loop_some (units : Option Str) (line : Str) (l : List Str) (count : Dict Str Nat) (accum : Dict Key PyVal)
    (m : Match) (h : Res.POSITIONS_LINE_RE.match_ line = some m) :
    positionsLoop units (line :: l) count accum = (do
      let info ← positionInfo units line m
      positionsLoop units l (count.set ((m.named (py"spec")).getD [])
          ((count.get? ((m.named (py"spec")).getD [])).getD 0 + 1))
        (accum.set (.tup [.str ((m.named (py"spec")).getD []),
          .int ((count.get? ((m.named (py"spec")).getD [])).getD 0 + 1 : Nat)]) (.dict info))) := by
  simp only [positionsLoop, positionsLoopWith, h]

theorem positionsLoop_spec (units : Option Str) (last : Str) (hl : ClosesBlock last) : ∀ (lines : List Str) (atoms : List AtomLine),
    List.Forall₂ PosLine lines atoms → (∀ a ∈ atoms, (∀ c ∈ a.coords, c.InRange) ∧ ∀ c ∈ a.spin, c.InRange) →
    ∀ (before : List Str) (count : Dict Str Nat) (accum : Dict Key PyVal),
      (∀ w, (count.get? w).getD 0 = before.count w) →
      (∀ k ∈ accum.keys, ∃ w n, k = .tup [.str w, .int (n : Nat)] ∧ n ≤ before.count w) →
      ∃ es : List (Key × PyVal), positionsLoop units (lines ++ [last]) count accum = .ok (accum ++ es) ∧
        es.length = atoms.length ∧
        ∀ i a, atoms[i]? = some a → ∃ e, es[i]? = some e ∧
          EntryOf units a (before.count a.spec + numberOf atoms i a) e := by
  intro lines atoms h
  induction h with
  | nil =>
    intro _ before count accum _ _
    refine ⟨[], ?_, rfl, by simp⟩
    rw [List.nil_append, loop_none _ _ _ _ _ (positions_close hl), positionsLoop, positionsLoopWith, List.append_nil]
  | @cons l a ls as hla _ ih =>
    intro hr before count accum hcount hacc
    obtain ⟨m, x1, x2, x3, s, hm, hspec, h1, h2, h3, h4, hinfo⟩ := positionInfo_line hla units (hr a (by simp))
    have hnew : Key.tup [.str a.spec, .int ((before.count a.spec + 1 : Nat) : Int)] ∉ accum.keys := by
      intro hk
      obtain ⟨w, n, e, hn⟩ := hacc _ hk
      simp only [Key.tup.injEq, List.cons.injEq, Key.str.injEq, Key.int.injEq, and_true, Int.natCast_inj] at e
      rw [← e.1] at hn; omega
    obtain ⟨es, he, hlen, hes⟩ := ih (fun b hb => hr b (by simp [hb])) (before ++ [a.spec])
      (count.set a.spec (before.count a.spec + 1))
      (accum ++ [(.tup [.str a.spec, .int ((before.count a.spec + 1 : Nat) : Int)], .dict (atomInfo units x1 x2 x3 s))])
      (by
        intro w
        rw [List.count_append]
        by_cases hw : w = a.spec
        · subst hw; rw [Dict.get?_set_self]; simp
        · rw [Dict.get?_set_ne _ _ _ _ hw, hcount]; simp [List.count_singleton, Ne.symm hw])
      (by
        intro k hk
        simp only [Dict.keys, List.map_append, List.mem_append, List.map_cons, List.map_nil, List.mem_singleton] at hk
        rcases hk with hk | rfl
        · obtain ⟨w, n, e, hn⟩ := hacc k hk
          exact ⟨w, n, e, by rw [List.count_append]; omega⟩
        · exact ⟨a.spec, _, rfl, by rw [List.count_append]; simp⟩)
    refine ⟨(.tup [.str a.spec, .int ((before.count a.spec + 1 : Nat) : Int)], .dict (atomInfo units x1 x2 x3 s)) :: es,
      ?_, by simp [hlen], ?_⟩
    · rw [List.cons_append, loop_some _ _ _ _ _ _ hm, hspec, hinfo]
      simp only [Option.getD_some, hcount, bind, Except.bind]
      rw [Dict.set_eq_append _ _ _ hnew, he]
      simp
    · intro i b hb
      cases i with
      | zero =>
        simp only [List.getElem?_cons_zero, Option.some.injEq] at hb
        subst hb
        refine ⟨_, rfl, x1, x2, x3, s, ?_, h1, h2, h3, h4⟩
        simp [numberOf]
      | succ i =>
        simp only [List.getElem?_cons_succ] at hb
        obtain ⟨e, h5, h6⟩ := hes i b hb
        refine ⟨e, by simpa using h5, ?_⟩
        have : before.count b.spec + numberOf (a :: as) (i + 1) b = (before ++ [a.spec]).count b.spec + numberOf as i b := by
          simp only [numberOf, List.take_succ_cons, List.map_cons, List.count_append, List.count_cons, List.count_nil]
          omega
        rw [this]; exact h6

/-! ### Units -/

abbrev nsp : CSet := cset [.notSpace]

theorem UNITS_eq : UNITS_RE.re = .seq .bol (.seq (star spc) (.seq (.group 1 (plus nsp))
    (.seq (star spc) .eol))) := by decide +kernel

theorem has_nsp (c : Nat) : CSet.has nsp c = !isSpace c := by simp [CSet.has, CItem.has]

theorem units_some (g w : Str) (hg : Blank g) (hw : ∀ c ∈ w, isSpace c = false) (hw0 : w ≠ []) :
    ∃ m, UNITS_RE.match_ (g ++ w) = some m ∧ m.group 1 = some w := by
  have hrun := match_caps UNITS_RE (g ++ w)
  have key : run (.seq .bol (.seq (star spc) (.seq (.group 1 (plus nsp))
    (.seq (star spc) .eol)))) ⟨[], g ++ w, []⟩ (fun t => some t.caps) = some [(1, w)] := by
    rw [run_seq, run_bol]
    simp only [List.isEmpty_nil, if_true]
    rw [run_seq]
    apply run_star_all spc g [] _ none [] _ _ (fun d hd => by rw [has_spc]; exact hg d hd) _ (by simp)
    · rw [run_seq, run_group]
      have := run_plus_all nsp 1 w (g.reverse ++ []) [] none []
        (fun t => run (.seq (star spc) .eol) { t with caps := (1, St.upTo ⟨g.reverse ++ [], w, []⟩ t) :: t.caps }
          fun t => some t.caps) [(1, w)] (by cases w; exact absurd rfl hw0; simp)
        (fun c hc => by rw [has_nsp, hw c hc]; rfl) (by intro c hc; cases hc) (by simp)
        (by
          rw [run_seq, run_star_stop _ _ _ _ _ _ _ (by intro c hc; cases hc), run_eol]
          simp [St.upTo])
      rw [List.append_nil w] at this
      exact this
    · intro c hc
      rw [has_spc]
      cases w with
      | nil => cases hc
      | cons d w => cases hc; exact hw c (by simp)
  rw [UNITS_eq, key] at hrun
  cases hm : UNITS_RE.match_ (g ++ w) with
  | none => rw [hm] at hrun; cases hrun
  | some m =>
    rw [hm] at hrun
    simp only [Option.map_some, Option.some.injEq] at hrun
    refine ⟨m, rfl, ?_⟩
    show (m.caps.find? _).map _ = _
    rw [hrun]; rfl

theorem units_none {l : Str} (h : (Str.split l).length ≠ 1) : UNITS_RE.match_ l = none := by
  rw [Pat.match_, Pat.matchAt_eq, UNITS_eq]
  have key : run (.seq .bol (.seq (star spc) (.seq (.group 1 (plus nsp))
    (.seq (star spc) .eol)))) ⟨[], l, []⟩ some = none := by
    cases hr : run (.seq .bol (.seq (star spc) (.seq (.group 1 (plus nsp))
      (.seq (star spc) .eol)))) ⟨[], l, []⟩ some with
    | none => rfl
    | some x =>
      exfalso
      apply h
      rw [run_seq, run_bol] at hr
      simp only [List.isEmpty_nil, if_true] at hr
      rw [run_seq] at hr
      obtain ⟨t1, u1, s1, l1, hr⟩ := run_some hr
      rw [run_seq] at hr
      obtain ⟨t2, u2, s2, l2, hr⟩ := run_some hr
      rw [run_seq] at hr
      obtain ⟨t3, u3, s3, l3, hr⟩ := run_some hr
      rw [run_eol] at hr
      have e1 := s1.post; have e2 := s2.post; have e3 := s3.post
      simp only at e1
      have hend : Blank t3.post := by
        intro c hc
        by_cases hh : (t3.post.isEmpty || t3.post == [10]) = true
        · simp only [Bool.or_eq_true, List.isEmpty_iff, beq_iff_eq] at hh
          rcases hh with hh | hh <;> rw [hh] at hc
          · cases hc
          · simp at hc; subst hc; rfl
        · rw [if_neg hh] at hr; cases hr
      have b1 : Blank u1 := fun d hd => by
        have := ((lang_rep_set _ _ _ _ _).1 l1).1 d hd; rwa [has_spc] at this
      have b3 : Blank u3 := fun d hd => by
        have := ((lang_rep_set _ _ _ _ _).1 l3).1 d hd; rwa [has_spc] at this
      have l2' := (lang_rep_set _ _ _ _ _).1 (show Lang (plus nsp) u2 from l2)
      rw [e1, e2, e3, split_word u1 u2 _ b1 (fun c hc => by
        have := l2'.1 c hc; rw [has_nsp] at this; simpa using this) (by
          rintro rfl; have := l2'.2.1; simp at this)]
      · have : Str.split (u3 ++ t3.post) = [] := by
          have := split_append_blank [] (u3 ++ t3.post) (by
            intro c hc
            rcases List.mem_append.1 hc with h | h
            · exact b3 c h
            · exact hend c h)
          rw [List.nil_append] at this
          rw [this]; rfl
        rw [this]; rfl
      · apply AtGap.blank
        intro c hc
        rcases List.mem_append.1 hc with h | h
        · exact b3 c h
        · exact hend c h
  rw [key]; rfl

theorem posLine_words {l : Str} {a : AtomLine} (h : PosLine l a) : (Str.split l).length ≠ 1 := by
  obtain ⟨g, g1, g2, g3, t, e, hg, hw, hg1, n1, hg2, n2, hg3, n3, hc, ht, -⟩ := h
  have v1 := hc a.pos.1 (by simp [AtomLine.coords])
  obtain ⟨x, y, hxy, hx, hy, -⟩ := hw
  rw [e, split_word g a.spec _ hg _ (by rw [hxy]; simp) (AtGap.append hg1 n1),
    split_word g1 _ _ hg1 (coord_nospace _ v1) (coord_ne_nil _ v1) (AtGap.append hg2 n2)]
  · simp
  · rw [hxy]
    intro c hc
    rcases List.mem_cons.1 hc with rfl | hc
    · simp [isUpper] at hx; simp [isSpace]; omega
    · have := hy c hc; simp [isLower] at this; simp [isSpace]; omega

end Cell
end Verif

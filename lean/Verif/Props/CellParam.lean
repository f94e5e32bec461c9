import Verif.Lemmas.Setting
/-
C33-C36: .cell and .param files.
-/
namespace Verif.Props
open Verif Spec Cell

/-! ### C36: blocks that are not closed -/

/-- C36.  If a line opens a block and no later line closes one, `OSError` is raised, unless an error was met
before that line.  In particular nothing is returned. -/
theorem C36_unterminated_partial (pre : List Str) (l : Str) (post : List Str) (hl : OpensBlock l)
    (hp : ∀ x ∈ post, ¬ ClosesBlock x) :
    parse_cell_param_file (pre ++ l :: post) = .error .osError ∨
    ∃ e p, p <+: pre ∧ parse_cell_param_file p = .error e ∧
      parse_cell_param_file (pre ++ l :: post) = .error e := by
  have key : ∀ (pre' : List Str) (ss : List (List Str)) (l' : Str) (post' : List Str), Segments pre' ss →
      OpensBlock l' → (∀ x ∈ post', ¬ ClosesBlock x) → pre' <+: pre →
      pre ++ l :: post = pre' ++ l' :: post' →
      parse_cell_param_file (pre ++ l :: post) = .error .osError ∨
      ∃ e p, p <+: pre ∧ parse_cell_param_file p = .error e ∧
        parse_cell_param_file (pre ++ l :: post) = .error e := by
    intro pre' ss l' post' hs ho hc hpre e
    rw [e, parse_cell_param_file, fileLoop_segments_open hs _ _ ho hc _ _ (by simp; omega)]
    cases hd : segments ss [] with
    | ok d => left; rfl
    | error er =>
      right
      refine ⟨er, pre', hpre, ?_, rfl⟩
      rw [parse_segments hs, hd]; rfl
  rcases segments_exist pre with ⟨ss, hs⟩ | ⟨pre', ss, l', post', e, hs, h1, h2⟩
  · exact key pre ss l post hs hl hp (List.prefix_refl _) rfl
  · by_cases hc : ClosesBlock l
    · -- the line both opens and closes a block: impossible
      exfalso
      obtain ⟨u, g, k, v, hu, e1, hg, hk⟩ := hl
      obtain ⟨g', k', v', e2, hg', hk'⟩ := hc
      obtain ⟨w, rfl⟩ : ∃ w, l = u ++ w := by
        rcases hu with ⟨rfl, -⟩ | ⟨⟨c, -, w, e⟩, -⟩
        · exact ⟨[], by simp⟩
        · exact ⟨c ++ w, by simpa using e⟩
      rw [e1] at e2
      -- compare the characters after the leading whitespace
      have hd : ∀ (g g' : Str) (a b : List Nat), Blank g → Blank g' → g ++ a = g' ++ b →
          (∀ c, a.head? = some c → isSpace c = false) → (∀ c, b.head? = some c → isSpace c = false) → a = b := by
        intro g
        induction g with
        | nil =>
          intro g' a b _ hg' e ha hb
          cases g' with
          | nil => exact e
          | cons c g' =>
            rw [List.nil_append, List.cons_append] at e
            have := ha c (by rw [e]; rfl)
            rw [hg' c (by simp)] at this; cases this
        | cons d g ih =>
          intro g' a b hg hg' e ha hb
          cases g' with
          | nil =>
            rw [List.nil_append, List.cons_append] at e
            have := hb d (by rw [← e]; rfl)
            rw [hg d (by simp)] at this; cases this
          | cons c g' =>
            simp only [List.cons_append, List.cons.injEq] at e
            exact ih g' a b (fun x hx => hg x (by simp [hx])) (fun x hx => hg' x (by simp [hx])) e.2 ha hb
      have hvis : ∀ (k s : Str), Str.lower k = s → s.head? = some 37 → ∀ v : Str, ∀ c, (k ++ v).head? = some c →
          isSpace c = false := by
        intro k s hk hs v c hc
        cases k with
        | nil => rw [← hk] at hs; simp [Str.lower] at hs
        | cons d k =>
          rw [← hk] at hs
          simp only [Str.lower, List.map_cons, List.head?_cons, Option.some.injEq] at hs
          simp only [List.cons_append, List.head?_cons, Option.some.injEq] at hc
          subst hc
          exact isSpace_of_lower (by rw [hs]; decide)
      have := hd g g' (k ++ (v ++ w)) (k' ++ v') hg hg' (by simpa using e2)
        (hvis k _ hk rfl _) (hvis k' _ hk' rfl _)
      have := congrArg (fun t => Str.lower (t.take 2)) this
      rcases k with _ | ⟨a, _ | ⟨b, k⟩⟩ <;> rcases k' with _ | ⟨a', _ | ⟨b', k'⟩⟩ <;>
        simp [Str.lower] at hk hk' this
      omega
    · exact key pre' ss l' (post' ++ l :: post) hs h1
        (by
          intro x hx
          rcases List.mem_append.1 hx with h | h
          · exact h2 x h
          · rcases List.mem_cons.1 h with rfl | h
            · exact hc
            · exact hp x h)
        (by rw [e]; exact ⟨_, rfl⟩) (by rw [e]; simp)

/-- C36 hypotheses: a block left open after a setting and a complete block. -/
example : OpensBlock (py"  %BLOCK positions_frac ! here\n") ∧
    parse_cell_param_file ([py"a : 1\n", py"%block b\n", py"%endblock b\n"] ++
      py"  %BLOCK positions_frac ! here\n" :: [py"H 0 0 0\n"]) = .error .osError := by
  refine ⟨⟨py"  %BLOCK positions_frac ", py"  ", py"%BLOCK ", py"positions_frac ", ?_, rfl, ?_, by decide⟩, by decide +kernel⟩
  · rw [show py"  %BLOCK positions_frac " = (py"  %BLOCK positions_frac ! here\n").takeWhile keepC by decide]
    exact uncommented_takeWhile _
  · intro c hc; revert c hc; decide

/-- C36 fails for blocks that are not closed by an `%endblock` of their own name: the block `a` below has no
`%endblock a`, but is silently taken to end with the next block. -/
theorem C36_name_ignored : ∃ v, parse_cell_param_file
    [py"%block a\n", py"1 2\n", py"%block b\n", py"3 4\n", py"%endblock b\n", py"c : 5\n"] = .ok v := by
  have h : (parse_cell_param_file
    [py"%block a\n", py"1 2\n", py"%block b\n", py"3 4\n", py"%endblock b\n", py"c : 5\n"]).isOk = true := by decide +kernel
  revert h
  generalize parse_cell_param_file _ = r
  intro h
  cases r with
  | error e => cases h
  | ok v => exact ⟨v, rfl⟩

/-! ### C35: settings -/

/-- C35.  A file all of whose blocks are closed is read piece by piece: if every block and every other line
can be read on its own, the file can be; otherwise the error is that of the first that cannot. -/
theorem C35_pieces (ls : List Str) (ss : List (List Str)) (h : Segments ls ss) :
    (∃ ds d, List.Forall₂ (fun s d => parse_cell_param_file s = .ok (.list [.dict d])) ss ds ∧
      parse_cell_param_file ls = .ok (.list [.dict d])) ∨
    ∃ ss1 s ss2 e, ss = ss1 ++ s :: ss2 ∧ (∀ x ∈ ss1, ∃ d, parse_cell_param_file x = .ok (.list [.dict d])) ∧
      parse_cell_param_file s = .error e ∧ parse_cell_param_file ls = .error e := by
  have hself := segments_self h
  rcases segments_cases ss [] with ⟨os, h1, h2⟩ | ⟨ss1, s, ss2, e, h1, h2, h3, h4⟩
  · left
    refine ⟨os.map (put []), os.foldl put [], ?_, by rw [parse_segments h, h2]; rfl⟩
    clear h h2
    induction h1 with
    | nil => exact .nil
    | cons hs _ ih =>
      refine .cons ?_ (ih fun x hx => hself x (by simp [hx]))
      rw [parse_segment (hself _ (by simp)), hs]; rfl
  · right
    refine ⟨ss1, s, ss2, e, h1, ?_, ?_, by rw [parse_segments h, h4]; rfl⟩
    · intro x hx
      obtain ⟨o, ho⟩ := h2 x hx
      exact ⟨_, by rw [parse_segment (hself x (by simp [h1, hx])), ho]; rfl⟩
    · rw [parse_segment (hself s (by simp [h1])), h3]; rfl

/-- C35.  The value of a keyword is the one set by the last block or setting that sets it. -/
theorem C35_last (ls : List Str) (ss : List (List Str)) (h : Segments ls ss) (d : Dict Key PyVal)
    (hd : parse_cell_param_file ls = .ok (.list [.dict d])) :
    ∃ ds : List (Dict Key PyVal), List.Forall₂ (fun s d => parse_cell_param_file s = .ok (.list [.dict d])) ss ds ∧
      ∀ k, d.get? k = ds.reverse.findSome? (·.get? k) := by
  have hself := segments_self h
  rcases segments_cases ss [] with ⟨os, h1, h2⟩ | ⟨ss1, s, ss2, e, h1, h2, h3, h4⟩
  · refine ⟨os.map (put []), ?_, ?_⟩
    · clear h h2 hd
      induction h1 with
      | nil => exact .nil
      | cons hs _ ih =>
        refine .cons ?_ (ih fun x hx => hself x (by simp [hx]))
        rw [parse_segment (hself _ (by simp)), hs]; rfl
    · intro k
      rw [parse_segments h, h2] at hd
      have hd : os.foldl put [] = d := by
        have := hd
        simp only [bind, Except.bind, pure, Except.pure, Except.ok.injEq, PyVal.list.injEq, List.cons.injEq,
          PyVal.dict.injEq, and_true] at this
        exact this
      rw [← hd, get?_foldl_put, ← List.map_reverse, List.findSome?_map]
      simp [Dict.get?, Function.comp_def]
  · rw [parse_segments h, h4] at hd; cases hd

/-- C35.  A block or other line on its own sets at most one keyword, in lower case. -/
theorem C35_one_key (ls : List Str) (s : List Str) (h : Segments ls [s]) (d : Dict Key PyVal)
    (hd : parse_cell_param_file ls = .ok (.list [.dict d])) :
    d = [] ∨ ∃ k v, d = [(.str k, v)] ∧ Str.lower k = k := by
  obtain rfl : ls = s := by
    revert h
    generalize hss : [s] = ss
    intro h
    cases h with
    | nil => cases hss
    | line _ h => cases hss; cases h; rfl
    | block _ _ _ h => cases hss; cases h; rfl
  rw [parse_segment h] at hd
  cases hs : segment ls with
  | error e => rw [hs] at hd; cases hd
  | ok o =>
    rw [hs] at hd
    cases o with
    | none => cases hd; exact .inl rfl
    | some kv => cases hd; exact .inr ⟨kv.1, kv.2, rfl, segment_key hs⟩

/-- C35.  Comments and blank lines make no difference: two files with the same text outside comments, disregarding
trailing whitespace and blank lines, give the same result, whatever it is.  No line may open a block
without naming it. -/
theorem C35_comments (f f' o : List Str) (h : KeptInline cellComments f o) (h' : KeptInline cellComments f' o)
    (hb : ∀ l ∈ f, ¬ BareBlock l) (hb' : ∀ l ∈ f', ¬ BareBlock l) :
    parse_cell_param_file f = parse_cell_param_file f' := by
  have hbare : ∀ l, ¬ BareBlock l → ¬ Bare l := by
    rintro l hl ⟨g, k, e, hg, hk⟩
    obtain ⟨v, hv, hvb⟩ := clean_split l
    exact hl ⟨_, g, k, v, uncommented_takeWhile l, by rw [hv, e], hg, hk, hvb⟩
  rw [← parse_clean f fun l hl => hbare l (hb l hl), ← parse_clean f' fun l hl => hbare l (hb' l hl)]
  have e := (C20_inline f cellComments (by decide) o).2 h
  have e' := (C20_inline f' cellComments (by decide) o).2 h'
  rw [show strip_comments f (remove_inline := true) = o from e, show strip_comments f' (remove_inline := true) = o from e']

/-- C35.  The letter case of the keyword of a setting makes no difference. -/
theorem C35_case (g key key' rest : Str) (hg : Blank g) (hk0 : key ≠ [])
    (hk : ∀ c ∈ key, isAlpha c = true ∨ c = c!"_") (hr : ∀ c, rest.head? = some c → ¬ (isAlpha c = true ∨ c = c!"_"))
    (hl : Str.lower key = Str.lower key') :
    parse_cell_param_file [g ++ key ++ rest] = parse_cell_param_file [g ++ key' ++ rest] := by
  have hkc : ∀ c, keyC c = true ↔ (isAlpha c = true ∨ c = c!"_") := by intro c; simp [keyC]
  have hk' : ∀ c ∈ key', keyC c = true := by
    intro c hc
    have : lowerC c ∈ Str.lower key := by rw [hl]; exact List.mem_map.2 ⟨c, hc, rfl⟩
    obtain ⟨d, hd, e⟩ := List.mem_map.1 this
    have := (hkc d).2 (hk d hd)
    revert this e
    simp only [keyC, isAlpha, isUpper, isLower, lowerC, Bool.or_eq_true, Bool.and_eq_true, decide_eq_true_eq, beq_iff_eq]
    split <;> split <;> omega
  have hk0' : key' ≠ [] := by
    rintro rfl
    cases key with
    | nil => exact hk0 rfl
    | cons c key => simp [Str.lower] at hl
  have hlead : ∀ key : Str, key ≠ [] → (∀ c ∈ key, keyC c = true) →
      Segments [g ++ key ++ rest] [[g ++ key ++ rest]] ∧
      segment [g ++ key ++ rest] = parseSetting (g ++ (key ++ rest.takeWhile keepC)) := by
    intro key h0 hk
    have ht : (g ++ key ++ rest).takeWhile keepC = g ++ (key ++ rest.takeWhile keepC) := by
      have : ∀ (a b : Str), (∀ c ∈ a, keepC c = true) → (a ++ b).takeWhile keepC = a ++ b.takeWhile keepC := by
        intro a b
        induction a with
        | nil => intro _; rfl
        | cons c a ih =>
          intro h
          rw [List.cons_append, List.takeWhile_cons, if_pos (h c (by simp)), ih fun x hx => h x (by simp [hx])]
          rfl
      rw [this, List.append_assoc]
      intro c hc
      rcases List.mem_append.1 hc with h | h
      · exact blank_keepC hg c h
      · have := hk c h
        simp only [keyC, isAlpha, isUpper, isLower, Bool.or_eq_true, Bool.and_eq_true, decide_eq_true_eq, beq_iff_eq] at this
        simp [keepC]; omega
    have hno : ¬ OpensBlock (g ++ key ++ rest) := by
      rintro ⟨u, g', k, v, hu, e, hg', hk'⟩
      obtain rfl := hu.unique (uncommented_takeWhile _)
      rw [ht] at e
      cases key with
      | nil => exact h0 rfl
      | cons c key =>
        cases k with
        | nil => simp [Str.lower] at hk'
        | cons d k =>
          have hd : lowerC d = 37 := by simpa [Str.lower] using (List.cons.inj hk').1
          have hc := hk c (by simp)
          -- the first visible characters agree
          have h1 : (g ++ (c :: key ++ rest.takeWhile keepC)).dropWhile isSpace = c :: key ++ rest.takeWhile keepC := by
            rw [List.dropWhile_append_of_pos (fun x hx => hg x hx), List.cons_append, List.dropWhile_cons,
              keyC_not_space hc]; rfl
          have h2 : (g' ++ (d :: k) ++ v).dropWhile isSpace = d :: k ++ v := by
            rw [List.append_assoc, List.dropWhile_append_of_pos (fun x hx => hg' x hx), List.cons_append, List.dropWhile_cons,
              isSpace_of_lower (c := d) (by rw [hd]; decide)]; rfl
          rw [e, h2] at h1
          obtain rfl : d = c := (List.cons.inj h1).1
          revert hd hc
          simp only [keyC, isAlpha, isUpper, isLower, lowerC, Bool.or_eq_true, Bool.and_eq_true, decide_eq_true_eq, beq_iff_eq]
          split <;> omega
    refine ⟨.line hno .nil, ?_⟩
    rw [segment, if_neg (fun h' => hno ((isStart_iff _).1 h')), splitHead_eq, ht]
  have h1 := hlead key hk0 fun c hc => (hkc c).2 (hk c hc)
  have h2 := hlead key' hk0' hk'
  have h3 : ∀ c ∈ (rest.takeWhile keepC).head?, keyC c = false := ?_
  · rw [parse_segment h1.1, parse_segment h2.1, h1.2, h2.2,
      setting_case g key key' _ hg hk0 (fun c hc => (hkc c).2 (hk c hc)) h3 hl hk']
  intro c hc
  rw [Bool.eq_false_iff, ne_eq, hkc]
  apply hr
  cases rest with
  | nil => cases hc
  | cons d rest =>
    rw [List.takeWhile_cons] at hc
    split at hc
    · exact hc
    · cases hc

/-- C35.  The letter case of the line opening a block makes no difference. -/
theorem C35_case_block (l l' : Str) (rest : List Str) (ho : OpensBlock l) (hl : Str.lower l = Str.lower l') :
    parse_cell_param_file (l :: rest) = parse_cell_param_file (l' :: rest) := by
  have ho' := opens_lower hl ho
  rw [parse_cell_param_file, parse_cell_param_file, List.length_cons, List.length_cons]
  rcases C11_cases isEnd rest 1 (by omega) with hc | ⟨blk, last, rest', e, hlast, hc⟩
  · have hn : ∀ x ∈ rest, isEnd x = false := by
      intro x hx
      have := List.countP_eq_zero.1 (show List.countP isEnd rest = 0 by omega) x hx
      simpa using this
    rw [fileLoop_open _ _ _ _ ((isStart_iff l).2 ho) hn, fileLoop_open _ _ _ _ ((isStart_iff l').2 ho') hn]
  · have hn : ∀ x ∈ blk, isEnd x = false := by
      intro x hx
      have := List.countP_eq_zero.1 (show List.countP isEnd blk = 0 by omega) x hx
      simpa using this
    rw [e, fileLoop_block _ _ _ _ _ _ ((isStart_iff l).2 ho) hn hlast,
      fileLoop_block _ _ _ _ _ _ ((isStart_iff l').2 ho') hn hlast, segment_lower hl ho]

/-- C35 hypotheses: a file with a repeated keyword in different letter case, a block and comments. -/
example : ∃ ss, Segments [py"Task : energy
", py"%block x ! c
", py"1 2
", py"%endblock x
", py"TASK geometry
"] ss ∧
    (parse_cell_param_file [py"Task : energy
", py"%block x ! c
", py"1 2
", py"%endblock x
", py"TASK geometry
"]).isOk
      = true := by
  refine ⟨_, .line ?_ (.block (blk := [py"1 2
"]) ?_ ?_ ?_ (.line ?_ .nil)), by decide +kernel⟩
  · rw [← isStart_iff]; decide +kernel
  · rw [← isStart_iff]; decide +kernel
  · intro x hx; rw [← Cell.isEnd_iff, List.mem_singleton.1 hx]; decide +kernel
  · rw [← Cell.isEnd_iff]; decide +kernel
  · rw [← isStart_iff]; decide +kernel

example : KeptInline cellComments [py"a : 1 # x
", py"
", py"! y
"] [py"a : 1"] ∧
    KeptInline cellComments [py"a : 1"] [py"a : 1"] :=
  ⟨(C20_inline _ _ (by decide) _).1 (by decide +kernel), (C20_inline _ _ (by decide) _).1 (by decide +kernel)⟩

/-- A line `%block` without a name is ignored, but is an error if a comment is added after a space. -/
theorem C35_bare_block : parse_cell_param_file [py"%block
"] = .ok (.list [.dict []]) ∧
    parse_cell_param_file [py"%block ! comment
"] = .error .osError := by decide +kernel

end Verif.Props

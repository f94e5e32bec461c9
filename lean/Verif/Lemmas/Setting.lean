import Verif.Lemmas.CellParam
import Verif.Lemmas.ReSim
/-
Lines of the form `keyword separator value`.
-/
namespace Verif
namespace Cell
open Spec Re NumRe

abbrev sp : CSet := cset [.space]
/-- `[a-z_]` ignoring case -/
abbrev keyS : CSet := ⟨false, [.range 97 122, .ch 95], true⟩
/-- `[ \t:=]` -/
abbrev sepS : CSet := cset [.ch 32, .ch 9, .ch 58, .ch 61]
/-- `[^-+\d\s.]` -/
abbrev firstS : CSet := ⟨true, [.ch 45, .ch 43, .digit, .space, .ch 46], false⟩
/-- `\S` -/
abbrev visS : CSet := cset [.notSpace]

/-- The value with its unit. -/
def valueRe : Re :=
  .seq (.alt (.group 2 (.rep true 1 none (.seq (star sp) N)))
      (.group 3 (.seq (.set firstS) (.rep true 0 none (.seq (star sp) (plus visS))))))
    (.seq (.cond 2 (.rep true 0 (some 1) (.group 4 (.seq (.set sp) (plus visS)))) .eps) (.seq (star sp) .eol))

/-- What follows the keyword. -/
def restRe : Re := .seq (star sp) (.seq (.set sepS) (.seq (star sp) valueRe))

theorem param_eq : unci Res.PARAM_VALUE_RE.re =
    .seq .bol (.seq (star sp) (.seq (.group 1 (plus keyS)) restRe)) := by decide +kernel

/-- Letters and underscore. -/
def keyC (c : Nat) : Bool := isAlpha c || c == 95

theorem has_key (c : Nat) : keyS.has c = keyC c := by
  rw [Bool.eq_iff_iff]
  simp only [CSet.has, List.any_cons, List.any_nil, CItem.has, Bool.or_false, Bool.true_and, Bool.false_bne,
    keyC, isAlpha, Bool.or_eq_true, Bool.and_eq_true, decide_eq_true_eq, beq_iff_eq]
  by_cases h1 : isUpper c = true
  · have h2 : isLower c = false := by simp [isUpper, isLower] at *; omega
    simp only [lowerC, upperC, h1, h2, if_true, Bool.false_eq_true, if_false]
    refine ⟨fun _ => by simp, fun _ => ?_⟩
    simp [isUpper] at h1; omega
  · by_cases h2 : isLower c = true
    · simp only [lowerC, upperC, h1, h2, if_true, Bool.false_eq_true, if_false, or_true, true_or, iff_true]
      simp [isLower] at h2; omega
    · simp only [lowerC, upperC, h1, h2, Bool.false_eq_true, if_false, or_false, false_or]
      simp [isLower, isUpper] at h1 h2; omega

theorem has_sp (c : Nat) : sp.has c = isSpace c := by simp [CSet.has, CItem.has]
theorem has_sep (c : Nat) : sepS.has c = (c == 32 || c == 9 || c == 58 || c == 61) := by
  simp [CSet.has, CItem.has, Bool.or_assoc]

theorem keyC_not_space {c : Nat} (h : keyC c = true) : isSpace c = false := by
  rw [Bool.eq_false_iff]; intro h'
  have := isSpace_isWord h'
  simp only [keyC, isAlpha, isUpper, isLower, Bool.or_eq_true, Bool.and_eq_true, decide_eq_true_eq, beq_iff_eq] at h
  simp [isWord, isAlnum, isAlpha, isDigit, isUpper, isLower] at this
  omega

theorem keyC_not_sep {c : Nat} (h : keyC c = true) : sepS.has c = false := by
  rw [has_sep]
  simp only [keyC, isAlpha, isUpper, isLower, Bool.or_eq_true, Bool.and_eq_true, decide_eq_true_eq, beq_iff_eq] at h
  simp only [Bool.or_eq_false_iff, beq_eq_false_iff_ne]
  omega

theorem run_rest_key (pre : Str) (c : Nat) (post : Str) (caps) (k : St → Option β) (h : keyC c = true) :
    run restRe ⟨pre, c :: post, caps⟩ k = none := by
  rw [restRe, run_seq, run_star_stop _ _ _ _ _ _ _ (by intro d hd; cases hd; rw [has_sp]; exact keyC_not_space h),
    run_seq, run_set_cons, keyC_not_sep h]
  rfl

/-- A keyword is read completely. -/
theorem setting_run (g key rest : Str) (hg : Blank g) (hk0 : key ≠ []) (hk : ∀ c ∈ key, keyC c = true)
    (hr : ∀ c, rest.head? = some c → keyC c = false) (k : St → Option β) :
    run Res.PARAM_VALUE_RE.re ⟨[], g ++ (key ++ rest), []⟩ k =
      run restRe ⟨(g ++ key).reverse, rest, [(1, key)]⟩ k := by
  rw [← run_unci, param_eq, run_seq, run_bol, if_pos (by rfl), run_seq]
  cases key with
  | nil => exact absurd rfl hk0
  | cons c key =>
    have hc := hk c (by simp)
    rw [run_star_last sp g [] (c :: key ++ rest) [] _ (fun x hx => by rw [has_sp]; exact hg x hx)
      (by intro d hd; cases hd; rw [has_sp]; exact keyC_not_space hc)]
    · rw [run_seq, run_group]
      rw [List.append_nil, List.cons_append, run_plus_cons true keyS 0 none (by simp) _ _ _ _ _ (by rw [has_key]; exact hc)]
      rw [Option.map_none, run_star_last keyS key _ rest [] _ (fun x hx => by rw [has_key]; exact hk x (by simp [hx]))
        (fun d hd => by rw [has_key]; exact hr d hd)]
      · have : St.upTo ⟨g.reverse, c :: (key ++ rest), []⟩ ⟨key.reverse ++ (c :: g.reverse), rest, []⟩ = c :: key := by
          simp only [St.upTo, List.length_cons, List.length_append]
          rw [show key.length + rest.length + 1 - rest.length = (c :: key).length by simp; omega, ← List.cons_append,
            List.take_left']
          rfl
        rw [this]; congr 1; simp
      · intro u v e hv
        cases v with
        | nil => exact absurd rfl hv
        | cons d v => exact run_rest_key _ _ _ _ _ (hk d (by rw [e]; simp))
    · intro u v e hv
      cases v with
      | nil => exact absurd rfl hv
      | cons d v =>
        have hd : isSpace d = true := hg d (by rw [e]; simp)
        rw [run_seq, run_group]
        refine run_plus_stop true keyS 0 none _ _ _ _ ?_
        intro x hx; cases hx
        rw [has_key, Bool.eq_false_iff]
        intro h'; rw [keyC_not_space h'] at hd; cases hd

theorem match_caps (p : Pat) (v : Str) : (p.match_ v).map (·.caps) = run p.re ⟨[], v, []⟩ fun t => some t.caps := by
  rw [Pat.match_, Pat.matchAt_eq, run, run]
  generalize m p.re ⟨[], v, []⟩ = l
  cases l <;> simp

theorem settingWith_run (p : Pat) (u : Str) : settingWith p u =
    match run p.re ⟨[], u, []⟩ (fun t => some (settingOf ⟨[], [], [], t.caps, p.names, 0⟩)) with
    | none => .ok none
    | some r => r.map some := by
  rw [settingWith, Pat.match_, Pat.matchAt_eq, run, run]
  generalize m p.re ⟨[], u, []⟩ = l
  cases l with
  | nil => rfl
  | cons t l =>
    simp only [List.findSome?_cons, Option.map_some]
    rw [settingOf_congr (x := ⟨[].reverse, (⟨[], u, []⟩ : St).upTo t, t.post, t.caps, p.names, p.ngroups⟩)
      (y := ⟨[], [], [], t.caps, p.names, 0⟩) rfl rfl]
    cases settingOf ⟨[], [], [], t.caps, p.names, 0⟩ <;> rfl

theorem lower_strip (s : Str) : Str.lower (Str.strip s) = Str.strip (Str.lower s) := by
  have h : ∀ t : Str, (t.map lowerC).dropWhile isSpace = (t.dropWhile isSpace).map lowerC := by
    intro t
    induction t with
    | nil => rfl
    | cons c t ih =>
      rw [List.map_cons, List.dropWhile_cons, List.dropWhile_cons, (class_lower c).2.1]
      split
      · exact ih
      · rfl
  simp only [Str.strip, Str.rstrip, Str.lstrip, Str.lower]
  rw [h, ← List.map_reverse, h, List.map_reverse]

/-- The groups of the setting pattern. -/
def paramNames : List (Str × Nat) := [(py"key", 1), (py"val", 2), (py"str", 3), (py"unit", 4)]

theorem param_names : Res.PARAM_VALUE_RE.names = paramNames := by decide +kernel

theorem settingOf_case {x y : Match} (hn : x.names = y.names) (hx : x.names = paramNames)
    {l : List (Nat × Str)} {key key' : Str} (h1 : x.caps = l ++ [(1, key)]) (h2 : y.caps = l ++ [(1, key')])
    (hl : Str.lower key = Str.lower key') : settingOf x = settingOf y := by
  have hne : ∀ n, n ≠ 1 → x.group n = y.group n := by
    intro n hn
    rw [Match.group, Match.group, h1, h2, List.find?_append, List.find?_append]
    simp [Ne.symm hn]
  have hkey : Str.lower (Str.strip ((x.group 1).getD [])) = Str.lower (Str.strip ((y.group 1).getD [])) := by
    rw [Match.group, Match.group, h1, h2, List.find?_append, List.find?_append]
    cases l.find? (·.1 = 1) with
    | none => simp [lower_strip, hl]
    | some z => rfl
  have e1 : ∀ z : Match, z.names = x.names → z.named (py"key") = z.group 1 := by
    intro z hz; rw [Match.named, hz, hx]; rfl
  have e2 : ∀ z : Match, z.names = x.names → z.named (py"val") = z.group 2 := by
    intro z hz; rw [Match.named, hz, hx]; rfl
  have e3 : ∀ z : Match, z.names = x.names → z.named (py"str") = z.group 3 := by
    intro z hz; rw [Match.named, hz, hx]; rfl
  have e4 : ∀ z : Match, z.names = x.names → z.named (py"unit") = z.group 4 := by
    intro z hz; rw [Match.named, hz, hx]; rfl
  simp only [settingOf]
  rw [e1 x rfl, e1 y hn.symm, e2 x rfl, e2 y hn.symm, e3 x rfl, e3 y hn.symm, e4 x rfl, e4 y hn.symm, hkey,
    hne 2 (by decide), hne 3 (by decide), hne 4 (by decide)]

theorem simOk_rest : simOk restRe = true := by decide +kernel

theorem setting_case (g key key' rest : Str) (hg : Blank g) (hk0 : key ≠ []) (hk : ∀ c ∈ key, keyC c = true)
    (hr : ∀ c, rest.head? = some c → keyC c = false) (hl : Str.lower key = Str.lower key')
    (hk' : ∀ c ∈ key', keyC c = true) :
    parseSetting (g ++ (key ++ rest)) = parseSetting (g ++ (key' ++ rest)) := by
  have hk0' : key' ≠ [] := by
    rintro rfl
    cases key with
    | nil => exact hk0 rfl
    | cons c key => simp [Str.lower] at hl
  have hdot : ∀ key : Str, key ≠ [] → (∀ c ∈ key, keyC c = true) → ¬ (g ++ key).reverse.head? = some 46 := by
    intro key h0 h1 h
    rw [List.head?_reverse, List.getLast?_append, Option.or_of_isSome (by simpa using h0)] at h
    have := h1 46 (List.mem_of_getLast? h)
    revert this; decide
  rw [parseSetting, settingWith_run, settingWith_run, setting_run g key rest hg hk0 hk hr,
    setting_run g key' rest hg hk0' hk' hr, param_names]
  have := run_sim (b := [(1, key)]) (b' := [(1, key')]) (fun n => by by_cases h : 1 = n <;> simp [h]) restRe simOk_rest
    _ ⟨(g ++ key).reverse, rest, [(1, key)]⟩ ⟨(g ++ key').reverse, rest, [(1, key')]⟩
    (fun t => some (settingOf ⟨[], [], [], t.caps, paramNames, 0⟩))
    (fun t => some (settingOf ⟨[], [], [], t.caps, paramNames, 0⟩))
    ⟨rfl, by simp only [hdot key hk0 hk, hdot key' hk0' hk'], [], rfl, rfl⟩
    (by
      rintro t t' ⟨-, -, l, h2, h3⟩
      rw [settingOf_case (x := ⟨[], [], [], t.caps, paramNames, 0⟩) (y := ⟨[], [], [], t'.caps, paramNames, 0⟩) rfl rfl h2 h3 hl])
  rw [this]

/-! ### Letter case -/

theorem lowerC_lowerC (c : Nat) : lowerC (lowerC c) = lowerC c := by
  by_cases h : isUpper c = true
  · have : isUpper (c + 32) = false := by simp [isUpper] at *; omega
    rw [lowerC, lowerC, if_pos h, this]; rfl
  · rw [lowerC, lowerC, if_neg h, if_neg h]

theorem lower_lower (s : Str) : Str.lower (Str.lower s) = Str.lower s := by
  simp [Str.lower, lowerC_lowerC]

theorem keepC_lower (c : Nat) : keepC (lowerC c) = keepC c := by
  by_cases h : isUpper c = true
  · rw [lowerC, if_pos h]
    simp [isUpper] at h
    rw [Bool.eq_iff_iff]; simp [keepC]; omega
  · rw [lowerC, if_neg h]

theorem lower_clean (l : Str) : Str.lower (clean l) = clean (Str.lower l) := by
  have h : ∀ t : Str, (t.map lowerC).takeWhile keepC = (t.takeWhile keepC).map lowerC := by
    intro t
    induction t with
    | nil => rfl
    | cons c t ih =>
      rw [List.map_cons, List.takeWhile_cons, List.takeWhile_cons, keepC_lower, ih]
      split <;> rfl
  have h2 : ∀ t : Str, (t.map lowerC).dropWhile isSpace = (t.dropWhile isSpace).map lowerC := by
    intro t
    induction t with
    | nil => rfl
    | cons c t ih =>
      rw [List.map_cons, List.dropWhile_cons, List.dropWhile_cons, (class_lower c).2.1]
      split
      · exact ih
      · rfl
  simp only [clean, Str.lower, Str.rstrip]
  rw [h, ← List.map_reverse, h2, List.map_reverse]

theorem split_lower (s : Str) : Str.split (Str.lower s) = (Str.split s).map Str.lower := by
  have : ∀ cur : Str, Str.wordsAux isSpace (cur.map lowerC) (s.map lowerC) =
      (Str.wordsAux isSpace cur s).map Str.lower := by
    induction s with
    | nil =>
      intro cur
      cases cur with
      | nil => rfl
      | cons c cur => simp [Str.wordsAux, Str.lower]
    | cons c s ih =>
      intro cur
      simp only [List.map_cons, Str.wordsAux, (class_lower c).2.1, List.isEmpty_map]
      have h0 := ih []
      have h1 := ih (c :: cur)
      simp only [List.map_nil, List.map_cons] at h0 h1
      by_cases hc : isSpace c = true
      · by_cases he : cur.isEmpty = true
        · simp [hc, he, h0]
        · simp [hc, he, h0, Str.lower]
      · simp [hc, h1]
  exact this []

theorem opens_lower {l l' : Str} (h : Str.lower l = Str.lower l') (ho : OpensBlock l) : OpensBlock l' := by
  obtain ⟨u, g, k, v, hu, e, hg, hk⟩ := ho
  obtain rfl := hu.unique (uncommented_takeWhile _)
  have ht : Str.lower (l'.takeWhile keepC) = Str.lower (l.takeWhile keepC) := by
    have h : ∀ t : Str, Str.lower (t.takeWhile keepC) = (Str.lower t).takeWhile keepC := by
      intro t
      simp only [Str.lower]
      induction t with
      | nil => rfl
      | cons c t ih =>
        rw [List.map_cons, List.takeWhile_cons, List.takeWhile_cons, keepC_lower]
        split
        · rw [List.map_cons, ih]
        · rfl
    rw [h, h, ‹Str.lower l = Str.lower l'›]
  rw [e] at ht
  refine ⟨_, (l'.takeWhile keepC).take g.length, ((l'.takeWhile keepC).drop g.length).take k.length,
    ((l'.takeWhile keepC).drop g.length).drop k.length, uncommented_takeWhile l', ?_, ?_, ?_⟩
  · rw [List.append_assoc, List.take_append_drop, List.take_append_drop]
  · have : Str.lower ((l'.takeWhile keepC).take g.length) = Str.lower g := by
      rw [Str.lower, List.map_take, ← Str.lower, ht]; simp [Str.lower]
    intro c hc
    have hc' : lowerC c ∈ Str.lower g := by rw [← this]; exact List.mem_map.2 ⟨c, hc, rfl⟩
    obtain ⟨d, hd, e⟩ := List.mem_map.1 hc'
    rw [← (class_lower c).2.1, ← e, (class_lower d).2.1]; exact hg d hd
  · rw [← hk]
    have : Str.lower (((l'.takeWhile keepC).drop g.length).take k.length) = Str.lower k := by
      rw [Str.lower, List.map_take, List.map_drop, ← Str.lower, ht]; simp [Str.lower]
    exact this

theorem segment_lower {l l' : Str} (h : Str.lower l = Str.lower l') (ho : OpensBlock l) (blk : List Str) :
    segment (l :: blk) = segment (l' :: blk) := by
  rw [segment_block ho, segment_block (opens_lower h ho)]
  have : (Str.split (clean l))[1]?.map Str.lower = (Str.split (clean l'))[1]?.map Str.lower := by
    rw [← List.getElem?_map, ← List.getElem?_map, ← split_lower, ← split_lower, lower_clean, lower_clean, h]
  cases h1 : (Str.split (clean l))[1]? <;> cases h2 : (Str.split (clean l'))[1]? <;> rw [h1, h2] at this <;>
    simp only [Option.map_none, Option.map_some, reduceCtorEq, Option.some.injEq] at this
  · simp only [this]

theorem settingWith_key {p : Pat} {l : Str} {k : Str} {v : PyVal} (h : settingWith p l = .ok (some (k, v))) :
    Str.lower k = k := by
  rw [settingWith] at h
  cases hm : p.match_ l with
  | none => rw [hm] at h; cases h
  | some m =>
    rw [hm] at h
    simp only at h
    cases hs : settingOf m with
    | error e => rw [hs] at h; cases h
    | ok kv =>
      rw [hs] at h
      cases h
      revert hs
      rw [settingOf]
      cases m.named (py"str") with
      | some val =>
        simp only
        cases to_type (determine_type val) (.str (Str.strip val)) with
        | error e => intro h; cases h
        | ok w => intro h; cases h; exact lower_lower _
      | none =>
        simp only
        have key : ∀ r : PyM PyVal, (do
            let v ← r
            match m.named (py"unit") with
            | some unit =>
              if unit.isEmpty then pure (Str.lower (Str.strip ((m.named (py"key")).getD [])), v)
              else pure (Str.lower (Str.strip ((m.named (py"key")).getD [])), PyVal.tuple [v, .str (Str.strip unit)])
            | none => pure (Str.lower (Str.strip ((m.named (py"key")).getD [])), v)) = Except.ok (k, v) →
            Str.lower k = k := by
          intro r
          cases r with
          | error e => intro h; cases h
          | ok w =>
            cases m.named (py"unit") with
            | none => intro h; cases h; exact lower_lower _
            | some unit =>
              show (if unit.isEmpty = true then _ else _) = _ → _
              split <;> intro h <;> cases h <;> exact lower_lower _
        split <;> exact key _

theorem segment_key {s : List Str} {k : Str} {v : PyVal} (h : segment s = .ok (some (k, v))) : Str.lower k = k := by
  cases s with
  | nil => cases h
  | cons l blk =>
    by_cases ho : OpensBlock l
    · rw [segment_block ho] at h
      cases ht : (Str.split (clean l))[1]? with
      | none => rw [ht] at h; cases h
      | some t =>
        rw [ht] at h
        simp only at h
        cases hp : parserFor (Str.lower t) ⟨0, 0, strip_comments blk (remove_inline := true)⟩ with
        | error e => rw [hp] at h; cases h
        | ok w => rw [hp] at h; cases h; exact lower_lower _
    · rw [segment, if_neg (fun h' => ho ((isStart_iff l).1 h'))] at h
      exact settingWith_key h

end Cell
end Verif

import Verif.Lemmas.SmallBlocks
import Verif.Lemmas.ErrFile
import Verif.Lemmas.ElasticProps
import Verif.Spec.Symmetry
/- The report on symmetry and constraints. -/
namespace Verif.Castep.Sym
open Verif Re NumRe AtomRe Spec Castep

/-! ### Texts -/

/-- A text cannot begin within a prefix that does not have its first character. -/
theorem occurs_prefix {c : Nat} {w p s : Str} (hp : c ∉ p) : Occurs (c :: w) (p ++ s) ↔ Occurs (c :: w) s := by
  constructor
  · rintro ⟨a, b, e⟩
    rw [List.append_assoc] at e
    rcases List.append_eq_append_iff.1 e with ⟨x, h1, h2⟩ | ⟨x, h1, h2⟩
    · exact ⟨x, b, by rw [h2]; simp⟩
    · cases x with
      | nil => exact ⟨[], b, by simpa using h2.symm⟩
      | cons d x =>
        rw [List.cons_append, List.cons_append] at h2
        injection h2 with h3 _
        exact absurd (by rw [h1, h3]; simp) hp
  · rintro ⟨a, b, e⟩
    exact ⟨p ++ a, b, by rw [e]; simp⟩

theorem lower_keyName {s k : Str} (h : KeyName s k) : Str.lower k = k := by
  obtain ⟨ws, -, rfl⟩ := h
  rw [Str.lower_join, List.map_map]
  congr 1
  exact List.map_congr_left fun w _ => _root_.Verif.lower_idem w

theorem lower_suffix {a b : Str} (h : Str.lower (a ++ b) = a ++ b) : Str.lower b = b := by
  simp only [Str.lower, List.map_append] at h
  exact (List.append_inj h (by simp)).2

theorem join_splitC (c : Nat) : ∀ s : Str, Str.join [c] (Str.splitC c s) = s
  | [] => rfl
  | a :: s => by
    have ih := join_splitC c s
    rw [Str.splitC]
    cases h : Str.splitC c s with
    | nil => exact absurd (congrArg List.length h) (by rw [LineTab.splitC_length]; simp)
    | cons x t =>
      rw [h] at ih
      by_cases ha : a = c
      · rw [if_pos ha, Str.join, ih, ha]; rfl
      · rw [if_neg ha]
        cases t with
        | nil => rw [Str.join] at ih ⊢; rw [ih]
        | cons y t => rw [Str.join] at ih ⊢; rw [List.cons_append, List.cons_append, ih]

theorem contains_true {w l : Str} (h : Occurs w l) : Str.contains w l = true := (Str.contains_iff _ _).2 h
theorem contains_false {w l : Str} (h : ¬ Occurs w l) : ¬ Str.contains w l = true := fun h' => h ((Str.contains_iff _ _).1 h')

/-! ### Items -/

theorem eqn_split {l name b : Str} (h : SymItem.Eqn l name b) :
    61 ∈ l ∧ ∃ a, Str.splitC 61 l = [a, b] ∧ normalise_key a = name := by
  obtain ⟨a, rfl, h1, h2, h3⟩ := h
  exact ⟨by simp, a, by rw [splitC_append _ _ _ h1, splitC_of_notMem _ _ h2], LineTab.keyName h3⟩

theorem norm_fields {b : Str} {ws : List Str} (h : Fields b ws) : normalise_string b = SymItem.phrase ws := by
  rw [normalise_string, split_strip, (fields_iff b _).1 h]; rfl

theorem item_deviation {fl : Numeral → F64} {x : Numeral} {l b : Str} {more : List Str} (hx : pyFloat x.text = .ok (fl x))
    (h : SymItem.Eqn l (py"maximum_deviation_from_symmetry") b) (hf : Fields b (x.text :: more)) :
    symmetryItem l = .ok (py"max_deviation", .float (fl x)) := by
  obtain ⟨-, a, e1, e2⟩ := eqn_split h
  have : Str.split (normalise_string b) = x.text :: more := by
    rw [norm_fields hf]; exact Params.split_join (Params.fields_words hf)
  rw [symmetryItem, e1]
  simp only [pair, Delta.ok_bind, e2, if_pos, this, at_, List.getElem?_cons_zero, LineTab.floatV_ok hx]
  rfl

theorem item_count {name : Str} {n : Numeral} {l b : Str} (hn : SymItem.IsWhole n) (h : SymItem.Eqn l (py"number_of_" ++ name) b) (hf : Fields b [n.text]) :
    symmetryItem l = .ok (py"num_" ++ name, .int (intOf n)) := by
  obtain ⟨-, a, e1, e2⟩ := eqn_split h
  have hl : Str.lower name = name := by
    obtain ⟨a, -, -, -, hk⟩ := h
    exact lower_suffix (lower_keyName hk)
  have hs : Str.splitC 95 (py"number_of_" ++ name) = py"number" :: py"of" :: Str.splitC 95 name := by
    rw [show py"number_of_" ++ name = py"number" ++ 95 :: (py"of" ++ 95 :: name) by simp, splitC_append _ _ _ (by decide), splitC_append _ _ _ (by decide)]
  rw [symmetryItem, e1]
  simp only [pair, Delta.ok_bind, e2]
  rw [if_neg (by intro h; have := congrArg List.head? h; revert this; simp), if_pos (contains_true ⟨[], py"_" ++ name, by simp⟩), hs, norm_fields hf]
  simp only [SymItem.phrase, Str.join, to_type, typeParser_int hn.1 hn.2, List.drop_succ_cons, List.drop_zero, Delta.ok_bind]
  rw [show (py"_") = [95] from rfl, join_splitC, hl]
  rfl

theorem strip_phrase {ws : List Str} (h : SymItem.PhraseOk ws) : Str.strip (32 :: SymItem.phrase ws) = SymItem.phrase ws := by
  have hf : Fields (SymItem.phrase ws) ws := (fields_iff _ _).2 (Params.split_join fun w hw => ⟨(h.2 w hw).1, fun c hc => ((h.2 w hw).2 c hc).1⟩)
  have e := strip_words hf
  rw [normalise_words hf] at e
  have : Str.strip (32 :: SymItem.phrase ws) = Str.strip (SymItem.phrase ws) := by
    simp [Str.strip, Str.lstrip, isSpace]
  rw [this]
  exact e

theorem comma_phrase {ws : List Str} (h : SymItem.PhraseOk ws) : 44 ∉ (32 :: SymItem.phrase ws) := by
  have : ∀ ws : List Str, (∀ w ∈ ws, 44 ∉ w) → 44 ∉ Str.join (py" ") ws := by
    intro ws
    induction ws with
    | nil => intro _; simp [Str.join]
    | cons a ws ih =>
      intro h
      cases ws with
      | nil => exact h a (by simp)
      | cons b ws =>
        rw [Str.join]
        simp only [List.mem_append, not_or]
        exact ⟨⟨h a (by simp), by decide⟩, ih fun w hw => h w (by simp [hw])⟩
  simp only [List.mem_cons, not_or]
  exact ⟨by decide, this ws fun w hw hc => ((h.2 w hw).2 _ hc).2 rfl⟩

theorem colon_num {n : Numeral} (hn : SymItem.IsWhole n) (s : Str) : colonPair (n.text ++ 58 :: s) = .ok (n.text, s) := by
  have hc : ∀ x ∈ n.text, (x != 58) = true := by
    intro x hx
    rcases text_chars n hn.1 hn.2.2 x hx with h | rfl | rfl | rfl
    · rw [isDigit_iff] at h; simp; omega
    all_goals rfl
  rw [colonPair, if_pos (by simp), splitOnce, List.takeWhile_append_of_pos hc, List.dropWhile_append_of_pos hc]
  simp

theorem item_point {id : Numeral} {a b c : List Str} {l v : Str} (hid : SymItem.IsWhole id) (ha : SymItem.PhraseOk a) (hb : SymItem.PhraseOk b) (hc : SymItem.PhraseOk c)
    (h : SymItem.Eqn l (py"point_group_of_crystal") v)
    (hr : SymItem.Reads v (id.text ++ 58 :: 32 :: (SymItem.phrase a ++ 44 :: 32 :: (SymItem.phrase b ++ 44 :: 32 :: SymItem.phrase c)))) :
    symmetryItem l = .ok (py"point_group", .dict [(.str (py"id"), .int (intOf id)), (.str (py"schoenflies"), .str (SymItem.phrase a)),
      (.str (py"hermann_mauguin"), .str (SymItem.phrase b)), (.str (py"hermann_mauguin_full"), .str (SymItem.phrase c))]) := by
  obtain ⟨-, x, e1, e2⟩ := eqn_split h
  obtain ⟨ws, hf, hw⟩ := hr
  have hp : commaParts (32 :: (SymItem.phrase a ++ 44 :: 32 :: (SymItem.phrase b ++ 44 :: 32 :: SymItem.phrase c))) = [SymItem.phrase a, SymItem.phrase b, SymItem.phrase c] := by
    rw [commaParts, ← List.cons_append, splitC_append _ _ _ (comma_phrase ha), ← List.cons_append, splitC_append _ _ _ (comma_phrase hb),
      splitC_of_notMem _ _ (comma_phrase hc)]
    simp only [List.map_cons, List.map_nil, strip_phrase ha, strip_phrase hb, strip_phrase hc]
  rw [symmetryItem, e1]
  simp only [pair, Delta.ok_bind, e2]
  rw [if_neg (by decide), if_neg (by decide +kernel), if_pos (by decide +kernel), norm_fields hf, hw, pointGroup, colon_num hid]
  simp only [Delta.ok_bind]
  rw [hp]
  simp only [Delta.intV_ok hid.1 hid.2, Delta.ok_bind]
  rfl

theorem item_space {id : Numeral} {a b : List Str} {l v : Str} (hid : SymItem.IsWhole id) (ha : SymItem.PhraseOk a) (hb : SymItem.PhraseOk b)
    (h : SymItem.Eqn l (py"space_group_of_crystal") v)
    (hr : SymItem.Reads v (id.text ++ 58 :: 32 :: (SymItem.phrase a ++ 44 :: 32 :: SymItem.phrase b))) :
    symmetryItem l = .ok (py"space_group", .dict [(.str (py"id"), .int (intOf id)), (.str (py"international"), .str (SymItem.phrase a)),
      (.str (py"hall"), .str (SymItem.phrase b))]) := by
  obtain ⟨-, x, e1, e2⟩ := eqn_split h
  obtain ⟨ws, hf, hw⟩ := hr
  have hp : commaParts (32 :: (SymItem.phrase a ++ 44 :: 32 :: SymItem.phrase b)) = [SymItem.phrase a, SymItem.phrase b] := by
    rw [commaParts, ← List.cons_append, splitC_append _ _ _ (comma_phrase ha), splitC_of_notMem _ _ (comma_phrase hb)]
    simp only [List.map_cons, List.map_nil, strip_phrase ha, strip_phrase hb]
  rw [symmetryItem, e1]
  simp only [pair, Delta.ok_bind, e2]
  rw [if_neg (by decide), if_neg (by decide +kernel), if_neg (by decide +kernel), if_pos (by decide +kernel), norm_fields hf, hw, spaceGroup, colon_num hid]
  simp only [Delta.ok_bind]
  rw [hp]
  simp only [Delta.intV_ok hid.1 hid.2, Delta.ok_bind]
  rfl

theorem item_text {key : Str} {value : List Str} {l b : Str} (hok : (SymItem.text key value).Ok) (h : SymItem.Eqn l key b) (hf : Fields b value) :
    symmetryItem l = .ok (key, .str (SymItem.phrase value)) := by
  obtain ⟨h1, h2, h3, h4, -⟩ := hok
  obtain ⟨-, x, e1, e2⟩ := eqn_split h
  rw [symmetryItem, e1]
  simp only [pair, Delta.ok_bind, e2]
  rw [if_neg h1, if_neg (contains_false h2), if_neg (contains_false h3), if_neg (contains_false h4), norm_fields hf]
  rfl

/-! ### Operations -/

abbrev ROT : Re := .seq (star sp) (.seq (plus dig) (.seq (star sp) (litThen (py"rotation") (star sp))))
theorem ROT_eq : ROTATION_RE = ⟨ROT, [], 0⟩ := by decide +kernel

theorem rot_hit {l num : Str} {more : List Str} (h : Fields l (num :: py"rotation" :: more)) (hn : Numeral.AllDigits num) : (ROTATION_RE.match_ l).isSome = true := by
  have : ∃ m, (⟨ROT, [], 0⟩ : Pat).match_ l = some m ∧ True ∧ m.names = [] := by
    refine Gets.match_ (p := ⟨ROT, [], 0⟩) (C := fun _ => True) ?_
    obtain ⟨g, s, rfl, h1, h2, h3, h4, h5⟩ := fields_next h
    refine Gets.stars (fun c hc => by rw [has_sp]; exact h1 c hc) (by
      intro c hc
      cases num with
      | nil => exact absurd rfl h2
      | cons d num => cases hc; rw [has_sp]; exact h3 _ (by simp)) ?_
    have aft : _root_.Verif.After s (py"rotation" :: more) := ⟨h4, h5⟩
    refine Tddft.digitsAt hn h2 aft.endsNumber ?_
    refine Gets.gap aft fun p2 s2 _ a2 => ?_
    refine Gets.lit _ _ ?_
    have e : s2 = s2.takeWhile isSpace ++ s2.dropWhile isSpace := List.takeWhile_append_dropWhile.symm
    rw [e]
    refine ⟨_, run_star_all sp (s2.takeWhile isSpace) _ _ _ _ some _ (fun c hc => by rw [has_sp]; exact mem_takeWhile hc) ?_ (by simp) rfl, trivial⟩
    intro c hc
    rw [has_sp]
    exact (lstrip_spec s2).2 c hc
  rw [ROT_eq]
  obtain ⟨m, hm, -⟩ := this
  rw [hm]; rfl

theorem rot_miss {l : Str} (h : SymItem.NotRotation l) : ¬ (ROTATION_RE.match_ l).isSome = true := by
  intro hm
  obtain ⟨m, hm⟩ := Option.isSome_iff_exists.1 hm
  obtain ⟨b, e, hl⟩ := match_found hm
  rw [ROT_eq] at hl
  obtain ⟨u1, v1, e1, h1, u2, v2, rfl, h2, u3, v3, rfl, h3, h4⟩ := hl
  have h4 : Lang (litThen (py"rotation") (star sp)) v3 := h4
  rcases h with h | h
  · obtain ⟨t, rfl, -⟩ := lang_litThen h4
    exact h ⟨u1 ++ u2 ++ u3, t ++ b, by rw [e, e1]; simp⟩
  · obtain ⟨h2a, h2b⟩ := (lang_rep_set _ _ _ _ _).1 h2
    have b1 : Blank u1 := fun y hy => by have := ((lang_rep_set _ _ _ _ _).1 h1).1 y hy; rwa [has_sp] at this
    cases u2 with
    | nil => exact absurd h2b (by simp)
    | cons c u2 =>
      have hd : isDigit c = true := by have := h2a c (by simp); rwa [has_dig] at this
      refine SmallTab.first_word (s := l) (u := u1) (w := c :: u2) (rest := u3 ++ v3 ++ b) h (by rw [e, e1]; simp) b1 ?_ (List.mem_cons_self ..) ((isDigit_iff c).1 hd)
      intro x hx
      have := h2a x hx
      rw [has_dig] at this
      exact isDigit_not_space this

theorem relatedAtoms_ok (key : Str) : ∀ {ns : List Numeral}, (∀ n ∈ ns, SymItem.IsWhole n) →
    relatedAtoms key (ns.map Numeral.text) = .ok (ns.map fun n => .tuple [.str key, .int (intOf n)])
  | [], _ => rfl
  | n :: ns, h => by
    rw [List.map_cons, relatedAtoms, (pyInt_isInt n (h n (by simp)).1 (h n (by simp)).2).1]
    simp only [Delta.ok_bind, relatedAtoms_ok key fun m hm => h m (List.mem_cons_of_mem _ hm)]
    rfl

/-- The stripped line of related atoms. -/
theorem strip_label {g a b : Str} (hg : Blank g) (ha : SymItem.LabelOk a) : ∃ b', Str.strip (g ++ (a ++ 58 :: b)) = a ++ 58 :: b' ∧ Str.split b' = Str.split b ∧ (∀ c ∈ b', c ∈ b) ∧ (∀ c, isSpace c = false → c ∈ b → c ∈ b') := by
  obtain ⟨⟨gg, e, hb⟩, hlast⟩ := rstripped_rstrip b
  generalize Str.rstrip b = b' at e hlast
  subst e
  refine ⟨b', (stripped_iff _ _).2 ⟨⟨g, gg, by simp, hg, hb⟩, ?_, ?_⟩, ?_, fun c hc => by simp [hc], fun c hc hm => ?_⟩
  · intro c hc
    obtain ⟨hne, hs, -⟩ := ha
    cases a with
    | nil => exact absurd rfl hne
    | cons d a => cases hc; exact hs c (by simp)
  · intro c hc
    rw [List.getLast?_append, List.getLast?_cons] at hc
    cases hl : b'.getLast? with
    | none => rw [hl] at hc; simp at hc; subst hc; decide
    | some x => rw [hl] at hc; simp at hc; subst hc; exact hlast _ hl
  · obtain ⟨⟨x, y, e, hx, hy⟩, k1, k2⟩ := (stripped_iff b' _).1 rfl
    have : Str.strip (b' ++ gg) = Str.strip b' := by
      refine (stripped_iff _ _).2 ⟨⟨x, y ++ gg, ?_, hx, ?_⟩, k1, k2⟩
      · conv_lhs => rw [e]
        simp
      · intro c hc
        rcases List.mem_append.1 hc with hc | hc
        · exact hy c hc
        · exact hb c hc
    rw [← split_strip (b' ++ gg), this, split_strip]
  · rcases List.mem_append.1 hm with hm | hm
    · exact hm
    · rw [hb c hm] at hc; cases hc

theorem related_line {r : Str × List Numeral} {l : Str} (h : SymItem.Related r l) (hr : SymItem.LabelOk r.1) (hn : ∀ n ∈ r.2, SymItem.IsWhole n) (ls : List Str) :
    related (l :: ls) = (do
      let (b, rest) ← related ls
      return (r.2.map (fun n => PyVal.tuple [.str r.1, .int (intOf n)]) ++ b, rest)) := by
  obtain ⟨g, b, rfl, hg, hb, hf⟩ := h
  obtain ⟨b', e1, e2, e3, -⟩ := strip_label (b := b) hg hr
  rw [related, e1]
  dsimp only
  rw [if_neg (by simp), splitC_append _ _ _ hr.2.2, splitC_of_notMem _ _ (fun h => hb (e3 _ h))]
  simp only [pair, Delta.ok_bind, e2, (fields_iff _ _).1 hf, relatedAtoms_ok r.1 hn]

theorem related_ok {rel : List (Str × List Numeral)} {rels : List Str} (h : List.Forall₂ SymItem.Related rel rels)
    (hok : ∀ r ∈ rel, SymItem.LabelOk r.1 ∧ ∀ n ∈ r.2, SymItem.IsWhole n) (more : List Str) :
    related (rels ++ more) = (do
      let (b, rest) ← related more
      return ((rel.flatMap fun r => r.2.map fun n => PyVal.tuple [.str r.1, .int (intOf n)]) ++ b, rest)) := by
  induction h with
  | nil => 
    rw [List.nil_append]
    cases related more <;> rfl
  | @cons r l rel rels hl _ ih =>
    have hr := hok r (by simp)
    rw [List.cons_append, related_line hl hr.1 hr.2, ih fun r hr => hok r (List.mem_cons_of_mem _ hr)]
    cases related more with
    | error e => rfl
    | ok p => simp [Delta.ok_bind, pure, Except.pure]

theorem related_blank {l : Str} (h : Blank l) (ls : List Str) : related (l :: ls) = .ok ([], ls) := by
  rw [related]
  dsimp only
  rw [if_pos ((_root_.Verif.strip_isEmpty l).2 h)]

theorem related_tagged {l : Str} (h : SymItem.Tagged l) (ls : List Str) : related (l :: ls) = .error .valueError := by
  obtain ⟨g, a, t, b, rfl, hg, ha⟩ := h
  obtain ⟨b', e1, -, -, e4⟩ := strip_label (b := t ++ 58 :: b) hg ha
  have h1 := LineTab.splitC_length 58 (a ++ 58 :: b')
  have h2 : 0 < b'.count 58 := List.count_pos_iff.2 (e4 58 (by decide) (by simp))
  rw [related, e1]
  dsimp only
  rw [if_neg (by simp)]
  have : pair (Str.splitC (c!":") (a ++ 58 :: b')) = .error .valueError := by
    unfold pair
    split
    · rename_i e
      rw [e] at h1
      simp [List.count_append] at h1
      omega
    · rfl
  rw [this]
  rfl

theorem symop_eq {rd : Numeral → F64} (hrd : ∀ n : Numeral, n.Valid → n.InRange → parse_float_or_rational n.text = .ok (rd n)) {o : SymOp} {head : List Str}
    (h : SymItem.OpHead o head) (hok : SymItem.OpOk o) (more : List Str) :
    ∃ title tl, head = title :: tl ∧ 61 ∉ title ∧ (ROTATION_RE.match_ title).isSome = true ∧ symop (tl ++ more) = (do
      let (rel, rest) ← related more
      return (.dict [(.str (py"rotation"), .list (o.rot.map (SymItem.floats rd))), (.str (py"symmetry_related"), .list rel),
        (.str (py"displacement"), SymItem.floats rd o.disp)], rest)) := by
  obtain ⟨title, r1, r2, r3, t2, d, t3, num, m, rfl, h1, h2, h3, h4, h5⟩ := h
  obtain ⟨k1, k2, -⟩ := hok
  refine ⟨title, _, rfl, h1, rot_hit h2 h3, ?_⟩
  have num : ∀ {l : Str} {ns : List Numeral}, HasNumbers l ns → (∀ n ∈ ns, SymItem.IsReal n) → numbersOf l = .ok (SymItem.floats rd ns) :=
    fun h hk => numbersOf_of h (fun n hn => (hk n hn).1) fun n hn => hrd n (hk n hn).1 (hk n hn).2
  obtain ⟨rot, disp, rel⟩ := o
  obtain _ | ⟨a1, _ | ⟨a2, _ | ⟨a3, a4⟩⟩⟩ := h4
  cases a4
  rw [symop]
  simp only [List.cons_append, List.take_succ_cons, List.take_zero, List.drop_succ_cons, List.drop_zero, Cell.mapM', nextLine, Delta.ok_bind,
    List.nil_append, num a1 (k1 _ (by simp)), num a2 (k1 _ (by simp)), num a3 (k1 _ (by simp)), num h5 k2]
  rfl

/-! ### Lines -/

theorem CON_eq : CONSTRAINTS_RE.re = litThen (py"constraints") (.rep true 5 (some 5) (.set (ch 46))) := by decide +kernel

theorem con_miss {l : Str} (h : ¬ Occurs (py"constraints.....") l) : found CONSTRAINTS_RE l = false := by
  rw [← Bool.not_eq_true]
  intro hf
  obtain ⟨a, w, b, rfl, hl⟩ := Magres.found_lang hf
  rw [CON_eq] at hl
  obtain ⟨t, rfl, ht⟩ := lang_litThen hl
  obtain ⟨h1, h2, h3⟩ := (lang_rep_set _ _ _ _ _).1 ht
  have hlen : t.length = 5 := Nat.le_antisymm (h3 5 rfl) h2
  have : t = List.replicate 5 46 := by
    rw [← hlen]
    exact List.eq_replicate_iff.2 ⟨rfl, fun c hc => by have := h1 c hc; rw [has_ch] at this; simpa using this⟩
  subst this
  exact h ⟨a, b, by simp⟩

theorem block_con {l : Str} (rest : List Str) (h : ¬ Occurs (py"constraints.....") l) :
    blockOf (found CONSTRAINTS_RE) (found CONSTRAINTS_END_RE) 1 false l rest = .ok (none, rest) := by
  rw [blockOf, Block.from_re, con_miss h]; rfl

abbrev kOp : Key := .str (py"symop")

/-- The operations so far. -/
def Inv (es : List (Key × PyVal)) (prev : List PyVal) : Prop := (Dict.ofList es).get? kOp = if prev = [] then Option.none else some (.list prev)

theorem Inv.snoc {es : List (Key × PyVal)} {prev : List PyVal} (h : Inv es prev) {k : Key} {v : PyVal} (hk : k ≠ kOp) : Inv (es ++ [(k, v)]) prev := by
  rw [Inv, Params.ofList_snoc, Dict.get?_set_ne _ _ _ _ hk.symm]
  exact h

theorem Inv.op {es : List (Key × PyVal)} {prev : List PyVal} {x : PyVal} : Inv (es ++ [(kOp, .list (prev ++ [x]))]) (prev ++ [x]) := by
  rw [Inv, Params.ofList_snoc, Dict.get?_set_self, if_neg (by simp)]

/-- What one item adds. -/
noncomputable def add (rd fl : Numeral → F64) (prev : List PyVal) (i : SymItem) : List (Key × PyVal) := (i.symmetry fl (prev ++ SymItem.ops rd [i])).toList

theorem line_eqn {l key : Str} {v : PyVal} (h : 61 ∈ l) (hi : symmetryItem l = .ok (key, v)) (rest : List Str) (sym con : Dict Key PyVal) :
    symmetryLine l rest sym con = .ok (if Str.contains (py"constraints") key then (sym, con.set (.str key) v, rest) else (sym.set (.str key) v, con, rest)) := by
  rw [symmetryLine, if_pos h, hi]
  simp only [Delta.ok_bind]
  split <;> rfl

theorem line_plain {l : Str} (h : SymItem.Plain l) (rest : List Str) (sym con : Dict Key PyVal) :
    symmetryLine l rest sym con = symmetryOther l rest sym con := by
  rw [symmetryLine, if_neg h.1, if_neg (rot_miss h.2)]

theorem line {rd fl : Numeral → F64} (hrd : ∀ n : Numeral, n.Valid → n.InRange → parse_float_or_rational n.text = .ok (rd n))
    (hfl : ∀ n : Numeral, n.Valid → n.InRange → pyFloat n.text = .ok (fl n)) {i : SymItem} {a : List Str} (h : i.Lines a) (hok : i.Ok) (rest : List Str)
    (es cs : List (Key × PyVal)) (prev : List PyVal) (hinv : Inv es prev) :
    (∃ l a', a = l :: a' ∧ symmetryLine l (a' ++ rest) (Dict.ofList es) (Dict.ofList cs) =
      .ok (Dict.ofList (es ++ add rd fl prev i), Dict.ofList (cs ++ i.constraint.toList), rest)) ∧
    Inv (es ++ add rd fl prev i) (prev ++ SymItem.ops rd [i]) := by
  have e0 : ∀ i : SymItem, (∀ o, i ≠ .op o) → prev ++ SymItem.ops rd [i] = prev := by
    intro i hi
    cases i <;> simp [SymItem.ops]
    exact absurd rfl (hi _)
  cases i with
  | deviation x =>
    obtain ⟨l, b, more, rfl, h1, h2⟩ := h
    rw [e0 _ (by simp)]
    refine ⟨⟨l, [], rfl, ?_⟩, hinv.snoc (by decide)⟩
    rw [line_eqn (eqn_split h1).1 (item_deviation (hfl x hok.1 hok.2) h1 h2), if_neg (by decide +kernel)]
    simp [add, SymItem.symmetry, SymItem.constraint, Params.ofList_snoc]
  | count name n =>
    obtain ⟨l, b, rfl, h1, h2⟩ := h
    rw [e0 _ (by simp)]
    have hc : Str.contains (py"constraints") (py"num_" ++ name) = true ↔ Occurs (py"constraints") name :=
      (Str.contains_iff _ _).trans (occurs_prefix (by decide))
    have he := line_eqn (eqn_split h1).1 (item_count hok h1 h2) ([] ++ rest) (Dict.ofList es) (Dict.ofList cs)
    by_cases ho : Occurs (py"constraints") name
    · rw [if_pos (hc.2 ho)] at he
      have ea : add rd fl prev (.count name n) = [] := by rw [add, SymItem.symmetry, if_pos ho]; rfl
      rw [ea, List.append_nil]
      refine ⟨⟨l, [], rfl, ?_⟩, hinv⟩
      rw [he, SymItem.constraint, if_pos ho]
      simp [Params.ofList_snoc]
    · rw [if_neg fun h => ho (hc.1 h)] at he
      have ea : add rd fl prev (.count name n) = [(.str (py"num_" ++ name), .int (intOf n))] := by rw [add, SymItem.symmetry, if_neg ho]; rfl
      rw [ea]
      refine ⟨⟨l, [], rfl, ?_⟩, hinv.snoc (by intro h; injection h with h; injection h with h; revert h; decide)⟩
      rw [he, SymItem.constraint, if_neg ho]
      simp [Params.ofList_snoc]
  | pointGroup id x y z =>
    obtain ⟨l, b, rfl, h1, h2⟩ := h
    rw [e0 _ (by simp)]
    refine ⟨⟨l, [], rfl, ?_⟩, hinv.snoc (by decide)⟩
    rw [line_eqn (eqn_split h1).1 (item_point hok.1 hok.2.1 hok.2.2.1 hok.2.2.2 h1 h2), if_neg (by decide +kernel)]
    simp [add, SymItem.symmetry, SymItem.constraint, Params.ofList_snoc]
  | spaceGroup id x y =>
    obtain ⟨l, b, rfl, h1, h2⟩ := h
    rw [e0 _ (by simp)]
    refine ⟨⟨l, [], rfl, ?_⟩, hinv.snoc (by decide)⟩
    rw [line_eqn (eqn_split h1).1 (item_space hok.1 hok.2.1 hok.2.2 h1 h2), if_neg (by decide +kernel)]
    simp [add, SymItem.symmetry, SymItem.constraint, Params.ofList_snoc]
  | text key value =>
    obtain ⟨l, b, rfl, h1, h2⟩ := h
    rw [e0 _ (by simp)]
    have hc : Str.contains (py"constraints") key = true ↔ Occurs (py"constraints") key := Str.contains_iff _ _
    have he := line_eqn (eqn_split h1).1 (item_text hok h1 h2) ([] ++ rest) (Dict.ofList es) (Dict.ofList cs)
    by_cases ho : Occurs (py"constraints") key
    · rw [if_pos (hc.2 ho)] at he
      have ea : add rd fl prev (.text key value) = [] := by rw [add, SymItem.symmetry, if_pos ho]; rfl
      rw [ea, List.append_nil]
      refine ⟨⟨l, [], rfl, ?_⟩, hinv⟩
      rw [he, SymItem.constraint, if_pos ho]
      simp [Params.ofList_snoc]
    · rw [if_neg fun h => ho (hc.1 h)] at he
      have ea : add rd fl prev (.text key value) = [(.str key, .str (SymItem.phrase value))] := by rw [add, SymItem.symmetry, if_neg ho]; rfl
      rw [ea]
      refine ⟨⟨l, [], rfl, ?_⟩, hinv.snoc (by intro h; injection h with h; exact hok.2.2.2.2 h)⟩
      rw [he, SymItem.constraint, if_neg ho]
      simp [Params.ofList_snoc]
  | op o =>
    obtain ⟨head, rels, last, rfl, h1, h2, h3⟩ := h
    obtain ⟨title, tl, rfl, k1, k2, k3⟩ := symop_eq hrd h1 hok (rels ++ (last :: rest))
    have hops : prev ++ SymItem.ops rd [.op o] = prev ++ [SymItem.opInfo rd o] := rfl
    rw [hops]
    have ea : add rd fl prev (.op o) = [(kOp, .list (prev ++ [SymItem.opInfo rd o]))] := rfl
    rw [ea]
    refine ⟨⟨title, tl ++ (rels ++ [last]), rfl, ?_⟩, Inv.op⟩
    rw [related_ok h2 hok.2.2, related_blank h3] at k3
    rw [symmetryLine, if_neg k1, if_pos k2, show tl ++ (rels ++ [last]) ++ rest = tl ++ (rels ++ last :: rest) by simp, k3]
    have hinv : (Dict.ofList es).get? kOp = if prev = [] then Option.none else some (.list prev) := hinv
    simp only [Delta.ok_bind, pure, Except.pure, MdGeom.appendTo, hinv, List.append_nil]
    by_cases hp : prev = []
    · subst hp
      simp [SymItem.opInfo, SymItem.constraint, Params.ofList_snoc, Delta.ok_bind]
    · rw [if_neg hp]
      simp [SymItem.opInfo, SymItem.constraint, Params.ofList_snoc, Delta.ok_bind]
  | supercell n =>
    obtain ⟨l, more, rfl, h1, h2, h3, h4⟩ := h
    rw [e0 _ (by simp)]
    refine ⟨⟨l, [], rfl, ?_⟩, hinv.snoc (by decide)⟩
    have hn : numAt .int l 0 = .ok (.int (intOf n)) := by
      rw [numAt, get_numbers_has h4 fun m hm => by rcases List.mem_cons.1 hm with rfl | hm; exacts [hok.1, h3 m hm]]
      simp only [List.map_cons, at_, List.getElem?_cons_zero, Delta.ok_bind, to_type]
      exact typeParser_int hok.1 hok.2
    rw [line_plain h1, symmetryOther, if_pos (contains_true h2), hn]
    simp [add, SymItem.symmetry, SymItem.constraint, Params.ofList_snoc, Delta.ok_bind, pure, Except.pure]
  | centre free =>
    obtain ⟨l, rfl, h1, h2, h3, h4⟩ := h
    rw [e0 _ (by simp)]
    refine ⟨⟨l, [], rfl, ?_⟩, by simpa [add, SymItem.symmetry] using hinv⟩
    have hf : Str.contains (py"NOT") l = free := by
      cases free with
      | true => exact contains_true (h4.1 rfl)
      | false => exact Bool.eq_false_iff.2 (contains_false fun h => by simpa using h4.2 h)
    rw [line_plain h1, symmetryOther, if_neg (contains_false h2), if_pos (contains_true h3), hf]
    simp [add, SymItem.symmetry, SymItem.constraint, Params.ofList_snoc]
  | cell ns =>
    obtain ⟨l, rfl, h1, h2, h3, h4, h5, h6⟩ := h
    rw [e0 _ (by simp)]
    refine ⟨⟨l, [], rfl, ?_⟩, by simpa [add, SymItem.symmetry] using hinv⟩
    have hn : intsOf l = .ok (.tuple (ns.map fun n => .int (intOf n))) := by
      rw [intsOf, get_numbers_has h6 fun n hn => (hok n hn).1]
      exact Internal.ints_ok fun n hn => hok n hn
    rw [line_plain h1, symmetryOther, if_neg (contains_false h2), if_neg (contains_false h3), block_con _ h4]
    simp only [Delta.ok_bind]
    rw [if_pos (contains_true h5), hn]
    simp [add, SymItem.symmetry, SymItem.constraint, Params.ofList_snoc, Delta.ok_bind, pure, Except.pure]
  | other =>
    obtain ⟨l, rfl, h1, h2, h3, h4, h5⟩ := h
    rw [e0 _ (by simp)]
    refine ⟨⟨l, [], rfl, ?_⟩, by simpa [add, SymItem.symmetry] using hinv⟩
    rw [line_plain h1, symmetryOther, if_neg (contains_false h2), if_neg (contains_false h3), block_con _ h4]
    simp only [Delta.ok_bind]
    rw [if_neg (contains_false h5)]
    simp [add, SymItem.symmetry, SymItem.constraint, pure, Except.pure]

theorem length_le {items : List SymItem} {ls : List (List Str)} (h : List.Forall₂ SymItem.Lines items ls) : items.length ≤ ls.flatten.length := by
  induction h with
  | nil => simp
  | @cons i a items ls hl _ ih =>
    rw [List.flatten_cons, List.length_append, List.length_cons]
    have : 1 ≤ a.length := by
      cases i with
      | op o => obtain ⟨head, rels, last, rfl, -⟩ := hl; simp only [List.length_append, List.length_cons]; omega
      | deviation => obtain ⟨_, _, _, rfl, -⟩ := hl; simp
      | count => obtain ⟨_, _, rfl, -⟩ := hl; simp
      | pointGroup => obtain ⟨_, _, rfl, -⟩ := hl; simp
      | spaceGroup => obtain ⟨_, _, rfl, -⟩ := hl; simp
      | text => obtain ⟨_, _, rfl, -⟩ := hl; simp
      | supercell => obtain ⟨_, _, rfl, -⟩ := hl; simp
      | centre => obtain ⟨_, rfl, -⟩ := hl; simp
      | cell => obtain ⟨_, rfl, -⟩ := hl; simp
      | other => obtain ⟨_, rfl, -⟩ := hl; simp
    omega

/-- What the items add, one after the other. -/
noncomputable def cum (rd fl : Numeral → F64) : List PyVal → List SymItem → List (Key × PyVal)
  | _, [] => []
  | prev, i :: l => add rd fl prev i ++ cum rd fl (prev ++ SymItem.ops rd [i]) l

theorem loop {rd fl : Numeral → F64} (hrd : ∀ n : Numeral, n.Valid → n.InRange → parse_float_or_rational n.text = .ok (rd n))
    (hfl : ∀ n : Numeral, n.Valid → n.InRange → pyFloat n.text = .ok (fl n)) {items : List SymItem} {ls : List (List Str)}
    (h : List.Forall₂ SymItem.Lines items ls) : (∀ i ∈ items, i.Ok) → ∀ (more : List Str) (k : Nat) (es cs : List (Key × PyVal)) (prev : List PyVal), Inv es prev →
      symmetryLoop (k + items.length) (ls.flatten ++ more) (Dict.ofList es) (Dict.ofList cs) =
        symmetryLoop k more (Dict.ofList (es ++ cum rd fl prev items)) (Dict.ofList (cs ++ items.filterMap SymItem.constraint)) := by
  induction h with
  | nil => intro _ more k es cs prev _; simp [cum]
  | @cons i a items ls hl _ ih =>
    intro hok more k es cs prev hinv
    obtain ⟨⟨l, a', rfl, h1⟩, h2⟩ := line hrd hfl hl (hok i (by simp)) (ls.flatten ++ more) es cs prev hinv
    rw [List.flatten_cons, List.append_assoc, List.cons_append, List.length_cons, ← Nat.add_assoc, symmetryLoop, h1]
    simp only [Delta.ok_bind]
    rw [ih (fun i hi => hok i (by simp [hi])) more k _ _ _ h2, cum]
    cases hc : i.constraint <;> simp [hc]

theorem no_ops (rd fl : Numeral → F64) (X : List PyVal) : ∀ items : List SymItem,
    (items.filterMap (SymItem.symmetry fl X)).reverse.find? (fun q => q.1 == kOp) = Option.none → SymItem.ops rd items = []
  | [], _ => rfl
  | i :: items, h => by
    rw [List.find?_eq_none] at h
    have ih := no_ops rd fl X items (by
      rw [List.find?_eq_none]
      intro q hq
      refine h q ?_
      rw [List.mem_reverse] at hq ⊢
      rw [List.filterMap_cons]
      split
      · exact hq
      · exact List.mem_cons_of_mem _ hq)
    cases i with
    | op o => exact absurd (h (kOp, .list X) (by simp [SymItem.symmetry])) (by simp)
    | _ => simpa [SymItem.ops] using ih

/-- The last operations are all. -/
theorem cum_find (rd fl : Numeral → F64) (k : Key) : ∀ (items : List SymItem) (prev : List PyVal),
    (cum rd fl prev items).map Prod.fst = (items.filterMap (SymItem.symmetry fl (prev ++ SymItem.ops rd items))).map Prod.fst ∧
    (cum rd fl prev items).reverse.find? (fun q => q.1 == k) =
      (items.filterMap (SymItem.symmetry fl (prev ++ SymItem.ops rd items))).reverse.find? (fun q => q.1 == k)
  | [], prev => ⟨rfl, rfl⟩
  | i :: items, prev => by
    have ih := cum_find rd fl k items (prev ++ SymItem.ops rd [i])
    have e : prev ++ SymItem.ops rd (i :: items) = prev ++ SymItem.ops rd [i] ++ SymItem.ops rd items := by
      cases i <;> simp [SymItem.ops]
    rw [e, cum, add]
    generalize prev ++ SymItem.ops rd [i] = p at ih
    obtain ⟨ih1, ih2⟩ := ih
    have key : (∀ o, i ≠ .op o) → ∀ X Y, i.symmetry fl X = i.symmetry fl Y := by
      intro hi X Y
      cases i with
      | op o => exact absurd rfl (hi o)
      | _ => rfl
    have same : (∀ o, i ≠ .op o) → _ := fun hi => key hi p (p ++ SymItem.ops rd items)
    by_cases hi : ∀ o, i ≠ .op o
    · rw [same hi]
      cases hs : i.symmetry fl (p ++ SymItem.ops rd items) with
      | none => rw [List.filterMap_cons_none hs]; exact ⟨ih1, ih2⟩
      | some q =>
        rw [List.filterMap_cons_some hs]
        simp only [Option.toList, List.cons_append, List.nil_append, List.map_cons, List.reverse_cons, List.find?_append, ih1, ih2]
        exact ⟨trivial, trivial⟩
    · obtain ⟨o, rfl⟩ : ∃ o, i = .op o := by
        by_contra hc
        exact hi fun o ho => hc ⟨o, ho⟩
      rw [List.filterMap_cons_some (show SymItem.symmetry fl (p ++ SymItem.ops rd items) (.op o) = some (kOp, PyVal.list (p ++ SymItem.ops rd items)) from rfl)]
      simp only [SymItem.symmetry, Option.toList, List.cons_append, List.nil_append, List.map_cons, List.reverse_cons, List.find?_append, ih1, ih2]
      refine ⟨trivial, ?_⟩
      cases hf : (items.filterMap (SymItem.symmetry fl (p ++ SymItem.ops rd items))).reverse.find? (fun q => q.1 == k) with
      | some q => rfl
      | none =>
        by_cases hk : kOp = k
        · subst hk
          rw [no_ops rd fl _ items hf]; simp
        · simp [hk]

end Verif.Castep.Sym
